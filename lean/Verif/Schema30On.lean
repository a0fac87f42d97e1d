import Verif.Schema30

/-!
# `SchemaOrRef.FromJSONSchema` on a receiver that has content

`Verif.Schema30` has the conversion into a new `SchemaOrRef`. The method is public and can be called on any value; nested
schemas are converted into new values always (`/repo/openapi3/jsonschema.go:217,253,259,305,344`).
-/

namespace Verif.V30

/-- The fields of `Schema` (`/repo/openapi3/entities.go:1666-1704`). -/
structure Parts where
  flat : OFlat := {}
  not : Option OS := none
  allOf : List OS := []
  oneOf : List OS := []
  anyOf : List OS := []
  items : Option OS := none
  props : List (String × OS) := []
  addlBool : Option Bool := none
  addl : Option OS := none

/-- `SchemaOrRef` with its two pointers, any of which may be set (`/repo/openapi3/entities.go:2186-2189`). -/
structure Recv where
  ref : Option String := none
  schema : Option Parts := none

/-- The value as it is read by the rest of the code: the reference goes first
(`/repo/openapi3/jsonschema.go:47-73`). -/
def Recv.os (r : Recv) : OS :=
  match r.ref, r.schema with
  | some ref, _ => .ref ref
  | none, some p => .schema p.flat p.not p.allOf p.oneOf p.anyOf p.items p.props p.addlBool p.addl
  | none, none => .empty

/-- `if len(js.Examples) > 0 { os.Example = &js.Examples[0] }` and the like: set if given. -/
def given {α : Type} (new old : Option α) : Option α :=
  match new with
  | some x => some x
  | none => old

/-- `if js.MinItems != 0 { os.MinItems = &js.MinItems }`. `/repo/openapi3/jsonschema.go:279-281`. -/
def givenInt (new : Int) (old : Option Int) : Option Int := if new ≠ 0 then some new else old

/-- The types and `Nullable` after the calls of `checkNullable`. `/repo/openapi3/jsonschema.go:238-246`. -/
def typeOnto (ty : Option JType) (old : Option String × Option Bool) : Option String × Option Bool :=
  (JType.list ty).foldl (fun os t => checkNullable t os) old

/-- The loop over the extra properties. `/repo/openapi3/jsonschema.go:316-325`. The entries are visited in the order of the
list; the result as a map does not depend on it. -/
def extOnto (extra old : GoMap Any) : GoMap Any :=
  extra.foldl (fun m p => if goHasPrefix p.1 "x-" then GoMap.set m p.1 p.2 else m) old

/-- The part of `FromJSONSchema` that sets plain fields. `/repo/openapi3/jsonschema.go:213,225-246,263-301,312-325`. -/
def flatOnto (js : JFlat) (old : OFlat) : OFlat :=
  { old with
    reflectType := js.reflectType
    title := js.title
    description := js.description
    required := js.required
    default := js.default
    enum := js.enum
    example_ := given js.examples.head? old.example_
    deprecated := js.deprecated
    type := (typeOnto js.type (old.type, old.nullable)).1
    nullable := (typeOnto js.type (old.type, old.nullable)).2
    exclusiveMaximum := if js.exclusiveMaximum.isSome then some true else old.exclusiveMaximum
    maximum := if js.exclusiveMaximum.isSome then js.maximum else given js.maximum old.maximum
    exclusiveMinimum := if js.exclusiveMinimum.isSome then some true else old.exclusiveMinimum
    minimum := if js.exclusiveMinimum.isSome then js.minimum else given js.minimum old.minimum
    format := js.format
    minItems := givenInt js.minItems old.minItems
    maxItems := js.maxItems
    minLength := givenInt js.minLength old.minLength
    maxLength := js.maxLength
    minProperties := givenInt js.minProperties old.minProperties
    maxProperties := js.maxProperties
    multipleOf := js.multipleOf
    pattern := js.pattern
    readOnly := js.readOnly
    writeOnly := js.writeOnly
    uniqueItems := js.uniqueItems
    ext := extOnto js.extra old.ext }

/-- `fromSchemaArray` and the loop over properties: nothing happens if there is none.
`/repo/openapi3/jsonschema.go:301,336-339`. -/
def givenList {α : Type} (new old : List α) : List α :=
  match new with
  | [] => old
  | xs => xs

/-- `SchemaOrRef.FromJSONSchema`. `/repo/openapi3/jsonschema.go:182-326`. `none` is a panic. -/
def fromJSOn (r : Recv) : JS → Option Recv
  | .zero => none
  | .bool b =>
    let p := r.schema.getD {}
    some { r with schema := some (if b then p else
      { p with not := some (.schema {} none [] [] [] none [] none none) }) }
  | .obj flat not allOf oneOf anyOf items _ props addl _ =>
    match flat.ref with
    | some ref =>
      if flat.deprecated = some true then
        some { r with schema := some { allOf := [deprecatedOnly, .ref ref] } }
      else some { r with ref := some ref }
    | none => do
      let p := r.schema.getD {}
      let not ← fromJSOpt not
      let oneOf ← fromJSList oneOf
      let anyOf ← fromJSList anyOf
      let allOf ← fromJSList allOf
      let ap ← fromJSAddl addl
      let items ← fromJSOpt items
      let props ← fromJSProps props
      some { r with schema := some {
        flat := flatOnto flat p.flat
        not := given not p.not
        allOf := givenList allOf p.allOf
        oneOf := givenList oneOf p.oneOf
        anyOf := givenList anyOf p.anyOf
        items := given items p.items
        props := givenList props p.props
        addlBool := if addl.isSome then addlBoolOf addl else p.addlBool
        addl := if addl.isSome then ap else p.addl } }

end Verif.V30
