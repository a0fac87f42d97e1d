import Verif.Entities

/-!
# `jsonschema.Schema` and `jsonschema.SchemaOrBool`

The data structure of the dependency `github.com/swaggest/jsonschema-go` (v0.3.78) that `/repo` converts
from and to. The dependency's source is not available; field names are those used in
`/repo/openapi3/jsonschema.go` and `/repo/openapi31/jsonschema.go`.
-/

namespace Verif

/-- A Go `float64`, by its bits. The modelled code copies numbers and never computes with them. -/
structure F64 where
  bits : UInt64
deriving DecidableEq, Repr

/-- `jsonschema.Type`: `SimpleTypes` or `SliceOfSimpleTypeValues`. `/repo/openapi3/jsonschema.go:238-246`. -/
inductive JType where
  | one (t : String)
  | many (ts : List String)
deriving DecidableEq, Repr

/-- The fields of `jsonschema.Schema` that do not hold schemas. -/
structure JFlat where
  ref : Option String := none
  id : Option String := none
  title : Option String := none
  description : Option String := none
  default : Option Any := none
  readOnly : Option Bool := none
  writeOnly : Option Bool := none
  deprecated : Option Bool := none
  examples : List Any := []
  multipleOf : Option F64 := none
  maximum : Option F64 := none
  exclusiveMaximum : Option F64 := none
  minimum : Option F64 := none
  exclusiveMinimum : Option F64 := none
  maxLength : Option Int := none
  minLength : Int := 0
  pattern : Option String := none
  maxItems : Option Int := none
  minItems : Int := 0
  uniqueItems : Option Bool := none
  maxProperties : Option Int := none
  minProperties : Int := 0
  required : List String := []
  const : Option Any := none
  enum : List Any := []
  type : Option JType := none
  format : Option String := none
  extra : GoMap Any := []
  reflectType : Option String := none

/-- `jsonschema.SchemaOrBool`. `zero` is the zero value (neither pointer set); a value with both pointers
set is not represented. `others` are the sub-schemas under the keywords that `/repo` never looks into
(additionalItems, contains, definitions, patternProperties, dependencies, propertyNames, if, then, else),
labelled with the keyword. -/
inductive JS where
  | zero
  | bool (b : Bool)
  | obj (flat : JFlat) (not : Option JS) (allOf oneOf anyOf : List JS) (items : Option JS)
      (itemsArr : List JS) (props : List (String × JS)) (addl : Option JS) (others : List (String × JS))

/-- `Schema.AddType` of jsonschema-go, on the `Type` field: nil becomes a simple type, a different type
makes a list, a type that is already there is not added again. Used in
`/repo/openapi3/jsonschema.go:79,83`. -/
def addType (ty : Option JType) (t : String) : Option JType :=
  match ty with
  | none => some (.one t)
  | some (.one u) => if u = t then some (.one u) else some (.many [u, t])
  | some (.many us) => if t ∈ us then some (.many us) else some (.many (us ++ [t]))

/-- The prefix of local references. `/repo/openapi3/reflect.go:341`, `/repo/internal/json_schema.go:24`. -/
def componentsSchemas : String := "#/components/schemas/"

/-- `dstName` of a reference with the local prefix, else nothing.
`/repo/openapi3/jsonschema.go:52-53`, `/repo/openapi31/jsonschema.go:68-69`. -/
def localRef? (ref : String) : Option String :=
  if goHasPrefix ref componentsSchemas then some (goTrimPrefix ref componentsSchemas) else none

/-- `toJSONSchemaContext` (`/repo/openapi3/jsonschema.go:9-13`, `/repo/openapi31/jsonschema.go:17-21`),
plus a clock that counts the iterations over property maps: the clock selects the iteration order that
Go's runtime happens to choose. The spec is passed separately. -/
structure Ctx where
  processed : GoMap JS := []
  count : GoMap Nat := []
  clock : Nat := 0

/-- Why a run stops without a result: a Go panic (nil pointer or explicit), or the model's recursion
bound. -/
inductive Stop where
  | panic
  | fuel
deriving DecidableEq, Repr

/-- The order in which Go iterates over a map with `len` entries, at a moment given by the clock: the
positions of the entries in the order of iteration. Any permutation, possibly a different one each time. -/
structure Order where
  ord : (clock len : Nat) → List Nat
  perm : ∀ clock len, (ord clock len).Perm (List.range len)

/-- Source order; used in examples. -/
def Order.id : Order := ⟨fun _ len => List.range len, fun _ _ => .refl _⟩

/-- Reverse order; used in examples. -/
def Order.rev : Order := ⟨fun _ len => (List.range len).reverse, fun _ _ => List.reverse_perm _⟩

/-- `ctx.refsCount[dstName]++`. `/repo/openapi3/jsonschema.go:62`, `/repo/openapi31/jsonschema.go:84`. -/
def Ctx.inc (c : Ctx) (n : String) : Ctx := { c with count := c.count.set n ((c.count.get? n).getD 0 + 1) }

/-- What following a local reference does to the context. -/
abbrev Follow := String → Ctx → Except Stop Ctx

/-- The result of `ToJSONSchema`: the schema, and the components that Go stores in its extra property
`components` (`{"schemas": ...}`, only if there are any). -/
structure Resolved where
  schema : JS
  components : GoMap JS

/-- The end of `ToJSONSchema`: inline the root reference if it was referred to once.
`/repo/openapi3/jsonschema.go:26-42`, `/repo/openapi31/jsonschema.go:41-57`. `root` is the `$ref` of the
root schema, if any. -/
def finish (root : Option String) (js : JS) (c : Ctx) : Resolved :=
  match root with
  | some r =>
    let n := goTrimPrefix r componentsSchemas
    if (c.count.get? n).getD 0 = 1 then ⟨(c.processed.get? n).getD .zero, c.processed.erase n⟩
    else ⟨js, c.processed⟩
  | none => ⟨js, c.processed⟩

end Verif
