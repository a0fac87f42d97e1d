import Verif.JSchema

/-!
# Model of `/repo/openapi3/jsonschema.go`: conversions between OpenAPI 3.0 schemas and JSON Schema
-/

namespace Verif.V30

/-- The fields of `Schema` (`/repo/openapi3/entities.go:1666-1704`) that do not hold schemas. The three
fields that the conversions ignore are opaque. -/
structure OFlat where
  title : Option String := none
  multipleOf : Option F64 := none
  maximum : Option F64 := none
  exclusiveMaximum : Option Bool := none
  minimum : Option F64 := none
  exclusiveMinimum : Option Bool := none
  maxLength : Option Int := none
  minLength : Option Int := none
  pattern : Option String := none
  maxItems : Option Int := none
  minItems : Option Int := none
  uniqueItems : Option Bool := none
  maxProperties : Option Int := none
  minProperties : Option Int := none
  required : List String := []
  enum : List Any := []
  type : Option String := none
  description : Option String := none
  format : Option String := none
  default : Option Any := none
  nullable : Option Bool := none
  discriminator : Option Any := none
  readOnly : Option Bool := none
  writeOnly : Option Bool := none
  example_ : Option Any := none
  externalDocs : Option Any := none
  deprecated : Option Bool := none
  xml : Option Any := none
  ext : GoMap Any := []
  reflectType : Option String := none

/-- `SchemaOrRef` (`/repo/openapi3/entities.go:2186-2189`) with `Schema` (1666-1704) and
`SchemaAdditionalProperties` (2257-2260) inlined. `empty` has neither pointer set; both pointers set is not
represented (`toJSONSchema` treats it as the reference). `addlBool`, `addl` are the two pointers of
`AdditionalProperties`; both `none` also stands for a nil `AdditionalProperties`. -/
inductive OS where
  | empty
  | ref (r : String)
  | schema (flat : OFlat) (not : Option OS) (allOf oneOf anyOf : List OS) (items : Option OS)
      (props : List (String × OS)) (addlBool : Option Bool) (addl : Option OS)

/-! ## From JSON Schema -/

/-- `checkNullable`, on the two fields `Type` and `Nullable`. `/repo/openapi3/jsonschema.go:328-334`. -/
def checkNullable (t : String) (os : Option String × Option Bool) : Option String × Option Bool :=
  if t = "null" then (os.1, some true) else (some t, os.2)

/-- The types of a `jsonschema.Type` in order. `/repo/openapi3/jsonschema.go:238-246`. -/
def JType.list : Option JType → List String
  | none => []
  | some (.one t) => [t]
  | some (.many ts) => ts

/-- The two fields `Type`, `Nullable` after the calls of `checkNullable`.
`/repo/openapi3/jsonschema.go:238-246`. -/
def typeFromJS (ty : Option JType) : Option String × Option Bool :=
  (JType.list ty).foldl (fun os t => checkNullable t os) (none, none)

/-- The part of `FromJSONSchema` that copies plain fields, for a fresh receiver.
`/repo/openapi3/jsonschema.go:213,225-246,263-301,312-325`. -/
def flatFromJS (js : JFlat) : OFlat where
  reflectType := js.reflectType
  title := js.title
  description := js.description
  required := js.required
  default := js.default
  enum := js.enum
  example_ := js.examples.head?
  deprecated := js.deprecated
  type := (typeFromJS js.type).1
  nullable := (typeFromJS js.type).2
  exclusiveMaximum := match js.exclusiveMaximum with
    | some _ => some true
    | none => none
  maximum := js.maximum
  exclusiveMinimum := match js.exclusiveMinimum with
    | some _ => some true
    | none => none
  minimum := js.minimum
  format := js.format
  minItems := if js.minItems ≠ 0 then some js.minItems else none
  maxItems := js.maxItems
  minLength := if js.minLength ≠ 0 then some js.minLength else none
  maxLength := js.maxLength
  minProperties := if js.minProperties ≠ 0 then some js.minProperties else none
  maxProperties := js.maxProperties
  multipleOf := js.multipleOf
  pattern := js.pattern
  readOnly := js.readOnly
  writeOnly := js.writeOnly
  uniqueItems := js.uniqueItems
  ext := js.extra.filter (fun p => goHasPrefix p.1 "x-")

/-- `WithDeprecated(true)` on an empty schema. `/repo/openapi3/jsonschema.go:194`. -/
def deprecatedOnly : OS := .schema { deprecated := some true } none [] [] [] none [] none none

/-- `fromBool`. `/repo/openapi3/jsonschema.go:352-364`. -/
def fromBool (b : Bool) : OS :=
  if b then .schema {} none [] [] [] none [] none none
  else .schema {} (some (.schema {} none [] [] [] none [] none none)) [] [] [] none [] none none

/-- The two pointers of `AdditionalProperties` made by lines 248-256: a boolean schema sets the boolean. -/
def addlBoolOf : Option JS → Option Bool
  | some (.bool b) => some b
  | _ => none

mutual
/-- `SchemaOrRef.FromJSONSchema` on a fresh receiver (the only way `/repo` calls it).
`/repo/openapi3/jsonschema.go:182-326`. `none` is a panic: dereferencing a nil `TypeObject`. -/
def fromJS : JS → Option OS
  | .zero => none
  | .bool b => some (fromBool b)
  | .obj flat not allOf oneOf anyOf items _ props addl _ =>
    match flat.ref with
    | some r =>
      if flat.deprecated = some true then
        some (.schema {} none [deprecatedOnly, .ref r] [] [] none [] none none)
      else some (.ref r)
    | none => do
      let not ← fromJSOpt not
      let oneOf ← fromJSList oneOf
      let anyOf ← fromJSList anyOf
      let allOf ← fromJSList allOf
      let ap ← fromJSAddl addl
      let items ← fromJSOpt items
      let props ← fromJSProps props
      some (.schema (flatFromJS flat) not allOf oneOf anyOf items props (addlBoolOf addl) ap)
/-- Pointer to a schema: `Not`, `Items`. `/repo/openapi3/jsonschema.go:216-219,258-261`. -/
def fromJSOpt : Option JS → Option (Option OS)
  | none => some none
  | some j => do let s ← fromJS j; some (some s)
/-- The schema pointer of `AdditionalProperties`. `/repo/openapi3/jsonschema.go:248-256`. -/
def fromJSAddl : Option JS → Option (Option OS)
  | none => some none
  | some (.bool _) => some none
  | some j => do let s ← fromJS j; some (some s)
/-- `fromSchemaArray`. `/repo/openapi3/jsonschema.go:336-350`. -/
def fromJSList : List JS → Option (List OS)
  | [] => some []
  | j :: js => do
    let s ← fromJS j
    let ss ← fromJSList js
    some (s :: ss)
/-- The loop over properties. `/repo/openapi3/jsonschema.go:301-310`. The result map lists its entries in
the order of the source (a Go map has no order). -/
def fromJSProps : List (String × JS) → Option (List (String × OS))
  | [] => some []
  | (n, j) :: js => do
    let s ← fromJS j
    let ss ← fromJSProps js
    some ((n, s) :: ss)
end

/-! ## To JSON Schema -/

/-- `jso.Type`. `/repo/openapi3/jsonschema.go:78-84`. -/
def typeToJS (ss : OFlat) : Option JType :=
  let ty := match ss.type with
    | some t => addType none t
    | none => none
  if ss.nullable = some true then addType ty "null" else ty

/-- The plain fields set by `toJSONSchema`. `/repo/openapi3/jsonschema.go:74-123,163-176`. -/
def flatToJS (ss : OFlat) : JFlat where
  reflectType := ss.reflectType
  description := ss.description
  title := ss.title
  type := typeToJS ss
  multipleOf := ss.multipleOf
  exclusiveMaximum := if ss.exclusiveMaximum = some true then ss.maximum else none
  maximum := if ss.exclusiveMaximum = some true then none else ss.maximum
  exclusiveMinimum := if ss.exclusiveMinimum = some true then ss.minimum else none
  minimum := if ss.exclusiveMinimum = some true then none else ss.minimum
  maxLength := ss.maxLength
  minLength := ss.minLength.getD 0
  pattern := ss.pattern
  maxItems := ss.maxItems
  minItems := ss.minItems.getD 0
  uniqueItems := ss.uniqueItems
  maxProperties := ss.maxProperties
  minProperties := ss.minProperties.getD 0
  required := ss.required
  enum := ss.enum
  format := ss.format
  default := ss.default
  readOnly := ss.readOnly
  writeOnly := ss.writeOnly
  deprecated := ss.deprecated
  examples := match ss.example_ with | some e => [e] | none => []
  extra := ss.ext

/-- A conversion that is run in a context. -/
abbrev Act := Ctx → Except Stop (JS × Ctx)

/-- Run the conversions of the entries of a property map in the given order of positions; results are
tagged with the position. `/repo/openapi3/jsonschema.go:151-155`. -/
def runOrder (acts : List Act) : List Nat → Ctx → Except Stop (List (Nat × JS) × Ctx)
  | [], c => .ok ([], c)
  | i :: is, c =>
    match acts[i]? with
    | none => runOrder acts is c
    | some a => do
      let (j, c) ← a c
      let (rs, c) ← runOrder acts is c
      .ok ((i, j) :: rs, c)

/-- The property map of the result. A Go map has no order: the model lists its entries in the order of
the source map. `/repo/openapi3/jsonschema.go:153`. -/
def collect (names : List String) (rs : List (Nat × JS)) : List (String × JS) :=
  names.zipIdx.filterMap (fun (n, i) => (rs.lookup i).map (n, ·))

/-- `if p != nil { ... p.toJSONSchema(ctx) }`. `/repo/openapi3/jsonschema.go:125-127,147-149`. -/
def runOpt : Option Act → Ctx → Except Stop (Option JS × Ctx)
  | none, c => .ok (none, c)
  | some a, c => do
    let (j, c) ← a c
    .ok (some j, c)

/-- `for _, x := range xs { ... x.toJSONSchema(ctx) }`. `/repo/openapi3/jsonschema.go:129-145`. -/
def runList : List Act → Ctx → Except Stop (List JS × Ctx)
  | [], c => .ok ([], c)
  | a :: as, c => do
    let (j, c) ← a c
    let (js, c) ← runList as c
    .ok (j :: js, c)

mutual
/-- `SchemaOrRef.toJSONSchema`. `/repo/openapi3/jsonschema.go:45-179`. `follow` is what happens at a local
reference (lines 52-63); `o` is the iteration order of property maps. -/
def toJS (follow : Follow) (o : Order) : OS → Act
  | .empty => fun c => .ok (.obj {} none [] [] [] none [] [] none [], c)
  | .ref r => fun c =>
    match localRef? r with
    | none => .ok (.obj { ref := some r } none [] [] [] none [] [] none [], c)
    | some n => do
      let c ← follow n c
      .ok (.obj { ref := some r } none [] [] [] none [] [] none [], c)
  | .schema flat not allOf oneOf anyOf items props addlBool addl =>
    let notA := toJSOpt follow o not
    let allOfA := toJSList follow o allOf
    let oneOfA := toJSList follow o oneOf
    let anyOfA := toJSList follow o anyOf
    let itemsA := toJSOpt follow o items
    let propsA := toJSProps follow o props
    let addlA := toJSOpt follow o addl
    fun c => do
      let (not, c) ← runOpt notA c
      let (allOf, c) ← runList allOfA c
      let (oneOf, c) ← runList oneOfA c
      let (anyOf, c) ← runList anyOfA c
      let (items, c) ← runOpt itemsA c
      let (ps, c) ← runOrder propsA (o.ord c.clock props.length) { c with clock := c.clock + 1 }
      let (addl, c) ← match addlBool with
        | some b => .ok (some (.bool b), c)
        | none => runOpt addlA c
      .ok (.obj (flatToJS flat) not allOf oneOf anyOf items [] (collect (props.map (·.1)) ps) addl [], c)
/-- Conversion of a pointer, see `runOpt`. -/
def toJSOpt (follow : Follow) (o : Order) : Option OS → Option Act
  | none => none
  | some s => some (toJS follow o s)
/-- Conversions of a slice, see `runList`. -/
def toJSList (follow : Follow) (o : Order) : List OS → List Act
  | [] => []
  | s :: ss => toJS follow o s :: toJSList follow o ss
/-- Conversions of the entries of a map, see `runOrder`. -/
def toJSProps (follow : Follow) (o : Order) : List (String × OS) → List Act
  | [] => []
  | (_, s) :: ss => toJS follow o s :: toJSProps follow o ss
end

/-- Following a local reference. `/repo/openapi3/jsonschema.go:53-63`. The recursion is not structural (a
component may refer to itself), hence the bound. `comps` is `spec.Components.Schemas.MapOfSchemaOrRefValues`;
`none` if one of the pointers on the way is nil. -/
def follow (comps : Option (GoMap OS)) (o : Order) : Nat → Follow
  | 0, _, _ => .error .fuel
  | k + 1, n, c =>
    match c.processed.get? n with
    | some _ => .ok (c.inc n)
    | none =>
      let c := { c with processed := c.processed.set n .zero }
      match comps with
      | none => .error .panic
      | some m => do
        let dst := (m.get? n).getD .empty
        let (js, c) ← toJS (follow comps o k) o dst c
        let c := { c with processed := c.processed.set n js }
        .ok (c.inc n)

/-- `s.SchemaReference`. `/repo/openapi3/jsonschema.go:27`. -/
def OS.rootRef : OS → Option String
  | .ref r => some r
  | _ => none

/-- `SchemaOrRef.ToJSONSchema`. `/repo/openapi3/jsonschema.go:18-43`. -/
def toJSONSchema (comps : Option (GoMap OS)) (o : Order) (fuel : Nat) (s : OS) : Except Stop Resolved := do
  let (js, c) ← toJS (follow comps o fuel) o s {}
  .ok (finish s.rootRef js c)

end Verif.V30
