import Verif.Spec.Schema

/-!
# Which JSON values a schema accepts

Validity of a JSON value under a JSON Schema (draft 7, the keywords `/repo` converts) and under an OpenAPI
3.0 schema, after the two specifications. Nothing here mentions the conversion code.

Arithmetic on numbers, regular expressions, formats and equality of JSON values are parameters (`Sem`):
the theorems hold for every choice.
-/

namespace Verif.ValidSpec
open V30 SchemaSpec

/-- The parts of validation that are not modelled, shared by both kinds of schemas. -/
structure Sem where
  /-- The number (first argument) is at most the bound. -/
  le : String → F64 → Prop
  /-- The number is less than the bound. -/
  lt : String → F64 → Prop
  /-- The number is at least the bound. -/
  ge : String → F64 → Prop
  /-- The number is greater than the bound. -/
  gt : String → F64 → Prop
  /-- The number is a multiple of the second argument. -/
  multiple : String → F64 → Prop
  /-- The number is an integer. -/
  isInt : String → Prop
  /-- The regular expression (first argument) matches the string. -/
  pattern : String → String → Prop
  /-- The value has the format. -/
  format : String → Any → Prop
  /-- The length of a string in characters. -/
  length : String → Int
  /-- Equality of JSON values. -/
  same : Any → Any → Prop
  /-- No two elements are the same. -/
  distinct : List Any → Prop
  /-- The meaning of the keywords that the modelled code never looks into. -/
  others : List (String × (Any → Prop)) → Any → Prop

/-- `type: t` accepts the value. -/
def TypeOk (σ : Sem) (t : String) : Any → Prop
  | .null => t = "null"
  | .bool _ => t = "boolean"
  | .num l => t = "number" ∨ (t = "integer" ∧ σ.isInt l)
  | .str _ => t = "string"
  | .arr _ => t = "array"
  | .obj _ => t = "object"

/-- The assertions of a JSON Schema node that involve no sub-schema. -/
structure FlatJSOk (σ : Sem) (f : JFlat) (v : Any) : Prop where
  type1 : ∀ t, f.type = some (.one t) → TypeOk σ t v
  typeN : ∀ ts, f.type = some (.many ts) → ∃ t ∈ ts, TypeOk σ t v
  multipleOf : ∀ l b, v = .num l → f.multipleOf = some b → σ.multiple l b
  maximum : ∀ l b, v = .num l → f.maximum = some b → σ.le l b
  exclusiveMaximum : ∀ l b, v = .num l → f.exclusiveMaximum = some b → σ.lt l b
  minimum : ∀ l b, v = .num l → f.minimum = some b → σ.ge l b
  exclusiveMinimum : ∀ l b, v = .num l → f.exclusiveMinimum = some b → σ.gt l b
  maxLength : ∀ s n, v = .str s → f.maxLength = some n → σ.length s ≤ n
  minLength : ∀ s, v = .str s → f.minLength ≠ 0 → f.minLength ≤ σ.length s
  pattern : ∀ s p, v = .str s → f.pattern = some p → σ.pattern p s
  maxItems : ∀ xs n, v = .arr xs → f.maxItems = some n → (xs.length : Int) ≤ n
  minItems : ∀ xs, v = .arr xs → f.minItems ≠ 0 → f.minItems ≤ xs.length
  uniqueItems : ∀ xs, v = .arr xs → f.uniqueItems = some true → σ.distinct xs
  maxProperties : ∀ m n, v = .obj m → f.maxProperties = some n → (m.length : Int) ≤ n
  minProperties : ∀ m, v = .obj m → f.minProperties ≠ 0 → f.minProperties ≤ m.length
  required : ∀ m, v = .obj m → ∀ n ∈ f.required, ∃ x, (n, x) ∈ m
  const : ∀ c, f.const = some c → σ.same c v
  enum : f.enum ≠ [] → ∃ e ∈ f.enum, σ.same e v
  format : ∀ x, f.format = some x → σ.format x v

/-- The assertions of an OpenAPI 3.0 schema node that involve no sub-schema. `nullable: true` adds null to
the accepted values of `type` and means nothing without `type` (OpenAPI 3.0.3); `exclusiveMaximum` and
`exclusiveMinimum` are flags on the bounds. -/
structure FlatOSOk (σ : Sem) (f : OFlat) (v : Any) : Prop where
  type : ∀ t, f.type = some t → TypeOk σ t v ∨ (f.nullable = some true ∧ v = .null)
  multipleOf : ∀ l b, v = .num l → f.multipleOf = some b → σ.multiple l b
  maximum : ∀ l b, v = .num l → f.maximum = some b → f.exclusiveMaximum ≠ some true → σ.le l b
  exclusiveMaximum : ∀ l b, v = .num l → f.maximum = some b → f.exclusiveMaximum = some true → σ.lt l b
  minimum : ∀ l b, v = .num l → f.minimum = some b → f.exclusiveMinimum ≠ some true → σ.ge l b
  exclusiveMinimum : ∀ l b, v = .num l → f.minimum = some b → f.exclusiveMinimum = some true → σ.gt l b
  maxLength : ∀ s n, v = .str s → f.maxLength = some n → σ.length s ≤ n
  minLength : ∀ s n, v = .str s → f.minLength = some n → n ≠ 0 → n ≤ σ.length s
  pattern : ∀ s p, v = .str s → f.pattern = some p → σ.pattern p s
  maxItems : ∀ xs n, v = .arr xs → f.maxItems = some n → (xs.length : Int) ≤ n
  minItems : ∀ xs n, v = .arr xs → f.minItems = some n → n ≠ 0 → n ≤ xs.length
  uniqueItems : ∀ xs, v = .arr xs → f.uniqueItems = some true → σ.distinct xs
  maxProperties : ∀ m n, v = .obj m → f.maxProperties = some n → (m.length : Int) ≤ n
  minProperties : ∀ m n, v = .obj m → f.minProperties = some n → n ≠ 0 → n ≤ m.length
  required : ∀ m, v = .obj m → ∀ n ∈ f.required, ∃ x, (n, x) ∈ m
  enum : f.enum ≠ [] → ∃ e ∈ f.enum, σ.same e v
  format : ∀ x, f.format = some x → σ.format x v

/-- The sub-schemas of a node, as predicates on values. -/
structure Parts where
  not : Option (Any → Prop)
  allOf : List (Any → Prop)
  oneOf : List (Any → Prop)
  anyOf : List (Any → Prop)
  items : Option (Any → Prop)
  itemsArr : List (Any → Prop)
  props : List (String × (Any → Prop))
  addl : Option (Any → Prop)

/-- The keywords with sub-schemas; they mean the same in JSON Schema and in OpenAPI 3.0. -/
structure PartsOk (p : Parts) (v : Any) : Prop where
  not : ∀ q, p.not = some q → ¬ q v
  allOf : ∀ q ∈ p.allOf, q v
  oneOf : p.oneOf ≠ [] → ∃ i : Nat, (∃ q, p.oneOf[i]? = some q ∧ q v) ∧
    ∀ (j : Nat) q, p.oneOf[j]? = some q → q v → j = i
  anyOf : p.anyOf ≠ [] → ∃ q ∈ p.anyOf, q v
  items : ∀ xs q, v = .arr xs → p.items = some q → ∀ x ∈ xs, q x
  itemsArr : ∀ (xs : List Any) (i : Nat) q x, v = .arr xs → p.itemsArr[i]? = some q → xs[i]? = some x → q x
  props : ∀ m, v = .obj m → ∀ n q, (n, q) ∈ p.props → ∀ x, (n, x) ∈ m → q x
  addl : ∀ m q, v = .obj m → p.addl = some q → ∀ n x, (n, x) ∈ m → n ∉ p.props.map (·.1) → q x

mutual
/-- A JSON Schema accepts a value; `env` says which values a reference accepts. A `$ref` hides its
siblings. -/
def okJS (σ : Sem) (env : String → Any → Prop) : JS → Any → Prop
  | .zero => fun _ => False
  | .bool b => fun _ => b = true
  | .obj f not allOf oneOf anyOf items itemsArr props addl others =>
    match f.ref with
    | some r => env r
    | none =>
      let parts : Parts := ⟨okJSOpt σ env not, okJSList σ env allOf, okJSList σ env oneOf, okJSList σ env anyOf,
        okJSOpt σ env items, okJSList σ env itemsArr, okJSProps σ env props, okJSOpt σ env addl⟩
      let os := okJSProps σ env others
      fun v => FlatJSOk σ f v ∧ PartsOk parts v ∧ (os ≠ [] → σ.others os v)
def okJSOpt (σ : Sem) (env : String → Any → Prop) : Option JS → Option (Any → Prop)
  | none => none
  | some j => some (okJS σ env j)
def okJSList (σ : Sem) (env : String → Any → Prop) : List JS → List (Any → Prop)
  | [] => []
  | j :: js => okJS σ env j :: okJSList σ env js
def okJSProps (σ : Sem) (env : String → Any → Prop) : List (String × JS) → List (String × (Any → Prop))
  | [] => []
  | (n, j) :: js => (n, okJS σ env j) :: okJSProps σ env js
end

/-- `additionalProperties` as a predicate: a boolean, else a schema. -/
def addlOk (b : Option Bool) (s : Option (Any → Prop)) : Option (Any → Prop) :=
  match b with
  | some b => some (fun _ => b = true)
  | none => s

mutual
/-- An OpenAPI 3.0 schema accepts a value; `env` says which values a reference accepts. -/
def okOS (σ : Sem) (env : String → Any → Prop) : OS → Any → Prop
  | .empty => fun _ => True
  | .ref r => env r
  | .schema f not allOf oneOf anyOf items props addlBool addl =>
    let parts : Parts := ⟨okOSOpt σ env not, okOSList σ env allOf, okOSList σ env oneOf, okOSList σ env anyOf,
      okOSOpt σ env items, [], okOSProps σ env props,
      addlOk addlBool (okOSOpt σ env addl)⟩
    fun v => FlatOSOk σ f v ∧ PartsOk parts v
def okOSOpt (σ : Sem) (env : String → Any → Prop) : Option OS → Option (Any → Prop)
  | none => none
  | some j => some (okOS σ env j)
def okOSList (σ : Sem) (env : String → Any → Prop) : List OS → List (Any → Prop)
  | [] => []
  | j :: js => okOS σ env j :: okOSList σ env js
def okOSProps (σ : Sem) (env : String → Any → Prop) : List (String × OS) → List (String × (Any → Prop))
  | [] => []
  | (n, j) :: js => (n, okOS σ env j) :: okOSProps σ env js
end

/-- Which values the references of an OpenAPI 3.0 document accept, following local references to depth
`k`; a missing component accepts everything. `ext` is the meaning of references outside the document. -/
def envOS (σ : Sem) (ext : String → Any → Prop) (comps : GoMap OS) : Nat → String → Any → Prop
  | 0, r => match localRef? r with
    | none => ext r
    | some _ => fun _ => True
  | k + 1, r => match localRef? r with
    | none => ext r
    | some n => okOS σ (envOS σ ext comps k) (component comps n)

/-- The same for a JSON Schema with its included components; a dangling reference accepts nothing. -/
def envJS (σ : Sem) (ext : String → Any → Prop) (comps : GoMap JS) : Nat → String → Any → Prop
  | 0, r => match localRef? r with
    | none => ext r
    | some _ => fun _ => True
  | k + 1, r => match localRef? r with
    | none => ext r
    | some n => match comps.get? n with
      | none => fun _ => False
      | some j => okJS σ (envJS σ ext comps k) j

/-- A value is valid if it is accepted at every sufficient depth of following references. -/
def ValidOS (σ : Sem) (ext : String → Any → Prop) (comps : GoMap OS) (s : OS) (v : Any) : Prop :=
  ∃ K, ∀ k, K ≤ k → okOS σ (envOS σ ext comps k) s v

/-- The same for a JSON Schema with its components. -/
def ValidJS (σ : Sem) (ext : String → Any → Prop) (comps : GoMap JS) (s : JS) (v : Any) : Prop :=
  ∃ K, ∀ k, K ≤ k → okJS σ (envJS σ ext comps k) s v

mutual
/-- Every `nullable: true` stands beside a `type`. -/
def NullableTyped : OS → Prop
  | .empty => True
  | .ref _ => True
  | .schema f not allOf oneOf anyOf items props _ addl =>
    (f.nullable = some true → f.type ≠ none) ∧ NullableTypedOpt not ∧ NullableTypedList allOf ∧
    NullableTypedList oneOf ∧ NullableTypedList anyOf ∧ NullableTypedOpt items ∧ NullableTypedProps props ∧
    NullableTypedOpt addl
def NullableTypedOpt : Option OS → Prop
  | none => True
  | some s => NullableTyped s
def NullableTypedList : List OS → Prop
  | [] => True
  | s :: ss => NullableTyped s ∧ NullableTypedList ss
def NullableTypedProps : List (String × OS) → Prop
  | [] => True
  | (_, s) :: ss => NullableTyped s ∧ NullableTypedProps ss
end

/-- A `type` that OpenAPI 3.0 can express: absent, one type other than null, or that type and null. -/
def TypeExpressible : Option JType → Prop
  | none => True
  | some (.one t) => t ≠ "null"
  | some (.many ts) => ∃ t ∈ ts, t ≠ "null" ∧ ∀ u ∈ ts, u = t ∨ u = "null"

mutual
/-- A JSON Schema that `FromJSONSchema` can express: no exclusive bounds, `const`, tuples or keywords
outside OpenAPI 3.0, and only types that OpenAPI 3.0 has. -/
def Expressible : JS → Prop
  | .zero => True
  | .bool _ => True
  | .obj f not allOf oneOf anyOf items itemsArr props addl others =>
    f.ref = none → f.exclusiveMaximum = none ∧ f.exclusiveMinimum = none ∧ f.const = none ∧
      TypeExpressible f.type ∧ itemsArr = [] ∧ others = [] ∧
      ExpressibleOpt not ∧ ExpressibleList allOf ∧ ExpressibleList oneOf ∧ ExpressibleList anyOf ∧
      ExpressibleOpt items ∧ ExpressibleProps props ∧ ExpressibleOpt addl
def ExpressibleOpt : Option JS → Prop
  | none => True
  | some s => Expressible s
def ExpressibleList : List JS → Prop
  | [] => True
  | s :: ss => Expressible s ∧ ExpressibleList ss
def ExpressibleProps : List (String × JS) → Prop
  | [] => True
  | (_, s) :: ss => Expressible s ∧ ExpressibleProps ss
end

end Verif.ValidSpec
