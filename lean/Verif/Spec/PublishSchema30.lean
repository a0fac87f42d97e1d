import Verif.Spec.Publish30
import Verif.Schema30
import Verif.Http

/-!
# The Go values of 3.0 schemas

`schemaVal` gives the Go value of a schema of the model (`Verif.Schema30`), `SchemaOk` says what OpenAPI 3.0 demands of it,
and `JsonOk` says the same of a JSON Schema that is converted. Numbers are oracles: `lit` prints a `float64`, and `N`
reads a literal.
-/

namespace Verif.Pub30
open Codec Spec Conform

/-- The types of schemas in OpenAPI 3.0. -/
def schemaTypes : List String := ["array", "boolean", "integer", "number", "object", "string"]

/-- A JSON value that reads as itself: each key once, numbers in the form in which they are printed. -/
def Stable (N : Nums) (a : Any) : Prop := decodeAny N a = some a

/-- A number that reads as itself. -/
def FloatOk (N : Nums) (lit : F64 → String) (x : F64) : Prop := N.f64 (lit x) = some (lit x)
def IntOk (N : Nums) (i : Int) : Prop := N.i64 (toString i) = some (toString i)

/-- What is asked of the fields of a schema that hold no schemas. -/
structure FlatOk (N : Nums) (lit : F64 → String) (f : V30.OFlat) : Prop where
  floats : ∀ x, f.multipleOf = some x ∨ f.maximum = some x ∨ f.minimum = some x → FloatOk N lit x
  ints : ∀ i, f.maxLength = some i ∨ f.minLength = some i ∨ f.maxItems = some i ∨ f.minItems = some i ∨
    f.maxProperties = some i ∨ f.minProperties = some i → IntOk N i
  type : ∀ t, f.type = some t → t ∈ schemaTypes
  enum : ∀ a ∈ f.enum, Stable N a
  values : ∀ a, f.default = some a ∨ f.example_ = some a → a ≠ .null ∧ Stable N a
  none : f.discriminator = none ∧ f.externalDocs = none ∧ f.xml = none
  extKeys : Keys f.ext
  ext : ∀ k a, (k, a) ∈ f.ext → "x-".toList <+: k.toList ∧ Stable N a

mutual
/-- What is asked of a schema, all the way down. -/
def SchemaOk (N : Nums) (lit : F64 → String) : V30.OS → Prop
  | .empty => False
  | .ref _ => True
  | .schema flat not allOf oneOf anyOf items props addlBool addl =>
    FlatOk N lit flat ∧ SchemaOkOpt N lit not ∧ SchemaOkList N lit allOf ∧ SchemaOkList N lit oneOf ∧
      SchemaOkList N lit anyOf ∧ SchemaOkOpt N lit items ∧ (Keys props ∧ SchemaOkProps N lit props) ∧
      (addlBool = none ∨ addl = none) ∧ SchemaOkOpt N lit addl
/-- The same of a schema that may be missing. -/
def SchemaOkOpt (N : Nums) (lit : F64 → String) : Option V30.OS → Prop
  | none => True
  | some s => SchemaOk N lit s
/-- The same of all schemas of a list. -/
def SchemaOkList (N : Nums) (lit : F64 → String) : List V30.OS → Prop
  | [] => True
  | s :: ss => SchemaOk N lit s ∧ SchemaOkList N lit ss
/-- The same of all properties. -/
def SchemaOkProps (N : Nums) (lit : F64 → String) : List (String × V30.OS) → Prop
  | [] => True
  | (_, s) :: ss => SchemaOk N lit s ∧ SchemaOkProps N lit ss
end

/-- The fields of `Schema` that hold no schemas, `/repo/openapi3/entities.go:1666-1704`. -/
def flatVal (lit : F64 → String) (f : V30.OFlat) : List (String × Val) :=
  let float := opt (fun x => .num (lit x))
  let int : Option Int → Val := opt (fun i => .num (toString i))
  [("Title", opt .str f.title), ("MultipleOf", float f.multipleOf), ("Maximum", float f.maximum),
    ("ExclusiveMaximum", opt .bool f.exclusiveMaximum), ("Minimum", float f.minimum),
    ("ExclusiveMinimum", opt .bool f.exclusiveMinimum), ("MaxLength", int f.maxLength), ("MinLength", int f.minLength),
    ("Pattern", opt .str f.pattern), ("MaxItems", int f.maxItems), ("MinItems", int f.minItems),
    ("UniqueItems", opt .bool f.uniqueItems), ("MaxProperties", int f.maxProperties),
    ("MinProperties", int f.minProperties), ("Required", listVal .str f.required), ("Enum", listVal .any f.enum),
    ("Type", opt .str f.type), ("Description", opt .str f.description), ("Format", opt .str f.format),
    ("Default", opt .any f.default), ("Nullable", opt .bool f.nullable), ("ReadOnly", opt .bool f.readOnly),
    ("WriteOnly", opt .bool f.writeOnly), ("Example", opt .any f.example_), ("Deprecated", opt .bool f.deprecated),
    ("MapOfAnything", mapVal .any f.ext)]

/-- A slice of values. -/
def sliceOf : List Val → Val
  | [] => .nil
  | vs => .list vs

/-- A map of values. -/
def mapOf : List (String × Val) → Val
  | [] => .nil
  | vs => .map vs

/-- `SchemaAdditionalProperties`, `/repo/openapi3/entities.go:2257-2260`. -/
def addlVal : Option Bool → Val → Val
  | some b, _ => fill V30.sSchemaAdditionalProperties [("Bool", .bool b)]
  | none, .nil => .nil
  | none, v => fill V30.sSchemaAdditionalProperties [("SchemaOrRef", v)]

mutual
/-- `SchemaOrRef`, `/repo/openapi3/entities.go:2186-2189`. -/
def schemaVal (lit : F64 → String) : V30.OS → Val
  | .empty => fill V30.sSchemaOrRef []
  | .ref r => fill V30.sSchemaOrRef [("SchemaReference", fill V30.sSchemaReference [("Ref", .str r)])]
  | .schema flat not allOf oneOf anyOf items props addlBool addl =>
    fill V30.sSchemaOrRef [("Schema", fill V30.sSchema (flatVal lit flat ++ [("Not", schemaValOpt lit not),
      ("AllOf", sliceOf (schemaVals lit allOf)), ("OneOf", sliceOf (schemaVals lit oneOf)),
      ("AnyOf", sliceOf (schemaVals lit anyOf)), ("Items", schemaValOpt lit items),
      ("Properties", mapOf (schemaProps lit props)),
      ("AdditionalProperties", addlVal addlBool (schemaValOpt lit addl))]))]
/-- A pointer to a schema. -/
def schemaValOpt (lit : F64 → String) : Option V30.OS → Val
  | none => .nil
  | some s => schemaVal lit s
/-- The schemas of a slice. -/
def schemaVals (lit : F64 → String) : List V30.OS → List Val
  | [] => []
  | s :: ss => schemaVal lit s :: schemaVals lit ss
/-- The properties. -/
def schemaProps (lit : F64 → String) : List (String × V30.OS) → List (String × Val)
  | [] => []
  | (k, s) :: ss => (k, schemaVal lit s) :: schemaProps lit ss
end

/-! ## JSON Schemas -/

/-- What is asked of the fields of a JSON Schema. -/
structure JsonFlatOk (N : Nums) (lit : F64 → String) (f : JFlat) : Prop where
  floats : ∀ x, f.multipleOf = some x ∨ f.maximum = some x ∨ f.minimum = some x → FloatOk N lit x
  ints : ∀ i, f.maxLength = some i ∨ f.minLength = i ∨ f.maxItems = some i ∨ f.minItems = i ∨
    f.maxProperties = some i ∨ f.minProperties = i → IntOk N i
  one : ∀ t, f.type = some (.one t) → t ∈ "null" :: schemaTypes
  many : ∀ ts, f.type = some (.many ts) → ∀ t ∈ ts, t ∈ "null" :: schemaTypes
  enum : ∀ a ∈ f.enum, Stable N a
  values : ∀ a, f.default = some a ∨ f.examples.head? = some a → a ≠ .null ∧ Stable N a
  extKeys : Keys f.extra
  ext : ∀ k a, (k, a) ∈ f.extra → Stable N a

mutual
/-- What is asked of a JSON Schema, down to its references: the types of OpenAPI 3.0 and `null`, no repeated keys, JSON
values that read as themselves and no default or example `null`. -/
def JsonOk (N : Nums) (lit : F64 → String) : JS → Prop
  | .zero => True
  | .bool _ => True
  | .obj flat not allOf oneOf anyOf items _ props addl _ =>
    flat.ref = none → JsonFlatOk N lit flat ∧ JsonOkOpt N lit not ∧ JsonOkList N lit allOf ∧ JsonOkList N lit oneOf ∧
      JsonOkList N lit anyOf ∧ JsonOkOpt N lit items ∧ (Keys props ∧ JsonOkProps N lit props) ∧ JsonOkOpt N lit addl
/-- The same of a schema that may be missing. -/
def JsonOkOpt (N : Nums) (lit : F64 → String) : Option JS → Prop
  | none => True
  | some s => JsonOk N lit s
/-- The same of all schemas of a list. -/
def JsonOkList (N : Nums) (lit : F64 → String) : List JS → Prop
  | [] => True
  | s :: ss => JsonOk N lit s ∧ JsonOkList N lit ss
/-- The same of all properties. -/
def JsonOkProps (N : Nums) (lit : F64 → String) : List (String × JS) → Prop
  | [] => True
  | (_, s) :: ss => JsonOk N lit s ∧ JsonOkProps N lit ss
end

end Verif.Pub30
