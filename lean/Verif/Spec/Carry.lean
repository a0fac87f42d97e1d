import Verif.Schema30

/-!
# The OpenAPI 3.0 schemas that a JSON Schema can carry
-/

namespace Verif.SchemaSpec
open V30

/-- The name of an extension: it starts with `x-`. -/
def ExtensionName (n : String) : Prop := ∃ t, n = "x-" ++ t

/-- The plain fields survive: no flags for exclusive bounds, `nullable` absent or true, no discriminator,
XML or external docs, no explicit minimum of zero, `type` not null, extensions start with `x-`. -/
structure CarryableFlat (f : OFlat) : Prop where
  exclusiveMaximum : f.exclusiveMaximum = none
  exclusiveMinimum : f.exclusiveMinimum = none
  nullable : f.nullable ≠ some false
  discriminator : f.discriminator = none
  xml : f.xml = none
  externalDocs : f.externalDocs = none
  minLength : f.minLength ≠ some 0
  minItems : f.minItems ≠ some 0
  minProperties : f.minProperties ≠ some 0
  type : f.type ≠ some "null"
  ext : ∀ p ∈ f.ext, ExtensionName p.1

/-- The annotations (fields without influence on validity) of an OpenAPI schema node are those of a JSON
Schema node: the example is the first example, and the extensions are the extra members whose name starts
with `x-`. -/
structure SameNotes (f : JFlat) (g : OFlat) : Prop where
  title : g.title = f.title
  description : g.description = f.description
  default : g.default = f.default
  readOnly : g.readOnly = f.readOnly
  writeOnly : g.writeOnly = f.writeOnly
  deprecated : g.deprecated = f.deprecated
  example_ : ∀ e, g.example_ = some e ↔ ∃ rest, f.examples = e :: rest
  ext : ∀ n v, (n, v) ∈ g.ext ↔ (n, v) ∈ f.extra ∧ ExtensionName n

mutual
/-- Every node is a reference or a schema with carryable fields, and `additionalProperties` is not both a
boolean and a schema. -/
def Carryable : OS → Prop
  | .empty => False
  | .ref _ => True
  | .schema f not allOf oneOf anyOf items props addlBool addl =>
    CarryableFlat f ∧ CarryableOpt not ∧ CarryableList allOf ∧ CarryableList oneOf ∧ CarryableList anyOf ∧
    CarryableOpt items ∧ CarryableProps props ∧ (addlBool = none ∨ addl = none) ∧ CarryableOpt addl
def CarryableOpt : Option OS → Prop
  | none => True
  | some s => Carryable s
def CarryableList : List OS → Prop
  | [] => True
  | s :: ss => Carryable s ∧ CarryableList ss
def CarryableProps : List (String × OS) → Prop
  | [] => True
  | (_, s) :: ss => Carryable s ∧ CarryableProps ss
end

end Verif.SchemaSpec
