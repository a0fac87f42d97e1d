import Verif.Spec.Meta
import Verif.Spec.Meta31
import Verif.Codec.Table31

/-!
# What a 3.1 document may contain to be read

The meta-schema of OpenAPI 3.1 accepts documents that the code does not read (C67, C68, C69, C82). `Supported` is the
condition that a document makes no use of them. Where they stand is described by `Meta.Reads`: which part of the JSON is
read as which type.
-/

namespace Verif.Meta31
open Codec Meta

/-- The object has this key. -/
def Has (ms : List (String × Any)) (k : String) : Prop := ∃ x, (k, x) ∈ ms

/-- The types that a reference may stand for. -/
def referable : List String := ["PathItem", "Parameter", "RequestBody", "Response", "Callbacks", "Example", "Link", "Header",
  "SecurityScheme"]

/-- Where a reference may stand for something else, what has a `$ref` is meant to be a reference. -/
def Meant (ty : Ty) (x : Any) : Prop :=
  (ty = .ptr (.named "Reference") → ∃ ms, x = .obj ms ∧ Has ms "$ref") ∧
  (∀ n ∈ referable, ty = .ptr (.named n) → ∀ ms, x = .obj ms → ¬Has ms "$ref")

/-- Reading `j` as `ty` reads `x` as `ty'`. -/
abbrev Reads31 (ty : Ty) (j : Any) (ty' : Ty) (x : Any) : Prop := Reads V31.table Meant ty j ty' x

/-- The document makes no use of what the meta-schema accepts and the code does not read. -/
structure Supported (ty : Ty) (j : Any) : Prop where
  /-- no schema is `true` or `false` -/
  schemas : ∀ b, ¬Reads31 ty j (.map .any) (.bool b)
  /-- examples are references -/
  examples : ∀ ms, Reads31 ty j (.named "ExampleOrReference") (.obj ms) → Has ms "$ref"
  /-- links are no references -/
  links : ∀ ms, Reads31 ty j (.named "LinkOrReference") (.obj ms) → ¬Has ms "$ref"
  /-- path items are no references -/
  pathItems : ∀ ms, Reads31 ty j (.named "PathItemOrReference") (.obj ms) → ¬Has ms "$ref"
  /-- references to responses have no description -/
  responses : ∀ ms, Reads31 ty j (.named "ResponseOrReference") (.obj ms) → Has ms "$ref" → ¬Has ms "description"
  /-- parameters have one of these styles, not `simple`, `matrix` or `label` -/
  styles : ∀ x, Reads31 ty j (.named "ParameterStyle") x →
    ∃ t ∈ ["form", "spaceDelimited", "pipeDelimited", "deepObject"], x = .str t

end Verif.Meta31
