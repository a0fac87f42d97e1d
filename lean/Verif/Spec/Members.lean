import Verif.Spec.RoundTrip

/-!
# Members of written objects

Which fields of an entity are unset, which keys are written even then, and which members may be `null`.
-/

namespace Verif.Spec
open Codec

/-- A field that holds nothing: a nil pointer; or false, zero, an empty text, a nil or empty slice or map, a nil
interface in a field that is not a pointer. -/
def Unset : Ty → Val → Prop
  | .ptr _, v => v = .nil
  | _, v => v = .nil ∨ v = .any .null ∨ v = .bool false ∨ v = .str "" ∨ v = .num "0" ∨ v = .list [] ∨ v = .map []

/-- The keys that OpenAPI requires of an entity. -/
def keysFor (required : List (String × List String)) (n : String) : List String :=
  match required.find? (fun p => p.1 == n) with
  | some p => p.2
  | none => []

/-- The object has the member. -/
def HasPair : Any → String → Any → Prop
  | .obj ms, k, a => (k, a) ∈ ms
  | _, _, _ => False

/-- Types of the package that are not entities of OpenAPI 3.0: they only state which keys go together. -/
def fragments30 : List String := ["HasSchema", "HasContent", "SchemaXORContentNot", "LinkNot", "NonBearer"]

/-- The members of OpenAPI 3.0 that can hold any value, so that `null` is one: entity, Go field, key. -/
def nullable30 : List (String × String × String) := [
  ("Parameter", "Example", "example"), ("Header", "Example", "example"), ("MediaType", "Example", "example"),
  ("Schema", "Default", "default"), ("Schema", "Example", "example"), ("Example", "Value", "value"),
  ("Link", "RequestBody", "requestBody")]

/-- The same for OpenAPI 3.1, where schemas are plain JSON. -/
def nullable31 : List (String × String × String) := [
  ("Parameter", "Example", "example"), ("Header", "Example", "example"), ("MediaType", "Example", "example"),
  ("Example", "Value", "value"), ("Link", "RequestBody", "requestBody")]

/-- The object has the member `k` up to case, and it is `null` wherever it occurs. -/
def OnlyNull (ms : List (String × Any)) (k : String) : Prop :=
  ∀ p ∈ ms, foldKey p.1 = foldKey k → p.2 = .null

end Verif.Spec
