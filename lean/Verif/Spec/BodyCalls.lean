import Verif.BodyCalls
import Verif.Spec.Http

/-!
# Specification of the definitions and files of a request body
-/

namespace Verif.BodySpec

/-- The type has a field with the tag `formData` or `form`. -/
def FormTagged (t : DefType) : Prop := t.tagged "formData" = true ∨ t.tagged "form" = true

/-- The name that a type gets in the body of content type `application/json`. -/
def jsonName (t : DefType) : String := bodyDefName "json" [] t

/-- The name that a type gets in a form. -/
def formName (t : DefType) : String := bodyDefName "formData" ["form"] t

/-- A string begins with another one. -/
def Begins (s p : String) : Prop := ∃ rest, s = p ++ rest

/-- The types that a schema allows. -/
def types : Option JType → List String
  | none => []
  | some (.one t) => [t]
  | some (.many ts) => ts

/-- What `RemoveType` of the dependency does: the type is gone, the other types stay, in order. -/
def Removes (rm : RemoveType) : Prop := ∀ ty t, types (rm ty t) = (types ty).filter (· ≠ t)

/-- A single file: `*multipart.File` or `*multipart.FileHeader`. -/
def IsFile (k : ValueKind) : Prop := k = .file ∨ k = .fileHeader

/-- Several files: `[]multipart.File` or `[]*multipart.FileHeader`. -/
def AreFiles (k : SliceKind) : Prop := k = .files ∨ k = .fileHeaders

/-- The definitions of a body carry the names that the callback gives to the types. -/
def NamedBy (name : DefType → String) (types : List DefType) (defs : List (String × JS)) : Prop :=
  defs.map (·.1) = types.map name

end Verif.BodySpec
