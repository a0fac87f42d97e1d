import Verif.Spec.Reflect
import Verif.Seen

/-!
# What callbacks should see
-/

namespace Verif
variable {S : Type}

/-- What a callback should be told: the direction and the location that is being worked on. The two auxiliary calls,
which only find something out, tell nothing. -/
def Task.sees : Task → Option Progress
  | .probe => none
  | .check => none
  | .form => some ⟨false, "body"⟩
  | .json => some ⟨false, "body"⟩
  | .params inn => some ⟨false, inn⟩
  | .field inn => some ⟨false, inn⟩
  | .response => some ⟨true, "body"⟩
  | .header => some ⟨true, "header"⟩

/-- Work on a request. -/
def Task.OfRequest (t : Task) : Prop :=
  t = .probe ∨ t = .form ∨ t = .json ∨
    ∃ inn ∈ ["query", "path", "cookie", "header"], t = .params inn ∨ t = .field inn

/-- Work on a response. -/
def Task.OfResponse (t : Task) : Prop := t = .check ∨ t = .response ∨ t = .header

/-- The log has a callback of a kind for a unit. -/
def Watch.Has (w : Watch S) (cu : ContentUnit S) (t : Task) : Prop := ∃ x ∈ w.seen, x.unit = cu ∧ x.task = t

/-- The fields of a unit that become parameters of a location: those at the top level that are not ignored. Slices and
maps have none. -/
def paramsOf (env : Env S) (cu : ContentUnit S) (inn : String) : List (PropCall S) :=
  if (cu.value env).isSliceOrMap = false then
    ((cu.value env).params inn (cu.fieldMapping inn)).events.filterMap fun e => match e with
      | .prop c => if c.processed = true ∧ c.pathLen ≤ 1 then some c else none
      | .defn _ _ => none
  else []

/-- The unit has a form body: its schema was found. -/
def HasForm (env : Env S) (method : String) (cu : ContentUnit S) : Prop :=
  ∃ b, reflectRequestBody env cu method (cu.fieldMapping "formData") "formData" ["form"] = .ok (some b)

/-- The unit has a JSON body. -/
def HasJson (env : Env S) (method : String) (cu : ContentUnit S) : Prop :=
  ∃ b, reflectRequestBody env cu method [] "json" [] = .ok (some b)

/-- What a unit of a request has to be looked at for, by its content type: parameters in all four locations, unless the
structure is a slice or a map, the types of those that it has, and the bodies that it has. -/
def Due (env : Env S) (method : String) (cu : ContentUnit S) (t : Task) : Prop :=
  ((cu.value env).isSliceOrMap = false ∧ (cu.contentType = "" ∨ cu.contentType = "application/json" ∨
    cu.contentType = "application/x-www-form-urlencoded" ∨ cu.contentType = "multipart/form-data") ∧
    ∃ inn ∈ ["query", "path", "cookie", "header"], t = .params inn ∨ (paramsOf env cu inn ≠ [] ∧ t = .field inn)) ∨
  (HasForm env method cu ∧ (cu.contentType = "" ∨ cu.contentType = "application/x-www-form-urlencoded" ∨
    cu.contentType = "multipart/form-data") ∧ t = .form) ∨
  (HasJson env method cu ∧ (cu.contentType = "" ∨ cu.contentType = "application/json") ∧ t = .json)

end Verif
