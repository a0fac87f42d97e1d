import Verif.Codec.Into
import Verif.Spec.Names
import Verif.Spec.Order
import Verif.Spec.Yaml

/-!
# Specification vocabulary for reading into a value that has content
-/

namespace Verif.Spec
open Codec

/-- What a field holds after members were read into it one after the other: a member that is meant for the field is read
over what the field holds, the others are passed over. -/
inductive ReadOver (T : Table) (N : Nums) (fs : List Field) (f : Field) : Val → List (String × Any) → Val → Prop
  | nil {v : Val} : ReadOver T N fs f v [] v
  | skip {v w : Val} {k : String} {j : Any} {ms : List (String × Any)} (hk : ¬ MeantFor fs k f)
      (h : ReadOver T N fs f v ms w) : ReadOver T N fs f v ((k, j) :: ms) w
  | read {v u w : Val} {k : String} {j : Any} {ms : List (String × Any)} (hk : MeantFor fs k f)
      (hu : decodeInto T N f.ty v j = some u) (h : ReadOver T N fs f u ms w) : ReadOver T N fs f v ((k, j) :: ms) w

/-- A field of a struct value; `d` in a new value. -/
def fieldBefore (cur : Val) (go : String) (d : Val) : Val :=
  match cur with
  | .struct vals => (GoMap.get? vals go).getD d
  | _ => d

/-- What a map holds under a key. -/
def entryOf (m : Val) (k : String) : Option Val :=
  match m with
  | .map es => GoMap.get? es k
  | _ => none

/-- A key that is no field and no constant of the type. -/
def Extra (s : Struct) (k : String) : Prop :=
  k ∉ s.known ∧ k ∉ s.consts.map Prod.fst ∧ k ∉ s.notConsts.map Prod.fst

/-- A map field before and after reading an object: an entry whose key is in the object, and is one of the `mine`, is what
its value says when it is read into a new value; all other entries are as they were. -/
def EntriesReplaced (T : Table) (N : Nums) (t : Ty) (mine : String → Prop) (ms : List (String × Any)) (before after : Val) :
    Prop :=
  ∀ k, (∀ x, lastValue ms k = some x → mine k → ∃ w, decodeInto T N t (zero T t) x = some w ∧ entryOf after k = some w) ∧
    (lastValue ms k = none ∨ ¬ mine k → entryOf after k = entryOf before k)

/-- Members that are read into the same field are read as the same value, or there is an object where the field takes a
text: reading that is an error in any order. -/
def AlikeEach (T : Table) (N : Nums) (fields : List Field) (ms : List (String × Any)) : Prop :=
  ∀ k₁ x₁ k₂ x₂ f, (k₁, x₁) ∈ ms → (k₂, x₂) ∈ ms → fieldOf fields k₁ = some f → fieldOf fields k₂ = some f →
    decode T N f.ty x₁ = decode T N f.ty x₂ ∨ ((f.ty = .str ∨ f.ty = .ptr .str) ∧ ∃ os, x₁ = .obj os)

/-- When the JSON value is read as a value of the type, members for the same field of a struct agree. This is so if every
key occurs once and in one spelling (`ClearAs`). -/
def ReadsAlike (T : Table) (N : Nums) (ty : Ty) (j : Any) : Prop :=
  ∀ n s ms, ReadAs T ty j (.named n) (.obj ms) → GoMap.get? T n = some (.struct s) → AlikeEach T N s.fields ms

end Verif.Spec
