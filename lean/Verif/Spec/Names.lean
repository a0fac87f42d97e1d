import Verif.Codec.Basic

/-!
# Specification vocabulary for the spelling of field names

`encoding/json` matches the members of an object with the fields of a struct by name: exactly, or else without
regard to letter case. Two characters outside ASCII count as spellings of ASCII letters: U+017F (long s) and U+212A
(Kelvin sign).
-/

namespace Verif.Spec
open Codec

/-- The characters that are the same letter. -/
def letters : List (List Char) := [
  ['a', 'A'], ['b', 'B'], ['c', 'C'], ['d', 'D'], ['e', 'E'], ['f', 'F'], ['g', 'G'], ['h', 'H'], ['i', 'I'],
  ['j', 'J'], ['k', 'K', Char.ofNat 0x212A], ['l', 'L'], ['m', 'M'], ['n', 'N'], ['o', 'O'], ['p', 'P'], ['q', 'Q'],
  ['r', 'R'], ['s', 'S', Char.ofNat 0x17F], ['t', 'T'], ['u', 'U'], ['v', 'V'], ['w', 'W'], ['x', 'X'], ['y', 'Y'],
  ['z', 'Z']]

/-- Two characters are equal up to case. -/
def Alike (c d : Char) : Prop := c = d ∨ ∃ l ∈ letters, c ∈ l ∧ d ∈ l

/-- Two texts are equal up to case. -/
inductive SameLetters : List Char → List Char → Prop
  | nil : SameLetters [] []
  | cons {c d cs ds} : Alike c d → SameLetters cs ds → SameLetters (c :: cs) (d :: ds)

/-- Two names are equal up to case. -/
def SameName (a b : String) : Prop := SameLetters a.toList b.toList

/-- The first element of a list with a property. -/
def FirstOf {α : Type} (P : α → Prop) (l : List α) (x : α) : Prop :=
  ∃ pre post, l = pre ++ x :: post ∧ P x ∧ ∀ y ∈ pre, ¬ P y

/-- A member with the key `k` is meant for the field: it is the field of that name, or there is none and it is the
first field that has the name up to case. -/
def MeantFor (fs : List Field) (k : String) (f : Field) : Prop :=
  FirstOf (fun g : Field => g.key = k) fs f ∨
  (∀ g ∈ fs, g.key ≠ k) ∧ FirstOf (fun g : Field => SameName g.key k) fs f

end Verif.Spec
