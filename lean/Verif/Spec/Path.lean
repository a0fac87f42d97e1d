/-!
# Specification vocabulary for paths

A path is cut into pieces. This file does not use the model.
-/

namespace Verif.PathSpec

/-- The HTTP methods of OpenAPI. -/
def methods : List String := ["get", "put", "post", "delete", "options", "head", "patch", "trace"]

/-- `c` is a spelling of the lower-case letter `d`: the letter itself, its capital, or one of the two
non-ASCII characters that Unicode lower-cases to an ASCII letter (dotted capital I, Kelvin sign). -/
def SpellsLetter (c d : Char) : Prop :=
  c = d ∨ c.toNat + 32 = d.toNat ∧ 'A' ≤ c ∧ c ≤ 'Z' ∨ d = 'i' ∧ c = '\u0130' ∨ d = 'k' ∧ c = '\u212A'

/-- Letter by letter. -/
def Spells : List Char → List Char → Prop
  | [], [] => True
  | c :: cs, d :: ds => SpellsLetter c d ∧ Spells cs ds
  | _, _ => False

instance (c d : Char) : Decidable (SpellsLetter c d) := by unfold SpellsLetter; infer_instance

instance : (cs ds : List Char) → Decidable (Spells cs ds)
  | [], [] => isTrue trivial
  | [], _ :: _ => isFalse id
  | _ :: _, [] => isFalse id
  | c :: cs, d :: ds =>
    have : Decidable (Spells cs ds) := instDecidableSpells cs ds
    inferInstanceAs (Decidable (SpellsLetter c d ∧ Spells cs ds))

/-- A piece of a URL path: one character of literal text, or a placeholder `{name}` / `{name:pattern}`. -/
inductive Piece where
  | lit (c : Char)
  | ph (name : List Char) (pattern : Option (List Char))
deriving DecidableEq, Repr

/-- Names are non-empty without `}` and `:`; patterns, if present, are non-empty without `}`. -/
def PhOk (name : List Char) (pattern : Option (List Char)) : Prop :=
  name ≠ [] ∧ '}' ∉ name ∧ ':' ∉ name ∧ ∀ r, pattern = some r → r ≠ [] ∧ '}' ∉ r

/-- The text a piece was cut from. -/
def Piece.text : Piece → List Char
  | .lit c => [c]
  | .ph n none => '{' :: n ++ ['}']
  | .ph n (some r) => '{' :: n ++ ':' :: r ++ ['}']

/-- The text with the pattern removed. -/
def Piece.clean : Piece → List Char
  | .lit c => [c]
  | .ph n _ => '{' :: n ++ ['}']

/-- The name, for placeholders. -/
def Piece.name? : Piece → Option (List Char)
  | .lit _ => none
  | .ph n _ => some n

def textAll (ps : List Piece) : List Char := ps.flatMap Piece.text
def cleanAll (ps : List Piece) : List Char := ps.flatMap Piece.clean
def names (ps : List Piece) : List String := (ps.filterMap Piece.name?).map String.ofList

/-- Some placeholder stands at the beginning of `s`. -/
def StartsWithPlaceholder (s : List Char) : Prop :=
  ∃ n r rest, PhOk n r ∧ s = (Piece.ph n r).text ++ rest

/-- Placeholders are well-formed, and text is literal only where no placeholder begins
(every placeholder is taken at the leftmost possible place). -/
def Leftmost : List Piece → Prop
  | [] => True
  | .lit c :: ps => ¬ StartsWithPlaceholder (c :: textAll ps) ∧ Leftmost ps
  | .ph n r :: ps => PhOk n r ∧ Leftmost ps

/-- `ps` is the leftmost decomposition of `path`. -/
def Decomposes (path : String) (ps : List Piece) : Prop :=
  textAll ps = path.toList ∧ Leftmost ps

end Verif.PathSpec
