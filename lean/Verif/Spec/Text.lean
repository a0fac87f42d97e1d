import Verif.Entities

/-!
# The grammar of JSON (RFC 8259)

Which texts denote which values. Nothing here mentions the scanner.
-/

namespace Verif.Grammar

/-- White space between tokens. -/
def Blanks (ws : List Char) : Prop := ∀ c ∈ ws, c = ' ' ∨ c = '\t' ∨ c = '\r' ∨ c = '\n'

/-- Decimal digits. -/
def Digits (ds : List Char) : Prop := ∀ c ∈ ds, c.isDigit = true

/-- `int` of the grammar: no leading zeros. -/
def IntPart (ds : List Char) : Prop :=
  ds = ['0'] ∨ ∃ c rest, ds = c :: rest ∧ c.isDigit = true ∧ c ≠ '0' ∧ Digits rest

/-- `[ frac ]` of the grammar. -/
def FracPart (fs : List Char) : Prop := fs = [] ∨ ∃ ds, fs = '.' :: ds ∧ ds ≠ [] ∧ Digits ds

/-- `[ exp ]` of the grammar. -/
def ExpPart (es : List Char) : Prop :=
  es = [] ∨ ∃ e sign ds, es = e :: (sign ++ ds) ∧ (e = 'e' ∨ e = 'E') ∧ (sign = [] ∨ sign = ['+'] ∨ sign = ['-']) ∧
    ds ≠ [] ∧ Digits ds

/-- `number = [ minus ] int [ frac ] [ exp ]`. -/
def Number (cs : List Char) : Prop :=
  ∃ sign i f e, cs = sign ++ (i ++ (f ++ e)) ∧ (sign = [] ∨ sign = ['-']) ∧ IntPart i ∧ FracPart f ∧ ExpPart e

/-- A hexadecimal digit of either case and its value. -/
def Hex (c : Char) (n : Nat) : Prop :=
  n < 16 ∧ ("0123456789abcdef".toList[n]? = some c ∨ "0123456789ABCDEF".toList[n]? = some c)

/-- What is written inside a string literal: characters, and code units of UTF-16 as `\uXXXX`. -/
inductive Item where
  | char (c : Char)
  | unit (u : Nat)
deriving DecidableEq, Repr

/-- The escapes of one letter. -/
def escapes : List (Char × Char) :=
  [('"', '"'), ('\\', '\\'), ('/', '/'), ('b', Char.ofNat 8), ('f', Char.ofNat 12), ('n', '\n'), ('r', '\r'),
    ('t', '\t')]

/-- The texts of one item. -/
inductive Written : List Char → Item → Prop
  | plain (c : Char) : c ≠ '"' → c ≠ '\\' → 32 ≤ c.toNat → Written [c] (.char c)
  | escape (e c : Char) : (e, c) ∈ escapes → Written ['\\', e] (.char c)
  | hex (a b c d : Char) (x y z w : Nat) : Hex a x → Hex b y → Hex c z → Hex d w →
      Written ['\\', 'u', a, b, c, d] (.unit (((x * 16 + y) * 16 + z) * 16 + w))

/-- The inside of a string literal. -/
inductive Body : List Char → List Item → Prop
  | nil : Body [] []
  | cons {cs rest : List Char} {i : Item} {is : List Item} : Written cs i → Body rest is → Body (cs ++ rest) (i :: is)

/-- The first half of a pair of UTF-16 code units. -/
def High (u : Nat) : Prop := 0xD800 ≤ u ∧ u ≤ 0xDBFF

/-- The second half of a pair of UTF-16 code units. -/
def Low (u : Nat) : Prop := 0xDC00 ≤ u ∧ u ≤ 0xDFFF

instance (u : Nat) : Decidable (High u) := by unfold High; infer_instance
instance (u : Nat) : Decidable (Low u) := by unfold Low; infer_instance

/-- The character of one code unit that is not half of a pair; halves alone become U+FFFD. -/
def single (u : Nat) : Char := if High u ∨ Low u then Char.ofNat 0xFFFD else Char.ofNat u

/-- The characters of the inside of a string literal. -/
def chars : List Item → List Char
  | [] => []
  | .char c :: is => c :: chars is
  | .unit u :: .unit w :: is =>
    if High u ∧ Low w then Char.ofNat (0x10000 + (u - 0xD800) * 0x400 + (w - 0xDC00)) :: chars is
    else single u :: chars (.unit w :: is)
  | .unit u :: is => single u :: chars is

mutual
/-- The text, without white space around it, denotes the value. -/
inductive Denotes : List Char → Any → Prop
  | null : Denotes "null".toList .null
  | true : Denotes "true".toList (.bool true)
  | false : Denotes "false".toList (.bool false)
  | number {cs : List Char} : Number cs → Denotes cs (.num (String.ofList cs))
  | string {cs : List Char} {is : List Item} : Body cs is →
      Denotes ('"' :: (cs ++ ['"'])) (.str (String.ofList (chars is)))
  | emptyArray {ws : List Char} : Blanks ws → Denotes ('[' :: (ws ++ [']'])) (.arr [])
  | array {cs : List Char} {xs : List Any} : Elements cs xs → Denotes ('[' :: (cs ++ [']'])) (.arr xs)
  | emptyObject {ws : List Char} : Blanks ws → Denotes ('{' :: (ws ++ ['}'])) (.obj [])
  | object {cs : List Char} {ms : List (String × Any)} : Members cs ms → Denotes ('{' :: (cs ++ ['}'])) (.obj ms)
/-- One or more elements separated by commas. -/
inductive Elements : List Char → List Any → Prop
  | one {a cs b : List Char} {x : Any} : Blanks a → Denotes cs x → Blanks b → Elements (a ++ (cs ++ b)) [x]
  | more {a cs b rest : List Char} {x : Any} {xs : List Any} : Blanks a → Denotes cs x → Blanks b → Elements rest xs →
      Elements (a ++ (cs ++ (b ++ ',' :: rest))) (x :: xs)
/-- One or more members separated by commas. -/
inductive Members : List Char → List (String × Any) → Prop
  | one {a k b c cs d : List Char} {is : List Item} {x : Any} : Blanks a → Body k is → Blanks b → Blanks c → Denotes cs x →
      Blanks d →
      Members (a ++ '"' :: (k ++ '"' :: (b ++ ':' :: (c ++ (cs ++ d))))) [(String.ofList (chars is), x)]
  | more {a k b c cs d rest : List Char} {is : List Item} {x : Any} {ms : List (String × Any)} : Blanks a → Body k is →
      Blanks b → Blanks c → Denotes cs x → Blanks d → Members rest ms →
      Members (a ++ '"' :: (k ++ '"' :: (b ++ ':' :: (c ++ (cs ++ (d ++ ',' :: rest))))))
        ((String.ofList (chars is), x) :: ms)
end

/-- The text, possibly with white space around it, is a JSON text of the value. -/
def JSONText (cs : List Char) (j : Any) : Prop :=
  ∃ a t b, cs = a ++ (t ++ b) ∧ Blanks a ∧ Denotes t j ∧ Blanks b

mutual
/-- How many arrays and objects are nested in the value. -/
def depth : Any → Nat
  | .arr xs => depthList xs + 1
  | .obj ms => depthMembers ms + 1
  | _ => 0
/-- The largest depth of the elements. -/
def depthList : List Any → Nat
  | [] => 0
  | x :: xs => max (depth x) (depthList xs)
/-- The largest depth of the members. -/
def depthMembers : List (String × Any) → Nat
  | [] => 0
  | (_, x) :: ms => max (depth x) (depthMembers ms)
end

mutual
/-- Every number in the value is written as JSON writes numbers. -/
def NumbersOk : Any → Prop
  | .num lit => Number lit.toList
  | .arr xs => NumbersOkList xs
  | .obj ms => NumbersOkMembers ms
  | _ => True
/-- Every number in the elements. -/
def NumbersOkList : List Any → Prop
  | [] => True
  | x :: xs => NumbersOk x ∧ NumbersOkList xs
/-- Every number in the members. -/
def NumbersOkMembers : List (String × Any) → Prop
  | [] => True
  | (_, x) :: ms => NumbersOk x ∧ NumbersOkMembers ms
end

end Verif.Grammar
