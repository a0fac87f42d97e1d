import Verif.Union

/-!
# What joining means

A JSON text as a function of a JSON value, and the joined value as a function of the values of the parts.
Nothing here mentions the loop of `marshalUnion`.
-/

namespace Verif.Spec

/-- The hexadecimal digits used by `json.Marshal` (`encoding/json`). -/
def hexDigit (n : Nat) : Char := "0123456789abcdef".toList.getD n '0'

/-- The escape of one character inside a JSON string as `json.Marshal` writes it: quotes, backslashes,
control characters, the three HTML characters and the two line separators are escaped. -/
def escapeChar (c : Char) : List Char :=
  if c = '"' then ['\\', '"']
  else if c = '\\' then ['\\', '\\']
  else if c = '\n' then ['\\', 'n']
  else if c = '\r' then ['\\', 'r']
  else if c = '\t' then ['\\', 't']
  else if c = Char.ofNat 8 then ['\\', 'b']
  else if c = Char.ofNat 12 then ['\\', 'f']
  else if c.toNat < 32 ∨ c = '<' ∨ c = '>' ∨ c = '&' ∨ c.toNat = 0x2028 ∨ c.toNat = 0x2029 then
    ['\\', 'u', hexDigit (c.toNat / 4096 % 16), hexDigit (c.toNat / 256 % 16), hexDigit (c.toNat / 16 % 16),
      hexDigit (c.toNat % 16)]
  else [c]

/-- A JSON string literal. -/
def quote (s : String) : List Char := '"' :: (s.toList.flatMap escapeChar ++ ['"'])

/-- Texts separated by commas. -/
def commaSep : List (List Char) → List Char
  | [] => []
  | [t] => t
  | t :: rest => t ++ ',' :: commaSep rest

mutual
/-- The compact JSON text of a value. -/
def text : Any → List Char
  | .null => "null".toList
  | .bool true => "true".toList
  | .bool false => "false".toList
  | .num lit => lit.toList
  | .str s => quote s
  | .arr xs => '[' :: (commaSep (texts xs) ++ [']'])
  | .obj ms => '{' :: (commaSep (memberTexts ms) ++ ['}'])
/-- The texts of the elements of an array. -/
def texts : List Any → List (List Char)
  | [] => []
  | x :: xs => text x :: texts xs
/-- The texts of the members of an object. -/
def memberTexts : List (String × Any) → List (List Char)
  | [] => []
  | (k, v) :: ms => (quote k ++ ':' :: text v) :: memberTexts ms
end

/-- A number literal starts with a digit or a minus sign (JSON grammar). -/
def NumberStart (lit : String) : Prop := ∃ c rest, lit.toList = c :: rest ∧ (c = '-' ∨ c.isDigit = true)

/-- The value is not a number, or is written as a number. -/
def Printable : Any → Prop
  | .num lit => NumberStart lit
  | _ => True

/-- The part is nothing to join: `null` or an object without members. -/
def IsBlank (v : Any) : Prop := v = .null ∨ v = .obj []

/-- The members of an object. -/
def members : Any → List (String × Any)
  | .obj ms => ms
  | _ => []

/-- The value is an object. -/
def IsObject (v : Any) : Prop := ∃ ms, v = .obj ms

end Verif.Spec
