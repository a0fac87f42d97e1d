import Verif.Codec.Basic
import Verif.Spec.Union

/-!
# Documents as text

`MarshalJSON` and `UnmarshalJSON` of the entities (`/repo/openapi3/entities.go`, `/repo/openapi31/entities.go`) work on
texts. `Verif.Codec` models them on JSON values; here they are modelled on characters: writing joins the texts of the
parts with `marshalUnion`, reading goes through the scanner of `encoding/json`.

Simplifications: characters stand for bytes of valid UTF-8; the entries of maps are written in the order of the list that
models the map (Go writes them sorted by key, see `Verif.Sorted`).
-/

namespace Verif.Text
open Codec Spec

/-! ## Reading: the scanner of `encoding/json` -/

/-- `maxNestingDepth` of `encoding/json` (Go 1.15 and later). -/
def maxDepth : Nat := 10000

/-- White space, `isSpace` of `encoding/json`. -/
def isSpace (c : Char) : Bool := c = ' ' || c = '\t' || c = '\r' || c = '\n'

/-- Skips white space. -/
def skip : List Char → List Char
  | [] => []
  | c :: cs => if isSpace c then skip cs else c :: cs

/-- The value of a hexadecimal digit, either case. -/
def hexVal (c : Char) : Option Nat :=
  if '0' ≤ c ∧ c ≤ '9' then some (c.toNat - 48)
  else if 'a' ≤ c ∧ c ≤ 'f' then some (c.toNat - 87)
  else if 'A' ≤ c ∧ c ≤ 'F' then some (c.toNat - 55)
  else none

/-- `getu4` of `encoding/json` after `\u`. -/
def hex4 (a b c d : Char) : Option Nat :=
  match hexVal a, hexVal b, hexVal c, hexVal d with
  | some a, some b, some c, some d => some (((a * 16 + b) * 16 + c) * 16 + d)
  | _, _, _, _ => none

/-- The one-character escapes. -/
def simpleEscape (c : Char) : Option Char :=
  if c = '"' then some '"'
  else if c = '\\' then some '\\'
  else if c = '/' then some '/'
  else if c = 'b' then some (Char.ofNat 8)
  else if c = 'f' then some (Char.ofNat 12)
  else if c = 'n' then some '\n'
  else if c = 'r' then some '\r'
  else if c = 't' then some '\t'
  else none

/-- A code unit of UTF-16 that is the first half of a pair. -/
def isHigh (u : Nat) : Bool := 0xD800 ≤ u && u < 0xDC00

/-- A code unit of UTF-16 that is the second half of a pair. -/
def isLow (u : Nat) : Bool := 0xDC00 ≤ u && u < 0xE000

/-- `unicode.ReplacementChar` -/
def replacement : Char := Char.ofNat 0xFFFD

/-- A string literal after its opening quote: the characters and the rest of the text (`unquote` of `encoding/json`,
after the scanner has accepted the literal). Two escapes that are a surrogate pair are one character, any other surrogate
is replaced. -/
def scanString : List Char → Option (List Char × List Char)
  | [] => none
  | '"' :: r => some ([], r)
  | '\\' :: 'u' :: a :: b :: c :: d :: r =>
    match hex4 a b c d with
    | none => none
    | some u =>
      if isHigh u then
        match r with
        | '\\' :: 'u' :: a' :: b' :: c' :: d' :: r' =>
          match hex4 a' b' c' d' with
          | none => none
          | some w =>
            if isLow w then
              (scanString r').map (fun p => (Char.ofNat (0x10000 + (u - 0xD800) * 0x400 + (w - 0xDC00)) :: p.1, p.2))
            else (scanString ('\\' :: 'u' :: a' :: b' :: c' :: d' :: r')).map (fun p => (replacement :: p.1, p.2))
        | r => (scanString r).map (fun p => (replacement :: p.1, p.2))
      else if isLow u then (scanString r).map (fun p => (replacement :: p.1, p.2))
      else (scanString r).map (fun p => (Char.ofNat u :: p.1, p.2))
  | '\\' :: c :: r =>
    match simpleEscape c with
    | none => none
    | some e => (scanString r).map (fun p => (e :: p.1, p.2))
  | c :: r => if c = '\\' ∨ c.toNat < 32 then none else (scanString r).map (fun p => (c :: p.1, p.2))

/-- The digits at the beginning of a text, and the rest. -/
def digits : List Char → List Char × List Char
  | [] => ([], [])
  | c :: cs => if c.isDigit then ((c :: (digits cs).1), (digits cs).2) else ([], c :: cs)

/-- The integer part of a number: `0`, or digits that do not start with `0`. -/
def scanInt (cs : List Char) : Option (List Char × List Char) :=
  match digits cs with
  | ([], _) => none
  | (['0'], r) => some (['0'], r)
  | ('0' :: ds, r) => some (['0'], ds ++ r)
  | p => some p

/-- The fraction of a number, if there is one. -/
def scanFrac (cs : List Char) : Option (List Char × List Char) :=
  match cs with
  | '.' :: r =>
    match digits r with
    | ([], _) => none
    | (ds, r) => some ('.' :: ds, r)
  | cs => some ([], cs)

/-- The sign of an exponent, if there is one. -/
def expSign (cs : List Char) : List Char × List Char :=
  match cs with
  | '+' :: r => (['+'], r)
  | '-' :: r => (['-'], r)
  | r => ([], r)

/-- The exponent of a number, if there is one. -/
def scanExp (cs : List Char) : Option (List Char × List Char) :=
  match cs with
  | c :: r =>
    if c = 'e' ∨ c = 'E' then
      match digits (expSign r).2 with
      | ([], _) => none
      | (ds, r') => some (c :: ((expSign r).1 ++ ds), r')
    else some ([], cs)
  | [] => some ([], [])

/-- The sign of a number, if there is one. -/
def minus (cs : List Char) : List Char × List Char :=
  match cs with
  | '-' :: r => (['-'], r)
  | r => ([], r)

/-- A number: an optional sign, the integer part, the fraction, the exponent. -/
def scanNumber (cs : List Char) : Option (List Char × List Char) :=
  match scanInt (minus cs).2 with
  | none => none
  | some (i, r) =>
    match scanFrac r with
    | none => none
    | some (f, r) =>
      match scanExp r with
      | none => none
      | some (e, r) => some ((minus cs).1 ++ (i ++ (f ++ e)), r)

mutual
/-- A value at the beginning of a text, and the rest (`scanner` of `encoding/json`). `d` is how many arrays and objects may
still be opened. The fuel bounds the recursion; the length of the text is enough. -/
def scanValue : Nat → Nat → List Char → Option (Any × List Char)
  | 0, _, _ => none
  | n + 1, d, cs =>
    match skip cs with
    | [] => none
    | 'n' :: 'u' :: 'l' :: 'l' :: r => some (.null, r)
    | 't' :: 'r' :: 'u' :: 'e' :: r => some (.bool true, r)
    | 'f' :: 'a' :: 'l' :: 's' :: 'e' :: r => some (.bool false, r)
    | '"' :: r => (scanString r).map (fun p => (.str (String.ofList p.1), p.2))
    | '[' :: r =>
      match d with
      | 0 => none
      | d + 1 =>
        match skip r with
        | ']' :: r => some (.arr [], r)
        | r => (scanElements n d r).map (fun p => (.arr p.1, p.2))
    | '{' :: r =>
      match d with
      | 0 => none
      | d + 1 =>
        match skip r with
        | '}' :: r => some (.obj [], r)
        | r => (scanMembers n d r).map (fun p => (.obj p.1, p.2))
    | c :: r => (scanNumber (c :: r)).map (fun p => (.num (String.ofList p.1), p.2))
/-- The elements of an array up to its end. -/
def scanElements : Nat → Nat → List Char → Option (List Any × List Char)
  | 0, _, _ => none
  | n + 1, d, cs =>
    match scanValue n d cs with
    | none => none
    | some (v, r) =>
      match skip r with
      | ',' :: r => (scanElements n d r).map (fun p => (v :: p.1, p.2))
      | ']' :: r => some ([v], r)
      | _ => none
/-- The members of an object up to its end. -/
def scanMembers : Nat → Nat → List Char → Option (List (String × Any) × List Char)
  | 0, _, _ => none
  | n + 1, d, cs =>
    match skip cs with
    | '"' :: r =>
      match scanString r with
      | none => none
      | some (k, r) =>
        match skip r with
        | ':' :: r =>
          match scanValue n d r with
          | none => none
          | some (v, r) =>
            match skip r with
            | ',' :: r => (scanMembers n d r).map (fun p => ((String.ofList k, v) :: p.1, p.2))
            | '}' :: r => some ([(String.ofList k, v)], r)
            | _ => none
        | _ => none
    | _ => none
end

/-- The value of a text with at most `d` levels of arrays and objects: one value and white space around it. -/
def parseWithin (d : Nat) (cs : List Char) : Option Any :=
  match scanValue (2 * cs.length + 2) d cs with
  | some (v, r) => if skip r = [] then some v else none
  | none => none

/-- The value of a text (`checkValid` and the decoder of `encoding/json`). -/
def parse (cs : List Char) : Option Any := parseWithin maxDepth cs

/-- `json.Unmarshal` of a text into a type of the table, e.g. `Spec.UnmarshalJSON` (`/repo/openapi3/entities.go:134-199`).
The methods parse the same bytes several times, and parts of them as `json.RawMessage`; the values are those of the
parsed text. -/
def unmarshal (T : Table) (N : Nums) (ty : Ty) (cs : List Char) : Option Val :=
  match parse cs with
  | some j => decode T N ty j
  | none => none

/-! ## Writing -/

/-- All results, or the first failure. -/
def runAll {α β : Type} (f : α → UnionRes β) : List α → UnionRes (List β)
  | [] => .ok []
  | x :: xs =>
    match f x with
    | .ok y =>
      match runAll f xs with
      | .ok ys => .ok (y :: ys)
      | .err => .err
      | .panics => .panics
    | .err => .err
    | .panics => .panics

/-- A field of a struct: its value, and its text for a type. -/
structure Slot where
  go : String
  val : Val
  enc : Ty → UnionRes (List Char)

/-- The field with a Go name. -/
def slotOf (fs : List Slot) (go : String) : Option Slot := fs.find? (fun s => s.go == go)

/-- An object from the texts of its members, as `json.Marshal` writes structs and maps. -/
def braces (ms : List (List Char)) : List Char := '{' :: (commaSep ms ++ ['}'])

/-- The texts of the fields with JSON keys (`json.Marshal` of `marshalX`, e.g. `/repo/openapi3/entities.go:203`). -/
def fieldTexts (fields : List Field) (fs : List Slot) : UnionRes (List (List Char)) :=
  match fields with
  | [] => .ok []
  | f :: rest =>
    match slotOf fs f.go with
    | none => .err
    | some slot =>
      if omitted f slot.val then fieldTexts rest fs
      else
        match slot.enc f.ty with
        | .ok t =>
          match fieldTexts rest fs with
          | .ok ts => .ok ((quote f.key ++ ':' :: t) :: ts)
          | .err => .err
          | .panics => .panics
        | .err => .err
        | .panics => .panics

/-- An argument of `marshalUnion`, marshalled (`json.Marshal(m)`, `/repo/openapi3/entities.go:8531`). -/
def partText (s : Struct) (fs : List Slot) : Part → UnionRes (List Char)
  | .consts cs => .ok (text (.obj (cs.map (fun c => (c.1, c.2.json)))))
  | .fields =>
    match fieldTexts s.fields fs with
    | .ok ts => .ok (braces ts)
    | .err => .err
    | .panics => .panics
  | .hidden go =>
    match slotOf fs go, hiddenTy s go with
    | some slot, some ty => slot.enc ty
    | _, _ => .err

/-- The loop of `marshalUnion` with the marshalling of each part in its turn. `/repo/openapi3/entities.go:8530-8564`,
`/repo/openapi31/entities.go:5629-5663`. -/
def joinLoop (s : UnionState) : List (UnionRes (List Char)) → UnionRes UnionState
  | [] => .ok s
  | .panics :: _ => .panics
  | .err :: _ => .err
  | .ok j :: rest =>
    match unionStep s (some j) with
    | .ok s' => joinLoop s' rest
    | .err => .err
    | .panics => .panics

/-- `marshalUnion(parts...)`. `/repo/openapi3/entities.go:8526-8572`, `/repo/openapi31/entities.go:5625-5671`. -/
def join (parts : List (UnionRes (List Char))) : UnionRes (List Char) :=
  match joinLoop { result := ['{'], isObject := true } parts with
  | .ok s => .ok (if s.isObject = true ∧ s.result.length = 1 then s.result ++ ['}'] else s.result)
  | .err => .err
  | .panics => .panics

/-- `json.Marshal` checks what a `MarshalJSON` method returns and makes it compact. Simplification: a valid text is left
as it is; the texts here have no white space and are escaped already. Types without the method are checked as well. -/
def compact : UnionRes (List Char) → UnionRes (List Char)
  | .ok cs => if (parse cs).isSome then .ok cs else .err
  | .err => .err
  | .panics => .panics

/-- A value whose parts have texts. -/
inductive View where
  | nil
  | any (a : Any)
  | bool (b : Bool)
  | str (s : String)
  | num (lit : String)
  | list (es : List (Ty → UnionRes (List Char)))
  | map (ms : List (String × (Ty → UnionRes (List Char))))
  | struct (fs : List Slot)

/-- The text of an entry of a map. -/
def entryText (t : Ty) (m : String × (Ty → UnionRes (List Char))) : UnionRes (List Char) :=
  match m.2 t with
  | .ok x => .ok (quote m.1 ++ ':' :: x)
  | .err => .err
  | .panics => .panics

/-- `json.Marshal` of a value of a type; the `MarshalJSON` methods of `/repo/openapi3/entities.go` and
`/repo/openapi31/entities.go` are described by the table, as in `Codec.encodeView`. -/
def viewText (T : Table) (v : View) : Ty → UnionRes (List Char)
  | .any => match v with
    | .any a => .ok (text a)
    | .nil => .ok (text .null)
    | _ => .err
  | .bool => match v with
    | .bool b => .ok (text (.bool b))
    | _ => .err
  | .str => match v with
    | .str s => .ok (quote s)
    | _ => .err
  | .int => match v with
    | .num lit => .ok lit.toList
    | _ => .err
  | .float => match v with
    | .num lit => .ok lit.toList
    | _ => .err
  | .ptr t => match v with
    | .nil => .ok (text .null)
    | v => viewText T v t
  | .slice t => match v with
    | .nil => .ok (text .null)
    | .list es =>
      match runAll (fun e => e t) es with
      | .ok ts => .ok ('[' :: (commaSep ts ++ [']']))
      | .err => .err
      | .panics => .panics
    | _ => .err
  | .map t => match v with
    | .nil => .ok (text .null)
    | .map ms =>
      match runAll (entryText t) ms with
      | .ok ts => .ok (braces ts)
      | .err => .err
      | .panics => .panics
    | _ => .err
  | .named n =>
    match GoMap.get? T n, v with
    | some (.enum values), .str s => if values.contains s then .ok (quote s) else .err
    | some (.struct s), .struct fs => compact (join (s.parts.map (partText s fs)))
    | _, _ => .err

mutual
/-- A value with the texts of its parts. -/
def view (T : Table) : Val → View
  | .nil => .nil
  | .any a => .any a
  | .bool b => .bool b
  | .str s => .str s
  | .num lit => .num lit
  | .list vs => .list (viewList T vs)
  | .map ms => .map (viewMembers T ms)
  | .struct fs => .struct (viewFields T fs)
/-- The elements of a slice. -/
def viewList (T : Table) : List Val → List (Ty → UnionRes (List Char))
  | [] => []
  | v :: vs => viewText T (view T v) :: viewList T vs
/-- The entries of a map. -/
def viewMembers (T : Table) : List (String × Val) → List (String × (Ty → UnionRes (List Char)))
  | [] => []
  | (k, v) :: ms => (k, viewText T (view T v)) :: viewMembers T ms
/-- The fields of a struct. -/
def viewFields (T : Table) : List (String × Val) → List Slot
  | [] => []
  | (go, v) :: fs => ⟨go, v, viewText T (view T v)⟩ :: viewFields T fs
end

/-- The text of `json.Marshal(v)` for `v` of type `ty`. -/
def marshal (T : Table) (ty : Ty) (v : Val) : UnionRes (List Char) := viewText T (view T v) ty

end Verif.Text
