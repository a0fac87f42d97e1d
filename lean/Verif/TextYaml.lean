import Verif.Text
import Verif.Yaml

/-!
# YAML helpers on texts

`/repo/openapi3/yaml.go` and the identical `/repo/openapi31/yaml.go` on characters: `objectKeys` and `skipValue` call
`json.Decoder.Token` on the bytes of the document. `Verif.Yaml` models them on a finished list of tokens; here every call
of `Token` works on the text that is left.

The same simplification as in `Verif.Text`: characters stand for bytes of valid UTF-8.
-/

namespace Verif.Text
open Codec Spec

/-- `Decoder.tokenState` of `encoding/json` (the constants `tokenTopValue`, ..., `tokenObjectComma`). -/
inductive DecState where
  | top
  | arrayStart
  | arrayValue
  | arrayComma
  | objectStart
  | objectKey
  | objectColon
  | objectValue
  | objectComma
deriving DecidableEq, Repr

/-- `Decoder.tokenValueAllowed` of `encoding/json`. -/
def valueAllowed : DecState → Bool
  | .top | .arrayStart | .arrayValue | .objectValue => true
  | _ => false

/-- `Decoder.tokenValueEnd` of `encoding/json`. -/
def valueEnd : DecState → DecState
  | .arrayStart | .arrayValue => .arrayComma
  | .objectValue => .objectComma
  | s => s

/-- A `json.Decoder` on a text (`/repo/openapi3/yaml.go:74`, `/repo/openapi31/yaml.go:74`): `tokenState`, `tokenStack` and
what has not been read yet. -/
structure Dec where
  state : DecState
  stack : List DecState
  rest : List Char

/-- `json.NewDecoder(bytes.NewReader(b))`. -/
def newDecoder (cs : List Char) : Dec := ⟨.top, [], cs⟩

/-- The end of an array or object: the state of the enclosing one is restored and its value ends. -/
def popState (t : Tok) (stack : List DecState) (r : List Char) : Option (Tok × Dec) :=
  match stack with
  | [] => none
  | s :: stack => some (t, ⟨valueEnd s, stack, r⟩)

/-- A value that is not an array or object as `Token` returns it (`Decoder.Decode` into an `interface{}`). A number that
is not a `float64` is an error. Simplification: a number is returned as its literal, which no caller looks at. -/
def scalarToken (N : Nums) (v : Any) : Option Tok :=
  match v with
  | .str s => some (.str s)
  | .num lit =>
    match N.f64 lit with
    | some _ => some (.scalar (.num lit))
    | none => none
  | v => some (.scalar v)

/-- `json.Decoder.Token` (called in `/repo/openapi3/yaml.go:76,88,110` and `/repo/openapi31/yaml.go:76,88,110`): the next
token and the decoder after it; `none` is an error or the end of the text. -/
def token (N : Nums) (st : DecState) (stk : List DecState) : List Char → Option (Tok × Dec)
  | [] => none
  | c :: r =>
    if isSpace c then token N st stk r
    else if c = '[' then
      if valueAllowed st then some (.openArr, ⟨.arrayStart, st :: stk, r⟩) else none
    else if c = ']' then
      if st = .arrayStart ∨ st = .arrayComma then popState .closeArr stk r else none
    else if c = '{' then
      if valueAllowed st then some (.openObj, ⟨.objectStart, st :: stk, r⟩) else none
    else if c = '}' then
      if st = .objectStart ∨ st = .objectComma then popState .closeObj stk r else none
    else if c = ':' then
      if st = .objectColon then token N .objectValue stk r else none
    else if c = ',' then
      if st = .arrayComma then token N .arrayValue stk r
      else if st = .objectComma then token N .objectKey stk r
      else none
    else if c = '"' ∧ (st = .objectStart ∨ st = .objectKey) then
      match scanString r with
      | some (s, r) => some (.str (String.ofList s), ⟨.objectColon, stk, r⟩)
      | none => none
    else if valueAllowed st then
      match scanValue 1 0 (c :: r) with
      | some (v, r) =>
        match scalarToken N v with
        | some t => some (t, ⟨valueEnd st, stk, r⟩)
        | none => none
      | none => none
    else none

/-- `d.Token()` -/
def Dec.token (N : Nums) (d : Dec) : Option (Tok × Dec) := Text.token N d.state d.stack d.rest

/-- What `skipValue` returns, with the decoder after it; see `Verif.Skip`. -/
inductive SkipDec where
  | ok (d : Dec)
  | unterminated (d : Dec)
  | failed

mutual
/-- `skipValue` (`/repo/openapi3/yaml.go:109-132`, `/repo/openapi31/yaml.go:109-132`). The fuel bounds the recursion, which
reads a token per call; `objectKeysText` gives enough (`C96_keys`). -/
def skipValueText (N : Nums) : Nat → Dec → SkipDec
  | 0, _ => .failed
  | n + 1, d =>
    match d.token N with
    | none => .failed
    | some (t, d) =>
      match t with
      | .openObj | .openArr => skipLoopText N n d
      | .closeObj | .closeArr => .unterminated d
      | .str _ | .scalar _ => .ok d
/-- The loop of `skipValue` (`/repo/openapi3/yaml.go:117-126`). -/
def skipLoopText (N : Nums) : Nat → Dec → SkipDec
  | 0, _ => .failed
  | n + 1, d =>
    match skipValueText N n d with
    | .ok d => skipLoopText N n d
    | .unterminated d => .ok d
    | .failed => .failed
end

/-- The loop of `objectKeys` (`/repo/openapi3/yaml.go:86-104`, `/repo/openapi31/yaml.go:86-104`). -/
def keysLoopText (N : Nums) : Nat → Dec → Option (List String)
  | 0, _ => none
  | n + 1, d =>
    match d.token N with
    | none => none
    | some (.closeObj, _) => some []
    | some (t, d) =>
      match skipValueText N n d with
      | .ok d =>
        match keysLoopText N n d with
        | some keys =>
          match t with
          | .str s => some (s :: keys)
          | _ => some keys
        | none => none
      | _ => none

/-- `objectKeys` (`/repo/openapi3/yaml.go:73-105`, `/repo/openapi31/yaml.go:73-105`). -/
def objectKeysText (N : Nums) (b : List Char) : Option (List String) :=
  match (newDecoder b).token N with
  | some (.openObj, d) => keysLoopText N (2 * b.length + 2) d
  | _ => none

/-- `json.Unmarshal(data, &v)` into an `orderedMap`, and `orderedMap.UnmarshalJSON`
(`/repo/openapi3/yaml.go:40,50-71`, `/repo/openapi31/yaml.go:40,50-71`). `json.Unmarshal` hands the text of the value to the
method without the white space around it; `Token` skips white space, so this makes no difference. -/
def orderedMapText (N : Nums) (data : List Char) : Option (List (String × Any)) :=
  match parse data with
  | none => none
  | some v =>
    match decodeMap N v with
    | none => none
    | some mapData =>
      match objectKeysText N data with
      | none => none
      | some keys => some (keys.map (fun k => (k, (GoMap.get? mapData k).getD .null)))

/-- `Spec.MarshalYAML` (`/repo/openapi3/yaml.go:32-47`, `/repo/openapi31/yaml.go:32-47`); `T` is the table of the package. -/
def marshalYAML (T : Table) (N : Nums) (Y : YamlLib) (v : Val) : UnionRes String :=
  match marshal T (.named "Spec") v with
  | .ok jsonData =>
    match orderedMapText N jsonData with
    | none => .err
    | some items =>
      match Y.marshal items with
      | some s => .ok s
      | none => .err
  | .err => .err
  | .panics => .panics

/-- `Spec.UnmarshalYAML` (`/repo/openapi3/yaml.go:13-30`, `/repo/openapi31/yaml.go:13-30`) of a new document. `json.Marshal`
writes the compact text of the converted value (`marshalDyn`), which has no `MarshalJSON` methods and no limit of depth. -/
def unmarshalYAML (T : Table) (N : Nums) (Y : YamlLib) (sprint : Yv → String) (o : YOrder)
    (scalarJSON : Any → Option Any) (data : String) : Option Val :=
  match Y.unmarshal data with
  | none => none
  | some v =>
    match marshalDyn scalarJSON (convertMap sprint o [] v) with
    | none => none
    | some j => unmarshal T N (.named "Spec") (text j)

end Verif.Text
