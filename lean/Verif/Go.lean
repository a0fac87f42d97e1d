/-!
# Pieces of the Go language and standard library used by the model

These definitions model the parts of Go's `strings`, `strconv`, `net/http` and of Go maps that the
modelled functions of `/repo` call.
-/

namespace Verif

deriving instance DecidableEq for Except

/-! ## Go maps -/

/-- A Go `map[string]V` as an association list. Models Go's built-in map as used in all of `/repo`.
Simplification: a nil map and an empty map are the same value; iteration order is the list order
(theorems that depend on iteration quantify over permutations). -/
abbrev GoMap (V : Type _) := List (String × V)

namespace GoMap
variable {V : Type _}

/-- `v, ok := m[k]` of Go (e.g. `/repo/openapi3/helper.go:102-104`). -/
def get? (m : GoMap V) (k : String) : Option V :=
  match m with
  | [] => none
  | (k', v) :: rest => if k' = k then some v else get? rest k

/-- `m[k] = v` of Go (e.g. `WithMapOfOperationValuesItem`, `/repo/openapi3/entities.go`). -/
def set (m : GoMap V) (k : String) (v : V) : GoMap V :=
  match m with
  | [] => [(k, v)]
  | (k', v') :: rest => if k' = k then (k, v) :: rest else (k', v') :: set rest k v

/-- `delete(m, k)` of Go (e.g. `/repo/openapi3/jsonschema.go:31`). -/
def erase (m : GoMap V) (k : String) : GoMap V :=
  m.filter (fun p => p.1 ≠ k)

/-- The keys of a map, `for k := range m`. -/
def keys (m : GoMap V) : List String := m.map Prod.fst

/-- A map value holds every key once. Go maps always satisfy this. -/
def WF (m : GoMap V) : Prop := m.keys.Nodup

end GoMap

/-! ## Strings -/

/-- `unicode.ToLower` on one rune, as used by `strings.ToLower` (`/repo/operation.go:183`).
Simplification: exact for ASCII and for the two non-ASCII code points whose lower case is ASCII
(U+0130 and U+212A); every other code point is left alone, which is enough to decide equality with
ASCII constants. -/
def lowerRune (c : Char) : Char :=
  if 'A' ≤ c ∧ c ≤ 'Z' then Char.ofNat (c.toNat + 32)
  else if c = Char.ofNat 0x130 then 'i'
  else if c = Char.ofNat 0x212A then 'k'
  else c

/-- `unicode.ToUpper` on one rune, as used by `strings.ToUpper` (`/repo/openapi31/helper.go:22,46`,
`/repo/internal/json_schema.go:48`). Same simplification as `lowerRune`; the two non-ASCII code points
with an ASCII upper case are U+0131 and U+017F. -/
def upperRune (c : Char) : Char :=
  if 'a' ≤ c ∧ c ≤ 'z' then Char.ofNat (c.toNat - 32)
  else if c = Char.ofNat 0x131 then 'I'
  else if c = Char.ofNat 0x17F then 'S'
  else c

/-- `strings.ToLower`. -/
def goToLower (s : String) : String := String.ofList (s.toList.map lowerRune)

/-- `strings.ToUpper`. -/
def goToUpper (s : String) : String := String.ofList (s.toList.map upperRune)

/-- `strings.HasPrefix` on characters. -/
def hasPrefixL : List Char → List Char → Bool
  | _, [] => true
  | [], _ :: _ => false
  | a :: s, b :: p => if a = b then hasPrefixL s p else false

/-- `strings.HasPrefix(s, prefix)`. -/
def goHasPrefix (s pre : String) : Bool := hasPrefixL s.toList pre.toList

/-- `strings.TrimPrefix(s, prefix)`. -/
def goTrimPrefix (s pre : String) : String :=
  if goHasPrefix s pre then String.ofList (s.toList.drop pre.toList.length) else s

/-- `strings.Replace(s, old, new, 1)` on characters: replaces the first occurrence of `old`. -/
def replaceFirst (old new : List Char) : List Char → List Char
  | [] => if hasPrefixL [] old then new else []
  | c :: s =>
    if hasPrefixL (c :: s) old then new ++ (c :: s).drop old.length
    else c :: replaceFirst old new s

/-- `strings.Join(errs, ", ")` (`/repo/openapi3/helper.go:59`). -/
def goJoin (sep : String) : List String → String
  | [] => ""
  | [a] => a
  | a :: b :: rest => a ++ sep ++ goJoin sep (b :: rest)

end Verif
