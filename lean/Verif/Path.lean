import Verif.Go

/-!
# Model of `SanitizeMethodPath` (`/repo/operation.go:179-204`)
-/

namespace Verif

/-- One row of `FindAllStringSubmatch`: `full = submatch[0]`, `name = submatch[1]`,
`re = submatch[2]` (with its leading colon, empty if the group did not take part).
`/repo/operation.go:184`. -/
structure PMatch where
  full : List Char
  name : List Char
  re : List Char
deriving DecidableEq, Repr

/-- Characters of the class `[^}:]`. `/repo/operation.go:179`. -/
def nameChar (c : Char) : Bool := c != '}' && c != ':'

/-- Characters of the class `[^}]`. `/repo/operation.go:179`. -/
def reChar (c : Char) : Bool := c != '}'

/-- The regular expression `{([^}:]+)(:[^}]+)?(?:})` tried at one position; returns the submatches and
the text after the match. `/repo/operation.go:179`.
The expression is deterministic: the name is a maximal run of `[^}:]`, because the next character of a
match is `}` or `:`; likewise for the pattern part. -/
def matchAt : List Char → Option (PMatch × List Char)
  | '{' :: cs =>
    let name := cs.takeWhile nameChar
    let r := cs.dropWhile nameChar
    if name = [] then none
    else match r with
      | '}' :: rest => some (⟨'{' :: name ++ ['}'], name, []⟩, rest)
      | ':' :: r2 =>
        let re := r2.takeWhile reChar
        let r3 := r2.dropWhile reChar
        if re = [] then none
        else match r3 with
          | '}' :: rest => some (⟨'{' :: name ++ ':' :: re ++ ['}'], name, ':' :: re⟩, rest)
          | _ => none
      | _ => none
  | _ => none

theorem matchAt_length {s : List Char} {m : PMatch} {rest : List Char}
    (h : matchAt s = some (m, rest)) : rest.length < s.length := by
  unfold matchAt at h
  split at h
  · rename_i cs
    have hl : (cs.dropWhile nameChar).length ≤ cs.length := (List.dropWhile_sublist _).length_le
    simp only at h
    split at h
    · cases h
    · split at h
      · rename_i r hr; cases h; simp [hr] at hl ⊢; omega
      · rename_i r2 hr
        have hl2 : (r2.dropWhile reChar).length ≤ r2.length := (List.dropWhile_sublist _).length_le
        split at h
        · cases h
        · split at h
          · rename_i r3 hr3; cases h; simp [hr] at hl; simp [hr3] at hl2 ⊢; omega
          · cases h
      · cases h
  · cases h

/-- `regexFindPathParameter.FindAllStringSubmatch(pathPattern, -1)`: successive leftmost
non-overlapping matches. `/repo/operation.go:184`. -/
def findAll (s : List Char) : List PMatch :=
  match s with
  | [] => []
  | c :: cs =>
    match _h : matchAt (c :: cs) with
    | some (m, rest) => m :: findAll rest
    | none => findAll cs
termination_by s.length
decreasing_by
  · exact matchAt_length _h
  · simp

/-- The eight accepted methods. `/repo/operation.go:187`. -/
def knownMethods : List String :=
  ["get", "put", "post", "delete", "options", "head", "patch", "trace"]

/-- The loop over the submatches: collects names and rewrites the path by
`strings.Replace(pathPattern, submatch[0], "{"+submatch[1]+"}", 1)`. `/repo/operation.go:193-201`. -/
def cleanLoop : List PMatch → List Char → List String → List Char × List String
  | [], path, params => (path, params)
  | m :: ms, path, params =>
    cleanLoop ms
      (if m.re ≠ [] then replaceFirst m.full ('{' :: m.name ++ ['}']) path else path)
      (params ++ [String.ofList m.name])

/-- Successful result of `SanitizeMethodPath`. -/
structure Sanitized where
  method : String
  path : String
  params : List String
deriving DecidableEq, Repr

/-- `SanitizeMethodPath`. `/repo/operation.go:182-204`. -/
def sanitizeMethodPath (method path : String) : Except String Sanitized :=
  let method := goToLower method
  let subs := findAll path.toList
  if method ∈ knownMethods then
    let (p, ps) := cleanLoop subs path.toList []
    .ok ⟨method, String.ofList p, ps⟩
  else
    .error ("unexpected http method: " ++ method)

end Verif
