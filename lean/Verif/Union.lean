import Verif.Entities

/-!
# Joining the parts of an entity (`marshalUnion`)

Models `marshalUnion` of `/repo/openapi3/entities.go:8526-8572` and the identical function of
`/repo/openapi31/entities.go:5625-5671`, on the characters of the JSON texts that `json.Marshal` returns.
-/

namespace Verif

/-- What a call that may panic returns: `marshalUnion` indexes `j[0]`
(`/repo/openapi3/entities.go:8544`). -/
inductive UnionRes (α : Type) where
  | ok (a : α)
  | err
  | panics
deriving DecidableEq, Repr

/-- The two variables of the loop, `result` and `isObject` (`/repo/openapi3/entities.go:8527-8528`). -/
structure UnionState where
  result : List Char
  isObject : Bool
deriving DecidableEq, Repr

/-- One turn of the loop of `marshalUnion` (`/repo/openapi3/entities.go:8530-8564`,
`/repo/openapi31/entities.go:5629-5663`). `m` is the outcome of `json.Marshal(m)`: `none` for an error,
otherwise the bytes. Simplification: characters stand for bytes; the only lengths compared are with `1`,
and the only one-byte JSON texts are digits. -/
def unionStep (s : UnionState) (m : Option (List Char)) : UnionRes UnionState :=
  match m with
  | none => .err
  | some j =>
    if j = ['{', '}'] then .ok s
    else if j = ['n', 'u', 'l', 'l'] then .ok s
    else
      match j with
      | [] => .panics
      | c :: tail =>
        if c ≠ '{' then
          if s.result.length = 1 ∧ (s.isObject = true ∨ s.result = j) then
            .ok { result := j, isObject := false }
          else .err
        else if s.isObject = false then .err
        else
          let r := if s.result.length > 1 then s.result.dropLast ++ [','] else s.result
          .ok { s with result := r ++ tail }

/-- The loop of `marshalUnion` (`/repo/openapi3/entities.go:8530-8564`). -/
def unionLoop (s : UnionState) : List (Option (List Char)) → UnionRes UnionState
  | [] => .ok s
  | m :: rest =>
    match unionStep s m with
    | .ok s' => unionLoop s' rest
    | .err => .err
    | .panics => .panics

/-- `marshalUnion` (`/repo/openapi3/entities.go:8526-8572`, `/repo/openapi31/entities.go:5625-5671`): the
loop and "Close empty result". -/
def marshalUnion (maps : List (Option (List Char))) : UnionRes (List Char) :=
  match unionLoop { result := ['{'], isObject := true } maps with
  | .ok s => .ok (if s.isObject = true ∧ s.result.length = 1 then s.result ++ ['}'] else s.result)
  | .err => .err
  | .panics => .panics

end Verif
