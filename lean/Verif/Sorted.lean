import Verif.Text

/-!
# Maps are written in the order of their keys

`json.Marshal` writes the entries of a map sorted by key (`mapEncoder` of `encoding/json`), also those of maps in an
`interface{}`; the keys of strings are compared as bytes, which for valid UTF-8 is the order of the characters. Every map of a
document is written in this way: the map fields of the entities are arguments of `marshalUnion`
(`/repo/openapi3/entities.go:8526-8572`), which marshals each of them.

`Verif.Text.marshal` writes the entries of a map in the order of the list that models the map. Here the entries are sorted
before.
-/

namespace Verif.Codec

/-- An entry in its place. -/
def insertKey {α : Type} (p : String × α) : List (String × α) → List (String × α)
  | [] => [p]
  | q :: l => if q.1 < p.1 then q :: insertKey p l else p :: q :: l

/-- Entries sorted by key (`encoding/json`: `slices.SortFunc(sv, func(i, j reflectWithString) int { return
strings.Compare(i.ks, j.ks) })`). -/
def sortKeys {α : Type} : List (String × α) → List (String × α)
  | [] => []
  | p :: l => insertKey p (sortKeys l)

mutual
/-- An `interface{}`, with all maps sorted. -/
def sortedAny : Any → Any
  | .null => .null
  | .bool b => .bool b
  | .num lit => .num lit
  | .str s => .str s
  | .arr xs => .arr (sortedAnys xs)
  | .obj ms => .obj (sortKeys (sortedMembers ms))
/-- The elements. -/
def sortedAnys : List Any → List Any
  | [] => []
  | x :: xs => sortedAny x :: sortedAnys xs
/-- The entries, each with its value sorted. -/
def sortedMembers : List (String × Any) → List (String × Any)
  | [] => []
  | (k, x) :: ms => (k, sortedAny x) :: sortedMembers ms
end

mutual
/-- A Go value, with all maps sorted. -/
def sortedVal : Val → Val
  | .nil => .nil
  | .any a => .any (sortedAny a)
  | .bool b => .bool b
  | .str s => .str s
  | .num lit => .num lit
  | .list vs => .list (sortedVals vs)
  | .map ms => .map (sortKeys (sortedEntries ms))
  | .struct fs => .struct (sortedEntries fs)
/-- The elements. -/
def sortedVals : List Val → List Val
  | [] => []
  | v :: vs => sortedVal v :: sortedVals vs
/-- The entries or fields, each with its value sorted. -/
def sortedEntries : List (String × Val) → List (String × Val)
  | [] => []
  | (k, v) :: ms => (k, sortedVal v) :: sortedEntries ms
end

end Verif.Codec

namespace Verif.Text
open Codec Spec

/-- `json.Marshal(v)` for `v` of type `ty`, with the entries of maps in the order in which Go writes them. -/
def save (T : Table) (ty : Ty) (v : Val) : UnionRes (List Char) := marshal T ty (sortedVal v)

end Verif.Text
