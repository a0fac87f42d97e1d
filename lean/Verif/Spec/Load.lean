import Verif.Spec.RoundTrip

/-!
# Documents that were read

What is assumed about numbers, and which values that were read from JSON are excluded when they are written and
read again.
-/

namespace Verif.Spec
open Codec

/-- A value that occurs in another one. -/
inductive Part : Val → Val → Prop where
  | self (v : Val) : Part v v
  | list {x w : Val} {vs : List Val} (hx : x ∈ vs) (h : Part x w) : Part (.list vs) w
  | map {k : String} {x w : Val} {ms : List (String × Val)} (hx : (k, x) ∈ ms) (h : Part x w) : Part (.map ms) w
  | struct {k : String} {x w : Val} {fs : List (String × Val)} (hx : (k, x) ∈ fs) (h : Part x w) : Part (.struct fs) w

/-- All structs that occur in a value satisfy a condition on their fields. -/
def Everywhere (P : List (String × Val) → Prop) (v : Val) : Prop := ∀ fs, Part v (.struct fs) → P fs

/-- Printing a number that was read and reading it again gives the same literal. -/
structure NumsOk (N : Nums) : Prop where
  f64 : ∀ l l', N.f64 l = some l' → N.f64 l' = some l'
  i64 : ∀ l l', N.i64 l = some l' → N.i64 l' = some l'
  f64zero : N.f64 "0" = some "0"
  i64zero : N.i64 "0" = some "0"

/-- The value of a field. -/
def fieldIn (fs : List (String × Val)) (go : String) : Val := (GoMap.get? fs go).getD .nil

/-- A raw copy of a value: it reads as the value, and the JSON of the value can be read as `interface{}` (its
numbers are in the range of `float64`). -/
def RawCopy (N : Nums) (ty : Ty) (v : Val) (b : Any) : Prop :=
  (∃ w, decode V30.table N ty b = some w ∧ Same v w) ∧ ∃ a, encode V30.table ty v = some a ∧ decodeAny N a ≠ none

/-- A parameter of 3.0 that has either a schema or content, and whose raw copy of it is one. It is not if an integer
in the schema is changed by reading it as `float64`, or if `schema` is `null` or `content` is empty. -/
def clean30 (N : Nums) (fs : List (String × Val)) : Prop := fs.map Prod.fst = V30.sParameter.names →
  (∃ b, fieldIn fs "SchemaXORContent" = xorSchema b ∧ fieldIn fs "Schema" ≠ .nil ∧
    isEmpty (fieldIn fs "Content") = true ∧ RawCopy N (.ptr (.named "SchemaOrRef")) (fieldIn fs "Schema") b) ∨
  (∃ b, fieldIn fs "SchemaXORContent" = xorContent b ∧ fieldIn fs "Schema" = .nil ∧
    isEmpty (fieldIn fs "Content") = false ∧ RawCopy N (.map (.named "MediaType")) (fieldIn fs "Content") b)

/-- In 3.1: no examples, no references to links, path items or, with a description, to responses, and headers have
a non-empty schema or content. -/
def clean31 (fs : List (String × Val)) : Prop :=
  fs.map Prod.fst ≠ V31.sExample.names ∧
  (fs.map Prod.fst = ["Reference", "Link"] → fieldIn fs "Reference" = .nil) ∧
  (fs.map Prod.fst = ["Reference", "PathItem"] → fieldIn fs "Reference" = .nil) ∧
  (fs.map Prod.fst = ["Reference", "Response"] → fieldIn fs "Reference" = .nil ∨
    ∃ r, fieldIn fs "Reference" = .struct r ∧ ("Description", .nil) ∈ r) ∧
  (fs.map Prod.fst = V31.sHeader.names →
    (isEmpty (fieldIn fs "Schema") = true ∧ isEmpty (fieldIn fs "Content") = false) ∨
    (isEmpty (fieldIn fs "Schema") = false ∧ isEmpty (fieldIn fs "Content") = true))

/-- No field that repeats what other fields say is filled in. -/
def noDerived (fs : List (String × Val)) : Prop := ∀ go ∈ derived, fieldIn fs go = .nil

end Verif.Spec
