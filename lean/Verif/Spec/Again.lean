import Verif.Spec.Load
import Verif.Spec.YamlDoc

/-!
# Fields that are filled in

In 3.0 some fields of parameters and HTTP security schemes repeat what other fields say (`derived`); a reader fills
them in, and a writer writes what they say once more.
-/

namespace Verif.Spec
open Codec

/-- A raw copy of a value that reads as a value which is written in the same way. -/
def RawAgain (N : Nums) (ty : Ty) (v : Val) (b : Any) : Prop :=
  ∃ w, decode V30.table N ty b = some w ∧ encode V30.table ty w = encode V30.table ty v

/-- The fields of a parameter or HTTP security scheme of 3.0 that repeat other fields are filled in, and the raw copy that a
parameter has of its schema or content is one. Header and cookie parameters have a style. -/
def filled (N : Nums) (fs : List (String × Val)) : Prop :=
  (fs.map Prod.fst = V30.sHTTPSecurityScheme.names → fieldIn fs "Bearer" ≠ .nil ∨ fieldIn fs "NonBearer" ≠ .nil) ∧
  (fs.map Prod.fst = V30.sParameter.names →
    fieldIn fs "Location" ≠ .nil ∧
    (fieldIn fs "In" = .str "header" ∨ fieldIn fs "In" = .str "cookie" → fieldIn fs "Style" ≠ .nil) ∧
    ((∃ b, fieldIn fs "SchemaXORContent" = xorSchema b ∧ RawAgain N (.ptr (.named "SchemaOrRef")) (fieldIn fs "Schema") b) ∨
      (∃ b, fieldIn fs "SchemaXORContent" = xorContent b ∧ RawAgain N (.map (.named "MediaType")) (fieldIn fs "Content") b)))

/-- A parameter without a raw copy has a schema or content whose JSON is kept by reading it as `interface{}`: its numbers
are printed as `float64` are. -/
def exact (N : Nums) (fs : List (String × Val)) : Prop :=
  fs.map Prod.fst = V30.sParameter.names → fieldIn fs "SchemaXORContent" = .nil →
    (∀ a, encode V30.table (.ptr (.named "SchemaOrRef")) (fieldIn fs "Schema") = some a → decodeAny N a = some a) ∧
    ∀ a, encode V30.table (.map (.named "MediaType")) (fieldIn fs "Content") = some a → decodeAny N a = some a

/-- The location of a parameter is filled in. -/
def located (fs : List (String × Val)) : Prop := fs.map Prod.fst = V30.sParameter.names → fieldIn fs "Location" ≠ .nil

mutual
/-- The numbers of a Go value, as they are printed. -/
def numbersOf : Val → List String
  | .num lit => [lit]
  | .any a => literals a
  | .list vs => numbersOfList vs
  | .map ms => numbersOfFields ms
  | .struct fs => numbersOfFields fs
  | _ => []
/-- Of all elements. -/
def numbersOfList : List Val → List String
  | [] => []
  | v :: vs => numbersOf v ++ numbersOfList vs
/-- Of all entries or fields. -/
def numbersOfFields : List (String × Val) → List String
  | [] => []
  | (_, v) :: fs => numbersOf v ++ numbersOfFields fs
end

end Verif.Spec
