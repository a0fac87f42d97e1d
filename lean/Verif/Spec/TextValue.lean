import Verif.Spec.Text
import Verif.Codec.Basic

/-!
# Go values whose numbers are JSON numbers

`strconv` prints every finite number as a JSON number, and the numbers inside `interface{}` values that were read or set
are printed the same way.
-/

namespace Verif.Grammar
open Codec

mutual
/-- Every number in the value is printed as JSON writes numbers. -/
def Numeric : Val → Prop
  | .num lit => Number lit.toList
  | .any a => NumbersOk a
  | .list vs => NumericList vs
  | .map ms => NumericFields ms
  | .struct fs => NumericFields fs
  | _ => True
/-- Every number in the elements. -/
def NumericList : List Val → Prop
  | [] => True
  | v :: vs => Numeric v ∧ NumericList vs
/-- Every number in the entries or fields. -/
def NumericFields : List (String × Val) → Prop
  | [] => True
  | (_, v) :: fs => Numeric v ∧ NumericFields fs
end

end Verif.Grammar
