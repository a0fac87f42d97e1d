import Verif.Spec.Text
import Verif.Codec.Basic

/-!
# Numbers that are printed as JSON numbers

`strconv.AppendFloat` and `strconv.AppendInt`, with which `encoding/json` prints the numbers it has read or that were set,
print JSON numbers.
-/

namespace Verif.Grammar
open Codec

/-- Every number that was read is printed as JSON writes numbers. -/
structure PrintsNumbers (N : Nums) : Prop where
  f64 : ∀ l x, N.f64 l = some x → Number x.toList
  i64 : ∀ l x, N.i64 l = some x → Number x.toList

end Verif.Grammar
