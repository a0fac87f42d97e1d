import Verif.Spec.Order
import Verif.Spec.Load

/-!
# Maps in the order of their keys
-/

namespace Verif.Spec
open Codec

/-- The keys ascend. -/
def Ascending (keys : List String) : Prop := keys.Pairwise (· < ·)

mutual
/-- The keys of every object of the JSON value, at any depth, ascend. -/
def AscendingAny : Any → Prop
  | .null => True
  | .bool _ => True
  | .num _ => True
  | .str _ => True
  | .arr xs => AscendingAnys xs
  | .obj ms => Ascending (ms.map Prod.fst) ∧ AscendingMembers ms
/-- For all elements. -/
def AscendingAnys : List Any → Prop
  | [] => True
  | x :: xs => AscendingAny x ∧ AscendingAnys xs
/-- For all members. -/
def AscendingMembers : List (String × Any) → Prop
  | [] => True
  | (_, x) :: ms => AscendingAny x ∧ AscendingMembers ms
end

mutual
/-- The keys of every map in the Go value, at any depth, ascend. -/
def AscendingVal : Val → Prop
  | .any a => AscendingAny a
  | .list vs => AscendingVals vs
  | .map ms => Ascending (ms.map Prod.fst) ∧ AscendingEntries ms
  | .struct fs => AscendingEntries fs
  | _ => True
/-- For all elements. -/
def AscendingVals : List Val → Prop
  | [] => True
  | v :: vs => AscendingVal v ∧ AscendingVals vs
/-- For all entries or fields. -/
def AscendingEntries : List (String × Val) → Prop
  | [] => True
  | (_, v) :: ms => AscendingVal v ∧ AscendingEntries ms
end

mutual
/-- No map in the Go value, at any depth, has a key twice. (Go maps never do.) -/
def KeysOnce : Val → Prop
  | .any a => Distinct a
  | .list vs => KeysOnceAll vs
  | .map ms => (ms.map Prod.fst).Nodup ∧ KeysOnceEntries ms
  | .struct fs => KeysOnceEntries fs
  | _ => True
/-- For all elements. -/
def KeysOnceAll : List Val → Prop
  | [] => True
  | v :: vs => KeysOnce v ∧ KeysOnceAll vs
/-- For all entries or fields. -/
def KeysOnceEntries : List (String × Val) → Prop
  | [] => True
  | (_, v) :: ms => KeysOnce v ∧ KeysOnceEntries ms
end

end Verif.Spec
