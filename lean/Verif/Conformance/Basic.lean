import Verif.Codec.Table30
import Verif.Codec.Table31

/-!
# Tests of the model against data of the Go tests

The modules of this directory run definitions of the model on inputs of `/repo`'s own tests and compare the
result with what those tests expect. They say that the model and the code agree on these inputs. They prove no
property: the properties are in `Verif/Props`.
-/

namespace Verif.Conformance
open Codec

/-- Number literals: every literal is a `float64`, those without point or exponent are integers. -/
def nums : Nums := ⟨some, fun s => if s.toList.all (fun c => c.isDigit || c == '-') then some s else none⟩

/-- Equality of JSON up to the order of members; of a repeated key the last member counts (`assertjson.Equal`
and `assert.JSONEq` compare decoded values). The number bounds the depth. -/
def sameJ : Nat → Any → Any → Bool
  | 0, _, _ => false
  | _ + 1, .null, .null => true
  | _ + 1, .bool a, .bool b => a == b
  | _ + 1, .num a, .num b => a == b
  | _ + 1, .str a, .str b => a == b
  | n + 1, .arr a, .arr b => a.length == b.length && (a.zip b).all (fun p => sameJ n p.1 p.2)
  | n + 1, .obj a, .obj b =>
    (lastWins a).length == (lastWins b).length &&
      (lastWins a).all (fun p => match GoMap.get? (lastWins b) p.1 with
        | some w => sameJ n p.2 w
        | none => false)
  | _ + 1, _, _ => false

/-- Reading a fragment and writing it gives the fragment back. -/
def roundTrips (T : Table) (ty : String) (j : Any) : Bool :=
  match decode T nums (.named ty) j with
  | some v => match encode T (.named ty) v with
    | some j' => sameJ 60 j j'
    | none => false
  | none => false

/-- The second value is the first, apart from members `style` (a default the code adds to parameters and
headers, see C35). The number bounds the depth. -/
def keepsJ : Nat → Any → Any → Bool
  | 0, _, _ => false
  | n + 1, .arr a, .arr b => a.length == b.length && (a.zip b).all (fun p => keepsJ n p.1 p.2)
  | n + 1, .obj a, .obj b =>
    a.all (fun p => match GoMap.get? (lastWins b) p.1 with
      | some w => keepsJ n p.2 w
      | none => false) &&
    b.all (fun p => p.1 == "style" || (GoMap.get? a p.1).isSome)
  | n + 1, a, b => sameJ n a b

/-- Reading a document and writing it gives it back, apart from the default `style`. -/
def keeps (T : Table) (j : Any) : Bool :=
  match decode T nums (.named "Spec") j with
  | some v => match encode T (.named "Spec") v with
    | some j' => keepsJ 60 j j'
    | none => false
  | none => false

end Verif.Conformance
