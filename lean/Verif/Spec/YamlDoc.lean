import Verif.Spec.Yaml
import Verif.Spec.Order

/-!
# Documents in YAML

What is asked of the YAML library to speak about writing a document as YAML and reading it again.
-/

namespace Verif.Spec
open Codec

mutual
/-- The YAML value `y` stands for the JSON value: it has the same lists, and maps with the same entries in any order.
Keys are compared as they are printed, scalars as they are written in JSON, and a number may come back as another one
(`Back`). -/
def Stands (sprint : Yv → String) (scalarJSON : Any → Option Any) (Back : String → String → Prop) : Any → Yv → Prop
  | .null, y => ∃ s, y = .scalar s ∧ scalarJSON s = some .null
  | .bool b, y => ∃ s, y = .scalar s ∧ scalarJSON s = some (.bool b)
  | .num x, y => ∃ s z, y = .scalar s ∧ scalarJSON s = some (.num z) ∧ Back x z
  | .str t, y => ∃ s, y = .scalar s ∧ scalarJSON s = some (.str t)
  | .arr xs, y => ∃ ys, y = .seq ys ∧ StandsList sprint scalarJSON Back xs ys
  | .obj ms, y => ∃ ps ns, y = .mapI ns ∧ StandsMembers sprint scalarJSON Back ms ps ∧ ps.Perm ns
/-- Element by element. -/
def StandsList (sprint : Yv → String) (scalarJSON : Any → Option Any) (Back : String → String → Prop) :
    List Any → List Yv → Prop
  | [], ys => ys = []
  | x :: xs, ys => ∃ y rest, ys = y :: rest ∧ Stands sprint scalarJSON Back x y ∧
      StandsList sprint scalarJSON Back xs rest
/-- Entry by entry. -/
def StandsMembers (sprint : Yv → String) (scalarJSON : Any → Option Any) (Back : String → String → Prop) :
    List (String × Any) → List (Yv × Yv) → Prop
  | [], ps => ps = []
  | (k, x) :: ms, ps => ∃ key y rest, ps = (key, y) :: rest ∧ keyText sprint key = k ∧
      Stands sprint scalarJSON Back x y ∧ StandsMembers sprint scalarJSON Back ms rest
end

/-- The library reads the YAML text that it writes for these items as something that stands for them. -/
def Faithful (Y : YamlLib) (sprint : Yv → String) (scalarJSON : Any → Option Any) (Back : String → String → Prop)
    (items : List (String × Any)) : Prop :=
  ∃ text y, Y.marshal items = some text ∧ Y.unmarshal text = some y ∧
    Stands sprint scalarJSON Back (.obj items) y

mutual
/-- The number literals of a JSON value. -/
def literals : Any → List String
  | .null => []
  | .bool _ => []
  | .num x => [x]
  | .str _ => []
  | .arr xs => literalsList xs
  | .obj ms => literalsMembers ms
/-- Of all elements. -/
def literalsList : List Any → List String
  | [] => []
  | x :: xs => literals x ++ literalsList xs
/-- Of all members. -/
def literalsMembers : List (String × Any) → List String
  | [] => []
  | (_, x) :: ms => literals x ++ literalsMembers ms
end

/-- The literal survives YAML: it can be read as a `float64`, and whatever this number comes back as is read as the
same numbers as the literal. -/
def Survives (N : Nums) (Back : String → String → Prop) (lit : String) : Prop :=
  ∃ x, N.f64 lit = some x ∧ ∀ z, Back x z → N.f64 z = N.f64 lit ∧ N.i64 z = N.i64 lit

end Verif.Spec
