import Verif.Spec.Codec

/-!
# The order of members

JSON objects and Go maps have no order, but the model keeps them as lists. This file says when two JSON
values, or two Go values, are the same up to order.
-/

namespace Verif.Spec
open Codec

/-- The two lists have the same length and are related element by element. -/
inductive Each {α β : Type} (R : α → β → Prop) : List α → List β → Prop where
  | nil : Each R [] []
  | cons {a : α} {b : β} {l : List α} {l' : List β} (h : R a b) (t : Each R l l') : Each R (a :: l) (b :: l')

mutual
/-- The second JSON value is the first one with the members of its objects, at any depth, in another order, and
with number literals replaced by related ones. -/
def Reordered (L : String → String → Prop) : Any → Any → Prop
  | .null, b => b = .null
  | .bool x, b => b = .bool x
  | .num x, b => ∃ y, b = .num y ∧ L x y
  | .str x, b => b = .str x
  | .arr xs, b => ∃ ys, b = .arr ys ∧ ReorderedList L xs ys
  | .obj ms, b => ∃ ps ns, b = .obj ns ∧ ReorderedMembers L ms ps ∧ ps.Perm ns
/-- Element by element, in the same order. -/
def ReorderedList (L : String → String → Prop) : List Any → List Any → Prop
  | [], ys => ys = []
  | x :: xs, ys => ∃ y rest, ys = y :: rest ∧ Reordered L x y ∧ ReorderedList L xs rest
/-- Member by member, with the same keys. -/
def ReorderedMembers (L : String → String → Prop) : List (String × Any) → List (String × Any) → Prop
  | [], ps => ps = []
  | (k, x) :: ms, ps => ∃ y rest, ps = (k, y) :: rest ∧ Reordered L x y ∧ ReorderedMembers L ms rest
end

mutual
/-- The second Go value is the first one with the entries of maps, at any depth, in another order. -/
def ReorderedVal : Val → Val → Prop
  | .nil, w => w = .nil
  | .any a, w => ∃ b, w = .any b ∧ Reordered Eq a b
  | .bool x, w => w = .bool x
  | .str x, w => w = .str x
  | .num x, w => w = .num x
  | .list vs, w => ∃ ws, w = .list ws ∧ ReorderedVals vs ws
  | .map ms, w => ∃ ps ns, w = .map ns ∧ ReorderedEntries ms ps ∧ ps.Perm ns
  | .struct fs, w => ∃ gs, w = .struct gs ∧ ReorderedEntries fs gs
/-- Element by element. -/
def ReorderedVals : List Val → List Val → Prop
  | [], ws => ws = []
  | v :: vs, ws => ∃ w rest, ws = w :: rest ∧ ReorderedVal v w ∧ ReorderedVals vs rest
/-- Entry by entry, with the same names. -/
def ReorderedEntries : List (String × Val) → List (String × Val) → Prop
  | [], ps => ps = []
  | (k, v) :: ms, ps => ∃ w rest, ps = (k, w) :: rest ∧ ReorderedVal v w ∧ ReorderedEntries ms rest
end

/-- The JSON names of the fields of all types of a package. -/
def fieldNames (T : Table) : List String :=
  T.flatMap (fun p => match p.2 with
    | .struct s => s.fields.map Field.key
    | .enum _ => [])

/-- No key occurs twice, and no two keys are the name of the same field up to letter case. (`encoding/json` ignores
the case of field names, so that both would be read into the field, the last one winning.) -/
def ClearKeys (T : Table) (keys : List String) : Prop :=
  keys.Nodup ∧ ∀ k₁ ∈ keys, ∀ k₂ ∈ keys, ∀ n ∈ fieldNames T,
    foldKey k₁ = foldKey n → foldKey k₂ = foldKey n → k₁ = k₂

mutual
/-- Every object of the JSON value, at any depth, has clear keys. -/
def Clear (T : Table) : Any → Prop
  | .null => True
  | .bool _ => True
  | .num _ => True
  | .str _ => True
  | .arr xs => ClearList T xs
  | .obj ms => ClearKeys T (ms.map Prod.fst) ∧ ClearMembers T ms
/-- For all elements. -/
def ClearList (T : Table) : List Any → Prop
  | [] => True
  | x :: xs => Clear T x ∧ ClearList T xs
/-- For all members. -/
def ClearMembers (T : Table) : List (String × Any) → Prop
  | [] => True
  | (_, x) :: ms => Clear T x ∧ ClearMembers T ms
end

mutual
/-- No object of the JSON value, at any depth, has a key twice. -/
def Distinct : Any → Prop
  | .null => True
  | .bool _ => True
  | .num _ => True
  | .str _ => True
  | .arr xs => DistinctList xs
  | .obj ms => (ms.map Prod.fst).Nodup ∧ DistinctMembers ms
/-- For all elements. -/
def DistinctList : List Any → Prop
  | [] => True
  | x :: xs => Distinct x ∧ DistinctList xs
/-- For all members. -/
def DistinctMembers : List (String × Any) → Prop
  | [] => True
  | (_, x) :: ms => Distinct x ∧ DistinctMembers ms
end

/-- While the JSON value `j` is read as a value of type `ty`, the value `j'` in it is read as a value of type `ty'`. All
alternatives of a union are tried, and types that must not fit. -/
inductive ReadAs (T : Table) : Ty → Any → Ty → Any → Prop where
  | self {ty : Ty} {j : Any} : ReadAs T ty j ty j
  | ptr {t ty' : Ty} {j j' : Any} (h : ReadAs T t j ty' j') : ReadAs T (.ptr t) j ty' j'
  | elem {t ty' : Ty} {xs : List Any} {x j' : Any} (hx : x ∈ xs) (h : ReadAs T t x ty' j') :
      ReadAs T (.slice t) (.arr xs) ty' j'
  | entry {t ty' : Ty} {ms : List (String × Any)} {k : String} {x j' : Any} (hx : (k, x) ∈ ms)
      (h : ReadAs T t x ty' j') : ReadAs T (.map t) (.obj ms) ty' j'
  | alternative {n : String} {s : Struct} {t ty' : Ty} {j j' : Any} (hs : GoMap.get? T n = some (.struct s))
      (ht : t ∈ s.nots ∨ ∃ e ∈ s.embeds ++ s.oneOf, e.ty = t) (h : ReadAs T t j ty' j') : ReadAs T (.named n) j ty' j'
  | field {n : String} {s : Struct} {ty' : Ty} {ms : List (String × Any)} {k : String} {x j' : Any} {f : Field}
      (hs : GoMap.get? T n = some (.struct s)) (hx : (k, x) ∈ ms) (hf : fieldOf s.fields k = some f)
      (h : ReadAs T f.ty x ty' j') : ReadAs T (.named n) (.obj ms) ty' j'
  | pattern {n : String} {s : Struct} {ty' : Ty} {ms : List (String × Any)} {k : String} {x j' : Any} {q : PatField}
      (hs : GoMap.get? T n = some (.struct s)) (hx : (k, x) ∈ ms) (hq : q ∈ s.patterns) (hk : q.pat.matches k = true)
      (h : ReadAs T q.ty x ty' j') : ReadAs T (.named n) (.obj ms) ty' j'
  | additional {n : String} {s : Struct} {ty' : Ty} {ms : List (String × Any)} {k : String} {x j' : Any} {a : Hidden}
      (hs : GoMap.get? T n = some (.struct s)) (hx : (k, x) ∈ ms) (ha : s.additional = some a)
      (hk : ∀ q ∈ s.patterns, q.pat.matches k = false) (h : ReadAs T a.ty x ty' j') : ReadAs T (.named n) (.obj ms) ty' j'

/-- No two of the members are read into the same field, unless there is an object where the field takes a text: reading
that is an error in any order. -/
def OneEach (fields : List Field) (ms : List (String × Any)) : Prop :=
  ∀ k₁ x₁ k₂ x₂ f, (k₁, x₁) ∈ ms → (k₂, x₂) ∈ ms → fieldOf fields k₁ = some f → fieldOf fields k₂ = some f →
    k₁ = k₂ ∨ ((f.ty = .str ∨ f.ty = .ptr .str) ∧ ∃ os, x₁ = .obj os)

/-- No object of the JSON value has a key twice, and when it is read as a value of the type, no object that is read as a
struct has two spellings of the name of a field. (`encoding/json` ignores the case of field names, so that both would be
read into the field, the last one winning.) -/
def ClearAs (T : Table) (ty : Ty) (j : Any) : Prop :=
  Distinct j ∧ ∀ n s ms, ReadAs T ty j (.named n) (.obj ms) → GoMap.get? T n = some (.struct s) →
    OneEach s.fields ms

end Verif.Spec
