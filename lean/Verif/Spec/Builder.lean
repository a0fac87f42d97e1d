import Verif.Codec.Builder
import Verif.Spec.RoundTrip

/-! What builder methods should be and do: written from their names and the fields of the types. -/

namespace Verif.Spec
open Codec

/-- The Go values of a type. -/
inductive Of (T : Table) : Ty → Val → Prop where
  | any (a : Any) : Of T .any (.any a)
  | bool (b : Bool) : Of T .bool (.bool b)
  | str (s : String) : Of T .str (.str s)
  | int (lit : String) : Of T .int (.num lit)
  | float (lit : String) : Of T .float (.num lit)
  | nilPtr (t : Ty) : Of T (.ptr t) .nil
  | ptr {t : Ty} {v : Val} (hv : v ≠ .nil) (h : Of T t v) : Of T (.ptr t) v
  | nilSlice (t : Ty) : Of T (.slice t) .nil
  | slice {t : Ty} {vs : List Val} (h : ∀ v ∈ vs, Of T t v) : Of T (.slice t) (.list vs)
  | nilMap (t : Ty) : Of T (.map t) .nil
  | map {t : Ty} {ms : List (String × Val)} (hk : (ms.map Prod.fst).Nodup) (h : ∀ k v, (k, v) ∈ ms → Of T t v) :
      Of T (.map t) (.map ms)
  | enum {n : String} {values : List String} (hn : GoMap.get? T n = some (.enum values)) (s : String) :
      Of T (.named n) (.str s)
  | struct {n : String} {s : Struct} (hn : GoMap.get? T n = some (.struct s)) (val : String → Val)
      (h : ∀ m ∈ s.members, Of T m.2 (val m.1)) : Of T (.named n) (structOf s val)

/-- The methods that a field of a type should have: `WithF` for every field, with a value where the field is a
pointer; `WithFItem` for maps; `FEns` for pointers to structs. -/
def methodsOf (T : Table) (n : String) (f : String × Ty) : List Builder :=
  match f.2 with
  | .ptr (.named m) =>
    match GoMap.get? T m with
    | some (.struct _) => [⟨n, "With" ++ f.1, .setPtr, f.1, .named m⟩, ⟨n, f.1 ++ "Ens", .ens, f.1, .named m⟩]
    | _ => [⟨n, "With" ++ f.1, .setPtr, f.1, .named m⟩]
  | .ptr t => [⟨n, "With" ++ f.1, .setPtr, f.1, t⟩]
  | .map t => [⟨n, "With" ++ f.1, .set, f.1, .map t⟩, ⟨n, "With" ++ f.1 ++ "Item", .item, f.1, t⟩]
  | t => [⟨n, "With" ++ f.1, .set, f.1, t⟩]

/-- A call of one of the methods of a type, with a value of the right type. -/
def CallOk (T : Table) (B : GoMap (List Builder)) (n : String) (c : Call) : Prop :=
  (∃ bs, GoMap.get? B n = some bs ∧ c.m ∈ bs) ∧ (c.m.kind ≠ .ens → Of T c.m.arg c.val)

/-- `x.AEns().BEns()` leads from a type to another one. -/
inductive Leads (B : GoMap (List Builder)) : String → List Builder → String → Prop where
  | here (n : String) : Leads B n [] n
  | into {n m k : String} {b : Builder} {bs path : List Builder} (hn : GoMap.get? B n = some bs) (hb : b ∈ bs)
      (hk : b.kind = .ens) (ha : b.arg = .named m) (h : Leads B m path k) : Leads B n (b :: path) k

/-- `x.A.B.C`; nil if one of the pointers on the way is nil. -/
def fieldAt (v : Val) : List String → Val
  | [] => v
  | go :: path => fieldAt (v.field go) path

/-- The value of a field after `WithF` or `WithFItem`, from its value before. `FEns` on its own only replaces nil. -/
inductive Leaves (T : Table) : Call → Val → Val → Prop where
  | set {c : Call} {old : Val} (hk : c.m.kind = .set ∨ c.m.kind = .setPtr) : Leaves T c old c.val
  | item {c : Call} {old : Val} {es : GoMap Val} (hk : c.m.kind = .item)
      (hnew : ∀ k, GoMap.get? es k = if k = c.key then some c.val else GoMap.get? old.items k) :
      Leaves T c old (.map es)
  | keep {c : Call} {old : Val} (hk : c.m.kind = .ens) (hv : old ≠ .nil) : Leaves T c old old
  | make {c : Call} {v : Val} (hk : c.m.kind = .ens) (hv : v = fresh T c.m.arg) : Leaves T c .nil v

/-- The members of the JSON object of a struct that come from one of its fields: for a field with a key, one member or
none; for a field without a key (extensions, paths, alternatives), the members of its value. -/
inductive Shows (T : Table) (s : Struct) (go : String) (v : Val) : List (String × Any) → Prop where
  | omitted {f : Field} (hf : f ∈ s.fields) (hg : f.go = go) (h : omitted f v = true) : Shows T s go v []
  | member {f : Field} {j : Any} (hf : f ∈ s.fields) (hg : f.go = go) (h : omitted f v = false)
      (hj : encode T f.ty v = some j) : Shows T s go v [(f.key, j)]
  | absent {ty : Ty} (hf : ⟨go, ty⟩ ∈ s.hidden) (hj : encode T ty v = some .null) : Shows T s go v []
  | inline {ty : Ty} {ms : List (String × Any)} (hf : ⟨go, ty⟩ ∈ s.hidden) (hj : encode T ty v = some (.obj ms)) :
      Shows T s go v ms

end Verif.Spec
