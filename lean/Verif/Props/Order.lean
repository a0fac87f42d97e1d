import Verif.Lemmas.Order
import Verif.Lemmas.WritableCheck
import Verif.Codec.Eq
import Verif.Props.RoundTrip
import Verif.Codec.KernelRfl

/-! The order of members does not matter (C74). -/

namespace Verif
open Codec Spec

theorem readAlike_eq (N : Nums) : ∀ x y : String, x = y → ReadAlike N x y := by
  rintro x _ rfl
  exact ⟨rfl, rfl⟩

/-- Both readings fail, or both succeed with the same value up to the order of map entries. -/
theorem order_reading (T : Table) (N : Nums) (ty : Ty) (j j' : Any) (hc : ClearAs T ty j) (hr : Reordered Eq j j') :
    (decode T N ty j = none ∧ decode T N ty j' = none) ∨
    ∃ v w, decode T N ty j = some v ∧ decode T N ty j' = some w ∧ ReorderedVal v w := by
  have h := decode_rel (N := N) (readAlike_eq N) hc hr
  cases e : decode T N ty j with
  | none =>
    cases e' : decode T N ty j' with
    | none => exact .inl ⟨rfl, rfl⟩
    | some w => rw [e, e'] at h; exact False.elim h
  | some v =>
    cases e' : decode T N ty j' with
    | none => rw [e, e'] at h; exact False.elim h
    | some w => rw [e, e'] at h; exact .inr ⟨v, w, rfl, rfl, h⟩

/-- **C74** for OpenAPI 3.0: if no object of a JSON value has a key twice, and none that is read as a struct has two
spellings of the name of one of its fields, then reading it with the members of its objects in any other order gives the same: the same value up to the order of map
entries, or an error. -/
theorem C74_order30 (N : Nums) (ty : Ty) (j j' : Any) (hc : ClearAs V30.table ty j) (hr : Reordered Eq j j') :
    (decode V30.table N ty j = none ∧ decode V30.table N ty j' = none) ∨
    ∃ v w, decode V30.table N ty j = some v ∧ decode V30.table N ty j' = some w ∧ ReorderedVal v w :=
  order_reading _ N ty j j' hc hr

/-- **C74** for OpenAPI 3.1. -/
theorem C74_order31 (N : Nums) (ty : Ty) (j j' : Any) (hc : ClearAs V31.table ty j) (hr : Reordered Eq j j') :
    (decode V31.table N ty j = none ∧ decode V31.table N ty j' = none) ∨
    ∃ v w, decode V31.table N ty j = some v ∧ decode V31.table N ty j' = some w ∧ ReorderedVal v w :=
  order_reading _ N ty j j' hc hr

/-- **C74**: with two spellings of a field name the order matters, the last one is kept. -/
theorem C74_spellings31 (N : Nums) (a b : String) :
    decode V31.table N (.named "Contact") (.obj [("name", .str a), ("Name", .str b)]) =
      some (withFields V31.sContact [("Name", .str b)]) ∧
    decode V31.table N (.named "Contact") (.obj [("Name", .str b), ("name", .str a)]) =
      some (withFields V31.sContact [("Name", .str a)]) :=
  ⟨by kernel_rfl, by kernel_rfl⟩

/-! ## Concrete cases -/

mutual
/-- The members of all objects in the reverse order. -/
def reversed : Any → Any
  | .arr xs => .arr (reversedList xs)
  | .obj ms => .obj (reversedMembers ms).reverse
  | a => a
def reversedList : List Any → List Any
  | [] => []
  | x :: xs => reversed x :: reversedList xs
def reversedMembers : List (String × Any) → List (String × Any)
  | [] => []
  | (k, x) :: ms => (k, reversed x) :: reversedMembers ms
end

mutual
theorem reordered_reversed : ∀ a, Reordered Eq a (reversed a)
  | .null => rfl
  | .bool _ => rfl
  | .num x => ⟨x, rfl, rfl⟩
  | .str _ => rfl
  | .arr xs => ⟨_, rfl, reordered_reversedList xs⟩
  | .obj ms => ⟨_, _, rfl, reordered_reversedMembers ms, (List.reverse_perm _).symm⟩
theorem reordered_reversedList : ∀ xs, ReorderedList Eq xs (reversedList xs)
  | [] => rfl
  | x :: xs => ⟨_, _, rfl, reordered_reversed x, reordered_reversedList xs⟩
theorem reordered_reversedMembers : ∀ ms, ReorderedMembers Eq ms (reversedMembers ms)
  | [] => rfl
  | (_, x) :: ms => ⟨_, _, rfl, reordered_reversed x, reordered_reversedMembers ms⟩
end

def clearKeysB (names : List (List Char)) (keys : List String) : Bool :=
  decide keys.Nodup && names.all (fun n => decide ((keys.filter (fun k => foldKey k == n)).length ≤ 1))

mutual
def clearB (names : List (List Char)) : Any → Bool
  | .arr xs => clearListB names xs
  | .obj ms => clearKeysB names (ms.map Prod.fst) && clearMembersB names ms
  | _ => true
def clearListB (names : List (List Char)) : List Any → Bool
  | [] => true
  | x :: xs => clearB names x && clearListB names xs
def clearMembersB (names : List (List Char)) : List (String × Any) → Bool
  | [] => true
  | (_, x) :: ms => clearB names x && clearMembersB names ms
end

theorem clearKeysB_sound {T : Table} {keys : List String}
    (h : clearKeysB ((fieldNames T).map foldKey) keys = true) : ClearKeys T keys := by
  simp only [clearKeysB, Bool.and_eq_true, decide_eq_true_eq, List.all_eq_true] at h
  refine ⟨h.1, ?_⟩
  intro k₁ h₁ k₂ h₂ n hn e₁ e₂
  have hl := h.2 _ (List.mem_map_of_mem hn)
  have m₁ : k₁ ∈ keys.filter (fun k => foldKey k == foldKey n) := List.mem_filter.2 ⟨h₁, by simp [e₁]⟩
  have m₂ : k₂ ∈ keys.filter (fun k => foldKey k == foldKey n) := List.mem_filter.2 ⟨h₂, by simp [e₂]⟩
  generalize keys.filter (fun k => foldKey k == foldKey n) = l at hl m₁ m₂
  match l, hl with
  | [], _ => cases m₁
  | [x], _ => rw [List.mem_singleton] at m₁ m₂; rw [m₁, m₂]

mutual
theorem clearB_sound {T : Table} : ∀ a, clearB ((fieldNames T).map foldKey) a = true → Clear T a
  | .null, _ => trivial
  | .bool _, _ => trivial
  | .num _, _ => trivial
  | .str _, _ => trivial
  | .arr xs, h => clearListB_sound xs h
  | .obj ms, h => by
    simp only [clearB, Bool.and_eq_true] at h
    exact ⟨clearKeysB_sound h.1, clearMembersB_sound ms h.2⟩
theorem clearListB_sound {T : Table} : ∀ xs, clearListB ((fieldNames T).map foldKey) xs = true → ClearList T xs
  | [], _ => trivial
  | x :: xs, h => by
    simp only [clearListB, Bool.and_eq_true] at h
    exact ⟨clearB_sound x h.1, clearListB_sound xs h.2⟩
theorem clearMembersB_sound {T : Table} : ∀ ms, clearMembersB ((fieldNames T).map foldKey) ms = true → ClearMembers T ms
  | [], _ => trivial
  | (_, x) :: ms, h => by
    simp only [clearMembersB, Bool.and_eq_true] at h
    exact ⟨clearB_sound x h.1, clearMembersB_sound ms h.2⟩
end

/-- What a value is written as, or `null`. -/
def written (T : Table) (n : String) (v : Val) : Any := (encode T (.named n) v).getD .null

/-- The sample documents have clear keys, their members can be put in another order, and they are read. -/
theorem C74_case30 : Clear V30.table (written V30.table "Spec" sample30) ∧
    Reordered Eq (written V30.table "Spec" sample30) (reversed (written V30.table "Spec" sample30)) ∧
    (decode V30.table sampleNums (.named "Spec") (reversed (written V30.table "Spec" sample30))).isSome = true :=
  ⟨clearB_sound _ (by decide +kernel), reordered_reversed _, by decide +kernel⟩

theorem C74_case31 : Clear V31.table (written V31.table "Spec" sample31) ∧
    Reordered Eq (written V31.table "Spec" sample31) (reversed (written V31.table "Spec" sample31)) ∧
    (decode V31.table sampleNums (.named "Spec") (reversed (written V31.table "Spec" sample31))).isSome = true :=
  ⟨clearB_sound _ (by decide +kernel), reordered_reversed _, by decide +kernel⟩

end Verif
