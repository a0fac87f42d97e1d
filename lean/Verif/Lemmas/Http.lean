import Verif.Http
import Verif.Spec.Http

namespace Verif
open HttpSpec

theorem digitChar_toNat {d : Nat} (h : d < 10) : (digitChar d).toNat = 48 + d := by
  unfold digitChar
  have hv : (48 + d).isValidChar := by left; omega
  simp only [Char.ofNat, hv, dif_pos]
  rfl

theorem digitChar_isDigit {d : Nat} (h : d < 10) : IsDigit (digitChar d) := by
  have := digitChar_toNat h
  constructor
  · show 48 ≤ (digitChar d).toNat; omega
  · show (digitChar d).toNat ≤ 57; omega

theorem natDigits_digits (n : Nat) : ∀ c ∈ natDigits n, IsDigit c := by
  induction n using Nat.strongRecOn with
  | ind n ih =>
    unfold natDigits
    split
    · intro c hc
      simp only [List.mem_singleton] at hc
      subst hc
      exact digitChar_isDigit (by assumption)
    · intro c hc
      simp only [List.mem_append, List.mem_singleton] at hc
      rcases hc with hc | rfl
      · exact ih (n / 10) (by omega) c hc
      · exact digitChar_isDigit (by omega)

theorem natDigits_value (n : Nat) : value (natDigits n) = n := by
  induction n using Nat.strongRecOn with
  | ind n ih =>
    unfold natDigits
    split
    · rename_i h
      have e : '0'.toNat = 48 := rfl
      simp only [value, List.foldl_cons, List.foldl_nil, digitChar_toNat h, e]
      omega
    · have := ih (n / 10) (by omega)
      unfold value at *
      have e : '0'.toNat = 48 := rfl
      rw [List.foldl_append, this]
      simp only [List.foldl_cons, List.foldl_nil, digitChar_toNat (show n % 10 < 10 by omega), e]
      omega

theorem natDigits_ne_nil (n : Nat) : natDigits n ≠ [] := by
  unfold natDigits
  split <;> simp

theorem natDigits_inj {a b : Nat} (h : natDigits a = natDigits b) : a = b := by
  rw [← natDigits_value a, ← natDigits_value b, h]

theorem toList_itoa_nat (n : Nat) : (itoa n).toList = natDigits n := by
  show (String.ofList (natDigits n)).toList = _
  simp

theorem minus_not_digit : ¬ IsDigit '-' := by decide

theorem itoa_inj {a b : Int} (h : itoa a = itoa b) : a = b := by
  have h := congrArg String.toList h
  cases a with
  | ofNat a =>
    cases b with
    | ofNat b => simp only [itoa, String.toList_ofList] at h; rw [natDigits_inj h]
    | negSucc b =>
      simp only [itoa, String.toList_ofList] at h
      exact absurd (natDigits_digits a '-' (by rw [h]; simp)) minus_not_digit
  | negSucc a =>
    cases b with
    | ofNat b =>
      simp only [itoa, String.toList_ofList] at h
      exact absurd (natDigits_digits b '-' (by rw [← h]; simp)) minus_not_digit
    | negSucc b =>
      simp only [itoa, String.toList_ofList, List.cons.injEq, true_and] at h
      have := natDigits_inj h
      simp only [Nat.add_right_cancel_iff] at this
      rw [this]

theorem natDigits_length (n : Nat) : (n < 10 → (natDigits n).length = 1) ∧
    (10 ≤ n → n < 100 → (natDigits n).length = 2) ∧
    (100 ≤ n → n < 1000 → natDigits n = [digitChar (n / 100), digitChar (n / 10 % 10), digitChar (n % 10)]) ∧
    (1000 ≤ n → 4 ≤ (natDigits n).length) := by
  have one : ∀ n, n < 10 → natDigits n = [digitChar n] := by
    intro n h; unfold natDigits; rw [dif_pos h]
  have step : ∀ n, ¬ n < 10 → natDigits n = natDigits (n / 10) ++ [digitChar (n % 10)] := by
    intro n h; rw [natDigits, dif_neg h]
  have two : ∀ n, 10 ≤ n → n < 100 → natDigits n = [digitChar (n / 10), digitChar (n % 10)] := by
    intro n h h'; rw [step n (by omega), one (n / 10) (by omega)]; rfl
  have three : ∀ n, 100 ≤ n → n < 1000 →
      natDigits n = [digitChar (n / 100), digitChar (n / 10 % 10), digitChar (n % 10)] := by
    intro n h h'
    rw [step n (by omega), two (n / 10) (by omega) (by omega), Nat.div_div_eq_div_mul]; rfl
  refine ⟨fun h => by rw [one n h]; rfl, fun h h' => by rw [two n h h']; rfl, three n, ?_⟩
  induction n using Nat.strongRecOn with
  | ind n ih =>
    intro h
    rw [step n (by omega), List.length_append]
    by_cases h' : n / 10 < 1000
    · rw [three (n / 10) (by omega) h']; simp
    · have := ih (n / 10) (by omega) (by omega)
      simp; omega

/-! ## Joined errors -/

theorem joinErrors_fold (errs : List (Option String)) (acc : String) :
    errs.foldl joinStep acc = acc ++ ((messages errs).map (", " ++ ·)).foldl (· ++ ·) "" := by
  have shift : ∀ (l : List String) (a : String), l.foldl (· ++ ·) a = a ++ l.foldl (· ++ ·) "" := by
    intro l
    induction l with
    | nil => intro a; simp
    | cons x l ih =>
      intro a
      rw [List.foldl_cons, ih, List.foldl_cons, ih ("" ++ x)]
      simp [String.append_assoc]
  induction errs generalizing acc with
  | nil => simp [messages]
  | cons e errs ih =>
    cases e with
    | none => simpa [messages, joinStep] using ih acc
    | some e =>
      simp only [List.foldl_cons, ih, joinStep]
      simp only [messages, List.filterMap_cons, id, List.map_cons, List.foldl_cons]
      rw [shift _ ("" ++ (", " ++ e))]
      simp [String.append_assoc]

theorem foldl_goJoin (m : String) (ms : List String) :
    (((m :: ms).map (", " ++ ·)).foldl (· ++ ·) "").toList = ", ".toList ++ (goJoin ", " (m :: ms)).toList := by
  have shift : ∀ (l : List String) (a : String), l.foldl (· ++ ·) a = a ++ l.foldl (· ++ ·) "" := by
    intro l
    induction l with
    | nil => intro a; simp
    | cons x l ih =>
      intro a
      rw [List.foldl_cons, ih, List.foldl_cons, ih ("" ++ x)]
      simp [String.append_assoc]
  induction ms generalizing m with
  | nil => simp [goJoin]
  | cons m' ms ih =>
    rw [List.map_cons, List.foldl_cons, shift, String.toList_append, ih m']
    simp [goJoin, String.toList_append]

/-- C45 as an equation. -/
theorem joinErrors_eq (errs : List (Option String)) :
    joinErrors errs = match messages errs with
      | [] => none
      | m :: ms => some (goJoin ", " (m :: ms)) := by
  unfold joinErrors
  simp only [joinErrors_fold]
  cases hm : messages errs with
  | nil => simp
  | cons m ms =>
    have h := foldl_goJoin m ms
    have hne : "" ++ ((m :: ms).map (", " ++ ·)).foldl (· ++ ·) "" ≠ "" := by
      intro e
      have := congrArg String.toList e
      simp only [String.toList_append, h] at this
      simp at this
    simp only [if_pos hne]
    congr 1
    rw [String.toList_append, h]
    simp

theorem joinErrors_none_iff (errs : List (Option String)) : joinErrors errs = none ↔ ∀ e ∈ errs, e = none := by
  rw [joinErrors_eq]
  have : messages errs = [] ↔ ∀ e ∈ errs, e = none := by
    simp only [messages, List.filterMap_eq_nil_iff, id]
  cases hm : messages errs with
  | nil => simpa using this.mp hm
  | cons m ms =>
    simp only [reduceCtorEq, false_iff]
    intro h
    rw [this.mpr h] at hm
    cases hm

/-! ## Decimal notation -/

theorem natDigits_toDigits (n : Nat) : natDigits n = Nat.toDigits 10 n := by
  induction n using Nat.strongRecOn with
  | ind n ih =>
    rw [natDigits]
    split
    · rename_i h
      rw [Nat.toDigits_of_lt_base h]
      have : n = 0 ∨ n = 1 ∨ n = 2 ∨ n = 3 ∨ n = 4 ∨ n = 5 ∨ n = 6 ∨ n = 7 ∨ n = 8 ∨ n = 9 := by omega
      rcases this with rfl | rfl | rfl | rfl | rfl | rfl | rfl | rfl | rfl | rfl <;> decide
    · rename_i h
      rw [Nat.toDigits_of_base_le (by omega) (by omega), ih (n / 10) (by omega)]
      have : n % 10 = 0 ∨ n % 10 = 1 ∨ n % 10 = 2 ∨ n % 10 = 3 ∨ n % 10 = 4 ∨ n % 10 = 5 ∨ n % 10 = 6 ∨
        n % 10 = 7 ∨ n % 10 = 8 ∨ n % 10 = 9 := by omega
      congr 2
      rcases this with h | h | h | h | h | h | h | h | h | h <;> rw [h] <;> decide

/-- `strconv.Itoa` writes the usual decimal notation. -/
theorem itoa_toString (n : Int) : itoa n = toString n := by
  cases n with
  | ofNat k => simp [itoa, natDigits_toDigits, toString, Int.repr, Nat.repr]
  | negSucc k => simp [itoa, natDigits_toDigits, toString, Int.repr, Nat.repr]

end Verif
