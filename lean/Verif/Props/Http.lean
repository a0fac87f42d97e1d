import Verif.Lemmas.Http
import Verif.Reflect

/-!
# Joined errors, definition names and status keys (C45, C46, C18)
-/

namespace Verif
open HttpSpec

/-- C45: joining gives nil exactly when all errors are nil, and otherwise all messages in order, separated
by commas. -/
theorem C45_joined_errors (errs : List (Option String)) :
    (joinErrors errs = none ↔ ∀ e ∈ errs, e = none) ∧
    (∀ msg, joinErrors errs = some msg → msg = ", ".intercalate (messages errs)) := by
  refine ⟨joinErrors_none_iff errs, ?_⟩
  intro msg h
  have key : ∀ (m : String) (ms : List String), goJoin ", " (m :: ms) = ", ".intercalate (m :: ms) := by
    intro m ms
    induction ms generalizing m with
    | nil => simp [goJoin]
    | cons m' ms ih => rw [goJoin, ih, String.intercalate_cons_cons]
  rw [joinErrors_eq] at h
  split at h
  · cases h
  · rename_i m ms hm
    cases h
    rw [hm, key]

example : joinErrors [none, some "a", none, some "", some "b"] = some "a, , b" ∧ joinErrors [none, some ""] = some "" ∧
    joinErrors [none, none] = none := by decide +kernel

theorem defNameChar_iff (c : Char) : defNameChar c = true ↔ IsNameChar c := by
  simp only [defNameChar, IsNameChar, IsDigit, Bool.or_eq_true, Bool.and_eq_true, decide_eq_true_eq, beq_iff_eq, or_assoc]

/-- C46: names are made of safe characters, safe names are unchanged, and the name is what is left of the
default name when every unsafe character is removed. -/
theorem C46_safe_names (s : String) :
    IsName (sanitizeDefName s) ∧ (IsName s → sanitizeDefName s = s) ∧
    (sanitizeDefName s).toList.Sublist s.toList ∧
    (∀ c, IsNameChar c → (sanitizeDefName s).toList.count c = s.toList.count c) := by
  have e : (sanitizeDefName s).toList = s.toList.filter defNameChar := by simp [sanitizeDefName]
  refine ⟨?_, ?_, ?_, ?_⟩
  · intro c hc
    rw [e, List.mem_filter] at hc
    exact (defNameChar_iff c).mp hc.2
  · intro h
    apply String.toList_inj.mp
    rw [e, List.filter_eq_self]
    exact fun c hc => (defNameChar_iff c).mpr (h c hc)
  · rw [e]; exact List.filter_sublist
  · intro c hc
    rw [e, List.count_filter]
    exact (defNameChar_iff c).mpr hc

example : sanitizeDefName "Page[github.com/a/b.Item]" = "Pagegithub.comab.Item" := by decide +kernel

/-- C46: distinct names stay distinct if they are safe; in general they need not. -/
theorem C46_distinct (s t : String) (hs : IsName s) (ht : IsName t) (h : sanitizeDefName s = sanitizeDefName t) : s = t := by
  rw [(C46_safe_names s).2.1 hs, (C46_safe_names t).2.1 ht] at h
  exact h

/-- C46, the limit: two different generic types can get the same name. -/
theorem C46_collision : sanitizeDefName "Pair[a/b]" = sanitizeDefName "Pair[ab]" := by decide +kernel

/-! ## Status keys -/

theorem statusKey_family {n : Int} (h : 1 ≤ n ∧ n ≤ 5) : statusKey n = itoa n ++ "XX" := by
  unfold statusKey
  rw [if_pos (by omega)]

theorem statusKey_other {n : Int} (h : ¬ (1 ≤ n ∧ n ≤ 5)) : statusKey n = itoa n := by
  unfold statusKey
  rw [if_neg (by omega)]

theorem itoa_no_X (n : Int) : 'X' ∉ (itoa n).toList := by
  have hx : ¬ IsDigit 'X' := by decide
  cases n with
  | ofNat n =>
    simp only [itoa, String.toList_ofList]
    exact fun h => hx (natDigits_digits _ _ h)
  | negSucc n =>
    simp only [itoa, String.toList_ofList, List.mem_cons, not_or]
    exact ⟨by decide, fun h => hx (natDigits_digits _ _ h)⟩

/-- C18: different statuses have different keys. -/
theorem C18_keys_distinct (a b : Int) (h : statusKey a = statusKey b) : a = b := by
  have hX : ∀ n : Int, (1 ≤ n ∧ n ≤ 5) ↔ 'X' ∈ (statusKey n).toList := by
    intro n
    constructor
    · intro h; rw [statusKey_family h, String.toList_append]; simp
    · intro h
      refine Decidable.byContradiction fun h' => ?_
      rw [statusKey_other h'] at h
      exact itoa_no_X n h
  by_cases ha : 1 ≤ a ∧ a ≤ 5
  · have hb : 1 ≤ b ∧ b ≤ 5 := (hX b).mpr (h ▸ (hX a).mp ha)
    rw [statusKey_family ha, statusKey_family hb] at h
    have h := congrArg String.toList h
    simp only [String.toList_append, List.append_cancel_right_eq] at h
    exact itoa_inj (String.toList_inj.mp h)
  · have hb : ¬ (1 ≤ b ∧ b ≤ 5) := fun hb => ha ((hX a).mpr (h ▸ (hX b).mp hb))
    rw [statusKey_other ha, statusKey_other hb] at h
    exact itoa_inj h

theorem digitChar_in {d : Nat} (h : d < 10) : ('1' ≤ digitChar d ∧ digitChar d ≤ '5') ↔ (1 ≤ d ∧ d ≤ 5) := by
  have := digitChar_toNat h
  constructor
  · rintro ⟨h1, h2⟩
    have h1 : 49 ≤ (digitChar d).toNat := h1
    have h2 : (digitChar d).toNat ≤ 53 := h2
    omega
  · rintro ⟨h1, h2⟩
    exact ⟨show 49 ≤ (digitChar d).toNat by omega, show (digitChar d).toNat ≤ 53 by omega⟩

/-- C18: the key is one that the document format accepts exactly for the statuses 100-599 and the
families 1-5. -/
theorem C18_valid_keys (n : Int) : IsStatusKey (statusKey n) ↔ (100 ≤ n ∧ n ≤ 599) ∨ (1 ≤ n ∧ n ≤ 5) := by
  by_cases hf : 1 ≤ n ∧ n ≤ 5
  · simp only [hf, and_self, or_true, iff_true]
    have : n = 1 ∨ n = 2 ∨ n = 3 ∨ n = 4 ∨ n = 5 := by omega
    rcases this with rfl | rfl | rfl | rfl | rfl
    · exact ⟨'1', 'X', 'X', by decide +kernel, by decide, .inr ⟨rfl, rfl⟩⟩
    · exact ⟨'2', 'X', 'X', by decide +kernel, by decide, .inr ⟨rfl, rfl⟩⟩
    · exact ⟨'3', 'X', 'X', by decide +kernel, by decide, .inr ⟨rfl, rfl⟩⟩
    · exact ⟨'4', 'X', 'X', by decide +kernel, by decide, .inr ⟨rfl, rfl⟩⟩
    · exact ⟨'5', 'X', 'X', by decide +kernel, by decide, .inr ⟨rfl, rfl⟩⟩
  · rw [statusKey_other hf]
    simp only [hf, or_false]
    cases n with
    | negSucc k =>
      constructor
      · rintro ⟨a, b, c, e, ha, -⟩
        simp only [itoa, String.toList_ofList, List.cons.injEq] at e
        rw [← e.1] at ha
        exact absurd ha (by decide)
      · rintro ⟨h, -⟩
        omega
    | ofNat k =>
      have hl := natDigits_length k
      constructor
      · rintro ⟨a, b, c, e, ha, -⟩
        simp only [itoa, String.toList_ofList] at e
        by_cases h1 : k < 10
        · have := hl.1 h1; rw [e] at this; cases this
        · by_cases h2 : k < 100
          · have := hl.2.1 (by omega) h2; rw [e] at this; cases this
          · by_cases h3 : k < 1000
            · have := hl.2.2.1 (by omega) h3
              rw [e] at this
              simp only [List.cons.injEq] at this
              rw [this.1, digitChar_in (by omega)] at ha
              simp only [Int.ofNat_eq_natCast]
              omega
            · have := hl.2.2.2 (by omega); rw [e] at this; simp at this
      · rintro ⟨h1, h2⟩
        simp only [Int.ofNat_eq_natCast] at h1 h2
        refine ⟨_, _, _, by rw [itoa]; simp only [String.toList_ofList]; exact hl.2.2.1 (by omega) (by omega), ?_, .inl ⟨?_, ?_⟩⟩
        · rw [digitChar_in (by omega)]; omega
        · exact digitChar_isDigit (by omega)
        · exact digitChar_isDigit (by omega)

/-- C18: the key of a status 100-599 is three digits whose value is the status. -/
theorem C18_three_digits (n : Nat) (h : 100 ≤ n ∧ n ≤ 599) :
    (statusKey n).toList.length = 3 ∧ (∀ c ∈ (statusKey n).toList, IsDigit c) ∧ value (statusKey n).toList = n := by
  rw [statusKey_other (by omega), toList_itoa_nat]
  refine ⟨?_, natDigits_digits n, natDigits_value n⟩
  rw [(natDigits_length n).2.2.1 (by omega) (by omega)]
  rfl

example : statusKey 404 = "404" ∧ statusKey 2 = "2XX" ∧ statusKey 599 = "599" ∧ statusKey 6 = "6" ∧
    statusKey (-1) = "-1" := by decide +kernel

end Verif
