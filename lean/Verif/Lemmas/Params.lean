import Verif.Entities
import Verif.Spec.Params
import Verif.Lemmas.Go

namespace Verif
open ParamSpec
variable {S : Type}

theorem string_append_inj {a b c d : String} (h : a ++ b = c ++ d)
    (hl : b.toList.length = d.toList.length) : a = c ∧ b = d := by
  have := congrArg String.toList h
  simp only [String.toList_append] at this
  have h2 := List.append_inj' this hl
  exact ⟨String.toList_inj.mp h2.1, String.toList_inj.mp h2.2⟩

theorem string_last {a b c d : String} (h : a ++ b = c ++ d) (hb : b ≠ "") (hd : d ≠ "") :
    b.toList.getLast? = d.toList.getLast? := by
  have e := congrArg (fun s => (String.toList s).getLast?) h
  simp only [String.toList_append] at e
  have h1 : ∀ (x y : String), y ≠ "" → (x.toList ++ y.toList).getLast? = y.toList.getLast? := by
    intro x y hy
    have hne : y.toList ≠ [] := fun e => hy (String.toList_inj.mp (by simpa using e))
    rw [List.getLast?_append, List.getLast?_eq_some_getLast hne]
    rfl
  rwa [h1 _ _ hb, h1 _ _ hd] at e

/-- The index key determines location and name, for the four locations. -/
theorem paramKey_inj {n1 i1 n2 i2 : String} (h1 : i1 ∈ locations) (h2 : i2 ∈ locations)
    (h : paramKey n1 i1 = paramKey n2 i2) : n1 = n2 ∧ i1 = i2 := by
  unfold paramKey at h
  simp only [locations, List.mem_cons, List.not_mem_nil, or_false] at h1 h2
  have key : i1.toList.getLast? = i2.toList.getLast? :=
    string_last h (by rcases h1 with rfl | rfl | rfl | rfl <;> decide)
      (by rcases h2 with rfl | rfl | rfl | rfl <;> decide)
  have e : i1 = i2 := by
    rcases h1 with rfl | rfl | rfl | rfl <;> rcases h2 with rfl | rfl | rfl | rfl <;>
      first
        | rfl
        | exact absurd key (by decide)
  subst e
  exact ⟨(string_append_inj h rfl).1, rfl⟩

/-- The condition under which the first loop adds no complaint, in terms of index keys. -/
def LoopGood (pp : List String) (ps : List (ParamOrRef S)) (index : List String) : Prop :=
  ((inlineParams ps).map fun q => paramKey q.name q.inn).Nodup ∧
  (∀ q ∈ inlineParams ps, paramKey q.name q.inn ∉ index) ∧
  PathParamsHavePlaceholders ps pp

theorem inlineParams_cons_none {p : ParamOrRef S} {ps : List (ParamOrRef S)} (h : p.param = none) :
    inlineParams (p :: ps) = inlineParams ps := by simp [inlineParams, h]

theorem inlineParams_cons_some {p : ParamOrRef S} {q : Parameter S} {ps : List (ParamOrRef S)} (h : p.param = some q) :
    inlineParams (p :: ps) = q :: inlineParams ps := by simp [inlineParams, h]

theorem validateLoop_spec (pp : List String) (ps : List (ParamOrRef S)) (index errs : List String) :
    ∃ E index', validateLoop pp ps index errs = (index', errs ++ E) ∧
      (E = [] ↔ LoopGood pp ps index) ∧
      (∀ k, k ∈ index' → k ∈ index ∨ ∃ q ∈ inlineParams ps, paramKey q.name q.inn = k) ∧
      (LoopGood pp ps index → ∀ q ∈ inlineParams ps, paramKey q.name q.inn ∈ index') ∧
      (∀ k ∈ index, k ∈ index') := by
  induction ps generalizing index errs with
  | nil =>
    refine ⟨[], index, by simp [validateLoop], by simp [LoopGood, inlineParams, PathParamsHavePlaceholders], ?_, ?_, ?_⟩
    · intro k hk; exact .inl hk
    · intro _ q hq; simp [inlineParams] at hq
    · intro k hk; exact hk
  | cons p ps ih =>
    cases hp : p.param with
    | none =>
      obtain ⟨E, index', e, h⟩ := ih index errs
      refine ⟨E, index', by simp [validateLoop, hp, e], ?_⟩
      simp only [LoopGood, PathParamsHavePlaceholders, inlineParams_cons_none hp] at h ⊢
      exact h
    | some q =>
      by_cases hdup : paramKey q.name q.inn ∈ index
      · obtain ⟨E, index', e, h1, h2, h3, h4⟩ := ih index (errs ++ ["duplicate parameter in " ++ q.inn ++ ": " ++ q.name])
        have hbad : ¬ LoopGood pp (p :: ps) index := by
          rintro ⟨-, hb, -⟩
          exact hb q (by simp [inlineParams_cons_some hp]) hdup
        refine ⟨["duplicate parameter in " ++ q.inn ++ ": " ++ q.name] ++ E, index', ?_, ?_, ?_, ?_, h4⟩
        · simp [validateLoop, hp, hdup, e]
        · simp [hbad]
        · intro k hk
          rcases h2 k hk with h | ⟨q', hq', e'⟩
          · exact .inl h
          · exact .inr ⟨q', by simp [inlineParams_cons_some hp, hq'], e'⟩
        · intro h; exact absurd h hbad
      · by_cases hmiss : q.name ∉ pp ∧ q.inn = "path"
        · obtain ⟨E, index', e, h1, h2, h3, h4⟩ := ih index (errs ++ ["missing path parameter placeholder in url: " ++ q.name])
          have hbad : ¬ LoopGood pp (p :: ps) index := by
            rintro ⟨-, -, hb⟩
            exact hmiss.1 (hb q (by simp [inlineParams_cons_some hp]) hmiss.2)
          refine ⟨["missing path parameter placeholder in url: " ++ q.name] ++ E, index', ?_, ?_, ?_, ?_, h4⟩
          · simp only [validateLoop, hp]
            rw [if_neg hdup, if_pos hmiss, e, List.append_assoc]
          · simp [hbad]
          · intro k hk
            rcases h2 k hk with h | ⟨q', hq', e'⟩
            · exact .inl h
            · exact .inr ⟨q', by simp [inlineParams_cons_some hp, hq'], e'⟩
          · intro h; exact absurd h hbad
        · obtain ⟨E, index', e, h1, h2, h3, h4⟩ := ih (paramKey q.name q.inn :: index) errs
          have hgood : LoopGood pp (p :: ps) index ↔ LoopGood pp ps (paramKey q.name q.inn :: index) := by
            simp only [LoopGood, PathParamsHavePlaceholders, inlineParams_cons_some hp, List.map_cons, List.nodup_cons,
              List.mem_cons, List.mem_map, forall_eq_or_imp, not_or, not_exists, not_and]
            constructor
            · rintro ⟨⟨a, b⟩, ⟨c, d⟩, f, g⟩
              exact ⟨b, fun x hx => ⟨a x hx, d x hx⟩, g⟩
            · rintro ⟨b, cd, g⟩
              refine ⟨⟨fun x hx => (cd x hx).1, b⟩, ⟨hdup, fun x hx => (cd x hx).2⟩, ?_, g⟩
              intro hpath
              exact Classical.byContradiction fun hn => hmiss ⟨hn, hpath⟩
          refine ⟨E, index', ?_, ?_, ?_, ?_, ?_⟩
          · simp only [validateLoop, hp]
            rw [if_neg hdup, if_neg hmiss, e]
          · rw [hgood]; exact h1
          · intro k hk
            rcases h2 k hk with h | ⟨q', hq', e'⟩
            · rcases List.mem_cons.mp h with rfl | h
              · exact .inr ⟨q, by simp [inlineParams_cons_some hp], rfl⟩
              · exact .inl h
            · exact .inr ⟨q', by simp [inlineParams_cons_some hp, hq'], e'⟩
          · intro hg q' hq'
            rw [inlineParams_cons_some hp] at hq'
            rcases List.mem_cons.mp hq' with rfl | hq'
            · exact h4 _ (by simp)
            · exact h3 (hgood.mp hg) q' hq'
          · intro k hk; exact h4 _ (by simp [hk])

/-- Exact condition of acceptance, in terms of the concatenated keys. -/
def KeyValid (ps : List (ParamOrRef S)) (pp : List String) : Prop :=
  ((inlineParams ps).map fun q => paramKey q.name q.inn).Nodup ∧
  PathParamsHavePlaceholders ps pp ∧
  ∀ n ∈ pp, ∃ q ∈ inlineParams ps, paramKey q.name q.inn = paramKey n "path"

theorem validateErrs_nil_iff (ps : List (ParamOrRef S)) (pp : List String) :
    validateErrs ps pp = [] ↔ KeyValid ps pp := by
  obtain ⟨E, index', e, h1, h2, h3, -⟩ := validateLoop_spec pp ps [] []
  have hg : LoopGood pp ps [] ↔
      ((inlineParams ps).map fun q => paramKey q.name q.inn).Nodup ∧ PathParamsHavePlaceholders ps pp := by
    simp [LoopGood]
  simp only [validateErrs, e, List.nil_append, List.append_eq_nil_iff, List.map_eq_nil_iff, KeyValid,
    List.filter_eq_nil_iff, decide_eq_true_eq, Classical.not_not]
  rw [h1, hg]
  constructor
  · rintro ⟨⟨a, b⟩, c⟩
    refine ⟨a, b, fun n hn => ?_⟩
    rcases h2 _ (c n hn) with h | h
    · simp at h
    · exact h
  · rintro ⟨a, b, c⟩
    refine ⟨⟨a, b⟩, fun n hn => ?_⟩
    obtain ⟨q, hq, e'⟩ := c n hn
    rw [← e']
    exact h3 (hg.mpr ⟨a, b⟩) q hq

theorem validate_none_iff_errs (ps : List (ParamOrRef S)) (pp : List String) :
    validatePathParams ps pp = none ↔ validateErrs ps pp = [] := by
  unfold validatePathParams
  cases h : validateErrs ps pp with
  | nil => simp
  | cons a l => simp

theorem keyValid_iff_valid {ps : List (ParamOrRef S)} (hs : StandardLocations ps) (pp : List String) :
    KeyValid ps pp ↔ Valid ps pp := by
  have hnd : ((inlineParams ps).map fun q => paramKey q.name q.inn).Nodup ↔ UniqueParams ps := by
    unfold UniqueParams
    have hs' : ∀ q ∈ inlineParams ps, q.inn ∈ locations := hs
    generalize inlineParams ps = l at hs'
    clear hs
    induction l with
    | nil => simp
    | cons q l ih =>
      simp only [List.map_cons, List.nodup_cons, List.mem_map, not_exists, not_and]
      have ih := ih (fun q hq => hs' q (by simp [hq]))
      constructor
      · rintro ⟨a, b⟩
        refine ⟨fun x hx ex => a x hx ?_, ih.mp b⟩
        simp only [Prod.mk.injEq] at ex
        rw [ex.1, ex.2]
      · rintro ⟨a, b⟩
        refine ⟨fun x hx ex => a x hx ?_, ih.mpr b⟩
        have := paramKey_inj (hs' x (by simp [hx])) (hs' q (by simp)) ex
        simp [this]
  unfold KeyValid Valid
  rw [hnd]
  constructor
  · rintro ⟨a, b, c⟩
    refine ⟨a, b, fun n hn => ?_⟩
    obtain ⟨q, hq, e⟩ := c n hn
    have := paramKey_inj (hs q hq) (by simp [locations]) e
    exact ⟨q, hq, this.2, this.1⟩
  · rintro ⟨a, b, c⟩
    refine ⟨a, b, fun n hn => ?_⟩
    obtain ⟨q, hq, e1, e2⟩ := c n hn
    exact ⟨q, hq, by rw [e1, e2]⟩

theorem validateLoop_congr {pp pp' : List String} (h : ∀ n, n ∈ pp ↔ n ∈ pp') (ps : List (ParamOrRef S))
    (index errs : List String) : validateLoop pp ps index errs = validateLoop pp' ps index errs := by
  induction ps generalizing index errs with
  | nil => rfl
  | cons p ps ih =>
    cases hp : p.param with
    | none => simp [validateLoop, hp, ih]
    | some q =>
      simp only [validateLoop, hp, h]
      split
      · exact ih _ _
      · split
        · exact ih _ _
        · exact ih _ _

theorem mem_pathParamsMap {n : String} {l : List String} : n ∈ pathParamsMap l ↔ n ∈ l := by
  simp [pathParamsMap, List.mem_eraseDups]

end Verif
