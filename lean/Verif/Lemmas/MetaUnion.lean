import Verif.Lemmas.MetaStruct

/-! Alternatives: the code counts the types that can be read, the meta-schema the schemas that accept. -/

namespace Verif.Meta
open Codec Spec

variable {T : Table} {N : Nums} {I : String → Prop} {env : String → Any → Prop}

theorem filter_zero {α : Type} {p : α → Bool} {l : List α} :
    (l.filter p).length = 0 ↔ ∀ (i : Nat) x, l[i]? = some x → p x = false := by
  rw [List.length_eq_zero_iff, List.filter_eq_nil_iff]
  constructor
  · intro h i x hx
    simpa using h x (List.mem_of_getElem? hx)
  · intro h x hx
    obtain ⟨i, hi⟩ := List.getElem?_of_mem hx
    simp [h i x hi]

theorem filter_one {α : Type} {p : α → Bool} {l : List α} :
    (l.filter p).length = 1 ↔
      ∃ i : Nat, (∃ x, l[i]? = some x ∧ p x = true) ∧ ∀ (k : Nat) x, l[k]? = some x → p x = true → k = i := by
  induction l with
  | nil => simp
  | cons a l ih =>
    rw [List.filter_cons]
    split
    · rename_i ha
      rw [List.length_cons, Nat.add_eq_right, filter_zero]
      constructor
      · intro h
        refine ⟨0, ⟨a, rfl, ha⟩, ?_⟩
        intro k x hx hp
        cases k with
        | zero => rfl
        | succ k =>
          rw [List.getElem?_cons_succ] at hx
          rw [h k x hx] at hp
          cases hp
      · rintro ⟨i, _, hu⟩ k x hx
        have h0 := hu 0 a rfl ha
        cases e : p x with
        | false => rfl
        | true =>
          have := hu (k + 1) x (by rw [List.getElem?_cons_succ]; exact hx) e
          omega
    · rename_i ha
      rw [ih]
      constructor
      · rintro ⟨i, ⟨x, hx, hp⟩, hu⟩
        refine ⟨i + 1, ⟨x, by rw [List.getElem?_cons_succ]; exact hx, hp⟩, ?_⟩
        intro k y hy hpy
        cases k with
        | zero =>
          cases hy
          exact absurd hpy ha
        | succ k =>
          rw [List.getElem?_cons_succ] at hy
          rw [hu k y hy hpy]
      · rintro ⟨i, ⟨x, hx, hp⟩, hu⟩
        cases i with
        | zero =>
          cases hx
          exact absurd hp ha
        | succ i =>
          rw [List.getElem?_cons_succ] at hx
          refine ⟨i, ⟨x, hx, hp⟩, ?_⟩
          intro k y hy hpy
          have := hu (k + 1) y (by rw [List.getElem?_cons_succ]; exact hy) hpy
          omega

theorem oneOf_complete {os : List Hidden} {ss : List Sch} {j : Any} (hl : os.length = ss.length)
    (hc : ∀ (i : Nat) (o : Hidden) s, os[i]? = some o → ss[i]? = some s → Ok I env s j → Can T N o.ty j)
    (hx : ∀ (i k : Nat) (o : Hidden) s, i ≠ k → os[i]? = some o → ss[k]? = some s → Can T N o.ty j → ¬Ok I env s j)
    (h : Ok I env (.oneOf ss) j) : (os.filter (fun e => (decode T N e.ty j).isSome)).length = 1 := by
  rw [ok_oneOf] at h
  obtain ⟨i, ⟨s, hs, hok⟩, hu⟩ := h
  rw [filter_one]
  obtain ⟨o, ho⟩ : ∃ o, os[i]? = some o := by
    obtain ⟨hi, _⟩ := List.getElem?_eq_some_iff.1 hs
    exact ⟨_, List.getElem?_eq_some_iff.2 ⟨by omega, rfl⟩⟩
  refine ⟨i, ⟨o, ho, hc i o s ho hs hok⟩, ?_⟩
  intro k o' ho' hp
  apply Classical.byContradiction
  intro hne
  exact hx k i o' s hne ho' hs hp hok

theorem oneOf_sound {os : List Hidden} {ss : List Sch} {j : Any} (hl : os.length = ss.length)
    (hc : ∀ (i : Nat) (o : Hidden) s, os[i]? = some o → ss[i]? = some s → Can T N o.ty j → Ok I env s j)
    (hx : ∀ (i k : Nat) (o : Hidden) s, i ≠ k → os[i]? = some o → ss[k]? = some s → Can T N o.ty j → ¬Ok I env s j)
    (h : (os.filter (fun e => (decode T N e.ty j).isSome)).length = 1) : Ok I env (.oneOf ss) j := by
  rw [filter_one] at h
  obtain ⟨i, ⟨o, ho, hok⟩, hu⟩ := h
  rw [ok_oneOf]
  obtain ⟨s, hs⟩ : ∃ s, ss[i]? = some s := by
    obtain ⟨hi, _⟩ := List.getElem?_eq_some_iff.1 ho
    exact ⟨_, List.getElem?_eq_some_iff.2 ⟨by omega, rfl⟩⟩
  refine ⟨i, ⟨s, hs, hc i o s ho hs hok⟩, ?_⟩
  intro k s' hs' hp
  apply Classical.byContradiction
  intro hne
  exact hx i k o s' (Ne.symm hne) ho hs' hok hp

/-- Reading a union succeeds if reading exactly one of the alternatives does. -/
theorem can_union (hT : Ranked T) {n : String} {s : Struct} (hn : GoMap.get? T n = some (.struct s))
    (hs : s = { oneOf := s.oneOf, parts := s.oneOf.map (fun h => .hidden h.go) }) (hne : s.oneOf ≠ []) {j : Any} :
    Can T N (.named n) j ↔ (s.oneOf.filter (fun e => (decode T N e.ty j).isSome)).length = 1 := by
  constructor
  · intro h
    obtain ⟨w, hw⟩ := Option.isSome_iff_exists.1 h
    obtain ⟨_, fvals, evals, ovals, rvals, _, _, ho, _⟩ := (decode_struct_some hT hn).1 hw
    unfold decodeOneOf at ho
    rw [if_neg hne] at ho
    split at ho
    · assumption
    · cases ho
  · intro h
    apply Option.isSome_iff_exists.2
    have ho : (decodeOneOf (fun t => decode T N t j) s.oneOf).isSome = true := by
      unfold decodeOneOf
      rw [if_neg hne, if_pos h]
      rfl
    obtain ⟨ovals, ho⟩ := Option.isSome_iff_exists.1 ho
    refine ⟨_, (decode_struct_some hT hn).2 ⟨?_, [], [], ovals, [], ?_, ?_, ho, ?_, ?_, rfl⟩⟩
    · rw [hs]
      intro t ht
      cases ht
    · rw [hs]
      rfl
    · rw [hs]
      rfl
    · rw [hs]
      rfl
    · rw [hs]
      rfl

/-! ## Exclusion -/

/-- An object cannot be read as the struct and be accepted by the schema. -/
def exclOk (s : Struct) (P : Parsed) : Bool :=
  (s.strict && s.additional.isNone && P.req.any (fun k => kept s k && !s.patterns.any (fun q => q.pat.matches k))) ||
  ((match P.addl with
    | some .never => true
    | _ => false) && P.pats.all (fun p => p.1 == .x) &&
    s.require.any (fun k => !P.props.any (fun p => p.1 == k) && !Pat.x.matches k)) ||
  s.consts.any (fun c => P.req.contains c.1 && P.props.any (fun p => p.1 == c.1 && (match p.2 with
    | .all [.type _, .enum [c']] => c' != c.2
    | _ => false)))

theorem excl_sound {s : Struct} {P : Parsed} (h : exclOk s P = true) {M : List (String × Any)}
    (ha : Accepts T N s M) (H : P.Holds I env M) : False := by
  unfold exclOk at h
  simp only [Bool.or_eq_true, Bool.and_eq_true, List.any_eq_true, Option.isNone_iff_eq_none, List.all_eq_true,
    beq_iff_eq, Bool.not_eq_true', List.contains_iff_mem] at h
  rcases h with (⟨⟨h1, h2⟩, k, hk, h3, h4⟩ | ⟨⟨h1, h2⟩, k, hk, h3, h4⟩) | ⟨⟨k, c⟩, hc, h1, ⟨k', t⟩, ht, e, h2⟩
  · obtain ⟨q, hq, hm⟩ := ha.strict h2 h1 k (H.req k hk) h3
    rw [List.any_eq_false] at h4
    exact h4 q hq hm
  · obtain ⟨p, hp, rfl⟩ := List.mem_map.1 (ha.require k hk)
    split at h1
    · rename_i e
      have := H.addl p.1 p.2 hp ?_ ?_ _ e
      · simp only [Ok] at this
      · intro t ht
        rw [List.any_eq_false] at h3
        exact h3 _ ht (by simp)
      · intro r t hr
        have e' := h2 _ hr
        simp only at e'
        subst e'
        intro hr
        have := (matches_iff (p := .x)).2 hr
        rw [h4] at this
        cases this
    · cases h1
  · simp only at e h2
    subst e
    split at h2
    · rename_i c'
      obtain ⟨a, hl⟩ := lastValue_of_mem (H.req _ h1)
      have e1 := ha.consts _ c hc a hl
      have e2 := H.props _ a (lastValue_mem hl) _ ht
      rw [ok_all] at e2
      have e2 := e2 (.enum [c']) (by simp)
      simp only [Ok, List.mem_cons, List.not_mem_nil, or_false, exists_eq_left] at e2
      rw [e1] at e2
      rw [bne_iff_ne] at h2
      apply h2
      cases c <;> cases c' <;> simp_all [Const.json]
    · cases h2

end Verif.Meta
