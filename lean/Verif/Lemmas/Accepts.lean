import Verif.Lemmas.RoundTripExcl

/-! When a struct can be read from an object: the checks of `UnmarshalJSON` without the values. -/

namespace Verif
open Codec Spec

variable {T : Table} {N : Nums}

/-- The value can be read. -/
abbrev Can (T : Table) (N : Nums) (ty : Ty) (j : Any) : Prop := (decode T N ty j).isSome = true

theorem mapAll_isSome {α β : Type} {f : α → Option β} {l : List α} :
    (mapAll f l).isSome = true ↔ ∀ x ∈ l, (f x).isSome = true := by
  induction l with
  | nil => simp [mapAll]
  | cons x l ih =>
    simp only [mapAll, List.mem_cons, forall_eq_or_imp, ← ih]
    cases f x <;> cases mapAll f l <;> simp

theorem not_can {ty : Ty} {j : Any} : ¬Can T N ty j ↔ decode T N ty j = none := by
  unfold Can
  cases decode T N ty j <;> simp

theorem fieldVal_isSome {chosen : String → Bool} {ty : Ty} {l : List Member} {v : Val} :
    (fieldVal chosen ty v l).isSome = true ↔ ∀ m ∈ l, chosen m.key = true → (m.dec ty).isSome = true := by
  induction l generalizing v with
  | nil => simp [fieldVal]
  | cons m l ih =>
    simp only [fieldVal, List.mem_cons, forall_eq_or_imp]
    split
    · rename_i h
      cases hm : m.dec ty with
      | none => simp [h]
      | some w => simp [ih]
    · rename_i h
      simp [ih, h]

/-- The checks that reading a struct from an object makes. -/
structure Accepts (T : Table) (N : Nums) (s : Struct) (M : List (String × Any)) : Prop where
  nots : ∀ t ∈ s.nots, ¬Can T N t (.obj M)
  fields : s.decodes = true → ∀ k x, (k, x) ∈ M → ∀ f, fieldOf s.fields k = some f → Can T N f.ty x
  embeds : ∀ e ∈ s.embeds, Can T N e.ty (.obj M)
  oneOf : s.oneOf ≠ [] → (s.oneOf.filter (fun e => (decode T N e.ty (.obj M)).isSome)).length = 1
  require : ∀ k ∈ s.require, k ∈ M.map Prod.fst
  consts : ∀ k c, (k, c) ∈ s.consts → ∀ x, Spec.lastValue M k = some x → x = c.json
  notConsts : ∀ k c, (k, c) ∈ s.notConsts → ∀ x, Spec.lastValue M k = some x → x ≠ c.json
  forbid : ∀ k ∈ s.forbid, k ∉ M.map Prod.fst
  patterns : ∀ q ∈ s.patterns, ∀ k x, (k, x) ∈ lastWins M → kept s k = true → q.pat.matches k = true →
    Can T N q.ty x
  additional : ∀ a, s.additional = some a → ∀ k x, (k, x) ∈ lastWins M → kept s k = true →
    (∀ q ∈ s.patterns, q.pat.matches k = false) → Can T N a.ty x
  strict : s.additional = none → s.strict = true → ∀ k ∈ M.map Prod.fst, kept s k = true →
    ∃ q ∈ s.patterns, q.pat.matches k = true

theorem constIs_iff {c : Const} {x : Any} : c.is x = true ↔ x = c.json := by
  cases c <;> cases x <;> simp only [Const.is, Const.json, beq_iff_eq, Any.str.injEq, Any.bool.injEq, reduceCtorEq,
    Bool.false_eq_true] <;> exact eq_comm

theorem decodeFields_isSome {s : Struct} {M : List (String × Any)} :
    (decodeFields T s (view T N (.obj M))).isSome = true ↔
      (s.decodes = true → ∀ k x, (k, x) ∈ M → ∀ f, fieldOf s.fields k = some f → Can T N f.ty x) := by
  unfold decodeFields
  cases hd : s.decodes with
  | false => simp
  | true =>
    simp only [view, viewMembers_eq, mapAll_isSome, Option.isSome_map, fieldVal_isSome, forall_const]
    constructor
    · intro h k x hx f hf
      exact h f (fieldOf_mem' hf).1 (memberOf T N (k, x)) (List.mem_map_of_mem hx) (by simp [memberOf, hf])
    · intro h f _ m hm hc
      obtain ⟨p, hp, rfl⟩ := List.mem_map.1 hm
      exact h p.1 p.2 hp f (by simpa [memberOf] using hc)

theorem decodeEntries_isSome {s : Struct} {M : List (String × Any)} {q : String → Bool} {ty : Ty} :
    (decodeEntries ty ((restOf s (M.map (memberOf T N))).filter (fun p => q p.1))).isSome = true ↔
      ∀ k x, (k, x) ∈ lastWins M → kept s k = true → q k = true → Can T N ty x := by
  have e : lastWins (M.filter (fun p => kept s p.1 && q p.1)) =
      (lastWins M).filter (fun p => kept s p.1 && q p.1) := lastWins_filter (fun k => kept s k && q k) M
  rw [restOf_filter, e]
  unfold decodeEntries
  simp only [Option.isSome_map, mapAll_isSome]
  constructor
  · intro h k x hx h1 h2
    exact h (k, memberOf T N (k, x)) (List.mem_map.2 ⟨(k, x), List.mem_filter.2 ⟨hx, by simp [h1, h2]⟩, rfl⟩)
  · intro h p hp
    obtain ⟨p', hp', rfl⟩ := List.mem_map.1 hp
    obtain ⟨hm, hk⟩ := List.mem_filter.1 hp'
    simp only [Bool.and_eq_true] at hk
    exact h p'.1 p'.2 hm hk.1 hk.2

theorem decodeRest_isSome {s : Struct} {M : List (String × Any)} :
    (decodeRest s (M.map (memberOf T N))).isSome = true ↔
      (∀ q ∈ s.patterns, ∀ k x, (k, x) ∈ lastWins M → kept s k = true → q.pat.matches k = true → Can T N q.ty x) ∧
      (∀ a, s.additional = some a → ∀ k x, (k, x) ∈ lastWins M → kept s k = true →
        (∀ q ∈ s.patterns, q.pat.matches k = false) → Can T N a.ty x) ∧
      (s.additional = none → s.strict = true → ∀ k ∈ M.map Prod.fst, kept s k = true →
        ∃ q ∈ s.patterns, q.pat.matches k = true) := by
  have e0 : ∀ k, (!s.patterns.any (fun q => q.pat.matches k)) = true ↔ ∀ q ∈ s.patterns, q.pat.matches k = false := by
    intro k
    rw [Bool.not_eq_true', List.any_eq_false]
    simp
  have hp : (mapAll (fun q : PatField => (decodeEntries q.ty ((restOf s (M.map (memberOf T N))).filter
      (fun p => q.pat.matches p.1))).map (fun w => (q.go, w))) s.patterns).isSome = true ↔
      ∀ q ∈ s.patterns, ∀ k x, (k, x) ∈ lastWins M → kept s k = true → q.pat.matches k = true → Can T N q.ty x := by
    rw [mapAll_isSome]
    constructor
    · intro h q hq
      have := h q hq
      rw [Option.isSome_map] at this
      exact decodeEntries_isSome.1 this
    · intro h q hq
      rw [Option.isSome_map]
      exact decodeEntries_isSome.2 (h q hq)
  have hu : ∀ ty, (decodeEntries ty ((restOf s (M.map (memberOf T N))).filter
      (fun p => !s.patterns.any (fun q => q.pat.matches p.1)))).isSome = true ↔
      ∀ k x, (k, x) ∈ lastWins M → kept s k = true → (∀ q ∈ s.patterns, q.pat.matches k = false) → Can T N ty x := by
    intro ty
    have := decodeEntries_isSome (T := T) (N := N) (s := s) (M := M) (ty := ty)
      (q := fun k => !s.patterns.any (fun q => q.pat.matches k))
    rw [this]
    simp only [e0]
  have hs : (restOf s (M.map (memberOf T N))).filter (fun p => !s.patterns.any (fun q => q.pat.matches p.1)) = [] ↔
      ∀ k ∈ M.map Prod.fst, kept s k = true → ∃ q ∈ s.patterns, q.pat.matches k = true := by
    have := restOf_filter (T := T) (N := N) (s := s) (M := M) (fun k => !s.patterns.any (fun q => q.pat.matches k))
    rw [this, List.map_eq_nil_iff]
    have e : lastWins (M.filter (fun p => kept s p.1 && !s.patterns.any (fun q => q.pat.matches p.1))) =
        (lastWins M).filter (fun p => kept s p.1 && !s.patterns.any (fun q => q.pat.matches p.1)) :=
      lastWins_filter (fun k => kept s k && !s.patterns.any (fun q => q.pat.matches k)) M
    rw [e, List.filter_eq_nil_iff]
    constructor
    · intro h k hk hkept
      rw [← mem_keys_lastWins] at hk
      obtain ⟨p, hp, rfl⟩ := List.mem_map.1 hk
      have := h p hp
      rw [hkept, Bool.true_and, Bool.not_eq_true, Bool.not_eq_false', List.any_eq_true] at this
      exact this
    · intro h p hp hc
      rw [Bool.and_eq_true] at hc
      obtain ⟨q, hq, hm⟩ := h p.1 (mem_keys_lastWins.1 (List.mem_map_of_mem hp)) hc.1
      rw [(e0 p.1).1 hc.2 q hq] at hm
      cases hm
  rw [← hp]
  clear hp
  unfold decodeRest
  simp only
  cases hm : mapAll (fun q : PatField => (decodeEntries q.ty ((restOf s (M.map (memberOf T N))).filter
      (fun p => q.pat.matches p.1))).map (fun w => (q.go, w))) s.patterns with
  | none => simp
  | some pvals =>
    simp only
    cases ha : s.additional with
    | some a =>
      simp only [Option.isSome_map, hu, Option.some.injEq, forall_eq', Option.isSome_some, true_and,
        reduceCtorEq, false_imp_iff, and_true]
    | none =>
      simp only [reduceCtorEq, false_imp_iff, implies_true, true_and, Option.isSome_some, forall_const, ← hs]
      cases s.strict with
      | false => simp
      | true =>
        simp only [Bool.true_and, Bool.not_eq_true', forall_const]
        split
        · rename_i h
          simp only [Option.isSome_none, Bool.false_eq_true, false_iff]
          intro e
          rw [e] at h
          cases h
        · rename_i h
          simp only [Option.isSome_some, true_iff]
          simpa using h

/-- The other checks: exactly one of two keys, and fields in lower case. -/
structure Checks (T : Table) (N : Nums) (s : Struct) (M : List (String × Any)) : Prop where
  exactlyOne : ∀ a b, s.exactlyOne = some (a, b) → ¬(a ∈ M.map Prod.fst ↔ b ∈ M.map Prod.fst)
  lower : ∀ fvals, decodeFields T s (view T N (.obj M)) = some fvals → ∀ c ∈ s.lower,
    (match fieldGet fvals c.go with
      | some (.str t) => (goToLower t == c.value) == c.mustBe
      | _ => !c.mustBe) = true

/-- Reading a struct from an object succeeds if the checks do. -/
theorem can_obj_full (hT : Ranked T) {n : String} {s : Struct} (hn : GoMap.get? T n = some (.struct s))
    {M : List (String × Any)} : Can T N (.named n) (.obj M) ↔ Accepts T N s M ∧ Checks T N s M := by
  have hlast : ∀ {cs : List (String × Const)} {b : Bool},
      (∀ c ∈ cs, ∀ m, GoMap.get? (rawMap (M.map (memberOf T N))) c.1 = some m → c.2.is m.val = b) ↔
      ∀ k c, (k, c) ∈ cs → ∀ x, Spec.lastValue M k = some x → c.is x = b := by
    intro cs b
    constructor
    · intro h k c hc x hx
      exact h (k, c) hc (memberOf T N (k, x)) (by rw [rawMap_get?, hx]; rfl)
    · intro h c hc m hm
      rw [rawMap_get?, Option.map_eq_some_iff] at hm
      obtain ⟨x, hx, rfl⟩ := hm
      exact h c.1 c.2 hc x hx
  constructor
  · intro h
    obtain ⟨w, hw⟩ := Option.isSome_iff_exists.1 h
    obtain ⟨hnots, fvals, evals, ovals, rvals, hf, he, ho, hr, hrest, _⟩ := (decode_struct_some hT hn).1 hw
    simp only [membersOf] at hr hrest
    obtain ⟨r1, r2, r3, r4, r5, r6⟩ := rawChecks_iff.1 hr
    have hrest' := decodeRest_isSome.1 (Option.isSome_iff_exists.2 ⟨_, hrest⟩)
    refine ⟨⟨fun t ht => not_can.2 (hnots t ht), decodeFields_isSome.1 (Option.isSome_iff_exists.2 ⟨_, hf⟩), ?_, ?_, ?_,
      ?_, ?_, ?_, hrest'.1, hrest'.2.1, hrest'.2.2⟩, ⟨?_, ?_⟩⟩
    · unfold decodeEmbeds at he
      have := mapAll_isSome.1 (Option.isSome_iff_exists.2 ⟨_, he⟩)
      intro e hee
      have := this e hee
      rwa [Option.isSome_map] at this
    · intro hne
      unfold decodeOneOf at ho
      rw [if_neg hne] at ho
      split at ho
      · assumption
      · cases ho
    · intro k hk
      exact hasKey_obj.1 (r1 k hk)
    · intro k c hc x hx
      exact constIs_iff.1 (hlast.1 r3 k c hc x hx)
    · intro k c hc x hx e
      have := hlast.1 r4 k c hc x hx
      rw [constIs_iff.2 e] at this
      cases this
    · intro k hk hmem
      have := r5 k hk
      rw [hasKey_obj.2 hmem] at this
      cases this
    · intro a b e hiff
      apply r2 a b e
      rw [Bool.eq_iff_iff, hasKey_obj, hasKey_obj]
      exact hiff
    · intro fv hfv
      rw [hf] at hfv
      cases hfv
      exact r6
  · rintro ⟨h, hc⟩
    obtain ⟨fvals, hf⟩ := Option.isSome_iff_exists.1 (decodeFields_isSome.2 h.fields)
    have he : (decodeEmbeds (fun t => decode T N t (.obj M)) s.embeds).isSome = true := by
      unfold decodeEmbeds
      rw [mapAll_isSome]
      intro e hee
      rw [Option.isSome_map]
      exact h.embeds e hee
    obtain ⟨evals, he⟩ := Option.isSome_iff_exists.1 he
    have ho : (decodeOneOf (fun t => decode T N t (.obj M)) s.oneOf).isSome = true := by
      unfold decodeOneOf
      split
      · rfl
      · rename_i hne
        rw [if_pos (h.oneOf hne)]
        rfl
    obtain ⟨ovals, ho⟩ := Option.isSome_iff_exists.1 ho
    have hr := decodeRest_isSome.2 ⟨h.patterns, h.additional, h.strict⟩
    obtain ⟨rvals, hr⟩ := Option.isSome_iff_exists.1 hr
    apply Option.isSome_iff_exists.2
    refine ⟨_, (decode_struct_some hT hn).2 ⟨fun t ht => not_can.1 (h.nots t ht), fvals, evals, ovals, rvals, hf, he, ho,
      ?_, hr, rfl⟩⟩
    rw [rawChecks_iff]
    simp only [membersOf]
    refine ⟨fun k hk => hasKey_obj.2 (h.require k hk), ?_, ?_, ?_, ?_, ?_⟩
    · intro a b e hiff
      apply hc.exactlyOne a b e
      rw [← hasKey_obj (T := T) (N := N), ← hasKey_obj (T := T) (N := N), hiff]
    · exact hlast.2 (fun k c hc x hx => constIs_iff.2 (h.consts k c hc x hx))
    · refine hlast.2 (fun k c hc x hx => ?_)
      rw [← Bool.not_eq_true, constIs_iff]
      exact h.notConsts k c hc x hx
    · intro k hk
      rw [← Bool.not_eq_true, hasKey_obj]
      exact h.forbid k hk
    · exact hc.lower fvals hf

/-- The same for a struct without the other checks. -/
theorem can_obj (hT : Ranked T) {n : String} {s : Struct} (hn : GoMap.get? T n = some (.struct s))
    (h1 : s.exactlyOne = none) (h2 : s.lower = []) {M : List (String × Any)} :
    Can T N (.named n) (.obj M) ↔ Accepts T N s M := by
  rw [can_obj_full hT hn]
  refine ⟨And.left, fun h => ⟨h, ⟨?_, ?_⟩⟩⟩
  · rw [h1]
    intro a b e
    cases e
  · rw [h2]
    intro _ _ c hc
    cases hc

/-- A struct with fields is read from objects and `null` only. -/
theorem can_struct_obj (hT : Ranked T) {n : String} {s : Struct} (hn : GoMap.get? T n = some (.struct s))
    (hs : s.decodes = true) {j : Any} (h : Can T N (.named n) j) : j = .null ∨ ∃ M, j = .obj M := by
  cases j with
  | null => exact .inl rfl
  | obj M => exact .inr ⟨M, rfl⟩
  | _ =>
    refine absurd h (not_can.2 (decode_not_object hT hn hs ?_ ?_))
    · simp
    · simp

end Verif
