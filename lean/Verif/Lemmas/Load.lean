import Verif.Lemmas.RoundTripFacts
import Verif.Lemmas.WritableCheck

/-! What a decoded struct consists of. -/

namespace Verif
open Codec Spec

variable {T : Table} {N : Nums} {Ok : String → String → Val → Prop}

/-- A struct that was read from a JSON value with the members `M`. -/
structure Loaded (T : Table) (N : Nums) (s : Struct) (j : Any) (M : List (String × Any)) (val : String → Val) : Prop where
  members : j = .obj M ∨ ((∀ M', j ≠ .obj M') ∧ M = [])
  nots : ∀ t ∈ s.nots, decode T N t j = none
  fields : ∀ f ∈ s.fields, ∃ rd, FieldReads T N s.fields M f rd ∧
    val f.go = (rememberNull s (M.map (memberOf T N)) (f.go, rd)).2
  embeds : ∀ e ∈ s.embeds, decode T N e.ty j = some (val e.go)
  oneOf : s.oneOf = [] ∨ ∃ e ∈ s.oneOf, ∃ v, decode T N e.ty j = some v ∧
    (∀ e' ∈ s.oneOf, e'.go ≠ e.go → decode T N e'.ty j = none) ∧
    ∀ e' ∈ s.oneOf, val e'.go = if e'.go = e.go then v else .nil
  require : ∀ k ∈ s.require, k ∈ M.map Prod.fst
  consts : ∀ c ∈ s.consts, ∀ a, lastValue M c.1 = some a → c.2.is a = true
  notConsts : ∀ c ∈ s.notConsts, ∀ a, lastValue M c.1 = some a → c.2.is a = false
  forbid : ∀ k ∈ s.forbid, k ∉ M.map Prod.fst
  lower : ∀ c ∈ s.lower, ∀ f ∈ s.fields, f.go = c.go → ∀ rd, FieldReads T N s.fields M f rd → (match rd with
    | .str t => (goToLower t == c.value) == c.mustBe
    | _ => !c.mustBe) = true
  patterns : ∀ q ∈ s.patterns, ∃ es, val q.go = madeMap es ∧
    ((es.map Prod.fst).Nodup ∧ ((M.map Prod.fst).Nodup → (es.map Prod.fst).Sublist (M.map Prod.fst))) ∧
    ∀ k x, (k, x) ∈ es → q.pat.matches k = true ∧ ∃ a, (k, a) ∈ M ∧ decode T N q.ty a = some x
  additional : ∀ a, s.additional = some a → ∃ es, val a.go = madeMap es ∧
    ((es.map Prod.fst).Nodup ∧ ((M.map Prod.fst).Nodup → (es.map Prod.fst).Sublist (M.map Prod.fst))) ∧
    ∀ k x, (k, x) ∈ es → (∀ q ∈ s.patterns, q.pat.matches k = false) ∧ ∃ b, (k, b) ∈ M ∧ decode T N a.ty b = some x
  strict : s.additional = none → s.strict = true → ∀ p ∈ M, kept s p.1 = true → ∃ q ∈ s.patterns, q.pat.matches p.1 = true

theorem mapAll_keys' {α β : Type} {f : α → Option (String × β)} {g : α → String} {l : List α} {r : List (String × β)}
    (h : mapAll f l = some r) (hg : ∀ x ∈ l, ∀ y, f x = some y → y.1 = g x) : r.map Prod.fst = l.map g := by
  induction l generalizing r with
  | nil => simp [mapAll] at h; subst h; rfl
  | cons x l ih =>
    simp only [mapAll] at h
    split at h
    · rename_i a b ha hb
      simp only [Option.some.injEq] at h
      subst h
      simp only [List.map_cons]
      rw [ih hb (fun y hy => hg y (List.mem_cons_of_mem _ hy)), hg x List.mem_cons_self _ ha]
    · cases h

theorem mapAll_from {α β : Type} {f : α → Option β} {l : List α} {r : List β} (h : mapAll f l = some r) :
    ∀ y ∈ r, ∃ x ∈ l, f x = some y := by
  induction l generalizing r with
  | nil => simp [mapAll] at h; subst h; intro y hy; cases hy
  | cons x l ih =>
    simp only [mapAll] at h
    split at h
    · rename_i a b ha hb
      simp only [Option.some.injEq] at h
      subst h
      intro y hy
      rcases List.mem_cons.1 hy with rfl | hy
      · exact ⟨x, List.mem_cons_self, ha⟩
      · obtain ⟨z, hz, e⟩ := ih hb y hy
        exact ⟨z, List.mem_cons_of_mem _ hz, e⟩
    · cases h

theorem decodeEntries_some {s : Struct} {M : List (String × Any)} {q : String → Bool} {ty : Ty} {w : Val}
    (h : decodeEntries ty ((restOf s (M.map (memberOf T N))).filter (fun p => q p.1)) = some w) :
    ∃ es, w = madeMap es ∧
      ((es.map Prod.fst).Nodup ∧ ((M.map Prod.fst).Nodup → (es.map Prod.fst).Sublist (M.map Prod.fst))) ∧
      ∀ k x, (k, x) ∈ es → q k = true ∧ ∃ a, (k, a) ∈ M ∧ decode T N ty a = some x := by
  unfold decodeEntries at h
  rw [Option.map_eq_some_iff] at h
  obtain ⟨es, hes, rfl⟩ := h
  rw [restOf_filter] at hes
  refine ⟨es, rfl, ?_, ?_⟩
  · have hk := mapAll_keys' (g := fun p : String × Member => p.1) hes (by
      intro x _ y hy
      rw [Option.map_eq_some_iff] at hy
      obtain ⟨w, _, rfl⟩ := hy
      rfl)
    rw [hk, List.map_map]
    refine ⟨lastWins_wf _, fun hM => ?_⟩
    have hs : ((M.filter (fun p => kept s p.1 && q p.1)).map Prod.fst).Sublist (M.map Prod.fst) :=
      List.filter_sublist.map _
    rw [lastWins_nodup (hs.nodup hM)]
    exact hs
  · intro k x hkx
    obtain ⟨p, hp, e⟩ := mapAll_from hes _ hkx
    rw [Option.map_eq_some_iff] at e
    obtain ⟨w, hw, e⟩ := e
    cases e
    obtain ⟨p', hp', rfl⟩ := List.mem_map.1 hp
    have := mem_lastWins hp'
    rw [List.mem_filter] at this
    obtain ⟨h1, h2⟩ := this
    rw [Bool.and_eq_true] at h2
    exact ⟨h2.2, p'.2, h1, hw⟩

theorem valOf_mem {ms : List (String × Val)} (h : (ms.map Prod.fst).Nodup) {k : String} {v : Val} (hm : (k, v) ∈ ms) :
    valOf ms k = v := by
  unfold valOf
  rw [GoMap.get?_of_mem h hm]
  rfl

theorem decodeFields_inv {s : Struct} (hd : s.decodes = true ∨ s.fields = []) {j : Any} {fvals : List (String × Val)}
    (h : decodeFields T s (view T N j) = some fvals) :
    ∃ M, (j = .obj M ∨ ((∀ M', j ≠ .obj M') ∧ M = [])) ∧ membersOf T N j = M.map (memberOf T N) ∧
      ∀ f ∈ s.fields, ∃ rd, (f.go, rd) ∈ fvals ∧ FieldReads T N s.fields M f rd := by
  have hzero : ∀ f : Field, FieldReads T N s.fields [] f (zero T f.ty) :=
    fun f => ⟨(fun p hp => nomatch hp), .inl ⟨(fun p hp => nomatch hp), rfl⟩⟩
  by_cases ho : ∃ M, j = .obj M
  · obtain ⟨M, rfl⟩ := ho
    refine ⟨M, .inl rfl, rfl, ?_⟩
    intro f hf
    rcases hd with hd | hd
    · simp only [decodeFields, hd, view, viewMembers_eq] at h
      obtain ⟨y, hy, e⟩ := mapAll_mem h f hf
      rw [Option.map_eq_some_iff] at e
      obtain ⟨rd, hr, rfl⟩ := e
      exact ⟨rd, hy, fieldVal_reads.1 hr⟩
    · rw [hd] at hf; cases hf
  · have hno : ∀ M', j ≠ .obj M' := fun M' e => ho ⟨M', e⟩
    refine ⟨[], .inr ⟨hno, rfl⟩, ?_, ?_⟩
    · cases j <;> first | rfl | exact absurd rfl (hno _)
    · intro f hf
      rcases hd with hd | hd
      · refine ⟨zero T f.ty, ?_, hzero f⟩
        cases j with
        | null =>
          simp only [decodeFields, hd, view, Option.some.injEq] at h
          rw [← h]
          exact List.mem_map.2 ⟨f, hf, rfl⟩
        | obj M => exact absurd rfl (hno M)
        | _ => simp only [decodeFields, hd, view] at h; cases h
      · rw [hd] at hf; cases hf

theorem fieldReads_unique {fs : List Field} {M : List (String × Any)} {f : Field} {a b : Val}
    (h1 : FieldReads T N fs M f a) (h2 : FieldReads T N fs M f b) : a = b := by
  rw [← fieldVal_reads] at h1 h2
  exact Option.some.inj (h1.symm.trans h2)

/-- What a decoded struct consists of. -/
theorem loaded (hT : Ranked T) {n : String} {s : Struct} (hn : GoMap.get? T n = some (.struct s))
    (hnames : s.names.Nodup) (hdec : s.decodes = true ∨ s.fields = [])
    {j : Any} {v : Val} (h : decode T N (.named n) j = some v) :
    ∃ M val, v = structOf s val ∧ Loaded T N s j M val := by
  obtain ⟨gs, rfl, hgs⟩ := decode_names hT hn h
  obtain ⟨h0, fvals, evals, ovals, rvals, h1, h2, h3, h4, h5, e⟩ := (decode_struct_some hT hn).1 h
  cases e
  generalize hgdef : fvals.map (rememberNull s (membersOf T N j)) ++ evals ++ ovals ++ rvals = gs at *
  obtain ⟨M, hM, hMs, hf⟩ := decodeFields_inv hdec h1
  rw [hMs] at h4 h5 hgdef
  have hnd : (gs.map Prod.fst).Nodup := by rw [hgs]; exact hnames
  have hval : ∀ k w, (k, w) ∈ gs → valOf gs k = w := fun k w hm => valOf_mem hnd hm
  have hmemF : ∀ p ∈ fvals.map (rememberNull s (M.map (memberOf T N))), p ∈ gs := by
    intro p hp; rw [← hgdef]; simp only [List.mem_append]; exact .inl (.inl (.inl hp))
  have hmemE : ∀ p ∈ evals, p ∈ gs := by
    intro p hp; rw [← hgdef]; simp only [List.mem_append]; exact .inl (.inl (.inr hp))
  have hmemO : ∀ p ∈ ovals, p ∈ gs := by
    intro p hp; rw [← hgdef]; simp only [List.mem_append]; exact .inl (.inr hp)
  have hmemR : ∀ p ∈ rvals, p ∈ gs := by
    intro p hp; rw [← hgdef]; simp only [List.mem_append]; exact .inr hp
  have hfn : (fvals.map Prod.fst).Nodup := by
    rw [decodeFields_names h1]
    have := hnames
    unfold Struct.names at this
    simp only [List.append_assoc] at this
    exact (List.nodup_append.1 this).1
  have hon : (s.oneOf.map Hidden.go).Nodup := by
    have := hnames
    unfold Struct.names at this
    simp only [List.append_assoc] at this
    exact (List.nodup_append.1 (List.nodup_append.1 (List.nodup_append.1 this).2.1).2.1).1
  have hc := rawChecks_iff.1 h4
  have hlv : ∀ (k : String) (a : Any), lastValue M k = some a →
      GoMap.get? (rawMap (M.map (memberOf T N))) k = some (memberOf T N (k, a)) := by
    intro k a e
    rw [rawMap_get?, e]; rfl
  refine ⟨M, valOf gs, by unfold structOf; rw [valOf_map hnames hgs], hM, h0, ?_, ?_, ?_, ?_, ?_, ?_, ?_, ?_, ?_, ?_, ?_⟩
  · intro f hff
    obtain ⟨rd, hrd, hr⟩ := hf f hff
    refine ⟨rd, hr, hval _ _ (hmemF _ ?_)⟩
    refine List.mem_map.2 ⟨(f.go, rd), hrd, ?_⟩
    exact Prod.ext rememberNull_fst rfl
  · intro e he
    unfold decodeEmbeds at h2
    obtain ⟨y, hy, e'⟩ := mapAll_mem h2 e he
    rw [Option.map_eq_some_iff] at e'
    obtain ⟨w, hw, rfl⟩ := e'
    rw [hval _ _ (hmemE _ hy)]
    exact hw
  · by_cases ho : s.oneOf = []
    · exact .inl ho
    · obtain ⟨e, he, v, hv, hoth, rfl⟩ := (decodeOneOf_some ho hon).1 h3
      refine .inr ⟨e, he, v, hv, hoth, ?_⟩
      intro e' he'
      exact hval _ _ (hmemO _ (List.mem_map.2 ⟨e', he', rfl⟩))
  · intro k hk
    exact hasKey_obj.1 (hc.1 k hk)
  · intro c hcm a ha
    exact hc.2.2.1 c hcm _ (hlv _ _ ha)
  · intro c hcm a ha
    exact hc.2.2.2.1 c hcm _ (hlv _ _ ha)
  · intro k hk hkm
    have := hc.2.2.2.2.1 k hk
    rw [hasKey_obj.2 hkm] at this
    cases this
  · intro c hcm f hff e rd hrd
    have := hc.2.2.2.2.2 c hcm
    obtain ⟨rd', hm, hr⟩ := hf f hff
    have heq := fieldReads_unique hr hrd
    subst heq
    have hg : fieldGet fvals c.go = some rd' := by
      unfold fieldGet
      rw [← e]
      exact GoMap.get?_of_mem hfn hm
    rw [hg] at this
    cases rd' <;> exact this
  · intro q hq
    obtain ⟨pvals, avals, rfl, hp, _⟩ := decodeRest_patterns h5
    obtain ⟨y, hy, e⟩ := mapAll_mem hp q hq
    rw [Option.map_eq_some_iff] at e
    obtain ⟨w, hw, rfl⟩ := e
    rw [hval _ _ (hmemR _ (List.mem_append_left _ hy))]
    exact decodeEntries_some (q := fun k => q.pat.matches k) hw
  · intro a ha
    unfold decodeRest at h5
    simp only [ha] at h5
    split at h5
    · cases h5
    · rw [Option.map_eq_some_iff] at h5
      obtain ⟨w, hw, rfl⟩ := h5
      rw [hval _ _ (hmemR _ (List.mem_append_right _ List.mem_cons_self))]
      obtain ⟨es, e1, e2, e3⟩ := decodeEntries_some (q := fun k => !s.patterns.any (fun q => q.pat.matches k)) hw
      refine ⟨es, e1, e2, ?_⟩
      intro k x hk
      obtain ⟨b1, b2⟩ := e3 k x hk
      refine ⟨?_, b2⟩
      intro q hq
      simp only [Bool.not_eq_true', List.any_eq_false, Bool.not_eq_true] at b1
      exact b1 q hq
  · intro ha hs p hp hk
    unfold decodeRest at h5
    simp only [ha, hs] at h5
    split at h5
    · cases h5
    · split at h5
      · cases h5
      · rename_i hne
        simp only [Bool.true_and, Bool.not_eq_true', Bool.not_eq_false, List.isEmpty_iff] at hne
        rw [restOf_filter (fun k => !s.patterns.any (fun q => q.pat.matches k)), List.map_eq_nil_iff] at hne
        by_cases hany : s.patterns.any (fun q => q.pat.matches p.1) = true
        · exact List.any_eq_true.1 hany
        · exfalso
          have : p.1 ∈ (lastWins (M.filter (fun p => kept s p.1 && !s.patterns.any (fun q => q.pat.matches p.1)))).map
              Prod.fst := by
            rw [mem_keys_lastWins]
            refine List.mem_map.2 ⟨p, List.mem_filter.2 ⟨hp, ?_⟩, rfl⟩
            rw [Bool.not_eq_true] at hany
            rw [hk, hany]; rfl
          rw [hne] at this
          cases this

end Verif
