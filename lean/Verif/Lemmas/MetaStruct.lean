import Verif.Lemmas.Meta
import Verif.Lemmas.RoundTripHTTP

/-! Structs that agree with the keywords of a schema accept the same objects. -/

namespace Verif.Meta
open Codec Spec

variable {T : Table} {N : Nums} {I : String → Prop} {env : String → Any → Prop}

theorem lastValue_nodup {M : List (String × Any)} (hM : (M.map Prod.fst).Nodup) {k : String} {x : Any}
    (h : (k, x) ∈ M) : lastValue M k = some x := by
  obtain ⟨a, ha⟩ := lastValue_of_mem (List.mem_map.2 ⟨_, h, rfl⟩)
  have h1 := GoMap.get?_of_mem (m := M) hM h
  rw [GoMap.get?_of_mem (m := M) hM (lastValue_mem ha)] at h1
  rw [ha, ← h1]

theorem kept_iff {s : Struct} (hn : s.notConsts = []) {k : String} :
    kept s k = true ↔ k ∉ s.known ∧ ∀ c, (k, c) ∉ s.consts := by
  unfold kept
  rw [hn]
  simp only [List.any_nil, Bool.or_false, Bool.not_eq_true', Bool.or_eq_false_iff, List.any_eq_false, beq_iff_eq]
  constructor
  · rintro ⟨h1, h2⟩
    refine ⟨fun h => ?_, fun c hc => h2 _ hc rfl⟩
    rw [List.contains_iff_mem.2 h] at h1
    cases h1
  · rintro ⟨h1, h2⟩
    refine ⟨?_, ?_⟩
    · cases e : s.known.contains k with
      | false => rfl
      | true => exact absurd (List.contains_iff_mem.1 e) h1
    · rintro ⟨k', c⟩ hc rfl
      exact h2 c hc

theorem accepts_of_holds {s : Struct} {P : Parsed} {M : List (String × Any)} (h : Agree T s P)
    (H : P.Holds I env M) (hn : ∀ t ∈ s.nots, ¬Can T N t (.obj M)) (he : ∀ e ∈ s.embeds, Can T N e.ty (.obj M))
    (ho : s.oneOf ≠ [] → (s.oneOf.filter (fun e => (decode T N e.ty (.obj M)).isSome)).length = 1)
    (hopen : s.additional = none → s.strict = false → ∀ k ∈ M.map Prod.fst, ∀ f, fieldOf s.fields k = some f → k = f.key)
    (ihf : ∀ f ∈ s.fields, ∀ x, (f.key, x) ∈ M → ∀ sch, tyAgree T f.ty sch = true → Ok I env sch x → Can T N f.ty x)
    (ihp : ∀ q ∈ s.patterns, ∀ k x, q.pat.matches k = true → (k, x) ∈ M → ∀ sch, tyAgree T q.ty sch = true →
      Ok I env sch x → Can T N q.ty x)
    (iha : ∀ a, s.additional = some a → ∀ k x, (∀ q ∈ s.patterns, q.pat.matches k = false) → (k, x) ∈ M →
      ∀ sch, tyAgree T a.ty sch = true → Ok I env sch x → Can T N a.ty x) : Accepts T N s M := by
  have hb := h.base
  have nopat : ∀ {k}, (∀ q ∈ s.patterns, q.pat.matches k = false) → ∀ r t, (r, t) ∈ P.pats → ¬r.Is k := by
    intro k hk r t hr
    obtain ⟨q, hq, rfl, _⟩ := h.pats2 r t hr
    rw [← matches_iff, hk q hq]
    simp
  -- every member is a property, matches a pattern or is allowed
  have own : ∀ k x, (k, x) ∈ M → ∀ f, fieldOf s.fields k = some f → k = f.key := by
    intro k x hx f hf
    rcases h.rest with ⟨a, t, ha, _⟩ | ⟨h1, h2, h3⟩ | ⟨h1, h2, _⟩
    · rw [(hb.additional (by rw [ha]; rfl)).1] at hf
      cases hf
    · by_cases hp : ∃ t, (k, t) ∈ P.props
      · obtain ⟨t, ht⟩ := hp
        rcases h.props k t ht with ⟨g, hg, rfl, _⟩ | ⟨c, hc, _⟩
        · rw [hb.own g hg] at hf
          cases hf
          rfl
        · rw [hb.consts _ hc] at hf
          cases hf
      · by_cases hq : ∃ q ∈ s.patterns, q.pat.matches k = true
        · obtain ⟨q, hq, hk⟩ := hq
          rw [hb.patFields q hq k hk] at hf
          cases hf
        · have hq' : ∀ q ∈ s.patterns, q.pat.matches k = false := by
            intro q hq'
            cases e : q.pat.matches k with
            | false => rfl
            | true => exact absurd ⟨q, hq', e⟩ hq
          have := H.addl k x hx (fun t ht => hp ⟨t, ht⟩) (nopat hq') _ h3
          simp only [Ok] at this
    · exact hopen h1 h2 k (List.mem_map.2 ⟨_, hx, rfl⟩) f hf
  refine ⟨hn, ?_, he, ho, ?_, ?_, ?_, ?_, ?_, ?_, ?_⟩
  · intro _ k x hx f hf
    have e := own k x hx f hf
    subst e
    have hfm := (fieldOf_mem' hf).1
    obtain ⟨t, ht, hag⟩ := h.fields f hfm
    exact ihf f hfm x hx _ hag (ok_strip (H.props _ x hx t ht))
  · intro k hk
    exact H.req k (h.req1 k hk)
  · intro k c hc x hx
    obtain ⟨t, ht, hcc⟩ := h.consts k c hc
    exact (ok_const hcc).1 (H.props k x (lastValue_mem hx) t ht)
  · rw [hb.notConsts]
    intro k c hc
    cases hc
  · rw [hb.forbid]
    intro k hk
    cases hk
  · intro q hq k x hx _ hk
    obtain ⟨t, ht, hag⟩ := h.pats1 q hq
    have hx := mem_lastWins hx
    exact ihp q hq k x hk hx t hag (H.pats k x hx _ t ht (matches_iff.1 hk))
  · intro a ha k x hx _ hk
    have hx := mem_lastWins hx
    rcases h.rest with ⟨a', t, ha', ht, hag⟩ | ⟨h1, _⟩ | ⟨h1, _⟩
    · rw [ha] at ha'
      cases ha'
      refine iha a ha k x hk hx t hag (H.addl k x hx ?_ (nopat hk) t ht)
      intro t' ht'
      obtain ⟨e1, e2, _⟩ := hb.additional (by rw [ha]; rfl)
      rcases h.props k t' ht' with ⟨g, hg, _⟩ | ⟨c, hc, _⟩
      · rw [e1] at hg
        cases hg
      · rw [e2] at hc
        cases hc
    · rw [ha] at h1
      cases h1
    · rw [ha] at h1
      cases h1
  · intro ha hs k hk hkept
    rw [kept_iff hb.notConsts] at hkept
    apply Classical.byContradiction
    intro hc
    have hq' : ∀ q ∈ s.patterns, q.pat.matches k = false := by
      intro q hq'
      cases e : q.pat.matches k with
      | false => rfl
      | true => exact absurd ⟨q, hq', e⟩ hc
    rcases h.rest with ⟨a', t, ha', _⟩ | ⟨_, _, h3⟩ | ⟨_, h2, _⟩
    · rw [ha] at ha'
      cases ha'
    · obtain ⟨p, hp, rfl⟩ := List.mem_map.1 hk
      have := H.addl p.1 p.2 hp ?_ (nopat hq') _ h3
      · simp only [Ok] at this
      · intro t ht
        rcases h.props _ t ht with ⟨g, hg, e, _⟩ | ⟨c, hc, _⟩
        · rcases hb.known with ⟨_, _, e'⟩ | hk
          · rw [hs] at e'
            cases e'
          · exact hkept.1 (e ▸ hk g hg)
        · exact hkept.2 c hc
    · rw [hs] at h2
      cases h2

theorem holds_of_accepts {s : Struct} {P : Parsed} {M : List (String × Any)} (h : Agree T s P)
    (H : Accepts T N s M) (hM : (M.map Prod.fst).Nodup)
    (hmin : ∀ f ∈ s.fields, ∀ x, (f.key, x) ∈ M → ∀ t, (f.key, t) ∈ P.props → hasMin t = true → x ≠ .arr [])
    (ihf : ∀ f ∈ s.fields, ∀ x, (f.key, x) ∈ M → ∀ sch, tyAgree T f.ty sch = true → Can T N f.ty x → Ok I env sch x)
    (ihp : ∀ q ∈ s.patterns, ∀ k x, q.pat.matches k = true → (k, x) ∈ M → ∀ sch, tyAgree T q.ty sch = true →
      Can T N q.ty x → Ok I env sch x)
    (iha : ∀ a, s.additional = some a → ∀ k x, (∀ q ∈ s.patterns, q.pat.matches k = false) → (k, x) ∈ M →
      ∀ sch, tyAgree T a.ty sch = true → Can T N a.ty x → Ok I env sch x) : P.Holds I env M := by
  have hb := h.base
  have hpat : ∀ {k}, (∀ r t, (r, t) ∈ P.pats → ¬r.Is k) → ∀ q ∈ s.patterns, q.pat.matches k = false := by
    intro k hk q hq
    obtain ⟨t, ht, _⟩ := h.pats1 q hq
    have := hk _ t ht
    rw [← matches_iff] at this
    simpa using this
  refine ⟨?_, ?_, ?_, ?_⟩
  · intro k hk
    exact H.require k (h.req2 k hk)
  · intro k x hx t ht
    rcases h.props k t ht with ⟨f, hf, rfl, hag, hone⟩ | ⟨c, hc, hcc⟩
    · have hd : s.decodes = true := by
        rcases hb.decodes with hd | hd
        · exact hd
        · rw [hd] at hf
          cases hf
      have := ihf f hf x hx _ hag (H.fields hd _ x hx f (hb.own f hf))
      exact ok_of_strip this hone (hmin f hf x hx t ht)
    · exact (ok_const hcc).2 (H.consts k c hc x (lastValue_nodup hM hx))
  · intro k x hx r t ht hr
    obtain ⟨q, hq, rfl, hag⟩ := h.pats2 r t ht
    have hk := matches_iff.2 hr
    exact ihp q hq k x hk hx t hag (H.patterns q hq k x (by rw [lastWins_nodup hM]; exact hx) (hb.patKept q hq k hk) hk)
  · intro k x hx hp hr t ht
    rcases h.rest with ⟨a, t', ha, ht', hag⟩ | ⟨h1, h2, h3⟩ | ⟨_, _, h3⟩
    · rw [ht] at ht'
      cases ht'
      exact iha a ha k x (hpat hr) hx t hag (H.additional a ha k x (by rw [lastWins_nodup hM]; exact hx)
        ((hb.additional (by rw [ha]; rfl)).2.2 k) (hpat hr))
    · have hk : kept s k = true := by
        rw [kept_iff hb.notConsts]
        refine ⟨?_, ?_⟩
        · intro hk
          rcases h.known with ⟨_, _, e⟩ | hkn
          · rw [h2] at e
            cases e
          · obtain ⟨t, ht⟩ := hkn k hk
            exact hp t ht
        · intro c hc
          obtain ⟨t, ht, _⟩ := h.consts k c hc
          exact hp t ht
      obtain ⟨q, hq, hm⟩ := H.strict h1 h2 k (List.mem_map.2 ⟨_, hx, rfl⟩) hk
      rw [hpat hr q hq] at hm
      cases hm
    · rw [ht] at h3
      cases h3

end Verif.Meta
