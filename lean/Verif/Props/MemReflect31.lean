import Verif.Spec.MemReflect31
import Verif.Props.Mem31

/-!
# What operation contexts share with the document in OpenAPI 3.1 (C91)
-/

namespace Verif.Mem31

open Verif.Mem

/-- Storing an operation where there is none leaves what it and the caller's objects lead to. -/
theorem assigned_same {m m' : Memory} {s : Nat} {E : Nat → Prop} {method path : String} {op : MVal} {e : Option String}
    (ha : Apart m s (fun x => E x ∨ op.Holds x))
    (hfree : ∀ r F, sanitizeMethodPath method path = .ok r → (r.method, F) ∈ fields → opAt m s r.path F = none)
    (h : setupOperation m s method path [fun m a => (m.set a (.cell op), none)] = (m', e)) :
    ∀ x, From m (fun x => E x ∨ op.Holds x) x → m'[x]? = m[x]? := by
  have hu : ∀ f ∈ [fun (m : Memory) (a : Nat) => (m.set a (Obj.cell op), (none : Option String))],
      Uses (fun x => E x ∨ op.Holds x) f := by
    intro f hf
    rcases List.mem_singleton.mp hf with rfl
    exact assign_uses E op
  cases e with
  | none =>
    obtain ⟨r, F, m2, a, m3, hsan, hF, hc, hrun, hk, hg, hal, -, -, -, hkeep, -, -, -, hap⟩ := C90_setup_ok ha hu h
    have hm3 : m3 = m2.set a (.cell op) := by
      cases hrun with
      | cons e1 e2 =>
        cases e2
        simp only [Prod.mk.injEq, and_true] at e1
        exact e1.symm
    have hla : m.length ≤ a := by
      rcases hc with ⟨hc, -⟩ | ⟨-, hc, -⟩
      · rw [hfree r F hsan hF] at hc; cases hc
      · exact hc
    intro x hx
    have hlt := hx.lt ha.closed ha.env
    have hno := ha.others x hx
    rw [hkeep x (by rw [hm3, List.length_set]; omega) (.inr ⟨hlt, hno⟩), hm3,
      List.getElem?_set_ne (by omega : a ≠ x), hk x hlt fun h => hno (.inl h)]
  | some msg =>
    rcases setup_cases ha h with ⟨_, -, rfl, -⟩ | ⟨r, F, m2, a, m3, e3, hr, hF, -, hk, -, -, -, -, -, -, hc, hrun, hend⟩
    · exact fun _ _ => rfl
    · have hm3 : m3 = m2.set a (.cell op) := by
        simp only [runAll, Prod.mk.injEq] at hrun
        exact hrun.1.symm
      have hmm : m' = m3 := by
        rcases hend with ⟨_, -, h⟩ | ⟨-, h, -⟩
        · exact h
        · cases h
      have hla : m.length ≤ a := by
        rcases hc with ⟨hc, -⟩ | ⟨-, hc, -⟩
        · rw [hfree r F hr hF] at hc; cases hc
        · exact hc
      intro x hx
      have hlt := hx.lt ha.closed ha.env
      rw [hmm, hm3, List.getElem?_set_ne (by omega : a ≠ x), hk x hlt fun h => ha.others x hx (.inl h)]

/-- What a call can have changed if it is for something new: `m` and `m'` are the memory before and after. -/
structure Adds (s : Nat) (E : Nat → Prop) (m m' : Memory) : Prop where
  apart : Apart m' s E
  keeps : ∀ x, x < m.length → ¬ Own m s x → ¬ From m E x → m'[x]? = m[x]?
  reach : ∀ x, From m' E x → From m E x ∨ m.length ≤ x
  ops : ∀ path F b, opAt m s path F = some b → opAt m' s path F = some b
  hooks : ∀ name v, hookAt m s name = some v → hookAt m' s name = some v

theorem Confined.adds {E : Nat → Prop} {m m' : Memory} {s : Nat} (hc : Confined E m m') (ha : Apart m s E) :
    Adds s E m m' := by
  obtain ⟨h1, h2, -⟩ := Confined.apart hc ha ha.others ha.env
  exact ⟨h2, fun x hx _ hn => hc.keeps x hx hn, fun x hx => hc.reach hx,
    fun path F b hb => by rw [opAt_same h1]; exact hb, fun name v hv => by rw [hookAt_same h1]; exact hv⟩

theorem responses_from {m : Memory} {E : Nat → Prop} {op : MVal} (hop : ∀ y, op.Holds y → From m E y) :
    ∀ x, (responses m op).field "MapOfResponseOrReferenceValues" = .ref x → From m E x := by
  intro c hc
  simp only [responses] at hc
  split at hc
  · rename_i r h
    have h1 : (deref m r).Holds c := field_holds (go := "MapOfResponseOrReferenceValues") (by rw [hc]; exact .ref)
    obtain ⟨o, h2, h3⟩ := deref_holds h1
    exact .step (hop r (field_holds (go := "Responses") (by rw [h]; exact .ref))) h2 h3
  · cases hc

theorem addOperation_adds {m m' : Memory} {s : Nat} {E : Nat → Prop} {method path : String} {op : MVal}
    {e : Option String} {r : Sanitized} (ha : Apart m s E) (hop : ∀ y, op.Holds y → From m E y) (hr : RespOk m op)
    (hs : ∃ fs, op = .struct fs) (hsan : sanitizeMethodPath method path = .ok r) (hrp : r.path = path)
    (h : addOperation m s method path op = (m', e)) : Adds s E m m' := by
  have hrr : ∀ x, op.field "Responses" = .ref x → From m E x := fun x h =>
    hop x (field_holds (go := "Responses") (by rw [h]; exact .ref))
  have hcc := responses_from hop
  have hap : Apart m' s E := by
    have := C90_history ha (.tail .refl (.add method path hop hr))
    rwa [h] at this
  have hFF : ∀ r' F', sanitizeMethodPath (goToLower method) path = .ok r' → (r'.method, F') ∈ fields →
      r' = r ∧ methodField (goToLower method) = some F' := by
    intro r' F' h1 h2
    have h3 := (sanitize_method h1).1
    have h4 := fields_methodField h2
    rw [h3, goToLower_idem] at h4
    rw [sanitize_lower, hsan] at h1
    cases h1
    exact ⟨rfl, h4⟩
  rcases add_cases ha hop hr h with ⟨msg, he, h1, -, h3, h4, h5, h6⟩ | ⟨F, m1, op1, hF0, h0, hpre, hset⟩
  · refine ⟨hap, fun x hx hw _ => h3 x hx fun h => hw (.inl h), fun x hx => .inl (From.same (fun y hy => ?_) hx),
      fun path' F' b hb => ?_, fun name v hv => by rw [h5]; exact hv⟩
    · exact h3 y (hy.lt ha.closed ha.env) fun h => ha.others y hy (.inl h)
    · simp only [opAt, h4]; exact hb
  · have hsm := assigned_same hpre.apart (fun r' F' h1 h2 => by
      obtain ⟨rfl, h3⟩ := hFF r' F' h1 h2
      rw [hF0] at h3; cases h3
      simp only [opAt, hpre.items, hrp]
      exact h0) hset
    have hreach : ∀ x, From m' E x → From m E x ∨ m.length ≤ x := by
      intro x hx
      have h1 : From m' (fun x => E x ∨ op1.Holds x) x := hx.mono fun y hy => .root (.inl hy)
      exact hpre.reach x (From.same hsm h1)
    cases e with
    | some msg =>
      obtain ⟨j1, j2, -, j4, -⟩ := C90_add_error ha hop hr h
      refine ⟨hap, fun x hx hw hn => ?_, hreach, fun path' F' b hb => ?_, fun name v hv => by rw [j2]; exact hv⟩
      · rcases j4 x hx fun h => hw (.inl h) with h1 | ⟨-, h1 | h1⟩ | ⟨r', F', h1, h2, h3⟩
        · exact h1
        · exact absurd (hrr x h1) hn
        · exact absurd (hcc x h1) hn
        · obtain ⟨rfl, h4⟩ := hFF r' F' h1 h2
          rw [hF0] at h4; cases h4
          rw [hrp, h0] at h3; cases h3
      · simp only [opAt, j1]; exact hb
    | none =>
      obtain ⟨r', F', a, h1, h2, -, j1, j2, j3, -, -, -, -, -, j8, -⟩ := C90_add_ok ha hop hr hs h
      obtain ⟨rfl, h4⟩ := hFF r' F' h1 h2
      rw [hF0] at h4; cases h4
      rw [hrp, h0] at j1
      have hla : m.length ≤ a := by
        rcases j1 with h | h
        · cases h
        · exact h.2
      refine ⟨hap, fun x hx hw hn => ?_, hreach, fun path' F' b hb => ?_, fun name v hv => by rw [j3]; exact hv⟩
      · rcases j8 x hx hw (by omega) with h1 | ⟨-, h1 | h1⟩
        · exact h1
        · exact absurd (hrr x h1) hn
        · exact absurd (hcc x h1) hn
      · rw [j2]
        split
        · rename_i hpf
          rw [hpf.1, hpf.2, hrp, h0] at hb
          cases hb
        · exact hb

theorem addWebhook_adds {m m' : Memory} {s : Nat} {E : Nat → Prop} {method name : String} {op : MVal}
    {e : Option String} (ha : Apart m s E) (hop : ∀ y, op.Holds y → From m E y) (hr : RespOk m op)
    (h : addWebhook m s method name op = (m', e)) : Adds s E m m' := by
  have hrr : ∀ x, op.field "Responses" = .ref x → From m E x := fun x h =>
    hop x (field_holds (go := "Responses") (by rw [h]; exact .ref))
  have hcc := responses_from hop
  have hap : Apart m' s E := by
    have := C90_history ha (.tail .refl (.hook method name hop hr))
    rwa [h] at this
  rcases hook_cases ha hop hr h with ⟨v, -, rfl, -⟩ | ⟨h0, m1, op1, hpre, hown, hc⟩
  · exact ⟨ha, fun _ _ _ _ => rfl, fun x hx => .inl hx, fun _ _ _ hb => hb, fun _ _ hv => hv⟩
  · have hkeep1 : ∀ x, x < m.length → ¬ Own m s x → ¬ From m E x → m1[x]? = m[x]? := by
      intro x hx hw hn
      rcases hpre.keeps x hx fun h => hw (.inl h) with h1 | ⟨-, h1 | h1⟩
      · exact h1
      · exact absurd (hrr x h1) hn
      · exact absurd (hcc x h1) hn
    have hown1 : ∀ x, x < m.length → ¬ Own m s x → ¬ Own m1 s x := by
      intro x hx hw h
      rcases hpre.own x h with h | h
      · exact hw h
      · omega
    have hgr := hpre.grows
    rcases hc with ⟨_, -, -, rfl⟩ | ⟨F, m2, m3, g, hF, -, hm2, hset, hm'⟩
    · refine ⟨hap, hkeep1, fun x hx => hpre.reach x (hx.mono fun y hy => .root (.inl hy)), fun path F b hb => ?_,
        fun name v hv => by rw [hpre.hooks]; exact hv⟩
      simp only [opAt, hpre.items]; exact hb
    · obtain ⟨k1, k2, -, -, -, k6, -⟩ := hook_stored hpre.apart hm2 hset hm'
      have hsm : ∀ x, From m1 (fun x => E x ∨ op1.Holds x) x → m'[x]? = m1[x]? := fun x hx =>
        k6 x (hx.lt hpre.apart.closed hpre.apart.env) (hpre.apart.others x hx)
      refine ⟨hap, fun x hx hw hn => ?_, fun x hx => ?_, fun path F b hb => ?_, fun name' v hv => ?_⟩
      · rw [k6 x (by omega) (hown1 x hx hw), hkeep1 x hx hw hn]
      · have h1 : From m' (fun x => E x ∨ op1.Holds x) x := hx.mono fun y hy => .root (.inl hy)
        exact hpre.reach x (From.same hsm h1)
      · simp only [opAt, k2, hpre.items]; exact hb
      · rw [k1, hpre.hooks]
        split
        · rename_i hn
          rw [hn, h0] at hv; cases hv
        · exact hv

theorem deref_from {m : Memory} {c : Nat} {E : Nat → Prop} : ∀ y, (deref m c).Holds y → From m (fun x => x = c ∨ E x) y := by
  intro y hy
  obtain ⟨o, h1, h2⟩ := deref_holds hy
  exact .step (.root (.inl rfl)) h1 h2

theorem field_ref {m : Memory} {q x : Nat} {go : String} (h : (deref m q).field go = .ref x) :
    ∃ fs, m[q]? = some (.cell (.struct fs)) := by
  simp only [deref] at h
  split at h
  · rename_i v hv
    cases v with
    | struct fs => exact ⟨fs, hv⟩
    | _ => cases h
  · cases h

theorem entries_ne {m : Memory} {v : MVal} (h : entries m v ≠ []) : ∃ c es, v = .ref c ∧ m[c]? = some (.map es) := by
  cases he : entries m v with
  | nil => exact absurd he h
  | cons p ps =>
    obtain ⟨c, es, h1, h2, -⟩ := entries_mem (m := m) (v := v) (k := p.1) (w := p.2) (by rw [he]; exact List.mem_cons_self)
    exact ⟨c, es, h1, h2⟩

/-- What is at an address is still an operation if it is the same, and its responses are the same or have a response. -/
theorem isOp_after {m m' : Memory} {c : Nat} (hi : IsOp m c) (hd : deref m' c = deref m c)
    (hq : ∀ q, (deref m c).field "Responses" = .ref q → m'[q]? = m[q]? ∧
        (∀ x, (deref m q).field "MapOfResponseOrReferenceValues" = .ref x → m'[x]? = m[x]?) ∨
      entries m' ((deref m' q).field "MapOfResponseOrReferenceValues") ≠ []) : IsOp m' c := by
  obtain ⟨hs, hc, hne⟩ := hi
  refine ⟨by rw [hd]; exact hs, ?_, by rw [hd]; exact hne⟩
  rw [hd]
  refine hc.imp_right ?_
  rintro ⟨q, fs, h1, h2, h3⟩
  rcases hq q h1 with ⟨k1, k2⟩ | k1
  · have hdq : deref m q = .struct fs := by simp only [deref, h2]
    refine ⟨q, fs, h1, by rw [k1]; exact h2, h3.imp_right ?_⟩
    rintro ⟨x, es, h4, h5⟩
    exact ⟨x, es, h4, by rw [k2 x (by rw [hdq]; exact h4)]; exact h5⟩
  · obtain ⟨x, es, h4, h5⟩ := entries_ne k1
    obtain ⟨fs', h6⟩ := field_ref h4
    refine ⟨q, fs', h1, h6, .inr ⟨x, es, ?_, h5⟩⟩
    simp only [deref, h6] at h4
    exact h4

/-- The context's operation is not written by `Spec.AddOperation`, and can be used again. -/
theorem addOperation_isOp {m m' : Memory} {s c : Nat} {E : Nat → Prop} {method path : String} {r : Sanitized}
    (ha : Apart m s E) (he : E c) (hi : IsOp m c)
    (hsan : sanitizeMethodPath method path = .ok r) (hrp : r.path = path)
    (h : addOperation m s method path (deref m c) = (m', none)) :
    deref m' c = deref m c ∧ IsOp m' c := by
  have hop : ∀ y, (deref m c).Holds y → From m E y := by
    intro y hy
    obtain ⟨o, h1, h2⟩ := deref_holds hy
    exact .step (.root he) h1 h2
  obtain ⟨hs, hc, hne⟩ := hi
  obtain ⟨r', F, a, j1, -, j3, j4, -, -, -, -, j9, -, j11, j12, -⟩ := C90_add_ok ha hop hc hs h
  rw [sanitize_lower, hsan] at j1
  cases j1
  rw [hrp, j3] at j4
  rw [hrp] at j11
  have hla : m.length ≤ a := by
    rcases j4 with h | h
    · cases h
    · exact h.2
  have hsame : ∀ x, From m E x → m'[x]? = m[x]? ∨ NoResponse m (deref m c) ∧
      ((deref m c).field "Responses" = .ref x ∨
        (responses m (deref m c)).field "MapOfResponseOrReferenceValues" = .ref x) := by
    intro x hx
    have := hx.lt ha.closed ha.env
    exact j12 x this (ha.others x hx) (by omega)
  have hd : deref m' c = deref m c := by
    rcases hsame c (.root he) with h1 | ⟨-, h1 | h1⟩
    · exact deref_same h1
    · exact absurd h1 hne
    · exfalso
      rcases hc with h2 | ⟨q, fs, h2, h3, h4⟩
      · simp only [responses, h2] at h1; cases h1
      · have hdq : deref m q = .struct fs := by simp only [deref, h3]
        simp only [responses, h2, hdq] at h1
        rcases h4 with h4 | ⟨x, es, h4, h5⟩
        · rw [h4] at h1; cases h1
        · rw [h4] at h1; cases h1
          obtain ⟨gs, hs⟩ := hs
          simp only [deref, h5] at hs
          cases hs
  refine ⟨hd, isOp_after ⟨hs, hc, hne⟩ hd fun q hq => ?_⟩
  have hresp : ∀ n : Memory, responses n (deref m c) = deref n q := fun n => by simp only [responses, hq]
  by_cases hn : NoResponse m (deref m c)
  · right
    obtain ⟨⟨d, k1, -⟩, -⟩ := j11 hn fun b hb => by rw [j3] at hb; cases hb
    rw [j9 q hq, hresp] at k1
    rw [k1]
    simp
  · left
    have hqf : From m E q := hop q (field_holds (go := "Responses") (by rw [hq]; exact .ref))
    refine ⟨?_, fun x hx => ?_⟩
    · rcases hsame q hqf with h1 | ⟨h1, -⟩
      · exact h1
      · exact absurd h1 hn
    · have hxf : From m E x := responses_from hop x (by rw [hresp]; exact hx)
      rcases hsame x hxf with h1 | ⟨h1, -⟩
      · exact h1
      · exact absurd h1 hn

theorem Adds.trans {m m1 m' : Memory} {s : Nat} {E : Nat → Prop} (ha : Apart m s E) (hc : Confined E m m1)
    (h : Adds s E m1 m') : Adds s E m m' := by
  obtain ⟨hown, -, -⟩ := Confined.apart hc ha ha.others ha.env
  have hg := hc.grows
  refine ⟨h.apart, fun x hx hw hn => ?_, fun x hx => ?_, fun path F b hb => ?_, fun name v hv => ?_⟩
  · rw [h.keeps x (by omega) (fun hw' => hw ((own_same hown x).mp hw')) fun hf => ?_, hc.keeps x hx hn]
    rcases hc.reach hf with h | h
    · exact hn h
    · omega
  · rcases h.reach x hx with h | h
    · exact hc.reach h
    · exact .inr (by omega)
  · exact h.ops path F b (by rw [opAt_same hown]; exact hb)
  · exact h.hooks name v (by rw [hookAt_same hown]; exact hv)

theorem reflectorAdd_adds {m m' : Memory} {s c : Nat} {E : Nat → Prop} {method path : String} {f : MSetup}
    {e : Option String} {r : Sanitized} (ha : Apart m s (fun x => x = c ∨ E x)) (hi : IsOp m c) (hf : Reflects E f)
    (hsan : sanitizeMethodPath method path = .ok r) (hrp : r.path = path)
    (h : reflectorAdd m s c method path f = (m', e)) : Adds s (fun x => x = c ∨ E x) m m' := by
  have hcf := hf.1 m c
  obtain ⟨hown, hap, -⟩ := Confined.apart hcf ha ha.others ha.env
  cases hr : f m c with
  | mk m1 e1 =>
    rw [hr] at hcf hown hap
    simp only [reflectorAdd, hr] at h
    simp only at hcf hown hap
    cases e1 with
    | some e1 =>
      cases h
      exact Confined.adds hcf ha
    | none =>
      obtain ⟨hs, hc, hne⟩ := hf.2 m c m1 hi hr
      exact Adds.trans ha hcf (addOperation_adds hap deref_from hc hs hsan hrp h)

theorem reflectorHook_adds {m m' : Memory} {s c : Nat} {E : Nat → Prop} {method name : String} {f : MSetup}
    {e : Option String} (ha : Apart m s (fun x => x = c ∨ E x)) (hi : IsOp m c) (hf : Reflects E f)
    (h : reflectorHook m s c method name f = (m', e)) : Adds s (fun x => x = c ∨ E x) m m' := by
  have hcf := hf.1 m c
  obtain ⟨hown, hap, -⟩ := Confined.apart hcf ha ha.others ha.env
  cases hr : f m c with
  | mk m1 e1 =>
    rw [hr] at hcf hown hap
    simp only [reflectorHook, hr] at h
    simp only at hcf hown hap
    cases e1 with
    | some e1 =>
      cases h
      exact Confined.adds hcf ha
    | none =>
      obtain ⟨hs, hc, hne⟩ := hf.2 m c m1 hi hr
      exact Adds.trans ha hcf (addWebhook_adds hap deref_from hc h)

/-- C91: when `Reflector.AddOperation` does not succeed, the document has the same path items and webhooks as before, and
only the `Spec` and what the context and the objects of the reflection lead to can have changed. -/
theorem C91_error {m m' : Memory} {s c : Nat} {E : Nat → Prop} {method path e : String} {f : MSetup} {r : Sanitized}
    (ha : Apart m s (fun x => x = c ∨ E x)) (hi : IsOp m c) (hf : Reflects E f)
    (hsan : sanitizeMethodPath method path = .ok r) (hrp : r.path = path)
    (h : reflectorAdd m s c method path f = (m', some e)) :
    (∀ path', itemAt m' s path' = itemAt m s path') ∧ (∀ name, hookAt m' s name = hookAt m s name) ∧
    (∀ go, go ≠ "Paths" → (deref m' s).field go = (deref m s).field go) ∧
    (∀ x, x < m.length → x ≠ s → ¬ From m (fun x => x = c ∨ E x) x → m'[x]? = m[x]?) := by
  have hcf := hf.1 m c
  obtain ⟨hown, hap, -⟩ := Confined.apart hcf ha ha.others ha.env
  cases hr : f m c with
  | mk m1 e1 =>
    rw [hr] at hcf hown hap
    simp only [reflectorAdd, hr] at h
    simp only at hcf hown hap
    cases e1 with
    | some e1 =>
      cases h
      exact ⟨itemAt_same hown, hookAt_same hown, fun go _ => by rw [deref_same (hown s (.inl rfl))],
        fun x hx _ hn => hcf.keeps x hx hn⟩
    | none =>
      obtain ⟨hs, hc, hne⟩ := hf.2 m c m1 hi hr
      obtain ⟨j1, j2, j3, j4, -⟩ := C90_add_error hap deref_from hc h
      have hg := hcf.grows
      refine ⟨fun q => by rw [j1, itemAt_same hown], fun q => by rw [j2, hookAt_same hown],
        fun go hgo => by rw [j3 go hgo, deref_same (hown s (.inl rfl))], fun x hx hxs hn => ?_⟩
      have hnf : ¬ From m1 (fun x => x = c ∨ E x) x := by
        intro hf
        rcases hcf.reach hf with h | h
        · exact hn h
        · omega
      rw [← hcf.keeps x hx hn]
      rcases j4 x (by omega) hxs with h1 | ⟨-, h1 | h1⟩ | ⟨r', F, h1, h2, h3⟩
      · exact h1
      · exact absurd (deref_from _ (field_holds (go := "Responses") (by rw [h1]; exact .ref))) hnf
      · exact absurd (responses_from deref_from x h1) hnf
      · -- the path is as contexts have it, so it was noticed as taken
        have h4 := (sanitize_method h1).1
        rw [sanitize_lower, hsan] at h1
        cases h1
        rw [h4, goToLower_idem] at h2
        rw [hrp] at h3
        simp only [C90_add_exists hap h2 h3, Prod.mk.injEq] at h
        rw [h.1]

/-- C91: when it succeeds, there is a new operation at the path and method: the struct of the context's operation (unless
that has no responses), so it shares with the context everything this refers to. Everything else is as before. -/
theorem C91_ok {m m' : Memory} {s c : Nat} {E : Nat → Prop} {method path : String} {f : MSetup} {r : Sanitized}
    (ha : Apart m s (fun x => x = c ∨ E x)) (hi : IsOp m c) (hf : Reflects E f)
    (hsan : sanitizeMethodPath method path = .ok r) (hrp : r.path = path)
    (h : reflectorAdd m s c method path f = (m', none)) :
    ∃ m1 F a, f m c = (m1, none) ∧ (r.method, F) ∈ fields ∧ opAt m s path F = none ∧ m.length ≤ a ∧
      (∀ path' F', opAt m' s path' F' = if path' = path ∧ F' = F then some a else opAt m s path' F') ∧
      (∀ name, hookAt m' s name = hookAt m s name) ∧
      ((deref m1 c).field "Responses" ≠ .nil → deref m' a = deref m1 c) ∧
      (∀ go, go ≠ "Responses" → (deref m' a).field go = (deref m1 c).field go) ∧
      (¬ NoResponse m1 (deref m1 c) → ∀ k, tree m' (k + 1) (.ref a) = tree m1 k (deref m1 c)) ∧
      deref m' c = deref m1 c ∧ IsOp m' c ∧ Apart m' s (fun x => x = a ∨ x = c ∨ E x) := by
  have hcf := hf.1 m c
  obtain ⟨hown, hap, -⟩ := Confined.apart hcf ha ha.others ha.env
  cases hr : f m c with
  | mk m1 e1 =>
    rw [hr] at hcf hown hap
    simp only [reflectorAdd, hr] at h
    simp only at hcf hown hap
    cases e1 with
    | some e1 => cases h
    | none =>
      obtain ⟨hs, hc, hne⟩ := hf.2 m c m1 hi hr
      obtain ⟨r', F, a, j1, j2, j3, j4, j5, j6, j7, j8, j9, j10, j11, j12, j13⟩ := C90_add_ok hap deref_from hc hs h
      have hg := hcf.grows
      have hr' := (sanitize_method j1).1
      rw [sanitize_lower, hsan] at j1
      cases j1
      rw [hrp] at j4 j5 j8 j11
      rw [j3] at j4
      have hla : m1.length ≤ a := by
        rcases j4 with h | h
        · cases h
        · exact h.2
      have hfree : ∀ b, opAt m1 s path F = some b → ¬ From m1 (fun x => x = c ∨ E x) b := by
        intro b hb
        rw [j3] at hb; cases hb
      have hnil : (deref m1 c).field "Responses" ≠ .nil → deref m' a = deref m1 c := by
        intro hne
        rcases hc with h | ⟨q, _, h, -⟩
        · exact absurd h hne
        · exact j9 q h
      refine ⟨m1, F, a, rfl, j2, ?_, by omega, ?_, ?_, hnil, j10, fun hn => j8 hn hfree, ?_, ?_, j13⟩
      · rw [← opAt_same hown]; exact j3
      · intro path' F'
        rw [j5, opAt_same hown]
      · intro name
        rw [j6, hookAt_same hown]
      · exact (addOperation_isOp hap (.inl rfl) ⟨hs, hc, hne⟩ hsan hrp h).1
      · exact (addOperation_isOp hap (.inl rfl) ⟨hs, hc, hne⟩ hsan hrp h).2

/-- C91: when `Reflector.AddWebhook` does not succeed, the document has the same path items and webhooks as before, and
only what the context and the objects of the reflection lead to can have changed. -/
theorem C91_hook_error {m m' : Memory} {s c : Nat} {E : Nat → Prop} {method name e : String} {f : MSetup}
    (ha : Apart m s (fun x => x = c ∨ E x)) (hi : IsOp m c) (hf : Reflects E f)
    (h : reflectorHook m s c method name f = (m', some e)) :
    (∀ path, itemAt m' s path = itemAt m s path) ∧ (∀ name', hookAt m' s name' = hookAt m s name') ∧
    (∀ x, x < m.length → ¬ From m (fun x => x = c ∨ E x) x → m'[x]? = m[x]?) := by
  have hcf := hf.1 m c
  obtain ⟨hown, hap, -⟩ := Confined.apart hcf ha ha.others ha.env
  cases hr : f m c with
  | mk m1 e1 =>
    rw [hr] at hcf hown hap
    simp only [reflectorHook, hr] at h
    simp only at hcf hown hap
    cases e1 with
    | some e1 =>
      cases h
      exact ⟨itemAt_same hown, hookAt_same hown, fun x hx hn => hcf.keeps x hx hn⟩
    | none =>
      obtain ⟨hs, hc, hne⟩ := hf.2 m c m1 hi hr
      obtain ⟨-, j1, j2, j4, -⟩ := C90_hook_error hap deref_from hc h
      have hg := hcf.grows
      refine ⟨fun q => by rw [j1, itemAt_same hown], fun q => by rw [j2, hookAt_same hown], fun x hx hn => ?_⟩
      have hnf : ¬ From m1 (fun x => x = c ∨ E x) x := by
        intro hf
        rcases hcf.reach hf with h | h
        · exact hn h
        · omega
      rw [← hcf.keeps x hx hn]
      rcases j4 x (by omega) with h1 | ⟨-, h1 | h1⟩
      · exact h1
      · exact absurd (deref_from _ (field_holds (go := "Responses") (by rw [h1]; exact .ref))) hnf
      · exact absurd (responses_from deref_from x h1) hnf

/-- C91: when it succeeds, there is a webhook of that name, a new path item with a new operation: the struct of the
context's operation (unless that has no responses). Everything else is as before. -/
theorem C91_hook_ok {m m' : Memory} {s c : Nat} {E : Nat → Prop} {method name : String} {f : MSetup}
    (ha : Apart m s (fun x => x = c ∨ E x)) (hi : IsOp m c) (hf : Reflects E f)
    (h : reflectorHook m s c method name f = (m', none)) :
    ∃ m1 F i a, f m c = (m1, none) ∧ (goToLower method, F) ∈ fields ∧ hookAt m s name = none ∧
      m.length ≤ a ∧ m.length ≤ i ∧
      (∀ name', hookAt m' s name' =
        if name' = name then some (.struct [("PathItem", .ref i)]) else hookAt m s name') ∧
      deref m' i = .struct [(F, .ref a)] ∧ (∀ path, itemAt m' s path = itemAt m s path) ∧
      ((deref m1 c).field "Responses" ≠ .nil → deref m' a = deref m1 c) ∧
      (∀ go, go ≠ "Responses" → (deref m' a).field go = (deref m1 c).field go) ∧
      (¬ NoResponse m1 (deref m1 c) → ∀ k, tree m' (k + 1) (.ref a) = tree m1 k (deref m1 c)) ∧
      Apart m' s (fun x => x = a ∨ x = i ∨ x = c ∨ E x) := by
  have hcf := hf.1 m c
  obtain ⟨hown, hap, -⟩ := Confined.apart hcf ha ha.others ha.env
  cases hr : f m c with
  | mk m1 e1 =>
    rw [hr] at hcf hown hap
    simp only [reflectorHook, hr] at h
    simp only at hcf hown hap
    cases e1 with
    | some e1 => cases h
    | none =>
      obtain ⟨hs, hc, hne⟩ := hf.2 m c m1 hi hr
      obtain ⟨F, i, a, j1, j2, j3, j4, -, j5, j6, j7, -, j8, j9, j10, -, -, j11⟩ := C90_hook_ok hap deref_from hc h
      have hg := hcf.grows
      refine ⟨m1, F, i, a, rfl, j1, ?_, by omega, by omega, ?_, j6, ?_, ?_, j10, fun hn => (j8 hn).2, j11⟩
      · rw [← hookAt_same hown]; exact j2
      · intro name'
        rw [j5, hookAt_same hown]
      · intro path
        rw [j7, itemAt_same hown]
      · intro hne
        rcases hc with h | ⟨q, _, h, -⟩
        · exact absurd h hne
        · exact j9 q h

/-- C91: a second call with the same context, or with another one for the same path and method, fails. -/
theorem C91_again {m : Memory} {s c b : Nat} {E : Nat → Prop} {method path F : String} {f : MSetup} {r : Sanitized}
    (ha : Apart m s (fun x => x = c ∨ E x)) (hi : IsOp m c) (hf : Reflects E f)
    (hsan : sanitizeMethodPath method path = .ok r) (hrp : r.path = path) (hF : (r.method, F) ∈ fields)
    (hop : opAt m s path F = some b) : ∃ m' e, reflectorAdd m s c method path f = (m', some e) := by
  cases hr : reflectorAdd m s c method path f with
  | mk m' e =>
    cases e with
    | some e => exact ⟨m', e, rfl⟩
    | none =>
      obtain ⟨_, F', _, _, h1, h2, _⟩ := C91_ok ha hi hf hsan hrp hr
      have := fields_methodField hF
      rw [fields_methodField h1] at this
      cases this
      rw [hop] at h2; cases h2

/-- C91: a new context shares nothing. -/
theorem C91_new_context {m : Memory} {s : Nat} {E : Nat → Prop} (ha : Apart m s E) :
    Apart (newContext m).1 s (fun x => x = (newContext m).2 ∨ E x) ∧ IsOp (newContext m).1 (newContext m).2 ∧
    (∀ x, Own m s x → (newContext m).1[x]? = m[x]?) ∧
    ∀ x, From (newContext m).1 (fun x => x = (newContext m).2 ∨ E x) x → x = (newContext m).2 ∨ From m E x := by
  have hcf : Confined E m (newContext m).1 := .alloc m _ fun y hy => by
    cases hy with | cell hy => cases hy with | field h _ => cases h
  obtain ⟨h1, h2, h3⟩ := Confined.apart hcf ha ha.others ha.env
  have hfrom : ∀ x, From (newContext m).1 (fun x => x = (newContext m).2 ∨ E x) x →
      x = (newContext m).2 ∨ From m E x := by
    intro x hx
    induction hx with
    | root h => exact h.imp id .root
    | @step x o y _ ho hy ih =>
      rcases ih with h | h
      · subst h
        simp only [newContext, getElem?_append_new] at ho
        cases ho
        cases hy with | cell hy => cases hy with | field h _ => cases h
      · have hl := h.lt ha.closed ha.env
        simp only [newContext, getElem?_append_old _ _ hl] at ho
        exact .inr (.step h ho hy)
  have hd : deref (newContext m).1 (newContext m).2 = .struct [] := by
    simp only [newContext, deref, getElem?_append_new]
  refine ⟨{ h2 with env := ?_, others := ?_ }, ⟨⟨[], hd⟩, .inl (by rw [hd]; rfl), by rw [hd]; nofun⟩, h1, hfrom⟩
  · rintro x (rfl | hx)
    · simp [newContext]
    · exact h2.env x hx
  · intro x hx hw
    rw [own_same h1] at hw
    rcases hfrom x hx with h | h
    · have := ha.own_lt hw
      simp only [newContext] at h
      omega
    · exact ha.others x h hw

/-- What was in the document is there after a call with a new context, and reads the same if it shares nothing with the
objects the reflections use. -/
theorem adds_keeps {m m' : Memory} {s : Nat} {E : Nat → Prop} (ha : Apart m s E)
    (h : Adds s (fun x => x = (newContext m).2 ∨ E x) (newContext m).1 m') :
    Apart m' s E ∧ (∀ path F b, opAt m s path F = some b → opAt m' s path F = some b) ∧
    (∀ name v, hookAt m s name = some v → hookAt m' s name = some v) ∧
    ∀ v, (∀ x, From m v.Holds x → ¬ Own m s x) → Separate m v E →
      Separate m' v E ∧ (∀ x, From m v.Holds x → m'[x]? = m[x]?) := by
  obtain ⟨a2, -, h1, f2⟩ := C91_new_context ha
  refine ⟨h.apart.mono fun x hx => .inr hx, fun path F b hb => h.ops path F b (by rw [opAt_same h1]; exact hb),
    fun name v hv => h.hooks name v (by rw [hookAt_same h1]; exact hv), fun v hv hsep => ?_⟩
  have hobj : ∀ x, From m v.Holds x → m'[x]? = m[x]? := by
    intro x hx
    obtain ⟨hl, hn⟩ := hsep x hx
    have hl' : x < (newContext m).1.length := by simp only [newContext, List.length_append, List.length_singleton]; omega
    have hnc : (newContext m).1[x]? = m[x]? := getElem?_append_old _ _ hl
    rw [h.keeps x hl' (fun hw => hv x hx ((own_same h1 x).mp hw)) fun hf => ?_, hnc]
    rcases f2 x hf with h | h
    · simp only [newContext] at h; omega
    · exact hn h
  refine ⟨fun x hx => ?_, hobj⟩
  have hx1 : From m v.Holds x := hx.same hobj
  obtain ⟨hl, hn⟩ := hsep x hx1
  refine ⟨?_, fun hf => ?_⟩
  · have := hobj x hx1
    rw [List.getElem?_eq_getElem hl] at this
    exact (List.getElem?_eq_some_iff.mp this).1
  · rcases h.reach x (hf.mono fun y hy => .root (.inr hy)) with h | h
    · rcases f2 x h with h | h
      · simp only [newContext] at h; omega
      · exact hn h
    · simp only [newContext, List.length_append, List.length_singleton] at h
      omega

theorem added_adds {m1 m' : Memory} {s : Nat} {E : Nat → Prop} (ha : Apart m1 s E)
    (h : (∃ method path r f, sanitizeMethodPath method path = .ok r ∧ Reflects E f ∧
        m' = (reflectorAdd (newContext m1).1 s (newContext m1).2 r.method r.path f).1) ∨
      ∃ method name f, Reflects E f ∧ m' = (reflectorHook (newContext m1).1 s (newContext m1).2 method name f).1) :
    Adds s (fun x => x = (newContext m1).2 ∨ E x) (newContext m1).1 m' := by
  obtain ⟨a2, i2, -, -⟩ := C91_new_context ha
  rcases h with ⟨method, path, r, f, hr, hf, rfl⟩ | ⟨method, name, f, hf, rfl⟩
  · exact reflectorAdd_adds a2 i2 hf (C03_idempotent method path r hr) rfl rfl
  · exact reflectorHook_adds a2 i2 hf rfl

/-- C91: whatever operations and webhooks are added with new contexts, successfully or not, an operation that is in the
document stays, and reads the same if it shares nothing with the objects the reflections use. -/
theorem C91_others {m m' : Memory} {s b : Nat} {E : Nat → Prop} (ha : Apart m s E) (h : Added s E m m')
    {path F : String} (hop : opAt m s path F = some b) (hsep : Separate m (.ref b) E) :
    Apart m' s E ∧ opAt m' s path F = some b ∧ Separate m' (.ref b) E ∧ ∀ k, tree m' k (.ref b) = tree m k (.ref b) := by
  have key : ∀ {m1 m2 : Memory}, Apart m1 s E → opAt m1 s path F = some b → Separate m1 (.ref b) E →
      (∀ k, tree m1 k (.ref b) = tree m k (.ref b)) →
      Adds s (fun x => x = (newContext m1).2 ∨ E x) (newContext m1).1 m2 →
      Apart m2 s E ∧ opAt m2 s path F = some b ∧ Separate m2 (.ref b) E ∧
        ∀ k, tree m2 k (.ref b) = tree m k (.ref b) := by
    intro m1 m2 a1 o1 s1 t1 hadd
    obtain ⟨k1, k2, -, k4⟩ := adds_keeps a1 hadd
    obtain ⟨k5, k6⟩ := k4 (.ref b) (fun x hx => by
      cases hi : itemAt m1 s path with
      | none => simp only [opAt, hi, Option.bind_none] at o1; cases o1
      | some item =>
        simp only [opAt, hi, Option.bind_some] at o1
        refine a1.inner path item x hi (hx.mono fun y hy => ?_)
        cases hy
        exact .root (pointee_holds o1)) s1
    exact ⟨k1, k2 path F b o1, k5, fun k => by rw [tree_same k _ k6, t1]⟩
  induction h with
  | refl => exact ⟨ha, hop, hsep, fun _ => rfl⟩
  | @add m1 method path r f _ hr hf ih =>
    obtain ⟨a1, o1, s1, t1⟩ := ih
    exact key a1 o1 s1 t1 (added_adds a1 (.inl ⟨method, path, r, f, hr, hf, rfl⟩))
  | @hook m1 method name r f _ hr hf ih =>
    obtain ⟨a1, o1, s1, t1⟩ := ih
    exact key a1 o1 s1 t1 (added_adds a1 (.inr ⟨r.method, r.path, f, hf, rfl⟩))

/-- C91: the same for webhooks. -/
theorem C91_others_hook {m m' : Memory} {s : Nat} {E : Nat → Prop} (ha : Apart m s E) (h : Added s E m m')
    {name : String} {v : MVal} (hv : hookAt m s name = some v) (hsep : Separate m v E) :
    Apart m' s E ∧ hookAt m' s name = some v ∧ Separate m' v E ∧ ∀ k, tree m' k v = tree m k v := by
  have key : ∀ {m1 m2 : Memory}, Apart m1 s E → hookAt m1 s name = some v → Separate m1 v E →
      (∀ k, tree m1 k v = tree m k v) →
      Adds s (fun x => x = (newContext m1).2 ∨ E x) (newContext m1).1 m2 →
      Apart m2 s E ∧ hookAt m2 s name = some v ∧ Separate m2 v E ∧ ∀ k, tree m2 k v = tree m k v := by
    intro m1 m2 a1 o1 s1 t1 hadd
    obtain ⟨k1, -, k3, k4⟩ := adds_keeps a1 hadd
    obtain ⟨k5, k6⟩ := k4 v (fun x hx => a1.hookInner name v x o1 hx) s1
    exact ⟨k1, k3 name v o1, k5, fun k => by rw [tree_same k _ k6, t1]⟩
  induction h with
  | refl => exact ⟨ha, hv, hsep, fun _ => rfl⟩
  | @add m1 method path r f _ hr hf ih =>
    obtain ⟨a1, o1, s1, t1⟩ := ih
    exact key a1 o1 s1 t1 (added_adds a1 (.inl ⟨method, path, r, f, hr, hf, rfl⟩))
  | @hook m1 method name r f _ hr hf ih =>
    obtain ⟨a1, o1, s1, t1⟩ := ih
    exact key a1 o1 s1 t1 (added_adds a1 (.inr ⟨r.method, r.path, f, hf, rfl⟩))

/-- A reflection that adds a response: `op.ResponsesEns().WithMapOfResponseOrReferenceValuesItem(code, v)`. -/
def respond (code : String) (v : MVal) : MSetup := fun m a =>
  let (m, op, r) := responsesEns m (deref m a)
  let m := m.set a (.cell op)
  let (m, f) := setItem m ((deref m r).field "MapOfResponseOrReferenceValues") code v
  (m.set r (.cell ((deref m r).setField "MapOfResponseOrReferenceValues" f)), none)

theorem respond_uses (E : Nat → Prop) (code : String) (v : MVal) (hv : ∀ y, ¬ v.Holds y) : Uses E (respond code v) := by
  intro m a
  -- the responses exist afterwards
  have hA : ∀ m1 op r, responsesEns m (deref m a) = (m1, op, r) →
      Confined (fun x => x = a ∨ E x) m (m1.set a (.cell op)) ∧
      (From m (fun x => x = a ∨ E x) r ∨ m.length ≤ r ∧ r < (m1.set a (.cell op)).length) := by
    intro m1 op r h
    have hdf : ∀ y, (deref m a).Holds y → From m (fun x => x = a ∨ E x) y := deref_from
    simp only [responsesEns] at h
    split at h
    · rename_i r' hr'
      cases h
      refine ⟨(assign_confined m a (deref m a)).mono ?_, .inl (hdf _ (field_holds (go := "Responses") (by rw [hr']; exact .ref)))⟩
      rintro x (rfl | h)
      · exact .root (.inl rfl)
      · exact hdf x h
    · cases h
      have h1 : Confined (fun x => x = a ∨ E x) m (m ++ [.cell (.struct [])]) := .alloc m _ fun y hy => by
        cases hy with | cell hy => cases hy with | field h _ => cases h
      refine ⟨h1.trans' (assign_confined _ a _) ?_, .inr ⟨Nat.le_refl _, by simp⟩⟩
      rintro x (rfl | h)
      · exact .inl (.root (.inl rfl))
      · rcases setField_holds h with h | h
        · exact .inl (hdf x h)
        · cases h
          exact .inr ⟨Nat.le_refl _, by simp⟩
  simp only [respond]
  cases hens : responsesEns m (deref m a) with
  | mk m1 p =>
    obtain ⟨op, r⟩ := p
    obtain ⟨hc, hr⟩ := hA m1 op r hens
    simp only
    generalize m1.set a (.cell op) = m2 at hc hr
    have hdr : ∀ y, (deref m2 r).Holds y → From m2 (fun x => x = r ∨ False) y := deref_from
    obtain ⟨h1, h2⟩ := setItem_confined (m := m2) (R := fun x => x = r ∨ False) (v := v) code
      (fun y hy => hdr y (field_holds (go := "MapOfResponseOrReferenceValues") hy))
      (fun y hy => absurd hy (hv y))
    have h3 : Confined (fun x => x = r ∨ False) m2
        ((setItem m2 ((deref m2 r).field "MapOfResponseOrReferenceValues") code v).1.set r
          (.cell ((deref (setItem m2 ((deref m2 r).field "MapOfResponseOrReferenceValues") code v).1 r).setField
            "MapOfResponseOrReferenceValues" (setItem m2 ((deref m2 r).field "MapOfResponseOrReferenceValues") code v).2))) := by
      refine h1.trans' (assign_confined _ r _) ?_
      rintro x (rfl | h)
      · exact .inl (.root (.inl rfl))
      · rcases setField_holds h with h | h
        · obtain ⟨o, j1, j2⟩ := deref_holds h
          rcases h1.refs r o x j1 j2 with h | h | h
          · exact .inl (.step (.root (.inl rfl)) h j2)
          · exact .inl h
          · exact .inr h
        · exact h2 x h
    refine hc.trans' h3 ?_
    rintro y (rfl | h)
    · exact hr
    · exact h.elim

/-- What adding a response does to an operation. -/
theorem respond_spec {m : Memory} {a : Nat} (code : String) (v : MVal) (hi : IsOp m a) :
    ∃ m' r x, respond code v m a = (m', none) ∧ (deref m' a).field "Responses" = .ref r ∧
      (∀ q, (deref m a).field "Responses" = .ref q → r = q ∧ deref m' a = deref m a ∧
        ∀ b, b ≠ a → b ≠ q → (deref m q).field "MapOfResponseOrReferenceValues" ≠ .ref b → b < m.length → m'[b]? = m[b]?) ∧
      (deref m' r).field "MapOfResponseOrReferenceValues" = .ref x ∧
      m'[x]? = some (.map (GoMap.set (entries m ((responses m (deref m a)).field "MapOfResponseOrReferenceValues")) code v)) ∧
      IsOp m' a := by
  obtain ⟨⟨fs, hs⟩, hc, hne⟩ := hi
  have hma : m[a]? = some (.cell (.struct fs)) := by
    simp only [deref] at hs
    split at hs
    · rename_i w hw; rw [hw, hs]
    · cases hs
  have hal : a < m.length := (List.getElem?_eq_some_iff.mp hma).1
  rcases hc with hn | ⟨q, qs, hq, hmq, hmap⟩
  · -- no responses: new ones
    generalize hm2 : (m ++ [Obj.cell (.struct [])]).set a (.cell ((deref m a).setField "Responses" (.ref m.length))) = m2
    have h2l : m2.length = m.length + 1 := by rw [← hm2]; simp
    have h2n : m2[m.length]? = some (.cell (.struct [])) := by
      rw [← hm2, List.getElem?_set_ne (by omega), getElem?_append_new]
    have h2a : m2[a]? = some (.cell ((MVal.struct fs).setField "Responses" (.ref m.length))) := by
      rw [← hm2, List.getElem?_set_self (by simp; omega), hs]
    have hd2 : deref m2 m.length = .struct [] := by simp only [deref, h2n]
    obtain ⟨m3, b, hset, hb, hbf, hk, hl⟩ := setItem_spec (m := m2) (f := .nil) code v (.inl rfl)
    have hbl : b = m2.length := by
      rcases hbf with h | h
      · cases h
      · exact h.2
    have hd3 : deref m3 m.length = .struct [] := by rw [deref_same (hk _ (by omega)), hd2]
    have heq : respond code v m a =
        (m3.set m.length (.cell ((MVal.struct []).setField "MapOfResponseOrReferenceValues" (.ref b))), none) := by
      have hf : (MVal.struct []).field "MapOfResponseOrReferenceValues" = .nil := rfl
      simp only [respond, responsesEns, hn, hm2, hd2, hf, hset, hd3]
    have hd' : deref (m3.set m.length (.cell ((MVal.struct []).setField "MapOfResponseOrReferenceValues" (.ref b)))) a =
        (MVal.struct fs).setField "Responses" (.ref m.length) := by
      have : (m3.set m.length (.cell ((MVal.struct []).setField "MapOfResponseOrReferenceValues" (.ref b))))[a]? =
          some (.cell ((MVal.struct fs).setField "Responses" (.ref m.length))) := by
        rw [List.getElem?_set_ne (by omega), hk a (by omega), h2a]
      simp only [deref, this]
    have hr' : (m3.set m.length (Obj.cell ((MVal.struct []).setField "MapOfResponseOrReferenceValues" (.ref b))))[m.length]? =
        some (.cell ((MVal.struct []).setField "MapOfResponseOrReferenceValues" (.ref b))) := by
      rw [List.getElem?_set_self (by omega)]
    have hb' : (m3.set m.length (Obj.cell ((MVal.struct []).setField "MapOfResponseOrReferenceValues" (.ref b))))[b]? =
        some (.map (GoMap.set [] code v)) := by
      rw [List.getElem?_set_ne (by omega), hb]; rfl
    have hfr : ((MVal.struct fs).setField "Responses" (.ref m.length)).field "Responses" = .ref m.length := by
      rw [field_setField, if_pos rfl]
    have hfm : ((MVal.struct []).setField "MapOfResponseOrReferenceValues" (.ref b)).field
        "MapOfResponseOrReferenceValues" = .ref b := by rw [field_setField, if_pos rfl]
    refine ⟨_, m.length, b, heq, by rw [hd', hfr], (fun q hq => by rw [hn] at hq; cases hq), ?_, ?_, ?_⟩
    · simp only [deref, hr', hfm]
    · rw [hb']
      simp only [responses, hn]
      rfl
    · refine ⟨by rw [hd']; exact ⟨_, rfl⟩, .inr ⟨m.length, _, by rw [hd', hfr], hr', .inr ⟨b, _, hfm, hb'⟩⟩, ?_⟩
      rw [hd', hfr]
      intro h
      cases h
      omega
  · have hqa : q ≠ a := by
      rintro rfl
      exact hne hq
    have hdq : deref m q = .struct qs := by simp only [deref, hmq]
    have hset0 : m.set a (.cell (deref m a)) = m := by
      apply List.ext_getElem?
      intro x
      by_cases hx : x = a
      · subst hx; rw [List.getElem?_set_self hal, hs, hma]
      · rw [List.getElem?_set_ne (Ne.symm hx)]
    obtain ⟨m3, b, hset, hb, hbf, hk, hl⟩ := setItem_spec (m := m) code v hmap
    have hql : q < m.length := (List.getElem?_eq_some_iff.mp hmq).1
    have hbq : b ≠ q ∧ b ≠ a := by
      rcases hbf with h | ⟨-, h⟩
      · rcases hmap with h' | ⟨c, es, h', h2⟩
        · rw [h] at h'; cases h'
        · rw [h] at h'; cases h'
          constructor
          · rintro rfl; rw [hmq] at h2; cases h2
          · rintro rfl; rw [hma] at h2; cases h2
      · omega
    have hd3 : deref m3 q = .struct qs := by rw [deref_same (hk _ (Ne.symm hbq.1)), hdq]
    have heq : respond code v m a =
        (m3.set q (.cell ((MVal.struct qs).setField "MapOfResponseOrReferenceValues" (.ref b))), none) := by
      simp only [respond, responsesEns, hq, hset0, hdq, hset, hd3]
    have ha' : (m3.set q (Obj.cell ((MVal.struct qs).setField "MapOfResponseOrReferenceValues" (.ref b))))[a]? = m[a]? := by
      rw [List.getElem?_set_ne hqa, hk a (Ne.symm hbq.2)]
    have hr' : (m3.set q (Obj.cell ((MVal.struct qs).setField "MapOfResponseOrReferenceValues" (.ref b))))[q]? =
        some (.cell ((MVal.struct qs).setField "MapOfResponseOrReferenceValues" (.ref b))) := by
      rw [List.getElem?_set_self (by omega)]
    have hb' : (m3.set q (Obj.cell ((MVal.struct qs).setField "MapOfResponseOrReferenceValues" (.ref b))))[b]? =
        some (.map (GoMap.set (entries m ((MVal.struct qs).field "MapOfResponseOrReferenceValues")) code v)) := by
      rw [List.getElem?_set_ne (Ne.symm hbq.1), hb]
    have hfm : ((MVal.struct qs).setField "MapOfResponseOrReferenceValues" (.ref b)).field
        "MapOfResponseOrReferenceValues" = .ref b := by rw [field_setField, if_pos rfl]
    refine ⟨_, q, b, heq, by rw [deref_same ha']; exact hq, ?_, by simp only [deref, hr', hfm], ?_, ?_⟩
    · intro q' hq'
      rw [hq] at hq'; cases hq'
      refine ⟨rfl, deref_same ha', fun x hxa hxq hxm hxl => ?_⟩
      rw [List.getElem?_set_ne (Ne.symm hxq), hk x]
      rintro rfl
      rcases hbf with h | ⟨-, h⟩
      · rw [hdq] at hxm; exact hxm h
      · omega
    · rw [hb']
      simp only [responses, hq, hdq]
    · refine ⟨by rw [deref_same ha']; exact ⟨fs, hs⟩, .inr ⟨q, _, by rw [deref_same ha']; exact hq, hr', .inr ⟨b, _, hfm, hb'⟩⟩, ?_⟩
      rw [deref_same ha']
      exact hne

/-- Adding a response without references is a reflection in the sense of the theorems. -/
theorem respond_reflects (E : Nat → Prop) (code : String) (v : MVal) (hv : ∀ y, ¬ v.Holds y) :
    Reflects E (respond code v) := by
  refine ⟨respond_uses E code v hv, fun m a m' hi h => ?_⟩
  obtain ⟨m1, r, x, h1, -, -, -, -, h2⟩ := respond_spec code v hi
  rw [h] at h1
  cases h1
  exact h2

/-- C91: the stored operation shares its responses with the context. If another response is added to the context and it
is added again, the call fails, and the operation in the document has the other response. -/
theorem C91_shared {m : Memory} {s c b q : Nat} {E : Nat → Prop} {method path code F : String} {v : MVal}
    {r : Sanitized} (ha : Apart m s (fun x => x = c ∨ E x)) (hi : IsOp m c) (hib : IsOp m b) (hv : ∀ y, ¬ v.Holds y)
    (hsan : sanitizeMethodPath method path = .ok r) (hrp : r.path = path) (hF : (r.method, F) ∈ fields)
    (hop : opAt m s path F = some b) (hsame : deref m b = deref m c) (hq : (deref m c).field "Responses" = .ref q) :
    ∃ m' e, reflectorAdd m s c method path (respond code v) = (m', some e) ∧ opAt m' s path F = some b ∧
      entries m' ((responses m' (deref m' b)).field "MapOfResponseOrReferenceValues") =
        GoMap.set (entries m ((responses m (deref m b)).field "MapOfResponseOrReferenceValues")) code v := by
  obtain ⟨m1, r1, x, h1, h2, h3, h4, h5, h6⟩ := respond_spec code v hi
  obtain ⟨rfl, h7, h8⟩ := h3 q hq
  have hcf := respond_uses E code v hv m c
  rw [h1] at hcf
  simp only at hcf
  obtain ⟨hown, hap, -⟩ := Confined.apart hcf ha ha.others ha.env
  have hF' : (goToLower method, F) ∈ fields := by rw [← (sanitize_method hsan).1]; exact hF
  have hop1 : opAt m1 s path F = some b := by rw [opAt_same hown]; exact hop
  refine ⟨m1, "operation already exists: " ++ goToLower method ++ " " ++ path, ?_, hop1, ?_⟩
  · simp only [reflectorAdd, h1]
    exact C90_add_exists hap hF' hop1
  · have hbq : b ≠ r1 := by
      rintro rfl
      rw [← hsame] at hq
      exact hib.2.2 hq
    have hd1 : deref m1 b = deref m c := by
      by_cases hbc : b = c
      · rw [hbc, h7]
      · rw [deref_same (h8 b hbc hbq (fun hm => ?_) (opAt_lt ha hop)), hsame]
        -- the map is not the operation
        rcases hi.2.1 with h | ⟨q', qs, j1, j2, j3⟩
        · rw [hq] at h; cases h
        · rw [hq] at j1; cases j1
          simp only [deref, j2] at hm
          rcases j3 with j3 | ⟨y, es, j3, j4⟩
          · rw [j3] at hm; cases hm
          · rw [j3] at hm; cases hm
            obtain ⟨fs, hfs⟩ := hib.1
            simp only [deref, j4] at hfs
            cases hfs
    rw [hsame, hd1]
    have hresp : responses m1 (deref m c) = deref m1 r1 := by simp only [responses, hq]
    rw [hresp, h4, entries_map h5]

end Verif.Mem31
