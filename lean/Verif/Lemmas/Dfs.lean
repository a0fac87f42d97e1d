import Verif.JSchema
import Verif.Spec.Schema
import Verif.Lemmas.Go

/-!
# Invariant of the traversal that resolves references

Shared by 3.0 and 3.1. `val n` is the final entry of a processed name and `succ n` its local references.
-/

namespace Verif.Dfs
open SchemaSpec
variable (val : String → JS) (succ : String → List String)

/-- Going from context `c` to `c'` while handling the references `L`. -/
structure Step (L : List String) (c c' : Ctx) : Prop where
  ex : ∃ new : List String,
    c'.processed.keys = c.processed.keys ++ new ∧
    (∀ n ∈ new, n ∉ c.processed.keys ∧ Reach succ L n ∧ c'.processed.get? n = some (val n) ∧
      ∀ m ∈ succ n, m ∈ c'.processed.keys) ∧
    (∀ m, (c'.count.get? m).getD 0 =
      (c.count.get? m).getD 0 + L.count m + (new.map (fun n => (succ n).count m)).sum)
  covered : ∀ n ∈ L, n ∈ c'.processed.keys
  kept : ∀ n ∈ c.processed.keys, c'.processed.get? n = c.processed.get? n
  wf : c.processed.WF → c'.processed.WF

variable {val succ}

theorem _root_.Verif.SchemaSpec.Reach.mono {L L' : List String} (h : ∀ n ∈ L, n ∈ L') {n : String} (hr : Reach succ L n) :
    Reach succ L' n := by
  induction hr with
  | here h' => exact .here (h _ h')
  | there _ h2 ih => exact .there ih h2

theorem Step.refl (c : Ctx) : Step val succ [] c c :=
  ⟨⟨[], by simp, by simp, by simp⟩, by simp, fun _ _ => rfl, id⟩

/-- The clock does not matter. -/
theorem Step.clock {L : List String} {c c' : Ctx} (h : Step val succ L c c') (k k' : Nat) :
    Step val succ L { c with clock := k } { c' with clock := k' } :=
  ⟨h.ex, h.covered, h.kept, h.wf⟩

theorem Step.trans {L1 L2 : List String} {c c1 c2 : Ctx} (h1 : Step val succ L1 c c1)
    (h2 : Step val succ L2 c1 c2) : Step val succ (L1 ++ L2) c c2 := by
  obtain ⟨new1, k1, e1, n1⟩ := h1.ex
  obtain ⟨new2, k2, e2, n2⟩ := h2.ex
  have mono : ∀ n, n ∈ c1.processed.keys → n ∈ c2.processed.keys := by
    intro n hn; rw [k2]; exact List.mem_append_left _ hn
  refine ⟨⟨new1 ++ new2, by rw [k2, k1, List.append_assoc], ?_, ?_⟩, ?_, ?_, fun h => h2.wf (h1.wf h)⟩
  · intro n hn
    rcases List.mem_append.mp hn with hn | hn
    · obtain ⟨a1, a2, a3, a4⟩ := e1 n hn
      refine ⟨a1, a2.mono (fun _ h => List.mem_append_left _ h), ?_, fun m hm => mono m (a4 m hm)⟩
      rw [h2.kept n (by rw [k1]; exact List.mem_append_right _ hn), a3]
    · obtain ⟨a1, a2, a3, a4⟩ := e2 n hn
      refine ⟨?_, a2.mono (fun _ h => List.mem_append_right _ h), a3, a4⟩
      intro h; apply a1; rw [k1]; exact List.mem_append_left _ h
  · intro m
    rw [n2, n1]
    simp only [List.count_append, List.map_append, List.sum_append]
    omega
  · intro n hn
    rcases List.mem_append.mp hn with hn | hn
    · exact mono n (h1.covered n hn)
    · exact h2.covered n hn
  · intro n hn
    rw [h2.kept n (by rw [k1]; exact List.mem_append_left _ hn), h1.kept n hn]

theorem Step.perm {L L' : List String} {c c' : Ctx} (h : Step val succ L c c') (hp : L.Perm L') :
    Step val succ L' c c' := by
  obtain ⟨new, k, e, n⟩ := h.ex
  refine ⟨⟨new, k, ?_, ?_⟩, fun n hn => h.covered n (hp.mem_iff.mpr hn), h.kept, h.wf⟩
  · intro n hn
    obtain ⟨a1, a2, a3, a4⟩ := e n hn
    exact ⟨a1, a2.mono (fun _ h => hp.mem_iff.mp h), a3, a4⟩
  · intro m; rw [n, hp.count_eq]

theorem processed_inc (c : Ctx) (n : String) : (c.inc n).processed = c.processed := rfl

theorem count_inc (c : Ctx) (n m : String) :
    ((c.inc n).count.get? m).getD 0 = (c.count.get? m).getD 0 + [n].count m := by
  unfold Ctx.inc
  simp only [GoMap.get?_set]
  by_cases h : m = n
  · subst h; simp
  · simp [h, Ne.symm h]

/-- A reference to a processed name only counts. -/
theorem Step.seen {c : Ctx} {n : String} {v : JS} (h : c.processed.get? n = some v) :
    Step val succ [n] c (c.inc n) := by
  refine ⟨⟨[], by simp [processed_inc], by simp, by intro m; rw [count_inc]; simp⟩, ?_, fun _ _ => rfl, id⟩
  intro x hx
  rw [List.mem_singleton] at hx
  subst hx
  rw [GoMap.mem_keys_iff, processed_inc, h]; rfl

/-- Processing a new name: placeholder, its own references, final value, count. -/
theorem Step.fresh {c c2 : Ctx} {n : String} {v0 : JS} (hn : c.processed.get? n = none)
    (h : Step val succ (succ n) { c with processed := c.processed.set n v0 } c2) :
    Step val succ [n] c ({ c2 with processed := c2.processed.set n (val n) }.inc n) := by
  obtain ⟨new, k, e, cnt⟩ := h.ex
  have hnk : n ∉ c.processed.keys := by
    intro h; rw [GoMap.mem_keys_iff, hn] at h; cases h
  have k1 : (c.processed.set n v0).keys = c.processed.keys ++ [n] := by
    rw [GoMap.keys_set, hn]; rfl
  simp only at k
  rw [k1] at k
  have hn2 : n ∈ c2.processed.keys := by rw [k]; simp
  have kset : (c2.processed.set n (val n)).keys = c2.processed.keys := by
    rw [GoMap.keys_set, if_pos ((GoMap.mem_keys_iff _ _).mp hn2)]
  refine ⟨⟨n :: new, ?_, ?_, ?_⟩, ?_, ?_, ?_⟩
  · rw [processed_inc]; simp only [kset, k, List.append_assoc, List.singleton_append]
  · intro x hx
    rw [processed_inc]
    simp only [kset]
    by_cases hxn : x = n
    · subst hxn
      refine ⟨hnk, .here (by simp), GoMap.get?_set_self _ _ _, fun m hm => h.covered m hm⟩
    · have hx' : x ∈ new := by simpa [hxn] using hx
      obtain ⟨a1, a2, a3, a4⟩ := e x hx'
      simp only [k1] at a1
      refine ⟨fun hh => a1 (by simp [hh]), ?_, ?_, a4⟩
      · clear a1 a3 a4 hxn hx hx'
        induction a2 with
        | here hh => exact .there (.here (by simp)) hh
        | there _ h2 ih => exact .there ih h2
      · rw [GoMap.get?_set_ne _ _ hxn, a3]
  · intro m
    rw [count_inc]
    simp only
    rw [cnt]
    simp only [List.map_cons, List.sum_cons]
    omega
  · intro x hx
    rw [List.mem_singleton] at hx
    subst hx
    rw [processed_inc]; simp only [kset]; exact hn2
  · intro x hx
    have hxn : x ≠ n := fun e => hnk (e ▸ hx)
    rw [processed_inc]
    simp only
    rw [GoMap.get?_set_ne _ _ hxn, h.kept x (by simp only [k1]; simp [hx])]
    simp only
    rw [GoMap.get?_set_ne _ _ hxn]
  · intro hw
    rw [processed_inc]
    exact GoMap.wf_set (h.wf (GoMap.wf_set hw _ _)) _ _

/-- The names that are not processed yet, of a given list. -/
def todo (names : List String) (c : Ctx) : Nat := (names.filter (fun n => n ∉ c.processed.keys)).length

theorem filter_length_le {p q : String → Bool} (l : List String) (h : ∀ x ∈ l, p x → q x) :
    (l.filter p).length ≤ (l.filter q).length := by
  induction l with
  | nil => simp
  | cons a l ih =>
    have ih' := ih (fun x hx => h x (by simp [hx]))
    by_cases hp : p a
    · have hq := h a (by simp) hp
      simp [hp, hq]; exact ih'
    · by_cases hq : q a
      · simp [hp, hq]; omega
      · simp [hp, hq]; exact ih'

theorem filter_length_lt {p q : String → Bool} (l : List String) (h : ∀ x ∈ l, p x → q x)
    {a : String} (ha : a ∈ l) (hq : q a) (hp : ¬ p a) : (l.filter p).length < (l.filter q).length := by
  induction l with
  | nil => cases ha
  | cons b l ih =>
    by_cases hab : b = a
    · subst hab
      have := filter_length_le l (fun x hx => h x (by simp [hx]))
      simp [hp, hq]; omega
    · have ha' : a ∈ l := by simpa [Ne.symm hab] using ha
      have ih' := ih (fun x hx => h x (by simp [hx])) ha'
      by_cases hpb : p b
      · have hqb := h b (by simp) hpb
        simp [hpb, hqb]; exact ih'
      · by_cases hqb : q b
        · simp [hpb, hqb]; omega
        · simp [hpb, hqb]; exact ih'

theorem Step.todo_le {L : List String} {c c' : Ctx} (h : Step val succ L c c') (names : List String) :
    todo names c' ≤ todo names c := by
  obtain ⟨new, k, -⟩ := h.ex
  apply filter_length_le
  intro x _ hx
  simp only [decide_eq_true_eq] at hx ⊢
  intro hh; apply hx; rw [k]; exact List.mem_append_left _ hh

theorem todo_set_lt {c : Ctx} {n : String} {v : JS} {names : List String} (hn : n ∈ names)
    (hc : c.processed.get? n = none) :
    todo names { c with processed := c.processed.set n v } < todo names c := by
  have hnk : n ∉ c.processed.keys := by
    intro h; rw [GoMap.mem_keys_iff, hc] at h; cases h
  apply filter_length_lt names _ hn (by simpa using hnk)
  · simp [GoMap.keys_set, hc]
  · intro x _ hx
    simp only [GoMap.keys_set, hc, Option.isSome_none, Bool.false_eq_true, if_false, decide_eq_true_eq] at hx ⊢
    intro hh; apply hx; simp [hh]

/-- The whole run, from the empty context: which names are included, with which values, and how often
each name is referred to. -/
theorem Step.complete {L : List String} {c : Ctx} (h : Step val succ L {} c) :
    (∀ n, n ∈ c.processed.keys ↔ Reach succ L n) ∧
    (∀ n ∈ c.processed.keys, c.processed.get? n = some (val n)) ∧
    c.processed.keys.Nodup ∧
    (∀ m, (c.count.get? m).getD 0 = L.count m + (c.processed.keys.map (fun n => (succ n).count m)).sum) := by
  obtain ⟨new, k, e, cnt⟩ := h.ex
  have k' : c.processed.keys = new := by rw [k]; simp [GoMap.keys]
  refine ⟨?_, ?_, h.wf (by simp [GoMap.WF, GoMap.keys]), ?_⟩
  · intro n
    constructor
    · intro hn; rw [k'] at hn; exact (e n hn).2.1
    · intro hr
      induction hr with
      | here h1 => exact h.covered _ h1
      | there _ h2 ih => exact (e _ (k' ▸ ih)).2.2.2 _ h2
  · intro n hn; rw [k'] at hn; exact (e n hn).2.2.1
  · intro m; rw [cnt, k']; simp [GoMap.get?]

theorem sum_eq_zero {l : List Nat} : l.sum = 0 ↔ ∀ x ∈ l, x = 0 := by
  induction l with
  | nil => simp
  | cons a l ih => simp [ih]

theorem localRef?_some {r n : String} (h : localRef? r = some n) : goTrimPrefix r componentsSchemas = n := by
  unfold localRef? at h
  split at h
  · simpa using h
  · cases h

theorem reach_nil {k : String} : ¬ Reach succ [] k := by
  intro hr
  induction hr with
  | here h => cases h
  | there _ _ ih => exact ih

/-- The root is a local reference to `n` and no reachable name refers to `n`. -/
def Inlined (succ : String → List String) (L : List String) (root : Option String) (n : String) : Prop :=
  (∃ r, root = some r ∧ localRef? r = some n) ∧ ∀ k, Reach succ L k → n ∉ succ k

/-- What the whole run returns, exactly: which schema becomes the root, which components are included and
with which values. -/
theorem Step.finish_exact {L : List String} {c : Ctx} (h : Step val succ L {} c) (root : Option String) (js : JS)
    (hroot : ∀ r, root = some r → L = (localRef? r).toList) :
    (∀ n, Inlined succ L root n → (finish root js c).schema = val n ∧
      ∀ k, k ∈ (finish root js c).components.keys ↔ Reach succ L k ∧ k ≠ n) ∧
    ((¬ ∃ n, Inlined succ L root n) → (finish root js c).schema = js ∧
      ∀ k, k ∈ (finish root js c).components.keys ↔ Reach succ L k) ∧
    (∀ k v, (finish root js c).components.get? k = some v → v = val k) ∧
    (finish root js c).components.keys.Nodup := by
  obtain ⟨hk, hv, hnd, hcnt⟩ := h.complete
  have hval : ∀ k v, c.processed.get? k = some v → v = val k := by
    intro k v e
    have := hv k (by rw [GoMap.mem_keys_iff, e]; rfl)
    rw [e] at this; cases this; rfl
  cases root with
  | none =>
    refine ⟨?_, fun _ => ⟨rfl, hk⟩, hval, hnd⟩
    rintro n ⟨⟨r, e, -⟩, -⟩; cases e
  | some r0 =>
    have hL := hroot r0 rfl
    simp only [finish]
    cases hl : localRef? r0 with
    | none =>
      have hz : (c.count.get? (goTrimPrefix r0 componentsSchemas)).getD 0 = 0 := by
        rw [hl] at hL
        have : c.processed.keys = [] := by
          apply List.eq_nil_iff_forall_not_mem.mpr
          intro k hkk
          have hr := (hk k).mp hkk
          rw [hL] at hr
          exact reach_nil hr
        rw [hcnt, hL, this]
        simp
      rw [hz]
      simp only [Nat.zero_ne_one, if_false]
      refine ⟨?_, fun _ => ⟨trivial, hk⟩, hval, hnd⟩
      rintro n ⟨⟨r, e, hl'⟩, -⟩
      cases e; rw [hl] at hl'; cases hl'
    | some n =>
      rw [hl] at hL
      simp only [Option.toList_some] at hL
      rw [localRef?_some hl]
      -- the root is inlined exactly if its count is one
      have hiff : (c.count.get? n).getD 0 = 1 ↔ Inlined succ L (some r0) n := by
        rw [hcnt n, hL]
        have hone : [n].count n = 1 := by simp
        rw [hone]
        constructor
        · intro he
          have hz := sum_eq_zero.mp (by omega : (c.processed.keys.map (fun k => (succ k).count n)).sum = 0)
          refine ⟨⟨r0, rfl, hl⟩, ?_⟩
          intro k hkn hmem
          have := hz _ (List.mem_map.mpr ⟨k, (hk k).mpr (hL ▸ hkn), rfl⟩)
          have hpos := List.count_pos_iff.mpr hmem
          omega
        · rintro ⟨-, hno⟩
          have hz : (c.processed.keys.map (fun k => (succ k).count n)).sum = 0 := by
            apply sum_eq_zero.mpr
            intro x hx
            obtain ⟨k, hkm, rfl⟩ := List.mem_map.mp hx
            exact List.count_eq_zero.mpr (hno k (hL ▸ (hk k).mp hkm))
          omega
      by_cases hone : (c.count.get? n).getD 0 = 1
      · rw [if_pos hone]
        have hin := hiff.mp hone
        have hnk : n ∈ c.processed.keys := (hk n).mpr (.here (by rw [hL]; simp))
        have keys_erase : ∀ k, k ∈ (c.processed.erase n).keys ↔ k ∈ c.processed.keys ∧ k ≠ n := by
          intro k
          rw [GoMap.mem_keys_iff, GoMap.mem_keys_iff, GoMap.get?_erase]
          by_cases hkn : k = n <;> simp [hkn]
        refine ⟨?_, fun hno => absurd ⟨n, hin⟩ hno, ?_, ?_⟩
        · rintro n' ⟨⟨r', e, hl'⟩, -⟩
          cases e
          rw [hl] at hl'; cases hl'
          refine ⟨?_, fun k => by rw [keys_erase, hk]⟩
          simp only [hv n hnk, Option.getD_some]
        · intro k v e
          rw [GoMap.get?_erase] at e
          split at e
          · cases e
          · exact hval k v e
        · exact (List.Sublist.map _ List.filter_sublist).nodup hnd
      · rw [if_neg hone]
        have hno : ¬ ∃ n, Inlined succ L (some r0) n := by
          rintro ⟨n', hin⟩
          obtain ⟨⟨r', e, hl'⟩, -⟩ := id hin
          cases e
          rw [hl] at hl'; cases hl'
          exact hone (hiff.mpr hin)
        exact ⟨fun n' hin => absurd ⟨n', hin⟩ hno, fun _ => ⟨rfl, hk⟩, hval, hnd⟩

/-- The result is closed: its references, and those of its components, are included. -/
theorem Step.finish_closed {L : List String} {c : Ctx} (h : Step val succ L {} c) (root : Option String) (js : JS)
    (hroot : ∀ r, root = some r → L = (localRef? r).toList) :
    (∀ n, Inlined succ L root n → ∀ k ∈ succ n, (finish root js c).components.get? k = some (val k)) ∧
    ((¬ ∃ n, Inlined succ L root n) → ∀ k ∈ L, (finish root js c).components.get? k = some (val k)) ∧
    (∀ k v, (finish root js c).components.get? k = some v →
      v = val k ∧ ∀ n ∈ succ k, (finish root js c).components.get? n = some (val n)) := by
  obtain ⟨h1, h2, h3, -⟩ := h.finish_exact root js hroot
  have get : ∀ n, n ∈ (finish root js c).components.keys → (finish root js c).components.get? n = some (val n) := by
    intro n hn
    rw [GoMap.mem_keys_iff] at hn
    obtain ⟨v, hv⟩ := Option.isSome_iff_exists.mp hn
    rw [hv, h3 n v hv]
  by_cases hin : ∃ n, Inlined succ L root n
  · obtain ⟨n0, hin⟩ := hin
    obtain ⟨-, e2⟩ := h1 n0 hin
    obtain ⟨⟨r0, hs, hl⟩, hno⟩ := id hin
    have hL : L = [n0] := by rw [hroot r0 hs, hl]; rfl
    have hr : Reach succ L n0 := .here (by rw [hL]; simp)
    have close : ∀ k, Reach succ L k → ∀ n ∈ succ k, n ∈ (finish root js c).components.keys := by
      intro k hk n hn
      exact (e2 n).mpr ⟨.there hk hn, fun e => hno k hk (e ▸ hn)⟩
    refine ⟨?_, fun hno' => absurd ⟨n0, hin⟩ hno', ?_⟩
    · rintro n' ⟨⟨r', e, hl'⟩, -⟩
      rw [hs] at e; cases e
      rw [hl] at hl'; cases hl'
      exact fun k hk => get k (close n0 hr k hk)
    · intro k v hv
      have hkk : k ∈ (finish root js c).components.keys := by rw [GoMap.mem_keys_iff, hv]; rfl
      exact ⟨h3 k v hv, fun n hn => get n (close k ((e2 k).mp hkk).1 n hn)⟩
  · obtain ⟨-, e2⟩ := h2 hin
    refine ⟨fun n hn => absurd ⟨n, hn⟩ hin, fun _ k hk => get k ((e2 k).mpr (.here hk)), ?_⟩
    intro k v hv
    have hkk : k ∈ (finish root js c).components.keys := by rw [GoMap.mem_keys_iff, hv]; rfl
    exact ⟨h3 k v hv, fun n hn => get n ((e2 n).mpr (.there ((e2 k).mp hkk) hn))⟩

end Verif.Dfs
