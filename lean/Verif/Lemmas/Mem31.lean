import Verif.Spec.Mem31
import Verif.Lemmas.Mem
import Verif.Lemmas.Doc

/-!
# Lemmas about storing operations in Go memory (OpenAPI 3.1)
-/

namespace Verif.Mem31

open Verif.Mem

/-! ## What a document has depends on its own objects -/

theorem deref_same {m m' : Memory} {x : Nat} (h : m'[x]? = m[x]?) : deref m' x = deref m x := by
  simp only [deref, h]

theorem entries_same {m m' : Memory} {v : MVal} (h : ∀ x, v = .ref x → m'[x]? = m[x]?) :
    entries m' v = entries m v := by
  cases v with
  | ref a => simp only [entries, h a rfl]
  | _ => rfl

section Same

variable {m m' : Memory} {s : Nat} (h : ∀ x, Own m s x → m'[x]? = m[x]?)
include h

theorem pathsRef_same : pathsRef m' s = pathsRef m s := by
  simp only [pathsRef, deref_same (h s (.inl rfl))]
  split
  · rename_i p hp
    rw [deref_same (h p (.inr (.inl hp)))]
  · rfl

theorem hooksRef_same : hooksRef m' s = hooksRef m s := by
  simp only [hooksRef, deref_same (h s (.inl rfl))]

theorem itemAt_same (path : String) : itemAt m' s path = itemAt m s path := by
  simp only [itemAt, pathsRef_same h]
  rw [entries_same fun x hx => h x (.inr (.inr (.inl hx)))]

theorem hookAt_same (name : String) : hookAt m' s name = hookAt m s name := by
  simp only [hookAt, hooksRef_same h]
  rw [entries_same fun x hx => h x (.inr (.inr (.inr hx)))]

theorem opAt_same (path F : String) : opAt m' s path F = opAt m s path F := by
  simp only [opAt, itemAt_same h]

theorem own_same (x : Nat) : Own m' s x ↔ Own m s x := by
  simp only [Own, pathsRef_same h, hooksRef_same h, deref_same (h s (.inl rfl))]

end Same

theorem Apart.own_lt {m : Memory} {s : Nat} {E : Nat → Prop} (ha : Apart m s E) {x : Nat} (hx : Own m s x) :
    x < m.length := by
  rcases hx with rfl | h | h | h
  · obtain ⟨fs, h⟩ := ha.spec
    exact (List.getElem?_eq_some_iff.mp h).1
  · rcases ha.paths with h' | ⟨p, fs, h', -, h2⟩
    · rw [h] at h'; cases h'
    · rw [h] at h'; cases h'
      exact (List.getElem?_eq_some_iff.mp h2).1
  · rcases ha.map with h' | ⟨p, fs, h', h2⟩
    · rw [h] at h'; cases h'
    · rw [h] at h'; cases h'
      exact (List.getElem?_eq_some_iff.mp h2).1
  · rcases ha.hooks with h' | ⟨p, fs, h', h2, -⟩
    · rw [h] at h'; cases h'
    · rw [h] at h'; cases h'
      exact (List.getElem?_eq_some_iff.mp h2).1

theorem Apart.mono {m : Memory} {s : Nat} {E E' : Nat → Prop} (ha : Apart m s E) (h : ∀ x, E' x → E x) : Apart m s E' :=
  { ha with
    env := fun x hx => ha.env x (h x hx)
    others := fun x hx => ha.others x (hx.mono fun y hy => .root (h y hy)) }

theorem Confined.apart {R E : Nat → Prop} {m m' : Memory} {s : Nat} (hc : Confined R m m') (ha : Apart m s E)
    (hR : ∀ x, From m R x → ¬ Own m s x) (hRl : ∀ x, R x → x < m.length) :
    (∀ x, Own m s x → m'[x]? = m[x]?) ∧ Apart m' s E ∧ ∀ x, From m' R x → ¬ Own m' s x := by
  have hown : ∀ x, Own m s x → m'[x]? = m[x]? := fun x hx => hc.keeps x (ha.own_lt hx) fun hf => hR x hf hx
  have hreach : ∀ Q : Nat → Prop, (∀ x, From m Q x → ¬ Own m s x) → ∀ x, From m' Q x → ¬ Own m' s x := by
    intro Q hQ x hx hw
    rw [own_same hown] at hw
    have hc' : Confined (fun x => R x ∨ Q x) m m' := hc.mono fun y hy => .root (.inl hy)
    rcases hc'.reach (hx.mono fun y hy => .root (.inr hy)) with h1 | h1
    · rcases h1.or with h2 | h2
      · exact hR x h2 hw
      · exact hQ x h2 hw
    · have := ha.own_lt hw
      omega
  refine ⟨hown, ⟨?_, ?_, ?_, ?_, ?_, ?_, ?_, ?_, ?_, ?_⟩, hreach R hR⟩
  · intro x o y ho hy
    rcases hc.refs x o y ho hy with h1 | h1 | h1
    · exact Nat.lt_of_lt_of_le (ha.closed x o y h1 hy) hc.grows
    · exact Nat.lt_of_lt_of_le (h1.lt ha.closed hRl) hc.grows
    · exact h1.2
  · exact fun x hx => Nat.lt_of_lt_of_le (ha.env x hx) hc.grows
  · rw [hown s (.inl rfl)]; exact ha.spec
  · rw [deref_same (hown s (.inl rfl))]
    refine ha.paths.imp_right ?_
    rintro ⟨p, fs, h1, h2, h3⟩
    exact ⟨p, fs, h1, h2, by rw [hown p (.inr (.inl h1))]; exact h3⟩
  · rw [pathsRef_same hown]
    refine ha.map.imp_right ?_
    rintro ⟨p, fs, h1, h2⟩
    exact ⟨p, fs, h1, by rw [hown p (.inr (.inr (.inl h1)))]; exact h2⟩
  · rw [pathsRef_same hown, hooksRef_same hown]
    refine ha.hooks.imp_right ?_
    rintro ⟨p, fs, h1, h2, h3⟩
    exact ⟨p, fs, h1, by rw [hown p (.inr (.inr (.inr h1)))]; exact h2, h3⟩
  · intro path item hi
    rw [itemAt_same hown] at hi
    exact ha.items path item hi
  · intro path item x hi
    rw [itemAt_same hown] at hi
    exact hreach _ (fun x => ha.inner path item x hi) x
  · intro name h x hi
    rw [hookAt_same hown] at hi
    exact hreach _ (fun x => ha.hookInner name h x hi) x
  · exact hreach E ha.others

theorem item_holds {m : Memory} {s : Nat} {path : String} {item : MVal} (hi : itemAt m s path = some item) {y : Nat}
    (hy : item.Holds y) : ∃ (x : Nat) (o : Obj), m[x]? = some o ∧ o.Holds y := by
  obtain ⟨a, es, -, h2, h3⟩ := entries_mem (get?_mem hi)
  exact ⟨a, _, h2, .map h3 hy⟩

/-! ## Writing the document's own objects -/

/-- A change of the document's own objects: what is apart from them stays as it is. -/
theorem own_write {m m' : Memory} {s : Nat} {E : Nat → Prop} (ha : Apart m s E)
    (hold : ∀ x, x < m.length → ¬ Own m s x → m'[x]? = m[x]?) {Q : Nat → Prop}
    (hQ : ∀ x, From m Q x → ¬ Own m s x) (hQl : ∀ x, Q x → x < m.length) {x : Nat} (hx : From m' Q x) :
    From m Q x :=
  hx.same fun y hy => hold y (hy.lt ha.closed hQl) (hQ y hy)

/-- `PathsEns` changes at most the field of the `Spec`. -/
theorem pathsEns_spec {m : Memory} {s : Nat} {E : Nat → Prop} (ha : Apart m s E) :
    ∃ m1 p, pathsEns m s = (m1, p) ∧ (deref m1 s).field "Paths" = .ref p ∧ m.length ≤ m1.length ∧
      (∀ x, x < m.length → x ≠ s → m1[x]? = m[x]?) ∧
      (∀ path, itemAt m1 s path = itemAt m s path) ∧ (∀ name, hookAt m1 s name = hookAt m s name) ∧
      (∀ go, go ≠ "Paths" → (deref m1 s).field go = (deref m s).field go) ∧ Apart m1 s E ∧
      (∀ x, Own m1 s x → Own m s x ∨ m.length ≤ x) ∧
      ((∃ p', (deref m s).field "Paths" = .ref p') → m1 = m) := by
  obtain ⟨fs, hs⟩ := ha.spec
  have hsl : s < m.length := (List.getElem?_eq_some_iff.mp hs).1
  have hds : deref m s = .struct fs := by simp only [deref, hs]
  rcases ha.paths with hn | ⟨p, gs, hp, hps, hpm⟩
  · -- no paths yet
    have hE : pathsEns m s = ((m ++ [Obj.cell (.struct [])]).set s
        (.cell ((deref m s).setField "Paths" (.ref m.length))), m.length) := by
      simp only [pathsEns, hn]
    generalize hm1 : (m ++ [Obj.cell (.struct [])]).set s (.cell ((deref m s).setField "Paths" (.ref m.length))) = m1 at hE
    have hss : m1[s]? = some (.cell ((MVal.struct fs).setField "Paths" (.ref m.length))) := by
      rw [← hm1, List.getElem?_set_self (by simp; omega), hds]
    have hnew : m1[m.length]? = some (.cell (.struct [])) := by
      rw [← hm1, List.getElem?_set_ne (by omega), getElem?_append_new]
    have hkeep : ∀ x, x < m.length → x ≠ s → m1[x]? = m[x]? := by
      intro x hx hxs
      rw [← hm1, List.getElem?_set_ne (Ne.symm hxs), getElem?_append_old _ _ hx]
    have hlen : m1.length = m.length + 1 := by rw [← hm1]; simp
    have hd1 : deref m1 s = (MVal.struct fs).setField "Paths" (.ref m.length) := by simp only [deref, hss]
    have hfp : (deref m1 s).field "Paths" = .ref m.length := by rw [hd1, field_setField, if_pos rfl]
    have hfo : ∀ go, go ≠ "Paths" → (deref m1 s).field go = (deref m s).field go := by
      intro go hgo
      rw [hd1, field_setField, if_neg hgo, hds]
    have hpr : pathsRef m s = .nil := by simp only [pathsRef, hn]
    have hpr1 : pathsRef m1 s = .nil := by
      have h0 : deref m1 m.length = .struct [] := by simp only [deref, hnew]
      simp only [pathsRef, hfp, h0]; rfl
    have hhk : hooksRef m1 s = hooksRef m s := hfo "Webhooks" (by decide)
    have hit : ∀ path, itemAt m s path = none := by
      intro path; simp only [itemAt, hpr]; rfl
    have hit1 : ∀ path, itemAt m1 s path = none := by
      intro path; simp only [itemAt, hpr1]; rfl
    have hne : ∀ a, hooksRef m s = .ref a → a ≠ s := by
      rintro a h rfl
      rcases ha.hooks with h' | ⟨b, es, h', h2, -⟩
      · rw [h] at h'; cases h'
      · rw [h] at h'; cases h'
        rw [hs] at h2; cases h2
    have hka : ∀ name, hookAt m1 s name = hookAt m s name := by
      intro name
      simp only [hookAt, hhk]
      rw [entries_same fun a h => hkeep a (ha.own_lt (.inr (.inr (.inr h)))) (hne a h)]
    have hown : ∀ x, Own m1 s x → Own m s x ∨ m.length ≤ x := by
      rintro x (rfl | h | h | h)
      · exact .inl (.inl rfl)
      · rw [hfp] at h; cases h; exact .inr (Nat.le_refl _)
      · rw [hpr1] at h; cases h
      · rw [hhk] at h; exact .inl (.inr (.inr (.inr h)))
    have hreach : ∀ Q : Nat → Prop, (∀ x, From m Q x → ¬ Own m s x) → (∀ x, Q x → x < m.length) →
        ∀ x, From m1 Q x → ¬ Own m1 s x := by
      intro Q hQ hQl x hx hw
      have hx' : From m Q x := own_write ha (fun y hy hn => hkeep y hy fun h => hn (.inl h)) hQ hQl hx
      rcases hown x hw with h | h
      · exact hQ x hx' h
      · have := hx'.lt ha.closed hQl
        omega
    refine ⟨m1, m.length, hE, hfp, by omega, hkeep, fun path => by rw [hit, hit1], hka, hfo, ?_, hown, ?_⟩
    · refine ⟨?_, ?_, ⟨_, hss⟩, .inr ⟨m.length, [], hfp, by omega, hnew⟩, .inl hpr1, ?_, ?_, ?_, ?_, ?_⟩
      · intro x o y ho hy
        by_cases hxs : x = s
        · subst hxs
          rw [hss] at ho
          cases ho
          cases hy with
          | cell hy =>
            rcases setField_holds hy with h | h
            · have := ha.closed x _ y hs (.cell h)
              omega
            · cases h; omega
        · by_cases hxl : x < m.length
          · rw [hkeep x hxl hxs] at ho
            have := ha.closed x o y ho hy
            omega
          · have := (List.getElem?_eq_some_iff.mp ho).1
            have hx : x = m.length := by omega
            subst hx
            rw [hnew] at ho
            cases ho
            cases hy with | cell hy => cases hy with | field h _ => cases h
      · intro x hx
        have := ha.env x hx
        omega
      · rw [hhk, hpr1]
        refine ha.hooks.imp_right ?_
        rintro ⟨a, es, h1, h2, -⟩
        exact ⟨a, es, h1, by rw [hkeep a (ha.own_lt (.inr (.inr (.inr h1)))) (hne a h1)]; exact h2, by intro h; cases h⟩
      · intro path item h
        rw [hit1] at h; cases h
      · intro path item x h
        rw [hit1] at h; cases h
      · intro name h x hh
        rw [hka] at hh
        refine hreach _ (fun x => ha.hookInner name h x hh) (fun y hy => ?_) x
        obtain ⟨a, es, -, h2, h3⟩ := entries_mem (get?_mem hh)
        exact ha.closed a _ y h2 (.map h3 hy)
      · exact hreach E ha.others ha.env
    · rintro ⟨p', h⟩
      rw [hn] at h; cases h
  · refine ⟨m, p, by simp only [pathsEns, hp], hp, Nat.le_refl _, fun _ _ _ => rfl, fun _ => rfl, fun _ => rfl,
      fun _ _ => rfl, ha, fun x hx => .inl hx, fun _ => rfl⟩

/-- Storing a path item. -/
theorem store_spec {m : Memory} {s : Nat} {E : Nat → Prop} (ha : Apart m s E) (path : String) {item : MVal}
    (hitem : ∃ fs, item = .struct fs) (hin : ∀ x, From m item.Holds x → ¬ Own m s x)
    (hil : ∀ y, item.Holds y → y < m.length) (hpp : ∃ p, (deref m s).field "Paths" = .ref p) :
    ∀ m2, m2 = storeItem m s path item →
      (∀ path', itemAt m2 s path' = if path' = path then some item else itemAt m s path') ∧
      (∀ name, hookAt m2 s name = hookAt m s name) ∧ deref m2 s = deref m s ∧
      (∀ x, x < m.length → ¬ Own m s x → m2[x]? = m[x]?) ∧ m.length ≤ m2.length ∧ Apart m2 s E ∧
      (∀ x, x < m.length → ¬ Own m2 s x → m2[x]? = m[x]?) := by
  intro m2 hm2
  obtain ⟨p, hp⟩ := hpp
  obtain ⟨fs, hs⟩ := ha.spec
  have hsl : s < m.length := (List.getElem?_eq_some_iff.mp hs).1
  obtain ⟨gs, hps, hpm⟩ : ∃ gs, p ≠ s ∧ m[p]? = some (.cell (.struct gs)) := by
    rcases ha.paths with h | ⟨p', gs, h, h2, h3⟩
    · rw [hp] at h; cases h
    · rw [hp] at h; cases h; exact ⟨gs, h2, h3⟩
  have hpl : p < m.length := (List.getElem?_eq_some_iff.mp hpm).1
  have hdp : deref m p = .struct gs := by simp only [deref, hpm]
  have hpr : pathsRef m s = (MVal.struct gs).field "MapOfPathItemValues" := by simp only [pathsRef, hp, hdp]
  have hmap := ha.map
  rw [hpr] at hmap
  obtain ⟨m1, b, hset, hb, hbf, hkeep1, hlen1⟩ := setItem_spec (m := m) path item hmap
  have hbp : b ≠ p := by
    rcases hbf with h | ⟨-, h⟩
    · rcases hmap with h' | ⟨a, es, h', h2⟩
      · rw [h] at h'; cases h'
      · rw [h] at h'; cases h'
        rintro rfl
        rw [hpm] at h2; cases h2
    · omega
  have hbs : b ≠ s := by
    rcases hbf with h | ⟨-, h⟩
    · rcases hmap with h' | ⟨a, es, h', h2⟩
      · rw [h] at h'; cases h'
      · rw [h] at h'; cases h'
        rintro rfl
        rw [hs] at h2; cases h2
    · omega
  have hd1 : deref m1 p = .struct gs := by rw [deref_same (hkeep1 p (Ne.symm hbp)), hdp]
  have hm2' : m2 = m1.set p (.cell ((MVal.struct gs).setField "MapOfPathItemValues" (.ref b))) := by
    rw [hm2]
    simp only [storeItem, pathsEns, hp, hdp, hset, hd1]
  have hlen2 : m2.length = m1.length := by rw [hm2']; simp
  have h2p : m2[p]? = some (.cell ((MVal.struct gs).setField "MapOfPathItemValues" (.ref b))) := by
    rw [hm2', List.getElem?_set_self (by omega)]
  have h2b : m2[b]? = some (.map (GoMap.set (entries m (pathsRef m s)) path item)) := by
    rw [hm2', List.getElem?_set_ne (Ne.symm hbp), hb, hpr]
  have hkeep : ∀ x, x ≠ p → x ≠ b → m2[x]? = m[x]? := by
    intro x h1 h2
    rw [hm2', List.getElem?_set_ne (Ne.symm h1), hkeep1 x h2]
  have h2s : deref m2 s = deref m s := deref_same (hkeep s (Ne.symm hps) (Ne.symm hbs))
  have hpr2 : pathsRef m2 s = .ref b := by
    have h0 : deref m2 p = (MVal.struct gs).setField "MapOfPathItemValues" (.ref b) := by simp only [deref, h2p]
    simp only [pathsRef, h2s, hp, h0]
    rw [field_setField, if_pos rfl]
  have hhk : hooksRef m2 s = hooksRef m s := by simp only [hooksRef, h2s]
  have hit : ∀ path', itemAt m2 s path' = if path' = path then some item else itemAt m s path' := by
    intro path'
    simp only [itemAt, hpr2]
    rw [entries_map h2b, GoMap.get?_set]
  have hob : Own m s b ∨ m.length ≤ b := by
    rcases hbf with h | ⟨-, h⟩
    · exact .inl (.inr (.inr (.inl (by rw [hpr]; exact h))))
    · exact .inr (by omega)
  have hkeep' : ∀ x, x < m.length → ¬ Own m s x → m2[x]? = m[x]? := by
    intro x hx hn
    refine hkeep x ?_ ?_
    · rintro rfl; exact hn (.inr (.inl hp))
    · rintro rfl
      rcases hob with h | h
      · exact hn h
      · omega
  have hka' : ∀ a, hooksRef m s = .ref a → m2[a]? = m[a]? := by
    intro a h
    rcases ha.hooks with h' | ⟨a', es, h', h2, h3⟩
    · rw [h] at h'; cases h'
    · rw [h] at h'; cases h'
      have hal := (List.getElem?_eq_some_iff.mp h2).1
      refine hkeep a ?_ ?_
      · rintro rfl; rw [hpm] at h2; cases h2
      · rintro rfl
        rcases hbf with h4 | ⟨-, h4⟩
        · rw [hpr] at h3; exact h3 h4
        · omega
  have hka : ∀ name, hookAt m2 s name = hookAt m s name := by
    intro name
    simp only [hookAt, hhk]
    rw [entries_same hka']
  have hown : ∀ x, Own m2 s x → Own m s x ∨ m.length ≤ x := by
    rintro x (rfl | h | h | h)
    · exact .inl (.inl rfl)
    · rw [h2s] at h; exact .inl (.inr (.inl h))
    · rw [hpr2] at h; cases h; exact hob
    · rw [hhk] at h; exact .inl (.inr (.inr (.inr h)))
  have hreach : ∀ Q : Nat → Prop, (∀ x, From m Q x → ¬ Own m s x) → (∀ x, Q x → x < m.length) →
      ∀ x, From m2 Q x → ¬ Own m2 s x := by
    intro Q hQ hQl x hx hw
    have hx' : From m Q x := own_write ha hkeep' hQ hQl hx
    rcases hown x hw with h | h
    · exact hQ x hx' h
    · have := hx'.lt ha.closed hQl
      omega
  refine ⟨hit, hka, h2s, hkeep', by omega, ⟨?_, ?_, ?_, ?_, ?_, ?_, ?_, ?_, ?_, ?_⟩, fun x _ hn => ?_⟩
  · intro x o y ho hy
    by_cases hxp : x = p
    · subst hxp
      rw [h2p] at ho
      cases ho
      cases hy with
      | cell hy =>
        rcases setField_holds hy with h | h
        · have := ha.closed x _ y hpm (.cell h)
          omega
        · cases h
          rw [hlen2]
          exact (List.getElem?_eq_some_iff.mp hb).1
    · by_cases hxb : x = b
      · subst hxb
        rw [h2b] at ho
        cases ho
        cases hy with
        | map h1 h2 =>
          rcases set_mem h1 with h | h
          · obtain ⟨a, es, -, j2, j3⟩ := entries_mem h
            have := ha.closed a _ y j2 (.map j3 h2)
            omega
          · have := hil y (h ▸ h2)
            omega
      · rw [hkeep x hxp hxb] at ho
        have := ha.closed x o y ho hy
        omega
  · intro x hx
    have := ha.env x hx
    omega
  · rw [hkeep s (Ne.symm hps) (Ne.symm hbs)]; exact ha.spec
  · rw [h2s]
    exact .inr ⟨p, _, hp, hps, h2p⟩
  · exact .inr ⟨b, _, hpr2, h2b⟩
  · rw [hhk, hpr2]
    refine ha.hooks.imp_right ?_
    rintro ⟨a, es, h1, h2, h3⟩
    refine ⟨a, es, h1, by rw [hka' a h1]; exact h2, fun h => ?_⟩
    cases h
    rcases hbf with h4 | ⟨-, h4⟩
    · rw [hpr] at h3; exact h3 h4
    · have := (List.getElem?_eq_some_iff.mp h2).1
      omega
  · intro path' item' h
    rw [hit] at h
    split at h
    · cases h; exact hitem
    · exact ha.items path' item' h
  · intro path' item' x h
    rw [hit] at h
    split at h
    · cases h
      exact hreach _ hin hil x
    · refine hreach _ (fun x => ha.inner path' item' x h) (fun y hy => ?_) x
      obtain ⟨z, o, h1, h2⟩ := item_holds h hy
      exact ha.closed z o y h1 h2
  · intro name h x hh
    rw [hka] at hh
    refine hreach _ (fun x => ha.hookInner name h x hh) (fun y hy => ?_) x
    obtain ⟨a, es, -, h2, h3⟩ := entries_mem (get?_mem hh)
    exact ha.closed a _ y h2 (.map h3 hy)
  · exact hreach E ha.others ha.env
  · refine hkeep x ?_ ?_
    · rintro rfl; exact hn (.inr (.inl (by rw [h2s]; exact hp)))
    · rintro rfl; exact hn (.inr (.inr (.inl hpr2)))

/-- Storing a webhook. -/
theorem hook_spec {m : Memory} {s : Nat} {E : Nat → Prop} (ha : Apart m s E) (name : String) {v : MVal}
    (hin : ∀ x, From m v.Holds x → ¬ Own m s x) (hil : ∀ y, v.Holds y → y < m.length) :
    ∀ m1 g, setItem m ((deref m s).field "Webhooks") name v = (m1, g) →
    ∀ m2, m2 = m1.set s (.cell ((deref m1 s).setField "Webhooks" g)) →
      (∀ name', hookAt m2 s name' = if name' = name then some v else hookAt m s name') ∧
      (∀ path, itemAt m2 s path = itemAt m s path) ∧
      (∀ go, go ≠ "Webhooks" → (deref m2 s).field go = (deref m s).field go) ∧
      (∀ x, x < m.length → ¬ Own m s x → m2[x]? = m[x]?) ∧ m.length ≤ m2.length ∧ Apart m2 s E := by
  intro m1 g hset' m2 hm2
  obtain ⟨fs, hs⟩ := ha.spec
  have hsl : s < m.length := (List.getElem?_eq_some_iff.mp hs).1
  have hds : deref m s = .struct fs := by simp only [deref, hs]
  have hmap : (deref m s).field "Webhooks" = .nil ∨
      ∃ (a : Nat) (es : _), (deref m s).field "Webhooks" = .ref a ∧ m[a]? = some (Obj.map es) :=
    ha.hooks.imp_right fun ⟨a, es, h1, h2, _⟩ => ⟨a, es, h1, h2⟩
  obtain ⟨m1', b, hset, hb, hbf, hkeep1, hlen1⟩ := setItem_spec (m := m) name v hmap
  rw [hset] at hset'
  cases hset'
  have hbs : b ≠ s := by
    rcases hbf with h | ⟨-, h⟩
    · rcases hmap with h' | ⟨a, es, h', h2⟩
      · rw [h] at h'; cases h'
      · rw [h] at h'; cases h'
        rintro rfl
        rw [hs] at h2; cases h2
    · omega
  have hd1 : deref m1 s = .struct fs := by rw [deref_same (hkeep1 s (Ne.symm hbs)), hds]
  rw [hd1] at hm2
  have hlen2 : m2.length = m1.length := by rw [hm2]; simp
  have h2s : m2[s]? = some (.cell ((MVal.struct fs).setField "Webhooks" (.ref b))) := by
    rw [hm2, List.getElem?_set_self (by omega)]
  have hd2 : deref m2 s = (MVal.struct fs).setField "Webhooks" (.ref b) := by simp only [deref, h2s]
  have h2b : m2[b]? = some (.map (GoMap.set (entries m (hooksRef m s)) name v)) := by
    rw [hm2, List.getElem?_set_ne (Ne.symm hbs), hb]
    rfl
  have hkeep : ∀ x, x ≠ s → x ≠ b → m2[x]? = m[x]? := by
    intro x h1 h2
    rw [hm2, List.getElem?_set_ne (Ne.symm h1), hkeep1 x h2]
  have hfo : ∀ go, go ≠ "Webhooks" → (deref m2 s).field go = (deref m s).field go := by
    intro go hgo
    rw [hd2, field_setField, if_neg hgo, hds]
  have hfp := hfo "Paths" (by decide)
  have hhk : hooksRef m2 s = .ref b := by rw [hooksRef, hd2, field_setField, if_pos rfl]
  have hbx : ∀ x, (∃ fs, m[x]? = some (.cell (.struct fs))) → x ≠ b := by
    rintro x ⟨gs, h⟩ rfl
    rcases hbf with h1 | ⟨-, h1⟩
    · rcases hmap with h' | ⟨a, es, h', h2⟩
      · rw [h1] at h'; cases h'
      · rw [h1] at h'; cases h'
        rw [h] at h2; cases h2
    · have := (List.getElem?_eq_some_iff.mp h).1
      omega
  have hpm : ∀ a, pathsRef m s = .ref a → m2[a]? = m[a]? := by
    intro a h
    rcases ha.map with h' | ⟨a', es, h', h2⟩
    · rw [h] at h'; cases h'
    · rw [h] at h'; cases h'
      refine hkeep a ?_ ?_
      · rintro rfl; rw [hs] at h2; cases h2
      · rintro rfl
        rcases hbf with h1 | ⟨-, h1⟩
        · rcases ha.hooks with h3 | ⟨a', es', h3, -, h4⟩
          · rw [hooksRef, h1] at h3; cases h3
          · rw [hooksRef, h1] at h3; cases h3
            exact h4 h
        · have := (List.getElem?_eq_some_iff.mp h2).1
          omega
  have hpr : pathsRef m2 s = pathsRef m s := by
    rcases ha.paths with h | ⟨p, gs, h, h1, h2⟩
    · simp only [pathsRef, hfp, h]
    · simp only [pathsRef, hfp, h]
      rw [deref_same (hkeep p h1 (hbx p ⟨gs, h2⟩))]
  have hit : ∀ path, itemAt m2 s path = itemAt m s path := by
    intro path
    simp only [itemAt, hpr]
    rw [entries_same hpm]
  have hka : ∀ name', hookAt m2 s name' = if name' = name then some v else hookAt m s name' := by
    intro name'
    simp only [hookAt, hhk]
    rw [entries_map h2b, GoMap.get?_set]
  have hob : Own m s b ∨ m.length ≤ b := by
    rcases hbf with h | ⟨-, h⟩
    · exact .inl (.inr (.inr (.inr h)))
    · exact .inr (by omega)
  have hkeep' : ∀ x, x < m.length → ¬ Own m s x → m2[x]? = m[x]? := by
    intro x hx hn
    refine hkeep x ?_ ?_
    · rintro rfl; exact hn (.inl rfl)
    · rintro rfl
      rcases hob with h | h
      · exact hn h
      · omega
  have hown : ∀ x, Own m2 s x → Own m s x ∨ m.length ≤ x := by
    rintro x (rfl | h | h | h)
    · exact .inl (.inl rfl)
    · rw [hfp] at h; exact .inl (.inr (.inl h))
    · rw [hpr] at h; exact .inl (.inr (.inr (.inl h)))
    · rw [hhk] at h; cases h; exact hob
  have hreach : ∀ Q : Nat → Prop, (∀ x, From m Q x → ¬ Own m s x) → (∀ x, Q x → x < m.length) →
      ∀ x, From m2 Q x → ¬ Own m2 s x := by
    intro Q hQ hQl x hx hw
    have hx' : From m Q x := own_write ha hkeep' hQ hQl hx
    rcases hown x hw with h | h
    · exact hQ x hx' h
    · have := hx'.lt ha.closed hQl
      omega
  refine ⟨hka, hit, hfo, hkeep', by omega, ⟨?_, ?_, ⟨_, h2s⟩, ?_, ?_, ?_, ?_, ?_, ?_, ?_⟩⟩
  · intro x o y ho hy
    by_cases hxs : x = s
    · subst hxs
      rw [h2s] at ho
      cases ho
      cases hy with
      | cell hy =>
        rcases setField_holds hy with h | h
        · have := ha.closed x _ y hs (.cell h)
          omega
        · cases h
          rw [hlen2]
          exact (List.getElem?_eq_some_iff.mp hb).1
    · by_cases hxb : x = b
      · subst hxb
        rw [h2b] at ho
        cases ho
        cases hy with
        | map h1 h2 =>
          rcases set_mem h1 with h | h
          · obtain ⟨a, es, -, j2, j3⟩ := entries_mem h
            have := ha.closed a _ y j2 (.map j3 h2)
            omega
          · have := hil y (h ▸ h2)
            omega
      · rw [hkeep x hxs hxb] at ho
        have := ha.closed x o y ho hy
        omega
  · intro x hx
    have := ha.env x hx
    omega
  · rw [hfp]
    refine ha.paths.imp_right ?_
    rintro ⟨p, gs, h, h1, h2⟩
    exact ⟨p, gs, h, h1, by rw [hkeep p h1 (hbx p ⟨gs, h2⟩)]; exact h2⟩
  · rw [hpr]
    refine ha.map.imp_right ?_
    rintro ⟨a, es, h, h1⟩
    exact ⟨a, es, h, by rw [hpm a h]; exact h1⟩
  · refine .inr ⟨b, _, hhk, h2b, fun h => ?_⟩
    rw [hpr] at h
    rcases hbf with h1 | ⟨-, h1⟩
    · rcases ha.hooks with h3 | ⟨a', es', h3, -, h4⟩
      · rw [hooksRef, h1] at h3; cases h3
      · rw [hooksRef, h1] at h3; cases h3
        exact h4 h
    · have := ha.own_lt (.inr (.inr (.inl h)))
      omega
  · intro path item h
    rw [hit] at h
    exact ha.items path item h
  · intro path item x h
    rw [hit] at h
    refine hreach _ (fun x => ha.inner path item x h) (fun y hy => ?_) x
    obtain ⟨z, o, h1, h2⟩ := item_holds h hy
    exact ha.closed z o y h1 h2
  · intro name' h x hh
    rw [hka] at hh
    split at hh
    · cases hh
      exact hreach _ hin hil x
    · refine hreach _ (fun x => ha.hookInner name' h x hh) (fun y hy => ?_) x
      obtain ⟨a, es, -, h2, h3⟩ := entries_mem (get?_mem hh)
      exact ha.closed a _ y h2 (.map h3 hy)
  · exact hreach E ha.others ha.env

/-- New objects are apart from the document too. -/
theorem Confined.apart_fresh {R E : Nat → Prop} {m m' : Memory} {s : Nat} (hc : Confined R m m') (ha : Apart m s E)
    (hR : ∀ x, From m R x → ¬ Own m s x) (hRl : ∀ x, R x → x < m.length) :
    Apart m' s (fun x => E x ∨ R x ∨ (m.length ≤ x ∧ x < m'.length)) := by
  obtain ⟨hown, hap, -⟩ := Confined.apart hc ha hR hRl
  refine { hap with env := ?_, others := ?_ }
  · rintro x (h | h | h)
    · exact hap.env x h
    · exact Nat.lt_of_lt_of_le (hRl x h) hc.grows
    · exact h.2
  · intro x hx
    rcases hx.or with h | h
    · exact hap.others x h
    · intro hw
      rw [own_same hown] at hw
      rcases hc.reach' (fun y hy => hy.imp .root And.left) h with h | h
      · exact hR x h hw
      · have := ha.own_lt hw
        omega

/-! ## `SetupOperation` -/

theorem fields_methodField {m F : String} (h : (m, F) ∈ fields) : methodField m = some F := by
  simp only [fields, List.mem_cons, Prod.mk.injEq, List.not_mem_nil, or_false] at h
  rcases h with ⟨rfl, rfl⟩ | ⟨rfl, rfl⟩ | ⟨rfl, rfl⟩ | ⟨rfl, rfl⟩ | ⟨rfl, rfl⟩ | ⟨rfl, rfl⟩ | ⟨rfl, rfl⟩ | ⟨rfl, rfl⟩
  all_goals decide +kernel

theorem methodField_known {m : String} (h : m ∈ PathSpec.methods) : ∃ F, methodField m = some F ∧ (m, F) ∈ fields := by
  have h' : ∃ F, (m, F) ∈ fields := by
    simp only [PathSpec.methods, List.mem_cons, List.not_mem_nil, or_false] at h
    rcases h with rfl | rfl | rfl | rfl | rfl | rfl | rfl | rfl <;> simp [fields]
  obtain ⟨F, hF⟩ := h'
  exact ⟨F, fields_methodField hF, hF⟩

theorem pointee_holds {item : MVal} {F : String} {a : Nat} (h : pointee item F = some a) : item.Holds a := by
  simp only [pointee] at h
  split at h
  · rename_i b hb
    cases h
    exact field_holds (go := F) (by rw [hb]; exact .ref)
  · cases h

theorem opAt_getD {m : Memory} {s : Nat} {path F : String} :
    opAt m s path F = pointee ((itemAt m s path).getD (.struct [])) F := by
  simp only [opAt]
  cases itemAt m s path with
  | none => rfl
  | some item => rfl

theorem opAt_lt {m : Memory} {s a : Nat} {E : Nat → Prop} (ha : Apart m s E) {path F : String}
    (h : opAt m s path F = some a) : a < m.length := by
  cases hi : itemAt m s path with
  | none => simp only [opAt, hi, Option.bind_none] at h; cases h
  | some item =>
    simp only [opAt, hi, Option.bind_some] at h
    obtain ⟨z, o, j1, j2⟩ := item_holds hi (pointee_holds h)
    exact ha.closed z o a j1 j2

theorem runAll_ran {a : Nat} {m' : Memory} {e : Option String} : ∀ (fs : List MSetup) (m : Memory),
    runAll fs m a = (m', e) → Ran fs m a m'
  | [], m, h => by cases h; exact .nil
  | f :: fs, m, h => by
    simp only [runAll] at h
    split at h
    · rename_i h1
      cases h
      exact .fail h1
    · rename_i m1 h1
      exact .cons h1 (runAll_ran fs m1 h)

/-- What `SetupOperation` does, step by step, and when it accepts the operation. -/
theorem setup_steps {m m' : Memory} {s : Nat} {E : Nat → Prop} {method path : String} {fs : List MSetup}
    {e : Option String} (ha : Apart m s E) (h : setupOperation m s method path fs = (m', e)) :
    (∃ msg, sanitizeMethodPath method path = .error msg ∧ m' = m ∧ e = some msg) ∨
    ∃ r F m1 a m2 e2, sanitizeMethodPath method path = .ok r ∧ (r.method, F) ∈ fields ∧
      Apart m1 s (fun x => x = a ∨ E x) ∧ (∀ x, x < m.length → x ≠ s → m1[x]? = m[x]?) ∧ m.length ≤ m1.length ∧
      (∀ path, itemAt m1 s path = itemAt m s path) ∧ (∀ name, hookAt m1 s name = hookAt m s name) ∧
      (∀ go, go ≠ "Paths" → (deref m1 s).field go = (deref m s).field go) ∧
      (∃ p, (deref m1 s).field "Paths" = .ref p) ∧ (∀ x, Own m1 s x → Own m s x ∨ m.length ≤ x) ∧
      (opAt m s r.path F = some a ∧ m1 = m ∨
        opAt m s r.path F = none ∧ m.length ≤ a ∧ deref m1 a = .struct []) ∧
      runAll fs m1 a = (m2, e2) ∧
      ((∃ msg, e = some msg ∧ m' = m2 ∧ (e2 = none →
          validatePathParams (paramsOf m2 (deref m2 a)) (pathParamsMap r.params) = some msg)) ∨
        e2 = none ∧ e = none ∧ validatePathParams (paramsOf m2 (deref m2 a)) (pathParamsMap r.params) = none ∧
          m' = storeItem m2 s r.path (((itemAt m s r.path).getD (.struct [])).setField F (.ref a))) := by
  simp only [setupOperation] at h
  cases hr : sanitizeMethodPath method path with
  | error msg =>
    rw [hr] at h
    cases h
    exact .inl ⟨_, rfl, rfl, rfl⟩
  | ok r =>
    right
    rw [hr] at h
    obtain ⟨m0, p, hE, hp, hlen, hkeep, hit, hhk, hfo, hap, hown, hsame⟩ := pathsEns_spec ha
    simp only [hE] at h
    obtain ⟨F, hF, hFm⟩ := methodField_known (sanitize_method hr).2
    have hpr : (deref m0 p).field "MapOfPathItemValues" = pathsRef m0 s := by simp only [pathsRef, hp]
    have hgi : GoMap.get? (entries m0 ((deref m0 p).field "MapOfPathItemValues")) r.path = itemAt m s r.path := by
      rw [hpr, ← hit]; rfl
    simp only [hgi, hF] at h
    have hop : opAt m s r.path F = pointee ((itemAt m s r.path).getD (.struct [])) F := opAt_getD
    cases ho : opAt m s r.path F with
    | some a =>
      have hf : ((itemAt m s r.path).getD (.struct [])).field F = .ref a := by
        rw [ho] at hop
        simp only [pointee] at hop
        split at hop
        · rename_i b hb; cases hop; exact hb
        · cases hop
      obtain ⟨item, hitm⟩ : ∃ item, itemAt m s r.path = some item := by
        cases hi : itemAt m s r.path with
        | none => simp only [opAt, hi, Option.bind_none] at ho; cases ho
        | some item => exact ⟨item, rfl⟩
      have hm0 : m0 = m := by
        apply hsame
        rcases ha.paths with h1 | ⟨p', _, h1, -⟩
        · have : pathsRef m s = .nil := by simp only [pathsRef, h1]
          simp only [itemAt, this] at hitm
          cases hitm
        · exact ⟨p', h1⟩
      subst hm0
      simp only [hf, existingOrNew] at h
      have hah : item.Holds a := by
        refine pointee_holds (F := F) ?_
        rw [hop, hitm] at ho; exact ho
      have hal : a < m0.length := by
        obtain ⟨z, o, h1, h2⟩ := item_holds hitm hah
        exact ha.closed z o a h1 h2
      have hapa : Apart m0 s (fun x => x = a ∨ E x) :=
        { ha with
          env := fun x hx => hx.elim (fun h => h ▸ hal) (ha.env x)
          others := by
            intro x hx
            rcases hx.or with h1 | h1
            · exact ha.inner r.path item x hitm (h1.mono fun y hy => hy ▸ .root hah)
            · exact ha.others x h1 }
      cases hrun : runAll fs m0 a with
      | mk m2 e2 =>
        refine ⟨r, F, m0, a, m2, e2, rfl, hFm, hapa, fun _ _ _ => rfl, Nat.le_refl _, fun _ => rfl, fun _ => rfl,
          fun _ _ => rfl, ⟨p, hp⟩, fun x hx => .inl hx, .inl ⟨ho, rfl⟩, hrun, ?_⟩
        simp only [hrun] at h
        cases e2 with
        | some msg => cases h; exact .inl ⟨_, rfl, rfl, nofun⟩
        | none =>
          simp only at h
          split at h
          · rename_i hv; cases h; exact .inl ⟨_, rfl, rfl, fun _ => hv⟩
          · rename_i hv; cases h; exact .inr ⟨rfl, rfl, hv, rfl⟩
    | none =>
      have hf : ∀ b, ((itemAt m s r.path).getD (.struct [])).field F ≠ .ref b := by
        intro b hb
        rw [ho] at hop
        simp only [pointee, hb] at hop
        cases hop
      have hsplit : existingOrNew m0 (((itemAt m s r.path).getD (.struct [])).field F) =
          (m0 ++ [Obj.cell (.struct [])], m0.length) := by
        simp only [existingOrNew]
      simp only [hsplit] at h
      have hcf : Confined E m0 (m0 ++ [Obj.cell (.struct [])]) := .alloc m0 _ fun y hy => by
        cases hy with | cell hy => cases hy with | field h _ => cases h
      obtain ⟨hown1, hap1, -⟩ := Confined.apart hcf hap hap.others hap.env
      have hfr := Confined.apart_fresh hcf hap hap.others hap.env
      have hapa : Apart (m0 ++ [Obj.cell (.struct [])]) s (fun x => x = m0.length ∨ E x) := by
        refine hfr.mono ?_
        rintro x (rfl | hx)
        · exact .inr (.inr (by simp))
        · exact .inl hx
      cases hrun : runAll fs (m0 ++ [Obj.cell (.struct [])]) m0.length with
      | mk m2 e2 =>
        refine ⟨r, F, _, m0.length, m2, e2, rfl, hFm, hapa, fun x hx hs => ?_, by simp; omega, fun q => ?_, fun q => ?_,
          fun go hgo => ?_, ⟨p, ?_⟩, fun x hx => hown x ((own_same hown1 x).mp hx), .inr ⟨ho, hlen, ?_⟩, hrun, ?_⟩
        · rw [getElem?_append_old _ _ (by omega), hkeep x hx hs]
        · rw [itemAt_same hown1, hit]
        · rw [hookAt_same hown1, hhk]
        · rw [deref_same (hown1 s (.inl rfl)), hfo go hgo]
        · rw [deref_same (hown1 s (.inl rfl)), hp]
        · simp only [deref, getElem?_append_new]
        · simp only [hrun] at h
          cases e2 with
          | some msg => cases h; exact .inl ⟨_, rfl, rfl, nofun⟩
          | none =>
            simp only at h
            split at h
            · rename_i hv; cases h; exact .inl ⟨_, rfl, rfl, fun _ => hv⟩
            · rename_i hv; cases h; exact .inr ⟨rfl, rfl, hv, rfl⟩

/-- What `SetupOperation` does, step by step. -/
theorem setup_cases {m m' : Memory} {s : Nat} {E : Nat → Prop} {method path : String} {fs : List MSetup}
    {e : Option String} (ha : Apart m s E) (h : setupOperation m s method path fs = (m', e)) :
    (∃ msg, sanitizeMethodPath method path = .error msg ∧ m' = m ∧ e = some msg) ∨
    ∃ r F m1 a m2 e2, sanitizeMethodPath method path = .ok r ∧ (r.method, F) ∈ fields ∧
      Apart m1 s (fun x => x = a ∨ E x) ∧ (∀ x, x < m.length → x ≠ s → m1[x]? = m[x]?) ∧ m.length ≤ m1.length ∧
      (∀ path, itemAt m1 s path = itemAt m s path) ∧ (∀ name, hookAt m1 s name = hookAt m s name) ∧
      (∀ go, go ≠ "Paths" → (deref m1 s).field go = (deref m s).field go) ∧
      (∃ p, (deref m1 s).field "Paths" = .ref p) ∧ (∀ x, Own m1 s x → Own m s x ∨ m.length ≤ x) ∧
      (opAt m s r.path F = some a ∧ m1 = m ∨
        opAt m s r.path F = none ∧ m.length ≤ a ∧ deref m1 a = .struct []) ∧
      runAll fs m1 a = (m2, e2) ∧
      ((∃ msg, e = some msg ∧ m' = m2) ∨
        e2 = none ∧ e = none ∧
          m' = storeItem m2 s r.path (((itemAt m s r.path).getD (.struct [])).setField F (.ref a))) := by
  rcases setup_steps ha h with h1 | ⟨r, F, m1, a, m2, e2, h1, h2, h3, h4, h5, h6, h7, h8, h9, h10, h11, h12, h13⟩
  · exact .inl h1
  · refine .inr ⟨r, F, m1, a, m2, e2, h1, h2, h3, h4, h5, h6, h7, h8, h9, h10, h11, h12, ?_⟩
    exact h13.imp (fun ⟨msg, k1, k2, _⟩ => ⟨msg, k1, k2⟩) (fun ⟨k1, k2, _, k3⟩ => ⟨k1, k2, k3⟩)

/-! ## The response `204` -/

theorem assign_confined (m : Memory) (a : Nat) (v : MVal) :
    Confined (fun x => x = a ∨ v.Holds x) m (m.set a (.cell v)) := by
  refine (assign_uses (fun _ => False) v m a).mono ?_
  rintro x (h | h | h)
  · exact .root (.inl h)
  · cases h
  · exact .root (.inr h)

theorem noContent_spec {m : Memory} {r : Nat} {fs : List (String × MVal)} (hr : m[r]? = some (Obj.cell (.struct fs)))
    (hc : (MVal.struct fs).field "MapOfResponseOrReferenceValues" = .nil ∨ ∃ (c : Nat) (es : _),
      (MVal.struct fs).field "MapOfResponseOrReferenceValues" = .ref c ∧ m[c]? = some (Obj.map es)) :
    Confined (· = r) m (noContent m r) ∧
    (noContent m r = m ∧ ¬ (entries m ((MVal.struct fs).field "MapOfResponseOrReferenceValues") = [] ∧
        (MVal.struct fs).field "Default" = .nil) ∨
      (entries m ((MVal.struct fs).field "MapOfResponseOrReferenceValues") = [] ∧
        (MVal.struct fs).field "Default" = .nil) ∧
      ∃ b, (noContent m r)[r]? = some (.cell ((MVal.struct fs).setField "MapOfResponseOrReferenceValues" (.ref b))) ∧
        (noContent m r)[b]? = some (.map [("204", .struct [("Response", .ref m.length)])]) ∧
        (noContent m r)[m.length]? = some (.cell (.struct [("Description", .lit (.str "No Content"))])) ∧
        ((MVal.struct fs).field "MapOfResponseOrReferenceValues" = .ref b ∨ m.length ≤ b) ∧
        (∀ x, x < m.length → x ≠ r → x ≠ b → (noContent m r)[x]? = m[x]?)) := by
  have hrl : r < m.length := (List.getElem?_eq_some_iff.mp hr).1
  have hd : deref m r = .struct fs := by simp only [deref, hr]
  by_cases hn : entries m ((MVal.struct fs).field "MapOfResponseOrReferenceValues") = [] ∧
      (MVal.struct fs).field "Default" = .nil
  · generalize hcod : (MVal.struct fs).field "MapOfResponseOrReferenceValues" = codes at *
    generalize hm1 : m ++ [Obj.cell (.struct [("Description", .lit (.str "No Content"))])] = m1
    have h1l : m1.length = m.length + 1 := by rw [← hm1]; simp
    have h1k : ∀ x, x < m.length → m1[x]? = m[x]? := fun x hx => by rw [← hm1, getElem?_append_old _ _ hx]
    have h1n : m1[m.length]? = some (.cell (.struct [("Description", .lit (.str "No Content"))])) := by
      rw [← hm1, getElem?_append_new]
    have hc1 : codes = .nil ∨ ∃ (c : Nat) (es : _), codes = .ref c ∧ m1[c]? = some (Obj.map es) :=
      hc.imp_right fun ⟨c, es, h1, h2⟩ => ⟨c, es, h1, by rw [h1k c (List.getElem?_eq_some_iff.mp h2).1]; exact h2⟩
    have he1 : entries m1 codes = [] := by
      rw [entries_same fun x hx => h1k x ?_]
      · exact hn.1
      · rcases hc with h | ⟨c, es, h, h2⟩
        · rw [hx] at h; cases h
        · rw [hx] at h; cases h
          exact (List.getElem?_eq_some_iff.mp h2).1
    obtain ⟨m2, b, hset, hb, hbf, hk, hl⟩ := setItem_spec (m := m1) "204" (.struct [("Response", .ref m.length)]) hc1
    rw [he1] at hb
    have hbn : b ≠ m.length := by
      rcases hbf with h | ⟨-, h⟩
      · rcases hc with h' | ⟨c, es, h', h2⟩
        · rw [h] at h'; cases h'
        · rw [h] at h'; cases h'
          have := (List.getElem?_eq_some_iff.mp h2).1
          omega
      · omega
    have hbr : b ≠ r := by
      rcases hbf with h | ⟨-, h⟩
      · rcases hc with h' | ⟨c, es, h', h2⟩
        · rw [h] at h'; cases h'
        · rw [h] at h'; cases h'
          rintro rfl
          rw [hr] at h2; cases h2
      · omega
    have hd2 : deref m2 r = .struct fs := by
      rw [deref_same (hk r (Ne.symm hbr)), deref_same (h1k r hrl), hd]
    have heq : noContent m r = m2.set r (.cell ((MVal.struct fs).setField "MapOfResponseOrReferenceValues" (.ref b))) := by
      simp only [noContent, hd, hcod, hn.1, hn.2, List.length_nil, hm1, hset, hd2]
    have hcf1 : Confined (· = r) m m1 := by
      rw [← hm1]
      exact .alloc m _ fun y hy => by
        cases hy with
        | cell hy =>
          cases hy with
          | field h1 h2 =>
            simp only [List.mem_cons, Prod.mk.injEq, List.not_mem_nil, or_false] at h1
            obtain ⟨-, rfl⟩ := h1
            cases h2
    rw [heq]
    refine ⟨?_, .inr ⟨hn, b, ?_, ?_, ?_, ?_, ?_⟩⟩
    · have hrh : ∀ y, codes.Holds y → From m1 (fun x => x = r ∨ x = m.length) y := by
        intro y hy
        refine .step (.root (.inl rfl)) (by rw [h1k r hrl]; exact hr) (.cell ?_)
        exact field_holds (go := "MapOfResponseOrReferenceValues") (by rw [hcod]; exact hy)
      obtain ⟨j1, -⟩ := setItem_confined (m := m1) (R := fun x => x = r ∨ x = m.length) (f := codes)
        (v := .struct [("Response", .ref m.length)]) "204" hrh (by
          intro y hy
          cases hy with
          | field h1 h2 =>
            simp only [List.mem_cons, Prod.mk.injEq, List.not_mem_nil, or_false] at h1
            obtain ⟨-, rfl⟩ := h1
            cases h2
            exact .root (.inr rfl))
      rw [hset] at j1
      have hcf2 : Confined (· = r) m m2 := hcf1.trans' j1 (by
        rintro y (rfl | rfl)
        · exact .inl (.root rfl)
        · exact .inr ⟨Nat.le_refl _, by omega⟩)
      refine hcf2.trans' (assign_confined m2 r _) ?_
      rintro y (rfl | h)
      · exact .inl (.root rfl)
      · rcases setField_holds h with h | h
        · exact .inl (.step (.root rfl) hr (.cell h))
        · cases h
          rcases hbf with h | ⟨-, h⟩
          · refine .inl (.step (.root rfl) hr (.cell ?_))
            exact field_holds (go := "MapOfResponseOrReferenceValues") (by rw [hcod, h]; exact .ref)
          · exact .inr ⟨by omega, (List.getElem?_eq_some_iff.mp hb).1⟩
    · rw [List.getElem?_set_self (by omega)]
    · rw [List.getElem?_set_ne (Ne.symm hbr), hb]
      rfl
    · rw [List.getElem?_set_ne (by omega), hk _ (Ne.symm hbn), h1n]
    · rcases hbf with h | ⟨-, h⟩
      · exact .inl h
      · exact .inr (by omega)
    · intro x hx h1 h2
      rw [List.getElem?_set_ne (Ne.symm h1), hk x h2, h1k x hx]
  · have heq : noContent m r = m := by
      simp only [noContent, hd]
      split
      · rename_i h1 h2
        exact absurd ⟨List.length_eq_zero_iff.mp h1, h2⟩ hn
      · rfl
    rw [heq]
    exact ⟨.refl _ _, .inl ⟨rfl, hn⟩⟩

/-- What `AddOperation` and `AddWebhook` do to the operation they are given. -/
theorem ensure_spec {m m' : Memory} {op op' : MVal} {E : Nat → Prop} (hop : ∀ y, op.Holds y → From m E y)
    (hr : RespOk m op) (h : ensureResponse m op = (m', op')) :
    Confined E m m' ∧ (∀ y, op'.Holds y → From m E y ∨ (m.length ≤ y ∧ y < m'.length)) ∧
    (¬ NoResponse m op → m' = m ∧ op' = op) ∧
    (∀ go, go ≠ "Responses" → op'.field go = op.field go) ∧
    (∀ r, op.field "Responses" = .ref r → op' = op) ∧
    (NoResponse m op → (∃ fs, op = .struct fs) →
      (∃ d, entries m' ((responses m' op').field "MapOfResponseOrReferenceValues") =
          [("204", .struct [("Response", .ref d)])] ∧
        deref m' d = .struct [("Description", .lit (.str "No Content"))]) ∧
      (∀ go, go ≠ "MapOfResponseOrReferenceValues" →
        (responses m' op').field go = (responses m op).field go)) ∧
    (∀ x, x < m.length → m'[x]? = m[x]? ∨ NoResponse m op ∧ (op.field "Responses" = .ref x ∨
      (responses m op).field "MapOfResponseOrReferenceValues" = .ref x)) ∧ RespOk m' op' := by
  rcases hr with hn | ⟨r, fs, hf, hm, hc⟩
  · -- no responses: new ones
    have hresp : responses m op = .struct [] := by simp only [responses, hn]
    have hno : NoResponse m op := ⟨by rw [hresp]; rfl, by rw [hresp]; rfl⟩
    simp only [ensureResponse, responsesEns, hn, Prod.mk.injEq] at h
    obtain ⟨h1, h2⟩ := h
    have hm1 : (m ++ [Obj.cell (.struct [])])[m.length]? = some (Obj.cell (.struct [])) := getElem?_append_new _ _
    have hcf1 : Confined E m (m ++ [Obj.cell (.struct [])]) := .alloc m _ fun y hy => by
      cases hy with | cell hy => cases hy with | field h _ => cases h
    obtain ⟨j1, j2⟩ := noContent_spec hm1 (.inl rfl)
    rw [h1] at j1 j2
    have hlen := j1.grows
    rw [List.length_append, List.length_singleton] at hlen
    have hcf : Confined E m m' := hcf1.trans' j1 (by
      rintro y rfl
      exact .inr ⟨Nat.le_refl _, by simp⟩)
    rcases j2 with ⟨-, j2⟩ | ⟨-, b, k1, k2, k3, k4, k5⟩
    · exact absurd ⟨rfl, rfl⟩ j2
    · have hfr : ∀ (fs : List (String × MVal)), op = .struct fs → op'.field "Responses" = .ref m.length := by
        rintro fs rfl
        rw [← h2, field_setField, if_pos rfl]
      have hkeep : ∀ x, x < m.length → m'[x]? = m[x]? := by
        intro x hx
        have hb : m.length ≤ b := by
          rcases k4 with h | h
          · cases h
          · simp at h; omega
        rw [k5 x (by simp; omega) (by omega) (by omega), getElem?_append_old _ _ hx]
      refine ⟨hcf, ?_, fun h => absurd hno h, ?_, ?_, ?_, fun x hx => .inl (hkeep x hx), ?_⟩
      · intro y hy
        rw [← h2] at hy
        rcases setField_holds hy with h | h
        · exact .inl (hop y h)
        · cases h; exact .inr ⟨Nat.le_refl _, by omega⟩
      · intro go hgo
        rw [← h2]
        cases op with
        | struct fs => rw [field_setField, if_neg hgo]
        | _ => rfl
      · intro r h
        rw [hn] at h; cases h
      · rintro - ⟨fs, hfs⟩
        have hd : responses m' op' = (MVal.struct []).setField "MapOfResponseOrReferenceValues" (.ref b) := by
          simp only [responses, hfr fs hfs, deref, k1]
        refine ⟨⟨(m ++ [Obj.cell (.struct [])]).length, ?_, ?_⟩, fun go hgo => ?_⟩
        · rw [hd, field_setField, if_pos rfl, entries_map k2]
        · simp only [deref, k3]
        · rw [hd, field_setField, if_neg hgo, hresp]
      · cases op with
        | struct fs =>
          refine .inr ⟨m.length, _, hfr fs rfl, k1, .inr ⟨b, _, ?_, k2⟩⟩
          exact (field_setField ..).trans (if_pos rfl)
        | _ => rw [← h2]; exact .inl rfl
  · have hd : deref m r = .struct fs := by simp only [deref, hm]
    have hresp : responses m op = .struct fs := by simp only [responses, hf, hd]
    simp only [ensureResponse, responsesEns, hf, Prod.mk.injEq] at h
    obtain ⟨h1, rfl⟩ := h
    obtain ⟨j1, j2⟩ := noContent_spec hm hc
    rw [h1] at j1 j2
    have hrE : From m E r := hop r (field_holds (go := "Responses") (by rw [hf]; exact .ref))
    have hcf : Confined E m m' := j1.mono fun x hx => hx ▸ hrE
    have hno : NoResponse m op ↔ (entries m ((MVal.struct fs).field "MapOfResponseOrReferenceValues") = [] ∧
        (MVal.struct fs).field "Default" = .nil) := by rw [NoResponse, hresp]
    rcases j2 with ⟨j2, j3⟩ | ⟨j3, b, k1, k2, k3, k4, k5⟩
    · subst j2
      refine ⟨hcf, fun y hy => .inl (hop y hy), fun _ => ⟨rfl, rfl⟩, fun _ _ => rfl, fun _ _ => rfl,
        fun h => absurd (hno.mp h) j3, fun x hx => .inl rfl, .inr ⟨r, fs, hf, hm, hc⟩⟩
    · have hd' : responses m' op = (MVal.struct fs).setField "MapOfResponseOrReferenceValues" (.ref b) := by
        simp only [responses, hf, deref, k1]
      refine ⟨hcf, fun y hy => .inl (hop y hy), fun h => absurd (hno.mpr j3) h, fun _ _ => rfl, fun _ _ => rfl,
        fun _ _ => ⟨⟨m.length, ?_, ?_⟩, fun go hgo => ?_⟩, fun x hx => ?_, .inr ⟨r, _, hf, k1, .inr ⟨b, _, ?_, k2⟩⟩⟩
      · rw [hd', field_setField, if_pos rfl, entries_map k2]
      · simp only [deref, k3]
      · rw [hd', field_setField, if_neg hgo, hresp]
      · by_cases hxr : x = r
        · exact .inr ⟨hno.mpr j3, .inl (hxr ▸ hf)⟩
        · by_cases hxb : x = b
          · subst hxb
            rcases k4 with h | h
            · exact .inr ⟨hno.mpr j3, .inr (by rw [hresp]; exact h)⟩
            · omega
          · exact .inl (k5 x hx hxr hxb)
      · exact (field_setField ..).trans (if_pos rfl)

/-- What is there before `AddOperation` and `AddWebhook` store the operation. -/
structure Prepared (m : Memory) (s : Nat) (E : Nat → Prop) (op : MVal) (m1 : Memory) (op1 : MVal) : Prop where
  apart : Apart m1 s (fun x => E x ∨ op1.Holds x)
  items : ∀ path, itemAt m1 s path = itemAt m s path
  hooks : ∀ name, hookAt m1 s name = hookAt m s name
  fields : ∀ go, go ≠ "Paths" → (deref m1 s).field go = (deref m s).field go
  grows : m.length ≤ m1.length
  keeps : ∀ x, x < m.length → x ≠ s → m1[x]? = m[x]? ∨ NoResponse m op ∧ (op.field "Responses" = .ref x ∨
      (responses m op).field "MapOfResponseOrReferenceValues" = .ref x)
  own : ∀ x, Own m1 s x → Own m s x ∨ m.length ≤ x
  same : ¬ NoResponse m op → op1 = op ∧ ∀ x, From m E x → m1[x]? = m[x]?
  others : ∀ go, go ≠ "Responses" → op1.field go = op.field go
  shared : ∀ r, op.field "Responses" = .ref r → op1 = op
  none : NoResponse m op → (∃ fs, op = .struct fs) →
      (∃ d, entries m1 ((responses m1 op1).field "MapOfResponseOrReferenceValues") =
          [("204", .struct [("Response", .ref d)])] ∧
        deref m1 d = .struct [("Description", .lit (.str "No Content"))]) ∧
      (∀ go, go ≠ "MapOfResponseOrReferenceValues" → (responses m1 op1).field go = (responses m op).field go)
  resp : RespOk m1 op1
  reach : ∀ x, From m1 (fun x => E x ∨ op1.Holds x) x → From m E x ∨ m.length ≤ x

theorem From.same' {m m' : Memory} {R : Nat → Prop} (h : ∀ x, From m R x → m'[x]? = m[x]?) {x : Nat}
    (hx : From m R x) : From m' R x := by
  induction hx with
  | root hr => exact .root hr
  | step hx ho hy ih => exact .step ih (by rw [h _ hx]; exact ho) hy

theorem prepare {m m0 m1 : Memory} {s : Nat} {E : Nat → Prop} {op op1 : MVal} (ha : Apart m s E)
    (hop : ∀ y, op.Holds y → From m E y) (hr : RespOk m op) (hap : Apart m0 s E) (hlen : m.length ≤ m0.length)
    (hkeep : ∀ x, x < m.length → x ≠ s → m0[x]? = m[x]?) (hit : ∀ path, itemAt m0 s path = itemAt m s path)
    (hhk : ∀ name, hookAt m0 s name = hookAt m s name)
    (hfo : ∀ go, go ≠ "Paths" → (deref m0 s).field go = (deref m s).field go)
    (hown : ∀ x, Own m0 s x → Own m s x ∨ m.length ≤ x) (h : ensureResponse m0 op = (m1, op1)) :
    Prepared m s E op m1 op1 := by
  have hE : ∀ x, From m E x → m0[x]? = m[x]? := fun x hx =>
    hkeep x (hx.lt ha.closed ha.env) fun h => ha.others x hx (.inl h)
  have hop0 : ∀ y, op.Holds y → From m0 E y := fun y hy => From.same' hE (hop y hy)
  have hrr : ∀ r, op.field "Responses" = .ref r → From m E r := fun r h =>
    hop r (field_holds (go := "Responses") (by rw [h]; exact .ref))
  have hresp : responses m0 op = responses m op := by
    simp only [responses]
    split
    · rename_i r h
      rw [deref_same (hE r (hrr r h))]
    · rfl
  have hcc : ∀ c, (responses m op).field "MapOfResponseOrReferenceValues" = .ref c → From m E c := by
    intro c hc
    simp only [responses] at hc
    split at hc
    · rename_i r h
      have h1 : (deref m r).Holds c := field_holds (go := "MapOfResponseOrReferenceValues") (by rw [hc]; exact .ref)
      obtain ⟨o, h2, h3⟩ := deref_holds h1
      exact .step (hrr r h) h2 h3
    · cases hc
  have hr0 : RespOk m0 op := by
    refine hr.imp_right ?_
    rintro ⟨r, fs, h1, h2, h3⟩
    refine ⟨r, fs, h1, by rw [hE r (hrr r h1)]; exact h2, h3.imp_right ?_⟩
    rintro ⟨c, es, h4, h5⟩
    have : From m E c := hcc c (by simp only [responses, h1, deref, h2]; exact h4)
    exact ⟨c, es, h4, by rw [hE c this]; exact h5⟩
  have hno : NoResponse m0 op ↔ NoResponse m op := by
    simp only [NoResponse, hresp]
    rw [entries_same fun x hx => hE x (hcc x hx)]
  obtain ⟨e1, e2, e3, e4, e5, e6, e7, e8⟩ := ensure_spec hop0 hr0 h
  obtain ⟨hown1, -, -⟩ := Confined.apart e1 hap hap.others hap.env
  have hfr := Confined.apart_fresh e1 hap hap.others hap.env
  have hg := e1.grows
  refine { apart := ?_, items := ?_, hooks := ?_, fields := ?_, grows := by omega, keeps := ?_, own := ?_, same := ?_,
           others := e4, shared := e5, none := ?_, resp := e8, reach := ?_ }
  · have h1 : Apart m1 s (fun x => E x ∨ E x ∨ (m0.length ≤ x ∧ x < m1.length)) := hfr
    refine { h1 with env := ?_, others := ?_ }
    · rintro x (hx | hx)
      · exact h1.env x (.inl hx)
      · rcases e2 x hx with h | h
        · exact Nat.lt_of_lt_of_le (h.lt hap.closed hap.env) hg
        · exact h.2
    · intro x hx hw
      rcases hx.or with hx | hx
      · exact h1.others x (hx.mono fun y hy => .root (.inl hy)) hw
      · rw [own_same hown1] at hw
        rcases e1.reach' (fun y hy => (e2 y hy).imp_right And.left) hx with h | h
        · exact hap.others x h hw
        · have := hap.own_lt hw
          omega
  · intro path; rw [itemAt_same hown1, hit]
  · intro name; rw [hookAt_same hown1, hhk]
  · intro go hgo; rw [deref_same (hown1 s (.inl rfl)), hfo go hgo]
  · intro x hx hs
    rw [← hkeep x hx hs, ← hno, ← hresp]
    exact e7 x (by omega)
  · intro x hx
    exact hown x ((own_same hown1 x).mp hx)
  · intro hn
    obtain ⟨h1, h2⟩ := e3 fun h => hn (hno.mp h)
    exact ⟨h2, fun x hx => by rw [h1, hE x hx]⟩
  · intro hn
    rw [← hresp]
    exact e6 (hno.mpr hn)
  · intro x hx
    rcases e1.reach' (fun y hy => hy.elim (fun h => .inl (.root h)) fun h => (e2 y h).imp_right And.left) hx with h | h
    · exact .inl (From.same hE h)
    · exact .inr (by omega)

/-- What `AddOperation` does, step by step. -/
theorem add_cases {m m' : Memory} {s : Nat} {E : Nat → Prop} {method path : String} {op : MVal} {e : Option String}
    (ha : Apart m s E) (hop : ∀ y, op.Holds y → From m E y) (hr : RespOk m op)
    (h : addOperation m s method path op = (m', e)) :
    (∃ msg, e = some msg ∧ Apart m' s E ∧ m.length ≤ m'.length ∧ (∀ x, x < m.length → x ≠ s → m'[x]? = m[x]?) ∧
      (∀ path, itemAt m' s path = itemAt m s path) ∧ (∀ name, hookAt m' s name = hookAt m s name) ∧
      (∀ go, go ≠ "Paths" → (deref m' s).field go = (deref m s).field go)) ∨
    ∃ F m1 op1, methodField (goToLower method) = some F ∧ opAt m s path F = none ∧ Prepared m s E op m1 op1 ∧
      setupOperation m1 s (goToLower method) path [fun m a => (m.set a (.cell op1), none)] = (m', e) := by
  obtain ⟨m0, p, hE, hp, hlen, hkeep, hit, hhk, hfo, hap, hown, hsame⟩ := pathsEns_spec ha
  simp only [addOperation, hE] at h
  have hpr : (deref m0 p).field "MapOfPathItemValues" = pathsRef m0 s := by simp only [pathsRef, hp]
  have hgi : GoMap.get? (entries m0 ((deref m0 p).field "MapOfPathItemValues")) path = itemAt m s path := by
    rw [hpr, ← hit]; rfl
  rw [hgi] at h
  have hearly : ∀ msg, m' = m0 → e = some msg → _ := fun msg h1 h2 => by
    subst h1
    exact (⟨msg, h2, hap, hlen, hkeep, hit, hhk, hfo⟩ : ∃ msg, e = some msg ∧ Apart m' s E ∧ m.length ≤ m'.length ∧
      (∀ x, x < m.length → x ≠ s → m'[x]? = m[x]?) ∧
      (∀ path, itemAt m' s path = itemAt m s path) ∧ (∀ name, hookAt m' s name = hookAt m s name) ∧
      (∀ go, go ≠ "Paths" → (deref m' s).field go = (deref m s).field go))
  cases hF : methodField (goToLower method) with
  | none =>
    rw [hF] at h
    cases h
    exact .inl (hearly _ rfl rfl)
  | some F =>
    rw [hF] at h
    simp only at h
    split at h
    · cases h
      exact .inl (hearly _ rfl rfl)
    · rename_i hnr
      right
      cases he : ensureResponse m0 op with
      | mk m1 op1 =>
        rw [he] at h
        refine ⟨F, m1, op1, rfl, ?_, prepare ha hop hr hap hlen hkeep hit hhk hfo hown he, h⟩
        rw [opAt_getD, pointee]
        split
        · rename_i a hb; exact absurd hb (hnr a)
        · rfl

/-- What `AddWebhook` does, step by step. -/
theorem hook_cases {m m' : Memory} {s : Nat} {E : Nat → Prop} {method name : String} {op : MVal} {e : Option String}
    (ha : Apart m s E) (hop : ∀ y, op.Holds y → From m E y) (hr : RespOk m op)
    (h : addWebhook m s method name op = (m', e)) :
    (∃ v, hookAt m s name = some v ∧ m' = m ∧ e = some ("duplicate webhook name: " ++ name)) ∨
    hookAt m s name = none ∧ ∃ m1 op1, Prepared m s E op m1 op1 ∧ (∀ x, Own m s x → m1[x]? = m[x]?) ∧
      ((∃ msg, sanitizeMethodPath (goToLower method) "/" = .error msg ∧ e = some msg ∧ m' = m1) ∨
      ∃ F m2 m3 g, (goToLower method, F) ∈ fields ∧ e = none ∧
        m2 = m1 ++ [.cell op1] ++ [.cell (.struct [(F, .ref m1.length)])] ∧
        setItem m2 ((deref m2 s).field "Webhooks") name (.struct [("PathItem", .ref (m1.length + 1))]) = (m3, g) ∧
        m' = m3.set s (.cell ((deref m3 s).setField "Webhooks" g))) := by
  simp only [addWebhook] at h
  have hh : hookAt m s name = GoMap.get? (entries m ((deref m s).field "Webhooks")) name := rfl
  cases hg : GoMap.get? (entries m ((deref m s).field "Webhooks")) name with
  | some v =>
    rw [hg] at h hh
    cases h
    exact .inl ⟨v, hh, rfl, rfl⟩
  | none =>
    rw [hg] at h hh
    refine .inr ⟨hh, ?_⟩
    cases he : ensureResponse m op with
    | mk m1 op1 =>
      rw [he] at h
      have hpre := prepare ha hop hr ha (Nat.le_refl _) (fun _ _ _ => rfl) (fun _ => rfl) (fun _ => rfl)
        (fun _ _ => rfl) (fun _ h => .inl h) he
      obtain ⟨e1, -⟩ := ensure_spec hop hr he
      obtain ⟨hown1, -, -⟩ := Confined.apart e1 ha ha.others ha.env
      refine ⟨m1, op1, hpre, hown1, ?_⟩
      simp only at h
      cases hs : sanitizeMethodPath (goToLower method) "/" with
      | error msg =>
        rw [hs] at h
        cases h
        exact .inl ⟨msg, rfl, rfl, rfl⟩
      | ok r =>
        right
        obtain ⟨F, hF, hFm⟩ := methodField_known (sanitize_method hs).2
        rw [hs] at h
        simp only [hF] at h
        rw [(sanitize_method hs).1, goToLower_idem] at hFm
        refine ⟨F, _, _, _, hFm, ?_, rfl, rfl, ?_⟩
        · exact (Prod.mk.inj h).2.symm
        · have hl : (m1 ++ [Obj.cell op1]).length = m1.length + 1 := by simp
          rw [hl] at h
          exact (Prod.mk.inj h).1.symm

/-- What the document is like after a webhook is stored. -/
theorem hook_stored {m1 m2 m3 m' : Memory} {s : Nat} {E : Nat → Prop} {op1 g : MVal} {F name : String}
    (hap : Apart m1 s (fun x => E x ∨ op1.Holds x))
    (hm2 : m2 = m1 ++ [.cell op1] ++ [.cell (.struct [(F, .ref m1.length)])])
    (hset : setItem m2 ((deref m2 s).field "Webhooks") name (.struct [("PathItem", .ref (m1.length + 1))]) = (m3, g))
    (hm' : m' = m3.set s (.cell ((deref m3 s).setField "Webhooks" g))) :
    (∀ name', hookAt m' s name' =
      if name' = name then some (.struct [("PathItem", .ref (m1.length + 1))]) else hookAt m1 s name') ∧
    (∀ path, itemAt m' s path = itemAt m1 s path) ∧
    (∀ go, go ≠ "Webhooks" → (deref m' s).field go = (deref m1 s).field go) ∧
    m'[m1.length]? = some (.cell op1) ∧
    m'[m1.length + 1]? = some (.cell (.struct [(F, .ref m1.length)])) ∧
    (∀ x, x < m1.length → ¬ Own m1 s x → m'[x]? = m1[x]?) ∧
    Apart m' s (fun x => x = m1.length ∨ x = m1.length + 1 ∨ E x) := by
  have hl2 : m2.length = m1.length + 2 := by rw [hm2]; simp
  have hold : ∀ x, x < m1.length → m2[x]? = m1[x]? := by
    intro x hx
    rw [hm2, getElem?_append_old _ _ (by simp; omega), getElem?_append_old _ _ hx]
  have h2a : m2[m1.length]? = some (.cell op1) := by
    rw [hm2, getElem?_append_old _ _ (by simp), getElem?_append_new]
  have h2i : m2[m1.length + 1]? = some (.cell (.struct [(F, .ref m1.length)])) := by
    have := getElem?_append_new (m1 ++ [.cell op1]) (.cell (.struct [(F, .ref m1.length)]))
    rw [List.length_append, List.length_singleton] at this
    rw [hm2, this]
  have hcf : Confined (fun x => E x ∨ op1.Holds x) m1 m2 := by
    refine (Confined.alloc m1 (.cell op1) fun y hy => ?_).trans' (Q := fun x => x = m1.length) ?_ ?_
    · cases hy with | cell hy => exact .root (.inr hy)
    · rw [hm2]
      refine Confined.alloc _ _ fun y hy => ?_
      cases hy with
      | cell hy => cases hy with
        | field h1 h2 =>
          rw [List.mem_singleton] at h1
          cases h1
          cases h2
          exact .root rfl
    · rintro y rfl
      exact .inr ⟨Nat.le_refl _, by simp⟩
  obtain ⟨hown2, -, -⟩ := Confined.apart hcf hap hap.others hap.env
  have hap2 := Confined.apart_fresh hcf hap hap.others hap.env
  have hfresh : ∀ x, m1.length ≤ x ∧ x < m2.length → ¬ Own m2 s x := fun x hx =>
    hap2.others x (.root (.inr (.inr hx)))
  obtain ⟨k1, k2, k3, k4, k5, k6⟩ := hook_spec hap2 name (v := .struct [("PathItem", .ref (m1.length + 1))])
    (by
      intro x hx
      refine hap2.others x (hx.mono fun y hy => ?_)
      cases hy with
      | field h1 h2 =>
        rw [List.mem_singleton] at h1
        cases h1
        cases h2
        exact .root (.inr (.inr ⟨by omega, by omega⟩)))
    (by
      intro y hy
      cases hy with
      | field h1 h2 =>
        rw [List.mem_singleton] at h1
        cases h1
        cases h2
        omega) m3 g hset m' hm'
  refine ⟨fun name' => by rw [k1, hookAt_same hown2], fun path => by rw [k2, itemAt_same hown2],
    fun go hgo => by rw [k3 go hgo, deref_same (hown2 s (.inl rfl))],
    by rw [k4 m1.length (by omega) (hfresh _ ⟨by omega, by omega⟩), h2a],
    by rw [k4 (m1.length + 1) (by omega) (hfresh _ ⟨by omega, by omega⟩), h2i], fun x hx hn => ?_, k6.mono ?_⟩
  · rw [k4 x (by omega) ?_, hold x hx]
    intro h
    rw [own_same hown2] at h
    exact hn h
  · rintro x (rfl | rfl | hx)
    · exact .inr (.inr ⟨by omega, by omega⟩)
    · exact .inr (.inr ⟨by omega, by omega⟩)
    · exact .inl (.inl hx)

end Verif.Mem31
