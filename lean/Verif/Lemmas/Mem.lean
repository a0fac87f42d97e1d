import Verif.Spec.Mem
import Verif.Lemmas.Go

/-!
# Lemmas about memory (C88)
-/

namespace Verif.Mem

/-! ## Reachability -/

theorem From.mono {m : Memory} {R R' : Nat → Prop} (h : ∀ x, R x → From m R' x) {x : Nat} (hx : From m R x) :
    From m R' x := by
  induction hx with
  | root hr => exact h _ hr
  | step _ ho hy ih => exact .step ih ho hy

theorem From.or {m : Memory} {R R' : Nat → Prop} {x : Nat} (hx : From m (fun x => R x ∨ R' x) x) :
    From m R x ∨ From m R' x := by
  induction hx with
  | root hr => exact hr.imp .root .root
  | step _ ho hy ih => exact ih.imp (fun h => .step h ho hy) (fun h => .step h ho hy)

/-- The same objects are reached if all that were reached are unchanged. -/
theorem From.same {m m' : Memory} {R : Nat → Prop} (h : ∀ x, From m R x → m'[x]? = m[x]?) {x : Nat}
    (hx : From m' R x) : From m R x := by
  induction hx with
  | root hr => exact .root hr
  | step _ ho hy ih => exact .step ih (by rw [← h _ ih]; exact ho) hy

theorem From.lt {m : Memory} {R : Nat → Prop} (hc : ∀ (x : Nat) (o : Obj) (y : Nat), m[x]? = some o → o.Holds y → y < m.length)
    (hr : ∀ x, R x → x < m.length) {x : Nat} (hx : From m R x) : x < m.length := by
  cases hx with
  | root h => exact hr _ h
  | step _ ho hy => exact hc _ _ _ ho hy

theorem elems_same {m m' : Memory} {a off len : Nat} (h : m'[a]? = m[a]?) :
    elems m' (.slice a off len) = elems m (.slice a off len) := by
  simp only [elems, h]

theorem entries_same {m m' : Memory} {v : MVal} (h : ∀ a, v = .ref a → m'[a]? = m[a]?) :
    entries m' v = entries m v := by
  cases v with
  | ref a => simp only [entries, h a rfl]
  | _ => rfl

theorem mem_elems {m : Memory} {a off len : Nat} {v : MVal} (h : v ∈ elems m (.slice a off len)) :
    ∃ vs, m[a]? = some (.arr vs) ∧ v ∈ vs := by
  simp only [elems] at h
  split at h
  · rename_i vs he
    exact ⟨vs, he, List.mem_of_mem_drop (List.mem_of_mem_take h)⟩
  · cases h

/-- A value reads the same if everything it leads to is unchanged. -/
theorem tree_same {m m' : Memory} (k : Nat) : ∀ (v : MVal), (∀ x, From m v.Holds x → m'[x]? = m[x]?) →
    tree m' k v = tree m k v := by
  induction k with
  | zero => intro v _; rfl
  | succ k ih =>
    intro v h
    cases v with
    | nil => rfl
    | lit v => rfl
    | struct fs =>
      simp only [tree, Codec.Val.struct.injEq]
      refine List.map_congr_left fun p hp => ?_
      rw [ih p.2 (fun x hx => h x (hx.mono fun y hy => .root (.field hp hy)))]
    | slice a off len =>
      have ha : m'[a]? = m[a]? := h a (.root .slice)
      simp only [tree, Codec.Val.list.injEq, elems_same ha]
      refine List.map_congr_left fun w hw => ?_
      obtain ⟨vs, he, hm⟩ := mem_elems hw
      exact ih w (fun x hx => h x (hx.mono fun y hy => .step (.root .slice) he (.arr hm hy)))
    | ref a =>
      have ha : m'[a]? = m[a]? := h a (.root .ref)
      simp only [tree, ha]
      split
      · rename_i v he
        exact ih v (fun x hx => h x (hx.mono fun y hy => .step (.root .ref) he (.cell hy)))
      · rename_i es he
        simp only [Codec.Val.map.injEq]
        refine List.map_congr_left fun p hp => ?_
        rw [ih p.2 (fun x hx => h x (hx.mono fun y hy => .step (.root .ref) he (.map hp hy)))]
      · rfl

/-! ## Confined changes -/

theorem Confined.refl (R : Nat → Prop) (m : Memory) : Confined R m m :=
  ⟨Nat.le_refl _, fun _ _ _ => rfl, fun _ _ _ h _ => .inl h⟩

theorem Confined.mono {R R' : Nat → Prop} {m m' : Memory} (h : Confined R m m') (hs : ∀ x, R x → From m R' x) :
    Confined R' m m' :=
  ⟨h.grows, fun x hx hn => h.keeps x hx fun hf => hn (hf.mono hs),
    fun x o y ho hy => (h.refs x o y ho hy).imp_right (.imp_left (·.mono hs))⟩

/-- After a confined change nothing old can be reached that could not be reached before. -/
theorem Confined.reach {R : Nat → Prop} {m m' : Memory} (h : Confined R m m') {x : Nat} (hx : From m' R x) :
    From m R x ∨ m.length ≤ x := by
  induction hx with
  | root hr => exact .inl (.root hr)
  | @step x o y _ ho hy ih =>
    rcases h.refs x o y ho hy with h1 | h1 | h1
    · rcases ih with h2 | h2
      · exact .inl (.step h2 h1 hy)
      · rw [List.getElem?_eq_none h2] at h1; cases h1
    · exact .inl h1
    · exact .inr h1.1

theorem Confined.trans {R : Nat → Prop} {m m1 m2 : Memory} (h : Confined R m m1) (h' : Confined R m1 m2) :
    Confined R m m2 := by
  refine ⟨Nat.le_trans h.grows h'.grows, fun x hx hn => ?_, fun x o y ho hy => ?_⟩
  · rw [h'.keeps x (Nat.lt_of_lt_of_le hx h.grows) fun hf => ?_, h.keeps x hx hn]
    rcases h.reach hf with h1 | h1
    · exact hn h1
    · omega
  · have hg := h.grows
    have hg' := h'.grows
    rcases h'.refs x o y ho hy with h1 | h1 | h1
    · rcases h.refs x o y h1 hy with h2 | h2 | h2
      · exact .inl h2
      · exact .inr (.inl h2)
      · exact .inr (.inr ⟨h2.1, by omega⟩)
    · rcases h.reach h1 with h2 | h2
      · exact .inr (.inl h2)
      · by_cases hy2 : y < m2.length
        · exact .inr (.inr ⟨h2, hy2⟩)
        · -- reached in `m1` but outside of it: it must be a root
          exact .inr (.inl (by
            have : ∀ z, From m1 R z → ¬ z < m1.length → From m R z ∨ m.length ≤ z ∧ z < m2.length := by
              intro z hz hn
              cases hz with
              | root hr => exact .inl (.root hr)
              | @step x o _ hx ho hy =>
                rcases h.refs x o z ho hy with h3 | h3 | h3
                · rcases h.reach hx with h4 | h4
                  · exact .inl (.step h4 h3 hy)
                  · rw [List.getElem?_eq_none h4] at h3; cases h3
                · exact .inl h3
                · omega
            rcases this y h1 (by omega) with h3 | h3
            · exact h3
            · omega))
    · exact .inr (.inr ⟨by omega, h1.2⟩)

theorem getElem?_append_new (m : Memory) (o : Obj) : (m ++ [o])[m.length]? = some o := by simp

theorem getElem?_append_old (m : Memory) (o : Obj) {x : Nat} (h : x < m.length) : (m ++ [o])[x]? = m[x]? :=
  List.getElem?_append_left h

/-- Making an object that only refers to what can be reached. -/
theorem Confined.alloc {R : Nat → Prop} (m : Memory) (o : Obj) (h : ∀ y, o.Holds y → From m R y) :
    Confined R m (m ++ [o]) := by
  refine ⟨by simp, fun x hx _ => getElem?_append_old m o hx, fun x o' y ho hy => ?_⟩
  by_cases hx : x < m.length
  · rw [getElem?_append_old m o hx] at ho
    exact .inl ho
  · by_cases hx' : x = m.length
    · subst hx'
      rw [getElem?_append_new] at ho
      cases ho
      exact .inr (.inl (h y hy))
    · rw [List.getElem?_eq_none (by simp; omega)] at ho
      cases ho

/-! ## The loop over setup functions -/

theorem runAll_confined {E : Nat → Prop} {a : Nat} : ∀ (fs : List MSetup) (m : Memory), (∀ f ∈ fs, Uses E f) →
    Confined (fun x => x = a ∨ E x) m (runAll fs m a).1
  | [], m, _ => .refl _ _
  | f :: fs, m, h => by
    have h1 := h f (List.mem_cons_self ..) m a
    simp only [runAll]
    split
    · rename_i m' e he
      rw [he] at h1
      exact h1
    · rename_i m' he
      rw [he] at h1
      exact h1.trans (runAll_confined fs m' fun g hg => h g (List.mem_cons_of_mem _ hg))

theorem runAll_assigns {a : Nat} : ∀ (fs : List MSetup) (m : Memory), (∀ f ∈ fs, AssignsOnly f) →
    m.length ≤ (runAll fs m a).1.length ∧ ∀ x, x < m.length → x ≠ a → (runAll fs m a).1[x]? = m[x]?
  | [], m, _ => ⟨Nat.le_refl _, fun _ _ _ => rfl⟩
  | f :: fs, m, h => by
    have h1 := h f (List.mem_cons_self ..) m a
    simp only [runAll]
    split
    · rename_i m' e he
      rw [he] at h1
      exact h1
    · rename_i m' he
      rw [he] at h1
      have h2 := runAll_assigns (a := a) fs m' fun g hg => h g (List.mem_cons_of_mem _ hg)
      refine ⟨Nat.le_trans h1.1 h2.1, fun x hx hn => ?_⟩
      rw [h2.2 x (Nat.lt_of_lt_of_le hx h1.1) hn, h1.2 x hx hn]

theorem runAll_none_iff {a : Nat} {m' : Memory} : ∀ (fs : List MSetup) (m : Memory),
    runAll fs m a = (m', none) ↔ AllRun fs m a m'
  | [], m => by
    simp only [runAll, Prod.mk.injEq, and_true]
    exact ⟨fun h => h ▸ .nil, fun h => by cases h; rfl⟩
  | f :: fs, m => by
    simp only [runAll]
    constructor
    · intro h
      split at h
      · cases h
      · rename_i m1 he
        exact .cons he ((runAll_none_iff fs m1).mp h)
    · intro h
      cases h with
      | cons h1 h2 =>
        simp only [h1]
        exact (runAll_none_iff fs _).mpr h2

/-! ## Documents -/

theorem deref_same {m m' : Memory} {a : Nat} (h : m'[a]? = m[a]?) : deref m' a = deref m a := by
  simp only [deref, h]

section Same
variable {m m' : Memory} {s : Nat} (h : ∀ x, Own m s x → m'[x]? = m[x]?)
include h

theorem pathsRef_same : pathsRef m' s = pathsRef m s := by
  simp only [pathsRef, deref_same (h s (.inl rfl))]

theorem itemAt_same (path : String) : itemAt m' s path = itemAt m s path := by
  simp only [itemAt, pathsRef_same h]
  rw [entries_same fun a ha => h a (.inr (.inl ha))]

theorem entries_item {path : String} {item : MVal} (hi : itemAt m s path = some item) :
    entries m' (opsRef item) = entries m (opsRef item) :=
  entries_same fun a ha => h a (.inr (.inr ⟨path, item, hi, ha⟩))

theorem opAt_same (path method : String) : opAt m' s path method = opAt m s path method := by
  simp only [opAt, itemAt_same h]
  cases hi : itemAt m s path with
  | none => rfl
  | some item => simp only [Option.bind_some, entries_item h hi]

theorem own_same (x : Nat) : Own m' s x ↔ Own m s x := by
  simp only [Own, pathsRef_same h, itemAt_same h]

end Same

theorem get?_mem {V : Type} : ∀ {m : List (String × V)} {k : String} {v : V}, GoMap.get? m k = some v → (k, v) ∈ m
  | [], _, _, h => by cases h
  | (k', v') :: m, k, v, h => by
    simp only [GoMap.get?] at h
    split at h
    · rename_i hk
      cases h
      exact hk ▸ List.mem_cons_self ..
    · exact List.mem_cons_of_mem _ (get?_mem h)

theorem field_holds {v : MVal} {go : String} {y : Nat} (h : (v.field go).Holds y) : v.Holds y := by
  cases v with
  | struct fs =>
    simp only [MVal.field] at h
    cases hg : GoMap.get? fs go with
    | none => simp only [hg, Option.getD_none] at h; cases h
    | some w => simp only [hg, Option.getD_some] at h; exact .field (get?_mem hg) h
  | _ => cases h

theorem set_mem {V : Type} : ∀ {m : List (String × V)} {k k' : String} {v v' : V}, (k', v') ∈ GoMap.set m k v →
    (k', v') ∈ m ∨ v' = v
  | [], _, _, _, _, h => by
    simp only [GoMap.set, List.mem_cons, Prod.mk.injEq, List.not_mem_nil, or_false] at h
    exact .inr h.2
  | (k1, v1) :: m, k, k', v, v', h => by
    simp only [GoMap.set] at h
    split at h
    · rcases List.mem_cons.mp h with h | h
      · cases h; exact .inr rfl
      · exact .inl (List.mem_cons_of_mem _ h)
    · rcases List.mem_cons.mp h with h | h
      · cases h; exact .inl (List.mem_cons_self ..)
      · exact (set_mem h).imp_left (List.mem_cons_of_mem _)

theorem setField_holds {v w : MVal} {go : String} {y : Nat} (h : (v.setField go w).Holds y) :
    v.Holds y ∨ w.Holds y := by
  cases v with
  | struct fs =>
    simp only [MVal.setField] at h
    cases h with
    | field hm hy =>
      rcases set_mem hm with h1 | h1
      · exact .inl (.field h1 hy)
      · exact .inr (h1 ▸ hy)
  | _ => exact .inl h

theorem entries_mem {m : Memory} {v : MVal} {k : String} {w : MVal} (h : (k, w) ∈ entries m v) :
    ∃ a es, v = .ref a ∧ m[a]? = some (.map es) ∧ (k, w) ∈ es := by
  cases v with
  | ref a =>
    simp only [entries] at h
    split at h
    · rename_i es he
      exact ⟨a, es, rfl, he, h⟩
    · cases h
  | _ => cases h

theorem deref_holds {m : Memory} {a y : Nat} (h : (deref m a).Holds y) : ∃ o, m[a]? = some o ∧ o.Holds y := by
  simp only [deref] at h
  split at h
  · rename_i v hv
    exact ⟨_, hv, .cell h⟩
  · cases h

theorem Apart.own_lt {m : Memory} {s : Nat} {E : Nat → Prop} (h : Apart m s E) {x : Nat} (hx : Own m s x) :
    x < m.length := by
  rcases hx with hx | hx | ⟨path, item, hi, hx⟩
  · obtain ⟨fs, h1⟩ := h.spec
    rw [hx]
    exact (List.getElem?_eq_some_iff.mp h1).1
  · rcases h.paths with h1 | ⟨a, es, h1, h2⟩
    · rw [h1] at hx; cases hx
    · rw [h1] at hx; cases hx
      exact (List.getElem?_eq_some_iff.mp h2).1
  · rcases (h.items path item hi).2 with h1 | ⟨b, es, h1, h2, -⟩
    · rw [h1] at hx; cases hx
    · rw [h1] at hx; cases hx
      exact (List.getElem?_eq_some_iff.mp h2).1

theorem item_holds {m : Memory} {s : Nat} {path : String} {item : MVal} (hi : itemAt m s path = some item) {y : Nat}
    (hy : item.Holds y) : ∃ (x : Nat) (o : Obj), m[x]? = some o ∧ o.Holds y := by
  obtain ⟨a, es, -, h2, h3⟩ := entries_mem (get?_mem hi)
  exact ⟨a, _, h2, .map h3 hy⟩

theorem op_holds {m : Memory} {s : Nat} {path method : String} {op : MVal} (hi : opAt m s path method = some op)
    {y : Nat} (hy : op.Holds y) : ∃ (x : Nat) (o : Obj), m[x]? = some o ∧ o.Holds y := by
  simp only [opAt] at hi
  cases hj : itemAt m s path with
  | none => simp [hj] at hi
  | some item =>
    simp only [hj, Option.bind_some] at hi
    obtain ⟨a, es, -, h2, h3⟩ := entries_mem (get?_mem hi)
    exact ⟨a, _, h2, .map h3 hy⟩

/-- Changes confined to objects that do not lead to the document's own leave it laid out and apart. -/
theorem Confined.apart {R E : Nat → Prop} {m m' : Memory} {s : Nat} (hc : Confined R m m') (ha : Apart m s E)
    (hR : ∀ x, From m R x → ¬ Own m s x) (hRl : ∀ x, R x → x < m.length) :
    (∀ x, Own m s x → m'[x]? = m[x]?) ∧ Apart m' s E ∧ ∀ x, From m' R x → ¬ Own m' s x := by
  have hown : ∀ x, Own m s x → m'[x]? = m[x]? := fun x hx => hc.keeps x (ha.own_lt hx) fun hf => hR x hf hx
  have hreach : ∀ Q : Nat → Prop, (∀ x, From m Q x → ¬ Own m s x) → ∀ x, From m' Q x → ¬ Own m' s x := by
    intro Q hQ x hx hw
    rw [own_same hown] at hw
    have hc' : Confined (fun x => R x ∨ Q x) m m' := hc.mono fun y hy => .root (.inl hy)
    rcases hc'.reach (hx.mono fun y hy => .root (.inr hy)) with h1 | h1
    · rcases h1.or with h2 | h2
      · exact hR x h2 hw
      · exact hQ x h2 hw
    · have := ha.own_lt hw
      omega
  refine ⟨hown, ⟨?_, ?_, ?_, ?_, ?_, ?_, ?_, ?_⟩, hreach R hR⟩
  · intro x o y ho hy
    rcases hc.refs x o y ho hy with h1 | h1 | h1
    · exact Nat.lt_of_lt_of_le (ha.closed x o y h1 hy) hc.grows
    · exact Nat.lt_of_lt_of_le (h1.lt ha.closed hRl) hc.grows
    · exact h1.2
  · exact fun x hx => Nat.lt_of_lt_of_le (ha.env x hx) hc.grows
  · rw [hown s (.inl rfl)]; exact ha.spec
  · rw [pathsRef_same hown]
    rcases ha.paths with h1 | ⟨a, es, h1, h2⟩
    · exact .inl h1
    · exact .inr ⟨a, es, h1, by rw [hown a (.inr (.inl h1))]; exact h2⟩
  · intro path item hi
    rw [itemAt_same hown] at hi
    refine ⟨(ha.items path item hi).1, (ha.items path item hi).2.imp_right ?_⟩
    rintro ⟨b, es, h1, h2, h3⟩
    exact ⟨b, es, h1, by rw [hown b (.inr (.inr ⟨path, item, hi, h1⟩))]; exact h2, by rw [pathsRef_same hown]; exact h3⟩
  · intro path path' item item' b h1 h2
    rw [itemAt_same hown] at h1 h2
    exact ha.distinct path path' item item' b h1 h2
  · intro path method op x ho
    rw [opAt_same hown] at ho
    exact hreach _ (fun x => ha.ops path method op x ho) x
  · exact hreach E ha.others

/-! ## Storing -/

theorem setItem_spec {m : Memory} {f : MVal} (key : String) (val : MVal)
    (hf : f = .nil ∨ ∃ (a : Nat) (es : _), f = .ref a ∧ m[a]? = some (Obj.map es)) :
    ∃ (m' : Memory) (b : Nat), setItem m f key val = (m', .ref b) ∧
      m'[b]? = some (.map (GoMap.set (entries m f) key val)) ∧ (f = .ref b ∨ f = .nil ∧ b = m.length) ∧
      (∀ x, x ≠ b → m'[x]? = m[x]?) ∧ m.length ≤ m'.length := by
  rcases hf with hf | ⟨a, es, hf, ha⟩
  · subst hf
    refine ⟨_, _, rfl, getElem?_append_new _ _, .inr ⟨rfl, rfl⟩, fun x hx => ?_, by simp⟩
    by_cases h : x < m.length
    · exact getElem?_append_old _ _ h
    · rw [List.getElem?_eq_none (by simp; omega), List.getElem?_eq_none (by omega)]
  · subst hf
    refine ⟨_, _, rfl, ?_, .inl rfl, fun x hx => ?_, by simp⟩
    · rw [List.getElem?_set_self (List.getElem?_eq_some_iff.mp ha).1]
    · rw [List.getElem?_set_ne (Ne.symm hx)]

theorem field_setField (fs : List (String × MVal)) (go go' : String) (w : MVal) :
    ((MVal.struct fs).setField go w).field go' = if go' = go then w else (MVal.struct fs).field go' := by
  simp only [MVal.setField, MVal.field]
  rw [GoMap.get?_set]
  split <;> rfl

theorem inner_struct (v : MVal) (go : String) : ∃ fs, v.inner go = .struct fs := by
  simp only [MVal.inner]
  split
  · exact ⟨_, rfl⟩
  · exact ⟨_, rfl⟩

theorem inner_holds {v : MVal} {go : String} {y : Nat} (h : (v.inner go).Holds y) : v.Holds y := by
  simp only [MVal.inner] at h
  split at h
  · rename_i fs hf
    exact field_holds (hf ▸ h)
  · cases h with | field h _ => cases h

theorem inner_setField_struct (fs ps : List (String × MVal)) (go go' : String) (w : MVal) :
    ((MVal.struct fs).setField go ((MVal.struct ps).setField go' w)).inner go = (MVal.struct ps).setField go' w := by
  simp only [MVal.inner, field_setField, if_true]
  rfl

theorem entries_map {m : Memory} {a : Nat} {es : List (String × MVal)} (h : m[a]? = some (.map es)) :
    entries m (.ref a) = es := by
  simp only [entries, h]

/-- The end of `SetupOperation`: the operation is put in the map of operations and the item in the map of paths. -/
theorem store_spec {m : Memory} {s : Nat} {E : Nat → Prop} (ha : Apart m s E) (path method : String) (op : MVal)
    (hop : ∀ x, From m op.Holds x → ¬ Own m s x) (hol : ∀ y, op.Holds y → y < m.length) :
    ∀ item, item = (itemAt m s path).getD (.struct []) → ∀ m1 f, setItem m (opsRef item) method op = (m1, f) →
    ∀ m2, m2 = storeItem m1 s path (item.setField "MapOfOperationValues" f) →
      (∀ path' method', opAt m2 s path' method' =
        if path' = path ∧ method' = method then some op else opAt m s path' method') ∧
      (∀ x, x < m.length → ¬ Own m s x → m2[x]? = m[x]?) ∧ m.length ≤ m2.length ∧
      Apart m2 s E ∧
      (∀ path' go, go ≠ "MapOfOperationValues" → ((itemAt m2 s path').getD (.struct [])).field go =
        ((itemAt m s path').getD (.struct [])).field go) ∧
      (∀ go, go ≠ "Paths" → (deref m2 s).field go = (deref m s).field go) ∧
      (∀ go, go ≠ "MapOfPathItemValues" →
        ((deref m2 s).inner "Paths").field go = ((deref m s).inner "Paths").field go) := by
  intro item hitem m1 f hm1 m2 hm2
  obtain ⟨fs, hs1⟩ := ha.spec
  obtain ⟨ps, hf3⟩ := inner_struct (.struct fs) "Paths"
  have hsl : s < m.length := (List.getElem?_eq_some_iff.mp hs1).1
  -- the item
  have hi : (∃ fs, item = .struct fs) ∧ (opsRef item = .nil ∨ ∃ (b : Nat) (es : _), opsRef item = .ref b ∧
      m[b]? = some (.map es) ∧ pathsRef m s ≠ .ref b) := by
    cases hj : itemAt m s path with
    | none => rw [hitem, hj]; exact ⟨⟨[], rfl⟩, .inl rfl⟩
    | some i => rw [hitem, hj]; exact ha.items path i hj
  obtain ⟨⟨is, his⟩, hi2⟩ := hi
  have hi3 : opsRef item = .nil ∨ ∃ (b : Nat) (es : _), opsRef item = .ref b ∧ m[b]? = some (Obj.map es) :=
    hi2.imp_right fun ⟨b, es, h1, h2, _⟩ => ⟨b, es, h1, h2⟩
  have hiown : ∀ b, opsRef item = .ref b → itemAt m s path = some item := by
    intro b hb
    cases hj : itemAt m s path with
    | none => rw [hitem, hj] at hb; cases hb
    | some i => rw [hitem, hj]; rfl
  obtain ⟨m1', b, e1, hb1, hb2, hb3, hb4⟩ := setItem_spec method op hi3
  rw [e1] at hm1
  cases hm1
  have hbs : b ≠ s := by
    rintro rfl
    rcases hb2 with h | ⟨-, h⟩
    · rcases hi3 with h1 | ⟨b', es, h1, h2⟩
      · rw [h1] at h; cases h
      · rw [h1] at h; cases h
        rw [h2] at hs1; cases hs1
    · omega
  have hs1' : m1[s]? = some (.cell (.struct fs)) := by rw [hb3 s (Ne.symm hbs)]; exact hs1
  have hpr : pathsRef m1 s = pathsRef m s := by
    simp only [pathsRef, deref_same (hb3 s (Ne.symm hbs))]
  have hbp : ∀ a, pathsRef m s = .ref a → a ≠ b := by
    rintro a h1 rfl
    rcases hb2 with h | ⟨-, h⟩
    · rcases hi2 with h2 | ⟨b', es, h2, -, h3⟩
      · rw [h2] at h; cases h
      · rw [h2] at h; cases h
        exact h3 h1
    · rcases ha.paths with h2 | ⟨a', es, h2, h3⟩
      · rw [h2] at h1; cases h1
      · rw [h2] at h1; cases h1
        have := (List.getElem?_eq_some_iff.mp h3).1
        omega
  have hpa : pathsRef m1 s = .nil ∨ ∃ (a : Nat) (es : _), pathsRef m1 s = .ref a ∧ m1[a]? = some (Obj.map es) := by
    rw [hpr]
    rcases ha.paths with h | ⟨a, es, h1, h2⟩
    · exact .inl h
    · exact .inr ⟨a, es, h1, by rw [hb3 a (hbp a h1)]; exact h2⟩
  have hent : entries m1 (pathsRef m1 s) = entries m (pathsRef m s) := by
    rw [hpr]; exact entries_same fun a h => hb3 a (hbp a h)
  obtain ⟨m3, g, e3, hg1, hg2, hg3, hg4⟩ :=
    setItem_spec path (item.setField "MapOfOperationValues" (.ref b)) hpa
  have hgs : g ≠ s := by
    rintro rfl
    rcases hg2 with h | ⟨-, h⟩
    · rcases hpa with h1 | ⟨b', es, h1, h2⟩
      · rw [h1] at h; cases h
      · rw [h1] at h; cases h
        rw [h2] at hs1'; cases hs1'
    · omega
  have hb1l : b < m1.length := (List.getElem?_eq_some_iff.mp hb1).1
  have hgb : g ≠ b := by
    rintro rfl
    rcases hg2 with h | ⟨-, h⟩
    · rw [hpr] at h; exact hbp _ h rfl
    · omega
  have hs3 : m3[s]? = some (.cell (.struct fs)) := by rw [hg3 s (Ne.symm hgs)]; exact hs1'
  have hd3 : deref m3 s = .struct fs := by simp only [deref, hs3]
  have hm2' : m2 = m3.set s (.cell ((MVal.struct fs).setField "Paths" ((MVal.struct ps).setField "MapOfPathItemValues"
      (.ref g)))) := by
    rw [hm2]
    simp only [storeItem, e3, hd3, hf3]
  have hs2' : m2[s]? = some (.cell ((MVal.struct fs).setField "Paths" ((MVal.struct ps).setField "MapOfPathItemValues"
      (.ref g)))) := by
    rw [hm2', List.getElem?_set_self (List.getElem?_eq_some_iff.mp hs3).1]
  have hx2 : ∀ x, x ≠ s → m2[x]? = m3[x]? := by
    intro x hx
    rw [hm2', List.getElem?_set_ne (Ne.symm hx)]
  have hx : ∀ x, x ≠ s → x ≠ g → x ≠ b → m2[x]? = m[x]? := by
    intro x h1 h2 h3
    rw [hx2 x h1, hg3 x h2, hb3 x h3]
  have hg' : m2[g]? = some (.map (GoMap.set (entries m (pathsRef m s)) path
      (item.setField "MapOfOperationValues" (.ref b)))) := by
    rw [hx2 g hgs, hg1, hent]
  have hb' : m2[b]? = some (.map (GoMap.set (entries m (opsRef item)) method op)) := by
    rw [hx2 b hbs, hg3 b (Ne.symm hgb), hb1]
  have hd2 : deref m2 s = (MVal.struct fs).setField "Paths" ((MVal.struct ps).setField "MapOfPathItemValues"
      (.ref g)) := by simp only [deref, hs2']
  have hd : deref m s = .struct fs := by simp only [deref, hs1]
  have hpr2 : pathsRef m2 s = .ref g := by
    simp only [pathsRef, hd2, inner_setField_struct, field_setField, if_true]
  have hgOwn : Own m s g ∨ m.length ≤ g := by
    rcases hg2 with h | ⟨-, h⟩
    · exact .inl (.inr (.inl (hpr ▸ h)))
    · exact .inr (by omega)
  have hbOwn : Own m s b ∨ m.length ≤ b := by
    rcases hb2 with h | ⟨-, h⟩
    · exact .inl (.inr (.inr ⟨path, item, hiown b h, h⟩))
    · exact .inr (by omega)
  have hold : ∀ x, x < m.length → ¬ Own m s x → m2[x]? = m[x]? := by
    intro x hl hn
    refine hx x (fun h => hn (.inl h)) (fun h => ?_) (fun h => ?_)
    · rcases hgOwn with h1 | h1
      · exact hn (h ▸ h1)
      · omega
    · rcases hbOwn with h1 | h1
      · exact hn (h ▸ h1)
      · omega
  have hlen : m.length ≤ m2.length := by
    rw [hm2', List.length_set]; omega
  have hitem2 : ∀ path', itemAt m2 s path' = if path' = path then
      some (item.setField "MapOfOperationValues" (.ref b)) else itemAt m s path' := by
    intro path'
    simp only [itemAt, hpr2, entries_map hg']
    rw [GoMap.get?_set]
  have hitemf : opsRef (item.setField "MapOfOperationValues" (.ref b)) = .ref b := by
    rw [his]; simp only [opsRef, field_setField, if_true]
  -- the maps of operations of other paths
  have hothers : ∀ path' i, path' ≠ path → itemAt m s path' = some i →
      ∀ c, opsRef i = .ref c → c ≠ s ∧ c ≠ g ∧ c ≠ b ∧ c < m.length := by
    intro path' i hne hi' c hc
    rcases (ha.items path' i hi').2 with h1 | ⟨c', es, h1, h2, h3⟩
    · rw [h1] at hc; cases hc
    · rw [h1] at hc; cases hc
      have hcl := (List.getElem?_eq_some_iff.mp h2).1
      refine ⟨?_, ?_, ?_, hcl⟩
      · rintro rfl; rw [h2] at hs1; cases hs1
      · rintro rfl
        rcases hg2 with h | ⟨-, h⟩
        · exact h3 (hpr ▸ h)
        · omega
      · rintro rfl
        rcases hb2 with h | ⟨-, h⟩
        · exact hne (ha.distinct path' path i item c hi' (hiown c h) h1 h)
        · omega
  have hop2 : ∀ path' method', opAt m2 s path' method' =
      if path' = path ∧ method' = method then some op else opAt m s path' method' := by
    intro path' method'
    simp only [opAt, hitem2]
    by_cases hp : path' = path
    · subst hp
      simp only [if_true, Option.bind_some, hitemf, entries_map hb', true_and]
      rw [GoMap.get?_set]
      split
      · rfl
      · cases hj : itemAt m s path' with
        | none =>
          rw [hj] at hitem
          rw [hitem]; rfl
        | some i =>
          rw [hj] at hitem
          rw [hitem]; rfl
    · simp only [hp, if_false, false_and]
      cases hj : itemAt m s path' with
      | none => rfl
      | some i =>
        simp only [Option.bind_some]
        rw [entries_same (m := m) (m' := m2) (v := opsRef i)]
        intro c hc
        obtain ⟨h1, h2, h3, -⟩ := hothers path' i hp hj c hc
        exact hx c h1 h2 h3
  have hown2 : ∀ x, Own m2 s x → Own m s x ∨ m.length ≤ x := by
    rintro x (h | h | ⟨path', i, h1, h2⟩)
    · exact .inl (.inl h)
    · rw [hpr2] at h; cases h; exact hgOwn
    · rw [hitem2] at h1
      split at h1
      · cases h1
        rw [hitemf] at h2; cases h2; exact hbOwn
      · exact .inl (.inr (.inr ⟨path', i, h1, h2⟩))
  have hreach : ∀ Q : Nat → Prop, (∀ x, Q x → x < m.length) → (∀ x, From m Q x → ¬ Own m s x) →
      ∀ x, From m2 Q x → ¬ Own m2 s x := by
    intro Q hl hQ x hf hw
    have hf' : From m Q x := hf.same fun y hy => hold y (hy.lt ha.closed hl) (hQ y hy)
    rcases hown2 x hw with h1 | h1
    · exact hQ x hf' h1
    · have := hf'.lt ha.closed hl
      omega
  have hitemh : ∀ y, item.Holds y → y < m.length := by
    intro y hy
    cases hj : itemAt m s path with
    | none => rw [hitem, hj] at hy; cases hy with | field h _ => cases h
    | some i =>
      rw [hitem, hj] at hy
      obtain ⟨x, o, h1, h2⟩ := item_holds hj hy
      exact ha.closed x o y h1 h2
  have hgl : g < m2.length := (List.getElem?_eq_some_iff.mp hg').1
  have hbl : b < m2.length := (List.getElem?_eq_some_iff.mp hb').1
  refine ⟨hop2, hold, hlen, ⟨?_, ?_, ?_, ?_, ?_, ?_, ?_, ?_⟩, ?_, ?_, ?_⟩
  · intro x o y ho hy
    by_cases h1 : x = s
    · subst h1
      rw [hs2'] at ho
      cases ho
      cases hy with
      | cell hy =>
        rcases setField_holds hy with h | h
        · exact Nat.lt_of_lt_of_le (ha.closed x _ y hs1 (.cell h)) hlen
        · rcases setField_holds h with h | h
          · exact Nat.lt_of_lt_of_le (ha.closed x _ y hs1 (.cell (inner_holds (hf3 ▸ h)))) hlen
          · cases h; exact hgl
    · by_cases h2 : x = g
      · subst h2
        rw [hg'] at ho
        cases ho
        cases hy with
        | map hm hy =>
          rcases set_mem hm with h | h
          · obtain ⟨a, es, -, h4, h5⟩ := entries_mem h
            exact Nat.lt_of_lt_of_le (ha.closed a _ y h4 (.map h5 hy)) hlen
          · subst h
            rcases setField_holds hy with h | h
            · exact Nat.lt_of_lt_of_le (hitemh y h) hlen
            · cases h; exact hbl
      · by_cases h3 : x = b
        · subst h3
          rw [hb'] at ho
          cases ho
          cases hy with
          | map hm hy =>
            rcases set_mem hm with h | h
            · obtain ⟨a, es, -, h4, h5⟩ := entries_mem h
              exact Nat.lt_of_lt_of_le (ha.closed a _ y h4 (.map h5 hy)) hlen
            · subst h
              exact Nat.lt_of_lt_of_le (hol y hy) hlen
        · rw [hx x h1 h2 h3] at ho
          exact Nat.lt_of_lt_of_le (ha.closed x o y ho hy) hlen
  · exact fun x h => Nat.lt_of_lt_of_le (ha.env x h) hlen
  · exact ⟨_, hs2'⟩
  · exact .inr ⟨g, _, hpr2, hg'⟩
  · intro path' i h1
    rw [hitem2] at h1
    split at h1
    · cases h1
      refine ⟨by rw [his]; exact ⟨_, rfl⟩, .inr ⟨b, _, hitemf, hb', ?_⟩⟩
      rw [hpr2]
      intro h; cases h; exact hgb rfl
    · rename_i hp
      refine ⟨(ha.items path' i h1).1, (ha.items path' i h1).2.imp_right ?_⟩
      rintro ⟨c, es, h2, h3, h4⟩
      obtain ⟨k1, k2, k3, -⟩ := hothers path' i hp h1 c h2
      refine ⟨c, es, h2, by rw [hx c k1 k2 k3]; exact h3, ?_⟩
      rw [hpr2]
      intro h; cases h; exact k2 rfl
  · intro p1 p2 i1 i2 c h1 h2 h3 h4
    rw [hitem2] at h1 h2
    split at h1
    · split at h2
      · rename_i k1 k2; rw [k1, k2]
      · rename_i k1 k2
        cases h1
        rw [hitemf] at h3; cases h3
        exact absurd rfl (hothers p2 i2 k2 h2 b h4).2.2.1
    · split at h2
      · rename_i k1 k2
        cases h2
        rw [hitemf] at h4; cases h4
        exact absurd rfl (hothers p1 i1 k1 h1 b h3).2.2.1
      · exact ha.distinct p1 p2 i1 i2 c h1 h2 h3 h4
  · intro path' method' op' x ho
    rw [hop2] at ho
    split at ho
    · cases ho
      exact hreach _ hol hop x
    · refine hreach _ (fun y hy => ?_) (fun y => ha.ops path' method' op' y ho) x
      obtain ⟨z, o, h1, h2⟩ := op_holds ho hy
      exact ha.closed z o y h1 h2
  · exact hreach E ha.env ha.others
  · intro path' go hgo
    rw [hitem2]
    split
    · rename_i hp
      rw [hp, ← hitem, Option.getD_some, his, field_setField, if_neg hgo]
    · rfl
  · intro go hgo
    rw [hd2, hd, field_setField, if_neg hgo]
  · intro go hgo
    rw [hd2, hd, inner_setField_struct, field_setField, if_neg hgo, hf3]

/-! ## The parts of the calls -/

/-- `Confined.reach` for other roots. -/
theorem Confined.reach' {R Q : Nat → Prop} {m m' : Memory} (h : Confined R m m')
    (hq : ∀ y, Q y → From m R y ∨ m.length ≤ y) {x : Nat} (hx : From m' Q x) : From m R x ∨ m.length ≤ x := by
  induction hx with
  | root hr => exact hq _ hr
  | @step x o y _ ho hy ih =>
    rcases h.refs x o y ho hy with h1 | h1 | h1
    · rcases ih with h2 | h2
      · exact .inl (.step h2 h1 hy)
      · rw [List.getElem?_eq_none h2] at h1; cases h1
    · exact .inl h1
    · exact .inr h1.1

/-- A change confined to `R` followed by one confined to `Q`, if `Q` only leads to what `R` led to and new objects. -/
theorem Confined.trans' {R Q : Nat → Prop} {m m1 m2 : Memory} (h : Confined R m m1) (h' : Confined Q m1 m2)
    (hq : ∀ y, Q y → From m R y ∨ (m.length ≤ y ∧ y < m1.length)) : Confined R m m2 := by
  have hq' : ∀ x, From m1 Q x → From m R x ∨ (m.length ≤ x ∧ x < m1.length) := by
    intro x hx
    induction hx with
    | root hr => exact hq _ hr
    | @step x o y _ ho hy ih =>
      rcases h.refs x o y ho hy with h1 | h1 | h1
      · rcases ih with h2 | h2
        · exact .inl (.step h2 h1 hy)
        · rw [List.getElem?_eq_none h2.1] at h1; cases h1
      · exact .inl h1
      · exact .inr h1
  have hg := h.grows
  have hg' := h'.grows
  refine ⟨Nat.le_trans hg hg', fun x hx hn => ?_, fun x o y ho hy => ?_⟩
  · rw [h'.keeps x (Nat.lt_of_lt_of_le hx hg) fun hf => ?_, h.keeps x hx hn]
    rcases hq' x hf with h1 | h1
    · exact hn h1
    · omega
  · rcases h'.refs x o y ho hy with h1 | h1 | h1
    · rcases h.refs x o y h1 hy with h2 | h2 | h2
      · exact .inl h2
      · exact .inr (.inl h2)
      · exact .inr (.inr ⟨h2.1, by omega⟩)
    · rcases hq' y h1 with h2 | h2
      · exact .inr (.inl h2)
      · exact .inr (.inr ⟨h2.1, by omega⟩)
    · exact .inr (.inr ⟨by omega, h1.2⟩)

theorem Apart.mono {m : Memory} {s : Nat} {E E' : Nat → Prop} (h : Apart m s E) (hs : ∀ x, E' x → E x) :
    Apart m s E' :=
  { h with
    env := fun x hx => h.env x (hs x hx)
    others := fun x hx => h.others x (hx.mono fun y hy => .root (hs y hy)) }

/-- The setup functions run on a copy: the memory they leave. -/
theorem ran {m : Memory} {s : Nat} {E : Nat → Prop} (ha : Apart m s E) {fs : List MSetup} (hfs : ∀ f ∈ fs, Uses E f)
    (path method : String) :
    ∀ G : Nat → Prop, G = (fun x => E x ∨ ∃ op, opAt m s path method = some op ∧ op.Holds x) →
    ∀ op, op = (opAt m s path method).getD (.struct []) →
    ∀ m2, m2 = (runAll fs (m ++ [.cell op]) m.length).1 →
      Confined G m m2 ∧ Apart m2 s E ∧ (∀ x, Own m s x → m2[x]? = m[x]?) ∧
      (∀ x, From m2 (deref m2 m.length).Holds x → ¬ Own m2 s x) ∧ m.length < m2.length := by
  intro G hG op hop m2 hm2
  have hGop : ∀ y, op.Holds y → G y := by
    intro y hy
    rw [hG]
    cases ho : opAt m s path method with
    | none => rw [hop, ho] at hy; cases hy with | field h _ => cases h
    | some op' => rw [hop, ho] at hy; exact .inr ⟨op', rfl, hy⟩
  have hGl : ∀ x, G x → x < m.length := by
    intro x hx
    rw [hG] at hx
    rcases hx with hx | ⟨op', h1, h2⟩
    · exact ha.env x hx
    · obtain ⟨z, o, h3, h4⟩ := op_holds h1 h2
      exact ha.closed z o x h3 h4
  have hGo : ∀ x, From m G x → ¬ Own m s x := by
    intro x hx
    rw [hG] at hx
    rcases hx.or with h | h
    · exact ha.others x h
    · cases ho : opAt m s path method with
      | none =>
        rw [ho] at h
        have : ∀ z, From m (fun x => ∃ op, (none : Option MVal) = some op ∧ op.Holds x) z → False := by
          intro z hz
          induction hz with
          | root h => obtain ⟨_, h, _⟩ := h; cases h
          | step _ _ _ ih => exact ih
        exact absurd (this x h) id
      | some op' =>
        exact ha.ops path method op' x ho (h.mono fun y ⟨op2, h1, h2⟩ => by
          rw [ho] at h1; cases h1; exact .root h2)
  have hc1 : Confined G m (m ++ [.cell op]) := .alloc m _ fun y hy => by
    cases hy with | cell hy => exact .root (hGop y hy)
  obtain ⟨o1, a1, r1⟩ := hc1.apart ha hGo hGl
  have hlen1 : (m ++ [Obj.cell op]).length = m.length + 1 := by simp
  have hc2 : Confined (fun x => x = m.length ∨ E x) (m ++ [.cell op]) m2 := hm2 ▸ runAll_confined fs _ hfs
  have hR : ∀ x, From (m ++ [.cell op]) (fun x => x = m.length ∨ E x) x → ¬ Own (m ++ [.cell op]) s x := by
    intro x hx
    have : x = m.length ∨ From (m ++ [.cell op]) G x := by
      induction hx with
      | root h =>
        rcases h with h | h
        · exact .inl h
        · exact .inr (.root (by rw [hG]; exact .inl h))
      | @step z o y _ ho hy ih =>
        rcases ih with h | h
        · subst h
          rw [getElem?_append_new] at ho
          cases ho
          cases hy with | cell hy => exact .inr (.root (hGop y hy))
        · exact .inr (.step h ho hy)
    rcases this with h | h
    · intro hw
      rw [own_same o1] at hw
      have := ha.own_lt hw
      omega
    · exact r1 x h
  have hRl : ∀ x, (x = m.length ∨ E x) → x < (m ++ [Obj.cell op]).length := by
    intro x hx
    rcases hx with h | h
    · omega
    · have := ha.env x h; omega
  obtain ⟨o2, a2, r2⟩ := hc2.apart a1 hR hRl
  refine ⟨hc1.trans' hc2 ?_, a2, ?_, ?_, ?_⟩
  · intro y hy
    rcases hy with h | h
    · exact .inr ⟨by omega, by omega⟩
    · exact .inl (.root (by rw [hG]; exact .inl h))
  · intro x hx
    rw [o2 x ((own_same o1 x).mpr hx), o1 x hx]
  · intro x hx
    refine r2 x (hx.mono fun y hy => ?_)
    obtain ⟨o, h1, h2⟩ := deref_holds hy
    exact .step (.root (.inl rfl)) h1 h2
  · have := hc2.grows; omega

theorem opAt_eq {m : Memory} {s : Nat} (path method : String) :
    GoMap.get? (entries m (opsRef ((itemAt m s path).getD (.struct [])))) method = opAt m s path method := by
  simp only [opAt]
  cases itemAt m s path with
  | none => rfl
  | some i => rfl

/-- The outcomes of `SetupOperation`. -/
theorem setupOperation_cases (m : Memory) (s : Nat) (method path : String) (fs : List MSetup) :
    (∃ e, sanitizeMethodPath method path = .error e ∧ setupOperation m s method path fs = (m, some e)) ∨
    ∃ r, sanitizeMethodPath method path = .ok r ∧
      ∀ m1, m1 = m ++ [Obj.cell ((opAt m s r.path r.method).getD (.struct []))] →
        (∃ e, setupOperation m s method path fs = ((runAll fs m1 m.length).1, some e)) ∨
        ∃ m2, runAll fs m1 m.length = (m2, none) ∧
          validatePathParams (paramsOf m2 (deref m2 m.length)) (pathParamsMap r.params) = none ∧
          ∃ m3 f, setItem m2 (opsRef ((itemAt m s r.path).getD (.struct []))) r.method (deref m2 m.length) = (m3, f) ∧
          setupOperation m s method path fs = (storeItem m3 s r.path
            (((itemAt m s r.path).getD (.struct [])).setField "MapOfOperationValues" f), none) := by
  cases hr : sanitizeMethodPath method path with
  | error e => exact .inl ⟨e, rfl, by simp only [setupOperation, hr]⟩
  | ok r =>
    refine .inr ⟨r, rfl, fun m1 hm1 => ?_⟩
    have he : setupOperation m s method path fs = (match runAll fs m1 m.length with
      | (m, some e) => (m, some e)
      | (m2, none) =>
        match validatePathParams (paramsOf m2 (deref m2 m.length)) (pathParamsMap r.params) with
        | some e => (m2, some e)
        | none =>
          let (m3, f) := setItem m2 (opsRef ((itemAt m s r.path).getD (.struct []))) r.method (deref m2 m.length)
          (storeItem m3 s r.path (((itemAt m s r.path).getD (.struct [])).setField "MapOfOperationValues" f), none)) := by
      simp only [setupOperation, hr]
      rw [hm1, ← opAt_eq]
      rfl
    rw [he]
    split
    · rename_i m2 e h2
      exact .inl ⟨e, by rw [h2]⟩
    · rename_i m2 h2
      split
      · rename_i e h3
        exact .inl ⟨e, by rw [h2]⟩
      · rename_i h3
        exact .inr ⟨m2, h2, h3, _, _, rfl, rfl⟩

/-- What `AddOperation` adds to an operation without responses, and to nothing else: the map the caller passed gets
the response `204`, a nil map is replaced. -/
theorem ensure_spec {m : Memory} {op : MVal} (hc : (op.inner "Responses").field "MapOfResponseOrRefValues" = .nil ∨ ∃ (c : Nat) (es : _),
      (op.inner "Responses").field "MapOfResponseOrRefValues" = .ref c ∧ m[c]? = some (Obj.map es)) :
    ∀ m' op', ensureResponse m op = (m', op') →
      (m' = m ∧ op' = op ∧ (entries m ((op.inner "Responses").field "MapOfResponseOrRefValues") ≠ [] ∨
        (op.inner "Responses").field "Default" ≠ .nil)) ∨
      (entries m ((op.inner "Responses").field "MapOfResponseOrRefValues") = [] ∧
        (op.inner "Responses").field "Default" = .nil ∧
        ∃ b, m'[b]? = some (.map [("204", .struct [("Response", .ref m.length)])]) ∧
          m'[m.length]? = some (.cell (.struct [("Description", .lit (.str "No Content"))])) ∧
          op' = op.setField "Responses" ((op.inner "Responses").setField "MapOfResponseOrRefValues" (.ref b)) ∧
          ((op.inner "Responses").field "MapOfResponseOrRefValues" = .ref b ∨
            (op.inner "Responses").field "MapOfResponseOrRefValues" = .nil ∧ b = m.length + 1) ∧
          (∀ x, x < m.length → x ≠ b → m'[x]? = m[x]?) ∧ m.length + 1 ≤ m'.length ∧
          (∀ x, m.length < x → x ≠ b → m'[x]? = none)) := by
  intro m' op' h
  simp only [ensureResponse] at h
  generalize hcod : (op.inner "Responses").field "MapOfResponseOrRefValues" = codes at *
  split at h
  · rename_i h0 hd
    have hm1 : codes = .nil ∨ ∃ (c : Nat) (es : _), codes = .ref c ∧
        (m ++ [Obj.cell (.struct [("Description", .lit (.str "No Content"))])])[c]? = some (Obj.map es) := by
      refine hc.imp_right fun ⟨c, es, h1, h2⟩ => ⟨c, es, h1, ?_⟩
      rw [getElem?_append_old _ _ (List.getElem?_eq_some_iff.mp h2).1]
      exact h2
    obtain ⟨m2, b, e1, h1, h2, h3, h4⟩ := setItem_spec "204" (.struct [("Response", .ref m.length)]) hm1
    rw [e1] at h
    cases h
    have hent : entries (m ++ [Obj.cell (.struct [("Description", .lit (.str "No Content"))])]) codes =
        entries m codes := by
      refine entries_same fun a ha => ?_
      rcases hc with hc | ⟨c, es, hc1, hc2⟩
      · rw [hc] at ha; cases ha
      · rw [hc1] at ha; cases ha
        exact getElem?_append_old _ _ (List.getElem?_eq_some_iff.mp hc2).1
    have h0' : entries m codes = [] := List.eq_nil_of_length_eq_zero h0
    have hb : b ≠ m.length := by
      rintro rfl
      rcases h2 with h2 | ⟨-, h2⟩
      · rcases hc with hc | ⟨c, es, hc1, hc2⟩
        · rw [hc] at h2; cases h2
        · rw [hc1] at h2; cases h2
          have := (List.getElem?_eq_some_iff.mp hc2).1
          omega
      · simp at h2
    refine .inr ⟨h0', hd, b, ?_, ?_, rfl, ?_, ?_, ?_, ?_⟩
    · rw [h1, hent, h0']; rfl
    · rw [h3 _ (Ne.symm hb), getElem?_append_new]
    · rcases h2 with h2 | ⟨h2, h5⟩
      · exact .inl h2
      · exact .inr ⟨h2, by simpa using h5⟩
    · intro x hx hxb
      rw [h3 x hxb, getElem?_append_old _ _ hx]
    · simpa using h4
    · intro x hx hxb
      rw [h3 x hxb, List.getElem?_eq_none (by simp; omega)]
  · rename_i hn
    cases h
    refine .inl ⟨rfl, rfl, ?_⟩
    by_cases h0 : entries m codes = []
    · refine .inr fun hd => ?_
      exact hn (by rw [h0]; rfl) hd
    · exact .inl h0

/-- `AddOperation` prepares the operation: what it leads to afterwards. -/
theorem ensured_apart {m : Memory} {s : Nat} {E : Nat → Prop} {op : MVal} (ha : Apart m s E)
    (hop : ∀ y, op.Holds y → From m E y)
    (hc : (op.inner "Responses").field "MapOfResponseOrRefValues" = .nil ∨ ∃ (c : Nat) (es : _),
      (op.inner "Responses").field "MapOfResponseOrRefValues" = .ref c ∧ m[c]? = some (Obj.map es))
    {m' : Memory} {op' : MVal} (h : ensureResponse m op = (m', op')) :
    Confined E m m' ∧ (∀ x, Own m s x → m'[x]? = m[x]?) ∧ Apart m' s (fun x => E x ∨ op'.Holds x) := by
  have hcod : ∀ b, (op.inner "Responses").field "MapOfResponseOrRefValues" = .ref b → From m E b := by
    intro b hb
    exact hop b (inner_holds (field_holds (go := "MapOfResponseOrRefValues") (by rw [hb]; exact .ref)))
  have key : Confined E m m' ∧ ∀ y, op'.Holds y → (From m E y ∨ m.length ≤ y) ∧ y < m'.length := by
    rcases ensure_spec hc m' op' h with ⟨h1, h2, -⟩ | ⟨-, -, b, h1, h2, h3, h4, h5, h6, h7⟩
    · subst h1 h2
      exact ⟨.refl _ _, fun y hy => ⟨.inl (hop y hy), (hop y hy).lt ha.closed ha.env⟩⟩
    · have hbl := (List.getElem?_eq_some_iff.mp h1).1
      have hb : From m E b ∨ m.length ≤ b := by
        rcases h4 with h4 | ⟨-, h4⟩
        · exact .inl (hcod b h4)
        · exact .inr (by omega)
      refine ⟨⟨by omega, fun x hx hn => h5 x hx ?_, fun x o y ho hy => ?_⟩, fun y hy => ?_⟩
      · rintro rfl
        rcases hb with hb | hb
        · exact hn hb
        · omega
      · by_cases hx : x = b
        · subst hx
          rw [h1] at ho
          cases ho
          cases hy with
          | map hm hy =>
            rcases List.mem_singleton.mp hm with ⟨⟩
            cases hy with
            | field hm hy =>
              rcases List.mem_singleton.mp hm with ⟨⟩
              cases hy
              exact .inr (.inr ⟨Nat.le_refl _, by omega⟩)
        · by_cases hx2 : x < m.length
          · rw [h5 x hx2 hx] at ho
            exact .inl ho
          · by_cases hx3 : x = m.length
            · subst hx3
              rw [h2] at ho
              cases ho
              cases hy with
              | cell hy =>
                cases hy with
                | field hm hy =>
                  rcases List.mem_singleton.mp hm with ⟨⟩
                  cases hy
            · rw [h7 x (by omega) hx] at ho
              cases ho
      · rw [h3] at hy
        rcases setField_holds hy with hy | hy
        · exact ⟨.inl (hop y hy), by have := (hop y hy).lt ha.closed ha.env; omega⟩
        · rcases setField_holds hy with hy | hy
          · have := hop y (inner_holds hy)
            exact ⟨.inl this, by have := this.lt ha.closed ha.env; omega⟩
          · cases hy; exact ⟨hb, hbl⟩
  obtain ⟨hcf, hop'⟩ := key
  obtain ⟨h1, h2, h3⟩ := hcf.apart ha ha.others ha.env
  refine ⟨hcf, h1, { h2 with env := ?_, others := ?_ }⟩
  · rintro x (hx | hx)
    · exact h2.env x hx
    · exact (hop' x hx).2
  · intro x hx hw
    rw [own_same h1] at hw
    have hq : ∀ y, (E y ∨ op'.Holds y) → From m E y ∨ m.length ≤ y := by
      rintro y (hy | hy)
      · exact .inl (.root hy)
      · exact (hop' y hy).1
    rcases hcf.reach' hq hx with h4 | h4
    · exact ha.others x h4 hw
    · have := ha.own_lt hw
      omega

/-- The setup function `AddOperation` uses. -/
theorem assign_uses (E : Nat → Prop) (op : MVal) :
    Uses (fun x => E x ∨ op.Holds x) (fun m a => (m.set a (.cell op), none)) := by
  intro m a
  refine ⟨by simp, fun x _ hn => ?_, fun x o y ho hy => ?_⟩
  · refine List.getElem?_set_ne fun h => hn (.root (.inl h.symm))
  · simp only at ho
    by_cases hx : x = a
    · subst hx
      by_cases hl : x < m.length
      · rw [List.getElem?_set_self hl] at ho
        cases ho
        cases hy with | cell hy => exact .inr (.inl (.root (.inr (.inr hy))))
      · rw [List.getElem?_eq_none (by simp; omega)] at ho
        cases ho
    · rw [List.getElem?_set_ne (Ne.symm hx)] at ho
      exact .inl ho

theorem assign_assigns (op : MVal) : AssignsOnly (fun m a => (m.set a (.cell op), none)) := by
  intro m a
  exact ⟨by simp, fun x _ hn => List.getElem?_set_ne (Ne.symm hn)⟩

theorem addOperation_cases (m : Memory) (s : Nat) (method path : String) (op : MVal) :
    (∃ op0, opAt m s path (goToLower method) = some op0 ∧ addOperation m s method path op =
      (m, some ("operation already exists: " ++ goToLower method ++ " " ++ path))) ∨
    (opAt m s path (goToLower method) = none ∧ ∃ m1 op1, ensureResponse m op = (m1, op1) ∧
      addOperation m s method path op =
        setupOperation m1 s (goToLower method) path [fun m a => (m.set a (.cell op1), none)]) := by
  have he : addOperation m s method path op = (match opAt m s path (goToLower method) with
    | some _ => (m, some ("operation already exists: " ++ goToLower method ++ " " ++ path))
    | none =>
      let (m, op) := ensureResponse m op
      setupOperation m s (goToLower method) path [fun m a => (m.set a (.cell op), none)]) := by
    simp only [addOperation]
    rw [← opAt_eq]
    rfl
  rw [he]
  cases h : opAt m s path (goToLower method) with
  | some op0 => exact .inl ⟨op0, rfl, rfl⟩
  | none => exact .inr ⟨rfl, _, _, rfl, rfl⟩

/-- Writing an entry of a map. -/
theorem setItem_confined {m : Memory} {R : Nat → Prop} {f v : MVal} (key : String)
    (hf : ∀ y, f.Holds y → From m R y) (hv : ∀ y, v.Holds y → From m R y) :
    Confined R m (setItem m f key v).1 ∧
      ∀ y, (setItem m f key v).2.Holds y → From m R y ∨ (m.length ≤ y ∧ y < (setItem m f key v).1.length) := by
  have hnew : Confined R m (m ++ [.map (GoMap.set [] key v)]) := .alloc m _ fun y hy => by
    cases hy with
    | map h1 h2 =>
      rcases set_mem h1 with h | h
      · cases h
      · exact hv y (h ▸ h2)
  have hnew' : ∀ y, (MVal.ref m.length).Holds y → From m R y ∨
      (m.length ≤ y ∧ y < (m ++ [Obj.map (GoMap.set [] key v)]).length) := by
    intro y hy
    cases hy
    exact .inr (by simp)
  cases f with
  | ref c =>
    have hc := hf c .ref
    refine ⟨⟨by simp [setItem], fun x hx hn => ?_, fun x o y ho hy => ?_⟩, fun y hy => .inl (hf y hy)⟩
    · exact List.getElem?_set_ne fun (h : c = x) => hn (h ▸ hc)
    · simp only [setItem] at ho
      by_cases hxc : c = x
      · subst hxc
        by_cases hl : c < m.length
        · rw [List.getElem?_set_self hl] at ho
          cases ho
          cases hy with
          | map h1 h2 =>
            rcases set_mem h1 with h | h
            · obtain ⟨_, es, j1, j2, j3⟩ := entries_mem h
              cases j1
              exact .inr (.inl (.step hc j2 (.map j3 h2)))
            · exact .inr (.inl (hv y (h ▸ h2)))
        · rw [List.getElem?_eq_none (by simp; omega)] at ho
          cases ho
      · rw [List.getElem?_set_ne hxc] at ho
        exact .inl ho
  | nil => exact ⟨hnew, hnew'⟩
  | lit => exact ⟨hnew, hnew'⟩
  | slice => exact ⟨hnew, hnew'⟩
  | struct => exact ⟨hnew, hnew'⟩

end Verif.Mem
