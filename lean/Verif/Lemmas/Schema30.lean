import Verif.Lemmas.Dfs

/-!
# The traversal of 3.0 schemas
-/

namespace Verif.V30
open SchemaSpec Dfs

variable {val : String → JS} {succ : String → List String} {f : Follow} {o : Order}

/-- Results and effect of running the entries of a map in some order. -/
theorem runOrder_ok {acts : List Act} {J : Nat → JS} {R : Nat → List String}
    (ha : ∀ i a, acts[i]? = some a → ∀ c j c', a c = .ok (j, c') → j = J i ∧ Step val succ (R i) c c') :
    ∀ (is : List Nat) (c : Ctx) (rs : List (Nat × JS)) (c' : Ctx), (∀ i ∈ is, i < acts.length) →
      runOrder acts is c = .ok (rs, c') →
      rs = is.map (fun i => (i, J i)) ∧ Step val succ (is.flatMap R) c c' := by
  intro is
  induction is with
  | nil =>
    intro c rs c' _ h
    simp only [runOrder, Except.ok.injEq, Prod.mk.injEq] at h
    rw [← h.1, ← h.2]
    exact ⟨rfl, Step.refl c⟩
  | cons i is ih =>
    intro c rs c' hl h
    have hi := hl i (by simp)
    have hg : acts[i]? = some acts[i] := List.getElem?_eq_getElem hi
    simp only [runOrder, hg] at h
    cases h1 : acts[i] c with
    | error e => rw [h1] at h; cases h
    | ok r =>
      obtain ⟨j, c1⟩ := r
      rw [h1] at h
      simp only [bind, Except.bind] at h
      cases h2 : runOrder acts is c1 with
      | error e => rw [h2] at h; cases h
      | ok r =>
        obtain ⟨rs', c2⟩ := r
        rw [h2] at h
        simp only [Except.ok.injEq, Prod.mk.injEq] at h
        obtain ⟨e1, s1⟩ := ha i _ hg _ _ _ h1
        obtain ⟨e2, s2⟩ := ih _ _ _ (fun x hx => hl x (by simp [hx])) h2
        rw [← h.1, ← h.2, e1, e2]
        exact ⟨rfl, s1.trans s2⟩

theorem lookup_map {J : Nat → JS} (is : List Nat) (i : Nat) :
    (is.map (fun i => (i, J i))).lookup i = if i ∈ is then some (J i) else none := by
  induction is with
  | nil => rfl
  | cons a is ih =>
    simp only [List.map_cons, List.lookup_cons, ih]
    by_cases h : i = a
    · subst h; simp
    · have : (i == a) = false := by simpa using h
      simp [this, h]

theorem filterMap_eq_map_of {α β : Type _} {g : α → Option β} {h : α → β} {l : List α}
    (e : ∀ x ∈ l, g x = some (h x)) : l.filterMap g = l.map h := by
  induction l with
  | nil => rfl
  | cons a l ih =>
    simp only [List.filterMap_cons, e a (by simp), ih (fun x hx => e x (by simp [hx])), List.map_cons]

theorem collect_eq {J : Nat → JS} (names : List String) (is : List Nat)
    (h : ∀ i, i < names.length → i ∈ is) :
    collect names (is.map (fun i => (i, J i))) = names.zipIdx.map (fun p => (p.1, J p.2)) := by
  unfold collect
  apply filterMap_eq_map_of
  rintro ⟨n, i⟩ hm
  have hi : i < names.length := by
    have := List.snd_lt_of_mem_zipIdx hm
    simpa using this
  simp only [lookup_map, if_pos (h i hi), Option.map_some]

theorem flatMap_perm {R : Nat → List String} {is js : List Nat} (h : is.Perm js) :
    (is.flatMap R).Perm (js.flatMap R) := by
  exact h.flatMap_right R

theorem range_flatMap_getD (l : List (List String)) :
    (List.range l.length).flatMap (fun i => l.getD i []) = l.flatten := by
  rw [List.flatMap_def]
  congr 1
  apply List.ext_getElem
  · simp
  · intro i h1 h2
    simp [List.getD, List.getElem?_eq_getElem h2]

theorem convList_eq (ss : List OS) : convList ss = ss.map conv := by
  induction ss with
  | nil => rfl
  | cons s ss ih => simp [convList, ih]

theorem convProps_eq (ss : List (String × OS)) : convProps ss = ss.map (fun p => (p.1, conv p.2)) := by
  induction ss with
  | nil => rfl
  | cons s ss ih => simp [convProps, ih]

theorem jsRefsProps_eq (ss : List (String × JS)) : jsRefsProps ss = (ss.map (fun p => jsRefs p.2)).flatten := by
  induction ss with
  | nil => rfl
  | cons s ss ih => simp [jsRefsProps, ih]

theorem toJSProps_length (ss : List (String × OS)) : (toJSProps f o ss).length = ss.length := by
  induction ss with
  | nil => rfl
  | cons s ss ih => simp [toJSProps, ih]

/-- A whole property map. -/
theorem props_ok {ss : List (String × OS)}
    (ha : ∀ (i : Nat) (n : String) (s : OS), ss[i]? = some (n, s) → ∃ a, (toJSProps f o ss)[i]? = some a ∧
      ∀ c j c', a c = .ok (j, c') → j = conv s ∧ Step val succ (jsRefs (conv s)) c c')
    {is : List Nat} (hp : is.Perm (List.range ss.length)) {c : Ctx} {rs : List (Nat × JS)} {c' : Ctx}
    (h : runOrder (toJSProps f o ss) is c = .ok (rs, c')) :
    collect (ss.map (·.1)) rs = convProps ss ∧ Step val succ (jsRefsProps (convProps ss)) c c' := by
  let J : Nat → JS := fun i => ((ss.map (fun p => conv p.2)).getD i .zero)
  let R : Nat → List String := fun i => ((ss.map (fun p => jsRefs (conv p.2))).getD i [])
  have hmem : ∀ i, i ∈ is ↔ i < ss.length := by
    intro i; rw [hp.mem_iff, List.mem_range]
  have := runOrder_ok (val := val) (succ := succ) (acts := toJSProps f o ss) (J := J) (R := R) (by
    intro i a hia c j c' hac
    have hi : i < ss.length := by
      rw [← toJSProps_length (f := f) (o := o) ss]
      exact (List.getElem?_eq_some_iff.mp hia).1
    obtain ⟨a', h1, h2⟩ := ha i (ss[i]).1 (ss[i]).2 (by simp [hi])
    rw [hia] at h1
    cases h1
    obtain ⟨e1, e2⟩ := h2 c j c' hac
    simp only [J, R, List.getD, List.getElem?_map, List.getElem?_eq_getElem hi, Option.map_some,
      Option.getD_some]
    exact ⟨e1, e2⟩) is c rs c' (by intro i hi; rw [toJSProps_length]; exact (hmem i).mp hi) h
  obtain ⟨e1, e2⟩ := this
  constructor
  · rw [e1, collect_eq]
    · rw [convProps_eq]
      apply List.ext_getElem
      · simp
      · intro i h1 h2
        have hi : i < ss.length := by simpa using h2
        simp [J, List.getElem?_eq_getElem hi]
    · intro i hi; rw [hmem]; simpa using hi
  · refine e2.perm ((flatMap_perm hp).trans ?_)
    have := range_flatMap_getD (ss.map (fun p => jsRefs (conv p.2)))
    simp only [List.length_map] at this
    rw [show (List.range ss.length).flatMap R = _ from this, jsRefsProps_eq, convProps_eq]
    simp [List.map_map, Function.comp_def]

theorem flatToJS_ref (x : OFlat) : (flatToJS x).ref = none := by
  unfold flatToJS
  dsimp only
  repeat' split
  all_goals rfl

mutual
/-- A successful conversion returns the pure conversion and handles exactly the local references. -/
theorem toJS_ok (hf : ∀ n c c', f n c = .ok c' → Step val succ [n] c c') :
    ∀ (s : OS) (c : Ctx) (j : JS) (c' : Ctx), toJS f o s c = .ok (j, c') →
      j = conv s ∧ Step val succ (jsRefs (conv s)) c c'
  | .empty => by
    intro c j c' h
    simp only [toJS, Except.ok.injEq, Prod.mk.injEq] at h
    rw [← h.1, ← h.2]
    exact ⟨rfl, Step.refl c⟩
  | .ref r => by
    intro c j c' h
    simp only [toJS] at h
    simp only [conv, jsRefs, jsRefsOpt, jsRefsList, jsRefsProps, List.append_nil]
    cases hl : localRef? r with
    | none =>
      simp only [hl, Except.ok.injEq, Prod.mk.injEq] at h
      rw [← h.1, ← h.2]
      exact ⟨rfl, Step.refl c⟩
    | some n =>
      simp only [hl] at h
      cases h1 : f n c with
      | error e => rw [h1] at h; cases h
      | ok c1 =>
        rw [h1] at h
        simp only [bind, Except.bind, Except.ok.injEq, Prod.mk.injEq] at h
        rw [← h.1, ← h.2]
        exact ⟨rfl, hf _ _ _ h1⟩
  | .schema flat not allOf oneOf anyOf items props addlBool addl => by
    intro c j c' h
    have ihnot := toJSOpt_ok hf not
    have ihall := toJSList_ok hf allOf
    have ihone := toJSList_ok hf oneOf
    have ihany := toJSList_ok hf anyOf
    have ihit := toJSOpt_ok hf items
    have ihp := toJSProps_ok hf props
    have iha := toJSOpt_ok hf addl
    simp only [toJS, bind, Except.bind] at h
    cases h1 : runOpt (toJSOpt f o not) c with
    | error e => rw [h1] at h; cases h
    | ok r1 =>
    obtain ⟨j1, c1⟩ := r1
    rw [h1] at h; simp only at h
    cases h2 : runList (toJSList f o allOf) c1 with
    | error e => rw [h2] at h; cases h
    | ok r2 =>
    obtain ⟨j2, c2⟩ := r2
    rw [h2] at h; simp only at h
    cases h3 : runList (toJSList f o oneOf) c2 with
    | error e => rw [h3] at h; cases h
    | ok r3 =>
    obtain ⟨j3, c3⟩ := r3
    rw [h3] at h; simp only at h
    cases h4 : runList (toJSList f o anyOf) c3 with
    | error e => rw [h4] at h; cases h
    | ok r4 =>
    obtain ⟨j4, c4⟩ := r4
    rw [h4] at h; simp only at h
    cases h5 : runOpt (toJSOpt f o items) c4 with
    | error e => rw [h5] at h; cases h
    | ok r5 =>
    obtain ⟨j5, c5⟩ := r5
    rw [h5] at h; simp only at h
    cases h6 : runOrder (toJSProps f o props) (o.ord c5.clock props.length) { c5 with clock := c5.clock + 1 } with
    | error e => rw [h6] at h; cases h
    | ok r6 =>
    obtain ⟨rs, c6⟩ := r6
    rw [h6] at h; simp only at h
    obtain ⟨e1, s1⟩ := ihnot _ _ _ h1
    obtain ⟨e2, s2⟩ := ihall _ _ _ h2
    obtain ⟨e3, s3⟩ := ihone _ _ _ h3
    obtain ⟨e4, s4⟩ := ihany _ _ _ h4
    obtain ⟨e5, s5⟩ := ihit _ _ _ h5
    obtain ⟨e6, s6⟩ := props_ok (val := val) (succ := succ) ihp (o.perm _ _) h6
    have s6' : Step val succ (jsRefsProps (convProps props)) c5 c6 := s6.clock c5.clock c6.clock
    have main := ((((s1.trans s2).trans s3).trans s4).trans s5).trans s6'
    simp only [conv, jsRefs, flatToJS_ref, jsRefsList, jsRefsProps, List.append_nil, List.nil_append]
    cases addlBool with
    | some b =>
      simp only [Except.ok.injEq, Prod.mk.injEq] at h
      rw [← h.1, ← h.2, e1, e2, e3, e4, e5, e6]
      refine ⟨rfl, ?_⟩
      simp only [jsRefsOpt, jsRefs, List.append_nil]
      exact main
    | none =>
      simp only at h
      cases h7 : runOpt (toJSOpt f o addl) c6 with
      | error e => rw [h7] at h; cases h
      | ok r7 =>
      obtain ⟨j7, c7⟩ := r7
      rw [h7] at h
      obtain ⟨e7, s7⟩ := iha _ _ _ h7
      simp only [Except.ok.injEq, Prod.mk.injEq] at h
      rw [← h.1, ← h.2, e1, e2, e3, e4, e5, e6, e7]
      exact ⟨rfl, main.trans s7⟩

theorem toJSOpt_ok (hf : ∀ n c c', f n c = .ok c' → Step val succ [n] c c') :
    ∀ (s : Option OS) (c : Ctx) (j : Option JS) (c' : Ctx), runOpt (toJSOpt f o s) c = .ok (j, c') →
      j = convOpt s ∧ Step val succ (jsRefsOpt (convOpt s)) c c'
  | none => by
    intro c j c' h
    simp only [toJSOpt, runOpt, Except.ok.injEq, Prod.mk.injEq] at h
    rw [← h.1, ← h.2]
    exact ⟨rfl, Step.refl c⟩
  | some s => by
    intro c j c' h
    have ih := toJS_ok hf s
    simp only [toJSOpt, runOpt, bind, Except.bind] at h
    cases h1 : toJS f o s c with
    | error e => rw [h1] at h; cases h
    | ok r =>
      obtain ⟨j1, c1⟩ := r
      rw [h1] at h
      simp only [Except.ok.injEq, Prod.mk.injEq] at h
      obtain ⟨e1, s1⟩ := ih _ _ _ h1
      rw [← h.1, ← h.2, e1]
      exact ⟨rfl, s1⟩

theorem toJSList_ok (hf : ∀ n c c', f n c = .ok c' → Step val succ [n] c c') :
    ∀ (ss : List OS) (c : Ctx) (j : List JS) (c' : Ctx), runList (toJSList f o ss) c = .ok (j, c') →
      j = convList ss ∧ Step val succ (jsRefsList (convList ss)) c c'
  | [] => by
    intro c j c' h
    simp only [toJSList, runList, Except.ok.injEq, Prod.mk.injEq] at h
    rw [← h.1, ← h.2]
    exact ⟨rfl, Step.refl c⟩
  | s :: ss => by
    intro c j c' h
    have ih := toJS_ok hf s
    have ihs := toJSList_ok hf ss
    simp only [toJSList, runList, bind, Except.bind] at h
    cases h1 : toJS f o s c with
    | error e => rw [h1] at h; cases h
    | ok r =>
      obtain ⟨j1, c1⟩ := r
      rw [h1] at h
      simp only at h
      cases h2 : runList (toJSList f o ss) c1 with
      | error e => rw [h2] at h; cases h
      | ok r2 =>
        obtain ⟨j2, c2⟩ := r2
        rw [h2] at h
        simp only [Except.ok.injEq, Prod.mk.injEq] at h
        obtain ⟨e1, s1⟩ := ih _ _ _ h1
        obtain ⟨e2, s2⟩ := ihs _ _ _ h2
        rw [← h.1, ← h.2, e1, e2]
        exact ⟨rfl, s1.trans s2⟩

theorem toJSProps_ok (hf : ∀ n c c', f n c = .ok c' → Step val succ [n] c c') :
    ∀ (ss : List (String × OS)) (i : Nat) (n : String) (s : OS), ss[i]? = some (n, s) →
      ∃ a, (toJSProps f o ss)[i]? = some a ∧
        ∀ c j c', a c = .ok (j, c') → j = conv s ∧ Step val succ (jsRefs (conv s)) c c'
  | [] => by intro i n s h; simp at h
  | (n0, s0) :: ss => by
    have ih := toJS_ok hf s0
    have ihs := toJSProps_ok hf ss
    intro i n s h
    cases i with
    | zero =>
      simp only [List.getElem?_cons_zero, Option.some.injEq, Prod.mk.injEq] at h
      rw [← h.2]
      exact ⟨toJS f o s0, by simp [toJSProps], ih⟩
    | succ i =>
      simp only [List.getElem?_cons_succ] at h
      obtain ⟨a, h1, h2⟩ := ihs i n s h
      exact ⟨a, by simp [toJSProps, h1], h2⟩
end


/-! ## Totality -/

/-- `runOrder` succeeds if its actions do. -/
theorem runOrder_total {acts : List Act} {P : Ctx → Prop}
    (ha : ∀ a ∈ acts, ∀ c, P c → ∃ j c', a c = .ok (j, c') ∧ P c') :
    ∀ (is : List Nat) (c : Ctx), P c → ∃ rs c', runOrder acts is c = .ok (rs, c') ∧ P c' := by
  intro is
  induction is with
  | nil => intro c hc; exact ⟨[], c, rfl, hc⟩
  | cons i is ih =>
    intro c hc
    cases hg : acts[i]? with
    | none =>
      obtain ⟨rs, c', h, hP⟩ := ih c hc
      exact ⟨rs, c', by simp [runOrder, hg, h], hP⟩
    | some a =>
      obtain ⟨j, c1, h1, hP1⟩ := ha a (List.mem_of_getElem? hg) c hc
      obtain ⟨rs, c', h, hP⟩ := ih c1 hP1
      exact ⟨(i, j) :: rs, c', by simp [runOrder, hg, h1, h, bind, Except.bind], hP⟩

mutual
theorem toJS_total {P : Ctx → Prop} (hclock : ∀ c k, P c → P { c with clock := k })
    (hf : ∀ n c, P c → ∃ c', f n c = .ok c' ∧ P c') :
    ∀ (s : OS) (c : Ctx), P c → ∃ j c', toJS f o s c = .ok (j, c') ∧ P c'
  | .empty => by intro c hc; exact ⟨_, c, by simp only [toJS]; rfl, hc⟩
  | .ref r => by
    intro c hc
    cases hl : localRef? r with
    | none => exact ⟨_, c, by simp only [toJS, hl]; rfl, hc⟩
    | some n =>
      obtain ⟨c', h, hP⟩ := hf n c hc
      exact ⟨_, c', by simp only [toJS, hl, h, bind, Except.bind]; rfl, hP⟩
  | .schema flat not allOf oneOf anyOf items props addlBool addl => by
    have ihnot := toJSOpt_total hclock hf not
    have ihall := toJSList_total hclock hf allOf
    have ihone := toJSList_total hclock hf oneOf
    have ihany := toJSList_total hclock hf anyOf
    have ihit := toJSOpt_total hclock hf items
    have ihp := toJSProps_total hclock hf props
    have iha := toJSOpt_total hclock hf addl
    intro c hc
    obtain ⟨j1, c1, h1, p1⟩ := ihnot c hc
    obtain ⟨j2, c2, h2, p2⟩ := ihall c1 p1
    obtain ⟨j3, c3, h3, p3⟩ := ihone c2 p2
    obtain ⟨j4, c4, h4, p4⟩ := ihany c3 p3
    obtain ⟨j5, c5, h5, p5⟩ := ihit c4 p4
    obtain ⟨j6, c6, h6, p6⟩ := runOrder_total ihp (o.ord c5.clock props.length)
      { c5 with clock := c5.clock + 1 } (hclock _ _ p5)
    cases addlBool with
    | some b =>
      exact ⟨_, c6, by simp only [toJS, h1, h2, h3, h4, h5, h6, bind, Except.bind]; rfl, p6⟩
    | none =>
      obtain ⟨j7, c7, h7, p7⟩ := iha c6 p6
      exact ⟨_, c7, by simp only [toJS, h1, h2, h3, h4, h5, h6, h7, bind, Except.bind]; rfl, p7⟩

theorem toJSOpt_total {P : Ctx → Prop} (hclock : ∀ c k, P c → P { c with clock := k })
    (hf : ∀ n c, P c → ∃ c', f n c = .ok c' ∧ P c') :
    ∀ (s : Option OS) (c : Ctx), P c → ∃ j c', runOpt (toJSOpt f o s) c = .ok (j, c') ∧ P c'
  | none => by intro c hc; exact ⟨none, c, rfl, hc⟩
  | some s => by
    have ih := toJS_total hclock hf s
    intro c hc
    obtain ⟨j, c', h, hP⟩ := ih c hc
    exact ⟨some j, c', by simp only [toJSOpt, runOpt, h, bind, Except.bind], hP⟩

theorem toJSList_total {P : Ctx → Prop} (hclock : ∀ c k, P c → P { c with clock := k })
    (hf : ∀ n c, P c → ∃ c', f n c = .ok c' ∧ P c') :
    ∀ (ss : List OS) (c : Ctx), P c → ∃ j c', runList (toJSList f o ss) c = .ok (j, c') ∧ P c'
  | [] => by intro c hc; exact ⟨[], c, rfl, hc⟩
  | s :: ss => by
    have ih := toJS_total hclock hf s
    have ihs := toJSList_total hclock hf ss
    intro c hc
    obtain ⟨j, c1, h, p1⟩ := ih c hc
    obtain ⟨js, c2, h2, p2⟩ := ihs c1 p1
    exact ⟨j :: js, c2, by simp only [toJSList, runList, h, h2, bind, Except.bind], p2⟩

theorem toJSProps_total {P : Ctx → Prop} (hclock : ∀ c k, P c → P { c with clock := k })
    (hf : ∀ n c, P c → ∃ c', f n c = .ok c' ∧ P c') :
    ∀ (ss : List (String × OS)), ∀ a ∈ toJSProps f o ss, ∀ c, P c → ∃ j c', a c = .ok (j, c') ∧ P c'
  | [] => by intro a h; simp [toJSProps] at h
  | (n0, s0) :: ss => by
    have ih := toJS_total hclock hf s0
    have ihs := toJSProps_total hclock hf ss
    intro a ha
    simp only [toJSProps, List.mem_cons] at ha
    rcases ha with rfl | ha
    · exact ih
    · exact ihs a ha
end

/-! ## The bound does not matter -/

theorem runOrder_mono {acts acts' : List Act} (hl : acts.length = acts'.length)
    (ha : ∀ (i : Nat) (a a' : Act), acts[i]? = some a → acts'[i]? = some a' → ∀ c r, a c = .ok r → a' c = .ok r) :
    ∀ (is : List Nat) (c : Ctx) r, runOrder acts is c = .ok r → runOrder acts' is c = .ok r := by
  intro is
  induction is with
  | nil => intro c r h; exact h
  | cons i is ih =>
    intro c r h
    cases hg : acts[i]? with
    | none =>
      have hg' : acts'[i]? = none := by
        rw [List.getElem?_eq_none_iff] at hg ⊢; omega
      simp only [runOrder, hg] at h
      simp only [runOrder, hg']
      exact ih c r h
    | some a =>
      have hi := (List.getElem?_eq_some_iff.mp hg).1
      have hg' : acts'[i]? = some acts'[i] := List.getElem?_eq_getElem (by omega)
      simp only [runOrder, hg, bind, Except.bind] at h
      simp only [runOrder, hg', bind, Except.bind]
      cases h1 : a c with
      | error e => rw [h1] at h; cases h
      | ok r1 =>
        rw [ha i a _ hg hg' c r1 h1]
        rw [h1] at h
        simp only at h ⊢
        cases h2 : runOrder acts is r1.2 with
        | error e => rw [h2] at h; cases h
        | ok r2 =>
          rw [ih _ _ h2]
          rw [h2] at h
          exact h

mutual
theorem toJS_mono {g : Follow} (hfg : ∀ n c r, f n c = .ok r → g n c = .ok r) :
    ∀ (s : OS) (c : Ctx) r, toJS f o s c = .ok r → toJS g o s c = .ok r
  | .empty => by intro c r h; simpa only [toJS] using h
  | .ref r => by
    intro c r' h
    cases hl : localRef? r with
    | none => simp only [toJS, hl] at h ⊢; exact h
    | some n =>
      simp only [toJS, hl, bind, Except.bind] at h ⊢
      cases h1 : f n c with
      | error e => rw [h1] at h; cases h
      | ok c1 => rw [hfg _ _ _ h1]; rw [h1] at h; exact h
  | .schema flat not allOf oneOf anyOf items props addlBool addl => by
    have ihnot := toJSOpt_mono hfg not
    have ihall := toJSList_mono hfg allOf
    have ihone := toJSList_mono hfg oneOf
    have ihany := toJSList_mono hfg anyOf
    have ihit := toJSOpt_mono hfg items
    have ihp := toJSProps_mono hfg props
    have iha := toJSOpt_mono hfg addl
    intro c r h
    simp only [toJS, bind, Except.bind] at h ⊢
    cases h1 : runOpt (toJSOpt f o not) c with
    | error e => rw [h1] at h; cases h
    | ok r1 =>
    rw [ihnot _ _ h1]; rw [h1] at h; simp only at h ⊢
    cases h2 : runList (toJSList f o allOf) r1.2 with
    | error e => rw [h2] at h; cases h
    | ok r2 =>
    rw [ihall _ _ h2]; rw [h2] at h; simp only at h ⊢
    cases h3 : runList (toJSList f o oneOf) r2.2 with
    | error e => rw [h3] at h; cases h
    | ok r3 =>
    rw [ihone _ _ h3]; rw [h3] at h; simp only at h ⊢
    cases h4 : runList (toJSList f o anyOf) r3.2 with
    | error e => rw [h4] at h; cases h
    | ok r4 =>
    rw [ihany _ _ h4]; rw [h4] at h; simp only at h ⊢
    cases h5 : runOpt (toJSOpt f o items) r4.2 with
    | error e => rw [h5] at h; cases h
    | ok r5 =>
    rw [ihit _ _ h5]; rw [h5] at h; simp only at h ⊢
    cases h6 : runOrder (toJSProps f o props) (o.ord r5.2.clock props.length) { r5.2 with clock := r5.2.clock + 1 } with
    | error e => rw [h6] at h; cases h
    | ok r6 =>
    rw [runOrder_mono (by rw [toJSProps_length, toJSProps_length]) ihp _ _ _ h6]
    rw [h6] at h; simp only at h ⊢
    cases addlBool with
    | some b => exact h
    | none =>
      simp only at h ⊢
      cases h7 : runOpt (toJSOpt f o addl) r6.2 with
      | error e => rw [h7] at h; cases h
      | ok r7 =>
      rw [iha _ _ h7]; rw [h7] at h; exact h

theorem toJSOpt_mono {g : Follow} (hfg : ∀ n c r, f n c = .ok r → g n c = .ok r) :
    ∀ (s : Option OS) (c : Ctx) r, runOpt (toJSOpt f o s) c = .ok r → runOpt (toJSOpt g o s) c = .ok r
  | none => by intro c r h; exact h
  | some s => by
    have ih := toJS_mono hfg s
    intro c r h
    simp only [toJSOpt, runOpt, bind, Except.bind] at h ⊢
    cases h1 : toJS f o s c with
    | error e => rw [h1] at h; cases h
    | ok r1 => rw [ih _ _ h1]; rw [h1] at h; exact h

theorem toJSList_mono {g : Follow} (hfg : ∀ n c r, f n c = .ok r → g n c = .ok r) :
    ∀ (ss : List OS) (c : Ctx) r, runList (toJSList f o ss) c = .ok r → runList (toJSList g o ss) c = .ok r
  | [] => by intro c r h; exact h
  | s :: ss => by
    have ih := toJS_mono hfg s
    have ihs := toJSList_mono hfg ss
    intro c r h
    simp only [toJSList, runList, bind, Except.bind] at h ⊢
    cases h1 : toJS f o s c with
    | error e => rw [h1] at h; cases h
    | ok r1 =>
      rw [ih _ _ h1]; rw [h1] at h; simp only at h ⊢
      cases h2 : runList (toJSList f o ss) r1.2 with
      | error e => rw [h2] at h; cases h
      | ok r2 => rw [ihs _ _ h2]; rw [h2] at h; exact h

theorem toJSProps_mono {g : Follow} (hfg : ∀ n c r, f n c = .ok r → g n c = .ok r) :
    ∀ (ss : List (String × OS)), ∀ (i : Nat) (a a' : Act), (toJSProps f o ss)[i]? = some a →
      (toJSProps g o ss)[i]? = some a' → ∀ c r, a c = .ok r → a' c = .ok r
  | [] => by intro i a a' h; simp [toJSProps] at h
  | (n0, s0) :: ss => by
    have ih := toJS_mono hfg s0
    have ihs := toJSProps_mono hfg ss
    intro i a a' h h'
    cases i with
    | zero =>
      simp only [toJSProps, List.getElem?_cons_zero, Option.some.injEq] at h h'
      rw [← h, ← h']; exact ih
    | succ i =>
      simp only [toJSProps, List.getElem?_cons_succ] at h h'
      exact ihs i a a' h h'
end

theorem follow_mono (comps : Option (GoMap OS)) (k : Nat) (n : String) (c r : Ctx)
    (h : follow comps o k n c = .ok r) : follow comps o (k + 1) n c = .ok r := by
  induction k generalizing n c r with
  | zero => simp only [follow] at h; cases h
  | succ k ih =>
    rw [follow] at h ⊢
    cases hp : c.processed.get? n with
    | some v => simp only [hp] at h ⊢; exact h
    | none =>
      cases comps with
      | none => simp only [hp] at h; cases h
      | some m =>
        simp only [hp, bind, Except.bind] at h ⊢
        cases h1 : toJS (follow (some m) o k) o ((m.get? n).getD .empty)
            { c with processed := c.processed.set n .zero } with
        | error e => rw [h1] at h; cases h
        | ok r1 =>
          rw [toJS_mono ih _ _ _ h1]
          rw [h1] at h
          exact h

theorem follow_mono_le (comps : Option (GoMap OS)) {k k' : Nat} (hk : k ≤ k') (n : String) (c r : Ctx)
    (h : follow comps o k n c = .ok r) : follow comps o k' n c = .ok r := by
  induction hk with
  | refl => exact h
  | step _ ih => exact follow_mono _ _ _ _ _ ih

/-- Following a reference is a step of the traversal. -/
theorem follow_ok (m : GoMap OS) (k : Nat) (n : String) (c c' : Ctx)
    (h : follow (some m) o k n c = .ok c') :
    Step (fun n => conv (component m n)) (fun n => jsRefs (conv (component m n))) [n] c c' := by
  induction k generalizing n c c' with
  | zero => simp only [follow] at h; cases h
  | succ k ih =>
    rw [follow] at h
    cases hp : c.processed.get? n with
    | some v =>
      simp only [hp, Except.ok.injEq] at h
      rw [← h]
      exact Step.seen hp
    | none =>
      simp only [hp, bind, Except.bind] at h
      cases h1 : toJS (follow (some m) o k) o ((m.get? n).getD .empty)
          { c with processed := c.processed.set n .zero } with
      | error e => rw [h1] at h; cases h
      | ok r1 =>
        obtain ⟨j, c1⟩ := r1
        rw [h1] at h
        simp only [Except.ok.injEq] at h
        obtain ⟨e1, s1⟩ := toJS_ok ih _ _ _ _ h1
        rw [← h, e1]
        exact Step.fresh hp s1

/-- Enough fuel: one more than the number of components still to process. -/
theorem follow_total (m : GoMap OS) (k : Nat) (n : String) (c : Ctx) (hk : todo m.keys c ≤ k) :
    ∃ c', follow (some m) o (k + 1) n c = .ok c' ∧ todo m.keys c' ≤ k := by
  induction k generalizing n c with
  | zero =>
    have : ∃ c', follow (some m) o 1 n c = .ok c' := by
      rw [follow]
      cases hp : c.processed.get? n with
      | some v => exact ⟨_, rfl⟩
      | none =>
        have hn : m.get? n = none := by
          cases hm : m.get? n with
          | none => rfl
          | some v =>
            have hmem : n ∈ m.keys := by rw [GoMap.mem_keys_iff, hm]; rfl
            have := todo_set_lt (v := .zero) hmem hp
            omega
        simp only [hn, Option.getD_none, toJS, bind, Except.bind]
        exact ⟨_, rfl⟩
    obtain ⟨c', h⟩ := this
    exact ⟨c', h, Nat.le_trans ((follow_ok m 1 n c c' h).todo_le _) hk⟩
  | succ k ih =>
    have : ∃ c', follow (some m) o (k + 2) n c = .ok c' := by
      rw [follow]
      cases hp : c.processed.get? n with
      | some v => exact ⟨_, rfl⟩
      | none =>
        simp only
        cases hm : m.get? n with
        | none =>
          simp only [Option.getD_none, toJS, bind, Except.bind]
          exact ⟨_, rfl⟩
        | some v =>
          have hmem : n ∈ m.keys := by rw [GoMap.mem_keys_iff, hm]; rfl
          have hlt := todo_set_lt (v := .zero) hmem hp
          obtain ⟨j, c1, h1, -⟩ := toJS_total (o := o) (P := fun c => todo m.keys c ≤ k)
            (fun c _ h => h) ih v { c with processed := c.processed.set n .zero } (by omega)
          simp only [Option.getD_some, h1, bind, Except.bind]
          exact ⟨_, rfl⟩
    obtain ⟨c', h⟩ := this
    exact ⟨c', h, Nat.le_trans ((follow_ok m _ n c c' h).todo_le _) hk⟩

theorem todo_init (m : GoMap OS) : todo m.keys {} ≤ m.length := by
  unfold todo
  refine Nat.le_trans (List.length_filter_le _ _) ?_
  simp [GoMap.keys]

end Verif.V30
