import Verif.Lemmas.Dfs
import Verif.Lemmas.Schema30
import Verif.Spec.Refs31

/-!
# The traversal of 3.1 schemas
-/

namespace Verif.V31
open SchemaSpec Dfs

variable {val : String → JS} {succ : String → List String} {f g : Follow} {o : Order}

/-- A visit handles the references `L`. -/
def VOk (val : String → JS) (succ : String → List String) (a : Visit) (L : List String) : Prop :=
  ∀ c c', a c = .ok c' → Step val succ L c c'

theorem VOk.nil : VOk val succ (visitList []) [] := by
  intro c c' h; cases h; exact Step.refl c

theorem VOk.cons {a : Visit} {as : List Visit} {L M : List String} (h : VOk val succ a L)
    (hs : VOk val succ (visitList as) M) : VOk val succ (visitList (a :: as)) (L ++ M) := by
  intro c c' e
  simp only [visitList, bind, Except.bind] at e
  cases h1 : a c with
  | error x => rw [h1] at e; cases e
  | ok c1 => rw [h1] at e; exact (h c c1 h1).trans (hs c1 c' e)

theorem VOk.order {acts : List Visit} {R : Nat → List String}
    (ha : ∀ i a, acts[i]? = some a → VOk val succ a (R i)) :
    ∀ (is : List Nat), (∀ i ∈ is, i < acts.length) → VOk val succ (visitOrder acts is) (is.flatMap R)
  | [], _ => by intro c c' h; cases h; exact Step.refl c
  | i :: is, hl => by
    intro c c' e
    have hi := hl i (by simp)
    have hg : acts[i]? = some acts[i] := List.getElem?_eq_getElem hi
    simp only [visitOrder, hg, bind, Except.bind] at e
    cases h1 : acts[i] c with
    | error x => rw [h1] at e; cases e
    | ok c1 =>
      rw [h1] at e
      exact (ha i _ hg c c1 h1).trans (VOk.order ha is (fun x hx => hl x (by simp [hx])) c1 c' e)

theorem findProps_length (ss : List (String × JS)) : (findProps f o ss).length = ss.length := by
  induction ss with
  | nil => rfl
  | cons s ss ih => simp [findProps, ih]

theorem findProps_get (ss : List (String × JS)) (i : Nat) :
    (findProps f o ss)[i]? = (ss[i]?).map (fun p => find f o p.2) := by
  induction ss generalizing i with
  | nil => simp [findProps]
  | cons s ss ih => cases i <;> simp [findProps, ih]

theorem mainRefsProps_eq (ss : List (String × JS)) :
    mainRefsProps ss = (ss.map (fun p => mainRefs p.2)).flatten := by
  induction ss with
  | nil => rfl
  | cons s ss ih => simp [mainRefsProps, ih]

theorem VOk.props {ss : List (String × JS)} (ha : ∀ p ∈ ss, VOk val succ (find f o p.2) (mainRefs p.2))
    (is : List Nat) (hp : is.Perm (List.range ss.length)) :
    VOk val succ (visitOrder (findProps f o ss) is) (mainRefsProps ss) := by
  let R : Nat → List String := fun i => ((ss.map (fun p => mainRefs p.2)).getD i [])
  have h := VOk.order (val := val) (succ := succ) (acts := findProps f o ss) (R := R) (by
    intro i a hia
    rw [findProps_get] at hia
    cases e : ss[i]? with
    | none => rw [e] at hia; cases hia
    | some p =>
      rw [e] at hia; cases hia
      simp only [R, List.getD, List.getElem?_map, e, Option.map_some, Option.getD_some]
      exact ha p (List.mem_of_getElem? e)) is (by
    intro i hi; rw [findProps_length]; simpa using hp.mem_iff.mp hi)
  intro c c' e
  refine (h c c' e).perm ((V30.flatMap_perm hp).trans ?_)
  have := V30.range_flatMap_getD (ss.map (fun p => mainRefs p.2))
  simp only [List.length_map] at this
  rw [show (List.range ss.length).flatMap R = _ from this, mainRefsProps_eq]

theorem ok_bind (x : Except Stop Ctx) : (x >>= fun c => .ok c) = x := by cases x <;> rfl

/-- The property loop as a visit. -/
def propsVisit (f : Follow) (o : Order) (props : List (String × JS)) : Visit := fun c =>
  visitOrder (findProps f o props) (o.ord c.clock props.length) { c with clock := c.clock + 1 }

theorem find_obj {flat : JFlat} (hr : flat.ref = none) (not : Option JS) (allOf oneOf anyOf : List JS)
    (items : Option JS) (itemsArr : List JS) (props : List (String × JS)) (addl : Option JS)
    (others : List (String × JS)) :
    find f o (.obj flat not allOf oneOf anyOf items itemsArr props addl others) =
      visitList [visitList (findOpt f o not), visitList (findList f o allOf), visitList (findList f o oneOf),
        visitList (findList f o anyOf), visitList (findOpt f o items), visitList (findList f o itemsArr),
        propsVisit f o props, visitList (findOpt f o addl)] := by
  funext c
  simp only [find, hr, visitList, propsVisit]
  simp only [ok_bind]

mutual
theorem find_ok (hf : ∀ n, VOk val succ (f n) [n]) : ∀ (j : JS), VOk val succ (find f o j) (mainRefs j)
  | .zero => by intro c c' h; simp only [find] at h; cases h; exact Step.refl c
  | .bool b => by intro c c' h; simp only [find] at h; cases h; exact Step.refl c
  | .obj flat not allOf oneOf anyOf items itemsArr props addl others => by
    have i1 := findOpt_ok hf not
    have i2 := findList_ok hf allOf
    have i3 := findList_ok hf oneOf
    have i4 := findList_ok hf anyOf
    have i5 := findOpt_ok hf items
    have i6 := findList_ok hf itemsArr
    have i7 := findProps_ok hf props
    have i8 := findOpt_ok hf addl
    cases hr : flat.ref with
    | some r =>
      simp only [find, hr, mainRefs]
      cases hl : localRef? r with
      | none => intro c c' h; cases h; exact Step.refl c
      | some n => exact hf n
    | none =>
      rw [find_obj hr]
      have hp : VOk val succ (propsVisit f o props) (mainRefsProps props) := by
        intro c c' h
        exact (VOk.props i7 _ (o.perm _ _) _ _ h).clock c.clock c'.clock
      have := i1.cons (i2.cons (i3.cons (i4.cons (i5.cons (i6.cons (hp.cons (i8.cons VOk.nil)))))))
      simp only [mainRefs, hr]
      simpa only [List.append_assoc, List.append_nil] using this
theorem findOpt_ok (hf : ∀ n, VOk val succ (f n) [n]) : ∀ (j : Option JS),
    VOk val succ (visitList (findOpt f o j)) (mainRefsOpt j)
  | none => VOk.nil
  | some j => by
    have := (find_ok hf j).cons (VOk.nil (val := val) (succ := succ))
    rw [List.append_nil] at this
    exact this
theorem findList_ok (hf : ∀ n, VOk val succ (f n) [n]) : ∀ (j : List JS),
    VOk val succ (visitList (findList f o j)) (mainRefsList j)
  | [] => VOk.nil
  | j :: js => (find_ok hf j).cons (findList_ok hf js)
theorem findProps_ok (hf : ∀ n, VOk val succ (f n) [n]) : ∀ (ss : List (String × JS)), ∀ p ∈ ss,
    VOk val succ (find f o p.2) (mainRefs p.2)
  | [] => by intro p hp; cases hp
  | (n, s) :: ss => by
    have h1 := find_ok hf s
    have h2 := findProps_ok hf ss
    intro p hp
    rcases List.mem_cons.mp hp with rfl | hp
    · exact h1
    · exact h2 p hp
end

/-! ## Totality -/

/-- A visit succeeds and keeps the invariant. -/
def VTot (P : Ctx → Prop) (a : Visit) : Prop := ∀ c, P c → ∃ c', a c = .ok c' ∧ P c'

theorem VTot.list {P : Ctx → Prop} : ∀ {as : List Visit}, (∀ a ∈ as, VTot P a) → VTot P (visitList as)
  | [], _ => fun c hc => ⟨c, rfl, hc⟩
  | a :: as, h => by
    intro c hc
    obtain ⟨c1, h1, hc1⟩ := h a (by simp) c hc
    obtain ⟨c2, h2, hc2⟩ := VTot.list (as := as) (fun b hb => h b (by simp [hb])) c1 hc1
    exact ⟨c2, by simp only [visitList, h1, bind, Except.bind, h2], hc2⟩

theorem VTot.order {P : Ctx → Prop} {acts : List Visit} (ha : ∀ a ∈ acts, VTot P a) :
    ∀ (is : List Nat), VTot P (visitOrder acts is)
  | [] => fun c hc => ⟨c, rfl, hc⟩
  | i :: is => by
    intro c hc
    simp only [visitOrder]
    cases hg : acts[i]? with
    | none => exact VTot.order ha is c hc
    | some a =>
      obtain ⟨c1, h1, hc1⟩ := ha a (List.mem_of_getElem? hg) c hc
      obtain ⟨c2, h2, hc2⟩ := VTot.order ha is c1 hc1
      exact ⟨c2, by simp only [h1, bind, Except.bind, h2], hc2⟩

mutual
theorem find_total {P : Ctx → Prop} (hP : ∀ c k, P c → P { c with clock := k }) (hf : ∀ n, VTot P (f n)) :
    ∀ (j : JS), VTot P (find f o j)
  | .zero => by intro c hc; exact ⟨c, rfl, hc⟩
  | .bool b => by intro c hc; exact ⟨c, rfl, hc⟩
  | .obj flat not allOf oneOf anyOf items itemsArr props addl others => by
    have i1 := findOpt_total hP hf not
    have i2 := findList_total hP hf allOf
    have i3 := findList_total hP hf oneOf
    have i4 := findList_total hP hf anyOf
    have i5 := findOpt_total hP hf items
    have i6 := findList_total hP hf itemsArr
    have i7 := findProps_total hP hf props
    have i8 := findOpt_total hP hf addl
    cases hr : flat.ref with
    | some r =>
      simp only [find, hr]
      cases hl : localRef? r with
      | none => exact fun c hc => ⟨c, rfl, hc⟩
      | some n => exact hf n
    | none =>
      rw [find_obj hr]
      apply VTot.list
      intro a ha
      simp only [List.mem_cons, List.not_mem_nil, or_false] at ha
      rcases ha with rfl | rfl | rfl | rfl | rfl | rfl | rfl | rfl
      · exact VTot.list i1
      · exact VTot.list i2
      · exact VTot.list i3
      · exact VTot.list i4
      · exact VTot.list i5
      · exact VTot.list i6
      · intro c hc
        exact VTot.order i7 _ _ (hP _ _ hc)
      · exact VTot.list i8
theorem findOpt_total {P : Ctx → Prop} (hP : ∀ c k, P c → P { c with clock := k }) (hf : ∀ n, VTot P (f n)) :
    ∀ (j : Option JS), ∀ a ∈ findOpt f o j, VTot P a
  | none => by intro a ha; cases ha
  | some j => by
    have h := find_total hP hf j
    intro a ha
    rcases List.mem_singleton.mp ha with rfl
    exact h
theorem findList_total {P : Ctx → Prop} (hP : ∀ c k, P c → P { c with clock := k }) (hf : ∀ n, VTot P (f n)) :
    ∀ (j : List JS), ∀ a ∈ findList f o j, VTot P a
  | [] => by intro a ha; cases ha
  | j :: js => by
    have h1 := find_total hP hf j
    have h2 := findList_total hP hf js
    intro a ha
    rcases List.mem_cons.mp ha with rfl | ha
    · exact h1
    · exact h2 a ha
theorem findProps_total {P : Ctx → Prop} (hP : ∀ c k, P c → P { c with clock := k }) (hf : ∀ n, VTot P (f n)) :
    ∀ (ss : List (String × JS)), ∀ a ∈ findProps f o ss, VTot P a
  | [] => by intro a ha; cases ha
  | (n, j) :: js => by
    have h1 := find_total hP hf j
    have h2 := findProps_total hP hf js
    intro a ha
    rcases List.mem_cons.mp ha with rfl | ha
    · exact h1
    · exact h2 a ha
end

/-! ## More fuel gives the same result -/

/-- Every success of the first visit is a success of the second. -/
def VLe (a b : Visit) : Prop := ∀ c c', a c = .ok c' → b c = .ok c'

theorem VLe.nil : VLe (visitList []) (visitList []) := fun _ _ h => h

theorem VLe.cons {a b : Visit} {as bs : List Visit} (h : VLe a b) (hs : VLe (visitList as) (visitList bs)) :
    VLe (visitList (a :: as)) (visitList (b :: bs)) := by
  intro c c' e
  simp only [visitList, bind, Except.bind] at e ⊢
  cases h1 : a c with
  | error x => rw [h1] at e; cases e
  | ok c1 => rw [h1] at e; rw [h c c1 h1]; exact hs c1 c' e

theorem VLe.order {acts bcts : List Visit} (hl : acts.length = bcts.length)
    (h : ∀ (i : Nat) (a b : Visit), acts[i]? = some a → bcts[i]? = some b → VLe a b) :
    ∀ (is : List Nat), VLe (visitOrder acts is) (visitOrder bcts is)
  | [] => fun _ _ h => h
  | i :: is => by
    intro c c' e
    simp only [visitOrder] at e ⊢
    by_cases hi : i < acts.length
    · have hg : acts[i]? = some acts[i] := List.getElem?_eq_getElem hi
      have hg' : bcts[i]? = some (bcts[i]'(hl ▸ hi)) := List.getElem?_eq_getElem _
      simp only [hg, hg', bind, Except.bind] at e ⊢
      cases h1 : acts[i] c with
      | error x => rw [h1] at e; cases e
      | ok c1 => rw [h1] at e; rw [h i _ _ hg hg' c c1 h1]; exact VLe.order hl h is c1 c' e
    · have hg : acts[i]? = none := List.getElem?_eq_none (by omega)
      have hg' : bcts[i]? = none := List.getElem?_eq_none (by omega)
      simp only [hg, hg'] at e ⊢
      exact VLe.order hl h is c c' e

mutual
theorem find_mono (hfg : ∀ n, VLe (f n) (g n)) : ∀ (j : JS), VLe (find f o j) (find g o j)
  | .zero => by intro c c' h; exact h
  | .bool b => by intro c c' h; exact h
  | .obj flat not allOf oneOf anyOf items itemsArr props addl others => by
    have i1 := findOpt_mono hfg not
    have i2 := findList_mono hfg allOf
    have i3 := findList_mono hfg oneOf
    have i4 := findList_mono hfg anyOf
    have i5 := findOpt_mono hfg items
    have i6 := findList_mono hfg itemsArr
    have i7 := findProps_mono hfg props
    have i8 := findOpt_mono hfg addl
    cases hr : flat.ref with
    | some r =>
      simp only [find, hr]
      cases hl : localRef? r with
      | none => exact fun _ _ h => h
      | some n => exact hfg n
    | none =>
      rw [find_obj hr, find_obj hr]
      have hp : VLe (propsVisit f o props) (propsVisit g o props) := by
        intro c c' h
        refine VLe.order (by rw [findProps_length, findProps_length]) ?_ _ _ _ h
        intro i a b ha hb
        rw [findProps_get] at ha hb
        cases e : props[i]? with
        | none => rw [e] at ha; cases ha
        | some p =>
          rw [e] at ha hb; cases ha; cases hb
          exact i7 p (List.mem_of_getElem? e)
      exact i1.cons (i2.cons (i3.cons (i4.cons (i5.cons (i6.cons (hp.cons (i8.cons VLe.nil)))))))
theorem findOpt_mono (hfg : ∀ n, VLe (f n) (g n)) : ∀ (j : Option JS),
    VLe (visitList (findOpt f o j)) (visitList (findOpt g o j))
  | none => VLe.nil
  | some j => (find_mono hfg j).cons VLe.nil
theorem findList_mono (hfg : ∀ n, VLe (f n) (g n)) : ∀ (j : List JS),
    VLe (visitList (findList f o j)) (visitList (findList g o j))
  | [] => VLe.nil
  | j :: js => (find_mono hfg j).cons (findList_mono hfg js)
theorem findProps_mono (hfg : ∀ n, VLe (f n) (g n)) : ∀ (ss : List (String × JS)), ∀ p ∈ ss,
    VLe (find f o p.2) (find g o p.2)
  | [] => by intro p hp; cases hp
  | (n, s) :: ss => by
    have h1 := find_mono hfg s
    have h2 := findProps_mono hfg ss
    intro p hp
    rcases List.mem_cons.mp hp with rfl | hp
    · exact h1
    · exact h2 p hp
end

theorem follow_mono (comps : Option Schemas) (k : Nat) (n : String) :
    VLe (follow comps o k n) (follow comps o (k + 1) n) := by
  induction k generalizing n with
  | zero => intro c c' h; simp only [follow] at h; cases h
  | succ k ih =>
    intro c c' h
    rw [follow] at h ⊢
    cases hp : c.processed.get? n with
    | some v => simp only [hp] at h ⊢; exact h
    | none =>
      cases comps with
      | none => simp only [hp] at h; cases h
      | some m =>
        simp only [hp] at h ⊢
        cases hd : m.decode n with
        | none => simp only [hd] at h; cases h
        | some js =>
          simp only [hd, bind, Except.bind] at h ⊢
          generalize hc : ({ processed := (c.processed.set n JS.zero).set n js, count := c.count, clock := c.clock } : Ctx) = c0 at h ⊢
          cases h1 : find (follow (some m) o k) o js c0 with
          | error e => rw [h1] at h; cases h
          | ok c1 => rw [find_mono ih js c0 c1 h1]; rw [h1] at h; exact h

theorem follow_mono_le (comps : Option Schemas) {k k' : Nat} (hk : k ≤ k') (n : String) :
    VLe (follow comps o k n) (follow comps o k' n) := by
  induction hk with
  | refl => exact fun _ _ h => h
  | step _ ih => exact fun c c' h => follow_mono _ _ _ c c' (ih c c' h)

theorem set_self {V : Type} {m : GoMap V} {k : String} {v : V} (h : m.get? k = some v) : m.set k v = m := by
  induction m with
  | nil => cases h
  | cons p m ih =>
    obtain ⟨k', v'⟩ := p
    simp only [GoMap.get?] at h
    simp only [GoMap.set]
    split
    · next e => subst e; simp at h; rw [h]
    · next e => rw [if_neg e] at h; rw [ih h]

theorem set_set {V : Type} (m : GoMap V) (k : String) (v w : V) : (m.set k v).set k w = m.set k w := by
  induction m with
  | nil => simp [GoMap.set]
  | cons p m ih =>
    obtain ⟨k', v'⟩ := p
    simp only [GoMap.set]
    split
    · next e => simp [GoMap.set]
    · next e => simp [GoMap.set, e, ih]

theorem follow_ok (m : Schemas) (k : Nat) (n : String) :
    VOk (component31 m) (fun n => mainRefs (component31 m n)) (follow (some m) o k n) [n] := by
  induction k generalizing n with
  | zero => intro c c' h; simp only [follow] at h; cases h
  | succ k ih =>
    intro c c' h
    rw [follow] at h
    cases hp : c.processed.get? n with
    | some v =>
      simp only [hp, Except.ok.injEq] at h
      rw [← h]
      exact Step.seen hp
    | none =>
      simp only [hp] at h
      cases hd : m.decode n with
      | none => simp only [hd] at h; cases h
      | some js =>
        have hval : component31 m n = js := by unfold component31; rw [hd]; rfl
        simp only [hd, bind, Except.bind, set_set] at h
        cases h1 : find (follow (some m) o k) o js { c with processed := c.processed.set n js } with
        | error e => rw [h1] at h; cases h
        | ok c1 =>
          rw [h1] at h
          simp only [Except.ok.injEq] at h
          have s1 := find_ok ih js _ _ h1
          have s2 : Step (component31 m) (fun n => mainRefs (component31 m n)) (mainRefs (component31 m n))
              { c with processed := c.processed.set n js } c1 := by rw [hval]; exact s1
          have s3 := Step.fresh hp s2
          have hk : c1.processed.get? n = some (component31 m n) := by
            have := s1.kept n (by
              rw [GoMap.mem_keys_iff]; simp only; rw [GoMap.get?_set_self]; rfl)
            rw [this]
            simp only
            rw [GoMap.get?_set_self, hval]
          rw [set_self hk] at s3
          rw [← h]
          exact s3

/-- Enough fuel, if every component decodes. -/
theorem follow_total (m : Schemas) (hd : ∀ n, m.decode n ≠ none) (k : Nat) (n : String) :
    VTot (fun c => todo m.decoded.keys c ≤ k) (follow (some m) o (k + 1) n) := by
  have hempty : ∀ n, m.decoded.get? n = none → m.decode n = some emptyJS := by
    intro n hn
    have := hd n
    unfold Schemas.decode at this ⊢
    rw [hn] at this ⊢
    simp only at this ⊢
    split
    · rfl
    · next h => rw [if_neg h] at this; exact absurd rfl this
  have hfe : ∀ (f : Follow) c, find f o emptyJS c = .ok { c with clock := c.clock + 1 } := by
    intro f c
    have hp := o.perm c.clock 0
    have : o.ord c.clock 0 = [] := by simpa using hp.eq_nil
    simp [find, emptyJS, findOpt, findList, findProps, visitList, this, visitOrder, bind, Except.bind]
  induction k generalizing n with
  | zero =>
    intro c hk
    have : ∃ c', follow (some m) o 1 n c = .ok c' := by
      rw [follow]
      cases hp : c.processed.get? n with
      | some v => exact ⟨_, rfl⟩
      | none =>
        have hn : m.decoded.get? n = none := by
          cases hm : m.decoded.get? n with
          | none => rfl
          | some v =>
            have hmem : n ∈ m.decoded.keys := by rw [GoMap.mem_keys_iff, hm]; rfl
            have := todo_set_lt (v := .zero) hmem hp
            omega
        simp only [hempty n hn, hfe, bind, Except.bind]
        exact ⟨_, rfl⟩
    obtain ⟨c', h⟩ := this
    exact ⟨c', h, Nat.le_trans ((follow_ok m 1 n c c' h).todo_le _) hk⟩
  | succ k ih =>
    intro c hk
    have : ∃ c', follow (some m) o (k + 2) n c = .ok c' := by
      rw [follow]
      cases hp : c.processed.get? n with
      | some v => exact ⟨_, rfl⟩
      | none =>
        simp only
        cases hm : m.decoded.get? n with
        | none =>
          simp only [hempty n hm, hfe, bind, Except.bind]
          exact ⟨_, rfl⟩
        | some v =>
          obtain ⟨js, hjs⟩ := Option.ne_none_iff_exists'.mp (hd n)
          simp only [hjs, bind, Except.bind, set_set]
          have hmem : n ∈ m.decoded.keys := by rw [GoMap.mem_keys_iff, hm]; rfl
          have hlt := todo_set_lt (v := js) hmem hp
          obtain ⟨c1, h1, -⟩ := find_total (o := o) (P := fun c => todo m.decoded.keys c ≤ k)
            (fun c _ h => h) ih js { c with processed := c.processed.set n js } (by omega)
          simp only [h1]
          exact ⟨_, rfl⟩
    obtain ⟨c', h⟩ := this
    exact ⟨c', h, Nat.le_trans ((follow_ok m _ n c c' h).todo_le _) hk⟩

end Verif.V31
