import Verif.Lemmas.Mem31

/-!
# What storing an operation shares with the caller in OpenAPI 3.1 (C90)
-/

namespace Verif.Mem31

open Verif.Mem

/-- What the functions can reach they could reach before the call. -/
theorem setup_given {m m1 : Memory} {s a : Nat} {E : Nat → Prop} {method path F : String} {r : Sanitized}
    (ha : Apart m s E) (hr : sanitizeMethodPath method path = .ok r) (hF : (r.method, F) ∈ fields)
    (hk : ∀ x, x < m.length → x ≠ s → m1[x]? = m[x]?)
    (hc : opAt m s r.path F = some a ∧ m1 = m ∨ opAt m s r.path F = none ∧ m.length ≤ a ∧ deref m1 a = .struct [])
    {x : Nat} (hx : From m1 (fun x => x = a ∨ E x) x) (hl : x < m.length) : From m (Given m s method path E) x := by
  rcases hc with ⟨h1, rfl⟩ | ⟨-, h2, h3⟩
  · refine hx.mono ?_
    rintro y (rfl | hy)
    · exact .root (.inr ⟨r, F, hr, hF, h1⟩)
    · exact .root (.inl hy)
  · rcases hx.or with h | h
    · exfalso
      have : ∀ y, From m1 (fun x => x = a) y → y = a := by
        intro y hy
        induction hy with
        | root h => exact h
        | @step z o y _ ho hy ih =>
          subst ih
          have hz : o = .cell (.struct []) := by
            cases o with
            | cell v => simp only [deref, ho] at h3; rw [h3]
            | map => simp only [deref, ho] at h3; cases h3
            | arr => simp only [deref, ho] at h3; cases h3
          subst hz
          cases hy with | cell hy => cases hy with | field h _ => cases h
      have := this x h
      omega
    · refine (own_write ha (fun y hy hn => hk y hy fun h => hn (.inl h)) ha.others ha.env h).mono fun y hy => .root (.inl hy)

/-- C90: after an error of `SetupOperation` the document has the same path items (with the same pointers to operations)
and webhooks; only the stored operation, what it leads to and what the functions have captured can have changed. -/
theorem C90_setup_error {m m' : Memory} {s : Nat} {E : Nat → Prop} {method path msg : String} {fs : List MSetup}
    (ha : Apart m s E) (hfs : ∀ f ∈ fs, Uses E f) (h : setupOperation m s method path fs = (m', some msg)) :
    (∀ path', itemAt m' s path' = itemAt m s path') ∧ (∀ name, hookAt m' s name = hookAt m s name) ∧
    (∀ go, go ≠ "Paths" → (deref m' s).field go = (deref m s).field go) ∧
    (∀ x, x < m.length → x ≠ s → ¬ From m (Given m s method path E) x → m'[x]? = m[x]?) ∧
    Apart m' s E := by
  rcases setup_cases ha h with ⟨_, -, rfl, -⟩ | ⟨r, F, m1, a, m2, e2, hr, hF, hap, hk, hg, hit, hhk, hfo, hp, hown, hc, hrun, hend⟩
  · exact ⟨fun _ => rfl, fun _ => rfl, fun _ _ => rfl, fun _ _ _ _ => rfl, ha⟩
  · have hcf := runAll_confined (a := a) fs m1 hfs
    rw [hrun] at hcf
    obtain ⟨ho2, hap2, -⟩ := Confined.apart hcf hap hap.others hap.env
    have hm : m' = m2 := by
      rcases hend with ⟨_, -, h⟩ | ⟨-, h, -⟩
      · exact h
      · cases h
    subst hm
    refine ⟨fun q => ?_, fun q => ?_, fun go hgo => ?_, fun x hx hs hn => ?_, hap2.mono fun x hx => .inr hx⟩
    · rw [itemAt_same ho2, hit]
    · rw [hookAt_same ho2, hhk]
    · rw [deref_same (ho2 s (.inl rfl)), hfo go hgo]
    · rw [hcf.keeps x (by omega) fun hf => hn (setup_given ha hr hF hk hc hf hx), hk x hx hs]

/-- C90: the functions run on the stored operation itself: what they did is in the document, also if the call fails. -/
theorem C90_setup_in_place {m m' : Memory} {s a : Nat} {E : Nat → Prop} {method path msg F : String} {r : Sanitized}
    {fs : List MSetup} (ha : Apart m s E) (hr : sanitizeMethodPath method path = .ok r) (hF : (r.method, F) ∈ fields)
    (hop : opAt m s r.path F = some a) (h : setupOperation m s method path fs = (m', some msg)) : Ran fs m a m' := by
  rcases setup_cases ha h with ⟨_, h1, -⟩ | ⟨r', F', m1, a', m2, e2, hr', hF', -, -, -, -, -, -, -, -, hc, hrun, hend⟩
  · rw [hr] at h1; cases h1
  · rw [hr] at hr'; cases hr'
    have := fields_methodField hF
    rw [fields_methodField hF'] at this
    cases this
    rcases hc with ⟨h1, rfl⟩ | ⟨h1, -⟩
    · rw [hop] at h1; cases h1
      rcases hend with ⟨_, -, rfl⟩ | ⟨-, h, -⟩
      · exact runAll_ran fs _ hrun
      · cases h
    · rw [hop] at h1; cases h1

/-- C90: after success of `SetupOperation` the document has, at the path and method, the operation the functions were
given: the stored one if there was one, a new one otherwise. It reads as the functions left it, everything else in the
path items and webhooks is as before. -/
theorem C90_setup_ok {m m' : Memory} {s : Nat} {E : Nat → Prop} {method path : String} {fs : List MSetup}
    (ha : Apart m s E) (hfs : ∀ f ∈ fs, Uses E f) (h : setupOperation m s method path fs = (m', none)) :
    ∃ r F m1 a m2, sanitizeMethodPath method path = .ok r ∧ (r.method, F) ∈ fields ∧
      (opAt m s r.path F = some a ∧ m1 = m ∨ opAt m s r.path F = none ∧ m.length ≤ a ∧ deref m1 a = .struct []) ∧
      AllRun fs m1 a m2 ∧ (∀ x, x < m.length → x ≠ s → m1[x]? = m[x]?) ∧ m.length ≤ m1.length ∧ a < m1.length ∧
      (∀ path' F', opAt m' s path' F' = if path' = r.path ∧ F' = F then some a else opAt m s path' F') ∧
      (∀ path' go, go ≠ F → ((itemAt m' s path').getD (.struct [])).field go =
        ((itemAt m s path').getD (.struct [])).field go) ∧
      (∀ k, tree m' k (.ref a) = tree m2 k (.ref a)) ∧
      (∀ x, x < m2.length → ¬ Own m' s x ∨ x < m.length ∧ ¬ Own m s x → m'[x]? = m2[x]?) ∧
      (∀ name, hookAt m' s name = hookAt m s name) ∧
      (∀ go, go ≠ "Paths" → (deref m' s).field go = (deref m s).field go) ∧
      (∀ x, x < m.length → ¬ Own m s x → ¬ From m (Given m s method path E) x → m'[x]? = m[x]?) ∧
      Apart m' s (fun x => x = a ∨ E x) := by
  rcases setup_cases ha h with ⟨_, -, -, h1⟩ | ⟨r, F, m1, a, m2, e2, hr, hF, hap, hk, hg, hit, hhk, hfo, hp, hown, hc, hrun, hend⟩
  · cases h1
  · have hcf := runAll_confined (a := a) fs m1 hfs
    rw [hrun] at hcf
    obtain ⟨ho2, hap2, -⟩ := Confined.apart hcf hap hap.others hap.env
    obtain ⟨he2, hm'⟩ : e2 = none ∧
        m' = storeItem m2 s r.path (((itemAt m s r.path).getD (.struct [])).setField F (.ref a)) := by
      rcases hend with ⟨_, h, -⟩ | ⟨h1, -, h2⟩
      · cases h
      · exact ⟨h1, h2⟩
    subst he2
    -- the item
    obtain ⟨is, hitem⟩ : ∃ is, (itemAt m s r.path).getD (.struct []) = .struct is := by
      cases hi : itemAt m s r.path with
      | none => exact ⟨[], rfl⟩
      | some item =>
        obtain ⟨is, h⟩ := ha.items r.path item hi
        exact ⟨is, h⟩
    rw [hitem] at hm'
    have hiold : ∀ y, (MVal.struct is).Holds y → ∃ item, itemAt m2 s r.path = some item ∧ item.Holds y := by
      intro y hy
      rw [itemAt_same ho2, hit]
      cases hi : itemAt m s r.path with
      | none =>
        rw [hi] at hitem
        simp only [Option.getD_none, MVal.struct.injEq] at hitem
        subst hitem
        cases hy with | field h _ => cases h
      | some item =>
        rw [hi] at hitem
        exact ⟨item, rfl, by rw [show item = MVal.struct is from hitem]; exact hy⟩
    have hal : a < m2.length := hap2.env a (.inl rfl)
    have hih : ∀ y, ((MVal.struct is).setField F (.ref a)).Holds y →
        y = a ∨ ∃ item, itemAt m2 s r.path = some item ∧ item.Holds y := by
      intro y hy
      rcases setField_holds hy with h | h
      · exact .inr (hiold y h)
      · cases h; exact .inl rfl
    obtain ⟨k1, k2, k3, k4, k5, k6, k7⟩ := store_spec hap2 r.path (item := (MVal.struct is).setField F (.ref a))
      ⟨_, rfl⟩ (by
        intro x hx
        have hx' : From m2 (fun y => y = a ∨ ∃ item, itemAt m2 s r.path = some item ∧ item.Holds y) x :=
          hx.mono fun y hy => .root (hih y hy)
        rcases hx'.or with h | h
        · exact hap2.others x (h.mono fun y hy => .root (.inl hy))
        · cases hi : itemAt m2 s r.path with
          | none =>
            exfalso
            have : ∀ y, ¬ From m2 (fun y => ∃ item, itemAt m2 s r.path = some item ∧ item.Holds y) y := by
              intro y hy
              induction hy with
              | root h => obtain ⟨_, h, -⟩ := h; rw [hi] at h; cases h
              | step _ _ _ ih => exact ih
            exact this x h
          | some item =>
            refine hap2.inner r.path item x hi (h.mono ?_)
            rintro y ⟨item', h1, h2⟩
            rw [hi] at h1; cases h1
            exact .root h2)
      (by
        intro y hy
        rcases hih y hy with rfl | ⟨item, h1, h2⟩
        · exact hal
        · obtain ⟨z, o, j1, j2⟩ := item_holds h1 h2
          exact hap2.closed z o y j1 j2)
      (by
        obtain ⟨p, hp⟩ := hp
        exact ⟨p, by rw [deref_same (ho2 s (.inl rfl))]; exact hp⟩) m' hm'
    have hg2 := hcf.grows
    have hk4 : ∀ x, x < m.length → ¬ Own m s x → m'[x]? = m2[x]? := by
      intro x hx hn
      refine k4 x (by omega) fun hw => ?_
      rw [own_same ho2] at hw
      rcases hown x hw with h | h
      · exact hn h
      · omega
    refine ⟨r, F, m1, a, m2, hr, hF, hc, (runAll_none_iff fs m1).mp hrun, hk, hg, hap.env a (.inl rfl), ?_, ?_, ?_,
      fun x hx h => h.elim (k7 x hx) fun h => hk4 x h.1 h.2, ?_, ?_, ?_, k6⟩
    · intro path' F'
      rw [opAt_getD, opAt_getD, k1]
      split
      · rename_i hpp
        subst hpp
        simp only [Option.getD_some, true_and, pointee]
        rw [field_setField]
        by_cases hFF : F' = F
        · simp only [hFF, if_true]
        · simp only [hFF, if_false, hitem]
      · rename_i hpp
        rw [if_neg (fun h => hpp h.1), itemAt_same ho2, hit]
    · intro path' go hgo
      rw [k1]
      split
      · rename_i hpp
        subst hpp
        rw [Option.getD_some, field_setField, if_neg hgo, hitem]
      · rw [itemAt_same ho2, hit]
    · intro k
      refine tree_same k _ fun x hx => ?_
      have hx' : From m2 (fun x => x = a ∨ E x) x := hx.mono fun y hy => by cases hy; exact .root (.inl rfl)
      exact k4 x (hx'.lt hap2.closed hap2.env) (hap2.others x hx')
    · intro name
      rw [k2, hookAt_same ho2, hhk]
    · intro go hgo
      rw [k3, deref_same (ho2 s (.inl rfl)), hfo go hgo]
    · intro x hx hn hgv
      rw [hk4 x hx hn, hcf.keeps x (by omega) fun hf => hgv (setup_given ha hr hF hk hc hf hx),
        hk x hx fun hs => hn (.inl hs)]

/-- C90: `AddOperation` for a path and method that are taken changes nothing. -/
theorem C90_add_exists {m : Memory} {s a : Nat} {E : Nat → Prop} {method path F : String} {op : MVal}
    (ha : Apart m s E) (hF : (goToLower method, F) ∈ fields) (h : opAt m s path F = some a) :
    addOperation m s method path op = (m, some ("operation already exists: " ++ goToLower method ++ " " ++ path)) := by
  obtain ⟨m0, p, hE, hp, hlen, hkeep, hit, hhk, hfo, hap, hown, hsame⟩ := pathsEns_spec ha
  obtain ⟨item, hitm⟩ : ∃ item, itemAt m s path = some item := by
    cases hi : itemAt m s path with
    | none => simp only [opAt, hi, Option.bind_none] at h; cases h
    | some item => exact ⟨item, rfl⟩
  have hm0 : m0 = m := by
    apply hsame
    rcases ha.paths with h1 | ⟨p', _, h1, -⟩
    · have : pathsRef m s = .nil := by simp only [pathsRef, h1]
      simp only [itemAt, this] at hitm
      cases hitm
    · exact ⟨p', h1⟩
  subst hm0
  have hpr : (deref m0 p).field "MapOfPathItemValues" = pathsRef m0 s := by simp only [pathsRef, hp]
  have hgi : GoMap.get? (entries m0 ((deref m0 p).field "MapOfPathItemValues")) path = some item := by
    rw [hpr, ← hitm]; rfl
  have hf : item.field F = .ref a := by
    simp only [opAt, hitm, Option.bind_some, pointee] at h
    split at h
    · rename_i b hb; cases h; exact hb
    · cases h
  simp only [addOperation, hE, hgi, fields_methodField hF, Option.getD_some, hf]

/-- C90: after an error of `AddOperation` the document has the same path items and webhooks. Besides the `Spec` itself
(which gets empty paths if it had none) the call has changed at most the responses it was given and their map, if there
was no response, and the operation of the path and method, if the path is written differently there. -/
theorem C90_add_error {m m' : Memory} {s : Nat} {E : Nat → Prop} {method path msg : String} {op : MVal}
    (ha : Apart m s E) (hop : ∀ y, op.Holds y → From m E y) (hr : RespOk m op)
    (h : addOperation m s method path op = (m', some msg)) :
    (∀ path', itemAt m' s path' = itemAt m s path') ∧ (∀ name, hookAt m' s name = hookAt m s name) ∧
    (∀ go, go ≠ "Paths" → (deref m' s).field go = (deref m s).field go) ∧
    (∀ x, x < m.length → x ≠ s → m'[x]? = m[x]? ∨
      (NoResponse m op ∧ (op.field "Responses" = .ref x ∨
        (responses m op).field "MapOfResponseOrReferenceValues" = .ref x)) ∨
      ∃ r F, sanitizeMethodPath (goToLower method) path = .ok r ∧ (r.method, F) ∈ fields ∧
        opAt m s r.path F = some x) ∧
    Apart m' s E := by
  rcases add_cases ha hop hr h with ⟨_, -, h1, h2, h3, h4, h5, h6⟩ | ⟨F0, m1, op1, -, -, hpre, hset⟩
  · exact ⟨h4, h5, h6, fun x hx hs => .inl (h3 x hx hs), h1⟩
  · have hu : ∀ f ∈ [fun (m : Memory) (a : Nat) => (m.set a (Obj.cell op1), (none : Option String))],
        Uses (fun x => E x ∨ op1.Holds x) f := by
      intro f hf
      rcases List.mem_singleton.mp hf with rfl
      exact assign_uses E op1
    obtain ⟨j1, j2, j3, j4, j5⟩ := C90_setup_error hpre.apart hu hset
    refine ⟨fun q => by rw [j1, hpre.items], fun q => by rw [j2, hpre.hooks],
      fun go hgo => by rw [j3 go hgo, hpre.fields go hgo], fun x hx hs => ?_, j5.mono fun x hx => .inl hx⟩
    have hx1 : x < m1.length := Nat.lt_of_lt_of_le hx hpre.grows
    have hm' : m'[x]? = m1[x]? ∨ ∃ r F, sanitizeMethodPath (goToLower method) path = .ok r ∧ (r.method, F) ∈ fields ∧
        opAt m s r.path F = some x := by
      rcases setup_cases hpre.apart hset with ⟨_, -, rfl, -⟩ | ⟨r, F, m2, a, m3, e3, hr, hF, -, hk, -, -, -, -, -, -, hc, hrun, hend⟩
      · exact .inl rfl
      · have hm3 : m3 = m2.set a (.cell op1) := by
          simp only [runAll, Prod.mk.injEq] at hrun
          exact hrun.1.symm
        have hmm : m' = m3 := by
          rcases hend with ⟨_, -, h⟩ | ⟨-, h, -⟩
          · exact h
          · cases h
        by_cases hxa : x = a
        · subst hxa
          rcases hc with ⟨hc, -⟩ | ⟨-, hc, -⟩
          · refine .inr ⟨r, F, hr, hF, ?_⟩
            rw [← hc]
            simp only [opAt, hpre.items]
          · omega
        · left
          rw [hmm, hm3, List.getElem?_set_ne (Ne.symm hxa), hk x hx1 hs]
    rcases hm' with h | h
    · rw [h]
      exact (hpre.keeps x hx hs).imp_right .inl
    · exact .inr (.inr h)

/-- The response `204` is still there if what the operation leads to is unchanged. -/
theorem response204 {m m1 m' : Memory} {s : Nat} {E : Nat → Prop} {op op1 : MVal} (hn : NoResponse m op)
    (hs : ∃ fs, op = .struct fs) (hpre : Prepared m s E op m1 op1)
    (hsm : ∀ x, From m1 (fun x => E x ∨ op1.Holds x) x → m'[x]? = m1[x]?) :
    (∃ d, entries m' ((responses m' op1).field "MapOfResponseOrReferenceValues") =
        [("204", .struct [("Response", .ref d)])] ∧
      deref m' d = .struct [("Description", .lit (.str "No Content"))]) ∧
    ∀ go, go ≠ "MapOfResponseOrReferenceValues" → (responses m' op1).field go = (responses m op).field go := by
  obtain ⟨⟨d, k1, k2⟩, k3⟩ := hpre.none hn hs
  have hrf : ∀ r', op1.field "Responses" = .ref r' → From m1 (fun x => E x ∨ op1.Holds x) r' := fun r' h =>
    .root (.inr (field_holds (go := "Responses") (by rw [h]; exact .ref)))
  have hresp : responses m' op1 = responses m1 op1 := by
    simp only [responses]
    split
    · rename_i r' h
      rw [deref_same (hsm r' (hrf r' h))]
    · rfl
  have hcc : ∀ c, (responses m1 op1).field "MapOfResponseOrReferenceValues" = .ref c →
      From m1 (fun x => E x ∨ op1.Holds x) c := by
    intro c hc
    simp only [responses] at hc
    split at hc
    · rename_i r' h
      have h1 : (deref m1 r').Holds c := field_holds (go := "MapOfResponseOrReferenceValues") (by rw [hc]; exact .ref)
      obtain ⟨o, h2, h3⟩ := deref_holds h1
      exact .step (hrf r' h) h2 h3
    · cases hc
  rw [hresp]
  refine ⟨⟨d, ?_, ?_⟩, k3⟩
  · rw [entries_same fun x hx => hsm x (hcc x hx), k1]
  · have hmem : ("204", MVal.struct [("Response", .ref d)]) ∈
        entries m1 ((responses m1 op1).field "MapOfResponseOrReferenceValues") := by
      rw [k1]; exact List.mem_singleton.mpr rfl
    obtain ⟨c, es, j1, j2, j3⟩ := entries_mem hmem
    have : From m1 (fun x => E x ∨ op1.Holds x) d :=
      .step (hcc c j1) j2 (.map j3 (.field (List.mem_singleton.mpr rfl) .ref))
    rw [deref_same (hsm d this), k2]

/-- C90: after success of `AddOperation` there is, at the path and method, an operation with the struct it was given,
which shares everything the struct refers to; if there were no responses it has new ones, if there was no response it has
a response `204`. All other operations and all webhooks are as before. -/
theorem C90_add_ok {m m' : Memory} {s : Nat} {E : Nat → Prop} {method path : String} {op : MVal}
    (ha : Apart m s E) (hop : ∀ y, op.Holds y → From m E y) (hr : RespOk m op) (hs : ∃ fs, op = .struct fs)
    (h : addOperation m s method path op = (m', none)) :
    ∃ r F a, sanitizeMethodPath (goToLower method) path = .ok r ∧ (r.method, F) ∈ fields ∧
      opAt m s path F = none ∧ (opAt m s r.path F = some a ∨ opAt m s r.path F = none ∧ m.length ≤ a) ∧
      (∀ path' F', opAt m' s path' F' = if path' = r.path ∧ F' = F then some a else opAt m s path' F') ∧
      (∀ name, hookAt m' s name = hookAt m s name) ∧
      (¬ NoResponse m op → deref m' a = op) ∧
      (¬ NoResponse m op → (∀ b, opAt m s r.path F = some b → ¬ From m E b) →
        ∀ k, tree m' (k + 1) (.ref a) = tree m k op) ∧
      (∀ r, op.field "Responses" = .ref r → deref m' a = op) ∧
      (∀ go, go ≠ "Responses" → (deref m' a).field go = op.field go) ∧
      (NoResponse m op → (∀ b, opAt m s r.path F = some b → ¬ From m E b) →
        (∃ d, entries m' ((responses m' (deref m' a)).field "MapOfResponseOrReferenceValues") =
          [("204", .struct [("Response", .ref d)])] ∧
          deref m' d = .struct [("Description", .lit (.str "No Content"))]) ∧
        ∀ go, go ≠ "MapOfResponseOrReferenceValues" →
          (responses m' (deref m' a)).field go = (responses m op).field go) ∧
      (∀ x, x < m.length → ¬ Own m s x → x ≠ a → m'[x]? = m[x]? ∨
        NoResponse m op ∧ (op.field "Responses" = .ref x ∨
          (responses m op).field "MapOfResponseOrReferenceValues" = .ref x)) ∧
      Apart m' s (fun x => x = a ∨ E x) := by
  rcases add_cases ha hop hr h with ⟨_, h0, -⟩ | ⟨F0, m1, op1, hF0, h0, hpre, hset⟩
  · cases h0
  · have hu : ∀ f ∈ [fun (m : Memory) (a : Nat) => (m.set a (Obj.cell op1), (none : Option String))],
        Uses (fun x => E x ∨ op1.Holds x) f := by
      intro f hf
      rcases List.mem_singleton.mp hf with rfl
      exact assign_uses E op1
    obtain ⟨r, F, m2, a, m3, hsan, hF, hc, hrun, hk, hg, hal, hat, -, htree, hkeep, hhk, -, -, hap⟩ :=
      C90_setup_ok hpre.apart hu hset
    have hm3 : m3 = m2.set a (.cell op1) := by
      cases hrun with
      | cons e1 e2 =>
        cases e2
        simp only [Prod.mk.injEq, and_true] at e1
        exact e1.symm
    have hFF : F0 = F := by
      have h1 := (sanitize_method hsan).1
      have h2 := fields_methodField hF
      rw [h1, goToLower_idem, hF0] at h2
      exact Option.some.inj h2
    subst hFF
    have hopAt : ∀ path' F', opAt m1 s path' F' = opAt m s path' F' := fun path' F' => by
      simp only [opAt, hpre.items]
    have hgr := hpre.grows
    have hl3 : m3.length = m2.length := by rw [hm3, List.length_set]
    have hd : deref m' a = op1 := by
      have := hkeep a (by omega) (.inl <| hap.others a (.root (.inl rfl)))
      simp only [deref, this, hm3, List.getElem?_set_self hal]
    -- what the operation leads to is as in `m1`, apart from the place of the operation itself
    have hm1 : ∀ x, From m1 (fun x => E x ∨ op1.Holds x) x → x ≠ a → m3[x]? = m1[x]? := by
      intro x hx hxa
      rw [hm3, List.getElem?_set_ne (Ne.symm hxa)]
      exact hk x (hx.lt hpre.apart.closed hpre.apart.env) fun h => hpre.apart.others x hx (.inl h)
    have hnota : (∀ b, opAt m s r.path F0 = some b → ¬ From m E b) →
        ∀ x, From m1 (fun x => E x ∨ op1.Holds x) x → x ≠ a := by
      rintro hb x hx rfl
      have hlt := hx.lt hpre.apart.closed hpre.apart.env
      rcases hc with ⟨hc, -⟩ | ⟨-, hc, -⟩
      · rw [hopAt] at hc
        rcases hpre.reach x hx with h | h
        · exact hb x hc h
        · have := opAt_lt ha hc
          omega
      · omega
    have hsame3 : (∀ b, opAt m s r.path F0 = some b → ¬ From m E b) →
        ∀ x, From m1 (fun x => E x ∨ op1.Holds x) x → m3[x]? = m1[x]? := fun hb x hx => hm1 x hx (hnota hb x hx)
    have hsame' : (∀ b, opAt m s r.path F0 = some b → ¬ From m E b) →
        ∀ x, From m1 (fun x => E x ∨ op1.Holds x) x → m'[x]? = m1[x]? := by
      intro hb x hx
      have key : ∀ x, From m1 (fun x => E x ∨ op1.Holds x) x → From m' (fun x => x = a ∨ E x ∨ op1.Holds x) x →
          m'[x]? = m1[x]? := by
        intro x hx hx'
        have hlt := hx.lt hpre.apart.closed hpre.apart.env
        rw [hkeep x (by omega) (.inl (hap.others x hx')), hsame3 hb x hx]
      suffices h : From m' (fun x => x = a ∨ E x ∨ op1.Holds x) x from key x hx h
      induction hx with
      | root hx => exact .root (.inr hx)
      | step hx ho hy ih => exact .step ih (by rw [key _ hx ih]; exact ho) hy
    refine ⟨r, F0, a, hsan, hF, h0, ?_, ?_, ?_, ?_, ?_, ?_, ?_, ?_, ?_, ?_⟩
    · rcases hc with ⟨hc, -⟩ | ⟨hc, hc', -⟩
      · rw [hopAt] at hc; exact .inl hc
      · rw [hopAt] at hc; exact .inr ⟨hc, by omega⟩
    · intro path' F'
      rw [hat, hopAt]
    · intro name
      rw [hhk, hpre.hooks]
    · intro hn
      rw [hd, (hpre.same hn).1]
    · intro hn hb k
      obtain ⟨j1, j2⟩ := hpre.same hn
      subst j1
      rw [htree, tree, hm3, List.getElem?_set_self hal, ← hm3]
      refine tree_same k _ fun x hx => ?_
      have hxE : From m E x := hx.mono hop
      rw [hsame3 hb x ((From.same' j2 hxE).mono fun y hy => .root (.inl hy)), j2 x hxE]
    · intro r' hr'
      rw [hd, hpre.shared r' hr']
    · intro go hgo
      rw [hd, hpre.others go hgo]
    · intro hn hb
      rw [hd]
      exact response204 hn hs hpre (hsame' hb)
    · intro x hx hw hxa
      have hxs : x ≠ s := fun h => hw (.inl h)
      have : m'[x]? = m1[x]? := by
        have h3 : m3[x]? = m1[x]? := by
          rw [hm3, List.getElem?_set_ne (Ne.symm hxa)]
          exact hk x (by omega) hxs
        rw [← h3]
        refine hkeep x (by omega) (.inr ⟨by omega, fun h => ?_⟩)
        rcases hpre.own x h with h | h
        · exact hw h
        · omega
      rw [this]
      exact hpre.keeps x hx hxs
    · exact hap.mono fun x hx => hx.imp_right .inl

/-- C90: `AddWebhook` for a name that is taken changes nothing. -/
theorem C90_hook_exists {m : Memory} {s : Nat} {method name : String} {op v : MVal} (h : hookAt m s name = some v) :
    addWebhook m s method name op = (m, some ("duplicate webhook name: " ++ name)) := by
  have hh : GoMap.get? (entries m ((deref m s).field "Webhooks")) name = some v := h
  simp only [addWebhook, hh]

/-- C90: after an error of `AddWebhook` the document is the same; the call has changed at most the responses it was given
and their map, if there was no response. -/
theorem C90_hook_error {m m' : Memory} {s : Nat} {E : Nat → Prop} {method name msg : String} {op : MVal}
    (ha : Apart m s E) (hop : ∀ y, op.Holds y → From m E y) (hr : RespOk m op)
    (h : addWebhook m s method name op = (m', some msg)) :
    (∀ x, Own m s x → m'[x]? = m[x]?) ∧ (∀ path, itemAt m' s path = itemAt m s path) ∧
    (∀ name', hookAt m' s name' = hookAt m s name') ∧
    (∀ x, x < m.length → m'[x]? = m[x]? ∨
      NoResponse m op ∧ (op.field "Responses" = .ref x ∨
        (responses m op).field "MapOfResponseOrReferenceValues" = .ref x)) ∧
    Apart m' s E := by
  rcases hook_cases ha hop hr h with ⟨v, -, rfl, -⟩ | ⟨-, m1, op1, hpre, hown, ⟨_, -, -, rfl⟩ | ⟨_, _, _, _, -, h0, -⟩⟩
  · exact ⟨fun _ _ => rfl, fun _ => rfl, fun _ => rfl, fun _ _ => .inl rfl, ha⟩
  · refine ⟨hown, hpre.items, hpre.hooks, fun x hx => ?_, hpre.apart.mono fun x hx => .inl hx⟩
    by_cases hs : x = s
    · exact .inl (hown x (.inl hs))
    · exact hpre.keeps x hx hs
  · cases h0

/-- C90: after success of `AddWebhook` there is a webhook of that name: a new path item with a new operation, which
shares everything the struct that was given refers to. -/
theorem C90_hook_ok {m m' : Memory} {s : Nat} {E : Nat → Prop} {method name : String} {op : MVal}
    (ha : Apart m s E) (hop : ∀ y, op.Holds y → From m E y) (hr : RespOk m op)
    (h : addWebhook m s method name op = (m', none)) :
    ∃ F i a, (goToLower method, F) ∈ fields ∧ hookAt m s name = none ∧ m.length ≤ a ∧ m.length ≤ i ∧ a ≠ i ∧
      (∀ name', hookAt m' s name' =
        if name' = name then some (.struct [("PathItem", .ref i)]) else hookAt m s name') ∧
      deref m' i = .struct [(F, .ref a)] ∧
      (∀ path, itemAt m' s path = itemAt m s path) ∧
      (∀ go, go ≠ "Webhooks" → (deref m' s).field go = (deref m s).field go) ∧
      (¬ NoResponse m op → deref m' a = op ∧ ∀ k, tree m' (k + 1) (.ref a) = tree m k op) ∧
      (∀ r, op.field "Responses" = .ref r → deref m' a = op) ∧
      (∀ go, go ≠ "Responses" → (deref m' a).field go = op.field go) ∧
      (NoResponse m op → (∃ fs, op = .struct fs) →
        (∃ d, entries m' ((responses m' (deref m' a)).field "MapOfResponseOrReferenceValues") =
          [("204", .struct [("Response", .ref d)])] ∧
          deref m' d = .struct [("Description", .lit (.str "No Content"))]) ∧
        ∀ go, go ≠ "MapOfResponseOrReferenceValues" →
          (responses m' (deref m' a)).field go = (responses m op).field go) ∧
      (∀ x, x < m.length → ¬ Own m s x → m'[x]? = m[x]? ∨
        NoResponse m op ∧ (op.field "Responses" = .ref x ∨
          (responses m op).field "MapOfResponseOrReferenceValues" = .ref x)) ∧
      Apart m' s (fun x => x = a ∨ x = i ∨ E x) := by
  rcases hook_cases ha hop hr h with ⟨v, -, -, h0⟩ | ⟨h0, m1, op1, hpre, hown, ⟨_, -, h1, -⟩ | ⟨F, m2, m3, g, hF, -, hm2, hset, hm'⟩⟩
  · cases h0
  · cases h1
  · have hgr := hpre.grows
    obtain ⟨k1, k2, k3, k4, k5, k6, k7⟩ := hook_stored hpre.apart hm2 hset hm'
    have hd : deref m' m1.length = op1 := by simp only [deref, k4]
    have hsm : ∀ x, From m1 (fun x => E x ∨ op1.Holds x) x → m'[x]? = m1[x]? := fun x hx =>
      k6 x (hx.lt hpre.apart.closed hpre.apart.env) (hpre.apart.others x hx)
    refine ⟨F, m1.length + 1, m1.length, hF, h0, hgr, by omega, by omega, ?_, ?_, ?_, ?_, ?_, ?_, ?_, ?_, ?_, ?_⟩
    · intro name'
      rw [k1, hpre.hooks]
    · simp only [deref, k5]
    · intro path
      rw [k2, hpre.items]
    · intro go hgo
      rw [k3 go hgo, deref_same (hown s (.inl rfl))]
    · intro hn
      obtain ⟨j1, j2⟩ := hpre.same hn
      subst j1
      refine ⟨hd, fun k => ?_⟩
      simp only [tree, k4]
      refine tree_same k _ fun x hx => ?_
      have hxE : From m E x := hx.mono hop
      rw [hsm x ((From.same' j2 hxE).mono fun y hy => .root (.inl hy)), j2 x hxE]
    · intro r' hr'
      rw [hd, hpre.shared r' hr']
    · intro go hgo
      rw [hd, hpre.others go hgo]
    · intro hn hs
      rw [hd]
      exact response204 hn hs hpre hsm
    · intro x hx hw
      have hxs : x ≠ s := fun h => hw (.inl h)
      rw [k6 x (by omega) ?_]
      · exact hpre.keeps x hx hxs
      · intro h
        rcases hpre.own x h with h | h
        · exact hw h
        · omega
    · exact k7

/-- C90: a document stays apart from its operations and from what the caller holds, whatever calls are made and whatever
the caller does with its own objects in between. So the theorems above apply to every call. -/
theorem C90_history {m m' : Memory} {s : Nat} {E : Nat → Prop} (ha : Apart m s E) (h : Steps s E m m') :
    Apart m' s E := by
  induction h with
  | refl => exact ha
  | @tail mid _ _ hs ih =>
    cases hs with
    | @setup method path fs hfs =>
      cases hr : setupOperation mid s method path fs with
      | mk m' e =>
        cases e with
        | none =>
          obtain ⟨_, _, _, _, _, _, _, _, _, _, _, _, _, _, _, _, _, _, _, h⟩ := C90_setup_ok ih hfs hr
          exact h.mono fun x hx => .inr hx
        | some e => exact (C90_setup_error ih hfs hr).2.2.2.2
    | @add method path op hop hc =>
      cases hr : addOperation mid s method path op with
      | mk m' e =>
        rcases add_cases ih hop hc hr with ⟨_, -, h, -⟩ | ⟨F, m1, op1, -, -, hpre, hset⟩
        · exact h
        · have hu : ∀ f ∈ [fun (m : Memory) (a : Nat) => (m.set a (Obj.cell op1), (none : Option String))],
              Uses (fun x => E x ∨ op1.Holds x) f := by
            intro f hf
            rcases List.mem_singleton.mp hf with rfl
            exact assign_uses E op1
          cases e with
          | none =>
            obtain ⟨_, _, _, _, _, _, _, _, _, _, _, _, _, _, _, _, _, _, _, h⟩ := C90_setup_ok hpre.apart hu hset
            exact h.mono fun x hx => .inr (.inl hx)
          | some e => exact (C90_setup_error hpre.apart hu hset).2.2.2.2.mono fun x hx => .inl hx
    | @hook method name op hop hc =>
      cases hr : addWebhook mid s method name op with
      | mk m' e =>
        cases e with
        | none =>
          obtain ⟨_, _, _, _, _, _, _, _, _, _, _, _, _, _, _, _, _, h⟩ := C90_hook_ok ih hop hc hr
          exact h.mono fun x hx => .inr (.inr hx)
        | some e => exact (C90_hook_error ih hop hc hr).2.2.2.2
    | other hc => exact (Confined.apart hc ih ih.others ih.env).2.1

/-- C90: a new document is apart from everything. -/
theorem C90_new {m : Memory} {E : Nat → Prop} (fs : List (String × MVal))
    (hclosed : ∀ (x : Nat) (o : Obj) (y : Nat), m[x]? = some o → o.Holds y → y < m.length)
    (hE : ∀ x, E x → x < m.length) (hfs : ∀ y, (MVal.struct fs).Holds y → y < m.length)
    (hp : (MVal.struct fs).field "Paths" = .nil) (hw : (MVal.struct fs).field "Webhooks" = .nil) :
    Apart (m ++ [.cell (.struct fs)]) m.length E := by
  have hs : (m ++ [Obj.cell (.struct fs)])[m.length]? = some (.cell (.struct fs)) := getElem?_append_new _ _
  have hl : (m ++ [Obj.cell (.struct fs)]).length = m.length + 1 := by simp
  have hd : deref (m ++ [.cell (.struct fs)]) m.length = .struct fs := by simp only [deref, hs]
  have hpr : pathsRef (m ++ [.cell (.struct fs)]) m.length = .nil := by
    simp only [pathsRef, hd, hp]
  have hhr : hooksRef (m ++ [.cell (.struct fs)]) m.length = .nil := by
    simp only [hooksRef, hd, hw]
  have hit : ∀ path, itemAt (m ++ [.cell (.struct fs)]) m.length path = none := by
    intro path
    simp only [itemAt, hpr]
    rfl
  have hht : ∀ name, hookAt (m ++ [.cell (.struct fs)]) m.length name = none := by
    intro path
    simp only [hookAt, hhr]
    rfl
  refine ⟨?_, ?_, ⟨fs, hs⟩, .inl (by rw [hd]; exact hp), .inl hpr, .inl hhr, ?_, ?_, ?_, ?_⟩
  · intro x o y ho hy
    by_cases hx : x < m.length
    · rw [getElem?_append_old _ _ hx] at ho
      have := hclosed x o y ho hy
      omega
    · by_cases hx' : x = m.length
      · subst hx'
        rw [hs] at ho
        cases ho
        cases hy with | cell hy => have := hfs y hy; omega
      · rw [List.getElem?_eq_none (by omega)] at ho
        cases ho
  · intro x hx
    have := hE x hx
    omega
  · intro path item h
    rw [hit] at h; cases h
  · intro path item x h
    rw [hit] at h; cases h
  · intro name v x h
    rw [hht] at h; cases h
  · intro x hx hw
    have hxl : x < m.length := by
      have : From m E x := hx.same fun y hy => getElem?_append_old _ _ (hy.lt hclosed hE)
      exact this.lt hclosed hE
    rcases hw with h | h | h | h
    · omega
    · rw [hd, hp] at h; cases h
    · rw [hpr] at h; cases h
    · rw [hhr] at h; cases h

end Verif.Mem31
