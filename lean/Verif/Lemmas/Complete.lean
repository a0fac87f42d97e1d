import Verif.Lemmas.Success

/-!
# When the reflection of a request succeeds
-/

namespace Verif
open ParamSpec
variable {S : Type}

theorem plainString_eq (f : String) : stringJS f = plainString f := by
  unfold stringJS plainString
  by_cases h : f = "" <;> simp [h]

/-! ## Definitions -/

theorem collectDefinition_total {v : Ver S} {n : String} {d : JS} (h : Converts v d) (m : GoMap S) :
    ∃ m', collectDefinition v n d m = (m', .ok) := by
  obtain ⟨sc, hs⟩ := h
  unfold collectDefinition
  split
  · exact ⟨_, rfl⟩
  · rw [hs]; exact ⟨_, rfl⟩

theorem collectDefinitions_total {v : Ver S} {ds : List (String × JS)} (h : ∀ n d, (n, d) ∈ ds → Converts v d) (m : GoMap S) :
    ∃ m', collectDefinitions v ds m = (m', .ok) := by
  induction ds generalizing m with
  | nil => exact ⟨m, rfl⟩
  | cons p ds ih =>
    obtain ⟨n, d⟩ := p
    obtain ⟨m1, h1⟩ := collectDefinition_total (n := n) (h n d List.mem_cons_self) m
    simp only [collectDefinitions, h1]
    exact ih (fun n' d' hm => h n' d' (List.mem_cons_of_mem _ hm)) m1

theorem addBodyDefinitions_iff {v : Ver S} {ds : List (String × JS)} {m : GoMap S} :
    (addBodyDefinitions v ds m).2 = .ok ↔ ∀ n d, (n, d) ∈ ds → Converts v d := by
  induction ds generalizing m with
  | nil => simp [addBodyDefinitions]
  | cons p ds ih =>
    obtain ⟨n, d⟩ := p
    simp only [addBodyDefinitions]
    cases hc : v.conv d with
    | ok sc =>
      simp only [ih]
      constructor
      · intro h n' d' hm
        rcases List.mem_cons.mp hm with e | hm
        · cases e; exact ⟨sc, hc⟩
        · exact h n' d' hm
      · intro h n' d' hm; exact h n' d' (List.mem_cons_of_mem _ hm)
    | err e =>
      refine ⟨nofun, fun h => ?_⟩
      obtain ⟨sc, hs⟩ := h n d List.mem_cons_self
      rw [hc] at hs; cases hs
    | panic =>
      refine ⟨nofun, fun h => ?_⟩
      obtain ⟨sc, hs⟩ := h n d List.mem_cons_self
      rw [hc] at hs; cases hs

theorem addBodyDefinitions_panic {v : Ver S} {ds : List (String × JS)} (h : ∀ n d, (n, d) ∈ ds → v.conv d ≠ .panic)
    (m : GoMap S) : (addBodyDefinitions v ds m).2 ≠ .panic := by
  induction ds generalizing m with
  | nil => simp [addBodyDefinitions]
  | cons p ds ih =>
    obtain ⟨n, d⟩ := p
    simp only [addBodyDefinitions]
    split
    · exact ih (fun n' d' hm => h n' d' (List.mem_cons_of_mem _ hm)) _
    · simp
    · rename_i hc; exact absurd hc (h n d List.mem_cons_self)

/-! ## Parameters -/

theorem Serialised.unique {c : PropCall S} {p q : Parameter S} (hp : Serialised c p) (hq : Serialised c q) :
    p.style = q.style ∧ p.explode = q.explode := by
  by_cases h : ¬ JSONEncoded c ∧ c.inlined = .ok true
  · have h1 := hp.1 h
    have h2 := hq.1 h
    rw [h1.1, h1.2, h2.1, h2.2]; exact ⟨rfl, rfl⟩
  · have h1 := hp.2 h
    have h2 := hq.2 h
    by_cases hc : ∃ style explode, (c.collectionFormat, style, explode) ∈ collectionStyles
    · obtain ⟨st, ex, hm⟩ := hc
      have e1 := h1.1 st ex hm
      have e2 := h2.1 st ex hm
      rw [e1.1, e1.2, e2.1, e2.2]; exact ⟨rfl, rfl⟩
    · have hn : ∀ style explode, (c.collectionFormat, style, explode) ∉ collectionStyles :=
        fun a b hm => hc ⟨a, b, hm⟩
      have e1 := h1.2 hn
      have e2 := h2.2 hn
      rw [e1.1, e1.2, e2.1, e2.2]; exact ⟨rfl, rfl⟩

theorem BuiltParam.unique {v : Ver S} {inn : String} {c : PropCall S} {p q : Parameter S}
    (hp : BuiltParam v inn c p) (hq : BuiltParam v inn c q) : p = q := by
  obtain ⟨a1, a2, a3, a4, a5, a6, a7, a8⟩ := hp
  obtain ⟨b1, b2, b3, b4, b5, b6, b7, b8⟩ := hq
  have hs := a6.unique b6
  have hsc : p.schema = q.schema ∧ p.content = q.content := by
    by_cases hj : JSONEncoded c
    · obtain ⟨x1, js, sc, x2, x3, x4⟩ := a8 hj
      obtain ⟨y1, js', sc', y2, y3, y4⟩ := b8 hj
      rw [x2] at y2; cases y2
      rw [x3] at y3; cases y3
      rw [x1, y1, x4, y4]; exact ⟨rfl, rfl⟩
    · obtain ⟨x1, sc, x2, x3⟩ := a7 hj
      obtain ⟨y1, sc', y2, y3⟩ := b7 hj
      rw [x2] at y2; cases y2
      rw [x1, y1, x3, y3]; exact ⟨rfl, rfl⟩
  cases p; cases q
  simp_all

theorem ParamFor.unique {v : Ver S} {inn : String} {c : PropCall S} {p q : Parameter S}
    (hp : ParamFor v inn c p) (hq : ParamFor v inn c q) : p = q := by
  obtain ⟨p0, p1, a1, a2, a3, a4⟩ := hp
  obtain ⟨q0, q1, b1, b2, b3, b4⟩ := hq
  cases a1.unique b1
  rw [a2] at b2; cases b2
  by_cases h : inn = "path"
  · rw [a3 h, b3 h]
  · rw [a4 h, b4 h]

theorem Pointwise.unique {α β : Type} {R : α → β → Prop} (hR : ∀ a b b', R a b → R a b' → b = b') {as : List α}
    {bs bs' : List β} (h : Pointwise R as bs) (h' : Pointwise R as bs') : bs = bs' := by
  induction h generalizing bs' with
  | nil => cases h'; rfl
  | cons ha _ ih =>
    cases h' with
    | cons hb htl => rw [hR _ _ _ ha hb, ih htl]

theorem Pointwise.split {α β : Type} {R : α → β → Prop} {as as' : List α} {bs : List β}
    (h : Pointwise R (as ++ as') bs) : ∃ b1 b2, bs = b1 ++ b2 ∧ Pointwise R as b1 ∧ Pointwise R as' b2 := by
  induction as generalizing bs with
  | nil => exact ⟨[], bs, rfl, .nil, h⟩
  | cons a as ih =>
    cases h with
    | cons ha ht =>
      obtain ⟨b1, b2, e, h1, h2⟩ := ih ht
      exact ⟨_ :: b1, b2, by rw [e]; rfl, .cons ha h1, h2⟩

theorem freshParams_append {taken : List (String × String)} {ps qs : List (Parameter S)} :
    FreshParams taken (ps ++ qs) ↔ FreshParams taken ps ∧ FreshParams (taken ++ ps.map Parameter.key) qs := by
  unfold FreshParams
  simp only [List.map_append, List.nodup_append, List.mem_append, List.mem_map]
  constructor
  · rintro ⟨⟨h1, h2, h3⟩, h4⟩
    refine ⟨⟨h1, fun p hp => h4 p (.inl hp)⟩, h2, fun p hp => ?_⟩
    rintro (h | ⟨q, hq, e⟩)
    · exact h4 p (.inr hp) h
    · exact h3 q.key ⟨q, hq, rfl⟩ p.key ⟨p, hp, rfl⟩ e
  · rintro ⟨⟨h1, h2⟩, h3, h4⟩
    refine ⟨⟨h1, h3, ?_⟩, ?_⟩
    · rintro a ⟨q, hq, rfl⟩ b ⟨p, hp, rfl⟩ e
      exact h4 p hp (.inr ⟨q, hq, e⟩)
    · rintro p (hp | hp)
      · exact h2 p hp
      · exact fun h => h4 p hp (.inl h)

theorem takenKeys_append (ps : List (ParamOrRef S)) (qs : List (Parameter S)) :
    (inlineParams (ps ++ qs.map fun p => { param := some p })).map Parameter.key =
      (inlineParams ps).map Parameter.key ++ qs.map Parameter.key := by
  simp only [inlineParams, List.filterMap_append, List.map_append, List.append_cancel_left_eq]
  induction qs with
  | nil => rfl
  | cons q qs ih =>
    rw [List.map_cons, List.map_cons, ← ih]
    rfl

/-- A part of the reflection that adds the parameters of these fields: when it succeeds, what it adds, and
that it does not panic. -/
structure ParamAct (v : Ver S) (fields : List (String × PropCall S)) (cond : Prop) (X : Act (ReqState S)) : Prop where
  iff : ∀ s, (X s).2 = .ok ↔ cond ∧ ∃ ps, Pointwise (fun f p => ParamFor v f.1 f.2 p) fields ps ∧
    FreshParams (takenKeys s.op) ps
  adds : ∀ s, (X s).2 = .ok → AddsParams v fields s (X s).1
  nopanic : ∀ s, (X s).2 ≠ .panic

theorem paramActs_cons {v : Ver S} {f f' : List (String × PropCall S)} {c c' : Prop} {X Y : Act (ReqState S)}
    (hX : ParamAct v f c X) (hY : ParamAct v f' c' Y) {Z : Act (ReqState S)}
    (hZ : ∀ s, (X s).2 = .ok → (Z s = Y (X s).1))
    (hZ' : ∀ s, (X s).2 ≠ .ok → (Z s).2 ≠ .ok) (hp : ∀ s, (X s).2 ≠ .ok → (Z s).2 ≠ .panic) :
    ParamAct v (f ++ f') (c ∧ c') Z := by
  have hu : ∀ (a : String × PropCall S) b b', ParamFor v a.1 a.2 b → ParamFor v a.1 a.2 b' → b = b' :=
    fun a b b' h h' => ParamFor.unique h h'
  have keys : ∀ s ps, Pointwise (fun f p => ParamFor v f.1 f.2 p) f ps → (X s).2 = .ok →
      takenKeys (X s).1.op = takenKeys s.op ++ ps.map Parameter.key := by
    intro s ps hps ho
    obtain ⟨ps', h1, h2⟩ := hX.adds s ho
    cases Pointwise.unique hu hps h1
    unfold takenKeys
    rw [h2, takenKeys_append]
  refine ⟨fun s => ?_, fun s h => ?_, fun s => ?_⟩
  · by_cases ho : (X s).2 = .ok
    · rw [hZ s ho, hY.iff]
      have hx := (hX.iff s).mp ho
      obtain ⟨hc, ps, hps, hfr⟩ := hx
      rw [keys s ps hps ho]
      constructor
      · rintro ⟨hc', qs, hqs, hfq⟩
        exact ⟨⟨hc, hc'⟩, ps ++ qs, hps.append hqs, freshParams_append.mpr ⟨hfr, hfq⟩⟩
      · rintro ⟨⟨-, hc'⟩, rs, hrs, hfq⟩
        obtain ⟨b1, b2, rfl, g1, g2⟩ := hrs.split
        cases Pointwise.unique hu hps g1
        exact ⟨hc', b2, g2, (freshParams_append.mp hfq).2⟩
    · refine ⟨fun h => absurd h (hZ' s ho), ?_⟩
      rintro ⟨⟨hc, -⟩, rs, hrs, hfq⟩
      obtain ⟨b1, b2, rfl, g1, g2⟩ := hrs.split
      exact absurd ((hX.iff s).mpr ⟨hc, b1, g1, (freshParams_append.mp hfq).1⟩) ho
  · have ho : (X s).2 = .ok := by
      by_cases ho : (X s).2 = .ok
      · exact ho
      · exact absurd h (hZ' s ho)
    rw [hZ s ho] at h ⊢
    exact (hX.adds s ho).trans (hY.adds _ h)
  · by_cases ho : (X s).2 = .ok
    · rw [hZ s ho]; exact hY.nopanic _
    · exact hp s ho

/-- A part that leaves the parameters alone. -/
theorem paramAct_none {v : Ver S} {c : Prop} {X : Act (ReqState S)} (h1 : ∀ s, (X s).2 = .ok ↔ c)
    (h2 : ∀ s, (X s).2 = .ok → (X s).1.op.parameters = s.op.parameters) (h3 : ∀ s, (X s).2 ≠ .panic) :
    ParamAct v [] c X := by
  refine ⟨fun s => ?_, fun s h => .nil (h2 s h), h3⟩
  rw [h1]
  refine ⟨fun h => ⟨h, [], .nil, by simp [FreshParams]⟩, fun h => h.1⟩

theorem ParamAct.congr {v : Ver S} {f : List (String × PropCall S)} {c c' : Prop} {X : Act (ReqState S)}
    (h : ParamAct v f c X) (e : c ↔ c') : ParamAct v f c' X :=
  ⟨fun s => by rw [h.iff, e], h.adds, h.nopanic⟩

/-! ### One field -/

theorem buildParameter_iff {v : Ver S} {inn : String} {c : PropCall S} (hd : ∀ n d, (n, d) ∈ c.inner.1 → Converts v d)
    (m : GoMap S) : (∃ m' p, buildParameter v inn c m = (m', .ok, some p)) ↔ FieldReflects v c := by
  obtain ⟨m1, hm1⟩ := collectDefinitions_total hd m
  simp only [buildParameter, FieldReflects]
  cases hc : v.conv c.schema with
  | panic =>
    refine ⟨?_, ?_⟩
    · rintro ⟨m', p, h⟩; cases h
    · rintro ⟨⟨sc, h⟩, -⟩; rw [hc] at h; cases h
  | err e =>
    refine ⟨?_, ?_⟩
    · rintro ⟨m', p, h⟩; cases h
    · rintro ⟨⟨sc, h⟩, -⟩; rw [hc] at h; cases h
  | ok sc =>
    have hconv : Converts v c.schema := ⟨sc, hc⟩
    by_cases hj : (c.collectionFormat = "json" || (c.taggedJSON && !c.taggedIn)) = true
    · have hj' := (jsonEncoded_iff c).mp hj
      simp only [if_pos hj, hm1]
      simp only [hconv, hj', not_true_eq_false, true_implies, false_implies, and_true, true_and]
      cases hi : c.inner.2 with
      | error e => simp
      | ok js =>
        simp only [Except.ok.injEq, exists_eq_left']
        unfold Converts
        cases hcj : v.conv js <;> simp
    · have hj' : ¬ JSONEncoded c := fun h => hj ((jsonEncoded_iff c).mpr h)
      simp only [if_neg hj]
      simp only [hconv, hj', not_false_eq_true, true_implies, false_implies, true_and]
      cases hi : c.inlined with
      | error e => simp
      | ok b => cases b <;> simp

theorem buildParameter_panic {v : Ver S} {inn : String} {c : PropCall S} (hd : ∀ n d, (n, d) ∈ c.inner.1 → Converts v d)
    (h1 : v.conv c.schema ≠ .panic) (h2 : ∀ js, c.inner.2 = .ok js → v.conv js ≠ .panic) (m : GoMap S) :
    (buildParameter v inn c m).2.1 ≠ .panic := by
  obtain ⟨m1, hm1⟩ := collectDefinitions_total hd m
  simp only [buildParameter]
  cases hc : v.conv c.schema with
  | panic => exact absurd hc h1
  | err e => simp
  | ok sc =>
    simp only [hm1]
    split
    · cases hi : c.inner.2 with
      | error e => simp
      | ok js =>
        cases hcj : v.conv js with
        | panic => exact absurd hcj (h2 js hi)
        | err e => simp only [hcj]; simp
        | ok sc => simp only [hcj]; simp
    · cases hi : c.inlined with
      | error e => simp
      | ok b => cases b <;> simp

theorem buildParameter_none {v : Ver S} {inn : String} {c : PropCall S} {m m' : GoMap S} {out : Out}
    (h : buildParameter v inn c m = (m', out, none)) : out ≠ .ok := by
  intro e
  subst e
  simp only [buildParameter] at h
  split at h
  · cases h
  · cases h
  · split at h
    · split at h
      · split at h
        · cases h
        · split at h <;> cases h
      · rename_i hne _
        cases h
        exact hne rfl
    · split at h <;> cases h

theorem paramExists_iff {p : Parameter S} {ps : List (ParamOrRef S)} :
    paramExists p ps = true ↔ p.key ∈ (inlineParams ps).map Parameter.key := by
  simp only [paramExists, List.any_eq_true, List.mem_map, inlineParams, List.mem_filterMap]
  constructor
  · rintro ⟨r, hr, h⟩
    cases hq : r.param with
    | none => rw [hq] at h; simp at h
    | some q =>
      rw [hq] at h
      simp only [Bool.and_eq_true, decide_eq_true_eq] at h
      exact ⟨q, ⟨r, hr, hq⟩, by simp [Parameter.key, h.1, h.2]⟩
  · rintro ⟨q, ⟨r, hr, hq⟩, e⟩
    refine ⟨r, hr, ?_⟩
    rw [hq]
    simp only [Parameter.key, Prod.mk.injEq] at e
    simp [e.1, e.2]

theorem onParameter_act {v : Ver S} {inn : String} {c : PropCall S} (hd : ∀ n d, (n, d) ∈ c.inner.1 → Converts v d)
    (h1 : v.conv c.schema ≠ .panic) (h2 : ∀ js, c.inner.2 = .ok js → v.conv js ≠ .panic) :
    ParamAct v ((topFields [.prop c]).map fun c => (inn, c)) (∀ c' ∈ topFields [Event.prop c], FieldReflects v c')
      (onParameter v inn c) := by
  by_cases ht : c.processed = true ∧ c.pathLen ≤ 1
  · have hg : ¬ (!c.processed || decide (c.pathLen > 1)) = true := by
      simp only [Bool.or_eq_true, Bool.not_eq_true', decide_eq_true_eq, not_or, Bool.not_eq_false]
      exact ⟨ht.1, by omega⟩
    have etop : topFields [Event.prop c] = [c] := by simp [topFields, ht]
    rw [etop]
    simp only [List.mem_singleton, forall_eq, List.map_cons, List.map_nil]
    refine ⟨fun s => ?_, fun s h => ?_, fun s => ?_⟩
    · simp only [onParameter, if_neg hg]
      rw [← buildParameter_iff (inn := inn) hd s.schemas]
      rcases hb : buildParameter v inn c s.schemas with ⟨m, out, op⟩
      cases op with
      | none =>
        have := buildParameter_none hb
        refine ⟨fun h => ?_, ?_⟩
        · cases out <;> first | exact absurd rfl this | cases h
        · rintro ⟨⟨m', p, e⟩, -⟩
          simp at e
      | some p =>
        by_cases ho : out = .ok
        · subst ho
          have hbp := (buildParameter_ok hb).1
          simp only [Prod.mk.injEq, true_and, Option.some.injEq, exists_and_left, exists_eq', and_true]
          cases hp : c.populate p with
          | error e =>
            refine ⟨nofun, ?_⟩
            rintro ⟨ps, hps, -⟩
            cases hps with
            | cons ha _ =>
              obtain ⟨p0, p1, b1, b2, -⟩ := ha
              cases b1.unique hbp
              rw [hp] at b2; cases b2
          | ok p1 =>
            have hpf : ParamFor v inn c (finalParam inn p1) := by
              refine ⟨p, p1, hbp, hp, ?_, ?_⟩
              · intro e; subst e; rfl
              · intro e; simp [finalParam, e]
            have hiff : (∃ ps, Pointwise (fun f p => ParamFor v f.1 f.2 p) [(inn, c)] ps ∧ FreshParams (takenKeys s.op) ps) ↔
                paramExists (finalParam inn p1) s.op.parameters = false := by
              rw [← Bool.not_eq_true, paramExists_iff]
              constructor
              · rintro ⟨ps, hps, hf⟩
                cases hps with
                | cons ha hn =>
                  cases hn
                  cases ha.unique hpf
                  exact hf.2 _ List.mem_cons_self
              · intro hf
                exact ⟨[finalParam inn p1], .cons hpf .nil, by simp, by simpa [takenKeys] using hf⟩
            rw [hiff]
            by_cases he : paramExists (finalParam inn p1) s.op.parameters = true
            · simp [he]
            · simp [he]
        · refine ⟨fun h => ?_, ?_⟩
          · exfalso
            cases out <;> simp_all
          · rintro ⟨⟨m', p', e⟩, -⟩
            simp only [Prod.mk.injEq] at e
            exact absurd e.2.1 ho
    · have := (onParameter_ok (v := v) (inn := inn) (c := c) (s := s) (s' := (onParameter v inn c s).1) (Prod.ext rfl h)).1
      rw [etop] at this
      exact this
    · simp only [onParameter, if_neg hg]
      have hb := buildParameter_panic (inn := inn) hd h1 h2 s.schemas
      rcases hr : buildParameter v inn c s.schemas with ⟨m, out, op⟩
      rw [hr] at hb
      simp only at hb
      split
      · split
        · simp
        · split <;> simp
      · rename_i e
        cases e
        exact hb
  · have hg : (!c.processed || decide (c.pathLen > 1)) = true := by
      simp only [Bool.or_eq_true, Bool.not_eq_true', decide_eq_true_eq]
      by_cases hp : c.processed = true
      · right; have : ¬ c.pathLen ≤ 1 := fun h => ht ⟨hp, h⟩; omega
      · left; simpa using hp
    have etop : topFields [Event.prop c] = [] := by simp [topFields, ht]
    rw [etop]
    refine paramAct_none ?_ ?_ ?_ <;> intro s <;> simp [onParameter, hg]

/-! ### Many fields -/

theorem onReqDefinition_act {v : Ver S} {n : String} {d : JS} (h : Converts v d) :
    ParamAct v [] True (onReqDefinition v n d) := by
  have key : ∀ s : ReqState S, ∃ m, onReqDefinition v n d s = ({ s with schemas := m }, .ok) := by
    intro s
    obtain ⟨m, hm⟩ := collectDefinition_total (n := n) h s.schemas
    exact ⟨m, by simp only [onReqDefinition, hm]⟩
  refine paramAct_none ?_ ?_ ?_ <;> intro s <;> obtain ⟨m, hm⟩ := key s <;> rw [hm] <;> simp

theorem runEvents_act {v : Ver S} {env : Env S} {inn : String} {es : List (Event S)}
    (hprop : ∀ c, Event.prop c ∈ es → (∀ n d, (n, d) ∈ c.inner.1 → Converts v d) ∧ v.conv c.schema ≠ .panic ∧
      ∀ js, c.inner.2 = .ok js → v.conv js ≠ .panic)
    (hdef : ∀ n d, Event.defn n d ∈ es → Converts v d) :
    ParamAct v ((topFields es).map fun c => (inn, c)) (∀ c ∈ topFields es, FieldReflects v c)
      (runEvents env (onParameter v inn) (onReqDefinition v) es) := by
  induction es with
  | nil => refine paramAct_none ?_ ?_ ?_ <;> intro s <;> simp [runEvents, topFields]
  | cons e es ih =>
    have ih := ih (fun c hc => hprop c (List.mem_cons_of_mem _ hc)) (fun n d hd => hdef n d (List.mem_cons_of_mem _ hd))
    have first : ParamAct v ((topFields [e]).map fun c => (inn, c)) (∀ c ∈ topFields [e], FieldReflects v c)
        (match e with | .prop c => onParameter v inn c | .defn n d => onReqDefinition v n d) := by
      cases e with
      | prop c =>
        obtain ⟨h1, h2, h3⟩ := hprop c List.mem_cons_self
        exact onParameter_act h1 h2 h3
      | defn n d =>
        have := onReqDefinition_act (n := n) (hdef n d List.mem_cons_self)
        simpa [topFields] using this.congr (c' := ∀ c ∈ topFields [Event.defn (S := S) n d], FieldReflects v c) (by simp [topFields])
    rw [topFields_cons, List.map_append]
    refine (paramActs_cons first ih (Z := runEvents env (onParameter v inn) (onReqDefinition v) (e :: es)) ?_ ?_ ?_).congr ?_
    · intro s h
      cases e <;>
      · simp only [runEvents] at h ⊢
        split
        · rename_i hx; rw [hx]
        · rename_i hx; rw [hx] at h; cases h
        · rename_i hx; rw [hx] at h; cases h
    · intro s h
      cases e <;>
      · simp only [runEvents] at h ⊢
        split
        · rename_i hx; rw [hx] at h; exact absurd rfl h
        · simp
        · simp
    · intro s h
      have hnp := first.nopanic s
      cases e <;>
      · simp only [runEvents] at h hnp ⊢
        split
        · rename_i hx; rw [hx] at h; exact absurd rfl h
        · simp
        · rename_i hx; rw [hx] at hnp; exact absurd rfl hnp
    · simp only [List.mem_append]
      exact ⟨fun h c hc => hc.elim (h.1 c) (h.2 c), fun h => ⟨fun c hc => h c (.inl hc), fun c hc => h c (.inr hc)⟩⟩

/-! ### All locations -/

theorem parseParametersIn_act {v : Ver S} {env : Env S} {cu : ContentUnit S} {inn : String} (hi : inn ∈ paramLocations)
    (hc : RequestConverts v env cu) :
    ParamAct v (if (cu.value env).isSliceOrMap = false then
        (topFields ((cu.value env).params inn (cu.fieldMapping inn)).events).map fun c => (inn, c) else [])
      ((cu.value env).isSliceOrMap = false →
        (∃ js, ((cu.value env).params inn (cu.fieldMapping inn)).result = .ok js) ∧
        ∀ c ∈ topFields ((cu.value env).params inn (cu.fieldMapping inn)).events, FieldReflects v c)
      (parseParametersIn v env cu inn) := by
  by_cases hsm : (cu.value env).isSliceOrMap = false
  · simp only [if_pos hsm, hsm, true_implies]
    have hev := runEvents_act (v := v) (env := env) (inn := inn)
      (es := ((cu.value env).params inn (cu.fieldMapping inn)).events)
      (fun c hm => ⟨fun n d hn => hc.2.1 d (.nested hi hm hn), hc.1 _ (.field hi hm), fun js hj => hc.1 _ (.content hi hm hj)⟩)
      (fun n d hm => hc.2.1 d (.param hi hm))
    refine ⟨fun s => ?_, fun s h => ?_, fun s => ?_⟩
    · have hev := hev.iff s
      simp only [parseParametersIn, input_eq, hsm, Bool.false_eq_true, if_false]
      rcases hr : runEvents env (onParameter v inn) (onReqDefinition v)
        ((cu.value env).params inn (cu.fieldMapping inn)).events s with ⟨s1, o⟩
      rw [hr] at hev
      cases o with
      | ok =>
        obtain ⟨h1, h2⟩ := hev.mp rfl
        simp only
        cases hres : ((cu.value env).params inn (cu.fieldMapping inn)).result with
        | error e => simp
        | ok js =>
          refine ⟨fun _ => ⟨⟨⟨js, rfl⟩, h1⟩, h2⟩, fun _ => ?_⟩
          simp only
          split <;> rfl
      | err e =>
        refine ⟨nofun, fun h => ?_⟩
        have := hev.mpr ⟨h.1.2, h.2⟩
        cases this
      | panic =>
        refine ⟨nofun, fun h => ?_⟩
        have := hev.mpr ⟨h.1.2, h.2⟩
        cases this
    · exact (parseParametersIn_ok (s' := (parseParametersIn v env cu inn s).1) (Prod.ext rfl h) hsm).1
    · have hev := hev.nopanic s
      simp only [parseParametersIn, input_eq, hsm, Bool.false_eq_true, if_false]
      rcases hr : runEvents env (onParameter v inn) (onReqDefinition v)
        ((cu.value env).params inn (cu.fieldMapping inn)).events s with ⟨s1, o⟩
      rw [hr] at hev
      split
      · split
        · simp
        · split <;> simp
      · exact hev
  · rw [if_neg hsm]
    have hsm' : (cu.value env).isSliceOrMap = true := by simpa using hsm
    refine paramAct_none ?_ ?_ ?_ <;> intro s <;> simp [parseParametersIn, input_eq, hsm']

theorem joinErrors_none_cons (errs : List (Option String)) : joinErrors (none :: errs) = joinErrors errs := rfl

theorem joinActs_none_cons {σ : Type} (Xs : List (Act σ)) (errs : List (Option String)) (s : σ) :
    joinActs Xs (none :: errs) s = joinActs Xs errs s := by
  induction Xs generalizing errs s with
  | nil => simp only [joinActs, joinErrors_none_cons]
  | cons X Xs ih =>
    simp only [joinActs, List.cons_append]
    split <;> first | rw [ih] | rfl

theorem joinActs_nopanic {σ : Type} (Xs : List (Act σ)) (h : ∀ X ∈ Xs, ∀ s, (X s).2 ≠ .panic)
    (errs : List (Option String)) (s : σ) : (joinActs Xs errs s).2 ≠ .panic := by
  induction Xs generalizing errs s with
  | nil => simp only [joinActs]; split <;> simp
  | cons X Xs ih =>
    have ih := ih fun Y hY => h Y (List.mem_cons_of_mem _ hY)
    have hX := h X List.mem_cons_self s
    simp only [joinActs]
    split
    · exact ih _ _
    · exact ih _ _
    · rename_i hx; rw [hx] at hX; exact absurd rfl hX

theorem joinActs_nil_act {v : Ver S} : ParamAct v [] True (joinActs (σ := ReqState S) [] []) := by
  refine paramAct_none ?_ ?_ ?_ <;> intro s <;> simp [joinActs, joinErrors]

theorem joinActs_cons_act {v : Ver S} {f f' : List (String × PropCall S)} {c c' : Prop} {X : Act (ReqState S)}
    {Xs : List (Act (ReqState S))} (h : ParamAct v f c X) (h' : ParamAct v f' c' (joinActs Xs []))
    (hn : ∀ X ∈ Xs, ∀ s, (X s).2 ≠ .panic) : ParamAct v (f ++ f') (c ∧ c') (joinActs (X :: Xs) []) := by
  have hn' : ∀ Y ∈ X :: Xs, ∀ s, (Y s).2 ≠ .panic := by
    intro Y hY
    rcases List.mem_cons.mp hY with rfl | hY
    · exact h.nopanic
    · exact hn Y hY
  refine paramActs_cons h h' ?_ ?_ ?_
  · intro s ho
    simp only [joinActs, List.nil_append]
    rcases hx : X s with ⟨s1, o⟩
    rw [hx] at ho
    simp only at ho
    subst ho
    simp only [joinActs_none_cons]
  · intro s ho he
    obtain ⟨-, hj⟩ := joinActs_ok (s' := (joinActs (X :: Xs) [] s).1) (Prod.ext rfl he)
    obtain ⟨s1, h1, -⟩ := foldActs_cons_ok hj
    apply ho
    simp only [id] at h1
    rw [h1]
  · intro s _
    exact joinActs_nopanic _ hn' _ _

theorem parseParameters_act {v : Ver S} {env : Env S} {cu : ContentUnit S} (hk : ReflectsParams cu)
    (hc : RequestConverts v env cu) :
    ParamAct v (paramFields env cu)
      ((cu.value env).isSliceOrMap = false → ∀ inn ∈ paramLocations,
        (∃ js, ((cu.value env).params inn (cu.fieldMapping inn)).result = .ok js) ∧
        ∀ c ∈ topFields ((cu.value env).params inn (cu.fieldMapping inn)).events, FieldReflects v c)
      (parseParameters v env cu) := by
  have A : ∀ inn ∈ paramLocations, _ := fun inn hi => parseParametersIn_act (v := v) (env := env) (cu := cu) hi hc
  have a1 := A "query" (by simp [paramLocations])
  have a2 := A "path" (by simp [paramLocations])
  have a3 := A "cookie" (by simp [paramLocations])
  have a4 := A "header" (by simp [paramLocations])
  have n2 : ∀ X ∈ [parseParametersIn v env cu "path", parseParametersIn v env cu "cookie",
      parseParametersIn v env cu "header"], ∀ s, (X s).2 ≠ .panic := by
    simp only [List.mem_cons, List.not_mem_nil, or_false, forall_eq_or_imp, forall_eq]
    exact ⟨a2.nopanic, a3.nopanic, a4.nopanic⟩
  have hj := joinActs_cons_act a1 (joinActs_cons_act a2 (joinActs_cons_act a3 (joinActs_cons_act a4 joinActs_nil_act
      nofun) (fun X hX => n2 X (by simp at hX ⊢; simp [hX]))) (fun X hX => n2 X (List.mem_cons_of_mem _ hX))) n2
  have ef : paramFields env cu =
      (if (cu.value env).isSliceOrMap = false then
        (topFields ((cu.value env).params "query" (cu.fieldMapping "query")).events).map fun c => ("query", c) else []) ++
      ((if (cu.value env).isSliceOrMap = false then
        (topFields ((cu.value env).params "path" (cu.fieldMapping "path")).events).map fun c => ("path", c) else []) ++
      ((if (cu.value env).isSliceOrMap = false then
        (topFields ((cu.value env).params "cookie" (cu.fieldMapping "cookie")).events).map fun c => ("cookie", c) else []) ++
      ((if (cu.value env).isSliceOrMap = false then
        (topFields ((cu.value env).params "header" (cu.fieldMapping "header")).events).map fun c => ("header", c) else []) ++
      []))) := by
    by_cases hsm : (cu.value env).isSliceOrMap = false
    · rw [paramFields, if_pos ⟨hk, hsm⟩]
      simp only [if_pos hsm, paramLocations, List.flatMap_cons, List.flatMap_nil]
    · rw [paramFields, if_neg (fun h => hsm h.2)]
      simp only [if_neg hsm, List.append_nil]
  rw [ef]
  refine ParamAct.congr hj ?_
  simp only [paramLocations, List.mem_cons, List.not_mem_nil, or_false, forall_eq_or_imp, forall_eq, and_true]
  constructor
  · rintro ⟨h1, h2, h3, h4⟩ hsm
    exact ⟨h1 hsm, h2 hsm, h3 hsm, h4 hsm⟩
  · intro h
    exact ⟨fun hs => (h hs).1, fun hs => (h hs).2.1, fun hs => (h hs).2.2.1, fun hs => (h hs).2.2.2⟩

/-! ## Bodies -/

theorem reflectRequestBody_cases {env : Env S} {pw : Bool} (hpw : env.processWithoutTags = .ok pw) (cu : ContentUnit S)
    (method : String) (mapping : GoMap String) (tag : String) (tags : List String) :
    reflectRequestBody env cu method mapping tag tags = .ok none ∨
    (∃ e, reflectRequestBody env cu method mapping tag tags = .error e ∧
      ((cu.value env).body tag mapping).result = .error e) ∨
    ∃ r, reflectRequestBody env cu method mapping tag tags =
      .ok (some (r, hasFileUpload ((cu.value env).body tag mapping).visited)) ∧
      ((cu.value env).body tag mapping).result = .ok r := by
  simp only [reflectRequestBody, input_eq, hpw]
  split
  · exact .inl rfl
  · split
    · exact .inl rfl
    · split
      · exact .inl rfl
      · split
        · exact .inl rfl
        · split
          · rename_i e he; exact .inr (.inl ⟨e, rfl, he⟩)
          · rename_i r hr; exact .inr (.inr ⟨r, rfl, hr⟩)

theorem form_wants {env : Env S} {cu : ContentUnit S} {method : String} {e : String}
    (h : reflectRequestBody env cu method (cu.fieldMapping "formData") "formData" ["form"] = .error e) :
    WantsFormBody env cu method := by
  unfold reflectRequestBody at h
  rw [input_eq] at h
  simp only at h
  split at h
  · cases h
  · rename_i hb
    refine ⟨body_guard hb, ?_⟩
    split at h
    · cases h
    · rename_i hg
      by_cases hf : HasFormFields env cu
      · exact .inl hf
      · right
        intro he
        apply hg
        simp only [HasFormFields, not_or, Bool.not_eq_true] at hf
        simp [hf.1, hf.2, he]

theorem json_wants {env : Env S} {cu : ContentUnit S} {method : String} {e : String} {pw : Bool}
    (hpw : env.processWithoutTags = .ok pw)
    (h : reflectRequestBody env cu method [] "json" [] = .error e) : WantsJSONBody env cu method := by
  unfold reflectRequestBody at h
  rw [input_eq] at h
  simp only [hpw] at h
  split at h
  · cases h
  · rename_i hb
    refine ⟨body_guard hb, ?_⟩
    split at h
    · cases h
    · split at h
      · cases h
      · rename_i hg
        split at h
        · cases h
        · rename_i hg2
          constructor
          · intro hf
            simp only [HasFormFields] at hf
            cases h1 : (cu.value env).forceJSONBody
            · cases h2 : (cu.value env).hasJSONSchemaStruct
              · exfalso
                apply hg
                simp [h1, h2, hf]
              · simp
            · simp
          · cases h1 : (cu.value env).tagged "json" <;> cases h2 : (cu.value env).hasJSONSchemaStruct <;>
              cases h3 : (cu.value env).isSliceOrMap <;> cases h4 : (cu.value env).embedsSliceOrMap <;>
              cases pw <;> simp_all

theorem parseRequestBody_act {v : Ver S} {env : Env S} {pw : Bool} (hpw : env.processWithoutTags = .ok pw)
    {cu : ContentUnit S} {method mime tag : String} {mapping : GoMap String} {tags : List String} {wants : Prop}
    (hn : reflectRequestBody env cu method mapping tag tags = .ok none → ¬ wants)
    (hs : ∀ r, reflectRequestBody env cu method mapping tag tags = .ok (some r) → wants)
    (he : ∀ e, reflectRequestBody env cu method mapping tag tags = .error e → wants)
    (hc : ∀ sch defs, ((cu.value env).body tag mapping).result = .ok (sch, defs) →
      v.conv sch ≠ .panic ∧ ∀ n d, (n, d) ∈ defs → v.conv d ≠ .panic) :
    ParamAct v [] (wants → BodyReflects v ((cu.value env).body tag mapping))
      (parseRequestBody v env cu method mime mapping tag tags) := by
  refine paramAct_none ?_ ?_ ?_
  · intro s
    simp only [parseRequestBody]
    rcases reflectRequestBody_cases hpw cu method mapping tag tags with h | ⟨e, h, hr⟩ | ⟨⟨sch, defs⟩, h, hr⟩
    · rw [h]
      simp only [true_iff]
      exact fun hw => absurd hw (hn h)
    · rw [h]
      refine ⟨nofun, fun hw => ?_⟩
      obtain ⟨a, b, hab, -⟩ := hw (he e h)
      rw [hr] at hab; cases hab
    · rw [h]
      have hw := hs _ h
      simp only [hw, true_implies, BodyReflects, hr, Except.ok.injEq, Prod.mk.injEq]
      have hdefs := addBodyDefinitions_iff (v := v) (ds := defs) (m := s.schemas)
      constructor
      · intro ho
        split at ho
        · cases ho
        · cases ho
        · rename_i sc hsc
          refine ⟨sch, defs, ⟨rfl, rfl⟩, ⟨sc, hsc⟩, ?_⟩
          rcases hd : addBodyDefinitions v defs s.schemas with ⟨m, o⟩
          rw [hd] at hdefs ho
          cases o with
          | ok => exact hdefs.mp rfl
          | err e => cases ho
          | panic => cases ho
      · rintro ⟨_, _, ⟨rfl, rfl⟩, ⟨sc, hsc⟩, hd⟩
        simp only [hsc]
        have ho := hdefs.mpr hd
        rcases hd : addBodyDefinitions v defs s.schemas with ⟨m, o⟩
        rw [hd] at ho
        simp only at ho
        subst ho
        rfl
  · intro s h
    rcases parseRequestBody_ok (s' := (parseRequestBody v env cu method mime mapping tag tags s).1) (Prod.ext rfl h) with
      ⟨-, e⟩ | ⟨_, _, _, _, _, -, -, -, -, e⟩
    · rw [e]
    · rw [e]; rfl
  · intro s
    simp only [parseRequestBody]
    rcases reflectRequestBody_cases hpw cu method mapping tag tags with h | ⟨e, h, hr⟩ | ⟨⟨sch, defs⟩, h, hr⟩
    · rw [h]; simp
    · rw [h]; simp
    · rw [h]
      obtain ⟨c1, c2⟩ := hc sch defs hr
      have c3 := addBodyDefinitions_panic c2 s.schemas
      simp only
      split
      · rename_i hp; exact absurd hp c1
      · simp
      · rcases hd : addBodyDefinitions v defs s.schemas with ⟨m, o⟩
        rw [hd] at c3
        cases o with
        | ok => simp
        | err e => simp
        | panic => exact absurd rfl c3

theorem form_act {v : Ver S} {env : Env S} {pw : Bool} (hpw : env.processWithoutTags = .ok pw)
    {cu : ContentUnit S} {method mime : String} (hc : RequestConverts v env cu) :
    ParamAct v [] (WantsFormBody env cu method → BodyReflects v ((cu.value env).body "formData" (cu.fieldMapping "formData")))
      (parseRequestBody v env cu method mime (cu.fieldMapping "formData") "formData" ["form"]) :=
  parseRequestBody_act hpw form_none (fun _ => form_some) (fun _ => form_wants)
    (fun _ _ h => ⟨hc.1 _ (.form h), fun _ _ hm => hc.1 _ (.formDef h hm)⟩)

theorem json_act {v : Ver S} {env : Env S} {pw : Bool} (hpw : env.processWithoutTags = .ok pw)
    {cu : ContentUnit S} {method mime : String} (hc : RequestConverts v env cu) :
    ParamAct v [] (WantsJSONBody env cu method → BodyReflects v ((cu.value env).body "json" []))
      (parseRequestBody v env cu method mime [] "json" []) :=
  parseRequestBody_act hpw json_none (fun _ => json_some) (fun _ => json_wants hpw)
    (fun _ _ h => ⟨hc.1 _ (.json h), fun _ _ hm => hc.1 _ (.jsonDef h hm)⟩)

theorem string_act {v : Ver S} {mime format : String} (h : Converts v (plainString format)) :
    ParamAct v [] True (stringRequestBody v mime format) := by
  obtain ⟨sc, hs⟩ := h
  rw [← plainString_eq] at hs
  refine paramAct_none ?_ ?_ ?_ <;> intro s <;> simp [stringRequestBody, hs, setRequestContent]

theorem raw_act {v : Ver S} {cu : ContentUnit S} (h : ∀ format, Converts v (plainString format)) :
    ParamAct v [] True (parseRawRequestBody v cu) := by
  have key : ∀ (tags : List String) (s : ReqState S),
      (foldActs (fun tag => stringRequestBody v tag "") tags s).2 = .ok ∧
      (foldActs (fun tag => stringRequestBody v tag "") tags s).1.op.parameters = s.op.parameters := by
    intro tags
    induction tags with
    | nil => intro s; exact ⟨rfl, rfl⟩
    | cons t tags ih =>
      intro s
      obtain ⟨sc, hs⟩ := h ""
      rw [← plainString_eq] at hs
      simp only [foldActs, stringRequestBody, hs]
      exact ih _
  refine paramAct_none ?_ ?_ ?_ <;> intro s <;> simp only [parseRawRequestBody] <;> split <;> simp [key]

/-! ## Units -/

theorem reflectUnit_act {v : Ver S} {env : Env S} {pw : Bool} (hpw : env.processWithoutTags = .ok pw)
    {cu : ContentUnit S} {method : String} (hc : RequestConverts v env cu) :
    ParamAct v (paramFields env cu) (UnitReflects v env method cu) (reflectUnit v env method cu) := by
  have F := form_act (method := method) (mime := "application/x-www-form-urlencoded") hpw hc
  have J := json_act (method := method) (mime := "application/json") hpw hc
  have R := raw_act (v := v) (cu := cu) hc.2.2
  have Q := string_act (v := v) (mime := cu.contentType) (hc.2.2 cu.format)
  by_cases hk : ReflectsParams cu
  · have P := parseParameters_act (v := v) hk hc
    have n1 : ∀ {X : Act (ReqState S)}, (∀ s, (X s).2 ≠ .panic) → ∀ Y ∈ [X], ∀ s, (Y s).2 ≠ .panic := by
      intro X h Y hY
      rw [List.mem_singleton.mp hY]; exact h
    have n2 : ∀ {X X' : Act (ReqState S)}, (∀ s, (X s).2 ≠ .panic) → (∀ s, (X' s).2 ≠ .panic) →
        ∀ Y ∈ [X, X'], ∀ s, (Y s).2 ≠ .panic := by
      intro X X' h h' Y hY
      rcases List.mem_cons.mp hY with e | hY
      · rw [e]; exact h
      · rw [List.mem_singleton.mp hY]; exact h'
    have hk' := hk
    simp only [ReflectsParams, List.mem_cons, List.not_mem_nil, or_false] at hk'
    by_cases h0 : cu.contentType = ""
    · have A := joinActs_cons_act F (joinActs_cons_act P (joinActs_cons_act J joinActs_nil_act nofun) (n1 J.nopanic))
        (n2 P.nopanic J.nopanic)
      have B := paramActs_cons A R (Z := reflectUnit v env method cu) ?_ ?_ ?_
      · simp only [List.nil_append, List.append_nil] at B
        refine B.congr ?_
        simp only [UnitReflects, TakesForm, TakesJSON, h0, List.mem_cons, true_or, true_implies, hk, and_true]
        constructor
        · rintro ⟨a, b, c⟩; exact ⟨a, c, b⟩
        · rintro ⟨a, c, b⟩; exact ⟨a, b, c⟩
      · intro s ho
        simp only [reflectUnit, if_pos h0]
        split
        · rename_i hx; rw [hx]
        · rename_i hx; exact (hx _ (Prod.ext rfl ho)).elim
      · intro s ho
        simp only [reflectUnit, if_pos h0]
        split
        · rename_i hx; rw [hx] at ho; exact absurd rfl ho
        · exact ho
      · intro s ho
        simp only [reflectUnit, if_pos h0]
        split
        · rename_i hx; rw [hx] at ho; exact absurd rfl ho
        · exact A.nopanic s
    · by_cases hj : cu.contentType = "application/json"
      · have A := joinActs_cons_act P (joinActs_cons_act J joinActs_nil_act nofun) (n1 J.nopanic)
        have e : reflectUnit v env method cu = joinActs [parseParameters v env cu,
            parseRequestBody v env cu method "application/json" [] "json" []] [] := by
          funext s; simp only [reflectUnit, if_neg h0, if_pos hj]
        rw [e]
        simp only [List.append_nil] at A
        refine A.congr ?_
        have : ¬ TakesForm cu := by simp [TakesForm, hj]
        have h2 : TakesJSON cu := by simp [TakesJSON, hj]
        simp only [UnitReflects, this, h2, hk, true_implies, false_implies, true_and, and_true]
        exact And.comm
      · have hf : cu.contentType = "application/x-www-form-urlencoded" ∨ cu.contentType = "multipart/form-data" := by
          simpa [h0, hj] using hk'
        have A := joinActs_cons_act F (joinActs_cons_act P joinActs_nil_act nofun) (n1 P.nopanic)
        have e : reflectUnit v env method cu = joinActs [
            parseRequestBody v env cu method "application/x-www-form-urlencoded" (cu.fieldMapping "formData") "formData" ["form"],
            parseParameters v env cu] [] := by
          funext s; simp only [reflectUnit, if_neg h0, if_neg hj, if_pos hf]
        rw [e]
        simp only [List.nil_append, List.append_nil] at A
        refine A.congr ?_
        have h1 : TakesForm cu := by
          rcases hf with hf | hf <;> simp [TakesForm, hf]
        have h2 : ¬ TakesJSON cu := by simp [TakesJSON, h0, hj]
        simp only [UnitReflects, h1, h2, hk, true_implies, false_implies, true_and, and_true]
  · have e : reflectUnit v env method cu = stringRequestBody v cu.contentType cu.format := by
      simp only [ReflectsParams, List.mem_cons, List.not_mem_nil, or_false, not_or] at hk
      funext s
      simp only [reflectUnit, if_neg hk.1, if_neg hk.2.1, hk.2.2.1, hk.2.2.2, or_self, if_false]
    have ef : paramFields env cu = [] := by rw [paramFields, if_neg (fun h => hk h.1)]
    rw [e, ef]
    refine Q.congr ?_
    have hk' := hk
    simp only [ReflectsParams, List.mem_cons, List.not_mem_nil, or_false, not_or] at hk'
    have h1 : ¬ TakesForm cu := by simp [TakesForm, hk']
    have h2 : ¬ TakesJSON cu := by simp [TakesJSON, hk']
    simp only [UnitReflects, h1, h2, hk, false_implies, and_self]

theorem finishRequest_parameters (cu : ContentUnit S) (op : Operation S) :
    (finishRequest cu op).parameters = op.parameters := by
  unfold finishRequest
  repeat' split
  all_goals first | rfl | simp_all
  all_goals (repeat' split) <;> rfl

/-- The reflection of all units of a request. -/
theorem setupRequest_act {v : Ver S} {env : Env S} {pw : Bool} (hpw : env.processWithoutTags = .ok pw)
    {method : String} {cus : List (ContentUnit S)} (hc : ∀ cu ∈ cus, RequestConverts v env cu) :
    ParamAct v (cus.flatMap (paramFields env)) (∀ cu ∈ cus, UnitReflects v env method cu) (setupRequest v env method cus) := by
  induction cus with
  | nil => refine paramAct_none ?_ ?_ ?_ <;> intro s <;> simp [setupRequest]
  | cons cu cus ih =>
    have ih := ih fun cu' h => hc cu' (List.mem_cons_of_mem _ h)
    have U := reflectUnit_act hpw (method := method) (hc cu List.mem_cons_self)
    have ih' : ParamAct v (cus.flatMap (paramFields env)) (∀ cu ∈ cus, UnitReflects v env method cu)
        (fun s => setupRequest v env method cus { s with op := finishRequest cu s.op }) := by
      refine ⟨fun s => ?_, fun s h => ?_, fun s => ih.nopanic _⟩
      · rw [ih.iff]
        simp only [takenKeys, finishRequest_parameters]
      · obtain ⟨ps, h1, h2⟩ := ih.adds _ h
        refine ⟨ps, h1, ?_⟩
        rw [h2, finishRequest_parameters]
    rw [List.flatMap_cons]
    refine (paramActs_cons U ih' (Z := setupRequest v env method (cu :: cus)) ?_ ?_ ?_).congr ?_
    · intro s ho
      simp only [setupRequest]
      split
      · rename_i hx; rw [hx]
      · rename_i hx; exact (hx _ (Prod.ext rfl ho)).elim
    · intro s ho
      simp only [setupRequest]
      split
      · rename_i hx; rw [hx] at ho; exact absurd rfl ho
      · exact ho
    · intro s ho
      simp only [setupRequest]
      split
      · rename_i hx; rw [hx] at ho; exact absurd rfl ho
      · exact U.nopanic s
    · simp

end Verif
