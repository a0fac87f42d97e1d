import Verif.Props.Request

/-!
# What a successful reflection of a request has done
-/

namespace Verif
open ParamSpec
variable {S : Type}

/-! ## When a body is reflected -/

theorem body_guard {env : Env S} {cu : ContentUnit S} {method : String}
    (h : ¬ (bodyless method && !(cu.value env).forceBody) = true) : MayHaveBody env cu method := by
  unfold MayHaveBody
  rw [← bodyless_iff]
  simp only [Bool.and_eq_true, Bool.not_eq_true', not_and, Bool.not_eq_false] at h
  by_cases hb : bodyless method = true
  · exact .inr (h hb)
  · exact .inl hb

theorem not_body_guard {env : Env S} {cu : ContentUnit S} {method : String}
    (h : (bodyless method && !(cu.value env).forceBody) = true) : ¬ MayHaveBody env cu method := by
  unfold MayHaveBody
  rw [← bodyless_iff]
  simp only [Bool.and_eq_true, Bool.not_eq_true'] at h
  simp [h.1, h.2]

theorem form_some {env : Env S} {cu : ContentUnit S} {method : String} {r}
    (h : reflectRequestBody env cu method (cu.fieldMapping "formData") "formData" ["form"] = .ok (some r)) :
    WantsFormBody env cu method := by
  refine ⟨reflectBody_needs h, ?_⟩
  unfold reflectRequestBody at h
  rw [input_eq] at h
  simp only at h
  split at h
  · cases h
  · split at h
    · cases h
    · rename_i hg
      by_cases hf : HasFormFields env cu
      · exact .inl hf
      · right
        intro he
        apply hg
        simp only [HasFormFields, not_or, Bool.not_eq_true] at hf
        simp [hf.1, hf.2, he]

theorem form_none {env : Env S} {cu : ContentUnit S} {method : String}
    (h : reflectRequestBody env cu method (cu.fieldMapping "formData") "formData" ["form"] = .ok none) :
    ¬ WantsFormBody env cu method := by
  rintro ⟨hm, hw⟩
  unfold reflectRequestBody at h
  rw [input_eq] at h
  simp only at h
  have hlen : HasFormFields env cu ∨ (cu.fieldMapping "formData").length ≠ 0 :=
    hw.imp id fun hw he => hw (List.eq_nil_of_length_eq_zero he)
  have key : ((cu.value env).tagged "formData" || ["form"].any (cu.value env).tagged) = true ∨
      (cu.fieldMapping "formData").length ≠ 0 := by
    refine hlen.imp ?_ id
    intro hf
    simpa [HasFormFields] using hf
  split at h
  · rename_i hg; exact not_body_guard hg hm
  · split at h
    · rename_i hg
      simp only [Bool.and_eq_true, Bool.not_eq_true', decide_eq_true_eq] at hg
      rcases key with hk | hk
      · rw [hk] at hg; exact absurd hg.1.1 (by simp)
      · exact hk hg.1.2
    · split at h
      · rename_i hg; simp at hg
      · split at h
        · cases h
        · split at h
          · rename_i hg
            simp only [Bool.and_eq_true, Bool.not_eq_true', decide_eq_true_eq] at hg
            rcases key with hk | hk
            · rw [hk] at hg; exact absurd hg.1.1.1.1.1 (by simp)
            · exact hk hg.1.1.1.2
          · split at h <;> cases h

theorem json_some {env : Env S} {cu : ContentUnit S} {method : String} {r}
    (h : reflectRequestBody env cu method [] "json" [] = .ok (some r)) : WantsJSONBody env cu method := by
  refine ⟨reflectBody_needs h, ?_⟩
  unfold reflectRequestBody at h
  rw [input_eq] at h
  simp only at h
  split at h
  · cases h
  · split at h
    · cases h
    · split at h
      · cases h
      · rename_i hg
        split at h
        · cases h
        · rename_i pw hpw
          split at h
          · cases h
          · rename_i hg2
            constructor
            · intro hf
              simp only [HasFormFields] at hf
              cases h1 : (cu.value env).forceJSONBody
              · cases h2 : (cu.value env).hasJSONSchemaStruct
                · exfalso
                  apply hg
                  simp [h1, h2, hf]
                · simp
              · simp
            · cases h1 : (cu.value env).tagged "json" <;> cases h2 : (cu.value env).hasJSONSchemaStruct <;>
                cases h3 : (cu.value env).isSliceOrMap <;> cases h4 : (cu.value env).embedsSliceOrMap <;>
                cases pw <;> simp_all

theorem json_none {env : Env S} {cu : ContentUnit S} {method : String}
    (h : reflectRequestBody env cu method [] "json" [] = .ok none) : ¬ WantsJSONBody env cu method := by
  rintro ⟨hm, hf, hw⟩
  unfold reflectRequestBody at h
  rw [input_eq] at h
  simp only at h
  split at h
  · rename_i hg; exact not_body_guard hg hm
  · split at h
    · rename_i hg; simp at hg
    · split at h
      · rename_i hg
        simp only [decide_true, Bool.true_and, Bool.and_eq_true, Bool.or_eq_true, Bool.not_eq_true'] at hg
        rcases hf hg.1.1 with h' | h'
        · rw [hg.1.2] at h'; cases h'
        · rw [hg.2] at h'; cases h'
      · split at h
        · cases h
        · rename_i pw hpw
          split at h
          · rename_i hg
            simp only [List.any_nil, Bool.or_false, Bool.and_eq_true, Bool.not_eq_true'] at hg
            obtain ⟨⟨⟨⟨⟨h1, h2⟩, -⟩, h3⟩, h4⟩, h5⟩ := hg
            rw [h1, h2, h3, h4, hpw, h5] at hw
            simp at hw
          · split at h <;> cases h

/-! ## Definitions -/

theorem addBodyDefinitions_keeps {v : Ver S} {ds : List (String × JS)} {n : String} {sc : S} {m : GoMap S}
    (hn : n ∉ ds.map (·.1)) (h : m.get? n = some sc) : (addBodyDefinitions v ds m).1.get? n = some sc := by
  induction ds generalizing m with
  | nil => exact h
  | cons p ds ih =>
    obtain ⟨k, d⟩ := p
    simp only [List.map_cons, List.mem_cons, not_or] at hn
    simp only [addBodyDefinitions]
    split
    · refine ih hn.2 ?_
      rw [GoMap.get?_set, if_neg hn.1]; exact h
    · exact h
    · exact h

theorem addBodyDefinitions_ok {v : Ver S} {ds : List (String × JS)} {m m' : GoMap S} (hd : (ds.map (·.1)).Nodup)
    (h : addBodyDefinitions v ds m = (m', .ok)) :
    ∀ n d, (n, d) ∈ ds → ∃ sc, v.conv d = .ok sc ∧ m'.get? n = some sc := by
  induction ds generalizing m with
  | nil => intro n d hm; cases hm
  | cons p ds ih =>
    obtain ⟨k, d0⟩ := p
    simp only [List.map_cons, List.nodup_cons] at hd
    simp only [addBodyDefinitions] at h
    intro n d hm
    split at h
    · rename_i sc hc
      rcases List.mem_cons.mp hm with e | hm
      · cases e
        refine ⟨sc, hc, ?_⟩
        have := addBodyDefinitions_keeps (v := v) hd.1 (GoMap.get?_set_self m k sc)
        rw [h] at this
        exact this
      · exact ih hd.2 h n d hm
    · cases h
    · cases h

theorem parseRequestBody_ok {v : Ver S} {env : Env S} {cu : ContentUnit S} {method mime tag : String}
    {mapping : GoMap String} {tags : List String} {s s' : ReqState S}
    (h : parseRequestBody v env cu method mime mapping tag tags s = (s', .ok)) :
    (reflectRequestBody env cu method mapping tag tags = .ok none ∧ s' = s) ∨
    ∃ sch defs files sc m, reflectRequestBody env cu method mapping tag tags = .ok (some ((sch, defs), files)) ∧
      v.conv sch = .ok sc ∧ addBodyDefinitions v defs s.schemas = (m, .ok) ∧ s'.schemas = m ∧
      s'.op = setRequestContent (if mime = "application/x-www-form-urlencoded" && files then "multipart/form-data" else mime)
        { schema := some sc } s.op := by
  simp only [parseRequestBody] at h
  split at h
  · cases h
  · rename_i hr; cases h; exact .inl ⟨hr, rfl⟩
  · rename_i sch defs files hr
    split at h
    · cases h
    · cases h
    · rename_i sc hc
      split at h
      · cases h
      · cases h
      · rename_i m hm
        cases h
        exact .inr ⟨sch, defs, files, sc, m, hr, hc, hm, rfl, rfl⟩

/-! ## Parameters -/

theorem collectDefinition_ok {v : Ver S} {n : String} {d : JS} {m m' : GoMap S}
    (h : collectDefinition v n d m = (m', .ok)) : (m'.get? n).isSome := by
  simp only [collectDefinition] at h
  split at h
  · rename_i hs; cases h; rw [hs]; rfl
  · split at h
    · cases h; rw [GoMap.get?_set_self]; rfl
    · cases h

/-- Names of component schemas are never removed. -/
def NamesKept (a b : GoMap S) : Prop := ∀ n, (a.get? n).isSome → (b.get? n).isSome

theorem NamesKept.refl (a : GoMap S) : NamesKept a a := fun _ h => h
theorem NamesKept.trans {a b c : GoMap S} (h : NamesKept a b) (h' : NamesKept b c) : NamesKept a c :=
  fun n hn => h' n (h n hn)

theorem namesKept_set (a : GoMap S) (n : String) (sc : S) : NamesKept a (a.set n sc) := by
  intro n' h
  rw [GoMap.get?_set]
  split
  · rfl
  · exact h

theorem reqStep_names {v : Ver S} {env : Env S} {method : String} {cu : ContentUnit S} {s s' : ReqState S}
    (h : Star (ReqStep v env method cu) s s') : NamesKept s.schemas s'.schemas := by
  refine Star.lift (Q := fun a b : ReqState S => NamesKept a.schemas b.schemas)
    (fun a => .refl _) (fun a b c h h' => h.trans h') ?_ h
  intro a b h
  cases h with
  | bodyDef => exact namesKept_set _ _ _
  | newDef => exact namesKept_set _ _ _
  | _ => exact .refl _

theorem collectDefinition_names {v : Ver S} {n : String} {d : JS} {m m' : GoMap S} {o : Out}
    (h : collectDefinition v n d m = (m', o)) : NamesKept m m' := by
  simp only [collectDefinition] at h
  split at h
  · cases h; exact .refl _
  · split at h
    · cases h; exact namesKept_set _ _ _
    · cases h; exact .refl _

theorem collectDefinitions_names {v : Ver S} {ds : List (String × JS)} {m m' : GoMap S} {o : Out}
    (h : collectDefinitions v ds m = (m', o)) : NamesKept m m' := by
  induction ds generalizing m with
  | nil => cases h; exact .refl _
  | cons p ds ih =>
    obtain ⟨n, d⟩ := p
    simp only [collectDefinitions] at h
    split at h
    · rename_i m1 h1
      exact (collectDefinition_names h1).trans (ih h)
    · exact collectDefinition_names h

theorem collectDefinitions_ok {v : Ver S} {ds : List (String × JS)} {m m' : GoMap S}
    (h : collectDefinitions v ds m = (m', .ok)) : ∀ n d, (n, d) ∈ ds → (m'.get? n).isSome := by
  induction ds generalizing m with
  | nil => intro n d hm; cases hm
  | cons p ds ih =>
    obtain ⟨n0, d0⟩ := p
    simp only [collectDefinitions] at h
    split at h
    · rename_i m1 h1
      intro n d hm
      rcases List.mem_cons.mp hm with e | hm
      · cases e
        exact collectDefinitions_names h n0 (collectDefinition_ok h1)
      · exact ih h n d hm
    · rename_i hne
      exact absurd h (hne _)

theorem applyCollectionFormat_fields (cf : String) (p : Parameter S) :
    (applyCollectionFormat cf p) = { p with style := (applyCollectionFormat cf p).style, explode := (applyCollectionFormat cf p).explode } := by
  unfold applyCollectionFormat
  repeat' split
  all_goals rfl

theorem applyCollectionFormat_style (cf : String) (p : Parameter S) (h1 : p.style = none) (h2 : p.explode = none) :
    (∀ style explode, (cf, style, explode) ∈ collectionStyles →
      (applyCollectionFormat cf p).style = some style ∧ (applyCollectionFormat cf p).explode = some explode) ∧
    ((∀ style explode, (cf, style, explode) ∉ collectionStyles) →
      (applyCollectionFormat cf p).style = none ∧ (applyCollectionFormat cf p).explode = none) := by
  constructor
  · intro style explode h
    simp only [collectionStyles, List.mem_cons, List.not_mem_nil, or_false, Prod.mk.injEq] at h
    rcases h with ⟨rfl, rfl, rfl⟩ | ⟨rfl, rfl, rfl⟩ | ⟨rfl, rfl, rfl⟩ | ⟨rfl, rfl, rfl⟩ <;>
      simp [applyCollectionFormat]
  · intro h
    unfold applyCollectionFormat
    split
    · rename_i e; subst e; exact absurd (h "form" false) (by simp [collectionStyles])
    · split
      · rename_i e; subst e; exact absurd (h "spaceDelimited" false) (by simp [collectionStyles])
      · split
        · rename_i e; subst e; exact absurd (h "pipeDelimited" false) (by simp [collectionStyles])
        · split
          · rename_i e; subst e; exact absurd (h "form" true) (by simp [collectionStyles])
          · exact ⟨h1, h2⟩

theorem jsonEncoded_iff (c : PropCall S) :
    (c.collectionFormat = "json" || (c.taggedJSON && !c.taggedIn)) = true ↔ JSONEncoded c := by
  simp [JSONEncoded]

theorem buildParameter_ok {v : Ver S} {inn : String} {c : PropCall S} {m m' : GoMap S} {p : Parameter S}
    (h : buildParameter v inn c m = (m', .ok, some p)) :
    BuiltParam v inn c p ∧ (JSONEncoded c → ∀ n d, (n, d) ∈ c.inner.1 → (m'.get? n).isSome) ∧
    NamesKept m m' := by
  simp only [buildParameter] at h
  split at h
  · cases h
  · cases h
  · rename_i sc hc
    generalize hp0 : ({ name := c.name, inn := inn, description := c.schema.description, schema := some (v.paramSchema c.isPtr sc) } : Parameter S) = p0 at h
    have hs := applyCollectionFormat_style c.collectionFormat p0 (by rw [← hp0]) (by rw [← hp0])
    have hf := applyCollectionFormat_fields c.collectionFormat p0
    split at h
    · rename_i hj
      have hj := (jsonEncoded_iff c).mp hj
      split at h
      · rename_i m1 hm1
        split at h
        · cases h
        · rename_i js hjs
          split at h
          · cases h
          · cases h
          · rename_i sc' hc'
            cases h
            refine ⟨⟨?_, ?_, ?_, ?_, ?_, ?_, ?_, ?_⟩, fun _ => collectDefinitions_ok hm1, collectDefinitions_names hm1⟩
            · rw [hf, ← hp0]
            · rw [hf, ← hp0]
            · rw [hf, ← hp0]
            · rw [hf, ← hp0]
            · rw [hf, ← hp0]
            · refine ⟨fun h => absurd hj h.1, fun _ => hs⟩
            · intro h; exact absurd hj h
            · intro _
              refine ⟨rfl, js, sc', hjs, hc', ?_⟩
              rw [hf, ← hp0]
              rfl
      · cases h
    · rename_i hj
      have hj : ¬ JSONEncoded c := fun hh => hj ((jsonEncoded_iff c).mpr hh)
      split at h
      · cases h
      · rename_i hi
        cases h
        refine ⟨⟨?_, ?_, ?_, ?_, ?_, ?_, ?_, ?_⟩, fun h => absurd h hj, .refl _⟩
        · rw [hf, ← hp0]
        · rw [hf, ← hp0]
        · rw [hf, ← hp0]
        · rw [hf, ← hp0]
        · rw [hf, ← hp0]
        · exact ⟨fun _ => ⟨rfl, rfl⟩, fun h => absurd ⟨hj, hi⟩ h⟩
        · intro _
          refine ⟨?_, sc, hc, ?_⟩ <;> rw [hf, ← hp0]
        · intro h; exact absurd h hj
      · rename_i hi
        cases h
        refine ⟨⟨?_, ?_, ?_, ?_, ?_, ?_, ?_, ?_⟩, fun h => absurd h hj, .refl _⟩
        · rw [hf, ← hp0]
        · rw [hf, ← hp0]
        · rw [hf, ← hp0]
        · rw [hf, ← hp0]
        · rw [hf, ← hp0]
        · refine ⟨fun h => ?_, fun _ => hs⟩
          rw [hi] at h; simp at h
        · intro _
          refine ⟨?_, sc, hc, ?_⟩ <;> rw [hf, ← hp0]
        · intro h; exact absurd h hj

theorem Pointwise.append {α β : Type} {R : α → β → Prop} {as as' : List α} {bs bs' : List β}
    (h : Pointwise R as bs) (h' : Pointwise R as' bs') : Pointwise R (as ++ as') (bs ++ bs') := by
  induction h with
  | nil => exact h'
  | cons h _ ih => exact .cons h ih

/-- The new parameters of a step of reflection. -/
def AddsParams (v : Ver S) (fields : List (String × PropCall S)) (s s' : ReqState S) : Prop :=
  ∃ ps, Pointwise (fun f p => ParamFor v f.1 f.2 p) fields ps ∧
    s'.op.parameters = s.op.parameters ++ ps.map fun p => { param := some p }

theorem AddsParams.nil {v : Ver S} {s s' : ReqState S} (h : s'.op.parameters = s.op.parameters) :
    AddsParams v [] s s' := ⟨[], .nil, by simp [h]⟩

theorem AddsParams.trans {v : Ver S} {f f' : List (String × PropCall S)} {a b c : ReqState S}
    (h : AddsParams v f a b) (h' : AddsParams v f' b c) : AddsParams v (f ++ f') a c := by
  obtain ⟨ps, h1, h2⟩ := h
  obtain ⟨ps', h1', h2'⟩ := h'
  refine ⟨ps ++ ps', h1.append h1', ?_⟩
  rw [h2', h2, List.map_append, List.append_assoc]

theorem onParameter_ok {v : Ver S} {inn : String} {c : PropCall S} {s s' : ReqState S}
    (h : onParameter v inn c s = (s', .ok)) :
    AddsParams v ((topFields [.prop c]).map fun c => (inn, c)) s s' ∧
    (c.processed = true ∧ c.pathLen ≤ 1 → JSONEncoded c → ∀ n d, (n, d) ∈ c.inner.1 → (s'.schemas.get? n).isSome) ∧
    NamesKept s.schemas s'.schemas := by
  simp only [onParameter] at h
  split at h
  · rename_i hg
    cases h
    have hne : ¬ (c.processed = true ∧ c.pathLen ≤ 1) := by
      simp only [Bool.or_eq_true, Bool.not_eq_true', decide_eq_true_eq] at hg
      rintro ⟨h1, h2⟩
      rcases hg with hg | hg
      · rw [h1] at hg; cases hg
      · omega
    refine ⟨?_, fun h => absurd h hne, .refl _⟩
    simp only [topFields, List.filterMap_cons, if_neg hne, List.filterMap_nil, List.map_nil]
    exact .nil rfl
  · rename_i hg
    have hy : c.processed = true ∧ c.pathLen ≤ 1 := by
      simp only [Bool.or_eq_true, Bool.not_eq_true', decide_eq_true_eq, not_or, Bool.not_eq_false] at hg
      exact ⟨hg.1, by omega⟩
    split at h
    · rename_i m p hb
      obtain ⟨h1, h2, h3⟩ := buildParameter_ok hb
      split at h
      · cases h
      · rename_i p1 hp
        split at h
        · cases h
        · cases h
          refine ⟨?_, fun _ => h2, h3⟩
          simp only [topFields, List.filterMap_cons, if_pos hy, List.filterMap_nil, List.map_cons, List.map_nil]
          refine ⟨[finalParam inn p1], .cons ⟨p, p1, h1, hp, ?_, ?_⟩ .nil, rfl⟩
          · intro e; subst e; rfl
          · intro e; simp [finalParam, e]
    · rename_i m out o hne hb
      cases h
      exfalso
      cases ho : o with
      | none =>
        subst ho
        simp only [buildParameter] at hb
        split at hb
        · cases hb
        · cases hb
        · split at hb
          · split at hb
            · split at hb
              · cases hb
              · split at hb <;> cases hb
            · rename_i hne2 h2
              cases hb
              exact hne2 rfl
          · split at hb <;> cases hb
      | some p => exact hne p rfl ho

theorem runEvents_cons_ok {σ : Type} {env : Env S} {onProp : PropCall S → Act σ} {onDef : String → JS → Act σ}
    {e : Event S} {es : List (Event S)} {s s' : σ} (h : runEvents env onProp onDef (e :: es) s = (s', .ok)) :
    ∃ s1, (match e with | .prop c => onProp c s | .defn n d => onDef n d s) = (s1, .ok) ∧
      runEvents env onProp onDef es s1 = (s', .ok) := by
  cases e <;> simp only [runEvents] at h <;> split at h
  all_goals first
    | (rename_i s1 h1; exact ⟨s1, h1, h⟩)
    | cases h

theorem onReqDefinition_ok {v : Ver S} {n : String} {d : JS} {s s' : ReqState S}
    (h : onReqDefinition v n d s = (s', .ok)) :
    s'.op = s.op ∧ (s'.schemas.get? n).isSome ∧ NamesKept s.schemas s'.schemas := by
  simp only [onReqDefinition] at h
  generalize hc : collectDefinition v n d s.schemas = r at h
  obtain ⟨m, o⟩ := r
  cases h
  exact ⟨rfl, collectDefinition_ok hc, collectDefinition_names hc⟩

theorem topFields_cons (e : Event S) (es : List (Event S)) : topFields (e :: es) = topFields [e] ++ topFields es := by
  simp only [topFields, List.filterMap_cons, List.filterMap_nil]
  split <;> simp_all

theorem mem_topFields {es : List (Event S)} {c : PropCall S} :
    c ∈ topFields es ↔ Event.prop c ∈ es ∧ c.processed = true ∧ c.pathLen ≤ 1 := by
  simp only [topFields, List.mem_filterMap]
  constructor
  · rintro ⟨e, he, h⟩
    cases e with
    | prop c' =>
      simp only at h
      split at h
      · rename_i hc; cases h; exact ⟨he, hc⟩
      · cases h
    | defn n d => cases h
  · rintro ⟨h, hc⟩
    exact ⟨_, h, by simp [hc]⟩

theorem runParams_ok {v : Ver S} {env : Env S} {inn : String} {es : List (Event S)} {s s' : ReqState S}
    (h : runEvents env (onParameter v inn) (onReqDefinition v) es s = (s', .ok)) :
    AddsParams v ((topFields es).map fun c => (inn, c)) s s' ∧
    (∀ n d, Event.defn n d ∈ es → (s'.schemas.get? n).isSome) ∧
    (∀ c ∈ topFields es, JSONEncoded c → ∀ n d, (n, d) ∈ c.inner.1 → (s'.schemas.get? n).isSome) ∧
    NamesKept s.schemas s'.schemas := by
  induction es generalizing s with
  | nil =>
    cases h
    exact ⟨.nil rfl, by simp, by simp [topFields], .refl _⟩
  | cons e es ih =>
    obtain ⟨s1, h1, h2⟩ := runEvents_cons_ok h
    obtain ⟨i1, i2, i3, i4⟩ := ih h2
    have first : AddsParams v ((topFields [e]).map fun c => (inn, c)) s s1 ∧
        (∀ n d, e = Event.defn n d → (s1.schemas.get? n).isSome) ∧
        (∀ c ∈ topFields [e], JSONEncoded c → ∀ n d, (n, d) ∈ c.inner.1 → (s1.schemas.get? n).isSome) ∧
        NamesKept s.schemas s1.schemas := by
      cases e with
      | prop c =>
        obtain ⟨j1, j2, j3⟩ := onParameter_ok h1
        refine ⟨j1, fun n d e => (nomatch e), ?_, j3⟩
        intro c' hc'
        obtain ⟨hm, hc2⟩ := mem_topFields.mp hc'
        simp only [List.mem_singleton, Event.prop.injEq] at hm
        subst hm
        exact j2 hc2
      | defn n d =>
        obtain ⟨j1, j2, j3⟩ := onReqDefinition_ok h1
        refine ⟨?_, ?_, ?_, j3⟩
        · simp only [topFields, List.filterMap_cons, List.filterMap_nil, List.map_nil]
          exact .nil (by rw [j1])
        · intro n' d' e; cases e; exact j2
        · intro c hc; simp [topFields] at hc
    obtain ⟨f1, f2, f3, f4⟩ := first
    refine ⟨?_, ?_, ?_, f4.trans i4⟩
    · rw [topFields_cons, List.map_append]
      exact f1.trans i1
    · intro n d hm
      rcases List.mem_cons.mp hm with e' | hm
      · exact i4 n (f2 n d e'.symm)
      · exact i2 n d hm
    · intro c hc
      rw [topFields_cons, List.mem_append] at hc
      rcases hc with hc | hc
      · intro hj n d hn; exact i4 n (f3 c hc hj n d hn)
      · exact i3 c hc

theorem parseParametersIn_ok {v : Ver S} {env : Env S} {cu : ContentUnit S} {inn : String} {s s' : ReqState S}
    (h : parseParametersIn v env cu inn s = (s', .ok)) (hsm : (cu.value env).isSliceOrMap = false) :
    AddsParams v ((topFields ((cu.value env).params inn (cu.fieldMapping inn)).events).map fun c => (inn, c)) s s' ∧
    (∀ n d, Event.defn n d ∈ ((cu.value env).params inn (cu.fieldMapping inn)).events → (s'.schemas.get? n).isSome) ∧
    (∀ c ∈ topFields ((cu.value env).params inn (cu.fieldMapping inn)).events, JSONEncoded c →
      ∀ n d, (n, d) ∈ c.inner.1 → (s'.schemas.get? n).isSome) := by
  simp only [parseParametersIn, input_eq, hsm, Bool.false_eq_true, if_false] at h
  split at h
  · rename_i s1 h1
    obtain ⟨i1, i2, i3, -⟩ := runParams_ok h1
    split at h
    · cases h
    · split at h
      · cases h; exact ⟨i1, i2, i3⟩
      · cases h; exact ⟨i1, i2, i3⟩
  · rename_i hne
    exact absurd h (hne _)

/-- What a successful reflection of the parameters of a unit has done. -/
theorem parseParameters_ok {v : Ver S} {env : Env S} {cu : ContentUnit S} {s s' : ReqState S}
    (hk : ReflectsParams cu) (h : parseParameters v env cu s = (s', .ok)) :
    AddsParams v (paramFields env cu) s s' ∧ (∀ n, ParamDefinition env cu n → (s'.schemas.get? n).isSome) := by
  have hw : ∀ {i : String} {a b : ReqState S}, i ∈ paramLocations → parseParametersIn v env cu i a = (b, .ok) →
      NamesKept a.schemas b.schemas := by
    intro i a b hi hab
    have := parseParametersIn_within v env "" cu hk hi a
    rw [hab] at this
    exact reqStep_names this
  obtain ⟨-, h⟩ := joinActs_ok h
  obtain ⟨s1, h1, h⟩ := foldActs_cons_ok h
  obtain ⟨s2, h2, h⟩ := foldActs_cons_ok h
  obtain ⟨s3, h3, h⟩ := foldActs_cons_ok h
  obtain ⟨s4, h4, h⟩ := foldActs_cons_ok h
  cases foldActs_nil_ok h
  simp only [id] at h1 h2 h3 h4
  have n2 := hw (by simp [paramLocations]) h2
  have n3 := hw (by simp [paramLocations]) h3
  have n4 := hw (by simp [paramLocations]) h4
  by_cases hsm : (cu.value env).isSliceOrMap = false
  · obtain ⟨a1, b1, c1⟩ := parseParametersIn_ok h1 hsm
    obtain ⟨a2, b2, c2⟩ := parseParametersIn_ok h2 hsm
    obtain ⟨a3, b3, c3⟩ := parseParametersIn_ok h3 hsm
    obtain ⟨a4, b4, c4⟩ := parseParametersIn_ok h4 hsm
    have efields : paramFields env cu = paramLocations.flatMap fun inn =>
        (topFields ((cu.value env).params inn (cu.fieldMapping inn)).events).map fun c => (inn, c) := by
      rw [paramFields, if_pos ⟨hk, hsm⟩]
    refine ⟨?_, ?_⟩
    · rw [efields]
      simp only [paramLocations, List.flatMap_cons, List.flatMap_nil, List.append_nil]
      exact a1.trans (a2.trans (a3.trans a4))
    · rintro n ⟨-, -, inn, hin, hd⟩
      have hd' : (∃ d, Event.defn n d ∈ ((cu.value env).params inn (cu.fieldMapping inn)).events) ∨
          ∃ c ∈ topFields ((cu.value env).params inn (cu.fieldMapping inn)).events, JSONEncoded c ∧ ∃ d, (n, d) ∈ c.inner.1 := by
        refine hd.imp id ?_
        rintro ⟨c, hc, hr⟩
        rw [efields] at hc
        simp only [List.mem_flatMap, List.mem_map] at hc
        obtain ⟨i, -, c', hc', e⟩ := hc
        cases e
        exact ⟨c, hc', hr⟩
      simp only [paramLocations, List.mem_cons, List.not_mem_nil, or_false] at hin
      rcases hin with rfl | rfl | rfl | rfl
      · refine n4 n (n3 n (n2 n ?_))
        rcases hd' with ⟨d, hd'⟩ | ⟨c, hc, hj, d, hd'⟩
        · exact b1 n d hd'
        · exact c1 c hc hj n d hd'
      · refine n4 n (n3 n ?_)
        rcases hd' with ⟨d, hd'⟩ | ⟨c, hc, hj, d, hd'⟩
        · exact b2 n d hd'
        · exact c2 c hc hj n d hd'
      · refine n4 n ?_
        rcases hd' with ⟨d, hd'⟩ | ⟨c, hc, hj, d, hd'⟩
        · exact b3 n d hd'
        · exact c3 c hc hj n d hd'
      · rcases hd' with ⟨d, hd'⟩ | ⟨c, hc, hj, d, hd'⟩
        · exact b4 n d hd'
        · exact c4 c hc hj n d hd'
  · simp only [Bool.not_eq_false] at hsm
    simp only [parseParametersIn, input_eq, hsm, if_true] at h1 h2 h3 h4
    cases h1; cases h2; cases h3; cases h4
    refine ⟨?_, ?_⟩
    · rw [paramFields, if_neg (by simp [hsm])]
      exact .nil rfl
    · rintro n ⟨-, hno, -⟩
      rw [hsm] at hno; cases hno

end Verif
