import Verif.Spec.ConformInput
import Verif.Lemmas.Success
import Verif.Props.Response

/-! Reflection keeps operations in order. -/

namespace Verif.Conform
variable {S σ : Type}

/-- The action keeps an invariant, whatever its outcome. -/
def Keeps (P : σ → Prop) (a : Act σ) : Prop := ∀ s, P s → P (a s).1

theorem Keeps.within {P : σ → Prop} {a : Act σ} (h : Keeps P a) : Within (fun s s' => P s → P s') a :=
  fun s => .one (h s)

theorem Keeps.of_within {P : σ → Prop} {a : Act σ} (h : Within (fun s s' => P s → P s') a) : Keeps P a :=
  fun s hs => (h s).inv (P := P) (fun _ _ h => h) hs

theorem keeps_join {P : σ → Prop} {as : List (Act σ)} (h : ∀ a ∈ as, Keeps P a) (errs : List (Option String)) :
    Keeps P (joinActs as errs) := .of_within (joinActs_within (fun a ha => (h a ha).within) errs)

theorem keeps_events {P : σ → Prop} (env : Env S) {onProp : PropCall S → Act σ} {onDef : String → JS → Act σ}
    (es : List (Event S)) (hp : ∀ c, Event.prop c ∈ es → Keeps P (onProp c))
    (hd : ∀ n d, Event.defn n d ∈ es → Keeps P (onDef n d)) : Keeps P (runEvents env onProp onDef es) :=
  .of_within (runEvents_within env es (fun c hc => (hp c hc).within) (fun n d h => (hd n d h).within))

theorem keeps_fold {α : Type} {P : σ → Prop} (f : α → Act σ) (xs : List α) (h : ∀ x ∈ xs, Keeps P (f x)) :
    Keeps P (foldActs f xs) := .of_within (foldActs_within f xs (fun x hx => (h x hx).within))

/-! ## Maps -/

theorem keys_set {V : Type} {m : GoMap V} (h : Keys m) (k : String) (v : V) : Keys (m.set k v) := GoMap.wf_set h k v

theorem forall_set {V : Type} {m : GoMap V} {P : String → V → Prop} (h : ∀ k v, (k, v) ∈ m → P k v) {k : String} {v : V}
    (hv : P k v) : ∀ k' v', (k', v') ∈ m.set k v → P k' v' := by
  intro k' v' hm
  rcases GoMap.mem_set hm with e | hm
  · cases e; exact hv
  · exact h _ _ hm

theorem contentOk_set {Sc : Role → S → Prop} {m : GoMap (MediaType S)} (h : ContentOk Sc m) {k : String} {mt : MediaType S}
    (hm : MediaOk Sc mt) : ContentOk Sc (m.set k mt) :=
  ⟨keys_set h.1 k mt, forall_set (P := fun _ mt => MediaOk Sc mt) h.2 hm⟩

theorem set_ne_nil {V : Type} (m : GoMap V) (k : String) (v : V) : m.set k v ≠ [] := by
  intro e
  have := GoMap.get?_set_self m k v
  rw [e] at this
  cases this

theorem mediaOk_of {Sc : Role → S → Prop} {s : S} (h : Sc .content s) : MediaOk Sc ({ schema := some s } : MediaType S) :=
  ⟨rfl, fun s' e => by cases e; exact h⟩

/-- The component schemas are in order. -/
def SchemasOk (Sc : Role → S → Prop) (m : GoMap S) : Prop := Keys m ∧ ∀ k s, (k, s) ∈ m → IsName k ∧ Sc .content s

theorem schemasOk_set {Sc : Role → S → Prop} {m : GoMap S} (h : SchemasOk Sc m) {k : String} {s : S} (hk : IsName k) (hs : Sc .content s) :
    SchemasOk Sc (m.set k s) := ⟨keys_set h.1 k s, forall_set (P := fun k s => IsName k ∧ Sc .content s) h.2 ⟨hk, hs⟩⟩

variable {pl : Places} {Js : Role → JS → Prop} {Sc : Role → S → Prop} {key : String → Prop} {v : Ver S} {env : Env S}

/-! ## Definitions -/

theorem keeps_collect (hC : Translates v Js Sc) {n : String} {d : JS} (h : DefinitionOk Js n d) :
    Keeps (SchemasOk Sc) (collectDefinition v n d) := by
  intro m hm
  simp only [collectDefinition]
  split
  · exact hm
  · split
    · rename_i s hs
      exact schemasOk_set hm h.1 (hC.plain _ _ _ h.2 hs)
    · exact hm

theorem keeps_collects (hC : Translates v Js Sc) {ds : List (String × JS)} (h : ∀ n d, (n, d) ∈ ds → DefinitionOk Js n d) :
    Keeps (SchemasOk Sc) (collectDefinitions v ds) := by
  induction ds with
  | nil => exact fun m hm => hm
  | cons x ds ih =>
    obtain ⟨n, d⟩ := x
    intro m hm
    have h1 := keeps_collect hC (h n d (by simp)) m hm
    have ih := ih (fun n d h' => h n d (by simp [h']))
    simp only [collectDefinitions]
    split
    · rename_i m' h'
      rw [h'] at h1
      exact ih m' h1
    · exact h1

theorem keeps_bodyDefinitions (hC : Translates v Js Sc) {ds : List (String × JS)}
    (h : ∀ n d, (n, d) ∈ ds → DefinitionOk Js n d) : Keeps (SchemasOk Sc) (addBodyDefinitions v ds) := by
  induction ds with
  | nil => exact fun m hm => hm
  | cons x ds ih =>
    obtain ⟨n, d⟩ := x
    intro m hm
    have ih := ih (fun n d h' => h n d (by simp [h']))
    have hd := h n d (by simp)
    simp only [addBodyDefinitions]
    split
    · rename_i s hs
      exact ih _ (schemasOk_set hm hd.1 (hC.plain _ _ _ hd.2 hs))
    · exact hm
    · exact hm

/-! ## Requests -/

/-- The state of request processing is in order, and the request body is no reference. -/
structure ReqOk (pl : Places) (Sc : Role → S → Prop) (key : String → Prop) (s : ReqState S) : Prop where
  schemas : SchemasOk Sc s.schemas
  op : OperationOk pl Sc key s.op
  inline : ∀ b, s.op.requestBody = some b → b.ref = none

theorem ReqOk.withSchemas {s : ReqState S} (h : ReqOk pl Sc key s) {m : GoMap S} (hm : SchemasOk Sc m) :
    ReqOk pl Sc key { s with schemas := m } := ⟨hm, h.op, h.inline⟩

theorem ReqOk.inlineBody {s : ReqState S} (h : ReqOk pl Sc key s) {b : RequestBodyOrRef S}
    (hb : s.op.requestBody = some b) : ∃ r, b = { body := some r } ∧ BodyOk Sc r := by
  have h1 := h.inline b hb
  rcases h.op.body b hb with ⟨r, e, _⟩ | ⟨r, _, e, hr⟩
  · rw [h1] at e; cases e
  · refine ⟨r, ?_, hr⟩
    cases b
    simp_all

theorem reqOk_content {s : ReqState S} (h : ReqOk pl Sc key s) (mime : String) {mt : MediaType S} (hm : MediaOk Sc mt) :
    ReqOk pl Sc key { s with op := setRequestContent mime mt s.op } := by
  have hb : ∃ b : RequestBody S, (setRequestContent mime mt s.op).requestBody = some { body := some b } ∧ BodyOk Sc b := by
    cases hr : s.op.requestBody with
    | none =>
      refine ⟨_, by simp only [setRequestContent, hr, Option.getD_none]; rfl, set_ne_nil _ _ _, contentOk_set ?_ hm⟩
      exact ⟨by simp [Keys], by simp⟩
    | some b =>
      obtain ⟨r, rfl, hr'⟩ := h.inlineBody hr
      exact ⟨_, by simp only [setRequestContent, hr, Option.getD_some]; rfl, set_ne_nil _ _ _, contentOk_set hr'.2 hm⟩
  obtain ⟨b, hb, hbo⟩ := hb
  refine ⟨h.schemas, ⟨h.op.parameters, ?_, h.op.default, h.op.codeKeys, h.op.codes, h.op.extKeys, h.op.ext⟩, ?_⟩
  · intro b' hb'
    rw [hb] at hb'
    cases hb'
    exact .inr ⟨b, rfl, rfl, hbo⟩
  · intro b' hb'
    rw [hb] at hb'
    cases hb'
    rfl

theorem keeps_string (hC : Translates v Js Sc) (mime format : String) :
    Keeps (ReqOk pl Sc key) (stringRequestBody v mime format) := by
  intro s hs
  simp only [stringRequestBody]
  split
  · rename_i sch h
    exact reqOk_content hs mime (mediaOk_of (hC.plain _ _ _ (hC.text format) h))
  · exact hs

theorem reflected_result {cu : ContentUnit S} {method tag : String} {mapping : GoMap String} {tags : List String}
    {sch : JS} {defs : List (String × JS)} {files : Bool}
    (h : reflectRequestBody env cu method mapping tag tags = .ok (some ((sch, defs), files))) :
    ((cu.value env).body tag mapping).result = .ok (sch, defs) := by
  simp only [reflectRequestBody, input_eq] at h
  repeat' split at h
  all_goals first | cases h | skip
  all_goals assumption

theorem keeps_body (hC : Translates v Js Sc) {cu : ContentUnit S} {method mime tag : String} {mapping : GoMap String}
    {tags : List String} (h : ∀ r, reflectRequestBody env cu method mapping tag tags = .ok (some r) →
      BodyReflectionOk Js ((cu.value env).body tag mapping)) :
    Keeps (ReqOk pl Sc key) (parseRequestBody v env cu method mime mapping tag tags) := by
  intro s hs
  simp only [parseRequestBody]
  split
  · exact hs
  · exact hs
  · rename_i sch defs files hr
    obtain ⟨h1, h2⟩ := h _ hr _ _ (reflected_result hr)
    split
    · exact hs
    · exact hs
    · rename_i sc hsc
      have hm := keeps_bodyDefinitions hC h2 s.schemas hs.schemas
      split <;> rename_i m hm' <;> rw [hm'] at hm
      · exact hs.withSchemas hm
      · exact hs.withSchemas hm
      · exact reqOk_content (hs.withSchemas hm) _ (mediaOk_of (hC.plain _ _ _ h1 hsc))

theorem keeps_raw (hC : Translates v Js Sc) (cu : ContentUnit S) :
    Keeps (ReqOk pl Sc key) (parseRawRequestBody v cu) := by
  intro s hs
  simp only [parseRawRequestBody]
  split
  · exact hs
  · exact keeps_fold _ _ (fun tag _ => keeps_string hC tag "") s hs

theorem keeps_build (hC : Translates v Js Sc) {inn : String} {c : PropCall S} (h : ParamFieldOk pl Js inn c) {m : GoMap S}
    (hm : SchemasOk Sc m) : SchemasOk Sc (buildParameter v inn c m).1 := by
  simp only [buildParameter]
  split
  · exact hm
  · exact hm
  · split
    · rename_i hj
      have hj := h.content ((jsonEncoded_iff c).mp hj)
      have h1 := keeps_collects hC hj.2 m hm
      split <;> rename_i m' h' <;> rw [h'] at h1
      · repeat' split
        all_goals exact h1
      · exact h1
    · repeat' split
      all_goals exact hm

theorem paramOk_of (hC : Translates v Js Sc) {inn : String} (hi : inn ∈ ["path", "query", "header", "cookie"])
    {c : PropCall S} (h : ParamFieldOk pl Js inn c) {p q : Parameter S} (hp : BuiltParam v inn c p)
    (hq : c.populate p = .ok q) : ParamOk pl Sc (finalParam inn q) := by
  obtain ⟨h0, h2, _, _, _, hs, hn, hj⟩ := hp
  obtain ⟨t0, t1, t2, t3, t4, t5⟩ := h.tags p q hq h0
  have f0 : (finalParam inn q).name = q.name := by unfold finalParam; split <;> rfl
  have f1 : (finalParam inn q).inn = inn := by unfold finalParam; split <;> simp [t1, h2]
  have f2 : (finalParam inn q).style = q.style := by unfold finalParam; split <;> rfl
  have f3 : (finalParam inn q).schema = p.schema := by unfold finalParam; split <;> exact t2
  have f4 : (finalParam inn q).content = p.content := by unfold finalParam; split <;> exact t3
  have f5 : (finalParam inn q).explode = q.explode := by unfold finalParam; split <;> rfl
  have hst : ∀ st, p.style = some st → st ∈ pl.styles inn := by
    intro st e
    by_cases ho : ¬ JSONEncoded c ∧ c.inlined = .ok true
    · rw [(hs.1 ho).1] at e
      cases e
      exact h.object ho.1 ho.2
    · by_cases hc : ∃ style explode, (c.collectionFormat, style, explode) ∈ collectionStyles
      · obtain ⟨style, explode, hc⟩ := hc
        rw [((hs.2 ho).1 _ _ hc).1] at e
        cases e
        exact (h.style _ _ hc).1
      · rw [((hs.2 ho).2 (fun a b hab => hc ⟨a, b, hab⟩)).1] at e
        cases e
  refine ⟨by rw [f1]; exact hi, ?_, ?_, by rw [f0, f1]; exact t0, ?_, ?_⟩
  · rw [f1]
    intro e
    simp [finalParam, e]
  · rw [f1, f2]
    intro st e
    rcases t4 with t4 | ⟨st', h', e'⟩
    · exact hst st (by rw [← t4]; exact e)
    · rw [e'] at e
      cases e
      rw [h2] at h'
      exact h'
  · rw [f3, f4]
    by_cases hJ : JSONEncoded c
    · obtain ⟨e, js, sc, h1, h3, h4⟩ := hj hJ
      exact .inr ⟨e, _, _, h4, mediaOk_of (hC.plain _ _ _ ((h.content hJ).1 js h1) h3)⟩
    · obtain ⟨e, sc, h1, h3⟩ := hn hJ
      exact .inl ⟨_, h3, hC.param _ _ (hC.plain _ _ _ (h.schema hJ) h1), e⟩
  · rw [f2, f4, f5]
    intro hne
    obtain ⟨e1, e2⟩ := t5 hne
    rw [e1, e2]
    have hJ : JSONEncoded c := Classical.byContradiction fun hJ => hne (hn hJ).1
    exact (hs.2 (fun ho => ho.1 hJ)).2 (fun a b hab => (h.style a b hab).2 hJ)

theorem keeps_parameter (hC : Translates v Js Sc) {inn : String} (hi : inn ∈ ["path", "query", "header", "cookie"])
    {c : PropCall S} (h : c.processed = true ∧ c.pathLen ≤ 1 → ParamFieldOk pl Js inn c) :
    Keeps (ReqOk pl Sc key) (onParameter v inn c) := by
  intro s hs
  simp only [onParameter]
  split
  · exact hs
  · rename_i hg
    have h := h (by
      simp only [Bool.or_eq_true, Bool.not_eq_true', decide_eq_true_eq, not_or, Bool.not_eq_false] at hg
      exact ⟨hg.1, by omega⟩)
    have h1 := keeps_build hC h hs.schemas (m := s.schemas)
    split
    · rename_i m p hb
      rw [hb] at h1
      split
      · exact hs.withSchemas h1
      · rename_i q hq
        split
        · exact hs.withSchemas h1
        · refine ⟨h1, ⟨?_, hs.op.body, hs.op.default, hs.op.codeKeys, hs.op.codes, hs.op.extKeys, hs.op.ext⟩, hs.inline⟩
          intro p' hp'
          rcases List.mem_append.1 hp' with hp' | hp'
          · exact hs.op.parameters p' hp'
          · cases List.mem_singleton.1 hp'
            exact .inr ⟨_, rfl, rfl, paramOk_of hC hi h (buildParameter_ok hb).1 hq⟩
    · rename_i m out o hb
      rw [hb] at h1
      exact hs.withSchemas h1

theorem keeps_reqDefinition (hC : Translates v Js Sc) {n : String} {d : JS} (h : DefinitionOk Js n d) :
    Keeps (ReqOk pl Sc key) (onReqDefinition v n d) := by
  intro s hs
  exact hs.withSchemas (keeps_collect hC h s.schemas hs.schemas)

theorem forbid_prefix (inn : String) : "x-".toList <+: ("x-forbid-unknown-" ++ inn).toList :=
  ⟨"forbid-unknown-".toList ++ inn.toList, by rw [String.toList_append]; rfl⟩

theorem keeps_parametersIn (hC : Translates v Js Sc) {method : String} {cu : ContentUnit S} (h : RequestUnitOk pl Js env method cu)
    (hp : ReflectsParams cu) {inn : String} (hi : inn ∈ paramLocations) :
    Keeps (ReqOk pl Sc key) (parseParametersIn v env cu inn) := by
  intro s hs
  simp only [parseParametersIn, input_eq]
  split
  · exact hs
  · rename_i hsm
    have hi' : inn ∈ ["path", "query", "header", "cookie"] := by
      simp only [paramLocations, List.mem_cons, List.not_mem_nil, or_false] at hi
      rcases hi with rfl | rfl | rfl | rfl <;> simp
    have h1 := keeps_events (P := ReqOk pl Sc key) env (onProp := onParameter v inn) (onDef := onReqDefinition v)
      ((cu.value env).params inn (cu.fieldMapping inn)).events
      (fun c hc => keeps_parameter hC hi' fun ht => h.fields inn c (by
        simp only [paramFields, hp, Bool.not_eq_true] at hsm ⊢
        rw [if_pos ⟨trivial, hsm⟩]
        refine List.mem_flatMap.2 ⟨inn, hi, List.mem_map.2 ⟨c, ?_, rfl⟩⟩
        exact List.mem_filterMap.2 ⟨_, hc, by simp only [if_pos ht]⟩))
      (fun n d hd => keeps_reqDefinition hC (h.definitions hp (by simpa using hsm) inn hi n d hd)) s hs
    split
    · rename_i s' hr
      rw [hr] at h1
      split
      · exact h1
      · split
        · refine ⟨h1.schemas, ⟨h1.op.parameters, h1.op.body, h1.op.default, h1.op.codeKeys, h1.op.codes,
            keys_set h1.op.extKeys _ _, ?_⟩, h1.inline⟩
          exact forall_set (P := fun k _ => "x-".toList <+: k.toList) h1.op.ext (forbid_prefix inn)
        · exact h1
    · exact h1

theorem keeps_parameters (hC : Translates v Js Sc) {method : String} {cu : ContentUnit S} (h : RequestUnitOk pl Js env method cu)
    (hp : ReflectsParams cu) : Keeps (ReqOk pl Sc key) (parseParameters v env cu) := by
  refine keeps_join ?_ []
  intro a ha
  simp only [List.mem_cons, List.not_mem_nil, or_false] at ha
  rcases ha with rfl | rfl | rfl | rfl
  all_goals exact keeps_parametersIn hC h hp (by simp [paramLocations])

theorem keeps_unit (hC : Translates v Js Sc) {method : String} {cu : ContentUnit S} (h : RequestUnitOk pl Js env method cu) :
    Keeps (ReqOk pl Sc key) (reflectUnit v env method cu) := by
  intro s hs
  have hform (ht : TakesForm cu) : Keeps (ReqOk pl Sc key) (parseRequestBody v env cu method "application/x-www-form-urlencoded"
    (cu.fieldMapping "formData") "formData" ["form"]) := 
      keeps_body hC fun _ hr => h.form ht (form_some hr)
  have hjson (ht : TakesJSON cu) : Keeps (ReqOk pl Sc key) (parseRequestBody v env cu method "application/json" [] "json" []) :=
    keeps_body hC fun _ hr => h.json ht (json_some hr)
  simp only [reflectUnit]
  split
  · rename_i hc
    have hp := keeps_parameters (key := key) hC h (by simp [ReflectsParams, hc])
    have h1 := keeps_join (P := ReqOk pl Sc key) (as := [parseRequestBody v env cu method
      "application/x-www-form-urlencoded" (cu.fieldMapping "formData") "formData" ["form"], parseParameters v env cu,
      parseRequestBody v env cu method "application/json" [] "json" []]) (by
        intro a ha
        simp only [List.mem_cons, List.not_mem_nil, or_false] at ha
        rcases ha with rfl | rfl | rfl
        · exact (hform (by simp [TakesForm, hc]))
        · exact hp
        · exact (hjson (by simp [TakesJSON, hc]))) [] s hs
    split
    · rename_i s' hr
      rw [hr] at h1
      exact keeps_raw hC cu s' h1
    · exact h1
  · split
    · rename_i hc
      have hp := keeps_parameters (key := key) hC h (by simp [ReflectsParams, hc])
      refine keeps_join ?_ [] s hs
      intro a ha
      simp only [List.mem_cons, List.not_mem_nil, or_false] at ha
      rcases ha with rfl | rfl
      · exact hp
      · exact (hjson (by simp [TakesJSON, hc]))
    · split
      · rename_i hc
        have hp := keeps_parameters (key := key) hC h (by rcases hc with hc | hc <;> simp [ReflectsParams, hc])
        refine keeps_join ?_ [] s hs
        intro a ha
        simp only [List.mem_cons, List.not_mem_nil, or_false] at ha
        rcases ha with rfl | rfl
        · exact (hform (by rcases hc with hc | hc <;> simp [TakesForm, hc]))
        · exact hp
      · exact keeps_string hC _ _ s hs

/-- The operation with a description of its request body. -/
theorem finish_body {s : ReqState S} (h : ReqOk pl Sc key s) (cu : ContentUnit S) :
    (s.op.requestBody = none ∧ finishRequest cu s.op = s.op) ∨
    ∃ b, BodyOk Sc b ∧ ∃ rb, finishRequest cu s.op = { s.op with requestBody := some rb } ∧
      ((cu.customize = none ∧ rb = { body := some b }) ∨ ∃ f, cu.customize = some f ∧ rb = f.req { body := some b }) := by
  cases hb : s.op.requestBody with
  | none =>
    refine .inl ⟨rfl, ?_⟩
    simp only [finishRequest, hb]
    split
    · rename_i f rb hc e
      cases e
    · rfl
  | some b =>
    obtain ⟨r, rfl, hr⟩ := h.inlineBody hb
    refine .inr ?_
    simp only [finishRequest, hb]
    by_cases hd : cu.description ≠ ""
    · simp only [if_pos hd]
      refine ⟨{ r with description := some cu.description }, hr, ?_⟩
      cases hc : cu.customize with
      | none => exact ⟨_, rfl, .inl ⟨rfl, rfl⟩⟩
      | some f => exact ⟨_, rfl, .inr ⟨f, rfl, rfl⟩⟩
    · simp only [if_neg hd]
      refine ⟨r, hr, ?_⟩
      cases hc : cu.customize with
      | none => exact ⟨_, by rw [← hb], .inl ⟨rfl, rfl⟩⟩
      | some f => rw [hb]; exact ⟨_, rfl, .inr ⟨f, rfl, rfl⟩⟩

/-- The outcome of request processing: in order, whether the body is a reference or not. -/
structure ReqDone (pl : Places) (Sc : Role → S → Prop) (key : String → Prop) (s : ReqState S) : Prop where
  schemas : SchemasOk Sc s.schemas
  op : OperationOk pl Sc key s.op

theorem ReqOk.done {s : ReqState S} (h : ReqOk pl Sc key s) : ReqDone pl Sc key s := ⟨h.schemas, h.op⟩

theorem reqDone_finish {s : ReqState S} (h : ReqOk pl Sc key s) {cu : ContentUnit S}
    (hf : ∀ f, cu.customize = some f → ∀ b, BodyOk Sc b →
      RefOr (BodyOk Sc) (f.req { body := some b }).ref (f.req { body := some b }).body) :
    ReqDone pl Sc key { s with op := finishRequest cu s.op } := by
  refine ⟨h.schemas, ?_⟩
  rcases finish_body h cu with ⟨_, e⟩ | ⟨b, hb, rb, e, h2⟩
  · show OperationOk pl Sc key (finishRequest cu s.op)
    rw [e]; exact h.op
  · show OperationOk pl Sc key (finishRequest cu s.op)
    rw [e]
    refine ⟨h.op.parameters, ?_, h.op.default, h.op.codeKeys, h.op.codes, h.op.extKeys, h.op.ext⟩
    intro b' hb'
    cases hb'
    rcases h2 with ⟨_, rfl⟩ | ⟨f, hc, rfl⟩
    · exact .inr ⟨b, rfl, rfl, hb⟩
    · exact hf f hc b hb

theorem inline_finish {s : ReqState S} (h : ReqOk pl Sc key s) {cu : ContentUnit S}
    (hf : ∀ f, cu.customize = some f → ∀ b, BodyOk Sc b → (f.req { body := some b }).ref = none) :
    ∀ b, (finishRequest cu s.op).requestBody = some b → b.ref = none := by
  rcases finish_body h cu with ⟨e0, e⟩ | ⟨b, hb, rb, e, h2⟩
  · rw [e, e0]; intro b hb; cases hb
  · rw [e]
    intro b' hb'
    cases hb'
    rcases h2 with ⟨_, rfl⟩ | ⟨f, hc, rfl⟩
    · rfl
    · exact hf f hc b hb

theorem requests_done (hC : Translates v Js Sc) {method : String} {cus : List (ContentUnit S)}
    (h : RequestsOk pl Js Sc env method cus) (s : ReqState S) (hs : ReqOk pl Sc key s) :
    ReqDone pl Sc key (setupRequest v env method cus s).1 := by
  induction cus generalizing s with
  | nil => exact hs.done
  | cons cu cus ih =>
    obtain ⟨h1, h2, h3⟩ := h
    have hu := keeps_unit (key := key) (method := method) hC h1 s hs
    simp only [setupRequest]
    split
    · rename_i s' hr
      rw [hr] at hu
      have hd := reqDone_finish hu (fun f hf b hb => (h2 f hf b hb).1)
      by_cases hc : cus = []
      · subst hc
        exact hd
      · exact ih h3 _ ⟨hd.schemas, hd.op, inline_finish hu (fun f hf b hb => (h2 f hf b hb).2 hc)⟩
    · rename_i hr
      exact hu.done

/-! ## Responses -/

/-- The state of response processing is in order. -/
structure RespOk (Sc : Role → S → Prop) (s : RespState S) : Prop where
  schemas : SchemasOk Sc s.schemas
  resp : ResponseOk Sc s.resp

theorem responseOk_describe {r : Response S} (h : ResponseOk Sc r) (js : JS) : ResponseOk Sc (describeFrom js r) := by
  unfold describeFrom
  split
  · split
    · exact ⟨h.headerKeys, h.headers, h.content⟩
    · exact h
  · exact h

theorem responseOk_content {r : Response S} (h : ResponseOk Sc r) {ct : String} {mt : MediaType S} (hm : MediaOk Sc mt) :
    ResponseOk Sc { r with content := r.content.set ct mt } := ⟨h.headerKeys, h.headers, contentOk_set h.content hm⟩

theorem keeps_json (hC : Translates v Js Sc) {method : String} (hm : ¬ MethodIs method "head") {cu : ContentUnit S}
    (h : ResponseUnitOk Js Sc key env method cu) :
    Keeps (RespOk Sc) (parseJSONResponse v env cu) := by
  intro s hs
  simp only [parseJSONResponse]
  split
  · exact hs
  · rename_i refl hr
    obtain ⟨value, hst, hno, rfl⟩ := (reflectJSON_iff env cu refl).1 hr
    have hv : RespondsJSON env method cu value := ⟨hm, hst, hno⟩
    have h1 := keeps_events (P := RespOk Sc) env (onProp := fun _ s => (s, .ok)) (onDef := onRespDefinition v)
      value.response.events (fun _ _ s hs => hs)
      (fun n d hd s hs => ⟨keeps_collect hC (h.definitions value hv n d hd) s.schemas hs.schemas, hs.resp⟩) s hs
    split
    · rename_i s' hr
      rw [hr] at h1
      split
      · exact h1
      · rename_i js hjs
        split
        · exact h1
        · exact h1
        · rename_i sc hsc
          refine ⟨h1.schemas, responseOk_describe (responseOk_content h1.resp ?_) js⟩
          have hsc := hC.resp _ (hC.plain _ _ _ (h.body value hv js hjs) hsc)
          refine ⟨?_, fun s' e => by cases e; exact hsc⟩
          cases hg : GoMap.get? s'.resp.content (if cu.contentType = "" then "application/json" else cu.contentType) with
          | none => rfl
          | some mt => exact (h1.resp.content.2 _ mt (GoMap.mem_of_get? hg)).1
    · exact h1

theorem keeps_header (hC : Translates v Js Sc) {c : PropCall S} (h : c.processed = true ∧ c.pathLen ≤ 1 →
    Js .value c.schema ∧ ∀ h h' : Header S, c.populateHeader h = .ok h' → h'.schema = h.schema) :
    Keeps (fun m => Keys m ∧ ∀ k h, (k, h) ∈ m → RefOr (HeaderOk Sc) h.ref h.header) (onHeader v c) := by
  intro m hm
  simp only [onHeader]
  split
  · exact hm
  · rename_i hg
    obtain ⟨h1, h2⟩ := h (by
      simp only [Bool.or_eq_true, Bool.not_eq_true', decide_eq_true_eq, not_or, Bool.not_eq_false] at hg
      exact ⟨hg.1, by omega⟩)
    split
    · exact hm
    · exact hm
    · rename_i sch hsc
      split
      · exact hm
      · split
        · exact hm
        · rename_i h' hp
          refine ⟨keys_set hm.1 _ _, forall_set (P := fun _ (h : HeaderOrRef S) => RefOr (HeaderOk Sc) h.ref h.header) hm.2 ?_⟩
          exact .inr ⟨h', rfl, rfl, sch, h2 _ _ hp, hC.plain _ _ _ h1 hsc⟩

theorem keeps_headers (hC : Translates v Js Sc) {method : String} {cu : ContentUnit S}
    (h : ResponseUnitOk Js Sc key env method cu) :
    Keeps (RespOk Sc) (parseResponseHeader v env cu) := by
  intro s hs
  simp only [parseResponseHeader]
  split
  · exact hs
  · rename_i value hv
    have h1 := keeps_events env (onProp := onHeader v) (onDef := fun _ _ s => (s, .ok))
      (value.headers (cu.fieldMapping "header")).events
      (P := fun m => Keys m ∧ ∀ k h, (k, h) ∈ m → RefOr (HeaderOk Sc) h.ref h.header)
      (fun c hc => keeps_header hC fun ht => h.headers value hv c (List.mem_filterMap.2 ⟨_, hc, by simp only [if_pos ht]⟩))
      (fun _ _ _ s hs => hs) [] ⟨by simp [Keys], by simp⟩
    split
    · rename_i res hr
      rw [hr] at h1
      split
      · exact hs
      · exact ⟨hs.schemas, responseOk_describe (r := { s.resp with headers := res }) ⟨h1.1, h1.2, hs.resp.content⟩ _⟩
    · exact hs

theorem keeps_ensure (hC : Translates v Js Sc) (ct format : String) :
    Keeps (RespOk Sc) (ensureResponseContentType v ct format) := by
  intro s hs
  simp only [ensureResponseContentType]
  split
  · exact hs
  · split
    · rename_i sch h
      exact ⟨hs.schemas, responseOk_content hs.resp (mediaOk_of (hC.plain _ _ _ (hC.text format) h))⟩
    · exact hs

theorem keeps_rawTag (hC : Translates v Js Sc) (tag : String) : Keeps (RespOk Sc) (rawResponseTag v tag) := by
  intro s hs
  simp only [rawResponseTag]
  split
  · split
    · rename_i sch h
      exact ⟨hs.schemas, responseOk_content hs.resp (mediaOk_of (hC.plain _ _ _ (hC.text "") h))⟩
    · exact hs
  · exact keeps_ensure hC tag "" s hs

theorem keeps_rawResponse (hC : Translates v Js Sc) (cu : ContentUnit S) : Keeps (RespOk Sc) (parseRawResponseBody v cu) := by
  intro s hs
  simp only [parseRawResponseBody]
  split
  · exact hs
  · exact keeps_fold _ _ (fun tag _ => keeps_rawTag hC tag) s hs

theorem keeps_response (hC : Translates v Js Sc) {method : String} {cu : ContentUnit S}
    (h : ResponseUnitOk Js Sc key env method cu) : Keeps (RespOk Sc) (reflectResponse v env method cu) := by
  intro s hs
  simp only [reflectResponse]
  split
  · have h1 := keeps_join (P := RespOk Sc) (as := [parseJSONResponse v env cu, parseResponseHeader v env cu]) (by
      intro a ha
      simp only [List.mem_cons, List.not_mem_nil, or_false] at ha
      rcases ha with rfl | rfl
      · exact keeps_json hC (by rename_i hne; exact mt (upper_head method).mpr hne) h
      · exact keeps_headers hC h) [] s hs
    split
    · rename_i s' hr
      rw [hr] at h1
      have h2 := keeps_rawResponse hC cu s' h1
      split
      · rename_i s'' hr'
        rw [hr'] at h2
        split
        · exact keeps_ensure hC _ _ _ h2
        · exact h2
      · exact h2
    · exact h1
  · exact keeps_headers hC h s hs

theorem unitOk_normalise {method : String} {cu : ContentUnit S} (h : ResponseUnitOk Js Sc key env method cu) :
    ResponseUnitOk Js Sc (fun _ => True) env method (normaliseUnit cu) :=
  ⟨fun _ _ => trivial, h.body, h.definitions, h.headers, h.customize⟩

theorem slotOk {op : Operation S} (h : OperationOk pl Sc key op) {p : Option String} {r : ResponseOrRef S}
    (hr : responseIn op p = some r) : RefOr (ResponseOk Sc) r.ref r.response := by
  cases p with
  | none => exact h.default r hr
  | some k => exact (h.codes k r (GoMap.mem_of_get? hr)).2

theorem finishResponse_ok {cu : ContentUnit S} (hf : ∀ f, cu.customize = some f → ∀ r, ResponseOk Sc r →
    RefOr (ResponseOk Sc) (f.resp { response := some r }).ref (f.resp { response := some r }).response) {r : Response S}
    (h : ResponseOk Sc r) : RefOr (ResponseOk Sc) (finishResponse cu r).ref (finishResponse cu r).response := by
  have key : ∀ r', r'.headers = r.headers → r'.content = r.content → ResponseOk Sc r' := by
    intro r' e1 e2
    exact ⟨by rw [e1]; exact h.headerKeys, by rw [e1]; exact h.headers, by rw [e2]; exact h.content⟩
  unfold finishResponse
  dsimp only
  split
  · rename_i f hc
    exact hf f hc _ (key _ (by repeat' split
                               all_goals rfl) (by repeat' split
                                                  all_goals rfl))
  · exact .inr ⟨_, rfl, rfl, key _ (by repeat' split
                                       all_goals rfl) (by repeat' split
                                                          all_goals rfl)⟩

theorem operationOk_slot {op : Operation S} (h : OperationOk pl Sc key op) {cu : ContentUnit S}
    (hk : ∀ k, placeOf cu = some k → key k) {r : ResponseOrRef S} (hr : RefOr (ResponseOk Sc) r.ref r.response) :
    OperationOk pl Sc key (setRespSlot (normaliseUnit cu) r op) := by
  unfold setRespSlot
  rw [normaliseUnit_default]
  cases hd : cu.isDefault
  · have hp : placeOf cu = some (statusKey (normaliseUnit cu).httpStatus) := by
      simp only [placeOf, hd, Bool.false_eq_true, if_false, normaliseUnit_status cu hd, statusKey_eq]
      split <;> rfl
    refine ⟨h.parameters, h.body, h.default, keys_set h.codeKeys _ _, ?_, h.extKeys, h.ext⟩
    exact forall_set (P := fun k (r : ResponseOrRef S) => key k ∧ RefOr (ResponseOk Sc) r.ref r.response) h.codes
      ⟨hk _ hp, hr⟩
  · refine ⟨h.parameters, h.body, ?_, h.codeKeys, h.codes, h.extKeys, h.ext⟩
    intro r' e
    cases e
    exact hr

theorem responses_done (hC : Translates v Js Sc) {method : String} {cus : List (ContentUnit S)}
    (h : ∀ cu ∈ cus, ResponseUnitOk Js Sc key env method cu) (s : ReqState S) (hs : ReqDone pl Sc key s) :
    SchemasOk Sc (setupResponse v env method cus s).1.schemas ∧
    ((setupResponse v env method cus s).2 = .ok → OperationOk pl Sc key (setupResponse v env method cus s).1.op) := by
  induction cus generalizing s with
  | nil => exact ⟨hs.schemas, fun _ => hs.op⟩
  | cons cu cus ih =>
    have hcu := h cu (by simp)
    have hold : ResponseOk Sc (((respSlot (normaliseUnit cu) s.op).bind (·.response)).getD {}) := by
      have hemp : ResponseOk Sc ({} : Response S) := ⟨by simp [Keys], by simp, by simp [Keys], by simp⟩
      rw [respSlot_eq]
      cases hr : responseIn s.op (placeOf cu) with
      | none => exact hemp
      | some r =>
        rcases slotOk hs.op hr with ⟨_, _, e⟩ | ⟨a, _, e, ha⟩
        · simp only [Option.bind_some, e]; exact hemp
        · simp only [Option.bind_some, e]; exact ha
    have h1 := keeps_response (env := env) (method := method) hC (unitOk_normalise hcu)
      ⟨s.schemas, ((respSlot (normaliseUnit cu) s.op).bind (·.response)).getD {}⟩ ⟨hs.schemas, hold⟩
    simp only [setupResponse]
    split
    · rename_i r hr
      rw [hr] at h1
      exact ih (fun cu' hc => h cu' (by simp [hc])) _
        ⟨h1.schemas, operationOk_slot hs.op hcu.place (finishResponse_ok (cu := normaliseUnit cu) hcu.customize h1.resp)⟩
    · rename_i r out hno hr
      rw [hr] at h1
      exact ⟨h1.schemas, fun e => absurd e hno⟩

theorem setup_done (hC : Translates v Js Sc) {oc : OpCtx S} (h : ContextOk pl Js Sc key env oc) {m : GoMap S}
    (hm : SchemasOk Sc m) : SchemasOk Sc (setupOC v env oc ⟨m, oc.op⟩).1.schemas ∧
    ((setupOC v env oc ⟨m, oc.op⟩).2 = .ok → OperationOk pl Sc key (setupOC v env oc ⟨m, oc.op⟩).1.op) := by
  have h1 := requests_done (key := key) (method := oc.method) hC h.req ⟨m, oc.op⟩ ⟨hm, h.op, h.inline⟩
  simp only [setupOC]
  split <;> rename_i hr <;> rw [hr] at h1
  · exact ⟨h1.schemas, fun e => by cases e⟩
  · exact ⟨h1.schemas, fun e => by cases e⟩
  · split
    · exact ⟨h1.schemas, fun e => by cases e⟩
    · have h2 := responses_done (env := env) (method := oc.method) hC h.resp _ h1
      split
      · rename_i hr'
        rw [hr'] at h2
        exact ⟨h2.1, fun e => by cases e⟩
      · exact h2

end Verif.Conform
