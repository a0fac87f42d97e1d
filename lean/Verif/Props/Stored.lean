import Verif.Lemmas.Success

/-!
# What a successful reflection of request units stores (C16, C24, C52, C53, C54)
-/

namespace Verif
open ParamSpec
variable {S : Type}

theorem setupRequest_append_ok {v : Ver S} {env : Env S} {method : String} {a b : List (ContentUnit S)}
    {s s' : ReqState S} (h : setupRequest v env method (a ++ b) s = (s', .ok)) :
    ∃ s1, setupRequest v env method a s = (s1, .ok) ∧ setupRequest v env method b s1 = (s', .ok) := by
  induction a generalizing s with
  | nil => exact ⟨s, rfl, h⟩
  | cons cu a ih =>
    obtain ⟨s1, h1, h2⟩ := setupRequest_cons_ok h
    obtain ⟨s2, h3, h4⟩ := ih h2
    refine ⟨s2, ?_, h4⟩
    simp only [setupRequest, h1]
    exact h3

theorem takes_reflects {cu : ContentUnit S} (h : TakesForm cu ∨ TakesJSON cu) : ReflectsParams cu := by
  simp only [TakesForm, TakesJSON, ReflectsParams, List.mem_cons, List.not_mem_nil, or_false] at *
  rcases h with (h | h | h) | h | h <;> simp [h]

theorem takesForm_iff {cu : ContentUnit S} (hk : ReflectsParams cu) : TakesForm cu ↔ cu.contentType ≠ "application/json" := by
  simp only [TakesForm, ReflectsParams, List.mem_cons, List.not_mem_nil, or_false] at *
  rcases hk with h | h | h | h <;> simp [h]

theorem takesJSON_iff {cu : ContentUnit S} : TakesJSON cu ↔ cu.contentType = "" ∨ cu.contentType = "application/json" := by
  simp [TakesJSON]

/-! ## What the parts of `reflectUnit` keep -/

theorem paramsStep_op {v : Ver S} {env : Env S} {cu : ContentUnit S} (s : ReqState S) :
    (parseParameters v env cu s).1.op.requestBody = s.op.requestBody := by
  have hin : ∀ inn (s : ReqState S), (parseParametersIn v env cu inn s).1.op.requestBody = s.op.requestBody := by
    intro inn s
    have hev : ∀ (es : List (Event S)) (s : ReqState S),
        (runEvents env (onParameter v inn) (onReqDefinition v) es s).1.op.requestBody = s.op.requestBody := by
      intro es s
      refine Star.inv (R := fun a b : ReqState S => b.op.requestBody = a.op.requestBody)
        (P := fun a => a.op.requestBody = s.op.requestBody) (fun a b h h' => h.trans h')
        (runEvents_within env es (fun c _ a => ?_) (fun n d _ a => ?_) s) rfl
      · refine .one ?_
        simp only [onParameter]
        repeat' split
        all_goals rfl
      · exact .one rfl
    simp only [parseParametersIn, input_eq]
    split
    · rfl
    · split
      · rename_i s1 h1
        have := hev ((cu.value env).params inn (cu.fieldMapping inn)).events s
        rw [h1] at this
        split
        · exact this
        · split <;> exact this
      · exact hev _ s
  have := joinActs_within (R := fun a b : ReqState S => b.op.requestBody = a.op.requestBody)
    (as := [parseParametersIn v env cu "query", parseParametersIn v env cu "path",
      parseParametersIn v env cu "cookie", parseParametersIn v env cu "header"])
    (by
      intro a ha
      simp only [List.mem_cons, List.not_mem_nil, or_false] at ha
      rcases ha with rfl | rfl | rfl | rfl <;> exact fun s => .one (hin _ s)) [] s
  exact Star.inv (P := fun a => a.op.requestBody = s.op.requestBody) (fun a b h h' => h.trans h') this rfl

theorem rawBody_ok {v : Ver S} {cu : ContentUnit S} {s s' : ReqState S} (hc : cu.contentType = "")
    (h : parseRawRequestBody v cu s = (s', .ok)) :
    s'.schemas = s.schemas ∧ s'.op.parameters = s.op.parameters ∧
    (∀ ct, ¬ RawMime cu ct → reqContent s'.op ct = reqContent s.op ct) ∧
    (s'.op.requestBody.isSome ↔ s.op.requestBody.isSome ∨ ∃ mime, RawMime cu mime) := by
  have hraw : ∀ ct, RawMime cu ct ↔ HasRawTag cu ct := by
    intro ct
    constructor
    · rintro (h | h)
      · exact h.2
      · exact absurd (by simp [ReflectsParams, hc]) h.1
    · exact fun h => .inl ⟨hc, h⟩
  simp only [hraw]
  simp only [parseRawRequestBody] at h
  split at h
  · rename_i hn
    cases h
    refine ⟨rfl, rfl, fun _ _ => rfl, ?_⟩
    simp [HasRawTag, hn]
  · rename_i value hv
    have key : ∀ (cts : List String) (s s' : ReqState S),
        foldActs (fun tag => stringRequestBody v tag "") cts s = (s', .ok) →
        s'.schemas = s.schemas ∧ s'.op.parameters = s.op.parameters ∧
        (∀ ct, ct ∉ cts → reqContent s'.op ct = reqContent s.op ct) ∧
        (s'.op.requestBody.isSome ↔ s.op.requestBody.isSome ∨ ∃ mime, mime ∈ cts) := by
      intro cts
      induction cts with
      | nil => intro s s' h; cases h; simp
      | cons ct cts ih =>
        intro s s' h
        obtain ⟨s1, h1, h2⟩ := foldActs_cons_ok h
        obtain ⟨i1, i2, i3, i4⟩ := ih s1 s' h2
        simp only [stringRequestBody] at h1
        split at h1
        · cases h1
          refine ⟨i1, i2, ?_, ?_⟩
          · intro ct' hn
            simp only [List.mem_cons, not_or] at hn
            rw [i3 ct' hn.2, reqContent_set, if_neg hn.1]
          · rw [i4]
            simp only [setRequestContent, Option.isSome_some, true_or, true_iff]
            exact .inr ⟨ct, by simp⟩
        · cases h1
    obtain ⟨k1, k2, k3, k4⟩ := key _ s s' h
    refine ⟨k1, k2, ?_, ?_⟩
    · intro ct hn
      refine k3 ct fun hm => hn ⟨value, hv, hm⟩
    · rw [k4]
      refine or_congr_right ⟨?_, ?_⟩
      · rintro ⟨m, hm⟩; exact ⟨m, value, hv, hm⟩
      · rintro ⟨m, value', hv', hm⟩
        rw [hv] at hv'; cases hv'; exact ⟨m, hm⟩

/-! ## The body of a unit -/

theorem body_isSome {v : Ver S} {env : Env S} {method : String} {cu : ContentUnit S} {s s' : ReqState S}
    (h : reflectUnit v env method cu s = (s', .ok)) :
    s'.op.requestBody.isSome ↔ s.op.requestBody.isSome ∨ WantsBody env cu method := by
  by_cases hk : ReflectsParams cu
  · obtain ⟨s1, s2, s3, hf, hp, hj, hr⟩ := reflectUnit_ok hk h
    have e1 : s1.op.requestBody.isSome ↔ s.op.requestBody.isSome ∨ (TakesForm cu ∧ WantsFormBody env cu method) := by
      rw [takesForm_iff hk]
      split at hf
      · rename_i hc; rw [hf]; simp [hc]
      · rename_i hc
        rcases parseRequestBody_ok hf with ⟨hn, rfl⟩ | ⟨sch, defs, files, sc, m, hs, -, -, -, ho⟩
        · have := form_none hn; simp [this]
        · have := form_some hs
          rw [ho]
          simp [setRequestContent, hc, this]
    have e2 : s2.op.requestBody = s1.op.requestBody := by
      have := paramsStep_op (v := v) (env := env) (cu := cu) s1
      rw [hp] at this; exact this
    have e3 : s3.op.requestBody.isSome ↔ s2.op.requestBody.isSome ∨ (TakesJSON cu ∧ WantsJSONBody env cu method) := by
      rw [takesJSON_iff]
      split at hj
      · rename_i hc
        rcases parseRequestBody_ok hj with ⟨hn, rfl⟩ | ⟨sch, defs, files, sc, m, hs, -, -, -, ho⟩
        · have := json_none hn; simp [this]
        · have := json_some hs
          rw [ho]
          simp [setRequestContent, hc, this]
      · rename_i hc; rw [hj]; simp [hc]
    have e4 : s'.op.requestBody.isSome ↔ s3.op.requestBody.isSome ∨ ∃ mime, RawMime cu mime := by
      split at hr
      · rename_i hc; exact (rawBody_ok hc hr).2.2.2
      · rename_i hc
        rw [hr]
        constructor
        · exact .inl
        · rintro (h | ⟨mime, h | h⟩)
          · exact h
          · exact absurd h.1 hc
          · exact absurd hk h.1
    rw [e4, e3, e2, e1]
    simp only [WantsBody, or_assoc]
  · have hraw : RawMime cu cu.contentType := .inr ⟨hk, rfl⟩
    have hw : WantsBody env cu method := .inr (.inr ⟨_, hraw⟩)
    simp only [hw, or_true, iff_true]
    simp only [ReflectsParams, List.mem_cons, List.not_mem_nil, or_false, not_or] at hk
    simp only [reflectUnit, if_neg hk.1, if_neg hk.2.1] at h
    rw [if_neg (by simp [hk.2.2.1, hk.2.2.2])] at h
    simp only [stringRequestBody] at h
    split at h
    · cases h; simp [setRequestContent]
    · cases h

theorem finishRequest_isSome (cu : ContentUnit S) (op : Operation S) :
    (finishRequest cu op).requestBody.isSome ↔ op.requestBody.isSome := by
  cases hb : op.requestBody with
  | none => simp [(finishRequest_frame cu op).2.2 hb]
  | some rb =>
    simp only [Option.isSome_some, iff_true]
    have key : ∀ op' : Operation S, op'.requestBody.isSome → (match cu.customize, op'.requestBody with
        | some f, some rb => { op' with requestBody := some (f.req rb) }
        | _, _ => op').requestBody.isSome := by
      intro op' h
      split
      · rfl
      · exact h
    unfold finishRequest
    refine key _ ?_
    split
    · split
      · rfl
      · rw [hb]; rfl
    · rw [hb]; rfl

/-- C16: after a successful reflection, an operation that had no request body has one exactly if some unit
asks for it. -/
theorem C16_body_iff (v : Ver S) (env : Env S) (method : String) (cus : List (ContentUnit S)) (s s' : ReqState S)
    (h : setupRequest v env method cus s = (s', .ok)) (h0 : s.op.requestBody = none) :
    s'.op.requestBody ≠ none ↔ ∃ cu ∈ cus, WantsBody env cu method := by
  have key : s'.op.requestBody.isSome ↔ s.op.requestBody.isSome ∨ ∃ cu ∈ cus, WantsBody env cu method := by
    clear h0
    induction cus generalizing s with
    | nil => cases h; simp
    | cons cu cus ih =>
      obtain ⟨s1, h1, h2⟩ := setupRequest_cons_ok h
      rw [ih _ h2]
      simp only [finishRequest_isSome, body_isSome h1, List.mem_cons, exists_eq_or_imp, or_assoc]
  rw [h0] at key
  simp only [Option.isSome_none, Bool.false_eq_true, false_or] at key
  rw [← key, Option.isSome_iff_ne_none]

/-! ## Forms and JSON -/

theorem keeps_customize {cu : ContentUnit S} {ct : String} (h : KeepsContent cu ct) (mt : Option (MediaType S)) :
    CustomizeKeeps cu fun rb => rb.body.bind (·.content.get? ct) = mt :=
  fun f hf rb hr => (h f hf rb).trans hr

theorem finishRequest_reqContent {cu : ContentUnit S} {ct : String} (h : KeepsContent cu ct) (op : Operation S) :
    reqContent (finishRequest cu op) ct = reqContent op ct :=
  finishRequest_content cu op ct (fun o => o = reqContent op ct) (keeps_customize h _) rfl

/-- The media types of the form and JSON bodies of a unit after it was reflected. -/
theorem reflectUnit_bodies {v : Ver S} {env : Env S} {method : String} {cu : ContentUnit S} {s s' : ReqState S}
    (hk : ReflectsParams cu) (h : reflectUnit v env method cu s = (s', .ok)) :
    (TakesForm cu → WantsFormBody env cu method →
      ∃ sch defs sc ct, ((cu.value env).body "formData" (cu.fieldMapping "formData")).result = .ok (sch, defs) ∧
        v.conv sch = .ok sc ∧
        (MeetsFile ((cu.value env).body "formData" (cu.fieldMapping "formData")).visited → ct = "multipart/form-data") ∧
        (¬ MeetsFile ((cu.value env).body "formData" (cu.fieldMapping "formData")).visited →
          ct = "application/x-www-form-urlencoded") ∧
        (¬ RawMime cu ct → reqContent s'.op ct = some { schema := some sc }) ∧
        ∀ n d, (n, d) ∈ defs → (s'.schemas.get? n).isSome) ∧
    (TakesJSON cu → WantsJSONBody env cu method →
      ∃ sch defs sc, ((cu.value env).body "json" []).result = .ok (sch, defs) ∧ v.conv sch = .ok sc ∧
        (¬ RawMime cu "application/json" → reqContent s'.op "application/json" = some { schema := some sc }) ∧
        ((defs.map (·.1)).Nodup → ∀ n d, (n, d) ∈ defs → ∃ sd, v.conv d = .ok sd ∧ s'.schemas.get? n = some sd) ∧
        ∀ n d, (n, d) ∈ defs → (s'.schemas.get? n).isSome) := by
  obtain ⟨s1, s2, s3, hf, hp, hj, hr⟩ := reflectUnit_ok hk h
  have epar : s2.op.requestBody = s1.op.requestBody := by
    have := paramsStep_op (v := v) (env := env) (cu := cu) s1
    rw [hp] at this; exact this
  have npar : NamesKept s1.schemas s2.schemas := by
    have := parseParameters_within v env method cu hk s1
    rw [hp] at this
    exact reqStep_names this
  have njson : NamesKept s2.schemas s3.schemas := by
    split at hj
    · have := parseRequestBody_within v env method cu (mime := "application/json") (tag := "json")
        (mapping := []) (tags := []) hk (.inl ⟨rfl, rfl⟩) s2
      rw [hj] at this
      exact reqStep_names this
    · rw [hj]; exact .refl _
  have eraw : s'.schemas = s3.schemas ∧ ∀ ct, ¬ RawMime cu ct → reqContent s'.op ct = reqContent s3.op ct := by
    split at hr
    · rename_i hc
      obtain ⟨r1, -, r3, -⟩ := rawBody_ok hc hr
      exact ⟨r1, r3⟩
    · rw [hr]; exact ⟨rfl, fun _ _ => rfl⟩
  have allnames : ∀ {ds : List (String × JS)} {m m' : GoMap S}, addBodyDefinitions v ds m = (m', .ok) →
      ∀ n d, (n, d) ∈ ds → (m'.get? n).isSome := by
    intro ds
    induction ds with
    | nil => intro m m' _ n d hm; cases hm
    | cons p ds ih =>
      obtain ⟨k, d0⟩ := p
      intro m m' hm n d hmem
      simp only [addBodyDefinitions] at hm
      split at hm
      · rename_i sc hc
        rcases List.mem_cons.mp hmem with e | hmem
        · cases e
          have : ∀ (ds : List (String × JS)) (m : GoMap S), NamesKept m (addBodyDefinitions v ds m).1 := by
            intro ds
            induction ds with
            | nil => intro m; exact .refl _
            | cons p ds ih =>
              intro m
              obtain ⟨k, d⟩ := p
              simp only [addBodyDefinitions]
              split
              · exact (namesKept_set m k _).trans (ih _)
              · exact .refl _
              · exact .refl _
          have := this ds (m.set k sc)
          rw [hm] at this
          exact this k (by rw [GoMap.get?_set_self]; rfl)
        · exact ih hm n d hmem
      · cases hm
      · cases hm
  constructor
  · intro ht hw
    rw [takesForm_iff hk] at ht
    rw [if_neg ht] at hf
    rcases parseRequestBody_ok hf with ⟨hn, -⟩ | ⟨sch, defs, files, sc, m, hs, hc, hd, hm, ho⟩
    · exact absurd hw (form_none hn)
    · obtain ⟨hres, hfiles⟩ := reflectBody_result hs
      refine ⟨sch, defs, sc, if files then "multipart/form-data" else "application/x-www-form-urlencoded", hres, hc,
        ?_, ?_, ?_, ?_⟩
      · intro hmf; rw [hfiles.mpr hmf]; rfl
      · intro hmf
        have : files = false := by
          cases files
          · rfl
          · exact absurd (hfiles.mp rfl) hmf
        rw [this]; rfl
      · intro hraw
        rw [eraw.2 _ hraw]
        have e1 : reqContent s1.op (if files then "multipart/form-data" else "application/x-www-form-urlencoded") =
            some { schema := some sc } := by
          rw [ho, reqContent_set]
          cases files <;> rfl
        have e2 : reqContent s2.op (if files then "multipart/form-data" else "application/x-www-form-urlencoded") =
            some { schema := some sc } := by
          rw [← e1]; simp only [reqContent, epar]
        rw [← e2]
        split at hj
        · rcases parseRequestBody_ok hj with ⟨-, e⟩ | ⟨_, _, files', _, _, _, _, _, _, ho'⟩
          · rw [e]
          · rw [ho', reqContent_set]
            have : (if ("application/json" : String) = "application/x-www-form-urlencoded" && files' then
              "multipart/form-data" else "application/json") = "application/json" := rfl
            rw [this, if_neg]
            cases files <;> decide
        · rw [hj]
      · intro n d hmem
        rw [eraw.1]
        refine njson n (npar n ?_)
        rw [hm]
        exact allnames hd n d hmem
  · intro ht hw
    rw [takesJSON_iff] at ht
    rw [if_pos ht] at hj
    rcases parseRequestBody_ok hj with ⟨hn, -⟩ | ⟨sch, defs, files, sc, m, hs, hc, hd, hm, ho⟩
    · exact absurd hw (json_none hn)
    · obtain ⟨hres, -⟩ := reflectBody_result hs
      refine ⟨sch, defs, sc, hres, hc, ?_, ?_, ?_⟩
      · intro hraw
        rw [eraw.2 _ hraw, ho, reqContent_set]
        have : (if ("application/json" : String) = "application/x-www-form-urlencoded" && files then
              "multipart/form-data" else "application/json") = "application/json" := rfl
        rw [this, if_pos rfl]
      · intro hnd n d hmem
        rw [eraw.1, hm]
        exact addBodyDefinitions_ok hnd hd n d hmem
      · intro n d hmem
        rw [eraw.1, hm]
        exact allnames hd n d hmem

/-- C24: after a successful reflection the form of a unit is stored under `multipart/form-data` if a file
was met in it, and under `application/x-www-form-urlencoded` otherwise, with the converted schema; later
units that do not write that content type do not change it. -/
theorem C24_form_content_type (v : Ver S) (env : Env S) (method : String) (before after : List (ContentUnit S))
    (cu : ContentUnit S) (s s' : ReqState S) (ct : String)
    (h : setupRequest v env method (before ++ cu :: after) s = (s', .ok))
    (ht : TakesForm cu) (hw : WantsFormBody env cu method)
    (hct : (MeetsFile ((cu.value env).body "formData" (cu.fieldMapping "formData")).visited ∧ ct = "multipart/form-data") ∨
      (¬ MeetsFile ((cu.value env).body "formData" (cu.fieldMapping "formData")).visited ∧
        ct = "application/x-www-form-urlencoded"))
    (hraw : ¬ RawMime cu ct) (hkeep : ∀ u ∈ cu :: after, KeepsContent u ct)
    (hafter : ∀ u ∈ after, ¬ RequestMime u ct) :
    ∃ sch defs sc, ((cu.value env).body "formData" (cu.fieldMapping "formData")).result = .ok (sch, defs) ∧
      v.conv sch = .ok sc ∧ reqContent s'.op ct = some { schema := some sc } := by
  obtain ⟨s1, -, h2⟩ := setupRequest_append_ok h
  obtain ⟨s2, h3, h4⟩ := setupRequest_cons_ok h2
  obtain ⟨sch, defs, sc, ct', hres, hc, hm, hnm, hcont, -⟩ := (reflectUnit_bodies (takes_reflects (.inl ht)) h3).1 ht hw
  have e : ct' = ct := by
    rcases hct with ⟨a, b⟩ | ⟨a, b⟩
    · rw [hm a, b]
    · rw [hnm a, b]
  subst e
  refine ⟨sch, defs, sc, hres, hc, ?_⟩
  have := C19_request_untouched v env method after { s2 with op := finishRequest cu s2.op } ct'
    (some { schema := some sc }) (fun u hu => keeps_customize (hkeep u (by simp [hu])) _) hafter (by
      show reqContent (finishRequest cu s2.op) ct' = _
      rw [finishRequest_reqContent (hkeep cu (by simp))]
      exact hcont hraw)
  rw [h4] at this
  exact this

/-- C24: the other one of the two form content types is not touched by the unit, whatever the outcome. -/
theorem C24_other_untouched (v : Ver S) (env : Env S) (method : String) (cu : ContentUnit S) (s : ReqState S)
    (other : String)
    (hct : (MeetsFile ((cu.value env).body "formData" (cu.fieldMapping "formData")).visited ∧
        other = "application/x-www-form-urlencoded") ∨
      (¬ MeetsFile ((cu.value env).body "formData" (cu.fieldMapping "formData")).visited ∧ other = "multipart/form-data"))
    (hraw : ¬ RawMime cu other) (hkeep : KeepsContent cu other) :
    reqContent (setupRequest v env method [cu] s).1.op other = reqContent s.op other := by
  have hform : ∀ (s : ReqState S), reqContent (parseRequestBody v env cu method "application/x-www-form-urlencoded"
      (cu.fieldMapping "formData") "formData" ["form"] s).1.op other = reqContent s.op other := by
    intro s
    simp only [parseRequestBody]
    split
    · rfl
    · rfl
    · rename_i sch defs files hr
      split
      · rfl
      · rfl
      · split
        · rfl
        · rfl
        · simp only [reqContent_set]
          rw [if_neg]
          obtain ⟨-, hfiles⟩ := reflectBody_result hr
          rcases hct with ⟨a, b⟩ | ⟨a, b⟩
          · rw [hfiles.mpr a, b]; decide
          · have : files = false := by
              cases files
              · rfl
              · exact absurd (hfiles.mp rfl) a
            rw [this, b]; decide
  have hjson : ∀ (s : ReqState S), reqContent (parseRequestBody v env cu method "application/json" [] "json" [] s).1.op
      other = reqContent s.op other := by
    intro s
    simp only [parseRequestBody]
    split
    · rfl
    · rfl
    · split
      · rfl
      · rfl
      · split
        · rfl
        · rfl
        · simp only [reqContent_set]
          rw [if_neg]
          rcases hct with ⟨a, b⟩ | ⟨a, b⟩ <;> rw [b] <;> simp
  have hpar : ∀ (s : ReqState S), reqContent (parseParameters v env cu s).1.op other = reqContent s.op other := by
    intro s
    simp only [reqContent, paramsStep_op]
  have hstr : ∀ (mime format : String) (s : ReqState S), RawMime cu mime →
      reqContent (stringRequestBody v mime format s).1.op other = reqContent s.op other := by
    intro mime format s hm
    simp only [stringRequestBody]
    split
    · simp only [reqContent_set]
      rw [if_neg]
      intro e; exact hraw (e ▸ hm)
    · rfl
  have star : ∀ {a b : ReqState S}, Star (fun a b => reqContent b.op other = reqContent a.op other) a b →
      reqContent b.op other = reqContent a.op other := by
    intro a b h
    exact Star.inv (P := fun c : ReqState S => reqContent c.op other = reqContent a.op other) (fun _ _ h h' => h.trans h') h rfl
  have hunit : reqContent (reflectUnit v env method cu s).1.op other = reqContent s.op other := by
    simp only [reflectUnit]
    split
    · rename_i hc
      have hj := star (joinActs_within (R := fun a b : ReqState S => reqContent b.op other = reqContent a.op other)
        (as := [parseRequestBody v env cu method "application/x-www-form-urlencoded" (cu.fieldMapping "formData")
          "formData" ["form"], parseParameters v env cu,
          parseRequestBody v env cu method "application/json" [] "json" []])
        (by
          intro a ha
          simp only [List.mem_cons, List.not_mem_nil, or_false] at ha
          rcases ha with rfl | rfl | rfl
          · exact fun s => .one (hform s)
          · exact fun s => .one (hpar s)
          · exact fun s => .one (hjson s)) [] s)
      split
      · rename_i s1 h1
        rw [h1] at hj
        rw [← hj]
        simp only [parseRawRequestBody]
        split
        · rfl
        · rename_i value hv
          exact star (foldActs_within (R := fun a b : ReqState S => reqContent b.op other = reqContent a.op other)
            (fun tag => stringRequestBody v tag "") value.contentTypes
            (fun tag htag s => .one (hstr tag "" s (.inl ⟨hc, value, hv, htag⟩))) s1)
      · exact hj
    · rename_i h0
      split
      · refine star (joinActs_within ?_ [] s)
        intro a ha
        simp only [List.mem_cons, List.not_mem_nil, or_false] at ha
        rcases ha with rfl | rfl
        · exact fun s => .one (hpar s)
        · exact fun s => .one (hjson s)
      · rename_i h1
        split
        · refine star (joinActs_within ?_ [] s)
          intro a ha
          simp only [List.mem_cons, List.not_mem_nil, or_false] at ha
          rcases ha with rfl | rfl
          · exact fun s => .one (hform s)
          · exact fun s => .one (hpar s)
        · rename_i h2
          refine hstr _ _ s (.inr ⟨?_, rfl⟩)
          intro hk
          simp only [ReflectsParams, List.mem_cons, List.not_mem_nil, or_false] at hk
          rcases hk with h | h | h | h
          · exact h0 h
          · exact h1 h
          · exact h2 (.inl h)
          · exact h2 (.inr h)
  simp only [setupRequest]
  split
  · rename_i s1 h1
    rw [h1] at hunit
    simp only [finishRequest_reqContent hkeep]
    exact hunit
  · exact hunit

/-- C52: after a successful reflection the JSON body of a unit is stored under `application/json` with the
converted schema; later units that do not write that content type do not change it. -/
theorem C52_json_body (v : Ver S) (env : Env S) (method : String) (before after : List (ContentUnit S))
    (cu : ContentUnit S) (s s' : ReqState S)
    (h : setupRequest v env method (before ++ cu :: after) s = (s', .ok))
    (ht : TakesJSON cu) (hw : WantsJSONBody env cu method)
    (hraw : ¬ RawMime cu "application/json") (hkeep : ∀ u ∈ cu :: after, KeepsContent u "application/json")
    (hafter : ∀ u ∈ after, ¬ RequestMime u "application/json") :
    ∃ sch defs sc, ((cu.value env).body "json" []).result = .ok (sch, defs) ∧
      v.conv sch = .ok sc ∧ reqContent s'.op "application/json" = some { schema := some sc } := by
  obtain ⟨s1, -, h2⟩ := setupRequest_append_ok h
  obtain ⟨s2, h3, h4⟩ := setupRequest_cons_ok h2
  obtain ⟨sch, defs, sc, hres, hc, hcont, -⟩ := (reflectUnit_bodies (takes_reflects (.inr ht)) h3).2 ht hw
  refine ⟨sch, defs, sc, hres, hc, ?_⟩
  have := C19_request_untouched v env method after { s2 with op := finishRequest cu s2.op } "application/json"
    (some { schema := some sc }) (fun u hu => keeps_customize (hkeep u (by simp [hu])) _) hafter (by
      show reqContent (finishRequest cu s2.op) "application/json" = _
      rw [finishRequest_reqContent (hkeep cu (by simp))]
      exact hcont hraw)
  rw [h4] at this
  exact this

/-- C52: the definitions of a JSON body are stored under their names, converted, unless the body of a later
unit has another definition of the same name. -/
theorem C52_json_definitions (v : Ver S) (env : Env S) (method : String) (before after : List (ContentUnit S))
    (cu : ContentUnit S) (s s' : ReqState S)
    (h : setupRequest v env method (before ++ cu :: after) s = (s', .ok))
    (ht : TakesJSON cu) (hw : WantsJSONBody env cu method) (sch : JS) (defs : List (String × JS))
    (hres : ((cu.value env).body "json" []).result = .ok (sch, defs)) (hnd : (defs.map (·.1)).Nodup)
    (n : String) (d : JS) (hmem : (n, d) ∈ defs) (hafter : ∀ u ∈ after, ∀ d', ¬ BodyDefinition env u n d') :
    ∃ sd, v.conv d = .ok sd ∧ s'.schemas.get? n = some sd := by
  obtain ⟨s1, -, h2⟩ := setupRequest_append_ok h
  obtain ⟨s2, h3, h4⟩ := setupRequest_cons_ok h2
  obtain ⟨sch', defs', sc, hres', hc, -, hdefs, -⟩ := (reflectUnit_bodies (takes_reflects (.inr ht)) h3).2 ht hw
  rw [hres] at hres'
  cases hres'
  obtain ⟨sd, hsd, hget⟩ := hdefs hnd n d hmem
  refine ⟨sd, hsd, ?_⟩
  have := setupRequest_schemas v env method after { s2 with op := finishRequest cu s2.op } n sd hget
  rw [h4] at this
  obtain ⟨sc', hsc', e | ⟨u, hu, d', hd', -⟩⟩ := this
  · rw [hsc', e]
  · exact absurd hd' (hafter u hu d')

/-! ## Parameters -/

theorem body_params {v : Ver S} {env : Env S} {cu : ContentUnit S} {method mime tag : String}
    {mapping : GoMap String} {tags : List String} {s s' : ReqState S}
    (h : parseRequestBody v env cu method mime mapping tag tags s = (s', .ok)) : s'.op.parameters = s.op.parameters := by
  rcases parseRequestBody_ok h with ⟨-, rfl⟩ | ⟨_, _, _, _, _, _, _, _, _, ho⟩
  · rfl
  · rw [ho]; rfl

theorem reflectUnit_params {v : Ver S} {env : Env S} {method : String} {cu : ContentUnit S} {s s' : ReqState S}
    (h : reflectUnit v env method cu s = (s', .ok)) : AddsParams v (paramFields env cu) s s' := by
  by_cases hk : ReflectsParams cu
  · obtain ⟨s1, s2, s3, hf, hp, hj, hr⟩ := reflectUnit_ok hk h
    have e1 : s1.op.parameters = s.op.parameters := by
      split at hf
      · rw [hf]
      · exact body_params hf
    have e3 : s3.op.parameters = s2.op.parameters := by
      split at hj
      · exact body_params hj
      · rw [hj]
    have e4 : s'.op.parameters = s3.op.parameters := by
      split at hr
      · rename_i hc; exact (rawBody_ok hc hr).2.1
      · rw [hr]
    obtain ⟨⟨ps, hps, e2⟩, -⟩ := parseParameters_ok hk hp
    exact ⟨ps, hps, by rw [e4, e3, e2, e1]⟩
  · have : paramFields env cu = [] := by rw [paramFields, if_neg (by simp [hk])]
    rw [this]
    refine .nil ?_
    simp only [ReflectsParams, List.mem_cons, List.not_mem_nil, or_false, not_or] at hk
    simp only [reflectUnit, if_neg hk.1, if_neg hk.2.1] at h
    rw [if_neg (by simp [hk.2.2.1, hk.2.2.2])] at h
    simp only [stringRequestBody] at h
    split at h
    · cases h; rfl
    · cases h

/-- C53: after a successful reflection the new parameters are, in order, exactly one for each top-level
field of each unit whose parameters are reflected, with name, location, description, schema and
serialisation as specified (`ParamFor`). -/
theorem C53_parameters_exact (v : Ver S) (env : Env S) (method : String) (cus : List (ContentUnit S))
    (s s' : ReqState S) (h : setupRequest v env method cus s = (s', .ok)) :
    ∃ ps, Pointwise (fun f p => ParamFor v f.1 f.2 p) (cus.flatMap (paramFields env)) ps ∧
      s'.op.parameters = s.op.parameters ++ ps.map fun p => { param := some p } := by
  show AddsParams v _ s s'
  induction cus generalizing s with
  | nil => cases h; exact .nil rfl
  | cons cu cus ih =>
    obtain ⟨s1, h1, h2⟩ := setupRequest_cons_ok h
    have i := ih _ h2
    obtain ⟨ps, hps, e⟩ := reflectUnit_params h1
    rw [List.flatMap_cons]
    refine AddsParams.trans (b := { s1 with op := finishRequest cu s1.op }) ⟨ps, hps, ?_⟩ i
    show (finishRequest cu s1.op).parameters = _
    rw [(finishRequest_frame _ _).1, e]

/-! ## Definitions -/

theorem setupStep_names {v : Ver S} {env : Env S} {method : String} {cus : List (ContentUnit S)} {s s' : ReqState S}
    (h : setupRequest v env method cus s = (s', .ok)) : NamesKept s.schemas s'.schemas := by
  intro n hn
  obtain ⟨sc, hsc⟩ := Option.isSome_iff_exists.mp hn
  have := setupRequest_schemas v env method cus s n sc hsc
  rw [h] at this
  obtain ⟨sc', h', -⟩ := this
  rw [h']; rfl

/-- C54 (requests): after a successful reflection every definition that was reported for a parameter or a
body of a unit is a component schema. -/
theorem C54_request_definitions (v : Ver S) (env : Env S) (method : String) (cus : List (ContentUnit S))
    (s s' : ReqState S) (h : setupRequest v env method cus s = (s', .ok)) (cu : ContentUnit S) (hm : cu ∈ cus)
    (n : String) (hn : RequestDefinition env cu method n) : (s'.schemas.get? n).isSome := by
  obtain ⟨before, after, rfl⟩ := List.append_of_mem hm
  obtain ⟨s1, -, h2⟩ := setupRequest_append_ok h
  obtain ⟨s2, h3, h4⟩ := setupRequest_cons_ok h2
  refine setupStep_names h4 n ?_
  show (s2.schemas.get? n).isSome
  rcases hn with hn | ⟨ht, hw, sch, defs, d, hres, hmem⟩ | ⟨ht, hw, sch, defs, d, hres, hmem⟩
  · obtain ⟨a1, a2, a3, hf, hp, hj, hr⟩ := reflectUnit_ok hn.1 h3
    have p1 := (parseParameters_ok hn.1 hp).2 n hn
    have p2 : (a3.schemas.get? n).isSome := by
      split at hj
      · have := parseRequestBody_within v env method cu (mime := "application/json") (tag := "json")
          (mapping := []) (tags := []) hn.1 (.inl ⟨rfl, rfl⟩) a2
        rw [hj] at this
        exact reqStep_names this n p1
      · rw [hj]; exact p1
    split at hr
    · rename_i hc; rw [(rawBody_ok hc hr).1]; exact p2
    · rw [hr]; exact p2
  · obtain ⟨sch', defs', sc, ct, hres', -, -, -, -, hd⟩ := (reflectUnit_bodies (takes_reflects (.inl ht)) h3).1 ht hw
    rw [hres] at hres'; cases hres'
    exact hd n d hmem
  · obtain ⟨sch', defs', sc, hres', -, -, -, hd⟩ := (reflectUnit_bodies (takes_reflects (.inr ht)) h3).2 ht hw
    rw [hres] at hres'; cases hres'
    exact hd n d hmem

/-! ## A concrete request

A unit with a query parameter `ids` (comma-separated), a JSON body with a definition, and no form. -/

/-- The field `ids`. -/
def exIds : PropCall Unit := { processed := true, pathLen := 1, name := "ids", schema := .bool true, collectionFormat := "csv" }

/-- The value of the example. -/
def exValue : Value Unit :=
  { tagged := fun t => decide (t = "json"),
    body := fun tag _ => ⟨[], if tag = "json" then .ok (.bool true, [("Thing", .bool false)]) else .error ""⟩,
    params := fun inn _ => ⟨if inn = "query" then [.prop exIds] else [], .ok (.obj {} none [] [] [] none [] [] (some (.bool false)) [])⟩ }

/-- The unit of the example. -/
def exUnit : ContentUnit Unit := { structure_ := some exValue, description := "a thing" }

/-- A unit with a form with a file. -/
def exForm : ContentUnit Unit :=
  { structure_ := some
      { tagged := fun t => decide (t = "formData"),
        body := fun tag _ => ⟨[.other, .file], if tag = "formData" then .ok (.bool true, []) else .error ""⟩ } }

/-- The request body of the example. -/
def exBody : RequestBody Unit where
  description := some "a thing"
  content := [("application/json", { schema := some () }), ("multipart/form-data", { schema := some () })]

/-- The request of the example succeeds, with two bodies and one parameter. -/
example : ∃ s', setupRequest exampleVer exampleEnv "post" [exUnit, exForm] ⟨[], {}⟩ = (s', .ok) ∧
    s'.op.requestBody = some { body := some exBody } ∧
    s'.op.parameters = [{ param := some { name := "ids", inn := "query", schema := some (), style := some "form", explode := some false } }] ∧
    s'.schemas = [("Thing", ())] ∧ unknownParamIsForbidden s'.op "query" = true := by
  refine ⟨_, rfl, by decide +kernel, by decide +kernel, by decide +kernel, by decide +kernel⟩

/-- Its units meet the hypotheses of the theorems above. -/
example : TakesJSON exUnit ∧ WantsJSONBody exampleEnv exUnit "post" ∧ ¬ RawMime exUnit "application/json" ∧
    KeepsContent exUnit "application/json" ∧ TakesForm exForm ∧ WantsFormBody exampleEnv exForm "post" ∧
    MeetsFile ((exForm.value exampleEnv).body "formData" (exForm.fieldMapping "formData")).visited ∧
    ¬ RawMime exForm "multipart/form-data" ∧ ForbidsUnknown exampleEnv exUnit "query" ∧
    RequestDefinition exampleEnv exUnit "post" "Thing" := by
  have hw : WantsJSONBody exampleEnv exUnit "post" :=
    ⟨.inl (by decide +kernel), (by simp [HasFormFields, ContentUnit.value, exUnit, exValue]), .inl rfl⟩
  refine ⟨by simp [TakesJSON, exUnit], hw, ?_, ?_, by simp [TakesForm, exForm], ⟨.inl (by decide +kernel), .inl (.inl rfl)⟩,
    .inl (by simp [ContentUnit.value, exForm]), ?_, ?_, ?_⟩
  · simp [RawMime, HasRawTag, ReflectsParams, exUnit, exValue]
  · intro f hf; simp [exUnit] at hf
  · simp [RawMime, HasRawTag, ReflectsParams, exForm]
  · exact ⟨by simp [ReflectsParams, exUnit], by simp [paramLocations], rfl, {}, none, [], [], [], none, [], [], [], rfl⟩
  · exact .inr (.inr ⟨by simp [TakesJSON, exUnit], hw, .bool true, [("Thing", .bool false)], .bool false, rfl, by simp⟩)

end Verif
