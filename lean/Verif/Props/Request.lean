import Verif.Lemmas.Response
import Verif.Props.Doc30
import Verif.Props.Doc31

/-!
# Properties of reflected requests (C13, C15, C16, C19, C20, C24, C25, C52, C53)

All theorems hold for both reflectors (`v`), every environment (`env`) and everything that the dependencies
may report about the given values.
-/

namespace Verif
open ParamSpec
variable {S : Type}

theorem finishRequest_frame (cu : ContentUnit S) (op : Operation S) :
    (finishRequest cu op).parameters = op.parameters ∧ (finishRequest cu op).ext = op.ext ∧
    (op.requestBody = none → (finishRequest cu op).requestBody = none) := by
  have key : ∀ op' : Operation S,
      (match cu.customize, op'.requestBody with
        | some f, some rb => { op' with requestBody := some (f.req rb) }
        | _, _ => op').parameters = op'.parameters ∧
      (match cu.customize, op'.requestBody with
        | some f, some rb => { op' with requestBody := some (f.req rb) }
        | _, _ => op').ext = op'.ext := by
    intro op'
    split <;> exact ⟨rfl, rfl⟩
  unfold finishRequest
  refine ⟨?_, ?_, ?_⟩
  · refine (key _).1.trans ?_
    split
    · split <;> rfl
    · rfl
  · refine (key _).2.trans ?_
    split
    · split <;> rfl
    · rfl
  · intro h
    simp only [h]
    split
    · rename_i h2; cases h2
    · exact h

/-! ## Parameters only grow, and stay unique -/

/-- C15: whatever the outcome, reflecting units only appends parameters. -/
theorem C15_append_only (v : Ver S) (env : Env S) (method : String) (cus : List (ContentUnit S)) (s : ReqState S) :
    s.op.parameters <+: (setupRequest v env method cus s).1.op.parameters := by
  refine Star.lift (Q := fun a b : ReqState S => a.op.parameters <+: b.op.parameters)
    (fun a => List.prefix_rfl) (fun a b c h h' => h.trans h') ?_ (setupRequest_within v env method cus s)
  intro a b h
  cases h with
  | reflect mem h =>
    cases h with
    | param => exact List.prefix_append _ _
    | _ => exact List.prefix_rfl
  | finish mem => show _ <+: (finishRequest _ _).parameters; rw [(finishRequest_frame _ _).1]; exact List.prefix_rfl

theorem paramExists_false {p : Parameter S} {ps : List (ParamOrRef S)} (h : paramExists p ps = false) :
    (p.inn, p.name) ∉ (inlineParams ps).map fun q => (q.inn, q.name) := by
  intro hm
  simp only [List.mem_map, inlineParams, List.mem_filterMap] at hm
  obtain ⟨q, ⟨pr, hp, hq⟩, e⟩ := hm
  simp only [Prod.mk.injEq] at e
  simp only [paramExists, List.any_eq_false] at h
  have := h pr hp
  rw [hq] at this
  simp [e.1, e.2] at this

/-- C13: whatever the outcome, the reflected parameter list has no two inline parameters with the same
location and name, if it had none before (an operation context starts with no parameters). -/
theorem C13_reflected_unique (v : Ver S) (env : Env S) (method : String) (cus : List (ContentUnit S)) (s : ReqState S)
    (h : UniqueParams s.op.parameters) :
    UniqueParams (setupRequest v env method cus s).1.op.parameters := by
  refine Star.inv (P := fun a : ReqState S => UniqueParams a.op.parameters) ?_
    (setupRequest_within v env method cus s) h
  intro a b hs ha
  cases hs with
  | reflect mem h =>
    cases h with
    | @param inn c p0 p1 kind loc event processed top loc0 name0 pop fresh =>
      have hn := paramExists_false fresh
      unfold UniqueParams at *
      simp only [inlineParams, List.filterMap_append, List.filterMap_cons, List.filterMap_nil, List.map_append,
        List.map_cons, List.map_nil]
      rw [List.nodup_append]
      refine ⟨ha, by simp, ?_⟩
      intro x hx y hy e
      simp only [List.mem_singleton] at hy
      subst hy; subst e
      exact hn hx
    | _ => exact ha
  | finish mem => show UniqueParams (finishRequest _ _).parameters; rw [(finishRequest_frame _ _).1]; exact ha

/-- Path parameters made by reflection are required. -/
theorem reflected_path_required (v : Ver S) (env : Env S) (method : String) (cus : List (ContentUnit S))
    (s : ReqState S) (hst : ∀ cu ∈ cus, LocationStable env cu)
    (h : ∀ q ∈ inlineParams s.op.parameters, q.inn = "path" → q.required = some true) :
    ∀ q ∈ inlineParams (setupRequest v env method cus s).1.op.parameters, q.inn = "path" → q.required = some true := by
  refine Star.inv (P := fun a : ReqState S => ∀ q ∈ inlineParams a.op.parameters, q.inn = "path" → q.required = some true)
    ?_ (setupRequest_within v env method cus s) h
  intro a b hs ha
  cases hs with
  | @reflect _ cu mem h =>
    cases h with
    | @param inn c p0 p1 kind loc event processed top loc0 name0 pop fresh =>
      intro q hq hp
      simp only [inlineParams, List.filterMap_append, List.mem_append] at hq
      rcases hq with hq | hq
      · exact ha q hq hp
      · simp only [List.filterMap_cons, List.filterMap_nil, List.mem_singleton] at hq
        subst hq
        have hst := hst cu mem inn _ c event p0 p1 pop
        unfold finalParam at hp ⊢
        split
        · rfl
        · rename_i hne
          rw [if_neg hne, hst, loc0] at hp
          exact absurd hp hne
    | _ => exact ha
  | finish mem => show ∀ q ∈ inlineParams (finishRequest _ _).parameters, _; rw [(finishRequest_frame _ _).1]; exact ha

/-- Reflected parameters have one of the four locations. -/
theorem reflected_standard (v : Ver S) (env : Env S) (method : String) (cus : List (ContentUnit S))
    (s : ReqState S) (hst : ∀ cu ∈ cus, LocationStable env cu) (h : StandardLocations s.op.parameters) :
    StandardLocations (setupRequest v env method cus s).1.op.parameters := by
  refine Star.inv (P := fun a : ReqState S => StandardLocations a.op.parameters)
    ?_ (setupRequest_within v env method cus s) h
  intro a b hs ha
  cases hs with
  | @reflect _ cu mem h =>
    cases h with
    | @param inn c p0 p1 kind loc event processed top loc0 name0 pop fresh =>
      intro q hq
      simp only [inlineParams, List.filterMap_append, List.mem_append] at hq
      rcases hq with hq | hq
      · exact ha q hq
      · simp only [List.filterMap_cons, List.filterMap_nil, List.mem_singleton] at hq
        subst hq
        have hst := hst cu mem inn _ c event p0 p1 pop
        have e : (finalParam inn p1).inn = inn := by
          unfold finalParam
          split <;> simp [hst, loc0]
        rw [e]
        simp only [paramLocations, List.mem_cons, List.not_mem_nil, or_false] at loc
        rcases loc with rfl | rfl | rfl | rfl <;> simp [locations]
    | _ => exact ha
  | finish mem => show StandardLocations (finishRequest _ _).parameters; rw [(finishRequest_frame _ _).1]; exact ha

/-! ## Bodies -/

theorem hasFileUpload_iff (vs : List ValueKind) : hasFileUpload vs = true ↔ MeetsFile vs := by
  have key : ∀ (f : Bool → ValueKind → Bool), (∀ b, f b .file = true) → (∀ b, f b .fileHeader = true) →
      (∀ b, f b .other = b) →
      ∀ (vs : List ValueKind) (b : Bool), vs.foldl f b = true ↔ b = true ∨ MeetsFile vs := by
    intro f h1 h2 h3 vs
    induction vs with
    | nil => intro b; simp [MeetsFile]
    | cons k vs ih =>
      intro b
      rw [List.foldl_cons, ih]
      cases k <;> simp [MeetsFile, h1, h2, h3]
  unfold hasFileUpload
  rw [key _ (fun _ => rfl) (fun _ => rfl) (fun _ => rfl)]
  simp

theorem reflectBody_needs {env : Env S} {cu : ContentUnit S} {method tag : String} {mapping : GoMap String}
    {tags : List String} {r : (JS × List (String × JS)) × Bool}
    (h : reflectRequestBody env cu method mapping tag tags = .ok (some r)) : MayHaveBody env cu method := by
  unfold reflectRequestBody at h
  rw [input_eq] at h
  simp only at h
  split at h
  · cases h
  · rename_i hg
    unfold MayHaveBody
    rw [← bodyless_iff]
    simp only [Bool.and_eq_true, Bool.not_eq_true', not_and, Bool.not_eq_false] at hg
    by_cases hb : bodyless method = true
    · exact .inr (hg hb)
    · exact .inl hb

theorem reqContent_set (op : Operation S) (mime ct : String) (mt : MediaType S) :
    reqContent (setRequestContent mime mt op) ct = if ct = mime then some mt else reqContent op ct := by
  unfold reqContent setRequestContent
  simp only [Option.bind_some, GoMap.get?_set]
  split
  · rfl
  · cases op.requestBody with
    | none => rfl
    | some rb => cases hb : rb.body <;> simp [hb]

/-- C16: for GET, HEAD, DELETE and TRACE, in any spelling, whatever the outcome: units whose structures do
not enforce a body and that name no raw content type leave the operation without request body. -/
theorem C16_no_body (v : Ver S) (env : Env S) (method : String) (cus : List (ContentUnit S)) (s : ReqState S)
    (hm : ∃ name ∈ ["get", "head", "delete", "trace"], MethodIs method name)
    (hf : ∀ cu ∈ cus, (cu.value env).forceBody = false) (hr : ∀ cu ∈ cus, ∀ mime, ¬ RawMime cu mime)
    (h : s.op.requestBody = none) :
    (setupRequest v env method cus s).1.op.requestBody = none := by
  refine Star.inv (P := fun a : ReqState S => a.op.requestBody = none) ?_ (setupRequest_within v env method cus s) h
  intro a b hs ha
  cases hs with
  | @reflect _ cu mem h =>
    cases h with
    | body refl =>
      rcases reflectBody_needs refl with h | h
      · exact absurd hm h
      · rw [hf cu mem] at h; cases h
    | raw h => exact absurd h (hr cu mem _)
    | _ => exact ha
  | finish mem => exact (finishRequest_frame _ _).2.2 ha

/-- A unit of the examples: a structure with JSON and form fields. -/
def exampleUnit : ContentUnit Unit where
  structure_ := some { tagged := fun t => t = "json", body := fun _ _ => ⟨[], .ok (.bool true, [])⟩ }

/-- An environment of the examples. -/
def exampleEnv : Env Unit := ⟨{}, .ok false, id, fun _ => .ok ""⟩

/-- A version of the examples. -/
def exampleVer : Ver Unit := ⟨fun _ => .ok (), fun _ s => s, fun s => s, fun _ _ => some none, false⟩

/-- C16, concrete: the same unit has no body for `get` and one for `post`. -/
example : (∃ name ∈ ["get", "head", "delete", "trace"], MethodIs "gEt" name) ∧
    ((setupRequest exampleVer exampleEnv "gEt" [exampleUnit] ⟨[], {}⟩).1.op.requestBody = none) ∧
    ((setupRequest exampleVer exampleEnv "post" [exampleUnit] ⟨[], {}⟩).1.op.requestBody ≠ none) := by
  refine ⟨by decide +kernel, by decide +kernel, by decide +kernel⟩

/-- C16, the limit: a unit with a raw content type has a body for GET, too. -/
theorem C16_raw_body_for_get : (setupRequest exampleVer exampleEnv "get" [{ contentType := "text/csv" }] ⟨[], {}⟩).1.op.requestBody
    = some { body := some { content := [("text/csv", { schema := some () })] } } := by decide +kernel

/-! ## Component schemas -/

/-- The definitions of the request bodies of a unit. -/
def BodyDefinition (env : Env S) (cu : ContentUnit S) (n : String) (d : JS) : Prop :=
  ∃ tag mapping sch defs, ((cu.value env).body tag mapping).result = .ok (sch, defs) ∧ (n, d) ∈ defs

theorem reflectBody_result {env : Env S} {cu : ContentUnit S} {method tag : String} {mapping : GoMap String}
    {tags : List String} {sch : JS} {defs : List (String × JS)} {files : Bool}
    (h : reflectRequestBody env cu method mapping tag tags = .ok (some ((sch, defs), files))) :
    ((cu.value env).body tag mapping).result = .ok (sch, defs) ∧
    (files = true ↔ MeetsFile ((cu.value env).body tag mapping).visited) := by
  unfold reflectRequestBody at h
  rw [input_eq] at h
  simp only at h
  split at h
  · cases h
  · split at h
    · cases h
    · split at h
      · cases h
      · split at h
        · cases h
        · split at h
          · cases h
          · split at h
            · cases h
            · rename_i hr
              cases h
              exact ⟨hr, hasFileUpload_iff _⟩

/-- The component schema of a name is kept, or replaced by a definition of a request body. -/
def SchemasKept (v : Ver S) (env : Env S) (cus : List (ContentUnit S)) (a b : GoMap S) : Prop :=
  ∀ n sc, a.get? n = some sc → ∃ sc', b.get? n = some sc' ∧
    (sc' = sc ∨ ∃ cu ∈ cus, ∃ d, BodyDefinition env cu n d ∧ v.conv d = .ok sc')

theorem SchemasKept.refl (v : Ver S) (env : Env S) (cus : List (ContentUnit S)) (a : GoMap S) :
    SchemasKept v env cus a a := fun _ sc h => ⟨sc, h, .inl rfl⟩

theorem SchemasKept.trans {v : Ver S} {env : Env S} {cus : List (ContentUnit S)} {a b c : GoMap S}
    (h : SchemasKept v env cus a b) (h' : SchemasKept v env cus b c) : SchemasKept v env cus a c := by
  intro n sc hn
  obtain ⟨sc1, h1, h2⟩ := h n sc hn
  obtain ⟨sc2, h3, h4⟩ := h' n sc1 h1
  refine ⟨sc2, h3, ?_⟩
  rcases h4 with rfl | h4
  · exact h2
  · exact .inr h4

theorem schemasKept_fresh {v : Ver S} {env : Env S} {cus : List (ContentUnit S)} {a : GoMap S} {n : String} {sc : S}
    (h : a.get? n = none) : SchemasKept v env cus a (a.set n sc) := by
  intro n' sc' h'
  refine ⟨sc', ?_, .inl rfl⟩
  rw [GoMap.get?_set]
  split
  · rename_i e; rw [e, h] at h'; cases h'
  · exact h'

/-- Component schemas in requests. -/
theorem setupRequest_schemas (v : Ver S) (env : Env S) (method : String) (cus : List (ContentUnit S)) (s : ReqState S) :
    SchemasKept v env cus s.schemas (setupRequest v env method cus s).1.schemas := by
  refine Star.lift (Q := fun a b : ReqState S => SchemasKept v env cus a.schemas b.schemas)
    (fun a => .refl _ _ _ _) (fun a b c h h' => h.trans h') ?_ (setupRequest_within v env method cus s)
  intro a b h
  cases h with
  | @reflect _ cu mem h =>
    cases h with
    | @bodyDef tag mapping tags sch defs files n d sc refl hmem conv =>
      intro n' sc' h'
      simp only [GoMap.get?_set]
      split
      · rename_i e
        subst e
        exact ⟨sc, rfl, .inr ⟨cu, mem, d, ⟨tag, mapping, sch, defs, (reflectBody_result refl).1, hmem⟩, conv⟩⟩
      · exact ⟨sc', h', .inl rfl⟩
    | newDef fresh conv => exact schemasKept_fresh fresh
    | _ => exact .refl _ _ _ _
  | finish mem => exact .refl _ _ _ _

/-! ## Content types of request bodies -/

/-- The customisation of a unit keeps what the predicate says about the body. -/
def CustomizeKeeps (cu : ContentUnit S) (P : RequestBodyOrRef S → Prop) : Prop :=
  ∀ f, cu.customize = some f → ∀ rb, P rb → P (f.req rb)

theorem finishRequest_content (cu : ContentUnit S) (op : Operation S) (ct : String) (P : Option (MediaType S) → Prop)
    (hc : CustomizeKeeps cu fun rb => P (rb.body.bind (·.content.get? ct))) (h : P (reqContent op ct)) :
    P (reqContent (finishRequest cu op) ct) := by
  have key : ∀ op' : Operation S, P (reqContent op' ct) →
      P (reqContent (match cu.customize, op'.requestBody with
        | some f, some rb => { op' with requestBody := some (f.req rb) }
        | _, _ => op') ct) := by
    intro op' h
    split
    · rename_i f rb hf hrb
      have := hc f hf rb (by simpa [reqContent, hrb] using h)
      simpa [reqContent] using this
    · exact h
  unfold finishRequest
  refine key _ ?_
  split
  · rename_i b ref hb
    split
    · simp only [reqContent, hb, Option.bind_some] at h ⊢
      exact h
    · exact h
  · exact h

/-- C19 (requests): whatever the outcome, further request units keep every content type of the request
body, if their customisation does. -/
theorem C19_request_kept (v : Ver S) (env : Env S) (method : String) (cus : List (ContentUnit S)) (s : ReqState S)
    (ct : String)
    (hc : ∀ cu ∈ cus, CustomizeKeeps cu fun rb => (rb.body.bind (·.content.get? ct)).isSome)
    (h : (reqContent s.op ct).isSome) :
    (reqContent (setupRequest v env method cus s).1.op ct).isSome := by
  refine Star.inv (P := fun a : ReqState S => (reqContent a.op ct).isSome) ?_ (setupRequest_within v env method cus s) h
  intro a b hs ha
  cases hs with
  | @reflect _ cu mem h =>
    cases h with
    | body => simp only [reqContent_set]; split <;> simp [ha]
    | raw => simp only [reqContent_set]; split <;> simp [ha]
    | _ => exact ha
  | @finish cu mem => exact finishRequest_content cu _ ct (fun o => o.isSome) (hc cu mem) ha

/-- The content types that a unit can write. -/
def RequestMime (cu : ContentUnit S) (ct : String) : Prop :=
  RawMime cu ct ∨
  (ReflectsParams cu ∧ ct ∈ ["application/json", "application/x-www-form-urlencoded", "multipart/form-data"])

/-- C19 (requests): a media type changes only if a unit writes its content type. -/
theorem C19_request_untouched (v : Ver S) (env : Env S) (method : String) (cus : List (ContentUnit S))
    (s : ReqState S) (ct : String) (mt : Option (MediaType S))
    (hc : ∀ cu ∈ cus, CustomizeKeeps cu fun rb => rb.body.bind (·.content.get? ct) = mt)
    (hw : ∀ cu ∈ cus, ¬ RequestMime cu ct) (h : reqContent s.op ct = mt) :
    reqContent (setupRequest v env method cus s).1.op ct = mt := by
  refine Star.inv (P := fun a : ReqState S => reqContent a.op ct = mt) ?_ (setupRequest_within v env method cus s) h
  intro a b hs ha
  cases hs with
  | @reflect _ cu mem h =>
    cases h with
    | @body mime tag mapping tags sch defs files sc refl conv place kind =>
      simp only [reqContent_set]
      split
      · rename_i e
        refine absurd ?_ (hw cu mem)
        refine .inr ⟨kind, ?_⟩
        subst e
        rcases place with ⟨-, h⟩ | ⟨-, h⟩ <;> rw [h]
        · simp
        · split <;> simp
      · exact ha
    | @raw mime sc h =>
      simp only [reqContent_set]
      split
      · rename_i e; subst e; exact absurd (.inl h) (hw cu mem)
      · exact ha
    | _ => exact ha
  | @finish cu mem => exact finishRequest_content cu _ ct (fun o => o = mt) (hc cu mem) ha

/-! ## Forbidden unknown parameters -/

theorem forbidsAdditional_iff (js : JS) : js.forbidsAdditional = true ↔
    ∃ flat not allOf oneOf anyOf items itemsArr props others,
      js = .obj flat not allOf oneOf anyOf items itemsArr props (some (.bool false)) others := by
  constructor
  · intro h
    unfold JS.forbidsAdditional at h
    split at h
    · exact ⟨_, _, _, _, _, _, _, _, _, rfl⟩
    · cases h
  · rintro ⟨_, _, _, _, _, _, _, _, _, rfl⟩; rfl

theorem ext_key_inj {a b : String} (h : "x-forbid-unknown-" ++ a = "x-forbid-unknown-" ++ b) : a = b := by
  have := congrArg String.toList h
  simp only [String.toList_append, List.append_cancel_left_eq] at this
  exact String.toList_inj.mp this

theorem setupRequest_forbidden_only (v : Ver S) (env : Env S) (method : String) (cus : List (ContentUnit S))
    (s : ReqState S) (inn : String) :
    unknownParamIsForbidden (setupRequest v env method cus s).1.op inn = true →
      unknownParamIsForbidden s.op inn = true ∨ ∃ cu ∈ cus, ForbidsUnknown env cu inn := by
  intro h
  have := Star.inv (P := fun a : ReqState S => unknownParamIsForbidden a.op inn = true →
    unknownParamIsForbidden s.op inn = true ∨ ∃ cu ∈ cus, ForbidsUnknown env cu inn) ?_
    (setupRequest_within v env method cus s) (fun h => .inl h)
  · exact this h
  · intro a b hs ha hb
    cases hs with
    | @reflect _ cu mem h =>
      cases h with
      | @forbid inn' js kind loc nomap res forb =>
        simp only [unknownParamIsForbidden, GoMap.get?_set] at hb
        split at hb
        · rename_i e
          have e := ext_key_inj e
          subst e
          obtain ⟨_, _, _, _, _, _, _, _, _, e⟩ := (forbidsAdditional_iff js).mp forb
          exact .inr ⟨cu, mem, kind, loc, nomap, _, _, _, _, _, _, _, _, _, e ▸ res⟩
        · exact ha hb
      | _ => exact ha hb
    | finish mem =>
      refine ha ?_
      simp only [unknownParamIsForbidden, (finishRequest_frame _ _).2.1] at hb
      exact hb

theorem forbidden_stays (v : Ver S) (env : Env S) (method : String) (cus : List (ContentUnit S))
    {s s' : ReqState S} (inn : String) (h : Star (SetupStep v env method cus) s s')
    (hs : unknownParamIsForbidden s.op inn = true) : unknownParamIsForbidden s'.op inn = true := by
  refine Star.inv (P := fun a : ReqState S => unknownParamIsForbidden a.op inn = true) ?_ h hs
  intro a b hs ha
  cases hs with
  | reflect mem h =>
    cases h with
    | forbid =>
      simp only [unknownParamIsForbidden, GoMap.get?_set]
      split
      · rfl
      · exact ha
    | _ => exact ha
  | finish mem => simp only [unknownParamIsForbidden, (finishRequest_frame _ _).2.1]; exact ha

theorem reqStep_forbidden_stays {v : Ver S} {env : Env S} {method : String} {cu : ContentUnit S}
    {s s' : ReqState S} {inn : String} (h : Star (ReqStep v env method cu) s s')
    (hs : unknownParamIsForbidden s.op inn = true) : unknownParamIsForbidden s'.op inn = true :=
  forbidden_stays v env method [cu] inn (h.mono fun _ _ h => .reflect (by simp) h) hs

theorem parseParametersIn_forbids {v : Ver S} {env : Env S} {cu : ContentUnit S} {inn : String} {s s' : ReqState S}
    (hf : ForbidsUnknown env cu inn) (h : parseParametersIn v env cu inn s = (s', .ok)) :
    unknownParamIsForbidden s'.op inn = true := by
  obtain ⟨-, -, hn, flat, nt, allOf, oneOf, anyOf, items, itemsArr, props, others, hr⟩ := hf
  simp only [parseParametersIn, input_eq, hn, Bool.false_eq_true, if_false] at h
  split at h
  · simp only [hr, JS.forbidsAdditional, if_true] at h
    cases h
    simp [unknownParamIsForbidden, GoMap.get?_set_self]
  · rename_i hne
    exact absurd h (hne _)

theorem parseParameters_forbids {v : Ver S} {env : Env S} {method : String} {cu : ContentUnit S} {inn : String}
    {s s' : ReqState S} (hf : ForbidsUnknown env cu inn) (h : parseParameters v env cu s = (s', .ok)) :
    unknownParamIsForbidden s'.op inn = true := by
  have hk := hf.1
  obtain ⟨-, h⟩ := joinActs_ok h
  obtain ⟨s1, h1, h⟩ := foldActs_cons_ok h
  obtain ⟨s2, h2, h⟩ := foldActs_cons_ok h
  obtain ⟨s3, h3, h⟩ := foldActs_cons_ok h
  obtain ⟨s4, h4, h⟩ := foldActs_cons_ok h
  cases foldActs_nil_ok h
  simp only [id] at h1 h2 h3 h4
  have w : ∀ {i : String} {a b : ReqState S}, i ∈ paramLocations → parseParametersIn v env cu i a = (b, .ok) →
      Star (ReqStep v env method cu) a b := by
    intro i a b hi hab
    have := parseParametersIn_within v env method cu hk hi a
    rw [hab] at this
    exact this
  have hl := hf.2.1
  simp only [paramLocations, List.mem_cons, List.not_mem_nil, or_false] at hl
  have w2 := w (by simp [paramLocations]) h2
  have w3 := w (by simp [paramLocations]) h3
  have w4 := w (by simp [paramLocations]) h4
  rcases hl with rfl | rfl | rfl | rfl
  · exact reqStep_forbidden_stays (w2.trans (w3.trans w4)) (parseParametersIn_forbids hf h1)
  · exact reqStep_forbidden_stays (w3.trans w4) (parseParametersIn_forbids hf h2)
  · exact reqStep_forbidden_stays w4 (parseParametersIn_forbids hf h3)
  · exact parseParametersIn_forbids hf h4

/-- What a successful reflection of a unit with parameters consists of. -/
theorem reflectUnit_ok {v : Ver S} {env : Env S} {method : String} {cu : ContentUnit S} {s s' : ReqState S}
    (hk : ReflectsParams cu) (h : reflectUnit v env method cu s = (s', .ok)) :
    ∃ s1 s2 s3,
      (if cu.contentType = "application/json" then s1 = s else
        parseRequestBody v env cu method "application/x-www-form-urlencoded" (cu.fieldMapping "formData")
          "formData" ["form"] s = (s1, .ok)) ∧
      parseParameters v env cu s1 = (s2, .ok) ∧
      (if cu.contentType = "" ∨ cu.contentType = "application/json" then
        parseRequestBody v env cu method "application/json" [] "json" [] s2 = (s3, .ok) else s3 = s2) ∧
      (if cu.contentType = "" then parseRawRequestBody v cu s3 = (s', .ok) else s' = s3) := by
  simp only [reflectUnit] at h
  split at h
  · rename_i hc
    split at h
    · rename_i s3 h3
      obtain ⟨-, h3⟩ := joinActs_ok h3
      obtain ⟨s1, h1, h3⟩ := foldActs_cons_ok h3
      obtain ⟨s2, h2, h3⟩ := foldActs_cons_ok h3
      obtain ⟨s4, h4, h3⟩ := foldActs_cons_ok h3
      cases foldActs_nil_ok h3
      refine ⟨s1, s2, s3, ?_, h2, ?_, ?_⟩
      · rw [if_neg (by rw [hc]; decide)]; exact h1
      · rw [if_pos (.inl hc)]; exact h4
      · rw [if_pos hc]; exact h
    · rename_i hne
      exact absurd h (hne _)
  · rename_i h0
    split at h
    · rename_i hc
      obtain ⟨-, h⟩ := joinActs_ok h
      obtain ⟨s2, h2, h⟩ := foldActs_cons_ok h
      obtain ⟨s4, h4, h⟩ := foldActs_cons_ok h
      cases foldActs_nil_ok h
      exact ⟨s, s2, s', by rw [if_pos hc], h2, by rw [if_pos (.inr hc)]; exact h4, by rw [if_neg h0]⟩
    · rename_i h1
      split at h
      · obtain ⟨-, h⟩ := joinActs_ok h
        obtain ⟨s1, hf, h⟩ := foldActs_cons_ok h
        obtain ⟨s2, h2, h⟩ := foldActs_cons_ok h
        cases foldActs_nil_ok h
        refine ⟨s1, s', s', by rw [if_neg h1]; exact hf, h2, ?_, by rw [if_neg h0]⟩
        rw [if_neg (by simp [h0, h1])]
      · rename_i h2
        simp only [ReflectsParams, List.mem_cons, List.not_mem_nil, or_false] at hk
        rcases hk with h' | h' | h' | h'
        · exact absurd h' h0
        · exact absurd h' h1
        · exact absurd (.inl h') h2
        · exact absurd (.inr h') h2

theorem setupRequest_cons_ok {v : Ver S} {env : Env S} {method : String} {cu : ContentUnit S}
    {cus : List (ContentUnit S)} {s s' : ReqState S} (h : setupRequest v env method (cu :: cus) s = (s', .ok)) :
    ∃ s1, reflectUnit v env method cu s = (s1, .ok) ∧
      setupRequest v env method cus { s1 with op := finishRequest cu s1.op } = (s', .ok) := by
  simp only [setupRequest] at h
  split at h
  · rename_i s1 h1
    exact ⟨s1, h1, h⟩
  · rename_i hne
    exact absurd h (hne _)

/-- C25: after a successful reflection, unknown parameters of a location are reported as forbidden exactly
if they were before, or some unit forbids them. -/
theorem C25_forbidden_iff (v : Ver S) (env : Env S) (method : String) (cus : List (ContentUnit S))
    (s s' : ReqState S) (inn : String) (h : setupRequest v env method cus s = (s', .ok)) :
    unknownParamIsForbidden s'.op inn = true ↔
      unknownParamIsForbidden s.op inn = true ∨ ∃ cu ∈ cus, ForbidsUnknown env cu inn := by
  constructor
  · intro hf
    refine setupRequest_forbidden_only v env method cus s inn ?_
    rw [h]; exact hf
  · rintro (hf | ⟨cu, hm, hf⟩)
    · refine forbidden_stays v env method cus inn ?_ hf
      have := setupRequest_within v env method cus s
      rw [h] at this
      exact this
    · induction cus generalizing s with
      | nil => cases hm
      | cons cu' cus ih =>
        obtain ⟨s1, h1, h2⟩ := setupRequest_cons_ok h
        rcases List.mem_cons.mp hm with rfl | hm
        · have w := setupRequest_within v env method cus { s1 with op := finishRequest cu s1.op }
          rw [h2] at w
          refine forbidden_stays v env method cus inn w ?_
          simp only [unknownParamIsForbidden, (finishRequest_frame _ _).2.1]
          obtain ⟨s2, s3, s4, -, hp, hj, hr⟩ := reflectUnit_ok hf.1 h1
          have hb := parseParameters_forbids (method := method) hf hp
          have e4 : unknownParamIsForbidden s4.op inn = true := by
            split at hj
            · have w := parseRequestBody_within v env method cu (mime := "application/json") (tag := "json")
                (mapping := []) (tags := []) hf.1 (.inl ⟨rfl, rfl⟩) s3
              rw [hj] at w
              exact reqStep_forbidden_stays w hb
            · rw [hj]; exact hb
          split at hr
          · rename_i hc
            have w := parseRawRequestBody_within v env method cu hc s4
            rw [hr] at w
            exact reqStep_forbidden_stays w e4
          · rw [hr]; exact e4
        · exact ih _ h2 hm

end Verif
