import Verif.Props.ReflectDoc
import Verif.Props.Stored

/-!
# The whole of a reflected operation in a document (C57)
-/

namespace Verif
open ParamSpec DocSpec
variable {S : Type}

/-- Request units change parameters, request body and the marks of forbidden parameters only. -/
theorem setupRequest_rest (v : Ver S) (env : Env S) (method : String) (cus : List (ContentUnit S)) (s : ReqState S) :
    (setupRequest v env method cus s).1.op = { s.op with
      parameters := (setupRequest v env method cus s).1.op.parameters
      requestBody := (setupRequest v env method cus s).1.op.requestBody
      ext := (setupRequest v env method cus s).1.op.ext } := by
  have hset : ∀ (mime : String) (mt : MediaType S) (op : Operation S), setRequestContent mime mt op =
      { op with requestBody := (setRequestContent mime mt op).requestBody } := by
    intro mime mt op
    simp only [setRequestContent]
  have hfin : ∀ (cu : ContentUnit S) (op : Operation S), finishRequest cu op =
      { op with requestBody := (finishRequest cu op).requestBody } := by
    intro cu op
    have key : ∀ op' : Operation S, op' = { op with requestBody := op'.requestBody } →
        (match cu.customize, op'.requestBody with
          | some f, some rb => { op' with requestBody := some (f.req rb) }
          | _, _ => op') = { op with requestBody := (match cu.customize, op'.requestBody with
          | some f, some rb => { op' with requestBody := some (f.req rb) }
          | _, _ => op').requestBody } := by
      intro op' h'
      split
      · rw [h']
      · exact h'
    unfold finishRequest
    refine key _ ?_
    split
    · split <;> rfl
    · rfl
  refine Star.inv (P := fun a : ReqState S => a.op = { s.op with
      parameters := a.op.parameters, requestBody := a.op.requestBody, ext := a.op.ext }) ?_
    (setupRequest_within v env method cus s) rfl
  intro a b h ha
  cases h with
  | reflect mem h =>
    cases h with
    | body => show setRequestContent _ _ _ = _; rw [hset, ha]
    | raw => show setRequestContent _ _ _ = _; rw [hset, ha]
    | bodyDef => exact ha
    | newDef => exact ha
    | param => simp only; rw [ha]
    | forbid => simp only; rw [ha]
  | finish => show finishRequest _ _ = _; rw [hfin, ha]

/-- What a reflected operation is made of: the operation `base` of the context before the call, its request
and response units, and what is stored. `schemas` are the component schemas after the call. -/
structure ReflectedAs (v : Ver S) (env : Env S) (method : String) (base : Operation S)
    (req resp : List (ContentUnit S)) (stored : Operation S) (schemas : GoMap S) : Prop where
  /-- the given parameters, then one for each top-level field of the request structures, in order -/
  parameters : ∃ ps, Pointwise (fun f p => ParamFor v f.1 f.2 p) (req.flatMap (paramFields env)) ps ∧
    stored.parameters = base.parameters ++ ps.map fun p => { param := some p }
  /-- a request body exactly if a unit wants one -/
  body : base.requestBody = none → (stored.requestBody ≠ none ↔ ∃ cu ∈ req, WantsBody env cu method)
  /-- a response in the places that were taken and in those of the units, and 204 if there would be none -/
  responses : ∀ p, (responseIn stored p).isSome ↔
    (responseIn base p).isSome ∨ (∃ cu ∈ resp, placeOf cu = p) ∨ (¬ HasResponses base ∧ resp = [] ∧ p = some "204")
  /-- unknown parameters are forbidden where a unit forbids them -/
  forbidden : ∀ inn, unknownParamIsForbidden stored inn = true ↔
    unknownParamIsForbidden base inn = true ∨ ∃ cu ∈ req, ForbidsUnknown env cu inn
  /-- every definition of the request structures is a component schema -/
  requestDefinitions : ∀ cu ∈ req, ∀ n, RequestDefinition env cu method n → (schemas.get? n).isSome
  /-- every definition of the response structures is a component schema -/
  responseDefinitions : ∀ cu ∈ resp, ∀ value, RespondsJSON env method cu value → ∀ n d,
    Event.defn n d ∈ value.response.events → (schemas.get? n).isSome
  /-- the rest is as given -/
  rest : stored.tags = base.tags ∧ stored.summary = base.summary ∧ stored.description = base.description ∧
    stored.id = base.id ∧ stored.deprecated = base.deprecated ∧ stored.security = base.security

theorem hasResponses_iff (op : Operation S) : HasResponses op ↔ ∃ p, (responseIn op p).isSome := by
  constructor
  · rintro (h | ⟨c, h⟩)
    · exact ⟨none, by simpa [responseIn, Option.isSome_iff_ne_none] using h⟩
    · exact ⟨some c, by simpa [responseIn, Option.isSome_iff_ne_none] using h⟩
  · rintro ⟨p, h⟩
    cases p with
    | none => exact .inl (by simpa [responseIn, Option.isSome_iff_ne_none] using h)
    | some c => exact .inr ⟨c, by simpa [responseIn, Option.isSome_iff_ne_none] using h⟩

theorem reflectedAs_of_setup {v : Ver S} {env : Env S} {method : String} {base stored : Operation S}
    {req resp : List (ContentUnit S)} {sch : GoMap S} {s1 s2 : ReqState S}
    (h1 : setupRequest v env method req ⟨sch, base⟩ = (s1, .ok))
    (h2 : setupResponse v env method resp s1 = (s2, .ok)) (hc : Completed s2.op stored) :
    ReflectedAs v env method base req resp stored s2.schemas := by
  have hr1 := setupRequest_rest v env method req ⟨sch, base⟩
  rw [h1] at hr1
  have hr2 := setupResponse_rest v env method resp s1
  rw [h2] at hr2
  simp only at hr1 hr2
  obtain ⟨f1, f2, f3⟩ := completed_frame hc
  have e1 : s2.op.parameters = s1.op.parameters := by rw [hr2]
  have e2 : s2.op.requestBody = s1.op.requestBody := by rw [hr2]
  have e3 : s2.op.ext = s1.op.ext := by rw [hr2]
  have e4 : s1.op.responses = base.responses := by rw [hr1]
  refine ⟨?_, ?_, ?_, ?_, ?_, ?_, ?_⟩
  · obtain ⟨ps, hp, hq⟩ := C53_parameters_exact v env method req _ _ h1
    exact ⟨ps, hp, by rw [f1, e1, hq]⟩
  · intro hb
    rw [f2, e2]
    exact C16_body_iff v env method req _ _ h1 hb
  · intro p
    have hp := C18_places v env method resp s1 s2 h2
    have hb : ∀ p, responseIn s1.op p = responseIn base p := by
      intro p; cases p <;> simp only [responseIn, e4]
    simp only [hb] at hp
    by_cases hh : HasResponses s2.op
    · rw [hc.1 hh, hp]
      refine ⟨fun h => ?_, fun h => ?_⟩
      · rcases h with h | h
        · exact .inl h
        · exact .inr (.inl h)
      · rcases h with h | h | ⟨h, he, -⟩
        · exact .inl h
        · exact .inr h
        · obtain ⟨q, hq⟩ := (hasResponses_iff _).mp hh
          rw [hp] at hq
          rcases hq with hq | ⟨cu, hcu, -⟩
          · exact absurd ((hasResponses_iff _).mpr ⟨q, hq⟩) h
          · rw [he] at hcu; cases hcu
    · have hno : ∀ p, ¬ (responseIn s2.op p).isSome := fun p h => hh ((hasResponses_iff _).mpr ⟨p, h⟩)
      simp only [hp, not_or] at hno
      rw [hc.2 hh]
      have hresp : resp = [] := by
        cases resp with
        | nil => rfl
        | cons cu cus => exact absurd ⟨cu, List.mem_cons_self, rfl⟩ (hno (placeOf cu)).2
      have hnb : ¬ HasResponses base := fun h => by
        obtain ⟨q, hq⟩ := (hasResponses_iff _).mp h
        exact (hno q).1 hq
      refine ⟨fun h => .inr (.inr ⟨hnb, hresp, ?_⟩), fun h => ?_⟩
      · cases p with
        | none => simp [responseIn] at h
        | some k =>
          simp only [responseIn, GoMap.get?] at h
          by_cases hk : k = "204"
          · rw [hk]
          · simp [Ne.symm hk] at h
      · rcases h with h | h | ⟨-, -, h⟩
        · exact absurd h (hno p).1
        · exact absurd h (hno p).2
        · rw [h]; simp [responseIn, GoMap.get?]
  · intro inn
    have := C25_forbidden_iff v env method req _ _ inn h1
    rw [← this]
    simp only [unknownParamIsForbidden, f3, e3]
  · intro cu hcu n hn
    have := C54_request_definitions v env method req _ _ h1 cu hcu n hn
    obtain ⟨sc, hsc⟩ := Option.isSome_iff_exists.mp this
    have := setupResponse_schemas v env method resp s1 n sc hsc
    rw [h2] at this
    simp [this]
  · intro cu hcu value hj n d hn
    exact C54_response_definitions v env method resp _ _ h2 cu hcu value hj n d hn
  · have hrest : stored.tags = s2.op.tags ∧ stored.summary = s2.op.summary ∧ stored.description = s2.op.description ∧
        stored.id = s2.op.id ∧ stored.deprecated = s2.op.deprecated ∧ stored.security = s2.op.security := by
      by_cases hh : HasResponses s2.op
      · rw [hc.1 hh]; simp
      · rw [hc.2 hh]; simp
    rw [hr2, hr1] at hrest
    exact hrest

end Verif

namespace Verif.V30
open ParamSpec DocSpec
variable {S : Type}

/-- C57: a successful `AddOperation` stores, in the place of the context and nowhere else, an operation that
is made of exactly what its units report. -/
theorem C57_reflected_operation (v : Ver S) (env : Env S) (sp sp' : Spec S) (oc : OpCtx S) (op : Operation S)
    (hm : Made oc) (h : addOperation v env sp oc = (sp', op, .ok)) :
    ∃ stored, sp'.op? oc.path oc.method = some stored ∧
      (∀ path method, ¬ (path = oc.path ∧ method = oc.method) → sp'.op? path method = sp.op? path method) ∧
      ReflectedAs v env oc.method oc.op oc.req oc.resp stored sp'.schemas := by
  obtain ⟨s1, s2, stored, h1, h2, rfl, hcomp, hc, hops, -, hsch, -⟩ := addOperation_ok hm h
  refine ⟨stored, by rw [hops]; simp, fun path method hne => by rw [hops, if_neg hne], ?_⟩
  rw [hsch]
  exact reflectedAs_of_setup h1 h2 hcomp

end Verif.V30

namespace Verif.V31
open ParamSpec DocSpec
variable {S : Type}

/-- C57: a successful `AddOperation` stores, in the place of the context and nowhere else, an operation that
is made of exactly what its units report. -/
theorem C57_reflected_operation (v : Ver S) (env : Env S) (sp sp' : Spec S) (oc : OpCtx S) (op : Operation S)
    (hm : Made oc) (h : addOperation v env sp oc = (sp', op, .ok)) :
    ∃ stored, sp'.op? oc.path oc.method = some stored ∧
      (∀ path, ∀ method ∈ PathSpec.methods, ¬ (path = oc.path ∧ method = oc.method) → sp'.op? path method = sp.op? path method) ∧
      ReflectedAs v env oc.method oc.op oc.req oc.resp stored sp'.schemas := by
  obtain ⟨s1, s2, stored, h1, h2, rfl, hcomp, hc, hops, -, hsch, -⟩ := addOperation_ok hm h
  refine ⟨stored, by rw [hops _ _ hc.1]; simp, fun path method hk hne => by rw [hops _ _ hk, if_neg hne], ?_⟩
  rw [hsch]
  exact reflectedAs_of_setup h1 h2 hcomp

/-- C57 for webhooks: a successful `AddWebhook` stores such an operation under the name, alone in its path
item, and changes no path and no other webhook. -/
theorem C57_reflected_webhook (v : Ver S) (env : Env S) (sp sp' : Spec S) (oc : OpCtx S) (op : Operation S)
    (hm : Made oc) (h : addWebhook v env sp oc = (sp', op, .ok)) :
    ∃ item stored, sp.webhooks.get? oc.path = none ∧
      (∀ n ∈ PathSpec.methods, item.operation n = .ok (if n = oc.method then some stored else none)) ∧
      (∀ name, sp'.webhooks.get? name = if name = oc.path then some item else sp.webhooks.get? name) ∧
      sp' = { sp with webhooks := sp'.webhooks, schemas := sp'.schemas } ∧
      ReflectedAs v env oc.method oc.op oc.req oc.resp stored sp'.schemas := by
  obtain ⟨r, hr, er, ep, -⟩ := hm.sanitized
  unfold addWebhook at h
  split at h
  · rename_i s2 hs
    obtain ⟨s1, h1, -, h2⟩ := setupOC_ok hs
    simp only [Prod.mk.injEq] at h
    obtain ⟨e1, e2, e3⟩ := h
    have hadd : ({ sp with schemas := s2.schemas } : Spec S).addWebhook oc.method oc.path s2.op = (sp', none) := by
      rw [← e1]
      generalize ({ sp with schemas := s2.schemas } : Spec S).addWebhook oc.method oc.path s2.op = x at e3
      obtain ⟨x1, x2⟩ := x
      cases x2 with
      | none => rfl
      | some e => cases e3
    obtain ⟨hbad, hgood⟩ := C12_webhooks ({ sp with schemas := s2.schemas } : Spec S) oc.method oc.path s2.op
    have hfree : sp.webhooks.get? oc.path = none := by
      cases hw : sp.webhooks.get? oc.path with
      | none => rfl
      | some i =>
        obtain ⟨e, he⟩ := hbad (.inl (by rw [hw]; simp))
        rw [hadd] at he
        cases he
    have hmk := (C01_methods oc.method oc.path).2.1 r hr
    rw [er] at hmk
    obtain ⟨item, stored, hc, hitem, -, -, hooks, he, hh⟩ := hgood oc.method hmk.1 hfree hmk.2
    rw [hadd] at he
    cases he
    exact ⟨item, stored, hfree, hitem, hh, rfl, reflectedAs_of_setup h1 h2 hc⟩
  · rename_i s2 out hne hs
    simp only [Prod.mk.injEq] at h
    obtain ⟨-, -, rfl⟩ := h
    exact absurd rfl hne

/-- C21 for webhooks: when `AddWebhook` does not succeed, only component schemas may differ. -/
theorem C21_webhook_failure (v : Ver S) (env : Env S) (sp sp' : Spec S) (oc : OpCtx S) (op : Operation S) (out : Out)
    (hm : Made oc) (h : addWebhook v env sp oc = (sp', op, out)) (ho : out ≠ .ok) :
    sp' = { sp with schemas := sp'.schemas } := by
  obtain ⟨r, hr, er, ep, -⟩ := hm.sanitized
  have hmk := (C01_methods oc.method oc.path).2.1 r hr
  rw [er] at hmk
  unfold addWebhook at h
  split at h
  · rename_i s2 hs
    simp only [Prod.mk.injEq] at h
    obtain ⟨e1, e2, e3⟩ := h
    obtain ⟨hbad, hgood⟩ := C12_webhooks ({ sp with schemas := s2.schemas } : Spec S) oc.method oc.path s2.op
    cases hw : sp.webhooks.get? oc.path with
    | none =>
      obtain ⟨item, stored, -, -, -, -, hooks, he, -⟩ := hgood oc.method hmk.1 hw hmk.2
      rw [he] at e3
      exact absurd e3.symm ho
    | some i =>
      obtain ⟨e, he⟩ := hbad (.inl (by rw [hw]; simp))
      rw [he] at e1
      rw [← e1]
  · simp only [Prod.mk.injEq] at h
    rw [← h.1]

/-! ## Histories with operations and webhooks -/

/-- A call of the 3.1 reflector: `AddOperation` or `AddWebhook`. -/
inductive ReflectorCall (S : Type) where
  | add (env : Env S) (oc : OpCtx S)
  | webhook (env : Env S) (oc : OpCtx S)

/-- The environment and the context of a call. -/
def ReflectorCall.args : ReflectorCall S → Env S × OpCtx S
  | .add env oc => (env, oc)
  | .webhook env oc => (env, oc)

/-- The document after a call. -/
def ReflectorCall.run (v : Ver S) (sp : Spec S) : ReflectorCall S → Spec S
  | .add env oc => (addOperation v env sp oc).1
  | .webhook env oc => (addWebhook v env sp oc).1

theorem addWebhook_keeps_schemas (sp : Spec S) (m p : String) (op : Operation S) :
    (sp.addWebhook m p op).1.schemas = sp.schemas ∧ (sp.addWebhook m p op).1.paths = sp.paths := by
  unfold Spec.addWebhook
  split
  · exact ⟨rfl, rfl⟩
  · simp only
    split
    · exact ⟨rfl, rfl⟩
    · split <;> exact ⟨rfl, rfl⟩

theorem addWebhook_schemas (v : Ver S) (env : Env S) (sp : Spec S) (oc : OpCtx S) :
    (addWebhook v env sp oc).1.schemas = (setupOC v env oc ⟨sp.schemas, oc.op⟩).1.schemas ∧
    (addWebhook v env sp oc).1.paths = sp.paths := by
  unfold addWebhook
  split
  · rename_i s2 hs
    rw [hs]
    have hk := addWebhook_keeps_schemas ({ sp with schemas := s2.schemas } : Spec S) oc.method oc.path s2.op
    generalize ({ sp with schemas := s2.schemas } : Spec S).addWebhook oc.method oc.path s2.op = x at hk
    exact hk
  · rename_i hs
    rw [hs]
    exact ⟨rfl, rfl⟩

/-- C20 for all calls of the 3.1 reflector. -/
theorem C20_schemas_kept_all (v : Ver S) (calls : List (ReflectorCall S)) (sp : Spec S) (n : String) (sc : S)
    (hn : sp.schemas.get? n = some sc) :
    ∃ sc', (calls.foldl (ReflectorCall.run v) sp).schemas.get? n = some sc' ∧
      (sc' = sc ∨ ∃ c ∈ calls, ∃ cu ∈ c.args.2.req, ∃ d, BodyDefinition c.args.1 cu n d ∧ v.conv d = .ok sc') := by
  induction calls generalizing sp sc with
  | nil => exact ⟨sc, hn, .inl rfl⟩
  | cons c cs ih =>
    have hrun : (c.run v sp).schemas = (setupOC v c.args.1 c.args.2 ⟨sp.schemas, c.args.2.op⟩).1.schemas := by
      cases c with
      | add env oc => exact addOperation_schemas v env sp oc
      | webhook env oc => exact (addWebhook_schemas v env sp oc).1
    obtain ⟨sc1, h1, h2⟩ := setupOC_schemas v c.args.1 c.args.2 ⟨sp.schemas, c.args.2.op⟩ n sc hn
    rw [← hrun] at h1
    obtain ⟨sc2, h3, h4⟩ := ih _ _ h1
    refine ⟨sc2, h3, ?_⟩
    rcases h4 with rfl | ⟨d, hd, h4⟩
    · rcases h2 with rfl | h2
      · exact .inl rfl
      · exact .inr ⟨c, List.mem_cons_self, h2⟩
    · exact .inr ⟨d, List.mem_cons_of_mem _ hd, h4⟩

/-- C22 for all calls of the 3.1 reflector: operations and webhooks that are in the document stay. -/
theorem C22_history_all (v : Ver S) (calls : List (ReflectorCall S)) (hm : ∀ c ∈ calls, Made c.args.2) (sp : Spec S) :
    (∀ path, ∀ method ∈ PathSpec.methods, ∀ old, sp.op? path method = some old →
      (calls.foldl (ReflectorCall.run v) sp).op? path method = some old) ∧
    (∀ name item, sp.webhooks.get? name = some item →
      (calls.foldl (ReflectorCall.run v) sp).webhooks.get? name = some item) := by
  induction calls generalizing sp with
  | nil => exact ⟨fun _ _ _ _ h => h, fun _ _ h => h⟩
  | cons c cs ih =>
    have hmc := hm c List.mem_cons_self
    obtain ⟨i1, i2⟩ := ih (fun d hd => hm d (List.mem_cons_of_mem _ hd)) (c.run v sp)
    have step : (∀ path, ∀ method ∈ PathSpec.methods, ∀ old, sp.op? path method = some old →
        (c.run v sp).op? path method = some old) ∧
      (∀ name item, sp.webhooks.get? name = some item → (c.run v sp).webhooks.get? name = some item) := by
      cases c with
      | add env oc =>
        refine ⟨fun path method hk old hold => C22_history v [(env, oc)] (by simpa [ReflectorCall.args] using hmc) sp path method hk old hold, ?_⟩
        intro name item h
        have : (addOperation v env sp oc).1.webhooks = sp.webhooks := by
          rcases hx : addOperation v env sp oc with ⟨sp', op, out⟩
          by_cases ho : out = .ok
          · subst ho
            obtain ⟨s1, s2, stored, -, -, -, -, -, -, -, -, hfr, -⟩ := addOperation_ok hmc hx
            simp only
            rw [hfr]
          · simp only
            rw [(C21_failure v env sp sp' oc op out hmc hx ho).2.1]
        show (addOperation v env sp oc).1.webhooks.get? name = some item
        rw [this]
        exact h
      | webhook env oc =>
        refine ⟨fun path method hk old hold => ?_, ?_⟩
        · show (addWebhook v env sp oc).1.op? path method = some old
          simp only [Spec.op?, Spec.pathItem, (addWebhook_schemas v env sp oc).2]
          exact hold
        · intro name item h
          show (addWebhook v env sp oc).1.webhooks.get? name = some item
          rcases hx : addWebhook v env sp oc with ⟨sp', op, out⟩
          by_cases ho : out = .ok
          · subst ho
            obtain ⟨item', stored, hfree, -, hw, -⟩ := C57_reflected_webhook v env sp sp' oc op hmc hx
            simp only
            rw [hw]
            split
            · rename_i e; rw [e, hfree] at h; cases h
            · exact h
          · simp only
            rw [C21_webhook_failure v env sp sp' oc op out hmc hx ho]
            exact h
    exact ⟨fun path method hk old hold => i1 path method hk old (step.1 path method hk old hold),
      fun name item h => i2 name item (step.2 name item h)⟩

end Verif.V31

namespace Verif

/-- A path parameter of the example below. -/
def exId : PropCall Unit := { processed := true, pathLen := 1, name := "id", schema := .bool true }

/-- A unit with a path parameter. -/
def exPathUnit : ContentUnit Unit :=
  { structure_ := some
      { params := fun inn _ => ⟨if inn = "path" then [.prop exId] else [], .ok (.bool true)⟩ } }

/-- A context for `PUT /things/{id:[0-9]+}` with two request units and a default response. -/
def exContext : OpCtx Unit where
  method := "put"
  path := "/things/{id}"
  pathParams := ["id"]
  req := [exUnit, exPathUnit]
  resp := [{ isDefault := true, description := "fails" }]

/-- The example meets the hypotheses of the theorems about documents. -/
example : V30.Made exContext ∧ V31.Made exContext ∧ ParamSpec.StandardLocations exContext.op.parameters ∧
    PathParamsRequired exContext.op ∧ ∀ cu ∈ exContext.req, LocationStable exampleEnv cu := by
  have hs : sanitizeMethodPath "Put" "/things/{id:[0-9]+}" = .ok ⟨"put", "/things/{id}", ["id"]⟩ := by decide +kernel
  have hp : (({} : V31.Spec Unit).pathItem "/things/{id}").operation "put" = .ok none := by decide +kernel
  refine ⟨⟨{}, "Put", "/things/{id:[0-9]+}", { method := "put", path := "/things/{id}", pathParams := pathParamsMap ["id"] },
      by simp only [V30.newOperationContext, hs]; rfl, rfl, rfl, by decide +kernel⟩,
    ⟨{}, "Put", "/things/{id:[0-9]+}", { method := "put", path := "/things/{id}", pathParams := pathParamsMap ["id"] },
      by simp only [V31.newOperationContext, hs, hp], rfl, rfl, by decide +kernel⟩, ?_, ?_, ?_⟩
  · intro q hq; simp [exContext, ParamSpec.inlineParams] at hq
  · intro q hq; simp [exContext, ParamSpec.inlineParams] at hq
  · intro cu hcu inn mapping c hc p q hpq
    simp only [exContext, List.mem_cons, List.not_mem_nil, or_false] at hcu
    rcases hcu with rfl | rfl
    · simp only [ContentUnit.value, exUnit, exValue, Option.getD_some] at hc
      split at hc
      · simp only [List.mem_singleton, Event.prop.injEq] at hc
        subst hc
        cases hpq
        rfl
      · cases hc
    · simp only [ContentUnit.value, exPathUnit, Option.getD_some] at hc
      split at hc
      · simp only [List.mem_singleton, Event.prop.injEq] at hc
        subst hc
        cases hpq
        rfl
      · cases hc

/-- Adding it succeeds once, with a parameter of each unit, and not again. -/
example : (V30.addOperation exampleVer exampleEnv {} exContext).2.2 = .ok ∧
    ((V30.addOperation exampleVer exampleEnv {} exContext).1.op? "/things/{id}" "put").map
      (fun o => (o.parameters.filterMap (·.param)).map fun q => (q.inn, q.name, q.required)) =
      some [("query", "ids", none), ("path", "id", some true)] ∧
    (V30.addOperation exampleVer exampleEnv (V30.addOperation exampleVer exampleEnv {} exContext).1 exContext).2.2 ≠ .ok ∧
    (V31.addOperation exampleVer exampleEnv {} exContext).2.2 = .ok ∧
    (V31.addWebhook exampleVer exampleEnv {} exContext).2.2 = .ok := by
  refine ⟨by decide +kernel, by decide +kernel, by decide +kernel, by decide +kernel, by decide +kernel⟩

end Verif
