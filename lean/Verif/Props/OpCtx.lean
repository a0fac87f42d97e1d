import Verif.Spec.OpCtx
import Verif.Deprecated
import Verif.Props.ResponseStored
import Verif.Props.Stored

/-!
# Operation contexts (C43), content units (C44), references (C61), the old interface of 3.0 (C62)
-/

namespace Verif
variable {S : Type}

theorem lastSet_nil {α β : Type} (f : α → Option β) (b : β) : lastSet f [] b = b := rfl

theorem lastSet_cons {α β : Type} (f : α → Option β) (c : α) (cs : List α) (b : β) :
    lastSet f (c :: cs) b = lastSet f cs ((f c).getD b) := by
  unfold lastSet
  cases h : f c with
  | none => rw [List.filterMap_cons_none h]; rfl
  | some x =>
    rw [List.filterMap_cons_some h, List.getLast?_cons]
    rfl

/-- C43: after any sequence of calls every getter returns what was set last, or what it returned before if
nothing was set; security requirements and units are appended, in order, each once. -/
theorem C43_getters (oc : OpCtx S) (calls : List (CtxCall S)) :
    let oc' := calls.foldl CtxCall.run oc
    oc'.tags = lastSet CtxCall.tags? calls oc.tags ∧
    oc'.isDeprecated = lastSet CtxCall.deprecated? calls oc.isDeprecated ∧
    oc'.summary = lastSet CtxCall.summary? calls oc.summary ∧
    oc'.description = lastSet CtxCall.description? calls oc.description ∧
    oc'.id = lastSet CtxCall.id? calls oc.id ∧
    oc'.isProcessingResponse = lastSet CtxCall.processingResponse? calls oc.isProcessingResponse ∧
    oc'.processingIn = lastSet CtxCall.processingIn? calls oc.processingIn ∧
    oc'.method = lastSet CtxCall.method? calls oc.method ∧
    oc'.path = lastSet CtxCall.path? calls oc.path ∧
    oc'.op.security = oc.op.security ++ calls.filterMap CtxCall.security? ∧
    (∃ units, oc'.req = oc.req ++ units ∧
      Pointwise (fun g u => ∃ u0, StartsFrom g.1 u0 ∧ AppliedInOrder g.2 u0 u) (calls.filterMap CtxCall.req?) units) ∧
    (∃ units, oc'.resp = oc.resp ++ units ∧
      Pointwise (fun g u => ∃ u0, StartsFrom g.1 u0 ∧ AppliedInOrder g.2 u0 u) (calls.filterMap CtxCall.resp?) units) ∧
    (∀ inn, oc'.unknownParamsAreForbidden inn = oc.unknownParamsAreForbidden inn) ∧
    oc'.pathParams = oc.pathParams ∧ oc'.op.parameters = oc.op.parameters ∧ oc'.op.requestBody = oc.op.requestBody ∧
    oc'.op.responses = oc.op.responses := by
  have applied : ∀ (fs : List (ContentOption S)) (a : ContentUnit S), AppliedInOrder fs a (fs.foldl (fun c o => o c) a) := by
    intro fs
    induction fs with
    | nil => exact fun a => .nil a
    | cons f fs ih => exact fun a => .cons (ih (f a))
  have made : ∀ (g : Given S) (fs : List (ContentOption S)), ∃ u0, StartsFrom g u0 ∧ AppliedInOrder fs u0 (makeUnit g fs) := by
    intro g fs
    cases g with
    | preparer f => exact ⟨_, .prepared f, applied fs _⟩
    | value v => exact ⟨_, .given v, applied fs _⟩
  induction calls generalizing oc with
  | nil =>
    refine ⟨rfl, rfl, rfl, rfl, rfl, rfl, rfl, rfl, rfl, ?_, ⟨[], ?_, .nil⟩, ⟨[], ?_, .nil⟩, fun _ => rfl, rfl, rfl, rfl, rfl⟩ <;>
      simp
  | cons c cs ih =>
    obtain ⟨h1, h2, h3, h4, h5, h6, h7, h8, h9, h10, ⟨us, h11, h11'⟩, ⟨rs, h12, h12'⟩, h13, h14, h15, h16, h17⟩ := ih (c.run oc)
    simp only [List.foldl_cons, lastSet_cons]
    rw [h1, h2, h3, h4, h5, h6, h7, h8, h9, h10, h11, h12, h14, h15, h16, h17]
    simp only [h13]
    cases c <;>
      refine ⟨rfl, rfl, rfl, rfl, rfl, rfl, rfl, rfl, rfl, ?_, ?_, ?_, fun _ => rfl, rfl, rfl, rfl, rfl⟩
    all_goals first
      | rfl
      | exact ⟨us, rfl, h11'⟩
      | exact ⟨rs, rfl, h12'⟩
      | exact List.append_assoc _ [_] _
      | exact ⟨makeUnit _ _ :: us, List.append_assoc _ [_] _, .cons (made _ _) h11'⟩
      | exact ⟨makeUnit _ _ :: rs, List.append_assoc _ [_] _, .cons (made _ _) h12'⟩

/-! ## C44: content units -/

/-- C44: the mapping of a location is the last one that was set for it and is not empty; nothing else changes. -/
theorem C44_field_mapping (cu : ContentUnit S) (sets : List (String × GoMap String)) :
    let cu' := sets.foldl (fun c s => c.setFieldMapping s.1 s.2) cu
    (∀ inn, cu'.fieldMapping inn =
      lastSet (fun s => if s.1 = inn ∧ s.2 ≠ [] then some s.2 else none) sets (cu.fieldMapping inn)) ∧
    { cu' with fieldMapping_ := cu.fieldMapping_ } = cu := by
  induction sets generalizing cu with
  | nil => exact ⟨fun _ => rfl, rfl⟩
  | cons s sets ih =>
    obtain ⟨h1, h2⟩ := ih (cu.setFieldMapping s.1 s.2)
    refine ⟨fun inn => ?_, ?_⟩
    · rw [List.foldl_cons, h1, lastSet_cons]
      congr 1
      unfold ContentUnit.setFieldMapping ContentUnit.fieldMapping
      by_cases he : s.2 = []
      · simp [he]
      · have hl : ¬ s.2.length = 0 := by simpa using he
        rw [if_neg hl, GoMap.get?_set]
        by_cases hi : inn = s.1
        · subst hi; simp [he]
        · have hi' : ¬ s.1 = inn := fun e => hi e.symm
          simp [hi, hi']
    · rw [List.foldl_cons]
      have h3 : ∀ c : ContentUnit S, { c.setFieldMapping s.1 s.2 with fieldMapping_ := cu.fieldMapping_ } =
          { c with fieldMapping_ := cu.fieldMapping_ } := by
        intro c; unfold ContentUnit.setFieldMapping; split <;> rfl
      have h4 := congrArg (fun c : ContentUnit S => { c with fieldMapping_ := cu.fieldMapping_ }) h2
      simp only at h4
      rw [h3 cu] at h4
      exact h4

/-- The options of the library. -/
inductive StdOption (S : Type) where
  | contentType (ct : String)
  | httpStatus (st : Int)
  | customize (f : Customize S)
  | reference (ref : String)

/-- The function that the option is. -/
def StdOption.fn : StdOption S → ContentOption S
  | .contentType ct => withContentType ct
  | .httpStatus st => withHTTPStatus st
  | .customize f => withCustomize f
  | .reference r => withReference r

def StdOption.contentType? : StdOption S → Option String | .contentType x => some x | _ => none
def StdOption.httpStatus? : StdOption S → Option Int | .httpStatus x => some x | _ => none

/-- The option that decides about customisation. -/
def StdOption.customize? : StdOption S → Option (StdOption S)
  | .customize f => some (.customize f)
  | .reference r => some (.reference r)
  | _ => none

/-- C44: of several options of the library for one attribute the last one counts; the structure and the other
attributes stay as they were given. -/
theorem C44_options (g : Option (Value S)) (options : List (StdOption S)) :
    let cu := makeUnit (.value g) (options.map StdOption.fn)
    cu.structure_ = g ∧
    cu.contentType = lastSet StdOption.contentType? options "" ∧
    cu.httpStatus = lastSet StdOption.httpStatus? options 0 ∧
    (match (options.filterMap StdOption.customize?).getLast? with
      | some (.customize f) => cu.customize = some f
      | some (.reference r) => ∃ f, cu.customize = some f ∧
          (∀ b, f.req b = { b with body := none, ref := some r }) ∧
          ∀ e, f.resp e = { e with response := none, ref := some r }
      | _ => cu.customize = none) ∧
    cu.format = "" ∧ cu.isDefault = false ∧ cu.description = "" ∧ ∀ inn, cu.fieldMapping inn = [] := by
  have gen : ∀ (os : List (StdOption S)) (c : ContentUnit S),
      let cu := (os.map StdOption.fn).foldl (fun c o => o c) c
      cu.structure_ = c.structure_ ∧ cu.contentType = lastSet StdOption.contentType? os c.contentType ∧
      cu.httpStatus = lastSet StdOption.httpStatus? os c.httpStatus ∧
      (match (os.filterMap StdOption.customize?).getLast? with
        | some (.customize f) => cu.customize = some f
        | some (.reference r) => ∃ f, cu.customize = some f ∧
          (∀ b, f.req b = { b with body := none, ref := some r }) ∧
          ∀ e, f.resp e = { e with response := none, ref := some r }
        | _ => cu.customize = c.customize) ∧
      cu.format = c.format ∧ cu.isDefault = c.isDefault ∧ cu.description = c.description ∧
      cu.fieldMapping_ = c.fieldMapping_ := by
    intro os
    induction os with
    | nil => intro c; exact ⟨rfl, rfl, rfl, rfl, rfl, rfl, rfl, rfl⟩
    | cons o os ih =>
      intro c
      obtain ⟨h1, h2, h3, h4, h5, h6, h7, h8⟩ := ih (o.fn c)
      simp only [List.map_cons, List.foldl_cons, lastSet_cons]
      rw [h1, h2, h3, h5, h6, h7, h8]
      refine ⟨by cases o <;> rfl, by cases o <;> rfl, by cases o <;> rfl, ?_, by cases o <;> rfl, by cases o <;> rfl,
        by cases o <;> rfl, by cases o <;> rfl⟩
      cases o with
      | contentType ct => exact h4
      | httpStatus st => exact h4
      | customize f =>
        rw [List.filterMap_cons_some (show StdOption.customize? (.customize f) = some _ from rfl), List.getLast?_cons]
        cases hl : (os.filterMap StdOption.customize?).getLast? with
        | none => rw [hl] at h4; exact h4
        | some o' =>
          rw [hl] at h4
          have hm := List.mem_of_getLast? hl
          rw [List.mem_filterMap] at hm
          obtain ⟨x, -, hx⟩ := hm
          cases x <;> cases hx <;> exact h4
      | reference r =>
        rw [List.filterMap_cons_some (show StdOption.customize? (.reference r) = some _ from rfl), List.getLast?_cons]
        cases hl : (os.filterMap StdOption.customize?).getLast? with
        | none => rw [hl] at h4; exact ⟨_, h4, fun _ => rfl, fun _ => rfl⟩
        | some o' =>
          rw [hl] at h4
          have hm := List.mem_of_getLast? hl
          rw [List.mem_filterMap] at hm
          obtain ⟨x, -, hx⟩ := hm
          cases x <;> cases hx <;> exact h4
  obtain ⟨h1, h2, h3, h4, h5, h6, h7, h8⟩ := gen options { structure_ := g }
  exact ⟨h1, h2, h3, h4, h5, h6, h7, fun inn => by simp only [makeUnit, ContentUnit.fieldMapping]; rw [h8]; rfl⟩

/-! ## C61: references -/

/-- The unit was made a reference. -/
def IsReference (cu : ContentUnit S) (r : String) : Prop := ∃ cu0 : ContentUnit S, cu = withReference r cu0

/-- C61: the response of a unit with a reference is the reference, without inline content. -/
theorem C61_response_reference (v : Ver S) (env : Env S) (method : String) (after : List (ContentUnit S))
    (cu : ContentUnit S) (s s' : ReqState S) (h : setupResponse v env method (cu :: after) s = (s', .ok))
    (hafter : ∀ u ∈ after, placeOf u ≠ placeOf cu) (r : String) (hr : IsReference cu r) :
    responseIn s'.op (placeOf cu) = some { response := none, ref := some r } := by
  obtain ⟨cu0, rfl⟩ := hr
  obtain ⟨resp, s0, -, -, h3⟩ := C23_response_customize v env method after _ s s' h hafter _ rfl
  exact h3

/-- C61: if the last request unit has a reference, the request body is that reference, without inline content,
provided that there is a request body at all. -/
theorem C61_request_reference (v : Ver S) (env : Env S) (method : String) (before : List (ContentUnit S))
    (cu : ContentUnit S) (s s' : ReqState S) (h : setupRequest v env method (before ++ [cu]) s = (s', .ok))
    (r : String) (hr : IsReference cu r) :
    s'.op.requestBody = none ∨ s'.op.requestBody = some { body := none, ref := some r } := by
  obtain ⟨cu0, rfl⟩ := hr
  induction before generalizing s with
  | nil =>
    obtain ⟨s1, h1, h2⟩ := setupRequest_cons_ok h
    cases h2
    show (finishRequest (withReference r cu0) s1.op).requestBody = none ∨ _
    cases hb : s1.op.requestBody with
    | none => exact .inl ((finishRequest_frame _ _).2.2 hb)
    | some rb =>
      refine .inr ?_
      obtain ⟨body, ref⟩ := rb
      unfold finishRequest
      rw [hb]
      cases body with
      | none => dsimp only; rw [hb]; rfl
      | some b =>
        dsimp only
        by_cases hd : (withReference r cu0).description ≠ ""
        · rw [if_pos hd]; rfl
        · rw [if_neg hd, hb]; rfl
  | cons c cs ih =>
    obtain ⟨s1, h1, h2⟩ := setupRequest_cons_ok h
    exact ih _ h2

/-! ## C62: the old interface of the 3.0 reflector -/

/-- C25: what an operation context says of its operation after a successful reflection: unknown parameters of a location are
forbidden exactly if the operation had the extension `x-forbid-unknown-` for the location, or some unit forbids them. -/
theorem C25_context (v : Ver S) (env : Env S) (method : String) (cus : List (ContentUnit S))
    (s s' : ReqState S) (inn : String) (h : setupRequest v env method cus s = (s', .ok)) (oc : OpCtx S) (ho : oc.op = s'.op) :
    oc.unknownParamsAreForbidden inn = true ↔
      GoMap.get? s.op.ext ("x-forbid-unknown-" ++ inn) = some true ∨ ∃ cu ∈ cus, ForbidsUnknown env cu inn := by
  have e : ∀ o : Operation S, unknownParamIsForbidden o inn = true ↔
      GoMap.get? o.ext ("x-forbid-unknown-" ++ inn) = some true := by
    intro o
    unfold unknownParamIsForbidden
    cases GoMap.get? o.ext ("x-forbid-unknown-" ++ inn) <;> simp
  rw [← e, ← C25_forbidden_iff v env method cus s s' inn h, ← ho]
  rfl

namespace V30

/-- The value that is given, if it is not a preparer. -/
def Plain : Given S → Prop
  | .value _ => True
  | .preparer _ => False

/-- C62: translating an old context to a new one and back keeps everything but the operation, as long as input
and output are plain values. -/
theorem C62_contexts (c : OldCtx S) (hin : Plain c.input) (hout : Plain c.output) :
    fromOpCtx (toOpCtx c) = { c with operation := {} } ∧ (toOpCtx c).op = c.operation := by
  obtain ⟨op, inp, m, q, p, ck, hd, fd, out, st, ct, rh, pr, pi⟩ := c
  cases inp with
  | preparer f => cases hin
  | value vi =>
    cases out with
    | preparer f => cases hout
    | value vo =>
      refine ⟨?_, rfl⟩
      have e : ∀ (m : GoMap String), m.length = 0 → m = [] := fun m h => by simpa using h
      have h1 := (C44_field_mapping ({ structure_ := vi } : ContentUnit S)
        [("header", hd), ("query", q), ("cookie", ck), ("path", p), ("formData", fd)])
      have h2 := (C44_field_mapping ({ structure_ := vo, contentType := ct, httpStatus := st } : ContentUnit S)
        [("header", rh)])
      simp only [List.foldl_cons, List.foldl_nil] at h1 h2
      obtain ⟨h1, h1'⟩ := h1
      obtain ⟨h2, h2'⟩ := h2
      simp only [fromOpCtx, toOpCtx, OpCtx.addReqStructure, OpCtx.addRespStructure, OpCtx.setProcessingIn,
        OpCtx.setIsProcessingResponse, makeUnit, List.foldl_cons, List.foldl_nil, List.nil_append, fromReq, fromResp,
        OldCtx.reqOption, OldCtx.respOption, h1, h2, lastSet_cons, lastSet_nil]
      have a1 := congrArg ContentUnit.structure_ h1'
      have a2 := congrArg ContentUnit.structure_ h2'
      have a3 := congrArg ContentUnit.contentType h2'
      have a4 := congrArg ContentUnit.httpStatus h2'
      simp only at a1 a2 a3 a4
      rw [a1, a2, a3, a4]
      have em : ∀ (m : GoMap String), (if m = [] then none else some m).getD [] = m := by
        intro m; by_cases h : m = [] <;> simp [h]
      simp [ContentUnit.fieldMapping, em, GoMap.get?]

/-- C62: the old setters do what the new interface does with one unit: for requests the given input with the
given mappings, for responses the given output with content type, status and header mapping. -/
theorem C62_setters (v : Ver S) (env : Env S) (schemas : GoMap S) (c : OldCtx S) :
    (∃ u u0, oldSetupRequest v env schemas c = setupRequest v env c.httpMethod [u] ⟨schemas, c.operation⟩ ∧
      StartsFrom c.input u0 ∧
      { u with fieldMapping_ := u0.fieldMapping_ } = u0 ∧
      ∀ inn m, (inn, m) ∈ [("query", c.reqQuery), ("path", c.reqPath), ("cookie", c.reqCookie),
        ("header", c.reqHeader), ("formData", c.reqFormData)] → m ≠ [] → u.fieldMapping inn = m) ∧
    (∃ u u0, oldSetupResponse v env schemas c = setupResponse v env c.httpMethod [u] ⟨schemas, c.operation⟩ ∧
      StartsFrom c.output u0 ∧
      { u with fieldMapping_ := u0.fieldMapping_ } =
        { u0 with contentType := c.respContentType, httpStatus := c.httpStatus } ∧
      (c.respHeader ≠ [] → u.fieldMapping "header" = c.respHeader)) := by
  have start : ∀ g : Given S, StartsFrom g (makeUnit g []) := by
    intro g
    cases g with
    | preparer f => exact .prepared f
    | value v => exact .given v
  constructor
  · have h := C44_field_mapping (makeUnit c.input [])
      [("header", c.reqHeader), ("query", c.reqQuery), ("cookie", c.reqCookie), ("path", c.reqPath), ("formData", c.reqFormData)]
    simp only [List.foldl_cons, List.foldl_nil] at h
    refine ⟨c.reqOption (makeUnit c.input []), makeUnit c.input [], rfl, start _, h.2, ?_⟩
    intro inn m hm hne
    unfold OldCtx.reqOption
    rw [h.1 inn]
    simp only [List.mem_cons, Prod.mk.injEq, List.not_mem_nil, or_false] at hm
    rcases hm with ⟨rfl, rfl⟩ | ⟨rfl, rfl⟩ | ⟨rfl, rfl⟩ | ⟨rfl, rfl⟩ | ⟨rfl, rfl⟩ <;> simp [lastSet_cons, lastSet_nil, hne]
  · have h := C44_field_mapping
      ({ makeUnit c.output [] with contentType := c.respContentType, httpStatus := c.httpStatus } : ContentUnit S)
      [("header", c.respHeader)]
    simp only [List.foldl_cons, List.foldl_nil] at h
    refine ⟨c.respOption (makeUnit c.output []), makeUnit c.output [], rfl, start _, h.2, fun hne => ?_⟩
    unfold OldCtx.respOption
    rw [h.1 "header"]
    simp [lastSet_cons, lastSet_nil, hne]

/-- C62: the short forms. -/
theorem C62_short_forms (v : Ver S) (env : Env S) (schemas : GoMap S) (o : Operation S) :
    (∀ value method, setRequest v env schemas o (.value value) method =
      setupRequest v env method [{ structure_ := value }] ⟨schemas, o⟩) ∧
    (∀ value status, setJSONResponse v env schemas o (.value value) status =
      setupResponse v env "" [{ structure_ := value, httpStatus := status }] ⟨schemas, o⟩) ∧
    (∀ status ct, setStringResponse v env schemas o status ct =
      setupResponse v env "" [{ httpStatus := status, contentType := ct }] ⟨schemas, o⟩) :=
  ⟨fun _ _ => rfl, fun _ _ => rfl, fun _ _ => rfl⟩

end V30

/-! ## Concrete cases -/

example : ([.summary "a", .tags ["x"], .summary "b", .security "key" [], .req (.value none) [withContentType "text/csv"],
      .deprecated true, .id "op"].foldl CtxCall.run ({ method := "get", path := "/" } : OpCtx Unit)).summary = "b" ∧
    lastSet CtxCall.summary? ([.summary "a", .tags ["x"], .summary "b", .id "op"] : List (CtxCall Unit)) "" = "b" := by
  decide +kernel

example : (makeUnit (.value (none : Option (Value Unit)))
    ([.contentType "a", .httpStatus 404, .contentType "b"].map StdOption.fn)).contentType = "b" := by decide +kernel

/-- C61, concrete: a unit with a body and a reference, for POST. -/
example : ∃ s', setupRequest exampleVer exampleEnv "post" [withReference "#/components/requestBodies/B" exUnit] ⟨[], {}⟩ = (s', .ok) ∧
    s'.op.requestBody = some { ref := some "#/components/requestBodies/B" } := by
  refine ⟨_, rfl, by decide +kernel⟩

end Verif
