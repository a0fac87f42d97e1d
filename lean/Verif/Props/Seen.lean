import Verif.Lemmas.Seen
import Verif.Props.Publish30

/-! Callbacks of the schema library are told which part of which operation is being worked on (C86). -/

namespace Verif
variable {S : Type}

/-- **C86**: whatever a callback sees while `AddOperation` or `AddWebhook` works on an operation, it is told the
direction and the location that is being worked on, and not those of an earlier call. Requests are worked on before
responses, and only units of the operation; the type of a field is looked at only where fields become parameters. Only the two auxiliary calls tell nothing. -/
theorem C86_told (v : Ver S) (env : Env S) (oc : OpCtx S) (s : ReqState S) (before : Progress) :
    ∃ requests responses, (setupOCW v env oc (s, ⟨before, []⟩)).1.2.seen = requests ++ responses ∧
      (∀ x ∈ requests, x.task.OfRequest ∧ x.ctx = x.task.sees ∧ x.unit ∈ oc.req ∧
        ∀ inn, x.task = .field inn → paramsOf env x.unit inn ≠ []) ∧
      (∀ x ∈ responses, x.task.OfResponse ∧ x.ctx = x.task.sees ∧ ∃ cu ∈ oc.resp, x.unit = normaliseUnit cu) := by
  obtain ⟨l, e, hl⟩ := logs_request v env oc.method oc.req s ⟨before, []⟩
  have req : ∀ x ∈ l, x.task.OfRequest ∧ x.ctx = x.task.sees ∧ x.unit ∈ oc.req ∧
      ∀ inn, x.task = .field inn → paramsOf env x.unit inn ≠ [] := by
    intro x hx
    obtain ⟨cu, hc, rfl, h1, h2, h3⟩ := hl x hx
    exact ⟨h1, h2, hc, fun inn e => List.ne_nil_of_mem (h3 inn e).choose_spec⟩
  simp only [setupOCW]
  rcases hr : setupRequestW v env oc.method oc.req (s, ⟨before, []⟩) with ⟨⟨s1, w1⟩, out⟩
  rw [hr] at e
  simp only [List.nil_append] at e
  cases out with
  | err x => exact ⟨l, [], by simpa using e, req, by simp⟩
  | panic => exact ⟨l, [], by simpa using e, req, by simp⟩
  | ok =>
    simp only
    cases validatePathParams s1.op.parameters oc.pathParams with
    | some x => exact ⟨l, [], by simpa using e, req, by simp⟩
    | none =>
      obtain ⟨l', e', hl'⟩ := logs_response v env oc.method oc.resp s1 w1
      have fin : (setupResponseW v env oc.method oc.resp (s1, w1)).1.2.seen = l ++ l' := by rw [e', e]
      have resp : ∀ x ∈ l', x.task.OfResponse ∧ x.ctx = x.task.sees ∧ ∃ cu ∈ oc.resp, x.unit = normaliseUnit cu := by
        intro x hx
        obtain ⟨cu, hc, h0, h1, h2⟩ := hl' x hx
        exact ⟨h1, h2, cu, hc, h0⟩
      rcases hr : setupResponseW v env oc.method oc.resp (s1, w1) with ⟨⟨s2, w2⟩, out⟩
      rw [hr] at fin
      cases out <;> exact ⟨l, l', fin, req, resp⟩

/-- **C86**: if the operation is accepted, nothing was left out: callbacks saw the parameters of every location, with
their types, and the bodies of every request unit, and the headers, and the body if there is one, of every response unit. -/
theorem C86_everything (v : Ver S) (env : Env S) (oc : OpCtx S) (s : ReqState S) (w : Watch S)
    (h : (setupOCW v env oc (s, w)).2 = .ok) :
    (∀ cu ∈ oc.req, ∀ t, Due env oc.method cu t → (setupOCW v env oc (s, w)).1.2.Has cu t) ∧
    (∀ cu ∈ oc.resp, cu.structure_.isSome = true →
      (setupOCW v env oc (s, w)).1.2.Has (normaliseUnit cu) .header ∧
      (¬ MethodIs oc.method "head" → (reflectJSONResponse env cu).isSome = true →
        (setupOCW v env oc (s, w)).1.2.Has (normaliseUnit cu) .response)) := by
  have hq : ∀ cu ∈ oc.req, ∀ t, Due env oc.method cu t → _ → _ :=
    fun cu hc t hd => has_request v env oc.method hd oc.req hc s w
  simp only [setupOCW] at h ⊢
  rcases hr : setupRequestW v env oc.method oc.req (s, w) with ⟨⟨s1, w1⟩, out⟩
  rw [hr] at h hq
  cases out with
  | err x => simp at h
  | panic => simp at h
  | ok =>
    simp only at h ⊢
    cases hv : validatePathParams s1.op.parameters oc.pathParams with
    | some x => rw [hv] at h; simp at h
    | none =>
      rw [hv] at h
      simp only at h ⊢
      have hp := fun cu hc hs => has_response v env oc.method (cu := cu) hs oc.resp hc s1 w1
      have hk := fun cu t => has_of_logs (logs_response v env oc.method oc.resp) (s := s1) (w := w1) (cu := cu) (t := t)
      rcases hr : setupResponseW v env oc.method oc.resp (s1, w1) with ⟨⟨s2, w2⟩, out⟩
      rw [hr] at h hp hk
      cases out with
      | err x => simp at h
      | panic => simp at h
      | ok => exact ⟨fun cu hc t hd => hk cu t (hq cu hc t hd rfl), fun cu hc hs => hp cu hc hs rfl⟩

/-- **C86**: apart from the log this is the work on the operation that all other theorems are about. -/
theorem C86_same (v : Ver S) (env : Env S) (oc : OpCtx S) (s : ReqState S) (w : Watch S) :
    ((setupOCW v env oc (s, w)).1.1, (setupOCW v env oc (s, w)).2) = setupOC v env oc s :=
  forgets_setup v env oc s w

/-- **C86**: the deprecated way to get the context tells the same, with the first structures of the operation. -/
theorem C86_old (oc : OpCtx S) (p : Option Progress) :
    (V30.oldOperationCtx oc p).map (fun c => (⟨c.processingResponse, c.processingIn⟩ : Progress)) = p ∧
    ∀ c ∈ V30.oldOperationCtx oc p, c.httpMethod = oc.method ∧
      (∀ cu ∈ oc.req.head?, c.input = .value cu.structure_) ∧
      (∀ cu ∈ oc.resp.head?, c.output = .value cu.structure_ ∧ c.httpStatus = cu.httpStatus) := by
  cases p with
  | none => exact ⟨rfl, by simp [V30.oldOperationCtx]⟩
  | some p =>
    refine ⟨rfl, ?_⟩
    intro c hc
    simp only [V30.oldOperationCtx, Option.map_some, Option.mem_def, Option.some.injEq] at hc
    subst hc
    obtain ⟨method, path, req, resp, b, i, op, pp⟩ := oc
    cases req with
    | nil => cases resp <;> exact ⟨rfl, by simp, by simp [V30.fromOpCtx, V30.fromReq, V30.fromResp, OpCtx.at,
        OpCtx.setIsProcessingResponse, OpCtx.setProcessingIn]⟩
    | cons q req => cases resp <;> exact ⟨rfl, by simp [V30.fromOpCtx, V30.fromReq, V30.fromResp, OpCtx.at,
        OpCtx.setIsProcessingResponse, OpCtx.setProcessingIn], by simp [V30.fromOpCtx, V30.fromReq, V30.fromResp, OpCtx.at,
        OpCtx.setIsProcessingResponse, OpCtx.setProcessingIn]⟩

/-- **C86**, concrete: the callbacks for the example of C83, after earlier work on a response body. -/
theorem C86_case : ((setupOCW V30.ver Ex83.env30 (Ex83.context (Ex83.fieldId (Ex83.typed "integer") false ""))
      (⟨[], {}⟩, ⟨⟨true, "body"⟩, []⟩)).1.2.seen.map (fun x => (x.task, x.ctx))) =
    [(.params "query", some ⟨false, "query"⟩), (.params "query", some ⟨false, "query"⟩),
      (.field "query", some ⟨false, "query"⟩), (.params "query", some ⟨false, "query"⟩),
      (.field "query", some ⟨false, "query"⟩), (.field "query", some ⟨false, "query"⟩),
      (.params "path", some ⟨false, "path"⟩), (.params "path", some ⟨false, "path"⟩), (.field "path", some ⟨false, "path"⟩),
      (.params "cookie", some ⟨false, "cookie"⟩), (.params "header", some ⟨false, "header"⟩), (.probe, none),
      (.json, some ⟨false, "body"⟩), (.check, none), (.response, some ⟨true, "body"⟩), (.response, some ⟨true, "body"⟩),
      (.header, some ⟨true, "header"⟩), (.header, some ⟨true, "header"⟩)] := by
  decide +kernel

/-- **C86**, concrete: the operation is accepted. -/
theorem C86_case_ok : (setupOCW V30.ver Ex83.env30 (Ex83.context (Ex83.fieldId (Ex83.typed "integer") false ""))
    (⟨[], {}⟩, ⟨⟨true, "body"⟩, []⟩)).2 = .ok := by decide +kernel

end Verif
