import Verif.Props.ResponseStored

/-!
# Reflected operations in documents (C13, C14, C20-C22)
-/

namespace Verif
open ParamSpec DocSpec
variable {S : Type}

/-- Completing an operation with a response changes nothing else. -/
theorem completed_frame {op stored : Operation S} (h : Completed op stored) :
    stored.parameters = op.parameters ∧ stored.requestBody = op.requestBody ∧ stored.ext = op.ext := by
  by_cases hr : HasResponses op
  · rw [h.1 hr]; exact ⟨rfl, rfl, rfl⟩
  · rw [h.2 hr]; exact ⟨rfl, rfl, rfl⟩

theorem setupOC_ok {v : Ver S} {env : Env S} {oc : OpCtx S} {s s2 : ReqState S} (h : setupOC v env oc s = (s2, .ok)) :
    ∃ s1, setupRequest v env oc.method oc.req s = (s1, .ok) ∧
      validatePathParams s1.op.parameters oc.pathParams = none ∧
      setupResponse v env oc.method oc.resp s1 = (s2, .ok) := by
  unfold setupOC at h
  split at h
  · cases h
  · cases h
  · rename_i s1 h1
    split at h
    · cases h
    · rename_i hv
      split at h
      · cases h
      · exact ⟨s1, h1, hv, h⟩

theorem setupOC_schemas (v : Ver S) (env : Env S) (oc : OpCtx S) (s : ReqState S) (n : String) (sc : S)
    (hn : s.schemas.get? n = some sc) :
    ∃ sc', (setupOC v env oc s).1.schemas.get? n = some sc' ∧
      (sc' = sc ∨ ∃ cu ∈ oc.req, ∃ d, BodyDefinition env cu n d ∧ v.conv d = .ok sc') := by
  have hq := setupRequest_schemas v env oc.method oc.req s n sc hn
  unfold setupOC
  split
  · rename_i e; rw [e] at hq; exact hq
  · rename_i e; rw [e] at hq; exact hq
  · rename_i s1 e
    rw [e] at hq
    split
    · exact hq
    · obtain ⟨sc1, h1, h2⟩ := hq
      have hp := setupResponse_schemas v env oc.method oc.resp s1 n sc1 h1
      split
      · rename_i e'; rw [e'] at hp; exact ⟨sc1, hp, h2⟩
      · exact ⟨sc1, hp, h2⟩

end Verif

namespace Verif.V30
variable {S : Type}

theorem setupOperation_keeps_schemas (sp : Spec S) (m p : String) (fs : List (Setup S)) :
    (sp.setupOperation m p fs).1.schemas = sp.schemas := by
  rcases setupOperation_cases sp m p fs with ⟨e, he⟩ | ⟨r, op, -, -, -, he⟩ <;> rw [he]

theorem addOperation_keeps_schemas (sp : Spec S) (m p : String) (op : Operation S) :
    (sp.addOperation m p op).1.schemas = sp.schemas := by
  unfold Spec.addOperation
  simp only
  split
  · rfl
  · exact setupOperation_keeps_schemas _ _ _ _

end Verif.V30

namespace Verif.V31
variable {S : Type}

theorem editInPlace_schemas (sp : Spec S) (m p : String) (op : Operation S) :
    (sp.editInPlace m p op).schemas = sp.schemas := by
  unfold Spec.editInPlace
  split <;> rfl

theorem addOperation_keeps_schemas (sp : Spec S) (m p : String) (op : Operation S) :
    (sp.addOperation m p op).1.schemas = sp.schemas := by
  rcases addOperation_cases sp m p op with ⟨e, e', -, he⟩ | ⟨r, old, e, -, -, he⟩ | ⟨r, -, -, he⟩
  · rw [he]; rfl
  · rw [he]; rfl
  · rw [he]
    rcases setupOperation_cases sp.pathsEns m p [fun _ => (ensureSomeResponse op, none)] with ⟨e, -, he⟩ |
      ⟨r, e, -, -, he⟩ | ⟨r, old, e, -, -, he⟩ | ⟨r, op, s', -, -, -, -, hs, -, he⟩
    · rw [he]; rfl
    · rw [he]; rfl
    · rw [he]; exact editInPlace_schemas _ _ _ _
    · rw [he, hs]; rfl

end Verif.V31

namespace Verif.V30
open ParamSpec DocSpec
variable {S : Type}

theorem Made.sanitized {oc : OpCtx S} (h : Made oc) :
    ∃ r, sanitizeMethodPath oc.method oc.path = .ok r ∧ r.method = oc.method ∧ r.path = oc.path ∧
      oc.pathParams = pathParamsMap r.params := by
  obtain ⟨sp, m, p, oc0, hn, h1, h2, h3⟩ := h
  unfold newOperationContext at hn
  split at hn
  · cases hn
  · rename_i r hr
    split at hn
    · cases hn
    · cases hn
      rw [h1, h2]
      exact ⟨r, C03_idempotent _ _ _ hr, rfl, rfl, h3⟩

/-- A successful `AddOperation` reflects the request, then the response, and stores the result, completed
with a response if there is none, under the path and method of the context. Nothing else changes but the
component schemas. -/
theorem addOperation_ok {v : Ver S} {env : Env S} {sp sp' : Spec S} {oc : OpCtx S} {op : Operation S}
    (hm : Made oc) (h : addOperation v env sp oc = (sp', op, .ok)) :
    ∃ s1 s2 stored, setupRequest v env oc.method oc.req ⟨sp.schemas, oc.op⟩ = (s1, .ok) ∧
      setupResponse v env oc.method oc.resp s1 = (s2, .ok) ∧ s2.op = op ∧
      Completed op stored ∧ Consistent oc.path oc.method stored ∧
      (∀ path method, sp'.op? path method =
        if path = oc.path ∧ method = oc.method then some stored else sp.op? path method) ∧
      sp.op? oc.path oc.method = none ∧
      sp'.schemas = s2.schemas ∧ sp' = { sp with paths := sp'.paths, schemas := sp'.schemas } ∧
      (∀ path, (sp'.pathItem path).summary = (sp.pathItem path).summary ∧
        (sp'.pathItem path).parameters = (sp.pathItem path).parameters) := by
  obtain ⟨r, hr, er, ep, -⟩ := hm.sanitized
  unfold addOperation at h
  split at h
  · rename_i s2 hs
    obtain ⟨s1, h1, -, h2⟩ := setupOC_ok hs
    simp only [Prod.mk.injEq] at h
    obtain ⟨e1, e2, e3⟩ := h
    have hadd : ({ sp with schemas := s2.schemas } : Spec S).addOperation oc.method oc.path s2.op = (sp', none) := by
      rw [← e1]
      generalize ({ sp with schemas := s2.schemas } : Spec S).addOperation oc.method oc.path s2.op = x at e3
      obtain ⟨x1, x2⟩ := x
      cases x2 with
      | none => rfl
      | some e => cases e3
    have hv := (C07_add_succeeds_iff _ _ _ _).mp (congrArg Prod.snd hadd)
    obtain ⟨r', stored, hr', hc, hops, hfr, hpi⟩ := C07_add_success _ _ _ _ _ hadd
    rw [hr] at hr'
    cases hr'
    rw [er, ep] at hops
    refine ⟨s1, s2, stored, h1, h2, e2, e2 ▸ hc, ?_, hops, ?hn, by rw [hfr], by rw [hfr], hpi⟩
    rw [← er, ← ep]
    refine validated_consistent hr ?_
    rw [(completed_frame hc).1]
    obtain ⟨-, r', hr', hval⟩ := hv
    rw [hr] at hr'
    cases hr'
    exact hval
    case hn => rw [← (sanitize_method hr).1, er] at hv; exact hv.1
  · rename_i s2 out hne hs
    simp only [Prod.mk.injEq] at h
    obtain ⟨-, -, rfl⟩ := h
    exact absurd rfl (hne)

/-- A `AddOperation` that does not succeed changes nothing but the component schemas. -/
theorem addOperation_not_ok {v : Ver S} {env : Env S} {sp sp' : Spec S} {oc : OpCtx S} {op : Operation S} {out : Out}
    (hm : Made oc) (h : addOperation v env sp oc = (sp', op, out)) (ho : out ≠ .ok) :
    sp' = { sp with schemas := sp'.schemas } := by
  obtain ⟨r, hr, er, ep, -⟩ := hm.sanitized
  unfold addOperation at h
  split at h
  · rename_i s2 hs
    simp only [Prod.mk.injEq] at h
    obtain ⟨e1, e2, e3⟩ := h
    generalize hx : ({ sp with schemas := s2.schemas } : Spec S).addOperation oc.method oc.path s2.op = x at e1 e3
    obtain ⟨x1, x2⟩ := x
    cases x2 with
    | none => exact absurd e3.symm ho
    | some e => rw [C08_add_failure _ _ _ _ _ _ hx] at e1; rw [← e1]
  · simp only [Prod.mk.injEq] at h
    rw [← h.1]

theorem addOperation_schemas (v : Ver S) (env : Env S) (sp : Spec S) (oc : OpCtx S) :
    (addOperation v env sp oc).1.schemas = (setupOC v env oc ⟨sp.schemas, oc.op⟩).1.schemas := by
  unfold addOperation
  split
  · rename_i s2 hs
    rw [hs]
    have hk := addOperation_keeps_schemas ({ sp with schemas := s2.schemas } : Spec S) oc.method oc.path s2.op
    generalize ({ sp with schemas := s2.schemas } : Spec S).addOperation oc.method oc.path s2.op = x at hk
    exact hk
  · rename_i hs
    rw [hs]

/-- C13: the stored operation has no two inline parameters with the same location and name. -/
theorem C13_stored_unique (v : Ver S) (env : Env S) (sp sp' : Spec S) (oc : OpCtx S) (op : Operation S)
    (hm : Made oc) (h : addOperation v env sp oc = (sp', op, .ok)) :
    ∃ stored, sp'.op? oc.path oc.method = some stored ∧ UniqueParams stored.parameters := by
  obtain ⟨s1, s2, stored, -, -, -, -, hc, hops, -⟩ := addOperation_ok hm h
  have hmeth := hc.1
  obtain ⟨-, -, -, -, hu, -⟩ := hc
  exact ⟨stored, by rw [hops]; simp, hu⟩

/-- C14: in the stored operation every path parameter is required and has a placeholder, and every
placeholder has a path parameter. -/
theorem C14_path_parameters (v : Ver S) (env : Env S) (sp sp' : Spec S) (oc : OpCtx S) (op : Operation S)
    (hm : Made oc) (h : addOperation v env sp oc = (sp', op, .ok))
    (hst : ∀ cu ∈ oc.req, LocationStable env cu)
    (h0 : StandardLocations oc.op.parameters) (h1 : PathParamsRequired oc.op) :
    ∃ stored, sp'.op? oc.path oc.method = some stored ∧
      PathParamsRequired stored ∧ DeclaresPlaceholders oc.path stored := by
  obtain ⟨s1, s2, stored, hq, hp, rfl, hcomp, hc, hops, -⟩ := addOperation_ok hm h
  have hpar : stored.parameters = s1.op.parameters := by
    rw [(completed_frame hcomp).1]
    have := setupResponse_rest v env oc.method oc.resp s1
    rw [hp] at this
    rw [this]
  have hs := reflected_standard v env oc.method oc.req ⟨sp.schemas, oc.op⟩ hst h0
  have hr := reflected_path_required v env oc.method oc.req ⟨sp.schemas, oc.op⟩ hst h1
  rw [hq] at hs hr
  simp only [← hpar] at hs hr
  have hmeth := hc.1
  obtain ⟨-, ps, hd, -, -, hpp, hpd⟩ := hc
  exact ⟨stored, by rw [hops]; simp, hr, ps, hd, hpp, hpd hs⟩

/-- C21: when `AddOperation` does not succeed, because of an error or a panic in any unit or because the
document rejects the operation, all operations of the document stay as they were; only component schemas
may differ. -/
theorem C21_failure (v : Ver S) (env : Env S) (sp sp' : Spec S) (oc : OpCtx S) (op : Operation S) (out : Out)
    (hm : Made oc) (h : addOperation v env sp oc = (sp', op, out)) (ho : out ≠ .ok) :
    (∀ path method, sp'.op? path method = sp.op? path method) ∧
    sp' = { sp with schemas := sp'.schemas, paths := sp'.paths } ∧
    (∀ path, sp'.pathItem path = sp.pathItem path) := by
  have hf := addOperation_not_ok hm h ho
  rw [hf]
  exact ⟨fun _ _ => rfl, rfl, fun _ => rfl⟩

/-- C22: with a context for a method and path that has an operation, `AddOperation` never succeeds, and the
operation stays. -/
theorem C22_twice (v : Ver S) (env : Env S) (sp sp' : Spec S) (oc : OpCtx S) (op old : Operation S) (out : Out)
    (hm : Made oc) (h : addOperation v env sp oc = (sp', op, out)) (hold : sp.op? oc.path oc.method = some old) :
    out ≠ .ok ∧ sp'.op? oc.path oc.method = some old := by
  have ho : out ≠ .ok := by
    intro e
    subst e
    obtain ⟨s1, s2, stored, -, -, -, -, -, -, hno, -⟩ := addOperation_ok hm h
    rw [hno] at hold
    cases hold
  exact ⟨ho, by rw [(C21_failure v env sp sp' oc op out hm h ho).1]; exact hold⟩

/-- C22: no new context is made for a method and path that has an operation, in whatever way they are
written: with patterns or without, in any letter case of the method. -/
theorem C22_no_context (v : Ver S) (env : Env S) (sp : Spec S) (oc : OpCtx S) (op : Operation S)
    (hm : Made oc) (sp' : Spec S) (h : addOperation v env sp oc = (sp', op, .ok))
    (m p : String) (r : Sanitized) (hr : sanitizeMethodPath m p = .ok r) (hp : r.path = oc.path)
    (hmeth : r.method = oc.method) : ∃ e, newOperationContext sp' m p = .error e := by
  obtain ⟨s1, s2, stored, -, -, -, -, hc, hops, -⟩ := addOperation_ok hm h
  have hmeth' := hc.1
  have hop : sp'.op? r.path r.method = some stored := by rw [hp, hmeth, hops]; simp
  unfold newOperationContext
  rw [hr]
  unfold Spec.op? at hop
  simp only [hop]
  exact ⟨_, rfl⟩

/-- C22, C21 for histories: whatever is added afterwards, an operation that is in the document stays as it
is. -/
theorem C22_history (v : Ver S) (calls : List (Env S × OpCtx S)) (hm : ∀ c ∈ calls, Made c.2) (sp : Spec S)
    (path method : String) (old : Operation S) (hold : sp.op? path method = some old) :
    (calls.foldl (fun sp c => (addOperation v c.1 sp c.2).1) sp).op? path method = some old := by
  induction calls generalizing sp with
  | nil => exact hold
  | cons c cs ih =>
    refine ih (fun d hd => hm d (List.mem_cons_of_mem _ hd)) _ ?_
    have hmc := hm c List.mem_cons_self
    rcases hx : addOperation v c.1 sp c.2 with ⟨sp', op, out⟩
    by_cases ho : out = .ok
    · subst ho
      obtain ⟨s1, s2, stored, -, -, -, -, hc, hops, hno, -⟩ := addOperation_ok hmc hx
      simp only [hx]
      rw [hops]
      split
      · rename_i e
        rw [e.1, e.2, hno] at hold
        cases hold
      · exact hold
    · simp only [hx]
      rw [(C21_failure v c.1 sp sp' c.2 op out hmc hx ho).1]
      exact hold

/-- C20: no component schema is lost, whether the calls succeed or not. A component schema is changed only
by a request body of one of the calls, to that body's definition of the same name. -/
theorem C20_schemas_kept (v : Ver S) (calls : List (Env S × OpCtx S)) (sp : Spec S) (n : String) (sc : S)
    (hn : sp.schemas.get? n = some sc) :
    ∃ sc', (calls.foldl (fun sp c => (addOperation v c.1 sp c.2).1) sp).schemas.get? n = some sc' ∧
      (sc' = sc ∨ ∃ c ∈ calls, ∃ cu ∈ c.2.req, ∃ d, BodyDefinition c.1 cu n d ∧ v.conv d = .ok sc') := by
  induction calls generalizing sp sc with
  | nil => exact ⟨sc, hn, .inl rfl⟩
  | cons c cs ih =>
    obtain ⟨sc1, h1, h2⟩ := setupOC_schemas v c.1 c.2 ⟨sp.schemas, c.2.op⟩ n sc hn
    rw [← addOperation_schemas] at h1
    obtain ⟨sc2, h3, h4⟩ := ih _ _ h1
    refine ⟨sc2, h3, ?_⟩
    rcases h4 with rfl | ⟨d, hd, h4⟩
    · rcases h2 with rfl | h2
      · exact .inl rfl
      · exact .inr ⟨c, List.mem_cons_self, h2⟩
    · exact .inr ⟨d, List.mem_cons_of_mem _ hd, h4⟩

end Verif.V30

namespace Verif.V31
open ParamSpec DocSpec
variable {S : Type}

theorem Made.sanitized {oc : OpCtx S} (h : Made oc) :
    ∃ r, sanitizeMethodPath oc.method oc.path = .ok r ∧ r.method = oc.method ∧ r.path = oc.path ∧
      oc.pathParams = pathParamsMap r.params := by
  obtain ⟨sp, m, p, oc0, hn, h1, h2, h3⟩ := h
  unfold newOperationContext at hn
  split at hn
  · cases hn
  · rename_i r hr
    split at hn
    · cases hn
    · cases hn
    · cases hn
      rw [h1, h2]
      exact ⟨r, C03_idempotent _ _ _ hr, rfl, rfl, h3⟩

/-- A successful `AddOperation` reflects the request, then the response, and stores the result, completed
with a response if there is none, under the path and method of the context. Nothing else changes but the
component schemas. -/
theorem addOperation_ok {v : Ver S} {env : Env S} {sp sp' : Spec S} {oc : OpCtx S} {op : Operation S}
    (hm : Made oc) (h : addOperation v env sp oc = (sp', op, .ok)) :
    ∃ s1 s2 stored, setupRequest v env oc.method oc.req ⟨sp.schemas, oc.op⟩ = (s1, .ok) ∧
      setupResponse v env oc.method oc.resp s1 = (s2, .ok) ∧ s2.op = op ∧
      Completed op stored ∧ Consistent oc.path oc.method stored ∧
      (∀ path, ∀ method ∈ PathSpec.methods, sp'.op? path method =
        if path = oc.path ∧ method = oc.method then some stored else sp.op? path method) ∧
      sp.op? oc.path oc.method = none ∧
      sp'.schemas = s2.schemas ∧ sp' = { sp with paths := sp'.paths, schemas := sp'.schemas } ∧
      (∀ path, (sp'.pathItem path).summary = (sp.pathItem path).summary ∧
        (sp'.pathItem path).parameters = (sp.pathItem path).parameters) := by
  obtain ⟨r, hr, er, ep, -⟩ := hm.sanitized
  unfold addOperation at h
  split at h
  · rename_i s2 hs
    obtain ⟨s1, h1, -, h2⟩ := setupOC_ok hs
    simp only [Prod.mk.injEq] at h
    obtain ⟨e1, e2, e3⟩ := h
    have hadd : ({ sp with schemas := s2.schemas } : Spec S).addOperation oc.method oc.path s2.op = (sp', none) := by
      rw [← e1]
      generalize ({ sp with schemas := s2.schemas } : Spec S).addOperation oc.method oc.path s2.op = x at e3
      obtain ⟨x1, x2⟩ := x
      cases x2 with
      | none => rfl
      | some e => cases e3
    have hv := (C07_add_succeeds_iff _ _ _ _).mp (congrArg Prod.snd hadd)
    obtain ⟨r', stored, hr', hc, hops, hfr, hpi⟩ := C07_add_success _ _ _ _ _ hadd
    rw [hr] at hr'
    cases hr'
    rw [er, ep] at hops
    refine ⟨s1, s2, stored, h1, h2, e2, e2 ▸ hc, ?_, hops, ?hn, by rw [hfr], by rw [hfr], hpi⟩
    rw [← er, ← ep]
    refine validated_consistent hr ?_
    rw [(completed_frame hc).1]
    obtain ⟨r', hr', -, hval⟩ := hv
    rw [hr] at hr'
    cases hr'
    exact hval
    case hn =>
      obtain ⟨r', hr', hno, -⟩ := hv
      rw [hr] at hr'
      cases hr'
      rw [er] at hno
      exact hno
  · rename_i s2 out hne hs
    simp only [Prod.mk.injEq] at h
    obtain ⟨-, -, rfl⟩ := h
    exact absurd rfl (hne)

/-- A `AddOperation` that does not succeed changes nothing but the component schemas (nil paths become an empty map). -/
theorem addOperation_not_ok {v : Ver S} {env : Env S} {sp sp' : Spec S} {oc : OpCtx S} {op : Operation S} {out : Out}
    (hm : Made oc) (h : addOperation v env sp oc = (sp', op, out)) (ho : out ≠ .ok) :
    sp' = { sp with schemas := sp'.schemas } ∨ sp' = { sp with schemas := sp'.schemas, paths := some (sp.paths.getD []) } := by
  obtain ⟨r, hr, er, ep, -⟩ := hm.sanitized
  unfold addOperation at h
  split at h
  · rename_i s2 hs
    simp only [Prod.mk.injEq] at h
    obtain ⟨e1, e2, e3⟩ := h
    generalize hx : ({ sp with schemas := s2.schemas } : Spec S).addOperation oc.method oc.path s2.op = x at e1 e3
    obtain ⟨x1, x2⟩ := x
    cases x2 with
    | none => exact absurd e3.symm ho
    | some e => right; rw [C08_add_failure_plain _ _ _ _ _ _ (fun r' h' => by rw [hr] at h'; cases h'; exact .inl ep) hx] at e1; rw [← e1]
  · simp only [Prod.mk.injEq] at h
    left; rw [← h.1]

theorem addOperation_schemas (v : Ver S) (env : Env S) (sp : Spec S) (oc : OpCtx S) :
    (addOperation v env sp oc).1.schemas = (setupOC v env oc ⟨sp.schemas, oc.op⟩).1.schemas := by
  unfold addOperation
  split
  · rename_i s2 hs
    rw [hs]
    have hk := addOperation_keeps_schemas ({ sp with schemas := s2.schemas } : Spec S) oc.method oc.path s2.op
    generalize ({ sp with schemas := s2.schemas } : Spec S).addOperation oc.method oc.path s2.op = x at hk
    exact hk
  · rename_i hs
    rw [hs]

/-- C13: the stored operation has no two inline parameters with the same location and name. -/
theorem C13_stored_unique (v : Ver S) (env : Env S) (sp sp' : Spec S) (oc : OpCtx S) (op : Operation S)
    (hm : Made oc) (h : addOperation v env sp oc = (sp', op, .ok)) :
    ∃ stored, sp'.op? oc.path oc.method = some stored ∧ UniqueParams stored.parameters := by
  obtain ⟨s1, s2, stored, -, -, -, -, hc, hops, -⟩ := addOperation_ok hm h
  have hmeth := hc.1
  obtain ⟨-, -, -, -, hu, -⟩ := hc
  exact ⟨stored, by rw [hops _ _ hmeth]; simp, hu⟩

/-- C14: in the stored operation every path parameter is required and has a placeholder, and every
placeholder has a path parameter. -/
theorem C14_path_parameters (v : Ver S) (env : Env S) (sp sp' : Spec S) (oc : OpCtx S) (op : Operation S)
    (hm : Made oc) (h : addOperation v env sp oc = (sp', op, .ok))
    (hst : ∀ cu ∈ oc.req, LocationStable env cu)
    (h0 : StandardLocations oc.op.parameters) (h1 : PathParamsRequired oc.op) :
    ∃ stored, sp'.op? oc.path oc.method = some stored ∧
      PathParamsRequired stored ∧ DeclaresPlaceholders oc.path stored := by
  obtain ⟨s1, s2, stored, hq, hp, rfl, hcomp, hc, hops, -⟩ := addOperation_ok hm h
  have hpar : stored.parameters = s1.op.parameters := by
    rw [(completed_frame hcomp).1]
    have := setupResponse_rest v env oc.method oc.resp s1
    rw [hp] at this
    rw [this]
  have hs := reflected_standard v env oc.method oc.req ⟨sp.schemas, oc.op⟩ hst h0
  have hr := reflected_path_required v env oc.method oc.req ⟨sp.schemas, oc.op⟩ hst h1
  rw [hq] at hs hr
  simp only [← hpar] at hs hr
  have hmeth := hc.1
  obtain ⟨-, ps, hd, -, -, hpp, hpd⟩ := hc
  exact ⟨stored, by rw [hops _ _ hmeth]; simp, hr, ps, hd, hpp, hpd hs⟩

/-- C21: when `AddOperation` does not succeed, because of an error or a panic in any unit or because the
document rejects the operation, all operations of the document stay as they were; only component schemas
may differ. -/
theorem C21_failure (v : Ver S) (env : Env S) (sp sp' : Spec S) (oc : OpCtx S) (op : Operation S) (out : Out)
    (hm : Made oc) (h : addOperation v env sp oc = (sp', op, out)) (ho : out ≠ .ok) :
    (∀ path method, sp'.op? path method = sp.op? path method) ∧
    sp' = { sp with schemas := sp'.schemas, paths := sp'.paths } ∧
    (∀ path, sp'.pathItem path = sp.pathItem path) := by
  have hf := addOperation_not_ok hm h ho
  rcases hf with hf | hf
  · rw [hf]; exact ⟨fun _ _ => rfl, rfl, fun _ => rfl⟩
  · rw [hf]
    have hpi : ∀ path, Spec.pathItem { sp with schemas := sp'.schemas, paths := some (sp.paths.getD []) } path =
        sp.pathItem path := fun path => by simp [Spec.pathItem]
    exact ⟨fun path m => by simp only [Spec.op?, hpi], rfl, hpi⟩

/-- C22: with a context for a method and path that has an operation, `AddOperation` never succeeds, and the
operation stays. -/
theorem C22_twice (v : Ver S) (env : Env S) (sp sp' : Spec S) (oc : OpCtx S) (op old : Operation S) (out : Out)
    (hm : Made oc) (h : addOperation v env sp oc = (sp', op, out)) (hold : sp.op? oc.path oc.method = some old) :
    out ≠ .ok ∧ sp'.op? oc.path oc.method = some old := by
  have ho : out ≠ .ok := by
    intro e
    subst e
    obtain ⟨s1, s2, stored, -, -, -, -, -, -, hno, -⟩ := addOperation_ok hm h
    rw [hno] at hold
    cases hold
  exact ⟨ho, by rw [(C21_failure v env sp sp' oc op out hm h ho).1]; exact hold⟩

/-- C22: no new context is made for a method and path that has an operation, in whatever way they are
written: with patterns or without, in any letter case of the method. -/
theorem C22_no_context (v : Ver S) (env : Env S) (sp : Spec S) (oc : OpCtx S) (op : Operation S)
    (hm : Made oc) (sp' : Spec S) (h : addOperation v env sp oc = (sp', op, .ok))
    (m p : String) (r : Sanitized) (hr : sanitizeMethodPath m p = .ok r) (hp : r.path = oc.path)
    (hmeth : r.method = oc.method) : ∃ e, newOperationContext sp' m p = .error e := by
  obtain ⟨s1, s2, stored, -, -, -, -, hc, hops, -⟩ := addOperation_ok hm h
  have hmeth' := hc.1
  have hop : sp'.op? r.path r.method = some stored := by rw [hp, hmeth, hops _ _ hmeth']; simp
  unfold newOperationContext
  rw [hr]
  have hk := op?_some hop
  simp only [hk]
  exact ⟨_, rfl⟩

/-- C22, C21 for histories: whatever is added afterwards, an operation that is in the document stays as it
is. -/
theorem C22_history (v : Ver S) (calls : List (Env S × OpCtx S)) (hm : ∀ c ∈ calls, Made c.2) (sp : Spec S)
    (path method : String) (hknown : method ∈ PathSpec.methods) (old : Operation S) (hold : sp.op? path method = some old) :
    (calls.foldl (fun sp c => (addOperation v c.1 sp c.2).1) sp).op? path method = some old := by
  induction calls generalizing sp with
  | nil => exact hold
  | cons c cs ih =>
    refine ih (fun d hd => hm d (List.mem_cons_of_mem _ hd)) _ ?_
    have hmc := hm c List.mem_cons_self
    rcases hx : addOperation v c.1 sp c.2 with ⟨sp', op, out⟩
    by_cases ho : out = .ok
    · subst ho
      obtain ⟨s1, s2, stored, -, -, -, -, hc, hops, hno, -⟩ := addOperation_ok hmc hx
      simp only [hx]
      rw [hops _ _ hknown]
      split
      · rename_i e
        rw [e.1, e.2, hno] at hold
        cases hold
      · exact hold
    · simp only [hx]
      rw [(C21_failure v c.1 sp sp' c.2 op out hmc hx ho).1]
      exact hold

/-- C20: no component schema is lost, whether the calls succeed or not. A component schema is changed only
by a request body of one of the calls, to that body's definition of the same name. -/
theorem C20_schemas_kept (v : Ver S) (calls : List (Env S × OpCtx S)) (sp : Spec S) (n : String) (sc : S)
    (hn : sp.schemas.get? n = some sc) :
    ∃ sc', (calls.foldl (fun sp c => (addOperation v c.1 sp c.2).1) sp).schemas.get? n = some sc' ∧
      (sc' = sc ∨ ∃ c ∈ calls, ∃ cu ∈ c.2.req, ∃ d, BodyDefinition c.1 cu n d ∧ v.conv d = .ok sc') := by
  induction calls generalizing sp sc with
  | nil => exact ⟨sc, hn, .inl rfl⟩
  | cons c cs ih =>
    obtain ⟨sc1, h1, h2⟩ := setupOC_schemas v c.1 c.2 ⟨sp.schemas, c.2.op⟩ n sc hn
    rw [← addOperation_schemas] at h1
    obtain ⟨sc2, h3, h4⟩ := ih _ _ h1
    refine ⟨sc2, h3, ?_⟩
    rcases h4 with rfl | ⟨d, hd, h4⟩
    · rcases h2 with rfl | h2
      · exact .inl rfl
      · exact .inr ⟨c, List.mem_cons_self, h2⟩
    · exact .inr ⟨d, List.mem_cons_of_mem _ hd, h4⟩

end Verif.V31
