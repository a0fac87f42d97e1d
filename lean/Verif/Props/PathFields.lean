import Verif.Props.Complete
import Verif.Spec.PathFields

/-!
# Parameters of path fields, without conditions on the context (C14)
-/

namespace Verif
open ParamSpec DocSpec
variable {S : Type}

theorem Pointwise.imp_mem {α β : Type} {R R' : α → β → Prop} {as : List α} {bs : List β} (h : Pointwise R as bs)
    (hi : ∀ a b, b ∈ bs → R a b → R' a b) : Pointwise R' as bs := by
  induction h with
  | nil => exact .nil
  | cons h1 _ ih =>
    exact .cons (hi _ _ List.mem_cons_self h1) (ih fun a b hb => hi a b (List.mem_cons_of_mem _ hb))

theorem pathFieldsDone {v : Ver S} {env : Env S} {oc : OpCtx S} {schemas : GoMap S} {s1 : ReqState S}
    {stored : Operation S} (hq : setupRequest v env oc.method oc.req ⟨schemas, oc.op⟩ = (s1, .ok))
    (hpar : stored.parameters = s1.op.parameters) (hc : Consistent oc.path oc.method stored) :
    PathFieldsDone env oc stored := by
  obtain ⟨ps, hps, he⟩ := C53_parameters_exact v env oc.method oc.req _ _ hq
  obtain ⟨-, pieces, hd, -, -, hpp, hpd⟩ := hc
  refine ⟨ps, pieces, hpar.trans he, hd, ?_, hpp, hpd⟩
  refine hps.imp_mem ?_
  rintro ⟨inn, c⟩ p hp ⟨p0, p1, hb, hpo, h1, -⟩ hin
  have e := h1 hin
  refine ⟨by rw [e], fun hstay => ?_⟩
  have hi : p.inn = "path" := by
    rw [e]
    show p1.inn = "path"
    rw [hstay p0 p1 hpo, ← hin]
    exact hb.2.1
  refine ⟨hi, hpp p ?_ hi⟩
  rw [hpar, he, inlineParams_inline]
  exact List.mem_append_right _ hp

/-- C14 (3.0): in every operation that `AddOperation` stores, the parameters of path fields are required and have
a placeholder (unless a tag moved them to another location), all path parameters have a placeholder, and every
placeholder has a path parameter if all locations are standard. -/
theorem V30.C14_path_fields (v : Ver S) (env : Env S) (sp sp' : V30.Spec S) (oc : OpCtx S) (op : Operation S)
    (hm : Made oc) (h : V30.addOperation v env sp oc = (sp', op, .ok)) :
    ∃ stored, sp'.op? oc.path oc.method = some stored ∧ PathFieldsDone env oc stored := by
  obtain ⟨s1, s2, stored, hq, hp, rfl, hcomp, hc, hops, -⟩ := V30.addOperation_ok hm h
  have hpar : stored.parameters = s1.op.parameters := by
    rw [(completed_frame hcomp).1]
    have := setupResponse_rest v env oc.method oc.resp s1
    rw [hp] at this
    rw [this]
  exact ⟨stored, by rw [hops]; simp, pathFieldsDone hq hpar hc⟩

/-- C14 (3.1), likewise. -/
theorem V31.C14_path_fields (v : Ver S) (env : Env S) (sp sp' : V31.Spec S) (oc : OpCtx S) (op : Operation S)
    (hm : Made oc) (h : V31.addOperation v env sp oc = (sp', op, .ok)) :
    ∃ stored, sp'.op? oc.path oc.method = some stored ∧ PathFieldsDone env oc stored := by
  obtain ⟨s1, s2, stored, hq, hp, rfl, hcomp, hc, hops, -⟩ := V31.addOperation_ok hm h
  have hpar : stored.parameters = s1.op.parameters := by
    rw [(completed_frame hcomp).1]
    have := setupResponse_rest v env oc.method oc.resp s1
    rw [hp] at this
    rw [this]
  exact ⟨stored, by rw [hops _ _ hc.1]; simp, pathFieldsDone hq hpar hc⟩

/-- A path field that a tag moves to the query, with a tag that makes it optional. -/
def exMoved : PropCall Unit :=
  { processed := true, pathLen := 1, name := "late", schema := .bool true,
    populate := fun p => .ok { p with inn := "query", required := some false } }

/-- A unit with both kinds of path fields. -/
def exMovedUnit : ContentUnit Unit :=
  { structure_ := some
      { params := fun inn _ => ⟨if inn = "path" then [.prop exId, .prop exMoved] else [], .ok (.bool true)⟩ } }

/-- A context with two path fields, one of them moved. -/
def exMovedContext : OpCtx Unit where
  method := "get"
  path := "/things/{id}"
  pathParams := ["id"]
  req := [exMovedUnit]

/-- The hypotheses of C14 are met; the moved parameter is required all the same. -/
example : V30.Made exMovedContext ∧ V31.Made exMovedContext ∧ ¬ StaysInPlace exMoved ∧ StaysInPlace exId ∧
    (V30.addOperation exampleVer exampleEnv {} exMovedContext).2.2 = .ok ∧
    (V31.addOperation exampleVer exampleEnv {} exMovedContext).2.2 = .ok ∧
    ((V30.addOperation exampleVer exampleEnv {} exMovedContext).1.op? "/things/{id}" "get").map
      (fun o => (o.parameters.filterMap (·.param)).map fun q => (q.inn, q.name, q.required)) =
      some [("path", "id", some true), ("query", "late", some true)] := by
  have hs : sanitizeMethodPath "Get" "/things/{id:[0-9]+}" = .ok ⟨"get", "/things/{id}", ["id"]⟩ := by decide +kernel
  have hp : (({} : V31.Spec Unit).pathItem "/things/{id}").operation "get" = .ok none := by decide +kernel
  refine ⟨⟨{}, "Get", "/things/{id:[0-9]+}", { method := "get", path := "/things/{id}", pathParams := pathParamsMap ["id"] },
      (by simp only [V30.newOperationContext, hs]; rfl), rfl, rfl, by decide +kernel⟩,
    ⟨{}, "Get", "/things/{id:[0-9]+}", { method := "get", path := "/things/{id}", pathParams := pathParamsMap ["id"] },
      (by simp only [V31.newOperationContext, hs, hp]), rfl, rfl, by decide +kernel⟩, ?_, ?_, by decide +kernel,
    by decide +kernel, by decide +kernel⟩
  · intro h
    have := h { name := "late", inn := "path" } _ rfl
    exact absurd this (by decide)
  · intro p q h
    cases h
    rfl

end Verif
