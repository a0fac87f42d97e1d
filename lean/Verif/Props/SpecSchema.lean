import Verif.Spec.SpecSchema
import Verif.Props.OpCtx
import Verif.Props.Doc30
import Verif.Props.Doc31
import Verif.Props.ReflectDoc
import Verif.Lemmas.Complete

/-!
# General information of a document (C80), new contexts (C43), errors (C81)
-/

namespace Verif.V30
variable {S : Type}

theorem runDoc_info (s : Spec S) (c : DocCall S) :
    (runDoc s c).getTitle = c.title?.getD s.getTitle ∧
    (runDoc s c).getDescription = c.description?.getD s.getDescription ∧
    (runDoc s c).getVersion = c.version?.getD s.getVersion ∧ (runDoc s c).openapi = s.openapi := by
  have hset : ∀ m p fs, ((s.setupOperation m p fs).1 = s ∨ ∃ q, (s.setupOperation m p fs).1 = { s with paths := q }) := by
    intro m p fs
    rcases setupOperation_cases s m p fs with ⟨e', he⟩ | ⟨r, op', h1, h2, h3, he⟩
    · left; rw [he]
    · right; exact ⟨_, by rw [he]⟩
  cases c with
  | info c => cases c <;> exact ⟨rfl, rfl, rfl, rfl⟩
  | basicAuth n d => exact ⟨rfl, rfl, rfl, rfl⟩
  | apiKey n f i d => exact ⟨rfl, rfl, rfl, rfl⟩
  | bearer n f d => exact ⟨rfl, rfl, rfl, rfl⟩
  | add m p op =>
    simp only [runDoc, Spec.addOperation]
    split
    · exact ⟨rfl, rfl, rfl, rfl⟩
    · rcases hset (goToLower m) p [fun _ => (ensureSomeResponse op, none)] with h | ⟨q, h⟩ <;> rw [h] <;>
        exact ⟨rfl, rfl, rfl, rfl⟩
  | setup m p fs =>
    simp only [runDoc]
    rcases hset m p fs with h | ⟨q, h⟩ <;> rw [h] <;> exact ⟨rfl, rfl, rfl, rfl⟩

/-- C80 (3.0): after any history of calls, failed ones included, title, description and version are what was
set last, or what they were before; the version of OpenAPI stays. -/
theorem C80_info (s : Spec S) (calls : List (DocCall S)) :
    (calls.foldl runDoc s).getTitle = lastSet DocCall.title? calls s.getTitle ∧
    (calls.foldl runDoc s).getDescription = lastSet DocCall.description? calls s.getDescription ∧
    (calls.foldl runDoc s).getVersion = lastSet DocCall.version? calls s.getVersion ∧
    (calls.foldl runDoc s).openapi = s.openapi := by
  induction calls generalizing s with
  | nil => exact ⟨rfl, rfl, rfl, rfl⟩
  | cons c cs ih =>
    obtain ⟨h1, h2, h3, h4⟩ := ih (runDoc s c)
    obtain ⟨g1, g2, g3, g4⟩ := runDoc_info s c
    simp only [List.foldl_cons, lastSet_cons]
    exact ⟨by rw [h1, g1], by rw [h2, g2], by rw [h3, g3], by rw [h4, g4]⟩

/-- C80 (3.0): setting title, description and version changes nothing else: paths, component schemas and
security schemes stay. -/
theorem C80_info_only (s : Spec S) (calls : List InfoCall) :
    (calls.foldl runInfo s).paths = s.paths ∧ (calls.foldl runInfo s).schemas = s.schemas ∧
    (calls.foldl runInfo s).security = s.security := by
  induction calls generalizing s with
  | nil => exact ⟨rfl, rfl, rfl⟩
  | cons c cs ih => rw [List.foldl_cons, (ih _).1, (ih _).2.1, (ih _).2.2]; cases c <;> exact ⟨rfl, rfl, rfl⟩

/-- C80 (3.0): what a new document says. -/
theorem C80_new : ({} : Spec S).getTitle = "" ∧ ({} : Spec S).getDescription = "" ∧ ({} : Spec S).getVersion = "" ∧
    ({} : Spec S).openapi = "3.0.3" := ⟨rfl, rfl, rfl, rfl⟩

example : let s := ([.info (.title "a"), .info (.description "b"), .add "GET" "/a" {}, .info (.title "c"),
      .add "GET" "/a" {}] : List (DocCall Unit)).foldl runDoc {}
    s.getTitle = "c" ∧ s.getDescription = "b" ∧ s.getVersion = "" ∧ (s.op? "/a" "get").isSome = true := by
  decide +kernel

/-- C43 (3.0): a new context has the method in lower case and the cleaned path; all other getters give zero
values, no units and no requirements. -/
theorem C43_new_context (sp : Spec S) (m p : String) (oc : OpCtx S) (h : newOperationContext sp m p = .ok oc) :
    (∃ r, sanitizeMethodPath m p = .ok r ∧ oc.method = r.method ∧ oc.path = r.path) ∧
    oc.tags = [] ∧ oc.isDeprecated = false ∧ oc.summary = "" ∧ oc.description = "" ∧ oc.id = "" ∧
    oc.isProcessingResponse = false ∧ oc.processingIn = "" ∧ oc.op.security = [] ∧ oc.req = [] ∧ oc.resp = [] ∧
    (∀ inn, oc.unknownParamsAreForbidden inn = false) ∧ oc.op.parameters = [] := by
  unfold newOperationContext at h
  split at h
  · cases h
  · rename_i r hr
    split at h
    · cases h
    · cases h
      exact ⟨⟨r, hr, rfl, rfl⟩, rfl, rfl, rfl, rfl, rfl, rfl, rfl, rfl, rfl, rfl, fun _ => rfl, rfl⟩

example : ∃ oc, newOperationContext ({} : Spec Unit) "GET" "/a/{id:[0-9]+}" = .ok oc ∧ oc.path = "/a/{id}" := by
  have : sanitizeMethodPath "GET" "/a/{id:[0-9]+}" = .ok ⟨"get", "/a/{id}", ["id"]⟩ := by decide +kernel
  exact ⟨_, by simp only [newOperationContext, this]; rfl, rfl⟩

/-! ## C81 -/

/-- C81 (3.0): `AddOperation` of a document says which operation is there already. -/
theorem C81_duplicate_message (s : Spec S) (m p : String) (op old : Operation S)
    (h : s.op? p (goToLower m) = some old) :
    (s.addOperation m p op).2 = some ("operation already exists: " ++ goToLower m ++ " " ++ p) := by
  unfold Spec.op? at h
  simp only [Spec.addOperation, h, Option.isSome_some, if_true]

/-- C81 (3.0): `NewOperationContext` names the method and the cleaned path. -/
theorem C81_context_message (s : Spec S) (m p : String) (r : Sanitized) (old : Operation S)
    (hr : sanitizeMethodPath m p = .ok r) (h : s.op? r.path r.method = some old) :
    newOperationContext s m p = .error ("operation already exists: " ++ r.method ++ " " ++ r.path) := by
  unfold Spec.op? at h
  simp only [newOperationContext, hr, h]

end Verif.V30

namespace Verif.V31
variable {S : Type}

theorem editInPlace_info (s : Spec S) (p m : String) (op : Operation S) :
    ∃ q, s.editInPlace p m op = { s with paths := q } := by
  unfold Spec.editInPlace
  split
  · exact ⟨_, rfl⟩
  · exact ⟨s.paths, rfl⟩

theorem runDoc_info (s : Spec S) (c : DocCall S) :
    (runDoc s c).getTitle = c.title?.getD s.getTitle ∧
    (runDoc s c).getDescription = c.description?.getD s.getDescription ∧
    (runDoc s c).getVersion = c.version?.getD s.getVersion ∧ (runDoc s c).openapi = s.openapi := by
  have hset : ∀ m p fs (s : Spec S), ∃ q, (s.setupOperation m p fs).1 = { s with paths := q } := by
    intro m p fs s
    rcases setupOperation_cases s m p fs with ⟨e, -, he⟩ | ⟨r, e, -, -, he⟩ | ⟨r, old, e, -, -, he⟩ |
      ⟨r, op, s', -, -, -, -, hs, -, he⟩
    · exact ⟨s.paths, by rw [he]⟩
    · exact ⟨_, by rw [he]; rfl⟩
    · obtain ⟨q, hq⟩ := editInPlace_info s.pathsEns r.path r.method (runSetups fs old).1
      exact ⟨q, by rw [he, hq]; rfl⟩
    · exact ⟨s'.paths, by rw [he]; exact hs⟩
  cases c with
  | info c => cases c <;> exact ⟨rfl, rfl, rfl, rfl⟩
  | basicAuth n d => exact ⟨rfl, rfl, rfl, rfl⟩
  | apiKey n f i d => exact ⟨rfl, rfl, rfl, rfl⟩
  | bearer n f d => exact ⟨rfl, rfl, rfl, rfl⟩
  | add m p op =>
    simp only [runDoc]
    rcases addOperation_cases s m p op with ⟨e, e', -, he⟩ | ⟨r, old, e, -, -, he⟩ | ⟨r, -, -, he⟩
    · rw [he]; exact ⟨rfl, rfl, rfl, rfl⟩
    · rw [he]; exact ⟨rfl, rfl, rfl, rfl⟩
    · obtain ⟨q, hq⟩ := hset m p [fun _ => (ensureSomeResponse op, none)] s.pathsEns
      rw [he, hq]; exact ⟨rfl, rfl, rfl, rfl⟩
  | setup m p fs =>
    simp only [runDoc]
    obtain ⟨q, hq⟩ := hset m p fs s
    rw [hq]; exact ⟨rfl, rfl, rfl, rfl⟩

/-- C80 (3.1): after any history of calls, failed ones included, title, description and version are what was
set last, or what they were before; the version of OpenAPI stays. -/
theorem C80_info (s : Spec S) (calls : List (DocCall S)) :
    (calls.foldl runDoc s).getTitle = lastSet DocCall.title? calls s.getTitle ∧
    (calls.foldl runDoc s).getDescription = lastSet DocCall.description? calls s.getDescription ∧
    (calls.foldl runDoc s).getVersion = lastSet DocCall.version? calls s.getVersion ∧
    (calls.foldl runDoc s).openapi = s.openapi := by
  induction calls generalizing s with
  | nil => exact ⟨rfl, rfl, rfl, rfl⟩
  | cons c cs ih =>
    obtain ⟨h1, h2, h3, h4⟩ := ih (runDoc s c)
    obtain ⟨g1, g2, g3, g4⟩ := runDoc_info s c
    simp only [List.foldl_cons, lastSet_cons]
    exact ⟨by rw [h1, g1], by rw [h2, g2], by rw [h3, g3], by rw [h4, g4]⟩

/-- C80 (3.1): setting title, description and version changes nothing else: paths, webhooks, component schemas
and security schemes stay. -/
theorem C80_info_only (s : Spec S) (calls : List InfoCall) :
    (calls.foldl runInfo s).paths = s.paths ∧ (calls.foldl runInfo s).webhooks = s.webhooks ∧
    (calls.foldl runInfo s).schemas = s.schemas ∧ (calls.foldl runInfo s).security = s.security := by
  induction calls generalizing s with
  | nil => exact ⟨rfl, rfl, rfl, rfl⟩
  | cons c cs ih =>
    rw [List.foldl_cons, (ih _).1, (ih _).2.1, (ih _).2.2.1, (ih _).2.2.2]; cases c <;> exact ⟨rfl, rfl, rfl, rfl⟩

/-- C80 (3.1): what a new document says. -/
theorem C80_new : ({} : Spec S).getTitle = "" ∧ ({} : Spec S).getDescription = "" ∧ ({} : Spec S).getVersion = "" ∧
    ({} : Spec S).openapi = "3.1.0" := ⟨rfl, rfl, rfl, rfl⟩

example : let s := ([.info (.title "a"), .info (.description "b"), .add "GET" "/a" {}, .info (.title "c"),
      .add "GET" "/a" {}] : List (DocCall Unit)).foldl runDoc {}
    s.getTitle = "c" ∧ s.getDescription = "b" ∧ s.getVersion = "" ∧ (s.op? "/a" "get").isSome = true := by
  decide +kernel

/-- C43 (3.1): a new context has the method in lower case and the cleaned path; all other getters give zero
values, no units and no requirements. -/
theorem C43_new_context (sp : Spec S) (m p : String) (oc : OpCtx S) (h : newOperationContext sp m p = .ok oc) :
    (∃ r, sanitizeMethodPath m p = .ok r ∧ oc.method = r.method ∧ oc.path = r.path) ∧
    oc.tags = [] ∧ oc.isDeprecated = false ∧ oc.summary = "" ∧ oc.description = "" ∧ oc.id = "" ∧
    oc.isProcessingResponse = false ∧ oc.processingIn = "" ∧ oc.op.security = [] ∧ oc.req = [] ∧ oc.resp = [] ∧
    (∀ inn, oc.unknownParamsAreForbidden inn = false) ∧ oc.op.parameters = [] := by
  unfold newOperationContext at h
  split at h
  · cases h
  · rename_i r hr
    split at h
    · cases h
    · cases h
    · cases h
      exact ⟨⟨r, hr, rfl, rfl⟩, rfl, rfl, rfl, rfl, rfl, rfl, rfl, rfl, rfl, rfl, fun _ => rfl, rfl⟩

/-- C81 (3.1): `AddOperation` of a document says which operation is there already. -/
theorem C81_duplicate_message (s : Spec S) (m p : String) (op old : Operation S)
    (h : s.op? p (goToLower m) = some old) :
    (s.addOperation m p op).2 = some ("operation already exists: " ++ goToLower m ++ " " ++ p) := by
  have : (s.pathsEns.pathItem p).operation (goToLower m) = .ok (some old) := by
    unfold Spec.op? at h
    have e : s.pathsEns.pathItem p = s.pathItem p := by cases hp : s.paths <;> simp [Spec.pathItem, Spec.pathsEns, hp]
    rw [e]
    split at h
    · rename_i o ho; rw [ho, h]
    · cases h
  simp only [Spec.addOperation, this]

/-- C81 (3.1): `NewOperationContext` names the method, and the path as it was given. -/
theorem C81_context_message (s : Spec S) (m p : String) (r : Sanitized) (old : Operation S)
    (hr : sanitizeMethodPath m p = .ok r) (h : s.op? r.path r.method = some old) :
    newOperationContext s m p = .error ("operation already exists: " ++ r.method ++ " " ++ p) := by
  have : (s.pathItem r.path).operation r.method = .ok (some old) := by
    unfold Spec.op? at h
    split at h
    · rename_i o ho; rw [ho, h]
    · cases h
  simp only [newOperationContext, hr, this]

end Verif.V31

namespace Verif
open ParamSpec DocSpec
variable {S : Type}

/-- C81: an error of reflecting an operation starts with the step that failed, the method and the path of the
context, and ends with the cause. -/
theorem C81_reflection_message (v : Ver S) (env : Env S) (oc : OpCtx S) (s s' : ReqState S) (e : String)
    (h : setupOC v env oc s = (s', .err e)) :
    ∃ step cause, e = step ++ " " ++ oc.method ++ " " ++ oc.path ++ ": " ++ cause ∧
      ((step = "setup request" ∧ setupRequest v env oc.method oc.req s = (s', .err cause)) ∨
       (step = "validate path params" ∧ setupRequest v env oc.method oc.req s = (s', .ok) ∧
        validatePathParams s'.op.parameters oc.pathParams = some cause) ∨
       (step = "setup response" ∧ ∃ s1, setupRequest v env oc.method oc.req s = (s1, .ok) ∧
        validatePathParams s1.op.parameters oc.pathParams = none ∧
        setupResponse v env oc.method oc.resp s1 = (s', .err cause))) := by
  unfold setupOC at h
  split at h
  · rename_i s1 e1 h1
    cases h
    exact ⟨"setup request", e1, by simp only [String.append_assoc]; rfl, .inl ⟨rfl, h1⟩⟩
  · cases h
  · rename_i s1 h1
    split at h
    · rename_i e2 h2
      cases h
      exact ⟨"validate path params", e2, by simp only [String.append_assoc]; rfl, .inr (.inl ⟨rfl, h1, h2⟩)⟩
    · rename_i h2
      split at h
      · rename_i s3 e3 h3
        cases h
        exact ⟨"setup response", e3, by simp only [String.append_assoc]; rfl, .inr (.inr ⟨rfl, s1, h1, h2, h3⟩)⟩
      · rename_i hne
        rcases hx : setupResponse v env oc.method oc.resp s1 with ⟨s3, out⟩
        rw [hx] at h
        cases h
        exact absurd hx (hne _ _)

/-- C81: a field whose parameter is in the operation already is reported by name and location, as wrapped by
the JSON Schema library, and the fields after it are not looked at. -/
theorem C81_duplicate_parameter (v : Ver S) (env : Env S) (inn : String) (before after : List (Event S)) (c : PropCall S)
    (s s1 : ReqState S) (hb : runEvents env (onParameter v inn) (onReqDefinition v) before s = (s1, .ok))
    (htop : c.processed = true ∧ c.pathLen ≤ 1) (hd : ∀ n d, (n, d) ∈ c.inner.1 → Converts v d)
    (hf : FieldReflects v c) (p : Parameter S) (hp : ParamFor v inn c p) (ht : p.key ∈ takenKeys s1.op) :
    ∃ s', runEvents env (onParameter v inn) (onReqDefinition v) (before ++ .prop c :: after) s =
        (s', .err (env.wrap ("parameter " ++ p.name ++ " in " ++ p.inn ++ " is already defined"))) ∧ s'.op = s1.op := by
  have hg : ¬ (!c.processed || decide (c.pathLen > 1)) = true := by
    simp only [Bool.or_eq_true, Bool.not_eq_true', decide_eq_true_eq, not_or, Bool.not_eq_false]
    exact ⟨htop.1, by omega⟩
  obtain ⟨m, p0, hbp⟩ := (buildParameter_iff (inn := inn) hd s1.schemas).mpr hf
  have hone : onParameter v inn c s1 = ({ s1 with schemas := m },
      .err ("parameter " ++ p.name ++ " in " ++ p.inn ++ " is already defined")) := by
    have hp1 : ∃ p1, c.populate p0 = .ok p1 ∧ finalParam inn p1 = p := by
      obtain ⟨q0, q1, b1, b2, b3, b4⟩ := hp
      cases b1.unique (buildParameter_ok hbp).1
      refine ⟨q1, b2, ?_⟩
      by_cases e : inn = "path"
      · rw [b3 e]; simp [finalParam, e]
      · rw [b4 e]; simp [finalParam, e]
    obtain ⟨p1, h1, h2⟩ := hp1
    simp only [onParameter, if_neg hg, hbp, h1, h2]
    rw [if_pos (paramExists_iff.mpr ht)]
  refine ⟨{ s1 with schemas := m }, ?_, rfl⟩
  induction before generalizing s with
  | nil =>
    simp only [runEvents, Prod.mk.injEq, and_true] at hb
    subst hb
    simp only [List.nil_append, runEvents, hone]
  | cons b before ih =>
    cases b with
    | prop c' =>
      simp only [runEvents, List.cons_append] at hb ⊢
      split at hb
      · rename_i s2 h2; exact ih _ hb
      · cases hb
      · cases hb
    | defn n d =>
      simp only [runEvents, List.cons_append] at hb ⊢
      split at hb
      · rename_i s2 h2; exact ih _ hb
      · cases hb
      · cases hb

/-- C81, concrete: the second field for the query parameter `id`. -/
example :
    let c : PropCall V30.OS := { processed := true, pathLen := 1, name := "id", schema := .obj {} none [] [] [] none [] [] none [] }
    let env : Env V30.OS := ⟨{}, .ok false, fun e => "reflect: " ++ e, fun _ => .ok ""⟩
    let r := runEvents env (onParameter V30.ver "query") (onReqDefinition V30.ver) [.prop c, .prop c] ⟨[], {}⟩
    r.2 = .err "reflect: parameter id in query is already defined" ∧ r.1.op.parameters.length = 1 :=
  ⟨rfl, rfl⟩

/-- C81, concrete: a placeholder without a field. -/
example :
    let env : Env V30.OS := ⟨{}, .ok false, fun e => "reflect: " ++ e, fun _ => .ok ""⟩
    (setupOC V30.ver env { method := "get", path := "/a/{id}", pathParams := ["id"] } ⟨[], {}⟩).2 =
      .err "validate path params get /a/{id}: undefined path parameter: id" := rfl

end Verif
