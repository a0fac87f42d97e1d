import Verif.Lemmas.Doc

/-!
# Properties of `Spec.AddOperation` and `Spec.SetupOperation`, OpenAPI 3.0 (C07-C11)
-/

namespace Verif.V30
open ParamSpec DocSpec
variable {S : Type}

/-- What `SetupOperation` does, exactly: it either fails and returns the document unchanged, or stores the
edited operation, which is then consistent with its path. -/
theorem setupOperation_cases (s : Spec S) (m p : String) (fs : List (Setup S)) :
    (∃ e, s.setupOperation m p fs = (s, some e)) ∨
    (∃ r op, sanitizeMethodPath m p = .ok r ∧
      runSetups fs ((s.op? r.path r.method).getD {}) = (op, none) ∧
      Consistent r.path r.method op ∧
      s.setupOperation m p fs = (
        let pi := { s.pathItem r.path with ops := (s.pathItem r.path).ops.set r.method op }
        ({ s with paths := s.paths.set r.path pi }, none))) := by
  cases hs : sanitizeMethodPath m p with
  | error e => left; exact ⟨e, by simp only [Spec.setupOperation, hs]⟩
  | ok r =>
    cases hr : runSetups fs ((s.op? r.path r.method).getD {}) with
    | mk op err =>
      cases err with
      | some e =>
        left; refine ⟨e, ?_⟩
        simp only [Spec.op?] at hr
        simp only [Spec.setupOperation, hs, hr]
      | none =>
        have hr' := hr
        simp only [Spec.op?] at hr'
        cases hv : validatePathParams op.parameters (pathParamsMap r.params) with
        | some e => left; exact ⟨e, by simp only [Spec.setupOperation, hs, hr', hv]⟩
        | none =>
          right
          exact ⟨r, op, rfl, hr, validated_consistent hs hv, by simp only [Spec.setupOperation, hs, hr', hv]⟩

/-- C11 (3.0): a failing `SetupOperation` leaves the whole document unchanged. -/
theorem C11_setup_atomic (s s' : Spec S) (m p e : String) (fs : List (Setup S))
    (h : s.setupOperation m p fs = (s', some e)) : s' = s := by
  rcases setupOperation_cases s m p fs with ⟨e', he⟩ | ⟨r, op, -, -, -, he⟩
  · rw [he] at h; cases h; rfl
  · rw [he] at h; cases h

/-- C11 (3.0): a successful `SetupOperation` stores what the setup functions made of the operation that
was there (or of an empty one), and changes no other operation and nothing else in the document. -/
theorem C11_setup_effect (s s' : Spec S) (m p : String) (fs : List (Setup S))
    (h : s.setupOperation m p fs = (s', none)) :
    ∃ r op, sanitizeMethodPath m p = .ok r ∧
      AllSucceed fs ((s.op? r.path r.method).getD {}) op ∧
      (∀ path method, s'.op? path method =
        if path = r.path ∧ method = r.method then some op else s.op? path method) ∧
      s' = { s with paths := s'.paths } ∧
      (∀ path, (s'.pathItem path).summary = (s.pathItem path).summary ∧
        (s'.pathItem path).parameters = (s.pathItem path).parameters) := by
  rcases setupOperation_cases s m p fs with ⟨e', he⟩ | ⟨r, op, h1, h2, h3, he⟩
  · rw [he] at h; cases h
  · rw [he] at h; cases h
    refine ⟨r, op, h1, (runSetups_none_iff _ _ _).mp h2, fun path method => op?_set s r.path r.method op path method, rfl, ?_⟩
    intro path
    unfold Spec.pathItem
    simp only [GoMap.get?_set]
    by_cases hp : path = r.path <;> simp [hp]

example : (({} : Spec Unit).setupOperation "GET" "/a/{id}" [fun o => ({ o with
    parameters := [{ param := some { name := "id", inn := "path" } }] }, none)]).2 = none := by
  decide +kernel

/-- A failing setup that has already edited the operation. -/
example : (({} : Spec Unit).setupOperation "GET" "/a" [fun o => ({ o with id := some "x" }, none),
    fun o => (o, some "no")]).2 = some "no" := by
  decide +kernel

/-- C11 (3.0): the first setup function that fails decides the error, the later ones do not run, and the
document stays as it was. -/
theorem C11_setup_first_error (s : Spec S) (m p : String) (r : Sanitized) (pre post : List (Setup S))
    (f : Setup S) (op1 op2 : Operation S) (e : String) (hr : sanitizeMethodPath m p = .ok r)
    (h1 : AllSucceed pre ((s.op? r.path r.method).getD {}) op1) (h2 : f op1 = (op2, some e)) :
    s.setupOperation m p (pre ++ f :: post) = (s, some e) := by
  have := runSetups_error (post := post) h1 h2
  simp only [Spec.op?] at this
  simp only [Spec.setupOperation, hr, this]

/-- C08 (3.0): a failing `AddOperation` leaves the whole document unchanged. -/
theorem C08_add_failure (s s' : Spec S) (m p e : String) (op : Operation S)
    (h : s.addOperation m p op = (s', some e)) : s' = s := by
  unfold Spec.addOperation at h
  simp only at h
  split at h
  · cases h; rfl
  · exact C11_setup_atomic _ _ _ _ _ _ h

example : (({} : Spec Unit).addOperation "GET" "/a/{id}" {}).2 = some "undefined path parameter: id" := by
  decide +kernel

/-- C07 (3.0): effect and frame of a successful `AddOperation`. -/
theorem C07_add_success (s s' : Spec S) (m p : String) (op : Operation S)
    (h : s.addOperation m p op = (s', none)) :
    ∃ r stored, sanitizeMethodPath m p = .ok r ∧ Completed op stored ∧
      (∀ path method, s'.op? path method =
        if path = r.path ∧ method = r.method then some stored else s.op? path method) ∧
      s' = { s with paths := s'.paths } ∧
      (∀ path, (s'.pathItem path).summary = (s.pathItem path).summary ∧
        (s'.pathItem path).parameters = (s.pathItem path).parameters) := by
  unfold Spec.addOperation at h
  simp only at h
  split at h
  · cases h
  · obtain ⟨r, op', h1, h2, h3, h4, h5⟩ := C11_setup_effect _ _ _ _ _ h
    rw [← runSetups_none_iff, runSetups_const] at h2
    cases h2
    rw [sanitize_lower] at h1
    exact ⟨r, _, h1, ensureSomeResponse_completed op, h3, h4, h5⟩

example : (({} : Spec Unit).addOperation "Get" "/a" {}).2 = none ∧
    ((({} : Spec Unit).addOperation "Get" "/a" {}).1.op? "/a" "get").map (·.responses.codes.map (·.1)) =
      some ["204"] := by decide +kernel

/-- C07 (3.0): the condition for success, exactly: no operation at the path as given (not sanitised),
a known method, and parameters that pass validation. -/
theorem C07_add_succeeds_iff (s : Spec S) (m p : String) (op : Operation S) :
    (s.addOperation m p op).2 = none ↔
      s.op? p (goToLower m) = none ∧ ∃ r, sanitizeMethodPath m p = .ok r ∧
        validatePathParams op.parameters (pathParamsMap r.params) = none := by
  unfold Spec.addOperation
  simp only
  split
  · rename_i h
    simp only [reduceCtorEq, false_iff, not_and]
    intro h'
    unfold Spec.op? at h'
    rw [h'] at h; cases h
  · rename_i h
    have h' : s.op? p (goToLower m) = none := by
      unfold Spec.op?
      simpa using h
    simp only [h', true_and]
    unfold Spec.setupOperation
    rw [sanitize_lower]
    cases hs : sanitizeMethodPath m p with
    | error e => simp
    | ok r =>
      simp only [runSetups_const, ensureSomeResponse_parameters]
      cases hv : validatePathParams op.parameters (pathParamsMap r.params) with
      | some e => simp [hv]
      | none => simp [hv]

/-- C09 (3.0), plain paths (all paths: `C09_duplicate_exact`): if the path is already sanitised (for example because it has no
colon) and an operation is stored there for the method, `AddOperation` fails and keeps it. -/
theorem C09_no_overwrite_plain (s : Spec S) (m p : String) (op old : Operation S) (r : Sanitized)
    (hr : sanitizeMethodPath m p = .ok r) (hp : r.path = p) (hold : s.op? r.path r.method = some old) :
    ∃ e, s.addOperation m p op = (s, some e) := by
  have hm := (sanitize_method hr).1
  rw [hp, hm] at hold
  unfold Spec.op? at hold
  unfold Spec.addOperation
  simp only [hold, Option.isSome_some, if_true]
  exact ⟨_, rfl⟩

example : ∃ (s : Spec Unit) (r : Sanitized) (old : Operation Unit),
    sanitizeMethodPath "Get" "/a/{id}" = .ok r ∧ r.path = "/a/{id}" ∧ s.op? r.path r.method = some old :=
  ⟨{ paths := [("/a/{id}", { ops := [("get", {})] })] }, ⟨"get", "/a/{id}", ["id"]⟩, {},
    by decide +kernel, rfl, by decide +kernel⟩

/-- A history of calls on a document. -/
inductive Call (S : Type) where
  | add (method path : String) (op : Operation S)
  | setup (method path : String) (fs : List (Setup S))
  | basicAuth (name description : String)
  | apiKey (name fieldName fieldIn description : String)
  | bearer (name format description : String)
  | title (t : String)

/-- The document after one call (errors are ignored by the caller). -/
def Call.run (s : Spec S) : Call S → Spec S
  | .add m p op => (s.addOperation m p op).1
  | .setup m p fs => (s.setupOperation m p fs).1
  | .basicAuth n d => s.setHTTPBasicSecurity n d
  | .apiKey n f i d => s.setAPIKeySecurity n f i d
  | .bearer n f d => s.setHTTPBearerTokenSecurity n f d
  | .title t => s.setTitle t

theorem call_preserves (s : Spec S) (c : Call S)
    (h : ∀ path method op, s.op? path method = some op → Consistent path method op) :
    ∀ path method op, (c.run s).op? path method = some op → Consistent path method op := by
  have hset : ∀ m p fs, ∀ path method op, (s.setupOperation m p fs).1.op? path method = some op →
      Consistent path method op := by
    intro m p fs path method op ho
    rcases setupOperation_cases s m p fs with ⟨e', he⟩ | ⟨r, op', h1, h2, h3, he⟩
    · rw [he] at ho; exact h _ _ _ ho
    · rw [he] at ho
      rw [show _ = _ from op?_set s r.path r.method op' path method] at ho
      split at ho
      · rename_i hc
        cases ho
        rw [hc.1, hc.2]; exact h3
      · exact h _ _ _ ho
  cases c with
  | add m p op =>
    intro path method op' ho
    simp only [Call.run, Spec.addOperation] at ho
    split at ho
    · exact h _ _ _ ho
    · exact hset _ _ _ _ _ _ ho
  | setup m p fs => exact hset m p fs
  | basicAuth n d => exact h
  | apiKey n f i d => exact h
  | bearer n f d => exact h
  | title t => exact h

/-- C10 (3.0): from an empty document, after any history of calls (failed ones included), every stored
operation is consistent with its path and method. -/
theorem C10_consistent_documents (calls : List (Call S)) (path method : String) (op : Operation S)
    (h : (calls.foldl Call.run {}).op? path method = some op) : Consistent path method op := by
  have key : ∀ (calls : List (Call S)) (s : Spec S),
      (∀ path method op, s.op? path method = some op → Consistent path method op) →
      ∀ path method op, (calls.foldl Call.run s).op? path method = some op → Consistent path method op := by
    intro calls
    induction calls with
    | nil => intro s h; exact h
    | cons c cs ih => intro s h; exact ih _ (call_preserves s c h)
  refine key calls {} ?_ path method op h
  intro path method op ho
  simp [Spec.op?, Spec.pathItem] at ho

/-- C10, a non-trivial reachable case: a history with a success, a duplicate, a rejected operation and a
failing setup ends in a document with one operation. -/
example :
    ((([.add "GET" "/a/{id:[0-9]+}" { parameters := [{ param := some { name := "id", inn := "path" } }] },
       .add "GET" "/a/{id}" {}, .add "PUT" "/a/{id}" {},
       .setup "GET" "/a/{id}" [fun o => ({ o with parameters := [] }, none)]] : List (Call Unit)).foldl
      Call.run {}).op? "/a/{id}" "get").isSome = true := by decide +kernel

/-- C09 (3.0), a witness: for a path with a pattern the duplicate check looks at the raw path,
so the second `AddOperation` silently replaces the first operation. -/
theorem C09_overwrite_with_pattern :
    ∃ (s : Spec Unit) (op : Operation Unit) (r : Sanitized) (old : Operation Unit),
      sanitizeMethodPath "GET" "/u/{id:[0-9]+}" = .ok r ∧
      s.op? r.path r.method = some old ∧
      (s.addOperation "GET" "/u/{id:[0-9]+}" op).2 = none ∧
      (s.addOperation "GET" "/u/{id:[0-9]+}" op).1.op? r.path r.method ≠ some old := by
  let par : List (ParamOrRef Unit) := [{ param := some { name := "id", inn := "path" } }]
  exact ⟨(({} : Spec Unit).addOperation "GET" "/u/{id:[0-9]+}" { parameters := par, id := some "first" }).1,
    { parameters := par, id := some "second" }, ⟨"get", "/u/{id}", ["id"]⟩,
    ensureSomeResponse { parameters := par, id := some "first" }, by decide +kernel, by decide +kernel,
    by decide +kernel, by decide +kernel⟩

end Verif.V30
