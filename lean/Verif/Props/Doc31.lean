import Verif.Lemmas.Doc

/-!
# Properties of `Spec.AddOperation`, `Spec.SetupOperation` and `Spec.AddWebhook`, OpenAPI 3.1 (C07-C12)
-/

namespace Verif.V31
open ParamSpec DocSpec
variable {S : Type}

theorem op?_known {s : Spec S} {p m : String} (hm : m ∈ PathSpec.methods) :
    (s.pathItem p).operation m = .ok (s.op? p m) := by
  obtain ⟨o, ho⟩ := operation_known hm (s.pathItem p)
  simp only [Spec.op?, ho]

theorem pathItem_set (s : Spec S) (path p : String) (pi : PathItem S) :
    Spec.pathItem { s with paths := some ((s.paths.getD []).set path pi) } p
      = if p = path then pi else s.pathItem p := by
  unfold Spec.pathItem
  simp only [Option.getD_some, GoMap.get?_set]
  by_cases hp : p = path <;> simp [hp]

/-- What `SetupOperation` does, exactly. -/
theorem setupOperation_cases (s : Spec S) (m p : String) (fs : List (Setup S)) :
    (∃ e, sanitizeMethodPath m p = .error e ∧ s.setupOperation m p fs = (s, some e)) ∨
    (∃ r e, sanitizeMethodPath m p = .ok r ∧ s.op? r.path r.method = none ∧
      s.setupOperation m p fs = (s.pathsEns, some e)) ∨
    (∃ r old e, sanitizeMethodPath m p = .ok r ∧ s.op? r.path r.method = some old ∧
      s.setupOperation m p fs =
        (s.pathsEns.editInPlace r.path r.method (runSetups fs old).1, some e)) ∨
    (∃ r op s', sanitizeMethodPath m p = .ok r ∧
      runSetups fs ((s.op? r.path r.method).getD {}) = (op, none) ∧
      Consistent r.path r.method op ∧
      (∀ path, ∀ method ∈ PathSpec.methods, s'.op? path method =
        if path = r.path ∧ method = r.method then some op else s.op? path method) ∧
      s' = { s with paths := s'.paths } ∧
      (∀ path, (s'.pathItem path).summary = (s.pathItem path).summary ∧
        (s'.pathItem path).parameters = (s.pathItem path).parameters) ∧
      s.setupOperation m p fs = (s', none)) := by
  cases hs : sanitizeMethodPath m p with
  | error e => left; exact ⟨e, rfl, by simp only [Spec.setupOperation, hs]⟩
  | ok r =>
    right
    have hm := (sanitize_method hs).2
    have hop : (s.pathsEns.pathItem r.path).operation r.method = .ok (s.op? r.path r.method) := by
      rw [pathsEns_pathItem]; exact op?_known hm
    -- a failing call
    have fail : ∀ e, s.setupOperation m p fs = (if (s.op? r.path r.method).isSome then
          s.pathsEns.editInPlace r.path r.method (runSetups fs ((s.op? r.path r.method).getD {})).1
          else s.pathsEns, some e) →
        ((∃ r' e, Except.ok (ε := String) r = .ok r' ∧ s.op? r'.path r'.method = none ∧
          s.setupOperation m p fs = (s.pathsEns, some e)) ∨
        (∃ r' old e, Except.ok (ε := String) r = .ok r' ∧ s.op? r'.path r'.method = some old ∧
          s.setupOperation m p fs =
          (s.pathsEns.editInPlace r'.path r'.method (runSetups fs old).1, some e))) := by
      intro e he
      cases ho : s.op? r.path r.method with
      | none => left; refine ⟨r, e, rfl, ho, ?_⟩; rw [he]; simp [ho]
      | some old => right; refine ⟨r, old, e, rfl, ho, ?_⟩; rw [he]; simp [ho]
    cases hr : runSetups fs ((s.op? r.path r.method).getD {}) with
    | mk op err =>
      rw [hr] at fail
      cases err with
      | some e =>
        rcases fail e (by simp only [Spec.setupOperation, hs, hop, hr]) with h | h
        · exact .inl h
        · exact .inr (.inl h)
      | none =>
        cases hv : validatePathParams op.parameters (pathParamsMap r.params) with
        | some e =>
          rcases fail e (by simp only [Spec.setupOperation, hs, hop, hr, hv]) with h | h
          · exact .inl h
          · exact .inr (.inl h)
        | none =>
          right; right
          obtain ⟨pi', hpi, hsum, hpar, hops⟩ := setOperation_known hm (s.pathItem r.path) op
          let s0 := if (s.op? r.path r.method).isSome then s.pathsEns.editInPlace r.path r.method op
            else s.pathsEns
          have hs0p : ∀ q, q ≠ r.path → s0.pathItem q = s.pathItem q := by
            intro q hq
            simp only [s0]
            split
            · rw [Spec.editInPlace, pathsEns_pathItem, hpi]
              simp only
              rw [pathItem_set, if_neg hq, pathsEns_pathItem]
            · exact pathsEns_pathItem s q
          have hs0r : s0 = { s with paths := s0.paths } := by
            simp only [s0]
            split
            · rw [Spec.editInPlace, pathsEns_pathItem, hpi]; rfl
            · rfl
          have hpi' : ∀ q, Spec.pathItem { s0 with paths := some ((s0.paths.getD []).set r.path pi') } q =
              if q = r.path then pi' else s.pathItem q := by
            intro q
            rw [pathItem_set]
            by_cases hq : q = r.path
            · simp [hq]
            · simp only [if_neg hq]; exact hs0p q hq
          refine ⟨r, op, { s0 with paths := some ((s0.paths.getD []).set r.path pi') }, rfl, hr,
            validated_consistent hs hv, ?_, ?_, ?_, ?_⟩
          · intro path method hmm
            simp only [Spec.op?, hpi']
            by_cases hq : path = r.path
            · subst hq
              simp only [if_true, hops method hmm, true_and]
              by_cases he : method = r.method <;> simp [he]
            · simp [hq]
          · rw [hs0r]
          · intro path
            simp only [hpi']
            by_cases hq : path = r.path
            · simp [hq, hsum, hpar]
            · simp [hq]
          · simp only [Spec.setupOperation, hs, hop, hr, hv]
            rw [pathsEns_pathItem, hpi]

/-- C11 (3.1): a successful `SetupOperation` stores what the setup functions made of the operation that
was there (or of an empty one), and changes no other operation and nothing else in the document. -/
theorem C11_setup_effect (s s' : Spec S) (m p : String) (fs : List (Setup S))
    (h : s.setupOperation m p fs = (s', none)) :
    ∃ r op, sanitizeMethodPath m p = .ok r ∧
      AllSucceed fs ((s.op? r.path r.method).getD {}) op ∧
      (∀ path, ∀ method ∈ PathSpec.methods, s'.op? path method =
        if path = r.path ∧ method = r.method then some op else s.op? path method) ∧
      s' = { s with paths := s'.paths } ∧
      (∀ path, (s'.pathItem path).summary = (s.pathItem path).summary ∧
        (s'.pathItem path).parameters = (s.pathItem path).parameters) := by
  rcases setupOperation_cases s m p fs with ⟨e, -, he⟩ | ⟨r, e, -, -, he⟩ | ⟨r, o, e, -, -, he⟩ |
    ⟨r, op, s2, h1, h2, h3, h4, h5, h6, he⟩
  · rw [he] at h; cases h
  · rw [he] at h; cases h
  · rw [he] at h; cases h
  · rw [he] at h; cases h
    exact ⟨r, op, h1, (runSetups_none_iff _ _ _).mp h2, h4, h5, h6⟩

/-- C11 (3.1): the first setup function that fails decides the error, the later ones do not run; what is
left in the document is, for a stored operation, its state at that point. -/
theorem C11_setup_first_error (s : Spec S) (m p : String) (r : Sanitized) (pre post : List (Setup S))
    (f : Setup S) (op1 op2 : Operation S) (e : String) (hr : sanitizeMethodPath m p = .ok r)
    (h1 : AllSucceed pre ((s.op? r.path r.method).getD {}) op1) (h2 : f op1 = (op2, some e)) :
    ∃ s', s.setupOperation m p (pre ++ f :: post) = (s', some e) ∧
      ∀ path, ∀ method ∈ PathSpec.methods, s'.op? path method =
        if path = r.path ∧ method = r.method ∧ s.op? path method ≠ none then some op2
        else s.op? path method := by
  have hrs := runSetups_error (post := post) h1 h2
  have hm := (sanitize_method hr).2
  have hop : (s.pathsEns.pathItem r.path).operation r.method = .ok (s.op? r.path r.method) := by
    rw [pathsEns_pathItem]; exact op?_known hm
  refine ⟨_, by simp only [Spec.setupOperation, hr, hop, hrs]; rfl, ?_⟩
  intro path method hmm
  cases ho : s.op? r.path r.method with
  | none =>
    simp only [Option.isSome_none, Bool.false_eq_true, if_false, pathsEns_op?]
    split
    · rename_i hc; rw [hc.1, hc.2.1, ho] at hc; exact absurd rfl hc.2.2
    · rfl
  | some old =>
    obtain ⟨pi', hpi, hsum, hpar, hops⟩ := setOperation_known hm (s.pathItem r.path) op2
    simp only [Option.isSome_some, if_true, Spec.editInPlace, pathsEns_pathItem, hpi]
    rw [op?_set (s := s.pathsEns) hm (by rw [pathsEns_pathItem]; exact hpi) path method hmm]
    rw [pathsEns_op?]
    by_cases hc : path = r.path ∧ method = r.method
    · simp [hc.1, hc.2, ho]
    · rw [if_neg hc, if_neg (fun h => hc ⟨h.1, h.2.1⟩)]

/-- C11 (3.1), nothing stored (all calls: `C11_setup_failure`): a failing `SetupOperation` that does not address a stored operation
changes nothing (it may turn nil paths into an empty map). -/
theorem C11_setup_atomic_absent (s s' : Spec S) (m p e : String) (fs : List (Setup S))
    (hno : ∀ r, sanitizeMethodPath m p = .ok r → s.op? r.path r.method = none)
    (h : s.setupOperation m p fs = (s', some e)) : s' = s ∨ s' = { s with paths := some (s.paths.getD []) } := by
  rcases setupOperation_cases s m p fs with ⟨e, -, he⟩ | ⟨r, e, -, -, he⟩ | ⟨r, o, e, h1, h2, he⟩ |
    ⟨r, op, s2, h1, h2, h3, h4, h5, h6, he⟩
  · rw [he] at h; cases h; exact .inl rfl
  · rw [he] at h; cases h; exact .inr rfl
  · rw [hno r h1] at h2; cases h2
  · rw [he] at h; cases h

example : (({ paths := some [("/b", {})] } : Spec Unit).setupOperation "GET" "/a" [fun o => ({ o with id := some "x" }, none),
    fun o => (o, some "no")]).2 = some "no" ∧
    ({ paths := some [("/b", {})] } : Spec Unit).op? "/a" "get" = none := by
  decide +kernel

/-- C11 (3.1), a witness: the setup functions edit the stored operation in place, so a failing
call can leave an operation in the document that is not consistent with its path. -/
theorem C11_setup_not_atomic :
    ∃ (s : Spec Unit) (fs : List (Setup Unit)) (old new : Operation Unit),
      s.op? "/a/{id}" "get" = some old ∧ Consistent "/a/{id}" "get" old ∧
      (∃ e, (s.setupOperation "GET" "/a/{id}" fs).2 = some e) ∧
      (s.setupOperation "GET" "/a/{id}" fs).1.op? "/a/{id}" "get" = some new ∧
      new ≠ old ∧ ¬ Consistent "/a/{id}" "get" new := by
  let par : List (ParamOrRef Unit) := [{ param := some { name := "id", inn := "path" } }]
  refine ⟨{ paths := some [("/a/{id}", { get := some { parameters := par } })] },
    [fun o => ({ o with parameters := [] }, none)], { parameters := par }, {}, by decide +kernel, ?_,
    ⟨"undefined path parameter: id", by decide +kernel⟩, by decide +kernel, by decide +kernel, ?_⟩
  · exact validated_consistent (m := "get") (p := "/a/{id}") (r := ⟨"get", "/a/{id}", ["id"]⟩)
      (by decide +kernel) (by decide +kernel)
  · rintro ⟨-, ps, hd, -, -, -, h⟩
    have hn := (C02_cleaned_path "get" "/a/{id}" ⟨"get", "/a/{id}", ["id"]⟩ ps (by decide +kernel) hd).2
    have := h (by intro q hq; simp [inlineParams] at hq) "id" (by rw [← hn]; simp)
    obtain ⟨q, hq, -⟩ := this
    simp [inlineParams] at hq

/-- What `AddOperation` does. -/
theorem addOperation_cases (s : Spec S) (m p : String) (op : Operation S) :
    (∃ e e', sanitizeMethodPath m p = .error e ∧ s.addOperation m p op = (s.pathsEns, some e')) ∨
    (∃ r old e, sanitizeMethodPath m p = .ok r ∧ s.op? p r.method = some old ∧
      s.addOperation m p op = (s.pathsEns, some e)) ∨
    (∃ r, sanitizeMethodPath m p = .ok r ∧ s.op? p r.method = none ∧
      s.addOperation m p op = s.pathsEns.setupOperation m p [fun _ => (ensureSomeResponse op, none)]) := by
  cases hs : sanitizeMethodPath m p with
  | error e =>
    left
    have hset : s.pathsEns.setupOperation (goToLower m) p [fun _ => (ensureSomeResponse op, none)] =
        (s.pathsEns, some e) := by
      simp only [Spec.setupOperation, sanitize_lower, hs]
    cases ho : (s.pathsEns.pathItem p).operation (goToLower m) with
    | error e' => exact ⟨e, e', rfl, by simp only [Spec.addOperation, ho]⟩
    | ok o =>
      cases o with
      | some o =>
        exact ⟨e, "operation already exists: " ++ goToLower m ++ " " ++ p, rfl,
          by simp only [Spec.addOperation, ho]⟩
      | none => exact ⟨e, e, rfl, by simp only [Spec.addOperation, ho, hset]⟩
  | ok r =>
    right
    have hm := sanitize_method hs
    have hop : (s.pathsEns.pathItem p).operation (goToLower m) = .ok (s.op? p r.method) := by
      rw [pathsEns_pathItem, hm.1]; rw [hm.1] at hm; exact op?_known hm.2
    cases ho : s.op? p r.method with
    | some old =>
      left
      refine ⟨r, old, "operation already exists: " ++ goToLower m ++ " " ++ p, rfl, ho, ?_⟩
      simp only [Spec.addOperation, hop, ho]
    | none =>
      right
      refine ⟨r, rfl, ho, ?_⟩
      simp only [Spec.addOperation, hop, ho, Spec.setupOperation, sanitize_lower]

/-- C07 (3.1): effect and frame of a successful `AddOperation`. -/
theorem C07_add_success (s s' : Spec S) (m p : String) (op : Operation S)
    (h : s.addOperation m p op = (s', none)) :
    ∃ r stored, sanitizeMethodPath m p = .ok r ∧ Completed op stored ∧
      (∀ path, ∀ method ∈ PathSpec.methods, s'.op? path method =
        if path = r.path ∧ method = r.method then some stored else s.op? path method) ∧
      s' = { s with paths := s'.paths } ∧
      (∀ path, (s'.pathItem path).summary = (s.pathItem path).summary ∧
        (s'.pathItem path).parameters = (s.pathItem path).parameters) := by
  rcases addOperation_cases s m p op with ⟨e, e', -, he⟩ | ⟨r, old, e, -, -, he⟩ | ⟨r, -, -, he⟩
  · rw [he] at h; cases h
  · rw [he] at h; cases h
  · rw [he] at h
    obtain ⟨r, op', h1, h2, h3, h4, h5⟩ := C11_setup_effect _ _ _ _ _ h
    rw [← runSetups_none_iff, runSetups_const] at h2
    cases h2
    simp only [pathsEns_op?, pathsEns_pathItem] at h3 h5
    exact ⟨r, _, h1, ensureSomeResponse_completed op, h3, by rw [h4]; rfl, h5⟩

example : (({} : Spec Unit).addOperation "Get" "/a" {}).2 = none ∧
    ((({} : Spec Unit).addOperation "Get" "/a" {}).1.op? "/a" "get").map (·.responses.codes.map (·.1)) =
      some ["204"] := by decide +kernel

/-- C07 (3.1): the condition for success, exactly: no operation at the path as given (not sanitised),
a known method, and parameters that pass validation. -/
theorem C07_add_succeeds_iff (s : Spec S) (m p : String) (op : Operation S) :
    (s.addOperation m p op).2 = none ↔
      ∃ r, sanitizeMethodPath m p = .ok r ∧ s.op? p r.method = none ∧
        validatePathParams op.parameters (pathParamsMap r.params) = none := by
  rcases addOperation_cases s m p op with ⟨e, e', h1, he⟩ | ⟨r, old, e, h1, h2, he⟩ | ⟨r, h1, h2, he⟩
  · rw [he, h1]; simp
  · rw [he, h1]; simp [h2]
  · rw [he]
    simp only [h1, Except.ok.injEq, exists_eq_left', h2, true_and]
    have hm := (sanitize_method h1).2
    simp only [Spec.setupOperation, h1]
    have e1 : s.pathsEns.pathsEns.pathItem r.path = s.pathItem r.path := by
      rw [pathsEns_pathItem, pathsEns_pathItem]
    obtain ⟨pi', hpi, -⟩ := setOperation_known hm (s.pathItem r.path) (ensureSomeResponse op)
    rw [e1, op?_known hm]
    simp only [runSetups_const, ensureSomeResponse_parameters, hpi]
    cases validatePathParams op.parameters (pathParamsMap r.params) <;> simp

/-- C08 (3.1), plain paths (all calls: `C08_add_failure_exact`): when `AddOperation` fails and sanitising leaves the given path as it
is (or no operation is stored at the sanitised path), nothing changes, except that nil paths become an
empty map. -/
theorem C08_add_failure_plain (s s' : Spec S) (m p e : String) (op : Operation S)
    (hp : ∀ r, sanitizeMethodPath m p = .ok r → r.path = p ∨ s.op? r.path r.method = none)
    (h : s.addOperation m p op = (s', some e)) :
    s' = { s with paths := some (s.paths.getD []) } := by
  rcases addOperation_cases s m p op with ⟨e, e', -, he⟩ | ⟨r, old, e, -, -, he⟩ | ⟨r, h1, h2, he⟩
  · rw [he] at h; cases h; rfl
  · rw [he] at h; cases h; rfl
  · rw [he] at h
    have hno : ∀ r, sanitizeMethodPath m p = .ok r → s.pathsEns.op? r.path r.method = none := by
      intro r' h'
      rw [h1] at h'
      cases h'
      rw [pathsEns_op?]
      rcases hp r h1 with h | h
      · rw [h]; exact h2
      · exact h
    rcases C11_setup_atomic_absent _ _ _ _ _ _ hno h with h | h
    · rw [h]; rfl
    · rw [h]; rfl

example : (({ paths := some [("/a", { get := some {} })] } : Spec Unit).addOperation "GET" "/a/{id}" {}).2 =
    some "undefined path parameter: id" ∧
    (({ paths := some [("/a", { get := some {} })] } : Spec Unit).addOperation "GET" "/a" {}).2 =
    some "operation already exists: get /a" := by decide +kernel

/-- C08 (3.1), a witness: with a path that has a pattern, a failing `AddOperation` overwrites
the stored operation with the rejected one. -/
theorem C08_add_failure_clobbers :
    ∃ (s : Spec Unit) (op old : Operation Unit),
      s.op? "/u/{id}" "get" = some old ∧
      (∃ e, (s.addOperation "GET" "/u/{id:[0-9]+}" op).2 = some e) ∧
      (s.addOperation "GET" "/u/{id:[0-9]+}" op).1.op? "/u/{id}" "get" = some (ensureSomeResponse op) ∧
      ensureSomeResponse op ≠ old := by
  let par : List (ParamOrRef Unit) := [{ param := some { name := "id", inn := "path" } }]
  exact ⟨{ paths := some [("/u/{id}", { get := some { parameters := par } })] }, {}, { parameters := par },
    by decide +kernel, ⟨"undefined path parameter: id", by decide +kernel⟩, by decide +kernel, by decide +kernel⟩

/-- C09 (3.1), plain paths (all calls: `C09_duplicate_exact`): if the path is already sanitised and an operation is stored there for
the method, `AddOperation` fails and keeps it. -/
theorem C09_no_overwrite_plain (s : Spec S) (m p : String) (op old : Operation S) (r : Sanitized)
    (hr : sanitizeMethodPath m p = .ok r) (hp : r.path = p) (hold : s.op? r.path r.method = some old) :
    ∃ e, s.addOperation m p op = ({ s with paths := some (s.paths.getD []) }, some e) := by
  rcases addOperation_cases s m p op with ⟨e, e', -, he⟩ | ⟨r, old, e, -, -, he⟩ | ⟨r', h1, h2, he⟩
  · exact ⟨_, he⟩
  · exact ⟨_, he⟩
  · rw [hr] at h1; cases h1; rw [hp, h2] at hold; cases hold

example : ∃ (s : Spec Unit) (r : Sanitized) (old : Operation Unit),
    sanitizeMethodPath "Get" "/a/{id}" = .ok r ∧ r.path = "/a/{id}" ∧ s.op? r.path r.method = some old :=
  ⟨{ paths := some [("/a/{id}", { get := some {} })] }, ⟨"get", "/a/{id}", ["id"]⟩, {},
    by decide +kernel, rfl, by decide +kernel⟩

/-- C09 (3.1), a witness. -/
theorem C09_overwrite_with_pattern :
    ∃ (s : Spec Unit) (op : Operation Unit) (r : Sanitized) (old : Operation Unit),
      sanitizeMethodPath "GET" "/u/{id:[0-9]+}" = .ok r ∧
      s.op? r.path r.method = some old ∧
      (s.addOperation "GET" "/u/{id:[0-9]+}" op).2 = none ∧
      (s.addOperation "GET" "/u/{id:[0-9]+}" op).1.op? r.path r.method ≠ some old := by
  let par : List (ParamOrRef Unit) := [{ param := some { name := "id", inn := "path" } }]
  exact ⟨(({} : Spec Unit).addOperation "GET" "/u/{id:[0-9]+}" { parameters := par, id := some "first" }).1,
    { parameters := par, id := some "second" }, ⟨"get", "/u/{id}", ["id"]⟩,
    ensureSomeResponse { parameters := par, id := some "first" }, by decide +kernel, by decide +kernel,
    by decide +kernel, by decide +kernel⟩

theorem addWebhook_paths (s : Spec S) (m n : String) (op : Operation S) :
    (s.addWebhook m n op).1.paths = s.paths := by
  unfold Spec.addWebhook
  split
  · rfl
  · simp only
    split
    · rfl
    · split <;> rfl

/-- C12: `AddWebhook` with a taken name or an unknown method fails and changes nothing; otherwise it
succeeds, the name maps to a path item with this one operation, and everything else stays. -/
theorem C12_webhooks (s : Spec S) (m name : String) (op : Operation S) :
    ((s.webhooks.get? name ≠ none ∨ ∀ n ∈ PathSpec.methods, ¬ PathSpec.Spells m.toList n.toList) →
      ∃ e, s.addWebhook m name op = (s, some e)) ∧
    (∀ n ∈ PathSpec.methods, s.webhooks.get? name = none → PathSpec.Spells m.toList n.toList →
      ∃ item stored, Completed op stored ∧
        (∀ n' ∈ PathSpec.methods, item.operation n' = .ok (if n' = n then some stored else none)) ∧
        item.summary = none ∧ item.parameters = [] ∧
        ∃ hooks, s.addWebhook m name op = ({ s with webhooks := hooks }, none) ∧
          ∀ x, hooks.get? x = if x = name then some item else s.webhooks.get? x) := by
  constructor
  · rintro (h | h)
    · refine ⟨"duplicate webhook name: " ++ name, ?_⟩
      have : (s.webhooks.get? name).isSome = true := by
        cases hh : s.webhooks.get? name with
        | none => exact absurd hh h
        | some _ => rfl
      simp only [Spec.addWebhook, this, if_true]
    · cases hn : s.webhooks.get? name with
      | some x => exact ⟨"duplicate webhook name: " ++ name, by simp [Spec.addWebhook, hn]⟩
      | none =>
        obtain ⟨e, he⟩ := (C01_methods m "/").2.2 h
        exact ⟨e, by simp [Spec.addWebhook, hn, sanitize_lower, he]⟩
  · intro n hn hfree hsp
    obtain ⟨r, hr, hrm⟩ := (C01_methods m "/").1 n hn hsp
    obtain ⟨pi, hpi, h1, h2, h3⟩ := setOperation_known hn ({} : PathItem S) (ensureSomeResponse op)
    refine ⟨pi, ensureSomeResponse op, ensureSomeResponse_completed op, ?_, h1, h2,
      s.webhooks.set name pi, ?_, fun x => by rw [GoMap.get?_set]⟩
    · intro n' hn'
      rw [h3 n' hn']
      split
      · rfl
      · simp only [PathSpec.methods, List.mem_cons, List.not_mem_nil, or_false] at hn'
        obtain ⟨u1, u2, u3, u4, u5, u6, u7, u8⟩ := upper_methods
        rcases hn' with rfl | rfl | rfl | rfl | rfl | rfl | rfl | rfl <;>
          simp [PathItem.operation, u1, u2, u3, u4, u5, u6, u7, u8]
    · simp only [Spec.addWebhook, hfree, Option.isSome_none, sanitize_lower, hr, hrm, hpi]
      rfl

example : (({ webhooks := [("a", {})] } : Spec Unit).addWebhook "POST" "b" {}).2 = none ∧
    (({ webhooks := [("a", {})] } : Spec Unit).addWebhook "POST" "a" {}).2 = some "duplicate webhook name: a" := by
  decide +kernel

end Verif.V31
