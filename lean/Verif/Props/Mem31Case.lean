import Verif.Props.Mem
import Verif.Props.Mem31

/-!
# A case for C90
-/

namespace Verif.Mem31

open Verif.Mem

/-- A document with `GET /a`, which has a response `200`, and a webhook `h`; and empty responses of the caller. -/
def caseMem : Memory :=
  [.cell (.struct [("Openapi", .lit (.str "3.1.0")), ("Paths", .ref 1), ("Webhooks", .ref 6)]),
   .cell (.struct [("MapOfPathItemValues", .ref 2)]),
   .map [("/a", .struct [("Get", .ref 3)])],
   .cell (.struct [("Responses", .ref 4)]),
   .cell (.struct [("MapOfResponseOrReferenceValues", .ref 5)]),
   .map [("200", .struct [])],
   .map [("h", .struct [("PathItem", .ref 7)])],
   .cell (.struct [("Post", .ref 8)]),
   .cell (.struct []),
   .cell (.struct [])]

/-- An operation of the caller, with the caller's responses. -/
def caseOp : MVal := .struct [("Responses", .ref 9)]

/-- `func(op *Operation) error { op.Responses = nil; return err }` -/
def caseSetup : MSetup := fun m a => (m.set a (.cell (.struct [])), some "failed")

/-- The references in `caseMem`. -/
theorem case_refs {x : Nat} {o : Obj} {y : Nat} (ho : caseMem[x]? = some o) (hy : o.Holds y) :
    (x = 0 ∧ (y = 1 ∨ y = 6)) ∨ (x = 1 ∧ y = 2) ∨ (x = 2 ∧ y = 3) ∨ (x = 3 ∧ y = 4) ∨ (x = 4 ∧ y = 5) ∨
    (x = 6 ∧ y = 7) ∨ (x = 7 ∧ y = 8) := by
  match x with
  | 0 =>
    simp [caseMem] at ho
    subst ho
    simpa [holds_cell, holds_struct, holds_lit, holds_ref] using hy
  | 1 | 2 | 3 | 4 | 6 | 7 =>
    simp [caseMem] at ho
    subst ho
    simpa [holds_cell, holds_map, holds_struct, holds_lit, holds_ref] using hy
  | 5 | 8 | 9 =>
    simp [caseMem] at ho
    subst ho
    simp [holds_cell, holds_map, holds_struct] at hy
  | n + 10 => simp [caseMem] at ho

theorem case_paths : pathsRef caseMem 0 = .ref 2 := rfl

theorem case_hooks : hooksRef caseMem 0 = .ref 6 := rfl

theorem case_item {path : String} {item : MVal} (h : itemAt caseMem 0 path = some item) :
    path = "/a" ∧ item = .struct [("Get", .ref 3)] := by
  simp only [itemAt, case_paths] at h
  have := get?_mem h
  simp [entries, caseMem] at this
  exact this

theorem case_hook {name : String} {v : MVal} (h : hookAt caseMem 0 name = some v) :
    name = "h" ∧ v = .struct [("PathItem", .ref 7)] := by
  simp only [hookAt, case_hooks] at h
  have := get?_mem h
  simp [entries, caseMem] at this
  exact this

theorem case_own {x : Nat} (h : Own caseMem 0 x) : x = 0 ∨ x = 1 ∨ x = 2 ∨ x = 6 := by
  rcases h with h | h | h | h
  · omega
  · cases h; omega
  · rw [case_paths] at h; cases h; omega
  · rw [case_hooks] at h; cases h; omega

theorem case_from {R : Nat → Prop} (hR : ∀ x, R x → 2 < x ∧ x ≠ 6) {x : Nat} (h : From caseMem R x) :
    2 < x ∧ x ≠ 6 := by
  induction h with
  | root h => exact hR _ h
  | step _ ho hy ih =>
    have := case_refs ho hy
    omega

theorem case_apart : Apart caseMem 0 (· = 9) := by
  refine ⟨?_, ?_, ⟨_, rfl⟩, .inr ⟨1, _, rfl, by omega, rfl⟩, .inr ⟨2, _, rfl, rfl⟩, .inr ⟨6, _, rfl, rfl, ?_⟩, ?_, ?_, ?_, ?_⟩
  · intro x o y ho hy
    have := case_refs ho hy
    simp only [caseMem, List.length_cons, List.length_nil]
    omega
  · rintro x rfl
    simp [caseMem]
  · rw [case_paths]
    intro h; cases h
  · intro path item h
    obtain ⟨-, rfl⟩ := case_item h
    exact ⟨_, rfl⟩
  · intro path item x h hf hw
    have := case_own hw
    have := case_from (fun y hy => ?_) hf
    · omega
    · rw [(case_item h).2] at hy
      simp [holds_struct, holds_ref] at hy
      omega
  · intro name v x h hf hw
    have := case_own hw
    have := case_from (fun y hy => ?_) hf
    · omega
    · rw [(case_hook h).2] at hy
      simp [holds_struct, holds_ref] at hy
      omega
  · intro x hf hw
    have := case_own hw
    have := case_from (fun y hy => by omega) hf
    omega

theorem case_uses : Uses (· = 9) caseSetup := by
  intro m a
  refine (assign_confined m a (.struct [])).mono ?_
  rintro x (rfl | h)
  · exact .root (.inl rfl)
  · cases h with | field h _ => cases h

/-- C90: a setup function that fails has changed the document: unlike in 3.0 (`C88_setup_error_assigns`) also assigned
fields of the operation stay. -/
theorem C90_changed_by_error : Apart caseMem 0 (· = 9) ∧ Uses (· = 9) caseSetup ∧
    opAt caseMem 0 "/a" "Get" = some 3 ∧
    ∃ m', setupOperation caseMem 0 "GET" "/a" [caseSetup] = (m', some "failed") ∧ opAt m' 0 "/a" "Get" = some 3 ∧
      deref caseMem 3 = .struct [("Responses", .ref 4)] ∧ deref m' 3 = .struct [] ∧
      tree m' 9 (.ref 0) ≠ tree caseMem 9 (.ref 0) := by
  have hs : sanitizeMethodPath "GET" "/a" = .ok ⟨"get", "/a", []⟩ := by decide +kernel
  refine ⟨case_apart, case_uses, rfl, ?_⟩
  have hF : methodField "get" = some "Get" := by decide +kernel
  simp only [setupOperation, hs, hF]
  refine ⟨_, rfl, rfl, rfl, rfl, ?_⟩
  simp [caseMem, tree, pathsEns, deref, MVal.field, existingOrNew, runAll, entries, GoMap.get?]

/-- The hypotheses of the theorems about `AddOperation` and `AddWebhook` are met: an operation with the caller's empty
responses, for a path and method that are taken, for a path with a parameter it does not have, for another method, and
as a webhook. -/
example : (∀ y, caseOp.Holds y → From caseMem (· = 9) y) ∧ RespOk caseMem caseOp ∧ NoResponse caseMem caseOp ∧
    (∃ fs, caseOp = .struct fs) ∧
    addOperation caseMem 0 "GET" "/a" caseOp = (caseMem, some "operation already exists: get /a") ∧
    (∃ m', addOperation caseMem 0 "PUT" "/b/{id}" caseOp = (m', some "undefined path parameter: id")) ∧
    (∃ m', addOperation caseMem 0 "PUT" "/a" caseOp = (m', none) ∧ opAt m' 0 "/a" "Get" = some 3 ∧
      (∃ a, opAt m' 0 "/a" "Put" = some a ∧ deref m' a = caseOp) ∧
      ∃ c es, deref m' 9 = .struct [("MapOfResponseOrReferenceValues", .ref c)] ∧ m'[c]? = some (.map es) ∧
        es.map Prod.fst = ["204"]) ∧
    addWebhook caseMem 0 "PUT" "h" caseOp = (caseMem, some "duplicate webhook name: h") ∧
    (∃ m', addWebhook caseMem 0 "LINK" "k" caseOp = (m', some "unexpected http method: link")) ∧
    ∃ m' v, addWebhook caseMem 0 "PUT" "k" caseOp = (m', none) ∧ hookAt m' 0 "k" = some v ∧
      hookAt m' 0 "h" = some (.struct [("PathItem", .ref 7)]) := by
  have hs1 : sanitizeMethodPath "put" "/a" = .ok ⟨"put", "/a", []⟩ := by decide +kernel
  have hs2 : sanitizeMethodPath "put" "/b/{id}" = .ok ⟨"put", "/b/{id}", ["id"]⟩ := by decide +kernel
  have hs3 : sanitizeMethodPath "put" "/" = .ok ⟨"put", "/", []⟩ := by decide +kernel
  have hs4 : sanitizeMethodPath "link" "/" = .error "unexpected http method: link" := by decide +kernel
  have hl1 : goToLower "GET" = "get" := by decide +kernel
  have hl2 : goToLower "PUT" = "put" := by decide +kernel
  have hl3 : goToLower "LINK" = "link" := by decide +kernel
  have hF1 : methodField "get" = some "Get" := by decide +kernel
  have hF2 : methodField "put" = some "Put" := by decide +kernel
  refine ⟨?_, .inr ⟨9, [], rfl, rfl, .inl rfl⟩, ⟨rfl, rfl⟩, ⟨_, rfl⟩, ?_, ?_, ?_, ?_, ?_, ?_⟩
  · intro y hy
    simp [caseOp, holds_struct, holds_ref] at hy
    exact .root hy
  · simp only [addOperation, hl1, hF1]
    rfl
  · simp only [addOperation, setupOperation, hl2, hs2, hF2]
    exact ⟨_, rfl⟩
  · simp only [addOperation, setupOperation, hl2, hs1, hF2]
    exact ⟨_, rfl, rfl, ⟨_, rfl, rfl⟩, _, _, rfl, rfl, rfl⟩
  · rfl
  · simp only [addWebhook, hl3, hs4]
    exact ⟨_, rfl⟩
  · simp only [addWebhook, hl2, hs3, hF2]
    exact ⟨_, _, rfl, rfl, rfl⟩

/-- A document with `GET /{id}`. -/
def caseParam : Memory :=
  [.cell (.struct [("Openapi", .lit (.str "3.1.0")), ("Paths", .ref 1)]),
   .cell (.struct [("MapOfPathItemValues", .ref 2)]),
   .map [("/{id}", .struct [("Get", .ref 3)])],
   .cell (.struct [("Summary", .lit (.str "stored"))])]

/-- C90: a path that is written with a pattern is not noticed as taken. `AddOperation` fails here, as the operation does
not have the parameter, but has overwritten the stored operation. -/
theorem C90_overwritten : Apart caseParam 0 (fun _ => False) ∧ opAt caseParam 0 "/{id}" "Get" = some 3 ∧
    ∃ m', addOperation caseParam 0 "GET" "/{id:[0-9]+}" (.struct [("Summary", .lit (.str "added"))]) =
        (m', some "undefined path parameter: id") ∧
      opAt m' 0 "/{id}" "Get" = some 3 ∧ (deref m' 3).field "Summary" = .lit (.str "added") := by
  have hs : sanitizeMethodPath "get" "/{id:[0-9]+}" = .ok ⟨"get", "/{id}", ["id"]⟩ := by decide +kernel
  have hl : goToLower "GET" = "get" := by decide +kernel
  have hF : methodField "get" = some "Get" := by decide +kernel
  refine ⟨?_, rfl, ?_⟩
  · have hrefs : ∀ {x : Nat} {o : Obj} {y : Nat}, caseParam[x]? = some o → o.Holds y → y = x + 1 ∧ x < 3 := by
      intro x o y ho hy
      match x with
      | 0 | 1 | 2 | 3 =>
        simp [caseParam] at ho
        subst ho
        simpa [holds_cell, holds_map, holds_struct, holds_lit, holds_ref] using hy
      | n + 4 => simp [caseParam] at ho
    have hp : pathsRef caseParam 0 = .ref 2 := rfl
    have hh : hooksRef caseParam 0 = .nil := rfl
    have hown : ∀ {x : Nat}, Own caseParam 0 x → x ≤ 2 := by
      intro x h
      rcases h with h | h | h | h
      · omega
      · cases h; omega
      · rw [hp] at h; cases h; omega
      · rw [hh] at h; cases h
    have hfrom : ∀ {R : Nat → Prop}, (∀ x, R x → 2 < x) → ∀ {x : Nat}, From caseParam R x → 2 < x := by
      intro R hR x h
      induction h with
      | root h => exact hR _ h
      | step _ ho hy ih =>
        have := hrefs ho hy
        omega
    have hitem : ∀ {path : String} {item : MVal}, itemAt caseParam 0 path = some item →
        item = .struct [("Get", .ref 3)] := by
      intro path item h
      simp only [itemAt, hp] at h
      have := get?_mem h
      simp [entries, caseParam] at this
      exact this.2
    refine ⟨?_, nofun, ⟨_, rfl⟩, .inr ⟨1, _, rfl, by omega, rfl⟩, .inr ⟨2, _, rfl, rfl⟩, .inl hh, ?_, ?_, ?_, ?_⟩
    · intro x o y ho hy
      have := hrefs ho hy
      simp only [caseParam, List.length_cons, List.length_nil]
      omega
    · intro path item h
      exact ⟨_, hitem h⟩
    · intro path item x h hf hw
      have := hown hw
      have := hfrom (fun y hy => ?_) hf
      · omega
      · rw [hitem h] at hy
        simp [holds_struct, holds_ref] at hy
        omega
    · intro name v x h
      simp only [hookAt, hh] at h
      cases h
    · intro x hf hw
      have := hown hw
      have := hfrom (fun y hy => hy.elim) hf
      omega
  · simp only [addOperation, setupOperation, hl, hs, hF]
    exact ⟨_, rfl, rfl, rfl⟩

end Verif.Mem31
