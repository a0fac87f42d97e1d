import Verif.Props.Mem31Case
import Verif.Props.MemReflect31

/-!
# A case for C91
-/

namespace Verif.Mem31

open Verif.Mem

theorem respond_reflects_case (E : Nat → Prop) (code : String) : Reflects E (respond code (.struct [])) :=
  respond_reflects E code _ fun y hy => by cases hy with | field h _ => cases h

/-- The memory after `PUT /a` is added to `caseMem` with a new context. -/
def caseAdded : Memory :=
  [.cell (.struct [("Openapi", .lit (.str "3.1.0")), ("Paths", .ref 1), ("Webhooks", .ref 6)]),
   .cell (.struct [("MapOfPathItemValues", .ref 2)]),
   .map [("/a", .struct [("Get", .ref 3), ("Put", .ref 13)])],
   .cell (.struct [("Responses", .ref 4)]),
   .cell (.struct [("MapOfResponseOrReferenceValues", .ref 5)]),
   .map [("200", .struct [])],
   .map [("h", .struct [("PathItem", .ref 7)])],
   .cell (.struct [("Post", .ref 8)]),
   .cell (.struct []),
   .cell (.struct []),
   .cell (.struct [("Responses", .ref 11)]),
   .cell (.struct [("MapOfResponseOrReferenceValues", .ref 12)]),
   .map [("200", .struct [])],
   .cell (.struct [("Responses", .ref 11)])]

theorem caseAdded_eq : reflectorAdd (newContext caseMem).1 0 (newContext caseMem).2 "put" "/a"
    (respond "200" (.struct [])) = (caseAdded, none) := by
  have hs : sanitizeMethodPath "put" "/a" = .ok ⟨"put", "/a", []⟩ := by decide +kernel
  have hl : goToLower "put" = "put" := by decide +kernel
  have hF : methodField "put" = some "Put" := by decide +kernel
  simp only [reflectorAdd, respond, newContext, addOperation, hl, hF, setupOperation]
  simp only [hs, hF]
  rfl

/-- The hypotheses of the theorems of C91 are met: `PUT /a` is added with a new context to a document with `GET /a` and a
webhook, then a response is added to the context and it is added again, which fails, and as a webhook, which does not. -/
example : Added 0 (· = 9) caseMem caseAdded ∧ Apart caseMem 0 (· = 9) ∧
    (opAt caseMem 0 "/a" "Get" = some 3 ∧ Separate caseMem (.ref 3) (· = 9)) ∧
    (hookAt caseMem 0 "h" = some (.struct [("PathItem", .ref 7)]) ∧
      Separate caseMem (.struct [("PathItem", .ref 7)]) (· = 9)) ∧
    Apart caseAdded 0 (fun x => x = 10 ∨ x = 9) ∧ IsOp caseAdded 10 ∧ IsOp caseAdded 13 ∧
    opAt caseAdded 0 "/a" "Put" = some 13 ∧ deref caseAdded 13 = deref caseAdded 10 ∧
    (deref caseAdded 10).field "Responses" = .ref 11 ∧
    (∃ m' e, reflectorAdd caseAdded 0 10 "put" "/a" (respond "500" (.struct [])) = (m', some e) ∧
      (entries m' ((responses m' (deref m' 13)).field "MapOfResponseOrReferenceValues")).map Prod.fst = ["200", "500"]) ∧
    (∃ m', reflectorHook caseAdded 0 10 "put" "k" (respond "500" (.struct [])) = (m', none) ∧
      (entries m' ((responses m' (deref m' 13)).field "MapOfResponseOrReferenceValues")).map Prod.fst = ["200", "500"]) := by
  have hs : sanitizeMethodPath "PUT" "/a" = .ok ⟨"put", "/a", []⟩ := by decide +kernel
  have hs' : sanitizeMethodPath "put" "/a" = .ok ⟨"put", "/a", []⟩ := by decide +kernel
  have hs3 : sanitizeMethodPath "put" "/" = .ok ⟨"put", "/", []⟩ := by decide +kernel
  have hl : goToLower "put" = "put" := by decide +kernel
  have hF : methodField "put" = some "Put" := by decide +kernel
  obtain ⟨hc1, hc2, -, -⟩ := C91_new_context case_apart
  obtain ⟨m1, F, a, -, -, -, -, -, -, -, -, -, -, hisop, hap⟩ := C91_ok hc1 hc2
    (respond_reflects_case (· = 9) "200") hs' rfl caseAdded_eq
  have hadd : Added 0 (· = 9) caseMem caseAdded := by
    have := Added.add (s := 0) (E := (· = 9)) (m := caseMem) (m1 := caseMem) (f := respond "200" (.struct [])) .refl hs
      (respond_reflects_case _ _)
    rw [caseAdded_eq] at this
    exact this
  have hnine : ∀ x, From caseMem (· = 9) x → x = 9 := by
    intro x hx
    induction hx with
    | root h => exact h
    | step _ ho hy ih => have := case_refs ho hy; omega
  have hap' : Apart caseAdded 0 (fun x => x = 10 ∨ x = 9) := hap.mono fun x hx => .inr hx
  have h13 : IsOp caseAdded 13 :=
    ⟨⟨_, rfl⟩, .inr ⟨11, _, rfl, rfl, .inr ⟨12, _, rfl, rfl⟩⟩, fun h => by cases h⟩
  refine ⟨hadd, case_apart, ⟨rfl, ?_⟩, ⟨rfl, ?_⟩, hap', hisop, h13, rfl, rfl, rfl, ?_, ?_⟩
  · intro x hx
    have h1 : 3 ≤ x ∧ x ≤ 5 := by
      induction hx with
      | root h => cases h; omega
      | step _ ho hy ih => have := case_refs ho hy; omega
    exact ⟨by simp only [caseMem, List.length_cons, List.length_nil]; omega, fun hf => by have := hnine x hf; omega⟩
  · intro x hx
    have h1 : 7 ≤ x ∧ x ≤ 8 := by
      induction hx with
      | root h => simp [holds_struct, holds_ref] at h; omega
      | step _ ho hy ih => have := case_refs ho hy; omega
    exact ⟨by simp only [caseMem, List.length_cons, List.length_nil]; omega, fun hf => by have := hnine x hf; omega⟩
  · obtain ⟨m', e, h1, -, h3⟩ := C91_shared (v := .struct []) (code := "500") (F := "Put") hap' hisop h13
      (fun y hy => by cases hy with | field h _ => cases h) hs' rfl (by simp [fields]) rfl rfl rfl
    exact ⟨m', e, h1, by rw [h3]; rfl⟩
  · simp only [reflectorHook, respond, addWebhook, hl, hs3, hF]
    exact ⟨_, rfl, rfl⟩

end Verif.Mem31
