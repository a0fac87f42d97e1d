import Verif.Spec.PublishHistory30
import Verif.Lemmas.Conform
import Verif.Lemmas.PublishSchema30
import Verif.Lemmas.Doc

/-! Documents that are built from input that is in order are in order. -/

namespace Verif.Pub30
open Codec Spec Conform PathSpec

variable {S : Type} {v : Ver S} {Js : Role → JS → Prop} {Sc : Role → S → Prop}

theorem rooted_sanitize {m p : String} {r : Sanitized} (h : sanitizeMethodPath m p = .ok r) (hp : Rooted p) :
    Rooted r.path := by
  obtain ⟨ps, hd, -⟩ := C02_decomposition_exists_unique p
  obtain ⟨t, ht⟩ := hp
  have h1 := hd.1
  rw [← ht] at h1
  rw [Rooted, (C02_cleaned_path m p r ps h hd).1, String.toList_ofList]
  cases ps with
  | nil => simp [textAll] at h1
  | cons q ps =>
    cases q with
    | lit c =>
      simp only [textAll, List.flatMap_cons, Piece.text, List.singleton_append, List.cons.injEq] at h1
      rw [h1.1]
      exact ⟨cleanAll ps, rfl⟩
    | ph n o =>
      cases o <;> simp [textAll, Piece.text] at h1

theorem methods_eq {m : String} (h : m ∈ PathSpec.methods) : m ∈ methods := by
  simp only [PathSpec.methods, methods, List.mem_cons, List.not_mem_nil, or_false] at h ⊢
  rcases h with rfl | rfl | rfl | rfl | rfl | rfl | rfl | rfl <;> simp

theorem operationOk_empty {pl : Places} : OperationOk pl Sc StatusKey ({} : Operation S) :=
  ⟨by simp, by simp, by simp, by simp [Keys], by simp, by simp [Keys], by simp⟩

theorem runSetups_ok {pl : Places} {fs : List (Setup S)}
    (h : ∀ f ∈ fs, ∀ op, OperationOk pl Sc StatusKey op → OperationOk pl Sc StatusKey (f op).1) {op : Operation S}
    (ho : OperationOk pl Sc StatusKey op) : OperationOk pl Sc StatusKey (runSetups fs op).1 := by
  induction fs generalizing op with
  | nil => exact ho
  | cons f fs ih =>
    have h1 := h f (by simp) op ho
    simp only [runSetups]
    split <;> rename_i e <;> rw [e] at h1
    · exact h1
    · exact ih (fun g hg => h g (by simp [hg])) h1

theorem published_setup {d : V30.Spec S} (h : Published Sc d) {method path : String} {fs : List (Setup S)}
    (hf : ∀ f ∈ fs, ∀ op, OperationOk places Sc StatusKey op → OperationOk places Sc StatusKey (f op).1)
    (hp : Rooted path) : Published Sc (d.setupOperation method path fs).1 := by
  simp only [V30.Spec.setupOperation]
  split
  · exact h
  · rename_i r hr
    have hitem : Keys (d.pathItem r.path).ops ∧
        (∀ q ∈ (d.pathItem r.path).parameters, RefOr (ParamOk places Sc) q.ref q.param) ∧
        ∀ m op, (m, op) ∈ (d.pathItem r.path).ops → m ∈ methods ∧ OperationOk places Sc StatusKey op := by
      unfold V30.Spec.pathItem
      cases hg : d.paths.get? r.path with
      | none => exact ⟨by simp [Keys], by simp, by simp⟩
      | some p => exact (h.paths _ p (GoMap.mem_of_get? hg)).2
    have hold : OperationOk places Sc StatusKey (((d.pathItem r.path).ops.get? r.method).getD {}) := by
      cases hg : (d.pathItem r.path).ops.get? r.method with
      | none => exact operationOk_empty
      | some op => exact (hitem.2.2 _ op (GoMap.mem_of_get? hg)).2
    have hrun := runSetups_ok hf hold
    split
    · exact h
    · rename_i op hop
      rw [hop] at hrun
      split
      · exact h
      · refine ⟨keys_set h.pathKeys _ _, ?_, h.schemaKeys, h.schemas, h.securityKeys, h.security⟩
        refine forall_set (P := fun k (p : V30.PathItem S) => ['/'] <+: k.toList ∧ Keys p.ops ∧
          (∀ q ∈ p.parameters, RefOr (ParamOk places Sc) q.ref q.param) ∧
          ∀ m op, (m, op) ∈ p.ops → m ∈ methods ∧ OperationOk places Sc StatusKey op) h.paths
          ⟨rooted_sanitize hr hp, keys_set hitem.1 _ _, hitem.2.1, ?_⟩
        exact forall_set (P := fun m op => m ∈ methods ∧ OperationOk places Sc StatusKey op) hitem.2.2
          ⟨methods_eq (sanitize_method hr).2, hrun⟩

theorem operationOk_some {pl : Places} {op : Operation S} (h : OperationOk pl Sc StatusKey op) :
    OperationOk pl Sc StatusKey (ensureSomeResponse op) := by
  unfold ensureSomeResponse
  split
  · refine ⟨h.parameters, h.body, h.default, keys_set h.codeKeys _ _, ?_, h.extKeys, h.ext⟩
    refine forall_set (P := fun k (r : ResponseOrRef S) => StatusKey k ∧ RefOr (ResponseOk Sc) r.ref r.response) h.codes ⟨?_, ?_⟩
    · exact ⟨'2', '0', '4', rfl, by decide, .inl (by decide)⟩
    · exact .inr ⟨_, rfl, rfl, by simp [Keys], by simp, by simp [Keys], by simp⟩
  · exact h

theorem published_add {d : V30.Spec S} (h : Published Sc d) {method path : String} {op : Operation S}
    (ho : OperationOk places Sc StatusKey op) (hp : Rooted path) : Published Sc (d.addOperation method path op).1 := by
  simp only [V30.Spec.addOperation]
  split
  · exact h
  · refine published_setup h ?_ hp
    intro f hf op' _
    cases List.mem_singleton.1 hf
    exact operationOk_some ho

theorem published_reflect (hC : Translates v Js Sc) {d : V30.Spec S} (h : Published Sc d) {env : Env S} {oc : OpCtx S}
    (ho : ContextOk places Js Sc StatusKey env oc) (hp : Rooted oc.path) : Published Sc (V30.addOperation v env d oc).1 := by
  have h1 := setup_done hC ho (m := d.schemas) ⟨h.schemaKeys, h.schemas⟩
  simp only [V30.addOperation]
  split
  · rename_i s hs
    rw [hs] at h1
    exact published_add (d := { d with schemas := s.schemas })
      ⟨h.pathKeys, h.paths, h1.1.1, h1.1.2, h.securityKeys, h.security⟩ (h1.2 rfl) hp
  · rename_i s out hno hs
    rw [hs] at h1
    exact ⟨h.pathKeys, h.paths, h1.1.1, h1.1.2, h.securityKeys, h.security⟩

theorem published_security {d : V30.Spec S} (h : Published Sc d) {name : String} {s : V30.SecScheme} (hn : IsName name)
    (hs : ∀ n i t, s = .apiKey n i t → i ∈ ["header", "query", "cookie"]) :
    Published Sc { d with security := d.security.set name s } := by
  refine ⟨h.pathKeys, h.paths, h.schemaKeys, h.schemas, keys_set h.securityKeys _ _, ?_⟩
  exact forall_set (P := fun k s => IsName k ∧ ∀ n i t, s = V30.SecScheme.apiKey n i t → i ∈ ["header", "query", "cookie"])
    h.security ⟨hn, hs⟩

theorem published_built (hC : Translates v Js Sc) {d : V30.Spec S} (h : Built v Js Sc d) : Published Sc d := by
  induction h with
  | new => exact ⟨by simp [Keys], by simp, by simp [Keys], by simp, by simp [Keys], by simp⟩
  | title _ _ h => exact ⟨h.pathKeys, h.paths, h.schemaKeys, h.schemas, h.securityKeys, h.security⟩
  | description _ _ h => exact ⟨h.pathKeys, h.paths, h.schemaKeys, h.schemas, h.securityKeys, h.security⟩
  | version _ _ h => exact ⟨h.pathKeys, h.paths, h.schemaKeys, h.schemas, h.securityKeys, h.security⟩
  | reflect env oc _ ho hp h => exact published_reflect hC h ho hp
  | add m p op _ ho hp h => exact published_add h ho hp
  | setup m p fs _ hf hp h => exact published_setup h hf hp
  | basic n t _ hn h => exact published_security h hn (by intro n i t e; cases e)
  | bearer n f t _ hn h => exact published_security h hn (by intro n i t e; cases e)
  | apiKey n f p t _ hn hp h => exact published_security h hn (by intro n i t e; cases e; exact hp)

/-! ## Schemas of 3.0 -/

variable {N : Nums} {lit : F64 → String}

theorem schemaOk_nullable {f : V30.OFlat} {not : Option V30.OS} {allOf oneOf anyOf : List V30.OS} {items : Option V30.OS}
    {props : GoMap V30.OS} {b : Option Bool} {addl : Option V30.OS}
    (h : SchemaOk N lit (.schema f not allOf oneOf anyOf items props b addl)) :
    SchemaOk N lit (.schema { f with nullable := none } not allOf oneOf anyOf items props b addl) := by
  simp only [SchemaOk] at h ⊢
  exact ⟨⟨h.1.floats, h.1.ints, h.1.type, h.1.enum, h.1.values, h.1.none, h.1.extKeys, h.1.ext⟩, h.2⟩

theorem jsonOk_string (h0 : IntOk N 0) (format : String) : JsonOk N lit (stringJS format) := by
  simp only [stringJS, JsonOk, JsonOkOpt, JsonOkList, JsonOkProps, and_true, true_and]
  intro _
  refine ⟨⟨by simp, ?_, ?_, by simp, by simp, by simp, by simp [Keys], by simp⟩, by simp [Keys]⟩
  · intro i hi
    have : i = 0 := by
      simp only [reduceCtorEq, false_or] at hi
      rcases hi with rfl | rfl | rfl <;> rfl
    rw [this]; exact h0
  · intro t e; cases e; simp [schemaTypes]

theorem converts30 (h0 : IntOk N 0) : Translates V30.ver (Always (JsonOk N lit)) (Always (SchemaOk N lit)) where
  plain _ j sc hj hc := by
    simp only [V30.ver] at hc
    split at hc
    · rename_i s hs
      cases hc
      exact fromJS_ok j hj hs
    · cases hc
  param isPtr sc h := by
    simp only [V30.ver]
    split
    · split
      · exact h
      · exact schemaOk_nullable h
    · exact h
  resp sc h := by
    simp only [V30.ver]
    split
    · exact schemaOk_nullable h
    · exact h
  text := jsonOk_string h0

end Verif.Pub30
