import Verif.Spec.Publish31
import Verif.Lemmas.PublishHistory30

/-! Documents of 3.1 that are built from input that is in order are in order. -/

namespace Verif.Pub31
open Codec Spec Conform
open Pub30 (Rooted rooted_sanitize operationOk_empty runSetups_ok operationOk_some)

variable {S : Type} {v : Ver S} {Js : Role → JS → Prop} {Sc : Role → S → Prop}

theorem itemOk_empty : ItemOk Sc ({} : V31.PathItem S) := ⟨by simp, by simp [ops]⟩

theorem itemOk_get {p : V31.PathItem S} (h : ItemOk Sc p) {m : String} {op : Operation S} (hm : p.operation m = .ok (some op)) :
    OperationOk places Sc StatusKey op := by
  refine h.ops op ?_
  simp only [V31.PathItem.operation] at hm
  repeat' split at hm
  all_goals first
    | (cases hm; done)
    | (injection hm with e; simp [ops, e])

theorem itemOk_set {p q : V31.PathItem S} (h : ItemOk Sc p) {m : String} {op : Operation S}
    (ho : OperationOk places Sc StatusKey op) (hm : p.setOperation m op = .ok q) : ItemOk Sc q := by
  simp only [V31.PathItem.setOperation] at hm
  repeat' split at hm
  all_goals first
    | (cases hm; done)
    | (injection hm with e
       subst e
       refine ⟨h.parameters, fun op' h' => ?_⟩
       have h2 := h.ops op'
       simp only [ops, List.mem_cons, List.not_mem_nil, or_false, Option.some.injEq] at h' h2
       by_cases he : op' = op
       · rw [he]; exact ho
       · simp only [he, false_or, or_false] at h'
         apply h2
         grind)

theorem published_ens {d : V31.Spec S} (h : Published Sc d) : Published Sc d.pathsEns := by
  refine ⟨h.openapi, ?_, ?_, h.webhookKeys, h.webhooks, h.schemaKeys, h.schemas, h.securityKeys, h.security⟩
  · intro m hm
    cases hd : d.paths with
    | none => simp only [V31.Spec.pathsEns, hd] at hm; cases hm; simp [Keys]
    | some m' => simp only [V31.Spec.pathsEns, hd] at hm; cases hm; exact h.pathKeys _ hd
  · intro m hm
    cases hd : d.paths with
    | none => simp only [V31.Spec.pathsEns, hd] at hm; cases hm; simp
    | some m' => simp only [V31.Spec.pathsEns, hd] at hm; cases hm; exact h.paths _ hd

theorem item_ok {d : V31.Spec S} (h : Published Sc d) (path : String) : ItemOk Sc (d.pathItem path) := by
  unfold V31.Spec.pathItem
  cases hd : d.paths with
  | none => exact itemOk_empty
  | some m =>
    cases hg : m.get? path with
    | none => simp only [Option.getD, hg]; exact itemOk_empty
    | some p => simp only [Option.getD, hg]; exact (h.paths m hd _ p (GoMap.mem_of_get? hg)).2

theorem published_set {d : V31.Spec S} (h : Published Sc d) {path : String} {p : V31.PathItem S} (hp : Rooted path)
    (ho : ItemOk Sc p) : Published Sc { d with paths := some ((d.paths.getD []).set path p) } := by
  have hk : Keys (d.paths.getD []) := by
    cases hd : d.paths with
    | none => simp [Keys]
    | some m => exact h.pathKeys m hd
  have hv : ∀ k p, (k, p) ∈ d.paths.getD [] → ['/'] <+: k.toList ∧ ItemOk Sc p := by
    cases hd : d.paths with
    | none => simp
    | some m => exact h.paths m hd
  refine ⟨h.openapi, ?_, ?_, h.webhookKeys, h.webhooks, h.schemaKeys, h.schemas, h.securityKeys, h.security⟩
  · intro m hm
    cases hm
    exact keys_set hk _ _
  · intro m hm
    cases hm
    exact forall_set (P := fun k p => ['/'] <+: k.toList ∧ ItemOk Sc p) hv ⟨hp, ho⟩

theorem published_edit {d : V31.Spec S} (h : Published Sc d) {path method : String} {op : Operation S} (hp : Rooted path)
    (ho : OperationOk places Sc StatusKey op) : Published Sc (d.editInPlace path method op) := by
  unfold V31.Spec.editInPlace
  split
  · rename_i q hq
    exact published_set h hp (itemOk_set (item_ok h path) ho hq)
  · exact h

theorem published_setup {d : V31.Spec S} (h : Published Sc d) {method path : String} {fs : List (Setup S)}
    (hf : ∀ f ∈ fs, ∀ op, OperationOk places Sc StatusKey op → OperationOk places Sc StatusKey (f op).1)
    (hp : Rooted path) : Published Sc (d.setupOperation method path fs).1 := by
  simp only [V31.Spec.setupOperation]
  split
  · exact h
  · rename_i r hr
    have h1 := published_ens h
    have hroot := rooted_sanitize hr hp
    have hitem := item_ok h1 r.path
    split
    · exact h1
    · rename_i existing he
      have hold : OperationOk places Sc StatusKey (existing.getD {}) := by
        cases existing with
        | none => exact operationOk_empty
        | some op => exact itemOk_get hitem he
      have hrun := runSetups_ok hf hold
      have hs : Published Sc (if existing.isSome then d.pathsEns.editInPlace r.path r.method (runSetups fs (existing.getD {})).1
          else d.pathsEns) := by
        split
        · exact published_edit h1 hroot hrun
        · exact h1
      split
      · exact hs
      · split
        · exact hs
        · split
          · exact hs
          · rename_i q hq
            exact published_set hs hroot (itemOk_set hitem hrun hq)

theorem published_add {d : V31.Spec S} (h : Published Sc d) {method path : String} {op : Operation S}
    (ho : OperationOk places Sc StatusKey op) (hp : Rooted path) : Published Sc (d.addOperation method path op).1 := by
  simp only [V31.Spec.addOperation]
  split
  · exact published_ens h
  · exact published_ens h
  · refine published_setup (published_ens h) ?_ hp
    intro f hf op' _
    cases List.mem_singleton.1 hf
    exact operationOk_some ho

theorem published_webhook {d : V31.Spec S} (h : Published Sc d) {method name : String} {op : Operation S}
    (ho : OperationOk places Sc StatusKey op) : Published Sc (d.addWebhook method name op).1 := by
  simp only [V31.Spec.addWebhook]
  repeat' split
  all_goals first
    | exact h
    | (rename_i q hq
       refine ⟨h.openapi, h.pathKeys, h.paths, keys_set h.webhookKeys _ _, ?_, h.schemaKeys, h.schemas, h.securityKeys, h.security⟩
       exact forall_set (P := fun _ p => ItemOk Sc p) h.webhooks (itemOk_set itemOk_empty (operationOk_some ho) hq))

theorem published_schemas {d : V31.Spec S} (h : Published Sc d) {m : GoMap S} (hm : SchemasOk Sc m) :
    Published Sc { d with schemas := m } :=
  ⟨h.openapi, h.pathKeys, h.paths, h.webhookKeys, h.webhooks, hm.1, hm.2, h.securityKeys, h.security⟩

theorem published_reflect (hC : Translates v Js Sc) {d : V31.Spec S} (h : Published Sc d) {env : Env S} {oc : OpCtx S}
    (ho : ContextOk places Js Sc StatusKey env oc) (hp : Rooted oc.path) : Published Sc (V31.addOperation v env d oc).1 := by
  have h1 := setup_done hC ho (m := d.schemas) ⟨h.schemaKeys, h.schemas⟩
  simp only [V31.addOperation]
  split
  · rename_i s hs
    rw [hs] at h1
    have h2 := published_add (method := oc.method) (published_schemas h h1.1) (h1.2 rfl) hp
    dsimp only
    exact h2
  · rename_i s out hno hs
    rw [hs] at h1
    exact published_schemas h h1.1

theorem published_reflectWebhook (hC : Translates v Js Sc) {d : V31.Spec S} (h : Published Sc d) {env : Env S} {oc : OpCtx S}
    (ho : ContextOk places Js Sc StatusKey env oc) : Published Sc (V31.addWebhook v env d oc).1 := by
  have h1 := setup_done hC ho (m := d.schemas) ⟨h.schemaKeys, h.schemas⟩
  simp only [V31.addWebhook]
  split
  · rename_i s hs
    rw [hs] at h1
    exact published_webhook (d := { d with schemas := s.schemas }) (published_schemas h h1.1) (h1.2 rfl)
  · rename_i s out hno hs
    rw [hs] at h1
    exact published_schemas h h1.1

theorem published_security {d : V31.Spec S} (h : Published Sc d) {name : String} {s : V31.SecScheme} (hn : IsName name)
    (hs : ∀ n i t, s = .apiKey n i t → i ∈ ["header", "query", "cookie"]) :
    Published Sc { d with security := d.security.set name s } := by
  refine ⟨h.openapi, h.pathKeys, h.paths, h.webhookKeys, h.webhooks, h.schemaKeys, h.schemas, keys_set h.securityKeys _ _, ?_⟩
  exact forall_set (P := fun k s => IsName k ∧ ∀ n i t, s = V31.SecScheme.apiKey n i t → i ∈ ["header", "query", "cookie"])
    h.security ⟨hn, hs⟩

theorem published_built (hC : Translates v Js Sc) {d : V31.Spec S} (h : Built v Js Sc d) : Published Sc d := by
  induction h with
  | new => exact ⟨rfl, by simp, by simp, by simp [Keys], by simp, by simp [Keys], by simp, by simp [Keys], by simp⟩
  | title _ _ h => exact ⟨h.openapi, h.pathKeys, h.paths, h.webhookKeys, h.webhooks, h.schemaKeys, h.schemas, h.securityKeys, h.security⟩
  | description _ _ h => exact ⟨h.openapi, h.pathKeys, h.paths, h.webhookKeys, h.webhooks, h.schemaKeys, h.schemas, h.securityKeys, h.security⟩
  | version _ _ h => exact ⟨h.openapi, h.pathKeys, h.paths, h.webhookKeys, h.webhooks, h.schemaKeys, h.schemas, h.securityKeys, h.security⟩
  | context _ h => exact published_ens h
  | reflect env oc _ ho hp h => exact published_reflect hC h ho hp
  | reflectWebhook env oc _ ho h => exact published_reflectWebhook hC h ho
  | add m p op _ ho hp h => exact published_add h ho hp
  | webhook m n op _ ho h => exact published_webhook h ho
  | setup m p fs _ hf hp h => exact published_setup h hf hp
  | basic n t _ hn h => exact published_security h hn (by intro n i t e; cases e)
  | bearer n f t _ hn h => exact published_security h hn (by intro n i t e; cases e)
  | apiKey n f p t _ hn hp h => exact published_security h hn (by intro n i t e; cases e; exact hp)

theorem translates31 {N : Nums} {toSimpleMap : JS → Except String Schema} (h0 : ∀ format, JsonOk N toSimpleMap .content (stringJS format)) :
    Translates (V31.ver toSimpleMap) (JsonOk N toSimpleMap) (SchemaOk N) where
  plain _ j sc hj hc := by
    simp only [V31.ver] at hc
    split at hc
    · rename_i s hs
      cases hc
      exact hj _ hs
    · cases hc
  param _ _ h := h
  resp _ h := h
  text := h0

end Verif.Pub31
