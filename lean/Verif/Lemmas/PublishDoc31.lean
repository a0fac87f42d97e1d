import Verif.Lemmas.Publish31

/-! Operations, path items, components and documents of 3.1. -/

namespace Verif.Pub31
open Codec Spec Conform Meta31
open Pub30 (fill opt mapVal listVal refOrVal securityVal nilable Stable pat_status pat_x pat_slash pat_name)

variable {N : Nums} {env : String → Sem} (hE : Meaning defs31 env)

theorem good_security (p : String × List String) : Good N
    (fun j => ∃ M, j = .obj M ∧ ∀ k x, (k, x) ∈ M → ∃ xs, x = .arr xs ∧ ∀ x ∈ xs, ∃ s, x = .str s)
    (.map (.slice .str)) (securityVal p) := by
  have := good_map (N := N) (t := .slice .str) (ms := [(p.1, Val.list (p.2.map .str))])
    (P := fun _ j => ∃ xs, j = .arr xs ∧ ∀ x ∈ xs, ∃ s, x = .str s) (by simp) ?_
  · exact ⟨this.writable, by obtain ⟨M, e, _, h⟩ := this.valid; exact ⟨M, e, h⟩⟩
  · intro k v hv
    cases List.mem_singleton.1 hv
    exact good_slice (List.forall_mem_map.2 fun s _ => good_str s ⟨s, rfl⟩)

include hE

theorem field_responses {f : Field} {P : String → Any → Prop} {op : Operation Schema} (hf : nilable f = true)
    (ht : f.ty = .ptr (.named "Responses")) (h : OperationOk places (SchemaOk N) StatusKey op)
    (hp : ∀ j, (env "responses").ok j → P f.key j) : FieldOk N P f (responsesVal op.responses) := by
  unfold responsesVal
  split
  · exact nil_field hf
  · rename_i hne
    have := good_ptr rfl (by intro e; cases e) (by intro e; cases e) (good_responses hE h.default h.codeKeys h.codes hne)
    rw [← ht] at this
    exact ⟨this.writable, fun _ => hp _ this.valid⟩

theorem good_operation {op : Operation Schema} (h : OperationOk places (SchemaOk N) StatusKey op) :
    Good N (Obj env "operation") (.named "Operation") (operationVal op) := by
  refine good_simple hE (m := mOperation) (by kernel_rfl) (by kernel_rfl) rfl (by decide +kernel) (by decide +kernel) (by rfl)
    rfl ⟨?_, ?_, ?_, ?_, ?_, ?_, ?_, ?_, ?_, ?_, trivial⟩ ?_ fun M k => ext_last hE (ks := [])
  · exact field_list (Q := fun j => ∃ s, j = .str s) rfl rfl (fun s _ => good_str s ⟨s, rfl⟩)
      fun xs hx => at_key (by prop) (ok_array fun x h => by obtain ⟨s, rfl⟩ := hx x h; exact ok_str)
  · exact field_str rfl rfl fun s _ => at_key (by prop) ok_str
  · exact field_str rfl rfl fun s _ => at_key (by prop) ok_str
  · exact field_str rfl rfl fun s _ => at_key (by prop) ok_str
  · exact field_list rfl rfl (fun p hp => good_paramOrRef hE (h.parameters p hp))
      fun xs hx => at_key (by prop) (ok_array fun x h => okRef (hx x h).2)
  · exact field_ptr (n := "RequestBodyOrReference") rfl rfl (fun _ => ⟨_, rfl⟩) (fun b hb => good_bodyOrRef hE (h.body b hb))
      fun j hj => at_key (t := .ref "request-body-or-reference") (by prop) (okRef hj.2)
  · exact field_responses hE rfl rfl h fun j hj => at_key (t := .ref "responses") (by prop) (okRef hj)
  · exact field_bool rfl rfl fun s _ => at_key (by prop) ok_bool
  · refine field_list (t := .map (.slice .str)) rfl rfl (fun p _ => good_security p)
      fun xs hx => at_key (by prop) (ok_array fun x h => ?_)
    obtain ⟨M, rfl, hM⟩ := hx x h
    refine okRef ?_
    rw [def31 hE (s := mSecurityRequirement) (by kernel_rfl)]
    refine ok_mapOf fun k x hkx => ?_
    obtain ⟨xs, rfl, hxs⟩ := hM k x hkx
    refine ok_array fun y hy => ?_
    obtain ⟨s, rfl⟩ := hxs y hy
    exact ok_str
  · refine pat_map (g := fun b => Val.any (.bool b)) h.extKeys fun k b hb => ?_
    have := pat_x (h.ext k b hb)
    exact ⟨this, good_any (a := .bool b) rfl (.inr (x_matches.1 this))⟩
  · intro M _ _
    show ∀ t ∈ [Sch.ref "specification-extensions"], _
    simp only [List.mem_cons, List.not_mem_nil, or_false, forall_eq]
    exact ext_ok hE

theorem good_pathItem {p : V31.PathItem Schema} (h : ItemOk (SchemaOk N) p) :
    Good N (Obj env "path-item") (.named "PathItem") (pathItemVal p) := by
  have key : ∀ (f : Field) (op : Option (Operation Schema)), nilable f = true → f.ty = .ptr (.named "Operation") →
      op ∈ ops p → (f.key, Sch.ref "operation") ∈ props mPathItem →
      FieldOk N (Member env (props mPathItem)) f (opt operationVal op) := by
    intro f op hf ht ho hp
    refine field_ptr (n := "Operation") hf ht (fun _ => ⟨_, rfl⟩) (fun b hb => good_operation hE (h.ops b (hb ▸ ho)))
      fun j hj => at_key hp (okRef hj.ok)
  refine good_simple hE (m := mPathItem) (by kernel_rfl) (by kernel_rfl) rfl (by decide +kernel) (by decide +kernel) (by rfl)
    rfl ⟨?_, ?_, ?_, ?_, ?_, ?_, ?_, ?_, ?_, ?_, trivial⟩ ?_ fun M k => ext_last hE (ks := [])
  · exact field_str rfl rfl fun s _ => at_key (by prop) ok_str
  · exact field_list rfl rfl (fun q hq => good_paramOrRef hE (h.parameters q hq))
      fun xs hx => at_key (by prop) (ok_array fun x h => okRef (hx x h).2)
  · exact key _ _ rfl rfl (by simp [ops]) (by prop)
  · exact key _ _ rfl rfl (by simp [ops]) (by prop)
  · exact key _ _ rfl rfl (by simp [ops]) (by prop)
  · exact key _ _ rfl rfl (by simp [ops]) (by prop)
  · exact key _ _ rfl rfl (by simp [ops]) (by prop)
  · exact key _ _ rfl rfl (by simp [ops]) (by prop)
  · exact key _ _ rfl rfl (by simp [ops]) (by prop)
  · exact key _ _ rfl rfl (by simp [ops]) (by prop)
  · intro M _ _
    show ∀ t ∈ [Sch.ref "specification-extensions"], _
    simp only [List.mem_cons, List.not_mem_nil, or_false, forall_eq]
    exact ext_ok hE

theorem good_webhook {p : V31.PathItem Schema} (h : ItemOk (SchemaOk N) p) :
    Good N (fun j => (∃ M, j = .obj M) ∧ (env "path-item-or-reference").ok j) (.named "PathItemOrReference") (webhookVal p) :=
  good_refOr (go := "PathItem") (valN := "PathItem") (ref := none) (value := some p) (g := pathItemVal) (Ok := ItemOk (SchemaOk N)) hE (d := "path-item") (by kernel_rfl) rfl (by decide +kernel) (by decide)
    (by kernel_rfl) (fun e => absurd rfl e) (fun _ => good_pathItem hE) (fun _ => ⟨_, rfl⟩) (.inr ⟨p, rfl, rfl, h⟩)

theorem good_paths {m : GoMap (V31.PathItem Schema)} (hk : Keys m) (h : ∀ k p, (k, p) ∈ m → ['/'] <+: k.toList ∧ ItemOk (SchemaOk N) p) :
    Good N (fun j => (env "paths").ok j) (.named "Paths") (fill V31.sPaths [("MapOfPathItemValues", Pub30.mapVal pathItemVal m)]) := by
  obtain ⟨M, hF⟩ := filled' (N := N) (P := fun k x => KeyPat.slash.Is k ∧ (env "path-item").ok x) (n := "Paths") (s := V31.sPaths)
    (l := [("MapOfPathItemValues", Pub30.mapVal pathItemVal m)]) (by kernel_rfl) (by rfl)
    ⟨pat_map hk fun k p hp => ⟨pat_slash (h k p hp).1, by
      have := good_pathItem hE (h k p hp).2
      exact ⟨this.writable, slash_matches.1 (pat_slash (h k p hp).1), this.valid.ok⟩⟩, trivial⟩
  have hM : ∀ k x, (k, x) ∈ M → KeyPat.slash.Is k ∧ (env "path-item").ok x := by
    intro k x hx
    rcases hF.members k x hx with ⟨h, _⟩ | h
    · cases h
    · exact h
  refine ⟨hF.writable, ?_⟩
  rw [hF.json, def31 hE (s := mPaths) (by kernel_rfl), mPaths, ok_closed]
  constructor
  · simp only [List.mem_cons, List.not_mem_nil, or_false, forall_eq_or_imp, forall_eq]
    refine ⟨ok_obj_type, ok_object.2 ?_, ext_ok hE⟩
    intro k x hx
    refine ⟨by simp, ?_, by simp⟩
    intro p t ht _
    cases List.mem_singleton.1 ht
    exact okRef (hM _ x hx).2
  · intro k hk
    obtain ⟨x, hx⟩ := hasKey_obj_iff.1 hk
    exact ⟨_, .tail _ (.head _), sees_object.2 (.inr (.inl ⟨_, _, List.Mem.head _, (hM k x hx).1⟩))⟩

/-! ## Security schemes -/

omit hE in
/-- A condition on the type. -/
theorem type_cond {M : List (String × Any)} {ty i : String} (hty : ("type", Any.str ty) ∈ M)
    (hu : ∀ x, ("type", x) ∈ M → x = .str ty) :
    (sem env (.all [.object [("type", .all [.enum [(.str i)]])] [] none, .required ["type"]])).ok (.obj M) ↔ ty = i := by
  rw [ok_all]
  simp only [List.mem_cons, List.not_mem_nil, or_false, forall_eq_or_imp, forall_eq, ok_object, ok_requires]
  constructor
  · rintro ⟨h, _⟩
    have h2 := (h "type" _ hty).1 _ rfl
    rw [ok_all] at h2
    obtain ⟨c, hc, e⟩ := ok_enum.1 (h2 _ (List.Mem.head _))
    cases List.mem_singleton.1 hc
    cases e
    rfl
  · rintro rfl
    refine ⟨?_, _, hty⟩
    intro k x hx
    refine ⟨?_, by simp, by simp⟩
    rintro t ht
    cases ht
    rw [hu x hx, ok_all]
    intro s hs
    cases List.mem_singleton.1 hs
    exact ok_enum.2 ⟨.str ty, by simp, rfl⟩

omit hE in
/-- A condition that does not apply. -/
theorem type_other {M : List (String × Any)} {ty i : String} {t : Sch} (hty : ("type", Any.str ty) ∈ M)
    (hu : ∀ x, ("type", x) ∈ M → x = .str ty) (hi : ty ≠ i) :
    (sem env (.all [.ite (.all [.object [("type", .all [.enum [(.str i)]])] [] none, .required ["type"]]) t (.all [])])).ok (.obj M) := by
  rw [ok_all]
  intro s hs
  cases List.mem_singleton.1 hs
  rw [ok_ite, type_cond hty hu]
  exact ⟨fun e => absurd e hi, fun _ => by rw [ok_all]; simp⟩

omit hE in
theorem sees_ite {c t e : Sch} {v : Any} {k : String} (hc : (sem env c).ok v) (h : (sem env t).sees v k) :
    (sem env (.ite c t e)).sees v k := by
  simp only [sem]
  exact .inl ⟨hc, .inr h⟩

/-- The members that every security scheme has, and the conditions by type. -/
theorem scheme_ok {M : List (String × Any)} {ty : String} (hty : ("type", Any.str ty) ∈ M)
    (hu : ∀ x, ("type", x) ∈ M → x = .str ty) (hd : ∀ x, ("description", x) ∈ M → ∃ d, x = .str d)
    (hin : ty ∈ ["apiKey", "http"])
    (hk : (env "security-scheme/$defs/type-apikey").ok (.obj M)) (hh : (env "security-scheme/$defs/type-http").ok (.obj M))
    (hb : (env "security-scheme/$defs/type-http-bearer").ok (.obj M))
    (hs : ∀ k x, (k, x) ∈ M → k = "type" ∨ k = "description" ∨ (env "security-scheme/$defs/type-apikey").sees (.obj M) k ∨
      (env "security-scheme/$defs/type-http").sees (.obj M) k ∨
      (env "security-scheme/$defs/type-http-bearer").sees (.obj M) k) : (env "security-scheme").ok (.obj M) := by
  rw [def31 hE (s := mSecurityScheme) (by kernel_rfl), mSecurityScheme, ok_closed]
  constructor
  · simp only [List.mem_cons, List.not_mem_nil, or_false, forall_eq_or_imp, forall_eq]
    refine ⟨ok_obj_type, ok_object.2 ?_, ok_requires.2 ?_, ?_⟩
    · intro k x hx
      refine ⟨?_, by simp, by simp⟩
      intro t ht
      simp only [List.mem_cons, Prod.mk.injEq, List.not_mem_nil, or_false] at ht
      rcases ht with ⟨rfl, rfl⟩ | ⟨rfl, rfl⟩
      · rw [hu x hx, ok_all]
        intro s hs
        cases List.mem_singleton.1 hs
        refine ok_enum.2 ⟨.str ty, ?_, rfl⟩
        simp only [List.mem_cons, List.not_mem_nil, or_false] at hin ⊢
        rcases hin with rfl | rfl <;> simp
      · obtain ⟨d, rfl⟩ := hd x hx
        exact ok_str
    · simp only [List.mem_singleton, forall_eq]
      exact ⟨_, hty⟩
    · rw [ok_allOf]
      simp only [List.mem_cons, List.not_mem_nil, or_false, forall_eq_or_imp, forall_eq]
      have hne : ty ≠ "oauth2" ∧ ty ≠ "openIdConnect" := by
        simp only [List.mem_cons, List.not_mem_nil, or_false] at hin
        rcases hin with rfl | rfl <;> decide
      refine ⟨ext_ok hE, okRef hk, okRef hh, okRef hb, okRef ?_, okRef ?_⟩
      · rw [def31 hE (s := mSecuritySchemeTypeOauth2) (by kernel_rfl)]
        exact type_other hty hu hne.1
      · rw [def31 hE (s := mSecuritySchemeTypeOidc) (by kernel_rfl)]
        exact type_other hty hu hne.2
  · intro k hk
    obtain ⟨x, hx⟩ := hasKey_obj_iff.1 hk
    have hall : ∀ n, (env n).sees (.obj M) k → ∀ l, Sch.ref n ∈ l → (sem env (.allOf l)).sees (.obj M) k :=
      fun n h l hl => sees_allOf hl (by rw [ok_refEq]; exact h)
    rcases hs k x hx with rfl | rfl | h | h | h
    · exact ⟨_, .tail _ (.head _), sees_object.2 (.inl ⟨_, List.Mem.head _⟩)⟩
    · exact ⟨_, .tail _ (.head _), sees_object.2 (.inl ⟨_, .tail _ (.head _)⟩)⟩
    · exact ⟨_, .tail _ (.tail _ (.tail _ (.head _))), hall _ h _ (by simp)⟩
    · exact ⟨_, .tail _ (.tail _ (.tail _ (.head _))), hall _ h _ (by simp)⟩
    · exact ⟨_, .tail _ (.tail _ (.tail _ (.head _))), hall _ h _ (by simp)⟩

/-- HTTP schemes: `bearerFormat` only with `bearer`. -/
theorem http_ok {M : List (String × Any)} {d sc : String} {f : Option String} (hf : f ≠ none → sc = "bearer")
    (hM : M = [("description", .str d), ("type", .str "http"), ("scheme", .str sc)] ++
      (f.map (fun f => ("bearerFormat", Any.str f))).toList) : (env "security-scheme").ok (.obj M) := by
  have hmem : ∀ k x, (k, x) ∈ M → (k = "description" ∧ x = .str d) ∨ (k = "type" ∧ x = .str "http") ∨
      (k = "scheme" ∧ x = .str sc) ∨ (k = "bearerFormat" ∧ ∃ g, f = some g ∧ x = .str g) := by
    intro k x hx
    rw [hM] at hx
    cases f with
    | none => simpa using hx
    | some f => simpa [or_assoc] using hx
  have hty : ("type", Any.str "http") ∈ M := by rw [hM]; simp
  have hsc : ("scheme", Any.str sc) ∈ M := by rw [hM]; simp
  have hu : ∀ x, ("type", x) ∈ M → x = .str "http" := by
    intro x hx
    rcases hmem _ x hx with ⟨h, _⟩ | ⟨_, h⟩ | ⟨h, _⟩ | ⟨h, _⟩
    · exact absurd h (by decide)
    · exact h
    · exact absurd h (by decide)
    · exact absurd h (by decide)
  have hscu : ∀ x, ("scheme", x) ∈ M → x = .str sc := by
    intro x hx
    rcases hmem _ x hx with ⟨h, _⟩ | ⟨h, _⟩ | ⟨_, h⟩ | ⟨h, _⟩
    · exact absurd h (by decide)
    · exact absurd h (by decide)
    · exact h
    · exact absurd h (by decide)
  have hbu : ∀ x, ("bearerFormat", x) ∈ M → ∃ g, f = some g ∧ x = .str g := by
    intro x hx
    rcases hmem _ x hx with ⟨h, _⟩ | ⟨h, _⟩ | ⟨h, _⟩ | ⟨_, h⟩
    · exact absurd h (by decide)
    · exact absurd h (by decide)
    · exact absurd h (by decide)
    · exact h
  have hdu : ∀ x, ("description", x) ∈ M → ∃ d, x = .str d := by
    intro x hx
    rcases hmem _ x hx with ⟨_, h⟩ | ⟨h, _⟩ | ⟨h, _⟩ | ⟨h, _⟩
    · exact ⟨d, h⟩
    · exact absurd h (by decide)
    · exact absurd h (by decide)
    · exact absurd h (by decide)
  have hb2 : (sem env (.all [.object [("bearerFormat", .all [.type ["string"]])] [] none])).ok (.obj M) := by
    rw [ok_all]
    intro s hs
    cases List.mem_singleton.1 hs
    refine ok_object.2 fun k x hx => ⟨?_, by simp, by simp⟩
    intro t ht
    cases List.mem_singleton.1 ht
    obtain ⟨g, _, rfl⟩ := hbu x hx
    exact ok_str
  have hcond : sc = "bearer" → (sem env (.all [.object [("type", .all [.enum [(.str "http")]]),
      ("scheme", .all [.type ["string"], .pattern .bearer])] [] none, .required ["type", "scheme"]])).ok (.obj M) := by
    rintro rfl
    rw [ok_all]
    simp only [List.mem_cons, List.not_mem_nil, or_false, forall_eq_or_imp, forall_eq, ok_requires]
    refine ⟨ok_object.2 fun k x hx => ⟨?_, by simp, by simp⟩, ⟨_, hty⟩, _, hsc⟩
    intro t ht
    simp only [List.mem_cons, Prod.mk.injEq, List.not_mem_nil, or_false] at ht
    rcases ht with ⟨rfl, rfl⟩ | ⟨rfl, rfl⟩
    · rw [hu x hx, ok_all]
      intro s hs
      cases List.mem_singleton.1 hs
      exact ok_enum.2 ⟨.str "http", by simp, rfl⟩
    · rw [hscu x hx]
      refine ok_string ?_
      intro t ht
      cases List.mem_singleton.1 ht
      exact ok_pattern.2 ⟨'b', 'e', 'a', 'r', 'e', 'r', by decide, by decide, by decide, by decide, by decide, by decide, by decide⟩
  refine scheme_ok hE hty hu hdu (by simp) ?_ ?_ ?_ ?_
  · rw [def31 hE (s := mSecuritySchemeTypeApikey) (by kernel_rfl)]
    exact type_other hty hu (by decide)
  · rw [def31 hE (s := mSecuritySchemeTypeHttp) (by kernel_rfl), mSecuritySchemeTypeHttp, ok_all]
    intro s hs
    cases List.mem_singleton.1 hs
    rw [ok_ite]
    refine ⟨fun _ => ?_, fun h => absurd ((type_cond hty hu).2 rfl) h⟩
    rw [ok_all]
    simp only [List.mem_cons, List.not_mem_nil, or_false, forall_eq_or_imp, forall_eq, ok_requires]
    refine ⟨ok_object.2 fun k x hx => ⟨?_, by simp, by simp⟩, _, hsc⟩
    intro t ht
    cases List.mem_singleton.1 ht
    rw [hscu x hx]
    exact ok_str
  · rw [def31 hE (s := mSecuritySchemeTypeHttpBearer) (by kernel_rfl), mSecuritySchemeTypeHttpBearer, ok_all]
    intro s hs
    cases List.mem_singleton.1 hs
    rw [ok_ite]
    exact ⟨fun _ => hb2, fun _ => by rw [ok_all]; simp⟩
  · intro k x hx
    rcases hmem k x hx with ⟨rfl, _⟩ | ⟨rfl, _⟩ | ⟨rfl, _⟩ | ⟨rfl, g, e, _⟩
    · exact .inr (.inl rfl)
    · exact .inl rfl
    · refine .inr (.inr (.inr (.inl ?_)))
      rw [def31 hE (s := mSecuritySchemeTypeHttp) (by kernel_rfl)]
      exact sees_all (List.Mem.head _) (sees_ite ((type_cond hty hu).2 rfl)
        (sees_all (List.Mem.head _) (sees_object.2 (.inl ⟨_, List.Mem.head _⟩))))
    · refine .inr (.inr (.inr (.inr ?_)))
      rw [def31 hE (s := mSecuritySchemeTypeHttpBearer) (by kernel_rfl)]
      exact sees_all (List.Mem.head _) (sees_ite (hcond (hf (by rw [e]; simp)))
        (sees_all (List.Mem.head _) (sees_object.2 (.inl ⟨_, List.Mem.head _⟩))))

/-- API keys. -/
theorem apiKey_ok {d n i : String} (hi : i ∈ ["header", "query", "cookie"]) : (env "security-scheme").ok
    (.obj [("description", .str d), ("type", .str "apiKey"), ("name", .str n), ("in", .str i)]) := by
  generalize hM : [("description", Any.str d), ("type", .str "apiKey"), ("name", .str n), ("in", .str i)] = M
  have hmem : ∀ k x, (k, x) ∈ M → (k = "description" ∧ x = .str d) ∨ (k = "type" ∧ x = .str "apiKey") ∨
      (k = "name" ∧ x = .str n) ∨ (k = "in" ∧ x = .str i) := by
    intro k x hx
    rw [← hM] at hx
    simpa using hx
  have hty : ("type", Any.str "apiKey") ∈ M := by rw [← hM]; simp
  have hu : ∀ x, ("type", x) ∈ M → x = .str "apiKey" := by
    intro x hx
    rcases hmem _ x hx with ⟨h, _⟩ | ⟨_, h⟩ | ⟨h, _⟩ | ⟨h, _⟩
    · exact absurd h (by decide)
    · exact h
    · exact absurd h (by decide)
    · exact absurd h (by decide)
  have hdu : ∀ x, ("description", x) ∈ M → ∃ d, x = .str d := by
    intro x hx
    rcases hmem _ x hx with ⟨_, h⟩ | ⟨h, _⟩ | ⟨h, _⟩ | ⟨h, _⟩
    · exact ⟨d, h⟩
    · exact absurd h (by decide)
    · exact absurd h (by decide)
    · exact absurd h (by decide)
  have hany : ∀ k x, (k, x) ∈ M → ∃ s, x = .str s := by
    intro k x hx
    rcases hmem _ x hx with ⟨_, h⟩ | ⟨_, h⟩ | ⟨_, h⟩ | ⟨_, h⟩ <;> exact ⟨_, h⟩
  have hin : ∀ x, ("in", x) ∈ M → x = .str i := by
    intro x hx
    rcases hmem _ x hx with ⟨h, _⟩ | ⟨h, _⟩ | ⟨h, _⟩ | ⟨_, h⟩
    · exact absurd h (by decide)
    · exact absurd h (by decide)
    · exact absurd h (by decide)
    · exact h
  have hno : ∀ k, k ∉ ["description", "type", "name", "in"] → ∀ x, (k, x) ∉ M := by
    intro k hk x hx
    rcases hmem _ x hx with ⟨h, _⟩ | ⟨h, _⟩ | ⟨h, _⟩ | ⟨h, _⟩ <;> exact hk (by simp [h])
  refine scheme_ok hE hty hu hdu (by simp) ?_ ?_ ?_ ?_
  · rw [def31 hE (s := mSecuritySchemeTypeApikey) (by kernel_rfl), mSecuritySchemeTypeApikey, ok_all]
    intro s hs
    cases List.mem_singleton.1 hs
    rw [ok_ite]
    refine ⟨fun _ => ?_, fun h => absurd ((type_cond hty hu).2 rfl) h⟩
    rw [ok_all]
    simp only [List.mem_cons, List.not_mem_nil, or_false, forall_eq_or_imp, forall_eq, ok_requires]
    refine ⟨ok_object.2 fun k x hx => ⟨?_, by simp, by simp⟩, ⟨.str n, by rw [← hM]; simp⟩, .str i, by rw [← hM]; simp⟩
    intro t ht
    simp only [List.mem_cons, Prod.mk.injEq, List.not_mem_nil, or_false] at ht
    rcases ht with ⟨rfl, rfl⟩ | ⟨rfl, rfl⟩
    · obtain ⟨s, rfl⟩ := hany _ x hx
      exact ok_str
    · rw [hin x hx, ok_all]
      intro s hs
      cases List.mem_singleton.1 hs
      refine ok_enum.2 ⟨.str i, ?_, rfl⟩
      simp only [List.mem_cons, List.not_mem_nil, or_false] at hi ⊢
      rcases hi with rfl | rfl | rfl <;> simp
  · rw [def31 hE (s := mSecuritySchemeTypeHttp) (by kernel_rfl)]
    exact type_other hty hu (by decide)
  · rw [def31 hE (s := mSecuritySchemeTypeHttpBearer) (by kernel_rfl), mSecuritySchemeTypeHttpBearer, ok_all]
    intro s hs
    cases List.mem_singleton.1 hs
    rw [ok_ite]
    refine ⟨fun _ => ?_, fun _ => by rw [ok_all]; simp⟩
    rw [ok_all]
    intro s hs
    cases List.mem_singleton.1 hs
    refine ok_object.2 fun k x hx => ⟨?_, by simp, by simp⟩
    intro t ht
    cases List.mem_singleton.1 ht
    exact absurd hx (hno _ (by decide) x)
  · have hsee : ∀ k t, (k, t) ∈ [("name", Sch.all [.type ["string"]]), ("in", .all [.enum [(.str "query"), (.str "header"),
        (.str "cookie")]])] → (env "security-scheme/$defs/type-apikey").sees (.obj M) k := by
      intro k t ht
      rw [def31 hE (s := mSecuritySchemeTypeApikey) (by kernel_rfl)]
      exact sees_all (List.Mem.head _) (sees_ite ((type_cond hty hu).2 rfl)
        (sees_all (List.Mem.head _) (sees_object.2 (.inl ⟨t, ht⟩))))
    intro k x hx
    rcases hmem k x hx with ⟨rfl, _⟩ | ⟨rfl, _⟩ | ⟨rfl, _⟩ | ⟨rfl, _⟩
    · exact .inr (.inl rfl)
    · exact .inl rfl
    · exact .inr (.inr (.inl (hsee _ _ (List.Mem.head _))))
    · exact .inr (.inr (.inl (hsee _ _ (.tail _ (.head _)))))

omit hE in
/-- A security scheme with one alternative and a description can be written. -/
theorem wri_scheme {go t : String} {v : Val} {d : String} (ho : ⟨go, .ptr (.named t)⟩ ∈ V31.sSecurityScheme.oneOf)
    (hd : go ≠ "Description") (hx : go ≠ "MapOfAnything") (hv : ∃ fs, v = .struct fs) (h : Wri N (.named t) v) :
    Wri N (.named "SecurityScheme") (fill V31.sSecurityScheme [(go, v), ("Description", .str d)]) := by
  obtain ⟨fs, rfl⟩ := hv
  refine .security (go := go) (t := .named t) (by kernel_rfl) _ ?_ ?_ ?_ ho ?_ ?_ ?_
  · intro f hf
    cases List.mem_singleton.1 hf
    simp only [GoMap.get?, if_neg hd, if_pos, Option.getD_some]
    exact .ptr rfl (by simp) (by simp) (.str d)
  · simp only [GoMap.get?, if_neg hx]
    exact .nilMap _
  · simp only [GoMap.get?, if_neg hx]
    intro k hk
    cases hk
  · simp [GoMap.get?]
  · simp only [GoMap.get?, if_pos, Option.getD_some]
    exact .ptr rfl (by simp) (by simp) h
  · intro h hh hne
    have : h.go ≠ "Description" := by
      simp only [V31.sSecurityScheme, List.mem_cons, List.not_mem_nil, or_false] at hh
      rcases hh with rfl | rfl | rfl | rfl | rfl | rfl <;> decide
    simp [GoMap.get?, Ne.symm hne, Ne.symm this]

theorem good_scheme {s : V31.SecScheme} (hs : ∀ n i t, s = .apiKey n i t → i ∈ ["header", "query", "cookie"]) :
    Good N (fun j => (∃ M, j = .obj M) ∧ (env "security-scheme-or-reference").ok j) (.named "SecuritySchemeOrReference") (schemeVal s) := by
  have key : ∀ v, (∃ fs, v = .struct fs) → Good N (Obj env "security-scheme") (.named "SecurityScheme") v →
      Good N (fun j => (∃ M, j = .obj M) ∧ (env "security-scheme-or-reference").ok j) (.named "SecuritySchemeOrReference")
        (fill V31.sSecuritySchemeOrReference [("SecurityScheme", v)]) := by
    rintro v ⟨fs, rfl⟩ h
    exact good_refOr (n := "SecuritySchemeOrReference") (s := V31.sSecuritySchemeOrReference) (go := "SecurityScheme")
      (valN := "SecurityScheme") (ref := none) (value := some fs) (g := Val.struct) (Ok := fun x => x = fs) hE
      (d := "security-scheme") (dr := "security-scheme-or-reference") (by kernel_rfl) rfl (by decide +kernel) (by decide)
      (by kernel_rfl) (fun e => absurd rfl e) (fun x e => by rw [e]; exact h) (fun x => ⟨x, rfl⟩) (.inr ⟨fs, rfl, rfl, rfl⟩)
  have no_ref : ∀ M : List (String × Any), (M.map Prod.fst).contains "$ref" = false → ¬HasKey (.obj M) "$ref" := by
    intro M h hk
    obtain ⟨x, hx⟩ := hasKey_obj_iff.1 hk
    rw [List.contains_iff_mem.2 (List.mem_map.2 ⟨_, hx, rfl⟩)] at h
    cases h
  unfold schemeVal
  cases s with
  | basic d =>
    refine key _ ⟨_, rfl⟩ ⟨wri_scheme (t := "SecuritySchemeHTTP") (by simp [V31.sSecurityScheme]) (by decide) (by decide) ⟨_, rfl⟩ ?_, ?_⟩
    · obtain ⟨M, hF⟩ := filled (N := N) (P := fun _ _ => True) (n := "SecuritySchemeHTTP") (s := V31.sSecuritySchemeHTTP)
        (l := [("Scheme", .str "basic")]) (by kernel_rfl) (by rfl) ⟨field_of rfl (good_str _ trivial) fun _ h => h, trivial⟩
        (by intro a b e; cases e)
        (by intro c hc; cases List.mem_singleton.1 hc; exact ⟨"basic", rfl, by decide⟩)
      exact hF.writable
    · refine ⟨[("description", .str d), ("type", .str "http"), ("scheme", .str "basic")], enc_of (by kernel_rfl), no_ref _ (by simp), ?_⟩
      exact http_ok hE (f := none) (fun h => absurd rfl h) rfl
  | bearer f d =>
    refine key _ ⟨_, rfl⟩ ⟨wri_scheme (t := "SecuritySchemeHTTPBearer") (by simp [V31.sSecurityScheme]) (by decide) (by decide) ⟨_, rfl⟩ ?_, ?_⟩
    · obtain ⟨M, hF⟩ := filled (N := N) (P := fun _ _ => True) (n := "SecuritySchemeHTTPBearer") (s := V31.sSecuritySchemeHTTPBearer)
        (l := [("Scheme", .str "bearer"), ("BearerFormat", opt .str f)]) (by kernel_rfl) (by rfl)
        ⟨field_of rfl (good_str _ trivial) fun _ h => h, field_str rfl rfl (fun _ _ => trivial), trivial⟩
        (by intro a b e; cases e)
        (by intro c hc; cases List.mem_singleton.1 hc; exact ⟨"bearer", rfl, by decide⟩)
      exact hF.writable
    · cases f with
      | none =>
        refine ⟨[("description", .str d), ("type", .str "http"), ("scheme", .str "bearer")], enc_of (by kernel_rfl), no_ref _ (by simp), ?_⟩
        exact http_ok hE (f := none) (fun h => absurd rfl h) rfl
      | some f =>
        refine ⟨[("description", .str d), ("type", .str "http"), ("scheme", .str "bearer"), ("bearerFormat", .str f)],
          enc_of (by kernel_rfl), no_ref _ (by simp), ?_⟩
        exact http_ok hE (f := some f) (fun _ => rfl) rfl
  | apiKey n i d =>
    have hi := hs n i d rfl
    refine key _ ⟨_, rfl⟩ ⟨wri_scheme (t := "SecuritySchemeAPIKey") (by simp [V31.sSecurityScheme]) (by decide) (by decide) ⟨_, rfl⟩ ?_, ?_⟩
    · obtain ⟨M, hF⟩ := filled' (N := N) (P := fun _ _ => True) (n := "SecuritySchemeAPIKey") (s := V31.sSecuritySchemeAPIKey)
        (l := [("Name", .str n), ("In", .str i)]) (by kernel_rfl) (by rfl)
        ⟨field_of rfl (good_str _ trivial) fun _ h => h, field_of rfl (good_enum (n := "SecuritySchemeAPIKeyIn") (by kernel_rfl)
          (vs := ["query", "header", "cookie"]) (by
            simp only [List.mem_cons, List.not_mem_nil, or_false] at hi ⊢
            rcases hi with rfl | rfl | rfl <;> simp) trivial) fun _ h => h, trivial⟩
      exact hF.writable
    · refine ⟨[("description", .str d), ("type", .str "apiKey"), ("name", .str n), ("in", .str i)], ?_, no_ref _ (by simp), apiKey_ok hE hi⟩
      simp only [List.mem_cons, List.not_mem_nil, or_false] at hi
      rcases hi with rfl | rfl | rfl <;> exact enc_of (by kernel_rfl)

/-! ## Components and documents -/

omit hE in
theorem name_ok {k : String} (h : IsName k) : (sem env (.all [.pattern .name])).ok (.str k) := by
  rw [ok_all]
  intro s hs
  cases List.mem_singleton.1 hs
  refine ok_pattern.2 ⟨h.1, fun c hc => ?_⟩
  unfold IsNameChar IsDigit
  rcases h.2 c hc with h | rfl | rfl | rfl
  · simp only [Char.isAlphanum, Char.isAlpha, Char.isUpper, Char.isLower, Char.isDigit, Bool.or_eq_true, Bool.and_eq_true,
      decide_eq_true_eq, ge_iff_le] at h
    rcases h with (h | h) | h
    · exact .inr (.inl h)
    · exact .inl h
    · exact .inr (.inr (.inl h))
  · exact .inr (.inr (.inr (by simp)))
  · exact .inr (.inr (.inr (by simp)))
  · exact .inr (.inr (.inr (by simp)))

omit hE in
theorem names_ok {M : List (String × Any)} {ks : List String} (hk : M.map Prod.fst = ks) (h : ∀ k ∈ ks, IsName k) :
    (sem env (.all [.propertyNames (.all [.pattern .name])])).ok (.obj M) := by
  rw [ok_all]
  intro s hs
  cases List.mem_singleton.1 hs
  exact ok_propertyNames.2 fun k x hx => name_ok (h k (hk ▸ List.mem_map.2 ⟨_, hx, rfl⟩))

theorem good_components {d : V31.Spec Schema} (h : Published (SchemaOk N) d) :
    Good N (fun j => (env "components").ok j) (.named "Components") (fill V31.sComponents [
      ("Schemas", Pub30.mapVal schemaVal d.schemas), ("SecuritySchemes", Pub30.mapVal schemeVal d.security)]) := by
  have hg : Given N (fun k x => k ∈ ["schemas", "securitySchemes"] ∧ Member env (props mComponents) k x ∧
      (sem env (.all [.propertyNames (.all [.pattern .name])])).ok x) V31.sComponents
      [("Schemas", Pub30.mapVal schemaVal d.schemas), ("SecuritySchemes", Pub30.mapVal schemeVal d.security)] := by
    refine ⟨?_, ?_, trivial⟩
    · refine field_map rfl rfl h.schemaKeys (fun k s hs => good_schema (h.schemas k s hs).2) fun M _ e hM => ⟨by simp,
        at_key (by prop) (ok_mapOf fun k x hx => schema_at hE (hM k x hx)), names_ok e ?_⟩
      intro k hk
      obtain ⟨⟨_, s⟩, hs, rfl⟩ := List.mem_map.1 hk
      exact (h.schemas _ s hs).1
    · refine field_map rfl rfl h.securityKeys (fun k s hs => good_scheme hE (h.security k s hs).2) fun M _ e hM => ⟨by simp,
        at_key (by prop) (ok_mapOf fun k x hx => okRef (hM k x hx).2), names_ok e ?_⟩
      intro k hk
      obtain ⟨⟨_, s⟩, hs, rfl⟩ := List.mem_map.1 hk
      exact (h.security _ s hs).1
  obtain ⟨M, hF⟩ := filled' (n := "Components") (by kernel_rfl) (by rfl) hg
  have hM : ∀ k x, (k, x) ∈ M → k ∈ ["schemas", "securitySchemes"] ∧ Member env (props mComponents) k x ∧
      (sem env (.all [.propertyNames (.all [.pattern .name])])).ok x := by
    intro k x hx
    rcases hF.members k x hx with ⟨h, _⟩ | h
    · cases h
    · exact h
  have hprops : (sem env (.object (props mComponents) [] none)).ok (.obj M) :=
    member_object (by decide +kernel) fun k x _ hx _ => (hM k x hx).2.1
  refine ⟨hF.writable, ?_⟩
  rw [hF.json, def31 hE (s := mComponents) (by kernel_rfl)]
  show (sem env (.closed [.type ["object"], .object (props mComponents) _ none, _])).ok _
  rw [ok_closed]
  constructor
  · simp only [List.mem_cons, List.not_mem_nil, or_false, forall_eq_or_imp, forall_eq]
    refine ⟨ok_obj_type, ok_object.2 ?_, ext_ok hE⟩
    intro k x hx
    refine ⟨(ok_object.1 hprops k x hx).1, ?_, by simp⟩
    intro p t ht _
    cases List.mem_singleton.1 ht
    exact (hM k x hx).2.2
  · intro k hk
    obtain ⟨x, hx⟩ := hasKey_obj_iff.1 hk
    refine ⟨_, .tail _ (.head _), sees_object.2 (.inr (.inl ⟨_, _, List.Mem.head _, ?_⟩))⟩
    have := (hM k x hx).1
    simp only [List.mem_cons, List.not_mem_nil, or_false] at this
    rcases this with rfl | rfl <;> simp [KeyPat.Is]

theorem good_info (d : V31.Spec Schema) : Good N (Obj env "info") (.named "Info")
    (fill V31.sInfo [("Title", .str d.title), ("Description", opt .str d.description), ("Version", .str d.version)]) := by
  refine good_simple hE (m := mInfo) (by kernel_rfl) (by kernel_rfl) rfl (by decide +kernel) (by decide +kernel) (by rfl)
    rfl ⟨?_, ?_, ?_, trivial⟩ ?_ fun M k => ext_last hE (ks := [_])
  · exact field_of rfl (good_str d.title (P := fun j => ∃ s, j = .str s) ⟨_, rfl⟩)
      (by rintro j ⟨s, rfl⟩; exact at_key (t := .all [.type ["string"]]) (by prop) ok_str)
  · exact field_str rfl rfl fun s _ => at_key (by prop) ok_str
  · exact field_of rfl (good_str d.version (P := fun j => ∃ s, j = .str s) ⟨_, rfl⟩)
      (by rintro j ⟨s, rfl⟩; exact at_key (t := .all [.type ["string"]]) (by prop) ok_str)
  · intro M hF _
    show ∀ t ∈ [Sch.required ["title", "version"], .ref "specification-extensions"], _
    simp only [List.mem_cons, List.not_mem_nil, or_false, forall_eq_or_imp, forall_eq, ok_requires]
    exact ⟨⟨hF.fields ⟨"Title", "title", .str, false⟩ (by simp [V31.sInfo]) rfl,
      hF.fields ⟨"Version", "version", .str, false⟩ (by simp [V31.sInfo]) rfl⟩, ext_ok hE⟩

/-- A document can be written, and what is written is accepted if there is something in it. -/
theorem good_doc {d : V31.Spec Schema} (h : Published (SchemaOk N) d) :
    Good N (fun j => Something d → (env "OpenAPI").ok j) (.named "Spec") (docVal d) := by
  have hg : Given N (Member env (props mOpenAPI)) V31.sSpec [("Openapi", .str d.openapi),
      ("Info", fill V31.sInfo [("Title", .str d.title), ("Description", opt .str d.description), ("Version", .str d.version)]),
      ("Paths", opt (fun m => fill V31.sPaths [("MapOfPathItemValues", Pub30.mapVal pathItemVal m)]) d.paths),
      ("Webhooks", Pub30.mapVal webhookVal d.webhooks),
      ("Components", if d.schemas = [] ∧ d.security = [] then .nil else fill V31.sComponents [
        ("Schemas", Pub30.mapVal schemaVal d.schemas), ("SecuritySchemes", Pub30.mapVal schemeVal d.security)])] := by
    refine ⟨?_, ?_, ?_, ?_, ?_, trivial⟩
    · refine field_of rfl (good_str d.openapi (P := fun j => j = .str "3.1.0") (by rw [h.openapi])) ?_
      rintro j rfl
      refine at_key (t := .all [.type ["string"], .pattern .version]) (by prop) (ok_string ?_)
      intro t ht
      cases List.mem_singleton.1 ht
      exact ok_pattern.2 ⟨['0'], [], by decide, by simp, by simp [IsDigit], .inl rfl⟩
    · exact field_of rfl (good_info hE d) fun j hj => at_key (t := .ref "info") (by prop) (okRef hj.ok)
    · exact field_ptr (n := "Paths") rfl rfl (fun _ => ⟨_, rfl⟩) (fun m hm => good_paths hE (h.pathKeys m hm) (h.paths m hm))
        fun j hj => at_key (t := .ref "paths") (by prop) (okRef hj)
    · exact field_map rfl rfl h.webhookKeys (fun k p hp => good_webhook hE (h.webhooks k p hp)) fun M _ e hM =>
        at_key (by prop) (ok_mapOf fun k x hx => okRef (hM k x hx).2)
    · show FieldOk N _ _ (if d.schemas = [] ∧ d.security = [] then .nil else _)
      split
      · exact nil_field rfl
      · exact field_of rfl (good_ptr rfl (by intro e; cases e) (by intro e; cases e) (good_components hE h))
          fun j hj => at_key (t := .ref "components") (by prop) (okRef hj)
  obtain ⟨M, hF⟩ := filled' (n := "Spec") (by kernel_rfl) (by rfl) hg
  have hM : ∀ k x, (k, x) ∈ M → Member env (props mOpenAPI) k x := by
    intro k x hx
    rcases hF.members k x hx with ⟨h, _⟩ | h
    · cases h
    · exact h
  refine ⟨hF.writable, fun hsome => ?_⟩
  have hthing : (∃ x, ("paths", x) ∈ M) ∨ (∃ x, ("components", x) ∈ M) ∨ ∃ x, ("webhooks", x) ∈ M := by
    rcases hsome with hs | hs | hs
    · refine .inl (hF.fields ⟨"Paths", "paths", (.ptr (.named "Paths")), true⟩ (by simp [V31.sSpec]) ?_)
      show omitted _ (opt _ d.paths) = false
      cases e : d.paths with
      | none => exact absurd e hs
      | some a => rfl
    · refine .inr (.inr (hF.fields ⟨"Webhooks", "webhooks", (.map (.named "PathItemOrReference")), true⟩ (by simp [V31.sSpec]) ?_))
      show omitted _ (Pub30.mapVal _ d.webhooks) = false
      cases e : d.webhooks with
      | nil => exact absurd e hs
      | cons => rfl
    · refine .inr (.inl (hF.fields ⟨"Components", "components", (.ptr (.named "Components")), true⟩ (by simp [V31.sSpec]) ?_))
      show omitted _ (if d.schemas = [] ∧ d.security = [] then Val.nil else _) = false
      rw [if_neg (by rintro ⟨e1, e2⟩; rcases hs with hs | hs <;> contradiction)]
      rfl
  show (env "OpenAPI").ok (enc T _ (fill V31.sSpec _))
  rw [hF.json, def31 hE (s := mOpenAPI) (by kernel_rfl)]
  refine closed_ok (props := props mOpenAPI) (ks := others mOpenAPI) (by decide +kernel) hM ?_ fun k => ext_last hE (ks := [_, _])
  show ∀ t ∈ [Sch.required ["openapi", "info"], .anyOf _, .ref "specification-extensions"], _
  have hone : ∀ k, (sem env (.all [.required [k]])).ok (.obj M) ↔ ∃ x, (k, x) ∈ M := by
    intro k
    rw [ok_all]
    simp only [List.mem_singleton, forall_eq, ok_requires]
  simp only [List.mem_cons, List.not_mem_nil, or_false, forall_eq_or_imp, forall_eq, ok_requires]
  refine ⟨⟨hF.fields ⟨"Openapi", "openapi", .str, false⟩ (by simp [V31.sSpec]) rfl,
    hF.fields ⟨"Info", "info", (.named "Info"), false⟩ (by simp [V31.sSpec]) rfl⟩, ok_anyOf.2 ?_, ext_ok hE⟩
  rcases hthing with h | h | h
  · exact ⟨_, List.Mem.head _, (hone _).2 h⟩
  · exact ⟨_, .tail _ (.head _), (hone _).2 h⟩
  · exact ⟨_, .tail _ (.tail _ (.head _)), (hone _).2 h⟩

end Verif.Pub31
