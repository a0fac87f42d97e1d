import Verif.Lemmas.MetaParts30

/-! The alternatives of 3.0 exclude each other. -/

namespace Verif.Meta
open Codec Spec

variable {N : Nums} {I : String → Prop} {env : String → Any → Prop}

theorem can_ptr_of {T : Table} (hT : Ranked T) {t : Ty} (ht : notPtr t = true) {j : Any} (h : Can T N t j) :
    Can T N (.ptr t) j := by
  rw [Can, decode_ptr hT ht]
  cases j <;> first | rfl | exact h

theorem ok_string {v : Any} {rest : List Sch} (h : Ok I env (.all (.type "string" :: rest)) v) : ∃ t, v = .str t := by
  rw [ok_all] at h
  have := h (.type "string") (by simp)
  cases v <;> simp [Ok, TypeIs] at this
  exact ⟨_, rfl⟩

/-- The text of a reference. -/
theorem reference_ok (hE : Meaning defs30 I env) {j : Any} (h : env "CallbackReference" j) :
    ∃ M, j = .obj M ∧ "$ref" ∈ M.map Prod.fst ∧ ∀ x, ("$ref", x) ∈ M → ∃ t, x = .str t := by
  rw [hE "CallbackReference" mCallbackReference (by simp [defs30])] at h
  obtain ⟨P, hP, h1, t, h2⟩ : ∃ P, parse mCallbackReference = some P ∧ "$ref" ∈ P.req ∧ ∃ rest,
      ("$ref", Sch.all (.type "string" :: rest)) ∈ P.props := ⟨_, rfl, by decide, _, List.mem_cons_self⟩
  obtain ⟨M, rfl, H, _⟩ := (parse_iff hP).1 h
  exact ⟨M, rfl, H.req _ h1, fun x hx => ok_string (H.props _ x hx _ h2)⟩

theorem pathItem_ok (hE : Meaning defs30 I env) {j : Any} (h : env "PathItem" j) : ∃ M, j = .obj M := by
  rw [hE "PathItem" mPathItem (by simp [defs30])] at h
  obtain ⟨P, hP⟩ : ∃ P, parse mPathItem = some P := ⟨_, rfl⟩
  obtain ⟨M, rfl, _⟩ := (parse_iff hP).1 h
  exact ⟨M, rfl⟩

theorem callback_ok (hE : Meaning defs30 I env) {j : Any} (h : env "Callback" j) :
    ∃ M, j = .obj M ∧ ∀ x, ("$ref", x) ∈ M → ∃ M', x = .obj M' := by
  rw [hE "Callback" mCallback (by simp [defs30])] at h
  obtain ⟨P, hP, h1, h2, h3⟩ : ∃ P, parse mCallback = some P ∧ P.props = [] ∧ P.pats = [(.x, .all [])] ∧
      P.addl = some (.ref "PathItem") := ⟨_, rfl, rfl, rfl, rfl⟩
  obtain ⟨M, rfl, H, _⟩ := (parse_iff hP).1 h
  refine ⟨M, rfl, fun x hx => pathItem_ok hE ?_⟩
  have := H.addl _ x hx (by rw [h1]; simp) ?_ _ h3
  · simpa only [Ok] using this
  · rw [h2]
    intro r s hr
    simp only [List.mem_cons, List.not_mem_nil, or_false, Prod.mk.injEq] at hr
    rw [hr.1]
    intro hk
    have := (matches_iff (p := .x)).2 hk
    revert this
    decide

theorem callback_excl (hE : Meaning defs30 I env) {j : Any} :
    (Can V30.table N (.ptr (.named "CallbackReference")) j → ¬env "Callback" j) ∧
    (Can V30.table N (.ptr (.named "Callback")) j → ¬env "CallbackReference" j) := by
  constructor
  · intro hc hok
    obtain ⟨M, rfl, h⟩ := callback_ok hE hok
    rw [Can, decode_ptr_obj ranked30 rfl] at hc
    have ha := (can_obj ranked30 (s := V30.sCallbackReference) (by kernel_rfl) rfl rfl).1 hc
    obtain ⟨p, hp, e⟩ := List.mem_map.1 (ha.require "$ref" (by decide))
    obtain ⟨k, x⟩ := p
    simp only at e
    subst e
    have := ha.fields rfl _ x hp ⟨"Ref", "$ref", .str, false⟩ (by decide +kernel)
    obtain ⟨M', rfl⟩ := h x hp
    rw [Can, decode_str] at this
    cases this
  · intro hc hok
    obtain ⟨M, rfl, hm, h⟩ := reference_ok hE hok
    rw [Can, decode_ptr_obj ranked30 rfl] at hc
    have ha := (can_obj ranked30 (s := V30.sCallback) (by kernel_rfl) rfl rfl).1 hc
    rw [← mem_keys_lastWins] at hm
    obtain ⟨p, hp, e⟩ := List.mem_map.1 hm
    obtain ⟨k, x⟩ := p
    simp only at e
    subst e
    obtain ⟨a, hadd, hty⟩ : ∃ a, V30.sCallback.additional = some a ∧ a.ty = .named "PathItem" := ⟨_, rfl, rfl⟩
    have := ha.additional a hadd _ x hp (by decide +kernel) (by decide +kernel)
    obtain ⟨t, rfl⟩ := h x (mem_lastWins hp)
    rw [hty] at this
    have := can_struct_obj ranked30 (n := "PathItem") (s := V30.sPathItem) (by kernel_rfl) rfl this
    rcases this with h | ⟨_, h⟩ <;> cases h

theorem secRef_check : ["APIKeySecurityScheme", "HTTPSecurityScheme", "OAuth2SecurityScheme", "OpenIdConnectSecurityScheme"].all
      (fun m => altExcl ⟨"", .ptr (.named "SecuritySchemeReference")⟩ (.ref m)) = true ∧
    V30.sSecurityScheme.oneOf.all (fun o => altExcl o (.ref "SecuritySchemeReference")) = true := by
  constructor <;> decide +kernel

theorem security_excl (hE : Meaning defs30 I env) {j : Any} :
    (Can V30.table N (.ptr (.named "SecuritySchemeReference")) j → ¬env "SecurityScheme" j) ∧
    (Can V30.table N (.ptr (.named "SecurityScheme")) j → ¬env "SecuritySchemeReference" j) := by
  constructor
  · intro hc hok
    rw [hE "SecurityScheme" mSecurityScheme (by simp [defs30]), mSecurityScheme, ok_all] at hok
    have hok := hok _ List.mem_cons_self
    rw [ok_oneOf] at hok
    obtain ⟨i, ⟨s, hs, h⟩, _⟩ := hok
    have hs := List.mem_of_getElem? hs
    have h1 := List.all_eq_true.1 secRef_check.1
    simp only [List.mem_cons, List.not_mem_nil, or_false] at hs
    rcases hs with rfl | rfl | rfl | rfl
    · exact altExcl_sound hE (h1 "APIKeySecurityScheme" (by decide)) hc h
    · exact altExcl_sound hE (h1 "HTTPSecurityScheme" (by decide)) hc h
    · exact altExcl_sound hE (h1 "OAuth2SecurityScheme" (by decide)) hc h
    · exact altExcl_sound hE (h1 "OpenIdConnectSecurityScheme" (by decide)) hc h
  · intro hc hok
    have hobj : ∃ M, j = .obj M := by
      rw [hE "SecuritySchemeReference" mSecuritySchemeReference (by simp [defs30])] at hok
      obtain ⟨P, hP⟩ : ∃ P, parse mSecuritySchemeReference = some P := ⟨_, rfl⟩
      obtain ⟨M, rfl, _⟩ := (parse_iff hP).1 hok
      exact ⟨M, rfl⟩
    obtain ⟨M, rfl⟩ := hobj
    rw [Can, decode_ptr_obj ranked30 rfl] at hc
    have hc := (can_union ranked30 (s := V30.sSecurityScheme) (by kernel_rfl) rfl (by decide)).1 hc
    rw [filter_one] at hc
    obtain ⟨i, ⟨o, ho, h⟩, _⟩ := hc
    have ho := List.mem_of_getElem? ho
    have h2 := List.all_eq_true.1 secRef_check.2 o ho
    refine altExcl_sound hE h2 h ?_
    simp only [Ok]
    exact hok

/-- The alternatives of the unions of 3.0. -/
theorem either_excl (hE : Meaning defs30 I env) {n : String} (hn : n ∈ either30) {s : Struct} {ss : List Sch}
    (hs : GoMap.get? V30.table n = some (.struct s)) (hss : GoMap.get? defs30 n = some (.all [.oneOf ss]))
    (hU : UnionAgree n s ss) {j : Any} (i k : Nat) (o : Hidden) (t : Sch) (hik : i ≠ k) (ho : s.oneOf[i]? = some o)
    (ht : ss[k]? = some t) (hc : Can V30.table N o.ty j) : ¬Ok I env t j := by
  by_cases hcl : n ∈ clear30
  · exact altExcl_sound hE (hU.excl hcl i k o t hik ho ht) hc
  · have hcase : n = "CallbackOrRef" ∨ n = "SecuritySchemeOrRef" := by
      have h1 : either30.all (fun n => clear30.contains n || n == "CallbackOrRef" || n == "SecuritySchemeOrRef") = true := by
        decide
      have := List.all_eq_true.1 h1 n hn
      simp only [Bool.or_eq_true, List.contains_iff_mem, beq_iff_eq] at this
      rcases this with (h | h) | h
      · exact absurd h hcl
      · exact .inl h
      · exact .inr h
    rcases hcase with rfl | rfl
    · have e1 : V30.sCallbackOrRef = s := by
        have : GoMap.get? V30.table "CallbackOrRef" = some (.struct V30.sCallbackOrRef) := by kernel_rfl
        rw [this] at hs
        exact Desc.struct.inj (Option.some.inj hs)
      have e2 : [Sch.ref "CallbackReference", .ref "Callback"] = ss := by
        have : GoMap.get? defs30 "CallbackOrRef" = some mCallbackOrRef := by kernel_rfl
        rw [this, mCallbackOrRef] at hss
        simpa using hss
      subst e1 e2
      have hi : i < 2 := (List.getElem?_eq_some_iff.1 ho).1
      have hk : k < 2 := (List.getElem?_eq_some_iff.1 ht).1
      have key : (i = 0 ∧ k = 1) ∨ (i = 1 ∧ k = 0) := by omega
      rcases key with ⟨rfl, rfl⟩ | ⟨rfl, rfl⟩
      · cases ho
        cases ht
        simp only [Ok]
        exact (callback_excl hE).1 hc
      · cases ho
        cases ht
        simp only [Ok]
        exact (callback_excl hE).2 hc
    · have e1 : V30.sSecuritySchemeOrRef = s := by
        have : GoMap.get? V30.table "SecuritySchemeOrRef" = some (.struct V30.sSecuritySchemeOrRef) := by kernel_rfl
        rw [this] at hs
        exact Desc.struct.inj (Option.some.inj hs)
      have e2 : [Sch.ref "SecuritySchemeReference", .ref "SecurityScheme"] = ss := by
        have : GoMap.get? defs30 "SecuritySchemeOrRef" = some mSecuritySchemeOrRef := by kernel_rfl
        rw [this, mSecuritySchemeOrRef] at hss
        simpa using hss
      subst e1 e2
      have hi : i < 2 := (List.getElem?_eq_some_iff.1 ho).1
      have hk : k < 2 := (List.getElem?_eq_some_iff.1 ht).1
      have key : (i = 0 ∧ k = 1) ∨ (i = 1 ∧ k = 0) := by omega
      rcases key with ⟨rfl, rfl⟩ | ⟨rfl, rfl⟩
      · cases ho
        cases ht
        simp only [Ok]
        exact (security_excl hE).1 hc
      · cases ho
        cases ht
        simp only [Ok]
        exact (security_excl hE).2 hc

end Verif.Meta
