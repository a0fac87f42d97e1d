import Verif.Lemmas.MetaComplete30
import Verif.Lemmas.Distinct

/-! What is read in 3.0 is accepted by the meta-schema, where the code does not accept more on purpose. -/

namespace Verif.Meta
open Codec Spec

variable {N : Nums} {I : String → Prop} {env : String → Any → Prop}

/-- What is assumed of a value that was read. -/
structure SC (N : Nums) (ty : Ty) (j : Any) : Prop where
  distinct : Distinct j
  floats : Floats N j
  regular : Regular V30.table (Can V30.table N) ty j

theorem distinct_member {ms : List (String × Any)} {k : String} {x : Any} (h : Distinct (.obj ms)) (hx : (k, x) ∈ ms) :
    Distinct x := distinctMembers_iff.1 h.2 _ hx

theorem distinct_elem {xs : List Any} {x : Any} (h : Distinct (.arr xs)) (hx : x ∈ xs) : Distinct x :=
  distinctList_iff.1 h _ hx

theorem regular_of {T : Table} {alt : Ty → Any → Prop} {ty ty' : Ty} {j j' : Any} (h : Regular T alt ty j)
    (hr : ∀ t x, Reads T alt ty' j' t x → Reads T alt ty j t x) : Regular T alt ty' j' :=
  ⟨fun t ht => h.nulls t (hr _ _ ht), fun n s x hx => h.objects n s x (hr _ _ hx), fun ms hm => h.lists ms (hr _ _ hm)⟩

theorem sc_ptr {t : Ty} {j : Any} (h : SC N (.ptr t) j) : SC N t j :=
  ⟨h.distinct, h.floats, regular_of h.regular (fun _ _ hr => .ptr hr)⟩

theorem sc_elem {t : Ty} {xs : List Any} {x : Any} (h : SC N (.slice t) (.arr xs)) (hx : x ∈ xs) : SC N t x :=
  ⟨distinct_elem h.distinct hx, fun l hl => h.floats l (literals_elem hx l hl),
    regular_of h.regular (fun _ _ hr => .elem hx hr)⟩

theorem sc_entry {t : Ty} {ms : List (String × Any)} {k : String} {x : Any} (h : SC N (.map t) (.obj ms))
    (hx : (k, x) ∈ ms) : SC N t x :=
  ⟨distinct_member h.distinct hx, fun l hl => h.floats l (literals_member hx l hl),
    regular_of h.regular (fun _ _ hr => .entry hx hr)⟩

theorem sc_field {n : String} {s : Struct} (hn : GoMap.get? V30.table n = some (.struct s)) {f : Field} (hf : f ∈ s.fields)
    {ms : List (String × Any)} {x : Any} (h : SC N (.named n) (.obj ms)) (hx : (f.key, x) ∈ ms) : SC N f.ty x :=
  ⟨distinct_member h.distinct hx, fun l hl => h.floats l (literals_member hx l hl),
    regular_of h.regular (fun _ _ hr => .field hn hf hx hr)⟩

theorem sc_pattern {n : String} {s : Struct} (hn : GoMap.get? V30.table n = some (.struct s)) {q : PatField}
    (hq : q ∈ s.patterns) {ms : List (String × Any)} {k : String} {x : Any} (h : SC N (.named n) (.obj ms))
    (hk : q.pat.matches k = true) (hx : (k, x) ∈ ms) : SC N q.ty x :=
  ⟨distinct_member h.distinct hx, fun l hl => h.floats l (literals_member hx l hl),
    regular_of h.regular (fun _ _ hr => .pattern hn hq hk hx hr)⟩

theorem sc_additional {n : String} {s : Struct} (hn : GoMap.get? V30.table n = some (.struct s)) {a : Hidden}
    (ha : s.additional = some a) {ms : List (String × Any)} {k : String} {x : Any} (h : SC N (.named n) (.obj ms))
    (hk : ∀ q ∈ s.patterns, q.pat.matches k = false) (hx : (k, x) ∈ ms) : SC N a.ty x :=
  ⟨distinct_member h.distinct hx, fun l hl => h.floats l (literals_member hx l hl),
    regular_of h.regular (fun _ _ hr => .additional hn ha hk hx hr)⟩

theorem sc_alternative {n : String} {s : Struct} (hn : GoMap.get? V30.table n = some (.struct s)) {o : Hidden}
    (ho : o ∈ s.oneOf) {j : Any} (h : SC N (.named n) j) (hc : Can V30.table N o.ty j) : SC N o.ty j :=
  ⟨h.distinct, h.floats, regular_of h.regular (fun _ _ hr => .alternative hn ho hc hr)⟩

/-- Smaller values that can be read are accepted. -/
abbrev SmallerS (N : Nums) (I : String → Prop) (env : String → Any → Prop) (j : Any) : Prop :=
  ∀ x, sizeOf x < sizeOf j → ∀ ty sch, tyAgree V30.table ty sch = true → SC N ty x → Can V30.table N ty x →
    Ok I env sch x

/-- A struct was read from an object. -/
theorem read_object {n : String} {s : Struct} (hn : GoMap.get? V30.table n = some (.struct s)) (ho : s.oneOf = [])
    {j : Any} (h : SC N (.named n) j) (hc : Can V30.table N (.named n) j) : ∃ M, j = .obj M := by
  cases hd : s.decodes with
  | false => exact h.regular.objects n s j (.self _ _) hn hd ho
  | true =>
    rcases can_struct_obj ranked30 hn hd hc with rfl | h'
    · rcases h.regular.nulls _ (.self _ _) with h | h <;> cases h
    · exact h'

theorem struct_sound {n : String} {s : Struct} (hn : GoMap.get? V30.table n = some (.struct s)) {P : Parsed}
    {M : List (String × Any)} (ih : SmallerS N I env (.obj M)) (hc : SC N (.named n) (.obj M)) (ha : Agree V30.table s P)
    (hmin : ∀ k t, (k, t) ∈ P.props → hasMin t = true → n = "Schema" ∧ k ∈ ["required", "enum"])
    (h : Accepts V30.table N s M) : P.Holds I env M := by
  refine holds_of_accepts ha h hc.distinct.1 ?_ ?_ ?_ ?_
  · rintro f hf x hx t ht hm rfl
    obtain ⟨rfl, hk⟩ := hmin _ t ht hm
    exact hc.regular.lists M (.self _ _) _ hk hx
  · intro f hf x hx sch hag hcan
    exact ih x (size_member hx) f.ty sch hag (sc_field hn hf hc hx) hcan
  · intro q hq k x hk hx sch hag hcan
    exact ih x (size_member hx) q.ty sch hag (sc_pattern hn hq hc hk hx) hcan
  · intro a ha k x hk hx sch hag hcan
    exact ih x (size_member hx) a.ty sch hag (sc_additional hn ha hc hk hx) hcan

theorem plain_sound (hE : Meaning defs30 I env) {n m : String} (h : (n, m) ∈ pairs30) {j : Any}
    (ih : SmallerS N I env j) (hc : SC N (.named n) j) (hcan : Can V30.table N (.named n) j) : env m j := by
  obtain ⟨s, sch, P, hs, hm, hP, ha⟩ := plain_agree h
  obtain ⟨M, rfl⟩ := read_object hs ha.oneOf hc hcan
  rw [hE m sch hm, parse_iff hP]
  refine ⟨M, rfl, struct_sound hs ih hc ha.agree ha.min
    ((can_obj ranked30 hs ha.agree.exactlyOne ha.agree.lower).1 hcan), ?_⟩
  rw [ha.extra]
  intro e he
  cases he

theorem special_sound (hE : Meaning defs30 I env) {n : String} (h : n ∈ special30) {j : Any}
    (ih : SmallerS N I env j) (hc : SC N (.named n) j) (hcan : Can V30.table N (.named n) j) : env n j := by
  have hobj : ∀ {s : Struct}, GoMap.get? V30.table n = some (.struct s) → s.decodes = true → ∃ M, j = .obj M := by
    intro s hn hd
    rcases can_struct_obj ranked30 hn hd hcan with rfl | h'
    · rcases hc.regular.nulls _ (.self _ _) with h | h <;> cases h
    · exact h'
  simp only [special30, List.mem_cons, List.not_mem_nil, or_false] at h
  rcases h with rfl | rfl | rfl
  · have hs : GoMap.get? V30.table "Link" = some (.struct V30.sLink) := by kernel_rfl
    obtain ⟨M, rfl⟩ := hobj hs rfl
    obtain ⟨P, hP, hag, hex, hm⟩ : ∃ P, parse mLink = some P ∧ structAgree V30.table V30.sLink P = true ∧
        P.extra = [.not (.all [.required ["operationId", "operationRef"],
          .object [("operationId", .all []), ("operationRef", .all [])] [] none])] ∧
        P.props.all (fun q => !hasMin q.2) = true := ⟨_, rfl, by decide +kernel, rfl, by decide +kernel⟩
    have ha := (can_obj ranked30 hs rfl rfl).1 hcan
    rw [hE "Link" mLink (by simp [defs30]), parse_iff hP]
    refine ⟨M, rfl, struct_sound hs ih hc (agree_of_check hag) ?_ ha, ?_⟩
    · intro k t ht hmt
      have := List.all_eq_true.1 hm _ ht
      rw [hmt] at this
      cases this
    · rw [hex]
      intro e he
      simp only [List.mem_cons, List.not_mem_nil, or_false] at he
      rw [he, Ok]
      change ¬Ok I env (.all _) _
      rw [← link_not hc.floats]
      exact ha.nots _ (by decide)
  · have hs : GoMap.get? V30.table "HTTPSecurityScheme" = some (.struct V30.sHTTPSecurityScheme) := by kernel_rfl
    obtain ⟨M, rfl⟩ := hobj hs rfl
    obtain ⟨P, hP, hag, hex, hm⟩ : ∃ P, parse mHTTPSecurityScheme = some P ∧
        structAgree V30.table V30.sHTTPSecurityScheme P = true ∧ P.extra = [.oneOf [mBearer, mNonBearer]] ∧
        P.props.all (fun q => !hasMin q.2) = true := ⟨_, rfl, by decide +kernel, rfl, by decide +kernel⟩
    have ha := (can_obj ranked30 hs rfl rfl).1 hcan
    rw [hE "HTTPSecurityScheme" mHTTPSecurityScheme (by simp [defs30]), parse_iff hP]
    refine ⟨M, rfl, struct_sound hs ih hc (agree_of_check hag) ?_ ha, ?_⟩
    · intro k t ht hmt
      have := List.all_eq_true.1 hm _ ht
      rw [hmt] at this
      cases this
    · rw [hex]
      intro e he
      simp only [List.mem_cons, List.not_mem_nil, or_false] at he
      rw [he]
      exact http_sound hc.distinct.1 (ha.require "scheme" (by decide)) (ha.oneOf (by decide))
  · have hs : GoMap.get? V30.table "Parameter" = some (.struct V30.sParameter) := by kernel_rfl
    obtain ⟨M, rfl⟩ := hobj hs rfl
    obtain ⟨P, hP, hag, hex, hm⟩ : ∃ P, parse mParameter = some P ∧
        structAgree V30.table V30.sParameter P = true ∧
        P.extra = [.allOf [.skip "ExampleXORExamples", .ref "SchemaXORContent", .ref "ParameterLocation"]] ∧
        P.props.all (fun q => !hasMin q.2) = true := ⟨_, rfl, by decide +kernel, rfl, by decide +kernel⟩
    have ha := (can_obj ranked30 hs rfl rfl).1 hcan
    rw [hE "Parameter" mParameter (by simp [defs30]), parse_iff hP]
    refine ⟨M, rfl, struct_sound hs ih hc (agree_of_check hag) ?_ ha, ?_⟩
    · intro k t ht hmt
      have := List.all_eq_true.1 hm _ ht
      rw [hmt] at this
      cases this
    · rw [hex]
      intro e he
      simp only [List.mem_cons, List.not_mem_nil, or_false] at he
      rw [he, ok_allOf]
      intro e he
      simp only [List.mem_cons, List.not_mem_nil, or_false] at he
      rcases he with rfl | rfl | rfl
      · simp only [Ok]
      · simp only [Ok]
        exact (xor_iff hE hc.floats).1 (ha.embeds ⟨"SchemaXORContent", .ptr (.named "SchemaXORContent")⟩ (by decide))
      · simp only [Ok]
        refine location_sound hE (ha.require "in" (by decide)) hc.distinct.1 ?_
          (ha.embeds ⟨"Location", .ptr (.named "ParameterLocation")⟩ (by decide))
        intro hmem
        rcases hc.regular.nulls _ (.field hs (f := ⟨"Style", "style", .ptr .str, true⟩) (by decide) hmem (.self _ _)) with h | h <;>
          cases h

theorem union_sound (hE : Meaning defs30 I env) {n : String} (hn : n ∈ either30) {j : Any}
    (hsub : ∀ a m, ((a, m) ∈ pairs30 ∨ a = m ∧ (a ∈ special30 ∨ a = "SecurityScheme" ∧ n = "SecuritySchemeOrRef")) →
      SC N (.named a) j → Can V30.table N (.named a) j → env m j)
    (hc : SC N (.named n) j) (hcan : Can V30.table N (.named n) j) : env n j := by
  obtain ⟨s, ss, hs, hss, hU⟩ := union_agree hn
  rw [hE n _ (get?_mem hss), ok_all]
  intro e he
  simp only [List.mem_cons, List.not_mem_nil, or_false] at he
  rw [he]
  refine oneOf_sound hU.len ?_ (either_excl hE hn hs hss hU) ((can_union ranked30 hs hU.shape hU.ne).1 hcan)
  intro i o t ho ht hco
  obtain ⟨a, m, e, rfl, hrel⟩ := altAgree_some (hU.agree i o t ho ht)
  have hsc := sc_alternative hs (List.mem_of_getElem? ho) hc hco
  rw [e] at hsc hco
  simp only [Ok]
  refine hsub a m hrel (sc_ptr hsc) ?_
  rw [Can, decode_ptr ranked30 rfl] at hco
  cases j with
  | null => rcases hc.regular.nulls _ (.self _ _) with h | h <;> cases h
  | _ => exact hco

theorem either_sound (hE : Meaning defs30 I env) {n : String} (hn : n ∈ either30) {j : Any} (ih : SmallerS N I env j)
    (hc : SC N (.named n) j) (hcan : Can V30.table N (.named n) j) : env n j := by
  refine union_sound hE hn ?_ hc hcan
  rintro a m (h | ⟨rfl, h | ⟨rfl, rfl⟩⟩) hca hm
  · exact plain_sound hE h ih hca hm
  · exact special_sound hE h ih hca hm
  · refine union_sound hE (n := "SecurityScheme") (by decide) ?_ hca hm
    rintro a m (h | ⟨rfl, h | ⟨_, h⟩⟩) hca hm
    · exact plain_sound hE h ih hca hm
    · exact special_sound hE h ih hca hm
    · exact absurd h (by decide)

theorem named_sound (hE : Meaning defs30 I env) {n : String} {sch : Sch} (hrel : relOk V30.table n sch = true) {j : Any}
    (ih : SmallerS N I env j) (hc : SC N (.named n) j) (hcan : Can V30.table N (.named n) j) : Ok I env sch j := by
  have hrel0 := hrel
  have hnull : j ≠ .null := by
    rintro rfl
    rcases hc.regular.nulls _ (.self _ _) with h | h <;> cases h
  unfold relOk at hrel
  split at hrel
  · rename_i m
    simp only [Ok]
    simp only [Bool.or_eq_true, List.contains_iff_mem, Bool.and_eq_true, beq_iff_eq] at hrel
    rcases hrel with h | ⟨rfl, h | h⟩
    · exact plain_sound hE h ih hc hcan
    · exact special_sound hE h ih hc hcan
    · exact either_sound hE h ih hc hcan
  · rename_i a m
    simp only [Bool.and_eq_true, beq_iff_eq, List.contains_iff_mem] at hrel
    obtain ⟨rfl, h⟩ := hrel
    obtain ⟨s, hs, e1, e2, hm⟩ := comp_agree h
    obtain ⟨M, rfl⟩ := hc.regular.objects n s j (.self _ _) hs (by rw [e1]) (by rw [e1])
    have ha := (can_obj ranked30 hs (by rw [e1]) (by rw [e1])).1 hcan
    rw [parse_iff (P := ⟨[], [], [(.name, .ref m)], none, []⟩) rfl]
    refine ⟨M, rfl, ⟨?_, ?_, ?_, ?_⟩, ?_⟩
    · intro k hk; cases hk
    · intro k x _ t ht; cases ht
    · intro k x hx r t ht hr
      simp only [List.mem_cons, List.not_mem_nil, or_false, Prod.mk.injEq] at ht
      obtain ⟨rfl, rfl⟩ := ht
      obtain ⟨q, hq, hqe⟩ : ∃ q ∈ s.patterns, (q.pat, q.ty) = (Pat.name, Ty.named m) := by
        have : (Pat.name, Ty.named m) ∈ s.patterns.map (fun q => (q.pat, q.ty)) := by rw [e2]; simp
        exact List.mem_map.1 this
      simp only [Prod.mk.injEq] at hqe
      have hk : q.pat.matches k = true := by rw [hqe.1]; exact matches_iff.2 hr
      have hsc := sc_pattern hs hq hc hk hx
      have hcx := ha.patterns q hq k x (by rw [lastWins_nodup hc.distinct.1]; exact hx) (by rw [e1]; rfl) hk
      rw [hqe.2] at hsc hcx
      refine ih x (size_member hx) _ (.ref m) ?_ hsc hcx
      simp only [tyAgree, relOk, Bool.or_eq_true, Bool.and_eq_true, beq_iff_eq, List.contains_iff_mem]
      exact .inr ⟨trivial, .inr hm⟩
    · intro k x _ _ _ t ht; cases ht
    · intro e he; cases he
  · rename_i a b
    simp only [Bool.and_eq_true, beq_iff_eq] at hrel
    obtain ⟨⟨rfl, rfl⟩, rfl⟩ := hrel
    rw [ok_all]
    intro e he
    simp only [List.mem_cons, List.not_mem_nil, or_false] at he
    rw [he]
    have hs : GoMap.get? V30.table "SchemaAdditionalProperties" = some (.struct V30.sSchemaAdditionalProperties) := by
      kernel_rfl
    refine oneOf_sound rfl ?_ (additional_excl hE) ((can_union ranked30 hs rfl (by decide)).1 hcan)
    intro i o t ho ht hco
    have hsc := sc_alternative hs (List.mem_of_getElem? ho) hc hco
    match i with
    | 0 =>
      cases ho
      cases ht
      simp only [Ok]
      refine either_sound hE (by decide) ih (sc_ptr hsc) ?_
      simp only [Can, decode_ptr ranked30 (t := .named "SchemaOrRef") rfl] at hco
      cases j with
      | null => exact absurd rfl hnull
      | _ => exact hco
    | 1 =>
      cases ho
      cases ht
      rw [ok_boolean]
      simp only [Can, decode_ptr ranked30 (t := .bool) rfl, decode_bool] at hco
      cases j with
      | null => exact absurd rfl hnull
      | bool b => exact ⟨b, rfl⟩
      | _ => cases hco
    | i + 2 => cases ho
  · rename_i a vs
    split at hrel
    · rename_i ws hn
      exact (enum_iff hn hrel0).1 hcan
    · simp at hrel
  · rename_i vs
    split at hrel
    · rename_i ws hn
      exact (enum_iff hn hrel0).1 hcan
    · cases hrel
  · cases hrel

theorem ok_array_of {s : Sch} {rest : List Sch} {xs : List Any} (h : ∀ x ∈ xs, Ok I env s x)
    (hr : rest.all isSkip = true) : Ok I env (.all (.type "array" :: .items s :: rest)) (.arr xs) := by
  rw [ok_all]
  simp only [List.mem_cons, forall_eq_or_imp]
  refine ⟨rfl, ?_, ok_skips hr _⟩
  rw [ok_items]
  rintro ys hys
  cases hys
  exact h

theorem ok_map_of {s : Sch} {rest : List Sch} {ms : List (String × Any)} (h : ∀ k x, (k, x) ∈ ms → Ok I env s x)
    (hr : rest.all isSkip = true) :
    Ok I env (.all (.type "object" :: .object [] [] (some s) :: rest)) (.obj ms) := by
  rw [ok_all]
  simp only [List.mem_cons, forall_eq_or_imp]
  refine ⟨rfl, ?_, ok_skips hr _⟩
  rw [ok_object]
  rintro ms' hms
  cases hms
  intro k x hx
  refine ⟨?_, ?_, ?_⟩
  · intro t ht; cases ht
  · intro r t ht; cases ht
  · intro _ _ t ht
    cases ht
    exact h k x hx

theorem ok_leaf {a : String} {rest : List Sch} {j : Any} (h : TypeIs I a j) (hr : rest.all isSkip = true) :
    Ok I env (.all (.type a :: rest)) j := by
  rw [ok_all]
  simp only [List.mem_cons, forall_eq_or_imp]
  exact ⟨by simpa only [Ok] using h, ok_skips hr _⟩

theorem type_sound (hE : Meaning defs30 I env) (hI : ∀ l, N.i64 l ≠ none → I l) {j : Any} (ih : SmallerS N I env j) :
    ∀ (ty : Ty) (sch : Sch), tyAgree V30.table ty sch = true → SC N ty j → Can V30.table N ty j → Ok I env sch j := by
  intro ty
  have hnull : ∀ {ty}, SC N ty j → ty ≠ .any → ty ≠ .ptr .any → j ≠ .null := by
    rintro ty hc h1 h2 rfl
    rcases hc.regular.nulls _ (.self _ _) with h | h
    · exact h1 h
    · exact h2 h
  induction ty with
  | any =>
    intro sch h hc _
    unfold tyAgree at h
    split at h <;> try contradiction
    rename_i ks _
    rw [ok_all]
    exact ok_skips h _
  | bool =>
    intro sch h hc hcan
    unfold tyAgree at h
    split at h <;> try contradiction
    rename_i a rest _
    simp only [Bool.and_eq_true, beq_iff_eq] at h
    obtain ⟨rfl, hr⟩ := h
    have := hnull hc (by simp) (by simp)
    refine ok_leaf ?_ hr
    rw [Can, decode_bool] at hcan
    cases j <;> first | rfl | (exact absurd rfl this) | cases hcan
  | str =>
    intro sch h hc hcan
    unfold tyAgree at h
    split at h <;> try contradiction
    rename_i a rest _
    simp only [Bool.and_eq_true, beq_iff_eq] at h
    obtain ⟨rfl, hr⟩ := h
    have := hnull hc (by simp) (by simp)
    refine ok_leaf ?_ hr
    rw [Can, decode_str] at hcan
    cases j <;> first | rfl | (exact absurd rfl this) | cases hcan
  | int =>
    intro sch h hc hcan
    unfold tyAgree at h
    split at h <;> try contradiction
    rename_i a rest _
    simp only [Bool.and_eq_true, beq_iff_eq] at h
    obtain ⟨rfl, hr⟩ := h
    have := hnull hc (by simp) (by simp)
    refine ok_leaf ?_ hr
    rw [Can, decode_int] at hcan
    cases j with
    | num l =>
      simp only [Option.isSome_map] at hcan
      exact .inr ⟨rfl, hI l (Option.isSome_iff_ne_none.1 hcan)⟩
    | null => exact absurd rfl this
    | _ => cases hcan
  | float =>
    intro sch h hc hcan
    unfold tyAgree at h
    split at h <;> try contradiction
    rename_i a rest _
    simp only [Bool.and_eq_true, beq_iff_eq] at h
    obtain ⟨rfl, hr⟩ := h
    have := hnull hc (by simp) (by simp)
    refine ok_leaf ?_ hr
    rw [Can, decode_float] at hcan
    cases j with
    | num l => exact .inl rfl
    | null => exact absurd rfl this
    | _ => cases hcan
  | named n =>
    intro sch h hc hcan
    rw [tyAgree] at h
    exact named_sound hE h ih hc hcan
  | ptr t iht =>
    intro sch h hc hcan
    simp only [tyAgree, Bool.and_eq_true] at h
    by_cases ht : t = .any
    · subst ht
      have h := h.2
      unfold tyAgree at h
      split at h <;> try contradiction
      rename_i ks _
      rw [ok_all]
      exact ok_skips h _
    · refine iht sch h.2 (sc_ptr hc) ?_
      have := hnull hc (by simp) (by simpa using ht)
      rw [Can, decode_ptr ranked30 h.1] at hcan
      cases j <;> first | (exact absurd rfl this) | exact hcan
  | slice t iht =>
    intro sch h hc hcan
    obtain ⟨s, rest, rfl, h1, h2⟩ := tyAgree_slice h
    have := hnull hc (by simp) (by simp)
    cases j with
    | arr xs =>
      rw [can_slice] at hcan
      exact ok_array_of (fun x hx => ih x (size_elem hx) t s h1 (sc_elem hc hx) (hcan x hx)) h2
    | null => exact absurd rfl this
    | _ => rw [Can, decode_slice] at hcan; cases hcan
  | map t iht =>
    intro sch h hc hcan
    have hnn := hnull hc (by simp) (by simp)
    have hobj : ∃ ms, j = .obj ms := by
      cases j with
      | obj ms => exact ⟨ms, rfl⟩
      | null => exact absurd rfl hnn
      | _ => rw [Can, decode_map] at hcan; cases hcan
    obtain ⟨ms, rfl⟩ := hobj
    rw [can_map] at hcan
    rcases tyAgree_map h with ⟨rfl, rfl⟩ | ⟨s, rest, rfl, h1, h2⟩
    · rw [Ok, hE "SecurityRequirement" mSecurityRequirement (by simp [defs30])]
      exact ok_map_of (fun k x hx => ih x (size_member hx) (.slice .str) _ (by decide) (sc_entry hc hx) (hcan k x hx)) rfl
    · exact ok_map_of (fun k x hx => ih x (size_member hx) t s h1 (sc_entry hc hx) (hcan k x hx)) h2

/-- What can be read is accepted. -/
theorem sound30 (hE : Meaning defs30 I env) (hI : ∀ l, N.i64 l ≠ none → I l) : ∀ (c : Nat) (j : Any), sizeOf j ≤ c →
    ∀ (ty : Ty) (sch : Sch), tyAgree V30.table ty sch = true → SC N ty j → Can V30.table N ty j → Ok I env sch j := by
  intro c
  induction c with
  | zero =>
    intro j hj
    cases j <;> simp at hj
  | succ c ih =>
    intro j hj
    exact type_sound hE hI (fun x hx => ih x (by omega))

end Verif.Meta
