import Verif.Lemmas.MetaExcl30

/-! What the meta-schema of 3.0 accepts can be read. -/

namespace Verif.Meta
open Codec Spec

variable {N : Nums} {I : String → Prop} {env : String → Any → Prop}

/-- What is assumed of a value that is to be read. -/
structure CC (N : Nums) (I : String → Prop) (ty : Ty) (j : Any) : Prop where
  disc : DiscriminatorKeys V30.table ty j
  floats : Floats N j
  ints : ∀ l ∈ literals j, I l → N.i64 l ≠ none

theorem cc_ptr {t : Ty} {j : Any} (h : CC N I (.ptr t) j) : CC N I t j :=
  ⟨fun ms hr => h.disc ms (.ptr hr), h.floats, h.ints⟩

theorem cc_elem {t : Ty} {xs : List Any} {x : Any} (h : CC N I (.slice t) (.arr xs)) (hx : x ∈ xs) : CC N I t x :=
  ⟨fun ms hr => h.disc ms (.elem hx hr), fun l hl => h.floats l (literals_elem hx l hl),
    fun l hl => h.ints l (literals_elem hx l hl)⟩

theorem cc_entry {t : Ty} {ms : List (String × Any)} {k : String} {x : Any} (h : CC N I (.map t) (.obj ms))
    (hx : (k, x) ∈ ms) : CC N I t x :=
  ⟨fun ms hr => h.disc ms (.entry hx hr), fun l hl => h.floats l (literals_member hx l hl),
    fun l hl => h.ints l (literals_member hx l hl)⟩

theorem cc_field {n : String} {s : Struct} (hn : GoMap.get? V30.table n = some (.struct s)) {f : Field} (hf : f ∈ s.fields)
    {ms : List (String × Any)} {x : Any} (h : CC N I (.named n) (.obj ms)) (hx : (f.key, x) ∈ ms) : CC N I f.ty x :=
  ⟨fun ms hr => h.disc ms (.field hn hf hx hr), fun l hl => h.floats l (literals_member hx l hl),
    fun l hl => h.ints l (literals_member hx l hl)⟩

theorem cc_pattern {n : String} {s : Struct} (hn : GoMap.get? V30.table n = some (.struct s)) {q : PatField}
    (hq : q ∈ s.patterns) {ms : List (String × Any)} {k : String} {x : Any} (h : CC N I (.named n) (.obj ms))
    (hk : q.pat.matches k = true) (hx : (k, x) ∈ ms) : CC N I q.ty x :=
  ⟨fun ms hr => h.disc ms (.pattern hn hq hk hx hr), fun l hl => h.floats l (literals_member hx l hl),
    fun l hl => h.ints l (literals_member hx l hl)⟩

theorem cc_additional {n : String} {s : Struct} (hn : GoMap.get? V30.table n = some (.struct s)) {a : Hidden}
    (ha : s.additional = some a) {ms : List (String × Any)} {k : String} {x : Any} (h : CC N I (.named n) (.obj ms))
    (hk : ∀ q ∈ s.patterns, q.pat.matches k = false) (hx : (k, x) ∈ ms) : CC N I a.ty x :=
  ⟨fun ms hr => h.disc ms (.additional hn ha hk hx hr), fun l hl => h.floats l (literals_member hx l hl),
    fun l hl => h.ints l (literals_member hx l hl)⟩

theorem cc_alternative {n : String} {s : Struct} (hn : GoMap.get? V30.table n = some (.struct s)) {o : Hidden}
    (ho : o ∈ s.oneOf) {j : Any} (h : CC N I (.named n) j) : CC N I o.ty j :=
  ⟨fun ms hr => h.disc ms (.alternative hn ho trivial hr), h.floats, h.ints⟩

theorem size_member {ms : List (String × Any)} {k : String} {x : Any} (h : (k, x) ∈ ms) :
    sizeOf x < sizeOf (Any.obj ms) := by
  have := List.sizeOf_lt_of_mem h
  simp only [Any.obj.sizeOf_spec, Prod.mk.sizeOf_spec] at *
  omega

theorem size_elem {xs : List Any} {x : Any} (h : x ∈ xs) : sizeOf x < sizeOf (Any.arr xs) := by
  have := List.sizeOf_lt_of_mem h
  simp only [Any.arr.sizeOf_spec] at *
  omega

/-- Smaller values that are accepted can be read. -/
abbrev SmallerC (N : Nums) (I : String → Prop) (env : String → Any → Prop) (j : Any) : Prop :=
  ∀ x, sizeOf x < sizeOf j → ∀ ty sch, tyAgree V30.table ty sch = true → CC N I ty x → Ok I env sch x →
    Can V30.table N ty x

theorem struct_complete {n : String} {s : Struct} (hn : GoMap.get? V30.table n = some (.struct s)) {P : Parsed}
    {M : List (String × Any)} (ih : SmallerC N I env (.obj M)) (hc : CC N I (.named n) (.obj M)) (ha : Agree V30.table s P)
    (H : P.Holds I env M) (hnots : ∀ t ∈ s.nots, ¬Can V30.table N t (.obj M))
    (he : ∀ e ∈ s.embeds, Can V30.table N e.ty (.obj M))
    (ho : s.oneOf ≠ [] → (s.oneOf.filter (fun e => (decode V30.table N e.ty (.obj M)).isSome)).length = 1)
    (hopen : n = "Discriminator" ∨ s.strict = true ∨ s.additional.isSome = true) :
    Can V30.table N (.named n) (.obj M) := by
  refine (can_obj ranked30 hn ha.exactlyOne ha.lower).2 (accepts_of_holds ha H hnots he ho ?_ ?_ ?_ ?_)
  · intro h1 h2 k hk f hf
    rcases hopen with rfl | h | h
    · obtain ⟨p, hp, rfl⟩ := List.mem_map.1 hk
      have e : s = V30.sDiscriminator := by
        have : GoMap.get? V30.table "Discriminator" = some (.struct V30.sDiscriminator) := by kernel_rfl
        rw [this] at hn
        exact (Desc.struct.inj (Option.some.inj hn)).symm
      obtain ⟨hfm, hfold⟩ := fieldOf_mem' hf
      have hkeys : ∀ f ∈ s.fields, f.key ∈ ["propertyName", "mapping"] := by
        rw [e]
        decide
      have := hc.disc M (.self _ _) p.1 p.2 hp ⟨f.key, hkeys f hfm, hfold⟩
      have hown : ∀ k ∈ ["propertyName", "mapping"], ∃ g ∈ s.fields, g.key = k := by
        rw [e]
        decide
      obtain ⟨g, hg, e'⟩ := hown _ this
      rw [← e', ha.base.own g hg] at hf
      cases hf
      exact e'.symm
    · rw [h2] at h
      cases h
    · rw [h1] at h
      cases h
  · intro f hf x hx sch hag hok
    exact ih x (size_member hx) f.ty sch hag (cc_field hn hf hc hx) hok
  · intro q hq k x hk hx sch hag hok
    exact ih x (size_member hx) q.ty sch hag (cc_pattern hn hq hc hk hx) hok
  · intro a ha k x hk hx sch hag hok
    exact ih x (size_member hx) a.ty sch hag (cc_additional hn ha hc hk hx) hok

theorem plain_complete (hE : Meaning defs30 I env) {n m : String} (h : (n, m) ∈ pairs30) {j : Any}
    (ih : SmallerC N I env j) (hc : CC N I (.named n) j) (hok : env m j) : Can V30.table N (.named n) j := by
  obtain ⟨s, sch, P, hs, hm, hP, ha⟩ := plain_agree h
  obtain ⟨M, rfl, H, _⟩ := (parse_iff hP).1 ((hE m sch hm j).1 hok)
  refine struct_complete hs ih hc ha.agree H ?_ ?_ ?_ ha.opened
  · rw [ha.nots]; intro t ht; cases ht
  · rw [ha.embeds]; intro t ht; cases ht
  · rw [ha.oneOf]; intro h; exact absurd rfl h

/-- The keys that a closed schema allows. -/
theorem closed_keys {P : Parsed} (h1 : P.addl = some .never) (h2 : ∀ r t, (r, t) ∈ P.pats → r = .x)
    {M : List (String × Any)} (H : P.Holds I env M) {k : String} (hk : k ∈ M.map Prod.fst) :
    (∃ t, (k, t) ∈ P.props) ∨ Pat.x.matches k = true := by
  apply Classical.byContradiction
  intro hn
  rw [not_or] at hn
  obtain ⟨p, hp, rfl⟩ := List.mem_map.1 hk
  have := H.addl p.1 p.2 hp (fun t ht => hn.1 ⟨t, ht⟩) ?_ _ h1
  · simp only [Ok] at this
  · intro r t hr hrk
    have e := h2 r t hr
    subst e
    exact hn.2 ((matches_iff (p := .x)).2 hrk)

theorem special_complete (hE : Meaning defs30 I env) {n : String} (h : n ∈ special30) {j : Any}
    (ih : SmallerC N I env j) (hc : CC N I (.named n) j) (hok : env n j) : Can V30.table N (.named n) j := by
  simp only [special30, List.mem_cons, List.not_mem_nil, or_false] at h
  rcases h with rfl | rfl | rfl
  · rw [hE "Link" mLink (by simp [defs30])] at hok
    obtain ⟨P, hP, hag, hex⟩ : ∃ P, parse mLink = some P ∧ structAgree V30.table V30.sLink P = true ∧
        P.extra = [.not (.all [.required ["operationId", "operationRef"],
          .object [("operationId", .all []), ("operationRef", .all [])] [] none])] := ⟨_, rfl, by decide +kernel, rfl⟩
    obtain ⟨M, rfl, H, he⟩ := (parse_iff hP).1 hok
    refine struct_complete (s := V30.sLink) (by kernel_rfl) ih hc (agree_of_check hag) H ?_ ?_ ?_ (.inr (.inl rfl))
    · intro t ht
      simp only [V30.sLink, List.mem_cons, List.not_mem_nil, or_false] at ht
      rw [ht, link_not (I := I) (env := env) hc.floats]
      have := he _ (by rw [hex]; exact List.mem_cons_self)
      rw [Ok] at this
      exact this
    · intro t ht; cases ht
    · intro h; exact absurd rfl h
  · rw [hE "HTTPSecurityScheme" mHTTPSecurityScheme (by simp [defs30])] at hok
    obtain ⟨P, hP, hag, hex, hreq⟩ : ∃ P, parse mHTTPSecurityScheme = some P ∧
        structAgree V30.table V30.sHTTPSecurityScheme P = true ∧ P.extra = [.oneOf [mBearer, mNonBearer]] ∧
        "scheme" ∈ P.req := ⟨_, rfl, by decide +kernel, rfl, by decide⟩
    obtain ⟨M, rfl, H, he⟩ := (parse_iff hP).1 hok
    refine struct_complete (s := V30.sHTTPSecurityScheme) (by kernel_rfl) ih hc (agree_of_check hag) H ?_ ?_ ?_
      (.inr (.inl rfl))
    · intro t ht; cases ht
    · intro t ht; cases ht
    · intro _
      exact http_complete (H.req _ hreq) (he _ (by rw [hex]; exact List.mem_cons_self))
  · rw [hE "Parameter" mParameter (by simp [defs30])] at hok
    obtain ⟨P, hP, hag, hex, hreq, hnever, hpats, hkeys⟩ : ∃ P, parse mParameter = some P ∧
        structAgree V30.table V30.sParameter P = true ∧
        P.extra = [.allOf [.skip "ExampleXORExamples", .ref "SchemaXORContent", .ref "ParameterLocation"]] ∧
        "in" ∈ P.req ∧ P.addl = some .never ∧ P.pats.map Prod.fst = [.x] ∧
        P.props.map Prod.fst = ["name", "in", "description", "required", "deprecated", "allowEmptyValue", "style",
          "explode", "allowReserved", "schema", "content", "example", "examples"] :=
      ⟨_, rfl, by decide +kernel, rfl, by decide, rfl, rfl, rfl⟩
    obtain ⟨M, rfl, H, he⟩ := (parse_iff hP).1 hok
    have he := he _ (by rw [hex]; exact List.mem_cons_self)
    rw [ok_allOf] at he
    refine struct_complete (s := V30.sParameter) (by kernel_rfl) ih hc (agree_of_check hag) H ?_ ?_ ?_ (.inr (.inl rfl))
    · intro t ht; cases ht
    · intro e hee
      simp only [V30.sParameter, List.mem_cons, List.not_mem_nil, or_false] at hee
      rcases hee with rfl | rfl
      · refine (xor_iff hE hc.floats).2 ?_
        have := he (.ref "SchemaXORContent") (by simp)
        simpa only [Ok] using this
      · refine location_complete hE (H.req _ hreq) ?_ ?_
        · intro k hk hf
          have hxs : ∀ r t, (r, t) ∈ P.pats → r = .x := by
            intro r t hr
            have hr' : r ∈ P.pats.map Prod.fst := List.mem_map.2 ⟨_, hr, rfl⟩
            rw [hpats] at hr'
            simpa using hr'
          rcases closed_keys hnever hxs H hk with ⟨t, ht⟩ | hx
          · have hkm : k ∈ P.props.map Prod.fst := List.mem_map.2 ⟨_, ht, rfl⟩
            rw [hkeys] at hkm
            have hall : ∀ k ∈ ["name", "in", "description", "required", "deprecated", "allowEmptyValue", "style",
                "explode", "allowReserved", "schema", "content", "example", "examples"],
                foldKey k = foldKey "style" → k = "style" := by decide +kernel
            exact hall k hkm hf
          · exact absurd hf.symm (keyFree_sound (p := .x) (by decide +kernel) hx)
        · have := he (.ref "ParameterLocation") (by simp)
          simpa only [Ok] using this
    · intro h; exact absurd rfl h

theorem union_complete (hE : Meaning defs30 I env) {n : String} (hn : n ∈ either30) {j : Any}
    (hsub : ∀ a m, ((a, m) ∈ pairs30 ∨ a = m ∧ (a ∈ special30 ∨ a = "SecurityScheme" ∧ n = "SecuritySchemeOrRef")) →
      CC N I (.named a) j → env m j → Can V30.table N (.named a) j)
    (hc : CC N I (.named n) j) (hok : env n j) : Can V30.table N (.named n) j := by
  obtain ⟨s, ss, hs, hss, hU⟩ := union_agree hn
  rw [hE n _ (get?_mem hss), ok_all] at hok
  have hok := hok _ List.mem_cons_self
  refine (can_union ranked30 hs hU.shape hU.ne).2 (oneOf_complete hU.len ?_ (either_excl hE hn hs hss hU) hok)
  intro i o t ho ht hok
  obtain ⟨a, m, e, rfl, hrel⟩ := altAgree_some (hU.agree i o t ho ht)
  have hcc := cc_alternative hs (List.mem_of_getElem? ho) hc
  rw [e] at hcc ⊢
  exact can_ptr_of ranked30 rfl (hsub a m hrel (cc_ptr hcc) (by simpa only [Ok] using hok))

theorem either_complete (hE : Meaning defs30 I env) {n : String} (hn : n ∈ either30) {j : Any} (ih : SmallerC N I env j)
    (hc : CC N I (.named n) j) (hok : env n j) : Can V30.table N (.named n) j := by
  refine union_complete hE hn ?_ hc hok
  rintro a m (h | ⟨rfl, h | ⟨rfl, rfl⟩⟩) hca hm
  · exact plain_complete hE h ih hca hm
  · exact special_complete hE h ih hca hm
  · refine union_complete hE (n := "SecurityScheme") (by decide) ?_ hca hm
    rintro a m (h | ⟨rfl, h | ⟨_, h⟩⟩) hca hm
    · exact plain_complete hE h ih hca hm
    · exact special_complete hE h ih hca hm
    · exact absurd h (by decide)

theorem not_can_object {n : String} (hn : n = "SchemaOrRef") {b : Bool} :
    ¬Can V30.table N (.named n) (.bool b) := by
  subst hn
  rw [can_union ranked30 (s := V30.sSchemaOrRef) (by kernel_rfl) rfl (by decide), filter_one]
  rintro ⟨i, ⟨o, ho, h⟩, _⟩
  have ho := List.mem_of_getElem? ho
  have key : ∀ n s, GoMap.get? V30.table n = some (.struct s) → s.decodes = true →
      ¬(decode V30.table N (.ptr (.named n)) (.bool b)).isSome = true := by
    intro n s hn hs h
    rw [decode_ptr ranked30 rfl] at h
    rcases can_struct_obj ranked30 hn hs h with h | ⟨_, h⟩ <;> cases h
  simp only [V30.sSchemaOrRef, List.mem_cons, List.not_mem_nil, or_false] at ho
  rcases ho with rfl | rfl
  · exact key "Schema" V30.sSchema (by kernel_rfl) rfl h
  · exact key "SchemaReference" V30.sSchemaReference (by kernel_rfl) rfl h

theorem either_object (hE : Meaning defs30 I env) {j : Any} (h : env "SchemaOrRef" j) : ∃ M, j = .obj M := by
  rw [hE "SchemaOrRef" mSchemaOrRef (by simp [defs30]), mSchemaOrRef, ok_all] at h
  have h := h _ List.mem_cons_self
  rw [ok_oneOf] at h
  obtain ⟨i, ⟨s, hs, h⟩, _⟩ := h
  have hs := List.mem_of_getElem? hs
  simp only [List.mem_cons, List.not_mem_nil, or_false] at hs
  rcases hs with rfl | rfl
  · simp only [Ok] at h
    rw [hE "Schema" mSchema (by simp [defs30])] at h
    obtain ⟨P, hP⟩ : ∃ P, parse mSchema = some P := ⟨_, rfl⟩
    obtain ⟨M, rfl, _⟩ := (parse_iff hP).1 h
    exact ⟨M, rfl⟩
  · simp only [Ok] at h
    rw [hE "SchemaReference" mSchemaReference (by simp [defs30])] at h
    obtain ⟨P, hP⟩ : ∃ P, parse mSchemaReference = some P := ⟨_, rfl⟩
    obtain ⟨M, rfl, _⟩ := (parse_iff hP).1 h
    exact ⟨M, rfl⟩

theorem ok_boolean {j : Any} : Ok I env (.all [.type "boolean"]) j ↔ ∃ b, j = .bool b := by
  rw [ok_all]
  simp only [List.mem_cons, List.not_mem_nil, or_false, forall_eq]
  cases j <;> simp [Ok, TypeIs]

theorem additional_excl (hE : Meaning defs30 I env) {j : Any} (i k : Nat) (o : Hidden) (t : Sch) (hik : i ≠ k)
    (ho : V30.sSchemaAdditionalProperties.oneOf[i]? = some o)
    (ht : [Sch.ref "SchemaOrRef", .all [.type "boolean"]][k]? = some t) (hc : Can V30.table N o.ty j) :
    ¬Ok I env t j := by
  have hi : i < 2 := (List.getElem?_eq_some_iff.1 ho).1
  have hk : k < 2 := (List.getElem?_eq_some_iff.1 ht).1
  have key : (i = 0 ∧ k = 1) ∨ (i = 1 ∧ k = 0) := by omega
  rcases key with ⟨rfl, rfl⟩ | ⟨rfl, rfl⟩
  · cases ho
    cases ht
    rw [ok_boolean]
    rintro ⟨b, rfl⟩
    simp only [Can, decode_ptr ranked30 (t := .named "SchemaOrRef") rfl] at hc
    exact not_can_object rfl hc
  · cases ho
    cases ht
    simp only [Ok]
    intro h
    obtain ⟨M, rfl⟩ := either_object hE h
    simp only [Can, decode_ptr ranked30 (t := .bool) rfl, decode_bool] at hc
    cases hc

/-- The patterns of the parts of components. -/
theorem comps30_agree : comps30.all (fun p => match structOf p.1 with
    | some s => decide (s = { patterns := s.patterns, parts := s.parts }) &&
        s.patterns.map (fun q => (q.pat, q.ty)) == [(.name, .named p.2)] && either30.contains p.2
    | none => false) = true := by decide +kernel

theorem comp_agree {n m : String} (h : (n, m) ∈ comps30) : ∃ s, GoMap.get? V30.table n = some (.struct s) ∧
    s = { patterns := s.patterns, parts := s.parts } ∧ s.patterns.map (fun q => (q.pat, q.ty)) = [(.name, .named m)] ∧
    m ∈ either30 := by
  have := List.all_eq_true.1 comps30_agree _ h
  simp only at this
  split at this
  · rename_i s hs
    simp only [Bool.and_eq_true, decide_eq_true_eq, beq_iff_eq, List.contains_iff_mem] at this
    exact ⟨s, structOf_some.1 hs, this.1.1, this.1.2, this.2⟩
  · cases this

theorem named_complete (hE : Meaning defs30 I env) {n : String} {sch : Sch} (hrel : relOk V30.table n sch = true) {j : Any}
    (ih : SmallerC N I env j) (hc : CC N I (.named n) j) (hok : Ok I env sch j) : Can V30.table N (.named n) j := by
  have hrel0 := hrel
  unfold relOk at hrel
  split at hrel
  · rename_i m
    simp only [Ok] at hok
    simp only [Bool.or_eq_true, List.contains_iff_mem, Bool.and_eq_true, beq_iff_eq] at hrel
    rcases hrel with h | ⟨rfl, h | h⟩
    · exact plain_complete hE h ih hc hok
    · exact special_complete hE h ih hc hok
    · exact either_complete hE h ih hc hok
  · rename_i a m
    simp only [Bool.and_eq_true, beq_iff_eq, List.contains_iff_mem] at hrel
    obtain ⟨rfl, h⟩ := hrel
    obtain ⟨s, hs, e1, e2, hm⟩ := comp_agree h
    obtain ⟨M, rfl, H, _⟩ := (parse_iff (P := ⟨[], [], [(.name, .ref m)], none, []⟩) rfl).1 hok
    refine (can_obj ranked30 hs (by rw [e1]) (by rw [e1])).2 ⟨?_, ?_, ?_, ?_, ?_, ?_, ?_, ?_, ?_, ?_, ?_⟩
    · rw [e1]; intro t ht; cases ht
    · rw [e1]; intro h; cases h
    · rw [e1]; intro t ht; cases ht
    · rw [e1]; intro h; exact absurd rfl h
    · rw [e1]; intro k hk; cases hk
    · rw [e1]; intro k c hc; cases hc
    · rw [e1]; intro k c hc; cases hc
    · rw [e1]; intro k hk; cases hk
    · intro q hq k x hx _ hk
      have hx := mem_lastWins hx
      have hq' : (q.pat, q.ty) ∈ s.patterns.map (fun q => (q.pat, q.ty)) := List.mem_map.2 ⟨q, hq, rfl⟩
      rw [e2] at hq'
      simp only [List.mem_cons, List.not_mem_nil, or_false, Prod.mk.injEq] at hq'
      have := cc_pattern hs hq hc hk hx
      rw [hq'.1] at hk
      rw [hq'.2] at this ⊢
      refine ih x (size_member hx) _ (.ref m) ?_ this (H.pats k x hx .name _ (by simp) (matches_iff.1 hk))
      simp only [tyAgree, relOk, Bool.or_eq_true, Bool.and_eq_true, beq_iff_eq, List.contains_iff_mem]
      exact .inr ⟨trivial, .inr hm⟩
    · rw [e1]; intro a ha; cases ha
    · rw [e1]; intro _ h; cases h
  · rename_i a b
    simp only [Bool.and_eq_true, beq_iff_eq] at hrel
    obtain ⟨⟨rfl, rfl⟩, rfl⟩ := hrel
    rw [ok_all] at hok
    have hok := hok _ List.mem_cons_self
    have hs : GoMap.get? V30.table "SchemaAdditionalProperties" = some (.struct V30.sSchemaAdditionalProperties) := by
      kernel_rfl
    refine (can_union ranked30 hs rfl (by decide)).2 (oneOf_complete rfl ?_ (additional_excl hE) hok)
    intro i o t ho ht hok
    match i with
    | 0 =>
      have hcc := cc_alternative hs (List.mem_of_getElem? ho) hc
      cases ho
      cases ht
      simp only [Ok] at hok
      exact can_ptr_of ranked30 rfl (either_complete hE (by decide) ih (cc_ptr hcc) hok)
    | 1 =>
      cases ho
      cases ht
      obtain ⟨b, rfl⟩ := ok_boolean.1 hok
      rfl
    | i + 2 => cases ho
  · rename_i a vs
    split at hrel
    · rename_i ws hn
      exact (enum_iff hn hrel0).2 hok
    · simp at hrel
  · rename_i vs
    split at hrel
    · rename_i ws hn
      exact (enum_iff hn hrel0).2 hok
    · cases hrel
  · cases hrel

theorem ok_array {s : Sch} {rest : List Sch} {j : Any} (h : Ok I env (.all (.type "array" :: .items s :: rest)) j) :
    ∃ xs, j = .arr xs ∧ ∀ x ∈ xs, Ok I env s x := by
  rw [ok_all] at h
  have h1 := h (.type "array") (by simp)
  have h2 := h (.items s) (by simp)
  cases j <;> simp [Ok, TypeIs] at h1
  rename_i xs
  rw [ok_items] at h2
  exact ⟨xs, rfl, h2 xs rfl⟩

theorem ok_map {s : Sch} {rest : List Sch} {j : Any} (h : Ok I env (.all (.type "object" :: .object [] [] (some s) :: rest)) j) :
    ∃ ms, j = .obj ms ∧ ∀ k x, (k, x) ∈ ms → Ok I env s x := by
  rw [ok_all] at h
  have h1 := h (.type "object") (by simp)
  have h2 := h (.object [] [] (some s)) (by simp)
  cases j <;> simp [Ok, TypeIs] at h1
  rename_i ms
  rw [ok_object] at h2
  exact ⟨ms, rfl, fun k x hx => (h2 ms rfl k x hx).2.2 (by simp) (by simp) s rfl⟩

theorem can_slice {T : Table} {t : Ty} {xs : List Any} : Can T N (.slice t) (.arr xs) ↔ ∀ x ∈ xs, Can T N t x := by
  rw [Can, decode_slice]
  simp only [Option.isSome_map, mapAll_isSome]

theorem can_map {T : Table} {t : Ty} {ms : List (String × Any)} :
    Can T N (.map t) (.obj ms) ↔ ∀ k x, (k, x) ∈ ms → Can T N t x := by
  rw [Can, decode_map]
  simp only [Option.isSome_map, mapAll_isSome]
  exact ⟨fun h k x hx => h (k, x) hx, fun h p hp => h p.1 p.2 hp⟩

theorem tyAgree_slice {T : Table} {t : Ty} {sch : Sch} (h : tyAgree T (.slice t) sch = true) :
    ∃ s rest, sch = .all (.type "array" :: .items s :: rest) ∧ tyAgree T t s = true ∧ rest.all isSkip = true := by
  unfold tyAgree at h
  split at h <;> try contradiction
  rename_i t' a s rest e
  cases e
  simp only [Bool.and_eq_true, beq_iff_eq] at h
  obtain ⟨⟨rfl, h1⟩, h2⟩ := h
  exact ⟨s, rest, rfl, h1, h2⟩

theorem tyAgree_map {T : Table} {t : Ty} {sch : Sch} (h : tyAgree T (.map t) sch = true) :
    t = .slice .str ∧ sch = .ref "SecurityRequirement" ∨
    ∃ s rest, sch = .all (.type "object" :: .object [] [] (some s) :: rest) ∧ tyAgree T t s = true ∧
      rest.all isSkip = true := by
  unfold tyAgree at h
  split at h <;> try contradiction
  · rename_i t' m e
    cases e
    simp only [Bool.and_eq_true, beq_iff_eq] at h
    obtain ⟨rfl, rfl⟩ := h
    exact .inl ⟨rfl, rfl⟩
  · rename_i t' a s rest e
    cases e
    simp only [Bool.and_eq_true, beq_iff_eq] at h
    obtain ⟨⟨rfl, h1⟩, h2⟩ := h
    exact .inr ⟨s, rest, rfl, h1, h2⟩

theorem type_complete (hE : Meaning defs30 I env) {j : Any} (ih : SmallerC N I env j) :
    ∀ (ty : Ty) (sch : Sch), tyAgree V30.table ty sch = true → CC N I ty j → Ok I env sch j → Can V30.table N ty j := by
  intro ty
  induction ty with
  | any => intro sch _ hc _; exact can_any hc.floats
  | bool =>
    intro sch h hc hok
    unfold tyAgree at h
    split at h <;> simp only [reduceCtorEq] at *
    rename_i a rest _
    simp only [Bool.and_eq_true, beq_iff_eq] at h
    obtain ⟨rfl, _⟩ := h
    rw [ok_all] at hok
    have := hok _ List.mem_cons_self
    cases j <;> simp [Ok, TypeIs] at this
    rfl
  | str =>
    intro sch h hc hok
    unfold tyAgree at h
    split at h <;> simp only [reduceCtorEq] at *
    rename_i a rest _
    simp only [Bool.and_eq_true, beq_iff_eq] at h
    obtain ⟨rfl, _⟩ := h
    rw [ok_all] at hok
    have := hok _ List.mem_cons_self
    cases j <;> simp [Ok, TypeIs] at this
    rfl
  | int =>
    intro sch h hc hok
    unfold tyAgree at h
    split at h <;> simp only [reduceCtorEq] at *
    rename_i a rest _
    simp only [Bool.and_eq_true, beq_iff_eq] at h
    obtain ⟨rfl, _⟩ := h
    rw [ok_all] at hok
    have := hok _ List.mem_cons_self
    cases j <;> simp [Ok, TypeIs] at this
    rename_i l
    have := hc.ints l (by simp [literals]) this
    rw [Can, decode_int]
    simp only [Option.isSome_map]
    exact Option.isSome_iff_ne_none.2 this
  | float =>
    intro sch h hc hok
    unfold tyAgree at h
    split at h <;> simp only [reduceCtorEq] at *
    rename_i a rest _
    simp only [Bool.and_eq_true, beq_iff_eq] at h
    obtain ⟨rfl, _⟩ := h
    rw [ok_all] at hok
    have := hok _ List.mem_cons_self
    cases j <;> simp [Ok, TypeIs] at this
    rename_i l
    have := hc.floats l (by simp [literals])
    rw [Can, decode_float]
    simp only [Option.isSome_map]
    exact Option.isSome_iff_ne_none.2 this
  | named n =>
    intro sch h hc hok
    rw [tyAgree] at h
    exact named_complete hE h ih hc hok
  | ptr t iht =>
    intro sch h hc hok
    simp only [tyAgree, Bool.and_eq_true] at h
    exact can_ptr_of ranked30 h.1 (iht sch h.2 (cc_ptr hc) hok)
  | slice t iht =>
    intro sch h hc hok
    obtain ⟨s, rest, rfl, h1, _⟩ := tyAgree_slice h
    obtain ⟨xs, rfl, hx⟩ := ok_array hok
    rw [can_slice]
    exact fun x hxm => ih x (size_elem hxm) t s h1 (cc_elem hc hxm) (hx x hxm)
  | map t iht =>
    intro sch h hc hok
    rcases tyAgree_map h with ⟨rfl, rfl⟩ | ⟨s, rest, rfl, h1, _⟩
    · rw [Ok, hE "SecurityRequirement" mSecurityRequirement (by simp [defs30])] at hok
      obtain ⟨ms, rfl, hx⟩ := ok_map hok
      rw [can_map]
      exact fun k x hxm => ih x (size_member hxm) _ _ (by decide) (cc_entry hc hxm) (hx k x hxm)
    · obtain ⟨ms, rfl, hx⟩ := ok_map hok
      rw [can_map]
      exact fun k x hxm => ih x (size_member hxm) t s h1 (cc_entry hc hxm) (hx k x hxm)

/-- What is accepted can be read. -/
theorem complete30 (hE : Meaning defs30 I env) : ∀ (c : Nat) (j : Any), sizeOf j ≤ c → ∀ (ty : Ty) (sch : Sch),
    tyAgree V30.table ty sch = true → CC N I ty j → Ok I env sch j → Can V30.table N ty j := by
  intro c
  induction c with
  | zero =>
    intro j hj
    cases j <;> simp at hj
  | succ c ih =>
    intro j hj
    exact type_complete hE (fun x hx => ih x (by omega))

end Verif.Meta
