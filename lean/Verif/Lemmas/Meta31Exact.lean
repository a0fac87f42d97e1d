import Verif.Lemmas.Meta31Complete

/-! Of what the meta-schema of 3.1 accepts, nothing else is read. -/

namespace Verif.Meta31
open Codec Spec Meta
open Meta31 (sem Meaning)

variable {N : Nums} {env : String → Sem}

/-- Structs and lists of values in which nothing is restricted. -/
def quiet31 : List String := ["Reference", "SecuritySchemeAPIKey", "SecuritySchemeHTTP", "SecuritySchemeHTTPBearer",
  "SecuritySchemeOauth2", "SecuritySchemeOidc", "MutualTLS", "OauthFlows", "OauthFlowsDefsImplicit",
  "OauthFlowsDefsPassword", "OauthFlowsDefsClientCredentials", "OauthFlowsDefsAuthorizationCode", "SecuritySchemeAPIKeyIn"]

/-- In what is read as this type nothing is restricted. -/
def quiet : Ty → Bool
  | .ptr t => quiet t
  | .slice t => quiet t
  | .map t => t != .any && quiet t
  | .named n => quiet31.contains n
  | _ => true

theorem quiet31_closed : quiet31.all (fun n => match GoMap.get? V31.table n with
    | some (.struct s) => s.fields.all (fun f => quiet f.ty) && s.patterns.all (fun q => quiet q.ty) &&
        (match s.additional with
          | some a => quiet a.ty
          | none => true) && s.oneOf.all (fun o => quiet o.ty)
    | _ => true) = true := by decide +kernel

theorem quiet_struct {n : String} {s : Codec.Struct} (h : quiet (.named n) = true)
    (hn : GoMap.get? V31.table n = some (.struct s)) : (∀ f ∈ s.fields, quiet f.ty = true) ∧
      (∀ q ∈ s.patterns, quiet q.ty = true) ∧ (∀ a, s.additional = some a → quiet a.ty = true) ∧
      ∀ o ∈ s.oneOf, quiet o.ty = true := by
  have := List.all_eq_true.1 quiet31_closed n (List.contains_iff_mem.1 h)
  rw [hn] at this
  simp only [Bool.and_eq_true, List.all_eq_true] at this
  refine ⟨this.1.1.1, this.1.1.2, ?_, this.2⟩
  intro a ha
  have h := this.1.2
  rw [ha] at h
  exact h

/-- What is read and accepted. -/
structure Sound (N : Nums) (env : String → Sem) (ty : Ty) (j : Any) : Prop where
  valid : ∃ sch, tyAgree ty sch = true ∧ (sem env sch).ok j
  read : Can V31.table N ty j
  floats : Floats N j
  distinct : Distinct j

theorem plain31_base : plain31.all (fun p => match struct31 p.1 with
    | some s => baseCheck s && s.additional.isNone && s.oneOf == [] && s.decodes == (s.fields != [])
    | none => false) = true := by decide +kernel

theorem not_enum {n : String} {s : Codec.Struct} (hn : GoMap.get? V31.table n = some (.struct s)) {vs : List Const} :
    enumAgree n vs ≠ true := by
  unfold enumAgree
  rw [hn]
  simp

theorem struct_schema {n : String} {s : Codec.Struct} (hn : GoMap.get? V31.table n = some (.struct s)) {sch : Sch}
    (h : tyAgree (.named n) sch = true) : ∃ m, sch = .ref m ∧
      ((n, m) ∈ plain31 ∨ (n, m) ∈ special31 ∨ ∃ e ∈ either31, e.1 = n ∧ e.2.1 = m) := by
  have hstyle : n ≠ "ParameterStyle" := by
    rintro rfl
    have : GoMap.get? V31.table "ParameterStyle" = some V31.dParameterStyle := by kernel_rfl
    rw [this] at hn
    cases hn
  have he := fun vs => not_enum hn (vs := vs)
  cases sch with
  | ref m =>
    simp only [tyAgree, Bool.or_eq_true, List.contains_iff_mem] at h
    refine ⟨m, rfl, ?_⟩
    rcases h with (h | h) | h
    · exact .inl h
    · exact .inr (.inl h)
    · obtain ⟨e, hm, heq⟩ := List.mem_map.1 h
      cases heq
      exact .inr (.inr ⟨e, hm, rfl, rfl⟩)
  | all ks =>
    cases ks with
    | nil => simp [tyAgree] at h
    | cons k ks =>
      cases k with
      | enum vs => exact absurd h (he vs)
      | type ts =>
        simp only [tyAgree, Bool.and_eq_true, beq_iff_eq] at h
        exact absurd h.1 hstyle
      | note t =>
        cases ks with
        | nil => simp [tyAgree] at h
        | cons k ks =>
          cases k with
          | enum vs => exact absurd h (he vs)
          | _ => simp [tyAgree] at h
      | _ => simp [tyAgree] at h
  | _ => simp [tyAgree] at h

/-- The schema of a struct with fields. -/
theorem fields_schema (hE : Meaning defs31 env) {n m : String} {s : Codec.Struct}
    (hn : GoMap.get? V31.table n = some (.struct s)) (h : (n, m) ∈ plain31 ∨ (n, m) ∈ special31) (hcb : n ≠ "Callbacks")
    {j : Any} (hok : (env m).ok j) : ∃ ks, fieldsAgree s ks = true ∧ (sem env (.closed ks)).ok j := by
  rcases h with h | h
  · have := List.all_eq_true.1 plain31_agree _ h
    split at this
    · rename_i s' ks hs hm
      rw [struct31_some.2 hn] at hs
      cases hs
      simp only [Bool.and_eq_true, structAgree] at this
      rw [def_of hE hm] at hok
      exact ⟨ks, this.2.1.1, hok⟩
    · cases this
  · simp only [special31, List.mem_cons, List.not_mem_nil, or_false, Prod.mk.injEq] at h
    rcases h with ⟨rfl, rfl⟩ | ⟨rfl, rfl⟩ | ⟨rfl, rfl⟩
    · have : GoMap.get? V31.table "Header" = some (.struct V31.sHeader) := by kernel_rfl
      rw [this] at hn
      cases hn
      rw [def_of hE (s := .closed headerKs) (by kernel_rfl)] at hok
      exact ⟨_, by decide +kernel, hok⟩
    · have : GoMap.get? V31.table "SecurityScheme" = some (.struct V31.sSecurityScheme) := by kernel_rfl
      rw [this] at hn
      cases hn
      rw [def_of hE (s := .closed securityKs) (by kernel_rfl)] at hok
      exact ⟨_, by decide +kernel, hok⟩
    · exact absurd rfl hcb

theorem structs31_base : (plain31 ++ special31).all (fun p => match struct31 p.1 with
    | some s => baseCheck s
    | none => false) = true := by decide +kernel

theorem base_of {n m : String} {s : Codec.Struct} (hn : GoMap.get? V31.table n = some (.struct s))
    (h : (n, m) ∈ plain31 ∨ (n, m) ∈ special31) : Base s := by
  have := List.all_eq_true.1 structs31_base (n, m) (List.mem_append.2 h)
  simp only [struct31_some.2 hn] at this
  exact base_of_check this

/-- The other alternatives have no fields. -/
theorem either_struct {e : String × String × String × String} (he : e ∈ either31) {s : Codec.Struct}
    (hn : GoMap.get? V31.table e.1 = some (.struct s)) : s.fields = [] ∧ s.patterns = [] ∧ s.additional = none ∧
      s = { oneOf := s.oneOf, parts := s.oneOf.map (fun h => .hidden h.go) } ∧
      s.oneOf.map Hidden.ty = [.ptr (.named "Reference"), .ptr (.named e.2.2.1)] := by
  have hs := List.all_eq_true.1 either31_structs e he
  simp only [struct31_some.2 hn, Bool.and_eq_true, beq_iff_eq] at hs
  refine ⟨?_, ?_, ?_, hs.1, hs.2⟩ <;> rw [hs.1]

theorem named_object (hE : Meaning defs31 env) {n m : String} (h : (n, m) ∈ plain31 ∨ (n, m) ∈ special31) {j : Any}
    (hok : (env m).ok j) : ∃ M, j = .obj M := by
  rcases h with h | h
  · have := List.all_eq_true.1 plain31_agree _ h
    split at this
    · rename_i s' ks hs hm
      simp only [Bool.and_eq_true] at this
      rw [def_of hE hm] at hok
      exact closed_object this.1.1.1.1 hok
    · cases this
  · simp only [special31, List.mem_cons, List.not_mem_nil, or_false, Prod.mk.injEq] at h
    rcases h with ⟨rfl, rfl⟩ | ⟨rfl, rfl⟩ | ⟨rfl, rfl⟩
    · rw [def_of hE (s := .closed headerKs) (by kernel_rfl)] at hok
      exact closed_object (by decide +kernel) hok
    · rw [def_of hE (s := .closed securityKs) (by kernel_rfl)] at hok
      exact closed_object (by decide +kernel) hok
    · obtain ⟨M, rfl, _⟩ := callbacks_object hE hok
      exact ⟨M, rfl⟩

theorem either31_meant : either31.all (fun e => (plain31.contains (e.2.2.1, e.2.2.2) || special31.contains (e.2.2.1, e.2.2.2) ||
    (e.2.2.1, e.2.2.2) == ("Example", "example")) && referable.contains e.2.2.1) = true := by decide +kernel

theorem either_object (hE : Meaning defs31 env) {e : String × String × String × String} (he : e ∈ either31) {j : Any}
    (hok : (env e.2.1).ok j) : ∃ M, j = .obj M ∧
      ((Has M "$ref" ∧ (env "reference").ok (.obj M)) ∨ (¬Has M "$ref" ∧ (env e.2.2.2).ok (.obj M))) := by
  rw [either31_defs hE e he] at hok
  rcases either_cases hok with ⟨M, rfl, h1, h2⟩ | ⟨h1, h2⟩
  · exact ⟨M, rfl, .inl ⟨h1, h2⟩⟩
  · have hm := List.all_eq_true.1 either31_meant e he
    simp only [Bool.and_eq_true, Bool.or_eq_true, List.contains_iff_mem, beq_iff_eq] at hm
    have : ∃ M, j = .obj M := by
      rcases hm.1 with h | h
      · exact named_object hE h h1
      · have h3 : e.2.2.2 = "example" := (Prod.mk.inj h).2
        rw [h3, def_of hE (s := .closed (closedKs mExample)) (by kernel_rfl)] at h1
        exact closed_object (by decide +kernel) h1
    obtain ⟨M, rfl⟩ := this
    exact ⟨M, rfl, .inr ⟨h2 M rfl, h1⟩⟩

theorem map_object (hE : Meaning defs31 env) {t : Ty} {m : String} (h : (t, m) ∈ maps31) : ¬(env m).ok .null := by
  intro hok
  have key : ∀ {rest}, ¬(sem env (.all (.type ["object"] :: rest))).ok .null := by
    intro rest hok
    rw [ok_all] at hok
    obtain ⟨M, e⟩ := ok_object_of (hok _ List.mem_cons_self)
    cases e
  simp only [maps31, List.mem_cons, List.not_mem_nil, or_false, Prod.mk.injEq] at h
  rcases h with ⟨rfl, rfl⟩ | ⟨rfl, rfl⟩ | ⟨rfl, rfl⟩ | ⟨rfl, rfl⟩
  · rw [def_of hE (s := mSchema) (by kernel_rfl), mSchema, ok_all] at hok
    obtain ⟨t, ht, hty⟩ := hok _ List.mem_cons_self
    simp [TypeIs] at hty
    subst hty
    simp at ht
  · rw [def_of hE (s := mContent) (by kernel_rfl), mContent] at hok
    exact key hok
  · rw [def_of hE (s := mMapOfStrings) (by kernel_rfl), mMapOfStrings] at hok
    exact key hok
  · rw [def_of hE (s := mSecurityRequirement) (by kernel_rfl), mSecurityRequirement] at hok
    exact key hok

/-- `null` is accepted as arbitrary JSON only. -/
theorem valid_null (hE : Meaning defs31 env) {t : Ty} {sch : Sch} (ht : notPtr t = true) (h : tyAgree t sch = true)
    (hok : (sem env sch).ok .null) : t = .any := by
  unfold tyAgree at h
  split at h
  · rfl
  · simp only [beq_iff_eq] at h
    subst h
    rw [ok_all] at hok
    obtain ⟨t, e⟩ := ok_string_of (hok _ List.mem_cons_self)
    cases e
  · simp only [beq_iff_eq] at h
    subst h
    rw [ok_all] at hok
    obtain ⟨t, e⟩ := ok_bool_of (hok _ List.mem_cons_self)
    cases e
  · cases ht
  · simp only [Bool.and_eq_true, beq_iff_eq] at h
    obtain ⟨rfl, h⟩ := h
    rw [ok_all] at hok
    obtain ⟨xs, e⟩ := ok_array_of (hok _ List.mem_cons_self)
    cases e
  · simp only [Bool.and_eq_true, beq_iff_eq] at h
    obtain ⟨rfl, h⟩ := h
    rw [ok_all] at hok
    obtain ⟨M, e⟩ := ok_object_of (hok _ List.mem_cons_self)
    cases e
  · exact absurd hok (map_object hE (List.contains_iff_mem.1 h))
  · rw [ok_all] at hok
    exact absurd (hok _ List.mem_cons_self) (map_object hE (List.contains_iff_mem.1 h))
  · simp only [Bool.or_eq_true, List.contains_iff_mem] at h
    rcases h with h | h
    · obtain ⟨M, e⟩ := named_object hE h hok
      cases e
    · obtain ⟨e, he, heq⟩ := List.mem_map.1 h
      cases heq
      obtain ⟨M, e, _⟩ := either_object hE he hok
      cases e
  · rw [ok_all] at hok
    obtain ⟨c, hc, e⟩ := hok _ List.mem_cons_self
    cases c <;> cases e
  · rw [ok_all] at hok
    obtain ⟨c, hc, e⟩ := hok _ (List.mem_cons_of_mem _ List.mem_cons_self)
    cases c <;> cases e
  · simp only [Bool.and_eq_true, beq_iff_eq] at h
    obtain ⟨rfl, rfl⟩ := h
    rw [ok_all] at hok
    obtain ⟨t, e⟩ := ok_string_of (hok _ List.mem_cons_self)
    cases e
  · cases h

/-! ## Parts of what is read -/

theorem sound_ptr (hE : Meaning defs31 env) {t : Ty} {j : Any} (h : Sound N env (.ptr t) j) : Sound N env t j := by
  obtain ⟨sch, h1, h2⟩ := h.valid
  simp only [tyAgree, Bool.and_eq_true] at h1
  refine ⟨⟨sch, h1.2, h2⟩, ?_, h.floats, h.distinct⟩
  cases j with
  | null =>
    rw [valid_null hE h1.1 h1.2 h2]
    exact can_any h.floats
  | _ =>
    have := h.read
    rw [Can, decode_ptr ranked31 h1.1] at this
    exact this

theorem sound_elem {t : Ty} {xs : List Any} {x : Any} (h : Sound N env (.slice t) (.arr xs)) (hx : x ∈ xs) :
    Sound N env t x := by
  obtain ⟨sch, h1, h2⟩ := h.valid
  have hr := can_slice.1 h.read x hx
  refine ⟨?_, hr, fun l hl => h.floats l (literals_elem hx l hl), distinct_elem h.distinct hx⟩
  generalize hty : Ty.slice t = ty at h1
  unfold tyAgree at h1
  split at h1 <;> first | (cases hty; done) | (cases h1; done) | skip
  cases hty
  simp only [Bool.and_eq_true] at h1
  rw [ok_all] at h2
  exact ⟨_, h1.2, h2 _ (List.mem_cons_of_mem _ List.mem_cons_self) xs rfl x hx⟩

theorem maps31_entry (hE : Meaning defs31 env) {t : Ty} {m : String} (h : (t, m) ∈ maps31) (ht : t ≠ .any)
    {ms : List (String × Any)} (hok : (env m).ok (.obj ms)) {k : String} {x : Any} (hx : (k, x) ∈ ms) :
    ∃ sch, tyAgree t sch = true ∧ (sem env sch).ok x := by
  have key : ∀ {s rest}, (sem env (.all (.type ["object"] :: .object [] [] (some s) :: rest))).ok (.obj ms) →
      tyAgree t s = true → ∃ sch, tyAgree t sch = true ∧ (sem env sch).ok x := by
    intro s rest hok hs
    rw [ok_all] at hok
    exact ⟨s, hs, ok_additional (hok (.object [] [] (some s)) (by simp)) hx⟩
  simp only [maps31, List.mem_cons, List.not_mem_nil, or_false, Prod.mk.injEq] at h
  rcases h with ⟨rfl, rfl⟩ | ⟨rfl, rfl⟩ | ⟨rfl, rfl⟩ | ⟨rfl, rfl⟩
  · exact absurd rfl ht
  · rw [def_of hE (s := mContent) (by kernel_rfl), mContent] at hok
    exact key hok (by decide +kernel)
  · rw [def_of hE (s := mMapOfStrings) (by kernel_rfl), mMapOfStrings] at hok
    exact key hok (by decide +kernel)
  · rw [def_of hE (s := mSecurityRequirement) (by kernel_rfl), mSecurityRequirement] at hok
    exact key hok (by decide +kernel)

theorem sound_entry (hE : Meaning defs31 env) {t : Ty} (ht : t ≠ .any) {ms : List (String × Any)} {k : String} {x : Any}
    (h : Sound N env (.map t) (.obj ms)) (hx : (k, x) ∈ ms) : Sound N env t x := by
  obtain ⟨sch, h1, h2⟩ := h.valid
  have hr := can_map.1 h.read k x hx
  refine ⟨?_, hr, fun l hl => h.floats l (literals_member hx l hl), distinct_member h.distinct hx⟩
  generalize hty : Ty.map t = ty at h1
  unfold tyAgree at h1
  split at h1 <;> first | (cases hty; done) | (cases h1; done) | skip
  · cases hty
    simp only [Bool.and_eq_true] at h1
    rw [ok_all] at h2
    exact ⟨_, h1.2, ok_additional (h2 _ (List.mem_cons_of_mem _ List.mem_cons_self)) hx⟩
  · cases hty
    exact maps31_entry hE (List.contains_iff_mem.1 h1) ht h2 hx
  · cases hty
    rw [ok_all] at h2
    exact maps31_entry hE (List.contains_iff_mem.1 h1) ht (h2 _ List.mem_cons_self) hx

theorem callbacks_case {n : String} {s : Codec.Struct} (hn : GoMap.get? V31.table n = some (.struct s))
    (h : n = "Callbacks") : s = V31.sCallbacks := by
  subst h
  have : GoMap.get? V31.table "Callbacks" = some (.struct V31.sCallbacks) := by kernel_rfl
  rw [this] at hn
  cases hn
  rfl

theorem sound_field (hE : Meaning defs31 env) {n : String} {s : Codec.Struct}
    (hn : GoMap.get? V31.table n = some (.struct s)) {f : Field} (hf : f ∈ s.fields) {ms : List (String × Any)} {x : Any}
    (hx : (f.key, x) ∈ ms) (h : Sound N env (.named n) (.obj ms)) : Sound N env f.ty x := by
  obtain ⟨sch, h1, h2⟩ := h.valid
  obtain ⟨m, rfl, hm⟩ := struct_schema hn h1
  rcases or_assoc.2 hm with hm | ⟨e, he, rfl, rfl⟩
  · have hb := base_of hn hm
    have hcb : n ≠ "Callbacks" := by
      intro e
      have := callbacks_case hn e
      subst this
      cases hf
    obtain ⟨ks, ha, hok⟩ := fields_schema hE hn hm hcb h2
    have hacc := ((can_obj_full ranked31 hn).1 h.read).1
    refine ⟨?_, ?_, fun l hl => h.floats l (literals_member hx l hl), distinct_member h.distinct hx⟩
    · simp only [fieldsAgree, Bool.and_eq_true, List.all_eq_true] at ha
      obtain ⟨t, ht, hok'⟩ := closed_forces hE (ha.1.1.2 f hf) hok hx
      exact ⟨t, ht, hok'⟩
    · refine hacc.fields ?_ f.key x hx f (hb.own f hf)
      rcases hb.decodes with hd | hd
      · exact hd
      · rw [hd] at hf; cases hf
  · rw [(either_struct he hn).1] at hf
    cases hf

theorem sound_pattern (hE : Meaning defs31 env) {n : String} {s : Codec.Struct}
    (hn : GoMap.get? V31.table n = some (.struct s)) {q : PatField} (hq : q ∈ s.patterns) {ms : List (String × Any)}
    {k : String} {x : Any} (hk : q.pat.matches k = true) (hx : (k, x) ∈ ms) (h : Sound N env (.named n) (.obj ms)) :
    Sound N env q.ty x ∨ quiet q.ty = true := by
  obtain ⟨sch, h1, h2⟩ := h.valid
  obtain ⟨m, rfl, hm⟩ := struct_schema hn h1
  rcases or_assoc.2 hm with hm | ⟨e, he, rfl, rfl⟩
  · have hb := base_of hn hm
    by_cases hcb : n = "Callbacks"
    · have := callbacks_case hn hcb
      subst this
      rw [show q = ⟨.x, "MapOfAnything", .any⟩ from List.mem_singleton.1 hq]
      exact .inr rfl
    · obtain ⟨ks, ha, hok⟩ := fields_schema hE hn hm hcb h2
      have hacc := ((can_obj_full ranked31 hn).1 h.read).1
      simp only [fieldsAgree, Bool.and_eq_true, List.all_eq_true, Bool.or_eq_true, beq_iff_eq] at ha
      rcases ha.2 q hq with hp | hp
      · rw [hp]; exact .inr rfl
      · refine .inl ⟨?_, ?_, fun l hl => h.floats l (literals_member hx l hl), distinct_member h.distinct hx⟩
        · split at hp
          · rename_i p hpp
            obtain ⟨t, ht, hok'⟩ := patFact_sound hp (ok_closed.1 hok).1 hx ((keyPat_is hpp).1 hk)
            exact ⟨t, ht, hok'⟩
          · cases hp
        · refine hacc.patterns q hq k x ?_ (hb.patKept q hq k hk) hk
          rw [lastWins_nodup h.distinct.1]
          exact hx
  · rw [(either_struct he hn).2.1] at hq
    cases hq

theorem sound_additional (hE : Meaning defs31 env) {n : String} {s : Codec.Struct}
    (hn : GoMap.get? V31.table n = some (.struct s)) {a : Hidden} (ha : s.additional = some a) {ms : List (String × Any)}
    {k : String} {x : Any} (hk : ∀ q ∈ s.patterns, q.pat.matches k = false) (hx : (k, x) ∈ ms)
    (h : Sound N env (.named n) (.obj ms)) : Sound N env a.ty x := by
  obtain ⟨sch, h1, h2⟩ := h.valid
  obtain ⟨m, rfl, hm⟩ := struct_schema hn h1
  rcases or_assoc.2 hm with hm | ⟨e, he, rfl, rfl⟩
  · have hb := base_of hn hm
    by_cases hcb : n = "Callbacks"
    · have := callbacks_case hn hcb
      subst this
      subst hcb
      have hm : m = "callbacks" := by
        rcases hm with hm | hm <;> simp [plain31, special31] at hm
        exact hm
      subst hm
      obtain ⟨M, e, hall⟩ := callbacks_object hE h2
      cases e
      have hacc := ((can_obj_full ranked31 hn).1 h.read).1
      have hr := hacc.additional a ha k x (by rw [lastWins_nodup h.distinct.1]; exact hx)
        ((hb.additional (by rw [ha]; rfl)).2.2 k) hk
      cases ha
      exact ⟨⟨.ref "path-item-or-reference", by decide +kernel, hall k x hx⟩, hr,
        fun l hl => h.floats l (literals_member hx l hl), distinct_member h.distinct hx⟩
    · obtain ⟨ks, hag, hok⟩ := fields_schema hE hn hm hcb h2
      simp only [fieldsAgree, Bool.and_eq_true, Option.isNone_iff_eq_none] at hag
      rw [hag.1.1.1.1.2] at ha
      cases ha
  · rw [(either_struct he hn).2.2.1] at ha
    cases ha

theorem sound_alternative (hE : Meaning defs31 env) {n : String} {s : Codec.Struct}
    (hn : GoMap.get? V31.table n = some (.struct s)) {o : Hidden} (ho : o ∈ s.oneOf) {j : Any} (hmeant : Meant o.ty j)
    (h : Sound N env (.named n) j) : Sound N env o.ty j ∨ quiet o.ty = true := by
  obtain ⟨sch, h1, h2⟩ := h.valid
  obtain ⟨m, rfl, hm⟩ := struct_schema hn h1
  rcases hm with hm | hm | ⟨e, he, rfl, rfl⟩
  · have := List.all_eq_true.1 plain31_base _ hm
    simp only [struct31_some.2 hn, Bool.and_eq_true, beq_iff_eq] at this
    rw [this.1.2] at ho
    cases ho
  · simp only [special31, List.mem_cons, List.not_mem_nil, or_false, Prod.mk.injEq] at hm
    rcases hm with ⟨rfl, rfl⟩ | ⟨rfl, rfl⟩ | ⟨rfl, rfl⟩
    · have : GoMap.get? V31.table "Header" = some (.struct V31.sHeader) := by kernel_rfl
      rw [this] at hn
      cases hn
      cases ho
    · have : GoMap.get? V31.table "SecurityScheme" = some (.struct V31.sSecurityScheme) := by kernel_rfl
      rw [this] at hn
      cases hn
      have : V31.sSecurityScheme.oneOf.all (fun o => quiet o.ty) = true := by decide +kernel
      exact .inr (List.all_eq_true.1 this o ho)
    · have := callbacks_case hn rfl
      subst this
      cases ho
  · obtain ⟨_, _, _, hs1, hs2⟩ := either_struct he hn
    obtain ⟨M, rfl, hcase⟩ := either_object hE he h2
    have hty : o.ty ∈ s.oneOf.map Hidden.ty := List.mem_map_of_mem ho
    rw [hs2] at hty
    simp only [List.mem_cons, List.not_mem_nil, or_false] at hty
    rcases hty with hty | hty
    · rw [hty]; exact .inr rfl
    · have hm := List.all_eq_true.1 either31_meant e he
      simp only [Bool.and_eq_true, Bool.or_eq_true, List.contains_iff_mem, beq_iff_eq] at hm
      have hno := hmeant.2 _ hm.2 hty M rfl
      have hok : (env e.2.2.2).ok (.obj M) := by
        rcases hcase with ⟨hr, _⟩ | ⟨_, hok⟩
        · exact absurd hr hno
        · exact hok
      have hnot : ¬Can V31.table N (.ptr (.named "Reference")) (.obj M) := by
        refine not_ptr (not_require (s := V31.sReference) (by kernel_rfl) (k := "$ref") (by decide) ?_)
        intro hmem
        obtain ⟨⟨k, x⟩, hx, hk⟩ := List.mem_map.1 hmem
        simp only at hk
        subst hk
        exact hno ⟨x, hx⟩
      have hcan : Can V31.table N o.ty (.obj M) := by
        have hne : s.oneOf ≠ [] := by intro e; rw [e] at ho; cases ho
        have hr := (can_union ranked31 hn hs1 hne).1 h.read
        rw [filter_one] at hr
        obtain ⟨i, ⟨o', ho', hc'⟩, _⟩ := hr
        have hty' : o'.ty ∈ s.oneOf.map Hidden.ty := List.mem_map_of_mem (List.mem_of_getElem? ho')
        rw [hs2] at hty'
        simp only [List.mem_cons, List.not_mem_nil, or_false] at hty'
        rcases hty' with e' | e'
        · rw [e'] at hc'
          exact absurd hc' hnot
        · rw [hty, ← e']
          exact hc'
      refine .inl ⟨⟨.ref e.2.2.2, ?_, hok⟩, hcan, h.floats, h.distinct⟩
      rw [hty]
      simp only [tyAgree, notPtr, Bool.true_and, Bool.or_eq_true, List.contains_iff_mem]
      rcases hm.1 with hm | hm
      · exact .inl hm
      · exfalso
        rw [hty, show e.2.2.1 = "Example" from (Prod.mk.inj hm).1] at hcan
        have hcan : Can V31.table N (.named "Example") (.obj M) := by
          unfold Can at hcan ⊢
          rwa [decode_ptr_obj ranked31 rfl] at hcan
        have ha := (can_obj ranked31 (s := V31.sExample) (by kernel_rfl) rfl rfl).1 hcan
        exact ha.nots .any List.mem_cons_self (can_any h.floats)

/-- What is read of what is read and accepted is so too. -/
theorem sound_reads (hE : Meaning defs31 env) {ty ty' : Ty} {j x : Any} (h : Reads31 ty j ty' x) :
    Sound N env ty j ∨ quiet ty = true → Sound N env ty' x ∨ quiet ty' = true := by
  induction h with
  | self => exact id
  | ptr _ ih => exact fun h => ih (h.imp (sound_ptr hE) id)
  | elem hx _ ih => exact fun h => ih (h.imp (sound_elem · hx) id)
  | @entry t _ _ _ _ _ hx _ ih =>
    intro h
    by_cases ht : t = .any
    · subst ht
      exact ih (.inr rfl)
    · refine ih (h.imp (sound_entry hE ht · hx) ?_)
      intro h
      simp only [quiet, Bool.and_eq_true] at h
      exact h.2
  | field hn hf hx _ ih =>
    exact fun h => ih (h.imp (sound_field hE hn hf hx) fun h => (quiet_struct h hn).1 _ hf)
  | pattern hn hq hk hx _ ih =>
    intro h
    refine ih (h.elim (sound_pattern hE hn hq hk hx) fun h => .inr ((quiet_struct h hn).2.1 _ hq))
  | additional hn ha hk hx _ ih =>
    exact fun h => ih (h.imp (sound_additional hE hn ha hk hx) fun h => (quiet_struct h hn).2.2.1 _ ha)
  | alternative hn ho ha _ ih =>
    intro h
    exact ih (h.elim (sound_alternative hE hn ho ha) fun h => .inr ((quiet_struct h hn).2.2.2 _ ho))

/-! ## What is not read -/

/-- A reference is read as something else, too. -/
theorem reference_read (hE : Meaning defs31 env) {n : String} {s : Codec.Struct}
    (hn : GoMap.get? V31.table n = some (.struct s)) (h : fieldsAgree s referenceKs = true) (h1 : s.exactlyOne = none)
    (h2 : s.lower = []) (h3 : s.oneOf = []) (h4 : s.consts = []) {M : List (String × Any)} (hc : CC N (.named n) (.obj M))
    (hok : (env "reference").ok (.obj M)) (hreq : ∀ k ∈ s.require, k ∈ M.map Prod.fst) :
    Can V31.table N (.named n) (.obj M) := by
  refine (can_obj ranked31 hn h1 h2).2 (fields_accepts hE hn h ?_ hc (reference_ok hE hok) hreq ?_ (fun h => absurd h3 h))
  · intro x _ ty sch ha hc hok
    exact complete31 hE x ty sch ha hc hok
  · rw [h4]; intro k c hk; cases hk

theorem quiet_reads {ty ty' : Ty} {j x : Any} (h : Reads31 ty j ty' x) : quiet ty = true → quiet ty' = true := by
  induction h with
  | self => exact id
  | ptr _ ih => exact ih
  | elem hx _ ih => exact ih
  | entry hx _ ih =>
    intro h
    simp only [quiet, Bool.and_eq_true] at h
    exact ih h.2
  | field hn hf hx _ ih => exact fun h => ih ((quiet_struct h hn).1 _ hf)
  | pattern hn hq hk hx _ ih => exact fun h => ih ((quiet_struct h hn).2.1 _ hq)
  | additional hn ha hk hx _ ih => exact fun h => ih ((quiet_struct h hn).2.2.1 _ ha)
  | alternative hn ho ha _ ih => exact fun h => ih ((quiet_struct h hn).2.2.2 _ ho)

/-- In a reference nothing is restricted. -/
theorem reference_supported (hE : Meaning defs31 env) {n : String} {s : Codec.Struct}
    (hn : GoMap.get? V31.table n = some (.struct s))
    (hs : s.fields.all (fun f => quiet f.ty || forces defs31 (fun _ => false) f.key 12 (.all referenceKs)) = true)
    (hp : s.patterns.all (fun q => quiet q.ty) = true) (ha : s.additional = none) (ho : s.oneOf = [])
    (hq : ["ExampleOrReference", "LinkOrReference", "PathItemOrReference", "ResponseOrReference", "ParameterStyle"].contains
      n = false) {M : List (String × Any)} (hok : (env "reference").ok (.obj M)) : Supported (.named n) (.obj M) := by
  have key : ∀ {ty x}, Reads31 (.named n) (.obj M) ty x → ty = .named n ∨ quiet ty = true := by
    intro ty x h
    cases h with
    | self => exact .inl rfl
    | @field _ _ hn' f hf ms x _ _ hx h =>
      rw [hn] at hn'
      cases hn'
      have := List.all_eq_true.1 hs f hf
      simp only [Bool.or_eq_true] at this
      rcases this with h' | h'
      · exact .inr (quiet_reads h h')
      · exact absurd (List.mem_map.2 ⟨_, hx, rfl⟩) (reference_keys hE hok h')
    | pattern hn' hq hk hx h =>
      rw [hn] at hn'
      cases hn'
      exact .inr (quiet_reads h (List.all_eq_true.1 hp _ hq))
    | additional hn' ha' hk hx h =>
      rw [hn] at hn'
      cases hn'
      rw [ha] at ha'
      cases ha'
    | alternative hn' ho' hm h =>
      rw [hn] at hn'
      cases hn'
      rw [ho] at ho'
      cases ho'
  have hne : ∀ {k}, ["ExampleOrReference", "LinkOrReference", "PathItemOrReference", "ResponseOrReference",
      "ParameterStyle"].contains k = true → quiet (.named k) = false → ∀ {x}, ¬Reads31 (.named n) (.obj M) (.named k) x := by
    intro k hk hquiet x h
    rcases key h with e | e
    · cases e
      rw [hk] at hq
      cases hq
    · rw [hquiet] at e
      cases e
  refine ⟨?_, ?_, ?_, ?_, ?_, ?_⟩
  · intro b h
    rcases key h with e | e <;> cases e
  · intro ms h; exact absurd h (hne (by decide) (by decide))
  · intro ms h; exact absurd h (hne (by decide) (by decide))
  · intro ms h; exact absurd h (hne (by decide) (by decide))
  · intro ms h; exact absurd h (hne (by decide) (by decide))
  · intro x h; exact absurd h (hne (by decide) (by decide))

/-- A reference that is read as something else, too, is not read. -/
theorem both_read (hE : Meaning defs31 env) {e : String × String × String × String} (he : e ∈ either31)
    {M : List (String × Any)} (hc : CC N (.named "Reference") (.obj M)) (hok : (env "reference").ok (.obj M))
    (hr : Has M "$ref") (h : Can V31.table N (.named e.2.2.1) (.obj M)) : ¬Can V31.table N (.named e.1) (.obj M) := by
  intro hcan
  have hs := List.all_eq_true.1 either31_structs e he
  split at hs
  · rename_i s hstr
    have hn := struct31_some.1 hstr
    simp only [Bool.and_eq_true, beq_iff_eq] at hs
    obtain ⟨hs1, hs2⟩ := hs
    have hlen : s.oneOf.length = 2 := by
      have := congrArg List.length hs2
      simpa using this
    obtain ⟨o1, o2, ho⟩ : ∃ o1 o2, s.oneOf = [o1, o2] := by
      match h : s.oneOf, hlen with
      | [a, b], _ => exact ⟨a, b, rfl⟩
    rw [ho] at hs2
    simp only [List.map_cons, List.map_nil, List.cons.injEq, and_true] at hs2
    obtain ⟨h1, h2⟩ := hs2
    rw [can_union ranked31 hn hs1 (by rw [ho]; simp), filter_one, ho] at hcan
    obtain ⟨i, _, hu⟩ := hcan
    have hR := can_ptr_of ranked31 (t := .named "Reference") rfl (reference_complete hE
      (fun x _ ty sch ha hc hok => complete31 hE x ty sch ha hc hok) hc hok hr)
    have e1 := hu 0 o1 rfl (by rw [h1]; exact hR)
    have e2 := hu 1 o2 rfl (by rw [h2]; exact can_ptr_of ranked31 rfl h)
    omega
  · cases hs

/-- What is read and accepted makes no use of what is not read. -/
theorem supported_of_sound (hE : Meaning defs31 env) {ty : Ty} {j : Any} (h : Sound N env ty j) : Supported ty j := by
  have hs : ∀ {ty' x}, quiet ty' = false → Reads31 ty j ty' x → Sound N env ty' x := by
    intro ty' x hq hr
    rcases sound_reads hE hr (.inl h) with h | h
    · exact h
    · rw [hq] at h; cases h
  have valid : ∀ {e : String × String × String × String}, e ∈ either31 → ∀ {ms}, Reads31 ty j (.named e.1) (.obj ms) →
      quiet (.named e.1) = false → (env e.2.1).ok (.obj ms) := by
    intro e he ms hr hq
    obtain ⟨sch, h1, h2⟩ := (hs hq hr).valid
    have hst := List.all_eq_true.1 either31_structs e he
    split at hst
    · rename_i s hstr
      obtain ⟨m, rfl, hm⟩ := struct_schema (struct31_some.1 hstr) h1
      have h3 : either31.all (fun e => !(plain31.map Prod.fst).contains e.1 && !(special31.map Prod.fst).contains e.1 &&
        either31.all (fun e' => e'.1 != e.1 || e'.2.1 == e.2.1)) = true := by decide +kernel
      have h3 := List.all_eq_true.1 h3 e he
      simp only [Bool.and_eq_true, Bool.not_eq_true', List.all_eq_true, Bool.or_eq_true, bne_iff_ne, beq_iff_eq] at h3
      rcases hm with hm | hm | ⟨e', he', h4, h5⟩
      · have := List.contains_iff_mem.2 (List.mem_map_of_mem (f := Prod.fst) hm)
        rw [h3.1.1] at this
        cases this
      · have := List.contains_iff_mem.2 (List.mem_map_of_mem (f := Prod.fst) hm)
        rw [h3.1.2] at this
        cases this
      · subst h5
        rcases h3.2 e' he' with h6 | h6
        · exact absurd h4 h6
        · rw [← h6]
          exact h2
    · cases hst
  have both : ∀ {e : String × String × String × String}, e ∈ either31 → ∀ {ms}, Reads31 ty j (.named e.1) (.obj ms) →
      quiet (.named e.1) = false → Has ms "$ref" → ∀ {s}, GoMap.get? V31.table e.2.2.1 = some (.struct s) →
      (fieldsAgree s referenceKs && s.exactlyOne == none && s.lower == [] && s.oneOf == [] && s.consts == [] &&
        s.fields.all (fun f => quiet f.ty || forces defs31 (fun _ => false) f.key 12 (.all referenceKs)) &&
        s.patterns.all (fun q => quiet q.ty) && s.additional.isNone) = true →
      (∀ k ∈ s.require, k ∈ ms.map Prod.fst) → e.2.2.1 ∈ referable → False := by
    intro e he ms hr hq href s hn hcheck hreq hmem
    simp only [Bool.and_eq_true, beq_iff_eq, Option.isNone_iff_eq_none] at hcheck
    obtain ⟨⟨⟨⟨⟨⟨⟨c1, c2⟩, c3⟩, c4⟩, c5⟩, c6⟩, c7⟩, c8⟩ := hcheck
    have hsound := hs hq hr
    obtain ⟨M, e', hcase⟩ := either_object hE he (valid he hr hq)
    cases e'
    rcases hcase with ⟨_, hok⟩ | ⟨hno, _⟩
    · have hsup : Supported (.named e.2.2.1) (.obj ms) := by
        refine reference_supported hE hn c6 c7 c8 c4 ?_ hok
        have : referable.all (fun n => !["ExampleOrReference", "LinkOrReference", "PathItemOrReference",
          "ResponseOrReference", "ParameterStyle"].contains n) = true := by decide
        simpa using List.all_eq_true.1 this _ hmem
      have hsupR : Supported (.named "Reference") (.obj ms) :=
        reference_supported hE (s := V31.sReference) (by kernel_rfl) (by decide +kernel) rfl rfl rfl (by decide) hok
      exact both_read hE he ⟨hsupR, hsound.floats, hsound.distinct⟩ hok href
        (reference_read hE hn c1 c2 c3 c4 c5 ⟨hsup, hsound.floats, hsound.distinct⟩ hok hreq) hsound.read
    · exact absurd href hno
  refine ⟨?_, ?_, ?_, ?_, ?_, ?_⟩
  · intro b hr
    have := (hs (by decide) hr).read
    rw [Can, decode_map] at this
    cases this
  · intro ms hr
    have he : ("ExampleOrReference", "example-or-reference", "Example", "example") ∈ either31 := by simp [either31]
    have hsound := hs (by decide) hr
    refine Classical.byContradiction fun hno => ?_
    have hcan := (can_union ranked31 (s := V31.sExampleOrReference) (by kernel_rfl) rfl (by decide)).1 hsound.read
    rw [filter_one] at hcan
    obtain ⟨i, ⟨o, ho, hc⟩, _⟩ := hcan
    have ho := List.mem_of_getElem? ho
    simp only [V31.sExampleOrReference, List.mem_cons, List.not_mem_nil, or_false] at ho
    rcases ho with rfl | rfl
    · refine not_ptr (not_require (s := V31.sReference) (by kernel_rfl) (k := "$ref") (by decide) ?_) hc
      intro hm
      obtain ⟨⟨k, x⟩, hx, hk⟩ := List.mem_map.1 hm
      simp only at hk
      subst hk
      exact hno ⟨x, hx⟩
    · have hc : Can V31.table N (.named "Example") (.obj ms) := by
        simp only at hc
        rwa [decode_ptr_obj ranked31 rfl] at hc
      have ha := (can_obj ranked31 (s := V31.sExample) (by kernel_rfl) rfl rfl).1 hc
      exact ha.nots .any List.mem_cons_self (can_any hsound.floats)
  · intro ms hr href
    exact both (e := ("LinkOrReference", "link-or-reference", "Link", "link")) (by simp [either31]) hr (by decide) href
      (s := V31.sLink) (by kernel_rfl) (by decide +kernel) (by intro k hk; cases hk) (by decide)
  · intro ms hr href
    exact both (e := ("PathItemOrReference", "path-item-or-reference", "PathItem", "path-item")) (by simp [either31]) hr
      (by decide) href (s := V31.sPathItem) (by kernel_rfl) (by decide +kernel) (by intro k hk; cases hk) (by decide)
  · intro ms hr href hdesc
    refine both (e := ("ResponseOrReference", "response-or-reference", "Response", "response")) (by simp [either31]) hr
      (by decide) href (s := V31.sResponse) (by kernel_rfl) (by decide +kernel) ?_ (by decide)
    intro k hk
    rw [show k = "description" from List.mem_singleton.1 hk]
    obtain ⟨x, hx⟩ := hdesc
    exact List.mem_map.2 ⟨_, hx, rfl⟩
  · intro x hr
    have hsound := hs (by decide) hr
    have hn : GoMap.get? V31.table "ParameterStyle" =
      some (.enum ["form", "spaceDelimited", "pipeDelimited", "deepObject"]) := by kernel_rfl
    have := hsound.read
    rw [Can, decode_enum hn] at this
    cases x with
    | str t =>
      simp only at this
      split at this
      · rename_i hc
        exact ⟨t, List.contains_iff_mem.1 hc, rfl⟩
      · cases this
    | null => simp at this
    | _ => cases this

end Verif.Meta31
