import Verif.Lemmas.LoadFacts

/-! HTTP security schemes and parameters of 3.0 and security schemes of 3.1 that were read can be written. -/

namespace Verif
open Codec Spec

variable {T : Table} {N : Nums} {Ok : String → String → Val → Prop} {P : List (String × Val) → Prop}

theorem rememberNull_id {s : Struct} {ms : List Member} {p : String × Val}
    (h : s.nulls.all (fun n => n.1 != p.1) = true) : rememberNull s ms p = p := by
  unfold rememberNull
  split
  · rename_i e
    split
    · rename_i hany
      exfalso
      rw [List.any_eq_true] at hany
      obtain ⟨n, hn, e⟩ := hany
      simp only [Bool.and_eq_true, beq_iff_eq] at e
      have := List.all_eq_true.1 h n hn
      simp only [bne_iff_ne] at this
      exact this e.1
    · rfl
  · rfl

/-- The checks of the fields and extensions of a struct. -/
def ownOk (bad : List String) (s : Struct) : Bool :=
  s.fields.all (fun f => tyOk bad f.ty && (s.require.contains f.key || zeroOk f.ty)) &&
  s.patterns.all (fun q => tyOk bad q.ty)

theorem ownOk_iff {bad : List String} {s : Struct} (h : ownOk bad s = true) :
    (∀ f ∈ s.fields, tyOk bad f.ty = true ∧ (f.key ∈ s.require ∨ zeroOk f.ty = true)) ∧
    (∀ q ∈ s.patterns, tyOk bad q.ty = true) := by
  simp only [ownOk, Bool.and_eq_true, List.all_eq_true, Bool.or_eq_true, List.contains_iff_mem] at h
  exact h

theorem loaded_ih {bad : List String} {s : Struct} {j : Any} {M : List (String × Any)} {val : String → Val}
    (L : Loaded T N s j M val) (ih : ∀ M, j = .obj M → ∀ p ∈ M, Ind T N Ok P bad p.2) : ∀ p ∈ M, Ind T N Ok P bad p.2 := by
  rcases L.members with e | ⟨_, e⟩
  · exact ih M e
  · subst e; intro p hp; cases hp

theorem loaded_obj {s : Struct} {j : Any} {M : List (String × Any)} {val : String → Val}
    (L : Loaded T N s j M val) {k : String} (h : k ∈ M.map Prod.fst) : j = .obj M := by
  rcases L.members with e | ⟨_, e⟩
  · exact e
  · subst e; cases h

theorem loaded_same {s : Struct} {M M' : List (String × Any)} {val : String → Val}
    (L : Loaded T N s (.obj M) M' val) : M' = M := by
  rcases L.members with e | ⟨h, _⟩
  · exact (Any.obj.inj e).symm
  · exact absurd rfl (h M)

/-- The field of a strict struct has the last value of its key. -/
theorem loaded_last {s : Struct} (hb : Base s) (hs : s.strict = true ∧ s.additional = none)
    (hk : s.known.all (fun k => match fieldOf s.fields k with
      | some f => f.key == k
      | none => true) = true) {j : Any} {M : List (String × Any)} {val : String → Val} (L : Loaded T N s j M val)
    {f : Field} (hf : f ∈ s.fields) (hn : s.nulls.all (fun n => n.1 != f.go) = true) :
    (f.key ∉ M.map Prod.fst ∧ val f.go = zero T f.ty) ∨
      ∃ a, lastValue M f.key = some a ∧ decode T N f.ty a = some (val f.go) := by
  obtain ⟨rd, hr, e⟩ := L.fields f hf
  rw [rememberNull_id hn] at e
  rw [e]
  exact reads_last (hb.own f hf) (fun p hp hfo => strict_key hb hs hk L hp hfo) hr

theorem const_str {x : String} {a : Any} (h : (Const.str x).is a = true) : a = .str x := by
  cases a with
  | str y => simp only [Const.is, beq_iff_eq] at h; rw [h]
  | _ => cases h

theorem const_bool {x : Bool} {a : Any} (h : (Const.bool x).is a = true) : a = .bool x := by
  cases a with
  | bool y => simp only [Const.is, beq_iff_eq] at h; rw [h]
  | _ => cases h

/-! ## HTTP security schemes -/

theorem nonBearer_value {j : Any} {v : Val} (h : decode V30.table N (.named "NonBearer") j = some v) :
    v = .struct [("Scheme", .nil)] ∧ ∀ M, j = .obj M → "bearerFormat" ∉ M.map Prod.fst ∧
      ∀ a, lastValue M "scheme" = some a → a ≠ .str "bearer" := by
  have hn : GoMap.get? V30.table "NonBearer" = some (.struct V30.sNonBearer) := by decide +kernel
  obtain ⟨_, fvals, evals, ovals, rvals, h1, h2, h3, h4, h5, rfl⟩ := (decode_struct_some ranked30 hn).1 h
  have e1 : fvals = [("Scheme", .nil)] := by
    have : decodeFields V30.table V30.sNonBearer (view V30.table N j) = some [("Scheme", .nil)] := by
      unfold decodeFields
      rfl
    exact (Option.some.inj (this.symm.trans h1)).symm
  have e2 : evals = [] := (Option.some.inj h2).symm
  have e3 : ovals = [] := (Option.some.inj h3).symm
  have e5 : rvals = [] := by
    unfold decodeRest at h5
    simp only [V30.sNonBearer, mapAll, Bool.false_and, Bool.false_eq_true, if_false, Option.some.injEq] at h5
    exact h5.symm
  subst e1 e2 e3 e5
  refine ⟨?_, ?_⟩
  · rw [List.append_nil, List.append_nil, List.append_nil, List.map_cons, rememberNull_id (by rfl)]
    rfl
  · rintro M rfl
    have hc := rawChecks_iff.1 h4
    refine ⟨?_, ?_⟩
    · intro hk
      have := hc.2.2.2.2.1 "bearerFormat" (by decide)
      rw [show hasKey (membersOf V30.table N (.obj M)) "bearerFormat" = true from hasKey_obj.2 hk] at this
      cases this
    · rintro a ha rfl
      have := hc.2.2.2.1 ("scheme", .str "bearer") (by decide) (memberOf V30.table N ("scheme", .str "bearer")) (by
        simp only [membersOf]
        rw [rawMap_get?, ha]; rfl)
      cases this

theorem http_load {bad : List String} (hN : NumsOk N)
    (hbad : ownOk bad V30.sHTTPSecurityScheme = true) {j : Any} {v : Val}
    (h : decode V30.table N (.named "HTTPSecurityScheme") j = some v) (hE : Everywhere P v)
    (ih : ∀ M, j = .obj M → ∀ p ∈ M, Ind V30.table N Ok P bad p.2) :
    Writable V30.table N Ok (.named "HTTPSecurityScheme") v := by
  have hn : GoMap.get? V30.table "HTTPSecurityScheme" = some (.struct V30.sHTTPSecurityScheme) := by decide +kernel
  have hb : Base V30.sHTTPSecurityScheme := base_of_check (by decide +kernel)
  obtain ⟨M, val, rfl, L⟩ := loaded ranked30 hn hb.names hb.decodes h
  have ihM := loaded_ih L ih
  have ho := ownOk_iff hbad
  have hlast := fun f hf hnl => loaded_last hb ⟨rfl, rfl⟩ (by decide +kernel) L (f := f) hf hnl
  have hj := loaded_obj L (L.require "type" (by decide))
  subst hj
  have hpat := loaded_patterns ho.2 L hE ihM ⟨.x, "MapOfAnything", .any⟩ (by decide)
  have hscheme : ∃ a, lastValue M "scheme" = some a ∧ decode V30.table N .str a = some (val "Scheme") := by
    rcases hlast ⟨"Scheme", "scheme", .str, false⟩ (by decide) rfl with ⟨h, _⟩ | h
    · exact absurd (L.require "scheme" (by decide)) h
    · exact h
  obtain ⟨a, ha, hd⟩ := hscheme
  refine .http hn val (fun f hf => loaded_fields hN hb ho.1 L hE ihM f hf ?_) hpat.1
    (fun k hk => x_matches.1 (hpat.2 k hk)) ?_
  · rintro ⟨h, _⟩; cases h
  · rcases L.oneOf with e | ⟨e, he, w, hw, hoth, hval⟩
    · cases e
    · have v1 := hval ⟨"Bearer", .ptr (.named "Bearer")⟩ (by decide)
      have v2 := hval ⟨"NonBearer", .ptr (.named "NonBearer")⟩ (by decide)
      simp only [V30.sHTTPSecurityScheme, List.mem_cons, List.not_mem_nil, or_false] at he
      rcases he with rfl | rfl
      · left
        rw [decode_ptr_obj ranked30 rfl] at hw
        have hB : GoMap.get? V30.table "Bearer" = some (.struct V30.sBearer) := by decide +kernel
        obtain ⟨M', val', rfl, L'⟩ := loaded ranked30 hB (by decide) (.inr rfl) hw
        have := loaded_same L'
        subst this
        have := const_str (L'.consts ("scheme", .str "bearer") (by decide) a ha)
        subst this
        rw [decode_str] at hd
        refine ⟨(Option.some.inj hd).symm, .inr v1, v2⟩
      · right
        rw [decode_ptr_obj ranked30 rfl] at hw
        obtain ⟨rfl, hx⟩ := nonBearer_value hw
        obtain ⟨h1, h2⟩ := hx M rfl
        refine ⟨?_, ?_, v1, .inr v2⟩
        · intro e
          rw [e, decode_str] at hd
          split at hd
          · simp only [Option.some.injEq, Val.str.injEq] at hd
            subst hd
            exact h2 _ ha rfl
          · simp at hd
          · cases hd
        · rcases hlast ⟨"BearerFormat", "bearerFormat", .ptr .str, true⟩ (by decide) rfl with ⟨_, h⟩ | ⟨b, hb, _⟩
          · exact h
          · exact absurd (lastValue_key hb) h1

/-! ## Security schemes of 3.1 -/

theorem security_load {bad : List String} (hN : NumsOk N)
    (hbad : ownOk bad V31.sSecurityScheme = true) (hbo : V31.sSecurityScheme.oneOf.all (fun e => tyOk bad e.ty) = true)
    {j : Any} {v : Val}
    (h : decode V31.table N (.named "SecurityScheme") j = some v) (hE : Everywhere P v)
    (ih : ∀ M, j = .obj M → ∀ p ∈ M, Ind V31.table N Ok P bad p.2)
    (ihr : ∀ e ∈ V31.sSecurityScheme.oneOf, ∀ v, tyOk bad e.ty = true → decode V31.table N e.ty j = some v →
      Everywhere P v → Writable V31.table N Ok e.ty v) :
    Writable V31.table N Ok (.named "SecurityScheme") v := by
  have hn : GoMap.get? V31.table "SecurityScheme" = some (.struct V31.sSecurityScheme) := by decide +kernel
  have hb : Base V31.sSecurityScheme := base_of_check (by decide +kernel)
  obtain ⟨M, val, rfl, L⟩ := loaded ranked31 hn hb.names hb.decodes h
  have ihM := loaded_ih L ih
  have ho := ownOk_iff hbad
  have hj := loaded_obj L (L.require "type" (by decide))
  subst hj
  have hpat := loaded_patterns ho.2 L hE ihM ⟨.x, "MapOfAnything", .any⟩ (by decide)
  rcases L.oneOf with e | ⟨e, he, w, hw, hoth, hval⟩
  · cases e
  · have hv : val e.go = w := by rw [hval e he, if_pos rfl]
    have hch : V31.sSecurityScheme.oneOf.all (fun e => match e.ty with
      | .ptr t => notPtr t
      | _ => false) = true := by decide
    have := List.all_eq_true.1 hch e he
    obtain ⟨go, ty⟩ := e
    cases ty with
    | ptr t =>
      simp only at this
      refine .security hn val (fun f hf => loaded_fields hN hb ho.1 L hE ihM f hf (by rintro ⟨h, _⟩; cases h)) hpat.1
        (fun k hk => x_matches.1 (hpat.2 k hk)) he ?_ ?_ ?_
      · simp only at hv hw
        rw [hv]
        rw [decode_ptr_obj ranked31 this] at hw
        exact (decode_ne_nil ranked31 this (by intro h; cases h) hw).1
      · have hEv := hE.field (go := go) (oneOf_name he)
        simp only at hv hw
        rw [hv] at hEv ⊢
        exact ihr _ he w (List.all_eq_true.1 hbo _ he) hw hEv
      · intro h hh hne
        rw [hval h hh, if_neg hne]
    | _ => cases this

/-! ## Parameters of 3.0 -/

/-- The keys of a parameter that are for a field of this name. -/
theorem parameter_key {M : List (String × Any)} {j : Any} {val : String → Val} (hb : Base V30.sParameter)
    (L : Loaded V30.table N V30.sParameter j M val) {fs : List Field} {k : String}
    (hk : V30.sParameter.known.all (fun f => f == k || (fieldOf fs f).isNone) = true)
    (hx : fs.all (fun f => keyFree .x f.key) = true) {p : String × Any} (hp : p ∈ M) {f : Field}
    (hf : fieldOf fs p.1 = some f) : p.1 = k := by
  by_cases hkept : kept V30.sParameter p.1 = true
  · exfalso
    obtain ⟨q, hq, hm⟩ := L.strict rfl rfl p hp hkept
    simp only [V30.sParameter, List.mem_cons, List.not_mem_nil, or_false] at hq
    subst hq
    obtain ⟨h1, h2⟩ := fieldOf_mem' hf
    exact absurd h2 (keyFree_sound (List.all_eq_true.1 hx f h1) hm)
  · have hk' : p.1 ∈ V30.sParameter.known := by
      simp only [kept, Bool.not_eq_true', Bool.not_eq_false, Bool.or_eq_true, List.contains_iff_mem,
        List.any_eq_true, beq_iff_eq, hb.notConsts, List.not_mem_nil, false_and, exists_false, or_false] at hkept
      rcases hkept with h | ⟨c, hc, _⟩
      · exact h
      · cases hc
    have := List.all_eq_true.1 hk p.1 hk'
    simp only [Bool.or_eq_true, beq_iff_eq, Option.isNone_iff_eq_none] at this
    rcases this with h | h
    · exact h
    · rw [h] at hf; cases hf

/-- The raw copy holds what can be read as it is. -/
theorem rawCopy_stable (hN : NumsOk N) {j : Any} {b : Any} (hb : j ≠ .null)
    (h : decode V30.table N (.ptr (.named "SchemaXORContent")) j = some (xorSchema b) ∨
      decode V30.table N (.ptr (.named "SchemaXORContent")) j = some (xorContent b)) : decodeAny N b = some b := by
  have key : ∀ v, decode V30.table N (.ptr (.named "SchemaXORContent")) j = some v →
      ∃ val, v = structOf V30.sSchemaXORContent val ∧ ∃ e ∈ V30.sSchemaXORContent.oneOf, ∃ w,
        decode V30.table N e.ty j = some w ∧ ∀ e' ∈ V30.sSchemaXORContent.oneOf, val e'.go = if e'.go = e.go then w else .nil := by
    intro v hv
    rw [decode_ptr ranked30 rfl] at hv
    have hv' : decode V30.table N (.named "SchemaXORContent") j = some v := by
      cases j <;> first | exact hv | exact absurd rfl hb
    obtain ⟨M, val, rfl, L⟩ := loaded ranked30 (s := V30.sSchemaXORContent) (by decide +kernel) (by decide) (.inr rfl) hv'
    rcases L.oneOf with e | ⟨e, he, w, hw, _, hval⟩
    · cases e
    · exact ⟨val, rfl, e, he, w, hw, hval⟩
  have has : ∀ n go key s w, GoMap.get? V30.table n = some (.struct s) → s.fields = [⟨go, key, .any, false⟩] →
      s.names = [go] → s.decodes = true → s.nulls = [] → decode V30.table N (.ptr (.named n)) j = some w →
      ∀ b, w = .struct [(go, .any b)] → decodeAny N b = some b := by
    intro n go key s w hn hf hnm hdec hnul hw b e
    rw [decode_ptr ranked30 rfl] at hw
    have hw' : decode V30.table N (.named n) j = some w := by
      cases j <;> first | exact hw | exact absurd rfl hb
    obtain ⟨M, val, rfl, L⟩ := loaded ranked30 hn (by rw [hnm]; simp) (.inl hdec) hw'
    obtain ⟨rd, hr, ev⟩ := L.fields ⟨go, key, .any, false⟩ (by rw [hf]; simp)
    rw [rememberNull_id (by rw [hnul]; rfl)] at ev
    have hval : val go = .any b := by
      unfold structOf at e
      rw [hnm] at e
      simpa using e
    simp only at ev
    rw [ev] at hval
    rcases hr with ⟨_, ⟨_, h⟩ | ⟨M1, p, M2, _, _, hd, _⟩⟩
    · rw [h] at hval
      simp only [zero, Val.any.injEq] at hval
      rw [← hval]; rfl
    · rw [decode_any, Option.map_eq_some_iff] at hd
      obtain ⟨x, hx, hd⟩ := hd
      rw [hval] at hd
      cases hd
      exact decodeAny_stable hN hx
  have hS := fun w => has "HasSchema" "Schema" "schema" V30.sHasSchema w (by decide +kernel) rfl rfl rfl rfl
  have hC := fun w => has "HasContent" "Content" "content" V30.sHasContent w (by decide +kernel) rfl rfl rfl rfl
  rcases h with h | h
  · obtain ⟨val, e, a, ha, w, hw, hval⟩ := key _ h
    have e1 : val "HasSchema" = .struct [("Schema", .any b)] := by
      have := e
      simp only [xorSchema, structOf, Val.struct.injEq] at this
      exact (Prod.mk.inj (List.cons.inj this).1).2.symm
    have v1 := hval ⟨"HasSchema", .ptr (.named "HasSchema")⟩ (by decide)
    simp only [V30.sSchemaXORContent, List.mem_cons, List.not_mem_nil, or_false] at ha
    rcases ha with rfl | rfl
    · rw [e1] at v1
      exact hS w hw b v1.symm
    · rw [e1] at v1; cases v1
  · obtain ⟨val, e, a, ha, w, hw, hval⟩ := key _ h
    have e1 : val "HasContent" = .struct [("Content", .any b)] := by
      have := e
      simp only [xorContent, structOf, Val.struct.injEq] at this
      exact (Prod.mk.inj (List.cons.inj (List.cons.inj this).2).1).2.symm
    have v1 := hval ⟨"HasContent", .ptr (.named "HasContent")⟩ (by decide)
    simp only [V30.sSchemaXORContent, List.mem_cons, List.not_mem_nil, or_false] at ha
    rcases ha with rfl | rfl
    · rw [e1] at v1; cases v1
    · rw [e1] at v1
      exact hC w hw b v1.symm

/-- A style that was read is one of the values, and both copies of it are the same. -/
theorem style_read {a : Any} {e : String} {vs : List String} (he : GoMap.get? V30.table e = some (.enum vs)) {x y : Val}
    (h1 : decode V30.table N (.ptr .str) a = some x) (h2 : decode V30.table N (.ptr (.named e)) a = some y) :
    x = y ∧ (x = .nil ∨ ∃ st ∈ vs, x = .str st) := by
  rw [decode_ptr ranked30 rfl] at h1 h2
  cases a with
  | null => cases h1; cases h2; exact ⟨rfl, .inl rfl⟩
  | str s =>
    simp only [decode_str] at h1
    simp only [decode_enum he] at h2
    split at h2
    · rename_i hc
      cases h1; cases h2
      exact ⟨rfl, .inr ⟨s, List.contains_iff_mem.1 hc, rfl⟩⟩
    · cases h2
  | _ => simp only [decode_str] at h1; cases h1

theorem parameter_load {bad : List String} (hN : NumsOk N)
    (hbad : ownOk bad V30.sParameter = true) {j : Any} {v : Val}
    (h : decode V30.table N (.named "Parameter") j = some v) (hE : Everywhere (clean30 N) v)
    (ih : ∀ M, j = .obj M → ∀ p ∈ M, Ind V30.table N Ok (clean30 N) bad p.2) :
    Writable V30.table N Ok (.named "Parameter") v := by
  have hn : GoMap.get? V30.table "Parameter" = some (.struct V30.sParameter) := by decide +kernel
  have hb : Base V30.sParameter := base_of_check (by decide +kernel)
  obtain ⟨M, val, rfl, L⟩ := loaded ranked30 hn hb.names hb.decodes h
  have ihM := loaded_ih L ih
  have ho := ownOk_iff hbad
  have hlast := fun f hf hnl => loaded_last hb ⟨rfl, rfl⟩ (by decide +kernel) L (f := f) hf hnl
  have hj := loaded_obj L (L.require "in" (by decide))
  subst hj
  have hpat := loaded_patterns ho.2 L hE ihM ⟨.x, "MapOfAnything", .any⟩ (by decide)
  -- schema or content
  have hP := hE.self (ms := V30.sParameter.names.map (fun go => (go, val go))) (names_of val)
  simp only [fieldIn_of val (show "SchemaXORContent" ∈ V30.sParameter.names by decide),
    fieldIn_of val (show "Schema" ∈ V30.sParameter.names by decide),
    fieldIn_of val (show "Content" ∈ V30.sParameter.names by decide)] at hP
  have hxor := L.embeds ⟨"SchemaXORContent", .ptr (.named "SchemaXORContent")⟩ (by decide)
  simp only at hxor
  have hx : ∃ a, (val "Schema" ≠ .nil ∧ isEmpty (val "Content") = true ∧
          encode V30.table (.ptr (.named "SchemaOrRef")) (val "Schema") = some a ∧
          ((val "SchemaXORContent" = .nil ∧ decodeAny N a ≠ none) ∨
            (val "SchemaXORContent" = xorSchema a ∧ decodeAny N a = some a) ∨
            (decodeAny N a ≠ none ∧ ∃ b w, val "SchemaXORContent" = xorSchema b ∧ decodeAny N b = some b ∧
              decode V30.table N (.ptr (.named "SchemaOrRef")) b = some w ∧ Same (val "Schema") w))) ∨
        (val "Schema" = .nil ∧ isEmpty (val "Content") = false ∧
          encode V30.table (.map (.named "MediaType")) (val "Content") = some a ∧
          ((val "SchemaXORContent" = .nil ∧ decodeAny N a ≠ none) ∨
            (val "SchemaXORContent" = xorContent a ∧ decodeAny N a = some a) ∨
            (decodeAny N a ≠ none ∧ ∃ b w, val "SchemaXORContent" = xorContent b ∧ decodeAny N b = some b ∧
              decode V30.table N (.map (.named "MediaType")) b = some w ∧ Same (val "Content") w))) := by
    rcases hP with ⟨b, e, h1, h2, ⟨w, hw, hs⟩, a, ha, hd⟩ | ⟨b, e, h1, h2, ⟨w, hw, hs⟩, a, ha, hd⟩
    · rw [e] at hxor
      exact ⟨a, .inl ⟨h1, h2, ha, .inr (.inr ⟨hd, b, w, e,
        rawCopy_stable hN (by intro h; cases h) (.inl hxor), hw, hs⟩)⟩⟩
    · rw [e] at hxor
      exact ⟨a, .inr ⟨h1, h2, ha, .inr (.inr ⟨hd, b, w, e,
        rawCopy_stable hN (by intro h; cases h) (.inr hxor), hw, hs⟩)⟩⟩
  obtain ⟨a, hx⟩ := hx
  -- the location
  have hin : ∃ i, lastValue M "in" = some (.str i) ∧ val "In" = .str i := by
    rcases hlast ⟨"In", "in", .named "ParameterIn", false⟩ (by decide) rfl with ⟨h, _⟩ | ⟨a, ha, hd⟩
    · exact absurd (L.require "in" (by decide)) h
    · have he : GoMap.get? V30.table "ParameterIn" = some (.enum ["path", "query", "header", "cookie"]) := by
        decide +kernel
      simp only [decode_enum he] at hd
      cases a with
      | str i =>
        simp only at hd
        split at hd
        · exact ⟨i, ha, (Option.some.inj hd).symm⟩
        · cases hd
      | null => cases hd
      | _ => cases hd
  obtain ⟨i, hin, hIn⟩ := hin
  have hstyle := hlast ⟨"Style", "style", .ptr .str, true⟩ (by decide) rfl
  have hreqd := hlast ⟨"Required", "required", .ptr .bool, true⟩ (by decide) rfl
  have hloc := L.embeds ⟨"Location", .ptr (.named "ParameterLocation")⟩ (by decide)
  simp only [decode_ptr_obj ranked30 (show notPtr (.named "ParameterLocation") = true from rfl)] at hloc
  obtain ⟨ML, lval, hL, LL⟩ := loaded ranked30 (s := V30.sParameterLocation) (by decide +kernel) (by decide) (.inr rfl) hloc
  have := loaded_same LL
  subst this
  have hlocation : (i = "path" → val "Required" = .bool true) ∧
      (val "Style" = .nil ∨ ∃ st ∈ styles i, val "Style" = .str st) ∧
      ((i ∈ ["path", "query"] ∧ val "Location" = location i (.struct [("Style", val "Style")])) ∨
        (i ∈ ["header", "cookie"] ∧ val "Location" = location i (.struct []))) := by
    rcases LL.oneOf with e | ⟨e, he, w, hw, hoth, hval⟩
    · cases e
    · have v1 := hval ⟨"PathParameter", .ptr (.named "PathParameter")⟩ (by decide)
      have v2 := hval ⟨"QueryParameter", .ptr (.named "QueryParameter")⟩ (by decide)
      have v3 := hval ⟨"HeaderParameter", .ptr (.named "HeaderParameter")⟩ (by decide)
      have v4 := hval ⟨"CookieParameter", .ptr (.named "CookieParameter")⟩ (by decide)
      have hL' : val "Location" = .struct [("PathParameter", lval "PathParameter"), ("QueryParameter", lval "QueryParameter"),
        ("HeaderParameter", lval "HeaderParameter"), ("CookieParameter", lval "CookieParameter")] := hL
      -- alternatives with a style
      have styled : ∀ n en vs s x, GoMap.get? V30.table n = some (.struct s) → GoMap.get? V30.table en = some (.enum vs) →
          s.fields = [⟨"Style", "style", .ptr (.named en), true⟩] → s.names = ["Style"] → s.decodes = true → s.nulls = [] →
          ("in", .str x) ∈ s.consts → decode V30.table N (.ptr (.named n)) (.obj ML) = some w →
          i = x ∧ w = .struct [("Style", val "Style")] ∧ (val "Style" = .nil ∨ ∃ st ∈ vs, val "Style" = .str st) ∧
          (∀ k ∈ s.require, k ∈ ML.map Prod.fst) ∧ ∀ c ∈ s.consts, ∀ a, lastValue ML c.1 = some a → c.2.is a = true := by
        intro n en vs s x hn he hf hnm hdec hnul hc hw
        rw [decode_ptr_obj ranked30 rfl] at hw
        obtain ⟨M', val', rfl, L'⟩ := loaded ranked30 hn (by rw [hnm]; simp) (.inl hdec) hw
        have := loaded_same L'
        subst this
        have hi := const_str (L'.consts _ hc _ hin)
        obtain ⟨rd, hr, ev⟩ := L'.fields ⟨"Style", "style", .ptr (.named en), true⟩ (by rw [hf]; simp)
        rw [rememberNull_id (by rw [hnul]; rfl)] at ev
        have hw : structOf s val' = .struct [("Style", val' "Style")] := by
          unfold structOf; rw [hnm]; rfl
        rw [hf] at hr
        simp only at ev
        rw [hw, ev]
        have hr := reads_last (by rfl) (fun p hp hfo => parameter_key hb L (k := "style") (by kernel_rfl) (by kernel_rfl) hp hfo) hr
        have hst : rd = val "Style" ∧ (val "Style" = .nil ∨ ∃ st ∈ vs, val "Style" = .str st) := by
          rcases hr with ⟨h1, h2⟩ | ⟨a, h1, h2⟩
          · rcases hstyle with ⟨_, h4⟩ | ⟨a, h3, _⟩
            · simp only [zero] at h2 h4
              rw [h2, h4]
              exact ⟨rfl, .inl rfl⟩
            · exact absurd (lastValue_key h3) h1
          · rcases hstyle with ⟨h3, _⟩ | ⟨a', h3, h4⟩
            · exact absurd (lastValue_key h1) h3
            · simp only at h1 h3 h2 h4
              rw [h1] at h3
              cases h3
              obtain ⟨e1, e2⟩ := style_read he h4 h2
              exact ⟨e1.symm, e2⟩
        exact ⟨Any.str.inj hi, by rw [hst.1], hst.2, L'.require, L'.consts⟩
      -- alternatives without
      have fixed : ∀ n s x st, GoMap.get? V30.table n = some (.struct s) → s.fields = [] → s.names = [] →
          ("in", .str x) ∈ s.consts → ("style", .str st) ∈ s.consts →
          decode V30.table N (.ptr (.named n)) (.obj ML) = some w →
          i = x ∧ w = .struct [] ∧ (val "Style" = .nil ∨ val "Style" = .str st) := by
        intro n s x st hn hf hnm hc hc' hw
        rw [decode_ptr_obj ranked30 rfl] at hw
        obtain ⟨M', val', rfl, L'⟩ := loaded ranked30 hn (by rw [hnm]; simp) (.inr hf) hw
        have := loaded_same L'
        subst this
        have hi := const_str (L'.consts _ hc _ hin)
        refine ⟨Any.str.inj hi, by unfold structOf; rw [hnm]; rfl, ?_⟩
        rcases hstyle with ⟨_, h⟩ | ⟨a, h1, h2⟩
        · exact .inl h
        · have := const_str (L'.consts _ hc' _ h1)
          subst this
          rw [decode_ptr ranked30 rfl] at h2
          exact .inr (Option.some.inj h2).symm
      simp only [V30.sParameterLocation, List.mem_cons, List.not_mem_nil, or_false] at he
      rcases he with rfl | rfl | rfl | rfl
      · obtain ⟨rfl, rfl, hs, hr, hc⟩ := styled "PathParameter" "PathParameterStyle" ["matrix", "label", "simple"]
          V30.sPathParameter "path" (by decide +kernel) (by decide +kernel) rfl rfl rfl rfl (by decide) hw
        refine ⟨?_, hs, .inl ⟨by decide, ?_⟩⟩
        · intro _
          rcases hreqd with ⟨h, _⟩ | ⟨a, h1, h2⟩
          · exact absurd (hr "required" (by decide)) h
          · have := const_bool (hc ("required", .bool true) (by decide) a h1)
            subst this
            rw [decode_ptr ranked30 rfl] at h2
            exact (Option.some.inj h2).symm
        · rw [hL', v1, v2, v3, v4]; rfl
      · obtain ⟨rfl, rfl, hs, _⟩ := styled "QueryParameter" "QueryParameterStyle"
          ["form", "spaceDelimited", "pipeDelimited", "deepObject"] V30.sQueryParameter "query" (by decide +kernel)
          (by decide +kernel) rfl rfl rfl rfl (by decide) hw
        refine ⟨by intro e; simp at e, hs, .inl ⟨by decide, ?_⟩⟩
        rw [hL', v1, v2, v3, v4]; rfl
      · obtain ⟨rfl, rfl, hs⟩ := fixed "HeaderParameter" V30.sHeaderParameter "header" "simple" (by decide +kernel) rfl rfl
          (by decide) (by decide) hw
        refine ⟨by intro e; simp at e, ?_, .inr ⟨by decide, ?_⟩⟩
        · rcases hs with h | h
          · exact .inl h
          · exact .inr ⟨_, by decide, h⟩
        · rw [hL', v1, v2, v3, v4]; rfl
      · obtain ⟨rfl, rfl, hs⟩ := fixed "CookieParameter" V30.sCookieParameter "cookie" "form" (by decide +kernel) rfl rfl
          (by decide) (by decide) hw
        refine ⟨by intro e; simp at e, ?_, .inr ⟨by decide, ?_⟩⟩
        · rcases hs with h | h
          · exact .inl h
          · exact .inr ⟨_, by decide, h⟩
        · rw [hL', v1, v2, v3, v4]; rfl
  exact .parameter hn val (loaded_fields hN hb ho.1 L hE ihM) hpat.1 (fun k hk => x_matches.1 (hpat.2 k hk)) hx hIn hlocation.1
    hlocation.2.1 (.inr hlocation.2.2)

end Verif
