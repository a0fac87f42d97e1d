import Verif.Lemmas.RoundTripUnion

/-! Every writable value is read back, given some facts about the table. -/

namespace Verif
open Codec Spec

variable {T : Table} {N : Nums}

/-- What is known about the JSON of a value of a struct type. -/
def Shape (T : Table) (N : Nums) (n : String) (s : Struct) (v : Val) : Prop :=
  (s.embeds = [] ∧ s.oneOf = [] → ∃ val, v = structOf s val ∧ Plain s ∧ PlainVal T N s val) ∧
  (¬(s.embeds = [] ∧ s.oneOf = []) → n = "SchemaAdditionalProperties" ∨
    ∃ M, encode T (.named n) v = some (.obj M) ∧ (n = "Parameter" ∨ n = "HTTPSecurityScheme" → Profile s M) ∧
      (n = "SecurityScheme" → "$ref" ∉ M.map Prod.fst))

/-- The same for all types. -/
def Deep (T : Table) (N : Nums) : Ty → Val → Prop
  | .ptr t, v => v = .nil ∨ (v ≠ .nil ∧ v ≠ .any .null ∧ notPtr t = true ∧ Deep T N t v)
  | .map t, v => MapGood T N t v
  | .named n, v => ∀ s, GoMap.get? T n = some (.struct s) → Shape T N n s v
  | _, _ => True

/-- A value is read back, and only nil values are written as `null`. -/
structure Good (T : Table) (N : Nums) (ty : Ty) (v : Val) : Prop where
  rt : Rt T N ty v
  deep : Deep T N ty v
  null : encode T ty v = some .null → v = .nil ∨ v = .any .null

/-- A plain value, or a parameter, or an HTTP security scheme, is written as an object with the members of its
struct. -/
theorem deep_profile {n : String} {s : Struct} (hn : GoMap.get? T n = some (.struct s)) {v : Val}
    (h : Deep T N (.named n) v) (hp : (s.embeds = [] ∧ s.oneOf = []) ∨ n = "Parameter" ∨ n = "HTTPSecurityScheme") :
    ∃ M, encode T (.named n) v = some (.obj M) ∧ Profile s M := by
  obtain ⟨h1, h2⟩ := h s hn
  by_cases hs : s.embeds = [] ∧ s.oneOf = []
  · obtain ⟨val, rfl, hb, hv⟩ := h1 hs
    refine ⟨_, encode_plainVal hn hb hv, profile_members hb.toBase hv.patKeys ?_ ?_⟩
    · intro p hp; cases hp
    · intro p hp; cases hp
  · have hp : n = "Parameter" ∨ n = "HTTPSecurityScheme" := by
      rcases hp with h | h
      · exact absurd h hs
      · exact h
    rcases h2 hs with h | ⟨M, hM, h', _⟩
    · rw [h] at hp
      exact absurd hp (by decide)
    · exact ⟨M, hM, h' hp⟩

/-- An object is written for all struct types but one. -/
theorem deep_obj {n : String} {s : Struct} (hn : GoMap.get? T n = some (.struct s)) {v : Val}
    (h : Deep T N (.named n) v) (hp : n ≠ "SchemaAdditionalProperties") :
    ∃ M, encode T (.named n) v = some (.obj M) := by
  obtain ⟨h1, h2⟩ := h s hn
  by_cases hs : s.embeds = [] ∧ s.oneOf = []
  · obtain ⟨val, rfl, hb, hv⟩ := h1 hs
    exact ⟨_, encode_plainVal hn hb hv⟩
  · rcases h2 hs with h | ⟨M, hM, h', _⟩
    · exact absurd h hp
    · exact ⟨M, hM⟩

/-- The facts about a table. -/
structure Facts (T : Table) (N : Nums) (Ok : String → String → Val → Prop) : Prop where
  ranked : Ranked T
  plain : ∀ n s, GoMap.get? T n = some (.struct s) → s.embeds = [] ∧ s.oneOf = [] → n ≠ "NonBearer" → Plain s
  union : ∀ n s, GoMap.get? T n = some (.struct s) →
    s = { oneOf := s.oneOf, parts := s.oneOf.map (fun h => .hidden h.go) } → s.oneOf ≠ [] →
    unionCheckTy s = true ∧ n ≠ "Parameter" ∧ n ≠ "HTTPSecurityScheme" ∧
    ∀ go t v, ⟨go, .ptr t⟩ ∈ s.oneOf → v ≠ .nil → Good T N (.ptr t) v → Ok n go v →
      ∀ j, encode T (.ptr t) v = some j →
        (∀ e ∈ s.oneOf, e.go ≠ go → decode T N e.ty j = none) ∧
        (n = "SchemaAdditionalProperties" ∨ ∃ M, j = .obj M ∧ (n = "SecurityScheme" → "$ref" ∉ M.map Prod.fst))
  http : GoMap.get? T "HTTPSecurityScheme" = some (.struct V30.sHTTPSecurityScheme) → ∀ val : String → Val,
    (∀ f ∈ V30.sHTTPSecurityScheme.fields, Good T N f.ty (val f.go)) →
    Good T N (.map .any) (val "MapOfAnything") → (∀ k ∈ keysOf (val "MapOfAnything"), IsExtension k) →
    ((val "Scheme" = .str "bearer" ∧ (val "Bearer" = .nil ∨ val "Bearer" = .struct []) ∧ val "NonBearer" = .nil) ∨
      (val "Scheme" ≠ .str "bearer" ∧ val "BearerFormat" = .nil ∧ val "Bearer" = .nil ∧
        (val "NonBearer" = .nil ∨ val "NonBearer" = .struct [("Scheme", .nil)]))) →
    Good T N (.named "HTTPSecurityScheme") (structOf V30.sHTTPSecurityScheme val)
  security : GoMap.get? T "SecurityScheme" = some (.struct V31.sSecurityScheme) → ∀ val : String → Val,
    (∀ f ∈ V31.sSecurityScheme.fields, Good T N f.ty (val f.go)) →
    Good T N (.map .any) (val "MapOfAnything") → (∀ k ∈ keysOf (val "MapOfAnything"), IsExtension k) →
    ∀ go t, ⟨go, .ptr t⟩ ∈ V31.sSecurityScheme.oneOf → val go ≠ .nil → Good T N (.ptr t) (val go) →
    (∀ h ∈ V31.sSecurityScheme.oneOf, h.go ≠ go → val h.go = .nil) →
    Good T N (.named "SecurityScheme") (structOf V31.sSecurityScheme val)
  parameter : GoMap.get? T "Parameter" = some (.struct V30.sParameter) → ∀ val : String → Val,
    (∀ f ∈ V30.sParameter.fields, ¬ExplicitNull V30.sParameter f (val f.go) → Good T N f.ty (val f.go)) →
    Good T N (.map .any) (val "MapOfAnything") → (∀ k ∈ keysOf (val "MapOfAnything"), IsExtension k) →
    ∀ a : Any,
    ((val "Schema" ≠ .nil ∧ isEmpty (val "Content") = true ∧
        encode T (.ptr (.named "SchemaOrRef")) (val "Schema") = some a ∧
        ((val "SchemaXORContent" = .nil ∧ decodeAny N a ≠ none) ∨
          (val "SchemaXORContent" = xorSchema a ∧ decodeAny N a = some a) ∨
          (decodeAny N a ≠ none ∧ ∃ b w, val "SchemaXORContent" = xorSchema b ∧ decodeAny N b = some b ∧
            decode T N (.ptr (.named "SchemaOrRef")) b = some w ∧ Same (val "Schema") w))) ∨
      (val "Schema" = .nil ∧ isEmpty (val "Content") = false ∧
        encode T (.map (.named "MediaType")) (val "Content") = some a ∧
        ((val "SchemaXORContent" = .nil ∧ decodeAny N a ≠ none) ∨
          (val "SchemaXORContent" = xorContent a ∧ decodeAny N a = some a) ∨
          (decodeAny N a ≠ none ∧ ∃ b w, val "SchemaXORContent" = xorContent b ∧ decodeAny N b = some b ∧
            decode T N (.map (.named "MediaType")) b = some w ∧ Same (val "Content") w)))) →
    ∀ i : String, val "In" = .str i → (i = "path" → val "Required" = .bool true) →
    (val "Style" = .nil ∨ ∃ st ∈ styles i, val "Style" = .str st) →
    (val "Location" = .nil ∨
      (i ∈ ["path", "query"] ∧ val "Location" = location i (.struct [("Style", val "Style")])) ∨
      (i ∈ ["header", "cookie"] ∧ val "Location" = location i (.struct []))) →
    Good T N (.named "Parameter") (structOf V30.sParameter val)

theorem decode_ptr_null (t : Ty) : decode T N (.ptr t) .null = some .nil := by
  show decodeView T N .null (view T N .null) (15 + 1) (.ptr t) = _
  rw [decodeView_ptr]
  rfl

theorem writable_good {Ok : String → String → Val → Prop} (F : Facts T N Ok) {ty : Ty} {v : Val}
    (h : Writable T N Ok ty v) : Good T N ty v := by
  induction h with
  | any h =>
    refine ⟨⟨_, _, rfl, by rw [decode_any, h]; rfl, .same _⟩, trivial, ?_⟩
    intro e
    simp only [encode_any, Option.some.injEq] at e
    rw [e]; exact .inr rfl
  | bool b => exact ⟨⟨_, _, rfl, by rw [decode_bool], .same _⟩, trivial, by intro e; cases e⟩
  | str s => exact ⟨⟨_, _, rfl, by rw [decode_str], .same _⟩, trivial, by intro e; cases e⟩
  | int h => exact ⟨⟨_, _, rfl, by rw [decode_int]; simp [h], .same _⟩, trivial, by intro e; cases e⟩
  | float h => exact ⟨⟨_, _, rfl, by rw [decode_float]; simp [h], .same _⟩, trivial, by intro e; cases e⟩
  | nilPtr t => exact ⟨⟨_, _, rfl, decode_ptr_null t, .same _⟩, .inl rfl, fun _ => .inl rfl⟩
  | @ptr t v ht h1 h2 h ih =>
    obtain ⟨⟨j, w, he, hd, hs⟩, hdeep, hnull⟩ := ih
    refine ⟨⟨j, w, by rw [encode_ptr T h1, he], ?_, hs⟩, .inr ⟨h1, h2, ht, hdeep⟩, ?_⟩
    · rw [decode_ptr F.ranked ht]
      have : j ≠ .null := by
        rintro rfl
        rcases hnull he with e | e
        · exact h1 e
        · exact h2 e
      cases j with
      | null => exact absurd rfl this
      | _ => exact hd
    · rw [encode_ptr T h1]
      exact hnull
  | nilSlice t => exact ⟨⟨_, _, rfl, by rw [decode_slice], .same _⟩, trivial, fun _ => .inl rfl⟩
  | @slice t vs h ih =>
    have he : encode T (.slice t) (.list vs) = some (.arr (vs.map (enc T t))) := by
      rw [encode_slice, mapAll_some_of (g := enc T t)]
      · rfl
      · intro x hx; exact enc_some (ih x hx).rt.writes
    refine ⟨⟨_, .list (vs.map (rt T N t)), he, ?_, .list ?_⟩, trivial, by rw [he]; intro e; cases e⟩
    · rw [decode_slice]
      simp only
      rw [mapAll_map, mapAll_some_of (g := rt T N t)]
      · rfl
      · intro x hx; exact (ih x hx).rt.reads
    · have := sameList_map (l := vs) (a := fun x => x) (b := rt T N t) (fun x hx => (ih x hx).rt.same)
      rwa [List.map_id'] at this
  | nilMap t => exact ⟨⟨_, _, rfl, by rw [decode_map], .same _⟩, .inl rfl, fun _ => .inl rfl⟩
  | @map t ms hk h ih =>
    have hg : MapGood T N t (.map ms) := .inr ⟨ms, rfl, hk, fun p hp => (ih p.1 p.2 hp).rt⟩
    have he : encode T (.map t) (.map ms) = some (.obj (ms.map (fun p => (p.1, enc T t p.2)))) := by
      rw [encode_map, mapAll_some_of (g := fun p => (p.1, enc T t p.2))]
      · rfl
      · intro p hp
        rw [enc_some (ih p.1 p.2 hp).rt.writes]
        rfl
    refine ⟨⟨_, .map (ms.map (fun p => (p.1, rt T N t p.2))), he, ?_, .map ?_⟩, hg, by rw [he]; intro e; cases e⟩
    · rw [decode_map]
      simp only
      rw [mapAll_map, mapAll_some_of (g := fun p => (p.1, rt T N t p.2))]
      · rw [Option.map_some, lastWins_nodup]
        simpa [Function.comp_def] using hk
      · intro p hp
        rw [(ih p.1 p.2 hp).rt.reads]
        rfl
    · have := sameEntries_map (l := ms) (g := Prod.fst) (a := Prod.snd) (b := fun p => rt T N t p.2)
        (fun p hp => (ih p.1 p.2 hp).rt.same)
      rwa [show ms.map (fun x => (x.1, x.2)) = ms from List.map_id _] at this
  | @enum n values hn s h =>
    have hc : values.contains s = true := List.contains_iff_mem.2 h
    refine ⟨⟨.str s, .str s, by rw [encode_enum hn, if_pos hc], ?_, .same _⟩, ?_, ?_⟩
    · rw [decode_enum hn]
      simp only
      rw [if_pos hc]
    · intro s' hs'
      rw [hn] at hs'
      cases hs'
    · rw [encode_enum hn, if_pos hc]
      intro e; cases e
  | @plain n s hn hs hb val hf hp hpk ha hak hone hlow hnot ihf ihp iha =>
    have P := F.plain n s hn hs hb
    have V : PlainVal T N s val := by
      refine ⟨?_, ?_, hpk, ?_, hak, hone, hlow⟩
      · intro f hff
        by_cases hx : ExplicitNull s f (val f.go)
        · exact .inl hx
        · exact .inr (ihf f hff hx).rt
      · intro q hq; exact (ihp q hq).deep
      · intro a haa; exact (iha a haa).deep
    refine ⟨plain_rt F.ranked hn P hs V ?_, ?_, ?_⟩
    · intro t ht
      obtain ⟨m, sm, k, rfl, hm, hk, ho⟩ := hnot t ht
      apply decode_missing F.ranked hm hk
      exact omitted_key P.toBase hpk ho
    · intro s' hs'
      rw [hn] at hs'
      cases hs'
      exact ⟨fun _ => ⟨val, rfl, P, V⟩, fun h => absurd hs h⟩
    · rw [encode_plainVal hn P V]
      intro e; cases e
  | @union n s hn hs go t v ho hv h hok ih =>
    obtain ⟨h1, h2, h3, h4⟩ := F.union n s hn hs (List.ne_nil_of_mem ho)
    obtain ⟨⟨j, w, he, hd, hsame⟩, hdeep, hnull⟩ := ih
    have hj : j ≠ .null := by
      rintro rfl
      rcases hnull he with e | e
      · exact hv e
      · rcases hdeep with e' | e'
        · exact hv e'
        · exact e'.2.1 e
    obtain ⟨h5, h6⟩ := h4 go t v ho hv ⟨⟨j, w, he, hd, hsame⟩, hdeep, hnull⟩ hok j he
    have henc := encode_union hn hs h1 ho he hj
    refine ⟨⟨j, _, henc, decode_union F.ranked hn hs h1 ho hd h5, .struct ?_⟩, ?_, ?_⟩
    · apply sameEntries_map (g := Hidden.go)
      intro e _
      split
      · exact hsame
      · exact .same _
    · intro s' hs'
      rw [hn] at hs'
      cases hs'
      refine ⟨fun e => absurd e.2 (List.ne_nil_of_mem ho), fun _ => ?_⟩
      rcases h6 with h6 | ⟨M, rfl, h6⟩
      · exact .inl h6
      · exact .inr ⟨M, henc, fun e => e.elim (fun e => absurd e h2) (fun e => absurd e h3), h6⟩
    · rw [henc]
      intro e
      exact absurd (Option.some.inj e) hj
  | http hn val hf hp hpk hs ihf ihp => exact F.http hn val ihf ihp hpk hs
  | security hn val hf hp hpk ho hv h hothers ihf ihp ih => exact F.security hn val ihf ihp hpk _ _ ho hv ih hothers
  | parameter hn val hf hp hpk hx hin hreq hst hl ihf ihp =>
    exact F.parameter hn val ihf ihp hpk _ hx _ hin hreq hst hl

end Verif
