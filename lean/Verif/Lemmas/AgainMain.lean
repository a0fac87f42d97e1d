import Verif.Lemmas.Again
import Verif.Spec.Again

/-! What is read back is written as before, given some facts about the table. -/

namespace Verif
open Codec Spec

variable {T : Table} {N : Nums}

/-- The table is without the two structs of 3.0 that repeat fields, or these are filled in. -/
def Filled (T : Table) (N : Nums) (v : Val) : Prop :=
  (GoMap.get? T "HTTPSecurityScheme" ≠ some (.struct V30.sHTTPSecurityScheme) ∧
    GoMap.get? T "Parameter" ≠ some (.struct V30.sParameter)) ∨ Everywhere (filled N) v

theorem Filled.list {vs : List Val} (h : Filled T N (.list vs)) {x : Val} (hx : x ∈ vs) : Filled T N x :=
  h.imp id (fun h fs hp => h fs (.list hx hp))

theorem Filled.map {ms : List (String × Val)} (h : Filled T N (.map ms)) {k : String} {x : Val} (hx : (k, x) ∈ ms) :
    Filled T N x := h.imp id (fun h fs hp => h fs (.map hx hp))

theorem Filled.struct {ms : List (String × Val)} (h : Filled T N (.struct ms)) {k : String} {x : Val} (hx : (k, x) ∈ ms) :
    Filled T N x := h.imp id (fun h fs hp => h fs (.struct hx hp))

theorem Filled.structOf {s : Struct} {val : String → Val} (h : Filled T N (structOf s val)) {go : String}
    (hgo : go ∈ s.names) : Filled T N (val go) := Filled.struct h (List.mem_map.2 ⟨go, hgo, rfl⟩)

/-- Only `null` is written for nil. -/
theorem encode_nil {t : Ty} {j : Any} (h : encode T t .nil = some j) : j = .null := by
  cases t with
  | named n =>
    exfalso
    have e : vview T .nil = .nil := rfl
    simp only [encode, encodeView, e] at h
    split at h <;> first | cases h | skip
    · rename_i h'; cases h'
    · rename_i h'; cases h'
  | bool => cases h
  | str => cases h
  | int => cases h
  | float => cases h
  | _ => exact (Option.some.inj (show some Any.null = some j from h)).symm

/-- The facts about a table. -/
structure AgainFacts (T : Table) (N : Nums) : Prop where
  http : GoMap.get? T "HTTPSecurityScheme" = some (.struct V30.sHTTPSecurityScheme) → ∀ val : String → Val,
    (∀ f ∈ V30.sHTTPSecurityScheme.fields, Good T N f.ty (val f.go) ∧ Again T N f.ty (val f.go)) →
    Good T N (.map .any) (val "MapOfAnything") → MapAgain T N .any (val "MapOfAnything") →
    (∀ k ∈ keysOf (val "MapOfAnything"), IsExtension k) →
    ((val "Scheme" = .str "bearer" ∧ (val "Bearer" = .nil ∨ val "Bearer" = .struct []) ∧ val "NonBearer" = .nil) ∨
      (val "Scheme" ≠ .str "bearer" ∧ val "BearerFormat" = .nil ∧ val "Bearer" = .nil ∧
        (val "NonBearer" = .nil ∨ val "NonBearer" = .struct [("Scheme", .nil)]))) →
    val "Bearer" ≠ .nil ∨ val "NonBearer" ≠ .nil →
    Again T N (.named "HTTPSecurityScheme") (structOf V30.sHTTPSecurityScheme val)
  security : GoMap.get? T "SecurityScheme" = some (.struct V31.sSecurityScheme) → ∀ val : String → Val,
    (∀ f ∈ V31.sSecurityScheme.fields, Good T N f.ty (val f.go) ∧ Again T N f.ty (val f.go)) →
    Good T N (.map .any) (val "MapOfAnything") → MapAgain T N .any (val "MapOfAnything") →
    (∀ k ∈ keysOf (val "MapOfAnything"), IsExtension k) →
    ∀ go t, ⟨go, .ptr t⟩ ∈ V31.sSecurityScheme.oneOf → val go ≠ .nil → Good T N (.ptr t) (val go) →
    Again T N (.ptr t) (val go) →
    (∀ h ∈ V31.sSecurityScheme.oneOf, h.go ≠ go → val h.go = .nil) →
    Again T N (.named "SecurityScheme") (structOf V31.sSecurityScheme val)
  parameter : GoMap.get? T "Parameter" = some (.struct V30.sParameter) → ∀ val : String → Val,
    (∀ f ∈ V30.sParameter.fields, ¬ExplicitNull V30.sParameter f (val f.go) →
      Good T N f.ty (val f.go) ∧ Again T N f.ty (val f.go)) →
    Good T N (.map .any) (val "MapOfAnything") → MapAgain T N .any (val "MapOfAnything") →
    (∀ k ∈ keysOf (val "MapOfAnything"), IsExtension k) →
    ∀ a : Any,
    ((val "Schema" ≠ .nil ∧ isEmpty (val "Content") = true ∧
        encode T (.ptr (.named "SchemaOrRef")) (val "Schema") = some a ∧
        ∃ b, val "SchemaXORContent" = xorSchema b ∧ RawAgain N (.ptr (.named "SchemaOrRef")) (val "Schema") b ∧ decodeAny N b = some b ∧
          (b = a ∨ (decodeAny N a ≠ none ∧ ∃ w, decode T N (.ptr (.named "SchemaOrRef")) b = some w ∧ Same (val "Schema") w))) ∨
      (val "Schema" = .nil ∧ isEmpty (val "Content") = false ∧
        encode T (.map (.named "MediaType")) (val "Content") = some a ∧
        ∃ b, val "SchemaXORContent" = xorContent b ∧ RawAgain N (.map (.named "MediaType")) (val "Content") b ∧ decodeAny N b = some b ∧
          (b = a ∨ (decodeAny N a ≠ none ∧ ∃ w, decode T N (.map (.named "MediaType")) b = some w ∧ Same (val "Content") w)))) →
    ∀ i : String, val "In" = .str i → (i = "path" → val "Required" = .bool true) →
    (val "Style" = .nil ∨ ∃ st ∈ styles i, val "Style" = .str st) → (i ∈ ["header", "cookie"] → val "Style" ≠ .nil) →
    ((i ∈ ["path", "query"] ∧ val "Location" = location i (.struct [("Style", val "Style")])) ∨
      (i ∈ ["header", "cookie"] ∧ val "Location" = location i (.struct []))) →
    Again T N (.named "Parameter") (structOf V30.sParameter val)

theorem writable_again {Ok : String → String → Val → Prop} (F : Facts T N Ok) (A : AgainFacts T N)
    (hA : GoMap.get? T "Parameter" = some (.struct V30.sParameter) → T = V30.table) {ty : Ty} {v : Val}
    (h : Writable T N Ok ty v) (hfill : Filled T N v) :
    Again T N ty v ∧ ∀ t, ty = .map t → MapAgain T N t v := by
  induction h with
  | any h => exact ⟨again_of rfl (by rw [decode_any, h]; rfl) rfl, by intro t h; cases h⟩
  | bool b => exact ⟨again_of rfl (by rw [decode_bool]) rfl, by intro t h; cases h⟩
  | str s => exact ⟨again_of rfl (by rw [decode_str]) rfl, by intro t h; cases h⟩
  | int h => exact ⟨again_of rfl (by rw [decode_int]; simp [h]; rfl) rfl, by intro t h; cases h⟩
  | float h => exact ⟨again_of rfl (by rw [decode_float]; simp [h]; rfl) rfl, by intro t h; cases h⟩
  | nilPtr t => exact ⟨again_of rfl (decode_ptr_null t) rfl, by intro t h; cases h⟩
  | @ptr t v ht h1 h2 h ih =>
    refine ⟨?_, by intro t h; cases h⟩
    have hg := writable_good F h
    obtain ⟨j, w, he, hd, hs⟩ := hg.rt
    have hj : j ≠ .null := by
      rintro rfl
      rcases hg.null he with e | e
      · exact h1 e
      · exact h2 e
    have ha := (ih hfill).1
    have hw : encode T t w = some j := by
      have := ha
      unfold Again rt at this
      rw [he, Option.bind_some, hd] at this
      exact this
    have hwn : w ≠ .nil := by
      rintro rfl
      exact hj (encode_nil hw)
    refine again_of (j := j) (w := w) (by rw [encode_ptr T h1, he]) ?_ (by rw [encode_ptr T hwn, hw])
    rw [decode_ptr F.ranked ht]
    cases j with
    | null => exact absurd rfl hj
    | _ => exact hd
  | nilSlice t => exact ⟨again_of rfl (by rw [decode_slice]) rfl, by intro t h; cases h⟩
  | @slice t vs h ih =>
    refine ⟨?_, by intro t h; cases h⟩
    have hg := fun x hx => (writable_good F (h x hx)).rt
    have he : encode T (.slice t) (.list vs) = some (.arr (vs.map (enc T t))) := by
      rw [encode_slice, mapAll_some_of (g := enc T t)]
      · rfl
      · intro x hx; exact enc_some (hg x hx).writes
    refine again_of (w := .list (vs.map (rt T N t))) he ?_ ?_
    · rw [decode_slice]
      simp only
      rw [mapAll_map, mapAll_some_of (g := rt T N t)]
      · rfl
      · intro x hx; exact (hg x hx).reads
    · rw [encode_slice, mapAll_map, mapAll_some_of (g := enc T t)]
      · rfl
      · intro x hx
        exact (ih x hx (hfill.list hx)).1.writes (hg x hx)
  | nilMap t => exact ⟨again_of rfl (by rw [decode_map]) rfl, fun t _ p hp => nomatch hp⟩
  | @map t ms hk h ih =>
    have hg := fun (p : String × Val) hp => (writable_good F (h p.1 p.2 hp)).rt
    have he : encode T (.map t) (.map ms) = some (.obj (ms.map (fun p => (p.1, enc T t p.2)))) := by
      rw [encode_map, mapAll_some_of (g := fun p => (p.1, enc T t p.2))]
      · rfl
      · intro p hp
        rw [enc_some (hg p hp).writes]
        rfl
    refine ⟨again_of (w := .map (ms.map (fun p => (p.1, rt T N t p.2)))) he ?_ ?_, ?_⟩
    · rw [decode_map]
      simp only
      rw [mapAll_map, mapAll_some_of (g := fun p => (p.1, rt T N t p.2))]
      · rw [Option.map_some, lastWins_nodup]
        simpa [Function.comp_def] using hk
      · intro p hp
        rw [(hg p hp).reads]
        rfl
    · rw [encode_map, mapAll_map, mapAll_some_of (g := fun p => (p.1, enc T t p.2))]
      · rfl
      · intro p hp
        have := (ih p.1 p.2 hp (hfill.map hp)).1.writes (hg p hp)
        simp only [this]
        rfl
    · intro t' e p hp
      cases e
      exact (ih p.1 p.2 hp (hfill.map hp)).1
  | @enum n values hn s h =>
    refine ⟨?_, by intro t h; cases h⟩
    have hc : values.contains s = true := List.contains_iff_mem.2 h
    refine again_of (j := .str s) (w := .str s) (by rw [encode_enum hn, if_pos hc]) ?_ (by rw [encode_enum hn, if_pos hc])
    rw [decode_enum hn]
    simp only
    rw [if_pos hc]
  | @plain n s hn hs hb val hf hp hpk ha hak hone hlow hnot ihf ihp iha =>
    refine ⟨?_, by intro t h; cases h⟩
    have P := F.plain n s hn hs hb
    have V : PlainVal T N s val := by
      refine ⟨?_, ?_, hpk, ?_, hak, hone, hlow⟩
      · intro f hff
        by_cases hx : ExplicitNull s f (val f.go)
        · exact .inl hx
        · exact .inr (writable_good F (hf f hff hx)).rt
      · intro q hq; exact (writable_good F (hp q hq)).deep
      · intro a haa; exact (writable_good F (ha a haa)).deep
    refine plain_again F.ranked hn P hs V ?_ ?_ ?_ ?_
    · intro t ht
      obtain ⟨m, sm, k, rfl, hm, hk, ho⟩ := hnot t ht
      apply decode_missing F.ranked hm hk
      exact omitted_key P.toBase hpk ho
    · intro f hff
      by_cases hx : ExplicitNull s f (val f.go)
      · exact .inl hx
      · exact .inr ⟨writable_good F (hf f hff hx), (ihf f hff hx (hfill.structOf (field_name hff))).1⟩
    · intro q hq
      exact (ihp q hq (hfill.structOf (pattern_name hq))).2 _ rfl
    · intro a haa
      exact (iha a haa (hfill.structOf (additional_name haa))).2 _ rfl
  | @union n s hn hs go t v ho hv h hok ih =>
    refine ⟨?_, by intro t h; cases h⟩
    obtain ⟨h1, h2, h3, h4⟩ := F.union n s hn hs (List.ne_nil_of_mem ho)
    have hg := writable_good F h
    obtain ⟨j, w, he, hd, hsame⟩ := hg.rt
    have hj : j ≠ .null := by
      rintro rfl
      rcases hg.null he with e | e
      · exact hv e
      · rcases hg.deep with e' | e'
        · exact hv e'
        · exact e'.2.1 e
    obtain ⟨h5, h6⟩ := h4 go t v ho hv hg hok j he
    have ha := (ih (hfill.struct (List.mem_map.2 ⟨_, ho, by simp only [if_true]; rfl⟩))).1
    have hw : encode T (.ptr t) w = some j := by
      have := ha
      unfold Again rt at this
      rw [he, Option.bind_some, hd] at this
      exact this
    exact again_of (encode_union hn hs h1 ho he hj) (decode_union F.ranked hn hs h1 ho hd h5)
      (encode_union hn hs h1 ho hw hj)
  | http hn val hf hp hpk hs ihf ihp =>
    refine ⟨?_, by intro t h; cases h⟩
    refine A.http hn val (fun f hff => ⟨writable_good F (hf f hff), (ihf f hff (hfill.structOf (field_name hff))).1⟩)
      (writable_good F hp) ((ihp (hfill.structOf (by decide))).2 _ rfl) hpk hs ?_
    rcases hfill with h | h
    · exact absurd hn h.1
    · have := (h _ (.self _)).1 (by rw [List.map_map]; exact List.map_id _)
      rwa [fieldIn_of val (by decide), fieldIn_of val (by decide)] at this
  | @security hn val hf hp hpk go t ho hv h hothers ihf ihp ih =>
    refine ⟨?_, by intro t h; cases h⟩
    refine A.security hn val (fun f hff => ⟨writable_good F (hf f hff), (ihf f hff (hfill.structOf (field_name hff))).1⟩)
      (writable_good F hp) ((ihp (hfill.structOf (by decide))).2 _ rfl) hpk _ _ ho hv (writable_good F h)
      (ih (hfill.structOf ?_)).1 hothers
    exact oneOf_name (s := V31.sSecurityScheme) ho
  | @parameter hn val hf hp hpk a hx i hin hreq hst hl ihf ihp =>
    refine ⟨?_, by intro t h; cases h⟩
    have hfl := hfill
    rcases hfl with h | h
    · exact absurd hn h.2
    · have hT := hA hn
      subst hT
      obtain ⟨f1, f2, f3⟩ := (h _ (.self _)).2 (by rw [List.map_map]; exact List.map_id _)
      rw [fieldIn_of val (by decide)] at f1
      rw [fieldIn_of val (by decide), fieldIn_of val (by decide)] at f2
      simp only [fieldIn_of (s := V30.sParameter) val (go := "Schema") (by decide),
        fieldIn_of (s := V30.sParameter) val (go := "Content") (by decide),
        fieldIn_of (s := V30.sParameter) val (go := "SchemaXORContent") (by decide)] at f3
      refine A.parameter hn val
        (fun f hff hne => ⟨writable_good F (hf f hff hne), (ihf f hff hne (hfill.structOf (field_name hff))).1⟩)
        (writable_good F hp) ((ihp (hfill.structOf (by decide))).2 _ rfl) hpk a ?_ i hin hreq hst ?_ ?_
      · rcases hx with ⟨h1, h2, h3, h4⟩ | ⟨h1, h2, h3, h4⟩
        · left
          refine ⟨h1, h2, h3, ?_⟩
          rcases f3 with ⟨b, f3, f4⟩ | ⟨b, f3, f4⟩
          · refine ⟨b, f3, f4, ?_⟩
            rcases h4 with ⟨h4, _⟩ | ⟨h4, h5⟩ | ⟨h7, c, w, h4, h5, h6⟩
            · rw [h4] at f3; cases f3
            · rw [h4] at f3; cases f3; exact ⟨h5, .inl rfl⟩
            · rw [h4] at f3; cases f3; exact ⟨h5, .inr ⟨h7, w, h6⟩⟩
          · exfalso
            rcases h4 with ⟨h4, _⟩ | ⟨h4, _⟩ | ⟨_, c, w, h4, _⟩ <;> rw [h4] at f3 <;> cases f3
        · right
          refine ⟨h1, h2, h3, ?_⟩
          rcases f3 with ⟨b, f3, f4⟩ | ⟨b, f3, f4⟩
          · exfalso
            rcases h4 with ⟨h4, _⟩ | ⟨h4, _⟩ | ⟨_, c, w, h4, _⟩ <;> rw [h4] at f3 <;> cases f3
          · refine ⟨b, f3, f4, ?_⟩
            rcases h4 with ⟨h4, _⟩ | ⟨h4, h5⟩ | ⟨h7, c, w, h4, h5, h6⟩
            · rw [h4] at f3; cases f3
            · rw [h4] at f3; cases f3; exact ⟨h5, .inl rfl⟩
            · rw [h4] at f3; cases f3; exact ⟨h5, .inr ⟨h7, w, h6⟩⟩
      · intro hi
        simp only [List.mem_cons, List.not_mem_nil, or_false] at hi
        apply f2
        rw [hin]
        rcases hi with rfl | rfl
        · exact .inl rfl
        · exact .inr rfl
      · rcases hl with h | h
        · exact absurd h f1
        · exact h

end Verif
