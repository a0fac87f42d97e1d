import Verif.Spec.PublishSchema30
import Verif.Lemmas.Publish30
import Verif.Lemmas.Path

/-! Go values of 3.0 schemas that can be written. -/

namespace Verif.Pub30
open Codec Spec Meta Conform

variable {N : Nums} {lit : F64 → String}

theorem schemaVal_struct (s : V30.OS) : ∃ fs, schemaVal lit s = .struct fs := by
  cases s <;> exact ⟨_, rfl⟩

theorem fieldOk_float {f : Field} {o : Option F64} (hf : nilable f = true) (ht : f.ty = .ptr .float)
    (h : ∀ x, o = some x → FloatOk N lit x) : FieldOk N f (opt (fun x => .num (lit x)) o) := by
  refine fieldOk_opt hf fun x hx => ?_
  rw [ht]
  refine good_ptr rfl (by simp) (by simp) ⟨.float (h x hx), ?_, ?_⟩
  · intro fs hfs; cases hfs
  · intro t ht; cases ht

theorem fieldOk_int {f : Field} {o : Option Int} (hf : nilable f = true) (ht : f.ty = .ptr .int)
    (h : ∀ x, o = some x → IntOk N x) : FieldOk N f (opt (fun x => .num (toString x)) o) := by
  refine fieldOk_opt hf fun x hx => ?_
  rw [ht]
  refine good_ptr rfl (by simp) (by simp) ⟨.int (h x hx), ?_, ?_⟩
  · intro fs hfs; cases hfs
  · intro t ht; cases ht

theorem fieldOk_any {f : Field} {o : Option Any} (hf : nilable f = true) (ht : f.ty = .ptr .any)
    (h : ∀ x, o = some x → x ≠ .null ∧ Stable N x) : FieldOk N f (opt .any o) := by
  refine fieldOk_opt hf fun x hx => ?_
  rw [ht]
  exact good_ptr rfl (by simp) (by simpa using (h x hx).1) (good_any (h x hx).2)

theorem fieldOk_slice {f : Field} {t : Ty} {vs : List Val} (hf : nilable f = true) (ht : f.ty = .slice t)
    (h : ∀ v ∈ vs, Good N t v) : FieldOk N f (sliceOf vs) := by
  cases vs with
  | nil => exact fieldOk_nil hf
  | cons a l =>
    refine Good.field ?_
    rw [ht]
    exact good_slice h

theorem fieldOk_mapOf {f : Field} {t : Ty} {ms : List (String × Val)} (hf : nilable f = true) (ht : f.ty = .map t)
    (hk : (ms.map Prod.fst).Nodup) (h : ∀ k v, (k, v) ∈ ms → Good N t v) : FieldOk N f (mapOf ms) := by
  cases ms with
  | nil => exact fieldOk_nil hf
  | cons a l =>
    refine Good.field ?_
    rw [ht]
    exact good_map hk h

theorem schemaProps_keys (ps : List (String × V30.OS)) : (schemaProps lit ps).map Prod.fst = ps.map Prod.fst := by
  induction ps with
  | nil => rfl
  | cons p ps ih => simp [schemaProps, ih]

/-- What is given for the fields of a schema. -/
theorem given_flat {f : V30.OFlat} (h : FlatOk N lit f) {l : List (String × Val)} (hl : Given30 N V30.sSchema l) :
    Given30 N V30.sSchema (flatVal lit f ++ l) := by
  refine ⟨?_, ?_, ?_, ?_, ?_, ?_, ?_, ?_, ?_, ?_, ?_, ?_, ?_, ?_, ?_, ?_, ?_, ?_, ?_, ?_, ?_, ?_, ?_, ?_, ?_, ?_, hl⟩
  · exact fieldOk_str rfl rfl
  · exact fieldOk_float rfl rfl fun x hx => h.floats x (.inl hx)
  · exact fieldOk_float rfl rfl fun x hx => h.floats x (.inr (.inl hx))
  · exact fieldOk_bool rfl rfl
  · exact fieldOk_float rfl rfl fun x hx => h.floats x (.inr (.inr hx))
  · exact fieldOk_bool rfl rfl
  · exact fieldOk_int rfl rfl fun x hx => h.ints x (.inl hx)
  · exact fieldOk_int rfl rfl fun x hx => h.ints x (.inr (.inl hx))
  · exact fieldOk_str rfl rfl
  · exact fieldOk_int rfl rfl fun x hx => h.ints x (.inr (.inr (.inl hx)))
  · exact fieldOk_int rfl rfl fun x hx => h.ints x (.inr (.inr (.inr (.inl hx))))
  · exact fieldOk_bool rfl rfl
  · exact fieldOk_int rfl rfl fun x hx => h.ints x (.inr (.inr (.inr (.inr (.inl hx)))))
  · exact fieldOk_int rfl rfl fun x hx => h.ints x (.inr (.inr (.inr (.inr (.inr hx)))))
  · exact fieldOk_list rfl rfl fun s _ => good_str s
  · exact fieldOk_list rfl rfl fun a ha => good_any (h.enum a ha)
  · exact fieldOk_opt rfl fun t ht =>
      good_ptr (t := .named "SchemaType") rfl (by simp) (by simp) (good_enum (by kernel_rfl) (h.type t ht))
  · exact fieldOk_str rfl rfl
  · exact fieldOk_str rfl rfl
  · exact fieldOk_any rfl rfl fun a ha => h.values a (.inl ha)
  · exact fieldOk_bool rfl rfl
  · exact fieldOk_bool rfl rfl
  · exact fieldOk_bool rfl rfl
  · exact fieldOk_any rfl rfl fun a ha => h.values a (.inr ha)
  · exact fieldOk_bool rfl rfl
  · exact patOk_map h.extKeys fun k a ha => ⟨pat_x (h.ext k a ha).1, good_any (h.ext k a ha).2⟩

/-- Additional properties: a boolean or a schema. -/
theorem fieldOk_addl {f : Field} (hf : nilable f = true) (ht : f.ty = .ptr (.named "SchemaAdditionalProperties"))
    {b : Option Bool} {v : Val} (h : v = .nil ∨ ((∃ fs, v = .struct fs) ∧ Good N (.named "SchemaOrRef") v)) :
    FieldOk N f (addlVal b v) := by
  have hn : GoMap.get? V30.table "SchemaAdditionalProperties" = some (.struct V30.sSchemaAdditionalProperties) := by kernel_rfl
  cases b with
  | some b =>
    refine good_named ht (good_ptr (t := .named "SchemaAdditionalProperties") (v := addlVal (some b) v) rfl
      (by intro e; cases e) (by intro e; cases e) ?_)
    exact good_alt (s := V30.sSchemaAdditionalProperties) (go := "Bool") (t := .bool) hn rfl (by decide)
      (by simp [V30.sSchemaAdditionalProperties]) (by decide) (by simp)
      (good_ptr rfl (by simp) (by simp) (good_bool b))
  | none =>
    rcases h with rfl | ⟨⟨fs, rfl⟩, h⟩
    · exact fieldOk_nil hf
    · refine good_named ht (good_ptr (t := .named "SchemaAdditionalProperties") (v := addlVal none (.struct fs)) rfl
        (by intro e; cases e) (by intro e; cases e) ?_)
      exact good_alt (s := V30.sSchemaAdditionalProperties) (go := "SchemaOrRef") (t := .named "SchemaOrRef") hn rfl (by decide)
        (by simp [V30.sSchemaAdditionalProperties]) (by decide) (by simp)
        (good_ptr rfl (by simp) (by simp) h)

mutual
theorem good_schema : ∀ (s : V30.OS), SchemaOk N lit s → Good N (.named "SchemaOrRef") (schemaVal lit s)
  | .empty, h => by
    simp only [SchemaOk] at h
  | .ref r, _ => by
    refine good_alt (n := "SchemaOrRef") (s := V30.sSchemaOrRef) (go := "SchemaReference") (t := .named "SchemaReference")
      (v := fill V30.sSchemaReference [("Ref", .str r)])
      (by kernel_rfl) rfl (by decide) (by simp [V30.sSchemaOrRef]) (by decide) (by intro e; cases e)
      (good_ptr rfl (by intro e; cases e) (by intro e; cases e) ?_)
    exact good_fill (by kernel_rfl) (by rfl) ⟨good_named rfl (good_str _), trivial⟩
  | .schema flat not allOf oneOf anyOf items props addlBool addl, h => by
    simp only [SchemaOk] at h
    obtain ⟨h1, h2, h3, h4, h5, h6, ⟨h7, h8⟩, _, h10⟩ := h
    rw [schemaVal]
    refine good_alt (n := "SchemaOrRef") (s := V30.sSchemaOrRef) (go := "Schema") (t := .named "Schema")
      (by kernel_rfl) rfl (by decide) (by simp [V30.sSchemaOrRef]) (by decide) (by intro e; cases e)
      (good_ptr rfl (by intro e; cases e) (by intro e; cases e) ?_)
    refine good_fill (by kernel_rfl) (by rfl) (given_flat h1 ⟨?_, ?_, ?_, ?_, ?_, ?_, ?_, trivial⟩)
    · exact good_schemaOpt not h2 rfl rfl
    · exact fieldOk_slice rfl rfl (good_schemas allOf h3)
    · exact fieldOk_slice rfl rfl (good_schemas oneOf h4)
    · exact fieldOk_slice rfl rfl (good_schemas anyOf h5)
    · exact good_schemaOpt items h6 rfl rfl
    · exact fieldOk_mapOf rfl rfl (by rw [schemaProps_keys]; exact h7) (good_schemaProps props h8)
    · exact good_schemaAddl addl h10 rfl rfl
theorem good_schemaOpt : ∀ (o : Option V30.OS), SchemaOkOpt N lit o → ∀ {f : Field}, nilable f = true →
    f.ty = .ptr (.named "SchemaOrRef") → FieldOk N f (schemaValOpt lit o)
  | none, _, f, hf, _ => by rw [schemaValOpt]; exact fieldOk_nil hf
  | some s, h, f, _, ht => by
    simp only [SchemaOkOpt] at h
    obtain ⟨fs, e⟩ := schemaVal_struct (lit := lit) s
    rw [schemaValOpt]
    exact good_named ht (good_ptr rfl (by rw [e]; simp) (by rw [e]; simp) (good_schema s h))
theorem good_schemaAddl : ∀ (o : Option V30.OS), SchemaOkOpt N lit o → ∀ {b : Option Bool} {f : Field}, nilable f = true →
    f.ty = .ptr (.named "SchemaAdditionalProperties") → FieldOk N f (addlVal b (schemaValOpt lit o))
  | none, _, b, f, hf, ht => by rw [schemaValOpt]; exact fieldOk_addl hf ht (.inl rfl)
  | some s, h, b, f, hf, ht => by
    simp only [SchemaOkOpt] at h
    rw [schemaValOpt]
    exact fieldOk_addl hf ht (.inr ⟨schemaVal_struct s, good_schema s h⟩)
theorem good_schemas : ∀ (l : List V30.OS), SchemaOkList N lit l → ∀ v ∈ schemaVals lit l, Good N (.named "SchemaOrRef") v
  | [], _, v, hv => by simp only [schemaVals] at hv; cases hv
  | s :: ss, h, v, hv => by
    simp only [SchemaOkList] at h
    simp only [schemaVals, List.mem_cons] at hv
    rcases hv with rfl | hv
    · exact good_schema s h.1
    · exact good_schemas ss h.2 v hv
theorem good_schemaProps : ∀ (l : List (String × V30.OS)), SchemaOkProps N lit l → ∀ k v, (k, v) ∈ schemaProps lit l →
    Good N (.named "SchemaOrRef") v
  | [], _, k, v, hv => by simp only [schemaProps] at hv; cases hv
  | (k', s) :: ss, h, k, v, hv => by
    simp only [SchemaOkProps] at h
    simp only [schemaProps, List.mem_cons, Prod.mk.injEq] at hv
    rcases hv with ⟨_, rfl⟩ | hv
    · exact good_schema s h.1
    · exact good_schemaProps ss h.2 k v hv
end

theorem schemaVals_ok : SchemaVals N (SchemaOk N lit) (schemaVal lit) := ⟨schemaVal_struct, good_schema⟩

/-! ## Conversion of JSON Schemas -/

theorem typeFold_mem (ts : List String) (h : ∀ t ∈ ts, t ∈ "null" :: schemaTypes) :
    ∀ os : Option String × Option Bool, (∀ t, os.1 = some t → t ∈ schemaTypes) →
      ∀ t, (ts.foldl (fun os t => V30.checkNullable t os) os).1 = some t → t ∈ schemaTypes := by
  induction ts with
  | nil => intro os h t ht; exact h t ht
  | cons u ts ih =>
    intro os hos t ht
    rw [List.foldl_cons] at ht
    refine ih (fun t ht => h t (List.mem_cons_of_mem _ ht)) _ ?_ t ht
    intro t' ht'
    unfold V30.checkNullable at ht'
    split at ht'
    · exact hos t' ht'
    · rename_i hne
      cases ht'
      rcases List.mem_cons.1 (h u List.mem_cons_self) with e | e
      · exact absurd e hne
      · exact e

theorem flatFromJS_ok {f : JFlat} (h : JsonFlatOk N lit f) : FlatOk N lit (V30.flatFromJS f) where
  floats := h.floats
  ints := by
    intro i hi
    refine h.ints i ?_
    simp only [V30.flatFromJS] at hi
    rcases hi with e | e | e | e | e | e
    · exact .inl e
    · split at e
      · cases e; exact .inr (.inl rfl)
      · cases e
    · exact .inr (.inr (.inl e))
    · split at e
      · cases e; exact .inr (.inr (.inr (.inl rfl)))
      · cases e
    · exact .inr (.inr (.inr (.inr (.inl e))))
    · split at e
      · cases e; exact .inr (.inr (.inr (.inr (.inr rfl))))
      · cases e
  type := by
    intro t ht
    refine typeFold_mem (V30.JType.list f.type) ?_ (none, none) (by intro t e; cases e) t ht
    intro t ht
    cases hty : f.type with
    | none => rw [hty] at ht; cases ht
    | some ty =>
      rw [hty] at ht
      cases ty with
      | one u =>
        cases List.mem_singleton.1 ht
        exact h.one _ hty
      | many us => exact h.many us hty t ht
  enum := h.enum
  values := h.values
  none := ⟨rfl, rfl, rfl⟩
  extKeys := by
    show (List.map Prod.fst (f.extra.filter _)).Nodup
    exact (List.filter_sublist.map _).nodup h.extKeys
  ext := by
    intro k a ha
    have ha' : (k, a) ∈ f.extra.filter (fun p => goHasPrefix p.1 "x-") := ha
    rw [List.mem_filter] at ha'
    refine ⟨?_, h.ext k a ha'.1⟩
    obtain ⟨t, e⟩ := hasPrefixL_iff.1 ha'.2
    exact ⟨t, e.symm⟩

theorem fromBool_ok (b : Bool) : SchemaOk N lit (V30.fromBool b) := by
  have hflat : FlatOk N lit {} := by
    constructor <;> simp [Keys]
  have he : SchemaOk N lit (.schema {} none [] [] [] none [] none none) := by
    simp [SchemaOk, SchemaOkOpt, SchemaOkList, SchemaOkProps, hflat, Keys]
  cases b with
  | true => exact he
  | false =>
    show SchemaOk N lit (.schema {} (some (.schema {} none [] [] [] none [] none none)) [] [] [] none [] none none)
    simp only [SchemaOk, SchemaOkOpt, SchemaOkList, SchemaOkProps]
    exact ⟨hflat, by simpa [SchemaOk, SchemaOkOpt, SchemaOkList, SchemaOkProps] using he, trivial, trivial, trivial, trivial,
      ⟨by simp [Keys], trivial⟩, by simp, trivial⟩

theorem fromJSProps_keys : ∀ (l : List (String × JS)) {r : List (String × V30.OS)}, V30.fromJSProps l = some r →
    r.map Prod.fst = l.map Prod.fst
  | [], r, h => by simp only [V30.fromJSProps] at h; cases h; rfl
  | (n, j) :: js, r, h => by
    simp only [V30.fromJSProps, Option.bind_eq_bind, Option.bind_eq_some_iff] at h
    obtain ⟨s, _, ss, hss, e⟩ := h
    cases e
    simp [fromJSProps_keys js hss]

mutual
theorem fromJS_ok : ∀ (j : JS), JsonOk N lit j → ∀ {s : V30.OS}, V30.fromJS j = some s → SchemaOk N lit s
  | .zero, _, s, h => by simp only [V30.fromJS] at h; cases h
  | .bool b, _, s, h => by simp only [V30.fromJS] at h; cases h; exact fromBool_ok b
  | .obj flat not allOf oneOf anyOf items _ props addl _, hj, s, h => by
    simp only [V30.fromJS] at h
    simp only [JsonOk] at hj
    split at h
    · split at h
      · cases h
        have hflat : FlatOk N lit {} := by constructor <;> simp [Keys]
        have hflat' : FlatOk N lit { deprecated := some true } := by constructor <;> simp [Keys]
        simp [V30.deprecatedOnly, SchemaOk, SchemaOkOpt, SchemaOkList, SchemaOkProps, hflat, hflat', Keys]
      · cases h
        simp [SchemaOk]
    · rename_i hr
      obtain ⟨h1, h2, h3, h4, h5, h6, ⟨h7, h8⟩, h10⟩ := hj hr
      simp only [Option.bind_eq_bind, Option.bind_eq_some_iff] at h
      obtain ⟨a, ha, b, hb, c, hc, d, hd, e, he, f, hf, g, hg, hs⟩ := h
      cases hs
      simp only [SchemaOk]
      refine ⟨flatFromJS_ok h1, fromJSOpt_ok not h2 ha, fromJSList_ok allOf h3 hd, fromJSList_ok oneOf h4 hb,
        fromJSList_ok anyOf h5 hc, fromJSOpt_ok items h6 hf, ⟨?_, fromJSProps_ok props h8 hg⟩, ?_, fromJSAddl_ok addl h10 he⟩
      · unfold Keys
        rw [fromJSProps_keys props hg]
        exact h7
      · cases addl with
        | none => exact .inl rfl
        | some j =>
          cases j with
          | zero => exact .inl rfl
          | bool b => simp only [V30.fromJSAddl] at he; cases he; exact .inr rfl
          | obj => exact .inl rfl
theorem fromJSOpt_ok : ∀ (j : Option JS), JsonOkOpt N lit j → ∀ {s : Option V30.OS}, V30.fromJSOpt j = some s → SchemaOkOpt N lit s
  | none, _, s, h => by simp only [V30.fromJSOpt] at h; cases h; simp [SchemaOkOpt]
  | some j, hj, s, h => by
    simp only [V30.fromJSOpt, Option.bind_eq_bind, Option.bind_eq_some_iff] at h
    simp only [JsonOkOpt] at hj
    obtain ⟨a, ha, e⟩ := h
    cases e
    simp only [SchemaOkOpt]
    exact fromJS_ok j hj ha
theorem fromJSAddl_ok : ∀ (j : Option JS), JsonOkOpt N lit j → ∀ {s : Option V30.OS}, V30.fromJSAddl j = some s → SchemaOkOpt N lit s
  | none, _, s, h => by simp only [V30.fromJSAddl] at h; cases h; simp [SchemaOkOpt]
  | some .zero, _, s, h => by
    simp only [V30.fromJSAddl, V30.fromJS, Option.bind_eq_bind, Option.bind_none] at h
    cases h
  | some (.bool _), _, s, h => by simp only [V30.fromJSAddl] at h; cases h; simp [SchemaOkOpt]
  | some (.obj flat not allOf oneOf anyOf items x props addl y), hj, s, h => by
    simp only [V30.fromJSAddl, Option.bind_eq_bind, Option.bind_eq_some_iff] at h
    simp only [JsonOkOpt] at hj
    obtain ⟨a, ha, e⟩ := h
    cases e
    simp only [SchemaOkOpt]
    exact fromJS_ok (.obj flat not allOf oneOf anyOf items x props addl y) hj ha
theorem fromJSList_ok : ∀ (j : List JS), JsonOkList N lit j → ∀ {s : List V30.OS}, V30.fromJSList j = some s → SchemaOkList N lit s
  | [], _, s, h => by simp only [V30.fromJSList] at h; cases h; simp [SchemaOkList]
  | j :: js, hj, s, h => by
    simp only [V30.fromJSList, Option.bind_eq_bind, Option.bind_eq_some_iff] at h
    simp only [JsonOkList] at hj
    obtain ⟨a, ha, b, hb, e⟩ := h
    cases e
    simp only [SchemaOkList]
    exact ⟨fromJS_ok j hj.1 ha, fromJSList_ok js hj.2 hb⟩
theorem fromJSProps_ok : ∀ (j : List (String × JS)), JsonOkProps N lit j → ∀ {s : List (String × V30.OS)},
    V30.fromJSProps j = some s → SchemaOkProps N lit s
  | [], _, s, h => by simp only [V30.fromJSProps] at h; cases h; simp [SchemaOkProps]
  | (n, j) :: js, hj, s, h => by
    simp only [V30.fromJSProps, Option.bind_eq_bind, Option.bind_eq_some_iff] at h
    simp only [JsonOkProps] at hj
    obtain ⟨a, ha, b, hb, e⟩ := h
    cases e
    simp only [SchemaOkProps]
    exact ⟨fromJS_ok j hj.1 ha, fromJSProps_ok js hj.2 hb⟩
end

end Verif.Pub30
