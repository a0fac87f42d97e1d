import Verif.Spec.Valid
import Verif.Props.Schema30

/-!
# The conversions keep the set of accepted values (C32, C48, C49)
-/

namespace Verif.V30
open SchemaSpec ValidSpec

section fields
variable (f : OFlat)
theorem f_ref : (flatToJS f).ref = none := by rfl
theorem f_multipleOf : (flatToJS f).multipleOf = f.multipleOf := by rfl
theorem f_maximum : (flatToJS f).maximum = if f.exclusiveMaximum = some true then none else f.maximum := by
  rfl
theorem f_exclusiveMaximum :
    (flatToJS f).exclusiveMaximum = if f.exclusiveMaximum = some true then f.maximum else none := by
  rfl
theorem f_minimum : (flatToJS f).minimum = if f.exclusiveMinimum = some true then none else f.minimum := by
  rfl
theorem f_exclusiveMinimum :
    (flatToJS f).exclusiveMinimum = if f.exclusiveMinimum = some true then f.minimum else none := by
  rfl
theorem f_maxLength : (flatToJS f).maxLength = f.maxLength := rfl
theorem f_minLength : (flatToJS f).minLength = f.minLength.getD 0 := rfl
theorem f_pattern : (flatToJS f).pattern = f.pattern := rfl
theorem f_maxItems : (flatToJS f).maxItems = f.maxItems := rfl
theorem f_minItems : (flatToJS f).minItems = f.minItems.getD 0 := rfl
theorem f_uniqueItems : (flatToJS f).uniqueItems = f.uniqueItems := rfl
theorem f_maxProperties : (flatToJS f).maxProperties = f.maxProperties := rfl
theorem f_minProperties : (flatToJS f).minProperties = f.minProperties.getD 0 := rfl
theorem f_required : (flatToJS f).required = f.required := rfl
theorem f_enum : (flatToJS f).enum = f.enum := rfl
theorem f_format : (flatToJS f).format = f.format := rfl
theorem f_const : (flatToJS f).const = none := by rfl
theorem f_type : (flatToJS f).type =
    match f.type, f.nullable with
    | none, some true => some (.one "null")
    | none, _ => none
    | some t, some true => if t = "null" then some (.one t) else some (.many [t, "null"])
    | some t, _ => some (.one t) := by
  simp only [flatToJS, typeToJS]
  cases f.type with
  | none =>
    cases f.nullable with
    | none => simp
    | some b => cases b <;> simp [addType]
  | some t =>
    cases f.nullable with
    | none => simp [addType]
    | some b => cases b <;> simp [addType]
end fields

/-- The plain assertions of a converted node accept the same values. -/
theorem flat_valid (σ : Sem) (f : OFlat) (hn : f.nullable = some true → f.type ≠ none) (v : Any) :
    FlatJSOk σ (flatToJS f) v ↔ FlatOSOk σ f v := by
  have hnull : ∀ v, v = Any.null ↔ TypeOk σ "null" v := by
    intro v; cases v <;> simp [TypeOk]
  have htype : ((∀ t, (flatToJS f).type = some (.one t) → TypeOk σ t v) ∧
      (∀ ts, (flatToJS f).type = some (.many ts) → ∃ t ∈ ts, TypeOk σ t v)) ↔
      (∀ t, f.type = some t → TypeOk σ t v ∨ (f.nullable = some true ∧ v = .null)) := by
    rw [f_type, hnull]
    cases ht : f.type with
    | none =>
      cases hb : f.nullable with
      | none => simp
      | some b => cases b <;> simp_all
    | some t =>
      cases hb : f.nullable with
      | none => simp
      | some b =>
        cases b with
        | false => simp
        | true =>
          by_cases h : t = "null"
          · subst h; simp
          · simp [h]
  constructor
  · intro h
    refine ⟨htype.mp ⟨h.type1, h.typeN⟩, ?_, ?_, ?_, ?_, ?_, ?_, ?_, ?_, ?_, ?_, ?_, ?_, ?_, ?_, ?_, ?_⟩
    · simpa only [f_multipleOf] using h.multipleOf
    · intro l b hv hb hx
      exact h.maximum l b hv (by rw [f_maximum, if_neg hx, hb])
    · intro l b hv hb hx
      exact h.exclusiveMaximum l b hv (by rw [f_exclusiveMaximum, if_pos hx, hb])
    · intro l b hv hb hx
      exact h.minimum l b hv (by rw [f_minimum, if_neg hx, hb])
    · intro l b hv hb hx
      exact h.exclusiveMinimum l b hv (by rw [f_exclusiveMinimum, if_pos hx, hb])
    · simpa only [f_maxLength] using h.maxLength
    · intro s n hv hs hz
      have := h.minLength s hv
      rw [f_minLength, hs] at this
      exact this hz
    · simpa only [f_pattern] using h.pattern
    · simpa only [f_maxItems] using h.maxItems
    · intro s n hv hs hz
      have := h.minItems s hv
      rw [f_minItems, hs] at this
      exact this hz
    · simpa only [f_uniqueItems] using h.uniqueItems
    · simpa only [f_maxProperties] using h.maxProperties
    · intro s n hv hs hz
      have := h.minProperties s hv
      rw [f_minProperties, hs] at this
      exact this hz
    · simpa only [f_required] using h.required
    · simpa only [f_enum] using h.enum
    · simpa only [f_format] using h.format
  · intro h
    refine ⟨(htype.mpr h.type).1, (htype.mpr h.type).2,
      ?_, ?_, ?_, ?_, ?_, ?_, ?_, ?_, ?_, ?_, ?_, ?_, ?_, ?_, ?_, ?_, ?_⟩
    · simpa only [f_multipleOf] using h.multipleOf
    · intro l b hv hb
      rw [f_maximum] at hb
      split at hb
      · cases hb
      · next hx => exact h.maximum l b hv hb hx
    · intro l b hv hb
      rw [f_exclusiveMaximum] at hb
      split at hb
      · next hx => exact h.exclusiveMaximum l b hv hb hx
      · cases hb
    · intro l b hv hb
      rw [f_minimum] at hb
      split at hb
      · cases hb
      · next hx => exact h.minimum l b hv hb hx
    · intro l b hv hb
      rw [f_exclusiveMinimum] at hb
      split at hb
      · next hx => exact h.exclusiveMinimum l b hv hb hx
      · cases hb
    · simpa only [f_maxLength] using h.maxLength
    · intro s hv hz
      rw [f_minLength] at hz ⊢
      cases hs : f.minLength with
      | none => rw [hs] at hz; exact absurd rfl hz
      | some n => rw [hs] at hz; exact h.minLength s n hv hs hz
    · simpa only [f_pattern] using h.pattern
    · simpa only [f_maxItems] using h.maxItems
    · intro s hv hz
      rw [f_minItems] at hz ⊢
      cases hs : f.minItems with
      | none => rw [hs] at hz; exact absurd rfl hz
      | some n => rw [hs] at hz; exact h.minItems s n hv hs hz
    · simpa only [f_uniqueItems] using h.uniqueItems
    · simpa only [f_maxProperties] using h.maxProperties
    · intro s hv hz
      rw [f_minProperties] at hz ⊢
      cases hs : f.minProperties with
      | none => rw [hs] at hz; exact absurd rfl hz
      | some n => rw [hs] at hz; exact h.minProperties s n hv hs hz
    · simpa only [f_required] using h.required
    · intro c hc; rw [f_const] at hc; cases hc
    · simpa only [f_enum] using h.enum
    · simpa only [f_format] using h.format

theorem empty_flat (σ : Sem) (v : Any) : FlatJSOk σ {} v := by constructor <;> simp

theorem empty_flatOS (σ : Sem) (v : Any) : FlatOSOk σ {} v := by constructor <;> simp

theorem empty_parts (v : Any) : PartsOk ⟨none, [], [], [], none, [], [], none⟩ v := by constructor <;> simp

mutual
/-- One node at a time, for any meaning of references. -/
theorem conv_valid (σ : Sem) (env : String → Any → Prop) : ∀ (s : OS), NullableTyped s →
    okJS σ env (conv s) = okOS σ env s
  | .empty => by
    intro _
    funext v
    simp [conv, okJS, okOS, okJSOpt, okJSList, okJSProps, empty_flat, empty_parts]
  | .ref r => by
    intro _
    simp [conv, okJS, okOS]
  | .schema f not allOf oneOf anyOf items props addlBool addl => by
    intro h
    simp only [NullableTyped] at h
    obtain ⟨h0, h1, h2, h3, h4, h5, h6, h7⟩ := h
    funext v
    cases addlBool with
    | none =>
      simp only [conv, okJS, okOS, f_ref, conv_validOpt σ env not h1, conv_validList σ env allOf h2,
        conv_validList σ env oneOf h3, conv_validList σ env anyOf h4, conv_validOpt σ env items h5,
        conv_validProps σ env props h6, okJSList, okJSProps, addlOk, conv_validOpt σ env addl h7, flat_valid σ f h0]
      simp
    | some b =>
      simp only [conv, okJS, okOS, okJSOpt, f_ref, conv_validOpt σ env not h1, conv_validList σ env allOf h2,
        conv_validList σ env oneOf h3, conv_validList σ env anyOf h4, conv_validOpt σ env items h5,
        conv_validProps σ env props h6, okJSList, okJSProps, addlOk, flat_valid σ f h0]
      simp
theorem conv_validOpt (σ : Sem) (env : String → Any → Prop) : ∀ (s : Option OS), NullableTypedOpt s →
    okJSOpt σ env (convOpt s) = okOSOpt σ env s
  | none => by intro _; simp [convOpt, okJSOpt, okOSOpt]
  | some s => by
    intro h
    simp only [NullableTypedOpt] at h
    simp [convOpt, okJSOpt, okOSOpt, conv_valid σ env s h]
theorem conv_validList (σ : Sem) (env : String → Any → Prop) : ∀ (s : List OS), NullableTypedList s →
    okJSList σ env (convList s) = okOSList σ env s
  | [] => by intro _; simp [convList, okJSList, okOSList]
  | s :: ss => by
    intro h
    simp only [NullableTypedList] at h
    simp [convList, okJSList, okOSList, conv_valid σ env s h.1, conv_validList σ env ss h.2]
theorem conv_validProps (σ : Sem) (env : String → Any → Prop) : ∀ (s : List (String × OS)), NullableTypedProps s →
    okJSProps σ env (convProps s) = okOSProps σ env s
  | [] => by intro _; simp [convProps, okJSProps, okOSProps]
  | (n, s) :: ss => by
    intro h
    simp only [NullableTypedProps] at h
    simp [convProps, okJSProps, okOSProps, conv_valid σ env s h.1, conv_validProps σ env ss h.2]
end

/-- Two meanings of references agree on external references and on the local names of a list. -/
def EnvEq (L : List String) (env env' : String → Any → Prop) : Prop :=
  (∀ r, localRef? r = none → env r = env' r) ∧ ∀ n ∈ L, ∀ r, localRef? r = some n → env r = env' r

theorem EnvEq.sub {L L' : List String} {env env' : String → Any → Prop} (h : EnvEq L env env')
    (hs : ∀ n ∈ L', n ∈ L) : EnvEq L' env env' := ⟨h.1, fun n hn => h.2 n (hs n hn)⟩

mutual
/-- Only the references that occur matter. -/
theorem okJS_congr (σ : Sem) (env env' : String → Any → Prop) : ∀ (j : JS), EnvEq (jsRefs j) env env' →
    okJS σ env j = okJS σ env' j
  | .zero => by intro _; simp [okJS]
  | .bool b => by intro _; simp [okJS]
  | .obj f not allOf oneOf anyOf items itemsArr props addl others => by
    intro h
    simp only [jsRefs] at h
    cases hr : f.ref with
    | some r =>
      have : env r = env' r := by
        cases hl : localRef? r with
        | none => exact h.1 r hl
        | some n => exact h.2 n (by simp [hr, hl]) r hl
      simp [okJS, hr, this]
    | none =>
      simp only [okJS, hr,
        okJS_congrOpt σ env env' not (h.sub (by simp_all)), okJS_congrList σ env env' allOf (h.sub (by simp_all)),
        okJS_congrList σ env env' oneOf (h.sub (by simp_all)), okJS_congrList σ env env' anyOf (h.sub (by simp_all)),
        okJS_congrOpt σ env env' items (h.sub (by simp_all)), okJS_congrList σ env env' itemsArr (h.sub (by simp_all)),
        okJS_congrProps σ env env' props (h.sub (by simp_all)), okJS_congrOpt σ env env' addl (h.sub (by simp_all)),
        okJS_congrProps σ env env' others (h.sub (by simp_all))]
theorem okJS_congrOpt (σ : Sem) (env env' : String → Any → Prop) : ∀ (j : Option JS),
    EnvEq (jsRefsOpt j) env env' → okJSOpt σ env j = okJSOpt σ env' j
  | none => by intro _; simp [okJSOpt]
  | some j => by
    intro h
    simp only [jsRefsOpt] at h
    simp [okJSOpt, okJS_congr σ env env' j h]
theorem okJS_congrList (σ : Sem) (env env' : String → Any → Prop) : ∀ (j : List JS),
    EnvEq (jsRefsList j) env env' → okJSList σ env j = okJSList σ env' j
  | [] => by intro _; simp [okJSList]
  | j :: js => by
    intro h
    simp only [jsRefsList] at h
    simp [okJSList, okJS_congr σ env env' j (h.sub (by simp_all)),
      okJS_congrList σ env env' js (h.sub (by simp_all))]
theorem okJS_congrProps (σ : Sem) (env env' : String → Any → Prop) : ∀ (j : List (String × JS)),
    EnvEq (jsRefsProps j) env env' → okJSProps σ env j = okJSProps σ env' j
  | [] => by intro _; simp [okJSProps]
  | (n, j) :: js => by
    intro h
    simp only [jsRefsProps] at h
    simp [okJSProps, okJS_congr σ env env' j (h.sub (by simp_all)),
      okJS_congrProps σ env env' js (h.sub (by simp_all))]
end

/-- All components of a document have typed nullables. -/
theorem component_typed {m : GoMap OS} (hm : ∀ p ∈ m, NullableTyped p.2) (n : String) :
    NullableTyped (component m n) := by
  unfold component
  cases h : m.get? n with
  | none => simp [NullableTyped]
  | some s => exact hm _ (GoMap.mem_of_get? h)

/-- The references of a self-contained result mean what they mean in the document. -/
theorem env_eq (σ : Sem) (ext : String → Any → Prop) (m : GoMap OS) (hm : ∀ p ∈ m, NullableTyped p.2)
    (C : GoMap JS)
    (hC : ∀ k v, C.get? k = some v →
      v = conv (component m k) ∧ ∀ n ∈ jsRefs v, C.get? n = some (conv (component m n))) :
    ∀ k r n, localRef? r = some n → C.get? n ≠ none → envJS σ ext C k r = envOS σ ext m k r := by
  intro k
  induction k with
  | zero => intro r n hr _; simp [envJS, envOS, hr]
  | succ k ih =>
    intro r n hr hn
    obtain ⟨j, hj⟩ := Option.ne_none_iff_exists'.mp hn
    obtain ⟨e, hcl⟩ := hC n j hj
    simp only [envJS, envOS, hr, hj]
    rw [okJS_congr σ _ (envOS σ ext m k) j ⟨?_, ?_⟩, e, conv_valid σ _ _ (component_typed hm n)]
    · intro r' hr'
      cases k <;> simp [envJS, envOS, hr']
    · intro n' hn' r' hr'
      exact ih r' n' hr' (by rw [hcl n' hn']; simp)

/-- C48 at a given depth of following references: the result of `ToJSONSchema` accepts exactly the values
that the schema accepts in its document. -/
theorem C48_depth (m : GoMap OS) (o : Order) (fuel : Nat) (s : OS) (r : Resolved)
    (h : toJSONSchema (some m) o fuel s = .ok r)
    (hs : NullableTyped s) (hm : ∀ p ∈ m, NullableTyped p.2)
    (σ : Sem) (ext : String → Any → Prop) (k : Nat) :
    ((∃ n, InlinedRoot m s n) →
      okJS σ (envJS σ ext r.components k) r.schema = okOS σ (envOS σ ext m (k + 1)) s) ∧
    ((¬ ∃ n, InlinedRoot m s n) →
      okJS σ (envJS σ ext r.components k) r.schema = okOS σ (envOS σ ext m k) s) := by
  obtain ⟨h1, h2⟩ := C28_self_contained m o fuel s r h
  obtain ⟨e1, e2⟩ := C30_only_needed m o fuel s r h
  have henv := env_eq σ ext m hm r.components h2 k
  have hcongr : okJS σ (envJS σ ext r.components k) r.schema = okJS σ (envOS σ ext m k) r.schema := by
    apply okJS_congr
    refine ⟨?_, ?_⟩
    · intro r' hr'
      cases k <;> simp [envJS, envOS, hr']
    · intro n hn r' hr'
      exact henv r' n hr' (by rw [h1 n hn]; simp)
  constructor
  · rintro ⟨n, hin⟩
    rw [hcongr, (e1 n hin).1, conv_valid σ _ _ (component_typed hm n)]
    obtain ⟨⟨r0, hs0, hl⟩, -⟩ := hin
    rw [hs0]
    simp [okOS, envOS, hl]
  · intro hno
    rw [hcongr, (e2 hno).1, conv_valid σ _ _ hs]

/-- C48: the result of `ToJSONSchema` with its included components accepts exactly the JSON values that
the OpenAPI 3.0 schema accepts in its document, for every meaning of numbers, patterns, formats and
external references, provided `nullable` is only used beside `type`. -/
theorem C48_same_values (m : GoMap OS) (o : Order) (fuel : Nat) (s : OS) (r : Resolved)
    (h : toJSONSchema (some m) o fuel s = .ok r)
    (hs : NullableTyped s) (hm : ∀ p ∈ m, NullableTyped p.2)
    (σ : Sem) (ext : String → Any → Prop) (v : Any) :
    ValidJS σ ext r.components r.schema v ↔ ValidOS σ ext m s v := by
  have hd := fun k => C48_depth m o fuel s r h hs hm σ ext k
  by_cases hin : ∃ n, InlinedRoot m s n
  · constructor
    · rintro ⟨K, hK⟩
      refine ⟨K + 1, fun k hk => ?_⟩
      obtain ⟨k', rfl⟩ : ∃ k', k = k' + 1 := ⟨k - 1, by omega⟩
      rw [← (hd k').1 hin]
      exact hK k' (by omega)
    · rintro ⟨K, hK⟩
      refine ⟨K, fun k hk => ?_⟩
      rw [(hd k).1 hin]
      exact hK (k + 1) (by omega)
  · constructor <;> rintro ⟨K, hK⟩ <;> refine ⟨K, fun k hk => ?_⟩
    · rw [← (hd k).2 hin]; exact hK k hk
    · rw [(hd k).2 hin]; exact hK k hk

/-- C48, the limit: `nullable: true` without `type` means nothing in OpenAPI 3.0, but the conversion makes
it accept null only. Whatever the schema is otherwise, its conversion rejects every value but null. -/
theorem C48_nullable_without_type (f : OFlat) (hn : f.nullable = some true) (ht : f.type = none)
    (not items addl : Option OS) (allOf oneOf anyOf : List OS) (props : List (String × OS)) (b : Option Bool)
    (σ : Sem) (env : String → Any → Prop) (v : Any) :
    okJS σ env (conv (.schema f not allOf oneOf anyOf items props b addl)) v → v = .null := by
  simp only [conv, okJS, f_ref]
  rintro ⟨h, -⟩
  have := h.type1 "null" (by rw [f_type, hn, ht])
  cases v <;> simp [TypeOk] at this ⊢

/-- C48, concrete: the object schema of the examples is accepted by the OpenAPI schema and by the result,
and a nullable schema without type is not. -/
example : NullableTyped (component exampleComps "A") ∧ ∀ σ env,
    okOS σ env (.schema { nullable := some true } none [] [] [] none [] none none) (.bool true) ∧
    ¬ okJS σ env (conv (.schema { nullable := some true } none [] [] [] none [] none none)) (.bool true) := by
  refine ⟨by simp [component, exampleComps, GoMap.get?, NullableTyped, NullableTypedOpt, NullableTypedList, NullableTypedProps], ?_⟩
  intro σ env
  refine ⟨?_, ?_⟩
  · simp only [okOS, okOSOpt, okOSList, okOSProps, addlOk]
    refine ⟨?_, ?_⟩ <;> constructor <;> simp
  · intro h
    have := C48_nullable_without_type _ rfl rfl _ _ _ _ _ _ _ _ σ env _ h
    cases this

end Verif.V30
