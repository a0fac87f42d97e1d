import Verif.Spec.Carry
import Verif.Props.Valid30
import Verif.Lemmas.Path

/-!
# Converting to JSON Schema and back (C26), from JSON Schema (C31, C32, C49)
-/

namespace Verif.V30
open SchemaSpec ValidSpec

theorem extensionName_iff {n : String} : goHasPrefix n "x-" = true ↔ ExtensionName n := by
  unfold goHasPrefix ExtensionName
  rw [hasPrefixL_iff]
  constructor
  · rintro ⟨t, h⟩
    exact ⟨String.ofList t, String.toList_inj.1 (by rw [h, String.toList_append, String.toList_ofList (l := t)])⟩
  · rintro ⟨t, rfl⟩
    exact ⟨t.toList, String.toList_append⟩

instance (n : String) : Decidable (ExtensionName n) := decidable_of_iff _ extensionName_iff

/-! ## C26: round trip -/

theorem typeFrom_to (f : OFlat) : typeFromJS (typeToJS f) = 
    ((if f.type = some "null" then none else f.type),
      if f.nullable = some true ∨ f.type = some "null" then some true else none) := by
  simp only [typeToJS]
  cases f.type with
  | none =>
    cases f.nullable with
    | none => simp [typeFromJS, JType.list]
    | some b => cases b <;> simp [typeFromJS, JType.list, addType, checkNullable]
  | some t =>
    by_cases h : t = "null"
    · subst h
      cases f.nullable with
      | none => simp [typeFromJS, JType.list, addType, checkNullable]
      | some b => cases b <;> simp [typeFromJS, JType.list, addType, checkNullable]
    · cases f.nullable with
      | none => simp [typeFromJS, JType.list, addType, checkNullable, h]
      | some b => cases b <;> simp [typeFromJS, JType.list, addType, checkNullable, h]

theorem min_roundtrip (o : Option Int) :
    (if o.getD 0 ≠ 0 then some (o.getD 0) else none) = o ↔ o ≠ some 0 := by
  cases o with
  | none => simp
  | some n =>
    by_cases h : n = 0
    · subst h; simp
    · simp [h]

theorem flat_roundtrip (f : OFlat) : flatFromJS (flatToJS f) = f ↔ CarryableFlat f := by
  constructor
  · intro h
    have hty := typeFrom_to f
    have e1 : (typeFromJS (typeToJS f)).1 = f.type := congrArg OFlat.type h
    have e2 : (typeFromJS (typeToJS f)).2 = f.nullable := congrArg OFlat.nullable h
    rw [hty] at e1 e2
    simp only at e1 e2
    refine ⟨?_, ?_, ?_, ?_, ?_, ?_, ?_, ?_, ?_, ?_, ?_⟩
    · have a : (match (if f.exclusiveMaximum = some true then f.maximum else none) with
        | some _ => some true | none => none) = f.exclusiveMaximum := congrArg OFlat.exclusiveMaximum h
      have b : (if f.exclusiveMaximum = some true then none else f.maximum) = f.maximum := congrArg OFlat.maximum h
      by_cases hx : f.exclusiveMaximum = some true
      · simp only [hx, if_true] at a b
        rw [← b] at a; cases a
      · simp only [hx, if_false] at a
        exact a.symm
    · have a : (match (if f.exclusiveMinimum = some true then f.minimum else none) with
        | some _ => some true | none => none) = f.exclusiveMinimum := congrArg OFlat.exclusiveMinimum h
      have b : (if f.exclusiveMinimum = some true then none else f.minimum) = f.minimum := congrArg OFlat.minimum h
      by_cases hx : f.exclusiveMinimum = some true
      · simp only [hx, if_true] at a b
        rw [← b] at a; cases a
      · simp only [hx, if_false] at a
        exact a.symm
    · intro hn; rw [hn] at e2; split at e2 <;> cases e2
    · exact (congrArg OFlat.discriminator h).symm
    · exact (congrArg OFlat.xml h).symm
    · exact (congrArg OFlat.externalDocs h).symm
    · exact (min_roundtrip _).mp (congrArg OFlat.minLength h)
    · exact (min_roundtrip _).mp (congrArg OFlat.minItems h)
    · exact (min_roundtrip _).mp (congrArg OFlat.minProperties h)
    · intro ht; rw [ht] at e1; simp at e1
    · have : f.ext.filter (fun p => goHasPrefix p.1 "x-") = f.ext := congrArg OFlat.ext h
      exact fun p hp => extensionName_iff.1 (List.filter_eq_self.mp this p hp)
  · intro h
    have hty := typeFrom_to f
    rw [if_neg h.type] at hty
    have e1 : (flatFromJS (flatToJS f)).type = f.type := by
      show (typeFromJS (typeToJS f)).1 = _
      rw [hty]
    have e2 : (flatFromJS (flatToJS f)).nullable = f.nullable := by
      show (typeFromJS (typeToJS f)).2 = _
      rw [hty]
      have := h.nullable
      have := h.type
      cases hn : f.nullable with
      | none => simp [*]
      | some b => cases b <;> simp_all
    have e3 : (flatFromJS (flatToJS f)).minLength = f.minLength := (min_roundtrip _).mpr h.minLength
    have e4 : (flatFromJS (flatToJS f)).minItems = f.minItems := (min_roundtrip _).mpr h.minItems
    have e5 : (flatFromJS (flatToJS f)).minProperties = f.minProperties := (min_roundtrip _).mpr h.minProperties
    have e6 : (flatFromJS (flatToJS f)).ext = f.ext := List.filter_eq_self.mpr fun p hp => extensionName_iff.2 (h.ext p hp)
    have e7 : (flatFromJS (flatToJS f)).exclusiveMaximum = f.exclusiveMaximum := by
      simp [flatFromJS, flatToJS, h.exclusiveMaximum]
    have e8 : (flatFromJS (flatToJS f)).exclusiveMinimum = f.exclusiveMinimum := by
      simp [flatFromJS, flatToJS, h.exclusiveMinimum]
    have e9 : (flatFromJS (flatToJS f)).maximum = f.maximum := by simp [flatFromJS, flatToJS, h.exclusiveMaximum]
    have e10 : (flatFromJS (flatToJS f)).minimum = f.minimum := by simp [flatFromJS, flatToJS, h.exclusiveMinimum]
    have e11 : (flatFromJS (flatToJS f)).example_ = f.example_ := by
      show (match f.example_ with | some e => [e] | none => []).head? = _
      cases f.example_ <;> rfl
    have e12 := h.discriminator
    have e13 := h.xml
    have e14 := h.externalDocs
    cases f
    exact OFlat.mk.injEq .. ▸ ⟨rfl, rfl, e9, e7, e10, e8, rfl, e3, rfl, rfl, e4, rfl, rfl, e5, rfl, rfl, e1, rfl, rfl,
      rfl, e2, e12.symm, rfl, rfl, e11, e14.symm, rfl, e13.symm, e6, rfl⟩

theorem bind_eq_some {α β : Type} (x : Option α) (f : α → Option β) (b : β) :
    (x >>= f) = some b ↔ ∃ a, x = some a ∧ f a = some b := by
  cases x <;> simp [bind]

mutual
theorem roundtrip : ∀ (s : OS), fromJS (conv s) = some s ↔ Carryable s
  | .empty => by
    simp [conv, fromJS, Carryable, fromJSOpt, fromJSList, fromJSProps, fromJSAddl]
  | .ref r => by simp [conv, fromJS, Carryable]
  | .schema f not allOf oneOf anyOf items props addlBool addl => by
    have h1 := roundtripOpt not
    have h2 := roundtripList allOf
    have h3 := roundtripList oneOf
    have h4 := roundtripList anyOf
    have h5 := roundtripOpt items
    have h6 := roundtripProps props
    have h7 := roundtripOpt addl
    have h7' : fromJSAddl (convOpt addl) = some addl ↔ CarryableOpt addl := by
      rw [← h7]
      cases addl with
      | none => simp [convOpt, fromJSAddl, fromJSOpt]
      | some a =>
        cases a <;> simp [convOpt, fromJSAddl, fromJSOpt, conv]
    have h8 : addlBoolOf (convOpt addl) = none := by
      cases addl with
      | none => simp [convOpt, addlBoolOf]
      | some a => cases a <;> simp [convOpt, addlBoolOf, conv]
    simp only [conv, fromJS, f_ref, Carryable, bind_eq_some, Option.some.injEq, OS.schema.injEq]
    cases addlBool with
    | none =>
      simp only [h8, true_or, true_and]
      rw [← flat_roundtrip, ← h1, ← h2, ← h3, ← h4, ← h5, ← h6, ← h7']
      constructor
      · rintro ⟨a1, b1, a2, b2, a3, b3, a4, b4, a5, b5, a6, b6, a7, b7, c0, c1, c2, c3, c4, c5, c6, c7⟩
        subst c1 c2 c3 c4 c5 c6 c7
        exact ⟨c0, b1, b4, b2, b3, b6, b7, b5⟩
      · rintro ⟨c0, b1, b4, b2, b3, b6, b7, b5⟩
        exact ⟨_, b1, _, b2, _, b3, _, b4, _, b5, _, b6, _, b7, c0, rfl, rfl, rfl, rfl, rfl, rfl, rfl⟩
    | some b =>
      simp only [addlBoolOf, fromJSAddl, reduceCtorEq, false_or]
      rw [← flat_roundtrip, ← h1, ← h2, ← h3, ← h4, ← h5, ← h6]
      constructor
      · rintro ⟨a1, b1, a2, b2, a3, b3, a4, b4, a5, b5, a6, b6, a7, b7, c0, c1, c2, c3, c4, c5, c6, c7⟩
        subst c1 c2 c3 c4 c5 c6
        have c7 := c7.2
        simp only [Option.some.injEq] at b5
        rw [← b5] at c7
        subst c7
        exact ⟨c0, b1, b4, b2, b3, b6, b7, rfl, by simp [CarryableOpt]⟩
      · rintro ⟨c0, b1, b4, b2, b3, b6, b7, b5, -⟩
        exact ⟨_, b1, _, b2, _, b3, _, b4, _, rfl, _, b6, _, b7, c0, rfl, rfl, rfl, rfl, rfl, rfl, trivial, b5.symm⟩
theorem roundtripOpt : ∀ (s : Option OS), fromJSOpt (convOpt s) = some s ↔ CarryableOpt s
  | none => by simp [convOpt, fromJSOpt, CarryableOpt]
  | some s => by
    have h := roundtrip s
    simp only [convOpt, fromJSOpt, CarryableOpt, bind_eq_some, Option.some.injEq]
    rw [← h]
    simp
theorem roundtripList : ∀ (s : List OS), fromJSList (convList s) = some s ↔ CarryableList s
  | [] => by simp [convList, fromJSList, CarryableList]
  | s :: ss => by
    have h := roundtrip s
    have hs := roundtripList ss
    simp only [convList, fromJSList, CarryableList, bind_eq_some, Option.some.injEq, List.cons.injEq]
    rw [← h, ← hs]
    constructor
    · rintro ⟨a, ha, b, hb, e1, e2⟩; subst e1 e2; exact ⟨ha, hb⟩
    · rintro ⟨ha, hb⟩; exact ⟨_, ha, _, hb, rfl, rfl⟩
theorem roundtripProps : ∀ (s : List (String × OS)), fromJSProps (convProps s) = some s ↔ CarryableProps s
  | [] => by simp [convProps, fromJSProps, CarryableProps]
  | (n, s) :: ss => by
    have h := roundtrip s
    have hs := roundtripProps ss
    simp only [convProps, fromJSProps, CarryableProps, bind_eq_some, Option.some.injEq, List.cons.injEq,
      Prod.mk.injEq, true_and]
    rw [← h, ← hs]
    constructor
    · rintro ⟨a, ha, b, hb, e1, e2⟩; subst e1 e2; exact ⟨ha, hb⟩
    · rintro ⟨ha, hb⟩; exact ⟨_, ha, _, hb, rfl, rfl⟩
end

/-- C26: converting a schema that is not an inlined reference to JSON Schema and back gives the schema
exactly if JSON Schema can carry it; for every document and iteration order. -/
theorem C26_round_trip (m : GoMap OS) (o : Order) (fuel : Nat) (s : OS) (r : Resolved)
    (h : toJSONSchema (some m) o fuel s = .ok r) (hr : ∀ x, s ≠ .ref x) :
    fromJS r.schema = some s ↔ Carryable s := by
  rw [((C30_only_needed m o fuel s r h).2 (by rintro ⟨n, ⟨x, e, -⟩, -⟩; exact hr x e)).1]
  exact roundtrip s

/-- C26 for the included components: each converts back to the component of the document exactly if JSON
Schema can carry it. -/
theorem C26_components (m : GoMap OS) (o : Order) (fuel : Nat) (s : OS) (r : Resolved)
    (h : toJSONSchema (some m) o fuel s = .ok r) (k : String) (v : JS) (hk : r.components.get? k = some v) :
    fromJS v = some (component m k) ↔ Carryable (component m k) := by
  rw [((C28_self_contained m o fuel s r h).2 k v hk).1]
  exact roundtrip _

/-- C26, concrete: a carryable schema. -/
example : Carryable (.schema { type := some "string", nullable := some true, maxLength := some 5, ext := [("x-a", .null)] }
    (some (.ref "#/components/schemas/A")) [] [] [] none [("p", .ref "q")] (some false) none) := by
  refine ⟨⟨rfl, rfl, by decide, rfl, rfl, rfl, by decide, by decide, by decide, by decide, ?_⟩, ?_⟩
  · intro p hp
    simp only [List.mem_singleton] at hp
    subst hp
    decide +kernel
  · simp [CarryableOpt, CarryableList, CarryableProps, Carryable]

/-! ## C31: exclusive bounds -/

/-- C31 in the direction to JSON Schema: the bound and its kind are kept, exactly. -/
theorem C31_to_keeps (f : OFlat) (σ : Sem) (l : String) :
    ((∀ b, (flatToJS f).maximum = some b → σ.le l b) ∧ (∀ b, (flatToJS f).exclusiveMaximum = some b → σ.lt l b) ↔
      ∀ b, f.maximum = some b → if f.exclusiveMaximum = some true then σ.lt l b else σ.le l b) ∧
    ((∀ b, (flatToJS f).minimum = some b → σ.ge l b) ∧ (∀ b, (flatToJS f).exclusiveMinimum = some b → σ.gt l b) ↔
      ∀ b, f.minimum = some b → if f.exclusiveMinimum = some true then σ.gt l b else σ.ge l b) := by
  rw [f_maximum, f_exclusiveMaximum, f_minimum, f_exclusiveMinimum]
  by_cases h1 : f.exclusiveMaximum = some true <;> by_cases h2 : f.exclusiveMinimum = some true <;> simp [h1, h2]

/-- C31 in the direction from JSON Schema is violated: the numbers of exclusive bounds do not influence
the result; schemas with different exclusive bounds become the same OpenAPI schema. -/
theorem C31_from_drops (f : JFlat) (a b a' b' : F64) (not items addl : Option JS) (allOf oneOf anyOf itemsArr : List JS)
    (props others : List (String × JS)) :
    fromJS (.obj { f with exclusiveMaximum := some a, exclusiveMinimum := some b }
      not allOf oneOf anyOf items itemsArr props addl others) =
    fromJS (.obj { f with exclusiveMaximum := some a', exclusiveMinimum := some b' }
      not allOf oneOf anyOf items itemsArr props addl others) := by
  simp only [fromJS]
  rfl

/-- C31, consequence: a schema whose only assertion is an exclusive maximum becomes a schema that accepts
everything. -/
theorem C31_from_accepts_all (b : F64) (σ : Sem) (env : String → Any → Prop) (v : Any) :
    ∃ s, fromJS (.obj { exclusiveMaximum := some b } none [] [] [] none [] [] none []) = some s ∧ okOS σ env s v := by
  refine ⟨_, rfl, ?_⟩
  simp only [okOS, okOSOpt, okOSList, okOSProps, addlBoolOf, addlOk]
  refine ⟨?_, empty_parts v⟩
  constructor <;> simp [flatFromJS, typeFromJS, JType.list]

/-! ## C32: boolean schemas -/

/-- C32: the boolean schemas become schemas that accept everything, and nothing. -/
theorem C32_booleans (b : Bool) : ∃ s, fromJS (.bool b) = some s ∧
    ∀ σ env v, okOS σ env s v ↔ b = true := by
  cases b with
  | true =>
    refine ⟨_, rfl, fun σ env v => ?_⟩
    simp [fromBool, okOS, okOSOpt, okOSList, okOSProps, addlOk, empty_flatOS, empty_parts]
  | false =>
    refine ⟨_, rfl, fun σ env v => ?_⟩
    simp only [fromBool, okOS, okOSOpt, okOSList, okOSProps, Bool.false_eq_true, iff_false]
    rintro ⟨-, h⟩
    exact h.not _ rfl ⟨empty_flatOS σ v, empty_parts v⟩

/-! ## C51: annotations -/

/-- C51: at every schema node `FromJSONSchema` keeps the annotations, and it converts the sub-schemas each
in its place. -/
theorem C51_from_notes (f : JFlat) (hr : f.ref = none) (not items addl : Option JS) (allOf oneOf anyOf itemsArr : List JS)
    (props others : List (String × JS)) (s : OS)
    (h : fromJS (.obj f not allOf oneOf anyOf items itemsArr props addl others) = some s) :
    ∃ g not' allOf' oneOf' anyOf' items' props' b addl', s = .schema g not' allOf' oneOf' anyOf' items' props' b addl' ∧
      SameNotes f g ∧ not.mapM fromJS = some not' ∧ allOf.mapM fromJS = some allOf' ∧ oneOf.mapM fromJS = some oneOf' ∧
      anyOf.mapM fromJS = some anyOf' ∧ items.mapM fromJS = some items' ∧
      props.mapM (fun p => (fromJS p.2).map (p.1, ·)) = some props' := by
  have hl : ∀ l, fromJSList l = l.mapM fromJS := by
    intro l
    induction l with
    | nil => simp [fromJSList]
    | cons a l ih => simp [fromJSList, ih, List.mapM_cons]
  have ho : ∀ l, fromJSOpt l = l.mapM fromJS := by
    intro l
    cases l with
    | none => rfl
    | some a => simp only [fromJSOpt, Option.mapM]; cases fromJS a <;> rfl
  have hp : ∀ l : List (String × JS), fromJSProps l = l.mapM (fun p => (fromJS p.2).map (p.1, ·)) := by
    intro l
    induction l with
    | nil => simp [fromJSProps]
    | cons a l ih =>
      obtain ⟨n, j⟩ := a
      simp only [fromJSProps, ih, List.mapM_cons]
      cases fromJS j <;> rfl
  simp only [fromJS, hr, bind_eq_some, Option.some.injEq] at h
  obtain ⟨a1, b1, a2, b2, a3, b3, a4, b4, a5, b5, a6, b6, a7, b7, e⟩ := h
  rw [hl] at b2 b3 b4
  rw [ho] at b1 b6
  rw [hp] at b7
  refine ⟨_, _, _, _, _, _, _, _, _, e.symm, ⟨rfl, rfl, rfl, rfl, rfl, rfl, ?_, ?_⟩, b1, b4, b2, b3, b6, b7⟩
  · intro x
    show f.examples.head? = some x ↔ _
    cases f.examples <;> simp
  · intro n v
    show (n, v) ∈ f.extra.filter _ ↔ _
    simp [List.mem_filter, extensionName_iff]

/-- C51: a reference is kept; a reference that is marked as deprecated becomes a schema that combines the mark
and the reference and has nothing else. -/
theorem C51_from_reference (f : JFlat) (r : String) (hr : f.ref = some r) (not items addl : Option JS)
    (allOf oneOf anyOf itemsArr : List JS) (props others : List (String × JS)) :
    (f.deprecated ≠ some true → fromJS (.obj f not allOf oneOf anyOf items itemsArr props addl others) = some (.ref r)) ∧
    (f.deprecated = some true → ∃ d : OFlat, d.deprecated = some true ∧ { d with deprecated := none } = {} ∧
      fromJS (.obj f not allOf oneOf anyOf items itemsArr props addl others) =
        some (.schema {} none [.schema d none [] [] [] none [] none none, .ref r] [] [] none [] none none)) := by
  refine ⟨fun h => ?_, fun h => ⟨{ deprecated := some true }, rfl, rfl, ?_⟩⟩
  · simp only [fromJS, hr, if_neg h]
  · simp only [fromJS, hr, if_pos h, deprecatedOnly]

/-- C51 in the other direction: `ToJSONSchema` keeps the annotations of the schema. -/
theorem C51_to_notes (m : GoMap OS) (o : Order) (fuel : Nat) (g : OFlat) (hx : ∀ p ∈ g.ext, ExtensionName p.1)
    (not items addl : Option OS) (allOf oneOf anyOf : List OS) (props : List (String × OS)) (b : Option Bool) (r : Resolved)
    (h : toJSONSchema (some m) o fuel (.schema g not allOf oneOf anyOf items props b addl) = .ok r) :
    ∃ f not' allOf' oneOf' anyOf' items' itemsArr' props' addl' others',
      r.schema = .obj f not' allOf' oneOf' anyOf' items' itemsArr' props' addl' others' ∧ SameNotes f g := by
  rw [((C30_only_needed m o fuel _ r h).2 (by rintro ⟨n, ⟨x, e, -⟩, -⟩; cases e)).1]
  simp only [conv]
  refine ⟨_, _, _, _, _, _, _, _, _, _, rfl, ⟨rfl, rfl, rfl, rfl, rfl, rfl, ?_, ?_⟩⟩
  · intro x
    show g.example_ = some x ↔ ∃ rest, (match g.example_ with | some e => [e] | none => []) = x :: rest
    cases g.example_ <;> simp
  · intro n v
    show _ ↔ (n, v) ∈ g.ext ∧ _
    constructor
    · intro hm; exact ⟨hm, hx _ hm⟩
    · exact fun hm => hm.1

/-- C51, concrete: two examples, an extension and another extra member. -/
example : ∃ g not' allOf' oneOf' anyOf' items' props' b addl',
    fromJS (.obj { title := some "t", examples := [.str "a", .str "b"], extra := [("x-a", .null), ("b", .null)] }
      none [] [] [] none [] [] none []) = some (.schema g not' allOf' oneOf' anyOf' items' props' b addl') ∧
    g.example_ = some (.str "a") ∧ g.ext = [("x-a", .null)] :=
  ⟨_, _, _, _, _, _, _, _, _, rfl, rfl, rfl⟩

/-! ## C49: values accepted after `FromJSONSchema` -/

theorem typeFrom_many (t : String) (ht : t ≠ "null") : ∀ (ts : List String) (a : Option String × Option Bool),
    (∀ u ∈ ts, u = t ∨ u = "null") →
    ts.foldl (fun os t => checkNullable t os) a =
      (if t ∈ ts then some t else a.1, if "null" ∈ ts then some true else a.2)
  | [], a, _ => by simp
  | u :: ts, a, h => by
    have ih := typeFrom_many t ht ts (checkNullable u a) (fun x hx => h x (List.mem_cons_of_mem _ hx))
    rw [List.foldl_cons, ih]
    rcases h u (List.mem_cons_self ..) with rfl | rfl
    · simp only [checkNullable, if_neg ht, List.mem_cons, true_or, if_true]
      by_cases h1 : u ∈ ts <;> by_cases h2 : "null" ∈ ts <;> simp [h1, h2, Ne.symm ht]
    · simp only [checkNullable, if_true, List.mem_cons, true_or]
      by_cases h1 : t ∈ ts <;> by_cases h2 : "null" ∈ ts <;> simp [h1, h2, ht]

/-- The plain assertions after `FromJSONSchema` accept the same values. -/
theorem flatFrom_valid (σ : Sem) (f : JFlat) (h1 : f.exclusiveMaximum = none) (h2 : f.exclusiveMinimum = none)
    (h3 : f.const = none) (ht : TypeExpressible f.type) (v : Any) :
    FlatOSOk σ (flatFromJS f) v ↔ FlatJSOk σ f v := by
  have hnull : ∀ v, v = Any.null ↔ TypeOk σ "null" v := by
    intro v; cases v <;> simp [TypeOk]
  have htype : (∀ t, (flatFromJS f).type = some t →
      TypeOk σ t v ∨ ((flatFromJS f).nullable = some true ∧ v = .null)) ↔
      ((∀ t, f.type = some (.one t) → TypeOk σ t v) ∧
      (∀ ts, f.type = some (.many ts) → ∃ t ∈ ts, TypeOk σ t v)) := by
    show (∀ t, (typeFromJS f.type).1 = some t → TypeOk σ t v ∨ ((typeFromJS f.type).2 = some true ∧ v = .null)) ↔ _
    rw [hnull]
    cases e : f.type with
    | none => simp [typeFromJS, JType.list]
    | some ty =>
      rw [e] at ht
      cases ty with
      | one t =>
        have ht : t ≠ "null" := ht
        simp [typeFromJS, JType.list, checkNullable, ht]
      | many ts =>
        obtain ⟨t, hm, hne, hall⟩ := ht
        rw [typeFromJS, JType.list, typeFrom_many t hne ts _ hall]
        simp only [hm, if_true, Option.some.injEq, reduceCtorEq, false_implies, implies_true, true_and,
          JType.many.injEq, forall_eq']
        constructor
        · rintro (h | ⟨h, h'⟩)
          · exact ⟨t, hm, h⟩
          · split at h
            · next hn => exact ⟨_, hn, h'⟩
            · cases h
        · rintro ⟨u, hu, h⟩
          rcases hall u hu with rfl | rfl
          · exact .inl h
          · exact .inr ⟨by simp [hu], h⟩
  constructor
  · intro h
    refine ⟨(htype.mp h.type).1, (htype.mp h.type).2, h.multipleOf, ?_, ?_, ?_, ?_, h.maxLength, ?_, h.pattern,
      h.maxItems, ?_, h.uniqueItems, h.maxProperties, ?_, h.required, ?_, h.enum, h.format⟩
    · intro l b hv hb; exact h.maximum l b hv hb (by simp [flatFromJS, h1])
    · intro l b hv hb; rw [h1] at hb; cases hb
    · intro l b hv hb; exact h.minimum l b hv hb (by simp [flatFromJS, h2])
    · intro l b hv hb; rw [h2] at hb; cases hb
    · intro s hv hz; exact h.minLength s _ hv (by simp [flatFromJS, hz]) hz
    · intro s hv hz; exact h.minItems s _ hv (by simp [flatFromJS, hz]) hz
    · intro s hv hz; exact h.minProperties s _ hv (by simp [flatFromJS, hz]) hz
    · intro c hc; rw [h3] at hc; cases hc
  · intro h
    refine ⟨htype.mpr ⟨h.type1, h.typeN⟩, h.multipleOf, ?_, ?_, ?_, ?_, h.maxLength, ?_, h.pattern,
      h.maxItems, ?_, h.uniqueItems, h.maxProperties, ?_, h.required, h.enum, h.format⟩
    · intro l b hv hb _; exact h.maximum l b hv hb
    · intro l b hv hb hx; simp [flatFromJS, h1] at hx
    · intro l b hv hb _; exact h.minimum l b hv hb
    · intro l b hv hb hx; simp [flatFromJS, h2] at hx
    · intro s n hv hs hz
      simp only [flatFromJS] at hs
      split at hs
      · cases hs; exact h.minLength s hv hz
      · cases hs
    · intro s n hv hs hz
      simp only [flatFromJS] at hs
      split at hs
      · cases hs; exact h.minItems s hv hz
      · cases hs
    · intro s n hv hs hz
      simp only [flatFromJS] at hs
      split at hs
      · cases hs; exact h.minProperties s hv hz
      · cases hs

mutual
theorem from_valid (σ : Sem) (env : String → Any → Prop) : ∀ (j : JS) (s : OS), fromJS j = some s → Expressible j →
    okOS σ env s = okJS σ env j
  | .zero, s => by simp [fromJS]
  | .bool b, s => by
    intro h _
    obtain ⟨s', e, hs⟩ := C32_booleans b
    rw [e] at h; cases h
    funext v
    simp [hs, okJS]
  | .obj f not allOf oneOf anyOf items itemsArr props addl others, s => by
    intro h hx
    simp only [Expressible] at hx
    simp only [fromJS] at h
    cases hr : f.ref with
    | some r =>
      rw [hr] at h
      simp only at h
      split at h
      · cases h
        funext v
        simp only [okJS, hr, okOS, okOSOpt, okOSList, okOSProps, deprecatedOnly, addlOk]
        apply propext
        constructor
        · rintro ⟨-, hp⟩
          exact hp.allOf _ (by simp)
        · intro he
          refine ⟨empty_flatOS σ v, ?_⟩
          constructor <;> simp [he, empty_parts]
          constructor <;> simp
      · cases h
        simp [okJS, hr, okOS]
    | none =>
      rw [hr] at h
      obtain ⟨x1, x2, x3, x4, x5, x6, y1, y2, y3, y4, y5, y6, y7⟩ := hx hr
      simp only [bind_eq_some] at h
      obtain ⟨a1, b1, a2, b2, a3, b3, a4, b4, a5, b5, a6, b6, a7, b7, e⟩ := h
      simp only [Option.some.injEq] at e
      subst e x5 x6
      funext v
      have haddl := from_validAddl σ env addl a5 b5 y7
      have hprops := from_validProps σ env props a7 b7 y6
      simp only [okJS, hr, okOS, from_validOpt σ env not a1 b1 y1, from_validList σ env oneOf a2 b2 y3,
        from_validList σ env anyOf a3 b3 y4, from_validList σ env allOf a4 b4 y2,
        from_validOpt σ env items a6 b6 y5, hprops, haddl, okJSList, okJSProps,
        flatFrom_valid σ f x1 x2 x3 x4]
      simp
theorem from_validOpt (σ : Sem) (env : String → Any → Prop) : ∀ (j : Option JS) (s : Option OS),
    fromJSOpt j = some s → ExpressibleOpt j → okOSOpt σ env s = okJSOpt σ env j
  | none, s => by
    intro h _
    simp only [fromJSOpt, Option.some.injEq] at h
    subst h; simp [okOSOpt, okJSOpt]
  | some j, s => by
    intro h hx
    simp only [fromJSOpt, bind_eq_some] at h
    obtain ⟨a, ha, e⟩ := h
    cases e
    simp only [ExpressibleOpt] at hx
    simp [okOSOpt, okJSOpt, from_valid σ env j a ha hx]
theorem from_validAddl (σ : Sem) (env : String → Any → Prop) : ∀ (j : Option JS) (s : Option OS),
    fromJSAddl j = some s → ExpressibleOpt j →
    addlOk (addlBoolOf j) (okOSOpt σ env s) = okJSOpt σ env j
  | none, s => by
    intro h _
    simp only [fromJSAddl, Option.some.injEq] at h
    subst h; simp [okOSOpt, okJSOpt, addlBoolOf, addlOk]
  | some .zero, s => by
    intro h _
    simp [fromJSAddl, fromJS] at h
  | some (.bool b), s => by
    intro _ _
    simp [addlBoolOf, okJSOpt, okJS, addlOk]
  | some (.obj f a1 a2 a3 a4 a5 a6 a7 a8 a9), s => by
    intro h hx
    simp only [fromJSAddl, bind_eq_some] at h
    obtain ⟨a, ha, e⟩ := h
    cases e
    simp only [ExpressibleOpt] at hx
    simp only [addlBoolOf, okOSOpt, okJSOpt, addlOk]
    rw [from_valid σ env (.obj f a1 a2 a3 a4 a5 a6 a7 a8 a9) a ha hx]
theorem from_validList (σ : Sem) (env : String → Any → Prop) : ∀ (j : List JS) (s : List OS),
    fromJSList j = some s → ExpressibleList j → okOSList σ env s = okJSList σ env j
  | [], s => by
    intro h _
    simp only [fromJSList, Option.some.injEq] at h
    subst h; simp [okOSList, okJSList]
  | j :: js, s => by
    intro h hx
    simp only [fromJSList, bind_eq_some] at h
    obtain ⟨a, ha, b, hb, e⟩ := h
    cases e
    simp only [ExpressibleList] at hx
    simp [okOSList, okJSList, from_valid σ env j a ha hx.1, from_validList σ env js b hb hx.2]
theorem from_validProps (σ : Sem) (env : String → Any → Prop) : ∀ (j : List (String × JS)) (s : List (String × OS)),
    fromJSProps j = some s → ExpressibleProps j → okOSProps σ env s = okJSProps σ env j
  | [], s => by
    intro h _
    simp only [fromJSProps, Option.some.injEq] at h
    subst h; simp [okOSProps, okJSProps]
  | (n, j) :: js, s => by
    intro h hx
    simp only [fromJSProps, bind_eq_some] at h
    obtain ⟨a, ha, b, hb, e⟩ := h
    cases e
    simp only [ExpressibleProps] at hx
    simp [okOSProps, okJSProps, from_valid σ env j a ha hx.1, from_validProps σ env js b hb hx.2]
end

/-- C49: for JSON Schemas that OpenAPI 3.0 can express, `FromJSONSchema` gives a schema that accepts
exactly the same values, whatever the references mean. -/
theorem C49_from_same_values (j : JS) (s : OS) (h : fromJS j = some s) (hx : Expressible j)
    (σ : Sem) (env : String → Any → Prop) (v : Any) : okOS σ env s v ↔ okJS σ env j v := by
  rw [from_valid σ env j s h hx]

/-- C49, a limit: the JSON Schema that accepts only null becomes a schema that accepts everything. -/
theorem C49_null_type (σ : Sem) (env : String → Any → Prop) (v : Any) :
    ∃ s, fromJS (.obj { type := some (.one "null") } none [] [] [] none [] [] none []) = some s ∧ okOS σ env s v := by
  refine ⟨_, rfl, ?_⟩
  simp only [okOS, okOSOpt, okOSList, okOSProps, addlBoolOf, addlOk]
  refine ⟨?_, empty_parts v⟩
  constructor <;> simp [flatFromJS, typeFromJS, JType.list, checkNullable]

/-- C49, a limit: of several types only the last one is kept, so values of the other types are rejected
although the JSON Schema accepts them. -/
theorem C49_many_types (σ : Sem) (env : String → Any → Prop) (x : String) :
    ∃ s, fromJS (.obj { type := some (.many ["string", "boolean"]) } none [] [] [] none [] [] none []) = some s ∧
      okJS σ env (.obj { type := some (.many ["string", "boolean"]) } none [] [] [] none [] [] none []) (.str x) ∧
      ¬ okOS σ env s (.str x) := by
  refine ⟨_, rfl, ?_, ?_⟩
  · simp only [okJS, okJSOpt, okJSList, okJSProps]
    refine ⟨?_, empty_parts _, by simp⟩
    constructor <;> simp [TypeOk]
  · simp only [okOS]
    rintro ⟨h, -⟩
    have := h.type "boolean" (by simp [flatFromJS, typeFromJS, JType.list, checkNullable])
    simp [TypeOk] at this

/-- C49, concrete: an expressible schema that `FromJSONSchema` converts. -/
example : ∃ s, fromJS (.obj { type := some (.many ["string", "null"]), maxLength := some 3 } none []
      [.bool true, .obj { ref := some "#/components/schemas/A" } none [] [] [] none [] [] none []] [] none []
      [("p", .bool false)] (some (.bool false)) []) = some s ∧
    Expressible (.obj { type := some (.many ["string", "null"]), maxLength := some 3 } none []
      [.bool true, .obj { ref := some "#/components/schemas/A" } none [] [] [] none [] [] none []] [] none []
      [("p", .bool false)] (some (.bool false)) []) := by
  refine ⟨_, rfl, ?_⟩
  simp [Expressible, ExpressibleOpt, ExpressibleList, ExpressibleProps, TypeExpressible]

end Verif.V30
