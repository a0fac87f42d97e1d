import Verif.Lemmas.MetaTable30
import Verif.Lemmas.YamlDoc

/-! The parts of parameters, links and HTTP security schemes that are not plain. -/

namespace Verif.Meta
open Codec Spec

variable {N : Nums} {I : String → Prop} {env : String → Any → Prop}

/-- The number literals can be read as `float64`. -/
def Floats (N : Nums) (j : Any) : Prop := ∀ l ∈ literals j, N.f64 l ≠ none

theorem literals_member {ms : List (String × Any)} {k : String} {x : Any} (h : (k, x) ∈ ms) :
    ∀ l ∈ literals x, l ∈ literals (.obj ms) := by
  intro l hl
  rw [literals]
  induction ms with
  | nil => cases h
  | cons p ms ih =>
    obtain ⟨k', x'⟩ := p
    rw [literalsMembers, List.mem_append]
    rcases List.mem_cons.1 h with h | h
    · cases h
      exact .inl hl
    · exact .inr (ih h)

theorem literals_elem {xs : List Any} {x : Any} (h : x ∈ xs) : ∀ l ∈ literals x, l ∈ literals (.arr xs) := by
  intro l hl
  rw [literals]
  induction xs with
  | nil => cases h
  | cons y xs ih =>
    rw [literalsList, List.mem_append]
    rcases List.mem_cons.1 h with h | h
    · cases h
      exact .inl hl
    · exact .inr (ih h)

theorem can_any {T : Table} {j : Any} (h : Floats N j) : Can T N .any j := by
  obtain ⟨a, ha⟩ := decodeAny_literals (N := N) j (fun l hl => Option.ne_none_iff_exists'.1 (h l hl))
  rw [Can, decode_any, ha]
  rfl

/-! ## Required keys -/

/-- A struct that only requires keys. -/
theorem can_keys {n : String} {s : Struct} (hn : GoMap.get? V30.table n = some (.struct s))
    (hs : s = { fields := s.fields, decodes := true, require := s.require }) (hf : ∀ f ∈ s.fields, f.ty = .any)
    {M : List (String × Any)} (hN : Floats N (.obj M)) :
    Can V30.table N (.named n) (.obj M) ↔ ∀ k ∈ s.require, k ∈ M.map Prod.fst := by
  rw [can_obj ranked30 hn (by rw [hs]) (by rw [hs])]
  constructor
  · intro h
    exact h.require
  · intro h
    refine ⟨?_, ?_, ?_, ?_, h, ?_, ?_, ?_, ?_, ?_, ?_⟩
    · rw [hs]; intro t ht; cases ht
    · intro _ k x hx f hf'
      rw [hf f (fieldOf_mem' hf').1]
      exact can_any (fun l hl => hN l (literals_member hx l hl))
    · rw [hs]; intro t ht; cases ht
    · rw [hs]; intro h; exact absurd rfl h
    · rw [hs]; intro k c hc; cases hc
    · rw [hs]; intro k c hc; cases hc
    · rw [hs]; intro k c; cases c
    · rw [hs]; intro q hq; cases hq
    · rw [hs]; intro a ha; cases ha
    · rw [hs]; intro _ h; cases h

/-- A schema that only requires keys. -/
theorem ok_keys {ks : List String} {props : List (String × Sch)} {rest : List Sch}
    (hp : ∀ p ∈ props, ∀ x, Ok I env p.2 x) (hr : rest.all isSkip = true) {M : List (String × Any)} :
    Ok I env (.all (.required ks :: .object props [] none :: rest)) (.obj M) ↔ ∀ k ∈ ks, k ∈ M.map Prod.fst := by
  rw [parseOpen_iff (P := ⟨ks, props, [], none, rest.filter (fun s => !isSkip s)⟩) rfl]
  constructor
  · intro h
    exact h.1.req
  · intro h
    refine ⟨⟨h, fun k x _ s hs => hp _ hs x, ?_, ?_⟩, ?_⟩
    · intro k x _ r s hs
      cases hs
    · intro k x _ _ _ s hs
      cases hs
    · intro e he
      exact ok_skip (List.all_eq_true.1 hr e (List.mem_filter.1 he).1) _

theorem ok_true (x : Any) : Ok I env (.all []) x := by
  rw [ok_all]
  simp

theorem link_not {M : List (String × Any)} (hN : Floats N (.obj M)) :
    Can V30.table N (.named "LinkNot") (.obj M) ↔
      Ok I env (.all [.required ["operationId", "operationRef"],
        .object [("operationId", .all []), ("operationRef", .all [])] [] none]) (.obj M) := by
  rw [can_keys (s := V30.sLinkNot) (by kernel_rfl) rfl (by decide) hN, ok_keys]
  · rfl
  · intro p hp x
    simp only [List.mem_cons, List.not_mem_nil, or_false] at hp
    rcases hp with rfl | rfl <;> exact ok_true x
  · rfl

theorem xor_iff (hE : Meaning defs30 I env) {M : List (String × Any)} (hN : Floats N (.obj M)) :
    Can V30.table N (.ptr (.named "SchemaXORContent")) (.obj M) ↔ env "SchemaXORContent" (.obj M) := by
  rw [hE "SchemaXORContent" mSchemaXORContent (by simp [defs30]), Can, decode_ptr_obj ranked30 rfl]
  change Can V30.table N (.named "SchemaXORContent") (.obj M) ↔ _
  rw [can_obj ranked30 (s := V30.sSchemaXORContent) (by kernel_rfl) rfl rfl]
  have hnot : Can V30.table N (.named "SchemaXORContentNot") (.obj M) ↔
      ∀ k ∈ ["schema", "content"], k ∈ M.map Prod.fst :=
    can_keys (s := V30.sSchemaXORContentNot) (by kernel_rfl) rfl (by decide) hN
  have h1 : Can V30.table N (.ptr (.named "HasSchema")) (.obj M) ↔ ∀ k ∈ ["schema"], k ∈ M.map Prod.fst := by
    rw [Can, decode_ptr_obj ranked30 rfl]
    exact can_keys (s := V30.sHasSchema) (by kernel_rfl) rfl (by decide) hN
  have h2 : Can V30.table N (.ptr (.named "HasContent")) (.obj M) ↔ ∀ k ∈ ["content"], k ∈ M.map Prod.fst := by
    rw [Can, decode_ptr_obj ranked30 rfl]
    exact can_keys (s := V30.sHasContent) (by kernel_rfl) rfl (by decide) hN
  have e1 : Ok I env (.all [.required ["schema"], .object [("schema", .all [])] [] none]) (.obj M) ↔
      ∀ k ∈ ["schema"], k ∈ M.map Prod.fst := by
    apply ok_keys
    · intro p hp x
      simp only [List.mem_cons, List.not_mem_nil, or_false] at hp
      rw [hp]
      exact ok_true x
    · rfl
  have e2 : Ok I env (.all [.required ["content"], .object [("content", .all [])] [] none,
      .skip "allOf: no style, explode, allowReserved, example, examples"]) (.obj M) ↔
      ∀ k ∈ ["content"], k ∈ M.map Prod.fst := by
    apply ok_keys
    · intro p hp x
      simp only [List.mem_cons, List.not_mem_nil, or_false] at hp
      rw [hp]
      exact ok_true x
    · rfl
  have e0 : Ok I env (.all [.required ["schema", "content"], .object [("schema", .all []), ("content", .all [])] [] none])
      (.obj M) ↔ ∀ k ∈ ["schema", "content"], k ∈ M.map Prod.fst := by
    apply ok_keys
    · intro p hp x
      simp only [List.mem_cons, List.not_mem_nil, or_false] at hp
      rcases hp with rfl | rfl <;> exact ok_true x
    · rfl
  have hcount : ¬(∀ k ∈ ["schema", "content"], k ∈ M.map Prod.fst) →
      ((V30.sSchemaXORContent.oneOf.filter (fun e => (decode V30.table N e.ty (.obj M)).isSome)).length = 1 ↔
      Ok I env (.oneOf [.all [.required ["schema"], .object [("schema", .all [])] [] none],
        .all [.required ["content"], .object [("content", .all [])] [] none,
          .skip "allOf: no style, explode, allowReserved, example, examples"]]) (.obj M)) := by
    intro hno
    have hx : ∀ (i k : Nat) (o : Hidden) s, i ≠ k → V30.sSchemaXORContent.oneOf[i]? = some o →
        [Sch.all [.required ["schema"], .object [("schema", .all [])] [] none],
        .all [.required ["content"], .object [("content", .all [])] [] none,
          .skip "allOf: no style, explode, allowReserved, example, examples"]][k]? = some s →
        Can V30.table N o.ty (.obj M) → ¬Ok I env s (.obj M) := by
      intro i k o s hik ho hs hc hok
      have hi := (List.getElem?_eq_some_iff.1 ho).1
      have hk := (List.getElem?_eq_some_iff.1 hs).1
      have hi : i < 2 := hi
      have hk : k < 2 := hk
      apply hno
      have key : (i = 0 ∧ k = 1) ∨ (i = 1 ∧ k = 0) := by omega
      rcases key with ⟨rfl, rfl⟩ | ⟨rfl, rfl⟩
      · cases ho
        cases hs
        have a := h1.1 hc
        have b := e2.1 hok
        intro k hk
        simp only [List.mem_cons, List.not_mem_nil, or_false] at hk
        rcases hk with rfl | rfl
        · exact a _ (by simp)
        · exact b _ (by simp)
      · cases ho
        cases hs
        have a := h2.1 hc
        have b := e1.1 hok
        intro k hk
        simp only [List.mem_cons, List.not_mem_nil, or_false] at hk
        rcases hk with rfl | rfl
        · exact b _ (by simp)
        · exact a _ (by simp)
    constructor
    · intro h
      refine oneOf_sound rfl ?_ hx h
      intro i o s ho hs hc
      match i with
      | 0 => cases ho; cases hs; exact e1.2 (h1.1 hc)
      | 1 => cases ho; cases hs; exact e2.2 (h2.1 hc)
      | i + 2 => cases ho
    · intro h
      refine oneOf_complete rfl ?_ hx h
      intro i o s ho hs hc
      match i with
      | 0 => cases ho; cases hs; exact h1.2 (e1.1 hc)
      | 1 => cases ho; cases hs; exact h2.2 (e2.1 hc)
      | i + 2 => cases ho
  unfold mSchemaXORContent
  rw [ok_all]
  simp only [List.mem_cons, List.not_mem_nil, or_false, forall_eq_or_imp, forall_eq]
  constructor
  · intro h
    have hno : ¬(∀ k ∈ ["schema", "content"], k ∈ M.map Prod.fst) := fun hk => h.nots _ (by decide) (hnot.2 hk)
    refine ⟨?_, (hcount hno).1 (h.oneOf (by decide))⟩
    simp only [Ok]
    exact fun hk => hno (e0.1 hk)
  · rintro ⟨hn, ho⟩
    have hno : ¬(∀ k ∈ ["schema", "content"], k ∈ M.map Prod.fst) := by
      simp only [Ok] at hn
      exact fun hk => hn (e0.2 hk)
    refine ⟨?_, ?_, ?_, fun _ => (hcount hno).2 ho, ?_, ?_, ?_, ?_, ?_, ?_, ?_⟩
    · intro t ht
      simp only [V30.sSchemaXORContent, List.mem_cons, List.not_mem_nil, or_false] at ht
      rw [ht]
      exact fun hk => hno (hnot.1 hk)
    · intro h; cases h
    · intro t ht; cases ht
    · intro t ht; cases ht
    · intro k c hc; cases hc
    · intro k c hc; cases hc
    · intro k c; cases c
    · intro q hq; cases hq
    · intro a ha; cases ha
    · intro _ h; cases h

/-! ## Locations of parameters and schemes of HTTP -/

/-- Only what has no parts is decoded. -/
def leafField (f : Field) : Bool :=
  match f.ty with
  | .ptr (.named n) => match GoMap.get? V30.table n with
    | some (.enum _) => true
    | _ => false
  | _ => false

theorem enum_iff {n : String} {ws : List String} (hn : GoMap.get? V30.table n = some (.enum ws)) {sch : Sch}
    (h : relOk V30.table n sch = true) {x : Any} : Can V30.table N (.named n) x ↔ Ok I env sch x := by
  have key : ∀ vs : List Const, (vs == ws.map Const.str && !ws.contains "") = true →
      (Can V30.table N (.named n) x ↔ ∃ c ∈ vs, x = c.json) := by
    intro vs hv
    simp only [Bool.and_eq_true, beq_iff_eq, Bool.not_eq_true'] at hv
    obtain ⟨rfl, hv⟩ := hv
    have hex : (∃ c ∈ ws.map Const.str, x = c.json) ↔ ∃ t ∈ ws, x = .str t := by
      constructor
      · rintro ⟨c, hc, rfl⟩
        obtain ⟨t, ht, rfl⟩ := List.mem_map.1 hc
        exact ⟨t, ht, rfl⟩
      · rintro ⟨t, ht, rfl⟩
        exact ⟨.str t, List.mem_map.2 ⟨t, ht, rfl⟩, rfl⟩
    rw [hex, Can, decode_enum hn]
    cases x with
    | str t =>
      simp only [Any.str.injEq, exists_eq_right']
      cases e : ws.contains t with
      | true => simpa using e
      | false =>
        simp only [Bool.false_eq_true, if_false, Option.isSome_none, false_iff]
        intro ha
        rw [List.contains_iff_mem.2 ha] at e
        cases e
    | null =>
      simp only [hv]
      simp
    | _ => simp
  unfold relOk at h
  split at h
  · rename_i m
    exfalso
    simp only [Bool.or_eq_true, List.contains_iff_mem, Bool.and_eq_true] at h
    have : (pairs30.map Prod.fst ++ special30 ++ either30).all (fun n => (structOf n).isSome) = true := by
      decide +kernel
    have := List.all_eq_true.1 this n (by
      rcases h with h | ⟨_, h | h⟩
      · exact List.mem_append_left _ (List.mem_append_left _ (List.mem_map.2 ⟨_, h, rfl⟩))
      · exact List.mem_append_left _ (List.mem_append_right _ h)
      · exact List.mem_append_right _ h)
    unfold structOf at this
    rw [hn] at this
    cases this
  · rename_i a m
    exfalso
    simp only [Bool.and_eq_true, List.contains_iff_mem] at h
    have : (comps30.map Prod.fst).all (fun n => (structOf n).isSome) = true := by decide +kernel
    have := List.all_eq_true.1 this n (List.mem_map.2 ⟨_, h.2, rfl⟩)
    unfold structOf at this
    rw [hn] at this
    cases this
  · rename_i a b
    exfalso
    simp only [Bool.and_eq_true, beq_iff_eq] at h
    have : (structOf n).isSome = true := by rw [h.2]; decide +kernel
    unfold structOf at this
    rw [hn] at this
    cases this
  · rename_i a vs
    rw [hn] at h
    simp only [Bool.and_eq_true, beq_iff_eq] at h
    obtain ⟨rfl, h⟩ := h
    rw [key vs (by simpa using h), ok_all]
    simp only [List.mem_cons, List.not_mem_nil, or_false, forall_eq_or_imp, forall_eq, Ok]
    constructor
    · rintro ⟨c, hc, rfl⟩
      refine ⟨?_, c, hc, rfl⟩
      obtain ⟨rfl, _⟩ := h
      obtain ⟨t, _, rfl⟩ := List.mem_map.1 hc
      rfl
    · exact fun h => h.2
  · rename_i vs
    rw [hn] at h
    rw [key vs h, ok_all]
    simp only [List.mem_cons, List.not_mem_nil, or_false, forall_eq, Ok]
  · cases h

theorem leaf_complete {f : Field} (hf : leafField f = true) {sch : Sch} (h : tyAgree V30.table f.ty sch = true) {x : Any}
    (hok : Ok I env sch x) : Can V30.table N f.ty x := by
  unfold leafField at hf
  split at hf
  · rename_i n e
    split at hf
    · rename_i ws hn
      rw [e] at h
      simp only [tyAgree, notPtr, Bool.true_and] at h
      have := (enum_iff (N := N) hn h).2 hok
      rw [e, Can, decode_ptr ranked30 rfl]
      cases x <;> first | rfl | exact this
    · cases hf
  · cases hf

theorem leaf_sound {f : Field} (hf : leafField f = true) {sch : Sch} (h : tyAgree V30.table f.ty sch = true) {x : Any}
    (hx : x ≠ .null) (hc : Can V30.table N f.ty x) : Ok I env sch x := by
  unfold leafField at hf
  split at hf
  · rename_i n e
    split at hf
    · rename_i ws hn
      rw [e] at h hc
      simp only [tyAgree, notPtr, Bool.true_and] at h
      refine (enum_iff (N := N) hn h).1 ?_
      rw [Can, decode_ptr ranked30 rfl] at hc
      cases x <;> first | exact absurd rfl hx | exact hc
    · cases hf
  · cases hf

/-- An alternative without `type`. -/
def looseAgree (n : String) (sch : Sch) : Bool :=
  openAgree n sch && (match structOf n with
    | some s => s.fields.all leafField && s.patterns.isEmpty && s.additional.isNone &&
        s.fields.all (fun f => f.key == "style")
    | none => false)

theorem loose_complete {n : String} {sch : Sch} (h : looseAgree n sch = true) {M : List (String × Any)}
    (hk : ∀ k ∈ M.map Prod.fst, foldKey k = foldKey "style" → k = "style") (hok : Ok I env sch (.obj M)) :
    Can V30.table N (.ptr (.named n)) (.obj M) := by
  unfold looseAgree at h
  rw [Bool.and_eq_true] at h
  obtain ⟨h1, h2⟩ := h
  obtain ⟨s, P, hs, hP, ha, e1, e2, e3, e4, e5⟩ := open_agree h1
  rw [structOf_some.2 hs] at h2
  simp only [Bool.and_eq_true, List.all_eq_true, List.isEmpty_iff, Option.isNone_iff_eq_none, beq_iff_eq] at h2
  obtain ⟨⟨⟨h2, h3⟩, h4⟩, h5⟩ := h2
  rw [Can, decode_ptr_obj ranked30 rfl]
  refine (can_obj ranked30 hs ha.exactlyOne ha.lower).2 (accepts_of_holds ha ((parseOpen_iff hP).1 hok).1 ?_ ?_ ?_ ?_ ?_ ?_ ?_)
  · rw [e1]; intro t ht; cases ht
  · rw [e2]; intro t ht; cases ht
  · rw [e3]; intro h; exact absurd rfl h
  · intro _ _ k hkm f hf
    obtain ⟨hfm, hfold⟩ := fieldOf_mem' hf
    rw [h5 f hfm] at hfold ⊢
    exact hk k hkm hfold.symm
  · intro f hf x _ sch hag hok
    exact leaf_complete (h2 f hf) hag hok
  · rw [h3]; intro q hq; cases hq
  · rw [h4]; intro a ha; cases ha

theorem loose_sound {n : String} {sch : Sch} (h : looseAgree n sch = true) {M : List (String × Any)}
    (hM : (M.map Prod.fst).Nodup) (hk : ("style", Any.null) ∉ M) (hc : Can V30.table N (.ptr (.named n)) (.obj M)) :
    Ok I env sch (.obj M) := by
  unfold looseAgree at h
  rw [Bool.and_eq_true] at h
  obtain ⟨h1, h2⟩ := h
  obtain ⟨s, P, hs, hP, ha, e1, e2, e3, e4, e5⟩ := open_agree h1
  rw [structOf_some.2 hs] at h2
  simp only [Bool.and_eq_true, List.all_eq_true, List.isEmpty_iff, Option.isNone_iff_eq_none, beq_iff_eq] at h2
  obtain ⟨⟨⟨h2, h3⟩, h4⟩, h5⟩ := h2
  rw [Can, decode_ptr_obj ranked30 rfl] at hc
  rw [parseOpen_iff hP, e4]
  refine ⟨holds_of_accepts ha ((can_obj ranked30 hs ha.exactlyOne ha.lower).1 hc) hM ?_ ?_ ?_ ?_, by simp⟩
  · intro f hf x hx t ht hm
    rw [e5 _ t ht] at hm
    cases hm
  · intro f hf x hx sch hag hc
    refine leaf_sound (h2 f hf) hag ?_ hc
    rintro rfl
    rw [h5 f hf] at hx
    exact hk hx
  · rw [h3]; intro q hq; cases hq
  · rw [h4]; intro a ha; cases ha

/-- Constants of an alternative without `type` exclude another. -/
def looseExcl (k : String) (n : String) (sch : Sch) : Bool :=
  match structOf n, parseOpen sch with
  | some s, some P => s.exactlyOne == none && s.lower == [] && s.consts.any (fun c => c.1 == k &&
      P.props.any (fun p => p.1 == k && (match p.2 with
        | .all [.enum [c']] => c' != c.2
        | _ => false)))
  | _, _ => false

theorem loose_excl {k n : String} {sch : Sch} (h : looseExcl k n sch = true) {M : List (String × Any)}
    (hk : k ∈ M.map Prod.fst) (hc : Can V30.table N (.ptr (.named n)) (.obj M)) : ¬Ok I env sch (.obj M) := by
  unfold looseExcl at h
  split at h
  · rename_i s P hs hP
    simp only [Bool.and_eq_true, beq_iff_eq, List.any_eq_true] at h
    obtain ⟨⟨h1, h2⟩, ⟨k1, c⟩, hcm, rfl, ⟨k2, t⟩, ht, rfl, h3⟩ := h
    rw [Can, decode_ptr_obj ranked30 rfl] at hc
    have ha := (can_obj ranked30 (structOf_some.1 hs) h1 h2).1 hc
    intro hok
    have H := ((parseOpen_iff hP).1 hok).1
    simp only at h3 hk
    split at h3
    · rename_i c'
      obtain ⟨a, hl⟩ := lastValue_of_mem hk
      have e1 := ha.consts _ c hcm a hl
      have e2 := H.props _ a (lastValue_mem hl) _ ht
      rw [ok_all] at e2
      have e2 := e2 (.enum [c']) (by simp)
      simp only [Ok, List.mem_cons, List.not_mem_nil, or_false, exists_eq_left] at e2
      rw [e1] at e2
      rw [bne_iff_ne] at h3
      apply h3
      cases c <;> cases c' <;> simp_all [Const.json]
    · cases h3
  · cases h

/-- The alternatives of the location of a parameter. -/
def locations : List Sch :=
  match mParameterLocation with
  | .all [.oneOf ss] => ss
  | _ => []

theorem locations_agree : V30.sParameterLocation.oneOf.length = locations.length ∧
    (List.range 4).all (fun i => (List.range 4).all (fun k =>
      match V30.sParameterLocation.oneOf[i]?, locations[k]? with
      | some o, some t => (match o.ty with
        | .ptr (.named n) => if i == k then looseAgree n t else looseExcl "in" n t
        | _ => false)
      | _, _ => false)) = true := by
  refine ⟨rfl, ?_⟩
  decide +kernel

theorem location_pair {i k : Nat} {o : Hidden} {t : Sch} (ho : V30.sParameterLocation.oneOf[i]? = some o)
    (ht : locations[k]? = some t) : ∃ n, o.ty = .ptr (.named n) ∧ (i = k → looseAgree n t = true) ∧
      (i ≠ k → looseExcl "in" n t = true) := by
  have h := locations_agree.2
  simp only [List.all_eq_true, List.mem_range] at h
  have hi : i < 4 := (List.getElem?_eq_some_iff.1 ho).1
  have hk : k < 4 := (List.getElem?_eq_some_iff.1 ht).1
  have h := h i hi k hk
  rw [ho, ht] at h
  simp only at h
  split at h
  · rename_i n e
    refine ⟨n, e, ?_, ?_⟩
    · rintro rfl
      simpa using h
    · intro hne
      rw [if_neg (by simpa using hne)] at h
      exact h
  · cases h

theorem location_complete (hE : Meaning defs30 I env) {M : List (String × Any)} (hin : "in" ∈ M.map Prod.fst)
    (hk : ∀ k ∈ M.map Prod.fst, foldKey k = foldKey "style" → k = "style")
    (h : env "ParameterLocation" (.obj M)) : Can V30.table N (.ptr (.named "ParameterLocation")) (.obj M) := by
  rw [hE "ParameterLocation" mParameterLocation (by simp [defs30])] at h
  have h : Ok I env (.oneOf locations) (.obj M) := by
    rw [mParameterLocation, ok_all] at h
    exact h _ (List.mem_cons_self)
  rw [Can, decode_ptr_obj ranked30 rfl]
  refine (can_union ranked30 (s := V30.sParameterLocation) (by kernel_rfl) rfl (by decide)).2 ?_
  refine oneOf_complete locations_agree.1 ?_ ?_ h
  · intro i o t ho ht hok
    obtain ⟨n, e, h1, _⟩ := location_pair ho ht
    rw [e]
    exact loose_complete (h1 rfl) hk hok
  · intro i k o t hik ho ht hc
    obtain ⟨n, e, _, h2⟩ := location_pair ho ht
    rw [e] at hc
    exact loose_excl (h2 hik) hin hc

theorem location_sound (hE : Meaning defs30 I env) {M : List (String × Any)} (hin : "in" ∈ M.map Prod.fst)
    (hM : (M.map Prod.fst).Nodup) (hk : ("style", Any.null) ∉ M)
    (h : Can V30.table N (.ptr (.named "ParameterLocation")) (.obj M)) : env "ParameterLocation" (.obj M) := by
  rw [hE "ParameterLocation" mParameterLocation (by simp [defs30])]
  rw [Can, decode_ptr_obj ranked30 rfl] at h
  have h := (can_union ranked30 (s := V30.sParameterLocation) (by kernel_rfl) rfl (by decide)).1 h
  have : Ok I env (.oneOf locations) (.obj M) := by
    refine oneOf_sound locations_agree.1 ?_ ?_ h
    · intro i o t ho ht hc
      obtain ⟨n, e, h1, _⟩ := location_pair ho ht
      rw [e] at hc
      exact loose_sound (h1 rfl) hM hk hc
    · intro i k o t hik ho ht hc
      obtain ⟨n, e, _, h2⟩ := location_pair ho ht
      rw [e] at hc
      exact loose_excl (h2 hik) hin hc
  rw [mParameterLocation, ok_all]
  intro s hs
  simp only [List.mem_cons, List.not_mem_nil, or_false] at hs
  rw [hs]
  exact this

/-- The alternatives of an HTTP security scheme. -/
def mBearer : Sch := .all [.object [("scheme", .all [.enum [(.str "bearer")]])] [] none]
def mNonBearer : Sch := .all [.not (.all [.required ["bearerFormat"]]),
  .object [("scheme", .all [.not (.all [.enum [(.str "bearer")]])])] [] none]

theorem bearer_agree : looseAgree "Bearer" mBearer = true := by decide +kernel

theorem nonBearer_accepts {M : List (String × Any)} : Can V30.table N (.ptr (.named "NonBearer")) (.obj M) ↔
    (∀ x, lastValue M "scheme" = some x → x ≠ .str "bearer") ∧ "bearerFormat" ∉ M.map Prod.fst := by
  rw [Can, decode_ptr_obj ranked30 rfl]
  change Can _ _ _ _ ↔ _
  rw [can_obj ranked30 (s := V30.sNonBearer) (by kernel_rfl) rfl rfl]
  constructor
  · intro h
    exact ⟨h.notConsts "scheme" (.str "bearer") (by decide), h.forbid "bearerFormat" (by decide)⟩
  · rintro ⟨h1, h2⟩
    refine ⟨?_, ?_, ?_, ?_, ?_, ?_, ?_, ?_, ?_, ?_, ?_⟩
    · intro t ht; cases ht
    · intro h; cases h
    · intro t ht; cases ht
    · intro h; exact absurd rfl h
    · intro k hk; cases hk
    · intro k c hc; cases hc
    · intro k c hc
      simp only [V30.sNonBearer, List.mem_cons, List.not_mem_nil, or_false, Prod.mk.injEq] at hc
      obtain ⟨rfl, rfl⟩ := hc
      exact h1
    · intro k hk
      simp only [V30.sNonBearer, List.mem_cons, List.not_mem_nil, or_false] at hk
      rw [hk]
      exact h2
    · intro q hq; cases hq
    · intro a ha; cases ha
    · intro _ h; cases h

theorem nonBearer_ok {M : List (String × Any)} : Ok I env mNonBearer (.obj M) ↔
    (∀ x, ("scheme", x) ∈ M → x ≠ .str "bearer") ∧ "bearerFormat" ∉ M.map Prod.fst := by
  rw [mNonBearer, ok_all]
  simp only [List.mem_cons, List.not_mem_nil, or_false, forall_eq_or_imp, forall_eq, ok_object, Any.obj.injEq,
    forall_eq', Prod.mk.injEq]
  have h1 : Ok I env (.not (.all [.required ["bearerFormat"]])) (.obj M) ↔ "bearerFormat" ∉ M.map Prod.fst := by
    simp only [Ok]
    change ¬Ok I env (.all [.required ["bearerFormat"]]) (.obj M) ↔ _
    rw [ok_all]
    simp only [List.mem_cons, List.not_mem_nil, or_false, forall_eq, ok_required]
  have h2 : ∀ x, Ok I env (.all [.not (.all [.enum [(.str "bearer")]])]) x ↔ x ≠ .str "bearer" := by
    intro x
    rw [ok_all]
    simp only [List.mem_cons, List.not_mem_nil, or_false, forall_eq]
    have : Ok I env (.all [.enum [(.str "bearer")]]) x ↔ x = .str "bearer" := by
      rw [ok_all]
      simp only [List.mem_cons, List.not_mem_nil, or_false, forall_eq, Ok, exists_eq_left, Const.json]
    simp only [Ok]
    change ¬Ok I env (.all [.enum [(.str "bearer")]]) x ↔ _
    rw [this]
  rw [h1]
  constructor
  · rintro ⟨a, b⟩
    exact ⟨fun x hx => (h2 x).1 ((b "scheme" x hx).1 _ ⟨rfl, rfl⟩), a⟩
  · rintro ⟨a, b⟩
    refine ⟨b, fun k x hx => ⟨?_, ?_, ?_⟩⟩
    · rintro s ⟨rfl, rfl⟩
      exact (h2 x).2 (a x hx)
    · intro r s h; exact absurd h (by simp)
    · intro _ _ s hs; cases hs

theorem bearer_ok {M : List (String × Any)} : Ok I env mBearer (.obj M) ↔ ∀ x, ("scheme", x) ∈ M → x = .str "bearer" := by
  rw [mBearer, parseOpen_iff (P := ⟨[], [("scheme", .all [.enum [(.str "bearer")]])], [], none, []⟩) rfl]
  have h2 : ∀ x, Ok I env (.all [.enum [(.str "bearer")]]) x ↔ x = .str "bearer" := by
    intro x
    rw [ok_all]
    simp only [List.mem_cons, List.not_mem_nil, or_false, forall_eq, Ok, exists_eq_left, Const.json]
  constructor
  · intro h x hx
    exact (h2 x).1 (h.1.props _ x hx _ (by simp))
  · intro h
    refine ⟨⟨?_, ?_, ?_, ?_⟩, ?_⟩
    · intro k hk; cases hk
    · intro k x hx s hs
      simp only [List.mem_cons, List.not_mem_nil, or_false, Prod.mk.injEq] at hs
      obtain ⟨rfl, rfl⟩ := hs
      exact (h2 x).2 (h x hx)
    · intro k x _ r s hs; cases hs
    · intro k x _ _ _ s hs; cases hs
    · intro e he; cases he

theorem bearer_can {M : List (String × Any)} : Can V30.table N (.ptr (.named "Bearer")) (.obj M) ↔
    ∀ x, lastValue M "scheme" = some x → x = .str "bearer" := by
  rw [Can, decode_ptr_obj ranked30 rfl]
  change Can _ _ _ _ ↔ _
  rw [can_obj ranked30 (s := V30.sBearer) (by kernel_rfl) rfl rfl]
  constructor
  · intro h
    exact h.consts "scheme" (.str "bearer") (by decide)
  · intro h1
    refine ⟨?_, ?_, ?_, ?_, ?_, ?_, ?_, ?_, ?_, ?_, ?_⟩
    · intro t ht; cases ht
    · intro h; cases h
    · intro t ht; cases ht
    · intro h; exact absurd rfl h
    · intro k hk; cases hk
    · intro k c hc
      simp only [V30.sBearer, List.mem_cons, List.not_mem_nil, or_false, Prod.mk.injEq] at hc
      obtain ⟨rfl, rfl⟩ := hc
      exact h1
    · intro k c hc; cases hc
    · intro k hk; cases hk
    · intro q hq; cases hq
    · intro a ha; cases ha
    · intro _ h; cases h

theorem http_excl {M : List (String × Any)} (hs : "scheme" ∈ M.map Prod.fst) (i k : Nat) (o : Hidden) (s : Sch)
    (hik : i ≠ k) (ho : V30.sHTTPSecurityScheme.oneOf[i]? = some o) (hsk : [mBearer, mNonBearer][k]? = some s)
    (hc : Can V30.table N o.ty (.obj M)) : ¬Ok I env s (.obj M) := by
  have hi : i < 2 := (List.getElem?_eq_some_iff.1 ho).1
  have hk : k < 2 := (List.getElem?_eq_some_iff.1 hsk).1
  obtain ⟨a, hl⟩ := lastValue_of_mem hs
  have key : (i = 0 ∧ k = 1) ∨ (i = 1 ∧ k = 0) := by omega
  rcases key with ⟨rfl, rfl⟩ | ⟨rfl, rfl⟩
  · cases ho
    cases hsk
    rw [nonBearer_ok]
    rintro ⟨h, _⟩
    exact h a (lastValue_mem hl) (bearer_can.1 hc a hl)
  · cases ho
    cases hsk
    rw [bearer_ok]
    intro h
    exact (nonBearer_accepts.1 hc).1 a hl (h a (lastValue_mem hl))

theorem http_complete {M : List (String × Any)} (hs : "scheme" ∈ M.map Prod.fst)
    (h : Ok I env (.oneOf [mBearer, mNonBearer]) (.obj M)) :
    (V30.sHTTPSecurityScheme.oneOf.filter (fun e => (decode V30.table N e.ty (.obj M)).isSome)).length = 1 := by
  refine oneOf_complete rfl ?_ (http_excl hs) h
  intro i o s ho hs hok
  match i with
  | 0 =>
    cases ho
    cases hs
    exact bearer_can.2 (fun x hx => bearer_ok.1 hok x (lastValue_mem hx))
  | 1 =>
    cases ho
    cases hs
    obtain ⟨a, b⟩ := nonBearer_ok.1 hok
    exact nonBearer_accepts.2 ⟨fun x hx => a x (lastValue_mem hx), b⟩
  | i + 2 => cases ho

theorem http_sound {M : List (String × Any)} (hM : (M.map Prod.fst).Nodup) (hs : "scheme" ∈ M.map Prod.fst)
    (h : (V30.sHTTPSecurityScheme.oneOf.filter (fun e => (decode V30.table N e.ty (.obj M)).isSome)).length = 1) :
    Ok I env (.oneOf [mBearer, mNonBearer]) (.obj M) := by
  refine oneOf_sound rfl ?_ (http_excl hs) h
  intro i o s ho hs hc
  match i with
  | 0 =>
    cases ho
    cases hs
    exact bearer_ok.2 (fun x hx => bearer_can.1 hc x (lastValue_nodup hM hx))
  | 1 =>
    cases ho
    cases hs
    obtain ⟨a, b⟩ := nonBearer_accepts.1 hc
    exact nonBearer_ok.2 ⟨fun x hx => a x (lastValue_nodup hM hx), b⟩
  | i + 2 => cases ho

end Verif.Meta
