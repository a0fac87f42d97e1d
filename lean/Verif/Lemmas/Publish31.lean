import Verif.Lemmas.PublishFill31
import Verif.Lemmas.PublishSch31

/-! Documents of 3.1 that can be written, and that the meta-schema accepts what is written. -/

namespace Verif.Pub31
open Codec Spec Conform Meta31
open Pub30 (fill opt mapVal listVal refOrVal securityVal nilable Stable pat_status pat_x pat_slash pat_name)

variable {N : Nums} {env : String → Sem}

/-- The properties of a schema. -/
def props : Sch → List (String × Sch)
  | .closed (_ :: .object ps _ _ :: _) => ps
  | _ => []

/-- The keywords after the properties. -/
def others : Sch → List Sch
  | .closed (_ :: _ :: ks) => ks
  | _ => []

/-- Finds a property. -/
macro "prop" : tactic => `(tactic| (repeat (first | exact List.Mem.head _ | apply List.Mem.tail)))

/-- An object that is not a reference and that a definition accepts. -/
def Obj (env : String → Sem) (d : String) (j : Any) : Prop :=
  ∃ M, j = .obj M ∧ ¬HasKey (.obj M) "$ref" ∧ (env d).ok (.obj M)

theorem Obj.ok {d : String} {j : Any} (h : Obj env d j) : (env d).ok j := by
  obtain ⟨M, rfl, _, h⟩ := h; exact h

variable (hE : Meaning defs31 env)
include hE

/-- A struct with nothing special, for a definition with fixed properties. -/
theorem good_simple {n d : String} {s : Codec.Struct} {m : Sch} {l : List (String × Val)}
    (hn : GoMap.get? T n = some (.struct s)) (hd : GoMap.get? defs31 d = some m)
    (hm : m = .closed (.type ["object"] :: .object (props m) [] none :: others m))
    (hp : propsCheck (props m) = true) (href : ((props m).map Prod.fst).contains "$ref" = false)
    (hc : (simple n s (l.map Prod.fst) && s.exactlyOne.isNone && s.lower.isEmpty) = true) (hcs : s.consts = [])
    (hg : Given N (Member env (props m)) s l)
    (hk : ∀ M, Filled N (Member env (props m)) n s l M → (∀ k x, (k, x) ∈ M → Member env (props m) k x) →
      ∀ t ∈ others m, (sem env t).ok (.obj M))
    (hx : ∀ M k, IsExtension k → ∃ t ∈ others m, (sem env t).sees (.obj M) k) :
    Good N (Obj env d) (.named n) (fill s l) := by
  obtain ⟨M, hM⟩ := filled' hn hc hg
  have hmem : ∀ k x, (k, x) ∈ M → Member env (props m) k x := by
    intro k x hx
    rcases hM.members k x hx with ⟨h, _⟩ | h
    · rw [hcs] at h; cases h
    · exact h
  refine ⟨hM.writable, M, hM.json, no_key hmem href (by decide), ?_⟩
  rw [def31 hE hd, hm]
  exact closed_ok hp hmem (hk M hM hmem) (hx M)

theorem ext_last {M : List (String × Any)} {k : String} {ks : List Sch} (h : IsExtension k) :
    ∃ t ∈ ks ++ [.ref "specification-extensions"], (sem env t).sees (.obj M) k :=
  ⟨_, by simp, ext_sees hE h⟩

/-! ## References -/

theorem good_reference (r : String) : Good N (fun j => ∃ M, j = .obj M ∧ HasKey (.obj M) "$ref" ∧ (env "reference").ok (.obj M))
    (.named "Reference") (fill V31.sReference [("Ref", .str r)]) := by
  obtain ⟨M, hM⟩ := filled' (N := N) (P := fun k x => k = "$ref" ∧ x = .str r) (n := "Reference") (s := V31.sReference)
    (l := [("Ref", .str r)]) (by kernel_rfl) (by rfl)
    ⟨field_of rfl (good_str r (P := fun j => j = .str r) rfl) (by rintro j rfl; exact ⟨rfl, rfl⟩), trivial⟩
  have hmem : ∀ k x, (k, x) ∈ M → k = "$ref" ∧ x = .str r := by
    intro k x hx
    rcases hM.members k x hx with ⟨h, _⟩ | h
    · cases h
    · exact h
  obtain ⟨x, hx⟩ := hM.fields ⟨"Ref", "$ref", .str, false⟩ (by simp [V31.sReference]) rfl
  refine ⟨hM.writable, M, hM.json, hasKey_obj_iff.2 ⟨x, hx⟩, ?_⟩
  have hmem' : ∀ k x, (k, x) ∈ M → Member env (props mReference) k x := by
    intro k x hx
    obtain ⟨rfl, rfl⟩ := hmem k x hx
    refine at_key (t := .all [.type ["string"], .note "format: \"uri-reference\""]) (by prop) (ok_string ?_)
    intro t ht
    cases List.mem_singleton.1 ht
    exact ok_note
  rw [def31 hE (s := mReference) (by kernel_rfl), mReference, ok_closed]
  constructor
  · simp only [List.mem_cons, List.not_mem_nil, or_false]
    rintro s (rfl | rfl)
    · exact ok_obj_type
    · exact member_object (props := props mReference) (by decide +kernel) fun k x _ h _ => hmem' k x h
  · intro k hk
    obtain ⟨x, hx'⟩ := hasKey_obj_iff.1 hk
    rcases hmem' k x hx' with ⟨t, h1, h2⟩ | h
    · exact ⟨.object (props mReference) [] none, by simp [props, mReference], sees_object.2 (.inl ⟨t, h1⟩)⟩
    · rw [(hmem k x hx').1] at h
      exact absurd (x_matches.2 h) (by decide)

/-- A reference or a value. -/
theorem good_refOr {A : Type} {n valN d dr : String} {s : Codec.Struct} {go : String} {g : A → Val}
    {ref : Option String} {value : Option A} {Ok : A → Prop}
    (hn : GoMap.get? T n = some (.struct s))
    (hs : s = ⟨[], [], false, [], [⟨"Reference", .ptr (.named "Reference")⟩, ⟨go, .ptr (.named valN)⟩], [], none, [], [], [], [], [],
      [], [], none, false, [.hidden "Reference", .hidden go]⟩)
    (hc : unionCheckTy s = true) (hg : "Reference" ≠ go) (hd : GoMap.get? defs31 dr = some
      (.all [.ite (.all [.type ["object"], .required ["$ref"]]) (.ref "reference") (.ref d)]))
    (hnn : ref ≠ none → n ≠ "LinkOrReference" ∧ n ≠ "PathItemOrReference")
    (hv : ∀ a, Ok a → Good N (Obj env d) (.named valN) (g a))
    (hne : ∀ a, ∃ fs, g a = .struct fs) (h : RefOr Ok ref value) :
    Good N (fun j => (∃ M, j = .obj M) ∧ (env dr).ok j) (.named n)
      (refOrVal s V31.sReference "Reference" go g ref value) := by
  have e : ∀ x y : Val, fill s [("Reference", x), (go, y)] = .struct [("Reference", x), (go, y)] := by
    intro x y
    subst hs
    simp [fill, Spec.structOf, Codec.Struct.names, GoMap.get?, hg]
  unfold refOrVal
  rw [e]
  have hall : s.oneOf = [⟨"Reference", .ptr (.named "Reference")⟩, ⟨go, .ptr (.named valN)⟩] := by rw [hs]
  rcases h with ⟨r, rfl, rfl⟩ | ⟨a, rfl, rfl, ha⟩
  · have := good_alt (N := N) (go := "Reference") (t := .named "Reference") (v := fill V31.sReference [("Ref", .str r)]) hn
      (by rw [hs]; rfl) hc (by rw [hall]; simp) (by intro e; cases e) (by intro e; cases e)
      (fun _ => ⟨(hnn (by simp)).1, (hnn (by simp)).2, fun _ => ⟨_, rfl, by simp [V31.sReference, Codec.Struct.names, GoMap.get?]⟩⟩)
      (good_ptr rfl (by intro e; cases e) (by intro e; cases e) (good_reference hE r))
    rw [hall] at this
    obtain ⟨w, M, e, h1, h2⟩ := this
    simp only [List.map_cons, List.map_nil, if_pos, if_neg (Ne.symm hg)] at w e
    refine ⟨w, ?_⟩
    show (∃ M, enc T _ (.struct [("Reference", fill V31.sReference [("Ref", .str r)]), (go, .nil)]) = .obj M) ∧ _
    rw [e]
    refine ⟨⟨M, rfl⟩, ?_⟩
    show (env dr).ok (enc T _ (.struct [("Reference", fill V31.sReference [("Ref", .str r)]), (go, .nil)]))
    rw [e, def31 hE hd]
    exact orRef_ok (fun _ => h2) (fun h => absurd h1 h)
  · obtain ⟨fs, hfs⟩ := hne a
    have := good_alt (N := N) (go := go) (t := .named valN) (v := g a) hn (by rw [hs]; rfl) hc
      (by rw [hall]; simp) (by rw [hfs]; intro e; cases e) (by rw [hfs]; intro e; cases e) (fun e => absurd e.symm hg)
      (good_ptr rfl (by rw [hfs]; intro e; cases e) (by rw [hfs]; intro e; cases e) (hv a ha))
    rw [hall] at this
    obtain ⟨w, M, e, h1, h2⟩ := this
    simp only [List.map_cons, List.map_nil, if_pos, if_neg hg] at w e
    refine ⟨w, ?_⟩
    show (∃ M, enc T _ (.struct [("Reference", .nil), (go, g a)]) = .obj M) ∧ _
    rw [e]
    refine ⟨⟨M, rfl⟩, ?_⟩
    show (env dr).ok (enc T _ (.struct [("Reference", .nil), (go, g a)]))
    rw [e, def31 hE hd]
    exact orRef_ok (fun h => absurd h h1) (fun _ => h2)

/-! ## Schemas, media types -/

omit hE in
theorem good_schema {r : Role} {s : Schema} (h : SchemaOk N r s) : Good N (fun j => ∃ M, j = .obj M) (.map .any) (schemaVal s) := by
  have := good_map (N := N) (t := .any) (ms := s.map (fun p => (p.1, Val.any p.2))) (P := fun _ _ => True) ?_ ?_
  · exact ⟨this.writable, by obtain ⟨M, e, _⟩ := this.valid; exact ⟨M, e⟩⟩
  · rw [List.map_map]; exact h.keys
  · intro k v hv
    obtain ⟨⟨k', a⟩, ha, e⟩ := List.mem_map.1 hv
    cases e
    exact good_any (h.values _ a ha) trivial

theorem schema_at {j : Any} (h : ∃ M, j = .obj M) : (sem env (.ref "schema")).ok j := by
  obtain ⟨M, rfl⟩ := h
  exact okRef (schema_ok hE)

omit hE in
theorem field_schema {f : Field} {P : String → Any → Prop} {r : Role} {o : Option Schema} (hf : nilable f = true) (ht : f.ty = .map .any)
    (h : ∀ s, o = some s → SchemaOk N r s) (hp : ∀ s j, o = some s → (∃ M, j = .obj M) → P f.key j) :
    FieldOk N P f (opt schemaVal o) := by
  refine field_opt hf fun s hs => ?_
  have := good_schema (h s hs)
  rw [ht]
  exact ⟨this.writable, hp s _ hs this.valid⟩

theorem examples_ok {M : List (String × Any)} (h : ¬HasKey (.obj M) "examples") :
    (sem env (.ref "examples")).ok (.obj M) := by
  rw [ok_refEq, def31 hE (s := mExamples) (by kernel_rfl), mExamples, ok_all]
  intro s hs
  cases List.mem_singleton.1 hs
  rw [ok_object]
  intro k x hx
  refine ⟨?_, by simp, by simp⟩
  intro t ht
  simp only [List.mem_cons, Prod.mk.injEq, List.not_mem_nil, or_false] at ht
  rcases ht with ⟨rfl, rfl⟩ | ⟨rfl, rfl⟩
  · rw [ok_all]; simp
  · exact absurd (hasKey_obj_iff.2 ⟨x, hx⟩) h

theorem good_media {mt : MediaType Schema} (h : MediaOk (SchemaOk N) mt) :
    Good N (Obj env "media-type") (.named "MediaType") (mediaVal mt) := by
  refine good_simple hE (m := mMediaType) (by kernel_rfl) (by kernel_rfl) rfl (by decide +kernel) (by decide +kernel) (by rfl)
    rfl ⟨?_, trivial⟩ ?_ ?_
  · exact field_schema rfl rfl h.2 fun _ j _ hj => at_key (by prop) (schema_at hE hj)
  · intro M _ hmem t ht
    cases List.mem_singleton.1 ht
    rw [ok_allOf]
    simp only [List.mem_cons, List.not_mem_nil, or_false, forall_eq_or_imp, forall_eq]
    exact ⟨ext_ok hE, examples_ok hE (no_key hmem (by decide +kernel) (by decide))⟩
  · intro M k hk
    exact ⟨_, List.mem_singleton.2 rfl, sees_allOf (List.Mem.head _) (ext_sees hE hk)⟩

omit hE in
theorem media_struct (mt : MediaType Schema) : ∃ fs, mediaVal mt = .struct fs := ⟨_, rfl⟩

theorem content_ok {M : List (String × Any)} (h : ∀ k x, (k, x) ∈ M → Obj env "media-type" x) : (env "content").ok (.obj M) := by
  rw [def31 hE (s := mContent) (by kernel_rfl), mContent, ok_all]
  simp only [List.mem_cons, List.not_mem_nil, or_false, forall_eq_or_imp, forall_eq]
  refine ⟨ok_obj_type, ok_addl.2 fun k x hx => okRef (h k x hx).ok, ok_propertyNames.2 fun k x _ => ?_⟩
  rw [ok_all]
  intro t ht
  cases List.mem_singleton.1 ht
  exact ok_note

/-- Content: a map that is left out if it is empty. -/
theorem field_content {f : Field} {P : String → Any → Prop} {m : GoMap (MediaType Schema)} (hf : nilable f = true)
    (ht : f.ty = .map (.named "MediaType")) (h : ContentOk (SchemaOk N) m)
    (hp : ∀ M, m ≠ [] → M.map Prod.fst = m.map Prod.fst → (env "content").ok (.obj M) → P f.key (.obj M)) :
    FieldOk N P f (Pub30.mapVal mediaVal m) :=
  field_map (Q := fun _ => Obj env "media-type") hf ht h.1 (fun k mt hk => good_media hE (h.2 k mt hk))
    fun M hm e hM => hp M hm e (content_ok hE hM)

/-! ## Parameters -/

/-- The members of a parameter. -/
inductive ParamMember (env : String → Sem) (p : Parameter Schema) : String → Any → Prop
  | name : ParamMember env p "name" (.str p.name)
  | place : ParamMember env p "in" (.str p.inn)
  | required {b : Bool} (h : p.required = some b) : ParamMember env p "required" (.bool b)
  | style {st : String} (h : p.style = some st) : ParamMember env p "style" (.str st)
  | explode {b : Bool} (h : p.explode = some b) : ParamMember env p "explode" (.bool b)
  | other {k : String} {x : Any} (hk : k ∈ ["description", "deprecated", "schema", "content"])
      (hs : k = "schema" → p.schema ≠ none) (hc : k = "content" → p.content ≠ [])
      (h : Member env (props mParameter) k x) : ParamMember env p k x

omit hE in
theorem inn_of {p : Parameter Schema} {M : List (String × Any)} (hi : ∃ x, ("in", x) ∈ M)
    (hM : ∀ k x, (k, x) ∈ M → ParamMember env p k x) {i : String}
    (h : (sem env (.all [.object [("in", .all [.enum [(.str i)]])] [] none, .required ["in"]])).ok (.obj M)) : p.inn = i := by
  rw [ok_all] at h
  have h1 := h _ (List.Mem.head _)
  rw [ok_object] at h1
  obtain ⟨x, hx⟩ := hi
  have h2 := (h1 "in" x hx).1 _ (List.Mem.head _)
  rw [ok_all] at h2
  have h3 := ok_enum.1 (h2 _ (List.Mem.head _))
  obtain ⟨c, hc, e⟩ := h3
  cases List.mem_singleton.1 hc
  generalize hk : "in" = k at hx
  cases hM _ _ hx with
  | place => cases e; rfl
  | other h => subst hk; exact absurd h (by decide)
  | _ => exact absurd hk (by decide)

omit hE in
/-- A condition on parameters at one place. -/
theorem place_ok {p : Parameter Schema} {M : List (String × Any)} (hi : ∃ x, ("in", x) ∈ M)
    (hM : ∀ k x, (k, x) ∈ M → ParamMember env p k x) {i : String} {t : Sch}
    (h : p.inn = i → (sem env t).ok (.obj M)) :
    (sem env (.ite (.all [.object [("in", .all [.enum [(.str i)]])] [] none, .required ["in"]]) t (.all []))).ok (.obj M) := by
  rw [ok_ite]
  refine ⟨fun hc => h (inn_of hi hM hc), fun _ => ?_⟩
  rw [ok_all]
  simp

omit hE in
/-- A condition on some members of a parameter. -/
theorem member_ok {p : Parameter Schema} {M : List (String × Any)} (hM : ∀ k x, (k, x) ∈ M → ParamMember env p k x)
    {ps : List (String × Sch)} (h : ∀ k x t, ParamMember env p k x → (k, t) ∈ ps → (sem env t).ok x) :
    (sem env (.object ps [] none)).ok (.obj M) := by
  rw [ok_object]
  intro k x hx
  exact ⟨fun t ht => h k x t (hM k x hx) ht, by simp, by simp⟩

omit hE in
theorem style_at {p : Parameter Schema} {x : Any} (h : ParamMember env p "style" x) : ∃ st, p.style = some st ∧ x = .str st := by
  generalize hk : "style" = k at h
  cases h with
  | style h => exact ⟨_, h, rfl⟩
  | other h => subst hk; exact absurd h (by decide)
  | _ => exact absurd hk (by decide)

omit hE in
theorem required_at {p : Parameter Schema} {x : Any} (h : ParamMember env p "required" x) :
    ∃ b, p.required = some b ∧ x = .bool b := by
  generalize hk : "required" = k at h
  cases h with
  | required h => exact ⟨_, h, rfl⟩
  | other h => subst hk; exact absurd h (by decide)
  | _ => exact absurd hk (by decide)

omit hE in
theorem name_at {p : Parameter Schema} {x : Any} (h : ParamMember env p "name" x) : x = .str p.name := by
  generalize hk : "name" = k at h
  cases h with
  | name => rfl
  | other h => subst hk; exact absurd h (by decide)
  | _ => exact absurd hk (by decide)

omit hE in
theorem explode_at {p : Parameter Schema} {x : Any} (h : ParamMember env p "explode" x) : ∃ b, x = .bool b := by
  generalize hk : "explode" = k at h
  cases h with
  | explode h => exact ⟨_, rfl⟩
  | other h => subst hk; exact absurd h (by decide)
  | _ => exact absurd hk (by decide)

omit hE in
/-- No member has this key. -/
theorem absent {p : Parameter Schema} {k : String} (hk : k ∉ ["name", "in", "required", "style", "explode", "description",
    "deprecated", "schema", "content"]) {x : Any} (h : ParamMember env p k x) : False := by
  cases h with
  | other h => 
    simp only [List.mem_cons, List.not_mem_nil, or_false] at h
    rcases h with rfl | rfl | rfl | rfl <;> exact hk (by decide)
  | _ => exact hk (by decide)

omit hE in
theorem style_ok {p : Parameter Schema} (h : ParamOk places (SchemaOk N) p) {x : Any} (hx : ParamMember env p "style" x)
    {cs : List Const} {n : String} (hc : ∀ st ∈ styles p.inn, Const.str st ∈ cs) :
    (sem env (.all [.note n, .enum cs])).ok x := by
  obtain ⟨st, e, rfl⟩ := style_at hx
  rw [ok_all]
  simp only [List.mem_cons, List.not_mem_nil, or_false, forall_eq_or_imp, forall_eq]
  exact ⟨ok_note, ok_enum.2 ⟨.str st, hc st (h.style st e), rfl⟩⟩

/-- What the meta-schema demands of parameters with a schema. -/
theorem dependent_ok {p : Parameter Schema} (h : ParamOk places (SchemaOk N) p) {M : List (String × Any)}
    (hM : ∀ k x, (k, x) ∈ M → ParamMember env p k x) (hi : ∃ x, ("in", x) ∈ M)
    (hr : p.required = some true → ∃ x, ("required", x) ∈ M) :
    ∀ s ∈ [Sch.ref "examples", .ref "parameter/dependentSchemas/schema/$defs/styles-for-path",
      .ref "parameter/dependentSchemas/schema/$defs/styles-for-header",
      .ref "parameter/dependentSchemas/schema/$defs/styles-for-query",
      .ref "parameter/dependentSchemas/schema/$defs/styles-for-cookie",
      .ref "parameter/dependentSchemas/schema/$defs/styles-for-form"], (sem env s).ok (.obj M) := by
  simp only [List.mem_cons, List.not_mem_nil, or_false, forall_eq_or_imp, forall_eq]
  refine ⟨?_, ?_, ?_, ?_, ?_, ?_⟩
  · refine examples_ok hE fun hk => ?_
    obtain ⟨x, hx⟩ := hasKey_obj_iff.1 hk
    exact absent (by decide) (hM _ _ hx)
  · rw [ok_refEq, def31 hE (s := mParameterSchemaStylesForPath) (by kernel_rfl), mParameterSchemaStylesForPath, ok_all]
    intro s hs
    cases List.mem_singleton.1 hs
    refine place_ok hi hM fun hp => ?_
    rw [ok_all]
    simp only [List.mem_cons, List.not_mem_nil, or_false, forall_eq_or_imp, forall_eq]
    refine ⟨member_ok hM ?_, ok_requires.2 ?_⟩
    · intro k x t hx ht
      simp only [List.mem_cons, Prod.mk.injEq, List.not_mem_nil, or_false] at ht
      rcases ht with ⟨rfl, rfl⟩ | ⟨rfl, rfl⟩ | ⟨rfl, rfl⟩
      · rw [name_at hx, ok_all]
        intro t ht
        cases List.mem_singleton.1 ht
        exact ok_pattern.2 (h.name hp)
      · refine style_ok h hx ?_
        rw [hp]
        intro st hst
        cases hst
      · obtain ⟨b, e, rfl⟩ := required_at hx
        rw [h.required hp] at e
        cases e
        rw [ok_all]
        intro t ht
        cases List.mem_singleton.1 ht
        exact ok_enum.2 ⟨.bool true, by simp, rfl⟩
    · intro k hk
      cases List.mem_singleton.1 hk
      exact hr (h.required hp)
  · rw [ok_refEq, def31 hE (s := mParameterSchemaStylesForHeader) (by kernel_rfl), mParameterSchemaStylesForHeader, ok_all]
    intro s hs
    cases List.mem_singleton.1 hs
    refine place_ok hi hM fun hp => ?_
    rw [ok_all]
    intro s hs
    cases List.mem_singleton.1 hs
    refine member_ok hM fun k x t hx ht => ?_
    cases List.mem_singleton.1 ht
    refine style_ok h hx ?_
    rw [hp]
    intro st hst
    cases hst
  · rw [ok_refEq, def31 hE (s := mParameterSchemaStylesForQuery) (by kernel_rfl), mParameterSchemaStylesForQuery, ok_all]
    intro s hs
    cases List.mem_singleton.1 hs
    refine place_ok hi hM fun hp => ?_
    rw [ok_all]
    intro s hs
    cases List.mem_singleton.1 hs
    refine member_ok hM fun k x t hx ht => ?_
    simp only [List.mem_cons, Prod.mk.injEq, List.not_mem_nil, or_false] at ht
    rcases ht with ⟨rfl, rfl⟩ | ⟨rfl, rfl⟩
    · refine style_ok h hx ?_
      rw [hp]
      intro st hst
      simp only [styles, List.mem_cons, List.not_mem_nil, or_false] at hst
      rcases hst with rfl | rfl | rfl | rfl <;> simp
    · exact (absent (by decide) hx).elim
  · rw [ok_refEq, def31 hE (s := mParameterSchemaStylesForCookie) (by kernel_rfl), mParameterSchemaStylesForCookie, ok_all]
    intro s hs
    cases List.mem_singleton.1 hs
    refine place_ok hi hM fun hp => ?_
    rw [ok_all]
    intro s hs
    cases List.mem_singleton.1 hs
    refine member_ok hM fun k x t hx ht => ?_
    cases List.mem_singleton.1 ht
    refine style_ok h hx ?_
    rw [hp]
    intro st hst
    cases List.mem_singleton.1 hst
    simp
  · rw [ok_refEq, def31 hE (s := mParameterSchemaStylesForForm) (by kernel_rfl), mParameterSchemaStylesForForm, ok_all]
    intro s hs
    cases List.mem_singleton.1 hs
    have : ∀ n, (sem env (.all [.object [("explode", .all [.note n])] [] none])).ok (.obj M) := by
      intro n
      rw [ok_all]
      intro s hs
      cases List.mem_singleton.1 hs
      refine member_ok hM fun k x t hx ht => ?_
      cases List.mem_singleton.1 ht
      rw [ok_all]
      intro s hs
      cases List.mem_singleton.1 hs
      exact ok_note
    rw [ok_ite]
    exact ⟨fun _ => this _, fun _ => this _⟩

omit hE in
theorem content_of {p : Parameter Schema} (h : ParamOk places (SchemaOk N) p) : ContentOk (SchemaOk N) p.content := by
  rcases h.value with ⟨s, _, _, e⟩ | ⟨_, mime, mt, e, hm⟩
  · rw [e]; exact ⟨by simp [Keys], by simp⟩
  · rw [e]
    refine ⟨by simp [Keys], ?_⟩
    intro k mt' hk
    cases List.mem_singleton.1 hk
    exact hm

theorem good_param {p : Parameter Schema} (h : ParamOk places (SchemaOk N) p) :
    Good N (Obj env "parameter") (.named "Parameter") (paramVal p) := by
  have hsc : ∀ s, p.schema = some s → SchemaOk N .value s := by
    intro s hs
    rcases h.value with ⟨s', e, hs', _⟩ | ⟨e, _⟩
    · rw [e] at hs; cases hs; exact hs'
    · rw [e] at hs; cases hs
  have hg : Given N (ParamMember env p) V31.sParameter [("Name", .str p.name), ("In", .str p.inn),
      ("Description", opt .str p.description), ("Required", opt .bool p.required), ("Deprecated", opt .bool p.deprecated),
      ("Schema", opt schemaVal p.schema), ("Content", Pub30.mapVal mediaVal p.content), ("Style", opt .str p.style),
      ("Explode", opt .bool p.explode)] := by
    refine ⟨?_, ?_, ?_, ?_, ?_, ?_, ?_, ?_, ?_, trivial⟩
    · exact field_of rfl (good_str p.name (P := fun j => j = .str p.name) rfl) (by rintro j rfl; exact .name)
    · refine field_of rfl (good_enum (n := "ParameterIn") (by kernel_rfl) (vs := ["query", "header", "path", "cookie"]) (s := p.inn)
        (P := fun j => j = .str p.inn) ?_ rfl) (by rintro j rfl; exact .place)
      have := h.place
      simp only [List.mem_cons, List.not_mem_nil, or_false] at this ⊢
      rcases this with e | e | e | e <;> simp [e]
    · exact field_str rfl rfl fun s _ => .other (by decide) (fun e => absurd e (by decide)) (fun e => absurd e (by decide)) (at_key (by prop) ok_str)
    · exact field_bool rfl rfl fun b hb => .required hb
    · exact field_bool rfl rfl fun b _ => .other (by decide) (fun e => absurd e (by decide)) (fun e => absurd e (by decide)) (at_key (by prop) ok_bool)
    · exact field_schema rfl rfl hsc fun s j hs hj => .other (by decide) (fun _ => by rw [hs]; simp) (fun e => absurd e (by decide))
        (at_key (by prop) (schema_at hE hj))
    · refine field_content hE rfl rfl (content_of h) fun M hm e hM => .other (by decide) (fun e => absurd e (by decide)) (fun _ => hm) ?_
      refine at_key (t := .all [.ref "content", .minProps 1, .maxProps 1]) (by prop) ?_
      rcases h.value with ⟨_, _, _, e'⟩ | ⟨_, mime, mt, e', _⟩
      · exact absurd e' hm
      · have hl : M.length = 1 := by
          have := congrArg List.length e
          rw [List.length_map, List.length_map, e'] at this
          exact this
        rw [ok_all]
        simp only [List.mem_cons, List.not_mem_nil, or_false, forall_eq_or_imp, forall_eq]
        exact ⟨okRef hM, ok_minProps.2 (by omega), ok_maxProps.2 (by omega)⟩
    · refine field_opt rfl fun st hst => ?_
      refine good_ptr (t := .named "ParameterStyle") rfl (by simp) (by simp) (good_enum (by kernel_rfl)
        (vs := ["form", "spaceDelimited", "pipeDelimited", "deepObject"]) ?_ (.style hst))
      have hm := h.style st hst
      have hp := h.place
      simp only [List.mem_cons, List.not_mem_nil, or_false] at hp
      rcases hp with e | e | e | e <;> rw [e] at hm
      · cases hm
      · exact hm
      · cases hm
      · cases List.mem_singleton.1 hm; simp
    · exact field_bool rfl rfl fun b hb => .explode hb
  obtain ⟨M, hF⟩ := filled' (n := "Parameter") (by kernel_rfl) (by rfl) hg
  have hM : ∀ k x, (k, x) ∈ M → ParamMember env p k x := by
    intro k x hx
    rcases hF.members k x hx with ⟨h, _⟩ | h
    · cases h
    · exact h
  have hi := hF.fields ⟨"In", "in", (.named "ParameterIn"), false⟩ (by simp [V31.sParameter]) rfl
  have hname := hF.fields ⟨"Name", "name", .str, false⟩ (by simp [V31.sParameter]) rfl
  have hreq : p.required = some true → ∃ x, ("required", x) ∈ M := by
    intro e
    refine hF.fields ⟨"Required", "required", (.ptr .bool), true⟩ (by simp [V31.sParameter]) ?_
    show omitted _ (opt Val.bool p.required) = false
    rw [e]
    rfl
  have hschema : ∀ s, p.schema = some s → ∃ x, ("schema", x) ∈ M := by
    intro s e
    refine hF.fields ⟨"Schema", "schema", (.map .any), true⟩ (by simp [V31.sParameter]) ?_
    show omitted _ (opt schemaVal p.schema) = false
    rw [e]
    have := (hsc s e).some rfl
    cases s with
    | nil => exact absurd rfl this
    | cons => rfl
  have hcontent : p.content ≠ [] → ∃ x, ("content", x) ∈ M := by
    intro e
    refine hF.fields ⟨"Content", "content", (.map (.named "MediaType")), true⟩ (by simp [V31.sParameter]) ?_
    show omitted _ (Pub30.mapVal mediaVal p.content) = false
    cases hc : p.content with
    | nil => exact absurd hc e
    | cons => rfl
  refine ⟨hF.writable, M, hF.json, ?_, ?_⟩
  · intro hk
    obtain ⟨x, hx⟩ := hasKey_obj_iff.1 hk
    exact absent (by decide) (hM _ _ hx)
  rw [def31 hE (s := mParameter) (by kernel_rfl)]
  show (sem env (.closed [.type ["object"], .object (props mParameter) [] none, _, _, _, _, _])).ok _
  rw [ok_closed]
  have hnoschema : p.schema = none → ¬∃ x, ("schema", x) ∈ M := by
    rintro e ⟨x, hx⟩
    generalize hk : "schema" = k at hx
    cases hM _ _ hx with
    | other _ hs => exact hs hk.symm e
    | _ => exact absurd hk (by decide)
  have hnocontent : p.content = [] → ¬∃ x, ("content", x) ∈ M := by
    rintro e ⟨x, hx⟩
    generalize hk : "content" = k at hx
    cases hM _ _ hx with
    | other _ _ hc => exact hc hk.symm e
    | _ => exact absurd hk (by decide)
  have hprops : ∀ k x t, (k, x) ∈ M → (k, t) ∈ props mParameter → Member env (props mParameter) k x := by
    intro k x t hx ht
    cases hM k x hx with
    | name => exact at_key (by prop) ok_str
    | place =>
      refine at_key (t := .all [.enum [(.str "query"), (.str "header"), (.str "path"), (.str "cookie")]]) (by prop) ?_
      rw [ok_all]
      intro s hs
      cases List.mem_singleton.1 hs
      refine ok_enum.2 ⟨.str p.inn, ?_, rfl⟩
      have := h.place
      simp only [List.mem_cons, List.not_mem_nil, or_false] at this ⊢
      rcases this with e | e | e | e <;> simp [e]
    | required => exact at_key (by prop) ok_bool
    | style =>
      have : ((props mParameter).map Prod.fst).contains "style" = true := List.contains_iff_mem.2 (List.mem_map.2 ⟨_, ht, rfl⟩)
      exact absurd this (by decide +kernel)
    | explode =>
      have : ((props mParameter).map Prod.fst).contains "explode" = true := List.contains_iff_mem.2 (List.mem_map.2 ⟨_, ht, rfl⟩)
      exact absurd this (by decide +kernel)
    | other _ _ _ h => exact h
  constructor
  · simp only [List.mem_cons, List.not_mem_nil, or_false, forall_eq_or_imp, forall_eq]
    refine ⟨ok_obj_type, member_object (by decide +kernel) hprops, ok_requires.2 ?_, ?_, ?_, ?_, ext_ok hE⟩
    · simp only [List.mem_cons, List.not_mem_nil, or_false, forall_eq_or_imp, forall_eq]
      exact ⟨hname, hi⟩
    · have hone : ∀ k, (sem env (.all [.required [k]])).ok (.obj M) ↔ ∃ x, (k, x) ∈ M := by
        intro k
        rw [ok_all]
        simp only [List.mem_singleton, forall_eq, ok_requires]
      refine ok_oneOf2 ?_
      rw [hone, hone]
      rcases h.value with ⟨s, e1, _, e2⟩ | ⟨e1, mime, mt, e2, _⟩
      · exact .inl ⟨hschema s e1, hnocontent e2⟩
      · exact .inr ⟨hnoschema e1, hcontent (by rw [e2]; simp)⟩
    · refine place_ok hi hM fun _ => ?_
      rw [ok_all]
      intro s hs
      cases List.mem_singleton.1 hs
      refine member_ok hM fun k x t hx ht => ?_
      cases List.mem_singleton.1 ht
      exact (absent (by decide) hx).elim
    · rw [ok_dependent]
      intro k t ht _
      cases List.mem_singleton.1 ht
      rw [ok_all]
      simp only [List.mem_cons, List.not_mem_nil, or_false, forall_eq_or_imp, forall_eq]
      refine ⟨member_ok hM fun k x t hx ht => ?_, ok_allOf.2 (dependent_ok hE h hM hi hreq)⟩
      simp only [List.mem_cons, Prod.mk.injEq, List.not_mem_nil, or_false] at ht
      rcases ht with ⟨rfl, rfl⟩ | ⟨rfl, rfl⟩
      · obtain ⟨st, _, rfl⟩ := style_at hx
        exact ok_str
      · obtain ⟨b, rfl⟩ := explode_at hx
        rw [ok_all]
        intro s hs
        cases List.mem_singleton.1 hs
        exact ok_type.2 ⟨"boolean", by simp, rfl⟩
  · intro k hk
    obtain ⟨x, hx⟩ := hasKey_obj_iff.1 hk
    have hin : ∀ t, (k, t) ∈ props mParameter → ∃ s ∈ Sch.type ["object"] :: .object (props mParameter) [] none ::
        others mParameter, (sem env s).sees (.obj M) k :=
      fun t ht => ⟨.object (props mParameter) [] none, .tail _ (.head _), sees_object.2 (.inl ⟨t, ht⟩)⟩
    have hdep : p.content = [] → ∀ k t, (k, t) ∈ [("style", Sch.all [.type ["string"]]), ("explode", .all [.type ["boolean"]])] →
        ∃ s ∈ Sch.type ["object"] :: .object (props mParameter) [] none :: others mParameter, (sem env s).sees (.obj M) k := by
      intro e k t ht
      have hs : HasKey (.obj M) "schema" := by
        rcases h.value with ⟨s, e1, _, _⟩ | ⟨_, _, _, e2, _⟩
        · exact hasKey_obj_iff.2 (hschema s e1)
        · rw [e2] at e; cases e
      exact ⟨_, .tail _ (.tail _ (.tail _ (.tail _ (.tail _ (.head _))))), sees_dependent (List.Mem.head _) hs
        (sees_all (List.Mem.head _) (sees_object.2 (.inl ⟨t, ht⟩)))⟩
    cases hM k x hx with
    | name => exact hin (.all [.type ["string"]]) (by prop)
    | place => exact hin (.all [.enum [(.str "query"), (.str "header"), (.str "path"), (.str "cookie")]]) (by prop)
    | required => exact hin (.all [.type ["boolean"], .note "default: false"]) (by prop)
    | style hst =>
      by_cases e : p.content = []
      · exact hdep e _ (.all [.type ["string"]]) (by prop)
      · rw [(h.alone e).1] at hst; cases hst
    | explode hst =>
      by_cases e : p.content = []
      · exact hdep e _ (.all [.type ["boolean"]]) (by prop)
      · rw [(h.alone e).2] at hst; cases hst
    | other hk _ _ hm =>
      rcases hm with ⟨t, h1, _⟩ | hm
      · exact hin t h1
      · exact ⟨_, .tail _ (.tail _ (.tail _ (.tail _ (.tail _ (.tail _ (.head _)))))), ext_sees hE hm⟩

theorem good_paramOrRef {p : ParamOrRef Schema} (h : RefOr (ParamOk places (SchemaOk N)) p.ref p.param) :
    Good N (fun j => (∃ M, j = .obj M) ∧ (env "parameter-or-reference").ok j) (.named "ParameterOrReference") (paramOrRefVal p) :=
  good_refOr hE (d := "parameter") (by kernel_rfl) rfl (by decide +kernel) (by decide) (by kernel_rfl) (fun _ => by decide)
    (fun _ => good_param hE) (fun _ => ⟨_, rfl⟩) h

/-! ## Headers -/

theorem good_header {h : Header Schema} (hh : HeaderOk (SchemaOk N) h) :
    Good N (Obj env "header") (.named "Header") (headerVal h) := by
  obtain ⟨s, hs, hok⟩ := hh
  have hg : Given N (fun k x => k ∈ ["description", "required", "deprecated", "schema"] ∧ Member env (props mHeader) k x)
      V31.sHeader [("Description", opt .str h.description), ("Required", opt .bool h.required),
        ("Deprecated", opt .bool h.deprecated), ("Schema", opt schemaVal h.schema)] := by
    refine ⟨?_, ?_, ?_, ?_, trivial⟩
    · exact field_str rfl rfl fun s _ => ⟨by decide, at_key (by prop) ok_str⟩
    · exact field_bool rfl rfl fun s _ => ⟨by decide, at_key (by prop) ok_bool⟩
    · exact field_bool rfl rfl fun s _ => ⟨by decide, at_key (by prop) ok_bool⟩
    · refine field_schema (r := .value) rfl rfl (fun s' e => ?_) fun s j _ hj => ⟨by decide, at_key (by prop) (schema_at hE hj)⟩
      rw [hs] at e
      cases e
      exact hok
  have hw : omitted ⟨"Schema", "schema", (.map .any), true⟩ (opt schemaVal h.schema) = false := by
    rw [hs]
    cases s with
    | nil => exact absurd rfl (hok.some rfl)
    | cons => rfl
  obtain ⟨M, hF⟩ := filled (n := "Header") (by kernel_rfl) (by rfl) hg
    (by
      intro a b e
      cases e
      exact .inr ⟨⟨⟨"Schema", "schema", (.map .any), true⟩, by simp [V31.sHeader], rfl, hw⟩,
        ⟨"Content", "content", (.map (.named "MediaType")), true⟩, by simp [V31.sHeader], rfl, rfl⟩)
    (by intro c hc; cases hc)
  have hM : ∀ k x, (k, x) ∈ M → (k = "style" ∧ x = .str "simple") ∨
      (k ∈ ["description", "required", "deprecated", "schema"] ∧ Member env (props mHeader) k x) := by
    intro k x hx
    rcases hF.members k x hx with ⟨_, c, hc, rfl, rfl⟩ | h
    · cases List.mem_singleton.1 hc
      exact .inl ⟨rfl, rfl⟩
    · exact .inr h
  have habs : ∀ k, k ∉ ["style", "description", "required", "deprecated", "schema"] → ¬∃ x, (k, x) ∈ M := by
    rintro k hk ⟨x, hx⟩
    rcases hM k x hx with ⟨rfl, _⟩ | ⟨h, _⟩
    · exact hk (by decide)
    · exact hk (List.mem_cons_of_mem _ h)
  have hschema := hF.fields ⟨"Schema", "schema", (.map .any), true⟩ (by simp [V31.sHeader]) hw
  refine ⟨hF.writable, M, hF.json, fun hk => habs _ (by decide) (hasKey_obj_iff.1 hk), ?_⟩
  rw [def31 hE (s := mHeader) (by kernel_rfl)]
  show (sem env (.closed [.type ["object"], .object (props mHeader) [] none, _, _, _])).ok _
  rw [ok_closed]
  constructor
  · simp only [List.mem_cons, List.not_mem_nil, or_false, forall_eq_or_imp, forall_eq]
    refine ⟨ok_obj_type, member_object (by decide +kernel) ?_, ?_, ?_, ext_ok hE⟩
    · intro k x t hx ht
      rcases hM k x hx with ⟨rfl, _⟩ | ⟨_, h⟩
      · have : ((props mHeader).map Prod.fst).contains "style" = true := List.contains_iff_mem.2 (List.mem_map.2 ⟨_, ht, rfl⟩)
        exact absurd this (by decide +kernel)
      · exact h
    · have hone : ∀ k, (sem env (.all [.required [k]])).ok (.obj M) ↔ ∃ x, (k, x) ∈ M := by
        intro k
        rw [ok_all]
        simp only [List.mem_singleton, forall_eq, ok_requires]
      refine ok_oneOf2 ?_
      rw [hone, hone]
      exact .inl ⟨hschema, habs _ (by decide)⟩
    · rw [ok_dependent]
      intro k t ht _
      cases List.mem_singleton.1 ht
      rw [ok_all]
      simp only [List.mem_cons, List.not_mem_nil, or_false, forall_eq_or_imp, forall_eq]
      refine ⟨ok_object.2 ?_, examples_ok hE fun hk => habs _ (by decide) (hasKey_obj_iff.1 hk)⟩
      intro k x hx
      refine ⟨?_, by simp, by simp⟩
      intro t ht
      simp only [List.mem_cons, Prod.mk.injEq, List.not_mem_nil, or_false] at ht
      rcases ht with ⟨rfl, rfl⟩ | ⟨rfl, rfl⟩
      · rcases hM _ x hx with ⟨_, rfl⟩ | ⟨h, _⟩
        · rw [ok_all]
          simp only [List.mem_cons, List.not_mem_nil, or_false, forall_eq_or_imp, forall_eq]
          exact ⟨ok_note, ok_enum.2 ⟨.str "simple", by simp, rfl⟩⟩
        · exact absurd h (by decide)
      · exact absurd ⟨x, hx⟩ (habs _ (by decide))
  · intro k hk
    obtain ⟨x, hx⟩ := hasKey_obj_iff.1 hk
    rcases hM k x hx with ⟨rfl, _⟩ | ⟨_, ⟨t, h, _⟩ | h⟩
    · exact ⟨_, .tail _ (.tail _ (.tail _ (.head _))), sees_dependent (List.Mem.head _) (hasKey_obj_iff.2 hschema)
        (sees_all (List.Mem.head _) (sees_object.2 (.inl ⟨_, List.Mem.head _⟩)))⟩
    · exact ⟨_, .tail _ (.head _), sees_object.2 (.inl ⟨t, h⟩)⟩
    · exact ⟨_, .tail _ (.tail _ (.tail _ (.tail _ (.head _)))), ext_sees hE h⟩

theorem good_headerOrRef {h : HeaderOrRef Schema} (hh : RefOr (HeaderOk (SchemaOk N)) h.ref h.header) :
    Good N (fun j => (∃ M, j = .obj M) ∧ (env "header-or-reference").ok j) (.named "HeaderOrReference") (headerOrRefVal h) :=
  good_refOr hE (d := "header") (by kernel_rfl) rfl (by decide +kernel) (by decide) (by kernel_rfl) (fun _ => by decide)
    (fun _ => good_header hE) (fun _ => ⟨_, rfl⟩) hh

/-! ## Responses and request bodies -/

theorem good_response {r : Response Schema} (h : ResponseOk (SchemaOk N) r) :
    Good N (Obj env "response") (.named "Response") (responseVal r) := by
  refine good_simple hE (m := mResponse) (by kernel_rfl) (by kernel_rfl) rfl (by decide +kernel) (by decide +kernel) (by rfl)
    rfl ⟨?_, ?_, ?_, trivial⟩ ?_ fun M k => ext_last hE (ks := [_])
  · exact field_of rfl (good_str r.description (P := fun j => j = .str r.description) rfl)
      (by rintro j rfl; exact at_key (t := .all [.type ["string"]]) (by prop) ok_str)
  · exact field_map (Q := fun _ j => (∃ M, j = .obj M) ∧ (env "header-or-reference").ok j) rfl rfl h.headerKeys
      (fun k a ha => good_headerOrRef hE (h.headers k a ha))
      fun M _ _ hM => at_key (by prop) (ok_mapOf fun k x hx => okRef (hM k x hx).2)
  · exact field_content hE rfl rfl h.content fun M _ _ hM => at_key (by prop) (okRef hM)
  · intro M hF _
    show ∀ t ∈ [Sch.required ["description"], .ref "specification-extensions"], _
    simp only [List.mem_cons, List.not_mem_nil, or_false, forall_eq_or_imp, forall_eq]
    refine ⟨ok_requires.2 ?_, ext_ok hE⟩
    simp only [List.mem_singleton, forall_eq]
    exact hF.fields ⟨"Description", "description", .str, false⟩ (by simp [V31.sResponse]) rfl

theorem good_responseOrRef {r : ResponseOrRef Schema} (h : RefOr (ResponseOk (SchemaOk N)) r.ref r.response) :
    Good N (fun j => (∃ M, j = .obj M) ∧ (env "response-or-reference").ok j) (.named "ResponseOrReference") (responseOrRefVal r) :=
  good_refOr hE (d := "response") (by kernel_rfl) rfl (by decide +kernel) (by decide) (by kernel_rfl) (fun _ => by decide)
    (fun _ => good_response hE) (fun _ => ⟨_, rfl⟩) h

theorem good_body {b : RequestBody Schema} (h : BodyOk (SchemaOk N) b) :
    Good N (Obj env "request-body") (.named "RequestBody") (bodyVal b) := by
  refine good_simple hE (m := mRequestBody) (by kernel_rfl) (by kernel_rfl) rfl (by decide +kernel) (by decide +kernel) (by rfl)
    rfl ⟨?_, ?_, trivial⟩ ?_ fun M k => ext_last hE (ks := [_])
  · exact field_str rfl rfl fun s _ => at_key (by prop) ok_str
  · refine field_of rfl (good_mapVal (Q := fun _ => Obj env "media-type") h.1 h.2.1 fun k mt hk => good_media hE (h.2.2 k mt hk)) ?_
    rintro j ⟨M, rfl, _, hM⟩
    exact at_key (t := .ref "content") (by prop) (okRef (content_ok hE hM))
  · intro M hF _
    show ∀ t ∈ [Sch.required ["content"], .ref "specification-extensions"], _
    simp only [List.mem_cons, List.not_mem_nil, or_false, forall_eq_or_imp, forall_eq]
    refine ⟨ok_requires.2 ?_, ext_ok hE⟩
    simp only [List.mem_singleton, forall_eq]
    exact hF.fields ⟨"Content", "content", (.map (.named "MediaType")), false⟩ (by simp [V31.sRequestBody]) rfl

theorem good_bodyOrRef {b : RequestBodyOrRef Schema} (h : RefOr (BodyOk (SchemaOk N)) b.ref b.body) :
    Good N (fun j => (∃ M, j = .obj M) ∧ (env "request-body-or-reference").ok j) (.named "RequestBodyOrReference") (bodyOrRefVal b) :=
  good_refOr hE (d := "request-body") (by kernel_rfl) rfl (by decide +kernel) (by decide) (by kernel_rfl) (fun _ => by decide)
    (fun _ => good_body hE) (fun _ => ⟨_, rfl⟩) h

theorem good_responses {r : Responses Schema} (hd : ∀ x, r.default = some x → RefOr (ResponseOk (SchemaOk N)) x.ref x.response)
    (hk : Keys r.codes) (hc : ∀ k x, (k, x) ∈ r.codes → StatusKey k ∧ RefOr (ResponseOk (SchemaOk N)) x.ref x.response)
    (hne : ¬(r.default = none ∧ r.codes = [])) :
    Good N (fun j => (env "responses").ok j) (.named "Responses") (fill V31.sResponses [("Default", opt responseOrRefVal r.default),
      ("MapOfResponseOrReferenceValues", Pub30.mapVal responseOrRefVal r.codes)]) := by
  have hg : Given N (fun k x => (k = "default" ∨ KeyPat.status.Is k) ∧ (env "response-or-reference").ok x) V31.sResponses
      [("Default", opt responseOrRefVal r.default), ("MapOfResponseOrReferenceValues", Pub30.mapVal responseOrRefVal r.codes)] := by
    refine ⟨?_, ?_, trivial⟩
    · exact field_ptr (n := "ResponseOrReference") rfl rfl (fun _ => ⟨_, rfl⟩) (fun x hx => good_responseOrRef hE (hd x hx))
        fun j hj => ⟨.inl rfl, hj.2⟩
    · refine pat_map hk fun k x hx => ⟨pat_status (hc k x hx).1, ?_⟩
      have := good_responseOrRef hE (hc k x hx).2
      exact ⟨this.writable, .inr (status_matches.1 (pat_status (hc k x hx).1)), this.valid.2⟩
  obtain ⟨M, hF⟩ := filled' (n := "Responses") (by kernel_rfl) (by rfl) hg
  have hM : ∀ k x, (k, x) ∈ M → (k = "default" ∨ KeyPat.status.Is k) ∧ (env "response-or-reference").ok x := by
    intro k x hx
    rcases hF.members k x hx with ⟨h, _⟩ | h
    · cases h
    · exact h
  have hsome : ∃ k x, (k, x) ∈ M := by
    by_cases e : r.default = none
    · cases hcs : r.codes with
      | nil => exact absurd ⟨e, hcs⟩ hne
      | cons p l =>
        refine ⟨p.1, hF.patterns ⟨.status, "MapOfResponseOrReferenceValues", (.named "ResponseOrReference")⟩
          (by simp [V31.sResponses]) (p.1, responseOrRefVal p.2) ?_⟩
        show (p.1, responseOrRefVal p.2) ∈ entries (Pub30.mapVal responseOrRefVal r.codes)
        exact mem_entries (by rw [hcs]; exact List.Mem.head _)
    · refine ⟨"default", hF.fields ⟨"Default", "default", (.ptr (.named "ResponseOrReference")), true⟩ (by simp [V31.sResponses]) ?_⟩
      show omitted _ (opt responseOrRefVal r.default) = false
      cases hd : r.default with
      | none => exact absurd hd e
      | some a => rfl
  refine ⟨hF.writable, ?_⟩
  rw [hF.json, def31 hE (s := mResponses) (by kernel_rfl), mResponses, ok_closed]
  constructor
  · simp only [List.mem_cons, List.not_mem_nil, or_false, forall_eq_or_imp, forall_eq]
    refine ⟨ok_obj_type, ok_object.2 ?_, ok_minProps.2 ?_, ext_ok hE⟩
    · intro k x hx
      refine ⟨?_, ?_, by simp⟩
      · intro t ht
        cases List.mem_singleton.1 ht
        exact okRef (hM _ x hx).2
      · intro p t ht _
        cases List.mem_singleton.1 ht
        exact okRef (hM _ x hx).2
    · obtain ⟨k, x, hx⟩ := hsome
      exact List.length_pos_of_mem hx
  · intro k hk
    obtain ⟨x, hx⟩ := hasKey_obj_iff.1 hk
    refine ⟨_, .tail _ (.head _), sees_object.2 ?_⟩
    rcases (hM k x hx).1 with rfl | h
    · exact .inl ⟨_, List.Mem.head _⟩
    · exact .inr (.inl ⟨_, _, List.Mem.head _, h⟩)

end Verif.Pub31
