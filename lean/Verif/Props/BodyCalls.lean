import Verif.Spec.Reflect
import Verif.Spec.BodyCalls
import Verif.Props.Http
import Verif.Props.Doc30

/-!
# Names of the definitions of a form (C104), schemas of files (C105)
-/

namespace Verif
open BodySpec HttpSpec

/-! ## C104 -/

theorem title_formData : goTitle "formData" = "FormData" := by decide +kernel

theorem prefixDefName_json (t : DefType) (n : String) : prefixDefName "json" [] t n = n := by
  simp [prefixDefName]

theorem prefixDefName_form (t : DefType) (n : String) :
    (FormTagged t → prefixDefName "formData" ["form"] t n = "FormData" ++ n) ∧
    (¬ FormTagged t → prefixDefName "formData" ["form"] t n = n) := by
  unfold prefixDefName FormTagged
  rw [title_formData]
  constructor
  · intro h
    simp [h]
  · intro h
    have h1 : t.tagged "formData" = false := by
      cases e : t.tagged "formData" with
      | true => exact absurd (Or.inl e) h
      | false => rfl
    have h2 : t.tagged "form" = false := by
      cases e : t.tagged "form" with
      | true => exact absurd (Or.inr e) h
      | false => rfl
    simp [h1, h2]

theorem sanitize_append (a b : String) : sanitizeDefName (a ++ b) = sanitizeDefName a ++ sanitizeDefName b := by
  apply String.toList_inj.mp
  simp [sanitizeDefName]

theorem sanitize_formData : sanitizeDefName "FormData" = "FormData" := by decide +kernel

/-- C104: the definition of a type in a form has the name it has in a JSON body, with `FormData` before it
if the type has fields tagged `formData` or `form`. -/
theorem C104_form_name (t : DefType) :
    (FormTagged t → formName t = "FormData" ++ jsonName t) ∧ (¬ FormTagged t → formName t = jsonName t) := by
  unfold formName jsonName bodyDefName
  rw [prefixDefName_json]
  refine ⟨fun h => ?_, fun h => ?_⟩
  · rw [(prefixDefName_form t _).1 h, sanitize_append, sanitize_formData]
  · rw [(prefixDefName_form t _).2 h]

/-- C104: in a JSON body the name is the default name without the characters that are not allowed, tags or
not; both names are made of allowed characters. -/
theorem C104_safe (t : DefType) :
    jsonName t = sanitizeDefName t.defaultName ∧ IsName (jsonName t) ∧ IsName (formName t) := by
  refine ⟨?_, ?_, ?_⟩
  · unfold jsonName bodyDefName
    rw [prefixDefName_json]
  · exact (C46_safe_names _).1
  · exact (C46_safe_names _).1

theorem append_ne_self (a b : String) (h : a ≠ "") : a ++ b ≠ b := by
  intro e
  have := congrArg (fun s => s.toList.length) e
  simp at this
  exact h this

/-- C104: a type with form fields that is used in a form and in a JSON body has two components. -/
theorem C104_two_components (t : DefType) (h : FormTagged t) : formName t ≠ jsonName t := by
  rw [(C104_form_name t).1 h]
  exact append_ne_self _ _ (by decide)

/-- C104: form types are distinguished as well as they are in JSON bodies. -/
theorem C104_distinct (t u : DefType) (ht : FormTagged t) (hu : FormTagged u) :
    formName t = formName u ↔ jsonName t = jsonName u := by
  rw [(C104_form_name t).1 ht, (C104_form_name u).1 hu]
  constructor
  · intro e
    have := congrArg String.toList e
    simp at this
    exact String.toList_inj.mp this
  · intro e; rw [e]

/-- C104, the limit: a form type and another type get one name exactly when the name of the other is that of
the first with `FormData` before it. -/
theorem C104_collision (t u : DefType) (ht : FormTagged t) :
    formName t = jsonName u ↔ jsonName u = "FormData" ++ jsonName t := by
  rw [(C104_form_name t).1 ht]
  exact eq_comm

theorem addBodyDefinitions_other (v : Ver S) (defs : List (String × JS)) (m : GoMap S) (k : String)
    (h : k ∉ defs.map (·.1)) : (addBodyDefinitions v defs m).1.get? k = m.get? k := by
  induction defs generalizing m with
  | nil => rfl
  | cons d ds ih =>
    obtain ⟨n, j⟩ := d
    simp only [List.map_cons, List.mem_cons, not_or] at h
    unfold addBodyDefinitions
    cases v.conv j with
    | ok s =>
      simp only
      rw [ih _ h.2]
      simp [GoMap.get?_set, h.1]
    | err e => rfl
    | panic => rfl

theorem parseRequestBody_other (v : Ver S) (env : Env S) (cu : ContentUnit S) (method mime : String)
    (mapping : GoMap String) (tag : String) (tags : List String) (s : ReqState S) (k : String)
    (h : ∀ sch defs, ((cu.value env).body tag mapping).result = .ok (sch, defs) → k ∉ defs.map (·.1)) :
    (parseRequestBody v env cu method mime mapping tag tags s).1.schemas.get? k = s.schemas.get? k := by
  unfold parseRequestBody
  split
  · rfl
  · rfl
  · rename_i sch defs files hb
    have hr : ((cu.value env).body tag mapping).result = .ok (sch, defs) := by
      simp only [reflectRequestBody, input_eq] at hb
      cases hp : env.processWithoutTags with
      | error e =>
        simp only [hp] at hb
        repeat' split at hb
        all_goals cases hb
      | ok pw =>
        cases hr : ((cu.value env).body tag mapping).result with
        | error e =>
          simp only [hp, hr] at hb
          repeat' split at hb
          all_goals cases hb
        | ok r =>
          simp only [hp, hr] at hb
          repeat' split at hb
          all_goals cases hb
          rfl
    have ho := addBodyDefinitions_other v defs s.schemas k (h sch defs hr)
    split
    · rfl
    · rfl
    · split <;> rename_i e <;> rw [e] at ho <;> exact ho

/-- C104: reflecting a form made of types with form fields changes no component whose name does not begin
with `FormData`: not those of the same types in JSON bodies and responses. -/
theorem C104_components (v : Ver S) (env : Env S) (cu : ContentUnit S) (method mime : String) (mapping : GoMap String)
    (s : ReqState S) (types : List DefType) (ht : ∀ t ∈ types, FormTagged t)
    (hn : ∀ sch defs, ((cu.value env).body "formData" mapping).result = .ok (sch, defs) → NamedBy formName types defs)
    (k : String) (hk : ¬ Begins k "FormData") :
    (parseRequestBody v env cu method mime mapping "formData" ["form"] s).1.schemas.get? k = s.schemas.get? k := by
  apply parseRequestBody_other
  intro sch defs hr hm
  rw [hn sch defs hr, List.mem_map] at hm
  obtain ⟨t, htm, e⟩ := hm
  exact hk ⟨jsonName t, by rw [← e]; exact (C104_form_name t).1 (ht t htm)⟩

/-- C104: a JSON body changes no component of a form, unless a type of the body is itself named like one. -/
theorem C104_components_json (v : Ver S) (env : Env S) (cu : ContentUnit S) (method mime : String) (mapping : GoMap String)
    (s : ReqState S) (types : List DefType) (ht : ∀ t ∈ types, ¬ Begins (jsonName t) "FormData")
    (hn : ∀ sch defs, ((cu.value env).body "json" mapping).result = .ok (sch, defs) → NamedBy jsonName types defs)
    (k : String) (hk : Begins k "FormData") :
    (parseRequestBody v env cu method mime mapping "json" [] s).1.schemas.get? k = s.schemas.get? k := by
  apply parseRequestBody_other
  intro sch defs hr hm
  rw [hn sch defs hr, List.mem_map] at hm
  obtain ⟨t, htm, e⟩ := hm
  exact ht t htm (e ▸ hk)

/-! ## C105 -/

theorem types_addType (ty : Option JType) (t : String) :
    types (addType ty t) = if t ∈ types ty then types ty else types ty ++ [t] := by
  cases ty with
  | none => simp [types, addType]
  | some j =>
    cases j with
    | one u =>
      by_cases h : u = t
      · subst h; simp [types, addType]
      · simp [types, addType, h, Ne.symm h]
    | many us =>
      by_cases h : t ∈ us <;> simp [types, addType, h]

/-- C105: the schema of a file allows strings and no nulls, keeps the other types, has the format `binary`,
and in 3.1 says that the content is `application/octet-stream`; nothing else changes, and reflection of the
value ends there. -/
theorem C105_file (rm : RemoveType) (hrm : Removes rm) (is31 : Bool) (k : ValueKind) (hk : IsFile k) (flat : JFlat)
    (before : Bool) :
    ∃ f, interceptFile rm is31 k flat before = (f, true, true) ∧
      "string" ∈ types f.type ∧ "null" ∉ types f.type ∧
      (∀ t, t ≠ "string" → t ≠ "null" → (t ∈ types f.type ↔ t ∈ types flat.type)) ∧
      f.format = some "binary" ∧
      GoMap.get? f.extra "contentMediaType" =
        (if is31 then some (.str "application/octet-stream") else GoMap.get? flat.extra "contentMediaType") ∧
      (∀ x, x ≠ "contentMediaType" → GoMap.get? f.extra x = GoMap.get? flat.extra x) ∧
      { f with type := flat.type, format := flat.format, extra := flat.extra } = flat := by
  have hs : "string" ∈ types (rm (addType flat.type "string") "null") := by
    rw [hrm, types_addType, List.mem_filter]
    refine ⟨?_, by decide⟩
    by_cases h : "string" ∈ types flat.type <;> simp [h]
  have hn : "null" ∉ types (rm (addType flat.type "string") "null") := by
    rw [hrm, List.mem_filter]
    simp
  have ho : ∀ t, t ≠ "string" → t ≠ "null" →
      (t ∈ types (rm (addType flat.type "string") "null") ↔ t ∈ types flat.type) := by
    intro t h1 h2
    rw [hrm, types_addType, List.mem_filter]
    by_cases h : "string" ∈ types flat.type <;> simp [h, h1, h2]
  rcases hk with rfl | rfl <;> cases is31 <;>
    refine ⟨_, rfl, hs, hn, ho, rfl, ?_, ?_, rfl⟩ <;> simp_all [GoMap.get?_set]

/-- C105: values that are not files are left to the dependency, and do not make the body one with files. -/
theorem C105_not_file (rm : RemoveType) (is31 : Bool) (k : ValueKind) (hk : ¬ IsFile k) (flat : JFlat) (before : Bool) :
    interceptFile rm is31 k flat before = (flat, false, before) := by
  cases k with
  | file => exact absurd (Or.inl rfl) hk
  | fileHeader => exact absurd (Or.inr rfl) hk
  | other => rfl

/-- C105: the body is one with files exactly when one of the visited values is a file; the flag that the
callback leaves is the one that selects `multipart/form-data` (C24). -/
theorem C105_detected (rm : RemoveType) (is31 : Bool) (visited : List (ValueKind × JFlat)) :
    visited.foldl (fun found v => (interceptFile rm is31 v.1 v.2 found).2.2) false = hasFileUpload (visited.map (·.1)) ∧
    (hasFileUpload (visited.map (·.1)) = true ↔ ∃ v ∈ visited, IsFile v.1) := by
  have key : ∀ (l : List (ValueKind × JFlat)) (b : Bool),
      l.foldl (fun found v => (interceptFile rm is31 v.1 v.2 found).2.2) b =
        (l.map (·.1)).foldl (fun found k => match k with
          | .file => true
          | .fileHeader => true
          | .other => found) b ∧
      ((l.map (·.1)).foldl (fun found k => match k with
          | ValueKind.file => true
          | .fileHeader => true
          | .other => found) b = true ↔ b = true ∨ ∃ v ∈ l, IsFile v.1) := by
    intro l
    induction l with
    | nil => intro b; simp
    | cons v vs ih =>
      intro b
      obtain ⟨k, f⟩ := v
      cases k <;> simp only [List.foldl_cons, List.map_cons, List.mem_cons, interceptFile] <;>
        refine ⟨(ih _).1, ?_⟩ <;> rw [(ih _).2] <;> simp [IsFile]
  refine ⟨(key visited false).1, ?_⟩
  have := (key visited false).2
  exact this.trans (by simp)

/-- C105: a list of files is not nullable although its Go type has a nil value; other types stay. -/
theorem C105_files (rm : RemoveType) (hrm : Removes rm) (k : SliceKind) (hk : AreFiles k) (flat : JFlat) :
    types (interceptNullability rm true (some k) flat).type = (types flat.type).filter (· ≠ "null") ∧
    { interceptNullability rm true (some k) flat with type := flat.type } = flat := by
  rcases hk with rfl | rfl <;> exact ⟨hrm _ _, rfl⟩

/-- C105: every other schema keeps its nulls: those to which none was added, those without a Go type, and
those of other types. -/
theorem C105_other_nulls (rm : RemoveType) (nullAdded : Bool) (reflectType : Option SliceKind) (flat : JFlat)
    (h : nullAdded = false ∨ reflectType = none ∨ reflectType = some .other) :
    interceptNullability rm nullAdded reflectType flat = flat := by
  rcases h with rfl | rfl | rfl
  · rfl
  · cases nullAdded <;> rfl
  · cases nullAdded <;> rfl

theorem typeFromJS_types (ty : Option JType) : V30.typeFromJS ty =
    (types ty).foldl (fun os t => V30.checkNullable t os) (none, none) := by
  cases ty with
  | none => rfl
  | some j => cases j <;> rfl

/-- C105: in a 3.0 document a file that had no type but null before is a string of format `binary`, and not
nullable. -/
theorem C105_published30 (rm : RemoveType) (hrm : Removes rm) (k : ValueKind) (hk : IsFile k) (flat : JFlat)
    (before : Bool) (href : flat.ref = none) (hty : ∀ t ∈ types flat.type, t = "null") :
    ∃ f : V30.OFlat, V30.fromJS (.obj (interceptFile rm false k flat before).1 none [] [] [] none [] [] none []) =
        some (.schema f none [] [] [] none [] none none) ∧
      f.type = some "string" ∧ f.format = some "binary" ∧ f.nullable = none := by
  have hf : (interceptFile rm false k flat before).1 =
      { flat with type := rm (addType flat.type "string") "null", format := some "binary" } := by
    rcases hk with rfl | rfl <;> rfl
  have hfil : (types flat.type).filter (· ≠ "null") = [] := by
    rw [List.filter_eq_nil_iff]
    intro t h
    simp [hty t h]
  have hns : "string" ∉ types flat.type := fun h => absurd (hty _ h) (by decide)
  have ht : types (rm (addType flat.type "string") "null") = ["string"] := by
    rw [hrm, types_addType, if_neg hns, List.filter_append, hfil]
    rfl
  refine ⟨V30.flatFromJS (interceptFile rm false k flat before).1, ?_, ?_, ?_, ?_⟩
  · rw [hf]
    simp [V30.fromJS, href, V30.fromJSOpt, V30.fromJSList, V30.fromJSAddl, V30.fromJSProps, V30.addlBoolOf]
  · rw [hf]
    simp only [V30.flatFromJS, typeFromJS_types, ht]
    rfl
  · rw [hf]; rfl
  · rw [hf]
    simp only [V30.flatFromJS, typeFromJS_types, ht]
    rfl

/-! ## Cases -/

/-- A `RemoveType` that does what is asked of it. -/
def removeType (ty : Option JType) (t : String) : Option JType :=
  match (types ty).filter (· ≠ t) with
  | [] => none
  | [u] => some (.one u)
  | us => some (.many us)

theorem C105_removes_case : Removes removeType := by
  intro ty t
  unfold removeType
  split
  · rename_i h; rw [h]; rfl
  · rename_i h; rw [h]; rfl
  · rfl

/-- A type of a form. -/
def formTypeCase : DefType where
  defaultName := "Up[load]"
  tagged t := t = "form"

/-- A type named like a form. -/
def jsonTypeCase : DefType where
  defaultName := "FormDataUpload"
  tagged t := t = "json"

theorem C104_case : FormTagged formTypeCase ∧ formName formTypeCase = "FormDataUpload" ∧ jsonName formTypeCase = "Upload" ∧
    ¬ FormTagged jsonTypeCase ∧ formName formTypeCase = jsonName jsonTypeCase := by
  refine ⟨Or.inr (by decide), by decide +kernel, by decide +kernel, ?_, by decide +kernel⟩
  rintro (h | h) <;> revert h <;> decide

/-- A form of one type. -/
def formUnitCase : ContentUnit V30.OS where
  structure_ := some {
    tagged := fun t => t = "form",
    body := fun _ _ => ⟨[.other], .ok (.obj { ref := some "#/components/schemas/FormDataUpload" } none [] [] [] none [] [] none [],
      [("FormDataUpload", .obj { type := some (.one "object") } none [] [] [] none [] [] none [])])⟩ }

/-- C104, the hypotheses of `C104_components` are met by a form that does add a component. -/
theorem C104_components_case (env : Env V30.OS) :
    (∀ t ∈ [formTypeCase], FormTagged t) ∧
    (∀ sch defs, ((formUnitCase.value env).body "formData" []).result = .ok (sch, defs) →
      NamedBy formName [formTypeCase] defs) ∧
    ¬ Begins "Upload" "FormData" ∧
    (env.processWithoutTags = .ok false →
      ((parseRequestBody V30.ver env formUnitCase "POST" "application/x-www-form-urlencoded" [] "formData" ["form"]
        ⟨[], {}⟩).1.schemas.get? "FormDataUpload").isSome = true) := by
  refine ⟨?_, ?_, ?_, ?_⟩
  · intro t ht
    rw [List.mem_singleton] at ht
    subst ht
    exact C104_case.1
  · intro sch defs h
    injection h with h
    injection h with h1 h2
    subst h2
    show ["FormDataUpload"] = [formName formTypeCase]
    rw [C104_case.2.1]
  · rintro ⟨rest, h⟩
    have := congrArg String.toList h
    simp at this
  · intro h
    have h2 : reflectRequestBody env formUnitCase "POST" [] "formData" ["form"] =
        .ok (some ((.obj { ref := some "#/components/schemas/FormDataUpload" } none [] [] [] none [] [] none [],
          [("FormDataUpload", .obj { type := some (.one "object") } none [] [] [] none [] [] none [])]), false)) := by
      simp only [reflectRequestBody, input_eq, h]
      rfl
    simp only [parseRequestBody, h2]
    rfl

theorem C105_case :
    (interceptFile removeType true .fileHeader { type := some (.one "null") } false).1.type = some (.one "string") ∧
    (interceptNullability removeType true (some .files) { type := some (.many ["array", "null"]) }).type =
      some (.one "array") := by
  decide +kernel

end Verif
