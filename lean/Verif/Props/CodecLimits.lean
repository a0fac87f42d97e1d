import Verif.Codec.KernelRfl
import Verif.Props.Codec

/-! What the codecs do not do (C67-C72), and concrete cases for C36-C39. -/

namespace Verif
open Codec

/-! ## Errors in known members -/

theorem fieldVal_bad {chosen : String → Bool} {ty : Ty} {v : Val} {ms : List Member} {m : Member} (hm : m ∈ ms)
    (hc : chosen m.key = true) (hd : m.dec ty = none) : fieldVal chosen ty v ms = none := by
  induction ms generalizing v with
  | nil => cases hm
  | cons a ms ih =>
    rcases List.mem_cons.1 hm with h | h
    · subst h
      simp [fieldVal, hc, hd]
    · simp only [fieldVal]
      split
      · split
        · exact ih h
        · rfl
      · exact ih h

/-- A member for a field that does not decode as the type of the field spoils the whole entity. -/
theorem decode_bad_member {T : Table} {N : Nums} (hT : Ranked T) {n : String} {s : Struct}
    (hn : GoMap.get? T n = some (.struct s)) (hs : s.decodes = true) {f : Field} (hf : f ∈ s.fields)
    {ms : List (String × Any)} {v : Any} {k : String} (hm : (k, v) ∈ ms) (hk : fieldOf s.fields k = some f)
    (hd : decode T N f.ty v = none) : decode T N (.named n) (.obj ms) = none := by
  cases h : decode T N (.named n) (.obj ms) with
  | none => rfl
  | some w =>
    exfalso
    obtain ⟨_, fvals, _, _, _, h1, _⟩ := (decode_struct_some hT hn).1 h
    unfold decodeFields at h1
    simp only [hs, view, viewMembers_eq] at h1
    rw [mapAll_none hf] at h1
    · cases h1
    · rw [Option.map_eq_none_iff]
      exact fieldVal_bad (m := memberOf T N (k, v)) (List.mem_map_of_mem hm) (by simp [memberOf, hk])
        (by simpa [memberOf] using hd)

/-- The field of a key of the list has the type of the list. -/
def typesCheck (T : Table) (n : String) (l : List (String × Ty)) : Bool :=
  match GoMap.get? T n with
  | some (.struct s) => s.decodes && l.all (fun p => match fieldOf s.fields p.1 with
    | some f => f.ty == p.2
    | none => false)
  | _ => false

theorem fieldOf_mem {fs : List Field} {k : String} {f : Field} (h : fieldOf fs k = some f) : f ∈ fs := by
  unfold fieldOf at h
  split at h
  · rename_i g hg
    cases h
    exact List.mem_of_find?_eq_some hg
  · exact List.mem_of_find?_eq_some h

theorem bad_member_of {T : Table} {N : Nums} (hT : Ranked T) {n : String} {l : List (String × Ty)}
    (hc : typesCheck T n l = true) {k : String} {ty : Ty} (hk : (k, ty) ∈ l) {ms : List (String × Any)} {v : Any}
    (hm : (k, v) ∈ ms) (hd : decode T N ty v = none) : decode T N (.named n) (.obj ms) = none := by
  unfold typesCheck at hc
  split at hc
  · rename_i s hs
    simp only [Bool.and_eq_true, List.all_eq_true] at hc
    have := hc.2 _ hk
    simp only at this
    split at this
    · rename_i f hf
      rw [beq_iff_eq] at this
      exact decode_bad_member hT hs hc.1 (fieldOf_mem hf) hm hf (by rw [this]; exact hd)
    · cases this
  · cases hc

/-! ## 3.1: examples -/

/-- **C67.** No Example Object can be read in 3.1. -/
theorem C67_example31 (N : Nums) (j : Any) (hj : decodeAny N j ≠ none) :
    decode V31.table N (.named "Example") j = none := by
  cases h : decode V31.table N (.named "Example") j with
  | none => rfl
  | some w =>
    exfalso
    have hn : GoMap.get? V31.table "Example" = some (.struct V31.sExample) := by decide +kernel
    have := ((decode_struct_some ranked31 hn).1 h).1 .any (by decide +kernel)
    rw [decode_any, Option.map_eq_none_iff] at this
    exact hj this

/-- **C67.** Where an example or a reference is expected, only a reference can be read. -/
theorem C67_only_reference31 (N : Nums) (j : Any) (hj : decodeAny N j ≠ none) (w : Val)
    (h : decode V31.table N (.named "ExampleOrReference") j = some w) :
    decode V31.table N (.named "Reference") j ≠ none ∧ j ≠ .null := by
  have hp := fun (t : Ty) (ht : notPtr t = true) => decode_ptr (N := N) ranked31 ht j
  obtain ⟨go, t, v, hm, hv, ho, _⟩ := (C39_union31 N "ExampleOrReference"
    [("Reference", .named "Reference"), ("Example", .named "Example")] (by decide +kernel) j w).1 h
  have hnull : j ≠ .null := by
    rintro rfl
    simp only [List.mem_cons, Prod.mk.injEq, List.not_mem_nil, or_false] at hm
    rcases hm with ⟨rfl, rfl⟩ | ⟨rfl, rfl⟩
    · have := ho "Example" (.named "Example") (by decide) (by decide)
      rw [hp _ rfl] at this; cases this
    · have := ho "Reference" (.named "Reference") (by decide) (by decide)
      rw [hp _ rfl] at this; cases this
  refine ⟨?_, hnull⟩
  simp only [List.mem_cons, Prod.mk.injEq, List.not_mem_nil, or_false] at hm
  rcases hm with ⟨rfl, rfl⟩ | ⟨rfl, rfl⟩
  · rw [hp _ rfl] at hv
    intro h'
    cases j with
    | null => exact hnull rfl
    | _ => simp only [h'] at hv; cases hv
  · rw [hp _ rfl] at hv
    cases j with
    | null => exact absurd rfl hnull
    | _ => simp only [C67_example31 N _ hj] at hv; cases hv

/-- The example `{"value": "a"}`, under any of its keys, is not read. -/
theorem C67_case (N : Nums) (v : String) :
    decode V31.table N (.named "MediaType") (.obj [("examples", .obj [("a", .obj [("value", .str v)])])]) = none := by
  kernel_rfl

/-- A reference to an example is read. -/
theorem C67_reference_case (N : Nums) (r : String) :
    decode V31.table N (.named "ExampleOrReference") (.obj [("$ref", .str r)]) =
      some (.struct [("Reference", .struct [("Ref", .str r), ("Summary", .nil), ("Description", .nil)]),
        ("Example", .nil)]) := by
  kernel_rfl

/-! ## 3.1: references to links, path items and responses -/

/-- A `Reference` value of 3.1. -/
def reference31 (r : String) (summary description : Option String) : Val :=
  .struct [("Ref", .str r), ("Summary", (summary.map Val.str).getD .nil),
    ("Description", (description.map Val.str).getD .nil)]

/-- Its JSON. -/
def referenceJson31 (r : String) (summary description : Option String) : Any :=
  .obj (("$ref", .str r) :: ((summary.map (fun x => ("summary", Any.str x))).toList ++
    (description.map (fun x => ("description", Any.str x))).toList))

/-- **C68.** A reference to a link can be written but not read back. -/
theorem C68_link31 (N : Nums) (r : String) (s d : Option String) :
    encode V31.table (.named "LinkOrReference") (.struct [("Reference", reference31 r s d), ("Link", .nil)]) =
        some (referenceJson31 r s d) ∧
      decode V31.table N (.named "Reference") (referenceJson31 r s d) = some (reference31 r s d) ∧
      decode V31.table N (.named "LinkOrReference") (referenceJson31 r s d) = none := by
  cases s <;> cases d <;> exact ⟨by kernel_rfl, by kernel_rfl, by kernel_rfl⟩

/-- **C68.** The same for path items. -/
theorem C68_pathItem31 (N : Nums) (r : String) (s d : Option String) :
    encode V31.table (.named "PathItemOrReference") (.struct [("Reference", reference31 r s d), ("PathItem", .nil)]) =
        some (referenceJson31 r s d) ∧
      decode V31.table N (.named "PathItemOrReference") (referenceJson31 r s d) = none := by
  cases s <;> cases d <;> exact ⟨by kernel_rfl, by kernel_rfl⟩

/-- **C68.** A reference to a response can be read back exactly if it has no description of its own. -/
theorem C68_response31 (N : Nums) (r : String) (s d : Option String) :
    encode V31.table (.named "ResponseOrReference") (.struct [("Reference", reference31 r s d), ("Response", .nil)]) =
        some (referenceJson31 r s d) ∧
      decode V31.table N (.named "ResponseOrReference") (referenceJson31 r s d) =
        if d.isNone then some (.struct [("Reference", reference31 r s d), ("Response", .nil)]) else none := by
  cases s <;> cases d <;> exact ⟨by kernel_rfl, by kernel_rfl⟩

/-! ## 3.1: parameter styles -/

/-- **C69.** The styles `simple`, `matrix` and `label` of OpenAPI 3.1 cannot be read. -/
theorem C69_style_read31 (N : Nums) (st : String) (hst : st ∈ ["simple", "matrix", "label"])
    (ms : List (String × Any)) (h : ("style", .str st) ∈ ms) :
    decode V31.table N (.named "Parameter") (.obj ms) = none := by
  refine bad_member_of (l := [("style", .ptr (.named "ParameterStyle"))]) ranked31 (by decide +kernel)
    List.mem_cons_self h ?_
  simp only [List.mem_cons, List.not_mem_nil, or_false] at hst
  rcases hst with rfl | rfl | rfl <;> kernel_rfl

/-! ## 3.1: headers with an empty schema -/

/-- **C69.** A header with an empty schema (everything is allowed) is written without a schema, and then not
read back. -/
theorem C69_header_schema31 (N : Nums) (d : String) :
    encode V31.table (.named "Header") (.struct [("Description", .str d), ("Required", .nil),
        ("Deprecated", .nil), ("Schema", .map []), ("Content", .nil), ("Example", .nil), ("Examples", .nil),
        ("Explode", .nil), ("MapOfAnything", .nil)]) =
        some (.obj [("style", .str "simple"), ("description", .str d)]) ∧
      decode V31.table N (.named "Header") (.obj [("description", .str d), ("schema", .obj [])]) =
        some (.struct [("Description", .str d), ("Required", .nil),
        ("Deprecated", .nil), ("Schema", .map []), ("Content", .nil), ("Example", .nil), ("Examples", .nil),
        ("Explode", .nil), ("MapOfAnything", .nil)]) ∧
      decode V31.table N (.named "Header") (.obj [("style", .str "simple"), ("description", .str d)]) = none :=
  ⟨by kernel_rfl, by kernel_rfl, by kernel_rfl⟩

/-! ## Members that are lost -/

/-- What 3.1 loses although the specification defines it. -/
def lost31 : List Spec.Closed := [
  ⟨"Components", ["schemas", "responses", "parameters", "examples", "requestBodies", "headers", "securitySchemes",
    "links", "callbacks", "pathItems"], []⟩,
  ⟨"Encoding", ["contentType", "headers", "style", "explode", "allowReserved"], []⟩]

/-- **C70.** Extensions of the Components Object and of the Encoding Object are lost in 3.1. -/
theorem C70_extensions_lost31 (N : Nums) (n : String) (hn : n ∈ ["Components", "Encoding"])
    (ms ms' : List (String × Any)) (k : String) (v : Any) (hk : Spec.IsExtension k) :
    decode V31.table N (.named n) (.obj (ms ++ (k, v) :: ms')) =
      decode V31.table N (.named n) (.obj (ms ++ ms')) := by
  have hall : lost31.all (fun c => openCheck V31.table c && c.kinds == [] &&
      c.keys.all (fun x => match foldKey x with
        | 'X' :: '-' :: _ => false
        | _ => true)) = true := by decide +kernel
  have hc : ∃ c ∈ lost31, c.name = n := by
    simp only [List.mem_cons, List.not_mem_nil, or_false] at hn
    rcases hn with rfl | rfl
    · exact ⟨_, List.mem_cons_self, rfl⟩
    · exact ⟨_, List.mem_cons_of_mem _ List.mem_cons_self, rfl⟩
  obtain ⟨c, hc, rfl⟩ := hc
  have := List.all_eq_true.1 hall c hc
  simp only [Bool.and_eq_true, beq_iff_eq, List.all_eq_true] at this
  refine dropped_of ranked31 this.1.1 ?_ ?_
  · rintro ⟨x, hx, e⟩
    have := this.2 x hx
    obtain ⟨rest, rfl⟩ := hk
    rw [e] at this
    have e' : foldKey ("x-" ++ rest) = 'X' :: '-' :: foldKey rest := by
      unfold foldKey
      rw [String.toList_append, List.map_append]
      rfl
    rw [e'] at this
    cases this
  · rw [this.1.2]; intro kd h; cases h

/-- **C70.** The `$ref` of a path item is lost in 3.1. -/
theorem C70_ref_lost31 (N : Nums) (ms ms' : List (String × Any)) (v : Any) :
    decode V31.table N (.named "PathItem") (.obj (ms ++ ("$ref", v) :: ms')) =
      decode V31.table N (.named "PathItem") (.obj (ms ++ ms')) :=
  dropped_of (c := ⟨"PathItem", ["summary", "description", "get", "put", "post", "delete", "options", "head", "patch",
    "trace", "servers", "parameters"], [.extension]⟩) ranked31 (by decide +kernel)
    (by rintro ⟨x, hx, e⟩
        have : ["summary", "description", "get", "put", "post", "delete", "options", "head", "patch",
          "trace", "servers", "parameters"].all (fun x => foldKey x != foldKey "$ref") = true := by decide +kernel
        have := List.all_eq_true.1 this x hx
        rw [e] at this; simp at this)
    (by intro kd hkd h
        simp only [List.mem_cons, List.not_mem_nil, or_false] at hkd
        subst hkd
        have := x_matches.2 h
        revert this
        decide +kernel)

/-- **C70.** The `server` of a link is lost in 3.1. -/
theorem C70_server_lost31 (N : Nums) (ms ms' : List (String × Any)) (v : Any) :
    decode V31.table N (.named "Link") (.obj (ms ++ ("server", v) :: ms')) =
      decode V31.table N (.named "Link") (.obj (ms ++ ms')) :=
  dropped_of (c := ⟨"Link", ["operationRef", "operationId", "parameters", "requestBody", "description", "body"],
    [.extension]⟩) ranked31 (by decide +kernel)
    (by rintro ⟨x, hx, e⟩
        have : ["operationRef", "operationId", "parameters", "requestBody", "description", "body"].all
          (fun x => foldKey x != foldKey "server") = true := by decide +kernel
        have := List.all_eq_true.1 this x hx
        rw [e] at this; simp at this)
    (by intro kd hkd h
        simp only [List.mem_cons, List.not_mem_nil, or_false] at hkd
        subst hkd
        have := x_matches.2 h
        revert this
        decide +kernel)

/-- **C70.** In 3.0 an extension of the Encoding Object is an error. -/
theorem C70_encoding30 (N : Nums) (ms : List (String × Any)) (k : String) (hk : Spec.IsExtension k)
    (h : k ∈ ms.map Prod.fst) : decode V30.table N (.named "Encoding") (.obj ms) = none := by
  have hn : GoMap.get? V30.table "Encoding" = some (.struct V30.sEncoding) := by decide +kernel
  have hx := x_matches.2 hk
  refine decode_unknown ranked30 hn rfl rfl h ?_ ?_ ?_ ?_
  · have : V30.sEncoding.known.all (fun x => !Pat.x.matches x) = true := by decide +kernel
    intro hm
    have := List.all_eq_true.1 this k hm
    rw [hx] at this; cases this
  · intro c hc; cases hc
  · intro c hc; cases hc
  · intro c hc; cases hc

/-- The maps of components of 3.0, and what they hold. -/
def componentMaps30 : List String := ["ComponentsSchemas", "ComponentsResponses", "ComponentsParameters",
  "ComponentsExamples", "ComponentsRequestBodies", "ComponentsHeaders", "ComponentsSecuritySchemes",
  "ComponentsLinks", "ComponentsCallbacks"]

/-- Only names are read. -/
def namesCheck (T : Table) (n : String) : Bool :=
  match GoMap.get? T n with
  | some (.struct s) => s.patterns.all (fun q => q.pat == .name) && s == { patterns := s.patterns, parts := s.parts }
  | none => false
  | _ => false

/-- **C71.** A component of 3.0 whose name has other characters than letters, digits, `.`, `-` and `_` is
lost. -/
theorem C71_names_lost30 (N : Nums) (n : String) (hn : n ∈ componentMaps30) (ms ms' : List (String × Any))
    (k : String) (v : Any)
    (hk : ∃ c ∈ k.toList, c.isAlphanum = false ∧ c ∉ ['.', '-', '_']) :
    decode V30.table N (.named n) (.obj (ms ++ (k, v) :: ms')) =
      decode V30.table N (.named n) (.obj (ms ++ ms')) := by
  have hall : componentMaps30.all (namesCheck V30.table) = true := by decide +kernel
  have := List.all_eq_true.1 hall n hn
  unfold namesCheck at this
  split at this
  · rename_i s hs
    simp only [Bool.and_eq_true, List.all_eq_true, beq_iff_eq] at this
    obtain ⟨a1, a2⟩ := this
    have hno : Pat.name.matches k = false := by
      obtain ⟨c, hc, h1, h2⟩ := hk
      simp only [List.mem_cons, List.not_mem_nil, or_false, not_or] at h2
      simp only [Pat.matches, Bool.and_eq_false_iff, List.all_eq_false]
      right
      exact ⟨c, hc, by simp [h1, h2]⟩
    have hirr : relevant s k = false := by
      have : s.patterns.any (fun q => q.pat.matches k) = false := by
        rw [List.any_eq_false]
        intro q hq
        rw [a1 q hq, hno]; simp
      unfold relevant
      rw [this, a2]
      rfl
    have e1 : s.nots = [] := by rw [a2]
    have e2 : s.embeds = [] := by rw [a2]
    have e3 : s.oneOf = [] := by rw [a2]
    have e4 : s.strict = false := by rw [a2]
    have e5 : s.additional = none := by rw [a2]
    rw [decode_frame ranked30 hs e1 e2 e3 e4 e5, decode_frame ranked30 hs e1 e2 e3 e4 e5 (ms := ms ++ ms')]
    congr 2
    simp [List.filter_append, hirr]
  · cases this
  · cases this

/-! ## Values that are not objects -/

/-- The struct types that are only maps. -/
def mapsCheck (T : Table) (n : String) : Bool :=
  match GoMap.get? T n with
  | some (.struct s) =>
    s == { patterns := s.patterns, additional := s.additional, strict := s.strict, parts := s.parts }
  | _ => false

/-- The maps of both versions. -/
def maps30 : List String := "Paths" :: "Callback" :: componentMaps30
def maps31 : List String := ["Paths", "Callbacks"]

theorem not_object_of {T : Table} {N : Nums} (hT : Ranked T) {n : String} (hc : mapsCheck T n = true) {j : Any}
    (hj : ∀ ms, j ≠ .obj ms) : decode T N (.named n) j = decode T N (.named n) (.obj []) ∧
      ∃ gs, decode T N (.named n) (.obj []) = some (.struct gs) ∧ ∀ p ∈ gs, ∃ x, p = (x, .nil) := by
  unfold mapsCheck at hc
  split at hc
  · rename_i s hs
    rw [beq_iff_eq] at hc
    have hm : membersOf T N j = [] := by
      cases j with
      | obj ms => exact absurd rfl (hj ms)
      | _ => rfl
    have h0 : membersOf T N (.obj []) = [] := rfl
    have key : ∀ j', membersOf T N j' = [] → decode T N (.named n) j' =
        some (.struct (s.patterns.map (fun q => (q.go, .nil)) ++ (match s.additional with
          | some a => [(a.go, .nil)]
          | none => []))) := by
      intro j' hj'
      rw [decode_struct_some hT hs, hj']
      rw [hc]
      refine ⟨(fun t ht => by cases ht), [], [], [], s.patterns.map (fun q => (q.go, .nil)) ++
        (match s.additional with
          | some a => [(a.go, .nil)]
          | none => []), rfl, rfl, rfl, rfl, ?_, ?_⟩
      · unfold decodeRest
        simp only [restOf, rawMap, lastWins, List.map_nil, List.foldl_nil, List.filter_nil, decodeEntries, mapAll,
          Option.map_some, madeMap, List.isEmpty_nil, Bool.not_true, Bool.and_false, Bool.false_eq_true, if_false]
        rw [mapAll_some_of (g := fun q : PatField => (q.go, Val.nil)) (fun _ _ => rfl)]
        cases s.additional <;> simp
      · simp
    refine ⟨by rw [key _ hm, key _ h0], _, key _ h0, ?_⟩
    intro p hp
    rcases List.mem_append.1 hp with h | h
    · obtain ⟨q, _, rfl⟩ := List.mem_map.1 h
      exact ⟨_, rfl⟩
    · split at h
      · rw [List.mem_singleton] at h; exact ⟨_, h⟩
      · cases h
  · cases hc

/-- **C72.** A string, a number, a list or a boolean where the paths, a callback or components are expected
is read like an empty object. -/
theorem C72_not_object30 (N : Nums) (n : String) (hn : n ∈ maps30) (j : Any) (hj : ∀ ms, j ≠ .obj ms) :
    decode V30.table N (.named n) j = decode V30.table N (.named n) (.obj []) ∧
      ∃ gs, decode V30.table N (.named n) (.obj []) = some (.struct gs) ∧ ∀ p ∈ gs, ∃ x, p = (x, .nil) :=
  not_object_of ranked30 (List.all_eq_true.1 (by decide +kernel : maps30.all (mapsCheck V30.table) = true) n hn) hj

/-- **C72.** The same for 3.1. -/
theorem C72_not_object31 (N : Nums) (n : String) (hn : n ∈ maps31) (j : Any) (hj : ∀ ms, j ≠ .obj ms) :
    decode V31.table N (.named n) j = decode V31.table N (.named n) (.obj []) ∧
      ∃ gs, decode V31.table N (.named n) (.obj []) = some (.struct gs) ∧ ∀ p ∈ gs, ∃ x, p = (x, .nil) :=
  not_object_of ranked31 (List.all_eq_true.1 (by decide +kernel : maps31.all (mapsCheck V31.table) = true) n hn) hj

/-! ## Concrete cases -/

/-- A document of 3.0 with a key it may not have is rejected, without it it is read. -/
theorem C36_case (N : Nums) :
    decode V30.table N (.named "License") (.obj [("name", .str "MIT"), ("identifier", .str "MIT")]) = none ∧
      decode V30.table N (.named "License") (.obj [("name", .str "MIT")]) =
        some (.struct [("Name", .str "MIT"), ("URL", .nil), ("MapOfAnything", .nil)]) :=
  ⟨by kernel_rfl, by kernel_rfl⟩

/-- The key of C36_case is none of the keys of the list. -/
theorem C36_case_meets : (⟨"License", ["name", "url"], [.extension]⟩ : Spec.Closed) ∈ Spec.closed30 ∧
    "identifier" ∉ ["name", "url"] ∧ ¬Spec.Kind.extension.Is "identifier" := by
  refine ⟨?_, by decide, ?_⟩
  · unfold Spec.closed30
    simp
  · intro h
    have := x_matches.2 h
    revert this
    decide +kernel

/-- C37: a license without a name. -/
theorem C37_case (N : Nums) : decode V31.table N (.named "License") (.obj [("identifier", .str "MIT")]) = none :=
  C37_required31 N "License" ["name"] (by decide +kernel) "name" List.mem_cons_self _
    (by simp [Spec.HasMember])

/-- C38: an extension of a license, read and written. -/
theorem C38_case (N : Nums) :
    (decode V30.table N (.named "License") (.obj [("x-a", .arr [.bool true]), ("name", .str "MIT")])).bind
      (encode V30.table (.named "License")) = some (.obj [("name", .str "MIT"), ("x-a", .arr [.bool true])]) := by
  kernel_rfl

/-- C39: a reference and a value. -/
theorem C39_case (N : Nums) (r : String) :
    decode V30.table N (.named "SchemaOrRef") (.obj [("$ref", .str r)]) =
        some (.struct [("Schema", .nil), ("SchemaReference", .struct [("Ref", .str r)])]) ∧
      decode V30.table N (.named "SchemaOrRef") (.obj [("$ref", .str r), ("title", .str r)]) = none :=
  ⟨by kernel_rfl, by kernel_rfl⟩

end Verif
