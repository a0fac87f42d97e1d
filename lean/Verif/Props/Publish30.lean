import Verif.Lemmas.PublishHistory30
import Verif.Props.Meta30
import Verif.Props.Http
import Verif.Lemmas.PublishText

/-! Documents built by the 3.0 reflector and the meta-schema of OpenAPI 3.0 (C83). -/

namespace Verif
open Codec Spec Meta Conform Pub30

variable {S : Type}

/-- **C83**: a document that was built by any sequence of calls with input that is in order is itself in order. -/
theorem C83_in_order {v : Ver S} {Js : Role → JS → Prop} {Sc : Role → S → Prop} (hC : Translates v Js Sc) (d : V30.Spec S)
    (h : Built v Js Sc d) : Published Sc d := published_built hC h

/-- **C83**: a document that is in order can be written, the meta-schema of OpenAPI 3.0 accepts what is written, and
reading it gives the same document. -/
theorem C83_written (N : Nums) (lit : F64 → String) (isInt : String → Prop) (env : String → Any → Prop)
    (hE : Meaning defs30 isInt env) (hI : ∀ l, N.i64 l ≠ none → isInt l) (hF : ∀ l, N.i64 l = some l → N.f64 l ≠ none)
    (d : V30.Spec V30.OS) (h : Published (Always (SchemaOk N lit)) d) :
    ∃ j w, encode V30.table (.named "Spec") (docVal (schemaVal lit) d) = some j ∧ env "OpenAPI" j ∧
      decode V30.table N (.named "Spec") j = some w ∧ Same (docVal (schemaVal lit) d) w := by
  have hg := good_doc hF schemaVals_ok h
  obtain ⟨j, w, hj, hw, hs⟩ := C35_roundtrip30 N _ _ hg.writable
  exact ⟨j, w, hj, C77_written_valid30 N isInt env hE hI hF _ hg.writable hg.fresh hg.nulls j hj, hw, hs⟩

/-- **C83**: so whatever the calls, if their input is in order, the document is accepted by the meta-schema of
OpenAPI 3.0. -/
theorem C83_published (N : Nums) (lit : F64 → String) (isInt : String → Prop) (env : String → Any → Prop)
    (hE : Meaning defs30 isInt env) (hI : ∀ l, N.i64 l ≠ none → isInt l) (hF : ∀ l, N.i64 l = some l → N.f64 l ≠ none)
    (h0 : IntOk N 0) (d : V30.Spec V30.OS) (h : Built V30.ver (Always (JsonOk N lit)) (Always (SchemaOk N lit)) d) :
    ∃ j w, encode V30.table (.named "Spec") (docVal (schemaVal lit) d) = some j ∧ env "OpenAPI" j ∧
      decode V30.table N (.named "Spec") j = some w ∧ Same (docVal (schemaVal lit) d) w :=
  C83_written N lit isInt env hE hI hF d (C83_in_order (converts30 h0) d h)

theorem statusKey_iff (k : String) : StatusKey k ↔ HttpSpec.IsStatusKey k := by
  have e : ∀ c : Char, c.isDigit = true ↔ HttpSpec.IsDigit c := by
    intro c
    simp only [Char.isDigit, HttpSpec.IsDigit, Bool.and_eq_true, decide_eq_true_eq]
    exact Iff.rfl
  simp only [StatusKey, HttpSpec.IsStatusKey, e]

/-- **C83**: the place of a response is in order for the default response and for the statuses 1 to 5 and 100 to 599, and
for no others. -/
theorem C83_status (cu : ContentUnit S) : (∀ k, placeOf cu = some k → StatusKey k) ↔
    (cu.isDefault = true ∨ (1 ≤ effectiveStatus cu ∧ effectiveStatus cu ≤ 5) ∨
      (100 ≤ effectiveStatus cu ∧ effectiveStatus cu ≤ 599)) := by
  cases hd : cu.isDefault with
  | true => simp [placeOf, hd]
  | false =>
    have hp : placeOf cu = some (statusKey (effectiveStatus cu)) := by
      simp only [placeOf, hd, Bool.false_eq_true, if_false, statusKey_eq]
      split <;> rfl
    rw [hp]
    simp only [Option.some.injEq, forall_eq', statusKey_iff, C18_valid_keys, Bool.false_eq_true, false_or]
    exact Or.comm

/-! ## A concrete case -/

namespace Ex83
open V30

/-- A schema of a simple type. -/
def typed (t : String) : JS := .obj { type := some (.one t) } none [] [] [] none [] [] none []

/-- An array of integers. -/
def ints : JS := .obj { type := some (.many ["array", "null"]) } none [] [] [] (some (typed "integer")) [] [] none []

/-- A definition: a name of at most ten characters, and an optional count. -/
def thing : JS := .obj { type := some (.one "object"), required := ["name"] } none [] [] [] none []
  [("name", .obj { type := some (.one "string"), maxLength := some 10 } none [] [] [] none [] [] none []),
    ("count", .obj { type := some (.many ["integer", "null"]), enum := [.num "1", .null] } none [] [] [] none [] [] none [])]
  (some (.bool false)) []

/-- A reference to it. -/
def toThing : JS := .obj { ref := some "#/components/schemas/Thing" } none [] [] [] none [] [] none []

/-- The path parameter. -/
def fieldId (schema : JS) (object : Bool) (format : String) : PropCall OS :=
  { processed := true, pathLen := 1, name := "id", schema := schema, inlined := .ok object, collectionFormat := format,
    populate := fun p => .ok { p with description := some "the thing" } }

/-- A query parameter whose values are separated by commas. -/
def fieldTags : PropCall OS :=
  { processed := true, pathLen := 1, name := "tags", schema := ints, collectionFormat := "csv", isPtr := true,
    populate := fun p => .ok { p with required := some true } }

/-- A query parameter that holds a JSON object. -/
def fieldFilter : PropCall OS :=
  { processed := true, pathLen := 1, name := "filter", schema := thing, taggedJSON := true,
    inner := ([("Thing", thing)], .ok toThing) }

/-- A response header. -/
def fieldRate : PropCall OS :=
  { processed := true, pathLen := 1, name := "X-Rate", schema := typed "integer",
    populateHeader := fun h => .ok { h with description := some "per second" } }

/-- The request: three parameters and a JSON body. -/
def input (id : PropCall OS) : Value OS where
  tagged t := t = "json"
  params inn _ := ⟨if inn = "path" then [.prop id] else if inn = "query" then [.prop fieldTags, .prop fieldFilter] else [],
    .ok (.obj {} none [] [] [] none [] [] (some (.bool false)) [])⟩
  body _ _ := ⟨[], .ok (toThing, [("Thing", thing)])⟩

/-- The response. -/
def output : Value OS where
  plain := .ok thing
  response := ⟨[.defn "Thing" thing], .ok toThing⟩
  headers _ := ⟨[.prop fieldRate], .ok (.bool true)⟩

/-- The context of `POST /things/{id}`, with a response for 200 and a reference as default. -/
def context (id : PropCall OS) : OpCtx OS where
  method := "post"
  path := "/things/{id}"
  pathParams := ["id"]
  op := { summary := some "change a thing" }
  req := [makeUnit (.value (some (input id))) []]
  resp := [makeUnit (.value (some output)) [], makeUnit (.value none) [fun cu => { cu with isDefault := true },
    withReference "#/components/responses/Error"]]

/-- The environment. -/
def env30 : Env OS := ⟨{}, .ok false, id, fun _ => .ok "{\"type\":\"object\",\"properties\":{}}"⟩

/-- The number is not looked at. -/
def lit (_ : F64) : String := "0"

/-- The document. -/
def doc (id : PropCall OS) : V30.Spec OS :=
  (((V30.addOperation V30.ver env30 (Spec.setTitle {} "Things") (context id)).1.setHTTPBearerTokenSecurity "admin" "JWT" "").addOperation
    "GET" "/ping" {}).1

theorem ok_zero : IntOk jsonNums 0 := by unfold IntOk; decide +kernel

theorem ok_ten : IntOk jsonNums 10 := by unfold IntOk; decide +kernel

theorem ok_typed {t : String} (h : t ∈ schemaTypes) : JsonOk jsonNums lit (typed t) := by
  simp only [typed, JsonOk, JsonOkOpt, JsonOkList, JsonOkProps, and_true, true_and]
  intro _
  refine ⟨⟨by simp, by simp [ok_zero], ?_, by simp, by simp, by simp, by simp [Keys], by simp⟩, by simp [Keys]⟩
  intro t' e
  cases e
  exact List.mem_cons_of_mem _ h

theorem ok_ints : JsonOk jsonNums lit ints := by
  have := ok_typed (t := "integer") (by simp [schemaTypes])
  simp only [ints, JsonOk, JsonOkOpt, JsonOkList, JsonOkProps, and_true, true_and, this]
  intro _
  refine ⟨⟨by simp, by simp [ok_zero], by simp, ?_, by simp, by simp, by simp [Keys], by simp⟩, by simp [Keys]⟩
  intro ts e t ht
  cases e
  simp only [List.mem_cons, List.not_mem_nil, or_false] at ht
  rcases ht with rfl | rfl <;> simp [schemaTypes]

theorem ok_thing : JsonOk jsonNums lit thing := by
  simp only [thing, JsonOk, JsonOkOpt, JsonOkList, JsonOkProps, and_true, true_and]
  intro _
  refine ⟨⟨by simp, by simp [ok_zero], by simp [schemaTypes], by simp, by simp, by simp, by simp [Keys], by simp⟩,
    by simp [Keys], ?_, ?_⟩
  · intro _
    refine ⟨⟨by simp, ?_, by simp [schemaTypes], by simp, by simp, by simp, by simp [Keys], by simp⟩, by simp [Keys]⟩
    intro i h
    have : 10 = i ∨ 0 = i := by simpa using h
    rcases this with rfl | rfl
    · exact ok_ten
    · exact ok_zero
  · intro _
    refine ⟨⟨by simp, by simp [ok_zero], by simp, ?_, ?_, by simp, by simp [Keys], by simp⟩, by simp [Keys]⟩
    · intro ts e t ht
      cases e
      simp only [List.mem_cons, List.not_mem_nil, or_false] at ht
      rcases ht with rfl | rfl <;> simp [schemaTypes]
    · intro a ha
      simp only [List.mem_cons, List.not_mem_nil, or_false] at ha
      rcases ha with rfl | rfl <;> rfl

theorem ok_ref : JsonOk jsonNums lit toThing := by
  simp only [toThing, JsonOk]
  intro e
  cases e

theorem name_thing : DefinitionOk (Always (JsonOk jsonNums lit)) "Thing" thing :=
  ⟨⟨by decide, by decide⟩, ok_thing⟩

theorem ok_id : ParamFieldOk places (Always (JsonOk jsonNums lit)) "path" (fieldId (typed "integer") false "") where
  schema _ := ok_typed (by simp [schemaTypes])
  content h := by simp [JSONEncoded, fieldId] at h
  style a b h := by simp [collectionStyles, fieldId] at h
  object _ h := by simp [fieldId] at h
  tags p q h _ := by cases h; exact ⟨trivial, rfl, rfl, rfl, .inl rfl, fun _ => ⟨rfl, rfl⟩⟩

theorem ok_tags : ParamFieldOk places (Always (JsonOk jsonNums lit)) "query" fieldTags where
  schema _ := ok_ints
  content h := by simp [JSONEncoded, fieldTags] at h
  style a b h := by
    simp only [collectionStyles, fieldTags, List.mem_cons, Prod.mk.injEq, List.not_mem_nil, or_false] at h
    refine ⟨?_, by simp [JSONEncoded, fieldTags]⟩
    rcases h with ⟨_, rfl, _⟩ | ⟨e, _⟩ | ⟨e, _⟩ | ⟨e, _⟩
    · decide
    all_goals exact absurd e (by decide)
  object _ h := by simp [fieldTags] at h
  tags p q h _ := by cases h; exact ⟨trivial, rfl, rfl, rfl, .inl rfl, fun _ => ⟨rfl, rfl⟩⟩

theorem ok_filter : ParamFieldOk places (Always (JsonOk jsonNums lit)) "query" fieldFilter where
  schema h := absurd (.inr ⟨rfl, rfl⟩) h
  content _ := by
    refine ⟨?_, ?_⟩
    · intro js e; cases e; exact ok_ref
    · intro n d h; cases List.mem_singleton.1 h; exact name_thing
  style a b h := by simp [collectionStyles, fieldFilter] at h
  object h := absurd (.inr ⟨rfl, rfl⟩) h
  tags p q h _ := by cases h; exact ⟨trivial, rfl, rfl, rfl, .inl rfl, fun _ => ⟨rfl, rfl⟩⟩

theorem ok_input : RequestUnitOk places (Always (JsonOk jsonNums lit)) env30 "post"
    (makeUnit (.value (some (input (fieldId (typed "integer") false "")))) []) where
  fields inn c h := by
    have : (inn, c) ∈ [("query", fieldTags), ("query", fieldFilter), ("path", fieldId (typed "integer") false "")] := h
    simp only [List.mem_cons, Prod.mk.injEq, List.not_mem_nil, or_false] at this
    rcases this with ⟨rfl, rfl⟩ | ⟨rfl, rfl⟩ | ⟨rfl, rfl⟩
    · exact ok_tags
    · exact ok_filter
    · exact ok_id
  definitions _ _ inn _ n d h := by
    have : Event.defn n d ∈ (if inn = "path" then [Event.prop (fieldId (typed "integer") false "")]
      else if inn = "query" then [.prop fieldTags, .prop fieldFilter] else []) := h
    repeat' split at this
    all_goals simp at this
  form _ _ sch defs h := by
    cases h
    exact ⟨ok_ref, fun n d h => by cases List.mem_singleton.1 h; exact name_thing⟩
  json _ _ sch defs h := by
    cases h
    exact ⟨ok_ref, fun n d h => by cases List.mem_singleton.1 h; exact name_thing⟩

theorem ok_output {method : String} : ResponseUnitOk (Always (JsonOk jsonNums lit)) (Always (SchemaOk jsonNums lit)) StatusKey env30 method
    (makeUnit (.value (some output)) []) where
  place := (C83_status _).2 (.inr (.inr (by decide)))
  body value h js e := by cases h.2.1; cases e; exact ok_ref
  definitions value h n d hd := by
    cases h.2.1
    cases List.mem_singleton.1 hd
    exact name_thing
  headers value h c hc := by
    cases h
    have : c ∈ [fieldRate] := hc
    cases List.mem_singleton.1 this
    exact ⟨ok_typed (by simp [schemaTypes]), fun h h' e => by cases e; rfl⟩
  customize f h := by cases h

theorem ok_error {method : String} : ResponseUnitOk (Always (JsonOk jsonNums lit)) (Always (SchemaOk jsonNums lit)) StatusKey env30 method
    (makeUnit (.value none) [fun cu => { cu with isDefault := true }, withReference "#/components/responses/Error"]) where
  place := (C83_status _).2 (.inl rfl)
  body value h := by cases h.2.1
  definitions value h := by cases h.2.1
  headers value h := by cases h
  customize f h r _ := by cases h; exact .inl ⟨_, rfl, rfl⟩

theorem ok_context : ContextOk places (Always (JsonOk jsonNums lit)) (Always (SchemaOk jsonNums lit)) StatusKey env30
    (context (fieldId (typed "integer") false "")) where
  op := ⟨by simp [context], by simp [context], by simp [context], by simp [context, Keys], by simp [context],
    by simp [context, Keys], by simp [context]⟩
  inline := by simp [context]
  req := ⟨ok_input, fun f h => (by cases h), trivial⟩
  resp := by
    intro cu h
    simp only [context, List.mem_cons, List.not_mem_nil, or_false] at h
    rcases h with rfl | rfl
    · exact ok_output
    · exact ok_error

/-- The hypotheses of C83 are met by a document with two operations, parameters in path and query, a JSON body, a
response with a header, a reference, a definition and a security scheme. -/
theorem built : Built V30.ver (Always (JsonOk jsonNums lit)) (Always (SchemaOk jsonNums lit)) (doc (fieldId (typed "integer") false "")) := by
  refine .add _ _ _ (.bearer _ _ _ (.reflect _ _ (.title _ .new) ok_context ⟨"things/{id}".toList, rfl⟩) ⟨by decide, by decide⟩) ?_
    ⟨"ping".toList, rfl⟩
  exact operationOk_empty

/-- Both operations are in the document. -/
theorem stored : ((doc (fieldId (typed "integer") false "")).op? "/things/{id}" "post").isSome = true ∧
    ((doc (fieldId (typed "integer") false "")).op? "/ping" "get").isSome = true := by decide +kernel

end Ex83

/-- **C83**, concrete: the example is accepted. -/
theorem C83_case (env : String → Any → Prop) (hE : Meaning defs30 (fun _ => True) env) : ∃ j,
    encode V30.table (.named "Spec") (docVal (schemaVal Ex83.lit) (Ex83.doc (Ex83.fieldId (Ex83.typed "integer") false ""))) =
      some j ∧ env "OpenAPI" j := by
  obtain ⟨j, _, h1, h2, _⟩ := C83_published jsonNums Ex83.lit _ env hE (fun _ _ => trivial) (fun _ => jsonNums_f64)
    Ex83.ok_zero _ Ex83.built
  exact ⟨j, h1, h2⟩

/-! ## What is not in order -/

/-- The document is written, and rejected. -/
def Rejected (d : V30.Spec V30.OS) : Prop :=
  ∃ j, encode V30.table (.named "Spec") (docVal (schemaVal Ex83.lit) d) = some j ∧
    ∀ isInt env, Meaning defs30 isInt env → ¬ env "OpenAPI" j

theorem rejected_of_check {d : V30.Spec V30.OS} (r : Nat) (h : (match encode V30.table (.named "Spec") (docVal (schemaVal Ex83.lit) d) with
    | some j => readsB V30.table discriminatorB r (.named "Spec") j && (decode V30.table sampleNums (.named "Spec") j).isNone
    | none => false) = true) : Rejected d := by
  split at h
  · rename_i j hj
    simp only [Bool.and_eq_true, Option.isNone_iff_eq_none] at h
    refine ⟨j, hj, fun isInt env hE hv => ?_⟩
    obtain ⟨v, hv⟩ := C78_valid_read30 sampleNums isInt env hE j (fun l _ => ⟨by simp [sampleNums], fun _ => by simp [sampleNums]⟩)
      (discriminator_of_check h.1) hv
    rw [h.2] at hv
    cases hv
  · cases h

/-- **C83**: a path parameter with fields of its own is added without error, but with the style `deepObject` that paths
cannot have, and the document is rejected. -/
theorem C83_object_in_path :
    (V30.addOperation V30.ver Ex83.env30 {} (Ex83.context (Ex83.fieldId Ex83.thing true ""))).2.2 = .ok ∧
    Rejected (Ex83.doc (Ex83.fieldId Ex83.thing true "")) :=
  ⟨by decide +kernel, rejected_of_check 60 (by decide +kernel)⟩

/-- **C83**: the same for a path parameter with a collection format. -/
theorem C83_collection_in_path :
    (V30.addOperation V30.ver Ex83.env30 {} (Ex83.context (Ex83.fieldId Ex83.ints false "csv"))).2.2 = .ok ∧
    Rejected (Ex83.doc (Ex83.fieldId Ex83.ints false "csv")) :=
  ⟨by decide +kernel, rejected_of_check 60 (by decide +kernel)⟩

/-- A context whose request body is a reference, with another request unit behind it. -/
def Ex83.referenced : OpCtx V30.OS :=
  { Ex83.context (Ex83.fieldId (Ex83.typed "integer") false "") with
    req := [makeUnit (.value (some (Ex83.input (Ex83.fieldId (Ex83.typed "integer") false ""))))
        [withReference "#/components/requestBodies/Thing"],
      makeUnit (.value none) [withContentType "text/csv"]] }

/-- **C83**: content that is added to a request body after it was made a reference is written beside the reference, and
the document is rejected. -/
theorem C83_content_beside_reference :
    (V30.addOperation V30.ver Ex83.env30 {} Ex83.referenced).2.2 = .ok ∧
    Rejected (V30.addOperation V30.ver Ex83.env30 {} Ex83.referenced).1 :=
  ⟨by decide +kernel, rejected_of_check 60 (by decide +kernel)⟩

/-- A context with a response for a status. -/
def Ex83.answered (status : Int) : OpCtx V30.OS :=
  { Ex83.context (Ex83.fieldId (Ex83.typed "integer") false "") with
    resp := [makeUnit (.value (some Ex83.output)) [withHTTPStatus status]] }

/-- **C83**: a status such as 42 is taken, and the document is rejected. -/
theorem C83_status_out_of_range :
    (V30.addOperation V30.ver Ex83.env30 {} (Ex83.answered 42)).2.2 = .ok ∧
    Rejected (V30.addOperation V30.ver Ex83.env30 {} (Ex83.answered 42)).1 :=
  ⟨by decide +kernel, rejected_of_check 60 (by decide +kernel)⟩

/-- **C83**: so is a path that does not begin with a slash. -/
theorem C83_path_without_slash : (V30.Spec.addOperation (S := V30.OS) {} "GET" "ping" {}).2 = none ∧
    Rejected (V30.Spec.addOperation {} "GET" "ping" {}).1 :=
  ⟨by decide +kernel, rejected_of_check 60 (by decide +kernel)⟩

/-- **C83**: a document with an API key in the path cannot be written. -/
theorem C83_security_place :
    encode V30.table (.named "Spec") (docVal (schemaVal Ex83.lit) (V30.Spec.setAPIKeySecurity {} "key" "id" "path" "")) = none := by
  kernel_rfl

/-- **C83**: a security scheme with a name such as `my scheme` is written, but gone when the document is read. -/
theorem C83_security_name : ∃ j w,
    encode V30.table (.named "Spec") (docVal (schemaVal Ex83.lit) (V30.Spec.setHTTPBasicSecurity {} "my scheme" "")) = some j ∧
    decode V30.table sampleNums (.named "Spec") j = some w ∧
    encode V30.table (.named "Spec") w = some (.obj [("openapi", .str "3.0.3"),
      ("info", .obj [("title", .str ""), ("version", .str "")]), ("paths", .obj []),
      ("components", .obj [("securitySchemes", .obj [])])]) := by
  have h : ((encode V30.table (.named "Spec") (docVal (schemaVal Ex83.lit)
      (V30.Spec.setHTTPBasicSecurity {} "my scheme" ""))).bind (decode V30.table sampleNums (.named "Spec"))).bind
        (encode V30.table (.named "Spec")) = some (.obj [("openapi", .str "3.0.3"),
      ("info", .obj [("title", .str ""), ("version", .str "")]), ("paths", .obj []),
      ("components", .obj [("securitySchemes", .obj [])])]) := by kernel_rfl
  obtain ⟨w, h, h3⟩ := Option.bind_eq_some_iff.1 h
  obtain ⟨j, h1, h2⟩ := Option.bind_eq_some_iff.1 h
  exact ⟨j, w, h1, h2, h3⟩

end Verif
