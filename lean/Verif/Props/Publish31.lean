import Verif.Lemmas.PublishHistory31
import Verif.Lemmas.PublishDoc31
import Verif.Props.Publish30
import Verif.Props.Meta31

/-! Documents built by the 3.1 reflector and the meta-schema of OpenAPI 3.1 (C84). -/

namespace Verif
open Codec Spec Meta31 Conform Pub31
open Pub30 (Rooted Stable operationOk_empty)

/-- **C84**: a document that was built by any sequence of calls with input that is in order is itself in order. -/
theorem C84_in_order {S : Type} {v : Ver S} {Js : Role → JS → Prop} {Sc : Role → S → Prop} (hC : Translates v Js Sc) (d : V31.Spec S)
    (h : Built v Js Sc d) : Published Sc d := published_built hC h

/-- A document without paths, webhooks and components is not accepted. -/
theorem nothing_rejected {env : String → Sem} (hE : Meaning defs31 env) {d : V31.Spec Schema} (ho : d.openapi = "3.1.0")
    (h : ¬ Something d) : ∃ j, encode V31.table (.named "Spec") (docVal d) = some j ∧ ¬ (env "OpenAPI").ok j := by
  obtain ⟨o, t, desc, ver, paths, hooks, sch, sec⟩ := d
  simp only [Something, not_or, Decidable.not_not] at h ho
  obtain ⟨rfl, rfl, rfl, rfl⟩ := h
  subst ho
  have key : ∀ info, ¬ (env "OpenAPI").ok (.obj [("openapi", .str "3.1.0"), ("info", info)]) := by
    intro info hk
    rw [def31 hE (s := mOpenAPI) (by kernel_rfl), mOpenAPI, ok_closed] at hk
    have := hk.1 (.anyOf [.all [.required ["paths"]], .all [.required ["components"]], .all [.required ["webhooks"]]]) (by simp)
    rw [ok_anyOf] at this
    obtain ⟨s, hs, this⟩ := this
    simp only [List.mem_cons, List.not_mem_nil, or_false] at hs
    rcases hs with rfl | rfl | rfl <;>
    · rw [Meta31.ok_required] at this
      simp at this
  cases desc with
  | none =>
    refine ⟨.obj [("openapi", .str "3.1.0"), ("info", .obj [("title", .str t), ("version", .str ver)])], by kernel_rfl, key _⟩
  | some x =>
    refine ⟨.obj [("openapi", .str "3.1.0"), ("info", .obj [("title", .str t), ("description", .str x), ("version", .str ver)])],
      by kernel_rfl, key _⟩

/-- **C84**: a document that is in order can be written, reading it gives the same document, and the meta-schema of
OpenAPI 3.1 accepts what is written exactly if the document has paths, webhooks or components. -/
theorem C84_written (N : Nums) (env : String → Sem) (hE : Meaning defs31 env) (d : V31.Spec Schema)
    (h : Published (SchemaOk N) d) :
    ∃ j w, encode V31.table (.named "Spec") (docVal d) = some j ∧ ((env "OpenAPI").ok j ↔ Something d) ∧
      decode V31.table N (.named "Spec") j = some w ∧ Same (docVal d) w := by
  have hg := good_doc hE h
  obtain ⟨j, w, hj, hw, hs⟩ := C35_roundtrip31 N _ _ hg.writable
  refine ⟨j, w, hj, ⟨fun hk => ?_, fun hd => ?_⟩, hw, hs⟩
  · apply Classical.byContradiction
    intro hd
    obtain ⟨j', hj', hn⟩ := nothing_rejected hE h.openapi hd
    rw [hj] at hj'
    cases hj'
    exact hn hk
  · have := hg.valid hd
    rwa [enc_of hj] at this

/-- **C84**: so whatever the calls, if their input is in order, the document is accepted by the meta-schema of
OpenAPI 3.1, unless there is nothing in it. -/
theorem C84_published (N : Nums) (env : String → Sem) (hE : Meaning defs31 env) (toSimpleMap : JS → Except String Schema)
    (h0 : ∀ format, JsonOk N toSimpleMap .content (stringJS format)) (d : V31.Spec Schema)
    (h : Built (V31.ver toSimpleMap) (JsonOk N toSimpleMap) (SchemaOk N) d) :
    ∃ j w, encode V31.table (.named "Spec") (docVal d) = some j ∧ ((env "OpenAPI").ok j ↔ Something d) ∧
      decode V31.table N (.named "Spec") j = some w ∧ Same (docVal d) w :=
  C84_written N env hE d (C84_in_order (translates31 h0) d h)

/-- **C84**: there is something in a document once an operation or, without error, a webhook was added to it. -/
theorem C84_something {S : Type} (d : V31.Spec S) (method path : String) (op : Operation S) :
    Something (d.addOperation method path op).1 ∧
    ((d.addWebhook method path op).2 = none → Something (d.addWebhook method path op).1) := by
  constructor
  · left
    simp only [V31.Spec.addOperation, V31.Spec.setupOperation]
    repeat' split
    all_goals simp [V31.Spec.pathsEns, V31.Spec.editInPlace]
    all_goals (split <;> simp)
  · intro h
    right; left
    revert h
    simp only [V31.Spec.addWebhook]
    repeat' split
    all_goals first
      | (intro h; cases h; done)
      | exact fun _ => set_ne_nil _ _ _

/-! ## A concrete case -/

namespace Ex84
open Ex83 (typed ints thing toThing)

/-- A stand-in for `ToSimpleMap` that keeps the reference, or the type and the format. -/
def simple : JS → Except String Schema
  | .obj f _ _ _ _ _ _ _ _ _ => .ok (match f.ref with
    | some r => [("$ref", .str r)]
    | none => (match f.type with
      | some (.one t) => [("type", .str t)]
      | some (.many ts) => [("type", .arr (ts.map .str))]
      | none => []) ++ (match f.format with
      | some x => [("format", .str x)]
      | none => []))
  | _ => .error "not a schema"

/-- The path parameter. -/
def fieldId (schema : JS) (object : Bool) (format : String) : PropCall Schema :=
  { processed := true, pathLen := 1, name := "id", schema := schema, inlined := .ok object, collectionFormat := format,
    populate := fun p => .ok { p with description := some "the thing" } }

/-- A query parameter whose values are separated by commas. -/
def fieldTags : PropCall Schema :=
  { processed := true, pathLen := 1, name := "tags", schema := ints, collectionFormat := "csv", isPtr := true,
    populate := fun p => .ok { p with required := some true } }

/-- A query parameter that holds a JSON object. -/
def fieldFilter : PropCall Schema :=
  { processed := true, pathLen := 1, name := "filter", schema := thing, taggedJSON := true,
    inner := ([("Thing", thing)], .ok toThing) }

/-- A response header. -/
def fieldRate (schema : JS) : PropCall Schema :=
  { processed := true, pathLen := 1, name := "X-Rate", schema := schema,
    populateHeader := fun h => .ok { h with description := some "per second" } }

/-- The request: three parameters and a JSON body. -/
def input (id : PropCall Schema) : Value Schema where
  tagged t := t = "json"
  params inn _ := ⟨if inn = "path" then [.prop id] else if inn = "query" then [.prop fieldTags, .prop fieldFilter] else [],
    .ok (.obj {} none [] [] [] none [] [] (some (.bool false)) [])⟩
  body _ _ := ⟨[], .ok (toThing, [("Thing", thing)])⟩

/-- The response. -/
def output (rate : JS) : Value Schema where
  plain := .ok thing
  response := ⟨[.defn "Thing" thing], .ok toThing⟩
  headers _ := ⟨[.prop (fieldRate rate)], .ok (.bool true)⟩

/-- The context of `POST /things/{id}`, with a response for a status and a reference as default. -/
def context (id : PropCall Schema) (rate : JS) (status : Int) : OpCtx Schema where
  method := "post"
  path := "/things/{id}"
  pathParams := ["id"]
  op := { summary := some "change a thing" }
  req := [makeUnit (.value (some (input id))) []]
  resp := [makeUnit (.value (some (output rate))) [withHTTPStatus status],
    makeUnit (.value none) [fun cu => { cu with isDefault := true }, withReference "#/components/responses/Error"]]

/-- The context of a webhook. -/
def hook : OpCtx Schema where
  method := "put"
  path := "thing changed"
  resp := [makeUnit (.value (some (output (typed "integer")))) []]

/-- A schema that accepts everything: a value of type `interface{}`. -/
def anything : JS := .obj {} none [] [] [] none [] [] none []

/-- The context of an operation that responds with anything. -/
def loose : OpCtx Schema where
  method := "get"
  path := "/any"
  resp := [makeUnit (.value (some { plain := .ok anything, response := ⟨[.defn "Any" anything], .ok anything⟩ })) []]

/-- The environment. -/
def env31 : Env Schema := ⟨{}, .ok false, id, fun _ => .ok "{\"type\":\"object\",\"properties\":{}}"⟩

/-- The document after the first call. -/
def first (id : PropCall Schema) (rate : JS) (status : Int) : V31.Spec Schema × Operation Schema × Out :=
  V31.addOperation (V31.ver simple) env31 (V31.Spec.setTitle {} "Things") (context id rate status)

/-- The document. -/
def doc (id : PropCall Schema) (rate : JS) (status : Int) : V31.Spec Schema :=
  ((V31.addWebhook (V31.ver simple) env31 ((first id rate status).1.setHTTPBearerTokenSecurity "admin" "JWT" "") hook).1.addOperation
    "GET" "/ping" {}).1

theorem ok_typed (t : String) {role : Role} : JsonOk jsonNums simple role (typed t) := by
  intro s e
  cases e
  refine ⟨by simp, by simp [Keys], ?_⟩
  simp [Stable, decodeAny]

theorem ok_text {role : Role} (format : String) : JsonOk jsonNums simple role (stringJS format) := by
  intro s e
  simp only [stringJS, simple] at e
  split at e <;> cases e
  · refine ⟨by simp, by simp [Keys], ?_⟩
    intro k a h
    simp only [List.cons_append, List.nil_append, List.mem_cons, Prod.mk.injEq, List.not_mem_nil, or_false] at h
    rcases h with ⟨_, rfl⟩ | ⟨_, rfl⟩ <;> rfl
  · exact ⟨by simp, by simp [Keys], by simp [Stable, decodeAny]⟩

theorem ok_ints {role : Role} : JsonOk jsonNums simple role ints := by
  intro s e
  cases e
  exact ⟨by simp, by simp [Keys], by simp [Stable, decodeAny, decodeAnys]⟩

theorem ok_thing {role : Role} : JsonOk jsonNums simple role thing := by
  intro s e
  cases e
  exact ⟨by simp, by simp [Keys], by simp [Stable, decodeAny]⟩

theorem ok_ref {role : Role} : JsonOk jsonNums simple role toThing := by
  intro s e
  cases e
  exact ⟨by simp, by simp [Keys], by simp [Stable, decodeAny]⟩

theorem name_thing : DefinitionOk (JsonOk jsonNums simple) "Thing" thing := ⟨⟨by decide, by decide⟩, ok_thing⟩

theorem ok_id : ParamFieldOk places (JsonOk jsonNums simple) "path" (fieldId (typed "integer") false "") where
  schema _ := ok_typed _
  content h := by simp [JSONEncoded, fieldId] at h
  style a b h := by simp [collectionStyles, fieldId] at h
  object _ h := by simp [fieldId] at h
  tags p q h e := by
    cases h
    exact ⟨fun _ => ⟨['i'], 'd', by rw [show (_ : String) = "id" from e]; rfl, by decide⟩, rfl, rfl, rfl, .inl rfl,
      fun _ => ⟨rfl, rfl⟩⟩

theorem ok_tags : ParamFieldOk places (JsonOk jsonNums simple) "query" fieldTags where
  schema _ := ok_ints
  content h := by simp [JSONEncoded, fieldTags] at h
  style a b h := by
    simp only [collectionStyles, fieldTags, List.mem_cons, Prod.mk.injEq, List.not_mem_nil, or_false] at h
    refine ⟨?_, by simp [JSONEncoded, fieldTags]⟩
    rcases h with ⟨_, rfl, _⟩ | ⟨e, _⟩ | ⟨e, _⟩ | ⟨e, _⟩
    · decide
    all_goals exact absurd e (by decide)
  object _ h := by simp [fieldTags] at h
  tags p q h _ := by cases h; exact ⟨fun e => absurd e (by decide), rfl, rfl, rfl, .inl rfl, fun _ => ⟨rfl, rfl⟩⟩

theorem ok_filter : ParamFieldOk places (JsonOk jsonNums simple) "query" fieldFilter where
  schema h := absurd (.inr ⟨rfl, rfl⟩) h
  content _ := by
    refine ⟨?_, ?_⟩
    · intro js e; cases e; exact ok_ref
    · intro n d h; cases List.mem_singleton.1 h; exact name_thing
  style a b h := by simp [collectionStyles, fieldFilter] at h
  object h := absurd (.inr ⟨rfl, rfl⟩) h
  tags p q h _ := by cases h; exact ⟨fun e => absurd e (by decide), rfl, rfl, rfl, .inl rfl, fun _ => ⟨rfl, rfl⟩⟩

theorem ok_input : RequestUnitOk places (JsonOk jsonNums simple) env31 "post"
    (makeUnit (.value (some (input (fieldId (typed "integer") false "")))) []) where
  fields inn c h := by
    have : (inn, c) ∈ [("query", fieldTags), ("query", fieldFilter), ("path", fieldId (typed "integer") false "")] := h
    simp only [List.mem_cons, Prod.mk.injEq, List.not_mem_nil, or_false] at this
    rcases this with ⟨rfl, rfl⟩ | ⟨rfl, rfl⟩ | ⟨rfl, rfl⟩
    · exact ok_tags
    · exact ok_filter
    · exact ok_id
  definitions _ _ inn _ n d h := by
    have : Event.defn n d ∈ (if inn = "path" then [Event.prop (fieldId (typed "integer") false "")]
      else if inn = "query" then [.prop fieldTags, .prop fieldFilter] else []) := h
    repeat' split at this
    all_goals simp at this
  form _ _ sch defs h := by
    cases h
    exact ⟨ok_ref, fun n d h => by cases List.mem_singleton.1 h; exact name_thing⟩
  json _ _ sch defs h := by
    cases h
    exact ⟨ok_ref, fun n d h => by cases List.mem_singleton.1 h; exact name_thing⟩

theorem ok_output {method : String} {options : List (ContentUnit Schema → ContentUnit Schema)}
    (hs : (makeUnit (.value (some (output (typed "integer")))) options).structure_ = some (output (typed "integer")))
    (hp : ∀ k, placeOf (makeUnit (.value (some (output (typed "integer")))) options) = some k → StatusKey k)
    (hc : (makeUnit (.value (some (output (typed "integer")))) options).customize = none)
    (hm : (makeUnit (.value (some (output (typed "integer")))) options).fieldMapping "header" = []) :
    ResponseUnitOk (JsonOk jsonNums simple) (SchemaOk jsonNums) StatusKey env31 method
      (makeUnit (.value (some (output (typed "integer")))) options) where
  place := hp
  body value h js e := by have h := h.2.1; rw [hs] at h; cases h; cases e; exact ok_ref
  definitions value h n d hd := by
    have h := h.2.1
    rw [hs] at h
    cases h
    cases List.mem_singleton.1 hd
    exact name_thing
  headers value h c hc := by
    rw [hs] at h
    rw [hm] at hc
    cases h
    have : c ∈ [fieldRate (typed "integer")] := hc
    cases List.mem_singleton.1 this
    exact ⟨ok_typed _, fun h h' e => by cases e; rfl⟩
  customize f h := by rw [hc] at h; cases h

theorem ok_error {method : String} : ResponseUnitOk (JsonOk jsonNums simple) (SchemaOk jsonNums) StatusKey env31 method
    (makeUnit (.value none) [fun cu => { cu with isDefault := true }, withReference "#/components/responses/Error"]) where
  place := (C83_status _).2 (.inl rfl)
  body value h := by cases h.2.1
  definitions value h := by cases h.2.1
  headers value h := by cases h
  customize f h r _ := by cases h; exact .inl ⟨_, rfl, rfl⟩

theorem ok_context : ContextOk places (JsonOk jsonNums simple) (SchemaOk jsonNums) StatusKey env31
    (context (fieldId (typed "integer") false "") (typed "integer") 201) where
  op := ⟨by simp [context], by simp [context], by simp [context], by simp [context, Keys], by simp [context],
    by simp [context, Keys], by simp [context]⟩
  inline := by simp [context]
  req := ⟨ok_input, fun f h => (by cases h), trivial⟩
  resp := by
    intro cu h
    simp only [context, List.mem_cons, List.not_mem_nil, or_false] at h
    rcases h with rfl | rfl
    · exact ok_output rfl ((C83_status _).2 (.inr (.inr (by decide)))) rfl rfl
    · exact ok_error

theorem ok_hook : ContextOk places (JsonOk jsonNums simple) (SchemaOk jsonNums) StatusKey env31 hook where
  op := operationOk_empty
  inline := by simp [hook]
  req := trivial
  resp := by
    intro cu h
    cases List.mem_singleton.1 h
    exact ok_output rfl ((C83_status _).2 (.inr (.inr (by decide)))) rfl rfl

/-- The hypotheses of C84 are met by a document with two operations, a webhook, parameters in path and query, a JSON body,
responses with a header, a reference, a definition and a security scheme. -/
theorem built : Built (V31.ver simple) (JsonOk jsonNums simple) (SchemaOk jsonNums)
    (doc (fieldId (typed "integer") false "") (typed "integer") 201) := by
  refine .add _ _ _ (.reflectWebhook _ _ (.bearer _ _ _ (.reflect _ _ (.title _ .new) ok_context ⟨"things/{id}".toList, rfl⟩)
    ⟨by decide, by decide⟩) ok_hook) ?_ ⟨"ping".toList, rfl⟩
  exact operationOk_empty

theorem ok_anything : JsonOk jsonNums simple .content anything := by
  intro s e
  cases e
  exact ⟨fun e => (by cases e), by simp [Keys], by simp⟩

/-- So are they by a document whose only body has the empty schema, as has its only component. -/
theorem built_loose : Built (V31.ver simple) (JsonOk jsonNums simple) (SchemaOk jsonNums)
    (V31.addOperation (V31.ver simple) env31 {} loose).1 := by
  refine .reflect _ _ .new ⟨operationOk_empty, by simp [loose], trivial, ?_⟩ ⟨"any".toList, rfl⟩
  intro cu h
  cases List.mem_singleton.1 h
  refine ⟨(C83_status _).2 (.inr (.inr (by decide))), ?_, ?_, ?_, ?_⟩
  · intro value h js e; cases h.2.1; cases e; exact ok_anything
  · intro value h n d hd
    cases h.2.1
    cases List.mem_singleton.1 hd
    exact ⟨⟨by decide, by decide⟩, ok_anything⟩
  · intro value h c hc; cases h; cases hc
  · intro f h; cases h

/-- The operations and the webhook are in the document. -/
theorem stored : ((doc (fieldId (typed "integer") false "") (typed "integer") 201).op? "/things/{id}" "post").isSome = true ∧
    ((doc (fieldId (typed "integer") false "") (typed "integer") 201).op? "/ping" "get").isSome = true ∧
    ((doc (fieldId (typed "integer") false "") (typed "integer") 201).webhooks.get? "thing changed").isSome = true := by
  decide +kernel

end Ex84

/-- **C84**, concrete: the example is accepted. -/
theorem C84_case (env : String → Sem) (hE : Meaning defs31 env) : ∃ j,
    encode V31.table (.named "Spec")
      (docVal (Ex84.doc (Ex84.fieldId (Ex83.typed "integer") false "") (Ex83.typed "integer") 201)) = some j ∧
    (env "OpenAPI").ok j := by
  obtain ⟨j, _, h1, h2, _⟩ := C84_published jsonNums env hE Ex84.simple Ex84.ok_text _ Ex84.built
  exact ⟨j, h1, h2.2 (.inl (by decide +kernel))⟩

/-- **C84**, concrete: so is the document with the empty schemas. That of the body is left out. -/
theorem C84_empty_body (env : String → Sem) (hE : Meaning defs31 env) : ∃ j,
    encode V31.table (.named "Spec") (docVal (V31.addOperation (V31.ver Ex84.simple) Ex84.env31 {} Ex84.loose).1) = some j ∧
    (env "OpenAPI").ok j ∧ j = .obj [("openapi", .str "3.1.0"), ("info", .obj [("title", .str ""), ("version", .str "")]),
      ("paths", .obj [("/any", .obj [("get", .obj [("responses", .obj [("200", .obj [("description", .str "OK"),
        ("content", .obj [("application/json", .obj [])])])])])])]),
      ("components", .obj [("schemas", .obj [("Any", .obj [])])])] := by
  obtain ⟨j, _, h1, h2, _⟩ := C84_published jsonNums env hE Ex84.simple Ex84.ok_text _ Ex84.built_loose
  refine ⟨j, h1, h2.2 (.inl (by decide +kernel)), Option.some.inj (h1.symm.trans ?_)⟩
  kernel_rfl

/-! ## What is not in order -/

/-- The document is written, and rejected. -/
def Rejected31 (d : V31.Spec Schema) : Prop :=
  ∃ j, encode V31.table (.named "Spec") (docVal d) = some j ∧ ∀ env, Meaning defs31 env → ¬ (env "OpenAPI").ok j

theorem rejected31_of_check {d : V31.Spec Schema} (r : Nat) (h : (match encode V31.table (.named "Spec") (docVal d) with
    | some j => accepts defs31 r (.ref "OpenAPI") j
    | none => none) = some false) : Rejected31 d := by
  split at h
  · rename_i j hj
    refine ⟨j, hj, fun env hE hv => ?_⟩
    have := (accepts_iff hE h).1 (by simpa only [sem] using hv)
    cases this
  · cases h

/-- **C84**: a path parameter with fields of its own is added without error, but with the style `deepObject` that paths
cannot have, and the document is rejected. -/
theorem C84_object_in_path : (Ex84.first (Ex84.fieldId Ex83.thing true "") (Ex83.typed "integer") 201).2.2 = .ok ∧
    Rejected31 (Ex84.first (Ex84.fieldId Ex83.thing true "") (Ex83.typed "integer") 201).1 :=
  ⟨by decide +kernel, rejected31_of_check 60 (by decide +kernel)⟩

/-- **C84**: the same for a path parameter with a collection format. -/
theorem C84_collection_in_path : (Ex84.first (Ex84.fieldId Ex83.ints false "csv") (Ex83.typed "integer") 201).2.2 = .ok ∧
    Rejected31 (Ex84.first (Ex84.fieldId Ex83.ints false "csv") (Ex83.typed "integer") 201).1 :=
  ⟨by decide +kernel, rejected31_of_check 60 (by decide +kernel)⟩


/-- **C84**: a parameter whose type is `interface{}` has the empty schema, which is left out when the document is written.
The parameter then has neither a schema nor content, and the document is rejected. -/
theorem C84_empty_parameter : (Ex84.first (Ex84.fieldId Ex84.anything false "") (Ex83.typed "integer") 201).2.2 = .ok ∧
    Rejected31 (Ex84.first (Ex84.fieldId Ex84.anything false "") (Ex83.typed "integer") 201).1 :=
  ⟨by decide +kernel, rejected31_of_check 60 (by decide +kernel)⟩

/-- **C84**: the same for a response header. -/
theorem C84_empty_header : (Ex84.first (Ex84.fieldId (Ex83.typed "integer") false "") Ex84.anything 201).2.2 = .ok ∧
    Rejected31 (Ex84.first (Ex84.fieldId (Ex83.typed "integer") false "") Ex84.anything 201).1 :=
  ⟨by decide +kernel, rejected31_of_check 60 (by decide +kernel)⟩

/-- **C84**: a status such as 42 is taken, and the document is rejected. -/
theorem C84_status_out_of_range : (Ex84.first (Ex84.fieldId (Ex83.typed "integer") false "") (Ex83.typed "integer") 42).2.2 = .ok ∧
    Rejected31 (Ex84.first (Ex84.fieldId (Ex83.typed "integer") false "") (Ex83.typed "integer") 42).1 :=
  ⟨by decide +kernel, rejected31_of_check 60 (by decide +kernel)⟩

/-- **C84**: so is a path that does not begin with a slash, -/
theorem C84_path_without_slash : (V31.Spec.addOperation (S := Schema) {} "GET" "ping" {}).2 = none ∧
    Rejected31 (V31.Spec.addOperation {} "GET" "ping" {}).1 :=
  ⟨by decide +kernel, rejected31_of_check 60 (by decide +kernel)⟩

/-- **C84**: and a security scheme with a name such as `my scheme`. -/
theorem C84_security_name : Rejected31 (V31.Spec.setHTTPBasicSecurity {} "my scheme" "") :=
  rejected31_of_check 60 (by decide +kernel)

/-- **C84**: a document with an API key in the path cannot be written. -/
theorem C84_security_place :
    encode V31.table (.named "Spec") (docVal (V31.Spec.setAPIKeySecurity {} "key" "id" "path" "")) = none := by
  kernel_rfl

end Verif
