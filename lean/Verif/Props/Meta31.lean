import Verif.Lemmas.Meta31Eval
import Verif.Lemmas.Meta31Exact
import Verif.Props.Meta30

/-! Which of the documents that the published JSON Schema of OpenAPI 3.1 accepts are read (C82). -/

namespace Verif
open Codec Spec Meta Meta31
open Meta31 (sem Meaning)

/-- **C82**: the meta-schema of 3.1 means something … -/
theorem C82_meaning_exists : ∃ env, Meta31.Meaning defs31 env :=
  Meta31.exists_meaning ranks31 closed31 (by decide +kernel)

/-- **C82**: … and only one thing: which values it accepts, and, of the objects it accepts, which members it evaluates. -/
theorem C82_meaning_unique (env env' : String → Sem) (h : Meta31.Meaning defs31 env) (h' : Meta31.Meaning defs31 env')
    (n : String) (hn : ∃ s, (n, s) ∈ defs31) (j : Any) :
    ((env n).ok j ↔ (env' n).ok j) ∧ ∀ k, (env n).sees j k ↔ (env' n).sees j k :=
  have := Meta31.unique_meaning ranks31 closed31 h h' _ n j hn (Nat.lt_succ_self _)
  ⟨this.okIff, fun _ => this.seesIff⟩

/-- **C82**: a document that the meta-schema of OpenAPI 3.1 accepts, whose keys are not repeated and whose numbers can be
represented, is read exactly if it makes no use of what is not supported. -/
theorem C82_valid_read31 (N : Nums) (env : String → Sem) (hE : Meta31.Meaning defs31 env) (j : Any)
    (hN : ∀ l ∈ literals j, N.f64 l ≠ none) (hd : Distinct j) (h : (env "OpenAPI").ok j) :
    (∃ v, decode V31.table N (.named "Spec") j = some v) ↔ Supported (.named "Spec") j := by
  have ha : tyAgree (.named "Spec") (.ref "OpenAPI") = true := by decide +kernel
  have hok : (sem env (.ref "OpenAPI")).ok j := by simpa only [sem] using h
  constructor
  · rintro ⟨v, hv⟩
    exact supported_of_sound hE ⟨⟨_, ha, hok⟩, by rw [Can, hv]; rfl, hN, hd⟩
  · intro hs
    exact Option.isSome_iff_exists.1 (complete31 hE j _ _ ha ⟨hs, hN, hd⟩ hok)

/-! ## Concrete cases -/

/-- A document with most features of OpenAPI 3.1. -/
def doc31 : Any :=
  .obj [("openapi", .str "3.1.0"), ("info", .obj [("title", .str "Pets"), ("version", .str "1"), ("contact", .obj
  [("name", .str "x")]), ("license", .obj [("name", .str "MIT"), ("identifier", .str "MIT")]), ("x-a", .num
  "1")]), ("servers", .arr [.obj [("url", .str "https://{h}/"), ("variables", .obj [("h", .obj [("default", .str
  "a"), ("enum", .arr [.str "a", .str "b"])])])]]), ("tags", .arr [.obj [("name", .str "t"), ("externalDocs", .obj
  [("url", .str "https://e")])]]), ("security", .arr [.obj [("key", .arr [])]]), ("paths", .obj [("/pets/{id}",
  .obj [("parameters", .arr [.obj [("$ref", .str "#/components/parameters/p")]]), ("get", .obj [("operationId",
  .str "get"), ("tags", .arr [.str "t"]), ("parameters", .arr [.obj [("name", .str "id"), ("in", .str "path"),
  ("required", .bool true), ("schema", .obj [("type", .str "integer"), ("maximum", .num "5")])], .obj [("name",
  .str "q"), ("in", .str "query"), ("style", .str "form"), ("explode", .bool false), ("schema", .obj [])]]),
  ("responses", .obj [("200", .obj [("description", .str "ok"), ("headers", .obj [("X-R", .obj [("schema", .obj
  [("type", .str "string")])])]), ("content", .obj [("application/json", .obj [("schema", .obj [("$ref", .str
  "#/components/schemas/Pet")]), ("examples", .obj [("e", .obj [("$ref", .str "#/components/examples/e")])])])]),
  ("links", .obj [("l", .obj [("operationId", .str "get"), ("parameters", .obj [("id", .str "1")])])])]),
  ("default", .obj [("$ref", .str "#/components/responses/r")])]), ("callbacks", .obj [("cb", .obj
  [("{$request.body#/u}", .obj [("post", .obj [("responses", .obj [("2XX", .obj [("description", .str
  "")])])])])])])]), ("post", .obj [("requestBody", .obj [("content", .obj [("text/plain", .obj [])])]),
  ("security", .arr [])])]), ("x-p", .null)]), ("webhooks", .obj [("w", .obj [("post", .obj [("requestBody", .obj
  [("$ref", .str "#/b")])])])]), ("components", .obj [("schemas", .obj [("Pet", .obj [("type", .arr [.str
  "object", .str "null"]), ("x", .arr [.bool true])])]), ("securitySchemes", .obj [("key", .obj [("type", .str
  "apiKey"), ("name", .str "k"), ("in", .str "header")]), ("basic", .obj [("type", .str "http"), ("scheme", .str
  "basic")]), ("bearer", .obj [("type", .str "http"), ("scheme", .str "Bearer"), ("bearerFormat", .str "JWT")]),
  ("tls", .obj [("type", .str "mutualTLS")]), ("o", .obj [("type", .str "oauth2"), ("flows", .obj [("implicit",
  .obj [("authorizationUrl", .str "https://a"), ("scopes", .obj [("s", .str "x")])])])]), ("oidc", .obj [("type",
  .str "openIdConnect"), ("openIdConnectUrl", .str "https://c")]), ("ref", .obj [("$ref", .str "#/s")])])])]


/-- The conditions of `Supported`. -/
def supportedB (ty : Ty) (j : Any) : Bool :=
  match ty, j with
  | .map .any, .bool _ => false
  | .named "ExampleOrReference", .obj ms => (ms.map Prod.fst).contains "$ref"
  | .named "LinkOrReference", .obj ms => !(ms.map Prod.fst).contains "$ref"
  | .named "PathItemOrReference", .obj ms => !(ms.map Prod.fst).contains "$ref"
  | .named "ResponseOrReference", .obj ms => !(ms.map Prod.fst).contains "$ref" || !(ms.map Prod.fst).contains "description"
  | .named "ParameterStyle", .str t => ["form", "spaceDelimited", "pipeDelimited", "deepObject"].contains t
  | .named "ParameterStyle", _ => false
  | _, _ => true

theorem containsKey_iff {ms : List (String × Any)} {k : String} : (ms.map Prod.fst).contains k = true ↔ Has ms k := by
  rw [List.contains_iff_mem, List.mem_map]
  constructor
  · rintro ⟨⟨k', x⟩, h, rfl⟩; exact ⟨x, h⟩
  · rintro ⟨x, h⟩; exact ⟨_, h, rfl⟩

theorem containsKey_not {ms : List (String × Any)} {k : String} (h : (!(ms.map Prod.fst).contains k) = true) : ¬Has ms k := by
  intro h'
  rw [containsKey_iff.2 h'] at h
  cases h

theorem supported_of_check {r : Nat} {ty : Ty} {j : Any} (h : readsB V31.table supportedB r ty j = true) :
    Supported ty j := by
  refine ⟨?_, ?_, ?_, ?_, ?_, ?_⟩
  · intro b hr
    have := readsB_sound hr r h
    cases this
  · intro ms hr
    exact containsKey_iff.1 (readsB_sound hr r h)
  · intro ms hr
    exact containsKey_not (readsB_sound hr r h)
  · intro ms hr
    exact containsKey_not (readsB_sound hr r h)
  · intro ms hr h1 h2
    have := readsB_sound hr r h
    simp only [supportedB, Bool.or_eq_true] at this
    rcases this with h' | h'
    · exact containsKey_not h' h1
    · exact containsKey_not h' h2
  · intro x hr
    have := readsB_sound hr r h
    cases x with
    | str t => exact ⟨t, List.contains_iff_mem.1 this, rfl⟩
    | _ => cases this

/-- The document meets the hypotheses of C82. -/
theorem C82_case31 (env : String → Sem) (hE : Meta31.Meaning defs31 env) :
    (∀ l ∈ literals doc31, sampleNums.f64 l ≠ none) ∧ Distinct doc31 ∧ (env "OpenAPI").ok doc31 ∧
      Supported (.named "Spec") doc31 := by
  refine ⟨fun l _ => by simp [sampleNums], ?_, ?_, supported_of_check (r := 60) (by decide +kernel)⟩
  · simp [doc31, Distinct, DistinctList, DistinctMembers]
  · have := (accepts_iff hE (r := 60) (s := .ref "OpenAPI") (v := doc31) (b := true) (by decide +kernel)).2 rfl
    simpa only [sem] using this

/-- So it is read. -/
theorem C82_sample_read : ∃ v, decode V31.table sampleNums (.named "Spec") doc31 = some v := by
  obtain ⟨env, hE⟩ := C82_meaning_exists
  obtain ⟨h1, h2, h3, h4⟩ := C82_case31 env hE
  exact (C82_valid_read31 sampleNums env hE doc31 h1 h2 h3).2 h4

/-! ## What is not supported -/

/-- A document with these components. -/
def components31 (kind : String) (x : Any) : Any :=
  .obj [("openapi", .str "3.1.0"), ("info", .obj [("title", .str "t"), ("version", .str "1")]),
    ("components", .obj [(kind, .obj [("a", x)])])]

/-- The documents that `Supported` excludes: a schema that is `true`, an example, references to a link and to a path
item, a reference to a response with a description, and a parameter of style `simple`. -/
def unsupported31 : List Any := [components31 "schemas" (.bool true), components31 "examples" (.obj [("value", .str "v")]),
  components31 "links" (.obj [("$ref", .str "r")]), components31 "pathItems" (.obj [("$ref", .str "r")]),
  components31 "responses" (.obj [("$ref", .str "r"), ("description", .str "d")]),
  components31 "parameters" (.obj [("name", .str "n"), ("in", .str "path"), ("required", .bool true), ("style", .str "simple"),
    ("schema", .obj [])])]

/-- **C82**: each of the exceptions is real: the meta-schema accepts these documents, and they are not read. -/
theorem C82_exceptions (N : Nums) (env : String → Sem) (hE : Meta31.Meaning defs31 env) : ∀ j ∈ unsupported31,
    (env "OpenAPI").ok j ∧ decode V31.table N (.named "Spec") j = none := by
  have ok : ∀ j, accepts defs31 60 (.ref "OpenAPI") j = some true → (env "OpenAPI").ok j := by
    intro j h
    have := (accepts_iff hE h).2 rfl
    simpa only [sem] using this
  simp only [unsupported31, List.forall_mem_cons, List.not_mem_nil, false_imp_iff, implies_true, and_true]
  exact ⟨⟨ok _ (by decide +kernel), by kernel_rfl⟩, ⟨ok _ (by decide +kernel), by kernel_rfl⟩,
    ⟨ok _ (by decide +kernel), by kernel_rfl⟩, ⟨ok _ (by decide +kernel), by kernel_rfl⟩,
    ⟨ok _ (by decide +kernel), by kernel_rfl⟩, ⟨ok _ (by decide +kernel), by kernel_rfl⟩⟩

end Verif
