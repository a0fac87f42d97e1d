import Verif.Spec31
import Verif.Spec.ConformInput
import Verif.Spec.PublishHistory30
import Verif.Spec.Meta31

/-!
# The Go values of 3.1 documents

`docVal` gives the Go value of a document of the model (`Verif.Spec31`): the fields that the model leaves out are nil. In
3.1 a schema is a `map[string]interface{}`. `Published` says what OpenAPI 3.1 demands of a document, and `Built` says how
documents are built.
-/

namespace Verif.Pub31
open Codec Spec Conform
open Pub30 (fill opt mapVal listVal refOrVal securityVal Stable Rooted)

/-- A schema: what jsonschema-go's `ToSimpleMap` returns. -/
abbrev Schema := GoMap Any

/-- A schema as a Go value, `map[string]interface{}`. -/
def schemaVal (s : Schema) : Val := .map (s.map (fun p => (p.1, .any p.2)))

/-- `MediaType`, `/repo/openapi31/entities.go:1413-1419`. -/
def mediaVal (mt : MediaType Schema) : Val := fill V31.sMediaType [("Schema", opt schemaVal mt.schema)]

/-- `Parameter`, `/repo/openapi31/entities.go:1190-1203`. -/
def paramVal (p : Parameter Schema) : Val :=
  fill V31.sParameter [("Name", .str p.name), ("In", .str p.inn), ("Description", opt .str p.description),
    ("Required", opt .bool p.required), ("Deprecated", opt .bool p.deprecated), ("Schema", opt schemaVal p.schema),
    ("Content", mapVal mediaVal p.content), ("Style", opt .str p.style), ("Explode", opt .bool p.explode)]

/-- `Header`, `/repo/openapi31/entities.go:1619-1629`. -/
def headerVal (h : Header Schema) : Val :=
  fill V31.sHeader [("Description", opt .str h.description), ("Required", opt .bool h.required),
    ("Deprecated", opt .bool h.deprecated), ("Schema", opt schemaVal h.schema)]

/-- `HeaderOrReference`, `/repo/openapi31/entities.go:2025-2028`. -/
def headerOrRefVal (h : HeaderOrRef Schema) : Val :=
  refOrVal V31.sHeaderOrReference V31.sReference "Reference" "Header" headerVal h.ref h.header

/-- `Response`, `/repo/openapi31/entities.go:2928-2934`. -/
def responseVal (r : Response Schema) : Val :=
  fill V31.sResponse [("Description", .str r.description), ("Headers", mapVal headerOrRefVal r.headers),
    ("Content", mapVal mediaVal r.content)]

/-- `ResponseOrReference`, `/repo/openapi31/entities.go:3317-3320`. -/
def responseOrRefVal (r : ResponseOrRef Schema) : Val :=
  refOrVal V31.sResponseOrReference V31.sReference "Reference" "Response" responseVal r.ref r.response

/-- `RequestBody`, `/repo/openapi31/entities.go:2592-2597`. -/
def bodyVal (b : RequestBody Schema) : Val :=
  fill V31.sRequestBody [("Description", opt .str b.description), ("Content", mapVal mediaVal b.content)]

/-- `RequestBodyOrReference`, `/repo/openapi31/entities.go:2721-2724`. -/
def bodyOrRefVal (b : RequestBodyOrRef Schema) : Val :=
  refOrVal V31.sRequestBodyOrReference V31.sReference "Reference" "RequestBody" bodyVal b.ref b.body

/-- `ParameterOrReference`, `/repo/openapi31/entities.go:2191-2194`. -/
def paramOrRefVal (p : ParamOrRef Schema) : Val :=
  refOrVal V31.sParameterOrReference V31.sReference "Reference" "Parameter" paramVal p.ref p.param

/-- `*Responses`, `/repo/openapi31/entities.go:2792-2796`; nil while there is no response. -/
def responsesVal (r : Responses Schema) : Val :=
  if r.default = none ∧ r.codes = [] then .nil else
  fill V31.sResponses [("Default", opt responseOrRefVal r.default),
    ("MapOfResponseOrReferenceValues", mapVal responseOrRefVal r.codes)]

/-- `Operation`, `/repo/openapi31/entities.go:2262-2276`. -/
def operationVal (op : Operation Schema) : Val :=
  fill V31.sOperation [("Tags", listVal .str op.tags), ("Summary", opt .str op.summary),
    ("Description", opt .str op.description), ("ID", opt .str op.id), ("Parameters", listVal paramOrRefVal op.parameters),
    ("RequestBody", opt bodyOrRefVal op.requestBody), ("Responses", responsesVal op.responses),
    ("Deprecated", opt .bool op.deprecated), ("Security", listVal securityVal op.security),
    ("MapOfAnything", mapVal (fun b => .any (.bool b)) op.ext)]

/-- `PathItem`, `/repo/openapi31/entities.go:876-890`. -/
def pathItemVal (p : V31.PathItem Schema) : Val :=
  fill V31.sPathItem [("Summary", opt .str p.summary), ("Parameters", listVal paramOrRefVal p.parameters),
    ("Get", opt operationVal p.get), ("Put", opt operationVal p.put), ("Post", opt operationVal p.post),
    ("Delete", opt operationVal p.delete), ("Options", opt operationVal p.options), ("Head", opt operationVal p.head),
    ("Patch", opt operationVal p.patch), ("Trace", opt operationVal p.trace)]

/-- `PathItemOrReference` as `AddWebhook` sets it, `/repo/openapi31/helper.go:209-215`. -/
def webhookVal (p : V31.PathItem Schema) : Val := fill V31.sPathItemOrReference [("PathItem", pathItemVal p)]

/-- `SecuritySchemeOrReference` as the helpers set it, `/repo/openapi31/helper.go:264-306`. -/
def schemeVal (s : V31.SecScheme) : Val :=
  fill V31.sSecuritySchemeOrReference [("SecurityScheme", match s with
    | .basic d => fill V31.sSecurityScheme [("HTTP", fill V31.sSecuritySchemeHTTP [("Scheme", .str "basic")]),
        ("Description", .str d)]
    | .bearer f d => fill V31.sSecurityScheme [("HTTPBearer", fill V31.sSecuritySchemeHTTPBearer
        [("Scheme", .str "bearer"), ("BearerFormat", opt .str f)]), ("Description", .str d)]
    | .apiKey n i d => fill V31.sSecurityScheme [("APIKey", fill V31.sSecuritySchemeAPIKey
        [("Name", .str n), ("In", .str i)]), ("Description", .str d)])]

/-- `Spec`, `/repo/openapi31/entities.go:17-31`. Components are made together with the first schema or security scheme. -/
def docVal (d : V31.Spec Schema) : Val :=
  fill V31.sSpec [("Openapi", .str d.openapi),
    ("Info", fill V31.sInfo [("Title", .str d.title), ("Description", opt .str d.description), ("Version", .str d.version)]),
    ("Paths", opt (fun m => fill V31.sPaths [("MapOfPathItemValues", mapVal pathItemVal m)]) d.paths),
    ("Webhooks", mapVal webhookVal d.webhooks),
    ("Components", if d.schemas = [] ∧ d.security = [] then .nil else fill V31.sComponents [
      ("Schemas", mapVal schemaVal d.schemas), ("SecuritySchemes", mapVal schemeVal d.security)])]

/-- The styles of a parameter in 3.1 by its place, of those that the package has. -/
def styles : String → List String
  | "query" => ["form", "spaceDelimited", "pipeDelimited", "deepObject"]
  | "cookie" => ["form"]
  | _ => []

/-- Parameters in 3.1: the name of one in the path has a last character, which is not `/`, `#` or `?`. -/
def places : Places := ⟨styles, fun inn name => inn = "path" → ∃ start c, name.toList = start ++ [c] ∧ c ∉ ['/', '#', '?']⟩

/-- A schema that can be written. That of a parameter or a header must not be empty, since maps without entries are left
out. -/
structure SchemaOk (N : Nums) (role : Role) (s : Schema) : Prop where
  some : role = .value → s ≠ []
  keys : Keys s
  values : ∀ k a, (k, a) ∈ s → Stable N a

/-- The operations of a path item. -/
def ops {S : Type} (p : V31.PathItem S) : List (Option (Operation S)) :=
  [p.get, p.put, p.post, p.delete, p.options, p.head, p.patch, p.trace]

/-- A path item. -/
structure ItemOk {S : Type} (Sc : Role → S → Prop) (p : V31.PathItem S) : Prop where
  parameters : ∀ q ∈ p.parameters, RefOr (ParamOk places Sc) q.ref q.param
  ops : ∀ op, some op ∈ ops p → OperationOk places Sc StatusKey op

/-- What OpenAPI 3.1 demands of a document. -/
structure Published {S : Type} (Sc : Role → S → Prop) (d : V31.Spec S) : Prop where
  openapi : d.openapi = "3.1.0"
  pathKeys : ∀ m, d.paths = some m → Keys m
  paths : ∀ m, d.paths = some m → ∀ k p, (k, p) ∈ m → ['/'] <+: k.toList ∧ ItemOk Sc p
  webhookKeys : Keys d.webhooks
  webhooks : ∀ k p, (k, p) ∈ d.webhooks → ItemOk Sc p
  schemaKeys : Keys d.schemas
  schemas : ∀ k s, (k, s) ∈ d.schemas → IsName k ∧ Sc .content s
  securityKeys : Keys d.security
  security : ∀ k s, (k, s) ∈ d.security → IsName k ∧
    ∀ n i t, s = .apiKey n i t → i ∈ ["header", "query", "cookie"]

/-- A document has paths, webhooks or components. -/
def Something {S : Type} (d : V31.Spec S) : Prop := d.paths ≠ none ∨ d.webhooks ≠ [] ∨ d.schemas ≠ [] ∨ d.security ≠ []

/-- Documents built from the empty one by calls with input that is in order. Calls may fail, and fields that hold plain
text may be set to anything. -/
inductive Built {S : Type} (v : Ver S) (Js : Role → JS → Prop) (Sc : Role → S → Prop) : V31.Spec S → Prop
  | new : Built v Js Sc {}
  | title {d} (t : String) : Built v Js Sc d → Built v Js Sc (d.setTitle t)
  | description {d} (t : String) : Built v Js Sc d → Built v Js Sc (d.setDescription t)
  | version {d} (t : String) : Built v Js Sc d → Built v Js Sc (d.setVersion t)
  /-- `Reflector.NewOperationContext`, which leaves an empty map of paths behind (`/repo/openapi31/reflect.go:57`) -/
  | context {d} : Built v Js Sc d → Built v Js Sc d.pathsEns
  /-- `Reflector.AddOperation` -/
  | reflect {d} (env : Env S) (oc : OpCtx S) : Built v Js Sc d → ContextOk places Js Sc StatusKey env oc →
      Rooted oc.path → Built v Js Sc (V31.addOperation v env d oc).1
  /-- `Reflector.AddWebhook` -/
  | reflectWebhook {d} (env : Env S) (oc : OpCtx S) : Built v Js Sc d → ContextOk places Js Sc StatusKey env oc →
      Built v Js Sc (V31.addWebhook v env d oc).1
  /-- `Spec.AddOperation` -/
  | add {d} (method path : String) (op : Operation S) : Built v Js Sc d → OperationOk places Sc StatusKey op →
      Rooted path → Built v Js Sc (d.addOperation method path op).1
  /-- `Spec.AddWebhook` -/
  | webhook {d} (method name : String) (op : Operation S) : Built v Js Sc d → OperationOk places Sc StatusKey op →
      Built v Js Sc (d.addWebhook method name op).1
  /-- `Spec.SetupOperation` -/
  | setup {d} (method path : String) (fs : List (Setup S)) : Built v Js Sc d →
      (∀ f ∈ fs, ∀ op, OperationOk places Sc StatusKey op → OperationOk places Sc StatusKey (f op).1) →
      Rooted path → Built v Js Sc (d.setupOperation method path fs).1
  | basic {d} (name text : String) : Built v Js Sc d → IsName name → Built v Js Sc (d.setHTTPBasicSecurity name text)
  | bearer {d} (name format text : String) : Built v Js Sc d → IsName name →
      Built v Js Sc (d.setHTTPBearerTokenSecurity name format text)
  | apiKey {d} (name field place text : String) : Built v Js Sc d → IsName name → place ∈ ["header", "query", "cookie"] →
      Built v Js Sc (d.setAPIKeySecurity name field place text)

/-- A JSON Schema that, if it is converted at all, becomes a schema that can be written. -/
def JsonOk (N : Nums) (toSimpleMap : JS → Except String Schema) (role : Role) (j : JS) : Prop :=
  ∀ s, toSimpleMap j = .ok s → SchemaOk N role s

end Verif.Pub31
