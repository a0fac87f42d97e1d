import Verif.Spec30
import Verif.Spec.Conform
import Verif.Spec.RoundTrip

/-!
# The Go values of 3.0 documents

`docVal` gives the Go value of a document of the model (`Verif.Spec30`): the fields that the model leaves out are nil.
`Published` says what OpenAPI 3.0 demands of a document.
-/

namespace Verif.Pub30
open Codec Spec Conform

variable {S : Type}

/-- A value of a struct type: these fields, the others nil. -/
def fill (s : Struct) (l : List (String × Val)) : Val := structOf s (fun go => (GoMap.get? l go).getD .nil)

/-- A pointer. -/
def opt {A : Type} (f : A → Val) : Option A → Val
  | none => .nil
  | some a => f a

/-- A map; one without entries is nil. -/
def mapVal {A : Type} (f : A → Val) : GoMap A → Val
  | [] => .nil
  | m => .map (m.map (fun p => (p.1, f p.2)))

/-- A slice; one without elements is nil. -/
def listVal {A : Type} (f : A → Val) : List A → Val
  | [] => .nil
  | l => .list (l.map f)

/-- `MediaType`, `/repo/openapi3/entities.go:2517-2523`. -/
def mediaVal (sv : S → Val) (mt : MediaType S) : Val := fill V30.sMediaType [("Schema", opt sv mt.schema)]

/-- A struct that is a reference (field `refGo` of type `refTy`) or a value (field `go`). -/
def refOrVal {A : Type} (s refS : Struct) (refGo go : String) (f : A → Val) (ref : Option String) (value : Option A) : Val :=
  fill s [(refGo, opt (fun r => fill refS [("Ref", .str r)]) ref), (go, opt f value)]

/-- `Parameter`, `/repo/openapi3/entities.go:1377-1394`. -/
def paramVal (sv : S → Val) (p : Parameter S) : Val :=
  fill V30.sParameter [("Name", .str p.name), ("In", .str p.inn), ("Description", opt .str p.description),
    ("Required", opt .bool p.required), ("Deprecated", opt .bool p.deprecated), ("Style", opt .str p.style),
    ("Explode", opt .bool p.explode), ("Schema", opt sv p.schema), ("Content", mapVal (mediaVal sv) p.content)]

/-- `Header`, `/repo/openapi3/entities.go:3048-3060`. -/
def headerVal (sv : S → Val) (h : Header S) : Val :=
  fill V30.sHeader [("Description", opt .str h.description), ("Required", opt .bool h.required),
    ("Deprecated", opt .bool h.deprecated), ("Schema", opt sv h.schema)]

/-- `HeaderOrRef`, `/repo/openapi3/entities.go:4851-4854`. -/
def headerOrRefVal (sv : S → Val) (h : HeaderOrRef S) : Val :=
  refOrVal V30.sHeaderOrRef V30.sHeaderReference "HeaderReference" "Header" (headerVal sv) h.ref h.header

/-- `Response`, `/repo/openapi3/entities.go:4616-4622`. -/
def responseVal (sv : S → Val) (r : Response S) : Val :=
  fill V30.sResponse [("Description", .str r.description), ("Headers", mapVal (headerOrRefVal sv) r.headers),
    ("Content", mapVal (mediaVal sv) r.content)]

/-- `ResponseOrRef`, `/repo/openapi3/entities.go:5290-5293`. -/
def responseOrRefVal (sv : S → Val) (r : ResponseOrRef S) : Val :=
  refOrVal V30.sResponseOrRef V30.sResponseReference "ResponseReference" "Response" (responseVal sv) r.ref r.response

/-- `RequestBody`, `/repo/openapi3/entities.go:4194-4199`. -/
def bodyVal (sv : S → Val) (b : RequestBody S) : Val :=
  fill V30.sRequestBody [("Description", opt .str b.description), ("Content", mapVal (mediaVal sv) b.content)]

/-- `RequestBodyOrRef`, `/repo/openapi3/entities.go:4333-4336`. -/
def bodyOrRefVal (sv : S → Val) (b : RequestBodyOrRef S) : Val :=
  refOrVal V30.sRequestBodyOrRef V30.sRequestBodyReference "RequestBodyReference" "RequestBody" (bodyVal sv) b.ref b.body

/-- `ParameterOrRef`, `/repo/openapi3/entities.go:3828-3831`. -/
def paramOrRefVal (sv : S → Val) (p : ParamOrRef S) : Val :=
  refOrVal V30.sParameterOrRef V30.sParameterReference "ParameterReference" "Parameter" (paramVal sv) p.ref p.param

/-- `Responses`, `/repo/openapi3/entities.go:4404-4408`. -/
def responsesVal (sv : S → Val) (r : Responses S) : Val :=
  fill V30.sResponses [("Default", opt (responseOrRefVal sv) r.default),
    ("MapOfResponseOrRefValues", mapVal (responseOrRefVal sv) r.codes)]

/-- `map[string][]string{name: scopes}` with scopes that are not nil, `/repo/openapi3/reflect.go:136-142`. -/
def securityVal (p : String × List String) : Val := .map [(p.1, .list (p.2.map .str))]

/-- `Operation`, `/repo/openapi3/entities.go:3899-3913`. -/
def operationVal (sv : S → Val) (op : Operation S) : Val :=
  fill V30.sOperation [("Tags", listVal .str op.tags), ("Summary", opt .str op.summary),
    ("Description", opt .str op.description), ("ID", opt .str op.id), ("Parameters", listVal (paramOrRefVal sv) op.parameters),
    ("RequestBody", opt (bodyOrRefVal sv) op.requestBody), ("Responses", responsesVal sv op.responses),
    ("Deprecated", opt .bool op.deprecated), ("Security", listVal securityVal op.security),
    ("MapOfAnything", mapVal (fun b => .any (.bool b)) op.ext)]

/-- `PathItem`, `/repo/openapi3/entities.go:1142-1150`. -/
def pathItemVal (sv : S → Val) (p : V30.PathItem S) : Val :=
  fill V30.sPathItem [("Summary", opt .str p.summary), ("Parameters", listVal (paramOrRefVal sv) p.parameters),
    ("MapOfOperationValues", mapVal (operationVal sv) p.ops)]

/-- `SecuritySchemeOrRef` as the helpers set it, `/repo/openapi3/helper.go:168-212`. -/
def schemeVal (s : V30.SecScheme) : Val :=
  fill V30.sSecuritySchemeOrRef [("SecurityScheme", match s with
    | .basic d => fill V30.sSecurityScheme [("HTTPSecurityScheme", fill V30.sHTTPSecurityScheme
        [("Scheme", .str "basic"), ("Description", .str d)])]
    | .bearer f d => fill V30.sSecurityScheme [("HTTPSecurityScheme", fill V30.sHTTPSecurityScheme
        [("Scheme", .str "bearer"), ("BearerFormat", opt .str f), ("Description", .str d)])]
    | .apiKey n i d => fill V30.sSecurityScheme [("APIKeySecurityScheme", fill V30.sAPIKeySecurityScheme
        [("Name", .str n), ("In", .str i), ("Description", .str d)])])]

/-- A pointer to a struct that holds nothing but a map; made together with the first entry. -/
def mapStruct {A : Type} (s : Struct) (go : String) (f : A → Val) : GoMap A → Val
  | [] => .nil
  | m => fill s [(go, mapVal f m)]

/-- `Spec`, `/repo/openapi3/entities.go:17-29`. Components are made together with the first schema or security scheme. -/
def docVal (sv : S → Val) (d : V30.Spec S) : Val :=
  fill V30.sSpec [("Openapi", .str d.openapi),
    ("Info", fill V30.sInfo [("Title", .str d.title), ("Description", opt .str d.description), ("Version", .str d.version)]),
    ("Paths", fill V30.sPaths [("MapOfPathItemValues", mapVal (pathItemVal sv) d.paths)]),
    ("Components", if d.schemas = [] ∧ d.security = [] then .nil else fill V30.sComponents [
      ("Schemas", mapStruct V30.sComponentsSchemas "MapOfSchemaOrRefValues" sv d.schemas),
      ("SecuritySchemes", mapStruct V30.sComponentsSecuritySchemes "MapOfSecuritySchemeOrRefValues" schemeVal d.security)])]

/-- Parameters in 3.0: any name. -/
def places : Places := ⟨styles, fun _ _ => True⟩

/-- The HTTP methods. -/
def methods : List String := ["get", "put", "post", "delete", "options", "head", "patch", "trace"]

/-- What OpenAPI 3.0 demands of a document. -/
structure Published (Sc : Role → S → Prop) (d : V30.Spec S) : Prop where
  pathKeys : Keys d.paths
  paths : ∀ k p, (k, p) ∈ d.paths → ['/'] <+: k.toList ∧ Keys p.ops ∧
    (∀ q ∈ p.parameters, RefOr (ParamOk places Sc) q.ref q.param) ∧
    ∀ m op, (m, op) ∈ p.ops → m ∈ methods ∧ OperationOk places Sc StatusKey op
  schemaKeys : Keys d.schemas
  schemas : ∀ k s, (k, s) ∈ d.schemas → IsName k ∧ Sc .content s
  securityKeys : Keys d.security
  security : ∀ k s, (k, s) ∈ d.security → IsName k ∧
    ∀ n i t, s = .apiKey n i t → i ∈ ["header", "query", "cookie"]

end Verif.Pub30
