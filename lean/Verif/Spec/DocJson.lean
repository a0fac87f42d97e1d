import Verif.Spec30
import Verif.Spec31
import Verif.Schema30

/-!
# The JSON of documents

The JSON text of a document, member by member, as OpenAPI names them. Nothing here mentions the Go structs or their
methods. `schema` gives the member for a schema. The members of maps are in the order of the map.
-/

namespace Verif.DocJson
variable {S : Type}

/-- Members of an object. -/
abbrev Members := List (String × Any)

/-- An object from groups of members. -/
def object (groups : List Members) : Any := .obj groups.flatten

/-- A member that is always there. -/
def one (k : String) (x : Any) : Members := [(k, x)]

/-- A member for a value, if there is one. -/
def may {A : Type} (k : String) (f : A → Any) : Option A → Members
  | none => []
  | some a => [(k, f a)]

/-- A member for a list, if it is not empty. -/
def many {A : Type} (k : String) (f : A → Any) : List A → Members
  | [] => []
  | l => [(k, .arr (l.map f))]

/-- The entries of a map as members. -/
def entries {A : Type} (f : A → Any) (m : GoMap A) : Members := m.map (fun p => (p.1, f p.2))

/-- A member for a map, if it is not empty. -/
def table {A : Type} (k : String) (f : A → Any) : GoMap A → Members
  | [] => []
  | m => [(k, .obj (entries f m))]

/-- A reference, or else the value. -/
def refOr {A : Type} (f : A → Any) (ref : Option String) (value : Option A) : Any :=
  match ref, value with
  | some r, _ => object [one "$ref" (.str r)]
  | none, some a => f a
  | none, none => object []

/-- A media type. -/
def media (schema : Option S → Members) (mt : MediaType S) : Any := object [schema mt.schema]

/-- A header. The style is the only one that headers have. -/
def header (schema : Option S → Members) (h : Header S) : Any := object [
  one "style" (.str "simple"),
  may "description" .str h.description,
  may "required" .bool h.required,
  may "deprecated" .bool h.deprecated,
  schema h.schema]

/-- A response. -/
def response (schema : Option S → Members) (r : Response S) : Any := object [
  one "description" (.str r.description),
  table "headers" (fun h => refOr (header schema) h.ref h.header) r.headers,
  table "content" (media schema) r.content]

/-- A request body. -/
def body (schema : Option S → Members) (b : RequestBody S) : Any := object [
  may "description" .str b.description,
  one "content" (.obj (entries (media schema) b.content))]

/-- The responses of an operation. -/
def responses (schema : Option S → Members) (r : Responses S) : Any := object [
  may "default" (fun x => refOr (response schema) x.ref x.response) r.default,
  entries (fun x => refOr (response schema) x.ref x.response) r.codes]

/-- An operation. -/
def operation (schema : Option S → Members) (param : Parameter S → Any) (resp : Members) (op : Operation S) : Any := object [
  many "tags" .str op.tags,
  may "summary" .str op.summary,
  may "description" .str op.description,
  may "operationId" .str op.id,
  many "parameters" (fun p => refOr param p.ref p.param) op.parameters,
  may "requestBody" (fun b => refOr (body schema) b.ref b.body) op.requestBody,
  resp,
  may "deprecated" .bool op.deprecated,
  many "security" (fun p => object [one p.1 (.arr (p.2.map .str))]) op.security,
  entries .bool op.ext]

/-- The information about the document. -/
def info (title : String) (description : Option String) (version : String) : Any := object [
  one "title" (.str title),
  may "description" .str description,
  one "version" (.str version)]

/-! ## 3.0 -/

/-- A parameter in 3.0. -/
def param30 (schema : Option S → Members) (p : Parameter S) : Any := object [
  one "name" (.str p.name),
  one "in" (.str p.inn),
  may "description" .str p.description,
  may "required" .bool p.required,
  may "deprecated" .bool p.deprecated,
  may "style" .str p.style,
  may "explode" .bool p.explode,
  schema p.schema,
  table "content" (media schema) p.content]

/-- An operation in 3.0: responses are always there. -/
def operation30 (schema : Option S → Members) (op : Operation S) : Any :=
  operation schema (param30 schema) (one "responses" (responses schema op.responses)) op

/-- A path item in 3.0. -/
def pathItem30 (schema : Option S → Members) (p : V30.PathItem S) : Any := object [
  may "summary" .str p.summary,
  many "parameters" (fun q => refOr (param30 schema) q.ref q.param) p.parameters,
  entries (operation30 schema) p.ops]

/-- A security scheme in 3.0. -/
def scheme30 : V30.SecScheme → Any
  | .basic d => object [one "type" (.str "http"), one "scheme" (.str "basic"), one "description" (.str d)]
  | .bearer f d => object [one "type" (.str "http"), one "scheme" (.str "bearer"), may "bearerFormat" .str f,
      one "description" (.str d)]
  | .apiKey n i d => object [one "type" (.str "apiKey"), one "name" (.str n), one "in" (.str i), one "description" (.str d)]

/-- A document in 3.0: components are there if there is a schema or a security scheme. -/
def doc30 (schema : S → Any) (d : V30.Spec S) : Any := object [
  one "openapi" (.str d.openapi),
  one "info" (info d.title d.description d.version),
  one "paths" (.obj (entries (pathItem30 (may "schema" schema)) d.paths)),
  if d.schemas = [] ∧ d.security = [] then [] else one "components" (object [
    table "schemas" schema d.schemas,
    table "securitySchemes" scheme30 d.security])]

/-! ## Schemas in 3.0 -/

/-- Additional properties: a boolean or a schema. -/
def additional30 : Option Bool → Option Any → Members
  | some b, _ => one "additionalProperties" (.bool b)
  | none, o => may "additionalProperties" id o

mutual
/-- A schema in 3.0. `lit` prints a `float64`. -/
def schema30 (lit : F64 → String) : V30.OS → Any
  | .empty => object []
  | .ref r => object [one "$ref" (.str r)]
  | .schema f not allOf oneOf anyOf items props addlBool addl => object [
      may "title" .str f.title,
      may "multipleOf" (fun x => .num (lit x)) f.multipleOf,
      may "maximum" (fun x => .num (lit x)) f.maximum,
      may "exclusiveMaximum" .bool f.exclusiveMaximum,
      may "minimum" (fun x => .num (lit x)) f.minimum,
      may "exclusiveMinimum" .bool f.exclusiveMinimum,
      may "maxLength" (fun i => .num (toString i)) f.maxLength,
      may "minLength" (fun i => .num (toString i)) f.minLength,
      may "pattern" .str f.pattern,
      may "maxItems" (fun i => .num (toString i)) f.maxItems,
      may "minItems" (fun i => .num (toString i)) f.minItems,
      may "uniqueItems" .bool f.uniqueItems,
      may "maxProperties" (fun i => .num (toString i)) f.maxProperties,
      may "minProperties" (fun i => .num (toString i)) f.minProperties,
      many "required" .str f.required,
      many "enum" id f.enum,
      may "type" .str f.type,
      may "not" id (schemaOpt30 lit not),
      many "allOf" id (schemas30 lit allOf),
      many "oneOf" id (schemas30 lit oneOf),
      many "anyOf" id (schemas30 lit anyOf),
      may "items" id (schemaOpt30 lit items),
      table "properties" id (props30 lit props),
      additional30 addlBool (schemaOpt30 lit addl),
      may "description" .str f.description,
      may "format" .str f.format,
      may "default" id f.default,
      may "nullable" .bool f.nullable,
      may "readOnly" .bool f.readOnly,
      may "writeOnly" .bool f.writeOnly,
      may "example" id f.example_,
      may "deprecated" .bool f.deprecated,
      entries id f.ext]
/-- A schema that may be missing. -/
def schemaOpt30 (lit : F64 → String) : Option V30.OS → Option Any
  | none => none
  | some s => some (schema30 lit s)
/-- The schemas of a list. -/
def schemas30 (lit : F64 → String) : List V30.OS → List Any
  | [] => []
  | s :: ss => schema30 lit s :: schemas30 lit ss
/-- Properties. -/
def props30 (lit : F64 → String) : List (String × V30.OS) → Members
  | [] => []
  | (k, s) :: ss => (k, schema30 lit s) :: props30 lit ss
end

/-! ## 3.1 -/

/-- A parameter in 3.1. -/
def param31 (schema : Option S → Members) (p : Parameter S) : Any := object [
  one "name" (.str p.name),
  one "in" (.str p.inn),
  may "description" .str p.description,
  may "required" .bool p.required,
  may "deprecated" .bool p.deprecated,
  schema p.schema,
  table "content" (media schema) p.content,
  may "style" .str p.style,
  may "explode" .bool p.explode]

/-- An operation in 3.1: responses are there if there is one. -/
def operation31 (schema : Option S → Members) (op : Operation S) : Any :=
  operation schema (param31 schema) (if op.responses.default = none ∧ op.responses.codes = [] then [] else
    one "responses" (responses schema op.responses)) op

/-- A path item in 3.1. -/
def pathItem31 (schema : Option S → Members) (p : V31.PathItem S) : Any := object [
  may "summary" .str p.summary,
  many "parameters" (fun q => refOr (param31 schema) q.ref q.param) p.parameters,
  may "get" (operation31 schema) p.get,
  may "put" (operation31 schema) p.put,
  may "post" (operation31 schema) p.post,
  may "delete" (operation31 schema) p.delete,
  may "options" (operation31 schema) p.options,
  may "head" (operation31 schema) p.head,
  may "patch" (operation31 schema) p.patch,
  may "trace" (operation31 schema) p.trace]

/-- A security scheme in 3.1. -/
def scheme31 : V31.SecScheme → Any
  | .basic d => object [one "description" (.str d), one "type" (.str "http"), one "scheme" (.str "basic")]
  | .bearer f d => object [one "description" (.str d), one "type" (.str "http"), one "scheme" (.str "bearer"),
      may "bearerFormat" .str f]
  | .apiKey n i d => object [one "description" (.str d), one "type" (.str "apiKey"), one "name" (.str n), one "in" (.str i)]

/-- The member for a schema in 3.1: one without keywords is left out. -/
def schema31 : Option (GoMap Any) → Members
  | none => []
  | some s => table "schema" id s

/-- A document in 3.1. Schemas are the maps of their keywords. -/
def doc31 (d : V31.Spec (GoMap Any)) : Any := object [
  one "openapi" (.str d.openapi),
  one "info" (info d.title d.description d.version),
  may "paths" (fun m => .obj (entries (pathItem31 schema31) m)) d.paths,
  table "webhooks" (pathItem31 schema31) d.webhooks,
  if d.schemas = [] ∧ d.security = [] then [] else one "components" (object [
    table "schemas" .obj d.schemas,
    table "securitySchemes" scheme31 d.security])]

end Verif.DocJson
