import Verif.Entities
import Verif.Codec.Basic

/-!
# What reading and writing documents should do

Lists of key names, written from the OpenAPI specifications 3.0.3 and 3.1.0, and the notions the statements
about the codecs need. Nothing here looks at the descriptions of the generated code.
-/

namespace Verif.Spec

/-- A specification extension: the key starts with `x-`. -/
def IsExtension (k : String) : Prop := ∃ rest, k = "x-" ++ rest

/-- The key starts with a slash. -/
def IsPath (k : String) : Prop := ∃ rest, k = "/" ++ rest

/-- A status code or a range of status codes: `200`, `4XX`. -/
def IsStatus (k : String) : Prop :=
  ∃ a b c, k = String.ofList [a, b, c] ∧ a ∈ "12345".toList ∧
    ((b ∈ "0123456789".toList ∧ c ∈ "0123456789".toList) ∨ (b = 'X' ∧ c = 'X'))

/-- Kinds of keys that are not fixed names. -/
inductive Kind where
  | extension
  | path
  | status
deriving DecidableEq

/-- The keys of a kind. -/
def Kind.Is : Kind → String → Prop
  | .extension => IsExtension
  | .path => IsPath
  | .status => IsStatus

/-- An entity type, the fixed keys it may have, and the kinds of other keys it may have. -/
structure Closed where
  name : String
  keys : List String
  kinds : List Kind

/-- The entities of OpenAPI 3.0 that allow no other keys. -/
def closed30 : List Closed := [
  ⟨"Spec", ["openapi", "info", "servers", "paths", "components", "security", "tags", "externalDocs"], [.extension]⟩,
  ⟨"Info", ["title", "description", "termsOfService", "contact", "license", "version"], [.extension]⟩,
  ⟨"Contact", ["name", "url", "email"], [.extension]⟩,
  ⟨"License", ["name", "url"], [.extension]⟩,
  ⟨"Server", ["url", "description", "variables"], [.extension]⟩,
  ⟨"ServerVariable", ["enum", "default", "description"], [.extension]⟩,
  ⟨"Components", ["schemas", "responses", "parameters", "examples", "requestBodies", "headers", "securitySchemes",
    "links", "callbacks"], [.extension]⟩,
  ⟨"Paths", [], [.path, .extension]⟩,
  ⟨"PathItem", ["$ref", "summary", "description", "get", "put", "post", "delete", "options", "head", "patch", "trace",
    "servers", "parameters"], [.extension]⟩,
  ⟨"Operation", ["tags", "summary", "description", "externalDocs", "operationId", "parameters", "requestBody",
    "responses", "callbacks", "deprecated", "security", "servers"], [.extension]⟩,
  ⟨"ExternalDocumentation", ["description", "url"], [.extension]⟩,
  ⟨"Parameter", ["name", "in", "description", "required", "deprecated", "allowEmptyValue", "style", "explode",
    "allowReserved", "schema", "example", "examples", "content"], [.extension]⟩,
  ⟨"RequestBody", ["description", "content", "required"], [.extension]⟩,
  ⟨"MediaType", ["schema", "example", "examples", "encoding"], [.extension]⟩,
  ⟨"Encoding", ["contentType", "headers", "style", "explode", "allowReserved"], [.extension]⟩,
  ⟨"Responses", ["default"], [.status, .extension]⟩,
  ⟨"Response", ["description", "headers", "content", "links"], [.extension]⟩,
  ⟨"Example", ["summary", "description", "value", "externalValue"], [.extension]⟩,
  ⟨"Link", ["operationRef", "operationId", "parameters", "requestBody", "description", "server"], [.extension]⟩,
  ⟨"Header", ["description", "required", "deprecated", "allowEmptyValue", "style", "explode", "allowReserved",
    "schema", "example", "examples", "content"], [.extension]⟩,
  ⟨"Tag", ["name", "description", "externalDocs"], [.extension]⟩,
  ⟨"Schema", ["title", "multipleOf", "maximum", "exclusiveMaximum", "minimum", "exclusiveMinimum", "maxLength",
    "minLength", "pattern", "maxItems", "minItems", "uniqueItems", "maxProperties", "minProperties", "required",
    "enum", "type", "allOf", "oneOf", "anyOf", "not", "items", "properties", "additionalProperties", "description",
    "format", "default", "nullable", "discriminator", "readOnly", "writeOnly", "xml", "externalDocs", "example",
    "deprecated"], [.extension]⟩,
  ⟨"XML", ["name", "namespace", "prefix", "attribute", "wrapped"], [.extension]⟩,
  ⟨"APIKeySecurityScheme", ["type", "description", "name", "in"], [.extension]⟩,
  ⟨"HTTPSecurityScheme", ["type", "description", "scheme", "bearerFormat"], [.extension]⟩,
  ⟨"OAuth2SecurityScheme", ["type", "description", "flows"], [.extension]⟩,
  ⟨"OpenIDConnectSecurityScheme", ["type", "description", "openIdConnectUrl"], [.extension]⟩,
  ⟨"OAuthFlows", ["implicit", "password", "clientCredentials", "authorizationCode"], [.extension]⟩,
  ⟨"ImplicitOAuthFlow", ["authorizationUrl", "refreshUrl", "scopes"], [.extension]⟩,
  ⟨"PasswordOAuthFlow", ["tokenUrl", "refreshUrl", "scopes"], [.extension]⟩,
  ⟨"ClientCredentialsFlow", ["tokenUrl", "refreshUrl", "scopes"], [.extension]⟩,
  ⟨"AuthorizationCodeOAuthFlow", ["authorizationUrl", "tokenUrl", "refreshUrl", "scopes"], [.extension]⟩,
  ⟨"SchemaReference", ["$ref"], []⟩,
  ⟨"ParameterReference", ["$ref"], []⟩,
  ⟨"ResponseReference", ["$ref"], []⟩,
  ⟨"RequestBodyReference", ["$ref"], []⟩,
  ⟨"HeaderReference", ["$ref"], []⟩,
  ⟨"ExampleReference", ["$ref"], []⟩,
  ⟨"LinkReference", ["$ref"], []⟩,
  ⟨"CallbackReference", ["$ref"], []⟩,
  ⟨"SecuritySchemeReference", ["$ref"], []⟩]

/-- The entities of OpenAPI 3.1, with the fixed keys and the kinds of keys that are read. (`body` of a link
is what the code reads; the specification calls the key `server`.) -/
def open31 : List Closed := [
  ⟨"Spec", ["openapi", "info", "jsonSchemaDialect", "servers", "paths", "webhooks", "components", "security", "tags",
    "externalDocs"], [.extension]⟩,
  ⟨"Info", ["title", "summary", "description", "termsOfService", "contact", "license", "version"], [.extension]⟩,
  ⟨"Contact", ["name", "url", "email"], [.extension]⟩,
  ⟨"License", ["name", "identifier", "url"], [.extension]⟩,
  ⟨"Server", ["url", "description", "variables"], [.extension]⟩,
  ⟨"ServerVariable", ["enum", "default", "description"], [.extension]⟩,
  ⟨"Components", ["schemas", "responses", "parameters", "examples", "requestBodies", "headers", "securitySchemes",
    "links", "callbacks", "pathItems"], [.extension]⟩,
  ⟨"Paths", [], [.path, .extension]⟩,
  ⟨"PathItem", ["$ref", "summary", "description", "get", "put", "post", "delete", "options", "head", "patch", "trace",
    "servers", "parameters"], [.extension]⟩,
  ⟨"Operation", ["tags", "summary", "description", "externalDocs", "operationId", "parameters", "requestBody",
    "responses", "callbacks", "deprecated", "security", "servers"], [.extension]⟩,
  ⟨"ExternalDocumentation", ["description", "url"], [.extension]⟩,
  ⟨"Parameter", ["name", "in", "description", "required", "deprecated", "allowEmptyValue", "style", "explode",
    "allowReserved", "schema", "example", "examples", "content"], [.extension]⟩,
  ⟨"RequestBody", ["description", "content", "required"], [.extension]⟩,
  ⟨"MediaType", ["schema", "example", "examples", "encoding"], [.extension]⟩,
  ⟨"Encoding", ["contentType", "headers", "style", "explode", "allowReserved"], [.extension]⟩,
  ⟨"Responses", ["default"], [.status, .extension]⟩,
  ⟨"Response", ["description", "headers", "content", "links"], [.extension]⟩,
  ⟨"Link", ["operationRef", "operationId", "parameters", "requestBody", "description", "server", "body"],
    [.extension]⟩,
  ⟨"Header", ["description", "required", "deprecated", "allowEmptyValue", "style", "explode", "allowReserved",
    "schema", "example", "examples", "content"], [.extension]⟩,
  ⟨"Tag", ["name", "description", "externalDocs"], [.extension]⟩,
  ⟨"Reference", ["$ref", "summary", "description"], []⟩,
  ⟨"OauthFlows", ["implicit", "password", "clientCredentials", "authorizationCode"], [.extension]⟩,
  ⟨"OauthFlowsDefsImplicit", ["authorizationUrl", "refreshUrl", "scopes"], [.extension]⟩,
  ⟨"OauthFlowsDefsPassword", ["tokenUrl", "refreshUrl", "scopes"], [.extension]⟩,
  ⟨"OauthFlowsDefsClientCredentials", ["tokenUrl", "refreshUrl", "scopes"], [.extension]⟩,
  ⟨"OauthFlowsDefsAuthorizationCode", ["authorizationUrl", "tokenUrl", "refreshUrl", "scopes"], [.extension]⟩]

/-- The keys OpenAPI 3.0 requires. -/
def required30 : List (String × List String) := [
  ("Spec", ["openapi", "info", "paths"]),
  ("Info", ["title", "version"]),
  ("License", ["name"]),
  ("Server", ["url"]),
  ("ServerVariable", ["default"]),
  ("Operation", ["responses"]),
  ("ExternalDocumentation", ["url"]),
  ("Parameter", ["name", "in"]),
  ("RequestBody", ["content"]),
  ("Response", ["description"]),
  ("Tag", ["name"]),
  ("Discriminator", ["propertyName"]),
  ("APIKeySecurityScheme", ["type", "name", "in"]),
  ("HTTPSecurityScheme", ["type", "scheme"]),
  ("OAuth2SecurityScheme", ["type", "flows"]),
  ("OpenIDConnectSecurityScheme", ["type", "openIdConnectUrl"]),
  ("ImplicitOAuthFlow", ["authorizationUrl", "scopes"]),
  ("PasswordOAuthFlow", ["tokenUrl"]),
  ("ClientCredentialsFlow", ["tokenUrl"]),
  ("AuthorizationCodeOAuthFlow", ["authorizationUrl", "tokenUrl"]),
  ("SchemaReference", ["$ref"]),
  ("ParameterReference", ["$ref"]),
  ("ResponseReference", ["$ref"]),
  ("RequestBodyReference", ["$ref"]),
  ("HeaderReference", ["$ref"]),
  ("ExampleReference", ["$ref"]),
  ("LinkReference", ["$ref"]),
  ("CallbackReference", ["$ref"]),
  ("SecuritySchemeReference", ["$ref"])]

/-- The keys OpenAPI 3.1 requires. -/
def required31 : List (String × List String) := [
  ("Spec", ["openapi", "info"]),
  ("Info", ["title", "version"]),
  ("License", ["name"]),
  ("Server", ["url"]),
  ("ServerVariable", ["default"]),
  ("ExternalDocumentation", ["url"]),
  ("Parameter", ["name", "in"]),
  ("RequestBody", ["content"]),
  ("Response", ["description"]),
  ("Tag", ["name"]),
  ("Reference", ["$ref"]),
  ("SecurityScheme", ["type"]),
  ("SecuritySchemeAPIKey", ["type", "name", "in"]),
  ("SecuritySchemeHTTP", ["type", "scheme"]),
  ("SecuritySchemeHTTPBearer", ["type", "scheme"]),
  ("SecuritySchemeOauth2", ["type", "flows"]),
  ("SecuritySchemeOidc", ["type", "openIdConnectUrl"]),
  ("OauthFlowsDefsImplicit", ["authorizationUrl", "scopes"]),
  ("OauthFlowsDefsPassword", ["tokenUrl", "scopes"]),
  ("OauthFlowsDefsClientCredentials", ["tokenUrl", "scopes"]),
  ("OauthFlowsDefsAuthorizationCode", ["authorizationUrl", "tokenUrl", "scopes"])]

/-- The entities of OpenAPI 3.0 that may be extended, and that keep extensions. The specification also
allows extensions in `Encoding`. -/
def extensible30 : List String := ["Spec", "Info", "Contact", "License", "Server", "ServerVariable", "Components",
  "Paths", "PathItem", "Operation", "ExternalDocumentation", "Parameter", "RequestBody", "MediaType", "Responses",
  "Response", "Callback", "Example", "Link", "Header", "Tag", "Schema", "XML", "APIKeySecurityScheme",
  "HTTPSecurityScheme", "OAuth2SecurityScheme", "OpenIDConnectSecurityScheme", "OAuthFlows", "ImplicitOAuthFlow",
  "PasswordOAuthFlow", "ClientCredentialsFlow", "AuthorizationCodeOAuthFlow"]

/-- The same for OpenAPI 3.1, where the specification also allows extensions in `Encoding` and
`Components`. -/
def extensible31 : List String := ["Spec", "Info", "Contact", "License", "Server", "ServerVariable",
  "Paths", "PathItem", "Operation", "ExternalDocumentation", "Parameter", "RequestBody", "MediaType", "Responses",
  "Response", "Callbacks", "Example", "Link", "Header", "Tag", "SecurityScheme", "OauthFlows",
  "OauthFlowsDefsImplicit", "OauthFlowsDefsPassword", "OauthFlowsDefsClientCredentials",
  "OauthFlowsDefsAuthorizationCode"]

/-- The value-or-reference entities of OpenAPI 3.0: the name of the union, and the alternatives with the
Go field that holds them. -/
def unions30 : List (String × List (String × Codec.Ty)) := [
  ("SchemaOrRef", [("Schema", .named "Schema"), ("SchemaReference", .named "SchemaReference")]),
  ("SchemaAdditionalProperties", [("SchemaOrRef", .named "SchemaOrRef"), ("Bool", .bool)]),
  ("ExampleOrRef", [("ExampleReference", .named "ExampleReference"), ("Example", .named "Example")]),
  ("ParameterOrRef", [("ParameterReference", .named "ParameterReference"), ("Parameter", .named "Parameter")]),
  ("RequestBodyOrRef", [("RequestBodyReference", .named "RequestBodyReference"), ("RequestBody", .named "RequestBody")]),
  ("HeaderOrRef", [("HeaderReference", .named "HeaderReference"), ("Header", .named "Header")]),
  ("LinkOrRef", [("LinkReference", .named "LinkReference"), ("Link", .named "Link")]),
  ("ResponseOrRef", [("ResponseReference", .named "ResponseReference"), ("Response", .named "Response")]),
  ("CallbackOrRef", [("CallbackReference", .named "CallbackReference"), ("Callback", .named "Callback")]),
  ("SecuritySchemeOrRef", [("SecuritySchemeReference", .named "SecuritySchemeReference"),
    ("SecurityScheme", .named "SecurityScheme")]),
  ("SecurityScheme", [("APIKeySecurityScheme", .named "APIKeySecurityScheme"),
    ("HTTPSecurityScheme", .named "HTTPSecurityScheme"), ("OAuth2SecurityScheme", .named "OAuth2SecurityScheme"),
    ("OpenIDConnectSecurityScheme", .named "OpenIDConnectSecurityScheme")])]

/-- The same for OpenAPI 3.1. -/
def unions31 : List (String × List (String × Codec.Ty)) := [
  ("ParameterOrReference", [("Reference", .named "Reference"), ("Parameter", .named "Parameter")]),
  ("HeaderOrReference", [("Reference", .named "Reference"), ("Header", .named "Header")]),
  ("ExampleOrReference", [("Reference", .named "Reference"), ("Example", .named "Example")]),
  ("RequestBodyOrReference", [("Reference", .named "Reference"), ("RequestBody", .named "RequestBody")]),
  ("ResponseOrReference", [("Reference", .named "Reference"), ("Response", .named "Response")]),
  ("LinkOrReference", [("Reference", .named "Reference"), ("Link", .named "Link")]),
  ("PathItemOrReference", [("Reference", .named "Reference"), ("PathItem", .named "PathItem")]),
  ("CallbacksOrReference", [("Reference", .named "Reference"), ("Callbacks", .named "Callbacks")]),
  ("SecuritySchemeOrReference", [("Reference", .named "Reference"), ("SecurityScheme", .named "SecurityScheme")])]

/-- The object has a member with the key. -/
def HasMember : Any → String → Prop
  | .obj ms, k => k ∈ ms.map Prod.fst
  | _, _ => False

/-- The key is one of the keys up to case, as `encoding/json` compares keys with fields. -/
def FoldsTo (ks : List String) (k : String) : Prop := ∃ x ∈ ks, Codec.foldKey x = Codec.foldKey k

end Verif.Spec
