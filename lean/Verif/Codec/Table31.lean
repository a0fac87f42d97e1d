import Verif.Codec.Basic

/-! The named types of `/repo/openapi31/entities.go`. Written by `/verif/tools/codec.py`. -/

namespace Verif.Codec.V31

/-- `Spec` of `/repo/openapi31/entities.go`: type at line 17, `UnmarshalJSON` at lines 169-224, `MarshalJSON` at lines 227-229. -/
def sSpec : Struct where
  fields := [
    ⟨"Openapi", "openapi", .str, false⟩,
    ⟨"Info", "info", (.named "Info"), false⟩,
    ⟨"JSONSchemaDialect", "jsonSchemaDialect", (.ptr .str), true⟩,
    ⟨"Servers", "servers", (.slice (.named "Server")), true⟩,
    ⟨"Paths", "paths", (.ptr (.named "Paths")), true⟩,
    ⟨"Webhooks", "webhooks", (.map (.named "PathItemOrReference")), true⟩,
    ⟨"Components", "components", (.ptr (.named "Components")), true⟩,
    ⟨"Security", "security", (.slice (.map (.slice .str))), true⟩,
    ⟨"Tags", "tags", (.slice (.named "Tag")), true⟩,
    ⟨"ExternalDocs", "externalDocs", (.ptr (.named "ExternalDocumentation")), true⟩]
  decodes := true
  require := ["openapi", "info"]
  known := ["openapi", "info", "jsonSchemaDialect", "servers", "paths", "webhooks", "components", "security", "tags", "externalDocs"]
  patterns := [⟨.x, "MapOfAnything", .any⟩]
  parts := [.fields, .hidden "MapOfAnything"]

/-- `Info` of `/repo/openapi31/entities.go`: type at line 232, `UnmarshalJSON` at lines 338-393, `MarshalJSON` at lines 396-398. -/
def sInfo : Struct where
  fields := [
    ⟨"Title", "title", .str, false⟩,
    ⟨"Summary", "summary", (.ptr .str), true⟩,
    ⟨"Description", "description", (.ptr .str), true⟩,
    ⟨"TermsOfService", "termsOfService", (.ptr .str), true⟩,
    ⟨"Contact", "contact", (.ptr (.named "Contact")), true⟩,
    ⟨"License", "license", (.ptr (.named "License")), true⟩,
    ⟨"Version", "version", .str, false⟩]
  decodes := true
  require := ["title", "version"]
  known := ["title", "summary", "description", "termsOfService", "contact", "license", "version"]
  patterns := [⟨.x, "MapOfAnything", .any⟩]
  parts := [.fields, .hidden "MapOfAnything"]

/-- `Contact` of `/repo/openapi31/entities.go`: type at line 401, `UnmarshalJSON` at lines 452-501, `MarshalJSON` at lines 504-506. -/
def sContact : Struct where
  fields := [
    ⟨"Name", "name", (.ptr .str), true⟩,
    ⟨"URL", "url", (.ptr .str), true⟩,
    ⟨"Email", "email", (.ptr .str), true⟩]
  decodes := true
  known := ["name", "url", "email"]
  patterns := [⟨.x, "MapOfAnything", .any⟩]
  parts := [.fields, .hidden "MapOfAnything"]

/-- `License` of `/repo/openapi31/entities.go`: type at line 509, `UnmarshalJSON` at lines 564-619, `MarshalJSON` at lines 622-624. -/
def sLicense : Struct where
  fields := [
    ⟨"Name", "name", .str, false⟩,
    ⟨"Identifier", "identifier", (.ptr .str), true⟩,
    ⟨"URL", "url", (.ptr .str), true⟩]
  decodes := true
  require := ["name"]
  known := ["name", "identifier", "url"]
  patterns := [⟨.x, "MapOfAnything", .any⟩]
  parts := [.fields, .hidden "MapOfAnything"]

/-- `Server` of `/repo/openapi31/entities.go`: type at line 627, `UnmarshalJSON` at lines 695-750, `MarshalJSON` at lines 753-755. -/
def sServer : Struct where
  fields := [
    ⟨"URL", "url", .str, false⟩,
    ⟨"Description", "description", (.ptr .str), true⟩,
    ⟨"Variables", "variables", (.map (.named "ServerVariable")), true⟩]
  decodes := true
  require := ["url"]
  known := ["url", "description", "variables"]
  patterns := [⟨.x, "MapOfAnything", .any⟩]
  parts := [.fields, .hidden "MapOfAnything"]

/-- `ServerVariable` of `/repo/openapi31/entities.go`: type at line 758, `UnmarshalJSON` at lines 813-868, `MarshalJSON` at lines 871-873. -/
def sServerVariable : Struct where
  fields := [
    ⟨"Enum", "enum", (.slice .str), true⟩,
    ⟨"Default", "default", .str, false⟩,
    ⟨"Description", "description", (.ptr .str), true⟩]
  decodes := true
  require := ["default"]
  known := ["enum", "default", "description"]
  patterns := [⟨.x, "MapOfAnything", .any⟩]
  parts := [.fields, .hidden "MapOfAnything"]

/-- `PathItem` of `/repo/openapi31/entities.go`: type at line 876, `UnmarshalJSON` at lines 1071-1120, `MarshalJSON` at lines 1123-1125. -/
def sPathItem : Struct where
  fields := [
    ⟨"Summary", "summary", (.ptr .str), true⟩,
    ⟨"Description", "description", (.ptr .str), true⟩,
    ⟨"Servers", "servers", (.slice (.named "Server")), true⟩,
    ⟨"Parameters", "parameters", (.slice (.named "ParameterOrReference")), true⟩,
    ⟨"Get", "get", (.ptr (.named "Operation")), true⟩,
    ⟨"Put", "put", (.ptr (.named "Operation")), true⟩,
    ⟨"Post", "post", (.ptr (.named "Operation")), true⟩,
    ⟨"Delete", "delete", (.ptr (.named "Operation")), true⟩,
    ⟨"Options", "options", (.ptr (.named "Operation")), true⟩,
    ⟨"Head", "head", (.ptr (.named "Operation")), true⟩,
    ⟨"Patch", "patch", (.ptr (.named "Operation")), true⟩,
    ⟨"Trace", "trace", (.ptr (.named "Operation")), true⟩]
  decodes := true
  known := ["summary", "description", "servers", "parameters", "get", "put", "post", "delete", "options", "head", "patch", "trace"]
  patterns := [⟨.x, "MapOfAnything", .any⟩]
  parts := [.fields, .hidden "MapOfAnything"]

/-- `Reference` of `/repo/openapi31/entities.go`: type at line 1128, `UnmarshalJSON` at lines 1161-1187. -/
def sReference : Struct where
  fields := [
    ⟨"Ref", "$ref", .str, false⟩,
    ⟨"Summary", "summary", (.ptr .str), true⟩,
    ⟨"Description", "description", (.ptr .str), true⟩]
  decodes := true
  require := ["$ref"]

/-- `Parameter` of `/repo/openapi31/entities.go`: type at line 1190, `UnmarshalJSON` at lines 1343-1405, `MarshalJSON` at lines 1408-1410. -/
def sParameter : Struct where
  fields := [
    ⟨"Name", "name", .str, false⟩,
    ⟨"In", "in", (.named "ParameterIn"), false⟩,
    ⟨"Description", "description", (.ptr .str), true⟩,
    ⟨"Required", "required", (.ptr .bool), true⟩,
    ⟨"Deprecated", "deprecated", (.ptr .bool), true⟩,
    ⟨"Schema", "schema", (.map .any), true⟩,
    ⟨"Content", "content", (.map (.named "MediaType")), true⟩,
    ⟨"Style", "style", (.ptr (.named "ParameterStyle")), true⟩,
    ⟨"Explode", "explode", (.ptr .bool), true⟩,
    ⟨"Example", "example", (.ptr .any), true⟩,
    ⟨"Examples", "examples", (.map (.named "ExampleOrReference")), true⟩]
  decodes := true
  require := ["name", "in"]
  nulls := [("Example", "example")]
  known := ["name", "in", "description", "required", "deprecated", "schema", "content", "style", "explode", "example", "examples"]
  patterns := [⟨.x, "MapOfAnything", .any⟩]
  parts := [.fields, .hidden "MapOfAnything"]

/-- `MediaType` of `/repo/openapi31/entities.go`: type at line 1413, `UnmarshalJSON` at lines 1505-1561, `MarshalJSON` at lines 1564-1566. -/
def sMediaType : Struct where
  fields := [
    ⟨"Schema", "schema", (.map .any), true⟩,
    ⟨"Encoding", "encoding", (.map (.named "Encoding")), true⟩,
    ⟨"Example", "example", (.ptr .any), true⟩,
    ⟨"Examples", "examples", (.map (.named "ExampleOrReference")), true⟩]
  decodes := true
  nulls := [("Example", "example")]
  known := ["schema", "encoding", "example", "examples"]
  patterns := [⟨.x, "MapOfAnything", .any⟩]
  parts := [.fields, .hidden "MapOfAnything"]

/-- `Encoding` of `/repo/openapi31/entities.go`: type at line 1569. -/
def sEncoding : Struct where
  fields := [
    ⟨"ContentType", "contentType", (.ptr .str), true⟩,
    ⟨"Headers", "headers", (.map (.named "HeaderOrReference")), true⟩,
    ⟨"Style", "style", (.ptr (.named "EncodingStyle")), true⟩,
    ⟨"Explode", "explode", (.ptr .bool), true⟩,
    ⟨"AllowReserved", "allowReserved", (.ptr .bool), true⟩]
  decodes := true

/-- `Header` of `/repo/openapi31/entities.go`: type at line 1619, `UnmarshalJSON` at lines 1744-1814, `MarshalJSON` at lines 1820-1822. -/
def sHeader : Struct where
  fields := [
    ⟨"Description", "description", (.ptr .str), true⟩,
    ⟨"Required", "required", (.ptr .bool), true⟩,
    ⟨"Deprecated", "deprecated", (.ptr .bool), true⟩,
    ⟨"Schema", "schema", (.map .any), true⟩,
    ⟨"Content", "content", (.map (.named "MediaType")), true⟩,
    ⟨"Example", "example", (.ptr .any), true⟩,
    ⟨"Examples", "examples", (.map (.named "ExampleOrReference")), true⟩,
    ⟨"Explode", "explode", (.ptr .bool), true⟩]
  decodes := true
  exactlyOne := some ("schema", "content")
  consts := [("style", (.str "simple"))]
  nulls := [("Example", "example")]
  known := ["description", "required", "deprecated", "schema", "content", "example", "examples", "explode", "style"]
  patterns := [⟨.x, "MapOfAnything", .any⟩]
  parts := [.consts [("style", (.str "simple"))], .fields, .hidden "MapOfAnything"]

/-- `Example` of `/repo/openapi31/entities.go`: type at line 1825, `UnmarshalJSON` at lines 1884-1946, `MarshalJSON` at lines 1949-1951. -/
def sExample : Struct where
  nots := [.any]
  fields := [
    ⟨"Summary", "summary", (.ptr .str), true⟩,
    ⟨"Description", "description", (.ptr .str), true⟩,
    ⟨"Value", "value", (.ptr .any), true⟩,
    ⟨"ExternalValue", "externalValue", (.ptr .str), true⟩]
  decodes := true
  nulls := [("Value", "value")]
  known := ["summary", "description", "value", "externalValue"]
  patterns := [⟨.x, "MapOfAnything", .any⟩]
  parts := [.fields, .hidden "MapOfAnything"]

/-- `ExampleOrReference` of `/repo/openapi31/entities.go`: type at line 1954, `UnmarshalJSON` at lines 1990-2017, `MarshalJSON` at lines 2020-2022. -/
def sExampleOrReference : Struct where
  oneOf := [⟨"Reference", (.ptr (.named "Reference"))⟩, ⟨"Example", (.ptr (.named "Example"))⟩]
  parts := [.hidden "Reference", .hidden "Example"]

/-- `HeaderOrReference` of `/repo/openapi31/entities.go`: type at line 2025, `UnmarshalJSON` at lines 2061-2088, `MarshalJSON` at lines 2091-2093. -/
def sHeaderOrReference : Struct where
  oneOf := [⟨"Reference", (.ptr (.named "Reference"))⟩, ⟨"Header", (.ptr (.named "Header"))⟩]
  parts := [.hidden "Reference", .hidden "Header"]

/-- `EncodingAllOf0` of `/repo/openapi31/entities.go`: type at line 2096, `UnmarshalJSON` at lines 2118-2154, `MarshalJSON` at lines 2157-2159. -/
def sEncodingAllOf0 : Struct where
  patterns := [⟨.x, "MapOfAnything", .any⟩]
  parts := [.hidden "MapOfAnything"]

/-- `Examples` of `/repo/openapi31/entities.go`: type at line 2162. -/
def sExamples : Struct where
  fields := [
    ⟨"Example", "example", (.ptr .any), true⟩,
    ⟨"Examples", "examples", (.map (.named "ExampleOrReference")), true⟩]
  decodes := true

/-- `ParameterOrReference` of `/repo/openapi31/entities.go`: type at line 2191, `UnmarshalJSON` at lines 2227-2254, `MarshalJSON` at lines 2257-2259. -/
def sParameterOrReference : Struct where
  oneOf := [⟨"Reference", (.ptr (.named "Reference"))⟩, ⟨"Parameter", (.ptr (.named "Parameter"))⟩]
  parts := [.hidden "Reference", .hidden "Parameter"]

/-- `Operation` of `/repo/openapi31/entities.go`: type at line 2262, `UnmarshalJSON` at lines 2423-2472, `MarshalJSON` at lines 2475-2477. -/
def sOperation : Struct where
  fields := [
    ⟨"Tags", "tags", (.slice .str), true⟩,
    ⟨"Summary", "summary", (.ptr .str), true⟩,
    ⟨"Description", "description", (.ptr .str), true⟩,
    ⟨"ExternalDocs", "externalDocs", (.ptr (.named "ExternalDocumentation")), true⟩,
    ⟨"ID", "operationId", (.ptr .str), true⟩,
    ⟨"Parameters", "parameters", (.slice (.named "ParameterOrReference")), true⟩,
    ⟨"RequestBody", "requestBody", (.ptr (.named "RequestBodyOrReference")), true⟩,
    ⟨"Responses", "responses", (.ptr (.named "Responses")), true⟩,
    ⟨"Callbacks", "callbacks", (.map (.named "CallbacksOrReference")), true⟩,
    ⟨"Deprecated", "deprecated", (.ptr .bool), true⟩,
    ⟨"Security", "security", (.slice (.map (.slice .str))), true⟩,
    ⟨"Servers", "servers", (.slice (.named "Server")), true⟩]
  decodes := true
  known := ["tags", "summary", "description", "externalDocs", "operationId", "parameters", "requestBody", "responses", "callbacks", "deprecated", "security", "servers"]
  patterns := [⟨.x, "MapOfAnything", .any⟩]
  parts := [.fields, .hidden "MapOfAnything"]

/-- `ExternalDocumentation` of `/repo/openapi31/entities.go`: type at line 2480, `UnmarshalJSON` at lines 2529-2584, `MarshalJSON` at lines 2587-2589. -/
def sExternalDocumentation : Struct where
  fields := [
    ⟨"Description", "description", (.ptr .str), true⟩,
    ⟨"URL", "url", .str, false⟩]
  decodes := true
  require := ["url"]
  known := ["description", "url"]
  patterns := [⟨.x, "MapOfAnything", .any⟩]
  parts := [.fields, .hidden "MapOfAnything"]

/-- `RequestBody` of `/repo/openapi31/entities.go`: type at line 2592, `UnmarshalJSON` at lines 2658-2713, `MarshalJSON` at lines 2716-2718. -/
def sRequestBody : Struct where
  fields := [
    ⟨"Description", "description", (.ptr .str), true⟩,
    ⟨"Content", "content", (.map (.named "MediaType")), false⟩,
    ⟨"Required", "required", (.ptr .bool), true⟩]
  decodes := true
  require := ["content"]
  known := ["description", "content", "required"]
  patterns := [⟨.x, "MapOfAnything", .any⟩]
  parts := [.fields, .hidden "MapOfAnything"]

/-- `RequestBodyOrReference` of `/repo/openapi31/entities.go`: type at line 2721, `UnmarshalJSON` at lines 2757-2784, `MarshalJSON` at lines 2787-2789. -/
def sRequestBodyOrReference : Struct where
  oneOf := [⟨"Reference", (.ptr (.named "Reference"))⟩, ⟨"RequestBody", (.ptr (.named "RequestBody"))⟩]
  parts := [.hidden "Reference", .hidden "RequestBody"]

/-- `Responses` of `/repo/openapi31/entities.go`: type at line 2792, `UnmarshalJSON` at lines 2854-2920, `MarshalJSON` at lines 2923-2925. -/
def sResponses : Struct where
  fields := [
    ⟨"Default", "default", (.ptr (.named "ResponseOrReference")), true⟩]
  decodes := true
  known := ["default"]
  patterns := [⟨.status, "MapOfResponseOrReferenceValues", (.named "ResponseOrReference")⟩, ⟨.x, "MapOfAnything", .any⟩]
  parts := [.fields, .hidden "MapOfResponseOrReferenceValues", .hidden "MapOfAnything"]

/-- `Response` of `/repo/openapi31/entities.go`: type at line 2928, `UnmarshalJSON` at lines 3024-3079, `MarshalJSON` at lines 3082-3084. -/
def sResponse : Struct where
  fields := [
    ⟨"Description", "description", .str, false⟩,
    ⟨"Headers", "headers", (.map (.named "HeaderOrReference")), true⟩,
    ⟨"Content", "content", (.map (.named "MediaType")), true⟩,
    ⟨"Links", "links", (.map (.named "LinkOrReference")), true⟩]
  decodes := true
  require := ["description"]
  known := ["description", "headers", "content", "links"]
  patterns := [⟨.x, "MapOfAnything", .any⟩]
  parts := [.fields, .hidden "MapOfAnything"]

/-- `Link` of `/repo/openapi31/entities.go`: type at line 3087, `UnmarshalJSON` at lines 3182-3238, `MarshalJSON` at lines 3241-3243. -/
def sLink : Struct where
  fields := [
    ⟨"OperationRef", "operationRef", (.ptr .str), true⟩,
    ⟨"OperationID", "operationId", (.ptr .str), true⟩,
    ⟨"Parameters", "parameters", (.map .str), true⟩,
    ⟨"RequestBody", "requestBody", (.ptr .any), true⟩,
    ⟨"Description", "description", (.ptr .str), true⟩,
    ⟨"Body", "body", (.ptr (.named "Server")), true⟩]
  decodes := true
  nulls := [("RequestBody", "requestBody")]
  known := ["operationRef", "operationId", "parameters", "requestBody", "description", "body"]
  patterns := [⟨.x, "MapOfAnything", .any⟩]
  parts := [.fields, .hidden "MapOfAnything"]

/-- `LinkOrReference` of `/repo/openapi31/entities.go`: type at line 3246, `UnmarshalJSON` at lines 3282-3309, `MarshalJSON` at lines 3312-3314. -/
def sLinkOrReference : Struct where
  oneOf := [⟨"Reference", (.ptr (.named "Reference"))⟩, ⟨"Link", (.ptr (.named "Link"))⟩]
  parts := [.hidden "Reference", .hidden "Link"]

/-- `ResponseOrReference` of `/repo/openapi31/entities.go`: type at line 3317, `UnmarshalJSON` at lines 3353-3380, `MarshalJSON` at lines 3383-3385. -/
def sResponseOrReference : Struct where
  oneOf := [⟨"Reference", (.ptr (.named "Reference"))⟩, ⟨"Response", (.ptr (.named "Response"))⟩]
  parts := [.hidden "Reference", .hidden "Response"]

/-- `Callbacks` of `/repo/openapi31/entities.go`: type at line 3388, `UnmarshalJSON` at lines 3428-3479, `MarshalJSON` at lines 3482-3484. -/
def sCallbacks : Struct where
  patterns := [⟨.x, "MapOfAnything", .any⟩]
  additional := some ⟨"AdditionalProperties", (.named "PathItemOrReference")⟩
  parts := [.hidden "MapOfAnything", .hidden "AdditionalProperties"]

/-- `PathItemOrReference` of `/repo/openapi31/entities.go`: type at line 3487, `UnmarshalJSON` at lines 3523-3550, `MarshalJSON` at lines 3553-3555. -/
def sPathItemOrReference : Struct where
  oneOf := [⟨"Reference", (.ptr (.named "Reference"))⟩, ⟨"PathItem", (.ptr (.named "PathItem"))⟩]
  parts := [.hidden "Reference", .hidden "PathItem"]

/-- `CallbacksOrReference` of `/repo/openapi31/entities.go`: type at line 3558, `UnmarshalJSON` at lines 3594-3621, `MarshalJSON` at lines 3624-3626. -/
def sCallbacksOrReference : Struct where
  oneOf := [⟨"Reference", (.ptr (.named "Reference"))⟩, ⟨"Callbacks", (.ptr (.named "Callbacks"))⟩]
  parts := [.hidden "Reference", .hidden "Callbacks"]

/-- `Paths` of `/repo/openapi31/entities.go`: type at line 3629, `UnmarshalJSON` at lines 3669-3722, `MarshalJSON` at lines 3725-3727. -/
def sPaths : Struct where
  patterns := [⟨.slash, "MapOfPathItemValues", (.named "PathItem")⟩, ⟨.x, "MapOfAnything", .any⟩]
  parts := [.hidden "MapOfPathItemValues", .hidden "MapOfAnything"]

/-- `Components` of `/repo/openapi31/entities.go`: type at line 3730. -/
def sComponents : Struct where
  fields := [
    ⟨"Schemas", "schemas", (.map (.map .any)), true⟩,
    ⟨"Responses", "responses", (.map (.named "ResponseOrReference")), true⟩,
    ⟨"Parameters", "parameters", (.map (.named "ParameterOrReference")), true⟩,
    ⟨"Examples", "examples", (.map (.named "ExampleOrReference")), true⟩,
    ⟨"RequestBodies", "requestBodies", (.map (.named "RequestBodyOrReference")), true⟩,
    ⟨"Headers", "headers", (.map (.named "HeaderOrReference")), true⟩,
    ⟨"SecuritySchemes", "securitySchemes", (.map (.named "SecuritySchemeOrReference")), true⟩,
    ⟨"Links", "links", (.map (.named "LinkOrReference")), true⟩,
    ⟨"Callbacks", "callbacks", (.map (.named "CallbacksOrReference")), true⟩,
    ⟨"PathItems", "pathItems", (.map (.named "PathItemOrReference")), true⟩]
  decodes := true

/-- `SecurityScheme` of `/repo/openapi31/entities.go`: type at line 3914, `UnmarshalJSON` at lines 4049-4159, `MarshalJSON` at lines 4162-4164. -/
def sSecurityScheme : Struct where
  fields := [
    ⟨"Description", "description", (.ptr .str), true⟩]
  decodes := true
  oneOf := [⟨"APIKey", (.ptr (.named "SecuritySchemeAPIKey"))⟩, ⟨"HTTP", (.ptr (.named "SecuritySchemeHTTP"))⟩, ⟨"HTTPBearer", (.ptr (.named "SecuritySchemeHTTPBearer"))⟩, ⟨"Oauth2", (.ptr (.named "SecuritySchemeOauth2"))⟩, ⟨"Oidc", (.ptr (.named "SecuritySchemeOidc"))⟩, ⟨"MutualTLS", (.ptr (.named "MutualTLS"))⟩]
  require := ["type"]
  known := ["description"]
  patterns := [⟨.x, "MapOfAnything", .any⟩]
  parts := [.fields, .hidden "MapOfAnything", .hidden "APIKey", .hidden "HTTP", .hidden "HTTPBearer", .hidden "Oauth2", .hidden "Oidc", .hidden "MutualTLS"]

/-- `SecuritySchemeAPIKey` of `/repo/openapi31/entities.go`: type at line 4167, `UnmarshalJSON` at lines 4193-4225, `MarshalJSON` at lines 4231-4233. -/
def sSecuritySchemeAPIKey : Struct where
  fields := [
    ⟨"Name", "name", .str, false⟩,
    ⟨"In", "in", (.named "SecuritySchemeAPIKeyIn"), false⟩]
  decodes := true
  require := ["type", "name", "in"]
  consts := [("type", (.str "apiKey"))]
  parts := [.consts [("type", (.str "apiKey"))], .fields]

/-- `SecuritySchemeHTTP` of `/repo/openapi31/entities.go`: type at line 4236, `UnmarshalJSON` at lines 4254-4290, `MarshalJSON` at lines 4296-4298. -/
def sSecuritySchemeHTTP : Struct where
  fields := [
    ⟨"Scheme", "scheme", .str, false⟩]
  decodes := true
  require := ["type", "scheme"]
  consts := [("type", (.str "http"))]
  lower := [⟨"Scheme", false, "bearer"⟩]
  parts := [.consts [("type", (.str "http"))], .fields]

/-- `SecuritySchemeHTTPBearer` of `/repo/openapi31/entities.go`: type at line 4301, `UnmarshalJSON` at lines 4328-4364, `MarshalJSON` at lines 4370-4372. -/
def sSecuritySchemeHTTPBearer : Struct where
  fields := [
    ⟨"Scheme", "scheme", .str, false⟩,
    ⟨"BearerFormat", "bearerFormat", (.ptr .str), true⟩]
  decodes := true
  require := ["type", "scheme"]
  consts := [("type", (.str "http"))]
  lower := [⟨"Scheme", true, "bearer"⟩]
  parts := [.consts [("type", (.str "http"))], .fields]

/-- `SecuritySchemeOauth2` of `/repo/openapi31/entities.go`: type at line 4375, `UnmarshalJSON` at lines 4393-4425, `MarshalJSON` at lines 4431-4433. -/
def sSecuritySchemeOauth2 : Struct where
  fields := [
    ⟨"Flows", "flows", (.named "OauthFlows"), false⟩]
  decodes := true
  require := ["type", "flows"]
  consts := [("type", (.str "oauth2"))]
  parts := [.consts [("type", (.str "oauth2"))], .fields]

/-- `OauthFlows` of `/repo/openapi31/entities.go`: type at line 4436, `UnmarshalJSON` at lines 4531-4580, `MarshalJSON` at lines 4583-4585. -/
def sOauthFlows : Struct where
  fields := [
    ⟨"Implicit", "implicit", (.ptr (.named "OauthFlowsDefsImplicit")), true⟩,
    ⟨"Password", "password", (.ptr (.named "OauthFlowsDefsPassword")), true⟩,
    ⟨"ClientCredentials", "clientCredentials", (.ptr (.named "OauthFlowsDefsClientCredentials")), true⟩,
    ⟨"AuthorizationCode", "authorizationCode", (.ptr (.named "OauthFlowsDefsAuthorizationCode")), true⟩]
  decodes := true
  known := ["implicit", "password", "clientCredentials", "authorizationCode"]
  patterns := [⟨.x, "MapOfAnything", .any⟩]
  parts := [.fields, .hidden "MapOfAnything"]

/-- `OauthFlowsDefsImplicit` of `/repo/openapi31/entities.go`: type at line 4588, `UnmarshalJSON` at lines 4657-4712, `MarshalJSON` at lines 4715-4717. -/
def sOauthFlowsDefsImplicit : Struct where
  fields := [
    ⟨"AuthorizationURL", "authorizationUrl", .str, false⟩,
    ⟨"RefreshURL", "refreshUrl", (.ptr .str), true⟩,
    ⟨"Scopes", "scopes", (.map .str), false⟩]
  decodes := true
  require := ["authorizationUrl", "scopes"]
  known := ["authorizationUrl", "refreshUrl", "scopes"]
  patterns := [⟨.x, "MapOfAnything", .any⟩]
  parts := [.fields, .hidden "MapOfAnything"]

/-- `OauthFlowsDefsPassword` of `/repo/openapi31/entities.go`: type at line 4720, `UnmarshalJSON` at lines 4789-4844, `MarshalJSON` at lines 4847-4849. -/
def sOauthFlowsDefsPassword : Struct where
  fields := [
    ⟨"TokenURL", "tokenUrl", .str, false⟩,
    ⟨"RefreshURL", "refreshUrl", (.ptr .str), true⟩,
    ⟨"Scopes", "scopes", (.map .str), false⟩]
  decodes := true
  require := ["tokenUrl", "scopes"]
  known := ["tokenUrl", "refreshUrl", "scopes"]
  patterns := [⟨.x, "MapOfAnything", .any⟩]
  parts := [.fields, .hidden "MapOfAnything"]

/-- `OauthFlowsDefsClientCredentials` of `/repo/openapi31/entities.go`: type at line 4852, `UnmarshalJSON` at lines 4921-4976, `MarshalJSON` at lines 4979-4981. -/
def sOauthFlowsDefsClientCredentials : Struct where
  fields := [
    ⟨"TokenURL", "tokenUrl", .str, false⟩,
    ⟨"RefreshURL", "refreshUrl", (.ptr .str), true⟩,
    ⟨"Scopes", "scopes", (.map .str), false⟩]
  decodes := true
  require := ["tokenUrl", "scopes"]
  known := ["tokenUrl", "refreshUrl", "scopes"]
  patterns := [⟨.x, "MapOfAnything", .any⟩]
  parts := [.fields, .hidden "MapOfAnything"]

/-- `OauthFlowsDefsAuthorizationCode` of `/repo/openapi31/entities.go`: type at line 4984, `UnmarshalJSON` at lines 5064-5119, `MarshalJSON` at lines 5122-5124. -/
def sOauthFlowsDefsAuthorizationCode : Struct where
  fields := [
    ⟨"AuthorizationURL", "authorizationUrl", .str, false⟩,
    ⟨"TokenURL", "tokenUrl", .str, false⟩,
    ⟨"RefreshURL", "refreshUrl", (.ptr .str), true⟩,
    ⟨"Scopes", "scopes", (.map .str), false⟩]
  decodes := true
  require := ["authorizationUrl", "tokenUrl", "scopes"]
  known := ["authorizationUrl", "tokenUrl", "refreshUrl", "scopes"]
  patterns := [⟨.x, "MapOfAnything", .any⟩]
  parts := [.fields, .hidden "MapOfAnything"]

/-- `SecuritySchemeOidc` of `/repo/openapi31/entities.go`: type at line 5127, `UnmarshalJSON` at lines 5147-5179, `MarshalJSON` at lines 5185-5187. -/
def sSecuritySchemeOidc : Struct where
  fields := [
    ⟨"OpenIDConnectURL", "openIdConnectUrl", .str, false⟩]
  decodes := true
  require := ["type", "openIdConnectUrl"]
  consts := [("type", (.str "openIdConnect"))]
  parts := [.consts [("type", (.str "openIdConnect"))], .fields]

/-- `MutualTLS` of `/repo/openapi31/entities.go`: type at line 5192, `UnmarshalJSON` at lines 5195-5212, `MarshalJSON` at lines 5218-5220. -/
def sMutualTLS : Struct where
  consts := [("type", (.str "mutualTLS"))]
  parts := [.consts [("type", (.str "mutualTLS"))]]

/-- `SecuritySchemeOrReference` of `/repo/openapi31/entities.go`: type at line 5223, `UnmarshalJSON` at lines 5259-5286, `MarshalJSON` at lines 5289-5291. -/
def sSecuritySchemeOrReference : Struct where
  oneOf := [⟨"Reference", (.ptr (.named "Reference"))⟩, ⟨"SecurityScheme", (.ptr (.named "SecurityScheme"))⟩]
  parts := [.hidden "Reference", .hidden "SecurityScheme"]

/-- `Tag` of `/repo/openapi31/entities.go`: type at line 5294, `UnmarshalJSON` at lines 5358-5413, `MarshalJSON` at lines 5416-5418. -/
def sTag : Struct where
  fields := [
    ⟨"Name", "name", .str, false⟩,
    ⟨"Description", "description", (.ptr .str), true⟩,
    ⟨"ExternalDocs", "externalDocs", (.ptr (.named "ExternalDocumentation")), true⟩]
  decodes := true
  require := ["name"]
  known := ["name", "description", "externalDocs"]
  patterns := [⟨.x, "MapOfAnything", .any⟩]
  parts := [.fields, .hidden "MapOfAnything"]

/-- `ParameterIn` of `/repo/openapi31/entities.go`: type at line 5421, `UnmarshalJSON` at lines 5447-5470, `MarshalJSON` at lines 5432-5444. -/
def dParameterIn : Desc := .enum ["query", "header", "path", "cookie"]

/-- `EncodingStyle` of `/repo/openapi31/entities.go`: type at line 5473, `UnmarshalJSON` at lines 5499-5522, `MarshalJSON` at lines 5484-5496. -/
def dEncodingStyle : Desc := .enum ["form", "spaceDelimited", "pipeDelimited", "deepObject"]

/-- `ParameterStyle` of `/repo/openapi31/entities.go`: type at line 5525, `UnmarshalJSON` at lines 5551-5574, `MarshalJSON` at lines 5536-5548. -/
def dParameterStyle : Desc := .enum ["form", "spaceDelimited", "pipeDelimited", "deepObject"]

/-- `SecuritySchemeAPIKeyIn` of `/repo/openapi31/entities.go`: type at line 5577, `UnmarshalJSON` at lines 5601-5623, `MarshalJSON` at lines 5587-5598. -/
def dSecuritySchemeAPIKeyIn : Desc := .enum ["query", "header", "cookie"]

/-- The named types of the package. -/
def table : Table := [
  ("Spec", .struct sSpec),
  ("Info", .struct sInfo),
  ("Contact", .struct sContact),
  ("License", .struct sLicense),
  ("Server", .struct sServer),
  ("ServerVariable", .struct sServerVariable),
  ("PathItem", .struct sPathItem),
  ("Reference", .struct sReference),
  ("Parameter", .struct sParameter),
  ("MediaType", .struct sMediaType),
  ("Encoding", .struct sEncoding),
  ("Header", .struct sHeader),
  ("Example", .struct sExample),
  ("ExampleOrReference", .struct sExampleOrReference),
  ("HeaderOrReference", .struct sHeaderOrReference),
  ("EncodingAllOf0", .struct sEncodingAllOf0),
  ("Examples", .struct sExamples),
  ("ParameterOrReference", .struct sParameterOrReference),
  ("Operation", .struct sOperation),
  ("ExternalDocumentation", .struct sExternalDocumentation),
  ("RequestBody", .struct sRequestBody),
  ("RequestBodyOrReference", .struct sRequestBodyOrReference),
  ("Responses", .struct sResponses),
  ("Response", .struct sResponse),
  ("Link", .struct sLink),
  ("LinkOrReference", .struct sLinkOrReference),
  ("ResponseOrReference", .struct sResponseOrReference),
  ("Callbacks", .struct sCallbacks),
  ("PathItemOrReference", .struct sPathItemOrReference),
  ("CallbacksOrReference", .struct sCallbacksOrReference),
  ("Paths", .struct sPaths),
  ("Components", .struct sComponents),
  ("SecurityScheme", .struct sSecurityScheme),
  ("SecuritySchemeAPIKey", .struct sSecuritySchemeAPIKey),
  ("SecuritySchemeHTTP", .struct sSecuritySchemeHTTP),
  ("SecuritySchemeHTTPBearer", .struct sSecuritySchemeHTTPBearer),
  ("SecuritySchemeOauth2", .struct sSecuritySchemeOauth2),
  ("OauthFlows", .struct sOauthFlows),
  ("OauthFlowsDefsImplicit", .struct sOauthFlowsDefsImplicit),
  ("OauthFlowsDefsPassword", .struct sOauthFlowsDefsPassword),
  ("OauthFlowsDefsClientCredentials", .struct sOauthFlowsDefsClientCredentials),
  ("OauthFlowsDefsAuthorizationCode", .struct sOauthFlowsDefsAuthorizationCode),
  ("SecuritySchemeOidc", .struct sSecuritySchemeOidc),
  ("MutualTLS", .struct sMutualTLS),
  ("SecuritySchemeOrReference", .struct sSecuritySchemeOrReference),
  ("Tag", .struct sTag),
  ("ParameterIn", dParameterIn),
  ("EncodingStyle", dEncodingStyle),
  ("ParameterStyle", dParameterStyle),
  ("SecuritySchemeAPIKeyIn", dSecuritySchemeAPIKeyIn)]

end Verif.Codec.V31
