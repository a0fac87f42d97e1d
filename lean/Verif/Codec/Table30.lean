import Verif.Codec.Basic

/-! The named types of `/repo/openapi3/entities.go`. Written by `/verif/tools/codec.py`. -/

namespace Verif.Codec.V30

/-- `Spec` of `/repo/openapi3/entities.go`: type at line 17, `UnmarshalJSON` at lines 134-199, `MarshalJSON` at lines 202-204. -/
def sSpec : Struct where
  fields := [
    ⟨"Openapi", "openapi", .str, false⟩,
    ⟨"Info", "info", (.named "Info"), false⟩,
    ⟨"ExternalDocs", "externalDocs", (.ptr (.named "ExternalDocumentation")), true⟩,
    ⟨"Servers", "servers", (.slice (.named "Server")), true⟩,
    ⟨"Security", "security", (.slice (.map (.slice .str))), true⟩,
    ⟨"Tags", "tags", (.slice (.named "Tag")), true⟩,
    ⟨"Paths", "paths", (.named "Paths"), false⟩,
    ⟨"Components", "components", (.ptr (.named "Components")), true⟩]
  decodes := true
  require := ["openapi", "info", "paths"]
  known := ["openapi", "info", "externalDocs", "servers", "security", "tags", "paths", "components"]
  patterns := [⟨.x, "MapOfAnything", .any⟩]
  strict := true
  parts := [.fields, .hidden "MapOfAnything"]

/-- `Info` of `/repo/openapi3/entities.go`: type at line 207, `UnmarshalJSON` at lines 305-370, `MarshalJSON` at lines 373-375. -/
def sInfo : Struct where
  fields := [
    ⟨"Title", "title", .str, false⟩,
    ⟨"Description", "description", (.ptr .str), true⟩,
    ⟨"TermsOfService", "termsOfService", (.ptr .str), true⟩,
    ⟨"Contact", "contact", (.ptr (.named "Contact")), true⟩,
    ⟨"License", "license", (.ptr (.named "License")), true⟩,
    ⟨"Version", "version", .str, false⟩]
  decodes := true
  require := ["title", "version"]
  known := ["title", "description", "termsOfService", "contact", "license", "version"]
  patterns := [⟨.x, "MapOfAnything", .any⟩]
  strict := true
  parts := [.fields, .hidden "MapOfAnything"]

/-- `Contact` of `/repo/openapi3/entities.go`: type at line 378, `UnmarshalJSON` at lines 429-488, `MarshalJSON` at lines 491-493. -/
def sContact : Struct where
  fields := [
    ⟨"Name", "name", (.ptr .str), true⟩,
    ⟨"URL", "url", (.ptr .str), true⟩,
    ⟨"Email", "email", (.ptr .str), true⟩]
  decodes := true
  known := ["name", "url", "email"]
  patterns := [⟨.x, "MapOfAnything", .any⟩]
  strict := true
  parts := [.fields, .hidden "MapOfAnything"]

/-- `License` of `/repo/openapi3/entities.go`: type at line 496, `UnmarshalJSON` at lines 543-608, `MarshalJSON` at lines 611-613. -/
def sLicense : Struct where
  fields := [
    ⟨"Name", "name", .str, false⟩,
    ⟨"URL", "url", (.ptr .str), true⟩]
  decodes := true
  require := ["name"]
  known := ["name", "url"]
  patterns := [⟨.x, "MapOfAnything", .any⟩]
  strict := true
  parts := [.fields, .hidden "MapOfAnything"]

/-- `ExternalDocumentation` of `/repo/openapi3/entities.go`: type at line 616, `UnmarshalJSON` at lines 665-730, `MarshalJSON` at lines 733-735. -/
def sExternalDocumentation : Struct where
  fields := [
    ⟨"Description", "description", (.ptr .str), true⟩,
    ⟨"URL", "url", .str, false⟩]
  decodes := true
  require := ["url"]
  known := ["description", "url"]
  patterns := [⟨.x, "MapOfAnything", .any⟩]
  strict := true
  parts := [.fields, .hidden "MapOfAnything"]

/-- `Server` of `/repo/openapi3/entities.go`: type at line 738, `UnmarshalJSON` at lines 804-869, `MarshalJSON` at lines 872-874. -/
def sServer : Struct where
  fields := [
    ⟨"URL", "url", .str, false⟩,
    ⟨"Description", "description", (.ptr .str), true⟩,
    ⟨"Variables", "variables", (.map (.named "ServerVariable")), true⟩]
  decodes := true
  require := ["url"]
  known := ["url", "description", "variables"]
  patterns := [⟨.x, "MapOfAnything", .any⟩]
  strict := true
  parts := [.fields, .hidden "MapOfAnything"]

/-- `ServerVariable` of `/repo/openapi3/entities.go`: type at line 877, `UnmarshalJSON` at lines 932-997, `MarshalJSON` at lines 1000-1002. -/
def sServerVariable : Struct where
  fields := [
    ⟨"Enum", "enum", (.slice .str), true⟩,
    ⟨"Default", "default", .str, false⟩,
    ⟨"Description", "description", (.ptr .str), true⟩]
  decodes := true
  require := ["default"]
  known := ["enum", "default", "description"]
  patterns := [⟨.x, "MapOfAnything", .any⟩]
  strict := true
  parts := [.fields, .hidden "MapOfAnything"]

/-- `Tag` of `/repo/openapi3/entities.go`: type at line 1005, `UnmarshalJSON` at lines 1069-1134, `MarshalJSON` at lines 1137-1139. -/
def sTag : Struct where
  fields := [
    ⟨"Name", "name", .str, false⟩,
    ⟨"Description", "description", (.ptr .str), true⟩,
    ⟨"ExternalDocs", "externalDocs", (.ptr (.named "ExternalDocumentation")), true⟩]
  decodes := true
  require := ["name"]
  known := ["name", "description", "externalDocs"]
  patterns := [⟨.x, "MapOfAnything", .any⟩]
  strict := true
  parts := [.fields, .hidden "MapOfAnything"]

/-- `PathItem` of `/repo/openapi3/entities.go`: type at line 1142, `UnmarshalJSON` at lines 1227-1303, `MarshalJSON` at lines 1306-1308. -/
def sPathItem : Struct where
  fields := [
    ⟨"Ref", "$ref", (.ptr .str), true⟩,
    ⟨"Summary", "summary", (.ptr .str), true⟩,
    ⟨"Description", "description", (.ptr .str), true⟩,
    ⟨"Servers", "servers", (.slice (.named "Server")), true⟩,
    ⟨"Parameters", "parameters", (.slice (.named "ParameterOrRef")), true⟩]
  decodes := true
  known := ["$ref", "summary", "description", "servers", "parameters"]
  patterns := [⟨.methods, "MapOfOperationValues", (.named "Operation")⟩, ⟨.x, "MapOfAnything", .any⟩]
  strict := true
  parts := [.fields, .hidden "MapOfOperationValues", .hidden "MapOfAnything"]

/-- `ParameterReference` of `/repo/openapi3/entities.go`: type at line 1311, `UnmarshalJSON` at lines 1334-1374. -/
def sParameterReference : Struct where
  fields := [
    ⟨"Ref", "$ref", .str, false⟩]
  decodes := true
  require := ["$ref"]
  known := ["$ref"]
  strict := true

/-- `Parameter` of `/repo/openapi3/entities.go`: type at line 1377, `UnmarshalJSON` at lines 1576-1658, `MarshalJSON` at lines 1661-1663. -/
def sParameter : Struct where
  fields := [
    ⟨"Name", "name", .str, false⟩,
    ⟨"In", "in", (.named "ParameterIn"), false⟩,
    ⟨"Description", "description", (.ptr .str), true⟩,
    ⟨"Required", "required", (.ptr .bool), true⟩,
    ⟨"Deprecated", "deprecated", (.ptr .bool), true⟩,
    ⟨"AllowEmptyValue", "allowEmptyValue", (.ptr .bool), true⟩,
    ⟨"Style", "style", (.ptr .str), true⟩,
    ⟨"Explode", "explode", (.ptr .bool), true⟩,
    ⟨"AllowReserved", "allowReserved", (.ptr .bool), true⟩,
    ⟨"Schema", "schema", (.ptr (.named "SchemaOrRef")), true⟩,
    ⟨"Content", "content", (.map (.named "MediaType")), true⟩,
    ⟨"Example", "example", (.ptr .any), true⟩,
    ⟨"Examples", "examples", (.map (.named "ExampleOrRef")), true⟩]
  decodes := true
  embeds := [⟨"SchemaXORContent", (.ptr (.named "SchemaXORContent"))⟩, ⟨"Location", (.ptr (.named "ParameterLocation"))⟩]
  require := ["name", "in"]
  nulls := [("Example", "example")]
  known := ["name", "in", "description", "required", "deprecated", "allowEmptyValue", "style", "explode", "allowReserved", "schema", "content", "example", "examples"]
  patterns := [⟨.x, "MapOfAnything", .any⟩]
  strict := true
  parts := [.fields, .hidden "MapOfAnything", .hidden "SchemaXORContent", .hidden "Location"]

/-- `Schema` of `/repo/openapi3/entities.go`: type at line 1666, `UnmarshalJSON` at lines 2039-2112, `MarshalJSON` at lines 2115-2117. -/
def sSchema : Struct where
  fields := [
    ⟨"Title", "title", (.ptr .str), true⟩,
    ⟨"MultipleOf", "multipleOf", (.ptr .float), true⟩,
    ⟨"Maximum", "maximum", (.ptr .float), true⟩,
    ⟨"ExclusiveMaximum", "exclusiveMaximum", (.ptr .bool), true⟩,
    ⟨"Minimum", "minimum", (.ptr .float), true⟩,
    ⟨"ExclusiveMinimum", "exclusiveMinimum", (.ptr .bool), true⟩,
    ⟨"MaxLength", "maxLength", (.ptr .int), true⟩,
    ⟨"MinLength", "minLength", (.ptr .int), true⟩,
    ⟨"Pattern", "pattern", (.ptr .str), true⟩,
    ⟨"MaxItems", "maxItems", (.ptr .int), true⟩,
    ⟨"MinItems", "minItems", (.ptr .int), true⟩,
    ⟨"UniqueItems", "uniqueItems", (.ptr .bool), true⟩,
    ⟨"MaxProperties", "maxProperties", (.ptr .int), true⟩,
    ⟨"MinProperties", "minProperties", (.ptr .int), true⟩,
    ⟨"Required", "required", (.slice .str), true⟩,
    ⟨"Enum", "enum", (.slice .any), true⟩,
    ⟨"Type", "type", (.ptr (.named "SchemaType")), true⟩,
    ⟨"Not", "not", (.ptr (.named "SchemaOrRef")), true⟩,
    ⟨"AllOf", "allOf", (.slice (.named "SchemaOrRef")), true⟩,
    ⟨"OneOf", "oneOf", (.slice (.named "SchemaOrRef")), true⟩,
    ⟨"AnyOf", "anyOf", (.slice (.named "SchemaOrRef")), true⟩,
    ⟨"Items", "items", (.ptr (.named "SchemaOrRef")), true⟩,
    ⟨"Properties", "properties", (.map (.named "SchemaOrRef")), true⟩,
    ⟨"AdditionalProperties", "additionalProperties", (.ptr (.named "SchemaAdditionalProperties")), true⟩,
    ⟨"Description", "description", (.ptr .str), true⟩,
    ⟨"Format", "format", (.ptr .str), true⟩,
    ⟨"Default", "default", (.ptr .any), true⟩,
    ⟨"Nullable", "nullable", (.ptr .bool), true⟩,
    ⟨"Discriminator", "discriminator", (.ptr (.named "Discriminator")), true⟩,
    ⟨"ReadOnly", "readOnly", (.ptr .bool), true⟩,
    ⟨"WriteOnly", "writeOnly", (.ptr .bool), true⟩,
    ⟨"Example", "example", (.ptr .any), true⟩,
    ⟨"ExternalDocs", "externalDocs", (.ptr (.named "ExternalDocumentation")), true⟩,
    ⟨"Deprecated", "deprecated", (.ptr .bool), true⟩,
    ⟨"XML", "xml", (.ptr (.named "XML")), true⟩]
  decodes := true
  nulls := [("Default", "default"), ("Example", "example")]
  known := ["title", "multipleOf", "maximum", "exclusiveMaximum", "minimum", "exclusiveMinimum", "maxLength", "minLength", "pattern", "maxItems", "minItems", "uniqueItems", "maxProperties", "minProperties", "required", "enum", "type", "not", "allOf", "oneOf", "anyOf", "items", "properties", "additionalProperties", "description", "format", "default", "nullable", "discriminator", "readOnly", "writeOnly", "example", "externalDocs", "deprecated", "xml"]
  patterns := [⟨.x, "MapOfAnything", .any⟩]
  strict := true
  parts := [.fields, .hidden "MapOfAnything"]

/-- `SchemaReference` of `/repo/openapi3/entities.go`: type at line 2120, `UnmarshalJSON` at lines 2143-2183. -/
def sSchemaReference : Struct where
  fields := [
    ⟨"Ref", "$ref", .str, false⟩]
  decodes := true
  require := ["$ref"]
  known := ["$ref"]
  strict := true

/-- `SchemaOrRef` of `/repo/openapi3/entities.go`: type at line 2186, `UnmarshalJSON` at lines 2222-2249, `MarshalJSON` at lines 2252-2254. -/
def sSchemaOrRef : Struct where
  oneOf := [⟨"Schema", (.ptr (.named "Schema"))⟩, ⟨"SchemaReference", (.ptr (.named "SchemaReference"))⟩]
  parts := [.hidden "Schema", .hidden "SchemaReference"]

/-- `SchemaAdditionalProperties` of `/repo/openapi3/entities.go`: type at line 2257, `UnmarshalJSON` at lines 2284-2311, `MarshalJSON` at lines 2314-2316. -/
def sSchemaAdditionalProperties : Struct where
  oneOf := [⟨"SchemaOrRef", (.ptr (.named "SchemaOrRef"))⟩, ⟨"Bool", (.ptr .bool)⟩]
  parts := [.hidden "SchemaOrRef", .hidden "Bool"]

/-- `Discriminator` of `/repo/openapi3/entities.go`: type at line 2319, `UnmarshalJSON` at lines 2354-2380. -/
def sDiscriminator : Struct where
  fields := [
    ⟨"PropertyName", "propertyName", .str, false⟩,
    ⟨"Mapping", "mapping", (.map .str), true⟩]
  decodes := true
  require := ["propertyName"]

/-- `XML` of `/repo/openapi3/entities.go`: type at line 2383, `UnmarshalJSON` at lines 2450-2509, `MarshalJSON` at lines 2512-2514. -/
def sXML : Struct where
  fields := [
    ⟨"Name", "name", (.ptr .str), true⟩,
    ⟨"Namespace", "namespace", (.ptr .str), true⟩,
    ⟨"Prefix", "prefix", (.ptr .str), true⟩,
    ⟨"Attribute", "attribute", (.ptr .bool), true⟩,
    ⟨"Wrapped", "wrapped", (.ptr .bool), true⟩]
  decodes := true
  known := ["name", "namespace", "prefix", "attribute", "wrapped"]
  patterns := [⟨.x, "MapOfAnything", .any⟩]
  strict := true
  parts := [.fields, .hidden "MapOfAnything"]

/-- `MediaType` of `/repo/openapi3/entities.go`: type at line 2517, `UnmarshalJSON` at lines 2607-2673, `MarshalJSON` at lines 2676-2678. -/
def sMediaType : Struct where
  fields := [
    ⟨"Schema", "schema", (.ptr (.named "SchemaOrRef")), true⟩,
    ⟨"Example", "example", (.ptr .any), true⟩,
    ⟨"Examples", "examples", (.map (.named "ExampleOrRef")), true⟩,
    ⟨"Encoding", "encoding", (.map (.named "Encoding")), true⟩]
  decodes := true
  nulls := [("Example", "example")]
  known := ["schema", "example", "examples", "encoding"]
  patterns := [⟨.x, "MapOfAnything", .any⟩]
  strict := true
  parts := [.fields, .hidden "MapOfAnything"]

/-- `ExampleReference` of `/repo/openapi3/entities.go`: type at line 2681, `UnmarshalJSON` at lines 2704-2744. -/
def sExampleReference : Struct where
  fields := [
    ⟨"Ref", "$ref", .str, false⟩]
  decodes := true
  require := ["$ref"]
  known := ["$ref"]
  strict := true

/-- `Example` of `/repo/openapi3/entities.go`: type at line 2747, `UnmarshalJSON` at lines 2806-2872, `MarshalJSON` at lines 2875-2877. -/
def sExample : Struct where
  fields := [
    ⟨"Summary", "summary", (.ptr .str), true⟩,
    ⟨"Description", "description", (.ptr .str), true⟩,
    ⟨"Value", "value", (.ptr .any), true⟩,
    ⟨"ExternalValue", "externalValue", (.ptr .str), true⟩]
  decodes := true
  nulls := [("Value", "value")]
  known := ["summary", "description", "value", "externalValue"]
  patterns := [⟨.x, "MapOfAnything", .any⟩]
  strict := true
  parts := [.fields, .hidden "MapOfAnything"]

/-- `ExampleOrRef` of `/repo/openapi3/entities.go`: type at line 2880, `UnmarshalJSON` at lines 2916-2943, `MarshalJSON` at lines 2946-2948. -/
def sExampleOrRef : Struct where
  oneOf := [⟨"ExampleReference", (.ptr (.named "ExampleReference"))⟩, ⟨"Example", (.ptr (.named "Example"))⟩]
  parts := [.hidden "ExampleReference", .hidden "Example"]

/-- `Encoding` of `/repo/openapi3/entities.go`: type at line 2951, `UnmarshalJSON` at lines 3011-3045. -/
def sEncoding : Struct where
  fields := [
    ⟨"ContentType", "contentType", (.ptr .str), true⟩,
    ⟨"Headers", "headers", (.map (.named "Header")), true⟩,
    ⟨"Style", "style", (.ptr (.named "EncodingStyle")), true⟩,
    ⟨"Explode", "explode", (.ptr .bool), true⟩,
    ⟨"AllowReserved", "allowReserved", (.ptr .bool), true⟩]
  decodes := true
  known := ["contentType", "headers", "style", "explode", "allowReserved"]
  strict := true

/-- `Header` of `/repo/openapi3/entities.go`: type at line 3048, `UnmarshalJSON` at lines 3187-3259, `MarshalJSON` at lines 3265-3267. -/
def sHeader : Struct where
  fields := [
    ⟨"Description", "description", (.ptr .str), true⟩,
    ⟨"Required", "required", (.ptr .bool), true⟩,
    ⟨"Deprecated", "deprecated", (.ptr .bool), true⟩,
    ⟨"AllowEmptyValue", "allowEmptyValue", (.ptr .bool), true⟩,
    ⟨"Explode", "explode", (.ptr .bool), true⟩,
    ⟨"AllowReserved", "allowReserved", (.ptr .bool), true⟩,
    ⟨"Schema", "schema", (.ptr (.named "SchemaOrRef")), true⟩,
    ⟨"Content", "content", (.map (.named "MediaType")), true⟩,
    ⟨"Example", "example", (.ptr .any), true⟩,
    ⟨"Examples", "examples", (.map (.named "ExampleOrRef")), true⟩]
  decodes := true
  consts := [("style", (.str "simple"))]
  nulls := [("Example", "example")]
  known := ["description", "required", "deprecated", "allowEmptyValue", "explode", "allowReserved", "schema", "content", "example", "examples", "style"]
  patterns := [⟨.x, "MapOfAnything", .any⟩]
  strict := true
  parts := [.consts [("style", (.str "simple"))], .fields, .hidden "MapOfAnything"]

/-- `HasSchema` of `/repo/openapi3/entities.go`: type at line 3272, `UnmarshalJSON` at lines 3289-3315. -/
def sHasSchema : Struct where
  fields := [
    ⟨"Schema", "schema", .any, false⟩]
  decodes := true
  require := ["schema"]

/-- `HasContent` of `/repo/openapi3/entities.go`: type at line 3322, `UnmarshalJSON` at lines 3339-3365. -/
def sHasContent : Struct where
  fields := [
    ⟨"Content", "content", .any, false⟩]
  decodes := true
  require := ["content"]

/-- `SchemaXORContent` of `/repo/openapi3/entities.go`: type at line 3370, `UnmarshalJSON` at lines 3406-3439, `MarshalJSON` at lines 3442-3444. -/
def sSchemaXORContent : Struct where
  nots := [(.named "SchemaXORContentNot")]
  oneOf := [⟨"HasSchema", (.ptr (.named "HasSchema"))⟩, ⟨"HasContent", (.ptr (.named "HasContent"))⟩]
  parts := [.hidden "HasSchema", .hidden "HasContent"]

/-- `SchemaXORContentNot` of `/repo/openapi3/entities.go`: type at line 3447, `UnmarshalJSON` at lines 3472-3498. -/
def sSchemaXORContentNot : Struct where
  fields := [
    ⟨"Schema", "schema", .any, false⟩,
    ⟨"Content", "content", .any, false⟩]
  decodes := true
  require := ["schema", "content"]

/-- `PathParameter` of `/repo/openapi3/entities.go`: type at line 3505, `UnmarshalJSON` at lines 3522-3560, `MarshalJSON` at lines 3566-3568. -/
def sPathParameter : Struct where
  fields := [
    ⟨"Style", "style", (.ptr (.named "PathParameterStyle")), true⟩]
  decodes := true
  require := ["required"]
  consts := [("in", (.str "path")), ("required", (.bool true))]
  parts := [.consts [("in", (.str "path")), ("required", (.bool true))], .fields]

/-- `QueryParameter` of `/repo/openapi3/entities.go`: type at line 3575, `UnmarshalJSON` at lines 3588-3614, `MarshalJSON` at lines 3620-3622. -/
def sQueryParameter : Struct where
  fields := [
    ⟨"Style", "style", (.ptr (.named "QueryParameterStyle")), true⟩]
  decodes := true
  consts := [("in", (.str "query"))]
  parts := [.consts [("in", (.str "query"))], .fields]

/-- `HeaderParameter` of `/repo/openapi3/entities.go`: type at line 3629, `UnmarshalJSON` at lines 3632-3655, `MarshalJSON` at lines 3661-3663. -/
def sHeaderParameter : Struct where
  consts := [("in", (.str "header")), ("style", (.str "simple"))]
  parts := [.consts [("in", (.str "header")), ("style", (.str "simple"))]]

/-- `CookieParameter` of `/repo/openapi3/entities.go`: type at line 3670, `UnmarshalJSON` at lines 3673-3696, `MarshalJSON` at lines 3702-3704. -/
def sCookieParameter : Struct where
  consts := [("in", (.str "cookie")), ("style", (.str "form"))]
  parts := [.consts [("in", (.str "cookie")), ("style", (.str "form"))]]

/-- `ParameterLocation` of `/repo/openapi3/entities.go`: type at line 3709, `UnmarshalJSON` at lines 3777-3820, `MarshalJSON` at lines 3823-3825. -/
def sParameterLocation : Struct where
  oneOf := [⟨"PathParameter", (.ptr (.named "PathParameter"))⟩, ⟨"QueryParameter", (.ptr (.named "QueryParameter"))⟩, ⟨"HeaderParameter", (.ptr (.named "HeaderParameter"))⟩, ⟨"CookieParameter", (.ptr (.named "CookieParameter"))⟩]
  parts := [.hidden "PathParameter", .hidden "QueryParameter", .hidden "HeaderParameter", .hidden "CookieParameter"]

/-- `ParameterOrRef` of `/repo/openapi3/entities.go`: type at line 3828, `UnmarshalJSON` at lines 3864-3891, `MarshalJSON` at lines 3894-3896. -/
def sParameterOrRef : Struct where
  oneOf := [⟨"ParameterReference", (.ptr (.named "ParameterReference"))⟩, ⟨"Parameter", (.ptr (.named "Parameter"))⟩]
  parts := [.hidden "ParameterReference", .hidden "Parameter"]

/-- `Operation` of `/repo/openapi3/entities.go`: type at line 3899, `UnmarshalJSON` at lines 4055-4120, `MarshalJSON` at lines 4123-4125. -/
def sOperation : Struct where
  fields := [
    ⟨"Tags", "tags", (.slice .str), true⟩,
    ⟨"Summary", "summary", (.ptr .str), true⟩,
    ⟨"Description", "description", (.ptr .str), true⟩,
    ⟨"ExternalDocs", "externalDocs", (.ptr (.named "ExternalDocumentation")), true⟩,
    ⟨"ID", "operationId", (.ptr .str), true⟩,
    ⟨"Parameters", "parameters", (.slice (.named "ParameterOrRef")), true⟩,
    ⟨"RequestBody", "requestBody", (.ptr (.named "RequestBodyOrRef")), true⟩,
    ⟨"Responses", "responses", (.named "Responses"), false⟩,
    ⟨"Callbacks", "callbacks", (.map (.named "CallbackOrRef")), true⟩,
    ⟨"Deprecated", "deprecated", (.ptr .bool), true⟩,
    ⟨"Security", "security", (.slice (.map (.slice .str))), true⟩,
    ⟨"Servers", "servers", (.slice (.named "Server")), true⟩]
  decodes := true
  require := ["responses"]
  known := ["tags", "summary", "description", "externalDocs", "operationId", "parameters", "requestBody", "responses", "callbacks", "deprecated", "security", "servers"]
  patterns := [⟨.x, "MapOfAnything", .any⟩]
  strict := true
  parts := [.fields, .hidden "MapOfAnything"]

/-- `RequestBodyReference` of `/repo/openapi3/entities.go`: type at line 4128, `UnmarshalJSON` at lines 4151-4191. -/
def sRequestBodyReference : Struct where
  fields := [
    ⟨"Ref", "$ref", .str, false⟩]
  decodes := true
  require := ["$ref"]
  known := ["$ref"]
  strict := true

/-- `RequestBody` of `/repo/openapi3/entities.go`: type at line 4194, `UnmarshalJSON` at lines 4260-4325, `MarshalJSON` at lines 4328-4330. -/
def sRequestBody : Struct where
  fields := [
    ⟨"Description", "description", (.ptr .str), true⟩,
    ⟨"Content", "content", (.map (.named "MediaType")), false⟩,
    ⟨"Required", "required", (.ptr .bool), true⟩]
  decodes := true
  require := ["content"]
  known := ["description", "content", "required"]
  patterns := [⟨.x, "MapOfAnything", .any⟩]
  strict := true
  parts := [.fields, .hidden "MapOfAnything"]

/-- `RequestBodyOrRef` of `/repo/openapi3/entities.go`: type at line 4333, `UnmarshalJSON` at lines 4369-4396, `MarshalJSON` at lines 4399-4401. -/
def sRequestBodyOrRef : Struct where
  oneOf := [⟨"RequestBodyReference", (.ptr (.named "RequestBodyReference"))⟩, ⟨"RequestBody", (.ptr (.named "RequestBody"))⟩]
  parts := [.hidden "RequestBodyReference", .hidden "RequestBody"]

/-- `Responses` of `/repo/openapi3/entities.go`: type at line 4404, `UnmarshalJSON` at lines 4466-4542, `MarshalJSON` at lines 4545-4547. -/
def sResponses : Struct where
  fields := [
    ⟨"Default", "default", (.ptr (.named "ResponseOrRef")), true⟩]
  decodes := true
  known := ["default"]
  patterns := [⟨.status, "MapOfResponseOrRefValues", (.named "ResponseOrRef")⟩, ⟨.x, "MapOfAnything", .any⟩]
  strict := true
  parts := [.fields, .hidden "MapOfResponseOrRefValues", .hidden "MapOfAnything"]

/-- `ResponseReference` of `/repo/openapi3/entities.go`: type at line 4550, `UnmarshalJSON` at lines 4573-4613. -/
def sResponseReference : Struct where
  fields := [
    ⟨"Ref", "$ref", .str, false⟩]
  decodes := true
  require := ["$ref"]
  known := ["$ref"]
  strict := true

/-- `Response` of `/repo/openapi3/entities.go`: type at line 4616, `UnmarshalJSON` at lines 4712-4777, `MarshalJSON` at lines 4780-4782. -/
def sResponse : Struct where
  fields := [
    ⟨"Description", "description", .str, false⟩,
    ⟨"Headers", "headers", (.map (.named "HeaderOrRef")), true⟩,
    ⟨"Content", "content", (.map (.named "MediaType")), true⟩,
    ⟨"Links", "links", (.map (.named "LinkOrRef")), true⟩]
  decodes := true
  require := ["description"]
  known := ["description", "headers", "content", "links"]
  patterns := [⟨.x, "MapOfAnything", .any⟩]
  strict := true
  parts := [.fields, .hidden "MapOfAnything"]

/-- `HeaderReference` of `/repo/openapi3/entities.go`: type at line 4785, `UnmarshalJSON` at lines 4808-4848. -/
def sHeaderReference : Struct where
  fields := [
    ⟨"Ref", "$ref", .str, false⟩]
  decodes := true
  require := ["$ref"]
  known := ["$ref"]
  strict := true

/-- `HeaderOrRef` of `/repo/openapi3/entities.go`: type at line 4851, `UnmarshalJSON` at lines 4887-4914, `MarshalJSON` at lines 4917-4919. -/
def sHeaderOrRef : Struct where
  oneOf := [⟨"HeaderReference", (.ptr (.named "HeaderReference"))⟩, ⟨"Header", (.ptr (.named "Header"))⟩]
  parts := [.hidden "HeaderReference", .hidden "Header"]

/-- `LinkReference` of `/repo/openapi3/entities.go`: type at line 4922, `UnmarshalJSON` at lines 4945-4985. -/
def sLinkReference : Struct where
  fields := [
    ⟨"Ref", "$ref", .str, false⟩]
  decodes := true
  require := ["$ref"]
  known := ["$ref"]
  strict := true

/-- `Link` of `/repo/openapi3/entities.go`: type at line 4988, `UnmarshalJSON` at lines 5083-5155, `MarshalJSON` at lines 5158-5160. -/
def sLink : Struct where
  nots := [(.named "LinkNot")]
  fields := [
    ⟨"OperationID", "operationId", (.ptr .str), true⟩,
    ⟨"OperationRef", "operationRef", (.ptr .str), true⟩,
    ⟨"Parameters", "parameters", (.map .any), true⟩,
    ⟨"RequestBody", "requestBody", (.ptr .any), true⟩,
    ⟨"Description", "description", (.ptr .str), true⟩,
    ⟨"Server", "server", (.ptr (.named "Server")), true⟩]
  decodes := true
  nulls := [("RequestBody", "requestBody")]
  known := ["operationId", "operationRef", "parameters", "requestBody", "description", "server"]
  patterns := [⟨.x, "MapOfAnything", .any⟩]
  strict := true
  parts := [.fields, .hidden "MapOfAnything"]

/-- `LinkNot` of `/repo/openapi3/entities.go`: type at line 5165, `UnmarshalJSON` at lines 5190-5216. -/
def sLinkNot : Struct where
  fields := [
    ⟨"OperationID", "operationId", .any, false⟩,
    ⟨"OperationRef", "operationRef", .any, false⟩]
  decodes := true
  require := ["operationId", "operationRef"]

/-- `LinkOrRef` of `/repo/openapi3/entities.go`: type at line 5219, `UnmarshalJSON` at lines 5255-5282, `MarshalJSON` at lines 5285-5287. -/
def sLinkOrRef : Struct where
  oneOf := [⟨"LinkReference", (.ptr (.named "LinkReference"))⟩, ⟨"Link", (.ptr (.named "Link"))⟩]
  parts := [.hidden "LinkReference", .hidden "Link"]

/-- `ResponseOrRef` of `/repo/openapi3/entities.go`: type at line 5290, `UnmarshalJSON` at lines 5326-5353, `MarshalJSON` at lines 5356-5358. -/
def sResponseOrRef : Struct where
  oneOf := [⟨"ResponseReference", (.ptr (.named "ResponseReference"))⟩, ⟨"Response", (.ptr (.named "Response"))⟩]
  parts := [.hidden "ResponseReference", .hidden "Response"]

/-- `CallbackReference` of `/repo/openapi3/entities.go`: type at line 5361, `UnmarshalJSON` at lines 5384-5424. -/
def sCallbackReference : Struct where
  fields := [
    ⟨"Ref", "$ref", .str, false⟩]
  decodes := true
  require := ["$ref"]
  known := ["$ref"]
  strict := true

/-- `Callback` of `/repo/openapi3/entities.go`: type at line 5427, `UnmarshalJSON` at lines 5467-5518, `MarshalJSON` at lines 5521-5523. -/
def sCallback : Struct where
  patterns := [⟨.x, "MapOfAnything", .any⟩]
  additional := some ⟨"AdditionalProperties", (.named "PathItem")⟩
  parts := [.hidden "MapOfAnything", .hidden "AdditionalProperties"]

/-- `CallbackOrRef` of `/repo/openapi3/entities.go`: type at line 5526, `UnmarshalJSON` at lines 5562-5589, `MarshalJSON` at lines 5592-5594. -/
def sCallbackOrRef : Struct where
  oneOf := [⟨"CallbackReference", (.ptr (.named "CallbackReference"))⟩, ⟨"Callback", (.ptr (.named "Callback"))⟩]
  parts := [.hidden "CallbackReference", .hidden "Callback"]

/-- `Paths` of `/repo/openapi3/entities.go`: type at line 5597, `UnmarshalJSON` at lines 5637-5700, `MarshalJSON` at lines 5703-5705. -/
def sPaths : Struct where
  patterns := [⟨.slash, "MapOfPathItemValues", (.named "PathItem")⟩, ⟨.x, "MapOfAnything", .any⟩]
  strict := true
  parts := [.hidden "MapOfPathItemValues", .hidden "MapOfAnything"]

/-- `Components` of `/repo/openapi3/entities.go`: type at line 5708, `UnmarshalJSON` at lines 5888-5947, `MarshalJSON` at lines 5950-5952. -/
def sComponents : Struct where
  fields := [
    ⟨"Schemas", "schemas", (.ptr (.named "ComponentsSchemas")), true⟩,
    ⟨"Responses", "responses", (.ptr (.named "ComponentsResponses")), true⟩,
    ⟨"Parameters", "parameters", (.ptr (.named "ComponentsParameters")), true⟩,
    ⟨"Examples", "examples", (.ptr (.named "ComponentsExamples")), true⟩,
    ⟨"RequestBodies", "requestBodies", (.ptr (.named "ComponentsRequestBodies")), true⟩,
    ⟨"Headers", "headers", (.ptr (.named "ComponentsHeaders")), true⟩,
    ⟨"SecuritySchemes", "securitySchemes", (.ptr (.named "ComponentsSecuritySchemes")), true⟩,
    ⟨"Links", "links", (.ptr (.named "ComponentsLinks")), true⟩,
    ⟨"Callbacks", "callbacks", (.ptr (.named "ComponentsCallbacks")), true⟩]
  decodes := true
  known := ["schemas", "responses", "parameters", "examples", "requestBodies", "headers", "securitySchemes", "links", "callbacks"]
  patterns := [⟨.x, "MapOfAnything", .any⟩]
  strict := true
  parts := [.fields, .hidden "MapOfAnything"]

/-- `ComponentsSchemas` of `/repo/openapi3/entities.go`: type at line 5955, `UnmarshalJSON` at lines 5977-6013, `MarshalJSON` at lines 6016-6018. -/
def sComponentsSchemas : Struct where
  patterns := [⟨.name, "MapOfSchemaOrRefValues", (.named "SchemaOrRef")⟩]
  parts := [.hidden "MapOfSchemaOrRefValues"]

/-- `ComponentsResponses` of `/repo/openapi3/entities.go`: type at line 6021, `UnmarshalJSON` at lines 6043-6079, `MarshalJSON` at lines 6082-6084. -/
def sComponentsResponses : Struct where
  patterns := [⟨.name, "MapOfResponseOrRefValues", (.named "ResponseOrRef")⟩]
  parts := [.hidden "MapOfResponseOrRefValues"]

/-- `ComponentsParameters` of `/repo/openapi3/entities.go`: type at line 6087, `UnmarshalJSON` at lines 6109-6145, `MarshalJSON` at lines 6148-6150. -/
def sComponentsParameters : Struct where
  patterns := [⟨.name, "MapOfParameterOrRefValues", (.named "ParameterOrRef")⟩]
  parts := [.hidden "MapOfParameterOrRefValues"]

/-- `ComponentsExamples` of `/repo/openapi3/entities.go`: type at line 6153, `UnmarshalJSON` at lines 6175-6211, `MarshalJSON` at lines 6214-6216. -/
def sComponentsExamples : Struct where
  patterns := [⟨.name, "MapOfExampleOrRefValues", (.named "ExampleOrRef")⟩]
  parts := [.hidden "MapOfExampleOrRefValues"]

/-- `ComponentsRequestBodies` of `/repo/openapi3/entities.go`: type at line 6219, `UnmarshalJSON` at lines 6241-6277, `MarshalJSON` at lines 6280-6282. -/
def sComponentsRequestBodies : Struct where
  patterns := [⟨.name, "MapOfRequestBodyOrRefValues", (.named "RequestBodyOrRef")⟩]
  parts := [.hidden "MapOfRequestBodyOrRefValues"]

/-- `ComponentsHeaders` of `/repo/openapi3/entities.go`: type at line 6285, `UnmarshalJSON` at lines 6307-6343, `MarshalJSON` at lines 6346-6348. -/
def sComponentsHeaders : Struct where
  patterns := [⟨.name, "MapOfHeaderOrRefValues", (.named "HeaderOrRef")⟩]
  parts := [.hidden "MapOfHeaderOrRefValues"]

/-- `SecuritySchemeReference` of `/repo/openapi3/entities.go`: type at line 6351, `UnmarshalJSON` at lines 6374-6414. -/
def sSecuritySchemeReference : Struct where
  fields := [
    ⟨"Ref", "$ref", .str, false⟩]
  decodes := true
  require := ["$ref"]
  known := ["$ref"]
  strict := true

/-- `APIKeySecurityScheme` of `/repo/openapi3/entities.go`: type at line 6417, `UnmarshalJSON` at lines 6475-6546, `MarshalJSON` at lines 6552-6554. -/
def sAPIKeySecurityScheme : Struct where
  fields := [
    ⟨"Name", "name", .str, false⟩,
    ⟨"In", "in", (.named "APIKeySecuritySchemeIn"), false⟩,
    ⟨"Description", "description", (.ptr .str), true⟩]
  decodes := true
  require := ["type", "name", "in"]
  consts := [("type", (.str "apiKey"))]
  known := ["name", "in", "description", "type"]
  patterns := [⟨.x, "MapOfAnything", .any⟩]
  strict := true
  parts := [.consts [("type", (.str "apiKey"))], .fields, .hidden "MapOfAnything"]

/-- `HTTPSecurityScheme` of `/repo/openapi3/entities.go`: type at line 6557, `UnmarshalJSON` at lines 6646-6740, `MarshalJSON` at lines 6746-6748. -/
def sHTTPSecurityScheme : Struct where
  fields := [
    ⟨"Scheme", "scheme", .str, false⟩,
    ⟨"BearerFormat", "bearerFormat", (.ptr .str), true⟩,
    ⟨"Description", "description", (.ptr .str), true⟩]
  decodes := true
  oneOf := [⟨"Bearer", (.ptr (.named "Bearer"))⟩, ⟨"NonBearer", (.ptr (.named "NonBearer"))⟩]
  require := ["scheme", "type"]
  consts := [("type", (.str "http"))]
  known := ["scheme", "bearerFormat", "description", "type"]
  patterns := [⟨.x, "MapOfAnything", .any⟩]
  strict := true
  parts := [.consts [("type", (.str "http"))], .fields, .hidden "MapOfAnything", .hidden "Bearer", .hidden "NonBearer"]

/-- `Bearer` of `/repo/openapi3/entities.go`: type at line 6755, `UnmarshalJSON` at lines 6758-6775, `MarshalJSON` at lines 6781-6783. -/
def sBearer : Struct where
  consts := [("scheme", (.str "bearer"))]
  parts := [.consts [("scheme", (.str "bearer"))]]

/-- `NonBearer` of `/repo/openapi3/entities.go`: type at line 6790, `UnmarshalJSON` at lines 6795-6816. -/
def sNonBearer : Struct where
  fields := [
    ⟨"Scheme", "scheme", (.ptr .any), true⟩]
  notConsts := [("scheme", (.str "bearer"))]
  forbid := ["bearerFormat"]

/-- `OAuth2SecurityScheme` of `/repo/openapi3/entities.go`: type at line 6825, `UnmarshalJSON` at lines 6874-6945, `MarshalJSON` at lines 6951-6953. -/
def sOAuth2SecurityScheme : Struct where
  fields := [
    ⟨"Flows", "flows", (.named "OAuthFlows"), false⟩,
    ⟨"Description", "description", (.ptr .str), true⟩]
  decodes := true
  require := ["type", "flows"]
  consts := [("type", (.str "oauth2"))]
  known := ["flows", "description", "type"]
  patterns := [⟨.x, "MapOfAnything", .any⟩]
  strict := true
  parts := [.consts [("type", (.str "oauth2"))], .fields, .hidden "MapOfAnything"]

/-- `OAuthFlows` of `/repo/openapi3/entities.go`: type at line 6956, `UnmarshalJSON` at lines 7051-7110, `MarshalJSON` at lines 7113-7115. -/
def sOAuthFlows : Struct where
  fields := [
    ⟨"Implicit", "implicit", (.ptr (.named "ImplicitOAuthFlow")), true⟩,
    ⟨"Password", "password", (.ptr (.named "PasswordOAuthFlow")), true⟩,
    ⟨"ClientCredentials", "clientCredentials", (.ptr (.named "ClientCredentialsFlow")), true⟩,
    ⟨"AuthorizationCode", "authorizationCode", (.ptr (.named "AuthorizationCodeOAuthFlow")), true⟩]
  decodes := true
  known := ["implicit", "password", "clientCredentials", "authorizationCode"]
  patterns := [⟨.x, "MapOfAnything", .any⟩]
  strict := true
  parts := [.fields, .hidden "MapOfAnything"]

/-- `ImplicitOAuthFlow` of `/repo/openapi3/entities.go`: type at line 7118, `UnmarshalJSON` at lines 7187-7252, `MarshalJSON` at lines 7255-7257. -/
def sImplicitOAuthFlow : Struct where
  fields := [
    ⟨"AuthorizationURL", "authorizationUrl", .str, false⟩,
    ⟨"RefreshURL", "refreshUrl", (.ptr .str), true⟩,
    ⟨"Scopes", "scopes", (.map .str), false⟩]
  decodes := true
  require := ["authorizationUrl", "scopes"]
  known := ["authorizationUrl", "refreshUrl", "scopes"]
  patterns := [⟨.x, "MapOfAnything", .any⟩]
  strict := true
  parts := [.fields, .hidden "MapOfAnything"]

/-- `PasswordOAuthFlow` of `/repo/openapi3/entities.go`: type at line 7260, `UnmarshalJSON` at lines 7328-7393, `MarshalJSON` at lines 7396-7398. -/
def sPasswordOAuthFlow : Struct where
  fields := [
    ⟨"TokenURL", "tokenUrl", .str, false⟩,
    ⟨"RefreshURL", "refreshUrl", (.ptr .str), true⟩,
    ⟨"Scopes", "scopes", (.map .str), true⟩]
  decodes := true
  require := ["tokenUrl"]
  known := ["tokenUrl", "refreshUrl", "scopes"]
  patterns := [⟨.x, "MapOfAnything", .any⟩]
  strict := true
  parts := [.fields, .hidden "MapOfAnything"]

/-- `ClientCredentialsFlow` of `/repo/openapi3/entities.go`: type at line 7401, `UnmarshalJSON` at lines 7469-7534, `MarshalJSON` at lines 7537-7539. -/
def sClientCredentialsFlow : Struct where
  fields := [
    ⟨"TokenURL", "tokenUrl", .str, false⟩,
    ⟨"RefreshURL", "refreshUrl", (.ptr .str), true⟩,
    ⟨"Scopes", "scopes", (.map .str), true⟩]
  decodes := true
  require := ["tokenUrl"]
  known := ["tokenUrl", "refreshUrl", "scopes"]
  patterns := [⟨.x, "MapOfAnything", .any⟩]
  strict := true
  parts := [.fields, .hidden "MapOfAnything"]

/-- `AuthorizationCodeOAuthFlow` of `/repo/openapi3/entities.go`: type at line 7542, `UnmarshalJSON` at lines 7621-7686, `MarshalJSON` at lines 7689-7691. -/
def sAuthorizationCodeOAuthFlow : Struct where
  fields := [
    ⟨"AuthorizationURL", "authorizationUrl", .str, false⟩,
    ⟨"TokenURL", "tokenUrl", .str, false⟩,
    ⟨"RefreshURL", "refreshUrl", (.ptr .str), true⟩,
    ⟨"Scopes", "scopes", (.map .str), true⟩]
  decodes := true
  require := ["authorizationUrl", "tokenUrl"]
  known := ["authorizationUrl", "tokenUrl", "refreshUrl", "scopes"]
  patterns := [⟨.x, "MapOfAnything", .any⟩]
  strict := true
  parts := [.fields, .hidden "MapOfAnything"]

/-- `OpenIDConnectSecurityScheme` of `/repo/openapi3/entities.go`: type at line 7694, `UnmarshalJSON` at lines 7745-7816, `MarshalJSON` at lines 7822-7824. -/
def sOpenIDConnectSecurityScheme : Struct where
  fields := [
    ⟨"OpenIDConnectURL", "openIdConnectUrl", .str, false⟩,
    ⟨"Description", "description", (.ptr .str), true⟩]
  decodes := true
  require := ["type", "openIdConnectUrl"]
  consts := [("type", (.str "openIdConnect"))]
  known := ["openIdConnectUrl", "description", "type"]
  patterns := [⟨.x, "MapOfAnything", .any⟩]
  strict := true
  parts := [.consts [("type", (.str "openIdConnect"))], .fields, .hidden "MapOfAnything"]

/-- `SecurityScheme` of `/repo/openapi3/entities.go`: type at line 7827, `UnmarshalJSON` at lines 7895-7938, `MarshalJSON` at lines 7941-7943. -/
def sSecurityScheme : Struct where
  oneOf := [⟨"APIKeySecurityScheme", (.ptr (.named "APIKeySecurityScheme"))⟩, ⟨"HTTPSecurityScheme", (.ptr (.named "HTTPSecurityScheme"))⟩, ⟨"OAuth2SecurityScheme", (.ptr (.named "OAuth2SecurityScheme"))⟩, ⟨"OpenIDConnectSecurityScheme", (.ptr (.named "OpenIDConnectSecurityScheme"))⟩]
  parts := [.hidden "APIKeySecurityScheme", .hidden "HTTPSecurityScheme", .hidden "OAuth2SecurityScheme", .hidden "OpenIDConnectSecurityScheme"]

/-- `SecuritySchemeOrRef` of `/repo/openapi3/entities.go`: type at line 7946, `UnmarshalJSON` at lines 7982-8009, `MarshalJSON` at lines 8012-8014. -/
def sSecuritySchemeOrRef : Struct where
  oneOf := [⟨"SecuritySchemeReference", (.ptr (.named "SecuritySchemeReference"))⟩, ⟨"SecurityScheme", (.ptr (.named "SecurityScheme"))⟩]
  parts := [.hidden "SecuritySchemeReference", .hidden "SecurityScheme"]

/-- `ComponentsSecuritySchemes` of `/repo/openapi3/entities.go`: type at line 8017, `UnmarshalJSON` at lines 8039-8075, `MarshalJSON` at lines 8078-8080. -/
def sComponentsSecuritySchemes : Struct where
  patterns := [⟨.name, "MapOfSecuritySchemeOrRefValues", (.named "SecuritySchemeOrRef")⟩]
  parts := [.hidden "MapOfSecuritySchemeOrRefValues"]

/-- `ComponentsLinks` of `/repo/openapi3/entities.go`: type at line 8083, `UnmarshalJSON` at lines 8105-8141, `MarshalJSON` at lines 8144-8146. -/
def sComponentsLinks : Struct where
  patterns := [⟨.name, "MapOfLinkOrRefValues", (.named "LinkOrRef")⟩]
  parts := [.hidden "MapOfLinkOrRefValues"]

/-- `ComponentsCallbacks` of `/repo/openapi3/entities.go`: type at line 8149, `UnmarshalJSON` at lines 8171-8207, `MarshalJSON` at lines 8210-8212. -/
def sComponentsCallbacks : Struct where
  patterns := [⟨.name, "MapOfCallbackOrRefValues", (.named "CallbackOrRef")⟩]
  parts := [.hidden "MapOfCallbackOrRefValues"]

/-- `ParameterIn` of `/repo/openapi3/entities.go`: type at line 8215, `UnmarshalJSON` at lines 8241-8264, `MarshalJSON` at lines 8226-8238. -/
def dParameterIn : Desc := .enum ["path", "query", "header", "cookie"]

/-- `SchemaType` of `/repo/openapi3/entities.go`: type at line 8267, `UnmarshalJSON` at lines 8297-8322, `MarshalJSON` at lines 8280-8294. -/
def dSchemaType : Desc := .enum ["array", "boolean", "integer", "number", "object", "string"]

/-- `EncodingStyle` of `/repo/openapi3/entities.go`: type at line 8325, `UnmarshalJSON` at lines 8351-8374, `MarshalJSON` at lines 8336-8348. -/
def dEncodingStyle : Desc := .enum ["form", "spaceDelimited", "pipeDelimited", "deepObject"]

/-- `PathParameterStyle` of `/repo/openapi3/entities.go`: type at line 8377, `UnmarshalJSON` at lines 8401-8423, `MarshalJSON` at lines 8387-8398. -/
def dPathParameterStyle : Desc := .enum ["matrix", "label", "simple"]

/-- `QueryParameterStyle` of `/repo/openapi3/entities.go`: type at line 8426, `UnmarshalJSON` at lines 8452-8475, `MarshalJSON` at lines 8437-8449. -/
def dQueryParameterStyle : Desc := .enum ["form", "spaceDelimited", "pipeDelimited", "deepObject"]

/-- `APIKeySecuritySchemeIn` of `/repo/openapi3/entities.go`: type at line 8478, `UnmarshalJSON` at lines 8502-8524, `MarshalJSON` at lines 8488-8499. -/
def dAPIKeySecuritySchemeIn : Desc := .enum ["header", "query", "cookie"]

/-- The named types of the package. -/
def table : Table := [
  ("Spec", .struct sSpec),
  ("Info", .struct sInfo),
  ("Contact", .struct sContact),
  ("License", .struct sLicense),
  ("ExternalDocumentation", .struct sExternalDocumentation),
  ("Server", .struct sServer),
  ("ServerVariable", .struct sServerVariable),
  ("Tag", .struct sTag),
  ("PathItem", .struct sPathItem),
  ("ParameterReference", .struct sParameterReference),
  ("Parameter", .struct sParameter),
  ("Schema", .struct sSchema),
  ("SchemaReference", .struct sSchemaReference),
  ("SchemaOrRef", .struct sSchemaOrRef),
  ("SchemaAdditionalProperties", .struct sSchemaAdditionalProperties),
  ("Discriminator", .struct sDiscriminator),
  ("XML", .struct sXML),
  ("MediaType", .struct sMediaType),
  ("ExampleReference", .struct sExampleReference),
  ("Example", .struct sExample),
  ("ExampleOrRef", .struct sExampleOrRef),
  ("Encoding", .struct sEncoding),
  ("Header", .struct sHeader),
  ("HasSchema", .struct sHasSchema),
  ("HasContent", .struct sHasContent),
  ("SchemaXORContent", .struct sSchemaXORContent),
  ("SchemaXORContentNot", .struct sSchemaXORContentNot),
  ("PathParameter", .struct sPathParameter),
  ("QueryParameter", .struct sQueryParameter),
  ("HeaderParameter", .struct sHeaderParameter),
  ("CookieParameter", .struct sCookieParameter),
  ("ParameterLocation", .struct sParameterLocation),
  ("ParameterOrRef", .struct sParameterOrRef),
  ("Operation", .struct sOperation),
  ("RequestBodyReference", .struct sRequestBodyReference),
  ("RequestBody", .struct sRequestBody),
  ("RequestBodyOrRef", .struct sRequestBodyOrRef),
  ("Responses", .struct sResponses),
  ("ResponseReference", .struct sResponseReference),
  ("Response", .struct sResponse),
  ("HeaderReference", .struct sHeaderReference),
  ("HeaderOrRef", .struct sHeaderOrRef),
  ("LinkReference", .struct sLinkReference),
  ("Link", .struct sLink),
  ("LinkNot", .struct sLinkNot),
  ("LinkOrRef", .struct sLinkOrRef),
  ("ResponseOrRef", .struct sResponseOrRef),
  ("CallbackReference", .struct sCallbackReference),
  ("Callback", .struct sCallback),
  ("CallbackOrRef", .struct sCallbackOrRef),
  ("Paths", .struct sPaths),
  ("Components", .struct sComponents),
  ("ComponentsSchemas", .struct sComponentsSchemas),
  ("ComponentsResponses", .struct sComponentsResponses),
  ("ComponentsParameters", .struct sComponentsParameters),
  ("ComponentsExamples", .struct sComponentsExamples),
  ("ComponentsRequestBodies", .struct sComponentsRequestBodies),
  ("ComponentsHeaders", .struct sComponentsHeaders),
  ("SecuritySchemeReference", .struct sSecuritySchemeReference),
  ("APIKeySecurityScheme", .struct sAPIKeySecurityScheme),
  ("HTTPSecurityScheme", .struct sHTTPSecurityScheme),
  ("Bearer", .struct sBearer),
  ("NonBearer", .struct sNonBearer),
  ("OAuth2SecurityScheme", .struct sOAuth2SecurityScheme),
  ("OAuthFlows", .struct sOAuthFlows),
  ("ImplicitOAuthFlow", .struct sImplicitOAuthFlow),
  ("PasswordOAuthFlow", .struct sPasswordOAuthFlow),
  ("ClientCredentialsFlow", .struct sClientCredentialsFlow),
  ("AuthorizationCodeOAuthFlow", .struct sAuthorizationCodeOAuthFlow),
  ("OpenIDConnectSecurityScheme", .struct sOpenIDConnectSecurityScheme),
  ("SecurityScheme", .struct sSecurityScheme),
  ("SecuritySchemeOrRef", .struct sSecuritySchemeOrRef),
  ("ComponentsSecuritySchemes", .struct sComponentsSecuritySchemes),
  ("ComponentsLinks", .struct sComponentsLinks),
  ("ComponentsCallbacks", .struct sComponentsCallbacks),
  ("ParameterIn", dParameterIn),
  ("SchemaType", dSchemaType),
  ("EncodingStyle", dEncodingStyle),
  ("PathParameterStyle", dPathParameterStyle),
  ("QueryParameterStyle", dQueryParameterStyle),
  ("APIKeySecuritySchemeIn", dAPIKeySecuritySchemeIn)]

end Verif.Codec.V30
