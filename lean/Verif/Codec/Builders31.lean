import Verif.Codec.Builder

/-! The builder methods of `/repo/openapi31/entities.go`. Written by `/verif/tools/builders.py`. -/

namespace Verif.Codec.V31

/-- The builder methods of `Spec` (`/repo/openapi31/entities.go:34-146`). -/
def bSpec : List Builder := [
  ⟨"Spec", "WithOpenapi", .set, "Openapi", .str⟩,
  ⟨"Spec", "WithInfo", .set, "Info", (.named "Info")⟩,
  ⟨"Spec", "WithJSONSchemaDialect", .setPtr, "JSONSchemaDialect", .str⟩,
  ⟨"Spec", "WithServers", .set, "Servers", (.slice (.named "Server"))⟩,
  ⟨"Spec", "WithPaths", .setPtr, "Paths", (.named "Paths")⟩,
  ⟨"Spec", "PathsEns", .ens, "Paths", (.named "Paths")⟩,
  ⟨"Spec", "WithWebhooks", .set, "Webhooks", (.map (.named "PathItemOrReference"))⟩,
  ⟨"Spec", "WithWebhooksItem", .item, "Webhooks", (.named "PathItemOrReference")⟩,
  ⟨"Spec", "WithComponents", .setPtr, "Components", (.named "Components")⟩,
  ⟨"Spec", "ComponentsEns", .ens, "Components", (.named "Components")⟩,
  ⟨"Spec", "WithSecurity", .set, "Security", (.slice (.map (.slice .str)))⟩,
  ⟨"Spec", "WithTags", .set, "Tags", (.slice (.named "Tag"))⟩,
  ⟨"Spec", "WithExternalDocs", .setPtr, "ExternalDocs", (.named "ExternalDocumentation")⟩,
  ⟨"Spec", "ExternalDocsEns", .ens, "ExternalDocs", (.named "ExternalDocumentation")⟩,
  ⟨"Spec", "WithMapOfAnything", .set, "MapOfAnything", (.map .any)⟩,
  ⟨"Spec", "WithMapOfAnythingItem", .item, "MapOfAnything", .any⟩]

/-- The builder methods of `Info` (`/repo/openapi31/entities.go:244-318`). -/
def bInfo : List Builder := [
  ⟨"Info", "WithTitle", .set, "Title", .str⟩,
  ⟨"Info", "WithSummary", .setPtr, "Summary", .str⟩,
  ⟨"Info", "WithDescription", .setPtr, "Description", .str⟩,
  ⟨"Info", "WithTermsOfService", .setPtr, "TermsOfService", .str⟩,
  ⟨"Info", "WithContact", .setPtr, "Contact", (.named "Contact")⟩,
  ⟨"Info", "ContactEns", .ens, "Contact", (.named "Contact")⟩,
  ⟨"Info", "WithLicense", .setPtr, "License", (.named "License")⟩,
  ⟨"Info", "LicenseEns", .ens, "License", (.named "License")⟩,
  ⟨"Info", "WithVersion", .set, "Version", .str⟩,
  ⟨"Info", "WithMapOfAnything", .set, "MapOfAnything", (.map .any)⟩,
  ⟨"Info", "WithMapOfAnythingItem", .item, "MapOfAnything", .any⟩]

/-- The builder methods of `Contact` (`/repo/openapi31/entities.go:409-441`). -/
def bContact : List Builder := [
  ⟨"Contact", "WithName", .setPtr, "Name", .str⟩,
  ⟨"Contact", "WithURL", .setPtr, "URL", .str⟩,
  ⟨"Contact", "WithEmail", .setPtr, "Email", .str⟩,
  ⟨"Contact", "WithMapOfAnything", .set, "MapOfAnything", (.map .any)⟩,
  ⟨"Contact", "WithMapOfAnythingItem", .item, "MapOfAnything", .any⟩]

/-- The builder methods of `License` (`/repo/openapi31/entities.go:517-549`). -/
def bLicense : List Builder := [
  ⟨"License", "WithName", .set, "Name", .str⟩,
  ⟨"License", "WithIdentifier", .setPtr, "Identifier", .str⟩,
  ⟨"License", "WithURL", .setPtr, "URL", .str⟩,
  ⟨"License", "WithMapOfAnything", .set, "MapOfAnything", (.map .any)⟩,
  ⟨"License", "WithMapOfAnythingItem", .item, "MapOfAnything", .any⟩]

/-- The builder methods of `Server` (`/repo/openapi31/entities.go:637-680`). -/
def bServer : List Builder := [
  ⟨"Server", "WithURL", .set, "URL", .str⟩,
  ⟨"Server", "WithDescription", .setPtr, "Description", .str⟩,
  ⟨"Server", "WithVariables", .set, "Variables", (.map (.named "ServerVariable"))⟩,
  ⟨"Server", "WithVariablesItem", .item, "Variables", (.named "ServerVariable")⟩,
  ⟨"Server", "WithMapOfAnything", .set, "MapOfAnything", (.map .any)⟩,
  ⟨"Server", "WithMapOfAnythingItem", .item, "MapOfAnything", .any⟩]

/-- The builder methods of `ServerVariable` (`/repo/openapi31/entities.go:766-798`). -/
def bServerVariable : List Builder := [
  ⟨"ServerVariable", "WithEnum", .set, "Enum", (.slice .str)⟩,
  ⟨"ServerVariable", "WithDefault", .set, "Default", .str⟩,
  ⟨"ServerVariable", "WithDescription", .setPtr, "Description", .str⟩,
  ⟨"ServerVariable", "WithMapOfAnything", .set, "MapOfAnything", (.map .any)⟩,
  ⟨"ServerVariable", "WithMapOfAnythingItem", .item, "MapOfAnything", .any⟩]

/-- The builder methods of `PathItem` (`/repo/openapi31/entities.go:893-1051`). -/
def bPathItem : List Builder := [
  ⟨"PathItem", "WithSummary", .setPtr, "Summary", .str⟩,
  ⟨"PathItem", "WithDescription", .setPtr, "Description", .str⟩,
  ⟨"PathItem", "WithServers", .set, "Servers", (.slice (.named "Server"))⟩,
  ⟨"PathItem", "WithParameters", .set, "Parameters", (.slice (.named "ParameterOrReference"))⟩,
  ⟨"PathItem", "WithGet", .setPtr, "Get", (.named "Operation")⟩,
  ⟨"PathItem", "GetEns", .ens, "Get", (.named "Operation")⟩,
  ⟨"PathItem", "WithPut", .setPtr, "Put", (.named "Operation")⟩,
  ⟨"PathItem", "PutEns", .ens, "Put", (.named "Operation")⟩,
  ⟨"PathItem", "WithPost", .setPtr, "Post", (.named "Operation")⟩,
  ⟨"PathItem", "PostEns", .ens, "Post", (.named "Operation")⟩,
  ⟨"PathItem", "WithDelete", .setPtr, "Delete", (.named "Operation")⟩,
  ⟨"PathItem", "DeleteEns", .ens, "Delete", (.named "Operation")⟩,
  ⟨"PathItem", "WithOptions", .setPtr, "Options", (.named "Operation")⟩,
  ⟨"PathItem", "OptionsEns", .ens, "Options", (.named "Operation")⟩,
  ⟨"PathItem", "WithHead", .setPtr, "Head", (.named "Operation")⟩,
  ⟨"PathItem", "HeadEns", .ens, "Head", (.named "Operation")⟩,
  ⟨"PathItem", "WithPatch", .setPtr, "Patch", (.named "Operation")⟩,
  ⟨"PathItem", "PatchEns", .ens, "Patch", (.named "Operation")⟩,
  ⟨"PathItem", "WithTrace", .setPtr, "Trace", (.named "Operation")⟩,
  ⟨"PathItem", "TraceEns", .ens, "Trace", (.named "Operation")⟩,
  ⟨"PathItem", "WithMapOfAnything", .set, "MapOfAnything", (.map .any)⟩,
  ⟨"PathItem", "WithMapOfAnythingItem", .item, "MapOfAnything", .any⟩]

/-- The builder methods of `Reference` (`/repo/openapi31/entities.go:1137-1152`). -/
def bReference : List Builder := [
  ⟨"Reference", "WithRef", .set, "Ref", .str⟩,
  ⟨"Reference", "WithSummary", .setPtr, "Summary", .str⟩,
  ⟨"Reference", "WithDescription", .setPtr, "Description", .str⟩]

/-- The builder methods of `Parameter` (`/repo/openapi31/entities.go:1206-1319`). -/
def bParameter : List Builder := [
  ⟨"Parameter", "WithName", .set, "Name", .str⟩,
  ⟨"Parameter", "WithIn", .set, "In", (.named "ParameterIn")⟩,
  ⟨"Parameter", "WithDescription", .setPtr, "Description", .str⟩,
  ⟨"Parameter", "WithRequired", .setPtr, "Required", .bool⟩,
  ⟨"Parameter", "WithDeprecated", .setPtr, "Deprecated", .bool⟩,
  ⟨"Parameter", "WithSchema", .set, "Schema", (.map .any)⟩,
  ⟨"Parameter", "WithSchemaItem", .item, "Schema", .any⟩,
  ⟨"Parameter", "WithContent", .set, "Content", (.map (.named "MediaType"))⟩,
  ⟨"Parameter", "WithContentItem", .item, "Content", (.named "MediaType")⟩,
  ⟨"Parameter", "WithStyle", .setPtr, "Style", (.named "ParameterStyle")⟩,
  ⟨"Parameter", "WithExplode", .setPtr, "Explode", .bool⟩,
  ⟨"Parameter", "WithExample", .setPtr, "Example", .any⟩,
  ⟨"Parameter", "WithExamples", .set, "Examples", (.map (.named "ExampleOrReference"))⟩,
  ⟨"Parameter", "WithExamplesItem", .item, "Examples", (.named "ExampleOrReference")⟩,
  ⟨"Parameter", "WithMapOfAnything", .set, "MapOfAnything", (.map .any)⟩,
  ⟨"Parameter", "WithMapOfAnythingItem", .item, "MapOfAnything", .any⟩]

/-- The builder methods of `MediaType` (`/repo/openapi31/entities.go:1422-1493`). -/
def bMediaType : List Builder := [
  ⟨"MediaType", "WithSchema", .set, "Schema", (.map .any)⟩,
  ⟨"MediaType", "WithSchemaItem", .item, "Schema", .any⟩,
  ⟨"MediaType", "WithEncoding", .set, "Encoding", (.map (.named "Encoding"))⟩,
  ⟨"MediaType", "WithEncodingItem", .item, "Encoding", (.named "Encoding")⟩,
  ⟨"MediaType", "WithExample", .setPtr, "Example", .any⟩,
  ⟨"MediaType", "WithExamples", .set, "Examples", (.map (.named "ExampleOrReference"))⟩,
  ⟨"MediaType", "WithExamplesItem", .item, "Examples", (.named "ExampleOrReference")⟩,
  ⟨"MediaType", "WithMapOfAnything", .set, "MapOfAnything", (.map .any)⟩,
  ⟨"MediaType", "WithMapOfAnythingItem", .item, "MapOfAnything", .any⟩]

/-- The builder methods of `Encoding` (`/repo/openapi31/entities.go:1578-1616`). -/
def bEncoding : List Builder := [
  ⟨"Encoding", "WithContentType", .setPtr, "ContentType", .str⟩,
  ⟨"Encoding", "WithHeaders", .set, "Headers", (.map (.named "HeaderOrReference"))⟩,
  ⟨"Encoding", "WithHeadersItem", .item, "Headers", (.named "HeaderOrReference")⟩,
  ⟨"Encoding", "WithStyle", .setPtr, "Style", (.named "EncodingStyle")⟩,
  ⟨"Encoding", "WithExplode", .setPtr, "Explode", .bool⟩,
  ⟨"Encoding", "WithAllowReserved", .setPtr, "AllowReserved", .bool⟩]

/-- The builder methods of `Header` (`/repo/openapi31/entities.go:1632-1727`). -/
def bHeader : List Builder := [
  ⟨"Header", "WithDescription", .setPtr, "Description", .str⟩,
  ⟨"Header", "WithRequired", .setPtr, "Required", .bool⟩,
  ⟨"Header", "WithDeprecated", .setPtr, "Deprecated", .bool⟩,
  ⟨"Header", "WithSchema", .set, "Schema", (.map .any)⟩,
  ⟨"Header", "WithSchemaItem", .item, "Schema", .any⟩,
  ⟨"Header", "WithContent", .set, "Content", (.map (.named "MediaType"))⟩,
  ⟨"Header", "WithContentItem", .item, "Content", (.named "MediaType")⟩,
  ⟨"Header", "WithExample", .setPtr, "Example", .any⟩,
  ⟨"Header", "WithExamples", .set, "Examples", (.map (.named "ExampleOrReference"))⟩,
  ⟨"Header", "WithExamplesItem", .item, "Examples", (.named "ExampleOrReference")⟩,
  ⟨"Header", "WithExplode", .setPtr, "Explode", .bool⟩,
  ⟨"Header", "WithMapOfAnything", .set, "MapOfAnything", (.map .any)⟩,
  ⟨"Header", "WithMapOfAnythingItem", .item, "MapOfAnything", .any⟩]

/-- The builder methods of `Example` (`/repo/openapi31/entities.go:1834-1872`). -/
def bExample : List Builder := [
  ⟨"Example", "WithSummary", .setPtr, "Summary", .str⟩,
  ⟨"Example", "WithDescription", .setPtr, "Description", .str⟩,
  ⟨"Example", "WithValue", .setPtr, "Value", .any⟩,
  ⟨"Example", "WithExternalValue", .setPtr, "ExternalValue", .str⟩,
  ⟨"Example", "WithMapOfAnything", .set, "MapOfAnything", (.map .any)⟩,
  ⟨"Example", "WithMapOfAnythingItem", .item, "MapOfAnything", .any⟩]

/-- The builder methods of `ExampleOrReference` (`/repo/openapi31/entities.go:1960-1987`). -/
def bExampleOrReference : List Builder := [
  ⟨"ExampleOrReference", "WithReference", .setPtr, "Reference", (.named "Reference")⟩,
  ⟨"ExampleOrReference", "ReferenceEns", .ens, "Reference", (.named "Reference")⟩,
  ⟨"ExampleOrReference", "WithExample", .setPtr, "Example", (.named "Example")⟩,
  ⟨"ExampleOrReference", "ExampleEns", .ens, "Example", (.named "Example")⟩]

/-- The builder methods of `HeaderOrReference` (`/repo/openapi31/entities.go:2031-2058`). -/
def bHeaderOrReference : List Builder := [
  ⟨"HeaderOrReference", "WithReference", .setPtr, "Reference", (.named "Reference")⟩,
  ⟨"HeaderOrReference", "ReferenceEns", .ens, "Reference", (.named "Reference")⟩,
  ⟨"HeaderOrReference", "WithHeader", .setPtr, "Header", (.named "Header")⟩,
  ⟨"HeaderOrReference", "HeaderEns", .ens, "Header", (.named "Header")⟩]

/-- The builder methods of `EncodingAllOf0` (`/repo/openapi31/entities.go:2101-2115`). -/
def bEncodingAllOf0 : List Builder := [
  ⟨"EncodingAllOf0", "WithMapOfAnything", .set, "MapOfAnything", (.map .any)⟩,
  ⟨"EncodingAllOf0", "WithMapOfAnythingItem", .item, "MapOfAnything", .any⟩]

/-- The builder methods of `Examples` (`/repo/openapi31/entities.go:2168-2188`). -/
def bExamples : List Builder := [
  ⟨"Examples", "WithExample", .setPtr, "Example", .any⟩,
  ⟨"Examples", "WithExamples", .set, "Examples", (.map (.named "ExampleOrReference"))⟩,
  ⟨"Examples", "WithExamplesItem", .item, "Examples", (.named "ExampleOrReference")⟩]

/-- The builder methods of `ParameterOrReference` (`/repo/openapi31/entities.go:2197-2224`). -/
def bParameterOrReference : List Builder := [
  ⟨"ParameterOrReference", "WithReference", .setPtr, "Reference", (.named "Reference")⟩,
  ⟨"ParameterOrReference", "ReferenceEns", .ens, "Reference", (.named "Reference")⟩,
  ⟨"ParameterOrReference", "WithParameter", .setPtr, "Parameter", (.named "Parameter")⟩,
  ⟨"ParameterOrReference", "ParameterEns", .ens, "Parameter", (.named "Parameter")⟩]

/-- The builder methods of `Operation` (`/repo/openapi31/entities.go:2279-2403`). -/
def bOperation : List Builder := [
  ⟨"Operation", "WithTags", .set, "Tags", (.slice .str)⟩,
  ⟨"Operation", "WithSummary", .setPtr, "Summary", .str⟩,
  ⟨"Operation", "WithDescription", .setPtr, "Description", .str⟩,
  ⟨"Operation", "WithExternalDocs", .setPtr, "ExternalDocs", (.named "ExternalDocumentation")⟩,
  ⟨"Operation", "ExternalDocsEns", .ens, "ExternalDocs", (.named "ExternalDocumentation")⟩,
  ⟨"Operation", "WithID", .setPtr, "ID", .str⟩,
  ⟨"Operation", "WithParameters", .set, "Parameters", (.slice (.named "ParameterOrReference"))⟩,
  ⟨"Operation", "WithRequestBody", .setPtr, "RequestBody", (.named "RequestBodyOrReference")⟩,
  ⟨"Operation", "RequestBodyEns", .ens, "RequestBody", (.named "RequestBodyOrReference")⟩,
  ⟨"Operation", "WithResponses", .setPtr, "Responses", (.named "Responses")⟩,
  ⟨"Operation", "ResponsesEns", .ens, "Responses", (.named "Responses")⟩,
  ⟨"Operation", "WithCallbacks", .set, "Callbacks", (.map (.named "CallbacksOrReference"))⟩,
  ⟨"Operation", "WithCallbacksItem", .item, "Callbacks", (.named "CallbacksOrReference")⟩,
  ⟨"Operation", "WithDeprecated", .setPtr, "Deprecated", .bool⟩,
  ⟨"Operation", "WithSecurity", .set, "Security", (.slice (.map (.slice .str)))⟩,
  ⟨"Operation", "WithServers", .set, "Servers", (.slice (.named "Server"))⟩,
  ⟨"Operation", "WithMapOfAnything", .set, "MapOfAnything", (.map .any)⟩,
  ⟨"Operation", "WithMapOfAnythingItem", .item, "MapOfAnything", .any⟩]

/-- The builder methods of `ExternalDocumentation` (`/repo/openapi31/entities.go:2489-2515`). -/
def bExternalDocumentation : List Builder := [
  ⟨"ExternalDocumentation", "WithDescription", .setPtr, "Description", .str⟩,
  ⟨"ExternalDocumentation", "WithURL", .set, "URL", .str⟩,
  ⟨"ExternalDocumentation", "WithMapOfAnything", .set, "MapOfAnything", (.map .any)⟩,
  ⟨"ExternalDocumentation", "WithMapOfAnythingItem", .item, "MapOfAnything", .any⟩]

/-- The builder methods of `RequestBody` (`/repo/openapi31/entities.go:2600-2643`). -/
def bRequestBody : List Builder := [
  ⟨"RequestBody", "WithDescription", .setPtr, "Description", .str⟩,
  ⟨"RequestBody", "WithContent", .set, "Content", (.map (.named "MediaType"))⟩,
  ⟨"RequestBody", "WithContentItem", .item, "Content", (.named "MediaType")⟩,
  ⟨"RequestBody", "WithRequired", .setPtr, "Required", .bool⟩,
  ⟨"RequestBody", "WithMapOfAnything", .set, "MapOfAnything", (.map .any)⟩,
  ⟨"RequestBody", "WithMapOfAnythingItem", .item, "MapOfAnything", .any⟩]

/-- The builder methods of `RequestBodyOrReference` (`/repo/openapi31/entities.go:2727-2754`). -/
def bRequestBodyOrReference : List Builder := [
  ⟨"RequestBodyOrReference", "WithReference", .setPtr, "Reference", (.named "Reference")⟩,
  ⟨"RequestBodyOrReference", "ReferenceEns", .ens, "Reference", (.named "Reference")⟩,
  ⟨"RequestBodyOrReference", "WithRequestBody", .setPtr, "RequestBody", (.named "RequestBody")⟩,
  ⟨"RequestBodyOrReference", "RequestBodyEns", .ens, "RequestBody", (.named "RequestBody")⟩]

/-- The builder methods of `Responses` (`/repo/openapi31/entities.go:2799-2845`). -/
def bResponses : List Builder := [
  ⟨"Responses", "WithDefault", .setPtr, "Default", (.named "ResponseOrReference")⟩,
  ⟨"Responses", "DefaultEns", .ens, "Default", (.named "ResponseOrReference")⟩,
  ⟨"Responses", "WithMapOfResponseOrReferenceValues", .set, "MapOfResponseOrReferenceValues", (.map (.named "ResponseOrReference"))⟩,
  ⟨"Responses", "WithMapOfResponseOrReferenceValuesItem", .item, "MapOfResponseOrReferenceValues", (.named "ResponseOrReference")⟩,
  ⟨"Responses", "WithMapOfAnything", .set, "MapOfAnything", (.map .any)⟩,
  ⟨"Responses", "WithMapOfAnythingItem", .item, "MapOfAnything", .any⟩]

/-- The builder methods of `Response` (`/repo/openapi31/entities.go:2937-3008`). -/
def bResponse : List Builder := [
  ⟨"Response", "WithDescription", .set, "Description", .str⟩,
  ⟨"Response", "WithHeaders", .set, "Headers", (.map (.named "HeaderOrReference"))⟩,
  ⟨"Response", "WithHeadersItem", .item, "Headers", (.named "HeaderOrReference")⟩,
  ⟨"Response", "WithContent", .set, "Content", (.map (.named "MediaType"))⟩,
  ⟨"Response", "WithContentItem", .item, "Content", (.named "MediaType")⟩,
  ⟨"Response", "WithLinks", .set, "Links", (.map (.named "LinkOrReference"))⟩,
  ⟨"Response", "WithLinksItem", .item, "Links", (.named "LinkOrReference")⟩,
  ⟨"Response", "WithMapOfAnything", .set, "MapOfAnything", (.map .any)⟩,
  ⟨"Response", "WithMapOfAnythingItem", .item, "MapOfAnything", .any⟩]

/-- The builder methods of `Link` (`/repo/openapi31/entities.go:3098-3168`). -/
def bLink : List Builder := [
  ⟨"Link", "WithOperationRef", .setPtr, "OperationRef", .str⟩,
  ⟨"Link", "WithOperationID", .setPtr, "OperationID", .str⟩,
  ⟨"Link", "WithParameters", .set, "Parameters", (.map .str)⟩,
  ⟨"Link", "WithParametersItem", .item, "Parameters", .str⟩,
  ⟨"Link", "WithRequestBody", .setPtr, "RequestBody", .any⟩,
  ⟨"Link", "WithDescription", .setPtr, "Description", .str⟩,
  ⟨"Link", "WithBody", .setPtr, "Body", (.named "Server")⟩,
  ⟨"Link", "BodyEns", .ens, "Body", (.named "Server")⟩,
  ⟨"Link", "WithMapOfAnything", .set, "MapOfAnything", (.map .any)⟩,
  ⟨"Link", "WithMapOfAnythingItem", .item, "MapOfAnything", .any⟩]

/-- The builder methods of `LinkOrReference` (`/repo/openapi31/entities.go:3252-3279`). -/
def bLinkOrReference : List Builder := [
  ⟨"LinkOrReference", "WithReference", .setPtr, "Reference", (.named "Reference")⟩,
  ⟨"LinkOrReference", "ReferenceEns", .ens, "Reference", (.named "Reference")⟩,
  ⟨"LinkOrReference", "WithLink", .setPtr, "Link", (.named "Link")⟩,
  ⟨"LinkOrReference", "LinkEns", .ens, "Link", (.named "Link")⟩]

/-- The builder methods of `ResponseOrReference` (`/repo/openapi31/entities.go:3323-3350`). -/
def bResponseOrReference : List Builder := [
  ⟨"ResponseOrReference", "WithReference", .setPtr, "Reference", (.named "Reference")⟩,
  ⟨"ResponseOrReference", "ReferenceEns", .ens, "Reference", (.named "Reference")⟩,
  ⟨"ResponseOrReference", "WithResponse", .setPtr, "Response", (.named "Response")⟩,
  ⟨"ResponseOrReference", "ResponseEns", .ens, "Response", (.named "Response")⟩]

/-- The builder methods of `Callbacks` (`/repo/openapi31/entities.go:3394-3425`). -/
def bCallbacks : List Builder := [
  ⟨"Callbacks", "WithMapOfAnything", .set, "MapOfAnything", (.map .any)⟩,
  ⟨"Callbacks", "WithMapOfAnythingItem", .item, "MapOfAnything", .any⟩,
  ⟨"Callbacks", "WithAdditionalProperties", .set, "AdditionalProperties", (.map (.named "PathItemOrReference"))⟩,
  ⟨"Callbacks", "WithAdditionalPropertiesItem", .item, "AdditionalProperties", (.named "PathItemOrReference")⟩]

/-- The builder methods of `PathItemOrReference` (`/repo/openapi31/entities.go:3493-3520`). -/
def bPathItemOrReference : List Builder := [
  ⟨"PathItemOrReference", "WithReference", .setPtr, "Reference", (.named "Reference")⟩,
  ⟨"PathItemOrReference", "ReferenceEns", .ens, "Reference", (.named "Reference")⟩,
  ⟨"PathItemOrReference", "WithPathItem", .setPtr, "PathItem", (.named "PathItem")⟩,
  ⟨"PathItemOrReference", "PathItemEns", .ens, "PathItem", (.named "PathItem")⟩]

/-- The builder methods of `CallbacksOrReference` (`/repo/openapi31/entities.go:3564-3591`). -/
def bCallbacksOrReference : List Builder := [
  ⟨"CallbacksOrReference", "WithReference", .setPtr, "Reference", (.named "Reference")⟩,
  ⟨"CallbacksOrReference", "ReferenceEns", .ens, "Reference", (.named "Reference")⟩,
  ⟨"CallbacksOrReference", "WithCallbacks", .setPtr, "Callbacks", (.named "Callbacks")⟩,
  ⟨"CallbacksOrReference", "CallbacksEns", .ens, "Callbacks", (.named "Callbacks")⟩]

/-- The builder methods of `Paths` (`/repo/openapi31/entities.go:3635-3666`). -/
def bPaths : List Builder := [
  ⟨"Paths", "WithMapOfPathItemValues", .set, "MapOfPathItemValues", (.map (.named "PathItem"))⟩,
  ⟨"Paths", "WithMapOfPathItemValuesItem", .item, "MapOfPathItemValues", (.named "PathItem")⟩,
  ⟨"Paths", "WithMapOfAnything", .set, "MapOfAnything", (.map .any)⟩,
  ⟨"Paths", "WithMapOfAnythingItem", .item, "MapOfAnything", .any⟩]

/-- The builder methods of `Components` (`/repo/openapi31/entities.go:3744-3911`). -/
def bComponents : List Builder := [
  ⟨"Components", "WithSchemas", .set, "Schemas", (.map (.map .any))⟩,
  ⟨"Components", "WithSchemasItem", .item, "Schemas", (.map .any)⟩,
  ⟨"Components", "WithResponses", .set, "Responses", (.map (.named "ResponseOrReference"))⟩,
  ⟨"Components", "WithResponsesItem", .item, "Responses", (.named "ResponseOrReference")⟩,
  ⟨"Components", "WithParameters", .set, "Parameters", (.map (.named "ParameterOrReference"))⟩,
  ⟨"Components", "WithParametersItem", .item, "Parameters", (.named "ParameterOrReference")⟩,
  ⟨"Components", "WithExamples", .set, "Examples", (.map (.named "ExampleOrReference"))⟩,
  ⟨"Components", "WithExamplesItem", .item, "Examples", (.named "ExampleOrReference")⟩,
  ⟨"Components", "WithRequestBodies", .set, "RequestBodies", (.map (.named "RequestBodyOrReference"))⟩,
  ⟨"Components", "WithRequestBodiesItem", .item, "RequestBodies", (.named "RequestBodyOrReference")⟩,
  ⟨"Components", "WithHeaders", .set, "Headers", (.map (.named "HeaderOrReference"))⟩,
  ⟨"Components", "WithHeadersItem", .item, "Headers", (.named "HeaderOrReference")⟩,
  ⟨"Components", "WithSecuritySchemes", .set, "SecuritySchemes", (.map (.named "SecuritySchemeOrReference"))⟩,
  ⟨"Components", "WithSecuritySchemesItem", .item, "SecuritySchemes", (.named "SecuritySchemeOrReference")⟩,
  ⟨"Components", "WithLinks", .set, "Links", (.map (.named "LinkOrReference"))⟩,
  ⟨"Components", "WithLinksItem", .item, "Links", (.named "LinkOrReference")⟩,
  ⟨"Components", "WithCallbacks", .set, "Callbacks", (.map (.named "CallbacksOrReference"))⟩,
  ⟨"Components", "WithCallbacksItem", .item, "Callbacks", (.named "CallbacksOrReference")⟩,
  ⟨"Components", "WithPathItems", .set, "PathItems", (.map (.named "PathItemOrReference"))⟩,
  ⟨"Components", "WithPathItemsItem", .item, "PathItems", (.named "PathItemOrReference")⟩]

/-- The builder methods of `SecurityScheme` (`/repo/openapi31/entities.go:3926-4036`). -/
def bSecurityScheme : List Builder := [
  ⟨"SecurityScheme", "WithDescription", .setPtr, "Description", .str⟩,
  ⟨"SecurityScheme", "WithAPIKey", .setPtr, "APIKey", (.named "SecuritySchemeAPIKey")⟩,
  ⟨"SecurityScheme", "APIKeyEns", .ens, "APIKey", (.named "SecuritySchemeAPIKey")⟩,
  ⟨"SecurityScheme", "WithHTTP", .setPtr, "HTTP", (.named "SecuritySchemeHTTP")⟩,
  ⟨"SecurityScheme", "HTTPEns", .ens, "HTTP", (.named "SecuritySchemeHTTP")⟩,
  ⟨"SecurityScheme", "WithHTTPBearer", .setPtr, "HTTPBearer", (.named "SecuritySchemeHTTPBearer")⟩,
  ⟨"SecurityScheme", "HTTPBearerEns", .ens, "HTTPBearer", (.named "SecuritySchemeHTTPBearer")⟩,
  ⟨"SecurityScheme", "WithOauth2", .setPtr, "Oauth2", (.named "SecuritySchemeOauth2")⟩,
  ⟨"SecurityScheme", "Oauth2Ens", .ens, "Oauth2", (.named "SecuritySchemeOauth2")⟩,
  ⟨"SecurityScheme", "WithOidc", .setPtr, "Oidc", (.named "SecuritySchemeOidc")⟩,
  ⟨"SecurityScheme", "OidcEns", .ens, "Oidc", (.named "SecuritySchemeOidc")⟩,
  ⟨"SecurityScheme", "WithMutualTLS", .setPtr, "MutualTLS", (.named "MutualTLS")⟩,
  ⟨"SecurityScheme", "MutualTLSEns", .ens, "MutualTLS", (.named "MutualTLS")⟩,
  ⟨"SecurityScheme", "WithMapOfAnything", .set, "MapOfAnything", (.map .any)⟩,
  ⟨"SecurityScheme", "WithMapOfAnythingItem", .item, "MapOfAnything", .any⟩]

/-- The builder methods of `SecuritySchemeAPIKey` (`/repo/openapi31/entities.go:4173-4182`). -/
def bSecuritySchemeAPIKey : List Builder := [
  ⟨"SecuritySchemeAPIKey", "WithName", .set, "Name", .str⟩,
  ⟨"SecuritySchemeAPIKey", "WithIn", .set, "In", (.named "SecuritySchemeAPIKeyIn")⟩]

/-- The builder methods of `SecuritySchemeHTTP` (`/repo/openapi31/entities.go:4241-4244`). -/
def bSecuritySchemeHTTP : List Builder := [
  ⟨"SecuritySchemeHTTP", "WithScheme", .set, "Scheme", .str⟩]

/-- The builder methods of `SecuritySchemeHTTPBearer` (`/repo/openapi31/entities.go:4309-4318`). -/
def bSecuritySchemeHTTPBearer : List Builder := [
  ⟨"SecuritySchemeHTTPBearer", "WithScheme", .set, "Scheme", .str⟩,
  ⟨"SecuritySchemeHTTPBearer", "WithBearerFormat", .setPtr, "BearerFormat", .str⟩]

/-- The builder methods of `SecuritySchemeOauth2` (`/repo/openapi31/entities.go:4380-4383`). -/
def bSecuritySchemeOauth2 : List Builder := [
  ⟨"SecuritySchemeOauth2", "WithFlows", .set, "Flows", (.named "OauthFlows")⟩]

/-- The builder methods of `OauthFlows` (`/repo/openapi31/entities.go:4445-4519`). -/
def bOauthFlows : List Builder := [
  ⟨"OauthFlows", "WithImplicit", .setPtr, "Implicit", (.named "OauthFlowsDefsImplicit")⟩,
  ⟨"OauthFlows", "ImplicitEns", .ens, "Implicit", (.named "OauthFlowsDefsImplicit")⟩,
  ⟨"OauthFlows", "WithPassword", .setPtr, "Password", (.named "OauthFlowsDefsPassword")⟩,
  ⟨"OauthFlows", "PasswordEns", .ens, "Password", (.named "OauthFlowsDefsPassword")⟩,
  ⟨"OauthFlows", "WithClientCredentials", .setPtr, "ClientCredentials", (.named "OauthFlowsDefsClientCredentials")⟩,
  ⟨"OauthFlows", "ClientCredentialsEns", .ens, "ClientCredentials", (.named "OauthFlowsDefsClientCredentials")⟩,
  ⟨"OauthFlows", "WithAuthorizationCode", .setPtr, "AuthorizationCode", (.named "OauthFlowsDefsAuthorizationCode")⟩,
  ⟨"OauthFlows", "AuthorizationCodeEns", .ens, "AuthorizationCode", (.named "OauthFlowsDefsAuthorizationCode")⟩,
  ⟨"OauthFlows", "WithMapOfAnything", .set, "MapOfAnything", (.map .any)⟩,
  ⟨"OauthFlows", "WithMapOfAnythingItem", .item, "MapOfAnything", .any⟩]

/-- The builder methods of `OauthFlowsDefsImplicit` (`/repo/openapi31/entities.go:4598-4641`). -/
def bOauthFlowsDefsImplicit : List Builder := [
  ⟨"OauthFlowsDefsImplicit", "WithAuthorizationURL", .set, "AuthorizationURL", .str⟩,
  ⟨"OauthFlowsDefsImplicit", "WithRefreshURL", .setPtr, "RefreshURL", .str⟩,
  ⟨"OauthFlowsDefsImplicit", "WithScopes", .set, "Scopes", (.map .str)⟩,
  ⟨"OauthFlowsDefsImplicit", "WithScopesItem", .item, "Scopes", .str⟩,
  ⟨"OauthFlowsDefsImplicit", "WithMapOfAnything", .set, "MapOfAnything", (.map .any)⟩,
  ⟨"OauthFlowsDefsImplicit", "WithMapOfAnythingItem", .item, "MapOfAnything", .any⟩]

/-- The builder methods of `OauthFlowsDefsPassword` (`/repo/openapi31/entities.go:4730-4773`). -/
def bOauthFlowsDefsPassword : List Builder := [
  ⟨"OauthFlowsDefsPassword", "WithTokenURL", .set, "TokenURL", .str⟩,
  ⟨"OauthFlowsDefsPassword", "WithRefreshURL", .setPtr, "RefreshURL", .str⟩,
  ⟨"OauthFlowsDefsPassword", "WithScopes", .set, "Scopes", (.map .str)⟩,
  ⟨"OauthFlowsDefsPassword", "WithScopesItem", .item, "Scopes", .str⟩,
  ⟨"OauthFlowsDefsPassword", "WithMapOfAnything", .set, "MapOfAnything", (.map .any)⟩,
  ⟨"OauthFlowsDefsPassword", "WithMapOfAnythingItem", .item, "MapOfAnything", .any⟩]

/-- The builder methods of `OauthFlowsDefsClientCredentials` (`/repo/openapi31/entities.go:4862-4905`). -/
def bOauthFlowsDefsClientCredentials : List Builder := [
  ⟨"OauthFlowsDefsClientCredentials", "WithTokenURL", .set, "TokenURL", .str⟩,
  ⟨"OauthFlowsDefsClientCredentials", "WithRefreshURL", .setPtr, "RefreshURL", .str⟩,
  ⟨"OauthFlowsDefsClientCredentials", "WithScopes", .set, "Scopes", (.map .str)⟩,
  ⟨"OauthFlowsDefsClientCredentials", "WithScopesItem", .item, "Scopes", .str⟩,
  ⟨"OauthFlowsDefsClientCredentials", "WithMapOfAnything", .set, "MapOfAnything", (.map .any)⟩,
  ⟨"OauthFlowsDefsClientCredentials", "WithMapOfAnythingItem", .item, "MapOfAnything", .any⟩]

/-- The builder methods of `OauthFlowsDefsAuthorizationCode` (`/repo/openapi31/entities.go:4997-5046`). -/
def bOauthFlowsDefsAuthorizationCode : List Builder := [
  ⟨"OauthFlowsDefsAuthorizationCode", "WithAuthorizationURL", .set, "AuthorizationURL", .str⟩,
  ⟨"OauthFlowsDefsAuthorizationCode", "WithTokenURL", .set, "TokenURL", .str⟩,
  ⟨"OauthFlowsDefsAuthorizationCode", "WithRefreshURL", .setPtr, "RefreshURL", .str⟩,
  ⟨"OauthFlowsDefsAuthorizationCode", "WithScopes", .set, "Scopes", (.map .str)⟩,
  ⟨"OauthFlowsDefsAuthorizationCode", "WithScopesItem", .item, "Scopes", .str⟩,
  ⟨"OauthFlowsDefsAuthorizationCode", "WithMapOfAnything", .set, "MapOfAnything", (.map .any)⟩,
  ⟨"OauthFlowsDefsAuthorizationCode", "WithMapOfAnythingItem", .item, "MapOfAnything", .any⟩]

/-- The builder methods of `SecuritySchemeOidc` (`/repo/openapi31/entities.go:5134-5137`). -/
def bSecuritySchemeOidc : List Builder := [
  ⟨"SecuritySchemeOidc", "WithOpenIDConnectURL", .set, "OpenIDConnectURL", .str⟩]

/-- The builder methods of `SecuritySchemeOrReference` (`/repo/openapi31/entities.go:5229-5256`). -/
def bSecuritySchemeOrReference : List Builder := [
  ⟨"SecuritySchemeOrReference", "WithReference", .setPtr, "Reference", (.named "Reference")⟩,
  ⟨"SecuritySchemeOrReference", "ReferenceEns", .ens, "Reference", (.named "Reference")⟩,
  ⟨"SecuritySchemeOrReference", "WithSecurityScheme", .setPtr, "SecurityScheme", (.named "SecurityScheme")⟩,
  ⟨"SecuritySchemeOrReference", "SecuritySchemeEns", .ens, "SecurityScheme", (.named "SecurityScheme")⟩]

/-- The builder methods of `Tag` (`/repo/openapi31/entities.go:5302-5343`). -/
def bTag : List Builder := [
  ⟨"Tag", "WithName", .set, "Name", .str⟩,
  ⟨"Tag", "WithDescription", .setPtr, "Description", .str⟩,
  ⟨"Tag", "WithExternalDocs", .setPtr, "ExternalDocs", (.named "ExternalDocumentation")⟩,
  ⟨"Tag", "ExternalDocsEns", .ens, "ExternalDocs", (.named "ExternalDocumentation")⟩,
  ⟨"Tag", "WithMapOfAnything", .set, "MapOfAnything", (.map .any)⟩,
  ⟨"Tag", "WithMapOfAnythingItem", .item, "MapOfAnything", .any⟩]

/-- The builder methods of the package, by type. -/
def builders : GoMap (List Builder) := [
  ("Spec", bSpec),
  ("Info", bInfo),
  ("Contact", bContact),
  ("License", bLicense),
  ("Server", bServer),
  ("ServerVariable", bServerVariable),
  ("PathItem", bPathItem),
  ("Reference", bReference),
  ("Parameter", bParameter),
  ("MediaType", bMediaType),
  ("Encoding", bEncoding),
  ("Header", bHeader),
  ("Example", bExample),
  ("ExampleOrReference", bExampleOrReference),
  ("HeaderOrReference", bHeaderOrReference),
  ("EncodingAllOf0", bEncodingAllOf0),
  ("Examples", bExamples),
  ("ParameterOrReference", bParameterOrReference),
  ("Operation", bOperation),
  ("ExternalDocumentation", bExternalDocumentation),
  ("RequestBody", bRequestBody),
  ("RequestBodyOrReference", bRequestBodyOrReference),
  ("Responses", bResponses),
  ("Response", bResponse),
  ("Link", bLink),
  ("LinkOrReference", bLinkOrReference),
  ("ResponseOrReference", bResponseOrReference),
  ("Callbacks", bCallbacks),
  ("PathItemOrReference", bPathItemOrReference),
  ("CallbacksOrReference", bCallbacksOrReference),
  ("Paths", bPaths),
  ("Components", bComponents),
  ("SecurityScheme", bSecurityScheme),
  ("SecuritySchemeAPIKey", bSecuritySchemeAPIKey),
  ("SecuritySchemeHTTP", bSecuritySchemeHTTP),
  ("SecuritySchemeHTTPBearer", bSecuritySchemeHTTPBearer),
  ("SecuritySchemeOauth2", bSecuritySchemeOauth2),
  ("OauthFlows", bOauthFlows),
  ("OauthFlowsDefsImplicit", bOauthFlowsDefsImplicit),
  ("OauthFlowsDefsPassword", bOauthFlowsDefsPassword),
  ("OauthFlowsDefsClientCredentials", bOauthFlowsDefsClientCredentials),
  ("OauthFlowsDefsAuthorizationCode", bOauthFlowsDefsAuthorizationCode),
  ("SecuritySchemeOidc", bSecuritySchemeOidc),
  ("SecuritySchemeOrReference", bSecuritySchemeOrReference),
  ("Tag", bTag)]

end Verif.Codec.V31
