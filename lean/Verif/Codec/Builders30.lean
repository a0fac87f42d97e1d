import Verif.Codec.Builder

/-! The builder methods of `/repo/openapi3/entities.go`. Written by `/verif/tools/builders.py`. -/

namespace Verif.Codec.V30

/-- The builder methods of `Spec` (`/repo/openapi3/entities.go:32-112`). -/
def bSpec : List Builder := [
  ⟨"Spec", "WithOpenapi", .set, "Openapi", .str⟩,
  ⟨"Spec", "WithInfo", .set, "Info", (.named "Info")⟩,
  ⟨"Spec", "WithExternalDocs", .setPtr, "ExternalDocs", (.named "ExternalDocumentation")⟩,
  ⟨"Spec", "ExternalDocsEns", .ens, "ExternalDocs", (.named "ExternalDocumentation")⟩,
  ⟨"Spec", "WithServers", .set, "Servers", (.slice (.named "Server"))⟩,
  ⟨"Spec", "WithSecurity", .set, "Security", (.slice (.map (.slice .str)))⟩,
  ⟨"Spec", "WithTags", .set, "Tags", (.slice (.named "Tag"))⟩,
  ⟨"Spec", "WithPaths", .set, "Paths", (.named "Paths")⟩,
  ⟨"Spec", "WithComponents", .setPtr, "Components", (.named "Components")⟩,
  ⟨"Spec", "ComponentsEns", .ens, "Components", (.named "Components")⟩,
  ⟨"Spec", "WithMapOfAnything", .set, "MapOfAnything", (.map .any)⟩,
  ⟨"Spec", "WithMapOfAnythingItem", .item, "MapOfAnything", .any⟩]

/-- The builder methods of `Info` (`/repo/openapi3/entities.go:218-286`). -/
def bInfo : List Builder := [
  ⟨"Info", "WithTitle", .set, "Title", .str⟩,
  ⟨"Info", "WithDescription", .setPtr, "Description", .str⟩,
  ⟨"Info", "WithTermsOfService", .setPtr, "TermsOfService", .str⟩,
  ⟨"Info", "WithContact", .setPtr, "Contact", (.named "Contact")⟩,
  ⟨"Info", "ContactEns", .ens, "Contact", (.named "Contact")⟩,
  ⟨"Info", "WithLicense", .setPtr, "License", (.named "License")⟩,
  ⟨"Info", "LicenseEns", .ens, "License", (.named "License")⟩,
  ⟨"Info", "WithVersion", .set, "Version", .str⟩,
  ⟨"Info", "WithMapOfAnything", .set, "MapOfAnything", (.map .any)⟩,
  ⟨"Info", "WithMapOfAnythingItem", .item, "MapOfAnything", .any⟩]

/-- The builder methods of `Contact` (`/repo/openapi3/entities.go:386-418`). -/
def bContact : List Builder := [
  ⟨"Contact", "WithName", .setPtr, "Name", .str⟩,
  ⟨"Contact", "WithURL", .setPtr, "URL", .str⟩,
  ⟨"Contact", "WithEmail", .setPtr, "Email", .str⟩,
  ⟨"Contact", "WithMapOfAnything", .set, "MapOfAnything", (.map .any)⟩,
  ⟨"Contact", "WithMapOfAnythingItem", .item, "MapOfAnything", .any⟩]

/-- The builder methods of `License` (`/repo/openapi3/entities.go:503-529`). -/
def bLicense : List Builder := [
  ⟨"License", "WithName", .set, "Name", .str⟩,
  ⟨"License", "WithURL", .setPtr, "URL", .str⟩,
  ⟨"License", "WithMapOfAnything", .set, "MapOfAnything", (.map .any)⟩,
  ⟨"License", "WithMapOfAnythingItem", .item, "MapOfAnything", .any⟩]

/-- The builder methods of `ExternalDocumentation` (`/repo/openapi3/entities.go:625-651`). -/
def bExternalDocumentation : List Builder := [
  ⟨"ExternalDocumentation", "WithDescription", .setPtr, "Description", .str⟩,
  ⟨"ExternalDocumentation", "WithURL", .set, "URL", .str⟩,
  ⟨"ExternalDocumentation", "WithMapOfAnything", .set, "MapOfAnything", (.map .any)⟩,
  ⟨"ExternalDocumentation", "WithMapOfAnythingItem", .item, "MapOfAnything", .any⟩]

/-- The builder methods of `Server` (`/repo/openapi3/entities.go:746-789`). -/
def bServer : List Builder := [
  ⟨"Server", "WithURL", .set, "URL", .str⟩,
  ⟨"Server", "WithDescription", .setPtr, "Description", .str⟩,
  ⟨"Server", "WithVariables", .set, "Variables", (.map (.named "ServerVariable"))⟩,
  ⟨"Server", "WithVariablesItem", .item, "Variables", (.named "ServerVariable")⟩,
  ⟨"Server", "WithMapOfAnything", .set, "MapOfAnything", (.map .any)⟩,
  ⟨"Server", "WithMapOfAnythingItem", .item, "MapOfAnything", .any⟩]

/-- The builder methods of `ServerVariable` (`/repo/openapi3/entities.go:885-917`). -/
def bServerVariable : List Builder := [
  ⟨"ServerVariable", "WithEnum", .set, "Enum", (.slice .str)⟩,
  ⟨"ServerVariable", "WithDefault", .set, "Default", .str⟩,
  ⟨"ServerVariable", "WithDescription", .setPtr, "Description", .str⟩,
  ⟨"ServerVariable", "WithMapOfAnything", .set, "MapOfAnything", (.map .any)⟩,
  ⟨"ServerVariable", "WithMapOfAnythingItem", .item, "MapOfAnything", .any⟩]

/-- The builder methods of `Tag` (`/repo/openapi3/entities.go:1013-1054`). -/
def bTag : List Builder := [
  ⟨"Tag", "WithName", .set, "Name", .str⟩,
  ⟨"Tag", "WithDescription", .setPtr, "Description", .str⟩,
  ⟨"Tag", "WithExternalDocs", .setPtr, "ExternalDocs", (.named "ExternalDocumentation")⟩,
  ⟨"Tag", "ExternalDocsEns", .ens, "ExternalDocs", (.named "ExternalDocumentation")⟩,
  ⟨"Tag", "WithMapOfAnything", .set, "MapOfAnything", (.map .any)⟩,
  ⟨"Tag", "WithMapOfAnythingItem", .item, "MapOfAnything", .any⟩]

/-- The builder methods of `PathItem` (`/repo/openapi3/entities.go:1153-1214`). -/
def bPathItem : List Builder := [
  ⟨"PathItem", "WithRef", .setPtr, "Ref", .str⟩,
  ⟨"PathItem", "WithSummary", .setPtr, "Summary", .str⟩,
  ⟨"PathItem", "WithDescription", .setPtr, "Description", .str⟩,
  ⟨"PathItem", "WithServers", .set, "Servers", (.slice (.named "Server"))⟩,
  ⟨"PathItem", "WithParameters", .set, "Parameters", (.slice (.named "ParameterOrRef"))⟩,
  ⟨"PathItem", "WithMapOfOperationValues", .set, "MapOfOperationValues", (.map (.named "Operation"))⟩,
  ⟨"PathItem", "WithMapOfOperationValuesItem", .item, "MapOfOperationValues", (.named "Operation")⟩,
  ⟨"PathItem", "WithMapOfAnything", .set, "MapOfAnything", (.map .any)⟩,
  ⟨"PathItem", "WithMapOfAnythingItem", .item, "MapOfAnything", .any⟩]

/-- The builder methods of `ParameterReference` (`/repo/openapi3/entities.go:1318-1321`). -/
def bParameterReference : List Builder := [
  ⟨"ParameterReference", "WithRef", .set, "Ref", .str⟩]

/-- The builder methods of `Parameter` (`/repo/openapi3/entities.go:1397-1550`). -/
def bParameter : List Builder := [
  ⟨"Parameter", "WithName", .set, "Name", .str⟩,
  ⟨"Parameter", "WithIn", .set, "In", (.named "ParameterIn")⟩,
  ⟨"Parameter", "WithDescription", .setPtr, "Description", .str⟩,
  ⟨"Parameter", "WithRequired", .setPtr, "Required", .bool⟩,
  ⟨"Parameter", "WithDeprecated", .setPtr, "Deprecated", .bool⟩,
  ⟨"Parameter", "WithAllowEmptyValue", .setPtr, "AllowEmptyValue", .bool⟩,
  ⟨"Parameter", "WithStyle", .setPtr, "Style", .str⟩,
  ⟨"Parameter", "WithExplode", .setPtr, "Explode", .bool⟩,
  ⟨"Parameter", "WithAllowReserved", .setPtr, "AllowReserved", .bool⟩,
  ⟨"Parameter", "WithSchema", .setPtr, "Schema", (.named "SchemaOrRef")⟩,
  ⟨"Parameter", "SchemaEns", .ens, "Schema", (.named "SchemaOrRef")⟩,
  ⟨"Parameter", "WithContent", .set, "Content", (.map (.named "MediaType"))⟩,
  ⟨"Parameter", "WithContentItem", .item, "Content", (.named "MediaType")⟩,
  ⟨"Parameter", "WithExample", .setPtr, "Example", .any⟩,
  ⟨"Parameter", "WithExamples", .set, "Examples", (.map (.named "ExampleOrRef"))⟩,
  ⟨"Parameter", "WithExamplesItem", .item, "Examples", (.named "ExampleOrRef")⟩,
  ⟨"Parameter", "WithSchemaXORContent", .setPtr, "SchemaXORContent", (.named "SchemaXORContent")⟩,
  ⟨"Parameter", "SchemaXORContentEns", .ens, "SchemaXORContent", (.named "SchemaXORContent")⟩,
  ⟨"Parameter", "WithLocation", .setPtr, "Location", (.named "ParameterLocation")⟩,
  ⟨"Parameter", "LocationEns", .ens, "Location", (.named "ParameterLocation")⟩,
  ⟨"Parameter", "WithMapOfAnything", .set, "MapOfAnything", (.map .any)⟩,
  ⟨"Parameter", "WithMapOfAnythingItem", .item, "MapOfAnything", .any⟩]

/-- The builder methods of `Schema` (`/repo/openapi3/entities.go:1707-1996`). -/
def bSchema : List Builder := [
  ⟨"Schema", "WithTitle", .setPtr, "Title", .str⟩,
  ⟨"Schema", "WithMultipleOf", .setPtr, "MultipleOf", .float⟩,
  ⟨"Schema", "WithMaximum", .setPtr, "Maximum", .float⟩,
  ⟨"Schema", "WithExclusiveMaximum", .setPtr, "ExclusiveMaximum", .bool⟩,
  ⟨"Schema", "WithMinimum", .setPtr, "Minimum", .float⟩,
  ⟨"Schema", "WithExclusiveMinimum", .setPtr, "ExclusiveMinimum", .bool⟩,
  ⟨"Schema", "WithMaxLength", .setPtr, "MaxLength", .int⟩,
  ⟨"Schema", "WithMinLength", .setPtr, "MinLength", .int⟩,
  ⟨"Schema", "WithPattern", .setPtr, "Pattern", .str⟩,
  ⟨"Schema", "WithMaxItems", .setPtr, "MaxItems", .int⟩,
  ⟨"Schema", "WithMinItems", .setPtr, "MinItems", .int⟩,
  ⟨"Schema", "WithUniqueItems", .setPtr, "UniqueItems", .bool⟩,
  ⟨"Schema", "WithMaxProperties", .setPtr, "MaxProperties", .int⟩,
  ⟨"Schema", "WithMinProperties", .setPtr, "MinProperties", .int⟩,
  ⟨"Schema", "WithRequired", .set, "Required", (.slice .str)⟩,
  ⟨"Schema", "WithEnum", .set, "Enum", (.slice .any)⟩,
  ⟨"Schema", "WithType", .setPtr, "Type", (.named "SchemaType")⟩,
  ⟨"Schema", "WithNot", .setPtr, "Not", (.named "SchemaOrRef")⟩,
  ⟨"Schema", "NotEns", .ens, "Not", (.named "SchemaOrRef")⟩,
  ⟨"Schema", "WithAllOf", .set, "AllOf", (.slice (.named "SchemaOrRef"))⟩,
  ⟨"Schema", "WithOneOf", .set, "OneOf", (.slice (.named "SchemaOrRef"))⟩,
  ⟨"Schema", "WithAnyOf", .set, "AnyOf", (.slice (.named "SchemaOrRef"))⟩,
  ⟨"Schema", "WithItems", .setPtr, "Items", (.named "SchemaOrRef")⟩,
  ⟨"Schema", "ItemsEns", .ens, "Items", (.named "SchemaOrRef")⟩,
  ⟨"Schema", "WithProperties", .set, "Properties", (.map (.named "SchemaOrRef"))⟩,
  ⟨"Schema", "WithPropertiesItem", .item, "Properties", (.named "SchemaOrRef")⟩,
  ⟨"Schema", "WithAdditionalProperties", .setPtr, "AdditionalProperties", (.named "SchemaAdditionalProperties")⟩,
  ⟨"Schema", "AdditionalPropertiesEns", .ens, "AdditionalProperties", (.named "SchemaAdditionalProperties")⟩,
  ⟨"Schema", "WithDescription", .setPtr, "Description", .str⟩,
  ⟨"Schema", "WithFormat", .setPtr, "Format", .str⟩,
  ⟨"Schema", "WithDefault", .setPtr, "Default", .any⟩,
  ⟨"Schema", "WithNullable", .setPtr, "Nullable", .bool⟩,
  ⟨"Schema", "WithDiscriminator", .setPtr, "Discriminator", (.named "Discriminator")⟩,
  ⟨"Schema", "DiscriminatorEns", .ens, "Discriminator", (.named "Discriminator")⟩,
  ⟨"Schema", "WithReadOnly", .setPtr, "ReadOnly", .bool⟩,
  ⟨"Schema", "WithWriteOnly", .setPtr, "WriteOnly", .bool⟩,
  ⟨"Schema", "WithExample", .setPtr, "Example", .any⟩,
  ⟨"Schema", "WithExternalDocs", .setPtr, "ExternalDocs", (.named "ExternalDocumentation")⟩,
  ⟨"Schema", "ExternalDocsEns", .ens, "ExternalDocs", (.named "ExternalDocumentation")⟩,
  ⟨"Schema", "WithDeprecated", .setPtr, "Deprecated", .bool⟩,
  ⟨"Schema", "WithXML", .setPtr, "XML", (.named "XML")⟩,
  ⟨"Schema", "XMLEns", .ens, "XML", (.named "XML")⟩,
  ⟨"Schema", "WithMapOfAnything", .set, "MapOfAnything", (.map .any)⟩,
  ⟨"Schema", "WithMapOfAnythingItem", .item, "MapOfAnything", .any⟩]

/-- The builder methods of `SchemaReference` (`/repo/openapi3/entities.go:2127-2130`). -/
def bSchemaReference : List Builder := [
  ⟨"SchemaReference", "WithRef", .set, "Ref", .str⟩]

/-- The builder methods of `SchemaOrRef` (`/repo/openapi3/entities.go:2192-2219`). -/
def bSchemaOrRef : List Builder := [
  ⟨"SchemaOrRef", "WithSchema", .setPtr, "Schema", (.named "Schema")⟩,
  ⟨"SchemaOrRef", "SchemaEns", .ens, "Schema", (.named "Schema")⟩,
  ⟨"SchemaOrRef", "WithSchemaReference", .setPtr, "SchemaReference", (.named "SchemaReference")⟩,
  ⟨"SchemaOrRef", "SchemaReferenceEns", .ens, "SchemaReference", (.named "SchemaReference")⟩]

/-- The builder methods of `SchemaAdditionalProperties` (`/repo/openapi3/entities.go:2263-2281`). -/
def bSchemaAdditionalProperties : List Builder := [
  ⟨"SchemaAdditionalProperties", "WithSchemaOrRef", .setPtr, "SchemaOrRef", (.named "SchemaOrRef")⟩,
  ⟨"SchemaAdditionalProperties", "SchemaOrRefEns", .ens, "SchemaOrRef", (.named "SchemaOrRef")⟩,
  ⟨"SchemaAdditionalProperties", "WithBool", .setPtr, "Bool", .bool⟩]

/-- The builder methods of `Discriminator` (`/repo/openapi3/entities.go:2325-2345`). -/
def bDiscriminator : List Builder := [
  ⟨"Discriminator", "WithPropertyName", .set, "PropertyName", .str⟩,
  ⟨"Discriminator", "WithMapping", .set, "Mapping", (.map .str)⟩,
  ⟨"Discriminator", "WithMappingItem", .item, "Mapping", .str⟩]

/-- The builder methods of `XML` (`/repo/openapi3/entities.go:2393-2437`). -/
def bXML : List Builder := [
  ⟨"XML", "WithName", .setPtr, "Name", .str⟩,
  ⟨"XML", "WithNamespace", .setPtr, "Namespace", .str⟩,
  ⟨"XML", "WithPrefix", .setPtr, "Prefix", .str⟩,
  ⟨"XML", "WithAttribute", .setPtr, "Attribute", .bool⟩,
  ⟨"XML", "WithWrapped", .setPtr, "Wrapped", .bool⟩,
  ⟨"XML", "WithMapOfAnything", .set, "MapOfAnything", (.map .any)⟩,
  ⟨"XML", "WithMapOfAnythingItem", .item, "MapOfAnything", .any⟩]

/-- The builder methods of `MediaType` (`/repo/openapi3/entities.go:2526-2595`). -/
def bMediaType : List Builder := [
  ⟨"MediaType", "WithSchema", .setPtr, "Schema", (.named "SchemaOrRef")⟩,
  ⟨"MediaType", "SchemaEns", .ens, "Schema", (.named "SchemaOrRef")⟩,
  ⟨"MediaType", "WithExample", .setPtr, "Example", .any⟩,
  ⟨"MediaType", "WithExamples", .set, "Examples", (.map (.named "ExampleOrRef"))⟩,
  ⟨"MediaType", "WithExamplesItem", .item, "Examples", (.named "ExampleOrRef")⟩,
  ⟨"MediaType", "WithEncoding", .set, "Encoding", (.map (.named "Encoding"))⟩,
  ⟨"MediaType", "WithEncodingItem", .item, "Encoding", (.named "Encoding")⟩,
  ⟨"MediaType", "WithMapOfAnything", .set, "MapOfAnything", (.map .any)⟩,
  ⟨"MediaType", "WithMapOfAnythingItem", .item, "MapOfAnything", .any⟩]

/-- The builder methods of `ExampleReference` (`/repo/openapi3/entities.go:2688-2691`). -/
def bExampleReference : List Builder := [
  ⟨"ExampleReference", "WithRef", .set, "Ref", .str⟩]

/-- The builder methods of `Example` (`/repo/openapi3/entities.go:2756-2794`). -/
def bExample : List Builder := [
  ⟨"Example", "WithSummary", .setPtr, "Summary", .str⟩,
  ⟨"Example", "WithDescription", .setPtr, "Description", .str⟩,
  ⟨"Example", "WithValue", .setPtr, "Value", .any⟩,
  ⟨"Example", "WithExternalValue", .setPtr, "ExternalValue", .str⟩,
  ⟨"Example", "WithMapOfAnything", .set, "MapOfAnything", (.map .any)⟩,
  ⟨"Example", "WithMapOfAnythingItem", .item, "MapOfAnything", .any⟩]

/-- The builder methods of `ExampleOrRef` (`/repo/openapi3/entities.go:2886-2913`). -/
def bExampleOrRef : List Builder := [
  ⟨"ExampleOrRef", "WithExampleReference", .setPtr, "ExampleReference", (.named "ExampleReference")⟩,
  ⟨"ExampleOrRef", "ExampleReferenceEns", .ens, "ExampleReference", (.named "ExampleReference")⟩,
  ⟨"ExampleOrRef", "WithExample", .setPtr, "Example", (.named "Example")⟩,
  ⟨"ExampleOrRef", "ExampleEns", .ens, "Example", (.named "Example")⟩]

/-- The builder methods of `Encoding` (`/repo/openapi3/entities.go:2960-2998`). -/
def bEncoding : List Builder := [
  ⟨"Encoding", "WithContentType", .setPtr, "ContentType", .str⟩,
  ⟨"Encoding", "WithHeaders", .set, "Headers", (.map (.named "Header"))⟩,
  ⟨"Encoding", "WithHeadersItem", .item, "Headers", (.named "Header")⟩,
  ⟨"Encoding", "WithStyle", .setPtr, "Style", (.named "EncodingStyle")⟩,
  ⟨"Encoding", "WithExplode", .setPtr, "Explode", .bool⟩,
  ⟨"Encoding", "WithAllowReserved", .setPtr, "AllowReserved", .bool⟩]

/-- The builder methods of `Header` (`/repo/openapi3/entities.go:3063-3168`). -/
def bHeader : List Builder := [
  ⟨"Header", "WithDescription", .setPtr, "Description", .str⟩,
  ⟨"Header", "WithRequired", .setPtr, "Required", .bool⟩,
  ⟨"Header", "WithDeprecated", .setPtr, "Deprecated", .bool⟩,
  ⟨"Header", "WithAllowEmptyValue", .setPtr, "AllowEmptyValue", .bool⟩,
  ⟨"Header", "WithExplode", .setPtr, "Explode", .bool⟩,
  ⟨"Header", "WithAllowReserved", .setPtr, "AllowReserved", .bool⟩,
  ⟨"Header", "WithSchema", .setPtr, "Schema", (.named "SchemaOrRef")⟩,
  ⟨"Header", "SchemaEns", .ens, "Schema", (.named "SchemaOrRef")⟩,
  ⟨"Header", "WithContent", .set, "Content", (.map (.named "MediaType"))⟩,
  ⟨"Header", "WithContentItem", .item, "Content", (.named "MediaType")⟩,
  ⟨"Header", "WithExample", .setPtr, "Example", .any⟩,
  ⟨"Header", "WithExamples", .set, "Examples", (.map (.named "ExampleOrRef"))⟩,
  ⟨"Header", "WithExamplesItem", .item, "Examples", (.named "ExampleOrRef")⟩,
  ⟨"Header", "WithMapOfAnything", .set, "MapOfAnything", (.map .any)⟩,
  ⟨"Header", "WithMapOfAnythingItem", .item, "MapOfAnything", .any⟩]

/-- The builder methods of `HasSchema` (`/repo/openapi3/entities.go:3277-3280`). -/
def bHasSchema : List Builder := [
  ⟨"HasSchema", "WithSchema", .set, "Schema", .any⟩]

/-- The builder methods of `HasContent` (`/repo/openapi3/entities.go:3327-3330`). -/
def bHasContent : List Builder := [
  ⟨"HasContent", "WithContent", .set, "Content", .any⟩]

/-- The builder methods of `SchemaXORContent` (`/repo/openapi3/entities.go:3376-3403`). -/
def bSchemaXORContent : List Builder := [
  ⟨"SchemaXORContent", "WithHasSchema", .setPtr, "HasSchema", (.named "HasSchema")⟩,
  ⟨"SchemaXORContent", "HasSchemaEns", .ens, "HasSchema", (.named "HasSchema")⟩,
  ⟨"SchemaXORContent", "WithHasContent", .setPtr, "HasContent", (.named "HasContent")⟩,
  ⟨"SchemaXORContent", "HasContentEns", .ens, "HasContent", (.named "HasContent")⟩]

/-- The builder methods of `SchemaXORContentNot` (`/repo/openapi3/entities.go:3453-3462`). -/
def bSchemaXORContentNot : List Builder := [
  ⟨"SchemaXORContentNot", "WithSchema", .set, "Schema", .any⟩,
  ⟨"SchemaXORContentNot", "WithContent", .set, "Content", .any⟩]

/-- The builder methods of `PathParameter` (`/repo/openapi3/entities.go:3510-3513`). -/
def bPathParameter : List Builder := [
  ⟨"PathParameter", "WithStyle", .setPtr, "Style", (.named "PathParameterStyle")⟩]

/-- The builder methods of `QueryParameter` (`/repo/openapi3/entities.go:3580-3583`). -/
def bQueryParameter : List Builder := [
  ⟨"QueryParameter", "WithStyle", .setPtr, "Style", (.named "QueryParameterStyle")⟩]

/-- The builder methods of `ParameterLocation` (`/repo/openapi3/entities.go:3717-3774`). -/
def bParameterLocation : List Builder := [
  ⟨"ParameterLocation", "WithPathParameter", .setPtr, "PathParameter", (.named "PathParameter")⟩,
  ⟨"ParameterLocation", "PathParameterEns", .ens, "PathParameter", (.named "PathParameter")⟩,
  ⟨"ParameterLocation", "WithQueryParameter", .setPtr, "QueryParameter", (.named "QueryParameter")⟩,
  ⟨"ParameterLocation", "QueryParameterEns", .ens, "QueryParameter", (.named "QueryParameter")⟩,
  ⟨"ParameterLocation", "WithHeaderParameter", .setPtr, "HeaderParameter", (.named "HeaderParameter")⟩,
  ⟨"ParameterLocation", "HeaderParameterEns", .ens, "HeaderParameter", (.named "HeaderParameter")⟩,
  ⟨"ParameterLocation", "WithCookieParameter", .setPtr, "CookieParameter", (.named "CookieParameter")⟩,
  ⟨"ParameterLocation", "CookieParameterEns", .ens, "CookieParameter", (.named "CookieParameter")⟩]

/-- The builder methods of `ParameterOrRef` (`/repo/openapi3/entities.go:3834-3861`). -/
def bParameterOrRef : List Builder := [
  ⟨"ParameterOrRef", "WithParameterReference", .setPtr, "ParameterReference", (.named "ParameterReference")⟩,
  ⟨"ParameterOrRef", "ParameterReferenceEns", .ens, "ParameterReference", (.named "ParameterReference")⟩,
  ⟨"ParameterOrRef", "WithParameter", .setPtr, "Parameter", (.named "Parameter")⟩,
  ⟨"ParameterOrRef", "ParameterEns", .ens, "Parameter", (.named "Parameter")⟩]

/-- The builder methods of `Operation` (`/repo/openapi3/entities.go:3916-4031`). -/
def bOperation : List Builder := [
  ⟨"Operation", "WithTags", .set, "Tags", (.slice .str)⟩,
  ⟨"Operation", "WithSummary", .setPtr, "Summary", .str⟩,
  ⟨"Operation", "WithDescription", .setPtr, "Description", .str⟩,
  ⟨"Operation", "WithExternalDocs", .setPtr, "ExternalDocs", (.named "ExternalDocumentation")⟩,
  ⟨"Operation", "ExternalDocsEns", .ens, "ExternalDocs", (.named "ExternalDocumentation")⟩,
  ⟨"Operation", "WithID", .setPtr, "ID", .str⟩,
  ⟨"Operation", "WithParameters", .set, "Parameters", (.slice (.named "ParameterOrRef"))⟩,
  ⟨"Operation", "WithRequestBody", .setPtr, "RequestBody", (.named "RequestBodyOrRef")⟩,
  ⟨"Operation", "RequestBodyEns", .ens, "RequestBody", (.named "RequestBodyOrRef")⟩,
  ⟨"Operation", "WithResponses", .set, "Responses", (.named "Responses")⟩,
  ⟨"Operation", "WithCallbacks", .set, "Callbacks", (.map (.named "CallbackOrRef"))⟩,
  ⟨"Operation", "WithCallbacksItem", .item, "Callbacks", (.named "CallbackOrRef")⟩,
  ⟨"Operation", "WithDeprecated", .setPtr, "Deprecated", .bool⟩,
  ⟨"Operation", "WithSecurity", .set, "Security", (.slice (.map (.slice .str)))⟩,
  ⟨"Operation", "WithServers", .set, "Servers", (.slice (.named "Server"))⟩,
  ⟨"Operation", "WithMapOfAnything", .set, "MapOfAnything", (.map .any)⟩,
  ⟨"Operation", "WithMapOfAnythingItem", .item, "MapOfAnything", .any⟩]

/-- The builder methods of `RequestBodyReference` (`/repo/openapi3/entities.go:4135-4138`). -/
def bRequestBodyReference : List Builder := [
  ⟨"RequestBodyReference", "WithRef", .set, "Ref", .str⟩]

/-- The builder methods of `RequestBody` (`/repo/openapi3/entities.go:4202-4245`). -/
def bRequestBody : List Builder := [
  ⟨"RequestBody", "WithDescription", .setPtr, "Description", .str⟩,
  ⟨"RequestBody", "WithContent", .set, "Content", (.map (.named "MediaType"))⟩,
  ⟨"RequestBody", "WithContentItem", .item, "Content", (.named "MediaType")⟩,
  ⟨"RequestBody", "WithRequired", .setPtr, "Required", .bool⟩,
  ⟨"RequestBody", "WithMapOfAnything", .set, "MapOfAnything", (.map .any)⟩,
  ⟨"RequestBody", "WithMapOfAnythingItem", .item, "MapOfAnything", .any⟩]

/-- The builder methods of `RequestBodyOrRef` (`/repo/openapi3/entities.go:4339-4366`). -/
def bRequestBodyOrRef : List Builder := [
  ⟨"RequestBodyOrRef", "WithRequestBodyReference", .setPtr, "RequestBodyReference", (.named "RequestBodyReference")⟩,
  ⟨"RequestBodyOrRef", "RequestBodyReferenceEns", .ens, "RequestBodyReference", (.named "RequestBodyReference")⟩,
  ⟨"RequestBodyOrRef", "WithRequestBody", .setPtr, "RequestBody", (.named "RequestBody")⟩,
  ⟨"RequestBodyOrRef", "RequestBodyEns", .ens, "RequestBody", (.named "RequestBody")⟩]

/-- The builder methods of `Responses` (`/repo/openapi3/entities.go:4411-4457`). -/
def bResponses : List Builder := [
  ⟨"Responses", "WithDefault", .setPtr, "Default", (.named "ResponseOrRef")⟩,
  ⟨"Responses", "DefaultEns", .ens, "Default", (.named "ResponseOrRef")⟩,
  ⟨"Responses", "WithMapOfResponseOrRefValues", .set, "MapOfResponseOrRefValues", (.map (.named "ResponseOrRef"))⟩,
  ⟨"Responses", "WithMapOfResponseOrRefValuesItem", .item, "MapOfResponseOrRefValues", (.named "ResponseOrRef")⟩,
  ⟨"Responses", "WithMapOfAnything", .set, "MapOfAnything", (.map .any)⟩,
  ⟨"Responses", "WithMapOfAnythingItem", .item, "MapOfAnything", .any⟩]

/-- The builder methods of `ResponseReference` (`/repo/openapi3/entities.go:4557-4560`). -/
def bResponseReference : List Builder := [
  ⟨"ResponseReference", "WithRef", .set, "Ref", .str⟩]

/-- The builder methods of `Response` (`/repo/openapi3/entities.go:4625-4696`). -/
def bResponse : List Builder := [
  ⟨"Response", "WithDescription", .set, "Description", .str⟩,
  ⟨"Response", "WithHeaders", .set, "Headers", (.map (.named "HeaderOrRef"))⟩,
  ⟨"Response", "WithHeadersItem", .item, "Headers", (.named "HeaderOrRef")⟩,
  ⟨"Response", "WithContent", .set, "Content", (.map (.named "MediaType"))⟩,
  ⟨"Response", "WithContentItem", .item, "Content", (.named "MediaType")⟩,
  ⟨"Response", "WithLinks", .set, "Links", (.map (.named "LinkOrRef"))⟩,
  ⟨"Response", "WithLinksItem", .item, "Links", (.named "LinkOrRef")⟩,
  ⟨"Response", "WithMapOfAnything", .set, "MapOfAnything", (.map .any)⟩,
  ⟨"Response", "WithMapOfAnythingItem", .item, "MapOfAnything", .any⟩]

/-- The builder methods of `HeaderReference` (`/repo/openapi3/entities.go:4792-4795`). -/
def bHeaderReference : List Builder := [
  ⟨"HeaderReference", "WithRef", .set, "Ref", .str⟩]

/-- The builder methods of `HeaderOrRef` (`/repo/openapi3/entities.go:4857-4884`). -/
def bHeaderOrRef : List Builder := [
  ⟨"HeaderOrRef", "WithHeaderReference", .setPtr, "HeaderReference", (.named "HeaderReference")⟩,
  ⟨"HeaderOrRef", "HeaderReferenceEns", .ens, "HeaderReference", (.named "HeaderReference")⟩,
  ⟨"HeaderOrRef", "WithHeader", .setPtr, "Header", (.named "Header")⟩,
  ⟨"HeaderOrRef", "HeaderEns", .ens, "Header", (.named "Header")⟩]

/-- The builder methods of `LinkReference` (`/repo/openapi3/entities.go:4929-4932`). -/
def bLinkReference : List Builder := [
  ⟨"LinkReference", "WithRef", .set, "Ref", .str⟩]

/-- The builder methods of `Link` (`/repo/openapi3/entities.go:4999-5069`). -/
def bLink : List Builder := [
  ⟨"Link", "WithOperationID", .setPtr, "OperationID", .str⟩,
  ⟨"Link", "WithOperationRef", .setPtr, "OperationRef", .str⟩,
  ⟨"Link", "WithParameters", .set, "Parameters", (.map .any)⟩,
  ⟨"Link", "WithParametersItem", .item, "Parameters", .any⟩,
  ⟨"Link", "WithRequestBody", .setPtr, "RequestBody", .any⟩,
  ⟨"Link", "WithDescription", .setPtr, "Description", .str⟩,
  ⟨"Link", "WithServer", .setPtr, "Server", (.named "Server")⟩,
  ⟨"Link", "ServerEns", .ens, "Server", (.named "Server")⟩,
  ⟨"Link", "WithMapOfAnything", .set, "MapOfAnything", (.map .any)⟩,
  ⟨"Link", "WithMapOfAnythingItem", .item, "MapOfAnything", .any⟩]

/-- The builder methods of `LinkNot` (`/repo/openapi3/entities.go:5171-5180`). -/
def bLinkNot : List Builder := [
  ⟨"LinkNot", "WithOperationID", .set, "OperationID", .any⟩,
  ⟨"LinkNot", "WithOperationRef", .set, "OperationRef", .any⟩]

/-- The builder methods of `LinkOrRef` (`/repo/openapi3/entities.go:5225-5252`). -/
def bLinkOrRef : List Builder := [
  ⟨"LinkOrRef", "WithLinkReference", .setPtr, "LinkReference", (.named "LinkReference")⟩,
  ⟨"LinkOrRef", "LinkReferenceEns", .ens, "LinkReference", (.named "LinkReference")⟩,
  ⟨"LinkOrRef", "WithLink", .setPtr, "Link", (.named "Link")⟩,
  ⟨"LinkOrRef", "LinkEns", .ens, "Link", (.named "Link")⟩]

/-- The builder methods of `ResponseOrRef` (`/repo/openapi3/entities.go:5296-5323`). -/
def bResponseOrRef : List Builder := [
  ⟨"ResponseOrRef", "WithResponseReference", .setPtr, "ResponseReference", (.named "ResponseReference")⟩,
  ⟨"ResponseOrRef", "ResponseReferenceEns", .ens, "ResponseReference", (.named "ResponseReference")⟩,
  ⟨"ResponseOrRef", "WithResponse", .setPtr, "Response", (.named "Response")⟩,
  ⟨"ResponseOrRef", "ResponseEns", .ens, "Response", (.named "Response")⟩]

/-- The builder methods of `CallbackReference` (`/repo/openapi3/entities.go:5368-5371`). -/
def bCallbackReference : List Builder := [
  ⟨"CallbackReference", "WithRef", .set, "Ref", .str⟩]

/-- The builder methods of `Callback` (`/repo/openapi3/entities.go:5433-5464`). -/
def bCallback : List Builder := [
  ⟨"Callback", "WithMapOfAnything", .set, "MapOfAnything", (.map .any)⟩,
  ⟨"Callback", "WithMapOfAnythingItem", .item, "MapOfAnything", .any⟩,
  ⟨"Callback", "WithAdditionalProperties", .set, "AdditionalProperties", (.map (.named "PathItem"))⟩,
  ⟨"Callback", "WithAdditionalPropertiesItem", .item, "AdditionalProperties", (.named "PathItem")⟩]

/-- The builder methods of `CallbackOrRef` (`/repo/openapi3/entities.go:5532-5559`). -/
def bCallbackOrRef : List Builder := [
  ⟨"CallbackOrRef", "WithCallbackReference", .setPtr, "CallbackReference", (.named "CallbackReference")⟩,
  ⟨"CallbackOrRef", "CallbackReferenceEns", .ens, "CallbackReference", (.named "CallbackReference")⟩,
  ⟨"CallbackOrRef", "WithCallback", .setPtr, "Callback", (.named "Callback")⟩,
  ⟨"CallbackOrRef", "CallbackEns", .ens, "Callback", (.named "Callback")⟩]

/-- The builder methods of `Paths` (`/repo/openapi3/entities.go:5603-5634`). -/
def bPaths : List Builder := [
  ⟨"Paths", "WithMapOfPathItemValues", .set, "MapOfPathItemValues", (.map (.named "PathItem"))⟩,
  ⟨"Paths", "WithMapOfPathItemValuesItem", .item, "MapOfPathItemValues", (.named "PathItem")⟩,
  ⟨"Paths", "WithMapOfAnything", .set, "MapOfAnything", (.map .any)⟩,
  ⟨"Paths", "WithMapOfAnythingItem", .item, "MapOfAnything", .any⟩]

/-- The builder methods of `Components` (`/repo/openapi3/entities.go:5722-5871`). -/
def bComponents : List Builder := [
  ⟨"Components", "WithSchemas", .setPtr, "Schemas", (.named "ComponentsSchemas")⟩,
  ⟨"Components", "SchemasEns", .ens, "Schemas", (.named "ComponentsSchemas")⟩,
  ⟨"Components", "WithResponses", .setPtr, "Responses", (.named "ComponentsResponses")⟩,
  ⟨"Components", "ResponsesEns", .ens, "Responses", (.named "ComponentsResponses")⟩,
  ⟨"Components", "WithParameters", .setPtr, "Parameters", (.named "ComponentsParameters")⟩,
  ⟨"Components", "ParametersEns", .ens, "Parameters", (.named "ComponentsParameters")⟩,
  ⟨"Components", "WithExamples", .setPtr, "Examples", (.named "ComponentsExamples")⟩,
  ⟨"Components", "ExamplesEns", .ens, "Examples", (.named "ComponentsExamples")⟩,
  ⟨"Components", "WithRequestBodies", .setPtr, "RequestBodies", (.named "ComponentsRequestBodies")⟩,
  ⟨"Components", "RequestBodiesEns", .ens, "RequestBodies", (.named "ComponentsRequestBodies")⟩,
  ⟨"Components", "WithHeaders", .setPtr, "Headers", (.named "ComponentsHeaders")⟩,
  ⟨"Components", "HeadersEns", .ens, "Headers", (.named "ComponentsHeaders")⟩,
  ⟨"Components", "WithSecuritySchemes", .setPtr, "SecuritySchemes", (.named "ComponentsSecuritySchemes")⟩,
  ⟨"Components", "SecuritySchemesEns", .ens, "SecuritySchemes", (.named "ComponentsSecuritySchemes")⟩,
  ⟨"Components", "WithLinks", .setPtr, "Links", (.named "ComponentsLinks")⟩,
  ⟨"Components", "LinksEns", .ens, "Links", (.named "ComponentsLinks")⟩,
  ⟨"Components", "WithCallbacks", .setPtr, "Callbacks", (.named "ComponentsCallbacks")⟩,
  ⟨"Components", "CallbacksEns", .ens, "Callbacks", (.named "ComponentsCallbacks")⟩,
  ⟨"Components", "WithMapOfAnything", .set, "MapOfAnything", (.map .any)⟩,
  ⟨"Components", "WithMapOfAnythingItem", .item, "MapOfAnything", .any⟩]

/-- The builder methods of `ComponentsSchemas` (`/repo/openapi3/entities.go:5960-5974`). -/
def bComponentsSchemas : List Builder := [
  ⟨"ComponentsSchemas", "WithMapOfSchemaOrRefValues", .set, "MapOfSchemaOrRefValues", (.map (.named "SchemaOrRef"))⟩,
  ⟨"ComponentsSchemas", "WithMapOfSchemaOrRefValuesItem", .item, "MapOfSchemaOrRefValues", (.named "SchemaOrRef")⟩]

/-- The builder methods of `ComponentsResponses` (`/repo/openapi3/entities.go:6026-6040`). -/
def bComponentsResponses : List Builder := [
  ⟨"ComponentsResponses", "WithMapOfResponseOrRefValues", .set, "MapOfResponseOrRefValues", (.map (.named "ResponseOrRef"))⟩,
  ⟨"ComponentsResponses", "WithMapOfResponseOrRefValuesItem", .item, "MapOfResponseOrRefValues", (.named "ResponseOrRef")⟩]

/-- The builder methods of `ComponentsParameters` (`/repo/openapi3/entities.go:6092-6106`). -/
def bComponentsParameters : List Builder := [
  ⟨"ComponentsParameters", "WithMapOfParameterOrRefValues", .set, "MapOfParameterOrRefValues", (.map (.named "ParameterOrRef"))⟩,
  ⟨"ComponentsParameters", "WithMapOfParameterOrRefValuesItem", .item, "MapOfParameterOrRefValues", (.named "ParameterOrRef")⟩]

/-- The builder methods of `ComponentsExamples` (`/repo/openapi3/entities.go:6158-6172`). -/
def bComponentsExamples : List Builder := [
  ⟨"ComponentsExamples", "WithMapOfExampleOrRefValues", .set, "MapOfExampleOrRefValues", (.map (.named "ExampleOrRef"))⟩,
  ⟨"ComponentsExamples", "WithMapOfExampleOrRefValuesItem", .item, "MapOfExampleOrRefValues", (.named "ExampleOrRef")⟩]

/-- The builder methods of `ComponentsRequestBodies` (`/repo/openapi3/entities.go:6224-6238`). -/
def bComponentsRequestBodies : List Builder := [
  ⟨"ComponentsRequestBodies", "WithMapOfRequestBodyOrRefValues", .set, "MapOfRequestBodyOrRefValues", (.map (.named "RequestBodyOrRef"))⟩,
  ⟨"ComponentsRequestBodies", "WithMapOfRequestBodyOrRefValuesItem", .item, "MapOfRequestBodyOrRefValues", (.named "RequestBodyOrRef")⟩]

/-- The builder methods of `ComponentsHeaders` (`/repo/openapi3/entities.go:6290-6304`). -/
def bComponentsHeaders : List Builder := [
  ⟨"ComponentsHeaders", "WithMapOfHeaderOrRefValues", .set, "MapOfHeaderOrRefValues", (.map (.named "HeaderOrRef"))⟩,
  ⟨"ComponentsHeaders", "WithMapOfHeaderOrRefValuesItem", .item, "MapOfHeaderOrRefValues", (.named "HeaderOrRef")⟩]

/-- The builder methods of `SecuritySchemeReference` (`/repo/openapi3/entities.go:6358-6361`). -/
def bSecuritySchemeReference : List Builder := [
  ⟨"SecuritySchemeReference", "WithRef", .set, "Ref", .str⟩]

/-- The builder methods of `APIKeySecurityScheme` (`/repo/openapi3/entities.go:6425-6457`). -/
def bAPIKeySecurityScheme : List Builder := [
  ⟨"APIKeySecurityScheme", "WithName", .set, "Name", .str⟩,
  ⟨"APIKeySecurityScheme", "WithIn", .set, "In", (.named "APIKeySecuritySchemeIn")⟩,
  ⟨"APIKeySecurityScheme", "WithDescription", .setPtr, "Description", .str⟩,
  ⟨"APIKeySecurityScheme", "WithMapOfAnything", .set, "MapOfAnything", (.map .any)⟩,
  ⟨"APIKeySecurityScheme", "WithMapOfAnythingItem", .item, "MapOfAnything", .any⟩]

/-- The builder methods of `HTTPSecurityScheme` (`/repo/openapi3/entities.go:6567-6629`). -/
def bHTTPSecurityScheme : List Builder := [
  ⟨"HTTPSecurityScheme", "WithScheme", .set, "Scheme", .str⟩,
  ⟨"HTTPSecurityScheme", "WithBearerFormat", .setPtr, "BearerFormat", .str⟩,
  ⟨"HTTPSecurityScheme", "WithDescription", .setPtr, "Description", .str⟩,
  ⟨"HTTPSecurityScheme", "WithBearer", .setPtr, "Bearer", (.named "Bearer")⟩,
  ⟨"HTTPSecurityScheme", "BearerEns", .ens, "Bearer", (.named "Bearer")⟩,
  ⟨"HTTPSecurityScheme", "WithNonBearer", .setPtr, "NonBearer", (.named "NonBearer")⟩,
  ⟨"HTTPSecurityScheme", "NonBearerEns", .ens, "NonBearer", (.named "NonBearer")⟩,
  ⟨"HTTPSecurityScheme", "WithMapOfAnything", .set, "MapOfAnything", (.map .any)⟩,
  ⟨"HTTPSecurityScheme", "WithMapOfAnythingItem", .item, "MapOfAnything", .any⟩]

/-- The builder methods of `NonBearer` (`/repo/openapi3/entities.go:6819-6822`). -/
def bNonBearer : List Builder := [
  ⟨"NonBearer", "WithScheme", .setPtr, "Scheme", .any⟩]

/-- The builder methods of `OAuth2SecurityScheme` (`/repo/openapi3/entities.go:6832-6858`). -/
def bOAuth2SecurityScheme : List Builder := [
  ⟨"OAuth2SecurityScheme", "WithFlows", .set, "Flows", (.named "OAuthFlows")⟩,
  ⟨"OAuth2SecurityScheme", "WithDescription", .setPtr, "Description", .str⟩,
  ⟨"OAuth2SecurityScheme", "WithMapOfAnything", .set, "MapOfAnything", (.map .any)⟩,
  ⟨"OAuth2SecurityScheme", "WithMapOfAnythingItem", .item, "MapOfAnything", .any⟩]

/-- The builder methods of `OAuthFlows` (`/repo/openapi3/entities.go:6965-7039`). -/
def bOAuthFlows : List Builder := [
  ⟨"OAuthFlows", "WithImplicit", .setPtr, "Implicit", (.named "ImplicitOAuthFlow")⟩,
  ⟨"OAuthFlows", "ImplicitEns", .ens, "Implicit", (.named "ImplicitOAuthFlow")⟩,
  ⟨"OAuthFlows", "WithPassword", .setPtr, "Password", (.named "PasswordOAuthFlow")⟩,
  ⟨"OAuthFlows", "PasswordEns", .ens, "Password", (.named "PasswordOAuthFlow")⟩,
  ⟨"OAuthFlows", "WithClientCredentials", .setPtr, "ClientCredentials", (.named "ClientCredentialsFlow")⟩,
  ⟨"OAuthFlows", "ClientCredentialsEns", .ens, "ClientCredentials", (.named "ClientCredentialsFlow")⟩,
  ⟨"OAuthFlows", "WithAuthorizationCode", .setPtr, "AuthorizationCode", (.named "AuthorizationCodeOAuthFlow")⟩,
  ⟨"OAuthFlows", "AuthorizationCodeEns", .ens, "AuthorizationCode", (.named "AuthorizationCodeOAuthFlow")⟩,
  ⟨"OAuthFlows", "WithMapOfAnything", .set, "MapOfAnything", (.map .any)⟩,
  ⟨"OAuthFlows", "WithMapOfAnythingItem", .item, "MapOfAnything", .any⟩]

/-- The builder methods of `ImplicitOAuthFlow` (`/repo/openapi3/entities.go:7128-7171`). -/
def bImplicitOAuthFlow : List Builder := [
  ⟨"ImplicitOAuthFlow", "WithAuthorizationURL", .set, "AuthorizationURL", .str⟩,
  ⟨"ImplicitOAuthFlow", "WithRefreshURL", .setPtr, "RefreshURL", .str⟩,
  ⟨"ImplicitOAuthFlow", "WithScopes", .set, "Scopes", (.map .str)⟩,
  ⟨"ImplicitOAuthFlow", "WithScopesItem", .item, "Scopes", .str⟩,
  ⟨"ImplicitOAuthFlow", "WithMapOfAnything", .set, "MapOfAnything", (.map .any)⟩,
  ⟨"ImplicitOAuthFlow", "WithMapOfAnythingItem", .item, "MapOfAnything", .any⟩]

/-- The builder methods of `PasswordOAuthFlow` (`/repo/openapi3/entities.go:7270-7313`). -/
def bPasswordOAuthFlow : List Builder := [
  ⟨"PasswordOAuthFlow", "WithTokenURL", .set, "TokenURL", .str⟩,
  ⟨"PasswordOAuthFlow", "WithRefreshURL", .setPtr, "RefreshURL", .str⟩,
  ⟨"PasswordOAuthFlow", "WithScopes", .set, "Scopes", (.map .str)⟩,
  ⟨"PasswordOAuthFlow", "WithScopesItem", .item, "Scopes", .str⟩,
  ⟨"PasswordOAuthFlow", "WithMapOfAnything", .set, "MapOfAnything", (.map .any)⟩,
  ⟨"PasswordOAuthFlow", "WithMapOfAnythingItem", .item, "MapOfAnything", .any⟩]

/-- The builder methods of `ClientCredentialsFlow` (`/repo/openapi3/entities.go:7411-7454`). -/
def bClientCredentialsFlow : List Builder := [
  ⟨"ClientCredentialsFlow", "WithTokenURL", .set, "TokenURL", .str⟩,
  ⟨"ClientCredentialsFlow", "WithRefreshURL", .setPtr, "RefreshURL", .str⟩,
  ⟨"ClientCredentialsFlow", "WithScopes", .set, "Scopes", (.map .str)⟩,
  ⟨"ClientCredentialsFlow", "WithScopesItem", .item, "Scopes", .str⟩,
  ⟨"ClientCredentialsFlow", "WithMapOfAnything", .set, "MapOfAnything", (.map .any)⟩,
  ⟨"ClientCredentialsFlow", "WithMapOfAnythingItem", .item, "MapOfAnything", .any⟩]

/-- The builder methods of `AuthorizationCodeOAuthFlow` (`/repo/openapi3/entities.go:7555-7604`). -/
def bAuthorizationCodeOAuthFlow : List Builder := [
  ⟨"AuthorizationCodeOAuthFlow", "WithAuthorizationURL", .set, "AuthorizationURL", .str⟩,
  ⟨"AuthorizationCodeOAuthFlow", "WithTokenURL", .set, "TokenURL", .str⟩,
  ⟨"AuthorizationCodeOAuthFlow", "WithRefreshURL", .setPtr, "RefreshURL", .str⟩,
  ⟨"AuthorizationCodeOAuthFlow", "WithScopes", .set, "Scopes", (.map .str)⟩,
  ⟨"AuthorizationCodeOAuthFlow", "WithScopesItem", .item, "Scopes", .str⟩,
  ⟨"AuthorizationCodeOAuthFlow", "WithMapOfAnything", .set, "MapOfAnything", (.map .any)⟩,
  ⟨"AuthorizationCodeOAuthFlow", "WithMapOfAnythingItem", .item, "MapOfAnything", .any⟩]

/-- The builder methods of `OpenIDConnectSecurityScheme` (`/repo/openapi3/entities.go:7703-7729`). -/
def bOpenIDConnectSecurityScheme : List Builder := [
  ⟨"OpenIDConnectSecurityScheme", "WithOpenIDConnectURL", .set, "OpenIDConnectURL", .str⟩,
  ⟨"OpenIDConnectSecurityScheme", "WithDescription", .setPtr, "Description", .str⟩,
  ⟨"OpenIDConnectSecurityScheme", "WithMapOfAnything", .set, "MapOfAnything", (.map .any)⟩,
  ⟨"OpenIDConnectSecurityScheme", "WithMapOfAnythingItem", .item, "MapOfAnything", .any⟩]

/-- The builder methods of `SecurityScheme` (`/repo/openapi3/entities.go:7835-7892`). -/
def bSecurityScheme : List Builder := [
  ⟨"SecurityScheme", "WithAPIKeySecurityScheme", .setPtr, "APIKeySecurityScheme", (.named "APIKeySecurityScheme")⟩,
  ⟨"SecurityScheme", "APIKeySecuritySchemeEns", .ens, "APIKeySecurityScheme", (.named "APIKeySecurityScheme")⟩,
  ⟨"SecurityScheme", "WithHTTPSecurityScheme", .setPtr, "HTTPSecurityScheme", (.named "HTTPSecurityScheme")⟩,
  ⟨"SecurityScheme", "HTTPSecuritySchemeEns", .ens, "HTTPSecurityScheme", (.named "HTTPSecurityScheme")⟩,
  ⟨"SecurityScheme", "WithOAuth2SecurityScheme", .setPtr, "OAuth2SecurityScheme", (.named "OAuth2SecurityScheme")⟩,
  ⟨"SecurityScheme", "OAuth2SecuritySchemeEns", .ens, "OAuth2SecurityScheme", (.named "OAuth2SecurityScheme")⟩,
  ⟨"SecurityScheme", "WithOpenIDConnectSecurityScheme", .setPtr, "OpenIDConnectSecurityScheme", (.named "OpenIDConnectSecurityScheme")⟩,
  ⟨"SecurityScheme", "OpenIDConnectSecuritySchemeEns", .ens, "OpenIDConnectSecurityScheme", (.named "OpenIDConnectSecurityScheme")⟩]

/-- The builder methods of `SecuritySchemeOrRef` (`/repo/openapi3/entities.go:7952-7979`). -/
def bSecuritySchemeOrRef : List Builder := [
  ⟨"SecuritySchemeOrRef", "WithSecuritySchemeReference", .setPtr, "SecuritySchemeReference", (.named "SecuritySchemeReference")⟩,
  ⟨"SecuritySchemeOrRef", "SecuritySchemeReferenceEns", .ens, "SecuritySchemeReference", (.named "SecuritySchemeReference")⟩,
  ⟨"SecuritySchemeOrRef", "WithSecurityScheme", .setPtr, "SecurityScheme", (.named "SecurityScheme")⟩,
  ⟨"SecuritySchemeOrRef", "SecuritySchemeEns", .ens, "SecurityScheme", (.named "SecurityScheme")⟩]

/-- The builder methods of `ComponentsSecuritySchemes` (`/repo/openapi3/entities.go:8022-8036`). -/
def bComponentsSecuritySchemes : List Builder := [
  ⟨"ComponentsSecuritySchemes", "WithMapOfSecuritySchemeOrRefValues", .set, "MapOfSecuritySchemeOrRefValues", (.map (.named "SecuritySchemeOrRef"))⟩,
  ⟨"ComponentsSecuritySchemes", "WithMapOfSecuritySchemeOrRefValuesItem", .item, "MapOfSecuritySchemeOrRefValues", (.named "SecuritySchemeOrRef")⟩]

/-- The builder methods of `ComponentsLinks` (`/repo/openapi3/entities.go:8088-8102`). -/
def bComponentsLinks : List Builder := [
  ⟨"ComponentsLinks", "WithMapOfLinkOrRefValues", .set, "MapOfLinkOrRefValues", (.map (.named "LinkOrRef"))⟩,
  ⟨"ComponentsLinks", "WithMapOfLinkOrRefValuesItem", .item, "MapOfLinkOrRefValues", (.named "LinkOrRef")⟩]

/-- The builder methods of `ComponentsCallbacks` (`/repo/openapi3/entities.go:8154-8168`). -/
def bComponentsCallbacks : List Builder := [
  ⟨"ComponentsCallbacks", "WithMapOfCallbackOrRefValues", .set, "MapOfCallbackOrRefValues", (.map (.named "CallbackOrRef"))⟩,
  ⟨"ComponentsCallbacks", "WithMapOfCallbackOrRefValuesItem", .item, "MapOfCallbackOrRefValues", (.named "CallbackOrRef")⟩]

/-- The builder methods of the package, by type. -/
def builders : GoMap (List Builder) := [
  ("Spec", bSpec),
  ("Info", bInfo),
  ("Contact", bContact),
  ("License", bLicense),
  ("ExternalDocumentation", bExternalDocumentation),
  ("Server", bServer),
  ("ServerVariable", bServerVariable),
  ("Tag", bTag),
  ("PathItem", bPathItem),
  ("ParameterReference", bParameterReference),
  ("Parameter", bParameter),
  ("Schema", bSchema),
  ("SchemaReference", bSchemaReference),
  ("SchemaOrRef", bSchemaOrRef),
  ("SchemaAdditionalProperties", bSchemaAdditionalProperties),
  ("Discriminator", bDiscriminator),
  ("XML", bXML),
  ("MediaType", bMediaType),
  ("ExampleReference", bExampleReference),
  ("Example", bExample),
  ("ExampleOrRef", bExampleOrRef),
  ("Encoding", bEncoding),
  ("Header", bHeader),
  ("HasSchema", bHasSchema),
  ("HasContent", bHasContent),
  ("SchemaXORContent", bSchemaXORContent),
  ("SchemaXORContentNot", bSchemaXORContentNot),
  ("PathParameter", bPathParameter),
  ("QueryParameter", bQueryParameter),
  ("ParameterLocation", bParameterLocation),
  ("ParameterOrRef", bParameterOrRef),
  ("Operation", bOperation),
  ("RequestBodyReference", bRequestBodyReference),
  ("RequestBody", bRequestBody),
  ("RequestBodyOrRef", bRequestBodyOrRef),
  ("Responses", bResponses),
  ("ResponseReference", bResponseReference),
  ("Response", bResponse),
  ("HeaderReference", bHeaderReference),
  ("HeaderOrRef", bHeaderOrRef),
  ("LinkReference", bLinkReference),
  ("Link", bLink),
  ("LinkNot", bLinkNot),
  ("LinkOrRef", bLinkOrRef),
  ("ResponseOrRef", bResponseOrRef),
  ("CallbackReference", bCallbackReference),
  ("Callback", bCallback),
  ("CallbackOrRef", bCallbackOrRef),
  ("Paths", bPaths),
  ("Components", bComponents),
  ("ComponentsSchemas", bComponentsSchemas),
  ("ComponentsResponses", bComponentsResponses),
  ("ComponentsParameters", bComponentsParameters),
  ("ComponentsExamples", bComponentsExamples),
  ("ComponentsRequestBodies", bComponentsRequestBodies),
  ("ComponentsHeaders", bComponentsHeaders),
  ("SecuritySchemeReference", bSecuritySchemeReference),
  ("APIKeySecurityScheme", bAPIKeySecurityScheme),
  ("HTTPSecurityScheme", bHTTPSecurityScheme),
  ("NonBearer", bNonBearer),
  ("OAuth2SecurityScheme", bOAuth2SecurityScheme),
  ("OAuthFlows", bOAuthFlows),
  ("ImplicitOAuthFlow", bImplicitOAuthFlow),
  ("PasswordOAuthFlow", bPasswordOAuthFlow),
  ("ClientCredentialsFlow", bClientCredentialsFlow),
  ("AuthorizationCodeOAuthFlow", bAuthorizationCodeOAuthFlow),
  ("OpenIDConnectSecurityScheme", bOpenIDConnectSecurityScheme),
  ("SecurityScheme", bSecurityScheme),
  ("SecuritySchemeOrRef", bSecuritySchemeOrRef),
  ("ComponentsSecuritySchemes", bComponentsSecuritySchemes),
  ("ComponentsLinks", bComponentsLinks),
  ("ComponentsCallbacks", bComponentsCallbacks)]

end Verif.Codec.V30
