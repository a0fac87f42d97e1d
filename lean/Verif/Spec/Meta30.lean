import Verif.Spec.Meta

/-!
# The meta-schema of OpenAPI 3.0

`/repo/resources/schema/openapi3.json`, written by `/verif/tools/metaschema.py`. `OpenAPI` is the schema of the
document, the others are its definitions. What is left out, and thus left to the author of a document, is `skip`:
formats, patterns of strings, numeric bounds, numbers of members, uniqueness of elements, that a value does not have
both an example and examples, that a header has either a schema or content, and what may not stand next to the content
of a parameter.
-/

namespace Verif.Meta

/-- `OpenAPI` -/
def mOpenAPI : Sch :=
  .all [.type "object", .required ["openapi", "info", "paths"], .object [
    ("openapi", .all [.type "string", .skip "pattern: \"^3\\\\.0\\\\.\\\\d(-.+)?$\""]),
    ("info", .ref "Info"),
    ("externalDocs", .ref "ExternalDocumentation"),
    ("servers", .all [.type "array", .items (.ref "Server")]),
    ("security", .all [.type "array", .items (.ref "SecurityRequirement")]),
    ("tags", .all [.type "array", .items (.ref "Tag"), .skip "uniqueItems: true"]),
    ("paths", .ref "Paths"),
    ("components", .ref "Components")] [(.x, .all [])] (some .never)]

/-- `Reference` -/
def mReference : Sch :=
  .all [.type "object", .required ["$ref"], .object [("$ref", .all [.type "string", .skip "format: \"uri-reference\""])] [] (some .never)]

/-- `Info` -/
def mInfo : Sch :=
  .all [.type "object", .required ["title", "version"], .object [
    ("title", .all [.type "string"]),
    ("description", .all [.type "string"]),
    ("termsOfService", .all [.type "string", .skip "format: \"uri-reference\""]),
    ("contact", .ref "Contact"),
    ("license", .ref "License"),
    ("version", .all [.type "string"])] [(.x, .all [])] (some .never)]

/-- `Contact` -/
def mContact : Sch :=
  .all [.type "object", .object [
    ("name", .all [.type "string"]),
    ("url", .all [.type "string", .skip "format: \"uri-reference\""]),
    ("email", .all [.type "string", .skip "format: \"email\""])] [(.x, .all [])] (some .never)]

/-- `License` -/
def mLicense : Sch :=
  .all [.type "object", .required ["name"], .object [("name", .all [.type "string"]), ("url", .all [.type "string", .skip "format: \"uri-reference\""])] [(.x, .all [])] (some .never)]

/-- `Server` -/
def mServer : Sch :=
  .all [.type "object", .required ["url"], .object [
    ("url", .all [.type "string"]),
    ("description", .all [.type "string"]),
    ("variables", .all [.type "object", .object [] [] (some (.ref "ServerVariable"))])] [(.x, .all [])] (some .never)]

/-- `ServerVariable` -/
def mServerVariable : Sch :=
  .all [.type "object", .required ["default"], .object [
    ("enum", .all [.type "array", .items (.all [.type "string"])]),
    ("default", .all [.type "string"]),
    ("description", .all [.type "string"])] [(.x, .all [])] (some .never)]

/-- `Components` -/
def mComponents : Sch :=
  .all [.type "object", .object [
    ("schemas", .all [.type "object", .object [] [(.name, .ref "SchemaOrRef")] none]),
    ("responses", .all [.type "object", .object [] [(.name, .ref "ResponseOrRef")] none]),
    ("parameters", .all [.type "object", .object [] [(.name, .ref "ParameterOrRef")] none]),
    ("examples", .all [.type "object", .object [] [(.name, .ref "ExampleOrRef")] none]),
    ("requestBodies", .all [.type "object", .object [] [(.name, .ref "RequestBodyOrRef")] none]),
    ("headers", .all [.type "object", .object [] [(.name, .ref "HeaderOrRef")] none]),
    ("securitySchemes", .all [.type "object", .object [] [(.name, .ref "SecuritySchemeOrRef")] none]),
    ("links", .all [.type "object", .object [] [(.name, .ref "LinkOrRef")] none]),
    ("callbacks", .all [.type "object", .object [] [(.name, .ref "CallbackOrRef")] none])] [(.x, .all [])] (some .never)]

/-- `SchemaOrRef` -/
def mSchemaOrRef : Sch :=
  .all [.oneOf [.ref "Schema", .ref "SchemaReference"]]

/-- `SchemaReference` -/
def mSchemaReference : Sch :=
  .all [.type "object", .required ["$ref"], .object [("$ref", .all [.type "string", .skip "format: \"uri-reference\"", .skip "oneOf: [{\"pattern\": \"^#/components/schemas/\"}, {\"not\": {\"pattern\": \"^#/\"}}]"])] [] (some .never)]

/-- `Schema` -/
def mSchema : Sch :=
  .all [.type "object", .object [
    ("title", .all [.type "string"]),
    ("multipleOf", .all [.type "number", .skip "minimum: 0", .skip "exclusiveMinimum: true"]),
    ("maximum", .all [.type "number"]),
    ("exclusiveMaximum", .all [.type "boolean"]),
    ("minimum", .all [.type "number"]),
    ("exclusiveMinimum", .all [.type "boolean"]),
    ("maxLength", .all [.type "integer", .skip "minimum: 0"]),
    ("minLength", .all [.type "integer", .skip "minimum: 0"]),
    ("pattern", .all [.type "string", .skip "format: \"regex\""]),
    ("maxItems", .all [.type "integer", .skip "minimum: 0"]),
    ("minItems", .all [.type "integer", .skip "minimum: 0"]),
    ("uniqueItems", .all [.type "boolean"]),
    ("maxProperties", .all [.type "integer", .skip "minimum: 0"]),
    ("minProperties", .all [.type "integer", .skip "minimum: 0"]),
    ("required", .all [.type "array", .items (.all [.type "string"]), .minItems 1, .skip "uniqueItems: true"]),
    ("enum", .all [.type "array", .items (.all []), .minItems 1, .skip "uniqueItems: false"]),
    ("type", .all [.type "string", .enum [(.str "array"), (.str "boolean"), (.str "integer"), (.str "number"), (.str "object"), (.str "string")]]),
    ("not", .ref "SchemaOrRef"),
    ("allOf", .all [.type "array", .items (.ref "SchemaOrRef")]),
    ("oneOf", .all [.type "array", .items (.ref "SchemaOrRef")]),
    ("anyOf", .all [.type "array", .items (.ref "SchemaOrRef")]),
    ("items", .ref "SchemaOrRef"),
    ("properties", .all [.type "object", .object [] [] (some (.ref "SchemaOrRef"))]),
    ("additionalProperties", .all [.oneOf [.ref "SchemaOrRef", .all [.type "boolean"]]]),
    ("description", .all [.type "string"]),
    ("format", .all [.type "string"]),
    ("default", .all []),
    ("nullable", .all [.type "boolean"]),
    ("discriminator", .ref "Discriminator"),
    ("readOnly", .all [.type "boolean"]),
    ("writeOnly", .all [.type "boolean"]),
    ("example", .all []),
    ("externalDocs", .ref "ExternalDocumentation"),
    ("deprecated", .all [.type "boolean"]),
    ("xml", .ref "XML")] [(.x, .all [])] (some .never)]

/-- `Discriminator` -/
def mDiscriminator : Sch :=
  .all [.type "object", .required ["propertyName"], .object [("propertyName", .all [.type "string"]), ("mapping", .all [.type "object", .object [] [] (some (.all [.type "string"]))])] [] none]

/-- `XML` -/
def mXML : Sch :=
  .all [.type "object", .object [
    ("name", .all [.type "string"]),
    ("namespace", .all [.type "string", .skip "format: \"uri\""]),
    ("prefix", .all [.type "string"]),
    ("attribute", .all [.type "boolean"]),
    ("wrapped", .all [.type "boolean"])] [(.x, .all [])] (some .never)]

/-- `ResponseReference` -/
def mResponseReference : Sch :=
  .all [.type "object", .required ["$ref"], .object [("$ref", .all [.type "string", .skip "format: \"uri-reference\"", .skip "oneOf: [{\"pattern\": \"^#/components/responses/\"}, {\"not\": {\"pattern\": \"^#/\"}}]"])] [] (some .never)]

/-- `ResponseOrRef` -/
def mResponseOrRef : Sch :=
  .all [.oneOf [.ref "ResponseReference", .ref "Response"]]

/-- `Response` -/
def mResponse : Sch :=
  .all [.type "object", .required ["description"], .object [
    ("description", .all [.type "string"]),
    ("headers", .all [.type "object", .object [] [] (some (.ref "HeaderOrRef"))]),
    ("content", .all [.type "object", .object [] [] (some (.ref "MediaType"))]),
    ("links", .all [.type "object", .object [] [] (some (.ref "LinkOrRef"))])] [(.x, .all [])] (some .never)]

/-- `MediaType` -/
def mMediaType : Sch :=
  .all [.type "object", .object [
    ("schema", .ref "SchemaOrRef"),
    ("example", .all []),
    ("examples", .all [.type "object", .object [] [] (some (.ref "ExampleOrRef"))]),
    ("encoding", .all [.type "object", .object [] [] (some (.ref "Encoding"))])] [(.x, .all [])] (some .never), .skip "allOf: ExampleXORExamples"]

/-- `ExampleOrRef` -/
def mExampleOrRef : Sch :=
  .all [.oneOf [.ref "ExampleReference", .ref "Example"]]

/-- `ExampleReference` -/
def mExampleReference : Sch :=
  .all [.type "object", .required ["$ref"], .object [("$ref", .all [.type "string", .skip "format: \"uri-reference\"", .skip "oneOf: [{\"pattern\": \"^#/components/examples/\"}, {\"not\": {\"pattern\": \"^#/\"}}]"])] [] (some .never)]

/-- `Example` -/
def mExample : Sch :=
  .all [.type "object", .object [
    ("summary", .all [.type "string"]),
    ("description", .all [.type "string"]),
    ("value", .all []),
    ("externalValue", .all [.type "string", .skip "format: \"uri-reference\""])] [(.x, .all [])] (some .never)]

/-- `HeaderOrRef` -/
def mHeaderOrRef : Sch :=
  .all [.oneOf [.ref "HeaderReference", .ref "Header"]]

/-- `HeaderReference` -/
def mHeaderReference : Sch :=
  .all [.type "object", .required ["$ref"], .object [("$ref", .all [.type "string", .skip "format: \"uri-reference\"", .skip "oneOf: [{\"pattern\": \"^#/components/headers/\"}, {\"not\": {\"pattern\": \"^#/\"}}]"])] [] (some .never)]

/-- `Header` -/
def mHeader : Sch :=
  .all [.type "object", .object [
    ("description", .all [.type "string"]),
    ("required", .all [.type "boolean"]),
    ("deprecated", .all [.type "boolean"]),
    ("allowEmptyValue", .all [.type "boolean"]),
    ("style", .all [.type "string", .enum [(.str "simple")]]),
    ("explode", .all [.type "boolean"]),
    ("allowReserved", .all [.type "boolean"]),
    ("schema", .ref "SchemaOrRef"),
    ("content", .all [.type "object", .object [] [] (some (.ref "MediaType")), .skip "minProperties: 1", .skip "maxProperties: 1"]),
    ("example", .all []),
    ("examples", .all [.type "object", .object [] [] (some (.ref "ExampleOrRef"))])] [(.x, .all [])] (some .never), .skip "allOf: ExampleXORExamples, SchemaXORContent"]

/-- `Paths` -/
def mPaths : Sch :=
  .all [.type "object", .object [] [(.slash, .ref "PathItem"), (.x, .all [])] (some .never)]

/-- `PathItem` -/
def mPathItem : Sch :=
  .all [.type "object", .object [
    ("$ref", .all [.type "string"]),
    ("summary", .all [.type "string"]),
    ("description", .all [.type "string"]),
    ("servers", .all [.type "array", .items (.ref "Server")]),
    ("parameters", .all [.type "array", .items (.ref "ParameterOrRef"), .skip "uniqueItems: true"])] [(.methods, .ref "Operation"), (.x, .all [])] (some .never)]

/-- `Operation` -/
def mOperation : Sch :=
  .all [.type "object", .required ["responses"], .object [
    ("tags", .all [.type "array", .items (.all [.type "string"])]),
    ("summary", .all [.type "string"]),
    ("description", .all [.type "string"]),
    ("externalDocs", .ref "ExternalDocumentation"),
    ("operationId", .all [.type "string"]),
    ("parameters", .all [.type "array", .items (.ref "ParameterOrRef"), .skip "uniqueItems: true"]),
    ("requestBody", .ref "RequestBodyOrRef"),
    ("responses", .ref "Responses"),
    ("callbacks", .all [.type "object", .object [] [] (some (.ref "CallbackOrRef"))]),
    ("deprecated", .all [.type "boolean"]),
    ("security", .all [.type "array", .items (.ref "SecurityRequirement")]),
    ("servers", .all [.type "array", .items (.ref "Server")])] [(.x, .all [])] (some .never)]

/-- `Responses` -/
def mResponses : Sch :=
  .all [.type "object", .object [("default", .ref "ResponseOrRef")] [(.status, .ref "ResponseOrRef"), (.x, .all [])] (some .never), .skip "minProperties: 1"]

/-- `SecurityRequirement` -/
def mSecurityRequirement : Sch :=
  .all [.type "object", .object [] [] (some (.all [.type "array", .items (.all [.type "string"])]))]

/-- `Tag` -/
def mTag : Sch :=
  .all [.type "object", .required ["name"], .object [
    ("name", .all [.type "string"]),
    ("description", .all [.type "string"]),
    ("externalDocs", .ref "ExternalDocumentation")] [(.x, .all [])] (some .never)]

/-- `ExternalDocumentation` -/
def mExternalDocumentation : Sch :=
  .all [.type "object", .required ["url"], .object [("description", .all [.type "string"]), ("url", .all [.type "string", .skip "format: \"uri-reference\""])] [(.x, .all [])] (some .never)]

/-- `ExampleXORExamples` -/
def mExampleXORExamples : Sch :=
  .all [.not (.all [.required ["example", "examples"]])]

/-- `SchemaXORContent` -/
def mSchemaXORContent : Sch :=
  .all [.not (.all [.required ["schema", "content"], .object [("schema", .all []), ("content", .all [])] [] none]), .oneOf [.all [.required ["schema"], .object [("schema", .all [])] [] none], .all [.required ["content"], .object [("content", .all [])] [] none, .skip "allOf: no style, explode, allowReserved, example, examples"]]]

/-- `ParameterOrRef` -/
def mParameterOrRef : Sch :=
  .all [.oneOf [.ref "ParameterReference", .ref "Parameter"]]

/-- `ParameterReference` -/
def mParameterReference : Sch :=
  .all [.type "object", .required ["$ref"], .object [("$ref", .all [.type "string", .skip "format: \"uri-reference\"", .skip "oneOf: [{\"pattern\": \"^#/components/parameters/\"}, {\"not\": {\"pattern\": \"^#/\"}}]"])] [] (some .never)]

/-- `Parameter` -/
def mParameter : Sch :=
  .all [.type "object", .object [
    ("name", .all [.type "string"]),
    ("in", .all [.type "string", .enum [(.str "path"), (.str "query"), (.str "header"), (.str "cookie")]]),
    ("description", .all [.type "string"]),
    ("required", .all [.type "boolean"]),
    ("deprecated", .all [.type "boolean"]),
    ("allowEmptyValue", .all [.type "boolean"]),
    ("style", .all [.type "string"]),
    ("explode", .all [.type "boolean"]),
    ("allowReserved", .all [.type "boolean"]),
    ("schema", .ref "SchemaOrRef"),
    ("content", .all [.type "object", .object [] [] (some (.ref "MediaType")), .skip "minProperties: 1", .skip "maxProperties: 1"]),
    ("example", .all []),
    ("examples", .all [.type "object", .object [] [] (some (.ref "ExampleOrRef"))])] [(.x, .all [])] (some .never), .required ["name", "in"], .allOf [.skip "ExampleXORExamples", .ref "SchemaXORContent", .ref "ParameterLocation"]]

/-- `ParameterLocation` -/
def mParameterLocation : Sch :=
  .all [.oneOf [.all [.required ["required"], .object [
    ("in", .all [.enum [(.str "path")]]),
    ("style", .all [.enum [(.str "matrix"), (.str "label"), (.str "simple")]]),
    ("required", .all [.enum [(.bool true)]])] [] none], .all [.object [("in", .all [.enum [(.str "query")]]), ("style", .all [.enum [(.str "form"), (.str "spaceDelimited"), (.str "pipeDelimited"), (.str "deepObject")]])] [] none], .all [.object [("in", .all [.enum [(.str "header")]]), ("style", .all [.enum [(.str "simple")]])] [] none], .all [.object [("in", .all [.enum [(.str "cookie")]]), ("style", .all [.enum [(.str "form")]])] [] none]]]

/-- `RequestBodyOrRef` -/
def mRequestBodyOrRef : Sch :=
  .all [.oneOf [.ref "RequestBodyReference", .ref "RequestBody"]]

/-- `RequestBodyReference` -/
def mRequestBodyReference : Sch :=
  .all [.type "object", .required ["$ref"], .object [("$ref", .all [.type "string", .skip "format: \"uri-reference\"", .skip "oneOf: [{\"pattern\": \"^#/components/requestBodies/\"}, {\"not\": {\"pattern\": \"^#/\"}}]"])] [] (some .never)]

/-- `RequestBody` -/
def mRequestBody : Sch :=
  .all [.type "object", .required ["content"], .object [
    ("description", .all [.type "string"]),
    ("content", .all [.type "object", .object [] [] (some (.ref "MediaType"))]),
    ("required", .all [.type "boolean"])] [(.x, .all [])] (some .never)]

/-- `SecuritySchemeOrRef` -/
def mSecuritySchemeOrRef : Sch :=
  .all [.oneOf [.ref "SecuritySchemeReference", .ref "SecurityScheme"]]

/-- `SecuritySchemeReference` -/
def mSecuritySchemeReference : Sch :=
  .all [.type "object", .required ["$ref"], .object [("$ref", .all [.type "string", .skip "format: \"uri-reference\"", .skip "oneOf: [{\"pattern\": \"^#/components/securitySchemes/\"}, {\"not\": {\"pattern\": \"^#/\"}}]"])] [] (some .never)]

/-- `SecurityScheme` -/
def mSecurityScheme : Sch :=
  .all [.oneOf [.ref "APIKeySecurityScheme", .ref "HTTPSecurityScheme", .ref "OAuth2SecurityScheme", .ref "OpenIdConnectSecurityScheme"]]

/-- `APIKeySecurityScheme` -/
def mAPIKeySecurityScheme : Sch :=
  .all [.type "object", .required ["type", "name", "in"], .object [
    ("type", .all [.type "string", .enum [(.str "apiKey")]]),
    ("name", .all [.type "string"]),
    ("in", .all [.type "string", .enum [(.str "header"), (.str "query"), (.str "cookie")]]),
    ("description", .all [.type "string"])] [(.x, .all [])] (some .never)]

/-- `HTTPSecurityScheme` -/
def mHTTPSecurityScheme : Sch :=
  .all [.type "object", .required ["scheme", "type"], .object [
    ("scheme", .all [.type "string"]),
    ("bearerFormat", .all [.type "string"]),
    ("description", .all [.type "string"]),
    ("type", .all [.type "string", .enum [(.str "http")]])] [(.x, .all [])] (some .never), .oneOf [.all [.object [("scheme", .all [.enum [(.str "bearer")]])] [] none], .all [.not (.all [.required ["bearerFormat"]]), .object [("scheme", .all [.not (.all [.enum [(.str "bearer")]])])] [] none]]]

/-- `OAuth2SecurityScheme` -/
def mOAuth2SecurityScheme : Sch :=
  .all [.type "object", .required ["type", "flows"], .object [
    ("type", .all [.type "string", .enum [(.str "oauth2")]]),
    ("flows", .ref "OAuthFlows"),
    ("description", .all [.type "string"])] [(.x, .all [])] (some .never)]

/-- `OpenIdConnectSecurityScheme` -/
def mOpenIdConnectSecurityScheme : Sch :=
  .all [.type "object", .required ["type", "openIdConnectUrl"], .object [
    ("type", .all [.type "string", .enum [(.str "openIdConnect")]]),
    ("openIdConnectUrl", .all [.type "string", .skip "format: \"uri-reference\""]),
    ("description", .all [.type "string"])] [(.x, .all [])] (some .never)]

/-- `OAuthFlows` -/
def mOAuthFlows : Sch :=
  .all [.type "object", .object [
    ("implicit", .ref "ImplicitOAuthFlow"),
    ("password", .ref "PasswordOAuthFlow"),
    ("clientCredentials", .ref "ClientCredentialsFlow"),
    ("authorizationCode", .ref "AuthorizationCodeOAuthFlow")] [(.x, .all [])] (some .never)]

/-- `ImplicitOAuthFlow` -/
def mImplicitOAuthFlow : Sch :=
  .all [.type "object", .required ["authorizationUrl", "scopes"], .object [
    ("authorizationUrl", .all [.type "string", .skip "format: \"uri-reference\""]),
    ("refreshUrl", .all [.type "string", .skip "format: \"uri-reference\""]),
    ("scopes", .all [.type "object", .object [] [] (some (.all [.type "string"]))])] [(.x, .all [])] (some .never)]

/-- `PasswordOAuthFlow` -/
def mPasswordOAuthFlow : Sch :=
  .all [.type "object", .required ["tokenUrl"], .object [
    ("tokenUrl", .all [.type "string", .skip "format: \"uri-reference\""]),
    ("refreshUrl", .all [.type "string", .skip "format: \"uri-reference\""]),
    ("scopes", .all [.type "object", .object [] [] (some (.all [.type "string"]))])] [(.x, .all [])] (some .never)]

/-- `ClientCredentialsFlow` -/
def mClientCredentialsFlow : Sch :=
  .all [.type "object", .required ["tokenUrl"], .object [
    ("tokenUrl", .all [.type "string", .skip "format: \"uri-reference\""]),
    ("refreshUrl", .all [.type "string", .skip "format: \"uri-reference\""]),
    ("scopes", .all [.type "object", .object [] [] (some (.all [.type "string"]))])] [(.x, .all [])] (some .never)]

/-- `AuthorizationCodeOAuthFlow` -/
def mAuthorizationCodeOAuthFlow : Sch :=
  .all [.type "object", .required ["authorizationUrl", "tokenUrl"], .object [
    ("authorizationUrl", .all [.type "string", .skip "format: \"uri-reference\""]),
    ("tokenUrl", .all [.type "string", .skip "format: \"uri-reference\""]),
    ("refreshUrl", .all [.type "string", .skip "format: \"uri-reference\""]),
    ("scopes", .all [.type "object", .object [] [] (some (.all [.type "string"]))])] [(.x, .all [])] (some .never)]

/-- `LinkOrRef` -/
def mLinkOrRef : Sch :=
  .all [.oneOf [.ref "LinkReference", .ref "Link"]]

/-- `LinkReference` -/
def mLinkReference : Sch :=
  .all [.type "object", .required ["$ref"], .object [("$ref", .all [.type "string", .skip "format: \"uri-reference\"", .skip "oneOf: [{\"pattern\": \"^#/components/links/\"}, {\"not\": {\"pattern\": \"^#/\"}}]"])] [] (some .never)]

/-- `Link` -/
def mLink : Sch :=
  .all [.type "object", .object [
    ("operationId", .all [.type "string"]),
    ("operationRef", .all [.type "string", .skip "format: \"uri-reference\""]),
    ("parameters", .all [.type "object", .object [] [] (some (.all []))]),
    ("requestBody", .all []),
    ("description", .all [.type "string"]),
    ("server", .ref "Server")] [(.x, .all [])] (some .never), .not (.all [.required ["operationId", "operationRef"], .object [("operationId", .all []), ("operationRef", .all [])] [] none])]

/-- `CallbackOrRef` -/
def mCallbackOrRef : Sch :=
  .all [.oneOf [.ref "CallbackReference", .ref "Callback"]]

/-- `CallbackReference` -/
def mCallbackReference : Sch :=
  .all [.type "object", .required ["$ref"], .object [("$ref", .all [.type "string", .skip "format: \"uri-reference\"", .skip "oneOf: [{\"pattern\": \"^#/components/callbacks/\"}, {\"not\": {\"pattern\": \"^#/\"}}]"])] [] (some .never)]

/-- `Callback` -/
def mCallback : Sch :=
  .all [.type "object", .object [] [(.x, .all [])] (some (.ref "PathItem"))]

/-- `Encoding` -/
def mEncoding : Sch :=
  .all [.type "object", .object [
    ("contentType", .all [.type "string"]),
    ("headers", .all [.type "object", .object [] [] (some (.ref "Header"))]),
    ("style", .all [.type "string", .enum [(.str "form"), (.str "spaceDelimited"), (.str "pipeDelimited"), (.str "deepObject")]]),
    ("explode", .all [.type "boolean"]),
    ("allowReserved", .all [.type "boolean"])] [] (some .never)]

/-- The meta-schema. -/
def defs30 : Defs := [
  ("OpenAPI", mOpenAPI),
  ("Reference", mReference),
  ("Info", mInfo),
  ("Contact", mContact),
  ("License", mLicense),
  ("Server", mServer),
  ("ServerVariable", mServerVariable),
  ("Components", mComponents),
  ("SchemaOrRef", mSchemaOrRef),
  ("SchemaReference", mSchemaReference),
  ("Schema", mSchema),
  ("Discriminator", mDiscriminator),
  ("XML", mXML),
  ("ResponseReference", mResponseReference),
  ("ResponseOrRef", mResponseOrRef),
  ("Response", mResponse),
  ("MediaType", mMediaType),
  ("ExampleOrRef", mExampleOrRef),
  ("ExampleReference", mExampleReference),
  ("Example", mExample),
  ("HeaderOrRef", mHeaderOrRef),
  ("HeaderReference", mHeaderReference),
  ("Header", mHeader),
  ("Paths", mPaths),
  ("PathItem", mPathItem),
  ("Operation", mOperation),
  ("Responses", mResponses),
  ("SecurityRequirement", mSecurityRequirement),
  ("Tag", mTag),
  ("ExternalDocumentation", mExternalDocumentation),
  ("ExampleXORExamples", mExampleXORExamples),
  ("SchemaXORContent", mSchemaXORContent),
  ("ParameterOrRef", mParameterOrRef),
  ("ParameterReference", mParameterReference),
  ("Parameter", mParameter),
  ("ParameterLocation", mParameterLocation),
  ("RequestBodyOrRef", mRequestBodyOrRef),
  ("RequestBodyReference", mRequestBodyReference),
  ("RequestBody", mRequestBody),
  ("SecuritySchemeOrRef", mSecuritySchemeOrRef),
  ("SecuritySchemeReference", mSecuritySchemeReference),
  ("SecurityScheme", mSecurityScheme),
  ("APIKeySecurityScheme", mAPIKeySecurityScheme),
  ("HTTPSecurityScheme", mHTTPSecurityScheme),
  ("OAuth2SecurityScheme", mOAuth2SecurityScheme),
  ("OpenIdConnectSecurityScheme", mOpenIdConnectSecurityScheme),
  ("OAuthFlows", mOAuthFlows),
  ("ImplicitOAuthFlow", mImplicitOAuthFlow),
  ("PasswordOAuthFlow", mPasswordOAuthFlow),
  ("ClientCredentialsFlow", mClientCredentialsFlow),
  ("AuthorizationCodeOAuthFlow", mAuthorizationCodeOAuthFlow),
  ("LinkOrRef", mLinkOrRef),
  ("LinkReference", mLinkReference),
  ("Link", mLink),
  ("CallbackOrRef", mCallbackOrRef),
  ("CallbackReference", mCallbackReference),
  ("Callback", mCallback),
  ("Encoding", mEncoding)]

end Verif.Meta
