import Verif.Spec.Meta2020

/-!
# The meta-schema of OpenAPI 3.1

`/repo/resources/schema/openapi31.json`, written by `/verif/tools/metaschema31.py`. `OpenAPI` is the schema of the
document, the others are its definitions. `$dynamicRef: #meta` is a reference to `schema`, the only place with that
anchor.
-/

namespace Verif.Meta31

/-- `info` -/
def mInfo : Sch :=
  .closed [.type ["object"], .object [
    ("title", .all [.type ["string"]]),
    ("summary", .all [.type ["string"]]),
    ("description", .all [.type ["string"]]),
    ("termsOfService", .all [.type ["string"], .note "format: \"uri\""]),
    ("contact", .ref "contact"),
    ("license", .ref "license"),
    ("version", .all [.type ["string"]])] [] none, .required ["title", "version"], .ref "specification-extensions"]

/-- `contact` -/
def mContact : Sch :=
  .closed [.type ["object"], .object [
    ("name", .all [.type ["string"]]),
    ("url", .all [.type ["string"], .note "format: \"uri\""]),
    ("email", .all [.type ["string"], .note "format: \"email\""])] [] none, .ref "specification-extensions"]

/-- `license` -/
def mLicense : Sch :=
  .closed [.type ["object"], .object [
    ("name", .all [.type ["string"]]),
    ("identifier", .all [.type ["string"]]),
    ("url", .all [.type ["string"], .note "format: \"uri\""])] [] none, .required ["name"], .dependent [("identifier", .all [.not (.all [.required ["url"]])])], .ref "specification-extensions"]

/-- `server` -/
def mServer : Sch :=
  .closed [.type ["object"], .object [
    ("url", .all [.type ["string"], .note "format: \"uri-reference\""]),
    ("description", .all [.type ["string"]]),
    ("variables", .all [.type ["object"], .object [] [] (some (.ref "server-variable"))])] [] none, .required ["url"], .ref "specification-extensions"]

/-- `server-variable` -/
def mServerVariable : Sch :=
  .closed [.type ["object"], .object [
    ("enum", .all [.type ["array"], .items (.all [.type ["string"]]), .minItems 1]),
    ("default", .all [.type ["string"]]),
    ("description", .all [.type ["string"]])] [] none, .required ["default"], .ref "specification-extensions"]

/-- `components` -/
def mComponents : Sch :=
  .closed [.type ["object"], .object [
    ("schemas", .all [.type ["object"], .object [] [] (some (.ref "schema"))]),
    ("responses", .all [.type ["object"], .object [] [] (some (.ref "response-or-reference"))]),
    ("parameters", .all [.type ["object"], .object [] [] (some (.ref "parameter-or-reference"))]),
    ("examples", .all [.type ["object"], .object [] [] (some (.ref "example-or-reference"))]),
    ("requestBodies", .all [.type ["object"], .object [] [] (some (.ref "request-body-or-reference"))]),
    ("headers", .all [.type ["object"], .object [] [] (some (.ref "header-or-reference"))]),
    ("securitySchemes", .all [.type ["object"], .object [] [] (some (.ref "security-scheme-or-reference"))]),
    ("links", .all [.type ["object"], .object [] [] (some (.ref "link-or-reference"))]),
    ("callbacks", .all [.type ["object"], .object [] [] (some (.ref "callbacks-or-reference"))]),
    ("pathItems", .all [.type ["object"], .object [] [] (some (.ref "path-item-or-reference"))])] [(.component, .all [.propertyNames (.all [.pattern .name])])] none, .ref "specification-extensions"]

/-- `paths` -/
def mPaths : Sch :=
  .closed [.type ["object"], .object [] [(.slash, .ref "path-item")] none, .ref "specification-extensions"]

/-- `path-item` -/
def mPathItem : Sch :=
  .closed [.type ["object"], .object [
    ("summary", .all [.type ["string"]]),
    ("description", .all [.type ["string"]]),
    ("servers", .all [.type ["array"], .items (.ref "server")]),
    ("parameters", .all [.type ["array"], .items (.ref "parameter-or-reference")]),
    ("get", .ref "operation"),
    ("put", .ref "operation"),
    ("post", .ref "operation"),
    ("delete", .ref "operation"),
    ("options", .ref "operation"),
    ("head", .ref "operation"),
    ("patch", .ref "operation"),
    ("trace", .ref "operation")] [] none, .ref "specification-extensions"]

/-- `path-item-or-reference` -/
def mPathItemOrReference : Sch :=
  .all [.ite (.all [.type ["object"], .required ["$ref"]]) (.ref "reference") (.ref "path-item")]

/-- `operation` -/
def mOperation : Sch :=
  .closed [.type ["object"], .object [
    ("tags", .all [.type ["array"], .items (.all [.type ["string"]])]),
    ("summary", .all [.type ["string"]]),
    ("description", .all [.type ["string"]]),
    ("externalDocs", .ref "external-documentation"),
    ("operationId", .all [.type ["string"]]),
    ("parameters", .all [.type ["array"], .items (.ref "parameter-or-reference")]),
    ("requestBody", .ref "request-body-or-reference"),
    ("responses", .ref "responses"),
    ("callbacks", .all [.type ["object"], .object [] [] (some (.ref "callbacks-or-reference"))]),
    ("deprecated", .all [.type ["boolean"], .note "default: false"]),
    ("security", .all [.type ["array"], .items (.ref "security-requirement")]),
    ("servers", .all [.type ["array"], .items (.ref "server")])] [] none, .ref "specification-extensions"]

/-- `external-documentation` -/
def mExternalDocumentation : Sch :=
  .closed [.type ["object"], .object [("description", .all [.type ["string"]]), ("url", .all [.type ["string"], .note "format: \"uri\""])] [] none, .required ["url"], .ref "specification-extensions"]

/-- `parameter/dependentSchemas/schema/$defs/styles-for-path` -/
def mParameterSchemaStylesForPath : Sch :=
  .all [.ite (.all [.object [("in", .all [.enum [(.str "path")]])] [] none, .required ["in"]]) (.all [.object [
    ("name", .all [.pattern .plain]),
    ("style", .all [.note "default: \"simple\"", .enum [(.str "matrix"), (.str "label"), (.str "simple")]]),
    ("required", .all [.enum [(.bool true)]])] [] none, .required ["required"]]) (.all [])]

/-- `parameter/dependentSchemas/schema/$defs/styles-for-header` -/
def mParameterSchemaStylesForHeader : Sch :=
  .all [.ite (.all [.object [("in", .all [.enum [(.str "header")]])] [] none, .required ["in"]]) (.all [.object [("style", .all [.note "default: \"simple\"", .enum [(.str "simple")]])] [] none]) (.all [])]

/-- `parameter/dependentSchemas/schema/$defs/styles-for-query` -/
def mParameterSchemaStylesForQuery : Sch :=
  .all [.ite (.all [.object [("in", .all [.enum [(.str "query")]])] [] none, .required ["in"]]) (.all [.object [("style", .all [.note "default: \"form\"", .enum [(.str "form"), (.str "spaceDelimited"), (.str "pipeDelimited"), (.str "deepObject")]]), ("allowReserved", .all [.type ["boolean"], .note "default: false"])] [] none]) (.all [])]

/-- `parameter/dependentSchemas/schema/$defs/styles-for-cookie` -/
def mParameterSchemaStylesForCookie : Sch :=
  .all [.ite (.all [.object [("in", .all [.enum [(.str "cookie")]])] [] none, .required ["in"]]) (.all [.object [("style", .all [.note "default: \"form\"", .enum [(.str "form")]])] [] none]) (.all [])]

/-- `parameter/dependentSchemas/schema/$defs/styles-for-form` -/
def mParameterSchemaStylesForForm : Sch :=
  .all [.ite (.all [.object [("style", .all [.enum [(.str "form")]])] [] none, .required ["style"]]) (.all [.object [("explode", .all [.note "default: true"])] [] none]) (.all [.object [("explode", .all [.note "default: false"])] [] none])]

/-- `parameter` -/
def mParameter : Sch :=
  .closed [.type ["object"], .object [
    ("name", .all [.type ["string"]]),
    ("in", .all [.enum [(.str "query"), (.str "header"), (.str "path"), (.str "cookie")]]),
    ("description", .all [.type ["string"]]),
    ("required", .all [.type ["boolean"], .note "default: false"]),
    ("deprecated", .all [.type ["boolean"], .note "default: false"]),
    ("schema", .ref "schema"),
    ("content", .all [.ref "content", .minProps 1, .maxProps 1])] [] none, .required ["name", "in"], .oneOf [.all [.required ["schema"]], .all [.required ["content"]]], .ite (.all [.object [("in", .all [.enum [(.str "query")]])] [] none, .required ["in"]]) (.all [.object [("allowEmptyValue", .all [.type ["boolean"], .note "default: false"])] [] none]) (.all []), .dependent [("schema", .all [.object [("style", .all [.type ["string"]]), ("explode", .all [.type ["boolean"]])] [] none, .allOf [.ref "examples", .ref "parameter/dependentSchemas/schema/$defs/styles-for-path", .ref "parameter/dependentSchemas/schema/$defs/styles-for-header", .ref "parameter/dependentSchemas/schema/$defs/styles-for-query", .ref "parameter/dependentSchemas/schema/$defs/styles-for-cookie", .ref "parameter/dependentSchemas/schema/$defs/styles-for-form"]])], .ref "specification-extensions"]

/-- `parameter-or-reference` -/
def mParameterOrReference : Sch :=
  .all [.ite (.all [.type ["object"], .required ["$ref"]]) (.ref "reference") (.ref "parameter")]

/-- `request-body` -/
def mRequestBody : Sch :=
  .closed [.type ["object"], .object [
    ("description", .all [.type ["string"]]),
    ("content", .ref "content"),
    ("required", .all [.type ["boolean"], .note "default: false"])] [] none, .required ["content"], .ref "specification-extensions"]

/-- `request-body-or-reference` -/
def mRequestBodyOrReference : Sch :=
  .all [.ite (.all [.type ["object"], .required ["$ref"]]) (.ref "reference") (.ref "request-body")]

/-- `content` -/
def mContent : Sch :=
  .all [.type ["object"], .object [] [] (some (.ref "media-type")), .propertyNames (.all [.note "format: \"media-range\""])]

/-- `media-type` -/
def mMediaType : Sch :=
  .closed [.type ["object"], .object [("schema", .ref "schema"), ("encoding", .all [.type ["object"], .object [] [] (some (.ref "encoding"))])] [] none, .allOf [.ref "specification-extensions", .ref "examples"]]

/-- `encoding/$defs/explode-default` -/
def mEncodingExplodeDefault : Sch :=
  .all [.ite (.all [.object [("style", .all [.enum [(.str "form")]])] [] none, .required ["style"]]) (.all [.object [("explode", .all [.note "default: true"])] [] none]) (.all [.object [("explode", .all [.note "default: false"])] [] none])]

/-- `encoding` -/
def mEncoding : Sch :=
  .closed [.type ["object"], .object [
    ("contentType", .all [.type ["string"], .note "format: \"media-range\""]),
    ("headers", .all [.type ["object"], .object [] [] (some (.ref "header-or-reference"))]),
    ("style", .all [.note "default: \"form\"", .enum [(.str "form"), (.str "spaceDelimited"), (.str "pipeDelimited"), (.str "deepObject")]]),
    ("explode", .all [.type ["boolean"]]),
    ("allowReserved", .all [.type ["boolean"], .note "default: false"])] [] none, .allOf [.ref "specification-extensions", .ref "encoding/$defs/explode-default"]]

/-- `responses` -/
def mResponses : Sch :=
  .closed [.type ["object"], .object [("default", .ref "response-or-reference")] [(.status, .ref "response-or-reference")] none, .minProps 1, .ref "specification-extensions"]

/-- `response` -/
def mResponse : Sch :=
  .closed [.type ["object"], .object [
    ("description", .all [.type ["string"]]),
    ("headers", .all [.type ["object"], .object [] [] (some (.ref "header-or-reference"))]),
    ("content", .ref "content"),
    ("links", .all [.type ["object"], .object [] [] (some (.ref "link-or-reference"))])] [] none, .required ["description"], .ref "specification-extensions"]

/-- `response-or-reference` -/
def mResponseOrReference : Sch :=
  .all [.ite (.all [.type ["object"], .required ["$ref"]]) (.ref "reference") (.ref "response")]

/-- `callbacks` -/
def mCallbacks : Sch :=
  .all [.type ["object"], .object [] [] (some (.ref "path-item-or-reference")), .ref "specification-extensions"]

/-- `callbacks-or-reference` -/
def mCallbacksOrReference : Sch :=
  .all [.ite (.all [.type ["object"], .required ["$ref"]]) (.ref "reference") (.ref "callbacks")]

/-- `example` -/
def mExample : Sch :=
  .closed [.type ["object"], .object [
    ("summary", .all [.type ["string"]]),
    ("description", .all [.type ["string"]]),
    ("value", .all []),
    ("externalValue", .all [.type ["string"], .note "format: \"uri\""])] [] none, .not (.all [.required ["value", "externalValue"]]), .ref "specification-extensions"]

/-- `example-or-reference` -/
def mExampleOrReference : Sch :=
  .all [.ite (.all [.type ["object"], .required ["$ref"]]) (.ref "reference") (.ref "example")]

/-- `link` -/
def mLink : Sch :=
  .closed [.type ["object"], .object [
    ("operationRef", .all [.type ["string"], .note "format: \"uri-reference\""]),
    ("operationId", .all [.type ["string"]]),
    ("parameters", .ref "map-of-strings"),
    ("requestBody", .all []),
    ("description", .all [.type ["string"]]),
    ("body", .ref "server")] [] none, .oneOf [.all [.required ["operationRef"]], .all [.required ["operationId"]]], .ref "specification-extensions"]

/-- `link-or-reference` -/
def mLinkOrReference : Sch :=
  .all [.ite (.all [.type ["object"], .required ["$ref"]]) (.ref "reference") (.ref "link")]

/-- `header` -/
def mHeader : Sch :=
  .closed [.type ["object"], .object [
    ("description", .all [.type ["string"]]),
    ("required", .all [.type ["boolean"], .note "default: false"]),
    ("deprecated", .all [.type ["boolean"], .note "default: false"]),
    ("schema", .ref "schema"),
    ("content", .all [.ref "content", .minProps 1, .maxProps 1])] [] none, .oneOf [.all [.required ["schema"]], .all [.required ["content"]]], .dependent [("schema", .all [.object [("style", .all [.note "default: \"simple\"", .enum [(.str "simple")]]), ("explode", .all [.type ["boolean"], .note "default: false"])] [] none, .ref "examples"])], .ref "specification-extensions"]

/-- `header-or-reference` -/
def mHeaderOrReference : Sch :=
  .all [.ite (.all [.type ["object"], .required ["$ref"]]) (.ref "reference") (.ref "header")]

/-- `tag` -/
def mTag : Sch :=
  .closed [.type ["object"], .object [
    ("name", .all [.type ["string"]]),
    ("description", .all [.type ["string"]]),
    ("externalDocs", .ref "external-documentation")] [] none, .required ["name"], .ref "specification-extensions"]

/-- `reference` -/
def mReference : Sch :=
  .closed [.type ["object"], .object [
    ("$ref", .all [.type ["string"], .note "format: \"uri-reference\""]),
    ("summary", .all [.type ["string"]]),
    ("description", .all [.type ["string"]])] [] none]

/-- `schema` -/
def mSchema : Sch :=
  .all [.type ["object", "boolean"]]

/-- `security-scheme/$defs/type-apikey` -/
def mSecuritySchemeTypeApikey : Sch :=
  .all [.ite (.all [.object [("type", .all [.enum [(.str "apiKey")]])] [] none, .required ["type"]]) (.all [.object [("name", .all [.type ["string"]]), ("in", .all [.enum [(.str "query"), (.str "header"), (.str "cookie")]])] [] none, .required ["name", "in"]]) (.all [])]

/-- `security-scheme/$defs/type-http` -/
def mSecuritySchemeTypeHttp : Sch :=
  .all [.ite (.all [.object [("type", .all [.enum [(.str "http")]])] [] none, .required ["type"]]) (.all [.object [("scheme", .all [.type ["string"]])] [] none, .required ["scheme"]]) (.all [])]

/-- `security-scheme/$defs/type-http-bearer` -/
def mSecuritySchemeTypeHttpBearer : Sch :=
  .all [.ite (.all [.object [("type", .all [.enum [(.str "http")]]), ("scheme", .all [.type ["string"], .pattern .bearer])] [] none, .required ["type", "scheme"]]) (.all [.object [("bearerFormat", .all [.type ["string"]])] [] none]) (.all [])]

/-- `security-scheme/$defs/type-oauth2` -/
def mSecuritySchemeTypeOauth2 : Sch :=
  .all [.ite (.all [.object [("type", .all [.enum [(.str "oauth2")]])] [] none, .required ["type"]]) (.all [.object [("flows", .ref "oauth-flows")] [] none, .required ["flows"]]) (.all [])]

/-- `security-scheme/$defs/type-oidc` -/
def mSecuritySchemeTypeOidc : Sch :=
  .all [.ite (.all [.object [("type", .all [.enum [(.str "openIdConnect")]])] [] none, .required ["type"]]) (.all [.object [("openIdConnectUrl", .all [.type ["string"], .note "format: \"uri\""])] [] none, .required ["openIdConnectUrl"]]) (.all [])]

/-- `security-scheme` -/
def mSecurityScheme : Sch :=
  .closed [.type ["object"], .object [("type", .all [.enum [(.str "apiKey"), (.str "http"), (.str "mutualTLS"), (.str "oauth2"), (.str "openIdConnect")]]), ("description", .all [.type ["string"]])] [] none, .required ["type"], .allOf [.ref "specification-extensions", .ref "security-scheme/$defs/type-apikey", .ref "security-scheme/$defs/type-http", .ref "security-scheme/$defs/type-http-bearer", .ref "security-scheme/$defs/type-oauth2", .ref "security-scheme/$defs/type-oidc"]]

/-- `security-scheme-or-reference` -/
def mSecuritySchemeOrReference : Sch :=
  .all [.ite (.all [.type ["object"], .required ["$ref"]]) (.ref "reference") (.ref "security-scheme")]

/-- `oauth-flows/$defs/implicit` -/
def mOauthFlowsImplicit : Sch :=
  .closed [.type ["object"], .object [
    ("authorizationUrl", .all [.type ["string"], .note "format: \"uri\""]),
    ("refreshUrl", .all [.type ["string"], .note "format: \"uri\""]),
    ("scopes", .ref "map-of-strings")] [] none, .required ["authorizationUrl", "scopes"], .ref "specification-extensions"]

/-- `oauth-flows/$defs/password` -/
def mOauthFlowsPassword : Sch :=
  .closed [.type ["object"], .object [
    ("tokenUrl", .all [.type ["string"], .note "format: \"uri\""]),
    ("refreshUrl", .all [.type ["string"], .note "format: \"uri\""]),
    ("scopes", .ref "map-of-strings")] [] none, .required ["tokenUrl", "scopes"], .ref "specification-extensions"]

/-- `oauth-flows/$defs/client-credentials` -/
def mOauthFlowsClientCredentials : Sch :=
  .closed [.type ["object"], .object [
    ("tokenUrl", .all [.type ["string"], .note "format: \"uri\""]),
    ("refreshUrl", .all [.type ["string"], .note "format: \"uri\""]),
    ("scopes", .ref "map-of-strings")] [] none, .required ["tokenUrl", "scopes"], .ref "specification-extensions"]

/-- `oauth-flows/$defs/authorization-code` -/
def mOauthFlowsAuthorizationCode : Sch :=
  .closed [.type ["object"], .object [
    ("authorizationUrl", .all [.type ["string"], .note "format: \"uri\""]),
    ("tokenUrl", .all [.type ["string"], .note "format: \"uri\""]),
    ("refreshUrl", .all [.type ["string"], .note "format: \"uri\""]),
    ("scopes", .ref "map-of-strings")] [] none, .required ["authorizationUrl", "tokenUrl", "scopes"], .ref "specification-extensions"]

/-- `oauth-flows` -/
def mOauthFlows : Sch :=
  .closed [.type ["object"], .object [
    ("implicit", .ref "oauth-flows/$defs/implicit"),
    ("password", .ref "oauth-flows/$defs/password"),
    ("clientCredentials", .ref "oauth-flows/$defs/client-credentials"),
    ("authorizationCode", .ref "oauth-flows/$defs/authorization-code")] [] none, .ref "specification-extensions"]

/-- `security-requirement` -/
def mSecurityRequirement : Sch :=
  .all [.type ["object"], .object [] [] (some (.all [.type ["array"], .items (.all [.type ["string"]])]))]

/-- `specification-extensions` -/
def mSpecificationExtensions : Sch :=
  .all [.object [] [(.x, .all [])] none]

/-- `examples` -/
def mExamples : Sch :=
  .all [.object [("example", .all []), ("examples", .all [.type ["object"], .object [] [] (some (.ref "example-or-reference"))])] [] none]

/-- `map-of-strings` -/
def mMapOfStrings : Sch :=
  .all [.type ["object"], .object [] [] (some (.all [.type ["string"]]))]

/-- `OpenAPI` -/
def mOpenAPI : Sch :=
  .closed [.type ["object"], .object [
    ("openapi", .all [.type ["string"], .pattern .version]),
    ("info", .ref "info"),
    ("jsonSchemaDialect", .all [.type ["string"], .note "format: \"uri\"", .note "default: \"https://spec.openapis.org/oas/3.1/dialect/base\""]),
    ("servers", .all [.type ["array"], .items (.ref "server"), .note "default: [{\"url\": \"/\"}]"]),
    ("paths", .ref "paths"),
    ("webhooks", .all [.type ["object"], .object [] [] (some (.ref "path-item-or-reference"))]),
    ("components", .ref "components"),
    ("security", .all [.type ["array"], .items (.ref "security-requirement")]),
    ("tags", .all [.type ["array"], .items (.ref "tag")]),
    ("externalDocs", .ref "external-documentation")] [] none, .required ["openapi", "info"], .anyOf [.all [.required ["paths"]], .all [.required ["components"]], .all [.required ["webhooks"]]], .ref "specification-extensions"]

/-- The meta-schema. -/
def defs31 : Defs := [
  ("info", mInfo),
  ("contact", mContact),
  ("license", mLicense),
  ("server", mServer),
  ("server-variable", mServerVariable),
  ("components", mComponents),
  ("paths", mPaths),
  ("path-item", mPathItem),
  ("path-item-or-reference", mPathItemOrReference),
  ("operation", mOperation),
  ("external-documentation", mExternalDocumentation),
  ("parameter/dependentSchemas/schema/$defs/styles-for-path", mParameterSchemaStylesForPath),
  ("parameter/dependentSchemas/schema/$defs/styles-for-header", mParameterSchemaStylesForHeader),
  ("parameter/dependentSchemas/schema/$defs/styles-for-query", mParameterSchemaStylesForQuery),
  ("parameter/dependentSchemas/schema/$defs/styles-for-cookie", mParameterSchemaStylesForCookie),
  ("parameter/dependentSchemas/schema/$defs/styles-for-form", mParameterSchemaStylesForForm),
  ("parameter", mParameter),
  ("parameter-or-reference", mParameterOrReference),
  ("request-body", mRequestBody),
  ("request-body-or-reference", mRequestBodyOrReference),
  ("content", mContent),
  ("media-type", mMediaType),
  ("encoding/$defs/explode-default", mEncodingExplodeDefault),
  ("encoding", mEncoding),
  ("responses", mResponses),
  ("response", mResponse),
  ("response-or-reference", mResponseOrReference),
  ("callbacks", mCallbacks),
  ("callbacks-or-reference", mCallbacksOrReference),
  ("example", mExample),
  ("example-or-reference", mExampleOrReference),
  ("link", mLink),
  ("link-or-reference", mLinkOrReference),
  ("header", mHeader),
  ("header-or-reference", mHeaderOrReference),
  ("tag", mTag),
  ("reference", mReference),
  ("schema", mSchema),
  ("security-scheme/$defs/type-apikey", mSecuritySchemeTypeApikey),
  ("security-scheme/$defs/type-http", mSecuritySchemeTypeHttp),
  ("security-scheme/$defs/type-http-bearer", mSecuritySchemeTypeHttpBearer),
  ("security-scheme/$defs/type-oauth2", mSecuritySchemeTypeOauth2),
  ("security-scheme/$defs/type-oidc", mSecuritySchemeTypeOidc),
  ("security-scheme", mSecurityScheme),
  ("security-scheme-or-reference", mSecuritySchemeOrReference),
  ("oauth-flows/$defs/implicit", mOauthFlowsImplicit),
  ("oauth-flows/$defs/password", mOauthFlowsPassword),
  ("oauth-flows/$defs/client-credentials", mOauthFlowsClientCredentials),
  ("oauth-flows/$defs/authorization-code", mOauthFlowsAuthorizationCode),
  ("oauth-flows", mOauthFlows),
  ("security-requirement", mSecurityRequirement),
  ("specification-extensions", mSpecificationExtensions),
  ("examples", mExamples),
  ("map-of-strings", mMapOfStrings),
  ("OpenAPI", mOpenAPI)]

end Verif.Meta31
