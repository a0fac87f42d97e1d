import Verif.Conformance.Basic

/-! Generated by `tools/conformance.py`. The round trips of `/repo/openapi3/entities_test.go`: the model reads
each fragment and writes it back, as the Go test expects. Tests of the model, not proofs of properties. -/

namespace Verif.Conformance
open Codec

/- `TestSpec_MarshalJSON_roundtrip`, `/repo/openapi3/entities_test.go:14` -/
example : roundTrips V30.table "Spec" (
    .obj [("openapi", .str "cbbfff"), ("info", .obj [("title", .str "cdef"), ("description", .str "aadce"),
    ("termsOfService", .str "dc"), ("contact", .obj [("name", .str "daecfe"), ("url", .str "cddbd"), ("email", .str
    "accdf")]), ("license", .obj [("name", .str "fd"), ("url", .str "ad")]), ("version", .str "ead")]), ("externalDocs",
    .obj [("description", .str "adbfc"), ("url", .str "aebd")]), ("servers", .arr [.obj [("url", .str "ddbfe"),
    ("description", .str "bfcce"), ("variables", .obj [("fdfed", .obj [("enum", .arr [.str "cdba"]), ("default", .str
    "bedceb"), ("description", .str "dadf")])])]]), ("security", .arr [.obj [("bffd", .arr [.str "eae"])]]), ("tags",
    .arr [.obj [("name", .str "db"), ("description", .str "bfdbc"), ("externalDocs", .obj [("description", .str "ec"),
    ("url", .str "eb")])]]), ("paths", .obj []), ("components", .obj [("schemas", .obj []), ("responses", .obj []),
    ("parameters", .obj []), ("examples", .obj []), ("requestBodies", .obj []), ("headers", .obj []),
    ("securitySchemes", .obj []), ("links", .obj []), ("callbacks", .obj [])])]) = true := by
  decide +kernel

/- `TestInfo_MarshalJSON_roundtrip`, `/repo/openapi3/entities_test.go:28` -/
example : roundTrips V30.table "Info" (
    .obj [("title", .str "fffbce"), ("description", .str "dca"), ("termsOfService", .str "ecaddd"), ("contact", .obj
    [("name", .str "bcf"), ("url", .str "fa"), ("email", .str "abdfad")]), ("license", .obj [("name", .str "aeab"),
    ("url", .str "bafd")]), ("version", .str "eaceae")]) = true := by
  decide +kernel

/- `TestContact_MarshalJSON_roundtrip`, `/repo/openapi3/entities_test.go:42` -/
example : roundTrips V30.table "Contact" (
    .obj [("name", .str "cc"), ("url", .str "eadf"), ("email", .str "ecdaea")]) = true := by
  decide +kernel

/- `TestLicense_MarshalJSON_roundtrip`, `/repo/openapi3/entities_test.go:56` -/
example : roundTrips V30.table "License" (
    .obj [("name", .str "bcacc"), ("url", .str "fcadff")]) = true := by
  decide +kernel

/- `TestExternalDocumentation_MarshalJSON_roundtrip`, `/repo/openapi3/entities_test.go:70` -/
example : roundTrips V30.table "ExternalDocumentation" (
    .obj [("description", .str "eca"), ("url", .str "bdb")]) = true := by
  decide +kernel

/- `TestServer_MarshalJSON_roundtrip`, `/repo/openapi3/entities_test.go:84` -/
example : roundTrips V30.table "Server" (
    .obj [("url", .str "dfe"), ("description", .str "cfdcf"), ("variables", .obj [("baf", .obj [("enum", .arr [.str
    "dda"]), ("default", .str "acdcfe"), ("description", .str "de")])])]) = true := by
  decide +kernel

/- `TestServerVariable_MarshalJSON_roundtrip`, `/repo/openapi3/entities_test.go:98` -/
example : roundTrips V30.table "ServerVariable" (
    .obj [("enum", .arr [.str "befdf"]), ("default", .str "dcba"), ("description", .str "bffbb")]) = true := by
  decide +kernel

/- `TestTag_MarshalJSON_roundtrip`, `/repo/openapi3/entities_test.go:112` -/
example : roundTrips V30.table "Tag" (
    .obj [("name", .str "cdf"), ("description", .str "caf"), ("externalDocs", .obj [("description", .str "eeacab"),
    ("url", .str "bd")])]) = true := by
  decide +kernel

/- `TestPathItem_MarshalJSON_roundtrip`, `/repo/openapi3/entities_test.go:126` -/
example : roundTrips V30.table "PathItem" (
    .obj [("$ref", .str "db"), ("summary", .str "ebae"), ("description", .str "fcbcf"), ("servers", .arr [.obj [("url",
    .str "ce"), ("description", .str "bb"), ("variables", .obj [("eabafb", .obj [("enum", .arr [.str "ab"]), ("default",
    .str "daac"), ("description", .str "cba")])])]]), ("parameters", .arr [.obj [("$ref", .str
    "#/components/parameters/Foo")]])]) = true := by
  decide +kernel

/- `TestParameterReference_MarshalJSON_roundtrip`, `/repo/openapi3/entities_test.go:140` -/
example : roundTrips V30.table "ParameterReference" (
    .obj [("$ref", .str "#/components/parameters/Foo")]) = true := by
  decide +kernel

/- `TestParameter_MarshalJSON_roundtrip`, `/repo/openapi3/entities_test.go:154` -/
example : roundTrips V30.table "Parameter" (
    .obj [("name", .str "id"), ("in", .str "path"), ("required", .bool true), ("schema", .obj [("type", .str
    "string")])]) = true := by
  decide +kernel

/- `TestSchema_MarshalJSON_roundtrip`, `/repo/openapi3/entities_test.go:168` -/
example : roundTrips V30.table "Schema" (
    .obj [("title", .str "bed"), ("multipleOf", .num "9700.2"), ("maximum", .num "501.131"), ("exclusiveMaximum", .bool
    true), ("minimum", .num "8468.441"), ("exclusiveMinimum", .bool true), ("maxLength", .num "7410"), ("minLength",
    .num "2398"), ("pattern", .str "cc"), ("maxItems", .num "6200"), ("minItems", .num "9818"), ("uniqueItems", .bool
    true), ("maxProperties", .num "8290"), ("minProperties", .num "8930"), ("required", .arr [.str "bfee"]), ("enum",
    .arr [.null]), ("type", .str "boolean"), ("not", .obj [("$ref", .str "#/components/schemas/Foo")]), ("allOf", .arr
    [.obj [("$ref", .str "#/components/schemas/Foo")]]), ("oneOf", .arr [.obj [("$ref", .str
    "#/components/schemas/Foo")]]), ("anyOf", .arr [.obj [("$ref", .str "#/components/schemas/Foo")]]), ("items", .obj
    [("$ref", .str "#/components/schemas/Foo")]), ("properties", .obj [("eaeaae", .obj [("type", .str "string")])]),
    ("additionalProperties", .bool true), ("description", .str "ac"), ("format", .str "abdb"), ("nullable", .bool true),
    ("discriminator", .obj [("propertyName", .str "cccf"), ("mapping", .obj [("bed", .str "cec")])]), ("readOnly", .bool
    true), ("writeOnly", .bool true), ("externalDocs", .obj [("description", .str "efecaf"), ("url", .str "fdeeb")]),
    ("deprecated", .bool true), ("xml", .obj [("name", .str "afcfaf"), ("namespace", .str "ec"), ("prefix", .str
    "eaeeaf"), ("attribute", .bool true), ("wrapped", .bool true)])]) = true := by
  decide +kernel

/- `TestSchemaReference_MarshalJSON_roundtrip`, `/repo/openapi3/entities_test.go:182` -/
example : roundTrips V30.table "SchemaReference" (
    .obj [("$ref", .str "#/components/schemas/Foo")]) = true := by
  decide +kernel

/- `TestSchemaOrRef_MarshalJSON_roundtrip`, `/repo/openapi3/entities_test.go:196` -/
example : roundTrips V30.table "SchemaOrRef" (
    .obj [("type", .str "string")]) = true := by
  decide +kernel

/- `TestSchemaAdditionalProperties_MarshalJSON_roundtrip`, `/repo/openapi3/entities_test.go:210` -/
example : roundTrips V30.table "SchemaAdditionalProperties" (
    .obj [("$ref", .str "#/components/schemas/Foo")]) = true := by
  decide +kernel

/- `TestDiscriminator_MarshalJSON_roundtrip`, `/repo/openapi3/entities_test.go:224` -/
example : roundTrips V30.table "Discriminator" (
    .obj [("propertyName", .str "fdcbaf"), ("mapping", .obj [("abcdaf", .str "ac")])]) = true := by
  decide +kernel

/- `TestXML_MarshalJSON_roundtrip`, `/repo/openapi3/entities_test.go:238` -/
example : roundTrips V30.table "XML" (
    .obj [("name", .str "dcefd"), ("namespace", .str "dfecaf"), ("prefix", .str "ffaf"), ("attribute", .bool true),
    ("wrapped", .bool true)]) = true := by
  decide +kernel

/- `TestMediaType_MarshalJSON_roundtrip`, `/repo/openapi3/entities_test.go:252` -/
example : roundTrips V30.table "MediaType" (
    .obj [("schema", .obj [("$ref", .str "#/components/schemas/Foo")])]) = true := by
  decide +kernel

/- `TestExampleReference_MarshalJSON_roundtrip`, `/repo/openapi3/entities_test.go:266` -/
example : roundTrips V30.table "ExampleReference" (
    .obj [("$ref", .str "#/components/examples/Foo")]) = true := by
  decide +kernel

/- `TestExample_MarshalJSON_roundtrip`, `/repo/openapi3/entities_test.go:280` -/
example : roundTrips V30.table "Example" (
    .obj [("summary", .str "An Example"), ("description", .str "This is an example."), ("value", .str "foo")]) = true := by
  decide +kernel

/- `TestExampleOrRef_MarshalJSON_roundtrip`, `/repo/openapi3/entities_test.go:294` -/
example : roundTrips V30.table "ExampleOrRef" (
    .obj [("$ref", .str "#/components/examples/Foo")]) = true := by
  decide +kernel

/- `TestEncoding_MarshalJSON_roundtrip`, `/repo/openapi3/entities_test.go:308` -/
example : roundTrips V30.table "Encoding" (
    .obj [("contentType", .str "cd"), ("headers", .obj [("bdeb", .obj [("style", .str "simple"), ("schema", .obj
    [("type", .str "string"), ("description", .str "Sample header response.")])])]), ("style", .str "form"), ("explode",
    .bool true), ("allowReserved", .bool true)]) = true := by
  decide +kernel

/- `TestHeader_MarshalJSON_roundtrip`, `/repo/openapi3/entities_test.go:322` -/
example : roundTrips V30.table "Header" (
    .obj [("style", .str "simple"), ("schema", .obj [("type", .str "string"), ("description", .str
    "Sample header response.")])]) = true := by
  decide +kernel

/- `TestHasSchema_MarshalJSON_roundtrip`, `/repo/openapi3/entities_test.go:336` -/
example : roundTrips V30.table "HasSchema" (
    .obj [("schema", .obj [("type", .str "string")])]) = true := by
  decide +kernel

/- `TestHasContent_MarshalJSON_roundtrip`, `/repo/openapi3/entities_test.go:350` -/
example : roundTrips V30.table "HasContent" (
    .obj [("content", .obj [("application/json", .obj [("schema", .obj [("$ref", .str "#/components/schemas/Foo")])])])]) = true := by
  decide +kernel

/- `TestSchemaXORContent_MarshalJSON_roundtrip`, `/repo/openapi3/entities_test.go:364` -/
example : roundTrips V30.table "SchemaXORContent" (
    .obj [("content", .obj [("application/json", .obj [("schema", .obj [("$ref", .str "#/components/schemas/Foo")])])])]) = true := by
  decide +kernel

/- `TestSchemaXORContentNot_MarshalJSON_roundtrip`, `/repo/openapi3/entities_test.go:378` -/
example : roundTrips V30.table "SchemaXORContentNot" (
    .obj [("schema", .obj [("type", .str "string")]), ("content", .obj [("application/json", .obj [("schema", .obj
    [("$ref", .str "#/components/schemas/Foo")])])])]) = true := by
  decide +kernel

/- `TestPathParameter_MarshalJSON_roundtrip`, `/repo/openapi3/entities_test.go:392` -/
example : roundTrips V30.table "PathParameter" (
    .obj [("in", .str "path"), ("style", .str "label"), ("required", .bool true)]) = true := by
  decide +kernel

/- `TestQueryParameter_MarshalJSON_roundtrip`, `/repo/openapi3/entities_test.go:406` -/
example : roundTrips V30.table "QueryParameter" (
    .obj [("in", .str "query"), ("style", .str "pipeDelimited")]) = true := by
  decide +kernel

/- `TestHeaderParameter_MarshalJSON_roundtrip`, `/repo/openapi3/entities_test.go:420` -/
example : roundTrips V30.table "HeaderParameter" (
    .obj [("in", .str "header"), ("style", .str "simple")]) = true := by
  decide +kernel

/- `TestCookieParameter_MarshalJSON_roundtrip`, `/repo/openapi3/entities_test.go:434` -/
example : roundTrips V30.table "CookieParameter" (
    .obj [("in", .str "cookie"), ("style", .str "form")]) = true := by
  decide +kernel

/- `TestParameterLocation_MarshalJSON_roundtrip`, `/repo/openapi3/entities_test.go:448` -/
example : roundTrips V30.table "ParameterLocation" (
    .obj [("in", .str "cookie"), ("style", .str "form")]) = true := by
  decide +kernel

/- `TestParameterOrRef_MarshalJSON_roundtrip`, `/repo/openapi3/entities_test.go:462` -/
example : roundTrips V30.table "ParameterOrRef" (
    .obj [("name", .str "id"), ("in", .str "path"), ("required", .bool true), ("schema", .obj [("type", .str
    "string")])]) = true := by
  decide +kernel

/- `TestOperation_MarshalJSON_roundtrip`, `/repo/openapi3/entities_test.go:476` -/
example : roundTrips V30.table "Operation" (
    .obj [("tags", .arr [.str "edc"]), ("summary", .str "aadabb"), ("description", .str "fbadeb"), ("externalDocs", .obj
    [("description", .str "eccf"), ("url", .str "eeacfa")]), ("operationId", .str "ffd"), ("parameters", .arr [.obj
    [("$ref", .str "#/components/parameters/Foo")]]), ("requestBody", .obj [("$ref", .str
    "#/components/requestBodies/Foo")]), ("responses", .obj [("default", .obj [("description", .str
    "This is a sample response."), ("content", .obj [("application/json", .obj [("schema", .obj [("$ref", .str
    "#/components/schemas/Foo")])])])])]), ("callbacks", .obj [("afa", .obj [("$ref", .str
    "#/components/callbacks/Foo")])]), ("deprecated", .bool true), ("security", .arr [.obj [("cac", .arr [.str
    "ddd"])]]), ("servers", .arr [.obj [("url", .str "aceba"), ("description", .str "bc"), ("variables", .obj [("dfa",
    .obj [("enum", .arr [.str "bcacab"]), ("default", .str "ae"), ("description", .str "feb")])])]])]) = true := by
  decide +kernel

/- `TestRequestBodyReference_MarshalJSON_roundtrip`, `/repo/openapi3/entities_test.go:490` -/
example : roundTrips V30.table "RequestBodyReference" (
    .obj [("$ref", .str "#/components/requestBodies/Foo")]) = true := by
  decide +kernel

/- `TestRequestBody_MarshalJSON_roundtrip`, `/repo/openapi3/entities_test.go:504` -/
example : roundTrips V30.table "RequestBody" (
    .obj [("content", .obj [("multipart/form-data", .obj [("schema", .obj [("$ref", .str
    "#/components/schemas/Foo")])])])]) = true := by
  decide +kernel

/- `TestRequestBodyOrRef_MarshalJSON_roundtrip`, `/repo/openapi3/entities_test.go:518` -/
example : roundTrips V30.table "RequestBodyOrRef" (
    .obj [("content", .obj [("multipart/form-data", .obj [("schema", .obj [("$ref", .str
    "#/components/schemas/Foo")])])])]) = true := by
  decide +kernel

/- `TestResponses_MarshalJSON_roundtrip`, `/repo/openapi3/entities_test.go:532` -/
example : roundTrips V30.table "Responses" (
    .obj [("default", .obj [("description", .str "This is a sample response."), ("content", .obj [("application/json",
    .obj [("schema", .obj [("$ref", .str "#/components/schemas/Foo")])])])])]) = true := by
  decide +kernel

/- `TestResponseReference_MarshalJSON_roundtrip`, `/repo/openapi3/entities_test.go:546` -/
example : roundTrips V30.table "ResponseReference" (
    .obj [("$ref", .str "#/components/responses/Foo")]) = true := by
  decide +kernel

/- `TestResponse_MarshalJSON_roundtrip`, `/repo/openapi3/entities_test.go:560` -/
example : roundTrips V30.table "Response" (
    .obj [("description", .str "This is a sample response."), ("content", .obj [("application/json", .obj [("schema",
    .obj [("$ref", .str "#/components/schemas/Foo")])])])]) = true := by
  decide +kernel

/- `TestHeaderReference_MarshalJSON_roundtrip`, `/repo/openapi3/entities_test.go:574` -/
example : roundTrips V30.table "HeaderReference" (
    .obj [("$ref", .str "#/components/headers/Foo")]) = true := by
  decide +kernel

/- `TestHeaderOrRef_MarshalJSON_roundtrip`, `/repo/openapi3/entities_test.go:588` -/
example : roundTrips V30.table "HeaderOrRef" (
    .obj [("style", .str "simple"), ("schema", .obj [("type", .str "string"), ("description", .str
    "Sample header response.")])]) = true := by
  decide +kernel

/- `TestLinkReference_MarshalJSON_roundtrip`, `/repo/openapi3/entities_test.go:602` -/
example : roundTrips V30.table "LinkReference" (
    .obj [("$ref", .str "#/components/links/Foo")]) = true := by
  decide +kernel

/- `TestLink_MarshalJSON_roundtrip`, `/repo/openapi3/entities_test.go:616` -/
example : roundTrips V30.table "Link" (
    .obj [("operationId", .str "foo")]) = true := by
  decide +kernel

/- `TestLinkNot_MarshalJSON_roundtrip`, `/repo/openapi3/entities_test.go:630` -/
example : roundTrips V30.table "LinkNot" (
    .obj [("operationId", .str "foo"), ("operationRef", .str "bar")]) = true := by
  decide +kernel

/- `TestLinkOrRef_MarshalJSON_roundtrip`, `/repo/openapi3/entities_test.go:644` -/
example : roundTrips V30.table "LinkOrRef" (
    .obj [("$ref", .str "#/components/links/Foo")]) = true := by
  decide +kernel

/- `TestResponseOrRef_MarshalJSON_roundtrip`, `/repo/openapi3/entities_test.go:658` -/
example : roundTrips V30.table "ResponseOrRef" (
    .obj [("$ref", .str "#/components/responses/Foo")]) = true := by
  decide +kernel

/- `TestCallbackReference_MarshalJSON_roundtrip`, `/repo/openapi3/entities_test.go:672` -/
example : roundTrips V30.table "CallbackReference" (
    .obj [("$ref", .str "#/components/callbacks/Foo")]) = true := by
  decide +kernel

/- `TestCallback_MarshalJSON_roundtrip`, `/repo/openapi3/entities_test.go:686` -/
example : roundTrips V30.table "Callback" (
    .obj [("fd", .obj [("$ref", .str "acf"), ("summary", .str "eeea"), ("description", .str "ccedaf"), ("servers", .arr
    [.obj [("url", .str "acaf"), ("description", .str "cfd"), ("variables", .obj [("ddb", .obj [("enum", .arr [.str
    "fa"]), ("default", .str "ccacec"), ("description", .str "ece")])])]]), ("parameters", .arr [.obj [("$ref", .str
    "#/components/parameters/Foo")]])])]) = true := by
  decide +kernel

/- `TestCallbackOrRef_MarshalJSON_roundtrip`, `/repo/openapi3/entities_test.go:700` -/
example : roundTrips V30.table "CallbackOrRef" (
    .obj [("$ref", .str "#/components/callbacks/Foo")]) = true := by
  decide +kernel

/- `TestPaths_MarshalJSON_roundtrip`, `/repo/openapi3/entities_test.go:714` -/
example : roundTrips V30.table "Paths" (
    .obj []) = true := by
  decide +kernel

/- `TestComponents_MarshalJSON_roundtrip`, `/repo/openapi3/entities_test.go:728` -/
example : roundTrips V30.table "Components" (
    .obj [("schemas", .obj []), ("responses", .obj []), ("parameters", .obj []), ("examples", .obj []),
    ("requestBodies", .obj []), ("headers", .obj []), ("securitySchemes", .obj []), ("links", .obj []), ("callbacks",
    .obj [])]) = true := by
  decide +kernel

/- `TestComponentsSchemas_MarshalJSON_roundtrip`, `/repo/openapi3/entities_test.go:742` -/
example : roundTrips V30.table "ComponentsSchemas" (
    .obj []) = true := by
  decide +kernel

/- `TestComponentsResponses_MarshalJSON_roundtrip`, `/repo/openapi3/entities_test.go:756` -/
example : roundTrips V30.table "ComponentsResponses" (
    .obj []) = true := by
  decide +kernel

/- `TestComponentsParameters_MarshalJSON_roundtrip`, `/repo/openapi3/entities_test.go:770` -/
example : roundTrips V30.table "ComponentsParameters" (
    .obj []) = true := by
  decide +kernel

/- `TestComponentsExamples_MarshalJSON_roundtrip`, `/repo/openapi3/entities_test.go:784` -/
example : roundTrips V30.table "ComponentsExamples" (
    .obj []) = true := by
  decide +kernel

/- `TestComponentsRequestBodies_MarshalJSON_roundtrip`, `/repo/openapi3/entities_test.go:798` -/
example : roundTrips V30.table "ComponentsRequestBodies" (
    .obj []) = true := by
  decide +kernel

/- `TestComponentsHeaders_MarshalJSON_roundtrip`, `/repo/openapi3/entities_test.go:812` -/
example : roundTrips V30.table "ComponentsHeaders" (
    .obj []) = true := by
  decide +kernel

/- `TestSecuritySchemeReference_MarshalJSON_roundtrip`, `/repo/openapi3/entities_test.go:826` -/
example : roundTrips V30.table "SecuritySchemeReference" (
    .obj [("$ref", .str "#/components/securitySchemes/Foo")]) = true := by
  decide +kernel

/- `TestAPIKeySecurityScheme_MarshalJSON_roundtrip`, `/repo/openapi3/entities_test.go:840` -/
example : roundTrips V30.table "APIKeySecurityScheme" (
    .obj [("type", .str "apiKey"), ("name", .str "eadbf"), ("in", .str "query"), ("description", .str "fac")]) = true := by
  decide +kernel

/- `TestHTTPSecurityScheme_MarshalJSON_roundtrip`, `/repo/openapi3/entities_test.go:854` -/
example : roundTrips V30.table "HTTPSecurityScheme" (
    .obj [("scheme", .str "bearer"), ("bearerFormat", .str "cffaee"), ("description", .str "dcddce"), ("type", .str
    "http")]) = true := by
  decide +kernel

/- `TestBearer_MarshalJSON_roundtrip`, `/repo/openapi3/entities_test.go:868` -/
example : roundTrips V30.table "Bearer" (
    .obj [("scheme", .str "bearer")]) = true := by
  decide +kernel

/- `TestNonBearer_MarshalJSON_roundtrip`, `/repo/openapi3/entities_test.go:882` -/
example : roundTrips V30.table "NonBearer" (
    .obj []) = true := by
  decide +kernel

/- `TestOAuth2SecurityScheme_MarshalJSON_roundtrip`, `/repo/openapi3/entities_test.go:896` -/
example : roundTrips V30.table "OAuth2SecurityScheme" (
    .obj [("type", .str "oauth2"), ("flows", .obj [("implicit", .obj [("authorizationUrl", .str "eb"), ("refreshUrl",
    .str "ccec"), ("scopes", .obj [("dbcc", .str "ecabba")])]), ("password", .obj [("tokenUrl", .str "ccfc"),
    ("refreshUrl", .str "dfce"), ("scopes", .obj [("dbbfd", .str "fabcce")])]), ("clientCredentials", .obj [("tokenUrl",
    .str "caee"), ("refreshUrl", .str "cbed"), ("scopes", .obj [("edbe", .str "bddcd")])]), ("authorizationCode", .obj
    [("authorizationUrl", .str "eb"), ("tokenUrl", .str "bbab"), ("refreshUrl", .str "ddf"), ("scopes", .obj [("ebdb",
    .str "cbe")])])]), ("description", .str "becfee")]) = true := by
  decide +kernel

/- `TestOAuthFlows_MarshalJSON_roundtrip`, `/repo/openapi3/entities_test.go:910` -/
example : roundTrips V30.table "OAuthFlows" (
    .obj [("implicit", .obj [("authorizationUrl", .str "aaab"), ("refreshUrl", .str "fe"), ("scopes", .obj [("da", .str
    "ce")])]), ("password", .obj [("tokenUrl", .str "bfcfa"), ("refreshUrl", .str "af"), ("scopes", .obj [("bfe", .str
    "cf")])]), ("clientCredentials", .obj [("tokenUrl", .str "accb"), ("refreshUrl", .str "aa"), ("scopes", .obj
    [("dfba", .str "ab")])]), ("authorizationCode", .obj [("authorizationUrl", .str "ac"), ("tokenUrl", .str "faceb"),
    ("refreshUrl", .str "cffd"), ("scopes", .obj [("bbeffa", .str "bfd")])])]) = true := by
  decide +kernel

/- `TestImplicitOAuthFlow_MarshalJSON_roundtrip`, `/repo/openapi3/entities_test.go:924` -/
example : roundTrips V30.table "ImplicitOAuthFlow" (
    .obj [("authorizationUrl", .str "dde"), ("refreshUrl", .str "ecf"), ("scopes", .obj [("fbffc", .str "ffde")])]) = true := by
  decide +kernel

/- `TestPasswordOAuthFlow_MarshalJSON_roundtrip`, `/repo/openapi3/entities_test.go:938` -/
example : roundTrips V30.table "PasswordOAuthFlow" (
    .obj [("tokenUrl", .str "df"), ("refreshUrl", .str "aeedb"), ("scopes", .obj [("ccafeb", .str "eea")])]) = true := by
  decide +kernel

/- `TestClientCredentialsFlow_MarshalJSON_roundtrip`, `/repo/openapi3/entities_test.go:952` -/
example : roundTrips V30.table "ClientCredentialsFlow" (
    .obj [("tokenUrl", .str "efaabe"), ("refreshUrl", .str "cbe"), ("scopes", .obj [("caa", .str "bf")])]) = true := by
  decide +kernel

/- `TestAuthorizationCodeOAuthFlow_MarshalJSON_roundtrip`, `/repo/openapi3/entities_test.go:966` -/
example : roundTrips V30.table "AuthorizationCodeOAuthFlow" (
    .obj [("authorizationUrl", .str "aacdcd"), ("tokenUrl", .str "bdc"), ("refreshUrl", .str "ebaebb"), ("scopes", .obj
    [("bc", .str "daaf")])]) = true := by
  decide +kernel

/- `TestOpenIDConnectSecurityScheme_MarshalJSON_roundtrip`, `/repo/openapi3/entities_test.go:980` -/
example : roundTrips V30.table "OpenIDConnectSecurityScheme" (
    .obj [("type", .str "openIdConnect"), ("openIdConnectUrl", .str "eb"), ("description", .str "bfddfd")]) = true := by
  decide +kernel

/- `TestSecurityScheme_MarshalJSON_roundtrip`, `/repo/openapi3/entities_test.go:994` -/
example : roundTrips V30.table "SecurityScheme" (
    .obj [("type", .str "http"), ("scheme", .str "basic"), ("description", .str "Admin access")]) = true := by
  decide +kernel

/- `TestSecuritySchemeOrRef_MarshalJSON_roundtrip`, `/repo/openapi3/entities_test.go:1008` -/
example : roundTrips V30.table "SecuritySchemeOrRef" (
    .obj [("$ref", .str "#/components/securitySchemes/Foo")]) = true := by
  decide +kernel

/- `TestComponentsSecuritySchemes_MarshalJSON_roundtrip`, `/repo/openapi3/entities_test.go:1022` -/
example : roundTrips V30.table "ComponentsSecuritySchemes" (
    .obj []) = true := by
  decide +kernel

/- `TestComponentsLinks_MarshalJSON_roundtrip`, `/repo/openapi3/entities_test.go:1036` -/
example : roundTrips V30.table "ComponentsLinks" (
    .obj []) = true := by
  decide +kernel

/- `TestComponentsCallbacks_MarshalJSON_roundtrip`, `/repo/openapi3/entities_test.go:1050` -/
example : roundTrips V30.table "ComponentsCallbacks" (
    .obj []) = true := by
  decide +kernel

end Verif.Conformance
