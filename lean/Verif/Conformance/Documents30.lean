import Verif.Conformance.Basic

/-! Generated by `tools/conformance.py`. The documents the tests of this version expect from the code: the model reads
each of them and writes it back. Tests of the model, not proofs of properties. -/

namespace Verif.Conformance
open Codec

/- `/repo/openapi3/entities_test.go:16` -/
example : keeps V30.table (
    .obj [("openapi", .str "cbbfff"), ("info", .obj [("title", .str "cdef"), ("description", .str "aadce"),
    ("termsOfService", .str "dc"), ("contact", .obj [("name", .str "daecfe"), ("url", .str "cddbd"), ("email", .str
    "accdf")]), ("license", .obj [("name", .str "fd"), ("url", .str "ad")]), ("version", .str "ead")]), ("externalDocs",
    .obj [("description", .str "adbfc"), ("url", .str "aebd")]), ("servers", .arr [.obj [("url", .str "ddbfe"),
    ("description", .str "bfcce"), ("variables", .obj [("fdfed", .obj [("enum", .arr [.str "cdba"]), ("default", .str
    "bedceb"), ("description", .str "dadf")])])]]), ("security", .arr [.obj [("bffd", .arr [.str "eae"])]]), ("tags",
    .arr [.obj [("name", .str "db"), ("description", .str "bfdbc"), ("externalDocs", .obj [("description", .str "ec"),
    ("url", .str "eb")])]]), ("paths", .obj []), ("components", .obj [("schemas", .obj []), ("responses", .obj []),
    ("parameters", .obj []), ("examples", .obj []), ("requestBodies", .obj []), ("headers", .obj []),
    ("securitySchemes", .obj []), ("links", .obj []), ("callbacks", .obj [])])]) = true := by
  decide +kernel

/- `/repo/openapi3/example_test.go:20` -/
example : keeps V30.table (
    .obj [("openapi", .str "3.0.0"), ("info", .obj [("version", .str "1.0.0"), ("title", .str "Swagger Petstore"),
    ("license", .obj [("name", .str "MIT")])]), ("servers", .arr [.obj [("url", .str
    "http://petstore.swagger.io/v1")]]), ("paths", .obj [("/pets", .obj [("get", .obj [("summary", .str
    "List all pets"), ("operationId", .str "listPets"), ("tags", .arr [.str "pets"]), ("parameters", .arr [.obj
    [("name", .str "limit"), ("in", .str "query"), ("description", .str
    "How many items to return at one time (max 100)"), ("required", .bool false), ("schema", .obj [("type", .str
    "integer"), ("format", .str "int32")])]]), ("responses", .obj [("200", .obj [("description", .str
    "A paged array of pets"), ("headers", .obj [("x-next", .obj [("description", .str
    "A link to the next page of responses"), ("schema", .obj [("type", .str "string")])])]), ("content", .obj
    [("application/json", .obj [("schema", .obj [("$ref", .str "#/components/schemas/Pets")])])])]), ("default", .obj
    [("description", .str "unexpected error"), ("content", .obj [("application/json", .obj [("schema", .obj [("$ref",
    .str "#/components/schemas/Error")])])])])])]), ("post", .obj [("summary", .str "Create a pet"), ("operationId",
    .str "createPets"), ("tags", .arr [.str "pets"]), ("responses", .obj [("201", .obj [("description", .str
    "Null response")]), ("default", .obj [("description", .str "unexpected error"), ("content", .obj
    [("application/json", .obj [("schema", .obj [("$ref", .str "#/components/schemas/Error")])])])])])])]),
    ("/pets/{petId}", .obj [("get", .obj [("summary", .str "Info for a specific pet"), ("operationId", .str
    "showPetById"), ("tags", .arr [.str "pets"]), ("parameters", .arr [.obj [("name", .str "petId"), ("in", .str
    "path"), ("required", .bool true), ("description", .str "The id of the pet to retrieve"), ("schema", .obj [("type",
    .str "string")])]]), ("responses", .obj [("200", .obj [("description", .str "Expected response to a valid request"),
    ("content", .obj [("application/json", .obj [("schema", .obj [("$ref", .str "#/components/schemas/Pet")])])])]),
    ("default", .obj [("description", .str "unexpected error"), ("content", .obj [("application/json", .obj [("schema",
    .obj [("$ref", .str "#/components/schemas/Error")])])])])])])])]), ("components", .obj [("schemas", .obj [("Pet",
    .obj [("type", .str "object"), ("required", .arr [.str "id", .str "name"]), ("properties", .obj [("id", .obj
    [("type", .str "integer"), ("format", .str "int64")]), ("name", .obj [("type", .str "string")]), ("tag", .obj
    [("type", .str "string")])])]), ("Pets", .obj [("type", .str "array"), ("items", .obj [("$ref", .str
    "#/components/schemas/Pet")])]), ("Error", .obj [("type", .str "object"), ("required", .arr [.str "code", .str
    "message"]), ("properties", .obj [("code", .obj [("x-foo", .str "bar"), ("type", .str "integer"), ("format", .str
    "int32")]), ("message", .obj [("type", .str "string")])])])])])]) = true := by
  decide +kernel

/- `/repo/openapi3/helper_test.go:93`: written by the code, not readable: a path parameter without `required: true` -/
example : (decode V30.table nums (.named "Spec") (
    .obj [("openapi", .str ""), ("info", .obj [("title", .str ""), ("version", .str "")]), ("paths", .obj
    [("/users/{userID}", .obj [("get", .obj [("parameters", .arr [.obj [("name", .str "userID"), ("in", .str "path")]]),
    ("responses", .obj [])]), ("post", .obj [("parameters", .arr [.obj [("name", .str "userID"), ("in", .str "path")]]),
    ("responses", .obj [])])])])])).isSome = false := by
  decide +kernel

/- `/repo/openapi3/reflect_deprecated_test.go:56` -/
example : keeps V30.table (
    .obj [("openapi", .str "3.0.3"), ("info", .obj [("title", .str ""), ("version", .str "")]), ("paths", .obj
    [("/somewhere", .obj [("post", .obj [("requestBody", .obj [("content", .obj [("multipart/form-data", .obj
    [("schema", .obj [("$ref", .str "#/components/schemas/FormDataOpenapi3TestReq")])])])]), ("responses", .obj [("204",
    .obj [("description", .str "No Content")])])])])]), ("components", .obj [("schemas", .obj
    [("FormDataOpenapi3TestReq", .obj [("type", .str "object"), ("properties", .obj [("upload1", .obj [("$ref", .str
    "#/components/schemas/MultipartFile")])])]), ("MultipartFile", .obj [("type", .str "string"), ("format", .str
    "binary")])])])]) = true := by
  decide +kernel

/- `/repo/openapi3/reflect_deprecated_test.go:185` -/
example : keeps V30.table (
    .obj [("openapi", .str "3.0.3"), ("info", .obj [("title", .str "SampleAPI"), ("version", .str "1.2.3")]), ("paths",
    .obj [("/somewhere/{id}", .obj [("post", .obj [("parameters", .arr [.obj [("name", .str "id"), ("in", .str "path"),
    ("required", .bool true), ("schema", .obj [("type", .str "string")])]]), ("requestBody", .obj [("content", .obj
    [("application/json", .obj [("schema", .obj [("$ref", .str
    "#/components/schemas/Openapi3TestPathParamAndBody")])])])]), ("responses", .obj [("204", .obj [("description", .str
    "No Content")])])])])]), ("components", .obj [("schemas", .obj [("Openapi3TestPathParamAndBody", .obj [("type", .str
    "array"), ("items", .obj [("type", .str "string")]), ("nullable", .bool true)])])])]) = true := by
  decide +kernel

/- `/repo/openapi3/reflect_deprecated_test.go:216` -/
example : keeps V30.table (
    .obj [("openapi", .str "3.0.3"), ("info", .obj [("title", .str "SampleAPI"), ("version", .str "1.2.3")]), ("paths",
    .obj [("/somewhere/{id}", .obj [("get", .obj [("parameters", .arr [.obj [("name", .str "id"), ("in", .str "path"),
    ("required", .bool true), ("schema", .obj [("type", .str "string")])]]), ("requestBody", .obj [("content", .obj
    [("application/json", .obj [("schema", .obj [("$ref", .str "#/components/schemas/Openapi3TestWithReqBody")])])])]),
    ("responses", .obj [("204", .obj [("description", .str "No Content")])])])])]), ("components", .obj [("schemas",
    .obj [("Openapi3TestWithReqBody", .obj [("type", .str "array"), ("items", .obj [("type", .str "string")]),
    ("nullable", .bool true)])])])]) = true := by
  decide +kernel

/- `/repo/openapi3/reflect_deprecated_test.go:254` -/
example : keeps V30.table (
    .obj [("openapi", .str "3.0.3"), ("info", .obj [("title", .str "SampleAPI"), ("version", .str "1.2.3")]), ("paths",
    .obj [("/somewhere", .obj [("get", .obj [("responses", .obj [("204", .obj [("description", .str "No Content"),
    ("headers", .obj [("X-Value-1", .obj [("style", .str "simple"), ("schema", .obj [("type", .str "integer")])]),
    ("X-Value-2", .obj [("style", .str "simple"), ("schema", .obj [("type", .str "string")])])]), ("content", .obj
    [("text/csv", .obj [("schema", .obj [("type", .str "string")])])])])])])])])]) = true := by
  decide +kernel

/- `/repo/openapi3/reflect_deprecated_test.go:313` -/
example : keeps V30.table (
    .obj [("openapi", .str "3.0.3"), ("info", .obj [("title", .str "SampleAPI"), ("version", .str "1.2.3")]), ("paths",
    .obj [("/somewhere/{value-4}", .obj [("post", .obj [("parameters", .arr [.obj [("name", .str "value_2"), ("in", .str
    "query"), ("schema", .obj [("type", .str "string")])], .obj [("name", .str "value-4"), ("in", .str "path"),
    ("required", .bool true), ("schema", .obj [("type", .str "boolean")])], .obj [("name", .str "value_5"), ("in", .str
    "cookie"), ("schema", .obj [("type", .str "string")])], .obj [("name", .str "X-Value-1"), ("in", .str "header"),
    ("schema", .obj [("type", .str "integer")])]]), ("requestBody", .obj [("content", .obj [("multipart/form-data", .obj
    [("schema", .obj [("type", .str "object"), ("properties", .obj [("upload6", .obj [("$ref", .str
    "#/components/schemas/MultipartFile")]), ("value3", .obj [("type", .str "number")])])])])])]), ("responses", .obj
    [("204", .obj [("description", .str "No Content")])])])])]), ("components", .obj [("schemas", .obj
    [("MultipartFile", .obj [("type", .str "string"), ("format", .str "binary")])])])]) = true := by
  decide +kernel

/- `/repo/openapi3/reflect_deprecated_test.go:367` -/
example : keeps V30.table (
    .obj [("openapi", .str "3.0.3"), ("info", .obj [("title", .str "SampleAPI"), ("version", .str "1.2.3")]), ("paths",
    .obj [("/somewhere", .obj [("post", .obj [("parameters", .arr [.obj [("name", .str "in_query"), ("in", .str
    "query"), ("style", .str "deepObject"), ("explode", .bool true), ("schema", .obj [("type", .str "object"),
    ("additionalProperties", .obj [("type", .str "number")])])]]), ("responses", .obj [("204", .obj [("description",
    .str "No Content")])])])])])]) = true := by
  decide +kernel

/- `/repo/openapi3/reflect_deprecated_test.go:400` -/
example : keeps V30.table (
    .obj [("openapi", .str "3.0.3"), ("info", .obj [("title", .str "SampleAPI"), ("version", .str "1.2.3")]), ("paths",
    .obj [("/somewhere", .obj [("post", .obj [("parameters", .arr [.obj [("name", .str "in_query"), ("in", .str
    "query"), ("style", .str "deepObject"), ("explode", .bool true), ("schema", .obj [("$ref", .str
    "#/components/schemas/Openapi3TestLabels")])]]), ("responses", .obj [("204", .obj [("description", .str
    "No Content")])])])])]), ("components", .obj [("schemas", .obj [("Openapi3TestLabels", .obj [("type", .str
    "object"), ("additionalProperties", .obj [("type", .str "number")])])])])]) = true := by
  decide +kernel

/- `/repo/openapi3/reflect_deprecated_test.go:448` -/
example : keeps V30.table (
    .obj [("openapi", .str "3.0.3"), ("info", .obj [("title", .str ""), ("version", .str "")]), ("paths", .obj [("/",
    .obj [("get", .obj [("parameters", .arr [.obj [("name", .str "one"), ("in", .str "query"), ("content", .obj
    [("application/json", .obj [("schema", .obj [("$ref", .str "#/components/schemas/Openapi3TestFilter")])])])], .obj
    [("name", .str "two"), ("in", .str "query"), ("content", .obj [("application/json", .obj [("schema", .obj [("$ref",
    .str "#/components/schemas/Openapi3TestFilter")])])])], .obj [("name", .str "three"), ("in", .str "query"),
    ("style", .str "deepObject"), ("explode", .bool true), ("schema", .obj [("type", .str "object"),
    ("additionalProperties", .obj [("type", .str "integer")])])]]), ("responses", .obj [("204", .obj [("description",
    .str "No Content")])])])])]), ("components", .obj [("schemas", .obj [("Openapi3TestFilter", .obj [("type", .str
    "object"), ("properties", .obj [("labels", .obj [("type", .str "array"), ("items", .obj [("type", .str
    "string")])]), ("type", .obj [("type", .str "string")])])])])])]) = true := by
  decide +kernel

/- `/repo/openapi3/reflect_deprecated_test.go:508` -/
example : keeps V30.table (
    .obj [("openapi", .str "3.0.3"), ("info", .obj [("title", .str ""), ("version", .str "")]), ("paths", .obj
    [("/{path}", .obj [("get", .obj [("parameters", .arr [.obj [("name", .str "query"), ("in", .str "query"), ("schema",
    .obj [("type", .str "string")])], .obj [("name", .str "path"), ("in", .str "path"), ("required", .bool true),
    ("schema", .obj [("type", .str "string")])], .obj [("name", .str "cookie"), ("in", .str "cookie"), ("schema", .obj
    [("type", .str "string")])], .obj [("name", .str "header"), ("in", .str "header"), ("schema", .obj [("type", .str
    "string")])]]), ("responses", .obj [("204", .obj [("description", .str "No Content")])]),
    ("x-forbid-unknown-cookie", .bool true), ("x-forbid-unknown-query", .bool true)])])])]) = true := by
  decide +kernel

/- `/repo/openapi3/reflect_deprecated_test.go:647` -/
example : keeps V30.table (
    .obj [("openapi", .str "3.0.3"), ("info", .obj [("title", .str ""), ("version", .str "")]), ("paths", .obj [("/foo",
    .obj [("get", .obj [("requestBody", .obj [("content", .obj [("application/x-www-form-urlencoded", .obj [("schema",
    .obj [("$ref", .str "#/components/schemas/FormDataOpenapi3TestReq")])])])]), ("responses", .obj [("204", .obj
    [("description", .str "No Content")])])])])]), ("components", .obj [("schemas", .obj [("FormDataOpenapi3TestReq",
    .obj [("type", .str "object"), ("properties", .obj [("foo", .obj [("type", .str "integer")])])])])])]) = true := by
  decide +kernel

/- `/repo/openapi3/reflect_deprecated_test.go:687` -/
example : keeps V30.table (
    .obj [("openapi", .str "3.0.3"), ("info", .obj [("title", .str ""), ("version", .str "")]), ("paths", .obj [("/foo",
    .obj [("post", .obj [("parameters", .arr [.obj [("name", .str "bar"), ("in", .str "query"), ("schema", .obj
    [("type", .str "integer")])], .obj [("name", .str "baz"), ("in", .str "query"), ("schema", .obj [("type", .str
    "string")])], .obj [("name", .str "quux"), ("in", .str "query"), ("schema", .obj [("type", .str "string")])]]),
    ("requestBody", .obj [("content", .obj [("application/x-www-form-urlencoded", .obj [("schema", .obj [("$ref", .str
    "#/components/schemas/FormDataOpenapi3TestReq")])])])]), ("responses", .obj [("204", .obj [("description", .str
    "No Content")])])])])]), ("components", .obj [("schemas", .obj [("FormDataOpenapi3TestReq", .obj [("type", .str
    "object"), ("properties", .obj [("bar", .obj [("type", .str "integer")]), ("foo", .obj [("type", .str "integer")]),
    ("ignored", .obj [("type", .str "string")])])])])])]) = true := by
  decide +kernel

/- `/repo/openapi3/reflect_deprecated_test.go:736` -/
example : keeps V30.table (
    .obj [("openapi", .str "3.0.3"), ("info", .obj [("title", .str ""), ("version", .str "")]), ("paths", .obj [("/foo",
    .obj [("post", .obj [("parameters", .arr [.obj [("name", .str "bar"), ("in", .str "query"), ("schema", .obj
    [("type", .str "integer")])], .obj [("name", .str "quux"), ("in", .str "query"), ("schema", .obj [("type", .str
    "string")])]]), ("requestBody", .obj [("content", .obj [("application/x-www-form-urlencoded", .obj [("schema", .obj
    [("$ref", .str "#/components/schemas/FormDataOpenapi3TestReq")])])])]), ("responses", .obj [("204", .obj
    [("description", .str "No Content")])])])])]), ("components", .obj [("schemas", .obj [("FormDataOpenapi3TestReq",
    .obj [("type", .str "object"), ("properties", .obj [("bar", .obj [("type", .str "integer")]), ("quux", .obj
    [("type", .str "string")])])])])])]) = true := by
  decide +kernel

/- `/repo/openapi3/reflect_deprecated_test.go:815` -/
example : keeps V30.table (
    .obj [("openapi", .str "3.0.3"), ("info", .obj [("title", .str ""), ("version", .str "")]), ("paths", .obj
    [("/things/{id}", .obj [("get", .obj [("parameters", .arr [.obj [("name", .str "locale"), ("in", .str "query"),
    ("schema", .obj [("pattern", .str "^[a-z]{2}-[A-Z]{2}$"), ("type", .str "string")])], .obj [("name", .str
    "embedded"), ("in", .str "query"), ("schema", .obj [("type", .str "string")])], .obj [("name", .str "json_filter"),
    ("in", .str "query"), ("content", .obj [("application/json", .obj [("schema", .obj [("$ref", .str
    "#/components/schemas/Openapi3TestJsonFilter")])])])], .obj [("name", .str "deep_object_filter"), ("in", .str
    "query"), ("style", .str "deepObject"), ("explode", .bool true), ("schema", .obj [("$ref", .str
    "#/components/schemas/Openapi3TestDeepObjectFilter")])], .obj [("name", .str "id"), ("in", .str "path"),
    ("required", .bool true), ("schema", .obj [("type", .str "string"), ("example", .str "XXX-XXXXX")])]]),
    ("responses", .obj [("204", .obj [("description", .str "No Content")])])])])]), ("components", .obj [("schemas",
    .obj [("Openapi3TestDeepObjectFilter", .obj [("type", .str "object"), ("properties", .obj [("baz", .obj [("type",
    .str "boolean")]), ("deeper", .obj [("type", .str "object"), ("properties", .obj [("val", .obj [("type", .str
    "string")])])]), ("quux", .obj [("type", .str "number")])])]), ("Openapi3TestJsonFilter", .obj [("type", .str
    "object"), ("properties", .obj [("bar", .obj [("type", .str "integer")]), ("deeper", .obj [("type", .str "object"),
    ("properties", .obj [("val", .obj [("type", .str "string")])])]), ("foo", .obj [("type", .str "string")])])])])])]) = true := by
  decide +kernel

/- `/repo/openapi3/reflect_go1.18_test.go:59` -/
example : keeps V30.table (
    .obj [("openapi", .str "3.0.3"), ("info", .obj [("title", .str "Things API"), ("description", .str
    "Put something here"), ("version", .str "1.2.3")]), ("paths", .obj [("/things/{id}", .obj [("get", .obj
    [("parameters", .arr [.obj [("name", .str "locale"), ("in", .str "query"), ("schema", .obj [("pattern", .str
    "^[a-z]{2}-[A-Z]{2}$"), ("type", .str "string")])], .obj [("name", .str "id"), ("in", .str "path"), ("required",
    .bool true), ("schema", .obj [("type", .str "string"), ("example", .str "XXX-XXXXX")])]]), ("responses", .obj
    [("200", .obj [("description", .str "OK"), ("content", .obj [("application/json", .obj [("schema", .obj [("$ref",
    .str "#/components/schemas/Openapi3TestRespTimeTime")])])])])])]), ("put", .obj [("parameters", .arr [.obj [("name",
    .str "locale"), ("in", .str "query"), ("schema", .obj [("pattern", .str "^[a-z]{2}-[A-Z]{2}$"), ("type", .str
    "string")])], .obj [("name", .str "id"), ("in", .str "path"), ("required", .bool true), ("schema", .obj [("type",
    .str "string"), ("example", .str "XXX-XXXXX")])]]), ("requestBody", .obj [("content", .obj [("application/json",
    .obj [("schema", .obj [("$ref", .str "#/components/schemas/Openapi3TestReqTimeTime")])])])]), ("responses", .obj
    [("200", .obj [("description", .str "OK"), ("content", .obj [("application/json", .obj [("schema", .obj [("$ref",
    .str "#/components/schemas/Openapi3TestRespTimeTime")])])])]), ("409", .obj [("description", .str "Conflict"),
    ("content", .obj [("application/json", .obj [("schema", .obj [("type", .str "array"), ("items", .obj [("$ref", .str
    "#/components/schemas/Openapi3TestRespTimeTime")])])])])])])])])]), ("components", .obj [("schemas", .obj
    [("Openapi3TestReqTimeTime", .obj [("type", .str "object"), ("properties", .obj [("amount", .obj [("minimum", .num
    "0"), ("type", .str "integer")]), ("items", .obj [("type", .str "array"), ("items", .obj [("type", .str "object"),
    ("properties", .obj [("count", .obj [("minimum", .num "0"), ("type", .str "integer")]), ("name", .obj [("type", .str
    "string")])])]), ("nullable", .bool true)]), ("string", .obj [("type", .str "string")])])]),
    ("Openapi3TestRespTimeTime", .obj [("type", .str "object"), ("properties", .obj [("amount", .obj [("minimum", .num
    "0"), ("type", .str "integer")]), ("id", .obj [("type", .str "string"), ("example", .str "XXX-XXXXX")]), ("items",
    .obj [("type", .str "array"), ("items", .obj [("type", .str "object"), ("properties", .obj [("count", .obj
    [("minimum", .num "0"), ("type", .str "integer")]), ("name", .obj [("type", .str "string")])])]), ("nullable", .bool
    true)]), ("updated_at", .obj [("type", .str "string"), ("format", .str "date-time")])])])])])]) = true := by
  decide +kernel

/- `/repo/openapi3/reflect_test.go:568` -/
example : keeps V30.table (
    .obj [("openapi", .str "3.0.3"), ("info", .obj [("title", .str ""), ("version", .str "")]), ("paths", .obj [("/",
    .obj [("get", .obj [("parameters", .arr [.obj [("name", .str "one"), ("in", .str "query"), ("content", .obj
    [("application/json", .obj [("schema", .obj [("$ref", .str "#/components/schemas/Openapi3TestFilter")])])])], .obj
    [("name", .str "two"), ("in", .str "query"), ("content", .obj [("application/json", .obj [("schema", .obj [("$ref",
    .str "#/components/schemas/Openapi3TestFilter")])])])], .obj [("name", .str "three"), ("in", .str "query"),
    ("style", .str "deepObject"), ("explode", .bool true), ("schema", .obj [("type", .str "object"),
    ("additionalProperties", .obj [("type", .str "integer")])])], .obj [("name", .str "four"), ("in", .str "query"),
    ("content", .obj [("application/json", .obj [("schema", .obj [("type", .str "object"), ("additionalProperties", .obj
    [("type", .str "integer")]), ("nullable", .bool true)])])])]]), ("responses", .obj [("204", .obj [("description",
    .str "No Content")])])])])]), ("components", .obj [("schemas", .obj [("Openapi3TestFilter", .obj [("type", .str
    "object"), ("properties", .obj [("labels", .obj [("type", .str "array"), ("items", .obj [("type", .str
    "string")])]), ("type", .obj [("type", .str "string")])])])])])]) = true := by
  decide +kernel

/- `/repo/openapi3/reflect_test.go:785` -/
example : keeps V30.table (
    .obj [("openapi", .str "3.0.3"), ("info", .obj [("title", .str ""), ("version", .str "")]), ("paths", .obj [("/foo",
    .obj [("post", .obj [("requestBody", .obj [("content", .obj [("application/x-www-form-urlencoded", .obj [("schema",
    .obj [("$ref", .str "#/components/schemas/FormDataOpenapi3TestReq")])])])]), ("responses", .obj [("204", .obj
    [("description", .str "No Content")])])])])]), ("components", .obj [("schemas", .obj [("FormDataOpenapi3TestReq",
    .obj [("type", .str "object"), ("properties", .obj [("foo", .obj [("type", .str "integer")])])])])])]) = true := by
  decide +kernel

/- `/repo/openapi3/reflect_test.go:1027` -/
example : keeps V30.table (
    .obj [("openapi", .str "3.0.3"), ("info", .obj [("title", .str ""), ("version", .str "")]), ("paths", .obj [("/foo",
    .obj [("post", .obj [("requestBody", .obj [("description", .str "This is CSV."), ("content", .obj [("text/csv", .obj
    [("schema", .obj [("type", .str "string")])])])]), ("responses", .obj [("default", .obj [("description", .str
    "This is CSV."), ("content", .obj [("text/csv", .obj [("schema", .obj [("type", .str "string")])])])])])])])])]) = true := by
  decide +kernel

/- `/repo/openapi3/reflect_test.go:1084` -/
example : keeps V30.table (
    .obj [("openapi", .str "3.0.3"), ("info", .obj [("title", .str ""), ("version", .str "")]), ("paths", .obj [("/foo",
    .obj [("post", .obj [("parameters", .arr [.obj [("name", .str "bar"), ("in", .str "header"), ("schema", .obj
    [("type", .str "number"), ("format", .str "double")])]]), ("requestBody", .obj [("content", .obj
    [("application/json", .obj [("schema", .obj [("$ref", .str "#/components/schemas/Openapi3TestReqJSON")])]),
    ("application/x-www-form-urlencoded", .obj [("schema", .obj [("$ref", .str
    "#/components/schemas/FormDataOpenapi3TestReqForm")])])])]), ("responses", .obj [("204", .obj [("description", .str
    "No Content")])])])])]), ("components", .obj [("schemas", .obj [("FormDataOpenapi3TestReqForm", .obj [("type", .str
    "object"), ("properties", .obj [("foo", .obj [("type", .str "integer")]), ("simple", .obj [("type", .str
    "string")]), ("special", .obj [("$ref", .str "#/components/schemas/Openapi3TestSpecialString")])])]),
    ("Openapi3TestReqJSON", .obj [("type", .str "object"), ("properties", .obj [("foo", .obj [("type", .str
    "integer")]), ("simple", .obj [("type", .str "string")]), ("special", .obj [("$ref", .str
    "#/components/schemas/Openapi3TestSpecialString")])])]), ("Openapi3TestSpecialString", .obj [("maxLength", .num
    "12"), ("minLength", .num "12"), ("type", .str "string"), ("description", .str "Very special."), ("example", .str
    "xy5abcd4sq9s")])])])]) = true := by
  decide +kernel

/- `/repo/openapi3/reflect_test.go:1171` -/
example : keeps V30.table (
    .obj [("openapi", .str "3.0.3"), ("info", .obj [("title", .str ""), ("version", .str "")]), ("paths", .obj
    [("/foo/{id}", .obj [("post", .obj [("parameters", .arr [.obj [("name", .str "id"), ("in", .str "path"),
    ("required", .bool true), ("schema", .obj [("type", .str "integer")])]]), ("requestBody", .obj [("content", .obj
    [("application/json", .obj [("schema", .obj [("$ref", .str "#/components/schemas/FooStruct")])])])]), ("responses",
    .obj [("200", .obj [("description", .str "OK"), ("content", .obj [("application/json", .obj [("schema", .obj
    [("$ref", .str "#/components/schemas/BarStruct")])])])])])])])]), ("components", .obj [("schemas", .obj
    [("BarStruct", .obj [("properties", .obj [("bar", .obj [("maxLength", .num "3"), ("type", .str "string")]), ("id",
    .obj [("type", .str "integer")]), ("nested", .obj [("$ref", .str "#/components/schemas/BazStruct")])]), ("type",
    .str "object")]), ("BazStruct", .obj [("properties", .obj [("baz", .obj [("maxLength", .num "5"), ("type", .str
    "string")])]), ("type", .str "object")]), ("FooStruct", .obj [("properties", .obj [("foo", .obj [("minLength", .num
    "3"), ("type", .str "string")])]), ("type", .str "object")])])])]) = true := by
  decide +kernel

/- `/repo/openapi3/reflect_test.go:1254` -/
example : keeps V30.table (
    .obj [("openapi", .str "3.0.3"), ("info", .obj [("title", .str ""), ("version", .str "")]), ("paths", .obj [("/",
    .obj [("get", .obj [("responses", .obj [("201", .obj [("description", .str "Created"), ("content", .obj
    [("application/json", .obj [("schema", .obj [("oneOf", .arr [.obj [("$ref", .str
    "#/components/schemas/Openapi3TestO1")], .obj [("$ref", .str "#/components/schemas/Openapi3TestO2")]])]),
    ("examples", .obj [("responseOne", .obj [("summary", .str "First possible answer"), ("value", .obj [("code", .str
    "1234567890123456789012")])]), ("responseTwo", .obj [("summary", .str "Other possible answer"), ("value", .obj
    [("code", .str "0000000000000000000000")])])])])])])])])])]), ("components", .obj [("schemas", .obj
    [("Openapi3TestO1", .obj [("type", .str "object"), ("properties", .obj [("code", .obj [("type", .str "string")]),
    ("f1", .obj [("type", .str "integer")])])]), ("Openapi3TestO2", .obj [("type", .str "object"), ("properties", .obj
    [("code", .obj [("type", .str "string")]), ("f2", .obj [("type", .str "integer")])])])])])]) = true := by
  decide +kernel

/- `/repo/openapi3/reflect_test.go:1333` -/
example : keeps V30.table (
    .obj [("openapi", .str "3.0.3"), ("info", .obj [("title", .str ""), ("version", .str "")]), ("paths", .obj
    [("/{document_id}/{client}", .obj [("post", .obj [("parameters", .arr [.obj [("name", .str "document_id"), ("in",
    .str "path"), ("required", .bool true), ("schema", .obj [("type", .str "string")])], .obj [("name", .str "client"),
    ("in", .str "path"), ("required", .bool true), ("schema", .obj [("type", .str "string")])]]), ("requestBody", .obj
    [("$ref", .str "../somewhere/components/requests/foo.yaml")]), ("responses", .obj [("200", .obj [("$ref", .str
    "../somewhere/components/responses/200.yaml")]), ("204", .obj [("$ref", .str
    "../somewhere/components/responses/204.yaml")])])])])])]) = true := by
  decide +kernel

/- `/repo/openapi3/reflect_test.go:1380` -/
example : keeps V30.table (
    .obj [("openapi", .str "3.0.3"), ("info", .obj [("title", .str ""), ("version", .str "")]), ("paths", .obj [("/",
    .obj [("post", .obj [("requestBody", .obj [("content", .obj [("text/csv", .obj [("schema", .obj [("type", .str
    "string")])]), ("text/plain", .obj [("schema", .obj [("type", .str "string")])])])]), ("responses", .obj [("200",
    .obj [("description", .str "OK"), ("content", .obj [("text/csv", .obj [("schema", .obj [("type", .str "string")])]),
    ("text/plain", .obj [("schema", .obj [("type", .str "string")])])])])])])])])]) = true := by
  decide +kernel

/- `/repo/openapi3/reflect_test.go:1426` -/
example : keeps V30.table (
    .obj [("openapi", .str "3.0.3"), ("info", .obj [("title", .str ""), ("version", .str "")]), ("paths", .obj
    [("/things/", .obj [("put", .obj [("requestBody", .obj [("content", .obj [("application/json", .obj [("schema", .obj
    [("$ref", .str "#/components/schemas/Openapi3TestMy")])])])]), ("responses", .obj [("200", .obj [("description",
    .str "OK"), ("content", .obj [("application/json", .obj [("schema", .obj [("$ref", .str
    "#/components/schemas/Openapi3TestMy")])])])])])])])]), ("components", .obj [("schemas", .obj [("Openapi3TestMy",
    .obj [("type", .str "object"), ("properties", .obj [("foo", .obj [("type", .str "string")]), ("subentity", .obj
    [("$ref", .str "#/components/schemas/Openapi3TestSubEntity")])])]), ("Openapi3TestSubEntity", .obj [("type", .str
    "object"), ("properties", .obj [("self", .obj [("$ref", .str
    "#/components/schemas/Openapi3TestSubEntity")])])])])])]) = true := by
  decide +kernel

/- `/repo/openapi3/reflect_test.go:1488` -/
example : keeps V30.table (
    .obj [("openapi", .str "3.0.3"), ("info", .obj [("title", .str ""), ("version", .str "")]), ("paths", .obj
    [("/some/path", .obj [("get", .obj [("responses", .obj [("200", .obj [("description", .str "OK"), ("content", .obj
    [("application/json", .obj [("schema", .obj [("$ref", .str
    "#/components/schemas/Openapi3TestExampleResponse")])])])])])])])]), ("components", .obj [("schemas", .obj
    [("Openapi3TestExampleObject", .obj [("type", .str "object"), ("properties", .obj [("bar", .obj [("type", .str
    "string"), ("writeOnly", .bool true)]), ("baz", .obj [("type", .str "string"), ("deprecated", .bool true)]), ("foo",
    .obj [("type", .str "string"), ("readOnly", .bool true)])])]), ("Openapi3TestExampleResponse", .obj [("type", .str
    "object"), ("properties", .obj [("example", .obj [("$ref", .str
    "#/components/schemas/Openapi3TestExampleObject")])])])])])]) = true := by
  decide +kernel

/- `/repo/openapi3/walk_schema_test.go:89` -/
example : keeps V30.table (
    .obj [("openapi", .str "3.0.3"), ("info", .obj [("title", .str ""), ("version", .str "")]), ("paths", .obj []),
    ("components", .obj [("schemas", .obj [("FormDataOpenapi3TestReq", .obj [("type", .str "object"), ("properties",
    .obj [("form1", .obj [("minimum", .num "3"), ("type", .str "integer")]), ("form2", .obj [("minLength", .num "2"),
    ("type", .str "string")]), ("form3", .obj [("type", .str "boolean"), ("description", .str
    "Trivial schema.")])])])])])]) = true := by
  decide +kernel

/- `/repo/openapi3/walk_schema_test.go:180` -/
example : keeps V30.table (
    .obj [("openapi", .str "3.0.3"), ("info", .obj [("title", .str ""), ("version", .str "")]), ("paths", .obj []),
    ("components", .obj [("schemas", .obj [("Openapi3TestReq", .obj [("type", .str "object"), ("properties", .obj
    [("bar", .obj [("minItems", .num "15"), ("type", .str "array"), ("items", .obj [("type", .str "string")]),
    ("nullable", .bool true)]), ("foo", .obj [("minimum", .num "6"), ("type", .str "integer")])])])])])]) = true := by
  decide +kernel

/- `/repo/openapi3/testdata/openapi.json` -/
example : keeps V30.table (
    .obj [("openapi", .str "3.0.3"), ("info", .obj [("title", .str "SampleAPI"), ("version", .str "1.2.3")]), ("paths",
    .obj [("/somewhere/{in_path}", .obj [("summary", .str "Path Summary"), ("description", .str "Path Description"),
    ("get", .obj [("parameters", .arr [.obj [("name", .str "in_query1"), ("in", .str "query"), ("description", .str
    "Query parameter."), ("required", .bool true), ("schema", .obj [("type", .str "integer"), ("description", .str
    "Query parameter.")])], .obj [("name", .str "in_query3"), ("in", .str "query"), ("description", .str
    "Query parameter."), ("required", .bool true), ("schema", .obj [("type", .str "integer"), ("description", .str
    "Query parameter.")])], .obj [("name", .str "in_path"), ("in", .str "path"), ("required", .bool true), ("schema",
    .obj [("type", .str "integer")])], .obj [("name", .str "in_cookie"), ("in", .str "cookie"), ("deprecated", .bool
    true), ("schema", .obj [("type", .str "string"), ("deprecated", .bool true)])], .obj [("name", .str "in_header"),
    ("in", .str "header"), ("schema", .obj [("type", .str "number")])]]), ("responses", .obj [("200", .obj
    [("description", .str "This is a sample response."), ("headers", .obj [("X-Header-Field", .obj [("style", .str
    "simple"), ("description", .str "Sample header response."), ("schema", .obj [("type", .str "string"),
    ("description", .str "Sample header response.")])])]), ("content", .obj [("application/json", .obj [("schema", .obj
    [("$ref", .str "#/components/schemas/Openapi3TestResp")])])])])])]), ("post", .obj [("parameters", .arr [.obj
    [("name", .str "in_query1"), ("in", .str "query"), ("description", .str "Query parameter."), ("required", .bool
    true), ("schema", .obj [("type", .str "integer"), ("description", .str "Query parameter.")])], .obj [("name", .str
    "in_query2"), ("in", .str "query"), ("description", .str "Query parameter."), ("required", .bool true), ("schema",
    .obj [("type", .str "integer"), ("description", .str "Query parameter.")])], .obj [("name", .str "in_query3"),
    ("in", .str "query"), ("description", .str "Query parameter."), ("required", .bool true), ("schema", .obj [("type",
    .str "integer"), ("description", .str "Query parameter.")])], .obj [("name", .str "array_csv"), ("in", .str
    "query"), ("explode", .bool false), ("schema", .obj [("type", .str "array"), ("items", .obj [("type", .str
    "string")])])], .obj [("name", .str "array_swg2_csv"), ("in", .str "query"), ("style", .str "form"), ("explode",
    .bool false), ("schema", .obj [("type", .str "array"), ("items", .obj [("type", .str "string")])])], .obj [("name",
    .str "array_swg2_ssv"), ("in", .str "query"), ("style", .str "spaceDelimited"), ("explode", .bool false), ("schema",
    .obj [("type", .str "array"), ("items", .obj [("type", .str "string")])])], .obj [("name", .str "array_swg2_pipes"),
    ("in", .str "query"), ("style", .str "pipeDelimited"), ("explode", .bool false), ("schema", .obj [("type", .str
    "array"), ("items", .obj [("type", .str "string")])])], .obj [("name", .str "in_path"), ("in", .str "path"),
    ("required", .bool true), ("schema", .obj [("type", .str "integer")])], .obj [("name", .str "in_cookie"), ("in",
    .str "cookie"), ("deprecated", .bool true), ("schema", .obj [("type", .str "string"), ("deprecated", .bool true)])],
    .obj [("name", .str "in_header"), ("in", .str "header"), ("schema", .obj [("type", .str "number")])], .obj [("name",
    .str "uuid"), ("in", .str "header"), ("schema", .obj [("$ref", .str "#/components/schemas/Openapi3TestUUID")])]]),
    ("requestBody", .obj [("content", .obj [("application/json", .obj [("schema", .obj [("$ref", .str
    "#/components/schemas/Openapi3TestReq")])]), ("multipart/form-data", .obj [("schema", .obj [("$ref", .str
    "#/components/schemas/FormDataOpenapi3TestReq")])])])]), ("responses", .obj [("200", .obj [("description", .str
    "This is a sample response."), ("headers", .obj [("X-Header-Field", .obj [("style", .str "simple"), ("description",
    .str "Sample header response."), ("schema", .obj [("type", .str "string"), ("description", .str
    "Sample header response.")])])]), ("content", .obj [("application/json", .obj [("schema", .obj [("$ref", .str
    "#/components/schemas/Openapi3TestResp")])])])]), ("409", .obj [("description", .str "Conflict"), ("content", .obj
    [("application/json", .obj [("schema", .obj [("type", .str "array"), ("items", .obj [("$ref", .str
    "#/components/schemas/Openapi3TestResp")])])]), ("text/html", .obj [("schema", .obj [("type", .str
    "string")])])])])])])])]), ("components", .obj [("schemas", .obj [("FormDataOpenapi3TestReq", .obj [("type", .str
    "object"), ("properties", .obj [("in_form1", .obj [("type", .str "string")]), ("in_form2", .obj [("type", .str
    "string")]), ("upload1", .obj [("$ref", .str "#/components/schemas/MultipartFile")]), ("upload2", .obj [("$ref",
    .str "#/components/schemas/MultipartFileHeader")])])]), ("MultipartFile", .obj [("type", .str "string"), ("format",
    .str "binary")]), ("MultipartFileHeader", .obj [("type", .str "string"), ("format", .str "binary")]),
    ("Openapi3TestReq", .obj [("type", .str "object"), ("properties", .obj [("in_body1", .obj [("type", .str
    "integer")]), ("in_body2", .obj [("type", .str "string")])])]), ("Openapi3TestResp", .obj [("title", .str
    "Sample Response"), ("type", .str "object"), ("properties", .obj [("arrayOfAnything", .obj [("type", .str "array"),
    ("items", .obj [])]), ("field1", .obj [("type", .str "integer")]), ("field2", .obj [("type", .str "string")]),
    ("info", .obj [("required", .arr [.str "foo"]), ("type", .str "object"), ("properties", .obj [("bar", .obj [("type",
    .str "number"), ("description", .str "This is Bar.")]), ("foo", .obj [("pattern", .str "\\d+"), ("type", .str
    "string"), ("default", .str "baz")])])]), ("map", .obj [("type", .str "object"), ("additionalProperties", .obj
    [("type", .str "integer")])]), ("mapOfAnything", .obj [("type", .str "object"), ("additionalProperties", .obj [])]),
    ("nullableWhatever", .obj []), ("parent", .obj [("$ref", .str "#/components/schemas/Openapi3TestResp")]),
    ("recursiveArray", .obj [("type", .str "array"), ("items", .obj [("$ref", .str
    "#/components/schemas/Openapi3TestResp")])]), ("recursiveStructArray", .obj [("type", .str "array"), ("items", .obj
    [("$ref", .str "#/components/schemas/Openapi3TestResp")])]), ("uuid", .obj [("$ref", .str
    "#/components/schemas/Openapi3TestUUID")]), ("whatever", .obj [])]), ("description", .str
    "This is a sample response."), ("x-foo", .str "bar")]), ("Openapi3TestUUID", .obj [("type", .str "array"), ("items",
    .obj [("minimum", .num "0"), ("type", .str "integer")]), ("nullable", .bool true)])])])]) = true := by
  decide +kernel

/- `/repo/openapi3/testdata/openapi_req.json` -/
example : keeps V30.table (
    .obj [("openapi", .str "3.0.3"), ("info", .obj [("title", .str "SampleAPI"), ("description", .str
    "This a sample API description."), ("version", .str "1.2.3")]), ("paths", .obj [("/somewhere/{in_path}", .obj
    [("get", .obj [("parameters", .arr [.obj [("name", .str "in_query1"), ("in", .str "query"), ("description", .str
    "Query parameter."), ("required", .bool true), ("schema", .obj [("type", .str "integer"), ("description", .str
    "Query parameter.")])], .obj [("name", .str "in_query3"), ("in", .str "query"), ("description", .str
    "Query parameter."), ("required", .bool true), ("schema", .obj [("type", .str "integer"), ("description", .str
    "Query parameter.")])], .obj [("name", .str "in_path"), ("in", .str "path"), ("required", .bool true), ("schema",
    .obj [("type", .str "integer")])], .obj [("name", .str "in_cookie"), ("in", .str "cookie"), ("deprecated", .bool
    true), ("schema", .obj [("type", .str "string"), ("deprecated", .bool true)])], .obj [("name", .str "in_header"),
    ("in", .str "header"), ("schema", .obj [("type", .str "number")])]]), ("requestBody", .obj [("description", .str
    "Request body in CSV format."), ("content", .obj [("text/csv", .obj [("schema", .obj [("type", .str
    "string")])])])]), ("responses", .obj [("204", .obj [("description", .str "No Content")])])])])])]) = true := by
  decide +kernel

/- `/repo/openapi3/testdata/openapi_req2.json` -/
example : keeps V30.table (
    .obj [("openapi", .str "3.0.3"), ("info", .obj [("title", .str "SampleAPI"), ("description", .str
    "This a sample API description."), ("version", .str "1.2.3")]), ("paths", .obj [("/somewhere/{in_path}", .obj
    [("get", .obj [("parameters", .arr [.obj [("name", .str "in_query1"), ("in", .str "query"), ("description", .str
    "Query parameter."), ("required", .bool true), ("schema", .obj [("type", .str "integer"), ("description", .str
    "Query parameter.")])], .obj [("name", .str "in_query3"), ("in", .str "query"), ("description", .str
    "Query parameter."), ("required", .bool true), ("schema", .obj [("type", .str "integer"), ("description", .str
    "Query parameter.")])], .obj [("name", .str "in_path"), ("in", .str "path"), ("required", .bool true), ("schema",
    .obj [("type", .str "integer")])], .obj [("name", .str "in_cookie"), ("in", .str "cookie"), ("deprecated", .bool
    true), ("schema", .obj [("type", .str "string"), ("deprecated", .bool true)])], .obj [("name", .str "in_header"),
    ("in", .str "header"), ("schema", .obj [("type", .str "number")])]]), ("responses", .obj [("204", .obj
    [("description", .str "No Content")])])])])])]) = true := by
  decide +kernel

/- `/repo/openapi3/testdata/openapi_req_array.json` -/
example : keeps V30.table (
    .obj [("openapi", .str "3.0.3"), ("info", .obj [("title", .str "SampleAPI"), ("version", .str "1.2.3")]), ("paths",
    .obj [("/somewhere", .obj [("post", .obj [("requestBody", .obj [("content", .obj [("application/json", .obj
    [("schema", .obj [("type", .str "array"), ("items", .obj [("$ref", .str
    "#/components/schemas/Openapi3TestGetReq")]), ("nullable", .bool true)])])])]), ("responses", .obj [("204", .obj
    [("description", .str "No Content")])])])])]), ("components", .obj [("schemas", .obj [("Openapi3TestGetReq", .obj
    [("required", .arr [.str "q1", .str "q3"]), ("type", .str "object"), ("properties", .obj [("c", .obj [("type", .str
    "string"), ("deprecated", .bool true)]), ("h", .obj [("type", .str "number")]), ("p", .obj [("type", .str
    "integer")]), ("q1", .obj [("type", .str "integer"), ("description", .str "Query parameter.")]), ("q3", .obj
    [("type", .str "integer"), ("description", .str "Query parameter.")])])])])])]) = true := by
  decide +kernel

/- `/repo/openapi3/testdata/uploads.json` -/
example : keeps V30.table (
    .obj [("openapi", .str "3.0.3"), ("info", .obj [("title", .str ""), ("version", .str "")]), ("paths", .obj
    [("/upload", .obj [("post", .obj [("requestBody", .obj [("content", .obj [("multipart/form-data", .obj [("schema",
    .obj [("$ref", .str "#/components/schemas/FormDataOpenapi3TestReq")])])])]), ("responses", .obj [("204", .obj
    [("description", .str "No Content")])])])])]), ("components", .obj [("schemas", .obj [("FormDataOpenapi3TestReq",
    .obj [("type", .str "object"), ("properties", .obj [("upload1", .obj [("$ref", .str
    "#/components/schemas/MultipartFile")]), ("upload2", .obj [("$ref", .str
    "#/components/schemas/MultipartFileHeader")]), ("uploads3", .obj [("type", .str "array"), ("items", .obj [("$ref",
    .str "#/components/schemas/MultipartFile")])]), ("uploads4", .obj [("type", .str "array"), ("items", .obj [("$ref",
    .str "#/components/schemas/MultipartFileHeader")])])])]), ("MultipartFile", .obj [("type", .str "string"),
    ("format", .str "binary")]), ("MultipartFileHeader", .obj [("type", .str "string"), ("format", .str "binary")])])])]) = true := by
  decide +kernel

end Verif.Conformance
