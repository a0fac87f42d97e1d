import Verif.Conformance.Basic

/-! Generated by `tools/conformance.py`. The documents the tests of this version expect from the code: the model reads
each of them and writes it back. Tests of the model, not proofs of properties. -/

namespace Verif.Conformance
open Codec

/- `/repo/openapi31/helper_test.go:93` -/
example : keeps V31.table (
    .obj [("openapi", .str ""), ("info", .obj [("title", .str ""), ("version", .str "")]), ("paths", .obj
    [("/users/{userID}", .obj [("get", .obj [("parameters", .arr [.obj [("name", .str "userID"), ("in", .str
    "path")]])]), ("post", .obj [("parameters", .arr [.obj [("name", .str "userID"), ("in", .str "path")]])])])])]) = true := by
  decide +kernel

/- `/repo/openapi31/reflect_test.go:137` -/
example : keeps V31.table (
    .obj [("openapi", .str "3.1.0"), ("info", .obj [("title", .str ""), ("version", .str "")]), ("paths", .obj
    [("/somewhere", .obj [("post", .obj [("requestBody", .obj [("content", .obj [("multipart/form-data", .obj
    [("schema", .obj [("$ref", .str "#/components/schemas/FormDataOpenapi31TestReq")])])])]), ("responses", .obj
    [("204", .obj [("description", .str "No Content")])])])])]), ("components", .obj [("schemas", .obj
    [("FormDataOpenapi31TestReq", .obj [("properties", .obj [("upload1", .obj [("$ref", .str
    "#/components/schemas/MultipartFile")])]), ("type", .str "object")]), ("MultipartFile", .obj [("format", .str
    "binary"), ("type", .str "string"), ("contentMediaType", .str "application/octet-stream")])])])]) = true := by
  decide +kernel

/- `/repo/openapi31/reflect_test.go:302` -/
example : keeps V31.table (
    .obj [("openapi", .str "3.1.0"), ("info", .obj [("title", .str "SampleAPI"), ("version", .str "1.2.3")]), ("paths",
    .obj [("/somewhere/{id}", .obj [("post", .obj [("parameters", .arr [.obj [("name", .str "id"), ("in", .str "path"),
    ("required", .bool true), ("schema", .obj [("type", .str "string")])]]), ("requestBody", .obj [("content", .obj
    [("application/json", .obj [("schema", .obj [("$ref", .str
    "#/components/schemas/Openapi31TestPathParamAndBody")])])])]), ("responses", .obj [("204", .obj [("description",
    .str "No Content")])])])])]), ("components", .obj [("schemas", .obj [("Openapi31TestPathParamAndBody", .obj
    [("items", .obj [("type", .str "string")]), ("type", .arr [.str "null", .str "array"])])])])]) = true := by
  decide +kernel

/- `/repo/openapi31/reflect_test.go:344` -/
example : keeps V31.table (
    .obj [("openapi", .str "3.1.0"), ("info", .obj [("title", .str "SampleAPI"), ("version", .str "1.2.3")]), ("paths",
    .obj [("/somewhere/{id}", .obj [("get", .obj [("parameters", .arr [.obj [("name", .str "id"), ("in", .str "path"),
    ("required", .bool true), ("schema", .obj [("type", .str "string")])]]), ("requestBody", .obj [("content", .obj
    [("application/json", .obj [("schema", .obj [("$ref", .str "#/components/schemas/Openapi31TestWithReqBody")])])])]),
    ("responses", .obj [("204", .obj [("description", .str "No Content")])])])])]), ("components", .obj [("schemas",
    .obj [("Openapi31TestWithReqBody", .obj [("items", .obj [("type", .str "string")]), ("type", .arr [.str "null", .str
    "array"])])])])]) = true := by
  decide +kernel

/- `/repo/openapi31/reflect_test.go:392` -/
example : keeps V31.table (
    .obj [("openapi", .str "3.1.0"), ("info", .obj [("title", .str "SampleAPI"), ("version", .str "1.2.3")]), ("paths",
    .obj [("/somewhere", .obj [("get", .obj [("responses", .obj [("204", .obj [("description", .str "No Content"),
    ("headers", .obj [("X-Value-1", .obj [("style", .str "simple"), ("schema", .obj [("type", .str "integer")])]),
    ("X-Value-2", .obj [("style", .str "simple"), ("schema", .obj [("type", .str "string")])])]), ("content", .obj
    [("text/csv", .obj [("schema", .obj [("type", .str "string")])])])])])])])])]) = true := by
  decide +kernel

/- `/repo/openapi31/reflect_test.go:450` -/
example : keeps V31.table (
    .obj [("openapi", .str "3.1.0"), ("info", .obj [("title", .str "SampleAPI"), ("version", .str "1.2.3")]), ("paths",
    .obj [("/somewhere/{value-4}", .obj [("post", .obj [("parameters", .arr [.obj [("name", .str "value_2"), ("in", .str
    "query"), ("schema", .obj [("type", .str "string")])], .obj [("name", .str "value-4"), ("in", .str "path"),
    ("required", .bool true), ("schema", .obj [("type", .str "boolean")])], .obj [("name", .str "value_5"), ("in", .str
    "cookie"), ("schema", .obj [("type", .str "string")])], .obj [("name", .str "X-Value-1"), ("in", .str "header"),
    ("schema", .obj [("type", .str "integer")])]]), ("requestBody", .obj [("content", .obj [("multipart/form-data", .obj
    [("schema", .obj [("properties", .obj [("upload6", .obj [("$ref", .str "#/components/schemas/MultipartFile")]),
    ("value3", .obj [("type", .str "number")])]), ("type", .str "object")])])])]), ("responses", .obj [("204", .obj
    [("description", .str "No Content")])])])])]), ("components", .obj [("schemas", .obj [("MultipartFile", .obj
    [("format", .str "binary"), ("type", .str "string"), ("contentMediaType", .str "application/octet-stream")])])])]) = true := by
  decide +kernel

/- `/repo/openapi31/reflect_test.go:501` -/
example : keeps V31.table (
    .obj [("openapi", .str "3.1.0"), ("info", .obj [("title", .str "SampleAPI"), ("version", .str "1.2.3")]), ("paths",
    .obj [("/somewhere", .obj [("post", .obj [("parameters", .arr [.obj [("name", .str "in_query"), ("in", .str
    "query"), ("schema", .obj [("additionalProperties", .obj [("type", .str "number")]), ("type", .arr [.str "object",
    .str "null"])]), ("style", .str "deepObject"), ("explode", .bool true)]]), ("responses", .obj [("204", .obj
    [("description", .str "No Content")])])])])])]) = true := by
  decide +kernel

/- `/repo/openapi31/reflect_test.go:540` -/
example : keeps V31.table (
    .obj [("openapi", .str "3.1.0"), ("info", .obj [("title", .str "SampleAPI"), ("version", .str "1.2.3")]), ("paths",
    .obj [("/somewhere", .obj [("post", .obj [("parameters", .arr [.obj [("name", .str "in_query"), ("in", .str
    "query"), ("schema", .obj [("$ref", .str "#/components/schemas/Openapi31TestLabels")]), ("style", .str
    "deepObject"), ("explode", .bool true)]]), ("responses", .obj [("204", .obj [("description", .str
    "No Content")])])])])]), ("components", .obj [("schemas", .obj [("Openapi31TestLabels", .obj
    [("additionalProperties", .obj [("type", .str "number")]), ("type", .str "object")])])])]) = true := by
  decide +kernel

/- `/repo/openapi31/reflect_test.go:589` -/
example : keeps V31.table (
    .obj [("openapi", .str "3.1.0"), ("info", .obj [("title", .str ""), ("version", .str "")]), ("paths", .obj [("/",
    .obj [("get", .obj [("parameters", .arr [.obj [("name", .str "one"), ("in", .str "query"), ("content", .obj
    [("application/json", .obj [("schema", .obj [("$ref", .str "#/components/schemas/Openapi31TestFilter")])])])], .obj
    [("name", .str "two"), ("in", .str "query"), ("content", .obj [("application/json", .obj [("schema", .obj [("$ref",
    .str "#/components/schemas/Openapi31TestFilter")])])])], .obj [("name", .str "three"), ("in", .str "query"),
    ("schema", .obj [("additionalProperties", .obj [("type", .str "integer")]), ("type", .arr [.str "object", .str
    "null"])]), ("style", .str "deepObject"), ("explode", .bool true)], .obj [("name", .str "four"), ("in", .str
    "query"), ("content", .obj [("application/json", .obj [("schema", .obj [("additionalProperties", .obj [("type", .str
    "integer")]), ("type", .arr [.str "null", .str "object"])])])])]]), ("responses", .obj [("204", .obj
    [("description", .str "No Content")])])])])]), ("components", .obj [("schemas", .obj [("Openapi31TestFilter", .obj
    [("properties", .obj [("labels", .obj [("items", .obj [("type", .str "string")]), ("type", .str "array")]), ("type",
    .obj [("type", .str "string")])]), ("type", .str "object")])])])]) = true := by
  decide +kernel

/- `/repo/openapi31/reflect_test.go:663` -/
example : keeps V31.table (
    .obj [("openapi", .str "3.1.0"), ("info", .obj [("title", .str ""), ("version", .str "")]), ("paths", .obj
    [("/{path}", .obj [("get", .obj [("parameters", .arr [.obj [("name", .str "query"), ("in", .str "query"), ("schema",
    .obj [("type", .str "string")])], .obj [("name", .str "path"), ("in", .str "path"), ("required", .bool true),
    ("schema", .obj [("type", .str "string")])], .obj [("name", .str "cookie"), ("in", .str "cookie"), ("schema", .obj
    [("type", .str "string")])], .obj [("name", .str "header"), ("in", .str "header"), ("schema", .obj [("type", .str
    "string")])]]), ("responses", .obj [("204", .obj [("description", .str "No Content")])]),
    ("x-forbid-unknown-cookie", .bool true), ("x-forbid-unknown-query", .bool true)])])])]) = true := by
  decide +kernel

/- `/repo/openapi31/reflect_test.go:810` -/
example : keeps V31.table (
    .obj [("openapi", .str "3.1.0"), ("info", .obj [("title", .str ""), ("version", .str "")]), ("paths", .obj [("/foo",
    .obj [("post", .obj [("requestBody", .obj [("content", .obj [("application/x-www-form-urlencoded", .obj [("schema",
    .obj [("$ref", .str "#/components/schemas/FormDataOpenapi31TestReq")])])])]), ("responses", .obj [("204", .obj
    [("description", .str "No Content")])])])])]), ("components", .obj [("schemas", .obj [("FormDataOpenapi31TestReq",
    .obj [("type", .str "object"), ("properties", .obj [("foo", .obj [("type", .str "integer")])])])])])]) = true := by
  decide +kernel

/- `/repo/openapi31/reflect_test.go:849` -/
example : keeps V31.table (
    .obj [("openapi", .str "3.1.0"), ("info", .obj [("title", .str ""), ("version", .str "")]), ("paths", .obj [("/foo",
    .obj [("post", .obj [("parameters", .arr [.obj [("name", .str "bar"), ("in", .str "query"), ("schema", .obj
    [("type", .str "integer")])], .obj [("name", .str "baz"), ("in", .str "query"), ("schema", .obj [("type", .str
    "string")])], .obj [("name", .str "quux"), ("in", .str "query"), ("schema", .obj [("type", .str "string")])]]),
    ("requestBody", .obj [("content", .obj [("application/x-www-form-urlencoded", .obj [("schema", .obj [("$ref", .str
    "#/components/schemas/FormDataOpenapi31TestReq")])])])]), ("responses", .obj [("204", .obj [("description", .str
    "No Content")])])])])]), ("components", .obj [("schemas", .obj [("FormDataOpenapi31TestReq", .obj [("type", .str
    "object"), ("properties", .obj [("bar", .obj [("type", .str "integer")]), ("foo", .obj [("type", .str "integer")]),
    ("ignored", .obj [("type", .str "string")])])])])])]) = true := by
  decide +kernel

/- `/repo/openapi31/reflect_test.go:897` -/
example : keeps V31.table (
    .obj [("openapi", .str "3.1.0"), ("info", .obj [("title", .str ""), ("version", .str "")]), ("paths", .obj [("/foo",
    .obj [("post", .obj [("parameters", .arr [.obj [("name", .str "bar"), ("in", .str "query"), ("schema", .obj
    [("type", .str "integer")])], .obj [("name", .str "quux"), ("in", .str "query"), ("schema", .obj [("type", .str
    "string")])]]), ("requestBody", .obj [("content", .obj [("application/x-www-form-urlencoded", .obj [("schema", .obj
    [("$ref", .str "#/components/schemas/FormDataOpenapi31TestReq")])])])]), ("responses", .obj [("204", .obj
    [("description", .str "No Content")])])])])]), ("components", .obj [("schemas", .obj [("FormDataOpenapi31TestReq",
    .obj [("type", .str "object"), ("properties", .obj [("bar", .obj [("type", .str "integer")]), ("quux", .obj
    [("type", .str "string")])])])])])]) = true := by
  decide +kernel

/- `/repo/openapi31/reflect_test.go:978` -/
example : keeps V31.table (
    .obj [("openapi", .str "3.1.0"), ("info", .obj [("title", .str ""), ("version", .str "")]), ("paths", .obj
    [("/things/{id}", .obj [("get", .obj [("parameters", .arr [.obj [("name", .str "locale"), ("in", .str "query"),
    ("schema", .obj [("pattern", .str "^[a-z]{2}-[A-Z]{2}$"), ("type", .str "string")])], .obj [("name", .str
    "embedded"), ("in", .str "query"), ("schema", .obj [("type", .str "string")])], .obj [("name", .str "json_filter"),
    ("in", .str "query"), ("content", .obj [("application/json", .obj [("schema", .obj [("$ref", .str
    "#/components/schemas/Openapi31TestJsonFilter")])])])], .obj [("name", .str "deep_object_filter"), ("in", .str
    "query"), ("schema", .obj [("$ref", .str "#/components/schemas/Openapi31TestDeepObjectFilter")]), ("style", .str
    "deepObject"), ("explode", .bool true)], .obj [("name", .str "id"), ("in", .str "path"), ("required", .bool true),
    ("schema", .obj [("examples", .arr [.str "XXX-XXXXX"]), ("type", .str "string")])]]), ("responses", .obj [("204",
    .obj [("description", .str "No Content")])])])])]), ("components", .obj [("schemas", .obj
    [("Openapi31TestDeepObjectFilter", .obj [("properties", .obj [("baz", .obj [("type", .str "boolean")]), ("deeper",
    .obj [("properties", .obj [("val", .obj [("type", .str "string")])]), ("type", .str "object")]), ("quux", .obj
    [("type", .str "number")])]), ("type", .str "object")]), ("Openapi31TestJsonFilter", .obj [("properties", .obj
    [("bar", .obj [("type", .str "integer")]), ("deeper", .obj [("properties", .obj [("val", .obj [("type", .str
    "string")])]), ("type", .str "object")]), ("foo", .obj [("type", .str "string")])]), ("type", .str "object")])])])]) = true := by
  decide +kernel

/- `/repo/openapi31/reflect_test.go:1052` -/
example : keeps V31.table (
    .obj [("openapi", .str "3.1.0"), ("info", .obj [("title", .str ""), ("version", .str "")]), ("paths", .obj [("/foo",
    .obj [("post", .obj [("requestBody", .obj [("description", .str "This is CSV."), ("content", .obj [("text/csv", .obj
    [("schema", .obj [("type", .str "string")])])])]), ("responses", .obj [("default", .obj [("description", .str
    "This is CSV."), ("content", .obj [("text/csv", .obj [("schema", .obj [("type", .str "string")])])])])])])])])]) = true := by
  decide +kernel

/- `/repo/openapi31/reflect_test.go:1109` -/
example : keeps V31.table (
    .obj [("openapi", .str "3.1.0"), ("info", .obj [("title", .str ""), ("version", .str "")]), ("paths", .obj [("/foo",
    .obj [("post", .obj [("parameters", .arr [.obj [("name", .str "bar"), ("in", .str "header"), ("schema", .obj
    [("format", .str "double"), ("type", .str "number")])]]), ("requestBody", .obj [("content", .obj
    [("application/json", .obj [("schema", .obj [("$ref", .str "#/components/schemas/Openapi31TestReqJSON")])]),
    ("application/x-www-form-urlencoded", .obj [("schema", .obj [("$ref", .str
    "#/components/schemas/FormDataOpenapi31TestReqForm")])])])]), ("responses", .obj [("204", .obj [("description", .str
    "No Content")])])])])]), ("components", .obj [("schemas", .obj [("FormDataOpenapi31TestReqForm", .obj
    [("properties", .obj [("foo", .obj [("type", .str "integer")]), ("simple", .obj [("type", .str "string")]),
    ("special", .obj [("$ref", .str "#/components/schemas/Openapi31TestSpecialString")])]), ("type", .str "object")]),
    ("Openapi31TestReqJSON", .obj [("properties", .obj [("foo", .obj [("type", .str "integer")]), ("simple", .obj
    [("type", .str "string")]), ("special", .obj [("$ref", .str "#/components/schemas/Openapi31TestSpecialString")])]),
    ("type", .str "object")]), ("Openapi31TestSpecialString", .obj [("description", .str "Very special."), ("examples",
    .arr [.str "xy5abcd4sq9s"]), ("maxLength", .num "12"), ("minLength", .num "12"), ("type", .str "string")])])])]) = true := by
  decide +kernel

/- `/repo/openapi31/reflect_test.go:1183` -/
example : keeps V31.table (
    .obj [("openapi", .str "3.1.0"), ("info", .obj [("title", .str ""), ("version", .str "")]), ("paths", .obj
    [("/postDelete", .obj [("post", .obj [("requestBody", .obj [("content", .obj [("application/json", .obj [("schema",
    .obj [("properties", .obj [("ID", .obj [("type", .str "integer")])]), ("type", .str "object")])])])]), ("responses",
    .obj [("200", .obj [("description", .str "OK"), ("content", .obj [("application/json", .obj [("schema", .obj
    [("properties", .obj [("Done", .obj [("type", .str "boolean")])]), ("type", .str "object")])])])])])])])])]) = true := by
  decide +kernel

/- `/repo/openapi31/reflect_test.go:1232` -/
example : keeps V31.table (
    .obj [("openapi", .str "3.1.0"), ("info", .obj [("title", .str ""), ("version", .str "")]), ("paths", .obj [("/foo",
    .obj [("post", .obj [("responses", .obj [("202", .obj [("description", .str "Accepted"), ("content", .obj
    [("application/json", .obj [("schema", .obj [("properties", .obj [("foo", .obj [("type", .str "integer")])]),
    ("type", .str "object")])])])]), ("409", .obj [("description", .str "Conflict"), ("content", .obj
    [("application/json", .obj [("schema", .obj [("properties", .obj [("bar", .obj [("type", .str "integer")])]),
    ("type", .str "object")])])])])])])])])]) = true := by
  decide +kernel

/- `/repo/openapi31/reflect_test.go:1305` -/
example : keeps V31.table (
    .obj [("openapi", .str "3.1.0"), ("info", .obj [("title", .str ""), ("version", .str "")]), ("paths", .obj
    [("/foo/{id}", .obj [("post", .obj [("parameters", .arr [.obj [("name", .str "id"), ("in", .str "path"),
    ("required", .bool true), ("schema", .obj [("type", .str "integer")])]]), ("requestBody", .obj [("content", .obj
    [("application/json", .obj [("schema", .obj [("$ref", .str "#/components/schemas/FooStruct")])])])]), ("responses",
    .obj [("200", .obj [("description", .str "OK"), ("content", .obj [("application/json", .obj [("schema", .obj
    [("$ref", .str "#/components/schemas/BarStruct")])])])])])])])]), ("components", .obj [("schemas", .obj
    [("BarStruct", .obj [("properties", .obj [("bar", .obj [("maxLength", .num "3"), ("type", .str "string")]), ("id",
    .obj [("type", .str "integer")]), ("nested", .obj [("$ref", .str "#/components/schemas/BazStruct")])]), ("type",
    .str "object")]), ("BazStruct", .obj [("properties", .obj [("baz", .obj [("maxLength", .num "5"), ("type", .str
    "string")])]), ("type", .str "object")]), ("FooStruct", .obj [("properties", .obj [("foo", .obj [("minLength", .num
    "3"), ("type", .str "string")])]), ("type", .str "object")])])])]) = true := by
  decide +kernel

/- `/repo/openapi31/reflect_test.go:1388`: written by the code, not readable: an example that is no reference (C67) -/
example : (decode V31.table nums (.named "Spec") (
    .obj [("openapi", .str "3.1.0"), ("info", .obj [("title", .str ""), ("version", .str "")]), ("paths", .obj [("/",
    .obj [("get", .obj [("responses", .obj [("201", .obj [("description", .str "Created"), ("content", .obj
    [("application/json", .obj [("schema", .obj [("oneOf", .arr [.obj [("$ref", .str
    "#/components/schemas/Openapi31TestO1")], .obj [("$ref", .str "#/components/schemas/Openapi31TestO2")]])]),
    ("examples", .obj [("responseOne", .obj [("summary", .str "First possible answer"), ("value", .obj [("code", .str
    "1234567890123456789012")])]), ("responseTwo", .obj [("summary", .str "Other possible answer"), ("value", .obj
    [("code", .str "0000000000000000000000")])])])])])])])])])]), ("components", .obj [("schemas", .obj
    [("Openapi31TestO1", .obj [("properties", .obj [("code", .obj [("type", .str "string")]), ("f1", .obj [("type", .str
    "integer")])]), ("type", .str "object")]), ("Openapi31TestO2", .obj [("properties", .obj [("code", .obj [("type",
    .str "string")]), ("f2", .obj [("type", .str "integer")])]), ("type", .str "object")])])])])).isSome = false := by
  decide +kernel

/- `/repo/openapi31/reflect_test.go:1467` -/
example : keeps V31.table (
    .obj [("openapi", .str "3.1.0"), ("info", .obj [("title", .str ""), ("version", .str "")]), ("paths", .obj
    [("/{document_id}/{client}", .obj [("post", .obj [("parameters", .arr [.obj [("name", .str "document_id"), ("in",
    .str "path"), ("required", .bool true), ("schema", .obj [("type", .str "string")])], .obj [("name", .str "client"),
    ("in", .str "path"), ("required", .bool true), ("schema", .obj [("type", .str "string")])]]), ("requestBody", .obj
    [("$ref", .str "../somewhere/components/requests/foo.yaml")]), ("responses", .obj [("200", .obj [("$ref", .str
    "../somewhere/components/responses/200.yaml")]), ("204", .obj [("$ref", .str
    "../somewhere/components/responses/204.yaml")])])])])])]) = true := by
  decide +kernel

/- `/repo/openapi31/reflect_test.go:1514` -/
example : keeps V31.table (
    .obj [("openapi", .str "3.1.0"), ("info", .obj [("title", .str ""), ("version", .str "")]), ("paths", .obj [("/",
    .obj [("post", .obj [("requestBody", .obj [("content", .obj [("text/csv", .obj [("schema", .obj [("type", .str
    "string")])]), ("text/plain", .obj [("schema", .obj [("type", .str "string")])])])]), ("responses", .obj [("200",
    .obj [("description", .str "OK"), ("content", .obj [("text/csv", .obj [("schema", .obj [("type", .str "string")])]),
    ("text/plain", .obj [("schema", .obj [("type", .str "string")])])])])])])])])]) = true := by
  decide +kernel

/- `/repo/openapi31/reflect_test.go:1560` -/
example : keeps V31.table (
    .obj [("openapi", .str "3.1.0"), ("info", .obj [("title", .str ""), ("version", .str "")]), ("paths", .obj
    [("/things/", .obj [("put", .obj [("requestBody", .obj [("content", .obj [("application/json", .obj [("schema", .obj
    [("$ref", .str "#/components/schemas/Openapi31TestMy")])])])]), ("responses", .obj [("200", .obj [("description",
    .str "OK"), ("content", .obj [("application/json", .obj [("schema", .obj [("$ref", .str
    "#/components/schemas/Openapi31TestMy")])])])])])])])]), ("components", .obj [("schemas", .obj [("Openapi31TestMy",
    .obj [("properties", .obj [("foo", .obj [("type", .str "string")]), ("subentity", .obj [("$ref", .str
    "#/components/schemas/Openapi31TestSubEntity")])]), ("type", .str "object")]), ("Openapi31TestSubEntity", .obj
    [("properties", .obj [("self", .obj [("$ref", .str "#/components/schemas/Openapi31TestSubEntity")])]), ("type", .str
    "object")])])])]) = true := by
  decide +kernel

/- `/repo/openapi31/reflect_test.go:1621` -/
example : keeps V31.table (
    .obj [("openapi", .str "3.1.0"), ("info", .obj [("title", .str ""), ("version", .str "")]), ("paths", .obj []),
    ("webhooks", .obj [("newPet", .obj [("post", .obj [("requestBody", .obj [("description", .str
    "Information about a new pet in the system"), ("content", .obj [("application/json", .obj [("schema", .obj [("$ref",
    .str "#/components/schemas/Openapi31TestPet")])])])]), ("responses", .obj [("200", .obj [("description", .str
    "Return a 200 status to indicate that the data was received successfully")])])])])]), ("components", .obj
    [("schemas", .obj [("Openapi31TestPet", .obj [("properties", .obj [("breed", .obj [("type", .str "string")]),
    ("name", .obj [("type", .str "string")])]), ("type", .str "object")])])])]) = true := by
  decide +kernel

/- `/repo/openapi31/security_test.go:39` -/
example : keeps V31.table (
    .obj [("openapi", .str "3.1.0"), ("info", .obj [("title", .str ""), ("version", .str "")]), ("paths", .obj
    [("/secure", .obj [("get", .obj [("responses", .obj [("200", .obj [("description", .str "OK"), ("content", .obj
    [("application/json", .obj [("schema", .obj [("properties", .obj [("secret", .obj [("type", .str "string")])]),
    ("type", .str "object")])])])]), ("401", .obj [("description", .str "Unauthorized"), ("content", .obj
    [("application/json", .obj [("schema", .obj [("properties", .obj [("error", .obj [("type", .str "string")])]),
    ("type", .str "object")])])])])]), ("security", .arr [.obj [("admin", .arr [])]])])])]), ("components", .obj
    [("securitySchemes", .obj [("admin", .obj [("description", .str "Admin Access"), ("type", .str "http"), ("scheme",
    .str "basic")])])])]) = true := by
  decide +kernel

/- `/repo/openapi31/security_test.go:98` -/
example : keeps V31.table (
    .obj [("openapi", .str "3.1.0"), ("info", .obj [("title", .str ""), ("version", .str "")]), ("paths", .obj
    [("/secure", .obj [("get", .obj [("responses", .obj [("200", .obj [("description", .str "OK"), ("content", .obj
    [("application/json", .obj [("schema", .obj [("properties", .obj [("secret", .obj [("type", .str "string")])]),
    ("type", .str "object")])])])]), ("401", .obj [("description", .str "Unauthorized"), ("content", .obj
    [("application/json", .obj [("schema", .obj [("properties", .obj [("error", .obj [("type", .str "string")])]),
    ("type", .str "object")])])])])]), ("security", .arr [.obj [("admin", .arr [])]])])])]), ("components", .obj
    [("securitySchemes", .obj [("User", .obj [("description", .str "Session cookie."), ("type", .str "apiKey"), ("name",
    .str "sessid"), ("in", .str "cookie")])])])]) = true := by
  decide +kernel

/- `/repo/openapi31/walk_schema_test.go:89` -/
example : keeps V31.table (
    .obj [("openapi", .str "3.1.0"), ("info", .obj [("title", .str ""), ("version", .str "")]), ("components", .obj
    [("schemas", .obj [("FormDataOpenapi31TestReq", .obj [("type", .str "object"), ("properties", .obj [("form1", .obj
    [("minimum", .num "3"), ("type", .str "integer")]), ("form2", .obj [("minLength", .num "2"), ("type", .str
    "string")]), ("form3", .obj [("type", .str "boolean"), ("description", .str "Trivial schema.")])])])])])]) = true := by
  decide +kernel

/- `/repo/openapi31/walk_schema_test.go:180` -/
example : keeps V31.table (
    .obj [("openapi", .str "3.1.0"), ("info", .obj [("title", .str ""), ("version", .str "")]), ("components", .obj
    [("schemas", .obj [("Openapi31TestReq", .obj [("properties", .obj [("bar", .obj [("items", .obj [("type", .str
    "string")]), ("minItems", .num "15"), ("type", .arr [.str "array", .str "null"])]), ("foo", .obj [("minimum", .num
    "6"), ("type", .str "integer")])]), ("type", .str "object")])])])]) = true := by
  decide +kernel

/- `/repo/openapi31/testdata/openapi.json` -/
example : keeps V31.table (
    .obj [("openapi", .str "3.1.0"), ("info", .obj [("title", .str "SampleAPI"), ("version", .str "1.2.3")]), ("paths",
    .obj [("/somewhere/{in_path}", .obj [("summary", .str "Path Summary"), ("description", .str "Path Description"),
    ("get", .obj [("parameters", .arr [.obj [("name", .str "in_query1"), ("in", .str "query"), ("description", .str
    "Query parameter."), ("required", .bool true), ("schema", .obj [("description", .str "Query parameter."), ("type",
    .str "integer")])], .obj [("name", .str "in_query3"), ("in", .str "query"), ("description", .str
    "Query parameter."), ("required", .bool true), ("schema", .obj [("description", .str "Query parameter."), ("type",
    .str "integer")])], .obj [("name", .str "in_path"), ("in", .str "path"), ("required", .bool true), ("schema", .obj
    [("type", .str "integer")])], .obj [("name", .str "in_cookie"), ("in", .str "cookie"), ("deprecated", .bool true),
    ("schema", .obj [("deprecated", .bool true), ("type", .str "string")])], .obj [("name", .str "in_header"), ("in",
    .str "header"), ("schema", .obj [("type", .str "number")])]]), ("responses", .obj [("200", .obj [("description",
    .str "This is a sample response."), ("headers", .obj [("X-Header-Field", .obj [("style", .str "simple"),
    ("description", .str "Sample header response."), ("schema", .obj [("description", .str "Sample header response."),
    ("type", .str "string")])])]), ("content", .obj [("application/json", .obj [("schema", .obj [("$ref", .str
    "#/components/schemas/Openapi31TestResp")])])])])])]), ("post", .obj [("parameters", .arr [.obj [("name", .str
    "in_query1"), ("in", .str "query"), ("description", .str "Query parameter."), ("required", .bool true), ("schema",
    .obj [("description", .str "Query parameter."), ("type", .str "integer")])], .obj [("name", .str "in_query2"),
    ("in", .str "query"), ("description", .str "Query parameter."), ("required", .bool true), ("schema", .obj
    [("description", .str "Query parameter."), ("type", .str "integer")])], .obj [("name", .str "in_query3"), ("in",
    .str "query"), ("description", .str "Query parameter."), ("required", .bool true), ("schema", .obj [("description",
    .str "Query parameter."), ("type", .str "integer")])], .obj [("name", .str "array_csv"), ("in", .str "query"),
    ("schema", .obj [("items", .obj [("type", .str "string")]), ("type", .arr [.str "array", .str "null"])]),
    ("explode", .bool false)], .obj [("name", .str "array_swg2_csv"), ("in", .str "query"), ("schema", .obj [("items",
    .obj [("type", .str "string")]), ("type", .arr [.str "array", .str "null"])]), ("style", .str "form"), ("explode",
    .bool false)], .obj [("name", .str "array_swg2_ssv"), ("in", .str "query"), ("schema", .obj [("items", .obj
    [("type", .str "string")]), ("type", .arr [.str "array", .str "null"])]), ("style", .str "spaceDelimited"),
    ("explode", .bool false)], .obj [("name", .str "array_swg2_pipes"), ("in", .str "query"), ("schema", .obj [("items",
    .obj [("type", .str "string")]), ("type", .arr [.str "array", .str "null"])]), ("style", .str "pipeDelimited"),
    ("explode", .bool false)], .obj [("name", .str "in_path"), ("in", .str "path"), ("required", .bool true), ("schema",
    .obj [("type", .str "integer")])], .obj [("name", .str "in_cookie"), ("in", .str "cookie"), ("deprecated", .bool
    true), ("schema", .obj [("deprecated", .bool true), ("type", .str "string")])], .obj [("name", .str "in_header"),
    ("in", .str "header"), ("schema", .obj [("type", .str "number")])], .obj [("name", .str "uuid"), ("in", .str
    "header"), ("schema", .obj [("$ref", .str "#/components/schemas/Openapi31TestUUID")])]]), ("requestBody", .obj
    [("content", .obj [("application/json", .obj [("schema", .obj [("$ref", .str
    "#/components/schemas/Openapi31TestReq")])]), ("multipart/form-data", .obj [("schema", .obj [("$ref", .str
    "#/components/schemas/FormDataOpenapi31TestReq")])])])]), ("responses", .obj [("200", .obj [("description", .str
    "This is a sample response."), ("headers", .obj [("X-Header-Field", .obj [("style", .str "simple"), ("description",
    .str "Sample header response."), ("schema", .obj [("description", .str "Sample header response."), ("type", .str
    "string")])])]), ("content", .obj [("application/json", .obj [("schema", .obj [("$ref", .str
    "#/components/schemas/Openapi31TestResp")])])])]), ("409", .obj [("description", .str "Conflict"), ("content", .obj
    [("application/json", .obj [("schema", .obj [("items", .obj [("$ref", .str
    "#/components/schemas/Openapi31TestResp")]), ("type", .arr [.str "null", .str "array"])])]), ("text/html", .obj
    [("schema", .obj [("type", .str "string")])])])])])])])]), ("components", .obj [("schemas", .obj
    [("FormDataOpenapi31TestReq", .obj [("properties", .obj [("in_form1", .obj [("type", .str "string")]), ("in_form2",
    .obj [("type", .str "string")]), ("upload1", .obj [("$ref", .str "#/components/schemas/MultipartFile")]),
    ("upload2", .obj [("$ref", .str "#/components/schemas/MultipartFileHeader")])]), ("type", .str "object")]),
    ("MultipartFile", .obj [("contentMediaType", .str "application/octet-stream"), ("format", .str "binary"), ("type",
    .str "string")]), ("MultipartFileHeader", .obj [("contentMediaType", .str "application/octet-stream"), ("format",
    .str "binary"), ("type", .str "string")]), ("Openapi31TestReq", .obj [("properties", .obj [("in_body1", .obj
    [("type", .str "integer")]), ("in_body2", .obj [("type", .str "string")])]), ("type", .str "object")]),
    ("Openapi31TestResp", .obj [("description", .str "This is a sample response."), ("properties", .obj
    [("arrayOfAnything", .obj [("items", .obj []), ("type", .str "array")]), ("field1", .obj [("type", .str
    "integer")]), ("field2", .obj [("type", .str "string")]), ("info", .obj [("properties", .obj [("bar", .obj
    [("description", .str "This is Bar."), ("type", .str "number")]), ("foo", .obj [("default", .str "baz"), ("pattern",
    .str "\\d+"), ("type", .str "string")])]), ("required", .arr [.str "foo"]), ("type", .str "object")]), ("map", .obj
    [("additionalProperties", .obj [("type", .str "integer")]), ("type", .str "object")]), ("mapOfAnything", .obj
    [("additionalProperties", .obj []), ("type", .str "object")]), ("nullableWhatever", .obj []), ("parent", .obj
    [("$ref", .str "#/components/schemas/Openapi31TestResp")]), ("recursiveArray", .obj [("items", .obj [("$ref", .str
    "#/components/schemas/Openapi31TestResp")]), ("type", .str "array")]), ("recursiveStructArray", .obj [("items", .obj
    [("$ref", .str "#/components/schemas/Openapi31TestResp")]), ("type", .str "array")]), ("uuid", .obj [("$ref", .str
    "#/components/schemas/Openapi31TestUUID")]), ("whatever", .obj [])]), ("title", .str "Sample Response"), ("type",
    .str "object"), ("x-foo", .str "bar")]), ("Openapi31TestUUID", .obj [("items", .obj [("minimum", .num "0"), ("type",
    .str "integer")]), ("type", .arr [.str "array", .str "null"])])])])]) = true := by
  decide +kernel

/- `/repo/openapi31/testdata/openapi_req.json` -/
example : keeps V31.table (
    .obj [("openapi", .str "3.1.0"), ("info", .obj [("title", .str "SampleAPI"), ("description", .str
    "This a sample API description."), ("version", .str "1.2.3")]), ("paths", .obj [("/somewhere/{in_path}", .obj
    [("get", .obj [("parameters", .arr [.obj [("name", .str "in_query1"), ("in", .str "query"), ("description", .str
    "Query parameter."), ("required", .bool true), ("schema", .obj [("description", .str "Query parameter."), ("type",
    .str "integer")])], .obj [("name", .str "in_query3"), ("in", .str "query"), ("description", .str
    "Query parameter."), ("required", .bool true), ("schema", .obj [("description", .str "Query parameter."), ("type",
    .str "integer")])], .obj [("name", .str "in_path"), ("in", .str "path"), ("required", .bool true), ("schema", .obj
    [("type", .str "integer")])], .obj [("name", .str "in_cookie"), ("in", .str "cookie"), ("deprecated", .bool true),
    ("schema", .obj [("deprecated", .bool true), ("type", .str "string")])], .obj [("name", .str "in_header"), ("in",
    .str "header"), ("schema", .obj [("type", .str "number")])]]), ("requestBody", .obj [("description", .str
    "Request body in CSV format."), ("content", .obj [("text/csv", .obj [("schema", .obj [("type", .str
    "string")])])])]), ("responses", .obj [("204", .obj [("description", .str "No Content")])])])])])]) = true := by
  decide +kernel

/- `/repo/openapi31/testdata/openapi_req_array.json` -/
example : keeps V31.table (
    .obj [("openapi", .str "3.1.0"), ("info", .obj [("title", .str "SampleAPI"), ("version", .str "1.2.3")]), ("paths",
    .obj [("/somewhere", .obj [("post", .obj [("requestBody", .obj [("content", .obj [("application/json", .obj
    [("schema", .obj [("items", .obj [("$ref", .str "#/components/schemas/Openapi31TestGetReq")]), ("type", .arr [.str
    "null", .str "array"])])])])]), ("responses", .obj [("204", .obj [("description", .str "No Content")])])])])]),
    ("components", .obj [("schemas", .obj [("Openapi31TestGetReq", .obj [("properties", .obj [("c", .obj [("deprecated",
    .bool true), ("type", .str "string")]), ("h", .obj [("type", .str "number")]), ("p", .obj [("type", .str
    "integer")]), ("q1", .obj [("description", .str "Query parameter."), ("type", .str "integer")]), ("q3", .obj
    [("description", .str "Query parameter."), ("type", .str "integer")])]), ("required", .arr [.str "q1", .str "q3"]),
    ("type", .str "object")])])])]) = true := by
  decide +kernel

/- `/repo/openapi31/testdata/uploads.json` -/
example : keeps V31.table (
    .obj [("openapi", .str "3.1.0"), ("info", .obj [("title", .str ""), ("version", .str "")]), ("paths", .obj
    [("/upload", .obj [("post", .obj [("requestBody", .obj [("content", .obj [("multipart/form-data", .obj [("schema",
    .obj [("$ref", .str "#/components/schemas/FormDataOpenapi31TestReq")])])])]), ("responses", .obj [("204", .obj
    [("description", .str "No Content")])])])])]), ("components", .obj [("schemas", .obj [("FormDataOpenapi31TestReq",
    .obj [("properties", .obj [("upload1", .obj [("$ref", .str "#/components/schemas/MultipartFile")]), ("upload2", .obj
    [("$ref", .str "#/components/schemas/MultipartFileHeader")]), ("uploads3", .obj [("items", .obj [("$ref", .str
    "#/components/schemas/MultipartFile")]), ("type", .str "array")]), ("uploads4", .obj [("items", .obj [("$ref", .str
    "#/components/schemas/MultipartFileHeader")]), ("type", .str "array")])]), ("type", .str "object")]),
    ("MultipartFile", .obj [("contentMediaType", .str "application/octet-stream"), ("format", .str "binary"), ("type",
    .str "string")]), ("MultipartFileHeader", .obj [("contentMediaType", .str "application/octet-stream"), ("format",
    .str "binary"), ("type", .str "string")])])])]) = true := by
  decide +kernel

end Verif.Conformance
