import Verif.Entities

/-! Generated by `tools/conformance.py`. Documents that tests of `/repo` expect. -/

namespace Verif.Conformance.Expected

/-- `/repo/openapi3/helper_test.go:93` -/
def uncleanPath30 : Any :=
    .obj [("openapi", .str ""), ("info", .obj [("title", .str ""), ("version", .str "")]), ("paths", .obj
    [("/users/{userID}", .obj [("get", .obj [("parameters", .arr [.obj [("name", .str "userID"), ("in", .str "path")]]),
    ("responses", .obj [])]), ("post", .obj [("parameters", .arr [.obj [("name", .str "userID"), ("in", .str "path")]]),
    ("responses", .obj [])])])])]

/-- `/repo/openapi31/helper_test.go:93` -/
def uncleanPath31 : Any :=
    .obj [("openapi", .str ""), ("info", .obj [("title", .str ""), ("version", .str "")]), ("paths", .obj
    [("/users/{userID}", .obj [("get", .obj [("parameters", .arr [.obj [("name", .str "userID"), ("in", .str
    "path")]])]), ("post", .obj [("parameters", .arr [.obj [("name", .str "userID"), ("in", .str "path")]])])])])]

/-- `/repo/openapi3/testdata/openapi_req.json` -/
def request30 : Any :=
    .obj [("openapi", .str "3.0.3"), ("info", .obj [("title", .str "SampleAPI"), ("description", .str
    "This a sample API description."), ("version", .str "1.2.3")]), ("paths", .obj [("/somewhere/{in_path}", .obj
    [("get", .obj [("parameters", .arr [.obj [("name", .str "in_query1"), ("in", .str "query"), ("description", .str
    "Query parameter."), ("required", .bool true), ("schema", .obj [("type", .str "integer"), ("description", .str
    "Query parameter.")])], .obj [("name", .str "in_query3"), ("in", .str "query"), ("description", .str
    "Query parameter."), ("required", .bool true), ("schema", .obj [("type", .str "integer"), ("description", .str
    "Query parameter.")])], .obj [("name", .str "in_path"), ("in", .str "path"), ("required", .bool true), ("schema",
    .obj [("type", .str "integer")])], .obj [("name", .str "in_cookie"), ("in", .str "cookie"), ("deprecated", .bool
    true), ("schema", .obj [("type", .str "string"), ("deprecated", .bool true)])], .obj [("name", .str "in_header"),
    ("in", .str "header"), ("schema", .obj [("type", .str "number")])]]), ("requestBody", .obj [("description", .str
    "Request body in CSV format."), ("content", .obj [("text/csv", .obj [("schema", .obj [("type", .str
    "string")])])])]), ("responses", .obj [("204", .obj [("description", .str "No Content")])])])])])]

/-- `/repo/openapi31/testdata/openapi_req.json` -/
def request31 : Any :=
    .obj [("openapi", .str "3.1.0"), ("info", .obj [("title", .str "SampleAPI"), ("description", .str
    "This a sample API description."), ("version", .str "1.2.3")]), ("paths", .obj [("/somewhere/{in_path}", .obj
    [("get", .obj [("parameters", .arr [.obj [("name", .str "in_query1"), ("in", .str "query"), ("description", .str
    "Query parameter."), ("required", .bool true), ("schema", .obj [("description", .str "Query parameter."), ("type",
    .str "integer")])], .obj [("name", .str "in_query3"), ("in", .str "query"), ("description", .str
    "Query parameter."), ("required", .bool true), ("schema", .obj [("description", .str "Query parameter."), ("type",
    .str "integer")])], .obj [("name", .str "in_path"), ("in", .str "path"), ("required", .bool true), ("schema", .obj
    [("type", .str "integer")])], .obj [("name", .str "in_cookie"), ("in", .str "cookie"), ("deprecated", .bool true),
    ("schema", .obj [("deprecated", .bool true), ("type", .str "string")])], .obj [("name", .str "in_header"), ("in",
    .str "header"), ("schema", .obj [("type", .str "number")])]]), ("requestBody", .obj [("description", .str
    "Request body in CSV format."), ("content", .obj [("text/csv", .obj [("schema", .obj [("type", .str
    "string")])])])]), ("responses", .obj [("204", .obj [("description", .str "No Content")])])])])])]

/-- `/repo/openapi3/reflect_deprecated_test.go:56` -/
def upload30 : Any :=
    .obj [("openapi", .str "3.0.3"), ("info", .obj [("title", .str ""), ("version", .str "")]), ("paths", .obj
    [("/somewhere", .obj [("post", .obj [("requestBody", .obj [("content", .obj [("multipart/form-data", .obj
    [("schema", .obj [("$ref", .str "#/components/schemas/FormDataOpenapi3TestReq")])])])]), ("responses", .obj [("204",
    .obj [("description", .str "No Content")])])])])]), ("components", .obj [("schemas", .obj
    [("FormDataOpenapi3TestReq", .obj [("type", .str "object"), ("properties", .obj [("upload1", .obj [("$ref", .str
    "#/components/schemas/MultipartFile")])])]), ("MultipartFile", .obj [("type", .str "string"), ("format", .str
    "binary")])])])]

/-- `/repo/openapi3/testdata/openapi.json`, without the description of the path item, which is not modelled -/
def full30 : Any :=
    .obj [("openapi", .str "3.0.3"), ("info", .obj [("title", .str "SampleAPI"), ("version", .str "1.2.3")]), ("paths",
    .obj [("/somewhere/{in_path}", .obj [("summary", .str "Path Summary"), ("get", .obj [("parameters", .arr [.obj
    [("name", .str "in_query1"), ("in", .str "query"), ("description", .str "Query parameter."), ("required", .bool
    true), ("schema", .obj [("type", .str "integer"), ("description", .str "Query parameter.")])], .obj [("name", .str
    "in_query3"), ("in", .str "query"), ("description", .str "Query parameter."), ("required", .bool true), ("schema",
    .obj [("type", .str "integer"), ("description", .str "Query parameter.")])], .obj [("name", .str "in_path"), ("in",
    .str "path"), ("required", .bool true), ("schema", .obj [("type", .str "integer")])], .obj [("name", .str
    "in_cookie"), ("in", .str "cookie"), ("deprecated", .bool true), ("schema", .obj [("type", .str "string"),
    ("deprecated", .bool true)])], .obj [("name", .str "in_header"), ("in", .str "header"), ("schema", .obj [("type",
    .str "number")])]]), ("responses", .obj [("200", .obj [("description", .str "This is a sample response."),
    ("headers", .obj [("X-Header-Field", .obj [("style", .str "simple"), ("description", .str
    "Sample header response."), ("schema", .obj [("type", .str "string"), ("description", .str
    "Sample header response.")])])]), ("content", .obj [("application/json", .obj [("schema", .obj [("$ref", .str
    "#/components/schemas/Openapi3TestResp")])])])])])]), ("post", .obj [("parameters", .arr [.obj [("name", .str
    "in_query1"), ("in", .str "query"), ("description", .str "Query parameter."), ("required", .bool true), ("schema",
    .obj [("type", .str "integer"), ("description", .str "Query parameter.")])], .obj [("name", .str "in_query2"),
    ("in", .str "query"), ("description", .str "Query parameter."), ("required", .bool true), ("schema", .obj [("type",
    .str "integer"), ("description", .str "Query parameter.")])], .obj [("name", .str "in_query3"), ("in", .str
    "query"), ("description", .str "Query parameter."), ("required", .bool true), ("schema", .obj [("type", .str
    "integer"), ("description", .str "Query parameter.")])], .obj [("name", .str "array_csv"), ("in", .str "query"),
    ("explode", .bool false), ("schema", .obj [("type", .str "array"), ("items", .obj [("type", .str "string")])])],
    .obj [("name", .str "array_swg2_csv"), ("in", .str "query"), ("style", .str "form"), ("explode", .bool false),
    ("schema", .obj [("type", .str "array"), ("items", .obj [("type", .str "string")])])], .obj [("name", .str
    "array_swg2_ssv"), ("in", .str "query"), ("style", .str "spaceDelimited"), ("explode", .bool false), ("schema", .obj
    [("type", .str "array"), ("items", .obj [("type", .str "string")])])], .obj [("name", .str "array_swg2_pipes"),
    ("in", .str "query"), ("style", .str "pipeDelimited"), ("explode", .bool false), ("schema", .obj [("type", .str
    "array"), ("items", .obj [("type", .str "string")])])], .obj [("name", .str "in_path"), ("in", .str "path"),
    ("required", .bool true), ("schema", .obj [("type", .str "integer")])], .obj [("name", .str "in_cookie"), ("in",
    .str "cookie"), ("deprecated", .bool true), ("schema", .obj [("type", .str "string"), ("deprecated", .bool true)])],
    .obj [("name", .str "in_header"), ("in", .str "header"), ("schema", .obj [("type", .str "number")])], .obj [("name",
    .str "uuid"), ("in", .str "header"), ("schema", .obj [("$ref", .str "#/components/schemas/Openapi3TestUUID")])]]),
    ("requestBody", .obj [("content", .obj [("application/json", .obj [("schema", .obj [("$ref", .str
    "#/components/schemas/Openapi3TestReq")])]), ("multipart/form-data", .obj [("schema", .obj [("$ref", .str
    "#/components/schemas/FormDataOpenapi3TestReq")])])])]), ("responses", .obj [("200", .obj [("description", .str
    "This is a sample response."), ("headers", .obj [("X-Header-Field", .obj [("style", .str "simple"), ("description",
    .str "Sample header response."), ("schema", .obj [("type", .str "string"), ("description", .str
    "Sample header response.")])])]), ("content", .obj [("application/json", .obj [("schema", .obj [("$ref", .str
    "#/components/schemas/Openapi3TestResp")])])])]), ("409", .obj [("description", .str "Conflict"), ("content", .obj
    [("application/json", .obj [("schema", .obj [("type", .str "array"), ("items", .obj [("$ref", .str
    "#/components/schemas/Openapi3TestResp")])])]), ("text/html", .obj [("schema", .obj [("type", .str
    "string")])])])])])])])]), ("components", .obj [("schemas", .obj [("FormDataOpenapi3TestReq", .obj [("type", .str
    "object"), ("properties", .obj [("in_form1", .obj [("type", .str "string")]), ("in_form2", .obj [("type", .str
    "string")]), ("upload1", .obj [("$ref", .str "#/components/schemas/MultipartFile")]), ("upload2", .obj [("$ref",
    .str "#/components/schemas/MultipartFileHeader")])])]), ("MultipartFile", .obj [("type", .str "string"), ("format",
    .str "binary")]), ("MultipartFileHeader", .obj [("type", .str "string"), ("format", .str "binary")]),
    ("Openapi3TestReq", .obj [("type", .str "object"), ("properties", .obj [("in_body1", .obj [("type", .str
    "integer")]), ("in_body2", .obj [("type", .str "string")])])]), ("Openapi3TestResp", .obj [("title", .str
    "Sample Response"), ("type", .str "object"), ("properties", .obj [("arrayOfAnything", .obj [("type", .str "array"),
    ("items", .obj [])]), ("field1", .obj [("type", .str "integer")]), ("field2", .obj [("type", .str "string")]),
    ("info", .obj [("required", .arr [.str "foo"]), ("type", .str "object"), ("properties", .obj [("bar", .obj [("type",
    .str "number"), ("description", .str "This is Bar.")]), ("foo", .obj [("pattern", .str "\\d+"), ("type", .str
    "string"), ("default", .str "baz")])])]), ("map", .obj [("type", .str "object"), ("additionalProperties", .obj
    [("type", .str "integer")])]), ("mapOfAnything", .obj [("type", .str "object"), ("additionalProperties", .obj [])]),
    ("nullableWhatever", .obj []), ("parent", .obj [("$ref", .str "#/components/schemas/Openapi3TestResp")]),
    ("recursiveArray", .obj [("type", .str "array"), ("items", .obj [("$ref", .str
    "#/components/schemas/Openapi3TestResp")])]), ("recursiveStructArray", .obj [("type", .str "array"), ("items", .obj
    [("$ref", .str "#/components/schemas/Openapi3TestResp")])]), ("uuid", .obj [("$ref", .str
    "#/components/schemas/Openapi3TestUUID")]), ("whatever", .obj [])]), ("description", .str
    "This is a sample response."), ("x-foo", .str "bar")]), ("Openapi3TestUUID", .obj [("type", .str "array"), ("items",
    .obj [("minimum", .num "0"), ("type", .str "integer")]), ("nullable", .bool true)])])])]

/-- `/repo/openapi3/testdata/req_schema.json` -/
def reqSchema30 : Any :=
    .obj [("properties", .obj [("in_form1", .obj [("type", .str "string")]), ("in_form2", .obj [("type", .str
    "string")]), ("upload1", .obj [("$ref", .str "#/components/schemas/MultipartFile")]), ("upload2", .obj [("$ref",
    .str "#/components/schemas/MultipartFileHeader")])]), ("type", .str "object"), ("components", .obj [("schemas", .obj
    [("MultipartFile", .obj [("type", .str "string"), ("format", .str "binary")]), ("MultipartFileHeader", .obj
    [("type", .str "string"), ("format", .str "binary")])])])]

/-- `/repo/openapi3/testdata/resp_schema.json` -/
def respSchema30 : Any :=
    .obj [("$ref", .str "#/components/schemas/Openapi3TestResp"), ("components", .obj [("schemas", .obj
    [("Openapi3TestResp", .obj [("title", .str "Sample Response"), ("description", .str "This is a sample response."),
    ("properties", .obj [("arrayOfAnything", .obj [("items", .obj []), ("type", .str "array")]), ("field1", .obj
    [("type", .str "integer")]), ("field2", .obj [("type", .str "string")]), ("info", .obj [("required", .arr [.str
    "foo"]), ("properties", .obj [("bar", .obj [("description", .str "This is Bar."), ("type", .str "number")]), ("foo",
    .obj [("default", .str "baz"), ("pattern", .str "\\d+"), ("type", .str "string")])]), ("type", .str "object")]),
    ("map", .obj [("additionalProperties", .obj [("type", .str "integer")]), ("type", .str "object")]),
    ("mapOfAnything", .obj [("additionalProperties", .obj []), ("type", .str "object")]), ("nullableWhatever", .obj []),
    ("parent", .obj [("$ref", .str "#/components/schemas/Openapi3TestResp")]), ("recursiveArray", .obj [("items", .obj
    [("$ref", .str "#/components/schemas/Openapi3TestResp")]), ("type", .str "array")]), ("recursiveStructArray", .obj
    [("items", .obj [("$ref", .str "#/components/schemas/Openapi3TestResp")]), ("type", .str "array")]), ("uuid", .obj
    [("$ref", .str "#/components/schemas/Openapi3TestUUID")]), ("whatever", .obj [])]), ("type", .str "object"),
    ("x-foo", .str "bar")]), ("Openapi3TestUUID", .obj [("items", .obj [("minimum", .num "0"), ("type", .str
    "integer")]), ("type", .arr [.str "array", .str "null"])])])])]

end Verif.Conformance.Expected
