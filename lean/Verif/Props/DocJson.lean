import Verif.Lemmas.DocJson31
import Verif.Lemmas.DocJsonSchema30
import Verif.Props.Publish31

/-! The JSON of documents says what the documents say, and nothing else (C85). -/

namespace Verif
open Codec Spec Meta Conform

/-- **C85**, 3.0: a document that is in order is written as this JSON. -/
theorem C85_written30 (N : Nums) (lit : F64 → String) (d : V30.Spec V30.OS) (h : Pub30.Published (Always (Pub30.SchemaOk N lit)) d) :
    encode V30.table (.named "Spec") (Pub30.docVal (Pub30.schemaVal lit) d) = some (DocJson.doc30 (DocJson.schema30 lit) d) :=
  DocJson.J30.json_doc DocJson.J30.schemas30_ok h

/-- **C85**, 3.0: so is one that was built by calls with input that is in order. -/
theorem C85_built30 (N : Nums) (lit : F64 → String) (h0 : Pub30.IntOk N 0) (d : V30.Spec V30.OS)
    (h : Pub30.Built V30.ver (Always (Pub30.JsonOk N lit)) (Always (Pub30.SchemaOk N lit)) d) :
    encode V30.table (.named "Spec") (Pub30.docVal (Pub30.schemaVal lit) d) = some (DocJson.doc30 (DocJson.schema30 lit) d) :=
  C85_written30 N lit d (C83_in_order (Pub30.converts30 h0) d h)

/-- **C85**, 3.1: a document that is in order, whatever its schemas, is written as this JSON. -/
theorem C85_written31 (Sc : Role → Pub31.Schema → Prop) (d : V31.Spec Pub31.Schema) (h : Pub31.Published Sc d) :
    encode V31.table (.named "Spec") (Pub31.docVal d) = some (DocJson.doc31 d) :=
  DocJson.J31.json_doc h

/-- **C85**, 3.1: so is one that was built by calls with input that is in order. -/
theorem C85_built31 (N : Nums) (toSimpleMap : JS → Except String Pub31.Schema)
    (h0 : ∀ format, Pub31.JsonOk N toSimpleMap .content (stringJS format)) (d : V31.Spec Pub31.Schema)
    (h : Pub31.Built (V31.ver toSimpleMap) (Pub31.JsonOk N toSimpleMap) (Pub31.SchemaOk N) d) :
    encode V31.table (.named "Spec") (Pub31.docVal d) = some (DocJson.doc31 d) :=
  C85_written31 _ d (C84_in_order (Pub31.translates31 h0) d h)

/-! ## Concrete cases -/

/-- **C85**, 3.0, concrete: the JSON of the example of C83. -/
theorem C85_case30 : encode V30.table (.named "Spec")
    (Pub30.docVal (Pub30.schemaVal Ex83.lit) (Ex83.doc (Ex83.fieldId (Ex83.typed "integer") false ""))) = some (
    .obj [("openapi", .str "3.0.3"), ("info", .obj [("title", .str "Things"), ("version", .str "")]), ("paths",
      .obj [("/things/{id}", .obj [("post", .obj [("summary", .str "change a thing"), ("parameters", .arr [.obj [("name",
      .str "tags"), ("in", .str "query"), ("required", .bool true), ("style", .str "form"), ("explode", .bool false),
      ("schema", .obj [("type", .str "array"), ("items", .obj [("type", .str "integer")]), ("nullable", .bool true)])],
      .obj [("name", .str "filter"), ("in", .str "query"), ("content", .obj [("application/json", .obj [("schema",
      .obj [("$ref", .str "#/components/schemas/Thing")])])])], .obj [("name", .str "id"), ("in", .str "path"),
      ("description", .str "the thing"), ("required", .bool true), ("schema", .obj [("type", .str "integer")])]]),
      ("requestBody", .obj [("content", .obj [("application/json", .obj [("schema", .obj [("$ref",
      .str "#/components/schemas/Thing")])])])]), ("responses", .obj [("default", .obj [("$ref",
      .str "#/components/responses/Error")]), ("200", .obj [("description", .str "OK"), ("headers", .obj [("X-Rate",
      .obj [("style", .str "simple"), ("description", .str "per second"), ("schema", .obj [("type",
      .str "integer")])])]), ("content", .obj [("application/json", .obj [("schema", .obj [("$ref",
      .str "#/components/schemas/Thing")])])])])]), ("x-forbid-unknown-query", .bool true), ("x-forbid-unknown-path",
      .bool true), ("x-forbid-unknown-cookie", .bool true), ("x-forbid-unknown-header", .bool true)])]), ("/ping",
      .obj [("get", .obj [("responses", .obj [("204", .obj [("description", .str "No Content")])])])])]), ("components",
      .obj [("schemas", .obj [("Thing", .obj [("required", .arr [.str "name"]), ("type", .str "object"), ("properties",
      .obj [("name", .obj [("maxLength", .num "10"), ("type", .str "string")]), ("count", .obj [("enum", .arr [.num "1",
      .null]), ("type", .str "integer"), ("nullable", .bool true)])]), ("additionalProperties", .bool false)])]),
      ("securitySchemes", .obj [("admin", .obj [("type", .str "http"), ("scheme", .str "bearer"), ("bearerFormat",
      .str "JWT"), ("description", .str "")])])])]) := by
  rw [C85_built30 jsonNums Ex83.lit Ex83.ok_zero _ Ex83.built]
  kernel_rfl

/-- **C85**, 3.1, concrete: the JSON of the example of C84. -/
theorem C85_case31 : encode V31.table (.named "Spec")
    (Pub31.docVal (Ex84.doc (Ex84.fieldId (Ex83.typed "integer") false "") (Ex83.typed "integer") 201)) = some (
    .obj [("openapi", .str "3.1.0"), ("info", .obj [("title", .str "Things"), ("version", .str "")]), ("paths",
      .obj [("/things/{id}", .obj [("post", .obj [("summary", .str "change a thing"), ("parameters", .arr [.obj [("name",
      .str "tags"), ("in", .str "query"), ("required", .bool true), ("schema", .obj [("type", .arr [.str "array",
      .str "null"])]), ("style", .str "form"), ("explode", .bool false)], .obj [("name", .str "filter"), ("in",
      .str "query"), ("content", .obj [("application/json", .obj [("schema", .obj [("$ref",
      .str "#/components/schemas/Thing")])])])], .obj [("name", .str "id"), ("in", .str "path"), ("description",
      .str "the thing"), ("required", .bool true), ("schema", .obj [("type", .str "integer")])]]), ("requestBody",
      .obj [("content", .obj [("application/json", .obj [("schema", .obj [("$ref",
      .str "#/components/schemas/Thing")])])])]), ("responses", .obj [("default", .obj [("$ref",
      .str "#/components/responses/Error")]), ("201", .obj [("description", .str "Created"), ("headers", .obj [("X-Rate",
      .obj [("style", .str "simple"), ("description", .str "per second"), ("schema", .obj [("type",
      .str "integer")])])]), ("content", .obj [("application/json", .obj [("schema", .obj [("$ref",
      .str "#/components/schemas/Thing")])])])])]), ("x-forbid-unknown-query", .bool true), ("x-forbid-unknown-path",
      .bool true), ("x-forbid-unknown-cookie", .bool true), ("x-forbid-unknown-header", .bool true)])]), ("/ping",
      .obj [("get", .obj [("responses", .obj [("204", .obj [("description", .str "No Content")])])])])]), ("webhooks",
      .obj [("thing changed", .obj [("put", .obj [("responses", .obj [("200", .obj [("description", .str "OK"),
      ("headers", .obj [("X-Rate", .obj [("style", .str "simple"), ("description", .str "per second"), ("schema",
      .obj [("type", .str "integer")])])]), ("content", .obj [("application/json", .obj [("schema", .obj [("$ref",
      .str "#/components/schemas/Thing")])])])])])])])]), ("components", .obj [("schemas", .obj [("Thing", .obj [("type",
      .str "object")])]), ("securitySchemes", .obj [("admin", .obj [("description", .str ""), ("type", .str "http"),
      ("scheme", .str "bearer"), ("bearerFormat", .str "JWT")])])])]) := by
  rw [C85_built31 jsonNums Ex84.simple Ex84.ok_text _ Ex84.built]
  kernel_rfl

end Verif
