import Verif.Conformance.Helper
import Verif.Reflect

/-! Tests of `/repo/openapi3/reflect_test.go` and `/repo/openapi31/reflect_test.go`, run on the model. What the
dependencies report about the Go types of the tests is written by hand; the schemas are those of
`/repo/openapi31/testdata/openapi.json`. Tests of the model, not proofs of properties. -/

namespace Verif.Conformance
open Codec

/-! ## `TestContentUnit_options`, `/repo/operation_test.go:11-18` -/

example : (withHTTPStatus 409 (withContentType "text/csv" ({} : ContentUnit Unit))).contentType = "text/csv" ∧
    (withHTTPStatus 409 (withContentType "text/csv" ({} : ContentUnit Unit))).httpStatus = 409 := by decide +kernel

/-! ## Schemas -/

/-- A schema with only plain members. -/
def flat (f : JFlat) : JS := .obj f none [] [] [] none [] [] none []

/-- A schema of a type. -/
def ty (t : String) : JS := flat { type := some (.one t) }

/-- A reference. -/
def refTo (n : String) : JS := flat { ref := some ("#/components/schemas/" ++ n) }

/-- An array. -/
def arr (t : JType) (items : JS) : JS := .obj { type := some t } none [] [] [] (some items) [] [] none []

/-- An object with properties. -/
def object (f : JFlat) (props : List (String × JS)) : JS :=
  .obj { f with type := some (.one "object") } none [] [] [] none [] props none []

/-- A map. -/
def mapTo (v : JS) : JS := .obj { type := some (.one "object") } none [] [] [] none [] [] (some v) []

/-- No constraint. -/
def anything : JS := flat {}

/-! ## Fields -/

/-- A field of the structure. -/
def field {S : Type} (name : String) (schema : JS) (tags : Parameter S → Parameter S := id) (cf : String := "") : Event S :=
  .prop { processed := true, pathLen := 1, name := name, schema := schema, collectionFormat := cf,
          populate := fun p => .ok (tags p) }

/-- `required:"true" description:"Query parameter."` -/
def queryField {S : Type} (name : String) : Event S :=
  field name (flat { type := some (.one "integer"), description := some "Query parameter." })
    (fun p => { p with required := some true, description := some "Query parameter." })

/-- Members of `GetReq` by place. `/repo/openapi3/reflect_test.go:92-98` -/
def getReqFields {S : Type} (inn : String) : List (Event S) :=
  if inn = "query" then [queryField "in_query1", queryField "in_query3"]
  else if inn = "path" then [field "in_path" (ty "integer")]
  else if inn = "cookie" then [field "in_cookie" (flat { type := some (.one "string"), deprecated := some true })
    (fun p => { p with deprecated := some true })]
  else [field "in_header" (ty "number")]

/-- `GetReq` -/
def getReq {S : Type} : Value S where
  tagged t := t = "json" || t = "query" || t = "path" || t = "cookie" || t = "header"
  params inn _ := ⟨getReqFields inn, .ok (object {} [])⟩

/-- The default options. `json.Marshal` of a schema gives some text with constraints. -/
def env {S : Type} : Env S := ⟨{}, .ok false, id, fun _ => .ok "{\"type\":\"string\"}"⟩

/-- The context of a method and path, with its structures; an empty one if it is refused. -/
def ctx {S : Type} (oc : Except String (OpCtx S)) (req resp : List (Given S × List (ContentOption S))) : OpCtx S :=
  match oc with
  | .ok oc => resp.foldl (fun oc r => oc.addRespStructure r.1 r.2) (req.foldl (fun oc r => oc.addReqStructure r.1 r.2) oc)
  | .error _ => { method := "", path := "" }

/-! ## `TestReflector_AddOperation_request`, `/repo/openapi3/reflect_test.go:162-189`, `/repo/openapi31/reflect_test.go:165-192` -/

/-- The structures of the request. -/
def reqUnits {S : Type} : List (Given S × List (ContentOption S)) :=
  [(.value (some getReq), []),
    (.value none, [fun cu => { cu with contentType := "text/csv", description := "Request body in CSV format." }])]

/-- The document before the operation is added. -/
def base30 : V30.Spec V30.OS :=
  ((V30.Spec.setTitle {} "SampleAPI").setVersion "1.2.3").setDescription "This a sample API description."

/-- The document before the operation is added. -/
def base31 : V31.Spec Pub31.Schema :=
  ((V31.Spec.setTitle {} "SampleAPI").setVersion "1.2.3").setDescription "This a sample API description."

/-- `ToSimpleMap` on the schemas of this test. -/
def toSimpleMap (j : JS) : Except String Pub31.Schema :=
  match j with
  | .obj f _ _ _ _ _ _ _ _ _ =>
    .ok ((match f.description with | some d => [("description", .str d)] | none => []) ++
      (match f.deprecated with | some b => [("deprecated", .bool b)] | none => []) ++
      (match f.type with | some (.one t) => [("type", .str t)] | _ => []))
  | _ => .error "not used"

/-- The document of the test, and how the call ends. -/
def request30 : V30.Spec V30.OS × Operation V30.OS × Out :=
  V30.addOperation V30.ver env base30 (ctx (V30.newOperationContext base30 "GET" "/somewhere/{in_path}") reqUnits [])

/-- The document of the test, and how the call ends. -/
def request31 : V31.Spec Pub31.Schema × Operation Pub31.Schema × Out :=
  V31.addOperation (V31.ver toSimpleMap) env base31
    (ctx (V31.newOperationContext base31 "GET" "/somewhere/{in_path}") reqUnits [])

example : request30.2.2 = .ok := by decide +kernel
example : writes30 (fun _ => "0") request30.1 Expected.request30 = true := by decide +kernel
example : request31.2.2 = .ok := by decide +kernel
example : writes31 request31.1 Expected.request31 = true := by decide +kernel

/-! ## `TestReflector_AddOperation_uploadInterface`, `/repo/openapi3/reflect_test.go:123-160` -/

/-- A file. The media type that 3.1 adds is left out. `/repo/internal/json_schema.go:167-170` -/
def file : JS := flat { type := some (.one "string"), format := some "binary" }

/-- The structure with one file. -/
def uploadReq : Value V30.OS where
  tagged t := t = "formData"
  body tag _ := if tag = "formData" then
      ⟨[.other, .file], .ok (refTo "FormDataOpenapi3TestReq",
        [("MultipartFile", file), ("FormDataOpenapi3TestReq", object {} [("upload1", refTo "MultipartFile")])])⟩
    else ⟨[], .error "not used"⟩

/-- The document of the test, and how the call ends. -/
def upload30 : V30.Spec V30.OS × Operation V30.OS × Out :=
  V30.addOperation V30.ver env {} (ctx (V30.newOperationContext ({} : V30.Spec V30.OS) "POST" "/somewhere")
    [(.value (some uploadReq), [])] [])

example : upload30.2.2 = .ok := by decide +kernel
example : writes30 (fun _ => "0") upload30.1 Expected.upload30 = true := by decide +kernel

/-! ## `TestReflector_AddOperation_JSON_response`, `/repo/openapi3/reflect_test.go:191-270` -/

/-- A named array of bytes. -/
def uuid : JS := arr (.many ["array", "null"]) (flat { type := some (.one "integer"), minimum := some ⟨0⟩ })

/-- `[]string` -/
def strings : JS := arr (.many ["array", "null"]) (ty "string")

/-- Members of `Req` by place. `/repo/openapi3/reflect_test.go:68-86` -/
def reqFields (inn : String) : List (Event V30.OS) :=
  if inn = "query" then [queryField "in_query1", queryField "in_query2", queryField "in_query3",
    field "array_csv" strings (fun p => { p with explode := some false }), field "array_swg2_csv" strings id "csv",
    field "array_swg2_ssv" strings id "ssv", field "array_swg2_pipes" strings id "pipes"]
  else if inn = "path" then [field "in_path" (ty "integer")]
  else if inn = "cookie" then [field "in_cookie" (flat { type := some (.one "string"), deprecated := some true })
    (fun p => { p with deprecated := some true })]
  else [field "in_header" (ty "number"), .defn "Openapi3TestUUID" uuid, field "uuid" (refTo "Openapi3TestUUID")]

/-- `Req` -/
def reqValue : Value V30.OS where
  forceJSONBody := true
  tagged t := t = "json" || t = "formData" || t = "query" || t = "path" || t = "cookie" || t = "header"
  params inn _ := ⟨reqFields inn, .ok (object {} [])⟩
  body tag _ := if tag = "formData" then
      ⟨[.other, .other, .other, .file, .fileHeader], .ok (refTo "FormDataOpenapi3TestReq",
        [("MultipartFileHeader", file), ("MultipartFile", file),
          ("FormDataOpenapi3TestReq", object {} [("in_form1", ty "string"), ("in_form2", ty "string"),
            ("upload1", refTo "MultipartFile"), ("upload2", refTo "MultipartFileHeader")])])⟩
    else ⟨[.other, .other, .other], .ok (refTo "Openapi3TestReq",
        [("Openapi3TestReq", object {} [("in_body1", ty "integer"), ("in_body2", ty "string")])])⟩

/-- `Resp`. `/repo/openapi3/reflect_test.go:28-46` -/
def respSchema : JS := object
    { title := some "Sample Response", description := some "This is a sample response.", extra := [("x-foo", .str "bar")] } [
  ("field1", ty "integer"), ("field2", ty "string"),
  ("info", object { required := ["foo"] } [
    ("foo", flat { type := some (.one "string"), default := some (.str "baz"), pattern := some "\\d+" }),
    ("bar", flat { type := some (.one "number"), description := some "This is Bar." })]),
  ("parent", refTo "Openapi3TestResp"), ("map", mapTo (ty "integer")), ("mapOfAnything", mapTo anything),
  ("arrayOfAnything", arr (.one "array") anything), ("whatever", anything), ("nullableWhatever", anything),
  ("recursiveArray", arr (.one "array") (refTo "Openapi3TestResp")),
  ("recursiveStructArray", arr (.one "array") (refTo "Openapi3TestResp")), ("uuid", refTo "Openapi3TestUUID")]

/-- The definitions that come with it. -/
def respDefs : List (Event V30.OS) := [.defn "Openapi3TestUUID" uuid, .defn "Openapi3TestResp" respSchema]

/-- The response header. -/
def headerField : Event V30.OS := .prop
  { processed := true, pathLen := 1, name := "X-Header-Field",
    schema := flat { type := some (.one "string"), description := some "Sample header response." } }

/-- `new(WeirdResp)` and `new(Resp)`. The reflection of the headers gives the description of the response. -/
def respValue : Value V30.OS where
  plain := .ok respSchema
  response := ⟨respDefs, .ok (flat { ref := some "#/components/schemas/Openapi3TestResp" })⟩
  headers _ := ⟨[headerField], .ok respSchema⟩

/-- `new([]WeirdResp)` -/
def respsValue : Value V30.OS where
  plain := .ok (arr (.many ["null", "array"]) (refTo "Openapi3TestResp"))
  response := ⟨respDefs, .ok (arr (.many ["null", "array"]) (refTo "Openapi3TestResp"))⟩
  headers _ := ⟨[], .ok (arr (.many ["null", "array"]) (refTo "Openapi3TestResp"))⟩

/-- `""` -/
def textValue : Value V30.OS where
  plain := .ok (ty "string")
  response := ⟨[], .ok (ty "string")⟩
  headers _ := ⟨[], .ok (ty "string")⟩

/-- The document with the path item. -/
def fullBase : V30.Spec V30.OS :=
  { (V30.Spec.setTitle {} "SampleAPI").setVersion "1.2.3" with
    paths := [("/somewhere/{in_path}", { summary := some "Path Summary" })] }

/-- After the first operation. -/
def full1 : V30.Spec V30.OS × Operation V30.OS × Out :=
  V30.addOperation V30.ver env fullBase (ctx (V30.newOperationContext fullBase "POST" "/somewhere/{in_path}")
    [(.value (some reqValue), [])]
    [(.value (some respValue), [withHTTPStatus 200]), (.value (some respsValue), [withHTTPStatus 409]),
      (.value (some textValue), [withHTTPStatus 409, withContentType "text/html"])])

/-- After the second one. -/
def full2 : V30.Spec V30.OS × Operation V30.OS × Out :=
  V30.addOperation V30.ver env full1.1 (ctx (V30.newOperationContext full1.1 "GET" "/somewhere/{in_path}")
    [(.value (some getReq), [])] [(.value (some respValue), [])])

example : full1.2.2 = .ok ∧ full2.2.2 = .ok := by decide +kernel
example : writes30 (fun _ => "0") full2.1 Expected.full30 = true := by decide +kernel

/-! ## `ToJSONSchema` in the same test, `/repo/openapi3/reflect_test.go:224-263` -/

/-- A member for a value that is set. -/
def mayJ {A : Type} (k : String) (f : A → Any) : Option A → List (String × Any)
  | some a => [(k, f a)]
  | none => []

/-- The plain members of a schema that occur in these tests. -/
def flatJ (f : JFlat) : List (String × Any) :=
  mayJ "$ref" .str f.ref ++ mayJ "title" .str f.title ++ mayJ "description" .str f.description ++
  mayJ "default" id f.default ++ mayJ "pattern" .str f.pattern ++ mayJ "minimum" (fun _ => .num "0") f.minimum ++
  mayJ "format" .str f.format ++
  mayJ "type" (fun t => match t with | .one t => .str t | .many ts => .arr (ts.map .str)) f.type ++
  (if f.required = [] then [] else [("required", .arr (f.required.map .str))]) ++ f.extra

mutual
/-- `json.Marshal` of a schema, for the keywords that occur in these tests. -/
def jsJ : JS → Any
  | .zero => .obj []
  | .bool b => .bool b
  | .obj f _ _ _ _ items _ props addl _ => .obj (flatJ f ++ jsOptJ "items" items ++
      (match props with | [] => [] | props => [("properties", .obj (jsPropsJ props))]) ++ jsOptJ "additionalProperties" addl)
/-- A member for a schema. -/
def jsOptJ (k : String) : Option JS → List (String × Any)
  | none => []
  | some j => [(k, jsJ j)]
/-- The properties. -/
def jsPropsJ : List (String × JS) → List (String × Any)
  | [] => []
  | (k, j) :: l => (k, jsJ j) :: jsPropsJ l
end

/-- `ToJSONSchema` of a schema of the document gives the JSON, in both orders of iteration. -/
def resolves (s : Option V30.OS) (j : Any) : Bool :=
  [Order.id, Order.rev].all fun o =>
    match s with
    | none => false
    | some s => match V30.toJSONSchema (some full2.1.schemas) o 20 s with
      | .ok r => match jsJ r.schema with
        | .obj ms => sameJ 60 j (.obj (ms ++ (if r.components.isEmpty then []
            else [("components", .obj [("schemas", .obj (r.components.map (fun p => (p.1, jsJ p.2))))])])))
        | _ => false
      | _ => false

/-- The schema of the form. -/
def formSchema : Option V30.OS := do
  let op ← full2.1.op? "/somewhere/{in_path}" "post"
  let mt ← ((← (← op.requestBody).body).content).get? "multipart/form-data"
  mt.schema

/-- The response of the second operation. -/
def okResponse : Option (Response V30.OS) := do
  let op ← full2.1.op? "/somewhere/{in_path}" "get"
  (← op.responses.codes.get? "200").response

/-- Its schema. -/
def okSchema : Option V30.OS := do (← (← okResponse).content.get? "application/json").schema

/-- The schema of its header. -/
def okHeader : Option V30.OS := do (← (← (← okResponse).headers.get? "X-Header-Field").header).schema

/-- The schema of the first parameter. -/
def firstParam : Option V30.OS := do
  let op ← full2.1.op? "/somewhere/{in_path}" "get"
  (← (← op.parameters[0]?).param).schema

example : resolves formSchema Expected.reqSchema30 = true := by decide +kernel
example : resolves okSchema Expected.respSchema30 = true := by decide +kernel
example : resolves okHeader (.obj [("type", .str "string"), ("description", .str "Sample header response.")]) = true := by
  decide +kernel
example : resolves firstParam (.obj [("type", .str "integer"), ("description", .str "Query parameter.")]) = true := by
  decide +kernel

end Verif.Conformance
