import Verif.Lemmas.WritableCheck

/-! What is written can be read back (C35). -/

namespace Verif
open Codec Spec

/-- **C35** for OpenAPI 3.0: every writable value of every type is written, what is written is read, and the value
read is the same. -/
theorem C35_roundtrip30 (N : Nums) (ty : Ty) (v : Val) (h : Writable V30.table N ok30 ty v) :
    ∃ j w, encode V30.table ty v = some j ∧ decode V30.table N ty j = some w ∧ Same v w :=
  (writable_good (facts30 N) h).rt

/-- **C35** for OpenAPI 3.1. -/
theorem C35_roundtrip31 (N : Nums) (ty : Ty) (v : Val) (h : Writable V31.table N ok31 ty v) :
    ∃ j w, encode V31.table ty v = some j ∧ decode V31.table N ty j = some w ∧ Same v w :=
  (writable_good (facts31 N) h).rt

/-! ## Concrete cases -/

/-- A value of a struct type with some fields set, the others nil. -/
def withFields (s : Struct) (l : List (String × Val)) : Val := structOf s (valOf l)

/-- Numbers are kept as they are. -/
def sampleNums : Nums := ⟨some, some⟩

def sampleParameter30 : Val := withFields V30.sParameterOrRef [("Parameter", withFields V30.sParameter [
  ("Name", .str "id"), ("In", .str "path"), ("Required", .bool true), ("Style", .str "label"),
  ("Example", .any .null),
  ("Schema", withFields V30.sSchemaOrRef [("Schema", withFields V30.sSchema [("Type", .str "integer"),
    ("Minimum", .num "1.5"), ("Default", .any .null), ("Enum", .list [.any (.num "2"), .any .null])])])])]

def sampleHeader30 : Val := withFields V30.sParameterOrRef [("Parameter", withFields V30.sParameter [
  ("Name", .str "X-Trace"), ("In", .str "header"), ("Content", .map [("application/json",
    withFields V30.sMediaType [("Schema", withFields V30.sSchemaOrRef [("SchemaReference",
      withFields V30.sSchemaReference [("Ref", .str "#/components/schemas/Trace")])])])])])]

def sampleResponses30 : Val := withFields V30.sResponses [("MapOfResponseOrRefValues", .map [("204",
  withFields V30.sResponseOrRef [("Response", withFields V30.sResponse [("Description", .str "")])])])]

def sampleOperation30 : Val := withFields V30.sOperation [("ID", .str "getItem"), ("Tags", .list []),
  ("Parameters", .list [sampleParameter30, sampleHeader30]), ("Responses", sampleResponses30)]

def sampleSecurity30 : Val := withFields V30.sSecuritySchemeOrRef [("SecurityScheme",
  withFields V30.sSecurityScheme [("HTTPSecurityScheme", withFields V30.sHTTPSecurityScheme [
    ("Scheme", .str "bearer"), ("BearerFormat", .str "JWT")])])]

/-- A document with an extension, a path with a method, parameters, schemas, responses and a security scheme. -/
def sample30 : Val := withFields V30.sSpec [("Openapi", .str "3.0.3"),
  ("Info", withFields V30.sInfo [("Title", .str "t"), ("Version", .str "1")]),
  ("Paths", withFields V30.sPaths [("MapOfPathItemValues", .map [("/items/{id}",
    withFields V30.sPathItem [("MapOfOperationValues", .map [("get", sampleOperation30)])])])]),
  ("Components", withFields V30.sComponents [("SecuritySchemes", withFields V30.sComponentsSecuritySchemes
    [("MapOfSecuritySchemeOrRefValues", .map [("auth", sampleSecurity30)])])]),
  ("MapOfAnything", .map [("x-a", .any (.obj [("b", .arr [.num "1"])]))])]

theorem C35_case30 : Writable V30.table sampleNums ok30 (.named "Spec") sample30 :=
  writableB_sound (okB := fun _ _ _ => true) (fun _ _ _ _ => trivial) (r := 40) (by decide +kernel)

def okB31 (u go : String) (v : Val) : Bool :=
  go != "Reference" || (u != "LinkOrReference" && u != "PathItemOrReference" &&
    (u != "ResponseOrReference" || match v with
      | .struct fs => fs.any (fun p => p.1 == "Description" && isNilB p.2)
      | _ => false))

theorem okB31_sound (u go : String) (v : Val) (h : okB31 u go v = true) : ok31 u go v := by
  intro hgo
  simp only [okB31, hgo, bne_self_eq_false, Bool.false_or, Bool.and_eq_true, bne_iff_ne, Bool.or_eq_true] at h
  refine ⟨h.1.1, h.1.2, ?_⟩
  intro hu
  rcases h.2 with g | g
  · exact absurd hu g
  · split at g
    · rename_i fs
      obtain ⟨p, hp, e⟩ := List.any_eq_true.1 g
      simp only [Bool.and_eq_true, beq_iff_eq, isNilB_iff] at e
      exact ⟨fs, rfl, by rw [← e.1, ← e.2]; exact hp⟩
    · cases g

def sampleOperation31 : Val := withFields V31.sOperation [("Parameters", .list [
    withFields V31.sParameterOrReference [("Parameter", withFields V31.sParameter [("Name", .str "q"), ("In", .str "query"),
      ("Schema", .map [("type", .any (.str "string"))])])],
    withFields V31.sParameterOrReference [("Reference", withFields V31.sReference
      [("Ref", .str "#/components/parameters/p"), ("Description", .str "d")])]]),
  ("Responses", withFields V31.sResponses [
    ("Default", withFields V31.sResponseOrReference [("Reference", withFields V31.sReference
      [("Ref", .str "#/components/responses/r")])]),
    ("MapOfResponseOrReferenceValues", .map [("5XX", withFields V31.sResponseOrReference [("Response",
      withFields V31.sResponse [("Description", .str "failed"), ("MapOfAnything", .map [("x-y", .any .null)])])])])])]

/-- A document of 3.1 with a path, a webhook, parameters, responses and a security scheme. -/
def sample31 : Val := withFields V31.sSpec [("Openapi", .str "3.1.0"),
  ("Info", withFields V31.sInfo [("Title", .str "t"), ("Version", .str "1")]),
  ("Paths", withFields V31.sPaths [("MapOfPathItemValues", .map [("/",
    withFields V31.sPathItem [("Get", sampleOperation31)])])]),
  ("Webhooks", .map [("w", withFields V31.sPathItemOrReference [("PathItem",
    withFields V31.sPathItem [("Post", sampleOperation31)])])]),
  ("Security", .list [.map [("auth", .list [.str "read"])]]),
  ("Components", withFields V31.sComponents [("SecuritySchemes", .map [("auth",
    withFields V31.sSecuritySchemeOrReference [("SecurityScheme", withFields V31.sSecurityScheme
      [("Description", .str "d"), ("HTTPBearer", withFields V31.sSecuritySchemeHTTPBearer
        [("Scheme", .str "bearer"), ("BearerFormat", .str "JWT")])])])])])]

theorem C35_case31 : Writable V31.table sampleNums ok31 (.named "Spec") sample31 :=
  writableB_sound (okB := okB31) okB31_sound (r := 40) (by decide +kernel)

end Verif
