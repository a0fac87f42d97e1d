import Verif.Conformance.Basic
import Verif.Conformance.Expected
import Verif.Spec.Publish30
import Verif.Spec.Publish31
import Verif.Spec.PublishSchema30

/-! The tests of `/repo/openapi3/helper_test.go`, `/repo/openapi31/helper_test.go` and `/repo/operation_test.go`, run
on the model. Tests of the model, not proofs of properties. -/

namespace Verif.Conformance
open Codec

/-- `Parameter{In: in, Name: name}.ToParameterOrRef()` -/
def param {S : Type} (inn name : String) : ParamOrRef S := { param := some { name := name, inn := inn } }

/-! ## `TestSpec_SetOperation`, `/repo/openapi3/helper_test.go:12-43`, `/repo/openapi31/helper_test.go:12-43` -/

/-- The operation with one path parameter. -/
def op1 : Operation Unit := { parameters := [param "path" "foo"] }

/-- The operation with repeated parameters. -/
def op2 : Operation Unit :=
  { parameters := [param "path" "foo", param "path" "foo", param "query" "bar", param "query" "bar"] }

example : (V30.Spec.addOperation {} "bar" "/" op1).2 = some "unexpected http method: bar" := by decide +kernel
example : (V30.Spec.addOperation {} "GET" "/" op1).2 = some "missing path parameter placeholder in url: foo" := by
  decide +kernel
example : (V30.Spec.addOperation {} "GET" "/{bar}" op1).2 =
    some "missing path parameter placeholder in url: foo, undefined path parameter: bar" := by decide +kernel
example : (V30.Spec.addOperation {} "GET" "/{foo}" op1).2 = none := by decide +kernel
example : ((V30.Spec.addOperation {} "GET" "/{foo}" op1).1.addOperation "GET" "/{foo}" op1).2 =
    some "operation already exists: get /{foo}" := by decide +kernel
example : ((V30.Spec.addOperation {} "GET" "/{foo}" op1).1.addOperation "GET" "/another/{foo}" op2).2 =
    some "duplicate parameter in path: foo, duplicate parameter in query: bar" := by decide +kernel

example : (V31.Spec.addOperation {} "bar" "/" op1).2 = some "unexpected http method: bar" := by decide +kernel
example : (V31.Spec.addOperation {} "GET" "/" op1).2 = some "missing path parameter placeholder in url: foo" := by
  decide +kernel
example : (V31.Spec.addOperation {} "GET" "/{bar}" op1).2 =
    some "missing path parameter placeholder in url: foo, undefined path parameter: bar" := by decide +kernel
example : (V31.Spec.addOperation {} "GET" "/{foo}" op1).2 = none := by decide +kernel
example : ((V31.Spec.addOperation {} "GET" "/{foo}" op1).1.addOperation "GET" "/{foo}" op1).2 =
    some "operation already exists: get /{foo}" := by decide +kernel
example : ((V31.Spec.addOperation {} "GET" "/{foo}" op1).1.addOperation "GET" "/another/{foo}" op2).2 =
    some "duplicate parameter in path: foo, duplicate parameter in query: bar" := by decide +kernel

/-! ## `TestSpec_SetupOperation_pathRegex`, `/repo/openapi3/helper_test.go:45-80`, `/repo/openapi31/helper_test.go:45-80` -/

/-- The paths and their parameters. -/
def regexPaths : List (String × List String) := [
  ("/{month}-{day}-{year}", ["month", "day", "year"]),
  ("/{month}/{day}/{year}", ["month", "day", "year"]),
  ("/{month:[\\d]+}-{day:[\\d]+}-{year:[\\d]+}", ["month", "day", "year"]),
  ("/{articleSlug:[a-z-]+}", ["articleSlug"]),
  ("/articles/{rid:^[0-9]{5,6}}", ["rid"]),
  ("/articles/{rid:^[0-9]{5,6}}/{zid:^[0-9]{5,6}}", ["rid", "zid"]),
  ("/articles/{zid:^0[0-9]+}", ["zid"]),
  ("/articles/{name:^@[a-z]+}/posts", ["name"]),
  ("/articles/{op:^[0-9]+}/run", ["op"]),
  ("/users/{userID:[^/]+}", ["userID"]),
  ("/users/{userID:[^/]+}/books/{bookID:.+}", ["userID", "bookID"])]

/-- The setup function of the test. -/
def withParams {S : Type} (names : List String) : Setup S := fun op => ({ op with parameters := names.map (param "path") }, none)

/-- All calls on one document, with their errors. -/
def calls30 : V30.Spec Unit → List (String × List String) → List (Option String)
  | _, [] => []
  | s, (p, ns) :: l => (s.setupOperation "GET" p [withParams ns]).2 :: calls30 (s.setupOperation "GET" p [withParams ns]).1 l

/-- All calls on one document, with their errors. -/
def calls31 : V31.Spec Unit → List (String × List String) → List (Option String)
  | _, [] => []
  | s, (p, ns) :: l => (s.setupOperation "GET" p [withParams ns]).2 :: calls31 (s.setupOperation "GET" p [withParams ns]).1 l

example : calls30 {} regexPaths = List.replicate 11 none := by decide +kernel
example : calls31 {} regexPaths = List.replicate 11 none := by decide +kernel

/-! ## `TestSpec_SetupOperation_uncleanPath`, `/repo/openapi3/helper_test.go:82-102`, `/repo/openapi31/helper_test.go:82-102` -/

/-- The document of the test; `Spec{}` has no version. -/
def unclean30 : V30.Spec V30.OS :=
  ((V30.Spec.setupOperation { openapi := "" } "GET" "/users/{userID:[^/]+}" [withParams ["userID"]]).1.setupOperation
    "POST" "/users/{userID:[^/]+}" [withParams ["userID"]]).1

/-- The document of the test; `Spec{}` has no version. -/
def unclean31 : V31.Spec Pub31.Schema :=
  ((V31.Spec.setupOperation { openapi := "" } "GET" "/users/{userID:[^/]+}" [withParams ["userID"]]).1.setupOperation
    "POST" "/users/{userID:[^/]+}" [withParams ["userID"]]).1

/-- The JSON of a document is the expected one. -/
def writes30 (lit : F64 → String) (d : V30.Spec V30.OS) (j : Any) : Bool :=
  match encode V30.table (.named "Spec") (Pub30.docVal (Pub30.schemaVal lit) d) with
  | some j' => sameJ 60 j j'
  | none => false

/-- The JSON of a document is the expected one. -/
def writes31 (d : V31.Spec Pub31.Schema) (j : Any) : Bool :=
  match encode V31.table (.named "Spec") (Pub31.docVal d) with
  | some j' => sameJ 60 j j'
  | none => false

example : writes30 (fun _ => "0") unclean30 Expected.uncleanPath30 = true := by decide +kernel
example : writes31 unclean31 Expected.uncleanPath31 = true := by decide +kernel

end Verif.Conformance
