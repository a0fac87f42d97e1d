import Verif.Path

/-!
# Entities shared by the OpenAPI 3.0 and 3.1 models

Plain data. `S` is the type of schemas (`SchemaOrRef` in 3.0, `map[string]interface{}` in 3.1).
Pointers are `Option`. Fields that no modelled function reads or writes are left out.
-/

namespace Verif

/-- A decoded JSON value (`interface{}` after `json.Unmarshal`). Numbers only need equality: a number is
kept as its literal text. -/
inductive Any where
  | null
  | bool (b : Bool)
  | num (lit : String)
  | str (s : String)
  | arr (xs : List Any)
  | obj (m : List (String × Any))

/-- `MediaType` (`/repo/openapi3/entities.go`, `/repo/openapi31/entities.go`): only the schema; the
reflectors never touch examples or encoding. `other` stands for those. -/
structure MediaType (S : Type) where
  schema : Option S := none
  other : List String := []
deriving DecidableEq, Repr

/-- `Parameter`. -/
structure Parameter (S : Type) where
  name : String
  inn : String
  description : Option String := none
  required : Option Bool := none
  deprecated : Option Bool := none
  style : Option String := none
  explode : Option Bool := none
  schema : Option S := none
  content : GoMap (MediaType S) := []
deriving DecidableEq, Repr

/-- `ParameterOrRef` / `ParameterOrReference`: both pointers may be set or nil. `ToParameterOrRef`
(`/repo/openapi3/helper.go:14-18`, `/repo/openapi31/helper.go:14-18`) is `{ param := some p }`. -/
structure ParamOrRef (S : Type) where
  param : Option (Parameter S) := none
  ref : Option String := none
deriving DecidableEq, Repr

/-- `Header`. -/
structure Header (S : Type) where
  description : Option String := none
  deprecated : Option Bool := none
  required : Option Bool := none
  schema : Option S := none
deriving DecidableEq, Repr

/-- `HeaderOrRef` / `HeaderOrReference`. -/
structure HeaderOrRef (S : Type) where
  header : Option (Header S) := none
  ref : Option String := none
deriving DecidableEq, Repr

/-- `Response`. -/
structure Response (S : Type) where
  description : String := ""
  headers : GoMap (HeaderOrRef S) := []
  content : GoMap (MediaType S) := []
deriving DecidableEq, Repr

/-- `ResponseOrRef` / `ResponseOrReference`. -/
structure ResponseOrRef (S : Type) where
  response : Option (Response S) := none
  ref : Option String := none
deriving DecidableEq, Repr

/-- `Responses`. Simplification: in 3.1 `Operation.Responses` is a pointer; nil is modelled as the empty
value (`ResponsesEns` creates it on first use). -/
structure Responses (S : Type) where
  default : Option (ResponseOrRef S) := none
  codes : GoMap (ResponseOrRef S) := []
deriving DecidableEq, Repr

/-- `RequestBody`. -/
structure RequestBody (S : Type) where
  description : Option String := none
  content : GoMap (MediaType S) := []
deriving DecidableEq, Repr

/-- `RequestBodyOrRef` / `RequestBodyOrReference`. -/
structure RequestBodyOrRef (S : Type) where
  body : Option (RequestBody S) := none
  ref : Option String := none
deriving DecidableEq, Repr

/-- `Operation`. `ext` is `MapOfAnything`, restricted to boolean values: the only extension the modelled
code writes or reads is `x-forbid-unknown-*` (`/repo/openapi3/reflect.go:568`), which is boolean;
a non-boolean value behaves like an absent one there (`/repo/openapi3/helper.go:126`). -/
structure Operation (S : Type) where
  tags : List String := []
  summary : Option String := none
  description : Option String := none
  id : Option String := none
  parameters : List (ParamOrRef S) := []
  requestBody : Option (RequestBodyOrRef S) := none
  responses : Responses S := {}
  deprecated : Option Bool := none
  security : List (String × List String) := []
  ext : GoMap Bool := []
deriving DecidableEq, Repr

/-- `http.StatusNoContent` response added by `AddOperation`/`AddWebhook`.
`/repo/openapi3/helper.go:108-115`, `/repo/openapi31/helper.go:169-176,195-202`. -/
def ensureSomeResponse {S : Type} (op : Operation S) : Operation S :=
  if op.responses.codes.length = 0 ∧ op.responses.default = none then
    { op with responses := { op.responses with
        codes := op.responses.codes.set "204" { response := some { description := "No Content" } } } }
  else op

/-- The key of `paramIndex`: `p.Parameter.Name + string(p.Parameter.In)`. `/repo/openapi3/helper.go:37`. -/
def paramKey (name inn : String) : String := name ++ inn

/-- First loop of `validatePathParams`: state is the index (a set of keys) and the errors.
`/repo/openapi3/helper.go:28-50`, `/repo/openapi31/helper.go:115-137` (same text). -/
def validateLoop {S : Type} (pathParams : List String) :
    List (ParamOrRef S) → List String → List String → List String × List String
  | [], index, errs => (index, errs)
  | p :: ps, index, errs =>
    match p.param with
    | none => validateLoop pathParams ps index errs
    | some q =>
      if paramKey q.name q.inn ∈ index then
        validateLoop pathParams ps index (errs ++ ["duplicate parameter in " ++ q.inn ++ ": " ++ q.name])
      else if q.name ∉ pathParams ∧ q.inn = "path" then
        validateLoop pathParams ps index (errs ++ ["missing path parameter placeholder in url: " ++ q.name])
      else
        validateLoop pathParams ps (paramKey q.name q.inn :: index) errs

/-- All complaints of `validatePathParams`, in order. `pathParams` lists the keys of the Go map
`map[string]bool` in iteration order. `/repo/openapi3/helper.go:27-56`, `/repo/openapi31/helper.go:114-143`. -/
def validateErrs {S : Type} (ps : List (ParamOrRef S)) (pathParams : List String) : List String :=
  let (index, errs) := validateLoop pathParams ps [] []
  errs ++ (pathParams.filter (fun n => paramKey n "path" ∉ index)).map ("undefined path parameter: " ++ ·)

/-- `validatePathParams`. `/repo/openapi3/helper.go:58-62`, `/repo/openapi31/helper.go:145-149`. -/
def validatePathParams {S : Type} (ps : List (ParamOrRef S)) (pathParams : List String) : Option String :=
  let errs := validateErrs ps pathParams
  if errs.length > 0 then some (goJoin ", " errs) else none

/-- Keys of `map[string]bool` built from a list of names: every name once.
`/repo/openapi3/helper.go:81-84`, `/repo/openapi31/helper.go:96-99`. -/
def pathParamsMap (names : List String) : List String := names.eraseDups

/-- A setup function `func(*Operation) error`: the edited operation, and the error. -/
abbrev Setup (S : Type) := Operation S → Operation S × Option String

/-- The loop `for _, f := range setup`. `/repo/openapi3/helper.go:75-79`, `/repo/openapi31/helper.go:90-94`. -/
def runSetups {S : Type} : List (Setup S) → Operation S → Operation S × Option String
  | [], op => (op, none)
  | f :: fs, op =>
    match f op with
    | (op', some e) => (op', some e)
    | (op', none) => runSetups fs op'

/-- `UnknownParamIsForbidden`. `/repo/openapi3/helper.go:125-129`, `/repo/openapi31/helper.go:221-225`. -/
def unknownParamIsForbidden {S : Type} (op : Operation S) (inn : String) : Bool :=
  (op.ext.get? ("x-forbid-unknown-" ++ inn)).getD false

end Verif
