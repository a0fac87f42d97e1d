import Verif.Entities
import Verif.Spec30

/-!
# Model of `/repo/openapi31/helper.go`: OpenAPI 3.1 documents, operations and webhooks
-/

namespace Verif.V31

/-- `PathItem` (`/repo/openapi31/entities.go`): one pointer per method. -/
structure PathItem (S : Type) where
  summary : Option String := none
  parameters : List (ParamOrRef S) := []
  get : Option (Operation S) := none
  put : Option (Operation S) := none
  post : Option (Operation S) := none
  delete : Option (Operation S) := none
  options : Option (Operation S) := none
  head : Option (Operation S) := none
  patch : Option (Operation S) := none
  trace : Option (Operation S) := none
deriving DecidableEq, Repr

variable {S : Type}

/-- `PathItem.Operation`. `/repo/openapi31/helper.go:21-42`. -/
def PathItem.operation (p : PathItem S) (method : String) : Except String (Option (Operation S)) :=
  let u := goToUpper method
  if u = "GET" then .ok p.get
  else if u = "PUT" then .ok p.put
  else if u = "POST" then .ok p.post
  else if u = "DELETE" then .ok p.delete
  else if u = "OPTIONS" then .ok p.options
  else if u = "HEAD" then .ok p.head
  else if u = "PATCH" then .ok p.patch
  else if u = "TRACE" then .ok p.trace
  else .error ("unexpected http method: " ++ method)

/-- `PathItem.SetOperation`. `/repo/openapi31/helper.go:45-70`. -/
def PathItem.setOperation (p : PathItem S) (method : String) (op : Operation S) :
    Except String (PathItem S) :=
  let u := goToUpper method
  if u = "GET" then .ok { p with get := some op }
  else if u = "PUT" then .ok { p with put := some op }
  else if u = "POST" then .ok { p with post := some op }
  else if u = "DELETE" then .ok { p with delete := some op }
  else if u = "OPTIONS" then .ok { p with options := some op }
  else if u = "HEAD" then .ok { p with head := some op }
  else if u = "PATCH" then .ok { p with patch := some op }
  else if u = "TRACE" then .ok { p with trace := some op }
  else .error ("unexpected http method: " ++ u)

/-- A security scheme as set by the helpers (`/repo/openapi31/helper.go:264-306`). -/
inductive SecScheme where
  | basic (description : String)
  | apiKey (name inn description : String)
  | bearer (format : Option String) (description : String)
deriving DecidableEq, Repr

/-- `Spec` (`/repo/openapi31/entities.go`), with the parts that helper.go and reflect.go use. `paths` is a
pointer: `none` is nil. -/
structure Spec (S : Type) where
  openapi : String := "3.1.0"
  title : String := ""
  description : Option String := none
  version : String := ""
  paths : Option (GoMap (PathItem S)) := none
  /-- Inline path items only; `PathItemOrReference` (`/repo/openapi31/helper.go:321-325`) is the identity here. -/
  webhooks : GoMap (PathItem S) := []
  schemas : GoMap S := []
  security : GoMap SecScheme := []
deriving DecidableEq, Repr

/-- `s.PathsEns()` (`/repo/openapi31/entities.go`). -/
def Spec.pathsEns (s : Spec S) : Spec S := { s with paths := some (s.paths.getD []) }

/-- `s.PathsEns().MapOfPathItemValues[path]`. `/repo/openapi31/helper.go:79,158`. -/
def Spec.pathItem (s : Spec S) (path : String) : PathItem S := ((s.paths.getD []).get? path).getD {}

/-- Write through the pointer held by the path item at `path`: the edit is visible in the document
without storing the path item. Used only when the pointer is not nil. `/repo/openapi31/helper.go:81-94`. -/
def Spec.editInPlace (s : Spec S) (path method : String) (op : Operation S) : Spec S :=
  match (s.pathItem path).setOperation method op with
  | .ok pi => { s with paths := some ((s.paths.getD []).set path pi) }
  | .error _ => s

/-- `Spec.SetupOperation`. `/repo/openapi31/helper.go:73-112`. If the operation exists, `operation` is the
stored pointer, so the setup functions edit the document even if the call fails later. -/
def Spec.setupOperation (s : Spec S) (method path : String) (setup : List (Setup S)) :
    Spec S × Option String :=
  match sanitizeMethodPath method path with
  | .error e => (s, some e)
  | .ok r =>
    let s := s.pathsEns
    let pathItem := s.pathItem r.path
    match pathItem.operation r.method with
    | .error e => (s, some e)
    | .ok existing =>
      let (operation, err) := runSetups setup (existing.getD {})
      let s' := if existing.isSome then s.editInPlace r.path r.method operation else s
      match err with
      | some e => (s', some e)
      | none =>
        match validatePathParams operation.parameters (pathParamsMap r.params) with
        | some e => (s', some e)
        | none =>
          match pathItem.setOperation r.method operation with
          | .error e => (s', some e)
          | .ok pathItem => ({ s' with paths := some ((s'.paths.getD []).set r.path pathItem) }, none)

/-- `Spec.AddOperation`. `/repo/openapi31/helper.go:155-183`. -/
def Spec.addOperation (s : Spec S) (method path : String) (operation : Operation S) :
    Spec S × Option String :=
  let method := goToLower method
  let s := s.pathsEns
  match (s.pathItem path).operation method with
  | .error e => (s, some e)
  | .ok (some _) => (s, some ("operation already exists: " ++ method ++ " " ++ path))
  | .ok none =>
    let operation := ensureSomeResponse operation
    s.setupOperation method path [fun _ => (operation, none)]

/-- `Spec.AddWebhook`. `/repo/openapi31/helper.go:188-218`. -/
def Spec.addWebhook (s : Spec S) (method name : String) (operation : Operation S) :
    Spec S × Option String :=
  if (s.webhooks.get? name).isSome then (s, some ("duplicate webhook name: " ++ name))
  else
    let method := goToLower method
    let operation := ensureSomeResponse operation
    match sanitizeMethodPath method "/" with
    | .error e => (s, some e)
    | .ok r =>
      match ({} : PathItem S).setOperation r.method operation with
      | .error e => (s, some e)
      | .ok pi => ({ s with webhooks := s.webhooks.set name pi }, none)

/-- The operation stored at a path and method (lower case). Observation used by the properties; the
lookups of `/repo/openapi31/helper.go:158-160`. -/
def Spec.op? (s : Spec S) (path method : String) : Option (Operation S) :=
  match (s.pathItem path).operation method with
  | .ok o => o
  | .error _ => none

/-- `Title`. `/repo/openapi31/helper.go:230-232`. -/
def Spec.getTitle (s : Spec S) : String := s.title
/-- `SetTitle`. `/repo/openapi31/helper.go:235-237`. -/
def Spec.setTitle (s : Spec S) (t : String) : Spec S := { s with title := t }
/-- `Description`. `/repo/openapi31/helper.go:240-246`. -/
def Spec.getDescription (s : Spec S) : String := match s.description with | some d => d | none => ""
/-- `SetDescription`. `/repo/openapi31/helper.go:249-251`. -/
def Spec.setDescription (s : Spec S) (d : String) : Spec S := { s with description := some d }
/-- `Version`. `/repo/openapi31/helper.go:254-256`. -/
def Spec.getVersion (s : Spec S) : String := s.version
/-- `SetVersion`. `/repo/openapi31/helper.go:259-261`. -/
def Spec.setVersion (s : Spec S) (v : String) : Spec S := { s with version := v }

/-- `SetHTTPBasicSecurity`. `/repo/openapi31/helper.go:264-273`. -/
def Spec.setHTTPBasicSecurity (s : Spec S) (name description : String) : Spec S :=
  { s with security := s.security.set name (.basic description) }

/-- `SetAPIKeySecurity`. `/repo/openapi31/helper.go:276-287`. -/
def Spec.setAPIKeySecurity (s : Spec S) (name fieldName fieldIn description : String) : Spec S :=
  { s with security := s.security.set name (.apiKey fieldName fieldIn description) }

/-- `SetHTTPBearerTokenSecurity`. `/repo/openapi31/helper.go:290-306`. -/
def Spec.setHTTPBearerTokenSecurity (s : Spec S) (name format description : String) : Spec S :=
  let fmt := if format ≠ "" then some format else none
  { s with security := s.security.set name (.bearer fmt description) }

end Verif.V31
