import Verif.Entities

/-!
# Model of `/repo/openapi3/helper.go`: OpenAPI 3.0 documents and operations
-/

namespace Verif.V30

/-- `PathItem` (`/repo/openapi3/entities.go`): operations are in a map keyed by method. The other fields
are carried along unchanged by the modelled code. -/
structure PathItem (S : Type) where
  summary : Option String := none
  parameters : List (ParamOrRef S) := []
  ops : GoMap (Operation S) := []
deriving DecidableEq, Repr

/-- A security scheme as set by the helpers (`/repo/openapi3/helper.go:168-212`). -/
inductive SecScheme where
  | basic (description : String)
  | apiKey (name inn description : String)
  | bearer (format : Option String) (description : String)
deriving DecidableEq, Repr

/-- `Spec` (`/repo/openapi3/entities.go`), with the parts that helper.go and reflect.go use. -/
structure Spec (S : Type) where
  openapi : String := "3.0.3"
  title : String := ""
  description : Option String := none
  version : String := ""
  paths : GoMap (PathItem S) := []
  schemas : GoMap S := []
  security : GoMap SecScheme := []
deriving DecidableEq, Repr

variable {S : Type}

/-- `s.Paths.MapOfPathItemValues[path]`, a zero value if absent. `/repo/openapi3/helper.go:72,102`. -/
def Spec.pathItem (s : Spec S) (path : String) : PathItem S := (s.paths.get? path).getD {}

/-- `Spec.SetupOperation`. `/repo/openapi3/helper.go:66-95`. The operation is copied out of the map, so a
failing call leaves the document as it was. Simplification: maps, slices and pointees shared by the copy
are treated as copied; `Mem.lean` models the sharing. -/
def Spec.setupOperation (s : Spec S) (method path : String) (setup : List (Setup S)) :
    Spec S × Option String :=
  match sanitizeMethodPath method path with
  | .error e => (s, some e)
  | .ok r =>
    let pathItem := s.pathItem r.path
    let operation := (pathItem.ops.get? r.method).getD {}
    match runSetups setup operation with
    | (_, some e) => (s, some e)
    | (operation, none) =>
      match validatePathParams operation.parameters (pathParamsMap r.params) with
      | some e => (s, some e)
      | none =>
        let pathItem := { pathItem with ops := pathItem.ops.set r.method operation }
        ({ s with paths := s.paths.set r.path pathItem }, none)

/-- `Spec.AddOperation`. `/repo/openapi3/helper.go:100-122`. -/
def Spec.addOperation (s : Spec S) (method path : String) (operation : Operation S) :
    Spec S × Option String :=
  let method := goToLower method
  let pathItem := s.pathItem path
  if (pathItem.ops.get? method).isSome then
    (s, some ("operation already exists: " ++ method ++ " " ++ path))
  else
    let operation := ensureSomeResponse operation
    s.setupOperation method path [fun _ => (operation, none)]

/-- The operation stored at a path and method. Observation used by the properties; the map lookups of
`/repo/openapi3/helper.go:72-73`. -/
def Spec.op? (s : Spec S) (path method : String) : Option (Operation S) :=
  (s.pathItem path).ops.get? method

/-- `SetHTTPBasicSecurity`. `/repo/openapi3/helper.go:168-177`. -/
def Spec.setHTTPBasicSecurity (s : Spec S) (name description : String) : Spec S :=
  { s with security := s.security.set name (.basic description) }

/-- `SetAPIKeySecurity`. `/repo/openapi3/helper.go:180-192`. -/
def Spec.setAPIKeySecurity (s : Spec S) (name fieldName fieldIn description : String) : Spec S :=
  { s with security := s.security.set name (.apiKey fieldName fieldIn description) }

/-- `SetHTTPBearerTokenSecurity`. `/repo/openapi3/helper.go:195-212`. -/
def Spec.setHTTPBearerTokenSecurity (s : Spec S) (name format description : String) : Spec S :=
  let fmt := if format ≠ "" then some format else none
  { s with security := s.security.set name (.bearer fmt description) }

/-- `Title`. `/repo/openapi3/helper.go:134-136`. -/
def Spec.getTitle (s : Spec S) : String := s.title
/-- `SetTitle`. `/repo/openapi3/helper.go:139-141`. -/
def Spec.setTitle (s : Spec S) (t : String) : Spec S := { s with title := t }
/-- `Description`. `/repo/openapi3/helper.go:144-150`. -/
def Spec.getDescription (s : Spec S) : String := match s.description with | some d => d | none => ""
/-- `SetDescription`. `/repo/openapi3/helper.go:153-155`. -/
def Spec.setDescription (s : Spec S) (d : String) : Spec S := { s with description := some d }
/-- `Version`. `/repo/openapi3/helper.go:158-160`. -/
def Spec.getVersion (s : Spec S) : String := s.version
/-- `SetVersion`. `/repo/openapi3/helper.go:163-165`. -/
def Spec.setVersion (s : Spec S) (v : String) : Spec S := { s with version := v }

/-- `ResponseOrRef.SetReference`. `/repo/openapi3/helper.go:215-218`, `/repo/openapi31/helper.go:309-312`. -/
def _root_.Verif.ResponseOrRef.setReference {S : Type} (r : ResponseOrRef S) (ref : String) : ResponseOrRef S :=
  { r with ref := some ref, response := none }

/-- `RequestBodyOrRef.SetReference`. `/repo/openapi3/helper.go:221-224`, `/repo/openapi31/helper.go:315-318`. -/
def _root_.Verif.RequestBodyOrRef.setReference {S : Type} (r : RequestBodyOrRef S) (ref : String) :
    RequestBodyOrRef S :=
  { r with ref := some ref, body := none }

end Verif.V30
