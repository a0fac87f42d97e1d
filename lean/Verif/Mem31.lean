import Verif.Mem

/-!
# Storing operations in Go memory (OpenAPI 3.1)

`Spec31.lean` treats Go values as trees. Here `Spec.SetupOperation`, `Spec.AddOperation` and `Spec.AddWebhook`
(`/repo/openapi31/helper.go:73-218`) are modelled on the memory of `Mem.lean`, with the same simplifications. Other than
in 3.0, the paths of a document, the operations of a path item and the responses of an operation are pointers.
-/

namespace Verif.Mem31

open Verif.Mem

/-- The field of `PathItem` for a method, which the `switch` of `Operation` and `SetOperation` selects.
`/repo/openapi31/helper.go:21-70`. -/
def methodField (method : String) : Option String :=
  let u := goToUpper method
  if u = "GET" then some "Get"
  else if u = "PUT" then some "Put"
  else if u = "POST" then some "Post"
  else if u = "DELETE" then some "Delete"
  else if u = "OPTIONS" then some "Options"
  else if u = "HEAD" then some "Head"
  else if u = "PATCH" then some "Patch"
  else if u = "TRACE" then some "Trace"
  else none

/-- `s.PathsEns()` for the document at address `s`: the memory afterwards and the address of the paths.
`/repo/openapi31/entities.go:64-70`. -/
def pathsEns (m : Memory) (s : Nat) : Memory × Nat :=
  match (deref m s).field "Paths" with
  | .ref p => (m, p)
  | _ => ((m ++ [Obj.cell (.struct [])]).set s (.cell ((deref m s).setField "Paths" (.ref m.length))), m.length)

/-- `s.PathsEns().WithMapOfPathItemValuesItem(path, pathItem)`. `/repo/openapi31/helper.go:109`. -/
def storeItem (m : Memory) (s : Nat) (path : String) (item : MVal) : Memory :=
  let (m, p) := pathsEns m s
  let (m, g) := setItem m ((deref m p).field "MapOfPathItemValues") path item
  m.set p (.cell ((deref m p).setField "MapOfPathItemValues" g))

/-- `operation, err := pathItem.Operation(method)`, and `&Operation{}` if it is nil.
`/repo/openapi31/helper.go:81-88`. -/
def existingOrNew (m : Memory) (f : MVal) : Memory × Nat :=
  match f with
  | .ref a => (m, a)
  | _ => (m ++ [.cell (.struct [])], m.length)

/-- `Spec.SetupOperation` for the document at address `s`. `/repo/openapi31/helper.go:73-112`. `pathItem` is a copy, the
operation is the stored one. -/
def setupOperation (m : Memory) (s : Nat) (method path : String) (setup : List MSetup) : Memory × Option String :=
  match sanitizeMethodPath method path with
  | .error e => (m, some e)
  | .ok r =>
    let (m, p) := pathsEns m s
    let pathItem := (GoMap.get? (entries m ((deref m p).field "MapOfPathItemValues")) r.path).getD (.struct [])
    match methodField r.method with
    | none => (m, some ("unexpected http method: " ++ r.method))
    | some F =>
      let (m, a) := existingOrNew m (pathItem.field F)
      match runAll setup m a with
      | (m, some e) => (m, some e)
      | (m, none) =>
        match validatePathParams (paramsOf m (deref m a)) (pathParamsMap r.params) with
        | some e => (m, some e)
        | none => (storeItem m s r.path (pathItem.setField F (.ref a)), none)

/-- `operation.ResponsesEns()`: the memory, the operation (a copy) and the address of the responses.
`/repo/openapi31/entities.go:2345-2351`. -/
def responsesEns (m : Memory) (operation : MVal) : Memory × MVal × Nat :=
  match operation.field "Responses" with
  | .ref r => (m, operation, r)
  | _ => (m ++ [.cell (.struct [])], operation.setField "Responses" (.ref m.length), m.length)

/-- Adds a response `204` to the responses at `r` if there is none. `/repo/openapi31/helper.go:169-175,196-202`. -/
def noContent (m : Memory) (r : Nat) : Memory :=
  let codes := (deref m r).field "MapOfResponseOrReferenceValues"
  match (entries m codes).length, (deref m r).field "Default" with
  | 0, .nil =>
    let (m', f) := setItem (m ++ [.cell (.struct [("Description", .lit (.str "No Content"))])]) codes "204"
      (.struct [("Response", .ref m.length)])
    m'.set r (.cell ((deref m' r).setField "MapOfResponseOrReferenceValues" f))
  | _, _ => m

/-- The operation `AddOperation` and `AddWebhook` store: with a response `204` if it has none. The responses are written
in place. `/repo/openapi31/helper.go:169-175,196-202`. -/
def ensureResponse (m : Memory) (operation : MVal) : Memory × MVal :=
  let (m, operation, r) := responsesEns m operation
  (noContent m r, operation)

/-- `Spec.AddOperation` for the document at address `s`. `/repo/openapi31/helper.go:155-183`. -/
def addOperation (m : Memory) (s : Nat) (method path : String) (operation : MVal) : Memory × Option String :=
  let method := goToLower method
  let (m, p) := pathsEns m s
  let pathItem := (GoMap.get? (entries m ((deref m p).field "MapOfPathItemValues")) path).getD (.struct [])
  match methodField method with
  | none => (m, some ("unexpected http method: " ++ method))
  | some F =>
    match pathItem.field F with
    | .ref _ => (m, some ("operation already exists: " ++ method ++ " " ++ path))
    | _ =>
      let (m, operation) := ensureResponse m operation
      setupOperation m s method path [fun m a => (m.set a (.cell operation), none)]

/-- `Spec.AddWebhook` for the document at address `s`. `/repo/openapi31/helper.go:188-218`. `operation` and `pathItem`
are variables that are pointed to afterwards. -/
def addWebhook (m : Memory) (s : Nat) (method name : String) (operation : MVal) : Memory × Option String :=
  match GoMap.get? (entries m ((deref m s).field "Webhooks")) name with
  | some _ => (m, some ("duplicate webhook name: " ++ name))
  | none =>
    let method := goToLower method
    let (m, operation) := ensureResponse m operation
    match sanitizeMethodPath method "/" with
    | .error e => (m, some e)
    | .ok r =>
      match methodField r.method with
      | none => (m, some ("unexpected http method: " ++ goToUpper r.method))
      | some F =>
        let a := m.length
        let m := m ++ [.cell operation]
        let i := m.length
        let m := m ++ [.cell (.struct [(F, .ref a)])]
        let (m, g) := setItem m ((deref m s).field "Webhooks") name (.struct [("PathItem", .ref i)])
        (m.set s (.cell ((deref m s).setField "Webhooks" g)), none)

/-- `Reflector.AddOperation` with a context whose operation is at address `a`. `/repo/openapi31/reflect.go:214-221,233-252`.
`reflect` stands for `setupRequest`, `validatePathParams` and `setupResponse`, which get `c.op`; what they do to an
operation is modelled in `Verif.Reflect`. Contexts are made by `newContext` (`Verif.Mem`), as in 3.0:
`/repo/openapi31/reflect.go:50-80`. -/
def reflectorAdd (m : Memory) (s a : Nat) (method path : String) (reflect : MSetup) : Memory × Option String :=
  match reflect m a with
  | (m, some e) => (m, some e)
  | (m, none) => addOperation m s method path (deref m a)

/-- `Reflector.AddWebhook` with a context whose operation is at address `a`. `/repo/openapi31/reflect.go:224-252`. -/
def reflectorHook (m : Memory) (s a : Nat) (method name : String) (reflect : MSetup) : Memory × Option String :=
  match reflect m a with
  | (m, some e) => (m, some e)
  | (m, none) => addWebhook m s method name (deref m a)

end Verif.Mem31
