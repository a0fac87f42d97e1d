import Verif.Entities
import Verif.Codec.Basic

/-!
# Storing operations in Go memory (OpenAPI 3.0)

`Spec30.lean` treats Go values as trees. Here `Spec.SetupOperation` and `Spec.AddOperation`
(`/repo/openapi3/helper.go:66-122`) are modelled with the memory they work on, so that what is shared between the
caller, the stored operations and the local copies is visible: maps, pointers and slices refer to objects, structs
are copied by assignment.

Simplifications:
* A local variable is an object only if its address is taken (`operation`, whose address is given to the setup
  functions). Other local variables are Lean variables.
* Memory is never reclaimed: an address stays what it is.
* Absent fields of a struct count as zero, so the zero value of every struct type is `struct []`.
-/

namespace Verif.Mem

/-- A Go value as it is held by a variable, a field or an element. -/
inductive MVal where
  /-- nil pointer, map, slice or interface -/
  | nil
  /-- a value without references: string, number, boolean -/
  | lit (v : Codec.Val)
  /-- a pointer or a map -/
  | ref (a : Nat)
  /-- a slice: array, offset and length -/
  | slice (a off len : Nat)
  /-- a struct -/
  | struct (fs : List (String × MVal))

/-- An object: a variable that something points to, a map, or the array behind slices. -/
inductive Obj where
  | cell (v : MVal)
  | map (es : List (String × MVal))
  | arr (vs : List MVal)

/-- Memory: address `a` is the `a`-th object; new objects come last. -/
abbrev Memory := List Obj

/-- `x.F` -/
def MVal.field (v : MVal) (go : String) : MVal :=
  match v with
  | .struct fs => (GoMap.get? fs go).getD .nil
  | _ => .nil

/-- `x.F` for a field whose type is a struct. -/
def MVal.inner (v : MVal) (go : String) : MVal :=
  match v.field go with
  | .struct fs => .struct fs
  | _ => .struct []

/-- `x.F = w` -/
def MVal.setField (v : MVal) (go : String) (w : MVal) : MVal :=
  match v with
  | .struct fs => .struct (GoMap.set fs go w)
  | v => v

/-- `*p` for the object at an address. -/
def deref (m : Memory) (a : Nat) : MVal :=
  match m[a]? with
  | some (.cell v) => v
  | _ => .nil

/-- The entries of a map, none if it is nil. -/
def entries (m : Memory) (v : MVal) : GoMap MVal :=
  match v with
  | .ref a =>
    match m[a]? with
    | some (.map es) => es
    | _ => []
  | _ => []

/-- The elements of a slice, none if it is nil. -/
def elems (m : Memory) (v : MVal) : List MVal :=
  match v with
  | .slice a off len =>
    match m[a]? with
    | some (.arr vs) => (vs.drop off).take len
    | _ => []
  | _ => []

/-- `if x.F == nil { x.F = make(map[string]T, 1) }; x.F[key] = val`: the memory afterwards and the new value of
`x.F`. `/repo/openapi3/entities.go:1189-1197,4432-4440,5609-5617`. -/
def setItem (m : Memory) (f : MVal) (key : String) (val : MVal) : Memory × MVal :=
  match f with
  | .ref a => (m.set a (.map (GoMap.set (entries m (.ref a)) key val)), .ref a)
  | _ => (m ++ [.map (GoMap.set [] key val)], .ref m.length)

/-- A string field. -/
def MVal.text (v : MVal) : String :=
  match v with
  | .lit (.str s) => s
  | _ => ""

/-- `o.Parameters` as `validatePathParams` reads it: whether `p.Parameter` is nil, its name and location.
`/repo/openapi3/helper.go:32-48`. -/
def paramsOf (m : Memory) (op : MVal) : List (ParamOrRef Unit) :=
  (elems m (op.field "Parameters")).map fun p =>
    match p.field "Parameter" with
    | .ref a => { param := some { name := ((deref m a).field "Name").text, inn := ((deref m a).field "In").text } }
    | _ => {}

/-- A setup function `func(*Operation) error`: it gets the memory and the address of the operation. -/
abbrev MSetup := Memory → Nat → Memory × Option String

/-- The loop `for _, f := range setup`. `/repo/openapi3/helper.go:75-79`. -/
def runAll : List MSetup → Memory → Nat → Memory × Option String
  | [], m, _ => (m, none)
  | f :: fs, m, a =>
    match f m a with
    | (m', some e) => (m', some e)
    | (m', none) => runAll fs m' a

/-- `s.Paths.MapOfPathItemValues` -/
def pathsRef (m : Memory) (s : Nat) : MVal := ((deref m s).inner "Paths").field "MapOfPathItemValues"

/-- `pathItem.MapOfOperationValues` -/
def opsRef (item : MVal) : MVal := item.field "MapOfOperationValues"

/-- `s.Paths.WithMapOfPathItemValuesItem(path, pathItem)` for the document at address `s`.
`/repo/openapi3/entities.go:5609-5617`. -/
def storeItem (m : Memory) (s : Nat) (path : String) (item : MVal) : Memory :=
  let (m, g) := setItem m (pathsRef m s) path item
  let spec := deref m s
  m.set s (.cell (spec.setField "Paths" ((spec.inner "Paths").setField "MapOfPathItemValues" g)))

/-- `Spec.SetupOperation` for the document at address `s`. `/repo/openapi3/helper.go:66-95`. `pathItem` and
`operation` are copies; what they refer to is not copied. -/
def setupOperation (m : Memory) (s : Nat) (method path : String) (setup : List MSetup) : Memory × Option String :=
  match sanitizeMethodPath method path with
  | .error e => (m, some e)
  | .ok r =>
    let pathItem := (GoMap.get? (entries m (pathsRef m s)) r.path).getD (.struct [])
    let operation := (GoMap.get? (entries m (opsRef pathItem)) r.method).getD (.struct [])
    let a := m.length
    match runAll setup (m ++ [.cell operation]) a with
    | (m, some e) => (m, some e)
    | (m, none) =>
      match validatePathParams (paramsOf m (deref m a)) (pathParamsMap r.params) with
      | some e => (m, some e)
      | none =>
        let (m, f) := setItem m (opsRef pathItem) r.method (deref m a)
        (storeItem m s r.path (pathItem.setField "MapOfOperationValues" f), none)

/-- The operation `AddOperation` stores: with a response `204` if it has none. The map of responses is written in
place unless it is nil. `/repo/openapi3/helper.go:108-115`. -/
def ensureResponse (m : Memory) (operation : MVal) : Memory × MVal :=
  let responses := operation.inner "Responses"
  let codes := responses.field "MapOfResponseOrRefValues"
  match (entries m codes).length, responses.field "Default" with
  | 0, .nil =>
    let (m', f) := setItem (m ++ [.cell (.struct [("Description", .lit (.str "No Content"))])]) codes "204"
      (.struct [("Response", .ref m.length)])
    (m', operation.setField "Responses" (responses.setField "MapOfResponseOrRefValues" f))
  | _, _ => (m, operation)

/-- `Spec.AddOperation` for the document at address `s`. `/repo/openapi3/helper.go:100-122`. -/
def addOperation (m : Memory) (s : Nat) (method path : String) (operation : MVal) : Memory × Option String :=
  let method := goToLower method
  let pathItem := (GoMap.get? (entries m (pathsRef m s)) path).getD (.struct [])
  match GoMap.get? (entries m (opsRef pathItem)) method with
  | some _ => (m, some ("operation already exists: " ++ method ++ " " ++ path))
  | none =>
    let (m, operation) := ensureResponse m operation
    setupOperation m s method path [fun m a => (m.set a (.cell operation), none)]

/-- `NewOperationContext`: the context has a new, empty operation. `/repo/openapi3/reflect.go:51-77`; the cases in
which no context is made are not modelled here. -/
def newContext (m : Memory) : Memory × Nat := (m ++ [.cell (.struct [])], m.length)

/-- `Reflector.AddOperation` with a context whose operation is at address `a`. `/repo/openapi3/reflect.go:267-286`.
`reflect` stands for `setupRequest`, `validatePathParams` and `setupResponse`, which get `c.op`; what they do to an
operation is modelled in `Verif.Reflect`. -/
def reflectorAdd (m : Memory) (s a : Nat) (method path : String) (reflect : MSetup) : Memory × Option String :=
  match reflect m a with
  | (m, some e) => (m, some e)
  | (m, none) => addOperation m s method path (deref m a)

end Verif.Mem
