import Verif.JSchema

/-!
# Model of `/repo/openapi31/jsonschema.go`: resolving references in OpenAPI 3.1
-/

namespace Verif.V31

/-- `spec.Components.Schemas` seen through `SchemaOrBool.FromSimpleMap` of jsonschema-go, which decodes a
`map[string]interface{}`; the dependency is not modelled, so the decoded values are given. `none` is a
decoding error. `missing` says whether the nil map decodes (to the empty schema). -/
structure Schemas where
  decoded : GoMap (Option JS)
  missing : Bool

/-- The empty schema. -/
def emptyJS : JS := .obj {} none [] [] [] none [] [] none []

/-- `js.FromSimpleMap(ctx.spec.Components.Schemas[dstName])`. `/repo/openapi31/jsonschema.go:74-77`. -/
def Schemas.decode (m : Schemas) (n : String) : Option JS :=
  match m.decoded.get? n with
  | some j => j
  | none => if m.missing then some emptyJS else none

/-- A traversal that is run in a context. -/
abbrev Visit := Ctx → Except Stop Ctx

/-- `for _, x := range xs { findReferences(x, ctx) }`. `/repo/openapi31/jsonschema.go:95-105,112-114`. -/
def visitList : List Visit → Visit
  | [], c => .ok c
  | a :: as, c => do
    let c ← a c
    visitList as c

/-- The loop over the property map, in the given order of positions.
`/repo/openapi31/jsonschema.go:117-119`. -/
def visitOrder (acts : List Visit) : List Nat → Visit
  | [], c => .ok c
  | i :: is, c =>
    match acts[i]? with
    | none => visitOrder acts is c
    | some a => do
      let c ← a c
      visitOrder acts is c

mutual
/-- `findReferences`. `/repo/openapi31/jsonschema.go:60-124`. `follow` is what happens at a local reference
(lines 69-84). -/
def find (follow : Follow) (o : Order) : JS → Visit
  | .zero => fun c => .ok c
  | .bool _ => fun c => .ok c
  | .obj flat not allOf oneOf anyOf items itemsArr props addl _ =>
    match flat.ref with
    | some r =>
      match localRef? r with
      | some n => fun c => follow n c
      | none => fun c => .ok c
    | none =>
      let notA := findOpt follow o not
      let allOfA := findList follow o allOf
      let oneOfA := findList follow o oneOf
      let anyOfA := findList follow o anyOf
      let itemsA := findOpt follow o items
      let itemsArrA := findList follow o itemsArr
      let propsA := findProps follow o props
      let addlA := findOpt follow o addl
      fun c => do
        let c ← visitList notA c
        let c ← visitList allOfA c
        let c ← visitList oneOfA c
        let c ← visitList anyOfA c
        let c ← visitList itemsA c
        let c ← visitList itemsArrA c
        let c ← visitOrder propsA (o.ord c.clock props.length) { c with clock := c.clock + 1 }
        visitList addlA c
/-- A pointer: visited if not nil. `/repo/openapi31/jsonschema.go:91-93,107-110,121-123`. -/
def findOpt (follow : Follow) (o : Order) : Option JS → List Visit
  | none => []
  | some j => [find follow o j]
/-- The visits of a slice. `/repo/openapi31/jsonschema.go:95-105,112-114`. -/
def findList (follow : Follow) (o : Order) : List JS → List Visit
  | [] => []
  | j :: js => find follow o j :: findList follow o js
/-- The visits of a map. `/repo/openapi31/jsonschema.go:117-119`. -/
def findProps (follow : Follow) (o : Order) : List (String × JS) → List Visit
  | [] => []
  | (_, j) :: js => find follow o j :: findProps follow o js
end

/-- Following a local reference, with a bound for the recursion. `/repo/openapi31/jsonschema.go:69-84`.
`none` for the schemas: `spec.Components` is nil. -/
def follow (comps : Option Schemas) (o : Order) : Nat → Follow
  | 0, _, _ => .error .fuel
  | k + 1, n, c =>
    match c.processed.get? n with
    | some _ => .ok (c.inc n)
    | none =>
      let c := { c with processed := c.processed.set n .zero }
      match comps with
      | none => .error .panic
      | some m =>
        match m.decode n with
        | none => .error .panic
        | some js => do
          let c := { c with processed := c.processed.set n js }
          let c ← find (follow comps o k) o js c
          .ok (c.inc n)

/-- `js.TypeObjectEns().Ref`. `/repo/openapi31/jsonschema.go:42-43`. -/
def rootRef : JS → Option String
  | .obj flat _ _ _ _ _ _ _ _ _ => flat.ref
  | _ => none

/-- `ToJSONSchema`. `/repo/openapi31/jsonschema.go:26-58`. `root` is the decoded schema; `none` if decoding
fails. -/
def toJSONSchema (comps : Option Schemas) (o : Order) (fuel : Nat) (root : Option JS) : Except Stop Resolved :=
  match root with
  | none => .error .panic
  | some js => do
    let c ← find (follow comps o fuel) o js {}
    .ok (finish (rootRef js) js c)

end Verif.V31
