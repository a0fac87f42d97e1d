import Verif.Codec.Basic

/-!
# Builder methods

The entities have generated methods that fill their fields in: `WithTitle(val)`, `WithPropertiesItem(key, val)`,
`ComponentsEns()`. All methods of `/repo/openapi3/entities.go` and `/repo/openapi31/entities.go` besides
`MarshalJSON` and `UnmarshalJSON` have one of four bodies. `Builder` describes a method, `Call.run` is its
effect; the methods themselves are listed in `Builders30.lean` and `Builders31.lean`.

Simplifications:
* A method works on the struct its receiver points to and returns the receiver. Here it is a function from
  the struct before the call to the struct after it, so a chain of calls is a sequence of such steps.
* Go values are trees (`Val`). That a map passed to `WithX` is shared with the caller is not modelled here.
-/

namespace Verif.Codec

/-- The bodies of builder methods. -/
inductive BuildKind where
  /-- `x.F = val; return x` (e.g. `/repo/openapi3/entities.go:32-35`) -/
  | set
  /-- `x.F = &val; return x` (e.g. `/repo/openapi3/entities.go:83-86`) -/
  | setPtr
  /-- `if x.F == nil { x.F = make(map[string]T, 1) }; x.F[key] = val; return x`
  (e.g. `/repo/openapi3/entities.go:104-112`) -/
  | item
  /-- `if x.F == nil { x.F = new(T) }; return x.F` (e.g. `/repo/openapi3/entities.go:89-95`) -/
  | ens
deriving DecidableEq, Repr

/-- A builder method: the type it belongs to, its name, its body, the field the body is about, and the type `T` of
`val` or of the value that is made. -/
structure Builder where
  recv : String
  name : String
  kind : BuildKind
  field : String
  arg : Ty
deriving DecidableEq, Repr

/-- `x.F`. -/
def Val.field (v : Val) (go : String) : Val :=
  match v with
  | .struct fs => (GoMap.get? fs go).getD .nil
  | _ => .nil

/-- `x.F = w`. -/
def Val.setField (v : Val) (go : String) (w : Val) : Val :=
  match v with
  | .struct fs => .struct (GoMap.set fs go w)
  | v => v

/-- The entries of a map, none if it is nil. -/
def Val.items : Val → GoMap Val
  | .map es => es
  | _ => []

/-- The fields of a struct type with their types. -/
def Struct.members (s : Struct) : List (String × Ty) :=
  s.fields.map (fun f => (f.go, f.ty)) ++ s.hidden.map (fun h => (h.go, h.ty))

/-- `new(T)`: the zero value of a type, with the zero values of all fields. Structs can only be nested finitely
often in Go; the first argument bounds the nesting. -/
def zeroVal (T : Table) : Nat → Ty → Val
  | r, .named n =>
    match GoMap.get? T n with
    | some (.struct s) =>
      match r with
      | 0 => .struct []
      | r + 1 => .struct (s.members.map (fun m => (m.1, zeroVal T r m.2)))
    | _ => .str ""
  | _, .any => .any .null
  | _, .bool => .bool false
  | _, .str => .str ""
  | _, .int => .num "0"
  | _, .float => .num "0"
  | _, .ptr _ => .nil
  | _, .slice _ => .nil
  | _, .map _ => .nil

/-- `new(T)`; the bound is enough (`fresh_of30`, `fresh_of31`). -/
def fresh (T : Table) (ty : Ty) : Val := zeroVal T 8 ty

/-- The value of the field after `if x.F == nil { x.F = new(T) }`. -/
def ensured (T : Table) (ty : Ty) (old : Val) : Val :=
  match old with
  | .nil => fresh T ty
  | old => old

/-- A call of a builder method; the key is only used by `WithXItem`. -/
structure Call where
  m : Builder
  key : String := ""
  val : Val := .nil

/-- What a call does to the struct of its receiver. -/
def Call.run (T : Table) (c : Call) (v : Val) : Val :=
  match c.m.kind with
  | .set => v.setField c.m.field c.val
  | .setPtr => v.setField c.m.field c.val
  | .item => v.setField c.m.field (.map (GoMap.set (v.field c.m.field).items c.key c.val))
  | .ens => v.setField c.m.field (ensured T c.m.arg (v.field c.m.field))

/-- `x.WithA(…).WithB(…)…` -/
def runCalls (T : Table) (cs : List Call) (v : Val) : Val := cs.foldl (fun v c => c.run T v) v

/-- `x.AEns().BEns()` followed by calls on what it returns. The returned pointer is the one in the field, so the
field holds the edited struct afterwards. -/
def runInside (T : Table) : List Builder → (Val → Val) → Val → Val
  | [], f, v => f v
  | b :: path, f, v => v.setField b.field (runInside T path f (ensured T b.arg (v.field b.field)))

/-- `PathItem.WithOperation` (`/repo/openapi3/helper.go:23-25`), which calls
`PathItem.WithMapOfOperationValuesItem` (`/repo/openapi3/entities.go:1189-1197`). -/
def V30.withOperation (T : Table) (method : String) (operation : Val) (v : Val) : Val :=
  Call.run T ⟨⟨"PathItem", "WithMapOfOperationValuesItem", .item, "MapOfOperationValues", .named "Operation"⟩,
    goToLower method, operation⟩ v

end Verif.Codec
