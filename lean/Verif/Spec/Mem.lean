import Verif.Mem

/-!
# What is shared between operations, documents and callers (C88)

Notions to state what a call can change: which objects a value refers to (`Holds`), which can be reached by following
references (`From`), how a value reads to a given depth (`tree`), and which objects make up a document without its
operations (`Own`).
-/

namespace Verif.Mem

/-- The value contains a reference to object `a`. -/
inductive MVal.Holds : MVal → Nat → Prop where
  | ref {a} : Holds (.ref a) a
  | slice {a off len} : Holds (.slice a off len) a
  | field {fs go v a} : (go, v) ∈ fs → Holds v a → Holds (.struct fs) a

/-- The object contains a reference to object `a`. -/
inductive Obj.Holds : Obj → Nat → Prop where
  | cell {v a} : v.Holds a → Holds (.cell v) a
  | map {es k v a} : (k, v) ∈ es → v.Holds a → Holds (.map es) a
  | arr {vs v a} : v ∈ vs → v.Holds a → Holds (.arr vs) a

/-- Object `x` can be reached from the objects in `R` by following references. -/
inductive From (m : Memory) (R : Nat → Prop) : Nat → Prop where
  | root {x} : R x → From m R x
  | step {x o y} : From m R x → m[x]? = some o → o.Holds y → From m R y

/-- What a value reads as when references are followed up to a depth. -/
def tree (m : Memory) : Nat → MVal → Codec.Val
  | 0, _ => .nil
  | _ + 1, .nil => .nil
  | _ + 1, .lit v => v
  | k + 1, .struct fs => .struct (fs.map fun p => (p.1, tree m k p.2))
  | k + 1, .slice a off len => .list ((elems m (.slice a off len)).map (tree m k))
  | k + 1, .ref a =>
    match m[a]? with
    | some (.cell v) => tree m k v
    | some (.map es) => .map (es.map fun p => (p.1, tree m k p.2))
    | _ => .nil

/-- The path item a document has for a path. -/
def itemAt (m : Memory) (s : Nat) (path : String) : Option MVal := GoMap.get? (entries m (pathsRef m s)) path

/-- The operation (the struct, with its references) a document has for a path and method. -/
def opAt (m : Memory) (s : Nat) (path method : String) : Option MVal :=
  (itemAt m s path).bind fun item => GoMap.get? (entries m (opsRef item)) method

/-- The objects of a document that say which paths, methods and operations it has: the `Spec`, the map of paths and
the maps of operations. -/
def Own (m : Memory) (s x : Nat) : Prop :=
  x = s ∨ pathsRef m s = .ref x ∨ ∃ path item, itemAt m s path = some item ∧ opsRef item = .ref x

/-- What Go code can do that starts with references to the objects in `R`: change the objects it can reach, make new
ones, and leave references only to those. -/
structure Confined (R : Nat → Prop) (m m' : Memory) : Prop where
  grows : m.length ≤ m'.length
  keeps : ∀ x, x < m.length → ¬ From m R x → m'[x]? = m[x]?
  refs : ∀ (x : Nat) (o : Obj) (y : Nat), m'[x]? = some o → o.Holds y →
    m[x]? = some o ∨ From m R y ∨ (m.length ≤ y ∧ y < m'.length)

/-- A setup function that uses the operation it is given and the objects in `E` (what it has captured, global
variables). -/
def Uses (E : Nat → Prop) (f : MSetup) : Prop := ∀ m a, Confined (fun x => x = a ∨ E x) m (f m a).1

/-- A setup function that only assigns fields of the operation it is given; it can make new objects. -/
def AssignsOnly (f : MSetup) : Prop :=
  ∀ m a, m.length ≤ (f m a).1.length ∧ ∀ x, x < m.length → x ≠ a → (f m a).1[x]? = m[x]?

/-- All functions succeed, one after the other. -/
inductive AllRun : List MSetup → Memory → Nat → Memory → Prop where
  | nil {m a} : AllRun [] m a m
  | cons {f fs m a m1 m2} : f m a = (m1, none) → AllRun fs m1 a m2 → AllRun (f :: fs) m a m2

/-- The memory holds a document at `s`, laid out as the types say, and neither its operations nor the objects in `E`
lead back to the `Spec`, the map of paths or a map of operations; different paths have different maps. -/
structure Apart (m : Memory) (s : Nat) (E : Nat → Prop) : Prop where
  closed : ∀ (x : Nat) (o : Obj) (y : Nat), m[x]? = some o → o.Holds y → y < m.length
  env : ∀ x, E x → x < m.length
  spec : ∃ fs, m[s]? = some (.cell (.struct fs))
  paths : pathsRef m s = .nil ∨ ∃ a es, pathsRef m s = .ref a ∧ m[a]? = some (.map es)
  items : ∀ path item, itemAt m s path = some item → (∃ fs, item = .struct fs) ∧
    (opsRef item = .nil ∨ ∃ b es, opsRef item = .ref b ∧ m[b]? = some (.map es) ∧ pathsRef m s ≠ .ref b)
  distinct : ∀ path path' item item' b, itemAt m s path = some item → itemAt m s path' = some item' →
    opsRef item = .ref b → opsRef item' = .ref b → path = path'
  ops : ∀ path method op x, opAt m s path method = some op → From m op.Holds x → ¬ Own m s x
  others : ∀ x, From m E x → ¬ Own m s x

/-- The operation `SetupOperation` would start from, if there is one. -/
def slot (m : Memory) (s : Nat) (method path : String) : Option MVal :=
  match sanitizeMethodPath method path with
  | .ok r => opAt m s r.path r.method
  | .error _ => none

/-- What setup functions for a method and path can get hold of: the objects in `E` and what the stored operation
refers to. -/
def Given (m : Memory) (s : Nat) (method path : String) (E : Nat → Prop) (x : Nat) : Prop :=
  E x ∨ ∃ op, slot m s method path = some op ∧ op.Holds x

/-- Nothing the value leads to can be reached from `R`. -/
def Separate (m : Memory) (v : MVal) (R : Nat → Prop) : Prop :=
  ∀ x, From m v.Holds x → x < m.length ∧ ¬ From m R x

/-- The map of responses of an operation: nil or a map. -/
abbrev CodesOk (m : Memory) (op : MVal) : Prop :=
  (op.inner "Responses").field "MapOfResponseOrRefValues" = .nil ∨ ∃ (c : Nat) (es : _),
    (op.inner "Responses").field "MapOfResponseOrRefValues" = .ref c ∧ m[c]? = some (Obj.map es)

/-- The operation has no response. -/
def NoResponse (m : Memory) (op : MVal) : Prop :=
  entries m ((op.inner "Responses").field "MapOfResponseOrRefValues") = [] ∧
    (op.inner "Responses").field "Default" = .nil

/-- A field of type `string` reads as `s`: it was assigned, or it is zero. -/
def ReadsText (v : MVal) (s : String) : Prop := v = .lit (.str s) ∨ v = .nil ∧ s = ""

/-- The names and locations of the parameters among the elements of `o.Parameters`, in order. Elements without a
`Parameter` are references. -/
inductive Declares (m : Memory) : List MVal → List (String × String) → Prop where
  | nil : Declares m [] []
  | reference {p ps l} : p.field "Parameter" = .nil → Declares m ps l → Declares m (p :: ps) l
  | inline {p ps l b name loc} : p.field "Parameter" = .ref b → ReadsText ((deref m b).field "Name") name →
      ReadsText ((deref m b).field "In") loc → Declares m ps l → Declares m (p :: ps) ((name, loc) :: l)

/-- The declared parameters fit a path: none is declared twice and the path parameters are the placeholders. -/
def Fits (declared : List (String × String)) (placeholders : List String) : Prop :=
  declared.Nodup ∧ ∀ name, (name, "path") ∈ declared ↔ name ∈ placeholders

/-- Calls on the document at `s`, and whatever else the caller does with the objects in `E` in between. -/
inductive Step (s : Nat) (E : Nat → Prop) : Memory → Memory → Prop where
  | setup {m} (method path : String) {fs} : (∀ f ∈ fs, Uses E f) →
      Step s E m (setupOperation m s method path fs).1
  | add {m} (method path : String) {op : MVal} : (∀ y, op.Holds y → From m E y) → CodesOk m op →
      Step s E m (addOperation m s method path op).1
  | other {m m'} : Confined E m m' → Step s E m m'

/-- Any number of steps. -/
inductive Steps (s : Nat) (E : Nat → Prop) : Memory → Memory → Prop where
  | refl {m} : Steps s E m m
  | tail {m m1 m2} : Steps s E m m1 → Step s E m1 m2 → Steps s E m m2

end Verif.Mem
