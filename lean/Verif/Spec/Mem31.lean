import Verif.Mem31
import Verif.Spec.Mem

/-!
# What is shared between operations, documents and callers in OpenAPI 3.1 (C90)

`Holds`, `From`, `tree`, `Confined`, `Uses` and `AllRun` are those of `Spec/Mem.lean`.
-/

namespace Verif.Mem31

open Verif.Mem

/-- The map of paths of a document, nil if there are no paths. -/
def pathsRef (m : Memory) (s : Nat) : MVal :=
  match (deref m s).field "Paths" with
  | .ref p => (deref m p).field "MapOfPathItemValues"
  | _ => .nil

/-- The map of webhooks of a document. -/
def hooksRef (m : Memory) (s : Nat) : MVal := (deref m s).field "Webhooks"

/-- The path item a document has for a path. -/
def itemAt (m : Memory) (s : Nat) (path : String) : Option MVal := GoMap.get? (entries m (pathsRef m s)) path

/-- The webhook a document has for a name. -/
def hookAt (m : Memory) (s : Nat) (name : String) : Option MVal := GoMap.get? (entries m (hooksRef m s)) name

/-- The operation that a field (`Get`, `Put`, …) of a path item points to. -/
def pointee (item : MVal) (F : String) : Option Nat :=
  match item.field F with
  | .ref a => some a
  | _ => none

/-- The address of the operation a document has for a path and a field of path items. -/
def opAt (m : Memory) (s : Nat) (path F : String) : Option Nat := (itemAt m s path).bind (pointee · F)

/-- The objects of a document that say which paths, methods and webhooks it has. -/
def Own (m : Memory) (s x : Nat) : Prop :=
  x = s ∨ (deref m s).field "Paths" = .ref x ∨ pathsRef m s = .ref x ∨ hooksRef m s = .ref x

/-- The memory holds a document at `s`, laid out as the types say, and neither its path items and webhooks nor the
objects in `E` lead back to the `Spec`, the paths, or the maps of paths and webhooks. -/
structure Apart (m : Memory) (s : Nat) (E : Nat → Prop) : Prop where
  closed : ∀ (x : Nat) (o : Obj) (y : Nat), m[x]? = some o → o.Holds y → y < m.length
  env : ∀ x, E x → x < m.length
  spec : ∃ fs, m[s]? = some (.cell (.struct fs))
  paths : (deref m s).field "Paths" = .nil ∨
    ∃ p fs, (deref m s).field "Paths" = .ref p ∧ p ≠ s ∧ m[p]? = some (.cell (.struct fs))
  map : pathsRef m s = .nil ∨ ∃ a es, pathsRef m s = .ref a ∧ m[a]? = some (.map es)
  hooks : hooksRef m s = .nil ∨
    ∃ a es, hooksRef m s = .ref a ∧ m[a]? = some (.map es) ∧ pathsRef m s ≠ .ref a
  items : ∀ path item, itemAt m s path = some item → ∃ fs, item = .struct fs
  inner : ∀ path item x, itemAt m s path = some item → From m item.Holds x → ¬ Own m s x
  hookInner : ∀ name h x, hookAt m s name = some h → From m h.Holds x → ¬ Own m s x
  others : ∀ x, From m E x → ¬ Own m s x

/-- The names of the methods and the fields of path items. -/
def fields : List (String × String) :=
  [("get", "Get"), ("put", "Put"), ("post", "Post"), ("delete", "Delete"), ("options", "Options"), ("head", "Head"),
   ("patch", "Patch"), ("trace", "Trace")]

/-- Functions run one after the other until one fails. -/
inductive Ran : List MSetup → Memory → Nat → Memory → Prop where
  | nil {m a} : Ran [] m a m
  | fail {f fs m a m1 e} : f m a = (m1, some e) → Ran (f :: fs) m a m1
  | cons {f fs m a m1 m2} : f m a = (m1, none) → Ran fs m1 a m2 → Ran (f :: fs) m a m2

/-- What setup functions for a method and path can get hold of: the objects in `E` and the stored operation. -/
def Given (m : Memory) (s : Nat) (method path : String) (E : Nat → Prop) (x : Nat) : Prop :=
  E x ∨ ∃ r F, sanitizeMethodPath method path = .ok r ∧ (r.method, F) ∈ fields ∧ opAt m s r.path F = some x

/-- The responses of an operation: nil or a pointer to a struct, whose map is nil or a map. -/
def RespOk (m : Memory) (op : MVal) : Prop :=
  op.field "Responses" = .nil ∨ ∃ (r : Nat) (fs : List (String × MVal)), op.field "Responses" = .ref r ∧
    m[r]? = some (Obj.cell (.struct fs)) ∧
    ((MVal.struct fs).field "MapOfResponseOrReferenceValues" = .nil ∨ ∃ (c : Nat) (es : _),
      (MVal.struct fs).field "MapOfResponseOrReferenceValues" = .ref c ∧ m[c]? = some (Obj.map es))

/-- The responses of an operation: the struct, zero if the pointer is nil. -/
def responses (m : Memory) (op : MVal) : MVal :=
  match op.field "Responses" with
  | .ref r => deref m r
  | _ => .struct []

/-- The operation has no response. -/
def NoResponse (m : Memory) (op : MVal) : Prop :=
  entries m ((responses m op).field "MapOfResponseOrReferenceValues") = [] ∧ (responses m op).field "Default" = .nil

/-- Calls on the document at `s`, and whatever else the caller does with the objects in `E` in between. -/
inductive Step (s : Nat) (E : Nat → Prop) : Memory → Memory → Prop where
  | setup {m} (method path : String) {fs} : (∀ f ∈ fs, Uses E f) → Step s E m (setupOperation m s method path fs).1
  | add {m} (method path : String) {op : MVal} : (∀ y, op.Holds y → From m E y) → RespOk m op →
      Step s E m (addOperation m s method path op).1
  | hook {m} (method name : String) {op : MVal} : (∀ y, op.Holds y → From m E y) → RespOk m op →
      Step s E m (addWebhook m s method name op).1
  | other {m m'} : Confined E m m' → Step s E m m'

/-- Any number of steps. -/
inductive Steps (s : Nat) (E : Nat → Prop) : Memory → Memory → Prop where
  | refl {m} : Steps s E m m
  | tail {m m1 m2} : Steps s E m m1 → Step s E m1 m2 → Steps s E m m2

end Verif.Mem31
