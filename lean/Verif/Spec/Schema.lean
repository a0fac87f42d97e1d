import Verif.Schema30

/-!
# Specification vocabulary for schema conversion

Which schema a schema is converted to, which local references occur in a schema, and which components are
reachable. No contexts, counters or orders here.
-/

namespace Verif.SchemaSpec
open V30

mutual
/-- The JSON Schema an OpenAPI 3.0 schema stands for, node by node. -/
def conv : OS → JS
  | .empty => .obj {} none [] [] [] none [] [] none []
  | .ref r => .obj { ref := some r } none [] [] [] none [] [] none []
  | .schema flat not allOf oneOf anyOf items props addlBool addl =>
    .obj (flatToJS flat) (convOpt not) (convList allOf) (convList oneOf) (convList anyOf) (convOpt items) []
      (convProps props)
      (match addlBool with | some b => some (.bool b) | none => convOpt addl) []
def convOpt : Option OS → Option JS
  | none => none
  | some s => some (conv s)
def convList : List OS → List JS
  | [] => []
  | s :: ss => conv s :: convList ss
def convProps : List (String × OS) → List (String × JS)
  | [] => []
  | (n, s) :: ss => (n, conv s) :: convProps ss
end

mutual
/-- The names of the local references in a JSON Schema, at any depth and under any keyword. -/
def jsRefs : JS → List String
  | .zero => []
  | .bool _ => []
  | .obj flat not allOf oneOf anyOf items itemsArr props addl others =>
    (match flat.ref with | some r => (localRef? r).toList | none => []) ++ jsRefsOpt not ++ jsRefsList allOf ++
    jsRefsList oneOf ++ jsRefsList anyOf ++ jsRefsOpt items ++ jsRefsList itemsArr ++ jsRefsProps props ++
    jsRefsOpt addl ++ jsRefsProps others
def jsRefsOpt : Option JS → List String
  | none => []
  | some s => jsRefs s
def jsRefsList : List JS → List String
  | [] => []
  | s :: ss => jsRefs s ++ jsRefsList ss
def jsRefsProps : List (String × JS) → List String
  | [] => []
  | (_, s) :: ss => jsRefs s ++ jsRefsProps ss
end

/-- The component of a name; a missing component counts as the empty schema. -/
def component (comps : GoMap OS) (n : String) : OS := (comps.get? n).getD .empty

/-- `n` is reachable from the references `from_` when `n`'s references are `succ n`. -/
inductive Reach (succ : String → List String) (from_ : List String) : String → Prop
  | here {n : String} : n ∈ from_ → Reach succ from_ n
  | there {m n : String} : Reach succ from_ m → n ∈ succ m → Reach succ from_ n

/-- Component `n` is reachable from schema `s` through local references. -/
def Needs (comps : GoMap OS) (s : OS) (n : String) : Prop :=
  Reach (fun m => jsRefs (conv (component comps m))) (jsRefs (conv s)) n

end Verif.SchemaSpec
