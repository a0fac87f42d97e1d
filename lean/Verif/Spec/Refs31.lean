import Verif.Refs31
import Verif.Spec.Valid

/-!
# Specification vocabulary for references in OpenAPI 3.1
-/

namespace Verif.SchemaSpec
open V31

mutual
/-- The names of the local references at places reached through `not`, `allOf`, `oneOf`, `anyOf`, `items`,
`properties` and `additionalProperties`, not looking beside a `$ref`. -/
def mainRefs : JS → List String
  | .zero => []
  | .bool _ => []
  | .obj flat not allOf oneOf anyOf items itemsArr props addl _ =>
    match flat.ref with
    | some r => (localRef? r).toList
    | none => mainRefsOpt not ++ mainRefsList allOf ++ mainRefsList oneOf ++ mainRefsList anyOf ++
        mainRefsOpt items ++ mainRefsList itemsArr ++ mainRefsProps props ++ mainRefsOpt addl
def mainRefsOpt : Option JS → List String
  | none => []
  | some s => mainRefs s
def mainRefsList : List JS → List String
  | [] => []
  | s :: ss => mainRefs s ++ mainRefsList ss
def mainRefsProps : List (String × JS) → List String
  | [] => []
  | (_, s) :: ss => mainRefs s ++ mainRefsProps ss
end

/-- The component of a name; the empty schema if it does not decode. -/
def component31 (m : Schemas) (n : String) : JS := (m.decode n).getD emptyJS

/-- Component `n` is reachable from schema `j`. -/
def Needs31 (m : Schemas) (j : JS) (n : String) : Prop :=
  Reach (fun k => mainRefs (component31 m k)) (mainRefs j) n

/-- The root is a reference to a local component that no included component refers to. -/
def InlinedRoot31 (m : Schemas) (j : JS) (n : String) : Prop :=
  (∃ r, rootRef j = some r ∧ localRef? r = some n) ∧ ∀ k, Needs31 m j k → n ∉ mainRefs (component31 m k)

mutual
/-- No keywords outside those of `mainRefs`, and nothing beside a `$ref`. -/
def MainOnly : JS → Prop
  | .zero => True
  | .bool _ => True
  | .obj flat not allOf oneOf anyOf items itemsArr props addl others =>
    others = [] ∧
    (flat.ref ≠ none → not = none ∧ allOf = [] ∧ oneOf = [] ∧ anyOf = [] ∧ items = none ∧ itemsArr = [] ∧
      props = [] ∧ addl = none) ∧
    MainOnlyOpt not ∧ MainOnlyList allOf ∧ MainOnlyList oneOf ∧ MainOnlyList anyOf ∧ MainOnlyOpt items ∧
    MainOnlyList itemsArr ∧ MainOnlyProps props ∧ MainOnlyOpt addl
def MainOnlyOpt : Option JS → Prop
  | none => True
  | some s => MainOnly s
def MainOnlyList : List JS → Prop
  | [] => True
  | s :: ss => MainOnly s ∧ MainOnlyList ss
def MainOnlyProps : List (String × JS) → Prop
  | [] => True
  | (_, s) :: ss => MainOnly s ∧ MainOnlyProps ss
end

end Verif.SchemaSpec
