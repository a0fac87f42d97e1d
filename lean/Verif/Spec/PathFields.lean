import Verif.Spec.Params
import Verif.Spec.Path
import Verif.Spec.Reflect

/-!
# Vocabulary for the parameters of path fields (C14)
-/

namespace Verif
open ParamSpec DocSpec
variable {S : Type}

/-- The tags of the field do not move a parameter to another location (tag `in`). -/
def StaysInPlace (c : PropCall S) : Prop := ∀ p q, c.populate p = .ok q → q.inn = p.inn

/-- What becomes of the path fields of a context: the parameters of its operation are kept, one follows for each
field, and the one for a field of the path is required, whatever its tags say. It is a path parameter with a
placeholder unless a tag moved it. All path parameters have a placeholder. If all locations are standard, every
placeholder has a path parameter. -/
def PathFieldsDone (env : Env S) (oc : OpCtx S) (stored : Operation S) : Prop :=
  ∃ ps pieces,
    stored.parameters = oc.op.parameters ++ ps.map (fun p => { param := some p }) ∧
    PathSpec.Decomposes oc.path pieces ∧
    Pointwise (fun f p => f.1 = "path" → p.required = some true ∧
      (StaysInPlace f.2 → p.inn = "path" ∧ p.name ∈ PathSpec.names pieces)) (oc.req.flatMap (paramFields env)) ps ∧
    PathParamsHavePlaceholders stored.parameters (PathSpec.names pieces) ∧
    (StandardLocations stored.parameters → PlaceholdersAreDefined stored.parameters (PathSpec.names pieces))

end Verif
