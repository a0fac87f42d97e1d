import Verif.Spec.Params
import Verif.Spec.Path

/-!
# Specification vocabulary for documents
-/

namespace Verif.DocSpec
open ParamSpec
variable {S : Type}

/-- The operation declares at least one response. -/
def HasResponses (op : Operation S) : Prop :=
  op.responses.default ≠ none ∨ ∃ code, op.responses.codes.get? code ≠ none

/-- `stored` is `op`, completed with a 204 response if `op` declares no response at all. -/
def Completed (op stored : Operation S) : Prop :=
  (HasResponses op → stored = op) ∧
  (¬ HasResponses op → stored = { op with responses :=
    { default := none, codes := [("204", { response := some { description := "No Content" } })] } })

/-- The setup functions succeed one after the other and turn `op` into `op'`. -/
inductive AllSucceed : List (Operation S → Operation S × Option String) → Operation S → Operation S → Prop
  | nil {op : Operation S} : AllSucceed [] op op
  | cons {f fs} {op op' op'' : Operation S} : f op = (op', none) → AllSucceed fs op' op'' →
      AllSucceed (f :: fs) op op''

/-- How far a list of setup functions gets from `op`: either all of them succeed and give `op'`, or one of
them is the first to fail, with this error, after the ones before it succeeded, and leaves `op'`. -/
def RunsTo (fs : List (Operation S → Operation S × Option String)) (op op' : Operation S) :
    Option String → Prop
  | none => AllSucceed fs op op'
  | some e => ∃ pre f post op1, fs = pre ++ f :: post ∧ AllSucceed pre op op1 ∧ f op1 = (op', some e)

/-- The path is written with a pattern in one of its placeholders. -/
def HasPattern (path : String) : Prop :=
  ∃ pieces n pattern, PathSpec.Decomposes path pieces ∧ PathSpec.Piece.ph n (some pattern) ∈ pieces

/-- A stored operation agrees with the place where it is stored: the method is one of the eight, no
placeholder of the path has a pattern, no two inline parameters share location and name, every path
parameter has a placeholder, and (with the four standard locations) every placeholder has a path
parameter. -/
def Consistent (path method : String) (op : Operation S) : Prop :=
  method ∈ PathSpec.methods ∧
  ∃ pieces, PathSpec.Decomposes path pieces ∧
    (∀ n pattern, PathSpec.Piece.ph n pattern ∈ pieces → pattern = none) ∧
    UniqueParams op.parameters ∧
    PathParamsHavePlaceholders op.parameters (PathSpec.names pieces) ∧
    (StandardLocations op.parameters → PlaceholdersAreDefined op.parameters (PathSpec.names pieces))

end Verif.DocSpec
