import Verif.Entities

/-!
# Specification vocabulary for parameters
-/

namespace Verif.ParamSpec
variable {S : Type}

/-- The four parameter locations of OpenAPI. -/
def locations : List String := ["query", "path", "header", "cookie"]

/-- The inline (non-reference) parameters. -/
def inlineParams (ps : List (ParamOrRef S)) : List (Parameter S) := ps.filterMap (·.param)

/-- All inline parameters have one of the four locations. -/
def StandardLocations (ps : List (ParamOrRef S)) : Prop := ∀ q ∈ inlineParams ps, q.inn ∈ locations

/-- No two inline parameters share location and name. -/
def UniqueParams (ps : List (ParamOrRef S)) : Prop :=
  ((inlineParams ps).map fun q => (q.inn, q.name)).Nodup

/-- Every inline path parameter has a placeholder. -/
def PathParamsHavePlaceholders (ps : List (ParamOrRef S)) (placeholders : List String) : Prop :=
  ∀ q ∈ inlineParams ps, q.inn = "path" → q.name ∈ placeholders

/-- Every placeholder has an inline path parameter. -/
def PlaceholdersAreDefined (ps : List (ParamOrRef S)) (placeholders : List String) : Prop :=
  ∀ n ∈ placeholders, ∃ q ∈ inlineParams ps, q.inn = "path" ∧ q.name = n

/-- What validation is meant to check. -/
def Valid (ps : List (ParamOrRef S)) (placeholders : List String) : Prop :=
  UniqueParams ps ∧ PathParamsHavePlaceholders ps placeholders ∧ PlaceholdersAreDefined ps placeholders

/-- What validation checks whatever the locations are: it knows a parameter by its name followed by its
location, written together. -/
def ValidWritten (ps : List (ParamOrRef S)) (placeholders : List String) : Prop :=
  ((inlineParams ps).map fun q => q.name ++ q.inn).Nodup ∧ PathParamsHavePlaceholders ps placeholders ∧
  ∀ n ∈ placeholders, ∃ q ∈ inlineParams ps, q.name ++ q.inn = n ++ "path"

end Verif.ParamSpec
