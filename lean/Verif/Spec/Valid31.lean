import Verif.Spec.Valid
import Verif.Spec.Refs31

/-!
# Values accepted by a schema of a 3.1 document

Specification only; nothing here models code.
-/

namespace Verif.ValidSpec
open SchemaSpec V31

/-- Which values the references of a 3.1 document accept, following local references to depth `k`. -/
def envDoc (σ : Sem) (ext : String → Any → Prop) (m : Schemas) : Nat → String → Any → Prop
  | 0, r => match localRef? r with
    | none => ext r
    | some _ => fun _ => True
  | k + 1, r => match localRef? r with
    | none => ext r
    | some n => okJS σ (envDoc σ ext m k) (component31 m n)

/-- A value is valid under a schema of a 3.1 document. -/
def ValidDoc (σ : Sem) (ext : String → Any → Prop) (m : Schemas) (s : JS) (v : Any) : Prop :=
  ∃ K, ∀ k, K ≤ k → okJS σ (envDoc σ ext m k) s v

end Verif.ValidSpec
