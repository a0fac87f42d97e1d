import Verif.Spec.Mem

/-!
# What operation contexts share with the document (C89)
-/

namespace Verif.Mem

/-- At `a` there is an operation: a struct whose responses are nil or a map. -/
def IsOp (m : Memory) (a : Nat) : Prop := (∃ fs, deref m a = .struct fs) ∧ CodesOk m (deref m a)

/-- The reflection works on the operation it is given and on the objects in `E`, and when it succeeds what it was given
is still an operation. -/
def Reflects (E : Nat → Prop) (f : MSetup) : Prop :=
  Uses E f ∧ ∀ m a m', IsOp m a → f m a = (m', none) → IsOp m' a

/-- Calls of `Reflector.AddOperation` for the document at `s`, each with a new context for any method and path. -/
inductive Added (s : Nat) (E : Nat → Prop) : Memory → Memory → Prop where
  | refl {m} : Added s E m m
  | tail {m m1} {method path : String} {r : Sanitized} {f} : Added s E m m1 → sanitizeMethodPath method path = .ok r →
      Reflects E f → Added s E m (reflectorAdd (newContext m1).1 s (newContext m1).2 r.method r.path f).1

end Verif.Mem
