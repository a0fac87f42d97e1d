import Verif.Spec.Mem31
import Verif.Spec.MemReflect

/-!
# What operation contexts share with the document in OpenAPI 3.1 (C91)
-/

namespace Verif.Mem31

open Verif.Mem

/-- At `a` there is an operation: a struct whose responses are nil or another struct with a map. -/
def IsOp (m : Memory) (a : Nat) : Prop :=
  (∃ fs, deref m a = .struct fs) ∧ RespOk m (deref m a) ∧ (deref m a).field "Responses" ≠ .ref a

/-- The reflection works on the operation it is given and on the objects in `E`, and when it succeeds what it was given
is still an operation. -/
def Reflects (E : Nat → Prop) (f : MSetup) : Prop :=
  Uses E f ∧ ∀ m a m', IsOp m a → f m a = (m', none) → IsOp m' a

/-- Calls of `Reflector.AddOperation` and `Reflector.AddWebhook` for the document at `s`, each with a new context for any
method and path or name. -/
inductive Added (s : Nat) (E : Nat → Prop) : Memory → Memory → Prop where
  | refl {m} : Added s E m m
  | add {m m1} {method path : String} {r : Sanitized} {f} : Added s E m m1 → sanitizeMethodPath method path = .ok r →
      Reflects E f → Added s E m (reflectorAdd (newContext m1).1 s (newContext m1).2 r.method r.path f).1
  | hook {m m1} {method name : String} {r : Sanitized} {f} : Added s E m m1 → sanitizeMethodPath method name = .ok r →
      Reflects E f → Added s E m (reflectorHook (newContext m1).1 s (newContext m1).2 r.method r.path f).1

end Verif.Mem31
