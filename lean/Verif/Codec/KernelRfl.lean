import Lean.Elab.Tactic.Basic

/-! A tactic for concrete cases: it gives `rfl` as the proof of an equation and leaves the comparison of the
two sides to the kernel. (The elaborator's own comparison is too slow for the tables of the codecs.) -/

open Lean Meta Elab Tactic in
/-- Closes `a = b` with `Eq.refl a`; the kernel checks that `a` and `b` are equal by computation. -/
elab "kernel_rfl" : tactic => liftMetaTactic fun g => do
  let t ← instantiateMVars (← g.getType)
  match t.eq? with
  | some (α, a, _) =>
    let u ← getLevel α
    g.assign (mkApp2 (mkConst ``Eq.refl [u]) α a)
    return []
  | none => throwError "not an equation"
