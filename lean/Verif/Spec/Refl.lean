import Verif.Refl

/-!
# One reflector

What a program sees of one reflector, if it looks at nothing else: at most one document, which every pointer it was given
points to, and its contexts. There are no addresses here.
-/

namespace Verif.Spec
open Refl

variable {Doc Ctx Res : Type}

/-- A reflector with its document (`none` until it is needed), the variables that hold the document, its contexts and which
of them were added. -/
structure One (Doc Ctx : Type) where
  made : Bool := false
  document : Option Doc := none
  held : Nat → Bool := fun _ => false
  ctx : Nat → Option Ctx := fun _ => none
  /-- the context was added to the document -/
  stored : Nat → Bool := fun _ => false

/-- A step of a program with one reflector. -/
def oneStep (lib : Lib Doc Ctx Res) (s : One Doc Ctx) : Cmd Doc Ctx → One Doc Ctx × Reply Res
  | .newReflector _ => if s.made then (s, .nothing) else ({ s with made := true, document := some lib.fresh }, .nothing)
  | .zeroReflector _ => ({ s with made := true }, .nothing)
  | .specEns _ x =>
    if s.made then
      ({ s with document := some (s.document.getD lib.fresh), held := fun y => y == x || s.held y }, .nothing)
    else (s, .nothing)
  | .edit x f => if s.held x then ({ s with document := s.document.map f }, .nothing) else (s, .nothing)
  | .newContext _ c method path =>
    if s.made then
      match sanitizeMethodPath method path with
      | .error e => ({ s with ctx := put s.ctx c none, stored := fun c' => c' != c && s.stored c' }, .error e)
      | .ok _ =>
        match lib.newContext (s.document.getD lib.fresh) method path with
        | (doc, .ok oc) =>
          ({ s with document := some doc, ctx := put s.ctx c (some oc), stored := fun c' => c' != c && s.stored c' }, .nothing)
        | (doc, .error e) =>
          ({ s with document := some doc, ctx := put s.ctx c none, stored := fun c' => c' != c && s.stored c' }, .error e)
    else (s, .nothing)
  | .configure c f shows =>
    ({ s with document := if s.stored c then s.document.map shows else s.document, ctx := put s.ctx c ((s.ctx c).map f) },
      .nothing)
  | .add webhook _ c =>
    if s.made then
      match s.ctx c with
      | none => (s, .nothing)
      | some oc =>
        let (doc, oc', o) := lib.add webhook (s.document.getD lib.fresh) oc
        ({ s with
            document :=
              if s.document.isSome || lib.ensures oc then some (if s.stored c then lib.touch oc doc else doc) else none
            ctx := put s.ctx c (some oc')
            stored := fun c' => (c' == c && (s.document.isSome || lib.ensures oc)) || s.stored c' }, .out o)
    else (s, .nothing)
  | .resolve _ ref =>
    if s.made then
      match s.document with
      | none => (s, .found (.ok none))
      | some doc => (s, .found (lib.resolve doc ref))
    else (s, .nothing)
  | .assign _ _ => (s, .nothing)

/-- A program with one reflector. -/
def oneRun (lib : Lib Doc Ctx Res) (s : One Doc Ctx) : List (Cmd Doc Ctx) → One Doc Ctx × List (Cmd Doc Ctx × Reply Res)
  | [] => (s, [])
  | c :: cs =>
    let (s', reply) := oneStep lib s c
    let (s'', replies) := oneRun lib s' cs
    (s'', (c, reply) :: replies)

/-- Whose variables are whose: the reflector of a pointer to a document, and of a context. -/
structure Owners where
  doc : Nat → Nat
  ctx : Nat → Nat

/-- The reflector a step is about. -/
def Owners.reflector (own : Owners) : Cmd Doc Ctx → Nat
  | .newReflector r => r
  | .zeroReflector r => r
  | .specEns r _ => r
  | .edit x _ => own.doc x
  | .newContext r _ _ _ => r
  | .configure c _ _ => own.ctx c
  | .add _ r _ => r
  | .resolve r _ => r
  | .assign r _ => r

/-- The step does not mix reflectors: pointers and contexts are used with the reflector they come from, and `Spec` is not
assigned. -/
def Owners.Tidy (own : Owners) : Cmd Doc Ctx → Prop
  | .specEns r x => own.doc x = r
  | .newContext r c _ _ => own.ctx c = r
  | .add _ r c => own.ctx c = r
  | .assign _ _ => False
  | _ => True

/-- The steps about one reflector. -/
def Owners.about (own : Owners) (r : Nat) (cs : List (Cmd Doc Ctx)) : List (Cmd Doc Ctx) :=
  cs.filter (fun c => own.reflector c == r)

end Verif.Spec
