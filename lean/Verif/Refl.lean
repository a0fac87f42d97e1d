import Verif.Reflect
import Verif.Walk

/-!
# Reflectors as objects

A `Reflector` (`/repo/openapi3/reflect.go:19-23`, `/repo/openapi31/reflect.go:19-23`) holds a pointer to its document, which
is created when it is first needed. A program has several reflectors, pointers to documents that `SpecEns` or `SpecSchema`
gave it, and operation contexts.

An operation that was added to a document shares maps, slices and pointers with its context, so later changes of the context
can show in that document. How they show is left open (`Lib.touch` and the last argument of `Cmd.configure`); the details are
the subject of `Mem.lean` and `Mem31.lean`.

Simplifications: contexts share nothing with one another, and with no document they were not added to; the walkers are left
out here.
-/

namespace Verif.Refl

/-- What the methods of a reflector do with its document. -/
structure Lib (Doc Ctx Res : Type) where
  /-- the document that `SpecEns` makes -/
  fresh : Doc
  /-- `NewOperationContext` after the method and path have been accepted -/
  newContext : Doc → String → String → Doc × Except String Ctx
  /-- `AddOperation`, or `AddWebhook` of 3.1: the document, the context and how the call ended -/
  add : Bool → Doc → Ctx → Doc × Ctx × Out
  /-- `AddOperation` or `AddWebhook` calls `SpecEns` -/
  ensures : Ctx → Bool
  /-- what `add` does to the context, as seen in a document that this was added to before -/
  touch : Ctx → Doc → Doc
  /-- `ResolveJSONSchemaRef` with a document -/
  resolve : Doc → String → Except Stop (Option Res)

/-- The state of a program. Reflectors, pointers to documents and contexts are variables of the program, each kind
numbered for itself; documents have addresses. -/
structure World (Doc Ctx : Type) where
  /-- `r.Spec` of the reflectors there are -/
  refl : Nat → Option (Option Nat) := fun _ => none
  docs : List Doc := []
  doc : Nat → Option Nat := fun _ => none
  ctx : Nat → Option Ctx := fun _ => none
  /-- the context was added to the document at this address -/
  stored : Nat → Nat → Bool := fun _ _ => false

/-- What a program does with reflectors. -/
inductive Cmd (Doc Ctx : Type) where
  /-- `r := NewReflector()` -/
  | newReflector (r : Nat)
  /-- `r := &Reflector{}` -/
  | zeroReflector (r : Nat)
  /-- `x := r.SpecEns()` or `x := r.SpecSchema()` -/
  | specEns (r x : Nat)
  /-- calling a method of `*Spec` or assigning to fields, through a pointer -/
  | edit (x : Nat) (f : Doc → Doc)
  /-- `c, err := r.NewOperationContext(method, path)` -/
  | newContext (r c : Nat) (method path : String)
  /-- calling methods of an operation context; `shows` is what is seen of it in a document that this was added to -/
  | configure (c : Nat) (f : Ctx → Ctx) (shows : Doc → Doc)
  /-- `r.AddOperation(c)`, or `r.AddWebhook(c)` -/
  | add (webhook : Bool) (r c : Nat)
  /-- `r.ResolveJSONSchemaRef(ref)` -/
  | resolve (r : Nat) (ref : String)
  /-- `r.Spec = x`, or `r.Spec = nil` -/
  | assign (r : Nat) (x : Option Nat)

/-- What a call returns. -/
inductive Reply (Res : Type) where
  | nothing
  | error (e : String)
  | out (o : Out)
  | found (r : Except Stop (Option Res))

variable {Doc Ctx Res : Type}

/-- A variable gets a value. -/
def put {α : Type} (f : Nat → Option α) (x : Nat) (v : Option α) : Nat → Option α := fun y => if y = x then v else f y

/-- A new context has not been added to a document. -/
def forget (stored : Nat → Nat → Bool) (c : Nat) : Nat → Nat → Bool := fun c' d => if c' = c then false else stored c' d

/-- The context is added to a document. -/
def remember (stored : Nat → Nat → Bool) (c d : Nat) : Nat → Nat → Bool := fun c' d' => (c' == c && d' == d) || stored c' d'

/-- The documents after a change of a context that was added to some of them. -/
def touched (stored : Nat → Bool) (shows : Doc → Doc) (docs : List Doc) : List Doc :=
  docs.mapIdx fun d doc => if stored d then shows doc else doc

/-- `SpecEns` of a reflector with this `Spec`: the document's address (`/repo/openapi3/reflect.go:115-121`,
`/repo/openapi31/reflect.go:123-129`). -/
def specEns (lib : Lib Doc Ctx Res) (w : World Doc Ctx) (r : Nat) (spec : Option Nat) : World Doc Ctx × Nat :=
  match spec with
  | some d => (w, d)
  | none => ({ w with refl := put w.refl r (some (some w.docs.length)), docs := w.docs ++ [lib.fresh] }, w.docs.length)

/-- A step of the program; `lib r` has what the dependencies report to the reflector `r`. Names of reflectors are not
reused. A step with a variable that has no value does nothing (Go programs have no such steps). -/
def step (lib : Nat → Lib Doc Ctx Res) (w : World Doc Ctx) : Cmd Doc Ctx → World Doc Ctx × Reply Res
  /- `/repo/openapi3/reflect.go:26-47`, `/repo/openapi31/reflect.go:26-47`; the schema interceptor is part of what the
  dependencies report. -/
  | .newReflector r =>
    match w.refl r with
    | some _ => (w, .nothing)
    | none => ((specEns (lib r) { w with refl := put w.refl r (some none) } r none).1, .nothing)
  | .zeroReflector r =>
    match w.refl r with
    | some _ => (w, .nothing)
    | none => ({ w with refl := put w.refl r (some none) }, .nothing)
  /- `/repo/openapi3/reflect.go:115-121,785-787`, `/repo/openapi31/reflect.go:123-129,753-755` -/
  | .specEns r x =>
    match w.refl r with
    | none => (w, .nothing)
    | some spec =>
      let (w, d) := specEns (lib r) w r spec
      ({ w with doc := put w.doc x (some d) }, .nothing)
  | .edit x f =>
    match w.doc x with
    | none => (w, .nothing)
    | some d => ({ w with docs := w.docs.modify d f }, .nothing)
  /- `/repo/openapi3/reflect.go:51-76`, `/repo/openapi31/reflect.go:51-82`: the document is not looked at if the method is
  not accepted. -/
  | .newContext r c method path =>
    match w.refl r with
    | none => (w, .nothing)
    | some spec =>
      match sanitizeMethodPath method path with
      | .error e => ({ w with ctx := put w.ctx c none, stored := forget w.stored c }, .error e)
      | .ok _ =>
        let (w, d) := specEns (lib r) w r spec
        match w.docs[d]? with
        | none => (w, .nothing)
        | some doc =>
          match (lib r).newContext doc method path with
          | (doc', .ok oc) =>
            ({ w with docs := w.docs.set d doc', ctx := put w.ctx c (some oc), stored := forget w.stored c }, .nothing)
          | (doc', .error e) =>
            ({ w with docs := w.docs.set d doc', ctx := put w.ctx c none, stored := forget w.stored c }, .error e)
  | .configure c f shows =>
    ({ w with docs := touched (w.stored c) shows w.docs, ctx := put w.ctx c ((w.ctx c).map f) }, .nothing)
  /- `/repo/openapi3/reflect.go:267-286`, `/repo/openapi31/reflect.go:214-252` -/
  | .add webhook r c =>
    match w.refl r, w.ctx c with
    | some spec, some oc =>
      if spec.isSome || (lib r).ensures oc then
        let (w, d) := specEns (lib r) w r spec
        match w.docs[d]? with
        | none => (w, .nothing)
        | some doc =>
          let (doc', oc', o) := (lib r).add webhook doc oc
          ({ w with
              docs := touched (w.stored c) ((lib r).touch oc) (w.docs.set d doc')
              ctx := put w.ctx c (some oc')
              stored := remember w.stored c d }, .out o)
      else
        let (_, oc', o) := (lib r).add webhook (lib r).fresh oc
        ({ w with docs := touched (w.stored c) ((lib r).touch oc) w.docs, ctx := put w.ctx c (some oc') }, .out o)
    | _, _ => (w, .nothing)
  /- `/repo/openapi3/reflect.go:81-95`, `/repo/openapi31/reflect.go:87-103`: without a document nothing is found, and none
  is made. -/
  | .resolve r ref =>
    match w.refl r with
    | none => (w, .nothing)
    | some none => (w, .found (.ok none))
    | some (some d) =>
      match w.docs[d]? with
      | none => (w, .nothing)
      | some doc => (w, .found ((lib r).resolve doc ref))
  | .assign r x =>
    match w.refl r, x with
    | some _, none => ({ w with refl := put w.refl r (some none) }, .nothing)
    | some _, some x =>
      match w.doc x with
      | some d => ({ w with refl := put w.refl r (some (some d)) }, .nothing)
      | none => (w, .nothing)
    | none, _ => (w, .nothing)

/-- A program: the final state and what the steps returned. -/
def run (lib : Nat → Lib Doc Ctx Res) (w : World Doc Ctx) : List (Cmd Doc Ctx) → World Doc Ctx × List (Cmd Doc Ctx × Reply Res)
  | [] => (w, [])
  | c :: cs =>
    let (w', reply) := step lib w c
    let (w'', replies) := run lib w' cs
    (w'', (c, reply) :: replies)

/-- The document of a reflector. -/
def World.docOf (w : World Doc Ctx) (r : Nat) : Option Doc :=
  match w.refl r with
  | some (some d) => w.docs[d]?
  | _ => none

/-- The reflector of OpenAPI 3.0; `o` is the order in which maps are visited in resolving. -/
def lib30 (env : Env V30.OS) (o : Order) (touch : OpCtx V30.OS → V30.Spec V30.OS → V30.Spec V30.OS) : Lib (V30.Spec V30.OS) (OpCtx V30.OS) Resolved where
  fresh := { openapi := "3.0.3" }
  newContext sp method path := (sp, V30.newOperationContext sp method path)
  add _ sp oc := match V30.addOperation V30.ver env sp oc with
    | (sp, op, out) => (sp, { oc with op := op }, out)
  ensures oc := match setupOC V30.ver env oc ⟨[], oc.op⟩ with
    | (_, .ok) => true
    | (s, _) => !s.schemas.isEmpty
  touch := touch
  resolve sp ref := V30.resolveRef (if sp.schemas.isEmpty then none else some sp.schemas) o ref

/-- The reflector of OpenAPI 3.1; `toSimpleMap` and `fromSimpleMap` are jsonschema-go's. `NewOperationContext` makes the
paths of the document (`PathsEns`). -/
def lib31 {S : Type} (toSimpleMap : JS → Except String S) (fromSimpleMap : Option S → Option JS) (env : Env S)
    (touch : OpCtx S → V31.Spec S → V31.Spec S) :
    Lib (V31.Spec S) (OpCtx S) JS where
  fresh := { openapi := "3.1.0" }
  newContext sp method path := (sp.pathsEns, V31.newOperationContext sp method path)
  add webhook sp oc :=
    match (if webhook then V31.addWebhook else V31.addOperation) (V31.ver toSimpleMap) env sp oc with
    | (sp, op, out) => (sp, { oc with op := op }, out)
  ensures oc := match setupOC (V31.ver toSimpleMap) env oc ⟨[], oc.op⟩ with
    | (_, .ok) => true
    | (s, _) => !s.schemas.isEmpty
  touch := touch
  resolve sp ref := V31.resolveRef fromSimpleMap (if sp.schemas.isEmpty then none else some sp.schemas) ref

end Verif.Refl
