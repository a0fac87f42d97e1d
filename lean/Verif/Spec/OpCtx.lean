import Verif.OpCtx

/-!
# Specification vocabulary for operation contexts and content units
-/

namespace Verif
variable {S : Type}

/-- A call of a setter of an operation context. -/
inductive CtxCall (S : Type) where
  | tags (ts : List String)
  | deprecated (b : Bool)
  | summary (s : String)
  | description (s : String)
  | id (s : String)
  | security (name : String) (scopes : List String)
  | processingResponse (b : Bool)
  | processingIn (i : String)
  | method (m : String)
  | path (p : String)
  | req (s : Given S) (options : List (ContentOption S))
  | resp (s : Given S) (options : List (ContentOption S))

/-- The call on a context. -/
def CtxCall.run (oc : OpCtx S) : CtxCall S → OpCtx S
  | .tags ts => oc.setTags ts
  | .deprecated b => oc.setIsDeprecated b
  | .summary s => oc.setSummary s
  | .description s => oc.setDescription s
  | .id s => oc.setID s
  | .security n sc => oc.addSecurity n sc
  | .processingResponse b => oc.setIsProcessingResponse b
  | .processingIn i => oc.setProcessingIn i
  | .method m => oc.setMethod m
  | .path p => oc.setPathPattern p
  | .req s os => oc.addReqStructure s os
  | .resp s os => oc.addRespStructure s os

/-- What the call sets, by attribute. -/
def CtxCall.tags? : CtxCall S → Option (List String) | .tags x => some x | _ => none
def CtxCall.deprecated? : CtxCall S → Option Bool | .deprecated x => some x | _ => none
def CtxCall.summary? : CtxCall S → Option String | .summary x => some x | _ => none
def CtxCall.description? : CtxCall S → Option String | .description x => some x | _ => none
def CtxCall.id? : CtxCall S → Option String | .id x => some x | _ => none
def CtxCall.security? : CtxCall S → Option (String × List String) | .security n sc => some (n, sc) | _ => none
def CtxCall.processingResponse? : CtxCall S → Option Bool | .processingResponse x => some x | _ => none
def CtxCall.processingIn? : CtxCall S → Option String | .processingIn x => some x | _ => none
def CtxCall.method? : CtxCall S → Option String | .method x => some x | _ => none
def CtxCall.path? : CtxCall S → Option String | .path x => some x | _ => none
def CtxCall.req? : CtxCall S → Option (Given S × List (ContentOption S)) | .req s os => some (s, os) | _ => none
def CtxCall.resp? : CtxCall S → Option (Given S × List (ContentOption S)) | .resp s os => some (s, os) | _ => none

/-- The last value of an attribute that the calls set, or else the one before them. -/
def lastSet {α β : Type} (f : α → Option β) (calls : List α) (before : β) : β :=
  ((calls.filterMap f).getLast?).getD before

/-- A unit made by applying the functions one after the other. -/
inductive AppliedInOrder {α : Type} : List (α → α) → α → α → Prop
  | nil (a : α) : AppliedInOrder [] a a
  | cons {f : α → α} {fs : List (α → α)} {a b : α} : AppliedInOrder fs (f a) b → AppliedInOrder (f :: fs) a b

/-- What a unit starts from: the zero unit set up by a preparer, or one with the structure and nothing else. -/
inductive StartsFrom : Given S → ContentUnit S → Prop
  | prepared (f : ContentUnit S → ContentUnit S) : StartsFrom (.preparer f) (f {})
  | given (v : Option (Value S)) : StartsFrom (.value v) { structure_ := v }

end Verif
