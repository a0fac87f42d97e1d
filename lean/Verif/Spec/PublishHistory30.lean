import Verif.Spec.ConformInput
import Verif.Spec.PublishSchema30

/-!
# How 3.0 documents are built

The calls that build a document, with input that is in order.
-/

namespace Verif.Pub30
open Codec Spec Conform

variable {S : Type}

/-- The path begins with a slash. -/
def Rooted (path : String) : Prop := ['/'] <+: path.toList

/-- Documents built from the empty one by calls with input that is in order. Calls may fail, and fields that hold plain
text may be set to anything. -/
inductive Built (v : Ver S) (Js : Role → JS → Prop) (Sc : Role → S → Prop) : V30.Spec S → Prop
  | new : Built v Js Sc {}
  | title {d} (t : String) : Built v Js Sc d → Built v Js Sc (d.setTitle t)
  | description {d} (t : String) : Built v Js Sc d → Built v Js Sc (d.setDescription t)
  | version {d} (t : String) : Built v Js Sc d → Built v Js Sc (d.setVersion t)
  /-- `Reflector.AddOperation` -/
  | reflect {d} (env : Env S) (oc : OpCtx S) : Built v Js Sc d → ContextOk places Js Sc StatusKey env oc →
      Rooted oc.path → Built v Js Sc (V30.addOperation v env d oc).1
  /-- `Spec.AddOperation` -/
  | add {d} (method path : String) (op : Operation S) : Built v Js Sc d → OperationOk places Sc StatusKey op →
      Rooted path → Built v Js Sc (d.addOperation method path op).1
  /-- `Spec.SetupOperation` -/
  | setup {d} (method path : String) (fs : List (Setup S)) : Built v Js Sc d →
      (∀ f ∈ fs, ∀ op, OperationOk places Sc StatusKey op → OperationOk places Sc StatusKey (f op).1) →
      Rooted path → Built v Js Sc (d.setupOperation method path fs).1
  | basic {d} (name text : String) : Built v Js Sc d → IsName name → Built v Js Sc (d.setHTTPBasicSecurity name text)
  | bearer {d} (name format text : String) : Built v Js Sc d → IsName name →
      Built v Js Sc (d.setHTTPBearerTokenSecurity name format text)
  | apiKey {d} (name field place text : String) : Built v Js Sc d → IsName name → place ∈ ["header", "query", "cookie"] →
      Built v Js Sc (d.setAPIKeySecurity name field place text)

end Verif.Pub30
