import Verif.Spec.PublishHistory30
import Verif.Spec.Publish31

/-!
# Documents whose references can be followed

A schema refers to a component by `#/components/schemas/` and its name. In a document whose references can be followed
there is such a component.
-/

namespace Verif.Closed
open Conform ParamSpec

variable {S : Type}

/-- The schemas a JSON Schema is made of. -/
def parts : JS → List JS
  | .obj _ not allOf oneOf anyOf items itemsArr props addl others =>
    not.toList ++ allOf ++ oneOf ++ anyOf ++ items.toList ++ itemsArr ++ props.map (·.2) ++ addl.toList ++ others.map (·.2)
  | _ => []

/-- The JSON Schema refers to the component of this name, at any depth. -/
inductive Refers : JS → String → Prop
  | here {flat not allOf oneOf anyOf items itemsArr props addl others n} :
      flat.ref = some ("#/components/schemas/" ++ n) →
      Refers (.obj flat not allOf oneOf anyOf items itemsArr props addl others) n
  | part {j k n} : k ∈ parts j → Refers k n → Refers j n

/-- The schemas a schema of 3.0 is made of. -/
def parts30 : V30.OS → List V30.OS
  | .schema _ not allOf oneOf anyOf items props _ addl =>
    not.toList ++ allOf ++ oneOf ++ anyOf ++ items.toList ++ props.map (·.2) ++ addl.toList
  | _ => []

/-- The schema of 3.0 refers to the component of this name, at any depth. -/
inductive Refers30 : V30.OS → String → Prop
  | here {n} : Refers30 (.ref ("#/components/schemas/" ++ n)) n
  | part {s t n} : t ∈ parts30 s → Refers30 t n → Refers30 s n

/-- Everything the schema refers to is among these names. -/
def Within {A : Type} (refers : A → String → Prop) (names : String → Prop) : Role → A → Prop :=
  Always fun a => ∀ n, refers a n → names n

/-- The map has a component of this name. -/
def Has (m : GoMap S) (n : String) : Prop := (m.get? n).isSome

/-- A definition of this name is reported when the context is reflected: for a parameter or a body of a request unit, or
for the body of a response unit. -/
def Reported (env : Env S) (oc : OpCtx S) (n : String) : Prop :=
  (∃ cu ∈ oc.req, RequestDefinition env cu oc.method n) ∨
  ∃ cu ∈ oc.resp, ∃ value d, RespondsJSON env oc.method cu value ∧ Event.defn n d ∈ value.response.events

/-- What the context is made of is in order and refers only to what is reported with it, or to components that are there
already: it is within every set of names that has these. -/
def Complete (pl : Places) (refers : S → String → Prop) (m : GoMap S) (env : Env S) (oc : OpCtx S) : Prop :=
  ∀ names : String → Prop, (∀ n, Has m n → names n) → (∀ n, Reported env oc n → names n) →
    ContextOk pl (Within Refers names) (Within refers names) StatusKey env oc

/-- The schema occurs in the contents. -/
def OccursContent (m : GoMap (MediaType S)) (s : S) : Prop := ∃ k mt, (k, mt) ∈ m ∧ mt.schema = some s

/-- The schema occurs in the parameter. -/
def OccursParam (p : ParamOrRef S) (s : S) : Prop :=
  ∃ q, p.param = some q ∧ (q.schema = some s ∨ OccursContent q.content s)

/-- The schema occurs in the response: in its contents, or as that of a header. -/
def OccursResponse (r : ResponseOrRef S) (s : S) : Prop :=
  ∃ q, r.response = some q ∧ (OccursContent q.content s ∨
    ∃ k h hd, (k, h) ∈ q.headers ∧ h.header = some hd ∧ hd.schema = some s)

/-- The schema occurs in the operation. -/
def OccursOperation (op : Operation S) (s : S) : Prop :=
  (∃ p ∈ op.parameters, OccursParam p s) ∨
  (∃ b q, op.requestBody = some b ∧ b.body = some q ∧ OccursContent q.content s) ∨
  (∃ r, op.responses.default = some r ∧ OccursResponse r s) ∨
  ∃ k r, (k, r) ∈ op.responses.codes ∧ OccursResponse r s

/-- The schema occurs in the document of 3.0: as a component, or at one of its paths. -/
def Occurs30 (d : V30.Spec S) (s : S) : Prop :=
  (∃ k, (k, s) ∈ d.schemas) ∨
  ∃ k p, (k, p) ∈ d.paths ∧ ((∃ q ∈ p.parameters, OccursParam q s) ∨ ∃ m op, (m, op) ∈ p.ops ∧ OccursOperation op s)

/-- The schema occurs in the path item of 3.1. -/
def OccursItem (p : V31.PathItem S) (s : S) : Prop :=
  (∃ q ∈ p.parameters, OccursParam q s) ∨ ∃ op, some op ∈ Pub31.ops p ∧ OccursOperation op s

/-- The schema occurs in the document of 3.1: as a component, at one of its paths, or in a webhook. -/
def Occurs31 (d : V31.Spec S) (s : S) : Prop :=
  (∃ k, (k, s) ∈ d.schemas) ∨ (∃ m k p, d.paths = some m ∧ (k, p) ∈ m ∧ OccursItem p s) ∨
  ∃ k p, (k, p) ∈ d.webhooks ∧ OccursItem p s

/-- Documents of 3.0 built from the empty one: by successful `Reflector.AddOperation` calls whose reflections report all
they refer to, and by other calls with what refers only to components that are there. -/
inductive Grown30 (v : Ver S) (refers : S → String → Prop) : V30.Spec S → Prop
  | new : Grown30 v refers {}
  | title {d} (t : String) : Grown30 v refers d → Grown30 v refers (d.setTitle t)
  | description {d} (t : String) : Grown30 v refers d → Grown30 v refers (d.setDescription t)
  | version {d} (t : String) : Grown30 v refers d → Grown30 v refers (d.setVersion t)
  | reflect {d} (env : Env S) (oc : OpCtx S) : Grown30 v refers d → Complete Pub30.places refers d.schemas env oc →
      Pub30.Rooted oc.path → (V30.addOperation v env d oc).2.2 = .ok → Grown30 v refers (V30.addOperation v env d oc).1
  | add {d} (method path : String) (op : Operation S) : Grown30 v refers d →
      OperationOk Pub30.places (Within refers (Has d.schemas)) StatusKey op → Pub30.Rooted path →
      Grown30 v refers (d.addOperation method path op).1
  | setup {d} (method path : String) (fs : List (Setup S)) : Grown30 v refers d →
      (∀ f ∈ fs, ∀ op, OperationOk Pub30.places (Within refers (Has d.schemas)) StatusKey op →
        OperationOk Pub30.places (Within refers (Has d.schemas)) StatusKey (f op).1) → Pub30.Rooted path →
      Grown30 v refers (d.setupOperation method path fs).1
  | basic {d} (name text : String) : Grown30 v refers d → IsName name → Grown30 v refers (d.setHTTPBasicSecurity name text)
  | bearer {d} (name format text : String) : Grown30 v refers d → IsName name →
      Grown30 v refers (d.setHTTPBearerTokenSecurity name format text)
  | apiKey {d} (name field place text : String) : Grown30 v refers d → IsName name → place ∈ ["header", "query", "cookie"] →
      Grown30 v refers (d.setAPIKeySecurity name field place text)

/-- The same for documents of 3.1. -/
inductive Grown31 (v : Ver S) (refers : S → String → Prop) : V31.Spec S → Prop
  | new : Grown31 v refers {}
  | title {d} (t : String) : Grown31 v refers d → Grown31 v refers (d.setTitle t)
  | description {d} (t : String) : Grown31 v refers d → Grown31 v refers (d.setDescription t)
  | version {d} (t : String) : Grown31 v refers d → Grown31 v refers (d.setVersion t)
  | context {d} : Grown31 v refers d → Grown31 v refers d.pathsEns
  | reflect {d} (env : Env S) (oc : OpCtx S) : Grown31 v refers d → Complete Pub31.places refers d.schemas env oc →
      Pub30.Rooted oc.path → (V31.addOperation v env d oc).2.2 = .ok → Grown31 v refers (V31.addOperation v env d oc).1
  | reflectWebhook {d} (env : Env S) (oc : OpCtx S) : Grown31 v refers d →
      Complete Pub31.places refers d.schemas env oc → (V31.addWebhook v env d oc).2.2 = .ok →
      Grown31 v refers (V31.addWebhook v env d oc).1
  | add {d} (method path : String) (op : Operation S) : Grown31 v refers d →
      OperationOk Pub31.places (Within refers (Has d.schemas)) StatusKey op → Pub30.Rooted path →
      Grown31 v refers (d.addOperation method path op).1
  | webhook {d} (method name : String) (op : Operation S) : Grown31 v refers d →
      OperationOk Pub31.places (Within refers (Has d.schemas)) StatusKey op →
      Grown31 v refers (d.addWebhook method name op).1
  | setup {d} (method path : String) (fs : List (Setup S)) : Grown31 v refers d →
      (∀ f ∈ fs, ∀ op, OperationOk Pub31.places (Within refers (Has d.schemas)) StatusKey op →
        OperationOk Pub31.places (Within refers (Has d.schemas)) StatusKey (f op).1) → Pub30.Rooted path →
      Grown31 v refers (d.setupOperation method path fs).1
  | basic {d} (name text : String) : Grown31 v refers d → IsName name → Grown31 v refers (d.setHTTPBasicSecurity name text)
  | bearer {d} (name format text : String) : Grown31 v refers d → IsName name →
      Grown31 v refers (d.setHTTPBearerTokenSecurity name format text)
  | apiKey {d} (name field place text : String) : Grown31 v refers d → IsName name → place ∈ ["header", "query", "cookie"] →
      Grown31 v refers (d.setAPIKeySecurity name field place text)

end Verif.Closed
