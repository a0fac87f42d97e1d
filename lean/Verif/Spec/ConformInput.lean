import Verif.Spec.Conform
import Verif.Spec.Reflect

/-!
# What is asked of the input of the reflectors

Conditions on what the dependencies report about the structures of an operation. `Js` says which JSON Schemas are
accepted in which role, `Sc` which schemas of the document; `Translates` connects the two.
-/

namespace Verif.Conform
variable {S : Type}

/-- Accepted JSON Schemas, among them those of plain strings, become accepted schemas. -/
structure Translates (v : Ver S) (Js : Role → JS → Prop) (Sc : Role → S → Prop) : Prop where
  plain : ∀ r j sc, Js r j → v.conv j = .ok sc → Sc r sc
  param : ∀ isPtr sc, Sc .value sc → Sc .value (v.paramSchema isPtr sc)
  resp : ∀ sc, Sc .content sc → Sc .content (v.respSchema sc)
  text : ∀ format, Js .content (stringJS format)

/-- A definition with a name of a component. -/
def DefinitionOk (Js : Role → JS → Prop) (n : String) (d : JS) : Prop := IsName n ∧ Js .content d

/-- A field that becomes a parameter at a place: its schemas are accepted, its style is one for the place, and its tags
change neither the place nor the schema nor the content and leave a name for the place. -/
structure ParamFieldOk (pl : Places) (Js : Role → JS → Prop) (inn : String) (c : PropCall S) : Prop where
  schema : ¬ JSONEncoded c → Js .value c.schema
  content : JSONEncoded c → (∀ js, c.inner.2 = .ok js → Js .content js) ∧ ∀ n d, (n, d) ∈ c.inner.1 → DefinitionOk Js n d
  style : ∀ style explode, (c.collectionFormat, style, explode) ∈ collectionStyles → style ∈ pl.styles inn ∧ ¬ JSONEncoded c
  object : ¬ JSONEncoded c → c.inlined = .ok true → "deepObject" ∈ pl.styles inn
  tags : ∀ p q : Parameter S, c.populate p = .ok q → p.name = c.name → pl.names inn q.name ∧ q.inn = p.inn ∧ q.schema = p.schema ∧ q.content = p.content ∧
    (q.style = p.style ∨ ∃ st ∈ pl.styles p.inn, q.style = some st) ∧
    (p.content ≠ [] → q.style = p.style ∧ q.explode = p.explode)

/-- The reflection of a body. -/
def BodyReflectionOk (Js : Role → JS → Prop) (b : BodyReflection) : Prop :=
  ∀ sch defs, b.result = .ok (sch, defs) → Js .content sch ∧ ∀ n d, (n, d) ∈ defs → DefinitionOk Js n d

/-- A request unit of an operation with this method: what is asked of each reflection that takes place. -/
structure RequestUnitOk (pl : Places) (Js : Role → JS → Prop) (env : Env S) (method : String) (cu : ContentUnit S) :
    Prop where
  fields : ∀ inn c, (inn, c) ∈ paramFields env cu → ParamFieldOk pl Js inn c
  definitions : ReflectsParams cu → (cu.value env).isSliceOrMap = false → ∀ inn ∈ paramLocations, ∀ n d,
    Event.defn n d ∈ ((cu.value env).params inn (cu.fieldMapping inn)).events → DefinitionOk Js n d
  form : TakesForm cu → WantsFormBody env cu method →
    BodyReflectionOk Js ((cu.value env).body "formData" (cu.fieldMapping "formData"))
  json : TakesJSON cu → WantsJSONBody env cu method → BodyReflectionOk Js ((cu.value env).body "json" [])

/-- The request units of an operation. A customisation of a body keeps it in order, and only that of the last unit puts a
reference in its place. -/
def RequestsOk (pl : Places) (Js : Role → JS → Prop) (Sc : Role → S → Prop) (env : Env S)
    (method : String) : List (ContentUnit S) → Prop
  | [] => True
  | cu :: cus => RequestUnitOk pl Js env method cu ∧
    (∀ f, cu.customize = some f → ∀ b, BodyOk Sc b →
      RefOr (BodyOk Sc) (f.req { body := some b }).ref (f.req { body := some b }).body ∧
      (cus ≠ [] → (f.req { body := some b }).ref = none)) ∧
    RequestsOk pl Js Sc env method cus

/-- A response unit of an operation with this method: what is asked of each reflection that takes place. -/
structure ResponseUnitOk (Js : Role → JS → Prop) (Sc : Role → S → Prop) (key : String → Prop) (env : Env S) (method : String)
    (cu : ContentUnit S) : Prop where
  place : ∀ k, placeOf cu = some k → key k
  body : ∀ value, RespondsJSON env method cu value → ∀ js, value.response.result = .ok js → Js .content js
  definitions : ∀ value, RespondsJSON env method cu value → ∀ n d, Event.defn n d ∈ value.response.events → DefinitionOk Js n d
  headers : ∀ value, cu.structure_ = some value → ∀ c ∈ topFields (value.headers (cu.fieldMapping "header")).events,
    Js .value c.schema ∧ ∀ h h' : Header S, c.populateHeader h = .ok h' → h'.schema = h.schema
  customize : ∀ f, cu.customize = some f → ∀ r, ResponseOk Sc r →
    RefOr (ResponseOk Sc) (f.resp { response := some r }).ref (f.resp { response := some r }).response

/-- The context of an operation: the operation as set so far, its request units and its response units. -/
structure ContextOk (pl : Places) (Js : Role → JS → Prop) (Sc : Role → S → Prop) (key : String → Prop) (env : Env S)
    (oc : OpCtx S) : Prop where
  op : OperationOk pl Sc key oc.op
  inline : ∀ b, oc.op.requestBody = some b → b.ref = none
  req : RequestsOk pl Js Sc env oc.method oc.req
  resp : ∀ cu ∈ oc.resp, ResponseUnitOk Js Sc key env oc.method cu

end Verif.Conform
