import Verif.Entities

/-!
# Operations as OpenAPI wants them

What the specification of OpenAPI demands of the parts of an operation. `Sc` says which schemas are accepted in which role, `pl` the
styles and the names of a parameter by its location, `key` the keys of responses.
-/

namespace Verif.Conform
variable {S : Type}

/-- The role of a schema: that of the value of a parameter or of a header, or that of a content or a component. -/
inductive Role
  | value
  | content

/-- The same in both roles. -/
abbrev Always {A : Type} (P : A → Prop) : Role → A → Prop := fun _ => P

/-- Each key once. -/
def Keys {V : Type} (m : GoMap V) : Prop := (m.map Prod.fst).Nodup

/-- A media type with a schema, if any, that is accepted, and nothing else. -/
def MediaOk (Sc : Role → S → Prop) (mt : MediaType S) : Prop := mt.other = [] ∧ ∀ s, mt.schema = some s → Sc .content s

/-- Contents by media type. -/
def ContentOk (Sc : Role → S → Prop) (m : GoMap (MediaType S)) : Prop := Keys m ∧ ∀ k mt, (k, mt) ∈ m → MediaOk Sc mt

/-- What a version of OpenAPI demands of the style and of the name of a parameter, by its place. -/
structure Places where
  styles : String → List String
  names : String → String → Prop

/-- A parameter: at one of the four places, required in the path, with a style of that place, and with either a schema or
content of one media type, and with a name for that place. One with content has no style. -/
structure ParamOk (pl : Places) (Sc : Role → S → Prop) (p : Parameter S) : Prop where
  place : p.inn ∈ ["path", "query", "header", "cookie"]
  required : p.inn = "path" → p.required = some true
  style : ∀ st, p.style = some st → st ∈ pl.styles p.inn
  name : pl.names p.inn p.name
  value : (∃ s, p.schema = some s ∧ Sc .value s ∧ p.content = []) ∨
    (p.schema = none ∧ ∃ mime mt, p.content = [(mime, mt)] ∧ MediaOk Sc mt)
  alone : p.content ≠ [] → p.style = none ∧ p.explode = none

/-- Exactly one of a reference and a value that is accepted. -/
def RefOr {A : Type} (Ok : A → Prop) (ref : Option String) (value : Option A) : Prop :=
  (∃ r, ref = some r ∧ value = none) ∨ ∃ a, ref = none ∧ value = some a ∧ Ok a

/-- A header with a schema. -/
def HeaderOk (Sc : Role → S → Prop) (h : Header S) : Prop := ∃ s, h.schema = some s ∧ Sc .value s

/-- A response. -/
structure ResponseOk (Sc : Role → S → Prop) (r : Response S) : Prop where
  headerKeys : Keys r.headers
  headers : ∀ k h, (k, h) ∈ r.headers → RefOr (HeaderOk Sc) h.ref h.header
  content : ContentOk Sc r.content

/-- A request body has some content. -/
def BodyOk (Sc : Role → S → Prop) (b : RequestBody S) : Prop := b.content ≠ [] ∧ ContentOk Sc b.content

/-- The key of a response: a number from 100 to 599, or `1XX` to `5XX`. -/
def StatusKey (k : String) : Prop := ∃ a b c : Char, k.toList = [a, b, c] ∧ ('1' ≤ a ∧ a ≤ '5') ∧
  ((b.isDigit = true ∧ c.isDigit = true) ∨ (b = 'X' ∧ c = 'X'))

/-- The key of a component: letters, digits, `.`, `-` and `_`. -/
def IsName (k : String) : Prop := k.toList ≠ [] ∧ ∀ c ∈ k.toList, c.isAlphanum = true ∨ c = '.' ∨ c = '-' ∨ c = '_'

/-- An operation. -/
structure OperationOk (pl : Places) (Sc : Role → S → Prop) (key : String → Prop) (op : Operation S) : Prop where
  parameters : ∀ p ∈ op.parameters, RefOr (ParamOk pl Sc) p.ref p.param
  body : ∀ b, op.requestBody = some b → RefOr (BodyOk Sc) b.ref b.body
  default : ∀ r, op.responses.default = some r → RefOr (ResponseOk Sc) r.ref r.response
  codeKeys : Keys op.responses.codes
  codes : ∀ k r, (k, r) ∈ op.responses.codes → key k ∧ RefOr (ResponseOk Sc) r.ref r.response
  extKeys : Keys op.ext
  ext : ∀ k b, (k, b) ∈ op.ext → "x-".toList <+: k.toList

end Verif.Conform
