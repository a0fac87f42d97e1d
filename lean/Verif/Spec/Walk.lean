import Verif.Walk
import Verif.Spec.Reflect

/-!
# Specification vocabulary for schema walkers
-/

namespace Verif
variable {S : Type}

/-- A place of an operation that has a schema: what the callback is to be told about it, and the text that
precedes the callback's error. The schema is an error if it cannot be resolved. -/
structure Site where
  inn : String
  name : String
  required : Bool
  schema : Except Stop (Option Resolved)
  label : String

/-- The call that tells about the place. -/
def TellsAbout (c : WalkCall) (t : Site) : Prop :=
  c.inn = t.inn ∧ c.name = t.name ∧ c.required = t.required ∧ t.schema = .ok c.schema

/-- The places are told about one after the other, each once, until the first error of the callback, which is
returned with its label, or until a schema that cannot be resolved. `before` are earlier calls. -/
inductive Walked (cb : Callback) : (before : List WalkCall) → List Site → List WalkCall → Out → Prop
  | finished {before} : Walked cb before [] [] .ok
  | broken {before t rest x} : t.schema = .error x → Walked cb before (t :: rest) [] .panic
  | failed {before t rest c e} : TellsAbout c t → cb before c = some e →
      Walked cb before (t :: rest) [c] (.err (t.label ++ e))
  | next {before t rest c cs out} : TellsAbout c t → cb before c = none →
      Walked cb (before ++ [c]) rest cs out → Walked cb before (t :: rest) (c :: cs) out

/-- The schema of a place, resolved; nil if there is none. -/
def resolved (resolve : Resolve S) : Option S → Except Stop (Option Resolved)
  | none => .ok none
  | some s => (resolve (some s)).map some

/-- The place of a parameter: its own schema, or else that of its JSON content. -/
def parameterSite (resolve : Resolve S) (p : Parameter S) : Site where
  inn := p.inn
  name := p.name
  required := p.required.getD false
  schema := resolved resolve (p.schema.or ((p.content.get? "application/json").bind (·.schema)))
  label := "schema for parameter (" ++ p.inn ++ ", " ++ p.name ++ "): "

/-- Replaces the extra properties of a schema object. -/
def JS.withExtra (extra : GoMap Any) : JS → JS
  | .obj flat not allOf oneOf anyOf items itemsArr props addl others =>
    .obj { flat with extra := extra } not allOf oneOf anyOf items itemsArr props addl others
  | j => j

/-- The schema of a form field as the callback gets it: a schema object takes over the extra properties of the
form, including the components, if the form has any. -/
def FieldSchema (extra : GoMap Any) (components : GoMap JS) : JS → Resolved → Prop
  | .obj flat not allOf oneOf anyOf items itemsArr props addl others, f =>
    f.components = components ∧
    ((extra = [] ∧ components = []) → f.schema = .obj flat not allOf oneOf anyOf items itemsArr props addl others) ∧
    (¬ (extra = [] ∧ components = []) →
      f.schema = (JS.obj flat not allOf oneOf anyOf items itemsArr props addl others).withExtra extra)
  | prop, f => f = ⟨prop, []⟩

/-- The place of a form field. -/
def FieldSite (flat : JFlat) (components : GoMap JS) (field : String × JS) (t : Site) : Prop :=
  t.inn = "formData" ∧ t.name = field.1 ∧ (t.required = true ↔ field.1 ∈ flat.required) ∧
    t.label = "request body schema: " ∧
    ∃ f, t.schema = .ok (some f) ∧ FieldSchema flat.extra components field.2 f

/-- The places of one media type of a request body: one for JSON, one for every field of a url-encoded form (in
any order), none for others. -/
inductive RequestContentSites (resolve : Resolve S) : String × MediaType S → List Site → Prop
  | unresolved {ct mt x t} : resolve mt.schema = .error x → t.schema = .error x → RequestContentSites resolve (ct, mt) [t]
  | json {mt r} : resolve mt.schema = .ok r →
      RequestContentSites resolve ("application/json", mt) [⟨"body", "body", false, .ok (some r), "request body schema: "⟩]
  | form {mt flat not allOf oneOf anyOf items itemsArr props addl others components order sites} :
      resolve mt.schema = .ok ⟨.obj flat not allOf oneOf anyOf items itemsArr props addl others, components⟩ →
      order.Perm props → Pointwise (FieldSite flat components) order sites →
      RequestContentSites resolve ("application/x-www-form-urlencoded", mt) sites
  | formNotObject {mt r t} : resolve mt.schema = .ok r →
      (∀ flat not allOf oneOf anyOf items itemsArr props addl others,
        r.schema ≠ .obj flat not allOf oneOf anyOf items itemsArr props addl others) →
      t.schema = .error .panic → RequestContentSites resolve ("application/x-www-form-urlencoded", mt) [t]
  | other {ct mt r} : resolve mt.schema = .ok r → ct ∉ ["application/json", "application/x-www-form-urlencoded"] →
      RequestContentSites resolve (ct, mt) []

/-- The places of a request: the parameters in their order, then the media types of the body in any order. -/
def RequestSites (resolve : Resolve S) (ps : List (Parameter S)) (body : Option (RequestBodyOrRef S)) (sites : List Site) : Prop :=
  ∃ order bodySites,
    order.Perm (((body.bind (·.body)).map (·.content)).getD []) ∧
    Pointwise (RequestContentSites resolve) order bodySites ∧
    sites = ps.map (parameterSite resolve) ++ bodySites.flatten

/-- The characters HTTP allows in names of headers (RFC 9110: `token`). -/
def TokenChar (c : Char) : Prop := c.isAlphanum = true ∨ c ∈ "!#$%&'*+-.^_`|~".toList

instance (c : Char) : Decidable (TokenChar c) := by unfold TokenChar; infer_instance

/-- A word begins here: at the beginning, and after each hyphen. -/
def StartsWord (cs : List Char) (i : Nat) : Prop := i = 0 ∨ cs[i - 1]? = some '-'

instance (cs : List Char) (i : Nat) : Decidable (StartsWord cs i) := by unfold StartsWord; infer_instance

/-- `name` is how HTTP writes the header name `n`: words begin with a capital and go on with small letters. Names that
are not allowed are left alone. -/
def HeaderName (n name : String) : Prop :=
  ((∀ c ∈ n.toList, TokenChar c) → name.toList.length = n.toList.length ∧
    ∀ (i : Nat) (c : Char), n.toList[i]? = some c →
      name.toList[i]? = some (if StartsWord n.toList i then c.toUpper else c.toLower)) ∧
  (¬ (∀ c ∈ n.toList, TokenChar c) → name = n)

/-- The places of a header: one if it has a schema. -/
inductive HeaderSites (resolve : Resolve S) : String × HeaderOrRef S → List Site → Prop
  | reference {n h t} : h.header = none → t.schema = .error .panic → HeaderSites resolve (n, h) [t]
  | none {n h hd} : h.header = some hd → hd.schema = none → HeaderSites resolve (n, h) []
  | some {n h hd s name} : h.header = some hd → hd.schema = some s → HeaderName n name →
      HeaderSites resolve (n, h) [⟨"header", name, hd.required.getD false, resolved resolve (some s),
        "response header schema (" ++ name ++ "): "⟩]

/-- The places of one media type of a response: one if it has a schema. -/
inductive ResponseContentSites (resolve : Resolve S) : String × MediaType S → List Site → Prop
  | none {ct mt} : mt.schema = none → ResponseContentSites resolve (ct, mt) []
  | some {ct mt s} : mt.schema = some s →
      ResponseContentSites resolve (ct, mt) [⟨"body", "body", false, resolved resolve (some s), "response body schema: "⟩]

/-- The places of a response: headers in any order, then media types in any order. -/
def ResponseSites (resolve : Resolve S) (resp : Response S) (sites : List Site) : Prop :=
  ∃ headers headerSites content contentSites,
    headers.Perm resp.headers ∧ Pointwise (HeaderSites resolve) headers headerSites ∧
    content.Perm resp.content ∧ Pointwise (ResponseContentSites resolve) content contentSites ∧
    sites = headerSites.flatten ++ contentSites.flatten

/-- The schemas of a request: those of the parameters, or else of their JSON content, and those of the body. -/
inductive RequestSchema (op : Operation S) : S → Prop
  | parameter {p sc} : { param := some p } ∈ op.parameters →
      p.schema.or ((p.content.get? "application/json").bind (·.schema)) = some sc → RequestSchema op sc
  | body {rb b ct mt sc} : op.requestBody = some rb → rb.body = some b → (ct, mt) ∈ b.content → mt.schema = some sc →
      RequestSchema op sc

/-- The schemas of a response: those of the headers and of the content. -/
inductive ResponseSchema (resp : Response S) : S → Prop
  | header {n h hd sc} : (n, h) ∈ resp.headers → h.header = some hd → hd.schema = some sc → ResponseSchema resp sc
  | content {ct mt sc} : (ct, mt) ∈ resp.content → mt.schema = some sc → ResponseSchema resp sc

/-- The schema is an object: neither a boolean nor the zero value. -/
def JS.IsObject (j : JS) : Prop :=
  ∃ flat not allOf oneOf anyOf items itemsArr props addl others,
    j = .obj flat not allOf oneOf anyOf items itemsArr props addl others

end Verif
