import Verif.Spec.PublishHistory30

/-!
# What the 3.0 meta-schema demands beyond `Verif.Spec.Meta30`

Some keywords of `/repo/resources/schema/openapi3.json` are marked `skip` in `Verif.Spec.Meta30`. Those that concern what the
library itself puts into a document are given a meaning here, on the JSON of the document. Nothing here mentions the code,
except for the last part, which says which calls build a document.
-/

namespace Verif.Rest30

/-- The object has the member. -/
def Member (j : Any) (k : String) (x : Any) : Prop := ∃ ms, j = .obj ms ∧ (k, x) ∈ ms

/-- `required: [k]`, for an object. -/
def Has (j : Any) (k : String) : Prop := ∃ x, Member j k x

/-- `minProperties: n`. -/
def MinProperties (n : Nat) (v : Any) : Prop := ∀ ms, v = .obj ms → n ≤ ms.length

/-- `maxProperties: n`. -/
def MaxProperties (n : Nat) (v : Any) : Prop := ∀ ms, v = .obj ms → ms.length ≤ n

/-- `not: {required: [a, b]}`. -/
def NotBoth (a b : String) (v : Any) : Prop := ¬ (Has v a ∧ Has v b)

/-- The pattern `^3\.0\.\d(-.+)?$`. -/
def IsVersion (s : String) : Prop :=
  ∃ (d : Char) (rest : List Char), s.toList = ['3', '.', '0', '.', d] ++ rest ∧ ('0' ≤ d ∧ d ≤ '9') ∧
    (rest = [] ∨ ∃ c cs, rest = '-' :: c :: cs)

/-- `uniqueItems: true` for parameters that are not references. More than that: two of them differ in the name or the
place, which each of them has. -/
def DistinctParams (xs : List Any) : Prop :=
  (∀ x ∈ xs, ¬ Has x "$ref" → Has x "name" ∧ Has x "in") ∧
  xs.Pairwise (fun x y => ∀ n l, Member x "name" n → Member x "in" l → Member y "name" n → Member y "in" l → False)

/-- The HTTP methods. -/
def methods : List String := ["get", "put", "post", "delete", "options", "head", "patch", "trace"]

/-- The operation at a path and method. -/
def OperationAt (j : Any) (path method : String) (o : Any) : Prop :=
  method ∈ methods ∧ ∃ ps item, Member j "paths" ps ∧ Member ps path item ∧ Member item method o

/-- Some operation of the document. -/
def IsOperation (j o : Any) : Prop := ∃ path method, OperationAt j path method o

/-- A parameter of some operation. -/
def IsParameter (j p : Any) : Prop := ∃ o xs, IsOperation j o ∧ Member o "parameters" (.arr xs) ∧ p ∈ xs

/-- A response of some operation. -/
def IsResponse (j r : Any) : Prop := ∃ o rs k, IsOperation j o ∧ Member o "responses" rs ∧ Member rs k r

/-- A header of some response. -/
def IsHeader (j h : Any) : Prop := ∃ r hs k, IsResponse j r ∧ Member r "headers" hs ∧ Member hs k h

/-- Something with content: a parameter, a response or a request body. -/
def Holder (j x : Any) : Prop :=
  IsParameter j x ∨ IsResponse j x ∨ ∃ o, IsOperation j o ∧ Member o "requestBody" x

/-- A media type. -/
def IsMedia (j mt : Any) : Prop := ∃ x c k, Holder j x ∧ Member x "content" c ∧ Member c k mt

/-- The keywords that `Verif.Spec.Meta30` skips, for the operations of a document. -/
structure Rest (j : Any) : Prop where
  /-- `openapi`: pattern -/
  version : ∃ s, Member j "openapi" (.str s) ∧ IsVersion s
  /-- `Responses`: `minProperties: 1` -/
  responses : ∀ o, IsOperation j o → Has o "responses" ∧ ∀ rs, Member o "responses" rs → MinProperties 1 rs
  /-- `Operation`: `parameters` with `uniqueItems: true` -/
  distinct : ∀ o xs, IsOperation j o → Member o "parameters" (.arr xs) → DistinctParams xs
  /-- `Parameter`: `ExampleXORExamples` -/
  example_ : ∀ p, IsParameter j p → NotBoth "example" "examples" p
  /-- `Parameter`: `content` with `minProperties: 1` and `maxProperties: 1` -/
  content : ∀ p c, IsParameter j p → Member p "content" c → MinProperties 1 c ∧ MaxProperties 1 c
  /-- `SchemaXORContent`: next to `content` there is no style, explode, allowReserved, example or examples -/
  alone : ∀ p, IsParameter j p → Has p "content" →
    ∀ k ∈ ["style", "explode", "allowReserved", "example", "examples"], ¬ Has p k
  /-- `Header`: `ExampleXORExamples` and `SchemaXORContent` -/
  header : ∀ h, IsHeader j h → ¬ Has h "$ref" → NotBoth "example" "examples" h ∧ Has h "schema" ∧ ¬ Has h "content"
  /-- `MediaType`: `ExampleXORExamples` -/
  media : ∀ mt, IsMedia j mt → NotBoth "example" "examples" mt

/-! ## Calls -/

open Pub30 Conform

/-- The operation has a response. -/
def HasResponse {S : Type} (op : Operation S) : Prop := op.responses.default ≠ none ∨ op.responses.codes ≠ []

/-- As `Pub30.Built`, but the functions given to `SetupOperation` leave operations that have a response. -/
inductive Answered {S : Type} (v : Ver S) (Js : Role → JS → Prop) (Sc : Role → S → Prop) : V30.Spec S → Prop
  | new : Answered v Js Sc {}
  | title {d} (t : String) : Answered v Js Sc d → Answered v Js Sc (d.setTitle t)
  | description {d} (t : String) : Answered v Js Sc d → Answered v Js Sc (d.setDescription t)
  | version {d} (t : String) : Answered v Js Sc d → Answered v Js Sc (d.setVersion t)
  | reflect {d} (env : Env S) (oc : OpCtx S) : Answered v Js Sc d → ContextOk places Js Sc StatusKey env oc →
      Rooted oc.path → Answered v Js Sc (V30.addOperation v env d oc).1
  | add {d} (method path : String) (op : Operation S) : Answered v Js Sc d → OperationOk places Sc StatusKey op →
      Rooted path → Answered v Js Sc (d.addOperation method path op).1
  | setup {d} (method path : String) (fs : List (Setup S)) : Answered v Js Sc d →
      (∀ f ∈ fs, ∀ op, OperationOk places Sc StatusKey op → OperationOk places Sc StatusKey (f op).1) →
      (∀ op op', runSetups fs op = (op', none) → HasResponse op') →
      Rooted path → Answered v Js Sc (d.setupOperation method path fs).1
  | basic {d} (name text : String) : Answered v Js Sc d → IsName name → Answered v Js Sc (d.setHTTPBasicSecurity name text)
  | bearer {d} (name format text : String) : Answered v Js Sc d → IsName name →
      Answered v Js Sc (d.setHTTPBearerTokenSecurity name format text)
  | apiKey {d} (name field place text : String) : Answered v Js Sc d → IsName name → place ∈ ["header", "query", "cookie"] →
      Answered v Js Sc (d.setAPIKeySecurity name field place text)

end Verif.Rest30
