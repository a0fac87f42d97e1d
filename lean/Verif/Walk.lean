import Verif.Reflect
import Verif.Refs31

/-!
# Model of `/repo/openapi3/walk_schema.go` and `/repo/openapi31/walk_schema.go`

The two files have the same text up to the call of `ToJSONSchema`, which is the parameter `resolve`.
-/

namespace Verif

/-! ## `http.CanonicalHeaderKey` -/

/-- `validHeaderFieldByte` of net/textproto: the characters of an RFC 7230 token. -/
def validHeaderChar (c : Char) : Bool :=
  ('a' ≤ c && c ≤ 'z') || ('A' ≤ c && c ≤ 'Z') || ('0' ≤ c && c ≤ '9') ||
    "!#$%&'*+-.^_`|~".toList.contains c

/-- The loop of `canonicalMIMEHeaderKey` of net/textproto. -/
def canonicalChars : (upper : Bool) → List Char → List Char
  | _, [] => []
  | upper, c :: cs =>
    let c := if upper then (if 'a' ≤ c && c ≤ 'z' then Char.ofNat (c.toNat - 32) else c)
      else (if 'A' ≤ c && c ≤ 'Z' then Char.ofNat (c.toNat + 32) else c)
    c :: canonicalChars (c = '-') cs

/-- `http.CanonicalHeaderKey`, used in `/repo/openapi3/walk_schema.go:74`, `/repo/openapi31/walk_schema.go:74`. -/
def canonicalHeaderKey (s : String) : String :=
  if s.toList.all validHeaderChar then String.ofList (canonicalChars true s.toList) else s

/-! ## Callbacks -/

/-- One call of a `JSONSchemaCallback` (`/repo/reflector.go:17`): location, name, schema (`none` for nil), required. -/
structure WalkCall where
  inn : String
  name : String
  schema : Option Resolved
  required : Bool

/-- A callback may have a state: its answer depends on the calls before. `none` is a nil error. -/
abbrev Callback := (before : List WalkCall) → WalkCall → Option String

/-- `if err := cb(...); err != nil { return fmt.Errorf("label: %w", err) }`. The state is the list of calls. -/
def callCb (cb : Callback) (label : String) (c : WalkCall) : Act (List WalkCall) := fun before =>
  match cb before c with
  | none => (before ++ [c], .ok)
  | some e => (before ++ [c], .err (label ++ e))

/-- The entries of a map in the order of iteration. -/
def inOrder {α : Type} (o : Order) (clock : Nat) (xs : List α) : List α :=
  (o.ord clock xs.length).filterMap (xs[·]?)

variable {S : Type}

/-- `ToJSONSchema` of a possibly nil schema; an error is a panic. -/
abbrev Resolve (S : Type) := Option S → Except Stop Resolved

/-- `x.ToJSONSchema(r.Spec)` and the call with its result. -/
def resolveAndCall (resolve : Resolve S) (cb : Callback) (label inn name : String) (required : Bool) (s : Option S) :
    Act (List WalkCall) := fun before =>
  match resolve s with
  | .error _ => (before, .panic)
  | .ok r => callCb cb label ⟨inn, name, some r, required⟩ before

/-- `required := p != nil && *p`. -/
def isTrue (b : Option Bool) : Bool := b = some true

/-! ## Requests -/

/-- `paramSchema`. `/repo/openapi3/walk_schema.go:199-209`, `/repo/openapi31/walk_schema.go:199-209`. -/
def walkParamSchema (p : Parameter S) : Option S :=
  match p.schema with
  | some s => some s
  | none =>
    match p.content.get? "application/json" with
    | some mt => mt.schema
    | none => none

/-- One iteration of `provideParametersJSONSchemas`. -/
def walkParameter (resolve : Resolve S) (cb : Callback) (p : ParamOrRef S) : Act (List WalkCall) := fun before =>
  match p.param with
  | none => (before, .panic)
  | some pp =>
    let label := "schema for parameter (" ++ pp.inn ++ ", " ++ pp.name ++ "): "
    match walkParamSchema pp with
    | none => callCb cb label ⟨pp.inn, pp.name, none, isTrue pp.required⟩ before
    | some sc => resolveAndCall resolve cb label pp.inn pp.name (isTrue pp.required) (some sc) before

/-- `provideParametersJSONSchemas`. `/repo/openapi3/walk_schema.go:170-197`,
`/repo/openapi31/walk_schema.go:170-197`. -/
def provideParameters (resolve : Resolve S) (cb : Callback) (ps : List (ParamOrRef S)) : Act (List WalkCall) :=
  foldActs (walkParameter resolve cb) ps

/-- The schema of a form field: it takes over the extra properties of the form, among which are the
components. `/repo/openapi3/walk_schema.go:145-149`. -/
def formField (extra : GoMap Any) (components : GoMap JS) (prop : JS) : Resolved :=
  match prop with
  | .obj flat not allOf oneOf anyOf items itemsArr props addl others =>
    if extra.length + components.length > 0 then
      ⟨.obj { flat with extra := extra } not allOf oneOf anyOf items itemsArr props addl others, components⟩
    else ⟨prop, []⟩
  | j => ⟨j, []⟩

/-- `provideFormDataSchemas`. `/repo/openapi3/walk_schema.go:141-168`, `/repo/openapi31/walk_schema.go:141-168`. -/
def provideFormData (o : Order) (cb : Callback) (r : Resolved) : Act (List WalkCall) := fun before =>
  match r.schema with
  | .obj flat _ _ _ _ _ _ props _ _ =>
    foldActs (fun (np : String × JS) =>
      callCb cb "request body schema: "
        ⟨"formData", np.1, some (formField flat.extra r.components np.2), flat.required.contains np.1⟩)
      (inOrder o 2 props) before
  | _ => (before, .panic)

/-- One iteration over the content of the request body. `/repo/openapi3/walk_schema.go:121-136`. -/
def walkContent (o : Order) (resolve : Resolve S) (cb : Callback) (cmt : String × MediaType S) :
    Act (List WalkCall) := fun before =>
  match resolve cmt.2.schema with
  | .error _ => (before, .panic)
  | .ok r =>
    if cmt.1 = "application/json" then callCb cb "request body schema: " ⟨"body", "body", some r, false⟩ before
    else if cmt.1 = "application/x-www-form-urlencoded" then provideFormData o cb r before
    else (before, .ok)

/-- The walk over a request operation. `/repo/openapi3/walk_schema.go:112-138`. -/
def provideRequest (o : Order) (resolve : Resolve S) (cb : Callback) (op : Operation S) : Act (List WalkCall) :=
  fun before =>
  match provideParameters resolve cb op.parameters before with
  | (before, .ok) =>
    match op.requestBody with
    | some { body := some b, .. } => foldActs (walkContent o resolve cb) (inOrder o 1 b.content) before
    | _ => (before, .ok)
  | r => r

/-- What a walk did: the component schemas of the document and the operation of the context afterwards, the
calls of the callback, and how it ended. -/
structure WalkRun (S : Type) where
  state : ReqState S
  calls : List WalkCall
  out : Out

/-- `WalkRequestJSONSchemas` up to the deferred call. `/repo/openapi3/walk_schema.go:85-139`,
`/repo/openapi31/walk_schema.go:85-139`. `resolve` is given the component schemas. -/
def walkRequest (v : Ver S) (env : Env S) (resolve : GoMap S → Resolve S) (o : Order) (cb : Callback)
    (schemas : GoMap S) (method : String) (cu : ContentUnit S) : WalkRun S :=
  let oc : OpCtx S := ({ method := method, path := "/" } : OpCtx S).addReqStructure (.value none) [fun _ => cu]
  match setupRequest v env oc.method oc.req ⟨schemas, oc.op⟩ with
  | (s, .ok) =>
    let (calls, out) := provideRequest o (resolve s.schemas) cb s.op []
    ⟨s, calls, out⟩
  | (s, out) => ⟨s, [], out⟩

/-! ## Responses -/

/-- One iteration of `provideHeaderSchemas`. -/
def walkHeader (resolve : Resolve S) (cb : Callback) (nh : String × HeaderOrRef S) : Act (List WalkCall) := fun before =>
  match nh.2.header with
  | none => (before, .panic)
  | some h =>
    match h.schema with
    | none => (before, .ok)
    | some s =>
      let name := canonicalHeaderKey nh.1
      resolveAndCall resolve cb ("response header schema (" ++ name ++ "): ") "header" name (isTrue h.required) (some s)
        before

/-- One iteration over the content of the response. `/repo/openapi3/walk_schema.go:45-55`. -/
def walkRespContent (resolve : Resolve S) (cb : Callback) (cmt : String × MediaType S) : Act (List WalkCall) :=
  fun before =>
  match cmt.2.schema with
  | none => (before, .ok)
  | some s => resolveAndCall resolve cb "response body schema: " "body" "body" false (some s) before

/-- `for _, r := range op.Responses.MapOfResponseOrRefValues { resp = r.Response }`, then the headers
(`provideHeaderSchemas`) and the content. `/repo/openapi3/walk_schema.go:35-82`,
`/repo/openapi31/walk_schema.go:35-82`. A nil `resp` is dereferenced. -/
def provideResponse (o : Order) (resolve : Resolve S) (cb : Callback) (op : Operation S) : Act (List WalkCall) :=
  fun before =>
  match ((inOrder o 0 op.responses.codes).getLast?).bind (·.2.response) with
  | none => (before, .panic)
  | some resp =>
    match foldActs (walkHeader resolve cb) (inOrder o 1 resp.headers) before with
    | (before, .ok) => foldActs (walkRespContent resolve cb) (inOrder o 2 resp.content) before
    | r => r

/-- `WalkResponseJSONSchemas` up to the deferred call. `/repo/openapi3/walk_schema.go:13-58`,
`/repo/openapi31/walk_schema.go:13-58`. -/
def walkResponse (v : Ver S) (env : Env S) (resolve : GoMap S → Resolve S) (o : Order) (cb : Callback)
    (schemas : GoMap S) (cu : ContentUnit S) : WalkRun S :=
  let oc : OpCtx S := ({ method := "GET", path := "/" } : OpCtx S).addRespStructure (.value none) [fun _ => cu]
  match setupResponse v env oc.method oc.resp ⟨schemas, oc.op⟩ with
  | (s, .ok) =>
    let (calls, out) := provideResponse o (resolve s.schemas) cb s.op []
    ⟨s, calls, out⟩
  | (s, out) => ⟨s, [], out⟩

/-! ## The deferred call -/

/-- What the caller observes: calls of the callback, and calls of `done` with the operation of its context. -/
inductive WalkEvent (S : Type) where
  | call (c : WalkCall)
  | done (op : Operation S)

/-- The observable events of a walk; `done` is deferred, hence called last, also if the walk fails or panics.
`/repo/openapi3/walk_schema.go:23-27,100-104`, `/repo/openapi31/walk_schema.go:23-27,100-104`. -/
def WalkRun.events (run : WalkRun S) (hasDone : Bool) : List (WalkEvent S) :=
  run.calls.map .call ++ if hasDone then [.done run.state.op] else []

namespace V30

/-- `ToJSONSchema` in the 3.0 walkers. `noComponents`: if there are no component schemas, then because one of
the pointers `Spec`, `Components`, `Schemas` is nil. A nil schema is dereferenced. -/
def resolve (noComponents : Bool) (o : Order) (m : GoMap OS) : Resolve OS
  | none => .error .panic
  | some s => toJSONSchema (if noComponents && m.length = 0 then none else some m) o (m.length + 1) s

/-- `ResolveJSONSchemaRef`. `/repo/openapi3/reflect.go:78-95`. `none` for the components: one of the pointers
`Spec`, `Components`, `Schemas` is nil. The result `none` is "not found". -/
def resolveRef (components : Option (GoMap OS)) (o : Order) (ref : String) : Except Stop (Option Resolved) :=
  match components with
  | none => .ok none
  | some m =>
    match localRef? ref with
    | none => .ok none
    | some n =>
      match m.get? n with
      | none => .ok none
      | some s => (toJSONSchema (some m) o (m.length + 1) s).map some

end V30

namespace V31

/-- `ToJSONSchema` in the 3.1 walkers; `fromSimpleMap` is jsonschema-go's (`none` is an error), for nil if there
is no schema. -/
def resolve (fromSimpleMap : Option S → Option JS) (noComponents : Bool) (o : Order) (m : GoMap S) : Resolve S := fun s =>
  toJSONSchema
    (if noComponents && m.length = 0 then none
      else some ⟨m.map (fun e => (e.1, fromSimpleMap (some e.2))), (fromSimpleMap none).isSome⟩)
    o (m.length + 1) (fromSimpleMap s)

/-- `ResolveJSONSchemaRef`. `/repo/openapi31/reflect.go:84-103`. `none` for the components: one of `Spec`,
`Components`, `Schemas` is nil. The result `none` is "not found". -/
def resolveRef (fromSimpleMap : Option S → Option JS) (components : Option (GoMap S)) (ref : String) :
    Except Stop (Option JS) :=
  match components with
  | none => .ok none
  | some m =>
    match localRef? ref with
    | none => .ok none
    | some n =>
      match m.get? n with
      | none => .ok none
      | some s =>
        match fromSimpleMap (some s) with
        | none => .error .panic
        | some j => .ok (some j)

end V31
end Verif
