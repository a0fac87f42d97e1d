import Verif.Deprecated

/-!
# Model of what callbacks of the schema library can learn about the operation

`/repo/operation.go:159-177` (`WithOperationCtx`, `OperationCtx`) and the calls of `Reflect` in both reflectors and
in `/repo/internal/json_schema.go`. The operation context is one mutable value that all these calls share, so what a
callback reads from it is its content at that time. The definitions follow those of `Verif.Reflect` and keep, beside
their state, the content of the context (`Progress`) and a log of what callbacks could see (`Seen`).

Simplification: a call of `Reflect` calls back once when it starts, and once per field, definition or visited value.
-/

namespace Verif
variable {S : Type}

/-- `isProcessingResponse` and `processingIn` of the context. `/repo/internal/operation_context.go:21-22`. -/
structure Progress where
  response : Bool
  inn : String
deriving DecidableEq, Repr

/-- The calls of `Reflect`. -/
inductive Task where
  /-- finding out `ProcessWithoutTags`, `/repo/internal/json_schema.go:91-93` -/
  | probe
  /-- request body, `/repo/internal/json_schema.go:185` -/
  | form
  | json
  /-- parameters, `/repo/internal/json_schema.go:291-306` -/
  | params (inn : String)
  /-- the type of one parameter, `/repo/openapi3/reflect.go:503-525`, `/repo/openapi31/reflect.go:466-490` -/
  | field (inn : String)
  /-- whether a response has a JSON body, `/repo/internal/json_schema.go:222` -/
  | check
  /-- response body, `/repo/internal/json_schema.go:213` -/
  | response
  /-- response headers, `/repo/internal/json_schema.go:261-271` -/
  | header
deriving DecidableEq, Repr

/-- A callback during a call of `Reflect` for a unit, with what `OperationCtx` gives it: nothing (`ok` is false), or
the context with its content at that time. -/
structure Seen (S : Type) where
  unit : ContentUnit S
  task : Task
  ctx : Option Progress

/-- The content of the context, and the log. -/
structure Watch (S : Type) where
  progress : Progress
  seen : List (Seen S) := []

/-- `WithOperationCtx`, when `Reflect` applies its options. `/repo/operation.go:161-168`. -/
def Watch.enter (response : Bool) (inn : String) (w : Watch S) : Watch S := { w with progress := ⟨response, inn⟩ }

/-- A callback in a call of `Reflect` that was given the context; `OperationCtx` finds it.
`/repo/operation.go:171-177`. -/
def Watch.see (cu : ContentUnit S) (t : Task) (w : Watch S) : Watch S :=
  { w with seen := w.seen ++ [⟨cu, t, some w.progress⟩] }

/-- A callback in a call of `Reflect` that was not; `OperationCtx` finds nothing. -/
def Watch.blind (cu : ContentUnit S) (t : Task) (w : Watch S) : Watch S :=
  { w with seen := w.seen ++ [⟨cu, t, none⟩] }

/-- Callbacks for each of a list. -/
def Watch.seeAll {A : Type} (cu : ContentUnit S) (t : Task) (l : List A) (w : Watch S) : Watch S :=
  l.foldl (fun w _ => w.see cu t) w

/-- First the calls, then the step. -/
def watching {σ : Type} (f : Watch S → Watch S) (a : Act σ) : Act (σ × Watch S) := fun (s, w) =>
  let (s, out) := a s
  ((s, f w), out)

/-! ## Requests -/

/-- The calls in `ReflectRequestBody`. `/repo/internal/json_schema.go:36-191`, with
`WithOperationCtx(oc, false, "body")` of `/repo/openapi3/reflect.go:397`, `/repo/openapi31/reflect.go:363`. -/
def bodyCalls (env : Env S) (cu : ContentUnit S) (method : String) (mapping : GoMap String) (tag : String)
    (additionalTags : List String) (t : Task) (w : Watch S) : Watch S :=
  let input := cu.input env
  if bodyless method && !input.forceBody then w
  else
    let hasTaggedFields := input.tagged tag || additionalTags.any input.tagged
    if !hasTaggedFields && mapping.length = 0 && tag ≠ "json" then w
    else if tag = "json" && (input.tagged "formData" || input.tagged "form") && !input.forceJSONBody &&
        !input.hasJSONSchemaStruct then w
    else
      let w := w.blind cu .probe
      match env.processWithoutTags with
      | .error _ => w
      | .ok isProcessWithoutTags =>
        if !hasTaggedFields && !input.hasJSONSchemaStruct && mapping.length = 0 && !input.isSliceOrMap &&
            !input.embedsSliceOrMap && !isProcessWithoutTags then w
        else ((w.enter false "body").see cu t).seeAll cu t (input.body tag mapping).visited

/-- `parseRequestBody`, which calls `Reflect` before it changes anything. `/repo/openapi3/reflect.go:379-427`,
`/repo/openapi31/reflect.go:345-398`. -/
def parseRequestBodyW (v : Ver S) (env : Env S) (cu : ContentUnit S) (method mime : String) (mapping : GoMap String)
    (tag : String) (additionalTags : List String) (t : Task) : Act (ReqState S × Watch S) :=
  watching (bodyCalls env cu method mapping tag additionalTags t)
    (parseRequestBody v env cu method mime mapping tag additionalTags)

/-- The calls in the `InterceptProp` callback: the callback itself, and, for a field that becomes a parameter, the
call of `Reflect` for its type. `/repo/openapi3/reflect.go:459-525`, `/repo/openapi31/reflect.go:426-490`. -/
def fieldCalls (v : Ver S) (cu : ContentUnit S) (inn : String) (c : PropCall S) (w : Watch S) : Watch S :=
  let w := w.see cu (.params inn)
  if !c.processed || c.pathLen > 1 then w
  else
    match v.conv c.schema with
    | .ok _ => ((w.enter false inn).see cu (.field inn)).seeAll cu (.field inn) c.inner.1
    | _ => w

/-- `parseParametersIn`. `/repo/openapi3/reflect.go:443-572`, `/repo/openapi31/reflect.go:414-538`,
`/repo/internal/json_schema.go:275-307`. -/
def parseParametersInW (v : Ver S) (env : Env S) (cu : ContentUnit S) (inn : String) : Act (ReqState S × Watch S) :=
  fun (s, w) =>
  let value := cu.input env
  if value.isSliceOrMap then ((s, w), .ok)
  else
    let refl := value.params inn (cu.fieldMapping inn)
    let w := (w.enter false inn).see cu (.params inn)
    match runEvents env (fun c => watching (fieldCalls v cu inn c) (onParameter v inn c))
        (fun n d => watching (Watch.see cu (.params inn)) (onReqDefinition v n d)) refl.events (s, w) with
    | ((s, w), .ok) =>
      match refl.result with
      | .error e => ((s, w), .err e)
      | .ok js =>
        if js.forbidsAdditional then
          (({ s with op := { s.op with ext := s.op.ext.set ("x-forbid-unknown-" ++ inn) true } }, w), .ok)
        else ((s, w), .ok)
    | r => r

/-- `parseParameters`. `/repo/openapi3/reflect.go:435-441`, `/repo/openapi31/reflect.go:406-412`. -/
def parseParametersW (v : Ver S) (env : Env S) (cu : ContentUnit S) : Act (ReqState S × Watch S) :=
  joinActs [parseParametersInW v env cu "query", parseParametersInW v env cu "path",
    parseParametersInW v env cu "cookie", parseParametersInW v env cu "header"] []

/-- The reflection of one request unit. `/repo/openapi3/reflect.go:290-318`, `/repo/openapi31/reflect.go:256-283`. -/
def reflectUnitW (v : Ver S) (env : Env S) (method : String) (cu : ContentUnit S) : Act (ReqState S × Watch S) :=
  fun s =>
  let form := parseRequestBodyW v env cu method "application/x-www-form-urlencoded" (cu.fieldMapping "formData")
    "formData" ["form"] .form
  let params := parseParametersW v env cu
  let json := parseRequestBodyW v env cu method "application/json" [] "json" [] .json
  if cu.contentType = "" then
    match joinActs [form, params, json] [] s with
    | (s, .ok) => watching id (parseRawRequestBody v cu) s
    | r => r
  else if cu.contentType = "application/json" then joinActs [params, json] [] s
  else if cu.contentType = "application/x-www-form-urlencoded" ∨ cu.contentType = "multipart/form-data" then
    joinActs [form, params] [] s
  else watching id (stringRequestBody v cu.contentType cu.format) s

/-- The loop of `setupRequest`. `/repo/openapi3/reflect.go:288-329`, `/repo/openapi31/reflect.go:254-295`. -/
def setupRequestW (v : Ver S) (env : Env S) (method : String) : List (ContentUnit S) → Act (ReqState S × Watch S)
  | [], s => (s, .ok)
  | cu :: cus, s =>
    match reflectUnitW v env method cu s with
    | ((s, w), .ok) => setupRequestW v env method cus ({ s with op := finishRequest cu s.op }, w)
    | r => r

/-! ## Responses -/

/-- `parseJSONResponse`. `/repo/openapi3/reflect.go:743-782`, `/repo/openapi31/reflect.go:713-750`,
`/repo/internal/json_schema.go:194-245`. The checks whether there is a body are made without the context. -/
def parseJSONResponseW (v : Ver S) (env : Env S) (cu : ContentUnit S) : Act (RespState S × Watch S) := fun (s, w) =>
  let w := if cu.structure_.isSome then w.blind cu .check else w
  match reflectJSONResponse env cu with
  | none => ((s, w), .ok)
  | some refl =>
    let w := (w.enter true "body").see cu .response
    match runEvents env (fun _ => watching (Watch.see cu .response) (fun s => (s, .ok)))
        (fun n d => watching (Watch.see cu .response) (onRespDefinition v n d)) refl.events (s, w) with
    | ((s, w), .ok) =>
      match refl.result with
      | .error e => ((s, w), .err e)
      | .ok js =>
        match v.conv js with
        | .panic => ((s, w), .panic)
        | .err e => ((s, w), .err e)
        | .ok sch =>
          let ct := if cu.contentType = "" then "application/json" else cu.contentType
          let mt := (s.resp.content.get? ct).getD {}
          let resp := { s.resp with content := s.resp.content.set ct { mt with schema := some (v.respSchema sch) } }
          (({ s with resp := describeFrom js resp }, w), .ok)
    | r => r

/-- `parseResponseHeader`. `/repo/openapi3/reflect.go:595-648`, `/repo/openapi31/reflect.go:563-618`,
`/repo/internal/json_schema.go:248-272`. -/
def parseResponseHeaderW (v : Ver S) (env : Env S) (cu : ContentUnit S) : Act (RespState S × Watch S) := fun (s, w) =>
  match cu.structure_ with
  | none => ((s, w), .ok)
  | some value =>
    let refl := value.headers (cu.fieldMapping "header")
    let w := (w.enter true "header").see cu .header
    match runEvents env (fun c => watching (Watch.see cu .header) (onHeader v c))
        (fun _ _ => watching (Watch.see cu .header) (fun s => (s, .ok))) refl.events ([], w) with
    | ((res, w), .ok) =>
      match refl.result with
      | .error e => ((s, w), .err e)
      | .ok js => (({ s with resp := describeFrom js { s.resp with headers := res } }, w), .ok)
    | ((_, w), out) => ((s, w), out)

/-- Contents of the response. `/repo/openapi3/reflect.go:689-707`, `/repo/openapi31/reflect.go:659-677`. -/
def reflectResponseW (v : Ver S) (env : Env S) (method : String) (cu : ContentUnit S) : Act (RespState S × Watch S) :=
  fun s =>
  if goToUpper method ≠ "HEAD" then
    match joinActs [parseJSONResponseW v env cu, parseResponseHeaderW v env cu] [] s with
    | (s, .ok) =>
      match watching id (parseRawResponseBody v cu) s with
      | (s, .ok) =>
        if cu.contentType ≠ "" then watching id (ensureResponseContentType v cu.contentType cu.format) s else (s, .ok)
      | r => r
    | r => r
  else parseResponseHeaderW v env cu s

/-- The loop of `setupResponse`. `/repo/openapi3/reflect.go:660-731`, `/repo/openapi31/reflect.go:630-701`. -/
def setupResponseW (v : Ver S) (env : Env S) (method : String) : List (ContentUnit S) → Act (ReqState S × Watch S)
  | [], s => (s, .ok)
  | cu :: cus, (s, w) =>
    let cu := normaliseUnit cu
    let slot := respSlot cu s.op
    let old := slot.bind (·.response)
    match reflectResponseW v env method cu (⟨s.schemas, old.getD {}⟩, w) with
    | ((r, w), .ok) =>
      setupResponseW v env method cus (⟨r.schemas, setRespSlot cu (finishResponse cu r.resp) s.op⟩, w)
    | ((r, w), out) =>
      let entry := match slot with
        | some e => if e.response.isSome then some { e with response := some r.resp } else some e
        | none => if cu.isDefault then some {} else none
      ((⟨r.schemas, match entry with
        | some e => setRespSlot cu e s.op
        | none => s.op⟩, w), out)

/-! ## Operations -/

/-- The request and response part of `AddOperation` and `AddWebhook`. `/repo/openapi3/reflect.go:273-283`,
`/repo/openapi31/reflect.go:233-252`. -/
def setupOCW (v : Ver S) (env : Env S) (oc : OpCtx S) : Act (ReqState S × Watch S) := fun s =>
  match setupRequestW v env oc.method oc.req s with
  | (s, .err e) => (s, .err ("setup request " ++ oc.method ++ " " ++ oc.path ++ ": " ++ e))
  | (s, .panic) => (s, .panic)
  | (s, .ok) =>
    match validatePathParams s.1.op.parameters oc.pathParams with
    | some e => (s, .err ("validate path params " ++ oc.method ++ " " ++ oc.path ++ ": " ++ e))
    | none =>
      match setupResponseW v env oc.method oc.resp s with
      | (s, .err e) => (s, .err ("setup response " ++ oc.method ++ " " ++ oc.path ++ ": " ++ e))
      | r => r

/-- What `OperationCtx` gives callbacks of `Reflect` when the content of the context is `p`: the context of the
operation. `/repo/operation.go:171-177`. The units of the context do not change meanwhile. -/
def OpCtx.at (oc : OpCtx S) (p : Progress) : OpCtx S :=
  (oc.setIsProcessingResponse p.response).setProcessingIn p.inn

/-- The deprecated `OperationCtx`. `/repo/openapi3/reflect_deprecated.go:77-83`. -/
def V30.oldOperationCtx (oc : OpCtx S) (p : Option Progress) : Option (V30.OldCtx S) :=
  p.map (fun p => V30.fromOpCtx (oc.at p))

end Verif
