import Verif.OpCtx
import Verif.Http
import Verif.Spec31

/-!
# Model of `/repo/openapi3/reflect.go`, `/repo/openapi31/reflect.go` and `/repo/internal/json_schema.go`

The two reflectors have the same text up to the points collected in `Ver`. `Env` holds what does not depend
on a single value.
-/

namespace Verif

/-- How a part of the reflector ends: normally, with an error, or with a panic. -/
inductive Out where
  | ok
  | err (e : String)
  | panic
deriving DecidableEq, Repr

/-- A conversion of a schema: the result, an error, or a panic. -/
inductive Conv (S : Type) where
  | ok (s : S)
  | err (e : String)
  | panic

/-- Where the two reflectors differ. -/
structure Ver (S : Type) where
  /-- 3.0: `FromJSONSchema` (`/repo/openapi3/jsonschema.go:182`). 3.1: `ToSimpleMap` of jsonschema-go. -/
  conv : JS → Conv S
  /-- 3.0: a parameter schema of a field that is no pointer loses `Nullable`
  (`/repo/openapi3/reflect.go:472-474`). 3.1: nothing. -/
  paramSchema : (isPtr : Bool) → S → S
  /-- 3.0: a response schema loses `Nullable` (`/repo/openapi3/reflect.go:759-761`). 3.1: nothing. -/
  respSchema : S → S
  /-- `Deprecated` of a header. 3.0: `s.Schema.Deprecated`, a panic (`none`) if `s.Schema` is nil
  (`/repo/openapi3/reflect.go:617`). 3.1: `isDeprecated` (`/repo/openapi31/jsonschema.go:9-15`). -/
  headerDeprecated : JS → S → Option (Option Bool)
  /-- 3.0: a `contentType` tag adds a media type if there is none of that name
  (`/repo/openapi3/reflect.go:656`). 3.1: it replaces it (`/repo/openapi31/reflect.go:626`). -/
  rawReplaces : Bool

/-- The rest of the environment. -/
structure Env (S : Type) where
  /-- what the dependencies report about a nil `Structure` -/
  nilValue : Value S
  /-- `rc.ProcessWithoutTags` under the default options, `/repo/internal/json_schema.go:89-96` -/
  processWithoutTags : Except String Bool
  /-- the error of `Reflect` when a callback fails with an error -/
  wrap : String → String
  /-- `json.Marshal` of a schema, `/repo/internal/json_schema.go:235` -/
  marshal : JS → Except String String

variable {S : Type}

/-- The input that is reflected: the structure of the unit, as it is (`/repo/internal/json_schema.go:46`,
`/repo/internal/json_schema.go:284`). A unit without structure has a nil interface. -/
def ContentUnit.input (env : Env S) (cu : ContentUnit S) : Value S := cu.structure_.getD env.nilValue

/-- A step that changes a state and ends in one of the three ways. -/
abbrev Act (σ : Type) := σ → σ × Out

/-- `joinErrors(a(), b(), ...)`: all run, in order, unless one panics; the errors are joined. -/
def joinActs {σ : Type} : List (Act σ) → List (Option String) → Act σ
  | [], errs, s => match joinErrors errs with
    | some e => (s, .err e)
    | none => (s, .ok)
  | a :: as, errs, s =>
    match a s with
    | (s, .ok) => joinActs as (errs ++ [none]) s
    | (s, .err e) => joinActs as (errs ++ [some e]) s
    | (s, .panic) => (s, .panic)

/-- A loop whose body may panic. -/
def foldActs {α σ : Type} (f : α → Act σ) : List α → Act σ
  | [], s => (s, .ok)
  | x :: xs, s =>
    match f x s with
    | (s, .ok) => foldActs f xs s
    | r => r

/-! ## Request bodies -/

/-- `hasFileUpload` after the `InterceptSchema` callbacks. `/repo/internal/json_schema.go:155-182`. -/
def hasFileUpload (visited : List ValueKind) : Bool :=
  visited.foldl (fun found k => match k with
    | .file => true
    | .fileHeader => true
    | .other => found) false

/-- The methods without request body. `/repo/internal/json_schema.go:53-58`. -/
def bodyless (method : String) : Bool :=
  let m := goToUpper method
  m = "GET" || m = "HEAD" || m = "DELETE" || m = "TRACE"

/-- `ReflectRequestBody`. `/repo/internal/json_schema.go:36-191`. `.ok none` is a nil schema. The
callbacks passed to `Reflect` are modelled in `Verif.BodyCalls`; what they leave in the result is part of
the reflection's result here. -/
def reflectRequestBody (env : Env S) (cu : ContentUnit S) (method : String) (mapping : GoMap String)
    (tag : String) (additionalTags : List String) :
    Except String (Option ((JS × List (String × JS)) × Bool)) :=
  let input := cu.input env
  if bodyless method && !input.forceBody then .ok none
  else
    let hasTaggedFields := input.tagged tag || additionalTags.any input.tagged
    if !hasTaggedFields && mapping.length = 0 && tag ≠ "json" then .ok none
    else if tag = "json" && (input.tagged "formData" || input.tagged "form") && !input.forceJSONBody &&
        !input.hasJSONSchemaStruct then .ok none
    else
      match env.processWithoutTags with
      | .error e => .error ("BUG: " ++ e)
      | .ok isProcessWithoutTags =>
        if !hasTaggedFields && !input.hasJSONSchemaStruct && mapping.length = 0 && !input.isSliceOrMap &&
            !input.embedsSliceOrMap && !isProcessWithoutTags then .ok none
        else
          match (input.body tag mapping).result with
          | .error e => .error e
          | .ok sch => .ok (some (sch, hasFileUpload (input.body tag mapping).visited))

/-- State of request processing: component schemas of the document, and the operation. -/
structure ReqState (S : Type) where
  schemas : GoMap S
  op : Operation S

/-- `o.RequestBodyEns().RequestBodyEns().WithContentItem(mime, mt)`. `/repo/openapi3/reflect.go:366,424`,
`/repo/openapi31/reflect.go:332,395`. -/
def setRequestContent (mime : String) (mt : MediaType S) (op : Operation S) : Operation S :=
  let rb := op.requestBody.getD {}
  let body := rb.body.getD {}
  { op with requestBody := some { rb with body := some { body with content := body.content.set mime mt } } }

/-- The schema made by `mediaType`: a string with an optional format. `/repo/openapi3/reflect.go:344-359`,
`/repo/openapi31/reflect.go:309-325`. -/
def stringJS (format : String) : JS :=
  .obj { type := some (.one "string"), format := if format ≠ "" then some format else none }
    none [] [] [] none [] [] none []

/-- `stringRequestBody`; a conversion error is a panic. `/repo/openapi3/reflect.go:361-367`,
`/repo/openapi31/reflect.go:327-333`. -/
def stringRequestBody (v : Ver S) (mime format : String) : Act (ReqState S) := fun s =>
  match v.conv (stringJS format) with
  | .ok sch => ({ s with op := setRequestContent mime { schema := some sch } s.op }, .ok)
  | _ => (s, .panic)

/-- `for name, def := range schema.Definitions`. `/repo/openapi3/reflect.go:412-418`,
`/repo/openapi31/reflect.go:382-389`. -/
def addBodyDefinitions (v : Ver S) : List (String × JS) → Act (GoMap S)
  | [], m => (m, .ok)
  | (name, d) :: ds, m =>
    match v.conv d with
    | .ok s => addBodyDefinitions v ds (m.set name s)
    | .err e => (m, .err e)
    | .panic => (m, .panic)

/-- `parseRequestBody`. `/repo/openapi3/reflect.go:379-427`, `/repo/openapi31/reflect.go:345-398`. -/
def parseRequestBody (v : Ver S) (env : Env S) (cu : ContentUnit S) (method mime : String) (mapping : GoMap String)
    (tag : String) (additionalTags : List String) : Act (ReqState S) := fun s =>
  match reflectRequestBody env cu method mapping tag additionalTags with
  | .error e => (s, .err e)
  | .ok none => (s, .ok)
  | .ok (some ((sch, defs), files)) =>
    match v.conv sch with
    | .panic => (s, .panic)
    | .err e => (s, .err e)
    | .ok sch =>
      match addBodyDefinitions v defs s.schemas with
      | (m, .panic) => ({ s with schemas := m }, .panic)
      | (m, .err e) => ({ s with schemas := m }, .err e)
      | (m, .ok) =>
        let mime := if mime = "application/x-www-form-urlencoded" && files then "multipart/form-data" else mime
        ({ s with schemas := m, op := setRequestContent mime { schema := some sch } s.op }, .ok)

/-- `parseRawRequestBody`. `/repo/openapi3/reflect.go:369-377`, `/repo/openapi31/reflect.go:335-343`. -/
def parseRawRequestBody (v : Ver S) (cu : ContentUnit S) : Act (ReqState S) := fun s =>
  match cu.structure_ with
  | none => (s, .ok)
  | some value =>
    foldActs (fun tag => stringRequestBody v tag "") value.contentTypes s

/-! ## Parameters -/

/-- `collectDefinition`. `/repo/openapi3/reflect.go:582-593`, `/repo/openapi31/reflect.go:548-561`. -/
def collectDefinition (v : Ver S) (name : String) (js : JS) : Act (GoMap S) := fun m =>
  match m.get? name with
  | some _ => (m, .ok)
  | none =>
    match v.conv js with
    | .ok s => (m.set name s, .ok)
    | _ => (m, .panic)

/-- Definitions collected one after the other. -/
def collectDefinitions (v : Ver S) : List (String × JS) → Act (GoMap S)
  | [], m => (m, .ok)
  | (n, d) :: ds, m =>
    match collectDefinition v n d m with
    | (m, .ok) => collectDefinitions v ds m
    | r => r

/-- The style for a collection format. `/repo/openapi3/reflect.go:486-495`, `/repo/openapi31/reflect.go:451-460`. -/
def applyCollectionFormat (cf : String) (p : Parameter S) : Parameter S :=
  if cf = "csv" then { p with style := some "form", explode := some false }
  else if cf = "ssv" then { p with style := some "spaceDelimited", explode := some false }
  else if cf = "pipes" then { p with style := some "pipeDelimited", explode := some false }
  else if cf = "multi" then { p with style := some "form", explode := some true }
  else p

/-- `propertySchema.Description`. -/
def JS.description : JS → Option String
  | .obj flat _ _ _ _ _ _ _ _ _ => flat.description
  | _ => none

/-- The description, schema and content of the new parameter, before tags are applied.
`/repo/openapi3/reflect.go:468-536`, `/repo/openapi31/reflect.go:435-497`. The state is the component
schemas. -/
def buildParameter (v : Ver S) (inn : String) (c : PropCall S) : GoMap S → GoMap S × Out × Option (Parameter S) :=
  fun m =>
  match v.conv c.schema with
  | .panic => (m, .panic, none)
  | .err e => (m, .err e, none)
  | .ok sch =>
    let p : Parameter S :=
      { name := c.name, inn := inn, description := c.schema.description, schema := some (v.paramSchema c.isPtr sch) }
    let p := applyCollectionFormat c.collectionFormat p
    if c.collectionFormat = "json" || (c.taggedJSON && !c.taggedIn) then
      match collectDefinitions v c.inner.1 m with
      | (m, .ok) =>
        match c.inner.2 with
        | .error e => (m, .err e, none)
        | .ok js =>
          match v.conv js with
          | .panic => (m, .panic, none)
          | .err e => (m, .err e, none)
          | .ok sch =>
            (m, .ok, some { p with schema := none, content := p.content.set "application/json" { schema := some sch } })
      | (m, out) => (m, out, none)
    else
      match c.inlined with
      | .error e => (m, .err e, none)
      | .ok true => (m, .ok, some { p with style := some "deepObject", explode := some true })
      | .ok false => (m, .ok, some p)

/-- `alreadyExists`. `/repo/openapi3/reflect.go:543-551`, `/repo/openapi31/reflect.go:508-516`. -/
def paramExists (p : Parameter S) (ps : List (ParamOrRef S)) : Bool :=
  ps.any (fun ep => match ep.param with
    | some q => q.inn = p.inn && q.name = p.name
    | none => false)

/-- `p.WithRequired(true)` for path parameters. `/repo/openapi3/reflect.go:539-541`,
`/repo/openapi31/reflect.go:504-506`. -/
def finalParam (inn : String) (p : Parameter S) : Parameter S :=
  if inn = "path" then { p with required := some true } else p

/-- The `InterceptProp` callback of `parseParametersIn`. `/repo/openapi3/reflect.go:459-558`,
`/repo/openapi31/reflect.go:426-525`. -/
def onParameter (v : Ver S) (inn : String) (c : PropCall S) : Act (ReqState S) := fun s =>
  if !c.processed || c.pathLen > 1 then (s, .ok)
  else
    match buildParameter v inn c s.schemas with
    | (m, .ok, some p) =>
      match c.populate p with
      | .error e => ({ s with schemas := m }, .err e)
      | .ok p =>
        let p := finalParam inn p
        if paramExists p s.op.parameters then
          ({ s with schemas := m }, .err ("parameter " ++ p.name ++ " in " ++ p.inn ++ " is already defined"))
        else
          ({ s with schemas := m, op := { s.op with parameters := s.op.parameters ++ [{ param := some p }] } }, .ok)
    | (m, out, _) => ({ s with schemas := m }, out)

/-- The callbacks of one `Reflect` call, in order, up to the first that fails; the error of a callback is
wrapped by `Reflect`. -/
def runEvents {σ : Type} (env : Env S) (onProp : PropCall S → Act σ) (onDef : String → JS → Act σ) :
    List (Event S) → Act σ
  | [], s => (s, .ok)
  | .prop c :: es, s =>
    match onProp c s with
    | (s, .ok) => runEvents env onProp onDef es s
    | (s, .err e) => (s, .err (env.wrap e))
    | (s, .panic) => (s, .panic)
  | .defn n d :: es, s =>
    match onDef n d s with
    | (s, .ok) => runEvents env onProp onDef es s
    | (s, .err e) => (s, .err (env.wrap e))
    | (s, .panic) => (s, .panic)

/-- `collectDefinition` as a callback on the request state. -/
def onReqDefinition (v : Ver S) (n : String) (d : JS) : Act (ReqState S) := fun s =>
  let (m, out) := collectDefinition v n d s.schemas
  ({ s with schemas := m }, out)

/-- `s.AdditionalProperties` is the boolean false. `/repo/openapi3/reflect.go:565-567`,
`/repo/openapi31/reflect.go:531-533`. -/
def JS.forbidsAdditional : JS → Bool
  | .obj _ _ _ _ _ _ _ _ (some (.bool false)) _ => true
  | _ => false

/-- `parseParametersIn` with `ReflectParametersIn`. `/repo/openapi3/reflect.go:443-572`,
`/repo/openapi31/reflect.go:414-538`, `/repo/internal/json_schema.go:275-307`. -/
def parseParametersIn (v : Ver S) (env : Env S) (cu : ContentUnit S) (inn : String) : Act (ReqState S) := fun s =>
  let value := cu.input env
  if value.isSliceOrMap then (s, .ok)
  else
    let refl := value.params inn (cu.fieldMapping inn)
    match runEvents env (onParameter v inn) (onReqDefinition v) refl.events s with
    | (s, .ok) =>
      match refl.result with
      | .error e => (s, .err e)
      | .ok js =>
        if js.forbidsAdditional then
          ({ s with op := { s.op with ext := s.op.ext.set ("x-forbid-unknown-" ++ inn) true } }, .ok)
        else (s, .ok)
    | r => r

/-- `parseParameters`. `/repo/openapi3/reflect.go:435-441`, `/repo/openapi31/reflect.go:406-412`. -/
def parseParameters (v : Ver S) (env : Env S) (cu : ContentUnit S) : Act (ReqState S) :=
  joinActs [parseParametersIn v env cu "query", parseParametersIn v env cu "path",
    parseParametersIn v env cu "cookie", parseParametersIn v env cu "header"] []

/-! ## Requests -/

/-- The reflection of one request unit by its content type. `/repo/openapi3/reflect.go:290-318`,
`/repo/openapi31/reflect.go:256-283`. -/
def reflectUnit (v : Ver S) (env : Env S) (method : String) (cu : ContentUnit S) : Act (ReqState S) := fun s =>
  let form := parseRequestBody v env cu method "application/x-www-form-urlencoded" (cu.fieldMapping "formData")
    "formData" ["form"]
  let params := parseParameters v env cu
  let json := parseRequestBody v env cu method "application/json" [] "json" []
  if cu.contentType = "" then
    match joinActs [form, params, json] [] s with
    | (s, .ok) => parseRawRequestBody v cu s
    | r => r
  else if cu.contentType = "application/json" then joinActs [params, json] [] s
  else if cu.contentType = "application/x-www-form-urlencoded" ∨ cu.contentType = "multipart/form-data" then
    joinActs [form, params] [] s
  else stringRequestBody v cu.contentType cu.format s

/-- Description and customisation of the request body. `/repo/openapi3/reflect.go:319-325`,
`/repo/openapi31/reflect.go:285-291`. Simplification: `Customize` only edits the value it is given. -/
def finishRequest (cu : ContentUnit S) (op : Operation S) : Operation S :=
  let op := match op.requestBody with
    | some { body := some b, ref } =>
      if cu.description ≠ "" then
        { op with requestBody := some { body := some { b with description := some cu.description }, ref } }
      else op
    | _ => op
  match cu.customize, op.requestBody with
  | some f, some rb => { op with requestBody := some (f.req rb) }
  | _, _ => op

/-- The loop of `setupRequest`. `/repo/openapi3/reflect.go:288-329`, `/repo/openapi31/reflect.go:254-295`. -/
def setupRequest (v : Ver S) (env : Env S) (method : String) : List (ContentUnit S) → Act (ReqState S)
  | [], s => (s, .ok)
  | cu :: cus, s =>
    match reflectUnit v env method cu s with
    | (s, .ok) => setupRequest v env method cus { s with op := finishRequest cu s.op }
    | r => r

/-! ## Responses -/

/-- State of response processing: component schemas of the document, and the response. -/
structure RespState (S : Type) where
  schemas : GoMap S
  resp : Response S

/-- `hasJSONBody` after the reflection: clear the fields without constraints, marshal, compare.
`/repo/internal/json_schema.go:221-245`. Simplification: `$comment` is not part of `JFlat`. -/
def hasJSONBody (env : Env S) (plain : Except String JS) : Except String Bool :=
  match plain with
  | .error e => .error e
  | .ok js =>
    let js := match js with
      | .obj flat not allOf oneOf anyOf items itemsArr props addl others =>
        .obj { flat with title := none, description := none, extra := [], id := none, examples := [] }
          not allOf oneOf anyOf items itemsArr props addl others
      | j => j
    match env.marshal js with
    | .error e => .error e
    | .ok j => .ok (j ≠ "{}" && j ≠ "{\"type\":\"object\"}")

/-- `ReflectJSONResponse`, apart from the callbacks of the last `Reflect`: `none` if there is nothing to
reflect. `/repo/internal/json_schema.go:194-219`. -/
def reflectJSONResponse (env : Env S) (cu : ContentUnit S) : Option (Reflection S) :=
  match cu.structure_ with
  | none => none
  | some value =>
    match hasJSONBody env value.plain with
    | .ok false => none
    | _ => some value.response

/-- `collectDefinition` as a callback on the response state. -/
def onRespDefinition (v : Ver S) (n : String) (d : JS) : Act (RespState S) := fun s =>
  let (m, out) := collectDefinition v n d s.schemas
  ({ s with schemas := m }, out)

/-- The description of a schema for a response without description. -/
def describeFrom (js : JS) (r : Response S) : Response S :=
  match js.description with
  | some d => if r.description = "" then { r with description := d } else r
  | none => r

/-- `parseJSONResponse`. `/repo/openapi3/reflect.go:743-782`, `/repo/openapi31/reflect.go:713-750`. -/
def parseJSONResponse (v : Ver S) (env : Env S) (cu : ContentUnit S) : Act (RespState S) := fun s =>
  match reflectJSONResponse env cu with
  | none => (s, .ok)
  | some refl =>
    match runEvents env (fun _ s => (s, .ok)) (onRespDefinition v) refl.events s with
    | (s, .ok) =>
      match refl.result with
      | .error e => (s, .err e)
      | .ok js =>
        match v.conv js with
        | .panic => (s, .panic)
        | .err e => (s, .err e)
        | .ok sch =>
          let ct := if cu.contentType = "" then "application/json" else cu.contentType
          let mt := (s.resp.content.get? ct).getD {}
          let resp := { s.resp with content := s.resp.content.set ct { mt with schema := some (v.respSchema sch) } }
          ({ s with resp := describeFrom js resp }, .ok)
    | r => r

/-- The callback of `parseResponseHeader`, on the map of headers. `/repo/openapi3/reflect.go:603-635`,
`/repo/openapi31/reflect.go:571-605`. -/
def onHeader (v : Ver S) (c : PropCall S) : Act (GoMap (HeaderOrRef S)) := fun res =>
  if !c.processed || c.pathLen > 1 then (res, .ok)
  else
    match v.conv c.schema with
    | .panic => (res, .panic)
    | .err e => (res, .err e)
    | .ok sch =>
      match v.headerDeprecated c.schema sch with
      | none => (res, .panic)
      | some dep =>
        match c.populateHeader { description := c.schema.description, deprecated := dep, schema := some sch } with
        | .error e => (res, .err e)
        | .ok h => (res.set c.name { header := some h }, .ok)

/-- `parseResponseHeader` with `ReflectResponseHeader`. `/repo/openapi3/reflect.go:595-648`,
`/repo/openapi31/reflect.go:563-618`, `/repo/internal/json_schema.go:248-272`. -/
def parseResponseHeader (v : Ver S) (env : Env S) (cu : ContentUnit S) : Act (RespState S) := fun s =>
  match cu.structure_ with
  | none => (s, .ok)
  | some value =>
    let refl := value.headers (cu.fieldMapping "header")
    match runEvents env (onHeader v) (fun _ _ s => (s, .ok)) refl.events [] with
    | (res, .ok) =>
      match refl.result with
      | .error e => (s, .err e)
      | .ok js => ({ s with resp := describeFrom js { s.resp with headers := res } }, .ok)
    | (_, out) => (s, out)

/-- `ensureResponseContentType`. `/repo/openapi3/reflect.go:733-741`, `/repo/openapi31/reflect.go:703-711`. -/
def ensureResponseContentType (v : Ver S) (ct format : String) : Act (RespState S) := fun s =>
  match s.resp.content.get? ct with
  | some _ => (s, .ok)
  | none =>
    match v.conv (stringJS format) with
    | .ok sch => ({ s with resp := { s.resp with content := s.resp.content.set ct { schema := some sch } } }, .ok)
    | _ => (s, .panic)

/-- One `contentType` tag of a response. `/repo/openapi3/reflect.go:656`, `/repo/openapi31/reflect.go:626`. -/
def rawResponseTag (v : Ver S) (tag : String) : Act (RespState S) := fun s =>
  if v.rawReplaces then
    match v.conv (stringJS "") with
    | .ok sch => ({ s with resp := { s.resp with content := s.resp.content.set tag { schema := some sch } } }, .ok)
    | _ => (s, .panic)
  else ensureResponseContentType v tag "" s

/-- `parseRawResponseBody`. `/repo/openapi3/reflect.go:650-658`, `/repo/openapi31/reflect.go:620-628`. -/
def parseRawResponseBody (v : Ver S) (cu : ContentUnit S) : Act (RespState S) := fun s =>
  match cu.structure_ with
  | none => (s, .ok)
  | some value =>
    foldActs (rawResponseTag v) value.contentTypes s

/-- The status defaults to 200, parameters of the content type are cut off.
`/repo/openapi3/reflect.go:662-666`, `/repo/openapi31/reflect.go:632-636`. -/
def normaliseUnit (cu : ContentUnit S) : ContentUnit S :=
  { cu with httpStatus := if cu.httpStatus = 0 ∧ !cu.isDefault then 200 else cu.httpStatus,
            contentType := beforeSemicolon cu.contentType }

/-- The key of a response that is not the default one. `/repo/openapi3/reflect.go:668,680-682`,
`/repo/openapi31/reflect.go:638,650-652`. -/
def statusKey (st : Int) : String := if st > 0 ∧ st < 6 then itoa st ++ "XX" else itoa st

/-- The place of the response: the entry that is there, and how to store one.
`/repo/openapi3/reflect.go:668-687`, `/repo/openapi31/reflect.go:638-657`. -/
def respSlot (cu : ContentUnit S) (op : Operation S) : Option (ResponseOrRef S) :=
  if cu.isDefault then op.responses.default else op.responses.codes.get? (statusKey cu.httpStatus)

/-- Storing an entry in the place of the unit. `/repo/openapi3/reflect.go:723-727`,
`/repo/openapi31/reflect.go:693-697`. -/
def setRespSlot (cu : ContentUnit S) (r : ResponseOrRef S) (op : Operation S) : Operation S :=
  if cu.isDefault then { op with responses := { op.responses with default := some r } }
  else { op with responses := { op.responses with codes := op.responses.codes.set (statusKey cu.httpStatus) r } }

/-- Contents of the response. `/repo/openapi3/reflect.go:689-707`, `/repo/openapi31/reflect.go:659-677`. -/
def reflectResponse (v : Ver S) (env : Env S) (method : String) (cu : ContentUnit S) : Act (RespState S) := fun s =>
  if goToUpper method ≠ "HEAD" then
    match joinActs [parseJSONResponse v env cu, parseResponseHeader v env cu] [] s with
    | (s, .ok) =>
      match parseRawResponseBody v cu s with
      | (s, .ok) => if cu.contentType ≠ "" then ensureResponseContentType v cu.contentType cu.format s else (s, .ok)
      | r => r
    | r => r
  else parseResponseHeader v env cu s

/-- Description and customisation of the response. `/repo/openapi3/reflect.go:709-721`,
`/repo/openapi31/reflect.go:679-691`. Simplification: `Customize` only edits the value it is given. -/
def finishResponse (cu : ContentUnit S) (resp : Response S) : ResponseOrRef S :=
  let resp := if cu.description ≠ "" then { resp with description := cu.description } else resp
  let resp := if resp.description = "" then { resp with description := statusText cu.httpStatus } else resp
  let ror : ResponseOrRef S := { response := some resp }
  match cu.customize with
  | some f => f.resp ror
  | none => ror

/-- The loop of `setupResponse`. `/repo/openapi3/reflect.go:660-731`, `/repo/openapi31/reflect.go:630-701`.
On failure, an existing response has been edited in place (`resp` is a pointer), and the empty default
entry stays. -/
def setupResponse (v : Ver S) (env : Env S) (method : String) : List (ContentUnit S) → Act (ReqState S)
  | [], s => (s, .ok)
  | cu :: cus, s =>
    let cu := normaliseUnit cu
    let slot := respSlot cu s.op
    let old := slot.bind (·.response)
    match reflectResponse v env method cu ⟨s.schemas, old.getD {}⟩ with
    | (r, .ok) =>
      setupResponse v env method cus ⟨r.schemas, setRespSlot cu (finishResponse cu r.resp) s.op⟩
    | (r, out) =>
      let entry := match slot with
        | some e => if e.response.isSome then some { e with response := some r.resp } else some e
        | none => if cu.isDefault then some {} else none
      (⟨r.schemas, match entry with
        | some e => setRespSlot cu e s.op
        | none => s.op⟩, out)

/-! ## Operations -/

/-- The request and response part of `AddOperation`, `/repo/openapi3/reflect.go:273-283` and `setupOC`,
`/repo/openapi31/reflect.go:233-252`. -/
def setupOC (v : Ver S) (env : Env S) (oc : OpCtx S) : Act (ReqState S) := fun s =>
  match setupRequest v env oc.method oc.req s with
  | (s, .err e) => (s, .err ("setup request " ++ oc.method ++ " " ++ oc.path ++ ": " ++ e))
  | (s, .panic) => (s, .panic)
  | (s, .ok) =>
    match validatePathParams s.op.parameters oc.pathParams with
    | some e => (s, .err ("validate path params " ++ oc.method ++ " " ++ oc.path ++ ": " ++ e))
    | none =>
      match setupResponse v env oc.method oc.resp s with
      | (s, .err e) => (s, .err ("setup response " ++ oc.method ++ " " ++ oc.path ++ ": " ++ e))
      | r => r

/-- The outcome of a document operation. -/
def outOf : Option String → Out
  | some e => .err e
  | none => .ok

namespace V30

/-- The 3.0 reflector's own parts. `/repo/openapi3/reflect.go`. -/
def ver : Ver OS where
  conv j := match fromJS j with
    | some s => .ok s
    | none => .panic
  paramSchema isPtr s := match s with
    | .schema f not allOf oneOf anyOf items props b addl =>
      if isPtr then s else .schema { f with nullable := none } not allOf oneOf anyOf items props b addl
    | s => s
  respSchema s := match s with
    | .schema f not allOf oneOf anyOf items props b addl =>
      .schema { f with nullable := none } not allOf oneOf anyOf items props b addl
    | s => s
  headerDeprecated _ s := match s with
    | .schema f _ _ _ _ _ _ _ _ => some f.deprecated
    | _ => none
  rawReplaces := false

/-- `Reflector.NewOperationContext`. `/repo/openapi3/reflect.go:51-76`. -/
def newOperationContext (sp : Spec S) (method path : String) : Except String (OpCtx S) :=
  match sanitizeMethodPath method path with
  | .error e => .error e
  | .ok r =>
    match (sp.pathItem r.path).ops.get? r.method with
    | some _ => .error ("operation already exists: " ++ r.method ++ " " ++ r.path)
    | none => .ok { method := r.method, path := r.path, pathParams := pathParamsMap r.params }

/-- `Reflector.AddOperation`. `/repo/openapi3/reflect.go:267-286`. The result holds the document, the
operation of the context, and how the call ended. Simplifications: the context is always of the expected
type; the version's parts are a parameter so that the theorems hold for any. -/
def addOperation (v : Ver S) (env : Env S) (sp : Spec S) (oc : OpCtx S) : Spec S × Operation S × Out :=
  match setupOC v env oc ⟨sp.schemas, oc.op⟩ with
  | (s, .ok) =>
    let (sp, e) := { sp with schemas := s.schemas }.addOperation oc.method oc.path s.op
    (sp, s.op, outOf e)
  | (s, out) => ({ sp with schemas := s.schemas }, s.op, out)

end V30

namespace V31

/-- The 3.1 reflector's own parts; `toSimpleMap` is jsonschema-go's. `/repo/openapi31/reflect.go`. -/
def ver (toSimpleMap : JS → Except String S) : Ver S where
  conv j := match toSimpleMap j with
    | .ok s => .ok s
    | .error e => .err e
  paramSchema _ s := s
  respSchema s := s
  headerDeprecated j _ := match j with
    | .obj flat _ _ _ _ _ _ _ _ _ => some flat.deprecated
    | _ => some none
  rawReplaces := true

/-- `Reflector.NewOperationContext`. `/repo/openapi31/reflect.go:51-82`. -/
def newOperationContext (sp : Spec S) (method path : String) : Except String (OpCtx S) :=
  match sanitizeMethodPath method path with
  | .error e => .error e
  | .ok r =>
    match (sp.pathItem r.path).operation r.method with
    | .error e => .error e
    | .ok (some _) => .error ("operation already exists: " ++ r.method ++ " " ++ path)
    | .ok none => .ok { method := r.method, path := r.path, pathParams := pathParamsMap r.params }

/-- `Reflector.AddOperation`. `/repo/openapi31/reflect.go:214-221`. -/
def addOperation (v : Ver S) (env : Env S) (sp : Spec S) (oc : OpCtx S) : Spec S × Operation S × Out :=
  match setupOC v env oc ⟨sp.schemas, oc.op⟩ with
  | (s, .ok) =>
    let (sp, e) := { sp with schemas := s.schemas }.addOperation oc.method oc.path s.op
    (sp, s.op, outOf e)
  | (s, out) => ({ sp with schemas := s.schemas }, s.op, out)

/-- `Reflector.AddWebhook`. `/repo/openapi31/reflect.go:224-231`. -/
def addWebhook (v : Ver S) (env : Env S) (sp : Spec S) (oc : OpCtx S) : Spec S × Operation S × Out :=
  match setupOC v env oc ⟨sp.schemas, oc.op⟩ with
  | (s, .ok) =>
    let (sp, e) := { sp with schemas := s.schemas }.addWebhook oc.method oc.path s.op
    (sp, s.op, outOf e)
  | (s, out) => ({ sp with schemas := s.schemas }, s.op, out)

end V31
end Verif
