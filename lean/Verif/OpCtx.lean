import Verif.Schema30
import Verif.Spec30

/-!
# Model of content units and operation contexts

`/repo/operation.go`, `/repo/internal/operation_context.go` and the setters and getters of both reflectors'
operation contexts. `S` is the type of schemas of the document.

What `refl` and `jsonschema-go` find out about a user's Go value is data of the model (`Value`): the
theorems quantify over it.
-/

namespace Verif

/-! ## What the dependencies report about a Go value -/

/-- What `jsonschema.InterceptSchema` shows of a visited value (`/repo/internal/json_schema.go:155-182`):
a `*multipart.File`, a `*multipart.FileHeader`, or something else. -/
inductive ValueKind where
  | file
  | fileHeader
  | other
deriving DecidableEq, Repr

/-- One call of the `InterceptProp` callback (`jsonschema.InterceptPropParams`), with what the callback's
own calls of `refl` and `Reflect` on the field give. `/repo/openapi3/reflect.go:460-555,604-634`. -/
structure PropCall (S : Type) where
  /-- `params.Processed` -/
  processed : Bool
  /-- `len(params.Path)` -/
  pathLen : Nat
  /-- `params.Name` -/
  name : String
  /-- `params.PropertySchema.ToSchemaOrBool()` -/
  schema : JS
  /-- `field.Type.Kind() == reflect.Ptr` -/
  isPtr : Bool := false
  /-- the tag `collectionFormat` -/
  collectionFormat : String := ""
  /-- `refl.HasTaggedFields(property, "json")` -/
  taggedJSON : Bool := false
  /-- `refl.HasTaggedFields(property, in)` -/
  taggedIn : Bool := false
  /-- `r.Reflect(property, ..., RootRef)`: the collected definitions, then the schema or an error -/
  inner : List (String × JS) × Except String JS := ([], .error "")
  /-- `r.Reflect(property, ..., InlineRefs)`: whether the schema has type object, or an error -/
  inlined : Except String Bool := .ok false
  /-- `refl.PopulateFieldsFromTags(&p, field.Tag)` for a parameter -/
  populate : Parameter S → Except String (Parameter S) := .ok
  /-- `refl.PopulateFieldsFromTags(&header, field.Tag)` for a header -/
  populateHeader : Header S → Except String (Header S) := .ok

/-- What happens in the course of one `Reflect` call: callbacks in order. -/
inductive Event (S : Type) where
  | prop (p : PropCall S)
  | defn (name : String) (schema : JS)

/-- One `Reflect` call: its callbacks, and its result if no callback fails. -/
structure Reflection (S : Type) where
  events : List (Event S)
  result : Except String JS

/-- The `Reflect` call of a request body (`/repo/internal/json_schema.go:185`): the visited values, and the
result, a schema with its definitions (in the order in which Go will iterate over the map). -/
structure BodyReflection where
  visited : List ValueKind
  result : Except String (JS × List (String × JS))

/-- What the dependencies report about a value given as `Structure`. Values that depend on the field
mapping of the unit take it as an argument. -/
structure Value (S : Type) where
  /-- implements `openapi.RequestBodyEnforcer` -/
  forceBody : Bool := false
  /-- implements `openapi.RequestJSONBodyEnforcer` -/
  forceJSONBody : Bool := false
  /-- `refl.HasTaggedFields(input, tag)` -/
  tagged : String → Bool := fun _ => false
  /-- some field is a `jsonschema.Struct`, `/repo/internal/json_schema.go:70-74` -/
  hasJSONSchemaStruct : Bool := false
  /-- `refl.IsSliceOrMap` -/
  isSliceOrMap : Bool := false
  /-- `refl.FindEmbeddedSliceOrMap(input) != nil` -/
  embedsSliceOrMap : Bool := false
  /-- the `contentType` tags, `refl.WalkTaggedFields` -/
  contentTypes : List String := []
  /-- reflection of the request body by tag, `/repo/internal/json_schema.go:185` -/
  body : (tag : String) → (mapping : GoMap String) → BodyReflection := fun _ _ => ⟨[], .error ""⟩
  /-- reflection of the parameters in a location, `/repo/internal/json_schema.go:291` -/
  params : (inn : String) → (mapping : GoMap String) → Reflection S := fun _ _ => ⟨[], .ok (.obj {} none [] [] [] none [] [] none [])⟩
  /-- reflection of the response headers, `/repo/internal/json_schema.go:261` -/
  headers : (mapping : GoMap String) → Reflection S := fun _ => ⟨[], .ok (.obj {} none [] [] [] none [] [] none [])⟩
  /-- plain reflection without options, `/repo/internal/json_schema.go:222` -/
  plain : Except String JS := .ok (.obj {} none [] [] [] none [] [] none [])
  /-- reflection of the response body, `/repo/internal/json_schema.go:213` -/
  response : Reflection S := ⟨[], .ok (.obj {} none [] [] [] none [] [] none [])⟩

/-! ## Content units -/

/-- A `Customize` function, on the two kinds of values it is called with. `/repo/operation.go:42-48`. -/
structure Customize (S : Type) where
  req : RequestBodyOrRef S → RequestBodyOrRef S := id
  resp : ResponseOrRef S → ResponseOrRef S := id

/-- `ContentUnit`. `/repo/operation.go:29-51`. A nil `Structure` is `none`. -/
structure ContentUnit (S : Type) where
  structure_ : Option (Value S) := none
  contentType : String := ""
  format : String := ""
  httpStatus : Int := 0
  isDefault : Bool := false
  description : String := ""
  customize : Option (Customize S) := none
  fieldMapping_ : GoMap (GoMap String) := []

variable {S : Type}

/-- `ContentOption`. `/repo/operation.go:26`. -/
abbrev ContentOption (S : Type) := ContentUnit S → ContentUnit S

/-- `WithCustomize`. `/repo/operation.go:59-63`. -/
def withCustomize (f : Customize S) : ContentOption S := fun cu => { cu with customize := some f }

/-- `WithReference`. `/repo/operation.go:66-72`. -/
def withReference (ref : String) : ContentOption S := fun cu =>
  { cu with customize := some ⟨fun b => b.setReference ref, fun r => r.setReference ref⟩ }

/-- `WithContentType`. `/repo/operation.go:80-84`. -/
def withContentType (ct : String) : ContentOption S := fun cu => { cu with contentType := ct }

/-- `WithHTTPStatus`. `/repo/operation.go:87-91`. -/
def withHTTPStatus (st : Int) : ContentOption S := fun cu => { cu with httpStatus := st }

/-- `ContentUnit.SetFieldMapping`. `/repo/operation.go:94-104`. -/
def ContentUnit.setFieldMapping (c : ContentUnit S) (inn : String) (m : GoMap String) : ContentUnit S :=
  if m.length = 0 then c else { c with fieldMapping_ := c.fieldMapping_.set inn m }

/-- `ContentUnit.FieldMapping`; nil is the empty map. `/repo/operation.go:107-109`. -/
def ContentUnit.fieldMapping (c : ContentUnit S) (inn : String) : GoMap String :=
  (c.fieldMapping_.get? inn).getD []

/-! ## Operation contexts -/

/-- `internal.OperationContext` (`/repo/internal/operation_context.go:15-23`) with the operation and the
placeholders of `operationContext` (`/repo/openapi3/reflect.go:123-129`). The fields stand for the getters `Method`,
`PathPattern`, `Request`, `Response`, `IsProcessingResponse`, `ProcessingIn`
(`/repo/internal/operation_context.go:26-43,51-53,61-63`) and `Operation` (`/repo/openapi3/reflect.go:201-203`,
`/repo/openapi31/reflect.go:209-211`); the defaults are those of `NewOperationContext`
(`/repo/internal/operation_context.go:7-12`). -/
structure OpCtx (S : Type) where
  method : String
  path : String
  req : List (ContentUnit S) := []
  resp : List (ContentUnit S) := []
  isProcessingResponse : Bool := false
  processingIn : String := ""
  op : Operation S := {}
  pathParams : List String := []

/-- What `AddReqStructure` is given: a `ContentUnitPreparer`, or any other value (`none` for nil). -/
inductive Given (S : Type) where
  | preparer (setup : ContentUnit S → ContentUnit S)
  | value (v : Option (Value S))

/-- The unit that `AddReqStructure` and `AddRespStructure` build.
`/repo/internal/operation_context.go:77-87,94-104`. -/
def makeUnit (s : Given S) (options : List (ContentOption S)) : ContentUnit S :=
  let c : ContentUnit S := {}
  let c := match s with
    | .preparer setup => setup c
    | .value v => { c with structure_ := v }
  options.foldl (fun c o => o c) c

namespace OpCtx

/-- `AddReqStructure`. `/repo/internal/operation_context.go:76-90`. -/
def addReqStructure (oc : OpCtx S) (s : Given S) (options : List (ContentOption S)) : OpCtx S :=
  { oc with req := oc.req ++ [makeUnit s options] }

/-- `AddRespStructure`. `/repo/internal/operation_context.go:93-107`. -/
def addRespStructure (oc : OpCtx S) (s : Given S) (options : List (ContentOption S)) : OpCtx S :=
  { oc with resp := oc.resp ++ [makeUnit s options] }

/-- `SetIsProcessingResponse`. `/repo/internal/operation_context.go:46-48`. -/
def setIsProcessingResponse (oc : OpCtx S) (b : Bool) : OpCtx S := { oc with isProcessingResponse := b }

/-- `SetProcessingIn`. `/repo/internal/operation_context.go:56-58`. -/
def setProcessingIn (oc : OpCtx S) (i : String) : OpCtx S := { oc with processingIn := i }

/-- `SetMethod`. `/repo/internal/operation_context.go:66-68`. -/
def setMethod (oc : OpCtx S) (m : String) : OpCtx S := { oc with method := m }

/-- `SetPathPattern`. `/repo/internal/operation_context.go:71-73`. -/
def setPathPattern (oc : OpCtx S) (p : String) : OpCtx S := { oc with path := p }

/-- `AddSecurity`. `/repo/openapi3/reflect.go:136-142`, `/repo/openapi31/reflect.go:144-150`. -/
def addSecurity (oc : OpCtx S) (name : String) (scopes : List String) : OpCtx S :=
  { oc with op := { oc.op with security := oc.op.security ++ [(name, scopes)] } }

/-- `SetTags`. `/repo/openapi3/reflect.go:144-146`, `/repo/openapi31/reflect.go:152-154`. -/
def setTags (oc : OpCtx S) (tags : List String) : OpCtx S := { oc with op := { oc.op with tags := tags } }

/-- `SetIsDeprecated`. `/repo/openapi3/reflect.go:152-154`, `/repo/openapi31/reflect.go:160-162`. -/
def setIsDeprecated (oc : OpCtx S) (b : Bool) : OpCtx S := { oc with op := { oc.op with deprecated := some b } }

/-- `SetSummary`. `/repo/openapi3/reflect.go:160-162`, `/repo/openapi31/reflect.go:168-170`. -/
def setSummary (oc : OpCtx S) (s : String) : OpCtx S := { oc with op := { oc.op with summary := some s } }

/-- `SetDescription`. `/repo/openapi3/reflect.go:172-174`, `/repo/openapi31/reflect.go:180-182`. -/
def setDescription (oc : OpCtx S) (s : String) : OpCtx S := { oc with op := { oc.op with description := some s } }

/-- `SetID`. `/repo/openapi3/reflect.go:184-186`, `/repo/openapi31/reflect.go:192-194`. -/
def setID (oc : OpCtx S) (s : String) : OpCtx S := { oc with op := { oc.op with id := some s } }

/-- `Tags`. `/repo/openapi3/reflect.go:148-150`, `/repo/openapi31/reflect.go:156-158`. -/
def tags (oc : OpCtx S) : List String := oc.op.tags

/-- `IsDeprecated`. `/repo/openapi3/reflect.go:156-158`, `/repo/openapi31/reflect.go:164-166`. -/
def isDeprecated (oc : OpCtx S) : Bool :=
  match oc.op.deprecated with
  | some b => b
  | none => false

/-- `Summary`. `/repo/openapi3/reflect.go:164-170`, `/repo/openapi31/reflect.go:172-178`. -/
def summary (oc : OpCtx S) : String :=
  match oc.op.summary with
  | some s => s
  | none => ""

/-- `Description`. `/repo/openapi3/reflect.go:176-182`, `/repo/openapi31/reflect.go:184-190`. -/
def description (oc : OpCtx S) : String :=
  match oc.op.description with
  | some s => s
  | none => ""

/-- `ID`. `/repo/openapi3/reflect.go:188-194`, `/repo/openapi31/reflect.go:196-202`. -/
def id (oc : OpCtx S) : String :=
  match oc.op.id with
  | some s => s
  | none => ""

/-- `UnknownParamsAreForbidden`. `/repo/openapi3/reflect.go:196-198`, `/repo/openapi31/reflect.go:204-206`. -/
def unknownParamsAreForbidden (oc : OpCtx S) (inn : String) : Bool := unknownParamIsForbidden oc.op inn

end OpCtx
end Verif
