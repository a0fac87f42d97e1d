import Verif.Reflect
import Verif.Spec.Doc
import Verif.Spec.Path

/-!
# Specification vocabulary for reflected operations
-/

namespace Verif
variable {S : Type}

/-- The value of a unit: its structure, or a nil interface if it has none. -/
def ContentUnit.value (env : Env S) (cu : ContentUnit S) : Value S :=
  match cu.structure_ with
  | some value => value
  | none => env.nilValue

theorem input_eq (env : Env S) (cu : ContentUnit S) : cu.input env = cu.value env := by
  unfold ContentUnit.input ContentUnit.value
  cases cu.structure_ <;> rfl

/-- The locations of parameters, in the order in which they are reflected. -/
def paramLocations : List String := ["query", "path", "cookie", "header"]

/-- The unit's parameters are reflected: it has no content type, or one for JSON or forms. -/
def ReflectsParams (cu : ContentUnit S) : Prop :=
  cu.contentType ∈ ["", "application/json", "application/x-www-form-urlencoded", "multipart/form-data"]

/-- The unit's structure has a `contentType` tag with this value. -/
def HasRawTag (cu : ContentUnit S) (ct : String) : Prop :=
  ∃ value, cu.structure_ = some value ∧ ct ∈ value.contentTypes

/-- The unit asks for a request body of this content type without schema: by a `contentType` tag, or by a
content type of its own that is neither JSON nor form. -/
def RawMime (cu : ContentUnit S) (mime : String) : Prop :=
  (cu.contentType = "" ∧ HasRawTag cu mime) ∨ (¬ ReflectsParams cu ∧ mime = cu.contentType)

/-- Tags of fields do not move parameters to another location (the tag `in` is not used). -/
def LocationStable (env : Env S) (cu : ContentUnit S) : Prop :=
  ∀ inn mapping c, Event.prop c ∈ ((cu.value env).params inn mapping).events →
    ∀ p q, c.populate p = .ok q → q.inn = p.inn

/-- The method is this one, whatever letters of its name are capitals. -/
def MethodIs (method name : String) : Prop := PathSpec.Spells method.toList name.toList

instance (method name : String) : Decidable (MethodIs method name) := by unfold MethodIs; infer_instance

/-- The methods that have no request body. -/
def bodylessMethods : List String := ["get", "head", "delete", "trace"]

/-- The method is one of them, in any spelling. -/
def Bodyless (method : String) : Prop := ∃ name ∈ bodylessMethods, MethodIs method name

instance (method : String) : Decidable (Bodyless method) := by unfold Bodyless; infer_instance

/-- A body may be reflected: the method has one, or the value enforces it. -/
def MayHaveBody (env : Env S) (cu : ContentUnit S) (method : String) : Prop :=
  ¬ Bodyless method ∨ (cu.value env).forceBody = true

/-- The value has form fields. -/
def HasFormFields (env : Env S) (cu : ContentUnit S) : Prop :=
  (cu.value env).tagged "formData" = true ∨ (cu.value env).tagged "form" = true

/-- The unit has a form body: form fields, or a mapping to form fields. -/
def WantsFormBody (env : Env S) (cu : ContentUnit S) (method : String) : Prop :=
  MayHaveBody env cu method ∧ (HasFormFields env cu ∨ cu.fieldMapping "formData" ≠ [])

/-- The unit has a JSON body: it has JSON fields or is a map or array or such, and it has no form fields or
enforces the JSON body in spite of them. -/
def WantsJSONBody (env : Env S) (cu : ContentUnit S) (method : String) : Prop :=
  MayHaveBody env cu method ∧
  (HasFormFields env cu → (cu.value env).forceJSONBody = true ∨ (cu.value env).hasJSONSchemaStruct = true) ∧
  ((cu.value env).tagged "json" = true ∨ (cu.value env).hasJSONSchemaStruct = true ∨
    (cu.value env).isSliceOrMap = true ∨ (cu.value env).embedsSliceOrMap = true ∨ env.processWithoutTags = .ok true)

/-- A form body is looked for in the unit. -/
def TakesForm (cu : ContentUnit S) : Prop :=
  cu.contentType ∈ ["", "application/x-www-form-urlencoded", "multipart/form-data"]

/-- A JSON body is looked for in the unit. -/
def TakesJSON (cu : ContentUnit S) : Prop := cu.contentType ∈ ["", "application/json"]

/-- The unit leads to a request body: a form, JSON, or one of another content type. -/
def WantsBody (env : Env S) (cu : ContentUnit S) (method : String) : Prop :=
  (TakesForm cu ∧ WantsFormBody env cu method) ∨ (TakesJSON cu ∧ WantsJSONBody env cu method) ∨ ∃ mime, RawMime cu mime

/-- The customisation of the unit leaves the media type of this content type alone. -/
def KeepsContent (cu : ContentUnit S) (ct : String) : Prop :=
  ∀ f, cu.customize = some f → ∀ rb : RequestBodyOrRef S,
    (f.req rb).body.bind (·.content.get? ct) = rb.body.bind (·.content.get? ct)

/-- A file was met in the reflection. -/
def MeetsFile (visited : List ValueKind) : Prop := ValueKind.file ∈ visited ∨ ValueKind.fileHeader ∈ visited

/-- The media type of a content type in the request body of an operation. -/
def reqContent (op : Operation S) (ct : String) : Option (MediaType S) :=
  (op.requestBody.bind (·.body)).bind (·.content.get? ct)

/-- The unit forbids unknown parameters in the location: its parameters are reflected, it is not a map or
array, and the schema of the parameters in that location does not allow additional properties. -/
def ForbidsUnknown (env : Env S) (cu : ContentUnit S) (inn : String) : Prop :=
  ReflectsParams cu ∧ inn ∈ paramLocations ∧ (cu.value env).isSliceOrMap = false ∧
  ∃ flat not allOf oneOf anyOf items itemsArr props others,
    ((cu.value env).params inn (cu.fieldMapping inn)).result =
      .ok (.obj flat not allOf oneOf anyOf items itemsArr props (some (.bool false)) others)

/-! ## Parameters -/

/-- The serialisation that a `collectionFormat` tag stands for: style and explode. -/
def collectionStyles : List (String × String × Bool) :=
  [("csv", "form", false), ("ssv", "spaceDelimited", false), ("pipes", "pipeDelimited", false), ("multi", "form", true)]

/-- The parameter is sent as JSON. -/
def JSONEncoded (c : PropCall S) : Prop :=
  c.collectionFormat = "json" ∨ (c.taggedJSON = true ∧ c.taggedIn = false)

/-- The style and explode flag of the parameter of a field. -/
def Serialised (c : PropCall S) (p : Parameter S) : Prop :=
  (¬ JSONEncoded c ∧ c.inlined = .ok true → p.style = some "deepObject" ∧ p.explode = some true) ∧
  (¬ (¬ JSONEncoded c ∧ c.inlined = .ok true) →
    (∀ style explode, (c.collectionFormat, style, explode) ∈ collectionStyles →
      p.style = some style ∧ p.explode = some explode) ∧
    ((∀ style explode, (c.collectionFormat, style, explode) ∉ collectionStyles) → p.style = none ∧ p.explode = none))

/-- The parameter for a field before its tags are applied. -/
def BuiltParam (v : Ver S) (inn : String) (c : PropCall S) (p : Parameter S) : Prop :=
  p.name = c.name ∧ p.inn = inn ∧ p.description = c.schema.description ∧ p.required = none ∧ p.deprecated = none ∧
  Serialised c p ∧
  (¬ JSONEncoded c → p.content = [] ∧ ∃ sc, v.conv c.schema = .ok sc ∧ p.schema = some (v.paramSchema c.isPtr sc)) ∧
  (JSONEncoded c → p.schema = none ∧
    ∃ js sc, c.inner.2 = .ok js ∧ v.conv js = .ok sc ∧ p.content = [("application/json", { schema := some sc })])

/-- The stored parameter for a field: built, changed by tags, and required if it is a path parameter. -/
def ParamFor (v : Ver S) (inn : String) (c : PropCall S) (p : Parameter S) : Prop :=
  ∃ p0 p1, BuiltParam v inn c p0 ∧ c.populate p0 = .ok p1 ∧
    (inn = "path" → p = { p1 with required := some true }) ∧ (inn ≠ "path" → p = p1)

/-- The fields that become parameters: the processed ones at the top level, in order. -/
def topFields (es : List (Event S)) : List (PropCall S) :=
  es.filterMap fun e => match e with
    | .prop c => if c.processed = true ∧ c.pathLen ≤ 1 then some c else none
    | .defn _ _ => none

instance (cu : ContentUnit S) : Decidable (ReflectsParams cu) := by unfold ReflectsParams; infer_instance

/-- The fields of a unit that become parameters, with their locations, in order. Maps and arrays have none. -/
def paramFields (env : Env S) (cu : ContentUnit S) : List (String × PropCall S) :=
  if ReflectsParams cu ∧ (cu.value env).isSliceOrMap = false then
    paramLocations.flatMap fun inn =>
      (topFields ((cu.value env).params inn (cu.fieldMapping inn)).events).map fun c => (inn, c)
  else []

/-- The definitions that are reported in the course of the reflection of the parameters of a unit. -/
def ParamDefinition (env : Env S) (cu : ContentUnit S) (n : String) : Prop :=
  ReflectsParams cu ∧ (cu.value env).isSliceOrMap = false ∧ ∃ inn ∈ paramLocations,
    (∃ d, Event.defn n d ∈ ((cu.value env).params inn (cu.fieldMapping inn)).events) ∨
    ∃ c, (inn, c) ∈ paramFields env cu ∧ JSONEncoded c ∧ ∃ d, (n, d) ∈ c.inner.1

/-- The definitions that are reported in the course of the reflection of a unit. -/
def RequestDefinition (env : Env S) (cu : ContentUnit S) (method n : String) : Prop :=
  ParamDefinition env cu n ∨
  (TakesForm cu ∧ WantsFormBody env cu method ∧ ∃ sch defs d,
    ((cu.value env).body "formData" (cu.fieldMapping "formData")).result = .ok (sch, defs) ∧ (n, d) ∈ defs) ∨
  (TakesJSON cu ∧ WantsJSONBody env cu method ∧ ∃ sch defs d,
    ((cu.value env).body "json" []).result = .ok (sch, defs) ∧ (n, d) ∈ defs)

/-- Two lists of equal length that are related element by element. -/
inductive Pointwise {α β : Type} (R : α → β → Prop) : List α → List β → Prop
  | nil : Pointwise R [] []
  | cons {a b as bs} : R a b → Pointwise R as bs → Pointwise R (a :: as) (b :: bs)

/-! ## Responses -/

/-- The status of a unit that is not the default response: 200 if none was given. -/
def effectiveStatus (cu : ContentUnit S) : Int := if cu.httpStatus = 0 then 200 else cu.httpStatus

/-- The place of the response of a unit: the default response (`none`), or the entry of a status, where
1 to 5 stand for `1XX` to `5XX`. -/
def placeOf (cu : ContentUnit S) : Option String :=
  if cu.isDefault = true then none
  else if 1 ≤ effectiveStatus cu ∧ effectiveStatus cu ≤ 5 then some (toString (effectiveStatus cu) ++ "XX")
  else some (toString (effectiveStatus cu))

/-- The response of an operation in a place. -/
def responseIn (op : Operation S) : Option String → Option (ResponseOrRef S)
  | none => op.responses.default
  | some k => op.responses.codes.get? k

/-- The media type of a response. -/
def respContent (op : Operation S) (place : Option String) (ct : String) : Option (MediaType S) :=
  ((responseIn op place).bind (·.response)).bind (·.content.get? ct)

/-- A content type without its parameters: what is before the first semicolon, or all of it if there is none. -/
def MediaTypeOf (contentType t : String) : Prop :=
  ';' ∉ t.toList ∧ (contentType = t ∨ ∃ parameters, contentType = t ++ ";" ++ parameters)

/-- The content type under which a JSON response is stored. -/
def jsonContentType (cu : ContentUnit S) : String :=
  if cu.contentType = "" then "application/json" else cu.contentType

/-- The schema without what does not constrain values: title, description, id, examples and extras. -/
def constraintsOf : JS → JS
  | .obj flat not allOf oneOf anyOf items itemsArr props addl others =>
    .obj { flat with title := none, description := none, extra := [], id := none, examples := [] }
      not allOf oneOf anyOf items itemsArr props addl others
  | j => j

/-- The schema of the value says nothing, or only that it is an object. -/
def NoJSONBody (env : Env S) (value : Value S) : Prop :=
  ∃ js j, value.plain = .ok js ∧ env.marshal (constraintsOf js) = .ok j ∧ (j = "{}" ∨ j = "{\"type\":\"object\"}")

/-- The unit has a JSON response made from this value. -/
def RespondsJSON (env : Env S) (method : String) (cu : ContentUnit S) (value : Value S) : Prop :=
  ¬ MethodIs method "head" ∧ cu.structure_ = some value ∧ ¬ NoJSONBody env value

/-- What the unit may write under a content type: JSON, a `contentType` tag, or its own content type. -/
def ResponseMime (cu : ContentUnit S) (ct : String) : Prop :=
  HasRawTag cu ct ∨ (cu.structure_ ≠ none ∧ ct = jsonContentType cu) ∨ (ct = cu.contentType ∧ ct ≠ "")

/-- The customisation of the unit leaves the media type of this content type in the response alone. -/
def KeepsRespContent (cu : ContentUnit S) (ct : String) : Prop :=
  ∀ f, cu.customize = some f → ∀ r : ResponseOrRef S,
    (f.resp r).response.bind (·.content.get? ct) = r.response.bind (·.content.get? ct)

/-- The first text that is not empty. -/
def firstNonEmpty : List String → String
  | [] => ""
  | d :: ds => if d = "" then firstNonEmpty ds else d

/-- The description in the schema of the JSON response of a unit, empty if there is none. -/
def JSONDescription (env : Env S) (method : String) (cu : ContentUnit S) (d : String) : Prop :=
  (∀ value js, RespondsJSON env method cu value → value.response.result = .ok js → d = js.description.getD "") ∧
  ((∀ value, ¬ RespondsJSON env method cu value) → d = "")

/-- The description in the schema of the headers of a unit, empty if there is none. -/
def HeaderDescription (cu : ContentUnit S) (d : String) : Prop :=
  (∀ value js, cu.structure_ = some value → (value.headers (cu.fieldMapping "header")).result = .ok js →
    d = js.description.getD "") ∧
  (cu.structure_ = none → d = "")

/-- The stored header for a field. -/
def HeaderFor (v : Ver S) (c : PropCall S) (h : Header S) : Prop :=
  ∃ sc dep, v.conv c.schema = .ok sc ∧ v.headerDeprecated c.schema sc = some dep ∧
    c.populateHeader { description := c.schema.description, deprecated := dep, schema := some sc } = .ok h

/-- The context is the one that `NewOperationContext` makes for some method and path; everything else in it
may have been set since. -/
def V30.Made (oc : OpCtx S) : Prop :=
  ∃ (sp : V30.Spec S) (m p : String) (oc0 : OpCtx S), V30.newOperationContext sp m p = .ok oc0 ∧
    oc.method = oc0.method ∧ oc.path = oc0.path ∧ oc.pathParams = oc0.pathParams

/-- The same for 3.1. -/
def V31.Made (oc : OpCtx S) : Prop :=
  ∃ (sp : V31.Spec S) (m p : String) (oc0 : OpCtx S), V31.newOperationContext sp m p = .ok oc0 ∧
    oc.method = oc0.method ∧ oc.path = oc0.path ∧ oc.pathParams = oc0.pathParams

/-- All path parameters of the operation are required. -/
def PathParamsRequired (op : Operation S) : Prop :=
  ∀ q ∈ ParamSpec.inlineParams op.parameters, q.inn = "path" → q.required = some true

/-- The parameters of the operation and the placeholders of the path agree: every path parameter has a
placeholder and every placeholder has a path parameter. -/
def DeclaresPlaceholders (path : String) (op : Operation S) : Prop :=
  ∃ pieces, PathSpec.Decomposes path pieces ∧
    ParamSpec.PathParamsHavePlaceholders op.parameters (PathSpec.names pieces) ∧
    ParamSpec.PlaceholdersAreDefined op.parameters (PathSpec.names pieces)

/-! ## Success -/

/-- The schema can be converted. -/
def Converts (v : Ver S) (j : JS) : Prop := ∃ sc, v.conv j = .ok sc

/-- Everything that is needed of a field for its parameter is available: its schema and, for a parameter that
is sent as JSON, the schema of its content, otherwise whether it is an object. -/
def FieldReflects (v : Ver S) (c : PropCall S) : Prop :=
  Converts v c.schema ∧ (JSONEncoded c → ∃ js, c.inner.2 = .ok js ∧ Converts v js) ∧
  (¬ JSONEncoded c → ∃ b, c.inlined = .ok b)

/-- The body of a value can be reflected, and its schema and definitions can be converted. -/
def BodyReflects (v : Ver S) (b : BodyReflection) : Prop :=
  ∃ sch defs, b.result = .ok (sch, defs) ∧ Converts v sch ∧ ∀ n d, (n, d) ∈ defs → Converts v d

/-- Everything that is needed of a request unit is available: the bodies that it wants, and its parameters. -/
def UnitReflects (v : Ver S) (env : Env S) (method : String) (cu : ContentUnit S) : Prop :=
  (TakesForm cu → WantsFormBody env cu method →
    BodyReflects v ((cu.value env).body "formData" (cu.fieldMapping "formData"))) ∧
  (TakesJSON cu → WantsJSONBody env cu method → BodyReflects v ((cu.value env).body "json" [])) ∧
  (ReflectsParams cu → (cu.value env).isSliceOrMap = false → ∀ inn ∈ paramLocations,
    (∃ js, ((cu.value env).params inn (cu.fieldMapping inn)).result = .ok js) ∧
    ∀ c ∈ topFields ((cu.value env).params inn (cu.fieldMapping inn)).events, FieldReflects v c)

/-- Schemas of a request unit whose conversion errors are returned. -/
inductive ReportedSchema (env : Env S) (cu : ContentUnit S) : JS → Prop
  | form {sch : JS} {defs : List (String × JS)}
      (h : ((cu.value env).body "formData" (cu.fieldMapping "formData")).result = .ok (sch, defs)) :
      ReportedSchema env cu sch
  | formDef {sch : JS} {defs : List (String × JS)} {n : String} {d : JS}
      (h : ((cu.value env).body "formData" (cu.fieldMapping "formData")).result = .ok (sch, defs)) (m : (n, d) ∈ defs) :
      ReportedSchema env cu d
  | json {sch : JS} {defs : List (String × JS)} (h : ((cu.value env).body "json" []).result = .ok (sch, defs)) :
      ReportedSchema env cu sch
  | jsonDef {sch : JS} {defs : List (String × JS)} {n : String} {d : JS}
      (h : ((cu.value env).body "json" []).result = .ok (sch, defs)) (m : (n, d) ∈ defs) : ReportedSchema env cu d
  | field {inn : String} {c : PropCall S} (i : inn ∈ paramLocations)
      (h : Event.prop c ∈ ((cu.value env).params inn (cu.fieldMapping inn)).events) : ReportedSchema env cu c.schema
  | content {inn : String} {c : PropCall S} {js : JS} (i : inn ∈ paramLocations)
      (h : Event.prop c ∈ ((cu.value env).params inn (cu.fieldMapping inn)).events) (r : c.inner.2 = .ok js) :
      ReportedSchema env cu js

/-- Schemas of a request unit whose conversion errors make the library panic: definitions. -/
inductive ReportedDefinition (env : Env S) (cu : ContentUnit S) : JS → Prop
  | param {inn n : String} {d : JS} (i : inn ∈ paramLocations)
      (h : Event.defn n d ∈ ((cu.value env).params inn (cu.fieldMapping inn)).events) : ReportedDefinition env cu d
  | nested {inn n : String} {c : PropCall S} {d : JS} (i : inn ∈ paramLocations)
      (h : Event.prop c ∈ ((cu.value env).params inn (cu.fieldMapping inn)).events) (m : (n, d) ∈ c.inner.1) :
      ReportedDefinition env cu d

/-- The schema of a string, with a format unless that is empty. -/
def plainString (format : String) : JS :=
  .obj { type := some (.one "string"), format := if format = "" then none else some format } none [] [] [] none [] [] none []

/-- No conversion of a schema of the unit panics, its definitions and plain strings can be converted. -/
def RequestConverts (v : Ver S) (env : Env S) (cu : ContentUnit S) : Prop :=
  (∀ j, ReportedSchema env cu j → v.conv j ≠ .panic) ∧ (∀ d, ReportedDefinition env cu d → Converts v d) ∧
  ∀ format, Converts v (plainString format)

/-- Location and name of a parameter. -/
def Parameter.key (p : Parameter S) : String × String := (p.inn, p.name)

/-- None of the parameters shares location and name with another, or with one of those that are taken. -/
def FreshParams (taken : List (String × String)) (ps : List (Parameter S)) : Prop :=
  (ps.map Parameter.key).Nodup ∧ ∀ p ∈ ps, p.key ∉ taken

/-- Locations and names of the inline parameters of an operation. -/
def takenKeys (op : Operation S) : List (String × String) := (ParamSpec.inlineParams op.parameters).map Parameter.key

/-- Everything that is needed of a response unit is available: the schema of its JSON response, if it has one,
and its headers. -/
def ResponseReflects (v : Ver S) (env : Env S) (method : String) (cu : ContentUnit S) : Prop :=
  (∀ value, RespondsJSON env method cu value → ∃ js, value.response.result = .ok js ∧ Converts v js) ∧
  ∀ value, cu.structure_ = some value → (∃ js, (value.headers (cu.fieldMapping "header")).result = .ok js) ∧
    ∀ c ∈ topFields (value.headers (cu.fieldMapping "header")).events, ∃ h, HeaderFor v c h

/-- No conversion of a schema of the unit panics, the schemas of headers are no references, and definitions
and plain strings can be converted. -/
def ResponseConverts (v : Ver S) (cu : ContentUnit S) : Prop :=
  (∀ value js, cu.structure_ = some value → value.response.result = .ok js → v.conv js ≠ .panic) ∧
  (∀ value c, cu.structure_ = some value → Event.prop c ∈ (value.headers (cu.fieldMapping "header")).events →
    v.conv c.schema ≠ .panic ∧ ∀ sc, v.conv c.schema = .ok sc → v.headerDeprecated c.schema sc ≠ none) ∧
  (∀ value n d, cu.structure_ = some value → Event.defn n d ∈ value.response.events → Converts v d) ∧
  ∀ format, Converts v (plainString format)

/-- All inline parameters have one of the four locations: those of the operation, and those made from the
fields of the units. -/
def StandardParams (env : Env S) (oc : OpCtx S) : Prop :=
  ParamSpec.StandardLocations oc.op.parameters ∧ ∀ cu ∈ oc.req, LocationStable env cu

/-- Everything that is needed of the units of a context is available, and the parameters of the operation
together with those of the fields are valid for the placeholders. -/
def Reflectable (v : Ver S) (env : Env S) (oc : OpCtx S) (placeholders : List String) : Prop :=
  (∀ cu ∈ oc.req, UnitReflects v env oc.method cu) ∧ (∀ cu ∈ oc.resp, ResponseReflects v env oc.method cu) ∧
  ∃ ps, Pointwise (fun f p => ParamFor v f.1 f.2 p) (oc.req.flatMap (paramFields env)) ps ∧
    ParamSpec.Valid (oc.op.parameters ++ ps.map fun p => { param := some p }) placeholders

/-- No conversion of a schema that the reflector meets in the context panics. -/
def Convertible (v : Ver S) (env : Env S) (oc : OpCtx S) : Prop :=
  (∃ b, env.processWithoutTags = .ok b) ∧ (∀ cu ∈ oc.req, RequestConverts v env cu) ∧
  ∀ cu ∈ oc.resp, ResponseConverts v cu

/-! ## Parts of the two versions -/

/-- A media type with the schema of a string and nothing else. -/
def PlainMedia (v : Ver S) (format : String) (mt : MediaType S) : Prop :=
  ∃ sc, v.conv (plainString format) = .ok sc ∧ mt = { schema := some sc }

namespace V30

mutual
/-- No zero value (neither a boolean nor an object) stands where the conversion to 3.0 looks: at the root or
in the sub-schemas of `not`, `allOf`, `oneOf`, `anyOf`, `items`, `properties`, `additionalProperties`, but
not beside `$ref`. -/
def NoZero : JS → Prop
  | .zero => False
  | .bool _ => True
  | .obj f not allOf oneOf anyOf items _ props addl _ =>
    f.ref = none → NoZeroOpt not ∧ NoZeroList allOf ∧ NoZeroList oneOf ∧ NoZeroList anyOf ∧ NoZeroOpt items ∧
      NoZeroProps props ∧ NoZeroOpt addl
/-- For pointers. -/
def NoZeroOpt : Option JS → Prop
  | none => True
  | some s => NoZero s
/-- For lists. -/
def NoZeroList : List JS → Prop
  | [] => True
  | s :: ss => NoZero s ∧ NoZeroList ss
/-- For maps. -/
def NoZeroProps : List (String × JS) → Prop
  | [] => True
  | (_, s) :: ss => NoZero s ∧ NoZeroProps ss
end

/-- The schema says that null is allowed. -/
def SaysNullable : OS → Prop
  | .schema f _ _ _ _ _ _ _ _ => f.nullable = some true
  | _ => False

/-- The two schemas are the same, except perhaps for `nullable`. -/
def SameButNullable : OS → OS → Prop
  | .schema f not allOf oneOf anyOf items props b addl, t =>
    ∃ n, t = .schema { f with nullable := n } not allOf oneOf anyOf items props b addl
  | s, t => t = s

/-- The schema is a plain reference. -/
def IsPlainRef : JS → Prop
  | .obj f _ _ _ _ _ _ _ _ _ => f.ref ≠ none ∧ f.deprecated ≠ some true
  | _ => False

end V30

/-- `$ref` of a schema. -/
def JS.ref? : JS → Option String
  | .obj f _ _ _ _ _ _ _ _ _ => f.ref
  | _ => none

/-- `deprecated` of a schema. -/
def JS.deprecated? : JS → Option Bool
  | .obj f _ _ _ _ _ _ _ _ _ => f.deprecated
  | _ => none

end Verif
