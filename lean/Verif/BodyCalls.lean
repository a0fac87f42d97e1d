import Verif.Reflect
import Verif.Http

/-!
# Model of the callbacks of a request body

`ReflectRequestBody` hands three callbacks to the dependency's `Reflect`
(`/repo/internal/json_schema.go:105-183`): one that names definitions, one that is told when `null` was added
to the types of a schema, and one that makes the schema of a file. Their code is modelled here, on what the
dependency passes to them.

`jsonschema.RemoveType` is a method of the dependency, whose source is not available: it is a parameter
`rm`, on the `Type` field, like `AddType` (`addType`).
-/

namespace Verif

/-- `isSeparator` of the Go library for ASCII characters. Simplification: a character that is not ASCII is
not a separator. Used in `strings.Title`, `/repo/internal/json_schema.go:108`. -/
def isSeparator (c : Char) : Bool :=
  c.toNat < 128 && !(('0' ≤ c && c ≤ '9') || ('a' ≤ c && c ≤ 'z') || ('A' ≤ c && c ≤ 'Z') || c == '_')

/-- `strings.Title` after the character `prev`. -/
def titleFrom (prev : Char) : List Char → List Char
  | [] => []
  | c :: cs => (if isSeparator prev then upperRune c else c) :: titleFrom c cs

/-- `strings.Title`. Simplification: only ASCII letters have a title case of their own.
`/repo/internal/json_schema.go:108`. -/
def goTitle (s : String) : String := String.ofList (titleFrom ' ' s.toList)

/-- A Go type for which `Reflect` makes a definition: its default name, and `refl.HasTaggedFields` on a new
value of it. `/repo/internal/json_schema.go:112-126`. -/
structure DefType where
  defaultName : String
  tagged : String → Bool

/-- The callback that is passed to `InterceptDefName`. `/repo/internal/json_schema.go:105-109,112-128`. -/
def prefixDefName (tag : String) (additionalTags : List String) (t : DefType) (name : String) : String :=
  let definitionPrefix := if tag ≠ "json" then goTitle tag else ""
  if tag ≠ "json" && (t.tagged tag || additionalTags.any t.tagged) then definitionPrefix ++ name else name

/-- The name of the definition of a type in a request body: `InterceptDefName` makes the later callback,
`sanitizeDefName`, work on what the earlier one returns. `/repo/internal/json_schema.go:111-132`. -/
def bodyDefName (tag : String) (additionalTags : List String) (t : DefType) : String :=
  sanitizeDefName (prefixDefName tag additionalTags t t.defaultName)

/-- `Schema.RemoveType`, on the `Type` field. -/
abbrev RemoveType := Option JType → String → Option JType

/-- The type of a schema, as far as the callback for nullability distinguishes: `[]multipart.File`,
`[]*multipart.FileHeader`, or another one. `/repo/internal/json_schema.go:139-148`. -/
inductive SliceKind where
  | files
  | fileHeaders
  | other
deriving DecidableEq, Repr

/-- The callback that is passed to `InterceptNullability`. `reflectType` is nothing for a nil
`ReflectType`. `/repo/internal/json_schema.go:133-154`. -/
def interceptNullability (rm : RemoveType) (nullAdded : Bool) (reflectType : Option SliceKind) (flat : JFlat) : JFlat :=
  if nullAdded then
    match reflectType with
    | none => flat
    | some k =>
      let foundFiles := match k with
        | .files => true
        | .fileHeaders => true
        | .other => false
      if foundFiles then { flat with type := rm flat.type "null" } else flat
  else flat

/-- The callback that is passed to `InterceptSchema`: the schema, whether reflection stops here, and
`hasFileUpload`. `/repo/internal/json_schema.go:155-182`. -/
def interceptFile (rm : RemoveType) (is31 : Bool) (k : ValueKind) (flat : JFlat) (hasFileUpload : Bool) :
    JFlat × Bool × Bool :=
  let foundFile := match k with
    | .file => true
    | .fileHeader => true
    | .other => false
  if foundFile then
    let flat := { flat with type := addType flat.type "string" }
    let flat := { flat with type := rm flat.type "null" }
    let flat := { flat with format := some "binary" }
    let flat := if is31 then
        { flat with extra := GoMap.set flat.extra "contentMediaType" (.str "application/octet-stream") }
      else flat
    (flat, true, true)
  else (flat, false, hasFileUpload)

end Verif
