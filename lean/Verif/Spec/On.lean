import Verif.Schema30On

/-! # What is left of a schema when another one is converted into it -/

namespace Verif.Spec
open Verif V30

/-- The schema `res` is what becomes of `old` when a JSON Schema is converted into it that would make `new` on its own. -/
structure Overlaid (old new res : Parts) : Prop where
  /-- Taken over, also if there is none. -/
  reflectType : res.flat.reflectType = new.flat.reflectType
  title : res.flat.title = new.flat.title
  description : res.flat.description = new.flat.description
  required : res.flat.required = new.flat.required
  default_ : res.flat.default = new.flat.default
  enum : res.flat.enum = new.flat.enum
  deprecated : res.flat.deprecated = new.flat.deprecated
  format : res.flat.format = new.flat.format
  maxItems : res.flat.maxItems = new.flat.maxItems
  maxLength : res.flat.maxLength = new.flat.maxLength
  maxProperties : res.flat.maxProperties = new.flat.maxProperties
  multipleOf : res.flat.multipleOf = new.flat.multipleOf
  pattern : res.flat.pattern = new.flat.pattern
  readOnly : res.flat.readOnly = new.flat.readOnly
  writeOnly : res.flat.writeOnly = new.flat.writeOnly
  uniqueItems : res.flat.uniqueItems = new.flat.uniqueItems
  /-- Taken over if there is one, and left otherwise. -/
  example_ : res.flat.example_ = (new.flat.example_ <|> old.flat.example_)
  type : res.flat.type = (new.flat.type <|> old.flat.type)
  nullable : res.flat.nullable = (new.flat.nullable <|> old.flat.nullable)
  exclusiveMaximum : res.flat.exclusiveMaximum = (new.flat.exclusiveMaximum <|> old.flat.exclusiveMaximum)
  exclusiveMinimum : res.flat.exclusiveMinimum = (new.flat.exclusiveMinimum <|> old.flat.exclusiveMinimum)
  minItems : res.flat.minItems = (new.flat.minItems <|> old.flat.minItems)
  minLength : res.flat.minLength = (new.flat.minLength <|> old.flat.minLength)
  minProperties : res.flat.minProperties = (new.flat.minProperties <|> old.flat.minProperties)
  not : res.not = (new.not <|> old.not)
  items : res.items = (new.items <|> old.items)
  allOf : res.allOf = if new.allOf = [] then old.allOf else new.allOf
  oneOf : res.oneOf = if new.oneOf = [] then old.oneOf else new.oneOf
  anyOf : res.anyOf = if new.anyOf = [] then old.anyOf else new.anyOf
  props : res.props = if new.props = [] then old.props else new.props
  additional : (res.addlBool, res.addl) =
    if new.addlBool = none ∧ new.addl = none then (old.addlBool, old.addl) else (new.addlBool, new.addl)
  ext : ∀ k, GoMap.get? res.flat.ext k = (GoMap.get? new.flat.ext k <|> GoMap.get? old.flat.ext k)
  /-- Bounds: an exclusive bound takes the place of the bound. -/
  maximum : res.flat.maximum =
    if new.flat.exclusiveMaximum = none then (new.flat.maximum <|> old.flat.maximum) else new.flat.maximum
  minimum : res.flat.minimum =
    if new.flat.exclusiveMinimum = none then (new.flat.minimum <|> old.flat.minimum) else new.flat.minimum
  /-- Never touched. -/
  discriminator : res.flat.discriminator = old.flat.discriminator
  externalDocs : res.flat.externalDocs = old.flat.externalDocs
  xml : res.flat.xml = old.flat.xml

/-- The reference of a JSON Schema. -/
def refOf : JS → Option String
  | .obj flat _ _ _ _ _ _ _ _ _ => flat.ref
  | _ => none

/-- The extra properties of a JSON Schema. -/
def extraOf : JS → GoMap Any
  | .obj flat _ _ _ _ _ _ _ _ _ => flat.extra
  | _ => []

/-- It is marked as deprecated. -/
def isDeprecated : JS → Prop
  | .obj flat _ _ _ _ _ _ _ _ _ => flat.deprecated = some true
  | _ => False

end Verif.Spec
