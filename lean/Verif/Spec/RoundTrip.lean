import Verif.Lemmas.Codec
import Verif.Spec.Codec

/-!
# Values that can be written and read back

`Same v w` says what may be different between a value and what is read back after writing it, and `Writable` says
which values can be written and read back. Both only speak about Go values of the described types.
-/

namespace Verif.Spec
open Codec

/-- Fields that repeat what other fields say; reading a document fills them in. -/
def derived : List String := ["SchemaXORContent", "Location", "Bearer", "NonBearer"]

mutual
/-- The second value is the first one, up to: empty slices and maps that became nil; in parameters and HTTP security
schemes of 3.0, derived fields that were nil and are filled in, and the style of a header or cookie parameter, which was nil
and is now its default. -/
inductive Same : Val → Val → Prop where
  | same (v : Val) : Same v v
  | emptyList : Same (.list []) .nil
  | emptyMap : Same (.map []) .nil
  | list {vs ws : List Val} (h : SameList vs ws) : Same (.list vs) (.list ws)
  | map {ms ns : List (String × Val)} (h : SameEntries ms ns) : Same (.map ms) (.map ns)
  | struct {ms ns : List (String × Val)} (h : SameEntries ms ns) : Same (.struct ms) (.struct ns)
  | filled {ms ns : List (String × Val)}
      (hn : ms.map Prod.fst = V30.sParameter.names ∨ ms.map Prod.fst = V30.sHTTPSecurityScheme.names)
      (h : SameFilled ms ns) : Same (.struct ms) (.struct ns)
/-- The same for all elements. -/
inductive SameList : List Val → List Val → Prop where
  | nil : SameList [] []
  | cons {v w : Val} {vs ws : List Val} (h : Same v w) (hs : SameList vs ws) : SameList (v :: vs) (w :: ws)
/-- The same for all entries or fields, with the same names in the same order. -/
inductive SameEntries : List (String × Val) → List (String × Val) → Prop where
  | nil : SameEntries [] []
  | cons {k : String} {v w : Val} {ms ns : List (String × Val)} (h : Same v w) (hs : SameEntries ms ns) :
      SameEntries ((k, v) :: ms) ((k, w) :: ns)
/-- The same for the fields of a parameter or HTTP security scheme of 3.0, some of which may be filled in. -/
inductive SameFilled : List (String × Val) → List (String × Val) → Prop where
  | nil : SameFilled [] []
  | cons {k : String} {v w : Val} {ms ns : List (String × Val)} (h : Same v w) (hs : SameFilled ms ns) :
      SameFilled ((k, v) :: ms) ((k, w) :: ns)
  | derived {k : String} {w : Val} {ms ns : List (String × Val)} (h : k ∈ derived) (hs : SameFilled ms ns) :
      SameFilled ((k, .nil) :: ms) ((k, w) :: ns)
  | style {s : String} {ms ns : List (String × Val)} (h : s ∈ ["simple", "form"]) (hs : SameFilled ms ns) :
      SameFilled (("Style", .nil) :: ms) (("Style", .str s) :: ns)
end

/-- A value of a struct type: its fields in order. -/
def structOf (s : Struct) (val : String → Val) : Val := .struct (s.names.map (fun go => (go, val go)))

/-- An explicit `null` in a field that can hold one. -/
def ExplicitNull (s : Struct) (f : Field) (v : Val) : Prop := (f.go, f.key) ∈ s.nulls ∧ v = .any .null

/-- A field that is not written. -/
def Omitted (s : Struct) (val : String → Val) (key : String) : Prop :=
  ∃ f ∈ s.fields, f.key = key ∧ omitted f (val f.go) = true

/-- A field that is written. -/
def Written (s : Struct) (val : String → Val) (key : String) : Prop :=
  ∃ f ∈ s.fields, f.key = key ∧ omitted f (val f.go) = false

/-- The keys of a map value. -/
def keysOf : Val → List String
  | .map es => es.map Prod.fst
  | _ => []

/-- Exactly one of the two alternatives of `SchemaXORContent`, holding the JSON value. -/
def xorSchema (a : Any) : Val := .struct [("HasSchema", .struct [("Schema", .any a)]), ("HasContent", .nil)]
def xorContent (a : Any) : Val := .struct [("HasSchema", .nil), ("HasContent", .struct [("Content", .any a)])]

/-- The `Location` of a parameter. -/
def location (i : String) (v : Val) : Val := .struct [("PathParameter", if i = "path" then v else .nil),
  ("QueryParameter", if i = "query" then v else .nil), ("HeaderParameter", if i = "header" then v else .nil),
  ("CookieParameter", if i = "cookie" then v else .nil)]

/-- The styles of a parameter by its location (OpenAPI 3.0.3, "Style Values"). -/
def styles : String → List String
  | "path" => ["matrix", "label", "simple"]
  | "query" => ["form", "spaceDelimited", "pipeDelimited", "deepObject"]
  | "header" => ["simple"]
  | "cookie" => ["form"]
  | _ => []

/-- The values of a type that can be written and read back. `Ok u go v` restricts the alternatives: in the union
`u`, field `go` may hold `v`. -/
inductive Writable (T : Table) (N : Nums) (Ok : String → String → Val → Prop) : Ty → Val → Prop where
  /-- what `encoding/json` reads into an `interface{}` as it is -/
  | any {a : Any} (h : decodeAny N a = some a) : Writable T N Ok .any (.any a)
  | bool (b : Bool) : Writable T N Ok .bool (.bool b)
  | str (s : String) : Writable T N Ok .str (.str s)
  | int {lit : String} (h : N.i64 lit = some lit) : Writable T N Ok .int (.num lit)
  | float {lit : String} (h : N.f64 lit = some lit) : Writable T N Ok .float (.num lit)
  | nilPtr (t : Ty) : Writable T N Ok (.ptr t) .nil
  | ptr {t : Ty} {v : Val} (ht : notPtr t = true) (h1 : v ≠ .nil) (h2 : v ≠ .any .null) (h : Writable T N Ok t v) :
      Writable T N Ok (.ptr t) v
  | nilSlice (t : Ty) : Writable T N Ok (.slice t) .nil
  | slice {t : Ty} {vs : List Val} (h : ∀ v ∈ vs, Writable T N Ok t v) : Writable T N Ok (.slice t) (.list vs)
  | nilMap (t : Ty) : Writable T N Ok (.map t) .nil
  | map {t : Ty} {ms : List (String × Val)} (hk : (ms.map Prod.fst).Nodup)
      (h : ∀ k v, (k, v) ∈ ms → Writable T N Ok t v) : Writable T N Ok (.map t) (.map ms)
  | enum {n : String} {values : List String} (hn : GoMap.get? T n = some (.enum values)) {s : String}
      (h : s ∈ values) : Writable T N Ok (.named n) (.str s)
  /-- a struct without alternatives (`NonBearer` only occurs in `HTTPSecurityScheme`, below) -/
  | plain {n : String} {s : Struct} (hn : GoMap.get? T n = some (.struct s)) (hs : s.embeds = [] ∧ s.oneOf = [])
      (hb : n ≠ "NonBearer") (val : String → Val)
      (hf : ∀ f ∈ s.fields, ¬ExplicitNull s f (val f.go) → Writable T N Ok f.ty (val f.go))
      (hp : ∀ q ∈ s.patterns, Writable T N Ok (.map q.ty) (val q.go))
      (hpk : ∀ q ∈ s.patterns, ∀ k ∈ keysOf (val q.go), q.pat.matches k = true)
      (ha : ∀ a, s.additional = some a → Writable T N Ok (.map a.ty) (val a.go))
      (hak : ∀ a, s.additional = some a → ∀ k ∈ keysOf (val a.go), ∀ q ∈ s.patterns, q.pat.matches k = false)
      (hone : ∀ a b, s.exactlyOne = some (a, b) → (Omitted s val a ∧ Written s val b) ∨ (Written s val a ∧ Omitted s val b))
      (hlow : ∀ c ∈ s.lower, ∃ t, val c.go = .str t ∧ (goToLower t == c.value) = c.mustBe)
      (hnot : ∀ t ∈ s.nots, ∃ m sm k, t = .named m ∧ GoMap.get? T m = some (.struct sm) ∧ k ∈ sm.require ∧
        Omitted s val k) :
      Writable T N Ok (.named n) (structOf s val)
  /-- one of several alternatives -/
  | union {n : String} {s : Struct} (hn : GoMap.get? T n = some (.struct s))
      (hs : s = { oneOf := s.oneOf, parts := s.oneOf.map (fun h => .hidden h.go) }) {go : String} {t : Ty} {v : Val}
      (ho : ⟨go, .ptr t⟩ ∈ s.oneOf) (hv : v ≠ .nil) (h : Writable T N Ok (.ptr t) v) (hok : Ok n go v) :
      Writable T N Ok (.named n) (.struct (s.oneOf.map (fun h => (h.go, if h.go = go then v else .nil))))
  /-- the HTTP security scheme of 3.0, whose `Bearer` and `NonBearer` repeat what `Scheme` says -/
  | http (hn : GoMap.get? T "HTTPSecurityScheme" = some (.struct V30.sHTTPSecurityScheme)) (val : String → Val)
      (hf : ∀ f ∈ V30.sHTTPSecurityScheme.fields, Writable T N Ok f.ty (val f.go))
      (hp : Writable T N Ok (.map .any) (val "MapOfAnything"))
      (hpk : ∀ k ∈ keysOf (val "MapOfAnything"), IsExtension k)
      (hs : (val "Scheme" = .str "bearer" ∧ (val "Bearer" = .nil ∨ val "Bearer" = .struct []) ∧
          val "NonBearer" = .nil) ∨
        (val "Scheme" ≠ .str "bearer" ∧ val "BearerFormat" = .nil ∧ val "Bearer" = .nil ∧
          (val "NonBearer" = .nil ∨ val "NonBearer" = .struct [("Scheme", .nil)]))) :
      Writable T N Ok (.named "HTTPSecurityScheme") (structOf V30.sHTTPSecurityScheme val)
  /-- the security scheme of 3.1: one alternative, a description and extensions -/
  | security (hn : GoMap.get? T "SecurityScheme" = some (.struct V31.sSecurityScheme)) (val : String → Val)
      (hf : ∀ f ∈ V31.sSecurityScheme.fields, Writable T N Ok f.ty (val f.go))
      (hp : Writable T N Ok (.map .any) (val "MapOfAnything"))
      (hpk : ∀ k ∈ keysOf (val "MapOfAnything"), IsExtension k)
      {go : String} {t : Ty} (ho : ⟨go, .ptr t⟩ ∈ V31.sSecurityScheme.oneOf) (hv : val go ≠ .nil)
      (h : Writable T N Ok (.ptr t) (val go))
      (hothers : ∀ h ∈ V31.sSecurityScheme.oneOf, h.go ≠ go → val h.go = .nil) :
      Writable T N Ok (.named "SecurityScheme") (structOf V31.sSecurityScheme val)
  /-- the parameter of 3.0, whose `SchemaXORContent` and `Location` repeat what other fields say: the first is nil,
  or holds the JSON of the schema or content, or some other JSON that reads as the same schema or content -/
  | parameter (hn : GoMap.get? T "Parameter" = some (.struct V30.sParameter)) (val : String → Val)
      (hf : ∀ f ∈ V30.sParameter.fields, ¬ExplicitNull V30.sParameter f (val f.go) → Writable T N Ok f.ty (val f.go))
      (hp : Writable T N Ok (.map .any) (val "MapOfAnything"))
      (hpk : ∀ k ∈ keysOf (val "MapOfAnything"), IsExtension k)
      {a : Any}
      (hx : (val "Schema" ≠ .nil ∧ isEmpty (val "Content") = true ∧
          encode T (.ptr (.named "SchemaOrRef")) (val "Schema") = some a ∧
          ((val "SchemaXORContent" = .nil ∧ decodeAny N a ≠ none) ∨
            (val "SchemaXORContent" = xorSchema a ∧ decodeAny N a = some a) ∨
            (decodeAny N a ≠ none ∧ ∃ b w, val "SchemaXORContent" = xorSchema b ∧ decodeAny N b = some b ∧
              decode T N (.ptr (.named "SchemaOrRef")) b = some w ∧ Same (val "Schema") w))) ∨
        (val "Schema" = .nil ∧ isEmpty (val "Content") = false ∧
          encode T (.map (.named "MediaType")) (val "Content") = some a ∧
          ((val "SchemaXORContent" = .nil ∧ decodeAny N a ≠ none) ∨
            (val "SchemaXORContent" = xorContent a ∧ decodeAny N a = some a) ∨
            (decodeAny N a ≠ none ∧ ∃ b w, val "SchemaXORContent" = xorContent b ∧ decodeAny N b = some b ∧
              decode T N (.map (.named "MediaType")) b = some w ∧ Same (val "Content") w))))
      {i : String} (hin : val "In" = .str i) (hreq : i = "path" → val "Required" = .bool true)
      (hst : val "Style" = .nil ∨ ∃ st ∈ styles i, val "Style" = .str st)
      (hl : val "Location" = .nil ∨
        (i ∈ ["path", "query"] ∧ val "Location" = location i (.struct [("Style", val "Style")])) ∨
        (i ∈ ["header", "cookie"] ∧ val "Location" = location i (.struct []))) :
      Writable T N Ok (.named "Parameter") (structOf V30.sParameter val)

/-- In 3.0 every alternative can be read back. -/
def ok30 : String → String → Val → Prop := fun _ _ _ => True

/-- In 3.1 references to links and to path items cannot be read back, nor references to responses that have a
description (C68). -/
def ok31 : String → String → Val → Prop := fun u go v =>
  go = "Reference" → u ≠ "LinkOrReference" ∧ u ≠ "PathItemOrReference" ∧
    (u = "ResponseOrReference" → ∃ fs, v = .struct fs ∧ ("Description", .nil) ∈ fs)

end Verif.Spec
