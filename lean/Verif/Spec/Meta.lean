import Verif.Spec.Codec
import Verif.Spec.RoundTrip

/-!
# Meta-schemas

A meta-schema is a JSON Schema that says what an OpenAPI document looks like. This file gives the keywords that
the meta-schema of OpenAPI 3.0 uses their meaning, after JSON Schema draft 4. Nothing here mentions the code.
The meta-schema itself is in `Verif.Spec.Meta30`.
-/

namespace Verif.Meta
open Codec (Const Val Ty Table Nums Field)

/-- The regular expressions for keys. -/
inductive KeyPat where
  | x        -- `^x-`
  | methods  -- `^(get|put|post|delete|options|head|patch|trace)$`
  | status   -- `^[1-5](?:\d{2}|XX)$`
  | slash    -- `^\/`
  | name     -- `^[a-zA-Z0-9\.\-_]+$`
deriving DecidableEq, Repr

/-- A character of the last regular expression. -/
def IsNameChar (c : Char) : Prop :=
  ('a' ≤ c ∧ c ≤ 'z') ∨ ('A' ≤ c ∧ c ≤ 'Z') ∨ ('0' ≤ c ∧ c ≤ '9') ∨ c ∈ ['.', '-', '_']

/-- The regular expression matches the key. -/
def KeyPat.Is : KeyPat → String → Prop
  | .x, k => Spec.IsExtension k
  | .methods, k => k ∈ ["get", "put", "post", "delete", "options", "head", "patch", "trace"]
  | .status, k => Spec.IsStatus k
  | .slash, k => Spec.IsPath k
  | .name, k => k.toList ≠ [] ∧ ∀ c ∈ k.toList, IsNameChar c

/-- A schema. -/
inductive Sch where
  /-- an object of keywords: all of them must hold -/
  | all (ks : List Sch)
  | type (t : String)
  | enum (vs : List Const)
  | required (ks : List String)
  /-- `properties`, `patternProperties` and `additionalProperties`, which belong together -/
  | object (props : List (String × Sch)) (pats : List (KeyPat × Sch)) (addl : Option Sch)
  | items (s : Sch)
  | minItems (n : Nat)
  | oneOf (ss : List Sch)
  | allOf (ss : List Sch)
  | not (s : Sch)
  /-- `$ref: #/definitions/n` -/
  | ref (n : String)
  /-- `false` -/
  | never
  /-- a keyword that is left out, with the reason or the text of the keyword -/
  | skip (note : String)

/-- `type: t`. -/
def TypeIs (isInt : String → Prop) (t : String) : Any → Prop
  | .null => t = "null"
  | .bool _ => t = "boolean"
  | .num l => t = "number" ∨ (t = "integer" ∧ isInt l)
  | .str _ => t = "string"
  | .arr _ => t = "array"
  | .obj _ => t = "object"

/-- `properties`, `patternProperties` and `additionalProperties` of a JSON value, the schemas given as predicates:
a member must be as all the properties and patterns for its key say, or as `additionalProperties` says if there is
none. -/
def ObjectIs (props : List (String × (Any → Prop))) (pats : List (KeyPat × (Any → Prop))) (addl : Option (Any → Prop))
    (v : Any) : Prop :=
  ∀ ms, v = .obj ms → ∀ k x, (k, x) ∈ ms →
    (∀ p, (k, p) ∈ props → p x) ∧
    (∀ r p, (r, p) ∈ pats → r.Is k → p x) ∧
    ((∀ p, (k, p) ∉ props) → (∀ r p, (r, p) ∈ pats → ¬r.Is k) → ∀ p, addl = some p → p x)

/-- `oneOf`: exactly one of the schemas, counted by position, accepts the value. -/
def OneOf (ps : List (Any → Prop)) (v : Any) : Prop :=
  ∃ i : Nat, (∃ p, ps[i]? = some p ∧ p v) ∧ ∀ (j : Nat) p, ps[j]? = some p → p v → j = i

mutual
/-- The schema accepts a value. `isInt` says which number literals are integers, `env` which values a definition
accepts. -/
def Ok (isInt : String → Prop) (env : String → Any → Prop) : Sch → Any → Prop
  | .all ks => let ps := OkList isInt env ks; fun v => ∀ p ∈ ps, p v
  | .type t => TypeIs isInt t
  | .enum vs => fun v => ∃ c ∈ vs, v = c.json
  | .required ks => fun v => ∀ ms, v = .obj ms → ∀ k ∈ ks, ∃ x, (k, x) ∈ ms
  | .object props pats addl => ObjectIs (OkProps isInt env props) (OkPats isInt env pats) (OkOpt isInt env addl)
  | .items s => let p := Ok isInt env s; fun v => ∀ xs, v = .arr xs → ∀ x ∈ xs, p x
  | .minItems n => fun v => ∀ xs, v = .arr xs → n ≤ xs.length
  | .oneOf ss => OneOf (OkList isInt env ss)
  | .allOf ss => let ps := OkList isInt env ss; fun v => ∀ p ∈ ps, p v
  | .not s => let p := Ok isInt env s; fun v => ¬p v
  | .ref n => env n
  | .never => fun _ => False
  | .skip _ => fun _ => True
/-- The schemas of a list. -/
def OkList (isInt : String → Prop) (env : String → Any → Prop) : List Sch → List (Any → Prop)
  | [] => []
  | s :: ss => Ok isInt env s :: OkList isInt env ss
/-- The schemas of properties. -/
def OkProps (isInt : String → Prop) (env : String → Any → Prop) : List (String × Sch) → List (String × (Any → Prop))
  | [] => []
  | (k, s) :: ss => (k, Ok isInt env s) :: OkProps isInt env ss
/-- The schemas of patterns. -/
def OkPats (isInt : String → Prop) (env : String → Any → Prop) : List (KeyPat × Sch) → List (KeyPat × (Any → Prop))
  | [] => []
  | (k, s) :: ss => (k, Ok isInt env s) :: OkPats isInt env ss
/-- A schema that may be absent. -/
def OkOpt (isInt : String → Prop) (env : String → Any → Prop) : Option Sch → Option (Any → Prop)
  | none => none
  | some s => some (Ok isInt env s)
end

/-- The definitions of a meta-schema. -/
abbrev Defs := List (String × Sch)

/-- `env` is what the definitions mean: a value is accepted by a definition if the schema of the definition accepts
it. There is exactly one such `env` (`C77_meaning_exists`, `C77_meaning_unique`). -/
def Meaning (defs : Defs) (isInt : String → Prop) (env : String → Any → Prop) : Prop :=
  ∀ n s, (n, s) ∈ defs → ∀ v, env n v ↔ Ok isInt env s v

/-! ## Values that are written with `null` -/

/-- The value `v'`, of type `ty'`, is written as a part of `v`, of type `ty`. -/
inductive PartOf (T : Table) : Ty → Val → Ty → Val → Prop where
  | self (ty : Ty) (v : Val) : PartOf T ty v ty v
  | ptr {t t' : Ty} {v v' : Val} (hv : v ≠ .nil) (h : PartOf T t v t' v') : PartOf T (.ptr t) v t' v'
  | elem {t t' : Ty} {vs : List Val} {x v' : Val} (hx : x ∈ vs) (h : PartOf T t x t' v') :
      PartOf T (.slice t) (.list vs) t' v'
  | entry {t t' : Ty} {ms : List (String × Val)} {k : String} {x v' : Val} (hx : (k, x) ∈ ms) (h : PartOf T t x t' v') :
      PartOf T (.map t) (.map ms) t' v'
  /-- a field that is not left out -/
  | field {n : String} {s : Codec.Struct} (hn : GoMap.get? T n = some (.struct s)) {f : Field} (hf : f ∈ s.fields)
      {fs : List (String × Val)} {x v' : Val} {t' : Ty} (hx : (f.go, x) ∈ fs) (ho : Codec.omitted f x = false)
      (h : PartOf T f.ty x t' v') : PartOf T (.named n) (.struct fs) t' v'
  /-- a field without a key: an alternative or a map -/
  | hidden {n : String} {s : Codec.Struct} (hn : GoMap.get? T n = some (.struct s)) {f : Codec.Hidden} (hf : f ∈ s.hidden)
      {fs : List (String × Val)} {x v' : Val} {t' : Ty} (hx : (f.go, x) ∈ fs) (hv : x ≠ .nil)
      (h : PartOf T f.ty x t' v') : PartOf T (.named n) (.struct fs) t' v'

/-- Nothing that is written is a nil pointer, slice or map, which would be written as `null`. -/
def NoNulls (T : Table) (ty : Ty) (v : Val) : Prop := ∀ t, ¬PartOf T ty v t .nil

/-! ## What is read -/

/-- Reading the JSON value `j` as `ty` reads `j'`, a part of it, as `ty'`. Of several alternatives only those count
that satisfy `alt`. -/
inductive Reads (T : Table) (alt : Ty → Any → Prop) : Ty → Any → Ty → Any → Prop where
  | self (ty : Ty) (j : Any) : Reads T alt ty j ty j
  | ptr {t t' : Ty} {j j' : Any} (h : Reads T alt t j t' j') : Reads T alt (.ptr t) j t' j'
  | elem {t t' : Ty} {xs : List Any} {x j' : Any} (hx : x ∈ xs) (h : Reads T alt t x t' j') :
      Reads T alt (.slice t) (.arr xs) t' j'
  | entry {t t' : Ty} {ms : List (String × Any)} {k : String} {x j' : Any} (hx : (k, x) ∈ ms)
      (h : Reads T alt t x t' j') : Reads T alt (.map t) (.obj ms) t' j'
  | field {n : String} {s : Codec.Struct} (hn : GoMap.get? T n = some (.struct s)) {f : Field} (hf : f ∈ s.fields)
      {ms : List (String × Any)} {x j' : Any} {t' : Ty} (hx : (f.key, x) ∈ ms) (h : Reads T alt f.ty x t' j') :
      Reads T alt (.named n) (.obj ms) t' j'
  | pattern {n : String} {s : Codec.Struct} (hn : GoMap.get? T n = some (.struct s)) {q : Codec.PatField}
      (hq : q ∈ s.patterns) {ms : List (String × Any)} {k : String} {x j' : Any} {t' : Ty}
      (hk : q.pat.matches k = true) (hx : (k, x) ∈ ms) (h : Reads T alt q.ty x t' j') :
      Reads T alt (.named n) (.obj ms) t' j'
  | additional {n : String} {s : Codec.Struct} (hn : GoMap.get? T n = some (.struct s)) {a : Codec.Hidden}
      (ha : s.additional = some a) {ms : List (String × Any)} {k : String} {x j' : Any} {t' : Ty}
      (hk : ∀ q ∈ s.patterns, q.pat.matches k = false) (hx : (k, x) ∈ ms) (h : Reads T alt a.ty x t' j') :
      Reads T alt (.named n) (.obj ms) t' j'
  | alternative {n : String} {s : Codec.Struct} (hn : GoMap.get? T n = some (.struct s)) {o : Codec.Hidden}
      (ho : o ∈ s.oneOf) {j j' : Any} {t' : Ty} (ha : alt o.ty j) (h : Reads T alt o.ty j t' j') :
      Reads T alt (.named n) j t' j'

/-- Where the code accepts more than the meta-schema, the document makes no use of it. -/
structure Regular (T : Table) (alt : Ty → Any → Prop) (ty : Ty) (j : Any) : Prop where
  /-- `null` only stands for arbitrary JSON -/
  nulls : ∀ t, Reads T alt ty j t .null → t = .any ∨ t = .ptr .any
  /-- what has no fixed keys (paths, callbacks, the parts of components, some parts of parameters and of security
  schemes) is an object -/
  objects : ∀ n s x, Reads T alt ty j (.named n) x → GoMap.get? T n = some (.struct s) → s.decodes = false →
    s.oneOf = [] → ∃ ms, x = .obj ms
  /-- the lists `required` and `enum` of a schema are not empty -/
  lists : ∀ ms, Reads T alt ty j (.named "Schema") (.obj ms) → ∀ k ∈ ["required", "enum"], (k, .arr []) ∉ ms

/-- The keys of a discriminator, which may have other keys, are not written with other letter case. -/
def DiscriminatorKeys (T : Table) (ty : Ty) (j : Any) : Prop :=
  ∀ ms, Reads T (fun _ _ => True) ty j (.named "Discriminator") (.obj ms) → ∀ k x, (k, x) ∈ ms →
    Spec.FoldsTo ["propertyName", "mapping"] k → k ∈ ["propertyName", "mapping"]

end Verif.Meta
