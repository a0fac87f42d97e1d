import Verif.Spec.Codec

/-!
# Meta-schemas in JSON Schema draft 2020-12

This file gives the keywords that the meta-schema of OpenAPI 3.1 uses their meaning, after JSON Schema draft 2020-12.
Nothing here mentions the code. The meta-schema itself is in `Verif.Spec.Meta31`.

A schema accepts a value or does not, and it evaluates some of the members of an object: `unevaluatedProperties: false`
rejects an object with a member that none of the other keywords evaluate.
-/

namespace Verif.Meta31
open Codec (Const)

/-- The regular expressions for keys. -/
inductive KeyPat where
  | x          -- `^x-`
  | slash      -- `^/`
  | status     -- `^[1-5](?:[0-9]{2}|XX)$`
  | component  -- `^(schemas|responses|parameters|examples|requestBodies|headers|securitySchemes|links|callbacks|pathItems)$`
deriving DecidableEq, Repr

/-- The regular expression matches the key. -/
def KeyPat.Is : KeyPat → String → Prop
  | .x, k => Spec.IsExtension k
  | .slash, k => Spec.IsPath k
  | .status, k => Spec.IsStatus k
  | .component, k => k ∈ ["schemas", "responses", "parameters", "examples", "requestBodies", "headers", "securitySchemes",
      "links", "callbacks", "pathItems"]

/-- The regular expressions for strings. -/
inductive StrPat where
  | version  -- `^3\.1\.\d+(-.+)?$`
  | name     -- `^[a-zA-Z0-9._-]+$`
  | plain    -- `[^/#?]+$`
  | bearer   -- `^[Bb][Ee][Aa][Rr][Ee][Rr]$`
deriving DecidableEq, Repr

/-- A digit. -/
def IsDigit (c : Char) : Prop := '0' ≤ c ∧ c ≤ '9'

/-- A character of `[a-zA-Z0-9._-]`. -/
def IsNameChar (c : Char) : Prop :=
  ('a' ≤ c ∧ c ≤ 'z') ∨ ('A' ≤ c ∧ c ≤ 'Z') ∨ IsDigit c ∨ c ∈ ['.', '_', '-']

/-- The characters that `.` does not match. -/
def lineEnds : List Char := ['\n', '\r', Char.ofNat 0x2028, Char.ofNat 0x2029]

/-- The regular expression matches the string. -/
def StrPat.Is : StrPat → String → Prop
  | .version, s => ∃ digits rest, s.toList = "3.1.".toList ++ digits ++ rest ∧ digits ≠ [] ∧ (∀ c ∈ digits, IsDigit c) ∧
      (rest = [] ∨ ∃ text, rest = '-' :: text ∧ text ≠ [] ∧ ∀ c ∈ text, c ∉ lineEnds)
  | .name, s => s.toList ≠ [] ∧ ∀ c ∈ s.toList, IsNameChar c
  | .plain, s => ∃ start c, s.toList = start ++ [c] ∧ c ∉ ['/', '#', '?']
  | .bearer, s => ∃ b e a r e' r', s.toList = [b, e, a, r, e', r'] ∧ b ∈ ['B', 'b'] ∧ e ∈ ['E', 'e'] ∧ a ∈ ['A', 'a'] ∧
      r ∈ ['R', 'r'] ∧ e' ∈ ['E', 'e'] ∧ r' ∈ ['R', 'r']

/-- A schema. -/
inductive Sch where
  /-- an object of keywords: all of them must hold -/
  | all (ks : List Sch)
  /-- an object of keywords, one of which is `unevaluatedProperties: false` -/
  | closed (ks : List Sch)
  | type (ts : List String)
  /-- `enum` and `const` -/
  | enum (vs : List Const)
  | pattern (p : StrPat)
  | required (ks : List String)
  /-- `properties`, `patternProperties` and `additionalProperties`, which belong together -/
  | object (props : List (String × Sch)) (pats : List (KeyPat × Sch)) (addl : Option Sch)
  | propertyNames (s : Sch)
  | minProps (n : Nat)
  | maxProps (n : Nat)
  | items (s : Sch)
  | minItems (n : Nat)
  | oneOf (ss : List Sch)
  | anyOf (ss : List Sch)
  | allOf (ss : List Sch)
  | not (s : Sch)
  /-- `if`, `then`, `else` -/
  | ite (c t e : Sch)
  /-- `dependentSchemas` -/
  | dependent (ds : List (String × Sch))
  /-- `$ref: #/$defs/n` -/
  | ref (n : String)
  /-- `format` and `default`, which accept everything -/
  | note (text : String)

/-- What a schema means: the values it accepts, and the members of an object that it evaluates if it accepts it. -/
@[ext] structure Sem where
  ok : Any → Prop
  sees : Any → String → Prop

/-- A keyword that evaluates no members. -/
def Sem.test (p : Any → Prop) : Sem := ⟨p, fun _ _ => False⟩

/-- All of several schemas. -/
def Sem.both (l : List Sem) : Sem := ⟨fun v => ∀ s ∈ l, s.ok v, fun v k => ∃ s ∈ l, s.sees v k⟩

/-- The value is an object with this key. -/
def HasKey (v : Any) (k : String) : Prop := ∃ ms x, v = .obj ms ∧ (k, x) ∈ ms

/-- `type: t`. Of the types of numbers the meta-schema uses none. -/
def TypeIs (t : String) : Any → Prop
  | .null => t = "null"
  | .bool _ => t = "boolean"
  | .num _ => t = "number"
  | .str _ => t = "string"
  | .arr _ => t = "array"
  | .obj _ => t = "object"

/-- `properties`, `patternProperties` and `additionalProperties`: a member must be as all the properties and patterns
for its key say, or as `additionalProperties` says if there is none. -/
def ObjectIs (props : List (String × Sem)) (pats : List (KeyPat × Sem)) (addl : Option Sem) (v : Any) : Prop :=
  ∀ ms, v = .obj ms → ∀ k x, (k, x) ∈ ms →
    (∀ p, (k, p) ∈ props → p.ok x) ∧
    (∀ r p, (r, p) ∈ pats → r.Is k → p.ok x) ∧
    ((∀ p, (k, p) ∉ props) → (∀ r p, (r, p) ∈ pats → ¬r.Is k) → ∀ p, addl = some p → p.ok x)

/-- The members that these keywords evaluate: all if there is `additionalProperties`. -/
def ObjectSees (props : List (String × Sem)) (pats : List (KeyPat × Sem)) (addl : Option Sem) (k : String) : Prop :=
  (∃ p, (k, p) ∈ props) ∨ (∃ r p, (r, p) ∈ pats ∧ r.Is k) ∨ ∃ p, addl = some p

/-- `oneOf`: exactly one of the schemas, counted by position, accepts the value. -/
def OneOf (l : List Sem) (v : Any) : Prop :=
  ∃ i : Nat, (∃ p, l[i]? = some p ∧ p.ok v) ∧ ∀ (j : Nat) p, l[j]? = some p → p.ok v → j = i

mutual
/-- What a schema means. `env` is what the definitions mean. -/
def sem (env : String → Sem) : Sch → Sem
  | .all ks => .both (semList env ks)
  | .closed ks => let l := semList env ks
    ⟨fun v => (∀ s ∈ l, s.ok v) ∧ ∀ k, HasKey v k → ∃ s ∈ l, s.sees v k, fun _ _ => True⟩
  | .type ts => .test fun v => ∃ t ∈ ts, TypeIs t v
  | .enum vs => .test fun v => ∃ c ∈ vs, v = c.json
  | .pattern p => .test fun v => ∀ s, v = .str s → p.Is s
  | .required ks => .test fun v => ∀ ms, v = .obj ms → ∀ k ∈ ks, ∃ x, (k, x) ∈ ms
  | .object props pats addl =>
    let ps := semProps env props
    let qs := semPats env pats
    let a := semOpt env addl
    ⟨ObjectIs ps qs a, fun _ => ObjectSees ps qs a⟩
  | .propertyNames s => let p := sem env s; .test fun v => ∀ k, HasKey v k → p.ok (.str k)
  | .minProps n => .test fun v => ∀ ms, v = .obj ms → n ≤ ms.length
  | .maxProps n => .test fun v => ∀ ms, v = .obj ms → ms.length ≤ n
  | .items s => let p := sem env s; .test fun v => ∀ xs, v = .arr xs → ∀ x ∈ xs, p.ok x
  | .minItems n => .test fun v => ∀ xs, v = .arr xs → n ≤ xs.length
  | .oneOf ss => let l := semList env ss; ⟨OneOf l, fun v k => ∃ s ∈ l, s.ok v ∧ s.sees v k⟩
  | .anyOf ss => let l := semList env ss; ⟨fun v => ∃ s ∈ l, s.ok v, fun v k => ∃ s ∈ l, s.ok v ∧ s.sees v k⟩
  | .allOf ss => .both (semList env ss)
  | .not s => let p := sem env s; .test fun v => ¬p.ok v
  | .ite c t e =>
    let c := sem env c
    let t := sem env t
    let e := sem env e
    ⟨fun v => (c.ok v → t.ok v) ∧ (¬c.ok v → e.ok v),
      fun v k => (c.ok v ∧ (c.sees v k ∨ t.sees v k)) ∨ (¬c.ok v ∧ e.sees v k)⟩
  | .dependent ds => let l := semProps env ds
    ⟨fun v => ∀ k p, (k, p) ∈ l → HasKey v k → p.ok v, fun v k => ∃ k' p, (k', p) ∈ l ∧ HasKey v k' ∧ p.sees v k⟩
  | .ref n => env n
  | .note _ => .test fun _ => True
/-- The schemas of a list. -/
def semList (env : String → Sem) : List Sch → List Sem
  | [] => []
  | s :: ss => sem env s :: semList env ss
/-- The schemas of properties. -/
def semProps (env : String → Sem) : List (String × Sch) → List (String × Sem)
  | [] => []
  | (k, s) :: ss => (k, sem env s) :: semProps env ss
/-- The schemas of patterns. -/
def semPats (env : String → Sem) : List (KeyPat × Sch) → List (KeyPat × Sem)
  | [] => []
  | (k, s) :: ss => (k, sem env s) :: semPats env ss
/-- A schema that may be absent. -/
def semOpt (env : String → Sem) : Option Sch → Option Sem
  | none => none
  | some s => some (sem env s)
end

/-- The definitions of a meta-schema. -/
abbrev Defs := List (String × Sch)

/-- `env` is what the definitions mean: a definition means what its schema means. There is exactly one such `env`
(`C82_meaning_exists`, `C82_meaning_unique`). -/
def Meaning (defs : Defs) (env : String → Sem) : Prop := ∀ n s, (n, s) ∈ defs → env n = sem env s

end Verif.Meta31
