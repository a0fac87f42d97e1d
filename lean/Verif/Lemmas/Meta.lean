import Verif.Lemmas.Accepts
import Verif.Spec.Meta30
import Verif.Spec.Order

/-! Comparing the descriptions of the generated code with a meta-schema. -/

namespace Verif.Meta
open Codec Spec

variable {T : Table} {N : Nums} {I : String → Prop} {env : String → Any → Prop}

/-! ## The meaning of schemas, without the lists of predicates -/

theorem mem_okList {ss : List Sch} {p : Any → Prop} : p ∈ OkList I env ss ↔ ∃ s ∈ ss, p = Ok I env s := by
  induction ss with
  | nil => simp [OkList]
  | cons s ss ih => simp [OkList, ih]

theorem okList_get? {ss : List Sch} {i : Nat} : (OkList I env ss)[i]? = ss[i]?.map (Ok I env) := by
  induction ss generalizing i with
  | nil => simp [OkList]
  | cons s ss ih => cases i <;> simp [OkList, ih]

theorem mem_okProps {ps : List (String × Sch)} {k : String} {p : Any → Prop} :
    (k, p) ∈ OkProps I env ps ↔ ∃ s, (k, s) ∈ ps ∧ p = Ok I env s := by
  induction ps with
  | nil => simp [OkProps]
  | cons s ss ih =>
    obtain ⟨k', s⟩ := s
    simp only [OkProps, List.mem_cons, Prod.mk.injEq, ih]
    constructor
    · rintro (⟨rfl, rfl⟩ | ⟨s', h, rfl⟩)
      · exact ⟨s, .inl ⟨rfl, rfl⟩, rfl⟩
      · exact ⟨s', .inr h, rfl⟩
    · rintro ⟨s', ⟨rfl, rfl⟩ | h, rfl⟩
      · exact .inl ⟨rfl, rfl⟩
      · exact .inr ⟨s', h, rfl⟩

theorem mem_okPats {ps : List (KeyPat × Sch)} {k : KeyPat} {p : Any → Prop} :
    (k, p) ∈ OkPats I env ps ↔ ∃ s, (k, s) ∈ ps ∧ p = Ok I env s := by
  induction ps with
  | nil => simp [OkPats]
  | cons s ss ih =>
    obtain ⟨k', s⟩ := s
    simp only [OkPats, List.mem_cons, Prod.mk.injEq, ih]
    constructor
    · rintro (⟨rfl, rfl⟩ | ⟨s', h, rfl⟩)
      · exact ⟨s, .inl ⟨rfl, rfl⟩, rfl⟩
      · exact ⟨s', .inr h, rfl⟩
    · rintro ⟨s', ⟨rfl, rfl⟩ | h, rfl⟩
      · exact .inl ⟨rfl, rfl⟩
      · exact .inr ⟨s', h, rfl⟩

theorem ok_all {ks : List Sch} {v : Any} : Ok I env (.all ks) v ↔ ∀ s ∈ ks, Ok I env s v := by
  simp only [Ok]
  constructor
  · intro h s hs
    exact h _ (mem_okList.2 ⟨s, hs, rfl⟩)
  · intro h p hp
    obtain ⟨s, hs, rfl⟩ := mem_okList.1 hp
    exact h s hs

theorem ok_allOf {ks : List Sch} {v : Any} : Ok I env (.allOf ks) v ↔ ∀ s ∈ ks, Ok I env s v := by
  simp only [Ok]
  constructor
  · intro h s hs
    exact h _ (mem_okList.2 ⟨s, hs, rfl⟩)
  · intro h p hp
    obtain ⟨s, hs, rfl⟩ := mem_okList.1 hp
    exact h s hs

theorem ok_items {s : Sch} {v : Any} : Ok I env (.items s) v ↔ ∀ xs, v = .arr xs → ∀ x ∈ xs, Ok I env s x := by
  simp only [Ok]

theorem ok_object {props : List (String × Sch)} {pats : List (KeyPat × Sch)} {addl : Option Sch} {v : Any} :
    Ok I env (.object props pats addl) v ↔ ∀ ms, v = .obj ms → ∀ k x, (k, x) ∈ ms →
      (∀ s, (k, s) ∈ props → Ok I env s x) ∧
      (∀ r s, (r, s) ∈ pats → r.Is k → Ok I env s x) ∧
      ((∀ s, (k, s) ∉ props) → (∀ r s, (r, s) ∈ pats → ¬r.Is k) → ∀ s, addl = some s → Ok I env s x) := by
  simp only [Ok, ObjectIs]
  constructor
  · intro h ms e k x hx
    obtain ⟨h1, h2, h3⟩ := h ms e k x hx
    refine ⟨fun s hs => h1 _ (mem_okProps.2 ⟨s, hs, rfl⟩), fun r s hs hr => h2 r _ (mem_okPats.2 ⟨s, hs, rfl⟩) hr, ?_⟩
    intro n1 n2 s hs
    refine h3 ?_ ?_ _ (by rw [hs]; rfl)
    · intro p hp
      obtain ⟨s', hs', _⟩ := mem_okProps.1 hp
      exact n1 s' hs'
    · intro r p hp
      obtain ⟨s', hs', _⟩ := mem_okPats.1 hp
      exact n2 r s' hs'
  · intro h ms e k x hx
    obtain ⟨h1, h2, h3⟩ := h ms e k x hx
    refine ⟨?_, ?_, ?_⟩
    · intro p hp
      obtain ⟨s', hs', rfl⟩ := mem_okProps.1 hp
      exact h1 s' hs'
    · intro r p hp hr
      obtain ⟨s', hs', rfl⟩ := mem_okPats.1 hp
      exact h2 r s' hs' hr
    · intro n1 n2 p hp
      cases addl with
      | none => cases hp
      | some s =>
        cases hp
        exact h3 (fun s hs => n1 _ (mem_okProps.2 ⟨s, hs, rfl⟩)) (fun r s hs => n2 r _ (mem_okPats.2 ⟨s, hs, rfl⟩)) s rfl

theorem ok_oneOf {ss : List Sch} {v : Any} : Ok I env (.oneOf ss) v ↔
    ∃ i : Nat, (∃ s, ss[i]? = some s ∧ Ok I env s v) ∧ ∀ (j : Nat) s, ss[j]? = some s → Ok I env s v → j = i := by
  simp only [Ok, OneOf, okList_get?]
  constructor
  · rintro ⟨i, ⟨p, hp, hv⟩, hu⟩
    rw [Option.map_eq_some_iff] at hp
    obtain ⟨s, hs, rfl⟩ := hp
    exact ⟨i, ⟨s, hs, hv⟩, fun j s' hs' hv' => hu j _ (by rw [hs']; rfl) hv'⟩
  · rintro ⟨i, ⟨s, hs, hv⟩, hu⟩
    refine ⟨i, ⟨_, by rw [hs]; rfl, hv⟩, ?_⟩
    intro j p hp hv'
    rw [Option.map_eq_some_iff] at hp
    obtain ⟨s', hs', rfl⟩ := hp
    exact hu j s' hs' hv'

/-! ## Keys -/

/-- The same regular expression. -/
def keyPat : Pat → KeyPat
  | .x => .x
  | .methods => .methods
  | .status => .status
  | .slash => .slash
  | .name => .name

theorem nameChar_iff {c : Char} : (c.isAlphanum || c == '.' || c == '-' || c == '_') = true ↔ IsNameChar c := by
  simp only [Char.isAlphanum, Char.isAlpha, Char.isUpper, Char.isLower, Char.isDigit, IsNameChar, Bool.or_eq_true,
    Bool.and_eq_true, decide_eq_true_eq, beq_iff_eq, List.mem_cons, List.not_mem_nil, or_false, Char.le_def, ge_iff_le]
  constructor
  · rintro ((((h | h) | h) | h) | h)
    · rcases h with h | h
      · exact .inr (.inl h)
      · exact .inl h
    · exact .inr (.inr (.inl h))
    · exact .inr (.inr (.inr (.inl h)))
    · exact .inr (.inr (.inr (.inr (.inl h))))
    · exact .inr (.inr (.inr (.inr (.inr h))))
  · rintro (h | h | h | h | h | h)
    · exact .inl (.inl (.inl (.inl (.inr h))))
    · exact .inl (.inl (.inl (.inl (.inl h))))
    · exact .inl (.inl (.inl (.inr h)))
    · exact .inl (.inl (.inr h))
    · exact .inl (.inr h)
    · exact .inr h

theorem matches_iff {p : Pat} {k : String} : p.matches k = true ↔ (keyPat p).Is k := by
  cases p with
  | x => exact x_matches
  | methods => exact methods_matches
  | status => exact status_matches
  | slash => exact slash_matches
  | name =>
    simp only [Pat.matches, keyPat, KeyPat.Is, Bool.and_eq_true, List.all_eq_true, nameChar_iff, Bool.not_eq_true',
      List.isEmpty_eq_false_iff]

/-! ## Types and schemas -/

def isSkip : Sch → Bool
  | .skip _ => true
  | _ => false

theorem ok_skip {s : Sch} (h : isSkip s = true) (v : Any) : Ok I env s v := by
  cases s <;> simp [isSkip] at h
  simp only [Ok]

theorem ok_skips {l : List Sch} (h : l.all isSkip = true) (v : Any) : ∀ s ∈ l, Ok I env s v :=
  fun s hs => ok_skip (List.all_eq_true.1 h s hs) v

/-- The named types and the definitions that describe the same entities. -/
def pairs30 : List (String × String) := [
  ("Spec", "OpenAPI"), ("Info", "Info"), ("Contact", "Contact"), ("License", "License"),
  ("ExternalDocumentation", "ExternalDocumentation"), ("Server", "Server"), ("ServerVariable", "ServerVariable"),
  ("Tag", "Tag"), ("PathItem", "PathItem"), ("ParameterReference", "ParameterReference"), ("Schema", "Schema"),
  ("SchemaReference", "SchemaReference"), ("Discriminator", "Discriminator"), ("XML", "XML"),
  ("MediaType", "MediaType"), ("ExampleReference", "ExampleReference"), ("Example", "Example"),
  ("Encoding", "Encoding"), ("Header", "Header"), ("Operation", "Operation"),
  ("RequestBodyReference", "RequestBodyReference"), ("RequestBody", "RequestBody"), ("Responses", "Responses"),
  ("ResponseReference", "ResponseReference"), ("Response", "Response"), ("HeaderReference", "HeaderReference"),
  ("LinkReference", "LinkReference"), ("CallbackReference", "CallbackReference"), ("Callback", "Callback"),
  ("Paths", "Paths"), ("Components", "Components"), ("SecuritySchemeReference", "SecuritySchemeReference"),
  ("APIKeySecurityScheme", "APIKeySecurityScheme"), ("OAuth2SecurityScheme", "OAuth2SecurityScheme"),
  ("OAuthFlows", "OAuthFlows"), ("ImplicitOAuthFlow", "ImplicitOAuthFlow"),
  ("PasswordOAuthFlow", "PasswordOAuthFlow"), ("ClientCredentialsFlow", "ClientCredentialsFlow"),
  ("AuthorizationCodeOAuthFlow", "AuthorizationCodeOAuthFlow"),
  ("OpenIDConnectSecurityScheme", "OpenIdConnectSecurityScheme")]

/-- Types with more than plain members. -/
def special30 : List String := ["Link", "HTTPSecurityScheme", "Parameter"]

/-- Alternatives. -/
def either30 : List String := ["SchemaOrRef", "ExampleOrRef", "ParameterOrRef", "RequestBodyOrRef", "HeaderOrRef",
  "LinkOrRef", "ResponseOrRef", "CallbackOrRef", "SecurityScheme", "SecuritySchemeOrRef"]

/-- The maps of components. -/
def comps30 : List (String × String) := [
  ("ComponentsSchemas", "SchemaOrRef"), ("ComponentsResponses", "ResponseOrRef"),
  ("ComponentsParameters", "ParameterOrRef"), ("ComponentsExamples", "ExampleOrRef"),
  ("ComponentsRequestBodies", "RequestBodyOrRef"), ("ComponentsHeaders", "HeaderOrRef"),
  ("ComponentsSecuritySchemes", "SecuritySchemeOrRef"), ("ComponentsLinks", "LinkOrRef"),
  ("ComponentsCallbacks", "CallbackOrRef")]

/-- A named type and a schema that describe the same. -/
def relOk (T : Table) (n : String) : Sch → Bool
  | .ref m => pairs30.contains (n, m) || n == m && (special30.contains n || either30.contains n)
  | .all [.type a, .object [] [(.name, .ref m)] none] => a == "object" && comps30.contains (n, m)
  | .all [.oneOf [.ref a, .all [.type b]]] => a == "SchemaOrRef" && b == "boolean" && n == "SchemaAdditionalProperties"
  | .all [.type a, .enum vs] => a == "string" && match GoMap.get? T n with
    | some (.enum ws) => vs == ws.map .str && !ws.contains ""
    | _ => false
  | .all [.enum vs] => match GoMap.get? T n with
    | some (.enum ws) => vs == ws.map .str && !ws.contains ""
    | _ => false
  | _ => false

/-- A type and a schema that describe the same values. -/
def tyAgree (T : Table) : Ty → Sch → Bool
  | .any, .all ks => ks.all isSkip
  | .bool, .all (.type a :: rest) => a == "boolean" && rest.all isSkip
  | .str, .all (.type a :: rest) => a == "string" && rest.all isSkip
  | .int, .all (.type a :: rest) => a == "integer" && rest.all isSkip
  | .float, .all (.type a :: rest) => a == "number" && rest.all isSkip
  | .named n, s => relOk T n s
  | .ptr t, s => notPtr t && tyAgree T t s
  | .slice t, .all (.type a :: .items s :: rest) => a == "array" && tyAgree T t s && rest.all isSkip
  | .map t, .ref m => t == .slice .str && m == "SecurityRequirement"
  | .map t, .all (.type a :: .object [] [] (some s) :: rest) => a == "object" && tyAgree T t s && rest.all isSkip
  | _, _ => false

/-! ## Structs and schemas -/

/-- The keywords of a schema for objects. -/
structure Parsed where
  req : List String
  props : List (String × Sch)
  pats : List (KeyPat × Sch)
  addl : Option Sch
  extra : List Sch

/-- The keywords, if the schema is for objects. -/
def parse : Sch → Option Parsed
  | .all (.type a :: .required r :: .object p q d :: rest) =>
    if a = "object" then some ⟨r, p, q, d, rest.filter (fun s => !isSkip s)⟩ else none
  | .all (.type a :: .object p q d :: .required r :: rest) =>
    if a = "object" then some ⟨r, p, q, d, rest.filter (fun s => !isSkip s)⟩ else none
  | .all (.type a :: .object p q d :: rest) =>
    if a = "object" then some ⟨[], p, q, d, rest.filter (fun s => !isSkip s)⟩ else none
  | _ => none

/-- What the keywords say about the members of an object. -/
structure Parsed.Holds (P : Parsed) (I : String → Prop) (env : String → Any → Prop) (M : List (String × Any)) : Prop where
  req : ∀ k ∈ P.req, k ∈ M.map Prod.fst
  props : ∀ k x, (k, x) ∈ M → ∀ s, (k, s) ∈ P.props → Ok I env s x
  pats : ∀ k x, (k, x) ∈ M → ∀ r s, (r, s) ∈ P.pats → r.Is k → Ok I env s x
  addl : ∀ k x, (k, x) ∈ M → (∀ s, (k, s) ∉ P.props) → (∀ r s, (r, s) ∈ P.pats → ¬r.Is k) → ∀ s, P.addl = some s →
    Ok I env s x

theorem ok_type_object {v : Any} : Ok I env (.type "object") v ↔ ∃ M, v = .obj M := by
  cases v <;> simp [Ok, TypeIs]

theorem ok_required {ks : List String} {M : List (String × Any)} :
    Ok I env (.required ks) (.obj M) ↔ ∀ k ∈ ks, k ∈ M.map Prod.fst := by
  simp only [Ok, Any.obj.injEq, forall_eq']
  constructor
  · intro h k hk
    obtain ⟨x, hx⟩ := h k hk
    exact List.mem_map.2 ⟨_, hx, rfl⟩
  · intro h k hk
    obtain ⟨p, hp, rfl⟩ := List.mem_map.1 (h k hk)
    exact ⟨p.2, hp⟩

theorem ok_filter {l : List Sch} {v : Any} :
    (∀ s ∈ l, Ok I env s v) ↔ ∀ s ∈ l.filter (fun s => !isSkip s), Ok I env s v := by
  constructor
  · intro h s hs
    exact h s (List.mem_filter.1 hs).1
  · intro h s hs
    cases e : isSkip s with
    | true => exact ok_skip e v
    | false => exact h s (List.mem_filter.2 ⟨hs, by simp [e]⟩)

theorem parse_iff {s : Sch} {P : Parsed} (h : parse s = some P) {v : Any} :
    Ok I env s v ↔ ∃ M, v = .obj M ∧ P.Holds I env M ∧ ∀ e ∈ P.extra, Ok I env e v := by
  have key : ∀ {r p q d} {rest : List Sch} {M : List (String × Any)}, (Ok I env (.required r) (.obj M) ∧
      Ok I env (.object p q d) (.obj M) ∧ ∀ s ∈ rest, Ok I env s (.obj M)) ↔
      (⟨r, p, q, d, rest.filter (fun s => !isSkip s)⟩ : Parsed).Holds I env M ∧
        ∀ e ∈ rest.filter (fun s => !isSkip s), Ok I env e (.obj M) := by
    intro r p q d rest M
    rw [ok_filter, ok_required, ok_object]
    simp only [Any.obj.injEq, forall_eq']
    constructor
    · rintro ⟨h1, h2, h3⟩
      exact ⟨⟨h1, fun k x hx => (h2 k x hx).1, fun k x hx => (h2 k x hx).2.1, fun k x hx => (h2 k x hx).2.2⟩, h3⟩
    · rintro ⟨h1, h3⟩
      exact ⟨h1.req, fun k x hx => ⟨h1.props k x hx, h1.pats k x hx, h1.addl k x hx⟩, h3⟩
  unfold parse at h
  split at h
  · rename_i a r p q d rest
    split at h
    · rename_i ea
      subst ea
      cases h
      rw [ok_all]
      simp only [List.mem_cons, forall_eq_or_imp, ok_type_object]
      constructor
      · rintro ⟨⟨M, rfl⟩, h⟩
        exact ⟨M, rfl, key.1 h⟩
      · rintro ⟨M, rfl, h⟩
        exact ⟨⟨M, rfl⟩, key.2 h⟩
    · cases h
  · rename_i a p q d r rest
    split at h
    · rename_i ea
      subst ea
      cases h
      rw [ok_all]
      simp only [List.mem_cons, forall_eq_or_imp, ok_type_object]
      constructor
      · rintro ⟨⟨M, rfl⟩, h1, h2, h3⟩
        exact ⟨M, rfl, key.1 ⟨h2, h1, h3⟩⟩
      · rintro ⟨M, rfl, h⟩
        obtain ⟨h1, h2, h3⟩ := key.2 h
        exact ⟨⟨M, rfl⟩, h2, h1, h3⟩
    · cases h
  · rename_i a p q d rest _
    split at h
    · rename_i ea
      subst ea
      cases h
      rw [ok_all]
      simp only [List.mem_cons, forall_eq_or_imp, ok_type_object]
      constructor
      · rintro ⟨⟨M, rfl⟩, h1, h3⟩
        exact ⟨M, rfl, key.1 ⟨by rw [ok_required]; simp, h1, h3⟩⟩
      · rintro ⟨M, rfl, h⟩
        obtain ⟨h1, h2, h3⟩ := key.2 h
        exact ⟨⟨M, rfl⟩, h2, h3⟩
    · cases h
  · cases h

/-- The same for a schema without `type`. -/
def parseOpen : Sch → Option Parsed
  | .all (.required r :: .object p q d :: rest) => some ⟨r, p, q, d, rest.filter (fun s => !isSkip s)⟩
  | .all (.object p q d :: rest) => some ⟨[], p, q, d, rest.filter (fun s => !isSkip s)⟩
  | _ => none

theorem parseOpen_iff {s : Sch} {P : Parsed} (h : parseOpen s = some P) {M : List (String × Any)} :
    Ok I env s (.obj M) ↔ P.Holds I env M ∧ ∀ e ∈ P.extra, Ok I env e (.obj M) := by
  have key : ∀ {r p q d} {rest : List Sch}, (Ok I env (.required r) (.obj M) ∧
      Ok I env (.object p q d) (.obj M) ∧ ∀ s ∈ rest, Ok I env s (.obj M)) ↔
      (⟨r, p, q, d, rest.filter (fun s => !isSkip s)⟩ : Parsed).Holds I env M ∧
        ∀ e ∈ rest.filter (fun s => !isSkip s), Ok I env e (.obj M) := by
    intro r p q d rest
    have := parse_iff (I := I) (env := env) (s := .all (.type "object" :: .required r :: .object p q d :: rest)) rfl
      (v := .obj M)
    rw [ok_all] at this
    simp only [List.mem_cons, forall_eq_or_imp, ok_type_object, Any.obj.injEq, exists_eq_left', exists_eq', true_and]
      at this
    exact this
  unfold parseOpen at h
  split at h
  · cases h
    rw [ok_all]
    simp only [List.mem_cons, forall_eq_or_imp]
    exact key
  · cases h
    rw [ok_all]
    simp only [List.mem_cons, forall_eq_or_imp]
    rw [← key]
    have : Ok I env (.required []) (.obj M) := by rw [ok_required]; simp
    exact ⟨fun h => ⟨this, h⟩, fun h => h.2⟩
  · cases h

def isMin : Sch → Bool
  | .minItems _ => true
  | _ => false

/-- The schema without a minimal number of elements. -/
def strip : Sch → Sch
  | .all ks => .all (ks.filter (fun s => !isMin s))
  | s => s

/-- The schema requires an element. -/
def hasMin : Sch → Bool
  | .all ks => ks.any isMin
  | _ => false

/-- Only one element is required. -/
def minOne : Sch → Bool
  | .all ks => ks.all (fun s => match s with
    | .minItems n => n == 1
    | _ => true)
  | _ => true

theorem ok_strip {s : Sch} {v : Any} (h : Ok I env s v) : Ok I env (strip s) v := by
  cases s with
  | all ks =>
    rw [strip, ok_all]
    intro s hs
    exact ok_all.1 h s (List.mem_filter.1 hs).1
  | _ => exact h

theorem ok_of_strip {s : Sch} {v : Any} (h : Ok I env (strip s) v) (hm : minOne s = true)
    (hv : hasMin s = true → v ≠ .arr []) : Ok I env s v := by
  cases s with
  | all ks =>
    rw [strip, ok_all] at h
    rw [ok_all]
    intro s hs
    cases e : isMin s with
    | false => exact h s (List.mem_filter.2 ⟨hs, by simp [e]⟩)
    | true =>
      cases s <;> simp [isMin] at e
      rename_i n
      have := List.all_eq_true.1 hm _ hs
      simp only [beq_iff_eq] at this
      subst this
      simp only [Ok]
      rintro xs rfl
      have hv := hv (List.any_eq_true.2 ⟨_, hs, rfl⟩)
      cases xs with
      | nil => exact absurd rfl hv
      | cons x xs => simp
  | _ => exact h

/-- `enum` with one value. -/
def isConst (c : Const) : Sch → Bool
  | .all [.type a, .enum [c']] => a == "string" && c == c' && (match c with
    | .str _ => true
    | _ => false)
  | .all [.enum [c']] => c == c'
  | _ => false

theorem ok_const {c : Const} {s : Sch} (h : isConst c s = true) {v : Any} : Ok I env s v ↔ v = c.json := by
  unfold isConst at h
  split at h
  · rename_i a c'
    simp only [Bool.and_eq_true, beq_iff_eq] at h
    obtain ⟨⟨rfl, rfl⟩, h⟩ := h
    cases c with
    | bool b => cases h
    | str t =>
      rw [ok_all]
      simp only [List.mem_cons, List.not_mem_nil, or_false, forall_eq_or_imp, forall_eq, Ok, exists_eq_left]
      constructor
      · rintro ⟨_, h⟩
        exact h
      · rintro rfl
        exact ⟨rfl, rfl⟩
  · rename_i c'
    simp only [beq_iff_eq] at h
    subst h
    rw [ok_all]
    simp only [List.mem_cons, List.not_mem_nil, or_false, forall_eq, Ok, exists_eq_left]
  · cases h

/-- A struct and the keywords of a schema describe the same objects, apart from alternatives, embedded parts and what
must not be. -/
def structAgree (T : Table) (s : Struct) (P : Parsed) : Bool :=
  baseCheck s && s.exactlyOne == none && s.lower == [] &&
  s.require.all (P.req.contains ·) && P.req.all (s.require.contains ·) &&
  P.props.all (fun p => match s.fields.find? (fun f => f.key == p.1) with
    | some f => tyAgree T f.ty (strip p.2) && minOne p.2
    | none => match s.consts.find? (fun c => c.1 == p.1) with
      | some c => isConst c.2 p.2
      | none => false) &&
  s.fields.all (fun f => P.props.any (fun p => p.1 == f.key)) &&
  s.consts.all (fun c => P.props.any (fun p => p.1 == c.1)) &&
  s.patterns.all (fun q => P.pats.any (fun p => p.1 == keyPat q.pat && tyAgree T q.ty p.2)) &&
  P.pats.all (fun p => s.patterns.any (fun q => p.1 == keyPat q.pat && tyAgree T q.ty p.2)) &&
  P.props.all (fun p => s.patterns.all (fun q => !q.pat.matches p.1)) &&
  (match s.additional, s.strict, P.addl with
    | some a, _, some t => tyAgree T a.ty t
    | none, true, some .never => true
    | none, false, none => true
    | _, _, _ => false) &&
  ((s.patterns == [] && s.additional.isNone && !s.strict) || s.known.all (fun k => P.props.any (fun p => p.1 == k)))

/-- The same, as propositions. -/
structure Agree (T : Table) (s : Struct) (P : Parsed) : Prop where
  base : Base s
  exactlyOne : s.exactlyOne = none
  lower : s.lower = []
  req1 : ∀ k ∈ s.require, k ∈ P.req
  req2 : ∀ k ∈ P.req, k ∈ s.require
  props : ∀ k t, (k, t) ∈ P.props → (∃ f ∈ s.fields, f.key = k ∧ tyAgree T f.ty (strip t) = true ∧ minOne t = true) ∨
    (∃ c, (k, c) ∈ s.consts ∧ isConst c t = true)
  fields : ∀ f ∈ s.fields, ∃ t, (f.key, t) ∈ P.props ∧ tyAgree T f.ty (strip t) = true
  consts : ∀ k c, (k, c) ∈ s.consts → ∃ t, (k, t) ∈ P.props ∧ isConst c t = true
  pats1 : ∀ q ∈ s.patterns, ∃ t, (keyPat q.pat, t) ∈ P.pats ∧ tyAgree T q.ty t = true
  pats2 : ∀ r t, (r, t) ∈ P.pats → ∃ q ∈ s.patterns, r = keyPat q.pat ∧ tyAgree T q.ty t = true
  apart : ∀ k t, (k, t) ∈ P.props → ∀ q ∈ s.patterns, q.pat.matches k = false
  rest : (∃ a t, s.additional = some a ∧ P.addl = some t ∧ tyAgree T a.ty t = true) ∨
    (s.additional = none ∧ s.strict = true ∧ P.addl = some .never) ∨
    (s.additional = none ∧ s.strict = false ∧ P.addl = none)
  known : (s.patterns = [] ∧ s.additional = none ∧ s.strict = false) ∨ ∀ k ∈ s.known, ∃ t, (k, t) ∈ P.props

theorem agree_of_check {s : Struct} {P : Parsed} (h : structAgree T s P = true) : Agree T s P := by
  unfold structAgree at h
  simp only [Bool.and_eq_true, List.all_eq_true, beq_iff_eq, List.contains_iff_mem, List.any_eq_true,
    Bool.not_eq_true', Bool.or_eq_true, Option.isNone_iff_eq_none] at h
  obtain ⟨⟨⟨⟨⟨⟨⟨⟨⟨⟨⟨⟨h1, h2⟩, h3⟩, h4⟩, h5⟩, h6⟩, h7⟩, h8⟩, h9⟩, h10⟩, h11⟩, h12⟩, h13⟩ := h
  have hb := base_of_check h1
  have hfield : ∀ {f g : Field}, f ∈ s.fields → s.fields.find? (fun g => g.key == f.key) = some g → g = f := by
    intro f g hf hg
    have := hb.own f hf
    unfold fieldOf at this
    rw [hg] at this
    simpa using this
  have hprop : ∀ {k t}, (k, t) ∈ P.props → (∃ f ∈ s.fields, f.key = k ∧ tyAgree T f.ty (strip t) = true ∧ minOne t = true) ∨
      (∃ c, (k, c) ∈ s.consts ∧ isConst c t = true) := by
    intro k t hkt
    have := h6 _ hkt
    split at this
    · rename_i f hf
      rw [Bool.and_eq_true] at this
      exact .inl ⟨f, List.mem_of_find?_eq_some hf, by simpa using List.find?_some hf, this⟩
    · split at this
      · rename_i c hc
        have e : c.1 = k := by simpa using List.find?_some hc
        subst e
        exact .inr ⟨c.2, List.mem_of_find?_eq_some hc, this⟩
      · cases this
  refine ⟨hb, h2, h3, h4, h5, fun k t h => hprop h, ?_, ?_, ?_, ?_, fun k t h => h11 _ h, ?_, ?_⟩
  · intro f hf
    obtain ⟨p, hp, e⟩ := h7 f hf
    obtain ⟨k, t⟩ := p
    simp only at e
    subst e
    refine ⟨t, hp, ?_⟩
    have := h6 _ hp
    simp only at this
    cases hg : s.fields.find? (fun g => g.key == f.key) with
    | none =>
      rw [List.find?_eq_none] at hg
      exact absurd (by simp) (hg f hf)
    | some g =>
      rw [hg] at this
      have e := hfield hf hg
      subst e
      simp only [Bool.and_eq_true] at this
      exact this.1
  · intro k c hc
    obtain ⟨p, hp, e⟩ := h8 _ hc
    obtain ⟨k', t⟩ := p
    simp only at e
    subst e
    refine ⟨t, hp, ?_⟩
    rcases hprop hp with ⟨f, hf, e, _⟩ | ⟨c', hc', e⟩
    · have h1 := hb.own f hf
      have h2 := hb.consts _ hc
      simp only at h2
      rw [e, h2] at h1
      cases h1
    · have : c' = c := by
        have hnd := hb.constsNodup
        have h1 := GoMap.get?_of_mem (m := s.consts) hnd hc'
        rw [GoMap.get?_of_mem (m := s.consts) hnd hc] at h1
        exact (Option.some.inj h1).symm
      rw [← this]
      exact e
  · intro q hq
    obtain ⟨p, hp, e, h⟩ := h9 q hq
    exact ⟨p.2, e ▸ hp, h⟩
  · intro r t hr
    obtain ⟨q, hq, e, h⟩ := h10 _ hr
    exact ⟨q, hq, e, h⟩
  · split at h12
    · rename_i a t ha ht
      exact .inl ⟨a, t, ha, ht, h12⟩
    · rename_i ha hs ht
      exact .inr (.inl ⟨ha, hs, ht⟩)
    · rename_i ha hs ht
      exact .inr (.inr ⟨ha, hs, ht⟩)
    · cases h12
  · rcases h13 with ⟨⟨a, b⟩, c⟩ | h
    · exact .inl ⟨a, b, c⟩
    · refine .inr ?_
      intro k hk
      obtain ⟨p, hp, e⟩ := h k hk
      exact ⟨p.2, e ▸ hp⟩

end Verif.Meta
