import Verif.Spec.Meta31Read
import Verif.Lemmas.Meta31Facts
import Verif.Lemmas.MetaSound30

/-! What the meta-schema of 3.1 accepts can be read. -/

namespace Verif.Meta31
open Codec Spec
open Meta (Floats can_any can_ptr_of can_slice can_map can_union filter_one size_member size_elem literals_member
  literals_elem distinct_member distinct_elem lastValue_nodup)

variable {N : Nums} {env : String → Sem}

/-- What is assumed of a value that is to be read. -/
structure CC (N : Nums) (ty : Ty) (j : Any) : Prop where
  supported : Supported ty j
  floats : Floats N j
  distinct : Distinct j

theorem supported_of {ty ty' : Ty} {j j' : Any} (h : Supported ty j)
    (hr : ∀ t x, Reads31 ty' j' t x → Reads31 ty j t x) : Supported ty' j' :=
  ⟨fun b hb => h.schemas b (hr _ _ hb), fun ms hm => h.examples ms (hr _ _ hm), fun ms hm => h.links ms (hr _ _ hm),
    fun ms hm => h.pathItems ms (hr _ _ hm), fun ms hm => h.responses ms (hr _ _ hm), fun x hx => h.styles x (hr _ _ hx)⟩

theorem cc_ptr {t : Ty} {j : Any} (h : CC N (.ptr t) j) : CC N t j :=
  ⟨supported_of h.supported (fun _ _ hr => .ptr hr), h.floats, h.distinct⟩

theorem cc_elem {t : Ty} {xs : List Any} {x : Any} (h : CC N (.slice t) (.arr xs)) (hx : x ∈ xs) : CC N t x :=
  ⟨supported_of h.supported (fun _ _ hr => .elem hx hr), fun l hl => h.floats l (literals_elem hx l hl),
    distinct_elem h.distinct hx⟩

theorem cc_entry {t : Ty} {ms : List (String × Any)} {k : String} {x : Any} (h : CC N (.map t) (.obj ms))
    (hx : (k, x) ∈ ms) : CC N t x :=
  ⟨supported_of h.supported (fun _ _ hr => .entry hx hr), fun l hl => h.floats l (literals_member hx l hl),
    distinct_member h.distinct hx⟩

theorem cc_field {n : String} {s : Struct} (hn : GoMap.get? V31.table n = some (.struct s)) {f : Field} (hf : f ∈ s.fields)
    {ms : List (String × Any)} {x : Any} (h : CC N (.named n) (.obj ms)) (hx : (f.key, x) ∈ ms) : CC N f.ty x :=
  ⟨supported_of h.supported (fun _ _ hr => .field hn hf hx hr), fun l hl => h.floats l (literals_member hx l hl),
    distinct_member h.distinct hx⟩

theorem cc_pattern {n : String} {s : Struct} (hn : GoMap.get? V31.table n = some (.struct s)) {q : PatField}
    (hq : q ∈ s.patterns) {ms : List (String × Any)} {k : String} {x : Any} (h : CC N (.named n) (.obj ms))
    (hk : q.pat.matches k = true) (hx : (k, x) ∈ ms) : CC N q.ty x :=
  ⟨supported_of h.supported (fun _ _ hr => .pattern hn hq hk hx hr), fun l hl => h.floats l (literals_member hx l hl),
    distinct_member h.distinct hx⟩

theorem cc_additional {n : String} {s : Struct} (hn : GoMap.get? V31.table n = some (.struct s)) {a : Hidden}
    (ha : s.additional = some a) {ms : List (String × Any)} {k : String} {x : Any} (h : CC N (.named n) (.obj ms))
    (hk : ∀ q ∈ s.patterns, q.pat.matches k = false) (hx : (k, x) ∈ ms) : CC N a.ty x :=
  ⟨supported_of h.supported (fun _ _ hr => .additional hn ha hk hx hr), fun l hl => h.floats l (literals_member hx l hl),
    distinct_member h.distinct hx⟩

theorem cc_alternative {n : String} {s : Struct} (hn : GoMap.get? V31.table n = some (.struct s)) {o : Hidden}
    (ho : o ∈ s.oneOf) {j : Any} (hm : Meant o.ty j) (h : CC N (.named n) j) : CC N o.ty j :=
  ⟨supported_of h.supported (fun _ _ hr => .alternative hn ho hm hr), h.floats, h.distinct⟩

theorem meant_other {n : String} (h : ("Reference" :: referable).contains n = false) {j : Any} : Meant (.ptr (.named n)) j := by
  refine ⟨?_, ?_⟩
  · intro e
    cases e
    cases h
  · intro m hm e
    cases e
    rw [List.contains_iff_mem.2 (List.mem_cons_of_mem _ hm)] at h
    cases h

theorem meant_reference {M : List (String × Any)} (h : Has M "$ref") : Meant (.ptr (.named "Reference")) (.obj M) := by
  refine ⟨fun _ => ⟨M, rfl, h⟩, ?_⟩
  intro m hm e
  cases e
  exact absurd hm (by decide)

theorem meant_referable {n : String} (h : n ≠ "Reference") {j : Any} (hj : ∀ M, j = .obj M → ¬Has M "$ref") :
    Meant (.ptr (.named n)) j := by
  refine ⟨?_, fun _ _ _ => hj⟩
  intro e
  cases e
  exact absurd rfl h

/-! ## Types and schemas -/

/-- Structs that are read from what a definition accepts, without further ado. -/
def plain31 : List (String × String) := [
  ("Spec", "OpenAPI"), ("Info", "info"), ("Contact", "contact"), ("License", "license"), ("Server", "server"),
  ("ServerVariable", "server-variable"), ("Components", "components"), ("Paths", "paths"), ("PathItem", "path-item"),
  ("Operation", "operation"), ("ExternalDocumentation", "external-documentation"), ("Parameter", "parameter"),
  ("RequestBody", "request-body"), ("MediaType", "media-type"), ("Encoding", "encoding"), ("Responses", "responses"),
  ("Response", "response"), ("Link", "link"), ("Tag", "tag"), ("OauthFlows", "oauth-flows"),
  ("OauthFlowsDefsImplicit", "oauth-flows/$defs/implicit"), ("OauthFlowsDefsPassword", "oauth-flows/$defs/password"),
  ("OauthFlowsDefsClientCredentials", "oauth-flows/$defs/client-credentials"),
  ("OauthFlowsDefsAuthorizationCode", "oauth-flows/$defs/authorization-code")]

/-- The others. -/
def special31 : List (String × String) := [
  ("Header", "header"), ("SecurityScheme", "security-scheme"), ("Callbacks", "callbacks")]

/-- Alternatives: a reference or something else. -/
def either31 : List (String × String × String × String) := [
  ("PathItemOrReference", "path-item-or-reference", "PathItem", "path-item"),
  ("ParameterOrReference", "parameter-or-reference", "Parameter", "parameter"),
  ("RequestBodyOrReference", "request-body-or-reference", "RequestBody", "request-body"),
  ("ResponseOrReference", "response-or-reference", "Response", "response"),
  ("CallbacksOrReference", "callbacks-or-reference", "Callbacks", "callbacks"),
  ("ExampleOrReference", "example-or-reference", "Example", "example"),
  ("LinkOrReference", "link-or-reference", "Link", "link"),
  ("HeaderOrReference", "header-or-reference", "Header", "header"),
  ("SecuritySchemeOrReference", "security-scheme-or-reference", "SecurityScheme", "security-scheme")]

/-- Maps with a definition of their own. -/
def maps31 : List (Ty × String) := [
  (.any, "schema"), (.named "MediaType", "content"), (.str, "map-of-strings"), (.slice .str, "security-requirement")]

/-- The values are those of the type. -/
def enumAgree (n : String) (vs : List Const) : Bool := match GoMap.get? V31.table n with
  | some (.enum ws) => vs.all (fun c => match c with
    | .str t => ws.contains t
    | _ => false)
  | _ => false

/-- What the schema accepts can be read as the type. -/
def tyAgree : Ty → Sch → Bool
  | .any, _ => true
  | .str, .all (.type ts :: _) => ts == ["string"]
  | .bool, .all (.type ts :: _) => ts == ["boolean"]
  | .ptr t, s => notPtr t && tyAgree t s
  | .slice t, .all (.type ts :: .items s :: _) => ts == ["array"] && tyAgree t s
  | .map t, .all (.type ts :: .object [] [] (some s) :: _) => ts == ["object"] && tyAgree t s
  | .map t, .ref m => maps31.contains (t, m)
  | .map t, .all (.ref m :: _) => maps31.contains (t, m)
  | .named n, .ref m => plain31.contains (n, m) || special31.contains (n, m) ||
      (either31.map (fun e => (e.1, e.2.1))).contains (n, m)
  | .named n, .all (.enum vs :: _) => enumAgree n vs
  | .named n, .all (.note _ :: .enum vs :: _) => enumAgree n vs
  | .named n, .all (.type ts :: _) => n == "ParameterStyle" && ts == ["string"]
  | _, _ => false

/-- Smaller values that are accepted can be read. -/
abbrev SmallerC (N : Nums) (env : String → Sem) (j : Any) : Prop :=
  ∀ x, sizeOf x < sizeOf j → ∀ ty sch, tyAgree ty sch = true → CC N ty x → (sem env sch).ok x → Can V31.table N ty x

/-- How the patterns of the code are written in the meta-schema. -/
def keyPat : Pat → Option KeyPat
  | .x => some .x
  | .slash => some .slash
  | .status => some .status
  | _ => none

theorem keyPat_is {p : Pat} {q : KeyPat} (h : keyPat p = some q) {k : String} : p.matches k = true ↔ q.Is k := by
  cases p <;> cases h
  · exact x_matches
  · exact status_matches
  · exact slash_matches

/-- No key that matches is the other key in other letter case, or it is the key. -/
def patFree (k : String) : KeyPat → Bool
  | .x => keyFree .x k
  | .slash => keyFree .slash k
  | .status => keyFree .status k
  | .component => ["schemas", "responses", "parameters", "examples", "requestBodies", "headers", "securitySchemes",
      "links", "callbacks", "pathItems"].all (fun k' => k' == k || foldKey k' != foldKey k)

theorem patFree_sound {k k' : String} {p : KeyPat} (h : patFree k p = true) (hp : p.Is k') (hf : foldKey k = foldKey k') :
    k' = k := by
  cases p with
  | x => exact absurd hf (keyFree_sound (p := .x) h (x_matches.2 hp))
  | slash => exact absurd hf (keyFree_sound (p := .slash) h (slash_matches.2 hp))
  | status => exact absurd hf (keyFree_sound (p := .status) h (status_matches.2 hp))
  | component =>
    have := List.all_eq_true.1 h k' hp
    simp only [Bool.or_eq_true, beq_iff_eq, bne_iff_ne] at this
    rcases this with h | h
    · exact h
    · exact absurd hf.symm h

/-- Keys are not written in other letter case. -/
def ownKeys (fs : List Field) (l : List String × List KeyPat) : Bool :=
  fs.all fun f => l.1.all (fun k => k == f.key || foldKey k != foldKey f.key) && l.2.all (patFree f.key)

theorem ownKeys_sound {fs : List Field} {l : List String × List KeyPat} (h : ownKeys fs l = true) {k : String}
    (hk : Among k l) {f : Field} (hf : fieldOf fs k = some f) : k = f.key := by
  obtain ⟨hm, he⟩ := fieldOf_mem' hf
  have := List.all_eq_true.1 h f hm
  simp only [Bool.and_eq_true, List.all_eq_true, Bool.or_eq_true, beq_iff_eq, bne_iff_ne] at this
  rcases hk with hk | ⟨p, hp, hk⟩
  · rcases this.1 k hk with h | h
    · exact h
    · exact absurd he.symm h
  · exact patFree_sound (this.2 p hp) hk he

/-- The schema is `const: c`. -/
def isConst (c : Const) : Sch → Bool
  | .all [.enum [c']] => c' == c
  | .all [.note _, .enum [c']] => c' == c
  | _ => false

theorem isConst_sound {c : Const} {t : Sch} (h : isConst c t = true) {x : Any} (hok : (sem env t).ok x) : x = c.json := by
  unfold isConst at h
  split at h
  · rw [beq_iff_eq] at h
    subst h
    rw [ok_all] at hok
    simpa [sem, Sem.test] using hok _ (List.mem_singleton.2 rfl)
  · rw [beq_iff_eq] at h
    subst h
    rw [ok_all] at hok
    simpa [sem, Sem.test] using hok (.enum [_]) (by simp)
  · cases h

/-- The struct has the keys that the schema evaluates, with types that agree. -/
def fieldsAgree (s : Struct) (ks : List Sch) : Bool :=
  s.nots == [] && s.embeds == [] && s.notConsts == [] && s.forbid == [] && s.additional.isNone && !s.strict &&
  s.fields.all (fun f => forces defs31 (tyAgree f.ty) f.key 12 (.all ks)) &&
  (match keysOf defs31 12 (.all ks) with
    | some l => ownKeys s.fields l
    | none => false) &&
  s.patterns.all (fun q => q.ty == .any || match keyPat q.pat with
    | some p => patFact (tyAgree q.ty) p ks
    | none => false)

theorem fields_own (hE : Meaning defs31 env) {s : Struct} {ks : List Sch} (h : fieldsAgree s ks = true)
    {M : List (String × Any)} (hok : (sem env (.closed ks)).ok (.obj M)) :
    ∀ k ∈ M.map Prod.fst, ∀ f, fieldOf s.fields k = some f → k = f.key := by
  simp only [fieldsAgree, Bool.and_eq_true] at h
  obtain ⟨⟨_, h8⟩, _⟩ := h
  intro k hk f hf
  split at h8
  · rename_i l hl
    exact ownKeys_sound h8 (closed_keys hE hl hok hk) hf
  · cases h8

theorem fields_accepts (hE : Meaning defs31 env) {n : String} {s : Struct}
    (hn : GoMap.get? V31.table n = some (.struct s)) {ks : List Sch} (h : fieldsAgree s ks = true)
    {M : List (String × Any)} (ih : SmallerC N env (.obj M)) (hc : CC N (.named n) (.obj M))
    (hok : (sem env (.closed ks)).ok (.obj M)) (hreq : ∀ k ∈ s.require, k ∈ M.map Prod.fst)
    (hcon : ∀ k c, (k, c) ∈ s.consts → ∀ x, (k, x) ∈ M → x = c.json)
    (ho : s.oneOf ≠ [] → (s.oneOf.filter (fun e => (decode V31.table N e.ty (.obj M)).isSome)).length = 1) :
    Accepts V31.table N s M := by
  have own := fields_own hE h hok
  simp only [fieldsAgree, Bool.and_eq_true, beq_iff_eq, Bool.not_eq_true', Option.isNone_iff_eq_none, List.all_eq_true] at h
  obtain ⟨⟨⟨⟨⟨⟨⟨⟨h1, h2⟩, h3⟩, h4⟩, h5⟩, h6⟩, h7⟩, h8⟩, h11⟩ := h
  have hall := (ok_closed.1 hok).1
  refine ⟨?_, ?_, ?_, ho, hreq, ?_, ?_, ?_, ?_, ?_, ?_⟩
  · rw [h1]; intro t ht; cases ht
  · intro _ k x hx f hf
    have e := own k (List.mem_map.2 ⟨_, hx, rfl⟩) f hf
    subst e
    have hm := (fieldOf_mem' hf).1
    obtain ⟨t, ht, hok'⟩ := closed_forces hE (h7 f hm) hok hx
    exact ih x (size_member hx) f.ty t ht (cc_field hn hm hc hx) hok'
  · rw [h2]; intro t ht; cases ht
  · intro k c hcm x hx
    exact hcon k c hcm x (lastValue_mem hx)
  · rw [h3]; intro k c hk; cases hk
  · rw [h4]; intro k hk; cases hk
  · intro q hq k x hx _ hk
    have hx := mem_lastWins hx
    have hp := h11 q hq
    simp only [Bool.or_eq_true, beq_iff_eq] at hp
    rcases hp with hp | hp
    · rw [hp]
      exact can_any (fun l hl => hc.floats l (literals_member hx l hl))
    · split at hp
      · rename_i p hpp
        obtain ⟨t, ht, hok'⟩ := patFact_sound hp hall hx ((keyPat_is hpp).1 hk)
        exact ih x (size_member hx) q.ty t ht (cc_pattern hn hq hc hk hx) hok'
      · cases hp
  · rw [h5]; intro a ha; cases ha
  · rw [h6]; intro _ h; cases h

/-- The struct and the schema agree. -/
def structAgree (s : Struct) (ks : List Sch) : Bool :=
  fieldsAgree s ks && s.require.all (fun k => requires k ks) &&
  s.consts.all (fun c => forces defs31 (isConst c.2) c.1 12 (.all ks))

theorem struct_accepts (hE : Meaning defs31 env) {n : String} {s : Struct}
    (hn : GoMap.get? V31.table n = some (.struct s)) {ks : List Sch} (h : structAgree s ks = true)
    {M : List (String × Any)} (ih : SmallerC N env (.obj M)) (hc : CC N (.named n) (.obj M))
    (hok : (sem env (.closed ks)).ok (.obj M))
    (ho : s.oneOf ≠ [] → (s.oneOf.filter (fun e => (decode V31.table N e.ty (.obj M)).isSome)).length = 1) :
    Accepts V31.table N s M := by
  simp only [structAgree, Bool.and_eq_true, List.all_eq_true] at h
  obtain ⟨⟨h1, h2⟩, h3⟩ := h
  refine fields_accepts hE hn h1 ih hc hok (fun k hk => requires_sound (h2 k hk) (ok_closed.1 hok).1) ?_ ho
  intro k c hcm x hx
  obtain ⟨t, ht, hok'⟩ := closed_forces hE (h3 _ hcm) hok hx
  exact isConst_sound ht hok'

def struct31 (n : String) : Option Struct := match GoMap.get? V31.table n with
  | some (.struct s) => some s
  | _ => none

theorem struct31_some {n : String} {s : Struct} : struct31 n = some s ↔ GoMap.get? V31.table n = some (.struct s) := by
  unfold struct31
  split
  · rename_i t ht
    rw [ht]
    simp
  · rename_i h
    constructor
    · intro e; cases e
    · intro e; exact absurd e (h s)

theorem plain31_agree : plain31.all (fun p => match struct31 p.1, GoMap.get? defs31 p.2 with
    | some s, some (.closed ks) => ks.head?.any (fun
        | .type ts => ts == ["object"]
        | _ => false) && s.oneOf == [] && s.exactlyOne == none && s.lower == [] && structAgree s ks
    | _, _ => false) = true := by decide +kernel

/-- A definition that begins with `type: object` accepts objects only. -/
theorem closed_object {ks : List Sch} (h : ks.head?.any (fun
        | .type ts => ts == ["object"]
        | _ => false) = true) {j : Any} (hok : (sem env (.closed ks)).ok j) : ∃ M, j = .obj M := by
  cases ks with
  | nil => cases h
  | cons k ks =>
    cases k <;> simp at h
    subst h
    exact ok_object_of ((ok_closed.1 hok).1 _ List.mem_cons_self)

theorem plain_complete (hE : Meaning defs31 env) {n m : String} (h : (n, m) ∈ plain31) {j : Any}
    (ih : SmallerC N env j) (hc : CC N (.named n) j) (hok : (env m).ok j) : Can V31.table N (.named n) j := by
  have := List.all_eq_true.1 plain31_agree _ h
  split at this
  · rename_i s ks hs hm
    simp only [Bool.and_eq_true, beq_iff_eq] at this
    obtain ⟨⟨⟨⟨h1, h2⟩, h3⟩, h4⟩, h5⟩ := this
    rw [def_of hE hm] at hok
    obtain ⟨M, rfl⟩ := closed_object h1 hok
    rw [can_obj ranked31 (struct31_some.1 hs) h3 h4]
    exact struct_accepts hE (struct31_some.1 hs) h5 ih hc hok (fun h => absurd h2 h)
  · cases this

/-! ## Headers -/

theorem ok_required {l : List String} {M : List (String × Any)} :
    (sem env (.all [.required l])).ok (.obj M) ↔ ∀ k ∈ l, k ∈ M.map Prod.fst := by
  rw [ok_all]
  simp only [List.mem_cons, List.not_mem_nil, or_false, forall_eq, sem, Sem.test]
  constructor
  · intro h k hk
    obtain ⟨x, hx⟩ := h M rfl k hk
    exact List.mem_map.2 ⟨_, hx, rfl⟩
  · intro h ms e k hk
    cases e
    obtain ⟨⟨k', x⟩, hx, rfl⟩ := List.mem_map.1 (h k hk)
    exact ⟨x, hx⟩

theorem ok_oneOf {ss : List Sch} {v : Any} : (sem env (.oneOf ss)).ok v ↔
    ∃ i : Nat, (∃ s, ss[i]? = some s ∧ (sem env s).ok v) ∧ ∀ (j : Nat) s, ss[j]? = some s → (sem env s).ok v → j = i := by
  simp only [sem, semList_eq, OneOf, List.getElem?_map, Option.map_eq_some_iff]
  constructor
  · rintro ⟨i, ⟨_, ⟨s, hs, rfl⟩, h⟩, hu⟩
    exact ⟨i, ⟨s, hs, h⟩, fun j t ht hok => hu j _ ⟨t, ht, rfl⟩ hok⟩
  · rintro ⟨i, ⟨s, hs, h⟩, hu⟩
    refine ⟨i, ⟨_, ⟨s, hs, rfl⟩, h⟩, ?_⟩
    rintro j _ ⟨t, ht, rfl⟩ hok
    exact hu j t ht hok

/-- `oneOf` of two keys. -/
theorem ok_oneKey {a b : String} {M : List (String × Any)} :
    (sem env (.oneOf [.all [.required [a]], .all [.required [b]]])).ok (.obj M) ↔
      ¬(a ∈ M.map Prod.fst ↔ b ∈ M.map Prod.fst) := by
  have h1 : ∀ k, (sem env (.all [.required [k]])).ok (.obj M) ↔ k ∈ M.map Prod.fst := by
    intro k
    rw [ok_required]
    simp
  rw [ok_oneOf]
  constructor
  · rintro ⟨i, ⟨s, hs, h⟩, hu⟩ hiff
    have ha := fun h => hu 0 _ rfl ((h1 a).2 h)
    have hb := fun h => hu 1 _ rfl ((h1 b).2 h)
    have hi : i < 2 := (List.getElem?_eq_some_iff.1 hs).1
    have : i = 0 ∨ i = 1 := by omega
    rcases this with rfl | rfl
    · cases hs
      have := hb (hiff.1 ((h1 a).1 h))
      omega
    · cases hs
      have := ha (hiff.2 ((h1 b).1 h))
      omega
  · intro h
    by_cases ha : a ∈ M.map Prod.fst
    · have hb : b ∉ M.map Prod.fst := fun hb => h ⟨fun _ => hb, fun _ => ha⟩
      refine ⟨0, ⟨_, rfl, (h1 a).2 ha⟩, ?_⟩
      intro j s hs hok
      match j with
      | 0 => rfl
      | 1 =>
        cases hs
        exact absurd ((h1 b).1 hok) hb
      | j + 2 => cases hs
    · have hb : b ∈ M.map Prod.fst :=
        Classical.byContradiction fun hb => h ⟨fun h => absurd h ha, fun h => absurd h hb⟩
      refine ⟨1, ⟨_, rfl, (h1 b).2 hb⟩, ?_⟩
      intro j s hs hok
      match j with
      | 0 =>
        cases hs
        exact absurd ((h1 a).1 hok) ha
      | 1 => rfl
      | j + 2 => cases hs

/-- The keywords of a closed schema. -/
def closedKs : Sch → List Sch
  | .closed ks => ks
  | _ => []

def headerKs : List Sch := closedKs mHeader

theorem header_complete (hE : Meaning defs31 env) {j : Any} (ih : SmallerC N env j) (hc : CC N (.named "Header") j)
    (hok : (env "header").ok j) : Can V31.table N (.named "Header") j := by
  obtain ⟨ks, hm, h1, h2, h3⟩ : ∃ ks, GoMap.get? defs31 "header" = some (.closed ks) ∧
      ks.head?.any (fun
        | .type ts => ts == ["object"]
        | _ => false) = true ∧ structAgree V31.sHeader ks = true ∧
      Sch.oneOf [.all [.required ["schema"]], .all [.required ["content"]]] ∈ ks :=
    ⟨headerKs, by kernel_rfl, by decide +kernel, by decide +kernel, by simp [headerKs, closedKs, mHeader]⟩
  rw [def_of hE hm] at hok
  obtain ⟨M, rfl⟩ := closed_object h1 hok
  rw [can_obj_full ranked31 (s := V31.sHeader) (by kernel_rfl)]
  refine ⟨struct_accepts hE (by kernel_rfl) h2 ih hc hok (fun h => absurd rfl h), ?_, ?_⟩
  · intro a b e
    cases e
    exact ok_oneKey.1 ((ok_closed.1 hok).1 _ h3)
  · intro _ _ c hc
    cases hc

/-! ## Security schemes -/

/-- `if` with a constant type. -/
theorem ite_type {v : String} {t e : Sch} {M : List (String × Any)} (hd : (M.map Prod.fst).Nodup)
    (h : (sem env (.all [.ite (.all [.object [("type", .all [.enum [.str v]])] [] none, .required ["type"]]) t e])).ok
      (.obj M)) (hv : ("type", .str v) ∈ M) : (sem env t).ok (.obj M) := by
  rw [ok_all] at h
  have h := h _ List.mem_cons_self
  simp only [sem] at h
  refine h.1 ?_
  intro s hs
  simp only [semList, List.mem_cons, List.not_mem_nil, or_false] at hs
  rcases hs with rfl | rfl
  · simp only [sem, semProps, semPats, semOpt, ObjectIs, List.mem_cons, List.not_mem_nil, or_false, false_implies,
      implies_true, reduceCtorEq, and_true, Prod.mk.injEq, and_imp]
    intro ms hms k x hx p hk hp
    cases hms
    subst hk hp
    have e : x = .str v := by
      have h1 := lastValue_nodup hd hx
      rw [lastValue_nodup hd hv] at h1
      exact (Option.some.inj h1).symm
    subst e
    intro s hs
    simp only [semList, List.mem_cons, List.not_mem_nil, or_false] at hs
    subst hs
    exact ⟨_, List.mem_cons_self, rfl⟩
  · intro ms hms k hk
    cases hms
    simp only [List.mem_cons, List.not_mem_nil, or_false] at hk
    subst hk
    exact ⟨_, hv⟩

def securityKs : List Sch := closedKs mSecurityScheme

/-- The parts of a security scheme and their types. -/
def parts31 : List (String × Struct × String) := [
  ("SecuritySchemeAPIKey", V31.sSecuritySchemeAPIKey, "apiKey"), ("SecuritySchemeHTTP", V31.sSecuritySchemeHTTP, "http"),
  ("SecuritySchemeHTTPBearer", V31.sSecuritySchemeHTTPBearer, "http"),
  ("SecuritySchemeOauth2", V31.sSecuritySchemeOauth2, "oauth2"),
  ("SecuritySchemeOidc", V31.sSecuritySchemeOidc, "openIdConnect"), ("MutualTLS", V31.sMutualTLS, "mutualTLS")]

theorem parts31_agree : parts31.all (fun p => fieldsAgree p.2.1 securityKs && p.2.1.oneOf == [] &&
    p.2.1.exactlyOne == none && p.2.1.consts == [("type", .str p.2.2)] &&
    V31.sSecurityScheme.oneOf.any (fun o => o.ty == .ptr (.named p.1)) &&
    !("Reference" :: referable).contains p.1) = true := by decide +kernel

theorem parts31_table : ∀ p ∈ parts31, GoMap.get? V31.table p.1 = some (.struct p.2.1) := by
  simp only [parts31, List.mem_cons, List.not_mem_nil, or_false, forall_eq_or_imp, forall_eq]
  refine ⟨?_, ?_, ?_, ?_, ?_, ?_⟩ <;> kernel_rfl

/-- A part with another type cannot be read. -/
theorem part_type {p : String × Struct × String} (hp : p ∈ parts31) {M : List (String × Any)}
    (hd : (M.map Prod.fst).Nodup) {v : String} (hv : ("type", .str v) ∈ M)
    (h : Can V31.table N (.ptr (.named p.1)) (.obj M)) : p.2.2 = v := by
  have h1 := List.all_eq_true.1 parts31_agree _ hp
  simp only [Bool.and_eq_true, beq_iff_eq] at h1
  unfold Can at h
  rw [decode_ptr_obj ranked31 rfl] at h
  have := ((can_obj_full ranked31 (parts31_table p hp)).1 h).1.consts "type" (.str p.2.2) (by rw [h1.1.1.2]; simp) _
    (lastValue_nodup hd hv)
  cases this
  rfl

/-- A part with the right type and keys can be read. -/
theorem part_accepts (hE : Meaning defs31 env) {p : String × Struct × String} (hp : p ∈ parts31) {M : List (String × Any)}
    (ih : SmallerC N env (.obj M)) (hc : CC N (.named "SecurityScheme") (.obj M))
    (hok : (sem env (.closed securityKs)).ok (.obj M)) (hv : ("type", .str p.2.2) ∈ M)
    (hreq : ∀ k ∈ p.2.1.require, k ∈ M.map Prod.fst) : Accepts V31.table N p.2.1 M := by
  have h1 := List.all_eq_true.1 parts31_agree _ hp
  simp only [Bool.and_eq_true, beq_iff_eq, List.any_eq_true, Bool.not_eq_true'] at h1
  obtain ⟨⟨⟨⟨⟨h1, h2⟩, h3⟩, h4⟩, o, ho, h5⟩, h6⟩ := h1
  have hc' := cc_alternative (by kernel_rfl) (s := V31.sSecurityScheme) ho (by rw [h5]; exact meant_other h6) hc
  rw [h5] at hc'
  refine fields_accepts hE (parts31_table p hp) h1 ih (cc_ptr hc') hok hreq ?_ (fun h => absurd h2 h)
  rw [h4]
  intro k c hk x hx
  simp only [List.mem_cons, List.not_mem_nil, or_false, Prod.mk.injEq] at hk
  obtain ⟨rfl, rfl⟩ := hk
  have hd : (M.map Prod.fst).Nodup := hc.distinct.1
  have h6 := lastValue_nodup hd hx
  rw [lastValue_nodup hd hv] at h6
  exact (Option.some.inj h6).symm

/-- The scheme of an HTTP security scheme. -/
theorem scheme_value (hE : Meaning defs31 env) {s : Struct} (h : fieldsAgree s securityKs = true) {fs : List Field}
    (hs : s.fields = ⟨"Scheme", "scheme", .str, false⟩ :: fs) (hdec : s.decodes = true) {M : List (String × Any)}
    (hd : (M.map Prod.fst).Nodup) (hok : (sem env (.closed securityKs)).ok (.obj M)) {t : String}
    (ht : ("scheme", .str t) ∈ M) {fvals : List (String × Val)}
    (hf : decodeFields V31.table s (view V31.table N (.obj M)) = some fvals) :
    fieldGet fvals "Scheme" = some (.str t) := by
  have own := fields_own hE h hok
  have hval : fieldVal (fun k => fieldOf s.fields k == some ⟨"Scheme", "scheme", .str, false⟩) .str
      (zero V31.table .str) (M.map (memberOf V31.table N)) = some (.str t) := by
    refine fieldVal_const ?_ _ ?_
    · intro m hm hk
      obtain ⟨⟨k, x⟩, hx, rfl⟩ := List.mem_map.1 hm
      have hk' := own k (List.mem_map.2 ⟨_, hx, rfl⟩) _ (beq_iff_eq.1 hk)
      simp only at hk'
      subst hk'
      have e := lastValue_nodup hd hx
      rw [lastValue_nodup hd ht] at e
      cases e
      exact decode_str V31.table N (.str t)
    · intro hno
      have := hno (memberOf V31.table N ("scheme", .str t)) (List.mem_map_of_mem ht)
      simp only [memberOf, hs] at this
      rw [show fieldOf (⟨"Scheme", "scheme", .str, false⟩ :: fs) "scheme" = some ⟨"Scheme", "scheme", .str, false⟩ from ?_]
        at this
      · simp at this
      · simp [fieldOf]
  unfold decodeFields at hf
  rw [hdec, hs] at hf
  simp only [view, viewMembers_eq, mapAll] at hf
  rw [← hs, hval] at hf
  simp only [Option.map_some] at hf
  split at hf
  · rename_i y ys h1 h2
    cases h1
    cases hf
    simp [fieldGet, GoMap.get?]
  · cases hf

theorem can_part {p : String × Struct × String} (hp : p ∈ parts31) {M : List (String × Any)} :
    Can V31.table N (.ptr (.named p.1)) (.obj M) ↔ Accepts V31.table N p.2.1 M ∧ Checks V31.table N p.2.1 M := by
  rw [← can_obj_full ranked31 (parts31_table p hp)]
  unfold Can
  rw [decode_ptr_obj ranked31 rfl]

theorem security_oneOf : V31.sSecurityScheme.oneOf.map Hidden.ty = parts31.map (fun p => .ptr (.named p.1)) := by
  decide +kernel

/-- Exactly one part can be read. -/
theorem security_one {M : List (String × Any)} (i : Nat) (p : String × Struct × String) (hi : parts31[i]? = some p)
    (hcan : Can V31.table N (.ptr (.named p.1)) (.obj M))
    (hu : ∀ (k : Nat) q, parts31[k]? = some q → Can V31.table N (.ptr (.named q.1)) (.obj M) → k = i) :
    (V31.sSecurityScheme.oneOf.filter (fun e => (decode V31.table N e.ty (.obj M)).isSome)).length = 1 := by
  have tr : ∀ k : Nat, (V31.sSecurityScheme.oneOf[k]?).map Hidden.ty = (parts31[k]?).map (fun p => .ptr (.named p.1)) := by
    intro k
    rw [← List.getElem?_map, ← List.getElem?_map, security_oneOf]
  rw [filter_one]
  refine ⟨i, ?_, ?_⟩
  · have := tr i
    rw [hi, Option.map_some, Option.map_eq_some_iff] at this
    obtain ⟨o, ho, hty⟩ := this
    exact ⟨o, ho, by rw [hty]; exact hcan⟩
  · intro k o ho h
    have := tr k
    rw [ho, Option.map_some, eq_comm, Option.map_eq_some_iff] at this
    obtain ⟨q, hq, hty⟩ := this
    exact hu k q hq (by rw [hty]; exact h)

theorem index_of_type {k : Nat} {q : String × Struct × String} (h : parts31[k]? = some q) :
    (k, q.2.2) ∈ [(0, "apiKey"), (1, "http"), (2, "http"), (3, "oauth2"), (4, "openIdConnect"), (5, "mutualTLS")] := by
  have hk : k < 6 := (List.getElem?_eq_some_iff.1 h).1
  match k, hk with
  | 0, _ | 1, _ | 2, _ | 3, _ | 4, _ | 5, _ =>
    cases h
    decide

theorem checks_trivial {s : Struct} (h1 : s.exactlyOne = none) (h2 : s.lower = []) {M : List (String × Any)} :
    Checks V31.table N s M := by
  refine ⟨?_, ?_⟩
  · rw [h1]; intro a b e; cases e
  · rw [h2]; intro _ _ c hc; cases hc

theorem ok_ref {n : String} {v : Any} : (sem env (.ref n)).ok v ↔ (env n).ok v := Iff.rfl

theorem security_complete (hE : Meaning defs31 env) {j : Any} (ih : SmallerC N env j)
    (hc : CC N (.named "SecurityScheme") j) (hok : (env "security-scheme").ok j) :
    Can V31.table N (.named "SecurityScheme") j := by
  have hm : GoMap.get? defs31 "security-scheme" = some (.closed securityKs) := by kernel_rfl
  rw [def_of hE hm] at hok
  obtain ⟨M, rfl⟩ := closed_object (by decide +kernel) hok
  have hd : (M.map Prod.fst).Nodup := hc.distinct.1
  have hall := (ok_closed.1 hok).1
  refine (can_obj_full ranked31 (s := V31.sSecurityScheme) (by kernel_rfl)).2 ⟨?_, checks_trivial rfl rfl⟩
  refine struct_accepts hE (by kernel_rfl) (show structAgree V31.sSecurityScheme securityKs = true by decide +kernel)
    ih hc hok (fun _ => ?_)
  -- the type
  have htype : "type" ∈ M.map Prod.fst := requires_sound (k := "type") (ks := securityKs) (by decide +kernel) hall
  obtain ⟨⟨k, x⟩, hx, hk⟩ := List.mem_map.1 htype
  simp only at hk
  subst hk
  have hprop : Sch.object [("type", .all [.enum [.str "apiKey", .str "http", .str "mutualTLS", .str "oauth2",
      .str "openIdConnect"]]), ("description", .all [.type ["string"]])] [] none ∈ securityKs := by
    simp [securityKs, closedKs, mSecurityScheme]
  have hx' := (hall _ hprop) M rfl _ _ hx |>.1 (sem env (.all [.enum [.str "apiKey", .str "http", .str "mutualTLS",
    .str "oauth2", .str "openIdConnect"]])) (by simp [semProps])
  rw [ok_all] at hx'
  have hx' := hx' _ List.mem_cons_self
  simp only [sem, Sem.test, List.mem_cons, List.not_mem_nil, or_false, exists_eq_or_imp, exists_eq_left, Const.json] at hx'
  have hparts : ∀ n ∈ ["security-scheme/$defs/type-apikey", "security-scheme/$defs/type-http",
      "security-scheme/$defs/type-http-bearer", "security-scheme/$defs/type-oauth2", "security-scheme/$defs/type-oidc"],
      (env n).ok (.obj M) := by
    intro n hn
    have h := hall (.allOf [.ref "specification-extensions", .ref "security-scheme/$defs/type-apikey",
      .ref "security-scheme/$defs/type-http", .ref "security-scheme/$defs/type-http-bearer",
      .ref "security-scheme/$defs/type-oauth2", .ref "security-scheme/$defs/type-oidc"])
      (by simp [securityKs, closedKs, mSecurityScheme])
    rw [ok_allOf] at h
    refine h (.ref n) ?_
    simp only [List.mem_cons, List.not_mem_nil, or_false] at hn
    rcases hn with rfl | rfl | rfl | rfl | rfl <;> simp
  have hreq : ∀ {a : Sch} {l : List String}, (sem env (.all [a, .required l])).ok (.obj M) → ∀ k ∈ l, k ∈ M.map Prod.fst := by
    intro a l h
    rw [ok_all] at h
    refine (ok_required (env := env)).1 (ok_all.2 ?_)
    intro s hs
    rw [List.mem_singleton] at hs
    subst hs
    exact h _ (by simp)
  rcases hx' with rfl | rfl | rfl | rfl | rfl
  · have h1 := hparts "security-scheme/$defs/type-apikey" (by simp)
    rw [def_of hE (s := mSecuritySchemeTypeApikey) (by kernel_rfl)] at h1
    have h2 := hreq (ite_type hd h1 hx)
    have hp : ("SecuritySchemeAPIKey", V31.sSecuritySchemeAPIKey, "apiKey") ∈ parts31 := by simp [parts31]
    refine security_one 0 _ rfl ((can_part hp).2 ⟨part_accepts hE hp ih hc hok hx ?_, checks_trivial rfl rfl⟩) ?_
    · exact List.forall_mem_cons.2 ⟨htype, h2⟩
    · intro k q hq hcan
      have := part_type (List.mem_of_getElem? hq) hd hx hcan
      have := index_of_type hq
      simp_all
  · have h1 := hparts "security-scheme/$defs/type-http" (by simp)
    rw [def_of hE (s := mSecuritySchemeTypeHttp) (by kernel_rfl)] at h1
    have h1 := ite_type hd h1 hx
    have h2 := hreq h1 "scheme" (by simp)
    have hreq' : ∀ k ∈ ["type", "scheme"], k ∈ M.map Prod.fst := by
      intro k hk
      simp only [List.mem_cons, List.not_mem_nil, or_false] at hk
      rcases hk with rfl | rfl
      · exact htype
      · exact h2
    obtain ⟨⟨k, y⟩, hy, hk⟩ := List.mem_map.1 h2
    simp only at hk
    subst hk
    have hp1 : ("SecuritySchemeHTTP", V31.sSecuritySchemeHTTP, "http") ∈ parts31 := by simp [parts31]
    have hp2 : ("SecuritySchemeHTTPBearer", V31.sSecuritySchemeHTTPBearer, "http") ∈ parts31 := by simp [parts31]
    rw [ok_all] at h1
    have h3 := (h1 _ List.mem_cons_self) M rfl _ _ hy |>.1 (sem env (.all [.type ["string"]])) (by simp [semProps])
    rw [ok_all] at h3
    obtain ⟨t, rfl⟩ : ∃ t, y = .str t := by
      obtain ⟨t, ht, hty⟩ := h3 _ List.mem_cons_self
      rw [List.mem_singleton] at ht
      subst ht
      cases y <;> simp [TypeIs] at hty
      exact ⟨_, rfl⟩
    have key1 : Checks V31.table N V31.sSecuritySchemeHTTP M ↔ (goToLower t == "bearer") = false := by
      constructor
      · intro h
        have hacc := part_accepts hE hp1 ih hc hok hx hreq'
        obtain ⟨fvals, hf⟩ := Option.isSome_iff_exists.1 (decodeFields_isSome.2 hacc.fields)
        have := h.lower fvals hf _ List.mem_cons_self
        simp only at this
        rw [scheme_value hE (fs := []) (by decide +kernel) rfl rfl hd hok hy hf] at this
        simpa using this
      · intro h
        refine ⟨(by intro a b e; cases e), fun fvals hf c hcm => ?_⟩
        rw [show c = ⟨"Scheme", false, "bearer"⟩ from List.mem_singleton.1 hcm]
        simp only
        rw [scheme_value hE (fs := []) (by decide +kernel) rfl rfl hd hok hy hf]
        simpa using h
    have key2 : Checks V31.table N V31.sSecuritySchemeHTTPBearer M ↔ (goToLower t == "bearer") = true := by
      constructor
      · intro h
        have hacc := part_accepts hE hp2 ih hc hok hx hreq'
        obtain ⟨fvals, hf⟩ := Option.isSome_iff_exists.1 (decodeFields_isSome.2 hacc.fields)
        have := h.lower fvals hf _ List.mem_cons_self
        simp only at this
        rw [scheme_value hE (fs := [⟨"BearerFormat", "bearerFormat", .ptr .str, true⟩]) (by decide +kernel) rfl rfl hd hok
          hy hf] at this
        simpa using this
      · intro h
        refine ⟨(by intro a b e; cases e), fun fvals hf c hcm => ?_⟩
        rw [show c = ⟨"Scheme", true, "bearer"⟩ from List.mem_singleton.1 hcm]
        simp only
        rw [scheme_value hE (fs := [⟨"BearerFormat", "bearerFormat", .ptr .str, true⟩]) (by decide +kernel) rfl rfl hd hok
          hy hf]
        simpa using h
    cases hb : goToLower t == "bearer" with
    | false =>
      refine security_one 1 _ rfl ((can_part hp1).2 ⟨part_accepts hE hp1 ih hc hok hx ?_, key1.2 hb⟩) ?_
      · exact hreq'
      · intro k q hq hcan
        have h5 := part_type (List.mem_of_getElem? hq) hd hx hcan
        have h6 := index_of_type hq
        have : k = 1 ∨ k = 2 := by
          simp only [h5, List.mem_cons, Prod.mk.injEq, List.not_mem_nil, or_false] at h6
          simp at h6
          exact h6
        rcases this with rfl | rfl
        · rfl
        · cases hq
          have := key2.1 ((can_part hp2).1 hcan).2
          rw [hb] at this
          cases this
    | true =>
      refine security_one 2 _ rfl ((can_part hp2).2 ⟨part_accepts hE hp2 ih hc hok hx ?_, key2.2 hb⟩) ?_
      · exact hreq'
      · intro k q hq hcan
        have h5 := part_type (List.mem_of_getElem? hq) hd hx hcan
        have h6 := index_of_type hq
        have : k = 1 ∨ k = 2 := by
          simp only [h5, List.mem_cons, Prod.mk.injEq, List.not_mem_nil, or_false] at h6
          simp at h6
          exact h6
        rcases this with rfl | rfl
        · cases hq
          have := key1.1 ((can_part hp1).1 hcan).2
          rw [hb] at this
          cases this
        · rfl
  · have hp : ("MutualTLS", V31.sMutualTLS, "mutualTLS") ∈ parts31 := by simp [parts31]
    refine security_one 5 _ rfl ((can_part hp).2 ⟨part_accepts hE hp ih hc hok hx ?_, checks_trivial rfl rfl⟩) ?_
    · intro k hk; cases hk
    · intro k q hq hcan
      have := part_type (List.mem_of_getElem? hq) hd hx hcan
      have := index_of_type hq
      simp_all
  · have h1 := hparts "security-scheme/$defs/type-oauth2" (by simp)
    rw [def_of hE (s := mSecuritySchemeTypeOauth2) (by kernel_rfl)] at h1
    have h2 := hreq (ite_type hd h1 hx)
    have hp : ("SecuritySchemeOauth2", V31.sSecuritySchemeOauth2, "oauth2") ∈ parts31 := by simp [parts31]
    refine security_one 3 _ rfl ((can_part hp).2 ⟨part_accepts hE hp ih hc hok hx ?_, checks_trivial rfl rfl⟩) ?_
    · exact List.forall_mem_cons.2 ⟨htype, h2⟩
    · intro k q hq hcan
      have := part_type (List.mem_of_getElem? hq) hd hx hcan
      have := index_of_type hq
      simp_all
  · have h1 := hparts "security-scheme/$defs/type-oidc" (by simp)
    rw [def_of hE (s := mSecuritySchemeTypeOidc) (by kernel_rfl)] at h1
    have h2 := hreq (ite_type hd h1 hx)
    have hp : ("SecuritySchemeOidc", V31.sSecuritySchemeOidc, "openIdConnect") ∈ parts31 := by simp [parts31]
    refine security_one 4 _ rfl ((can_part hp).2 ⟨part_accepts hE hp ih hc hok hx ?_, checks_trivial rfl rfl⟩) ?_
    · exact List.forall_mem_cons.2 ⟨htype, h2⟩
    · intro k q hq hcan
      have := part_type (List.mem_of_getElem? hq) hd hx hcan
      have := index_of_type hq
      simp_all

/-! ## Callbacks -/

theorem callbacks_object (hE : Meaning defs31 env) {j : Any} (hok : (env "callbacks").ok j) :
    ∃ M, j = .obj M ∧ ∀ k x, (k, x) ∈ M → (env "path-item-or-reference").ok x := by
  rw [def_of hE (s := mCallbacks) (by kernel_rfl), mCallbacks, ok_all] at hok
  obtain ⟨M, rfl⟩ := ok_object_of (hok _ List.mem_cons_self)
  refine ⟨M, rfl, ?_⟩
  intro k x hx
  have h := hok (.object [] [] (some (.ref "path-item-or-reference"))) (by simp) M rfl k x hx
  exact h.2.2 (by simp [semProps]) (by simp [semPats]) _ rfl

theorem callbacks_complete (hE : Meaning defs31 env) {j : Any} (ih : SmallerC N env j)
    (hc : CC N (.named "Callbacks") j) (hok : (env "callbacks").ok j) : Can V31.table N (.named "Callbacks") j := by
  obtain ⟨M, rfl, h⟩ := callbacks_object hE hok
  have hn : GoMap.get? V31.table "Callbacks" = some (.struct V31.sCallbacks) := by kernel_rfl
  refine (can_obj ranked31 hn rfl rfl).2 ?_
  refine ⟨?_, ?_, ?_, ?_, ?_, ?_, ?_, ?_, ?_, ?_, ?_⟩
  · intro t ht; cases ht
  · intro hd; cases hd
  · intro e he; cases he
  · intro hne; exact absurd rfl hne
  · intro k hk; cases hk
  · intro k c hk; cases hk
  · intro k c hk; cases hk
  · intro k hk; cases hk
  · intro q hq k x hx _ _
    rw [show q = ⟨.x, "MapOfAnything", .any⟩ from List.mem_singleton.1 hq]
    exact can_any (fun l hl => hc.floats l (literals_member (mem_lastWins hx) l hl))
  · intro a ha k x hx _ hk
    have hx := mem_lastWins hx
    have hc' := cc_additional hn ha hc hk hx
    cases ha
    exact ih x (size_member hx) _ (.ref "path-item-or-reference") (by decide +kernel) hc' (h k x hx)
  · intro e; cases e

/-! ## References -/

def referenceKs : List Sch := closedKs mReference

theorem reference_ok (hE : Meaning defs31 env) {j : Any} (hok : (env "reference").ok j) :
    (sem env (.closed referenceKs)).ok j := by
  rw [def_of hE (s := mReference) (by kernel_rfl)] at hok
  exact hok

theorem reference_complete (hE : Meaning defs31 env) {M : List (String × Any)} (ih : SmallerC N env (.obj M))
    (hc : CC N (.named "Reference") (.obj M)) (hok : (env "reference").ok (.obj M)) (hr : Has M "$ref") :
    Can V31.table N (.named "Reference") (.obj M) := by
  have hn : GoMap.get? V31.table "Reference" = some (.struct V31.sReference) := by kernel_rfl
  refine (can_obj ranked31 hn rfl rfl).2 (fields_accepts hE hn (ks := referenceKs) (by decide +kernel) ih hc
    (reference_ok hE hok) ?_ ?_ (fun h => absurd rfl h))
  · intro k hk
    rw [show k = "$ref" from List.mem_singleton.1 hk]
    obtain ⟨x, hx⟩ := hr
    exact List.mem_map.2 ⟨_, hx, rfl⟩
  · intro k c hk; cases hk

/-- A reference is a string. -/
theorem reference_str (hE : Meaning defs31 env) {M : List (String × Any)} (hok : (env "reference").ok (.obj M)) {x : Any}
    (hx : ("$ref", x) ∈ M) : ∃ t, x = .str t := by
  have h := (ok_closed.1 (reference_ok hE hok)).1 (.object [
    ("$ref", .all [.type ["string"], .note "format: \"uri-reference\""]),
    ("summary", .all [.type ["string"]]),
    ("description", .all [.type ["string"]])] [] none) (by simp [referenceKs, closedKs, mReference]) M rfl _ _ hx
  have h := h.1 (sem env (.all [.type ["string"], .note "format: \"uri-reference\""])) (by simp [semProps])
  rw [ok_all] at h
  obtain ⟨t, ht, hty⟩ := h _ List.mem_cons_self
  rw [List.mem_singleton] at ht
  subst ht
  cases x <;> simp [TypeIs] at hty
  exact ⟨_, rfl⟩

/-- A reference has no other keys. -/
theorem reference_keys (hE : Meaning defs31 env) {M : List (String × Any)} (hok : (env "reference").ok (.obj M)) {k : String}
    (h : forces defs31 (fun _ => false) k 12 (.all referenceKs) = true) : k ∉ M.map Prod.fst := by
  intro hk
  obtain ⟨⟨k', x⟩, hx, rfl⟩ := List.mem_map.1 hk
  obtain ⟨t, ht, _⟩ := closed_forces hE h (reference_ok hE hok) hx
  cases ht

theorem not_ptr {n : String} {M : List (String × Any)} (h : ¬Can V31.table N (.named n) (.obj M)) :
    ¬Can V31.table N (.ptr (.named n)) (.obj M) := by
  unfold Can at h ⊢
  rw [decode_ptr_obj ranked31 rfl]
  exact h

/-- Something that requires a key which a reference lacks is not read from it. -/
theorem not_require {n : String} {s : Struct} (hn : GoMap.get? V31.table n = some (.struct s)) {k : String}
    (hk : k ∈ s.require) {M : List (String × Any)} (h : k ∉ M.map Prod.fst) : ¬Can V31.table N (.named n) (.obj M) :=
  fun hc => h (((can_obj_full ranked31 hn).1 hc).1.require k hk)

/-- A path item or a reference to one is an object. -/
theorem pathItem_str {t : String} : ¬Can V31.table N (.named "PathItemOrReference") (.str t) := by
  rw [can_union ranked31 (s := V31.sPathItemOrReference) (by kernel_rfl) rfl (by decide), filter_one]
  rintro ⟨i, ⟨o, ho, h⟩, _⟩
  have ho := List.mem_of_getElem? ho
  have key : ∀ n s, GoMap.get? V31.table n = some (.struct s) → s.decodes = true →
      ¬(decode V31.table N (.ptr (.named n)) (.str t)).isSome = true := by
    intro n s hn hs h
    rw [decode_ptr ranked31 rfl] at h
    rcases can_struct_obj ranked31 hn hs h with h | ⟨_, h⟩ <;> cases h
  simp only [V31.sPathItemOrReference, List.mem_cons, List.not_mem_nil, or_false] at ho
  rcases ho with rfl | rfl
  · exact key "Reference" V31.sReference (by kernel_rfl) rfl h
  · exact key "PathItem" V31.sPathItem (by kernel_rfl) rfl h

/-- What a reference may refer to is not read from a reference. -/
theorem not_reference (hE : Meaning defs31 env) {e : String × String × String × String} (he : e ∈ either31)
    {M : List (String × Any)} (hc : CC N (.named e.1) (.obj M)) (hok : (env "reference").ok (.obj M)) (hr : Has M "$ref") :
    ¬Can V31.table N (.named e.2.2.1) (.obj M) := by
  simp only [either31, List.mem_cons, List.not_mem_nil, or_false] at he
  rcases he with rfl | rfl | rfl | rfl | rfl | rfl | rfl | rfl | rfl
  · exact absurd hr (hc.supported.pathItems M (.self _ _))
  · exact not_require (s := V31.sParameter) (by kernel_rfl) (k := "name") (by decide)
      (reference_keys hE hok (by decide +kernel))
  · exact not_require (s := V31.sRequestBody) (by kernel_rfl) (k := "content") (by decide)
      (reference_keys hE hok (by decide +kernel))
  · refine not_require (s := V31.sResponse) (by kernel_rfl) (k := "description") (by decide) ?_
    intro h
    obtain ⟨⟨k, x⟩, hx, hk⟩ := List.mem_map.1 h
    simp only at hk
    subst hk
    exact hc.supported.responses M (.self _ _) hr ⟨x, hx⟩
  · intro h
    have ha := (can_obj ranked31 (s := V31.sCallbacks) (by kernel_rfl) rfl rfl).1 h
    obtain ⟨x, hx⟩ := hr
    obtain ⟨t, rfl⟩ := reference_str hE hok hx
    have hx' : ("$ref", .str t) ∈ lastWins M := by rw [lastWins_nodup hc.distinct.1]; exact hx
    have := ha.additional _ rfl "$ref" (.str t) hx' (by decide) (by decide)
    exact pathItem_str this
  · intro h
    have ha := (can_obj ranked31 (s := V31.sExample) (by kernel_rfl) rfl rfl).1 h
    exact ha.nots .any List.mem_cons_self (can_any hc.floats)
  · exact absurd hr (hc.supported.links M (.self _ _))
  · intro h
    have hx := ((can_obj_full ranked31 (s := V31.sHeader) (by kernel_rfl)).1 h).2.exactlyOne "schema" "content" rfl
    have h1 : "schema" ∉ M.map Prod.fst := reference_keys hE hok (by decide +kernel)
    have h2 : "content" ∉ M.map Prod.fst := reference_keys hE hok (by decide +kernel)
    exact hx ⟨fun h => absurd h h1, fun h => absurd h h2⟩
  · exact not_require (s := V31.sSecurityScheme) (by kernel_rfl) (k := "type") (by decide)
      (reference_keys hE hok (by decide +kernel))

/-- What the alternatives accept. -/
theorem either_cases {m : String} {j : Any}
    (h : (sem env (.all [.ite (.all [.type ["object"], .required ["$ref"]]) (.ref "reference") (.ref m)])).ok j) :
    (∃ M, j = .obj M ∧ Has M "$ref" ∧ (env "reference").ok (.obj M)) ∨ ((env m).ok j ∧ ∀ M, j = .obj M → ¬Has M "$ref") := by
  rw [ok_all] at h
  have h := h _ List.mem_cons_self
  simp only [sem] at h
  by_cases hcond : (sem env (.all [.type ["object"], .required ["$ref"]])).ok j
  · refine .inl ?_
    have h1 := h.1 hcond
    rw [ok_all] at hcond
    obtain ⟨M, rfl⟩ := ok_object_of (hcond _ List.mem_cons_self)
    exact ⟨M, rfl, hcond (.required ["$ref"]) (by simp) M rfl "$ref" (by simp), h1⟩
  · refine .inr ⟨h.2 hcond, ?_⟩
    rintro M rfl ⟨x, hx⟩
    refine hcond (ok_all.2 ?_)
    intro s hs
    simp only [List.mem_cons, List.not_mem_nil, or_false] at hs
    rcases hs with rfl | rfl
    · exact ⟨"object", List.mem_cons_self, rfl⟩
    · intro ms hms k hk
      cases hms
      rw [show k = "$ref" from List.mem_singleton.1 hk]
      exact ⟨x, hx⟩

theorem either31_defs (hE : Meaning defs31 env) : ∀ e ∈ either31, env e.2.1 =
    sem env (.all [.ite (.all [.type ["object"], .required ["$ref"]]) (.ref "reference") (.ref e.2.2.2)]) := by
  simp only [either31, List.mem_cons, List.not_mem_nil, or_false, forall_eq_or_imp, forall_eq]
  refine ⟨?_, ?_, ?_, ?_, ?_, ?_, ?_, ?_, ?_⟩ <;> exact def_of hE (by kernel_rfl)

theorem either31_structs : either31.all (fun e => match struct31 e.1 with
    | some s => s == { oneOf := s.oneOf, parts := s.oneOf.map (fun h => .hidden h.go) } &&
        s.oneOf.map Hidden.ty == [.ptr (.named "Reference"), .ptr (.named e.2.2.1)]
    | none => false) = true := by decide +kernel

theorem either_complete (hE : Meaning defs31 env) {e : String × String × String × String} (he : e ∈ either31) {j : Any}
    (ih : SmallerC N env j) (hc : CC N (.named e.1) j) (hok : (env e.2.1).ok j) : Can V31.table N (.named e.1) j := by
  have hs := List.all_eq_true.1 either31_structs e he
  split at hs
  · rename_i s hstr
    have hn := struct31_some.1 hstr
    simp only [Bool.and_eq_true, beq_iff_eq] at hs
    obtain ⟨hs1, hs2⟩ := hs
    have hlen : s.oneOf.length = 2 := by
      have := congrArg List.length hs2
      simpa using this
    obtain ⟨o1, o2, ho⟩ : ∃ o1 o2, s.oneOf = [o1, o2] := by
      match h : s.oneOf, hlen with
      | [a, b], _ => exact ⟨a, b, rfl⟩
    rw [ho] at hs2
    simp only [List.map_cons, List.map_nil, List.cons.injEq, and_true] at hs2
    obtain ⟨h1, h2⟩ := hs2
    rw [can_union ranked31 hn hs1 (by rw [ho]; simp), filter_one, ho]
    rw [either31_defs hE e he] at hok
    rcases either_cases hok with ⟨M, rfl, hr, hok'⟩ | ⟨hok', hno⟩
    · have c1 := cc_alternative hn (o := o1) (by rw [ho]; simp) (by rw [h1]; exact meant_reference hr) hc
      rw [h1] at c1
      have hcan := can_ptr_of ranked31 (t := .named "Reference") rfl (reference_complete hE ih (cc_ptr c1) hok' hr)
      have hnot := not_ptr (not_reference hE he hc hok' hr)
      refine ⟨0, ⟨o1, rfl, by rw [h1]; exact hcan⟩, ?_⟩
      intro k o hk h
      match k with
      | 0 => rfl
      | 1 =>
        cases hk
        rw [h2] at h
        exact absurd h hnot
      | k + 2 => cases hk
    · have hX : ∃ M, j = .obj M ∧ Can V31.table N (.named e.2.2.1) (.obj M) := by
        have hpl : ∀ {n m}, (n, m) ∈ plain31 → CC N (.named n) j → (env m).ok j →
            ∃ M, j = .obj M ∧ Can V31.table N (.named n) (.obj M) := by
          intro n m hp hc hok
          have hcan := plain_complete hE hp ih hc hok
          have := List.all_eq_true.1 plain31_agree _ hp
          split at this
          · rename_i s' ks hs' hm
            simp only [Bool.and_eq_true] at this
            rw [def_of hE hm] at hok
            obtain ⟨M, rfl⟩ := closed_object this.1.1.1.1 hok
            exact ⟨M, rfl, hcan⟩
          · cases this
        have hne : e.2.2.1 ≠ "Reference" := by
          have : either31.all (fun e => e.2.2.1 != "Reference") = true := by decide
          simpa using List.all_eq_true.1 this e he
        have c2 := cc_alternative hn (o := o2) (by rw [ho]; simp) (by rw [h2]; exact meant_referable hne hno) hc
        rw [h2] at c2
        have c2 := cc_ptr c2
        simp only [either31, List.mem_cons, List.not_mem_nil, or_false] at he
        rcases he with rfl | rfl | rfl | rfl | rfl | rfl | rfl | rfl | rfl
        · exact hpl (by simp [plain31]) c2 hok'
        · exact hpl (by simp [plain31]) c2 hok'
        · exact hpl (by simp [plain31]) c2 hok'
        · exact hpl (by simp [plain31]) c2 hok'
        · obtain ⟨M, rfl, _⟩ := callbacks_object hE hok'
          exact ⟨M, rfl, callbacks_complete hE ih c2 hok'⟩
        · rw [def_of hE (s := .closed (closedKs mExample)) (by kernel_rfl)] at hok'
          obtain ⟨M, rfl⟩ := closed_object (by decide +kernel) hok'
          exact absurd (hc.supported.examples M (.self _ _)) (hno M rfl)
        · exact hpl (by simp [plain31]) c2 hok'
        · have hcan := header_complete hE ih c2 hok'
          rw [def_of hE (s := .closed headerKs) (by kernel_rfl)] at hok'
          obtain ⟨M, rfl⟩ := closed_object (by decide +kernel) hok'
          exact ⟨M, rfl, hcan⟩
        · have hcan := security_complete hE ih c2 hok'
          rw [def_of hE (s := .closed securityKs) (by kernel_rfl)] at hok'
          obtain ⟨M, rfl⟩ := closed_object (by decide +kernel) hok'
          exact ⟨M, rfl, hcan⟩
      obtain ⟨M, rfl, hX⟩ := hX
      refine ⟨1, ⟨o2, rfl, by rw [h2]; exact can_ptr_of ranked31 rfl hX⟩, ?_⟩
      intro k o hk h
      match k with
      | 0 =>
        cases hk
        rw [h1] at h
        refine absurd h (not_ptr (not_require (s := V31.sReference) (by kernel_rfl) (k := "$ref") (by decide) ?_))
        intro hm
        obtain ⟨⟨k, x⟩, hx, hk⟩ := List.mem_map.1 hm
        simp only at hk
        subst hk
        exact hno M rfl ⟨x, hx⟩
      | 1 => rfl
      | k + 2 => cases hk
  · cases hs

/-! ## All types -/

theorem ok_array_of {v : Any} (h : (sem env (.type ["array"])).ok v) : ∃ xs, v = .arr xs := by
  obtain ⟨t, ht, hty⟩ := h
  rw [List.mem_singleton] at ht
  subst ht
  cases v <;> simp [TypeIs] at hty
  exact ⟨_, rfl⟩

theorem ok_string_of {v : Any} (h : (sem env (.type ["string"])).ok v) : ∃ t, v = .str t := by
  obtain ⟨t, ht, hty⟩ := h
  rw [List.mem_singleton] at ht
  subst ht
  cases v <;> simp [TypeIs] at hty
  exact ⟨_, rfl⟩

theorem ok_bool_of {v : Any} (h : (sem env (.type ["boolean"])).ok v) : ∃ b, v = .bool b := by
  obtain ⟨t, ht, hty⟩ := h
  rw [List.mem_singleton] at ht
  subst ht
  cases v <;> simp [TypeIs] at hty
  exact ⟨_, rfl⟩

/-- `additionalProperties` alone applies to all members. -/
theorem ok_additional {s : Sch} {M : List (String × Any)} (h : (sem env (.object [] [] (some s))).ok (.obj M)) {k : String}
    {x : Any} (hx : (k, x) ∈ M) : (sem env s).ok x :=
  (h M rfl k x hx).2.2 (by simp [semProps]) (by simp [semPats]) _ rfl

theorem map_complete (hE : Meaning defs31 env) {t : Ty} {m : String} (h : (t, m) ∈ maps31) {j : Any}
    (ih : SmallerC N env j) (hc : CC N (.map t) j) (hok : (env m).ok j) : Can V31.table N (.map t) j := by
  have key : ∀ {s rest}, (sem env (.all (.type ["object"] :: .object [] [] (some s) :: rest))).ok j → tyAgree t s = true →
      Can V31.table N (.map t) j := by
    intro s rest hok hs
    rw [ok_all] at hok
    obtain ⟨M, rfl⟩ := ok_object_of (hok _ List.mem_cons_self)
    rw [can_map]
    intro k x hx
    exact ih x (size_member hx) t s hs (cc_entry hc hx) (ok_additional (hok (.object [] [] (some s)) (by simp)) hx)
  simp only [maps31, List.mem_cons, List.not_mem_nil, or_false, Prod.mk.injEq] at h
  rcases h with ⟨rfl, rfl⟩ | ⟨rfl, rfl⟩ | ⟨rfl, rfl⟩ | ⟨rfl, rfl⟩
  · rw [def_of hE (s := mSchema) (by kernel_rfl), mSchema, ok_all] at hok
    obtain ⟨t, ht, hty⟩ := hok _ List.mem_cons_self
    cases j with
    | obj M =>
      rw [can_map]
      intro k x hx
      exact can_any (fun l hl => hc.floats l (literals_member hx l hl))
    | bool b => exact absurd (.self _ _) (hc.supported.schemas b)
    | _ => simp [TypeIs] at hty; subst hty; simp at ht
  · rw [def_of hE (s := mContent) (by kernel_rfl), mContent] at hok
    exact key hok (by decide +kernel)
  · rw [def_of hE (s := mMapOfStrings) (by kernel_rfl), mMapOfStrings] at hok
    exact key hok (by decide +kernel)
  · rw [def_of hE (s := mSecurityRequirement) (by kernel_rfl), mSecurityRequirement] at hok
    exact key hok (by decide +kernel)

theorem enum_complete {n : String} {vs : List Const} (h : enumAgree n vs = true) {j : Any}
    (hok : (sem env (.enum vs)).ok j) : Can V31.table N (.named n) j := by
  unfold enumAgree at h
  split at h
  · rename_i ws hn
    obtain ⟨c, hc, rfl⟩ := hok
    have := List.all_eq_true.1 h c hc
    split at this
    · rename_i t
      unfold Can
      rw [decode_enum hn]
      simp only [Const.json]
      rw [if_pos this]
      rfl
    · cases this
  · cases h

theorem style_complete {j : Any} (hc : CC N (.named "ParameterStyle") j) : Can V31.table N (.named "ParameterStyle") j := by
  obtain ⟨t, ht, rfl⟩ := hc.supported.styles j (.self _ _)
  obtain ⟨ws, hn, hw⟩ : ∃ ws, GoMap.get? V31.table "ParameterStyle" = some (.enum ws) ∧
      ["form", "spaceDelimited", "pipeDelimited", "deepObject"].all (fun t => ws.contains t) = true := by
    exact ⟨["form", "spaceDelimited", "pipeDelimited", "deepObject"], by kernel_rfl, by decide⟩
  unfold Can
  rw [decode_enum hn]
  simp only
  rw [if_pos (List.all_eq_true.1 hw t ht)]
  rfl

theorem type_complete (hE : Meaning defs31 env) (ty : Ty) (sch : Sch) (j : Any) (ih : SmallerC N env j)
    (h : tyAgree ty sch = true) (hc : CC N ty j) (hok : (sem env sch).ok j) : Can V31.table N ty j := by
  unfold tyAgree at h
  split at h
  · exact can_any hc.floats
  · simp only [beq_iff_eq] at h
    subst h
    rw [ok_all] at hok
    obtain ⟨t, rfl⟩ := ok_string_of (hok _ List.mem_cons_self)
    exact (congrArg Option.isSome (decode_str V31.table N (.str t))).trans rfl
  · simp only [beq_iff_eq] at h
    subst h
    rw [ok_all] at hok
    obtain ⟨t, rfl⟩ := ok_bool_of (hok _ List.mem_cons_self)
    exact (congrArg Option.isSome (decode_bool V31.table N (.bool t))).trans rfl
  · rename_i t
    simp only [Bool.and_eq_true] at h
    exact can_ptr_of ranked31 h.1 (type_complete hE t _ j ih h.2 (cc_ptr hc) hok)
  · simp only [Bool.and_eq_true, beq_iff_eq] at h
    obtain ⟨rfl, h⟩ := h
    rename_i t s _
    rw [ok_all] at hok
    obtain ⟨xs, rfl⟩ := ok_array_of (hok _ List.mem_cons_self)
    rw [can_slice]
    intro x hx
    exact ih x (size_elem hx) t s h (cc_elem hc hx) (hok (.items s) (by simp) xs rfl x hx)
  · simp only [Bool.and_eq_true, beq_iff_eq] at h
    obtain ⟨rfl, h⟩ := h
    rename_i t s _
    rw [ok_all] at hok
    obtain ⟨M, rfl⟩ := ok_object_of (hok _ List.mem_cons_self)
    rw [can_map]
    intro k x hx
    exact ih x (size_member hx) t s h (cc_entry hc hx) (ok_additional (hok (.object [] [] (some s)) (by simp)) hx)
  · exact map_complete hE (List.contains_iff_mem.1 h) ih hc hok
  · rw [ok_all] at hok
    exact map_complete hE (List.contains_iff_mem.1 h) ih hc (hok _ List.mem_cons_self)
  · simp only [Bool.or_eq_true, List.contains_iff_mem] at h
    rcases h with (h | h) | h
    · exact plain_complete hE h ih hc hok
    · simp only [special31, List.mem_cons, List.not_mem_nil, or_false, Prod.mk.injEq] at h
      rcases h with ⟨rfl, rfl⟩ | ⟨rfl, rfl⟩ | ⟨rfl, rfl⟩
      · exact header_complete hE ih hc hok
      · exact security_complete hE ih hc hok
      · exact callbacks_complete hE ih hc hok
    · obtain ⟨e, he, heq⟩ := List.mem_map.1 h
      cases heq
      exact either_complete hE he ih hc hok
  · rw [ok_all] at hok
    exact enum_complete h (hok _ List.mem_cons_self)
  · rw [ok_all] at hok
    exact enum_complete h (hok (.enum _) (by simp))
  · simp only [Bool.and_eq_true, beq_iff_eq] at h
    obtain ⟨rfl, rfl⟩ := h
    exact style_complete hc
  · cases h
termination_by sizeOf ty

/-- What the meta-schema accepts can be read. -/
theorem complete31 (hE : Meaning defs31 env) (j : Any) : ∀ ty sch, tyAgree ty sch = true → CC N ty j →
    (sem env sch).ok j → Can V31.table N ty j := by
  intro ty sch h hc hok
  refine type_complete hE ty sch j ?_ h hc hok
  intro x hx ty' sch' h' hc' hok'
  exact complete31 hE x ty' sch' h' hc' hok'
termination_by sizeOf j

end Verif.Meta31
