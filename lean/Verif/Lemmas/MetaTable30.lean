import Verif.Lemmas.MetaUnion
import Verif.Spec.YamlDoc

/-! The tables of 3.0 and the meta-schema of 3.0 agree: what is checked by computation. -/

namespace Verif.Meta
open Codec Spec

/-- The struct of a name. -/
def structOf (n : String) : Option Struct :=
  match GoMap.get? V30.table n with
  | some (.struct s) => some s
  | _ => none

theorem structOf_some {n : String} {s : Struct} : structOf n = some s ↔ GoMap.get? V30.table n = some (.struct s) := by
  unfold structOf
  cases GoMap.get? V30.table n with
  | none => simp
  | some d => cases d <;> simp

/-- The keywords of a definition. -/
def parsedOf (m : String) : Option Parsed := (GoMap.get? defs30 m).bind parse

/-- A struct without special parts and a definition that agree. -/
def plainAgree (p : String × String) : Bool :=
  match structOf p.1, parsedOf p.2 with
  | some s, some P => structAgree V30.table s P && s.nots.isEmpty && s.embeds.isEmpty && s.oneOf.isEmpty &&
      P.extra.isEmpty && (p.1 == "Discriminator" || s.strict || s.additional.isSome) &&
      P.props.all (fun q => !hasMin q.2 || (p.1 == "Schema" && ["required", "enum"].contains q.1))
  | _, _ => false

theorem plains30_agree : pairs30.all plainAgree = true := by decide +kernel

structure PlainAgree (n : String) (s : Struct) (P : Parsed) : Prop where
  agree : Agree V30.table s P
  nots : s.nots = []
  embeds : s.embeds = []
  oneOf : s.oneOf = []
  extra : P.extra = []
  opened : n = "Discriminator" ∨ s.strict = true ∨ s.additional.isSome = true
  min : ∀ k t, (k, t) ∈ P.props → hasMin t = true → n = "Schema" ∧ k ∈ ["required", "enum"]

theorem plain_agree {n m : String} (h : (n, m) ∈ pairs30) : ∃ s sch P, GoMap.get? V30.table n = some (.struct s) ∧
    (m, sch) ∈ defs30 ∧ parse sch = some P ∧ PlainAgree n s P := by
  have := List.all_eq_true.1 plains30_agree _ h
  unfold plainAgree at this
  split at this
  · rename_i s P hs hP
    simp only [Bool.and_eq_true, List.isEmpty_iff, Bool.or_eq_true, beq_iff_eq, List.all_eq_true, Bool.not_eq_true',
      List.contains_iff_mem] at this
    obtain ⟨⟨⟨⟨⟨⟨h1, h2⟩, h3⟩, h4⟩, h5⟩, h6⟩, h7⟩ := this
    unfold parsedOf at hP
    obtain ⟨sch, hsch, hP⟩ := Option.bind_eq_some_iff.1 hP
    refine ⟨s, sch, P, structOf_some.1 hs, get?_mem hsch, hP, agree_of_check h1, h2, h3, h4, h5, ?_, ?_⟩
    · rcases h6 with (h | h) | h
      · exact .inl h
      · exact .inr (.inl h)
      · exact .inr (.inr h)
    · intro k t ht hm
      rcases h7 _ ht with h | h
      · simp only at h
        rw [hm] at h
        cases h
      · exact h
  · cases this

/-! ## Alternatives -/

/-- An alternative and a reference that belong together. -/
def altAgree (n : String) (o : Hidden) (t : Sch) : Bool :=
  match o.ty, t with
  | .ptr (.named a), .ref m => pairs30.contains (a, m) ||
      a == m && (special30.contains a || a == "SecurityScheme" && n == "SecuritySchemeOrRef")
  | _, _ => false

/-- An alternative and a reference that exclude each other. -/
def altExcl (o : Hidden) (t : Sch) : Bool :=
  match o.ty, t with
  | .ptr (.named a), .ref m => match structOf a, parsedOf m with
    | some s, some P => s.exactlyOne == none && s.lower == [] && exclOk s P
    | _, _ => false
  | _, _ => false

/-- Alternatives of which one excludes the others by the keys. -/
def clear30 : List String := ["SchemaOrRef", "ExampleOrRef", "ParameterOrRef", "RequestBodyOrRef", "HeaderOrRef",
  "LinkOrRef", "ResponseOrRef", "SecurityScheme"]

/-- A union and a definition that agree. -/
def unionAgree (n : String) : Bool :=
  match structOf n, GoMap.get? defs30 n with
  | some s, some (.all [.oneOf ss]) => decide (s = { oneOf := s.oneOf, parts := s.oneOf.map (fun h => .hidden h.go) }) &&
      !s.oneOf.isEmpty && s.oneOf.length == ss.length &&
      (List.range ss.length).all (fun i => match s.oneOf[i]?, ss[i]? with
        | some o, some t => altAgree n o t
        | _, _ => false) &&
      (!clear30.contains n || (List.range ss.length).all (fun i => (List.range ss.length).all (fun k => i == k ||
        match s.oneOf[i]?, ss[k]? with
        | some o, some t => altExcl o t
        | _, _ => false)))
  | _, _ => false

theorem unions30_agree : either30.all unionAgree = true := by decide +kernel

structure UnionAgree (n : String) (s : Struct) (ss : List Sch) : Prop where
  shape : s = { oneOf := s.oneOf, parts := s.oneOf.map (fun h => .hidden h.go) }
  ne : s.oneOf ≠ []
  len : s.oneOf.length = ss.length
  agree : ∀ (i : Nat) o t, s.oneOf[i]? = some o → ss[i]? = some t → altAgree n o t = true
  excl : n ∈ clear30 → ∀ (i k : Nat) o t, i ≠ k → s.oneOf[i]? = some o → ss[k]? = some t → altExcl o t = true

theorem union_agree {n : String} (h : n ∈ either30) : ∃ s ss, GoMap.get? V30.table n = some (.struct s) ∧
    GoMap.get? defs30 n = some (Sch.all [.oneOf ss]) ∧ UnionAgree n s ss := by
  have := List.all_eq_true.1 unions30_agree _ h
  unfold unionAgree at this
  split at this
  · rename_i s ss hs hss
    simp only [Bool.and_eq_true, decide_eq_true_eq, Bool.not_eq_true', List.isEmpty_eq_false_iff, beq_iff_eq,
      List.all_eq_true, List.mem_range, Bool.or_eq_true] at this
    obtain ⟨⟨⟨⟨h1, h2⟩, h3⟩, h4⟩, h5⟩ := this
    refine ⟨s, ss, structOf_some.1 hs, hss, h1, h2, h3, ?_, ?_⟩
    · intro i o t ho ht
      have := h4 i (List.getElem?_eq_some_iff.1 ht).1
      rw [ho, ht] at this
      exact this
    · intro hc i k o t hik ho ht
      have hc' : clear30.contains n = true := List.contains_iff_mem.2 hc
      rw [hc'] at h5
      rcases h5 with h5 | h5
      · cases h5
      · have hi := (List.getElem?_eq_some_iff.1 ho).1
        rcases h5 i (by omega) k (List.getElem?_eq_some_iff.1 ht).1 with h | h
        · exact absurd h hik
        · rw [ho, ht] at h
          exact h
  · cases this

theorem altAgree_some {n : String} {o : Hidden} {t : Sch} (h : altAgree n o t = true) :
    ∃ a m, o.ty = .ptr (.named a) ∧ t = .ref m ∧
      ((a, m) ∈ pairs30 ∨ a = m ∧ (a ∈ special30 ∨ a = "SecurityScheme" ∧ n = "SecuritySchemeOrRef")) := by
  unfold altAgree at h
  split at h
  · rename_i a m e
    refine ⟨a, m, e, rfl, ?_⟩
    simpa only [Bool.or_eq_true, Bool.and_eq_true, beq_iff_eq, List.contains_iff_mem] using h
  · cases h

/-- No object is both an alternative and of another. -/
theorem altExcl_sound {N : Nums} {I : String → Prop} {env : String → Any → Prop} (hE : Meaning defs30 I env) {o : Hidden}
    {t : Sch} (h : altExcl o t = true) {j : Any} (hc : Can V30.table N o.ty j) : ¬Ok I env t j := by
  unfold altExcl at h
  split at h
  · rename_i a m e
    split at h
    · rename_i s P hs hP
      simp only [Bool.and_eq_true, beq_iff_eq] at h
      obtain ⟨⟨h1, h2⟩, h3⟩ := h
      unfold parsedOf at hP
      obtain ⟨sch, hsch, hP⟩ := Option.bind_eq_some_iff.1 hP
      intro hok
      simp only [Ok] at hok
      obtain ⟨M, rfl, H, _⟩ := (parse_iff hP).1 ((hE m sch (get?_mem hsch) j).1 hok)
      rw [e, Can, decode_ptr_obj ranked30 rfl] at hc
      exact excl_sound h3 ((can_obj ranked30 (structOf_some.1 hs) h1 h2).1 hc) H
    · cases h
  · cases h

/-! ## Open parts -/

/-- A struct without `knownKeys` and a schema without `type` that agree. -/
def openAgree (n : String) (sch : Sch) : Bool :=
  match structOf n, parseOpen sch with
  | some s, some P => structAgree V30.table s P && s.nots.isEmpty && s.embeds.isEmpty && s.oneOf.isEmpty &&
      P.extra.isEmpty && P.props.all (fun q => !hasMin q.2)
  | _, _ => false

theorem open_agree {n : String} {sch : Sch} (h : openAgree n sch = true) : ∃ s P,
    GoMap.get? V30.table n = some (.struct s) ∧ parseOpen sch = some P ∧ Agree V30.table s P ∧ s.nots = [] ∧ s.embeds = [] ∧
    s.oneOf = [] ∧ P.extra = [] ∧ ∀ k t, (k, t) ∈ P.props → hasMin t = false := by
  unfold openAgree at h
  split at h
  · rename_i s P hs hP
    simp only [Bool.and_eq_true, List.isEmpty_iff, List.all_eq_true, Bool.not_eq_true'] at h
    obtain ⟨⟨⟨⟨⟨h1, h2⟩, h3⟩, h4⟩, h5⟩, h6⟩ := h
    exact ⟨s, P, structOf_some.1 hs, hP, agree_of_check h1, h2, h3, h4, h5, fun k t ht => h6 _ ht⟩
  · cases h

end Verif.Meta
