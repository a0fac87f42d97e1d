import Verif.Lemmas.Meta31Facts

/-! When the schemas of the meta-schema of 3.1 accept an object. -/

namespace Verif.Meta31
open Codec Spec

variable {env : String → Sem}

theorem ok_type {ts : List String} {v : Any} : (sem env (.type ts)).ok v ↔ ∃ t ∈ ts, TypeIs t v := by
  simp only [sem, Sem.test]

theorem ok_requires {ks : List String} {ms : List (String × Any)} :
    (sem env (.required ks)).ok (.obj ms) ↔ ∀ k ∈ ks, ∃ x, (k, x) ∈ ms := by
  simp only [sem, Sem.test]
  constructor
  · intro h; exact h ms rfl
  · intro h ms' e; cases e; exact h

theorem ok_enum {vs : List Const} {v : Any} : (sem env (.enum vs)).ok v ↔ ∃ c ∈ vs, v = c.json := by
  simp only [sem, Sem.test]

theorem ok_note {t : String} {v : Any} : (sem env (.note t)).ok v := by
  simp only [sem, Sem.test]

theorem ok_refEq {n : String} : sem env (.ref n) = env n := by simp only [sem]

theorem ok_ite {c t e : Sch} {v : Any} : (sem env (.ite c t e)).ok v ↔
    ((sem env c).ok v → (sem env t).ok v) ∧ (¬(sem env c).ok v → (sem env e).ok v) := by
  simp only [sem]

theorem ok_items {s : Sch} {xs : List Any} : (sem env (.items s)).ok (.arr xs) ↔ ∀ x ∈ xs, (sem env s).ok x := by
  simp only [sem, Sem.test]
  constructor
  · intro h; exact h xs rfl
  · intro h xs' e; cases e; exact h

theorem ok_minProps {n : Nat} {ms : List (String × Any)} : (sem env (.minProps n)).ok (.obj ms) ↔ n ≤ ms.length := by
  simp only [sem, Sem.test]
  constructor
  · intro h; exact h ms rfl
  · intro h ms' e; cases e; exact h

theorem ok_maxProps {n : Nat} {ms : List (String × Any)} : (sem env (.maxProps n)).ok (.obj ms) ↔ ms.length ≤ n := by
  simp only [sem, Sem.test]
  constructor
  · intro h; exact h ms rfl
  · intro h ms' e; cases e; exact h

theorem ok_propertyNames {s : Sch} {ms : List (String × Any)} :
    (sem env (.propertyNames s)).ok (.obj ms) ↔ ∀ k x, (k, x) ∈ ms → (sem env s).ok (.str k) := by
  simp only [sem, Sem.test, hasKey_obj_iff]
  exact ⟨fun h k x hx => h k ⟨x, hx⟩, fun h k ⟨x, hx⟩ => h k x hx⟩

theorem ok_pattern {p : StrPat} {s : String} : (sem env (.pattern p)).ok (.str s) ↔ p.Is s := by
  simp only [sem, Sem.test]
  constructor
  · intro h; exact h s rfl
  · intro h s' e; cases e; exact h

theorem ok_anyOf {ss : List Sch} {v : Any} : (sem env (.anyOf ss)).ok v ↔ ∃ s ∈ ss, (sem env s).ok v := by
  simp only [sem, semList_eq, exists_map]

theorem ok_dependent {ds : List (String × Sch)} {v : Any} :
    (sem env (.dependent ds)).ok v ↔ ∀ k t, (k, t) ∈ ds → HasKey v k → (sem env t).ok v := by
  simp only [sem, semProps_eq, mem_pairs]
  constructor
  · intro h k t ht; exact h k _ ⟨t, ht, rfl⟩
  · rintro h k _ ⟨t, ht, rfl⟩; exact h k t ht

theorem sees_dependent {ds : List (String × Sch)} {v : Any} {k : String} {d : String} {t : Sch} (hd : (d, t) ∈ ds)
    (h : HasKey v d) (hs : (sem env t).sees v k) : (sem env (.dependent ds)).sees v k := by
  simp only [sem, semProps_eq, mem_pairs]
  exact ⟨d, _, ⟨t, hd, rfl⟩, h, hs⟩

theorem sees_all {ks : List Sch} {v : Any} {k : String} {s : Sch} (hs : s ∈ ks) (h : (sem env s).sees v k) :
    (sem env (.all ks)).sees v k := by
  simp only [sem, semList_eq, Sem.both, exists_map]
  exact ⟨s, hs, h⟩

theorem sees_allOf {ks : List Sch} {v : Any} {k : String} {s : Sch} (hs : s ∈ ks) (h : (sem env s).sees v k) :
    (sem env (.allOf ks)).sees v k := by
  simp only [sem, semList_eq, Sem.both, exists_map]
  exact ⟨s, hs, h⟩

/-- Exactly one of two. -/
theorem ok_oneOf2 {a b : Sch} {v : Any} (h : ((sem env a).ok v ∧ ¬(sem env b).ok v) ∨ (¬(sem env a).ok v ∧ (sem env b).ok v)) :
    (sem env (.oneOf [a, b])).ok v := by
  simp only [sem, semList_eq, List.map_cons, List.map_nil, OneOf]
  rcases h with ⟨h1, h2⟩ | ⟨h1, h2⟩
  · refine ⟨0, ⟨_, rfl, h1⟩, ?_⟩
    intro j p hj hp
    match j with
    | 0 => rfl
    | 1 => cases hj; exact absurd hp h2
    | j + 2 => cases hj
  · refine ⟨1, ⟨_, rfl, h2⟩, ?_⟩
    intro j p hj hp
    match j with
    | 0 => cases hj; exact absurd hp h1
    | 1 => rfl
    | j + 2 => cases hj

theorem ok_obj_type {ms : List (String × Any)} : (sem env (.type ["object"])).ok (.obj ms) :=
  ok_type.2 ⟨"object", by simp, rfl⟩

theorem ok_string {ks : List Sch} {s : String} (h : ∀ t ∈ ks, (sem env t).ok (.str s)) :
    (sem env (.all (.type ["string"] :: ks))).ok (.str s) := by
  rw [ok_all, List.forall_mem_cons]
  exact ⟨ok_type.2 ⟨"string", by simp, rfl⟩, h⟩

theorem ok_str {s : String} : (sem env (.all [.type ["string"]])).ok (.str s) := ok_string (by simp)

theorem ok_bool {b : Bool} {n : String} : (sem env (.all [.type ["boolean"], .note n])).ok (.bool b) := by
  rw [ok_all]
  simp only [List.mem_cons, List.not_mem_nil, or_false, forall_eq_or_imp, forall_eq]
  exact ⟨ok_type.2 ⟨"boolean", by simp, rfl⟩, ok_note⟩

theorem ok_array {s : Sch} {xs : List Any} (h : ∀ x ∈ xs, (sem env s).ok x) :
    (sem env (.all [.type ["array"], .items s])).ok (.arr xs) := by
  rw [ok_all]
  simp only [List.mem_cons, List.not_mem_nil, or_false, forall_eq_or_imp, forall_eq]
  exact ⟨ok_type.2 ⟨"array", by simp, rfl⟩, ok_items.2 h⟩

theorem ok_addl {s : Sch} {ms : List (String × Any)} :
    (sem env (.object [] [] (some s))).ok (.obj ms) ↔ ∀ k x, (k, x) ∈ ms → (sem env s).ok x := by
  rw [ok_object]
  constructor
  · intro h k x hx
    exact (h k x hx).2.2 (by simp) (by simp) s rfl
  · intro h k x hx
    refine ⟨by simp, by simp, ?_⟩
    intro _ _ t e
    cases e
    exact h k x hx

theorem ok_mapOf {s : Sch} {ms : List (String × Any)} (h : ∀ k x, (k, x) ∈ ms → (sem env s).ok x) :
    (sem env (.all [.type ["object"], .object [] [] (some s)])).ok (.obj ms) := by
  rw [ok_all]
  simp only [List.mem_cons, List.not_mem_nil, or_false, forall_eq_or_imp, forall_eq]
  exact ⟨ok_obj_type, ok_addl.2 h⟩

variable (hE : Meaning defs31 env)
include hE

theorem def31 {n : String} {s : Sch} (h : GoMap.get? defs31 n = some s) : env n = sem env s := def_of hE h

theorem ext_eq : env "specification-extensions" = sem env mSpecificationExtensions := def_of hE (by kernel_rfl)

theorem ext_ok {v : Any} : (sem env (.ref "specification-extensions")).ok v := by
  rw [ok_refEq, ext_eq hE, mSpecificationExtensions, ok_all]
  intro s hs
  cases List.mem_singleton.1 hs
  cases v with
  | obj ms =>
    rw [ok_object]
    intro k x _
    refine ⟨by simp, ?_, by simp⟩
    intro r t h _
    simp only [List.mem_cons, Prod.mk.injEq, List.not_mem_nil, or_false] at h
    rw [h.2, ok_all]
    simp
  | _ => simp only [sem, ObjectIs]; intro ms e; cases e

theorem ext_sees {v : Any} {k : String} (h : IsExtension k) : (sem env (.ref "specification-extensions")).sees v k := by
  rw [ok_refEq, ext_eq hE, mSpecificationExtensions]
  exact sees_all (s := .object [] [(.x, .all [])] none) (by simp)
    (sees_object.2 (.inr (.inl ⟨.x, .all [], by simp, h⟩)))

omit hE in
/-- No fixed property is an extension, and each occurs once. -/
def propsCheck (props : List (String × Sch)) : Bool :=
  props.all (fun p => !Pat.x.matches p.1) && decide (props.map Prod.fst).Nodup

/-- A member as the properties say, or an extension. -/
def Member (env : String → Sem) (props : List (String × Sch)) (k : String) (x : Any) : Prop :=
  (∃ t, (k, t) ∈ props ∧ (sem env t).ok x) ∨ IsExtension k

omit hE in
theorem at_key {props : List (String × Sch)} {k : String} {t : Sch} {x : Any} (hm : (k, t) ∈ props)
    (h : (sem env t).ok x) : Member env props k x := .inl ⟨t, hm, h⟩

omit hE in
theorem okRef {n : String} {x : Any} (h : (env n).ok x) : (sem env (.ref n)).ok x := by rw [ok_refEq]; exact h

omit hE in
theorem unique {V : Type} {m : List (String × V)} (hn : (m.map Prod.fst).Nodup) {k : String} {a b : V}
    (ha : (k, a) ∈ m) (hb : (k, b) ∈ m) : b = a := by
  have h1 := GoMap.get?_of_mem hn ha
  have h2 := GoMap.get?_of_mem hn hb
  rw [h1] at h2
  cases h2
  rfl

omit hE in
theorem member_object {props : List (String × Sch)} {M : List (String × Any)} (hc : propsCheck props = true)
    (hM : ∀ k x t, (k, x) ∈ M → (k, t) ∈ props → Member env props k x) : (sem env (.object props [] none)).ok (.obj M) := by
  simp only [propsCheck, Bool.and_eq_true, List.all_eq_true, decide_eq_true_eq, Bool.not_eq_true'] at hc
  rw [ok_object]
  intro k x hx
  refine ⟨?_, by simp, by simp⟩
  intro t ht
  rcases hM k x t hx ht with ⟨t', h1, h2⟩ | h
  · rw [unique hc.2 h1 ht]; exact h2
  · have := hc.1 _ ht
    rw [x_matches.2 h] at this
    cases this

omit hE in
/-- An object with fixed properties and extensions. -/
theorem closed_ok {props : List (String × Sch)} {ks : List Sch} {M : List (String × Any)} (hc : propsCheck props = true)
    (hM : ∀ k x, (k, x) ∈ M → Member env props k x) (hk : ∀ s ∈ ks, (sem env s).ok (.obj M))
    (hx : ∀ k, IsExtension k → ∃ s ∈ ks, (sem env s).sees (.obj M) k) :
    (sem env (.closed (.type ["object"] :: .object props [] none :: ks))).ok (.obj M) := by
  rw [ok_closed]
  constructor
  · simp only [List.mem_cons]
    rintro s (rfl | rfl | hs)
    · exact ok_obj_type
    · exact member_object hc fun k x _ h _ => hM k x h
    · exact hk s hs
  · intro k hk
    obtain ⟨x, hx'⟩ := hasKey_obj_iff.1 hk
    rcases hM k x hx' with ⟨t, h1, h2⟩ | h
    · exact ⟨.object props [] none, by simp, sees_object.2 (.inl ⟨t, h1⟩)⟩
    · obtain ⟨s, hs, h⟩ := hx k h
      exact ⟨s, by simp [hs], h⟩

omit hE in
theorem no_key {props : List (String × Sch)} {M : List (String × Any)} (hM : ∀ k x, (k, x) ∈ M → Member env props k x)
    {k : String} (h : (props.map Prod.fst).contains k = false) (hx : Pat.x.matches k = false) : ¬HasKey (.obj M) k := by
  intro hk
  obtain ⟨x, hm⟩ := hasKey_obj_iff.1 hk
  rcases hM k x hm with ⟨t, h1, _⟩ | h1
  · rw [List.contains_iff_mem.2 (List.mem_map.2 ⟨_, h1, rfl⟩)] at h; cases h
  · rw [x_matches.2 h1] at hx; cases hx

omit hE in
/-- A reference or a value. -/
theorem orRef_ok {n : String} {M : List (String × Any)} (h1 : HasKey (.obj M) "$ref" → (env "reference").ok (.obj M))
    (h2 : ¬HasKey (.obj M) "$ref" → (env n).ok (.obj M)) :
    (sem env (.all [.ite (.all [.type ["object"], .required ["$ref"]]) (.ref "reference") (.ref n)])).ok (.obj M) := by
  have hcond : (sem env (.all [.type ["object"], .required ["$ref"]])).ok (.obj M) ↔ HasKey (.obj M) "$ref" := by
    rw [ok_all]
    simp only [List.mem_cons, List.not_mem_nil, or_false, forall_eq_or_imp, forall_eq, ok_requires, hasKey_obj_iff]
    exact ⟨fun h => h.2, fun h => ⟨ok_obj_type, h⟩⟩
  rw [ok_all]
  intro s hs
  cases List.mem_singleton.1 hs
  rw [ok_ite, hcond, ok_refEq, ok_refEq]
  exact ⟨h1, h2⟩

theorem schema_ok {M : List (String × Any)} : (env "schema").ok (.obj M) := by
  rw [def31 hE (s := mSchema) (by kernel_rfl), mSchema, ok_all]
  intro s hs
  cases List.mem_singleton.1 hs
  exact ok_type.2 ⟨"object", by simp, rfl⟩

end Verif.Meta31
