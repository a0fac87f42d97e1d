import Verif.Lemmas.Meta31Meaning
import Verif.Lemmas.MetaComplete30

/-! What follows from the meta-schema of 3.1 for the members of an object. -/

namespace Verif.Meta31
open Codec Spec

variable {defs : Defs} {env : String → Sem}

theorem def_of (hE : Meaning defs env) {n : String} {s : Sch} (h : GoMap.get? defs n = some s) : env n = sem env s :=
  hE n s (get?_mem h)

theorem hasKey_obj_iff {ms : List (String × Any)} {k : String} : HasKey (.obj ms) k ↔ ∃ x, (k, x) ∈ ms := by
  constructor
  · rintro ⟨ms', x, e, hx⟩
    cases e
    exact ⟨x, hx⟩
  · rintro ⟨x, hx⟩
    exact ⟨ms, x, rfl, hx⟩

theorem ok_all {ks : List Sch} {v : Any} : (sem env (.all ks)).ok v ↔ ∀ s ∈ ks, (sem env s).ok v := by
  simp only [sem, semList_eq, Sem.both, forall_map]

theorem ok_allOf {ks : List Sch} {v : Any} : (sem env (.allOf ks)).ok v ↔ ∀ s ∈ ks, (sem env s).ok v := by
  simp only [sem, semList_eq, Sem.both, forall_map]

theorem ok_closed {ks : List Sch} {v : Any} : (sem env (.closed ks)).ok v ↔
    (∀ s ∈ ks, (sem env s).ok v) ∧ ∀ k, HasKey v k → ∃ s ∈ ks, (sem env s).sees v k := by
  simp only [sem, semList_eq, forall_map, exists_map]

theorem ok_object {ps : List (String × Sch)} {qs : List (KeyPat × Sch)} {a : Option Sch} {ms : List (String × Any)} :
    (sem env (.object ps qs a)).ok (.obj ms) ↔ ∀ k x, (k, x) ∈ ms → (∀ t, (k, t) ∈ ps → (sem env t).ok x) ∧
      (∀ r t, (r, t) ∈ qs → r.Is k → (sem env t).ok x) ∧
      ((∀ t, (k, t) ∉ ps) → (∀ r t, (r, t) ∈ qs → ¬r.Is k) → ∀ t, a = some t → (sem env t).ok x) := by
  simp only [sem, semProps_eq, semPats_eq, semOpt_eq, ObjectIs, mem_pairs, Option.map_eq_some_iff]
  constructor
  · intro h k x hx
    obtain ⟨g1, g2, g3⟩ := h ms rfl k x hx
    refine ⟨fun t ht => g1 _ ⟨t, ht, rfl⟩, fun r t ht => g2 r _ ⟨t, ht, rfl⟩, fun n1 n2 t ht => g3 ?_ ?_ _ ⟨t, ht, rfl⟩⟩
    · rintro p ⟨t, ht, _⟩
      exact n1 t ht
    · rintro r p ⟨t, ht, _⟩
      exact n2 r t ht
  · intro h ms' e k x hx
    cases e
    obtain ⟨g1, g2, g3⟩ := h k x hx
    refine ⟨?_, ?_, ?_⟩
    · rintro _ ⟨t, ht, rfl⟩
      exact g1 t ht
    · rintro r _ ⟨t, ht, rfl⟩
      exact g2 r t ht
    · rintro n1 n2 _ ⟨t, ht, rfl⟩
      exact g3 (fun t ht => n1 _ ⟨t, ht, rfl⟩) (fun r t ht => n2 r _ ⟨t, ht, rfl⟩) t ht

theorem sees_object {ps : List (String × Sch)} {qs : List (KeyPat × Sch)} {a : Option Sch} {v : Any} {k : String} :
    (sem env (.object ps qs a)).sees v k ↔ (∃ t, (k, t) ∈ ps) ∨ (∃ r t, (r, t) ∈ qs ∧ r.Is k) ∨ a ≠ none := by
  simp only [sem, semProps_eq, semPats_eq, semOpt_eq, ObjectSees, mem_pairs, Option.map_eq_some_iff]
  refine or_congr ?_ (or_congr ?_ ?_)
  · constructor
    · rintro ⟨_, t, ht, _⟩; exact ⟨t, ht⟩
    · rintro ⟨t, ht⟩; exact ⟨_, t, ht, rfl⟩
  · constructor
    · rintro ⟨r, _, ⟨t, ht, _⟩, hr⟩; exact ⟨r, t, ht, hr⟩
    · rintro ⟨r, t, ht, hr⟩; exact ⟨r, _, ⟨t, ht, rfl⟩, hr⟩
  · constructor
    · rintro ⟨_, t, rfl, _⟩; simp
    · intro h
      obtain ⟨t, rfl⟩ := Option.ne_none_iff_exists'.1 h
      exact ⟨_, t, rfl, rfl⟩

/-- The key matches. -/
def KeyPat.has : KeyPat → String → Bool
  | .x, k => Pat.x.matches k
  | .slash, k => Pat.slash.matches k
  | .status, k => Pat.status.matches k
  | .component, k => ["schemas", "responses", "parameters", "examples", "requestBodies", "headers", "securitySchemes",
      "links", "callbacks", "pathItems"].contains k

theorem has_iff {p : KeyPat} {k : String} : p.has k = true ↔ p.Is k := by
  cases p with
  | x => exact x_matches
  | slash => exact slash_matches
  | status => exact status_matches
  | component => simp only [KeyPat.has, KeyPat.Is, List.contains_iff_mem]

/-! ## Members that a schema speaks about -/

/-- Whatever the value, a member with the key is as one of the schemas `q` says. -/
def surely (defs : Defs) (q : Sch → Bool) (k : String) : Nat → Sch → Bool
  | 0, _ => false
  | r + 1, .all ks => ks.any (surely defs q k r)
  | r + 1, .closed ks => ks.any (surely defs q k r)
  | r + 1, .allOf ks => ks.any (surely defs q k r)
  | _ + 1, .object ps _ _ => ps.any (fun p => p.1 == k && q p.2)
  | r + 1, .ref n => match GoMap.get? defs n with
    | some s => surely defs q k r s
    | none => false
  | _ + 1, _ => false

theorem surely_sound (hE : Meaning defs env) {q : Sch → Bool} {k : String} {ms : List (String × Any)} {x : Any}
    (hx : (k, x) ∈ ms) : ∀ (r : Nat) (s : Sch), surely defs q k r s = true → (sem env s).ok (.obj ms) →
    ∃ t, q t = true ∧ (sem env t).ok x := by
  intro r
  induction r with
  | zero => intro s h; cases h
  | succ r ih =>
    intro s h hok
    cases s with
    | all ks =>
      simp only [surely, List.any_eq_true] at h
      obtain ⟨s, hs, h⟩ := h
      exact ih s h (ok_all.1 hok s hs)
    | allOf ks =>
      simp only [surely, List.any_eq_true] at h
      obtain ⟨s, hs, h⟩ := h
      exact ih s h (ok_allOf.1 hok s hs)
    | closed ks =>
      simp only [surely, List.any_eq_true] at h
      obtain ⟨s, hs, h⟩ := h
      exact ih s h ((ok_closed.1 hok).1 s hs)
    | object ps qs a =>
      simp only [surely, List.any_eq_true, Bool.and_eq_true, beq_iff_eq] at h
      obtain ⟨⟨k', t⟩, hp, rfl, hq⟩ := h
      exact ⟨t, hq, (ok_object.1 hok _ x hx).1 t hp⟩
    | ref n =>
      simp only [surely] at h
      split at h
      · rename_i s hs
        simp only [sem] at hok
        rw [def_of hE hs] at hok
        exact ih s h hok
      · cases h
    | _ => simp [surely] at h

/-- A member with the key that the schema evaluates is as one of the schemas `q` says. -/
def forces (defs : Defs) (q : Sch → Bool) (k : String) : Nat → Sch → Bool
  | 0, _ => false
  | r + 1, .all ks => ks.any (surely defs q k r) || ks.all (forces defs q k r)
  | r + 1, .allOf ks => ks.any (surely defs q k r) || ks.all (forces defs q k r)
  | _ + 1, .closed _ => false
  | r + 1, .oneOf ks => ks.all (forces defs q k r)
  | r + 1, .anyOf ks => ks.all (forces defs q k r)
  | r + 1, .ite c t e => (surely defs q k r c || surely defs q k r t || (forces defs q k r c && forces defs q k r t)) &&
      (surely defs q k r e || forces defs q k r e)
  | r + 1, .dependent ds => ds.all (fun p => forces defs q k r p.2)
  | _ + 1, .object ps qs a => ps.any (fun p => p.1 == k && q p.2) ||
      (ps.all (fun p => p.1 != k) && qs.all (fun p => !p.1.has k) && a.isNone)
  | r + 1, .ref n => match GoMap.get? defs n with
    | some s => forces defs q k r s
    | none => false
  | _ + 1, _ => true

theorem forces_sound (hE : Meaning defs env) {q : Sch → Bool} {k : String} {ms : List (String × Any)} {x : Any}
    (hx : (k, x) ∈ ms) : ∀ (r : Nat) (s : Sch), forces defs q k r s = true → (sem env s).ok (.obj ms) →
    (sem env s).sees (.obj ms) k → ∃ t, q t = true ∧ (sem env t).ok x := by
  intro r
  induction r with
  | zero => intro s h; cases h
  | succ r ih =>
    intro s h hok hsee
    cases s with
    | all ks =>
      simp only [forces, Bool.or_eq_true, List.any_eq_true, List.all_eq_true] at h
      rw [ok_all] at hok
      simp only [sem, semList_eq, Sem.both, exists_map] at hsee
      rcases h with ⟨s, hs, h⟩ | h
      · exact surely_sound hE hx r s h (hok s hs)
      · obtain ⟨s, hs, hss⟩ := hsee
        exact ih s (h s hs) (hok s hs) hss
    | allOf ks =>
      simp only [forces, Bool.or_eq_true, List.any_eq_true, List.all_eq_true] at h
      rw [ok_allOf] at hok
      simp only [sem, semList_eq, Sem.both, exists_map] at hsee
      rcases h with ⟨s, hs, h⟩ | h
      · exact surely_sound hE hx r s h (hok s hs)
      · obtain ⟨s, hs, hss⟩ := hsee
        exact ih s (h s hs) (hok s hs) hss
    | closed ks => cases h
    | oneOf ks =>
      simp only [forces, List.all_eq_true] at h
      simp only [sem, semList_eq, exists_map] at hsee
      obtain ⟨s, hs, h1, h2⟩ := hsee
      exact ih s (h s hs) h1 h2
    | anyOf ks =>
      simp only [forces, List.all_eq_true] at h
      simp only [sem, semList_eq, exists_map] at hsee
      obtain ⟨s, hs, h1, h2⟩ := hsee
      exact ih s (h s hs) h1 h2
    | ite c t e =>
      simp only [forces, Bool.and_eq_true, Bool.or_eq_true] at h
      simp only [sem] at hok hsee
      rcases hsee with ⟨hc, hs⟩ | ⟨hc, hs⟩
      · rcases h.1 with (h | h) | h
        · exact surely_sound hE hx r c h hc
        · exact surely_sound hE hx r t h (hok.1 hc)
        · rcases hs with hs | hs
          · exact ih c h.1 hc hs
          · exact ih t h.2 (hok.1 hc) hs
      · rcases h.2 with h | h
        · exact surely_sound hE hx r e h (hok.2 hc)
        · exact ih e h (hok.2 hc) hs
    | dependent ds =>
      simp only [forces, List.all_eq_true] at h
      simp only [sem, semProps_eq, mem_pairs] at hok hsee
      obtain ⟨k', _, ⟨t, ht, rfl⟩, hk, hs⟩ := hsee
      exact ih t (h _ ht) (hok k' _ ⟨t, ht, rfl⟩ hk) hs
    | object ps qs a =>
      simp only [forces, Bool.or_eq_true, List.any_eq_true, Bool.and_eq_true, beq_iff_eq, List.all_eq_true, bne_iff_ne,
        Bool.not_eq_true', Option.isNone_iff_eq_none] at h
      rcases h with ⟨⟨k', t⟩, hp, rfl, hq⟩ | ⟨⟨h1, h2⟩, h3⟩
      · exact ⟨t, hq, (ok_object.1 hok _ x hx).1 t hp⟩
      · exfalso
        rcases sees_object.1 hsee with ⟨t, ht⟩ | ⟨p, t, ht, hp⟩ | ha
        · exact h1 _ ht rfl
        · have := h2 _ ht
          rw [has_iff.2 hp] at this
          cases this
        · exact ha h3
    | ref n =>
      simp only [forces] at h
      split at h
      · rename_i s hs
        simp only [sem] at hok hsee
        rw [def_of hE hs] at hok hsee
        exact ih s h hok hsee
      · cases h
    | _ => exact hsee.elim

/-- The members of an object that a closed schema accepts. -/
theorem closed_forces (hE : Meaning defs env) {q : Sch → Bool} {ks : List Sch} {ms : List (String × Any)} {k : String} {x : Any}
    {r : Nat} (h : forces defs q k r (.all ks) = true) (hok : (sem env (.closed ks)).ok (.obj ms)) (hx : (k, x) ∈ ms) :
    ∃ t, q t = true ∧ (sem env t).ok x := by
  obtain ⟨h1, h2⟩ := ok_closed.1 hok
  refine forces_sound hE hx r (.all ks) h (ok_all.2 h1) ?_
  simp only [sem, semList_eq, Sem.both, exists_map]
  exact h2 k ⟨ms, x, rfl, hx⟩

/-- The pattern speaks about the keys that match it. -/
def patFact (q : Sch → Bool) (p : KeyPat) (ks : List Sch) : Bool :=
  ks.any fun
    | .object _ qs _ => qs.any (fun c => c.1 == p && q c.2)
    | _ => false

theorem patFact_sound {q : Sch → Bool} {p : KeyPat} {ks : List Sch} (h : patFact q p ks = true) {ms : List (String × Any)}
    (hok : ∀ s ∈ ks, (sem env s).ok (.obj ms)) {k : String} {x : Any} (hx : (k, x) ∈ ms) (hp : p.Is k) :
    ∃ t, q t = true ∧ (sem env t).ok x := by
  simp only [patFact, List.any_eq_true] at h
  obtain ⟨s, hs, h⟩ := h
  split at h
  · rename_i ps qs a
    simp only [List.any_eq_true, Bool.and_eq_true, beq_iff_eq] at h
    obtain ⟨⟨p', t⟩, hm, rfl, hq⟩ := h
    exact ⟨t, hq, (ok_object.1 (hok _ hs) k x hx).2.1 _ t hm hp⟩
  · cases h

/-! ## Keys -/

/-- The keys and the patterns for keys that a schema may evaluate. -/
def keysOf (defs : Defs) : Nat → Sch → Option (List String × List KeyPat)
  | 0, _ => none
  | r + 1, .all ks => (mapAll (keysOf defs r) ks).map fun l => (l.flatMap (·.1), l.flatMap (·.2))
  | r + 1, .allOf ks => (mapAll (keysOf defs r) ks).map fun l => (l.flatMap (·.1), l.flatMap (·.2))
  | r + 1, .oneOf ks => (mapAll (keysOf defs r) ks).map fun l => (l.flatMap (·.1), l.flatMap (·.2))
  | r + 1, .anyOf ks => (mapAll (keysOf defs r) ks).map fun l => (l.flatMap (·.1), l.flatMap (·.2))
  | _ + 1, .closed _ => none
  | r + 1, .ite c t e => (mapAll (keysOf defs r) [c, t, e]).map fun l => (l.flatMap (·.1), l.flatMap (·.2))
  | r + 1, .dependent ds => (mapAll (fun p => keysOf defs r p.2) ds).map fun l => (l.flatMap (·.1), l.flatMap (·.2))
  | _ + 1, .object ps qs a => if a.isNone then some (ps.map Prod.fst, qs.map Prod.fst) else none
  | r + 1, .ref n => match GoMap.get? defs n with
    | some s => keysOf defs r s
    | none => none
  | _ + 1, _ => some ([], [])

theorem mapAll_of_mem {α β : Type} {f : α → Option β} {l : List α} {ys : List β} (h : mapAll f l = some ys) {a : α}
    (ha : a ∈ l) : ∃ y ∈ ys, f a = some y := by
  induction l generalizing ys with
  | nil => cases ha
  | cons b l ih =>
    simp only [mapAll] at h
    cases hb : f b with
    | none => simp [hb] at h
    | some y =>
      cases hl : mapAll f l with
      | none => simp [hb, hl] at h
      | some zs =>
        simp only [hb, hl, Option.some.injEq] at h
        subst h
        rcases List.mem_cons.1 ha with rfl | ha
        · exact ⟨y, List.mem_cons_self, hb⟩
        · obtain ⟨z, hz, e⟩ := ih hl ha
          exact ⟨z, List.mem_cons_of_mem _ hz, e⟩

/-- The key is one of these. -/
def Among (k : String) (l : List String × List KeyPat) : Prop := k ∈ l.1 ∨ ∃ p ∈ l.2, p.Is k

theorem keysOf_sound (hE : Meaning defs env) {k : String} {v : Any} : ∀ (r : Nat) (s : Sch) (l : List String × List KeyPat),
    keysOf defs r s = some l → (sem env s).sees v k → Among k l := by
  intro r
  induction r with
  | zero => intro s l h; cases h
  | succ r ih =>
    intro s l h hsee
    have lists : ∀ {α : Type} {f : α → Option (List String × List KeyPat)} {ks : List α} {a : α}, a ∈ ks →
        ((mapAll f ks).map fun l => (l.flatMap (·.1), l.flatMap (·.2))) = some l → (∀ l', f a = some l' → Among k l') →
        Among k l := by
      intro α f ks a ha h hl
      rw [Option.map_eq_some_iff] at h
      obtain ⟨ys, hys, rfl⟩ := h
      obtain ⟨y, hy, e⟩ := mapAll_of_mem hys ha
      rcases hl y e with h | ⟨p, hp, h⟩
      · exact .inl (List.mem_flatMap.2 ⟨y, hy, h⟩)
      · exact .inr ⟨p, List.mem_flatMap.2 ⟨y, hy, hp⟩, h⟩
    cases s with
    | all ks =>
      simp only [sem, semList_eq, Sem.both, exists_map] at hsee
      obtain ⟨s, hs, hss⟩ := hsee
      exact lists hs h fun l' e => ih s l' e hss
    | allOf ks =>
      simp only [sem, semList_eq, Sem.both, exists_map] at hsee
      obtain ⟨s, hs, hss⟩ := hsee
      exact lists hs h fun l' e => ih s l' e hss
    | closed ks => cases h
    | oneOf ks =>
      simp only [sem, semList_eq, exists_map] at hsee
      obtain ⟨s, hs, _, hss⟩ := hsee
      exact lists hs h fun l' e => ih s l' e hss
    | anyOf ks =>
      simp only [sem, semList_eq, exists_map] at hsee
      obtain ⟨s, hs, _, hss⟩ := hsee
      exact lists hs h fun l' e => ih s l' e hss
    | ite c t e =>
      simp only [sem] at hsee
      rcases hsee with ⟨_, hs | hs⟩ | ⟨_, hs⟩
      · exact lists (a := c) (by simp) h fun l' e => ih _ l' e hs
      · exact lists (a := t) (by simp) h fun l' e => ih _ l' e hs
      · exact lists (a := e) (by simp) h fun l' e => ih _ l' e hs
    | dependent ds =>
      simp only [sem, semProps_eq, mem_pairs] at hsee
      obtain ⟨k', _, ⟨t, ht, rfl⟩, _, hs⟩ := hsee
      exact lists ht h fun l' e => ih t l' e hs
    | object ps qs a =>
      simp only [keysOf] at h
      split at h
      · rename_i ha
        cases h
        rcases sees_object.1 hsee with ⟨t, ht⟩ | ⟨p, t, ht, hp⟩ | hn
        · exact .inl (List.mem_map.2 ⟨_, ht, rfl⟩)
        · exact .inr ⟨p, List.mem_map.2 ⟨_, ht, rfl⟩, hp⟩
        · exact absurd (Option.isNone_iff_eq_none.1 ha) hn
      · cases h
    | ref n =>
      simp only [keysOf] at h
      split at h
      · rename_i s hs
        simp only [sem] at hsee
        rw [def_of hE hs] at hsee
        exact ih s l h hsee
      · cases h
    | _ => exact hsee.elim

theorem closed_keys (hE : Meaning defs env) {ks : List Sch} {ms : List (String × Any)} {r : Nat}
    {l : List String × List KeyPat} (h : keysOf defs r (.all ks) = some l) (hok : (sem env (.closed ks)).ok (.obj ms))
    {k : String} (hk : k ∈ ms.map Prod.fst) : Among k l := by
  obtain ⟨⟨k, x⟩, hx, rfl⟩ := List.mem_map.1 hk
  refine keysOf_sound hE r (.all ks) l h (v := .obj ms) ?_
  simp only [sem, semList_eq, Sem.both, exists_map]
  exact (ok_closed.1 hok).2 k ⟨ms, x, rfl, hx⟩

/-- The schema requires the key. -/
def requires (k : String) (ks : List Sch) : Bool :=
  ks.any fun
    | .required l => l.contains k
    | _ => false

theorem requires_sound {k : String} {ks : List Sch} (h : requires k ks = true) {ms : List (String × Any)}
    (hok : ∀ s ∈ ks, (sem env s).ok (.obj ms)) : k ∈ ms.map Prod.fst := by
  simp only [requires, List.any_eq_true] at h
  obtain ⟨s, hs, h⟩ := h
  split at h
  · rename_i l
    have := hok _ hs
    simp only [sem, Sem.test] at this
    obtain ⟨x, hx⟩ := this ms rfl k (List.contains_iff_mem.1 h)
    exact List.mem_map.2 ⟨_, hx, rfl⟩
  · cases h

theorem ok_object_of {v : Any} (h : (sem env (.type ["object"])).ok v) : ∃ ms, v = .obj ms := by
  simp only [sem, Sem.test, List.mem_cons, List.not_mem_nil, or_false, exists_eq_left] at h
  cases v <;> simp [TypeIs] at h
  exact ⟨_, rfl⟩

end Verif.Meta31
