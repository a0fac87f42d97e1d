import Verif.Lemmas.Meta31Facts
import Verif.Lemmas.Accepts

/-! An evaluator for schemas, to check concrete values. -/

namespace Verif.Meta31
open Codec Spec

variable {defs : Defs} {env : String → Sem}

/-! ## Strings -/

def digitB (c : Char) : Bool := decide ('0' ≤ c) && decide (c ≤ '9')

theorem digitB_iff {c : Char} : digitB c = true ↔ IsDigit c := by
  simp [digitB, IsDigit]

def nameB (c : Char) : Bool :=
  (decide ('a' ≤ c) && decide (c ≤ 'z')) || (decide ('A' ≤ c) && decide (c ≤ 'Z')) || digitB c ||
    ['.', '_', '-'].contains c

theorem nameB_iff {c : Char} : nameB c = true ↔ IsNameChar c := by
  simp only [nameB, IsNameChar, Bool.or_eq_true, Bool.and_eq_true, decide_eq_true_eq, digitB_iff, List.contains_iff_mem,
    or_assoc]

def suffixB : List Char → Bool
  | [] => true
  | '-' :: t => t != [] && t.all (fun c => !lineEnds.contains c)
  | _ => false

def versionB : List Char → Bool
  | '3' :: '.' :: '1' :: '.' :: l => l.takeWhile digitB != [] && suffixB (l.dropWhile digitB)
  | _ => false

theorem suffixB_iff {l : List Char} : suffixB l = true ↔
    l = [] ∨ ∃ text, l = '-' :: text ∧ text ≠ [] ∧ ∀ c ∈ text, c ∉ lineEnds := by
  unfold suffixB
  split
  · simp
  · rename_i t
    simp only [Bool.and_eq_true, bne_iff_ne, ne_eq, List.all_eq_true, Bool.not_eq_true', reduceCtorEq, false_or,
      List.cons.injEq, true_and]
    constructor
    · rintro ⟨h1, h2⟩
      refine ⟨t, rfl, h1, fun c hc hm => ?_⟩
      have := h2 c hc
      rw [List.contains_iff_mem.2 hm] at this
      cases this
    · rintro ⟨t', rfl, h1, h2⟩
      refine ⟨h1, fun c hc => ?_⟩
      cases h : lineEnds.contains c with
      | false => rfl
      | true => exact absurd (List.contains_iff_mem.1 h) (h2 c hc)
  · rename_i h1 h2
    constructor
    · intro h; cases h
    · rintro (rfl | ⟨t, rfl, _⟩)
      · exact absurd rfl h1
      · exact absurd rfl (h2 t)

theorem mem_takeWhile {p : Char → Bool} {l : List Char} {c : Char} (h : c ∈ l.takeWhile p) : p c = true := by
  induction l with
  | nil => cases h
  | cons a l ih =>
    rw [List.takeWhile_cons] at h
    split at h
    · rename_i ha
      rcases List.mem_cons.1 h with rfl | h
      · exact ha
      · exact ih h
    · cases h

theorem versionB_iff {s : String} : versionB s.toList = true ↔ StrPat.version.Is s := by
  simp only [StrPat.Is]
  generalize s.toList = l
  constructor
  · intro h
    unfold versionB at h
    split at h
    · rename_i l
      simp only [Bool.and_eq_true, bne_iff_ne, ne_eq] at h
      refine ⟨l.takeWhile digitB, l.dropWhile digitB, ?_, h.1, ?_, suffixB_iff.1 h.2⟩
      · rw [List.append_assoc, List.takeWhile_append_dropWhile]
        rfl
      · intro c hc
        exact digitB_iff.1 (mem_takeWhile hc)
    · cases h
  · rintro ⟨ds, rest, rfl, h1, h2, h3⟩
    have hd : ∀ c ∈ ds, digitB c = true := fun c hc => digitB_iff.2 (h2 c hc)
    have hr : rest.takeWhile digitB = [] ∧ rest.dropWhile digitB = rest := by
      rcases h3 with rfl | ⟨t, rfl, _⟩
      · exact ⟨rfl, rfl⟩
      · exact ⟨rfl, rfl⟩
    show versionB ('3' :: '.' :: '1' :: '.' :: ([] ++ ds ++ rest)) = true
    simp only [versionB, List.nil_append, Bool.and_eq_true, bne_iff_ne, ne_eq]
    rw [List.takeWhile_append_of_pos hd, List.dropWhile_append_of_pos hd, hr.1, hr.2, List.append_nil]
    exact ⟨h1, suffixB_iff.2 h3⟩

def bearerB : List Char → Bool
  | [b, e, a, r, e', r'] => ['B', 'b'].contains b && ['E', 'e'].contains e && ['A', 'a'].contains a &&
      ['R', 'r'].contains r && ['E', 'e'].contains e' && ['R', 'r'].contains r'
  | _ => false

def StrPat.has : StrPat → String → Bool
  | .version, s => versionB s.toList
  | .name, s => s.toList != [] && s.toList.all nameB
  | .plain, s => match s.toList.getLast? with
    | some c => !['/', '#', '?'].contains c
    | none => false
  | .bearer, s => bearerB s.toList

theorem strHas_iff {p : StrPat} {s : String} : p.has s = true ↔ p.Is s := by
  cases p with
  | version => exact versionB_iff
  | name =>
    simp only [StrPat.has, StrPat.Is, Bool.and_eq_true, bne_iff_ne, List.all_eq_true]
    exact and_congr Iff.rfl (forall_congr' fun c => imp_congr Iff.rfl nameB_iff)
  | plain =>
    simp only [StrPat.has, StrPat.Is]
    constructor
    · intro h
      split at h
      · rename_i c hc
        obtain ⟨l, hl⟩ := List.getLast?_eq_some_iff.1 hc
        refine ⟨l, c, hl, fun hm => ?_⟩
        rw [List.contains_iff_mem.2 hm] at h
        cases h
      · cases h
    · rintro ⟨l, c, hl, hc⟩
      rw [hl, List.getLast?_concat]
      simp only
      cases h : ['/', '#', '?'].contains c with
      | false => rfl
      | true => exact absurd (List.contains_iff_mem.1 h) hc
  | bearer =>
    simp only [StrPat.has, StrPat.Is]
    generalize s.toList = l
    constructor
    · intro h
      unfold bearerB at h
      split at h
      · rename_i b e a r e' r'
        simp only [Bool.and_eq_true, List.contains_iff_mem] at h
        exact ⟨b, e, a, r, e', r', rfl, h.1.1.1.1.1, h.1.1.1.1.2, h.1.1.1.2, h.1.1.2, h.1.2, h.2⟩
      · cases h
    · rintro ⟨b, e, a, r, e', r', rfl, h1, h2, h3, h4, h5, h6⟩
      simp only [bearerB, Bool.and_eq_true, List.contains_iff_mem]
      exact ⟨⟨⟨⟨⟨h1, h2⟩, h3⟩, h4⟩, h5⟩, h6⟩

/-! ## The evaluator -/

structure Res where
  ok : Bool
  sees : String → Bool

/-- The result is what the schema means. -/
def Res.Is (r : Res) (s : Sem) (v : Any) : Prop := (s.ok v ↔ r.ok = true) ∧ ∀ k, s.sees v k ↔ r.sees k = true

def typeB (t : String) : Any → Bool
  | .null => t == "null"
  | .bool _ => t == "boolean"
  | .num _ => t == "number"
  | .str _ => t == "string"
  | .arr _ => t == "array"
  | .obj _ => t == "object"

theorem typeB_iff {t : String} {v : Any} : typeB t v = true ↔ TypeIs t v := by
  cases v <;> simp [typeB, TypeIs]

/-- The members of an object. -/
def mems : Any → List (String × Any)
  | .obj ms => ms
  | _ => []

def els : Any → List Any
  | .arr xs => xs
  | _ => []

def Res.test (b : Bool) : Res := ⟨b, fun _ => false⟩

/-- A member with these results, known to `properties` or `patternProperties`. -/
def memberIs (known : Bool) (a b c : Option (List Res)) : Option Bool :=
  match a, b, c with
  | some a, some b, some c => some (a.all (·.ok) && b.all (·.ok) && (known || c.all (·.ok)))
  | _, _, _ => none

/-- Evaluation to a depth. -/
def eval (defs : Defs) : Nat → Sch → Any → Option Res
  | 0, _, _ => none
  | r + 1, .all ks, v => (mapAll (fun s => eval defs r s v) ks).map fun l => ⟨l.all (·.ok), fun k => l.any (·.sees k)⟩
  | r + 1, .closed ks, v => (mapAll (fun s => eval defs r s v) ks).map fun l =>
      ⟨l.all (·.ok) && (mems v).all (fun m => l.any (·.sees m.1)), fun _ => true⟩
  | _ + 1, .type ts, v => some (.test (ts.any (typeB · v)))
  | _ + 1, .enum vs, v => some (.test (vs.any (·.is v)))
  | _ + 1, .pattern p, v => some (.test (match v with
      | .str s => p.has s
      | _ => true))
  | _ + 1, .required ks, v => some (.test (match v with
      | .obj ms => ks.all (fun k => (ms.map Prod.fst).contains k)
      | _ => true))
  | r + 1, .object props pats addl, v =>
      (mapAll (fun m : String × Any => memberIs (props.any (·.1 == m.1) || pats.any (·.1.has m.1))
        (mapAll (fun p : String × Sch => eval defs r p.2 m.2) (props.filter (·.1 == m.1)))
        (mapAll (fun p : KeyPat × Sch => eval defs r p.2 m.2) (pats.filter (·.1.has m.1)))
        (mapAll (fun a => eval defs r a m.2) addl.toList)) (mems v)).map fun l =>
          ⟨l.all id, fun k => props.any (·.1 == k) || pats.any (·.1.has k) || addl.isSome⟩
  | r + 1, .propertyNames s, v => (mapAll (fun m : String × Any => eval defs r s (.str m.1)) (mems v)).map fun l =>
      .test (l.all (·.ok))
  | _ + 1, .minProps n, v => some (.test (match v with
      | .obj ms => decide (n ≤ ms.length)
      | _ => true))
  | _ + 1, .maxProps n, v => some (.test (match v with
      | .obj ms => decide (ms.length ≤ n)
      | _ => true))
  | r + 1, .items s, v => (mapAll (fun x => eval defs r s x) (els v)).map fun l => .test (l.all (·.ok))
  | _ + 1, .minItems n, v => some (.test (match v with
      | .arr xs => decide (n ≤ xs.length)
      | _ => true))
  | r + 1, .oneOf ss, v => (mapAll (fun s => eval defs r s v) ss).map fun l =>
      ⟨(l.filter (·.ok)).length == 1, fun k => l.any (fun x => x.ok && x.sees k)⟩
  | r + 1, .anyOf ss, v => (mapAll (fun s => eval defs r s v) ss).map fun l =>
      ⟨l.any (·.ok), fun k => l.any (fun x => x.ok && x.sees k)⟩
  | r + 1, .allOf ss, v => (mapAll (fun s => eval defs r s v) ss).map fun l =>
      ⟨l.all (·.ok), fun k => l.any (·.sees k)⟩
  | r + 1, .not s, v => (eval defs r s v).map fun x => .test !x.ok
  | r + 1, .ite c t e, v => match eval defs r c v with
      | some c => if c.ok then (eval defs r t v).map fun t => ⟨t.ok, fun k => c.sees k || t.sees k⟩ else eval defs r e v
      | none => none
  | r + 1, .dependent ds, v =>
      (mapAll (fun d : String × Sch => eval defs r d.2 v) (ds.filter (fun d => ((mems v).map Prod.fst).contains d.1))).map
        fun l => ⟨l.all (·.ok), fun k => l.any (·.sees k)⟩
  | r + 1, .ref n, v => match GoMap.get? defs n with
      | some s => eval defs r s v
      | none => none
  | _ + 1, .note _, _ => some (.test true)

theorem is_test {b : Bool} {p : Any → Prop} {v : Any} (h : p v ↔ b = true) : (Res.test b).Is (.test p) v :=
  ⟨h, fun k => by simp [Sem.test, Res.test]⟩

/-- Results of a list. -/
theorem results {α : Type} {f : α → Option Res} {g : α → Sem} {v : α → Any} {l : List α} {rs : List Res}
    (h : mapAll f l = some rs) (hf : ∀ a ∈ l, ∀ r, f a = some r → r.Is (g a) (v a)) :
    ((∀ a ∈ l, (g a).ok (v a)) ↔ rs.all (·.ok) = true) ∧
    ((∃ a ∈ l, (g a).ok (v a)) ↔ rs.any (·.ok) = true) ∧
    (∀ k, (∃ a ∈ l, (g a).sees (v a) k) ↔ rs.any (·.sees k) = true) ∧
    (∀ k, (∃ a ∈ l, (g a).ok (v a) ∧ (g a).sees (v a) k) ↔ rs.any (fun x => x.ok && x.sees k) = true) := by
  refine ⟨?_, ?_, fun k => ?_, fun k => ?_⟩
  · rw [List.all_eq_true]
    constructor
    · intro hall r hr
      obtain ⟨a, ha, e⟩ := mapAll_eq_some h r hr
      exact (hf a ha r e).1.1 (hall a ha)
    · intro hall a ha
      obtain ⟨r, hr, e⟩ := mapAll_mem h a ha
      exact (hf a ha r e).1.2 (hall r hr)
  · rw [List.any_eq_true]
    constructor
    · rintro ⟨a, ha, hok⟩
      obtain ⟨r, hr, e⟩ := mapAll_mem h a ha
      exact ⟨r, hr, (hf a ha r e).1.1 hok⟩
    · rintro ⟨r, hr, hok⟩
      obtain ⟨a, ha, e⟩ := mapAll_eq_some h r hr
      exact ⟨a, ha, (hf a ha r e).1.2 hok⟩
  · rw [List.any_eq_true]
    constructor
    · rintro ⟨a, ha, hok⟩
      obtain ⟨r, hr, e⟩ := mapAll_mem h a ha
      exact ⟨r, hr, ((hf a ha r e).2 k).1 hok⟩
    · rintro ⟨r, hr, hok⟩
      obtain ⟨a, ha, e⟩ := mapAll_eq_some h r hr
      exact ⟨a, ha, ((hf a ha r e).2 k).2 hok⟩
  · simp only [List.any_eq_true, Bool.and_eq_true]
    constructor
    · rintro ⟨a, ha, hok, hs⟩
      obtain ⟨r, hr, e⟩ := mapAll_mem h a ha
      exact ⟨r, hr, (hf a ha r e).1.1 hok, ((hf a ha r e).2 k).1 hs⟩
    · rintro ⟨r, hr, hok, hs⟩
      obtain ⟨a, ha, e⟩ := mapAll_eq_some h r hr
      exact ⟨a, ha, (hf a ha r e).1.2 hok, ((hf a ha r e).2 k).2 hs⟩

theorem mapAll_get {α β : Type} {f : α → Option β} {l : List α} {rs : List β} (h : mapAll f l = some rs) (i : Nat) :
    (l[i]?).map f = (rs[i]?).map some := by
  induction l generalizing rs i with
  | nil => simp only [mapAll, Option.some.injEq] at h; subst h; rfl
  | cons a l ih =>
    simp only [mapAll] at h
    split at h
    · rename_i y ys hy hys
      simp only [Option.some.injEq] at h
      subst h
      cases i with
      | zero => simp [hy]
      | succ i => simpa using ih hys i
    · cases h

theorem filter_one' {α : Type} {p : α → Bool} {l : List α} : (l.filter p).length = 1 ↔
    ∃ i : Nat, (∃ x, l[i]? = some x ∧ p x = true) ∧ ∀ (k : Nat) x, l[k]? = some x → p x = true → k = i := by
  induction l with
  | nil => simp
  | cons a l ih =>
    rw [List.filter_cons]
    split
    · rename_i ha
      rw [List.length_cons]
      constructor
      · intro h
        have hl : (l.filter p).length = 0 := by omega
        refine ⟨0, ⟨a, rfl, ha⟩, ?_⟩
        intro k x hk hx
        cases k with
        | zero => rfl
        | succ k =>
          have : x ∈ l.filter p := List.mem_filter.2 ⟨List.mem_of_getElem? (by simpa using hk), hx⟩
          rw [List.length_eq_zero_iff.1 hl] at this
          cases this
      · rintro ⟨i, _, hu⟩
        have e := hu 0 a rfl ha
        subst e
        have : l.filter p = [] := by
          rw [List.filter_eq_nil_iff]
          intro x hx hp
          obtain ⟨k, hk⟩ := List.getElem?_of_mem hx
          have := hu (k + 1) x (by simpa using hk) hp
          omega
        rw [this]
        rfl
    · rename_i ha
      rw [ih]
      constructor
      · rintro ⟨i, ⟨x, hx, hp⟩, hu⟩
        refine ⟨i + 1, ⟨x, by simpa using hx, hp⟩, ?_⟩
        intro k y hk hy
        cases k with
        | zero => simp at hk; subst hk; exact absurd hy ha
        | succ k => rw [hu k y (by simpa using hk) hy]
      · rintro ⟨i, ⟨x, hx, hp⟩, hu⟩
        cases i with
        | zero => simp at hx; subst hx; exact absurd hp ha
        | succ i =>
          refine ⟨i, ⟨x, by simpa using hx, hp⟩, ?_⟩
          intro k y hk hy
          have := hu (k + 1) y (by simpa using hk) hy
          omega

theorem results_one {f : Sch → Option Res} {v : Any} {l : List Sch} {rs : List Res}
    (h : mapAll f l = some rs) (hf : ∀ a ∈ l, ∀ r, f a = some r → r.Is (sem env a) v) :
    OneOf (l.map (sem env)) v ↔ ((rs.filter (·.ok)).length == 1) = true := by
  have hl := mapAll_get h
  have both : ∀ (i : Nat) s, l[i]? = some s → ∃ r, rs[i]? = some r ∧ r.Is (sem env s) v := by
    intro i s hs
    have := hl i
    rw [hs, Option.map_some] at this
    obtain ⟨r, hr, e⟩ := Option.map_eq_some_iff.1 this.symm
    exact ⟨r, hr, hf s (List.mem_of_getElem? hs) r e.symm⟩
  have back : ∀ (i : Nat) r, rs[i]? = some r → ∃ s, l[i]? = some s ∧ r.Is (sem env s) v := by
    intro i r hr
    have := hl i
    rw [hr, Option.map_some] at this
    obtain ⟨s, hs, e⟩ := Option.map_eq_some_iff.1 this
    exact ⟨s, hs, hf s (List.mem_of_getElem? hs) r e⟩
  rw [beq_iff_eq, filter_one']
  simp only [OneOf, List.getElem?_map, Option.map_eq_some_iff]
  constructor
  · rintro ⟨i, ⟨_, ⟨s, hs, rfl⟩, hok⟩, hu⟩
    obtain ⟨r, hr, hi⟩ := both i s hs
    refine ⟨i, ⟨r, hr, hi.1.1 hok⟩, ?_⟩
    intro k r' hr' hok'
    obtain ⟨s', hs', hi'⟩ := back k r' hr'
    exact hu k _ ⟨s', hs', rfl⟩ (hi'.1.2 hok')
  · rintro ⟨i, ⟨r, hr, hok⟩, hu⟩
    obtain ⟨s, hs, hi⟩ := back i r hr
    refine ⟨i, ⟨_, ⟨s, hs, rfl⟩, hi.1.2 hok⟩, ?_⟩
    rintro k _ ⟨s', hs', rfl⟩ hok'
    obtain ⟨r', hr', hi'⟩ := both k s' hs'
    exact hu k r' hr' (hi'.1.1 hok')

theorem hasKey_iff {v : Any} {k : String} : HasKey v k ↔ ∃ x, (k, x) ∈ mems v := by
  constructor
  · rintro ⟨ms, x, rfl, h⟩
    exact ⟨x, h⟩
  · rintro ⟨x, h⟩
    cases v with
    | obj ms => exact ⟨ms, x, rfl, h⟩
    | _ => cases h

theorem hasKeyB_iff {v : Any} {k : String} : HasKey v k ↔ ((mems v).map Prod.fst).contains k = true := by
  rw [hasKey_iff, List.contains_iff_mem, List.mem_map]
  constructor
  · rintro ⟨x, h⟩; exact ⟨_, h, rfl⟩
  · rintro ⟨⟨k', x⟩, h, rfl⟩; exact ⟨x, h⟩

/-- The evaluator is right. -/
theorem eval_is (hE : Meaning defs env) : ∀ r s v R, eval defs r s v = some R → R.Is (sem env s) v := by
  intro r
  induction r with
  | zero => intro s v R h; cases h
  | succ r ih =>
    intro s v R h
    cases s with
    | all ks =>
      simp only [eval, Option.map_eq_some_iff] at h
      obtain ⟨l, hl, rfl⟩ := h
      obtain ⟨h1, _, h3, _⟩ := results (g := sem env) (v := fun _ => v) hl (fun s _ R => ih s v R)
      simp only [sem, semList_eq, Sem.both, Res.Is, forall_map, exists_map]
      exact ⟨h1, h3⟩
    | allOf ks =>
      simp only [eval, Option.map_eq_some_iff] at h
      obtain ⟨l, hl, rfl⟩ := h
      obtain ⟨h1, _, h3, _⟩ := results (g := sem env) (v := fun _ => v) hl (fun s _ R => ih s v R)
      simp only [sem, semList_eq, Sem.both, Res.Is, forall_map, exists_map]
      exact ⟨h1, h3⟩
    | closed ks =>
      simp only [eval, Option.map_eq_some_iff] at h
      obtain ⟨l, hl, rfl⟩ := h
      obtain ⟨h1, _, h3, _⟩ := results (g := sem env) (v := fun _ => v) hl (fun s _ R => ih s v R)
      simp only [sem, semList_eq, Res.Is, forall_map, exists_map, Bool.and_eq_true]
      refine ⟨and_congr h1 ?_, fun k => by simp⟩
      rw [List.all_eq_true]
      constructor
      · intro hs m hm
        exact (h3 m.1).1 (hs m.1 (hasKey_iff.2 ⟨m.2, hm⟩))
      · intro hs k hk
        obtain ⟨x, hx⟩ := hasKey_iff.1 hk
        exact (h3 k).2 (hs (k, x) hx)
    | type ts =>
      simp only [eval, Option.some.injEq] at h
      subst h
      refine is_test ?_
      rw [List.any_eq_true]
      exact exists_congr fun t => and_congr Iff.rfl typeB_iff.symm
    | enum vs =>
      simp only [eval, Option.some.injEq] at h
      subst h
      refine is_test ?_
      rw [List.any_eq_true]
      exact exists_congr fun t => and_congr Iff.rfl constIs_iff.symm
    | pattern p =>
      simp only [eval, Option.some.injEq] at h
      subst h
      refine is_test ?_
      cases v <;> simp [strHas_iff]
    | required ks =>
      simp only [eval, Option.some.injEq] at h
      subst h
      refine is_test ?_
      cases v <;> simp
    | object props pats addl =>
      simp only [eval, Option.map_eq_some_iff] at h
      obtain ⟨l, hl, rfl⟩ := h
      simp only [sem, semProps_eq, semPats_eq, semOpt_eq, Res.Is, ObjectIs, ObjectSees, mem_pairs]
      have hp : ∀ k, (∃ p, ∃ b, (k, b) ∈ props ∧ sem env b = p) ↔ props.any (fun q => q.1 == k) = true := by
        intro k
        simp only [List.any_eq_true, beq_iff_eq]
        constructor
        · rintro ⟨_, b, hb, rfl⟩; exact ⟨_, hb, rfl⟩
        · rintro ⟨⟨k', b⟩, hb, rfl⟩; exact ⟨_, b, hb, rfl⟩
      have hq : ∀ k, (∃ r p, (∃ b, (r, b) ∈ pats ∧ sem env b = p) ∧ r.Is k) ↔ pats.any (fun q => q.1.has k) = true := by
        intro k
        simp only [List.any_eq_true, has_iff]
        constructor
        · rintro ⟨r, _, ⟨b, hb, rfl⟩, hk⟩; exact ⟨_, hb, hk⟩
        · rintro ⟨⟨r, b⟩, hb, hk⟩; exact ⟨r, _, ⟨b, hb, rfl⟩, hk⟩
      constructor
      · have one : ∀ k x b, memberIs (props.any (·.1 == k) || pats.any (·.1.has k))
              (mapAll (fun p : String × Sch => eval defs r p.2 x) (props.filter (·.1 == k)))
              (mapAll (fun p : KeyPat × Sch => eval defs r p.2 x) (pats.filter (·.1.has k)))
              (mapAll (fun a => eval defs r a x) addl.toList) = some b →
            (((∀ (p : Sem), (∃ b, (k, b) ∈ props ∧ sem env b = p) → p.ok x) ∧
            (∀ (r : KeyPat) (p : Sem), (∃ b, (r, b) ∈ pats ∧ sem env b = p) → r.Is k → p.ok x) ∧
            ((∀ (p : Sem), ¬∃ b, (k, b) ∈ props ∧ sem env b = p) →
              (∀ (r : KeyPat) (p : Sem), (∃ b, (r, b) ∈ pats ∧ sem env b = p) → ¬r.Is k) →
                ∀ (p : Sem), addl.map (sem env) = some p → p.ok x)) ↔ b = true) := by
          intro k x b hb
          unfold memberIs at hb
          split at hb
          · rename_i ra rb rc h1 h2 h3
            simp only [Option.some.injEq] at hb
            subst hb
            have i1 := (results (g := fun p : String × Sch => sem env p.2) (v := fun _ => x) h1
              (fun p _ R => ih p.2 x R)).1
            have i2 := (results (g := fun p : KeyPat × Sch => sem env p.2) (v := fun _ => x) h2
              (fun p _ R => ih p.2 x R)).1
            have i3 := (results (g := sem env) (v := fun _ => x) h3 (fun p _ R => ih p x R)).1
            simp only [Bool.and_eq_true, Bool.or_eq_true, and_assoc]
            refine and_congr ?_ (and_congr ?_ ?_)
            · rw [← i1]
              simp only [List.mem_filter, beq_iff_eq]
              constructor
              · rintro h ⟨k', s⟩ ⟨hs, rfl⟩; exact h _ ⟨s, hs, rfl⟩
              · rintro h _ ⟨s, hs, rfl⟩; exact h (k, s) ⟨hs, rfl⟩
            · rw [← i2]
              simp only [List.mem_filter, has_iff]
              constructor
              · rintro h ⟨k', s⟩ ⟨hs, hk⟩; exact h k' _ ⟨s, hs, rfl⟩ hk
              · rintro h k' _ ⟨s, hs, rfl⟩ hk; exact h (k', s) ⟨hs, hk⟩
            · rw [← i3, ← hp k, ← hq k]
              simp only [Option.mem_toList, Option.map_eq_some_iff]
              constructor
              · intro h
                by_cases c1 : ∃ p, ∃ b, (k, b) ∈ props ∧ sem env b = p
                · exact .inl (.inl c1)
                · by_cases c2 : ∃ r p, (∃ b, (r, b) ∈ pats ∧ sem env b = p) ∧ r.Is k
                  · exact .inl (.inr c2)
                  · refine .inr (fun a ha => ?_)
                    exact h (fun p hp => c1 ⟨p, hp⟩) (fun r p hp hr => c2 ⟨r, p, hp, hr⟩) _ ⟨a, ha, rfl⟩
              · rintro ((⟨p, hp⟩ | ⟨r, p, hp, hr⟩) | h) n1 n2
                · exact absurd hp (n1 p)
                · exact absurd hr (n2 r p hp)
                · rintro _ ⟨a, ha, rfl⟩; exact h a ha
          · cases hb
        rw [List.all_eq_true]
        constructor
        · intro h b hb
          obtain ⟨⟨k, x⟩, hm, e⟩ := mapAll_eq_some hl b hb
          cases v with
          | obj ms => exact (one k x b e).1 (h ms rfl k x hm)
          | _ => cases hm
        · rintro h ms rfl k x hm
          obtain ⟨b, hb, e⟩ := mapAll_mem hl (k, x) hm
          exact (one k x b e).2 (h b hb)
      · intro k
        rw [hp, hq]
        simp only [Bool.or_eq_true, or_assoc]
        cases addl <;> simp
    | propertyNames s =>
      simp only [eval, Option.map_eq_some_iff] at h
      obtain ⟨l, hl, rfl⟩ := h
      obtain ⟨h1, _⟩ := results (g := fun _ : String × Any => sem env s) (v := fun m => .str m.1) hl
        (fun m _ R => ih s _ R)
      refine is_test ?_
      rw [← h1]
      simp only [hasKey_iff]
      constructor
      · intro h m hm; exact h m.1 ⟨m.2, hm⟩
      · rintro h k ⟨x, hx⟩; exact h (k, x) hx
    | minProps n =>
      simp only [eval, Option.some.injEq] at h
      subst h
      refine is_test ?_
      cases v <;> simp
    | maxProps n =>
      simp only [eval, Option.some.injEq] at h
      subst h
      refine is_test ?_
      cases v <;> simp
    | minItems n =>
      simp only [eval, Option.some.injEq] at h
      subst h
      refine is_test ?_
      cases v <;> simp
    | items s =>
      simp only [eval, Option.map_eq_some_iff] at h
      obtain ⟨l, hl, rfl⟩ := h
      obtain ⟨h1, _⟩ := results (g := fun _ : Any => sem env s) (v := fun m => m) hl (fun m _ R => ih s _ R)
      refine is_test ?_
      rw [← h1]
      constructor
      · intro h x hx
        cases v with
        | arr xs => exact h xs rfl x hx
        | _ => cases hx
      · rintro h xs rfl x hx; exact h x hx
    | oneOf ks =>
      simp only [eval, Option.map_eq_some_iff] at h
      obtain ⟨l, hl, rfl⟩ := h
      obtain ⟨_, _, _, h4⟩ := results (g := sem env) (v := fun _ => v) hl (fun s _ R => ih s v R)
      simp only [sem, semList_eq, Res.Is, exists_map]
      exact ⟨results_one hl (fun s _ R => ih s v R), h4⟩
    | anyOf ks =>
      simp only [eval, Option.map_eq_some_iff] at h
      obtain ⟨l, hl, rfl⟩ := h
      obtain ⟨_, h2, _, h4⟩ := results (g := sem env) (v := fun _ => v) hl (fun s _ R => ih s v R)
      simp only [sem, semList_eq, Res.Is, exists_map]
      exact ⟨h2, h4⟩
    | not s =>
      simp only [eval, Option.map_eq_some_iff] at h
      obtain ⟨x, hx, rfl⟩ := h
      refine is_test ?_
      have := (ih s v x hx).1
      rw [this]
      cases x.ok <;> simp
    | ite c t e =>
      simp only [eval] at h
      split at h
      · rename_i rc hc
        have ic := ih c v rc hc
        simp only [sem, Res.Is]
        split at h
        · rename_i hok
          have hok' := ic.1.2 hok
          obtain ⟨rt, ht, rfl⟩ := Option.map_eq_some_iff.1 h
          have it := ih t v rt ht
          constructor
          · rw [← it.1]
            exact ⟨fun h => h.1 hok', fun h => ⟨fun _ => h, fun n => absurd hok' n⟩⟩
          · intro k
            simp only [Bool.or_eq_true, ← ic.2 k, ← it.2 k]
            constructor
            · rintro (h | h)
              · exact h.2
              · exact absurd hok' h.1
            · exact fun h => .inl ⟨hok', h⟩
        · rename_i hok
          have hok' : ¬(sem env c).ok v := fun h => hok (ic.1.1 h)
          have ie := ih e v R h
          constructor
          · rw [← ie.1]
            exact ⟨fun h => h.2 hok', fun h => ⟨fun n => absurd n hok', fun _ => h⟩⟩
          · intro k
            rw [← ie.2 k]
            constructor
            · rintro (h | h)
              · exact absurd h.1 hok'
              · exact h.2
            · exact fun h => .inr ⟨hok', h⟩
      · cases h
    | dependent ds =>
      simp only [eval, Option.map_eq_some_iff] at h
      obtain ⟨l, hl, rfl⟩ := h
      obtain ⟨h1, _, h3, _⟩ := results (g := fun p : String × Sch => sem env p.2) (v := fun _ => v) hl
        (fun p _ R => ih p.2 v R)
      simp only [sem, semProps_eq, mem_pairs, Res.Is]
      simp only [List.mem_filter, ← hasKeyB_iff] at h1 h3
      refine ⟨?_, fun k => ?_⟩
      · rw [← h1]
        constructor
        · rintro h ⟨k, s⟩ ⟨hs, hk⟩; exact h k _ ⟨s, hs, rfl⟩ hk
        · rintro h k _ ⟨s, hs, rfl⟩ hk; exact h (k, s) ⟨hs, hk⟩
      · rw [← h3]
        constructor
        · rintro ⟨k', _, ⟨s, hs, rfl⟩, hk, hsee⟩; exact ⟨(k', s), ⟨hs, hk⟩, hsee⟩
        · rintro ⟨⟨k', s⟩, ⟨hs, hk⟩, hsee⟩; exact ⟨k', _, ⟨s, hs, rfl⟩, hk, hsee⟩
    | ref n =>
      simp only [eval] at h
      split at h
      · rename_i s hs
        have := ih s v R h
        rw [← def_of hE hs] at this
        exact this
      · cases h
    | note t =>
      simp only [eval, Option.some.injEq] at h
      subst h
      exact is_test (by simp)

/-- The schema accepts the value. -/
def accepts (defs : Defs) (r : Nat) (s : Sch) (v : Any) : Option Bool := (eval defs r s v).map (·.ok)

theorem accepts_iff (hE : Meaning defs env) {r : Nat} {s : Sch} {v : Any} {b : Bool} (h : accepts defs r s v = some b) :
    (sem env s).ok v ↔ b = true := by
  obtain ⟨R, hR, rfl⟩ := Option.map_eq_some_iff.1 h
  exact (eval_is hE r s v R hR).1

end Verif.Meta31
