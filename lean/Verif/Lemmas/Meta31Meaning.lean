import Verif.Spec.Meta31
import Verif.Lemmas.MetaMeaning

/-! The definitions of the meta-schema of 3.1 have exactly one meaning. -/

namespace Verif.Meta31
open Codec Spec
open Meta (size_in_obj size_in_arr measure_lt)

theorem semList_eq {env : String → Sem} {ss : List Sch} : semList env ss = ss.map (sem env) := by
  induction ss with
  | nil => rfl
  | cons s ss ih => rw [semList, ih, List.map_cons]

theorem semProps_eq {env : String → Sem} {ps : List (String × Sch)} :
    semProps env ps = ps.map (fun p => (p.1, sem env p.2)) := by
  induction ps with
  | nil => rfl
  | cons s ss ih =>
    obtain ⟨k, s⟩ := s
    rw [semProps, ih, List.map_cons]

theorem semPats_eq {env : String → Sem} {ps : List (KeyPat × Sch)} :
    semPats env ps = ps.map (fun p => (p.1, sem env p.2)) := by
  induction ps with
  | nil => rfl
  | cons s ss ih =>
    obtain ⟨k, s⟩ := s
    rw [semPats, ih, List.map_cons]

theorem semOpt_eq {env : String → Sem} {a : Option Sch} : semOpt env a = a.map (sem env) := by
  cases a <;> rfl

mutual
/-- The definitions that a schema asks about the same value. -/
def heads : Sch → List String
  | .all ks => headsList ks
  | .closed ks => headsList ks
  | .type _ => []
  | .enum _ => []
  | .pattern _ => []
  | .required _ => []
  | .object _ _ _ => []
  | .propertyNames _ => []
  | .minProps _ => []
  | .maxProps _ => []
  | .items _ => []
  | .minItems _ => []
  | .oneOf ss => headsList ss
  | .anyOf ss => headsList ss
  | .allOf ss => headsList ss
  | .not s => heads s
  | .ite c t e => heads c ++ heads t ++ heads e
  | .dependent ds => headsProps ds
  | .ref n => [n]
  | .note _ => []
def headsList : List Sch → List String
  | [] => []
  | s :: ss => heads s ++ headsList ss
def headsProps : List (String × Sch) → List String
  | [] => []
  | (_, s) :: ss => heads s ++ headsProps ss
end

mutual
/-- The definitions that a schema asks about any value. -/
def refs : Sch → List String
  | .all ks => refsList ks
  | .closed ks => refsList ks
  | .type _ => []
  | .enum _ => []
  | .pattern _ => []
  | .required _ => []
  | .object ps qs a => refsProps ps ++ refsPats qs ++ refsOpt a
  | .propertyNames s => refs s
  | .minProps _ => []
  | .maxProps _ => []
  | .items s => refs s
  | .minItems _ => []
  | .oneOf ss => refsList ss
  | .anyOf ss => refsList ss
  | .allOf ss => refsList ss
  | .not s => refs s
  | .ite c t e => refs c ++ refs t ++ refs e
  | .dependent ds => refsProps ds
  | .ref n => [n]
  | .note _ => []
def refsList : List Sch → List String
  | [] => []
  | s :: ss => refs s ++ refsList ss
def refsProps : List (String × Sch) → List String
  | [] => []
  | (_, s) :: ss => refs s ++ refsProps ss
def refsPats : List (KeyPat × Sch) → List String
  | [] => []
  | (_, s) :: ss => refs s ++ refsPats ss
def refsOpt : Option Sch → List String
  | none => []
  | some s => refs s
end

theorem mem_headsList {ss : List Sch} {s : Sch} (hs : s ∈ ss) {n : String} (h : n ∈ heads s) : n ∈ headsList ss := by
  induction ss with
  | nil => cases hs
  | cons a ss ih =>
    rw [headsList, List.mem_append]
    rcases List.mem_cons.1 hs with rfl | hs
    · exact .inl h
    · exact .inr (ih hs)

theorem mem_headsProps {ss : List (String × Sch)} {k : String} {s : Sch} (hs : (k, s) ∈ ss) {n : String} (h : n ∈ heads s) :
    n ∈ headsProps ss := by
  induction ss with
  | nil => cases hs
  | cons a ss ih =>
    obtain ⟨k', a⟩ := a
    rw [headsProps, List.mem_append]
    rcases List.mem_cons.1 hs with e | hs
    · cases e; exact .inl h
    · exact .inr (ih hs)

theorem mem_refsList {ss : List Sch} {s : Sch} (hs : s ∈ ss) {n : String} (h : n ∈ refs s) : n ∈ refsList ss := by
  induction ss with
  | nil => cases hs
  | cons a ss ih =>
    rw [refsList, List.mem_append]
    rcases List.mem_cons.1 hs with rfl | hs
    · exact .inl h
    · exact .inr (ih hs)

theorem mem_refsProps {ss : List (String × Sch)} {k : String} {s : Sch} (hs : (k, s) ∈ ss) {n : String} (h : n ∈ refs s) :
    n ∈ refsProps ss := by
  induction ss with
  | nil => cases hs
  | cons a ss ih =>
    obtain ⟨k', a⟩ := a
    rw [refsProps, List.mem_append]
    rcases List.mem_cons.1 hs with e | hs
    · cases e; exact .inl h
    · exact .inr (ih hs)

theorem mem_refsPats {ss : List (KeyPat × Sch)} {k : KeyPat} {s : Sch} (hs : (k, s) ∈ ss) {n : String} (h : n ∈ refs s) :
    n ∈ refsPats ss := by
  induction ss with
  | nil => cases hs
  | cons a ss ih =>
    obtain ⟨k', a⟩ := a
    rw [refsPats, List.mem_append]
    rcases List.mem_cons.1 hs with e | hs
    · cases e; exact .inl h
    · exact .inr (ih hs)

theorem size_key {ms : List (String × Any)} {k : String} {x : Any} (h : (k, x) ∈ ms) :
    sizeOf (Any.str k) < sizeOf (Any.obj ms) := by
  have := List.sizeOf_lt_of_mem h
  simp only [Prod.mk.sizeOf_spec] at this
  simp only [Any.obj.sizeOf_spec, Any.str.sizeOf_spec]
  omega

/-- Two meanings agree on a value. -/
def Same (a b : Sem) (v : Any) : Prop := a.ok v = b.ok v ∧ a.sees v = b.sees v

theorem Same.okIff {a b : Sem} {v : Any} (h : Same a b v) : a.ok v ↔ b.ok v := by rw [h.1]

theorem Same.seesIff {a b : Sem} {v : Any} (h : Same a b v) {k : String} : a.sees v k ↔ b.sees v k := by rw [h.2]

theorem same_of {a b : Sem} {v : Any} (h1 : a.ok v ↔ b.ok v) (h2 : ∀ k, a.sees v k ↔ b.sees v k) : Same a b v :=
  ⟨propext h1, funext fun k => propext (h2 k)⟩

theorem exists_map {α β : Type} {f : α → β} {l : List α} {p : β → Prop} : (∃ s ∈ l.map f, p s) ↔ ∃ s ∈ l, p (f s) := by
  constructor
  · rintro ⟨s, hs, h⟩
    obtain ⟨t, ht, rfl⟩ := List.mem_map.1 hs
    exact ⟨t, ht, h⟩
  · rintro ⟨s, hs, h⟩
    exact ⟨_, List.mem_map_of_mem hs, h⟩

theorem forall_map {α β : Type} {f : α → β} {l : List α} {p : β → Prop} : (∀ s ∈ l.map f, p s) ↔ ∀ s ∈ l, p (f s) := by
  constructor
  · intro h s hs
    exact h _ (List.mem_map_of_mem hs)
  · intro h s hs
    obtain ⟨t, ht, rfl⟩ := List.mem_map.1 hs
    exact h t ht

theorem exists_congr_mem {α : Type} {l : List α} {p q : α → Prop} (h : ∀ s ∈ l, p s ↔ q s) :
    (∃ s ∈ l, p s) ↔ ∃ s ∈ l, q s :=
  ⟨fun ⟨s, hs, hp⟩ => ⟨s, hs, (h s hs).1 hp⟩, fun ⟨s, hs, hp⟩ => ⟨s, hs, (h s hs).2 hp⟩⟩

theorem forall_congr_mem {α : Type} {l : List α} {p q : α → Prop} (h : ∀ s ∈ l, p s ↔ q s) :
    (∀ s ∈ l, p s) ↔ ∀ s ∈ l, q s :=
  ⟨fun hp s hs => (h s hs).1 (hp s hs), fun hp s hs => (h s hs).2 (hp s hs)⟩

theorem mem_pairs {α β γ : Type} {f : β → γ} {l : List (α × β)} {a : α} {c : γ} :
    (a, c) ∈ l.map (fun p => (p.1, f p.2)) ↔ ∃ b, (a, b) ∈ l ∧ f b = c := by
  constructor
  · intro h
    obtain ⟨⟨a', b⟩, hb, e⟩ := List.mem_map.1 h
    cases e
    exact ⟨b, hb, rfl⟩
  · rintro ⟨b, hb, rfl⟩
    exact List.mem_map.2 ⟨(a, b), hb, rfl⟩

/-- What a schema means for a value depends on the definitions it asks about the value and on what the definitions say
about smaller values. -/
theorem sem_congr {e1 e2 : String → Sem} : ∀ (c : Nat) (s : Sch), sizeOf s ≤ c → ∀ v : Any,
    (∀ n ∈ refs s, ∀ x, sizeOf x < sizeOf v → Same (e1 n) (e2 n) x) →
    (∀ n ∈ refs s, n ∈ heads s → Same (e1 n) (e2 n) v) → Same (sem e1 s) (sem e2 s) v := by
  intro c
  induction c with
  | zero => intro s hs; cases s <;> simp at hs
  | succ c ih =>
    intro s hs v h1 h2
    have lists : ∀ (ss : List Sch), sizeOf ss ≤ c →
        (∀ n ∈ refsList ss, ∀ x, sizeOf x < sizeOf v → Same (e1 n) (e2 n) x) →
        (∀ n ∈ refsList ss, n ∈ headsList ss → Same (e1 n) (e2 n) v) → ∀ t ∈ ss, Same (sem e1 t) (sem e2 t) v := by
      intro ss hss g1 g2 t ht
      have := List.sizeOf_lt_of_mem ht
      exact ih t (by omega) v (fun n hn => g1 n (mem_refsList ht hn))
        (fun n hn hh => g2 n (mem_refsList ht hn) (mem_headsList ht hh))
    have below : ∀ t, sizeOf t ≤ c → (∀ n ∈ refs t, n ∈ refs s) → ∀ x, sizeOf x < sizeOf v →
        Same (sem e1 t) (sem e2 t) x := by
      intro t ht hr x hx
      exact ih t ht x (fun n hn y hy => h1 n (hr n hn) y (by omega)) (fun n hn _ => h1 n (hr n hn) x hx)
    have one : ∀ t, sizeOf t ≤ c → (∀ n ∈ refs t, n ∈ refs s) → (∀ n ∈ heads t, n ∈ heads s) →
        Same (sem e1 t) (sem e2 t) v := by
      intro t ht hr hh
      exact ih t ht v (fun n hn => h1 n (hr n hn)) (fun n hn hn' => h2 n (hr n hn) (hh n hn'))
    cases s with
    | all ks =>
      have := lists ks (by simp at hs; omega) (by simpa only [refs] using h1) (by simpa only [refs, heads] using h2)
      simp only [sem, semList_eq, Sem.both]
      refine same_of ?_ (fun k => ?_)
      · simp only [forall_map]
        exact forall_congr_mem fun t ht => (this t ht).okIff
      · simp only [exists_map]
        exact exists_congr_mem fun t ht => (this t ht).seesIff
    | allOf ks =>
      have := lists ks (by simp at hs; omega) (by simpa only [refs] using h1) (by simpa only [refs, heads] using h2)
      simp only [sem, semList_eq, Sem.both]
      refine same_of ?_ (fun k => ?_)
      · simp only [forall_map]
        exact forall_congr_mem fun t ht => (this t ht).okIff
      · simp only [exists_map]
        exact exists_congr_mem fun t ht => (this t ht).seesIff
    | closed ks =>
      have := lists ks (by simp at hs; omega) (by simpa only [refs] using h1) (by simpa only [refs, heads] using h2)
      simp only [sem, semList_eq]
      refine same_of ?_ (fun k => Iff.rfl)
      simp only [forall_map, exists_map]
      refine and_congr (forall_congr_mem fun t ht => (this t ht).okIff) ?_
      exact forall_congr' fun k => imp_congr Iff.rfl (exists_congr_mem fun t ht => (this t ht).seesIff)
    | oneOf ks =>
      have := lists ks (by simp at hs; omega) (by simpa only [refs] using h1) (by simpa only [refs, heads] using h2)
      simp only [sem, semList_eq]
      refine same_of ?_ (fun k => ?_)
      · simp only [OneOf, List.getElem?_map, Option.map_eq_some_iff]
        have := fun (i : Nat) t (ht : ks[i]? = some t) => this t (List.mem_of_getElem? ht)
        constructor
        · rintro ⟨i, ⟨_, ⟨t, ht, rfl⟩, hv⟩, hu⟩
          refine ⟨i, ⟨_, ⟨t, ht, rfl⟩, (this i t ht).okIff.1 hv⟩, ?_⟩
          rintro j _ ⟨t', ht', rfl⟩ hv'
          exact hu j _ ⟨t', ht', rfl⟩ ((this j t' ht').okIff.2 hv')
        · rintro ⟨i, ⟨_, ⟨t, ht, rfl⟩, hv⟩, hu⟩
          refine ⟨i, ⟨_, ⟨t, ht, rfl⟩, (this i t ht).okIff.2 hv⟩, ?_⟩
          rintro j _ ⟨t', ht', rfl⟩ hv'
          exact hu j _ ⟨t', ht', rfl⟩ ((this j t' ht').okIff.1 hv')
      · simp only [exists_map]
        exact exists_congr_mem fun t ht => and_congr (this t ht).okIff (this t ht).seesIff
    | anyOf ks =>
      have := lists ks (by simp at hs; omega) (by simpa only [refs] using h1) (by simpa only [refs, heads] using h2)
      simp only [sem, semList_eq]
      refine same_of ?_ (fun k => ?_)
      · simp only [exists_map]
        exact exists_congr_mem fun t ht => (this t ht).okIff
      · simp only [exists_map]
        exact exists_congr_mem fun t ht => and_congr (this t ht).okIff (this t ht).seesIff
    | not t =>
      have := one t (by simp at hs; omega) (by simp [refs]) (by simp [heads])
      exact same_of (not_congr this.okIff) (fun k => Iff.rfl)
    | ite a b d =>
      simp only [Sch.ite.sizeOf_spec] at hs
      have ha := one a (by omega) (fun n hn => by simp [refs, hn]) (fun n hn => by simp [heads, hn])
      have hb := one b (by omega) (fun n hn => by simp [refs, hn]) (fun n hn => by simp [heads, hn])
      have hd := one d (by omega) (fun n hn => by simp [refs, hn]) (fun n hn => by simp [heads, hn])
      refine same_of ?_ (fun k => ?_)
      · simp only [sem, ha.1, hb.1, hd.1]
      · simp only [sem, ha.1, ha.2, hb.2, hd.2]
    | dependent ds =>
      simp only [Sch.dependent.sizeOf_spec] at hs
      have hd : ∀ k t, (k, t) ∈ ds → Same (sem e1 t) (sem e2 t) v := by
        intro k t ht
        have := List.sizeOf_lt_of_mem ht
        simp only [Prod.mk.sizeOf_spec] at this
        exact one t (by omega) (fun n hn => by rw [refs]; exact mem_refsProps ht hn)
          (fun n hn => by rw [heads]; exact mem_headsProps ht hn)
      refine same_of ?_ (fun k => ?_)
      · simp only [sem, semProps_eq, mem_pairs]
        constructor
        · rintro h k _ ⟨t, ht, rfl⟩ hk
          exact (hd k t ht).okIff.1 (h k _ ⟨t, ht, rfl⟩ hk)
        · rintro h k _ ⟨t, ht, rfl⟩ hk
          exact (hd k t ht).okIff.2 (h k _ ⟨t, ht, rfl⟩ hk)
      · simp only [sem, semProps_eq, mem_pairs]
        constructor
        · rintro ⟨k', _, ⟨t, ht, rfl⟩, hk, h⟩
          exact ⟨k', _, ⟨t, ht, rfl⟩, hk, (hd k' t ht).seesIff.1 h⟩
        · rintro ⟨k', _, ⟨t, ht, rfl⟩, hk, h⟩
          exact ⟨k', _, ⟨t, ht, rfl⟩, hk, (hd k' t ht).seesIff.2 h⟩
    | ref n => simpa only [sem] using h2 n (by simp [refs]) (by simp [heads])
    | items t =>
      refine same_of ?_ (fun k => Iff.rfl)
      simp only [sem, Sem.test]
      constructor
      · rintro h xs rfl x hx
        exact (below t (by simp at hs; omega) (by simp [refs]) x (size_in_arr hx)).okIff.1 (h xs rfl x hx)
      · rintro h xs rfl x hx
        exact (below t (by simp at hs; omega) (by simp [refs]) x (size_in_arr hx)).okIff.2 (h xs rfl x hx)
    | propertyNames t =>
      refine same_of ?_ (fun k => Iff.rfl)
      simp only [sem, Sem.test]
      constructor
      · rintro h k ⟨ms, x, rfl, hx⟩
        exact (below t (by simp at hs; omega) (by simp [refs]) _ (size_key hx)).okIff.1 (h k ⟨ms, x, rfl, hx⟩)
      · rintro h k ⟨ms, x, rfl, hx⟩
        exact (below t (by simp at hs; omega) (by simp [refs]) _ (size_key hx)).okIff.2 (h k ⟨ms, x, rfl, hx⟩)
    | object ps qs a =>
      simp only [Sch.object.sizeOf_spec] at hs
      have hp : ∀ k t, (k, t) ∈ ps → ∀ x, sizeOf x < sizeOf v → Same (sem e1 t) (sem e2 t) x := by
        intro k t ht
        have := List.sizeOf_lt_of_mem ht
        simp only [Prod.mk.sizeOf_spec] at this
        exact below t (by omega) (fun n hn => by
          rw [refs, List.mem_append, List.mem_append]; exact .inl (.inl (mem_refsProps ht hn)))
      have hq : ∀ k t, (k, t) ∈ qs → ∀ x, sizeOf x < sizeOf v → Same (sem e1 t) (sem e2 t) x := by
        intro k t ht
        have := List.sizeOf_lt_of_mem ht
        simp only [Prod.mk.sizeOf_spec] at this
        exact below t (by omega) (fun n hn => by
          rw [refs, List.mem_append, List.mem_append]; exact .inl (.inr (mem_refsPats ht hn)))
      have ha : ∀ t, a = some t → ∀ x, sizeOf x < sizeOf v → Same (sem e1 t) (sem e2 t) x := by
        rintro t rfl
        simp only [Option.some.sizeOf_spec] at hs
        exact below t (by omega) (fun n hn => by
          rw [refs, List.mem_append, List.mem_append]; exact .inr hn)
      refine same_of ?_ (fun k => ?_)
      · simp only [sem, semProps_eq, semPats_eq, semOpt_eq, ObjectIs, mem_pairs, Option.map_eq_some_iff]
        constructor
        · rintro h ms rfl k x hx
          have hsz := size_in_obj hx
          obtain ⟨g1, g2, g3⟩ := h ms rfl k x hx
          refine ⟨?_, ?_, ?_⟩
          · rintro _ ⟨t, ht, rfl⟩
            exact (hp k t ht x hsz).okIff.1 (g1 _ ⟨t, ht, rfl⟩)
          · rintro r _ ⟨t, ht, rfl⟩ hr
            exact (hq r t ht x hsz).okIff.1 (g2 r _ ⟨t, ht, rfl⟩ hr)
          · rintro n1 n2 _ ⟨t, ht, rfl⟩
            refine (ha t ht x hsz).okIff.1 (g3 ?_ ?_ _ ⟨t, ht, rfl⟩)
            · rintro p ⟨t, ht, rfl⟩
              exact n1 _ ⟨t, ht, rfl⟩
            · rintro r p ⟨t, ht, rfl⟩
              exact n2 r _ ⟨t, ht, rfl⟩
        · rintro h ms rfl k x hx
          have hsz := size_in_obj hx
          obtain ⟨g1, g2, g3⟩ := h ms rfl k x hx
          refine ⟨?_, ?_, ?_⟩
          · rintro _ ⟨t, ht, rfl⟩
            exact (hp k t ht x hsz).okIff.2 (g1 _ ⟨t, ht, rfl⟩)
          · rintro r _ ⟨t, ht, rfl⟩ hr
            exact (hq r t ht x hsz).okIff.2 (g2 r _ ⟨t, ht, rfl⟩ hr)
          · rintro n1 n2 _ ⟨t, ht, rfl⟩
            refine (ha t ht x hsz).okIff.2 (g3 ?_ ?_ _ ⟨t, ht, rfl⟩)
            · rintro p ⟨t, ht, rfl⟩
              exact n1 _ ⟨t, ht, rfl⟩
            · rintro r p ⟨t, ht, rfl⟩
              exact n2 r _ ⟨t, ht, rfl⟩
      · simp only [sem, semProps_eq, semPats_eq, semOpt_eq, ObjectSees, mem_pairs, Option.map_eq_some_iff]
        refine or_congr ?_ (or_congr ?_ ?_)
        · constructor <;> (rintro ⟨_, t, ht, rfl⟩; exact ⟨_, t, ht, rfl⟩)
        · constructor <;> (rintro ⟨r, _, ⟨t, ht, rfl⟩, hr⟩; exact ⟨r, _, ⟨t, ht, rfl⟩, hr⟩)
        · constructor <;> (rintro ⟨_, t, ht, rfl⟩; exact ⟨_, t, ht, rfl⟩)
    | _ => exact ⟨rfl, rfl⟩

/-- References that are asked about the same value go to definitions of lower rank, up to `R`. -/
def ranksOk (defs : Defs) (rank : String → Nat) (R : Nat) : Bool :=
  defs.all fun d => decide (rank d.1 < R) && (heads d.2).all fun m => decide (rank m < rank d.1)

def closedDefs (defs : Defs) : Bool :=
  defs.all fun d => (refs d.2).all fun m => (defs.map Prod.fst).contains m

/-- What the definitions say after `k` references. -/
def iter (defs : Defs) : Nat → String → Sem
  | 0 => fun _ => ⟨fun _ => False, fun _ _ => False⟩
  | k + 1 => fun n => match GoMap.get? defs n with
    | some s => sem (iter defs k) s
    | none => ⟨fun _ => False, fun _ _ => False⟩

variable {defs : Defs} {rank : String → Nat} {R : Nat}

theorem rank_lt (hR : ranksOk defs rank R = true) {n : String} {s : Sch} (h : (n, s) ∈ defs) :
    rank n < R ∧ ∀ m ∈ heads s, rank m < rank n := by
  have := List.all_eq_true.1 hR _ h
  simpa using this

theorem closed_mem (hC : closedDefs defs = true) {n : String} {s : Sch} (h : (n, s) ∈ defs) :
    ∀ m ∈ refs s, ∃ t, (m, t) ∈ defs := by
  intro m hm
  have := List.all_eq_true.1 (List.all_eq_true.1 hC _ h) m hm
  simpa using this

theorem iter_stable (hR : ranksOk defs rank R = true) (hC : closedDefs defs = true) : ∀ (c : Nat) (n : String) (v : Any),
    (∃ s, (n, s) ∈ defs) → sizeOf v * R + rank n < c → ∀ k k', c ≤ k → c ≤ k' →
    Same (iter defs k n) (iter defs k' n) v := by
  intro c
  induction c with
  | zero => intro n v _ h; omega
  | succ c ih =>
    intro n v hn hc k k' hk hk'
    obtain ⟨k, rfl⟩ : ∃ i, k = i + 1 := ⟨k - 1, by omega⟩
    obtain ⟨k', rfl⟩ : ∃ i, k' = i + 1 := ⟨k' - 1, by omega⟩
    simp only [iter]
    split
    · rename_i s hs
      have hs := get?_mem hs
      refine sem_congr _ s (Nat.le_refl _) v ?_ ?_
      · intro m hm x hx
        obtain ⟨t, ht⟩ := closed_mem hC hs m hm
        have := measure_lt (r' := rank n) hx (rank_lt hR ht).1
        exact ih m x ⟨t, ht⟩ (by omega) k k' (by omega) (by omega)
      · intro m hm hh
        obtain ⟨t, ht⟩ := closed_mem hC hs m hm
        have := (rank_lt hR hs).2 m hh
        exact ih m v ⟨t, ht⟩ (by omega) k k' (by omega) (by omega)
    · exact ⟨rfl, rfl⟩

/-- The definitions have a meaning. -/
theorem exists_meaning (hR : ranksOk defs rank R = true) (hC : closedDefs defs = true)
    (hnd : (defs.map Prod.fst).Nodup) : ∃ env, Meaning defs env := by
  let env : String → Sem := fun n => ⟨fun v => (iter defs (sizeOf v * R + rank n + 1) n).ok v,
    fun v => (iter defs (sizeOf v * R + rank n + 1) n).sees v⟩
  have hsame : ∀ n v, Same (env n) (iter defs (sizeOf v * R + rank n + 1) n) v := fun _ _ => ⟨rfl, rfl⟩
  refine ⟨env, ?_⟩
  intro n s hs
  have hget : GoMap.get? defs n = some s := GoMap.get?_of_mem hnd hs
  have key : ∀ v, Same (env n) (sem env s) v := by
    intro v
    have h0 : Same (env n) (sem (iter defs (sizeOf v * R + rank n)) s) v := by
      have := hsame n v
      simp only [iter, hget] at this
      exact this
    have h1 : Same (sem (iter defs (sizeOf v * R + rank n)) s) (sem env s) v := by
      refine sem_congr _ s (Nat.le_refl _) v ?_ ?_
      · intro m hm x hx
        obtain ⟨t, ht⟩ := closed_mem hC hs m hm
        have := measure_lt (r' := rank n) hx (rank_lt hR ht).1
        exact iter_stable hR hC _ m x ⟨t, ht⟩ (Nat.lt_succ_self _) _ _ (by omega) (by omega)
      · intro m hm hh
        obtain ⟨t, ht⟩ := closed_mem hC hs m hm
        have := (rank_lt hR hs).2 m hh
        exact iter_stable hR hC _ m v ⟨t, ht⟩ (Nat.lt_succ_self _) _ _ (by omega) (by omega)
    exact ⟨h0.1.trans h1.1, h0.2.trans h1.2⟩
  exact Sem.ext (funext fun v => (key v).1) (funext fun v => (key v).2)

/-- The definitions have only one meaning. -/
theorem unique_meaning (hR : ranksOk defs rank R = true) (hC : closedDefs defs = true)
    {e1 e2 : String → Sem} (h1 : Meaning defs e1) (h2 : Meaning defs e2) :
    ∀ (c : Nat) (n : String) (v : Any), (∃ s, (n, s) ∈ defs) → sizeOf v * R + rank n < c → Same (e1 n) (e2 n) v := by
  intro c
  induction c with
  | zero => intro n v _ h; omega
  | succ c ih =>
    rintro n v ⟨s, hs⟩ hc
    rw [h1 n s hs, h2 n s hs]
    refine sem_congr _ s (Nat.le_refl _) v ?_ ?_
    · intro m hm x hx
      obtain ⟨t, ht⟩ := closed_mem hC hs m hm
      have := measure_lt (r' := rank n) hx (rank_lt hR ht).1
      exact ih m x ⟨t, ht⟩ (by omega)
    · intro m hm hh
      obtain ⟨t, ht⟩ := closed_mem hC hs m hm
      have := (rank_lt hR hs).2 m hh
      exact ih m v ⟨t, ht⟩ (by omega)

/-- Ranks for 3.1. -/
def rank31 (n : String) : Nat :=
  if n ∈ ["path-item-or-reference", "parameter-or-reference", "request-body-or-reference", "response-or-reference",
    "callbacks-or-reference", "example-or-reference", "link-or-reference", "header-or-reference",
    "security-scheme-or-reference"] then 3
  else if n ∈ ["specification-extensions", "examples"] then 0
  else if n.toList.contains '/' then 1 else 2

theorem ranks31 : ranksOk defs31 rank31 4 = true := by decide +kernel

theorem closed31 : closedDefs defs31 = true := by decide +kernel

end Verif.Meta31
