import Verif.Lemmas.Meta

/-! The definitions of a meta-schema have exactly one meaning. -/

namespace Verif.Meta
open Codec Spec

variable {I : String → Prop}

mutual
/-- The definitions that a schema asks about the same value. -/
def heads : Sch → List String
  | .all ks => headsList ks
  | .type _ => []
  | .enum _ => []
  | .required _ => []
  | .object _ _ _ => []
  | .items _ => []
  | .minItems _ => []
  | .oneOf ss => headsList ss
  | .allOf ss => headsList ss
  | .not s => heads s
  | .ref n => [n]
  | .never => []
  | .skip _ => []
def headsList : List Sch → List String
  | [] => []
  | s :: ss => heads s ++ headsList ss
end

theorem mem_headsList {ss : List Sch} {s : Sch} (hs : s ∈ ss) {n : String} (h : n ∈ heads s) : n ∈ headsList ss := by
  induction ss with
  | nil => cases hs
  | cons a ss ih =>
    rw [headsList, List.mem_append]
    rcases List.mem_cons.1 hs with rfl | hs
    · exact .inl h
    · exact .inr (ih hs)

mutual
/-- The definitions that a schema asks about any value. -/
def refs : Sch → List String
  | .all ks => refsList ks
  | .type _ => []
  | .enum _ => []
  | .required _ => []
  | .object ps qs a => refsProps ps ++ refsPats qs ++ refsOpt a
  | .items s => refs s
  | .minItems _ => []
  | .oneOf ss => refsList ss
  | .allOf ss => refsList ss
  | .not s => refs s
  | .ref n => [n]
  | .never => []
  | .skip _ => []
def refsList : List Sch → List String
  | [] => []
  | s :: ss => refs s ++ refsList ss
def refsProps : List (String × Sch) → List String
  | [] => []
  | (_, s) :: ss => refs s ++ refsProps ss
def refsPats : List (KeyPat × Sch) → List String
  | [] => []
  | (_, s) :: ss => refs s ++ refsPats ss
def refsOpt : Option Sch → List String
  | none => []
  | some s => refs s
end

theorem mem_refsList {ss : List Sch} {s : Sch} (hs : s ∈ ss) {n : String} (h : n ∈ refs s) : n ∈ refsList ss := by
  induction ss with
  | nil => cases hs
  | cons a ss ih =>
    rw [refsList, List.mem_append]
    rcases List.mem_cons.1 hs with rfl | hs
    · exact .inl h
    · exact .inr (ih hs)

theorem mem_refsProps {ss : List (String × Sch)} {k : String} {s : Sch} (hs : (k, s) ∈ ss) {n : String} (h : n ∈ refs s) :
    n ∈ refsProps ss := by
  induction ss with
  | nil => cases hs
  | cons a ss ih =>
    obtain ⟨k', a⟩ := a
    rw [refsProps, List.mem_append]
    rcases List.mem_cons.1 hs with e | hs
    · cases e; exact .inl h
    · exact .inr (ih hs)

theorem mem_refsPats {ss : List (KeyPat × Sch)} {k : KeyPat} {s : Sch} (hs : (k, s) ∈ ss) {n : String} (h : n ∈ refs s) :
    n ∈ refsPats ss := by
  induction ss with
  | nil => cases hs
  | cons a ss ih =>
    obtain ⟨k', a⟩ := a
    rw [refsPats, List.mem_append]
    rcases List.mem_cons.1 hs with e | hs
    · cases e; exact .inl h
    · exact .inr (ih hs)

theorem size_in_obj {ms : List (String × Any)} {k : String} {x : Any} (h : (k, x) ∈ ms) : sizeOf x < sizeOf (Any.obj ms) := by
  have := List.sizeOf_lt_of_mem h
  simp only [Prod.mk.sizeOf_spec] at this
  simp only [Any.obj.sizeOf_spec]
  omega

theorem size_in_arr {xs : List Any} {x : Any} (h : x ∈ xs) : sizeOf x < sizeOf (Any.arr xs) := by
  have := List.sizeOf_lt_of_mem h
  simp only [Any.arr.sizeOf_spec]
  omega

/-- Whether a schema accepts a value depends on the definitions it asks about the value and on what the definitions
say about smaller values. -/
theorem ok_congr {e1 e2 : String → Any → Prop} : ∀ (c : Nat) (s : Sch), sizeOf s ≤ c → ∀ v : Any,
    (∀ n ∈ refs s, ∀ x, sizeOf x < sizeOf v → (e1 n x ↔ e2 n x)) → (∀ n ∈ refs s, n ∈ heads s → (e1 n v ↔ e2 n v)) →
    (Ok I e1 s v ↔ Ok I e2 s v) := by
  intro c
  induction c with
  | zero => intro s hs; cases s <;> simp at hs
  | succ c ih =>
    intro s hs v h1 h2
    have lists : ∀ (ss : List Sch), sizeOf ss ≤ c →
        (∀ n ∈ refsList ss, ∀ x, sizeOf x < sizeOf v → (e1 n x ↔ e2 n x)) →
        (∀ n ∈ refsList ss, n ∈ headsList ss → (e1 n v ↔ e2 n v)) → ∀ t ∈ ss, Ok I e1 t v ↔ Ok I e2 t v := by
      intro ss hss g1 g2 t ht
      have := List.sizeOf_lt_of_mem ht
      exact ih t (by omega) v (fun n hn => g1 n (mem_refsList ht hn))
        (fun n hn hh => g2 n (mem_refsList ht hn) (mem_headsList ht hh))
    have below : ∀ t, sizeOf t ≤ c → (∀ n ∈ refs t, n ∈ refs s) → ∀ x, sizeOf x < sizeOf v →
        (Ok I e1 t x ↔ Ok I e2 t x) := by
      intro t ht hr x hx
      exact ih t ht x (fun n hn y hy => h1 n (hr n hn) y (by omega)) (fun n hn _ => h1 n (hr n hn) x hx)
    cases s with
    | all ks =>
      rw [ok_all, ok_all]
      have := lists ks (by simp at hs; omega) (by simpa only [refs] using h1) (by simpa only [refs, heads] using h2)
      exact ⟨fun h t ht => (this t ht).1 (h t ht), fun h t ht => (this t ht).2 (h t ht)⟩
    | allOf ks =>
      rw [ok_allOf, ok_allOf]
      have := lists ks (by simp at hs; omega) (by simpa only [refs] using h1) (by simpa only [refs, heads] using h2)
      exact ⟨fun h t ht => (this t ht).1 (h t ht), fun h t ht => (this t ht).2 (h t ht)⟩
    | oneOf ks =>
      rw [ok_oneOf, ok_oneOf]
      have := lists ks (by simp at hs; omega) (by simpa only [refs] using h1) (by simpa only [refs, heads] using h2)
      have := fun (i : Nat) t (ht : ks[i]? = some t) => this t (List.mem_of_getElem? ht)
      constructor
      · rintro ⟨i, ⟨t, ht, hv⟩, hu⟩
        exact ⟨i, ⟨t, ht, (this i t ht).1 hv⟩, fun j t' ht' hv' => hu j t' ht' ((this j t' ht').2 hv')⟩
      · rintro ⟨i, ⟨t, ht, hv⟩, hu⟩
        exact ⟨i, ⟨t, ht, (this i t ht).2 hv⟩, fun j t' ht' hv' => hu j t' ht' ((this j t' ht').1 hv')⟩
    | not t =>
      have := ih t (by simp at hs; omega) v (by simpa only [refs] using h1) (by simpa only [refs, heads] using h2)
      simp only [Ok, this]
    | ref n => simpa only [Ok] using h2 n (by simp [refs]) (by simp [heads])
    | items t =>
      rw [ok_items, ok_items]
      constructor
      · rintro h xs rfl x hx
        exact (below t (by simp at hs; omega) (by simp [refs]) x (size_in_arr hx)).1 (h xs rfl x hx)
      · rintro h xs rfl x hx
        exact (below t (by simp at hs; omega) (by simp [refs]) x (size_in_arr hx)).2 (h xs rfl x hx)
    | object ps qs a =>
      simp only [Sch.object.sizeOf_spec] at hs
      rw [ok_object, ok_object]
      have hp : ∀ k t, (k, t) ∈ ps → ∀ x, sizeOf x < sizeOf v → (Ok I e1 t x ↔ Ok I e2 t x) := by
        intro k t ht
        have := List.sizeOf_lt_of_mem ht
        simp only [Prod.mk.sizeOf_spec] at this
        exact below t (by omega) (fun n hn => by
          rw [refs, List.mem_append, List.mem_append]; exact .inl (.inl (mem_refsProps ht hn)))
      have hq : ∀ k t, (k, t) ∈ qs → ∀ x, sizeOf x < sizeOf v → (Ok I e1 t x ↔ Ok I e2 t x) := by
        intro k t ht
        have := List.sizeOf_lt_of_mem ht
        simp only [Prod.mk.sizeOf_spec] at this
        exact below t (by omega) (fun n hn => by
          rw [refs, List.mem_append, List.mem_append]; exact .inl (.inr (mem_refsPats ht hn)))
      have ha : ∀ t, a = some t → ∀ x, sizeOf x < sizeOf v → (Ok I e1 t x ↔ Ok I e2 t x) := by
        rintro t rfl
        simp only [Option.some.sizeOf_spec] at hs
        exact below t (by omega) (fun n hn => by
          rw [refs, List.mem_append, List.mem_append]; exact .inr hn)
      constructor
      · rintro h ms rfl k x hx
        have hsz := size_in_obj hx
        obtain ⟨g1, g2, g3⟩ := h ms rfl k x hx
        exact ⟨fun t ht => (hp k t ht x hsz).1 (g1 t ht), fun r t ht hr => (hq r t ht x hsz).1 (g2 r t ht hr),
          fun n1 n2 t ht => (ha t ht x hsz).1 (g3 n1 n2 t ht)⟩
      · rintro h ms rfl k x hx
        have hsz := size_in_obj hx
        obtain ⟨g1, g2, g3⟩ := h ms rfl k x hx
        exact ⟨fun t ht => (hp k t ht x hsz).2 (g1 t ht), fun r t ht hr => (hq r t ht x hsz).2 (g2 r t ht hr),
          fun n1 n2 t ht => (ha t ht x hsz).2 (g3 n1 n2 t ht)⟩
    | _ => simp only [Ok]

/-- References that are asked about the same value go to definitions of lower rank, up to `R`. -/
def ranksOk (defs : Defs) (rank : String → Nat) (R : Nat) : Bool :=
  defs.all fun d => decide (rank d.1 < R) && (heads d.2).all fun m => decide (rank m < rank d.1)

def closedDefs (defs : Defs) : Bool :=
  defs.all fun d => (refs d.2).all fun m => (defs.map Prod.fst).contains m

/-- What the definitions say after `k` references. -/
def iter (defs : Defs) (I : String → Prop) : Nat → String → Any → Prop
  | 0 => fun _ _ => False
  | k + 1 => fun n v => ∃ s, GoMap.get? defs n = some s ∧ Ok I (iter defs I k) s v

variable {defs : Defs} {rank : String → Nat} {R : Nat}

theorem rank_lt (hR : ranksOk defs rank R = true) {n : String} {s : Sch} (h : (n, s) ∈ defs) :
    rank n < R ∧ ∀ m ∈ heads s, rank m < rank n := by
  have := List.all_eq_true.1 hR _ h
  simpa using this

theorem closed_mem (hC : closedDefs defs = true) {n : String} {s : Sch} (h : (n, s) ∈ defs) :
    ∀ m ∈ refs s, ∃ t, (m, t) ∈ defs := by
  intro m hm
  have := List.all_eq_true.1 (List.all_eq_true.1 hC _ h) m hm
  simpa using this

theorem measure_lt {a b r r' R : Nat} (h : a < b) (hr : r < R) : a * R + r < b * R + r' := by
  have : (a + 1) * R ≤ b * R := Nat.mul_le_mul_right R h
  rw [Nat.add_mul] at this
  omega

theorem iter_stable (hR : ranksOk defs rank R = true) (hC : closedDefs defs = true) : ∀ (c : Nat) (n : String) (v : Any),
    (∃ s, (n, s) ∈ defs) → sizeOf v * R + rank n < c → ∀ k k', c ≤ k → c ≤ k' →
    (iter defs I k n v ↔ iter defs I k' n v) := by
  intro c
  induction c with
  | zero => intro n v _ h; omega
  | succ c ih =>
    intro n v hn hc k k' hk hk'
    obtain ⟨k, rfl⟩ : ∃ i, k = i + 1 := ⟨k - 1, by omega⟩
    obtain ⟨k', rfl⟩ : ∃ i, k' = i + 1 := ⟨k' - 1, by omega⟩
    have key : ∀ s, GoMap.get? defs n = some s → (Ok I (iter defs I k) s v ↔ Ok I (iter defs I k') s v) := by
      intro s hs
      have hs := get?_mem hs
      refine ok_congr _ s (Nat.le_refl _) v ?_ ?_
      · intro m hm x hx
        obtain ⟨t, ht⟩ := closed_mem hC hs m hm
        have := measure_lt (r' := rank n) hx (rank_lt hR ht).1
        exact ih m x ⟨t, ht⟩ (by omega) k k' (by omega) (by omega)
      · intro m hm hh
        obtain ⟨t, ht⟩ := closed_mem hC hs m hm
        have := (rank_lt hR hs).2 m hh
        exact ih m v ⟨t, ht⟩ (by omega) k k' (by omega) (by omega)
    simp only [iter]
    constructor
    · rintro ⟨s, hs, h⟩; exact ⟨s, hs, (key s hs).1 h⟩
    · rintro ⟨s, hs, h⟩; exact ⟨s, hs, (key s hs).2 h⟩

/-- The definitions have a meaning. -/
theorem exists_meaning (hR : ranksOk defs rank R = true) (hC : closedDefs defs = true)
    (hnd : (defs.map Prod.fst).Nodup) : ∃ env, Meaning defs I env := by
  refine ⟨fun n v => iter defs I (sizeOf v * R + rank n + 1) n v, ?_⟩
  intro n s hs v
  have hget : GoMap.get? defs n = some s := GoMap.get?_of_mem hnd hs
  change (∃ s, GoMap.get? defs n = some s ∧ Ok I (iter defs I (sizeOf v * R + rank n)) s v) ↔ _
  have key : Ok I (iter defs I (sizeOf v * R + rank n)) s v ↔
      Ok I (fun n v => iter defs I (sizeOf v * R + rank n + 1) n v) s v := by
    refine ok_congr _ s (Nat.le_refl _) v ?_ ?_
    · intro m hm x hx
      obtain ⟨t, ht⟩ := closed_mem hC hs m hm
      have := measure_lt (r' := rank n) hx (rank_lt hR ht).1
      exact iter_stable hR hC _ m x ⟨t, ht⟩ (Nat.lt_succ_self _) _ _ (by omega) (by omega)
    · intro m hm hh
      obtain ⟨t, ht⟩ := closed_mem hC hs m hm
      have := (rank_lt hR hs).2 m hh
      exact iter_stable hR hC _ m v ⟨t, ht⟩ (Nat.lt_succ_self _) _ _ (by omega) (by omega)
  constructor
  · rintro ⟨s', hs', h⟩
    rw [hget] at hs'
    cases hs'
    exact key.1 h
  · intro h
    exact ⟨s, hget, key.2 h⟩

/-- The definitions have only one meaning. -/
theorem unique_meaning (hR : ranksOk defs rank R = true) (hC : closedDefs defs = true)
    {e1 e2 : String → Any → Prop} (h1 : Meaning defs I e1) (h2 : Meaning defs I e2) :
    ∀ (c : Nat) (n : String) (v : Any), (∃ s, (n, s) ∈ defs) → sizeOf v * R + rank n < c → (e1 n v ↔ e2 n v) := by
  intro c
  induction c with
  | zero => intro n v _ h; omega
  | succ c ih =>
    rintro n v ⟨s, hs⟩ hc
    rw [h1 n s hs, h2 n s hs]
    refine ok_congr _ s (Nat.le_refl _) v ?_ ?_
    · intro m hm x hx
      obtain ⟨t, ht⟩ := closed_mem hC hs m hm
      have := measure_lt (r' := rank n) hx (rank_lt hR ht).1
      exact ih m x ⟨t, ht⟩ (by omega)
    · intro m hm hh
      obtain ⟨t, ht⟩ := closed_mem hC hs m hm
      have := (rank_lt hR hs).2 m hh
      exact ih m v ⟨t, ht⟩ (by omega)

/-- Ranks for 3.0. -/
def rank30 (n : String) : Nat :=
  if n = "SecuritySchemeOrRef" then 3
  else if n ∈ ["SecurityScheme", "SchemaOrRef", "ExampleOrRef", "ParameterOrRef", "RequestBodyOrRef", "HeaderOrRef",
    "LinkOrRef", "ResponseOrRef", "CallbackOrRef"] then 2
  else if n ∈ ["Parameter", "Header", "MediaType"] then 1 else 0

theorem ranks30 : ranksOk defs30 rank30 4 = true := by decide +kernel

theorem closed30 : closedDefs defs30 = true := by decide +kernel

end Verif.Meta
