import Verif.Props.Refs31

/-!
# The traversal of 3.1 when some components do not decode
-/

namespace Verif.V31
open SchemaSpec ValidSpec Dfs

variable {f g : Follow} {o : Order} {Bad : String → Prop}

/-- Nothing bad was processed. -/
def Good (Bad : String → Prop) (c : Ctx) : Prop := ∀ n ∈ c.processed.keys, ¬ Bad n

/-- The second visit tells what the first does: the same if nothing bad was processed in the end, and otherwise a
panic. -/
def VSim (Bad : String → Prop) (a b : Visit) : Prop := ∀ c c', b c = .ok c' →
  (∀ n ∈ c.processed.keys, n ∈ c'.processed.keys) ∧
  (Good Bad c → (Good Bad c' → a c = .ok c') ∧ (¬ Good Bad c' → a c = .error .panic))

theorem VSim.same {a b : Visit} (h : ∀ c c', b c = .ok c' → a c = .ok c' ∧ c'.processed = c.processed) : VSim Bad a b := by
  intro c c' e
  obtain ⟨h1, h2⟩ := h c c' e
  refine ⟨fun n hn => by rw [h2]; exact hn, fun hg => ⟨fun _ => h1, fun hn => absurd ?_ hn⟩⟩
  unfold Good at hg ⊢
  rw [h2]
  exact hg

theorem VSim.nil : VSim Bad (visitList []) (visitList []) := VSim.same fun c c' e => by cases e; exact ⟨rfl, rfl⟩

theorem VSim.seq {a b a' b' : Visit} (h : VSim Bad a b) (h' : VSim Bad a' b') :
    VSim Bad (fun c => a c >>= a') (fun c => b c >>= b') := by
  intro c c' e
  simp only [bind, Except.bind] at e ⊢
  cases h1 : b c with
  | error x => rw [h1] at e; cases e
  | ok c1 =>
    rw [h1] at e
    obtain ⟨m1, g1⟩ := h c c1 h1
    obtain ⟨m2, g2⟩ := h' c1 c' e
    refine ⟨fun n hn => m2 n (m1 n hn), fun hg => ?_⟩
    by_cases hg1 : Good Bad c1
    · rw [(g1 hg).1 hg1]
      exact g2 hg1
    · rw [(g1 hg).2 hg1]
      exact ⟨fun hg' => absurd (fun n hn => hg' n (m2 n hn)) hg1, fun _ => rfl⟩

theorem VSim.cons {a b : Visit} {as bs : List Visit} (h : VSim Bad a b) (hs : VSim Bad (visitList as) (visitList bs)) :
    VSim Bad (visitList (a :: as)) (visitList (b :: bs)) := VSim.seq h hs

theorem VSim.order {acts bcts : List Visit} (hl : acts.length = bcts.length)
    (h : ∀ (i : Nat) (a b : Visit), acts[i]? = some a → bcts[i]? = some b → VSim Bad a b) :
    ∀ (is : List Nat), VSim Bad (visitOrder acts is) (visitOrder bcts is)
  | [] => VSim.nil
  | i :: is => by
    by_cases hi : i < acts.length
    · have hg : acts[i]? = some acts[i] := List.getElem?_eq_getElem hi
      have hg' : bcts[i]? = some (bcts[i]'(hl ▸ hi)) := List.getElem?_eq_getElem _
      have := VSim.seq (h i _ _ hg hg') (VSim.order hl h is)
      intro c c' e
      simp only [visitOrder, hg, hg'] at e ⊢
      exact this c c' e
    · have hg : acts[i]? = none := List.getElem?_eq_none (by omega)
      have hg' : bcts[i]? = none := List.getElem?_eq_none (by omega)
      intro c c' e
      simp only [visitOrder, hg, hg'] at e ⊢
      exact VSim.order hl h is c c' e

mutual
theorem find_sim (hfg : ∀ n, VSim Bad (f n) (g n)) : ∀ (j : JS), VSim Bad (find f o j) (find g o j)
  | .zero => VSim.same fun c c' e => by cases e; exact ⟨rfl, rfl⟩
  | .bool b => VSim.same fun c c' e => by cases e; exact ⟨rfl, rfl⟩
  | .obj flat not allOf oneOf anyOf items itemsArr props addl others => by
    have i1 := findOpt_sim hfg not
    have i2 := findList_sim hfg allOf
    have i3 := findList_sim hfg oneOf
    have i4 := findList_sim hfg anyOf
    have i5 := findOpt_sim hfg items
    have i6 := findList_sim hfg itemsArr
    have i7 := findProps_sim hfg props
    have i8 := findOpt_sim hfg addl
    cases hr : flat.ref with
    | some r =>
      simp only [find, hr]
      cases hl : localRef? r with
      | none => exact VSim.same fun c c' e => by cases e; exact ⟨rfl, rfl⟩
      | some n => exact hfg n
    | none =>
      rw [find_obj hr, find_obj hr]
      have hp : VSim Bad (propsVisit f o props) (propsVisit g o props) := by
        intro c c' h
        refine VSim.order (by rw [findProps_length, findProps_length]) ?_ _ { c with clock := c.clock + 1 } c' h
        intro i a b ha hb
        rw [findProps_get] at ha hb
        cases e : props[i]? with
        | none => rw [e] at ha; cases ha
        | some p =>
          rw [e] at ha hb; cases ha; cases hb
          exact i7 p (List.mem_of_getElem? e)
      exact i1.cons (i2.cons (i3.cons (i4.cons (i5.cons (i6.cons (hp.cons (i8.cons VSim.nil)))))))
theorem findOpt_sim (hfg : ∀ n, VSim Bad (f n) (g n)) : ∀ (j : Option JS),
    VSim Bad (visitList (findOpt f o j)) (visitList (findOpt g o j))
  | none => VSim.nil
  | some j => (find_sim hfg j).cons VSim.nil
theorem findList_sim (hfg : ∀ n, VSim Bad (f n) (g n)) : ∀ (j : List JS),
    VSim Bad (visitList (findList f o j)) (visitList (findList g o j))
  | [] => VSim.nil
  | j :: js => (find_sim hfg j).cons (findList_sim hfg js)
theorem findProps_sim (hfg : ∀ n, VSim Bad (f n) (g n)) : ∀ (ss : List (String × JS)), ∀ p ∈ ss,
    VSim Bad (find f o p.2) (find g o p.2)
  | [] => by intro p hp; cases hp
  | (n, s) :: ss => by
    have h1 := find_sim hfg s
    have h2 := findProps_sim hfg ss
    intro p hp
    rcases List.mem_cons.mp hp with rfl | hp
    · exact h1
    · exact h2 p hp
end

theorem follow_sim {m m' : Schemas} (hsame : ∀ n j, m.decode n = some j → m'.decode n = some j)
    (k : Nat) (n : String) :
    VSim (fun n => m.decode n = none) (follow (some m) o k n) (follow (some m') o k n) := by
  induction k generalizing n with
  | zero => intro c c' h; simp only [follow] at h; cases h
  | succ k ih =>
    intro c c' h
    rw [follow] at h ⊢
    cases hp : c.processed.get? n with
    | some v =>
      simp only [hp] at h ⊢
      exact VSim.same (Bad := fun n => m.decode n = none) (a := fun c => .ok (c.inc n)) (b := fun c => .ok (c.inc n))
        (fun c c' e => by cases e; exact ⟨rfl, rfl⟩) c c' h
    | none =>
      simp only [hp] at h ⊢
      cases hd' : m'.decode n with
      | none => simp only [hd'] at h; cases h
      | some js =>
        simp only [hd', bind, Except.bind] at h
        generalize hc : ({ processed := (c.processed.set n JS.zero).set n js, count := c.count, clock := c.clock } : Ctx) = c0 at h
        have hk0 : ∀ x, x ∈ c0.processed.keys ↔ x ∈ c.processed.keys ∨ x = n := by
          intro x
          rw [← hc]
          simp only [GoMap.mem_keys_iff, GoMap.get?_set]
          by_cases hx : x = n <;> simp [hx]
        cases h1 : find (follow (some m') o k) o js c0 with
        | error e => rw [h1] at h; cases h
        | ok c1 =>
          rw [h1] at h
          simp only [Except.ok.injEq] at h
          subst h
          obtain ⟨m1, g1⟩ := find_sim ih js c0 c1 h1
          refine ⟨fun x hx => m1 x ((hk0 x).mpr (.inl hx)), fun hg => ?_⟩
          cases hd : m.decode n with
          | none =>
            simp only
            exact ⟨fun hg' => absurd hd (hg' n (m1 n ((hk0 n).mpr (.inr rfl)))), fun _ => by first | rfl | trivial⟩
          | some js2 =>
            have e2 := hsame n js2 hd
            rw [hd'] at e2
            cases e2
            have hg0 : Good (fun n => m.decode n = none) c0 := by
              intro x hx
              rcases (hk0 x).mp hx with hx | rfl
              · exact hg x hx
              · intro hb
                exact nomatch hd.symm.trans hb
            simp only [bind, Except.bind]
            rw [hc]
            refine ⟨fun hg' => ?_, fun hn => ?_⟩
            · rw [(g1 hg0).1 hg']
            · rw [(g1 hg0).2 hn]

/-- The components with the empty schema for those that do not decode. -/
def Schemas.mended (m : Schemas) : Schemas :=
  ⟨m.decoded.map (fun e => (e.1, some (e.2.getD emptyJS))), true⟩

theorem mended_get (d : GoMap (Option JS)) (n : String) :
    GoMap.get? (d.map (fun e => (e.1, some (e.2.getD emptyJS)))) n = (GoMap.get? d n).map (fun j => some (j.getD emptyJS)) := by
  induction d with
  | nil => rfl
  | cons p d ih =>
    obtain ⟨k, v⟩ := p
    simp only [List.map_cons, GoMap.get?]
    split
    · rfl
    · exact ih

theorem mended_decode (m : Schemas) (n : String) : m.mended.decode n = some (component31 m n) := by
  unfold Schemas.decode component31 Schemas.mended
  simp only [mended_get]
  unfold Schemas.decode
  cases GoMap.get? m.decoded n with
  | none => cases m.missing <;> rfl
  | some j => rfl

theorem mended_component (m : Schemas) : component31 m.mended = component31 m := by
  funext n
  unfold component31
  rw [mended_decode]
  rfl

/-- Whether `ToJSONSchema` returns or panics. -/
theorem resolves_exact (m : Schemas) (o : Order) (j : JS) :
    ((∀ n, Needs31 m j n → m.decode n ≠ none) →
      ∃ r, ∀ fuel, m.decoded.length + 1 ≤ fuel → toJSONSchema (some m) o fuel (some j) = .ok r) ∧
    ((∃ n, Needs31 m j n ∧ m.decode n = none) →
      ∀ fuel, m.decoded.length + 1 ≤ fuel → toJSONSchema (some m) o fuel (some j) = .error .panic) := by
  have hd : ∀ n, m.mended.decode n ≠ none := fun n => by rw [mended_decode]; nofun
  obtain ⟨c, h, -⟩ := find_total (o := o) (P := fun c => todo m.mended.decoded.keys c ≤ m.mended.decoded.length)
    (fun c _ h => h) (fun n => follow_total (o := o) m.mended hd m.mended.decoded.length n) j {} (by
      unfold todo
      refine Nat.le_trans (List.length_filter_le _ _) ?_
      simp [GoMap.keys])
  have hlen : m.mended.decoded.length = m.decoded.length := by simp [Schemas.mended]
  rw [hlen] at h
  have hok := find_ok (fun n => follow_ok m.mended (m.decoded.length + 1) n) j _ _ h
  rw [mended_component] at hok
  have hkeys : ∀ n, n ∈ c.processed.keys ↔ Needs31 m j n := hok.complete.1
  have hsim : ∀ fuel, m.decoded.length + 1 ≤ fuel →
      (Good (fun n => m.decode n = none) c → find (follow (some m) o fuel) o j {} = .ok c) ∧
      (¬ Good (fun n => m.decode n = none) c → find (follow (some m) o fuel) o j {} = .error .panic) := by
    intro fuel hf
    have h' := find_mono (g := follow (some m.mended) o fuel) (fun n => follow_mono_le (some m.mended) hf n) j {} _ h
    refine (find_sim (fun n => follow_sim (m := m) (m' := m.mended) ?_ fuel n) j {} c h').2 ?_
    · intro n j hj
      rw [mended_decode]
      unfold component31
      rw [hj]
      rfl
    · intro n hn; cases hn
  constructor
  · intro hneed
    refine ⟨finish (rootRef j) j c, fun fuel hf => ?_⟩
    simp only [toJSONSchema, (hsim fuel hf).1 (fun n hn => hneed n ((hkeys n).mp hn)), bind, Except.bind]
  · rintro ⟨n, hn, hb⟩ fuel hf
    simp only [toJSONSchema, (hsim fuel hf).2 (fun hg => hg n ((hkeys n).mpr hn) hb), bind, Except.bind]

end Verif.V31
