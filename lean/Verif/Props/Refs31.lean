import Verif.Lemmas.Refs31
import Verif.Props.Valid30
import Verif.Spec.Valid31

/-!
# Resolving references, OpenAPI 3.1 (C27, C29, C30, C33, C50)
-/

namespace Verif.V31
open SchemaSpec ValidSpec Dfs

/-- C27 (3.1): if the components decode, `ToJSONSchema` finishes with a result for every schema and every
iteration order, and the bound of the model's recursion does not influence the result. -/
theorem C27_terminates (m : Schemas) (hd : ∀ n, m.decode n ≠ none) (o : Order) (j : JS) :
    ∃ r, ∀ fuel, m.decoded.length + 1 ≤ fuel → toJSONSchema (some m) o fuel (some j) = .ok r := by
  obtain ⟨c, h, -⟩ := find_total (o := o) (P := fun c => todo m.decoded.keys c ≤ m.decoded.length)
    (fun c _ h => h) (fun n => follow_total (o := o) m hd m.decoded.length n) j {} (by
      unfold todo
      refine Nat.le_trans (List.length_filter_le _ _) ?_
      simp [GoMap.keys])
  refine ⟨finish (rootRef j) j c, ?_⟩
  intro fuel hf
  have := find_mono (g := follow (some m) o fuel) (fun n => follow_mono_le (some m) hf n) j {} _ h
  simp only [toJSONSchema, this, bind, Except.bind]

theorem root_refs (j : JS) (r : String) (h : rootRef j = some r) : mainRefs j = (localRef? r).toList := by
  cases j with
  | zero => cases h
  | bool => cases h
  | obj flat =>
    have h : flat.ref = some r := h
    simp [mainRefs, h]

theorem inlined_iff (m : Schemas) (j : JS) (n : String) :
    Inlined (fun k => mainRefs (component31 m k)) (mainRefs j) (rootRef j) n ↔ InlinedRoot31 m j n := Iff.rfl

theorem run (m : Schemas) (o : Order) (fuel : Nat) (j : JS) (r : Resolved)
    (h : toJSONSchema (some m) o fuel (some j) = .ok r) :
    ∃ c, Step (component31 m) (fun k => mainRefs (component31 m k)) (mainRefs j) {} c ∧ finish (rootRef j) j c = r := by
  unfold toJSONSchema at h
  simp only at h
  cases h1 : find (follow (some m) o fuel) o j {} with
  | error e => rw [h1] at h; cases h
  | ok c =>
    rw [h1] at h
    simp only [bind, Except.bind, Except.ok.injEq] at h
    exact ⟨c, find_ok (fun n => follow_ok m fuel n) j _ _ h1, h⟩

/-- C30 (3.1): the included components are exactly those reachable from the schema, without the root if it
was inlined; the root is inlined exactly if it is a local reference to which no reachable component
refers. -/
theorem C30_only_needed (m : Schemas) (o : Order) (fuel : Nat) (j : JS) (r : Resolved)
    (h : toJSONSchema (some m) o fuel (some j) = .ok r) :
    (∀ n, InlinedRoot31 m j n → r.schema = component31 m n ∧
      ∀ k, r.components.get? k ≠ none ↔ Needs31 m j k ∧ k ≠ n) ∧
    ((¬ ∃ n, InlinedRoot31 m j n) → r.schema = j ∧ ∀ k, r.components.get? k ≠ none ↔ Needs31 m j k) := by
  obtain ⟨c, hs, rfl⟩ := run m o fuel j r h
  obtain ⟨h1, h2, -, -⟩ := hs.finish_exact (rootRef j) j (root_refs j)
  have hk : ∀ k, k ∈ (finish (rootRef j) j c).components.keys ↔ (finish (rootRef j) j c).components.get? k ≠ none := by
    intro k; rw [GoMap.mem_keys_iff, Option.isSome_iff_ne_none]
  constructor
  · intro n hn; exact ⟨(h1 n hn).1, fun k => by rw [← hk]; exact (h1 n hn).2 k⟩
  · intro hn; exact ⟨(h2 hn).1, fun k => by rw [← hk]; exact (h2 hn).2 k⟩

/-- C33: every local reference of the result under the main keywords, in the schema itself or in an
included component, is included, with the component of that name. -/
theorem C33_collected (m : Schemas) (o : Order) (fuel : Nat) (j : JS) (r : Resolved)
    (h : toJSONSchema (some m) o fuel (some j) = .ok r) :
    (∀ n ∈ mainRefs r.schema, r.components.get? n = some (component31 m n)) ∧
    (∀ k v, r.components.get? k = some v →
      v = component31 m k ∧ ∀ n ∈ mainRefs v, r.components.get? n = some (component31 m n)) := by
  obtain ⟨e1, e2⟩ := C30_only_needed m o fuel j r h
  obtain ⟨c, hs, rfl⟩ := run m o fuel j r h
  obtain ⟨h1, h2, h3⟩ := hs.finish_closed (rootRef j) j (root_refs j)
  refine ⟨?_, ?_⟩
  · by_cases hin : ∃ n, InlinedRoot31 m j n
    · obtain ⟨n, hin⟩ := hin
      rw [(e1 n hin).1]
      exact h1 n hin
    · rw [(e2 hin).1]
      exact h2 hin
  · intro k v hv
    obtain ⟨e, hcl⟩ := h3 k v hv
    exact ⟨e, fun n hn => hcl n (e ▸ hn)⟩

/-- C29 (3.1): the result does not depend on the iteration orders of the maps. -/
theorem C29_order_independent (m : Schemas) (o o' : Order) (fuel fuel' : Nat) (j : JS) (r r' : Resolved)
    (h : toJSONSchema (some m) o fuel (some j) = .ok r) (h' : toJSONSchema (some m) o' fuel' (some j) = .ok r') :
    r.schema = r'.schema ∧ ∀ k, r.components.get? k = r'.components.get? k := by
  obtain ⟨a1, a2⟩ := C30_only_needed m o fuel j r h
  obtain ⟨b1, b2⟩ := C30_only_needed m o' fuel' j r' h'
  have a3 := (C33_collected m o fuel j r h).2
  have b3 := (C33_collected m o' fuel' j r' h').2
  have get : ∀ k, (r.components.get? k ≠ none ↔ r'.components.get? k ≠ none) →
      r.components.get? k = r'.components.get? k := by
    intro k hk
    cases e : r.components.get? k with
    | none =>
      cases e' : r'.components.get? k with
      | none => rfl
      | some v' => rw [e, e'] at hk; simp at hk
    | some v =>
      cases e' : r'.components.get? k with
      | none => rw [e, e'] at hk; simp at hk
      | some v' => rw [(a3 k v e).1, (b3 k v' e').1]
  by_cases hin : ∃ n, InlinedRoot31 m j n
  · obtain ⟨n, hn⟩ := hin
    obtain ⟨c1, c2⟩ := a1 n hn
    obtain ⟨d1, d2⟩ := b1 n hn
    exact ⟨by rw [c1, d1], fun k => get k (by rw [c2, d2])⟩
  · obtain ⟨c1, c2⟩ := a2 hin
    obtain ⟨d1, d2⟩ := b2 hin
    exact ⟨by rw [c1, d1], fun k => get k (by rw [c2, d2])⟩

/-- C33, what is missed: references under other keywords are not collected. A schema whose only references
are under such keywords has them dangling in the result. -/
theorem C33_other_keywords_dangle (m : Schemas) (o : Order) (fuel : Nat) (flat : JFlat) (hr : flat.ref = none)
    (others : List (String × JS)) (r : Resolved)
    (h : toJSONSchema (some m) o fuel (some (.obj flat none [] [] [] none [] [] none others)) = .ok r) :
    r.schema = .obj flat none [] [] [] none [] [] none others ∧ jsRefs r.schema = jsRefsProps others ∧
      ∀ n, r.components.get? n = none := by
  obtain ⟨-, e2⟩ := C30_only_needed m o fuel _ r h
  have hroot : rootRef (.obj flat none [] [] [] none [] [] none others) = none := hr
  obtain ⟨f1, f2⟩ := e2 (by rintro ⟨n, ⟨x, hx, -⟩, -⟩; rw [hroot] at hx; cases hx)
  refine ⟨f1, by rw [f1]; simp [jsRefs, hr, jsRefsOpt, jsRefsList, jsRefsProps], ?_⟩
  intro n
  have := f2 n
  have hno : ¬ Needs31 m (.obj flat none [] [] [] none [] [] none others) n := by
    unfold Needs31
    have : mainRefs (.obj flat none [] [] [] none [] [] none others) = [] := by
      simp [mainRefs, hr, mainRefsOpt, mainRefsList, mainRefsProps]
    rw [this]
    exact reach_nil
  cases e : r.components.get? n with
  | none => rfl
  | some v => exact absurd (this.mp (by rw [e]; simp)) hno

/-- C33, what is missed: a sub-schema beside a `$ref` is not visited either. -/
theorem C33_beside_ref_dangles (m : Schemas) (o : Order) (fuel : Nat) (flat : JFlat) (x : String)
    (hr : flat.ref = some x) (hx : localRef? x = none) (allOf : List JS) (r : Resolved)
    (h : toJSONSchema (some m) o fuel (some (.obj flat none allOf [] [] none [] [] none [])) = .ok r) :
    jsRefs r.schema = jsRefsList allOf ∧ ∀ n, r.components.get? n = none := by
  obtain ⟨-, e2⟩ := C30_only_needed m o fuel _ r h
  have hroot : rootRef (.obj flat none allOf [] [] none [] [] none []) = some x := hr
  obtain ⟨f1, f2⟩ := e2 (by
    rintro ⟨n, ⟨y, hy, hl⟩, -⟩
    rw [hroot] at hy; cases hy
    rw [hx] at hl; cases hl)
  refine ⟨by rw [f1]; simp [jsRefs, hr, hx, jsRefsOpt, jsRefsList, jsRefsProps], ?_⟩
  intro n
  have := f2 n
  have hno : ¬ Needs31 m (.obj flat none allOf [] [] none [] [] none []) n := by
    unfold Needs31
    have : mainRefs (.obj flat none allOf [] [] none [] [] none []) = [] := by
      simp [mainRefs, hr, hx]
    rw [this]
    exact reach_nil
  cases e : r.components.get? n with
  | none => rfl
  | some v => exact absurd (this.mp (by rw [e]; simp)) hno

/-! ## Schemas that use only the main keywords -/

mutual
theorem refs_main : ∀ (j : JS), MainOnly j → jsRefs j = mainRefs j
  | .zero => by intro _; simp [jsRefs, mainRefs]
  | .bool b => by intro _; simp [jsRefs, mainRefs]
  | .obj flat not allOf oneOf anyOf items itemsArr props addl others => by
    intro h
    simp only [MainOnly] at h
    obtain ⟨h0, hr, h1, h2, h3, h4, h5, h6, h7, h8⟩ := h
    subst h0
    cases e : flat.ref with
    | none =>
      simp only [jsRefs, mainRefs, e, refs_mainOpt not h1, refs_mainList allOf h2, refs_mainList oneOf h3,
        refs_mainList anyOf h4, refs_mainOpt items h5, refs_mainList itemsArr h6, refs_mainProps props h7,
        refs_mainOpt addl h8, jsRefsProps]
      simp
    | some r =>
      obtain ⟨a1, a2, a3, a4, a5, a6, a7, a8⟩ := hr (by rw [e]; simp)
      subst a1 a2 a3 a4 a5 a6 a7 a8
      simp [jsRefs, mainRefs, e, jsRefsOpt, jsRefsList, jsRefsProps]
theorem refs_mainOpt : ∀ (j : Option JS), MainOnlyOpt j → jsRefsOpt j = mainRefsOpt j
  | none => by intro _; simp [jsRefsOpt, mainRefsOpt]
  | some j => by intro h; simp only [MainOnlyOpt] at h; simp [jsRefsOpt, mainRefsOpt, refs_main j h]
theorem refs_mainList : ∀ (j : List JS), MainOnlyList j → jsRefsList j = mainRefsList j
  | [] => by intro _; simp [jsRefsList, mainRefsList]
  | j :: js => by
    intro h; simp only [MainOnlyList] at h
    simp [jsRefsList, mainRefsList, refs_main j h.1, refs_mainList js h.2]
theorem refs_mainProps : ∀ (j : List (String × JS)), MainOnlyProps j → jsRefsProps j = mainRefsProps j
  | [] => by intro _; simp [jsRefsProps, mainRefsProps]
  | (n, j) :: js => by
    intro h; simp only [MainOnlyProps] at h
    simp [jsRefsProps, mainRefsProps, refs_main j h.1, refs_mainProps js h.2]
end

theorem component_main {m : Schemas} (hm : ∀ p ∈ m.decoded, ∀ j, p.2 = some j → MainOnly j) (n : String) :
    MainOnly (component31 m n) := by
  have he : MainOnly emptyJS := by
    simp [MainOnly, emptyJS, MainOnlyOpt, MainOnlyList, MainOnlyProps]
  unfold component31 Schemas.decode
  cases h : m.decoded.get? n with
  | none =>
    simp only
    split <;> exact he
  | some j =>
    cases j with
    | none => exact he
    | some j => exact hm _ (GoMap.mem_of_get? h) j rfl

/-- C33: if the schema and the components use only the main keywords, every local reference at any place
of the result is included. -/
theorem C33_self_contained (m : Schemas) (hm : ∀ p ∈ m.decoded, ∀ j, p.2 = some j → MainOnly j)
    (o : Order) (fuel : Nat) (j : JS) (hj : MainOnly j) (r : Resolved)
    (h : toJSONSchema (some m) o fuel (some j) = .ok r) :
    (∀ n ∈ jsRefs r.schema, r.components.get? n = some (component31 m n)) ∧
    (∀ k v, r.components.get? k = some v →
      v = component31 m k ∧ ∀ n ∈ jsRefs v, r.components.get? n = some (component31 m n)) := by
  obtain ⟨e1, e2⟩ := C30_only_needed m o fuel j r h
  obtain ⟨h1, h2⟩ := C33_collected m o fuel j r h
  have hs : MainOnly r.schema := by
    by_cases hin : ∃ n, InlinedRoot31 m j n
    · obtain ⟨n, hin⟩ := hin
      rw [(e1 n hin).1]; exact component_main hm n
    · rw [(e2 hin).1]; exact hj
  refine ⟨by rw [refs_main _ hs]; exact h1, ?_⟩
  intro k v hv
  obtain ⟨e, hc⟩ := h2 k v hv
  refine ⟨e, ?_⟩
  rw [refs_main v (e ▸ component_main hm k)]
  exact hc

theorem env_eq (σ : Sem) (ext : String → Any → Prop) (m : Schemas) (C : GoMap JS)
    (hC : ∀ k v, C.get? k = some v →
      v = component31 m k ∧ ∀ n ∈ jsRefs v, C.get? n = some (component31 m n)) :
    ∀ k r n, localRef? r = some n → C.get? n ≠ none → envJS σ ext C k r = envDoc σ ext m k r := by
  intro k
  induction k with
  | zero => intro r n hr _; simp [envJS, envDoc, hr]
  | succ k ih =>
    intro r n hr hn
    obtain ⟨j, hj⟩ := Option.ne_none_iff_exists'.mp hn
    obtain ⟨e, hcl⟩ := hC n j hj
    simp only [envJS, envDoc, hr, hj]
    rw [V30.okJS_congr σ _ (envDoc σ ext m k) j ⟨?_, ?_⟩, e]
    · intro r' hr'
      cases k <;> simp [envJS, envDoc, hr']
    · intro n' hn' r' hr'
      exact ih r' n' hr' (by rw [hcl n' hn']; simp)

/-- C50: for 3.1 schemas with the main keywords only, the result of `ToJSONSchema` with its included
components accepts exactly the values that the schema accepts in its document. -/
theorem C50_same_values (m : Schemas) (hm : ∀ p ∈ m.decoded, ∀ j, p.2 = some j → MainOnly j)
    (o : Order) (fuel : Nat) (j : JS) (hj : MainOnly j) (r : Resolved)
    (h : toJSONSchema (some m) o fuel (some j) = .ok r) (σ : Sem) (ext : String → Any → Prop) (v : Any) :
    ValidJS σ ext r.components r.schema v ↔ ValidDoc σ ext m j v := by
  obtain ⟨e1, e2⟩ := C30_only_needed m o fuel j r h
  obtain ⟨h1, h2⟩ := C33_self_contained m hm o fuel j hj r h
  have hcongr : ∀ k, okJS σ (envJS σ ext r.components k) r.schema = okJS σ (envDoc σ ext m k) r.schema := by
    intro k
    apply V30.okJS_congr
    refine ⟨?_, ?_⟩
    · intro r' hr'
      cases k <;> simp [envJS, envDoc, hr']
    · intro n hn r' hr'
      exact env_eq σ ext m r.components h2 k r' n hr' (by rw [h1 n hn]; simp)
  unfold ValidJS ValidDoc
  simp only [hcongr]
  by_cases hin : ∃ n, InlinedRoot31 m j n
  · obtain ⟨n, hin⟩ := hin
    rw [(e1 n hin).1]
    obtain ⟨⟨r0, hs0, hl⟩, -⟩ := hin
    have hd : ∀ k, okJS σ (envDoc σ ext m (k + 1)) j = okJS σ (envDoc σ ext m k) (component31 m n) := by
      intro k
      cases j with
      | zero => cases hs0
      | bool => cases hs0
      | obj flat =>
        have hs0 : flat.ref = some r0 := hs0
        simp [okJS, hs0, envDoc, hl]
    constructor
    · rintro ⟨K, hK⟩
      refine ⟨K + 1, fun k hk => ?_⟩
      obtain ⟨k', rfl⟩ : ∃ k', k = k' + 1 := ⟨k - 1, by omega⟩
      rw [hd]
      exact hK k' (by omega)
    · rintro ⟨K, hK⟩
      refine ⟨K, fun k hk => ?_⟩
      rw [← hd]
      exact hK (k + 1) (by omega)
  · rw [(e2 hin).1]

/-! ## Concrete documents -/

/-- A document with recursion; used in the examples. -/
def exampleSchemas : Schemas where
  decoded := [
    ("A", some (.obj {} none [] [] [] none []
      [("x", .obj { ref := some "#/components/schemas/B" } none [] [] [] none [] [] none []),
       ("y", .obj { ref := some "#/components/schemas/A" } none [] [] [] none [] [] none [])] none [])),
    ("B", some (.obj {} none [] [] [] (some (.obj { ref := some "#/components/schemas/A" } none [] [] [] none [] [] none [])) [] [] none [])),
    ("C", some (.obj {} none [.obj { ref := some "#/components/schemas/B" } none [] [] [] none [] [] none []] [] [] none [] [] none []))]
  missing := true

/-- C27, C29, C30, C33, concrete. -/
example : (∃ r, toJSONSchema (some exampleSchemas) .id 5
      (some (.obj { ref := some "#/components/schemas/C" } none [] [] [] none [] [] none [])) = .ok r ∧
      r.schema = component31 exampleSchemas "C" ∧ r.components.keys = ["B", "A"]) ∧
    (∃ r, toJSONSchema (some exampleSchemas) .rev 5
      (some (.obj { ref := some "#/components/schemas/A" } none [] [] [] none [] [] none [])) = .ok r ∧
      r.components.keys = ["A", "B"]) := by
  exact ⟨⟨_, rfl, rfl, by decide +kernel⟩, ⟨_, rfl, by decide +kernel⟩⟩

example : ∀ p ∈ exampleSchemas.decoded, ∀ j, p.2 = some j → MainOnly j := by
  intro p hp j hj
  simp only [exampleSchemas, List.mem_cons, List.not_mem_nil, or_false] at hp
  rcases hp with rfl | rfl | rfl <;> cases hj <;>
    simp [MainOnly, MainOnlyOpt, MainOnlyList, MainOnlyProps]

/-- C33, concrete: a reference under `patternProperties` dangles. -/
example : ∃ r, toJSONSchema (some exampleSchemas) .id 5 (some (.obj {} none [] [] [] none [] [] none
      [("patternProperties", .obj { ref := some "#/components/schemas/C" } none [] [] [] none [] [] none [])])) = .ok r ∧
    jsRefs r.schema = ["C"] ∧ r.components.keys = [] := by
  exact ⟨_, rfl, by decide +kernel, rfl⟩

end Verif.V31
