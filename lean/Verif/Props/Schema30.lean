import Verif.Lemmas.NoComps30

/-!
# Resolving references, OpenAPI 3.0 (C27-C30)
-/

namespace Verif.V30
open SchemaSpec Dfs

/-- C27: with schemas in the document, `ToJSONSchema` finishes with a result for every schema and every
iteration order, and the bound of the model's recursion does not influence the result. -/
theorem C27_terminates (m : GoMap OS) (o : Order) (s : OS) :
    ∃ r, ∀ fuel, m.length + 1 ≤ fuel → toJSONSchema (some m) o fuel s = .ok r := by
  obtain ⟨j, c, h, -⟩ := toJS_total (o := o) (P := fun c => todo m.keys c ≤ m.length)
    (fun c _ h => h) (fun n c hc => follow_total (o := o) m m.length n c hc) s {} (todo_init m)
  refine ⟨finish s.rootRef j c, ?_⟩
  intro fuel hf
  have := toJS_mono (g := follow (some m) o fuel) (fun n c r => follow_mono_le (some m) hf n c r) s {} _ h
  simp only [toJSONSchema, this, bind, Except.bind]

/-- C27 for documents whose `components` or `components.schemas` is missing: `ToJSONSchema` panics (nil
pointer) exactly if the schema contains a local reference, and otherwise returns the conversion. -/
theorem C27_no_components (o : Order) (fuel : Nat) (s : OS) :
    (jsRefs (conv s) = [] → toJSONSchema none o (fuel + 1) s = .ok ⟨conv s, []⟩) ∧
    (jsRefs (conv s) ≠ [] → toJSONSchema none o (fuel + 1) s = .error .panic) := by
  rcases toJS_stuck (f := follow none o (fuel + 1)) (o := o)
    (by intro n c hc; simp [follow, hc]) s {} rfl with ⟨z, c, h, hc⟩ | ⟨z, h⟩
  · refine ⟨fun _ => ?_, fun hn => absurd z hn⟩
    simp only [toJSONSchema, h, bind, Except.bind, Except.ok.injEq]
    cases s with
    | ref r =>
      have hl : localRef? r = none := by
        simp only [conv, jsRefs, jsRefsOpt, jsRefsList, jsRefsProps, List.append_nil] at z
        cases hl : localRef? r with
        | none => rfl
        | some n => simp [hl] at z
      simp only [toJS, hl, Except.ok.injEq, Prod.mk.injEq] at h
      rw [← h.2]
      simp [OS.rootRef, finish]
    | _ => simp [OS.rootRef, finish, hc]
  · exact ⟨fun e => absurd e z, fun _ => by simp [toJSONSchema, h, bind, Except.bind]⟩

/-- A document with a self-reference and a mutual recursion; used in the examples below. -/
def exampleComps : GoMap OS :=
  [("A", .schema {} none [] [] [] none [("x", .ref "#/components/schemas/B"), ("y", .ref "#/components/schemas/A")] none none),
   ("B", .schema {} none [] [] [] (some (.ref "#/components/schemas/A")) [] none none),
   ("C", .schema {} none [.ref "#/components/schemas/B"] [] [] none [] none none),
   ("D", .empty)]

/-- C27, concrete: a recursive document, in both orders. -/
example : (∃ r, toJSONSchema (some exampleComps) .id 5 (.ref "#/components/schemas/C") = .ok r ∧
      r.components.keys = ["B", "A"]) ∧
    (∃ r, toJSONSchema (some exampleComps) .rev 5 (.ref "#/components/schemas/A") = .ok r ∧
      r.components.keys = ["A", "B"]) := by
  exact ⟨⟨_, rfl, by decide +kernel⟩, ⟨_, rfl, by decide +kernel⟩⟩

/-- The root is a reference to a local component that no included component refers to. -/
def InlinedRoot (m : GoMap OS) (s : OS) (n : String) : Prop :=
  (∃ r, s = .ref r ∧ localRef? r = some n) ∧
    ∀ k, Needs m s k → n ∉ jsRefs (conv (component m k))

theorem count_ref (r n : String) (h : localRef? r = some n) : jsRefs (conv (.ref r)) = [n] := by
  simp [conv, jsRefs, jsRefsOpt, jsRefsList, jsRefsProps, h]

/-- What a run computes, exactly: which schema becomes the root, which components are included and with
which values. -/
theorem toJSONSchema_exact (m : GoMap OS) (o : Order) (fuel : Nat) (s : OS) (r : Resolved)
    (h : toJSONSchema (some m) o fuel s = .ok r) :
    (∀ n, InlinedRoot m s n → r.schema = conv (component m n) ∧
      ∀ k, k ∈ r.components.keys ↔ Needs m s k ∧ k ≠ n) ∧
    ((¬ ∃ n, InlinedRoot m s n) → r.schema = conv s ∧ ∀ k, k ∈ r.components.keys ↔ Needs m s k) ∧
    (∀ k v, r.components.get? k = some v → v = conv (component m k)) ∧
    r.components.keys.Nodup := by
  unfold toJSONSchema at h
  cases h1 : toJS (follow (some m) o fuel) o s {} with
  | error e => rw [h1] at h; cases h
  | ok r1 =>
  obtain ⟨j, c⟩ := r1
  rw [h1] at h
  simp only [bind, Except.bind, Except.ok.injEq] at h
  obtain ⟨ej, hstep⟩ := toJS_ok (fun n c c' => follow_ok m fuel n c c') s _ _ _ h1
  have hroot : ∀ r, s.rootRef = some r → jsRefs (conv s) = (localRef? r).toList := by
    intro r hr
    cases s with
    | ref r0 =>
      cases hr
      simp [conv, jsRefs, jsRefsOpt, jsRefsList, jsRefsProps]
    | empty => cases hr
    | schema => cases hr
  have hin : ∀ n, Inlined (fun n => jsRefs (conv (component m n))) (jsRefs (conv s)) s.rootRef n ↔
      InlinedRoot m s n := by
    intro n
    unfold Inlined InlinedRoot
    have : (∃ r, s.rootRef = some r ∧ localRef? r = some n) ↔ ∃ r, s = .ref r ∧ localRef? r = some n := by
      cases s <;> simp [OS.rootRef]
    rw [this]
    rfl
  have hf := hstep.finish_exact s.rootRef j hroot
  simp only [hin] at hf
  rw [h, ej] at hf
  exact hf

/-- C28: every local reference left in the result, in the schema itself or in an included component, names
an included component, and the included schema is the conversion of the component of that name. -/
theorem C28_self_contained (m : GoMap OS) (o : Order) (fuel : Nat) (s : OS) (r : Resolved)
    (h : toJSONSchema (some m) o fuel s = .ok r) :
    (∀ n ∈ jsRefs r.schema, r.components.get? n = some (conv (component m n))) ∧
    (∀ k v, r.components.get? k = some v →
      v = conv (component m k) ∧ ∀ n ∈ jsRefs v, r.components.get? n = some (conv (component m n))) := by
  obtain ⟨h1, h2, h3, h4⟩ := toJSONSchema_exact m o fuel s r h
  have get : ∀ n, n ∈ r.components.keys → r.components.get? n = some (conv (component m n)) := by
    intro n hn
    rw [GoMap.mem_keys_iff] at hn
    obtain ⟨v, hv⟩ := Option.isSome_iff_exists.mp hn
    rw [hv, h3 n v hv]
  by_cases hin : ∃ n, InlinedRoot m s n
  · obtain ⟨n0, hin⟩ := hin
    obtain ⟨e1, e2⟩ := h1 n0 hin
    obtain ⟨⟨r0, hs, hl⟩, hno⟩ := hin
    have hroot : Needs m s n0 := .here (by rw [hs, count_ref r0 n0 hl]; simp)
    have close : ∀ k, Needs m s k → ∀ n ∈ jsRefs (conv (component m k)), n ∈ r.components.keys := by
      intro k hk n hn
      exact (e2 n).mpr ⟨.there hk hn, fun e => hno k hk (e ▸ hn)⟩
    refine ⟨fun n hn => get n (close n0 hroot n (e1 ▸ hn)), ?_⟩
    intro k v hv
    have hkk : k ∈ r.components.keys := by rw [GoMap.mem_keys_iff, hv]; rfl
    refine ⟨h3 k v hv, fun n hn => get n (close k ((e2 k).mp hkk).1 n ?_)⟩
    rw [← h3 k v hv]; exact hn
  · obtain ⟨e1, e2⟩ := h2 hin
    refine ⟨fun n hn => get n ((e2 n).mpr (.here (e1 ▸ hn))), ?_⟩
    intro k v hv
    have hkk : k ∈ r.components.keys := by rw [GoMap.mem_keys_iff, hv]; rfl
    refine ⟨h3 k v hv, fun n hn => get n ((e2 n).mpr (.there ((e2 k).mp hkk) ?_))⟩
    rw [← h3 k v hv]; exact hn

/-- C30: the included components are exactly those reachable from the schema, without the root if it was
inlined; the root is inlined exactly if it is a local reference to which no reachable component refers. -/
theorem C30_only_needed (m : GoMap OS) (o : Order) (fuel : Nat) (s : OS) (r : Resolved)
    (h : toJSONSchema (some m) o fuel s = .ok r) :
    (∀ n, InlinedRoot m s n → r.schema = conv (component m n) ∧
      ∀ k, r.components.get? k ≠ none ↔ Needs m s k ∧ k ≠ n) ∧
    ((¬ ∃ n, InlinedRoot m s n) → r.schema = conv s ∧ ∀ k, r.components.get? k ≠ none ↔ Needs m s k) := by
  obtain ⟨h1, h2, -, -⟩ := toJSONSchema_exact m o fuel s r h
  have hk : ∀ k, k ∈ r.components.keys ↔ r.components.get? k ≠ none := by
    intro k; rw [GoMap.mem_keys_iff, Option.isSome_iff_ne_none]
  constructor
  · intro n hn; exact ⟨(h1 n hn).1, fun k => by rw [← hk]; exact (h1 n hn).2 k⟩
  · intro hn; exact ⟨(h2 hn).1, fun k => by rw [← hk]; exact (h2 hn).2 k⟩

/-- C29: whatever orders Go chooses for the maps of properties, and in whatever order the component map
lists its entries, the schema is the same and so is the component of every name. -/
theorem C29_order_independent (m m' : GoMap OS) (hw : m.WF) (hp : m.Perm m') (o o' : Order)
    (fuel fuel' : Nat) (s : OS) (r r' : Resolved)
    (h : toJSONSchema (some m) o fuel s = .ok r) (h' : toJSONSchema (some m') o' fuel' s = .ok r') :
    r.schema = r'.schema ∧ ∀ k, r.components.get? k = r'.components.get? k := by
  have hc : ∀ k, component m' k = component m k := by
    intro k; unfold component; rw [GoMap.get?_perm hw hp]
  have hc' : component m' = component m := funext hc
  have hneeds : ∀ k, Needs m' s k ↔ Needs m s k := by intro k; unfold Needs; rw [hc']
  have hinl : ∀ n, InlinedRoot m' s n ↔ InlinedRoot m s n := by
    intro n; unfold InlinedRoot Needs; rw [hc']
  obtain ⟨a1, a2, a3, a4⟩ := toJSONSchema_exact m o fuel s r h
  obtain ⟨b1, b2, b3, b4⟩ := toJSONSchema_exact m' o' fuel' s r' h'
  have get : ∀ k, (k ∈ r.components.keys ↔ k ∈ r'.components.keys) →
      r.components.get? k = r'.components.get? k := by
    intro k hk
    rw [GoMap.mem_keys_iff, GoMap.mem_keys_iff] at hk
    cases e : r.components.get? k with
    | none =>
      cases e' : r'.components.get? k with
      | none => rfl
      | some v' => rw [e, e'] at hk; simp at hk
    | some v =>
      cases e' : r'.components.get? k with
      | none => rw [e, e'] at hk; simp at hk
      | some v' => rw [a3 k v e, b3 k v' e', hc]
  by_cases hin : ∃ n, InlinedRoot m s n
  · obtain ⟨n, hn⟩ := hin
    obtain ⟨c1, c2⟩ := a1 n hn
    obtain ⟨d1, d2⟩ := b1 n ((hinl n).mpr hn)
    exact ⟨by rw [c1, d1, hc], fun k => get k (by rw [c2, d2, hneeds])⟩
  · obtain ⟨c1, c2⟩ := a2 hin
    obtain ⟨d1, d2⟩ := b2 (by rintro ⟨n, hn⟩; exact hin ⟨n, (hinl n).mp hn⟩)
    exact ⟨by rw [c1, d1], fun k => get k (by rw [c2, d2, hneeds])⟩

/-- C28-C30, concrete: the root is inlined and its component left out. -/
example : ∃ r, toJSONSchema (some exampleComps) .rev 5 (.ref "#/components/schemas/C") = .ok r ∧
    r.schema = conv (component exampleComps "C") ∧ r.components.keys = ["B", "A"] :=
  ⟨_, rfl, rfl, by decide +kernel⟩

/-- C28-C30, concrete: a recursive root is not inlined. -/
example : ∃ r, toJSONSchema (some exampleComps) .rev 5 (.ref "#/components/schemas/A") = .ok r ∧
    r.schema = conv (.ref "#/components/schemas/A") ∧ r.components.keys = ["A", "B"] :=
  ⟨_, rfl, rfl, by decide +kernel⟩

end Verif.V30
