import Verif.Lemmas.Schema30

/-!
# The traversal when the document has no component schemas
-/

namespace Verif.V30
open SchemaSpec

variable {f : Follow} {o : Order}

/-- In a context where nothing was processed, the action succeeds with `x` if the list of references is
empty and panics otherwise. -/
def Stuck {α : Type} (a : Ctx → Except Stop (α × Ctx)) (L : List String) (x : α) : Prop :=
  ∀ c, c.processed = [] →
    (L = [] ∧ ∃ c', a c = .ok (x, c') ∧ c'.processed = []) ∨ (L ≠ [] ∧ a c = .error .panic)

theorem runOrder_stuck {acts : List Act} {R : Nat → List String} {J : Nat → JS}
    (ha : ∀ i a, acts[i]? = some a → Stuck a (R i) (J i)) :
    ∀ (is : List Nat), (∀ i ∈ is, i < acts.length) →
      Stuck (runOrder acts is) (is.flatMap R) (is.map (fun i => (i, J i))) := by
  intro is
  induction is with
  | nil => intro _ c hc; exact .inl ⟨rfl, c, rfl, hc⟩
  | cons i is ih =>
    intro hl c hc
    have hi := hl i (by simp)
    have hg : acts[i]? = some acts[i] := List.getElem?_eq_getElem hi
    simp only [runOrder, hg, bind, Except.bind, List.flatMap_cons]
    rcases ha i _ hg c hc with ⟨e, c1, h1, hc1⟩ | ⟨e, h1⟩
    · rw [h1]
      simp only
      rcases ih (fun x hx => hl x (by simp [hx])) c1 hc1 with ⟨e', c2, h2, hc2⟩ | ⟨e', h2⟩
      · rw [h2]
        exact .inl ⟨by rw [e, e']; rfl, c2, rfl, hc2⟩
      · rw [h2]
        exact .inr ⟨by rw [e]; exact e', rfl⟩
    · rw [h1]
      exact .inr ⟨by simp [e], rfl⟩

/-- A whole property map. -/
theorem props_stuck {ss : List (String × OS)}
    (ha : ∀ (i : Nat) (n : String) (s : OS), ss[i]? = some (n, s) →
      ∃ a, (toJSProps f o ss)[i]? = some a ∧ Stuck a (jsRefs (conv s)) (conv s))
    (is : List Nat) (hp : is.Perm (List.range ss.length)) (c : Ctx) (hc : c.processed = []) :
    (jsRefsProps (convProps ss) = [] ∧ ∃ rs c', runOrder (toJSProps f o ss) is c = .ok (rs, c') ∧
      collect (ss.map (·.1)) rs = convProps ss ∧ c'.processed = []) ∨
    (jsRefsProps (convProps ss) ≠ [] ∧ runOrder (toJSProps f o ss) is c = .error .panic) := by
  let R : Nat → List String := fun i => ((ss.map (fun p => jsRefs (conv p.2))).getD i [])
  let J : Nat → JS := fun i => ((ss.map (fun p => conv p.2)).getD i .zero)
  have hmem : ∀ i, i ∈ is ↔ i < ss.length := by
    intro i; rw [hp.mem_iff, List.mem_range]
  have h := runOrder_stuck (acts := toJSProps f o ss) (R := R) (J := J) (by
    intro i a hia
    have hi : i < ss.length := by
      rw [← toJSProps_length (f := f) (o := o) ss]
      exact (List.getElem?_eq_some_iff.mp hia).1
    obtain ⟨a', h1, h2⟩ := ha i (ss[i]).1 (ss[i]).2 (by simp [hi])
    rw [hia] at h1
    cases h1
    simp only [R, J, List.getD, List.getElem?_map, List.getElem?_eq_getElem hi, Option.map_some, Option.getD_some]
    exact h2) is (by intro i hi; rw [toJSProps_length]; exact (hmem i).mp hi) c hc
  have hperm : (is.flatMap R).Perm (jsRefsProps (convProps ss)) := by
    refine (flatMap_perm hp).trans ?_
    have := range_flatMap_getD (ss.map (fun p => jsRefs (conv p.2)))
    simp only [List.length_map] at this
    rw [show (List.range ss.length).flatMap R = _ from this, jsRefsProps_eq, convProps_eq]
    simp [List.map_map, Function.comp_def]
  rcases h with ⟨e, c', h1, hc'⟩ | ⟨e, h1⟩
  · refine .inl ⟨?_, _, c', h1, ?_, hc'⟩
    · rw [e] at hperm; exact hperm.nil_eq.symm
    · rw [collect_eq]
      · rw [convProps_eq]
        apply List.ext_getElem
        · simp
        · intro i h1 h2
          have hi : i < ss.length := by simpa using h2
          simp [J, List.getElem?_eq_getElem hi]
      · intro i hi; rw [hmem]; simpa using hi
  · refine .inr ⟨?_, h1⟩
    intro e'; rw [e'] at hperm; exact e hperm.eq_nil

mutual
theorem toJS_stuck (hf : ∀ n c, c.processed = [] → f n c = .error .panic) : ∀ (s : OS),
    Stuck (toJS f o s) (jsRefs (conv s)) (conv s)
  | .empty => by
    intro c hc
    exact .inl ⟨rfl, c, rfl, hc⟩
  | .ref r => by
    intro c hc
    simp only [toJS, conv, jsRefs, jsRefsOpt, jsRefsList, jsRefsProps, List.append_nil]
    cases hl : localRef? r with
    | none => exact .inl ⟨rfl, c, rfl, hc⟩
    | some n =>
      refine .inr ⟨by simp, ?_⟩
      simp [hf n c hc, bind, Except.bind]
  | .schema flat not allOf oneOf anyOf items props addlBool addl => by
    have i1 := toJSOpt_stuck hf not
    have i2 := toJSList_stuck hf allOf
    have i3 := toJSList_stuck hf oneOf
    have i4 := toJSList_stuck hf anyOf
    have i5 := toJSOpt_stuck hf items
    have i6 := fun is hp => props_stuck (toJSProps_stuck hf props) is hp
    have i7 := toJSOpt_stuck hf addl
    intro c hc
    simp only [toJS, conv, jsRefs, flatToJS_ref, jsRefsList, jsRefsProps, List.append_nil, List.nil_append,
      List.append_assoc, bind, Except.bind]
    rcases i1 c hc with ⟨z, c, h, hc⟩ | ⟨z, h⟩
    case inr => rw [h]; exact .inr ⟨by simp [z], rfl⟩
    rw [h, z]; simp only [List.nil_append]
    rcases i2 c hc with ⟨z, c, h, hc⟩ | ⟨z, h⟩
    case inr => rw [h]; exact .inr ⟨by simp [z], rfl⟩
    rw [h, z]; simp only [List.nil_append]
    rcases i3 c hc with ⟨z, c, h, hc⟩ | ⟨z, h⟩
    case inr => rw [h]; exact .inr ⟨by simp [z], rfl⟩
    rw [h, z]; simp only [List.nil_append]
    rcases i4 c hc with ⟨z, c, h, hc⟩ | ⟨z, h⟩
    case inr => rw [h]; exact .inr ⟨by simp [z], rfl⟩
    rw [h, z]; simp only [List.nil_append]
    rcases i5 c hc with ⟨z, c, h, hc⟩ | ⟨z, h⟩
    case inr => rw [h]; exact .inr ⟨by simp [z], rfl⟩
    rw [h, z]; simp only [List.nil_append]
    rcases i6 _ (o.perm c.clock props.length) { c with clock := c.clock + 1 } hc with ⟨z, rs, c, h, e6, hc⟩ | ⟨z, h⟩
    case inr => rw [h]; exact .inr ⟨by simp [z], rfl⟩
    rw [h, z]; simp only [List.nil_append, e6]
    cases addlBool with
    | some b => exact .inl ⟨by simp [jsRefsOpt, jsRefs], c, rfl, hc⟩
    | none =>
      simp only
      rcases i7 c hc with ⟨z, c, h, hc⟩ | ⟨z, h⟩
      · rw [h]; exact .inl ⟨z, c, rfl, hc⟩
      · rw [h]; exact .inr ⟨z, rfl⟩
theorem toJSOpt_stuck (hf : ∀ n c, c.processed = [] → f n c = .error .panic) : ∀ (s : Option OS),
    Stuck (runOpt (toJSOpt f o s)) (jsRefsOpt (convOpt s)) (convOpt s)
  | none => fun c hc => .inl ⟨rfl, c, rfl, hc⟩
  | some s => by
    have h := toJS_stuck hf s
    intro c hc
    simp only [toJSOpt, runOpt, bind, Except.bind, convOpt, jsRefsOpt]
    rcases h c hc with ⟨z, c, h, hc⟩ | ⟨z, h⟩
    · rw [h]; exact .inl ⟨z, c, rfl, hc⟩
    · rw [h]; exact .inr ⟨z, rfl⟩
theorem toJSList_stuck (hf : ∀ n c, c.processed = [] → f n c = .error .panic) : ∀ (s : List OS),
    Stuck (runList (toJSList f o s)) (jsRefsList (convList s)) (convList s)
  | [] => fun c hc => .inl ⟨rfl, c, rfl, hc⟩
  | s :: ss => by
    have h := toJS_stuck hf s
    have hs := toJSList_stuck hf ss
    intro c hc
    simp only [toJSList, runList, bind, Except.bind, convList, jsRefsList]
    rcases h c hc with ⟨z, c, h, hc⟩ | ⟨z, h⟩
    case inr => rw [h]; exact .inr ⟨by simp [z], rfl⟩
    rw [h, z]; simp only [List.nil_append]
    rcases hs c hc with ⟨z, c, h, hc⟩ | ⟨z, h⟩
    · rw [h]; exact .inl ⟨z, c, rfl, hc⟩
    · rw [h]; exact .inr ⟨z, rfl⟩
theorem toJSProps_stuck (hf : ∀ n c, c.processed = [] → f n c = .error .panic) : ∀ (ss : List (String × OS))
    (i : Nat) (n : String) (s : OS), ss[i]? = some (n, s) →
      ∃ a, (toJSProps f o ss)[i]? = some a ∧ Stuck a (jsRefs (conv s)) (conv s)
  | [] => by intro i n s h; simp at h
  | (n0, s0) :: ss => by
    have ih := toJS_stuck hf s0
    have ihs := toJSProps_stuck hf ss
    intro i n s h
    cases i with
    | zero =>
      simp only [List.getElem?_cons_zero, Option.some.injEq, Prod.mk.injEq] at h
      rw [← h.2]
      exact ⟨toJS f o s0, by simp [toJSProps], ih⟩
    | succ i =>
      simp only [List.getElem?_cons_succ] at h
      obtain ⟨a, h1, h2⟩ := ihs i n s h
      exact ⟨a, by simp [toJSProps, h1], h2⟩
end

end Verif.V30
