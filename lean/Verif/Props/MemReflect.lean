import Verif.Spec.MemReflect
import Verif.Props.Mem
import Verif.Lemmas.Doc

/-!
# What operation contexts share with the document (C89, OpenAPI 3.0)

`Reflector.AddOperation` stores a copy of the struct of the context's operation. The theorems say what that means for
operations added with other contexts and with the same context again.
-/

namespace Verif.Mem

/-- `AddOperation` gives the objects in `E` no way to objects that were there. -/
theorem addOperation_reach {m m' : Memory} {s : Nat} {E : Nat → Prop} {method path : String} {op : MVal}
    {e : Option String} (ha : Apart m s E) (hop : ∀ y, op.Holds y → From m E y) (hc : CodesOk m op)
    (h : addOperation m s method path op = (m', e)) {x : Nat} (hx : From m' E x) : From m E x ∨ m.length ≤ x := by
  rcases addOperation_cases m s method path op with ⟨_, -, h1⟩ | ⟨-, m1, op1, h1, h2⟩
  · rw [h1] at h; cases h
    exact .inl hx
  · rw [h2] at h
    obtain ⟨hcf, hown, hap⟩ := ensured_apart ha hop hc h1
    have hu : ∀ f ∈ [fun (m : Memory) (a : Nat) => (m.set a (Obj.cell op1), (none : Option String))],
        Uses (fun x => E x ∨ op1.Holds x) f := by
      intro f hf
      rcases List.mem_singleton.mp hf with rfl
      exact assign_uses E op1
    have has : ∀ f ∈ [fun (m : Memory) (a : Nat) => (m.set a (Obj.cell op1), (none : Option String))],
        AssignsOnly f := by
      intro f hf
      rcases List.mem_singleton.mp hf with rfl
      exact assign_assigns op1
    have hkeep : ∀ x, x < m1.length → ¬ Own m1 s x → m'[x]? = m1[x]? := by
      intro x hx hn
      cases e with
      | none => exact C88_setup_ok_assigns hap hu has h x hx hn
      | some e => exact (C88_setup_error_assigns hap has h).1 x hx
    refine hcf.reach (hx.same fun y hy => ?_)
    have hy' : From m1 (fun x => E x ∨ op1.Holds x) y := hy.mono fun z hz => .root (.inl hz)
    exact hkeep y (hy'.lt hap.closed hap.env) (hap.others y hy')

/-- What `AddOperation` can change, object by object. -/
theorem addOperation_frame {m m' : Memory} {s : Nat} {E : Nat → Prop} {method path : String} {op : MVal}
    {e : Option String} (ha : Apart m s E) (hop : ∀ y, op.Holds y → From m E y) (hc : CodesOk m op)
    (hs : ∃ fs, op = .struct fs) (h : addOperation m s method path op = (m', e)) :
    (∀ x, x < m.length → ¬ Own m s x → ¬ From m E x → m'[x]? = m[x]?) ∧ Apart m' s E ∧
    (∀ msg, e = some msg → (∀ path' method', opAt m' s path' method' = opAt m s path' method') ∧
      ∀ x, x < m.length → ¬ From m E x → m'[x]? = m[x]?) := by
  have hcod : ∀ x, (op.inner "Responses").field "MapOfResponseOrRefValues" = .ref x → From m E x := by
    intro x hx
    exact hop x (inner_holds (field_holds (go := "MapOfResponseOrRefValues") (by rw [hx]; exact .ref)))
  cases e with
  | none =>
    obtain ⟨r, stored, -, -, -, -, -, -, -, h8, h9⟩ := C88_add_ok ha hop hc hs h
    refine ⟨fun x hx hn hf => ?_, h9, nofun⟩
    rcases h8 x hx hn with h | ⟨-, h⟩
    · exact h
    · exact absurd (hcod x h) hf
  | some msg =>
    obtain ⟨h1, h2, -, -, h5⟩ := C88_add_error ha hop hc h
    have h6 : ∀ x, x < m.length → ¬ From m E x → m'[x]? = m[x]? := by
      intro x hx hf
      rcases h1 x hx with h | ⟨-, h⟩
      · exact h
      · exact absurd (hcod x h) hf
    exact ⟨fun x hx _ hf => h6 x hx hf, h5, fun _ _ => ⟨h2, h6⟩⟩

/-- The context's operation is not written by `Spec.AddOperation`, and can be used again. -/
theorem addOperation_isOp {m m' : Memory} {s a : Nat} {E : Nat → Prop} {method path : String}
    (ha : Apart m s E) (hi : E a ∧ IsOp m a) (h : addOperation m s method path (deref m a) = (m', none)) :
    deref m' a = deref m a ∧ IsOp m' a := by
  obtain ⟨he, hs, hc⟩ := hi
  have hop : ∀ y, (deref m a).Holds y → From m E y := by
    intro y hy
    obtain ⟨o, h1, h2⟩ := deref_holds hy
    exact .step (.root he) h1 h2
  obtain ⟨r, stored, -, hfree, -, -, -, -, -, hk, -⟩ := C88_add_ok ha hop hc hs h
  have hcod : ∀ x, ((deref m a).inner "Responses").field "MapOfResponseOrRefValues" = .ref x → From m E x := by
    intro x hx
    exact hop x (inner_holds (field_holds (go := "MapOfResponseOrRefValues") (by rw [hx]; exact .ref)))
  have ha' : deref m' a = deref m a := by
    rcases hk a (ha.env a he) (ha.others a (.root he)) with h1 | ⟨-, h1⟩
    · simp only [deref, h1]
    · -- the operation is not the map of its responses
      rcases hc with h2 | ⟨c, es, h2, h3⟩
      · rw [h1] at h2; cases h2
      · rw [h1] at h2
        cases h2
        obtain ⟨fs, hs⟩ := hs
        simp only [deref, h3] at hs
        cases hs
  refine ⟨ha', ⟨hs.imp fun fs h => by rw [ha']; exact h, ?_⟩⟩
  rw [ha']
  rcases hc with h2 | ⟨c, es, h2, h3⟩
  · exact .inl h2
  · refine .inr ⟨c, ?_⟩
    rcases hk c ((hcod c h2).lt ha.closed ha.env) (ha.others c (hcod c h2)) with h1 | ⟨⟨hn1, hn2⟩, -⟩
    · exact ⟨es, h2, by rw [h1, h3]⟩
    · rw [h2, entries_map h3] at hn1
      subst hn1
      obtain ⟨d, hd, -⟩ := C88_add_caller ha hop hfree h2 h3 hn2 h
      exact ⟨_, h2, hd⟩

/-- What a call of `Reflector.AddOperation` can change. -/
theorem reflectorAdd_spec {m m' : Memory} {s a : Nat} {E : Nat → Prop} {method path : String} {f : MSetup}
    {e : Option String} (ha : Apart m s (fun x => x = a ∨ E x)) (hi : IsOp m a) (hf : Reflects E f)
    (h : reflectorAdd m s a method path f = (m', e)) :
    (∀ x, x < m.length → ¬ Own m s x → ¬ From m (fun x => x = a ∨ E x) x → m'[x]? = m[x]?) ∧
    Apart m' s (fun x => x = a ∨ E x) ∧
    (∀ msg, e = some msg → (∀ path' method', opAt m' s path' method' = opAt m s path' method') ∧
      ∀ x, x < m.length → ¬ From m (fun x => x = a ∨ E x) x → m'[x]? = m[x]?) ∧
    (e = none → ∃ m1 r stored, f m a = (m1, none) ∧ sanitizeMethodPath (goToLower method) path = .ok r ∧
      opAt m s path (goToLower method) = none ∧
      (∀ path' method', opAt m' s path' method' =
        if path' = r.path ∧ method' = r.method then some stored else opAt m s path' method') ∧
      (¬ NoResponse m1 (deref m1 a) → stored = deref m1 a ∧ ∀ k, tree m' k stored = tree m1 k (deref m1 a)) ∧
      deref m' a = deref m1 a ∧ IsOp m' a) ∧
    (∀ x, From m' (fun x => x = a ∨ E x) x → From m (fun x => x = a ∨ E x) x ∨ m.length ≤ x) := by
  have hcf := hf.1 m a
  obtain ⟨hown, hap, -⟩ := hcf.apart ha ha.others ha.env
  cases hr : f m a with
  | mk m1 e1 =>
    rw [hr] at hcf hown hap
    simp only [reflectorAdd, hr] at h
    cases e1 with
    | some e1 =>
      cases h
      exact ⟨fun x hx _ hn => hcf.keeps x hx hn, hap, fun msg _ => ⟨opAt_same hown, hcf.keeps⟩, nofun,
        fun x hx => hcf.reach hx⟩
    | none =>
      have hop : ∀ y, (deref m1 a).Holds y → From m1 (fun x => x = a ∨ E x) y := by
        intro y hy
        obtain ⟨o, h1, h2⟩ := deref_holds hy
        exact .step (.root (.inl rfl)) h1 h2
      obtain ⟨hs, hc⟩ := hf.2 m a m1 hi hr
      obtain ⟨k1, k2, k3⟩ := addOperation_frame hap hop hc hs h
      have hback : ∀ x, x < m.length → ¬ From m (fun x => x = a ∨ E x) x → ¬ From m1 (fun x => x = a ∨ E x) x := by
        intro x hx hn hf
        rcases hcf.reach hf with h | h
        · exact hn h
        · omega
      have hg := hcf.grows
      refine ⟨fun x hx hn hf => ?_, k2, fun msg he => ⟨fun path' method' => ?_, fun x hx hn => ?_⟩, fun he => ?_,
        fun x hx => ?_⟩
      · rw [k1 x (by omega) (fun hw => hn ((own_same hown x).mp hw)) (hback x hx hf), hcf.keeps x hx hf]
      · rw [(k3 msg he).1, opAt_same hown]
      · rw [(k3 msg he).2 x (by omega) (hback x hx hn), hcf.keeps x hx hn]
      · subst he
        obtain ⟨r, stored, j1, j2, j3, j4, -⟩ := C88_add_ok hap hop hc hs h
        have hisop := addOperation_isOp hap ⟨.inl rfl, hs, hc⟩ h
        refine ⟨m1, r, stored, rfl, j1, ?_, ?_, ?_, hisop⟩
        · rw [← opAt_same hown]; exact j2
        · intro path' method'
          rw [j3, opAt_same hown]
        · intro hn
          obtain ⟨j5, j6⟩ := j4 hn
          exact ⟨j5, fun k => by rw [j5]; exact j6 k⟩
      · rcases addOperation_reach hap hop hc h hx with h | h
        · exact hcf.reach h
        · exact .inr (by omega)

/-- C89: when `Reflector.AddOperation` does not succeed, the document has the same paths, methods and operation structs
as before, and whatever shares nothing with the context and the objects the reflection uses reads the same. -/
theorem C89_error {m m' : Memory} {s a : Nat} {E : Nat → Prop} {method path e : String} {f : MSetup}
    (ha : Apart m s (fun x => x = a ∨ E x)) (hi : IsOp m a) (hf : Reflects E f)
    (h : reflectorAdd m s a method path f = (m', some e)) :
    (∀ path' method', opAt m' s path' method' = opAt m s path' method') ∧
    (∀ v, Separate m v (fun x => x = a ∨ E x) → ∀ k, tree m' k v = tree m k v) := by
  obtain ⟨-, -, h3, -, -⟩ := reflectorAdd_spec ha hi hf h
  obtain ⟨h4, h5⟩ := h3 e rfl
  exact ⟨h4, fun v hv k => tree_same k v fun x hx => h5 x (hv x hx).1 (hv x hx).2⟩

/-- C89: when it succeeds, the stored operation is the struct of the context's operation (unless that has no response),
so it shares with the context everything this refers to; all other operation structs are as before. -/
theorem C89_ok {m m' : Memory} {s a : Nat} {E : Nat → Prop} {method path : String} {f : MSetup}
    (ha : Apart m s (fun x => x = a ∨ E x)) (hi : IsOp m a) (hf : Reflects E f)
    (h : reflectorAdd m s a method path f = (m', none)) :
    ∃ m1 r stored, f m a = (m1, none) ∧ sanitizeMethodPath (goToLower method) path = .ok r ∧
      opAt m s path (goToLower method) = none ∧
      (∀ path' method', opAt m' s path' method' =
        if path' = r.path ∧ method' = r.method then some stored else opAt m s path' method') ∧
      (¬ NoResponse m1 (deref m1 a) → stored = deref m1 a ∧ ∀ k, tree m' k stored = tree m1 k (deref m1 a)) ∧
      deref m' a = deref m1 a ∧ IsOp m' a ∧ Apart m' s (fun x => x = a ∨ E x) := by
  obtain ⟨-, h2, -, h4, -⟩ := reflectorAdd_spec ha hi hf h
  obtain ⟨m1, r, stored, j1, j2, j3, j4, j5, j6, j7⟩ := h4 rfl
  exact ⟨m1, r, stored, j1, j2, j3, j4, j5, j6, j7, h2⟩

/-- C89: a second call with the same context, or with another one for the same path and method, fails. -/
theorem C89_again {m : Memory} {s a : Nat} {method path : String} {f : MSetup} {op : MVal} {E : Nat → Prop}
    (ha : Apart m s (fun x => x = a ∨ E x)) (hi : IsOp m a) (hf : Reflects E f) (hop : opAt m s path (goToLower method) = some op) :
    ∃ m' e, reflectorAdd m s a method path f = (m', some e) := by
  cases hr : reflectorAdd m s a method path f with
  | mk m' e =>
    cases e with
    | some e => exact ⟨m', e, rfl⟩
    | none =>
      obtain ⟨_, _, _, _, _, h3, _⟩ := C89_ok ha hi hf hr
      rw [hop] at h3; cases h3

/-- C89: a new context shares nothing. -/
theorem C89_new_context {m : Memory} {s : Nat} {E : Nat → Prop} (ha : Apart m s E) :
    Apart (newContext m).1 s (fun x => x = (newContext m).2 ∨ E x) ∧
    (∀ path method, opAt (newContext m).1 s path method = opAt m s path method) ∧
    ∀ x, From (newContext m).1 (fun x => x = (newContext m).2 ∨ E x) x → x = (newContext m).2 ∨ From m E x := by
  have hcf : Confined E m (newContext m).1 := .alloc m _ fun y hy => by
    cases hy with | cell hy => cases hy with | field h _ => cases h
  obtain ⟨h1, h2, h3⟩ := hcf.apart ha ha.others ha.env
  have hfrom : ∀ x, From (newContext m).1 (fun x => x = (newContext m).2 ∨ E x) x →
      x = (newContext m).2 ∨ From m E x := by
    intro x hx
    induction hx with
    | root h => exact h.imp id .root
    | @step x o y _ ho hy ih =>
      rcases ih with h | h
      · subst h
        simp only [newContext, getElem?_append_new] at ho
        cases ho
        cases hy with | cell hy => cases hy with | field h _ => cases h
      · have hl := h.lt ha.closed ha.env
        simp only [newContext, getElem?_append_old _ _ hl] at ho
        exact .inr (.step h ho hy)
  refine ⟨{ h2 with env := ?_, others := ?_ }, opAt_same h1, hfrom⟩
  · rintro x (rfl | hx)
    · simp [newContext]
    · exact h2.env x hx
  · intro x hx hw
    rw [own_same h1] at hw
    rcases hfrom x hx with h | h
    · have := ha.own_lt hw
      simp only [newContext] at h
      omega
    · exact ha.others x h hw

/-- C89: a new context has an operation. -/
theorem C89_new_context_isOp (m : Memory) : IsOp (newContext m).1 (newContext m).2 := by
  have h : deref (newContext m).1 (newContext m).2 = .struct [] := by
    simp only [newContext, deref, getElem?_append_new]
  exact ⟨⟨[], h⟩, .inl (by rw [h]; rfl)⟩

/-- C89: whatever is added with new contexts, successfully or not, an operation that is in the document stays, and reads
the same if it shares nothing with the objects the reflections use. -/
theorem C89_others {m m' : Memory} {s : Nat} {E : Nat → Prop} (ha : Apart m s E) (h : Added s E m m')
    {path method : String} {op : MVal} (hop : opAt m s path method = some op) (hsep : Separate m op E) :
    Apart m' s E ∧ opAt m' s path method = some op ∧ Separate m' op E ∧ ∀ k, tree m' k op = tree m k op := by
  induction h with
  | refl => exact ⟨ha, hop, hsep, fun _ => rfl⟩
  | @tail m1 method0 path0 r f _ hr hf ih =>
    obtain ⟨a1, o1, s1, t1⟩ := ih
    obtain ⟨a2, o2, f2⟩ := C89_new_context a1
    cases hq : reflectorAdd (newContext m1).1 s (newContext m1).2 r.method r.path f with
    | mk m2 e =>
      obtain ⟨k1, k2, k3, k4, k5⟩ := reflectorAdd_spec a2 (C89_new_context_isOp m1) hf hq
      -- what the operation leads to is unchanged
      have hobj : ∀ x, From m1 op.Holds x → m2[x]? = m1[x]? := by
        intro x hx
        obtain ⟨hl, hn⟩ := s1 x hx
        have hl' : x < (newContext m1).1.length := by simp only [newContext, List.length_append, List.length_singleton]; omega
        have hnc : (newContext m1).1[x]? = m1[x]? := getElem?_append_old _ _ hl
        have hnf : ¬ From (newContext m1).1 (fun x => x = (newContext m1).2 ∨ E x) x := by
          intro hf
          rcases f2 x hf with h | h
          · simp only [newContext] at h; omega
          · exact hn h
        have hno : ¬ Own (newContext m1).1 s x := by
          intro hw
          have hcf : Confined E m1 (newContext m1).1 := .alloc m1 _ fun y hy => by
            cases hy with | cell hy => cases hy with | field h _ => cases h
          rw [own_same (hcf.apart a1 a1.others a1.env).1] at hw
          exact a1.ops path method op x o1 hx hw
        rw [k1 x hl' hno hnf, hnc]
      have hstay : opAt m2 s path method = some op := by
        cases e with
        | some msg => rw [(k3 msg rfl).1, o2]; exact o1
        | none =>
          obtain ⟨_, r', stored, -, j2, j3, j4, -⟩ := k4 rfl
          rw [j4, o2]
          have hrr : r' = r := by
            have h1 := C03_idempotent method0 path0 r hr
            rw [sanitize_lower, h1] at j2
            cases j2; rfl
          subst hrr
          split
          · rename_i hpm
            rw [o2, ← hpm.1] at j3
            have hlow : goToLower r'.method = r'.method := ((sanitize_method (C03_idempotent method0 path0 r' hr)).1).symm
            rw [hlow, ← hpm.2, o1] at j3
            cases j3
          · exact o1
      refine ⟨k2.mono fun x hx => .inr hx, hstay, ?_, fun k => ?_⟩
      · intro x hx
        have hx1 : From m1 op.Holds x := hx.same hobj
        obtain ⟨hl, hn⟩ := s1 x hx1
        refine ⟨?_, fun hf => ?_⟩
        · have := hobj x hx1
          rw [List.getElem?_eq_getElem hl] at this
          exact (List.getElem?_eq_some_iff.mp this).1
        · rcases k5 x (hf.mono fun y hy => .root (.inr hy)) with h | h
          · rcases f2 x h with h | h
            · simp only [newContext] at h; omega
            · exact hn h
          · simp only [newContext, List.length_append, List.length_singleton] at h
            omega
      · rw [tree_same k op hobj]; exact t1 k

/-- A reflection that adds a response: `op.Responses.WithMapOfResponseOrRefValuesItem(code, v)`. -/
def respond (code : String) (v : MVal) : MSetup := fun m a =>
  let op := deref m a
  let (m', f) := setItem m ((op.inner "Responses").field "MapOfResponseOrRefValues") code v
  (m'.set a (.cell (op.setField "Responses" ((op.inner "Responses").setField "MapOfResponseOrRefValues" f))), none)

/-- C89: the stored operation shares its map of responses with the context. If another response is added to the context
and it is added again, the call fails, and the operation in the document has the other response. -/
theorem C89_shared {m : Memory} {s a c : Nat} {E : Nat → Prop} {method path code : String} {es : GoMap MVal} {v op : MVal}
    (ha : Apart m s (fun x => x = a ∨ E x)) (hi : IsOp m a)
    (hop : opAt m s path (goToLower method) = some op) (hsame : deref m a = op)
    (hc : (op.inner "Responses").field "MapOfResponseOrRefValues" = .ref c) (hes : m[c]? = some (.map es)) :
    ∃ m' e, reflectorAdd m s a method path (respond code v) = (m', some e) ∧
      opAt m' s path (goToLower method) = some op ∧
      entries m' ((op.inner "Responses").field "MapOfResponseOrRefValues") = GoMap.set es code v := by
  have hcl : c < m.length := (List.getElem?_eq_some_iff.mp hes).1
  have hac : a ≠ c := by
    rintro rfl
    obtain ⟨fs, hs⟩ := hi.1
    simp only [deref, hes] at hs
    cases hs
  have hcf : From m (fun x => x = a ∨ E x) c := by
    have h1 : (deref m a).Holds c := by
      rw [hsame]
      exact inner_holds (field_holds (go := "MapOfResponseOrRefValues") (by rw [hc]; exact .ref))
    obtain ⟨o, h2, h3⟩ := deref_holds h1
    exact .step (.root (.inl rfl)) h2 h3
  cases hr : respond code v m a with
  | mk m1 e1 =>
    simp only [respond, hsame, hc, setItem, entries_map hes, Prod.mk.injEq] at hr
    obtain ⟨h1, h2⟩ := hr
    have hown : ∀ x, Own m s x → m1[x]? = m[x]? := by
      intro x hx
      have hxa : a ≠ x := fun h => ha.others x (h ▸ .root (.inl rfl)) hx
      have hxc : c ≠ x := fun h => ha.others x (h ▸ hcf) hx
      rw [← h1, List.getElem?_set_ne hxa, List.getElem?_set_ne hxc]
    have hat := opAt_same hown
    have hfin : reflectorAdd m s a method path (respond code v) =
        (m1, some ("operation already exists: " ++ goToLower method ++ " " ++ path)) := by
      have hr : respond code v m a = (m1, none) := by
        simp only [respond, hsame, hc, setItem, entries_map hes, h1]
      simp only [reflectorAdd, hr]
      rcases addOperation_cases m1 s method path (deref m1 a) with ⟨_, -, h⟩ | ⟨h, -⟩
      · exact h
      · rw [hat, hop] at h; cases h
    refine ⟨m1, _, hfin, by rw [hat]; exact hop, ?_⟩
    rw [hc]
    refine entries_map ?_
    rw [← h1, List.getElem?_set_ne hac, List.getElem?_set_self hcl]

/-- Adding a response without references is a reflection in the sense of the theorems. -/
theorem respond_reflects (E : Nat → Prop) (code : String) (v : MVal) (hv : ∀ y, ¬ v.Holds y) :
    Reflects E (respond code v) := by
  refine ⟨fun m a => ?_, fun m a m' hi h => ?_⟩
  · have hop : ∀ y, (deref m a).Holds y → From m (fun x => x = a ∨ E x) y := by
      intro y hy
      obtain ⟨o, h1, h2⟩ := deref_holds hy
      exact .step (.root (.inl rfl)) h1 h2
    obtain ⟨h1, h2⟩ := setItem_confined (m := m) (R := fun x => x = a ∨ E x) (v := v) code
      (fun y hy => hop y (inner_holds (field_holds (go := "MapOfResponseOrRefValues") hy)))
      (fun y hy => absurd hy (hv y))
    simp only [respond]
    refine h1.trans' (assign_uses E _ _ a) ?_
    rintro y (rfl | h | h)
    · exact .inl (.root (.inl rfl))
    · exact .inl (.root (.inr h))
    · rcases setField_holds h with h | h
      · exact .inl (hop y h)
      · rcases setField_holds h with h | h
        · exact .inl (hop y (inner_holds h))
        · exact h2 y h
  · obtain ⟨⟨fs, hs⟩, hc⟩ := hi
    obtain ⟨ps, hps⟩ := inner_struct (.struct fs) "Responses"
    have hal : a < m.length := by
      by_cases hl : a < m.length
      · exact hl
      · simp only [deref, List.getElem?_eq_none (Nat.le_of_not_lt hl)] at hs
        cases hs
    simp only [respond, hs, hps, Prod.mk.injEq, and_true] at h
    rw [hs, CodesOk, hps] at hc
    rcases hc with hc | ⟨c, es, hc, hm⟩
    · simp only [hc, setItem] at h
      have hd : deref m' a = (MVal.struct fs).setField "Responses"
          ((MVal.struct ps).setField "MapOfResponseOrRefValues" (.ref m.length)) := by
        rw [← h]
        simp only [deref, List.getElem?_set_self (show a < (m ++ [Obj.map (GoMap.set [] code v)]).length by simp; omega)]
      refine ⟨⟨_, hd⟩, .inr ⟨m.length, GoMap.set [] code v, ?_, ?_⟩⟩
      · rw [hd, inner_setField_struct, field_setField, if_pos rfl]
      · rw [← h, List.getElem?_set_ne (by omega), getElem?_append_new]
    · simp only [hc, setItem, entries_map hm] at h
      have hac : a ≠ c := by
        rintro rfl
        simp only [deref, hm] at hs
        cases hs
      have hd : deref m' a = (MVal.struct fs).setField "Responses"
          ((MVal.struct ps).setField "MapOfResponseOrRefValues" (.ref c)) := by
        rw [← h]
        simp only [deref, List.getElem?_set_self (show a < (m.set c (Obj.map (GoMap.set es code v))).length by simp; omega)]
      refine ⟨⟨_, hd⟩, .inr ⟨c, GoMap.set es code v, ?_, ?_⟩⟩
      · rw [hd, inner_setField_struct, field_setField, if_pos rfl]
      · rw [← h, List.getElem?_set_ne hac, List.getElem?_set_self (List.getElem?_eq_some_iff.mp hm).1]

/-! ## A case -/

theorem respond_reflects_case (E : Nat → Prop) (code : String) : Reflects E (respond code (.struct [])) :=
  respond_reflects E code _ fun y hy => by cases hy with | field h _ => cases h

/-- The memory after `GET /b` is added to `caseMem` with a new context. -/
def caseAdded : Memory :=
  [.cell (.struct [("Openapi", .lit (.str "3.0.3")), ("Paths", .struct [("MapOfPathItemValues", .ref 1)])]),
   .map [("/a", .struct [("MapOfOperationValues", .ref 2)]), ("/b", .struct [("MapOfOperationValues", .ref 8)])],
   .map [("get", .struct [("Responses", .struct [("MapOfResponseOrRefValues", .ref 3)])])],
   .map [("200", .struct [])],
   .map [],
   .cell (.struct [("Responses", .struct [("MapOfResponseOrRefValues", .ref 6)])]),
   .map [("200", .struct [])],
   .cell (.struct [("Responses", .struct [("MapOfResponseOrRefValues", .ref 6)])]),
   .map [("get", .struct [("Responses", .struct [("MapOfResponseOrRefValues", .ref 6)])])]]

/-- The memory after `500` is added to the context and it is added again. -/
def caseAgain : Memory :=
  [.cell (.struct [("Openapi", .lit (.str "3.0.3")), ("Paths", .struct [("MapOfPathItemValues", .ref 1)])]),
   .map [("/a", .struct [("MapOfOperationValues", .ref 2)]), ("/b", .struct [("MapOfOperationValues", .ref 8)])],
   .map [("get", .struct [("Responses", .struct [("MapOfResponseOrRefValues", .ref 3)])])],
   .map [("200", .struct [])],
   .map [],
   .cell (.struct [("Responses", .struct [("MapOfResponseOrRefValues", .ref 6)])]),
   .map [("200", .struct []), ("500", .struct [])],
   .cell (.struct [("Responses", .struct [("MapOfResponseOrRefValues", .ref 6)])]),
   .map [("get", .struct [("Responses", .struct [("MapOfResponseOrRefValues", .ref 6)])])]]

theorem caseAdded_eq : reflectorAdd (newContext caseMem).1 0 (newContext caseMem).2 "get" "/b"
    (respond "200" (.struct [])) = (caseAdded, none) := by
  have hs : sanitizeMethodPath "get" "/b" = .ok ⟨"get", "/b", []⟩ := by decide +kernel
  have hl : goToLower "get" = "get" := by decide +kernel
  simp only [reflectorAdd, respond, newContext, addOperation, hl, setupOperation]
  simp only [hs]
  rfl

/-- The hypotheses of `C89_ok`, `C89_others` and `C89_shared` are met: `GET /b` is added with a new context to a document
with `GET /a`, then a response is added to the context and it is added again. -/
example : ∃ m, m = caseAdded ∧ Added 0 (· = 4) caseMem m ∧
    (∃ op, opAt caseMem 0 "/a" "get" = some op ∧ Separate caseMem op (· = 4)) ∧
    Apart m 0 (fun x => x = 5 ∨ x = 4) ∧ IsOp m 5 ∧
    (∃ op, opAt m 0 "/b" "get" = some op ∧ deref m 5 = op ∧
      (op.inner "Responses").field "MapOfResponseOrRefValues" = .ref 6 ∧ m[6]? = some (.map [("200", .struct [])]) ∧
      ∃ m' e, reflectorAdd m 0 5 "get" "/b" (respond "500" (.struct [])) = (m', some e) ∧
        opAt m' 0 "/b" "get" = some op ∧
        (entries m' ((op.inner "Responses").field "MapOfResponseOrRefValues")).map Prod.fst = ["200", "500"] ∧
        tree m' 9 op ≠ tree m 9 op) := by
  have hs : sanitizeMethodPath "GET" "/b" = .ok ⟨"get", "/b", []⟩ := by decide +kernel
  have hl : goToLower "get" = "get" := by decide +kernel
  have hc := C89_new_context case_apart
  obtain ⟨m1, r, stored, -, -, -, -, -, -, hisop, hap⟩ := C89_ok hc.1 (C89_new_context_isOp caseMem)
    (respond_reflects_case (· = 4) "200") caseAdded_eq
  have hadd : Added 0 (· = 4) caseMem caseAdded := by
    have h := Added.tail (E := (· = 4)) (s := 0) (m := caseMem) .refl hs (respond_reflects_case (· = 4) "200")
    rw [caseAdded_eq] at h
    exact h
  refine ⟨_, rfl, hadd, ⟨_, rfl, ?_⟩, hap, hisop, _, rfl, rfl, rfl, rfl, ?_⟩
  · intro x hx
    have h1 : x = 3 := by
      induction hx with
      | root h => simpa [holds_struct, holds_ref] using h
      | step _ ho hy ih => have := case_refs ho hy; omega
    subst h1
    refine ⟨by decide, fun hf => ?_⟩
    have h4 : 3 = 4 := by
      generalize hx : 3 = x at hf
      cases hf with
      | root h => exact h
      | step hf ho hy =>
        have := case_refs ho hy
        have := case_from (fun y hy => by omega) hf
        omega
    omega
  · have h1 : reflectorAdd caseAdded 0 5 "get" "/b" (respond "500" (.struct [])) =
        (caseAgain, some ("operation already exists: " ++ "get" ++ " " ++ "/b")) := by
      simp only [reflectorAdd, respond, addOperation, hl]
      rfl
    exact ⟨caseAgain, _, h1, rfl, rfl, by simp [caseAdded, caseAgain, tree]⟩

end Verif.Mem
