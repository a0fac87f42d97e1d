import Verif.Lemmas.Mem

/-!
# What storing operations shares with the caller (C88, OpenAPI 3.0)

`SetupOperation` gives the setup functions a copy of the stored operation, but a copy of the struct only: maps, slices
and pointers in it are those of the stored operation. The theorems say what a call can change in spite of that.
-/

namespace Verif.Mem

/-- C88: a value reads the same to every depth when everything it leads to is the same. -/
theorem C88_reads {m m' : Memory} {v : MVal} (h : ∀ x, From m v.Holds x → m'[x]? = m[x]?) (k : Nat) :
    tree m' k v = tree m k v := tree_same k v h

/-- C88: a failing `SetupOperation` changes no path, no method and no operation struct of the document, whatever the
functions do with the operation they are given and with what they have captured. Only what that operation or the
captured objects lead to can change; everything separate from it reads the same. -/
theorem C88_setup_error {m m' : Memory} {s : Nat} {E : Nat → Prop} {method path e : String} {fs : List MSetup}
    (ha : Apart m s E) (hfs : ∀ f ∈ fs, Uses E f) (h : setupOperation m s method path fs = (m', some e)) :
    (∀ path', itemAt m' s path' = itemAt m s path') ∧
    (∀ path' method', opAt m' s path' method' = opAt m s path' method') ∧
    deref m' s = deref m s ∧
    (∀ v, Separate m v (Given m s method path E) → ∀ k, tree m' k v = tree m k v) ∧
    Apart m' s E := by
  rcases setupOperation_cases m s method path fs with ⟨e', -, he⟩ | ⟨r, hr, hc⟩
  · rw [he] at h; cases h
    exact ⟨fun _ => rfl, fun _ _ => rfl, rfl, fun _ _ _ => rfl, ha⟩
  · rcases hc _ rfl with ⟨e', he⟩ | ⟨m2, -, -, m3, f, -, he⟩
    · rw [he] at h; cases h
      obtain ⟨hcf, hap, hown, -, -⟩ := ran ha hfs r.path r.method _ rfl _ rfl _ rfl
      refine ⟨itemAt_same hown, opAt_same hown, deref_same (hown s (.inl rfl)), fun v hv k => ?_, hap⟩
      refine tree_same k v fun x hx => hcf.keeps x (hv x hx).1 fun hf => (hv x hx).2 (hf.mono fun y hy => .root ?_)
      simpa only [Given, slot, hr] using hy
    · rw [he] at h; cases h

/-- C88: if there was no operation and the functions can reach nothing of the document by other ways, a failing
`SetupOperation` leaves the whole document as it was. -/
theorem C88_setup_error_new {m m' : Memory} {s : Nat} {E : Nat → Prop} {method path e : String} {fs : List MSetup}
    (ha : Apart m s E) (hfs : ∀ f ∈ fs, Uses E f) (h : setupOperation m s method path fs = (m', some e))
    (hnew : slot m s method path = none) (hE : Separate m (.ref s) E) (k : Nat) :
    tree m' k (.ref s) = tree m k (.ref s) := by
  refine (C88_setup_error ha hfs h).2.2.2.1 _ (fun x hx => ⟨(hE x hx).1, fun hf => (hE x hx).2 (hf.mono ?_)⟩) k
  rintro y (hy | ⟨op, h1, -⟩)
  · exact .root hy
  · rw [hnew] at h1; cases h1

/-- C88: if the functions only assign fields of the operation they are given, a failing `SetupOperation` changes no
object at all, so the document reads as before. -/
theorem C88_setup_error_assigns {m m' : Memory} {s : Nat} {E : Nat → Prop} {method path e : String} {fs : List MSetup}
    (ha : Apart m s E) (hfs : ∀ f ∈ fs, AssignsOnly f) (h : setupOperation m s method path fs = (m', some e)) :
    (∀ x, x < m.length → m'[x]? = m[x]?) ∧ ∀ k, tree m' k (.ref s) = tree m k (.ref s) := by
  have hall : ∀ x, x < m.length → m'[x]? = m[x]? := by
    rcases setupOperation_cases m s method path fs with ⟨e', -, he⟩ | ⟨r, hr, hc⟩
    · rw [he] at h; cases h
      exact fun _ _ => rfl
    · rcases hc _ rfl with ⟨e', he⟩ | ⟨m2, -, -, m3, f, -, he⟩
      · rw [he] at h; cases h
        intro x hx
        rw [(runAll_assigns fs _ hfs).2 x (by simp; omega) (by omega), getElem?_append_old _ _ hx]
      · rw [he] at h; cases h
  refine ⟨hall, fun k => tree_same k _ fun x hx => hall x (hx.lt ha.closed fun y hy => ?_)⟩
  cases hy
  exact ha.own_lt (.inl rfl)

/-- C88: a successful `SetupOperation` stores the struct the functions left, which reads as they left it. Paths,
methods and operation structs are otherwise the same, so are the other fields of path items and of the document;
what is separate from the operation, the captured objects and the document's maps reads the same. -/
theorem C88_setup_ok {m m' : Memory} {s : Nat} {E : Nat → Prop} {method path : String} {fs : List MSetup}
    (ha : Apart m s E) (hfs : ∀ f ∈ fs, Uses E f) (h : setupOperation m s method path fs = (m', none)) :
    ∃ r m2 op, sanitizeMethodPath method path = .ok r ∧
      AllRun fs (m ++ [.cell ((opAt m s r.path r.method).getD (.struct []))]) m.length m2 ∧
      op = deref m2 m.length ∧
      (∀ path' method', opAt m' s path' method' =
        if path' = r.path ∧ method' = r.method then some op else opAt m s path' method') ∧
      (∀ k, tree m' k op = tree m2 k op) ∧
      (∀ path' go, go ≠ "MapOfOperationValues" → ((itemAt m' s path').getD (.struct [])).field go =
        ((itemAt m s path').getD (.struct [])).field go) ∧
      (∀ go, go ≠ "Paths" → (deref m' s).field go = (deref m s).field go) ∧
      (∀ v, Separate m v (fun x => Given m s method path E x ∨ Own m s x) → ∀ k, tree m' k v = tree m k v) ∧
      Apart m' s E := by
  rcases setupOperation_cases m s method path fs with ⟨e', -, he⟩ | ⟨r, hr, hc⟩
  · rw [he] at h; cases h
  · rcases hc _ rfl with ⟨e', he⟩ | ⟨m2, h2, -, m3, f, h4, he⟩
    · rw [he] at h; cases h
    · rw [he] at h; cases h
      obtain ⟨hcf, hap, hown, hopr, hlt⟩ := ran ha hfs r.path r.method _ rfl _ rfl m2 (by rw [h2])
      have hol : ∀ y, (deref m2 m.length).Holds y → y < m2.length := by
        intro y hy
        obtain ⟨o, h5, h6⟩ := deref_holds hy
        exact hap.closed _ o y h5 h6
      rw [← itemAt_same hown] at h4 ⊢
      obtain ⟨k1, k2, k3, k4, k5, k6, -⟩ :=
        store_spec hap r.path r.method (deref m2 m.length) hopr hol _ rfl m3 f h4 _ rfl
      refine ⟨r, m2, _, hr, (runAll_none_iff _ _).mp h2, rfl, ?_, ?_, ?_, ?_, ?_, k4⟩
      · intro path' method'
        rw [k1, opAt_same hown]
      · intro k
        refine tree_same k _ fun x hx => k2 x (hx.lt hap.closed hol) (hopr x hx)
      · intro path' go hgo
        rw [k5 path' go hgo, itemAt_same hown]
      · intro go hgo
        rw [k6 go hgo, deref_same (hown s (.inl rfl))]
      · intro v hv k
        refine tree_same k v fun x hx => ?_
        have hxl := (hv x hx).1
        have hxn := (hv x hx).2
        rw [k2 x (Nat.lt_of_lt_of_le hxl hcf.grows) fun hw => hxn (.root (.inr ((own_same hown x).mp hw)))]
        refine hcf.keeps x hxl fun hf => hxn (hf.mono fun y hy => .root (.inl ?_))
        simpa only [Given, slot, hr] using hy

/-- C88: if the functions only assign fields of the operation they are given, a successful `SetupOperation` changes
no object but the `Spec`, its map of paths and its maps of operations. -/
theorem C88_setup_ok_assigns {m m' : Memory} {s : Nat} {E : Nat → Prop} {method path : String} {fs : List MSetup}
    (ha : Apart m s E) (hfs : ∀ f ∈ fs, Uses E f) (hfs' : ∀ f ∈ fs, AssignsOnly f)
    (h : setupOperation m s method path fs = (m', none)) :
    ∀ x, x < m.length → ¬ Own m s x → m'[x]? = m[x]? := by
  rcases setupOperation_cases m s method path fs with ⟨e', -, he⟩ | ⟨r, hr, hc⟩
  · rw [he] at h; cases h
  · rcases hc _ rfl with ⟨e', he⟩ | ⟨m2, h2, -, m3, f, h4, he⟩
    · rw [he] at h; cases h
    · rw [he] at h; cases h
      obtain ⟨hcf, hap, hown, hopr, hlt⟩ := ran ha hfs r.path r.method _ rfl _ rfl m2 (by rw [h2])
      have hol : ∀ y, (deref m2 m.length).Holds y → y < m2.length := by
        intro y hy
        obtain ⟨o, h5, h6⟩ := deref_holds hy
        exact hap.closed _ o y h5 h6
      rw [← itemAt_same hown] at h4 ⊢
      obtain ⟨-, k2, -⟩ := store_spec hap r.path r.method (deref m2 m.length) hopr hol _ rfl m3 f h4 _ rfl
      intro x hx hn
      have hr := (runAll_assigns (a := m.length) fs (m ++ [Obj.cell
        ((opAt m s r.path r.method).getD (.struct []))]) hfs').2 x (by simp; omega) (by omega)
      rw [h2] at hr
      rw [k2 x (by omega) fun hw => hn ((own_same hown x).mp hw), hr, getElem?_append_old _ _ hx]

/-- C88: `AddOperation` for a path and method that are taken changes nothing. -/
theorem C88_add_exists {m : Memory} {s : Nat} {method path : String} {op op0 : MVal}
    (h : opAt m s path (goToLower method) = some op0) :
    addOperation m s method path op =
      (m, some ("operation already exists: " ++ goToLower method ++ " " ++ path)) := by
  rcases addOperation_cases m s method path op with ⟨_, -, h1⟩ | ⟨h1, -⟩
  · exact h1
  · rw [h] at h1; cases h1

/-- C88: a failing `AddOperation` changes no object but one: the map of responses of the operation it was given, if
that is empty and there is no default response. The document keeps its paths, methods and operation structs, and
reads the same if it does not lead to that map. -/
theorem C88_add_error {m m' : Memory} {s : Nat} {E : Nat → Prop} {method path e : String} {op : MVal}
    (ha : Apart m s E) (hop : ∀ y, op.Holds y → From m E y) (hc : CodesOk m op)
    (h : addOperation m s method path op = (m', some e)) :
    (∀ x, x < m.length → m'[x]? = m[x]? ∨
      NoResponse m op ∧ (op.inner "Responses").field "MapOfResponseOrRefValues" = .ref x) ∧
    (∀ path' method', opAt m' s path' method' = opAt m s path' method') ∧
    deref m' s = deref m s ∧
    ((∀ x, (op.inner "Responses").field "MapOfResponseOrRefValues" = .ref x → ¬ From m (· = s) x) →
      ∀ k, tree m' k (.ref s) = tree m k (.ref s)) ∧
    Apart m' s E := by
  rcases addOperation_cases m s method path op with ⟨_, -, h1⟩ | ⟨-, m1, op1, h1, h2⟩
  · rw [h1] at h; cases h
    exact ⟨fun _ _ => .inl rfl, fun _ _ => rfl, rfl, fun _ _ => rfl, ha⟩
  · rw [h2] at h
    obtain ⟨hcf, hown, hap⟩ := ensured_apart ha hop hc h1
    have hu : ∀ f ∈ [fun (m : Memory) (a : Nat) => (m.set a (Obj.cell op1), (none : Option String))],
        Uses (fun x => E x ∨ op1.Holds x) f := by
      intro f hf
      rcases List.mem_singleton.mp hf with rfl
      exact assign_uses E op1
    have has : ∀ f ∈ [fun (m : Memory) (a : Nat) => (m.set a (Obj.cell op1), (none : Option String))],
        AssignsOnly f := by
      intro f hf
      rcases List.mem_singleton.mp hf with rfl
      exact assign_assigns op1
    obtain ⟨-, k2, k3, -, k5⟩ := C88_setup_error hap hu h
    have k6 := (C88_setup_error_assigns hap has h).1
    have hobj : ∀ x, x < m.length → m'[x]? = m[x]? ∨
        NoResponse m op ∧ (op.inner "Responses").field "MapOfResponseOrRefValues" = .ref x := by
      intro x hx
      rw [k6 x (Nat.lt_of_lt_of_le hx hcf.grows)]
      rcases ensure_spec hc m1 op1 h1 with ⟨j1, -, -⟩ | ⟨j1, j2, b, -, -, -, j3, j4, -⟩
      · exact .inl (by rw [j1])
      · by_cases hxb : x = b
        · subst hxb
          rcases j3 with j3 | ⟨-, j3⟩
          · exact .inr ⟨⟨j1, j2⟩, j3⟩
          · omega
        · exact .inl (j4 x hx hxb)
    refine ⟨hobj, ?_, ?_, ?_, k5.mono fun x hx => .inl hx⟩
    · intro path' method'
      rw [k2, opAt_same hown]
    · rw [k3, deref_same (hown s (.inl rfl))]
    · intro hn k
      refine tree_same k _ fun x hx => ?_
      have hx' : From m (· = s) x := hx.mono fun y hy => by cases hy; exact .root rfl
      have hxl : x < m.length := hx'.lt ha.closed fun y hy => by rw [hy]; exact ha.own_lt (.inl rfl)
      rcases hobj x hxl with h | ⟨-, h⟩
      · exact h
      · exact absurd hx' (hn x h)

/-- C88: a successful `AddOperation` stores the operation it was given, with the response `204` if it had none, and
changes no other operation. Besides the document's maps it changes at most the map of responses it was given. -/
theorem C88_add_ok {m m' : Memory} {s : Nat} {E : Nat → Prop} {method path : String} {op : MVal}
    (ha : Apart m s E) (hop : ∀ y, op.Holds y → From m E y) (hc : CodesOk m op) (hs : ∃ fs, op = .struct fs)
    (h : addOperation m s method path op = (m', none)) :
    ∃ r stored, sanitizeMethodPath (goToLower method) path = .ok r ∧
      opAt m s path (goToLower method) = none ∧
      (∀ path' method', opAt m' s path' method' =
        if path' = r.path ∧ method' = r.method then some stored else opAt m s path' method') ∧
      (¬ NoResponse m op → stored = op ∧ ∀ k, tree m' k op = tree m k op) ∧
      (NoResponse m op → ∃ d, entries m' ((stored.inner "Responses").field "MapOfResponseOrRefValues") =
          [("204", .struct [("Response", .ref d)])] ∧
        deref m' d = .struct [("Description", .lit (.str "No Content"))]) ∧
      (∀ go, go ≠ "Responses" → stored.field go = op.field go) ∧
      (∀ go, go ≠ "MapOfResponseOrRefValues" →
        (stored.inner "Responses").field go = (op.inner "Responses").field go) ∧
      (∀ x, x < m.length → ¬ Own m s x → m'[x]? = m[x]? ∨
        NoResponse m op ∧ (op.inner "Responses").field "MapOfResponseOrRefValues" = .ref x) ∧
      Apart m' s E := by
  rcases addOperation_cases m s method path op with ⟨_, -, h1⟩ | ⟨h0, m1, op1, h1, h2⟩
  · rw [h1] at h; cases h
  · rw [h2] at h
    obtain ⟨hcf, hown, hap⟩ := ensured_apart ha hop hc h1
    have hu : ∀ f ∈ [fun (m : Memory) (a : Nat) => (m.set a (Obj.cell op1), (none : Option String))],
        Uses (fun x => E x ∨ op1.Holds x) f := by
      intro f hf
      rcases List.mem_singleton.mp hf with rfl
      exact assign_uses E op1
    obtain ⟨r, m2, op2, hr, hrun, hop2, hat, htree, -, -, hsep, hap2⟩ := C88_setup_ok hap hu h
    obtain ⟨fs, rfl⟩ := hs
    obtain ⟨ps, hps⟩ := inner_struct (.struct fs) "Responses"
    have hm2 : m2 = m1 ++ [.cell op1] := by
      cases hrun with
      | cons e1 e2 =>
        cases e2
        simp only [Prod.mk.injEq, and_true] at e1
        rw [← e1, List.set_append_right _ _ (Nat.le_refl _)]
        simp
    have hop2' : op2 = op1 := by
      rw [hop2, hm2]
      simp only [deref, getElem?_append_new]
    subst hop2'
    have has : ∀ f ∈ [fun (m : Memory) (a : Nat) => (m.set a (Obj.cell op2), (none : Option String))],
        AssignsOnly f := by
      intro f hf
      rcases List.mem_singleton.mp hf with rfl
      exact assign_assigns op2
    have hkeep := C88_setup_ok_assigns hap hu has h
    have hnotown : ∀ x, op2.Holds x → ¬ Own m1 s x := fun x hx => hap.others x (.root (.inr hx))
    have hto : ∀ x, op2.Holds x → m'[x]? = m1[x]? := fun x hx =>
      hkeep x (hap.env x (.inr hx)) (hnotown x hx)
    refine ⟨r, op2, hr, h0, ?_, ?_, ?_, ?_, ?_, ?_, hap2.mono fun x hx => .inl hx⟩
    · intro path' method'
      rw [hat, opAt_same hown]
    · intro hn
      rcases ensure_spec hc m1 op2 h1 with ⟨j1, j2, -⟩ | ⟨j1, j2, -⟩
      · refine ⟨j2, fun k => ?_⟩
        rw [← j2, htree k, hm2, j1]
        refine tree_same k _ fun x hx => getElem?_append_old _ _ (hx.lt ha.closed fun y hy => ?_)
        exact j1 ▸ hap.env y (.inr hy)
      · exact absurd ⟨j1, j2⟩ hn
    · rintro ⟨hn1, hn2⟩
      rcases ensure_spec hc m1 op2 h1 with ⟨-, -, j1 | j1⟩ | ⟨-, -, b, j1, j2, j3, j4, -⟩
      · exact absurd hn1 j1
      · exact absurd hn2 j1
      · have hb : (op2.inner "Responses").field "MapOfResponseOrRefValues" = .ref b := by
          rw [j3, hps, inner_setField_struct, field_setField, if_pos rfl]
        have hbh : op2.Holds b := inner_holds (field_holds (go := "MapOfResponseOrRefValues") (by rw [hb]; exact .ref))
        have hd : From m1 (fun x => E x ∨ op2.Holds x) m.length := .step (.root (.inr hbh)) j1
          (.map (List.mem_singleton.mpr rfl) (.field (List.mem_singleton.mpr rfl) .ref))
        refine ⟨m.length, ?_, ?_⟩
        · rw [hb]
          exact entries_map (by rw [hto b hbh]; exact j1)
        · have := hkeep m.length (hd.lt hap.closed hap.env) (hap.others _ hd)
          simp only [deref, this, j2]
    · intro go hgo
      rcases ensure_spec hc m1 op2 h1 with ⟨-, j2, -⟩ | ⟨-, -, b, -, -, j3, -⟩
      · rw [j2]
      · rw [j3, field_setField, if_neg hgo]
    · intro go hgo
      rcases ensure_spec hc m1 op2 h1 with ⟨-, j2, -⟩ | ⟨-, -, b, -, -, j3, -⟩
      · rw [j2]
      · rw [j3, hps, inner_setField_struct, field_setField, if_neg hgo]
    · intro x hx hn
      rw [hkeep x (Nat.lt_of_lt_of_le hx hcf.grows) fun hw => hn ((own_same hown x).mp hw)]
      rcases ensure_spec hc m1 op2 h1 with ⟨j1, -, -⟩ | ⟨j1, j2, b, -, -, -, j3, j4, -⟩
      · exact .inl (by rw [j1])
      · by_cases hxb : x = b
        · subst hxb
          rcases j3 with j3 | ⟨-, j3⟩
          · exact .inr ⟨⟨j1, j2⟩, j3⟩
          · omega
        · exact .inl (j4 x hx hxb)

/-- C88: an empty map of responses given to `AddOperation` holds the response `204` afterwards, whether the call
succeeds or not, unless the path and method are taken. -/
theorem C88_add_caller {m m' : Memory} {s : Nat} {E : Nat → Prop} {method path : String} {op : MVal} {c : Nat}
    {e : Option String} (ha : Apart m s E) (hop : ∀ y, op.Holds y → From m E y)
    (hfree : opAt m s path (goToLower method) = none)
    (hcod : (op.inner "Responses").field "MapOfResponseOrRefValues" = .ref c) (hempty : m[c]? = some (.map []))
    (hdef : (op.inner "Responses").field "Default" = .nil)
    (h : addOperation m s method path op = (m', e)) :
    ∃ d, m'[c]? = some (.map [("204", .struct [("Response", .ref d)])]) ∧
      m'[d]? = some (.cell (.struct [("Description", .lit (.str "No Content"))])) := by
  have hc : CodesOk m op := .inr ⟨c, [], hcod, hempty⟩
  have hno : NoResponse m op := ⟨by rw [hcod]; exact entries_map hempty, hdef⟩
  rcases addOperation_cases m s method path op with ⟨_, h1, -⟩ | ⟨-, m1, op1, h1, h2⟩
  · rw [hfree] at h1; cases h1
  · rw [h2] at h
    obtain ⟨hcf, hown, hap⟩ := ensured_apart ha hop hc h1
    have hu : ∀ f ∈ [fun (m : Memory) (a : Nat) => (m.set a (Obj.cell op1), (none : Option String))],
        Uses (fun x => E x ∨ op1.Holds x) f := by
      intro f hf
      rcases List.mem_singleton.mp hf with rfl
      exact assign_uses E op1
    have has : ∀ f ∈ [fun (m : Memory) (a : Nat) => (m.set a (Obj.cell op1), (none : Option String))],
        AssignsOnly f := by
      intro f hf
      rcases List.mem_singleton.mp hf with rfl
      exact assign_assigns op1
    have hkeep : ∀ x, x < m1.length → ¬ Own m1 s x → m'[x]? = m1[x]? := by
      cases e with
      | none => exact C88_setup_ok_assigns hap hu has h
      | some e => exact fun x hx _ => (C88_setup_error_assigns hap has h).1 x hx
    rcases ensure_spec hc m1 op1 h1 with ⟨-, -, j1 | j1⟩ | ⟨-, -, b, j1, j2, j3, j4, -⟩
    · exact absurd hno.1 j1
    · exact absurd hno.2 j1
    · have hbc : b = c := by
        rcases j4 with j4 | ⟨j4, -⟩
        · rw [hcod] at j4; cases j4; rfl
        · rw [hcod] at j4; cases j4
      subst hbc
      have hbE : From m E b := hop b (inner_holds (field_holds (go := "MapOfResponseOrRefValues")
        (by rw [hcod]; exact .ref)))
      have hbo : ¬ Own m1 s b := fun hw => ha.others b hbE ((own_same hown b).mp hw)
      refine ⟨m.length, ?_, ?_⟩
      · rw [hkeep b (List.getElem?_eq_some_iff.mp j1).1 hbo]; exact j1
      · rw [hkeep m.length (List.getElem?_eq_some_iff.mp j2).1 fun hw => ?_]
        · exact j2
        · have := ha.own_lt ((own_same hown _).mp hw)
          omega

/-- C88: a document stays apart from its operations and from what the caller holds, whatever calls are made and
whatever the caller does with its own objects in between. So the theorems above apply to every call. -/
theorem C88_history {m m' : Memory} {s : Nat} {E : Nat → Prop} (ha : Apart m s E) (h : Steps s E m m') :
    Apart m' s E := by
  induction h with
  | refl => exact ha
  | @tail mid _ _ hs ih =>
    cases hs with
    | @setup method path fs hfs =>
      cases hr : setupOperation mid s method path fs with
      | mk m' e =>
        cases e with
        | none =>
          obtain ⟨_, _, _, _, _, _, _, _, _, _, _, h⟩ := C88_setup_ok ih hfs hr
          exact h
        | some e => exact (C88_setup_error ih hfs hr).2.2.2.2
    | @add method path op hop hc =>
      rcases addOperation_cases mid s method path op with ⟨_, -, h1⟩ | ⟨-, m1, op1, h1, h2⟩
      · rw [h1]; exact ih
      · rw [h2]
        obtain ⟨-, -, hap⟩ := ensured_apart ih hop hc h1
        have hu : ∀ f ∈ [fun (m : Memory) (a : Nat) => (m.set a (Obj.cell op1), (none : Option String))],
            Uses (fun x => E x ∨ op1.Holds x) f := by
          intro f hf
          rcases List.mem_singleton.mp hf with rfl
          exact assign_uses E op1
        cases hr : setupOperation m1 s (goToLower method) path
            [fun (m : Memory) (a : Nat) => (m.set a (Obj.cell op1), (none : Option String))] with
        | mk m' e =>
          cases e with
          | none =>
            obtain ⟨_, _, _, _, _, _, _, _, _, _, _, h⟩ := C88_setup_ok hap hu hr
            exact h.mono fun x hx => .inl hx
          | some e => exact (C88_setup_error hap hu hr).2.2.2.2.mono fun x hx => .inl hx
    | other hc => exact (hc.apart ih ih.others ih.env).2.1

/-- C88: a new document is apart from everything. -/
theorem C88_new {m : Memory} {E : Nat → Prop} (fs : List (String × MVal))
    (hclosed : ∀ (x : Nat) (o : Obj) (y : Nat), m[x]? = some o → o.Holds y → y < m.length)
    (hE : ∀ x, E x → x < m.length) (hfs : ∀ y, (MVal.struct fs).Holds y → y < m.length)
    (hp : ((MVal.struct fs).inner "Paths").field "MapOfPathItemValues" = .nil) :
    Apart (m ++ [.cell (.struct fs)]) m.length E := by
  have hs : (m ++ [Obj.cell (.struct fs)])[m.length]? = some (.cell (.struct fs)) := getElem?_append_new _ _
  have hl : (m ++ [Obj.cell (.struct fs)]).length = m.length + 1 := by simp
  have hpr : pathsRef (m ++ [.cell (.struct fs)]) m.length = .nil := by
    simp only [pathsRef, deref, hs, hp]
  have hit : ∀ path, itemAt (m ++ [.cell (.struct fs)]) m.length path = none := by
    intro path
    simp only [itemAt, hpr]
    rfl
  refine ⟨?_, ?_, ⟨fs, hs⟩, .inl hpr, ?_, ?_, ?_, ?_⟩
  · intro x o y ho hy
    by_cases hx : x < m.length
    · rw [getElem?_append_old _ _ hx] at ho
      have := hclosed x o y ho hy
      omega
    · by_cases hx' : x = m.length
      · subst hx'
        rw [hs] at ho
        cases ho
        cases hy with | cell hy => have := hfs y hy; omega
      · rw [List.getElem?_eq_none (by omega)] at ho
        cases ho
  · intro x hx
    have := hE x hx
    omega
  · intro path item h
    rw [hit] at h; cases h
  · intro _ path' _ _ _ h
    rw [hit] at h; cases h
  · intro path method op x h
    simp only [opAt, hit, Option.bind_none] at h
    cases h
  · intro x hx hw
    have hxl : x < m.length := by
      have : From m E x := hx.same fun y hy => getElem?_append_old _ _ (hy.lt hclosed hE)
      exact this.lt hclosed hE
    rcases hw with h | h | ⟨path, item, h, -⟩
    · omega
    · rw [hpr] at h; cases h
    · rw [hit] at h; cases h

/-! ## A case -/

/-- A document with `GET /a`, which has a response `200`, and an empty map of the caller. -/
def caseMem : Memory :=
  [.cell (.struct [("Openapi", .lit (.str "3.0.3")), ("Paths", .struct [("MapOfPathItemValues", .ref 1)])]),
   .map [("/a", .struct [("MapOfOperationValues", .ref 2)])],
   .map [("get", .struct [("Responses", .struct [("MapOfResponseOrRefValues", .ref 3)])])],
   .map [("200", .struct [])],
   .map []]

/-- `func(op *Operation) error { op.Responses.MapOfResponseOrRefValues["500"] = ResponseOrRef{}; return err }` -/
def caseSetup : MSetup := fun m a =>
  match ((deref m a).inner "Responses").field "MapOfResponseOrRefValues" with
  | .ref c => (m.set c (.map (GoMap.set (entries m (.ref c)) "500" (.struct []))), some "failed")
  | _ => (m, some "failed")

/-- The memory after `SetupOperation` with `caseSetup`. -/
def caseAfter : Memory :=
  [.cell (.struct [("Openapi", .lit (.str "3.0.3")), ("Paths", .struct [("MapOfPathItemValues", .ref 1)])]),
   .map [("/a", .struct [("MapOfOperationValues", .ref 2)])],
   .map [("get", .struct [("Responses", .struct [("MapOfResponseOrRefValues", .ref 3)])])],
   .map [("200", .struct []), ("500", .struct [])],
   .map [],
   .cell (.struct [("Responses", .struct [("MapOfResponseOrRefValues", .ref 3)])])]

/-- An operation of the caller, with the caller's map of responses. -/
def caseOp : MVal := .struct [("Responses", .struct [("MapOfResponseOrRefValues", .ref 4)])]

theorem case_uses : Uses (· = 4) caseSetup := by
  intro m a
  simp only [caseSetup]
  split
  · rename_i c hc
    have hcf : From m (fun x => x = a ∨ x = 4) c := by
      have h1 : (deref m a).Holds c := inner_holds (field_holds (go := "MapOfResponseOrRefValues")
        (by rw [hc]; exact .ref))
      obtain ⟨o, h2, h3⟩ := deref_holds h1
      exact .step (.root (.inl rfl)) h2 h3
    refine ⟨by simp, fun x _ hn => ?_, fun x o y ho hy => ?_⟩
    · exact List.getElem?_set_ne fun h => hn (by rw [← h]; exact hcf)
    · simp only at ho
      by_cases hx : x = c
      · subst hx
        by_cases hl : x < m.length
        · rw [List.getElem?_set_self hl] at ho
          cases ho
          cases hy with
          | map hm hy =>
            rcases set_mem hm with h | h
            · obtain ⟨b, es, h1, h2, h3⟩ := entries_mem h
              cases h1
              exact .inr (.inl (.step hcf h2 (.map h3 hy)))
            · subst h
              cases hy with | field h _ => cases h
        · rw [List.getElem?_eq_none (by simp; omega)] at ho
          cases ho
      · rw [List.getElem?_set_ne (Ne.symm hx)] at ho
        exact .inl ho
  · exact .refl _ _

theorem holds_struct (fs : List (String × MVal)) (y : Nat) :
    (MVal.struct fs).Holds y ↔ ∃ p, p ∈ fs ∧ p.2.Holds y :=
  ⟨fun h => by cases h with | field h1 h2 => exact ⟨_, h1, h2⟩, fun ⟨_, h1, h2⟩ => .field h1 h2⟩

theorem holds_ref (a y : Nat) : (MVal.ref a).Holds y ↔ y = a :=
  ⟨fun h => by cases h; rfl, fun h => h ▸ .ref⟩

theorem holds_lit (v : Codec.Val) (y : Nat) : (MVal.lit v).Holds y ↔ False := ⟨nofun, nofun⟩

theorem holds_cell (v : MVal) (y : Nat) : (Obj.cell v).Holds y ↔ v.Holds y :=
  ⟨fun h => by cases h; assumption, .cell⟩

theorem holds_map (es : List (String × MVal)) (y : Nat) : (Obj.map es).Holds y ↔ ∃ p, p ∈ es ∧ p.2.Holds y :=
  ⟨fun h => by cases h with | map h1 h2 => exact ⟨_, h1, h2⟩, fun ⟨_, h1, h2⟩ => .map h1 h2⟩

/-- The references in `caseMem`. -/
theorem case_refs {x : Nat} {o : Obj} {y : Nat} (ho : caseMem[x]? = some o) (hy : o.Holds y) :
    (x = 0 ∧ y = 1) ∨ (x = 1 ∧ y = 2) ∨ (x = 2 ∧ y = 3) := by
  match x with
  | 0 =>
    simp [caseMem] at ho
    subst ho
    simpa [holds_cell, holds_struct, holds_lit, holds_ref] using hy
  | 1 =>
    simp [caseMem] at ho
    subst ho
    simpa [holds_map, holds_struct, holds_lit, holds_ref] using hy
  | 2 =>
    simp [caseMem] at ho
    subst ho
    simpa [holds_map, holds_struct, holds_lit, holds_ref] using hy
  | 3 =>
    simp [caseMem] at ho
    subst ho
    simp [holds_map, holds_struct] at hy
  | 4 =>
    simp [caseMem] at ho
    subst ho
    simp [holds_map] at hy
  | n + 5 => simp [caseMem] at ho

theorem case_paths : pathsRef caseMem 0 = .ref 1 := rfl

theorem case_item {path : String} {item : MVal} (h : itemAt caseMem 0 path = some item) :
    path = "/a" ∧ item = .struct [("MapOfOperationValues", .ref 2)] := by
  simp only [itemAt, case_paths] at h
  have := get?_mem h
  simp [entries, caseMem] at this
  exact this

theorem case_op {path method : String} {op : MVal} (h : opAt caseMem 0 path method = some op) :
    op = .struct [("Responses", .struct [("MapOfResponseOrRefValues", .ref 3)])] := by
  simp only [opAt] at h
  cases hi : itemAt caseMem 0 path with
  | none => rw [hi] at h; cases h
  | some item =>
    rw [hi] at h
    obtain ⟨-, rfl⟩ := case_item hi
    have := get?_mem (show GoMap.get? [("get", MVal.struct [("Responses", .struct
      [("MapOfResponseOrRefValues", .ref 3)])])] method = some op from h)
    simp at this
    exact this.2

theorem case_own {x : Nat} (h : Own caseMem 0 x) : x ≤ 2 := by
  rcases h with h | h | ⟨path, item, h, h2⟩
  · omega
  · rw [case_paths] at h; cases h; omega
  · obtain ⟨-, rfl⟩ := case_item h
    cases h2; omega

theorem case_from {R : Nat → Prop} (hR : ∀ x, R x → 2 < x) {x : Nat} (h : From caseMem R x) : 2 < x := by
  induction h with
  | root h => exact hR _ h
  | step _ ho hy ih =>
    have := case_refs ho hy
    omega

theorem case_apart : Apart caseMem 0 (· = 4) := by
  refine ⟨?_, ?_, ⟨_, rfl⟩, .inr ⟨1, _, rfl, rfl⟩, ?_, ?_, ?_, ?_⟩
  · intro x o y ho hy
    have := case_refs ho hy
    simp only [caseMem, List.length_cons, List.length_nil]
    omega
  · rintro x rfl
    simp [caseMem]
  · intro path item h
    obtain ⟨-, rfl⟩ := case_item h
    refine ⟨⟨_, rfl⟩, .inr ⟨2, _, rfl, rfl, ?_⟩⟩
    rw [case_paths]
    intro h; cases h
  · intro path path' item item' b h1 h2 _ _
    rw [(case_item h1).1, (case_item h2).1]
  · intro path method op x h hf hw
    have := case_own hw
    have := case_from (fun y hy => ?_) hf
    · omega
    · rw [case_op h] at hy
      simp [holds_struct, holds_ref] at hy
      omega
  · intro x hf hw
    have := case_own hw
    have := case_from (fun y hy => by omega) hf
    omega

/-- C88: a setup function that fails can have changed the document: the response it put into the map of the copy is in
the stored operation. -/
theorem C88_shared_error : Apart caseMem 0 (· = 4) ∧ Uses (· = 4) caseSetup ∧
    setupOperation caseMem 0 "GET" "/a" [caseSetup] = (caseAfter, some "failed") ∧
    (∃ op, opAt caseMem 0 "/a" "get" = some op ∧ opAt caseAfter 0 "/a" "get" = some op ∧
      GoMap.get? (entries caseMem ((op.inner "Responses").field "MapOfResponseOrRefValues")) "500" = none ∧
      GoMap.get? (entries caseAfter ((op.inner "Responses").field "MapOfResponseOrRefValues")) "500" =
        some (.struct [])) ∧
    tree caseAfter 9 (.ref 0) ≠ tree caseMem 9 (.ref 0) := by
  have hs : sanitizeMethodPath "GET" "/a" = .ok ⟨"get", "/a", []⟩ := by decide +kernel
  refine ⟨case_apart, case_uses, ?_, ⟨_, rfl, rfl, rfl, rfl⟩, ?_⟩
  · simp only [setupOperation, hs]
    rfl
  · simp [caseMem, caseAfter, tree]

/-- The hypotheses of `C88_setup_error_new` and `C88_setup_error_assigns` are met: a function that fails for a new
operation. -/
example : slot caseMem 0 "POST" "/b" = none ∧ Separate caseMem (.ref 0) (· = 4) ∧
    AssignsOnly (fun m _ => (m, some "failed")) ∧ Uses (· = 4) (fun m _ => (m, some "failed")) ∧
    ∃ m', setupOperation caseMem 0 "POST" "/b" [fun m _ => (m, some "failed")] = (m', some "failed") := by
  have hs : sanitizeMethodPath "POST" "/b" = .ok ⟨"post", "/b", []⟩ := by decide +kernel
  refine ⟨by simp only [slot, hs]; rfl, ?_, fun m a => ⟨Nat.le_refl _, fun _ _ _ => rfl⟩, fun m a => .refl _ _, ?_⟩
  · intro x hx
    have h1 : x ≤ 3 := by
      induction hx with
      | root h => cases h; omega
      | step _ ho hy ih => have := case_refs ho hy; omega
    refine ⟨by simp only [caseMem, List.length_cons, List.length_nil]; omega, fun hf => ?_⟩
    have h4 : x = 4 := by
      induction hf with
      | root h => exact h
      | step hf ho hy ih => have := case_refs ho hy; have := case_from (fun y hy => by omega) hf; omega
    omega
  · simp only [setupOperation, hs]
    exact ⟨_, rfl⟩

/-- The hypotheses of the theorems about `AddOperation` are met: an operation with the caller's empty map for a path
with a parameter it does not have, which fails, and for another path, which succeeds. The map has a response `204`
afterwards. -/
example : (∀ y, caseOp.Holds y → From caseMem (· = 4) y) ∧ CodesOk caseMem caseOp ∧ NoResponse caseMem caseOp ∧
    (∃ m', addOperation caseMem 0 "POST" "/b/{id}" caseOp = (m', some "undefined path parameter: id") ∧
      ∃ es, m'[4]? = some (.map es) ∧ es.map Prod.fst = ["204"]) ∧
    (∃ m', addOperation caseMem 0 "POST" "/b" caseOp = (m', none) ∧
      (∃ op, opAt m' 0 "/b" "post" = some op) ∧
      ∃ es, m'[4]? = some (.map es) ∧ es.map Prod.fst = ["204"]) := by
  have hs : sanitizeMethodPath "post" "/b" = .ok ⟨"post", "/b", []⟩ := by decide +kernel
  have hs' : sanitizeMethodPath "post" "/b/{id}" = .ok ⟨"post", "/b/{id}", ["id"]⟩ := by decide +kernel
  have hl : goToLower "POST" = "post" := by decide +kernel
  refine ⟨?_, .inr ⟨4, [], rfl, rfl⟩, ⟨rfl, rfl⟩, ?_, ?_⟩
  · intro y hy
    simp [caseOp, holds_struct, holds_ref] at hy
    exact .root hy
  · simp only [addOperation, setupOperation, hl, hs']
    exact ⟨_, rfl, _, rfl, rfl⟩
  · simp only [addOperation, setupOperation, hl, hs]
    exact ⟨_, rfl, ⟨_, rfl⟩, _, rfl, rfl⟩

end Verif.Mem
