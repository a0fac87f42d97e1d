import Verif.Lemmas.TextWrite
import Verif.Props.UnionText

/-!
Writing on texts is writing on values.
-/

namespace Verif.Text
open Codec Spec Grammar

/-- Values of the type are not written as numbers, except inside arrays and objects. -/
def wide : Ty → Bool
  | .any => false
  | .int => false
  | .float => false
  | .ptr t => wide t
  | _ => true

/-- The parts of the entities are not numbers. -/
def wideTable (T : Table) : Bool :=
  T.all (fun e => match e.2 with
    | .struct s => s.hidden.all (fun h => wide h.ty)
    | .enum _ => true)

/-- A result on texts agrees with a result on values. -/
def Rel (ty : Ty) (o : Option Any) (r : UnionRes (List Char)) : Prop :=
  match o with
  | none => r = .err
  | some j => (r = .ok (text j) ∨ r = .err) ∧ (NumbersOk j → depth j ≤ maxDepth → r = .ok (text j)) ∧
      (wide ty = true → ∀ lit, j ≠ .num lit)

/-- Writing a value on texts agrees with writing it as a JSON value. -/
def Agrees (e : Ty → Option Any) (m : Ty → UnionRes (List Char)) : Prop := ∀ ty, Rel ty (e ty) (m ty)

/-- The same for fields. -/
inductive Slots : List Codec.Slot → List Slot → Prop
  | nil : Slots [] []
  | cons {go : String} {v : Val} {e : Ty → Option Any} {m : Ty → UnionRes (List Char)} {as : List Codec.Slot}
      {bs : List Slot} : Agrees e m → Slots as bs → Slots (⟨go, v, e⟩ :: as) (⟨go, v, m⟩ :: bs)

/-- The same for elements. -/
inductive Elems : List (Ty → Option Any) → List (Ty → UnionRes (List Char)) → Prop
  | nil : Elems [] []
  | cons {e : Ty → Option Any} {m : Ty → UnionRes (List Char)} {as : List (Ty → Option Any)}
      {bs : List (Ty → UnionRes (List Char))} : Agrees e m → Elems as bs → Elems (e :: as) (m :: bs)

/-- The same for entries. -/
inductive Entries : List (String × (Ty → Option Any)) → List (String × (Ty → UnionRes (List Char))) → Prop
  | nil : Entries [] []
  | cons {k : String} {e : Ty → Option Any} {m : Ty → UnionRes (List Char)} {as : List (String × (Ty → Option Any))}
      {bs : List (String × (Ty → UnionRes (List Char)))} : Agrees e m → Entries as bs → Entries ((k, e) :: as) ((k, m) :: bs)

theorem slotOf_rel {as : List Codec.Slot} {bs : List Slot} (h : Slots as bs) (go : String) :
    match Codec.slotOf as go with
    | none => slotOf bs go = none
    | some a => ∃ b, slotOf bs go = some b ∧ a.val = b.val ∧ Agrees a.enc b.enc := by
  induction h with
  | nil => rfl
  | @cons g v e m as bs hr _ ih =>
    unfold Codec.slotOf slotOf at ih ⊢
    by_cases hg : (g == go) = true
    · simp only [List.find?_cons, hg]
      exact ⟨_, rfl, rfl, hr⟩
    · simp only [Bool.not_eq_true] at hg
      simp only [List.find?_cons, hg]
      exact ih

theorem elements_rel {as : List (Ty → Option Any)} {bs : List (Ty → UnionRes (List Char))} (h : Elems as bs) (t : Ty) :
    match mapAll (fun e => e t) as with
    | none => runAll (fun e => e t) bs = .err
    | some xs => (runAll (fun e => e t) bs = .ok (texts xs) ∨ runAll (fun e => e t) bs = .err) ∧
        (NumbersOkList xs → depthList xs ≤ maxDepth → runAll (fun e => e t) bs = .ok (texts xs)) := by
  induction h with
  | nil => exact ⟨.inl rfl, fun _ _ => rfl⟩
  | @cons e m as bs hr _ ih =>
    have h1 := hr t
    simp only [mapAll, runAll]
    cases he : e t with
    | none =>
      rw [he] at h1
      simp only [Rel] at h1
      simp only [h1]
    | some j =>
      rw [he] at h1
      simp only [Rel] at h1
      obtain ⟨h1, h2, _⟩ := h1
      cases hm : mapAll (fun e => e t) as with
      | none =>
        rw [hm] at ih
        simp only at ih
        rcases h1 with h1 | h1 <;> simp only [h1, ih]
      | some xs =>
        rw [hm] at ih
        simp only at ih
        obtain ⟨i1, i2⟩ := ih
        refine ⟨?_, ?_⟩
        · rcases h1 with h1 | h1 <;> rcases i1 with i1 | i1 <;> simp [h1, i1, texts]
        · intro hn hd
          simp only [NumbersOkList] at hn
          simp only [depthList] at hd
          simp only [h2 hn.1 (by omega), i2 hn.2 (by omega), texts]

theorem entries_rel {as : List (String × (Ty → Option Any))} {bs : List (String × (Ty → UnionRes (List Char)))}
    (h : Entries as bs) (t : Ty) :
    match mapAll (fun m => (m.2 t).map (fun j => (m.1, j))) as with
    | none => runAll (entryText t) bs = .err
    | some ms => (runAll (entryText t) bs = .ok (memberTexts ms) ∨ runAll (entryText t) bs = .err) ∧
        (NumbersOkMembers ms → depthMembers ms ≤ maxDepth → runAll (entryText t) bs = .ok (memberTexts ms)) := by
  induction h with
  | nil => exact ⟨.inl rfl, fun _ _ => rfl⟩
  | @cons k e m as bs hr _ ih =>
    have h1 := hr t
    simp only [mapAll, runAll, entryText]
    cases he : e t with
    | none =>
      rw [he] at h1
      simp only [Rel] at h1
      simp only [h1, Option.map_none]
    | some j =>
      rw [he] at h1
      simp only [Rel] at h1
      obtain ⟨h1, h2, _⟩ := h1
      cases hm : mapAll (fun m => (m.2 t).map (fun j => (m.1, j))) as with
      | none =>
        rw [hm] at ih
        simp only at ih
        rcases h1 with h1 | h1 <;> simp only [h1, ih, Option.map_some]
      | some xs =>
        rw [hm] at ih
        simp only at ih
        obtain ⟨i1, i2⟩ := ih
        simp only [Option.map_some]
        refine ⟨?_, ?_⟩
        · rcases h1 with h1 | h1 <;> rcases i1 with i1 | i1 <;> simp [h1, i1, memberTexts]
        · intro hn hd
          simp only [NumbersOkMembers] at hn
          simp only [depthMembers] at hd
          simp only [h2 hn.1 (by omega), i2 hn.2 (by omega), memberTexts]

theorem fields_rel {as : List Codec.Slot} {bs : List Slot} (h : Slots as bs) (fields : List Field) :
    match encodeFields fields as with
    | none => fieldTexts fields bs = .err
    | some ms => (fieldTexts fields bs = .ok (memberTexts ms) ∨ fieldTexts fields bs = .err) ∧
        (NumbersOkMembers ms → depthMembers ms ≤ maxDepth → fieldTexts fields bs = .ok (memberTexts ms)) := by
  induction fields with
  | nil => exact ⟨.inl rfl, fun _ _ => rfl⟩
  | cons f fields ih =>
    have hs := slotOf_rel h f.go
    simp only [encodeFields, fieldTexts]
    cases ha : Codec.slotOf as f.go with
    | none =>
      rw [ha] at hs
      simp only at hs
      simp only [hs]
    | some a =>
      rw [ha] at hs
      simp only at hs
      obtain ⟨b, hb, hv, hr⟩ := hs
      simp only [hb, hv]
      by_cases ho : omitted f b.val = true
      · simp only [ho, if_true]; exact ih
      · simp only [ho]
        have h1 := hr f.ty
        cases he : a.enc f.ty with
        | none =>
          rw [he] at h1
          simp only [Rel] at h1
          simp only [h1]
          simp
        | some j =>
          rw [he] at h1
          simp only [Rel] at h1
          obtain ⟨h1, h2, _⟩ := h1
          cases hm : encodeFields fields as with
          | none =>
            rw [hm] at ih
            simp only at ih
            rcases h1 with h1 | h1 <;> simp [h1, ih]
          | some xs =>
            rw [hm] at ih
            simp only at ih
            obtain ⟨i1, i2⟩ := ih
            simp only [Bool.false_eq_true, if_false]
            refine ⟨?_, ?_⟩
            · rcases h1 with h1 | h1 <;> rcases i1 with i1 | i1 <;> simp [h1, i1, memberTexts]
            · intro hn hd
              simp only [NumbersOkMembers] at hn
              simp only [depthMembers] at hd
              simp only [h2 hn.1 (by omega), i2 hn.2 (by omega), memberTexts]

theorem consts_ok (cs : List (String × Const)) : NumbersOkMembers (cs.map (fun c => (c.1, c.2.json))) ∧
    depthMembers (cs.map (fun c => (c.1, c.2.json))) = 0 := by
  induction cs with
  | nil => exact ⟨trivial, rfl⟩
  | cons c cs ih =>
    obtain ⟨k, c⟩ := c
    simp only [List.map_cons, NumbersOkMembers, depthMembers, ih.2]
    cases c <;> exact ⟨⟨trivial, ih.1⟩, rfl⟩

theorem text_obj (ms : List (String × Any)) : text (.obj ms) = braces (memberTexts ms) := by rw [text]; rfl

/-- A part on texts agrees with the part as a value, and it is not a number. -/
theorem part_rel {T : Table} (hT : wideTable T = true) {n : String} {s : Struct} (hs : GoMap.get? T n = some (.struct s))
    {as : List Codec.Slot} {bs : List Slot} (h : Slots as bs) (p : Part) :
    Rel .bool (encodePart s as p) (partText s bs p) := by
  cases p with
  | consts cs =>
    exact ⟨.inl rfl, fun _ _ => rfl, by intro _ lit; simp⟩
  | fields =>
    have := fields_rel h s.fields
    simp only [encodePart, partText]
    cases he : encodeFields s.fields as with
    | none =>
      rw [he] at this
      simp only at this
      simp only [this, Option.map_none, Rel]
    | some ms =>
      rw [he] at this
      simp only at this
      obtain ⟨h1, h2⟩ := this
      simp only [Option.map_some, Rel]
      refine ⟨?_, ?_, by intro _ lit; simp⟩
      · rcases h1 with h1 | h1 <;> simp [h1, text_obj]
      · intro hn hd
        simp only [NumbersOk] at hn
        simp only [depth] at hd
        simp only [h2 hn (by omega), text_obj]
  | hidden go =>
    have hr := slotOf_rel h go
    simp only [encodePart, partText]
    cases ha : Codec.slotOf as go with
    | none =>
      rw [ha] at hr
      simp only at hr
      simp only [hr, Rel]
    | some a =>
      rw [ha] at hr
      simp only at hr
      obtain ⟨b, hb, _, hr⟩ := hr
      simp only [hb]
      cases hh : hiddenTy s go with
      | none => simp only [Rel]
      | some ty =>
        have hw : wide ty = true := by
          unfold hiddenTy at hh
          rw [Option.map_eq_some_iff] at hh
          obtain ⟨x, hx, rfl⟩ := hh
          have hm := List.mem_of_find?_eq_some hx
          have := List.all_eq_true.1 hT _ (GoMap.mem_of_get? hs)
          simp only at this
          exact List.all_eq_true.1 this _ hm
        have := hr ty
        show Rel .bool (a.enc ty) (b.enc ty)
        generalize a.enc ty = o at this
        cases o with
        | none => exact this
        | some j => exact ⟨this.1, this.2.1, fun _ => this.2.2 hw⟩

/-- Text that a part may have. -/
def Fine (r : UnionRes (List Char)) : Prop := r = .err ∨ ∃ c cs, r = .ok (c :: cs)

theorem text_ne {j : Any} (h : ∀ lit, j ≠ .num lit) : ∃ c cs, text j = c :: cs := by
  match j, h with
  | .null, _ => exact ⟨_, _, by rw [text]; rfl⟩
  | .bool true, _ => exact ⟨_, _, by rw [text]; rfl⟩
  | .bool false, _ => exact ⟨_, _, by rw [text]; rfl⟩
  | .num lit, h => exact absurd rfl (h lit)
  | .str s, _ => exact ⟨_, _, by rw [text]; rfl⟩
  | .arr xs, _ => exact ⟨_, _, by rw [text]⟩
  | .obj ms, _ => exact ⟨_, _, by rw [text]⟩

theorem text_length {j : Any} (h : ∀ lit, j ≠ .num lit) : (text j).length ≠ 1 := by
  match j, h with
  | .null, _ => rw [text]; decide
  | .bool true, _ => rw [text]; decide
  | .bool false, _ => rw [text]; decide
  | .num lit, h => exact absurd rfl (h lit)
  | .str s, _ => rw [text, quote]; simp
  | .arr xs, _ => rw [text]; simp
  | .obj ms, _ => rw [text]; simp

theorem rel_fine {o : Option Any} {r : UnionRes (List Char)} (h : Rel .bool o r) : Fine r := by
  cases o with
  | none => exact .inl h
  | some j =>
    rcases h.1 with e | e
    · obtain ⟨c, cs, ht⟩ := text_ne (h.2.2 rfl)
      exact .inr ⟨c, cs, by rw [e, ht]⟩
    · exact .inl e

theorem unionStep_fine (s : UnionState) (c : Char) (cs : List Char) : unionStep s (some (c :: cs)) ≠ .panics := by
  unfold unionStep
  simp only
  repeat' split
  all_goals simp

theorem joinLoop_err {l : List (UnionRes (List Char))} (h : ∀ r ∈ l, Fine r) (he : .err ∈ l) (s : UnionState) :
    joinLoop s l = .err := by
  induction l generalizing s with
  | nil => cases he
  | cons r l ih =>
    rcases h r List.mem_cons_self with rfl | ⟨c, cs, rfl⟩
    · rfl
    · have he' : .err ∈ l := by
        rcases List.mem_cons.1 he with h | h
        · cases h
        · exact h
      rw [joinLoop]
      cases hu : unionStep s (some (c :: cs)) with
      | ok s' => exact ih (fun r hr => h r (List.mem_cons_of_mem _ hr)) he' s'
      | err => rfl
      | panics => exact absurd hu (unionStep_fine s c cs)

theorem joinLoop_ok (js : List Any) (s : UnionState) :
    joinLoop s (js.map (fun j => .ok (text j))) = unionLoop s (js.map (fun j => some (text j))) := by
  induction js generalizing s with
  | nil => rfl
  | cons j js ih =>
    simp only [List.map_cons, joinLoop, unionLoop]
    cases unionStep s (some (text j)) with
    | ok s' => exact ih s'
    | err => rfl
    | panics => rfl

theorem join_ok {js : List Any} (h : ∀ j ∈ js, ∀ lit, j ≠ .num lit) :
    join (js.map (fun j => .ok (text j))) = match unionJ js with
      | some j => .ok (text j)
      | none => .err := by
  have : join (js.map (fun j => .ok (text j))) = marshalUnion (js.map (fun j => some (text j))) := by
    unfold join marshalUnion
    rw [joinLoop_ok]
    rfl
  rw [this]
  apply C34_tree
  · intro v hv
    cases v with
    | num lit => exact absurd rfl (h _ hv lit)
    | _ => trivial
  · intro v hv
    exact .inr (.inr (text_length (h v hv)))

theorem join_err {l : List (UnionRes (List Char))} (h : ∀ r ∈ l, Fine r) (he : .err ∈ l) : join l = .err := by
  unfold join
  rw [joinLoop_err h he]

/-- The parts of an entity. -/
theorem parts_rel {f : Part → Option Any} {g : Part → UnionRes (List Char)} (h : ∀ p, Rel .bool (f p) (g p))
    (ps : List Part) :
    match mapAll f ps with
    | none => .err ∈ ps.map g
    | some js => (ps.map g = js.map (fun j => .ok (text j)) ∨ .err ∈ ps.map g) ∧
        ((∀ j ∈ js, NumbersOk j ∧ depth j ≤ maxDepth) → ps.map g = js.map (fun j => .ok (text j))) ∧
        ∀ j ∈ js, ∀ lit, j ≠ .num lit := by
  induction ps with
  | nil => exact ⟨.inl rfl, fun _ => rfl, by intro j hj; cases hj⟩
  | cons p ps ih =>
    have h1 := h p
    simp only [mapAll, List.map_cons]
    cases hf : f p with
    | none =>
      rw [hf] at h1
      have h1 : g p = .err := h1
      simp only [h1]
      exact List.mem_cons_self
    | some j =>
      rw [hf] at h1
      obtain ⟨h1, h2, h3⟩ := h1
      cases hm : mapAll f ps with
      | none =>
        rw [hm] at ih
        exact List.mem_cons_of_mem _ ih
      | some js =>
        rw [hm] at ih
        obtain ⟨i1, i2, i3⟩ := ih
        refine ⟨?_, ?_, ?_⟩
        · rcases h1 with h1 | h1
          · rcases i1 with i1 | i1
            · exact .inl (by rw [h1, i1]; rfl)
            · exact .inr (List.mem_cons_of_mem _ i1)
          · exact .inr (by rw [h1]; exact List.mem_cons_self)
        · intro hj
          have := hj j List.mem_cons_self
          rw [h2 this.1 this.2, i2 (fun x hx => hj x (List.mem_cons_of_mem _ hx))]
          rfl
        · intro x hx
          rcases List.mem_cons.1 hx with rfl | hx
          · exact h3 rfl
          · exact i3 x hx

/-! ## Joined values -/

theorem numbersMembers_iff {ms : List (String × Any)} : NumbersOkMembers ms ↔ ∀ m ∈ ms, NumbersOk m.2 := by
  induction ms with
  | nil => simp [NumbersOkMembers]
  | cons m ms ih =>
    obtain ⟨k, x⟩ := m
    simp [NumbersOkMembers, ih]

theorem depthMembers_le {ms : List (String × Any)} {d : Nat} : depthMembers ms ≤ d ↔ ∀ m ∈ ms, depth m.2 ≤ d := by
  induction ms with
  | nil => simp [depthMembers]
  | cons m ms ih =>
    obtain ⟨k, x⟩ := m
    simp only [depthMembers, Nat.max_le, ih, List.mem_cons, forall_eq_or_imp]

theorem mapAll_objects_mem {l : List Any} {r : List (List (String × Any))}
    (h : mapAll (fun j => match j with
      | .obj ms => some ms
      | _ => none) l = some r) : ∀ j ∈ l, ∃ ms, j = .obj ms ∧ ms ∈ r := by
  induction l generalizing r with
  | nil => intro j hj; cases hj
  | cons a l ih =>
    intro j hj
    simp only [mapAll] at h
    cases a with
    | obj ms =>
      simp only at h
      cases hm : mapAll (fun j => match j with
        | Any.obj ms => some ms
        | _ => none) l with
      | none => rw [hm] at h; cases h
      | some r' =>
        rw [hm] at h
        cases h
        rcases List.mem_cons.1 hj with rfl | hj
        · exact ⟨ms, rfl, List.mem_cons_self⟩
        · obtain ⟨ms', e, hin⟩ := ih hm j hj
          exact ⟨ms', e, List.mem_cons_of_mem _ hin⟩
    | _ => cases h

/-- What is joined is as deep as the parts, and has their numbers. -/
theorem union_parts {js : List Any} {j : Any} (h : unionJ js = some j) (hn : NumbersOk j) (hd : depth j ≤ maxDepth) :
    ∀ x ∈ js, NumbersOk x ∧ depth x ≤ maxDepth := by
  intro x hx
  by_cases hb : nonEmpty x = true
  · have hxf : x ∈ js.filter nonEmpty := List.mem_filter.2 ⟨hx, hb⟩
    rw [unionJ_eq] at h
    generalize js.filter nonEmpty = l at h hxf
    match l, h, hxf with
    | [], _, hxf => cases hxf
    | [y], h, hxf =>
      cases h
      rw [List.mem_singleton] at hxf
      subst hxf
      exact ⟨hn, hd⟩
    | a :: b :: l, h, hxf =>
      simp only [Option.map_eq_some_iff] at h
      obtain ⟨r, hr, rfl⟩ := h
      obtain ⟨ms, rfl, hin⟩ := mapAll_objects_mem hr x hxf
      simp only [NumbersOk, depth] at hn hd ⊢
      rw [numbersMembers_iff] at hn ⊢
      have hd' : depthMembers r.flatten ≤ maxDepth - 1 := by omega
      rw [depthMembers_le] at hd'
      have hsub : ∀ m ∈ ms, m ∈ r.flatten := fun m hm => List.mem_flatten.2 ⟨ms, hin, hm⟩
      refine ⟨fun m hm => hn m (hsub m hm), ?_⟩
      have : depthMembers ms ≤ maxDepth - 1 := depthMembers_le.2 (fun m hm => hd' m (hsub m hm))
      simp only [maxDepth] at this ⊢
      omega
  · have := (not_congr (nonEmpty_iff (v := x))).1 hb
    rw [Classical.not_not] at this
    rcases this with rfl | rfl
    · exact ⟨trivial, Nat.zero_le _⟩
    · exact ⟨trivial, by simp [depth, depthMembers, maxDepth]⟩

theorem union_notNum {js : List Any} {j : Any} (h : unionJ js = some j) (hp : ∀ x ∈ js, ∀ lit, x ≠ .num lit) :
    ∀ lit, j ≠ .num lit := by
  rw [unionJ_eq] at h
  have hp' : ∀ x ∈ js.filter nonEmpty, ∀ lit, x ≠ .num lit := fun x hx => hp x (List.mem_filter.1 hx).1
  generalize js.filter nonEmpty = l at h hp'
  match l, h, hp' with
  | [], h, _ => cases h; intro lit; simp
  | [y], h, hp' => cases h; exact hp' _ List.mem_cons_self
  | a :: b :: l, h, _ =>
    simp only [Option.map_eq_some_iff] at h
    obtain ⟨r, _, rfl⟩ := h
    intro lit; simp

theorem compact_text {j : Any} (hn : NumbersOk j) (hd : depth j ≤ maxDepth) : compact (.ok (text j)) = .ok (text j) := by
  have : (parse (text j)).isSome = true := by
    unfold parse
    rw [parse_text hn, if_pos hd]
    rfl
  simp only [compact, this, if_true]

theorem struct_rel {T : Table} (hT : wideTable T = true) {n : String} {s : Struct} (hs : GoMap.get? T n = some (.struct s))
    {as : List Codec.Slot} {bs : List Slot} (h : Slots as bs) :
    Rel (.named n) (match mapAll (encodePart s as) s.parts with
      | some js => unionJ js
      | none => none) (compact (join (s.parts.map (partText s bs)))) := by
  have hr := fun p => part_rel hT hs h p
  have hfine : ∀ r ∈ s.parts.map (partText s bs), Fine r := by
    intro r hr'
    obtain ⟨p, _, rfl⟩ := List.mem_map.1 hr'
    exact rel_fine (hr p)
  have hps := parts_rel hr s.parts
  cases hm : mapAll (encodePart s as) s.parts with
  | none =>
    rw [hm] at hps
    simp only [Rel]
    rw [join_err hfine hps]
    rfl
  | some js =>
    rw [hm] at hps
    obtain ⟨h1, h2, h3⟩ := hps
    simp only
    have hj := join_ok h3
    cases hu : unionJ js with
    | none =>
      rw [hu] at hj
      simp only [Rel]
      rcases h1 with h1 | h1
      · rw [h1, hj]; rfl
      · rw [join_err hfine h1]; rfl
    | some j =>
      rw [hu] at hj
      simp only at hj
      refine ⟨?_, ?_, fun _ => union_notNum hu h3⟩
      · rcases h1 with h1 | h1
        · rw [h1, hj]
          simp only [compact]
          split
          · exact .inl rfl
          · exact .inr rfl
        · rw [join_err hfine h1]; exact .inr rfl
      · intro hn hd
        rw [h2 (union_parts hu hn hd), hj, compact_text hn hd]

/-! ## All values -/

theorem rel_null (ty : Ty) : Rel ty (some .null) (.ok (text .null)) :=
  ⟨.inl rfl, fun _ _ => rfl, by intro _ lit; simp⟩

theorem agrees_leaf {T : Table} {v : VView} {w : View} (h : ∀ ty, (∀ t, ty ≠ .ptr t) → Rel ty (encodeView T v ty) (viewText T w ty))
    (hnil : v = .nil ↔ w = .nil) : Agrees (encodeView T v) (viewText T w) := by
  intro ty
  induction ty with
  | ptr t ih =>
    by_cases hv : v = .nil
    · have hw := hnil.1 hv
      subst hv hw
      exact rel_null _
    · have hw := mt hnil.2 hv
      have e1 : encodeView T v (.ptr t) = encodeView T v t := by
        cases v <;> first | exact absurd rfl hv | rfl
      have e2 : viewText T w (.ptr t) = viewText T w t := by
        cases w <;> first | exact absurd rfl hw | rfl
      rw [e1, e2]
      generalize encodeView T v t = o at ih
      cases o with
      | none => exact ih
      | some j => exact ⟨ih.1, ih.2.1, ih.2.2⟩
  | any => exact h _ (by intro t; simp)
  | bool => exact h _ (by intro t; simp)
  | str => exact h _ (by intro t; simp)
  | int => exact h _ (by intro t; simp)
  | float => exact h _ (by intro t; simp)
  | slice t => exact h _ (by intro t; simp)
  | map t => exact h _ (by intro t; simp)
  | named n => exact h _ (by intro t; simp)

theorem rel_slice {T : Table} {as : List (Ty → Option Any)} {bs : List (Ty → UnionRes (List Char))} (h : Elems as bs) (t : Ty) :
    Rel (.slice t) (encodeView T (.list as) (.slice t)) (viewText T (.list bs) (.slice t)) := by
  have := elements_rel h t
  simp only [encodeView, viewText]
  cases hm : mapAll (fun e => e t) as with
  | none =>
    rw [hm] at this
    simp only at this
    simp only [this]
    rfl
  | some xs =>
    rw [hm] at this
    simp only at this
    obtain ⟨h1, h2⟩ := this
    refine ⟨?_, ?_, by intro _ lit; simp⟩
    · rcases h1 with h1 | h1 <;> simp [h1, text]
    · intro hn hd
      simp only [NumbersOk] at hn
      simp only [depth] at hd
      simp only [h2 hn (by omega), text]

theorem rel_map {T : Table} {as : List (String × (Ty → Option Any))} {bs : List (String × (Ty → UnionRes (List Char)))}
    (h : Entries as bs) (t : Ty) :
    Rel (.map t) (encodeView T (.map as) (.map t)) (viewText T (.map bs) (.map t)) := by
  have := entries_rel h t
  simp only [encodeView, viewText]
  cases hm : mapAll (fun m : String × (Ty → Option Any) => (m.2 t).map (fun j => (m.1, j))) as with
  | none =>
    rw [hm] at this
    simp only at this
    simp only [this]
    rfl
  | some xs =>
    rw [hm] at this
    simp only at this
    obtain ⟨h1, h2⟩ := this
    refine ⟨?_, ?_, by intro _ lit; simp⟩
    · rcases h1 with h1 | h1 <;> simp [h1, text_obj]
    · intro hn hd
      simp only [NumbersOk] at hn
      simp only [depth] at hd
      simp only [h2 hn (by omega), text_obj]

/-- Results that are the same texts. -/
theorem rel_ok {ty : Ty} {j : Any} {cs : List Char} (e : cs = text j) (h : wide ty = true → ∀ lit, j ≠ .num lit) :
    Rel ty (some j) (.ok cs) := by
  subst e
  exact ⟨.inl rfl, fun _ _ => rfl, h⟩

theorem named_other {T : Table} {v : VView} {w : View} (hv : ∀ s, v ≠ .str s) (hv' : ∀ fs, v ≠ .struct fs)
    (hw : ∀ s, w ≠ .str s) (hw' : ∀ fs, w ≠ .struct fs) (n : String) :
    Rel (.named n) (encodeView T v (.named n)) (viewText T w (.named n)) := by
  have e1 : encodeView T v (.named n) = none := by
    simp only [encodeView]
    split
    · exact absurd rfl (hv _)
    · exact absurd rfl (hv' _)
    · rfl
  have e2 : viewText T w (.named n) = .err := by
    simp only [viewText]
    split
    · exact absurd rfl (hw _)
    · exact absurd rfl (hw' _)
    · rfl
  rw [e1, e2]
  rfl

mutual
theorem agrees {T : Table} (hT : wideTable T = true) : ∀ v : Val, Agrees (encodeView T (vview T v)) (viewText T (view T v))
  | .nil => by
    rw [vview, view]
    apply agrees_leaf _ (by simp)
    intro ty hp
    cases ty with
    | ptr t => exact absurd rfl (hp t)
    | named n => exact named_other (by simp) (by simp) (by simp) (by simp) n
    | any => exact rel_null _
    | slice => exact rel_null _
    | map => exact rel_null _
    | _ => rfl
  | .any a => by
    rw [vview, view]
    apply agrees_leaf _ (by simp)
    intro ty hp
    cases ty with
    | ptr t => exact absurd rfl (hp t)
    | named n => exact named_other (by simp) (by simp) (by simp) (by simp) n
    | any => exact rel_ok rfl (by intro h; cases h)
    | _ => rfl
  | .bool b => by
    rw [vview, view]
    apply agrees_leaf _ (by simp)
    intro ty hp
    cases ty with
    | ptr t => exact absurd rfl (hp t)
    | named n => exact named_other (by simp) (by simp) (by simp) (by simp) n
    | bool => exact rel_ok rfl (by intro _ lit; simp)
    | _ => rfl
  | .str s => by
    rw [vview, view]
    apply agrees_leaf _ (by simp)
    intro ty hp
    cases ty with
    | ptr t => exact absurd rfl (hp t)
    | named n =>
      simp only [encodeView, viewText]
      cases hg : GoMap.get? T n with
      | none => rfl
      | some d =>
        cases d with
        | struct => rfl
        | enum values =>
          simp only
          split
          · exact rel_ok (by rw [text]) (by intro _ lit; simp)
          · rfl
    | str => exact rel_ok (by rw [text]) (by intro _ lit; simp)
    | _ => rfl
  | .num lit => by
    rw [vview, view]
    apply agrees_leaf _ (by simp)
    intro ty hp
    cases ty with
    | ptr t => exact absurd rfl (hp t)
    | named n => exact named_other (by simp) (by simp) (by simp) (by simp) n
    | int => exact rel_ok (by rw [text]) (by intro h; cases h)
    | float => exact rel_ok (by rw [text]) (by intro h; cases h)
    | _ => rfl
  | .list vs => by
    have ih := agreesList hT vs
    rw [vview, view]
    apply agrees_leaf _ (by simp)
    intro ty hp
    cases ty with
    | ptr t => exact absurd rfl (hp t)
    | named n => exact named_other (by simp) (by simp) (by simp) (by simp) n
    | slice t => exact rel_slice ih t
    | _ => rfl
  | .map ms => by
    have ih := agreesMembers hT ms
    rw [vview, view]
    apply agrees_leaf _ (by simp)
    intro ty hp
    cases ty with
    | ptr t => exact absurd rfl (hp t)
    | named n => exact named_other (by simp) (by simp) (by simp) (by simp) n
    | map t => exact rel_map ih t
    | _ => rfl
  | .struct fs => by
    have ih := agreesFields hT fs
    rw [vview, view]
    apply agrees_leaf _ (by simp)
    intro ty hp
    cases ty with
    | ptr t => exact absurd rfl (hp t)
    | named n =>
      simp only [encodeView, viewText]
      cases hg : GoMap.get? T n with
      | none => rfl
      | some d =>
        cases d with
        | enum => rfl
        | struct s => exact struct_rel hT hg ih
    | _ => rfl
theorem agreesList {T : Table} (hT : wideTable T = true) : ∀ vs : List Val, Elems (vviewList T vs) (viewList T vs)
  | [] => by rw [vviewList, viewList]; exact .nil
  | v :: vs => by rw [vviewList, viewList]; exact .cons (agrees hT v) (agreesList hT vs)
theorem agreesMembers {T : Table} (hT : wideTable T = true) :
    ∀ ms : List (String × Val), Entries (vviewMembers T ms) (viewMembers T ms)
  | [] => by rw [vviewMembers, viewMembers]; exact .nil
  | (k, v) :: ms => by rw [vviewMembers, viewMembers]; exact .cons (agrees hT v) (agreesMembers hT ms)
theorem agreesFields {T : Table} (hT : wideTable T = true) :
    ∀ fs : List (String × Val), Slots (vviewFields T fs) (viewFields T fs)
  | [] => by rw [vviewFields, viewFields]; exact .nil
  | (k, v) :: fs => by rw [vviewFields, viewFields]; exact .cons (agrees hT v) (agreesFields hT fs)
end

/-- Writing a value on texts agrees with writing it as a JSON value. -/
theorem marshal_rel {T : Table} (hT : wideTable T = true) (ty : Ty) (v : Val) :
    Rel ty (encode T ty v) (marshal T ty v) := agrees hT v ty

/-- A struct that is nested too deeply is not written. -/
theorem marshal_deep {T : Table} (hT : wideTable T = true) {n : String} {s : Struct} (hs : GoMap.get? T n = some (.struct s))
    {v : Val} {j : Any} (h : encode T (.named n) v = some j) (hn : NumbersOk j) (hd : maxDepth < depth j) :
    marshal T (.named n) v = .err := by
  have hr := marshal_rel hT (.named n) v
  rw [h] at hr
  rcases hr.1 with e | e
  · exfalso
    unfold marshal at e
    unfold encode at h
    generalize view T v = w at e
    generalize vview T v = u at h
    cases w with
    | struct fs =>
      simp only [viewText, hs] at e
      cases hx : join (s.parts.map (partText s fs)) with
      | err => rw [hx] at e; cases e
      | panics => rw [hx] at e; cases e
      | ok cs =>
        rw [hx] at e
        simp only [compact] at e
        split at e
        · rename_i hp
          cases e
          unfold parse at hp
          rw [parse_text hn, if_neg (by omega)] at hp
          cases hp
        · cases e
    | _ => simp [viewText, hs] at e
  · exact e

end Verif.Text
