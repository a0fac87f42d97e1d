import Verif.Lemmas.Sorted

/-! Encoding keeps the order of entries, and the order changes nothing else. -/

namespace Verif.Codec
open Spec

variable {T : Table}

theorem Both.refl' {a : Option Any} : Both (Reordered Eq) a a := by
  cases a with
  | none => trivial
  | some a => exact Reordered.refl (fun _ => rfl) a

theorem vviewList_map (vs : List Val) : vviewList T vs = vs.map (fun v => encodeView T (vview T v)) := by
  induction vs with
  | nil => rfl
  | cons v vs ih => simp [vviewList, ih]

theorem vviewMembers_map (ms : List (String × Val)) :
    vviewMembers T ms = ms.map (fun p => (p.1, encodeView T (vview T p.2))) := by
  induction ms with
  | nil => rfl
  | cons p ms ih => obtain ⟨k, v⟩ := p; simp [vviewMembers, ih]

theorem vviewFields_map (ms : List (String × Val)) :
    vviewFields T ms = ms.map (fun p => ⟨p.1, p.2, encodeView T (vview T p.2)⟩) := by
  induction ms with
  | nil => rfl
  | cons p ms ih => obtain ⟨k, v⟩ := p; simp [vviewFields, ih]

theorem PermEach.append {α : Type} {R : α → α → Prop} {l m l' m' : List α} (h : PermEach R l l')
    (h2 : PermEach R m m') : PermEach R (l ++ m) (l' ++ m') := by
  obtain ⟨ps, h1, hp⟩ := h
  obtain ⟨qs, h2, hq⟩ := h2
  exact ⟨ps ++ qs, Each.append h1 h2, hp.append hq⟩

theorem PermEach.flatten {α : Type} {R : α → α → Prop} {l l' : List (List α)} (h : Each (PermEach R) l l') :
    PermEach R l.flatten l'.flatten := by
  induction h with
  | nil => exact ⟨[], .nil, .refl _⟩
  | cons h _ ih => exact PermEach.append h ih

/-- The part counts in a union. -/
def counts : Any → Bool
  | .null => false
  | .obj [] => false
  | _ => true

theorem counts_rel {a b : Any} (h : Reordered Eq a b) : counts a = counts b := by
  cases a with
  | null => simp only [Reordered] at h; subst h; rfl
  | bool x => simp only [Reordered] at h; subst h; rfl
  | str x => simp only [Reordered] at h; subst h; rfl
  | num x => simp only [Reordered] at h; obtain ⟨y, rfl, _⟩ := h; rfl
  | arr x => simp only [Reordered] at h; obtain ⟨y, rfl, _⟩ := h; rfl
  | obj ms =>
    rw [obj_rel] at h
    obtain ⟨ns, rfl, h⟩ := h
    have := h.nil_iff
    cases ms <;> cases ns <;> simp_all [counts]

/-- The members of an object. -/
def asObj : Any → Option (List (String × Any))
  | .obj ms => some ms
  | _ => none

theorem asObj_rel {a b : Any} (h : Reordered Eq a b) : Both (PermEach (MemRel Eq)) (asObj a) (asObj b) := by
  cases a with
  | null => simp only [Reordered] at h; subst h; trivial
  | bool x => simp only [Reordered] at h; subst h; trivial
  | str x => simp only [Reordered] at h; subst h; trivial
  | num x => simp only [Reordered] at h; obtain ⟨y, rfl, _⟩ := h; trivial
  | arr x => simp only [Reordered] at h; obtain ⟨y, rfl, _⟩ := h; trivial
  | obj ms =>
    rw [obj_rel] at h
    obtain ⟨ns, rfl, h⟩ := h
    exact h

theorem unionJ_eq (js : List Any) : unionJ js = match js.filter counts with
    | [] => some (.obj [])
    | [j] => some j
    | js => (mapAll asObj js).map (fun l => .obj l.flatten) := by
  unfold unionJ
  have e1 : (fun j : Any => match j with
    | .null => false
    | .obj [] => false
    | _ => true) = counts := by
    funext j
    cases j with
    | obj ms => cases ms <;> rfl
    | _ => rfl
  simp only [← e1]
  rfl

theorem unionJ_rel {js js' : List Any} (h : Each (Reordered Eq) js js') :
    Both (Reordered Eq) (unionJ js) (unionJ js') := by
  rw [unionJ_eq, unionJ_eq]
  have hf := Each.filter (p := counts) (q := counts) (fun a b hab => counts_rel hab) h
  generalize hx : js.filter counts = l at hf ⊢
  generalize hy : js'.filter counts = l' at hf ⊢
  cases hf with
  | nil => exact Both.refl'
  | cons h1 h2 =>
    cases h2 with
    | nil => exact h1
    | cons h2 h3 =>
      exact Both.map (fun u v huv => obj_rel.2 ⟨_, rfl, PermEach.flatten huv⟩)
        (mapAll_each (fun a b hab => asObj_rel hab) (.cons h1 (.cons h2 h3)))

theorem isEmpty_rel {v w : Val} (h : ReorderedVal v w) : isEmpty v = isEmpty w := by
  cases v with
  | nil => simp only [ReorderedVal] at h; subst h; rfl
  | bool x => simp only [ReorderedVal] at h; subst h; rfl
  | str x => simp only [ReorderedVal] at h; subst h; rfl
  | num x => simp only [ReorderedVal] at h; subst h; rfl
  | any a =>
    simp only [ReorderedVal] at h
    obtain ⟨b, rfl, h⟩ := h
    cases a <;> simp only [Reordered] at h
    · subst h; rfl
    · subst h; rfl
    · obtain ⟨_, rfl, _⟩ := h; rfl
    · subst h; rfl
    · obtain ⟨_, rfl, _⟩ := h; rfl
    · obtain ⟨_, _, rfl, _⟩ := h; rfl
  | list vs =>
    simp only [ReorderedVal] at h
    obtain ⟨ws, rfl, h⟩ := h
    rw [reorderedVals_each] at h
    have := Each.length h
    cases vs <;> cases ws <;> simp_all [isEmpty]
  | map ms =>
    rw [map_rel] at h
    obtain ⟨ns, rfl, h⟩ := h
    exact h.nil_iff
  | struct fs =>
    rw [struct_rel] at h
    obtain ⟨gs, rfl, h⟩ := h
    rfl

theorem nil_rel {v w : Val} (h : ReorderedVal v w) : (v = .nil) ↔ (w = .nil) := by
  cases v with
  | nil => simp only [ReorderedVal] at h; subst h; simp
  | bool x => simp only [ReorderedVal] at h; subst h; simp
  | str x => simp only [ReorderedVal] at h; subst h; simp
  | num x => simp only [ReorderedVal] at h; subst h; simp
  | any a => obtain ⟨b, rfl, h⟩ := h; simp
  | list vs => obtain ⟨b, rfl, h⟩ := h; simp
  | map ms => obtain ⟨b, c, rfl, h⟩ := h; simp
  | struct fs => obtain ⟨b, rfl, h⟩ := h; simp

theorem omitted_rel {f : Field} {v w : Val} (h : ReorderedVal v w) : omitted f v = omitted f w := by
  have he := isEmpty_rel h
  have hn := nil_rel h
  unfold omitted
  congr 1
  cases f.ty with
  | ptr t => cases v <;> cases w <;> simp_all
  | _ => exact he

/-- Slots of the same field whose values are encoded alike. -/
def SlotRel (s t : Slot) : Prop :=
  s.go = t.go ∧ ReorderedVal s.val t.val ∧ ∀ ty, Both (Reordered Eq) (s.enc ty) (t.enc ty)

theorem slotOf_rel {fs gs : List Slot} (h : Each SlotRel fs gs) (go : String) :
    Both SlotRel (slotOf fs go) (slotOf gs go) := by
  unfold slotOf
  induction h with
  | nil => trivial
  | @cons a b _ _ h _ ih =>
    simp only [List.find?_cons, h.1]
    split
    · exact h
    · exact ih

theorem encodeFields_rel {fs gs : List Slot} (h : Each SlotRel fs gs) (fields : List Field) :
    Both (Each (MemRel Eq)) (encodeFields fields fs) (encodeFields fields gs) := by
  induction fields with
  | nil => exact .nil
  | cons f rest ih =>
    simp only [encodeFields]
    have hs := slotOf_rel h f.go
    cases hx : slotOf fs f.go <;> cases hy : slotOf gs f.go <;> rw [hx, hy] at hs
    · trivial
    · exact False.elim hs
    · exact False.elim hs
    · rename_i s t
      simp only [omitted_rel hs.2.1]
      split
      · exact ih
      · have he := hs.2.2 f.ty
        cases h1 : s.enc f.ty <;> cases h2 : t.enc f.ty <;> rw [h1, h2] at he
        · trivial
        · exact False.elim he
        · exact False.elim he
        · cases h3 : encodeFields rest fs <;> cases h4 : encodeFields rest gs <;> rw [h3, h4] at ih
          · trivial
          · exact ih
          · exact ih
          · exact .cons ⟨rfl, he⟩ ih

theorem encodePart_rel {s : Struct} {fs gs : List Slot} (h : Each SlotRel fs gs) (p : Part) :
    Both (Reordered Eq) (encodePart s fs p) (encodePart s gs p) := by
  cases p with
  | consts cs => exact Both.refl'
  | fields =>
    exact Both.map (R := Each (MemRel Eq)) (f := Any.obj) (g := Any.obj)
      (fun u v huv => obj_rel.2 ⟨v, rfl, v, huv, .refl _⟩) (encodeFields_rel h s.fields)
  | hidden go =>
    simp only [encodePart]
    have hs := slotOf_rel h go
    cases hx : slotOf fs go <;> cases hy : slotOf gs go <;> rw [hx, hy] at hs
    · trivial
    · exact False.elim hs
    · exact False.elim hs
    · cases hiddenTy s go with
      | none => trivial
      | some ty => exact hs.2.2 ty

theorem mapAll_same {α β : Type} {S : β → β → Prop} {f g : α → Option β} {l : List α}
    (h : ∀ a, Both S (f a) (g a)) : Both (Each S) (mapAll f l) (mapAll g l) := by
  refine mapAll_each (R := Eq) ?_ (Each.refl fun _ _ => rfl)
  rintro a _ rfl
  exact h a

theorem encode_rel : ∀ (n : Nat) (v w : Val) (ty : Ty), sizeOf v ≤ n → ReorderedVal v w →
    Both (Reordered Eq) (encode T ty v) (encode T ty w) := by
  intro n
  induction n with
  | zero => intro v w ty hn; cases v <;> simp at hn
  | succ n ih =>
    intro v w ty hn hr
    unfold encode
    cases v with
    | nil => simp only [ReorderedVal] at hr; subst hr; exact Both.refl'
    | bool x => simp only [ReorderedVal] at hr; subst hr; exact Both.refl'
    | str x => simp only [ReorderedVal] at hr; subst hr; exact Both.refl'
    | num x => simp only [ReorderedVal] at hr; subst hr; exact Both.refl'
    | any a =>
      simp only [ReorderedVal] at hr
      obtain ⟨b, rfl, hr⟩ := hr
      simp only [vview]
      induction ty with
      | any => exact hr
      | ptr t iht => simp only [encodeView]; exact iht
      | named m =>
        simp only [encodeView]
        cases GoMap.get? T m with
        | none => trivial
        | some d => cases d <;> trivial
      | _ => trivial
    | list vs =>
      simp only [ReorderedVal] at hr
      obtain ⟨ws, rfl, hr⟩ := hr
      rw [reorderedVals_each] at hr
      simp only [vview, vviewList_map]
      induction ty with
      | slice t _ =>
        simp only [encodeView]
        refine Both.map (fun u v huv => ⟨_, rfl, reorderedList_each.mpr huv⟩) (mapAll_each (fun _ _ h => h t) (R := fun d e => ∀ t : Ty, Both (Reordered Eq) (d t) (e t)) ?_)
        have h2 : Each (fun v w => ∀ t : Ty, Both (Reordered Eq) (encode T t v) (encode T t w)) vs ws := by
          refine Each.imp hr fun a ha b hab t => ih a b t ?_ hab
          have := List.sizeOf_lt_of_mem ha
          simp only [Val.list.sizeOf_spec] at hn
          omega
        exact Each.map (f := fun v => encodeView T (vview T v)) (g := fun v => encodeView T (vview T v))
          (fun a b hab => hab) h2
      | ptr t iht => simp only [encodeView]; exact iht
      | named m =>
        simp only [encodeView]
        cases GoMap.get? T m with
        | none => trivial
        | some d => cases d <;> trivial
      | _ => trivial
    | map ms =>
      rw [map_rel] at hr
      obtain ⟨ns, rfl, ps, h1, h2⟩ := hr
      simp only [vview, vviewMembers_map]
      induction ty with
      | map t _ =>
        simp only [encodeView]
        refine Both.map (fun u v huv => obj_rel.2 ⟨_, rfl, huv⟩) ?_
        refine mapAll_permEach (R := fun d e : String × (Ty → Option Any) => d.1 = e.1 ∧ Both (Reordered Eq) (d.2 t) (e.2 t)) ?_ ?_
        · rintro ⟨k, d⟩ ⟨k', e⟩ ⟨hk, hde⟩
          simp only at hk hde ⊢
          subst hk
          exact Both.map (fun u v huv => ⟨rfl, huv⟩) hde
        · refine ⟨_, Each.map (f := fun p : String × Val => (p.1, encodeView T (vview T p.2))) (fun a b hab => hab) (R := fun p q : String × Val => p.1 = q.1 ∧ Both (Reordered Eq) (encode T t p.2) (encode T t q.2)) ?_, h2.map _⟩
          refine Each.imp h1 fun a ha b hab => ⟨hab.1, ih a.2 b.2 t ?_ hab.2⟩
          have := List.sizeOf_lt_of_mem ha
          obtain ⟨k, x⟩ := a
          simp only [Val.map.sizeOf_spec] at hn
          simp only [Prod.mk.sizeOf_spec] at this
          simp only
          omega
      | ptr t iht => simp only [encodeView]; exact iht
      | named m =>
        simp only [encodeView]
        cases GoMap.get? T m with
        | none => trivial
        | some d => cases d <;> trivial
      | _ => trivial
    | struct fs =>
      rw [struct_rel] at hr
      obtain ⟨gs, rfl, hr⟩ := hr
      simp only [vview, vviewFields_map]
      induction ty with
      | named m =>
        simp only [encodeView]
        cases GoMap.get? T m with
        | none => trivial
        | some d =>
          cases d with
          | enum _ => trivial
          | struct s =>
            simp only
            have hs : Each SlotRel (fs.map (fun p => (⟨p.1, p.2, encodeView T (vview T p.2)⟩ : Slot)))
                (gs.map (fun p => (⟨p.1, p.2, encodeView T (vview T p.2)⟩ : Slot))) := by
              refine Each.map (R := fun p q : String × Val => EntRel p q ∧ ∀ t, Both (Reordered Eq) (encode T t p.2) (encode T t q.2)) (fun a b hab => ⟨hab.1.1, hab.1.2, hab.2⟩) ?_
              refine Each.imp hr fun a ha b hab => ⟨hab, fun t => ih a.2 b.2 t ?_ hab.2⟩
              have := List.sizeOf_lt_of_mem ha
              obtain ⟨k, x⟩ := a
              simp only [Val.struct.sizeOf_spec] at hn
              simp only [Prod.mk.sizeOf_spec] at this
              simp only
              omega
            have hm := mapAll_same (S := Reordered Eq) (l := s.parts) (encodePart_rel (s := s) hs)
            generalize mapAll (encodePart s (fs.map (fun p => (⟨p.1, p.2, encodeView T (vview T p.2)⟩ : Slot)))) s.parts = x at hm ⊢
            generalize mapAll (encodePart s (gs.map (fun p => (⟨p.1, p.2, encodeView T (vview T p.2)⟩ : Slot)))) s.parts = y at hm ⊢
            cases x <;> cases y
            · trivial
            · exact False.elim hm
            · exact False.elim hm
            · exact unionJ_rel hm
      | ptr t iht => simp only [encodeView]; exact iht
      | _ => trivial

end Verif.Codec
