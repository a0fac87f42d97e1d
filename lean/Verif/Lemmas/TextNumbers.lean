import Verif.Lemmas.TextMarshal
import Verif.Lemmas.Load
import Verif.Spec.TextValue

/-!
Writing a value whose numbers are JSON numbers gives a JSON value whose numbers are JSON numbers.
-/

namespace Verif.Text
open Codec Spec Grammar

/-- What is written has JSON numbers only. -/
def Prints (e : Ty → Option Any) : Prop := ∀ ty j, e ty = some j → NumbersOk j

theorem numbersList_iff {xs : List Any} : NumbersOkList xs ↔ ∀ x ∈ xs, NumbersOk x := by
  induction xs with
  | nil => simp [NumbersOkList]
  | cons x xs ih => simp [NumbersOkList, ih]

theorem prints_elements {es : List (Ty → Option Any)} (h : ∀ e ∈ es, Prints e) {t : Ty} {xs : List Any}
    (hm : mapAll (fun e => e t) es = some xs) : NumbersOkList xs := by
  induction es generalizing xs with
  | nil => cases hm; trivial
  | cons e es ih =>
    simp only [mapAll] at hm
    split at hm
    · rename_i y ys h1 h2
      cases hm
      exact ⟨h e List.mem_cons_self _ _ h1, ih (fun x hx => h x (List.mem_cons_of_mem _ hx)) h2⟩
    · cases hm

theorem prints_entries {es : List (String × (Ty → Option Any))} (h : ∀ e ∈ es, Prints e.2) {t : Ty}
    {xs : List (String × Any)} (hm : mapAll (fun m => (m.2 t).map (fun j => (m.1, j))) es = some xs) :
    NumbersOkMembers xs := by
  induction es generalizing xs with
  | nil => cases hm; trivial
  | cons e es ih =>
    simp only [mapAll] at hm
    split at hm
    · rename_i y ys h1 h2
      cases hm
      rw [Option.map_eq_some_iff] at h1
      obtain ⟨j, h1, rfl⟩ := h1
      exact ⟨h e List.mem_cons_self _ _ h1, ih (fun x hx => h x (List.mem_cons_of_mem _ hx)) h2⟩
    · cases hm

theorem prints_slot {fs : List Codec.Slot} (h : ∀ s ∈ fs, Prints s.enc) {go : String} {s : Codec.Slot}
    (hs : Codec.slotOf fs go = some s) : Prints s.enc := h s (List.mem_of_find?_eq_some hs)

theorem prints_fields {fs : List Codec.Slot} (h : ∀ s ∈ fs, Prints s.enc) {fields : List Field} {ms : List (String × Any)}
    (hm : encodeFields fields fs = some ms) : NumbersOkMembers ms := by
  induction fields generalizing ms with
  | nil => cases hm; trivial
  | cons f fields ih =>
    simp only [encodeFields] at hm
    split at hm
    · cases hm
    · rename_i slot hs
      split at hm
      · exact ih hm
      · split at hm
        · rename_i j ms' h1 h2
          cases hm
          exact ⟨prints_slot h hs _ _ h1, ih h2⟩
        · cases hm

theorem prints_part {s : Struct} {fs : List Codec.Slot} (h : ∀ s ∈ fs, Prints s.enc) {p : Part} {j : Any}
    (hp : encodePart s fs p = some j) : NumbersOk j := by
  cases p with
  | consts cs =>
    cases hp
    exact (consts_ok cs).1
  | fields =>
    simp only [encodePart, Option.map_eq_some_iff] at hp
    obtain ⟨ms, hm, rfl⟩ := hp
    exact prints_fields h hm
  | hidden go =>
    simp only [encodePart] at hp
    split at hp
    · rename_i hs _
      exact prints_slot h hs _ _ hp
    · cases hp

theorem prints_union {js : List Any} (h : ∀ j ∈ js, NumbersOk j) {j : Any} (hu : unionJ js = some j) : NumbersOk j := by
  rw [unionJ_eq] at hu
  have h' : ∀ x ∈ js.filter nonEmpty, NumbersOk x := fun x hx => h x (List.mem_filter.1 hx).1
  generalize js.filter nonEmpty = l at hu h'
  match l, hu, h' with
  | [], hu, _ => cases hu; trivial
  | [y], hu, h' => cases hu; exact h' _ List.mem_cons_self
  | a :: b :: l, hu, h' =>
    simp only [Option.map_eq_some_iff] at hu
    obtain ⟨r, hr, rfl⟩ := hu
    simp only [NumbersOk]
    rw [numbersMembers_iff]
    intro m hm
    obtain ⟨ms, hin, hm⟩ := List.mem_flatten.1 hm
    obtain ⟨x, hx, hf⟩ := mapAll_from hr _ hin
    cases x with
    | obj ms' =>
      cases hf
      have := h' _ hx
      simp only [NumbersOk] at this
      rw [numbersMembers_iff] at this
      exact this m hm
    | _ => cases hf

theorem prints_leaf {T : Table} {v : VView} (h : ∀ ty, (∀ t, ty ≠ .ptr t) → ∀ j, encodeView T v ty = some j → NumbersOk j) :
    Prints (encodeView T v) := by
  intro ty
  induction ty with
  | ptr t ih =>
    intro j hj
    by_cases hv : v = .nil
    · subst hv
      cases hj
      trivial
    · have e1 : encodeView T v (.ptr t) = encodeView T v t := by
        cases v <;> first | exact absurd rfl hv | rfl
      exact ih j (e1 ▸ hj)
  | any => exact h _ (by intro t; simp)
  | bool => exact h _ (by intro t; simp)
  | str => exact h _ (by intro t; simp)
  | int => exact h _ (by intro t; simp)
  | float => exact h _ (by intro t; simp)
  | slice t => exact h _ (by intro t; simp)
  | map t => exact h _ (by intro t; simp)
  | named n => exact h _ (by intro t; simp)

mutual
theorem prints {T : Table} : ∀ v : Val, Numeric v → Prints (encodeView T (vview T v))
  | .nil, _ => by
    rw [vview]
    apply prints_leaf
    intro ty hp j hj
    cases ty with
    | ptr t => exact absurd rfl (hp t)
    | named n => simp only [encodeView] at hj; split at hj <;> simp_all
    | any => cases hj; trivial
    | slice => cases hj; trivial
    | map => cases hj; trivial
    | _ => cases hj
  | .any a, hv => by
    rw [vview]
    apply prints_leaf
    intro ty hp j hj
    cases ty with
    | ptr t => exact absurd rfl (hp t)
    | named n => simp only [encodeView] at hj; split at hj <;> simp_all
    | any => cases hj; exact hv
    | _ => cases hj
  | .bool b, _ => by
    rw [vview]
    apply prints_leaf
    intro ty hp j hj
    cases ty with
    | ptr t => exact absurd rfl (hp t)
    | named n => simp only [encodeView] at hj; split at hj <;> simp_all
    | bool => cases hj; trivial
    | _ => cases hj
  | .str s, _ => by
    rw [vview]
    apply prints_leaf
    intro ty hp j hj
    cases ty with
    | ptr t => exact absurd rfl (hp t)
    | named n =>
      simp only [encodeView] at hj
      cases hg : GoMap.get? T n with
      | none => rw [hg] at hj; cases hj
      | some d =>
        rw [hg] at hj
        cases d with
        | struct => cases hj
        | enum values =>
          simp only at hj
          split at hj
          · cases hj; trivial
          · cases hj
    | str => cases hj; trivial
    | _ => cases hj
  | .num lit, hv => by
    rw [vview]
    apply prints_leaf
    intro ty hp j hj
    cases ty with
    | ptr t => exact absurd rfl (hp t)
    | named n => simp only [encodeView] at hj; split at hj <;> simp_all
    | int => cases hj; exact hv
    | float => cases hj; exact hv
    | _ => cases hj
  | .list vs, hv => by
    have ih := printsList (T := T) vs hv
    rw [vview]
    apply prints_leaf
    intro ty hp j hj
    cases ty with
    | ptr t => exact absurd rfl (hp t)
    | named n => simp only [encodeView] at hj; split at hj <;> simp_all
    | slice t =>
      simp only [encodeView, Option.map_eq_some_iff] at hj
      obtain ⟨xs, hm, rfl⟩ := hj
      exact prints_elements ih hm
    | _ => cases hj
  | .map ms, hv => by
    have ih := printsMembers (T := T) ms hv
    rw [vview]
    apply prints_leaf
    intro ty hp j hj
    cases ty with
    | ptr t => exact absurd rfl (hp t)
    | named n => simp only [encodeView] at hj; split at hj <;> simp_all
    | map t =>
      simp only [encodeView, Option.map_eq_some_iff] at hj
      obtain ⟨xs, hm, rfl⟩ := hj
      exact prints_entries ih hm
    | _ => cases hj
  | .struct fs, hv => by
    have ih := printsFields (T := T) fs hv
    rw [vview]
    apply prints_leaf
    intro ty hp j hj
    cases ty with
    | ptr t => exact absurd rfl (hp t)
    | named n =>
      simp only [encodeView] at hj
      cases hg : GoMap.get? T n with
      | none => rw [hg] at hj; cases hj
      | some d =>
        rw [hg] at hj
        cases d with
        | enum => cases hj
        | struct s =>
          simp only at hj
          split at hj
          · rename_i js hm
            apply prints_union _ hj
            intro x hx
            obtain ⟨p, _, hp⟩ := mapAll_from hm _ hx
            exact prints_part ih hp
          · cases hj
    | _ => cases hj
theorem printsList {T : Table} : ∀ vs : List Val, NumericList vs → ∀ e ∈ vviewList T vs, Prints e
  | [], _ => by rw [vviewList]; intro e he; cases he
  | v :: vs, h => by
    have h1 := prints (T := T) v h.1
    have h2 := printsList (T := T) vs h.2
    rw [vviewList]
    intro e he
    rcases List.mem_cons.1 he with rfl | he
    · exact h1
    · exact h2 e he
theorem printsMembers {T : Table} : ∀ ms : List (String × Val), NumericFields ms → ∀ e ∈ vviewMembers T ms, Prints e.2
  | [], _ => by rw [vviewMembers]; intro e he; cases he
  | (k, v) :: ms, h => by
    have h1 := prints (T := T) v h.1
    have h2 := printsMembers (T := T) ms h.2
    rw [vviewMembers]
    intro e he
    rcases List.mem_cons.1 he with rfl | he
    · exact h1
    · exact h2 e he
theorem printsFields {T : Table} : ∀ fs : List (String × Val), NumericFields fs → ∀ s ∈ vviewFields T fs, Prints s.enc
  | [], _ => by rw [vviewFields]; intro e he; cases he
  | (k, v) :: fs, h => by
    have h1 := prints (T := T) v h.1
    have h2 := printsFields (T := T) fs h.2
    rw [vviewFields]
    intro e he
    rcases List.mem_cons.1 he with rfl | he
    · exact h1
    · exact h2 e he
end

/-! ## Checking the numbers of a value -/

/-- The literal is a JSON number. -/
def numberB (lit : String) : Bool := scanNumber lit.toList == some (lit.toList, [])

theorem numberB_sound {lit : String} (h : numberB lit = true) : Number lit.toList := by
  rw [numberB, beq_iff_eq] at h
  exact (scanNumber_sound h).1

mutual
/-- The numbers of a JSON value are JSON numbers. -/
def numbersB : Any → Bool
  | .num lit => numberB lit
  | .arr xs => numbersListB xs
  | .obj ms => numbersMembersB ms
  | _ => true
def numbersListB : List Any → Bool
  | [] => true
  | x :: xs => numbersB x && numbersListB xs
def numbersMembersB : List (String × Any) → Bool
  | [] => true
  | (_, x) :: ms => numbersB x && numbersMembersB ms
end

mutual
theorem numbersB_sound : ∀ j : Any, numbersB j = true → NumbersOk j
  | .null, _ => trivial
  | .bool _, _ => trivial
  | .str _, _ => trivial
  | .num _, h => numberB_sound h
  | .arr xs, h => numbersListB_sound xs h
  | .obj ms, h => numbersMembersB_sound ms h
theorem numbersListB_sound : ∀ xs : List Any, numbersListB xs = true → NumbersOkList xs
  | [], _ => trivial
  | x :: xs, h => by
    simp only [numbersListB, Bool.and_eq_true] at h
    exact ⟨numbersB_sound x h.1, numbersListB_sound xs h.2⟩
theorem numbersMembersB_sound : ∀ ms : List (String × Any), numbersMembersB ms = true → NumbersOkMembers ms
  | [], _ => trivial
  | (_, x) :: ms, h => by
    simp only [numbersMembersB, Bool.and_eq_true] at h
    exact ⟨numbersB_sound x h.1, numbersMembersB_sound ms h.2⟩
end

mutual
/-- The numbers of a Go value are JSON numbers. -/
def numericB : Val → Bool
  | .num lit => numberB lit
  | .any a => numbersB a
  | .list vs => numericListB vs
  | .map ms => numericFieldsB ms
  | .struct fs => numericFieldsB fs
  | _ => true
def numericListB : List Val → Bool
  | [] => true
  | v :: vs => numericB v && numericListB vs
def numericFieldsB : List (String × Val) → Bool
  | [] => true
  | (_, v) :: fs => numericB v && numericFieldsB fs
end

mutual
theorem numericB_sound : ∀ v : Val, numericB v = true → Numeric v
  | .nil, _ => trivial
  | .bool _, _ => trivial
  | .str _, _ => trivial
  | .num _, h => numberB_sound h
  | .any a, h => numbersB_sound a h
  | .list vs, h => numericListB_sound vs h
  | .map ms, h => numericFieldsB_sound ms h
  | .struct fs, h => numericFieldsB_sound fs h
theorem numericListB_sound : ∀ vs : List Val, numericListB vs = true → NumericList vs
  | [], _ => trivial
  | v :: vs, h => by
    simp only [numericListB, Bool.and_eq_true] at h
    exact ⟨numericB_sound v h.1, numericListB_sound vs h.2⟩
theorem numericFieldsB_sound : ∀ fs : List (String × Val), numericFieldsB fs = true → NumericFields fs
  | [], _ => trivial
  | (_, v) :: fs, h => by
    simp only [numericFieldsB, Bool.and_eq_true] at h
    exact ⟨numericB_sound v h.1, numericFieldsB_sound fs h.2⟩
end

theorem encode_numbers {T : Table} {ty : Ty} {v : Val} {j : Any} (hv : Numeric v) (h : encode T ty v = some j) :
    NumbersOk j := prints v hv ty j h

end Verif.Text
