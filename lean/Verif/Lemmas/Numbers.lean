import Verif.Lemmas.TextMarshal
import Verif.Lemmas.Load
import Verif.Spec.Again

/-!
The numbers in what is written for a value are numbers of the value.
-/

namespace Verif.Numbers
open Codec Spec Text

variable {P : String → Prop}

mutual
/-- All numbers of a JSON value are such numbers. -/
def AllIn (P : String → Prop) : Any → Prop
  | .num lit => P lit
  | .arr xs => AllInList P xs
  | .obj ms => AllInMembers P ms
  | _ => True
def AllInList (P : String → Prop) : List Any → Prop
  | [] => True
  | x :: xs => AllIn P x ∧ AllInList P xs
def AllInMembers (P : String → Prop) : List (String × Any) → Prop
  | [] => True
  | (_, x) :: ms => AllIn P x ∧ AllInMembers P ms
end

mutual
/-- All numbers of a Go value are such numbers. -/
def NumIn (P : String → Prop) : Val → Prop
  | .num lit => P lit
  | .any a => AllIn P a
  | .list vs => NumInList P vs
  | .map ms => NumInFields P ms
  | .struct fs => NumInFields P fs
  | _ => True
def NumInList (P : String → Prop) : List Val → Prop
  | [] => True
  | v :: vs => NumIn P v ∧ NumInList P vs
def NumInFields (P : String → Prop) : List (String × Val) → Prop
  | [] => True
  | (_, v) :: fs => NumIn P v ∧ NumInFields P fs
end

mutual
theorem allIn_of : ∀ j : Any, (∀ l ∈ literals j, P l) → AllIn P j
  | .null, _ => trivial
  | .bool _, _ => trivial
  | .str _, _ => trivial
  | .num l, h => h l (by simp [literals])
  | .arr xs, h => allInList_of xs h
  | .obj ms, h => allInMembers_of ms h
theorem allInList_of : ∀ j : List Any, (∀ l ∈ literalsList j, P l) → AllInList P j
  | [], _ => trivial
  | x :: xs, h => ⟨allIn_of x (fun l hl => h l (by simp [literalsList, hl])),
      allInList_of xs (fun l hl => h l (by simp [literalsList, hl]))⟩
theorem allInMembers_of : ∀ j : List (String × Any), (∀ l ∈ literalsMembers j, P l) → AllInMembers P j
  | [], _ => trivial
  | (_, x) :: xs, h => ⟨allIn_of x (fun l hl => h l (by simp [literalsMembers, hl])),
      allInMembers_of xs (fun l hl => h l (by simp [literalsMembers, hl]))⟩
end

mutual
theorem numIn_of : ∀ v : Val, (∀ l ∈ numbersOf v, P l) → NumIn P v
  | .nil, _ => trivial
  | .bool _, _ => trivial
  | .str _, _ => trivial
  | .num l, h => h l (by simp [numbersOf])
  | .any a, h => allIn_of a h
  | .list vs, h => numInList_of vs h
  | .map ms, h => numInFields_of ms h
  | .struct fs, h => numInFields_of fs h
theorem numInList_of : ∀ v : List Val, (∀ l ∈ numbersOfList v, P l) → NumInList P v
  | [], _ => trivial
  | x :: xs, h => ⟨numIn_of x (fun l hl => h l (by simp [numbersOfList, hl])),
      numInList_of xs (fun l hl => h l (by simp [numbersOfList, hl]))⟩
theorem numInFields_of : ∀ v : List (String × Val), (∀ l ∈ numbersOfFields v, P l) → NumInFields P v
  | [], _ => trivial
  | (_, x) :: xs, h => ⟨numIn_of x (fun l hl => h l (by simp [numbersOfFields, hl])),
      numInFields_of xs (fun l hl => h l (by simp [numbersOfFields, hl]))⟩
end

theorem numInList_mem : ∀ {vs : List Val}, NumInList P vs → ∀ v ∈ vs, NumIn P v
  | [], _, _, h => nomatch h
  | _ :: _, h, v, hv => by
    rcases List.mem_cons.1 hv with rfl | hv
    · exact h.1
    · exact numInList_mem h.2 v hv

theorem numInFields_mem : ∀ {fs : List (String × Val)}, NumInFields P fs → ∀ p ∈ fs, NumIn P p.2
  | [], _, _, h => nomatch h
  | _ :: _, h, p, hp => by
    rcases List.mem_cons.1 hp with rfl | hp
    · exact h.1
    · exact numInFields_mem h.2 p hp

theorem numIn_field {s : Struct} {val : String → Val} (h : NumIn P (structOf s val)) {go : String} (hgo : go ∈ s.names) :
    NumIn P (val go) :=
  numInFields_mem (fs := s.names.map (fun go => (go, val go))) h (go, val go) (List.mem_map.2 ⟨go, hgo, rfl⟩)

theorem allInMembers_iff {ms : List (String × Any)} : AllInMembers P ms ↔ ∀ p ∈ ms, AllIn P p.2 := by
  induction ms with
  | nil => simp [AllInMembers]
  | cons p ms ih => obtain ⟨k, x⟩ := p; simp [AllInMembers, ih]

theorem consts_in (cs : List (String × Const)) : AllInMembers P (cs.map (fun c => (c.1, c.2.json))) := by
  induction cs with
  | nil => trivial
  | cons c cs ih =>
    obtain ⟨k, c⟩ := c
    simp only [List.map_cons, AllInMembers]
    cases c <;> exact ⟨trivial, ih⟩

/-- What is written has such numbers only. -/
def Prints (P : String → Prop) (e : Ty → Option Any) : Prop := ∀ ty j, e ty = some j → AllIn P j

theorem allInList_iff {xs : List Any} : AllInList P xs ↔ ∀ x ∈ xs, AllIn P x := by
  induction xs with
  | nil => simp [AllInList]
  | cons x xs ih => simp [AllInList, ih]

theorem prints_elements {es : List (Ty → Option Any)} (h : ∀ e ∈ es, Prints P e) {t : Ty} {xs : List Any}
    (hm : mapAll (fun e => e t) es = some xs) : AllInList P xs := by
  induction es generalizing xs with
  | nil => cases hm; trivial
  | cons e es ih =>
    simp only [mapAll] at hm
    split at hm
    · rename_i y ys h1 h2
      cases hm
      exact ⟨h e List.mem_cons_self _ _ h1, ih (fun x hx => h x (List.mem_cons_of_mem _ hx)) h2⟩
    · cases hm

theorem prints_entries {es : List (String × (Ty → Option Any))} (h : ∀ e ∈ es, Prints P e.2) {t : Ty}
    {xs : List (String × Any)} (hm : mapAll (fun m => (m.2 t).map (fun j => (m.1, j))) es = some xs) :
    AllInMembers P xs := by
  induction es generalizing xs with
  | nil => cases hm; trivial
  | cons e es ih =>
    simp only [mapAll] at hm
    split at hm
    · rename_i y ys h1 h2
      cases hm
      rw [Option.map_eq_some_iff] at h1
      obtain ⟨j, h1, rfl⟩ := h1
      exact ⟨h e List.mem_cons_self _ _ h1, ih (fun x hx => h x (List.mem_cons_of_mem _ hx)) h2⟩
    · cases hm

theorem prints_slot {fs : List Codec.Slot} (h : ∀ s ∈ fs, Prints P s.enc) {go : String} {s : Codec.Slot}
    (hs : Codec.slotOf fs go = some s) : Prints P s.enc := h s (List.mem_of_find?_eq_some hs)

theorem prints_fields {fs : List Codec.Slot} (h : ∀ s ∈ fs, Prints P s.enc) {fields : List Field} {ms : List (String × Any)}
    (hm : encodeFields fields fs = some ms) : AllInMembers P ms := by
  induction fields generalizing ms with
  | nil => cases hm; trivial
  | cons f fields ih =>
    simp only [encodeFields] at hm
    split at hm
    · cases hm
    · rename_i slot hs
      split at hm
      · exact ih hm
      · split at hm
        · rename_i j ms' h1 h2
          cases hm
          exact ⟨prints_slot h hs _ _ h1, ih h2⟩
        · cases hm

theorem prints_part {s : Struct} {fs : List Codec.Slot} (h : ∀ s ∈ fs, Prints P s.enc) {p : Part} {j : Any}
    (hp : encodePart s fs p = some j) : AllIn P j := by
  cases p with
  | consts cs =>
    cases hp
    exact consts_in cs
  | fields =>
    simp only [encodePart, Option.map_eq_some_iff] at hp
    obtain ⟨ms, hm, rfl⟩ := hp
    exact prints_fields h hm
  | hidden go =>
    simp only [encodePart] at hp
    split at hp
    · rename_i hs _
      exact prints_slot h hs _ _ hp
    · cases hp

theorem prints_union {js : List Any} (h : ∀ j ∈ js, AllIn P j) {j : Any} (hu : unionJ js = some j) : AllIn P j := by
  rw [unionJ_eq] at hu
  have h' : ∀ x ∈ js.filter nonEmpty, AllIn P x := fun x hx => h x (List.mem_filter.1 hx).1
  generalize js.filter nonEmpty = l at hu h'
  match l, hu, h' with
  | [], hu, _ => cases hu; trivial
  | [y], hu, h' => cases hu; exact h' _ List.mem_cons_self
  | a :: b :: l, hu, h' =>
    simp only [Option.map_eq_some_iff] at hu
    obtain ⟨r, hr, rfl⟩ := hu
    simp only [AllIn]
    rw [allInMembers_iff]
    intro m hm
    obtain ⟨ms, hin, hm⟩ := List.mem_flatten.1 hm
    obtain ⟨x, hx, hf⟩ := mapAll_from hr _ hin
    cases x with
    | obj ms' =>
      cases hf
      have := h' _ hx
      simp only [AllIn] at this
      rw [allInMembers_iff] at this
      exact this m hm
    | _ => cases hf

theorem prints_leaf {T : Table} {v : VView} (h : ∀ ty, (∀ t, ty ≠ .ptr t) → ∀ j, encodeView T v ty = some j → AllIn P j) :
    Prints P (encodeView T v) := by
  intro ty
  induction ty with
  | ptr t ih =>
    intro j hj
    by_cases hv : v = .nil
    · subst hv
      cases hj
      trivial
    · have e1 : encodeView T v (.ptr t) = encodeView T v t := by
        cases v <;> first | exact absurd rfl hv | rfl
      exact ih j (e1 ▸ hj)
  | any => exact h _ (by intro t; simp)
  | bool => exact h _ (by intro t; simp)
  | str => exact h _ (by intro t; simp)
  | int => exact h _ (by intro t; simp)
  | float => exact h _ (by intro t; simp)
  | slice t => exact h _ (by intro t; simp)
  | map t => exact h _ (by intro t; simp)
  | named n => exact h _ (by intro t; simp)

mutual
theorem prints {T : Table} : ∀ v : Val, NumIn P v → Prints P (encodeView T (vview T v))
  | .nil, _ => by
    rw [vview]
    apply prints_leaf
    intro ty hp j hj
    cases ty with
    | ptr t => exact absurd rfl (hp t)
    | named n => simp only [encodeView] at hj; split at hj <;> simp_all
    | any => cases hj; trivial
    | slice => cases hj; trivial
    | map => cases hj; trivial
    | _ => cases hj
  | .any a, hv => by
    rw [vview]
    apply prints_leaf
    intro ty hp j hj
    cases ty with
    | ptr t => exact absurd rfl (hp t)
    | named n => simp only [encodeView] at hj; split at hj <;> simp_all
    | any => cases hj; exact hv
    | _ => cases hj
  | .bool b, _ => by
    rw [vview]
    apply prints_leaf
    intro ty hp j hj
    cases ty with
    | ptr t => exact absurd rfl (hp t)
    | named n => simp only [encodeView] at hj; split at hj <;> simp_all
    | bool => cases hj; trivial
    | _ => cases hj
  | .str s, _ => by
    rw [vview]
    apply prints_leaf
    intro ty hp j hj
    cases ty with
    | ptr t => exact absurd rfl (hp t)
    | named n =>
      simp only [encodeView] at hj
      cases hg : GoMap.get? T n with
      | none => rw [hg] at hj; cases hj
      | some d =>
        rw [hg] at hj
        cases d with
        | struct => cases hj
        | enum values =>
          simp only at hj
          split at hj
          · cases hj; trivial
          · cases hj
    | str => cases hj; trivial
    | _ => cases hj
  | .num lit, hv => by
    rw [vview]
    apply prints_leaf
    intro ty hp j hj
    cases ty with
    | ptr t => exact absurd rfl (hp t)
    | named n => simp only [encodeView] at hj; split at hj <;> simp_all
    | int => cases hj; exact hv
    | float => cases hj; exact hv
    | _ => cases hj
  | .list vs, hv => by
    have ih := printsList (T := T) vs hv
    rw [vview]
    apply prints_leaf
    intro ty hp j hj
    cases ty with
    | ptr t => exact absurd rfl (hp t)
    | named n => simp only [encodeView] at hj; split at hj <;> simp_all
    | slice t =>
      simp only [encodeView, Option.map_eq_some_iff] at hj
      obtain ⟨xs, hm, rfl⟩ := hj
      exact prints_elements ih hm
    | _ => cases hj
  | .map ms, hv => by
    have ih := printsMembers (T := T) ms hv
    rw [vview]
    apply prints_leaf
    intro ty hp j hj
    cases ty with
    | ptr t => exact absurd rfl (hp t)
    | named n => simp only [encodeView] at hj; split at hj <;> simp_all
    | map t =>
      simp only [encodeView, Option.map_eq_some_iff] at hj
      obtain ⟨xs, hm, rfl⟩ := hj
      exact prints_entries ih hm
    | _ => cases hj
  | .struct fs, hv => by
    have ih := printsFields (T := T) fs hv
    rw [vview]
    apply prints_leaf
    intro ty hp j hj
    cases ty with
    | ptr t => exact absurd rfl (hp t)
    | named n =>
      simp only [encodeView] at hj
      cases hg : GoMap.get? T n with
      | none => rw [hg] at hj; cases hj
      | some d =>
        rw [hg] at hj
        cases d with
        | enum => cases hj
        | struct s =>
          simp only at hj
          split at hj
          · rename_i js hm
            apply prints_union _ hj
            intro x hx
            obtain ⟨p, _, hp⟩ := mapAll_from hm _ hx
            exact prints_part ih hp
          · cases hj
    | _ => cases hj
theorem printsList {T : Table} : ∀ vs : List Val, NumInList P vs → ∀ e ∈ vviewList T vs, Prints P e
  | [], _ => by rw [vviewList]; intro e he; cases he
  | v :: vs, h => by
    have h1 := prints (T := T) v h.1
    have h2 := printsList (T := T) vs h.2
    rw [vviewList]
    intro e he
    rcases List.mem_cons.1 he with rfl | he
    · exact h1
    · exact h2 e he
theorem printsMembers {T : Table} : ∀ ms : List (String × Val), NumInFields P ms → ∀ e ∈ vviewMembers T ms, Prints P e.2
  | [], _ => by rw [vviewMembers]; intro e he; cases he
  | (k, v) :: ms, h => by
    have h1 := prints (T := T) v h.1
    have h2 := printsMembers (T := T) ms h.2
    rw [vviewMembers]
    intro e he
    rcases List.mem_cons.1 he with rfl | he
    · exact h1
    · exact h2 e he
theorem printsFields {T : Table} : ∀ fs : List (String × Val), NumInFields P fs → ∀ s ∈ vviewFields T fs, Prints P s.enc
  | [], _ => by rw [vviewFields]; intro e he; cases he
  | (k, v) :: fs, h => by
    have h1 := prints (T := T) v h.1
    have h2 := printsFields (T := T) fs h.2
    rw [vviewFields]
    intro e he
    rcases List.mem_cons.1 he with rfl | he
    · exact h1
    · exact h2 e he
end


mutual
/-- JSON whose keys do not repeat and whose numbers are printed as `float64` are reads as it is. -/
theorem stays {N : Nums} : ∀ a : Any, Distinct a → AllIn (fun l => N.f64 l = some l) a → decodeAny N a = some a
  | .null, _, _ => rfl
  | .bool _, _, _ => rfl
  | .str _, _, _ => rfl
  | .num l, _, h => by
    have h : N.f64 l = some l := h
    simp [decodeAny, h]
  | .arr xs, hd, h => by simp [decodeAny, staysList xs hd h]
  | .obj ms, hd, h => by simp [decodeAny, staysMembers ms hd.2 h, lastWins_nodup hd.1]
theorem staysList {N : Nums} : ∀ a : List Any, DistinctList a → AllInList (fun l => N.f64 l = some l) a →
    decodeAnys N a = some a
  | [], _, _ => rfl
  | x :: xs, hd, h => by simp [decodeAnys, stays x hd.1 h.1, staysList xs hd.2 h.2]
theorem staysMembers {N : Nums} : ∀ a : List (String × Any), DistinctMembers a → AllInMembers (fun l => N.f64 l = some l) a →
    decodeAnyMembers N a = some a
  | [], _, _ => rfl
  | (_, x) :: xs, hd, h => by simp [decodeAnyMembers, stays x hd.1 h.1, staysMembers xs hd.2 h.2]
end

end Verif.Numbers
