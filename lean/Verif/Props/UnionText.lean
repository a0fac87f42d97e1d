import Verif.Props.Union
import Verif.Lemmas.RoundTripUnion

/-!
`unionJ`, the joining of trees in the codec, is what `marshalUnion` does to the texts of the trees (C34).
-/

namespace Verif
open Codec Spec

theorem nonEmpty_iff {v : Any} : nonEmpty v = true ↔ ¬IsBlank v := by
  unfold IsBlank
  cases v with
  | obj ms => cases ms <;> simp [nonEmpty]
  | _ => simp [nonEmpty]

theorem filter_members (js : List Any) : (js.filter nonEmpty).flatMap members = js.flatMap members := by
  induction js with
  | nil => rfl
  | cons j js ih =>
    rw [List.filter_cons, List.flatMap_cons, ← ih]
    split
    · rfl
    · rename_i h
      rw [nonEmpty_iff, Classical.not_not] at h
      rcases h with rfl | rfl <;> rfl

/-- A list with a non-object part, split at the first one. -/
theorem first_other {js : List Any} (h : ∃ j ∈ js, ¬(j = .null ∨ IsObject j)) :
    ∃ before v after, js = before ++ v :: after ∧ (∀ u ∈ before, u = .null ∨ IsObject u) ∧ ¬IsBlank v ∧ ¬IsObject v := by
  induction js with
  | nil => obtain ⟨_, hj, _⟩ := h; cases hj
  | cons a js ih =>
    by_cases ha : a = .null ∨ IsObject a
    · obtain ⟨j, hj, hn⟩ := h
      rcases List.mem_cons.1 hj with rfl | hj
      · exact absurd ha hn
      · obtain ⟨b, v, c, e, h1, h2⟩ := ih ⟨j, hj, hn⟩
        refine ⟨a :: b, v, c, by rw [e]; rfl, ?_, h2⟩
        intro u hu
        rcases List.mem_cons.1 hu with rfl | hu
        · exact ha
        · exact h1 u hu
    · refine ⟨[], a, js, rfl, (by intro u hu; cases hu), ?_, fun h => ha (.inr h)⟩
      rintro (h | h)
      · exact ha (.inl h)
      · exact ha (.inr ⟨_, h⟩)

theorem first_nonBlank {js : List Any} (h : ¬∀ j ∈ js, IsBlank j) :
    ∃ before v after, js = before ++ v :: after ∧ (∀ u ∈ before, IsBlank u) ∧ ¬IsBlank v := by
  induction js with
  | nil => exact absurd (fun j hj => nomatch hj) h
  | cons a js ih =>
    by_cases ha : IsBlank a
    · obtain ⟨b, v, c, e, h1, h2⟩ := ih (fun hall => h (by
        intro j hj
        rcases List.mem_cons.1 hj with rfl | hj
        · exact ha
        · exact hall j hj))
      refine ⟨a :: b, v, c, by rw [e]; rfl, ?_, h2⟩
      intro u hu
      rcases List.mem_cons.1 hu with rfl | hu
      · exact ha
      · exact h1 u hu
    · exact ⟨[], a, js, rfl, (by intro u hu; cases hu), ha⟩

theorem blank_part {v : Any} (h : IsBlank v) : v = .null ∨ IsObject v := by
  rcases h with h | h
  · exact .inl h
  · exact .inr ⟨_, h⟩

theorem mapAll_objects {f : Any → Option (List (String × Any))} (hf : ∀ ms, f (.obj ms) = some ms) {l : List Any}
    (h : ∀ j ∈ l, IsObject j) : mapAll f l = some (l.map members) := by
  induction l with
  | nil => rfl
  | cons j l ih =>
    obtain ⟨ms, rfl⟩ := h j List.mem_cons_self
    simp only [mapAll, hf, ih (fun x hx => h x (List.mem_cons_of_mem _ hx)), List.map_cons, members]

theorem mapAll_other {f : Any → Option (List (String × Any))} {l : List Any} {j : Any} (hj : j ∈ l) (h : f j = none) :
    mapAll f l = none := by
  induction l with
  | nil => cases hj
  | cons a l ih =>
    rcases List.mem_cons.1 hj with rfl | hj
    · simp [mapAll, h]
    · have ih := ih hj
      cases h : f a <;> simp only [mapAll, h, ih]

theorem unionLoop_blanks (s : UnionState) {l : List Any} (h : ∀ w ∈ l, IsBlank w) :
    unionLoop s (l.map (fun v => some (text v))) = .ok s := by
  induction l with
  | nil => rfl
  | cons w rest ih =>
    simp only [List.map_cons, unionLoop, unionStep_blank s (h w (List.mem_cons_self ..))]
    exact ih (fun x hx => h x (List.mem_cons_of_mem _ hx))

/-- **C34.** On texts of JSON values `marshalUnion` gives the text of the joined tree, and fails if the trees
cannot be joined; the only exception are repeated one-character texts (digits). -/
theorem C34_tree (js : List Any) (hp : ∀ v ∈ js, Printable v)
    (hd : ∀ v ∈ js, IsObject v ∨ v = .null ∨ (text v).length ≠ 1) :
    marshalUnion (js.map (fun v => some (text v))) =
      match unionJ js with
      | some j => .ok (text j)
      | none => .err := by
  by_cases hall : ∀ j ∈ js, j = .null ∨ IsObject j
  · rw [C34_objects js hall]
    have : unionJ js = some (.obj (js.flatMap members)) := by
      rw [unionJ_eq, ← filter_members]
      have ho : ∀ j ∈ js.filter nonEmpty, IsObject j := by
        intro j hj
        obtain ⟨h1, h2⟩ := List.mem_filter.1 hj
        rcases hall j h1 with rfl | h
        · cases h2
        · exact h
      generalize js.filter nonEmpty = l at ho
      match l, ho with
      | [], _ => rfl
      | [j], ho =>
        obtain ⟨ms, rfl⟩ := ho j List.mem_cons_self
        simp [members]
      | a :: b :: l, ho =>
        show Option.map _ (mapAll _ (a :: b :: l)) = _
        rw [mapAll_objects (fun _ => rfl) ho, List.flatMap_def]
        rfl
    rw [this]
  · have hex : ∃ j ∈ js, ¬(j = .null ∨ IsObject j) := by
      apply Classical.byContradiction
      intro h
      exact hall (fun j hj => Classical.byContradiction fun hn => h ⟨j, hj, hn⟩)
    obtain ⟨before, v, after, rfl, hb, hvb, hvo⟩ := first_other hex
    have hvp : Printable v := hp v (by simp)
    by_cases hbb : ∀ u ∈ before, IsBlank u
    · by_cases hab : ∀ u ∈ after, IsBlank u
      · rw [C34_single before after v hvp hvb hvo hbb hab]
        have : unionJ (before ++ v :: after) = some v := by
          rw [unionJ_eq, List.filter_append, List.filter_cons, if_pos (nonEmpty_iff.2 hvb),
            List.filter_eq_nil_iff.2 (fun u hu h => nonEmpty_iff.1 h (hbb u hu)),
            List.filter_eq_nil_iff.2 (fun u hu h => nonEmpty_iff.1 h (hab u hu))]
          rfl
        rw [this]
      · obtain ⟨b2, w, a2, rfl, hb2, hw⟩ := first_nonBlank hab
        have hj : unionJ (before ++ v :: (b2 ++ w :: a2)) = none := by
          rw [unionJ_eq]
          have e : (before ++ v :: (b2 ++ w :: a2)).filter nonEmpty = v :: w :: a2.filter nonEmpty := by
            rw [List.filter_append, List.filter_cons, if_pos (nonEmpty_iff.2 hvb), List.filter_append, List.filter_cons,
              if_pos (nonEmpty_iff.2 hw),
              List.filter_eq_nil_iff.2 (fun u hu h => nonEmpty_iff.1 h (hbb u hu)),
              List.filter_eq_nil_iff.2 (fun u hu h => nonEmpty_iff.1 h (hb2 u hu))]
            rfl
          rw [e]
          show Option.map _ (mapAll _ (v :: w :: a2.filter nonEmpty)) = _
          rw [mapAll_other List.mem_cons_self (by cases v <;> first | rfl | exact absurd ⟨_, rfl⟩ hvo)]
          rfl
        rw [hj]
        by_cases hwo : IsObject w
        · have h := (C34_mixed [] b2 a2 v w (by intro u hu; cases hu) (fun u hu => blank_part (hb2 u hu)) hvp hvb hvo hwo hw).2
          unfold marshalUnion at h ⊢
          rw [List.map_append, unionLoop_append, unionLoop_blanks _ hbb]
          exact h
        · obtain ⟨c, rest, ht, hc, h1, h2⟩ := text_head (hp w (by simp)) hw hwo
          unfold marshalUnion
          rw [List.map_append, unionLoop_append, unionLoop_blanks _ hbb]
          simp only [List.map_cons, unionLoop, unionStep_other_first hvp hvb hvo]
          rw [List.map_append, unionLoop_append, unionLoop_blanks _ hb2]
          have hlen : (text v).length ≠ 1 := by
            rcases hd v (by simp) with h | h | h
            · exact absurd h hvo
            · exact absurd (.inl h) hvb
            · exact h
          simp only [List.map_cons, unionLoop, unionStep, h1, h2, if_false]
          rw [ht]
          simp only [ne_eq, hc, not_false_eq_true, if_true, hlen, false_and, if_false]
    · obtain ⟨b1, w, b2, rfl, hb1, hw⟩ := first_nonBlank hbb
      have hwo : IsObject w := by
        rcases hb w (by simp) with h | h
        · exact absurd (.inl h) hw
        · exact h
      have h := (C34_mixed b1 b2 after v w (fun u hu => hb u (by simp [hu])) (fun u hu => hb u (by simp [hu]))
        hvp hvb hvo hwo hw).1
      have e : (b1 ++ w :: b2) ++ v :: after = b1 ++ w :: (b2 ++ v :: after) := by simp
      rw [e, h]
      have hj : unionJ (b1 ++ w :: (b2 ++ v :: after)) = none := by
        rw [unionJ_eq]
        have hin : v ∈ (b1 ++ w :: (b2 ++ v :: after)).filter nonEmpty :=
          List.mem_filter.2 ⟨by simp, nonEmpty_iff.2 hvb⟩
        have hin2 : w ∈ (b1 ++ w :: (b2 ++ v :: after)).filter nonEmpty :=
          List.mem_filter.2 ⟨by simp, nonEmpty_iff.2 hw⟩
        generalize (b1 ++ w :: (b2 ++ v :: after)).filter nonEmpty = l at hin hin2
        match l, hin, hin2 with
        | [], h, _ => cases h
        | [j], h, h' =>
          rw [List.mem_singleton] at h h'
          exact absurd (h ▸ h' ▸ hwo) hvo
        | a :: b :: l, h, _ =>
          show Option.map _ (mapAll _ (a :: b :: l)) = _
          rw [mapAll_other h (by cases v <;> first | rfl | exact absurd ⟨_, rfl⟩ hvo)]
          rfl
      rw [hj]

example : unionJ [.obj [("a", .num "1")], .null, .obj [], .obj [("x-b", .null)]] =
    some (.obj [("a", .num "1"), ("x-b", .null)]) := rfl

end Verif
