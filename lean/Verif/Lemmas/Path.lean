import Verif.Path
import Verif.Spec.Path

namespace Verif
open PathSpec

/-! ## Spans -/

theorem takeWhile_append_stop {p : Char → Bool} {l : List Char} {x : Char} {r : List Char}
    (hl : ∀ c ∈ l, p c = true) (hx : p x = false) :
    (l ++ x :: r).takeWhile p = l := by
  induction l with
  | nil => simp [hx]
  | cons a l ih =>
    have ha := hl a (by simp)
    simp [ha, ih (fun c hc => hl c (by simp [hc]))]

theorem dropWhile_append_stop {p : Char → Bool} {l : List Char} {x : Char} {r : List Char}
    (hl : ∀ c ∈ l, p c = true) (hx : p x = false) :
    (l ++ x :: r).dropWhile p = x :: r := by
  induction l with
  | nil => simp [hx]
  | cons a l ih =>
    have ha := hl a (by simp)
    simp [ha, ih (fun c hc => hl c (by simp [hc]))]

theorem nameChar_iff {c : Char} : nameChar c = true ↔ c ≠ '}' ∧ c ≠ ':' := by
  simp [nameChar]

theorem reChar_iff {c : Char} : reChar c = true ↔ c ≠ '}' := by simp [reChar]

/-- The submatch row a placeholder produces. -/
def phMatch (n : List Char) (r : Option (List Char)) : PMatch :=
  ⟨(Piece.ph n r).text, n, match r with | none => [] | some r => ':' :: r⟩

theorem matchAt_text {n : List Char} {r : Option (List Char)} (h : PhOk n r) (rest : List Char) :
    matchAt ((Piece.ph n r).text ++ rest) = some (phMatch n r, rest) := by
  obtain ⟨hn, h1, h2, h3⟩ := h
  have hname : ∀ c ∈ n, nameChar c = true := by
    intro c hc
    rw [nameChar_iff]
    exact ⟨fun e => h1 (e ▸ hc), fun e => h2 (e ▸ hc)⟩
  cases r with
  | none =>
    have e : (Piece.ph n none).text ++ rest = '{' :: (n ++ '}' :: rest) := by simp [Piece.text]
    rw [e]
    unfold matchAt
    simp only
    rw [takeWhile_append_stop hname (by decide), dropWhile_append_stop hname (by decide)]
    simp [hn, phMatch, Piece.text]
  | some r =>
    obtain ⟨hr, hr'⟩ := h3 r rfl
    have hre : ∀ c ∈ r, reChar c = true := by
      intro c hc; rw [reChar_iff]; exact fun e => hr' (e ▸ hc)
    have e : (Piece.ph n (some r)).text ++ rest = '{' :: (n ++ ':' :: (r ++ '}' :: rest)) := by
      simp [Piece.text]
    rw [e]
    unfold matchAt
    simp only
    rw [takeWhile_append_stop hname (by decide), dropWhile_append_stop hname (by decide)]
    simp only [hn, if_false]
    rw [takeWhile_append_stop hre (by decide), dropWhile_append_stop hre (by decide)]
    simp [hr, phMatch, Piece.text]

theorem takeWhile_all {p : Char → Bool} (l : List Char) : ∀ c ∈ l.takeWhile p, p c = true := by
  induction l with
  | nil => simp
  | cons a l ih =>
    intro c hc
    by_cases ha : p a = true
    · simp only [List.takeWhile_cons, ha, if_true, List.mem_cons] at hc
      rcases hc with rfl | hc
      · exact ha
      · exact ih c hc
    · simp [List.takeWhile_cons, ha] at hc

theorem matchAt_some {s : List Char} {m : PMatch} {rest : List Char}
    (h : matchAt s = some (m, rest)) :
    ∃ n r, PhOk n r ∧ s = (Piece.ph n r).text ++ rest ∧ m = phMatch n r := by
  unfold matchAt at h
  split at h
  · rename_i cs
    have hcs : cs.takeWhile nameChar ++ cs.dropWhile nameChar = cs := List.takeWhile_append_dropWhile
    have hall := takeWhile_all (p := nameChar) cs
    simp only at h
    generalize cs.takeWhile nameChar = n at *
    generalize cs.dropWhile nameChar = d at *
    have hb1 : '}' ∉ n := fun hm => by have := hall _ hm; simp [nameChar] at this
    have hb2 : ':' ∉ n := fun hm => by have := hall _ hm; simp [nameChar] at this
    split at h
    · cases h
    · rename_i hn
      split at h
      · rename_i r
        cases h
        exact ⟨n, none, ⟨hn, hb1, hb2, by simp⟩, by simp [Piece.text, ← hcs], by simp [phMatch, Piece.text]⟩
      · rename_i r2
        have hr2 : r2.takeWhile reChar ++ r2.dropWhile reChar = r2 := List.takeWhile_append_dropWhile
        have hall2 := takeWhile_all (p := reChar) r2
        generalize r2.takeWhile reChar = re at *
        generalize r2.dropWhile reChar = d2 at *
        have hb3 : '}' ∉ re := fun hm => by have := hall2 _ hm; simp [reChar] at this
        split at h
        · cases h
        · rename_i hre
          split at h
          · rename_i r3
            cases h
            refine ⟨n, some re, ⟨hn, hb1, hb2, ?_⟩, by simp [Piece.text, ← hcs, ← hr2], by simp [phMatch, Piece.text]⟩
            intro r e; cases e; exact ⟨hre, hb3⟩
          · cases h
      · cases h
  · cases h

theorem matchAt_none_iff {s : List Char} : matchAt s = none ↔ ¬ StartsWithPlaceholder s := by
  constructor
  · rintro h ⟨n, r, rest, hok, rfl⟩
    rw [matchAt_text hok] at h; cases h
  · intro h
    cases hm : matchAt s with
    | none => rfl
    | some p =>
      obtain ⟨m, rest⟩ := p
      obtain ⟨n, r, hok, e, -⟩ := matchAt_some hm
      exact absurd ⟨n, r, rest, hok, e⟩ h

/-! ## Decomposition -/

@[simp] theorem textAll_nil : textAll [] = [] := rfl
@[simp] theorem cleanAll_nil : cleanAll [] = [] := rfl
@[simp] theorem textAll_cons (p : Piece) (ps : List Piece) : textAll (p :: ps) = p.text ++ textAll ps := by
  simp [textAll]
@[simp] theorem cleanAll_cons (p : Piece) (ps : List Piece) : cleanAll (p :: ps) = p.clean ++ cleanAll ps := by
  simp [cleanAll]
@[simp] theorem textAll_append (a b : List Piece) : textAll (a ++ b) = textAll a ++ textAll b := by
  simp [textAll]
@[simp] theorem cleanAll_append (a b : List Piece) : cleanAll (a ++ b) = cleanAll a ++ cleanAll b := by
  simp [cleanAll]

/-- Submatch rows of a decomposition. -/
def rowsOf : List Piece → List PMatch
  | [] => []
  | .lit _ :: ps => rowsOf ps
  | .ph n r :: ps => phMatch n r :: rowsOf ps

theorem findAll_textAll {ps : List Piece} (h : Leftmost ps) : findAll (textAll ps) = rowsOf ps := by
  induction ps with
  | nil => simp [findAll, rowsOf]
  | cons p ps ih =>
    cases p with
    | lit c =>
      obtain ⟨h1, h2⟩ := h
      have hm := matchAt_none_iff.mpr h1
      show findAll (c :: textAll ps) = _
      rw [findAll]
      split
      · rename_i m rest hm'; rw [hm] at hm'; cases hm'
      · rw [ih h2]; rfl
    | ph n r =>
      obtain ⟨h1, h2⟩ := h
      have hm := matchAt_text h1 (textAll ps)
      simp only [textAll_cons]
      have hne : ∃ c cs, (Piece.ph n r).text ++ textAll ps = c :: cs := by
        cases r <;> exact ⟨_, _, rfl⟩
      obtain ⟨c, cs, e⟩ := hne
      rw [e] at hm ⊢
      rw [findAll]
      split
      · rename_i m rest hm'
        rw [hm] at hm'; cases hm'
        rw [ih h2]; rfl
      · rename_i hm'; rw [hm] at hm'; cases hm'

theorem exists_leftmost (s : List Char) : ∃ ps, textAll ps = s ∧ Leftmost ps := by
  induction hk : s.length using Nat.strongRecOn generalizing s with
  | _ k ih =>
    cases s with
    | nil => exact ⟨[], rfl, trivial⟩
    | cons c cs =>
      cases hm : matchAt (c :: cs) with
      | none =>
        obtain ⟨ps, e, hl⟩ := ih cs.length (by simp [← hk]) cs rfl
        refine ⟨.lit c :: ps, by simp [Piece.text, e], ?_, hl⟩
        rw [e]; exact matchAt_none_iff.mp hm
      | some p =>
        obtain ⟨m, rest⟩ := p
        have hlt := matchAt_length hm
        obtain ⟨n, r, hok, e, -⟩ := matchAt_some hm
        obtain ⟨ps, e', hl⟩ := ih rest.length (hk ▸ hlt) rest rfl
        exact ⟨.ph n r :: ps, by simp [e', e], hok, hl⟩

theorem leftmost_unique {ps qs : List Piece} (hp : Leftmost ps) (hq : Leftmost qs)
    (e : textAll ps = textAll qs) : ps = qs := by
  induction ps generalizing qs with
  | nil =>
    cases qs with
    | nil => rfl
    | cons q qs => cases q with
      | lit c => simp [Piece.text] at e
      | ph n r => cases r <;> simp [Piece.text] at e
  | cons p ps ih =>
    cases qs with
    | nil => cases p with
      | lit c => simp [Piece.text] at e
      | ph n r => cases r <;> simp [Piece.text] at e
    | cons q qs =>
      cases p with
      | lit c =>
        cases q with
        | lit c' =>
          simp [Piece.text] at e
          rw [e.1, ih hp.2 hq.2 e.2]
        | ph n r => exact absurd ⟨n, r, textAll qs, hq.1, by simpa [Piece.text] using e⟩ hp.1
      | ph n r =>
        cases q with
        | lit c' => exact absurd ⟨n, r, textAll ps, hp.1, by simpa [Piece.text] using e.symm⟩ hq.1
        | ph n' r' =>
          have h1 := matchAt_text hp.1 (textAll ps)
          have h2 := matchAt_text hq.1 (textAll qs)
          simp only [textAll_cons] at e
          rw [e, h2] at h1
          simp only [Option.some.injEq, Prod.mk.injEq] at h1
          obtain ⟨hm, hr⟩ := h1
          have hn : n' = n := congrArg PMatch.name hm
          have hre := congrArg PMatch.re hm
          rw [ih hp.2 hq.2 hr.symm, hn]
          cases r <;> cases r' <;> simp [phMatch] at hre ⊢
          exact hre.symm

/-! ## Cleaning keeps literal text literal -/

/-- A well-formed list of pieces: every placeholder is well-formed. -/
def AllOk : List Piece → Prop
  | [] => True
  | .lit _ :: ps => AllOk ps
  | .ph n r :: ps => PhOk n r ∧ AllOk ps

theorem allOk_of_leftmost {ps : List Piece} (h : Leftmost ps) : AllOk ps := by
  induction ps with
  | nil => trivial
  | cons p ps ih => cases p with
    | lit c => exact ih h.2
    | ph n r => exact ⟨h.1, ih h.2⟩

/-- How the cleaned text and the original text agree up to the first closing brace. -/
theorem clean_vs_text (ps : List Piece) (hok : AllOk ps) (X : List Char) :
    (∃ u r1 r2, '}' ∉ u ∧ cleanAll ps ++ X = u ++ '}' :: r1 ∧ textAll ps ++ X = u ++ '}' :: r2) ∨
    (∃ l n t r1 r2, '}' ∉ l ∧ '}' ∉ n ∧ '}' ∉ t ∧ n ≠ [] ∧ ':' ∉ n ∧
      (t = [] ∨ ∃ r, r ≠ [] ∧ t = ':' :: r) ∧
      cleanAll ps ++ X = l ++ '{' :: n ++ '}' :: r1 ∧
      textAll ps ++ X = l ++ '{' :: n ++ t ++ '}' :: r2) ∨
    cleanAll ps ++ X = textAll ps ++ X := by
  induction ps with
  | nil => right; right; rfl
  | cons p ps ih =>
    cases p with
    | lit c =>
      by_cases hc : c = '}'
      · subst hc
        left
        exact ⟨[], cleanAll ps ++ X, textAll ps ++ X, by simp, by simp [Piece.clean], by simp [Piece.text]⟩
      · rcases ih hok with ⟨u, r1, r2, hu, e1, e2⟩ | ⟨l, n, t, r1, r2, hl, hn, ht, hne, hcol, ht', e1, e2⟩ | e
        · left
          exact ⟨c :: u, r1, r2, by simp [hu, Ne.symm hc], by simp [Piece.clean, e1], by simp [Piece.text, e2]⟩
        · right; left
          exact ⟨c :: l, n, t, r1, r2, by simp [hl, Ne.symm hc], hn, ht, hne, hcol, ht',
            by simp [Piece.clean, e1], by simp [Piece.text, e2]⟩
        · right; right
          simp [Piece.clean, Piece.text, e]
    | ph n r =>
      obtain ⟨⟨hn, hb, hcol, hr⟩, -⟩ := hok
      right; left
      cases r with
      | none =>
        exact ⟨[], n, [], _, _, by simp, hb, by simp, hn, hcol, .inl rfl, by simp [Piece.clean]; rfl, by simp [Piece.text]; rfl⟩
      | some r =>
        have := hr r rfl
        refine ⟨[], n, ':' :: r, _, _, by simp, hb, by simp [this.2], hn, hcol, .inr ⟨r, this.1, rfl⟩, by simp [Piece.clean]; rfl, by simp [Piece.text]; rfl⟩

/-- What stands between the opening and the first closing brace decides. -/
def ValidInner (u : List Char) : Prop :=
  ∃ n r, PhOk n r ∧ u = match r with | none => n | some r => n ++ ':' :: r

theorem first_brace {u v r s : List Char} (hu : '}' ∉ u) (hv : '}' ∉ v)
    (e : u ++ '}' :: r = v ++ '}' :: s) : u = v := by
  have h1 := takeWhile_append_stop (p := reChar) (l := u) (x := '}') (r := r)
    (fun c hc => reChar_iff.mpr fun e => hu (e ▸ hc)) (by decide)
  have h2 := takeWhile_append_stop (p := reChar) (l := v) (x := '}') (r := s)
    (fun c hc => reChar_iff.mpr fun e => hv (e ▸ hc)) (by decide)
  rw [e, h2] at h1; exact h1.symm

theorem starts_iff {c : Char} {u r : List Char} (hu : '}' ∉ u) :
    StartsWithPlaceholder (c :: (u ++ '}' :: r)) ↔ c = '{' ∧ ValidInner u := by
  constructor
  · rintro ⟨n, re, rest, hok, e⟩
    cases re with
    | none =>
      simp only [Piece.text, List.cons_append, List.append_assoc, List.nil_append, List.cons.injEq] at e
      exact ⟨e.1, n, none, hok, first_brace hu hok.2.1 e.2⟩
    | some re =>
      have h3 := hok.2.2.2 re rfl
      simp only [Piece.text, List.cons_append, List.append_assoc, List.nil_append, List.cons.injEq] at e
      refine ⟨e.1, n, some re, hok, first_brace (r := r) (s := rest) hu ?_ ?_⟩
      · simp [hok.2.1, h3.2]
      · simpa using e.2
  · rintro ⟨rfl, n, re, hok, rfl⟩
    exact ⟨n, re, r, hok, by cases re <;> simp [Piece.text]⟩

theorem not_starts_of_no_brace {c : Char} {u : List Char} (hu : '}' ∉ c :: u) :
    ¬ StartsWithPlaceholder (c :: u) := by
  rintro ⟨n, re, rest, -, e⟩
  apply hu
  rw [e]
  cases re <;> simp [Piece.text]

theorem validInner_iff {u : List Char} (hu : '}' ∉ u) :
    ValidInner u ↔ ∃ a w, u = a :: w ∧ a ≠ ':' ∧ ¬ (∃ n, ':' ∉ n ∧ u = n ++ [':']) := by
  constructor
  · rintro ⟨n, r, ⟨hn, h1, h2, h3⟩, rfl⟩
    cases n with
    | nil => exact absurd rfl hn
    | cons a n =>
      have ha : a ≠ ':' := fun e => h2 (by simp [e])
      cases r with
      | none =>
        refine ⟨a, n, rfl, ha, ?_⟩
        rintro ⟨m, -, e⟩
        exact h2 (by simp only at e; rw [e]; simp)
      | some r =>
        refine ⟨a, n ++ ':' :: r, rfl, ha, ?_⟩
        rintro ⟨m, hm, e⟩
        have h4 := h3 r rfl
        -- the first colon is followed by `r`, hence `r = []`
        have t1 := takeWhile_append_stop (p := fun c => c != ':') (l := a :: n) (x := ':') (r := r)
          (fun c hc => by simp; exact fun e => h2 (e ▸ hc)) (by simp)
        have t2 := takeWhile_append_stop (p := fun c => c != ':') (l := m) (x := ':') (r := [])
          (fun c hc => by simp; exact fun e => hm (e ▸ hc)) (by simp)
        simp only at e
        rw [← e, t1] at t2
        rw [← t2] at e
        simp at e
        exact h4.1 e
  · rintro ⟨a, w, rfl, ha, hno⟩
    by_cases hc : ':' ∈ a :: w
    · obtain ⟨n, r, e, hn⟩ := List.append_of_mem hc |> fun ⟨s, t, e⟩ =>
        show ∃ n r, a :: w = n ++ ':' :: r ∧ ':' ∉ n from by
          have : (a :: w).takeWhile (fun c => c != ':') ++ (a :: w).dropWhile (fun c => c != ':') = a :: w :=
            List.takeWhile_append_dropWhile
          cases hd : (a :: w).dropWhile (fun c => c != ':') with
          | nil =>
            rw [hd, List.append_nil] at this
            have hall := takeWhile_all (p := fun c => c != ':') (a :: w)
            rw [this] at hall
            have := hall _ hc
            simp at this
          | cons x r =>
            have hx : x = ':' := by
              have := List.head?_dropWhile_not (fun c => c != ':') (a :: w)
              rw [hd] at this
              simpa using this
            subst hx
            refine ⟨_, r, by rw [← hd]; exact this.symm, ?_⟩
            intro hm
            have := takeWhile_all (p := fun c => c != ':') (a :: w) _ hm
            simp at this
      refine ⟨n, some r, ⟨?_, ?_, hn, ?_⟩, e⟩
      · rintro rfl; simp at e; exact ha e.1
      · intro h; exact hu (by rw [e]; simp [h])
      · intro r' er; cases er
        refine ⟨?_, fun h => hu (by rw [e]; simp [h])⟩
        rintro rfl
        exact hno ⟨n, hn, e⟩
    · exact ⟨a :: w, none, ⟨by simp, hu, hc, by simp⟩, rfl⟩

/-- Removing patterns from later placeholders does not make an earlier literal start a placeholder. -/
theorem starts_clean {c : Char} {ps : List Piece} (hok : AllOk ps) {X : List Char}
    (h : StartsWithPlaceholder (c :: (cleanAll ps ++ X))) :
    StartsWithPlaceholder (c :: (textAll ps ++ X)) := by
  rcases clean_vs_text ps hok X with ⟨u, r1, r2, hu, e1, e2⟩ | ⟨l, n, t, r1, r2, hl, hn, ht, hne, hcol, ht', e1, e2⟩ | e
  · rw [e1, starts_iff hu] at h
    rw [e2, starts_iff hu]; exact h
  · have hu1 : '}' ∉ l ++ '{' :: n := by simp [hl, hn]
    have hu2 : '}' ∉ l ++ '{' :: n ++ t := by simp [hl, hn, ht]
    rw [e1, starts_iff hu1] at h
    rw [e2, starts_iff hu2]
    refine ⟨h.1, ?_⟩
    have hv := h.2
    rw [validInner_iff hu1] at hv
    obtain ⟨a, w, ew, ha, -⟩ := hv
    rw [validInner_iff hu2]
    refine ⟨a, w ++ t, by rw [ew]; rfl, ha, ?_⟩
    rintro ⟨m, hm, em⟩
    rcases ht' with rfl | ⟨r, hr, rfl⟩
    · obtain ⟨n', x, rfl⟩ : ∃ n' x, n = n' ++ [x] := ⟨n.dropLast, n.getLast hne, (List.dropLast_concat_getLast hne).symm⟩
      rw [List.append_nil, show l ++ '{' :: (n' ++ [x]) = (l ++ '{' :: n') ++ [x] by simp] at em
      have := List.append_inj_right' em rfl
      simp at this
      exact hcol (by simp [this])
    · obtain ⟨r', x, rfl⟩ : ∃ r' x, r = r' ++ [x] := ⟨r.dropLast, r.getLast hr, (List.dropLast_concat_getLast hr).symm⟩
      rw [show l ++ '{' :: n ++ ':' :: (r' ++ [x]) = (l ++ '{' :: n ++ ':' :: r') ++ [x] by simp] at em
      have := List.append_inj_left' em rfl
      exact hm (by rw [← this]; simp)
  · rw [← e]; exact h

theorem leftmost_clean {ps : List Piece} (h : Leftmost ps) :
    Leftmost (ps.map fun p => match p with | .lit c => .lit c | .ph n _ => .ph n none) := by
  induction ps with
  | nil => trivial
  | cons p ps ih =>
    cases p with
    | lit c =>
      refine ⟨?_, ih h.2⟩
      intro hs
      apply h.1
      have e : textAll (ps.map fun p => match p with | .lit c => .lit c | .ph n _ => .ph n none) = cleanAll ps := by
        clear ih h hs
        induction ps with
        | nil => rfl
        | cons p ps ih => cases p <;> simp [Piece.text, Piece.clean, ih]
      rw [e] at hs
      have := starts_clean (X := []) (allOk_of_leftmost h.2) (by simpa using hs)
      simpa using this
    | ph n r => exact ⟨⟨h.1.1, h.1.2.1, h.1.2.2.1, by simp⟩, ih h.2⟩

/-! ## Replacement -/

theorem hasPrefixL_iff {s p : List Char} : hasPrefixL s p = true ↔ ∃ t, s = p ++ t := by
  induction p generalizing s with
  | nil => cases s <;> simp [hasPrefixL]
  | cons b p ih =>
    cases s with
    | nil => simp [hasPrefixL]
    | cons a s =>
      by_cases hab : a = b
      · simp [hasPrefixL, hab, ih]
      · simp [hasPrefixL, hab]

theorem replaceFirst_here (old new rest : List Char) (ho : old ≠ []) :
    replaceFirst old new (old ++ rest) = new ++ rest := by
  cases old with
  | nil => exact absurd rfl ho
  | cons a old =>
    have : hasPrefixL (a :: (old ++ rest)) (a :: old) = true := hasPrefixL_iff.mpr ⟨rest, by simp⟩
    simp only [List.cons_append, replaceFirst, this, if_true]
    simp

theorem replaceFirst_skip {old new : List Char} {c : Char} {s : List Char}
    (h : ¬ ∃ t, c :: s = old ++ t) :
    replaceFirst old new (c :: s) = c :: replaceFirst old new s := by
  have : ¬ hasPrefixL (c :: s) old = true := fun hp => h (hasPrefixL_iff.mp hp)
  simp [replaceFirst, this]

/-- The searched text has a colon before its first closing brace, so it is not found inside `w}`. -/
theorem replaceFirst_skip_word {n r new : List Char} {hn : '}' ∉ n} {w : List Char}
    (hw1 : '}' ∉ w) (hw2 : ':' ∉ w) (R : List Char) :
    replaceFirst ((Piece.ph n (some r)).text) new (w ++ '}' :: R)
      = w ++ '}' :: replaceFirst ((Piece.ph n (some r)).text) new R := by
  induction w with
  | nil =>
    rw [List.nil_append, replaceFirst_skip]
    · rfl
    · rintro ⟨t, e⟩; simp [Piece.text] at e
  | cons a w ih =>
    have h1 : '}' ∉ w := fun h => hw1 (by simp [h])
    have h2 : ':' ∉ w := fun h => hw2 (by simp [h])
    rw [List.cons_append, replaceFirst_skip, ih h1 h2]
    · rfl
    · rintro ⟨t, e⟩
      simp [Piece.text] at e
      obtain ⟨-, e⟩ := e
      -- compare the runs without `}` and `:`
      have a1 := takeWhile_append_stop (p := reChar) (l := w) (x := '}') (r := R)
        (fun c hc => reChar_iff.mpr fun e => h1 (e ▸ hc)) (by decide)
      have a2 : ':' ∈ (n ++ ':' :: (r ++ '}' :: t)).takeWhile reChar := by
        rw [List.takeWhile_append_of_pos (fun c hc => reChar_iff.mpr fun e => hn (e ▸ hc))]
        simp [reChar]
      rw [← e, a1] at a2
      exact h2 a2

theorem replaceFirst_pieces {n r new : List Char} (hok : PhOk n (some r)) (qs tl : List Piece)
    (h : Leftmost (qs ++ tl)) :
    replaceFirst ((Piece.ph n (some r)).text) new (cleanAll qs ++ textAll tl)
      = cleanAll qs ++ replaceFirst ((Piece.ph n (some r)).text) new (textAll tl) := by
  induction qs with
  | nil => rfl
  | cons q qs ih =>
    cases q with
    | lit c =>
      simp only [cleanAll_cons, Piece.clean, List.cons_append, List.nil_append]
      rw [replaceFirst_skip, ih h.2]
      rintro ⟨t, e⟩
      apply h.1
      show StartsWithPlaceholder (c :: textAll (qs ++ tl))
      rw [textAll_append]
      have hq : AllOk qs := by
        have := allOk_of_leftmost h.2
        clear ih h e
        induction qs with
        | nil => trivial
        | cons q qs ih => cases q with
          | lit c => exact ih this
          | ph n r => exact ⟨this.1, ih this.2⟩
      exact starts_clean hq ⟨n, some r, t, hok, e⟩
    | ph n' r' =>
      have h' := h.1
      simp only [cleanAll_cons, Piece.clean, List.cons_append, List.append_assoc, List.nil_append]
      rw [show '{' :: (n' ++ '}' :: (cleanAll qs ++ textAll tl)) = ('{' :: n') ++ '}' :: (cleanAll qs ++ textAll tl) by simp]
      rw [replaceFirst_skip_word (hn := hok.2.1) (by simp [h'.2.1]) (by simp [h'.2.2.1]), ih h.2]
      simp

theorem cleanLoop_pieces (tl qs : List Piece) (h : Leftmost (qs ++ tl)) (params : List String) :
    cleanLoop (rowsOf tl) (cleanAll qs ++ textAll tl) params = (cleanAll (qs ++ tl), params ++ names tl) := by
  induction tl generalizing qs params with
  | nil => simp [rowsOf, cleanLoop, names]
  | cons t tl ih =>
    have ih' := fun ps => ih (qs ++ [t]) (by simpa using h) ps
    cases t with
    | lit c =>
      simp only [rowsOf]
      have := ih' params
      simp [Piece.clean, Piece.text, names, Piece.name?] at this ⊢
      exact this
    | ph n r =>
      have hok : PhOk n r := by
        have := allOk_of_leftmost h
        clear ih ih' h
        induction qs with
        | nil => exact this.1
        | cons q qs ih => cases q with
          | lit c => exact ih this
          | ph n r => exact ih this.2
      simp only [rowsOf, cleanLoop]
      have := ih' (params ++ [String.ofList n])
      cases r with
      | none =>
        simp [Piece.clean, Piece.text, names, Piece.name?, phMatch] at this ⊢
        exact this
      | some r =>
        rw [if_pos (show (phMatch n (some r)).re ≠ [] from List.cons_ne_nil _ _)]
        simp only [phMatch]
        rw [replaceFirst_pieces hok qs _ h, textAll_cons, replaceFirst_here _ _ _ (by simp [Piece.text])]
        simp [Piece.clean, names, Piece.name?] at this ⊢
        exact this

end Verif
