import Verif.Lemmas.Path

/-!
# Properties of `SanitizeMethodPath` (C01-C04)
-/

namespace Verif
open PathSpec

theorem sanitize_of_decomposes {m p : String} {ps : List Piece} (h : Decomposes p ps)
    (hm : goToLower m ∈ knownMethods) :
    sanitizeMethodPath m p = .ok ⟨goToLower m, String.ofList (cleanAll ps), names ps⟩ := by
  have hc := cleanLoop_pieces ps [] h.2 []
  simp only [cleanAll_nil, List.nil_append] at hc
  simp only [sanitizeMethodPath, if_pos hm, ← h.1, findAll_textAll h.2, hc]

theorem lowerRune_iff {c d : Char} (h1 : 'a' ≤ d) (h2 : d ≤ 'z') :
    lowerRune c = d ↔ SpellsLetter c d := by
  have e130 : Char.ofNat 0x130 = '\u0130' := by decide
  have e212 : Char.ofNat 0x212A = '\u212A' := by decide
  have hd1 : 97 ≤ d.toNat := h1
  have hd2 : d.toNat ≤ 122 := h2
  have capital : ∀ c : Char, 'A' ≤ c → c ≤ 'Z' → (Char.ofNat (c.toNat + 32)).toNat = c.toNat + 32 := by
    intro c hc1 hc2
    have a1 : 65 ≤ c.toNat := hc1
    have a2 : c.toNat ≤ 90 := hc2
    have hv : (c.toNat + 32).isValidChar := by left; omega
    simp only [Char.ofNat, hv, dif_pos]
    rfl
  have inj : ∀ {a b : Char}, a.toNat = b.toNat → a = b := by
    intro a b h
    exact Char.ext (UInt32.toNat_inj.mp h)
  unfold lowerRune SpellsLetter
  rw [e130, e212]
  split
  · rename_i hc
    have a1 : 65 ≤ c.toNat := hc.1
    have a2 : c.toNat ≤ 90 := hc.2
    have hcap := capital c hc.1 hc.2
    constructor
    · intro e; right; left
      exact ⟨by rw [← e, hcap], hc.1, hc.2⟩
    · rintro (rfl | ⟨h, -, -⟩ | ⟨-, rfl⟩ | ⟨-, rfl⟩)
      · exact absurd h1 (by intro (h : 97 ≤ c.toNat); omega)
      · exact inj (hcap.trans h)
      · exact absurd hc (by decide)
      · exact absurd hc (by decide)
  · rename_i hc
    split
    · rename_i hi; subst hi
      constructor
      · rintro rfl; right; right; left; exact ⟨rfl, rfl⟩
      · rintro (rfl | ⟨h, -, h'⟩ | ⟨rfl, -⟩ | ⟨-, h⟩)
        · exact absurd h2 (by decide)
        · exact absurd h' (by decide)
        · rfl
        · exact absurd h (by decide)
    · rename_i hi
      split
      · rename_i hk; subst hk
        constructor
        · rintro rfl; right; right; right; exact ⟨rfl, rfl⟩
        · rintro (rfl | ⟨h, -, h'⟩ | ⟨-, h⟩ | ⟨rfl, -⟩)
          · exact absurd h2 (by decide)
          · exact absurd h' (by decide)
          · exact absurd h (by decide)
          · rfl
      · rename_i hk
        constructor
        · rintro rfl; left; rfl
        · rintro (rfl | ⟨-, h⟩ | ⟨-, h⟩ | ⟨-, h⟩)
          · rfl
          · exact absurd h hc
          · exact absurd h hi
          · exact absurd h hk

theorem lower_list_iff {cs ds : List Char} (h : ∀ d ∈ ds, 'a' ≤ d ∧ d ≤ 'z') :
    cs.map lowerRune = ds ↔ Spells cs ds := by
  induction cs generalizing ds with
  | nil => cases ds <;> simp [Spells]
  | cons c cs ih =>
    cases ds with
    | nil => simp [Spells]
    | cons d ds =>
      simp only [List.map_cons, List.cons.injEq, Spells]
      rw [lowerRune_iff (h d (by simp)).1 (h d (by simp)).2, ih (fun d hd => h d (by simp [hd]))]

theorem goToLower_eq_iff {m n : String} (h : n ∈ methods) :
    goToLower m = n ↔ Spells m.toList n.toList := by
  have hl : ∀ d ∈ n.toList, 'a' ≤ d ∧ d ≤ 'z' := by
    revert h n
    decide +kernel
  rw [← lower_list_iff hl]
  constructor
  · rintro rfl; simp [goToLower]
  · intro e
    simp [goToLower, e]

/-- C01: `SanitizeMethodPath` succeeds exactly for spellings of the eight methods, whatever the path,
and returns the lower-case name. -/
theorem C01_methods (m p : String) :
    (∀ n ∈ methods, Spells m.toList n.toList → ∃ r, sanitizeMethodPath m p = .ok r ∧ r.method = n) ∧
    (∀ r, sanitizeMethodPath m p = .ok r → r.method ∈ methods ∧ Spells m.toList r.method.toList) ∧
    ((∀ n ∈ methods, ¬ Spells m.toList n.toList) → ∃ e, sanitizeMethodPath m p = .error e) := by
  refine ⟨?_, ?_, ?_⟩
  · intro n hn hs
    have hl := (goToLower_eq_iff hn).mpr hs
    obtain ⟨ps, e, hlm⟩ := exists_leftmost p.toList
    exact ⟨_, sanitize_of_decomposes ⟨e, hlm⟩ (by rw [hl]; exact hn), hl⟩
  · intro r h
    by_cases hm : goToLower m ∈ knownMethods
    · obtain ⟨ps, e, hlm⟩ := exists_leftmost p.toList
      rw [sanitize_of_decomposes ⟨e, hlm⟩ hm] at h
      cases h
      exact ⟨hm, (goToLower_eq_iff hm).mp rfl⟩
    · simp only [sanitizeMethodPath, if_neg hm] at h; cases h
  · intro h
    by_cases hm : goToLower m ∈ knownMethods
    · exact absurd ((goToLower_eq_iff hm).mp rfl) (h _ hm)
    · exact ⟨_, by simp only [sanitizeMethodPath, if_neg hm]; rfl⟩

/-- C01, concrete: mixed case is accepted, and so is a dotted capital I (as in Go). -/
example : (sanitizeMethodPath "PaTcH" "/a").toOption.isSome = true ∧
    (sanitizeMethodPath "CONNECT" "/a").toOption.isSome = false ∧
    (sanitizeMethodPath "opt\u0130ons" "/a").toOption.isSome = true := by decide +kernel

/-- C02 (the specification is determinate): every path has exactly one leftmost decomposition. -/
theorem C02_decomposition_exists_unique (p : String) :
    ∃ ps, Decomposes p ps ∧ ∀ qs, Decomposes p qs → qs = ps := by
  obtain ⟨ps, e, h⟩ := exists_leftmost p.toList
  exact ⟨ps, ⟨e, h⟩, fun qs hq => leftmost_unique hq.2 h (hq.1.trans e.symm)⟩

/-- C02: the returned path is the given one with the pattern of each placeholder removed in its own
place, and the returned names are the placeholder names in order. -/
theorem C02_cleaned_path (m p : String) (r : Sanitized) (ps : List Piece)
    (h : sanitizeMethodPath m p = .ok r) (hd : Decomposes p ps) :
    r.path = String.ofList (cleanAll ps) ∧ r.params = names ps := by
  by_cases hm : goToLower m ∈ knownMethods
  · rw [sanitize_of_decomposes hd hm] at h
    cases h
    exact ⟨rfl, rfl⟩
  · simp only [sanitizeMethodPath, if_neg hm] at h; cases h

/-- C02, a concrete non-trivial case: patterns, repeated placeholders and braces inside a pattern. -/
example : Decomposes "/{a:x}{a:x}/{b}{" [.lit '/', .ph ['a'] (some ['x']), .ph ['a'] (some ['x']), .lit '/',
    .ph ['b'] none, .lit '{'] ∧
    sanitizeMethodPath "GET" "/{a:x}{a:x}/{b}{" = .ok ⟨"get", "/{a}{a}/{b}{", ["a", "a", "b"]⟩ := by
  refine ⟨⟨by decide +kernel, ?_, ?_⟩, by decide +kernel⟩
  · rw [← matchAt_none_iff]; decide +kernel
  · refine ⟨⟨by simp, by simp, by simp, by simp⟩, ⟨by simp, by simp, by simp, by simp⟩, ?_,
      ⟨by simp, by simp, by simp, by simp⟩, ?_, trivial⟩
    · rw [← matchAt_none_iff]; decide +kernel
    · rw [← matchAt_none_iff]; decide +kernel

/-- A path without patterns is returned unchanged. -/
theorem C02_no_patterns (m p : String) (r : Sanitized) (h : sanitizeMethodPath m p = .ok r)
    (hc : ':' ∉ p.toList) : r.path = p := by
  obtain ⟨ps, hd, -⟩ := C02_decomposition_exists_unique p
  rw [(C02_cleaned_path m p r ps h hd).1]
  have : cleanAll ps = textAll ps := by
    rw [← hd.1] at hc
    clear h hd
    induction ps with
    | nil => rfl
    | cons q ps ih =>
      rw [textAll_cons] at hc
      simp only [List.mem_append, not_or] at hc
      rw [cleanAll_cons, textAll_cons, ih hc.2]
      cases q with
      | lit c => rfl
      | ph n r => cases r with
        | none => rfl
        | some r => simp [Piece.text] at hc
  rw [this, hd.1, String.ofList_toList]

theorem goToLower_known {m : String} (h : m ∈ knownMethods) : goToLower m = m := by
  simp only [knownMethods, List.mem_cons, List.not_mem_nil, or_false] at h
  rcases h with rfl | rfl | rfl | rfl | rfl | rfl | rfl | rfl <;> decide +kernel

theorem sanitized_decomposes {m p : String} {r : Sanitized} (h : sanitizeMethodPath m p = .ok r) :
    ∃ qs, Decomposes r.path qs ∧ (∀ n pat, Piece.ph n pat ∈ qs → pat = none) ∧ names qs = r.params ∧
      String.ofList (cleanAll qs) = r.path := by
  obtain ⟨ps, hd, -⟩ := C02_decomposition_exists_unique p
  by_cases hm : goToLower m ∈ knownMethods
  · rw [sanitize_of_decomposes hd hm] at h
    cases h
    have hl := leftmost_clean hd.2
    generalize hq : ps.map (fun p => match p with | .lit c => Piece.lit c | .ph n _ => .ph n none) = qs at hl
    have h1 : textAll qs = cleanAll ps ∧ cleanAll qs = cleanAll ps ∧ names qs = names ps := by
      subst hq
      clear hd hl
      induction ps with
      | nil => exact ⟨rfl, rfl, rfl⟩
      | cons p ps ih =>
        obtain ⟨i1, i2, i3⟩ := ih
        cases p with
        | lit c =>
          exact ⟨by simp [Piece.text, Piece.clean, i1], by simp [Piece.clean, i2], i3⟩
        | ph n r =>
          exact ⟨by simp [Piece.text, Piece.clean, i1], by simp [Piece.clean, i2],
            congrArg (String.ofList n :: ·) i3⟩
    have hd' : Decomposes (String.ofList (cleanAll ps)) qs := ⟨by simp [h1.1], hl⟩
    refine ⟨qs, hd', ?_, h1.2.2, by rw [h1.2.1]⟩
    intro n pat hn
    rw [← hq] at hn
    obtain ⟨x, hx, e⟩ := List.mem_map.mp hn
    cases x with
    | lit c => cases e
    | ph n' r => cases e; rfl
  · simp only [sanitizeMethodPath, if_neg hm] at h; cases h

/-- C03: sanitising twice is the same as sanitising once. -/
theorem C03_idempotent (m p : String) (r : Sanitized) (h : sanitizeMethodPath m p = .ok r) :
    sanitizeMethodPath r.method r.path = .ok r := by
  obtain ⟨qs, hd, -, hn, hc⟩ := sanitized_decomposes h
  have hm : r.method ∈ knownMethods := ((C01_methods m p).2.1 r h).1
  rw [sanitize_of_decomposes hd (by rw [goToLower_known hm]; exact hm), goToLower_known hm, hn, hc]

example : ∃ r, sanitizeMethodPath "PUT" "/a/{id:[0-9]{3}}/x" = .ok r ∧ r.path = "/a/{id}}/x" := by
  exact ⟨_, rfl, by decide +kernel⟩

/-- C04: returned names are non-empty, contain neither `}` nor `:`, and `{name}` occurs in the
returned path. -/
theorem C04_names (m p : String) (r : Sanitized) (h : sanitizeMethodPath m p = .ok r) :
    ∀ n ∈ r.params, n ≠ "" ∧ '}' ∉ n.toList ∧ ':' ∉ n.toList ∧
      ∃ a b, r.path.toList = a ++ '{' :: n.toList ++ '}' :: b := by
  obtain ⟨ps, hd, -⟩ := C02_decomposition_exists_unique p
  obtain ⟨h1, h2⟩ := C02_cleaned_path m p r ps h hd
  rw [h1, h2]
  intro n hn
  have hok := allOk_of_leftmost hd.2
  clear hd h h1 h2
  induction ps with
  | nil => simp [names] at hn
  | cons q ps ih =>
    cases q with
    | lit c =>
      obtain ⟨i1, i2, i3, a, b, e⟩ := ih hn hok
      refine ⟨i1, i2, i3, c :: a, b, ?_⟩
      simp [Piece.clean] at e ⊢
      exact e
    | ph k re =>
      have hn' : n = String.ofList k ∨ n ∈ names ps := by simpa [names, Piece.name?] using hn
      rcases hn' with rfl | hn'
      · obtain ⟨⟨k1, k2, k3, -⟩, -⟩ := hok
        refine ⟨?_, by simpa using k2, by simpa using k3, [], cleanAll ps, by simp [Piece.clean]⟩
        intro e
        have := congrArg String.toList e
        simp at this
        exact k1 this
      · obtain ⟨i1, i2, i3, a, b, e⟩ := ih hn' hok.2
        refine ⟨i1, i2, i3, '{' :: k ++ ['}'] ++ a, b, ?_⟩
        simp [Piece.clean] at e ⊢
        exact e

end Verif
