import Verif.Text
import Verif.Spec.Text

/-!
The scanner accepts the grammar: white space, strings and numbers.
-/

namespace Verif.Text
open Codec Spec Grammar

theorem isSpace_iff {c : Char} : isSpace c = true ↔ c = ' ' ∨ c = '\t' ∨ c = '\r' ∨ c = '\n' := by
  simp [isSpace, or_assoc]

theorem skip_blanks {ws : List Char} (h : Blanks ws) (r : List Char) : skip (ws ++ r) = skip r := by
  induction ws with
  | nil => rfl
  | cons c ws ih =>
    have hc := isSpace_iff.2 (h c List.mem_cons_self)
    simp only [List.cons_append, skip, hc, if_true]
    exact ih (fun x hx => h x (List.mem_cons_of_mem _ hx))

theorem skip_cons {c : Char} (h : isSpace c = false) (r : List Char) : skip (c :: r) = c :: r := by simp [skip, h]

theorem skip_split (cs : List Char) : ∃ ws, Blanks ws ∧ cs = ws ++ skip cs := by
  induction cs with
  | nil => exact ⟨[], by intro c hc; (cases hc), rfl⟩
  | cons c cs ih =>
    by_cases hc : isSpace c = true
    · obtain ⟨ws, hw, e⟩ := ih
      refine ⟨c :: ws, ?_, ?_⟩
      · intro x hx
        rcases List.mem_cons.1 hx with rfl | hx
        · exact isSpace_iff.1 hc
        · exact hw x hx
      · simp only [skip, hc, if_true, List.cons_append]
        rw [← e]
    · refine ⟨[], by intro c hc; (cases hc), ?_⟩
      simp [skip, hc]

theorem skip_nil {cs : List Char} (h : skip cs = []) : Blanks cs := by
  obtain ⟨ws, hw, e⟩ := skip_split cs
  rw [h, List.append_nil] at e
  exact e ▸ hw

theorem skip_all {ws : List Char} (h : Blanks ws) : skip ws = [] := by
  have := skip_blanks h []
  simpa [skip] using this

/-! ## Hexadecimal digits -/

theorem hexVal_complete {c : Char} {n : Nat} (h : Hex c n) : hexVal c = some n := by
  obtain ⟨hn, h⟩ := h
  have : ∀ n < 16, ∀ c, ("0123456789abcdef".toList[n]? = some c ∨ "0123456789ABCDEF".toList[n]? = some c) →
      hexVal c = some n := by
    intro n hn c h
    match n, hn, h with
    | 0, _, h | 1, _, h | 2, _, h | 3, _, h | 4, _, h | 5, _, h | 6, _, h | 7, _, h | 8, _, h | 9, _, h | 10, _, h
    | 11, _, h | 12, _, h | 13, _, h | 14, _, h | 15, _, h =>
      rcases h with h | h <;> (cases h; rfl)
  exact this n hn c h

theorem char_ofNat_toNat (c : Char) : Char.ofNat c.toNat = c := by
  simp

theorem char_eq {c d : Char} (h : c.toNat = d.toNat) : c = d := by
  rw [← char_ofNat_toNat c, ← char_ofNat_toNat d, h]

theorem char_le {c d : Char} : c ≤ d ↔ c.toNat ≤ d.toNat := by
  rw [Char.le_def]
  exact UInt32.le_iff_toNat_le

theorem hexVal_sound {c : Char} {n : Nat} (h : hexVal c = some n) : Hex c n := by
  have key : ∀ (lo k : Nat) (digits : List Char), (∀ i < k, (digits[i]?).map Char.toNat = some (lo + i)) →
      lo ≤ c.toNat → c.toNat < lo + k → digits[c.toNat - lo]? = some c := by
    intro lo k digits hd h1 h2
    have := hd (c.toNat - lo) (by omega)
    rw [show lo + (c.toNat - lo) = c.toNat by omega] at this
    cases hx : digits[c.toNat - lo]? with
    | none => rw [hx] at this; cases this
    | some x =>
      rw [hx] at this
      simp only [Option.map_some, Option.some.injEq] at this
      rw [char_eq this]
  unfold hexVal at h
  simp only [char_le] at h
  split at h
  · rename_i hc
    obtain ⟨h1, h2⟩ := hc
    have h1 : 48 ≤ c.toNat := h1
    have h2 : c.toNat ≤ 57 := h2
    cases h
    refine ⟨by omega, .inl ?_⟩
    have := key 48 10 ("0123456789".toList) (by decide) h1 (by omega)
    have e : "0123456789abcdef".toList = "0123456789".toList ++ "abcdef".toList := by rfl
    rw [e, List.getElem?_append_left (by change c.toNat - 48 < 10; omega)]
    exact this
  · split at h
    · rename_i hc
      obtain ⟨h1, h2⟩ := hc
      have h1 : 97 ≤ c.toNat := h1
      have h2 : c.toNat ≤ 102 := h2
      cases h
      refine ⟨by omega, .inl ?_⟩
      have := key 97 6 ("abcdef".toList) (by decide) h1 (by omega)
      have e : "0123456789abcdef".toList = "0123456789".toList ++ "abcdef".toList := by rfl
      rw [e, List.getElem?_append_right (by change 10 ≤ c.toNat - 87; omega)]
      rw [show c.toNat - 87 - "0123456789".toList.length = c.toNat - 97 by change c.toNat - 87 - 10 = _; omega]
      exact this
    · split at h
      · rename_i hc
        obtain ⟨h1, h2⟩ := hc
        have h1 : 65 ≤ c.toNat := h1
        have h2 : c.toNat ≤ 70 := h2
        cases h
        refine ⟨by omega, .inr ?_⟩
        have := key 65 6 ("ABCDEF".toList) (by decide) h1 (by omega)
        have e : "0123456789ABCDEF".toList = "0123456789".toList ++ "ABCDEF".toList := by rfl
        rw [e, List.getElem?_append_right (by change 10 ≤ c.toNat - 55; omega)]
        rw [show c.toNat - 55 - "0123456789".toList.length = c.toNat - 65 by change c.toNat - 55 - 10 = _; omega]
        exact this
      · cases h

theorem hex4_some {a b c d : Char} {u : Nat} (h : hex4 a b c d = some u) :
    Written ['\\', 'u', a, b, c, d] (.unit u) := by
  unfold hex4 at h
  split at h
  · rename_i x y z w ha hb hc hd
    cases h
    exact .hex _ _ _ _ _ _ _ _ (hexVal_sound ha) (hexVal_sound hb) (hexVal_sound hc) (hexVal_sound hd)
  · cases h

theorem hex4_complete {a b c d : Char} {x y z w : Nat} (ha : Hex a x) (hb : Hex b y) (hc : Hex c z) (hd : Hex d w) :
    hex4 a b c d = some (((x * 16 + y) * 16 + z) * 16 + w) := by
  unfold hex4
  rw [hexVal_complete ha, hexVal_complete hb, hexVal_complete hc, hexVal_complete hd]

theorem simpleEscape_iff {e c : Char} : simpleEscape e = some c ↔ (e, c) ∈ escapes := by
  unfold simpleEscape escapes
  constructor
  · intro h
    repeat' (split at h)
    all_goals first
      | (rename_i he; cases h; subst he; simp)
      | cases h
  · intro h
    simp only [List.mem_cons, Prod.mk.injEq, List.not_mem_nil, or_false] at h
    rcases h with ⟨rfl, rfl⟩ | ⟨rfl, rfl⟩ | ⟨rfl, rfl⟩ | ⟨rfl, rfl⟩ | ⟨rfl, rfl⟩ | ⟨rfl, rfl⟩ | ⟨rfl, rfl⟩ | ⟨rfl, rfl⟩ <;>
      rfl

theorem isHigh_iff {u : Nat} : isHigh u = true ↔ High u := by
  simp only [isHigh, High, Bool.and_eq_true, decide_eq_true_eq]
  omega

theorem isLow_iff {u : Nat} : isLow u = true ↔ Low u := by
  simp only [isLow, Low, Bool.and_eq_true, decide_eq_true_eq]
  omega

/-! ## Strings -/

theorem scanString_quote (r : List Char) : scanString ('"' :: r) = some ([], r) := by simp [scanString]

theorem scanString_plain {c : Char} (h1 : c ≠ '"') (h2 : c ≠ '\\') (h3 : 32 ≤ c.toNat) (r : List Char) :
    scanString (c :: r) = (scanString r).map (fun p => (c :: p.1, p.2)) := by
  rw [scanString]
  · rw [if_neg]
    intro h
    rcases h with h | h
    · exact h2 h
    · omega
  · exact h1
  · intro a b c d r h; exact absurd h h2
  · intro a b h; exact absurd h h2

theorem scanString_escape {e c : Char} (h : simpleEscape e = some c) (r : List Char) :
    scanString ('\\' :: e :: r) = (scanString r).map (fun p => (c :: p.1, p.2)) := by
  have hu : e ≠ 'u' := by rintro rfl; cases h
  rw [scanString]
  · rw [h]
  · intro a b c d r h; exact absurd h hu

theorem scanString_unit {a b c d : Char} {u : Nat} (h : hex4 a b c d = some u) (r : List Char) :
    scanString ('\\' :: 'u' :: a :: b :: c :: d :: r) =
      if isHigh u then
        match r with
        | '\\' :: 'u' :: a' :: b' :: c' :: d' :: r' =>
          match hex4 a' b' c' d' with
          | none => none
          | some w =>
            if isLow w then
              (scanString r').map (fun p => (Char.ofNat (0x10000 + (u - 0xD800) * 0x400 + (w - 0xDC00)) :: p.1, p.2))
            else (scanString ('\\' :: 'u' :: a' :: b' :: c' :: d' :: r')).map (fun p => (replacement :: p.1, p.2))
        | r => (scanString r).map (fun p => (replacement :: p.1, p.2))
      else if isLow u then (scanString r).map (fun p => (replacement :: p.1, p.2))
      else (scanString r).map (fun p => (Char.ofNat u :: p.1, p.2)) := by
  rw [scanString]
  rw [h]
  rfl

theorem scanString_bad {a b c d : Char} (h : hex4 a b c d = none) (r : List Char) :
    scanString ('\\' :: 'u' :: a :: b :: c :: d :: r) = none := by
  rw [scanString]
  rw [h]

theorem scanString_high {a b c d : Char} {u : Nat} (h : hex4 a b c d = some u) (hu : High u) {r : List Char}
    (hr : ∀ a' b' c' d' r', r ≠ '\\' :: 'u' :: a' :: b' :: c' :: d' :: r') :
    scanString ('\\' :: 'u' :: a :: b :: c :: d :: r) =
      (scanString r).map (fun p => (single u :: p.1, p.2)) := by
  have hs : single u = replacement := by simp [single, hu, replacement]
  rw [scanString_unit h, if_pos (isHigh_iff.2 hu), hs]
  split
  · exact absurd rfl (hr _ _ _ _ _)
  · rfl

theorem scanString_pair {a b c d a' b' c' d' : Char} {u w : Nat} (h : hex4 a b c d = some u) (h' : hex4 a' b' c' d' = some w)
    (hu : High u) (hw : Low w) (r : List Char) :
    scanString ('\\' :: 'u' :: a :: b :: c :: d :: '\\' :: 'u' :: a' :: b' :: c' :: d' :: r) =
      (scanString r).map (fun p => (Char.ofNat (0x10000 + (u - 0xD800) * 0x400 + (w - 0xDC00)) :: p.1, p.2)) := by
  rw [scanString_unit h, if_pos (isHigh_iff.2 hu)]
  simp only [h', isLow_iff.2 hw, if_true]

theorem scanString_alone {a b c d a' b' c' d' : Char} {u w : Nat} (h : hex4 a b c d = some u) (h' : hex4 a' b' c' d' = some w)
    (hn : ¬(High u ∧ Low w)) (r : List Char) :
    scanString ('\\' :: 'u' :: a :: b :: c :: d :: '\\' :: 'u' :: a' :: b' :: c' :: d' :: r) =
      (scanString ('\\' :: 'u' :: a' :: b' :: c' :: d' :: r)).map (fun p => (single u :: p.1, p.2)) := by
  rw [scanString_unit h]
  by_cases hu : High u
  · have hw : ¬Low w := fun hw => hn ⟨hu, hw⟩
    have hw' : isLow w = false := by
      cases hx : isLow w
      · rfl
      · exact absurd (isLow_iff.1 hx) hw
    have hs : single u = replacement := by simp [single, hu, replacement]
    simp only [isHigh_iff.2 hu, if_true, h', hw', hs, Bool.false_eq_true, if_false]
  · have hu' : isHigh u = false := by
      cases hx : isHigh u
      · rfl
      · exact absurd (isHigh_iff.1 hx) hu
    simp only [hu', Bool.false_eq_true, if_false]
    by_cases hl : Low u
    · have hs : single u = replacement := by simp [single, hl, replacement]
      simp only [isLow_iff.2 hl, if_true, hs]
    · have hl' : isLow u = false := by
        cases hx : isLow u
        · rfl
        · exact absurd (isLow_iff.1 hx) hl
      have hs : single u = Char.ofNat u := by simp [single, hl, hu]
      simp only [hl', Bool.false_eq_true, if_false, hs]

theorem scanString_nonHigh {a b c d : Char} {u : Nat} (h : hex4 a b c d = some u) (hu : ¬High u) (r : List Char) :
    scanString ('\\' :: 'u' :: a :: b :: c :: d :: r) = (scanString r).map (fun p => (single u :: p.1, p.2)) := by
  rw [scanString_unit h]
  have hu' : isHigh u = false := by
    cases hx : isHigh u
    · rfl
    · exact absurd (isHigh_iff.1 hx) hu
  simp only [hu', Bool.false_eq_true, if_false]
  by_cases hl : Low u
  · have hs : single u = replacement := by simp [single, hl, replacement]
    simp only [isLow_iff.2 hl, if_true, hs]
  · have hl' : isLow u = false := by
      cases hx : isLow u
      · rfl
      · exact absurd (isLow_iff.1 hx) hl
    have hs : single u = Char.ofNat u := by simp [single, hl, hu]
    simp only [hl', Bool.false_eq_true, if_false, hs]

theorem chars_unit {u : Nat} {is : List Item} (h : ∀ w r, is = .unit w :: r → ¬(High u ∧ Low w)) :
    chars (.unit u :: is) = single u :: chars is := by
  match is, h with
  | [], _ => simp [chars]
  | .char c :: is, _ => simp [chars]
  | .unit w :: is, h => rw [chars, if_neg (h w is rfl)]

theorem scanString_complete {b : List Char} {is : List Item} (h : Body b is) (r : List Char) :
    scanString (b ++ '"' :: r) = some (chars is, r) := by
  suffices H : ∀ n, ∀ b is, is.length ≤ n → Body b is → scanString (b ++ '"' :: r) = some (chars is, r) from
    H _ b is (Nat.le_refl _) h
  intro n
  induction n with
  | zero =>
    intro b is hl h
    cases h with
    | nil => exact scanString_quote r
    | cons => simp at hl
  | succ n ih =>
    intro b is hl h
    cases h with
    | nil => exact scanString_quote r
    | @cons cs rest i is hw hb =>
      have hl' : is.length ≤ n := by simpa using hl
      have hrec := ih _ _ hl' hb
      cases hw with
      | plain c h1 h2 h3 =>
        rw [List.append_assoc, List.singleton_append, scanString_plain h1 h2 h3, hrec]
        simp [chars]
      | escape e c he =>
        rw [List.append_assoc]
        simp only [List.cons_append, List.nil_append]
        rw [scanString_escape (simpleEscape_iff.2 he), hrec]
        simp [chars]
      | hex a b c d x y z w ha hb' hc hd =>
        have h4 := hex4_complete ha hb' hc hd
        generalize hu : ((x * 16 + y) * 16 + z) * 16 + w = u at h4 ⊢
        simp only [List.cons_append, List.nil_append]
        cases hb with
        | nil =>
          have hch : chars [.unit u] = [single u] := by simp [chars]
          by_cases hU : High u
          · rw [scanString_high h4 hU (by intro _ _ _ _ _ hx; simp at hx), hrec, hch]; rfl
          · rw [scanString_nonHigh h4 hU, hrec, hch]; rfl
        | @cons cs' rest' i' is' hw' hb'' =>
          cases hw' with
          | plain c' h1 h2 h3 =>
            have hch : chars (.unit u :: .char c' :: is') = single u :: chars (.char c' :: is') := by simp [chars]
            by_cases hU : High u
            · rw [scanString_high h4 hU (by intro _ _ _ _ _ hx; simp at hx; exact h2 hx.1), hrec, hch]; rfl
            · rw [scanString_nonHigh h4 hU, hrec, hch]; rfl
          | escape e c' he =>
            have hch : chars (.unit u :: .char c' :: is') = single u :: chars (.char c' :: is') := by simp [chars]
            have hne : e ≠ 'u' := by rintro rfl; simp [escapes] at he
            by_cases hU : High u
            · rw [scanString_high h4 hU (by intro _ _ _ _ _ hx; simp at hx; exact hne hx.1), hrec, hch]; rfl
            · rw [scanString_nonHigh h4 hU, hrec, hch]; rfl
          | hex a' b' c' d' x' y' z' w' ha' hbb hc' hd' =>
            have h4' := hex4_complete ha' hbb hc' hd'
            generalize hu' : ((x' * 16 + y') * 16 + z') * 16 + w' = u' at h4' hrec ⊢
            by_cases hp : High u ∧ Low u'
            · have hl2 : is'.length ≤ n := by simp at hl'; omega
              have hrec2 := ih _ _ hl2 hb''
              simp only [List.cons_append, List.nil_append]
              rw [scanString_pair h4 h4' hp.1 hp.2, hrec2, chars, if_pos hp]
              rfl
            · simp only [List.cons_append, List.nil_append] at hrec ⊢
              rw [scanString_alone h4 h4' hp, hrec, chars, if_neg hp]
              rfl

theorem scanString_sound {cs s r : List Char} (h : scanString cs = some (s, r)) :
    ∃ b is, Body b is ∧ cs = b ++ '"' :: r ∧ chars is = s := by
  suffices H : ∀ n, ∀ cs s r, cs.length ≤ n → scanString cs = some (s, r) →
      ∃ b is, Body b is ∧ cs = b ++ '"' :: r ∧ chars is = s from H _ cs s r (Nat.le_refl _) h
  intro n
  induction n with
  | zero =>
    intro cs s r hl h
    have : cs = [] := List.length_eq_zero_iff.1 (by omega)
    subst this
    simp [scanString] at h
  | succ n ih =>
    intro cs s r hl h
    match cs, hl, h with
    | [], _, h => simp [scanString] at h
    | c :: cs, hl, h =>
      have hl' : cs.length ≤ n := by simpa using hl
      by_cases hq : c = '"'
      · subst hq
        rw [scanString_quote] at h
        cases h
        exact ⟨[], [], .nil, rfl, rfl⟩
      · by_cases hb : c = '\\'
        · subst hb
          match cs, hl', h with
          | [], _, h => simp [scanString] at h
          | e :: cs, hl', h =>
            by_cases hu : e = 'u'
            · subst hu
              match cs, hl', h with
              | a :: b :: c :: d :: cs, hl', h =>
                cases h4 : hex4 a b c d with
                | none => rw [scanString_bad h4] at h; cases h
                | some u =>
                  by_cases hU : High u
                  · by_cases hx : ∃ a' b' c' d' r', cs = '\\' :: 'u' :: a' :: b' :: c' :: d' :: r'
                    · obtain ⟨a', b', c', d', r', rfl⟩ := hx
                      cases h4' : hex4 a' b' c' d' with
                      | none =>
                        rw [scanString_unit h4, if_pos (isHigh_iff.2 hU)] at h
                        simp only [h4'] at h
                        cases h
                      | some w =>
                        by_cases hp : High u ∧ Low w
                        · rw [scanString_pair h4 h4' hp.1 hp.2, Option.map_eq_some_iff] at h
                          obtain ⟨⟨s', r2⟩, hsc, e⟩ := h
                          cases e
                          obtain ⟨b2, is, hB, rfl, rfl⟩ := ih _ _ _ (by simp only [List.length_cons] at hl'; omega) hsc
                          refine ⟨_, _, .cons (hex4_some h4) (.cons (hex4_some h4') hB), by simp, ?_⟩
                          rw [chars, if_pos hp]
                        · rw [scanString_alone h4 h4' hp, Option.map_eq_some_iff] at h
                          obtain ⟨⟨s', r2⟩, hsc, e⟩ := h
                          cases e
                          obtain ⟨b2, is, hB, e, rfl⟩ := ih _ _ _ (by simp only [List.length_cons] at hl' ⊢; omega) hsc
                          refine ⟨_, _, .cons (hex4_some h4) hB, by rw [e]; simp, ?_⟩
                          apply chars_unit
                          intro w' r3 hi
                          subst hi
                          cases hB with
                          | cons hw _ =>
                            cases hw with
                            | hex _ _ _ _ x y z w ha hb hc hd =>
                              simp only [List.cons_append, List.nil_append, List.cons.injEq, true_and] at e
                              obtain ⟨rfl, rfl, rfl, rfl, _⟩ := e
                              rw [hex4_complete ha hb hc hd] at h4'
                              cases h4'
                              exact hp
                    · rw [scanString_high h4 hU (fun _ _ _ _ _ e => hx ⟨_, _, _, _, _, e⟩), Option.map_eq_some_iff] at h
                      obtain ⟨⟨s', r2⟩, hsc, e⟩ := h
                      cases e
                      obtain ⟨b2, is, hB, rfl, rfl⟩ := ih _ _ _ (by simp only [List.length_cons] at hl'; omega) hsc
                      refine ⟨_, _, .cons (hex4_some h4) hB, by simp, ?_⟩
                      apply chars_unit
                      intro w' r3 hi
                      subst hi
                      cases hB with
                      | cons hw _ =>
                        cases hw with
                        | hex _ _ _ _ x y z w ha hb hc hd => exact absurd ⟨_, _, _, _, _, rfl⟩ hx
                  · rw [scanString_nonHigh h4 hU, Option.map_eq_some_iff] at h
                    obtain ⟨⟨s', r2⟩, hsc, e⟩ := h
                    cases e
                    obtain ⟨b2, is, hB, rfl, rfl⟩ := ih _ _ _ (by simp only [List.length_cons] at hl'; omega) hsc
                    exact ⟨_, _, .cons (hex4_some h4) hB, by simp, chars_unit (fun _ _ _ hp => hU hp.1)⟩
              | [], _, h => simp [scanString, simpleEscape] at h
              | [_], _, h => simp [scanString, simpleEscape] at h
              | [_, _], _, h => simp [scanString, simpleEscape] at h
              | [_, _, _], _, h => simp [scanString, simpleEscape] at h
            · cases he : simpleEscape e with
              | none =>
                rw [scanString] at h
                · rw [he] at h; cases h
                · intro a b c d r h; exact absurd h hu
              | some c =>
                rw [scanString_escape he, Option.map_eq_some_iff] at h
                obtain ⟨⟨s', r2⟩, hsc, e2⟩ := h
                cases e2
                obtain ⟨b2, is, hB, rfl, rfl⟩ := ih _ _ _ (by simp only [List.length_cons] at hl'; omega) hsc
                exact ⟨_, _, .cons (.escape _ _ (simpleEscape_iff.1 he)) hB, by simp, by simp [chars]⟩
        · by_cases h3 : 32 ≤ c.toNat
          · rw [scanString_plain hq hb h3, Option.map_eq_some_iff] at h
            obtain ⟨⟨s', r2⟩, hsc, e2⟩ := h
            cases e2
            obtain ⟨b2, is, hB, rfl, rfl⟩ := ih _ _ _ hl' hsc
            exact ⟨_, _, .cons (.plain c hq hb h3) hB, by simp, by simp [chars]⟩
          · rw [scanString, if_pos (.inr (by omega))] at h
            · cases h
            · exact hq
            · intro a b c d r h; exact absurd h hb
            · intro a b h; exact absurd h hb

/-! ## Numbers -/

/-- The text does not go on with a digit. -/
def NoDigit (r : List Char) : Prop := ∀ c r', r = c :: r' → c.isDigit = false

/-- The text does not go on with a character that continues a number. -/
def Ends (r : List Char) : Prop := ∀ c r', r = c :: r' → c.isDigit = false ∧ c ≠ '.' ∧ c ≠ 'e' ∧ c ≠ 'E'

theorem digits_complete {ds r : List Char} (h : Digits ds) (hr : NoDigit r) : digits (ds ++ r) = (ds, r) := by
  induction ds with
  | nil =>
    cases r with
    | nil => rfl
    | cons c r => simp [digits, hr c r rfl]
  | cons c ds ih =>
    have hc := h c List.mem_cons_self
    simp only [List.cons_append, digits, hc, if_true, ih (fun x hx => h x (List.mem_cons_of_mem _ hx))]

theorem digits_sound (cs : List Char) : Digits (digits cs).1 ∧ cs = (digits cs).1 ++ (digits cs).2 := by
  induction cs with
  | nil => exact ⟨by intro c hc; (cases hc), rfl⟩
  | cons c cs ih =>
    by_cases hc : c.isDigit = true
    · simp only [digits, hc, if_true]
      refine ⟨?_, by rw [List.cons_append, ← ih.2]⟩
      intro x hx
      rcases List.mem_cons.1 hx with rfl | hx
      · exact hc
      · exact ih.1 x hx
    · simp only [digits, hc]
      exact ⟨by intro c hc; (cases hc), rfl⟩

theorem scanInt_complete {i r : List Char} (h : IntPart i) (hr : NoDigit r) : scanInt (i ++ r) = some (i, r) := by
  rcases h with rfl | ⟨c, rest, rfl, hc, h0, hd⟩
  · have : digits (['0'] ++ r) = (['0'], r) := digits_complete (by intro c hc; simp at hc; subst hc; rfl) hr
    unfold scanInt
    rw [this]
    rfl
  · have : digits (c :: rest ++ r) = (c :: rest, r) := digits_complete (by
      intro x hx
      rcases List.mem_cons.1 hx with rfl | hx
      · exact hc
      · exact hd x hx) hr
    unfold scanInt
    rw [this]
    split
    · rename_i e; simp at e
    · rename_i e; simp at e; exact absurd e.1.1 h0
    · rename_i e; simp at e; exact absurd e.1.1 h0
    · rfl

theorem scanInt_sound {cs i r : List Char} (h : scanInt cs = some (i, r)) : IntPart i ∧ cs = i ++ r := by
  obtain ⟨h1, h2⟩ := digits_sound cs
  unfold scanInt at h
  generalize digits cs = p at h h1 h2
  obtain ⟨ds, r'⟩ := p
  subst h2
  match ds, h, h1 with
  | [], h, _ => simp at h
  | c :: ds, h, h1 =>
    by_cases h0 : c = '0'
    · subst h0
      cases ds with
      | nil =>
        simp at h
        obtain ⟨rfl, rfl⟩ := h
        exact ⟨.inl rfl, rfl⟩
      | cons d ds =>
        simp at h
        obtain ⟨rfl, rfl⟩ := h
        exact ⟨.inl rfl, by simp⟩
    · simp [h0] at h
      obtain ⟨rfl, rfl⟩ := h
      exact ⟨.inr ⟨c, ds, rfl, h1 c List.mem_cons_self, h0, fun x hx => h1 x (List.mem_cons_of_mem _ hx)⟩, rfl⟩

theorem scanFrac_complete {f r : List Char} (h : FracPart f) (hr : NoDigit r) (hp : f = [] → ∀ r', r ≠ '.' :: r') :
    scanFrac (f ++ r) = some (f, r) := by
  rcases h with rfl | ⟨ds, rfl, hne, hd⟩
  · unfold scanFrac
    split
    · rename_i e; exact absurd e (hp rfl _)
    · rfl
  · unfold scanFrac
    simp only [List.cons_append, digits_complete hd hr]

theorem scanFrac_sound {cs f r : List Char} (h : scanFrac cs = some (f, r)) : FracPart f ∧ cs = f ++ r := by
  unfold scanFrac at h
  split at h
  · rename_i t
    obtain ⟨h1, h2⟩ := digits_sound t
    generalize digits t = p at h h1 h2
    obtain ⟨ds, r'⟩ := p
    subst h2
    cases ds with
    | nil => simp at h
    | cons d ds =>
      simp at h
      obtain ⟨rfl, rfl⟩ := h
      exact ⟨.inr ⟨_, rfl, by simp, h1⟩, rfl⟩
  · cases h
    exact ⟨.inl rfl, rfl⟩

theorem isDigit_nat {c : Char} (h : c.isDigit = true) : 48 ≤ c.toNat ∧ c.toNat ≤ 57 := by
  simp only [Char.isDigit, Bool.and_eq_true, decide_eq_true_eq] at h
  exact ⟨UInt32.le_iff_toNat_le.1 h.1, UInt32.le_iff_toNat_le.1 h.2⟩

theorem expSign_complete {sign r : List Char} (hs : sign = [] ∨ sign = ['+'] ∨ sign = ['-'])
    (h : ∀ c r', r = c :: r' → c ≠ '+' ∧ c ≠ '-') : expSign (sign ++ r) = (sign, r) := by
  rcases hs with rfl | rfl | rfl
  · unfold expSign
    split
    · rename_i e; exact absurd rfl (h _ _ e).1
    · rename_i e; exact absurd rfl (h _ _ e).2
    · rfl
  · rfl
  · rfl

theorem expSign_sound (cs : List Char) : ((expSign cs).1 = [] ∨ (expSign cs).1 = ['+'] ∨ (expSign cs).1 = ['-']) ∧
    cs = (expSign cs).1 ++ (expSign cs).2 := by
  unfold expSign
  split
  · exact ⟨.inr (.inl rfl), rfl⟩
  · exact ⟨.inr (.inr rfl), rfl⟩
  · exact ⟨.inl rfl, rfl⟩

theorem minus_complete {sign r : List Char} (hs : sign = [] ∨ sign = ['-']) (h : ∀ r', r ≠ '-' :: r') :
    minus (sign ++ r) = (sign, r) := by
  rcases hs with rfl | rfl
  · unfold minus
    split
    · rename_i e; exact absurd e (h _)
    · rfl
  · rfl

theorem minus_sound (cs : List Char) : ((minus cs).1 = [] ∨ (minus cs).1 = ['-']) ∧ cs = (minus cs).1 ++ (minus cs).2 := by
  unfold minus
  split
  · exact ⟨.inr rfl, rfl⟩
  · exact ⟨.inl rfl, rfl⟩

theorem scanExp_complete {e r : List Char} (h : ExpPart e) (hr : Ends r) : scanExp (e ++ r) = some (e, r) := by
  rcases h with rfl | ⟨c, sign, ds, rfl, hc, hs, hne, hd⟩
  · cases r with
    | nil => rfl
    | cons c r =>
      obtain ⟨_, _, h1, h2⟩ := hr c r rfl
      simp [scanExp, h1, h2]
  · have hnd : NoDigit r := fun c r' e => (hr c r' e).1
    have key := digits_complete hd hnd
    cases ds with
    | nil => exact absurd rfl hne
    | cons d ds =>
      have hdd := isDigit_nat (hd d List.mem_cons_self)
      have hsg := expSign_complete (r := d :: ds ++ r) hs (by
        intro c r' heq
        simp at heq
        obtain ⟨rfl, _⟩ := heq
        exact ⟨by rintro rfl; revert hdd; decide, by rintro rfl; revert hdd; decide⟩)
      rw [List.cons_append, List.append_assoc]
      simp only [scanExp, hc, if_true, hsg, key]

theorem scanExp_sound {cs e r : List Char} (h : scanExp cs = some (e, r)) : ExpPart e ∧ cs = e ++ r := by
  unfold scanExp at h
  split at h
  · rename_i c t
    split at h
    · rename_i hc
      obtain ⟨hs, e1⟩ := expSign_sound t
      generalize expSign t = q at h hs e1
      obtain ⟨sign, t'⟩ := q
      obtain ⟨h1, h2⟩ := digits_sound t'
      dsimp only at h hs e1
      generalize digits t' = p at h h1 h2
      obtain ⟨ds, r'⟩ := p
      cases ds with
      | nil => simp at h
      | cons d ds =>
        simp at h
        obtain ⟨rfl, rfl⟩ := h
        exact ⟨.inr ⟨c, sign, d :: ds, rfl, hc, hs, by simp, h1⟩, by rw [e1, h2]; simp⟩
    · cases h
      exact ⟨.inl rfl, rfl⟩
  · cases h
    exact ⟨.inl rfl, rfl⟩

theorem exp_head {e r : List Char} (h : ExpPart e) (hr : Ends r) :
    ∀ c r', e ++ r = c :: r' → c.isDigit = false ∧ c ≠ '.' := by
  intro c r' heq
  rcases h with rfl | ⟨x, sign, ds, rfl, hc, _⟩
  · exact ⟨(hr c r' heq).1, (hr c r' heq).2.1⟩
  · simp at heq
    obtain ⟨rfl, _⟩ := heq
    rcases hc with rfl | rfl <;> decide

theorem frac_head {f e r : List Char} (hf : FracPart f) (h : ExpPart e) (hr : Ends r) : NoDigit (f ++ (e ++ r)) := by
  intro c r' heq
  rcases hf with rfl | ⟨ds, rfl, _⟩
  · exact (exp_head h hr c r' heq).1
  · simp at heq
    obtain ⟨rfl, _⟩ := heq
    rfl

theorem int_head {i : List Char} (h : IntPart i) : ∃ c r, i = c :: r ∧ c.isDigit = true := by
  rcases h with rfl | ⟨c, r, rfl, hc, _⟩
  · exact ⟨_, _, rfl, rfl⟩
  · exact ⟨_, _, rfl, hc⟩

theorem scanNumber_complete {cs r : List Char} (h : Number cs) (hr : Ends r) : scanNumber (cs ++ r) = some (cs, r) := by
  obtain ⟨sign, i, f, e, rfl, hs, hi, hf, he⟩ := h
  have h1 := scanInt_complete hi (frac_head hf he hr)
  have h2 := scanFrac_complete (r := e ++ r) hf (fun c r' heq => (exp_head he hr c r' heq).1)
    (fun _ r' heq => absurd rfl (exp_head he hr '.' r' heq).2)
  have h3 := scanExp_complete he hr
  have h0 := minus_complete (r := i ++ (f ++ (e ++ r))) hs (by
    obtain ⟨c, t, rfl, hc⟩ := int_head hi
    intro r' heq
    simp at heq
    obtain ⟨rfl, _⟩ := heq
    revert hc; decide)
  unfold scanNumber
  simp only [List.append_assoc, h0, h1, h2, h3]

theorem scanNumber_sound {cs t r : List Char} (h : scanNumber cs = some (t, r)) : Number t ∧ cs = t ++ r := by
  unfold scanNumber at h
  obtain ⟨hs, e1⟩ := minus_sound cs
  generalize minus cs = q at h hs e1
  obtain ⟨sign, cs'⟩ := q
  dsimp only at h hs e1
  split at h
  · cases h
  · rename_i hi
    split at h
    · cases h
    · rename_i hf
      split at h
      · cases h
      · rename_i he
        simp only [Option.some.injEq, Prod.mk.injEq] at h
        obtain ⟨rfl, rfl⟩ := h
        have ⟨ki, ei⟩ := scanInt_sound hi
        have ⟨kf, ef⟩ := scanFrac_sound hf
        have ⟨ke, ee⟩ := scanExp_sound he
        exact ⟨⟨_, _, _, _, rfl, hs, ki, kf, ke⟩, by rw [e1, ei, ef, ee]; simp⟩

/-- A number starts with a digit or a minus sign. -/
theorem number_head {cs : List Char} (h : Number cs) : ∃ c r, cs = c :: r ∧ (c = '-' ∨ c.isDigit = true) := by
  obtain ⟨sign, i, f, e, rfl, hs, hi, _⟩ := h
  obtain ⟨c, t, rfl, hc⟩ := int_head hi
  rcases hs with rfl | rfl
  · exact ⟨_, _, rfl, .inr hc⟩
  · exact ⟨_, _, rfl, .inl rfl⟩

end Verif.Text
