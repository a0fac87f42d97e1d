import Verif.Lemmas.TextValue

/-!
The text of a value denotes the value.
-/

namespace Verif.Text
open Codec Spec Grammar

theorem hexDigit_hex {n : Nat} (h : n < 16) : Hex (hexDigit n) n := by
  refine ⟨h, .inl ?_⟩
  unfold hexDigit
  rw [List.getD_eq_getElem?_getD]
  have : n < "0123456789abcdef".toList.length := h
  rw [List.getElem?_eq_getElem this]
  rfl

theorem escapeChar_written (c : Char) :
    ∃ i, Written (escapeChar c) i ∧ (i = .char c ∨ ∃ u, i = .unit u ∧ ¬High u ∧ single u = c) := by
  by_cases h1 : c = '"'
  · subst h1; exact ⟨_, .escape '"' '"' (by simp [escapes]), .inl rfl⟩
  by_cases h2 : c = '\\'
  · subst h2; exact ⟨_, .escape '\\' '\\' (by simp [escapes]), .inl rfl⟩
  by_cases h3 : c = '\n'
  · subst h3; exact ⟨_, .escape 'n' '\n' (by simp [escapes]), .inl rfl⟩
  by_cases h4 : c = '\r'
  · subst h4; exact ⟨_, .escape 'r' '\r' (by simp [escapes]), .inl rfl⟩
  by_cases h5 : c = '\t'
  · subst h5; exact ⟨_, .escape 't' '\t' (by simp [escapes]), .inl rfl⟩
  by_cases h6 : c = Char.ofNat 8
  · subst h6; exact ⟨_, .escape 'b' (Char.ofNat 8) (by simp [escapes]), .inl rfl⟩
  by_cases h7 : c = Char.ofNat 12
  · subst h7; exact ⟨_, .escape 'f' (Char.ofNat 12) (by simp [escapes]), .inl rfl⟩
  by_cases h8 : c.toNat < 32 ∨ c = '<' ∨ c = '>' ∨ c = '&' ∨ c.toNat = 0x2028 ∨ c.toNat = 0x2029
  · have hlt : c.toNat < 0xD800 := by
      rcases h8 with h | rfl | rfl | rfl | h | h
      · omega
      · decide
      · decide
      · decide
      · omega
      · omega
    have e : escapeChar c = ['\\', 'u', hexDigit (c.toNat / 4096 % 16), hexDigit (c.toNat / 256 % 16),
        hexDigit (c.toNat / 16 % 16), hexDigit (c.toNat % 16)] := by
      unfold escapeChar
      rw [if_neg h1, if_neg h2, if_neg h3, if_neg h4, if_neg h5, if_neg h6, if_neg h7, if_pos h8]
    rw [e]
    refine ⟨_, .hex _ _ _ _ _ _ _ _ (hexDigit_hex (Nat.mod_lt _ (by decide))) (hexDigit_hex (Nat.mod_lt _ (by decide)))
      (hexDigit_hex (Nat.mod_lt _ (by decide))) (hexDigit_hex (Nat.mod_lt _ (by decide))), .inr ⟨_, rfl, ?_⟩⟩
    have hv : ((c.toNat / 4096 % 16 * 16 + c.toNat / 256 % 16) * 16 + c.toNat / 16 % 16) * 16 + c.toNat % 16 = c.toNat := by
      omega
    rw [hv]
    have hH : ¬High c.toNat := by unfold High; omega
    have hL : ¬Low c.toNat := by unfold Low; omega
    refine ⟨hH, ?_⟩
    unfold single
    rw [if_neg (by rintro (h | h); exact hH h; exact hL h)]
    exact char_ofNat_toNat c
  · have e : escapeChar c = [c] := by
      unfold escapeChar
      rw [if_neg h1, if_neg h2, if_neg h3, if_neg h4, if_neg h5, if_neg h6, if_neg h7, if_neg h8]
    rw [e]
    exact ⟨_, .plain c h1 h2 (by omega), .inl rfl⟩

theorem quote_body (cs : List Char) : ∃ is, Body (cs.flatMap escapeChar) is ∧ chars is = cs := by
  induction cs with
  | nil => exact ⟨[], .nil, rfl⟩
  | cons c cs ih =>
    obtain ⟨is, hb, rfl⟩ := ih
    obtain ⟨i, hw, hi⟩ := escapeChar_written c
    refine ⟨i :: is, by rw [List.flatMap_cons]; exact .cons hw hb, ?_⟩
    rcases hi with rfl | ⟨u, rfl, hu, hs⟩
    · simp [chars]
    · rw [chars_unit (fun _ _ _ h => hu h.1), hs]

theorem blanks_nil : Blanks [] := by intro c hc; cases hc

theorem quote_denotes (s : String) : Denotes (quote s) (.str s) := by
  obtain ⟨is, hb, e⟩ := quote_body s.toList
  have := Denotes.string hb
  rw [e, String.ofList_toList] at this
  exact this

/-- The members of an object are written one after the other. -/
theorem member_denotes {k : String} {t : List Char} {x : Any} (h : Denotes t x) :
    Members (quote k ++ ':' :: t) [(k, x)] := by
  obtain ⟨is, hb, e⟩ := quote_body k.toList
  have := Members.one blanks_nil hb blanks_nil blanks_nil h blanks_nil
  rw [e, String.ofList_toList] at this
  simpa [quote] using this

theorem member_denotes_more {k : String} {t rest : List Char} {x : Any} {ms : List (String × Any)} (h : Denotes t x)
    (hr : Members rest ms) : Members ((quote k ++ ':' :: t) ++ ',' :: rest) ((k, x) :: ms) := by
  obtain ⟨is, hb, e⟩ := quote_body k.toList
  have := Members.more blanks_nil hb blanks_nil blanks_nil h blanks_nil hr
  rw [e, String.ofList_toList] at this
  simpa [quote] using this

mutual
theorem text_denotes : ∀ j : Any, NumbersOk j → Denotes (text j) j
  | .null, _ => by rw [text]; exact .null
  | .bool true, _ => by rw [text]; exact .true
  | .bool false, _ => by rw [text]; exact .false
  | .num lit, h => by
    rw [NumbersOk] at h
    have := Denotes.number h
    rw [String.ofList_toList] at this
    rw [text]; exact this
  | .str s, _ => by rw [text]; exact quote_denotes s
  | .arr xs, h => by
    rw [NumbersOk] at h
    by_cases hx : xs = []
    · subst hx
      have := Denotes.emptyArray blanks_nil
      simpa [text, texts, commaSep] using this
    · rw [text]
      exact .array (texts_denotes xs hx h)
  | .obj ms, h => by
    rw [NumbersOk] at h
    by_cases hx : ms = []
    · subst hx
      have := Denotes.emptyObject blanks_nil
      simpa [text, memberTexts, commaSep] using this
    · rw [text]
      exact .object (memberTexts_denotes ms hx h)
theorem texts_denotes : ∀ xs : List Any, xs ≠ [] → NumbersOkList xs → Elements (commaSep (texts xs)) xs
  | [], h, _ => absurd rfl h
  | x :: xs, _, h => by
    rw [NumbersOkList] at h
    have hx := text_denotes x h.1
    by_cases hn : xs = []
    · subst hn
      have := Elements.one blanks_nil hx blanks_nil
      simpa [texts, commaSep] using this
    · have := Elements.more blanks_nil hx blanks_nil (texts_denotes xs hn h.2)
      cases xs with
      | nil => exact absurd rfl hn
      | cons y xs => simpa [texts, commaSep] using this
theorem memberTexts_denotes : ∀ ms : List (String × Any), ms ≠ [] → NumbersOkMembers ms →
    Members (commaSep (memberTexts ms)) ms
  | [], h, _ => absurd rfl h
  | (k, x) :: ms, _, h => by
    rw [NumbersOkMembers] at h
    have hx := text_denotes x h.1
    by_cases hn : ms = []
    · subst hn
      have := member_denotes (k := k) hx
      simpa [memberTexts, commaSep] using this
    · have := member_denotes_more (k := k) hx (memberTexts_denotes ms hn h.2)
      cases ms with
      | nil => exact absurd rfl hn
      | cons m ms =>
        obtain ⟨k', y⟩ := m
        simpa [memberTexts, commaSep] using this
end

theorem text_json {j : Any} (h : NumbersOk j) : JSONText (text j) j :=
  ⟨[], text j, [], by simp, blanks_nil, text_denotes j h, blanks_nil⟩

/-- Reading the text of a value. -/
theorem parse_text {j : Any} (h : NumbersOk j) (d : Nat) :
    parseWithin d (text j) = if depth j ≤ d then some j else none := by
  split
  · rename_i hd; exact parse_complete (text_json h) hd
  · rename_i hd
    cases hp : parseWithin d (text j) with
    | none => rfl
    | some i =>
      obtain ⟨h1, h2⟩ := parse_sound hp
      rw [jsonText_unique h1 (text_json h)] at h2
      exact absurd h2 hd

end Verif.Text
