import Verif.Spec.Walk

/-!
# Names of headers
-/

namespace Verif

/-- The lower case of an ASCII letter. -/
def asciiLower (c : Char) : Char := if 'A' ≤ c ∧ c ≤ 'Z' then Char.ofNat (c.toNat + 32) else c

theorem valid_ascii {c : Char} (h : validHeaderChar c = true) : c.toNat < 128 := by
  unfold validHeaderChar at h
  simp only [Bool.or_eq_true, Bool.and_eq_true, decide_eq_true_eq] at h
  have hle : ∀ a b : Char, a ≤ b → a.toNat ≤ b.toNat := fun a b h => h
  rcases h with ((⟨-, h⟩ | ⟨-, h⟩) | ⟨-, h⟩) | h
  · have := hle _ _ h; simp at this; omega
  · have := hle _ _ h; simp at this; omega
  · have := hle _ _ h; simp at this; omega
  · have hm : c ∈ "!#$%&'*+-.^_`|~".toList := by simpa using h
    have : ∀ x ∈ "!#$%&'*+-.^_`|~".toList, x.toNat < 128 := by decide +kernel
    exact this c hm

/-- The letter as it appears in a canonical name. -/
def canonicalChar (upper : Bool) (c : Char) : Char :=
  if upper then (if 'a' ≤ c && c ≤ 'z' then Char.ofNat (c.toNat - 32) else c)
      else (if 'A' ≤ c && c ≤ 'Z' then Char.ofNat (c.toNat + 32) else c)

/-- Facts about all ASCII characters. -/
theorem canonicalChar_table : ∀ n : Fin 128, ∀ u : Bool,
    canonicalChar u (Char.ofNat n) = canonicalChar u (asciiLower (Char.ofNat n)) ∧
    canonicalChar u (canonicalChar u (Char.ofNat n)) = canonicalChar u (Char.ofNat n) ∧
    (canonicalChar u (Char.ofNat n) = '-' ↔ asciiLower (Char.ofNat n) = '-') ∧
    asciiLower (canonicalChar u (Char.ofNat n)) = asciiLower (Char.ofNat n) ∧
    (validHeaderChar (Char.ofNat n) = true → validHeaderChar (canonicalChar u (Char.ofNat n)) = true) := by
  decide +kernel

theorem canonicalChar_facts {c : Char} (h : validHeaderChar c = true) (u : Bool) :
    canonicalChar u c = canonicalChar u (asciiLower c) ∧
    canonicalChar u (canonicalChar u c) = canonicalChar u c ∧
    (canonicalChar u c = '-' ↔ asciiLower c = '-') ∧
    asciiLower (canonicalChar u c) = asciiLower c ∧ validHeaderChar (canonicalChar u c) = true := by
  have hn := valid_ascii h
  have e : Char.ofNat c.toNat = c := Char.ofNat_toNat c
  have t := canonicalChar_table ⟨c.toNat, hn⟩ u
  simp only [e] at t
  exact ⟨t.1, t.2.1, t.2.2.1, t.2.2.2.1, t.2.2.2.2 h⟩

theorem canonicalChars_cons (u : Bool) (c : Char) (cs : List Char) :
    canonicalChars u (c :: cs) = canonicalChar u c :: canonicalChars (canonicalChar u c = '-') cs := rfl

theorem canonicalChars_lower : ∀ (cs ds : List Char) (u : Bool), cs.all validHeaderChar = true → ds.all validHeaderChar = true →
    cs.map asciiLower = ds.map asciiLower → canonicalChars u cs = canonicalChars u ds
  | [], [], _, _, _, _ => rfl
  | [], _ :: _, _, _, _, h => by cases h
  | _ :: _, [], _, _, _, h => by cases h
  | c :: cs, d :: ds, u, hc, hd, h => by
    simp only [List.all_cons, Bool.and_eq_true] at hc hd
    simp only [List.map_cons, List.cons.injEq] at h
    obtain ⟨c1, -, c3, -, -⟩ := canonicalChar_facts hc.1 u
    obtain ⟨d1, -, d3, -, -⟩ := canonicalChar_facts hd.1 u
    rw [canonicalChars_cons, canonicalChars_cons, c1, d1, h.1,
      canonicalChars_lower cs ds _ hc.2 hd.2 h.2]

theorem canonicalChars_same : ∀ (cs : List Char) (u : Bool), cs.all validHeaderChar = true →
    (canonicalChars u cs).all validHeaderChar = true ∧ (canonicalChars u cs).map asciiLower = cs.map asciiLower
  | [], _, _ => ⟨rfl, rfl⟩
  | c :: cs, u, h => by
    simp only [List.all_cons, Bool.and_eq_true] at h
    obtain ⟨-, -, -, c4, c5⟩ := canonicalChar_facts h.1 u
    obtain ⟨i1, i2⟩ := canonicalChars_same cs (canonicalChar u c = '-') h.2
    rw [canonicalChars_cons]
    simp only [List.all_cons, Bool.and_eq_true, List.map_cons]
    exact ⟨⟨c5, i1⟩, by rw [c4, i2]⟩

/-- Facts about all ASCII characters. -/
theorem canonicalChar_words : ∀ n : Fin 128,
    canonicalChar true (Char.ofNat n) = (Char.ofNat n).toUpper ∧
    canonicalChar false (Char.ofNat n) = (Char.ofNat n).toLower ∧
    (∀ u, decide (canonicalChar u (Char.ofNat n) = '-') = decide (Char.ofNat n = '-')) ∧
    (validHeaderChar (Char.ofNat n) = true ↔ TokenChar (Char.ofNat n)) := by
  decide +kernel

theorem token_ascii {c : Char} (h : TokenChar c) : c.toNat < 128 := by
  rcases h with h | h
  · simp only [Char.isAlphanum, Char.isAlpha, Char.isUpper, Char.isLower, Char.isDigit, Bool.or_eq_true, Bool.and_eq_true,
      decide_eq_true_eq] at h
    have hle : ∀ a b : UInt32, a ≤ b → a.toNat ≤ b.toNat := fun a b h => h
    rcases h with (⟨-, h⟩ | ⟨-, h⟩) | ⟨-, h⟩ <;> have := hle _ _ h <;> simp at this <;> omega
  · have : ∀ x ∈ "!#$%&'*+-.^_`|~".toList, x.toNat < 128 := by decide +kernel
    exact this c h

theorem valid_token (c : Char) : validHeaderChar c = true ↔ TokenChar c := by
  have key : c.toNat < 128 → (validHeaderChar c = true ↔ TokenChar c) := by
    intro hn
    have t := (canonicalChar_words ⟨c.toNat, hn⟩).2.2.2
    simpa only [Char.ofNat_toNat] using t
  exact ⟨fun h => (key (valid_ascii h)).mp h, fun h => (key (token_ascii h)).mpr h⟩

theorem canonicalChar_word {c : Char} (h : TokenChar c) (u : Bool) :
    canonicalChar u c = (if u then c.toUpper else c.toLower) ∧ decide (canonicalChar u c = '-') = decide (c = '-') := by
  have t := canonicalChar_words ⟨c.toNat, token_ascii h⟩
  simp only [Char.ofNat_toNat] at t
  refine ⟨?_, t.2.2.1 u⟩
  cases u
  · exact t.2.1
  · exact t.1

theorem canonicalChars_words : ∀ (cs : List Char) (u : Bool), (∀ c ∈ cs, TokenChar c) →
    (canonicalChars u cs).length = cs.length ∧ ∀ (i : Nat) (c : Char), cs[i]? = some c →
      (canonicalChars u cs)[i]? =
        some (if (if i = 0 then u = true else cs[i - 1]? = some '-') then c.toUpper else c.toLower)
  | [], _, _ => ⟨rfl, fun i c h => by simp at h⟩
  | c :: cs, u, h => by
    obtain ⟨e1, e2⟩ := canonicalChar_word (h c List.mem_cons_self) u
    obtain ⟨i1, i2⟩ := canonicalChars_words cs (decide (c = '-')) fun d hd => h d (List.mem_cons_of_mem _ hd)
    rw [canonicalChars_cons, e2]
    refine ⟨by simp [i1], fun i d hd => ?_⟩
    cases i with
    | zero =>
      simp only [List.getElem?_cons_zero, Option.some.injEq] at hd ⊢
      subst hd
      rw [e1]
      simp
    | succ i =>
      simp only [List.getElem?_cons_succ] at hd ⊢
      rw [i2 i d hd]
      cases i with
      | zero => simp
      | succ i => simp

theorem headerName_key (n : String) : HeaderName n (canonicalHeaderKey n) := by
  have hv : n.toList.all validHeaderChar = true ↔ ∀ c ∈ n.toList, TokenChar c := by
    simp only [List.all_eq_true, valid_token]
  unfold HeaderName canonicalHeaderKey
  rw [← hv]
  refine ⟨fun h => ?_, fun h => if_neg h⟩
  rw [if_pos h, String.toList_ofList]
  obtain ⟨h1, h2⟩ := canonicalChars_words n.toList true (hv.mp h)
  refine ⟨h1, fun i c hc => ?_⟩
  rw [h2 i c hc]
  cases i <;> simp [StartsWord]

theorem headerName_unique {n name : String} (h : HeaderName n name) : canonicalHeaderKey n = name := by
  have hk := headerName_key n
  by_cases ht : ∀ c ∈ n.toList, TokenChar c
  · obtain ⟨k1, k2⟩ := hk.1 ht
    obtain ⟨h1, h2⟩ := h.1 ht
    refine String.toList_injective (List.ext_getElem? fun i => ?_)
    cases hc : n.toList[i]? with
    | some c => rw [k2 i c hc, h2 i c hc]
    | none =>
      rw [List.getElem?_eq_none_iff] at hc
      rw [List.getElem?_eq_none (by omega), List.getElem?_eq_none (by omega)]
  · rw [hk.2 ht, h.2 ht]

end Verif
