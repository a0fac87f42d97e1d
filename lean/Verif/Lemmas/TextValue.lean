import Verif.Lemmas.Text

/-!
The scanner accepts exactly the grammar of JSON.
-/

namespace Verif.Text
open Codec Spec Grammar

theorem scanValue_blanks {a : List Char} (h : Blanks a) (n d : Nat) (cs : List Char) :
    scanValue n d (a ++ cs) = scanValue n d cs := by
  cases n with
  | zero => simp [scanValue]
  | succ n => rw [scanValue, scanValue, skip_blanks h]

theorem scanMembers_blanks {a : List Char} (h : Blanks a) (n d : Nat) (cs : List Char) :
    scanMembers n d (a ++ cs) = scanMembers n d cs := by
  cases n with
  | zero => simp [scanMembers]
  | succ n => rw [scanMembers, scanMembers, skip_blanks h]

theorem isDigit_space {c : Char} (h : isSpace c = true) : c.isDigit = false ∧ c ≠ '.' ∧ c ≠ 'e' ∧ c ≠ 'E' := by
  rcases isSpace_iff.1 h with rfl | rfl | rfl | rfl <;> decide

theorem ends_append {a r : List Char} (h : Blanks a) (hr : Ends r) : Ends (a ++ r) := by
  intro c r' heq
  cases a with
  | nil => exact hr c r' heq
  | cons x a =>
    simp at heq
    obtain ⟨rfl, _⟩ := heq
    exact isDigit_space (isSpace_iff.2 (h _ List.mem_cons_self))

theorem ends_nil : Ends [] := by intro c r h; cases h

theorem ends_cons {c : Char} (h : c.isDigit = false ∧ c ≠ '.' ∧ c ≠ 'e' ∧ c ≠ 'E') (r : List Char) : Ends (c :: r) := by
  intro c' r' heq
  cases heq
  exact h

/-- What a value starts with. -/
theorem denotes_head {cs : List Char} {j : Any} (h : Denotes cs j) :
    ∃ c r, cs = c :: r ∧ isSpace c = false ∧ c ≠ ']' := by
  cases h with
  | null => exact ⟨_, _, rfl, by decide, by decide⟩
  | true => exact ⟨_, _, rfl, by decide, by decide⟩
  | false => exact ⟨_, _, rfl, by decide, by decide⟩
  | number h =>
    obtain ⟨c, r, rfl, hc⟩ := number_head h
    refine ⟨c, r, rfl, ?_, ?_⟩
    · cases hx : isSpace c with
      | false => rfl
      | true =>
        rcases isSpace_iff.1 hx with rfl | rfl | rfl | rfl <;> rcases hc with hc | hc <;> revert hc <;> decide
    · rintro rfl
      rcases hc with hc | hc <;> revert hc <;> decide
  | string => exact ⟨_, _, rfl, by decide, by decide⟩
  | emptyArray => exact ⟨_, _, rfl, by decide, by decide⟩
  | array => exact ⟨_, _, rfl, by decide, by decide⟩
  | emptyObject => exact ⟨_, _, rfl, by decide, by decide⟩
  | object => exact ⟨_, _, rfl, by decide, by decide⟩

theorem elements_head {cs : List Char} {xs : List Any} (h : Elements cs xs) (r : List Char) :
    ∃ c t, skip (cs ++ r) = c :: t ∧ c ≠ ']' := by
  cases h with
  | one ha hd hb =>
    obtain ⟨c, t, rfl, hs, hn⟩ := denotes_head hd
    exact ⟨c, _, by rw [List.append_assoc, skip_blanks ha, List.cons_append, List.cons_append, skip_cons hs], hn⟩
  | more ha hd hb he =>
    obtain ⟨c, t, rfl, hs, hn⟩ := denotes_head hd
    exact ⟨c, _, by rw [List.append_assoc, skip_blanks ha, List.cons_append, List.cons_append, skip_cons hs], hn⟩

theorem members_head {cs : List Char} {ms : List (String × Any)} (h : Members cs ms) (r : List Char) :
    ∃ t, skip (cs ++ r) = '"' :: t := by
  cases h with
  | one ha => exact ⟨_, by rw [List.append_assoc, skip_blanks ha, List.cons_append, skip_cons (by decide)]⟩
  | more ha => exact ⟨_, by rw [List.append_assoc, skip_blanks ha, List.cons_append, skip_cons (by decide)]⟩

theorem scanElements_skip (n d : Nat) (cs : List Char) : scanElements n d (skip cs) = scanElements n d cs := by
  obtain ⟨a, ha, e⟩ := skip_split cs
  cases n with
  | zero => simp [scanElements]
  | succ n =>
    conv => rhs; rw [e]
    rw [scanElements, scanElements, scanValue_blanks ha]

theorem scanMembers_skip (n d : Nat) (cs : List Char) : scanMembers n d (skip cs) = scanMembers n d cs := by
  obtain ⟨a, ha, e⟩ := skip_split cs
  conv => rhs; rw [e]
  rw [scanMembers_blanks ha]

theorem scanValue_number {c : Char} {r : List Char} (hc : c = '-' ∨ c.isDigit = true) (n d : Nat) :
    scanValue (n + 1) d (c :: r) = (scanNumber (c :: r)).map (fun p => (.num (String.ofList p.1), p.2)) := by
  have key : ∀ x : Char, (x = '-' ∨ x.isDigit = true) = False → c ≠ x := by
    rintro x hx rfl
    rw [← hx]; exact hc
  have hs : isSpace c = false := by
    cases hx : isSpace c with
    | false => rfl
    | true =>
      rcases isSpace_iff.1 hx with rfl | rfl | rfl | rfl <;> rcases hc with hc | hc <;> revert hc <;> decide
  have k1 := key 'n' (by simp)
  have k2 := key 't' (by simp)
  have k3 := key 'f' (by simp)
  have k4 := key '"' (by simp)
  have k5 := key '[' (by simp)
  have k6 := key '{' (by simp)
  rw [scanValue, skip_cons hs]
  split <;> rename_i e
  · cases e
  · cases e; exact absurd rfl k1
  · cases e; exact absurd rfl k2
  · cases e; exact absurd rfl k3
  · cases e; exact absurd rfl k4
  · cases e; exact absurd rfl k5
  · cases e; exact absurd rfl k6
  · cases e; rfl

/-- What the scanner does on a text of a value. -/
def VOk (cs : List Char) (j : Any) : Prop :=
  ∀ n d r, 2 * cs.length + 1 ≤ n → depth j ≤ d → Ends r → scanValue n d (cs ++ r) = some (j, r)

def EOk (cs : List Char) (xs : List Any) : Prop :=
  ∀ n d r, 2 * cs.length + 2 ≤ n → depthList xs ≤ d → scanElements n d (cs ++ ']' :: r) = some (xs, r)

def MOk (cs : List Char) (ms : List (String × Any)) : Prop :=
  ∀ n d r, 2 * cs.length + 2 ≤ n → depthMembers ms ≤ d → scanMembers n d (cs ++ '}' :: r) = some (ms, r)

theorem vok_array {cs : List Char} {xs : List Any} (he : Elements cs xs) (ih : EOk cs xs) :
    VOk ('[' :: (cs ++ [']'])) (.arr xs) := by
  intro n d r hn hd _
  match n, hn, d, hd with
  | n + 1, hn, d + 1, hd =>
    simp only [List.length_cons, List.length_append, List.length_nil] at hn
    simp only [depth] at hd
    simp only [List.cons_append, List.append_assoc, List.nil_append]
    rw [scanValue, skip_cons (by decide)]
    obtain ⟨c, t, e, hc⟩ := elements_head he (']' :: r)
    have := ih n d r (by omega) (by omega)
    rw [← scanElements_skip, e] at this
    simp only [e]
    split
    · rename_i e2; cases e2; exact absurd rfl hc
    · rw [this]; rfl

theorem vok_object {cs : List Char} {ms : List (String × Any)} (he : Members cs ms) (ih : MOk cs ms) :
    VOk ('{' :: (cs ++ ['}'])) (.obj ms) := by
  intro n d r hn hd _
  match n, hn, d, hd with
  | n + 1, hn, d + 1, hd =>
    simp only [List.length_cons, List.length_append, List.length_nil] at hn
    simp only [depth] at hd
    simp only [List.cons_append, List.append_assoc, List.nil_append]
    rw [scanValue, skip_cons (by decide)]
    obtain ⟨t, e⟩ := members_head he ('}' :: r)
    have := ih n d r (by omega) (by omega)
    rw [← scanMembers_skip, e] at this
    simp only [e]
    split
    · rename_i e2; cases e2
    · rw [this]; rfl

theorem eok_one {a cs b : List Char} {x : Any} (ha : Blanks a) (hb : Blanks b) (ih : VOk cs x) :
    EOk (a ++ (cs ++ b)) [x] := by
  intro n d r hn hd
  match n, hn with
  | n + 1, hn =>
    simp only [List.length_append] at hn
    simp only [depthList] at hd
    simp only [List.append_assoc]
    rw [scanElements, scanValue_blanks ha, ih n d _ (by omega) (by omega) (ends_append hb (ends_cons (by decide) _))]
    simp only [skip_blanks hb, skip_cons (show isSpace ']' = false by decide)]

theorem eok_more {a cs b rest : List Char} {x : Any} {xs : List Any} (ha : Blanks a) (hb : Blanks b) (ih : VOk cs x)
    (ihr : EOk rest xs) : EOk (a ++ (cs ++ (b ++ ',' :: rest))) (x :: xs) := by
  intro n d r hn hd
  match n, hn with
  | n + 1, hn =>
    simp only [List.length_append, List.length_cons] at hn
    simp only [depthList] at hd
    simp only [List.append_assoc, List.cons_append]
    rw [scanElements, scanValue_blanks ha, ih n d _ (by omega) (by omega) (ends_append hb (ends_cons (by decide) _))]
    simp only [skip_blanks hb, skip_cons (show isSpace ',' = false by decide)]
    rw [ihr n d r (by omega) (by omega)]
    rfl

theorem mok_one {a k b c cs d : List Char} {is : List Item} {x : Any} (ha : Blanks a) (hk : Body k is) (hb : Blanks b)
    (hc : Blanks c) (hd : Blanks d) (ih : VOk cs x) :
    MOk (a ++ '"' :: (k ++ '"' :: (b ++ ':' :: (c ++ (cs ++ d))))) [(String.ofList (chars is), x)] := by
  intro n dd r hn hdd
  match n, hn with
  | n + 1, hn =>
    simp only [List.length_append, List.length_cons] at hn
    simp only [depthMembers] at hdd
    simp only [List.append_assoc, List.cons_append]
    rw [scanMembers, skip_blanks ha, skip_cons (by decide)]
    simp only [scanString_complete hk, skip_blanks hb, skip_cons (show isSpace ':' = false by decide)]
    rw [scanValue_blanks hc, ih n dd _ (by omega) (by omega) (ends_append hd (ends_cons (by decide) _))]
    simp only [skip_blanks hd, skip_cons (show isSpace '}' = false by decide)]

theorem mok_more {a k b c cs d rest : List Char} {is : List Item} {x : Any} {ms : List (String × Any)} (ha : Blanks a)
    (hk : Body k is) (hb : Blanks b) (hc : Blanks c) (hd : Blanks d) (ih : VOk cs x) (ihr : MOk rest ms) :
    MOk (a ++ '"' :: (k ++ '"' :: (b ++ ':' :: (c ++ (cs ++ (d ++ ',' :: rest))))))
      ((String.ofList (chars is), x) :: ms) := by
  intro n dd r hn hdd
  match n, hn with
  | n + 1, hn =>
    simp only [List.length_append, List.length_cons] at hn
    simp only [depthMembers] at hdd
    simp only [List.append_assoc, List.cons_append]
    rw [scanMembers, skip_blanks ha, skip_cons (by decide)]
    simp only [scanString_complete hk, skip_blanks hb, skip_cons (show isSpace ':' = false by decide)]
    rw [scanValue_blanks hc, ih n dd _ (by omega) (by omega) (ends_append hd (ends_cons (by decide) _))]
    simp only [skip_blanks hd, skip_cons (show isSpace ',' = false by decide)]
    rw [ihr n dd r (by omega) (by omega)]
    rfl

theorem vok_all {cs : List Char} {j : Any} (h : Denotes cs j) : VOk cs j := by
  refine Denotes.rec (motive_1 := fun cs j _ => VOk cs j) (motive_2 := fun cs xs _ => EOk cs xs)
    (motive_3 := fun cs ms _ => MOk cs ms) ?_ ?_ ?_ ?_ ?_ ?_ ?_ ?_ ?_ ?_ ?_ ?_ ?_ h
  · intro n d r hn _ _
    match n, hn with
    | n + 1, hn => simp [scanValue, skip, isSpace]
  · intro n d r hn _ _
    match n, hn with
    | n + 1, hn => simp [scanValue, skip, isSpace]
  · intro n d r hn _ _
    match n, hn with
    | n + 1, hn => simp [scanValue, skip, isSpace]
  · intro cs h n d r hn _ hr
    match n, hn with
    | n + 1, hn =>
      obtain ⟨c, t, rfl, hc⟩ := number_head h
      have := scanNumber_complete h hr
      rw [List.cons_append] at this ⊢
      rw [scanValue_number hc, this]
      rfl
  · intro cs is h n d r hn _ _
    match n, hn with
    | n + 1, hn =>
      simp only [List.cons_append, List.append_assoc, List.nil_append]
      rw [scanValue, skip_cons (by decide)]
      simp only [scanString_complete h]
      rfl
  · intro ws h n d r hn hd _
    match n, hn, d, hd with
    | n + 1, hn, d + 1, hd =>
      simp only [List.cons_append, List.append_assoc, List.nil_append]
      rw [scanValue, skip_cons (by decide)]
      simp only [skip_blanks h, skip_cons (show isSpace ']' = false by decide)]
  · intro cs xs h ih; exact vok_array h ih
  · intro ws h n d r hn hd _
    match n, hn, d, hd with
    | n + 1, hn, d + 1, hd =>
      simp only [List.cons_append, List.append_assoc, List.nil_append]
      rw [scanValue, skip_cons (by decide)]
      simp only [skip_blanks h, skip_cons (show isSpace '}' = false by decide)]
  · intro cs ms h ih; exact vok_object h ih
  · intro a cs b x ha _ hb ih; exact eok_one ha hb ih
  · intro a cs b rest x xs ha _ hb _ ih ihr; exact eok_more ha hb ih ihr
  · intro a k b c cs d is x ha hk hb hc _ hd ih; exact mok_one ha hk hb hc hd ih
  · intro a k b c cs d rest is x ms ha hk hb hc _ hd _ ih ihr; exact mok_more ha hk hb hc hd ih ihr

theorem parse_complete {cs : List Char} {j : Any} {d : Nat} (h : JSONText cs j) (hd : depth j ≤ d) :
    parseWithin d cs = some j := by
  obtain ⟨a, t, b, rfl, ha, ht, hb⟩ := h
  have hb' : Ends b := by
    have := ends_append hb ends_nil
    simpa using this
  unfold parseWithin
  rw [scanValue_blanks ha, vok_all ht _ d b (by simp only [List.length_append]; omega) hd hb']
  simp only [skip_all hb, if_true]

/-! ## What is accepted is JSON -/

/-- An accepted value. -/
def VSound (n : Nat) : Prop := ∀ d cs j r, scanValue n d cs = some (j, r) →
  ∃ a t, cs = a ++ (t ++ r) ∧ Blanks a ∧ Denotes t j ∧ depth j ≤ d

/-- Accepted elements. -/
def ESound (n : Nat) : Prop := ∀ d cs xs r, scanElements n d cs = some (xs, r) →
  ∃ t, cs = t ++ ']' :: r ∧ Elements t xs ∧ depthList xs ≤ d

/-- Accepted members. -/
def MSound (n : Nat) : Prop := ∀ d cs ms r, scanMembers n d cs = some (ms, r) →
  ∃ t, cs = t ++ '}' :: r ∧ Members t ms ∧ depthMembers ms ≤ d

theorem vsound_step {n : Nat} (he : ESound n) (hm : MSound n) : VSound (n + 1) := by
  intro d cs j r h
  obtain ⟨a, ha, e⟩ := skip_split cs
  rw [scanValue] at h
  generalize skip cs = s at h e
  subst e
  split at h
  · cases h
  · cases h; exact ⟨a, _, rfl, ha, .null, Nat.zero_le _⟩
  · cases h; exact ⟨a, _, rfl, ha, .true, Nat.zero_le _⟩
  · cases h; exact ⟨a, _, rfl, ha, .false, Nat.zero_le _⟩
  · rw [Option.map_eq_some_iff] at h
    obtain ⟨⟨s, r'⟩, h, e⟩ := h
    cases e
    obtain ⟨b, is, hb, rfl, rfl⟩ := scanString_sound h
    exact ⟨a, _, by simp, ha, .string hb, Nat.zero_le _⟩
  · rename_i t
    split at h
    · cases h
    · rename_i d
      obtain ⟨a', ha', e'⟩ := skip_split t
      split at h
      · rename_i e2
        rw [e2] at e'
        cases h
        exact ⟨a, _, by rw [e']; simp, ha, .emptyArray ha', by simp [depth, depthList]⟩
      · rw [Option.map_eq_some_iff] at h
        obtain ⟨⟨xs, r'⟩, h, e⟩ := h
        cases e
        rw [scanElements_skip] at h
        obtain ⟨t', rfl, hx, hd⟩ := he _ _ _ _ h
        exact ⟨a, _, by simp, ha, .array hx, by simp only [depth]; omega⟩
  · rename_i t
    split at h
    · cases h
    · rename_i d
      obtain ⟨a', ha', e'⟩ := skip_split t
      split at h
      · rename_i e2
        rw [e2] at e'
        cases h
        exact ⟨a, _, by rw [e']; simp, ha, .emptyObject ha', by simp [depth, depthMembers]⟩
      · rw [Option.map_eq_some_iff] at h
        obtain ⟨⟨xs, r'⟩, h, e⟩ := h
        cases e
        rw [scanMembers_skip] at h
        obtain ⟨t', rfl, hx, hd⟩ := hm _ _ _ _ h
        exact ⟨a, _, by simp, ha, .object hx, by simp only [depth]; omega⟩
  · rw [Option.map_eq_some_iff] at h
    obtain ⟨⟨s, r'⟩, h, e⟩ := h
    cases e
    obtain ⟨hN, e⟩ := scanNumber_sound h
    exact ⟨a, _, by rw [e], ha, .number hN, Nat.zero_le _⟩

theorem esound_step {n : Nat} (hv : VSound n) (he : ESound n) : ESound (n + 1) := by
  intro d cs xs r h
  rw [scanElements] at h
  split at h
  · cases h
  · rename_i v r1 h1
    obtain ⟨a, t, rfl, ha, ht, hd⟩ := hv _ _ _ _ h1
    obtain ⟨b, hb, e⟩ := skip_split r1
    split at h
    · rename_i r2 e2
      rw [e2] at e
      rw [Option.map_eq_some_iff] at h
      obtain ⟨⟨xs', r'⟩, h, e3⟩ := h
      cases e3
      obtain ⟨t', rfl, hx, hd'⟩ := he _ _ _ _ h
      exact ⟨_, by rw [e]; simp, .more ha ht hb hx, by simp only [depthList]; omega⟩
    · rename_i r2 e2
      rw [e2] at e
      cases h
      exact ⟨_, by rw [e]; simp, .one ha ht hb, by simp only [depthList]; omega⟩
    · cases h

theorem msound_step {n : Nat} (hv : VSound n) (hm : MSound n) : MSound (n + 1) := by
  intro d cs ms r h
  obtain ⟨a, ha, e0⟩ := skip_split cs
  rw [scanMembers] at h
  split at h
  · rename_i s es
    rw [es] at e0
    split at h
    · cases h
    · rename_i k r1 hk
      obtain ⟨kb, is, hkb, rfl, rfl⟩ := scanString_sound hk
      obtain ⟨b, hb, e1⟩ := skip_split r1
      split at h
      · rename_i r2 e2
        rw [e2] at e1
        split at h
        · cases h
        · rename_i v r3 h1
          obtain ⟨c, t, rfl, hc, ht, hd⟩ := hv _ _ _ _ h1
          obtain ⟨dd, hdd, e3⟩ := skip_split r3
          split at h
          · rename_i r4 e4
            rw [e4] at e3
            rw [Option.map_eq_some_iff] at h
            obtain ⟨⟨xs', r'⟩, h, e5⟩ := h
            cases e5
            obtain ⟨t', rfl, hx, hd'⟩ := hm _ _ _ _ h
            exact ⟨_, by rw [e0, e1, e3]; simp, .more ha hkb hb hc ht hdd hx, by simp only [depthMembers]; omega⟩
          · rename_i r4 e4
            rw [e4] at e3
            cases h
            exact ⟨_, by rw [e0, e1, e3]; simp, .one ha hkb hb hc ht hdd, by simp only [depthMembers]; omega⟩
          · cases h
      · cases h
  · cases h

theorem sound_all (n : Nat) : VSound n ∧ ESound n ∧ MSound n := by
  induction n with
  | zero =>
    refine ⟨?_, ?_, ?_⟩ <;> intro d cs x r h
    · simp [scanValue] at h
    · simp [scanElements] at h
    · simp [scanMembers] at h
  | succ n ih => exact ⟨vsound_step ih.2.1 ih.2.2, esound_step ih.1 ih.2.1, msound_step ih.1 ih.2.2⟩

theorem parse_sound {cs : List Char} {j : Any} {d : Nat} (h : parseWithin d cs = some j) : JSONText cs j ∧ depth j ≤ d := by
  unfold parseWithin at h
  split at h
  · rename_i v r hv
    split at h
    · rename_i hs
      cases h
      obtain ⟨a, t, rfl, ha, ht, hd⟩ := (sound_all _).1 _ _ _ _ hv
      exact ⟨⟨a, t, r, rfl, ha, ht, skip_nil hs⟩, hd⟩
    · cases h
  · cases h

theorem parse_iff {cs : List Char} {j : Any} {d : Nat} : parseWithin d cs = some j ↔ JSONText cs j ∧ depth j ≤ d :=
  ⟨parse_sound, fun h => parse_complete h.1 h.2⟩

/-- A text denotes at most one value. -/
theorem jsonText_unique {cs : List Char} {i j : Any} (hi : JSONText cs i) (hj : JSONText cs j) : i = j := by
  have h1 := parse_complete (d := max (depth i) (depth j)) hi (by omega)
  have h2 := parse_complete (d := max (depth i) (depth j)) hj (by omega)
  rw [h1] at h2
  exact Option.some.inj h2

end Verif.Text
