import Verif.Props.Codec
import Verif.Lemmas.Load
import Verif.Spec.Names

/-!
# Which field a member is read into (C101)
-/

namespace Verif.Codec
open Verif.Spec

/-- The folding of one character. -/
def foldChar (c : Char) : Char :=
  if c = Char.ofNat 0x17F then 'S'
  else if c = Char.ofNat 0x212A then 'K'
  else if 'a' ≤ c ∧ c ≤ 'z' then Char.ofNat (c.toNat - 32)
  else c

theorem foldKey_eq (k : String) : foldKey k = k.toList.map foldChar := rfl

theorem lower_mem (c : Char) (h1 : 'a' ≤ c) (h2 : c ≤ 'z') : c ∈ letters.flatten := by
  have h1 : 97 ≤ c.toNat := h1
  have h2 : c.toNat ≤ 122 := h2
  have hall : ∀ n, n < 26 → Char.ofNat (97 + n) ∈ letters.flatten := by decide +kernel
  have := hall (c.toNat - 97) (by omega)
  rw [show 97 + (c.toNat - 97) = c.toNat by omega, Char.ofNat_toNat] at this
  exact this

theorem foldChar_other {c : Char} (h : c ∉ letters.flatten) : foldChar c = c := by
  unfold foldChar
  split
  · rename_i e; subst e; exact absurd (by decide +kernel) h
  · split
    · rename_i e; subst e; exact absurd (by decide +kernel) h
    · split
      · rename_i e; exact absurd (lower_mem c e.1 e.2) h
      · rfl

theorem foldChar_mem {c : Char} (h : c ∈ letters.flatten) : foldChar c ∈ letters.flatten := by
  have : ∀ c ∈ letters.flatten, foldChar c ∈ letters.flatten := by decide +kernel
  exact this c h

theorem foldChar_alike (c d : Char) : foldChar c = foldChar d ↔ Alike c d := by
  have hin : ∀ {c d : Char} {l}, l ∈ letters → c ∈ l → c ∈ letters.flatten := by
    intro c _ l hl hc
    exact List.mem_flatten.mpr ⟨l, hl, hc⟩
  by_cases hc : c ∈ letters.flatten
  · by_cases hd : d ∈ letters.flatten
    · have : ∀ c ∈ letters.flatten, ∀ d ∈ letters.flatten,
          (foldChar c = foldChar d ↔ (c = d ∨ ∃ l ∈ letters, c ∈ l ∧ d ∈ l)) := by decide +kernel
      exact this c hc d hd
    · rw [foldChar_other hd]
      constructor
      · intro e; exact absurd (e ▸ foldChar_mem hc) hd
      · rintro (rfl | ⟨l, hl, -, h⟩)
        · exact absurd hc hd
        · exact absurd (hin (d := d) hl h) hd
  · rw [foldChar_other hc]
    by_cases hd : d ∈ letters.flatten
    · constructor
      · intro e; exact absurd (e ▸ foldChar_mem hd) hc
      · rintro (rfl | ⟨l, hl, h, -⟩)
        · exact absurd hd hc
        · exact absurd (hin (d := d) hl h) hc
    · rw [foldChar_other hd]
      constructor
      · exact .inl
      · rintro (rfl | ⟨l, hl, h, -⟩)
        · rfl
        · exact absurd (hin (d := d) hl h) hc

theorem foldList_alike : ∀ cs ds : List Char, cs.map foldChar = ds.map foldChar ↔ SameLetters cs ds
  | [], [] => ⟨fun _ => .nil, fun _ => rfl⟩
  | [], _ :: _ => ⟨nofun, nofun⟩
  | _ :: _, [] => ⟨nofun, nofun⟩
  | c :: cs, d :: ds => by
    simp only [List.map_cons, List.cons.injEq]
    rw [foldChar_alike, foldList_alike cs ds]
    exact ⟨fun h => .cons h.1 h.2, fun h => by cases h with | cons a b => exact ⟨a, b⟩⟩

/-- C101: keys are compared up to case, which is what `foldKey` stands for wherever it is used. -/
theorem C101_same_name (a b : String) : foldKey a = foldKey b ↔ SameName a b := by
  rw [foldKey_eq, foldKey_eq]
  exact foldList_alike _ _

theorem find_first {α : Type} {p : α → Bool} {P : α → Prop} (hp : ∀ a, p a = true ↔ P a) (l : List α) (x : α) :
    l.find? p = some x ↔ FirstOf P l x := by
  rw [List.find?_eq_some_iff_append]
  constructor
  · rintro ⟨h, pre, post, e, hn⟩
    exact ⟨pre, post, e, (hp x).mp h, fun y hy hP => by have := hn y hy; rw [(hp y).mpr hP] at this; cases this⟩
  · rintro ⟨pre, post, e, h, hn⟩
    refine ⟨(hp x).mpr h, pre, post, e, fun y hy => ?_⟩
    cases hb : p y with
    | false => rfl
    | true => exact absurd ((hp y).mp hb) (hn y hy)

theorem find_none {α : Type} {p : α → Bool} {P : α → Prop} (hp : ∀ a, p a = true ↔ P a) (l : List α) :
    l.find? p = none ↔ ∀ x ∈ l, ¬ P x := by
  rw [List.find?_eq_none]
  exact forall_congr' fun x => imp_congr_right fun _ => not_congr (hp x)

theorem key_iff (k : String) (f : Field) : (f.key == k) = true ↔ f.key = k := by simp

theorem fold_iff (k : String) (f : Field) : (foldKey f.key == foldKey k) = true ↔ SameName f.key k := by
  rw [beq_iff_eq]
  exact C101_same_name _ _

theorem sameName_refl (k : String) : SameName k k := (C101_same_name k k).mp rfl

/-- C101: a member is read into the field that it is meant for, and into none if it is meant for none, which is
if no field has its name up to case. -/
theorem C101_field (fs : List Field) (k : String) :
    (∀ f, fieldOf fs k = some f ↔ MeantFor fs k f) ∧ (fieldOf fs k = none ↔ ∀ g ∈ fs, ¬ SameName g.key k) := by
  unfold fieldOf
  cases he : fs.find? (fun f => f.key == k) with
  | some g =>
    have hg := (find_first (key_iff k) fs g).mp he
    have hmem : ∃ x ∈ fs, x.key = k := by
      obtain ⟨pre, post, e, hk, -⟩ := hg
      exact ⟨g, by rw [e]; simp, hk⟩
    refine ⟨fun f => ?_, ?_⟩
    · simp only [Option.some.injEq]
      constructor
      · rintro rfl; exact .inl hg
      · rintro (h | h)
        · rw [← find_first (key_iff k) fs f, he] at h; cases h; rfl
        · obtain ⟨x, hx, e⟩ := hmem; exact absurd e (h.1 x hx)
    · simp only [reduceCtorEq, false_iff]
      intro h
      obtain ⟨x, hx, e⟩ := hmem
      exact h x hx (e ▸ sameName_refl _)
  | none =>
    have hn := (find_none (key_iff k) fs).mp he
    refine ⟨fun f => ?_, ?_⟩
    · simp only
      rw [find_first (fold_iff k) fs f]
      constructor
      · exact fun h => .inr ⟨hn, h⟩
      · rintro (⟨pre, post, e, hk, -⟩ | h)
        · exact absurd hk (hn f (by rw [e]; simp))
        · exact h.2
    · simp only
      exact find_none (fold_iff k) fs

end Verif.Codec
