import Verif.Spec.Reflect

/-!
# Upper-case names of methods
-/

namespace Verif
open PathSpec

theorem upperRune_iff {c d D : Char} (h1 : 'a' ≤ d) (h2 : d ≤ 'z') (hD : D.toNat + 32 = d.toNat) (hi : d ≠ 'i') (hk : d ≠ 'k')
    (hs : d ≠ 's') : upperRune c = D ↔ SpellsLetter c d := by
  have hd1 : 97 ≤ d.toNat := h1
  have hd2 : d.toNat ≤ 122 := h2
  have inj : ∀ {a b : Char}, a.toNat = b.toNat → a = b := fun h => Char.ext (UInt32.toNat_inj.mp h)
  unfold upperRune SpellsLetter
  split
  · rename_i hc
    have a1 : 97 ≤ c.toNat := hc.1
    have a2 : c.toNat ≤ 122 := hc.2
    have hv : (c.toNat - 32).isValidChar := by left; omega
    have hcap : (Char.ofNat (c.toNat - 32)).toNat = c.toNat - 32 := by
      simp only [Char.ofNat, hv, dif_pos]
      rfl
    constructor
    · intro e
      refine .inl (inj ?_)
      rw [← e, hcap] at hD
      omega
    · rintro (rfl | ⟨_, _, (h : c.toNat ≤ 90)⟩ | ⟨h, _⟩ | ⟨h, _⟩)
      · refine inj ?_
        rw [hcap]
        omega
      · omega
      · exact absurd h hi
      · exact absurd h hk
  · rename_i hc
    split
    · rename_i e
      subst e
      constructor
      · rintro rfl
        exact absurd (inj (hD.symm.trans (by decide)) : d = 'i') hi
      · rintro (rfl | ⟨_, _, h⟩ | ⟨h, _⟩ | ⟨h, _⟩)
        · exact absurd h2 (by decide)
        · exact absurd h (by decide)
        · exact absurd h hi
        · exact absurd h hk
    · split
      · rename_i e
        subst e
        constructor
        · rintro rfl
          exact absurd (inj (hD.symm.trans (by decide)) : d = 's') hs
        · rintro (rfl | ⟨_, _, h⟩ | ⟨h, _⟩ | ⟨h, _⟩)
          · exact absurd h2 (by decide)
          · exact absurd h (by decide)
          · exact absurd h hi
          · exact absurd h hk
      · constructor
        · rintro rfl
          refine .inr (.inl ⟨hD, ?_, ?_⟩)
          · show 65 ≤ c.toNat
            omega
          · show c.toNat ≤ 90
            omega
        · rintro (rfl | ⟨h, _⟩ | ⟨h, _⟩ | ⟨h, _⟩)
          · exact absurd ⟨h1, h2⟩ hc
          · exact inj (by omega)
          · exact absurd h hi
          · exact absurd h hk

/-- `D` is the capital of `d`, letter by letter, and the only characters with that capital are the two ASCII letters. -/
def Capitals : List Char → List Char → Prop
  | [], [] => True
  | d :: ds, D :: Ds => ('a' ≤ d ∧ d ≤ 'z' ∧ D.toNat + 32 = d.toNat ∧ d ≠ 'i' ∧ d ≠ 'k' ∧ d ≠ 's') ∧ Capitals ds Ds
  | _, _ => False

theorem upper_list_iff {cs ds Ds : List Char} (h : Capitals ds Ds) : cs.map upperRune = Ds ↔ Spells cs ds := by
  induction cs generalizing ds Ds with
  | nil =>
    cases ds <;> cases Ds
    · simp [Spells]
    · exact absurd h (by simp [Capitals])
    · exact absurd h (by simp [Capitals])
    · simp [Spells]
  | cons c cs ih =>
    cases ds <;> cases Ds
    · simp [Spells]
    · exact absurd h (by simp [Capitals])
    · exact absurd h (by simp [Capitals])
    · simp only [List.map_cons, List.cons.injEq, Spells]
      obtain ⟨⟨h1, h2, h3, h4, h5, h6⟩, h⟩ := h
      rw [upperRune_iff h1 h2 h3 h4 h5 h6, ih h]

theorem goToUpper_eq_iff {m n N : String} (h : Capitals n.toList N.toList) :
    goToUpper m = N ↔ MethodIs m n := by
  unfold MethodIs
  rw [← upper_list_iff h]
  constructor
  · rintro rfl; simp [goToUpper]
  · intro e; simp [goToUpper, e]

theorem upper_head (m : String) : goToUpper m = "HEAD" ↔ MethodIs m "head" :=
  goToUpper_eq_iff (by simp [Capitals])

theorem bodyless_iff (m : String) : bodyless m = true ↔ Bodyless m := by
  have hg : goToUpper m = "GET" ↔ MethodIs m "get" := goToUpper_eq_iff (by simp [Capitals])
  have hd : goToUpper m = "DELETE" ↔ MethodIs m "delete" := goToUpper_eq_iff (by simp [Capitals])
  have ht : goToUpper m = "TRACE" ↔ MethodIs m "trace" := goToUpper_eq_iff (by simp [Capitals])
  simp only [bodyless, Bodyless, bodylessMethods, Bool.or_eq_true, decide_eq_true_eq, List.mem_cons, List.not_mem_nil, or_false,
    exists_eq_or_imp, exists_eq_left, hg, upper_head, hd, ht, or_assoc]

end Verif
