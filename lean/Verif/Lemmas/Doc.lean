import Verif.Spec.Doc
import Verif.Props.Path
import Verif.Props.Params
import Verif.Spec31

namespace Verif
open ParamSpec DocSpec
variable {S : Type}

theorem lowerRune_idem (c : Char) : lowerRune (lowerRune c) = lowerRune c := by
  have key : ∀ c : Char, ¬ ('A' ≤ c ∧ c ≤ 'Z') → c ≠ Char.ofNat 0x130 → c ≠ Char.ofNat 0x212A → lowerRune c = c := by
    intro c h1 h2 h3
    simp only [lowerRune, if_neg h1, if_neg h2, if_neg h3]
  by_cases h1 : 'A' ≤ c ∧ c ≤ 'Z'
  · have e : lowerRune c = Char.ofNat (c.toNat + 32) := by simp only [lowerRune, if_pos h1]
    rw [e]
    have a1 : 65 ≤ c.toNat := h1.1
    have a2 : c.toNat ≤ 90 := h1.2
    have hv : (c.toNat + 32).isValidChar := by left; omega
    have hn : (Char.ofNat (c.toNat + 32)).toNat = c.toNat + 32 := by
      simp only [Char.ofNat, hv, dif_pos]
      rfl
    apply key
    · rintro ⟨-, h⟩
      have h' : (Char.ofNat (c.toNat + 32)).toNat ≤ 90 := h
      omega
    · intro h
      have := congrArg Char.toNat h
      rw [hn] at this
      have e2 : (Char.ofNat 0x130).toNat = 304 := by decide
      omega
    · intro h
      have := congrArg Char.toNat h
      rw [hn] at this
      have e2 : (Char.ofNat 0x212A).toNat = 8490 := by decide
      omega
  · by_cases h2 : c = Char.ofNat 0x130
    · subst h2; decide
    · by_cases h3 : c = Char.ofNat 0x212A
      · subst h3; decide
      · rw [key c h1 h2 h3, key c h1 h2 h3]

theorem goToLower_idem (s : String) : goToLower (goToLower s) = goToLower s := by
  simp only [goToLower, String.toList_ofList, List.map_map]
  congr 1
  apply List.map_congr_left
  intro c _
  exact lowerRune_idem c

theorem sanitize_lower (m p : String) : sanitizeMethodPath (goToLower m) p = sanitizeMethodPath m p := by
  simp only [sanitizeMethodPath, goToLower_idem]

theorem sanitize_method {m p : String} {r : Sanitized} (h : sanitizeMethodPath m p = .ok r) :
    r.method = goToLower m ∧ r.method ∈ PathSpec.methods := by
  have h2 := (C01_methods m p).2.1 r h
  refine ⟨?_, h2.1⟩
  exact ((goToLower_eq_iff h2.1).mpr h2.2).symm

theorem ensureSomeResponse_completed (op : Operation S) : Completed op (ensureSomeResponse op) := by
  have hiff : HasResponses op ↔ ¬ (op.responses.codes.length = 0 ∧ op.responses.default = none) := by
    rw [GoMap.length_eq_zero_iff_get?]
    unfold HasResponses
    constructor
    · rintro (h | ⟨c, h⟩) ⟨h1, h2⟩
      · exact h h2
      · exact h (h1 c)
    · intro h
      by_cases hd : op.responses.default = none
      · right
        exact Classical.byContradiction fun hne => h ⟨fun k => Classical.byContradiction fun hk => hne ⟨k, hk⟩, hd⟩
      · exact .inl hd
  constructor
  · intro h
    simp only [ensureSomeResponse, if_neg (hiff.mp h)]
  · intro h
    have h' : op.responses.codes.length = 0 ∧ op.responses.default = none :=
      Classical.byContradiction fun hn => h (hiff.mpr hn)
    simp only [ensureSomeResponse, if_pos h']
    have : op.responses.codes = [] := List.length_eq_zero_iff.mp h'.1
    simp [this, h'.2, GoMap.set]

theorem runSetups_const (op op0 : Operation S) : runSetups [fun _ => (op, none)] op0 = (op, none) := rfl

theorem runSetups_none_iff (fs : List (Setup S)) (op op' : Operation S) :
    runSetups fs op = (op', none) ↔ AllSucceed fs op op' := by
  induction fs generalizing op with
  | nil =>
    constructor
    · intro h; cases h; exact .nil
    · intro h; cases h; rfl
  | cons f fs ih =>
    cases hf : f op with
    | mk o err =>
      cases err with
      | none =>
        simp only [runSetups, hf]
        rw [ih]
        constructor
        · exact .cons hf
        · intro h
          cases h with
          | cons h1 h2 => rw [hf] at h1; cases h1; exact h2
      | some e =>
        simp only [runSetups, hf]
        constructor
        · intro h; cases h
        · intro h
          cases h with
          | cons h1 h2 => rw [hf] at h1; cases h1

theorem runSetups_error {pre post : List (Setup S)} {f : Setup S} {op op1 op2 : Operation S} {e : String}
    (h1 : AllSucceed pre op op1) (h2 : f op1 = (op2, some e)) :
    runSetups (pre ++ f :: post) op = (op2, some e) := by
  induction h1 with
  | nil => simp only [List.nil_append, runSetups, h2]
  | cons h _ ih => simp only [List.cons_append, runSetups, h, ih h2]

theorem ensureSomeResponse_parameters (op : Operation S) : (ensureSomeResponse op).parameters = op.parameters := by
  unfold ensureSomeResponse; split <;> rfl

theorem validated_consistent {m p : String} {r : Sanitized} {op : Operation S}
    (h : sanitizeMethodPath m p = .ok r)
    (hv : validatePathParams op.parameters (pathParamsMap r.params) = none) :
    Consistent r.path r.method op := by
  have hs := C05_validation_sound _ _ hv
  obtain ⟨qs, hd, hnp, hn, -⟩ := sanitized_decomposes h
  refine ⟨(sanitize_method h).2, qs, hd, hnp, hs.1, ?_, ?_⟩ <;> rw [hn]
  · intro q hq hp; exact mem_pathParamsMap.mp (hs.2 q hq hp)
  · intro hst n hn
    have := (C05_validation_exact _ _ hst).mp hv
    exact this.2.2 n (mem_pathParamsMap.mpr hn)

/-! ## 3.0 -/

namespace V30

theorem op?_set (s : Spec S) (path method : String) (op : Operation S) (p m : String) :
    Spec.op? { s with paths := s.paths.set path { s.pathItem path with ops := (s.pathItem path).ops.set method op } } p m
      = if p = path ∧ m = method then some op else s.op? p m := by
  unfold Spec.op? Spec.pathItem
  simp only [GoMap.get?_set]
  by_cases hp : p = path
  · subst hp
    simp only [if_true, Option.getD_some, GoMap.get?_set, true_and]
  · simp [hp]

end V30

/-! ## 3.1 -/

namespace V31

theorem upper_methods : goToUpper "get" = "GET" ∧ goToUpper "put" = "PUT" ∧ goToUpper "post" = "POST" ∧
    goToUpper "delete" = "DELETE" ∧ goToUpper "options" = "OPTIONS" ∧ goToUpper "head" = "HEAD" ∧
    goToUpper "patch" = "PATCH" ∧ goToUpper "trace" = "TRACE" := by decide +kernel

theorem setOperation_known {m : String} (hm : m ∈ PathSpec.methods) (pi : PathItem S) (op : Operation S) :
    ∃ pi', pi.setOperation m op = .ok pi' ∧ pi'.summary = pi.summary ∧ pi'.parameters = pi.parameters ∧
      ∀ m' ∈ PathSpec.methods, pi'.operation m' = if m' = m then .ok (some op) else pi.operation m' := by
  obtain ⟨u1, u2, u3, u4, u5, u6, u7, u8⟩ := upper_methods
  simp only [PathSpec.methods, List.mem_cons, List.not_mem_nil, or_false] at hm
  rcases hm with rfl | rfl | rfl | rfl | rfl | rfl | rfl | rfl <;>
    simp [PathItem.setOperation, PathItem.operation, PathSpec.methods, u1, u2, u3, u4, u5, u6, u7, u8]

theorem operation_known {m : String} (hm : m ∈ PathSpec.methods) (pi : PathItem S) :
    ∃ o, pi.operation m = .ok o := by
  obtain ⟨u1, u2, u3, u4, u5, u6, u7, u8⟩ := upper_methods
  simp only [PathSpec.methods, List.mem_cons, List.not_mem_nil, or_false] at hm
  rcases hm with rfl | rfl | rfl | rfl | rfl | rfl | rfl | rfl <;>
    simp [PathItem.operation, u1, u2, u3, u4, u5, u6, u7, u8]

theorem pathsEns_pathItem (s : Spec S) (p : String) : s.pathsEns.pathItem p = s.pathItem p := by
  simp [Spec.pathsEns, Spec.pathItem]

theorem pathsEns_op? (s : Spec S) (p m : String) : s.pathsEns.op? p m = s.op? p m := by
  simp only [Spec.op?, pathsEns_pathItem]

theorem op?_some {s : Spec S} {p m : String} {o : Operation S} (h : s.op? p m = some o) :
    (s.pathItem p).operation m = .ok (some o) := by
  unfold Spec.op? at h
  split at h
  · rename_i o' e; rw [e, h]
  · cases h

theorem op?_set {s : Spec S} {path method : String} {op : Operation S} {pi : PathItem S}
    (hm : method ∈ PathSpec.methods)
    (h : (s.pathItem path).setOperation method op = .ok pi) (p m : String) (hm' : m ∈ PathSpec.methods) :
    Spec.op? { s with paths := some ((s.paths.getD []).set path pi) } p m
      = if p = path ∧ m = method then some op else s.op? p m := by
  obtain ⟨pi', e, -, -, hop⟩ := setOperation_known hm (s.pathItem path) op
  rw [e] at h
  cases h
  unfold Spec.op?
  have hpi : ∀ p, Spec.pathItem { s with paths := some ((s.paths.getD []).set path pi) } p
      = if p = path then pi else s.pathItem p := by
    intro p
    unfold Spec.pathItem
    simp only [Option.getD_some, GoMap.get?_set]
    by_cases hp : p = path <;> simp [hp]
  rw [hpi]
  by_cases hp : p = path
  · subst hp
    simp only [if_true, true_and]
    rw [hop m hm']
    by_cases he : m = method <;> simp [he]
  · simp [hp]

end V31
end Verif
