import Verif.Codec.Basic

/-! Boolean equality of JSON values and Go values, to check concrete cases in the kernel. -/

namespace Verif.Codec

mutual
/-- Equality of JSON values. -/
def eqA : Any → Any → Bool
  | .null, .null => true
  | .bool a, .bool b => a == b
  | .num a, .num b => a == b
  | .str a, .str b => a == b
  | .arr a, .arr b => eqAs a b
  | .obj a, .obj b => eqAm a b
  | _, _ => false
/-- Equality of lists of JSON values. -/
def eqAs : List Any → List Any → Bool
  | [], [] => true
  | a :: as, b :: bs => eqA a b && eqAs as bs
  | _, _ => false
/-- Equality of members. -/
def eqAm : List (String × Any) → List (String × Any) → Bool
  | [], [] => true
  | (k, a) :: as, (l, b) :: bs => k == l && eqA a b && eqAm as bs
  | _, _ => false
end

mutual
theorem eqA_sound : ∀ {a b : Any}, eqA a b = true → a = b
  | .null, .null, _ => rfl
  | .bool a, .bool b, h => by simp only [eqA, beq_iff_eq] at h; rw [h]
  | .num a, .num b, h => by simp only [eqA, beq_iff_eq] at h; rw [h]
  | .str a, .str b, h => by simp only [eqA, beq_iff_eq] at h; rw [h]
  | .arr a, .arr b, h => by simp only [eqA] at h; rw [eqAs_sound h]
  | .obj a, .obj b, h => by simp only [eqA] at h; rw [eqAm_sound h]
  | .null, .bool _, h | .null, .num _, h | .null, .str _, h | .null, .arr _, h | .null, .obj _, h
  | .bool _, .null, h | .bool _, .num _, h | .bool _, .str _, h | .bool _, .arr _, h | .bool _, .obj _, h
  | .num _, .null, h | .num _, .bool _, h | .num _, .str _, h | .num _, .arr _, h | .num _, .obj _, h
  | .str _, .null, h | .str _, .bool _, h | .str _, .num _, h | .str _, .arr _, h | .str _, .obj _, h
  | .arr _, .null, h | .arr _, .bool _, h | .arr _, .num _, h | .arr _, .str _, h | .arr _, .obj _, h
  | .obj _, .null, h | .obj _, .bool _, h | .obj _, .num _, h | .obj _, .str _, h | .obj _, .arr _, h => by
    simp [eqA] at h
theorem eqAs_sound : ∀ {a b : List Any}, eqAs a b = true → a = b
  | [], [], _ => rfl
  | a :: as, b :: bs, h => by
    simp only [eqAs, Bool.and_eq_true] at h
    rw [eqA_sound h.1, eqAs_sound h.2]
  | [], _ :: _, h | _ :: _, [], h => by simp [eqAs] at h
theorem eqAm_sound : ∀ {a b : List (String × Any)}, eqAm a b = true → a = b
  | [], [], _ => rfl
  | (k, a) :: as, (l, b) :: bs, h => by
    simp only [eqAm, Bool.and_eq_true, beq_iff_eq] at h
    rw [h.1.1, eqA_sound h.1.2, eqAm_sound h.2]
  | [], _ :: _, h | _ :: _, [], h => by simp [eqAm] at h
end

mutual
/-- Equality of Go values. -/
def eqV : Val → Val → Bool
  | .nil, .nil => true
  | .any a, .any b => eqA a b
  | .bool a, .bool b => a == b
  | .num a, .num b => a == b
  | .str a, .str b => a == b
  | .list a, .list b => eqVs a b
  | .map a, .map b => eqVm a b
  | .struct a, .struct b => eqVm a b
  | _, _ => false
/-- Equality of lists of Go values. -/
def eqVs : List Val → List Val → Bool
  | [], [] => true
  | a :: as, b :: bs => eqV a b && eqVs as bs
  | _, _ => false
/-- Equality of fields and entries. -/
def eqVm : List (String × Val) → List (String × Val) → Bool
  | [], [] => true
  | (k, a) :: as, (l, b) :: bs => k == l && eqV a b && eqVm as bs
  | _, _ => false
end

mutual
theorem eqV_sound : ∀ {a b : Val}, eqV a b = true → a = b
  | .nil, .nil, _ => rfl
  | .any a, .any b, h => by simp only [eqV] at h; rw [eqA_sound h]
  | .bool a, .bool b, h => by simp only [eqV, beq_iff_eq] at h; rw [h]
  | .num a, .num b, h => by simp only [eqV, beq_iff_eq] at h; rw [h]
  | .str a, .str b, h => by simp only [eqV, beq_iff_eq] at h; rw [h]
  | .list a, .list b, h => by simp only [eqV] at h; rw [eqVs_sound h]
  | .map a, .map b, h => by simp only [eqV] at h; rw [eqVm_sound h]
  | .struct a, .struct b, h => by simp only [eqV] at h; rw [eqVm_sound h]
  | .nil, .any _, h | .nil, .bool _, h | .nil, .str _, h | .nil, .num _, h | .nil, .list _, h | .nil, .map _, h
  | .nil, .struct _, h
  | .any _, .nil, h | .any _, .bool _, h | .any _, .str _, h | .any _, .num _, h | .any _, .list _, h
  | .any _, .map _, h | .any _, .struct _, h
  | .bool _, .nil, h | .bool _, .any _, h | .bool _, .str _, h | .bool _, .num _, h | .bool _, .list _, h
  | .bool _, .map _, h | .bool _, .struct _, h
  | .str _, .nil, h | .str _, .any _, h | .str _, .bool _, h | .str _, .num _, h | .str _, .list _, h
  | .str _, .map _, h | .str _, .struct _, h
  | .num _, .nil, h | .num _, .any _, h | .num _, .bool _, h | .num _, .str _, h | .num _, .list _, h
  | .num _, .map _, h | .num _, .struct _, h
  | .list _, .nil, h | .list _, .any _, h | .list _, .bool _, h | .list _, .str _, h | .list _, .num _, h
  | .list _, .map _, h | .list _, .struct _, h
  | .map _, .nil, h | .map _, .any _, h | .map _, .bool _, h | .map _, .str _, h | .map _, .num _, h
  | .map _, .list _, h | .map _, .struct _, h
  | .struct _, .nil, h | .struct _, .any _, h | .struct _, .bool _, h | .struct _, .str _, h | .struct _, .num _, h
  | .struct _, .list _, h | .struct _, .map _, h => by
    simp [eqV] at h
theorem eqVs_sound : ∀ {a b : List Val}, eqVs a b = true → a = b
  | [], [], _ => rfl
  | a :: as, b :: bs, h => by
    simp only [eqVs, Bool.and_eq_true] at h
    rw [eqV_sound h.1, eqVs_sound h.2]
  | [], _ :: _, h | _ :: _, [], h => by simp [eqVs] at h
theorem eqVm_sound : ∀ {a b : List (String × Val)}, eqVm a b = true → a = b
  | [], [], _ => rfl
  | (k, a) :: as, (l, b) :: bs, h => by
    simp only [eqVm, Bool.and_eq_true, beq_iff_eq] at h
    rw [h.1.1, eqV_sound h.1.2, eqVm_sound h.2]
  | [], _ :: _, h | _ :: _, [], h => by simp [eqVm] at h
end

/-- A computed value is this one. -/
def isV (r : Option Val) (v : Val) : Bool := match r with
  | some w => eqV w v
  | none => false

/-- A computed JSON value is this one. -/
def isA (r : Option Any) (a : Any) : Bool := match r with
  | some b => eqA b a
  | none => false

theorem isV_sound {r : Option Val} {v : Val} (h : isV r v = true) : r = some v := by
  unfold isV at h
  split at h
  · rw [eqV_sound h]
  · cases h

theorem isA_sound {r : Option Any} {a : Any} (h : isA r a = true) : r = some a := by
  unfold isA at h
  split at h
  · rw [eqA_sound h]
  · cases h

theorem none_sound {α : Type} {r : Option α} (h : r.isNone = true) : r = none := by
  cases r with
  | none => rfl
  | some _ => cases h

end Verif.Codec
