import Verif.Go

namespace Verif
namespace GoMap
variable {V : Type _}

@[simp] theorem get?_nil (k : String) : get? ([] : GoMap V) k = none := rfl

theorem get?_set_self (m : GoMap V) (k : String) (v : V) : (m.set k v).get? k = some v := by
  induction m with
  | nil => simp [set, get?]
  | cons p m ih =>
    obtain ⟨k', v'⟩ := p
    by_cases h : k' = k
    · simp [set, get?, h]
    · simp [set, get?, h, ih]

theorem get?_set_ne (m : GoMap V) {k k' : String} (v : V) (h : k' ≠ k) :
    (m.set k v).get? k' = m.get? k' := by
  induction m with
  | nil => simp [set, get?, Ne.symm h]
  | cons p m ih =>
    obtain ⟨a, b⟩ := p
    by_cases ha : a = k
    · subst ha; simp [set, get?, Ne.symm h]
    · by_cases hb : a = k'
      · subst hb; simp [set, get?, ha]
      · simp [set, get?, ha, hb, ih]

theorem get?_set (m : GoMap V) (k k' : String) (v : V) :
    (m.set k v).get? k' = if k' = k then some v else m.get? k' := by
  by_cases h : k' = k
  · subst h; simp [get?_set_self]
  · simp [get?_set_ne _ _ h, h]

theorem mem_keys_iff (m : GoMap V) (k : String) : k ∈ m.keys ↔ (m.get? k).isSome := by
  induction m with
  | nil => simp [keys]
  | cons p m ih =>
    obtain ⟨a, b⟩ := p
    by_cases h : a = k
    · simp [keys, get?, h]
    · have : k ∈ keys ((a, b) :: m) ↔ k ∈ keys m := by simp [keys, Ne.symm h]
      rw [this, ih]; simp [get?, h]

theorem mem_of_get? {m : GoMap V} {k : String} {v : V} (h : m.get? k = some v) : (k, v) ∈ m := by
  induction m with
  | nil => simp at h
  | cons p m ih =>
    obtain ⟨a, b⟩ := p
    by_cases ha : a = k
    · simp [get?, ha] at h; simp [ha, h]
    · simp [get?, ha] at h; exact List.mem_cons_of_mem _ (ih h)

theorem get?_of_mem {m : GoMap V} (hw : m.WF) {k : String} {v : V} (h : (k, v) ∈ m) : m.get? k = some v := by
  induction m with
  | nil => simp at h
  | cons p m ih =>
    obtain ⟨a, b⟩ := p
    simp only [WF, keys, List.map_cons, List.nodup_cons] at hw
    rcases List.mem_cons.mp h with h | h
    · cases h; simp [get?]
    · have : a ≠ k := fun e => hw.1 (by subst e; exact List.mem_map_of_mem (f := Prod.fst) h)
      simp [get?, this, ih hw.2 h]

theorem mem_set {m : GoMap V} {k : String} {v : V} {e : String × V} (h : e ∈ m.set k v) : e = (k, v) ∨ e ∈ m := by
  induction m with
  | nil => simp [set] at h; exact .inl h
  | cons p m ih =>
    obtain ⟨a, b⟩ := p
    by_cases ha : a = k
    · simp only [set, ha, if_true, List.mem_cons] at h
      rcases h with h | h
      · exact .inl h
      · exact .inr (List.mem_cons_of_mem _ h)
    · simp only [set, ha, if_false, List.mem_cons] at h
      rcases h with h | h
      · exact .inr (h ▸ List.mem_cons_self)
      · rcases ih h with h | h
        · exact .inl h
        · exact .inr (List.mem_cons_of_mem _ h)

theorem keys_set (m : GoMap V) (k : String) (v : V) :
    (m.set k v).keys = if (m.get? k).isSome then m.keys else m.keys ++ [k] := by
  induction m with
  | nil => simp [set, keys]
  | cons p m ih =>
    obtain ⟨a, b⟩ := p
    by_cases h : a = k
    · simp [set, get?, keys, h]
    · have e : (set ((a, b) :: m) k v).keys = a :: keys (set m k v) := by simp [set, h, keys]
      rw [e, ih]
      simp only [get?, if_neg h]
      split <;> simp [keys]

theorem wf_set {m : GoMap V} (h : m.WF) (k : String) (v : V) : (m.set k v).WF := by
  unfold WF at *
  rw [keys_set]
  split
  · exact h
  · rename_i hn
    rw [← mem_keys_iff] at hn
    rw [List.nodup_append]
    refine ⟨h, by simp, ?_⟩
    intro a ha b hb
    simp at hb
    subst hb
    exact fun e => hn (e ▸ ha)

theorem get?_perm {m m' : GoMap V} (hw : m.WF) (hp : m.Perm m') (k : String) : m'.get? k = m.get? k := by
  have hw' : m'.WF := by
    unfold WF keys at *
    exact (hp.map Prod.fst).nodup_iff.mp hw
  cases h : m.get? k with
  | some v => exact get?_of_mem hw' (hp.mem_iff.mp (mem_of_get? h))
  | none =>
    cases h' : m'.get? k with
    | none => rfl
    | some v =>
      have := get?_of_mem hw (hp.mem_iff.mpr (mem_of_get? h'))
      rw [h] at this; cases this

theorem get?_erase (m : GoMap V) (k k' : String) :
    (m.erase k).get? k' = if k' = k then none else m.get? k' := by
  induction m with
  | nil => simp [erase]
  | cons p m ih =>
    obtain ⟨a, b⟩ := p
    by_cases h : a = k
    · have e : erase ((a, b) :: m) k = erase m k := by simp [erase, h]
      rw [e, ih]
      by_cases h' : k' = k
      · simp [h']
      · simp [h', get?, h, Ne.symm h']
    · have e : erase ((a, b) :: m) k = (a, b) :: erase m k := by simp [erase, h]
      rw [e]
      by_cases h' : k' = k
      · subst h'; simp [get?, h, ih]
      · simp [get?, ih, h']

theorem length_eq_zero_iff_get? (m : GoMap V) : m.length = 0 ↔ ∀ k, m.get? k = none := by
  constructor
  · intro h; simp [List.length_eq_zero_iff.mp h]
  · intro h
    cases m with
    | nil => rfl
    | cons p m => have := h p.1; simp [get?] at this

end GoMap
end Verif
