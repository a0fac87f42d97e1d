import Verif.Lemmas.Params

/-!
# Path parameter validation (C05, C06)

`validatePathParams` is the same text in `/repo/openapi3/helper.go` and `/repo/openapi31/helper.go`.
-/

namespace Verif
open ParamSpec
variable {S : Type}

/-- C05: for the four locations, validation accepts exactly the valid parameter lists. -/
theorem C05_validation_exact (ps : List (ParamOrRef S)) (placeholders : List String)
    (hs : StandardLocations ps) :
    validatePathParams ps placeholders = none ↔ Valid ps placeholders := by
  rw [validate_none_iff_errs, validateErrs_nil_iff, keyValid_iff_valid hs]

/-- C05 without the assumption on locations: acceptance always implies unique inlineParams parameters and
placeholders for all path parameters. -/
theorem C05_validation_sound (ps : List (ParamOrRef S)) (placeholders : List String)
    (h : validatePathParams ps placeholders = none) :
    UniqueParams ps ∧ PathParamsHavePlaceholders ps placeholders := by
  rw [validate_none_iff_errs, validateErrs_nil_iff] at h
  refine ⟨?_, h.2.1⟩
  have := h.1
  unfold UniqueParams
  generalize inlineParams ps = l at this
  clear h
  induction l with
  | nil => simp
  | cons q l ih =>
    simp only [List.map_cons, List.nodup_cons, List.mem_map, not_exists, not_and] at this ⊢
    refine ⟨fun x hx e => this.1 x hx ?_, ih this.2⟩
    simp only [Prod.mk.injEq] at e
    rw [e.1, e.2]

/-- C05 for any locations: validation accepts exactly the lists in which no two inline parameters have the same
name and location written together, every path parameter has a placeholder, and every placeholder is, followed
by "path", the name and location of a parameter written together. -/
theorem C05_any_locations (ps : List (ParamOrRef S)) (placeholders : List String) :
    validatePathParams ps placeholders = none ↔ ValidWritten ps placeholders := by
  rw [validate_none_iff_errs, validateErrs_nil_iff]
  rfl

example : ValidWritten (S := Unit) [{ param := some { name := "id", inn := "path" } },
    { param := some { name := "id", inn := "form" } }, { ref := some "#/x" }] ["id"] ∧
    ¬ ValidWritten (S := Unit) [{ param := some { name := "id", inn := "path" } }] [] := by
  rw [← C05_any_locations, ← C05_any_locations]
  decide +kernel

/-- Outside the four locations the concatenated key is ambiguous, and validation accepts a placeholder
without a path parameter. -/
theorem C05_ambiguous_without_standard_locations :
    ∃ (ps : List (ParamOrRef Unit)) (placeholders : List String),
      validatePathParams ps placeholders = none ∧ ¬ PlaceholdersAreDefined ps placeholders :=
  ⟨[{ param := some { name := "idp", inn := "ath" } }], ["id"], by decide +kernel, by
    intro h
    obtain ⟨q, hq, e, -⟩ := h "id" (by simp)
    simp [inlineParams] at hq
    subst hq
    exact absurd e (by decide)⟩

/-- C05, complaints are complete: every undefined placeholder is reported. -/
theorem C05_undefined_reported (ps : List (ParamOrRef S)) (placeholders : List String)
    (hs : StandardLocations ps) (n : String) (hn : n ∈ placeholders)
    (hu : ¬ ∃ q ∈ inlineParams ps, q.inn = "path" ∧ q.name = n) :
    "undefined path parameter: " ++ n ∈ validateErrs ps placeholders := by
  obtain ⟨E, index', e, -, h2, -, -⟩ := validateLoop_spec placeholders ps [] []
  simp only [validateErrs, e, List.nil_append, List.mem_append, List.mem_map, List.mem_filter,
    decide_eq_true_eq]
  right
  refine ⟨n, ⟨hn, fun hk => ?_⟩, rfl⟩
  rcases h2 _ hk with h | ⟨q, hq, e'⟩
  · simp at h
  · have := paramKey_inj (hs q hq) (by simp [locations]) e'
    exact hu ⟨q, hq, this.2, this.1⟩

/-- C06: any two iteration orders of the placeholder map give the same complaints up to order, hence the
same verdict. -/
theorem C06_order_independent (ps : List (ParamOrRef S)) (order order' : List String)
    (h : order.Perm order') :
    (validateErrs ps order).Perm (validateErrs ps order') ∧
    (validatePathParams ps order = none ↔ validatePathParams ps order' = none) := by
  have hp : (validateErrs ps order).Perm (validateErrs ps order') := by
    simp only [validateErrs]
    rw [validateLoop_congr (fun n => h.mem_iff) ps [] []]
    exact List.Perm.append_left _ ((h.filter _).map _)
  refine ⟨hp, ?_⟩
  rw [validate_none_iff_errs, validate_none_iff_errs]
  constructor
  · intro e; rw [e] at hp; exact hp.nil_eq.symm
  · intro e; rw [e] at hp; exact hp.symm.nil_eq.symm

/-- A concrete, non-trivial case: three parameters, two placeholders, accepted; and a rejected one with
two complaints. -/
example : validatePathParams (S := Unit)
      [{ param := some { name := "id", inn := "path" } }, { ref := some "#/x" },
       { param := some { name := "id", inn := "query" } }, { param := some { name := "k", inn := "path" } }]
      ["k", "id"] = none ∧
    validateErrs (S := Unit) [{ param := some { name := "id", inn := "path" } }] ["k"] =
      ["missing path parameter placeholder in url: id", "undefined path parameter: k"] := by
  decide +kernel

theorem eraseDups_nodup : ∀ (k : Nat) (l : List String), l.length ≤ k → l.eraseDups.Nodup := by
  intro k
  induction k with
  | zero => intro l h; have : l = [] := List.length_eq_zero_iff.1 (by omega); subst this; simp
  | succ k ih =>
    intro l h
    cases l with
    | nil => simp
    | cons a l =>
      rw [List.eraseDups_cons, List.nodup_cons]
      refine ⟨?_, ih _ (Nat.le_trans (List.length_filter_le _ _) (by simpa using h))⟩
      simp [List.mem_eraseDups]

theorem validateLoop_messages (pathParams : List String) : ∀ (ps : List (ParamOrRef S)) (index errs : List String),
    ∀ e ∈ (validateLoop pathParams ps index errs).2, e ∈ errs ∨
      (∃ t, e = "duplicate parameter in " ++ t) ∨ ∃ t, e = "missing path parameter placeholder in url: " ++ t
  | [], index, errs, e, h => .inl h
  | p :: ps, index, errs, e, h => by
    unfold validateLoop at h
    split at h
    · exact validateLoop_messages pathParams ps index errs e h
    · split at h
      · rcases validateLoop_messages pathParams ps _ _ e h with h | h
        · rcases List.mem_append.1 h with h | h
          · exact .inl h
          · rw [String.append_assoc, String.append_assoc] at h
            exact .inr (.inl ⟨_, List.mem_singleton.1 h⟩)
        · exact .inr h
      · split at h
        · rcases validateLoop_messages pathParams ps _ _ e h with h | h
          · rcases List.mem_append.1 h with h | h
            · exact .inl h
            · exact .inr (.inr ⟨_, List.mem_singleton.1 h⟩)
          · exact .inr h
        · exact validateLoop_messages pathParams ps _ _ e h

/-- C06: a placeholder without path parameter is reported once, however often it is in the URL. -/
theorem C06_reported_once (ps : List (ParamOrRef S)) (placeholders : List String) (hs : StandardLocations ps) (n : String)
    (hn : n ∈ placeholders) (hu : ¬ ∃ q ∈ inlineParams ps, q.inn = "path" ∧ q.name = n) :
    (validateErrs ps (pathParamsMap placeholders)).count ("undefined path parameter: " ++ n) = 1 := by
  have hmem := C05_undefined_reported ps (pathParamsMap placeholders) hs n (mem_pathParamsMap.2 hn) hu
  have h0 : (validateLoop (pathParamsMap placeholders) ps [] []).2.count ("undefined path parameter: " ++ n) = 0 := by
    rw [List.count_eq_zero]
    intro h
    rcases validateLoop_messages _ _ _ _ _ h with h | ⟨t, h⟩ | ⟨t, h⟩
    · cases h
    · have := congrArg (fun s : String => s.toList.head?) h
      simp [String.toList_append] at this
    · have := congrArg (fun s : String => s.toList.head?) h
      simp [String.toList_append] at this
  have h1 : (((pathParamsMap placeholders).filter
      (fun n => paramKey n "path" ∉ (validateLoop (pathParamsMap placeholders) ps [] []).1)).map
        ("undefined path parameter: " ++ ·)).Nodup := by
    have hf := (eraseDups_nodup _ placeholders (Nat.le_refl _)).filter
      (fun n => paramKey n "path" ∉ (validateLoop (pathParamsMap placeholders) ps [] []).1)
    exact List.Pairwise.map _ (fun a b (hab : a ≠ b) e => hab (by simpa using e)) hf
  simp only [validateErrs] at hmem ⊢
  rw [List.count_append, h0, Nat.zero_add]
  rw [List.mem_append] at hmem
  rcases hmem with h | h
  · exact absurd (List.count_pos_iff.2 h) (by omega)
  · rw [h1.count, if_pos h]

example : (validateErrs (S := Unit) [{ param := some { name := "q", inn := "query" } }] (pathParamsMap ["id", "id"])) =
    ["undefined path parameter: id"] := by decide +kernel

end Verif
