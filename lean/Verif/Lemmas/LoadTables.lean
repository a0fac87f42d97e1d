import Verif.Lemmas.LoadSpecial

/-! What was read can be written: both tables. -/

namespace Verif
open Codec Spec

variable {N : Nums}

theorem loadFacts30 (hN : NumsOk N) : LoadFacts V30.table N ok30 (clean30 N) bad30 sp30 where
  ranked := ranked30
  nums := hN
  nonBearer := by decide
  base := by
    intro n s hn hb
    have h := table_all (chk := fun n s => loadCheck bad30 sp30 n s && s.exactlyOne.isNone &&
      (s.nots.isEmpty || bad30.contains n || n == "Link")) check30 hn
    simp only [Bool.and_eq_true] at h
    rcases (loadCheck_iff h.1.1).1 with h | h
    · exact absurd h hb
    · exact base_of_check h
  structs := by
    intro n s hn hb hsp
    have h := table_all (chk := fun n s => loadCheck bad30 sp30 n s && s.exactlyOne.isNone &&
      (s.nots.isEmpty || bad30.contains n || n == "Link")) check30 hn
    simp only [Bool.and_eq_true] at h
    rcases (loadCheck_iff h.1.1).2.1 with h | h | h
    · exact absurd h hb
    · exact absurd h hsp
    · exact h
  kinds := by
    intro n s hn hb hsp
    have h := table_all (chk := fun n s => loadCheck bad30 sp30 n s && s.exactlyOne.isNone &&
      (s.nots.isEmpty || bad30.contains n || n == "Link")) check30 hn
    simp only [Bool.and_eq_true] at h
    exact kind_of_check (loadCheck_iff h.1.1).2.2.1 hb hsp
  lower := by
    intro n s hn
    have h := table_all (chk := fun n s => loadCheck bad30 sp30 n s && s.exactlyOne.isNone &&
      (s.nots.isEmpty || bad30.contains n || n == "Link")) check30 hn
    simp only [Bool.and_eq_true] at h
    exact lower_of_check (loadCheck_iff h.1.1).2.2.2
  one := by
    intro n s hn hb hsp val _ a b e
    have h := table_all (chk := fun n s => loadCheck bad30 sp30 n s && s.exactlyOne.isNone &&
      (s.nots.isEmpty || bad30.contains n || n == "Link")) check30 hn
    simp only [Bool.and_eq_true] at h
    rw [e] at h
    exact absurd h.1.2 (by simp)
  not := by
    intro n s hn hb hsp val j M L _ t ht
    have h := table_all (chk := fun n s => loadCheck bad30 sp30 n s && s.exactlyOne.isNone &&
      (s.nots.isEmpty || bad30.contains n || n == "Link")) check30 hn
    simp only [Bool.and_eq_true, Bool.or_eq_true, List.isEmpty_iff, List.contains_iff_mem, beq_iff_eq] at h
    rcases h.2 with (h | h) | h
    · rw [h] at ht; cases ht
    · exact absurd h hb
    · subst h
      have hL : GoMap.get? V30.table "Link" = some (.struct V30.sLink) := by decide +kernel
      rw [hL] at hn
      cases hn
      exact link_not L t ht
  ok := by intros; trivial
  special := by
    intro n s hn hsp j v hd hE ih ihr
    simp only [sp30, List.mem_cons, List.not_mem_nil, or_false] at hsp
    rcases hsp with rfl | rfl
    · exact http_load hN (by decide +kernel) hd hE ih
    · exact parameter_load hN (by decide +kernel) hd hE ih

theorem loadFacts31 (hN : NumsOk N) : LoadFacts V31.table N ok31 clean31 bad31 sp31 where
  ranked := ranked31
  nums := hN
  nonBearer := by decide
  base := by
    intro n s hn hb
    have h := table_all (chk := fun n s => loadCheck bad31 sp31 n s && (s.exactlyOne.isNone || n == "Header") &&
      (s.nots.isEmpty || n == "Example")) check31 hn
    simp only [Bool.and_eq_true] at h
    rcases (loadCheck_iff h.1.1).1 with h | h
    · exact absurd h hb
    · exact base_of_check h
  structs := by
    intro n s hn hb hsp
    have h := table_all (chk := fun n s => loadCheck bad31 sp31 n s && (s.exactlyOne.isNone || n == "Header") &&
      (s.nots.isEmpty || n == "Example")) check31 hn
    simp only [Bool.and_eq_true] at h
    rcases (loadCheck_iff h.1.1).2.1 with h | h | h
    · exact absurd h hb
    · exact absurd h hsp
    · exact h
  kinds := by
    intro n s hn hb hsp
    have h := table_all (chk := fun n s => loadCheck bad31 sp31 n s && (s.exactlyOne.isNone || n == "Header") &&
      (s.nots.isEmpty || n == "Example")) check31 hn
    simp only [Bool.and_eq_true] at h
    exact kind_of_check (loadCheck_iff h.1.1).2.2.1 hb hsp
  lower := by
    intro n s hn
    have h := table_all (chk := fun n s => loadCheck bad31 sp31 n s && (s.exactlyOne.isNone || n == "Header") &&
      (s.nots.isEmpty || n == "Example")) check31 hn
    simp only [Bool.and_eq_true] at h
    exact lower_of_check (loadCheck_iff h.1.1).2.2.2
  one := by
    intro n s hn hb hsp val hP a b e
    have h := table_all (chk := fun n s => loadCheck bad31 sp31 n s && (s.exactlyOne.isNone || n == "Header") &&
      (s.nots.isEmpty || n == "Example")) check31 hn
    simp only [Bool.and_eq_true, Bool.or_eq_true, beq_iff_eq] at h
    rcases h.1.2 with h | h
    · rw [e] at h; exact absurd h (by simp)
    · subst h
      have hH : GoMap.get? V31.table "Header" = some (.struct V31.sHeader) := by decide +kernel
      rw [hH] at hn
      cases hn
      cases e
      have hP := hP.2.2.2.2 (names_of val)
      rw [fieldIn_of val (show "Schema" ∈ V31.sHeader.names by decide),
        fieldIn_of val (show "Content" ∈ V31.sHeader.names by decide)] at hP
      have key : ∀ f ∈ V31.sHeader.fields, (∃ t, f = ⟨f.go, f.key, .map t, true⟩) → ∀ x, isEmpty (val f.go) = x →
          omitted f (val f.go) = x := by
        rintro f hf ⟨t, e⟩ x hx
        rw [e, ← hx]
        rfl
      have f1 : (⟨"Schema", "schema", .map .any, true⟩ : Field) ∈ V31.sHeader.fields := by decide
      have f2 : (⟨"Content", "content", .map (.named "MediaType"), true⟩ : Field) ∈ V31.sHeader.fields := by decide
      rcases hP with ⟨h1, h2⟩ | ⟨h1, h2⟩
      · exact .inl ⟨⟨_, f1, rfl, key _ f1 ⟨_, rfl⟩ _ h1⟩, ⟨_, f2, rfl, key _ f2 ⟨_, rfl⟩ _ h2⟩⟩
      · exact .inr ⟨⟨_, f1, rfl, key _ f1 ⟨_, rfl⟩ _ h1⟩, ⟨_, f2, rfl, key _ f2 ⟨_, rfl⟩ _ h2⟩⟩
  not := by
    intro n s hn hb hsp val j M L hP t ht
    have h := table_all (chk := fun n s => loadCheck bad31 sp31 n s && (s.exactlyOne.isNone || n == "Header") &&
      (s.nots.isEmpty || n == "Example")) check31 hn
    simp only [Bool.and_eq_true, Bool.or_eq_true, List.isEmpty_iff, beq_iff_eq] at h
    rcases h.2 with h | h
    · rw [h] at ht; cases ht
    · subst h
      have hH : GoMap.get? V31.table "Example" = some (.struct V31.sExample) := by decide +kernel
      rw [hH] at hn
      cases hn
      exact absurd (names_of val) hP.1
  ok := by
    intro n s hn hb hsp e he v hP hv hgo
    have hin : ∀ (l : List Hidden), l.map Hidden.go = ["Reference", "Link"] ∨ l.map Hidden.go = ["Reference", "PathItem"] ∨
        l.map Hidden.go = ["Reference", "Response"] →
        fieldIn (l.map (fun h => (h.go, if h.go = e.go then v else .nil))) "Reference" = v := by
      intro l hl
      match l, hl with
      | a :: l, hl =>
        have ha : a.go = "Reference" := by
          rcases hl with h | h | h <;> exact (List.cons.inj h).1
        unfold fieldIn
        simp only [List.map_cons, GoMap.get?, ha, hgo]
        simp
      | [], hl => rcases hl with h | h | h <;> cases h
    have hnm : (s.oneOf.map (fun h => (h.go, if h.go = e.go then v else Val.nil))).map Prod.fst = s.oneOf.map Hidden.go := by
      rw [List.map_map]; rfl
    refine ⟨?_, ?_, ?_⟩
    · rintro rfl
      have hL : GoMap.get? V31.table "LinkOrReference" = some (.struct V31.sLinkOrReference) := by decide +kernel
      rw [hL] at hn
      cases hn
      have := hP.2.1 hnm
      rw [hin _ (.inl rfl)] at this
      exact hv this
    · rintro rfl
      have hL : GoMap.get? V31.table "PathItemOrReference" = some (.struct V31.sPathItemOrReference) := by decide +kernel
      rw [hL] at hn
      cases hn
      have := hP.2.2.1 hnm
      rw [hin _ (.inr (.inl rfl))] at this
      exact hv this
    · rintro rfl
      have hL : GoMap.get? V31.table "ResponseOrReference" = some (.struct V31.sResponseOrReference) := by decide +kernel
      rw [hL] at hn
      cases hn
      have := hP.2.2.2.1 hnm
      rw [hin _ (.inr (.inr rfl))] at this
      rcases this with h | h
      · exact absurd h hv
      · exact h
  special := by
    intro n s hn hsp j v hd hE ih ihr
    simp only [sp31, List.mem_cons, List.not_mem_nil, or_false] at hsp
    subst hsp
    have hL : GoMap.get? V31.table "SecurityScheme" = some (.struct V31.sSecurityScheme) := by decide +kernel
    rw [hL] at hn
    cases hn
    exact security_load hN (by decide +kernel) (by decide +kernel) hd hE ih ihr

end Verif
