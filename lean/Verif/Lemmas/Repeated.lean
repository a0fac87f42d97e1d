import Verif.Lemmas.Distinct

/-! A 3.0 parameter that was read is written with a repeated key. -/

namespace Verif
open Codec Spec
variable {T : Table} {N : Nums}

theorem mapAll_sublist {α β : Type} {f : α → Option β} {g : β → α} (hfg : ∀ b, f (g b) = some b) :
    ∀ {l : List α} {r : List β} {bs : List β}, mapAll f l = some r → (bs.map g).Sublist l → bs.Sublist r
  | [], r, bs, h, hs => by
    simp only [List.sublist_nil, List.map_eq_nil_iff] at hs
    rw [hs]; exact List.nil_sublist _
  | x :: l, r, bs, h, hs => by
    simp only [mapAll] at h
    split at h
    · rename_i y ys hy hys
      simp only [Option.some.injEq] at h
      subst h
      cases bs with
      | nil => exact List.nil_sublist _
      | cons b bs =>
        rw [List.map_cons] at hs
        cases hs with
        | cons _ hs => exact (mapAll_sublist hfg hys (bs := b :: bs) (by rw [List.map_cons]; exact hs)).cons _
        | cons_cons _ hs =>
          rw [hfg] at hy
          cases hy
          exact (mapAll_sublist hfg hys hs).cons_cons _
    · cases h

theorem sublist_flatten {α : Type} {l l' : List (List α)} (h : l.Sublist l') : l.flatten.Sublist l'.flatten := by
  induction h with
  | slnil => exact List.Sublist.refl _
  | cons a _ ih => rw [List.flatten_cons]; exact ih.trans (List.sublist_append_right _ _)
  | cons_cons a _ ih => rw [List.flatten_cons, List.flatten_cons]; exact (List.Sublist.refl _).append ih

theorem unionJ_sublist {js : List Any} {j : Any} (h : unionJ js = some j) {as : List (List (String × Any))}
    (hs : (as.map Any.obj).Sublist js) (hne : as ≠ []) (ha : ∀ a ∈ as, a ≠ []) :
    ∃ M, j = .obj M ∧ as.flatten.Sublist M := by
  unfold unionJ at h
  have hs := hs.filter (fun j => match j with
    | .null => false
    | .obj [] => false
    | _ => true)
  rw [List.filter_eq_self.2] at hs
  · simp only at h
    split at h
    · rename_i e
      have hs' : (as.map Any.obj).Sublist [] := e ▸ hs
      simp only [List.sublist_nil, List.map_eq_nil_iff] at hs'
      exact absurd hs' hne
    · rename_i j' e
      rw [← Option.some.inj h]
      have hs' : (as.map Any.obj).Sublist [j'] := e ▸ hs
      match as, hne, hs' with
      | [a], _, hs' =>
        have := List.singleton_sublist.1 hs'
        rw [List.mem_singleton] at this
        exact ⟨a, this.symm, by simp⟩
      | _ :: _ :: _, _, hs' =>
        have := hs'.length_le
        simp at this
    · rw [Option.map_eq_some_iff] at h
      obtain ⟨l, hl, rfl⟩ := h
      refine ⟨_, rfl, sublist_flatten (mapAll_sublist (g := Any.obj) (fun _ => rfl) hl hs)⟩
  · intro x hx
    obtain ⟨a, haa, rfl⟩ := List.mem_map.1 hx
    have := ha a haa
    cases a with
    | nil => exact absurd rfl this
    | cons => rfl

/-- A field that is always written. -/
theorem encodeFields_key {fields : List Field} {fs : List Slot} {ms : List (String × Any)}
    (h : encodeFields fields fs = some ms) {f : Field} (hf : f ∈ fields) (ho : f.omitempty = false) :
    f.key ∈ ms.map Prod.fst := by
  induction fields generalizing ms with
  | nil => cases hf
  | cons g rest ih =>
    simp only [encodeFields] at h
    split at h
    · cases h
    · rename_i slot _
      split at h
      · rename_i hom
        rcases List.mem_cons.1 hf with rfl | hf
        · simp [omitted, ho] at hom
        · exact ih h hf
      · split at h
        · rename_i j ms' _ hms
          simp only [Option.some.injEq] at h
          subst h
          rcases List.mem_cons.1 hf with rfl | hf
          · simp
          · exact List.mem_cons_of_mem _ (ih hms hf)
        · cases h

/-- The constants of a struct are written. -/
theorem consts_written {n : String} {s : Struct} (hn : GoMap.get? T n = some (.struct s)) {cs : List (String × Const)}
    {rest : List Codec.Part} (hp : s.parts = .consts cs :: rest) (hcs : cs ≠ []) {fs : List (String × Val)} {j : Any}
    (h : encode T (.named n) (.struct fs) = some j) : ∃ M, j = .obj M ∧ ∀ c ∈ cs, c.1 ∈ M.map Prod.fst := by
  rw [encode_struct hn, hp] at h
  simp only [mapAll, encodePart] at h
  split at h
  · rename_i js hjs
    split at hjs
    · rename_i y ys hy hys
      cases hy
      cases hjs
      obtain ⟨M, rfl, hM⟩ := unionJ_sublist h (as := [cs.map (fun c => (c.1, c.2.json))])
        (by simp) (by simp) (by simpa using hcs)
      refine ⟨M, rfl, fun c hc => ?_⟩
      have := hM.subset (a := (c.1, c.2.json)) (by simp; exact ⟨_, _, hc, rfl, rfl⟩)
      exact List.mem_map.2 ⟨_, this, rfl⟩
    · cases hjs
  · cases h

theorem mapAll_mem {α β : Type} {f : α → Option β} {l : List α} {r : List β} (h : mapAll f l = some r) {x : α} (hx : x ∈ l) :
    ∃ y ∈ r, f x = some y := by
  induction l generalizing r with
  | nil => cases hx
  | cons a l ih =>
    simp only [mapAll] at h
    split at h
    · rename_i y ys hy hys
      simp only [Option.some.injEq] at h
      subst h
      rcases List.mem_cons.1 hx with rfl | hx
      · exact ⟨y, List.mem_cons_self, hy⟩
      · obtain ⟨z, hz, e⟩ := ih hys hx
        exact ⟨z, List.mem_cons_of_mem _ hz, e⟩
    · cases h

/-- A parameter's location that was read is written with `in`. -/
theorem location_written {M : List (String × Any)} {j' : Any} {v : Val}
    (h : decode V30.table N (.named "ParameterLocation") (.obj M) = some v)
    (he : encode V30.table (.named "ParameterLocation") v = some j') : ∃ M, j' = .obj M ∧ "in" ∈ M.map Prod.fst := by
  have hn : GoMap.get? V30.table "ParameterLocation" = some (.struct V30.sParameterLocation) := by decide +kernel
  obtain ⟨M, val, rfl, L⟩ := loaded ranked30 hn (by decide) (.inr rfl) h
  have hnd : V30.sParameterLocation.names.Nodup := by decide
  rcases L.oneOf with e | ⟨e, hem, w, hw, -, hval⟩
  · cases e
  have hve := hval e hem
  rw [if_pos rfl] at hve
  unfold structOf at he
  rw [encode_struct hn] at he
  split at he
  · rename_i js hjs
    have hpart : Codec.Part.hidden e.go ∈ V30.sParameterLocation.parts := by
      simp only [V30.sParameterLocation, List.mem_cons, List.not_mem_nil, or_false] at hem
      rcases hem with rfl | rfl | rfl | rfl <;> decide
    obtain ⟨y, hy, hey⟩ := mapAll_mem hjs hpart
    have hty : hiddenTy V30.sParameterLocation e.go = some e.ty := by
      simp only [V30.sParameterLocation, List.mem_cons, List.not_mem_nil, or_false] at hem
      rcases hem with rfl | rfl | rfl | rfl <;> rfl
    rw [encodePart_hidden hnd (oneOf_name hem) hty, hve] at hey
    have key : ∃ n s i c, e.ty = .ptr (.named n) ∧ GoMap.get? V30.table n = some (.struct s) ∧
        s.parts = .consts (("in", i) :: c) :: s.parts.tail := by
      simp only [V30.sParameterLocation, List.mem_cons, List.not_mem_nil, or_false] at hem
      rcases hem with rfl | rfl | rfl | rfl
      · exact ⟨_, V30.sPathParameter, _, _, rfl, by decide +kernel, rfl⟩
      · exact ⟨_, V30.sQueryParameter, _, _, rfl, by decide +kernel, rfl⟩
      · exact ⟨_, V30.sHeaderParameter, _, _, rfl, by decide +kernel, rfl⟩
      · exact ⟨_, V30.sCookieParameter, _, _, rfl, by decide +kernel, rfl⟩
    obtain ⟨n, s, i, c, e1, e2, e3⟩ := key
    rw [e1] at hey hw
    rw [decode_ptr_obj ranked30 rfl] at hw
    obtain ⟨fs, rfl, _⟩ := decode_names ranked30 e2 hw
    rw [encode_ptr _ (by intro h; cases h)] at hey
    obtain ⟨Me, rfl, hM⟩ := consts_written e2 e3 (by simp) hey
    have hin := hM ("in", i) List.mem_cons_self
    obtain ⟨M', rfl, hs⟩ := unionJ_sublist he (as := [Me]) (by simpa using hy) (by simp) (by
      intro a ha
      rw [List.mem_singleton] at ha
      subst ha
      rintro rfl
      cases hin)
    refine ⟨M', rfl, ?_⟩
    obtain ⟨p, hp, hpe⟩ := List.mem_map.1 hin
    exact List.mem_map.2 ⟨p, hs.subset (by simpa using hp), hpe⟩
  · cases he

/-- A parameter that was read is written with `in` twice. -/
theorem parameter_repeats {j j' : Any} {v : Val} (h : decode V30.table N (.named "Parameter") j = some v)
    (he : encode V30.table (.named "Parameter") v = some j') :
    ∃ M, j' = .obj M ∧ 2 ≤ (M.map Prod.fst).count "in" := by
  have hn : GoMap.get? V30.table "Parameter" = some (.struct V30.sParameter) := by decide +kernel
  obtain ⟨M, val, rfl, L⟩ := loaded ranked30 hn (by decide) (.inl rfl) h
  have hj := loaded_obj L (L.require "in" (by decide))
  subst hj
  have hnd : V30.sParameter.names.Nodup := by decide
  have hloc := L.embeds ⟨"Location", .ptr (.named "ParameterLocation")⟩ (by decide)
  simp only [decode_ptr_obj ranked30 (show notPtr (.named "ParameterLocation") = true from rfl)] at hloc
  unfold structOf at he
  rw [encode_struct hn] at he
  split at he
  · rename_i js hjs
    rw [show V30.sParameter.parts = [.fields, .hidden "MapOfAnything", .hidden "SchemaXORContent", .hidden "Location"] from rfl] at hjs
    simp only [mapAll] at hjs
    rw [encodePart_hidden (go := "Location") (ty := .ptr (.named "ParameterLocation")) hnd (by decide) rfl] at hjs
    split at hjs
    · rename_i a r ha hr
      split at hr
      · rename_i b r' hb hr'
        split at hr'
        · rename_i c r'' hc hr''
          split at hr''
          · rename_i d r3 hd hr3
            cases hr3; cases hr''; cases hr'; cases hr; cases hjs
            have hne : val "Location" ≠ .nil := by
              intro e
              rw [e] at hloc
              obtain ⟨gs, e, _⟩ := decode_names ranked30 (n := "ParameterLocation") (s := V30.sParameterLocation) (by decide +kernel) hloc
              cases e
            rw [encode_ptr _ hne] at hd
            obtain ⟨Md, rfl, hin⟩ := location_written hloc hd
            simp only [encodePart] at ha
            rw [Option.map_eq_some_iff] at ha
            obtain ⟨Ma, hMa, rfl⟩ := ha
            have hin' := encodeFields_key hMa (f := ⟨"In", "in", .named "ParameterIn", false⟩) (by decide) rfl
            obtain ⟨M', rfl, hs⟩ := unionJ_sublist he (as := [Ma, Md]) (by
                refine List.Sublist.cons_cons _ (List.Sublist.cons _ (List.Sublist.cons _ (List.Sublist.refl _))))
              (by simp) (by
                intro x hx
                simp only [List.mem_cons, List.not_mem_nil, or_false] at hx
                rcases hx with rfl | rfl
                · rintro rfl; cases hin'
                · rintro rfl; cases hin)
            refine ⟨M', rfl, ?_⟩
            have h1 := (hs.map Prod.fst).count_le "in"
            simp only [List.flatten_cons, List.flatten_nil, List.append_nil, List.map_append, List.count_append] at h1
            have h2 := List.count_pos_iff.2 hin
            have h3 := List.count_pos_iff.2 hin'
            simp only at h3
            omega
          · cases hr''
        · cases hr'
      · cases hr
    · cases hjs
  · cases he

end Verif
