import Verif.Spec.Sorted
import Verif.Lemmas.SortedRead
import Verif.Props.Distinct

/-! The order of map entries does not show (C100). -/

namespace Verif
open Codec Spec Conform Grammar

/-- **C100.** What is written does not depend on the order in which the entries of the maps are listed: two values that differ
only in this are written as the same text, or neither is written. -/
theorem C100_order (T : Table) (ty : Ty) (v w : Val) (hk : KeysOnce v) (h : ReorderedVal v w) :
    Text.save T ty v = Text.save T ty w := by
  unfold Text.save
  rw [sortedVal_eq hk h]

/-- **C100.** The text is that of the value with the entries of every map listed in ascending order of their keys. -/
theorem C100_ascending (T : Table) (ty : Ty) (v : Val) (hk : KeysOnce v) :
    ∃ w, ReorderedVal v w ∧ AscendingVal w ∧ Text.save T ty v = Text.marshal T ty w :=
  ⟨sortedVal v, sortedVal_reordered v, sortedVal_ascending hk, rfl⟩

/-- If there is such a value, it is the only one. -/
theorem C100_unique (T : Table) (ty : Ty) (v w : Val) (hk : KeysOnce v) (h : ReorderedVal v w) (ha : AscendingVal w) :
    Text.save T ty v = Text.marshal T ty w := by
  rw [C100_order T ty v w hk h]
  unfold Text.save
  rw [sortedVal_id ha]

/-- **C100.** The JSON of the text is that of the entity (C75, C85), up to the order of members. -/
theorem C100_says {T : Table} (hT : Text.wideTable T = true) (n : String) (v : Val) (hv : Numeric v) (j : Any)
    (he : encode T (.named n) v = some j) (cs : List Char) (h : Text.save T (.named n) v = .ok cs) :
    ∃ j', JSONText cs j' ∧ Reordered Eq j j' := by
  obtain ⟨j', h1, h2⟩ := encode_sorted he
  obtain ⟨j'', h3, h4, _⟩ := written_json hT (numeric_sorted v hv) h
  rw [h1] at h3
  cases h3
  exact ⟨j', h4, h2⟩

/-- An entity that cannot be written is not written either if its maps are sorted. -/
theorem C100_unwritten {T : Table} (hT : Text.wideTable T = true) (n : String) (v : Val) (h : encode T (.named n) v = none) :
    Text.save T (.named n) v = .err := by
  have hr := encode_rel (T := T) (sizeOf v) v (sortedVal v) (.named n) (Nat.le_refl _) (sortedVal_reordered v)
  rw [h] at hr
  have hm := Text.marshal_rel hT (.named n) (sortedVal v)
  cases e : encode T (.named n) (sortedVal v) with
  | none => rw [e] at hm; exact hm
  | some b => rw [e] at hr; exact hr.elim

theorem mapAll_keys {α β : Type} {f : α → Option β} : ∀ {ms : List (String × α)} {js : List (String × β)},
    mapAll (fun p => (f p.2).map (fun j => (p.1, j))) ms = some js → js.map Prod.fst = ms.map Prod.fst
  | [], _, h => by cases h; rfl
  | (k, x) :: ms, js, h => by
    unfold mapAll at h
    cases e : f x with
    | none => simp [e] at h
    | some y =>
      cases e' : mapAll (fun p => (f p.2).map (fun j => (p.1, j))) ms with
      | none => simp [e, e'] at h
      | some ys =>
        simp only [e, e', Option.map_some, Option.some.injEq] at h
        subst h
        simp [mapAll_keys e']

/-- **C100.** The text of a map has the keys of the map, in ascending order. -/
theorem C100_keys {T : Table} (hT : Text.wideTable T = true) (t : Ty) (ms : List (String × Val)) (hv : Numeric (.map ms))
    (hk : KeysOnce (.map ms)) (cs : List Char) (h : Text.save T (.map t) (.map ms) = .ok cs) :
    ∃ js, JSONText cs (.obj js) ∧ Ascending (js.map Prod.fst) ∧ (js.map Prod.fst).Perm (ms.map Prod.fst) := by
  have hm := Text.marshal_rel hT (.map t) (sortedVal (.map ms))
  have ha := sortedVal_ascending hk
  have hn := numeric_sorted _ hv
  unfold Text.save at h
  rw [h] at hm
  cases e : encode T (.map t) (sortedVal (.map ms)) with
  | none => rw [e] at hm; cases hm
  | some j =>
    rw [e] at hm
    have hj := Text.encode_numbers hn e
    simp only [sortedVal] at e ha
    rw [encode_map] at e
    obtain ⟨js, e1, rfl⟩ := Option.map_eq_some_iff.1 e
    have hkeys := mapAll_keys e1
    rcases hm.1 with ht | ht
    · cases ht
      refine ⟨js, Text.text_json hj, by rw [hkeys]; exact ha.1, ?_⟩
      rw [hkeys]
      have := sortKeys_keys (sortedEntries ms)
      rwa [sortedEntries_keys] at this
    · cases ht

/-! ## OpenAPI 3.1 -/

/-- **C100**, 3.1: the text of a value that can be written and read back is read as the same value, up to the order of entries,
and what was read is written as the same text. -/
theorem C100_text31 (N : Nums) (hP : PrintsNumbers N) (n : String) (v : Val) (h : Writable V31.table N ok31 (.named n) v)
    (cs : List Char) (hw : Text.save V31.table (.named n) v = .ok cs) :
    ∃ w, Text.unmarshal V31.table N (.named n) cs = some w ∧ (∃ u, ReorderedVal v u ∧ Same u w) ∧
      Text.save V31.table (.named n) w = .ok cs := by
  have hs := writable_sorted31 h
  have hv := Text.writable_numeric hP hs
  obtain ⟨w, h1, h2⟩ := C99_text31 N n _ hs hv cs hw
  obtain ⟨w', h3, h4⟩ := C94_roundtrip31 N n _ hs hv cs hw
  rw [h1] at h3
  cases h3
  refine ⟨w, h1, ⟨_, sortedVal_reordered v, h4⟩, ?_⟩
  unfold Text.save
  rw [sortedVal_id (same_ascending h4 (sortedVal_ascending (writable_keysOnce h)) (.inl (notSpecial31 hs)))]
  exact h2

/-- **C100**, 3.1, files of others. -/
theorem C100_loaded31 (N : Nums) (hN : NumsOk N) (hP : PrintsNumbers N) (n : String) (hn : n ≠ "NonBearer")
    (cs : List Char) (v : Val) (h : Text.unmarshal V31.table N (.named n) cs = some v) (hc : Everywhere clean31 v)
    (cs1 : List Char) (h1 : Text.save V31.table (.named n) v = .ok cs1) :
    ∃ w, Text.unmarshal V31.table N (.named n) cs1 = some w ∧ (∃ u, ReorderedVal v u ∧ Same u w) ∧
      Text.save V31.table (.named n) w = .ok cs1 := by
  obtain ⟨j, _, _, hj⟩ := (C95_reads _ _ _ _ _).1 h
  exact C100_text31 N hP n v (load (loadFacts31 hN) j _ v (by simpa [tyOk, bad31] using hn) hj hc) cs1 h1

/-- **C100**, 3.1, documents: the text of a document that was built by any sequence of calls is the same whatever the order of
the entries of its maps. It is read as the document, and what was read is written as the same text. -/
theorem C100_built31 (N : Nums) (hN : PrintsNumbers N) (env : String → Meta31.Sem) (hE : Meta31.Meaning Meta31.defs31 env)
    (toSimpleMap : JS → Except String Pub31.Schema)
    (h0 : ∀ format, Pub31.JsonOk N toSimpleMap .content (stringJS format)) (d : V31.Spec Pub31.Schema)
    (h : Pub31.Built (V31.ver toSimpleMap) (Pub31.JsonOk N toSimpleMap) (Pub31.SchemaOk N) d)
    (cs : List Char) (hw : Text.save V31.table (.named "Spec") (Pub31.docVal d) = .ok cs) :
    (∀ u, ReorderedVal (Pub31.docVal d) u → Text.save V31.table (.named "Spec") u = .ok cs) ∧
    ∃ w, Text.unmarshal V31.table N (.named "Spec") cs = some w ∧ (∃ u, ReorderedVal (Pub31.docVal d) u ∧ Same u w) ∧
      Text.save V31.table (.named "Spec") w = .ok cs :=
  ⟨fun u hu => by rw [← C100_order _ _ _ _ (writable_keysOnce (writable_built31 hE h0 h)) hu]; exact hw,
    C100_text31 N hN _ _ (writable_built31 hE h0 h) cs hw⟩

/-! ## OpenAPI 3.0 -/

/-- What was read from the text of a value with its maps in order has its maps in order, if the raw copies of parameters do. -/
theorem back_ascending {N : Nums} (hP : PrintsNumbers N) {n : String} {lo : Prop} {v w : Val}
    (h : Writable V30.table N ok30 (.named n) v) (ha : AscendingVal v) (hw : Writable V30.table N ok30 (.named n) w)
    (hs : Everywhere (settled N lo AscendingAny) w) {cs : List Char} (hm : Text.marshal V30.table (.named n) v = .ok cs)
    (hu : Text.unmarshal V30.table N (.named n) cs = some w) : AscendingVal w := by
  obtain ⟨w', h3, h4⟩ := C94_roundtrip30 N n v h (Text.writable_numeric hP h) cs hm
  rw [hu] at h3
  cases h3
  exact same_ascending h4 ha (.inr (derived30 hw fun fs hp e => (settled_raw hs fs hp e).2))

/-- Whatever was read from a text is saved as it was from the second time on, if the raw copies that parameters have of their
schema or content are copies also with their maps in order. -/
theorem saved_again (N : Nums) (hN : NumsOk N) (hP : PrintsNumbers N) (hI : ∀ l, N.i64 l = some l → N.f64 l ≠ none)
    (n : String) (hn : n ∉ ["NonBearer", "SchemaXORContent"]) (cs : List Char) (v : Val)
    (h : Text.unmarshal V30.table N (.named n) cs = some v) (hc : Everywhere (clean30 N) v)
    (hc' : Everywhere (clean30 N) (sortedVal v))
    (cs1 : List Char) (h1 : Text.save V30.table (.named n) v = .ok cs1) :
    ∃ v1, Text.unmarshal V30.table N (.named n) cs1 = some v1 ∧ (∃ u, ReorderedVal v u ∧ Same u v1) ∧
      ∀ cs2, Text.save V30.table (.named n) v1 = .ok cs2 →
        ∃ v2, Text.unmarshal V30.table N (.named n) cs2 = some v2 ∧ Same v1 v2 ∧
          Text.save V30.table (.named n) v2 = .ok cs2 := by
  obtain ⟨j, _, _, hj⟩ := (C95_reads _ _ _ _ _).1 h
  have hw := load (loadFacts30 hN) j _ v (tyOk_bad hn) hj hc
  have hl : Everywhere located v := decode_located (by simp [tyOk]) hj
  have hws := writable_sorted sorted_ok30 hw (clean_rawSorted hc')
  have hk := sortedVal_ascending (writable_keysOnce hw)
  obtain ⟨j1, v1, e1, d1, w1, s1⟩ := settles_step (lo := True) hN hI hn hws (clean_exact hc') (fun _ => sorted_located hl)
    (clean_rawIn hk hc')
  have hu := reads_text (Text.writable_numeric hP hws) e1 d1 h1
  obtain ⟨v1', hu', hs⟩ := C94_roundtrip30 N n _ hws (Text.writable_numeric hP hws) cs1 h1
  rw [hu] at hu'
  cases hu'
  have a1 := back_ascending hP hws hk w1 s1 h1 hu
  refine ⟨v1, hu, ⟨_, sortedVal_reordered v, hs⟩, fun cs2 h2 => ?_⟩
  unfold Text.save at h2 ⊢
  rw [sortedVal_id a1] at h2
  obtain ⟨v2, hu2, hs2, h3⟩ := C99_loaded30 N hN hP n hn cs1 v1 hu (settled_clean s1) (settled_filled s1) cs2 h2
  obtain ⟨j2, v2', e2, d2, w2, s2⟩ := settles_step (lo := True) hN hI hn w1 (clean_exact (settled_clean s1))
    (fun _ => settled_located s1) (settled_raw s1)
  have hu2' := reads_text (Text.writable_numeric hP w1) e2 d2 h2
  rw [hu2] at hu2'
  cases hu2'
  have a2 := back_ascending hP w1 a1 w2 s2 h2 hu2
  refine ⟨v2, hu2, hs2, ?_⟩
  rw [sortedVal_id a2]
  exact h3

/-- **C100**, 3.0, files of others: whatever was read from a text and is saved, loaded and saved again is then saved as it was
any number of times more. The parameters of the file are as described (C73), and it has one spelling of the name of each
field (C74). -/
theorem C100_loaded30 (N : Nums) (hN : NumsOk N) (hP : PrintsNumbers N) (hI : ∀ l, N.i64 l = some l → N.f64 l ≠ none)
    (n : String) (hn : n ∉ ["NonBearer", "SchemaXORContent"]) (cs : List Char) (j : Any) (hj : JSONText cs j)
    (hk : ClearAs V30.table (.named n) j) (v : Val)
    (h : Text.unmarshal V30.table N (.named n) cs = some v) (hc : Everywhere (clean30 N) v)
    (cs1 : List Char) (h1 : Text.save V30.table (.named n) v = .ok cs1) :
    ∃ v1, Text.unmarshal V30.table N (.named n) cs1 = some v1 ∧ (∃ u, ReorderedVal v u ∧ Same u v1) ∧
      ∀ cs2, Text.save V30.table (.named n) v1 = .ok cs2 →
        ∃ v2, Text.unmarshal V30.table N (.named n) cs2 = some v2 ∧ Same v1 v2 ∧
          Text.save V30.table (.named n) v2 = .ok cs2 := by
  obtain ⟨j', hj', _, hd⟩ := (C95_reads _ _ _ _ _).1 h
  cases C95_unique _ _ _ hj hj'
  exact saved_again N hN hP hI n hn cs v h hc (clean_sorted hN hc (decode_clearRaw (by simp [tyOk]) hk hd)) cs1 h1

/-- **C100**, 3.0, values that were not read: if their numbers are printed as `float64` are, their text is read as the same
value, up to the order of entries. Saving what was read and loading it twice leads to a text that stays as it is. -/
theorem C100_text30 (N : Nums) (hN : NumsOk N) (hP : PrintsNumbers N) (hI : ∀ l, N.i64 l = some l → N.f64 l ≠ none)
    (n : String) (hn : n ∉ ["NonBearer", "SchemaXORContent"]) (v : Val) (h : Writable V30.table N ok30 (.named n) v)
    (hd : Everywhere noDerived v) (hf : ∀ l ∈ numbersOf v, N.f64 l = some l)
    (cs : List Char) (h0 : Text.save V30.table (.named n) v = .ok cs) :
    ∃ v0, Text.unmarshal V30.table N (.named n) cs = some v0 ∧ (∃ u, ReorderedVal v u ∧ Same u v0) ∧
      Everywhere (clean30 N) v0 ∧
      ∀ cs1, Text.save V30.table (.named n) v0 = .ok cs1 →
        ∃ v1, Text.unmarshal V30.table N (.named n) cs1 = some v1 ∧ (∃ u, ReorderedVal v0 u ∧ Same u v1) ∧
          ∀ cs2, Text.save V30.table (.named n) v1 = .ok cs2 →
            ∃ v2, Text.unmarshal V30.table N (.named n) cs2 = some v2 ∧ Same v1 v2 ∧
              Text.save V30.table (.named n) v2 = .ok cs2 := by
  have hw := writable_sorted sorted_ok30 h (noDerived_rawSorted hd)
  obtain ⟨j, v0, e0, d0, w0, s0⟩ := settles_step (lo := False) (R := fun _ => True) hN hI hn hw
    (writable_exact hw (sorted_noDerived hd) (Numbers.numIn_of _ fun l hl => hf l (numbers_sorted v l hl)))
    (fun h => h.elim) rawIn_true
  have hu := reads_text (Text.writable_numeric hP hw) e0 d0 h0
  obtain ⟨v0', hu', hs⟩ := C94_roundtrip30 N n _ hw (Text.writable_numeric hP hw) cs h0
  rw [hu] at hu'
  cases hu'
  refine ⟨v0, hu, ⟨_, sortedVal_reordered v, hs⟩, settled_clean s0, fun cs1 h1 => ?_⟩
  have hk := C75_spellings30 N _ _ hw (sorted_noDerived hd) j e0
  exact saved_again N hN hP hI n hn cs v0 hu (settled_clean s0)
    (clean_sorted hN (settled_clean s0) (decode_clearRaw (by simp [tyOk]) hk d0)) cs1 h1

/-- **C100**, 3.0, documents: the text of a document that was built by any sequence of calls is the same whatever the order of
the entries of its maps. It is read as the document. Saving what was read and loading it twice leads to a text that stays as
it is. -/
theorem C100_built30 (N : Nums) (hN : NumsOk N) (hP : PrintsNumbers N) (lit : F64 → String)
    (hF : ∀ l, N.i64 l = some l → N.f64 l ≠ none) (h0 : Pub30.IntOk N 0) (d : V30.Spec V30.OS)
    (h : Pub30.Built V30.ver (Always (Pub30.JsonOk N lit)) (Always (Pub30.SchemaOk N lit)) d)
    (hf : ∀ l ∈ numbersOf (Pub30.docVal (Pub30.schemaVal lit) d), N.f64 l = some l)
    (cs : List Char) (hw : Text.save V30.table (.named "Spec") (Pub30.docVal (Pub30.schemaVal lit) d) = .ok cs) :
    (∀ u, ReorderedVal (Pub30.docVal (Pub30.schemaVal lit) d) u → Text.save V30.table (.named "Spec") u = .ok cs) ∧
    ∃ v0, Text.unmarshal V30.table N (.named "Spec") cs = some v0 ∧
      (∃ u, ReorderedVal (Pub30.docVal (Pub30.schemaVal lit) d) u ∧ Same u v0) ∧ Everywhere (clean30 N) v0 ∧
      ∀ cs1, Text.save V30.table (.named "Spec") v0 = .ok cs1 →
        ∃ v1, Text.unmarshal V30.table N (.named "Spec") cs1 = some v1 ∧ (∃ u, ReorderedVal v0 u ∧ Same u v1) ∧
          ∀ cs2, Text.save V30.table (.named "Spec") v1 = .ok cs2 →
            ∃ v2, Text.unmarshal V30.table N (.named "Spec") cs2 = some v2 ∧ Same v1 v2 ∧
              Text.save V30.table (.named "Spec") v2 = .ok cs2 :=
  ⟨fun u hu => by rw [← C100_order _ _ _ _ (writable_keysOnce (writable_built30 hF h0 h)) hu]; exact hw,
    C100_text30 N hN hP hF _ (by decide) _ (writable_built30 hF h0 h)
      (Pub30.good_doc hF Pub30.schemaVals_ok (C83_in_order (Pub30.converts30 h0) d h)).fresh hf cs hw⟩

/-! ## Concrete cases -/

/-- Two paths, listed in this order. -/
def twoPaths (a b : String) : Val := withFields V31.sPaths [("MapOfPathItemValues", .map
  [(a, withFields V31.sPathItem [("Summary", .str a)]), (b, withFields V31.sPathItem [("Summary", .str b)])])]

/-- They are written in the order of their names, in whichever order they are listed. -/
theorem C100_case_order :
    Text.save V31.table (.named "Paths") (twoPaths "/b" "/a") =
      .ok "{\"/a\":{\"summary\":\"/a\"},\"/b\":{\"summary\":\"/b\"}}".toList ∧
    Text.save V31.table (.named "Paths") (twoPaths "/a" "/b") = Text.save V31.table (.named "Paths") (twoPaths "/b" "/a") ∧
    Text.marshal V31.table (.named "Paths") (twoPaths "/a" "/b") ≠ Text.marshal V31.table (.named "Paths") (twoPaths "/b" "/a") :=
  ⟨by decide +kernel, by decide +kernel, by decide +kernel⟩

/-- The document of C35 has a text and is read back. -/
theorem C100_case31 : ∃ cs, Text.save V31.table (.named "Spec") sample31 = .ok cs ∧ KeysOnce sample31 :=
  have ⟨cs, h⟩ : ∃ cs, Text.save V31.table (.named "Spec") sample31 = .ok cs := hasText_sound (by decide +kernel)
  ⟨cs, h, writable_keysOnce C35_case31⟩

/-- So have the documents of C83 and C84, which are built by calls. -/
theorem C100_case_built30 : ∃ cs, Text.save V30.table (.named "Spec") (Pub30.docVal (Pub30.schemaVal Ex83.lit)
    (Ex83.doc (Ex83.fieldId (Ex83.typed "integer") false ""))) = .ok cs := hasText_sound (by decide +kernel)

theorem C100_case_built31 : ∃ cs, Text.save V31.table (.named "Spec") (Pub31.docVal
    (Ex84.doc (Ex84.fieldId (Ex83.typed "integer") false "") (Ex83.typed "integer") 201)) = .ok cs :=
  hasText_sound (by decide +kernel)

mutual
theorem eqV_refl : ∀ v : Val, eqV v v = true
  | .nil => rfl
  | .any a => by simp [eqV, eqA_refl a]
  | .bool _ => by simp [eqV]
  | .str _ => by simp [eqV]
  | .num _ => by simp [eqV]
  | .list vs => by simp [eqV, eqVs_refl vs]
  | .map ms => by simp [eqV, eqVm_refl ms]
  | .struct fs => by simp [eqV, eqVm_refl fs]
theorem eqVs_refl : ∀ vs : List Val, eqVs vs vs = true
  | [] => rfl
  | v :: vs => by simp [eqVs, eqV_refl v, eqVs_refl vs]
theorem eqVm_refl : ∀ ms : List (String × Val), eqVm ms ms = true
  | [] => rfl
  | (_, v) :: ms => by simp [eqVm, eqV_refl v, eqVm_refl ms]
end

/-- The document of C73 has one spelling of each field name. It is read, its maps are not in order, and it is written. -/
theorem C100_case_loaded30 : ∃ v cs, JSONText (text loadDoc30) loadDoc30 ∧ ClearAs V30.table (.named "Spec") loadDoc30 ∧
    Text.unmarshal V30.table jsonNums (.named "Spec") (text loadDoc30) = some v ∧
    Everywhere (clean30 jsonNums) v ∧ sortedVal v ≠ v ∧ Text.save V30.table (.named "Spec") v = .ok cs := by
  have ht : JSONText (text loadDoc30) loadDoc30 := Text.text_json (Text.numbersB_sound _ (by decide +kernel))
  have h : (match decode V30.table jsonNums (.named "Spec") loadDoc30 with
    | some v => everywhereB (clean30B jsonNums) v && !eqV (sortedVal v) v && hasText (Text.save V30.table (.named "Spec") v)
    | none => false) = true := by decide +kernel
  split at h
  · rename_i v hv
    simp only [Bool.and_eq_true] at h
    obtain ⟨cs, hcs⟩ := hasText_sound h.2
    refine ⟨v, cs, ht, clear_as (clearB_sound _ (by decide +kernel)) _,
      (C95_reads _ _ _ _ _).2 ⟨_, ht, by decide +kernel, hv⟩, everywhereB_sound clean30B_sound h.1.1, ?_, hcs⟩
    intro e
    rw [e, eqV_refl] at h
    exact absurd h.1.2 (by decide)
  · cases h

end Verif
