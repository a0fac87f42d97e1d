import Verif.Lemmas.Exact
import Verif.Props.Again

/-! Saving a 3.0 document again and again: it stops changing (C99). -/

namespace Verif
open Codec Spec Conform Grammar

variable {N : Nums}

theorem settled_clean {lo : Prop} {R : Any → Prop} {v : Val} (h : Everywhere (settled N lo R) v) : Everywhere (clean30 N) v :=
  fun gs hp => (h gs hp).1

theorem settled_filled {R : Any → Prop} {v : Val} (h : Everywhere (settled N True R) v) : Everywhere (filled N) v := fun gs hp =>
  ⟨(h gs hp).2.1, fun e => ⟨((h gs hp).2.2 e).1, ((h gs hp).2.2 e).2.1 trivial, ((h gs hp).2.2 e).2.2.1⟩⟩

theorem settled_raw {lo : Prop} {R : Any → Prop} {v : Val} (h : Everywhere (settled N lo R) v) : Everywhere (rawIn R) v :=
  fun gs hp e => ⟨fun en => (by
    rcases ((h gs hp).2.2 e).2.2.1 with ⟨b, hb, _⟩ | ⟨b, hb, _⟩ <;> rw [en] at hb <;> cases hb), ((h gs hp).2.2 e).2.2.2⟩

theorem rawIn_true {v : Val} : Everywhere (rawIn fun _ => True) v := fun _ _ _ => ⟨fun _ _ => trivial, fun _ _ => trivial⟩

theorem settled_located {lo : Prop} {R : Any → Prop} {v : Val} (h : Everywhere (settled N lo R) v) : Everywhere located v :=
  fun gs hp e => ((h gs hp).2.2 e).1

theorem clean_exact {v : Val} (h : Everywhere (clean30 N) v) : Everywhere (exact N) v := by
  intro gs hp e1 e2
  rcases h gs hp e1 with ⟨b, hb, _⟩ | ⟨b, hb, _⟩ <;> rw [hb] at e2 <;> cases e2

theorem tyOk_bad {n : String} (hn : n ∉ ["NonBearer", "SchemaXORContent"]) : tyOk bad30 (.named n) = true := by
  simpa [tyOk, bad30] using hn

/-- Writing a value and reading it: what is read can be written and read again, the fields that repeat others are filled in
except possibly for styles, and for these too if the locations of parameters were. -/
theorem settles_step (hN : NumsOk N) (hI : ∀ l, N.i64 l = some l → N.f64 l ≠ none) {n : String}
    (hn : n ∉ ["NonBearer", "SchemaXORContent"]) {lo : Prop} {R : Any → Prop} {v : Val} (h : Writable V30.table N ok30 (.named n) v)
    (hx : Everywhere (exact N) v) (hl : lo → Everywhere located v) (hr : Everywhere (rawIn R) v) :
    ∃ j w, encode V30.table (.named n) v = some j ∧ decode V30.table N (.named n) j = some w ∧
      Writable V30.table N ok30 (.named n) w ∧ Everywhere (settled N lo R) w := by
  obtain ⟨j, w, h1, h2, _⟩ := C35_roundtrip30 N _ v h
  have hs := (writable_settles hN hI h hx hl hr).1
  rw [rt_eq h1 h2] at hs
  exact ⟨j, w, h1, h2, load (loadFacts30 hN) j _ w (tyOk_bad hn) h2 (settled_clean hs), hs⟩

/-- A text that was written for a value that can be written and read back is read as what the JSON of the value is read as. -/
theorem reads_text {n : String} {v : Val} (hv : Numeric v) {j : Any} {w : Val} (he : encode V30.table (.named n) v = some j)
    (hd : decode V30.table N (.named n) j = some w) {cs : List Char} (hw : Text.marshal V30.table (.named n) v = .ok cs) :
    Text.unmarshal V30.table N (.named n) cs = some w := by
  obtain ⟨rfl, hdep, hn⟩ := marshal_says wide30 hv he hw
  unfold Text.unmarshal
  rw [(C95_parse _ _).2 ⟨Text.text_json hn, hdep⟩]
  exact hd

/-- **C99**, 3.0, files of others: whatever was read from a text and is saved, loaded and saved again is then saved as it was
any number of times more: the second text is read, and writing what was read gives this text, to the byte. Only the first
text may differ, since reading it fills in the fields that repeat others. -/
theorem C99_settles_loaded30 (N : Nums) (hN : NumsOk N) (hP : PrintsNumbers N) (hI : ∀ l, N.i64 l = some l → N.f64 l ≠ none)
    (n : String) (hn : n ∉ ["NonBearer", "SchemaXORContent"]) (cs : List Char) (v : Val)
    (h : Text.unmarshal V30.table N (.named n) cs = some v) (hc : Everywhere (clean30 N) v)
    (cs1 : List Char) (h1 : Text.marshal V30.table (.named n) v = .ok cs1) :
    ∃ v1, Text.unmarshal V30.table N (.named n) cs1 = some v1 ∧ Same v v1 ∧
      ∀ cs2, Text.marshal V30.table (.named n) v1 = .ok cs2 →
        ∃ v2, Text.unmarshal V30.table N (.named n) cs2 = some v2 ∧ Same v1 v2 ∧
          Text.marshal V30.table (.named n) v2 = .ok cs2 := by
  obtain ⟨j, _, _, hj⟩ := (C95_reads _ _ _ _ _).1 h
  have hw := load (loadFacts30 hN) j _ v (tyOk_bad hn) hj hc
  have hl : Everywhere located v := decode_located (by simp [tyOk]) hj
  obtain ⟨j1, v1, e1, d1, w1, s1⟩ := settles_step (lo := True) hN hI hn hw (clean_exact hc) (fun _ => hl) rawIn_true
  have hu := reads_text (Text.writable_numeric hP hw) e1 d1 h1
  obtain ⟨v1', hu', hs⟩ := C94_roundtrip30 N n v hw (Text.writable_numeric hP hw) cs1 h1
  rw [hu] at hu'
  cases hu'
  exact ⟨v1, hu, hs, fun cs2 h2 => C99_loaded30 N hN hP n hn cs1 v1 hu (settled_clean s1) (settled_filled s1) cs2 h2⟩

/-- **C99**, 3.0, values that were not read: if their numbers are printed as `float64` are, the third text is the last. -/
theorem C99_settles30 (N : Nums) (hN : NumsOk N) (hP : PrintsNumbers N) (hI : ∀ l, N.i64 l = some l → N.f64 l ≠ none)
    (n : String) (hn : n ∉ ["NonBearer", "SchemaXORContent"]) (v : Val) (h : Writable V30.table N ok30 (.named n) v)
    (hd : Everywhere noDerived v) (hf : ∀ l ∈ numbersOf v, N.f64 l = some l)
    (cs : List Char) (h0 : Text.marshal V30.table (.named n) v = .ok cs) :
    ∃ v0, Text.unmarshal V30.table N (.named n) cs = some v0 ∧ Same v v0 ∧
      ∀ cs1, Text.marshal V30.table (.named n) v0 = .ok cs1 →
        ∃ v1, Text.unmarshal V30.table N (.named n) cs1 = some v1 ∧ Same v0 v1 ∧
          ∀ cs2, Text.marshal V30.table (.named n) v1 = .ok cs2 →
            ∃ v2, Text.unmarshal V30.table N (.named n) cs2 = some v2 ∧ Same v1 v2 ∧
              Text.marshal V30.table (.named n) v2 = .ok cs2 := by
  obtain ⟨j, v0, e0, d0, w0, s0⟩ := settles_step (lo := False) hN hI hn h
    (writable_exact h hd (Numbers.numIn_of v hf)) (fun h => h.elim) rawIn_true
  have hu := reads_text (Text.writable_numeric hP h) e0 d0 h0
  obtain ⟨v0', hu', hs⟩ := C94_roundtrip30 N n v h (Text.writable_numeric hP h) cs h0
  rw [hu] at hu'
  cases hu'
  exact ⟨v0, hu, hs, fun cs1 h1 => C99_settles_loaded30 N hN hP hI n hn cs v0 hu (settled_clean s0) cs1 h1⟩

/-- **C99**, 3.0, documents: the text of a document that was built by any sequence of calls is read; saving what was read and
loading it twice leads to a text that stays as it is. -/
theorem C99_settles_built30 (N : Nums) (hN : NumsOk N) (hP : PrintsNumbers N) (lit : F64 → String)
    (hF : ∀ l, N.i64 l = some l → N.f64 l ≠ none) (h0 : Pub30.IntOk N 0) (d : V30.Spec V30.OS)
    (h : Pub30.Built V30.ver (Always (Pub30.JsonOk N lit)) (Always (Pub30.SchemaOk N lit)) d)
    (hf : ∀ l ∈ numbersOf (Pub30.docVal (Pub30.schemaVal lit) d), N.f64 l = some l)
    (cs : List Char) (hw : Text.marshal V30.table (.named "Spec") (Pub30.docVal (Pub30.schemaVal lit) d) = .ok cs) :
    ∃ v0, Text.unmarshal V30.table N (.named "Spec") cs = some v0 ∧ Same (Pub30.docVal (Pub30.schemaVal lit) d) v0 ∧
      ∀ cs1, Text.marshal V30.table (.named "Spec") v0 = .ok cs1 →
        ∃ v1, Text.unmarshal V30.table N (.named "Spec") cs1 = some v1 ∧ Same v0 v1 ∧
          ∀ cs2, Text.marshal V30.table (.named "Spec") v1 = .ok cs2 →
            ∃ v2, Text.unmarshal V30.table N (.named "Spec") cs2 = some v2 ∧ Same v1 v2 ∧
              Text.marshal V30.table (.named "Spec") v2 = .ok cs2 :=
  C99_settles30 N hN hP hF _ (by decide) _ (writable_built30 hF h0 h)
    (Pub30.good_doc hF Pub30.schemaVals_ok (C83_in_order (Pub30.converts30 h0) d h)).fresh hf cs hw

/-! ## Concrete cases -/

theorem jsonNums_ok : NumsOk jsonNums where
  f64 := by
    intro l l' h
    simp only [jsonNums] at h ⊢
    split at h
    · rename_i hl; cases h; rw [if_pos hl]
    · cases h
  i64 := by
    intro l l' h
    simp only [jsonNums] at h ⊢
    split at h
    · rename_i hl; cases h; rw [if_pos hl]
    · cases h
  f64zero := by decide +kernel
  i64zero := by decide +kernel

/-- The document of C83, which is built by calls, has such numbers, and some. -/
theorem C99_case_numbers30 : ∀ l ∈ numbersOf (Pub30.docVal (Pub30.schemaVal Ex83.lit)
    (Ex83.doc (Ex83.fieldId (Ex83.typed "integer") false ""))), jsonNums.f64 l = some l := by
  have h : (numbersOf (Pub30.docVal (Pub30.schemaVal Ex83.lit) (Ex83.doc (Ex83.fieldId (Ex83.typed "integer") false "")))).all
      Text.numberB = true := by decide +kernel
  intro l hl
  exact if_pos (List.all_eq_true.1 h l hl)

/-- Saving it, loading and saving twice: the last text stays as it is. -/
theorem C99_case_settles30 (env : String → Any → Prop) (hE : Meta.Meaning Meta.defs30 (fun _ => True) env) :
    ∃ cs v0, Text.marshal V30.table (.named "Spec") (Pub30.docVal (Pub30.schemaVal Ex83.lit)
        (Ex83.doc (Ex83.fieldId (Ex83.typed "integer") false ""))) = .ok cs ∧
      Text.unmarshal V30.table jsonNums (.named "Spec") cs = some v0 ∧
      ∀ cs1, Text.marshal V30.table (.named "Spec") v0 = .ok cs1 →
        ∃ v1, Text.unmarshal V30.table jsonNums (.named "Spec") cs1 = some v1 ∧
          ∀ cs2, Text.marshal V30.table (.named "Spec") v1 = .ok cs2 →
            ∃ v2, Text.unmarshal V30.table jsonNums (.named "Spec") cs2 = some v2 ∧
              Text.marshal V30.table (.named "Spec") v2 = .ok cs2 := by
  obtain ⟨cs, j, h1, _⟩ := C98_case30 env hE
  obtain ⟨v0, h2, _, h3⟩ := C99_settles_built30 jsonNums jsonNums_ok jsonNums_prints Ex83.lit (fun _ => jsonNums_f64)
    Ex83.ok_zero _ Ex83.built C99_case_numbers30 cs h1
  refine ⟨cs, v0, h1, h2, fun cs1 h => ?_⟩
  obtain ⟨v1, h4, _, h5⟩ := h3 cs1 h
  refine ⟨v1, h4, fun cs2 h => ?_⟩
  obtain ⟨v2, h6, _, h7⟩ := h5 cs2 h
  exact ⟨v2, h6, h7⟩

mutual
theorem eqA_refl : ∀ a : Any, eqA a a = true
  | .null => rfl
  | .bool _ => by simp [eqA]
  | .num _ => by simp [eqA]
  | .str _ => by simp [eqA]
  | .arr xs => by simp [eqA, eqAs_refl xs]
  | .obj ms => by simp [eqA, eqAm_refl ms]
theorem eqAs_refl : ∀ a : List Any, eqAs a a = true
  | [] => rfl
  | x :: xs => by simp [eqAs, eqA_refl x, eqAs_refl xs]
theorem eqAm_refl : ∀ a : List (String × Any), eqAm a a = true
  | [] => rfl
  | (k, x) :: xs => by simp [eqAm, eqA_refl x, eqAm_refl xs]
end

/-- The first text of what was loaded may differ from the second: in the document of C73 there is a header parameter without
a style, which gets one. The second and the third are the same. -/
theorem C99_case_changes30 : ∃ j1 j2, saved V30.table jsonNums loadDoc30 = some j1 ∧ saved V30.table jsonNums j1 = some j2 ∧
    j1 ≠ j2 ∧ saved V30.table jsonNums j2 = some j2 := by
  have h : (match saved V30.table jsonNums loadDoc30 with
    | some j1 => match saved V30.table jsonNums j1 with
      | some j2 => !eqA j1 j2 && (match saved V30.table jsonNums j2 with
        | some j3 => eqA j3 j2
        | none => false)
      | none => false
    | none => false) = true := by decide +kernel
  split at h
  · rename_i j1 e1
    split at h
    · rename_i j2 e2
      split at h
      · rename_i j3 e3
        simp only [Bool.and_eq_true, Bool.not_eq_true'] at h
        refine ⟨j1, j2, e1, e2, ?_, ?_⟩
        · rintro rfl
          rw [eqA_refl] at h
          cases h.1
        · rw [e3, eqA_sound h.2]
      · simp at h
    · cases h
  · cases h

end Verif
