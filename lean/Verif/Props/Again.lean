import Verif.Spec.Again
import Verif.Props.Reload
import Verif.Props.PublishText

/-! Saving what was loaded (C99). -/

namespace Verif
open Codec Spec Conform Grammar

theorem rt_eq {T : Table} {N : Nums} {ty : Ty} {v : Val} {j : Any} {w : Val} (h1 : encode T ty v = some j)
    (h2 : decode T N ty j = some w) : rt T N ty v = w := by
  unfold rt
  rw [h1, Option.bind_some, h2]
  rfl

/-! ## OpenAPI 3.1 -/

/-- **C99**, 3.1: if a value that can be written and read back is written and read, then what was read is written as the same
JSON. -/
theorem C99_same31 (N : Nums) (ty : Ty) (v : Val) (h : Writable V31.table N ok31 ty v) :
    ∃ j w, encode V31.table ty v = some j ∧ decode V31.table N ty j = some w ∧ encode V31.table ty w = some j := by
  obtain ⟨j, w, h1, h2, _⟩ := C35_roundtrip31 N ty v h
  refine ⟨j, w, h1, h2, ?_⟩
  have := writable_again31 h
  unfold Again at this
  rwa [rt_eq h1 h2, h1] at this

/-- A value is written as the text of its JSON, if it is not nested too deeply. -/
theorem marshal_of_encode {T : Table} (hT : Text.wideTable T = true) {n : String} {v : Val} {j : Any}
    (h : encode T (.named n) v = some j) (hn : NumbersOk j) (hd : depth j ≤ 10000) :
    Text.marshal T (.named n) v = .ok (text j) := by
  have hr := Text.marshal_rel hT (.named n) v
  rw [h] at hr
  exact hr.2.1 hn hd

/-- What a text says, if it was written. -/
theorem marshal_says {T : Table} (hT : Text.wideTable T = true) {n : String} {v : Val} (hv : Numeric v) {j : Any}
    (he : encode T (.named n) v = some j) {cs : List Char} (h : Text.marshal T (.named n) v = .ok cs) :
    cs = text j ∧ depth j ≤ 10000 ∧ NumbersOk j := by
  have hn := Text.encode_numbers hv he
  rw [marshal_named hT n v hv, he] at h
  simp only at h
  split at h
  · rename_i hd
    cases h
    exact ⟨rfl, hd, hn⟩
  · cases h

/-- **C99**, 3.1, texts: if the text that was written is read, then writing what was read gives the same text, to the byte. -/
theorem C99_text31 (N : Nums) (n : String) (v : Val) (h : Writable V31.table N ok31 (.named n) v) (hv : Numeric v)
    (cs : List Char) (hw : Text.marshal V31.table (.named n) v = .ok cs) :
    ∃ w, Text.unmarshal V31.table N (.named n) cs = some w ∧ Text.marshal V31.table (.named n) w = .ok cs := by
  obtain ⟨j, w, h1, h2, h3⟩ := C99_same31 N _ v h
  obtain ⟨rfl, hd, hn⟩ := marshal_says wide31 hv h1 hw
  refine ⟨w, ?_, marshal_of_encode wide31 h3 hn hd⟩
  unfold Text.unmarshal
  rw [(C95_parse _ _).2 ⟨Text.text_json hn, hd⟩]
  exact h2

/-- **C99**, 3.1, files of others: whatever was read from a text, its own text is read and written again as it is. -/
theorem C99_loaded31 (N : Nums) (hN : NumsOk N) (hP : PrintsNumbers N) (n : String) (hn : n ≠ "NonBearer")
    (cs : List Char) (v : Val) (h : Text.unmarshal V31.table N (.named n) cs = some v) (hc : Everywhere clean31 v)
    (cs1 : List Char) (h1 : Text.marshal V31.table (.named n) v = .ok cs1) :
    ∃ w, Text.unmarshal V31.table N (.named n) cs1 = some w ∧ Same v w ∧ Text.marshal V31.table (.named n) w = .ok cs1 := by
  obtain ⟨j, _, _, hj⟩ := (C95_reads _ _ _ _ _).1 h
  have hw := load (loadFacts31 hN) j _ v (by simpa [tyOk, bad31] using hn) hj hc
  have hv := Text.writable_numeric hP hw
  obtain ⟨w, h2, h3⟩ := C99_text31 N n v hw hv cs1 h1
  obtain ⟨w', h2', hs⟩ := C94_roundtrip31 N n v hw hv cs1 h1
  rw [h2] at h2'
  cases h2'
  exact ⟨w, h2, hs, h3⟩

/-- **C99**, 3.1, documents: the text of a document that was built by any sequence of calls is read, and writing what was
read gives the same text. -/
theorem C99_built31 (N : Nums) (hN : PrintsNumbers N) (env : String → Meta31.Sem) (hE : Meta31.Meaning Meta31.defs31 env)
    (toSimpleMap : JS → Except String Pub31.Schema)
    (h0 : ∀ format, Pub31.JsonOk N toSimpleMap .content (stringJS format)) (d : V31.Spec Pub31.Schema)
    (h : Pub31.Built (V31.ver toSimpleMap) (Pub31.JsonOk N toSimpleMap) (Pub31.SchemaOk N) d)
    (cs : List Char) (hw : Text.marshal V31.table (.named "Spec") (Pub31.docVal d) = .ok cs) :
    ∃ w, Text.unmarshal V31.table N (.named "Spec") cs = some w ∧ Text.marshal V31.table (.named "Spec") w = .ok cs :=
  C99_text31 N _ _ (writable_built31 hE h0 h) (Text.writable_numeric hN (writable_built31 hE h0 h)) cs hw

/-! ## OpenAPI 3.0 -/

/-- **C99**, 3.0: so it is if the fields that repeat others are filled in. -/
theorem C99_same30 (N : Nums) (ty : Ty) (v : Val) (h : Writable V30.table N ok30 ty v) (hf : Everywhere (filled N) v) :
    ∃ j w, encode V30.table ty v = some j ∧ decode V30.table N ty j = some w ∧ encode V30.table ty w = some j := by
  obtain ⟨j, w, h1, h2, _⟩ := C35_roundtrip30 N ty v h
  refine ⟨j, w, h1, h2, ?_⟩
  have := writable_again30 h hf
  unfold Again at this
  rwa [rt_eq h1 h2, h1] at this

/-- **C99**, 3.0, texts. -/
theorem C99_text30 (N : Nums) (n : String) (v : Val) (h : Writable V30.table N ok30 (.named n) v) (hf : Everywhere (filled N) v)
    (hv : Numeric v) (cs : List Char) (hw : Text.marshal V30.table (.named n) v = .ok cs) :
    ∃ w, Text.unmarshal V30.table N (.named n) cs = some w ∧ Text.marshal V30.table (.named n) w = .ok cs := by
  obtain ⟨j, w, h1, h2, h3⟩ := C99_same30 N _ v h hf
  obtain ⟨rfl, hd, hn⟩ := marshal_says wide30 hv h1 hw
  refine ⟨w, ?_, marshal_of_encode wide30 h3 hn hd⟩
  unfold Text.unmarshal
  rw [(C95_parse _ _).2 ⟨Text.text_json hn, hd⟩]
  exact h2

/-- **C99**, 3.0, files of others: whatever was read from a text, with these fields filled in, its own text is read and
written again as it is. -/
theorem C99_loaded30 (N : Nums) (hN : NumsOk N) (hP : PrintsNumbers N) (n : String)
    (hn : n ∉ ["NonBearer", "SchemaXORContent"]) (cs : List Char) (v : Val)
    (h : Text.unmarshal V30.table N (.named n) cs = some v) (hc : Everywhere (clean30 N) v) (hf : Everywhere (filled N) v)
    (cs1 : List Char) (h1 : Text.marshal V30.table (.named n) v = .ok cs1) :
    ∃ w, Text.unmarshal V30.table N (.named n) cs1 = some w ∧ Same v w ∧ Text.marshal V30.table (.named n) w = .ok cs1 := by
  obtain ⟨j, _, _, hj⟩ := (C95_reads _ _ _ _ _).1 h
  have hw := load (loadFacts30 hN) j _ v (by simpa [tyOk, bad30] using hn) hj hc
  have hv := Text.writable_numeric hP hw
  obtain ⟨w, h2, h3⟩ := C99_text30 N n v hw hf hv cs1 h1
  obtain ⟨w', h2', hs⟩ := C94_roundtrip30 N n v hw hv cs1 h1
  rw [h2] at h2'
  cases h2'
  exact ⟨w, h2, hs, h3⟩

/-! ## Concrete cases -/

def rawAgainB (N : Nums) (ty : Ty) (v : Val) (b : Any) : Bool :=
  match decode V30.table N ty b, encode V30.table ty v with
  | some w, some a => (match encode V30.table ty w with
    | some a' => eqA a' a
    | none => false)
  | _, _ => false

theorem rawAgainB_sound {N : Nums} {ty : Ty} {v : Val} {b : Any} (h : rawAgainB N ty v b = true) : RawAgain N ty v b := by
  unfold rawAgainB at h
  split at h
  · rename_i w a hw ha
    split at h
    · rename_i a' ha'
      exact ⟨w, hw, by rw [ha, ha', eqA_sound h]⟩
    · cases h
  · cases h

def filledB (N : Nums) (fs : List (String × Val)) : Bool :=
  (!(fs.map Prod.fst == V30.sHTTPSecurityScheme.names) || !isNilB (fieldIn fs "Bearer") || !isNilB (fieldIn fs "NonBearer")) &&
  (!(fs.map Prod.fst == V30.sParameter.names) ||
    (!isNilB (fieldIn fs "Location") &&
    (match fieldIn fs "In" with
      | .str i => !(i == "header" || i == "cookie") || !isNilB (fieldIn fs "Style")
      | _ => true) &&
    (match fieldIn fs "SchemaXORContent" with
    | .struct [("HasSchema", .struct [("Schema", .any b)]), ("HasContent", .nil)] =>
      rawAgainB N (.ptr (.named "SchemaOrRef")) (fieldIn fs "Schema") b
    | .struct [("HasSchema", .nil), ("HasContent", .struct [("Content", .any b)])] =>
      rawAgainB N (.map (.named "MediaType")) (fieldIn fs "Content") b
    | _ => false)))

theorem filledB_sound {N : Nums} (fs : List (String × Val)) (h : filledB N fs = true) : filled N fs := by
  have nn : ∀ {v : Val}, (!isNilB v) = true → v ≠ .nil := by
    intro v h e
    rw [isNilB_iff.2 e] at h
    cases h
  simp only [filledB, Bool.and_eq_true, Bool.or_eq_true] at h
  obtain ⟨h1, h2⟩ := h
  refine ⟨fun e => ?_, fun e => ?_⟩
  · rcases h1 with (h | h) | h
    · rw [e, beq_self_eq_true] at h; cases h
    · exact .inl (nn h)
    · exact .inr (nn h)
  · rcases h2 with h | ⟨⟨h3, h4⟩, h5⟩
    · rw [e, beq_self_eq_true] at h; cases h
    · refine ⟨nn h3, ?_, ?_⟩
      · rintro (e | e) <;> rw [e] at h4 <;> exact nn (by simpa using h4)
      · split at h5
        · rename_i b hb; exact .inl ⟨b, hb, rawAgainB_sound h5⟩
        · rename_i b hb; exact .inr ⟨b, hb, rawAgainB_sound h5⟩
        · cases h5

/-- The document of C35 is written again as it was. -/
theorem C99_case31 : ∃ cs w, Text.marshal V31.table (.named "Spec") sample31 = .ok cs ∧
    Text.unmarshal V31.table sampleNums (.named "Spec") cs = some w ∧ Text.marshal V31.table (.named "Spec") w = .ok cs := by
  obtain ⟨hv, cs, hw⟩ := C94_case31
  obtain ⟨w, h1, h2⟩ := C99_text31 sampleNums "Spec" sample31 C35_case31 hv cs hw
  exact ⟨cs, w, hw, h1, h2⟩

/-- So is the one of C84, which is built by calls. -/
theorem C99_case_built31 (env : String → Meta31.Sem) (hE : Meta31.Meaning Meta31.defs31 env) :
    ∃ cs w, Text.marshal V31.table (.named "Spec") (Pub31.docVal
        (Ex84.doc (Ex84.fieldId (Ex83.typed "integer") false "") (Ex83.typed "integer") 201)) = .ok cs ∧
      Text.unmarshal V31.table jsonNums (.named "Spec") cs = some w ∧ Text.marshal V31.table (.named "Spec") w = .ok cs := by
  obtain ⟨cs, j, h1, _⟩ := C98_case31 env hE
  obtain ⟨w, h2, h3⟩ := C99_built31 jsonNums jsonNums_prints env hE Ex84.simple Ex84.ok_text _ Ex84.built cs h1
  exact ⟨cs, w, h1, h2, h3⟩

/-- What reading a document and writing it gives. -/
def saved (T : Table) (N : Nums) (j : Any) : Option Any := (decode T N (.named "Spec") j).bind (encode T (.named "Spec"))

/-- The document of C73, read, written and read again, has all fields filled in, and its parameters are as described. -/
theorem C99_case30 : ∃ j v, saved V30.table roundNums loadDoc30 = some j ∧
    decode V30.table roundNums (.named "Spec") j = some v ∧ Everywhere (clean30 roundNums) v ∧ Everywhere (filled roundNums) v := by
  have h : (match saved V30.table roundNums loadDoc30 with
    | some j => match decode V30.table roundNums (.named "Spec") j with
      | some v => everywhereB (clean30B roundNums) v && everywhereB (filledB roundNums) v
      | none => false
    | none => false) = true := by decide +kernel
  split at h
  · rename_i j hj
    split at h
    · rename_i v hv
      simp only [Bool.and_eq_true] at h
      exact ⟨j, v, hj, hv, everywhereB_sound clean30B_sound h.1, everywhereB_sound filledB_sound h.2⟩
    · cases h
  · cases h

end Verif
