import Verif.Lemmas.TextNumbers
import Verif.Props.RoundTrip
import Verif.Codec.KernelRfl

/-!
Documents as texts (C94) and the layout of texts (C95).
-/

namespace Verif
open Codec Spec Grammar

theorem wide30 : Text.wideTable V30.table = true := by decide +kernel
theorem wide31 : Text.wideTable V31.table = true := by decide +kernel

/-! ## What is written -/

theorem marshal_named {T : Table} (hT : Text.wideTable T = true) (n : String) (v : Val) (hv : Numeric v) :
    Text.marshal T (.named n) v = match encode T (.named n) v with
      | some j => if depth j ≤ 10000 then .ok (text j) else .err
      | none => .err := by
  have hr := Text.marshal_rel hT (.named n) v
  cases he : encode T (.named n) v with
  | none => rw [he] at hr; exact hr
  | some j =>
    rw [he] at hr
    have hn := Text.encode_numbers hv he
    simp only
    split
    · rename_i hd; exact hr.2.1 hn hd
    · rename_i hd
      cases hg : GoMap.get? T n with
      | none =>
        unfold encode at he
        simp only [encodeView, hg] at he
        cases he
      | some d =>
        cases d with
        | struct s => exact Text.marshal_deep hT hg he hn (by simp only [Text.maxDepth]; omega)
        | enum values =>
          exfalso
          apply hd
          unfold encode at he
          simp only [encodeView, hg] at he
          split at he
          · split at he
            · cases he; exact Nat.zero_le _
            · cases he
          · rename_i h _; cases h
          · cases he

/-- **C94.** The text that marshalling an entity of OpenAPI 3.0 writes is the compact text of its JSON value. Writing fails
if the value has no JSON value or is nested more than 10000 levels deep, and it never panics. -/
theorem C94_writes30 (n : String) (v : Val) (hv : Numeric v) :
    Text.marshal V30.table (.named n) v = match encode V30.table (.named n) v with
      | some j => if depth j ≤ 10000 then .ok (text j) else .err
      | none => .err := marshal_named wide30 n v hv

/-- **C94** for OpenAPI 3.1. -/
theorem C94_writes31 (n : String) (v : Val) (hv : Numeric v) :
    Text.marshal V31.table (.named n) v = match encode V31.table (.named n) v with
      | some j => if depth j ≤ 10000 then .ok (text j) else .err
      | none => .err := marshal_named wide31 n v hv

theorem written_json {T : Table} (hT : Text.wideTable T = true) {n : String} {v : Val} (hv : Numeric v) {cs : List Char}
    (h : Text.marshal T (.named n) v = .ok cs) :
    ∃ j, encode T (.named n) v = some j ∧ JSONText cs j ∧ Text.parse cs = some j := by
  rw [marshal_named hT n v hv] at h
  split at h
  · rename_i j he
    split at h
    · rename_i hd
      cases h
      have hn := Text.encode_numbers hv he
      exact ⟨j, he, Text.text_json hn, by unfold Text.parse; rw [Text.parse_text hn]; exact if_pos hd⟩
    · cases h
  · cases h

/-- **C94.** What is written is a JSON text (RFC 8259). -/
theorem C94_json30 (n : String) (v : Val) (hv : Numeric v) (cs : List Char)
    (h : Text.marshal V30.table (.named n) v = .ok cs) : ∃ j, encode V30.table (.named n) v = some j ∧ JSONText cs j := by
  obtain ⟨j, he, hj, _⟩ := written_json wide30 hv h
  exact ⟨j, he, hj⟩

/-- **C94** for OpenAPI 3.1. -/
theorem C94_json31 (n : String) (v : Val) (hv : Numeric v) (cs : List Char)
    (h : Text.marshal V31.table (.named n) v = .ok cs) : ∃ j, encode V31.table (.named n) v = some j ∧ JSONText cs j := by
  obtain ⟨j, he, hj, _⟩ := written_json wide31 hv h
  exact ⟨j, he, hj⟩

/-- **C94.** The text of a value that can be written and read back is read back as the same value. -/
theorem C94_roundtrip30 (N : Nums) (n : String) (v : Val) (h : Writable V30.table N ok30 (.named n) v) (hv : Numeric v)
    (cs : List Char) (hw : Text.marshal V30.table (.named n) v = .ok cs) :
    ∃ w, Text.unmarshal V30.table N (.named n) cs = some w ∧ Same v w := by
  obtain ⟨j, w, he, hd, hs⟩ := C35_roundtrip30 N _ v h
  obtain ⟨j', he', _, hp⟩ := written_json wide30 hv hw
  rw [he] at he'
  cases he'
  exact ⟨w, by unfold Text.unmarshal; rw [hp]; exact hd, hs⟩

/-- **C94** for OpenAPI 3.1. -/
theorem C94_roundtrip31 (N : Nums) (n : String) (v : Val) (h : Writable V31.table N ok31 (.named n) v) (hv : Numeric v)
    (cs : List Char) (hw : Text.marshal V31.table (.named n) v = .ok cs) :
    ∃ w, Text.unmarshal V31.table N (.named n) cs = some w ∧ Same v w := by
  obtain ⟨j, w, he, hd, hs⟩ := C35_roundtrip31 N _ v h
  obtain ⟨j', he', _, hp⟩ := written_json wide31 hv hw
  rw [he] at he'
  cases he'
  exact ⟨w, by unfold Text.unmarshal; rw [hp]; exact hd, hs⟩

/-- **C94.** Such a value has a text, unless it is nested too deeply. -/
theorem C94_written30 (N : Nums) (n : String) (v : Val) (h : Writable V30.table N ok30 (.named n) v) (hv : Numeric v) :
    ∃ j, encode V30.table (.named n) v = some j ∧
      (depth j ≤ 10000 → Text.marshal V30.table (.named n) v = .ok (text j)) := by
  obtain ⟨j, w, he, _, _⟩ := C35_roundtrip30 N _ v h
  refine ⟨j, he, fun hd => ?_⟩
  rw [C94_writes30 n v hv, he]
  exact if_pos hd

/-- **C94** for OpenAPI 3.1. -/
theorem C94_written31 (N : Nums) (n : String) (v : Val) (h : Writable V31.table N ok31 (.named n) v) (hv : Numeric v) :
    ∃ j, encode V31.table (.named n) v = some j ∧
      (depth j ≤ 10000 → Text.marshal V31.table (.named n) v = .ok (text j)) := by
  obtain ⟨j, w, he, _, _⟩ := C35_roundtrip31 N _ v h
  refine ⟨j, he, fun hd => ?_⟩
  rw [C94_writes31 n v hv, he]
  exact if_pos hd

/-! ## What is read -/

/-- **C95.** A text is accepted as JSON exactly if it is a JSON text (RFC 8259) that is not nested more than 10000 levels
deep, whatever white space and escapes it has, and its value is the one it denotes. -/
theorem C95_parse (cs : List Char) (j : Any) : Text.parse cs = some j ↔ JSONText cs j ∧ depth j ≤ 10000 := Text.parse_iff

/-- **C95.** A text denotes at most one value. -/
theorem C95_unique (cs : List Char) (i j : Any) (hi : JSONText cs i) (hj : JSONText cs j) : i = j :=
  Text.jsonText_unique hi hj

/-- **C95.** Reading an entity from a text gives a value exactly if the text is a JSON text whose value can be read. -/
theorem C95_reads (T : Table) (N : Nums) (ty : Ty) (cs : List Char) (v : Val) :
    Text.unmarshal T N ty cs = some v ↔ ∃ j, JSONText cs j ∧ depth j ≤ 10000 ∧ decode T N ty j = some v := by
  unfold Text.unmarshal
  constructor
  · intro h
    split at h
    · rename_i j hp
      obtain ⟨h1, h2⟩ := (C95_parse cs j).1 hp
      exact ⟨j, h1, h2, h⟩
    · cases h
  · rintro ⟨j, h1, h2, h3⟩
    rw [(C95_parse cs j).2 ⟨h1, h2⟩]
    exact h3

/-- **C95.** Two texts of one value are read the same way: white space, escapes and the case of hexadecimal digits do not
matter. -/
theorem C95_layout (T : Table) (N : Nums) (ty : Ty) (cs ds : List Char) (j : Any) (hc : JSONText cs j) (hd : JSONText ds j) :
    Text.unmarshal T N ty cs = Text.unmarshal T N ty ds := by
  have : Text.parse cs = Text.parse ds := by
    by_cases h : depth j ≤ 10000
    · rw [(C95_parse cs j).2 ⟨hc, h⟩, (C95_parse ds j).2 ⟨hd, h⟩]
    · have none_of : ∀ es, JSONText es j → Text.parse es = none := by
        intro es he
        cases hp : Text.parse es with
        | none => rfl
        | some i =>
          obtain ⟨h1, h2⟩ := (C95_parse es i).1 hp
          rw [C95_unique es i j h1 he] at h2
          exact absurd h2 h
      rw [none_of cs hc, none_of ds hd]
  unfold Text.unmarshal
  rw [this]

/-- **C95.** A text that is not JSON is not read as anything. -/
theorem C95_rejects (T : Table) (N : Nums) (ty : Ty) (cs : List Char) (h : ∀ j, ¬JSONText cs j) :
    Text.unmarshal T N ty cs = none := by
  cases hu : Text.unmarshal T N ty cs with
  | none => rfl
  | some v =>
    obtain ⟨j, hj, _⟩ := (C95_reads T N ty cs v).1 hu
    exact absurd hj (h j)

/-! ## Concrete cases -/

/-- A text with white space, escapes, a surrogate pair and a number with an exponent. -/
def sampleText : List Char :=
  " {\t\"a\" :\r\n[ 1 , -2.5e+3,true ] , \"\\u0062\\/\\n\" : \"x\\uD83D\\uDE00\\uDc00é\" }\n".toList

/-- Its value. -/
def sampleValue : Any :=
  .obj [("a", .arr [.num "1", .num "-2.5e+3", .bool true]), ("b/\n", .str "x😀\uFFFDé")]

theorem C95_case : JSONText sampleText sampleValue :=
  ((C95_parse _ _).1 (by kernel_rfl)).1

/-- The same value without white space and unnecessary escapes. -/
theorem C95_case_compact : JSONText (text sampleValue) sampleValue := Text.text_json (by
  have h1 : Number "1".toList := (Text.scanNumber_sound (cs := "1".toList) (r := []) (by decide)).1
  have h2 : Number "-2.5e+3".toList := (Text.scanNumber_sound (cs := "-2.5e+3".toList) (r := []) (by decide)).1
  exact ⟨⟨h1, h2, trivial, trivial⟩, trivial, trivial⟩)

/-- Texts that are not JSON: a trailing comma, a leading zero, a control character in a string, two values. -/
theorem C95_case_rejected : ∀ cs ∈ ["[1,]", "01", "\"\t\"", "1 2", "{\"a\" 1}", "+1", "\"\\x\"", "nul", ""].map String.toList,
    ∀ j, ¬JSONText cs j := by
  intro cs hcs j hj
  have key : Text.parseWithin (depth j) cs = some j := Text.parse_complete hj (Nat.le_refl _)
  have all : ∀ cs ∈ ["[1,]", "01", "\"\t\"", "1 2", "{\"a\" 1}", "+1", "\"\\x\"", "nul", ""].map String.toList,
      ∀ d, Text.parseWithin d cs = none := by
    intro cs hcs d
    simp only [List.map_cons, List.map_nil, List.mem_cons, List.not_mem_nil, or_false] at hcs
    rcases hcs with rfl | rfl | rfl | rfl | rfl | rfl | rfl | rfl | rfl <;>
      first
      | rfl
      | (cases d <;> rfl)
      | (match d with
          | 0 => rfl
          | 1 => rfl
          | d + 2 => rfl)
  rw [all cs hcs] at key
  cases key

/-- Writing gives a text. -/
def hasText (r : UnionRes (List Char)) : Bool :=
  match r with
  | .ok _ => true
  | _ => false

theorem hasText_sound {r : UnionRes (List Char)} (h : hasText r = true) : ∃ cs, r = .ok cs := by
  cases r with
  | ok cs => exact ⟨cs, rfl⟩
  | _ => cases h

/-- The documents of C35 have only JSON numbers, and they have texts. -/
theorem C94_case30 : Numeric sample30 ∧ ∃ cs, Text.marshal V30.table (.named "Spec") sample30 = .ok cs :=
  ⟨Text.numericB_sound _ (by decide +kernel), hasText_sound (by decide +kernel)⟩

theorem C94_case31 : Numeric sample31 ∧ ∃ cs, Text.marshal V31.table (.named "Spec") sample31 = .ok cs :=
  ⟨Text.numericB_sound _ (by decide +kernel), hasText_sound (by decide +kernel)⟩

end Verif
