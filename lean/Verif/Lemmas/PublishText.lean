import Verif.Lemmas.TextNumbers
import Verif.Spec.PublishText
import Verif.Spec.RoundTrip

/-! The numbers of a value that can be written and read back are JSON numbers. -/

namespace Verif.Text
open Codec Spec Grammar

theorem numericFields_iff {fs : List (String × Val)} : NumericFields fs ↔ ∀ p ∈ fs, Numeric p.2 := by
  induction fs with
  | nil => simp [NumericFields]
  | cons p fs ih => obtain ⟨k, x⟩ := p; simp [NumericFields, ih]

theorem numericList_iff {vs : List Val} : NumericList vs ↔ ∀ v ∈ vs, Numeric v := by
  induction vs with
  | nil => simp [NumericList]
  | cons v vs ih => simp [NumericList, ih]

variable {N : Nums}

mutual
theorem decodeAny_numbers (hN : PrintsNumbers N) : ∀ (a b : Any), decodeAny N a = some b → NumbersOk b
  | .null, b, h => by cases h; trivial
  | .bool _, b, h => by cases h; trivial
  | .str _, b, h => by cases h; trivial
  | .num l, b, h => by
    simp only [decodeAny, Option.map_eq_some_iff] at h
    obtain ⟨x, hx, rfl⟩ := h
    exact hN.f64 _ _ hx
  | .arr xs, b, h => by
    simp only [decodeAny, Option.map_eq_some_iff] at h
    obtain ⟨x, hx, rfl⟩ := h
    exact decodeAnys_numbers hN xs x hx
  | .obj ms, b, h => by
    simp only [decodeAny, Option.map_eq_some_iff] at h
    obtain ⟨x, hx, rfl⟩ := h
    exact numbersMembers_iff.2 (fun p hp => numbersMembers_iff.1 (decodeAnyMembers_numbers hN ms x hx) p (mem_lastWins hp))
theorem decodeAnys_numbers (hN : PrintsNumbers N) : ∀ (a b : List Any), decodeAnys N a = some b → NumbersOkList b
  | [], b, h => by cases h; trivial
  | x :: xs, b, h => by
    simp only [decodeAnys] at h
    split at h
    · rename_i h1 h2
      cases h
      exact ⟨decodeAny_numbers hN x _ h1, decodeAnys_numbers hN xs _ h2⟩
    · cases h
theorem decodeAnyMembers_numbers (hN : PrintsNumbers N) : ∀ (a b : List (String × Any)), decodeAnyMembers N a = some b → NumbersOkMembers b
  | [], b, h => by cases h; trivial
  | (k, x) :: xs, b, h => by
    simp only [decodeAnyMembers] at h
    split at h
    · rename_i h1 h2
      cases h
      exact ⟨decodeAny_numbers hN x _ h1, decodeAnyMembers_numbers hN xs _ h2⟩
    · cases h
end

theorem numeric_structOf {s : Struct} {val : String → Val} (h : ∀ go ∈ s.names, Numeric (val go)) :
    Numeric (structOf s val) := by
  simp only [structOf, Numeric, numericFields_iff]
  intro p hp
  obtain ⟨go, hgo, rfl⟩ := List.mem_map.1 hp
  exact h go hgo

theorem numeric_of_null {s : Struct} {f : Field} {v : Val} (h : ExplicitNull s f v) : Numeric v := by
  rw [h.2]; trivial

/-- The numbers of a value that can be written and read back are JSON numbers. -/
theorem writable_numeric (hN : PrintsNumbers N) {T : Table} {Ok : String → String → Val → Prop} {ty : Ty} {v : Val} (h : Writable T N Ok ty v) :
    Numeric v := by
  induction h with
  | any h => exact decodeAny_numbers hN _ _ h
  | bool => trivial
  | str => trivial
  | int h => exact hN.i64 _ _ h
  | float h => exact hN.f64 _ _ h
  | nilPtr => trivial
  | ptr _ _ _ _ ih => exact ih
  | nilSlice => trivial
  | slice _ ih => exact numericList_iff.2 ih
  | nilMap => trivial
  | map _ _ ih => exact numericFields_iff.2 (fun p hp => ih p.1 p.2 hp)
  | enum => trivial
  | @plain n s hn hs hb val hf hp hpk ha hak hone hlow hnot ihf ihp iha =>
    apply numeric_structOf
    intro go hgo
    simp only [Struct.names, hs.1, hs.2, List.mem_append, List.mem_map, List.not_mem_nil, false_and, exists_false,
      or_false] at hgo
    rcases hgo with (⟨f, hf', rfl⟩ | ⟨q, hq, rfl⟩) | ha'
    · by_cases hx : ExplicitNull s f (val f.go)
      · exact numeric_of_null hx
      · exact ihf f hf' hx
    · exact ihp q hq
    · split at ha'
      · rename_i a e
        cases List.mem_singleton.1 ha'
        exact iha a e
      · cases ha'
  | @union n s hn hs go t v ho hv h hok ih =>
    simp only [Numeric, numericFields_iff]
    intro p hp
    obtain ⟨h, hh, rfl⟩ := List.mem_map.1 hp
    dsimp only
    split
    · exact ih
    · trivial
  | @http hn val hf hp hpk hs ihf ihp =>
    apply numeric_structOf
    intro go hgo
    have hgo' : go ∈ V30.sHTTPSecurityScheme.fields.map Field.go ++ ["Bearer", "NonBearer", "MapOfAnything"] := by
      revert hgo; revert go; decide +kernel
    rcases List.mem_append.1 hgo' with h | h
    · obtain ⟨f, hf', rfl⟩ := List.mem_map.1 h
      exact ihf f hf'
    · simp only [List.mem_cons, List.not_mem_nil, or_false] at h
      rcases h with rfl | rfl | rfl
      · rcases hs with ⟨_, h | h, _⟩ | ⟨_, _, h, _⟩ <;> rw [h] <;> trivial
      · rcases hs with ⟨_, _, h⟩ | ⟨_, _, _, h | h⟩ <;> rw [h] <;> simp [Numeric, NumericFields]
      · exact ihp
  | @security hn val hf hp hpk go t ho hv h hothers ihf ihp ih =>
    apply numeric_structOf
    intro g hg
    have hg' : g ∈ V31.sSecurityScheme.fields.map Field.go ++ V31.sSecurityScheme.oneOf.map Hidden.go ++ ["MapOfAnything"] := by
      revert hg; revert g; decide +kernel
    rcases List.mem_append.1 hg' with hg' | hg'
    · rcases List.mem_append.1 hg' with hg' | hg'
      · obtain ⟨f, hf', rfl⟩ := List.mem_map.1 hg'
        exact ihf f hf'
      · obtain ⟨x, hx, rfl⟩ := List.mem_map.1 hg'
        by_cases e : x.go = go
        · rw [e]; exact ih
        · rw [hothers x hx e]; trivial
    · cases List.mem_singleton.1 hg'
      exact ihp
  | @parameter hn val hf hp hpk a hx i hin hreq hst hl ihf ihp =>
    apply numeric_structOf
    intro g hg
    have hg' : g ∈ V30.sParameter.fields.map Field.go ++ ["SchemaXORContent", "Location", "MapOfAnything"] := by
      revert hg; revert g; decide +kernel
    have hstyle : Numeric (val "Style") := by
      rcases hst with h | ⟨st, _, h⟩ <;> rw [h] <;> trivial
    rcases List.mem_append.1 hg' with hg' | hg'
    · obtain ⟨f, hf', rfl⟩ := List.mem_map.1 hg'
      by_cases hx : ExplicitNull V30.sParameter f (val f.go)
      · exact numeric_of_null hx
      · exact ihf f hf' hx
    · simp only [List.mem_cons, List.not_mem_nil, or_false] at hg'
      rcases hg' with rfl | rfl | rfl
      · rcases hx with ⟨_, _, _, ⟨h, _⟩ | ⟨h, hd⟩ | ⟨_, b, _, h, hd, _⟩⟩ | ⟨_, _, _, ⟨h, _⟩ | ⟨h, hd⟩ | ⟨_, b, _, h, hd, _⟩⟩ <;>
          rw [h] <;> simp only [xorSchema, xorContent, Numeric, NumericFields, and_true, true_and] <;>
          first | trivial | exact decodeAny_numbers hN _ _ hd
      · rcases hl with h | ⟨_, h⟩ | ⟨_, h⟩ <;> rw [h] <;>
          simp only [location, Numeric, NumericFields, and_true] <;>
          (try refine ⟨?_, ?_, ?_, ?_⟩) <;> (try split) <;> simp [Numeric, NumericFields, hstyle]
      · exact ihp

end Verif.Text

namespace Verif
open Codec Grammar

/-- JSON numbers are kept as they are. -/
def jsonNums : Nums :=
  ⟨fun l => if Text.numberB l then some l else none, fun l => if Text.numberB l then some l else none⟩

theorem jsonNums_prints : PrintsNumbers jsonNums := by
  constructor <;>
  · intro l x h
    simp only [jsonNums] at h
    split at h
    · cases h; exact Text.numberB_sound (by assumption)
    · cases h

theorem jsonNums_f64 {l : String} (h : jsonNums.i64 l = some l) : jsonNums.f64 l ≠ none := by
  rw [show jsonNums.f64 l = jsonNums.i64 l from rfl, h]
  simp

end Verif
