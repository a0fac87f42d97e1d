import Verif.Lemmas.LoadTables
import Verif.Props.RoundTrip
import Verif.Codec.Eq

/-! What is read can be written and read again (C73). -/

namespace Verif
open Codec Spec

/-- **C73** for OpenAPI 3.0: whatever was read as a value of a type, with parameters as described by `clean30`, is
written, and what is written is read as the same value. -/
theorem C73_reload30 (N : Nums) (hN : NumsOk N) (n : String) (hn : n ∉ ["NonBearer", "SchemaXORContent"]) (j : Any) (v : Val)
    (h : decode V30.table N (.named n) j = some v) (hc : Everywhere (clean30 N) v) :
    ∃ j' w, encode V30.table (.named n) v = some j' ∧ decode V30.table N (.named n) j' = some w ∧ Same v w :=
  C35_roundtrip30 N _ v (load (loadFacts30 hN) j _ v (by simpa [tyOk, bad30] using hn) h hc)

/-- **C73** for OpenAPI 3.1. -/
theorem C73_reload31 (N : Nums) (hN : NumsOk N) (n : String) (hn : n ≠ "NonBearer") (j : Any) (v : Val)
    (h : decode V31.table N (.named n) j = some v) (hc : Everywhere clean31 v) :
    ∃ j' w, encode V31.table (.named n) v = some j' ∧ decode V31.table N (.named n) j' = some w ∧ Same v w :=
  C35_roundtrip31 N _ v (load (loadFacts31 hN) j _ v (by simpa [tyOk, bad31] using hn) h hc)

/-! ## Concrete cases -/

mutual
def everywhereB (p : List (String × Val) → Bool) : Val → Bool
  | .list vs => everywhereListB p vs
  | .map ms => everywhereEntriesB p ms
  | .struct fs => p fs && everywhereEntriesB p fs
  | _ => true
def everywhereListB (p : List (String × Val) → Bool) : List Val → Bool
  | [] => true
  | v :: vs => everywhereB p v && everywhereListB p vs
def everywhereEntriesB (p : List (String × Val) → Bool) : List (String × Val) → Bool
  | [] => true
  | (_, v) :: vs => everywhereB p v && everywhereEntriesB p vs
end

theorem everywhereListB_mem {p : List (String × Val) → Bool} {vs : List Val} (h : everywhereListB p vs = true) {x : Val}
    (hx : x ∈ vs) : everywhereB p x = true := by
  induction vs with
  | nil => cases hx
  | cons v vs ih =>
    simp only [everywhereListB, Bool.and_eq_true] at h
    rcases List.mem_cons.1 hx with rfl | hx
    · exact h.1
    · exact ih h.2 hx

theorem everywhereEntriesB_mem {p : List (String × Val) → Bool} {vs : List (String × Val)}
    (h : everywhereEntriesB p vs = true) {k : String} {x : Val} (hx : (k, x) ∈ vs) : everywhereB p x = true := by
  induction vs with
  | nil => cases hx
  | cons v vs ih =>
    obtain ⟨k', v⟩ := v
    simp only [everywhereEntriesB, Bool.and_eq_true] at h
    rcases List.mem_cons.1 hx with e | hx
    · cases e; exact h.1
    · exact ih h.2 hx

theorem everywhereB_sound {p : List (String × Val) → Bool} {P : List (String × Val) → Prop} (hp : ∀ fs, p fs = true → P fs)
    {v : Val} (h : everywhereB p v = true) : Everywhere P v := by
  intro fs hpart
  generalize hw : Val.struct fs = w at hpart
  induction hpart with
  | self v =>
    subst hw
    simp only [everywhereB, Bool.and_eq_true] at h
    exact hp fs h.1
  | list hx _ ih => exact ih (everywhereListB_mem h hx) hw
  | map hx _ ih => exact ih (everywhereEntriesB_mem h hx) hw
  | struct hx _ ih =>
    simp only [everywhereB, Bool.and_eq_true] at h
    exact ih (everywhereEntriesB_mem h.2 hx) hw

def rawCopyB (N : Nums) (ty : Ty) (v : Val) (b : Any) : Bool :=
  (match decode V30.table N ty b with
    | some w => eqV v w
    | none => false) &&
  (match encode V30.table ty v with
    | some a => (decodeAny N a).isSome
    | none => false)

theorem rawCopyB_sound {N : Nums} {ty : Ty} {v : Val} {b : Any} (h : rawCopyB N ty v b = true) : RawCopy N ty v b := by
  simp only [rawCopyB, Bool.and_eq_true] at h
  obtain ⟨h1, h2⟩ := h
  constructor
  · split at h1
    · rename_i w hw
      exact ⟨w, hw, by rw [eqV_sound h1]; exact .same _⟩
    · cases h1
  · split at h2
    · rename_i a ha
      refine ⟨a, ha, ?_⟩
      intro e
      rw [e] at h2
      cases h2
    · cases h2

def clean30B (N : Nums) (fs : List (String × Val)) : Bool :=
  !(fs.map Prod.fst == V30.sParameter.names) ||
  (match fieldIn fs "SchemaXORContent" with
    | .struct [("HasSchema", .struct [("Schema", .any b)]), ("HasContent", .nil)] =>
      !isNilB (fieldIn fs "Schema") && isEmpty (fieldIn fs "Content") &&
        rawCopyB N (.ptr (.named "SchemaOrRef")) (fieldIn fs "Schema") b
    | .struct [("HasSchema", .nil), ("HasContent", .struct [("Content", .any b)])] =>
      isNilB (fieldIn fs "Schema") && !isEmpty (fieldIn fs "Content") &&
        rawCopyB N (.map (.named "MediaType")) (fieldIn fs "Content") b
    | _ => false)

theorem clean30B_sound {N : Nums} (fs : List (String × Val)) (h : clean30B N fs = true) : clean30 N fs := by
  intro hn
  simp only [clean30B, hn, beq_self_eq_true, Bool.not_true, Bool.false_or] at h
  split at h
  · rename_i b e
    simp only [Bool.and_eq_true, Bool.not_eq_true', ← Bool.not_eq_true, isNilB_iff] at h
    exact .inl ⟨b, e, h.1.1, h.1.2, rawCopyB_sound h.2⟩
  · rename_i b e
    simp only [Bool.and_eq_true, Bool.not_eq_true', isNilB_iff] at h
    exact .inr ⟨b, e, h.1.1, h.1.2, rawCopyB_sound h.2⟩
  · cases h

def clean31B (fs : List (String × Val)) : Bool :=
  !(fs.map Prod.fst == V31.sExample.names) &&
  (!(fs.map Prod.fst == ["Reference", "Link"]) || isNilB (fieldIn fs "Reference")) &&
  (!(fs.map Prod.fst == ["Reference", "PathItem"]) || isNilB (fieldIn fs "Reference")) &&
  (!(fs.map Prod.fst == ["Reference", "Response"]) || isNilB (fieldIn fs "Reference") || (match fieldIn fs "Reference" with
    | .struct r => r.any (fun p => p.1 == "Description" && isNilB p.2)
    | _ => false)) &&
  (!(fs.map Prod.fst == V31.sHeader.names) || (isEmpty (fieldIn fs "Schema") != isEmpty (fieldIn fs "Content")))

theorem clean31B_sound (fs : List (String × Val)) (h : clean31B fs = true) : clean31 fs := by
  simp only [clean31B, Bool.and_eq_true, Bool.or_eq_true, Bool.not_eq_true', beq_eq_false_iff_ne, isNilB_iff, bne_iff_ne] at h
  obtain ⟨⟨⟨⟨h1, h2⟩, h3⟩, h4⟩, h5⟩ := h
  refine ⟨h1, fun e => h2.resolve_left (fun g => g e), fun e => h3.resolve_left (fun g => g e), ?_, ?_⟩
  · intro e
    rcases h4 with (h | h) | h
    · exact absurd e h
    · exact .inl h
    · split at h
      · rename_i r hr
        obtain ⟨p, hp, e⟩ := List.any_eq_true.1 h
        simp only [Bool.and_eq_true, beq_iff_eq, isNilB_iff] at e
        exact .inr ⟨r, hr, by rw [← e.1, ← e.2]; exact hp⟩
      · cases h
  · intro e
    have := h5.resolve_left (fun g => g e)
    cases ha : isEmpty (fieldIn fs "Schema") <;> cases hb : isEmpty (fieldIn fs "Content") <;> simp_all

/-- Numbers are kept, but `1.0` is printed as `1`. -/
def roundNums : Nums := ⟨fun l => some (if l = "1.0" then "1" else l), fun l => if l = "1.0" then none else some l⟩

theorem roundNums_ok : NumsOk roundNums where
  f64 := by
    intro l l' h
    simp only [roundNums, Option.some.injEq] at h ⊢
    subst h
    by_cases h : l = "1.0"
    · subst h; decide
    · simp [h]
  i64 := by
    intro l l' h
    simp only [roundNums] at h ⊢
    split at h
    · cases h
    · cases h; rw [if_neg (by assumption)]
  f64zero := by decide
  i64zero := by decide

theorem reload_case {T : Table} {N : Nums} {P : List (String × Val) → Prop} {p : List (String × Val) → Bool}
    (hp : ∀ fs, p fs = true → P fs) {ty : Ty} {j : Any} (h : (match decode T N ty j with
      | some v => everywhereB p v
      | none => false) = true) : ∃ v, decode T N ty j = some v ∧ Everywhere P v := by
  split at h
  · rename_i v hv
    exact ⟨v, hv, everywhereB_sound hp h⟩
  · cases h

/-- A document of 3.0 with parameters, a link, an empty list of tags and HTTP security schemes. -/
def loadDoc30 : Any := .obj [("openapi", .str "3.0.3"),
  ("info", .obj [("version", .str "1"), ("title", .str "t"), ("x-n", .num "1.0")]),
  ("paths", .obj [("/items/{id}", .obj [
    ("parameters", .arr [.obj [("$ref", .str "#/components/parameters/p")]]),
    ("get", .obj [("tags", .arr []),
      ("parameters", .arr [
        .obj [("name", .str "id"), ("in", .str "path"), ("required", .bool true), ("style", .str "label"),
          ("schema", .obj [("type", .str "number"), ("minimum", .num "1.0"), ("maxLength", .num "5"),
            ("default", .null)])],
        .obj [("in", .str "header"), ("name", .str "X-T"), ("content", .obj [("text/plain", .obj [])])]]),
      ("responses", .obj [("204", .obj [("description", .str ""), ("links", .obj [("next",
        .obj [("operationId", .str "list"), ("requestBody", .null)])])]),
        ("default", .obj [("$ref", .str "#/components/responses/e")])])])])]),
  ("components", .obj [("securitySchemes", .obj [
    ("a", .obj [("type", .str "http"), ("scheme", .str "bearer"), ("bearerFormat", .str "JWT")]),
    ("b", .obj [("type", .str "http"), ("scheme", .str "Basic")])])])]

theorem C73_case30 : ∃ v, decode V30.table roundNums (.named "Spec") loadDoc30 = some v ∧
    Everywhere (clean30 roundNums) v := reload_case (p := clean30B roundNums) clean30B_sound (by decide +kernel)

/-- A document of 3.1 with parameters, a header, references and security schemes. -/
def loadDoc31 : Any := .obj [("openapi", .str "3.1.0"),
  ("info", .obj [("title", .str "t"), ("version", .str "1"), ("unknown", .num "1.0")]),
  ("paths", .obj [("/", .obj [("get", .obj [
    ("parameters", .arr [.obj [("name", .str "q"), ("in", .str "query"), ("schema", .obj [("type", .str "string"),
      ("maximum", .num "1.0")])], .obj [("$ref", .str "#/components/parameters/p"), ("description", .str "d")]]),
    ("responses", .obj [("200", .obj [("description", .str ""), ("headers", .obj [("X-H",
      .obj [("schema", .obj [("type", .str "integer")])])])]),
      ("default", .obj [("$ref", .str "#/components/responses/e")])])])])]),
  ("components", .obj [("securitySchemes", .obj [
    ("a", .obj [("type", .str "http"), ("scheme", .str "Bearer"), ("bearerFormat", .str "JWT"), ("description", .str "d")]),
    ("b", .obj [("type", .str "apiKey"), ("name", .str "k"), ("in", .str "header"), ("x-z", .num "1.0")])])])]

theorem C73_case31 : ∃ v, decode V31.table roundNums (.named "Spec") loadDoc31 = some v ∧ Everywhere clean31 v :=
  reload_case (p := clean31B) clean31B_sound (by decide +kernel)

end Verif
