import Verif.Lemmas.RoundTripHTTP
import Verif.Codec.KernelRfl

/-! The parameter of 3.0 is read back. -/

namespace Verif
open Codec Spec

variable {N : Nums}

/-! ## The parts of a parameter that repeat other fields -/

theorem enc_has {n go key : String} {s : Struct} (hn : GoMap.get? V30.table n = some (.struct s))
    (hs : s.parts = [.fields] ∧ s.fields = [⟨go, key, .any, false⟩]) (a : Any) :
    encode V30.table (.ptr (.named n)) (.struct [(go, .any a)]) = some (.obj [(key, a)]) := by
  rw [encode_ptr _ (by intro h; cases h), encode_struct hn, hs.1]
  simp only [mapAll, encodePart, hs.2, encodeFields, List.map_cons, List.map_nil, slotOf, slotFor, List.find?_cons,
    beq_self_eq_true, omitted, Bool.false_and, Bool.false_eq_true, if_false, encode_any]
  rfl

theorem xorSchema_enc (a : Any) : encode V30.table (.ptr (.named "SchemaXORContent")) (xorSchema a) =
    some (.obj [("schema", a)]) := by
  unfold xorSchema
  rw [encode_ptr _ (by intro h; cases h), encode_struct (s := V30.sSchemaXORContent) (by decide +kernel)]
  have e : mapAll (encodePart V30.sSchemaXORContent ([("HasSchema", Val.struct [("Schema", .any a)]),
      ("HasContent", .nil)].map (slotFor V30.table))) V30.sSchemaXORContent.parts =
      (match encode V30.table (.ptr (.named "HasSchema")) (.struct [("Schema", .any a)]), some [Any.null] with
        | some y, some ys => some (y :: ys)
        | _, _ => none) := rfl
  rw [e, enc_has (s := V30.sHasSchema) (key := "schema") (by decide +kernel) ⟨rfl, rfl⟩]
  rfl

theorem xorContent_enc (a : Any) : encode V30.table (.ptr (.named "SchemaXORContent")) (xorContent a) =
    some (.obj [("content", a)]) := by
  unfold xorContent
  rw [encode_ptr _ (by intro h; cases h), encode_struct (s := V30.sSchemaXORContent) (by decide +kernel)]
  have e : mapAll (encodePart V30.sSchemaXORContent ([("HasSchema", Val.nil),
      ("HasContent", .struct [("Content", .any a)])].map (slotFor V30.table))) V30.sSchemaXORContent.parts =
      (match some Any.null, mapAll (fun _ : Unit => encode V30.table (.ptr (.named "HasContent"))
          (.struct [("Content", .any a)])) [()] with
        | some y, some ys => some (y :: ys)
        | _, _ => none) := rfl
  rw [e]
  simp only [mapAll]
  rw [enc_has (s := V30.sHasContent) (key := "content") (by decide +kernel) ⟨rfl, rfl⟩]
  rfl

def locationOk (i : String) (style loc : Val) : Prop :=
  loc = .nil ∨ (i ∈ ["path", "query"] ∧ loc = location i (.struct [("Style", style)])) ∨
    (i ∈ ["header", "cookie"] ∧ loc = location i (.struct []))

theorem location_part {i : String} (hi : i ∈ ["path", "query", "header", "cookie"]) {style loc : Val}
    (hst : style = .nil ∨ ∃ st ∈ styles i, style = .str st) (hl : locationOk i style loc) :
    ∃ j st', encode V30.table (.ptr (.named "ParameterLocation")) loc = some j ∧ IsPart j ∧
      (st' = style ∨ (style = .nil ∧ (∃ x ∈ ["simple", "form"], st' = .str x) ∧ "style" ∈ (objMembers j).map Prod.fst)) ∧
      (st' = .nil ∨ ∃ x ∈ styles i, st' = .str x) ∧ (i ∈ ["path", "query"] → st' = style) ∧
      (loc ≠ .nil → i ∈ ["header", "cookie"] → st' ≠ .nil) ∧
      ∀ p ∈ objMembers j, p = ("in", .str i) ∨ (i = "path" ∧ p = ("required", .bool true)) ∨
        ∃ x, st' = .str x ∧ p = ("style", .str x) := by
  rcases hl with rfl | ⟨hi, rfl⟩ | ⟨hi, rfl⟩
  · exact ⟨.null, style, rfl, .inl rfl, .inl rfl, hst, fun _ => rfl, fun h => absurd rfl h, by intro p hp; cases hp⟩
  · simp only [List.mem_cons, List.not_mem_nil, or_false] at hi
    rcases hi with rfl | rfl
    · rcases hst with rfl | ⟨st, hst, rfl⟩
      · refine ⟨.obj [("in", .str "path"), ("required", .bool true)], .nil, by kernel_rfl, .inr ⟨_, rfl⟩, .inl rfl,
          .inl rfl, fun _ => rfl, fun _ h => absurd h (by decide), ?_⟩
        intro p hp
        simp only [objMembers, List.mem_cons, List.not_mem_nil, or_false] at hp
        rcases hp with rfl | rfl
        · exact .inl rfl
        · exact .inr (.inl ⟨rfl, rfl⟩)
      · have he : encode V30.table (.ptr (.named "ParameterLocation")) (location "path" (.struct [("Style", .str st)])) =
            some (.obj [("in", .str "path"), ("required", .bool true), ("style", .str st)]) := by
          simp only [styles, List.mem_cons, List.not_mem_nil, or_false] at hst
          rcases hst with rfl | rfl | rfl <;> kernel_rfl
        refine ⟨_, .str st, he, .inr ⟨_, rfl⟩, .inl rfl, .inr ⟨st, hst, rfl⟩, fun _ => rfl, fun _ h => absurd h (by decide), ?_⟩
        intro p hp
        simp only [objMembers, List.mem_cons, List.not_mem_nil, or_false] at hp
        rcases hp with rfl | rfl | rfl
        · exact .inl rfl
        · exact .inr (.inl ⟨rfl, rfl⟩)
        · exact .inr (.inr ⟨st, rfl, rfl⟩)
    · rcases hst with rfl | ⟨st, hst, rfl⟩
      · refine ⟨.obj [("in", .str "query")], .nil, by kernel_rfl, .inr ⟨_, rfl⟩, .inl rfl,
          .inl rfl, fun _ => rfl, fun _ h => absurd h (by decide), ?_⟩
        intro p hp
        simp only [objMembers, List.mem_cons, List.not_mem_nil, or_false] at hp
        exact .inl hp
      · have he : encode V30.table (.ptr (.named "ParameterLocation")) (location "query" (.struct [("Style", .str st)])) =
            some (.obj [("in", .str "query"), ("style", .str st)]) := by
          simp only [styles, List.mem_cons, List.not_mem_nil, or_false] at hst
          rcases hst with rfl | rfl | rfl | rfl <;> kernel_rfl
        refine ⟨_, .str st, he, .inr ⟨_, rfl⟩, .inl rfl, .inr ⟨st, hst, rfl⟩, fun _ => rfl, fun _ h => absurd h (by decide), ?_⟩
        intro p hp
        simp only [objMembers, List.mem_cons, List.not_mem_nil, or_false] at hp
        rcases hp with rfl | rfl
        · exact .inl rfl
        · exact .inr (.inr ⟨st, rfl, rfl⟩)
  · have key : ∀ i x, i ∈ ["header", "cookie"] → styles i = [x] → x ∈ ["simple", "form"] →
        encode V30.table (.ptr (.named "ParameterLocation")) (location i (.struct [])) =
          some (.obj [("in", .str i), ("style", .str x)]) → (style = .nil ∨ ∃ st ∈ styles i, style = .str st) →
        ∃ j st', encode V30.table (.ptr (.named "ParameterLocation")) (location i (.struct [])) = some j ∧ IsPart j ∧
      (st' = style ∨ (style = .nil ∧ (∃ x ∈ ["simple", "form"], st' = .str x) ∧ "style" ∈ (objMembers j).map Prod.fst)) ∧
      (st' = .nil ∨ ∃ x ∈ styles i, st' = .str x) ∧ (i ∈ ["path", "query"] → st' = style) ∧
      (location i (.struct []) ≠ .nil → i ∈ ["header", "cookie"] → st' ≠ .nil) ∧
      ∀ p ∈ objMembers j, p = ("in", .str i) ∨ (i = "path" ∧ p = ("required", .bool true)) ∨
        ∃ x, st' = .str x ∧ p = ("style", .str x) := by
      intro i x hi hs hx he hst
      refine ⟨_, .str x, he, .inr ⟨_, rfl⟩, ?_, .inr ⟨x, by rw [hs]; exact List.mem_cons_self, rfl⟩, ?_, (fun _ _ h => nomatch h), ?_⟩
      · rcases hst with h | ⟨st, h1, h2⟩
        · exact .inr ⟨h, ⟨x, hx, rfl⟩, by simp [objMembers]⟩
        · rw [hs, List.mem_singleton] at h1
          rw [h2, h1]
          exact .inl rfl
      · intro h
        exfalso
        simp only [List.mem_cons, List.not_mem_nil, or_false] at h hi
        rcases h with rfl | rfl <;> exact absurd hi (by decide)
      · intro p hp
        simp only [objMembers, List.mem_cons, List.not_mem_nil, or_false] at hp
        rcases hp with rfl | rfl
        · exact .inl rfl
        · exact .inr (.inr ⟨x, rfl, rfl⟩)
    have hi' := hi
    simp only [List.mem_cons, List.not_mem_nil, or_false] at hi'
    rcases hi' with rfl | rfl
    · exact key _ "simple" hi rfl (by decide) (by kernel_rfl) hst
    · exact key _ "form" hi rfl (by decide) (by kernel_rfl) hst

/-! ## Reading them -/

/-- What is needed to know about the members of a parameter. -/
structure ParamMembers (i : String) (st : Val) (M : List (String × Any)) : Prop where
  keys : ∀ p ∈ M, (∃ f ∈ V30.sParameter.fields, p.1 = f.key) ∨ Pat.x.matches p.1 = true
  loc : i ∈ ["path", "query", "header", "cookie"]
  inKey : "in" ∈ M.map Prod.fst
  inVal : ∀ p ∈ M, p.1 = "in" → p.2 = .str i
  reqKey : i = "path" → "required" ∈ M.map Prod.fst
  reqVal : i = "path" → ∀ p ∈ M, p.1 = "required" → p.2 = .bool true
  styleOk : st = .nil ∨ ∃ x ∈ styles i, st = .str x
  styleVal : ∀ p ∈ M, p.1 = "style" → ∃ x, st = .str x ∧ p.2 = .str x
  styleKey : "style" ∉ M.map Prod.fst → st = .nil

/-- Only one key is for a field. -/
theorem only_key {M : List (String × Any)} {i : String} {st : Val} (h : ParamMembers i st M) {fs : List Field} {k : String}
    (hk : V30.sParameter.fields.all (fun f => f.key == k || (fieldOf fs f.key).isNone) = true)
    (hx : fs.all (fun f => keyFree .x f.key) = true) {p : String × Any} (hp : p ∈ M) {f : Field}
    (hf : fieldOf fs p.1 = some f) : p.1 = k := by
  rcases h.keys p hp with ⟨g, hg, e⟩ | hm
  · have := List.all_eq_true.1 hk g hg
    simp only [Bool.or_eq_true, beq_iff_eq, Option.isNone_iff_eq_none] at this
    rcases this with this | this
    · rw [e, this]
    · rw [e, this] at hf; cases hf
  · obtain ⟨h1, h2⟩ := fieldOf_mem' hf
    exact absurd h2 (keyFree_sound (List.all_eq_true.1 hx f h1) hm)

theorem decode_location {M : List (String × Any)} {i : String} {st : Val} (h : ParamMembers i st M) :
    decode V30.table N (.ptr (.named "ParameterLocation")) (.obj M) =
      some (location i (.struct (if i ∈ ["path", "query"] then [("Style", st)] else []))) := by
  have hT := ranked30
  have hPL : GoMap.get? V30.table "ParameterLocation" = some (.struct V30.sParameterLocation) := by decide +kernel
  have hother : ∀ (n x : String) (s : Struct), GoMap.get? V30.table n = some (.struct s) → ("in", .str x) ∈ s.consts →
      x ≠ i → decode V30.table N (.ptr (.named n)) (.obj M) = none := by
    intro n x s hn hc hx
    rw [decode_ptr_obj hT rfl]
    refine decode_const_none hT hn hc h.inKey ?_
    intro p hp e
    rw [h.inVal p hp e]
    simp only [Const.is, beq_eq_false_iff_ne]
    exact hx
  have hstyle : ∀ (e : String) (vs : List String) (fs : List Field), GoMap.get? V30.table e = some (.enum vs) →
      fs = [⟨"Style", "style", .ptr (.named e), true⟩] → (∀ x, st = .str x → x ∈ vs) → ∀ f ∈ fs, ∀ p ∈ M,
      fieldOf fs p.1 = some f → decode V30.table N f.ty p.2 = some st := by
    intro e vs fs he hfs hin f hf p hp hfo
    subst hfs
    have := only_key h (k := "style") (by kernel_rfl) (by kernel_rfl) hp hfo
    obtain ⟨x, h1, h2⟩ := h.styleVal p hp this
    simp only [List.mem_cons, List.not_mem_nil, or_false] at hf
    subst hf
    rw [h1, h2]
    simp only
    rw [decode_ptr hT rfl]
    simp only
    rw [decode_enum he]
    simp only
    rw [if_pos (List.contains_iff_mem.2 (hin x h1))]
  have hnone : ∀ (e : String), ∀ f ∈ [(⟨"Style", "style", .ptr (.named e), true⟩ : Field)],
      (∀ p ∈ M, fieldOf [(⟨"Style", "style", .ptr (.named e), true⟩ : Field)] p.1 ≠ some f) →
      st = zero V30.table f.ty := by
    intro e f hf hno
    simp only [List.mem_cons, List.not_mem_nil, or_false] at hf
    subst hf
    apply h.styleKey
    intro hk
    obtain ⟨p, hp, e'⟩ := List.mem_map.1 hk
    apply hno p hp
    rw [e']
    rfl
  rw [decode_ptr_obj hT rfl]
  have hi := h.loc
  have hin : ∀ x, st = .str x → x ∈ styles i := by
    intro x hx
    rcases h.styleOk with e | ⟨y, hy, e⟩
    · rw [e] at hx; cases hx
    · rw [e] at hx; cases hx; exact hy
  have hpath := hother "PathParameter" "path" V30.sPathParameter (by decide +kernel) (by decide)
  have hquery := hother "QueryParameter" "query" V30.sQueryParameter (by decide +kernel) (by decide)
  have hheader := hother "HeaderParameter" "header" V30.sHeaderParameter (by decide +kernel) (by decide)
  have hcookie := hother "CookieParameter" "cookie" V30.sCookieParameter (by decide +kernel) (by decide)
  have hconstStyle : ∀ x, styles i = [x] → ∀ p ∈ M, p.1 = "style" → p.2 = .str x := by
    intro x hs p hp e
    obtain ⟨y, h1, h2⟩ := h.styleVal p hp e
    have := hin y h1
    rw [hs, List.mem_singleton] at this
    rw [h2, this]
  simp only [List.mem_cons, List.not_mem_nil, or_false] at hi
  rcases hi with rfl | rfl | rfl | rfl
  · rw [decode_union hT hPL rfl rfl (go := "PathParameter") (t := .named "PathParameter") (by decide)
      (w := .struct [("Style", st)])]
    · rfl
    · rw [decode_ptr_obj hT rfl]
      refine decode_simple (s := V30.sPathParameter) hT (by decide +kernel) ⟨rfl, rfl, rfl, rfl, rfl, rfl, rfl, rfl, rfl⟩
        (decodeFields_of (w := fun _ => st) (.inl rfl) (hstyle "PathParameterStyle" _ _ (by rfl) rfl hin)
          (hnone "PathParameterStyle")) ?_ ?_ ?_ ?_
      · intro k hk
        simp only [V30.sPathParameter, List.mem_cons, List.not_mem_nil, or_false] at hk
        subst hk
        exact h.reqKey rfl
      · intro c hc p hp e
        simp only [V30.sPathParameter, List.mem_cons, List.not_mem_nil, or_false] at hc
        rcases hc with rfl | rfl
        · rw [h.inVal p hp e]; rfl
        · rw [h.reqVal rfl p hp e]; rfl
      · intro c hc; cases hc
      · intro c hc; cases hc
    · intro e he hne
      simp only [V30.sParameterLocation, List.mem_cons, List.not_mem_nil, or_false] at he
      rcases he with rfl | rfl | rfl | rfl
      · exact absurd rfl hne
      · exact hquery (by decide)
      · exact hheader (by decide)
      · exact hcookie (by decide)
  · rw [decode_union hT hPL rfl rfl (go := "QueryParameter") (t := .named "QueryParameter") (by decide)
      (w := .struct [("Style", st)])]
    · rfl
    · rw [decode_ptr_obj hT rfl]
      refine decode_simple (s := V30.sQueryParameter) hT (by decide +kernel) ⟨rfl, rfl, rfl, rfl, rfl, rfl, rfl, rfl, rfl⟩
        (decodeFields_of (w := fun _ => st) (.inl rfl) (hstyle "QueryParameterStyle" _ _ (by rfl) rfl hin)
          (hnone "QueryParameterStyle")) ?_ ?_ ?_ ?_
      · intro k hk; cases hk
      · intro c hc p hp e
        simp only [V30.sQueryParameter, List.mem_cons, List.not_mem_nil, or_false] at hc
        subst hc
        rw [h.inVal p hp e]; rfl
      · intro c hc; cases hc
      · intro c hc; cases hc
    · intro e he hne
      simp only [V30.sParameterLocation, List.mem_cons, List.not_mem_nil, or_false] at he
      rcases he with rfl | rfl | rfl | rfl
      · exact hpath (by decide)
      · exact absurd rfl hne
      · exact hheader (by decide)
      · exact hcookie (by decide)
  · rw [decode_union hT hPL rfl rfl (go := "HeaderParameter") (t := .named "HeaderParameter") (by decide)
      (w := .struct [])]
    · rfl
    · rw [decode_ptr_obj hT rfl]
      refine decode_simple (s := V30.sHeaderParameter) hT (by decide +kernel) ⟨rfl, rfl, rfl, rfl, rfl, rfl, rfl, rfl, rfl⟩
        rfl ?_ ?_ ?_ ?_
      · intro k hk; cases hk
      · intro c hc p hp e
        simp only [V30.sHeaderParameter, List.mem_cons, List.not_mem_nil, or_false] at hc
        rcases hc with rfl | rfl
        · rw [h.inVal p hp e]; rfl
        · rw [hconstStyle "simple" rfl p hp e]; rfl
      · intro c hc; cases hc
      · intro c hc; cases hc
    · intro e he hne
      simp only [V30.sParameterLocation, List.mem_cons, List.not_mem_nil, or_false] at he
      rcases he with rfl | rfl | rfl | rfl
      · exact hpath (by decide)
      · exact hquery (by decide)
      · exact absurd rfl hne
      · exact hcookie (by decide)
  · rw [decode_union hT hPL rfl rfl (go := "CookieParameter") (t := .named "CookieParameter") (by decide)
      (w := .struct [])]
    · rfl
    · rw [decode_ptr_obj hT rfl]
      refine decode_simple (s := V30.sCookieParameter) hT (by decide +kernel) ⟨rfl, rfl, rfl, rfl, rfl, rfl, rfl, rfl, rfl⟩
        rfl ?_ ?_ ?_ ?_
      · intro k hk; cases hk
      · intro c hc p hp e
        simp only [V30.sCookieParameter, List.mem_cons, List.not_mem_nil, or_false] at hc
        rcases hc with rfl | rfl
        · rw [h.inVal p hp e]; rfl
        · rw [hconstStyle "form" rfl p hp e]; rfl
      · intro c hc; cases hc
      · intro c hc; cases hc
    · intro e he hne
      simp only [V30.sParameterLocation, List.mem_cons, List.not_mem_nil, or_false] at he
      rcases he with rfl | rfl | rfl | rfl
      · exact hpath (by decide)
      · exact hquery (by decide)
      · exact hheader (by decide)
      · exact absurd rfl hne

/-- The field of the last value for its key. -/
theorem fieldReads_last {T : Table} {fs : List Field} {M : List (String × Any)} {f : Field} {b : Any} {w : Val}
    (hl : lastValue M f.key = some b) (hown : fieldOf fs f.key = some f)
    (hk : ∀ p ∈ M, fieldOf fs p.1 = some f → p.1 = f.key)
    (hall : ∀ p ∈ M, fieldOf fs p.1 = some f → ∃ x, decode T N f.ty p.2 = some x)
    (hw : decode T N f.ty b = some w) : FieldReads T N fs M f w := by
  refine ⟨hall, .inr ?_⟩
  obtain ⟨M1, M2, rfl, h⟩ := lastValue_split hl
  refine ⟨M1, (f.key, b), M2, rfl, hown, hw, ?_⟩
  intro p hp e
  exact h p hp (hk p (List.mem_append_right _ (List.mem_cons_of_mem _ hp)) e)

/-- One of the two alternatives of `SchemaXORContent` is read. -/
theorem decode_xor {M : List (String × Any)} {i : String} {st : Val} (h : ParamMembers i st M) {a b : Any}
    (hab : decodeAny N a = some b) :
    (lastValue M "schema" = some a → "content" ∉ M.map Prod.fst →
        (∀ p ∈ M, p.1 = "schema" → decodeAny N p.2 ≠ none) →
      decode V30.table N (.ptr (.named "SchemaXORContent")) (.obj M) = some (xorSchema b)) ∧
    ("schema" ∉ M.map Prod.fst → lastValue M "content" = some a →
        (∀ p ∈ M, p.1 = "content" → decodeAny N p.2 ≠ none) →
      decode V30.table N (.ptr (.named "SchemaXORContent")) (.obj M) = some (xorContent b)) := by
  have hT := ranked30
  have hX : GoMap.get? V30.table "SchemaXORContent" = some (.struct V30.sSchemaXORContent) := by decide +kernel
  have hS : GoMap.get? V30.table "HasSchema" = some (.struct V30.sHasSchema) := by decide +kernel
  have hC : GoMap.get? V30.table "HasContent" = some (.struct V30.sHasContent) := by decide +kernel
  have hXN : GoMap.get? V30.table "SchemaXORContentNot" = some (.struct V30.sSchemaXORContentNot) := by decide +kernel
  rw [decode_ptr_obj hT rfl]
  have key : ∀ o, (∃ k ∈ V30.sSchemaXORContentNot.require, k ∉ M.map Prod.fst) →
      decodeOneOf (fun t => decode V30.table N t (.obj M)) V30.sSchemaXORContent.oneOf = some o →
      decode V30.table N (.named "SchemaXORContent") (.obj M) = some (.struct o) := by
    rintro o ⟨k, hk, hno⟩ ho
    rw [decode_struct_some hT hX]
    refine ⟨?_, [], [], o, [], rfl, rfl, ho, ?_, rfl, ?_⟩
    · intro t ht
      simp only [V30.sSchemaXORContent, List.mem_cons, List.not_mem_nil, or_false] at ht
      subst ht
      exact decode_missing hT hXN hk hno
    · rfl
    · simp
  constructor
  · intro h1 h2 h3
    apply key _ ⟨"content", by decide, h2⟩
    have d1 : decode V30.table N (.ptr (.named "HasSchema")) (.obj M) = some (.struct [("Schema", .any b)]) := by
      rw [decode_ptr_obj hT rfl]
      refine decode_simple hT hS ⟨rfl, rfl, rfl, rfl, rfl, rfl, rfl, rfl, rfl⟩
        (decodeFields_reads (w := fun _ => .any b) (.inl rfl) ?_) ?_ ?_ ?_ ?_
      · intro f hf
        simp only [V30.sHasSchema, List.mem_cons, List.not_mem_nil, or_false] at hf
        subst hf
        refine fieldReads_last h1 (by decide +kernel) (fun p hp hfo => ?_) (fun p hp hfo => ?_) (by rw [decode_any, hab]; rfl)
        · exact only_key h (k := "schema") (by decide +kernel) (by decide +kernel) hp hfo
        · have hk := only_key h (k := "schema") (by decide +kernel) (by decide +kernel) hp hfo
          cases e : decodeAny N p.2 with
          | none => exact absurd e (h3 p hp hk)
          | some y => exact ⟨.any y, by simp only; rw [decode_any, e]; rfl⟩
      · intro k hk
        simp only [V30.sHasSchema, List.mem_cons, List.not_mem_nil, or_false] at hk
        rw [hk]; exact lastValue_key h1
      · intro c hc; cases hc
      · intro c hc; cases hc
      · intro c hc; cases hc
    have d2 : decode V30.table N (.ptr (.named "HasContent")) (.obj M) = none := by
      rw [decode_ptr_obj hT rfl]
      exact decode_missing hT hC (k := "content") (by decide) h2
    rw [decodeOneOf_some (by decide) (by decide)]
    refine ⟨⟨"HasSchema", .ptr (.named "HasSchema")⟩, by decide, _, d1, ?_, rfl⟩
    intro e he hne
    simp only [V30.sSchemaXORContent, List.mem_cons, List.not_mem_nil, or_false] at he
    rcases he with rfl | rfl
    · exact absurd rfl hne
    · exact d2
  · intro h1 h2 h3
    apply key _ ⟨"schema", by decide, h1⟩
    have d1 : decode V30.table N (.ptr (.named "HasContent")) (.obj M) = some (.struct [("Content", .any b)]) := by
      rw [decode_ptr_obj hT rfl]
      refine decode_simple hT hC ⟨rfl, rfl, rfl, rfl, rfl, rfl, rfl, rfl, rfl⟩
        (decodeFields_reads (w := fun _ => .any b) (.inl rfl) ?_) ?_ ?_ ?_ ?_
      · intro f hf
        simp only [V30.sHasContent, List.mem_cons, List.not_mem_nil, or_false] at hf
        subst hf
        refine fieldReads_last h2 (by decide +kernel) (fun p hp hfo => ?_) (fun p hp hfo => ?_) (by rw [decode_any, hab]; rfl)
        · exact only_key h (k := "content") (by decide +kernel) (by decide +kernel) hp hfo
        · have hk := only_key h (k := "content") (by decide +kernel) (by decide +kernel) hp hfo
          cases e : decodeAny N p.2 with
          | none => exact absurd e (h3 p hp hk)
          | some y => exact ⟨.any y, by simp only; rw [decode_any, e]; rfl⟩
      · intro k hk
        simp only [V30.sHasContent, List.mem_cons, List.not_mem_nil, or_false] at hk
        rw [hk]; exact lastValue_key h2
      · intro c hc; cases hc
      · intro c hc; cases hc
      · intro c hc; cases hc
    have d2 : decode V30.table N (.ptr (.named "HasSchema")) (.obj M) = none := by
      rw [decode_ptr_obj hT rfl]
      exact decode_missing hT hS (k := "schema") (by decide) h1
    rw [decodeOneOf_some (by decide) (by decide)]
    refine ⟨⟨"HasContent", .ptr (.named "HasContent")⟩, by decide, _, d1, ?_, rfl⟩
    intro e he hne
    simp only [V30.sSchemaXORContent, List.mem_cons, List.not_mem_nil, or_false] at he
    rcases he with rfl | rfl
    · exact d2
    · exact absurd rfl hne

/-! ## The parameter -/

theorem not_null30 {f : Field} (_ : f ∈ V30.sParameter.fields) (hk : f.go ≠ "Example") {v : Val} :
    ¬ExplicitNull V30.sParameter f v := by
  rintro ⟨h, _⟩
  simp only [V30.sParameter, List.mem_cons, Prod.mk.injEq, List.not_mem_nil, or_false] at h
  exact hk h.1

theorem parameter30_both (hn : GoMap.get? V30.table "Parameter" = some (.struct V30.sParameter)) (val : String → Val)
    (hf : ∀ f ∈ V30.sParameter.fields, ¬ExplicitNull V30.sParameter f (val f.go) → Good V30.table N f.ty (val f.go))
    (hp : Good V30.table N (.map .any) (val "MapOfAnything")) (hpk : ∀ k ∈ keysOf (val "MapOfAnything"), IsExtension k)
    (a : Any)
    (hx : (val "Schema" ≠ .nil ∧ isEmpty (val "Content") = true ∧
        encode V30.table (.ptr (.named "SchemaOrRef")) (val "Schema") = some a ∧
        ((val "SchemaXORContent" = .nil ∧ decodeAny N a ≠ none) ∨
          (val "SchemaXORContent" = xorSchema a ∧ decodeAny N a = some a) ∨
          (decodeAny N a ≠ none ∧ ∃ b w, val "SchemaXORContent" = xorSchema b ∧ decodeAny N b = some b ∧
            decode V30.table N (.ptr (.named "SchemaOrRef")) b = some w ∧ Same (val "Schema") w))) ∨
      (val "Schema" = .nil ∧ isEmpty (val "Content") = false ∧
        encode V30.table (.map (.named "MediaType")) (val "Content") = some a ∧
        ((val "SchemaXORContent" = .nil ∧ decodeAny N a ≠ none) ∨
          (val "SchemaXORContent" = xorContent a ∧ decodeAny N a = some a) ∨
          (decodeAny N a ≠ none ∧ ∃ b w, val "SchemaXORContent" = xorContent b ∧ decodeAny N b = some b ∧
            decode V30.table N (.map (.named "MediaType")) b = some w ∧ Same (val "Content") w))))
    (i : String) (hin : val "In" = .str i) (hreq : i = "path" → val "Required" = .bool true)
    (hst : val "Style" = .nil ∨ ∃ st ∈ styles i, val "Style" = .str st)
    (hl : locationOk i (val "Style") (val "Location")) :
    Good V30.table N (.named "Parameter") (structOf V30.sParameter val) ∧
      ((∀ f ∈ V30.sParameter.fields, ¬ExplicitNull V30.sParameter f (val f.go) → Again V30.table N f.ty (val f.go)) →
        MapAgain V30.table N .any (val "MapOfAnything") →
        ((∃ b, val "SchemaXORContent" = xorSchema b ∧ RawAgain N (.ptr (.named "SchemaOrRef")) (val "Schema") b) ∨
          (∃ b, val "SchemaXORContent" = xorContent b ∧ RawAgain N (.map (.named "MediaType")) (val "Content") b)) →
        (i ∈ ["header", "cookie"] → val "Style" ≠ .nil) → val "Location" ≠ .nil →
        Again V30.table N (.named "Parameter") (structOf V30.sParameter val)) ∧
      ∃ L, rt V30.table N (.named "Parameter") (structOf V30.sParameter val) = .struct L ∧
        L.map Prod.fst = V30.sParameter.names ∧ fieldIn L "Location" ≠ .nil ∧ fieldIn L "In" = .str i ∧
        (val "Location" ≠ .nil → i ∈ ["header", "cookie"] → fieldIn L "Style" ≠ .nil) ∧
        ∃ b w c, decodeAny N b = some c ∧ ((val "SchemaXORContent" = .nil ∧ b = a) ∨
            (c = b ∧ (val "SchemaXORContent" = xorSchema b ∨ val "SchemaXORContent" = xorContent b))) ∧
          ((decode V30.table N (.ptr (.named "SchemaOrRef")) b = some w ∧ Same (val "Schema") w ∧ val "Schema" ≠ .nil ∧
              fieldIn L "Schema" = w ∧ fieldIn L "Content" = .nil ∧ fieldIn L "SchemaXORContent" = xorSchema c) ∨
            (decode V30.table N (.map (.named "MediaType")) b = some w ∧ Same (val "Content") w ∧
              isEmpty (val "Content") = false ∧
              fieldIn L "Schema" = .nil ∧ fieldIn L "Content" = w ∧ fieldIn L "SchemaXORContent" = xorContent c)) ∧
          ∀ Q : List (String × Val) → Prop, (∀ fs, fs.length ≤ 4 → Q fs) →
            (∀ f ∈ V30.sParameter.fields, ¬ExplicitNull V30.sParameter f (val f.go) →
              Everywhere Q (rt V30.table N f.ty (val f.go))) →
            (∀ p ∈ entries (val "MapOfAnything"), Everywhere Q (rt V30.table N .any p.2)) → Everywhere Q w →
            ∀ p ∈ L, Everywhere Q p.2 := by
  have hb : Base V30.sParameter := base_of_check (by decide +kernel)
  have hT := ranked30
  have hpk' : ∀ q ∈ V30.sParameter.patterns, ∀ k ∈ keysOf (val q.go), q.pat.matches k = true := by
    intro q hq k hk
    simp only [V30.sParameter, List.mem_cons, List.not_mem_nil, or_false] at hq
    subst hq
    exact x_matches.2 (hpk k hk)
  have hF : ∀ f ∈ V30.sParameter.fields, FieldRt V30.table N V30.sParameter val f := by
    intro f hff
    by_cases h : ExplicitNull V30.sParameter f (val f.go)
    · exact .inl h
    · exact .inr (hf f hff h).rt
  have hP : ∀ q ∈ V30.sParameter.patterns, MapGood V30.table N q.ty (val q.go) := by
    intro q hq
    simp only [V30.sParameter, List.mem_cons, List.not_mem_nil, or_false] at hq
    subst hq
    exact hp.deep
  have fIn : (⟨"In", "in", .named "ParameterIn", false⟩ : Field) ∈ V30.sParameter.fields := by decide
  have fReq : (⟨"Required", "required", .ptr .bool, true⟩ : Field) ∈ V30.sParameter.fields := by decide
  have fStyle : (⟨"Style", "style", .ptr .str, true⟩ : Field) ∈ V30.sParameter.fields := by decide
  have fSchema : (⟨"Schema", "schema", .ptr (.named "SchemaOrRef"), true⟩ : Field) ∈ V30.sParameter.fields := by decide
  have fContent : (⟨"Content", "content", .map (.named "MediaType"), true⟩ : Field) ∈ V30.sParameter.fields := by decide
  have hPI : GoMap.get? V30.table "ParameterIn" = some (.enum ["path", "query", "header", "cookie"]) := by decide +kernel
  have hi : i ∈ ["path", "query", "header", "cookie"] := by
    obtain ⟨j, hj⟩ := (hf _ fIn (not_null30 fIn (by decide))).rt.writes
    simp only at hj
    rw [hin, encode_enum hPI] at hj
    split at hj
    · rename_i h; exact List.contains_iff_mem.1 h
    · cases hj
  have encIn : enc V30.table (.named "ParameterIn") (val "In") = .str i := by
    apply enc_of
    rw [hin, encode_enum hPI, if_pos (List.contains_iff_mem.2 hi)]
  -- the two derived parts
  obtain ⟨jL, st, hL1, hL2, hL3, hL4, hL5, hL7, hL6⟩ := location_part hi hst hl
  have hnil : ∀ {f : Field}, val f.go ≠ .nil → f.ty = .ptr (.named "SchemaOrRef") → omitted f (val f.go) = false := by
    intro f h e
    unfold omitted
    rw [e]
    cases h' : val f.go <;> first | exact absurd h' h | simp
  obtain ⟨g, hg, hgf, ea, hda, hgo, b, w, c, hbw, hws, hbc, jX, hX1, hX2, hX3, hX4, hxr, hkeep, hraw⟩ : ∃ g : Field, g ∈ V30.sParameter.fields ∧
      (g.key = "schema" ∨ g.key = "content") ∧ encode V30.table g.ty (val g.go) = some a ∧ decodeAny N a ≠ none ∧
      omitted g (val g.go) = false ∧
      ∃ b w c, decode V30.table N g.ty b = some w ∧ Same (val g.go) w ∧ decodeAny N b = some c ∧
      ∃ jX, encode V30.table (.ptr (.named "SchemaXORContent")) (val "SchemaXORContent") = some jX ∧ IsPart jX ∧
      ((objMembers jX = [] ∧ b = a) ∨ objMembers jX = [(g.key, b)]) ∧
      (∀ f ∈ V30.sParameter.fields, (f.key = "schema" ∨ f.key = "content") → f ≠ g → omitted f (val f.go) = true) ∧
      ((g.key = "schema" ∧ SameField "SchemaXORContent" (val "SchemaXORContent") (xorSchema c)) ∨
        (g.key = "content" ∧ SameField "SchemaXORContent" (val "SchemaXORContent") (xorContent c))) ∧
      (((∃ b, val "SchemaXORContent" = xorSchema b ∧ RawAgain N (.ptr (.named "SchemaOrRef")) (val "Schema") b) ∨
          (∃ b, val "SchemaXORContent" = xorContent b ∧ RawAgain N (.map (.named "MediaType")) (val "Content") b)) →
        encode V30.table g.ty w = some a ∧ (g.key = "schema" → xorSchema c = val "SchemaXORContent") ∧
        (g.key = "content" → xorContent c = val "SchemaXORContent")) ∧
      ((val "SchemaXORContent" = .nil ∧ b = a) ∨
            (c = b ∧ (val "SchemaXORContent" = xorSchema b ∨ val "SchemaXORContent" = xorContent b))) ∧ (g.key = "schema" → val "Schema" ≠ .nil) ∧
      (g.key = "content" → isEmpty (val "Content") = false) := by
    have kS : ∀ f ∈ V30.sParameter.fields, f.key = "schema" → f = ⟨"Schema", "schema", .ptr (.named "SchemaOrRef"), true⟩ :=
      fun f hff e => field_eq hb hff fSchema e
    have kC : ∀ f ∈ V30.sParameter.fields, f.key = "content" → f = ⟨"Content", "content", .map (.named "MediaType"), true⟩ :=
      fun f hff e => field_eq hb hff fContent e
    rcases hx with ⟨h1, h2, h3, h4⟩ | ⟨h1, h2, h3, h4⟩
    · obtain ⟨j, w, r1, r2, r3⟩ := (hf _ fSchema (not_null30 fSchema (by decide))).rt
      have : j = a := Option.some.inj (r1.symm.trans h3)
      subst this
      have hoth : ∀ f ∈ V30.sParameter.fields, (f.key = "schema" ∨ f.key = "content") →
          f ≠ ⟨"Schema", "schema", .ptr (.named "SchemaOrRef"), true⟩ → omitted f (val f.go) = true := by
        rintro f hff (e | e) hne
        · exact absurd (kS f hff e) hne
        · rw [kC f hff e]
          unfold omitted
          simp only [Bool.true_and]
          exact h2
      refine ⟨_, fSchema, .inl rfl, h3, ?_, hnil h1 rfl, ?_⟩
      · rcases h4 with h4 | h4 | h4
        · exact h4.2
        · rw [h4.2]; intro h; cases h
        · exact h4.1
      · rcases h4 with ⟨h4, h5⟩ | ⟨h4, h5⟩ | ⟨_, b, w', h4, h5, h6, h7⟩
        · cases hc : decodeAny N j with
          | none => exact absurd hc h5
          | some c =>
            exact ⟨j, w, c, r2, r3, hc, .null, by rw [h4]; rfl, .inl rfl, .inl ⟨rfl, rfl⟩, hoth,
              .inl ⟨rfl, .inr (.inl ⟨by decide, h4⟩)⟩, (by
                intro h; rcases h with ⟨_, h, _⟩ | ⟨_, h, _⟩ <;> rw [h4] at h <;> cases h), .inl ⟨h4, rfl⟩, fun _ => h1, fun h => absurd h (by decide)⟩
        · exact ⟨j, w, j, r2, r3, h5, _, by rw [h4]; exact xorSchema_enc j, .inr ⟨_, rfl⟩, .inr rfl, hoth,
            .inl ⟨rfl, .inl (by rw [h4]; exact .same _)⟩,
            by
              intro h
              rcases h with ⟨_, h, _, h6, h7⟩ | ⟨_, h, _, h6, h7⟩ <;> rw [h4] at h <;> cases h
              rw [r2] at h6
              cases h6
              exact ⟨by rw [h7, h3], fun _ => h4.symm, by intro h; exact absurd h (by decide)⟩, .inr ⟨rfl, .inl h4⟩, fun _ => h1, fun h => absurd h (by decide)⟩
        · refine ⟨b, w', b, h6, h7, h5, _, by rw [h4]; exact xorSchema_enc b, .inr ⟨_, rfl⟩, .inr rfl, hoth,
            .inl ⟨rfl, .inl (by rw [h4]; exact .same _)⟩, ?_, .inr ⟨rfl, .inl h4⟩, fun _ => h1, fun h => absurd h (by decide)⟩
          intro h
          rcases h with ⟨_, h, _, h8, h9⟩ | ⟨_, h, _, h8, h9⟩ <;> rw [h4] at h <;> cases h
          rw [h6] at h8
          cases h8
          exact ⟨by rw [h9, h3], fun _ => h4.symm, by intro h; exact absurd h (by decide)⟩
    · obtain ⟨j, w, r1, r2, r3⟩ := (hf _ fContent (not_null30 fContent (by decide))).rt
      have : j = a := Option.some.inj (r1.symm.trans h3)
      subst this
      have hoth : ∀ f ∈ V30.sParameter.fields, (f.key = "schema" ∨ f.key = "content") →
          f ≠ ⟨"Content", "content", .map (.named "MediaType"), true⟩ → omitted f (val f.go) = true := by
        rintro f hff (e | e) hne
        · rw [kS f hff e]
          simp only [h1]
          rfl
        · exact absurd (kC f hff e) hne
      refine ⟨_, fContent, .inr rfl, h3, ?_, ?_, ?_⟩
      · rcases h4 with h4 | h4 | h4
        · exact h4.2
        · rw [h4.2]; intro h; cases h
        · exact h4.1
      · unfold omitted
        simp only [Bool.true_and]
        exact h2
      · rcases h4 with ⟨h4, h5⟩ | ⟨h4, h5⟩ | ⟨_, b, w', h4, h5, h6, h7⟩
        · cases hc : decodeAny N j with
          | none => exact absurd hc h5
          | some c =>
            exact ⟨j, w, c, r2, r3, hc, .null, by rw [h4]; rfl, .inl rfl, .inl ⟨rfl, rfl⟩, hoth,
              .inr ⟨rfl, .inr (.inl ⟨by decide, h4⟩)⟩, (by
                intro h; rcases h with ⟨_, h, _⟩ | ⟨_, h, _⟩ <;> rw [h4] at h <;> cases h), .inl ⟨h4, rfl⟩, fun h => absurd h (by decide), fun _ => h2⟩
        · exact ⟨j, w, j, r2, r3, h5, _, by rw [h4]; exact xorContent_enc j, .inr ⟨_, rfl⟩, .inr rfl, hoth,
            .inr ⟨rfl, .inl (by rw [h4]; exact .same _)⟩,
            by
              intro h
              rcases h with ⟨_, h, _, h6, h7⟩ | ⟨_, h, _, h6, h7⟩ <;> rw [h4] at h <;> cases h
              rw [r2] at h6
              cases h6
              exact ⟨by rw [h7, h3], by intro h; exact absurd h (by decide), fun _ => h4.symm⟩, .inr ⟨rfl, .inr h4⟩, fun h => absurd h (by decide), fun _ => h2⟩
        · refine ⟨b, w', b, h6, h7, h5, _, by rw [h4]; exact xorContent_enc b, .inr ⟨_, rfl⟩, .inr rfl, hoth,
            .inr ⟨rfl, .inl (by rw [h4]; exact .same _)⟩, ?_, .inr ⟨rfl, .inr h4⟩, fun h => absurd h (by decide), fun _ => h2⟩
          intro h
          rcases h with ⟨_, h, _, h8, h9⟩ | ⟨_, h, _, h8, h9⟩ <;> rw [h4] at h <;> cases h
          rw [h6] at h8
          cases h8
          exact ⟨by rw [h9, h3], by intro h; exact absurd h (by decide), fun _ => h4.symm⟩
  have hgS : g.go ≠ "Style" := by
    intro e
    have := field_go_eq hb hg fStyle e
    rw [this] at hgf
    exact absurd hgf (by decide)
  have henc : encode V30.table (.named "Parameter") (structOf V30.sParameter val) =
      some (.obj (membersFor V30.table V30.sParameter val (objMembers jX ++ objMembers jL))) := by
    rw [encode_parts hn hb.names (X := ["SchemaXORContent", "Location"])
      (J := fun x => if x = "SchemaXORContent" then jX else jL) rfl hb.hidden
      (fun f hff => field_encodes hb hff (hF f hff)) (fun q hq => (hP q hq).ok) (by intro a ha; cases ha)]
    · simp [membersFor]
    · intro go hgo
      simp only [List.mem_cons, List.not_mem_nil, or_false] at hgo
      rcases hgo with rfl | rfl
      · exact ⟨_, rfl, by decide, hX1, hX2⟩
      · exact ⟨_, rfl, by decide, hL1, hL2⟩
  -- the value that is read, with the style that was written
  let val' : String → Val := fun go => if go = "Style" then st else val go
  have hv : ∀ go, go ≠ "Style" → val' go = val go := fun go h => if_neg h
  have hvS : val' "Style" = st := if_pos rfl
  have hF' : ∀ f ∈ V30.sParameter.fields, FieldRt V30.table N V30.sParameter val' f := by
    intro f hff
    by_cases e : f.go = "Style"
    · have : f = ⟨"Style", "style", .ptr .str, true⟩ := field_go_eq hb hff fStyle e
      subst this
      right
      simp only [hvS]
      rcases hL4 with h | ⟨x, _, h⟩ <;> rw [h]
      · exact ⟨.null, .nil, rfl, decode_ptr_null _, .same _⟩
      · exact ⟨.str x, .str x, rfl, by rw [decode_ptr hT rfl]; simp only; rw [decode_str], .same _⟩
    · have h := hF f hff
      unfold FieldRt at h ⊢
      rw [hv _ e]
      exact h
  have hom : ∀ f ∈ V30.sParameter.fields, omitted f (val f.go) = false → val' f.go = val f.go := by
    intro f hff ho
    by_cases e : f.go = "Style"
    · have : f = ⟨"Style", "style", .ptr .str, true⟩ := field_go_eq hb hff fStyle e
      subst this
      simp only [hvS]
      rcases hL3 with h | ⟨h, _⟩
      · exact h
      · simp only [h] at ho
        exact absurd ho (by decide)
    · exact hv _ e
  have hE : ∀ p ∈ objMembers jX ++ objMembers jL, ∃ f ∈ V30.sParameter.fields, p.1 = f.key ∧
      omitted f (val' f.go) = false ∧ (p.2 = enc V30.table f.ty (val' f.go) ∨ (f = g ∧ p.2 = b)) := by
    intro p hp
    rcases List.mem_append.1 hp with hp | hp
    · rcases hX3 with ⟨h, _⟩ | h
      · rw [h] at hp; cases hp
      · rw [h, List.mem_singleton] at hp
        subst hp
        exact ⟨g, hg, rfl, by rw [hv _ hgS]; exact hgo, .inr ⟨rfl, rfl⟩⟩
    · rcases hL6 p hp with rfl | ⟨e, rfl⟩ | ⟨x, e, rfl⟩
      · refine ⟨_, fIn, rfl, rfl, .inl ?_⟩
        simp only [hv "In" (by decide)]
        rw [encIn]
      · refine ⟨_, fReq, rfl, ?_, .inl ?_⟩
        · simp only [hv "Required" (by decide), hreq e]; rfl
        · simp only [hv "Required" (by decide), hreq e]; rfl
      · refine ⟨_, fStyle, rfl, ?_, .inl ?_⟩
        · simp only [hvS, e]; rfl
        · simp only [hvS, e]; rfl
  have hnoE : ∀ p ∈ ([] : List (String × Any)), ∀ f ∈ V30.sParameter.fields, fieldOf V30.sParameter.fields p.1 = some f →
      p.1 = f.key ∧ omitted f (val f.go) = false ∧ p.2 = enc V30.table f.ty (val f.go) := fun p hp => nomatch hp
  have hsplit : ∀ p, p ∈ membersFor V30.table V30.sParameter val (objMembers jX ++ objMembers jL) →
      p ∈ membersFor V30.table V30.sParameter val [] ∨ p ∈ objMembers jX ++ objMembers jL := by
    intro p hp
    unfold membersFor at hp ⊢
    rw [List.append_nil]
    exact List.mem_append.1 hp
  have hsub : ∀ p, p ∈ membersFor V30.table V30.sParameter val [] →
      p ∈ membersFor V30.table V30.sParameter val (objMembers jX ++ objMembers jL) := by
    intro p hp
    unfold membersFor at hp ⊢
    rw [List.append_nil] at hp
    exact List.mem_append_left _ hp
  have hM1 : ∀ p ∈ membersFor V30.table V30.sParameter val (objMembers jX ++ objMembers jL),
      ∀ f ∈ V30.sParameter.fields, fieldOf V30.sParameter.fields p.1 = some f →
      p.1 = f.key ∧ omitted f (val' f.go) = false ∧ (p.2 = enc V30.table f.ty (val' f.go) ∨ (f = g ∧ p.2 = b)) := by
    intro p hp f hff hfo
    rcases hsplit p hp with hp | hp
    · obtain ⟨h0, h1, h2⟩ := members_field hb hpk' hnoE hp hff hfo
      rw [hom f hff h1]
      exact ⟨h0, h1, .inl h2⟩
    · obtain ⟨g', hg', e, h1, h2⟩ := hE p hp
      rw [e, hb.own g' hg'] at hfo
      cases hfo
      exact ⟨e, h1, h2⟩
  have hM2 : ∀ f ∈ V30.sParameter.fields,
      f.key ∈ (membersFor V30.table V30.sParameter val (objMembers jX ++ objMembers jL)).map Prod.fst ↔
      omitted f (val' f.go) = false := by
    intro f hff
    constructor
    · intro h
      obtain ⟨p, hp, e⟩ := List.mem_map.1 h
      exact (hM1 p hp f hff (by rw [e]; exact hb.own f hff)).2.1
    · intro ho
      cases ho' : omitted f (val f.go) with
      | false =>
        have := (members_key (T := V30.table) hb hpk' hnoE hff).2 ho'
        obtain ⟨p, hp, e⟩ := List.mem_map.1 this
        exact List.mem_map.2 ⟨p, hsub p hp, e⟩
      | true =>
        by_cases e : f.go = "Style"
        · have : f = ⟨"Style", "style", .ptr .str, true⟩ := field_go_eq hb hff fStyle e
          subst this
          rcases hL3 with h | ⟨_, _, h⟩
          · simp only [hvS, h] at ho ho'
            rw [ho] at ho'
            cases ho'
          · obtain ⟨p, hp, e⟩ := List.mem_map.1 h
            refine List.mem_map.2 ⟨p, ?_, e⟩
            unfold membersFor
            exact List.mem_append_right _ (List.mem_append_right _ hp)
        · rw [hv _ e, ho'] at ho
          cases ho
  have hlast : lastValue (membersFor V30.table V30.sParameter val (objMembers jX ++ objMembers jL)) g.key = some b := by
    rcases hX3 with ⟨h, e⟩ | h
    · obtain ⟨y, hy⟩ := lastValue_of_mem ((hM2 g hg).2 (by rw [hv _ hgS]; exact hgo))
      rw [hy]
      have := (hM1 _ (lastValue_mem hy) g hg (hb.own g hg)).2.2
      simp only at this
      rcases this with e' | ⟨_, e'⟩
      · rw [e', hv _ hgS, enc_of ea, e]
      · rw [e']
    · have e : ∀ A, membersFor V30.table V30.sParameter val A = membersFor V30.table V30.sParameter val [] ++ A := by
        intro A; unfold membersFor; simp
      rw [h, e]
      apply lastValue_append
      intro p hp e
      rcases hL6 p hp with rfl | ⟨_, rfl⟩ | ⟨_, _, rfl⟩ <;>
        rcases hgf with h | h <;> rw [h] at e <;> (simp at e)
  have hEk : ∀ p ∈ objMembers jX ++ objMembers jL, kept V30.sParameter p.1 = false := by
    intro p hp
    obtain ⟨f, hff, e, _⟩ := hE p hp
    have : ∀ f ∈ V30.sParameter.fields, kept V30.sParameter f.key = false := by decide +kernel
    rw [e]
    exact this f hff
  have hfilter := fun q hq => filter_pattern (T := V30.table) hb (E := objMembers jX ++ objMembers jL) hpk'
    (by intro a ha; cases ha) (fun p hp => .inl (hEk p hp)) (q := q) hq
  have hrest := filter_rest (T := V30.table) hb (E := objMembers jX ++ objMembers jL) hpk'
    (by intro a ha; cases ha) hEk (.inr rfl)
  have hprof : Profile V30.sParameter (membersFor V30.table V30.sParameter val (objMembers jX ++ objMembers jL)) := by
    refine profile_members hb hpk' ?_ (by intro p hp c hc; cases hc)
    intro p hp
    obtain ⟨f, hff, e, _⟩ := hE p hp
    have : ∀ f ∈ V30.sParameter.fields, mayKey V30.sParameter f.key = true := by decide +kernel
    rw [e]
    exact this f hff
  generalize hM : membersFor V30.table V30.sParameter val (objMembers jX ++ objMembers jL) = M at *
  have hM3 : ∀ p ∈ M, ∀ f ∈ V30.sParameter.fields, p.1 = f.key → f ≠ g → p.2 = enc V30.table f.ty (val' f.go) := by
    intro p hp f hff e hne
    rcases (hM1 p hp f hff (by rw [e]; exact hb.own f hff)).2.2 with h | ⟨h, _⟩
    · exact h
    · exact absurd h hne
  have hgne : ∀ f : Field, f.key ≠ "schema" → f.key ≠ "content" → f ≠ g := by
    rintro f h1 h2 rfl
    rcases hgf with h | h
    · exact h1 h
    · exact h2 h
  have hPM : ParamMembers i st M := by
    refine ⟨?_, hi, (hM2 _ fIn).2 rfl, ?_, ?_, ?_, hL4, ?_, ?_⟩
    · intro p hp
      have := hprof.keys p hp
      unfold mayKey at this
      simp only [Bool.or_eq_true, List.any_eq_true, beq_iff_eq] at this
      rcases this with ((⟨c, hc, _⟩ | ⟨f, hff, e⟩) | ⟨q, hq, e⟩) | h
      · cases hc
      · exact .inl ⟨f, hff, e.symm⟩
      · right
        simp only [V30.sParameter, List.mem_cons, List.not_mem_nil, or_false] at hq
        rw [hq] at e
        exact e
      · cases h
    · intro p hp e
      rw [hM3 p hp _ fIn e (hgne _ (by decide) (by decide))]
      simp only [hv "In" (by decide)]
      exact encIn
    · intro e
      apply (hM2 _ fReq).2
      simp only [hv "Required" (by decide), hreq e]; rfl
    · intro e p hp e'
      rw [hM3 p hp _ fReq e' (hgne _ (by decide) (by decide))]
      simp only [hv "Required" (by decide), hreq e]; rfl
    · intro p hp e
      have h1 := hM3 p hp _ fStyle e (hgne _ (by decide) (by decide))
      have h2 := (hM1 p hp _ fStyle (by rw [e]; exact hb.own _ fStyle)).2.1
      simp only [hvS] at h1 h2
      rcases hL4 with h | ⟨x, _, h⟩
      · rw [h] at h2; exact absurd h2 (by decide)
      · refine ⟨x, h, ?_⟩
        rw [h1, h]; rfl
    · intro hk
      rcases hL4 with h | ⟨x, _, h⟩
      · exact h
      · exfalso
        apply hk
        apply (hM2 _ fStyle).2
        simp only [hvS, h]; rfl
  -- reading the derived parts
  obtain ⟨x, hxd, hxs, hxk, hxx⟩ : ∃ x, decode V30.table N (.ptr (.named "SchemaXORContent")) (.obj M) = some x ∧
      SameField "SchemaXORContent" (val "SchemaXORContent") x ∧
      (((∃ b, val "SchemaXORContent" = xorSchema b ∧ RawAgain N (.ptr (.named "SchemaOrRef")) (val "Schema") b) ∨
          (∃ b, val "SchemaXORContent" = xorContent b ∧ RawAgain N (.map (.named "MediaType")) (val "Content") b)) →
        x = val "SchemaXORContent") ∧
      ((g.key = "schema" ∧ x = xorSchema c) ∨ (g.key = "content" ∧ x = xorContent c)) := by
    have k3 : ∀ p ∈ M, p.1 = g.key → decodeAny N p.2 ≠ none := by
      intro p hp e
      rcases (hM1 p hp g hg (by rw [e]; exact hb.own g hg)).2.2 with h | ⟨_, h⟩
      · rw [h, hv _ hgS, enc_of ea]; exact hda
      · rw [h, hbc]; intro h; cases h
    have k2 : ∀ f ∈ V30.sParameter.fields, (f.key = "schema" ∨ f.key = "content") → f ≠ g → f.key ∉ M.map Prod.fst := by
      intro f hff e hne hk
      have h1 := (hM2 f hff).1 hk
      rw [hv f.go (by
        intro e'
        have := field_go_eq hb hff fStyle e'
        rw [this] at e
        exact absurd e (by decide)), hX4 f hff e hne] at h1
      cases h1
    rcases hxr with ⟨e, h⟩ | ⟨e, h⟩
    · rw [e] at hlast k3
      refine ⟨_, (decode_xor hPM hbc).1 hlast (k2 _ fContent (.inr rfl) ?_) k3, h, fun hk => (hkeep hk).2.1 e, .inl ⟨e, rfl⟩⟩
      intro e'; rw [← e'] at e; exact absurd e (by decide)
    · rw [e] at hlast k3
      refine ⟨_, (decode_xor hPM hbc).2 (k2 _ fSchema (.inl rfl) ?_) hlast k3, h, fun hk => (hkeep hk).2.2 e, .inr ⟨e, rfl⟩⟩
      intro e'; rw [← e'] at e; exact absurd e (by decide)
  have hld := decode_location (N := N) hPM
  have hls : SameField "Location" (val "Location")
      (location i (.struct (if i ∈ ["path", "query"] then [("Style", st)] else []))) ∧ (val "Location" ≠ .nil →
        location i (.struct (if i ∈ ["path", "query"] then [("Style", st)] else [])) = val "Location") := by
    rcases hl with h | ⟨h1, h2⟩ | ⟨h1, h2⟩
    · exact ⟨.inr (.inl ⟨by decide, h⟩), fun h' => absurd h h'⟩
    · rw [h2, if_pos h1, hL5 h1]; exact ⟨.inl (.same _), fun _ => rfl⟩
    · have : ¬i ∈ ["path", "query"] := by
        intro h
        simp only [List.mem_cons, List.not_mem_nil, or_false] at h h1
        rcases h with rfl | rfl <;> exact absurd h1 (by decide)
      rw [h2, if_neg this]; exact ⟨.inl (.same _), fun _ => rfl⟩
  obtain ⟨hls, hlk⟩ := hls
  have hemb : decodeEmbeds (fun t => decode V30.table N t (.obj M)) V30.sParameter.embeds =
      some [("SchemaXORContent", x), ("Location",
        location i (.struct (if i ∈ ["path", "query"] then [("Style", st)] else [])))] := by
    unfold decodeEmbeds
    simp only [V30.sParameter, mapAll, hxd, hld, Option.map_some]
  have hkey : ∀ f ∈ V30.sParameter.fields, hasKey (M.map (memberOf V30.table N)) f.key = !omitted f (val' f.go) := by
    intro f hf
    rw [Bool.eq_iff_iff, hasKey_obj, hM2 f hf]
    simp
  let rd : Field → Val := fun f => if f = g then w else fieldRead V30.table N val' f
  have hrdg : rd g = w := if_pos rfl
  have hrd : ∀ f, f ≠ g → rd f = fieldRead V30.table N val' f := fun f h => if_neg h
  have hR : ∀ f ∈ V30.sParameter.fields, FieldReads V30.table N V30.sParameter.fields M f (rd f) := by
    intro f hff
    by_cases e : f = g
    · subst e
      rw [hrdg]
      refine fieldReads_last hlast (hb.own f hff) (fun p hp hfo => (hM1 p hp f hff hfo).1) (fun p hp hfo => ?_) hbw
      rcases (hM1 p hp f hff hfo).2.2 with h | ⟨_, h⟩
      · rw [h]; exact ⟨_, field_decodes hT hb hff (hF' f hff)⟩
      · rw [h]; exact ⟨_, hbw⟩
    · rw [hrd f e]
      apply fieldReads_const
      · intro p hp hfo
        obtain ⟨_, a, b⟩ := hM1 p hp f hff hfo
        rcases b with b | ⟨b, _⟩
        · rw [b]
          unfold fieldRead
          rw [a]
          exact field_decodes hT hb hff (hF' f hff)
        · exact absurd b e
      · intro hno
        have : omitted f (val' f.go) = true := by
          cases ho : omitted f (val' f.go) with
          | true => rfl
          | false =>
            exfalso
            obtain ⟨p, hp, e⟩ := List.mem_map.1 ((hM2 f hff).2 ho)
            exact hno p hp (by rw [e]; exact hb.own f hff)
        unfold fieldRead
        rw [this]; rfl
  have hrem : ∀ f ∈ V30.sParameter.fields, f.key = "schema" ∨ f.key = "content" →
      rememberNull V30.sParameter (M.map (memberOf V30.table N)) (f.go, w) = (f.go, w) := by
    intro f hff hgf
    unfold rememberNull
    split
    · rw [if_neg]
      intro h
      simp only [V30.sParameter, List.any_cons, List.any_nil, Bool.or_false, Bool.and_eq_true, beq_iff_eq] at h
      have := field_go_eq hb hff (g := ⟨"Example", "example", .ptr .any, true⟩) (by decide) h.1.symm
      rw [this] at hgf
      exact absurd hgf (by decide)
    · rfl
  have hw : ∀ f ∈ V30.sParameter.fields,
      Same (val' f.go) (rememberNull V30.sParameter (M.map (memberOf V30.table N)) (f.go, rd f)).2 := by
    intro f hff
    by_cases e : f = g
    · subst e
      rw [hrdg, hv _ hgS]
      rw [hrem f hff hgf]
      exact hws
    · rw [hrd f e]
      exact field_same hT hb hff (hF' f hff) (hkey f hff)
  have hd := decode_reads (M := M) (val := val') (ovals := []) hT hn hb hR
    (by intro t ht; cases ht) hemb rfl
    (by
      intro k hk
      simp only [V30.sParameter, List.mem_cons, List.not_mem_nil, or_false] at hk
      rcases hk with rfl | rfl
      · exact (hM2 ⟨"Name", "name", .str, false⟩ (by decide)).2 rfl
      · exact hPM.inKey)
    (by intro a b h; cases h)
    (by intro c hc; cases hc)
    (by intro c hc; cases hc)
    (fun q hq => ⟨by
        have := hfilter q hq
        simp only [V30.sParameter, List.mem_cons, List.not_mem_nil, or_false] at hq
        subst hq
        simp only [hv "MapOfAnything" (by decide)]
        exact this, by
        have := (hP q hq).rt
        simp only [V30.sParameter, List.mem_cons, List.not_mem_nil, or_false] at hq
        subst hq
        simp only [hv "MapOfAnything" (by decide)]
        exact this⟩)
    (fun _ => hrest)
  refine ⟨⟨⟨_, _, henc, hd, ?_⟩, ?_, ?_⟩, ?_, ?_⟩
  · unfold structOf
    have e : V30.sParameter.names.map (fun go => (go, val go)) =
        V30.sParameter.fields.map (fun f => (f.go, val f.go)) ++
          [("SchemaXORContent", val "SchemaXORContent"), ("Location", val "Location")] ++ [] ++
          (V30.sParameter.patterns.map (fun q => (q.go, val q.go)) ++ []) := rfl
    rw [e]
    refine .filled (.inl rfl) (sameFilled_append (sameFilled_append (sameFilled_append ?_ ?_) .nil) (sameFilled_append ?_ .nil))
    · apply sameFilled_map (g := Field.go)
      intro f hff
      have h := hw f hff
      by_cases e : f.go = "Style"
      · have : f = ⟨"Style", "style", .ptr .str, true⟩ := field_go_eq hb hff fStyle e
        subst this
        simp only [hvS] at h
        rcases hL3 with h' | ⟨h1, ⟨x, hx, h2⟩, _⟩
        · rw [h'] at h; exact .inl h
        · rw [h2] at h
          exact .inr (.inr ⟨rfl, h1, x, hx, same_str h⟩)
      · rw [hv _ e] at h
        exact .inl h
    · have := sameFilled_map (l := ["SchemaXORContent", "Location"]) (g := id) (a := val)
        (b := fun k => if k = "SchemaXORContent" then x else
          location i (.struct (if i ∈ ["path", "query"] then [("Style", st)] else []))) (by
          intro k hk
          simp only [List.mem_cons, List.not_mem_nil, or_false] at hk
          rcases hk with rfl | rfl
          · exact hxs
          · exact hls)
      exact this
    · apply sameFilled_map (g := PatField.go)
      intro q hq
      have h := (hP q hq).same
      simp only [V30.sParameter, List.mem_cons, List.not_mem_nil, or_false] at hq
      subst hq
      simp only [hv "MapOfAnything" (by decide)]
      exact .inl h
  · intro s' hs'
    rw [hn] at hs'
    cases hs'
    exact ⟨fun h => absurd h.1 (by decide), fun _ => .inr ⟨_, henc, fun _ => hprof, fun h => absurd h (by decide)⟩⟩
  · rw [henc]
    intro e; cases e
  · intro haf hap hxf hsf hlf
    have hstv : st = val "Style" := by
      rcases hL3 with h | ⟨h, _⟩
      · exact h
      · simp only [List.mem_cons, List.not_mem_nil, or_false] at hi
        rcases hi with rfl | rfl | rfl | rfl
        · exact hL5 (by decide)
        · exact hL5 (by decide)
        · exact absurd h (hsf (by decide))
        · exact absurd h (hsf (by decide))
    have hval : val' = val := by
      funext go
      by_cases e : go = "Style"
      · rw [e, hvS, hstv]
      · exact hv go e
    rw [hxk hxf, hlk hlf, hval] at hd
    refine again_of henc hd ?_
    generalize hLL : V30.sParameter.fields.map (fun f => (f.go, (rememberNull V30.sParameter (M.map (memberOf V30.table N)) (f.go, rd f)).2)) ++
      [("SchemaXORContent", val "SchemaXORContent"), ("Location", val "Location")] ++ [] ++
      (V30.sParameter.patterns.map (fun q => (q.go, mapVal V30.table N q.ty (val q.go))) ++
        addVals V30.table N V30.sParameter val) = L
    have hLn : L.map Prod.fst = V30.sParameter.names := by rw [← hLL]; rfl
    have hndL : (L.map Prod.fst).Nodup := by rw [hLn]; exact hb.names
    rw [hval] at hkey
    rw [structOf_fieldIn hLn hb.names, encode_again (N := N) hn hb (X := ["SchemaXORContent", "Location"])
      (J := fun x => if x = "SchemaXORContent" then jX else jL) rfl (val := val)]
    · rw [← hM]
      simp
    · intro f hff
      rw [fieldIn_mem hndL (k := f.go) (v := (rememberNull V30.sParameter (M.map (memberOf V30.table N)) (f.go, rd f)).2)]
      · by_cases e : f = g
        · subst e
          rw [hrdg, hrem f hff hgf]
          have hkw := (hkeep hxf).1
          have hfg := hf f hff (not_null30 hff (by
            intro e
            have := field_go_eq hb hff (g := ⟨"Example", "example", .ptr .any, true⟩) (by decide) e
            rw [this] at hgf
            exact absurd hgf (by decide)))
          refine ⟨⟨a, hkw⟩, ?_, fun _ => hkw.trans ea.symm⟩
          rw [hgo]
          have he : f.omitempty = true := by
            rcases hgf with h | h
            · rw [field_eq hb hff fSchema h]
            · rw [field_eq hb hff fContent h]
          exact omitted_of_encode (hb.omits f hff he) he ea hkw
            (fun hj => nil_of_null hb hff he hfg (by rw [← hj]; exact ea)) hgo
        · rw [hrd f e, hval]
          refine field_again hT hb hff ?_ (hkey f hff)
          by_cases h : ExplicitNull V30.sParameter f (val f.go)
          · exact .inl h
          · exact .inr ⟨hf f hff h, haf f hff h⟩
      · rw [← hLL]
        simp only [List.mem_append, List.mem_map]
        exact .inl (.inl (.inl ⟨f, hff, rfl⟩))
    · intro q hq
      refine ⟨fieldIn_mem hndL ?_, hP q hq, ?_⟩
      · rw [← hLL]
        simp only [List.mem_append, List.mem_map]
        exact .inr (.inl ⟨q, hq, rfl⟩)
      · simp only [V30.sParameter, List.mem_cons, List.not_mem_nil, or_false] at hq
        subst hq
        exact hap
    · intro a ha; cases ha
    · intro go hgo
      simp only [List.mem_cons, List.not_mem_nil, or_false] at hgo
      rcases hgo with rfl | rfl
      · refine ⟨_, rfl, by decide, ?_⟩
        rw [fieldIn_mem hndL (k := "SchemaXORContent") (v := val "SchemaXORContent") (by rw [← hLL]; simp)]
        exact ⟨hX1, hX2⟩
      · refine ⟨_, rfl, by decide, ?_⟩
        rw [fieldIn_mem hndL (k := "Location") (v := val "Location") (by rw [← hLL]; simp)]
        exact ⟨hL1, hL2⟩
  · generalize hLL : V30.sParameter.fields.map (fun f => (f.go, (rememberNull V30.sParameter (M.map (memberOf V30.table N)) (f.go, rd f)).2)) ++
      [("SchemaXORContent", x), ("Location", location i (.struct (if i ∈ ["path", "query"] then [("Style", st)] else [])))] ++ [] ++
      (V30.sParameter.patterns.map (fun q => (q.go, mapVal V30.table N q.ty (val' q.go))) ++
        addVals V30.table N V30.sParameter val') = L at hd
    have hrt : rt V30.table N (.named "Parameter") (structOf V30.sParameter val) = .struct L := by
      unfold rt; rw [henc, Option.bind_some, hd]; rfl
    have hLn : L.map Prod.fst = V30.sParameter.names := by rw [← hLL]; rfl
    have hndL : (L.map Prod.fst).Nodup := by rw [hLn]; exact hb.names
    have hLf : ∀ f ∈ V30.sParameter.fields, fieldIn L f.go =
        (rememberNull V30.sParameter (M.map (memberOf V30.table N)) (f.go, rd f)).2 := by
      intro f hff
      apply fieldIn_mem hndL
      rw [← hLL]
      simp only [List.mem_append, List.mem_map]
      exact .inl (.inl (.inl ⟨f, hff, rfl⟩))
    have hLg : fieldIn L g.go = w := by
      rw [hLf g hg, hrdg, hrem g hg hgf]
    have hLo : ∀ f ∈ V30.sParameter.fields, (f.key = "schema" ∨ f.key = "content") → f ≠ g → fieldIn L f.go = .nil := by
      intro f hff e hne
      have hfs : f.go ≠ "Style" := by
        intro e'
        have := field_go_eq hb hff fStyle e'
        rw [this] at e
        exact absurd e (by decide)
      have ho := hX4 f hff e hne
      have hz : rd f = .nil := by
        rw [hrd f hne]
        unfold fieldRead
        rw [hv _ hfs, ho]
        exact (omitted_zero (T := V30.table) hb hff ho).1
      rw [hLf f hff, hz]
      unfold rememberNull
      simp only
      split
      · rename_i h
        exfalso
        simp only [V30.sParameter, List.any_cons, List.any_nil, Bool.or_false, Bool.and_eq_true, beq_iff_eq] at h
        have := field_go_eq hb hff (g := ⟨"Example", "example", .ptr .any, true⟩) (by decide) h.1.symm
        rw [this] at e
        exact absurd e (by decide)
      · rfl
    have hLl : fieldIn L "Location" = location i (.struct (if i ∈ ["path", "query"] then [("Style", st)] else [])) :=
      fieldIn_mem hndL (by rw [← hLL]; simp)
    have hLx : fieldIn L "SchemaXORContent" = x := fieldIn_mem hndL (by rw [← hLL]; simp)
    refine ⟨L, hrt, hLn, ?_, ?_, ?_, b, w, c, hbc, hraw.1, ?_, ?_⟩
    · rw [hLl]; intro h; cases h
    · have h := hw _ fIn
      rw [← hLf _ fIn] at h
      simp only [hv "In" (by decide), hin] at h
      exact same_str h
    · intro h1 h2
      have h3 := hL7 h1 h2
      have h := hw _ fStyle
      rw [← hLf _ fStyle] at h
      simp only [hvS] at h
      rcases hL4 with h4 | ⟨y, _, h4⟩
      · exact absurd h4 h3
      · rw [h4] at h
        rw [same_str h]
        intro h; cases h
    · rcases hxx with ⟨e, ex⟩ | ⟨e, ex⟩
      · have := field_eq hb hg fSchema e
        subst this
        left
        refine ⟨hbw, hws, hraw.2.1 rfl, hLg, hLo _ fContent (.inr rfl) (by decide), hLx.trans ex⟩
      · have := field_eq hb hg fContent e
        subst this
        right
        refine ⟨hbw, hws, hraw.2.2 rfl, hLo _ fSchema (.inl rfl) (by decide), hLg, hLx.trans ex⟩
    · intro Q hq qf qp qw p hp
      rw [← hLL] at hp
      simp only [List.append_nil, List.mem_append, List.mem_map] at hp
      rcases hp with (⟨f, hff, rfl⟩ | hp) | ⟨q, hqq, rfl⟩ | hp
      · apply rememberNull_everywhere
        by_cases e : f = g
        · subst e; rw [hrdg]; exact qw
        · rw [hrd f e]
          by_cases e' : f.go = "Style"
          · have : f = ⟨"Style", "style", .ptr .str, true⟩ := field_go_eq hb hff fStyle e'
            subst this
            refine fieldRead_everywhere hT hb hff ?_
            intro _
            simp only [hvS]
            rcases hL4 with h | ⟨y, _, h⟩ <;> rw [h]
            · exact everywhere_nil
            · have : rt V30.table N (.ptr .str) (.str y) = .str y := by
                have e1 : encode V30.table (.ptr .str) (.str y) = some (.str y) := rfl
                have e2 : decode V30.table N (.ptr .str) (.str y) = some (.str y) := by
                  rw [decode_ptr hT rfl]; simp only; rw [decode_str]
                unfold rt
                rw [e1, Option.bind_some, e2]; rfl
              rw [this]
              exact everywhere_str
          · refine fieldRead_everywhere hT hb hff ?_
            rw [hv _ e']
            exact qf f hff
      · have small : ∀ fs : List (String × Val), fs.length ≤ 4 → (∀ p ∈ fs, Everywhere Q p.2) → Everywhere Q (.struct fs) :=
          fun fs h1 h2 => everywhere_struct (hq fs h1) h2
        rcases List.mem_cons.1 hp with rfl | hp
        · rcases hxx with ⟨_, rfl⟩ | ⟨_, rfl⟩
          · refine small _ (by simp) ?_
            intro p hp
            simp only [List.mem_cons, List.not_mem_nil, or_false] at hp
            rcases hp with rfl | rfl
            · refine small _ (by simp) ?_
              intro p hp
              cases List.mem_singleton.1 hp
              exact everywhere_any
            · exact everywhere_nil
          · refine small _ (by simp) ?_
            intro p hp
            simp only [List.mem_cons, List.not_mem_nil, or_false] at hp
            rcases hp with rfl | rfl
            · exact everywhere_nil
            · refine small _ (by simp) ?_
              intro p hp
              cases List.mem_singleton.1 hp
              exact everywhere_any
        · cases List.mem_singleton.1 hp
          have hin : Everywhere Q (.struct (if i ∈ ["path", "query"] then [("Style", st)] else [])) := by
            split
            · refine small _ (by simp) ?_
              intro p hp
              cases List.mem_singleton.1 hp
              rcases hL4 with h | ⟨y, _, h⟩ <;> rw [h]
              · exact everywhere_nil
              · exact everywhere_str
            · exact small _ (by simp) (by intro p hp; cases hp)
          revert hin
          generalize Val.struct (if i ∈ ["path", "query"] then [("Style", st)] else []) = z
          intro hin
          refine small _ (by simp) ?_
          intro p hp
          simp only [List.mem_cons, List.not_mem_nil, or_false] at hp
          rcases hp with rfl | rfl | rfl | rfl <;> simp only <;> split <;> first | exact hin | exact everywhere_nil
      · simp only [V30.sParameter, List.mem_cons, List.not_mem_nil, or_false] at hqq
        subst hqq
        apply mapVal_everywhere
        simp only [hv "MapOfAnything" (by decide)]
        exact qp
      · cases hp

theorem parameter30 (hn : GoMap.get? V30.table "Parameter" = some (.struct V30.sParameter)) (val : String → Val)
    (hf : ∀ f ∈ V30.sParameter.fields, ¬ExplicitNull V30.sParameter f (val f.go) → Good V30.table N f.ty (val f.go))
    (hp : Good V30.table N (.map .any) (val "MapOfAnything")) (hpk : ∀ k ∈ keysOf (val "MapOfAnything"), IsExtension k)
    (a : Any)
    (hx : (val "Schema" ≠ .nil ∧ isEmpty (val "Content") = true ∧
        encode V30.table (.ptr (.named "SchemaOrRef")) (val "Schema") = some a ∧
        ((val "SchemaXORContent" = .nil ∧ decodeAny N a ≠ none) ∨
          (val "SchemaXORContent" = xorSchema a ∧ decodeAny N a = some a) ∨
          (decodeAny N a ≠ none ∧ ∃ b w, val "SchemaXORContent" = xorSchema b ∧ decodeAny N b = some b ∧
            decode V30.table N (.ptr (.named "SchemaOrRef")) b = some w ∧ Same (val "Schema") w))) ∨
      (val "Schema" = .nil ∧ isEmpty (val "Content") = false ∧
        encode V30.table (.map (.named "MediaType")) (val "Content") = some a ∧
        ((val "SchemaXORContent" = .nil ∧ decodeAny N a ≠ none) ∨
          (val "SchemaXORContent" = xorContent a ∧ decodeAny N a = some a) ∨
          (decodeAny N a ≠ none ∧ ∃ b w, val "SchemaXORContent" = xorContent b ∧ decodeAny N b = some b ∧
            decode V30.table N (.map (.named "MediaType")) b = some w ∧ Same (val "Content") w))))
    (i : String) (hin : val "In" = .str i) (hreq : i = "path" → val "Required" = .bool true)
    (hst : val "Style" = .nil ∨ ∃ st ∈ styles i, val "Style" = .str st)
    (hl : locationOk i (val "Style") (val "Location")) :
    Good V30.table N (.named "Parameter") (structOf V30.sParameter val) :=
  (parameter30_both hn val hf hp hpk a hx i hin hreq hst hl).1

end Verif
