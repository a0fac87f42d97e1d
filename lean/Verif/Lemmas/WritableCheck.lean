import Verif.Lemmas.RoundTripFacts

/-!
# Checking that a value is writable

A check that computes, for concrete values. It does not accept values with derived fields.
-/

namespace Verif
open Codec Spec

mutual
/-- A JSON value that `encoding/json` reads into an `interface{}` as it is. -/
def anyStable (N : Nums) : Any → Bool
  | .null => true
  | .bool _ => true
  | .str _ => true
  | .num lit => N.f64 lit == some lit
  | .arr xs => anysStable N xs
  | .obj ms => decide (ms.map Prod.fst).Nodup && membersStable N ms
def anysStable (N : Nums) : List Any → Bool
  | [] => true
  | x :: xs => anyStable N x && anysStable N xs
def membersStable (N : Nums) : List (String × Any) → Bool
  | [] => true
  | (_, x) :: xs => anyStable N x && membersStable N xs
end

mutual
theorem anyStable_sound {N : Nums} : ∀ {a : Any}, anyStable N a = true → decodeAny N a = some a
  | .null, _ => rfl
  | .bool _, _ => rfl
  | .str _, _ => rfl
  | .num lit, h => by
    simp only [anyStable, beq_iff_eq] at h
    simp [decodeAny, h]
  | .arr xs, h => by
    simp only [anyStable] at h
    simp [decodeAny, anysStable_sound h]
  | .obj ms, h => by
    simp only [anyStable, Bool.and_eq_true, decide_eq_true_eq] at h
    simp [decodeAny, membersStable_sound h.2, lastWins_nodup h.1]
theorem anysStable_sound {N : Nums} : ∀ {a : List Any}, anysStable N a = true → decodeAnys N a = some a
  | [], _ => rfl
  | x :: xs, h => by
    simp only [anysStable, Bool.and_eq_true] at h
    simp [decodeAnys, anyStable_sound h.1, anysStable_sound h.2]
theorem membersStable_sound {N : Nums} : ∀ {a : List (String × Any)}, membersStable N a = true →
    decodeAnyMembers N a = some a
  | [], _ => rfl
  | (_, x) :: xs, h => by
    simp only [membersStable, Bool.and_eq_true] at h
    simp [decodeAnyMembers, anyStable_sound h.1, membersStable_sound h.2]
end

def isNilB : Val → Bool
  | .nil => true
  | _ => false

theorem isNilB_iff {v : Val} : isNilB v = true ↔ v = .nil := by cases v <;> simp [isNilB]

def isNullB : Val → Bool
  | .any .null => true
  | _ => false

theorem isNullB_iff {v : Val} : isNullB v = true ↔ v = .any .null := by
  cases v with
  | any a => cases a <;> simp [isNullB]
  | _ => simp [isNullB]

def isStrB (s : String) : Val → Bool
  | .str t => s == t
  | _ => false

theorem isStrB_iff {s : String} {v : Val} : isStrB s v = true ↔ v = .str s := by
  cases v <;> simp [isStrB]
  exact ⟨Eq.symm, Eq.symm⟩

/-- The field of a value. -/
def valOf (ms : List (String × Val)) (go : String) : Val := (GoMap.get? ms go).getD .nil

theorem valOf_map {l : List String} (hl : l.Nodup) {ms : List (String × Val)} (h : ms.map Prod.fst = l) :
    l.map (fun go => (go, valOf ms go)) = ms := by
  subst h
  induction ms with
  | nil => rfl
  | cons p ms ih =>
    obtain ⟨k, v⟩ := p
    simp only [List.map_cons, List.nodup_cons] at hl ⊢
    have e1 : valOf ((k, v) :: ms) k = v := by simp [valOf, GoMap.get?]
    rw [e1]
    congr 1
    refine Eq.trans (List.map_congr_left ?_) (ih hl.2)
    intro go hgo
    have : k ≠ go := by intro e; subst e; exact hl.1 hgo
    simp [valOf, GoMap.get?, this]

def omittedB (s : Struct) (val : String → Val) (key : String) : Bool :=
  s.fields.any (fun f => f.key == key && omitted f (val f.go))
def writtenB (s : Struct) (val : String → Val) (key : String) : Bool :=
  s.fields.any (fun f => f.key == key && !omitted f (val f.go))

theorem omittedB_sound {s : Struct} {val : String → Val} {key : String} (h : omittedB s val key = true) :
    Omitted s val key := by
  obtain ⟨f, hf, h⟩ := List.any_eq_true.1 h
  simp only [Bool.and_eq_true, beq_iff_eq] at h
  exact ⟨f, hf, h.1, h.2⟩

theorem writtenB_sound {s : Struct} {val : String → Val} {key : String} (h : writtenB s val key = true) :
    Written s val key := by
  obtain ⟨f, hf, h⟩ := List.any_eq_true.1 h
  simp only [Bool.and_eq_true, beq_iff_eq, Bool.not_eq_true'] at h
  exact ⟨f, hf, h.1, h.2⟩

def nullB (s : Struct) (f : Field) (v : Val) : Bool := s.nulls.contains (f.go, f.key) && isNullB v

/-- The checks of a value of a struct type; `rec` checks the parts. -/
def plainB (T : Table) (rec : Ty → Val → Bool) (n : String) (s : Struct) (val : String → Val) : Bool :=
  decide (s.embeds = [] ∧ s.oneOf = []) && decide (n ≠ "NonBearer") &&
  s.fields.all (fun f => nullB s f (val f.go) || rec f.ty (val f.go)) &&
  s.patterns.all (fun q => rec (.map q.ty) (val q.go) && (keysOf (val q.go)).all q.pat.matches) &&
  (match s.additional with
    | none => true
    | some a => rec (.map a.ty) (val a.go) &&
      (keysOf (val a.go)).all (fun k => s.patterns.all (fun q => !q.pat.matches k))) &&
  (match s.exactlyOne with
    | none => true
    | some (a, b) => omittedB s val a && writtenB s val b || writtenB s val a && omittedB s val b) &&
  s.lower.all (fun c => match val c.go with
    | .str t => (goToLower t == c.value) == c.mustBe
    | _ => false) &&
  s.nots.all (fun t => match t with
    | .named m => match GoMap.get? T m with
      | some (.struct sm) => sm.require.any (omittedB s val)
      | _ => false
    | _ => false)

def unionB (rec : Ty → Val → Bool) (okB : String → String → Val → Bool) (n : String) (s : Struct)
    (val : String → Val) : Bool :=
  decide (s = { oneOf := s.oneOf, parts := s.oneOf.map (fun h => .hidden h.go) }) &&
  s.oneOf.any (fun h => match h.ty with
    | .ptr t => !isNilB (val h.go) && rec (.ptr t) (val h.go) && okB n h.go (val h.go) &&
      s.oneOf.all (fun h' => h'.go == h.go || isNilB (val h'.go))
    | _ => false)

def httpB (rec : Ty → Val → Bool) (n : String) (s : Struct) (val : String → Val) : Bool :=
  n == "HTTPSecurityScheme" && decide (s = V30.sHTTPSecurityScheme) &&
  s.fields.all (fun f => rec f.ty (val f.go)) && rec (.map .any) (val "MapOfAnything") &&
  (keysOf (val "MapOfAnything")).all (fun k => Pat.matches .x k) &&
  isNilB (val "Bearer") && isNilB (val "NonBearer") &&
  (isStrB "bearer" (val "Scheme") || isNilB (val "BearerFormat"))

def securityB (rec : Ty → Val → Bool) (n : String) (s : Struct) (val : String → Val) : Bool :=
  n == "SecurityScheme" && decide (s = V31.sSecurityScheme) &&
  s.fields.all (fun f => rec f.ty (val f.go)) && rec (.map .any) (val "MapOfAnything") &&
  (keysOf (val "MapOfAnything")).all (fun k => Pat.matches .x k) &&
  s.oneOf.any (fun h => match h.ty with
    | .ptr t => !isNilB (val h.go) && rec (.ptr t) (val h.go) &&
      s.oneOf.all (fun h' => h'.go == h.go || isNilB (val h'.go))
    | _ => false)

def styleB (i : String) : Val → Bool
  | .nil => true
  | .str st => (styles i).contains st
  | _ => false

def parameterB (T : Table) (N : Nums) (rec : Ty → Val → Bool) (n : String) (s : Struct) (val : String → Val) : Bool :=
  n == "Parameter" && decide (s = V30.sParameter) &&
  s.fields.all (fun f => nullB s f (val f.go) || rec f.ty (val f.go)) && rec (.map .any) (val "MapOfAnything") &&
  (keysOf (val "MapOfAnything")).all (fun k => Pat.matches .x k) &&
  isNilB (val "SchemaXORContent") && isNilB (val "Location") &&
  (match encode T (.ptr (.named "SchemaOrRef")) (val "Schema"), encode T (.map (.named "MediaType")) (val "Content") with
    | some a, some b =>
      !isNilB (val "Schema") && isEmpty (val "Content") && (decodeAny N a).isSome ||
      isNilB (val "Schema") && !isEmpty (val "Content") && (decodeAny N b).isSome
    | _, _ => false) &&
  (match val "In" with
    | .str i => (i != "path" || (match val "Required" with | .bool true => true | _ => false)) && styleB i (val "Style")
    | _ => false)

/-- The whole check, for values up to a depth. -/
def writableB (T : Table) (N : Nums) (okB : String → String → Val → Bool) : Nat → Ty → Val → Bool
  | 0, _, _ => false
  | _ + 1, .any, .any a => anyStable N a
  | _ + 1, .bool, .bool _ => true
  | _ + 1, .str, .str _ => true
  | _ + 1, .int, .num lit => N.i64 lit == some lit
  | _ + 1, .float, .num lit => N.f64 lit == some lit
  | r + 1, .ptr t, v => isNilB v || notPtr t && !isNullB v && writableB T N okB r t v
  | _ + 1, .slice _, .nil => true
  | r + 1, .slice t, .list vs => vs.all (writableB T N okB r t)
  | _ + 1, .map _, .nil => true
  | r + 1, .map t, .map ms => decide (ms.map Prod.fst).Nodup && ms.all (fun p => writableB T N okB r t p.2)
  | r + 1, .named n, v =>
    match GoMap.get? T n, v with
    | some (.enum values), .str s => values.contains s
    | some (.struct s), .struct ms => (ms.map Prod.fst == s.names) && decide s.names.Nodup &&
      (plainB T (writableB T N okB r) n s (valOf ms) || unionB (writableB T N okB r) okB n s (valOf ms) ||
        httpB (writableB T N okB r) n s (valOf ms) || securityB (writableB T N okB r) n s (valOf ms) ||
        parameterB T N (writableB T N okB r) n s (valOf ms))
    | _, _ => false
  | _, _, _ => false

variable {T : Table} {N : Nums} {Ok : String → String → Val → Prop} {okB : String → String → Val → Bool}

theorem nullB_sound {s : Struct} {f : Field} {v : Val} (h : nullB s f v = true) : ExplicitNull s f v := by
  simp only [nullB, Bool.and_eq_true, isNullB_iff] at h
  exact ⟨List.contains_iff_mem.1 h.1, h.2⟩

theorem writableB_sound (hok : ∀ n go v, okB n go v = true → Ok n go v) : ∀ {r : Nat} {ty : Ty} {v : Val},
    writableB T N okB r ty v = true → Writable T N Ok ty v := by
  intro r
  induction r with
  | zero => intro ty v h; unfold writableB at h; cases h
  | succ r ih =>
    intro ty v h
    cases ty with
    | any =>
      cases v <;> first | (unfold writableB at h; cases h; done) | skip
      exact .any (anyStable_sound h)
    | bool =>
      cases v <;> first | (unfold writableB at h; cases h; done) | skip
      exact .bool _
    | str =>
      cases v <;> first | (unfold writableB at h; cases h; done) | skip
      exact .str _
    | int =>
      cases v <;> first | (unfold writableB at h; cases h; done) | skip
      unfold writableB at h
      exact .int (beq_iff_eq.1 h)
    | float =>
      cases v <;> first | (unfold writableB at h; cases h; done) | skip
      unfold writableB at h
      exact .float (beq_iff_eq.1 h)
    | ptr t =>
      unfold writableB at h
      simp only [Bool.or_eq_true, Bool.and_eq_true, Bool.not_eq_true', isNilB_iff] at h
      by_cases e : v = .nil
      · subst e; exact .nilPtr t
      · rcases h with h | h
        · exact absurd h e
        · refine .ptr h.1.1 e ?_ (ih h.2)
          intro e'
          rw [isNullB_iff.2 e'] at h
          cases h.1.2
    | slice t =>
      cases v <;> first | (unfold writableB at h; cases h; done) | skip
      · exact .nilSlice t
      · unfold writableB at h
        exact .slice (fun v hv => ih (List.all_eq_true.1 h v hv))
    | map t =>
      cases v <;> first | (unfold writableB at h; cases h; done) | skip
      · exact .nilMap t
      · unfold writableB at h
        simp only [Bool.and_eq_true, decide_eq_true_eq] at h
        exact .map h.1 (fun k v hv => ih (List.all_eq_true.1 h.2 _ hv))
    | named n =>
      unfold writableB at h
      cases hn : GoMap.get? T n with
      | none => simp [hn] at h
      | some d =>
        cases d with
        | enum values =>
          cases v <;> simp [hn] at h
          exact .enum hn h
        | struct s =>
          cases v <;> simp only [hn] at h <;> first | (cases h; done) | skip
          rename_i ms
          simp only [Bool.and_eq_true, beq_iff_eq, decide_eq_true_eq] at h
          obtain ⟨⟨h1, h2⟩, h⟩ := h
          have e : Val.struct ms = structOf s (valOf ms) := by
            unfold structOf
            rw [valOf_map h2 h1]
          have hall : ∀ {val : String → Val}, s.fields.all (fun f => nullB s f (val f.go) ||
              writableB T N okB r f.ty (val f.go)) = true → ∀ f ∈ s.fields, ¬ExplicitNull s f (val f.go) →
              Writable T N Ok f.ty (val f.go) := by
            intro val h f hf hnn
            have := List.all_eq_true.1 h f hf
            simp only [Bool.or_eq_true] at this
            rcases this with h | h
            · exact absurd (nullB_sound h) hnn
            · exact ih h
          simp only [Bool.or_eq_true] at h
          rcases h with (((h | h) | h) | h) | h
          · rw [e]
            generalize valOf ms = val at h
            simp only [plainB, Bool.and_eq_true, decide_eq_true_eq, List.all_eq_true (l := s.patterns),
              List.all_eq_true (l := s.lower), List.all_eq_true (l := s.nots)] at h
            obtain ⟨⟨⟨⟨⟨⟨⟨g1, g2⟩, g3⟩, g4⟩, g5⟩, g6⟩, g7⟩, g8⟩ := h
            refine .plain hn g1 g2 val (hall g3) (fun q hq => ih (g4 q hq).1)
              (fun q hq k hk => List.all_eq_true.1 (g4 q hq).2 k hk) ?_ ?_ ?_ ?_ ?_
            · intro a ha
              simp only [ha, Bool.and_eq_true] at g5
              exact ih g5.1
            · intro a ha k hk q hq
              simp only [ha, Bool.and_eq_true] at g5
              have := List.all_eq_true.1 (List.all_eq_true.1 g5.2 k hk) q hq
              simpa using this
            · intro a b hab
              simp only [hab, Bool.or_eq_true, Bool.and_eq_true] at g6
              rcases g6 with g | g
              · exact .inl ⟨omittedB_sound g.1, writtenB_sound g.2⟩
              · exact .inr ⟨writtenB_sound g.1, omittedB_sound g.2⟩
            · intro c hc
              have := g7 c hc
              split at this
              · rename_i t ht
                exact ⟨t, ht, by simpa using this⟩
              · cases this
            · intro t ht
              have := g8 t ht
              split at this
              · split at this
                · rename_i m _ sm hsm
                  obtain ⟨k, hk, hk'⟩ := List.any_eq_true.1 this
                  exact ⟨m, sm, k, rfl, hsm, hk, omittedB_sound hk'⟩
                · cases this
              · cases this
          · simp only [unionB, Bool.and_eq_true, decide_eq_true_eq] at h
            obtain ⟨hs, h⟩ := h
            obtain ⟨⟨go, ty⟩, hx, h⟩ := List.any_eq_true.1 h
            cases ty <;> simp only at h <;> first | (cases h; done) | skip
            rename_i t
            simp only [Bool.and_eq_true, Bool.not_eq_true', List.all_eq_true, Bool.or_eq_true, beq_iff_eq, isNilB_iff] at h
            obtain ⟨⟨⟨g1, g2⟩, g3⟩, g4⟩ := h
            have := Writable.union hn hs hx (v := valOf ms go) (by
              intro e; rw [isNilB_iff.2 e] at g1; cases g1) (ih g2) (hok _ _ _ g3)
            rw [e]
            have e2 : structOf s (valOf ms) = .struct (s.oneOf.map (fun h => (h.go, if h.go = go then valOf ms go else .nil))) := by
              unfold structOf Struct.names
              rw [hs]
              simp only [List.map_nil, List.nil_append, List.append_nil, List.map_map]
              congr 1
              apply List.map_congr_left
              intro h' hh'
              simp only [Function.comp]
              split
              · rename_i e; rw [e]
              · rename_i e
                rcases g4 h' hh' with g | g
                · exact absurd g e
                · rw [g]
            rw [e2]
            exact this
          · rw [e]
            generalize valOf ms = val at h
            simp only [httpB, Bool.and_eq_true, decide_eq_true_eq, beq_iff_eq, isNilB_iff] at h
            obtain ⟨⟨⟨⟨⟨⟨⟨rfl, rfl⟩, g1⟩, g2⟩, g3⟩, g4⟩, g5⟩, g6⟩ := h
            refine .http hn val (fun f hf => ih (List.all_eq_true.1 g1 f hf)) (ih g2)
              (fun k hk => x_matches.1 (List.all_eq_true.1 g3 k hk)) ?_
            simp only [Bool.or_eq_true, isNilB_iff, isStrB_iff] at g6
            by_cases hb : val "Scheme" = .str "bearer"
            · exact .inl ⟨hb, .inl g4, g5⟩
            · rcases g6 with g | g
              · exact absurd g hb
              · exact .inr ⟨hb, g, g4, .inl g5⟩
          · rw [e]
            generalize valOf ms = val at h
            simp only [securityB, Bool.and_eq_true, decide_eq_true_eq, beq_iff_eq] at h
            obtain ⟨⟨⟨⟨⟨rfl, rfl⟩, g1⟩, g2⟩, g3⟩, h⟩ := h
            obtain ⟨⟨go, ty⟩, hx, h⟩ := List.any_eq_true.1 h
            cases ty <;> simp only at h <;> first | (cases h; done) | skip
            rename_i t
            simp only [Bool.and_eq_true, Bool.not_eq_true', List.all_eq_true (l := V31.sSecurityScheme.oneOf),
              Bool.or_eq_true, beq_iff_eq, isNilB_iff] at h
            obtain ⟨⟨k1, k2⟩, k3⟩ := h
            refine .security hn val (fun f hf => ih (List.all_eq_true.1 g1 f hf)) (ih g2)
              (fun k hk => x_matches.1 (List.all_eq_true.1 g3 k hk)) hx ?_ (ih k2) ?_
            · intro e; rw [isNilB_iff.2 e] at k1; cases k1
            · intro h hh hne
              rcases k3 h hh with g | g
              · exact absurd g hne
              · exact g
          · rw [e]
            generalize valOf ms = val at h
            simp only [parameterB, Bool.and_eq_true, decide_eq_true_eq, beq_iff_eq, isNilB_iff] at h
            obtain ⟨⟨⟨⟨⟨⟨⟨⟨rfl, rfl⟩, g1⟩, g2⟩, g3⟩, g4⟩, g5⟩, g6⟩, g7⟩ := h
            cases hi : val "In" <;> rw [hi] at g7 <;> simp only at g7 <;> first | (cases g7; done) | skip
            rename_i i
            simp only [Bool.and_eq_true, Bool.or_eq_true, bne_iff_ne] at g7
            cases ha : encode T (.ptr (.named "SchemaOrRef")) (val "Schema") with
            | none => rw [ha] at g6; cases g6
            | some a =>
              cases hb : encode T (.map (.named "MediaType")) (val "Content") with
              | none => rw [ha, hb] at g6; cases g6
              | some b =>
                rw [ha, hb] at g6
                simp only [Bool.or_eq_true, Bool.and_eq_true, Bool.not_eq_true'] at g6
                have hreq : i = "path" → val "Required" = .bool true := by
                  intro e
                  rcases g7.1 with g | g
                  · exact absurd e g
                  · split at g
                    · rename_i h; exact h
                    · cases g
                have hst : val "Style" = .nil ∨ ∃ st ∈ styles i, val "Style" = .str st := by
                  have g := g7.2
                  cases hv : val "Style" <;> rw [hv] at g <;> simp only [styleB] at g <;> first | (cases g; done) | skip
                  · exact .inl rfl
                  · exact .inr ⟨_, List.contains_iff_mem.1 g, rfl⟩
                rcases g6 with ⟨⟨k1, k2⟩, k3⟩ | ⟨⟨k1, k2⟩, k3⟩
                · refine .parameter hn val (hall g1) (ih g2) (fun k hk => x_matches.1 (List.all_eq_true.1 g3 k hk))
                    (a := a) (.inl ⟨?_, k2, ha, .inl ⟨g4, ?_⟩⟩) hi hreq hst (.inl g5)
                  · intro e; rw [isNilB_iff.2 e] at k1; cases k1
                  · intro e; rw [e] at k3; cases k3
                · refine .parameter hn val (hall g1) (ih g2) (fun k hk => x_matches.1 (List.all_eq_true.1 g3 k hk))
                    (a := b) (.inr ⟨isNilB_iff.1 k1, k2, hb, .inl ⟨g4, ?_⟩⟩) hi hreq hst (.inl g5)
                  intro e; rw [e] at k3; cases k3

end Verif
