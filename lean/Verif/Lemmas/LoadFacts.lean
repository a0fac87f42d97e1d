import Verif.Lemmas.Again
import Verif.Lemmas.LoadMain

/-! The facts about the two tables that are needed to write what was read. -/

namespace Verif
open Codec Spec

variable {T : Table} {N : Nums} {Ok : String → String → Val → Prop} {P : List (String × Val) → Prop}

/-! ## Checks of tables -/

theorem table_all {chk : String → Struct → Bool} (h : T.all (fun p => match p.2 with
      | .struct s => chk p.1 s
      | _ => true) = true) {n : String} {s : Struct} (hn : GoMap.get? T n = some (.struct s)) : chk n s = true :=
  List.all_eq_true.1 h _ (get?_mem hn)

def kindCheck (bad sp : List String) (n : String) (s : Struct) : Bool :=
  bad.contains n || sp.contains n || ((s.embeds == [] && s.oneOf == []) ||
    (s == { oneOf := s.oneOf, parts := s.oneOf.map (fun h => .hidden h.go) } && decide (2 ≤ s.oneOf.length) &&
      s.oneOf.all (fun e => match e.ty with
        | .ptr _ => true
        | _ => false)))

theorem kind_of_check {bad sp : List String} {n : String} {s : Struct} (h : kindCheck bad sp n s = true)
    (h1 : n ∉ bad) (h2 : n ∉ sp) : (s.embeds = [] ∧ s.oneOf = []) ∨
      (s = { oneOf := s.oneOf, parts := s.oneOf.map (fun h => .hidden h.go) } ∧ 2 ≤ s.oneOf.length ∧
        ∀ e ∈ s.oneOf, ∃ t, e.ty = .ptr t) := by
  simp only [kindCheck, Bool.or_eq_true, Bool.and_eq_true, List.contains_iff_mem, beq_iff_eq, decide_eq_true_eq,
    List.all_eq_true] at h
  rcases h with (h | h) | h | ⟨⟨h, hl⟩, he⟩
  · exact absurd h h1
  · exact absurd h h2
  · exact .inl h
  · refine .inr ⟨h, hl, ?_⟩
    intro e hee
    have := he e hee
    split at this
    · exact ⟨_, by assumption⟩
    · cases this

def lowerCheck (s : Struct) : Bool := s.lower.all (fun c => s.fields.all (fun f => f.go != c.go || f.ty == .str))

theorem lower_of_check {s : Struct} (h : lowerCheck s = true) : ∀ c ∈ s.lower, ∀ f ∈ s.fields, f.go = c.go → f.ty = .str := by
  intro c hc f hf e
  have := List.all_eq_true.1 (List.all_eq_true.1 h c hc) f hf
  simp only [Bool.or_eq_true, bne_iff_ne, beq_iff_eq] at this
  rcases this with h | h
  · exact absurd e h
  · exact h

/-- The checks of a table. -/
def loadCheck (bad sp : List String) (n : String) (s : Struct) : Bool :=
  (bad.contains n || baseCheck s) && (bad.contains n || sp.contains n || structOk bad s) && kindCheck bad sp n s &&
    lowerCheck s

def bad30 : List String := ["NonBearer", "SchemaXORContent"]
def sp30 : List String := ["HTTPSecurityScheme", "Parameter"]
def bad31 : List String := ["NonBearer"]
def sp31 : List String := ["SecurityScheme"]

theorem check30 : V30.table.all (fun p => match p.2 with
    | .struct s => loadCheck bad30 sp30 p.1 s && s.exactlyOne.isNone && (s.nots.isEmpty || bad30.contains p.1 || p.1 == "Link")
    | _ => true) = true := by decide +kernel

theorem check31 : V31.table.all (fun p => match p.2 with
    | .struct s => loadCheck bad31 sp31 p.1 s && (s.exactlyOne.isNone || p.1 == "Header") &&
      (s.nots.isEmpty || p.1 == "Example")
    | _ => true) = true := by decide +kernel

theorem loadCheck_iff {bad sp : List String} {n : String} {s : Struct} (h : loadCheck bad sp n s = true) :
    (n ∈ bad ∨ baseCheck s = true) ∧ (n ∈ bad ∨ n ∈ sp ∨ structOk bad s = true) ∧ kindCheck bad sp n s = true ∧
      lowerCheck s = true := by
  simp only [loadCheck, Bool.and_eq_true, Bool.or_eq_true, List.contains_iff_mem] at h
  obtain ⟨⟨⟨h1, h2⟩, h3⟩, h4⟩ := h
  exact ⟨h1, by rcases h2 with (h | h) | h <;> simp [h], h3, h4⟩

theorem names_of {s : Struct} (val : String → Val) : (s.names.map (fun go => (go, val go))).map Prod.fst = s.names := by
  rw [List.map_map]
  exact List.map_id _

theorem fieldVal_total {fs : List Field} {f : Field} {M : List (String × Any)}
    (h : ∀ p ∈ M, fieldOf fs p.1 = some f → ∃ x, decode T N f.ty p.2 = some x) : ∃ w, FieldReads T N fs M f w := by
  have key : ∀ M : List (String × Any), (∀ p ∈ M, fieldOf fs p.1 ≠ some f) ∨
      ∃ M1 p M2, M = M1 ++ p :: M2 ∧ fieldOf fs p.1 = some f ∧ ∀ p' ∈ M2, fieldOf fs p'.1 ≠ some f := by
    intro M
    induction M with
    | nil => exact .inl (fun p hp => nomatch hp)
    | cons q M ih =>
      rcases ih with h | ⟨M1, p, M2, e, h1, h2⟩
      · by_cases hq : fieldOf fs q.1 = some f
        · exact .inr ⟨[], q, M, rfl, hq, h⟩
        · left
          intro p hp
          rcases List.mem_cons.1 hp with rfl | hp
          · exact hq
          · exact h p hp
      · exact .inr ⟨q :: M1, p, M2, by rw [e]; rfl, h1, h2⟩
  rcases key M with h' | ⟨M1, p, M2, e, h1, h2⟩
  · exact ⟨_, h, .inl ⟨h', rfl⟩⟩
  · obtain ⟨x, hx⟩ := h p (by rw [e]; simp) h1
    exact ⟨x, h, .inr ⟨M1, p, M2, e, h1, hx, h2⟩⟩

/-! ## 3.0: links -/

/-- A link has no operation id or no operation reference. -/
theorem link_not {val : String → Val} {j : Any} {M : List (String × Any)}
    (L : Loaded V30.table N V30.sLink j M val) :
    ∀ t ∈ V30.sLink.nots, ∃ m sm k, t = .named m ∧ GoMap.get? V30.table m = some (.struct sm) ∧ k ∈ sm.require ∧
      Omitted V30.sLink val k := by
  intro t ht
  simp only [V30.sLink, List.mem_cons, List.not_mem_nil, or_false] at ht
  subst ht
  have hb : Base V30.sLink := base_of_check (by decide +kernel)
  have hnot := L.nots (.named "LinkNot") (by decide)
  have hN : GoMap.get? V30.table "LinkNot" = some (.struct V30.sLinkNot) := by decide +kernel
  -- fields of a key that is missing are omitted
  have hom : ∀ f ∈ V30.sLink.fields, f.omitempty = true → zero V30.table f.ty = .nil → f.key ∉ M.map Prod.fst →
      V30.sLink.nulls.all (fun n => n.1 != f.go) = true → Omitted V30.sLink val f.key := by
    intro f hf ho hz hk hn
    refine ⟨f, hf, rfl, ?_⟩
    obtain ⟨rd, hr, e⟩ := L.fields f hf
    have hrd : rd = .nil := by
      rcases reads_last (hb.own f hf) (fun p hp hfo => strict_key hb ⟨rfl, rfl⟩ (by decide +kernel) L hp hfo) hr with
        ⟨_, e⟩ | ⟨a, ha, _⟩
      · rw [e, hz]
      · exact absurd (lastValue_key ha) hk
    have : val f.go = .nil := by
      rw [e, hrd]
      unfold rememberNull
      simp only
      refine (congrArg Prod.snd (if_neg ?_)).trans rfl
      rw [List.any_eq_true]
      rintro ⟨n, hn', e'⟩
      simp only [Bool.and_eq_true, beq_iff_eq] at e'
      have := List.all_eq_true.1 hn n hn'
      simp only [bne_iff_ne] at this
      exact this e'.1
    rw [this]
    simp only [omitted, ho, Bool.true_and]
    cases f.ty <;> rfl
  by_cases h1 : "operationId" ∈ M.map Prod.fst
  · by_cases h2 : "operationRef" ∈ M.map Prod.fst
    · exfalso
      have hj : j = .obj M := by
        rcases L.members with e | ⟨_, e⟩
        · exact e
        · rw [e] at h1; cases h1
      subst hj
      have hkey : ∀ p ∈ M, ∀ f, fieldOf V30.sLinkNot.fields p.1 = some f → ∃ x, decode V30.table N f.ty p.2 = some x := by
        intro p hp f hf
        have hstr : ∀ g, g ∈ V30.sLink.fields → g.ty = .ptr .str → fieldOf V30.sLink.fields p.1 = some g →
            ∃ x, decodeAny N p.2 = some x := by
          intro g hg hgt hfo
          obtain ⟨rd, hr, _⟩ := L.fields g hg
          obtain ⟨x, hx⟩ := hr.1 p hp hfo
          rw [hgt, decode_ptr ranked30 rfl] at hx
          cases hv : p.2 with
          | null => exact ⟨_, rfl⟩
          | str s => exact ⟨_, rfl⟩
          | bool b => rw [hv] at hx; simp only [decode_str] at hx; cases hx
          | num b => rw [hv] at hx; simp only [decode_str] at hx; cases hx
          | arr b => rw [hv] at hx; simp only [decode_str] at hx; cases hx
          | obj b => rw [hv] at hx; simp only [decode_str] at hx; cases hx
        have hfor : ∃ g ∈ V30.sLink.fields, g.ty = .ptr .str ∧ fieldOf V30.sLink.fields p.1 = some g := by
          by_cases hkept : kept V30.sLink p.1 = true
          · exfalso
            obtain ⟨q, hq, hm⟩ := L.strict rfl rfl p hp hkept
            simp only [V30.sLink, List.mem_cons, List.not_mem_nil, or_false] at hq
            subst hq
            obtain ⟨h1, h2⟩ := fieldOf_mem' hf
            have hfree : V30.sLinkNot.fields.all (fun f => keyFree .x f.key) = true := by decide +kernel
            exact absurd h2 (keyFree_sound (List.all_eq_true.1 hfree f h1) hm)
          · have hk' : p.1 ∈ V30.sLink.known := by
              simp only [kept, Bool.not_eq_true', Bool.not_eq_false, Bool.or_eq_true, List.contains_iff_mem,
                List.any_eq_true, beq_iff_eq, hb.notConsts, List.not_mem_nil, false_and, exists_false, or_false] at hkept
              rcases hkept with h | ⟨c, hc, _⟩
              · exact h
              · cases hc
            have hchk : V30.sLink.known.all (fun k => match fieldOf V30.sLinkNot.fields k with
              | none => true
              | some _ => match fieldOf V30.sLink.fields k with
                | some g => V30.sLink.fields.contains g && g.ty == .ptr .str
                | none => false) = true := by decide +kernel
            have := List.all_eq_true.1 hchk p.1 hk'
            rw [hf] at this
            simp only at this
            split at this
            · rename_i g hg
              simp only [Bool.and_eq_true, List.contains_iff_mem, beq_iff_eq] at this
              exact ⟨g, this.1, this.2, hg⟩
            · cases this
        obtain ⟨g, hg, hgt, hfo⟩ := hfor
        obtain ⟨x, hx⟩ := hstr g hg hgt hfo
        obtain ⟨hfm, _⟩ := fieldOf_mem' hf
        have hty : f.ty = .any := by
          simp only [V30.sLinkNot, List.mem_cons, List.not_mem_nil, or_false] at hfm
          rcases hfm with rfl | rfl <;> rfl
        rw [hty, decode_any, hx]
        exact ⟨_, rfl⟩
      have hrd : ∀ f : Field, ∃ w, f ∈ V30.sLinkNot.fields → FieldReads V30.table N V30.sLinkNot.fields M f w := by
        intro f
        by_cases hf : f ∈ V30.sLinkNot.fields
        · have := fieldVal_total (T := V30.table) (N := N) (fs := V30.sLinkNot.fields) (f := f) (M := M)
            (fun p hp hfo => hkey p hp f hfo)
          obtain ⟨w, hw⟩ := this
          exact ⟨w, fun _ => hw⟩
        · exact ⟨.nil, fun h => absurd h hf⟩
      let rd : Field → Val := fun f => Classical.choose (hrd f)
      have hf := decodeFields_reads (T := V30.table) (N := N) (s := V30.sLinkNot) (M := M) (.inl rfl)
        (fun f hf => Classical.choose_spec (hrd f) hf)
      have := decode_simple ranked30 hN ⟨rfl, rfl, rfl, rfl, rfl, rfl, rfl, rfl, rfl⟩ hf (by
        intro k hk
        simp only [V30.sLinkNot, List.mem_cons, List.not_mem_nil, or_false] at hk
        rcases hk with rfl | rfl
        · exact h1
        · exact h2) (by intro c hc; cases hc) (by intro c hc; cases hc) (by intro c hc; cases hc)
      rw [this] at hnot
      cases hnot
    · exact ⟨_, _, "operationRef", rfl, hN, by decide, hom ⟨"OperationRef", "operationRef", .ptr .str, true⟩ (by decide) rfl
        rfl h2 (by decide)⟩
  · exact ⟨_, _, "operationId", rfl, hN, by decide, hom ⟨"OperationID", "operationId", .ptr .str, true⟩ (by decide) rfl
      rfl h1 (by decide)⟩

end Verif
