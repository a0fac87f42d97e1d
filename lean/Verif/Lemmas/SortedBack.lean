import Verif.Lemmas.SortedWritable

/-! What is read back from a value whose maps are in order has its maps in order. -/

namespace Verif
open Codec Spec

variable {N : Nums}

/-- The fields of a parameter or HTTP security scheme of 3.0. -/
def special (fs : List (String × Val)) : Prop :=
  fs.map Prod.fst = V30.sParameter.names ∨ fs.map Prod.fst = V30.sHTTPSecurityScheme.names

/-- The fields that repeat others have their maps in order. -/
def derivedAscending (fs : List (String × Val)) : Prop := special fs → ∀ go ∈ derived, AscendingVal (fieldIn fs go)

/-- There is nothing to fill in, or it has its maps in order. -/
def Filling (u w : Val) : Prop := Everywhere (fun fs => ¬special fs) u ∨ Everywhere derivedAscending w

theorem sameEntries_names {ms ns : List (String × Val)} (h : SameEntries ms ns) : ns.map Prod.fst = ms.map Prod.fst := by
  induction ms generalizing ns with
  | nil => cases h; rfl
  | cons p ms ih => cases h with | cons h hs => simp [ih hs]

theorem sameFilled_names {ms ns : List (String × Val)} (h : SameFilled ms ns) : ns.map Prod.fst = ms.map Prod.fst := by
  induction ms generalizing ns with
  | nil => cases h; rfl
  | cons p ms ih => cases h with
    | cons h hs => simp [ih hs]
    | derived h hs => simp [ih hs]
    | style h hs => simp [ih hs]

theorem special_nodup {fs : List (String × Val)} (h : special fs) : (fs.map Prod.fst).Nodup := by
  rcases h with h | h <;> rw [h] <;> decide +kernel

mutual
theorem same_ascending : ∀ {u w : Val}, Same u w → AscendingVal u → Filling u w → AscendingVal w
  | _, _, .same _, h, _ => h
  | _, _, .emptyList, _, _ => trivial
  | _, _, .emptyMap, _, _ => trivial
  | _, _, .list hs, h, hf => sameList_ascending hs h (by
      rcases hf with hf | hf
      · exact .inl fun x hx => hf.list hx
      · exact .inr fun x hx => hf.list hx)
  | _, _, .map hs, h, hf => ⟨by rw [sameEntries_names hs]; exact h.1, sameEntries_ascending hs h.2 (by
      rcases hf with hf | hf
      · exact .inl fun k x hx => hf.map hx
      · exact .inr fun k x hx => hf.map hx)⟩
  | _, _, .struct hs, h, hf => sameEntries_ascending hs h (by
      rcases hf with hf | hf
      · exact .inl fun k x hx => hf.struct hx
      · exact .inr fun k x hx => hf.struct hx)
  | .struct ms, .struct ns, .filled hn hs, h, hf => by
    rcases hf with hf | hf
    · exact absurd hn (hf.self)
    · have hn' : special ns := by unfold special; rw [sameFilled_names hs]; exact hn
      have hd := hf.self hn'
      exact sameFilled_ascending hs h (fun k x hx => hf.struct hx)
        (fun k x hx hk => by have := hd k hk; rwa [fieldIn_mem (special_nodup hn') hx] at this)
theorem sameList_ascending : ∀ {u w : List Val}, SameList u w → AscendingVals u →
    ((∀ x ∈ u, Everywhere (fun fs => ¬special fs) x) ∨ (∀ x ∈ w, Everywhere derivedAscending x)) → AscendingVals w
  | _, _, .nil, h, _ => h
  | _, _, .cons h1 h2, h, hf => ⟨same_ascending h1 h.1 (by
      rcases hf with hf | hf
      · exact .inl (hf _ List.mem_cons_self)
      · exact .inr (hf _ List.mem_cons_self)), sameList_ascending h2 h.2 (by
      rcases hf with hf | hf
      · exact .inl fun x hx => hf x (List.mem_cons_of_mem _ hx)
      · exact .inr fun x hx => hf x (List.mem_cons_of_mem _ hx))⟩
theorem sameEntries_ascending : ∀ {u w : List (String × Val)}, SameEntries u w → AscendingEntries u →
    ((∀ k x, (k, x) ∈ u → Everywhere (fun fs => ¬special fs) x) ∨ (∀ k x, (k, x) ∈ w → Everywhere derivedAscending x)) →
    AscendingEntries w
  | _, _, .nil, h, _ => h
  | _, _, .cons h1 h2, h, hf => ⟨same_ascending h1 h.1 (by
      rcases hf with hf | hf
      · exact .inl (hf _ _ List.mem_cons_self)
      · exact .inr (hf _ _ List.mem_cons_self)), sameEntries_ascending h2 h.2 (by
      rcases hf with hf | hf
      · exact .inl fun k x hx => hf k x (List.mem_cons_of_mem _ hx)
      · exact .inr fun k x hx => hf k x (List.mem_cons_of_mem _ hx))⟩
theorem sameFilled_ascending : ∀ {u w : List (String × Val)}, SameFilled u w → AscendingEntries u →
    (∀ k x, (k, x) ∈ w → Everywhere derivedAscending x) → (∀ k x, (k, x) ∈ w → k ∈ derived → AscendingVal x) →
    AscendingEntries w
  | _, _, .nil, h, _, _ => h
  | _, _, .cons h1 h2, h, hf, hd => ⟨same_ascending h1 h.1 (.inr (hf _ _ List.mem_cons_self)),
      sameFilled_ascending h2 h.2 (fun k x hx => hf k x (List.mem_cons_of_mem _ hx))
        (fun k x hx => hd k x (List.mem_cons_of_mem _ hx))⟩
  | _, _, .derived h1 h2, h, hf, hd => ⟨hd _ _ List.mem_cons_self h1,
      sameFilled_ascending h2 h.2 (fun k x hx => hf k x (List.mem_cons_of_mem _ hx))
        (fun k x hx => hd k x (List.mem_cons_of_mem _ hx))⟩
  | _, _, .style _ h2, h, hf, hd => ⟨trivial,
      sameFilled_ascending h2 h.2 (fun k x hx => hf k x (List.mem_cons_of_mem _ hx))
        (fun k x hx => hd k x (List.mem_cons_of_mem _ hx))⟩
end

/-! ## All structs of a value -/

section
variable {T : Table} {Ok : String → String → Val → Prop} {Q : List (String × Val) → Prop}

theorem everywhere_small (hS : ∀ fs, fs.length ≤ 4 → Q fs) {fs : List (String × Val)} (hl : fs.length ≤ 4)
    (h : ∀ k x, (k, x) ∈ fs → Everywhere Q x) : Everywhere Q (.struct fs) :=
  everywhere_struct (hS fs hl) (fun p hp => h p.1 p.2 hp)

theorem everywhere_xorSchema (hS : ∀ fs, fs.length ≤ 4 → Q fs) (b : Any) : Everywhere Q (xorSchema b) := by
  refine everywhere_small hS (by simp) ?_
  intro k x hx
  simp only [List.mem_cons, Prod.mk.injEq, List.not_mem_nil, or_false] at hx
  rcases hx with ⟨_, rfl⟩ | ⟨_, rfl⟩
  · refine everywhere_small hS (by simp) ?_
    intro k x hx
    simp only [List.mem_cons, Prod.mk.injEq, List.not_mem_nil, or_false] at hx
    rw [hx.2]
    exact everywhere_any
  · exact everywhere_nil

theorem everywhere_xorContent (hS : ∀ fs, fs.length ≤ 4 → Q fs) (b : Any) : Everywhere Q (xorContent b) := by
  refine everywhere_small hS (by simp) ?_
  intro k x hx
  simp only [List.mem_cons, Prod.mk.injEq, List.not_mem_nil, or_false] at hx
  rcases hx with ⟨_, rfl⟩ | ⟨_, rfl⟩
  · exact everywhere_nil
  · refine everywhere_small hS (by simp) ?_
    intro k x hx
    simp only [List.mem_cons, Prod.mk.injEq, List.not_mem_nil, or_false] at hx
    rw [hx.2]
    exact everywhere_any

theorem everywhere_location (hS : ∀ fs, fs.length ≤ 4 → Q fs) {i : String} {v : Val} (h : Everywhere Q v) :
    Everywhere Q (location i v) := by
  refine everywhere_small hS (by simp) ?_
  intro k x hx
  simp only [List.mem_cons, Prod.mk.injEq, List.not_mem_nil, or_false] at hx
  rcases hx with ⟨_, rfl⟩ | ⟨_, rfl⟩ | ⟨_, rfl⟩ | ⟨_, rfl⟩ <;> (split <;> first | exact h | exact everywhere_nil)

/-- A condition on the structs of a value that can be written and read back. -/
theorem writable_every
    (hP : ∀ n s fs, GoMap.get? T n = some (.struct s) → (s.embeds = [] ∧ s.oneOf = []) ∨ s.fields = [] →
      fs.map Prod.fst = s.names → Q fs)
    (hS : ∀ fs, fs.length ≤ 4 → Q fs)
    (hSec : GoMap.get? T "SecurityScheme" = some (.struct V31.sSecurityScheme) →
      ∀ fs, fs.map Prod.fst = V31.sSecurityScheme.names → Q fs)
    (hH : GoMap.get? T "HTTPSecurityScheme" = some (.struct V30.sHTTPSecurityScheme) → ∀ fs,
      fs.map Prod.fst = V30.sHTTPSecurityScheme.names →
      (fieldIn fs "Bearer" = .nil ∨ fieldIn fs "Bearer" = .struct []) →
      (fieldIn fs "NonBearer" = .nil ∨ fieldIn fs "NonBearer" = .struct [("Scheme", .nil)]) → Q fs)
    (hPar : GoMap.get? T "Parameter" = some (.struct V30.sParameter) → ∀ fs,
      fs.map Prod.fst = V30.sParameter.names →
      (fieldIn fs "SchemaXORContent" = .nil ∨ ∃ b, fieldIn fs "SchemaXORContent" = xorSchema b ∨
        fieldIn fs "SchemaXORContent" = xorContent b) →
      (fieldIn fs "Location" = .nil ∨ ∃ i, fieldIn fs "Location" = location i (.struct []) ∨
        fieldIn fs "Location" = location i (.struct [("Style", .nil)]) ∨
        ∃ s, fieldIn fs "Location" = location i (.struct [("Style", .str s)])) → Q fs)
    {ty : Ty} {v : Val} (h : Writable T N Ok ty v) : Everywhere Q v := by
  have hnull : ∀ {s : Struct} {f : Field} {v : Val}, (¬ExplicitNull s f v → Everywhere Q v) → Everywhere Q v := by
    intro s f v h
    by_cases e : ExplicitNull s f v
    · rw [e.2]; exact everywhere_any
    · exact h e
  induction h with
  | any h => exact everywhere_any
  | bool b => intro gs hp; cases hp
  | str s => exact everywhere_str
  | int h => intro gs hp; cases hp
  | float h => intro gs hp; cases hp
  | nilPtr t => exact everywhere_nil
  | ptr ht h1 h2 h ih => exact ih
  | nilSlice t => exact everywhere_nil
  | slice h ih => exact everywhere_list ih
  | nilMap t => exact everywhere_nil
  | map hk h ih => exact everywhere_map fun p hp => ih p.1 p.2 hp
  | enum hn h => exact everywhere_str
  | @plain n s hn hs hb val hf hp hpk ha hak hone hlow hnot ihf ihp iha =>
    refine everywhere_struct (hP n s _ hn (.inl hs) (names_of _)) ?_
    intro p hpm
    obtain ⟨go, hgo, rfl⟩ := List.mem_map.1 hpm
    unfold Struct.names at hgo
    rw [hs.1, hs.2] at hgo
    simp only [List.mem_append, List.mem_map, List.map_nil, List.append_nil] at hgo
    rcases hgo with (⟨f, hf, rfl⟩ | ⟨q, hq, rfl⟩) | hgo
    · exact hnull (ihf f hf)
    · exact ihp q hq
    · cases haa : s.additional with
      | none => rw [haa] at hgo; cases hgo
      | some a =>
        rw [haa] at hgo
        cases List.mem_singleton.1 hgo
        exact iha a haa
  | @union n s hn hs go t v ho hv h hok ih =>
    refine everywhere_struct (hP n s _ hn (.inr (by rw [hs])) ?_) ?_
    · rw [List.map_map, hs]
      simp [Struct.names, Function.comp_def]
    · intro p hpm
      obtain ⟨e, _, rfl⟩ := List.mem_map.1 hpm
      simp only
      split
      · exact ih
      · exact everywhere_nil
  | http hn val hf hp hpk hs ihf ihp =>
    have hB : val "Bearer" = .nil ∨ val "Bearer" = .struct [] := by
      rcases hs with ⟨_, h, _⟩ | ⟨_, _, h, _⟩
      · exact h
      · exact .inl h
    have hNB : val "NonBearer" = .nil ∨ val "NonBearer" = .struct [("Scheme", .nil)] := by
      rcases hs with ⟨_, _, h⟩ | ⟨_, _, _, h⟩
      · exact .inl h
      · exact h
    refine everywhere_struct (hH hn _ (names_of _) (by rw [fieldIn_of val (by decide)]; exact hB)
      (by rw [fieldIn_of val (by decide)]; exact hNB)) ?_
    intro p hpm
    obtain ⟨go, hgo, rfl⟩ := List.mem_map.1 hpm
    unfold Struct.names at hgo
    simp only [List.mem_append, List.mem_map] at hgo
    rcases hgo with (((⟨f, hf, rfl⟩ | hgo) | ⟨e, he, rfl⟩) | ⟨q, hq, rfl⟩) | hgo
    · exact ihf f hf
    · simp [V30.sHTTPSecurityScheme] at hgo
    · simp only [V30.sHTTPSecurityScheme, List.mem_cons, List.not_mem_nil, or_false] at he
      rcases he with rfl | rfl
      · rcases hB with h | h <;> simp only [h]
        · exact everywhere_nil
        · exact everywhere_small hS (by simp) (fun k x hx => nomatch hx)
      · rcases hNB with h | h <;> simp only [h]
        · exact everywhere_nil
        · refine everywhere_small hS (by simp) ?_
          intro k x hx
          simp only [List.mem_cons, Prod.mk.injEq, List.not_mem_nil, or_false] at hx
          rw [hx.2]
          exact everywhere_nil
    · simp only [V30.sHTTPSecurityScheme, List.mem_cons, List.not_mem_nil, or_false] at hq
      subst hq
      exact ihp
    · simp [V30.sHTTPSecurityScheme] at hgo
  | @security hn val hf hp hpk go t ho hv h hothers ihf ihp ih =>
    refine everywhere_struct (hSec hn _ (names_of _)) ?_
    intro p hpm
    obtain ⟨go', hgo, rfl⟩ := List.mem_map.1 hpm
    unfold Struct.names at hgo
    simp only [List.mem_append, List.mem_map] at hgo
    rcases hgo with (((⟨f, hf, rfl⟩ | hgo) | ⟨e, he, rfl⟩) | ⟨q, hq, rfl⟩) | hgo
    · exact ihf f hf
    · simp [V31.sSecurityScheme] at hgo
    · by_cases hg : e.go = go
      · rw [hg]; exact ih
      · simp only [hothers e he hg]; exact everywhere_nil
    · simp only [V31.sSecurityScheme, List.mem_cons, List.not_mem_nil, or_false] at hq
      subst hq
      exact ihp
    · simp [V31.sSecurityScheme] at hgo
  | @parameter hn val hf hp hpk a hxx i hin hreq hst hl ihf ihp =>
    have hX : val "SchemaXORContent" = .nil ∨ ∃ b, val "SchemaXORContent" = xorSchema b ∨
        val "SchemaXORContent" = xorContent b := by
      rcases hxx with ⟨_, _, _, h⟩ | ⟨_, _, _, h⟩
      · rcases h with ⟨h, _⟩ | ⟨h, hb⟩ | ⟨_, b, _, h, hb, _⟩
        · exact .inl h
        · exact .inr ⟨_, .inl h⟩
        · exact .inr ⟨_, .inl h⟩
      · rcases h with ⟨h, _⟩ | ⟨h, hb⟩ | ⟨_, b, _, h, hb, _⟩
        · exact .inl h
        · exact .inr ⟨_, .inr h⟩
        · exact .inr ⟨_, .inr h⟩
    have hL : val "Location" = .nil ∨ ∃ i, val "Location" = location i (.struct []) ∨
        val "Location" = location i (.struct [("Style", .nil)]) ∨
        ∃ s, val "Location" = location i (.struct [("Style", .str s)]) := by
      rcases hl with h | ⟨_, h⟩ | ⟨_, h⟩
      · exact .inl h
      · rcases hst with e | ⟨s, _, e⟩ <;> rw [e] at h
        · exact .inr ⟨i, .inr (.inl h)⟩
        · exact .inr ⟨i, .inr (.inr ⟨s, h⟩)⟩
      · exact .inr ⟨i, .inl h⟩
    refine everywhere_struct (hPar hn _ (names_of _) (by rw [fieldIn_of val (by decide)]; exact hX)
      (by rw [fieldIn_of val (by decide)]; exact hL)) ?_
    intro p hpm
    obtain ⟨go, hgo, rfl⟩ := List.mem_map.1 hpm
    unfold Struct.names at hgo
    simp only [List.mem_append, List.mem_map] at hgo
    rcases hgo with (((⟨f, hf, rfl⟩ | ⟨e, he, rfl⟩) | hgo) | ⟨q, hq, rfl⟩) | hgo
    · exact hnull (ihf f hf)
    · simp only [V30.sParameter, List.mem_cons, List.not_mem_nil, or_false] at he
      rcases he with rfl | rfl
      · rcases hX with h | ⟨b, h | h⟩ <;> simp only [h]
        · exact everywhere_nil
        · exact everywhere_xorSchema hS b
        · exact everywhere_xorContent hS b
      · rcases hL with h | ⟨i, h | h | ⟨s, h⟩⟩ <;> simp only [h]
        · exact everywhere_nil
        · exact everywhere_location hS (everywhere_small hS (by simp) (fun k x hx => nomatch hx))
        · refine everywhere_location hS (everywhere_small hS (by simp) ?_)
          intro k x hx
          simp only [List.mem_cons, Prod.mk.injEq, List.not_mem_nil, or_false] at hx
          rw [hx.2]
          exact everywhere_nil
        · refine everywhere_location hS (everywhere_small hS (by simp) ?_)
          intro k x hx
          simp only [List.mem_cons, Prod.mk.injEq, List.not_mem_nil, or_false] at hx
          rw [hx.2]
          exact everywhere_str
    · simp [V30.sParameter] at hgo
    · simp only [V30.sParameter, List.mem_cons, List.not_mem_nil, or_false] at hq
      subst hq
      exact ihp
    · simp [V30.sParameter] at hgo

end

theorem special_long {fs : List (String × Val)} (h : special fs) : 4 < fs.length := by
  rcases h with h | h <;> have := congrArg List.length h <;> rw [List.length_map] at this
  · have h13 : 4 < V30.sParameter.names.length := by decide +kernel
    omega
  · have h13 : 4 < V30.sHTTPSecurityScheme.names.length := by decide +kernel
    omega

theorem names31 : V31.table.all (fun p => match p.2 with
    | .struct s => s.names != V30.sParameter.names && s.names != V30.sHTTPSecurityScheme.names
    | _ => true) = true := by decide +kernel

/-- In 3.1 there is nothing to fill in. -/
theorem notSpecial31 {Ok : String → String → Val → Prop} {ty : Ty} {v : Val} (h : Writable V31.table N Ok ty v) :
    Everywhere (fun fs => ¬special fs) v := by
  refine writable_every ?_ ?_ ?_ ?_ ?_ h
  · intro n s fs hn _ e hs
    have h := table_all (chk := fun _ s => s.names != V30.sParameter.names && s.names != V30.sHTTPSecurityScheme.names) names31 hn
    simp only [Bool.and_eq_true, bne_iff_ne] at h
    unfold special at hs
    rw [e] at hs
    rcases hs with hs | hs
    · exact h.1 hs
    · exact h.2 hs
  · intro fs hl hs
    have := special_long hs
    omega
  · intro _ fs e hs
    unfold special at hs
    rw [e] at hs
    revert hs
    decide +kernel
  · intro h; exact absurd h (by decide +kernel)
  · intro h; exact absurd h (by decide +kernel)

/-- The raw copy that a parameter has of its schema or content has its maps in order. -/
def rawAscending (fs : List (String × Val)) : Prop := fs.map Prod.fst = V30.sParameter.names →
  ∀ b, fieldIn fs "SchemaXORContent" = xorSchema b ∨ fieldIn fs "SchemaXORContent" = xorContent b → AscendingAny b

theorem location_ascending {i : String} {v : Val} (h : AscendingVal v) : AscendingVal (location i v) := by
  refine ⟨?_, ?_, ?_, ?_, trivial⟩ <;> (split <;> first | exact h | trivial)

theorem fieldIn_absent {fs : List (String × Val)} {go : String} (h : go ∉ fs.map Prod.fst) : fieldIn fs go = .nil := by
  unfold fieldIn
  cases e : GoMap.get? fs go with
  | none => rfl
  | some x => exact absurd (List.mem_map.2 ⟨_, get?_mem e, rfl⟩) h

theorem derived30 {Ok : String → String → Val → Prop} {ty : Ty} {v : Val} (h : Writable V30.table N Ok ty v)
    (hr : Everywhere rawAscending v) : Everywhere derivedAscending v := by
  have : Everywhere (fun fs => rawAscending fs → derivedAscending fs) v := by
    refine writable_every ?_ ?_ ?_ ?_ ?_ h
    · intro n s fs hn hs e _ hsp
      obtain ⟨h1, h2⟩ := plain_names hn hs
      unfold special at hsp
      rw [e] at hsp
      exact absurd hsp (by simp [h1, h2])
    · intro fs hl _ hs
      have := special_long hs
      omega
    · intro h; exact absurd h (by decide +kernel)
    · intro _ fs e h1 h2 _ _ go hgo
      simp only [derived, List.mem_cons, List.not_mem_nil, or_false] at hgo
      rcases hgo with rfl | rfl | rfl | rfl
      · rw [fieldIn_absent (by rw [e]; decide)]; trivial
      · rw [fieldIn_absent (by rw [e]; decide)]; trivial
      · rcases h1 with h | h <;> rw [h] <;> trivial
      · rcases h2 with h | h <;> rw [h]
        · trivial
        · exact ⟨trivial, trivial⟩
    · intro _ fs e h1 h2 hr _ go hgo
      simp only [derived, List.mem_cons, List.not_mem_nil, or_false] at hgo
      rcases hgo with rfl | rfl | rfl | rfl
      · rcases h1 with h | ⟨b, h | h⟩
        · rw [h]; trivial
        · have := hr e b (.inl h)
          rw [h]
          exact ⟨⟨this, trivial⟩, trivial, trivial⟩
        · have := hr e b (.inr h)
          rw [h]
          exact ⟨trivial, ⟨this, trivial⟩, trivial⟩
      · rcases h2 with h | ⟨i, h | h | ⟨s, h⟩⟩ <;> rw [h]
        · trivial
        · exact location_ascending trivial
        · exact location_ascending ⟨trivial, trivial⟩
        · exact location_ascending ⟨trivial, trivial⟩
      · rw [fieldIn_absent (by rw [e]; decide)]; trivial
      · rw [fieldIn_absent (by rw [e]; decide)]; trivial
  exact fun fs hp => this fs hp (hr fs hp)

end Verif
