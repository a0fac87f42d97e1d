import Verif.Lemmas.Settled
import Verif.Lemmas.Numbers
import Verif.Props.Distinct

/-!
Parameters of values that were not read, whose numbers are printed as `float64` are: reading what is written for their schema
as `interface{}` keeps it.
-/

namespace Verif
open Codec Spec

variable {N : Nums}

theorem exact_other {fs : List (String × Val)} (h : fs.map Prod.fst ≠ V30.sParameter.names) : exact N fs :=
  fun e => absurd e h

theorem structOf_names (s : Struct) (val : String → Val) : (s.names.map (fun go => (go, val go))).map Prod.fst = s.names := by
  simp [Function.comp_def]

theorem writable_exact {ty : Ty} {v : Val} (h : Writable V30.table N ok30 ty v) (hd : Everywhere noDerived v)
    (hn : Numbers.NumIn (fun l => N.f64 l = some l) v) : Everywhere (exact N) v := by
  have key : ∀ {ty : Ty} {v : Val}, Writable V30.table N ok30 ty v → Everywhere noDerived v →
      Numbers.NumIn (fun l => N.f64 l = some l) v → ∀ a, encode V30.table ty v = some a → decodeAny N a = some a :=
    fun h hd hn a ha => Numbers.stays a (C75_distinct30 N _ _ h hd a ha) (Numbers.prints _ hn _ _ ha)
  induction h with
  | any h => exact everywhere_any
  | bool b => intro gs hp; cases hp
  | str s => exact everywhere_str
  | int h => intro gs hp; cases hp
  | float h => intro gs hp; cases hp
  | nilPtr t => exact everywhere_nil
  | ptr ht h1 h2 h ih => exact ih hd hn
  | nilSlice t => exact everywhere_nil
  | slice h ih =>
    apply everywhere_list
    intro x hx
    exact ih x hx (hd.list hx) (Numbers.numInList_mem hn x hx)
  | nilMap t => exact everywhere_nil
  | map hk h ih =>
    apply everywhere_map
    intro p hp
    exact ih p.1 p.2 hp (hd.map hp) (Numbers.numInFields_mem hn p hp)
  | enum hn s => exact everywhere_str
  | @plain n s hg hs hb val hf hp hpk ha hak hone hlow hnot ihf ihp iha =>
    refine everywhere_struct (exact_other (by rw [structOf_names]; exact (plain_names hg (.inl hs)).1)) ?_
    intro p hpm
    obtain ⟨go, hgo, rfl⟩ := List.mem_map.1 hpm
    have hgo' := hgo
    unfold Struct.names at hgo'
    rw [hs.1, hs.2] at hgo'
    simp only [List.map_nil, List.append_nil, List.mem_append, List.mem_map] at hgo'
    rcases hgo' with (⟨f, hff, rfl⟩ | ⟨q, hq, rfl⟩) | h
    · by_cases hx : ExplicitNull s f (val f.go)
      · simp only; rw [hx.2]; exact everywhere_any
      · exact ihf f hff hx (hd.field hgo) (Numbers.numIn_field hn hgo)
    · exact ihp q hq (hd.field hgo) (Numbers.numIn_field hn hgo)
    · cases hadd : s.additional with
      | none => rw [hadd] at h; simp at h
      | some a =>
        rw [hadd] at h
        have : a.go = go := by simpa [eq_comm] using h
        subst this
        exact iha a hadd (hd.field hgo) (Numbers.numIn_field hn hgo)
  | @union n s hg hs go t v ho hv h hok ih =>
    have hnm : (s.oneOf.map (fun h : Hidden => (h.go, if h.go = go then v else .nil))).map Prod.fst = s.names := by
      rw [List.map_map, hs]
      simp [Struct.names, Function.comp_def]
    refine everywhere_struct (exact_other (by rw [hnm]; exact (plain_names hg (.inr (by rw [hs]))).1)) ?_
    intro p hpm
    obtain ⟨e, he, rfl⟩ := List.mem_map.1 hpm
    simp only
    split
    · rename_i hgo
      have hmem : (go, v) ∈ s.oneOf.map (fun h : Hidden => (h.go, if h.go = go then v else .nil)) :=
        List.mem_map.2 ⟨_, ho, by simp only [if_true]⟩
      exact ih (hd.struct hmem) (Numbers.numInFields_mem hn _ hmem)
    · exact everywhere_nil
  | http hg val hf hp hpk hs ihf ihp =>
    refine everywhere_struct (exact_other (by rw [structOf_names]; decide)) ?_
    intro p hpm
    obtain ⟨go, hgo, rfl⟩ := List.mem_map.1 hpm
    have hgo' := hgo
    have hder := hd.self
    have hnil : ∀ g ∈ derived, g ∈ V30.sHTTPSecurityScheme.names → val g = .nil := fun g h1 h2 => by
      have := hder g h1
      rwa [fieldIn_of val h2] at this
    rw [show V30.sHTTPSecurityScheme.names = V30.sHTTPSecurityScheme.fields.map Field.go ++ ["Bearer", "NonBearer", "MapOfAnything"]
      by decide +kernel] at hgo'
    rcases List.mem_append.1 hgo' with h | h
    · obtain ⟨f, hff, rfl⟩ := List.mem_map.1 h
      exact ihf f hff (hd.field hgo) (Numbers.numIn_field hn hgo)
    · simp only [List.mem_cons, List.not_mem_nil, or_false] at h
      rcases h with rfl | rfl | rfl
      · simp only; rw [hnil _ (by decide) hgo]; exact everywhere_nil
      · simp only; rw [hnil _ (by decide) hgo]; exact everywhere_nil
      · exact ihp (hd.field hgo) (Numbers.numIn_field hn hgo)
  | security hg => exact absurd hg (by decide +kernel)
  | @parameter hg val hf hp hpk a hxx i hin hreq hst hloc ihf ihp =>
    have fS : (⟨"Schema", "schema", .ptr (.named "SchemaOrRef"), true⟩ : Field) ∈ V30.sParameter.fields := by decide
    have fC : (⟨"Content", "content", .map (.named "MediaType"), true⟩ : Field) ∈ V30.sParameter.fields := by decide
    refine everywhere_struct ?_ ?_
    · intro _ _
      rw [fieldIn_of val (by decide), fieldIn_of val (by decide)]
      exact ⟨key (hf _ fS (not_null30 fS (by decide))) (hd.field (field_name fS)) (Numbers.numIn_field hn (field_name fS)),
        key (hf _ fC (not_null30 fC (by decide))) (hd.field (field_name fC)) (Numbers.numIn_field hn (field_name fC))⟩
    · intro p hpm
      obtain ⟨go, hgo, rfl⟩ := List.mem_map.1 hpm
      have hgo' := hgo
      have hder := hd.self
      have hnil : ∀ g ∈ derived, g ∈ V30.sParameter.names → val g = .nil := fun g h1 h2 => by
        have := hder g h1
        rwa [fieldIn_of val h2] at this
      rw [show V30.sParameter.names = V30.sParameter.fields.map Field.go ++ ["SchemaXORContent", "Location", "MapOfAnything"]
        by decide +kernel] at hgo'
      rcases List.mem_append.1 hgo' with h | h
      · obtain ⟨f, hff, rfl⟩ := List.mem_map.1 h
        by_cases hx : ExplicitNull V30.sParameter f (val f.go)
        · simp only; rw [hx.2]; exact everywhere_any
        · exact ihf f hff hx (hd.field hgo) (Numbers.numIn_field hn hgo)
      · simp only [List.mem_cons, List.not_mem_nil, or_false] at h
        rcases h with rfl | rfl | rfl
        · simp only; rw [hnil _ (by decide) hgo]; exact everywhere_nil
        · simp only; rw [hnil _ (by decide) hgo]; exact everywhere_nil
        · exact ihp (hd.field hgo) (Numbers.numIn_field hn hgo)

end Verif
