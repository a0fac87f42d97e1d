import Verif.Lemmas.RoundTripPlain
import Verif.Spec.Members

/-! Members of written objects. -/

namespace Verif
open Codec Spec

variable {T : Table} {N : Nums}

theorem omitted_iff {f : Field} {v : Val} : omitted f v = true ↔ f.omitempty = true ∧ Unset f.ty v := by
  unfold omitted Unset
  rw [Bool.and_eq_true]
  refine and_congr_right fun _ => ?_
  cases f.ty with
  | ptr t => cases v <;> simp
  | _ => cases v with
    | any a => cases a <;> simp [isEmpty]
    | _ => simp [isEmpty]

/-- What a list of fields is written as. -/
theorem encodeFields_mem {fields : List Field} {fs : List Slot} {ms : List (String × Any)}
    (h : encodeFields fields fs = some ms) {k : String} {a : Any} :
    (k, a) ∈ ms ↔ ∃ f ∈ fields, ∃ slot, slotOf fs f.go = some slot ∧ omitted f slot.val = false ∧
      slot.enc f.ty = some a ∧ f.key = k := by
  induction fields generalizing ms with
  | nil => simp [encodeFields] at h; subst h; simp
  | cons f rest ih =>
    unfold encodeFields at h
    cases hs : slotOf fs f.go with
    | none => rw [hs] at h; cases h
    | some slot =>
      rw [hs] at h
      simp only at h
      cases ho : omitted f slot.val with
      | true =>
        rw [ho] at h
        simp only [if_true] at h
        rw [ih h]
        constructor
        · rintro ⟨g, hg, r⟩
          exact ⟨g, List.mem_cons_of_mem _ hg, r⟩
        · rintro ⟨g, hg, sl, r1, r2, r3⟩
          rcases List.mem_cons.1 hg with rfl | hg
          · rw [hs] at r1; cases r1; rw [ho] at r2; cases r2
          · exact ⟨g, hg, sl, r1, r2, r3⟩
      | false =>
        rw [ho] at h
        cases he : slot.enc f.ty with
        | none => rw [he] at h; cases h
        | some j =>
          cases hr : encodeFields rest fs with
          | none => rw [he, hr] at h; cases h
          | some ms' =>
            rw [he, hr] at h
            simp only [Option.some.injEq] at h
            have h : (f.key, j) :: ms' = ms := by simpa using h
            subst h
            rw [List.mem_cons, ih hr]
            constructor
            · rintro (e | ⟨g, hg, r⟩)
              · cases e
                exact ⟨f, List.mem_cons_self, slot, hs, ho, he, rfl⟩
              · exact ⟨g, List.mem_cons_of_mem _ hg, r⟩
            · rintro ⟨g, hg, sl, r1, r2, r3, r4⟩
              rcases List.mem_cons.1 hg with rfl | hg
              · rw [hs] at r1; cases r1; rw [he] at r3; cases r3; left; rw [r4]
              · exact .inr ⟨g, hg, sl, r1, r2, r3, r4⟩

theorem unionJ_only {js : List Any} {j : Any} (h : unionJ js = some j) {k : String} (hk : HasMember j k) :
    ∃ x ∈ js, HasMember x k := by
  unfold unionJ at h
  generalize hfs : js.filter (fun j => match j with
    | .null => false
    | .obj [] => false
    | _ => true) = fs at h
  have hsub : ∀ x ∈ fs, x ∈ js := by
    intro x hx
    rw [← hfs] at hx
    exact (List.mem_filter.1 hx).1
  simp only at h
  split at h
  · simp only [Option.some.injEq] at h
    subst h
    cases hk
  · rename_i x
    simp only [Option.some.injEq] at h
    subst h
    exact ⟨x, hsub x List.mem_cons_self, hk⟩
  · rw [Option.map_eq_some_iff] at h
    obtain ⟨l, hl, rfl⟩ := h
    obtain ⟨p, hp, rfl⟩ := List.mem_map.1 hk
    obtain ⟨ms, hms, hpm⟩ := List.mem_flatten.1 hp
    obtain ⟨x, hx, e⟩ := mapAll_eq_some hl ms hms
    refine ⟨x, hsub x hx, ?_⟩
    split at e
    · cases e; exact List.mem_map_of_mem hpm
    · cases e

/-- What the check on a table says about one struct. -/
structure MemberFacts (required : List String) (s : Struct) : Prop where
  names : s.names.Nodup
  hidden : ∀ h ∈ s.hidden, hiddenTy s h.go = some h.ty
  parts : s.fields ≠ [] → .fields ∈ s.parts
  partHidden : ∀ go, .hidden go ∈ s.parts → ∃ h ∈ s.hidden, h.go = go
  consts : ∀ cs, .consts cs ∈ s.parts → ∀ c ∈ cs, ∀ f ∈ s.fields, f.key ≠ c.1
  own : (s.fields.map Field.key).Nodup
  omits : ∀ f ∈ s.fields, f.omitempty = false ↔ f.key ∈ required

def memberCheck (required : List String) (s : Struct) : Bool :=
  decide s.names.Nodup && s.hidden.all (fun h => hiddenTy s h.go == some h.ty) &&
  (s.fields == [] || s.parts.contains .fields) &&
  s.parts.all (fun p => match p with
    | .hidden go => s.hidden.any (fun h => h.go == go)
    | .consts cs => cs.all (fun c => s.fields.all (fun f => f.key != c.1))
    | .fields => true) &&
  decide (s.fields.map Field.key).Nodup &&
  s.fields.all (fun f => !f.omitempty == required.contains f.key)

theorem memberFacts_of {required : List String} {s : Struct} (h : memberCheck required s = true) :
    MemberFacts required s := by
  unfold memberCheck at h
  simp only [Bool.and_eq_true, decide_eq_true_eq, List.all_eq_true, Bool.or_eq_true, beq_iff_eq,
    List.contains_iff_mem] at h
  obtain ⟨⟨⟨⟨⟨h1, h2⟩, h3⟩, h4⟩, h5⟩, h6⟩ := h
  refine ⟨h1, h2, fun hne => h3.resolve_left hne, ?_, ?_, h5, ?_⟩
  · intro go hgo
    have := h4 _ hgo
    obtain ⟨x, hx, e⟩ := List.any_eq_true.1 this
    exact ⟨x, hx, by simpa using e⟩
  · intro cs hcs c hc f hf
    have := h4 _ hcs
    have := List.all_eq_true.1 (List.all_eq_true.1 this c hc) f hf
    simpa using this
  · intro f hf
    have := h6 f hf
    rw [← List.contains_iff_mem, ← this]
    cases f.omitempty <;> simp

def memberTable (T : Table) (required : List (String × List String)) (fragments : List String) : Bool :=
  T.all (fun p => match p.2 with
    | .struct s => fragments.contains p.1 || memberCheck (keysFor required p.1) s
    | .enum _ => true)

theorem memberFacts_table {required : List (String × List String)} {fragments : List String}
    (h : memberTable T required fragments = true) {n : String} {s : Struct} (hn : GoMap.get? T n = some (.struct s))
    (hf : n ∉ fragments) : MemberFacts (keysFor required n) s := by
  have := List.all_eq_true.1 h _ (get?_mem hn)
  simp only [Bool.or_eq_true, List.contains_iff_mem] at this
  exact memberFacts_of (this.resolve_left hf)

theorem hidden_name {s : Struct} {h : Hidden} (hh : h ∈ s.hidden) : h.go ∈ s.names := by
  unfold Struct.hidden at hh
  simp only [List.mem_append] at hh
  rcases hh with ((hh | hh) | hh) | hh
  · exact embed_name hh
  · exact oneOf_name hh
  · obtain ⟨q, hq, rfl⟩ := List.mem_map.1 hh
    exact pattern_name hq
  · cases ha : s.additional with
    | none => rw [ha] at hh; cases hh
    | some a =>
      rw [ha] at hh
      simp only [List.mem_singleton] at hh
      subst hh
      exact additional_name (a := a) ha

/-- A field that is set or required is written, with what its value is written as. -/
theorem member_written {required : List String} {n : String} {s : Struct} (hn : GoMap.get? T n = some (.struct s))
    (hs : MemberFacts required s) {val : String → Val} {j : Any} (hj : encode T (.named n) (structOf s val) = some j)
    {f : Field} (hf : f ∈ s.fields) (hw : f.key ∈ required ∨ ¬Unset f.ty (val f.go)) :
    ∃ a, encode T f.ty (val f.go) = some a ∧ HasPair j f.key a := by
  unfold structOf at hj
  rw [encode_struct hn] at hj
  split at hj
  · rename_i js hjs
    have hp : Part.fields ∈ s.parts := hs.parts (fun e => by rw [e] at hf; cases hf)
    obtain ⟨y, hy, e⟩ := mapAll_mem hjs _ hp
    simp only [encodePart, Option.map_eq_some_iff] at e
    obtain ⟨ms, hms, rfl⟩ := e
    have hslot := slotOf_structOf (T := T) hs.names (val := val) (field_name hf)
    have ho : omitted f (val f.go) = false := by
      cases h : omitted f (val f.go) with
      | false => rfl
      | true =>
        obtain ⟨h1, h2⟩ := omitted_iff.1 h
        rcases hw with hw | hw
        · rw [(hs.omits f hf).2 hw] at h1; cases h1
        · exact absurd h2 hw
    have henc : ∃ a, encode T f.ty (val f.go) = some a := by
      clear hp hj hjs hw hy
      generalize hl : s.fields = l at hms hf
      have hsub : ∀ g ∈ l, g ∈ s.fields := fun g hg => hl ▸ hg
      clear hl
      induction l generalizing ms with
      | nil => cases hf
      | cons g rest ih =>
        unfold encodeFields at hms
        rw [slotOf_structOf (T := T) hs.names (val := val) (field_name (hsub g List.mem_cons_self))] at hms
        simp only [slotFor] at hms
        rcases List.mem_cons.1 hf with rfl | hf
        · simp only [ho, Bool.false_eq_true, if_false] at hms
          cases h : encode T f.ty (val f.go) with
          | some a => exact ⟨a, rfl⟩
          | none => rw [h] at hms; cases hms
        · have hsub' : ∀ x ∈ rest, x ∈ s.fields := fun x hx => hsub x (List.mem_cons_of_mem _ hx)
          cases hog : omitted g (val g.go) with
          | true =>
            simp only [hog, if_true] at hms
            exact ih _ hms hf hsub'
          | false =>
            simp only [hog, Bool.false_eq_true, if_false] at hms
            split at hms
            · rename_i _ _ _ hr
              exact ih _ hr hf hsub'
            · cases hms
    obtain ⟨a, ha⟩ := henc
    refine ⟨a, ha, ?_⟩
    have : (f.key, a) ∈ ms := (encodeFields_mem hms).2 ⟨f, hf, _, hslot, ho, ha, rfl⟩
    obtain ⟨ms', rfl, hm⟩ := unionJ_mem hj hy this
    exact hm
  · cases hj

/-- A field that is neither set nor required is not written, if no other part of the value has its key. -/
theorem member_absent {required : List String} {n : String} {s : Struct} (hn : GoMap.get? T n = some (.struct s))
    (hs : MemberFacts required s) {val : String → Val} {j : Any} (hj : encode T (.named n) (structOf s val) = some j)
    {f : Field} (hf : f ∈ s.fields) (hreq : f.key ∉ required) (hu : Unset f.ty (val f.go))
    (hfree : ∀ h ∈ s.hidden, ∀ a, encode T h.ty (val h.go) = some a → ¬HasMember a f.key) : ¬HasMember j f.key := by
  intro hk
  unfold structOf at hj
  rw [encode_struct hn] at hj
  split at hj
  · rename_i js hjs
    obtain ⟨x, hx, hxk⟩ := unionJ_only hj hk
    obtain ⟨p, hp, e⟩ := mapAll_eq_some hjs x hx
    cases p with
    | consts cs =>
      simp only [encodePart, Option.some.injEq] at e
      subst e
      obtain ⟨c, hc, e⟩ := List.mem_map.1 hxk
      obtain ⟨c', hc', rfl⟩ := List.mem_map.1 hc
      exact hs.consts cs hp c' hc' f hf e.symm
    | fields =>
      simp only [encodePart, Option.map_eq_some_iff] at e
      obtain ⟨ms, hms, rfl⟩ := e
      obtain ⟨⟨k, a⟩, ha, e⟩ := List.mem_map.1 hxk
      obtain ⟨g, hg, slot, h1, h2, h3, h4⟩ := (encodeFields_mem hms).1 ha
      have : g = f := by
        have hnd := hs.own
        simp only at e
        rw [e] at h4
        clear hms h1 h2 h3 ha hxk hjs hj hfree hu hreq hp hx
        generalize s.fields = l at *
        induction l with
        | nil => cases hf
        | cons y l ih =>
          simp only [List.map_cons, List.nodup_cons] at hnd
          rcases List.mem_cons.1 hg with rfl | hg
          · rcases List.mem_cons.1 hf with rfl | hf
            · rfl
            · exact absurd (h4 ▸ List.mem_map_of_mem hf) hnd.1
          · rcases List.mem_cons.1 hf with rfl | hf
            · exact absurd (h4 ▸ List.mem_map_of_mem (by assumption)) hnd.1
            · exact ih hf (by assumption) hnd.2
      subst this
      rw [slotOf_structOf (T := T) hs.names (val := val) (field_name hf)] at h1
      cases h1
      have : omitted g (val g.go) = true := omitted_iff.2 ⟨by
        cases h : g.omitempty with
        | true => rfl
        | false => exact absurd ((hs.omits g hf).1 h) hreq, hu⟩
      simp only [slotFor] at h2
      rw [this] at h2
      cases h2
    | hidden go =>
      obtain ⟨h, hh, rfl⟩ := hs.partHidden go hp
      rw [encodePart_hidden hs.names (hidden_name hh) (hs.hidden h hh)] at e
      exact hfree h hh x e hxk
  · cases hj

end Verif
