import Verif.Lemmas.Load
import Verif.Props.RoundTrip
import Verif.Lemmas.Members

/-!
# Which members are written (C92), and what happens to `null` (C93)
-/

namespace Verif
open Codec Spec

variable {T : Table} {N : Nums}

theorem members30 : memberTable V30.table required30 fragments30 = true := by decide +kernel
theorem members31 : memberTable V31.table required31 [] = true := by decide +kernel

/-- **C92.** A member of a 3.0 entity that OpenAPI requires, or whose field is set, is written, with what the value of
the field is written as. -/
theorem C92_written30 (n : String) (hn : n ∉ fragments30) (s : Struct) (hs : GoMap.get? V30.table n = some (.struct s))
    (val : String → Val) (j : Any) (hj : encode V30.table (.named n) (structOf s val) = some j)
    (f : Field) (hf : f ∈ s.fields) (hw : f.key ∈ keysFor required30 n ∨ ¬Unset f.ty (val f.go)) :
    ∃ a, encode V30.table f.ty (val f.go) = some a ∧ HasPair j f.key a :=
  member_written hs (memberFacts_table members30 hs hn) hj hf hw

/-- **C92.** The same for 3.1. -/
theorem C92_written31 (n : String) (s : Struct) (hs : GoMap.get? V31.table n = some (.struct s))
    (val : String → Val) (j : Any) (hj : encode V31.table (.named n) (structOf s val) = some j)
    (f : Field) (hf : f ∈ s.fields) (hw : f.key ∈ keysFor required31 n ∨ ¬Unset f.ty (val f.go)) :
    ∃ a, encode V31.table f.ty (val f.go) = some a ∧ HasPair j f.key a :=
  member_written hs (memberFacts_table members31 hs (by simp)) hj hf hw

/-- **C92.** A member of a 3.0 entity that OpenAPI does not require and whose field is unset is not written, not even
as `null`, unless another part of the value (extensions, or a field that repeats others) has the key. -/
theorem C92_absent30 (n : String) (hn : n ∉ fragments30) (s : Struct) (hs : GoMap.get? V30.table n = some (.struct s))
    (val : String → Val) (j : Any) (hj : encode V30.table (.named n) (structOf s val) = some j)
    (f : Field) (hf : f ∈ s.fields) (hr : f.key ∉ keysFor required30 n) (hu : Unset f.ty (val f.go))
    (hfree : ∀ h ∈ s.hidden, ∀ a, encode V30.table h.ty (val h.go) = some a → ¬HasMember a f.key) :
    ¬HasMember j f.key :=
  member_absent hs (memberFacts_table members30 hs hn) hj hf hr hu hfree

/-- **C92.** The same for 3.1. -/
theorem C92_absent31 (n : String) (s : Struct) (hs : GoMap.get? V31.table n = some (.struct s))
    (val : String → Val) (j : Any) (hj : encode V31.table (.named n) (structOf s val) = some j)
    (f : Field) (hf : f ∈ s.fields) (hr : f.key ∉ keysFor required31 n) (hu : Unset f.ty (val f.go))
    (hfree : ∀ h ∈ s.hidden, ∀ a, encode V31.table h.ty (val h.go) = some a → ¬HasMember a f.key) :
    ¬HasMember j f.key :=
  member_absent hs (memberFacts_table members31 hs (by simp)) hj hf hr hu hfree

/-! ## Null -/

/-- What the check on a table says about explicit nulls. -/
def nullTable (T : Table) (nullable : List (String × String × String)) (fragments : List String) : Bool :=
  nullable.all (fun x => match GoMap.get? T x.1 with
    | some (.struct s) => s.nulls.contains x.2 && s.fields.contains ⟨x.2.1, x.2.2, .ptr .any, true⟩
    | _ => false) &&
  T.all (fun p => match p.2 with
    | .struct s => fragments.contains p.1 || ((s.decodes || s.fields == []) &&
        s.nulls.all (fun x => nullable.contains (p.1, x) && s.fields.contains ⟨x.1, x.2, .ptr .any, true⟩) &&
        s.fields.all (fun f => fieldOf s.fields f.key == some f) && decide (s.fields.map Field.go).Nodup &&
        s.fields.all (fun f => !f.omitempty || (match f.ty with
          | .ptr _ => true
          | .slice _ => true
          | .map _ => true
          | _ => false)))
    | .enum _ => true)

theorem nulls30 : nullTable V30.table nullable30 fragments30 = true := by decide +kernel
theorem nulls31 : nullTable V31.table nullable31 [] = true := by decide +kernel

theorem read_null {f : Field} {fs : List Field} {ms : List (String × Any)} {rd : Val}
    (hty : (∃ t, f.ty = .ptr t) ∨ (∃ t, f.ty = .slice t) ∨ ∃ t, f.ty = .map t)
    (h : FieldReads T N fs ms f rd) (hnull : OnlyNull ms f.key) : rd = .nil := by
  have hz : zero T f.ty = .nil := by
    rcases hty with ⟨t, e⟩ | ⟨t, e⟩ | ⟨t, e⟩ <;> rw [e] <;> rfl
  rcases h.2 with ⟨_, e⟩ | ⟨M1, p, M2, rfl, h1, h2, _⟩
  · rw [e, hz]
  · have hp := hnull p (by simp) (fieldOf_mem' h1).2.symm
    rw [hp] at h2
    have hdec : decode T N f.ty .null = some .nil := by
      rcases hty with ⟨t, e⟩ | ⟨t, e⟩ | ⟨t, e⟩ <;> rw [e] <;> rfl
    rw [hdec] at h2
    exact (Option.some.inj h2).symm

theorem null_kept (hT : Ranked T) {required : List (String × List String)} {fragments : List String}
    (hm : memberTable T required fragments = true) {nullable : List (String × String × String)}
    (hN : nullTable T nullable fragments = true) {n go k : String} (hn : n ∉ fragments) (h : (n, go, k) ∈ nullable)
    {ms : List (String × Any)} (hk : k ∈ ms.map Prod.fst) (hnull : OnlyNull ms k) {w : Val}
    (hd : decode T N (.named n) (.obj ms) = some w) :
    ∃ s val, GoMap.get? T n = some (.struct s) ∧ w = structOf s val ∧ val go = .any .null ∧
      ∀ j, encode T (.named n) w = some j → HasPair j k .null := by
  unfold nullTable at hN
  rw [Bool.and_eq_true] at hN
  have h1 := List.all_eq_true.1 hN.1 _ h
  simp only at h1
  split at h1
  · rename_i s hs
    simp only [Bool.and_eq_true, List.contains_iff_mem] at h1
    have h2 := List.all_eq_true.1 hN.2 _ (get?_mem hs)
    simp only [Bool.or_eq_true, List.contains_iff_mem] at h2
    have h2 := h2.resolve_left hn
    simp only [Bool.and_eq_true, Bool.or_eq_true, beq_iff_eq, decide_eq_true_eq] at h2
    obtain ⟨⟨⟨⟨hdec, _⟩, hown⟩, _⟩, _⟩ := h2
    have hF := memberFacts_table hm hs hn
    obtain ⟨M, val, rfl, L⟩ := loaded hT hs hF.names hdec hd
    have hM : M = ms := by
      rcases L.members with e | ⟨e, _⟩
      · exact (Any.obj.inj e).symm
      · exact absurd rfl (e ms)
    subst hM
    obtain ⟨rd, hrd, hval⟩ := L.fields _ h1.2
    have hrd := read_null (.inl ⟨_, rfl⟩) hrd hnull
    subst hrd
    have hv : val go = .any .null := by
      rw [show (⟨go, k, .ptr .any, true⟩ : Field).go = go from rfl] at hval
      rw [hval]
      unfold rememberNull
      have : s.nulls.any (fun n => n.1 == go && hasKey (M.map (memberOf T N)) n.2) = true := by
        refine List.any_eq_true.2 ⟨(go, k), h1.1, ?_⟩
        rw [Bool.and_eq_true]
        refine ⟨by simp, ?_⟩
        obtain ⟨p, hp, rfl⟩ := List.mem_map.1 hk
        exact List.any_eq_true.2 ⟨memberOf T N p, List.mem_map_of_mem hp, by simp [memberOf]⟩
      simp only [this, if_true]
    refine ⟨s, val, hs, rfl, hv, ?_⟩
    intro j hj
    obtain ⟨a, ha, hp⟩ := member_written hs hF hj h1.2 (.inr (by
      show ¬(val go = .nil)
      rw [hv]
      simp))
    have ha : encode T (.ptr .any) (val go) = some a := ha
    rw [hv] at ha
    cases ha
    exact hp
  · cases h1

theorem null_dropped (hT : Ranked T) {required : List (String × List String)} {fragments : List String}
    (hm : memberTable T required fragments = true) {nullable : List (String × String × String)}
    (hN : nullTable T nullable fragments = true) {n : String} (hn : n ∉ fragments) {s : Struct}
    (hs : GoMap.get? T n = some (.struct s)) {f : Field} (hf : f ∈ s.fields) (hr : f.key ∉ keysFor required n)
    (hno : (n, f.go, f.key) ∉ nullable) {ms : List (String × Any)} (hnull : OnlyNull ms f.key) {w : Val}
    (hd : decode T N (.named n) (.obj ms) = some w) :
    ∃ val, w = structOf s val ∧ val f.go = .nil := by
  unfold nullTable at hN
  rw [Bool.and_eq_true] at hN
  have h2 := List.all_eq_true.1 hN.2 _ (get?_mem hs)
  simp only [Bool.or_eq_true, List.contains_iff_mem] at h2
  have h2 := h2.resolve_left hn
  simp only [Bool.and_eq_true, Bool.or_eq_true, beq_iff_eq, decide_eq_true_eq] at h2
  obtain ⟨⟨⟨⟨hdec, hnulls⟩, hown⟩, hgo⟩, htys⟩ := h2
  have hF := memberFacts_table hm hs hn
  obtain ⟨M, val, rfl, L⟩ := loaded hT hs hF.names hdec hd
  have hM : M = ms := by
    rcases L.members with e | ⟨e, _⟩
    · exact (Any.obj.inj e).symm
    · exact absurd rfl (e ms)
  subst hM
  refine ⟨val, rfl, ?_⟩
  obtain ⟨rd, hrd, hval⟩ := L.fields _ hf
  have hty : (∃ t, f.ty = .ptr t) ∨ (∃ t, f.ty = .slice t) ∨ ∃ t, f.ty = .map t := by
    have := List.all_eq_true.1 htys f hf
    have ho : f.omitempty = true := by
      cases h : f.omitempty with
      | true => rfl
      | false => exact absurd ((hF.omits f hf).1 h) hr
    rw [ho] at this
    simp only [Bool.not_true, Bool.false_or] at this
    cases hty : f.ty with
    | ptr t => exact .inl ⟨t, rfl⟩
    | slice t => exact .inr (.inl ⟨t, rfl⟩)
    | map t => exact .inr (.inr ⟨t, rfl⟩)
    | _ => rw [hty] at this; cases this
  have hrd := read_null hty hrd hnull
  subst hrd
  rw [hval]
  unfold rememberNull
  have : s.nulls.any (fun n => n.1 == f.go && hasKey (M.map (memberOf T N)) n.2) = false := by
    rw [List.any_eq_false]
    intro x hx
    rw [Bool.and_eq_true, beq_iff_eq]
    rintro ⟨e, _⟩
    have := List.all_eq_true.1 hnulls x hx
    simp only [Bool.and_eq_true, List.contains_iff_mem] at this
    have heq : ∀ {l : List Field}, (l.map Field.go).Nodup → ∀ {a b : Field}, a ∈ l → b ∈ l → a.go = b.go → a = b := by
      intro l hnd
      induction l with
      | nil => intro a b ha; cases ha
      | cons y l ih =>
        simp only [List.map_cons, List.nodup_cons] at hnd
        intro a b ha hb e
        rcases List.mem_cons.1 ha with rfl | ha'
        · rcases List.mem_cons.1 hb with rfl | hb'
          · rfl
          · exact absurd (e ▸ List.mem_map_of_mem hb') hnd.1
        · rcases List.mem_cons.1 hb with rfl | hb'
          · exact absurd (e ▸ List.mem_map_of_mem ha') hnd.1
          · exact ih hnd.2 ha' hb' e
    have hfe := heq hgo this.2 hf e
    apply hno
    rw [← hfe]
    exact this.1
  simp only [this]
  rfl

/-- **C93.** A member of a 3.0 entity that may hold any value and is given as `null` is read as a pointer to nil (not as
a nil pointer) and written as `null`. -/
theorem C93_kept30 (N : Nums) (n go k : String) (h : (n, go, k) ∈ nullable30) (ms : List (String × Any))
    (hk : k ∈ ms.map Prod.fst) (hnull : OnlyNull ms k) (w : Val)
    (hd : decode V30.table N (.named n) (.obj ms) = some w) :
    ∃ s val, GoMap.get? V30.table n = some (.struct s) ∧ w = structOf s val ∧ val go = .any .null ∧
      ∀ j, encode V30.table (.named n) w = some j → HasPair j k .null :=
  null_kept ranked30 members30 nulls30 (by
    have : ∀ x ∈ nullable30, x.1 ∉ fragments30 := by decide
    exact this _ h) h hk hnull hd

/-- **C93.** The same for 3.1. -/
theorem C93_kept31 (N : Nums) (n go k : String) (h : (n, go, k) ∈ nullable31) (ms : List (String × Any))
    (hk : k ∈ ms.map Prod.fst) (hnull : OnlyNull ms k) (w : Val)
    (hd : decode V31.table N (.named n) (.obj ms) = some w) :
    ∃ s val, GoMap.get? V31.table n = some (.struct s) ∧ w = structOf s val ∧ val go = .any .null ∧
      ∀ j, encode V31.table (.named n) w = some j → HasPair j k .null :=
  null_kept ranked31 members31 nulls31 (by simp) h hk hnull hd

/-- **C93.** Any other member that is not required and is given as `null` is read as if it were absent: the field is
nil (and is not written again, by `C92_absent30`). -/
theorem C93_dropped30 (N : Nums) (n : String) (hn : n ∉ fragments30) (s : Struct)
    (hs : GoMap.get? V30.table n = some (.struct s)) (f : Field) (hf : f ∈ s.fields) (hr : f.key ∉ keysFor required30 n)
    (hno : (n, f.go, f.key) ∉ nullable30) (ms : List (String × Any)) (hnull : OnlyNull ms f.key) (w : Val)
    (hd : decode V30.table N (.named n) (.obj ms) = some w) : ∃ val, w = structOf s val ∧ val f.go = .nil :=
  null_dropped ranked30 members30 nulls30 hn hs hf hr hno hnull hd

/-- **C93.** The same for 3.1. -/
theorem C93_dropped31 (N : Nums) (n : String) (s : Struct)
    (hs : GoMap.get? V31.table n = some (.struct s)) (f : Field) (hf : f ∈ s.fields) (hr : f.key ∉ keysFor required31 n)
    (hno : (n, f.go, f.key) ∉ nullable31) (ms : List (String × Any)) (hnull : OnlyNull ms f.key) (w : Val)
    (hd : decode V31.table N (.named n) (.obj ms) = some w) : ∃ val, w = structOf s val ∧ val f.go = .nil :=
  null_dropped ranked31 members31 nulls31 (by simp) hs hf hr hno hnull hd

/-! ## Cases -/

/-- The hypotheses of `C92_written30` and `C92_absent30`: document information with an empty title and nothing else.
The title and the version are written, the description is not. -/
def emptyInfo : String → Val := fun go => if go = "Title" ∨ go = "Version" then .str "" else .nil

theorem emptyInfo_written : encode V30.table (.named "Info") (structOf V30.sInfo emptyInfo) =
    some (.obj [("title", .str ""), ("version", .str "")]) := by rfl

example : HasPair (.obj [("title", .str ""), ("version", .str "")]) "title" (.str "") := by
  obtain ⟨a, h, h'⟩ := C92_written30 "Info" (by decide) V30.sInfo (by kernel_rfl) emptyInfo _ emptyInfo_written
    ⟨"Title", "title", .str, false⟩ (by decide) (.inl (by decide))
  cases h
  exact h'

example : ¬HasMember (.obj [("title", .str ""), ("version", .str "")]) "description" :=
  C92_absent30 "Info" (by decide) V30.sInfo (by kernel_rfl) emptyInfo _ emptyInfo_written
    ⟨"Description", "description", .ptr .str, true⟩ (by decide) (by decide) rfl (by
      intro h hh a ha
      have : encode V30.table h.ty (emptyInfo h.go) = some .null := by
        have : ∀ h ∈ V30.sInfo.hidden, h = ⟨"MapOfAnything", .map .any⟩ := by decide
        rw [this h hh]
        rfl
      rw [this] at ha
      cases ha
      exact id)

/-- The hypotheses of `C93_kept30`: a schema whose default is `null`. -/
example : ∃ w, decode V30.table sampleNums (.named "Schema") (.obj [("default", .null), ("nullable", .bool true)]) = some w :=
  ⟨_, rfl⟩

/-- The hypotheses of `C93_dropped30`: a tag whose description is `null`. -/
example : ∃ w, decode V30.table sampleNums (.named "Tag") (.obj [("name", .str "t"), ("description", .null)]) = some w :=
  ⟨_, rfl⟩

end Verif
