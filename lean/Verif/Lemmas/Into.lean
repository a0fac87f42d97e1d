import Verif.Codec.Into
import Verif.Lemmas.Order
import Verif.Lemmas.Refs31
import Verif.Spec.Into

/-! Reading into a value: a new value, and the value that was read from the same file. -/

namespace Verif.Codec
open Spec

/-! ## The readers of parts -/

/-- A member with its reader. -/
def imemberOf (T : Table) (N : Nums) (p : String × Any) : IMember := ⟨p.1, p.2, fun ty cur => decodeInto T N ty cur p.2⟩

section
variable {T : Table} {N : Nums}

theorem iviewList_eq (xs : List Any) : iviewList T N xs = xs.map (fun x ty cur => decodeInto T N ty cur x) := by
  induction xs with
  | nil => simp [iviewList]
  | cons x xs ih => simp only [iviewList, List.map_cons, ih]; rfl

theorem iviewMembers_eq (ms : List (String × Any)) : iviewMembers T N ms = ms.map (imemberOf T N) := by
  induction ms with
  | nil => simp [iviewMembers]
  | cons x xs ih =>
    obtain ⟨k, x⟩ := x
    simp only [iviewMembers, List.map_cons, ih]; rfl

/-- The members of an object with their readers. -/
def anewOf (T : Table) (N : Nums) (p : String × Any) : Member := ⟨p.1, p.2, fun ty => decodeInto T N ty (zero T ty) p.2⟩

/-- The members of a value. -/
def membersIn : Any → List (String × Any)
  | .obj ms => ms
  | _ => []

theorem membersOf_eq (j : Any) : membersOf T N j = (membersIn j).map (memberOf T N) := by
  cases j <;> rfl

theorem iview_members (j : Any) : (iview T N j).members.map (IMember.anew T) = (membersIn j).map (anewOf T N) := by
  cases j <;> simp only [iview, IView.members, membersIn, List.map_nil, iviewMembers_eq, List.map_map] <;> rfl

/-! ## Maps -/

theorem setAll_nil (l : List (String × Val)) : setAll [] l = lastWins l := rfl

theorem setAll_mem : ∀ (l : List (String × Val)) (m : GoMap Val), (∀ p ∈ l, GoMap.get? m p.1 = some p.2) → setAll m l = m
  | [], _, _ => rfl
  | p :: l, m, h => by
    show setAll (GoMap.set m p.1 p.2) l = m
    rw [V31.set_self (h p List.mem_cons_self)]
    exact setAll_mem l m fun q hq => h q (List.mem_cons_of_mem _ hq)

theorem setAll_self {l : List (String × Val)} (h : (l.map Prod.fst).Nodup) : setAll l l = l :=
  setAll_mem l l fun _ hp => GoMap.get?_of_mem (m := l) h hp

theorem keys_set_mem {m : GoMap Val} {k : String} (v : Val) (h : k ∈ m.map Prod.fst) :
    (GoMap.set m k v).map Prod.fst = m.map Prod.fst := by
  induction m with
  | nil => cases h
  | cons p m ih =>
    obtain ⟨a, b⟩ := p
    simp only [GoMap.set]
    split
    · rename_i e; subst e; rfl
    · rename_i e
      simp only [List.map_cons, List.mem_cons] at h ⊢
      rcases h with rfl | h
      · exact absurd rfl e
      · rw [ih h]

theorem keys_setAll : ∀ (l : List (String × Val)) (m : GoMap Val), (∀ p ∈ l, p.1 ∈ m.map Prod.fst) →
    (setAll m l).map Prod.fst = m.map Prod.fst
  | [], _, _ => rfl
  | p :: l, m, h => by
    have h1 := keys_set_mem p.2 (h p List.mem_cons_self)
    show (setAll (GoMap.set m p.1 p.2) l).map Prod.fst = _
    rw [keys_setAll l _ fun q hq => by rw [h1]; exact h q (List.mem_cons_of_mem _ hq), h1]

theorem map_ext : ∀ {m m' : GoMap Val}, m.WF → m.map Prod.fst = m'.map Prod.fst →
    (∀ k, GoMap.get? m k = GoMap.get? m' k) → m = m'
  | [], [], _, _, _ => rfl
  | [], _ :: _, _, h, _ => by cases h
  | _ :: _, [], _, h, _ => by cases h
  | (a, b) :: m, (a', b') :: m', hw, h, hg => by
    simp only [List.map_cons, List.cons.injEq] at h
    obtain ⟨rfl, h⟩ := h
    have e := hg a
    simp only [GoMap.get?, if_true, Option.some.injEq] at e
    subst e
    have hw' : a ∉ m.map Prod.fst ∧ (m.map Prod.fst).Nodup := by
      unfold GoMap.WF GoMap.keys at hw
      simpa using hw
    congr 1
    refine map_ext (m := m) hw'.2 h fun k => ?_
    by_cases e : a = k
    · subst e
      have hn : ∀ {x : GoMap Val}, a ∉ x.map Prod.fst → GoMap.get? x a = none := by
        intro x hx
        cases hg : GoMap.get? x a with
        | none => rfl
        | some v => exact absurd (List.mem_map_of_mem (GoMap.mem_of_get? hg)) hx
      rw [hn hw'.1, hn (h ▸ hw'.1)]
    · have := hg k
      simpa only [GoMap.get?, if_neg e] using this

theorem setAll_append (m : GoMap Val) (l : List (String × Val)) (p : String × Val) :
    setAll m (l ++ [p]) = GoMap.set (setAll m l) p.1 p.2 := by
  simp [setAll, List.foldl_append]

theorem get?_setAll_last (m : GoMap Val) (l : List (String × Val)) (k : String) :
    GoMap.get? (setAll m l) k = ((l.reverse.find? (fun p => p.1 == k)).map Prod.snd).orElse (fun _ => GoMap.get? m k) := by
  have key : ∀ rs : List (String × Val), GoMap.get? (setAll m rs.reverse) k =
      ((rs.find? (fun p => p.1 == k)).map Prod.snd).orElse (fun _ => GoMap.get? m k) := by
    intro rs
    induction rs with
    | nil => rfl
    | cons p rs ih =>
      rw [List.reverse_cons, setAll_append, GoMap.get?_set, List.find?_cons]
      by_cases e : k = p.1
      · simp [e]
      · have e' : (p.1 == k) = false := by simpa using fun h => e h.symm
        rw [if_neg e, e', ih]
  have := key l.reverse
  rwa [List.reverse_reverse] at this

theorem setAll_lastWins (l : List (String × Val)) : setAll (lastWins l) l = lastWins l := by
  have hk : ∀ p ∈ l, p.1 ∈ (lastWins l).map Prod.fst := by
    intro p hp
    have : (GoMap.get? (lastWins l) p.1).isSome := by
      rw [lastWins_get?, Option.isSome_map, List.find?_isSome]
      exact ⟨p, List.mem_reverse.mpr hp, by simp⟩
    exact (GoMap.mem_keys_iff _ _).mpr this
  refine (map_ext (lastWins_wf l) (keys_setAll l _ hk).symm fun k => ?_).symm
  rw [get?_setAll_last, lastWins_get?]
  cases (l.reverse.find? (fun p => p.1 == k)).map Prod.snd <;> rfl

/-! ## What is left of an object -/

theorem rawMap_of {g : String × Any → Member} (hg : ∀ p, (g p).key = p.1) (ms : List (String × Any)) :
    rawMap (ms.map g) = (lastWins ms).map (fun p => (p.1, g p)) := by
  have e : (ms.map g).map (fun m => (m.key, m)) = (ms.map (fun p => (p.1, p))).map (fun p => (p.1, g p.2)) := by
    simp [hg, Function.comp_def]
  have e2 : lastWins (ms.map (fun p => (p.1, p))) = (lastWins ms).map (fun p => (p.1, p)) := by
    have hset : ∀ (m : GoMap Any) (k : String) (v : Any),
        GoMap.set (m.map (fun p => (p.1, p))) k (k, v) = (GoMap.set m k v).map (fun p => (p.1, p)) := by
      intro m k v
      induction m with
      | nil => rfl
      | cons p m ih =>
        obtain ⟨a, b⟩ := p
        simp only [List.map_cons, GoMap.set]
        split
        · rfl
        · simp only [List.map_cons, ih]
    have key : ∀ rs : List (String × Any), lastWins (rs.reverse.map (fun p => (p.1, p))) =
        (lastWins rs.reverse).map (fun p => (p.1, p)) := by
      intro rs
      induction rs with
      | nil => rfl
      | cons q rs ih =>
        rw [List.reverse_cons, lastWins_append, List.map_append, List.map_singleton, lastWins_append, ih]
        exact hset _ _ _
    have := key ms.reverse
    rwa [List.reverse_reverse] at this
  unfold rawMap
  rw [e, lastWins_map, e2, List.map_map]
  rfl

theorem hasKey_of {g g' : String × Any → Member} (hg : ∀ p, (g p).key = p.1) (hg' : ∀ p, (g' p).key = p.1)
    (ms : List (String × Any)) : hasKey (ms.map g) = hasKey (ms.map g') := by
  funext k
  simp only [hasKey, List.any_map, Function.comp_def, hg, hg']

theorem get?_map_pair {g : String × Any → Member} (m : GoMap Any) (k : String) :
    GoMap.get? (m.map (fun p => (p.1, g p))) k = (GoMap.get? m k).map (fun v => g (k, v)) := by
  induction m with
  | nil => rfl
  | cons p m ih =>
    obtain ⟨a, b⟩ := p
    simp only [List.map_cons, GoMap.get?]
    split
    · rename_i e; subst e; rfl
    · exact ih

theorem rawChecks_of {g g' : String × Any → Member} (hg : ∀ p, (g p).key = p.1) (hg' : ∀ p, (g' p).key = p.1)
    (hv : ∀ p, (g p).val = p.2) (hv' : ∀ p, (g' p).val = p.2)
    (s : Struct) (ms : List (String × Any)) (fv : List (String × Val)) :
    rawChecks s (ms.map g) fv = rawChecks s (ms.map g') fv := by
  have hc : ∀ c : String × Const, (match GoMap.get? (rawMap (ms.map g)) c.1 with
      | some m => c.2.is m.val
      | none => true) = (match GoMap.get? (rawMap (ms.map g')) c.1 with
      | some m => c.2.is m.val
      | none => true) := by
    intro c
    rw [rawMap_of hg, rawMap_of hg', get?_map_pair, get?_map_pair]
    cases GoMap.get? (lastWins ms) c.1 <;> simp [hv, hv']
  have hc' : ∀ c : String × Const, (match GoMap.get? (rawMap (ms.map g)) c.1 with
      | some m => !c.2.is m.val
      | none => true) = (match GoMap.get? (rawMap (ms.map g')) c.1 with
      | some m => !c.2.is m.val
      | none => true) := by
    intro c
    rw [rawMap_of hg, rawMap_of hg', get?_map_pair, get?_map_pair]
    cases GoMap.get? (lastWins ms) c.1 <;> simp [hv, hv']
  have hall : ∀ {α : Type} {l : List α} {p q : α → Bool}, (∀ x, p x = q x) → l.all p = l.all q := by
    intro α l p q h
    rw [funext h]
  have e1 := hall (l := s.consts) hc
  have e2 := hall (l := s.notConsts) hc'
  unfold rawChecks
  rw [hasKey_of hg hg']
  congr 1; congr 1; congr 1; congr 1

theorem rememberNull_of {g g' : String × Any → Member} (hg : ∀ p, (g p).key = p.1) (hg' : ∀ p, (g' p).key = p.1)
    (s : Struct) (ms : List (String × Any)) : rememberNull s (ms.map g) = rememberNull s (ms.map g') := by
  funext p
  unfold rememberNull
  rw [hasKey_of hg hg']

theorem restOf_of {g : String × Any → Member} (hg : ∀ p, (g p).key = p.1) (s : Struct) (ms : List (String × Any)) :
    restOf s (ms.map g) = ((lastWins ms).filter (fun p => !(s.known.contains p.1 || s.consts.any (fun c => c.1 == p.1) ||
      s.notConsts.any (fun c => c.1 == p.1)))).map (fun p => (p.1, g p)) := by
  unfold restOf
  rw [rawMap_of hg, List.filter_map]
  rfl

theorem decodeEntries_of {g g' : String × Any → Member} {t : Ty} {l : List (String × Any)}
    (h : ∀ p ∈ l, (g p).dec t = (g' p).dec t) :
    decodeEntries t (l.map (fun p => (p.1, g p))) = decodeEntries t (l.map (fun p => (p.1, g' p))) := by
  unfold decodeEntries
  rw [mapAll_map, mapAll_map]
  congr 1
  exact mapAll_congr fun p hp => by simp only [h p hp]

theorem decodeRest_of_dec {g g' : String × Any → Member} (hg : ∀ p, (g p).key = p.1) (hg' : ∀ p, (g' p).key = p.1)
    (s : Struct) (ms : List (String × Any))
    (hp : ∀ q ∈ s.patterns, ∀ p ∈ ms, q.pat.matches p.1 = true → (g p).dec q.ty = (g' p).dec q.ty)
    (ha : ∀ a, s.additional = some a → ∀ p ∈ ms, (∀ q ∈ s.patterns, q.pat.matches p.1 = false) →
      (g p).dec a.ty = (g' p).dec a.ty) :
    decodeRest s (ms.map g) = decodeRest s (ms.map g') := by
  unfold decodeRest
  rw [restOf_of hg, restOf_of hg']
  simp only [List.filter_map, Function.comp_def]
  have h1 : mapAll (fun q : PatField => (decodeEntries q.ty ((List.filter (fun p : String × Any => q.pat.matches p.1)
        ((lastWins ms).filter (fun p => !(s.known.contains p.1 || s.consts.any (fun c => c.1 == p.1) ||
          s.notConsts.any (fun c => c.1 == p.1))))).map (fun p => (p.1, g p)))).map (fun w => (q.go, w))) s.patterns =
      mapAll (fun q : PatField => (decodeEntries q.ty ((List.filter (fun p : String × Any => q.pat.matches p.1)
        ((lastWins ms).filter (fun p => !(s.known.contains p.1 || s.consts.any (fun c => c.1 == p.1) ||
          s.notConsts.any (fun c => c.1 == p.1))))).map (fun p => (p.1, g' p)))).map (fun w => (q.go, w))) s.patterns := by
    apply mapAll_congr
    intro q hq
    rw [decodeEntries_of]
    intro p hp'
    rw [List.mem_filter, List.mem_filter] at hp'
    exact hp q hq p (mem_lastWins hp'.1.1) hp'.2
  rw [h1]
  split
  · rfl
  · cases hs : s.additional with
    | none =>
      simp only [List.isEmpty_map]
    | some a =>
      simp only
      rw [decodeEntries_of]
      intro p hp'
      rw [List.mem_filter, List.mem_filter] at hp'
      refine ha a hs p (mem_lastWins hp'.1.1) fun q hq => ?_
      have := hp'.2
      simp only [Bool.not_eq_true', List.any_eq_false] at this
      simpa using this q hq

theorem madeMap_eq (es : List (String × Val)) : madeMap es = match es with
    | [] => .nil
    | es => .map es := by cases es <;> rfl

/-- The map fields that were read: nil, or a map without double keys. -/
theorem decodeRest_vals {g : String × Any → Member} {s : Struct} {ms : List (String × Any)}
    {r : List (String × Val)} (h : decodeRest s (ms.map g) = some r) :
    ∀ p ∈ r, p.2 = .nil ∨ ∃ es, p.2 = .map es ∧ (es.map Prod.fst).Nodup := by
  have key : ∀ (t : Ty) (l : List (String × Member)) (w : Val), (l.map Prod.fst).Nodup → decodeEntries t l = some w →
      w = .nil ∨ ∃ es, w = .map es ∧ (es.map Prod.fst).Nodup := by
    intro t l w hn h
    unfold decodeEntries at h
    rw [Option.map_eq_some_iff] at h
    obtain ⟨es, he, rfl⟩ := h
    have hk := mapAll_keys he
    cases es with
    | nil => exact .inl rfl
    | cons e es => exact .inr ⟨_, rfl, by rw [hk]; exact hn⟩
  have hrest : ∀ q : String × Member → Bool, (((restOf s (ms.map g)).filter q).map Prod.fst).Nodup := by
    intro q
    have h1 : ((restOf s (ms.map g)).map Prod.fst).Nodup := by
      unfold restOf
      have := lastWins_wf ((ms.map g).map (fun m => (m.key, m)))
      exact (List.filter_sublist.map Prod.fst).nodup this
    exact (List.filter_sublist.map Prod.fst).nodup h1
  unfold decodeRest at h
  simp only at h
  split at h
  · cases h
  · rename_i pvals hp
    have hpv : ∀ p ∈ pvals, p.2 = .nil ∨ ∃ es, p.2 = .map es ∧ (es.map Prod.fst).Nodup := by
      intro p hpm
      obtain ⟨q, _, e⟩ := mapAll_eq_some hp p hpm
      rw [Option.map_eq_some_iff] at e
      obtain ⟨w, hw, rfl⟩ := e
      exact key _ _ _ (hrest _) hw
    split at h
    · rw [Option.map_eq_some_iff] at h
      obtain ⟨w, hw, rfl⟩ := h
      intro p hpm
      rw [List.mem_append, List.mem_singleton] at hpm
      rcases hpm with hpm | rfl
      · exact hpv p hpm
      · exact key _ _ _ (hrest _) hw
    · split at h
      · cases h
      · cases h
        exact hpv


/-! ## Structs -/

/-- What the descriptions of both packages satisfy: the Go names of a struct are distinct, and so are its JSON names;
remembered nulls belong to fields of type `*interface{}`; alternatives are pointers. -/
def intoOk (s : Struct) : Bool :=
  decide s.names.Nodup && decide ((s.fields.map Field.key).Nodup) && (s.nulls.isEmpty || s.decodes) &&
  s.nulls.all (fun q => s.fields.all (fun f => f.go != q.1 || (f.key == q.2 && f.ty == .ptr .any))) &&
  s.oneOf.all (fun e => match e.ty with
    | .ptr _ => true
    | _ => false)

/-- For all structs of a table. -/
def IntoOk (T : Table) : Prop := ∀ n s, GoMap.get? T n = some (.struct s) → intoOk s = true

theorem intoOk_of_check {T : Table} (h : T.all (fun p => match p.2 with
    | .struct s => intoOk s
    | .enum _ => true) = true) : IntoOk T := by
  intro n s hs
  have := List.all_eq_true.mp h _ (get?_mem hs)
  exact this

theorem intoOk_names {s : Struct} (h : intoOk s = true) : s.names.Nodup := by
  simp only [intoOk, Bool.and_eq_true, decide_eq_true_eq] at h
  exact h.1.1.1.1

theorem intoOk_keys {s : Struct} (h : intoOk s = true) : (s.fields.map Field.key).Nodup := by
  simp only [intoOk, Bool.and_eq_true, decide_eq_true_eq] at h
  exact h.1.1.1.2

theorem intoOk_decodes {s : Struct} (h : intoOk s = true) (hd : s.decodes = false) : s.nulls = [] := by
  simp only [intoOk, Bool.and_eq_true, decide_eq_true_eq, Bool.or_eq_true, List.isEmpty_iff, hd] at h
  rcases h.1.1.2 with e | e
  · exact e
  · cases e

theorem intoOk_nulls {s : Struct} (h : intoOk s = true) {q : String × String} (hq : q ∈ s.nulls) {f : Field}
    (hf : f ∈ s.fields) (e : q.1 = f.go) : f.key = q.2 ∧ f.ty = .ptr .any := by
  simp only [intoOk, Bool.and_eq_true, List.all_eq_true] at h
  have := h.1.2 q hq f hf
  simpa [e] using this

theorem intoOk_oneOf {s : Struct} (h : intoOk s = true) {e : Hidden} (he : e ∈ s.oneOf) : zero T e.ty = .nil := by
  simp only [intoOk, Bool.and_eq_true, List.all_eq_true] at h
  have := h.2 e he
  cases ht : e.ty <;> rw [ht] at this <;> first | rfl | cases this

theorem fields_go {s : Struct} (h : s.names.Nodup) {f g : Field} (hf : f ∈ s.fields) (hg : g ∈ s.fields)
    (e : f.go = g.go) : f = g := by
  have h1 : (s.fields.map Field.go).Nodup := by
    unfold Struct.names at h
    simp only [List.append_assoc] at h
    exact (List.nodup_append.mp h).1
  generalize s.fields = l at h1 hf hg
  induction l with
  | nil => cases hf
  | cons x l ih =>
    simp only [List.map_cons, List.nodup_cons] at h1
    rcases List.mem_cons.mp hf with e1 | hf <;> rcases List.mem_cons.mp hg with e2 | hg
    · rw [e1, e2]
    · exact absurd (List.mem_map.mpr ⟨g, hg, by rw [← e, e1]⟩) h1.1
    · exact absurd (List.mem_map.mpr ⟨f, hf, by rw [e, e2]⟩) h1.1
    · exact ih h1.2 hf hg

theorem fieldOf_key {fs : List Field} (h : (fs.map Field.key).Nodup) {f : Field} (hf : f ∈ fs) :
    fieldOf fs f.key = some f := by
  have : fs.find? (fun g => g.key == f.key) = some f := by
    induction fs with
    | nil => cases hf
    | cons x l ih =>
      simp only [List.map_cons, List.nodup_cons] at h
      rw [List.find?_cons]
      rcases List.mem_cons.mp hf with rfl | hf
      · simp
      · split
        · rename_i e
          rw [beq_iff_eq] at e
          exact absurd (List.mem_map.mpr ⟨f, hf, e.symm⟩) h.1
        · exact ih h.2 hf
  unfold fieldOf
  rw [this]

/-- The field holds its zero value, or what was read from the value before. -/
def FieldFact (T : Table) (N : Nums) (s : Struct) (j : Any) (f : Field) (c : Val) : Prop :=
  c = zero T f.ty ∨ ∃ fvals w, decodeFields T s (view T N j) = some fvals ∧ (f.go, w) ∈ fvals ∧
    c = (rememberNull s (membersOf T N j) (f.go, w)).2

theorem held_struct {s : Struct} (hok : intoOk s = true) {j : Any} {sub : Ty → Option Val} {cur : Val}
    (hcur : cur = .struct [] ∨ decodeStruct T s sub (view T N j) = some cur) :
    (∀ f ∈ s.fields, FieldFact T N s j f (held cur f.go (zero T f.ty))) ∧
    (∀ e ∈ s.embeds ++ s.oneOf, held cur e.go (zero T e.ty) = zero T e.ty ∨
      sub e.ty = some (held cur e.go (zero T e.ty))) ∧
    (∀ rvals, decodeRest s (membersOf T N j) = some rvals → ∀ p ∈ rvals,
      held cur p.1 .nil = .nil ∨ held cur p.1 .nil = p.2) := by
  rcases hcur with rfl | h
  · exact ⟨fun f _ => .inl rfl, fun e _ => .inl rfl, fun _ _ p _ => .inl rfl⟩
  · unfold decodeStruct at h
    split at h
    · cases h
    · split at h
      · cases h
      · rename_i fvals h1
        split at h
        · cases h
        · rename_i evals h2
          split at h
          · cases h
          · rename_i ovals h3
            split at h
            · split at h
              · cases h
              · rename_i rvals h5
                rw [view_members] at h h5
                cases h
                have hnames : ((fvals.map (rememberNull s (membersOf T N j)) ++ evals ++ ovals ++ rvals).map
                    Prod.fst) = s.names := by
                  obtain ⟨pvals, avals, rfl, hp, ha⟩ := decodeRest_patterns h5
                  have e : (fvals.map (rememberNull s (membersOf T N j))).map Prod.fst = fvals.map Prod.fst := by
                    simp [Function.comp_def, rememberNull_fst]
                  simp only [List.map_append, Struct.names, e, decodeFields_names h1, decodeEmbeds_names h2,
                    decodeOneOf_names h3, patterns_names hp, ha, List.append_assoc]
                have hget : ∀ k v d, (k, v) ∈ fvals.map (rememberNull s (membersOf T N j)) ++ evals ++ ovals ++ rvals →
                    held (.struct (fvals.map (rememberNull s (membersOf T N j)) ++ evals ++ ovals ++ rvals)) k d = v := by
                  intro k v d hm
                  unfold held
                  simp only
                  have hw : GoMap.WF (fvals.map (rememberNull s (membersOf T N j)) ++ evals ++ ovals ++ rvals) := by
                    unfold GoMap.WF GoMap.keys
                    rw [hnames]
                    exact intoOk_names hok
                  rw [GoMap.get?_of_mem hw hm]
                  rfl
                refine ⟨fun f hf => ?_, fun e he => ?_, fun rv hr p hp => ?_⟩
                · have : f.go ∈ fvals.map Prod.fst := by
                    rw [decodeFields_names h1]; exact List.mem_map_of_mem hf
                  obtain ⟨⟨k, w⟩, hw, hk⟩ := List.mem_map.mp this
                  simp only at hk
                  subst hk
                  refine .inr ⟨fvals, w, h1, hw, ?_⟩
                  · apply hget
                    have : rememberNull s (membersOf T N j) (f.go, w) ∈
                        fvals.map (rememberNull s (membersOf T N j)) := by
                      exact List.mem_map_of_mem hw
                    have e : (f.go, (rememberNull s (membersOf T N j) (f.go, w)).2) =
                        rememberNull s (membersOf T N j) (f.go, w) := by
                      apply Prod.ext
                      · exact (rememberNull_fst (p := (f.go, w))).symm
                      · rfl
                    rw [e]
                    simp only [List.append_assoc]
                    exact List.mem_append_left _ this
                · rcases List.mem_append.mp he with he | he
                  · obtain ⟨y, hy, e1⟩ := mapAll_mem h2 e he
                    rw [Option.map_eq_some_iff] at e1
                    obtain ⟨w, hw, rfl⟩ := e1
                    right
                    rw [hget e.go w]
                    · exact hw
                    · simp [hy]
                  · unfold decodeOneOf at h3
                    split at h3
                    · rename_i e0; rw [e0] at he; cases he
                    · split at h3
                      · cases h3
                        have : held (.struct (fvals.map (rememberNull s (membersOf T N j)) ++ evals ++
                            s.oneOf.map (fun e => (e.go, (sub e.ty).getD .nil)) ++ rvals)) e.go (zero T e.ty) =
                            (sub e.ty).getD .nil := by
                          apply hget
                          simp only [List.append_assoc]
                          refine List.mem_append_right _ (List.mem_append_right _ (List.mem_append_left _ ?_))
                          exact List.mem_map.mpr ⟨e, he, rfl⟩
                        rw [this]
                        cases hs : sub e.ty with
                        | none => exact .inl (intoOk_oneOf hok he).symm
                        | some w => exact .inr rfl
                      · cases h3
                · rw [h5] at hr
                  cases hr
                  right
                  apply hget
                  simp [hp]
            · cases h


theorem intoField_skip {chosen : String → Bool} {t : Ty} {c : Val} : ∀ {l : List (String × Any)},
    (∀ p ∈ l, chosen p.1 = false) → intoField chosen t c (l.map (imemberOf T N)) = some c
  | [], _ => rfl
  | p :: l, h => by
    have h1 := h p List.mem_cons_self
    simp only [List.map_cons, intoField]
    rw [show chosen (imemberOf T N p).key = false from h1]
    exact intoField_skip fun q hq => h q (List.mem_cons_of_mem _ hq)

theorem fieldVal_skip {chosen : String → Bool} {t : Ty} {c : Val} : ∀ {l : List (String × Any)},
    (∀ p ∈ l, chosen p.1 = false) → fieldVal chosen t c (l.map (memberOf T N)) = some c
  | [], _ => rfl
  | p :: l, h => by
    have h1 := h p List.mem_cons_self
    simp only [List.map_cons, fieldVal]
    rw [show chosen (memberOf T N p).key = false from h1]
    exact fieldVal_skip fun q hq => h q (List.mem_cons_of_mem _ hq)

theorem fieldVal_all {chosen : String → Bool} {t : Ty} {d : Option Val} : ∀ {l : List (String × Any)} {c : Val},
    (∀ p ∈ l, chosen p.1 = true → decode T N t p.2 = d) → ((∃ p ∈ l, chosen p.1 = true) ∨ some c = d) →
    fieldVal chosen t c (l.map (memberOf T N)) = d
  | [], c, _, hex => by
    rcases hex with ⟨_, h, _⟩ | e
    · cases h
    · exact e
  | q :: l, c, h, hex => by
    have h2 : ∀ p ∈ l, chosen p.1 = true → decode T N t p.2 = d := fun p hp => h p (List.mem_cons_of_mem _ hp)
    simp only [List.map_cons, fieldVal]
    show (if chosen q.1 = true then (match decode T N t q.2 with
        | some w => fieldVal chosen t w (l.map (memberOf T N))
        | none => none) else fieldVal chosen t c (l.map (memberOf T N))) = d
    cases hc : chosen q.1 with
    | true =>
      simp only [if_true]
      rw [h q List.mem_cons_self hc]
      cases d with
      | none => rfl
      | some w => exact fieldVal_all h2 (.inr rfl)
    | false =>
      refine fieldVal_all h2 ?_
      rcases hex with ⟨p, hp, hcp⟩ | e
      · rcases List.mem_cons.mp hp with rfl | hp
        · rw [hc] at hcp; cases hcp
        · exact .inl ⟨p, hp, hcp⟩
      · exact .inr e

theorem intoField_all {chosen : String → Bool} {t : Ty} {d : Option Val} {c₀ : Val} : ∀ {l : List (String × Any)} {c : Val},
    (∀ p ∈ l, chosen p.1 = true → ∀ c, c = c₀ ∨ some c = d → decodeInto T N t c p.2 = d) →
    (c = c₀ ∧ (∃ p ∈ l, chosen p.1 = true) ∨ some c = d) → intoField chosen t c (l.map (imemberOf T N)) = d
  | [], c, _, hex => by
    rcases hex with ⟨_, _, h, _⟩ | e
    · cases h
    · exact e
  | q :: l, c, h, hex => by
    have h2 : ∀ p ∈ l, chosen p.1 = true → ∀ c, c = c₀ ∨ some c = d → decodeInto T N t c p.2 = d :=
      fun p hp => h p (List.mem_cons_of_mem _ hp)
    have hcc : c = c₀ ∨ some c = d := by
      rcases hex with h | h
      · exact .inl h.1
      · exact .inr h
    simp only [List.map_cons, intoField]
    show (if chosen q.1 = true then (match decodeInto T N t c q.2 with
        | some w => intoField chosen t w (l.map (imemberOf T N))
        | none => none) else intoField chosen t c (l.map (imemberOf T N))) = d
    cases hc : chosen q.1 with
    | true =>
      simp only [if_true]
      rw [h q List.mem_cons_self hc c hcc]
      cases d with
      | none => rfl
      | some w => exact intoField_all h2 (.inr rfl)
    | false =>
      refine intoField_all h2 ?_
      rcases hex with ⟨e, p, hp, hcp⟩ | e
      · rcases List.mem_cons.mp hp with rfl | hp
        · rw [hc] at hcp; cases hcp
        · exact .inl ⟨e, p, hp, hcp⟩
      · exact .inr e

theorem intoField_fails {chosen : String → Bool} {t : Ty} : ∀ {l : List (String × Any)} {c : Val},
    (∃ p ∈ l, chosen p.1 = true ∧ ∀ c, decodeInto T N t c p.2 = none) →
    intoField chosen t c (l.map (imemberOf T N)) = none
  | [], _, h => by obtain ⟨_, h, _⟩ := h; cases h
  | q :: l, c, ⟨p, hp, hc, hn⟩ => by
    simp only [List.map_cons, intoField]
    rcases List.mem_cons.mp hp with rfl | hp
    · rw [show chosen (imemberOf T N p).key = true from hc]
      simp only [if_true]
      rw [show (imemberOf T N p).into t c = none from hn c]
    · split
      · split
        · exact intoField_fails ⟨p, hp, hc, hn⟩
        · rfl
      · exact intoField_fails ⟨p, hp, hc, hn⟩

theorem fieldVal_fails {chosen : String → Bool} {t : Ty} : ∀ {l : List (String × Any)} {c : Val},
    (∃ p ∈ l, chosen p.1 = true ∧ decode T N t p.2 = none) →
    fieldVal chosen t c (l.map (memberOf T N)) = none
  | [], _, h => by obtain ⟨_, h, _⟩ := h; cases h
  | q :: l, c, ⟨p, hp, hc, hn⟩ => by
    simp only [List.map_cons, fieldVal]
    rcases List.mem_cons.mp hp with rfl | hp
    · rw [show chosen (memberOf T N p).key = true from hc]
      simp only [if_true]
      rw [show (memberOf T N p).dec t = none from hn]
    · split
      · split
        · exact fieldVal_fails ⟨p, hp, hc, hn⟩
        · rfl
      · exact fieldVal_fails ⟨p, hp, hc, hn⟩

theorem text_obj_fails {t : Ty} (ht : t = .str ∨ t = .ptr .str) {os : List (String × Any)} :
    decode T N t (.obj os) = none ∧ ∀ c, decodeInto T N t c (.obj os) = none := by
  rcases ht with rfl | rfl
  · exact ⟨by simp only [decode_str], fun c => by simp only [decodeInto, maxRank, intoView, iview]⟩
  · refine ⟨?_, fun c => by simp only [decodeInto, maxRank, intoView, iview]⟩
    simp only [decode, maxRank, decodeView, view]

theorem ptr_any_null {x : Any} (h : decode T N (.ptr .any) x = some .nil) (c : Val) :
    decodeInto T N (.ptr .any) c x = some .nil := by
  cases x with
  | null => rfl
  | _ =>
    exfalso
    simp only [decode, maxRank, decodeView, view, Option.map_eq_some_iff] at h
    obtain ⟨_, _, e⟩ := h
    cases e

theorem intoFields_eq {s : Struct} (hok : intoOk s = true) {j : Any} {cur : Val}
    (hfact : ∀ f ∈ s.fields, FieldFact T N s j f (held cur f.go (zero T f.ty)))
    (halike : ∀ ms, j = .obj ms → AlikeEach T N s.fields ms)
    (hmem : ∀ k x f, (k, x) ∈ membersIn j → fieldOf s.fields k = some f → ∀ c,
      c = zero T f.ty ∨ decode T N f.ty x = some c → decodeInto T N f.ty c x = decode T N f.ty x) :
    intoFields T s cur (iview T N j) = decodeFields T s (view T N j) := by
  have hzero : ∀ (hz : decodeFields T s (view T N j) = some (s.fields.map (fun f => (f.go, zero T f.ty))))
      (hr : ∀ p, rememberNull s (membersOf T N j) p = p), ∀ f ∈ s.fields, held cur f.go (zero T f.ty) = zero T f.ty := by
    intro hz hr f hf
    rcases hfact f hf with e | ⟨fvals, w, h1, h2, h3⟩
    · exact e
    · rw [hz] at h1
      cases h1
      obtain ⟨g, hg, e⟩ := List.mem_map.mp h2
      rw [Prod.mk.injEq] at e
      have := fields_go (intoOk_names hok) hg hf e.1
      subst this
      rw [h3, hr, ← e.2]
  cases hdec : s.decodes with
  | false =>
    have hz : decodeFields T s (view T N j) = some (s.fields.map (fun f => (f.go, zero T f.ty))) := by
      unfold decodeFields; rw [hdec]
    have hr : ∀ p, rememberNull s (membersOf T N j) p = p := by
      intro p
      unfold rememberNull
      rw [intoOk_decodes hok hdec]
      split <;> rfl
    rw [hz]
    unfold intoFields
    rw [hdec]
    simp only [Option.some.injEq]
    exact List.map_congr_left fun f hf => by rw [hzero hz hr f hf]
  | true =>
    cases j with
    | null =>
      have hz : decodeFields T s (view T N .null) = some (s.fields.map (fun f => (f.go, zero T f.ty))) := by
        unfold decodeFields; rw [hdec]; rfl
      have hr : ∀ p, rememberNull s (membersOf T N .null) p = p := by
        intro p
        unfold rememberNull
        split
        · rw [if_neg]
          simp [hasKey, membersOf]
        · rfl
      rw [hz]
      unfold intoFields
      rw [hdec]
      simp only [iview, Option.some.injEq]
      exact List.map_congr_left fun f hf => by rw [hzero hz hr f hf]
    | obj ms =>
      have halike := halike ms rfl
      have hdf : decodeFields T s (view T N (.obj ms)) =
          mapAll (fun f => (fieldVal (fun k => fieldOf s.fields k == some f) f.ty (zero T f.ty)
            (ms.map (memberOf T N))).map (fun w => (f.go, w))) s.fields := by
        unfold decodeFields; rw [hdec]; simp only [view, viewMembers_eq]
      rw [hdf]
      unfold intoFields
      rw [hdec]
      simp only [iview, iviewMembers_eq]
      apply mapAll_congr
      intro f hf
      congr 1
      generalize hch : (fun k => fieldOf s.fields k == some f) = chosen
      have hch' : ∀ k, chosen k = true ↔ fieldOf s.fields k = some f := by
        intro k; rw [← hch]; simp
      have hfact' : held cur f.go (zero T f.ty) = zero T f.ty ∨ ∃ w, fieldVal chosen f.ty (zero T f.ty)
          (ms.map (memberOf T N)) = some w ∧
          held cur f.go (zero T f.ty) = (rememberNull s (membersOf T N (.obj ms)) (f.go, w)).2 := by
        rcases hfact f hf with e | ⟨fvals, w, h1, h2, h3⟩
        · exact .inl e
        · rw [hdf] at h1
          obtain ⟨g, hg, e⟩ := mapAll_eq_some h1 _ h2
          rw [Option.map_eq_some_iff] at e
          obtain ⟨w', hw, e⟩ := e
          rw [Prod.mk.injEq] at e
          have := fields_go (intoOk_names hok) hg hf e.1
          subst this
          rw [e.2] at hw
          rw [hch] at hw
          exact .inr ⟨w, hw, h3⟩
      generalize held cur f.go (zero T f.ty) = c at hfact'
      by_cases hex : ∃ p ∈ ms, chosen p.1 = true
      · obtain ⟨⟨k, x⟩, hp, hc⟩ := hex
        by_cases hbad : (f.ty = .str ∨ f.ty = .ptr .str) ∧ ∃ p ∈ ms, chosen p.1 = true ∧ ∃ os, p.2 = .obj os
        · obtain ⟨ht, p, hp', hcp, os, ho⟩ := hbad
          have hfail := text_obj_fails (T := T) (N := N) ht (os := os)
          rw [← ho] at hfail
          rw [intoField_fails ⟨p, hp', hcp, hfail.2⟩, fieldVal_fails ⟨p, hp', hcp, hfail.1⟩]
        · have hall : ∀ q ∈ ms, chosen q.1 = true → decode T N f.ty q.2 = decode T N f.ty x := by
            intro q hq hcq
            rcases halike q.1 q.2 k x f hq hp ((hch' _).mp hcq) ((hch' _).mp hc) with e | ⟨ht, ho⟩
            · exact e
            · exact absurd ⟨ht, q, hq, hcq, ho⟩ hbad
          rw [fieldVal_all hall (.inl ⟨(k, x), hp, hc⟩)] at hfact' ⊢
          apply intoField_all (c₀ := c) _ (.inl ⟨rfl, (k, x), hp, hc⟩)
          intro q hq hcq c' hc'
          have hqx := hall q hq hcq
          have hfield := (hch' _).mp hcq
          rw [← hqx] at hc' hfact' ⊢
          rcases hc' with rfl | e
          · rcases hfact' with e | ⟨w, hw, e⟩
            · exact hmem q.1 q.2 f hq hfield _ (.inl e)
            · unfold rememberNull at e
              split at e
              · rename_i hnil
                simp only at hnil
                subst hnil
                split at e
                · rename_i hany
                  obtain ⟨q', hq', hb⟩ := List.any_eq_true.mp hany
                  simp only [Bool.and_eq_true, beq_iff_eq] at hb
                  have ht := (intoOk_nulls hok hq' hf hb.1).2
                  rw [ht] at hw ⊢
                  rw [hw]
                  exact ptr_any_null hw _
                · exact hmem q.1 q.2 f hq hfield _ (.inr (by rw [e]; exact hw))
              · exact hmem q.1 q.2 f hq hfield _ (.inr (by rw [e]; exact hw))
          · exact hmem q.1 q.2 f hq hfield _ (.inr e.symm)
      · have hno : ∀ p ∈ ms, chosen p.1 = false := by
          intro p hp
          cases hc : chosen p.1 with
          | false => rfl
          | true => exact absurd ⟨p, hp, hc⟩ hex
        rw [intoField_skip hno, fieldVal_skip hno]
        rw [fieldVal_skip hno] at hfact'
        rcases hfact' with e | ⟨w, hw, e⟩
        · rw [e]
        · cases hw
          rw [e]
          unfold rememberNull
          split
          · rename_i hnil
            simp only at hnil
            rw [if_neg]
            intro hany
            obtain ⟨q, hq, hb⟩ := List.any_eq_true.mp hany
            simp only [Bool.and_eq_true, beq_iff_eq] at hb
            have hk := (intoOk_nulls hok hq hf hb.1).1
            have hkey := hb.2
            unfold membersOf at hkey
            rw [hasKey_obj] at hkey
            obtain ⟨p, hp, e⟩ := List.mem_map.mp hkey
            have := hno p hp
            rw [e, ← hk, (hch' f.key).mpr (fieldOf_key (intoOk_keys hok) hf)] at this
            cases this
          · rfl
    | bool b => unfold intoFields decodeFields; rw [hdec]; rfl
    | num b => unfold intoFields decodeFields; rw [hdec]; rfl
    | str b => unfold intoFields decodeFields; rw [hdec]; rfl
    | arr b => unfold intoFields decodeFields; rw [hdec]; rfl


theorem intoStruct_eq {s : Struct} (hok : intoOk s = true) {j : Any} {cur : Val} {isub : Ty → Val → Option Val}
    {sub : Ty → Option Val}
    (hcur : cur = .struct [] ∨ decodeStruct T s sub (view T N j) = some cur)
    (hsub : ∀ t, (t ∈ s.nots ∨ ∃ e ∈ s.embeds ++ s.oneOf, e.ty = t) → ∀ c, c = zero T t ∨ sub t = some c →
      isub t c = sub t)
    (halike : ∀ ms, j = .obj ms → AlikeEach T N s.fields ms)
    (hmem : ∀ k x t, (k, x) ∈ membersIn j → ((∃ f, fieldOf s.fields k = some f ∧ f.ty = t) ∨
      (∃ q ∈ s.patterns, q.pat.matches k = true ∧ q.ty = t) ∨
      ∃ a, s.additional = some a ∧ (∀ q ∈ s.patterns, q.pat.matches k = false) ∧ a.ty = t) → ∀ c,
      c = zero T t ∨ decode T N t x = some c → decodeInto T N t c x = decode T N t x) :
    intoStruct T s isub cur (iview T N j) = decodeStruct T s sub (view T N j) := by
  obtain ⟨hF, hE, hR⟩ := held_struct hok hcur
  have e1 : s.nots.any (fun t => (isub t (zero T t)).isSome) = s.nots.any (fun t => (sub t).isSome) := by
    rw [Bool.eq_iff_iff]
    simp only [List.any_eq_true]
    constructor
    · rintro ⟨x, hx, h⟩; exact ⟨x, hx, by rw [← hsub x (.inl hx) _ (.inl rfl)]; exact h⟩
    · rintro ⟨x, hx, h⟩; exact ⟨x, hx, by rw [hsub x (.inl hx) _ (.inl rfl)]; exact h⟩
  have e2 : intoFields T s cur (iview T N j) = decodeFields T s (view T N j) :=
    intoFields_eq hok hF halike fun k x f hk hf => hmem k x f.ty hk (.inl ⟨f, hf, rfl⟩)
  have e3 : mapAll (fun e : Hidden => (isub e.ty (held cur e.go (zero T e.ty))).map (fun w => (e.go, w))) s.embeds =
      decodeEmbeds sub s.embeds := by
    unfold decodeEmbeds
    apply mapAll_congr
    intro e he
    have he' : e ∈ s.embeds ++ s.oneOf := List.mem_append_left _ he
    rw [hsub e.ty (.inr ⟨e, he', rfl⟩) _ (hE e he')]
  have e4 : s.oneOf.map (fun e => (e.go, isub e.ty (held cur e.go (zero T e.ty)))) =
      s.oneOf.map (fun e => (e.go, sub e.ty)) := by
    apply List.map_congr_left
    intro e he
    have he' : e ∈ s.embeds ++ s.oneOf := List.mem_append_right _ he
    rw [hsub e.ty (.inr ⟨e, he', rfl⟩) _ (hE e he')]
  have e5 : decodeRest s ((membersIn j).map (anewOf T N)) = decodeRest s ((membersIn j).map (memberOf T N)) := by
    apply decodeRest_of_dec (fun _ => rfl) (fun _ => rfl)
    · intro q hq p hp hm
      exact hmem p.1 p.2 q.ty hp (.inr (.inl ⟨q, hq, hm, rfl⟩)) _ (.inl rfl)
    · intro a ha p hp hm
      exact hmem p.1 p.2 a.ty hp (.inr (.inr ⟨a, ha, hm, rfl⟩)) _ (.inl rfl)
  unfold intoStruct decodeStruct
  rw [iview_members, view_members, membersOf_eq, e1, e2, e3, e4]
  simp only
  rw [e5, rememberNull_of (g := anewOf T N) (g' := memberOf T N) (fun _ => rfl) (fun _ => rfl)]
  split
  · rfl
  · cases h1 : decodeFields T s (view T N j) with
    | none => rfl
    | some fvals =>
      simp only
      cases h2 : decodeEmbeds sub s.embeds with
      | none => rfl
      | some evals =>
        simp only
        have hlen : (List.filter (fun a : String × Option Val => a.2.isSome)
            (s.oneOf.map (fun e => (e.go, sub e.ty)))).length =
            (s.oneOf.filter (fun e => (sub e.ty).isSome)).length := by
          rw [List.filter_map, List.length_map]; rfl
        rw [hlen, List.map_map]
        rw [rawChecks_of (g := anewOf T N) (g' := memberOf T N) (fun _ => rfl) (fun _ => rfl) (fun _ => rfl) (fun _ => rfl)]
        have hrest : ∀ rvals, decodeRest s ((membersIn j).map (memberOf T N)) = some rvals →
            rvals.map (fun p => (p.1, addTo (held cur p.1 .nil) p.2)) = rvals := by
          intro rvals hr
          have hv := decodeRest_vals hr
          have hh := hR rvals (by rw [membersOf_eq]; exact hr)
          rw [show rvals = rvals.map id from (List.map_id rvals).symm]
          rw [List.map_map]
          apply List.map_congr_left
          intro p hp
          obtain ⟨k, v⟩ := p
          have hv := hv _ hp
          have hh := hh _ hp
          simp only [Function.comp, id, Prod.mk.injEq, true_and]
          simp only at hv hh
          rcases hv with rfl | ⟨es, rfl, hes⟩
          · rcases hh with e | e <;> rw [e] <;> rfl
          · rcases hh with e | e <;> rw [e]
            · show Val.map (setAll [] es) = _
              rw [setAll_nil, lastWins_nodup hes]
            · show Val.map (setAll es es) = _
              rw [setAll_self hes]
        unfold decodeOneOf
        by_cases ho : s.oneOf = []
        · simp only [ho, ne_eq, not_true_eq_false, false_and, if_false, if_true, List.map_nil, List.append_nil]
          split
          · split
            · rename_i h; simp only [h]
            · rename_i rvals h
              simp only [h, hrest _ h]
          · rfl
        · by_cases hl : (s.oneOf.filter (fun e => (sub e.ty).isSome)).length = 1
          · simp only [ho, hl, ne_eq, not_true_eq_false, and_false, if_false, if_true]
            split
            · split
              · rename_i h; simp only [h]
              · rename_i rvals h
                simp only [h, hrest _ h]
                rfl
            · rfl
          · simp only [ho, hl, ne_eq, not_false_eq_true, and_self, if_true, if_false]

theorem intoItems_eq {t : Ty} : ∀ (xs : List Any) (vs : List Val),
    (∀ x ∈ xs, ∀ c, c = zero T t ∨ decode T N t x = some c → decodeInto T N t c x = decode T N t x) →
    (vs = [] ∨ mapAll (decode T N t) xs = some vs) →
    intoItems T t (xs.map (fun x ty cur => decodeInto T N ty cur x)) vs = mapAll (decode T N t) xs
  | [], vs, _, h => rfl
  | x :: xs, vs, hx, h => by
    have h1 := hx x List.mem_cons_self
    have h2 : ∀ y ∈ xs, _ := fun y hy => hx y (List.mem_cons_of_mem _ hy)
    rcases h with rfl | h
    · simp only [List.map_cons, intoItems, mapAll, List.headD_nil, List.tail_nil]
      rw [h1 _ (.inl rfl), intoItems_eq xs [] h2 (.inl rfl)]
      cases decode T N t x <;> cases mapAll (decode T N t) xs <;> rfl
    · simp only [mapAll] at h
      split at h
      · rename_i y ys hy hys
        cases h
        simp only [List.map_cons, intoItems, mapAll, List.headD_cons, List.tail_cons]
        rw [h1 _ (.inr hy), intoItems_eq xs ys h2 (.inr hys)]
        rw [hy, hys]
      · cases h

theorem readsAlike_part {ty ty' : Ty} {j j' : Any} (h : ReadsAlike T N ty j)
    (hr : ∀ {t : Ty} {x : Any}, ReadAs T ty' j' t x → ReadAs T ty j t x) : ReadsAlike T N ty' j' :=
  fun n s ms hx => h n s ms (hr hx)

/-- Reading into a new value, or again into the value that was read, is reading. -/
theorem into_eq (hT : IntoOk T) : ∀ (n : Nat) (j : Any), sizeOf j ≤ n → ∀ (r : Nat) (ty : Ty) (cur : Val),
    ReadsAlike T N ty j → (cur = zero T ty ∨ decodeView T N j (view T N j) r ty = some cur) →
    intoView T N j (iview T N j) r ty cur = decodeView T N j (view T N j) r ty := by
  intro n
  induction n with
  | zero => intro j hn; cases j <;> simp at hn
  | succ n ihn =>
    intro j hn r
    have hparts : ∀ x, sizeOf x ≤ n → ∀ t, ReadsAlike T N t x → ∀ c, c = zero T t ∨ decode T N t x = some c →
        decodeInto T N t c x = decode T N t x := by
      intro x hx t hc c h
      exact ihn x hx maxRank t c hc h
    have hmemsz : ∀ k x, (k, x) ∈ membersIn j → sizeOf x ≤ n := by
      intro k x hk
      cases j with
      | obj ms =>
        have := List.sizeOf_lt_of_mem (show (k, x) ∈ ms from hk)
        simp at this hn
        omega
      | _ => cases hk
    induction r with
    | zero => intro ty cur _ _; rfl
    | succ r ih =>
      intro ty cur hc hcur
      cases ty with
      | any => simp only [intoView, decodeView]
      | bool =>
        cases j <;> simp only [intoView, decodeView, iview, view] at hcur ⊢
        rcases hcur with e | e
        · rw [e]; rfl
        · rw [e]
      | str =>
        cases j <;> simp only [intoView, decodeView, iview, view] at hcur ⊢
        rcases hcur with e | e
        · rw [e]; rfl
        · rw [e]
      | int =>
        cases j <;> simp only [intoView, decodeView, iview, view] at hcur ⊢
        rcases hcur with e | e
        · rw [e]; rfl
        · rw [e]
      | float =>
        cases j <;> simp only [intoView, decodeView, iview, view] at hcur ⊢
        rcases hcur with e | e
        · rw [e]; rfl
        · rw [e]
      | ptr t =>
        have hin : (j = .null → False) → intoView T N j (iview T N j) r t (pointee T t cur) = decodeView T N j (view T N j) r t := by
          intro hj
          apply ih t _ (readsAlike_part hc .ptr)
          rcases hcur with rfl | e
          · exact .inl rfl
          · have e' : decodeView T N j (view T N j) r t = some cur := by
              rw [decodeView_ptr] at e
              cases j <;> first | exact absurd rfl hj | exact e
            cases cur with
            | nil => exact .inl rfl
            | _ => exact .inr e'
        cases j with
        | null => simp only [intoView, decodeView, iview, view]
        | _ =>
          have := hin (by intro h; cases h)
          simp only [iview, view] at this
          simp only [intoView, decodeView, iview, view]
          exact this
      | slice t =>
        cases j with
        | arr xs =>
          simp only [intoView, decodeView, iview, view, iviewList_eq, viewList_eq, mapAll_map] at hcur ⊢
          rw [intoItems_eq xs]
          · intro x hx
            apply hparts x _ t (readsAlike_part hc (.elem hx))
            have := List.sizeOf_lt_of_mem hx
            simp at hn
            omega
          · rcases hcur with rfl | e
            · exact .inl rfl
            · rw [Option.map_eq_some_iff] at e
              obtain ⟨vs, hvs, rfl⟩ := e
              exact .inr hvs
        | _ => simp only [intoView, decodeView, iview, view]
      | map t =>
        cases j with
        | obj ms =>
          simp only [intoView, decodeView, iview, view, iviewMembers_eq, viewMembers_eq, mapAll_map] at hcur ⊢
          have he : mapAll (fun p => ((imemberOf T N p).into t (zero T t)).map (fun w => ((imemberOf T N p).key, w))) ms =
              mapAll (fun p => ((memberOf T N p).dec t).map (fun w => ((memberOf T N p).key, w))) ms := by
            apply mapAll_congr
            intro p hp
            have := hparts p.2 (hmemsz p.1 p.2 hp) t (readsAlike_part hc (.entry (k := p.1) hp)) _ (.inl rfl)
            show (decodeInto T N t (zero T t) p.2).map _ = _
            rw [this]
            rfl
          rw [he]
          cases hm : mapAll (fun p => ((memberOf T N p).dec t).map (fun w => ((memberOf T N p).key, w))) ms with
          | none => rfl
          | some l =>
            simp only [Option.map_some, Option.some.injEq]
            rw [hm] at hcur
            rcases hcur with rfl | e
            · rfl
            · simp only [Option.map_some, Option.some.injEq] at e
              subst e
              simp only [heldEntries]
              rw [setAll_lastWins]
        | _ => simp only [intoView, decodeView, iview, view]
      | named m =>
        cases hg : GoMap.get? T m with
        | none => simp only [intoView, decodeView, hg]
        | some d =>
          cases d with
          | enum vs => cases j <;> simp only [intoView, decodeView, hg, iview, view]
          | struct s =>
            simp only [intoView, decodeView, hg] at hcur ⊢
            have hz : zero T (.named m) = .struct [] := by simp only [zero, hg]
            rw [hz] at hcur
            apply intoStruct_eq (hT m s hg) hcur
            · intro t ht c h
              exact ih t c (readsAlike_part hc (.alternative hg ht)) h
            · rintro ms rfl
              exact hc m s ms .self hg
            · intro k x t hk ht
              have hj : ∃ ms, j = .obj ms ∧ (k, x) ∈ ms := by
                cases j with
                | obj ms => exact ⟨ms, rfl, hk⟩
                | _ => cases hk
              obtain ⟨ms, rfl, hk'⟩ := hj
              refine hparts x (hmemsz k x hk) t (readsAlike_part hc ?_)
              intro t' x' hr
              rcases ht with ⟨f, hf, rfl⟩ | ⟨q, hq, hm, rfl⟩ | ⟨a, ha, hm, rfl⟩
              · exact .field hg hk' hf hr
              · exact .pattern hg hk' hq hm hr
              · exact .additional hg hk' ha hm hr

/-- Files with one spelling of each name. -/
theorem clearAs_readsAlike {ty : Ty} {j : Any} (h : ClearAs T ty j) : ReadsAlike T N ty j := by
  intro n s ms hr hs k₁ x₁ k₂ x₂ f h1 h2 f1 f2
  rcases h.2 n s ms hr hs k₁ x₁ k₂ x₂ f h1 h2 f1 f2 with e | e
  · subst e
    left
    have hd : Distinct (.obj ms) := by
      have hd := h.1
      clear h h1 h2 f1 f2 hs
      generalize hty' : Ty.named n = ty' at hr
      generalize hj' : Any.obj ms = j' at hr
      induction hr with
      | self => exact hj' ▸ hd
      | ptr _ ih => exact ih hd hty' hj'
      | elem hx _ ih =>
        simp only [Distinct, distinctList_iff] at hd
        exact ih (hd _ hx) hty' hj'
      | entry hx _ ih =>
        simp only [Distinct, distinctMembers_iff] at hd
        exact ih (hd.2 _ hx) hty' hj'
      | alternative _ _ _ ih => exact ih hd hty' hj'
      | field _ hx _ _ ih =>
        simp only [Distinct, distinctMembers_iff] at hd
        exact ih (hd.2 _ hx) hty' hj'
      | pattern _ hx _ _ _ ih =>
        simp only [Distinct, distinctMembers_iff] at hd
        exact ih (hd.2 _ hx) hty' hj'
      | additional _ hx _ _ _ ih =>
        simp only [Distinct, distinctMembers_iff] at hd
        exact ih (hd.2 _ hx) hty' hj'
    simp only [Distinct] at hd
    have e1 := GoMap.get?_of_mem (m := ms) hd.1 h1
    have e2 := GoMap.get?_of_mem (m := ms) hd.1 h2
    rw [e1] at e2
    cases e2
    rfl
  · exact .inr e

/-- Reading into a new value. -/
theorem decodeInto_zero (hT : IntoOk T) {ty : Ty} {j : Any} (hc : ReadsAlike T N ty j) :
    decodeInto T N ty (zero T ty) j = decode T N ty j :=
  into_eq hT (sizeOf j) j (Nat.le_refl _) maxRank ty _ hc (.inl rfl)

/-- Reading again. -/
theorem decodeInto_again (hT : IntoOk T) {ty : Ty} {j : Any} (hc : ReadsAlike T N ty j) {v : Val}
    (h : decode T N ty j = some v) : decodeInto T N ty v j = some v := by
  rw [← h]
  exact into_eq hT (sizeOf j) j (Nat.le_refl _) maxRank ty _ hc (.inr h)

end

end Verif.Codec
