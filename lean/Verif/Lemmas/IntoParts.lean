import Verif.Lemmas.IntoSome
import Verif.Spec.Into
import Verif.Props.Names
import Verif.Lemmas.RoundTripRead

/-! The parts of a struct after reading into it. -/

namespace Verif.Codec
open Spec

section
variable {T : Table} {N : Nums}

theorem intoStruct_congr {s : Struct} {sub sub' : Ty → Val → Option Val} {cur : Val} {v : IView}
    (h1 : ∀ t ∈ s.nots, sub t = sub' t) (h2 : ∀ e ∈ s.embeds, sub e.ty = sub' e.ty)
    (h3 : ∀ e ∈ s.oneOf, sub e.ty = sub' e.ty) :
    intoStruct T s sub cur v = intoStruct T s sub' cur v := by
  have e1 : s.nots.any (fun t => (sub t (zero T t)).isSome) = s.nots.any (fun t => (sub' t (zero T t)).isSome) := by
    rw [Bool.eq_iff_iff]
    simp only [List.any_eq_true]
    constructor
    · rintro ⟨x, hx, h⟩; exact ⟨x, hx, by rw [← h1 x hx]; exact h⟩
    · rintro ⟨x, hx, h⟩; exact ⟨x, hx, by rw [h1 x hx]; exact h⟩
  have e2 : mapAll (fun e : Hidden => (sub e.ty (held cur e.go (zero T e.ty))).map (fun w => (e.go, w))) s.embeds =
      mapAll (fun e : Hidden => (sub' e.ty (held cur e.go (zero T e.ty))).map (fun w => (e.go, w))) s.embeds :=
    mapAll_congr fun x hx => by simp only [h2 x hx]
  have e3 : s.oneOf.map (fun e => (e.go, sub e.ty (held cur e.go (zero T e.ty)))) =
      s.oneOf.map (fun e => (e.go, sub' e.ty (held cur e.go (zero T e.ty)))) :=
    List.map_congr_left fun x hx => by rw [h3 x hx]
  unfold intoStruct
  rw [e1, e2, e3]

theorem intoView_rank {j : Any} {v : IView} : ∀ {r r' : Nat} {ty : Ty},
    rankedAt T r ty = true → rankedAt T r' ty = true → intoView T N j v r ty = intoView T N j v r' ty
  | 0, _, _, h, _ => by simp [rankedAt] at h
  | _ + 1, 0, _, _, h => by simp [rankedAt] at h
  | r + 1, r' + 1, ty, h, h' => by
    funext cur
    cases ty with
    | ptr t =>
      simp only [rankedAt] at h h'
      simp only [intoView]
      rw [intoView_rank h h']
    | named n =>
      simp only [rankedAt] at h h'
      simp only [intoView]
      cases hg : GoMap.get? T n with
      | none => rfl
      | some d =>
        cases d with
        | enum vs => rfl
        | struct s =>
          rw [hg] at h h'
          simp only [Bool.and_eq_true, List.all_eq_true] at h h'
          exact intoStruct_congr (fun t ht => intoView_rank (h.1.1 t ht) (h'.1.1 t ht))
            (fun e he => intoView_rank (h.1.2 e he) (h'.1.2 e he))
            (fun e he => intoView_rank (h.2 e he) (h'.2 e he))
    | any => rfl
    | bool => rfl
    | str => rfl
    | int => rfl
    | float => rfl
    | slice t => rfl
    | map t => rfl

theorem intoView_struct {j : Any} {v : IView} {r : Nat} {n : String} {s : Struct} {cur : Val}
    (hn : GoMap.get? T n = some (.struct s)) :
    intoView T N j v (r + 1) (.named n) cur = intoStruct T s (intoView T N j v r) cur v := by
  simp only [intoView, hn]

theorem intoView_ptr {j : Any} {v : IView} {r : Nat} {t : Ty} {cur : Val} :
    intoView T N j v (r + 1) (.ptr t) cur = match v with
      | .null => some .nil
      | _ => intoView T N j v r t (pointee T t cur) := by
  cases v <;> simp only [intoView]

theorem decodeInto_struct (hT : Ranked T) {n : String} {s : Struct} (hn : GoMap.get? T n = some (.struct s))
    (cur : Val) (j : Any) :
    decodeInto T N (.named n) cur j = intoStruct T s (fun t c => decodeInto T N t c j) cur (iview T N j) := by
  have h := (rankedAt_struct (r := 9) hn).symm.trans (hT n)
  simp only [Bool.and_eq_true, List.all_eq_true] at h
  have e : decodeInto T N (.named n) cur j = intoStruct T s (intoView T N j (iview T N j) 15) cur (iview T N j) := by
    show intoView T N j (iview T N j) (15 + 1) (.named n) cur = _
    exact intoView_struct hn
  rw [e]
  have key : ∀ {t : Ty}, rankedAt T 9 t = true →
      intoView T N j (iview T N j) 15 t = fun c => decodeInto T N t c j := by
    intro t h
    unfold decodeInto
    exact intoView_rank (rankedAt_mono h (by decide)) (rankedAt_mono h (by decide))
  exact intoStruct_congr (fun t ht => key (h.1.1 t ht)) (fun e he => key (h.1.2 e he))
    (fun e he => key (h.2 e he))

theorem decodeInto_ptr (hT : Ranked T) {t : Ty} (ht : notPtr t = true) (cur : Val) (j : Any) :
    decodeInto T N (.ptr t) cur j = match j with
    | .null => some .nil
    | j => decodeInto T N t (pointee T t cur) j := by
  have h := rankedAt_of_notPtr hT ht
  have key : ∀ j v, intoView T N j v 15 t = intoView T N j v 16 t := fun j v =>
    intoView_rank (rankedAt_mono h (by omega)) (rankedAt_mono h (by omega))
  show intoView T N j (iview T N j) (15 + 1) (.ptr t) cur = _
  rw [intoView_ptr, key]
  cases j <;> rfl

/-! ## Fields -/

theorem intoField_over {fs : List Field} {f : Field} : ∀ {ms : List (String × Any)} {v w : Val},
    intoField (fun k => fieldOf fs k == some f) f.ty v (ms.map (imemberOf T N)) = some w ↔ ReadOver T N fs f v ms w
  | [], v, w => by
    simp only [List.map_nil, intoField, Option.some.injEq]
    constructor
    · rintro rfl; exact .nil
    · intro h; cases h; rfl
  | (k, j) :: ms, v, w => by
    have hm := (C101_field fs k).1 f
    simp only [List.map_cons, intoField]
    show (if (fieldOf fs k == some f) = true then (match decodeInto T N f.ty v j with
        | some w => intoField (fun k => fieldOf fs k == some f) f.ty w (ms.map (imemberOf T N))
        | none => none) else intoField (fun k => fieldOf fs k == some f) f.ty v (ms.map (imemberOf T N))) = some w ↔ _
    by_cases hk : fieldOf fs k = some f
    · rw [if_pos (by simp [hk])]
      constructor
      · intro h
        cases hu : decodeInto T N f.ty v j with
        | none => rw [hu] at h; cases h
        | some u =>
          rw [hu] at h
          exact .read (hm.mp hk) hu (intoField_over.mp h)
      · intro h
        cases h with
        | skip hn _ => exact absurd (hm.mp hk) hn
        | read _ hu h =>
          rw [hu]
          exact intoField_over.mpr h
    · rw [if_neg (by simp [hk])]
      constructor
      · intro h
        exact .skip (fun hx => hk (hm.mpr hx)) (intoField_over.mp h)
      · intro h
        cases h with
        | skip _ h => exact intoField_over.mpr h
        | read hx _ _ => exact absurd (hm.mpr hx) hk

theorem held_before (cur : Val) (go : String) (d : Val) : held cur go d = fieldBefore cur go d := rfl

/-! ## Maps -/

theorem get?_setAll : ∀ (es : List (String × Val)) (m : GoMap Val) (k : String), (es.map Prod.fst).Nodup →
    GoMap.get? (setAll m es) k = (GoMap.get? es k).orElse (fun _ => GoMap.get? m k)
  | [], m, k, _ => rfl
  | p :: es, m, k, hn => by
    obtain ⟨a, b⟩ := p
    simp only [List.map_cons, List.nodup_cons] at hn
    show GoMap.get? (setAll (GoMap.set m a b) es) k = _
    rw [get?_setAll es _ k hn.2, GoMap.get?_set]
    simp only [GoMap.get?]
    by_cases e : k = a
    · subst e
      have : GoMap.get? es k = none := by
        cases h : GoMap.get? es k with
        | none => rfl
        | some v => exact absurd (List.mem_map_of_mem (GoMap.mem_of_get? h)) hn.1
      simp [this]
    · have e' : ¬ a = k := fun h => e h.symm
      simp [e, e']

theorem entryOf_addTo {es : List (String × Val)} (hn : (es.map Prod.fst).Nodup) (before : Val) (k : String) :
    entryOf (addTo before (madeMap es)) k = (GoMap.get? es k).orElse (fun _ => entryOf before k) := by
  cases es with
  | nil => rfl
  | cons e es =>
    show GoMap.get? (setAll (heldEntries before) (e :: es)) k = _
    rw [get?_setAll _ _ _ hn]
    congr 1
    funext _
    cases before <;> rfl

theorem kept_extra {s : Struct} {k : String} : kept s k = true ↔ Extra s k := by
  simp only [kept, Extra, Bool.not_eq_true', Bool.or_eq_false_iff, List.any_eq_false, beq_iff_eq, List.mem_map,
    not_exists, not_and]
  constructor
  · rintro ⟨⟨h1, h2⟩, h3⟩
    refine ⟨fun h => ?_, fun c hc => h2 c hc, fun c hc => h3 c hc⟩
    have : s.known.contains k = true := List.contains_iff_mem.mpr h
    rw [h1] at this; cases this
  · rintro ⟨h1, h2, h3⟩
    refine ⟨⟨?_, fun c hc => h2 c hc⟩, fun c hc => h3 c hc⟩
    cases h : s.known.contains k with
    | false => rfl
    | true => exact absurd (List.contains_iff_mem.mp h) h1

theorem lastWins_lastValue (ms : List (String × Any)) (k : String) : GoMap.get? (lastWins ms) k = lastValue ms k :=
  lastWins_get? ms k

/-- The entries that are read for a map field. -/
theorem entries_replaced {t : Ty} {mine : String → Bool} {ms : List (String × Any)} {s : Struct} {w before : Val}
    (h : decodeEntries t ((restOf s (ms.map (anewOf T N))).filter (fun p => mine p.1)) = some w) :
    EntriesReplaced T N t (fun k => Extra s k ∧ mine k = true) ms before (addTo before w) := by
  unfold decodeEntries at h
  rw [Option.map_eq_some_iff] at h
  obtain ⟨es, he, rfl⟩ := h
  rw [restOf_of (fun _ => rfl), List.filter_map, mapAll_map] at he
  simp only [Function.comp_def] at he
  generalize hl : List.filter (fun p : String × Any => mine p.1) ((lastWins ms).filter (fun p =>
    !(s.known.contains p.1 || s.consts.any (fun c => c.1 == p.1) || s.notConsts.any (fun c => c.1 == p.1)))) = l at he
  have hk : es.map Prod.fst = l.map Prod.fst := mapAll_keys (g := fun p => (anewOf T N p).dec t) he
  have hn : (es.map Prod.fst).Nodup := by
    rw [hk, ← hl]
    exact ((List.filter_sublist.trans List.filter_sublist).map Prod.fst).nodup (lastWins_wf ms)
  have hin : ∀ k x, (k, x) ∈ l ↔ lastValue ms k = some x ∧ Extra s k ∧ mine k = true := by
    intro k x
    rw [← hl, List.mem_filter, List.mem_filter, ← lastWins_lastValue, ← kept_extra]
    show ((k, x) ∈ lastWins ms ∧ kept s k = true) ∧ mine k = true ↔ _
    constructor
    · rintro ⟨⟨h1, h2⟩, h3⟩; exact ⟨GoMap.get?_of_mem (lastWins_wf ms) h1, h2, h3⟩
    · rintro ⟨h1, h2, h3⟩; exact ⟨⟨GoMap.mem_of_get? h1, h2⟩, h3⟩
  intro k
  rw [entryOf_addTo hn]
  constructor
  · intro x hx hm
    obtain ⟨y, hy, e⟩ := mapAll_mem he (k, x) ((hin k x).mpr ⟨hx, hm⟩)
    rw [Option.map_eq_some_iff] at e
    obtain ⟨v, hv, rfl⟩ := e
    refine ⟨v, hv, ?_⟩
    rw [GoMap.get?_of_mem (m := es) hn hy]
    rfl
  · intro hno
    have : GoMap.get? es k = none := by
      cases hg : GoMap.get? es k with
      | none => rfl
      | some v =>
        have hm : k ∈ l.map Prod.fst := by rw [← hk]; exact List.mem_map_of_mem (GoMap.mem_of_get? hg)
        obtain ⟨⟨k', x⟩, hp, e⟩ := List.mem_map.mp hm
        simp only at e
        subst e
        have := (hin _ _).mp hp
        rcases hno with e | e
        · rw [this.1] at e; cases e
        · exact absurd this.2 e
    rw [this]
    rfl

/-! ## Structs -/

/-- What reading an object makes of a struct value. -/
theorem into_parts (hT : Ranked T) {n : String} {s : Struct} (hs : GoMap.get? T n = some (.struct s))
    {ms : List (String × Any)} {cur w : Val} (h : decodeInto T N (.named n) cur (.obj ms) = some w) :
    ∃ vals, w = .struct vals ∧ vals.map Prod.fst = s.names ∧
      (s.decodes = true → ∀ f ∈ s.fields, ∃ x, ReadOver T N s.fields f (fieldBefore cur f.go (zero T f.ty)) ms x ∧
        ((f.go, x) ∈ vals ∨ x = .nil ∧ (f.go, .any .null) ∈ vals ∧ ∃ k ∈ ms.map Prod.fst, (f.go, k) ∈ s.nulls)) ∧
      (∀ e ∈ s.embeds, ∃ x, decodeInto T N e.ty (fieldBefore cur e.go (zero T e.ty)) (.obj ms) = some x ∧
        (e.go, x) ∈ vals) ∧
      (∀ e ∈ s.oneOf,
        (e.go, (decodeInto T N e.ty (fieldBefore cur e.go (zero T e.ty)) (.obj ms)).getD .nil) ∈ vals) ∧
      (s.oneOf ≠ [] → (s.oneOf.filter (fun e =>
        (decodeInto T N e.ty (fieldBefore cur e.go (zero T e.ty)) (.obj ms)).isSome)).length = 1) ∧
      (∀ q ∈ s.patterns, ∃ m, (q.go, m) ∈ vals ∧
        EntriesReplaced T N q.ty (fun k => Extra s k ∧ q.pat.matches k = true) ms (fieldBefore cur q.go .nil) m) ∧
      (∀ a, s.additional = some a → ∃ m, (a.go, m) ∈ vals ∧
        EntriesReplaced T N a.ty (fun k => Extra s k ∧ ∀ q ∈ s.patterns, q.pat.matches k = false) ms
          (fieldBefore cur a.go .nil) m) := by
  rw [decodeInto_struct hT hs] at h
  unfold intoStruct at h
  rw [iview_members, show membersIn (Any.obj ms) = ms from rfl] at h
  simp only at h
  split at h
  · cases h
  · cases h1 : intoFields T s cur (iview T N (.obj ms)) with
    | none => rw [h1] at h; cases h
    | some fvals =>
      rw [h1] at h
      simp only at h
      cases h2 : mapAll (fun e : Hidden => (decodeInto T N e.ty (held cur e.go (zero T e.ty)) (.obj ms)).map
          (fun w => (e.go, w))) s.embeds with
      | none => rw [h2] at h; cases h
      | some evals =>
        rw [h2] at h
        simp only at h
        split at h
        · cases h
        · rename_i hone
          by_cases hrc : rawChecks s (ms.map (anewOf T N)) fvals = true
          · rw [if_pos hrc] at h
            cases h5 : decodeRest s (ms.map (anewOf T N)) with
            | none => rw [h5] at h; cases h
            | some rvals =>
              rw [h5] at h
              simp only [List.map_map, Function.comp_def, Option.some.injEq] at h
              subst h
              refine ⟨_, rfl, ?_, ?_, ?_, ?_, ?_, ?_, ?_⟩
              · obtain ⟨pvals, avals, rfl, hp, ha⟩ := decodeRest_patterns h5
                have e1 : (fvals.map (rememberNull s (ms.map (anewOf T N)))).map Prod.fst = s.fields.map Field.go := by
                  have : fvals.map Prod.fst = s.fields.map Field.go := by
                    unfold intoFields at h1
                    cases hd : s.decodes with
                    | false =>
                      rw [hd] at h1
                      simp only [Option.some.injEq] at h1
                      rw [← h1]
                      simp [Function.comp_def]
                    | true =>
                      rw [hd] at h1
                      simp only [iview] at h1
                      have key : ∀ (g : Field → Option Val) (l : List Field) (r : List (String × Val)),
                          mapAll (fun f => (g f).map (fun w => (f.go, w))) l = some r →
                          r.map Prod.fst = l.map Field.go := by
                        intro g l
                        induction l with
                        | nil => intro r h; simp [mapAll] at h; subst h; rfl
                        | cons f l ih =>
                          intro r h
                          simp only [mapAll] at h
                          split at h
                          · rename_i a b ha hb
                            simp only [Option.some.injEq] at h
                            subst h
                            rw [Option.map_eq_some_iff] at ha
                            obtain ⟨w, _, rfl⟩ := ha
                            simp only [List.map_cons, ih _ hb]
                          · cases h
                      exact key _ _ _ h1
                  simp [Function.comp_def, rememberNull_fst, ← this]
                have e2 : evals.map Prod.fst = s.embeds.map Hidden.go := by
                  have key : ∀ (g : Hidden → Option Val) (l : List Hidden) (r : List (String × Val)),
                      mapAll (fun f => (g f).map (fun w => (f.go, w))) l = some r →
                      r.map Prod.fst = l.map Hidden.go := by
                    intro g l
                    induction l with
                    | nil => intro r h; simp [mapAll] at h; subst h; rfl
                    | cons f l ih =>
                      intro r h
                      simp only [mapAll] at h
                      split at h
                      · rename_i a b ha hb
                        simp only [Option.some.injEq] at h
                        subst h
                        rw [Option.map_eq_some_iff] at ha
                        obtain ⟨w, _, rfl⟩ := ha
                        simp only [List.map_cons, ih _ hb]
                      · cases h
                  exact key _ _ _ h2
                have e3 : ∀ l : List (String × Val),
                    (l.map (fun p => (p.1, addTo (held cur p.1 .nil) p.2))).map Prod.fst = l.map Prod.fst := by
                  intro l; simp [Function.comp_def]
                have e4 : (s.oneOf.map (fun e => (e.go,
                    (decodeInto T N e.ty (held cur e.go (zero T e.ty)) (.obj ms)).getD .nil))).map Prod.fst =
                    s.oneOf.map Hidden.go := by simp [Function.comp_def]
                rw [List.map_append, List.map_append, List.map_append, e1, e2, e3, e4, List.map_append,
                  patterns_names hp, ha]
                simp only [Struct.names, List.append_assoc]
              · intro hd f hf
                unfold intoFields at h1
                rw [hd] at h1
                simp only [iview, iviewMembers_eq] at h1
                obtain ⟨y, hy, e⟩ := mapAll_mem h1 f hf
                rw [Option.map_eq_some_iff] at e
                obtain ⟨x, hx, rfl⟩ := e
                refine ⟨x, intoField_over.mp hx, ?_⟩
                have hin := List.mem_map_of_mem (f := rememberNull s (ms.map (anewOf T N))) hy
                have hin2 : ∀ p : String × Val, p ∈ fvals.map (rememberNull s (ms.map (anewOf T N))) →
                    p ∈ fvals.map (rememberNull s (ms.map (anewOf T N))) ++ evals ++
                    s.oneOf.map (fun e => (e.go,
                      (decodeInto T N e.ty (held cur e.go (zero T e.ty)) (.obj ms)).getD .nil)) ++
                    rvals.map (fun p => (p.1, addTo (held cur p.1 .nil) p.2)) := by
                  intro p hp
                  simp only [List.append_assoc]
                  exact List.mem_append_left _ hp
                unfold rememberNull at hin
                split at hin
                · rename_i e
                  simp only at e
                  subst e
                  split at hin
                  · rename_i hc
                    right
                    refine ⟨rfl, hin2 _ hin, ?_⟩
                    obtain ⟨q, hq, hb⟩ := List.any_eq_true.mp hc
                    simp only [Bool.and_eq_true, beq_iff_eq] at hb
                    obtain ⟨e1, e2⟩ := hb
                    simp only [hasKey, List.any_eq_true, List.mem_map, beq_iff_eq] at e2
                    obtain ⟨m, ⟨p, hp, rfl⟩, hk⟩ := e2
                    exact ⟨q.2, List.mem_map.mpr ⟨p, hp, hk⟩, e1 ▸ hq⟩
                  · exact .inl (hin2 _ hin)
                · exact .inl (hin2 _ hin)
              · intro e he
                obtain ⟨y, hy, e'⟩ := mapAll_mem h2 e he
                rw [Option.map_eq_some_iff] at e'
                obtain ⟨x, hx, rfl⟩ := e'
                refine ⟨x, hx, ?_⟩
                simp [hy]
              · intro e he
                apply List.mem_append_left
                apply List.mem_append_right
                exact List.mem_map.mpr ⟨e, he, rfl⟩
              · intro ho
                rw [List.filter_map, List.length_map] at hone
                apply Classical.byContradiction
                intro hne
                exact hone ⟨ho, hne⟩
              · intro q hq
                obtain ⟨pvals, avals, rfl, hp, -⟩ := decodeRest_patterns h5
                obtain ⟨y, hy, e⟩ := mapAll_mem hp q hq
                rw [Option.map_eq_some_iff] at e
                obtain ⟨x, hx, rfl⟩ := e
                refine ⟨addTo (fieldBefore cur q.go .nil) x, ?_, entries_replaced hx⟩
                apply List.mem_append_right
                exact List.mem_map.mpr ⟨(q.go, x), List.mem_append_left _ hy, rfl⟩
              · intro a ha
                unfold decodeRest at h5
                simp only at h5
                split at h5
                · cases h5
                · rw [ha] at h5
                  simp only [Option.map_eq_some_iff] at h5
                  obtain ⟨x, hx, rfl⟩ := h5
                  refine ⟨addTo (fieldBefore cur a.go .nil) x, ?_, ?_⟩
                  · apply List.mem_append_right
                    refine List.mem_map.mpr ⟨(a.go, x), ?_, rfl⟩
                    simp
                  · have := entries_replaced (before := fieldBefore cur a.go .nil)
                      (mine := fun k => !s.patterns.any (fun q => q.pat.matches k)) hx
                    intro k
                    have hk := this k
                    simp only [Bool.not_eq_true', List.any_eq_false, Bool.not_eq_true] at hk
                    exact hk
          · rw [if_neg hrc] at h
            cases h

end

end Verif.Codec
