import Verif.Lemmas.Go
import Verif.Spec.On

/-! # Converting a JSON Schema into an OpenAPI 3.0 schema that has content (C103) -/

namespace Verif.V30
open Verif.Spec

theorem given_eq {α : Type} (new old : Option α) : given new old = (new <|> old) := by
  cases new <;> rfl

theorem givenList_eq {α : Type} (new old : List α) : givenList new old = if new = [] then old else new := by
  cases new <;> simp [givenList]

theorem typeOnto_eq (ts : List String) : ∀ (a b c d : _),
    ts.foldl (fun os t => checkNullable t os) ((a <|> c : Option String), (b <|> d : Option Bool)) =
      (((ts.foldl (fun os t => checkNullable t os) (a, b)).1 <|> c),
        ((ts.foldl (fun os t => checkNullable t os) (a, b)).2 <|> d)) := by
  induction ts with
  | nil => intros; rfl
  | cons t ts ih =>
    intro a b c d
    simp only [List.foldl_cons]
    unfold checkNullable
    split
    · exact ih a (some true) c d
    · exact ih (some t) b c d

theorem type_onto (ty : Option JType) (old : Option String × Option Bool) :
    typeOnto ty old = (((typeFromJS ty).1 <|> old.1), ((typeFromJS ty).2 <|> old.2)) :=
  typeOnto_eq (JType.list ty) none none old.1 old.2

theorem extOnto_eq : ∀ (extra old : GoMap Any), extOnto extra old =
    (extra.filter (fun p => goHasPrefix p.1 "x-")).foldl (fun m p => GoMap.set m p.1 p.2) old
  | [], _ => rfl
  | p :: extra, old => by
    have ih := extOnto_eq extra
    unfold extOnto at ih ⊢
    simp only [List.foldl_cons, List.filter_cons]
    split <;> rw [ih] <;> rfl

theorem foldl_set_get? : ∀ (l old : GoMap Any) (k : String), (l.map Prod.fst).Nodup →
    GoMap.get? (l.foldl (fun m p => GoMap.set m p.1 p.2) old) k = (GoMap.get? l k <|> GoMap.get? old k)
  | [], _, _, _ => rfl
  | (a, b) :: l, old, k, h => by
    simp only [List.map_cons, List.nodup_cons] at h
    rw [List.foldl_cons, foldl_set_get? l _ k h.2, GoMap.get?_set]
    simp only [GoMap.get?]
    by_cases e : a = k
    · subst e
      have : GoMap.get? l a = none := by
        cases hg : GoMap.get? l a with
        | none => rfl
        | some v => exact absurd (List.mem_map_of_mem (GoMap.mem_of_get? hg)) h.1
      simp [this]
    · rw [if_neg e, if_neg (fun h => e h.symm)]

theorem filter_nodup {l : GoMap Any} (h : l.WF) (p : String × Any → Bool) : ((l.filter p).map Prod.fst).Nodup :=
  List.Nodup.sublist (List.Sublist.map _ List.filter_sublist) h

theorem set_held : ∀ {m : GoMap Any} {k : String} {v : Any}, GoMap.get? m k = some v → GoMap.set m k v = m
  | [], _, _, h => by cases h
  | (a, b) :: m, k, v, h => by
    simp only [GoMap.get?] at h
    simp only [GoMap.set]
    split at h
    · rename_i e; cases h; simp [e]
    · rename_i e; rw [if_neg e, set_held h]

theorem foldl_set_same : ∀ (l m : GoMap Any), (∀ p ∈ l, GoMap.get? m p.1 = some p.2) →
    l.foldl (fun m p => GoMap.set m p.1 p.2) m = m
  | [], _, _ => rfl
  | p :: l, m, h => by
    rw [List.foldl_cons, set_held (h p List.mem_cons_self)]
    exact foldl_set_same l m fun q hq => h q (List.mem_cons_of_mem _ hq)

theorem foldl_set_new : ∀ (l m : GoMap Any), ((m ++ l).map Prod.fst).Nodup →
    l.foldl (fun m p => GoMap.set m p.1 p.2) m = m ++ l
  | [], m, _ => by simp
  | (a, b) :: l, m, h => by
    have hset : ∀ m : GoMap Any, a ∉ m.map Prod.fst → GoMap.set m a b = m ++ [(a, b)] := by
      intro m
      induction m with
      | nil => intro _; rfl
      | cons q m ih =>
        intro hm
        obtain ⟨c, d⟩ := q
        simp only [List.map_cons, List.mem_cons, not_or] at hm
        simp only [GoMap.set]
        rw [if_neg (fun e => hm.1 e.symm), ih hm.2]
        rfl
    have hna : a ∉ m.map Prod.fst := by
      simp only [List.map_append, List.map_cons] at h
      exact fun hm => (List.nodup_append.mp h).2.2 a hm a List.mem_cons_self rfl
    rw [List.foldl_cons]
    show l.foldl _ (GoMap.set m a b) = _
    rw [hset m hna, foldl_set_new l _ (by simpa using h)]
    simp

/-- The parts of a converted schema. -/
theorem fromJS_parts {flat not allOf oneOf anyOf items arr props addl others} (hr : flat.ref = none) {s : OS}
    (h : fromJS (.obj flat not allOf oneOf anyOf items arr props addl others) = some s) :
    ∃ not' oneOf' anyOf' allOf' ap items' props', fromJSOpt not = some not' ∧ fromJSList oneOf = some oneOf' ∧
      fromJSList anyOf = some anyOf' ∧ fromJSList allOf = some allOf' ∧ fromJSAddl addl = some ap ∧
      fromJSOpt items = some items' ∧ fromJSProps props = some props' ∧
      s = .schema (flatFromJS flat) not' allOf' oneOf' anyOf' items' props' (addlBoolOf addl) ap := by
  simp only [fromJS, hr, Option.bind_eq_bind, Option.bind_eq_some_iff] at h
  obtain ⟨a, ha, b, hb, c, hc, d, hd, e, he, f, hf, g, hg, hs⟩ := h
  cases hs
  exact ⟨a, b, c, d, e, f, g, ha, hb, hc, hd, he, hf, hg, rfl⟩

theorem bound_eq (q x y : Option F64) : (if q.isSome = true then x else given x y) =
    if (match q with
      | some _ => some true
      | none => none : Option Bool) = none then (x <|> y) else x := by
  cases q with
  | none => exact given_eq _ _
  | some _ => rfl

theorem addl_given {addl : Option JS} {ap : Option OS} (h : fromJSAddl addl = some ap) :
    addl.isSome = true ↔ ¬ (addlBoolOf addl = none ∧ ap = none) := by
  cases addl with
  | none =>
    simp only [fromJSAddl, Option.some.injEq] at h
    subst h
    simp [addlBoolOf]
  | some j =>
    cases j with
    | bool b => simp [addlBoolOf]
    | zero => simp [fromJSAddl, fromJS] at h
    | obj =>
      simp only [fromJSAddl, Option.bind_eq_bind, Option.bind_eq_some_iff, Option.some.injEq] at h
      obtain ⟨x, _, rfl⟩ := h
      simp

/-- **C103**: an object without reference is laid over what the schema holds, part by part; a reference that the value holds
stays. -/
theorem C103_overlay (r : Recv) (js : JS) (hr : refOf js = none) (ho : ∀ b, js ≠ .bool b) (hw : (extraOf js).WF) (r' : Recv)
    (h : fromJSOn r js = some r') :
    ∃ new res : Parts, fromJS js = some (Recv.os ⟨none, some new⟩) ∧ r' = ⟨r.ref, some res⟩ ∧
      Overlaid (r.schema.getD {}) new res := by
  cases js with
  | zero => cases h
  | bool b => exact absurd rfl (ho b)
  | obj flat not allOf oneOf anyOf items arr props addl others =>
    simp only [refOf] at hr
    simp only [extraOf] at hw
    simp only [fromJSOn, hr, Option.bind_eq_bind, Option.bind_eq_some_iff] at h
    obtain ⟨a, ha, b, hb, c, hc, d, hd, e, he, f, hf, g, hg, hs⟩ := h
    simp only [Option.some.injEq] at hs
    subst hs
    refine ⟨⟨flatFromJS flat, a, d, b, c, f, g, addlBoolOf addl, e⟩, _, ?_, rfl, ?_⟩
    · simp only [fromJS, hr, ha, hb, hc, hd, he, hf, hg, Option.bind_eq_bind, Option.bind_some, Recv.os]
    · have hint : ∀ (n : Int) (o : Option Int), givenInt n o = ((if n ≠ 0 then some n else none) <|> o) := by
        intro n o
        unfold givenInt
        split <;> rfl
      constructor <;> try rfl
      · exact given_eq _ _
      · exact congrArg Prod.fst (type_onto flat.type _)
      · exact congrArg Prod.snd (type_onto flat.type _)
      · simp only [flatOnto, flatFromJS]; cases flat.exclusiveMaximum <;> rfl
      · simp only [flatOnto, flatFromJS]; cases flat.exclusiveMinimum <;> rfl
      · exact hint _ _
      · exact hint _ _
      · exact hint _ _
      · exact given_eq _ _
      · exact given_eq _ _
      · exact givenList_eq _ _
      · exact givenList_eq _ _
      · exact givenList_eq _ _
      · exact givenList_eq _ _
      · have hg := addl_given he
        by_cases hs : addl.isSome = true
        · simp only [hs, if_true]
          rw [if_neg (hg.mp hs)]
        · have : addlBoolOf addl = none ∧ e = none := Decidable.byContradiction fun hn => hs (hg.mpr hn)
          simp only [Bool.not_eq_true] at hs
          simp only [hs, Bool.false_eq_true, if_false]
          rw [if_pos this]
      · intro k
        show GoMap.get? (extOnto flat.extra _) k = _
        rw [extOnto_eq, foldl_set_get? _ _ _ (filter_nodup hw _)]
        rfl
      · exact bound_eq flat.exclusiveMaximum _ _
      · exact bound_eq flat.exclusiveMinimum _ _

/-- **C103**: a boolean leaves the content; `false` sets what must not hold. -/
theorem C103_bool (r : Recv) (b : Bool) :
    fromJSOn r (.bool b) = some ⟨r.ref, some (if b then r.schema.getD {} else
      { r.schema.getD {} with not := some (.schema {} none [] [] [] none [] none none) })⟩ := rfl

/-- **C103**: a reference is set next to the content; a deprecated one takes the place of the content. -/
theorem C103_reference (r : Recv) (js : JS) (ref : String) (hr : refOf js = some ref) :
    (¬ isDeprecated js → fromJSOn r js = some ⟨some ref, r.schema⟩) ∧
    (isDeprecated js → fromJSOn r js = some ⟨r.ref, some { allOf := [deprecatedOnly, .ref ref] }⟩) := by
  cases js with
  | zero => cases hr
  | bool b => cases hr
  | obj flat not allOf oneOf anyOf items arr props addl others =>
    simp only [refOf] at hr
    simp only [isDeprecated, fromJSOn, hr]
    exact ⟨fun h => by rw [if_neg h], fun h => by rw [if_pos h]⟩

/-- **C103**: the content makes no difference to whether the conversion panics. -/
theorem C103_panics (r : Recv) (js : JS) : fromJSOn r js = none ↔ fromJS js = none := by
  cases js with
  | zero => exact ⟨fun _ => rfl, fun _ => rfl⟩
  | bool b => simp [fromJSOn, fromJS]
  | obj flat not allOf oneOf anyOf items arr props addl others =>
    cases hr : flat.ref with
    | some ref =>
      simp only [fromJSOn, fromJS, hr]
      split <;> simp
    | none =>
      simp only [fromJSOn, fromJS, hr, Option.bind_eq_bind]
      cases fromJSOpt not <;> cases fromJSList oneOf <;> cases fromJSList anyOf <;> cases fromJSList allOf <;>
        cases fromJSAddl addl <;> cases fromJSOpt items <;> cases fromJSProps props <;> simp

/-- **C103**: while a value holds a reference, whatever is converted into it does not show, except another reference. -/
theorem C103_hidden (r r' : Recv) (x : String) (hx : r.ref = some x) (js : JS) (hr : refOf js = none ∨ isDeprecated js)
    (hw : (extraOf js).WF) (h : fromJSOn r js = some r') : r'.os = .ref x := by
  have key : r'.ref = some x → r'.os = .ref x := by
    intro e
    unfold Recv.os
    rw [e]
  apply key
  cases hb : refOf js with
  | some ref =>
    rcases hr with e | hd
    · rw [hb] at e; cases e
    · rw [(C103_reference r js ref hb).2 hd] at h
      cases h
      exact hx
  | none =>
    cases js with
    | bool b => rw [C103_bool] at h; cases h; exact hx
    | zero => cases h
    | obj flat not allOf oneOf anyOf items arr props addl others =>
      obtain ⟨_, _, _, rfl, _⟩ := C103_overlay r _ hb (nofun) hw r' h
      exact hx

/-- **C103**: converting into a new value. -/
theorem C103_new (js : JS) (hw : (extraOf js).WF) : (fromJSOn {} js).map Recv.os = fromJS js := by
  cases js with
  | zero => rfl
  | bool b => cases b <;> rfl
  | obj flat not allOf oneOf anyOf items arr props addl others =>
    simp only [extraOf] at hw
    cases hr : flat.ref with
    | some ref =>
      simp only [fromJSOn, fromJS, hr]
      split <;> rfl
    | none =>
      cases hf : fromJS (.obj flat not allOf oneOf anyOf items arr props addl others) with
      | none => rw [(C103_panics {} _).mpr hf]; rfl
      | some s =>
        obtain ⟨a, b, c, d, e, f, g, ha, hb, hc, hd, he, hi, hg, rfl⟩ := fromJS_parts hr hf
        simp only [fromJSOn, hr, ha, hb, hc, hd, he, hi, hg, Option.bind_eq_bind, Option.bind_some, Option.map_some, Recv.os,
          Option.getD_none]
        have h1 : ∀ {α : Type} (x : Option α), given x none = x := fun x => by cases x <;> rfl
        have h2 : ∀ {α : Type} (x : List α), givenList x [] = x := fun x => by cases x <;> rfl
        have h3 : flatOnto flat {} = flatFromJS flat := by
          have hx : extOnto flat.extra [] = flat.extra.filter (fun p => goHasPrefix p.1 "x-") := by
            rw [extOnto_eq, foldl_set_new _ _ (by simpa using filter_nodup hw _)]
            rfl
          simp only [flatOnto, flatFromJS, hx, h1, givenInt, typeOnto, typeFromJS]
          congr 1 <;> cases flat.exclusiveMaximum <;> cases flat.exclusiveMinimum <;> rfl
        have h4 : (if addl.isSome = true then addlBoolOf addl else none) = addlBoolOf addl := by
          cases addl <;> rfl
        have h5 : (if addl.isSome = true then e else none) = e := by
          cases addl with
          | none => simp only [fromJSAddl, Option.some.injEq] at he; subst he; rfl
          | some j => rfl
        simp only [h1, h2, h3, h4, h5]

/-- **C103**: converting the same JSON Schema again changes nothing, whatever the value held before. -/
theorem C103_again (r r' : Recv) (js : JS) (hw : (extraOf js).WF) (h : fromJSOn r js = some r') : fromJSOn r' js = some r' := by
  cases js with
  | zero => cases h
  | bool b =>
    simp only [fromJSOn, Option.some.injEq] at h ⊢
    subst h
    cases b <;> rfl
  | obj flat not allOf oneOf anyOf items arr props addl others =>
    simp only [extraOf] at hw
    cases hr : flat.ref with
    | some ref =>
      simp only [fromJSOn, hr] at h ⊢
      split at h <;> cases h
      · rename_i hd; rw [if_pos hd]
      · rename_i hd; rw [if_neg hd]
    | none =>
      simp only [fromJSOn, hr, Option.bind_eq_bind, Option.bind_eq_some_iff] at h
      obtain ⟨a, ha, b, hb, c, hc, d, hd, e, he, f, hf, g, hg, hs⟩ := h
      simp only [Option.some.injEq] at hs
      subst hs
      simp only [fromJSOn, hr, ha, hb, hc, hd, he, hf, hg, Option.bind_eq_bind, Option.bind_some, Option.getD_some]
      have h1 : ∀ {α : Type} (x y : Option α), given x (given x y) = given x y := fun x y => by cases x <;> rfl
      have h2 : ∀ {α : Type} (x y : List α), givenList x (givenList x y) = givenList x y := fun x y => by cases x <;> rfl
      have h3 : ∀ (x : Int) (y : Option Int), givenInt x (givenInt x y) = givenInt x y := by
        intro x y; unfold givenInt; split <;> rfl
      have h4 : ∀ old : OFlat, flatOnto flat (flatOnto flat old) = flatOnto flat old := by
        intro old
        have ht : ∀ o : Option String × Option Bool, typeOnto flat.type (typeOnto flat.type o) = typeOnto flat.type o := by
          intro o
          rw [type_onto flat.type o, type_onto]
          cases (typeFromJS flat.type).1 <;> cases (typeFromJS flat.type).2 <;> rfl
        have hx : extOnto flat.extra (extOnto flat.extra old.ext) = extOnto flat.extra old.ext := by
          rw [extOnto_eq, extOnto_eq]
          apply foldl_set_same
          intro p hp
          have hn := filter_nodup hw (fun p => goHasPrefix p.1 "x-")
          rw [foldl_set_get? _ _ _ hn, GoMap.get?_of_mem (m := flat.extra.filter _) hn hp]
          rfl
        have hmx : ∀ (q : Bool) (x y : Option F64), (if q then x else given x (if q then x else given x y)) =
            if q then x else given x y := by
          intro q x y; cases q <;> simp [h1]
        have hex : ∀ (q : Bool) (y : Option Bool), (if q then some true else if q then some true else y) =
            if q then some true else y := by
          intro q y; cases q <;> rfl
        have ht1 : ((typeOnto flat.type (old.type, old.nullable)).1, (typeOnto flat.type (old.type, old.nullable)).2) =
          typeOnto flat.type (old.type, old.nullable) := rfl
        simp only [flatOnto, h1, h3, hx, hmx, hex, ht1, ht]
      have h5 : ∀ {α : Type} (x y : α), (if addl.isSome = true then x else if addl.isSome = true then x else y) =
          if addl.isSome = true then x else y := by
        intro α x y; cases addl <;> rfl
      simp only [h1, h2, h4, h5]

/-! ## Concrete cases -/

/-- A schema with a title, an exclusive maximum of ten and an extension. -/
def onBefore : Recv := ⟨none, some { flat :=
  { title := some "t", maximum := some ⟨10⟩, exclusiveMaximum := some true, ext := [("x-a", .bool true)] } }⟩

/-- A JSON Schema with a maximum of twenty and an extension. -/
def onJS : JS := .obj { maximum := some ⟨20⟩, extra := [("x-b", .bool true)] } none [] [] [] none [] [] none []

/-- What can be forgotten: the title is gone, the new maximum is exclusive as the old one was, and both extensions are
there. -/
theorem C103_case : ∃ p, fromJSOn onBefore onJS = some ⟨none, some p⟩ ∧ p.flat.title = none ∧
    p.flat.maximum = some ⟨20⟩ ∧ p.flat.exclusiveMaximum = some true ∧ p.flat.ext = [("x-a", .bool true), ("x-b", .bool true)] ∧
    refOf onJS = none ∧ (extraOf onJS).WF :=
  ⟨_, rfl, rfl, rfl, rfl, rfl, rfl, by simp [extraOf, onJS, GoMap.WF, GoMap.keys]⟩

end Verif.V30
