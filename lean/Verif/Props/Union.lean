import Verif.Spec.Union

/-!
# C34: joining JSON objects
-/

namespace Verif
open Spec

theorem unionLoop_append (s : UnionState) (a b : List (Option (List Char))) :
    unionLoop s (a ++ b) =
      match unionLoop s a with
      | .ok s' => unionLoop s' b
      | .err => .err
      | .panics => .panics := by
  induction a generalizing s with
  | nil => simp [unionLoop]
  | cons m rest ih =>
    simp only [List.cons_append, unionLoop]
    cases unionStep s m <;> simp [ih]

theorem unionStep_blank (s : UnionState) {v : Any} (h : IsBlank v) :
    unionStep s (some (text v)) = .ok s := by
  rcases h with h | h
  · subst h
    simp [unionStep, text]
  · subst h
    simp [unionStep, text, memberTexts, commaSep]

theorem quote_ne_nil (k : String) : quote k ≠ [] := by simp [quote]

theorem commaSep_append : ∀ {a b : List (List Char)}, a ≠ [] → b ≠ [] →
    commaSep (a ++ b) = commaSep a ++ ',' :: commaSep b
  | [x], y :: ys, _, _ => by
    simp [commaSep]
  | x :: x' :: xs, b, _, hb => by
    have ih := commaSep_append (a := x' :: xs) (b := b) (by simp) hb
    simp only [List.cons_append] at ih
    simp only [List.cons_append, commaSep, ih, List.append_assoc]

theorem memberTexts_append (a b : List (String × Any)) :
    memberTexts (a ++ b) = memberTexts a ++ memberTexts b := by
  induction a with
  | nil => simp [memberTexts]
  | cons p rest ih => rcases p with ⟨k, v⟩; simp [memberTexts, ih]

theorem memberTexts_ne_nil {a : List (String × Any)} (h : a ≠ []) : memberTexts a ≠ [] := by
  cases a with
  | nil => exact absurd rfl h
  | cons p rest => rcases p with ⟨k, v⟩; simp [memberTexts]

theorem commaSep_ne_nil {a : List (String × Any)} (h : a ≠ []) : commaSep (memberTexts a) ≠ [] := by
  cases a with
  | nil => exact absurd rfl h
  | cons p rest =>
    rcases p with ⟨k, v⟩
    cases rest with
    | nil => simp [memberTexts, commaSep]
    | cons q qs => rcases q with ⟨k', v'⟩; simp [memberTexts, commaSep]

/-- The loop's text after the members `ms`: open as long as there are none. -/
def openText (ms : List (String × Any)) : List Char :=
  if ms = [] then ['{'] else text (.obj ms)

theorem openText_length (ms : List (String × Any)) : (openText ms).length > 1 ↔ ms ≠ [] := by
  unfold openText
  by_cases h : ms = []
  · simp [h]
  · simp [h, text]

theorem unionStep_object (acc ms : List (String × Any)) :
    unionStep ⟨openText acc, true⟩ (some (text (.obj ms))) = .ok ⟨openText (acc ++ ms), true⟩ := by
  by_cases hms : ms = []
  · subst hms
    rw [unionStep_blank _ (Or.inr rfl)]
    simp
  · have h1 : text (.obj ms) ≠ ['{', '}'] := by
      simp only [text]
      intro h
      have := List.cons.inj h
      have h2 : commaSep (memberTexts ms) = [] := by
        have h3 := congrArg List.length this.2
        simp at h3
        exact h3
      exact commaSep_ne_nil hms h2
    have h2 : text (.obj ms) ≠ ['n', 'u', 'l', 'l'] := by simp [text]
    by_cases hacc : acc = []
    · subst hacc
      simp only [unionStep, h1, h2, if_false]
      simp [text, openText, hms]
    · simp only [unionStep, h1, h2, if_false]
      have hl : (openText acc).length > 1 := (openText_length acc).2 hacc
      simp only [text, hl, if_true]
      simp only [openText, hacc, if_false, text, List.append_eq_nil_iff, false_and]
      rw [memberTexts_append, commaSep_append (memberTexts_ne_nil hacc) (memberTexts_ne_nil hms)]
      simp only [ne_eq, not_true_eq_false, if_false, Bool.true_eq_false]
      rw [← List.cons_append, List.dropLast_concat]
      simp

theorem unionLoop_objects (acc : List (String × Any)) (vs : List Any)
    (h : ∀ v ∈ vs, v = .null ∨ IsObject v) :
    unionLoop ⟨openText acc, true⟩ (vs.map (fun v => some (text v))) =
      .ok ⟨openText (acc ++ vs.flatMap members), true⟩ := by
  induction vs generalizing acc with
  | nil => simp [unionLoop]
  | cons v rest ih =>
    have hr := fun w hw => h w (List.mem_cons_of_mem _ hw)
    simp only [List.map_cons, unionLoop]
    rcases h v (List.mem_cons_self ..) with hv | ⟨ms, hv⟩
    · subst hv
      rw [unionStep_blank _ (Or.inl rfl)]
      simp only [ih _ hr]
      simp [members]
    · subst hv
      rw [unionStep_object]
      simp only [ih _ hr]
      simp [members]

/-- **C34.** Joining the texts of parts that are objects or `null` gives the text of one object whose
members are the members of the parts, in order, each as often as it occurs. -/
theorem C34_objects (vs : List Any) (h : ∀ v ∈ vs, v = .null ∨ IsObject v) :
    marshalUnion (vs.map (fun v => some (text v))) = .ok (text (.obj (vs.flatMap members))) := by
  have hl := unionLoop_objects [] vs h
  simp only [List.nil_append] at hl
  have h0 : openText [] = ['{'] := by simp [openText]
  rw [h0] at hl
  unfold marshalUnion
  rw [hl]
  by_cases hm : vs.flatMap members = []
  · simp [hm, openText, text, memberTexts, commaSep]
  · have hne : ¬ (openText (vs.flatMap members)).length = 1 := by
      have := (openText_length (vs.flatMap members)).2 hm
      omega
    simp [hne]
    simp [openText, hm]

/-- `C34_objects` applies to parts that are empty, `null` and repeated. -/
example : marshalUnion (([.obj [("openapi", .str "3.0.3")], .obj [], .null,
      .obj [("x-a", .arr [.num "1"]), ("x-b", .obj [])]] : List Any).map (fun v => some (text v))) =
    .ok "{\"openapi\":\"3.0.3\",\"x-a\":[1],\"x-b\":{}}".toList := by
  decide +kernel

/-- **C34.** A part that does not marshal makes the whole fail, whatever stands before it, unless a part
before it is already refused. -/
theorem C34_part_fails (before : List Any) (after : List (Option (List Char)))
    (h : ∀ v ∈ before, v = .null ∨ IsObject v) :
    marshalUnion (before.map (fun v => some (text v)) ++ none :: after) = .err := by
  have hl := unionLoop_objects [] before h
  have h0 : openText [] = ['{'] := by simp [openText]
  rw [h0] at hl
  unfold marshalUnion
  rw [unionLoop_append, hl]
  simp [unionLoop, unionStep]

example : marshalUnion [some "{\"a\":1}".toList, none, some "{}".toList] = .err := by decide +kernel

/-- The first character of the text of a value that is neither blank nor an object. -/
theorem text_head {v : Any} (hp : Printable v) (hb : ¬ IsBlank v) (ho : ¬ IsObject v) :
    ∃ c rest, text v = c :: rest ∧ c ≠ '{' ∧ text v ≠ ['{', '}'] ∧ text v ≠ ['n', 'u', 'l', 'l'] := by
  cases v with
  | null => exact absurd (Or.inl rfl) hb
  | bool b => cases b <;> exact ⟨_, _, rfl, by decide, by decide, by decide⟩
  | num lit =>
    obtain ⟨c, rest, hl, hc⟩ := hp
    refine ⟨c, rest, by simp [text, hl], ?_, ?_, ?_⟩
    · rintro rfl; rcases hc with hc | hc <;> revert hc <;> decide
    · simp only [text, hl]
      intro h
      have := (List.cons.inj h).1
      subst this
      rcases hc with hc | hc <;> revert hc <;> decide
    · simp only [text, hl]
      intro h
      have := (List.cons.inj h).1
      subst this
      rcases hc with hc | hc <;> revert hc <;> decide
  | str s => exact ⟨_, _, rfl, by decide, by simp [text, quote], by simp [text, quote]⟩
  | arr xs => exact ⟨_, _, rfl, by decide, by simp [text], by simp [text]⟩
  | obj ms => exact absurd ⟨ms, rfl⟩ ho

theorem unionStep_other_first {v : Any} (hp : Printable v) (hb : ¬ IsBlank v) (ho : ¬ IsObject v) :
    unionStep ⟨['{'], true⟩ (some (text v)) = .ok ⟨text v, false⟩ := by
  obtain ⟨c, rest, ht, hc, h1, h2⟩ := text_head hp hb ho
  simp only [unionStep, h1, h2, if_false]
  rw [ht]
  simp [hc]

/-- **C34.** One part that is not an object, among parts that are `null` or empty, is the result. -/
theorem C34_single (before after : List Any) (v : Any) (hp : Printable v) (hb : ¬ IsBlank v)
    (ho : ¬ IsObject v) (hbf : ∀ w ∈ before, IsBlank w) (haf : ∀ w ∈ after, IsBlank w) :
    marshalUnion ((before ++ v :: after).map (fun v => some (text v))) = .ok (text v) := by
  have hbl : ∀ (s : UnionState) (l : List Any), (∀ w ∈ l, IsBlank w) →
      unionLoop s (l.map (fun v => some (text v))) = .ok s := by
    intro s l
    induction l with
    | nil => intro _; rfl
    | cons w rest ih =>
      intro h
      simp only [List.map_cons, unionLoop, unionStep_blank s (h w (List.mem_cons_self ..))]
      exact ih (fun x hx => h x (List.mem_cons_of_mem _ hx))
  unfold marshalUnion
  rw [List.map_append, unionLoop_append, hbl _ _ hbf]
  simp only [List.map_cons, unionLoop, unionStep_other_first hp hb ho, hbl _ _ haf]
  simp

example : marshalUnion (([.null, .obj [], .bool true, .null] : List Any).map (fun v => some (text v))) =
    .ok "true".toList := by
  decide +kernel

/-- **C34.** An object cannot be joined with anything that is not an object: with a first object with
members and a later part that is neither blank nor an object, in either order, joining fails. -/
theorem C34_mixed (before mid after : List Any) (v w : Any)
    (hbf : ∀ u ∈ before, u = .null ∨ IsObject u) (hmid : ∀ u ∈ mid, u = .null ∨ IsObject u)
    (hpv : Printable v) (hbv : ¬ IsBlank v) (hov : ¬ IsObject v)
    (how : IsObject w) (hbw : ¬ IsBlank w) :
    marshalUnion ((before ++ w :: (mid ++ v :: after)).map (fun v => some (text v))) = .err ∧
    marshalUnion ((v :: (mid ++ w :: after)).map (fun v => some (text v))) = .err := by
  obtain ⟨ms, rfl⟩ := how
  have hms : ms ≠ [] := fun h => hbw (Or.inr (by rw [h]))
  have h0 : openText [] = ['{'] := by simp [openText]
  obtain ⟨c, rest, ht, hc, h1, h2⟩ := text_head hpv hbv hov
  constructor
  · have hl := unionLoop_objects [] (before ++ Any.obj ms :: mid) (by
      intro u hu
      rcases List.mem_append.1 hu with hu | hu
      · exact hbf u hu
      · rcases List.mem_cons.1 hu with hu | hu
        · exact Or.inr ⟨ms, hu⟩
        · exact hmid u hu)
    rw [h0] at hl
    have e : before ++ Any.obj ms :: (mid ++ v :: after) = (before ++ Any.obj ms :: mid) ++ v :: after := by simp
    unfold marshalUnion
    rw [e, List.map_append, unionLoop_append, hl]
    have hne : ¬ (openText ([] ++ (before ++ Any.obj ms :: mid).flatMap members)).length = 1 := by
      have := (openText_length ([] ++ (before ++ Any.obj ms :: mid).flatMap members)).2
        (by simp [members, hms])
      omega
    simp only [List.map_cons, unionLoop, unionStep, h1, h2, if_false]
    rw [ht]
    simp only [ne_eq, hc, not_false_eq_true, if_true, hne, false_and, if_false]
  · have hobj : ∀ (r : List Char) (l : List Any) (tl : List Any), (∀ u ∈ l, u = .null ∨ IsObject u) →
        unionLoop ⟨r, false⟩ ((l ++ Any.obj ms :: tl).map (fun v => some (text v))) = .err := by
      have hstep : ∀ (r : List Char) (ns : List (String × Any)), ns ≠ [] →
          unionStep ⟨r, false⟩ (some (text (.obj ns))) = .err := by
        intro r ns hns
        have h1 : text (.obj ns) ≠ ['{', '}'] := by
          simp only [text]
          intro h
          have h3 := congrArg List.length (List.cons.inj h).2
          simp at h3
          exact commaSep_ne_nil hns h3
        have h2 : text (.obj ns) ≠ ['n', 'u', 'l', 'l'] := by simp [text]
        simp only [unionStep, h1, h2, if_false]
        simp [text]
      intro r l tl hl
      induction l with
      | nil => simp [unionLoop, hstep r ms hms]
      | cons u us ih =>
        have ih := ih (fun x hx => hl x (List.mem_cons_of_mem _ hx))
        simp only [List.cons_append, List.map_cons, unionLoop]
        rcases hl u (List.mem_cons_self ..) with hu | ⟨ns, hu⟩
        · subst hu; rw [unionStep_blank _ (Or.inl rfl)]; exact ih
        · subst hu
          by_cases hns : ns = []
          · subst hns; rw [unionStep_blank _ (Or.inr rfl)]; exact ih
          · rw [hstep r ns hns]
    unfold marshalUnion
    simp only [List.map_cons, unionLoop, unionStep_other_first hpv hbv hov]
    rw [hobj _ mid after hmid]

example : marshalUnion [some "{\"a\":1}".toList, some "true".toList] = .err ∧
    marshalUnion [some "true".toList, some "{\"a\":1}".toList] = .err := by decide +kernel

/-- **C34.** Two parts that are neither blank nor objects, with only blank parts around them, join exactly
when both are the same one-character text, and then the result is that text. So `1` and `1` join,
`true` and `true` do not. -/
theorem C34_two_others (v w : Any) (hpv : Printable v) (hbv : ¬ IsBlank v) (hov : ¬ IsObject v)
    (hpw : Printable w) (hbw : ¬ IsBlank w) (how : ¬ IsObject w) :
    marshalUnion [some (text v), some (text w)] =
      if text v = text w ∧ (text v).length = 1 then .ok (text v) else .err := by
  obtain ⟨c, rest, ht, hc, h1, h2⟩ := text_head hpw hbw how
  unfold marshalUnion
  simp only [unionLoop, unionStep_other_first hpv hbv hov]
  simp only [unionStep, h1, h2, if_false]
  by_cases hvw : text v = text w ∧ (text v).length = 1
  · rw [if_pos hvw]
    have := hvw.1
    rw [this] at hvw ⊢
    rw [ht] at hvw ⊢
    simp [hc, hvw.2]
  · rw [if_neg hvw]
    have hn : ¬ ((text v).length = 1 ∧ (false = true ∨ text v = text w)) := by
      rintro ⟨a, b⟩
      simp at b
      exact hvw ⟨b, a⟩
    rw [ht] at hn ⊢
    simp only [ne_eq, hc, not_false_eq_true, if_true, if_neg hn]

example : marshalUnion [some "1".toList, some "1".toList] = .ok "1".toList ∧
    marshalUnion [some "12".toList, some "12".toList] = .err ∧
    marshalUnion [some "1".toList, some "2".toList] = .err := by decide +kernel

/-- **C34.** Joining the outcomes of `json.Marshal` never panics: no text is empty. -/
theorem C34_no_panic (ms : List (Option (List Char))) (h : ∀ m ∈ ms, m ≠ some []) :
    marshalUnion ms ≠ .panics := by
  have hl : ∀ s, unionLoop s ms ≠ .panics := by
    induction ms with
    | nil => intro s; simp [unionLoop]
    | cons m rest ih =>
      intro s
      have hm := h m (List.mem_cons_self ..)
      have ih := ih (fun x hx => h x (List.mem_cons_of_mem _ hx))
      simp only [unionLoop]
      have hs : unionStep s m ≠ .panics := by
        cases m with
        | none => simp [unionStep]
        | some j =>
          cases j with
          | nil => exact absurd rfl hm
          | cons c tl =>
            simp only [unionStep]
            split <;> try simp
            split <;> try simp
            split
            · split <;> simp
            · split <;> simp
      cases hu : unionStep s m with
      | ok s' => simpa using ih s'
      | err => simp
      | panics => exact absurd hu hs
  unfold marshalUnion
  cases hu : unionLoop ⟨['{'], true⟩ ms with
  | ok s => simp
  | err => simp
  | panics => exact absurd hu (hl _)

end Verif
