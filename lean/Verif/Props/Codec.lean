import Verif.Spec.Codec
import Verif.Lemmas.Codec

/-! Properties of reading and writing documents: C36-C39. -/

namespace Verif
open Codec

/-! ## Keys -/

theorem x_matches {k : String} : Pat.x.matches k = true ↔ Spec.IsExtension k := by
  simp only [Pat.matches, Spec.IsExtension]
  constructor
  · intro h
    split at h
    · rename_i rest e
      refine ⟨String.ofList rest, ?_⟩
      apply String.toList_inj.1
      rw [e, String.toList_append, String.toList_ofList, String.toList_ofList]
      rfl
    · cases h
  · rintro ⟨rest, rfl⟩
    rw [String.toList_append]
    rfl

theorem slash_matches {k : String} : Pat.slash.matches k = true ↔ Spec.IsPath k := by
  simp only [Pat.matches, Spec.IsPath]
  constructor
  · intro h
    split at h
    · rename_i rest e
      refine ⟨String.ofList rest, ?_⟩
      apply String.toList_inj.1
      rw [e, String.toList_append, String.toList_ofList, String.toList_ofList]
      rfl
    · cases h
  · rintro ⟨rest, rfl⟩
    rw [String.toList_append]
    rfl

theorem digit_mem {c : Char} : c.isDigit = true ↔ c ∈ "0123456789".toList := by
  have e : "0123456789".toList = ['0', '1', '2', '3', '4', '5', '6', '7', '8', '9'] := by decide
  rw [e]
  constructor
  · intro h
    simp only [Char.isDigit, Bool.and_eq_true, decide_eq_true_eq] at h
    have h1 : 48 ≤ c.val.toNat := h.1
    have h2 : c.val.toNat ≤ 57 := h.2
    have : c = Char.ofNat c.val.toNat := (Char.ofNat_toNat c).symm
    rw [this]
    generalize c.val.toNat = x at *
    have : x = 48 ∨ x = 49 ∨ x = 50 ∨ x = 51 ∨ x = 52 ∨ x = 53 ∨ x = 54 ∨ x = 55 ∨ x = 56 ∨ x = 57 := by omega
    rcases this with h | h | h | h | h | h | h | h | h | h <;> subst h <;> decide
  · intro h
    simp only [List.mem_cons, List.not_mem_nil, or_false] at h
    rcases h with h | h | h | h | h | h | h | h | h | h <;> subst h <;> decide

theorem oneToFive_mem {c : Char} : ('1' ≤ c ∧ c ≤ '5') ↔ c ∈ "12345".toList := by
  have e : "12345".toList = ['1', '2', '3', '4', '5'] := by decide
  rw [e]
  constructor
  · intro h
    have h1 : 49 ≤ c.val.toNat := h.1
    have h2 : c.val.toNat ≤ 53 := h.2
    have : c = Char.ofNat c.val.toNat := (Char.ofNat_toNat c).symm
    rw [this]
    generalize c.val.toNat = x at *
    have : x = 49 ∨ x = 50 ∨ x = 51 ∨ x = 52 ∨ x = 53 := by omega
    rcases this with h | h | h | h | h <;> subst h <;> decide
  · intro h
    simp only [List.mem_cons, List.not_mem_nil, or_false] at h
    rcases h with h | h | h | h | h <;> subst h <;> decide

theorem status_matches {k : String} : Pat.status.matches k = true ↔ Spec.IsStatus k := by
  simp only [Pat.matches, Spec.IsStatus]
  constructor
  · intro h
    split at h
    · rename_i a b c e
      simp only [Bool.and_eq_true, Bool.or_eq_true, decide_eq_true_eq, beq_iff_eq] at h
      refine ⟨a, b, c, ?_, oneToFive_mem.1 h.1, ?_⟩
      · apply String.toList_inj.1
        rw [e, String.toList_ofList]
      · rcases h.2 with h | h
        · exact .inl ⟨digit_mem.1 h.1, digit_mem.1 h.2⟩
        · exact .inr h
    · cases h
  · rintro ⟨a, b, c, rfl, h1, h2⟩
    rw [String.toList_ofList]
    simp only [Bool.and_eq_true, Bool.or_eq_true, decide_eq_true_eq, beq_iff_eq]
    refine ⟨oneToFive_mem.2 h1, ?_⟩
    rcases h2 with h | h
    · exact .inl ⟨digit_mem.2 h.1, digit_mem.2 h.2⟩
    · exact .inr h

theorem methods_matches {k : String} : Pat.methods.matches k = true ↔
    k ∈ ["get", "put", "post", "delete", "options", "head", "patch", "trace"] := by
  simp only [Pat.matches, List.contains_iff_mem]

/-! ## Required keys -/

theorem decode_missing {T : Table} {N : Nums} (hT : Ranked T) {n : String} {s : Struct}
    (hn : GoMap.get? T n = some (.struct s)) {k : String} (hk : k ∈ s.require) {j : Any}
    (hj : ¬Spec.HasMember j k) : decode T N (.named n) j = none := by
  cases hd : decode T N (.named n) j with
  | none => rfl
  | some w =>
    exfalso
    obtain ⟨_, fvals, _, _, _, _, _, _, hr, _⟩ := (decode_struct_some hT hn).1 hd
    have := (rawChecks_iff.1 hr).1 k hk
    apply hj
    cases j with
    | obj ms => exact hasKey_obj.1 this
    | _ => simp [membersOf, hasKey] at this

/-- The required keys of the list are required by the table. -/
def requiresAll (T : Table) (l : List (String × List String)) : Bool :=
  l.all (fun p => match GoMap.get? T p.1 with
    | some (.struct s) => p.2.all (fun k => s.require.contains k)
    | _ => false)

theorem decode_missing_of {T : Table} {N : Nums} (hT : Ranked T) {l : List (String × List String)}
    (hl : requiresAll T l = true) {n : String} {ks : List String} (h : (n, ks) ∈ l) {k : String} (hk : k ∈ ks)
    {j : Any} (hj : ¬Spec.HasMember j k) : decode T N (.named n) j = none := by
  have := List.all_eq_true.1 hl _ h
  simp only at this
  split at this
  · rename_i s hs
    exact decode_missing hT hs (by simpa using List.all_eq_true.1 this k hk) hj
  · cases this

/-- **C37.** A 3.0 entity without one of its required keys does not decode, whatever else it has. -/
theorem C37_required30 (N : Nums) (n : String) (ks : List String) (h : (n, ks) ∈ Spec.required30) (k : String)
    (hk : k ∈ ks) (j : Any) (hj : ¬Spec.HasMember j k) : decode V30.table N (.named n) j = none :=
  decode_missing_of ranked30 (by decide +kernel) h hk hj

/-- **C37.** The same for 3.1 entities. -/
theorem C37_required31 (N : Nums) (n : String) (ks : List String) (h : (n, ks) ∈ Spec.required31) (k : String)
    (hk : k ∈ ks) (j : Any) (hj : ¬Spec.HasMember j k) : decode V31.table N (.named n) j = none :=
  decode_missing_of ranked31 (by decide +kernel) h hk hj

/-! ## Unknown keys -/

theorem mem_rest {T : Table} {N : Nums} {s : Struct} {ms : List (String × Any)} {k : String}
    (hk : k ∈ ms.map Prod.fst) (h1 : k ∉ s.known) (h2 : ∀ c ∈ s.consts, c.1 ≠ k)
    (h3 : ∀ c ∈ s.notConsts, c.1 ≠ k) : ∃ m, (k, m) ∈ restOf s (ms.map (memberOf T N)) := by
  rw [← mem_keys_lastWins] at hk
  obtain ⟨p, hp, rfl⟩ := List.mem_map.1 hk
  refine ⟨memberOf T N p, List.mem_filter.2 ⟨?_, ?_⟩⟩
  · rw [rawMap_obj]
    exact List.mem_map_of_mem hp
  · simp only [Bool.not_eq_eq_eq_not, Bool.not_true, Bool.or_eq_false_iff, List.any_eq_false, beq_iff_eq]
    refine ⟨⟨?_, fun c hc => h2 c hc⟩, fun c hc => h3 c hc⟩
    simpa using h1

theorem decode_unknown {T : Table} {N : Nums} (hT : Ranked T) {n : String} {s : Struct}
    (hn : GoMap.get? T n = some (.struct s)) (hs : s.strict = true) (ha : s.additional = none)
    {ms : List (String × Any)} {k : String} (hk : k ∈ ms.map Prod.fst) (h1 : k ∉ s.known)
    (h2 : ∀ c ∈ s.consts, c.1 ≠ k) (h3 : ∀ c ∈ s.notConsts, c.1 ≠ k)
    (h4 : ∀ q ∈ s.patterns, q.pat.matches k = false) : decode T N (.named n) (.obj ms) = none := by
  cases hd : decode T N (.named n) (.obj ms) with
  | none => rfl
  | some w =>
    exfalso
    obtain ⟨_, fvals, _, _, rvals, _, _, _, _, hr, _⟩ := (decode_struct_some hT hn).1 hd
    obtain ⟨m, hm⟩ := mem_rest (T := T) (N := N) (s := s) hk h1 h2 h3
    have hun : (k, m) ∈ (restOf s (ms.map (memberOf T N))).filter
        (fun p => !s.patterns.any (fun q => q.pat.matches p.1)) := by
      refine List.mem_filter.2 ⟨hm, ?_⟩
      simp only [Bool.not_eq_eq_eq_not, Bool.not_true, List.any_eq_false]
      exact fun q hq => by simp [h4 q hq]
    unfold decodeRest at hr
    simp only [membersOf, ha, hs] at hr
    split at hr
    · cases hr
    · rw [if_pos] at hr
      · cases hr
      · simp only [Bool.true_and, Bool.not_eq_eq_eq_not, Bool.not_true, List.isEmpty_eq_false_iff]
        exact List.ne_nil_of_mem hun

/-- The kind of keys a pattern stands for. -/
def kindOf : Pat → Option Spec.Kind
  | .x => some .extension
  | .slash => some .path
  | .status => some .status
  | _ => none

/-- The keys and patterns of a description are those of the list. -/
def closedCheck (T : Table) (c : Spec.Closed) : Bool :=
  match GoMap.get? T c.name with
  | some (.struct s) =>
    s.strict && s.additional.isNone && s.known.all (fun k => c.keys.contains k) &&
    s.consts.all (fun k => c.keys.contains k.1) && s.notConsts.all (fun k => c.keys.contains k.1) &&
    s.patterns.all (fun q => match kindOf q.pat with
      | some kd => c.kinds.contains kd
      | none => q.pat == .methods && ["get", "put", "post", "delete", "options", "head", "patch", "trace"].all
          (fun k => c.keys.contains k))
  | _ => false

theorem kindOf_is {q : Pat} {kd : Spec.Kind} (h : kindOf q = some kd) {k : String} :
    q.matches k = true ↔ kd.Is k := by
  cases q with
  | x => simp only [kindOf, Option.some.injEq] at h; subst h; exact x_matches
  | slash => simp only [kindOf, Option.some.injEq] at h; subst h; exact slash_matches
  | status => simp only [kindOf, Option.some.injEq] at h; subst h; exact status_matches
  | methods => cases h
  | name => cases h

/-- **C36.** A 3.0 entity with a key that is neither one of its keys nor of a kind it allows (an extension,
a path, a status) does not decode. -/
theorem C36_unknown30 (N : Nums) (c : Spec.Closed) (hc : c ∈ Spec.closed30) (ms : List (String × Any)) (k : String)
    (hk : k ∈ ms.map Prod.fst) (h1 : k ∉ c.keys) (h2 : ∀ kd ∈ c.kinds, ¬kd.Is k) :
    decode V30.table N (.named c.name) (.obj ms) = none := by
  have hall : Spec.closed30.all (closedCheck V30.table) = true := by decide +kernel
  have := List.all_eq_true.1 hall c hc
  unfold closedCheck at this
  split at this
  · rename_i s hs
    simp only [Bool.and_eq_true, List.all_eq_true, List.contains_iff_mem, Option.isNone_iff_eq_none] at this
    obtain ⟨⟨⟨⟨⟨a1, a2⟩, a3⟩, a4⟩, a5⟩, a6⟩ := this
    refine decode_unknown ranked30 hs a1 a2 hk (fun h => h1 (a3 k h)) (fun c hc e => h1 (e ▸ a4 c hc))
      (fun c hc e => h1 (e ▸ a5 c hc)) ?_
    intro q hq
    have := a6 q hq
    rw [← Bool.not_eq_true]
    intro hm
    cases hkd : kindOf q.pat with
    | some kd =>
      rw [hkd] at this
      exact h2 kd (List.contains_iff_mem.1 this) ((kindOf_is hkd).1 hm)
    | none =>
      rw [hkd] at this
      simp only [Bool.and_eq_true, beq_iff_eq, List.all_eq_true, List.contains_iff_mem] at this
      rw [this.1, methods_matches] at hm
      exact h1 (this.2 k hm)
  · cases this

/-- The keys and patterns of a description are among those of the list, and nothing is decoded from the
same value. -/
def openCheck (T : Table) (c : Spec.Closed) : Bool :=
  match GoMap.get? T c.name with
  | some (.struct s) =>
    !s.strict && s.additional.isNone && s.nots == [] && s.embeds == [] && s.oneOf == [] &&
    s.fields.all (fun f => c.keys.contains f.key) && s.require.all (fun k => c.keys.contains k) &&
    (match s.exactlyOne with
      | some (a, b) => c.keys.contains a && c.keys.contains b
      | none => true) &&
    s.consts.all (fun k => c.keys.contains k.1) && s.notConsts.all (fun k => c.keys.contains k.1) &&
    s.forbid.all (fun k => c.keys.contains k) && s.nulls.all (fun k => c.keys.contains k.2) &&
    s.patterns.all (fun q => match kindOf q.pat with
      | some kd => c.kinds.contains kd
      | none => false)
  | _ => false

/-- A member that is not of the list does not matter. -/
theorem dropped_of {T : Table} {N : Nums} (hT : Ranked T) {c : Spec.Closed} (this : openCheck T c = true)
    {ms ms' : List (String × Any)} {k : String} {v : Any} (h1 : ¬Spec.FoldsTo c.keys k)
    (h2 : ∀ kd ∈ c.kinds, ¬kd.Is k) :
    decode T N (.named c.name) (.obj (ms ++ (k, v) :: ms')) = decode T N (.named c.name) (.obj (ms ++ ms')) := by
  unfold openCheck at this
  split at this
  · rename_i s hs
    simp only [Bool.and_eq_true, List.all_eq_true, List.contains_iff_mem, Option.isNone_iff_eq_none,
      Bool.not_eq_eq_eq_not, Bool.not_true, beq_iff_eq] at this
    obtain ⟨⟨⟨⟨⟨⟨⟨⟨⟨⟨⟨⟨a1, a2⟩, a3⟩, a4⟩, a5⟩, a6⟩, a7⟩, a8⟩, a9⟩, a10⟩, a11⟩, a12⟩, a13⟩ := this
    have hkey : ∀ x ∈ c.keys, x ≠ k := fun x hx e => h1 ⟨x, hx, by rw [e]⟩
    have hirr : relevant s k = false := by
      unfold relevant
      simp only [Bool.or_eq_false_iff]
      refine ⟨⟨⟨⟨⟨⟨⟨?_, ?_⟩, ?_⟩, ?_⟩, ?_⟩, ?_⟩, ?_⟩, ?_⟩
      · cases hf : fieldOf s.fields k with
        | none => rfl
        | some f =>
          exfalso
          unfold fieldOf at hf
          split at hf
          · rename_i g hg
            exact hkey _ (a6 g (List.mem_of_find?_eq_some hg)) (by simpa using List.find?_some hg)
          · exact h1 ⟨f.key, a6 f (List.mem_of_find?_eq_some hf), by simpa using List.find?_some hf⟩
      · simp only [← Bool.not_eq_true, List.contains_iff_mem]
        exact fun h => hkey k (a7 k h) rfl
      · split
        · rename_i a b e
          rw [e] at a8
          simp only [Bool.and_eq_true, List.contains_iff_mem] at a8
          simp only [Bool.or_eq_false_iff, beq_eq_false_iff_ne]
          exact ⟨(hkey a a8.1).symm, (hkey b a8.2).symm⟩
        · rfl
      · simp only [List.any_eq_false, beq_iff_eq]
        exact fun x hx => hkey _ (a9 x hx)
      · simp only [List.any_eq_false, beq_iff_eq]
        exact fun x hx => hkey _ (a10 x hx)
      · simp only [← Bool.not_eq_true, List.contains_iff_mem]
        exact fun h => hkey k (a11 k h) rfl
      · simp only [List.any_eq_false, beq_iff_eq]
        exact fun x hx => hkey _ (a12 x hx)
      · simp only [List.any_eq_false]
        intro q hq hm
        have := a13 q hq
        cases hkd : kindOf q.pat with
        | some kd =>
          rw [hkd] at this
          exact h2 kd (List.contains_iff_mem.1 this) ((kindOf_is hkd).1 hm)
        | none => rw [hkd] at this; cases this
    rw [decode_frame hT hs a3 a4 a5 a1 a2, decode_frame hT hs a3 a4 a5 a1 a2 (ms := ms ++ ms')]
    congr 2
    simp [List.filter_append, hirr]
  · cases this

/-- **C36.** A 3.1 entity is read as if its unknown members were not there: a member whose key is not one of
the keys of the entity, not even in another case, and not of a kind it allows. -/
theorem C36_dropped31 (N : Nums) (c : Spec.Closed) (hc : c ∈ Spec.open31) (ms ms' : List (String × Any)) (k : String)
    (v : Any) (h1 : ¬Spec.FoldsTo c.keys k) (h2 : ∀ kd ∈ c.kinds, ¬kd.Is k) :
    decode V31.table N (.named c.name) (.obj (ms ++ (k, v) :: ms')) =
      decode V31.table N (.named c.name) (.obj (ms ++ ms')) :=
  dropped_of ranked31 (List.all_eq_true.1 (by decide +kernel : Spec.open31.all (openCheck V31.table) = true) c hc) h1 h2

/-! ## Extensions -/

/-- The struct keeps extensions in `MapOfAnything` and writes them. -/
def extensibleCheck (T : Table) (n : String) : Bool :=
  match GoMap.get? T n with
  | some (.struct s) =>
    s.patterns.contains ⟨.x, "MapOfAnything", .any⟩ && s.parts.contains (.hidden "MapOfAnything") &&
    hiddenTy s "MapOfAnything" == some (.map .any) && decide s.names.Nodup &&
    s.known.all (fun k => !Pat.x.matches k) && s.consts.all (fun c => !Pat.x.matches c.1) &&
    s.notConsts.all (fun c => !Pat.x.matches c.1)
  | _ => false

theorem extension_survives {T : Table} {N : Nums} (hT : Ranked T) {l : List String}
    (hl : l.all (extensibleCheck T) = true) {n : String} (hn : n ∈ l) {ms : List (String × Any)} {w : Val}
    (hd : decode T N (.named n) (.obj ms) = some w) {k : String} (hk : Spec.IsExtension k) {v : Any}
    (hv : Spec.lastValue ms k = some v) :
    ∃ a, decodeAny N v = some a ∧
      (∃ gs es, w = .struct gs ∧ GoMap.get? gs "MapOfAnything" = some (.map es) ∧ (k, .any a) ∈ es) ∧
      ∀ j, encode T (.named n) w = some j → ∃ ms', j = .obj ms' ∧ (k, a) ∈ ms' := by
  have := List.all_eq_true.1 hl n hn
  unfold extensibleCheck at this
  split at this
  · rename_i s hs
    simp only [Bool.and_eq_true, List.all_eq_true, List.contains_iff_mem, beq_iff_eq, decide_eq_true_eq,
      Bool.not_eq_eq_eq_not, Bool.not_true] at this
    obtain ⟨⟨⟨⟨⟨⟨a1, a2⟩, a3⟩, a4⟩, a5⟩, a6⟩, a7⟩ := this
    have hx : Pat.x.matches k = true := x_matches.2 hk
    obtain ⟨gs, es, x, rfl, h1, h2, h3⟩ := decode_pattern_entry hT hs hd a1 hx hv
      (fun h => by have := a5 k h; rw [hx] at this; cases this)
      (fun c hc e => by have := a6 c hc; rw [e, hx] at this; cases this)
      (fun c hc e => by have := a7 c hc; rw [e, hx] at this; cases this)
    obtain ⟨gs', e, hnames⟩ := decode_names hT hs hd
    cases e
    have hnd : (gs.map Prod.fst).Nodup := by rw [hnames]; exact a4
    rw [decode_any, Option.map_eq_some_iff] at h3
    obtain ⟨a, ha, rfl⟩ := h3
    refine ⟨a, ha, ⟨gs, es, rfl, GoMap.get?_of_mem hnd h1, h2⟩, ?_⟩
    intro j hj
    obtain ⟨ms', b, rfl, hb, hab⟩ := encode_pattern_entry hs hnd a2 a3 h1 h2 hj
    simp only [encode_any, Option.some.injEq] at hab
    subst hab
    exact ⟨ms', rfl, hb⟩
  · cases this

/-- **C38.** Every `x-` member of an extensible 3.0 entity is kept by decoding under its key, with its value
as `encoding/json` reads it, and encoding writes it. -/
theorem C38_extensions30 (N : Nums) (n : String) (hn : n ∈ Spec.extensible30) (ms : List (String × Any)) (w : Val)
    (hd : decode V30.table N (.named n) (.obj ms) = some w) (k : String) (hk : Spec.IsExtension k) (v : Any)
    (hv : Spec.lastValue ms k = some v) :
    ∃ a, decodeAny N v = some a ∧
      (∃ gs es, w = .struct gs ∧ GoMap.get? gs "MapOfAnything" = some (.map es) ∧ (k, .any a) ∈ es) ∧
      ∀ j, encode V30.table (.named n) w = some j → ∃ ms', j = .obj ms' ∧ (k, a) ∈ ms' :=
  extension_survives ranked30 (by decide +kernel) hn hd hk hv

/-- **C38.** The same for 3.1 entities. -/
theorem C38_extensions31 (N : Nums) (n : String) (hn : n ∈ Spec.extensible31) (ms : List (String × Any)) (w : Val)
    (hd : decode V31.table N (.named n) (.obj ms) = some w) (k : String) (hk : Spec.IsExtension k) (v : Any)
    (hv : Spec.lastValue ms k = some v) :
    ∃ a, decodeAny N v = some a ∧
      (∃ gs es, w = .struct gs ∧ GoMap.get? gs "MapOfAnything" = some (.map es) ∧ (k, .any a) ∈ es) ∧
      ∀ j, encode V31.table (.named n) w = some j → ∃ ms', j = .obj ms' ∧ (k, a) ∈ ms' :=
  extension_survives ranked31 (by decide +kernel) hn hd hk hv

/-! ## Alternatives -/

/-- The union has exactly the alternatives of the list and nothing else. -/
def unionCheck (T : Table) (u : String × List (String × Ty)) : Bool :=
  match GoMap.get? T u.1 with
  | some (.struct s) =>
    s == { oneOf := u.2.map (fun a => ⟨a.1, .ptr a.2⟩), parts := u.2.map (fun a => .hidden a.1) } &&
      !u.2.isEmpty && decide (u.2.map Prod.fst).Nodup
  | _ => false

theorem union_decodes {T : Table} {N : Nums} (hT : Ranked T) {l : List (String × List (String × Ty))}
    (hl : l.all (unionCheck T) = true) {n : String} {alts : List (String × Ty)} (hn : (n, alts) ∈ l) {j : Any}
    {w : Val} :
    decode T N (.named n) j = some w ↔
      ∃ go t v, (go, t) ∈ alts ∧ decode T N (.ptr t) j = some v ∧
        (∀ go' t', (go', t') ∈ alts → go' ≠ go → decode T N (.ptr t') j = none) ∧
        w = .struct (alts.map (fun a => (a.1, if a.1 = go then v else .nil))) := by
  have := List.all_eq_true.1 hl _ hn
  unfold unionCheck at this
  split at this
  · rename_i s hs
    simp only [Bool.and_eq_true, beq_iff_eq, decide_eq_true_eq, Bool.not_eq_eq_eq_not, Bool.not_true] at this
    obtain ⟨⟨a1, a2⟩, a3⟩ := this
    have hne : alts.map (fun a => (⟨a.1, .ptr a.2⟩ : Hidden)) ≠ [] := by
      cases alts with
      | nil => cases a2
      | cons _ _ => simp
    have hnd : ((alts.map (fun a => (⟨a.1, .ptr a.2⟩ : Hidden))).map Hidden.go).Nodup := by
      rw [List.map_map]; exact a3
    rw [decode_struct_some hT hs]
    subst a1
    simp only
    constructor
    · rintro ⟨_, fvals, evals, ovals, rvals, h1, h2, h3, h4, h5, rfl⟩
      have e1 : fvals = [] := by
        have := decodeFields_names h1
        simpa using this
      have e2 : evals = [] := by
        have := decodeEmbeds_names h2
        simpa using this
      have e5 : rvals = [] := by
        simp only [decodeRest, mapAll, Bool.false_and, Bool.false_eq_true, if_false, Option.some.injEq] at h5
        exact h5.symm
      subst e1; subst e2; subst e5
      obtain ⟨e, he, v, hv, ho, rfl⟩ := (decodeOneOf_some hne hnd).1 h3
      obtain ⟨⟨go, t⟩, ha, rfl⟩ := List.mem_map.1 he
      refine ⟨go, t, v, ha, hv, ?_, ?_⟩
      · intro go' t' ha' hgo
        exact ho ⟨go', .ptr t'⟩ (List.mem_map.2 ⟨(go', t'), ha', rfl⟩) hgo
      · simp [Function.comp_def]
    · rintro ⟨go, t, v, ha, hv, ho, rfl⟩
      refine ⟨(fun t ht => by cases ht), [], [], alts.map (fun a => (a.1, if a.1 = go then v else .nil)), [], ?_, rfl,
        ?_, ?_, ?_, ?_⟩
      · simp [decodeFields]
      · rw [decodeOneOf_some hne hnd]
        refine ⟨⟨go, .ptr t⟩, List.mem_map.2 ⟨(go, t), ha, rfl⟩, v, hv, ?_, ?_⟩
        · rintro e' he' hgo
          obtain ⟨⟨go', t'⟩, ha', rfl⟩ := List.mem_map.1 he'
          exact ho go' t' ha' hgo
        · simp [Function.comp_def]
      · rfl
      · simp [decodeRest, mapAll]
      · simp
  · cases this

/-- **C39.** A value-or-reference entity of 3.0 decodes exactly if one of its alternatives decodes and the
others do not; then the decoded alternative is set and the others are nil. -/
theorem C39_union30 (N : Nums) (n : String) (alts : List (String × Ty)) (hn : (n, alts) ∈ Spec.unions30) (j : Any)
    (w : Val) :
    decode V30.table N (.named n) j = some w ↔
      ∃ go t v, (go, t) ∈ alts ∧ decode V30.table N (.ptr t) j = some v ∧
        (∀ go' t', (go', t') ∈ alts → go' ≠ go → decode V30.table N (.ptr t') j = none) ∧
        w = .struct (alts.map (fun a => (a.1, if a.1 = go then v else .nil))) :=
  union_decodes ranked30 (by decide +kernel) hn

/-- **C39.** The same for 3.1. -/
theorem C39_union31 (N : Nums) (n : String) (alts : List (String × Ty)) (hn : (n, alts) ∈ Spec.unions31) (j : Any)
    (w : Val) :
    decode V31.table N (.named n) j = some w ↔
      ∃ go t v, (go, t) ∈ alts ∧ decode V31.table N (.ptr t) j = some v ∧
        (∀ go' t', (go', t') ∈ alts → go' ≠ go → decode V31.table N (.ptr t') j = none) ∧
        w = .struct (alts.map (fun a => (a.1, if a.1 = go then v else .nil))) :=
  union_decodes ranked31 (by decide +kernel) hn

end Verif
