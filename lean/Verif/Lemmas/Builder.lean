import Verif.Spec.Builder
import Verif.Lemmas.RoundTrip

/-! Lemmas about builder methods. -/

namespace Verif.Build
open Codec Spec

variable {T : Table}

/-! ## Fields -/

theorem members_names (s : Struct) : s.members.map Prod.fst = s.names := by
  unfold Struct.members Struct.names Struct.hidden
  cases s.additional <;> simp [Function.comp_def]

theorem member_name {s : Struct} {m : String × Ty} (h : m ∈ s.members) : m.1 ∈ s.names := by
  rw [← members_names]; exact List.mem_map_of_mem h

theorem get?_map_in {names : List String} {val : String → Val} {go : String} (h : go ∈ names) :
    GoMap.get? (names.map (fun go => (go, val go))) go = some (val go) := by
  induction names with
  | nil => cases h
  | cons a names ih =>
    simp only [List.map_cons, GoMap.get?]
    by_cases e : a = go
    · simp [e]
    · rw [if_neg e]
      rcases List.mem_cons.1 h with h | h
      · exact absurd h.symm e
      · exact ih h

theorem get?_map_out {names : List String} {val : String → Val} {go : String} (h : go ∉ names) :
    GoMap.get? (names.map (fun go => (go, val go))) go = none := by
  induction names with
  | nil => rfl
  | cons a names ih =>
    simp only [List.map_cons, GoMap.get?]
    rw [if_neg (fun e : a = go => h (e ▸ List.mem_cons_self)), ih (fun e => h (List.mem_cons_of_mem _ e))]

theorem field_structOf {s : Struct} {val : String → Val} {go : String} (h : go ∈ s.names) :
    (structOf s val).field go = val go := by
  simp only [structOf, Val.field, get?_map_in h, Option.getD]

/-- One field replaced. -/
def upd (val : String → Val) (go : String) (w : Val) : String → Val := fun g => if g = go then w else val g

theorem set_map {names : List String} (hnd : names.Nodup) {val : String → Val} {go : String} {w : Val} (h : go ∈ names) :
    GoMap.set (names.map (fun g => (g, val g))) go w = names.map (fun g => (g, upd val go w g)) := by
  induction names with
  | nil => cases h
  | cons a names ih =>
    simp only [List.map_cons, GoMap.set]
    rw [List.nodup_cons] at hnd
    by_cases e : a = go
    · subst e
      rw [if_pos rfl]
      simp only [upd, if_pos]
      congr 1
      apply List.map_congr_left
      intro g hg
      rw [if_neg (fun e : g = a => hnd.1 (e ▸ hg))]
    · rw [if_neg e]
      rcases List.mem_cons.1 h with h | h
      · exact absurd h.symm e
      · rw [ih hnd.2 h]
        simp [upd, e]

theorem setField_structOf {s : Struct} (hnd : s.names.Nodup) {val : String → Val} {go : String} (w : Val)
    (h : go ∈ s.names) : (structOf s val).setField go w = structOf s (upd val go w) := by
  simp only [structOf, Val.setField, set_map hnd h]

theorem structOf_ext {s : Struct} {val val' : String → Val} (h : ∀ go ∈ s.names, val go = val' go) :
    structOf s val = structOf s val' := by
  unfold structOf
  congr 1
  apply List.map_congr_left
  intro g hg
  rw [h g hg]

/-! ## Types -/

/-- Values of these types are never nil. -/
def solid : Ty → Bool
  | .ptr _ => false
  | .slice _ => false
  | .map _ => false
  | _ => true

theorem of_solid {t : Ty} {v : Val} (ht : solid t = true) (h : Of T t v) : v ≠ .nil := by
  cases h <;> first | (cases ht; done) | (intro e; cases e)

/-- What is checked of a struct type and its methods. -/
structure Fine (T : Table) (n : String) (s : Struct) (bs : List Builder) : Prop where
  nodup : s.names.Nodup
  /-- every method is one of a field -/
  only : ∀ b ∈ bs, ∃ m ∈ s.members, b ∈ methodsOf T n m
  /-- every field has its methods -/
  all : ∀ m ∈ s.members, ∀ b ∈ methodsOf T n m, b ∈ bs
  solid : ∀ m ∈ s.members, ∀ t, m.2 = .ptr t → solid t = true

def fine (T : Table) (n : String) (s : Struct) (bs : List Builder) : Bool :=
  decide s.names.Nodup && bs.all (fun b => s.members.any (fun m => (methodsOf T n m).contains b)) &&
    s.members.all (fun m => (methodsOf T n m).all (fun b => bs.contains b)) &&
    s.members.all (fun m => match m.2 with
      | .ptr t => solid t
      | _ => true)

theorem fine_of {n : String} {s : Struct} {bs : List Builder} (h : fine T n s bs = true) : Fine T n s bs := by
  simp only [fine, Bool.and_eq_true, decide_eq_true_eq, List.all_eq_true, List.any_eq_true, List.contains_iff_mem] at h
  obtain ⟨⟨⟨h1, h2⟩, h3⟩, h4⟩ := h
  refine ⟨h1, fun b hb => h2 b hb, fun m hm b hb => h3 m hm b hb, fun m hm t ht => ?_⟩
  have := h4 m hm
  rw [ht] at this
  exact this

/-- The same for all types; the zero values of all types are complete. -/
structure FineAll (T : Table) (B : GoMap (List Builder)) : Prop where
  fine : ∀ n s, GoMap.get? T n = some (.struct s) → Fine T n s ((GoMap.get? B n).getD [])
  owner : ∀ n bs, GoMap.get? B n = some bs → ∃ s, GoMap.get? T n = some (.struct s)

def fineAll (T : Table) (B : GoMap (List Builder)) : Bool :=
  T.all (fun p => match p.2 with
    | .struct s => fine T p.1 s ((GoMap.get? B p.1).getD [])
    | _ => true) &&
  B.all (fun p => match GoMap.get? T p.1 with
    | some (.struct _) => true
    | _ => false)

theorem fineAll_of {B : GoMap (List Builder)} (h : fineAll T B = true) : FineAll T B := by
  simp only [fineAll, Bool.and_eq_true, List.all_eq_true] at h
  refine ⟨fun n s hn => fine_of (h.1 _ (get?_mem hn)), fun n bs hn => ?_⟩
  have := h.2 _ (get?_mem hn)
  simp only at this
  split at this
  · exact ⟨_, by assumption⟩
  · cases this

/-! ## Zero values -/

/-- The bound is enough for a type. -/
def zeroOk (T : Table) : Nat → Ty → Bool
  | r, .named n =>
    match GoMap.get? T n with
    | some (.struct s) =>
      match r with
      | 0 => false
      | r + 1 => s.members.all (fun m => zeroOk T r m.2)
    | some (.enum _) => true
    | none => false
  | _, _ => true

theorem zero_of : ∀ {r : Nat} {ty : Ty}, (∀ n s, GoMap.get? T n = some (.struct s) → s.names.Nodup) →
    zeroOk T r ty = true → Of T ty (zeroVal T r ty)
  | r, .named n, hnd, h => by
    unfold zeroOk at h
    unfold zeroVal
    cases hn : GoMap.get? T n with
    | none => simp [hn] at h
    | some d =>
      cases d with
      | enum vs => exact .enum hn ""
      | struct s =>
        simp only [hn] at h ⊢
        cases r with
        | zero => cases h
        | succ r =>
          simp only [List.all_eq_true] at h
          have e : (Val.struct (s.members.map (fun m => (m.1, zeroVal T r m.2)))) =
              structOf s (fun go => (GoMap.get? (s.members.map (fun m => (m.1, zeroVal T r m.2))) go).getD .nil) := by
            unfold structOf
            congr 1
            rw [← members_names, List.map_map]
            apply List.map_congr_left
            intro m hm
            have := GoMap.get?_of_mem (m := s.members.map (fun m => (m.1, zeroVal T r m.2)))
              (by simpa [GoMap.WF, GoMap.keys, Function.comp_def, members_names] using (members_names s) ▸ hnd n s hn)
              (List.mem_map_of_mem hm)
            simp only [Function.comp_def, this, Option.getD]
          show Of T (.named n) (Val.struct (s.members.map (fun m => (m.1, zeroVal T r m.2))))
          rw [e]
          refine .struct hn _ (fun m hm => ?_)
          have := GoMap.get?_of_mem (m := s.members.map (fun m => (m.1, zeroVal T r m.2)))
              (by simpa [GoMap.WF, GoMap.keys, Function.comp_def, members_names] using (members_names s) ▸ hnd n s hn)
              (List.mem_map_of_mem hm)
          simp only [this, Option.getD]
          exact zero_of hnd (h m hm)
  | _, .any, _, _ => by simp only [zeroVal]; exact .any _
  | _, .bool, _, _ => by simp only [zeroVal]; exact .bool _
  | _, .str, _, _ => by simp only [zeroVal]; exact .str _
  | _, .int, _, _ => by simp only [zeroVal]; exact .int _
  | _, .float, _, _ => by simp only [zeroVal]; exact .float _
  | _, .ptr _, _, _ => by simp only [zeroVal]; exact .nilPtr _
  | _, .slice _, _, _ => by simp only [zeroVal]; exact .nilSlice _
  | _, .map _, _, _ => by simp only [zeroVal]; exact .nilMap _

/-- New values of all types are complete. -/
def FreshOk (T : Table) : Prop := ∀ n s, GoMap.get? T n = some (.struct s) → Of T (.named n) (fresh T (.named n))

theorem fresh_of {B : GoMap (List Builder)} (hf : FineAll T B) (h : T.all (fun p => zeroOk T 8 (.named p.1)) = true) :
    FreshOk T := by
  intro n s hn
  exact zero_of (fun n s hn => (hf.fine n s hn).nodup) (List.all_eq_true.mp h _ (get?_mem hn))

/-! ## Calls -/

variable {B : GoMap (List Builder)}

/-- What a method of a type is about. -/
theorem method_field (hf : FineAll T B) {n : String} {bs : List Builder} (hn : GoMap.get? B n = some bs) {b : Builder}
    (hb : b ∈ bs) : ∃ s, GoMap.get? T n = some (.struct s) ∧ Fine T n s bs ∧ ∃ m ∈ s.members, b ∈ methodsOf T n m := by
  obtain ⟨s, hs⟩ := hf.owner n bs hn
  have h := hf.fine n s hs
  rw [hn] at h
  exact ⟨s, hs, h, h.only b hb⟩

theorem methodsOf_field {n : String} {m : String × Ty} {b : Builder} (h : b ∈ methodsOf T n m) :
    b.field = m.1 ∧ b.recv = n ∧
      ((b.kind = .set ∧ m.2 = b.arg) ∨ (b.kind = .setPtr ∧ m.2 = .ptr b.arg) ∨ (b.kind = .item ∧ m.2 = .map b.arg) ∨
        (b.kind = .ens ∧ m.2 = .ptr b.arg ∧ ∃ k s, b.arg = .named k ∧ GoMap.get? T k = some (.struct s))) := by
  obtain ⟨go, ty⟩ := m
  unfold methodsOf at h
  simp only at h
  split at h
  · split at h
    · rename_i k _ _ hk
      rcases List.mem_cons.1 h with rfl | h
      · simp
      · rw [List.mem_singleton] at h; subst h
        simp only [reduceCtorEq, false_and, true_and, false_or]
        exact ⟨k, _, rfl, hk⟩
    · rw [List.mem_singleton] at h; subst h; simp
  · rw [List.mem_singleton] at h; subst h; simp
  · rcases List.mem_cons.1 h with rfl | h
    · simp
    · rw [List.mem_singleton] at h; subst h; simp
  · rw [List.mem_singleton] at h; subst h; simp

/-- The field after a call. -/
def effect (T : Table) (c : Call) (old : Val) : Val :=
  match c.m.kind with
  | .set => c.val
  | .setPtr => c.val
  | .item => .map (GoMap.set old.items c.key c.val)
  | .ens => ensured T c.m.arg old

theorem run_eq (c : Call) (v : Val) : c.run T v = v.setField c.m.field (effect T c (v.field c.m.field)) := by
  unfold Call.run effect
  cases c.m.kind <;> rfl

theorem leaves_effect (c : Call) (old : Val) : Leaves T c old (effect T c old) := by
  unfold effect
  cases hk : c.m.kind with
  | set => exact .set (.inl hk)
  | setPtr => exact .set (.inr hk)
  | item => exact .item hk (fun k => GoMap.get?_set _ _ _ _)
  | ens =>
    simp only
    cases old with
    | nil => exact .make hk rfl
    | _ => exact .keep hk (by simp)

/-- A struct value is given by its fields. -/
theorem of_struct_inv {n : String} {s : Struct} (hn : GoMap.get? T n = some (.struct s)) {v : Val}
    (h : Of T (.named n) v) : ∃ val, v = structOf s val ∧ ∀ m ∈ s.members, Of T m.2 (val m.1) := by
  cases h with
  | enum hn' _ => rw [hn] at hn'; cases hn'
  | struct hn' val h =>
    rw [hn] at hn'
    cases hn'
    exact ⟨val, rfl, h⟩

theorem member_ty {s : Struct} (hnd : s.names.Nodup) {m m' : String × Ty} (h : m ∈ s.members) (h' : m' ∈ s.members)
    (e : m.1 = m'.1) : m = m' := by
  have hw : GoMap.WF (V := Ty) s.members := by
    unfold GoMap.WF GoMap.keys; rw [members_names]; exact hnd
  have h1 := GoMap.get?_of_mem hw (k := m.1) (v := m.2) h
  have h2 := GoMap.get?_of_mem hw (k := m'.1) (v := m'.2) h'
  rw [e, h2] at h1
  cases m; cases m'
  simp_all

theorem of_upd {n : String} {s : Struct} (hn : GoMap.get? T n = some (.struct s)) (hnd : s.names.Nodup) {val : String → Val}
    (h : ∀ m ∈ s.members, Of T m.2 (val m.1)) {m : String × Ty} (hm : m ∈ s.members) {w : Val} (hw : Of T m.2 w) :
    Of T (.named n) (structOf s (upd val m.1 w)) := by
  refine .struct hn _ (fun m' hm' => ?_)
  unfold upd
  split
  · rename_i e
    rw [member_ty hnd hm' hm e]
    exact hw
  · exact h m' hm'

theorem ensured_of (hfr : FreshOk T) {k : String} {s : Struct} (hk : GoMap.get? T k = some (.struct s)) {old : Val}
    (h : Of T (.ptr (.named k)) old) : Of T (.named k) (ensured T (.named k) old) := by
  cases h with
  | nilPtr => exact hfr k s hk
  | ptr hv h =>
    unfold ensured
    split
    · exact absurd rfl hv
    · exact h

theorem of_named_ne {k : String} {v : Val} (h : Of T (.named k) v) : v ≠ .nil := of_solid rfl h

theorem items_of {t : Ty} {old : Val} (h : Of T (.map t) old) :
    (old.items.map Prod.fst).Nodup ∧ ∀ k v, (k, v) ∈ old.items → Of T t v := by
  cases h with
  | nilMap => exact ⟨List.nodup_nil, fun _ _ h => by cases h⟩
  | map hk h => exact ⟨hk, h⟩

theorem set_nodup {V : Type} {m : GoMap V} (h : (List.map Prod.fst m).Nodup) (k : String) (v : V) :
    (List.map Prod.fst (GoMap.set m k v)).Nodup ∧ ∀ p ∈ GoMap.set m k v, p = (k, v) ∨ p ∈ m := by
  induction m with
  | nil => simp [GoMap.set]
  | cons p m ih =>
    obtain ⟨a, b⟩ := p
    simp only [List.map_cons, List.nodup_cons] at h
    obtain ⟨i1, i2⟩ := ih h.2
    simp only [GoMap.set]
    split
    · rename_i e
      subst e
      refine ⟨by simpa using h, fun p hp => ?_⟩
      rcases List.mem_cons.1 hp with rfl | hp
      · exact .inl rfl
      · exact .inr (List.mem_cons_of_mem _ hp)
    · rename_i e
      refine ⟨?_, fun p hp => ?_⟩
      · simp only [List.map_cons, List.nodup_cons]
        refine ⟨fun hm => ?_, i1⟩
        obtain ⟨p, hp, hpe⟩ := List.mem_map.1 hm
        rcases i2 p hp with rfl | hp
        · exact e hpe.symm
        · exact h.1 (List.mem_map.2 ⟨p, hp, hpe⟩)
      · rcases List.mem_cons.1 hp with rfl | hp
        · exact .inr List.mem_cons_self
        · rcases i2 p hp with h | h
          · exact .inl h
          · exact .inr (List.mem_cons_of_mem _ h)

/-- What a call leaves in its field is of the type of the field. -/
theorem effect_of (hfr : FreshOk T) {s : Struct} {n : String} {bs : List Builder} (hfn : Fine T n s bs)
    {c : Call} {m : String × Ty} (hm : m ∈ s.members) (hb : c.m ∈ methodsOf T n m)
    (hv : c.m.kind ≠ .ens → Of T c.m.arg c.val) {old : Val} (ho : Of T m.2 old) : Of T m.2 (effect T c old) := by
  obtain ⟨_, _, h⟩ := methodsOf_field hb
  unfold effect
  rcases h with ⟨hk, ht⟩ | ⟨hk, ht⟩ | ⟨hk, ht⟩ | ⟨hk, ht, k, sk, hka, hks⟩
  · rw [hk, ht]; exact hv (by rw [hk]; decide)
  · rw [hk, ht]
    have := hv (by rw [hk]; decide)
    exact .ptr (of_solid (hfn.solid m hm _ ht) this) this
  · rw [hk, ht]
    rw [ht] at ho
    obtain ⟨h1, h2⟩ := items_of ho
    obtain ⟨h3, h4⟩ := set_nodup h1 c.key c.val
    refine .map h3 (fun k v hkv => ?_)
    rcases h4 _ hkv with e | hp
    · cases e; exact hv (by rw [hk]; decide)
    · exact h2 k v hp
  · rw [hk, ht]
    rw [ht, hka] at ho
    simp only
    rw [hka]
    have := ensured_of hfr hks ho
    exact .ptr (of_named_ne this) this

/-- A call replaces one field. -/
theorem run_structOf (hf : FineAll T B) (hfr : FreshOk T) {n : String} {s : Struct} (hn : GoMap.get? T n = some (.struct s))
    {c : Call} (hc : CallOk T B n c) {val : String → Val} (h : ∀ m ∈ s.members, Of T m.2 (val m.1)) :
    c.m.field ∈ s.names ∧ c.run T (structOf s val) = structOf s (upd val c.m.field (effect T c (val c.m.field))) ∧
      ∀ m ∈ s.members, Of T m.2 (upd val c.m.field (effect T c (val c.m.field)) m.1) := by
  obtain ⟨⟨bs, hbs, hb⟩, hv⟩ := hc
  obtain ⟨s', hs', hfn, m, hm, hmb⟩ := method_field hf hbs hb
  rw [hn] at hs'; cases hs'
  obtain ⟨hfield, _, _⟩ := methodsOf_field hmb
  have hin : c.m.field ∈ s.names := hfield ▸ member_name hm
  refine ⟨hin, ?_, ?_⟩
  · rw [run_eq, setField_structOf hfn.nodup _ hin, field_structOf hin]
  · intro m' hm'
    unfold upd
    split
    · rename_i e
      have em := member_ty hfn.nodup hm' hm (e.trans hfield)
      subst em
      rw [hfield]
      exact effect_of hfr hfn hm hmb hv (h _ hm)
    · exact h m' hm'

/-- The value of a field after several calls: only the calls for that field matter. -/
def effects (T : Table) (go : String) (cs : List Call) (old : Val) : Val :=
  cs.foldl (fun v c => if c.m.field = go then effect T c v else v) old

theorem runCalls_structOf (hf : FineAll T B) (hfr : FreshOk T) {n : String} {s : Struct}
    (hn : GoMap.get? T n = some (.struct s)) {cs : List Call} (hcs : ∀ c ∈ cs, CallOk T B n c) :
    ∀ {val : String → Val}, (∀ m ∈ s.members, Of T m.2 (val m.1)) →
      runCalls T cs (structOf s val) = structOf s (fun go => effects T go cs (val go)) ∧
      ∀ m ∈ s.members, Of T m.2 (effects T m.1 cs (val m.1)) := by
  induction cs with
  | nil => intro val h; exact ⟨rfl, h⟩
  | cons c cs ih =>
    intro val h
    obtain ⟨_, h2, h3⟩ := run_structOf hf hfr hn (hcs c List.mem_cons_self) h
    obtain ⟨i1, i2⟩ := ih (fun c hc => hcs c (List.mem_cons_of_mem _ hc)) h3
    have e : ∀ go, effects T go cs (upd val c.m.field (effect T c (val c.m.field)) go) =
        effects T go (c :: cs) (val go) := by
      intro go
      simp only [effects, List.foldl_cons, upd]
      by_cases e : go = c.m.field
      · subst e; simp
      · rw [if_neg e, if_neg (fun h => e h.symm)]
    refine ⟨?_, fun m hm => by rw [← e]; exact i2 m hm⟩
    show runCalls T cs (c.run T (structOf s val)) = _
    rw [h2, i1]
    exact structOf_ext (fun go _ => e go)

theorem effects_filter (go : String) (cs : List Call) (old : Val) :
    effects T go cs old = (cs.filter (fun c => c.m.field = go)).foldl (fun v c => effect T c v) old := by
  induction cs generalizing old with
  | nil => rfl
  | cons c cs ih =>
    simp only [effects, List.foldl_cons, List.filter_cons]
    by_cases e : c.m.field = go
    · simp only [e, decide_true, if_true, List.foldl_cons]; exact ih _
    · simp only [e, decide_false, if_false, Bool.false_eq_true]; exact ih _

theorem effects_append (go : String) (cs ds : List Call) (old : Val) :
    effects T go (cs ++ ds) old = effects T go ds (effects T go cs old) := by
  simp only [effects, List.foldl_append]

theorem effects_none {go : String} {cs : List Call} (h : ∀ c ∈ cs, c.m.field ≠ go) (old : Val) :
    effects T go cs old = old := by
  induction cs generalizing old with
  | nil => rfl
  | cons c cs ih =>
    simp only [effects, List.foldl_cons]
    rw [if_neg (h c List.mem_cons_self)]
    exact ih (fun c hc => h c (List.mem_cons_of_mem _ hc)) old

/-- An entry survives calls that do not replace it. -/
theorem effects_entry {go k : String} {w : Val} {cs : List Call}
    (h : ∀ c ∈ cs, c.m.field = go → c.m.kind = .item ∧ c.key ≠ k) {old : Val}
    (ho : ∃ es, old = .map es ∧ GoMap.get? es k = some w) :
    ∃ es, effects T go cs old = .map es ∧ GoMap.get? es k = some w := by
  induction cs generalizing old with
  | nil => exact ho
  | cons c cs ih =>
    simp only [effects, List.foldl_cons]
    refine ih (fun c hc => h c (List.mem_cons_of_mem _ hc)) ?_
    split
    · rename_i e
      obtain ⟨hk, hne⟩ := h c List.mem_cons_self e
      obtain ⟨es, rfl, hes⟩ := ho
      refine ⟨_, by simp only [effect, hk]; rfl, ?_⟩
      rw [GoMap.get?_set_ne _ _ (Ne.symm hne)]
      exact hes
    · exact ho

/-! ## Chains -/

theorem leads_prefix {n m : String} {path : List Builder} (h : Leads B n path m) {p q : List Builder} (e : path = p ++ q) :
    ∃ k, Leads B n p k := by
  induction h generalizing p with
  | here n =>
    cases p with
    | nil => exact ⟨_, .here _⟩
    | cons => cases e
  | into h1 h2 h3 h4 _ ih =>
    cases p with
    | nil => exact ⟨_, .here _⟩
    | cons a p =>
      simp only [List.cons_append, List.cons.injEq] at e
      obtain ⟨rfl, e⟩ := e
      obtain ⟨k, h⟩ := ih e
      exact ⟨k, .into h1 h2 h3 h4 h⟩

theorem runInside_of (hf : FineAll T B) (hfr : FreshOk T) {n m : String} {path : List Builder} (hp : Leads B n path m)
    {f : Val → Val} (hfm : ∀ v, Of T (.named m) v → Of T (.named m) (f v)) :
    ∀ {v : Val}, Of T (.named n) v → Of T (.named n) (runInside T path f v) ∧
      fieldAt (runInside T path f v) (path.map Builder.field) =
        f (match fieldAt v (path.map Builder.field) with
          | .nil => fresh T (.named m)
          | x => x) ∧
      ∀ p b q, path = p ++ b :: q → ∀ g, g ≠ b.field →
        (fieldAt v (p.map Builder.field) ≠ .nil →
          fieldAt (runInside T path f v) (p.map Builder.field ++ [g]) = fieldAt v (p.map Builder.field ++ [g])) ∧
        (fieldAt v (p.map Builder.field) = .nil →
          fieldAt (runInside T path f v) (p.map Builder.field ++ [g]) = (fresh T (.named b.recv)).field g) := by
  induction hp with
  | here n =>
    intro v hv
    refine ⟨hfm v hv, ?_, fun p b q h => ?_⟩
    · simp only [runInside, List.map_nil, fieldAt]
      cases v with
      | nil => exact absurd rfl (of_named_ne hv)
      | _ => rfl
    · cases p <;> cases h
  | @into n m k b bs path hbs hb hk ha hpath ih =>
    intro v hv
    obtain ⟨s, hs, hfn, mem, hm, hmb⟩ := method_field hf hbs hb
    obtain ⟨hfield, hrecv, hcases⟩ := methodsOf_field hmb
    obtain ⟨val, rfl, hval⟩ := of_struct_inv hs hv
    have hin : b.field ∈ s.names := hfield ▸ member_name hm
    obtain ⟨k', sk, hka, hks⟩ : ∃ k' sk, b.arg = .named k' ∧ GoMap.get? T k' = some (.struct sk) := by
      rcases hcases with ⟨h, _⟩ | ⟨h, _⟩ | ⟨h, _⟩ | ⟨_, _, h⟩
      · rw [hk] at h; cases h
      · rw [hk] at h; cases h
      · rw [hk] at h; cases h
      · exact h
    have ht : mem.2 = .ptr b.arg := by
      rcases hcases with ⟨h, _⟩ | ⟨h, _⟩ | ⟨h, _⟩ | ⟨_, h, _⟩
      · rw [hk] at h; cases h
      · rw [hk] at h; cases h
      · rw [hk] at h; cases h
      · exact h
    rw [ha] at hka ht
    cases hka
    have hold : Of T (.ptr (.named m)) (val b.field) := by
      rw [hfield, ← ht]; exact hval mem hm
    have hens := ensured_of hfr hks hold
    obtain ⟨i1, i2, i3⟩ := ih hfm hens
    have hrun : runInside T (b :: path) f (structOf s val) =
        structOf s (upd val b.field (runInside T path f (ensured T (.named m) (val b.field)))) := by
      simp only [runInside, ha]
      rw [setField_structOf hfn.nodup _ hin, field_structOf hin]
    have hnew : Of T mem.2 (runInside T path f (ensured T (.named m) (val b.field))) := by
      rw [ht]; exact .ptr (of_named_ne i1) i1
    have hof := of_upd hs hfn.nodup hval hm hnew
    rw [← hfield] at hof
    have hins : ∀ rest, fieldAt (runInside T (b :: path) f (structOf s val)) (b.field :: rest) =
        fieldAt (runInside T path f (ensured T (.named m) (val b.field))) rest := by
      intro rest
      rw [hrun]
      simp only [fieldAt]
      rw [field_structOf hin]
      simp [upd]
    have hnil : ∀ rest, fieldAt .nil rest = .nil := by
      intro rest
      induction rest with
      | nil => rfl
      | cons a rest ih => exact ih
    have hsame : val b.field ≠ .nil → ensured T (.named m) (val b.field) = val b.field := by
      intro h
      unfold ensured
      split
      · rename_i e; exact absurd e h
      · rfl
    have hval0 : ∀ rest, fieldAt (structOf s val) (b.field :: rest) = fieldAt (val b.field) rest := by
      intro rest; simp only [fieldAt]; rw [field_structOf hin]
    -- a new struct has no further pointers
    have hfresh : ∀ b' rest, (∃ bs', GoMap.get? B m = some bs' ∧ b' ∈ bs') → b'.kind = .ens →
        fieldAt (fresh T (.named m)) (b'.field :: rest) = .nil := by
      intro b' rest ⟨bs', hbs', hb'⟩ hk'
      obtain ⟨s', hs', hfn', mem', hm', hmb'⟩ := method_field hf hbs' hb'
      obtain ⟨hfield', _, hcases'⟩ := methodsOf_field hmb'
      have ht' : mem'.2 = .ptr b'.arg := by
        rcases hcases' with ⟨h, _⟩ | ⟨h, _⟩ | ⟨h, _⟩ | ⟨_, h, _⟩
        · rw [hk'] at h; cases h
        · rw [hk'] at h; cases h
        · rw [hk'] at h; cases h
        · exact h
      have hz : (fresh T (.named m)).field b'.field = .nil := by
        unfold fresh zeroVal
        simp only [hs', Val.field]
        have := GoMap.get?_of_mem (m := s'.members.map (fun m => (m.1, zeroVal T 7 m.2)))
          (by simpa [GoMap.WF, GoMap.keys, Function.comp_def, members_names] using (members_names s') ▸ hfn'.nodup)
          (List.mem_map_of_mem hm')
        rw [hfield', this, ht']
        simp only [zeroVal, Option.getD]
      simp only [fieldAt]
      rw [hz]; exact hnil rest
    have hat : ∀ p q k'', path = p ++ q → Leads B m p k'' → (p = [] ∨ val b.field ≠ .nil ∨
        fieldAt (ensured T (.named m) (val b.field)) (p.map Builder.field) = .nil) := by
      intro p q k'' _ hl
      cases hl with
      | here => exact .inl rfl
      | into hn' hb' hk' _ _ =>
        by_cases hv : val b.field = .nil
        · refine .inr (.inr ?_)
          rw [hv]
          exact hfresh _ _ ⟨_, hn', hb'⟩ hk'
        · exact .inr (.inl hv)
    have hprefix : ∀ p q, path = p ++ q → ∃ k'', Leads B m p k'' := fun p q e => leads_prefix hpath e
    refine ⟨by rw [hrun]; exact hof, ?_, ?_⟩
    · rw [List.map_cons, hins, i2, hval0]
      congr 1
      by_cases hv : val b.field = .nil
      · rw [hv, hnil]
        obtain h := hat path [] k (by simp) hpath
        rcases h with rfl | h | h
        · cases hpath
          simp only [List.map_nil, fieldAt, ensured]
          have := of_named_ne (hfr m sk hks)
          cases hz : fresh T (.named m) with
          | nil => exact absurd hz this
          | _ => rfl
        · exact absurd hv h
        · rw [hv] at h; rw [h]
      · rw [hsame hv]
    · intro p b' q hpq g hg
      cases p with
      | nil =>
        simp only [List.nil_append, List.cons.injEq] at hpq
        obtain ⟨rfl, rfl⟩ := hpq
        refine ⟨fun _ => ?_, fun h => ?_⟩
        · simp only [List.map_nil, List.nil_append]
          rw [hrun]
          simp only [fieldAt]
          by_cases hgs : g ∈ s.names
          · rw [field_structOf hgs, field_structOf hgs]; simp [upd, hg]
          · simp only [structOf, Val.field, get?_map_out hgs]
        · exact absurd h (of_named_ne hv)
      | cons a p =>
        simp only [List.cons_append, List.cons.injEq] at hpq
        obtain ⟨rfl, hpq⟩ := hpq
        obtain ⟨j1, j2⟩ := i3 p b' q hpq g hg
        simp only [List.map_cons, List.cons_append]
        rw [hins, hval0, hval0]
        by_cases hv : val b.field = .nil
        · rw [hv, hnil, hnil]
          refine ⟨fun h => absurd rfl h, fun _ => ?_⟩
          rw [hv] at j1 j2
          obtain ⟨k'', hl⟩ := hprefix p (b' :: q) hpq
          rcases hat p (b' :: q) k'' hpq hl with rfl | h | h
          · simp only [List.map_nil, List.nil_append, fieldAt] at j1 ⊢
            have hne : ensured T (.named m) .nil ≠ .nil := of_named_ne (hfr m sk hks)
            rw [j1 hne]
            simp only [ensured]
            simp only [List.nil_append] at hpq
            subst hpq
            cases hpath with
            | into h1 h2 h3 h4 h5 =>
              obtain ⟨_, _, _, _, _, hmb2⟩ := method_field hf h1 h2
              rw [(methodsOf_field hmb2).2.1]
          · exact absurd hv h
          · rw [hv] at h; exact j2 h
        · rw [hsame hv] at j1 j2 ⊢
          exact ⟨j1, j2⟩

end Verif.Build
