import Verif.Codec.Basic

/-! Equations for `decode` and `encode` without ranks and views. -/

namespace Verif.Codec

/-- A type needs at most this many steps on the same JSON value. -/
def rankedAt (T : Table) : Nat → Ty → Bool
  | 0, _ => false
  | r + 1, ty =>
    match ty with
    | .ptr t => rankedAt T r t
    | .named n =>
      match GoMap.get? T n with
      | some (.struct s) =>
        s.nots.all (rankedAt T r) && s.embeds.all (fun e => rankedAt T r e.ty) &&
          s.oneOf.all (fun e => rankedAt T r e.ty)
      | _ => true
    | _ => true

/-- `maxRank` is enough for a table. -/
def Ranked (T : Table) : Prop := ∀ n, rankedAt T 10 (.named n) = true

/-- The same as a check of the entries. -/
def rankedTable (T : Table) : Bool := T.all (fun p => rankedAt T 10 (.named p.1))

theorem get?_mem {V : Type} {m : GoMap V} {k : String} {v : V} (h : GoMap.get? m k = some v) :
    (k, v) ∈ m := by
  induction m with
  | nil => simp [GoMap.get?] at h
  | cons p m ih =>
    obtain ⟨k', v'⟩ := p
    simp only [GoMap.get?] at h
    split at h
    · rename_i e
      simp only [Option.some.injEq] at h
      subst e; subst h
      exact List.mem_cons_self
    · exact List.mem_cons_of_mem _ (ih h)

theorem ranked_of_check {T : Table} (h : rankedTable T = true) : Ranked T := by
  intro n
  cases hg : GoMap.get? T n with
  | none => simp [rankedAt, hg]
  | some d =>
    have := List.all_eq_true.mp h _ (get?_mem hg)
    exact this

theorem rankedAt_succ {T : Table} : ∀ {r : Nat} {ty : Ty}, rankedAt T r ty = true →
    rankedAt T (r + 1) ty = true
  | 0, _, h => by simp [rankedAt] at h
  | r + 1, ty, h => by
    cases ty with
    | ptr t =>
      simp only [rankedAt] at h ⊢
      exact rankedAt_succ h
    | named n =>
      simp only [rankedAt] at h ⊢
      split at h
      · rename_i s hs
        simp only [Bool.and_eq_true, List.all_eq_true] at h ⊢
        exact ⟨⟨fun x hx => rankedAt_succ (h.1.1 x hx), fun x hx => rankedAt_succ (h.1.2 x hx)⟩,
          fun x hx => rankedAt_succ (h.2 x hx)⟩
      · rfl
    | any => simp [rankedAt]
    | bool => simp [rankedAt]
    | str => simp [rankedAt]
    | int => simp [rankedAt]
    | float => simp [rankedAt]
    | slice t => simp [rankedAt]
    | map t => simp [rankedAt]

theorem rankedAt_mono {T : Table} {r r' : Nat} {ty : Ty} (h : rankedAt T r ty = true) (hr : r ≤ r') :
    rankedAt T r' ty = true := by
  induction hr with
  | refl => exact h
  | step _ ih => exact rankedAt_succ ih

theorem mapAll_congr {α β : Type} {f g : α → Option β} {l : List α} (h : ∀ x ∈ l, f x = g x) :
    mapAll f l = mapAll g l := by
  induction l with
  | nil => rfl
  | cons x l ih =>
    simp only [mapAll]
    rw [h x List.mem_cons_self, ih (fun y hy => h y (List.mem_cons_of_mem _ hy))]

theorem mapAll_map {α β γ : Type} {f : β → Option γ} {g : α → β} {l : List α} :
    mapAll f (l.map g) = mapAll (fun x => f (g x)) l := by
  induction l with
  | nil => rfl
  | cons x l ih => simp only [List.map_cons, mapAll, ih]

theorem decodeStruct_congr {T : Table} {s : Struct} {sub sub' : Ty → Option Val} {v : View}
    (h1 : ∀ t ∈ s.nots, sub t = sub' t) (h2 : ∀ e ∈ s.embeds, sub e.ty = sub' e.ty)
    (h3 : ∀ e ∈ s.oneOf, sub e.ty = sub' e.ty) :
    decodeStruct T s sub v = decodeStruct T s sub' v := by
  have e1 : s.nots.any (fun t => (sub t).isSome) = s.nots.any (fun t => (sub' t).isSome) := by
    rw [Bool.eq_iff_iff]
    simp only [List.any_eq_true]
    constructor
    · rintro ⟨x, hx, h⟩; exact ⟨x, hx, by rw [← h1 x hx]; exact h⟩
    · rintro ⟨x, hx, h⟩; exact ⟨x, hx, by rw [h1 x hx]; exact h⟩
  have e2 : decodeEmbeds sub s.embeds = decodeEmbeds sub' s.embeds := by
    unfold decodeEmbeds
    apply mapAll_congr
    intro x hx
    simp only [h2 x hx]
  have e3 : decodeOneOf sub s.oneOf = decodeOneOf sub' s.oneOf := by
    unfold decodeOneOf
    have a : s.oneOf.filter (fun e => (sub e.ty).isSome) = s.oneOf.filter (fun e => (sub' e.ty).isSome) := by
      apply List.filter_congr
      intro x hx
      rw [h3 x hx]
    have b : s.oneOf.map (fun e => (e.go, (sub e.ty).getD .nil)) =
        s.oneOf.map (fun e => (e.go, (sub' e.ty).getD .nil)) := by
      apply List.map_congr_left
      intro x hx
      rw [h3 x hx]
    rw [a, b]
  unfold decodeStruct
  rw [e1, e2, e3]

theorem decodeView_rank {T : Table} {N : Nums} {j : Any} {v : View} : ∀ {r r' : Nat} {ty : Ty},
    rankedAt T r ty = true → rankedAt T r' ty = true → decodeView T N j v r ty = decodeView T N j v r' ty
  | 0, _, _, h, _ => by simp [rankedAt] at h
  | _ + 1, 0, _, _, h => by simp [rankedAt] at h
  | r + 1, r' + 1, ty, h, h' => by
    cases ty with
    | ptr t =>
      simp only [rankedAt] at h h'
      simp only [decodeView]
      rw [decodeView_rank h h']
    | named n =>
      simp only [rankedAt] at h h'
      simp only [decodeView]
      cases hg : GoMap.get? T n with
      | none => rfl
      | some d =>
        cases d with
        | enum vs => rfl
        | struct s =>
          rw [hg] at h h'
          simp only [Bool.and_eq_true, List.all_eq_true] at h h'
          exact decodeStruct_congr (fun t ht => decodeView_rank (h.1.1 t ht) (h'.1.1 t ht))
            (fun e he => decodeView_rank (h.1.2 e he) (h'.1.2 e he))
            (fun e he => decodeView_rank (h.2 e he) (h'.2 e he))
    | any => rfl
    | bool => rfl
    | str => rfl
    | int => rfl
    | float => rfl
    | slice t => rfl
    | map t => rfl

theorem decodeView_ptr {T : Table} {N : Nums} {j : Any} {v : View} {r : Nat} {t : Ty} :
    decodeView T N j v (r + 1) (.ptr t) = match v with
      | .null => some .nil
      | _ => decodeView T N j v r t := by
  cases v <;> simp only [decodeView]

theorem decodeView_struct {T : Table} {N : Nums} {j : Any} {v : View} {r : Nat} {n : String} {s : Struct}
    (hn : GoMap.get? T n = some (.struct s)) :
    decodeView T N j v (r + 1) (.named n) = decodeStruct T s (decodeView T N j v r) v := by
  simp only [decodeView, hn]

theorem rankedAt_struct {T : Table} {r : Nat} {n : String} {s : Struct}
    (hn : GoMap.get? T n = some (.struct s)) :
    rankedAt T (r + 1) (.named n) = (s.nots.all (rankedAt T r) && s.embeds.all (fun e => rankedAt T r e.ty) &&
      s.oneOf.all (fun e => rankedAt T r e.ty)) := by
  simp only [rankedAt, hn]

/-! ## Decoding -/

section
variable (T : Table) (N : Nums)

/-- A member of a JSON object with its decoding. -/
def memberOf (p : String × Any) : Member := ⟨p.1, p.2, fun ty => decode T N ty p.2⟩

theorem viewList_eq (xs : List Any) : viewList T N xs = xs.map (fun x ty => decode T N ty x) := by
  induction xs with
  | nil => simp [viewList]
  | cons x xs ih => simp only [viewList, List.map_cons, ih]; rfl

theorem viewMembers_eq (ms : List (String × Any)) : viewMembers T N ms = ms.map (memberOf T N) := by
  induction ms with
  | nil => simp [viewMembers]
  | cons x xs ih =>
    obtain ⟨k, x⟩ := x
    simp only [viewMembers, List.map_cons, ih]; rfl

/-- The members of a JSON object; none for other values. -/
def membersOf : Any → List Member
  | .obj ms => ms.map (memberOf T N)
  | _ => []

theorem view_members (j : Any) : (view T N j).members = membersOf T N j := by
  cases j <;> simp only [view, View.members, membersOf, viewMembers_eq]

@[simp] theorem decode_any (j : Any) : decode T N .any j = (decodeAny N j).map .any := rfl

theorem decode_bool (j : Any) : decode T N .bool j = match j with
    | .bool b => some (.bool b)
    | .null => some (.bool false)
    | _ => none := by
  cases j <;> rfl

theorem decode_str (j : Any) : decode T N .str j = match j with
    | .str s => some (.str s)
    | .null => some (.str "")
    | _ => none := by
  cases j <;> rfl

theorem decode_int (j : Any) : decode T N .int j = match j with
    | .num lit => (N.i64 lit).map .num
    | .null => some (.num "0")
    | _ => none := by
  cases j <;> rfl

theorem decode_float (j : Any) : decode T N .float j = match j with
    | .num lit => (N.f64 lit).map .num
    | .null => some (.num "0")
    | _ => none := by
  cases j <;> rfl

theorem decode_slice (t : Ty) (j : Any) : decode T N (.slice t) j = match j with
    | .arr xs => (mapAll (decode T N t) xs).map .list
    | .null => some .nil
    | _ => none := by
  cases j <;> try rfl
  rename_i xs
  show (mapAll (fun d => d t) (viewList T N xs)).map Val.list = _
  rw [viewList_eq]
  rw [mapAll_map]

theorem decode_map (t : Ty) (j : Any) : decode T N (.map t) j = match j with
    | .obj ms => (mapAll (fun p => (decode T N t p.2).map (fun w => (p.1, w))) ms).map
        (fun l => .map (lastWins l))
    | .null => some .nil
    | _ => none := by
  cases j <;> try rfl
  rename_i ms
  show (mapAll (fun m => (m.dec t).map (fun w => (m.key, w))) (viewMembers T N ms)).map
    (fun l => Val.map (lastWins l)) = _
  rw [viewMembers_eq, mapAll_map]
  rfl

/-- Not a pointer. -/
def notPtr : Ty → Bool
  | .ptr _ => false
  | _ => true

variable {T} {N}

theorem rankedAt_of_notPtr (hT : Ranked T) {t : Ty} (ht : notPtr t = true) : rankedAt T 10 t = true := by
  cases t with
  | named n => exact hT n
  | ptr t => simp [notPtr] at ht
  | any => simp [rankedAt]
  | bool => simp [rankedAt]
  | str => simp [rankedAt]
  | int => simp [rankedAt]
  | float => simp [rankedAt]
  | slice t => simp [rankedAt]
  | map t => simp [rankedAt]

theorem decode_ptr (hT : Ranked T) {t : Ty} (ht : notPtr t = true) (j : Any) :
    decode T N (.ptr t) j = match j with
    | .null => some .nil
    | j => decode T N t j := by
  have h := rankedAt_of_notPtr hT ht
  have key : ∀ j v, decodeView T N j v 15 t = decodeView T N j v 16 t := fun j v =>
    decodeView_rank (rankedAt_mono h (by omega)) (rankedAt_mono h (by omega))
  show decodeView T N j (view T N j) (15 + 1) (.ptr t) = _
  rw [decodeView_ptr, key]
  cases j <;> rfl

theorem decode_enum {n : String} {vs : List String} (hn : GoMap.get? T n = some (.enum vs)) (j : Any) :
    decode T N (.named n) j = match j with
    | .str s => if vs.contains s then some (.str s) else none
    | .null => if vs.contains "" then some (.str "") else none
    | _ => none := by
  cases j <;> simp only [decode, decodeView, view, maxRank, hn]

theorem decode_struct (hT : Ranked T) {n : String} {s : Struct} (hn : GoMap.get? T n = some (.struct s))
    (j : Any) :
    decode T N (.named n) j = decodeStruct T s (fun t => decode T N t j) (view T N j) := by
  have h := (rankedAt_struct (r := 9) hn).symm.trans (hT n)
  simp only [Bool.and_eq_true, List.all_eq_true] at h
  show decodeView T N j (view T N j) (15 + 1) (.named n) = _
  rw [decodeView_struct hn]
  have key : ∀ {t : Ty}, rankedAt T 9 t = true →
      decodeView T N j (view T N j) 15 t = decode T N t j := by
    intro t h
    unfold decode
    exact decodeView_rank (rankedAt_mono h (by decide)) (rankedAt_mono h (by decide))
  exact decodeStruct_congr (fun t ht => key (h.1.1 t ht)) (fun e he => key (h.1.2 e he))
    (fun e he => key (h.2 e he))

theorem decode_none {n : String} (hn : GoMap.get? T n = none) (j : Any) : decode T N (.named n) j = none := by
  simp only [decode, decodeView, maxRank, hn]

/-! ## Encoding -/

variable (T)

/-- A field of a struct value with its encoding. -/
def slotFor (p : String × Val) : Slot := ⟨p.1, p.2, fun ty => encode T ty p.2⟩

theorem vviewList_eq (xs : List Val) : vviewList T xs = xs.map (fun x ty => encode T ty x) := by
  induction xs with
  | nil => simp [vviewList]
  | cons x xs ih => simp only [vviewList, List.map_cons, ih]; rfl

theorem vviewMembers_eq (ms : List (String × Val)) :
    vviewMembers T ms = ms.map (fun p => (p.1, fun ty => encode T ty p.2)) := by
  induction ms with
  | nil => simp [vviewMembers]
  | cons x xs ih =>
    obtain ⟨k, x⟩ := x
    simp only [vviewMembers, List.map_cons, ih]; rfl

theorem vviewFields_eq (ms : List (String × Val)) : vviewFields T ms = ms.map (slotFor T) := by
  induction ms with
  | nil => simp [vviewFields]
  | cons x xs ih =>
    obtain ⟨k, x⟩ := x
    simp only [vviewFields, List.map_cons, ih]; rfl

@[simp] theorem encode_any (a : Any) : encode T .any (.any a) = some a := rfl
@[simp] theorem encode_bool (b : Bool) : encode T .bool (.bool b) = some (.bool b) := rfl
@[simp] theorem encode_str (s : String) : encode T .str (.str s) = some (.str s) := rfl
@[simp] theorem encode_int (s : String) : encode T .int (.num s) = some (.num s) := rfl
@[simp] theorem encode_float (s : String) : encode T .float (.num s) = some (.num s) := rfl
@[simp] theorem encode_ptr_nil (t : Ty) : encode T (.ptr t) .nil = some .null := rfl
@[simp] theorem encode_slice_nil (t : Ty) : encode T (.slice t) .nil = some .null := rfl
@[simp] theorem encode_map_nil (t : Ty) : encode T (.map t) .nil = some .null := rfl

theorem encode_ptr {t : Ty} {v : Val} (hv : v ≠ .nil) : encode T (.ptr t) v = encode T t v := by
  cases v <;> first | exact absurd rfl hv | rfl

theorem encode_slice (t : Ty) (vs : List Val) :
    encode T (.slice t) (.list vs) = (mapAll (encode T t) vs).map .arr := by
  simp only [encode, encodeView, vview]
  rw [vviewList_eq]
  rw [mapAll_map]

theorem encode_map (t : Ty) (ms : List (String × Val)) :
    encode T (.map t) (.map ms) =
      (mapAll (fun p => (encode T t p.2).map (fun j => (p.1, j))) ms).map .obj := by
  simp only [encode, encodeView, vview]
  rw [vviewMembers_eq, mapAll_map]
  rfl

variable {T}

theorem encode_enum {n : String} {vs : List String} (hn : GoMap.get? T n = some (.enum vs)) (s : String) :
    encode T (.named n) (.str s) = if vs.contains s then some (.str s) else none := by
  simp only [encode, encodeView, vview, hn]

theorem encode_struct {n : String} {s : Struct} (hn : GoMap.get? T n = some (.struct s))
    (fs : List (String × Val)) :
    encode T (.named n) (.struct fs) =
      match mapAll (encodePart s (fs.map (slotFor T))) s.parts with
      | some js => unionJ js
      | none => none := by
  simp only [encode, encodeView, vview, hn, vviewFields_eq]
  rfl

end

end Verif.Codec
