import Verif.Codec.Basic

/-!
# Reading into a value that is not empty

`json.Unmarshal(data, &v)` and `v.UnmarshalJSON(data)` for a `v` that has content already. The generated methods start
from the receiver (`ms := marshalSpec(*s)`, e.g. `/repo/openapi3/entities.go:137`), and `encoding/json` reads over what a
field holds: structs, also behind pointers, are read field by field, entries are added to maps, and the elements of a
slice are read over the elements with the same index. `decode` (`Verif.Codec.Basic`) is reading into a new value, for
objects without repeated members; `Verif.Props.Into` proves this.

Simplification: values are trees, so what else points to a part of the value is not modelled, and slices have no
elements beyond their length (`encoding/json` would find old elements there).
-/

namespace Verif.Codec

/-- A member of a JSON object: its key, its value, and the reading of its value into a value. -/
structure IMember where
  key : String
  val : Any
  into : Ty → Val → Option Val

/-- A JSON value whose parts can be read into values. -/
inductive IView where
  | null
  | bool (b : Bool)
  | num (lit : String)
  | str (s : String)
  | arr (ds : List (Ty → Val → Option Val))
  | obj (ms : List IMember)

/-- The members of an object; none for other values. -/
def IView.members : IView → List IMember
  | .obj ms => ms
  | _ => []

/-- A member read into a new value: `var val T; json.Unmarshal(rawValue, &val)` (e.g.
`/repo/openapi3/entities.go:172-178`). -/
def IMember.anew (T : Table) (m : IMember) : Member := ⟨m.key, m.val, fun ty => m.into ty (zero T ty)⟩

/-- The field of a struct value, `d` if the value has none. -/
def held (cur : Val) (go : String) (d : Val) : Val :=
  match cur with
  | .struct fs => (GoMap.get? fs go).getD d
  | _ => d

/-- The entries of a map, none for nil. -/
def heldEntries : Val → GoMap Val
  | .map es => es
  | _ => []

/-- The elements of a slice, none for nil. -/
def heldItems : Val → List Val
  | .list vs => vs
  | _ => []

/-- What a pointer points to; a new value if it is nil. -/
def pointee (T : Table) (t : Ty) : Val → Val
  | .nil => zero T t
  | v => v

/-- Entries set in a map, one after the other. -/
def setAll (m : GoMap Val) (es : List (String × Val)) : GoMap Val :=
  es.foldl (fun m p => GoMap.set m p.1 p.2) m

/-- A field after reading the members of an object: every member for the field is read over what the field holds. -/
def intoField (chosen : String → Bool) (ty : Ty) : Val → List IMember → Option Val
  | v, [] => some v
  | v, m :: ms =>
    if chosen m.key then
      match m.into ty v with
      | some w => intoField chosen ty w ms
      | none => none
    else intoField chosen ty v ms

/-- `json.Unmarshal(data, &ms)` of the fields, `ms` being a copy of the receiver (e.g.
`/repo/openapi3/entities.go:137-142`): objects and `null` only. -/
def intoFields (T : Table) (s : Struct) (cur : Val) (v : IView) : Option (List (String × Val)) :=
  match s.decodes, v with
  | false, _ => some (s.fields.map (fun f => (f.go, held cur f.go (zero T f.ty))))
  | true, .null => some (s.fields.map (fun f => (f.go, held cur f.go (zero T f.ty))))
  | true, .obj ms =>
    mapAll (fun f => (intoField (fun k => fieldOf s.fields k == some f) f.ty (held cur f.go (zero T f.ty)) ms).map
      (fun w => (f.go, w))) s.fields
  | true, _ => none

/-- The elements of an array read over the elements of a slice (`array` of `encoding/json`). -/
def intoItems (T : Table) (t : Ty) : List (Ty → Val → Option Val) → List Val → Option (List Val)
  | [], _ => some []
  | d :: ds, vs =>
    match d t (vs.headD (zero T t)), intoItems T t ds vs.tail with
    | some w, some ws => some (w :: ws)
    | _, _ => none

/-- The entries that were read, added to those of a map field, which is made if there are any
(`/repo/openapi3/entities.go:160-183`). -/
def addTo (cur new : Val) : Val :=
  match new with
  | .map es => .map (setAll (heldEntries cur) es)
  | _ => cur

/-- `UnmarshalJSON` of a struct type with a receiver. `sub` reads the same JSON value into a value of another type. A type
that must not fit is tried on a new value. An alternative that does not fit is set to nil
(e.g. `/repo/openapi3/entities.go:2222-2249`). -/
def intoStruct (T : Table) (s : Struct) (sub : Ty → Val → Option Val) (cur : Val) (v : IView) : Option Val :=
  let ms := v.members.map (IMember.anew T)
  if s.nots.any (fun t => (sub t (zero T t)).isSome) then none
  else
    match intoFields T s cur v with
    | none => none
    | some fvals =>
      match mapAll (fun e : Hidden => (sub e.ty (held cur e.go (zero T e.ty))).map (fun w => (e.go, w))) s.embeds with
      | none => none
      | some evals =>
        let alts := s.oneOf.map (fun e => (e.go, sub e.ty (held cur e.go (zero T e.ty))))
        if s.oneOf ≠ [] ∧ (alts.filter (fun a => a.2.isSome)).length ≠ 1 then none
        else if rawChecks s ms fvals then
          match decodeRest s ms with
          | none => none
          | some rvals => some (.struct (fvals.map (rememberNull s ms) ++ evals ++
              alts.map (fun a => (a.1, a.2.getD .nil)) ++
              rvals.map (fun p => (p.1, addTo (held cur p.1 .nil) p.2))))
        else none

/-- `json.Unmarshal` of a value into a value of a type; the rank as for `decodeView`. `null` leaves texts, numbers and
truth values as they are and makes pointers, slices and maps nil; a nil pointer gets a new value; the entries of a map are
read into new values; enumerations are read into a new string (e.g. `/repo/openapi3/entities.go:8297-8322`). -/
def intoView (T : Table) (N : Nums) (j : Any) (v : IView) : Nat → Ty → Val → Option Val
  | 0, _, _ => none
  | r + 1, ty, cur =>
    match ty with
    | .any => (decodeAny N j).map .any
    | .bool => match v with
      | .bool b => some (.bool b)
      | .null => some cur
      | _ => none
    | .str => match v with
      | .str s => some (.str s)
      | .null => some cur
      | _ => none
    | .int => match v with
      | .num lit => (N.i64 lit).map .num
      | .null => some cur
      | _ => none
    | .float => match v with
      | .num lit => (N.f64 lit).map .num
      | .null => some cur
      | _ => none
    | .ptr t => match v with
      | .null => some .nil
      | _ => intoView T N j v r t (pointee T t cur)
    | .slice t => match v with
      | .arr ds => (intoItems T t ds (heldItems cur)).map .list
      | .null => some .nil
      | _ => none
    | .map t => match v with
      | .obj ms => (mapAll (fun m : IMember => (m.into t (zero T t)).map (fun w => (m.key, w))) ms).map
          (fun l => .map (setAll (heldEntries cur) l))
      | .null => some .nil
      | _ => none
    | .named n =>
      match GoMap.get? T n with
      | none => none
      | some (.enum values) => match v with
        | .str s => if values.contains s then some (.str s) else none
        | .null => if values.contains "" then some (.str "") else none
        | _ => none
      | some (.struct s) => intoStruct T s (intoView T N j v r) cur v

mutual
/-- A JSON value with the readers of its parts. -/
def iview (T : Table) (N : Nums) : Any → IView
  | .null => .null
  | .bool b => .bool b
  | .num lit => .num lit
  | .str s => .str s
  | .arr xs => .arr (iviewList T N xs)
  | .obj ms => .obj (iviewMembers T N ms)
/-- The elements of an array. -/
def iviewList (T : Table) (N : Nums) : List Any → List (Ty → Val → Option Val)
  | [] => []
  | x :: xs => intoView T N x (iview T N x) maxRank :: iviewList T N xs
/-- The members of an object. -/
def iviewMembers (T : Table) (N : Nums) : List (String × Any) → List IMember
  | [] => []
  | (k, x) :: ms => ⟨k, x, intoView T N x (iview T N x) maxRank⟩ :: iviewMembers T N ms
end

/-- `json.Unmarshal(data, &v)` for `v` of type `ty` that holds `cur`: what `v` holds then; `none` is an error. -/
def decodeInto (T : Table) (N : Nums) (ty : Ty) (cur : Val) (j : Any) : Option Val :=
  intoView T N j (iview T N j) maxRank ty cur

end Verif.Codec
