import Verif.Entities

/-!
# The generated JSON codecs

`/repo/openapi3/entities.go` and `/repo/openapi31/entities.go` are generated: every `UnmarshalJSON` and
`MarshalJSON` is put together from the same few blocks. A type is modelled by a description (`Desc`) that
says which blocks its methods have, and this file gives the blocks their meaning: `decode` is
`json.Unmarshal` and `encode` is `json.Marshal` for values of the described types. The descriptions are
in `Verif.Codec.Table30` and `Verif.Codec.Table31`; `/verif/tools/codec.py` writes them from the source and
stops at any block it does not know.

What is simplified here:
* JSON texts are trees. A literal check such as `string(v) != "\"simple\""` compares trees, so redundant
  escapes in a text are not distinguished.
* Decoding starts from a zero value of the type. A key that occurs twice is decoded twice from scratch and
  the last value is kept; in Go the second value is decoded over the first, which is the same if both
  occurrences read as the same value (as in what the encoders produce). `Verif.Codec.Into` models that;
  `Verif.Props.Into` proves the agreement.
* Maps are association lists in some order; `json.Marshal` sorts keys (see `Verif.Sorted`).
* Numbers are literals; reading and printing them is a parameter (`Nums`).
* Errors are not distinguished.
-/

namespace Verif.Codec

/-! ## Types -/

/-- The Go types of fields. -/
inductive Ty where
  | any                 -- `interface{}`
  | bool
  | str
  | int                 -- `int64`
  | float               -- `float64`
  | named (n : String)  -- an enumeration or a struct of the package
  | ptr (t : Ty)
  | slice (t : Ty)
  | map (t : Ty)        -- `map[string]t`
deriving DecidableEq, Repr

/-- The regular expressions for keys (`/repo/openapi3/entities.go:8575-8581`,
`/repo/openapi31/entities.go:5674-5678`). -/
inductive Pat where
  | x        -- `^x-`
  | methods  -- `^(get|put|post|delete|options|head|patch|trace)$`
  | status   -- `^[1-5](?:\d{2}|XX)$`
  | slash    -- `^/`
  | name     -- `^[a-zA-Z0-9\.\-_]+$`
deriving DecidableEq, Repr

/-- `MatchString` of the regular expressions. -/
def Pat.matches : Pat → String → Bool
  | .x, k => match k.toList with
    | 'x' :: '-' :: _ => true
    | _ => false
  | .methods, k => ["get", "put", "post", "delete", "options", "head", "patch", "trace"].contains k
  | .status, k => match k.toList with
    | [a, b, c] => decide ('1' ≤ a ∧ a ≤ '5') && (b.isDigit && c.isDigit || b == 'X' && c == 'X')
    | _ => false
  | .slash, k => match k.toList with
    | '/' :: _ => true
    | _ => false
  | .name, k => !k.toList.isEmpty && k.toList.all (fun c => c.isAlphanum || c == '.' || c == '-' || c == '_')

/-- A constant that is checked when decoding and written when encoding. -/
inductive Const where
  | str (s : String)
  | bool (b : Bool)
deriving DecidableEq, Repr

/-- The JSON value of a constant. -/
def Const.json : Const → Any
  | .str s => .str s
  | .bool b => .bool b

/-- `string(v) == …` for a constant (e.g. `/repo/openapi3/entities.go:3203`). -/
def Const.is : Const → Any → Bool
  | .str s, .str t => s == t
  | .bool b, .bool c => b == c
  | _, _ => false

/-- A field with a JSON key: `Go ty `json:"key,omitempty"``. -/
structure Field where
  go : String
  key : String
  ty : Ty
  omitempty : Bool
deriving DecidableEq, Repr

/-- A field without a JSON key (`json:"-"`). -/
structure Hidden where
  go : String
  ty : Ty
deriving DecidableEq, Repr

/-- A field that collects the members whose keys match a pattern. -/
structure PatField where
  pat : Pat
  go : String
  ty : Ty
deriving DecidableEq, Repr

/-- A check of a field, lower-cased, against a constant
(`/repo/openapi31/entities.go:4281-4283,4353-4355`). -/
structure LowerCheck where
  go : String
  mustBe : Bool
  value : String
deriving DecidableEq, Repr

/-- An argument of `marshalUnion`. -/
inductive Part where
  | consts (cs : List (String × Const))
  | fields
  | hidden (go : String)
deriving DecidableEq, Repr

/-- The blocks of the methods of a struct type. -/
structure Struct where
  /-- `var not T; if json.Unmarshal(data, &not) == nil { return error }` -/
  nots : List Ty := []
  /-- the fields with JSON keys -/
  fields : List Field := []
  /-- `json.Unmarshal(data, &ms)`: the fields are decoded. Also for types without `UnmarshalJSON`. -/
  decodes : Bool := false
  /-- `json.Unmarshal(data, &ms.X)` with an error returned -/
  embeds : List Hidden := []
  /-- `json.Unmarshal(data, &ms.X)` with successes counted -/
  oneOf : List Hidden := []
  /-- `requireKeys` -/
  require : List String := []
  /-- exactly one of two keys must exist (`/repo/openapi31/entities.go:1761-1767`) -/
  exactlyOne : Option (String × String) := none
  /-- `exists && string(v) != …`, and the key deleted -/
  consts : List (String × Const) := []
  /-- `exists && string(v) == …`, and the key deleted -/
  notConsts : List (String × Const) := []
  /-- keys that must not exist -/
  forbid : List String := []
  /-- checks of decoded fields -/
  lower : List LowerCheck := []
  /-- `if ms.X == nil { if _, ok := rawMap["x"]; ok { var v interface{}; ms.X = &v } }` -/
  nulls : List (String × String) := []
  /-- `knownKeys` -/
  known : List String := []
  /-- the loop over `rawMap` with patterns -/
  patterns : List PatField := []
  /-- the loop over the rest of `rawMap` -/
  additional : Option Hidden := none
  /-- `additional properties not allowed` -/
  strict : Bool := false
  /-- the arguments of `marshalUnion`; `[.fields]` for types without `MarshalJSON` -/
  parts : List Part := [.fields]
deriving DecidableEq, Repr

/-- A named type. -/
inductive Desc where
  | enum (values : List String)
  | struct (s : Struct)
deriving DecidableEq, Repr

/-- The named types of a package. -/
abbrev Table := GoMap Desc

/-! ## Values -/

/-- A Go value. A non-nil pointer is the value it points to. -/
inductive Val where
  | nil                                -- nil pointer, nil slice, nil map
  | any (a : Any)                      -- `interface{}`; nil is `any null`
  | bool (b : Bool)
  | str (s : String)
  | num (lit : String)
  | list (vs : List Val)
  | map (ms : List (String × Val))
  | struct (fs : List (String × Val))  -- Go names and values of all fields

/-- The zero value of a type. For structs a placeholder: a struct field that is not a pointer is
required in every described type, so decoding never leaves one unset. -/
def zero (T : Table) : Ty → Val
  | .any => .any .null
  | .bool => .bool false
  | .str => .str ""
  | .int => .num "0"
  | .float => .num "0"
  | .named n =>
    match GoMap.get? T n with
    | some (.enum _) => .str ""
    | _ => .struct []
  | .ptr _ => .nil
  | .slice _ => .nil
  | .map _ => .nil

/-- Reading a number literal as `float64` or `int64` and printing it again (`strconv` through
`encoding/json`); `none` if it is not in range or not an integer. -/
structure Nums where
  f64 : String → Option String
  i64 : String → Option String

/-! ## Decoding -/

/-- Members written into a Go map: the last value of a key is kept. -/
def lastWins {α : Type} (ms : List (String × α)) : GoMap α :=
  ms.foldl (fun m p => GoMap.set m p.1 p.2) []

mutual
/-- `json.Unmarshal` into an `interface{}` (`encoding/json`, e.g. `/repo/openapi3/entities.go:172-174`). -/
def decodeAny (N : Nums) : Any → Option Any
  | .null => some .null
  | .bool b => some (.bool b)
  | .num lit => (N.f64 lit).map .num
  | .str s => some (.str s)
  | .arr xs => (decodeAnys N xs).map .arr
  | .obj ms => (decodeAnyMembers N ms).map (fun l => .obj (lastWins l))
/-- The elements of an array. -/
def decodeAnys (N : Nums) : List Any → Option (List Any)
  | [] => some []
  | x :: xs =>
    match decodeAny N x, decodeAnys N xs with
    | some y, some ys => some (y :: ys)
    | _, _ => none
/-- The members of an object. -/
def decodeAnyMembers (N : Nums) : List (String × Any) → Option (List (String × Any))
  | [] => some []
  | (k, x) :: xs =>
    match decodeAny N x, decodeAnyMembers N xs with
    | some y, some ys => some ((k, y) :: ys)
    | _, _ => none
end

/-- A function on all elements, failing if it fails on one. -/
def mapAll {α β : Type} (f : α → Option β) : List α → Option (List β)
  | [] => some []
  | x :: xs =>
    match f x, mapAll f xs with
    | some y, some ys => some (y :: ys)
    | _, _ => none

/-- A member of a JSON object: its key, its value, and the decoding of its value. -/
structure Member where
  key : String
  val : Any
  dec : Ty → Option Val

/-- A JSON value whose parts can be decoded. -/
inductive View where
  | null
  | bool (b : Bool)
  | num (lit : String)
  | str (s : String)
  | arr (ds : List (Ty → Option Val))
  | obj (ms : List Member)

/-- The case folding of `encoding/json` for matching keys with fields (`foldName`): ASCII letters, and the
two other characters that fold to ASCII letters. -/
def foldKey (k : String) : List Char :=
  k.toList.map (fun c =>
    if c = Char.ofNat 0x17F then 'S'
    else if c = Char.ofNat 0x212A then 'K'
    else if 'a' ≤ c ∧ c ≤ 'z' then Char.ofNat (c.toNat - 32)
    else c)

/-- The field `encoding/json` chooses for a key: the field with that key, or else the first one whose key
is the same up to case. -/
def fieldOf (fs : List Field) (k : String) : Option Field :=
  match fs.find? (fun f => f.key == k) with
  | some f => some f
  | none => fs.find? (fun f => foldKey f.key == foldKey k)

/-- The value of a field after decoding the members of an object: every member for the field is decoded,
the last one is kept. `chosen k` says if a key is for the field. -/
def fieldVal (chosen : String → Bool) (ty : Ty) : Val → List Member → Option Val
  | v, [] => some v
  | v, m :: ms =>
    if chosen m.key then
      match m.dec ty with
      | some w => fieldVal chosen ty w ms
      | none => none
    else fieldVal chosen ty v ms

/-- `json.Unmarshal(data, &ms)` of the fields (`encoding/json`, e.g. `/repo/openapi3/entities.go:137-142`):
objects and `null` only. -/
def decodeFields (T : Table) (s : Struct) (v : View) : Option (List (String × Val)) :=
  match s.decodes, v with
  | false, _ => some (s.fields.map (fun f => (f.go, zero T f.ty)))
  | true, .null => some (s.fields.map (fun f => (f.go, zero T f.ty)))
  | true, .obj ms =>
    mapAll (fun f => (fieldVal (fun k => fieldOf s.fields k == some f) f.ty (zero T f.ty) ms).map
      (fun w => (f.go, w))) s.fields
  | true, _ => none

/-- The parts decoded with `json.Unmarshal(data, &ms.X)` where an error is returned
(`/repo/openapi3/entities.go:1586-1594`). -/
def decodeEmbeds (sub : Ty → Option Val) (es : List Hidden) : Option (List (String × Val)) :=
  mapAll (fun e => (sub e.ty).map (fun w => (e.go, w))) es

/-- The alternatives of which exactly one must decode (e.g. `/repo/openapi3/entities.go:2222-2249`). -/
def decodeOneOf (sub : Ty → Option Val) (es : List Hidden) : Option (List (String × Val)) :=
  if es = [] then some []
  else if (es.filter (fun e => (sub e.ty).isSome)).length = 1 then
    some (es.map (fun e => (e.go, (sub e.ty).getD .nil)))
  else none

/-- `_, found := rawMap[key]`. -/
def hasKey (ms : List Member) (k : String) : Bool := ms.any (fun m => m.key == k)

/-- The `rawMap` of an object: every key once, with its last value. -/
def rawMap (ms : List Member) : GoMap Member := lastWins (ms.map (fun m => (m.key, m)))

/-- The decoded fields as a map. -/
def fieldGet (fs : List (String × Val)) (go : String) : Option Val := GoMap.get? fs go

/-- The checks on `rawMap` (e.g. `/repo/openapi3/entities.go:151-155,3203-3205,6803-6809`,
`/repo/openapi31/entities.go:1761-1767,4281-4283`). -/
def rawChecks (s : Struct) (ms : List Member) (fvals : List (String × Val)) : Bool :=
  s.require.all (hasKey ms) &&
  (match s.exactlyOne with
    | some (a, b) => hasKey ms a != hasKey ms b
    | none => true) &&
  s.consts.all (fun c => match GoMap.get? (rawMap ms) c.1 with
    | some m => c.2.is m.val
    | none => true) &&
  s.notConsts.all (fun c => match GoMap.get? (rawMap ms) c.1 with
    | some m => !c.2.is m.val
    | none => true) &&
  s.forbid.all (fun k => !hasKey ms k) &&
  s.lower.all (fun c => match fieldGet fvals c.go with
    | some (.str t) => (goToLower t == c.value) == c.mustBe
    | _ => !c.mustBe)

/-- An explicit `null` for an `*interface{}` field is remembered (e.g.
`/repo/openapi3/entities.go:1610-1615`). -/
def rememberNull (s : Struct) (ms : List Member) (p : String × Val) : String × Val :=
  match p.2 with
  | .nil => if s.nulls.any (fun n => n.1 == p.1 && hasKey ms n.2) then (p.1, .any .null) else p
  | _ => p

/-- What is left of `rawMap` after deleting constants and known keys. -/
def restOf (s : Struct) (ms : List Member) : List (String × Member) :=
  (rawMap ms).filter (fun p => !(s.known.contains p.1 || s.consts.any (fun c => c.1 == p.1) ||
    s.notConsts.any (fun c => c.1 == p.1)))

/-- A map that is made when the first entry is added. -/
def madeMap : List (String × Val) → Val
  | [] => .nil
  | es => .map es

/-- The entries of a map field (`/repo/openapi3/entities.go:160-183`). -/
def decodeEntries (ty : Ty) (es : List (String × Member)) : Option Val :=
  (mapAll (fun p => (p.2.dec ty).map (fun w => (p.1, w))) es).map madeMap

/-- The loops over `rawMap` (`/repo/openapi3/entities.go:160-198`, with additional properties:
`/repo/openapi3/entities.go:5477-5516`). -/
def decodeRest (s : Struct) (ms : List Member) : Option (List (String × Val)) :=
  let rest := restOf s ms
  let unmatched := rest.filter (fun p => !s.patterns.any (fun q => q.pat.matches p.1))
  match mapAll (fun q => (decodeEntries q.ty (rest.filter (fun p => q.pat.matches p.1))).map
      (fun w => (q.go, w))) s.patterns with
  | none => none
  | some pvals =>
    match s.additional with
    | some a => (decodeEntries a.ty unmatched).map (fun w => pvals ++ [(a.go, w)])
    | none => if s.strict && !unmatched.isEmpty then none else some pvals

/-- The members of an object; none for other values (`rawMap = nil`). -/
def View.members : View → List Member
  | .obj ms => ms
  | _ => []

/-- `UnmarshalJSON` of a struct type. `sub` decodes the same JSON value as another type. -/
def decodeStruct (T : Table) (s : Struct) (sub : Ty → Option Val) (v : View) : Option Val :=
  if s.nots.any (fun t => (sub t).isSome) then none
  else
    match decodeFields T s v with
    | none => none
    | some fvals =>
      match decodeEmbeds sub s.embeds with
      | none => none
      | some evals =>
        match decodeOneOf sub s.oneOf with
        | none => none
        | some ovals =>
          if rawChecks s v.members fvals then
            match decodeRest s v.members with
            | none => none
            | some rvals => some (.struct (fvals.map (rememberNull s v.members) ++ evals ++ ovals ++ rvals))
          else none

/-- `json.Unmarshal` of a value into a type. The rank bounds how often the same JSON value is passed on to
another type (pointers, alternatives, embedded parts). -/
def decodeView (T : Table) (N : Nums) (j : Any) (v : View) : Nat → Ty → Option Val
  | 0, _ => none
  | r + 1, ty =>
    match ty with
    | .any => (decodeAny N j).map .any
    | .bool => match v with
      | .bool b => some (.bool b)
      | .null => some (.bool false)
      | _ => none
    | .str => match v with
      | .str s => some (.str s)
      | .null => some (.str "")
      | _ => none
    | .int => match v with
      | .num lit => (N.i64 lit).map .num
      | .null => some (.num "0")
      | _ => none
    | .float => match v with
      | .num lit => (N.f64 lit).map .num
      | .null => some (.num "0")
      | _ => none
    | .ptr t => match v with
      | .null => some .nil
      | _ => decodeView T N j v r t
    | .slice t => match v with
      | .arr ds => (mapAll (fun d => d t) ds).map .list
      | .null => some .nil
      | _ => none
    | .map t => match v with
      | .obj ms => (mapAll (fun m => (m.dec t).map (fun w => (m.key, w))) ms).map (fun l => .map (lastWins l))
      | .null => some .nil
      | _ => none
    | .named n =>
      match GoMap.get? T n with
      | none => none
      | some (.enum values) => match v with
        | .str s => if values.contains s then some (.str s) else none
        | .null => if values.contains "" then some (.str "") else none
        | _ => none
      | some (.struct s) => decodeStruct T s (decodeView T N j v r) v

/-- Enough for the described types (`Ranked`). -/
def maxRank : Nat := 16

mutual
/-- A JSON value with the decoders of its parts. -/
def view (T : Table) (N : Nums) : Any → View
  | .null => .null
  | .bool b => .bool b
  | .num lit => .num lit
  | .str s => .str s
  | .arr xs => .arr (viewList T N xs)
  | .obj ms => .obj (viewMembers T N ms)
/-- The elements of an array. -/
def viewList (T : Table) (N : Nums) : List Any → List (Ty → Option Val)
  | [] => []
  | x :: xs => decodeView T N x (view T N x) maxRank :: viewList T N xs
/-- The members of an object. -/
def viewMembers (T : Table) (N : Nums) : List (String × Any) → List Member
  | [] => []
  | (k, x) :: ms => ⟨k, x, decodeView T N x (view T N x) maxRank⟩ :: viewMembers T N ms
end

/-- `json.Unmarshal(data, &v)` for `v` of type `ty`; `none` is an error. -/
def decode (T : Table) (N : Nums) (ty : Ty) (j : Any) : Option Val :=
  decodeView T N j (view T N j) maxRank ty

/-! ## Encoding -/

/-- `omitempty` of `encoding/json`: false, 0, nil and empty maps and lists. -/
def isEmpty : Val → Bool
  | .nil => true
  | .any .null => true
  | .bool b => !b
  | .str s => s == ""
  | .num lit => lit == "0"
  | .list vs => vs.isEmpty
  | .map ms => ms.isEmpty
  | _ => false

/-- The same for a field: a pointer is empty only if it is nil. -/
def omitted (f : Field) (v : Val) : Bool :=
  f.omitempty && match f.ty, v with
    | .ptr _, .nil => true
    | .ptr _, _ => false
    | _, v => isEmpty v

/-- `marshalUnion` on trees (`/repo/openapi3/entities.go:8526-8572`); `C34_tree` shows that this is
what `marshalUnion` does on texts. -/
def unionJ (js : List Any) : Option Any :=
  let parts := js.filter (fun j => match j with
    | .null => false
    | .obj [] => false
    | _ => true)
  match parts with
  | [] => some (.obj [])
  | [j] => some j
  | js =>
    (mapAll (fun j => match j with
      | .obj ms => some ms
      | _ => none) js).map (fun l => .obj l.flatten)

/-- A field of a struct value: its Go name, its value, and the encoding of its value. -/
structure Slot where
  go : String
  val : Val
  enc : Ty → Option Any

/-- The field with a Go name. -/
def slotOf (fs : List Slot) (go : String) : Option Slot := fs.find? (fun s => s.go == go)

/-- The fields with JSON keys, encoded (`json.Marshal` of `marshalX`). -/
def encodeFields (fields : List Field) (fs : List Slot) : Option (List (String × Any)) :=
  match fields with
  | [] => some []
  | f :: rest =>
    match slotOf fs f.go with
    | none => none
    | some slot =>
      if omitted f slot.val then encodeFields rest fs
      else
        match slot.enc f.ty, encodeFields rest fs with
        | some j, some ms => some ((f.key, j) :: ms)
        | _, _ => none

/-- All fields without JSON keys. -/
def Struct.hidden (s : Struct) : List Hidden :=
  s.embeds ++ s.oneOf ++ s.patterns.map (fun p => ⟨p.go, .map p.ty⟩) ++
    (match s.additional with
      | some a => [⟨a.go, .map a.ty⟩]
      | none => [])

/-- The type of a field without a JSON key. -/
def hiddenTy (s : Struct) (go : String) : Option Ty :=
  (s.hidden.find? (fun h => h.go == go)).map Hidden.ty

/-- An argument of `marshalUnion`, encoded. -/
def encodePart (s : Struct) (fs : List Slot) : Part → Option Any
  | .consts cs => some (.obj (cs.map (fun c => (c.1, c.2.json))))
  | .fields => (encodeFields s.fields fs).map .obj
  | .hidden go =>
    match slotOf fs go, hiddenTy s go with
    | some slot, some ty => slot.enc ty
    | _, _ => none

/-- A value whose parts can be encoded. -/
inductive VView where
  | nil
  | any (a : Any)
  | bool (b : Bool)
  | str (s : String)
  | num (lit : String)
  | list (es : List (Ty → Option Any))
  | map (ms : List (String × (Ty → Option Any)))
  | struct (fs : List Slot)

/-- `json.Marshal` of a value of a type. -/
def encodeView (T : Table) (v : VView) : Ty → Option Any
  | .any => match v with
    | .any a => some a
    | .nil => some .null
    | _ => none
  | .bool => match v with
    | .bool b => some (.bool b)
    | _ => none
  | .str => match v with
    | .str s => some (.str s)
    | _ => none
  | .int => match v with
    | .num lit => some (.num lit)
    | _ => none
  | .float => match v with
    | .num lit => some (.num lit)
    | _ => none
  | .ptr t => match v with
    | .nil => some .null
    | v => encodeView T v t
  | .slice t => match v with
    | .nil => some .null
    | .list es => (mapAll (fun e => e t) es).map .arr
    | _ => none
  | .map t => match v with
    | .nil => some .null
    | .map ms => (mapAll (fun m => (m.2 t).map (fun j => (m.1, j))) ms).map .obj
    | _ => none
  | .named n =>
    match GoMap.get? T n, v with
    | some (.enum values), .str s => if values.contains s then some (.str s) else none
    | some (.struct s), .struct fs =>
      match mapAll (encodePart s fs) s.parts with
      | some js => unionJ js
      | none => none
    | _, _ => none

mutual
/-- A value with the encoders of its parts. -/
def vview (T : Table) : Val → VView
  | .nil => .nil
  | .any a => .any a
  | .bool b => .bool b
  | .str s => .str s
  | .num lit => .num lit
  | .list vs => .list (vviewList T vs)
  | .map ms => .map (vviewMembers T ms)
  | .struct fs => .struct (vviewFields T fs)
/-- The elements of a slice. -/
def vviewList (T : Table) : List Val → List (Ty → Option Any)
  | [] => []
  | v :: vs => encodeView T (vview T v) :: vviewList T vs
/-- The entries of a map. -/
def vviewMembers (T : Table) : List (String × Val) → List (String × (Ty → Option Any))
  | [] => []
  | (k, v) :: ms => (k, encodeView T (vview T v)) :: vviewMembers T ms
/-- The fields of a struct. -/
def vviewFields (T : Table) : List (String × Val) → List Slot
  | [] => []
  | (go, v) :: fs => ⟨go, v, encodeView T (vview T v)⟩ :: vviewFields T fs
end

/-- `json.Marshal(v)` for `v` of type `ty`; `none` is an error. -/
def encode (T : Table) (ty : Ty) (v : Val) : Option Any := encodeView T (vview T v) ty

end Verif.Codec
