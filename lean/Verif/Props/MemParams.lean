import Verif.Props.Mem31Case
import Verif.Props.Params

/-!
# Which operations are accepted, as memory has them (C88, C90)

The setup functions leave an operation in memory. It is stored if the parameters that are reached from it by
`o.Parameters[i].Parameter` fit the path, and otherwise the call fails.
-/

namespace Verif.Mem

open ParamSpec

theorem text_of_reads {v : MVal} {s : String} (h : ReadsText v s) : v.text = s := by
  rcases h with rfl | ⟨rfl, rfl⟩ <;> rfl

theorem declares_paramsOf {m : Memory} {ps : List MVal} {l : List (String × String)} (h : Declares m ps l) :
    (inlineParams (ps.map fun p =>
      match p.field "Parameter" with
      | .ref a => ({ param := some { name := ((deref m a).field "Name").text,
                                     inn := ((deref m a).field "In").text } } : ParamOrRef Unit)
      | _ => {})).map (fun q => (q.name, q.inn)) = l := by
  induction h with
  | nil => rfl
  | reference h _ ih => simpa only [inlineParams, List.map_cons, h, List.filterMap_cons] using ih
  | inline h1 h2 h3 _ ih =>
    simp only [inlineParams, List.map_cons, h1, text_of_reads h2, text_of_reads h3, List.filterMap_cons]
    exact congrArg _ ih

/-- The check of the parameters, for what memory has. -/
theorem fits_iff {m : Memory} {op : MVal} {l : List (String × String)} {names : List String}
    (h : Declares m (elems m (op.field "Parameters")) l) (hl : ∀ q ∈ l, q.2 ∈ locations) :
    validatePathParams (paramsOf m op) (pathParamsMap names) = none ↔ Fits l names := by
  have he : (inlineParams (paramsOf m op)).map (fun q => (q.name, q.inn)) = l := declares_paramsOf h
  have hs : StandardLocations (paramsOf m op) := by
    intro q hq
    exact hl (q.name, q.inn) (he ▸ List.mem_map_of_mem hq)
  rw [C05_validation_exact _ _ hs]
  simp only [Valid, Fits, UniqueParams, PathParamsHavePlaceholders, PlaceholdersAreDefined, mem_pathParamsMap]
  have hn : ((inlineParams (paramsOf m op)).map fun q => (q.inn, q.name)).Nodup ↔ l.Nodup := by
    rw [← he]
    generalize inlineParams (paramsOf m op) = qs
    induction qs with
    | nil => simp
    | cons q qs ih =>
      simp only [List.map_cons, List.nodup_cons, ih, List.mem_map, Prod.mk.injEq]
      grind
  have hm : ∀ name, (name, "path") ∈ l ↔ ∃ q ∈ inlineParams (paramsOf m op), q.inn = "path" ∧ q.name = name := by
    intro name
    rw [← he]
    simp only [List.mem_map, Prod.mk.injEq]
    grind
  rw [hn]
  simp only [hm]
  grind

/-- C88: when the setup functions have succeeded, `SetupOperation` succeeds exactly if the parameters the operation
then has in memory fit the path. -/
theorem C88_setup_accepts {m m2 : Memory} {s : Nat} {method path : String} {fs : List MSetup} {r : Sanitized}
    {l : List (String × String)} (hr : sanitizeMethodPath method path = .ok r)
    (hrun : AllRun fs (m ++ [.cell ((opAt m s r.path r.method).getD (.struct []))]) m.length m2)
    (hd : Declares m2 (elems m2 ((deref m2 m.length).field "Parameters")) l) (hl : ∀ q ∈ l, q.2 ∈ locations) :
    (setupOperation m s method path fs).2 = none ↔ Fits l r.params := by
  rw [← fits_iff hd hl]
  have hrun' := (runAll_none_iff _ _).mpr hrun
  rcases setupOperation_cases m s method path fs with ⟨_, h1, -⟩ | ⟨r', h1, hc⟩
  · rw [hr] at h1; cases h1
  · rw [hr] at h1; cases h1
    simp only [setupOperation, hr]
    have e : (GoMap.get? (entries m (opsRef ((GoMap.get? (entries m (pathsRef m s)) r.path).getD (.struct [])))) r.method) =
        opAt m s r.path r.method := opAt_eq ..
    rw [e, hrun']
    simp only
    split
    · rename_i e h; simp [h]
    · rename_i h; simp [h]

end Verif.Mem

namespace Verif.Mem31

open Verif.Mem ParamSpec

/-- C90: when the setup functions have succeeded, `SetupOperation` succeeds exactly if the parameters the operation
then has in memory fit the path. The functions get the stored operation, or a new one. -/
theorem C90_setup_accepts {m : Memory} {s : Nat} {E : Nat → Prop} {method path : String} {fs : List MSetup}
    {r : Sanitized} (ha : Apart m s E) (hr : sanitizeMethodPath method path = .ok r) :
    ∃ F m1 a, (r.method, F) ∈ fields ∧
      (opAt m s r.path F = some a ∧ m1 = m ∨ opAt m s r.path F = none ∧ m.length ≤ a ∧ deref m1 a = .struct []) ∧
      (∀ x, x < m.length → x ≠ s → m1[x]? = m[x]?) ∧
      ∀ m2 l, AllRun fs m1 a m2 → Declares m2 (elems m2 ((deref m2 a).field "Parameters")) l →
        (∀ q ∈ l, q.2 ∈ locations) → ((setupOperation m s method path fs).2 = none ↔ Fits l r.params) := by
  generalize hset : setupOperation m s method path fs = res
  obtain ⟨m', e⟩ := res
  rcases setup_steps ha hset with ⟨_, h1, -⟩ |
    ⟨r', F, m1, a, m2, e2, hr', hF, -, hk, -, -, -, -, -, -, hc, hrun, hend⟩
  · rw [hr] at h1; cases h1
  · rw [hr] at hr'; cases hr'
    refine ⟨F, m1, a, hF, hc, hk, fun m2' l h1 h2 h3 => ?_⟩
    have h4 := (runAll_none_iff _ _).mpr h1
    rw [hrun] at h4
    cases h4
    rw [← fits_iff h2 h3]
    rcases hend with ⟨msg, h5, -, h6⟩ | ⟨-, h5, h6, -⟩
    · simp [h5, h6 rfl]
    · simp [h5, h6]

/-- The hypotheses are met, with either outcome: a setup function that gives the operation a reference, the path
parameter `id` and a query parameter of the same name, for a path with `{id}` and for one with `{key}`. -/
example :
    let f : MSetup := fun m a =>
      let n := m.length
      ((m ++ [Obj.cell (.struct [("Name", .lit (.str "id")), ("In", .lit (.str "path"))]),
        Obj.cell (.struct [("Name", .lit (.str "id")), ("In", .lit (.str "query"))]),
        Obj.arr [.struct [("ParameterReference", .lit (.str "#/p"))], .struct [("Parameter", .ref n)],
          .struct [("Parameter", .ref (n + 1))]]]).set a (.cell (.struct [("Parameters", .slice (n + 2) 0 3)])), none)
    let l := [("id", "path"), ("id", "query")]
    sanitizeMethodPath "GET" "/{id}" = .ok ⟨"get", "/{id}", ["id"]⟩ ∧
    sanitizeMethodPath "GET" "/{key}" = .ok ⟨"get", "/{key}", ["key"]⟩ ∧
    (∀ q ∈ l, q.2 ∈ locations) ∧ Fits l ["id"] ∧ ¬ Fits l ["key"] ∧
    (∀ m2, AllRun [f] (Mem.caseMem ++ [.cell (.struct [])]) Mem.caseMem.length m2 →
      Declares m2 (elems m2 ((deref m2 Mem.caseMem.length).field "Parameters")) l) ∧
    (∀ m2, AllRun [f] (caseParam) 3 m2 → Declares m2 (elems m2 ((deref m2 3).field "Parameters")) l) ∧
    (Mem.setupOperation Mem.caseMem 0 "GET" "/{id}" [f]).2 = none ∧
    (Mem.setupOperation Mem.caseMem 0 "GET" "/{key}" [f]).2 =
      some "missing path parameter placeholder in url: id, undefined path parameter: key" ∧
    (setupOperation caseParam 0 "GET" "/{id}" [f]).2 = none := by
  have h1 : sanitizeMethodPath "GET" "/{id}" = .ok ⟨"get", "/{id}", ["id"]⟩ := by decide +kernel
  have h2 : sanitizeMethodPath "GET" "/{key}" = .ok ⟨"get", "/{key}", ["key"]⟩ := by decide +kernel
  have h3 : methodField "get" = some "Get" := by decide +kernel
  refine ⟨h1, h2, by decide +kernel, ⟨by decide +kernel, by simp⟩, fun h => ?_, fun m2 h => ?_, fun m2 h => ?_, ?_, ?_, ?_⟩
  · exact absurd ((h.2 "id").mp (by simp)) (by decide +kernel)
  · cases h with
    | cons h h' =>
      cases h; cases h'
      exact .reference rfl (.inline rfl (.inl rfl) (.inl rfl) (.inline rfl (.inl rfl) (.inl rfl) .nil))
  · cases h with
    | cons h h' =>
      cases h; cases h'
      exact .reference rfl (.inline rfl (.inl rfl) (.inl rfl) (.inline rfl (.inl rfl) (.inl rfl) .nil))
  · simp only [Mem.setupOperation, h1]
    rfl
  · simp only [Mem.setupOperation, h2]
    rfl
  · simp only [setupOperation, h1, h3]
    rfl

end Verif.Mem31
