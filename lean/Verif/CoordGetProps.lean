import Verif.CfDims
import Verif.CfMatchProps
import Mathlib.Tactic.Tauto

/-! # C61: coordinate getters; C65: search and match in the two categories; C60, C66: accessors -/

namespace Xoa

variable (sg : SG) (two : CfTwo) (dsa : DSA)

theorem searchName_unknown (cat : CfCat) (loc : MLoc) (objs : List DObj) (name : Str) (h : lookupS name cat = none) :
    searchName sg cat loc objs name .ignore = .ok (none, 0) := by simp [searchName, h]

theorem searchName_ignore (cat : CfCat) (loc : MLoc) (objs : List DObj) (name : Str) (spec : CfSpec) (found : List (DObj × Str))
    (h : lookupS name cat = some spec) (hf : searchNameAll sg loc objs name spec = .ok found) :
    searchName sg cat loc objs name .ignore = .ok (found.head?, 0) := by
  cases found <;> simp [searchName, h, hf, Except.bind, searchEnd]

/-! ## C65 -/

/-- what a category finds for a name: nothing when the name is unknown in this category -/
def FoundIn (vars : Bool) (loc : MLoc) (name : Str) (r : Option (DObj × Str)) : Prop :=
  (lookupS name (two.cat vars) = none ∧ r = none) ∨
  ∃ spec found, lookupS name (two.cat vars) = some spec ∧ searchNameAll sg loc (dsa.objs vars) name spec = .ok found ∧ r = found.head?

theorem FoundIn.search {sg : SG} {two : CfTwo} {dsa : DSA} {vars : Bool} {loc : MLoc} {name : Str} {r : Option (DObj × Str)}
    (h : FoundIn sg two dsa vars loc name r) : searchName sg (two.cat vars) loc (dsa.objs vars) name .ignore = .ok (r, 0) := by
  rcases h with ⟨h, rfl⟩ | ⟨spec, found, h1, h2, rfl⟩
  · exact searchName_unknown sg _ _ _ _ h
  · exact searchName_ignore sg _ _ _ _ spec found h1 h2

/-- **C65 (search).** A search in both categories gives what the first category gives, that is the data variables for a
dataset and the coordinates for an array, and otherwise what the other one gives. When none gives anything, it raises with
`errors="raise"`, and gives nothing (with one warning for `errors="warn"`) otherwise. -/
theorem C65_search (loc : MLoc) (name : Str) (errors : EMode) (rv rc : Option (DObj × Str))
    (hv : FoundIn sg two dsa true loc name rv) (hc : FoundIn sg two dsa false loc name rc) :
    let r := if dsa.dataVars.isSome then rv.or rc else rc.or rv
    (∀ x, r = some x → specsSearch sg two dsa loc name errors = .ok (some x, 0)) ∧
    (r = none → errors = .ignore → specsSearch sg two dsa loc name errors = .ok (none, 0)) ∧
    (r = none → errors = .warn → specsSearch sg two dsa loc name errors = .ok (none, 1)) ∧
    (r = none → errors = .raise → specsSearch sg two dsa loc name errors = .error .notFound) := by
  have key : ∀ a b : Bool, ∀ ra rb, FoundIn sg two dsa a loc name ra → FoundIn sg two dsa b loc name rb →
      specsLoop sg two dsa loc name [a, b] = .ok (ra.or rb) := by
    intro a b ra rb ha hb
    simp only [specsLoop, ha.search, hb.search, Except.bind]
    cases ra with
    | some x => rfl
    | none => cases rb <;> rfl
  have hl : specsLoop sg two dsa loc name dsa.cats = .ok (if dsa.dataVars.isSome then rv.or rc else rc.or rv) := by
    unfold DSA.cats
    split
    · exact key true false rv rc hv hc
    · exact key false true rc rv hc hv
  dsimp only
  unfold specsSearch
  rw [hl]
  simp only [Except.bind]
  generalize (if dsa.dataVars.isSome then rv.or rc else rc.or rv) = r
  refine ⟨?_, ?_, ?_, ?_⟩
  · rintro x rfl; rfl
  · rintro rfl rfl; rfl
  · rintro rfl rfl; rfl
  · rintro rfl rfl; rfl

/-- **C65 (match).** An array whose name is one of its dimensions or coordinates is first compared to the coordinates,
any other one to the data variables; the second category is used only if the first has no match. -/
theorem C65_match (isCoord : Bool) (loc : MLoc) (da : DObj) (r1 r2 : Option Str) (hne : ∀ v, ∀ p ∈ two.cat v, p.1 ≠ [])
    (h1 : matchAny sg (two.cat (!isCoord)) loc da = .ok r1) (h2 : matchAny sg (two.cat isCoord) loc da = .ok r2) :
    specsMatch sg two isCoord loc da = .ok ((r1.map (fun n => (!isCoord, n))).or (r2.map (fun n => (isCoord, n)))) := by
  have ne : ∀ v n, matchAny sg (two.cat v) loc da = .ok (some n) → n ≠ [] := by
    intro v n h
    obtain ⟨pre, spec, post, e, -⟩ := C43_match_any_first sg (two.cat v) loc da (some n) h
    exact hne v (n, spec) (by rw [e]; simp)
  unfold specsMatch
  rw [h1]
  simp only [Except.bind]
  cases r1 with
  | none =>
    rw [h2]
    cases r2 with
    | none => rfl
    | some n => simp [Except.map, ne _ n h2]
  | some n => simp [ne _ n h1]

/-! ## C61 -/

/-- **C61, the part that holds.** A coordinate getter gives the coordinate that the search finds. -/
theorem C61_found_partial (name : Str) (errors : EMode) (rv rc : Option (DObj × Str)) (x : DObj × Str)
    (hv : FoundIn sg two dsa true .any name rv) (hc : FoundIn sg two dsa false .any name rc)
    (hx : (if dsa.dataVars.isSome then rv.or rc else rc.or rv) = some x) :
    getCoordAny sg two dsa name errors = .ok (some x, 0) := by
  simp [getCoordAny, (C65_search sg two dsa .any name .warn rv rc hv hc).1 x hx, Except.mapError]

/-- **C61, what the code does instead.** When nothing is found, `get_lon`, `get_lat`, `get_depth` and `get_altitude` give
`None` with a warning whatever the mode: they do not raise with `errors="raise"`, their default, and are not silent with
`errors="ignore"`. -/
theorem C61_not_found_violated (name : Str) (errors : EMode)
    (hv : FoundIn sg two dsa true .any name none) (hc : FoundIn sg two dsa false .any name none) :
    getCoordAny sg two dsa name errors = .ok (none, 1) := by
  have := (C65_search sg two dsa .any name .warn none none hv hc).2.2.1 (by split <;> rfl) rfl
  simp [getCoordAny, this, Except.mapError]

/-- **C61 (`get_level`, `get_time`).** They give the coordinate that matches when there is exactly one. -/
theorem C61_strict_found_partial (name : Str) (errors : EMode) (spec : CfSpec) (x : DObj × Str) (hs : lookupS name two.coords = some spec)
    (hf : searchNameAll sg .any dsa.coords name spec = .ok [x]) : getCoordStrict sg two dsa name errors = .ok (some x, 0) := by
  simp [getCoordStrict, searchName, hs, hf, Except.bind, searchEnd, Except.mapError]

/-- **C61, what the code does instead (`get_level`, `get_time`).** When nothing is found they raise whatever the mode. -/
theorem C61_strict_violated (name : Str) (errors : EMode) (spec : CfSpec) (hs : lookupS name two.coords = some spec)
    (hf : searchNameAll sg .any dsa.coords name spec = .ok []) : getCoordStrict sg two dsa name errors = .error (.search .notFound) := by
  simp [getCoordStrict, searchName, hs, hf, Except.bind, searchEnd, Except.mapError]

/-- **C61 (`get_vertical`).** The depth if there is one, and otherwise the altitude. -/
theorem C61_vertical_partial (errors : EMode) (dv dc av ac : Option (DObj × Str))
    (hdv : FoundIn sg two dsa true .any "depth".toList dv) (hdc : FoundIn sg two dsa false .any "depth".toList dc)
    (hav : FoundIn sg two dsa true .any "altitude".toList av) (hac : FoundIn sg two dsa false .any "altitude".toList ac) :
    let d := if dsa.dataVars.isSome then dv.or dc else dc.or dv
    let a := if dsa.dataVars.isSome then av.or ac else ac.or av
    (∀ x, d = some x → getVertical sg two dsa errors = .ok (some x, 0)) ∧
    (∀ x, d = none → a = some x → getVertical sg two dsa errors = .ok (some x, 0)) := by
  obtain ⟨d1, d2, -⟩ := C65_search sg two dsa .any "depth".toList .ignore dv dc hdv hdc
  obtain ⟨a1, a2, -⟩ := C65_search sg two dsa .any "altitude".toList .ignore av ac hav hac
  refine ⟨?_, ?_⟩
  · intro x hx
    unfold getVertical; rw [d1 x hx]; rfl
  · intro x hd hx
    unfold getVertical; rw [d2 hd rfl, a1 x hx]; rfl

/-- **C61, what the code does instead (`get_vertical`).** Without depth and altitude it raises whatever the mode, and also
when there is a level coordinate, which it does not look for. -/
theorem C61_vertical_violated (errors : EMode)
    (hdv : FoundIn sg two dsa true .any "depth".toList none) (hdc : FoundIn sg two dsa false .any "depth".toList none)
    (hav : FoundIn sg two dsa true .any "altitude".toList none) (hac : FoundIn sg two dsa false .any "altitude".toList none) :
    getVertical sg two dsa errors = .error .badChoice := by
  have d2 := (C65_search sg two dsa .any "depth".toList .ignore none none hdv hdc).2.1 (by split <;> rfl) rfl
  have a2 := (C65_search sg two dsa .any "altitude".toList .ignore none none hav hac).2.1 (by split <;> rfl) rfl
  unfold getVertical; rw [d2, a2]; rfl

/-- **C61 (`get_cf_coords`).** One answer for each asked name, in the order of the names: the first coordinate that the
specifications of this name find, and `None` without one, whatever the names asked before and after it. -/
theorem C61_several_partial (names : List Str) (errors : EMode) (rs : List (Option (DObj × Str)))
    (h : List.Forall₂ (FoundIn sg two dsa false .any) names rs) : getCfCoords sg two dsa names errors = .ok rs := by
  have key : (names.mapM fun n => (searchName sg two.coords .any dsa.coords n .warn).map Prod.fst) = .ok rs := by
    induction h with
    | nil => rfl
    | @cons n r ns rs' hd _ ih =>
      have e : (searchName sg two.coords .any dsa.coords n .warn).map Prod.fst = .ok r := by
        rcases hd with ⟨h1, rfl⟩ | ⟨spec, found, h1, h2, rfl⟩
        · have h1' : lookupS n two.coords = none := h1
          simp [searchName, h1', Except.map]
        · have h1' : lookupS n two.coords = some spec := h1
          have h2' : searchNameAll sg .any dsa.coords n spec = .ok found := h2
          cases found <;> simp [searchName, h1', h2', Except.bind, searchEnd, Except.map]
      rw [List.mapM_cons, e, ih]; rfl
  unfold getCfCoords; rw [key]; rfl

/-- **C61, what the code does instead (`get_cf_coords`).** The names of which nothing is found, and those which are no
name of a coordinate at all, give `None` whatever the mode: nothing is raised with `errors="raise"`, the default. -/
theorem C61_several_violated (names : List Str) (errors : EMode) (h : ∀ n ∈ names, FoundIn sg two dsa false .any n none) :
    getCfCoords sg two dsa names errors = .ok (names.map fun _ => none) := by
  apply C61_several_partial
  induction names with
  | nil => exact .nil
  | cons n ns ih => exact .cons (h n (by simp)) (ih fun m hm => h m (by simp [hm]))

/-! ### examples -/

def exTwo : CfTwo where
  dataVars := [("temp".toList, ⟨["sst".toList], [], "n".toList⟩)]
  coords := [("depth".toList, ⟨["deptht".toList], [], "n".toList⟩), ("altitude".toList, ⟨["alt".toList], [], "n".toList⟩),
    ("level".toList, ⟨["lev".toList], [], "n".toList⟩), ("lon".toList, ⟨["nav_lon".toList], [], "n".toList⟩)]

/-- a dataset with a temperature and the coordinates `lev`, `nav_lon` and `alt` -/
def exDs (names : List String) : DSA := ⟨some [⟨some "sst".toList, fun _ => none⟩], names.map fun n => ⟨some n.toList, fun _ => none⟩⟩

example : (getVertical sgTUV exTwo (exDs ["lev", "alt"]) .raise).map (fun r => r.1.map fun x => (x.1.name, x.2)) =
    .ok (some (some "alt".toList, "altitude".toList)) := by decide +kernel
example : (getVertical sgTUV exTwo (exDs ["lev", "nav_lon"]) .ignore).map (fun r => r.1.map fun x => (x.1.name, x.2)) = .error .badChoice := by decide +kernel
example : (getCoordAny sgTUV exTwo (exDs ["lev"]) "lon".toList .raise).map (fun r => (r.1.map fun x => x.2, r.2)) = .ok (none, 1) := by decide +kernel
example : (getCoordStrict sgTUV exTwo (exDs ["nav_lon"]) "level".toList .ignore).map (fun r => r.1.map fun x => x.2) = .error (.search .notFound) := by
  decide +kernel
example : (getCfCoords sgTUV exTwo (exDs ["lev", "nav_lon"]) ["lon".toList, "nope".toList, "depth".toList, "level".toList] .raise).map
    (fun r => r.map fun o => o.map fun x => x.2) = .ok [some "lon".toList, none, none, some "level".toList] := by decide +kernel
theorem C61_hyps_met : FoundIn sgTUV exTwo (exDs ["lev", "nav_lon"]) true .any "depth".toList none ∧
    FoundIn sgTUV exTwo (exDs ["lev", "nav_lon"]) false .any "depth".toList none := by
  refine ⟨Or.inl ⟨by decide +kernel, rfl⟩, Or.inr ⟨_, [], rfl, ?_, rfl⟩⟩
  have : ((searchNameAll sgTUV .any (DSA.objs (exDs ["lev", "nav_lon"]) false) "depth".toList ⟨["deptht".toList], [], "n".toList⟩).map List.length) = .ok 0 := by
    decide +kernel
  cases h : searchNameAll sgTUV .any (DSA.objs (exDs ["lev", "nav_lon"]) false) "depth".toList ⟨["deptht".toList], [], "n".toList⟩ with
  | error e => rw [h] at this; simp [Except.map] at this
  | ok l =>
    rw [h] at this
    simp only [Except.map, Except.ok.injEq, List.length_eq_zero_iff] at this
    rw [this]

/-! ## C60 -/

/-- **C60.** The answer of the accessor for a type does not depend on the accesses made before: in any sequence of
accesses, each gives what it gives on a new accessor. (`_dims` is not the name of a coordinate of the specifications.) -/
theorem C60_history_independent_partial (a : Acc) (ha : lookupS "_dims".toList a.two.coords = none) (ts : List Str) :
    accRun a none ts = ts.map (fun t => (accGetDim a none t).1) := by
  induction ts with
  | nil => rfl
  | cons t ts ih =>
    have : (accGetDim a none t).2 = none := by
      simp only [accGetDim, searchName, ha, reduceCtorEq, if_false]
      split <;> rfl
    simp only [accRun, this, List.map_cons, ih]

/-- **C60, what the code does instead.** The accessor never gives any dimension: `hasattr(self, "_dims")` is always
true, since unknown attributes are searched for as coordinates, so that the dictionary is never made and `None` is
indexed. This is so for every array, even when the dimension exists (`search_dim` finds it). -/
theorem C60_get_dim_violated (a : Acc) (ha : lookupS "_dims".toList a.two.coords = none) (ts : List Str) :
    ∀ r ∈ accRun a none ts, r = .error .typeError := by
  rw [C60_history_independent_partial a ha ts]
  intro r hr
  obtain ⟨t, -, rfl⟩ := List.mem_map.1 hr
  simp only [accGetDim, searchName, ha, reduceCtorEq, if_false]
  split <;> rfl

/-- an array with a dimension of type `x`: the search finds it and the accessor does not -/
def exAcc : Acc := ⟨sgTUV, exTwo, [("x".toList, ["lon".toList])], exDs [], ⟨⟨["lon".toList], none, none⟩, []⟩, false⟩

example : searchDim exAcc.sg exAcc.types exAcc.da ['x'] none = .ok (some "lon".toList) ∧ accRun exAcc none [['x'], ['y'], ['x']] =
    [.error .typeError, .error .typeError, .error .typeError] := by
  constructor <;> decide +kernel

/-! ## C66: the CF name of the array accessor -/

/-- successive readings of the CF name through one accessor, of an array that may be changed in place between them -/
def readNames (cache : Option (Option (Bool × Str))) : List (Bool × DObj) → List (Except MErr (Option (Bool × Str)))
  | [] => []
  | (c, o) :: rest => (accName sg two cache c o).1 :: readNames (accName sg two cache c o).2 rest

/-- **C66, the part that holds.** While the array does not change, all the readings agree with `CFSpecs.match`. -/
theorem C66_same_array_partial (c : Bool) (o : DObj) (n : Nat) :
    ∀ r ∈ readNames sg two none (List.replicate n (c, o)), r = specsMatch sg two c .any o := by
  have main : ∀ cache, (cache = none ∨ ∃ r, cache = some r ∧ specsMatch sg two c .any o = .ok r) →
      ∀ r ∈ readNames sg two cache (List.replicate n (c, o)), r = specsMatch sg two c .any o := by
    induction n with
    | zero => intro cache _ r hr; simp [readNames] at hr
    | succ n ih =>
      intro cache hc r hr
      rw [List.replicate_succ, readNames, List.mem_cons] at hr
      rcases hc with rfl | ⟨v, rfl, hv⟩
      · cases hm : specsMatch sg two c .any o with
        | error e =>
          have e1 : accName sg two none c o = (.error e, none) := by simp [accName, hm]
          rw [e1] at hr
          rcases hr with rfl | hr
          · rfl
          · rw [← hm]; exact ih none (Or.inl rfl) r hr
        | ok v =>
          have e1 : accName sg two none c o = (.ok v, some v) := by simp [accName, hm]
          rw [e1] at hr
          rcases hr with rfl | hr
          · rfl
          · rw [← hm]; exact ih (some v) (Or.inr ⟨v, rfl, hm⟩) r hr
      · have e1 : accName sg two (some v) c o = (.ok v, some v) := by simp [accName]
        rw [e1] at hr
        rcases hr with rfl | hr
        · exact hv.symm
        · exact ih (some v) (Or.inr ⟨v, rfl, hv⟩) r hr
  exact main none (Or.inl rfl)

/-- **C66, what the code does instead.** Once read, the CF name never changes again, whatever is done to the array. -/
theorem C66_stale_violated (c : Bool) (o : DObj) (v : Option (Bool × Str)) (h : specsMatch sg two c .any o = .ok v) (later : List (Bool × DObj)) :
    ∀ r ∈ readNames sg two none ((c, o) :: later), r = .ok v := by
  have e1 : accName sg two none c o = (.ok v, some v) := by simp [accName, h]
  have main : ∀ l, ∀ r ∈ readNames sg two (some v) l, r = .ok v := by
    intro l
    induction l with
    | nil => intro r hr; simp [readNames] at hr
    | cons p l ih =>
      intro r hr
      have e2 : accName sg two (some v) p.1 p.2 = (.ok v, some v) := by simp [accName]
      rw [readNames, e2, List.mem_cons] at hr
      rcases hr with rfl | hr
      · rfl
      · exact ih r hr
  intro r hr
  rw [readNames, e1, List.mem_cons] at hr
  rcases hr with rfl | hr
  · rfl
  · exact main later r hr

/-- an array read as a temperature, then renamed as a depth -/
example : readNames sgTUV exTwo none [(false, ⟨some "sst".toList, fun _ => none⟩), (false, ⟨some "deptht".toList, fun _ => none⟩)] =
      [.ok (some (true, "temp".toList)), .ok (some (true, "temp".toList))] ∧
    specsMatch sgTUV exTwo false .any ⟨some "deptht".toList, fun _ => none⟩ = .ok (some (false, "depth".toList)) := by
  constructor <;> decide +kernel

end Xoa
