import Verif.CfItems
import Verif.CfBuiltinDimsProps
import Verif.CfBuiltinProps

/-!
# C199 and C200: axis of a coordinate; access to the CF specifications
-/

set_option maxRecDepth 20000

namespace Xoa

/-! ## C199: axis -/

/-- the axis of the coordinates, as the configuration file gives them -/
def axisTable : List (Str × Str) :=
  [("time".toList, "T".toList), ("lon".toList, "X".toList), ("lat".toList, "Y".toList), ("depth".toList, "Z".toList), ("altitude".toList, "Z".toList), ("sig".toList, "Z".toList),
   ("level".toList, "Z".toList), ("forecast".toList, "F".toList)]

theorem axisTable_ok : ∀ p ∈ axisTable, ((lookupS p.1 builtinCoords).bind fun s => lookupS "axis".toList s.attrs) = some (Refs.text p.2) ∧ upper p.2 = p.2 := by decide +kernel

/-- **C199** (attribute): an array with an axis attribute has this axis, in upper case, or in lower case if asked, whatever the specifications and the rest of the array. -/
theorem C199_attribute (sg : SG) (cat : CfCat) (da : DObj) (a : Str) (h : da.get "axis".toList = some (.str a)) :
    getAxis sg cat false da = .ok (some (upper a)) ∧ getAxis sg cat true da = .ok (some (lower a)) := by
  unfold getAxis
  rw [h]
  exact ⟨rfl, rfl⟩

/-- **C199** (case): the axis in lower case is that in upper case, in lower case. -/
theorem C199_case (sg : SG) (cat : CfCat) (da : DObj) : getAxis sg cat true da = (getAxis sg cat false da).map (Option.map lower) := by
  unfold getAxis
  dsimp only
  cases da.get "axis".toList with
  | some v =>
    cases v with
    | str a => show Except.ok _ = Except.ok _; simp [lower_upper]
    | other b => rfl
  | none =>
    dsimp only
    cases matchAny sg cat .any da with
    | error e => rfl
    | ok o =>
      cases o with
      | none => rfl
      | some n =>
        dsimp only
        cases lookupS n cat with
        | none => rfl
        | some spec =>
          dsimp only
          cases lookupS "axis".toList spec.attrs with
          | none => rfl
          | some r =>
            cases r with
            | none_ => rfl
            | text a => show Except.ok _ = Except.ok _; simp [lower_upper]
            | list l => rfl

/-- **C199** (known coordinate, built-in specifications): an array without axis attribute that is recognised as a built-in coordinate other than the grid indices `x` and `y` has the axis of this coordinate. -/
theorem C199_known (da : DObj) (ha : da.get "axis".toList = none) (x a : Str) (hx : (x, a) ∈ axisTable) (hm : matchAny {} loadedCoords .any da = .ok (some x)) :
    getAxis {} loadedCoords false da = .ok (some a) ∧ getAxis {} loadedCoords true da = .ok (some (lower a)) := by
  have h0 : getAxis {} loadedCoords false da = .ok (some a) := by
    unfold getAxis
    rw [ha, hm]
    dsimp only
    obtain ⟨h1, h2⟩ := axisTable_ok _ hx
    rw [loadedCoords_eq]
    cases hl : lookupS x builtinCoords with
    | none => rw [hl] at h1; cases h1
    | some spec =>
      rw [hl] at h1
      have h1' : lookupS "axis".toList spec.attrs = some (Refs.text a) := h1
      dsimp only
      rw [h1']
      show Except.ok (some (upper a)) = _
      rw [h2]
  refine ⟨h0, ?_⟩
  rw [C199_case, h0]; rfl

/-- **C199** (name): for instance, every array without attribute that is named as one of these coordinates, in any case and with or without a location, has its axis. -/
theorem C199_named (x a : Str) (hx : (x, a) ∈ axisTable) (spec : CfSpec) (hs : (x, spec) ∈ loadedCoords) (n : Str) (hn : n ∈ x :: spec.names) (hfree : ∀ y, (x, n, y) ∉ coordNamesTaken)
    (da : DObj) (s : Str) (hname : da.name = some s) (hnt : NameText n s)
    (hstd : da.get "standard_name".toList = none) (ha : da.get "axis".toList = none) (hu : da.get "units".toList = none) :
    getAxis {} loadedCoords false da = .ok (some a) :=
  (C199_known da ha x a hx (C174_by_name_partial x spec hs n hn hfree da s hname hnt hstd ha hu)).1

/-- **C199** (unknown): an array without axis attribute that is not recognised has no axis. -/
theorem C199_unknown (sg : SG) (cat : CfCat) (low : Bool) (da : DObj) (ha : da.get "axis".toList = none) (hm : matchAny sg cat .any da = .ok none) : getAxis sg cat low da = .ok none := by
  unfold getAxis
  rw [ha, hm]

theorem grid_axis : ∀ x ∈ ["x".toList, "y".toList], ((lookupS x builtinCoords).bind fun s => lookupS "axis".toList s.attrs) = some Refs.none_ := by decide +kernel

theorem grid_dims : ∀ p ∈ [("x".toList, "x".toList), ("x".toList, "xi".toList), ("y".toList, "y".toList), ("y".toList, "yi".toList)],
    (∃ spec, (p.1, spec) ∈ builtinCoords ∧ p.2 ∈ p.1 :: spec.names) ∧ (∀ y, (p.1, p.2, y) ∉ coordNamesTaken) ∧ (∃ l, (p.1, l) ∈ builtinDims ∧ p.2 ∈ l) ∧ lower p.2 ∉ cutDims := by
  intro p hp
  have h1 : (builtinCoords.any fun q => decide (q.1 = p.1 ∧ p.2 ∈ q.1 :: q.2.names)) = true := by revert p; decide +kernel
  have h2 : (coordNamesTaken.all fun t => decide (¬ (t.1 = p.1 ∧ t.2.1 = p.2))) = true := by revert p; decide +kernel
  have h3 : (builtinDims.any fun q => decide (q.1 = p.1 ∧ p.2 ∈ q.2)) = true := by revert p; decide +kernel
  have h4 : lower p.2 ∉ cutDims := by revert p; decide +kernel
  obtain ⟨⟨a, b⟩, hm, h1⟩ := List.any_eq_true.1 h1
  obtain ⟨⟨a', b'⟩, hm', h3⟩ := List.any_eq_true.1 h3
  rw [decide_eq_true_eq] at h1 h3
  obtain ⟨rfl, h1⟩ := h1
  obtain ⟨h3, h3'⟩ := h3
  dsimp only at h3
  subst h3
  refine ⟨⟨b, hm, h1⟩, fun y hy => ?_, ⟨b', hm', h3'⟩, h4⟩
  have := List.all_eq_true.1 h2 _ hy
  rw [decide_eq_true_eq] at this
  exact this ⟨rfl, rfl⟩

/-- **C199 is violated** by the grid indices: an array without attribute named `x`, `xi`, `y` or `yi`, in any case and with or without a location, is recognised as the coordinate `x` or `y`, and the type of a dimension of
the same name is `x` or `y`, but it has no axis: the configuration file does not give one. -/
theorem C199_grid_violated (x n : Str) (hx : (x, n) ∈ [("x".toList, "x".toList), ("x".toList, "xi".toList), ("y".toList, "y".toList), ("y".toList, "yi".toList)])
    (da : DObj) (s : Str) (hname : da.name = some s) (hnt : NameText n s) (hcut : lower s ∉ cutDims)
    (hstd : da.get "standard_name".toList = none) (ha : da.get "axis".toList = none) (hu : da.get "units".toList = none) (low : Bool) :
    matchAny {} loadedCoords .any da = .ok (some x) ∧ (∀ arr, getDimType {} loadedDims s arr = .ok (some x)) ∧ getAxis {} loadedCoords low da = .ok none := by
  obtain ⟨⟨spec, hs, hn⟩, hfree, ⟨l, hl, hnl⟩, _⟩ := grid_dims _ hx
  have hm := C174_by_name_partial x spec (by rw [loadedCoords_eq]; exact hs) n hn hfree da s hname hnt hstd ha hu
  refine ⟨hm, fun arr => C176_known_dims_partial x l (by rw [loadedDims_eq]; exact hl) n hnl s hnt hcut arr, ?_⟩
  unfold getAxis
  rw [ha, hm]
  dsimp only
  have hx' : x ∈ ["x".toList, "y".toList] := by
    have : ∀ p ∈ [("x".toList, "x".toList), ("x".toList, "xi".toList), ("y".toList, "y".toList), ("y".toList, "yi".toList)], p.1 ∈ ["x".toList, "y".toList] := by decide
    exact this _ hx
  have h1 := grid_axis x hx'
  rw [loadedCoords_eq]
  cases hl : lookupS x builtinCoords with
  | none => rw [hl] at h1; cases h1
  | some spec =>
    rw [hl] at h1
    have h1' : lookupS "axis".toList spec.attrs = some Refs.none_ := h1
    dsimp only
    rw [h1']

-- the hypotheses hold for a coordinate named `xi_rho`, without attribute
example : NameText "xi".toList "xi_rho".toList ∧ lower "xi_rho".toList ∉ cutDims := by
  refine ⟨Or.inr ⟨"rho".toList, ?_, by decide⟩, by decide⟩
  unfold isLoc; decide

/-! ## C200: items -/

/-- **C200** (a name): `get_cf_specs(name)` gives the specifications of the data variable of this name, else those of the coordinate of this name, else `None`. -/
theorem C200_name (sp : Specs) (n : Str) :
    (∀ s, lookupS n sp.vars = some s → selectSpecs sp (some n) none = .ok (.specs s)) ∧
    (∀ s, lookupS n sp.vars = none → lookupS n sp.coords = some s → selectSpecs sp (some n) none = .ok (.specs s)) ∧
    (lookupS n sp.vars = none → lookupS n sp.coords = none → selectSpecs sp (some n) none = .ok .none_) := by
  refine ⟨fun s h => ?_, fun s h h' => ?_, fun h h' => ?_⟩
  · unfold selectSpecs; dsimp only; rw [h]
  · unfold selectSpecs; dsimp only; rw [h]; dsimp only; rw [h']
  · unfold selectSpecs; dsimp only; rw [h]; dsimp only; rw [h']

/-- **C200** (a category): with a category, only this category counts. -/
theorem C200_category (sp : Specs) (n : Str) :
    selectSpecs sp (some n) (some "data_vars".toList) = .ok ((lookupS n sp.vars).elim .none_ .specs) ∧
    selectSpecs sp (some n) (some "coords".toList) = .ok ((lookupS n sp.coords).elim .none_ .specs) ∧
    selectSpecs sp none (some "data_vars".toList) = .ok (.part (.category sp.vars)) ∧
    selectSpecs sp none (some "coords".toList) = .ok (.part (.category sp.coords)) ∧ selectSpecs sp none none = .ok .all := by
  have h1 : sp.get "data_vars".toList = .ok (.category sp.vars) := rfl
  have h2 : sp.get "coords".toList = .ok (.category sp.coords) := rfl
  refine ⟨?_, ?_, ?_, ?_, rfl⟩
  · unfold selectSpecs; dsimp only; rw [h1]; simp only [Except.map]; cases lookupS n sp.vars <;> rfl
  · unfold selectSpecs; dsimp only; rw [h2]; simp only [Except.map]; cases lookupS n sp.coords <;> rfl
  · unfold selectSpecs; dsimp only; rw [h1]; rfl
  · unfold selectSpecs; dsimp only; rw [h2]; rfl

/-- **C200** (items): for a name that is not that of a category, `specs[name]` is what `get_cf_specs(name)` gives, when this one gives something. -/
theorem C200_item (sp : Specs) (n : Str) (s : CfSpec) (h1 : n ≠ "data_vars".toList) (h2 : n ≠ "coords".toList) :
    selectSpecs sp (some n) none = .ok (.specs s) → sp.get n = .ok (.item s) := by
  intro h
  unfold Specs.get
  rw [if_neg h1, if_neg h2]
  unfold selectSpecs at h
  dsimp only at h
  cases hv : lookupS n sp.vars with
  | some t =>
    rw [hv] at h
    have : t = s := by injection h with h; injection h
    rw [this]
  | none =>
    rw [hv] at h
    dsimp only at h ⊢
    cases hc : lookupS n sp.coords with
    | some t =>
      rw [hc] at h
      have : t = s := by injection h with h; injection h
      rw [this]
    | none =>
      rw [hc] at h
      dsimp only at h
      injection h with h
      cases h

/-- **C200** (unknown category): a category that is no category, no name and no section raises `KeyError`. -/
theorem C200_unknown (sp : Specs) (name : Option Str) (c : Str) (h1 : c ≠ "data_vars".toList) (h2 : c ≠ "coords".toList) (hv : lookupS c sp.vars = none) (hc : lookupS c sp.coords = none) (hs : c ∉ sp.sections) :
    selectSpecs sp name (some c) = .error .keyError := by
  have : sp.get c = .error .keyError := by
    unfold Specs.get
    rw [if_neg h1, if_neg h2, hv]
    dsimp only
    rw [hc]
    dsimp only
    rw [if_neg hs]
  unfold selectSpecs
  dsimp only
  rw [this]; rfl

/-- Remark (not part of C200): `name in specs` only asks for categories: it is false for every variable and coordinate although `specs[name]` works. -/
theorem specs_contains_names (sp : Specs) (n : Str) (s : CfSpec) (h1 : n ≠ "data_vars".toList) (h2 : n ≠ "coords".toList) (h : lookupS n sp.vars = some s) :
    sp.get n = .ok (.item s) ∧ Specs.contains n = false := by
  constructor
  · unfold Specs.get
    rw [if_neg h1, if_neg h2, h]
  · unfold Specs.contains
    simp only [h1, h2, decide_false, Bool.or_self]

-- the built-in specifications: `temp` and `lon`; `depth` is both a variable and a coordinate
def builtinSpecs : Specs := ⟨builtinVars, builtinCoords, ["sglocator".toList, "accessors".toList, "data_vars".toList, "coords".toList, "dims".toList]⟩

example : (lookupS "temp".toList builtinSpecs.vars).isSome ∧ (lookupS "lon".toList builtinSpecs.vars).isNone ∧ (lookupS "lon".toList builtinSpecs.coords).isSome ∧
    (lookupS "depth".toList builtinSpecs.vars).isSome ∧ (lookupS "depth".toList builtinSpecs.coords).isSome := by decide +kernel

end Xoa
