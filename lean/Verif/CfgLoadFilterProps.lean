import Verif.CfgLoadProps

/-!
# C207: the filter of `load`
-/

namespace Xoa
variable {V : Type}

/-! ## Specification -/

/-- the dictionary of a filter has a key -/
def Filt.NonEmpty (f : Filt) : Prop := f.d ≠ none ∨ f.e ≠ none ∨ f.items ≠ []

/-- `g` is the filter meant by the argument `cfgfilter` of `load`, of a manager created with the filter `own`: `True` means the one of the manager, a dictionary means itself -/
def FilterMeant (own : Filt) (arg : FilterArg) (g : Filt) : Prop :=
  arg = .flag true ∧ g = own ∨ arg = .dict g ∧ g.NonEmpty

/-- the value of an option after the filter -/
def filteredValue (g : Filt) (dflt : Bool) (r : List Str) (v : Option V) : Option V :=
  if pathKept g.d g.e g.items dflt r = true then v else none

theorem filt_truthy_iff (f : Filt) : f.truthy = true ↔ f.NonEmpty := by
  unfold Filt.truthy Filt.NonEmpty
  cases f.d <;> cases f.e <;> cases f.items <;> simp

theorem used_meant (own g : Filt) (hown : own.NonEmpty) (arg : FilterArg) (h : FilterMeant own arg g) : usedFilter (some own) arg = some g := by
  unfold usedFilter
  dsimp only
  rw [if_pos ((filt_truthy_iff own).2 hown)]
  rcases h with ⟨rfl, rfl⟩ | ⟨rfl, hg⟩
  · rfl
  · dsimp only
    rw [if_pos ((filt_truthy_iff g).2 hg)]

theorem kind_filter (r : List Str) : ∀ (d : Option Bool) (e : Option (List Str)) (items : List (Str × FT)) (dflt : Bool) (l : List (Str × CT V)) (b : Bool),
    kindAt r (.sec (filterSec d e items dflt l)) = some b → kindAt r (.sec l) = some b := by
  induction r with
  | nil =>
    intro d e items dflt l b h
    simpa [kindAt, getT] using h
  | cons k q ih =>
    intro d e items dflt l b h
    unfold kindAt at h ⊢
    simp only [getT, lookup_filterSec] at h ⊢
    by_cases hk : keepKey d e items dflt k = true
    · rw [if_pos hk] at h
      cases hl : lookupS k l with
      | none => rw [hl] at h; cases h
      | some t =>
        rw [hl] at h
        simp only [Option.map_some, Option.bind_some] at h ⊢
        cases t with
        | val v => exact h
        | sec l' =>
          simp only [filterSub] at h
          cases hf : lookupS k items with
          | none => rw [hf] at h; exact h
          | some f =>
            rw [hf] at h
            cases f with
            | flag b => exact h
            | node d' e' items' => exact ih d' e' items' false l' b h
    · rw [if_neg hk] at h
      cases h

/-- the configuration that is validated -/
theorem load_filtered (T : Typing V) (specs : List (Str × CT (LoadSpec V))) (own g : Filt) (hown : own.NonEmpty) (od : Bool)
    (fs : Str → Option (List (Str × CT V))) (o : LoadOpts V) (hm : FilterMeant own o.cfgfilter g) :
    loadFull T specs (some own) od fs o =
      (if o.validate.truthy && !specs.isEmpty then
        validateCfg specs (filterSec g.d g.e g.items od (loadRaw T specs (readCfg fs o.cfgfile) (o.patch.map PatchSrc.tree) o.kw))
      else .ok (filterSec g.d g.e g.items od (loadRaw T specs (readCfg fs o.cfgfile) (o.patch.map PatchSrc.tree) o.kw))) := by
  unfold loadFull loadFilter
  rw [used_meant own g hown o.cfgfilter hm]

/-! ## C207 -/

/-- **C207** (without validation): `load(cfgfilter=...)` of a manager that has a filter gives to the options that the filter keeps the value that `load`
gives to them without filter, and removes all the others. -/
theorem C207_filtered (T : Typing V) (specs : List (Str × CT (LoadSpec V))) (own g : Filt) (hown : own.NonEmpty) (od : Bool)
    (fs : Str → Option (List (Str × CT V))) (o : LoadOpts V) (hm : FilterMeant own o.cfgfilter g) (hv : o.validate.truthy = false) :
    ∃ out plain, loadFull T specs (some own) od fs o = .ok out ∧ loadFull T specs (some own) od fs { o with cfgfilter := .flag false } = .ok plain ∧
      ∀ r, r ≠ [] → leafAt r (.sec out) = filteredValue g od r (leafAt r (.sec plain)) := by
  refine ⟨filterSec g.d g.e g.items od (loadRaw T specs (readCfg fs o.cfgfile) (o.patch.map PatchSrc.tree) o.kw),
    loadRaw T specs (readCfg fs o.cfgfile) (o.patch.map PatchSrc.tree) o.kw, ?_, ?_, ?_⟩
  · rw [load_filtered T specs own g hown od fs o hm, hv]
    rfl
  · have hf : usedFilter (some own) (.flag false) = none := by unfold usedFilter; dsimp only; split <;> rfl
    rw [load_eq T specs (some own) od fs { o with cfgfilter := .flag false } hf]
    show (if o.validate.truthy && _ then _ else _) = _
    rw [hv]
    rfl
  · intro r hr
    exact C59_filter_section g.d g.e g.items od _ r hr

/-- **C207** (with validation): the options of the specifications have the check of the value given for them if the filter keeps them, and their
default if no value is given or if the filter removes them: a filtered option is not removed, it is reset. -/
theorem C207_validated_partial (T : Typing V) (hT : T.Lawful) (specs : List (Str × CT (LoadSpec V))) (hw : WfTree (.sec specs)) (own g : Filt)
    (hown : own.NonEmpty) (od : Bool) (fs : Str → Option (List (Str × CT V))) (o : LoadOpts V) (hm : FilterMeant own o.cfgfilter g)
    (hv : o.validate.truthy = true) (hsame : AgreeingKinds specs (loadTrees fs o)) (out : List (Str × CT V))
    (h : loadFull T specs (some own) od fs o = .ok out) (path : List Str) (key : Str) (hclean : cleanPath path) :
    (∀ s, leafAt (path ++ [key]) (.sec specs) = some s →
      leafAt (path ++ [key]) (.sec out) = (match filteredValue g od (path ++ [key]) (loadGiven T fs o (path ++ [key])) with
        | some v => s.chk v
        | none => s.dflt)) ∧
    (specs ≠ [] → (∀ x ∈ leavesL [] specs, ¬ (path ++ [key]) <+: x.1 ∧ ¬ x.1 ++ [x.2] <+: (path ++ [key])) →
      leafAt (path ++ [key]) (.sec out) = filteredValue g od (path ++ [key]) (loadGiven T fs o (path ++ [key]))) := by
  rw [load_filtered T specs own g hown od fs o hm, hv] at h
  have hsame' := hsame
  obtain ⟨K, hK, h1, h2⟩ := hsame
  have hraw := raw_within hT specs _ (o.patch.map PatchSrc.tree) o.kw K hK (h2 (readCfg fs o.cfgfile) (by simp [loadTrees])) (h2 _ (by simp [loadTrees]))
    (h2 _ (by simp [loadTrees]))
  have hsh := shape_ok specs hw (filterSec g.d g.e g.items od (loadRaw T specs (readCfg fs o.cfgfile) (o.patch.map PatchSrc.tree) o.kw)) K hK h1
    (fun r b hr => hraw r b (kind_filter r _ _ _ _ _ b hr))
  have hleaf : leafAt (path ++ [key]) (.sec (filterSec g.d g.e g.items od (loadRaw T specs (readCfg fs o.cfgfile) (o.patch.map PatchSrc.tree) o.kw))) =
      filteredValue g od (path ++ [key]) (loadGiven T fs o (path ++ [key])) := by
    rw [C59_filter_section _ _ _ _ _ _ (by simp), raw_leaf hT specs _ _ _ hsame' path key hclean]
    rfl
  constructor
  · intro s hs
    rw [specs_nonempty specs path key s hs] at h
    simp only [Bool.not_false, Bool.and_self, if_true] at h
    rw [((validate_spec specs hw _ hsh).2 out h).1 path key s hs, hleaf]
    cases filteredValue g od (path ++ [key]) (loadGiven T fs o (path ++ [key])) <;> rfl
  · intro hne hx
    have : specs.isEmpty = false := by cases specs with
      | nil => exact absurd rfl hne
      | cons a l => rfl
    rw [this] at h
    simp only [Bool.not_false, Bool.and_self, if_true] at h
    rw [((validate_spec specs hw _ hsh).2 out h).2 (path ++ [key]) hx, hleaf]

/-- **C207** (filter of the manager): its specifications were filtered in the same way when it was created, so that `cfgfilter=True` changes nothing
to the options of its specifications. -/
theorem C207_own (T : Typing V) (hT : T.Lawful) (specs0 : List (Str × CT (LoadSpec V))) (own : Filt) (hown : own.NonEmpty) (od : Bool)
    (hw : WfTree (.sec (filterSec own.d own.e own.items od specs0))) (fs : Str → Option (List (Str × CT V))) (o : LoadOpts V) (hc : o.cfgfilter = .flag true)
    (hv : o.validate.truthy = true) (hsame : AgreeingKinds (filterSec own.d own.e own.items od specs0) (loadTrees fs o)) (out : List (Str × CT V))
    (h : loadFull T (filterSec own.d own.e own.items od specs0) (some own) od fs o = .ok out) (path : List Str) (key : Str) (hclean : cleanPath path)
    (s : LoadSpec V) (hs : leafAt (path ++ [key]) (.sec (filterSec own.d own.e own.items od specs0)) = some s) :
    leafAt (path ++ [key]) (.sec out) = (match loadGiven T fs o (path ++ [key]) with
      | some v => s.chk v
      | none => s.dflt) := by
  have hk : pathKept own.d own.e own.items od (path ++ [key]) = true := by
    by_contra hk
    rw [C59_filter_section _ _ _ _ _ _ (by simp), if_neg hk] at hs
    cases hs
  rw [(C207_validated_partial T hT _ hw own own hown od fs o (.inl ⟨hc, rfl⟩) hv hsame out h path key hclean).1 s hs]
  unfold filteredValue
  rw [if_pos hk]

/-- **C207 is violated** by a manager created without a filter, or with an empty one: the filter given to `load` is not used. -/
theorem C207_ignored_violated (T : Typing V) (specs : List (Str × CT (LoadSpec V))) (own : Option Filt) (hown : ∀ f, own = some f → ¬ f.NonEmpty) (od : Bool)
    (fs : Str → Option (List (Str × CT V))) (o : LoadOpts V) (arg : FilterArg) :
    loadFull T specs own od fs { o with cfgfilter := arg } = loadFull T specs own od fs { o with cfgfilter := .flag false } := by
  have h : ∀ a, usedFilter own a = none := by
    intro a
    cases own with
    | none => rfl
    | some f =>
      unfold usedFilter
      dsimp only
      rw [if_neg]
      intro ht
      exact hown f rfl ((filt_truthy_iff f).1 ht)
  rw [load_eq T specs own od fs _ (h _), load_eq T specs own od fs _ (h _)]

/-- **C207** (no filter): `cfgfilter=False` and an empty dictionary filter nothing. -/
theorem C207_none (T : Typing V) (specs : List (Str × CT (LoadSpec V))) (own : Option Filt) (od : Bool)
    (fs : Str → Option (List (Str × CT V))) (o : LoadOpts V) (g : Filt) (hg : ¬ g.NonEmpty) :
    loadFull T specs own od fs { o with cfgfilter := .dict g } = loadFull T specs own od fs { o with cfgfilter := .flag false } ∧
    loadFull T specs own od fs { o with cfgfilter := .flag false } = loadFull T specs none od fs { o with cfgfilter := .flag false } := by
  have h : ∀ a, a = .dict g ∨ a = .flag false → usedFilter own a = none := by
    intro a ha
    cases own with
    | none => rfl
    | some f =>
      unfold usedFilter
      dsimp only
      split
      · rcases ha with rfl | rfl
        · dsimp only
          rw [if_neg]
          intro ht
          exact hg ((filt_truthy_iff g).1 ht)
        · rfl
      · rfl
  rw [load_eq T specs own od fs _ (h _ (.inl rfl)), load_eq T specs own od fs _ (h _ (.inr rfl)), load_eq T specs none od fs _ rfl]
  exact ⟨rfl, rfl⟩

/-! ## non-vacuity -/

/-- natural numbers, not converted -/
def exTyping : Typing Nat := ⟨Unit, fun _ => (), fun _ v => some v⟩

/-- `a` and `s.x` with a default of 0, values up to 9 -/
def exLSpecs : List (Str × CT (LoadSpec Nat)) :=
  [("a".toList, .val ⟨fun v => if v ≤ 9 then some v else none, some 0⟩),
    ("s".toList, .sec [("x".toList, .val ⟨fun v => if v ≤ 9 then some v else none, some 0⟩)])]

def exLOpts (arg : FilterArg) (v : Bool) : LoadOpts Nat :=
  { cfgfile := .cfg exSec, validate := .flag v, cfgfilter := arg, kw := [("b".toList, .val 7)] }

/-- the values of some options -/
def exLVals (r : Except LoadErr (List (Str × CT Nat))) : Option (List (Option Nat)) :=
  r.toOption.map (fun c => [["a".toList], ["b".toList], ["s".toList, "x".toList], ["s".toList, "y".toList]].map (fun q => leafAt q (.sec c)))

example : exLVals (loadFull exTyping exLSpecs (some ⟨none, none, exFilt⟩) false (fun _ => none) (exLOpts (.flag true) false)) =
    some [some 1, none, some 3, none] := by decide +kernel
example : exLVals (loadFull exTyping exLSpecs (some ⟨none, none, exFilt⟩) false (fun _ => none)
    (exLOpts (.dict ⟨some true, none, [("a".toList, .flag false)]⟩) true)) = some [some 0, some 7, some 3, some 4] := by decide +kernel
example : exLVals (loadFull exTyping exLSpecs none false (fun _ => none) (exLOpts (.dict ⟨none, some ["b".toList], []⟩) true)) =
    some [some 1, some 7, some 3, some 4] := by decide +kernel
example : exLVals (loadFull exTyping exLSpecs (some ⟨none, some ["b".toList], []⟩) false (fun _ => none) (exLOpts (.flag true) true)) =
    some [some 0, some 7, some 0, none] := by decide +kernel

end Xoa
