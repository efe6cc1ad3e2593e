import Verif.OptionsProps
import Verif.CfgmToolsProps
import Verif.CoordGetProps
import Verif.CfFormat
import Verif.CfMatchProps

/-! # More on the options, the removal of default values and the dimensions of accessors (C34, C60, C136, C180) -/

namespace Xoa

/-! ## default options -/

/-- the documented options with their default values, and whether they are booleans or texts (xoa/__init__.py:61-73) -/
def documentedOptions : List (Str × Str × Kind × OVal) := [
  ("cf".toList, "accessors".toList, .boolean, .bool true),
  ("cf".toList, "cache".toList, .boolean, .bool true),
  ("plot".toList, "cmapdiv".toList, .string, .str "cmo.balance".toList),
  ("plot".toList, "cmappos".toList, .string, .str "cmo.amp".toList),
  ("plot".toList, "cmapneg".toList, .string, .str "cmo.tempo_r".toList),
  ("plot".toList, "cmapcyc".toList, .string, .str "cmo.phase".toList)]

theorem documented_spec : ∀ p ∈ documentedOptions, specOf p.1 p.2.1 = some p.2.2 := by
  intro p hp
  simp only [documentedOptions, List.mem_cons, List.not_mem_nil, or_false] at hp
  rcases hp with rfl | rfl | rfl | rfl | rfl | rfl <;> rfl

theorem documented_all : ∀ p ∈ configSpecs, (p.1.1, p.1.2, p.2) ∈ documentedOptions := by
  intro p hp
  simp only [configSpecs, List.mem_cons, List.not_mem_nil, or_false] at hp
  rcases hp with rfl | rfl | rfl | rfl | rfl | rfl <;> simp [documentedOptions]

/-- **C180** (reset): whatever the options loaded or set before, `reset_options()` raises nothing when options were loaded, and each documented option is then that of the user file, or
else has its documented default value; an undocumented option is then that of the user file only. -/
theorem C180_reset_partial (user : Opts) (s : OSt) (a : Nat) (hc : s.cur = some a) :
    (resetOptions s).2 = false ∧
    (∀ sec opt k d, (sec, opt, k, d) ∈ documentedOptions →
      (get2 sec opt user = none → inForce user (resetOptions s).1 sec opt = .val d) ∧
      (∀ v, get2 sec opt user = some v → convert k v = none → inForce user (resetOptions s).1 sec opt = .val v) ∧
      (∀ v w, get2 sec opt user = some v → convert k v = some w → inForce user (resetOptions s).1 sec opt = .val w)) ∧
    (∀ sec opt, (∀ k d, (sec, opt, k, d) ∉ documentedOptions) →
      inForce user (resetOptions s).1 sec opt = (match get2 sec opt user with | some v => .val v | none => .returnedError)) := by
  have hr : resetOptions s = ({ s with cur := none }, false) := by unfold resetOptions; rw [hc]
  rw [hr]
  refine ⟨rfl, fun sec opt k d hd => ?_, fun sec opt hd => ?_⟩
  · rw [inForce_none user _ rfl]
    have hs := documented_spec _ hd
    dsimp only at hs
    unfold effective
    rw [hs]
    refine ⟨fun h => by rw [h], fun v h h2 => by rw [h]; simp [h2], fun v w h h2 => by rw [h]; simp [h2]⟩
  · rw [inForce_none user _ rfl]
    have hs : specOf sec opt = none := by
      unfold specOf
      rw [Option.map_eq_none_iff, List.find?_eq_none]
      intro p hp he
      have he : p.1 = (sec, opt) := of_decide_eq_true he
      have := documented_all p hp
      rw [he] at this
      exact hd p.2.1 p.2.2 this
    unfold effective
    rw [hs]
    cases get2 sec opt user <;> rfl

/-- **C180** (first use): the same before anything is loaded or set -/
theorem C180_first_use (user : Opts) (s : OSt) (hc : s.cur = none) (sec opt : Str) (k : Kind) (d : OVal) (hd : (sec, opt, k, d) ∈ documentedOptions)
    (hu : get2 sec opt user = none) : inForce user s sec opt = .val d := by
  have hs := documented_spec _ hd
  dsimp only at hs
  rw [inForce_none user s hc]
  unfold effective
  rw [hs, hu]

/-- **C180 is violated**: `reset_options()` raises a KeyError when no option was loaded, for instance on a first call or on a second one in a row, although the options then have their default values already. -/
theorem C180_reset_violated (s : OSt) : (s.cur = none → (resetOptions s).2 = true) ∧ (resetOptions (resetOptions s).1).2 = true := by
  constructor
  · intro h
    unfold resetOptions
    rw [h]
  · cases h : s.cur with
    | none => simp [resetOptions, h]
    | some a => simp [resetOptions, h]

/-- statements that never raise: reading an option by its section and name, and loading a valid configuration -/
def Quiet : Stmt → Prop
  | .get _ (some _) => True
  | .load (.cfg _) => True
  | .try_ _ => True
  | _ => False

theorem quiet_exec (user : Opts) (st : Stmt) (h : Quiet st) (s : OSt) : (exec user st s).2 = false := by
  cases st with
  | get sec opt =>
    cases opt with
    | none => exact h.elim
    | some o =>
      simp only [exec, getOption]
      split <;> simp
  | load a =>
    cases a with
    | bad => exact h.elim
    | cfg c =>
      unfold exec loadOptions ensure
      cases hc : s.cur with
      | some a => simp [hc]
      | none => simp
  | try_ b => rfl
  | set a b => exact h.elim
  | reset => exact h.elim
  | raise => exact h.elim
  | with_ a b c => exact h.elim

/-- **C34** (no exception is made up): leaving a `set_options` context whose statements raise nothing raises nothing, for bodies of any length. -/
theorem C34_quiet_body (user : Opts) (s : OSt) (hwf : s.wf) (a : Nat) (hc : s.cur = some a) (hne : s.at a ≠ []) (sec : Option Str) (o : List (Str × OVal)) (body : List Stmt)
    (hinit : (setInit user sec o s).2.1 = false) (hb : ∀ st ∈ body, Quiet st) :
    (exec user (.with_ sec o body) s).2 = false ∧ (execL user body s).2 = false := by
  have go : ∀ (l : List Stmt) (s : OSt), (∀ st ∈ l, Quiet st) → (execL user l s).2 = false := by
    intro l
    induction l with
    | nil => intro s _; simp [execL]
    | cons st l ih =>
      intro s h
      unfold execL
      simp only [quiet_exec user st (h st (by simp)) s, Bool.false_eq_true, if_false]
      exact ih _ fun x hx => h x (by simp [hx])
  refine ⟨?_, go body s hb⟩
  have h2 := (C34_set_options_restores user s hwf a hc hne sec o body hinit)
  simp only at h2
  rw [h2.2.2.2]
  exact go body _ hb

/-! ## removal of default values -/

mutual
/-- two values are the same for Python: booleans are the numbers 0 and 1 -/
inductive SameVal : CV → CV → Prop
  | none : SameVal .none .none
  | str (s : Str) : SameVal (.str s) (.str s)
  | int (n : Int) : SameVal (.int n) (.int n)
  | bool (b : Bool) : SameVal (.bool b) (.bool b)
  | trueOne : SameVal (.bool true) (.int 1)
  | falseZero : SameVal (.bool false) (.int 0)
  | oneTrue : SameVal (.int 1) (.bool true)
  | zeroFalse : SameVal (.int 0) (.bool false)
  | list (a b : List CV) (h : SameVals a b) : SameVal (.list a) (.list b)
/-- two lists of the same length with the same values at each place -/
inductive SameVals : List CV → List CV → Prop
  | nil : SameVals [] []
  | cons (a b : CV) (l m : List CV) (h : SameVal a b) (h' : SameVals l m) : SameVals (a :: l) (b :: m)
end

mutual
theorem cv_eq_iff : ∀ a b : CV, CV.eq a b = true ↔ SameVal a b
  | .none, b => by
    cases b <;> simp [CV.eq] <;> first | exact .none | (intro h; cases h)
  | .str s, b => by
    cases b with
    | str s' =>
      simp only [CV.eq, decide_eq_true_eq]
      exact ⟨fun h => h ▸ .str s, fun h => by cases h; rfl⟩
    | _ => simp [CV.eq]; intro h; cases h
  | .int n, b => by
    cases b with
    | int m =>
      simp only [CV.eq, decide_eq_true_eq]
      exact ⟨fun h => h ▸ .int n, fun h => by cases h; rfl⟩
    | bool b =>
      simp only [CV.eq, decide_eq_true_eq]
      cases b with
      | true => exact ⟨fun h => by have : n = 1 := by simpa using h
                                   subst this; exact .oneTrue, fun h => by cases h; rfl⟩
      | false => exact ⟨fun h => by have : n = 0 := by simpa using h
                                    subst this; exact .zeroFalse, fun h => by cases h; rfl⟩
    | _ => simp [CV.eq]; intro h; cases h
  | .bool c, b => by
    cases b with
    | bool b =>
      simp only [CV.eq, beq_iff_eq]
      exact ⟨fun h => h ▸ .bool c, fun h => by cases h; rfl⟩
    | int m =>
      simp only [CV.eq, decide_eq_true_eq]
      cases c with
      | true => exact ⟨fun h => by have : 1 = m := by simpa using h
                                   subst this; exact .trueOne, fun h => by cases h; rfl⟩
      | false => exact ⟨fun h => by have : 0 = m := by simpa using h
                                    subst this; exact .falseZero, fun h => by cases h; rfl⟩
    | _ => simp [CV.eq]; intro h; cases h
  | .list l, b => by
    cases b with
    | list m =>
      simp only [CV.eq]
      rw [cv_eqs_iff l m]
      exact ⟨fun h => .list l m h, fun h => by cases h; assumption⟩
    | _ => simp [CV.eq]; intro h; cases h
theorem cv_eqs_iff : ∀ l m : List CV, CV.eqs l m = true ↔ SameVals l m
  | [], m => by
    cases m with
    | nil => simp only [CV.eqs, true_iff]; exact .nil
    | cons b m => simp [CV.eqs]; intro h; cases h
  | a :: l, m => by
    cases m with
    | nil => simp [CV.eqs]; intro h; cases h
    | cons b m =>
      simp only [CV.eqs, Bool.and_eq_true]
      rw [cv_eq_iff a b, cv_eqs_iff l m]
      exact ⟨fun h => .cons a b l m h.1 h.2, fun h => by cases h; exact ⟨by assumption, by assumption⟩⟩
end

/-- **C136.** In a section with specifications, an option that has a default is removed exactly when its value is the same as this default: same text, same number, or list of the same length with the same
values at each place; the others are kept. -/
theorem C136_same_partial (q : List Str) (s : CSpecT) (opts : List (Str × CV)) (subs : List (Str × CSpecT)) (hs : SpecAt s q opts subs)
    (k : Str) (d v : CV) (hd : lookupS k opts = some d) (l : List CTree) :
    HasOpt q k v (removeItems s l) ↔ HasOpt q k v l ∧ ¬ SameVal d v := by
  have hne : opts ≠ [] ∨ subs ≠ [] := Or.inl (by rintro rfl; cases hd)
  rw [C136_declared_partial q s opts subs hs hne k v l, ← cv_eq_iff]
  constructor
  · rintro ⟨h1, h2, _⟩
    exact ⟨h1, by rw [h2 d hd]; simp⟩
  · rintro ⟨h1, h2⟩
    refine ⟨h1, fun d' hd' => ?_, fun hn => by rw [hd] at hn; cases hn⟩
    rw [hd] at hd'
    injection hd' with hd'
    subst hd'
    simpa using h2

/-- values that are the same, and values that are not -/
example : SameVal (.list [.str "a".toList, .bool true]) (.list [.str "a".toList, .int 1]) ∧ ¬ SameVal (.list [.int 1]) (.list [.int 1, .int 2]) ∧
    ¬ SameVal (.list [.int 1, .int 2]) (.list [.int 1, .int 3]) ∧ ¬ SameVal (.bool true) (.int 2) := by
  refine ⟨.list _ _ (.cons _ _ _ _ (.str _) (.cons _ _ _ _ .trueOne .nil)), ?_, ?_, ?_⟩ <;> rw [← cv_eq_iff] <;> decide

/-! ## dimensions of accessors -/

/-- **C60 is violated** by attributes too: when the array has an attribute `_dims`, whatever the specifications and the dimensions are, `get_dim` indexes this attribute and raises. -/
theorem C60_attribute_violated (a : Acc) (ha : a.hasAttr = true) (ts : List Str) : ∀ r ∈ accRun a none ts, r = .error .typeError := by
  induction ts with
  | nil => intro r hr; cases hr
  | cons t ts ih =>
    have e : accGetDim a none t = (.error .typeError, none) := by
      unfold accGetDim
      simp only [ha, if_true]
    intro r hr
    unfold accRun at hr
    rw [e] at hr
    rcases List.mem_cons.1 hr with rfl | hr
    · rfl
    · exact ih r hr

/-! ## numbers as attributes -/

/-- **C44, part.** An array whose `units` are a number: matching it against the coordinates of the package gives an answer (no coordinate) if the number is zero, and
raises `AttributeError` for every other number. -/
theorem C44_number_units_partial (n : Int) :
    matchAny sgTUV defaultCoords .any (dobjOf (some "foo".toList) [("units".toList, .other n)]) = if n = 0 then .ok none else .error .attributeError := by
  have e : (dobjOf (some "foo".toList) [("units".toList, .other n)]) = mkObj "foo" [("units", .other (n != 0))] := by
    unfold dobjOf mkObj
    congr 1
    funext a
    simp only [List.map, lookupS]
    split <;> rfl
  rw [e]
  by_cases h : n = 0
  · subst h; rw [if_pos rfl]; decide +kernel
  · have : (n != 0) = true := by simpa using h
    rw [this, if_neg h]; exact C44_numeric_units_violated

end Xoa
