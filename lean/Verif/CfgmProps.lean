import Verif.Cfgm
import Verif.OptionsProps
import Mathlib.Tactic.Linarith
import Mathlib.Tactic.NormNum

/-!
# C56 (validators), C58 (option names), C59 (section filtering)
-/

namespace Xoa

/-! ## C56 -/

/-- the number an item stands for -/
def NItem.value : NItem → Option ℚ
  | .num q => some q
  | .str p => p

/-- a bound the type represents exactly -/
def exactBound (t : NType) (b : Option ℚ) : Prop := ∀ m, b = some m → t.cast m = m

/-- clamping to bounds that may be absent -/
def clamp (mn mx : Option ℚ) (v : ℚ) : ℚ :=
  let v := match mn with
    | some m => max v m
    | none => v
  match mx with
  | some m => min v m
  | none => v

theorem numItem_spec (mn mx : Option ℚ) (t : NType) (hmn : exactBound t mn) (hmx : exactBound t mx) (it : NItem) :
    numItem mn mx t it = it.value.map (clamp mn mx) := by
  have key : ∀ v : ℚ, numItem mn mx t (.num v) = some (clamp mn mx v) := by
    intro v
    cases mn with
    | none =>
      cases mx with
      | none => simp [numItem, clamp]
      | some b =>
        simp only [numItem, clamp, hmx b rfl]
        split
        · next h => rw [min_eq_right h.le]
        · next h => rw [min_eq_left (not_lt.1 h)]
    | some a =>
      have ha : (if v < a then t.cast a else v) = max v a := by
        rw [hmn a rfl]
        split
        · next h => rw [max_eq_right h.le]
        · next h => rw [max_eq_left (not_lt.1 h)]
      cases mx with
      | none => simp [numItem, clamp, ha]
      | some b =>
        simp only [numItem, clamp, ha, hmx b rfl]
        split
        · next h => rw [min_eq_right h.le]
        · next h => rw [min_eq_left (not_lt.1 h)]
  cases it with
  | num q => simpa [NItem.value] using key q
  | str p =>
    cases p with
    | none => simp [numItem, NItem.value]
    | some q =>
      have : numItem mn mx t (.str (some q)) = numItem mn mx t (.num q) := rfl
      rw [this, key]; rfl

theorem mapM_eq_some {α β : Type} (f : α → Option β) (l : List α) (out : List β) :
    l.mapM f = some out ↔ out.length = l.length ∧ ∀ i (h : i < l.length) (h' : i < out.length), f l[i] = some out[i] := by
  induction l generalizing out with
  | nil =>
    rw [List.mapM_nil]
    constructor
    · intro h; cases h; exact ⟨rfl, fun i h => absurd h (Nat.not_lt_zero i)⟩
    · rintro ⟨h, _⟩
      rw [List.length_nil, List.length_eq_zero_iff] at h; subst h; rfl
  | cons a l ih =>
    rw [List.mapM_cons]
    cases hf : f a with
    | none =>
      simp only [Option.bind_eq_bind, Option.bind_none, reduceCtorEq, false_iff, not_and]
      intro hl hall
      have := hall 0 (by simp) (by rw [hl]; simp)
      simp [hf] at this
    | some b =>
      simp only [Option.bind_eq_bind, Option.bind_some]
      cases out with
      | nil =>
        cases l.mapM f <;> simp
      | cons o os =>
        cases hm : l.mapM f with
        | none =>
          simp only [Option.bind_none, reduceCtorEq, false_iff, not_and]
          intro hl hall
          have : l.mapM f = some os := (ih os).2 ⟨by simpa using hl, fun i h h' => by
            have := hall (i+1) (by simpa using h) (by simpa using h')
            simpa using this⟩
          rw [hm] at this; cases this
        | some ys =>
          have hy := (ih ys).1 hm
          simp only [Option.bind_some, Option.pure_def, Option.some.injEq, List.cons.injEq]
          constructor
          · rintro ⟨rfl, rfl⟩
            refine ⟨by simp [hy.1], ?_⟩
            intro i h h'
            cases i with
            | zero => simpa using hf
            | succ i => simpa using hy.2 i (by simpa using h) (by simpa using h')
          · rintro ⟨hl, hall⟩
            have h0 := hall 0 (by simp) (by simp)
            simp [hf] at h0
            refine ⟨h0, ?_⟩
            have : l.mapM f = some os := (ih os).2 ⟨by simpa using hl, fun i h h' => by
              have := hall (i+1) (by simpa using h) (by simpa using h')
              simpa using this⟩
            rw [hm] at this; exact Option.some.inj this

/-- **C56** (numeric tuples): the validator succeeds exactly when the number of values is the
required one and every value is a number; it then returns the values in order, each clamped
to `[min, max]` (for bounds that the type represents exactly). -/
theorem C56_numerics (value : List NItem) (mn mx : Option ℚ) (t : NType) (n : Option Nat)
    (hmn : exactBound t mn) (hmx : exactBound t mx) (out : List ℚ) :
    isNumerics value mn mx t n = some out ↔
      (∀ m, n = some m → value.length = m) ∧ out.length = value.length ∧
      ∀ i (h : i < value.length) (h' : i < out.length), value[i].value.map (clamp mn mx) = some out[i] := by
  unfold isNumerics
  by_cases hn : n ≠ none ∧ n ≠ some value.length
  · rw [if_pos hn]
    simp only [reduceCtorEq, false_iff, not_and]
    intro h
    cases n with
    | none => exact absurd rfl hn.1
    | some m => exact absurd (by rw [h m rfl]) hn.2
  · rw [if_neg hn, mapM_eq_some]
    have : ∀ m, n = some m → value.length = m := by
      intro m hm
      subst hm
      simp only [ne_eq, reduceCtorEq, not_false_eq_true, true_and, not_not, Option.some.injEq] at hn
      exact hn.symm
    simp only [numItem_spec mn mx t hmn hmx]
    tauto

/-- **C56** (range): when `min ≤ max` all the values returned are in the range. -/
theorem C56_range (value : List NItem) (a b : ℚ) (hab : a ≤ b) (t : NType) (n : Option Nat)
    (ha : t.cast a = a) (hb : t.cast b = b) (out : List ℚ)
    (h : isNumerics value (some a) (some b) t n = some out) : ∀ x ∈ out, a ≤ x ∧ x ≤ b := by
  rw [C56_numerics _ _ _ _ _ (by rintro m ⟨⟩; exact ha) (by rintro m ⟨⟩; exact hb)] at h
  intro x hx
  obtain ⟨i, hi, rfl⟩ := List.mem_iff_getElem.1 hx
  have := h.2.2 i (by omega) hi
  obtain ⟨v, _, hv⟩ := Option.map_eq_some_iff.1 this
  rw [← hv]
  simp only [clamp]
  exact ⟨le_min (le_max_right _ _) hab, min_le_right _ _⟩

/-- **C56** (idempotence): validating validated values changes nothing. -/
theorem C56_idempotent (value : List NItem) (mn mx : Option ℚ) (t : NType) (n : Option Nat)
    (hmn : exactBound t mn) (hmx : exactBound t mx) (out : List ℚ)
    (h : isNumerics value mn mx t n = some out) :
    isNumerics (out.map NItem.num) mn mx t n = some out := by
  rw [C56_numerics _ _ _ _ _ hmn hmx] at h ⊢
  refine ⟨by simpa [h.2.1] using h.1, by simp, ?_⟩
  intro i hi hi'
  have hc : ∀ v, clamp mn mx (clamp mn mx v) = clamp mn mx v := by
    intro v
    unfold clamp
    cases mn <;> cases mx <;> simp only
    · rw [min_assoc, min_self]
    · rw [max_assoc, max_self]
    · next a b =>
      rcases le_total a b with hab | hab
      · rw [max_eq_left (le_min (le_max_right v a) hab), min_assoc, min_self]
      · have h1 : min (max v a) b = b := min_eq_right (le_trans hab (le_max_right _ _))
        rw [h1, max_eq_right hab, min_eq_right hab]
  have := h.2.2 i (by omega) hi'
  obtain ⟨v, _, hv⟩ := Option.map_eq_some_iff.1 this
  simp only [List.getElem_map, NItem.value, Option.map_some, ← hv, hc]

/-- **C56** (already valid values are unchanged). -/
theorem C56_valid_unchanged (vs : List ℚ) (a b : ℚ) (t : NType) (ha : t.cast a = a) (hb : t.cast b = b)
    (h : ∀ x ∈ vs, a ≤ x ∧ x ≤ b) :
    isNumerics (vs.map NItem.num) (some a) (some b) t (some vs.length) = some vs := by
  rw [C56_numerics _ _ _ _ _ (by rintro m ⟨⟩; exact ha) (by rintro m ⟨⟩; exact hb)]
  refine ⟨by simp, by simp, ?_⟩
  intro i hi hi'
  have := h _ (List.getElem_mem hi')
  simp [NItem.value, clamp, max_eq_left this.1, min_eq_left this.2]

/-- **C98 is violated** by `is_minmax`: the pair is not ordered (the sorted copy is dropped). -/
theorem C98_minmax_violated :
    isMinmax [.num 5, .num 2] none none .float = some [5, 2] := by
  decide +kernel

/-- **C98** (`is_minmax`, proved part): it returns the two values clamped, in the order given. -/
theorem C98_minmax_partial (x y : ℚ) (mn mx : Option ℚ) (t : NType) (hmn : exactBound t mn) (hmx : exactBound t mx) :
    isMinmax [.num x, .num y] mn mx t = some [clamp mn mx x, clamp mn mx y] := by
  have : isNumerics [.num x, .num y] mn mx t (some 2) = some [clamp mn mx x, clamp mn mx y] := by
    rw [C56_numerics _ _ _ _ _ hmn hmx]
    refine ⟨by simp, rfl, ?_⟩
    intro i h h'
    match i, h with
    | 0, _ => rfl
    | 1, _ => rfl
  simp [isMinmax, this]

/-- **C98 is violated** with `type="int"` and a fractional minimum: `int(0.5) = 0` is put in place
of a too small value, which is below the minimum. -/
theorem C98_int_bound_violated : isNumerics [.num (-3)] (some (1/2)) none .int none = some [0] := by
  decide +kernel

/-- the size constraints of a list option -/
def sizeAllowed (a : ListArgs) (len : Nat) : Prop :=
  (∀ n, a.n = some n → len = n) ∧ (∀ n, a.nmin = some n → n ≤ len) ∧ (∀ n, a.nmax = some n → len ≤ n) ∧
  (a.odd = true → len % 2 = 1) ∧ (a.even = true → len % 2 = 0)

def LVal.items {α : Type} : LVal α → List α
  | .list l => l
  | .tuple l => l
  | .single a => [a]

def LVal.isTuple {α : Type} : LVal α → Bool
  | .tuple _ => true
  | _ => false

theorem sizeOk_iff (a : ListArgs) (hs : a.shape = none) (len : Nat) : sizeOk a len = true ↔ sizeAllowed a len := by
  obtain ⟨n, nmin, nmax, odd, even, shape⟩ := a
  simp only at hs
  subst hs
  unfold sizeOk sizeAllowed
  cases n <;> cases nmin <;> cases nmax <;> cases odd <;> cases even <;>
    simp <;> omega

/-- **C56** (list options): a list validator accepts exactly the lists whose size meets the
constraints and whose items are all valid; it returns the validated items in order, as a
tuple for a tuple and as a list otherwise. -/
theorem C56_list_validator {α β : Type} (f : α → Option β) (a : ListArgs) (hs : a.shape = none) (v : LVal α) (r : LVal β) :
    listValidator f a v = some r ↔
      sizeAllowed a v.items.length ∧ r = (if v.isTuple then .tuple r.items else .list r.items) ∧
      r.items.length = v.items.length ∧
      ∀ i (h : i < v.items.length) (h' : i < r.items.length), f v.items[i] = some r.items[i] := by
  have main : ∀ (l : List α) (tup : Bool), (if sizeOk a l.length = true then
        (match l.mapM f with
          | none => none
          | some out => some (if tup then LVal.tuple out else .list out))
      else none) = some r ↔ sizeAllowed a l.length ∧ r = (if tup then .tuple r.items else .list r.items) ∧
        r.items.length = l.length ∧ ∀ i (h : i < l.length) (h' : i < r.items.length), f l[i] = some r.items[i] := by
    intro l tup
    by_cases hok : sizeOk a l.length = true
    · rw [if_pos hok]
      have hal := (sizeOk_iff a hs _).1 hok
      have hm := fun out => mapM_eq_some f l out
      constructor
      · intro h
        cases hmm : l.mapM f with
        | none => rw [hmm] at h; cases h
        | some out =>
          rw [hmm] at h
          have hr : r = (if tup then LVal.tuple out else .list out) := (Option.some.inj h).symm
          have hi : r.items = out := by rw [hr]; cases tup <;> rfl
          refine ⟨hal, ?_, ?_⟩
          · rw [hi]; exact hr
          · rw [hi]; exact (hm out).1 hmm
      · rintro ⟨_, hr, hrest⟩
        rw [(hm r.items).2 hrest]
        simp only [Option.some.injEq]
        exact hr.symm
    · rw [if_neg hok]
      have : ¬ sizeAllowed a l.length := fun h => hok ((sizeOk_iff a hs _).2 h)
      simp [this]
  have conv : ∀ (l : List α) (tup : Bool), (if sizeOk a l.length = true then
        (match l.mapM f with
          | none => none
          | some out => some (if tup then LVal.tuple out else .list out))
      else none) = (if sizeOk a l.length then
        match l.mapM f with
        | none => none
        | some out => some (if tup then LVal.tuple out else .list out)
      else none) := fun _ _ => rfl
  cases v with
  | list l => exact Iff.trans (Eq.to_iff (congrArg (· = some r) (conv l false))) (main l false)
  | tuple l => exact Iff.trans (Eq.to_iff (congrArg (· = some r) (conv l true))) (main l true)
  | single x => exact Iff.trans (Eq.to_iff (congrArg (· = some r) (conv [x] false))) (main [x] false)

/-- **C98 is violated** for the `shape` constraint: no value is ever accepted. -/
theorem C98_shape_violated {α β : Type} (f : α → Option β) (a : ListArgs) (hs : a.shape ≠ none) (v : LVal α) :
    listValidator f a v = none := by
  have : ∀ n, sizeOk a n = false := by
    intro n
    unfold sizeOk
    cases h : a.shape with
    | none => exact absurd h hs
    | some s => simp
  unfold listValidator
  cases v <;> simp [this]

example : exactBound .int (some 3) := by
  rintro m ⟨⟩
  norm_num [NType.cast]
example : isNumerics [.num 5, .str (some (-2)), .num (1/2)] (some 0) (some 3) .float (some 3) = some [3, 0, 1/2] := by
  decide +kernel
example : listValidator (fun n : Nat => if n < 5 then some (2 * n) else none) { nmin := some 2, odd := true } (.tuple [1, 2, 3]) =
    some (.tuple [2, 4, 6]) := by decide

/-! ## C58 -/

/-- a name that the command line can carry: no dash and no blank -/
def plainName (s : Str) : Prop := ∀ c ∈ s, c ≠ '-' ∧ isSpace c = false

theorem toLower_dash (c : Char) (h : c.toLower = '-') : c = '-' := by
  unfold Char.toLower at h
  split at h
  · next hc =>
    exfalso
    have := congrArg Char.val h
    simp only at this
    have h1 := congrArg UInt32.toNat this
    rw [UInt32.toNat_add] at h1
    have ha := hc.1
    have hb := hc.2
    rw [ge_iff_le, UInt32.le_iff_toNat_le] at ha
    rw [UInt32.le_iff_toNat_le] at hb
    have e1 : ('A'.val).toNat = 65 := by decide
    have e2 : ('Z'.val).toNat = 90 := by decide
    have e3 : ('a'.val - 'A'.val : UInt32).toNat = 32 := by decide
    have e4 : ('-'.val).toNat = 45 := by decide
    rw [e3, e4] at h1
    rw [e1] at ha
    rw [e2] at hb
    omega
  · exact h

theorem argDest_dashed (s : Str) (h : plainName s) : argDest (lower (dashed s)) = lower s := by
  unfold argDest lower dashed
  rw [List.map_map, List.map_map]
  apply List.map_congr_left
  intro c hc
  obtain ⟨h1, h2⟩ := h c hc
  simp only [Function.comp_apply, h2, Bool.or_false]
  by_cases hu : c = '_'
  · subst hu; decide
  · simp only [hu, decide_false, Bool.false_eq_true, if_false]
    rw [if_neg]
    intro e
    exact h1 (toLower_dash c e)

theorem argDest_append (a b : Str) : argDest (a ++ b) = argDest a ++ argDest b := by simp [argDest]

/-- **C58** (round trip): the option name made from a configuration name, once it went through
`argparse`, is recognised as this configuration name (in lower case, as it is compared), for
every name without dash and blank, and every lower case nesting prefix without dash. -/
theorem C58_round_trip (name nested : Str) (hn : plainName name) (hl : lower nested = nested) (hd : '-' ∉ nested) :
    opt2cfg (argDest (cfg2opt name nested)) nested = lower name := by
  have hid : ∀ s : Str, '-' ∉ s → argDest s = s := by
    intro s hs
    unfold argDest
    conv_rhs => rw [← List.map_id s]
    apply List.map_congr_left
    intro c hc
    have : c ≠ '-' := fun e => hs (e ▸ hc)
    simp [this]
  have hlow : '-' ∉ lower name := by
    intro h
    unfold lower at h
    obtain ⟨c, hc, e⟩ := List.mem_map.1 h
    exact (hn c hc).1 (toLower_dash c e)
  unfold cfg2opt opt2cfg
  simp only
  by_cases hne : nested = []
  · subst hne
    simp [argDest_dashed name hn, hid _ hlow]
  · rw [if_neg hne]
    have e1 : argDest (lower (nested ++ '-' :: dashed name)) = nested ++ '_' :: lower name := by
      rw [lower_append, argDest_append, hl, hid nested hd]
      congr 1
      have : lower ('-' :: dashed name) = '-' :: lower (dashed name) := by
        simp only [lower, List.map_cons]
        congr 1
      rw [this]
      have : argDest ('-' :: lower (dashed name)) = '_' :: argDest (lower (dashed name)) := by simp [argDest]
      rw [this, argDest_dashed name hn]
    rw [e1]
    have e2 : argDest (nested ++ '_' :: lower name) = nested ++ '_' :: lower name := by
      rw [argDest_append, hid nested hd]
      congr 1
      have : argDest ('_' :: lower name) = '_' :: argDest (lower name) := by simp [argDest]
      rw [this, hid _ hlow]
    rw [e2]
    have hp : (nested ++ ['_']).isPrefixOf (nested ++ '_' :: lower name) = true := by
      rw [List.isPrefixOf_iff_prefix]
      exact ⟨lower name, by simp⟩
    rw [if_pos ⟨hne, hp⟩]
    have : nested ++ '_' :: lower name = (nested ++ ['_']) ++ lower name := by simp
    rw [this]
    have hlen : nested.length + 1 = (nested ++ ['_']).length := by simp
    rw [hlen, List.drop_left]

/-- **C58** (distinct flat names, proved part): two configuration names without dash and blank
that differ (ignoring case) get different option names. -/
theorem C58_distinct_partial (n1 n2 nested : Str) (h1 : plainName n1) (h2 : plainName n2) (hl : lower nested = nested)
    (hd : '-' ∉ nested) (h : cfg2opt n1 nested = cfg2opt n2 nested) : lower n1 = lower n2 := by
  rw [← C58_round_trip n1 nested h1 hl hd, ← C58_round_trip n2 nested h2 hl hd, h]

/-- **C58 is violated**: option `c` of section `a_b` and option `b_c` of section `a` get the
same command line name. -/
theorem C58_collision_violated :
    cfg2opt (flatName ["a_b".toList] "c".toList) [] = cfg2opt (flatName ["a".toList] "b_c".toList) [] ∧
    (["a_b".toList], "c".toList) ≠ (["a".toList], "b_c".toList) := by
  decide +kernel

/-- **C58 is violated** for names with a dash: the command line value never reaches the option. -/
theorem C58_dash_violated : opt2cfg (argDest (cfg2opt "my-opt".toList [])) [] ≠ lower "my-opt".toList := by
  decide +kernel

/-- **C58 is violated** for a nesting prefix with an upper case letter. -/
theorem C58_nested_case_violated :
    opt2cfg (argDest (cfg2opt "opt".toList "Run".toList)) "Run".toList ≠ lower "opt".toList := by
  decide +kernel

example : plainName "sec_Opt".toList ∧ lower "run_1".toList = "run_1".toList ∧ '-' ∉ "run_1".toList := by
  refine ⟨?_, by decide, by decide⟩
  intro c hc
  revert c
  decide
example : cfg2opt "sec_Opt".toList "run".toList = "run-sec-opt".toList := by decide

/-! ## C59 -/

/-- Specification (independent of the model of the filter): the decision of a filter on an option
path. A key with a flag is kept or removed as the flag says, with all that is below; a key whose entry
is an empty dictionary is removed; below a key whose entry is another dictionary this dictionary decides
(with the default "remove"); a key without entry follows `__default__`, or the given default, reversed
when it is listed in `__excepts__`. -/
def pathKept (d : Option Bool) (e : Option (List Str)) (items : List (Str × FT)) (dflt : Bool) : List Str → Bool
  | [] => true
  | k :: q => match lookupS k items with
    | some (.flag b) => b
    | some (.node none none []) => false
    | some (.node d' e' items') => pathKept d' e' items' false q
    | none => if k ∈ e.getD [] then !(d.getD dflt) else d.getD dflt

theorem pathKept_cons (d : Option Bool) (e : Option (List Str)) (items : List (Str × FT)) (dflt : Bool) (k : Str) (q : List Str) :
    pathKept d e items dflt (k :: q) = (keepKey d e items dflt k &&
      match lookupS k items with
      | some (.node d' e' items') => pathKept d' e' items' false q
      | _ => true) := by
  rw [pathKept]
  unfold keepKey keyDefault
  cases lookupS k items with
  | none => cases e <;> simp
  | some f =>
    cases f with
    | flag b => simp [FT.truthy]
    | node d' e' items' => cases d' <;> cases e' <;> cases items' <;> simp [FT.truthy]

theorem lookup_filterSec {V : Type} (d : Option Bool) (e : Option (List Str)) (items : List (Str × FT)) (dflt : Bool)
    (l : List (Str × CT V)) (k : Str) :
    lookupS k (filterSec d e items dflt l) =
      if keepKey d e items dflt k = true then (lookupS k l).map (filterSub (lookupS k items)) else none := by
  induction l with
  | nil => simp [filterSec, lookupS]
  | cons p l ih =>
    obtain ⟨a, t⟩ := p
    simp only [filterSec]
    by_cases ha : keepKey d e items dflt a = true
    · rw [if_pos ha]
      simp only [lookupS, ih]
      by_cases hk : k = a
      · subst hk; simp [ha]
      · simp [hk]
    · rw [if_neg ha, ih]
      simp only [lookupS]
      by_cases hk : k = a
      · subst hk; simp [ha]
      · simp [hk]

/-- **C59**: after filtering, an option is present exactly when it was present and the filter
keeps its path, with the same value; nothing else is added. -/
theorem C59_filter_section {V : Type} (d : Option Bool) (e : Option (List Str)) (items : List (Str × FT)) (dflt : Bool)
    (l : List (Str × CT V)) (q : List Str) (hq : q ≠ []) :
    leafAt q (.sec (filterSec d e items dflt l)) =
      if pathKept d e items dflt q = true then leafAt q (.sec l) else none := by
  induction q generalizing d e items dflt l with
  | nil => exact absurd rfl hq
  | cons k q ih =>
    simp only [leafAt, getT, lookup_filterSec, pathKept_cons]
    by_cases hk : keepKey d e items dflt k = true
    · simp only [hk, if_true, Bool.true_and]
      cases hl : lookupS k l with
      | none => simp
      | some t =>
        simp only [Option.map_some, Option.bind_some]
        cases t with
        | val v =>
          simp only [filterSub]
          cases q with
          | nil =>
            simp only [getT]
            cases lookupS k items with
            | none => simp
            | some f => cases f <;> simp [pathKept]
          | cons k' q' => simp [getT]
        | sec l' =>
          simp only [filterSub]
          cases hf : lookupS k items with
          | none => simp
          | some f =>
            cases f with
            | flag b => simp
            | node d' e' items' =>
              simp only
              cases q with
              | nil => simp [getT]
              | cons k' q' =>
                have := ih d' e' items' false l' (by simp)
                simpa [leafAt] using this
    · simp [hk]

theorem filterSub_comp_id : ∀ (f : Option FT) {V : Type} (v : V), filterSub f (CT.val v) = CT.val v := by
  intro f V v; rfl

mutual
theorem filterSec_idem {V : Type} (d : Option Bool) (e : Option (List Str)) (items : List (Str × FT)) (dflt : Bool) :
    ∀ l : List (Str × CT V), filterSec d e items dflt (filterSec d e items dflt l) = filterSec d e items dflt l
  | [] => rfl
  | (k, t) :: rest => by
    simp only [filterSec]
    by_cases hk : keepKey d e items dflt k = true
    · rw [if_pos hk]
      simp only [filterSec]
      rw [if_pos hk, filterSub_idem, filterSec_idem d e items dflt rest]
    · rw [if_neg hk, filterSec_idem d e items dflt rest]
theorem filterSub_idem {V : Type} (f : Option FT) : ∀ t : CT V, filterSub f (filterSub f t) = filterSub f t
  | .val v => rfl
  | .sec l => by
    cases f with
    | none => rfl
    | some f =>
      cases f with
      | flag b => rfl
      | node d e items =>
        simp only [filterSub]
        rw [filterSec_idem d e items false l]
end

/-- **C59** (idempotence): filtering twice is the same as filtering once. -/
theorem C59_idempotent {V : Type} (d : Option Bool) (e : Option (List Str)) (items : List (Str × FT)) (dflt : Bool)
    (l : List (Str × CT V)) :
    filterSec d e items dflt (filterSec d e items dflt l) = filterSec d e items dflt l :=
  filterSec_idem d e items dflt l

/-- an instance: options a, b, section s with x and y; filter `{'a': True, 's': {'x': True}}` -/
def exSec : List (Str × CT Nat) :=
  [("a".toList, .val 1), ("b".toList, .val 2), ("s".toList, .sec [("x".toList, .val 3), ("y".toList, .val 4)])]
def exFilt : List (Str × FT) := [("a".toList, .flag true), ("s".toList, .node none none [("x".toList, .flag true)])]

example : filterSec none none exFilt false exSec =
    [("a".toList, .val 1), ("s".toList, .sec [("x".toList, .val 3)])] := rfl
example : pathKept none none exFilt false ["s".toList, "x".toList] = true ∧
    pathKept none none exFilt false ["s".toList, "y".toList] = false := by decide +kernel

/-- **C59** (default decision): an option not mentioned in the filter follows `__default__`, or
the given default, reversed when it is listed in `__excepts__`. -/
theorem C59_default {V : Type} (d : Option Bool) (e : Option (List Str)) (items : List (Str × FT)) (dflt : Bool)
    (l : List (Str × CT V)) (k : Str) (h : lookupS k items = none) :
    leafAt [k] (.sec (filterSec d e items dflt l)) =
      if (d.getD dflt) = !(match e with | some ex => decide (k ∈ ex) | none => false) then leafAt [k] (.sec l) else none := by
  rw [C59_filter_section _ _ _ _ _ _ (by simp)]
  simp only [pathKept, h]
  cases e with
  | none => cases d.getD dflt <;> simp
  | some ex =>
    by_cases hk : k ∈ ex <;> cases d.getD dflt <;> simp [hk]

/-- **C59** (flags): an option or a section whose flag is `True` is kept with all it contains, one whose flag is `False` is
removed with all it contains, whatever the defaults and the exceptions. -/
theorem C59_flags {V : Type} (d : Option Bool) (e : Option (List Str)) (items : List (Str × FT)) (dflt : Bool)
    (l : List (Str × CT V)) (k : Str) (q : List Str) (b : Bool) (h : lookupS k items = some (.flag b)) :
    leafAt (k :: q) (.sec (filterSec d e items dflt l)) = if b = true then leafAt (k :: q) (.sec l) else none := by
  rw [C59_filter_section _ _ _ _ _ _ (by simp)]
  simp only [pathKept, h]

/-- **C98** (`is_minmax`, when it holds): the pair that is returned is ordered exactly when the given values are, or when both are replaced by the same bound. -/
theorem C98_minmax_iff_partial (x y : ℚ) (mn mx : Option ℚ) (t : NType) (hmn : exactBound t mn) (hmx : exactBound t mx) :
    ∃ a b, isMinmax [.num x, .num y] mn mx t = some [a, b] ∧
      (a ≤ b ↔ x ≤ y ∨ (∃ m, mn = some m ∧ x ≤ m) ∨ (∃ m, mx = some m ∧ m ≤ y) ∨ ∃ m m', mn = some m ∧ mx = some m' ∧ m' ≤ m) := by
  refine ⟨_, _, C98_minmax_partial x y mn mx t hmn hmx, ?_⟩
  cases mn with
  | none =>
    cases mx with
    | none => simp [clamp]
    | some M =>
      simp only [clamp, reduceCtorEq, false_and, exists_false, false_or, Option.some.injEq, exists_eq_left', or_false]
      constructor
      · intro h
        by_cases c : x ≤ y
        · exact Or.inl c
        · right
          rcases le_total M y with d | d
          · exact d
          · rw [min_eq_left d] at h
            rcases le_total x M with e | e
            · rw [min_eq_left e] at h; exact absurd h c
            · rw [min_eq_right e] at h; exact h
      · rintro (h | h)
        · exact min_le_min_right M h
        · rw [min_eq_right h]; exact min_le_right _ _
  | some m =>
    cases mx with
    | none =>
      simp only [clamp, reduceCtorEq, false_and, exists_false, Option.some.injEq, exists_eq_left', or_false, and_false]
      constructor
      · intro h
        by_cases c : x ≤ y
        · exact Or.inl c
        · right
          by_contra d
          have := le_trans (le_max_left x m) h
          rcases le_max_iff.mp this with e | e
          · exact c e
          · exact d e
      · rintro (h | h)
        · exact max_le_max_right m h
        · rw [max_eq_right h]; exact le_max_right _ _
    | some M =>
      simp only [clamp, Option.some.injEq, exists_eq_left']
      constructor
      · intro h
        by_contra d
        push Not at d
        obtain ⟨d1, d2, d3, d4⟩ := d
        rw [max_eq_left d2.le] at h
        have : min x M ≤ max y m := le_trans h (min_le_left _ _)
        rcases le_max_iff.mp this with e | e
        · rcases min_le_iff.mp e with f | f
          · exact absurd f (not_le.mpr d1)
          · exact absurd f (not_le.mpr d3)
        · rcases min_le_iff.mp e with f | f
          · exact absurd f (not_le.mpr d2)
          · exact absurd f (not_le.mpr (d4 m M rfl rfl))
      · rintro (h | h | h | h)
        · exact min_le_min_right M (max_le_max_right m h)
        · rw [max_eq_right h]; exact min_le_min_right M (le_max_right _ _)
        · rw [min_eq_right (le_trans h (le_max_left y m))]; exact min_le_right _ _
        · obtain ⟨m1, m2, rfl, rfl, h⟩ := h
          rw [min_eq_right (le_trans h (le_max_right y m))]; exact min_le_right _ _

/-- **C98** (minimum of integers, when it holds): the result is within the minimum exactly when the value is, or the minimum is not positive, or it is an integer. -/
theorem C98_int_bound_iff_partial (v m : ℚ) :
    ∃ r, isNumerics [.num v] (some m) none .int none = some [r] ∧ (m ≤ r ↔ m ≤ v ∨ m ≤ 0 ∨ (⌊m⌋ : ℚ) = m) := by
  by_cases h : v < m
  · refine ⟨NType.int.cast m, by simp [isNumerics, numItem, h], ?_⟩
    have hv : ¬ m ≤ v := not_le.mpr h
    unfold NType.cast
    dsimp only
    by_cases h0 : 0 ≤ m
    · rw [if_pos h0]
      constructor
      · intro k; exact Or.inr (Or.inr (le_antisymm (Int.floor_le m) k))
      · rintro (k | k | k)
        · exact absurd k hv
        · have : m = 0 := le_antisymm k h0
          subst this; simp
        · exact k.ge
    · rw [if_neg h0]
      have h0' : m ≤ 0 := (not_le.mp h0).le
      refine ⟨fun _ => Or.inr (Or.inl h0'), fun _ => ?_⟩
      have := Int.floor_le (-m)
      linarith
  · refine ⟨v, by simp [isNumerics, numItem, h], ?_⟩
    have := not_lt.mp h
    exact ⟨fun _ => Or.inl this, fun _ => this⟩

/-- a pair that is reversed, and one that both bounds make equal -/
example : isMinmax [.num 5, .num 2] none none .float = some [5, 2] ∧ isMinmax [.num 5, .num 2] none (some 1) .float = some [1, 1] := by decide +kernel

end Xoa
