import Verif.OptThreadsProps
import Mathlib.Data.List.Induction

/-! # C232: loading the options in several calls -/

namespace Xoa

/-! ## Specification -/

/-- the value that an argument of `load_options` gives to an option: contents that do not parse give nothing -/
def LoadArg.gives (sec opt : Str) : LoadArg → Option OVal
  | .cfg c => get2 sec opt c
  | .bad => none

/-- the value given by the last of several arguments that gives one -/
def lastGivenO (sec opt : Str) (args : List LoadArg) : Option OVal := (args.filterMap (LoadArg.gives sec opt)).getLast?

/-- the contents of the arguments that parse are dictionaries: their keys are distinct -/
def LoadArg.ok : LoadArg → Prop
  | .cfg c => c.ok
  | .bad => True

/-- several calls of `load_options` one after the other, the exceptions of the failing ones being caught (xoa/__init__.py:126-174) -/
def loadsO (user : Opts) (args : List LoadArg) (s : OSt) : OSt := args.foldl (fun s x => (loadOptions user x s).1) s

/-- the contents that the next call of `load_options` starts from: the current options, or else the user file -/
def startO (user : Opts) (s : OSt) : Opts := match s.cur with
  | some a => s.at a
  | none => user

/-- the answer of `get_option` for a value or no value -/
def answerO : Option OVal → GetRes
  | some v => .val v
  | none => .returnedError

/-! ## Proofs -/

theorem default_effective (p : (Str × Str) × Kind × OVal) (h : p ∈ configSpecs) : (convert p.2.1 p.2.2).getD p.2.2 = p.2.2 := by
  simp only [configSpecs, List.mem_cons, List.not_mem_nil, or_false] at h
  rcases h with rfl | rfl | rfl | rfl | rfl | rfl <;> rfl

theorem effective_idemO (sec opt : Str) (x : Option OVal) : effective sec opt (effective sec opt x) = effective sec opt x := by
  cases x with
  | some v =>
    cases h : effective sec opt (some v) with
    | none =>
      unfold effective at h
      split at h <;> cases h
    | some w => exact effective_idem sec opt v w h
  | none =>
    unfold effective
    cases hs : specOf sec opt with
    | none => rfl
    | some q =>
      obtain ⟨k, d⟩ := q
      dsimp only
      unfold specOf at hs
      cases hf : configSpecs.find? (fun p => p.1 = (sec, opt)) with
      | none => rw [hf] at hs; cases hs
      | some p =>
        rw [hf] at hs
        have h1 : p.2 = (k, d) := Option.some.inj hs
        have h2 := default_effective p (List.mem_of_find?_eq_some hf)
        rw [h1] at h2
        exact congrArg some h2

theorem inForce_startO (user : Opts) (s : OSt) (h : s.cur ≠ none) (sec opt : Str) : inForce user s sec opt = answerO (get2 sec opt (startO user s)) := by
  cases hc : s.cur with
  | none => exact absurd hc h
  | some a =>
    rw [inForce_some user s a hc]
    unfold startO
    rw [hc]
    cases get2 sec opt (s.at a) <;> rfl

theorem load_startO (user : Opts) (s : OSt) (hw : s.wf) (x : LoadArg) :
    (loadOptions user x s).1.wf ∧ (loadOptions user x s).1.cur ≠ none ∧
      startO user (loadOptions user x s).1 = match x with
        | .bad => startO user s
        | .cfg c => validateO (mergeO (startO user s) c) := by
  cases x with
  | bad =>
    obtain ⟨a, h1, h2, h3⟩ := ensure_some user s hw
    refine ⟨ensure_wf user s hw, ?_, ?_⟩
    · show (ensure user s).cur ≠ none
      rw [h1]; exact fun h => nomatch h
    · show startO user (ensure user s) = startO user s
      unfold startO
      rw [h1]
      exact h3
  | cfg c =>
    obtain ⟨_, a, h1, h2, h3⟩ := load_ok user c s hw
    refine ⟨?_, ?_, ?_⟩
    · intro b hb
      rw [h1] at hb
      obtain rfl := Option.some.inj hb
      exact h2
    · rw [h1]; exact fun h => nomatch h
    · dsimp only
      conv => lhs; unfold startO
      rw [h1]
      exact h3

theorem lastGivenO_snoc (sec opt : Str) (args : List LoadArg) (x : LoadArg) :
    lastGivenO sec opt (args ++ [x]) = (x.gives sec opt).or (lastGivenO sec opt args) := by
  unfold lastGivenO
  rw [List.filterMap_append]
  cases h : x.gives sec opt with
  | none => simp [h]
  | some v => simp [h]

/-- what several calls leave -/
theorem loads_startO (user : Opts) (args : List LoadArg) (hok : ∀ x ∈ args, x.ok) (s : OSt) (hw : s.wf) :
    (loadsO user args s).wf ∧ (args ≠ [] → (loadsO user args s).cur ≠ none) ∧
    ((∃ c, LoadArg.cfg c ∈ args) → ∀ sec opt, get2 sec opt (startO user (loadsO user args s)) =
      effective sec opt ((lastGivenO sec opt args).or (get2 sec opt (startO user s)))) ∧
    ((¬ ∃ c, LoadArg.cfg c ∈ args) → startO user (loadsO user args s) = startO user s) := by
  induction args using List.reverseRecOn with
  | nil => exact ⟨hw, (fun h => absurd rfl h), (by rintro ⟨_, h⟩; cases h), (fun _ => rfl)⟩
  | append_singleton args x ih =>
    obtain ⟨i1, i2, i3, i4⟩ := ih (fun y hy => hok y (List.mem_append_left _ hy))
    have hx := hok x (by simp)
    have hs : loadsO user (args ++ [x]) s = (loadOptions user x (loadsO user args s)).1 := by
      unfold loadsO
      rw [List.foldl_append]; rfl
    obtain ⟨j1, j2, j3⟩ := load_startO user (loadsO user args s) i1 x
    rw [hs]
    refine ⟨j1, fun _ => j2, ?_, ?_⟩
    · rintro ⟨c, hc⟩ sec opt
      rw [j3, lastGivenO_snoc]
      cases x with
      | bad =>
        have hc' : LoadArg.cfg c ∈ args := by
          rcases List.mem_append.1 hc with h | h
          · exact h
          · simp at h
        exact i3 ⟨c, hc'⟩ sec opt
      | cfg d =>
        dsimp only
        rw [get2_validateO, get2_mergeO _ _ _ _ hx]
        show _ = effective sec opt (((get2 sec opt d).or _).or _)
        cases hd : get2 sec opt d with
        | some v => rfl
        | none =>
          rw [Option.none_or, Option.none_or]
          by_cases he : ∃ e, LoadArg.cfg e ∈ args
          · rw [i3 he, effective_idemO]
          · rw [i4 he]
            have : lastGivenO sec opt args = none := by
              unfold lastGivenO
              rw [List.getLast?_eq_none_iff, List.filterMap_eq_nil_iff]
              intro y hy
              cases y with
              | bad => rfl
              | cfg e => exact absurd ⟨e, hy⟩ he
            rw [this]; rfl
    · intro hn
      cases x with
      | bad =>
        rw [j3]
        exact i4 (fun ⟨e, he⟩ => hn ⟨e, List.mem_append_left _ he⟩)
      | cfg d => exact absurd ⟨d, by simp⟩ hn

/-! ## The property -/

/-- **C232** (the last call that gives an option decides): after several calls of `load_options`, one at least of which succeeds, `get_option` gives for each option the value of the last call that gives it,
or else the value that the options had before the calls, or else that of the user file when nothing was loaded; the result is the conversion of this value, or the default, that the specifications tell.
Calls that fail in between have no effect. -/
theorem C232_last_call (user : Opts) (args : List LoadArg) (hok : ∀ x ∈ args, x.ok) (c : Opts) (hc : LoadArg.cfg c ∈ args) (s : OSt) (hw : s.wf) (sec opt : Str) :
    inForce user (loadsO user args s) sec opt = answerO (effective sec opt ((lastGivenO sec opt args).or (get2 sec opt (startO user s)))) := by
  obtain ⟨_, h2, h3, _⟩ := loads_startO user args hok s hw
  rw [inForce_startO user _ (h2 (List.ne_nil_of_mem hc)), h3 ⟨c, hc⟩]

/-- **C232** (steps): two ways of loading the options in several calls, that agree for each option on the last value that they give, leave the same options:
this is the case of a sequence of files and of their content merged in one file. -/
theorem C232_steps (user : Opts) (args brgs : List LoadArg) (ha : ∀ x ∈ args, x.ok) (hb : ∀ x ∈ brgs, x.ok) (c d : Opts) (hc : LoadArg.cfg c ∈ args) (hd : LoadArg.cfg d ∈ brgs)
    (h : ∀ sec opt, lastGivenO sec opt args = lastGivenO sec opt brgs) (s : OSt) (hw : s.wf) (sec opt : Str) :
    inForce user (loadsO user args s) sec opt = inForce user (loadsO user brgs s) sec opt := by
  rw [C232_last_call user args ha c hc s hw, C232_last_call user brgs hb d hd s hw, h]

/-- **C232** (one file): loading contents, then others, gives the same options as loading once contents that give the options of the second ones and, for the options that these do not give, those of the first ones. -/
theorem C232_one_file (user c d e : Opts) (hc : c.ok) (hd : d.ok) (he : e.ok) (h : ∀ sec opt, get2 sec opt e = (get2 sec opt d).or (get2 sec opt c)) (s : OSt) (hw : s.wf) (sec opt : Str) :
    inForce user (loadOptions user (.cfg d) (loadOptions user (.cfg c) s).1).1 sec opt = inForce user (loadOptions user (.cfg e) s).1 sec opt := by
  refine C232_steps user [.cfg c, .cfg d] [.cfg e] ?_ ?_ c e (by simp) (by simp) ?_ s hw sec opt
  · intro x hx
    simp only [List.mem_cons, List.not_mem_nil, or_false] at hx
    rcases hx with rfl | rfl
    · exact hc
    · exact hd
  · intro x hx
    simp only [List.mem_cons, List.not_mem_nil, or_false] at hx
    subst hx
    exact he
  · intro sc op
    have h1 := lastGivenO_snoc sc op [.cfg c] (.cfg d)
    have h2 := lastGivenO_snoc sc op [] (.cfg c)
    have h3 := lastGivenO_snoc sc op [] (.cfg e)
    rw [List.nil_append] at h2 h3
    rw [show [LoadArg.cfg c, .cfg d] = [.cfg c] ++ [.cfg d] from rfl, h1, h2, h3]
    show (get2 sc op d).or ((get2 sc op c).or none) = (get2 sc op e).or none
    rw [h, Option.or_none, Option.or_none]

/-- **C232** (order): two files that have no option in common may be loaded in any order. -/
theorem C232_order (user c d : Opts) (hc : c.ok) (hd : d.ok) (h : ∀ sec opt, get2 sec opt c = none ∨ get2 sec opt d = none) (s : OSt) (hw : s.wf) (sec opt : Str) :
    inForce user (loadOptions user (.cfg d) (loadOptions user (.cfg c) s).1).1 sec opt =
      inForce user (loadOptions user (.cfg c) (loadOptions user (.cfg d) s).1).1 sec opt := by
  have hok : ∀ x ∈ [LoadArg.cfg c, .cfg d], x.ok := by
    intro x hx
    simp only [List.mem_cons, List.not_mem_nil, or_false] at hx
    rcases hx with rfl | rfl
    · exact hc
    · exact hd
  refine C232_steps user [.cfg c, .cfg d] [.cfg d, .cfg c] hok (fun x hx => hok x ?_) c c (by simp) (by simp) ?_ s hw sec opt
  · simp only [List.mem_cons, List.not_mem_nil, or_false] at hx ⊢
    exact hx.symm
  · intro sc op
    unfold lastGivenO
    rcases h sc op with h | h <;> cases h1 : get2 sc op c <;> cases h2 : get2 sc op d <;> simp_all [LoadArg.gives]

/-- **C232** (once is enough): loading the same file again changes nothing, and neither does a call without argument or that fails, once a call has succeeded. -/
theorem C232_again (user c : Opts) (hc : c.ok) (s : OSt) (hw : s.wf) (sec opt : Str) :
    let s' := (loadOptions user (.cfg c) s).1
    inForce user (loadOptions user (.cfg c) s').1 sec opt = inForce user s' sec opt ∧
    inForce user (loadOptions user (.cfg []) s').1 sec opt = inForce user s' sec opt ∧
    inForce user (loadOptions user .bad s').1 sec opt = inForce user s' sec opt := by
  have h0 : (LoadArg.cfg []).ok := ⟨List.nodup_nil, fun p hp => nomatch hp⟩
  have hok : ∀ x ∈ [LoadArg.cfg c], x.ok := by
    intro x hx
    simp only [List.mem_cons, List.not_mem_nil, or_false] at hx
    subst hx
    exact hc
  have key : ∀ x : LoadArg, x.ok → (∀ sc op, x.gives sc op = none ∨ x.gives sc op = get2 sc op c) →
      inForce user (loadOptions user x (loadOptions user (.cfg c) s).1).1 sec opt = inForce user (loadOptions user (.cfg c) s).1 sec opt := by
    intro x hx h
    refine C232_steps user [.cfg c, x] [.cfg c] ?_ hok c c (by simp) (by simp) ?_ s hw sec opt
    · intro y hy
      simp only [List.mem_cons, List.not_mem_nil, or_false] at hy
      rcases hy with rfl | rfl
      · exact hc
      · exact hx
    · intro sc op
      rw [show [LoadArg.cfg c, x] = [.cfg c] ++ [x] from rfl, lastGivenO_snoc]
      rcases h sc op with h | h
      · rw [h]; rfl
      · rw [h]
        have h2 := lastGivenO_snoc sc op [] (.cfg c)
        rw [List.nil_append] at h2
        rw [h2]
        show (get2 sc op c).or ((get2 sc op c).or none) = (get2 sc op c).or none
        cases get2 sc op c <;> rfl
  exact ⟨key _ hc (fun _ _ => Or.inr rfl), key _ h0 (fun _ _ => Or.inl rfl), key _ trivial (fun _ _ => Or.inl rfl)⟩

/-- **C232** (an option that no call gives): it keeps its value. -/
theorem C232_kept (user : Opts) (args : List LoadArg) (hok : ∀ x ∈ args, x.ok) (c0 : Opts) (s : OSt) (hw : s.wf) (sec opt : Str) (hn : ∀ x ∈ args, x.gives sec opt = none) :
    let s' := (loadOptions user (.cfg c0) s).1
    c0.ok → inForce user (loadsO user args s') sec opt = inForce user s' sec opt := by
  intro s' h0
  have h1 := C232_last_call user [.cfg c0] (by intro x hx; simp only [List.mem_cons, List.not_mem_nil, or_false] at hx; subst hx; exact h0) c0 (by simp) s hw sec opt
  have h2 := C232_last_call user (.cfg c0 :: args) (by
    intro x hx
    rcases List.mem_cons.1 hx with rfl | hx
    · exact h0
    · exact hok x hx) c0 (by simp) s hw sec opt
  have e : lastGivenO sec opt (.cfg c0 :: args) = lastGivenO sec opt [.cfg c0] := by
    unfold lastGivenO
    rw [List.filterMap_cons, List.filterMap_cons, List.filterMap_eq_nil_iff.2 hn]
    rfl
  rw [e] at h2
  exact h2.trans h1.symm

/-- the hypotheses of **C232** are met, and the results are what they should be: a file sets two options, a failing call follows, then a second file changes one of them -/
example :
    let c : Opts := [("cf".toList, [("cache".toList, .str "off".toList)]), ("plot".toList, [("cmappos".toList, .str "a".toList)])]
    let d : Opts := [("plot".toList, [("cmappos".toList, .str "b".toList)])]
    let s : OSt := { objs := [], cur := none }
    c.ok ∧ d.ok ∧ s.wf ∧
    inForce [] (loadsO [] [.cfg c, .bad, .cfg d] s) "cf".toList "cache".toList = .val (.bool false) ∧
    inForce [] (loadsO [] [.cfg c, .bad, .cfg d] s) "plot".toList "cmappos".toList = .val (.str "b".toList) ∧
    inForce [] (loadsO [] [.cfg d, .cfg c] s) "plot".toList "cmappos".toList = .val (.str "a".toList) ∧
    inForce [] (loadsO [] [.cfg d] s) "cf".toList "cache".toList = .val (.bool true) := by
  refine ⟨⟨by decide, by decide⟩, ⟨by decide, by decide⟩, (fun a h => nomatch h), ?_, ?_, ?_, ?_⟩ <;> decide +kernel

/-- the hypothesis of **C232** (order) is met by two files with different options -/
example : ∀ sec opt, get2 sec opt [("cf".toList, [("cache".toList, .str "off".toList)])] = none ∨ get2 sec opt [("plot".toList, [("cmappos".toList, .str "b".toList)])] = none := by
  intro sec opt
  by_cases h : sec = "cf".toList
  · subst h
    right
    unfold get2 lookupS
    rfl
  · left
    simp only [get2, lookupS]
    rw [if_neg (fun e => h (by simpa using e))]
    rfl

end Xoa
