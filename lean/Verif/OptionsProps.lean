import Verif.Options
import Verif.MiscFilterProps

/-!
# C34-C37: options
-/

namespace Xoa

/-! ## Specification -/

/-- what `get_option(sec, opt)` gives in a state -/
def inForce (user : Opts) (s : OSt) (sec opt : Str) : GetRes := (getOption user sec (some opt) s).2

/-- the specification of an option: its kind and default -/
def specOf (sec opt : Str) : Option (Kind × OVal) :=
  (configSpecs.find? (fun p => p.1 = (sec, opt))).map (·.2)

/-- the value in force for an option whose raw value is `x`: missing declared options take
their default, declared options are converted when this is possible, undeclared ones are
left as they are -/
def effective (sec opt : Str) (x : Option OVal) : Option OVal :=
  match specOf sec opt with
  | none => x
  | some (k, d) => some (match x with
    | none => d
    | some v => (convert k v).getD v)

/-- the section and option a keyword of `set_options(section, **options)` stands for -/
def resolveName (section_ : Option Str) (name : Str) : Option (Str × Str) :=
  match splitOption name with
  | some p => some p
  | none => section_.map (fun sec => (sec, name))

/-- the value given to an option by a list of keywords (the last one wins) -/
def given (section_ : Option Str) (options : List (Str × OVal)) (sec opt : Str) : Option OVal :=
  ((options.filter (fun p => resolveName section_ p.1 = some (sec, opt))).map (·.2)).getLast?

/-- no key twice, in the sections and in the options -/
def Opts.ok (o : Opts) : Prop := (o.map (·.1)).Nodup ∧ ∀ p ∈ o, (p.2.map (·.1)).Nodup

/-! ## lookups -/

theorem get2_set2 (sec opt s o : Str) (v : OVal) (x : Opts) :
    get2 sec opt (set2 s o v x) = if sec = s ∧ opt = o then some v else get2 sec opt x := by
  unfold get2 set2
  rw [lookupS_setS]
  by_cases hs : sec = s
  · subst hs
    simp only [if_true, true_and, Option.bind_some, lookupS_setS]
    by_cases ho : opt = o
    · simp [ho]
    · simp only [if_neg ho]
      cases lookupS sec x <;> simp [lookupS]
  · simp [hs]

theorem get2_mergeO (sec opt : Str) (o c : Opts) (hc : c.ok) :
    get2 sec opt (mergeO o c) = (get2 sec opt c).or (get2 sec opt o) := by
  obtain ⟨h1, h2⟩ := hc
  unfold mergeO
  induction c generalizing o with
  | nil => simp [get2, lookupS]
  | cons p c ih =>
    obtain ⟨a, d⟩ := p
    simp only [List.map_cons, List.nodup_cons] at h1
    rw [List.foldl_cons, ih _ h1.2 (fun q hq => h2 q (List.mem_cons_of_mem _ hq))]
    have hd := h2 (a, d) (by simp)
    have hset : get2 sec opt (setS a (updateS ((lookupS a o).getD []) d) o) =
        if sec = a then (lookupS opt d).or (get2 sec opt o) else get2 sec opt o := by
      unfold get2
      rw [lookupS_setS]
      by_cases hs : sec = a
      · subst hs
        simp only [if_true, Option.bind_some, lookupS_updateS _ _ _ hd]
        cases lookupS sec o <;> simp [lookupS]
      · simp [hs]
    rw [hset]
    have hcons : get2 sec opt ((a, d) :: c) = if sec = a then lookupS opt d else get2 sec opt c := by
      unfold get2
      simp only [lookupS]
      by_cases hs : sec = a <;> simp [hs]
    rw [hcons]
    by_cases hs : sec = a
    · subst hs
      have : get2 sec opt c = none := by
        unfold get2; rw [lookupS_none_of_notMem sec c h1.1]; rfl
      simp [this]
    · simp [hs]

theorem get2_validateOne (sec opt : Str) (o : Opts) (p : (Str × Str) × Kind × OVal) :
    get2 sec opt (validateOne o p) =
      if (sec, opt) = p.1 then some (match get2 sec opt o with
        | none => p.2.2
        | some v => (convert p.2.1 v).getD v) else get2 sec opt o := by
  obtain ⟨⟨a, b⟩, k, d⟩ := p
  simp only [validateOne, Prod.mk.injEq]
  by_cases h : sec = a ∧ opt = b
  · obtain ⟨rfl, rfl⟩ := h
    cases hg : get2 sec opt o with
    | none => simp [get2_set2]
    | some v =>
      cases hc : convert k v with
      | none => simp [hc, hg]
      | some w => simp [hc, get2_set2]
  · simp only [if_neg h]
    cases hg : get2 a b o with
    | none => simp [get2_set2, h]
    | some v =>
      cases hc : convert k v with
      | none => simp [hc]
      | some w => simp [hc, get2_set2, h]

theorem get2_validate_list (sec opt : Str) (specs : List ((Str × Str) × Kind × OVal))
    (hn : (specs.map (·.1)).Nodup) (o : Opts) :
    get2 sec opt (specs.foldl validateOne o) =
      match (specs.find? (fun p => p.1 = (sec, opt))).map (·.2) with
      | none => get2 sec opt o
      | some (k, d) => some (match get2 sec opt o with
        | none => d
        | some v => (convert k v).getD v) := by
  induction specs generalizing o with
  | nil => rfl
  | cons p specs ih =>
    simp only [List.map_cons, List.nodup_cons] at hn
    rw [List.foldl_cons, ih hn.2, get2_validateOne]
    by_cases h : p.1 = (sec, opt)
    · have hnone : specs.find? (fun p => decide (p.1 = (sec, opt))) = none := by
        rw [List.find?_eq_none]
        intro q hq
        simp only [decide_eq_true_eq]
        intro e
        exact hn.1 (List.mem_map.2 ⟨q, hq, e.trans h.symm⟩)
      rw [hnone, List.find?_cons_of_pos (by simpa using h), if_pos h.symm]
      rfl
    · rw [List.find?_cons_of_neg (by simpa using h), if_neg (fun e => h e.symm)]

theorem get2_validateO (sec opt : Str) (o : Opts) :
    get2 sec opt (validateO o) = effective sec opt (get2 sec opt o) := by
  unfold validateO
  rw [get2_validate_list sec opt configSpecs (by decide) o]
  unfold effective specOf
  cases ((configSpecs.find? (fun p => p.1 = (sec, opt))).map (·.2)) <;> rfl

theorem setS_keysOk {α : Type} (k : Str) (v : α) (d : List (Str × α)) (h : (d.map (·.1)).Nodup) :
    ((setS k v d).map (·.1)).Nodup := by
  induction d with
  | nil => simp [setS]
  | cons p d ih =>
    obtain ⟨a, b⟩ := p
    simp only [List.map_cons, List.nodup_cons] at h
    simp only [setS]
    by_cases hk : k = a
    · subst hk; simp [h.1, h.2]
    · rw [if_neg hk]
      simp only [List.map_cons, List.nodup_cons]
      refine ⟨?_, ih h.2⟩
      intro hm
      have : lookupS a (setS k v d) ≠ none := lookupS_some_of_mem _ _ hm
      rw [lookupS_setS, if_neg (fun e => hk e.symm)] at this
      exact this (lookupS_none_of_notMem _ _ h.1)

theorem mem_setS {α : Type} (k : Str) (v : α) (d : List (Str × α)) (p : Str × α) (h : p ∈ setS k v d) :
    p = (k, v) ∨ p ∈ d := by
  induction d with
  | nil => simpa [setS] using h
  | cons q d ih =>
    obtain ⟨a, b⟩ := q
    simp only [setS] at h
    split at h
    · rcases List.mem_cons.1 h with e | e
      · exact Or.inl e
      · exact Or.inr (List.mem_cons_of_mem _ e)
    · rcases List.mem_cons.1 h with e | e
      · exact Or.inr (by rw [e]; simp)
      · rcases ih e with e | e
        · exact Or.inl e
        · exact Or.inr (List.mem_cons_of_mem _ e)

theorem set2_ok (s o : Str) (v : OVal) (x : Opts) (h : x.ok) : (set2 s o v x).ok := by
  refine ⟨setS_keysOk _ _ _ h.1, ?_⟩
  intro p hp
  rcases mem_setS _ _ _ _ hp with e | e
  · subst e
    apply setS_keysOk
    cases hl : lookupS s x with
    | none => simp
    | some d => exact h.2 _ (mem_of_lookupS _ _ _ hl)
  · exact h.2 p e

theorem collectOpts_spec (section_ : Option Str) (options : List (Str × OVal)) (acc : Opts) (hacc : acc.ok) :
    match collectOpts section_ options acc with
    | none => ∃ p ∈ options, resolveName section_ p.1 = none
    | some c => (∀ p ∈ options, resolveName section_ p.1 ≠ none) ∧ c.ok ∧
        ∀ sec opt, get2 sec opt c = (given section_ options sec opt).or (get2 sec opt acc) := by
  induction options generalizing acc with
  | nil => simp [collectOpts, given, hacc]
  | cons p rest ih =>
    obtain ⟨name, v⟩ := p
    -- one step with a resolved name
    have step : ∀ (a b : Str), resolveName section_ name = some (a, b) →
        collectOpts section_ ((name, v) :: rest) acc = collectOpts section_ rest (set2 a b v acc) →
        match collectOpts section_ ((name, v) :: rest) acc with
        | none => ∃ p ∈ (name, v) :: rest, resolveName section_ p.1 = none
        | some c => (∀ p ∈ (name, v) :: rest, resolveName section_ p.1 ≠ none) ∧ c.ok ∧
            ∀ sec opt, get2 sec opt c = (given section_ ((name, v) :: rest) sec opt).or (get2 sec opt acc) := by
      intro a b hr he
      rw [he]
      have := ih (set2 a b v acc) (set2_ok a b v acc hacc)
      cases hc : collectOpts section_ rest (set2 a b v acc) with
      | none =>
        rw [hc] at this
        obtain ⟨q, hq, hq'⟩ := this
        exact ⟨q, List.mem_cons_of_mem _ hq, hq'⟩
      | some c =>
        rw [hc] at this
        refine ⟨?_, this.2.1, ?_⟩
        · intro q hq
          rcases List.mem_cons.1 hq with e | e
          · rw [e, hr]; simp
          · exact this.1 q e
        · intro sec opt
          rw [this.2.2 sec opt, get2_set2]
          unfold given
          by_cases hk : sec = a ∧ opt = b
          · obtain ⟨rfl, rfl⟩ := hk
            rw [List.filter_cons_of_pos (by simpa using hr)]
            simp only [List.map_cons, List.getLast?_cons, and_self, if_true]
            cases ((rest.filter _).map (·.2)).getLast? <;> rfl
          · rw [List.filter_cons_of_neg, if_neg hk]
            simp only [hr, Option.some.injEq, Prod.mk.injEq, decide_eq_true_eq]
            rintro ⟨rfl, rfl⟩
            exact hk ⟨rfl, rfl⟩
    cases hsp : splitOption name with
    | some q =>
      obtain ⟨a, b⟩ := q
      apply step a b
      · simp [resolveName, hsp]
      · simp [collectOpts, hsp]
    | none =>
      cases section_ with
      | none =>
        simp only [collectOpts, hsp]
        exact ⟨(name, v), by simp, by simp [resolveName, hsp]⟩
      | some sec =>
        apply step sec name
        · simp [resolveName, hsp]
        · simp [collectOpts, hsp]

/-! ## the store -/

def OSt.wf (s : OSt) : Prop := ∀ a, s.cur = some a → a < s.objs.length

theorem at_set_eq (s : OSt) (a : Nat) (x : Opts) (h : a < s.objs.length) :
    ({ s with objs := s.objs.set a x } : OSt).at a = x := by
  simp [OSt.at, List.getD_eq_getElem?_getD, h]

theorem ensure_wf (user : Opts) (s : OSt) (h : s.wf) : (ensure user s).wf := by
  unfold ensure
  split
  · exact h
  · intro a ha; simp at ha ⊢; omega

theorem ensure_some (user : Opts) (s : OSt) (h : s.wf) :
    ∃ a, (ensure user s).cur = some a ∧ a < (ensure user s).objs.length ∧
      (ensure user s).at a = (match s.cur with | some a => s.at a | none => user) := by
  unfold ensure
  cases hc : s.cur with
  | some a => exact ⟨a, hc, h a hc, by simp⟩
  | none => exact ⟨s.objs.length, rfl, by simp, by simp [OSt.at, List.getD_eq_getElem?_getD]⟩

theorem load_ok (user : Opts) (c : Opts) (s : OSt) (h : s.wf) :
    (loadOptions user (.cfg c) s).2 = false ∧
    ∃ a, (loadOptions user (.cfg c) s).1.cur = some a ∧ a < (loadOptions user (.cfg c) s).1.objs.length ∧
      (loadOptions user (.cfg c) s).1.at a =
        validateO (mergeO (match s.cur with | some a => s.at a | none => user) c) := by
  obtain ⟨a, h1, h2, h3⟩ := ensure_some user s h
  unfold loadOptions
  simp only [h1]
  refine ⟨trivial, a, rfl, by simpa using h2, ?_⟩
  have := at_set_eq (ensure user s) a (validateO (mergeO ((ensure user s).at a) c)) h2
  rw [← h3, ← h1]
  exact this

theorem inForce_some (user : Opts) (s : OSt) (a : Nat) (h : s.cur = some a) (sec opt : Str) :
    inForce user s sec opt = (match get2 sec opt (s.at a) with | some v => .val v | none => .returnedError) := by
  simp only [inForce, getOption, h]
  cases get2 sec opt (s.at a) <;> rfl

theorem inForce_none (user : Opts) (s : OSt) (hc : s.cur = none) (sec opt : Str) :
    inForce user s sec opt =
      (match effective sec opt (get2 sec opt user) with | some v => .val v | none => .returnedError) := by
  have hwf : s.wf := by intro a ha; rw [hc] at ha; cases ha
  obtain ⟨_, a, h1, h2, h3⟩ := load_ok user [] s hwf
  simp only [inForce, getOption, hc, h1, h3]
  have : mergeO user [] = user := rfl
  rw [this, get2_validateO]
  cases effective sec opt (get2 sec opt user) <;> rfl

/-! ## C37 -/

theorem takeWhile_word (a r : Str) (c : Char) (ha : ∀ x ∈ a, isWord x = true) (hc : isWord c = false) :
    (a ++ c :: r).takeWhile isWord = a ∧ (a ++ c :: r).dropWhile isWord = c :: r := by
  induction a with
  | nil => simp [hc]
  | cons x a ih =>
    have hx := ha x (by simp)
    have := ih (fun y hy => ha y (List.mem_cons_of_mem _ hy))
    simp [hx, this.1, this.2]

theorem takeWhile_all (a : Str) (ha : ∀ x ∈ a, isWord x = true) : a.takeWhile isWord = a ∧ a.dropWhile isWord = [] := by
  induction a with
  | nil => simp
  | cons x a ih =>
    have hx := ha x (by simp)
    have := ih (fun y hy => ha y (List.mem_cons_of_mem _ hy))
    simp [hx, this.1, this.2]

/-- an identifier: a non-empty string of word characters -/
def isIdent (s : Str) : Prop := s ≠ [] ∧ ∀ c ∈ s, isWord c = true

theorem splitOption_dotted (sec opt : Str) (c : Char) (h1 : isIdent sec) (h2 : isIdent opt) (hc : isWord c = false) :
    splitOption (sec ++ c :: opt) = some (sec, opt) := by
  unfold splitOption
  rw [(takeWhile_word sec opt c h1.2 hc).1, (takeWhile_word sec opt c h1.2 hc).2]
  simp [(takeWhile_all opt h2.2).1, (takeWhile_all opt h2.2).2, h1.1, h2.1]

/-- **C37** (agreement): the dotted form and the two argument form give the same answer in
every state, for every separator that is not a word character. -/
theorem C37_forms_agree (user : Opts) (s : OSt) (sec opt : Str) (c : Char) (h1 : isIdent sec) (h2 : isIdent opt)
    (hc : isWord c = false) :
    getOption user (sec ++ c :: opt) none s = getOption user sec (some opt) s := by
  simp only [getOption, splitOption_dotted sec opt c h1 h2 hc]

/-- **C37** (value): an existing option is returned as it is stored. -/
theorem C37_existing (user : Opts) (s : OSt) (a : Nat) (h : s.cur = some a) (sec opt : Str) (v : OVal)
    (hv : get2 sec opt (s.at a) = some v) : (getOption user sec (some opt) s).2 = .val v := by
  simp [getOption, h, hv]

/-- **C37** (missing option name): a single argument without separator raises. -/
theorem C37_no_option_name (user : Opts) (s : OSt) (sec : Str) (h : isIdent sec) :
    (getOption user sec none s).2 = .raised := by
  have : splitOption sec = none := by
    unfold splitOption
    rw [(takeWhile_all sec h.2).2]
  simp only [getOption, this]

/-- a name of the form `section.option` -/
theorem splitOption_iff (s a b : Str) : splitOption s = some (a, b) ↔
    isIdent a ∧ isIdent b ∧ ∃ c, isWord c = false ∧ (s = a ++ c :: b ∨ s = a ++ c :: b ++ ['\n']) := by
  constructor
  · intro h
    unfold splitOption at h
    have h0 := List.takeWhile_append_dropWhile (p := isWord) (l := s)
    cases hd : s.dropWhile isWord with
    | nil => rw [hd] at h; exact absurd h (by simp)
    | cons c r =>
      rw [hd] at h
      have h1 := List.takeWhile_append_dropWhile (p := isWord) (l := r)
      simp only at h
      split at h
      · next hc =>
        simp only [Option.some.injEq, Prod.mk.injEq] at h
        obtain ⟨e1, e2⟩ := h
        have hword : ∀ l : Str, ∀ x ∈ l.takeWhile isWord, isWord x = true := by
          intro l
          induction l with
          | nil => simp
          | cons y l ih =>
            intro x hx
            by_cases hy : isWord y = true
            · rw [List.takeWhile_cons_of_pos hy] at hx
              rcases List.mem_cons.mp hx with e | e
              · rw [e]; exact hy
              · exact ih x e
            · rw [List.takeWhile_cons_of_neg hy] at hx; exact absurd hx (by simp)
        refine ⟨⟨by rw [← e1]; exact hc.1, by rw [← e1]; exact hword s⟩, ⟨by rw [← e2]; exact hc.2.1, by rw [← e2]; exact hword r⟩, c, ?_, ?_⟩
        · have := List.head_dropWhile_not (p := isWord) (l := s) (by rw [hd]; simp)
          simpa [hd] using this
        · rw [hd, e1] at h0
          rw [e2] at h1
          rcases hc.2.2 with e | e
          · left; rw [← h0, ← h1, e]; simp
          · right; rw [← h0, ← h1, e]; simp
      · exact absurd h (by simp)
  · rintro ⟨h1, h2, c, hc, e | e⟩
    · rw [e]; exact splitOption_dotted a b c h1 h2 hc
    · rw [e]
      unfold splitOption
      have hnl : isWord '\n' = false := by decide
      have e' : a ++ c :: b ++ ['\n'] = a ++ c :: (b ++ '\n' :: []) := by simp
      rw [e', (takeWhile_word a _ c h1.2 hc).1, (takeWhile_word a _ c h1.2 hc).2]
      simp [(takeWhile_word b [] '\n' h2.2 hnl).1, (takeWhile_word b [] '\n' h2.2 hnl).2, h1.1, h2.1]

/-- **C37** (single argument): it raises exactly when it is not two words separated by one character that is not part of a
word (a final newline is tolerated). -/
theorem C37_single_raises_iff (user : Opts) (s : OSt) (name : Str) :
    (getOption user name none s).2 = .raised ↔
      ¬ ∃ a b c, isIdent a ∧ isIdent b ∧ isWord c = false ∧ (name = a ++ c :: b ∨ name = a ++ c :: b ++ ['\n']) := by
  simp only [getOption]
  cases h : splitOption name with
  | none =>
    simp only [true_iff]
    rintro ⟨a, b, c, h1, h2, h3, h4⟩
    rw [(splitOption_iff name a b).mpr ⟨h1, h2, c, h3, h4⟩] at h
    exact absurd h (by simp)
  | some p =>
    obtain ⟨a, b⟩ := p
    obtain ⟨h1, h2, c, h3, h4⟩ := (splitOption_iff name a b).mp h
    have : ¬ ¬ ∃ a b c, isIdent a ∧ isIdent b ∧ isWord c = false ∧ (name = a ++ c :: b ∨ name = a ++ c :: b ++ ['\n']) :=
      fun hh => hh ⟨a, b, c, h1, h2, h3, h4⟩
    simp only [this, iff_false]
    generalize hg : get2 a b (match (match s.cur with | some _ => s | none => (loadOptions user (.cfg []) s).1).cur with
      | some a => OSt.at (match s.cur with | some _ => s | none => (loadOptions user (.cfg []) s).1) a
      | none => []) = g
    cases g <;> simp

/-- **C86 is violated**: an unknown option never raises; the exception object is *returned*
as if it were the value, in every state and for every section and option. -/
theorem C86_unknown_violated (user : Opts) (s : OSt) (sec opt : Str) :
    (getOption user sec (some opt) s).2 ≠ .raised ∧
    (∀ a, s.cur = some a → get2 sec opt (s.at a) = none → (getOption user sec (some opt) s).2 = .returnedError) := by
  constructor
  · simp only [getOption]
    split <;> simp
  · intro a h hn
    simp [getOption, h, hn]

example : isIdent "plot".toList ∧ isIdent "cmapdiv".toList ∧ isWord '.' = false := by
  refine ⟨⟨by decide, by decide⟩, ⟨by decide, by decide⟩, by decide⟩

/-! ## C35 -/

/-- what `set_options` puts in force, for every earlier history: the options given, and
for all the others the values of the user file and the defaults -/
theorem setInit_spec (user : Opts) (s : OSt) (a : Nat) (hc : s.cur = some a) (section_ : Option Str)
    (options : List (Str × OVal)) (hres : ∀ p ∈ options, resolveName section_ p.1 ≠ none) :
    let r := setInit user section_ options s
    r.2.1 = false ∧ ∀ sec opt, inForce user r.1 sec opt =
      (match effective sec opt ((given section_ options sec opt).or (get2 sec opt user)) with
        | some v => .val v | none => .returnedError) := by
  have hcol := collectOpts_spec section_ options [] ⟨by simp, by simp⟩
  simp only [setInit, hc]
  cases hco : collectOpts section_ options [] with
  | none =>
    rw [hco] at hcol
    obtain ⟨p, hp, hp'⟩ := hcol
    exact absurd hp' (hres p hp)
  | some c =>
    rw [hco] at hcol
    simp only
    obtain ⟨_, hok, hget⟩ := hcol
    have hwf : ({ s with cur := none } : OSt).wf := by intro a ha; cases ha
    obtain ⟨h0, b, h1, h2, h3⟩ := load_ok user c { s with cur := none } hwf
    refine ⟨h0, ?_⟩
    intro sec opt
    rw [inForce_some _ _ b h1, h3, get2_validateO]
    simp only
    rw [get2_mergeO _ _ _ _ hok, hget]
    simp [get2, lookupS]

/-- **C35** (first half): after `set_options`, each option given has the given value (as
converted by the declared type of the option if there is one), for every history. -/
theorem C35_set_value (user : Opts) (s : OSt) (a : Nat) (hc : s.cur = some a) (section_ : Option Str)
    (options : List (Str × OVal)) (hres : ∀ p ∈ options, resolveName section_ p.1 ≠ none)
    (sec opt : Str) (v : OVal) (hv : given section_ options sec opt = some v) :
    inForce user (setInit user section_ options s).1 sec opt =
      .val (match specOf sec opt with | none => v | some (k, _) => (convert k v).getD v) := by
  rw [(setInit_spec user s a hc section_ options hres).2 sec opt, hv]
  simp only [Option.some_or, effective]
  cases specOf sec opt <;> rfl

/-- in particular a string given to an option declared as a string, or to an undeclared
option, is what `get_option` returns -/
theorem C35_set_string_value (user : Opts) (s : OSt) (a : Nat) (hc : s.cur = some a) (sec opt v : Str)
    (hsec : isIdent sec) (hopt : isIdent opt) (hk : ∀ d, specOf sec opt ≠ some (.boolean, d)) :
    inForce user (setInit user none [(sec ++ '.' :: opt, .str v)] s).1 sec opt = .val (.str v) := by
  have hsp := splitOption_dotted sec opt '.' hsec hopt (by decide)
  have hr : resolveName none (sec ++ '.' :: opt) = some (sec, opt) := by simp [resolveName, hsp]
  rw [C35_set_value user s a hc none _ (by simp [hr]) sec opt (.str v) (by simp [given, hr])]
  cases hs : specOf sec opt with
  | none => rfl
  | some p =>
    obtain ⟨k, d⟩ := p
    cases k with
    | boolean => exact absurd hs (hk d)
    | string => rfl

/-- a boolean given to any option is what `get_option` returns, and a text that means true or false, in any case, gives this
boolean for an option declared as boolean -/
theorem C35_set_bool_value (user : Opts) (s : OSt) (a : Nat) (hc : s.cur = some a) (sec opt : Str)
    (hsec : isIdent sec) (hopt : isIdent opt) :
    (∀ b, inForce user (setInit user none [(sec ++ '.' :: opt, .bool b)] s).1 sec opt = .val (.bool b)) ∧
    (∀ d v, specOf sec opt = some (.boolean, d) → lower v ∈ ["on".toList, "1".toList, "true".toList, "yes".toList] →
      inForce user (setInit user none [(sec ++ '.' :: opt, .str v)] s).1 sec opt = .val (.bool true)) ∧
    (∀ d v, specOf sec opt = some (.boolean, d) → lower v ∈ ["off".toList, "0".toList, "false".toList, "no".toList] →
      inForce user (setInit user none [(sec ++ '.' :: opt, .str v)] s).1 sec opt = .val (.bool false)) := by
  have hsp := splitOption_dotted sec opt '.' hsec hopt (by decide)
  have hr : resolveName none (sec ++ '.' :: opt) = some (sec, opt) := by simp [resolveName, hsp]
  refine ⟨?_, ?_, ?_⟩
  · intro b
    rw [C35_set_value user s a hc none _ (by simp [hr]) sec opt (.bool b) (by simp [given, hr])]
    cases hs : specOf sec opt with
    | none => rfl
    | some p =>
      obtain ⟨k, d⟩ := p
      cases k <;> rfl
  · intro d v hs hv
    rw [C35_set_value user s a hc none _ (by simp [hr]) sec opt (.str v) (by simp [given, hr]), hs]
    simp only [convert, if_pos hv, Option.getD_some]
  · intro d v hs hv
    rw [C35_set_value user s a hc none _ (by simp [hr]) sec opt (.str v) (by simp [given, hr]), hs]
    have hv' : lower v ∉ ["on".toList, "1".toList, "true".toList, "yes".toList] := by
      intro h'
      simp only [List.mem_cons, List.not_mem_nil, or_false] at hv h'
      rcases hv with e | e | e | e <;> rw [e] at h' <;> revert h' <;> decide
    simp only [convert, if_neg hv', if_pos hv, Option.getD_some]

/-- **C85** (second half), proved part: an option that is not given keeps its value when it
had the value of the user file or the default one just before the call.
What is missing is an option changed earlier in the session, see below. -/
theorem C85_others_partial (user : Opts) (s : OSt) (a : Nat) (hc : s.cur = some a) (section_ : Option Str)
    (options : List (Str × OVal)) (hres : ∀ p ∈ options, resolveName section_ p.1 ≠ none)
    (sec opt : Str) (hv : given section_ options sec opt = none)
    (hfresh : inForce user s sec opt = inForce user { s with cur := none } sec opt) :
    inForce user (setInit user section_ options s).1 sec opt = inForce user s sec opt := by
  rw [(setInit_spec user s a hc section_ options hres).2 sec opt, hv, hfresh,
    inForce_none user _ rfl]
  simp

/-- **C85** (second half), exact: an option that is not given keeps its value exactly when it had the value of the user file or the default one just before
the call; in all the cases it has this value after the call. -/
theorem C85_others_iff_partial (user : Opts) (s : OSt) (a : Nat) (hc : s.cur = some a) (section_ : Option Str)
    (options : List (Str × OVal)) (hres : ∀ p ∈ options, resolveName section_ p.1 ≠ none)
    (sec opt : Str) (hv : given section_ options sec opt = none) :
    inForce user (setInit user section_ options s).1 sec opt = inForce user { s with cur := none } sec opt ∧
    (inForce user (setInit user section_ options s).1 sec opt = inForce user s sec opt ↔
      inForce user s sec opt = inForce user { s with cur := none } sec opt) := by
  have h : inForce user (setInit user section_ options s).1 sec opt = inForce user { s with cur := none } sec opt := by
    rw [(setInit_spec user s a hc section_ options hres).2 sec opt, hv, inForce_none user _ rfl]
    simp
  refine ⟨h, ?_⟩
  rw [h]
  exact eq_comm

/-- the session of the counterexamples: `load_options()` -/
def exSt : OSt := (loadOptions [] (.cfg []) { objs := [], cur := none }).1

/-- **C85 is violated**: `set_option('plot.cmapdiv', 'x')` then `set_option('plot.cmappos', 'y')`:
the first one is forgotten. -/
theorem C85_others_violated :
    let s1 := (setInit [] none [("plot.cmapdiv".toList, .str "x".toList)] exSt).1
    let s2 := (setInit [] none [("plot.cmappos".toList, .str "y".toList)] s1).1
    inForce [] s1 "plot".toList "cmapdiv".toList = .val (.str "x".toList) ∧
    inForce [] s2 "plot".toList "cmapdiv".toList = .val (.str "cmo.balance".toList) ∧
    inForce [] s2 "plot".toList "cmappos".toList = .val (.str "y".toList) := by
  decide +kernel

example : exSt.cur = some 0 ∧ inForce [] exSt "plot".toList "cmapdiv".toList =
    inForce [] { exSt with cur := none } "plot".toList "cmapdiv".toList := by decide +kernel
example : resolveName none "plot.cmappos".toList ≠ none ∧
    given none [("plot.cmappos".toList, .str "y".toList)] "plot".toList "cmapdiv".toList = none := by decide +kernel
example : ∀ d, specOf "plot".toList "cmapdiv".toList ≠ some (.boolean, d) := by
  intro d h; simp [specOf, configSpecs] at h

/-! ## C36 -/

/-- **C36** (proved part 1): a failing `load_options` leaves everything unchanged when the
options are already loaded. -/
theorem C36_load_partial (user : Opts) (s : OSt) (a : Nat) (h : s.cur = some a) :
    loadOptions user .bad s = (s, true) := by
  simp [loadOptions, ensure, h]

/-- **C36** (proved part 2): `set_options` before any use of the options raises a `KeyError`
and changes nothing. -/
theorem C36_set_unloaded_partial (user : Opts) (s : OSt) (h : s.cur = none) (section_ : Option Str)
    (options : List (Str × OVal)) :
    (setInit user section_ options s).1 = s ∧ (setInit user section_ options s).2.1 = true := by
  simp [setInit, h]

/-- **C36** (what a failing `set_options` does): it drops the options of the session; the
options in force become those of the user file and the defaults. -/
theorem C36_set_failure_partial (user : Opts) (s : OSt) (a : Nat) (h : s.cur = some a) (section_ : Option Str)
    (options : List (Str × OVal)) (hf : (setInit user section_ options s).2.1 = true) :
    (∃ p ∈ options, resolveName section_ p.1 = none) ∧
    ∀ sec opt, inForce user (setInit user section_ options s).1 sec opt =
      inForce user { s with cur := none } sec opt := by
  have hcol := collectOpts_spec section_ options [] ⟨by simp, by simp⟩
  simp only [setInit, h] at hf ⊢
  cases hco : collectOpts section_ options [] with
  | none =>
    rw [hco] at hcol
    exact ⟨hcol, fun sec opt => by simp⟩
  | some c =>
    rw [hco] at hf
    have hwf : ({ s with cur := none } : OSt).wf := by intro a ha; cases ha
    simp only [(load_ok user c _ hwf).1] at hf
    cases hf

/-- **C36 is violated** by `set_options(cmapdiv='z')` (no section): it raises, and an option set
before the failing call is lost. -/
theorem C36_set_violated :
    let s1 := (setInit [] none [("plot.cmapdiv".toList, .str "x".toList)] exSt).1
    let r := setInit [] none [("cmapdiv".toList, .str "z".toList)] s1
    r.2.1 = true ∧ inForce [] s1 "plot".toList "cmapdiv".toList = .val (.str "x".toList) ∧
    inForce [] r.1 "plot".toList "cmapdiv".toList = .val (.str "cmo.balance".toList) := by
  decide +kernel

/-- **C36 is violated** by a failing `load_options(badfile)` as a first call: options are then
present but not validated, and every declared option is reported as invalid. -/
theorem C36_load_violated :
    let s0 : OSt := { objs := [], cur := none }
    let r := loadOptions [] .bad s0
    r.2 = true ∧ inForce [] s0 "plot".toList "cmapdiv".toList = .val (.str "cmo.balance".toList) ∧
    inForce [] r.1 "plot".toList "cmapdiv".toList = .returnedError := by
  decide +kernel

/-! ## C34 -/

/-- The invariant inside a context entered in a store of size `n`: the first `n` objects are
those of the entry, and the options in force, if any, are a younger object. -/
structure Inside (n : Nat) (s0 s : OSt) : Prop where
  len : n ≤ s.objs.length
  same : s.objs.take n = s0.objs.take n
  young : ∀ a, s.cur = some a → n ≤ a ∧ a < s.objs.length

theorem Inside.wf {n : Nat} {s0 s : OSt} (h : Inside n s0 s) : s.wf := fun a ha => (h.young a ha).2

theorem Inside.drop {n : Nat} {s0 s : OSt} (h : Inside n s0 s) : Inside n s0 { s with cur := none } :=
  ⟨h.len, h.same, fun a ha => by cases ha⟩

theorem Inside.ensure {n : Nat} {s0 s : OSt} (user : Opts) (h : Inside n s0 s) : Inside n s0 (ensure user s) := by
  unfold Xoa.ensure
  split
  · exact h
  · refine ⟨by simp; have := h.len; omega, ?_, ?_⟩
    · simp only
      rw [List.take_append_of_le_length h.len, h.same]
    · intro a ha
      simp at ha ⊢
      have := h.len
      omega

theorem take_set_ge {α : Type} (l : List α) (n a : Nat) (x : α) (h : n ≤ a) : (l.set a x).take n = l.take n := by
  rw [List.take_set, List.set_eq_of_length_le]
  simp; omega

theorem Inside.load {n : Nat} {s0 s : OSt} (user : Opts) (arg : LoadArg) (h : Inside n s0 s) :
    Inside n s0 (loadOptions user arg s).1 := by
  have he := h.ensure user
  unfold loadOptions
  cases arg with
  | bad => exact he
  | cfg c =>
    simp only
    cases hc : (Xoa.ensure user s).cur with
    | none => exact he
    | some a =>
      simp only
      refine ⟨by simpa using he.len, ?_, ?_⟩
      · simp only
        rw [take_set_ge _ _ _ _ (he.young a hc).1, he.same]
      · intro b hb
        simp only at hb ⊢
        rw [List.length_set]
        exact he.young b (by rw [hc]; exact hb)

theorem Inside.setInit {n : Nat} {s0 s : OSt} (user : Opts) (sec : Option Str) (o : List (Str × OVal))
    (h : Inside n s0 s) : Inside n s0 (setInit user sec o s).1 := by
  unfold Xoa.setInit
  cases hc : s.cur with
  | none => exact h
  | some a =>
    simp only
    cases collectOpts sec o [] with
    | none => exact h.drop
    | some c => exact h.drop.load user _

/-- the object saved by a context is the one in force at its entry -/
theorem setInit_old (user : Opts) (sec : Option Str) (o : List (Str × OVal)) (s : OSt)
    (h : (setInit user sec o s).2.1 = false) : (setInit user sec o s).2.2 = s.cur ∧ s.cur ≠ none := by
  unfold setInit at h ⊢
  cases hc : s.cur with
  | none => simp [hc] at h
  | some a =>
    simp only [hc] at h ⊢
    cases hco : collectOpts sec o [] with
    | none => simp [hco] at h
    | some c => simp

theorem Inside.setExit {n : Nat} {s0 s : OSt} (old : Option Nat) (h : Inside n s0 s)
    (hold : ∀ a, old = some a → n ≤ a ∧ a < s.objs.length) : Inside n s0 (setExit old s).1 := by
  unfold Xoa.setExit
  cases old with
  | none =>
    cases hc : s.cur with
    | none => exact h
    | some b => exact h.drop
  | some a =>
    simp only
    split
    · exact ⟨h.len, h.same, fun b hb => by cases hb; exact hold a rfl⟩
    · cases hc : s.cur with
      | none => exact h
      | some b => exact h.drop

/-- the store never shrinks -/
def Grows (s s' : OSt) : Prop := s.objs.length ≤ s'.objs.length

theorem grows_load (user : Opts) (arg : LoadArg) (s : OSt) : Grows s (loadOptions user arg s).1 := by
  have he : Grows s (ensure user s) := by
    unfold ensure Grows
    split <;> simp
  unfold loadOptions
  cases arg with
  | bad => exact he
  | cfg c =>
    simp only
    cases (ensure user s).cur with
    | none => exact he
    | some a => simpa [Grows] using he

theorem grows_setInit (user : Opts) (sec : Option Str) (o : List (Str × OVal)) (s : OSt) :
    Grows s (setInit user sec o s).1 := by
  unfold setInit
  cases s.cur with
  | none => exact Nat.le_refl _
  | some a =>
    simp only
    cases collectOpts sec o [] with
    | none => exact Nat.le_refl _
    | some c => exact grows_load user _ { s with cur := none }

theorem grows_setExit (old : Option Nat) (s : OSt) : (setExit old s).1.objs = s.objs := by
  unfold setExit
  cases old with
  | none => cases s.cur <;> rfl
  | some a =>
    simp only
    split
    · rfl
    · cases s.cur <;> rfl

mutual
theorem exec_inside (user : Opts) : ∀ (st : Stmt) (n : Nat) (s0 s : OSt), Inside n s0 s →
    Inside n s0 (exec user st s).1 ∧ Grows s (exec user st s).1
  | .load a, n, s0, s, h => ⟨h.load user a, grows_load user a s⟩
  | .set sec o, n, s0, s, h => ⟨h.setInit user sec o, grows_setInit user sec o s⟩
  | .reset, n, s0, s, h => by
    simp only [exec, resetOptions]
    cases hc : s.cur with
    | none => exact ⟨h, Nat.le_refl _⟩
    | some a => exact ⟨h.drop, Nat.le_refl _⟩
  | .get sec opt, n, s0, s, h => by
    have : (exec user (.get sec opt) s).1 = (match s.cur with
        | some _ => s
        | none => (loadOptions user (.cfg []) s).1) := by
      simp only [exec, getOption]
      split
      · rfl
      · split <;> rfl
    rw [this]
    cases hc : s.cur with
    | some a => exact ⟨h, Nat.le_refl _⟩
    | none => exact ⟨h.load user _, grows_load user _ s⟩
  | .raise, n, s0, s, h => ⟨h, Nat.le_refl _⟩
  | .with_ sec o body, n, s0, s, h => by
    simp only [exec]
    cases hr : (setInit user sec o s).2.1 with
    | true => simpa using ⟨h.setInit user sec o, grows_setInit user sec o s⟩
    | false =>
      simp only [Bool.false_eq_true, if_false]
      have hin := h.setInit user sec o
      have hb := execL_inside user body n s0 _ hin
      have hg := grows_setInit user sec o s
      refine ⟨hb.1.setExit _ ?_, ?_⟩
      · intro a ha
        rw [(setInit_old user sec o s hr).1] at ha
        have := h.young a ha
        refine ⟨this.1, ?_⟩
        have h2 := hb.2
        unfold Grows at h2 hg
        omega
      · unfold Grows at *
        rw [grows_setExit]
        have h2 := hb.2
        omega
  | .try_ body, n, s0, s, h => execL_inside user body n s0 s h

theorem execL_inside (user : Opts) : ∀ (b : List Stmt) (n : Nat) (s0 s : OSt), Inside n s0 s →
    Inside n s0 (execL user b s).1 ∧ Grows s (execL user b s).1
  | [], n, s0, s, h => ⟨h, Nat.le_refl _⟩
  | st :: rest, n, s0, s, h => by
    have h1 := exec_inside user st n s0 s h
    simp only [execL]
    split
    · exact h1
    · have h2 := execL_inside user rest n s0 _ h1.1
      exact ⟨h2.1, Nat.le_trans h1.2 h2.2⟩
end

/-- **C34**: whatever the body does (load, set, reset and read options, nest other contexts to
any depth, catch or raise exceptions at any point), leaving a `set_options` context restores
the very object in force on entry, with its contents unchanged; hence every option has its
entry value. An exception in the body is propagated. (The entry options must not be an empty
object, which is always so once they have been loaded successfully, see `C34_loaded_nonempty`.) -/
theorem C34_set_options_restores (user : Opts) (s : OSt) (hwf : s.wf) (a : Nat) (hc : s.cur = some a)
    (hne : s.at a ≠ []) (sec : Option Str) (o : List (Str × OVal)) (body : List Stmt)
    (hinit : (setInit user sec o s).2.1 = false) :
    let r := exec user (.with_ sec o body) s
    r.1.cur = s.cur ∧ r.1.at a = s.at a ∧ (∀ sc op, inForce user r.1 sc op = inForce user s sc op) ∧
    r.2 = (execL user body (setInit user sec o s).1).2 := by
  have hin0 : Inside s.objs.length s { s with cur := none } :=
    ⟨Nat.le_refl _, rfl, fun b hb => by cases hb⟩
  have hin : Inside s.objs.length s (setInit user sec o s).1 := by
    unfold setInit at hinit ⊢
    rw [hc] at hinit ⊢
    simp only at hinit ⊢
    cases hco : collectOpts sec o [] with
    | none => exact hin0
    | some c => exact hin0.load user _
  have hb := (execL_inside user body _ _ _ hin).1
  have hold := (setInit_old user sec o s hinit).1
  have hat : (execL user body (setInit user sec o s).1).1.at a = s.at a := by
    have hlt := hwf a hc
    have h1 := congrArg (fun l => l.getD a []) hb.same
    simp only [List.getD_eq_getElem?_getD, List.getElem?_take, if_pos hlt] at h1
    simpa [OSt.at, List.getD_eq_getElem?_getD] using h1
  have hex : setExit (setInit user sec o s).2.2 (execL user body (setInit user sec o s).1).1 =
      ({ (execL user body (setInit user sec o s).1).1 with cur := some a }, false) := by
    rw [hold, hc]
    simp only [setExit, hat]
    rw [if_pos hne]
  simp only [exec, hinit, Bool.false_eq_true, if_false, hex, Bool.or_false]
  have hat' : ({ (execL user body (setInit user sec o s).1).1 with cur := some a } : OSt).at a = s.at a := hat
  refine ⟨hc.symm, hat', ?_, by simp⟩
  intro sc op
  rw [inForce_some user _ a rfl, inForce_some user s a hc, hat']

/-- options that have been loaded without error are never an empty object -/
theorem C34_loaded_nonempty (user : Opts) (c : Opts) (s : OSt) (hwf : s.wf) :
    ∃ a, (loadOptions user (.cfg c) s).1.cur = some a ∧ (loadOptions user (.cfg c) s).1.at a ≠ [] := by
  obtain ⟨_, a, h1, h2, h3⟩ := load_ok user c s hwf
  refine ⟨a, h1, ?_⟩
  rw [h3]
  intro h
  have := get2_validateO "plot".toList "cmapdiv".toList
    (mergeO (match s.cur with | some a => s.at a | none => user) c)
  rw [h] at this
  have hsp : specOf "plot".toList "cmapdiv".toList = some (.string, .str "cmo.balance".toList) := rfl
  simp only [effective, hsp] at this
  simp [get2, lookupS] at this

/-- **C84 is violated** in all the cases: if the options in force on entry are an empty object, they are never restored; after the context there
are no options in force, and the next reading loads the user and default ones. -/
theorem C84_empty_violated (user : Opts) (s : OSt) (hwf : s.wf) (a : Nat) (hc : s.cur = some a)
    (he : s.at a = []) (sec : Option Str) (o : List (Str × OVal)) (body : List Stmt)
    (hinit : (setInit user sec o s).2.1 = false) : (exec user (.with_ sec o body) s).1.cur = none := by
  have hin0 : Inside s.objs.length s { s with cur := none } :=
    ⟨Nat.le_refl _, rfl, fun b hb => by cases hb⟩
  have hin : Inside s.objs.length s (setInit user sec o s).1 := by
    unfold setInit at hinit ⊢
    rw [hc] at hinit ⊢
    simp only at hinit ⊢
    cases hco : collectOpts sec o [] with
    | none => exact hin0
    | some c => exact hin0.load user _
  have hb := (execL_inside user body _ _ _ hin).1
  have hold := (setInit_old user sec o s hinit).1
  have hat : (execL user body (setInit user sec o s).1).1.at a = s.at a := by
    have hlt := hwf a hc
    have h1 := congrArg (fun l => l.getD a []) hb.same
    simp only [List.getD_eq_getElem?_getD, List.getElem?_take, if_pos hlt] at h1
    simpa [OSt.at, List.getD_eq_getElem?_getD] using h1
  simp only [exec, hinit, Bool.false_eq_true, if_false]
  rw [hold, hc]
  simp only [setExit, hat, he, ne_eq, not_true_eq_false, if_false]
  cases hcur : (execL user body (setInit user sec o s).1).1.cur with
  | none => simp [hcur]
  | some b => simp

/-- The empty object exception is real: a failing first `load_options` leaves an empty object
in force, which a context does not restore. -/
theorem C84_empty_options_counterexample :
    let s0 : OSt := (loadOptions [] .bad { objs := [], cur := none }).1
    let r := exec [] (.with_ (some "plot".toList) [] []) s0
    s0.cur = some 0 ∧ r.1.cur = none := by
  decide +kernel

/-- hypotheses of C34 met, with a body that loads, nests, resets and raises -/
example : (setInit [] (some "plot".toList) [("cmapdiv".toList, .str "x".toList)] exSt).2.1 = false ∧
    exSt.at 0 ≠ [] ∧
    (exec [] (.with_ (some "plot".toList) [("cmapdiv".toList, .str "x".toList)]
      [.load (.cfg [("cf".toList, [("cache".toList, .str "no".toList)])]),
       .with_ none [("plot.cmappos".toList, .str "y".toList)] [.reset, .raise]]) exSt).2 = true := by
  decide +kernel

/-! ### set_cf_specs -/

/-- **C34** (specifications): leaving a `set_cf_specs` context restores the specifications in
force on entry, or their absence, for every body, also when it raises or resets the memory
cache. -/
theorem C34_set_cf_specs_restores (s : CfSt) (obj : Nat) (body : List CfStmt) :
    (execCf (.with_ obj body) s).1.specs = s.specs := by
  simp only [execCf]
  cases hs : s.specs with
  | some a => rfl
  | none =>
    cases hb : (execCfL body { s with specs := some obj }).1.specs with
    | some b => simp
    | none => simp [hb]

/-- ... and an exception of the body is not swallowed -/
theorem C34_set_cf_specs_raises (s : CfSt) (obj : Nat) (body : List CfStmt)
    (h : (execCfL body { s with specs := some obj }).2 = true) : (execCf (.with_ obj body) s).2 = true := by
  simp only [execCf]
  cases hs : s.specs with
  | some a => exact h
  | none =>
    cases hb : (execCfL body { s with specs := some obj }).1.specs with
    | some b => simpa [hb] using h
    | none => simp

example : (execCf (.with_ 7 [.get, .with_ 8 [.resetMemory, .get], .raise]) ⟨some 3, 9⟩) = (⟨some 3, 10⟩, true) := by
  decide +kernel

end Xoa
