import Verif.InfoProps
import Mathlib.Data.List.Induction

/-! # Properties of the choices and enumerations: refusals and documentation (C156, C157) -/

namespace Xoa

/-! ### C156: choices -/

/-- the values that are declared -/
def ChoiceDecl.values : ChoiceDecl → List Choice
  | .list l => l
  | .dict l => l.map (·.1)

theorem choicesInit_vals (ci : Bool) (param desc : Str) (d : ChoiceDecl) : (choicesInit ci param desc d).vals = d.values.map (reformat ci) := by
  cases d with
  | list l => rfl
  | dict l => simp [choicesInit, ChoiceDecl.values]

theorem choicesInit_ci (ci : Bool) (param desc : Str) (d : ChoiceDecl) : (choicesInit ci param desc d).ci = ci := by
  cases d <;> rfl

theorem mapM_text (l : List Choice) (h : ∀ c ∈ l, ∃ s, c = .str s) : ∃ r, l.mapM choiceText = .ok r := by
  induction l with
  | nil => exact ⟨[], rfl⟩
  | cons a l ih =>
    obtain ⟨r, hr⟩ := ih (fun c hc => h c (List.mem_cons_of_mem _ hc))
    obtain ⟨s, hs⟩ := h a List.mem_cons_self
    refine ⟨s :: r, ?_⟩
    rw [List.mapM_cons, hr, hs]
    rfl

theorem mapM_text_error (l : List Choice) (n : Int) (h : .other n ∈ l) : l.mapM choiceText = .error .typeError := by
  induction l with
  | nil => cases h
  | cons a l ih =>
    rw [List.mapM_cons]
    cases a with
    | other m => rfl
    | str s =>
      have : Choice.other n ∈ l := by
        rcases List.mem_cons.1 h with h | h
        · cases h
        · exact h
      rw [ih this]
      rfl

/-- the two values are the same choice: equal, or equal texts up to the case when the case is not significant -/
def SameChoice (ci : Bool) (a b : Choice) : Prop :=
  a = b ∨ ∃ s t, a = .str s ∧ b = .str t ∧ ci = true ∧ lower s = lower t

theorem sameChoice_iff (ci : Bool) (a b : Choice) : SameChoice ci a b ↔ reformat ci a = reformat ci b := by
  unfold SameChoice
  constructor
  · rintro (rfl | ⟨s, t, rfl, rfl, rfl, h⟩)
    · rfl
    · simp [reformat, h]
  · intro h
    cases a with
    | other n =>
      cases b with
      | other m => exact Or.inl h
      | str t => cases ci <;> cases h
    | str s =>
      cases b with
      | other m => cases ci <;> cases h
      | str t =>
        cases ci with
        | false => exact Or.inl h
        | true =>
          right
          simp only [reformat, if_true, Choice.str.injEq] at h
          exact ⟨s, t, rfl, rfl, rfl, h⟩

/-- **C156**: when the declared choices are texts, a value is either accepted, when it is one of them up to the case, or refused with the
error of xoa. -/
theorem C156_refused_partial (ci : Bool) (param desc : Str) (d : ChoiceDecl) (h : ∀ c ∈ d.values, ∃ s, c = .str s) (v : Choice) :
    ((∃ c ∈ d.values, SameChoice ci c v) → ∃ r, choicesItem (choicesInit ci param desc d) v = .ok r ∧ SameChoice ci r v) ∧
    ((¬ ∃ c ∈ d.values, SameChoice ci c v) → choicesItem (choicesInit ci param desc d) v = .error .xoaError) := by
  have hmem : reformat ci v ∈ (choicesInit ci param desc d).vals ↔ ∃ c ∈ d.values, SameChoice ci c v := by
    rw [choicesInit_vals, List.mem_map]
    constructor
    · rintro ⟨c, hc, he⟩; exact ⟨c, hc, (sameChoice_iff _ _ _).2 he⟩
    · rintro ⟨c, hc, he⟩; exact ⟨c, hc, (sameChoice_iff _ _ _).1 he⟩
  unfold choicesItem
  rw [choicesInit_ci]
  constructor
  · intro hx
    rw [if_pos (hmem.2 hx)]
    refine ⟨_, rfl, (sameChoice_iff _ _ _).2 ?_⟩
    cases v with
    | other n => rfl
    | str s => cases ci <;> simp [reformat]
  · intro hx
    rw [if_neg (fun hm => hx (hmem.1 hm))]
    obtain ⟨r, hr⟩ := mapM_text (choicesInit ci param desc d).vals (by
      intro c hc
      rw [choicesInit_vals, List.mem_map] at hc
      obtain ⟨c', hc', rfl⟩ := hc
      obtain ⟨s, rfl⟩ := h c' hc'
      cases ci <;> exact ⟨_, rfl⟩)
    unfold choicesStr
    rw [hr]
    rfl

/-- **C156 is violated**: as soon as one of the choices is not a text, every value that is not a choice is refused with a `TypeError`. -/
theorem C156_other_violated (ci : Bool) (param desc : Str) (d : ChoiceDecl) (n : Int) (h : .other n ∈ d.values) (v : Choice)
    (hv : ¬ ∃ c ∈ d.values, SameChoice ci c v) : choicesItem (choicesInit ci param desc d) v = .error .typeError := by
  unfold choicesItem
  rw [choicesInit_ci, if_neg]
  · unfold choicesStr
    rw [mapM_text_error _ n]
    · rfl
    · rw [choicesInit_vals, List.mem_map]
      exact ⟨_, h, rfl⟩
  · intro hm
    rw [choicesInit_vals, List.mem_map] at hm
    obtain ⟨c, hc, he⟩ := hm
    exact hv ⟨c, hc, (sameChoice_iff _ _ _).2 he⟩

theorem setChoice_new (k : Choice) (v : Str) (d : List (Choice × Str)) (h : ∀ p ∈ d, p.1 ≠ k) : setChoice k v d = d ++ [(k, v)] := by
  induction d with
  | nil => rfl
  | cons p d ih =>
    obtain ⟨k', v'⟩ := p
    have : k' ≠ k := h (k', v') List.mem_cons_self
    rw [setChoice, if_neg this, ih (fun p hp => h p (List.mem_cons_of_mem _ hp))]
    rfl

theorem choicesInit_docs (ci : Bool) (param desc : Str) (l : List (Choice × Str)) (h : (l.map (fun p => reformat ci p.1)).Nodup) :
    (choicesInit ci param desc (.dict l)).docs = l.map (fun p => (reformat ci p.1, p.2)) := by
  have key : ∀ (l : List (Choice × Str)) (d : List (Choice × Str)), (d.map (·.1) ++ l.map (fun p => reformat ci p.1)).Nodup →
      l.foldl (fun d p => setChoice (reformat ci p.1) p.2 d) d = d ++ l.map (fun p => (reformat ci p.1, p.2)) := by
    intro l
    induction l with
    | nil => intro d _; simp
    | cons p l ih =>
      intro d hd
      rw [List.foldl_cons, setChoice_new]
      · rw [ih]
        · simp
        · simp only [List.map_append, List.map_cons, List.map_nil, List.append_assoc]
          simpa using hd
      · intro q hq he
        rw [List.nodup_append] at hd
        exact hd.2.2 q.1 (List.mem_map.2 ⟨q, hq, rfl⟩) _ (by simp) he
  have := key l [] (by simpa using h)
  simpa [choicesInit] using this

/-- **C156** (documentation): the first line has the name of the parameter and all the accepted values in the order of the declaration;
each value that is declared with a text has a line with this text, when no two values are the same choice; the description has its line. -/
theorem C156_doc_partial (rep fmt : Choice → Str) (indent : Nat) (ci : Bool) (param desc : Str) (l : List (Choice × Str))
    (h : (l.map (fun p => reformat ci p.1)).Nodup) (lines : List Str) (hl : lines = choicesDoc rep fmt indent (choicesInit ci param desc (.dict l))) :
    (∃ rest, lines = (List.replicate indent ' ' ++ param ++ ": {".toList ++
        List.intercalate ", ".toList (l.map (fun p => rep (reformat ci p.1))) ++ "}".toList) :: rest) ∧
    (∀ p ∈ l, (List.replicate (indent + 4) ' ' ++ "- ``".toList ++ fmt (reformat ci p.1) ++ "``: ".toList ++ p.2) ∈ lines) ∧
    (desc ≠ [] → (List.replicate (indent + 4) ' ' ++ desc) ∈ lines) := by
  have hp : (choicesInit ci param desc (.dict l)).param = param := rfl
  have hd : (choicesInit ci param desc (.dict l)).desc = desc := rfl
  have hv := choicesInit_vals ci param desc (.dict l)
  have hc := choicesInit_docs ci param desc l h
  have e4 : List.replicate (indent + 4) ' ' = List.replicate indent ' ' ++ List.replicate 4 ' ' := by
    rw [List.replicate_add]
  rw [hl]
  unfold choicesDoc
  simp only [hp, hd, hv, hc, ChoiceDecl.values, List.map_map]
  refine ⟨⟨_, rfl⟩, ?_, ?_⟩
  · intro p hpm
    have hne : l.map (fun p => (reformat ci p.1, p.2)) ≠ [] := by
      intro h0
      rw [List.map_eq_nil_iff] at h0
      rw [h0] at hpm
      cases hpm
    rw [if_neg hne, e4]
    refine List.mem_cons_of_mem _ (List.mem_append_right _ (List.mem_append_left _ (List.mem_append_right _ ?_)))
    exact List.mem_map.2 ⟨p, hpm, rfl⟩
  · intro hdn
    rw [if_neg hdn, e4]
    exact List.mem_cons_of_mem _ (List.mem_append_left _ (List.mem_singleton.2 rfl))

/-- **C156 is violated** (documentation): of two values that are the same choice, declared with two texts, the first text is lost. -/
theorem C156_same_violated (param desc d1 d2 : Str) (s t : Str) (h : lower s = lower t) :
    (choicesInit true param desc (.dict [(.str s, d1), (.str t, d2)])).docs = [(.str (lower t), d2)] ∧
    (choicesInit true param desc (.dict [(.str s, d1), (.str t, d2)])).vals = [.str (lower t), .str (lower t)] := by
  constructor
  · simp [choicesInit, reformat, setChoice, h]
  · simp [choicesInit, reformat, h]

theorem fmtGo_plain (name val pre s : Str) (h : '{' ∉ pre ∧ '}' ∉ pre) : fmtGo name val none (pre ++ s) = (fmtGo name val none s).map (pre ++ ·) := by
  induction pre with
  | nil =>
    rw [List.nil_append]
    cases fmtGo name val none s <;> rfl
  | cons c pre ih =>
    simp only [List.mem_cons, not_or] at h
    have e1 : ¬ c = '{' := fun e => h.1.1 e.symm
    have e2 : ¬ c = '}' := fun e => h.2.1 e.symm
    have := ih ⟨h.1.2, h.2.2⟩
    rw [List.cons_append, fmtGo, if_neg e1, if_neg e2, this]
    · cases fmtGo name val none s <;> rfl
    · rintro s' rfl; exact absurd rfl e1
    · rintro s' rfl; exact absurd rfl e2

theorem fmtGo_field (name val f p s : Str) (h : '}' ∉ p) :
    fmtGo name val (some f) (p ++ '}' :: s) = if f ++ p = name then (fmtGo name val none s).map (val ++ ·) else .error .formatError := by
  induction p generalizing f with
  | nil => rw [List.nil_append, fmtGo, if_pos rfl, List.append_nil]
  | cons c p ih =>
    simp only [List.mem_cons, not_or] at h
    rw [List.cons_append, fmtGo, if_neg (fun e => h.1 e.symm), ih _ h.2, List.append_assoc]
    rfl

theorem fmtGo_open (name val : Str) (c : Char) (s : Str) (h : c ≠ '{') :
    fmtGo name val none ('{' :: c :: s) = fmtGo name val (some []) (c :: s) := by
  rw [fmtGo, if_pos rfl]
  · intro s' _ e2
    injection e2 with e2 e3
    exact h e2
  · intro s' e1 _
    exact absurd e1 (by decide)

/-- **C156** (documentation of a function): in a text that has the name of the parameter between braces and no other brace, it is replaced by
the documentation of the choices, and the rest of the text is unchanged. -/
theorem C156_docstring_partial (rep fmt : Choice → Str) (indent : Nat) (c : ChoicesObj) (pre post : Str) (hp : c.param ≠ [])
    (hb : '{' ∉ c.param ∧ '}' ∉ c.param) (h1 : '{' ∉ pre ∧ '}' ∉ pre) (h2 : '{' ∉ post ∧ '}' ∉ post) :
    formatDocstring rep fmt indent c (some (pre ++ "{".toList ++ c.param ++ "}".toList ++ post)) =
      .ok (pre ++ (choicesDoc rep fmt indent c).flatMap (· ++ ['\n']) ++ post) := by
  have e : pre ++ "{".toList ++ c.param ++ "}".toList ++ post = pre ++ '{' :: (c.param ++ '}' :: post) := by
    have e1 : "{".toList = ['{'] := rfl
    have e2 : "}".toList = ['}'] := rfl
    rw [e1, e2]
    simp
  have epost : fmtGo c.param ((choicesDoc rep fmt indent c).flatMap (· ++ ['\n'])) none post = .ok post := by
    have := fmtGo_plain c.param ((choicesDoc rep fmt indent c).flatMap (· ++ ['\n'])) post [] h2
    rw [List.append_nil] at this
    rw [this]
    simp [fmtGo, Except.map]
  show fmtGo c.param _ none _ = _
  rw [e, fmtGo_plain _ _ _ _ h1]
  cases hc : c.param with
  | nil => exact absurd hc hp
  | cons a p =>
    rw [List.cons_append, fmtGo_open]
    · rw [← List.cons_append, fmtGo_field, List.nil_append, if_pos rfl, ← hc, epost]
      · simp [Except.map]
      · rw [← hc]; exact hb.2
    · intro ha
      apply hb.1
      rw [hc, ha]
      simp

/-- **C156 is violated** (documentation of a function): a text with another thing between braces, before the parameter, such as a set of
values, raises; so does a function without documentation. -/
theorem C156_braces_violated (rep fmt : Choice → Str) (indent : Nat) (c : ChoicesObj) (pre field post : Str) (h1 : '{' ∉ pre ∧ '}' ∉ pre)
    (h2 : '{' ∉ field ∧ '}' ∉ field) (h0 : field ≠ []) (hne : field ≠ c.param) :
    formatDocstring rep fmt indent c (some (pre ++ "{".toList ++ field ++ "}".toList ++ post)) = .error .formatError ∧
    formatDocstring rep fmt indent c none = .error .attributeError := by
  refine ⟨?_, rfl⟩
  have e : pre ++ "{".toList ++ field ++ "}".toList ++ post = pre ++ '{' :: (field ++ '}' :: post) := by
    have e1 : "{".toList = ['{'] := rfl
    have e2 : "}".toList = ['}'] := rfl
    rw [e1, e2]
    simp
  show fmtGo c.param _ none _ = _
  rw [e, fmtGo_plain _ _ _ _ h1]
  cases hc : field with
  | nil => exact absurd hc h0
  | cons a p =>
    rw [List.cons_append, fmtGo_open]
    · rw [← List.cons_append, fmtGo_field, List.nil_append, if_neg (by rw [← hc]; exact hne)]
      · rfl
      · rw [← hc]; exact h2.2
    · intro ha
      apply h2.1
      rw [hc, ha]
      simp

/-- the errors modes of xoa, xoa/misc.py:259-264 -/
def exErrors : ChoicesObj :=
  choicesInit true "errors".toList "Errors mode".toList (.dict [(.str "Ignore".toList, "silently ignore".toList), (.str "warn".toList, "emit a warning".toList)])

/-- the hypotheses are met -/
example : choicesItem exErrors (.str "WARN".toList) = .ok (.str "warn".toList) ∧ choicesItem exErrors (.str "nothing".toList) = .error .xoaError ∧
    formatDocstring (fun _ => "v".toList) (fun _ => "v".toList) 4 exErrors (some "Get.\n{errors}\nReturn".toList) =
      .ok "Get.\n    errors: {v, v}\n        Errors mode\n\n        - ``v``: silently ignore\n        - ``v``: emit a warning\n\n\nReturn".toList ∧
    choicesItem (choicesInit true [] [] (.list [.str "a".toList, .other 1])) (.str "b".toList) = .error .typeError := by
  decide +kernel

/-! ### C157: enumerations -/

theorem addGroup_keys (m : Int) (x : Str) (g : List (Int × List Str)) :
    (addGroup m x g).map (·.1) = if m ∈ g.map (·.1) then g.map (·.1) else g.map (·.1) ++ [m] := by
  induction g with
  | nil => rfl
  | cons p g ih =>
    obtain ⟨n, l⟩ := p
    rw [addGroup]
    by_cases h : n = m
    · subst h
      simp
    · rw [if_neg h, List.map_cons, ih, List.map_cons]
      by_cases hm : m ∈ g.map (·.1)
      · rw [if_pos hm, if_pos (List.mem_cons_of_mem _ hm)]
      · rw [if_neg hm, if_neg (by simp only [List.mem_cons, not_or]; exact ⟨fun e => h e.symm, hm⟩)]
        rfl

theorem addGroup_mem (m : Int) (x : Str) (g : List (Int × List Str)) (hg : (g.map (·.1)).Nodup) (n : Int) (l : List Str)
    (h : (n, l) ∈ addGroup m x g) : (n ≠ m ∧ (n, l) ∈ g) ∨ (n = m ∧ ((∃ l', (m, l') ∈ g ∧ l = l' ++ [x]) ∨ (m ∉ g.map (·.1) ∧ l = [x]))) := by
  induction g with
  | nil =>
    simp only [addGroup, List.mem_singleton, Prod.mk.injEq] at h
    exact Or.inr ⟨h.1, Or.inr ⟨by simp, h.2⟩⟩
  | cons p g ih =>
    obtain ⟨n', l'⟩ := p
    rw [List.map_cons, List.nodup_cons] at hg
    rw [addGroup] at h
    by_cases hn : n' = m
    · rw [if_pos hn] at h
      rcases List.mem_cons.1 h with h | h
      · simp only [Prod.mk.injEq] at h
        exact Or.inr ⟨h.1.trans hn, Or.inl ⟨l', by rw [hn]; exact List.mem_cons_self, h.2⟩⟩
      · left
        refine ⟨?_, List.mem_cons_of_mem _ h⟩
        rintro rfl
        apply hg.1
        rw [hn]
        exact List.mem_map.2 ⟨_, h, rfl⟩
    · rw [if_neg hn] at h
      rcases List.mem_cons.1 h with h | h
      · simp only [Prod.mk.injEq] at h
        left
        rw [h.1, h.2]
        exact ⟨hn, List.mem_cons_self⟩
      · rcases ih hg.2 h with ⟨h1, h2⟩ | ⟨h1, h2⟩
        · exact Or.inl ⟨h1, List.mem_cons_of_mem _ h2⟩
        · refine Or.inr ⟨h1, ?_⟩
          rcases h2 with ⟨l'', h3, h4⟩ | ⟨h3, h4⟩
          · exact Or.inl ⟨l'', List.mem_cons_of_mem _ h3, h4⟩
          · refine Or.inr ⟨?_, h4⟩
            rw [List.map_cons, List.mem_cons, not_or]
            exact ⟨fun e => hn e.symm, h3⟩

/-- the names of a number, in the order of the declaration -/
def namesOf (e : EnumDecl) (n : Int) : List Str := (e.filter (fun p => p.2 = n)).map (·.1)

theorem enumGroups_spec (e : EnumDecl) :
    ((enumGroups e).map (·.1)).Nodup ∧ (∀ n, n ∈ (enumGroups e).map (·.1) ↔ n ∈ e.map (·.2)) ∧ ∀ n l, (n, l) ∈ enumGroups e → l = namesOf e n := by
  induction e using List.reverseRecOn with
  | nil => simp [enumGroups]
  | append_singleton e p ih =>
    obtain ⟨i1, i2, i3⟩ := ih
    have he : enumGroups (e ++ [p]) = addGroup p.2 p.1 (enumGroups e) := by simp [enumGroups]
    have hn : ∀ n, namesOf (e ++ [p]) n = namesOf e n ++ if p.2 = n then [p.1] else [] := by
      intro n
      unfold namesOf
      rw [List.filter_append, List.map_append]
      by_cases h : p.2 = n <;> simp [h]
    rw [he, addGroup_keys]
    refine ⟨?_, ?_, ?_⟩
    · split
      · exact i1
      · rename_i hm
        rw [List.nodup_append]
        refine ⟨i1, by simp, ?_⟩
        intro a ha b hb
        rw [List.mem_singleton] at hb
        rintro rfl
        exact hm (hb ▸ ha)
    · intro n
      rw [List.map_append, List.mem_append, ← i2]
      split
      · rename_i hm
        constructor
        · exact Or.inl
        · rintro (h | h)
          · exact h
          · simp only [List.map_cons, List.map_nil, List.mem_singleton] at h
            rw [h]; exact hm
      · simp
    · intro n l hl
      rw [hn]
      rcases addGroup_mem _ _ _ i1 _ _ hl with ⟨h1, h2⟩ | ⟨h1, h2⟩
      · rw [if_neg (fun e => h1 e.symm), List.append_nil]
        exact i3 _ _ h2
      · rw [if_pos h1.symm, h1]
        rcases h2 with ⟨l', h3, h4⟩ | ⟨h3, h4⟩
        · rw [h4, i3 _ _ h3]
        · have : namesOf e p.2 = [] := by
            unfold namesOf
            rw [List.map_eq_nil_iff, List.filter_eq_nil_iff]
            intro q hq hh
            apply h3
            rw [i2]
            exact List.mem_map.2 ⟨q, hq, by simpa using hh⟩
          rw [h4, this]
          rfl

/-- how an alternative of an enumeration is written: the number, then the names of this number between quotes, separated by a bar -/
def altText (dec : Int → Str) (e : EnumDecl) (n : Int) : Str :=
  List.intercalate ['|'] (dec n :: (namesOf e n).map (fun s => '"' :: s ++ ['"']))

/-- **C157** (text of an enumeration): the text is the list of the alternatives of all the declared numbers, each of them once, with all its names. -/
theorem C157_text (dec : Int → Str) (e : EnumDecl) :
    ∃ ns : List Int, ns.Nodup ∧ (∀ n, n ∈ ns ↔ n ∈ e.map (·.2)) ∧ enumStr dec e = List.intercalate ", ".toList (ns.map (altText dec e)) := by
  obtain ⟨h1, h2, h3⟩ := enumGroups_spec e
  refine ⟨(enumGroups e).map (·.1), h1, h2, ?_⟩
  unfold enumStr enumChoices
  rw [List.map_map]
  congr 1
  apply List.map_congr_left
  rintro ⟨n, l⟩ hm
  simp only [Function.comp, altText]
  rw [h3 n l hm]
  simp

/-- **C157** (the names are accepted): the names that the text gives for a number are exactly those that the look-up converts to this number. -/
theorem C157_accepted (e : EnumDecl) (hnd : (e.map (·.1)).Nodup) (s : Str) (n : Int) : s ∈ namesOf e n ↔ enumGet e (.str s) = some n := by
  rw [(C55_enum_lookup e hnd).1 s n]
  unfold namesOf
  rw [List.mem_map]
  constructor
  · rintro ⟨⟨a, b⟩, h, rfl⟩
    rw [List.mem_filter] at h
    have : b = n := by simpa using h.2
    rw [← this]; exact h.1
  · intro h
    exact ⟨(s, n), List.mem_filter.2 ⟨h, by simp⟩, rfl⟩

/-- **C157** (rst): without links, the same alternatives between double back quotes; with links, each alternative links to its first declared
name in the class. -/
theorem C157_rst (dec : Int → Str) (cls link : Str) (e : EnumDecl) :
    ∃ ns : List Int, ns.Nodup ∧ (∀ n, n ∈ ns ↔ n ∈ e.map (·.2)) ∧
      enumRst dec cls false link e = List.intercalate ", ".toList (ns.map fun n => "``".toList ++ altText dec e n ++ "``".toList) ∧
      ∃ target : Int → Str, (∀ n ∈ ns, (target n, n) ∈ e ∧ ∃ i : Nat, e[i]? = some (target n, n) ∧ ∀ j < i, ∀ s, e[j]? ≠ some (s, n)) ∧
        enumRst dec cls true link e = List.intercalate ", ".toList (ns.map fun n => ":attr:`".toList ++ altText dec e n ++ "<".toList ++
          ((if link = [] then [] else link ++ ".".toList) ++ cls ++ ".".toList) ++ target n ++ ">`".toList) := by
  obtain ⟨h1, h2, h3⟩ := enumGroups_spec e
  refine ⟨(enumGroups e).map (·.1), h1, h2, ?_, fun n => (namesOf e n).headD [], ?_, ?_⟩
  · unfold enumRst enumChoices
    rw [if_neg (by decide), List.map_map]
    congr 1
    apply List.map_congr_left
    rintro ⟨n, l⟩ hm
    simp only [Function.comp, altText]
    rw [h3 n l hm]
  · intro n hn
    rw [h2] at hn
    have key : ∀ e : EnumDecl, n ∈ e.map (·.2) → ∃ i : Nat, e[i]? = some ((namesOf e n).headD [], n) ∧ ∀ j < i, ∀ s, e[j]? ≠ some (s, n) := by
      intro e
      induction e with
      | nil => intro h; cases h
      | cons p e ih =>
        intro h
        obtain ⟨a, b⟩ := p
        by_cases hb : b = n
        · refine ⟨0, ?_, by intro j hj; omega⟩
          simp [namesOf, hb]
        · have : n ∈ e.map (·.2) := by
            rcases List.mem_cons.1 h with h | h
            · exact absurd h.symm hb
            · exact h
          obtain ⟨i, hi, hj⟩ := ih this
          refine ⟨i + 1, ?_, ?_⟩
          · have : namesOf ((a, b) :: e) n = namesOf e n := by simp [namesOf, hb]
            rw [this, List.getElem?_cons_succ]
            exact hi
          · intro j hj' s
            cases j with
            | zero =>
              rw [List.getElem?_cons_zero]
              intro h
              simp only [Option.some.injEq, Prod.mk.injEq] at h
              exact hb h.2
            | succ j =>
              rw [List.getElem?_cons_succ]
              exact hj j (by omega) s
    obtain ⟨i, hi, hj⟩ := key e hn
    exact ⟨List.mem_of_getElem? hi, i, hi, hj⟩
  · unfold enumRst
    rw [if_pos rfl, List.map_map]
    simp only
    congr 1
    apply List.map_congr_left
    rintro ⟨n, l⟩ hm
    simp only [Function.comp, altText]
    rw [h3 n l hm]

/-- a case: the methods of regrid1d, xoa/regrid.py:36-58 (the first ones) -/
example : enumStr (fun n => (toString n).toList) [("linear".toList, 1), ("interp".toList, 1), ("nearest".toList, 0)] =
    "1|\"linear\"|\"interp\", 0|\"nearest\"".toList := by decide +kernel

end Xoa
