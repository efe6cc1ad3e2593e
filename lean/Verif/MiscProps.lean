import Verif.Misc
import Mathlib.Data.List.Basic
import Mathlib.Data.List.Nodup
import Mathlib.Data.List.Dedup
import Mathlib.Tactic.SplitIfs

/-!
# Properties C49–C55 and C62 (`xoa/misc.py`)
-/

namespace Xoa

/-! ## C52 gunique -/

theorem guniqueAux_mem {α : Type} [DecidableEq α] (l : List α) : ∀ (seen : List α) (x : α),
    x ∈ guniqueAux seen l ↔ x ∈ l ∧ x ∉ seen := by
  induction l with
  | nil => intro seen x; simp [guniqueAux]
  | cons a l ih =>
    intro seen x
    simp only [guniqueAux]
    split
    · next h =>
      rw [ih]
      constructor
      · rintro ⟨h1, h2⟩; exact ⟨List.mem_cons_of_mem _ h1, h2⟩
      · rintro ⟨h1, h2⟩
        rcases List.mem_cons.1 h1 with e | h1
        · subst e; exact absurd h h2
        · exact ⟨h1, h2⟩
    · next h =>
      rw [List.mem_cons, ih]
      by_cases hx : x = a
      · subst hx; simp [h]
      · simp [hx]

theorem guniqueAux_nodup {α : Type} [DecidableEq α] (l : List α) : ∀ (seen : List α),
    (guniqueAux seen l).Nodup := by
  induction l with
  | nil => intro seen; simp [guniqueAux]
  | cons a l ih =>
    intro seen
    simp only [guniqueAux]
    split
    · exact ih _
    · rw [List.nodup_cons, guniqueAux_mem]
      exact ⟨fun h => h.2 (by simp), ih _⟩

theorem guniqueAux_order {α : Type} [DecidableEq α] (l : List α) : ∀ (seen : List α),
    (guniqueAux seen l).Pairwise (fun a b => l.idxOf a < l.idxOf b) := by
  induction l with
  | nil => intro seen; simp [guniqueAux]
  | cons a l ih =>
    intro seen
    have lift : ∀ s : List α, (∀ x ∈ guniqueAux s l, x ≠ a) →
        (guniqueAux s l).Pairwise (fun x y => (a :: l).idxOf x < (a :: l).idxOf y) := by
      intro s hs
      refine List.Pairwise.imp_of_mem ?_ (ih s)
      intro x y hx hy hxy
      rw [List.idxOf_cons_ne l (Ne.symm (hs x hx)), List.idxOf_cons_ne l (Ne.symm (hs y hy))]
      omega
    simp only [guniqueAux]
    split
    · next h =>
      apply lift
      intro x hx e
      rw [guniqueAux_mem] at hx
      subst e; exact hx.2 h
    · have hne : ∀ x ∈ guniqueAux (seen ++ [a]) l, x ≠ a := by
        intro x hx e
        rw [guniqueAux_mem] at hx
        subst e; exact hx.2 (by simp)
      rw [List.pairwise_cons]
      refine ⟨?_, lift _ hne⟩
      intro x hx
      rw [List.idxOf_cons_self, List.idxOf_cons_ne l (Ne.symm (hne x hx))]
      omega

/-- **C52**: `gunique` yields exactly the elements of the sequence, each once, by increasing
position of first occurrence. -/
theorem C52_gunique {α : Type} [DecidableEq α] (l : List α) :
    (∀ x, x ∈ gunique l ↔ x ∈ l) ∧ (gunique l).Nodup ∧
    (gunique l).Pairwise (fun a b => l.idxOf a < l.idxOf b) := by
  refine ⟨?_, guniqueAux_nodup l [], guniqueAux_order l []⟩
  intro x; unfold gunique; rw [guniqueAux_mem]; simp

/-- the three facts of `C52_gunique` determine the result -/
theorem C52_gunique_unique {α : Type} [DecidableEq α] (l r : List α)
    (h1 : ∀ x, x ∈ r ↔ x ∈ l) (h3 : r.Pairwise (fun a b => l.idxOf a < l.idxOf b)) : r = gunique l := by
  obtain ⟨g1, g2, g3⟩ := C52_gunique l
  have hnd : r.Nodup := h3.imp (fun {a b} h e => by subst e; omega)
  have hp : r.Perm (gunique l) := (List.perm_ext_iff_of_nodup hnd g2).2 (fun x => by rw [h1, g1])
  refine List.Perm.eq_of_pairwise (le := fun a b => l.idxOf a < l.idxOf b) ?_ h3 g3 hp
  intro a b _ _ h h'; omega

/-- a sequence without repetition is left unchanged -/
theorem C52_gunique_nodup {α : Type} [DecidableEq α] (l : List α) (h : l.Nodup) : gunique l = l := by
  symm
  apply C52_gunique_unique
  · intro x; rfl
  · rw [List.pairwise_iff_getElem]
    intro i j hi hj hij
    rw [h.idxOf_getElem i hi, h.idxOf_getElem j hj]
    exact hij

/-- **C52**: idempotence -/
theorem C52_gunique_idem {α : Type} [DecidableEq α] (l : List α) : gunique (gunique l) = gunique l :=
  C52_gunique_nodup _ (C52_gunique l).2.1

example : gunique [1, 6, 1, 8, 6] = [1, 6, 8] := by decide

/-! ## C53 ArgList / ArgTuple -/

/-- **C53**: `put(get())` is the original argument. -/
theorem C53_put_get {α : Type} (a : Arg α) : argPut a (.many (argGet a)) = some a := by
  cases a <;> rfl

/-- **C53**: `put([f(x) for x in get()])` keeps the kind of container: a scalar gives the
scalar `f(a)`, a list the list of the `f(x)`. -/
theorem C53_put_map {α β : Type} (f : α → β) (a : Arg α) :
    argPut a (.many ((argGet a).map f)) = some (match a with
      | .single x => .single (f x)
      | .many l => .many (l.map f)) := by
  cases a <;> rfl

/-- **C53**: what `put` returns: for a scalar argument the first item that is put, for a list all of them. -/
theorem C53_put_value {α β : Type} (a : Arg α) (o : Arg β) (r : Arg β) (h : argPut a o = some r) :
    (∀ x, a = .single x → ∃ y, r = .single y ∧ (argGet o).head? = some y) ∧ (∀ l, a = .many l → r = .many (argGet o)) := by
  cases a with
  | single x =>
    refine ⟨fun x' _ => ?_, fun l e => absurd e (by simp)⟩
    cases o with
    | single y => simp only [argPut, Option.some.injEq] at h; exact ⟨y, h.symm, rfl⟩
    | many l =>
      cases l with
      | nil => simp [argPut] at h
      | cons y l => simp only [argPut, Option.some.injEq] at h; exact ⟨y, h.symm, rfl⟩
  | many l =>
    refine ⟨fun x e => absurd e (by simp), fun l' _ => ?_⟩
    cases o with
    | single y => simp only [argPut, Option.some.injEq] at h; exact h.symm
    | many l => simp only [argPut, Option.some.injEq] at h; exact h.symm

/-- **C53**: the kind of what `put` returns is the kind of the original argument, whatever
is put; it fails exactly for a scalar argument and an empty list. -/
theorem C53_put_kind {α β : Type} (a : Arg α) (o : Arg β) :
    (argPut a o = none ↔ (∃ x, a = .single x) ∧ o = .many []) ∧
    ∀ r, argPut a o = some r → ((∃ x, a = .single x) ↔ ∃ y, r = .single y) := by
  cases a with
  | single x =>
    cases o with
    | single b => simp [argPut]
    | many l => cases l with
      | nil => simp [argPut]
      | cons b l => simp [argPut]
  | many l =>
    cases o with
    | single b => simp [argPut]
    | many l => simp [argPut]

example : argPut (Arg.single 3) (.many [4, 5]) = some (.single 4) := rfl

/-! ## C55 Choices and enumerations -/

theorem reformat_idem (ci : Bool) (c : Choice) : reformat ci (reformat ci c) = reformat ci c := by
  cases c with
  | str s => cases ci <;> simp [reformat]
  | other n => rfl

/-- **C55** (Choices): a value is accepted exactly when it is, up to case if the choices are
case insensitive, one of the declared choices; it is normalised to that declared choice's
canonical spelling. -/
theorem C55_choices (ci : Bool) (choices : List Choice) (c : Choice) :
    (∀ r, choicesGet ci choices c = some r ↔ r = reformat ci c ∧ ∃ d ∈ choices, reformat ci d = reformat ci c) ∧
    (choicesGet ci choices c = none ↔ ∀ d ∈ choices, reformat ci d ≠ reformat ci c) := by
  unfold choicesGet mkChoices
  simp only [List.mem_map]
  constructor
  · intro r
    split
    · next h => simp only [Option.some.injEq]; constructor
                · intro e; exact ⟨e.symm, h⟩
                · intro e; exact e.1.symm
    · next h => simp only [reduceCtorEq, false_iff]; rintro ⟨_, h2⟩; exact h h2
  · split
    · next h => simp only [reduceCtorEq, false_iff]; intro h2; obtain ⟨d, hd, e⟩ := h; exact h2 d hd e
    · next h => simp only [true_iff]; intro d hd e; exact h ⟨d, hd, e⟩

/-- **C55** (Choices): normalising twice is normalising once. -/
theorem C55_choices_idem (ci : Bool) (choices : List Choice) (c r : Choice)
    (h : choicesGet ci choices c = some r) : choicesGet ci choices r = some r := by
  have h1 := ((C55_choices ci choices c).1 r).1 h
  rw [(C55_choices ci choices r).1 r]
  obtain ⟨e, d, hd, e2⟩ := h1
  subst e
  exact ⟨(reformat_idem ci c).symm, d, hd, by rw [reformat_idem, e2]⟩

/-- **C55** (Choices, case sensitive): the accepted values are the declared ones, unchanged. -/
theorem C55_choices_sensitive (choices : List Choice) (c r : Choice) : choicesGet false choices c = some r ↔ r = c ∧ c ∈ choices := by
  have e : ∀ d : Choice, reformat false d = d := fun d => by cases d <;> rfl
  rw [(C55_choices false choices c).1 r, e c]
  constructor
  · rintro ⟨h1, d, h2, h3⟩
    rw [e d] at h3
    exact ⟨h1, h3 ▸ h2⟩
  · rintro ⟨h1, h2⟩
    exact ⟨h1, c, h2, e c⟩

/-- **C55** (Choices, case insensitive): the accepted texts are those that are one of the declared ones up to case, and are put in lower case; other values are accepted when they
are declared, unchanged. -/
theorem C55_choices_insensitive (choices : List Choice) :
    (∀ (s : Str) (r : Choice), choicesGet true choices (.str s) = some r ↔ r = .str (lower s) ∧ ∃ t, Choice.str t ∈ choices ∧ lower t = lower s) ∧
    (∀ (n : Int) (r : Choice), choicesGet true choices (.other n) = some r ↔ r = .other n ∧ Choice.other n ∈ choices) := by
  constructor
  · intro s r
    rw [(C55_choices true choices (.str s)).1 r]
    refine and_congr Iff.rfl ?_
    constructor
    · rintro ⟨d, h1, h2⟩
      cases d with
      | str t => exact ⟨t, h1, Choice.str.inj h2⟩
      | other n => cases h2
    · rintro ⟨t, h1, h2⟩
      exact ⟨.str t, h1, congrArg Choice.str h2⟩
  · intro n r
    rw [(C55_choices true choices (.other n)).1 r]
    refine and_congr Iff.rfl ?_
    constructor
    · rintro ⟨d, h1, h2⟩
      cases d with
      | str t => cases h2
      | other m => cases Choice.other.inj h2; exact h1
    · intro h
      exact ⟨.other n, h, rfl⟩

example : choicesGet true [.str "ignore".toList, .str "Warn".toList] (.str "WARN".toList) =
    some (.str "warn".toList) := by decide
example : choicesGet false [.str "ignore".toList] (.str "Ignore".toList) = none := by decide

/-- **C55** (enumerations): names, aliases, numbers and `None` are looked up as declared;
anything else is refused. `cls[...]` and `cls(...)` agree on numbers and `None`. -/
theorem C55_enum_lookup (e : EnumDecl) (hnd : (e.map (·.1)).Nodup) :
    (∀ s n, enumGet e (.str s) = some n ↔ (s, n) ∈ e) ∧
    (∀ n m, enumGet e (.num n) = some m ↔ m = n ∧ ∃ s, (s, n) ∈ e) ∧
    (∀ n, enumGet e (.num n) = enumCall e (.num n)) ∧
    (∀ s n rest, e = (s, n) :: rest → enumGet e .none = some n ∧ enumCall e .none = some n) := by
  refine ⟨?_, ?_, fun n => rfl, ?_⟩
  · intro s n
    simp only [enumGet]
    induction e with
    | nil => simp [lookupS]
    | cons p e ih =>
      obtain ⟨k, v⟩ := p
      simp only [List.map_cons, List.nodup_cons, List.mem_map, not_exists, not_and] at hnd
      simp only [lookupS, List.mem_cons, Prod.mk.injEq]
      split
      · next h =>
        subst h
        constructor
        · intro h; left; exact ⟨rfl, (Option.some.inj h).symm⟩
        · rintro (⟨_, h⟩ | h)
          · rw [h]
          · exact absurd rfl (hnd.1 (s, n) h)
      · next h =>
        rw [ih hnd.2]
        simp [h]
  · intro n m
    simp only [enumGet, enumCall, List.mem_map]
    split
    · next h =>
      obtain ⟨p, hp, rfl⟩ := h
      simp only [Option.some.injEq]
      constructor
      · intro h; exact ⟨h.symm, p.1, hp⟩
      · intro h; exact h.1.symm
    · next h =>
      simp only [reduceCtorEq, false_iff]
      rintro ⟨_, s, hs⟩
      exact h ⟨(s, n), hs, rfl⟩
  · intro s n rest he; subst he; exact ⟨rfl, rfl⟩

/-- **C97** (enumerations): for names, membership agrees with lookup. -/
theorem C97_enum_contains_partial (e : EnumDecl) (s : Str) :
    enumContains e (.str s) = some true ↔ (enumGet e (.str s)).isSome := by
  simp only [enumContains, enumGet, Option.some.injEq, decide_eq_true_eq]
  induction e with
  | nil => simp [lookupS]
  | cons p e ih =>
    obtain ⟨k, v⟩ := p
    simp only [List.map_cons, List.mem_cons, lookupS]
    split
    · next h => simp [h]
    · next h => simp [h, ih]

/-- **C97 is violated** for numbers: membership of the number 0, which is the value of a
declared member (`nearest = 0` in `regrid1d_methods`), is answered `False`, and membership
of an undeclared number (or of `None`) raises instead of answering `False`. -/
theorem C97_enum_contains_violated :
    ∃ e : EnumDecl, (e.map (·.1)).Nodup ∧
      enumGet e (.num 0) = some 0 ∧ enumContains e (.num 0) = some false ∧
      enumGet e (.num 7) = none ∧ enumContains e (.num 7) = none ∧
      enumGet e .none = some 1 ∧ enumContains e .none = none :=
  ⟨[("linear".toList, 1), ("nearest".toList, 0), ("cellave".toList, -1)], by decide, by decide, by decide, by decide,
    by decide, by decide, by decide⟩

/-! ## C62 match_string, match_attrs -/

/-- Specification: the check accepts the normalised string. -/
def checkAccepts (ignorecase : Bool) (s : Str) : Check → Prop
  | .str c => norm ignorecase c = s
  | .fn f => f s = true
  | .none => False

theorem checkLoop_spec (ic : Bool) (s : Str) : ∀ (l : List Check) (sss : List Str),
    ((checkLoop none s l sss).1 = true ∨ s ∈ (checkLoop none s l sss).2.map (norm ic)) ↔
      s ∈ sss.map (norm ic) ∨ ∃ c ∈ l, checkAccepts ic s c := by
  intro l
  induction l with
  | nil => intro sss; simp [checkLoop]
  | cons c l ih =>
    intro sss
    cases c with
    | str t =>
      simp only [checkLoop]
      rw [ih]
      simp only [List.map_append, List.map_cons, List.map_nil, List.mem_append, List.mem_cons, List.not_mem_nil, or_false,
        exists_eq_or_imp, checkAccepts]
      rw [or_assoc]
      constructor
      · rintro (h | h | h)
        · exact Or.inl h
        · exact Or.inr (Or.inl h.symm)
        · exact Or.inr (Or.inr h)
      · rintro (h | h | h)
        · exact Or.inl h
        · exact Or.inr (Or.inl h.symm)
        · exact Or.inr (Or.inr h)
    | fn f =>
      simp only [checkLoop]
      split
      · next h => simp [checkAccepts, h]
      · next h =>
        rw [ih]
        simp [checkAccepts, h]
    | none =>
      simp only [checkLoop]
      rw [ih]
      simp [checkAccepts]

/-- **C62**: a non-empty string matches exactly when one of the checks accepts it, blanks
around and (if asked) case being ignored. -/
theorem C62_match_string (ic : Bool) (ss : Str) (checks : List Check) :
    matchString ic none ss checks = true ↔ ss ≠ [] ∧ ∃ c ∈ checks, checkAccepts ic (norm ic ss) c := by
  unfold matchString
  split
  · next h =>
    rcases h with h | h <;> simp [h]
  · next h =>
    push Not at h
    simp only [Bool.or_eq_true, decide_eq_true_eq]
    rw [checkLoop_spec]
    simp only [List.map_nil, List.not_mem_nil, false_or, List.mem_filter]
    constructor
    · rintro ⟨c, ⟨hc, _⟩, ha⟩
      exact ⟨h.1, c, hc, ha⟩
    · rintro ⟨_, c, hc, ha⟩
      refine ⟨c, ⟨hc, ?_⟩, ha⟩
      cases c <;> simp_all [checkAccepts]

/-- **C62**: the order (and repetition) of the candidates is irrelevant. -/
theorem C62_match_string_order (ic : Bool) (ss : Str) (c c' : List Check) (h : ∀ x, x ∈ c ↔ x ∈ c') :
    matchString ic none ss c = matchString ic none ss c' := by
  rw [Bool.eq_iff_iff, C62_match_string, C62_match_string]
  simp only [h]

/-- **C62**: with `ignorecase`, changing the case of the string changes nothing for string
candidates and callables receive the lower case string. -/
theorem C62_match_string_case (ss ss' : Str) (checks : List Check) (h : lower ss = lower ss') :
    matchString true none ss checks = matchString true none ss' checks := by
  rw [Bool.eq_iff_iff, C62_match_string, C62_match_string]
  have hs : lower (strip ss) = lower (strip ss') := by rw [← strip_lower, h, strip_lower]
  have : ss ≠ [] ↔ ss' ≠ [] := by
    rw [not_iff_not, ← lower_eq_nil, h, lower_eq_nil]
  simp only [norm, if_true, hs, this]

/-- **C62**: `match_attrs` is true when one of the checked attributes exists and matches. -/
theorem C62_match_attrs (ic : Bool) (attrs : List (Str × Str)) (checks : List (Str × List Check)) :
    matchAttrs ic attrs checks = true ↔
      ∃ c ∈ checks, ∃ v, lookupS c.1 attrs = some v ∧ v ≠ [] ∧ ∃ x ∈ c.2, checkAccepts ic (norm ic v) x := by
  unfold matchAttrs
  rw [List.any_eq_true]
  constructor
  · rintro ⟨c, hc, h⟩
    cases hl : lookupS c.1 attrs with
    | none => rw [hl] at h; simp at h
    | some v =>
      rw [hl] at h
      simp only [C62_match_string] at h
      exact ⟨c, hc, v, hl, h⟩
  · rintro ⟨c, hc, v, hl, h⟩
    refine ⟨c, hc, ?_⟩
    rw [hl]
    simp only [C62_match_string]
    exact h

example : matchString true none " SST ".toList [.none, .str "temp".toList, .str "sst".toList] = true := by decide
example : matchString false none "SST".toList [.str "sst".toList] = false := by decide

end Xoa
