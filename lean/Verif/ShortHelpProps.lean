import Verif.ShortHelp
import Verif.CfgHelpProps

/-!
# C211: reduced helps of the command line
-/

namespace Xoa

/-- the option is described in the help, with its own help -/
def Described (h : List HPiece) (a : HAct) : Prop := ∃ t d acts, HPiece.sect t d acts ∈ h ∧ a ∈ acts

/-- the option is on the usage line of the help -/
def InUsage (h : List HPiece) (a : HAct) : Prop := ∃ u acts, HPiece.usage u acts ∈ h ∧ a ∈ acts

theorem described_iff (c : Compressed) (p : HParser) (a : HAct) :
    Described (printShortHelp c p) a ↔ ∃ g ∈ p.groups, (g.title = "positional arguments".toList ∨ g.title = "optional arguments".toList) ∧ a ∈ g.acts := by
  unfold Described printShortHelp
  constructor
  · rintro ⟨t, d, acts, hm, ha⟩
    rw [List.mem_append, List.mem_append, List.mem_map] at hm
    rcases hm with (hm | ⟨g, hg, e⟩) | hm
    · simp at hm
    · rw [List.mem_filter] at hg
      injection e with e1 e2 e3
      refine ⟨g, hg.1, ?_, e3 ▸ ha⟩
      have := of_decide_eq_true hg.2
      simpa using this
    · simp at hm
  · rintro ⟨g, hg, ht, ha⟩
    refine ⟨g.title, g.desc, g.acts, ?_, ha⟩
    rw [List.mem_append, List.mem_append, List.mem_map]
    refine Or.inl (Or.inr ⟨g, List.mem_filter.2 ⟨hg, ?_⟩, rfl⟩)
    rw [decide_eq_true_eq]
    simpa using ht

theorem inUsage_iff (c : Compressed) (p : HParser) (a : HAct) : InUsage (printShortHelp c p) a ↔ a ∈ usageActs c p.acts := by
  unfold InUsage printShortHelp
  constructor
  · rintro ⟨u, acts, hm, ha⟩
    rw [List.mem_append, List.mem_append, List.mem_map] at hm
    rcases hm with (hm | ⟨g, _, e⟩) | hm
    · rw [List.mem_cons] at hm
      rcases hm with e | hm
      · injection e with e1 e2
        rwa [← e2]
      · simp at hm
    · cases e
    · simp at hm
  · intro ha
    exact ⟨p.usage, _, by simp, ha⟩

/-- **C211** (described options, Python up to 3.9): both reduced helps describe the help options, the extra option and the option of the configuration file, and
none of the configuration options, when no section of the configuration is titled as a group of `argparse`. -/
theorem C211_described_partial (extra : Option HAct) (cfgfileopt : Str) (groups : List HGroup)
    (hg : ∀ g ∈ groups, g.title ≠ "positional arguments".toList ∧ g.title ≠ "optional arguments".toList) (a : HAct) :
    let p := argParser "optional arguments".toList extra cfgfileopt groups
    (Described (reducedHelp p) a ↔ a ∈ helpActs extra cfgfileopt) ∧ (Described (veryReducedHelp p) a ↔ a ∈ helpActs extra cfgfileopt) := by
  intro p
  have key : (∃ g ∈ p.groups, (g.title = "positional arguments".toList ∨ g.title = "optional arguments".toList) ∧ a ∈ g.acts) ↔ a ∈ helpActs extra cfgfileopt := by
    constructor
    · rintro ⟨g, hgm, ht, ha⟩
      rcases List.mem_append.1 hgm with h | h
      · rcases List.mem_cons.1 h with h | h
        · subst h; exact (List.mem_filter.1 ha).1
        · rw [List.mem_singleton] at h
          subst h; exact (List.mem_filter.1 ha).1
      · have := hg g h
        rcases ht with ht | ht
        · exact absurd ht this.1
        · exact absurd ht this.2
    · intro ha
      by_cases hn : a.names.isEmpty = true
      · exact ⟨_, List.mem_append_left _ List.mem_cons_self, Or.inl rfl, List.mem_filter.2 ⟨ha, hn⟩⟩
      · refine ⟨_, List.mem_append_left _ (List.mem_cons_of_mem _ List.mem_cons_self), Or.inr rfl, List.mem_filter.2 ⟨ha, ?_⟩⟩
        rw [Bool.not_eq_true] at hn
        rw [hn]; rfl
  exact ⟨(described_iff _ p a).trans key, (described_iff _ p a).trans key⟩

/-- **C211** (usage of `-h`): the usage line has all the options, those of the configuration included, in the order of their declarations. -/
theorem C211_usage (optTitle : Str) (extra : Option HAct) (cfgfileopt : Str) (groups : List HGroup) :
    (reducedHelp (argParser optTitle extra cfgfileopt groups)).head? = some (.usage none (helpActs extra cfgfileopt ++ groups.flatMap (·.acts))) := rfl

/-- **C211** (usage of `--short-help`): the usage line ends with `other-options`; besides it has the positional arguments, the help options, the option of the
configuration file under its default name, and no configuration option of another name. -/
theorem C211_short_usage_partial (optTitle : Str) (extra : Option HAct) (groups : List HGroup) (a : HAct)
    (hg : ∀ g ∈ groups, ∀ b ∈ g.acts, b.names ≠ [] ∧ ∀ n ∈ b.names, n ∉ ["-h".toList, "-help".toList, "--long-help".toList, "--short-help".toList, "--cfgfile".toList])
    (hx : ∀ b ∈ extra, b.names = [] ∨ ∀ n ∈ b.names, n ∉ ["-h".toList, "-help".toList, "--long-help".toList, "--short-help".toList, "--cfgfile".toList]) :
    InUsage (veryReducedHelp (argParser optTitle extra "--cfgfile".toList groups)) a ↔
      a = otherOptions ∨ a ∈ helpActs none "--cfgfile".toList ∨ (extra = some a ∧ a.names = []) := by
  unfold veryReducedHelp
  rw [inUsage_iff]
  show a ∈ (helpActs extra "--cfgfile".toList ++ groups.flatMap (·.acts)).filter (keptAct _) ++ [otherOptions] ↔ _
  rw [List.mem_append, List.mem_singleton, List.mem_filter, List.mem_append, List.mem_flatMap]
  have hk : ∀ b : HAct, keptAct ["-h".toList, "-help".toList, "--long-help".toList, "--short-help".toList, "--cfgfile".toList] b = true ↔
      b.names = [] ∨ ∃ n ∈ b.names, n ∈ ["-h".toList, "-help".toList, "--long-help".toList, "--short-help".toList, "--cfgfile".toList] := by
    intro b
    unfold keptAct
    rw [Bool.or_eq_true, List.isEmpty_iff, List.any_eq_true]
    simp only [decide_eq_true_eq]
  have hself : ∀ b ∈ helpActs none "--cfgfile".toList, keptAct ["-h".toList, "-help".toList, "--long-help".toList, "--short-help".toList, "--cfgfile".toList] b = true := by
    decide
  have hmem : ∀ b, b ∈ helpActs extra "--cfgfile".toList ↔ b ∈ helpActs none "--cfgfile".toList ∨ extra = some b := by
    intro b
    unfold helpActs
    rw [List.mem_append, List.mem_append, List.mem_append, List.mem_append, Option.mem_toList]
    simp only [Option.toList_none, List.not_mem_nil, or_false]
    tauto
  constructor
  · rintro (⟨h, hkept⟩ | h)
    · rcases h with h | ⟨g, hgm, ha⟩
      · rcases (hmem a).1 h with h | h
        · exact Or.inr (Or.inl h)
        · refine Or.inr (Or.inr ⟨h, ?_⟩)
          rcases hx a (by rw [h]; rfl) with h1 | h1
          · exact h1
          · rcases (hk a).1 hkept with h2 | ⟨n, hn, hn2⟩
            · exact h2
            · exact absurd hn2 (h1 n hn)
      · obtain ⟨h1, h2⟩ := hg g hgm a ha
        rcases (hk a).1 hkept with h3 | ⟨n, hn, hn2⟩
        · exact absurd h3 h1
        · exact absurd hn2 (h2 n hn)
    · exact Or.inl h
  · rintro (h | h | ⟨h1, h2⟩)
    · exact Or.inr h
    · exact Or.inl ⟨Or.inl ((hmem a).2 (Or.inl h)), hself a h⟩
    · exact Or.inl ⟨Or.inl ((hmem a).2 (Or.inr h1)), (hk a).2 (Or.inl h2)⟩

/-- **C211 is violated** (Python from 3.10): with another title of the group of the options, the reduced helps describe no option at all, not even `-h`. -/
theorem C211_title_violated (optTitle : Str) (ht : optTitle ≠ "optional arguments".toList ∧ optTitle ≠ "positional arguments".toList) (extra : Option HAct) (cfgfileopt : Str)
    (groups : List HGroup) (hg : ∀ g ∈ groups, g.title ≠ "positional arguments".toList ∧ g.title ≠ "optional arguments".toList) (a : HAct) (ha : a.names ≠ []) :
    ¬ Described (reducedHelp (argParser optTitle extra cfgfileopt groups)) a ∧ ¬ Described (veryReducedHelp (argParser optTitle extra cfgfileopt groups)) a := by
  have key : ¬ ∃ g ∈ (argParser optTitle extra cfgfileopt groups).groups, (g.title = "positional arguments".toList ∨ g.title = "optional arguments".toList) ∧ a ∈ g.acts := by
    rintro ⟨g, hgm, hgt, ham⟩
    rcases List.mem_append.1 hgm with h | h
    · rcases List.mem_cons.1 h with h | h
      · subst h
        have := (List.mem_filter.1 ham).2
        rw [List.isEmpty_iff] at this
        exact ha this
      · rw [List.mem_singleton] at h
        subst h
        rcases hgt with h | h
        · exact ht.2 h
        · exact ht.1 h
    · have := hg g h
      rcases hgt with h | h
      · exact this.1 h
      · exact this.2 h
  exact ⟨fun h => key ((described_iff _ _ a).1 h), fun h => key ((described_iff _ _ a).1 h)⟩

/-- **C211 is violated** (other name of the option of the configuration file): `cfgfileopt="config"` declares `--config`, which is not on the usage line of
`--short-help`. -/
theorem C211_cfgfile_violated (optTitle : Str) (groups : List HGroup) : ∃ a ∈ helpActs none "config".toList, a.names = ["--config".toList] ∧
    (InUsage (veryReducedHelp (argParser optTitle none "config".toList groups)) a → False) := by
  refine ⟨⟨["--config".toList], "user configuration file that overrides defauts [default: \"{default}\"]".toList⟩, by decide, rfl, ?_⟩
  unfold veryReducedHelp
  rw [inUsage_iff]
  show (_ ∈ (helpActs none "config".toList ++ groups.flatMap (·.acts)).filter (keptAct _) ++ [otherOptions]) → False
  rw [List.mem_append, List.mem_filter]
  rintro (⟨_, h⟩ | h)
  · revert h; decide
  · revert h; decide

/-- **C211 is violated** (default file): the help of the option of the configuration file, as printed by `argparse`, has the text `{default}` in place of the
default file, whatever this file. -/
theorem C211_default_violated (extra : Option HAct) (cfgfileopt : Str) (h : cfgfileopt ≠ []) :
    ∃ a ∈ helpActs extra cfgfileopt, a.names = cfgfileNames cfgfileopt ∧
      pctExpand a.help = some "user configuration file that overrides defauts [default: \"{default}\"]".toList := by
  refine ⟨⟨cfgfileNames cfgfileopt, "user configuration file that overrides defauts [default: \"{default}\"]".toList⟩, ?_, rfl, ?_⟩
  · unfold helpActs
    rw [List.mem_append]
    refine Or.inr ?_
    rw [if_neg (by simpa [List.isEmpty_iff] using h)]
    exact List.mem_singleton.2 rfl
  · show pctExpand "user configuration file that overrides defauts [default: \"{default}\"]".toList = _
    have := pctExpand_plain "user configuration file that overrides defauts [default: \"{default}\"]".toList (by decide) []
    rw [List.append_nil] at this
    rw [this]
    rfl

/-- **C211** (`print_short_help` with names): with a name or a list of names, the usage line has the positional arguments and the options that have one of these names, in the order of their
declarations, then `other-options`; with an empty name or list, it has all of them. -/
theorem C211_compressed (p : HParser) (s : Str) (l : List Str) :
    (s ≠ [] → ∃ acts, (printShortHelp (.one s) p).head? = some (.usage p.usage (acts ++ [otherOptions])) ∧ acts.Sublist p.acts ∧ ∀ a ∈ p.acts, a ∈ acts ↔ a.names = [] ∨ s ∈ a.names) ∧
    (l ≠ [] → ∃ acts, (printShortHelp (.many l) p).head? = some (.usage p.usage (acts ++ [otherOptions])) ∧ acts.Sublist p.acts ∧ ∀ a ∈ p.acts, a ∈ acts ↔ a.names = [] ∨ ∃ n ∈ l, n ∈ a.names) ∧
    (printShortHelp (.one []) p).head? = some (.usage p.usage p.acts) ∧ (printShortHelp (.many []) p).head? = some (.usage p.usage p.acts) := by
  refine ⟨?_, ?_, rfl, rfl⟩
  · intro hs
    have hk : keptNames (.one s) = some [s] := by cases s with
      | nil => exact absurd rfl hs
      | cons c s => rfl
    refine ⟨p.acts.filter (keptAct [s]), by simp [printShortHelp, usageActs, hk], List.filter_sublist, ?_⟩
    intro a ha
    simp [keptAct, ha]
  · intro hl
    have hk : keptNames (.many l) = some l := by cases l with
      | nil => exact absurd rfl hl
      | cons c s => rfl
    refine ⟨p.acts.filter (keptAct l), by simp [printShortHelp, usageActs, hk], List.filter_sublist, ?_⟩
    intro a ha
    simp only [List.mem_filter, ha, true_and, keptAct, Bool.or_eq_true, List.isEmpty_iff, List.any_eq_true, decide_eq_true_eq]
    constructor
    · rintro (h | ⟨n, h1, h2⟩)
      · exact Or.inl h
      · exact Or.inr ⟨n, h2, h1⟩
    · rintro (h | ⟨n, h1, h2⟩)
      · exact Or.inl h
      · exact Or.inr ⟨n, h2, h1⟩

/-- **C211** (names of the option of the configuration file): the given name with its dashes, or with one dash before a letter and two before a word. -/
theorem C211_names (s : Str) (c : Char) (hc : c ≠ '-') :
    cfgfileNames ('-' :: s) = ['-' :: s] ∧ cfgfileNames [c] = [['-', c]] ∧ (s ≠ [] → cfgfileNames (c :: s) = ['-' :: '-' :: c :: s]) := by
  refine ⟨by simp [cfgfileNames], ?_, fun h => ?_⟩
  · simp [cfgfileNames, hc]
  · unfold cfgfileNames
    rw [if_neg (by simp [hc]), if_neg (by cases s with | nil => exact absurd rfl h | cons x l => simp)]

-- a parser with one group of configuration options
def exHelpGroups : List HGroup := [⟨"grid".toList, none, [⟨["--grid-nx".toList], "number of points".toList⟩]⟩]
example : ∀ g ∈ exHelpGroups, g.title ≠ "positional arguments".toList ∧ g.title ≠ "optional arguments".toList := by decide
example := C211_described_partial none "--cfgfile".toList exHelpGroups (by decide)
example := C211_short_usage_partial "options".toList none exHelpGroups otherOptions (by decide) (by intro b hb; cases hb)
example : veryReducedHelp (argParser "options".toList none "--cfgfile".toList exHelpGroups) =
    [.usage none (helpActs none "--cfgfile".toList ++ [otherOptions]), .text none, .sect "positional arguments".toList none [], .text none] := by decide +kernel

end Xoa
