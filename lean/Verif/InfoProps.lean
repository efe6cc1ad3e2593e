import Verif.Info
import Verif.MiscProps

/-! # Properties of the data samples, the command line, the information and the documentation of the choices (C152-C157) -/

namespace Xoa

/-! ### C152: data samples -/

/-- the name of a file in a directory -/
def FileName (s : Str) : Prop := s ≠ [] ∧ '/' ∉ s

theorem osJoin_file (d f : Str) (hd : d ≠ []) (hd2 : d.getLast? ≠ some '/') (hf : FileName f) : osJoin d f = d ++ ['/'] ++ f := by
  unfold osJoin
  rw [if_neg, if_neg]
  · simp
  · rintro (h | h)
    · exact hd h
    · exact hd2 h
  · intro h
    obtain ⟨s, hs⟩ : ∃ s, f = '/' :: s := by
      cases f with
      | nil => cases h
      | cons c s =>
        simp only [List.head?_cons, Option.some.injEq] at h
        exact ⟨s, by rw [h]⟩
    exact hf.2 (by rw [hs]; simp)

theorem getDataSample_text (dirname : Str) (dir : Option (List Str)) (s : Str) : getDataSample dirname dir (.text s) =
    if s ∉ sampleNames dir then .error .xoaError else .ok (.path (osJoin dirname s)) := rfl

/-- **C152**: a name is answered exactly when it is in the list that the function gives without a name, by the path of the file of this name
in the directory of the samples; any other name is refused with the error of xoa. -/
theorem C152_path (dirname : Str) (dir : Option (List Str)) (hd : dirname ≠ []) (hd2 : dirname.getLast? ≠ some '/')
    (hdir : ∀ l, dir = some l → ∀ f ∈ l, FileName f) (s : Str) :
    ∃ names, getDataSample dirname dir .none_ = .ok (.names names) ∧ (dir = none → names = []) ∧ (∀ l, dir = some l → names = l) ∧
      (s ∈ names → getDataSample dirname dir (.text s) = .ok (.path (dirname ++ ['/'] ++ s))) ∧
      (s ∉ names → getDataSample dirname dir (.text s) = .error .xoaError) := by
  refine ⟨sampleNames dir, rfl, ?_, ?_, ?_, ?_⟩
  · rintro rfl; rfl
  · rintro l rfl; rfl
  · intro hs
    rw [getDataSample_text, if_neg (not_not.mpr hs), osJoin_file dirname s hd hd2]
    cases dir with
    | none => cases hs
    | some l => exact hdir l rfl s hs
  · intro hs
    rw [getDataSample_text, if_pos hs]

/-- **C152**: two samples have different paths. -/
theorem C152_distinct (dirname : Str) (dir : Option (List Str)) (hd : dirname ≠ []) (hd2 : dirname.getLast? ≠ some '/')
    (hdir : ∀ l, dir = some l → ∀ f ∈ l, FileName f) (s t p : Str) (hs : getDataSample dirname dir (.text s) = .ok (.path p))
    (ht : getDataSample dirname dir (.text t) = .ok (.path p)) : s = t := by
  have key : ∀ x, getDataSample dirname dir (.text x) = .ok (.path p) → p = dirname ++ ['/'] ++ x := by
    intro x hx
    obtain ⟨names, -, -, -, h1, h2⟩ := C152_path dirname dir hd hd2 hdir x
    by_cases hm : x ∈ names
    · rw [h1 hm] at hx
      injection hx with hx
      injection hx with hx
      exact hx.symm
    · rw [h2 hm] at hx; cases hx
  have := (key s hs).symm.trans (key t ht)
  simpa using this

/-- **C152**: a sample is opened from its path, and a name that is not in the list is refused before anything is opened. -/
theorem C152_open {α : Type} (op : SmpOut → Except InfoErr α) (dirname : Str) (dir : Option (List Str)) (hd : dirname ≠ [])
    (hd2 : dirname.getLast? ≠ some '/') (hdir : ∀ l, dir = some l → ∀ f ∈ l, FileName f) (s : Str) :
    ((∃ l, dir = some l ∧ s ∈ l) → openDataSample op dirname dir (.text s) = op (.path (dirname ++ ['/'] ++ s))) ∧
    ((¬ ∃ l, dir = some l ∧ s ∈ l) → openDataSample op dirname dir (.text s) = .error .xoaError) := by
  obtain ⟨names, -, hn, hl, h1, h2⟩ := C152_path dirname dir hd hd2 hdir s
  constructor
  · rintro ⟨l, e, hs⟩
    unfold openDataSample
    rw [h1 (by rw [hl l e]; exact hs)]
    rfl
  · intro h
    unfold openDataSample
    rw [h2]
    · rfl
    · intro hs
      cases dir with
      | none => rw [hn rfl] at hs; cases hs
      | some l => rw [hl l rfl] at hs; exact h ⟨l, rfl, hs⟩

theorem intercalate_cons (c : Char) (a b : Str) (l : List Str) : List.intercalate [c] (a :: b :: l) = a ++ c :: List.intercalate [c] (b :: l) := by
  simp [List.intercalate, List.intersperse]

theorem append_sep_inj (c : Char) (a b x y : Str) (ha : c ∉ a) (hb : c ∉ b) (h : a ++ c :: x = b ++ c :: y) : a = b ∧ x = y := by
  induction a generalizing b with
  | nil =>
    cases b with
    | nil => simpa using h
    | cons d b =>
      simp only [List.nil_append, List.cons_append, List.cons.injEq] at h
      exact absurd (by rw [h.1]; simp) hb
  | cons d a ih =>
    cases b with
    | nil =>
      simp only [List.nil_append, List.cons_append, List.cons.injEq] at h
      exact absurd (by rw [h.1]; simp) ha
    | cons e b =>
      simp only [List.cons_append, List.cons.injEq] at h
      simp only [List.mem_cons, not_or] at ha hb
      obtain ⟨h1, h2⟩ := ih b ha.2 hb.2 h.2
      exact ⟨by rw [h.1, h1], h2⟩

/-- a text of pieces without the separator tells the pieces -/
theorem intercalate_inj (c : Char) : ∀ (l l' : List Str), (∀ s ∈ l, s ≠ [] ∧ c ∉ s) → (∀ s ∈ l', s ≠ [] ∧ c ∉ s) →
    List.intercalate [c] l = List.intercalate [c] l' → l = l' := by
  intro l
  induction l with
  | nil =>
    intro l' _ h' h
    cases l' with
    | nil => rfl
    | cons a l' =>
      exfalso
      have ha := (h' a List.mem_cons_self).1
      cases l' with
      | nil => simp [List.intercalate] at h; exact ha h
      | cons b l' =>
        rw [intercalate_cons] at h
        simp [List.intercalate] at h
  | cons a l ih =>
    intro l' h0 h' h
    have ha := h0 a List.mem_cons_self
    cases l' with
    | nil =>
      exfalso
      cases l with
      | nil => simp [List.intercalate] at h; exact ha.1 h
      | cons b l =>
        rw [intercalate_cons] at h
        simp [List.intercalate] at h
    | cons a' l' =>
      have ha' := h' a' List.mem_cons_self
      have r0 := fun s hs => h0 s (List.mem_cons_of_mem _ hs)
      have r1 := fun s hs => h' s (List.mem_cons_of_mem _ hs)
      have e1 : ∀ x : Str, List.intercalate [c] [x] = x := by intro x; simp [List.intercalate]
      cases l with
      | nil =>
        cases l' with
        | nil => rw [e1, e1] at h; rw [h]
        | cons b' l' =>
          rw [e1, intercalate_cons] at h
          exact absurd (by rw [h]; simp) ha.2
      | cons b l =>
        cases l' with
        | nil =>
          rw [e1, intercalate_cons] at h
          exact absurd (by rw [← h]; simp) ha'.2
        | cons b' l' =>
          rw [intercalate_cons, intercalate_cons] at h
          obtain ⟨h1, h2⟩ := append_sep_inj c _ _ _ _ ha.2 ha'.2 h
          rw [h1, ih (b' :: l') r0 r1 h2]

/-- **C152**: the text that `show_data_samples` prints tells the samples, when no name of a sample has a blank. -/
theorem C152_show_partial (d d' : Option (List Str)) (h : ∀ l, (d = some l ∨ d' = some l) → ∀ f ∈ l, FileName f ∧ ' ' ∉ f)
    (he : showDataSamples d = showDataSamples d') : sampleNames d = sampleNames d' := by
  have h0 : joinBlank (sampleNames d) = joinBlank (sampleNames d') := by simpa [showDataSamples] using he
  refine intercalate_inj ' ' _ _ ?_ ?_ h0
  · intro s hs
    cases d with
    | none => cases hs
    | some l => exact ⟨(h l (Or.inl rfl) s hs).1.1, (h l (Or.inl rfl) s hs).2⟩
  · intro s hs
    cases d' with
    | none => cases hs
    | some l => exact ⟨(h l (Or.inr rfl) s hs).1.1, (h l (Or.inr rfl) s hs).2⟩

/-- **C152 is violated**: the same text is printed for one sample whose name has a blank and for two samples. -/
theorem C152_blank_violated (a b : Str) : showDataSamples (some [a ++ ' ' :: b]) = showDataSamples (some [a, b]) := by
  simp [showDataSamples, sampleNames, joinBlank, List.intercalate]

/-- **C152 is violated**: something that is not a text is not refused with the error of xoa. -/
theorem C152_other_violated (dirname : Str) (dir : Option (List Str)) : getDataSample dirname dir .other = .error .typeError := rfl

/-- the hypotheses are met -/
example : getDataSample "/xoa/_samples".toList (some ["croco.nc".toList, "hycom.nc".toList]) (.text "hycom.nc".toList) =
      .ok (.path "/xoa/_samples/hycom.nc".toList) ∧
    (∀ f ∈ ["croco.nc".toList, "hycom.nc".toList], FileName f ∧ ' ' ∉ f) ∧
    ("/xoa/_samples".toList.getLast? ≠ some '/') ∧
    showDataSamples (some ["croco.nc".toList, "hycom.nc".toList]) = ["croco.nc hycom.nc".toList] := by
  refine ⟨by decide +kernel, ?_, by decide, by decide +kernel⟩
  intro f hf
  simp only [List.mem_cons, List.not_mem_nil, or_false] at hf
  rcases hf with rfl | rfl <;> exact ⟨⟨by decide, by decide⟩, by decide⟩

/-! ### C153: the command line -/

theorem cliMain_one (w : Str) : cliMain [w] =
    (if w = "info".toList then Except.ok (⟨true, some "all".toList⟩ : CliArgs) else .error .usage).bind fun args =>
      if args.func then .ok (mainInfo args.category) else .error .attributeError := rfl

theorem cliMain_two (w c : Str) : cliMain [w, c] =
    (if w = "info".toList ∧ c ∈ cliCats then Except.ok (⟨true, some c⟩ : CliArgs) else .error .usage).bind fun args =>
      if args.func then .ok (mainInfo args.category) else .error .attributeError := rfl

/-- **C153**: exactly which commands print something: `info`, and `info` with one of the four categories, and what they print. -/
theorem C153_commands_partial (argv : List Str) (l : List Block) :
    cliMain argv = .ok l ↔
      ((argv = ["info".toList] ∨ argv = ["info".toList, "all".toList]) ∧ l = [.versions, .paths, .specs]) ∨
      (argv = ["info".toList, "versions".toList] ∧ l = [.versions]) ∨
      (argv = ["info".toList, "paths".toList] ∧ l = [.paths]) ∨
      (argv = ["info".toList, "options".toList] ∧ l = [.options]) := by
  have n1 : "versions".toList ≠ "all".toList := by decide
  have n2 : "paths".toList ≠ "all".toList := by decide
  have n3 : "options".toList ≠ "all".toList := by decide
  have n4 : "paths".toList ≠ "versions".toList := by decide
  have n5 : "options".toList ≠ "versions".toList := by decide
  have n6 : "options".toList ≠ "paths".toList := by decide
  have mall : mainInfo (some "all".toList) = [.versions, .paths, .specs] := by decide +kernel
  have mver : mainInfo (some "versions".toList) = [.versions] := by decide +kernel
  have mpat : mainInfo (some "paths".toList) = [.paths] := by decide +kernel
  have mopt : mainInfo (some "options".toList) = [.options] := by decide +kernel
  have hcats : ∀ c, c ∈ cliCats ↔ c = "all".toList ∨ c = "paths".toList ∨ c = "versions".toList ∨ c = "options".toList := by
    intro c
    show c ∈ ["all".toList, "paths".toList, "versions".toList, "options".toList] ↔ _
    rw [List.mem_cons, List.mem_cons, List.mem_cons, List.mem_singleton]
  have ok : ∀ (c : Str), (cliMain ["info".toList, c] = .ok l ↔ c ∈ cliCats ∧ mainInfo (some c) = l) := by
    intro c
    rw [cliMain_two]
    by_cases hc : c ∈ cliCats
    · rw [if_pos ⟨rfl, hc⟩]
      simp only [Except.bind, if_true, Except.ok.injEq]
      exact ⟨fun h => ⟨hc, h⟩, fun h => h.2⟩
    · rw [if_neg (fun h => hc h.2)]
      exact ⟨fun h => (by cases h), fun h => absurd h.1 hc⟩
  constructor
  · intro h
    match argv with
    | [] => cases h
    | [w] =>
      rw [cliMain_one] at h
      by_cases hw : w = "info".toList
      · rw [if_pos hw] at h
        simp only [Except.bind, if_true, Except.ok.injEq] at h
        rw [mall] at h
        exact Or.inl ⟨Or.inl (by rw [hw]), h.symm⟩
      · rw [if_neg hw] at h; cases h
    | [w, c] =>
      by_cases hw : w = "info".toList
      · subst hw
        obtain ⟨h1, h2⟩ := (ok c).1 h
        rcases (hcats c).1 h1 with rfl | rfl | rfl | rfl
        · exact Or.inl ⟨Or.inr rfl, by rw [← h2, mall]⟩
        · exact Or.inr (Or.inr (Or.inl ⟨rfl, by rw [← h2, mpat]⟩))
        · exact Or.inr (Or.inl ⟨rfl, by rw [← h2, mver]⟩)
        · exact Or.inr (Or.inr (Or.inr ⟨rfl, by rw [← h2, mopt]⟩))
      · rw [cliMain_two, if_neg (fun h => hw h.1)] at h; cases h
    | _ :: _ :: _ :: _ => cases h
  · rintro (⟨rfl | rfl, rfl⟩ | ⟨rfl, rfl⟩ | ⟨rfl, rfl⟩ | ⟨rfl, rfl⟩)
    · rw [cliMain_one, if_pos rfl]
      simp only [Except.bind, if_true]
      rw [mall]
    · exact (ok _).2 ⟨(hcats _).2 (Or.inl rfl), mall⟩
    · exact (ok _).2 ⟨(hcats _).2 (Or.inr (Or.inr (Or.inl rfl))), mver⟩
    · exact (ok _).2 ⟨(hcats _).2 (Or.inr (Or.inl rfl)), mpat⟩
    · exact (ok _).2 ⟨(hcats _).2 (Or.inr (Or.inr (Or.inr rfl))), mopt⟩

/-- **C153**: any other command with at least one word is refused with the usage. -/
theorem C153_refused_partial (argv : List Str) (h0 : argv ≠ []) (h : ∀ l, cliMain argv ≠ .ok l) : cliMain argv = .error .usage := by
  match argv with
  | [] => exact absurd rfl h0
  | [w] =>
    rw [cliMain_one] at *
    by_cases hw : w = "info".toList
    · rw [if_pos hw] at h; exact absurd rfl (h _)
    · rw [if_neg hw]; rfl
  | [w, c] =>
    rw [cliMain_two] at *
    by_cases hw : w = "info".toList ∧ c ∈ cliCats
    · rw [if_pos hw] at h; exact absurd rfl (h _)
    · rw [if_neg hw]; rfl
  | _ :: _ :: _ :: _ => rfl

/-- **C153 is violated**: the command without a word is neither answered nor refused with the usage. -/
theorem C153_none_violated : cliMain [] = .error .attributeError := rfl

/-- **C153 is violated**: `info all` does not print the values of the options that `info options` prints, but their specifications, which no
other command prints. -/
theorem C153_all_violated :
    ∃ l l', cliMain ["info".toList, "all".toList] = .ok l ∧ cliMain ["info".toList, "options".toList] = .ok l' ∧ Block.options ∈ l' ∧
      Block.options ∉ l ∧ Block.specs ∈ l :=
  ⟨_, _, (C153_commands_partial _ _).2 (Or.inl ⟨Or.inr rfl, rfl⟩), (C153_commands_partial _ _).2 (Or.inr (Or.inr (Or.inr ⟨rfl, rfl⟩))),
    by simp, by simp, by simp⟩

/-- the hypotheses are met -/
example : cliMain ["infos".toList] = .error .usage ∧ cliMain ["info".toList, "version".toList] = .error .usage := by decide +kernel

/-! ### C154: versions and paths -/

/-- **C154** (versions): a line for each package that tells the installed version, or that it is not installed. -/
theorem C154_versions (py : Str) (installed : Str → Option Str) (p : Str) (hp : p ∈ infoPackages) :
    (∀ v, installed p = some v → ("- ".toList ++ p ++ ": ".toList ++ v) ∈ showVersions py installed) ∧
    (installed p = none → ("- ".toList ++ p ++ ": NOT INSTALLED or UKNOWN".toList) ∈ showVersions py installed) := by
  have hm : versionLine installed p ∈ showVersions py installed := by
    unfold showVersions
    exact List.mem_cons_of_mem _ (List.mem_cons_of_mem _ (List.mem_map.2 ⟨p, hp, rfl⟩))
  constructor
  · intro v hv
    rw [versionLine, hv] at hm
    exact hm
  · intro hn
    rw [versionLine, hn] at hm
    have e : "- ".toList ++ p ++ ": NOT INSTALLED or UKNOWN".toList = "- ".toList ++ p ++ ": ".toList ++ "NOT INSTALLED or UKNOWN".toList := by
      rw [List.append_assoc _ ": ".toList]
      congr 1
    rw [e]
    exact hm

/-- **C154** (paths): the line of a file ends with its path if it is on the disk, with the mark else; the legend is printed exactly when a file
is not on the disk; the samples are listed. -/
theorem C154_paths (onDisk : Str → Bool) (libdir : Str) (files : List (Str × Str)) (dir : Option (List Str)) :
    (∀ f ∈ files, onDisk f.2 = true → ("- ".toList ++ f.1 ++ ": ".toList ++ f.2) ∈ showPaths onDisk libdir files dir) ∧
    (∀ f ∈ files, onDisk f.2 = false → ("- ".toList ++ f.1 ++ ": ".toList ++ f.2 ++ " [*]".toList) ∈ showPaths onDisk libdir files dir) ∧
    ("*: file not present".toList ∈ showPaths onDisk libdir files dir ↔ ∃ f ∈ files, onDisk f.2 = false) ∧
    ("- data samples: ".toList ++ joinBlank (sampleNames dir)) ∈ showPaths onDisk libdir files dir := by
  have hm : ∀ f ∈ files, pathLine onDisk f ∈ showPaths onDisk libdir files dir := by
    intro f hf
    unfold showPaths
    simp only [List.mem_append, List.mem_cons, List.mem_map]
    exact Or.inl (Or.inl (Or.inr ⟨f, hf, rfl⟩))
  refine ⟨?_, ?_, ?_, ?_⟩
  · intro f hf h
    have := hm f hf
    rw [pathLine, if_pos h, List.append_nil] at this
    exact this
  · intro f hf h
    have := hm f hf
    rw [pathLine, if_neg (by rw [h]; decide)] at this
    exact this
  · have star : "*: file not present".toList.head? = some '*' := by decide
    have dash : ∀ s : Str, ("- ".toList ++ s).head? = some '-' := fun s => rfl
    constructor
    · intro h
      unfold showPaths at h
      rw [List.mem_append, List.mem_append, List.mem_cons] at h
      rcases h with ((h | h) | h) | h
      · rw [h] at star; exact absurd star (by simp)
      · obtain ⟨f, -, hf⟩ := List.mem_map.1 h
        rw [← hf, pathLine, List.append_assoc, List.append_assoc, List.append_assoc, dash] at star
        exact absurd star (by decide)
      · rw [List.mem_singleton] at h
        rw [h] at star; exact absurd star (by simp)
      · by_cases ha : files.any (fun lp => !onDisk lp.2) = true
        · obtain ⟨f, hf, hb⟩ := List.any_eq_true.1 ha
          exact ⟨f, hf, by simpa using hb⟩
        · rw [if_neg ha] at h; cases h
    · rintro ⟨f, hf, hb⟩
      have ha : files.any (fun lp => !onDisk lp.2) = true := List.any_eq_true.2 ⟨f, hf, by simpa using hb⟩
      unfold showPaths
      rw [if_pos ha]
      exact List.mem_append_right _ (List.mem_singleton.2 rfl)
  · unfold showPaths
    exact List.mem_append_left _ (List.mem_append_right _ (List.mem_singleton.2 rfl))

/-- a case: one of the files is missing -/
example : showPaths (fun p => p = "/home/xoa.cfg".toList) "/lib/xoa".toList
      [("user config file".toList, "/home/xoa.cfg".toList), ("user CF specs file".toList, "/home/cf.cfg".toList)] (some ["a.nc".toList]) =
    ["- xoa library dir: /lib/xoa".toList, "- user config file: /home/xoa.cfg".toList, "- user CF specs file: /home/cf.cfg [*]".toList,
      "- data samples: a.nc".toList, "*: file not present".toList] := by decide +kernel

/-! ### C155: the printed options -/

theorem blankHash_length (s : Str) : (blankHash s).length = s.length + s.count '#' := by
  induction s with
  | nil => rfl
  | cons c s ih =>
    unfold blankHash
    by_cases hc : c = '#'
    · subst hc
      simp only [if_true, List.length_cons, ih, List.count_cons_self]
      omega
    · rw [if_neg hc, List.length_cons, List.length_cons, ih, List.count_cons_of_ne hc]
      omega

theorem blankHash_none (s : Str) (h : '#' ∉ s) : blankHash s = s := by
  induction s with
  | nil => rfl
  | cons c s ih =>
    simp only [List.mem_cons, not_or] at h
    unfold blankHash
    rw [if_neg (fun e => h.1 e.symm), ih h.2]

theorem stripNl_eq (s : Str) (h1 : s.head? ≠ some '\n') (h2 : s.getLast? ≠ some '\n') : stripNl s = s := by
  unfold stripNl
  have e1 : s.dropWhile (· = '\n') = s := by
    cases s with
    | nil => rfl
    | cons c s =>
      rw [List.dropWhile_cons_of_neg]
      intro h
      apply h1
      simpa using h
  rw [e1]
  have e2 : s.reverse.dropWhile (· = '\n') = s.reverse := by
    cases hs : s.reverse with
    | nil => rfl
    | cons c t =>
      rw [List.dropWhile_cons_of_neg]
      intro h
      apply h2
      rw [← List.head?_reverse, hs]
      simpa using h
  rw [e2, List.reverse_reverse]

/-- **C155**: for written options that neither begin nor end with an empty line, what is printed is exactly what `configobj` would write in
a file, and can be loaded again, if and only if they hold no `#`. -/
theorem C155_exact_partial (lines : List Str) (h1 : (List.intercalate ['\n'] lines).head? ≠ some '\n')
    (h2 : (List.intercalate ['\n'] lines).getLast? ≠ some '\n') :
    showOptions lines = List.intercalate ['\n'] lines ↔ ∀ l ∈ lines, '#' ∉ l := by
  unfold showOptions
  rw [stripNl_eq _ h1 h2]
  have hm : ∀ ls : List Str, '#' ∈ List.intercalate ['\n'] ls ↔ ∃ l ∈ ls, '#' ∈ l := by
    intro ls
    induction ls with
    | nil => simp [List.intercalate]
    | cons a ls ih =>
      cases ls with
      | nil => simp [List.intercalate]
      | cons b ls =>
        rw [intercalate_cons, List.mem_append, List.mem_cons, ih]
        have : ('#' = '\n') = False := by decide
        rw [this, false_or]
        constructor
        · rintro (h | ⟨l, hl, h⟩)
          · exact ⟨a, List.mem_cons_self, h⟩
          · exact ⟨l, List.mem_cons_of_mem _ hl, h⟩
        · rintro ⟨l, hl, h⟩
          rcases List.mem_cons.1 hl with rfl | hl
          · exact Or.inl h
          · exact Or.inr ⟨l, hl, h⟩
  constructor
  · intro h l hl hh
    have := congrArg List.length h
    rw [blankHash_length] at this
    have : 0 < (List.intercalate ['\n'] lines).count '#' := List.count_pos_iff.2 ((hm lines).2 ⟨l, hl, hh⟩)
    omega
  · intro h
    apply blankHash_none
    intro hh
    obtain ⟨l, hl, hx⟩ := (hm lines).1 hh
    exact h l hl hx

/-- **C155 is violated**: the value of an option that holds a `#`, such as a colour, is printed with one more blank. -/
theorem C155_hash_violated (a b : Str) (ha : '#' ∉ a) (ha0 : a.head? ≠ some '\n') (hb : '#' ∉ b) (hb1 : b ≠ []) (hb0 : b.getLast? ≠ some '\n') :
    showOptions [a ++ '#' :: b] = a ++ ' ' :: '#' :: b := by
  unfold showOptions
  have e : List.intercalate ['\n'] [a ++ '#' :: b] = a ++ '#' :: b := by simp [List.intercalate]
  rw [e, stripNl_eq]
  · clear ha0 e
    induction a with
    | nil => rw [List.nil_append, blankHash, if_pos rfl, blankHash_none b hb]; rfl
    | cons c a ih =>
      simp only [List.mem_cons, not_or] at ha
      rw [List.cons_append, blankHash, if_neg (fun e => ha.1 e.symm), ih ha.2]
      rfl
  · cases a with
    | nil => simp
    | cons c a => simpa using ha0
  · rw [List.getLast?_append, List.getLast?_cons_of_ne_nil hb1]
    cases hg : b.getLast? with
    | none => exact absurd (List.getLast?_eq_none_iff.1 hg) hb1
    | some x => simpa [hg] using hb0

/-- the hypotheses are met -/
example : showOptions ["[plot]".toList, "cmapdiv = \"#fff\"".toList] = "[plot]\ncmapdiv = \" #fff\"".toList ∧
    showOptions ["[plot]".toList, "cmapdiv = cmo.amp".toList] = "[plot]\ncmapdiv = cmo.amp".toList := by decide +kernel

end Xoa
