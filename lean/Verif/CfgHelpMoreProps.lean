import Verif.CfgHelpProps

/-!
# C149: the headers of sections in the conversion of a help text to rst
-/

namespace Xoa

/-! ## specification -/

/-- the name of a section: letters, digits, underscores and blanks, beginning with less than two spaces -/
def SectionName (name : Str) : Prop := name ≠ [] ∧ (∀ c ∈ name, isWord c = true ∨ isSpace c = true) ∧ ¬ "  ".toList <+: name

/-- a header line: the name, after an indentation of two spaces or not, then a colon and possibly a text after a space -/
def headerLine (indented : Bool) (name : Str) (text : Option Str) : Str :=
  (if indented then "  ".toList else []) ++ name ++ ":".toList ++ (match text with | none => [] | some t => " ".toList ++ t)

/-- the name of the section in the result -/
def SectionTitle (name : Str) : Str := strip (titleFrom true name)

/-! ## lemmas -/

theorem reSec_header (ind : Bool) (name : Str) (hn : SectionName name) (text : Option Str) (ht : text ≠ some []) :
    reSec (headerLine ind name text) = some (name, text) := by
  obtain ⟨h1, h2, h3⟩ := hn
  have hcol : ∀ w : Str, (∀ c ∈ w, isWord c = true ∨ isSpace c = true) → ':' ∉ w := by
    intro w hw hm
    rcases hw ':' hm with h | h <;> exact absurd h (by decide)
  let w : Str := (if ind then "  ".toList else []) ++ name
  let t : Str := match text with | none => [] | some t => " ".toList ++ t
  have hw : ∀ c ∈ w, isWord c = true ∨ isSpace c = true := by
    intro c hc
    rcases List.mem_append.mp hc with h | h
    · cases ind with
      | false => simp at h
      | true =>
        have : c = ' ' := by simpa using h
        subst this; right; decide
    · exact h2 c h
  have hl : headerLine ind name text = w ++ ':' :: t := by
    cases text <;> simp [headerLine, w, t]
  obtain ⟨e1, e2⟩ := takeDrop_colon w t (hcol w hw)
  have hwne : w ≠ [] := by
    intro h
    exact h1 (List.append_eq_nil_iff.mp h).2
  have hg : (if ("  ".toList.isPrefixOf w && decide (2 < w.length)) = true then w.drop 2 else w) = name := by
    cases ind with
    | true =>
      have hw' : w = ' ' :: ' ' :: name := rfl
      have hlen : 0 < name.length := List.length_pos_iff.mpr h1
      rw [hw', if_pos (by simp [List.isPrefixOf]; omega)]
      rfl
    | false =>
      have hw' : w = name := rfl
      rw [hw', if_neg (by
        simp only [Bool.and_eq_true, not_and]
        intro h
        exact absurd (List.isPrefixOf_iff_prefix.mp h) h3)]
  rw [hl]
  unfold reSec
  simp only [e1, e2]
  rw [if_neg (by
    simp only [Bool.or_eq_true, List.isEmpty_iff, Bool.not_eq_true', not_or]
    refine ⟨hwne, ?_⟩
    rw [Bool.not_eq_false, List.all_eq_true]
    intro c hc
    rcases hw c hc with h | h <;> simp [h]), hg]
  cases text with
  | none => rfl
  | some u =>
    cases u with
    | nil => exact absurd rfl ht
    | cons c u => rfl

theorem secOf_header (ind : Bool) (name : Str) (hn : SectionName name) (text : Option Str) (ht : text ≠ some [])
    (hex : ¬ "ex:".toList <:+ lower (headerLine ind name text)) : secOf (headerLine ind name text) = some (name, text) := by
  unfold secOf
  rw [if_neg (by rw [List.isSuffixOf_iff_suffix]; exact hex), reSec_header ind name hn text ht]

/-! ## C149 -/

/-- **C149** (headers): with a format without named field, the header of a section gives its name in the format, then its text in an indented paragraph; and the sections other than
`Usage` do not change the name of the program. -/
theorem C149_headers_partial (a : RstArgs) (f : Str → Str) (hf : a.secfmt = some f) (st : RstSt) (ind : Bool) (name : Str) (hn : SectionName name)
    (text : Option Str) (ht : text ≠ some []) (hex : ¬ "ex:".toList <:+ lower (headerLine ind name text))
    (hu : SectionTitle name ≠ "Usage".toList ∨ text = none) :
    ∃ multi, rstLine a st (headerLine ind name text) =
      .ok ([f (SectionTitle name), []] ++ (match text with | none => [] | some t => [[], "\t".toList ++ t]), ⟨multi, some (SectionTitle name), st.prog⟩) ∧
      multi = (match text with | none => st.multi | some _ => true) := by
  unfold rstLine
  rw [secOf_header ind name hn text ht hex]
  cases text with
  | none => exact ⟨_, by simp only [rstSection, fmtSec, hf]; rfl, rfl⟩
  | some t =>
    have hu' : strip (titleFrom true name) ≠ "Usage".toList := by
      rcases hu with h | h
      · exact h
      · cases h
    refine ⟨true, ?_, rfl⟩
    dsimp only [rstSection]
    rw [if_neg hu']
    simp only [fmtSec, hf]
    rfl

/-- **C149** (usage): with a format without named field, the usage on several lines gives the name of the program (the given one, else the base name of the first word), the name of
the section and a block with all the lines of the usage. The lines after the first one begin with three spaces and are neither headers nor options. -/
theorem C149_usage_partial (a : RstArgs) (f : Str → Str) (hf : a.secfmt = some f) (prog : Option Str) (u w : Str) (ws : List Str) (hu : u ≠ [])
    (hw : splitWs [] (strip u) = w :: ws) (hex : ¬ "ex:".toList <:+ lower (headerLine false "usage".toList (some u)))
    (more : List Str) (hm : ∀ l ∈ more, secOf l = none ∧ a.reOpt l = none ∧ strip l ≠ [] ∧ "   ".toList <+: l) :
    opt2rst a prog (headerLine false "usage".toList (some u) :: more) = .ok (joinLines ['\n']
      ([".. program:: ".toList ++ prog.getD (a.basename w) ++ "\n".toList, f "Usage".toList, "\n\t.. code-block:: bash\n\n\t\t".toList ++ strip u] ++
        more.map (fun l => "\t\t\t".toList ++ strip l))) := by
  have hn : SectionName "usage".toList := by
    refine ⟨by decide, ?_, ?_⟩
    · decide
    · intro h
      have := h.length_le
      obtain ⟨t, ht⟩ := h
      cases ht
  have hp : progOf a prog (strip u) = .ok (prog.getD (a.basename w)) := by
    unfold progOf
    cases prog with
    | some p => rfl
    | none => simp only [hw]; rfl
  have htitle : strip (titleFrom true "usage".toList) = "Usage".toList := by decide +kernel
  have h1 : rstLine a ⟨false, none, prog⟩ (headerLine false "usage".toList (some u)) =
      .ok ([".. program:: ".toList ++ prog.getD (a.basename w) ++ "\n".toList, f "Usage".toList, "\n\t.. code-block:: bash\n\n\t\t".toList ++ strip u],
        ⟨true, some "Usage".toList, some (prog.getD (a.basename w))⟩) := by
    unfold rstLine
    rw [secOf_header false _ hn (some u) (by simpa using hu) hex]
    dsimp only [rstSection]
    rw [htitle, if_pos rfl]
    simp only [hp, fmtSec, hf]
  have h2 : ∀ (l : List Str) (p : Option Str), (∀ x ∈ l, secOf x = none ∧ a.reOpt x = none ∧ strip x ≠ [] ∧ "   ".toList <+: x) →
      rstLoop a ⟨true, some "Usage".toList, p⟩ l = .ok (l.map (fun x => "\t\t\t".toList ++ strip x)) := by
    intro l p hl
    induction l with
    | nil => rfl
    | cons x l ih =>
      obtain ⟨x1, x2, x3, x4⟩ := hl x List.mem_cons_self
      have hx : rstLine a ⟨true, some "Usage".toList, p⟩ x = .ok (["\t\t\t".toList ++ strip x], ⟨true, some "Usage".toList, p⟩) := by
        unfold rstLine
        rw [x1]
        simp only [x2]
        unfold rstOther
        rw [if_neg (by
          rintro ⟨h, -⟩
          have : (some (lower "Usage".toList) : Option Str) = some "positional arguments".toList := h
          revert this; decide)]
        rw [if_pos ⟨rfl, x3, List.isPrefixOf_iff_prefix.mpr x4⟩]
        rfl
      unfold rstLoop
      rw [hx]
      simp only
      rw [ih (fun y hy => hl y (List.mem_cons_of_mem _ hy))]
      rfl
  unfold opt2rst rstLoop
  rw [h1]
  simp only
  rw [h2 more _ hm]
  rfl

/-- **C149** (other lines): a line whose text before the first colon has another character than those of names is not a header -/
theorem C149_no_header (w t : Str) (hcol : ':' ∉ w) (c : Char) (hc : c ∈ w) (h1 : isWord c = false) (h2 : isSpace c = false) : secOf (w ++ ':' :: t) = none := by
  unfold secOf
  split
  · rfl
  · obtain ⟨e1, e2⟩ := takeDrop_colon w t hcol
    unfold reSec
    simp only [e1, e2]
    rw [if_pos]
    simp only [Bool.or_eq_true, Bool.not_eq_true']
    right
    rw [List.all_eq_false]
    exact ⟨c, hc, by simp [h1, h2]⟩

/-- a name with its first letter in upper case and the others in lower case -/
def capWord : Str → Str
  | [] => []
  | c :: w => c.toUpper :: w.map Char.toLower

theorem titleFrom_word (up : Bool) (w rest : Str) (hw : ∀ c ∈ w, c.isAlpha = true) (b : Char) (hb : b.isAlpha = false) :
    titleFrom up (w ++ b :: rest) = (if up then capWord w else w.map Char.toLower) ++ b :: titleFrom true rest := by
  induction w generalizing up with
  | nil => cases up <;> simp [titleFrom, capWord, hb]
  | cons c w ih =>
    have hc := hw c List.mem_cons_self
    have ih' := ih false (fun x hx => hw x (List.mem_cons_of_mem _ hx))
    rw [List.cons_append, titleFrom, if_pos hc, ih']
    cases up <;> simp [capWord]

theorem titleFrom_last (up : Bool) (w : Str) (hw : ∀ c ∈ w, c.isAlpha = true) :
    titleFrom up w = if up then capWord w else w.map Char.toLower := by
  induction w generalizing up with
  | nil => cases up <;> rfl
  | cons c w ih =>
    rw [titleFrom, if_pos (hw c List.mem_cons_self), ih false (fun x hx => hw x (List.mem_cons_of_mem _ hx))]
    cases up <;> simp [capWord]

/-- **C149** (names): the name of a section made of words of letters has in the result a capital at the beginning of each word and no other one -/
theorem C149_title (words : List Str) (hw : ∀ w ∈ words, ∀ c ∈ w, c.isAlpha = true) :
    titleFrom true (joinLines [' '] words) = joinLines [' '] (words.map capWord) := by
  induction words with
  | nil => rfl
  | cons w l ih =>
    have h1 := hw w List.mem_cons_self
    have ih' := ih (fun x hx => hw x (List.mem_cons_of_mem _ hx))
    cases l with
    | nil =>
      show titleFrom true w = capWord w
      rw [titleFrom_last true w h1]; rfl
    | cons v l =>
      have e : joinLines [' '] (w :: v :: l) = w ++ ' ' :: joinLines [' '] (v :: l) := by simp [joinLines]
      have e' : joinLines [' '] ((w :: v :: l).map capWord) = capWord w ++ ' ' :: joinLines [' '] ((v :: l).map capWord) := by simp [joinLines]
      rw [e, e', titleFrom_word true w _ h1 ' ' (by decide), ih']
      rfl

/-- **C149** (descriptions on several lines): the lines after an option that begin with three spaces, and are neither headers nor options, go on with its description: they are
below the directive, at the level of the description. -/
theorem C149_description_partial (a : RstArgs) (prog : Option Str) (line : Str) (names : Str) (desc : Option Str) (h1 : secOf line = none)
    (h2 : a.reOpt line = some (names, desc)) (more : List Str)
    (hm : ∀ l ∈ more, secOf l = none ∧ a.reOpt l = none ∧ strip l ≠ [] ∧ "   ".toList <+: l) :
    opt2rst a prog (line :: more) = .ok (joinLines ['\n']
      ([[], "\t.. cmdoption:: ".toList ++ names, []] ++ (match desc with | none => [] | some d => ["\t\t".toList ++ strip d]) ++
        more.map (fun l => "\t\t".toList ++ strip l))) := by
  have h3 : ∀ (l : List Str) (p : Option Str), (∀ x ∈ l, secOf x = none ∧ a.reOpt x = none ∧ strip x ≠ [] ∧ "   ".toList <+: x) →
      rstLoop a ⟨true, none, p⟩ l = .ok (l.map (fun x => "\t\t".toList ++ strip x)) := by
    intro l p hl
    induction l with
    | nil => rfl
    | cons x l ih =>
      obtain ⟨x1, x2, x3, x4⟩ := hl x List.mem_cons_self
      have hx : rstLine a ⟨true, none, p⟩ x = .ok (["\t\t".toList ++ strip x], ⟨true, none, p⟩) := by
        unfold rstLine
        rw [x1]
        simp only [x2]
        unfold rstOther
        rw [if_neg (by rintro ⟨h, -⟩; cases h)]
        rw [if_pos ⟨rfl, x3, List.isPrefixOf_iff_prefix.mpr x4⟩]
        rfl
      unfold rstLoop
      rw [hx]
      simp only
      rw [ih (fun y hy => hl y (List.mem_cons_of_mem _ hy))]
      rfl
  unfold opt2rst rstLoop rstLine
  rw [h1]
  simp only [h2]
  rw [h3 more _ hm]
  cases desc <;> rfl

/-! ## non-vacuity -/

/-- a help with a usage on two lines, a section and a text -/
def exRst : RstArgs := ⟨some (fun s => s), "Description".toList, fun _ => none, fun s => s⟩

example : (opt2rst exRst none ["usage: prog [-h]".toList, "       [--long]".toList, "optional arguments:".toList, "see: also".toList]).toOption =
    some (joinLines ['\n'] [".. program:: prog\n".toList, "Usage".toList, "\n\t.. code-block:: bash\n\n\t\tprog [-h]".toList, "\t\t\t[--long]".toList,
      "Optional Arguments".toList, [], "See".toList, [], [], "\talso".toList]) := by decide +kernel
example : SectionName "optional arguments".toList := by
  refine ⟨by decide, by decide, ?_⟩
  rintro ⟨t, ht⟩
  cases ht
/-- lines that are not headers and begin with three spaces -/
example : secOf "      see -o for more".toList = none ∧ strip "      see -o for more".toList ≠ [] ∧ "   ".toList <+: "      see -o for more".toList :=
  ⟨by decide +kernel, by decide +kernel, List.isPrefixOf_iff_prefix.mp (by decide)⟩
example : joinLines [' '] (["optional".toList, "arguments".toList].map capWord) = "Optional Arguments".toList := by decide +kernel
example : secOf "  -o: text".toList = none := by decide +kernel

end Xoa
