import Verif.CfgHelp
import Verif.CfFormatMoreProps

/-! # Help of the command line options (C148, C149, C150) -/

namespace Xoa

/-! ## C148: help text of one option -/

theorem pctExpand_cons (c : Char) (s : Str) (h : c ≠ '%') : pctExpand (c :: s) = (pctExpand s).map (c :: ·) := by
  rw [pctExpand.eq_def]; simp [h]

theorem pctExpand_pct (s : Str) : pctExpand ('%' :: '%' :: s) = (pctExpand s).map ('%' :: ·) := by
  rw [pctExpand.eq_def]; simp

theorem pctExpand_bad (x : Char) (s : Str) (h : x ≠ '%') : pctExpand ('%' :: x :: s) = none := by
  rw [pctExpand.eq_def]; simp [h]

theorem pctExpand_plain (s : Str) (h : '%' ∉ s) (t : Str) : pctExpand (s ++ t) = (pctExpand t).map (s ++ ·) := by
  induction s with
  | nil => simp
  | cons c s ih =>
    simp only [List.mem_cons, not_or] at h
    rw [List.cons_append, pctExpand_cons _ _ (fun e => h.1 e.symm), ih h.2]
    cases pctExpand t <;> rfl

theorem pctExpand_escape (s t : Str) : pctExpand (pctEscape s ++ t) = (pctExpand t).map (s ++ ·) := by
  induction s with
  | nil => simp [pctEscape]
  | cons c s ih =>
    rw [pctEscape]
    split
    · next hc =>
      subst hc
      rw [List.cons_append, List.cons_append, pctExpand_pct, ih]
      cases pctExpand t <;> rfl
    · next hc =>
      rw [List.cons_append, pctExpand_cons _ _ hc, ih]
      cases pctExpand t <;> rfl

/-- the text that the help is to show for a default value: the items separated by commas, or the value without the parentheses around it -/
def DefaultShown : DfltVal → Str → Prop
  | .items l, t => t = joinLines [','] l
  | .text s, t => ∃ o e, s = o ++ t ++ e ∧ (∀ c ∈ o ++ e, c = '(' ∨ c = ')') ∧ (∀ c, t.head? = some c → c ≠ '(' ∧ c ≠ ')') ∧ (∀ c, t.getLast? = some c → c ≠ '(' ∧ c ≠ ')')

/-- what `argparse` does with percent signs in the comments: without them, the text is printed as it is -/
theorem printed_plain (m : HelpMode) (c : OptCom) (d : DfltVal) (hp : '%' ∉ helpBody (helpComments m c)) (x : Str) (hx : sdefault d = pctEscape x) :
    pctExpand (shelp m c d) = some (helpBody (helpComments m c) ++ " [default: ".toList ++ x ++ "]".toList) := by
  unfold shelp
  rw [hx, List.append_assoc, List.append_assoc, pctExpand_plain _ hp, pctExpand_plain _ (by decide), pctExpand_escape]
  rw [show pctExpand "]".toList = some "]".toList from rfl]
  simp [List.append_assoc]

theorem dropWhile_split {p : Char → Bool} (s : Str) : ∃ o, s = o ++ s.dropWhile p ∧ ∀ c ∈ o, p c = true :=
  ⟨s.takeWhile p, (List.takeWhile_append_dropWhile).symm, fun c hc => by simpa using (List.all_eq_true.1 (List.all_takeWhile (l := s) (p := p))) c hc⟩

theorem dropWhile_head {p : Char → Bool} (s : Str) (c : Char) (h : (s.dropWhile p).head? = some c) : p c = false := by
  have := List.head?_dropWhile_not p s
  rw [h] at this
  simpa using this

/-- a text stripped on both sides, of any characters -/
theorem strip_split (p : Char → Bool) (s : Str) :
    let t := ((s.dropWhile p).reverse.dropWhile p).reverse
    ∃ o e, s = o ++ t ++ e ∧ (∀ c ∈ o ++ e, p c = true) ∧ (∀ c, t.head? = some c → p c = false) ∧ (∀ c, t.getLast? = some c → p c = false) := by
  intro t
  obtain ⟨o, h1, h2⟩ := dropWhile_split (p := p) s
  obtain ⟨e, h3, h4⟩ := dropWhile_split (p := p) (s.dropWhile p).reverse
  have h5 : s.dropWhile p = t ++ e.reverse := by
    have := congrArg List.reverse h3
    simpa [t] using this
  refine ⟨o, e.reverse, ?_, ?_, ?_, ?_⟩
  · rw [List.append_assoc, ← h5]; exact h1
  · intro c hc
    rcases List.mem_append.1 hc with hc | hc
    · exact h2 c hc
    · exact h4 c (List.mem_reverse.1 hc)
  · intro c hc
    refine dropWhile_head s c ?_
    rw [h5]
    cases ht : t with
    | nil => rw [ht] at hc; simp at hc
    | cons a t' => rw [ht] at hc; simpa using hc
  · intro c hc
    refine dropWhile_head (s.dropWhile p).reverse c ?_
    have : t.getLast? = ((s.dropWhile p).reverse.dropWhile p).head? := by simp [t]
    rw [← this]
    exact hc

/-- **C148** (default values): the help ends with the default value, whatever it contains — percent signs included — without the parentheses around it. -/
theorem C148_default_partial (m : HelpMode) (c : OptCom) (d : DfltVal) (hp : '%' ∉ helpBody (helpComments m c)) :
    ∃ x, DefaultShown d x ∧ pctExpand (shelp m c d) = some (helpBody (helpComments m c) ++ " [default: ".toList ++ x ++ "]".toList) := by
  cases d with
  | items l => exact ⟨_, rfl, printed_plain m c _ hp _ rfl⟩
  | text s =>
    refine ⟨stripParens s, ?_, printed_plain m c _ hp _ rfl⟩
    obtain ⟨o, e, h1, h2, h3, h4⟩ := strip_split (fun c => c = '(' || c = ')') s
    refine ⟨o, e, h1, ?_, ?_, ?_⟩
    · intro c hc; simpa using h2 c hc
    · intro c hc; simpa using h3 c hc
    · intro c hc; simpa using h4 c hc

/-- `t` is `s` without the characters `p` around it -/
def Bare (p : Char → Prop) (s t : Str) : Prop :=
  ∃ o e, s = o ++ t ++ e ∧ (∀ c ∈ o, p c) ∧ (∀ c ∈ e, p c) ∧ (∀ c, t.head? = some c → ¬ p c) ∧ (∀ c, t.getLast? = some c → ¬ p c)

theorem bare_trim (p : Char → Bool) (s : Str) : Bare (fun c => p c = true) s ((s.dropWhile p).reverse.dropWhile p).reverse := by
  obtain ⟨o, e, h1, h2, h3, h4⟩ := strip_split p s
  exact ⟨o, e, h1, fun c hc => h2 c (by simp [hc]), fun c hc => h2 c (by simp [hc]), fun c hc => by simp [h3 c hc], fun c hc => by simp [h4 c hc]⟩

theorem dropWhile_front {p : Char → Bool} (o r : Str) (ho : ∀ c ∈ o, p c = true) (hr : ∀ c, r.head? = some c → p c = false) : (o ++ r).dropWhile p = r := by
  induction o with
  | nil =>
    cases r with
    | nil => rfl
    | cons a r => rw [List.nil_append, List.dropWhile_cons, if_neg (by rw [hr a rfl]; decide)]
  | cons a o ih =>
    rw [List.cons_append, List.dropWhile_cons, if_pos (ho a (by simp))]
    exact ih fun c hc => ho c (by simp [hc])

theorem trim_bare (p : Char → Bool) (s t : Str) (h : Bare (fun c => p c = true) s t) : ((s.dropWhile p).reverse.dropWhile p).reverse = t := by
  obtain ⟨o, e, rfl, h1, h2, h3, h4⟩ := h
  cases ht : t with
  | nil =>
    have : (o ++ ([] ++ e)).dropWhile p = [] := by
      have := dropWhile_front (p := p) (o ++ e) [] (by intro c hc; rcases List.mem_append.1 hc with h | h; exact h1 c h; exact h2 c h) (by simp)
      simpa using this
    rw [List.append_assoc, this]; rfl
  | cons x t' =>
    rw [← ht, List.append_assoc, dropWhile_front o (t ++ e) h1 ?_, List.reverse_append, dropWhile_front e.reverse t.reverse ?_ ?_, List.reverse_reverse]
    · intro c hc; exact h2 c (by simpa using hc)
    · intro c hc; rw [List.head?_reverse] at hc; simpa using h4 c hc
    · intro c hc; rw [ht] at hc h3; simpa using h3 c (by simpa using hc)

theorem bare_congr {p q : Char → Prop} (h : ∀ c, p c ↔ q c) (s t : Str) : Bare p s t ↔ Bare q s t := by
  have : p = q := funext fun c => propext (h c)
  rw [this]

/-- a blank -/
def Blank (c : Char) : Prop := c = ' ' ∨ c = '\t' ∨ c = '\n' ∨ c = '\r' ∨ c = '\x0b' ∨ c = '\x0c'

theorem blank_iff (c : Char) : isSpace c = true ↔ Blank c := by
  simp only [isSpace, Blank, Bool.or_eq_true, decide_eq_true_eq, or_assoc]

/-- the text of a comment: without the blanks, then the number signs, then the blanks around it -/
def CommentText (raw t : Str) : Prop := ∃ s1 s2, Bare Blank raw s1 ∧ Bare (· = '#') s1 s2 ∧ Bare Blank s2 t

theorem comStrip_text (raw : Str) : CommentText raw (comStrip raw) := by
  refine ⟨strip raw, stripHash (strip raw), ?_, ?_, ?_⟩
  · exact (bare_congr blank_iff _ _).1 (bare_trim isSpace raw)
  · exact (bare_congr (fun c => by simp) _ _).1 (bare_trim (fun c => c = '#') (strip raw))
  · exact (bare_congr blank_iff _ _).1 (bare_trim isSpace _)

/-- a comment as it is to be shown: without the number signs and the blanks around it, and ending with a dot -/
def ShownComment (raw shown : Str) : Prop := ∃ t, CommentText raw t ∧ ((∃ u, t = u ++ ['.'] ∧ shown = t) ∨ ((∀ u, t ≠ u ++ ['.']) ∧ shown = t ++ ['.']))

theorem withDot_shown (raw : Str) : ShownComment raw (withDot (comStrip raw)) := by
  refine ⟨comStrip raw, comStrip_text raw, ?_⟩
  unfold withDot
  split
  · next h =>
    left
    refine ⟨(comStrip raw).dropLast, ?_, rfl⟩
    obtain ⟨l, hl⟩ := List.getLast?_eq_some_iff.1 h
    rw [hl]; simp
  · next h =>
    right
    refine ⟨?_, rfl⟩
    intro u hu
    apply h
    rw [hu]
    simp

theorem joinLines_ne_nil (sep : Str) (l : List Str) (h : ∃ s ∈ l, s ≠ []) : joinLines sep l ≠ [] := by
  match l with
  | [] => simp at h
  | [s] => simpa [joinLines] using h
  | s :: t :: l =>
    intro e
    simp only [joinLines, List.append_eq_nil_iff] at e
    obtain ⟨x, hx, hx'⟩ := h
    rcases List.mem_cons.1 hx with rfl | hx
    · exact hx' e.1.1
    · exact joinLines_ne_nil sep (t :: l) ⟨x, hx, hx'⟩ e.2

theorem withDot_ne_nil (s : Str) : withDot s ≠ [] := by
  unfold withDot
  split
  · next h => rintro rfl; simp at h
  · simp

/-- **C148** (comments): by default the help is the inline comment of the option if it has one, else the comments above it, one by line, each
ending with a dot; it is "Undocumented" exactly when there is none. -/
theorem C148_comments (c : OptCom) :
    (∀ raw, c.inline = some raw → ∃ s, ShownComment raw s ∧ helpBody (helpComments .auto c) = s) ∧
    (c.inline = none → ∀ raws : List Str, c.above.filterMap id = raws → raws ≠ [] →
      ∃ l : List Str, List.Forall₂ ShownComment raws l ∧ helpBody (helpComments .auto c) = joinLines ['\n'] l) ∧
    (c.inline = none → c.above.filterMap id = [] → helpBody (helpComments .auto c) = "Undocumented".toList) ∧
    (∀ raws : List Str, c.above.filterMap id ++ c.inline.toList = raws → raws ≠ [] →
      ∃ l : List Str, List.Forall₂ ShownComment raws l ∧ helpBody (helpComments .merge c) = joinLines ['\n'] l) := by
  have key : ∀ raws : List Str, raws ≠ [] → ∃ l : List Str, List.Forall₂ ShownComment raws l ∧ helpBody (raws.map comStrip) = joinLines ['\n'] l := by
    intro raws hne
    refine ⟨(raws.map comStrip).map withDot, ?_, ?_⟩
    · rw [List.map_map]
      clear hne
      induction raws with
      | nil => simp
      | cons r raws ih => exact List.Forall₂.cons (withDot_shown r) ih
    · unfold helpBody
      have : joinLines ['\n'] ((raws.map comStrip).map withDot) ≠ [] := by
        apply joinLines_ne_nil
        cases raws with
        | nil => exact absurd rfl hne
        | cons r raws => exact ⟨withDot (comStrip r), by simp, withDot_ne_nil _⟩
      rw [if_neg (by simpa using this)]
  refine ⟨?_, ?_, ?_, ?_⟩
  · intro raw hr
    refine ⟨_, withDot_shown raw, ?_⟩
    have : helpComments .auto c = [comStrip raw] := by simp [helpComments, hr]
    rw [this]
    unfold helpBody
    simp only [List.map_cons, List.map_nil, joinLines]
    rw [if_neg (by simpa using withDot_ne_nil _)]
  · intro hi raws hr hne
    have : helpComments .auto c = raws.map comStrip := by
      show (if (c.inline.toList.map comStrip).isEmpty = true then (c.above.filterMap id).map comStrip else _) = _
      rw [hi, hr]
      rfl
    rw [this]
    exact key raws hne
  · intro hi ha
    have : helpComments .auto c = [] := by
      show (if (c.inline.toList.map comStrip).isEmpty = true then (c.above.filterMap id).map comStrip else _) = _
      rw [hi, ha]
      rfl
    rw [this]
    rfl
  · intro raws hr hne
    have : helpComments .merge c = raws.map comStrip := by
      simp only [helpComments, ← hr, List.map_append]
    rw [this]
    exact key raws hne

/-- **C148 is violated** (percent signs): a comment with a percent sign that is not doubled is not printed as it is. -/
theorem C148_percent_violated (m : HelpMode) (c : OptCom) (d : DfltVal) (a b : Str) (h : helpBody (helpComments m c) = a ++ '%' :: b) (ha : '%' ∉ a)
    (hb : ∀ x, b.head? = some x → x ≠ '%') : pctExpand (shelp m c d) = none := by
  unfold shelp
  rw [h, List.append_assoc, List.append_assoc, List.append_assoc, pctExpand_plain _ ha]
  cases b with
  | nil => rfl
  | cons x b =>
    have hx := hb x rfl
    rw [List.cons_append, List.cons_append, pctExpand_bad _ _ hx]
    rfl

/-- **C148 is violated** (empty inline comments): an option whose inline comment is an empty text — as when the specifications come from a
dictionary — has a dot as its help, whatever the comments above it. -/
theorem C148_empty_violated (above : List (Option Str)) : helpBody (helpComments .auto ⟨above, some []⟩) = ".".toList := rfl

/-- **C148 is violated** (default values): a default value that ends with a parenthesis is shown without it, in particular a call. -/
theorem C148_paren_violated (m : HelpMode) (c : OptCom) (s : Str) (hp : '%' ∉ helpBody (helpComments m c)) :
    pctExpand (shelp m c (.text (s ++ [')']))) ≠ some (helpBody (helpComments m c) ++ " [default: ".toList ++ (s ++ [')']) ++ "]".toList) := by
  rw [printed_plain m c _ hp (stripParens (s ++ [')'])) rfl]
  intro h
  simp only [Option.some.injEq, List.append_cancel_left_eq, List.append_cancel_right_eq] at h
  have h1 := (strip_split (fun c => c = '(' || c = ')') (s ++ [')']))
  obtain ⟨o, e, _, _, _, h4⟩ := h1
  have := h4 ')' (by
    show (stripParens (s ++ [')'])).getLast? = some ')'
    rw [h]
    simp)
  simp at this

/-- the hypotheses are met: an inline comment, comments above, a percent sign -/
example : pctExpand (shelp .auto ⟨[some "# above".toList], some "# inline".toList⟩ (.text "50%".toList)) = some "inline. [default: 50%]".toList ∧
    pctExpand (shelp .auto ⟨[some "# above".toList, some "# two.".toList], none⟩ (.items ["1".toList, "2".toList])) = some "above.\ntwo. [default: 1,2]".toList ∧
    pctExpand (shelp .auto ⟨[], none⟩ (.text "dict(a=1)".toList)) = some "Undocumented [default: dict(a=1]".toList ∧
    pctExpand (shelp .auto ⟨[], some "# in % of it".toList⟩ (.text "1".toList)) = none := by decide +kernel

/-! ## C149: conversion of the help to rst -/

theorem rstLine_header (a : RstArgs) (ha : a.secfmt = none) (st : RstSt) (line : Str) (h : secOf line ≠ none) : ∃ e, rstLine a st line = .error e := by
  unfold rstLine
  obtain ⟨⟨g1, g2⟩, hg⟩ := Option.ne_none_iff_exists'.1 h
  rw [hg]
  show ∃ e, rstSection a st g1 g2 = .error e
  unfold rstSection
  have hf : ∀ x, fmtSec a x = .error .keyError := fun x => by unfold fmtSec; rw [ha]
  cases g2 with
  | none => exact ⟨.keyError, by simp only [hf]⟩
  | some u =>
    simp only
    split
    · cases hp : progOf a st.prog (strip u) with
      | error e => exact ⟨e, by simp⟩
      | ok p => exact ⟨.keyError, by simp only [hf]⟩
    · exact ⟨.keyError, by simp only [hf]⟩

theorem rstLoop_header (a : RstArgs) (ha : a.secfmt = none) (lines : List Str) (h : ∃ l ∈ lines, secOf l ≠ none) (st : RstSt) : ∃ e, rstLoop a st lines = .error e := by
  induction lines generalizing st with
  | nil => simp at h
  | cons line lines ih =>
    unfold rstLoop
    cases hl : rstLine a st line with
    | error e => exact ⟨e, rfl⟩
    | ok r =>
      obtain ⟨out, st'⟩ := r
      have : ∃ l ∈ lines, secOf l ≠ none := by
        obtain ⟨l, hl1, hl2⟩ := h
        rcases List.mem_cons.1 hl1 with rfl | hl1
        · obtain ⟨e, he⟩ := rstLine_header a ha st l hl2
          rw [hl] at he
          simp at he
        · exact ⟨l, hl1, hl2⟩
      obtain ⟨e, he⟩ := ih this st'
      exact ⟨e, by simp only [he]⟩

/-- the header of a section of a help: words, a colon, and possibly a blank and a text -/
def IsHeader (line : Str) : Prop :=
  ∃ w t : Str, line = w ++ ':' :: t ∧ w ≠ [] ∧ (∀ c ∈ w, isWord c = true ∨ isSpace c = true) ∧ (t = [] ∨ ∃ c u, t = ' ' :: c :: u) ∧ ¬ "ex:".toList <:+ lower line

theorem takeDrop_colon (w t : Str) (h : ':' ∉ w) : (w ++ ':' :: t).takeWhile (· ≠ ':') = w ∧ (w ++ ':' :: t).dropWhile (· ≠ ':') = ':' :: t := by
  induction w with
  | nil => simp
  | cons c w ih =>
    simp only [List.mem_cons, not_or] at h
    obtain ⟨i1, i2⟩ := ih h.2
    have hc : (decide (c ≠ ':')) = true := by simpa using fun e => h.1 e.symm
    rw [List.cons_append, List.takeWhile_cons, List.dropWhile_cons, hc]
    simp only [if_true, i1, i2, and_self]

theorem header_secOf (line : Str) (h : IsHeader line) : secOf line ≠ none := by
  obtain ⟨w, t, rfl, hw, hc, ht, hex⟩ := h
  have hcol : ':' ∉ w := by
    intro hm
    rcases hc ':' hm with h | h <;> exact absurd h (by decide)
  obtain ⟨t1, t2⟩ := takeDrop_colon w t hcol
  unfold secOf
  rw [if_neg (by rw [List.isSuffixOf_iff_suffix]; exact hex)]
  unfold reSec
  have hw' : w.isEmpty = false := by
    cases w with
    | nil => exact absurd rfl hw
    | cons => rfl
  have hall : w.all (fun c => isWord c || isSpace c) = true := by
    rw [List.all_eq_true]
    intro c hm
    simpa using hc c hm
  simp only [t1, t2, hw', hall]
  rcases ht with rfl | ⟨c, u, rfl⟩
  · simp
  · simp

/-- **C149 is violated** (headers): with the default format of the names of the sections, no help text that has the header of a section can be converted. -/
theorem C149_header_violated (a : RstArgs) (ha : a.secfmt = none) (prog : Option Str) (lines : List Str) (h : ∃ l ∈ lines, IsHeader l) :
    ∃ e, opt2rst a prog lines = .error e := by
  obtain ⟨l, h1, h2⟩ := h
  obtain ⟨e, he⟩ := rstLoop_header a ha lines ⟨l, h1, header_secOf l h2⟩ ⟨false, none, prog⟩
  exact ⟨e, by simp [opt2rst, he, Except.map]⟩

/-- **C149 is violated** (usage): in particular no help that `argparse` formats, which begins with the usage of the program. -/
theorem C149_usage_violated (a : RstArgs) (ha : a.secfmt = none) (prog : Option Str) (p : Char) (ps : Str) (rest : List Str)
    (hex : ¬ "ex:".toList <:+ lower ("usage: ".toList ++ p :: ps)) : ∃ e, opt2rst a prog (("usage: ".toList ++ p :: ps) :: rest) = .error e := by
  apply C149_header_violated a ha
  refine ⟨_, List.mem_cons_self, "usage".toList, ' ' :: p :: ps, rfl, by decide, by decide, Or.inr ⟨p, ps, rfl⟩, hex⟩

/-- **C149 is violated** (`arg_long_help`): with `rst=True`, the default, it always fails; with `rst=False` it gives bytes. -/
theorem C149_long_help_violated (a : RstArgs) (help : List Str) (h : help ≠ []) :
    argLongHelp a true help = .error .typeError ∧ argLongHelp a false help = .ok (.bytes help) := by
  cases help with
  | nil => exact absurd rfl h
  | cons l ls => exact ⟨rfl, rfl⟩

/-- what the conversion of one line is to give: the directive of an option, its description below; the text of any other line -/
def GoodBlock (a : RstArgs) (line : Str) (block : List Str) : Prop :=
  (secOf line = none → ∀ names desc, a.reOpt line = some (names, desc) →
    block = [[], "\t.. cmdoption:: ".toList ++ names, []] ++ (match desc with | none => [] | some d => ["\t\t".toList ++ strip d])) ∧
  (secOf line = none → a.reOpt line = none → (∃ i : Str, (∀ c ∈ i, c = '\t') ∧ (i ++ line ∈ block ∨ i ++ strip line ∈ block)) ∨
    ∃ w ws, splitWs [] line = w :: ws ∧ "\t.. cmdoption:: ".toList ++ w ∈ block ∧ (ws ≠ [] → "\t\t".toList ++ joinLines [' '] ws ∈ block))

theorem rstOther_block (a : RstArgs) (st st' : RstSt) (line : Str) (out : List Str) (h : rstOther a st line = .ok (out, st')) :
    (∃ i : Str, (∀ c ∈ i, c = '\t') ∧ (i ++ line ∈ out ∨ i ++ strip line ∈ out)) ∨
    ∃ w ws, splitWs [] line = w :: ws ∧ "\t.. cmdoption:: ".toList ++ w ∈ out ∧ (ws ≠ [] → "\t\t".toList ++ joinLines [' '] ws ∈ out) := by
  unfold rstOther at h
  split at h
  · cases hs : splitWs [] line with
    | nil => simp [hs] at h
    | cons w ws =>
      rw [hs] at h
      simp only [Except.ok.injEq, Prod.mk.injEq] at h
      right
      refine ⟨w, ws, rfl, ?_, ?_⟩
      · rw [← h.1]; simp
      · intro hws
        rw [← h.1, if_neg (by simpa using hws)]
        simp
  · split at h
    · simp only [Except.ok.injEq, Prod.mk.injEq] at h
      left
      refine ⟨_, ?_, Or.inr (by rw [← h.1]; exact List.mem_singleton.2 rfl)⟩
      split <;> decide
    · split at h
      · cases hf : fmtSec a a.descname with
        | error e => simp [hf] at h
        | ok f =>
          rw [hf] at h
          simp only [Except.ok.injEq, Prod.mk.injEq] at h
          left
          refine ⟨_, ?_, Or.inl (by rw [← h.1]; exact List.mem_cons_self)⟩
          split <;> simp
      · simp only [Except.ok.injEq, Prod.mk.injEq] at h
        left
        refine ⟨_, ?_, Or.inl (by rw [← h.1]; exact List.mem_singleton.2 rfl)⟩
        split <;> simp

theorem rstLine_block (a : RstArgs) (st st' : RstSt) (line : Str) (out : List Str) (h : rstLine a st line = .ok (out, st')) : GoodBlock a line out := by
  unfold rstLine at h
  cases hs : secOf line with
  | some g => exact ⟨by simp [hs], by simp [hs]⟩
  | none =>
    rw [hs] at h
    cases hr : a.reOpt line with
    | some p =>
      obtain ⟨names, desc⟩ := p
      rw [hr] at h
      simp only [Except.ok.injEq, Prod.mk.injEq] at h
      refine ⟨?_, by simp [hr]⟩
      intro _ n d hnd
      rw [hr] at hnd
      simp only [Option.some.injEq, Prod.mk.injEq] at hnd
      obtain ⟨rfl, rfl⟩ := hnd
      rw [← h.1]
      cases desc <;> rfl
    | none =>
      rw [hr] at h
      exact ⟨by simp [hr], fun _ _ => rstOther_block a st st' line out h⟩

theorem rstLoop_blocks (a : RstArgs) (lines : List Str) (st : RstSt) (out : List Str) (h : rstLoop a st lines = .ok out) :
    ∃ blocks : List (List Str), List.Forall₂ (GoodBlock a) lines blocks ∧ out = blocks.flatten := by
  induction lines generalizing st out with
  | nil =>
    simp only [rstLoop, Except.ok.injEq] at h
    exact ⟨[], .nil, by simp [← h]⟩
  | cons line lines ih =>
    unfold rstLoop at h
    cases hl : rstLine a st line with
    | error e => simp [hl] at h
    | ok r =>
      obtain ⟨o, st'⟩ := r
      simp only [hl] at h
      cases hr : rstLoop a st' lines with
      | error e => simp [hr] at h
      | ok rest =>
        simp only [hr, Except.ok.injEq] at h
        obtain ⟨blocks, hb, rfl⟩ := ih st' rest hr
        exact ⟨o :: blocks, .cons (rstLine_block a st st' line o hl) hb, by rw [← h]; rfl⟩

/-- **C149** (text): when the conversion succeeds, each line of the help has its own lines in the result, in order: options have their directives and
descriptions, and no other text is lost. -/
theorem C149_blocks_partial (a : RstArgs) (prog : Option Str) (lines : List Str) (out : Str) (h : opt2rst a prog lines = .ok out) :
    ∃ blocks : List (List Str), List.Forall₂ (GoodBlock a) lines blocks ∧ out = joinLines ['\n'] blocks.flatten := by
  unfold opt2rst at h
  cases hr : rstLoop a ⟨false, none, prog⟩ lines with
  | error e => simp [hr, Except.map] at h
  | ok o =>
    rw [hr] at h
    simp only [Except.map, Except.ok.injEq] at h
    obtain ⟨blocks, hb, rfl⟩ := rstLoop_blocks a lines _ o hr
    exact ⟨blocks, hb, h.symm⟩

theorem rstOther_ok (a : RstArgs) (st : RstSt) (line : Str) (hb : "  ".toList <+: line → strip line ≠ []) (hw : strip line ≠ [] → splitWs [] line ≠ [])
    (hf : st.sec = none ∨ ∃ f, a.secfmt = some f) : ∃ out st', rstOther a st line = .ok (out, st') ∧ st'.prog = st.prog ∧ (st.sec = none → st'.sec = none) := by
  unfold rstOther
  split
  · next h =>
    have h1 : splitWs [] line ≠ [] := hw (hb (List.isPrefixOf_iff_prefix.1 h.2))
    cases hs : splitWs [] line with
    | nil => exact absurd hs h1
    | cons w ws => exact ⟨_, _, rfl, rfl, id⟩
  · split
    · exact ⟨_, _, rfl, rfl, id⟩
    · split
      · next h =>
        rcases hf with hf | ⟨f, hf⟩
        · rw [hf] at h; simp at h
        · refine ⟨[(if a.descname = "Usage".toList then "\t".toList else []) ++ line, f a.descname, []], ⟨false, some a.descname, st.prog⟩, ?_, rfl, ?_⟩
          · unfold fmtSec; rw [hf]
          · intro hn; rw [hn] at h; simp at h
      · exact ⟨_, _, rfl, rfl, id⟩

theorem splitWs_cur (cur s : Str) (h : cur ≠ []) : splitWs cur s ≠ [] := by
  induction s generalizing cur with
  | nil => simp [splitWs, h]
  | cons c s ih =>
    unfold splitWs
    split
    · simp
    · exact ih (c :: cur) (by simp)

theorem splitWs_ne_nil (s : Str) (h : strip s ≠ []) : splitWs [] s ≠ [] := by
  induction s with
  | nil => exact absurd rfl h
  | cons c s ih =>
    unfold splitWs
    cases hc : isSpace c with
    | true =>
      rw [if_pos rfl, if_pos rfl]
      apply ih
      have : strip (c :: s) = strip s := by unfold strip lstrip; rw [List.dropWhile_cons, hc]; rfl
      rwa [this] at h
    | false => exact splitWs_cur [c] s (by simp)

/-- **C149** (success): a text without headers is always converted, and any text is when the format of the names of the sections has no named field and
the name of the program is given, provided that no line is made of blanks only. -/
theorem C149_success_partial (a : RstArgs) (prog : Option Str) (lines : List Str) (hb : ∀ l ∈ lines, "  ".toList <+: l → strip l ≠ [])
    (h : (∀ l ∈ lines, secOf l = none) ∨ (∃ f, a.secfmt = some f) ∧ ∃ p, prog = some p) : ∃ out, opt2rst a prog lines = .ok out := by
  have key : ∀ (lines : List Str), (∀ l ∈ lines, "  ".toList <+: l → strip l ≠ []) → ∀ st : RstSt,
      ((∀ l ∈ lines, secOf l = none) ∧ st.sec = none ∨ (∃ f, a.secfmt = some f) ∧ ∃ p, st.prog = some p) → ∃ out, rstLoop a st lines = .ok out := by
    intro lines
    induction lines with
    | nil => intro _ st _; exact ⟨[], rfl⟩
    | cons line lines ih =>
      intro hl st hst
      have h1 : ∃ out st', rstLine a st line = .ok (out, st') ∧ (st.sec = none → secOf line = none → st'.sec = none) ∧
          ∀ p, st.prog = some p → st'.prog = some p := by
        unfold rstLine
        cases hs : secOf line with
        | some g =>
          obtain ⟨g1, g2⟩ := g
          rcases hst with hst | ⟨⟨f, hf⟩, p, hp⟩
          · rw [hst.1 line (by simp)] at hs; simp at hs
          · show ∃ out st', rstSection a st g1 g2 = .ok (out, st') ∧ _
            have hfm : ∀ x, fmtSec a x = .ok (f x) := fun x => by unfold fmtSec; rw [hf]
            unfold rstSection
            cases g2 with
            | none => exact ⟨[f (strip (titleFrom true g1)), []], ⟨st.multi, some (strip (titleFrom true g1)), st.prog⟩, by simp only [hfm], by simp, fun p hp => hp⟩
            | some u =>
              simp only [hfm, hp, progOf]
              split
              · exact ⟨_, _, rfl, by simp, by simp⟩
              · exact ⟨_, _, rfl, by simp, by simp⟩
        | none =>
          cases hr : a.reOpt line with
          | some p => obtain ⟨n, d⟩ := p; exact ⟨_, _, rfl, fun h _ => h, fun p h => h⟩
          | none =>
            obtain ⟨out, st', e1, e2, e3⟩ := rstOther_ok a st line (hl line (by simp)) (splitWs_ne_nil line)
              (by rcases hst with h | h
                  · exact Or.inl h.2
                  · exact Or.inr h.1)
            exact ⟨out, st', e1, fun h _ => e3 h, fun p h => by rw [e2, h]⟩
      obtain ⟨out, st', e1, e2, e2'⟩ := h1
      obtain ⟨rest, e3⟩ := ih (fun l hm => hl l (by simp [hm])) st' (by
        rcases hst with h | ⟨h, p, hp⟩
        · exact Or.inl ⟨fun l hm => h.1 l (by simp [hm]), e2 h.2 (h.1 line (by simp))⟩
        · exact Or.inr ⟨h, p, e2' p hp⟩)
      exact ⟨out ++ rest, by unfold rstLoop; simp only [e1, e3]⟩
  obtain ⟨out, ho⟩ := key lines hb ⟨false, none, prog⟩ (by
    rcases h with h | h
    · exact Or.inl ⟨h, rfl⟩
    · exact Or.inr h)
  exact ⟨_, by unfold opt2rst; rw [ho]; rfl⟩

/-- the hypotheses are met: a line of an option, of a header, and others -/
example : let a : RstArgs := ⟨none, "Description".toList, fun l => if l = "  --a A  the a".toList then some ("--a A".toList, some "the a".toList) else none, id⟩
    opt2rst a none ["  --a A  the a".toList, "     of x".toList, "end".toList] = .ok "\n\t.. cmdoption:: --a A\n\n\t\tthe a\n\t\tof x\nend".toList ∧
    opt2rst a none ["usage: prog [-h]".toList] = .error .keyError ∧
    opt2rst { a with secfmt := some fun s => ":".toList ++ s ++ ":".toList } none ["optional arguments:".toList, "  --a A  the a".toList] =
      .ok ":Optional Arguments:\n\n\n\t.. cmdoption:: --a A\n\n\t\tthe a".toList := by decide +kernel

/-! ## C150: declarations of the command line options -/

/-- the arguments that an extra option is to be declared with: those which are given, a dictionary alone being the keywords, and one argument alone having none -/
inductive DeclaredAs {A K : Type} (noKw : K) : ExtraOpt A K → List A → K → Prop
  | one (a : A) : DeclaredAs noKw (.one a) [a] noKw
  | dict (k : K) : DeclaredAs noKw (.dict k) [] k
  | pair (a : List A) (k : K) : DeclaredAs noKw (.pair a k) a k

theorem declaredAs_call {A K : Type} (noKw : K) (e : ExtraOpt A K) : DeclaredAs noKw e (e.call noKw).1 (e.call noKw).2 := by
  cases e
  · exact .one _
  · exact .dict _
  · exact .pair _ _

/-- **C150 is violated** (extra options): only the last of the extra options is declared. -/
theorem C150_extra_violated {A K : Type} (noKw : K) (ex : List (ExtraOpt A K)) (e : ExtraOpt A K) :
    ∃ a k, DeclaredAs noKw e a k ∧ extraCalls noKw (ex ++ [e]) = [(a, k)] :=
  ⟨_, _, declaredAs_call noKw e, by simp [extraCalls]⟩

/-- **C150** (extra options): one extra option is declared with its arguments, and none is allowed. -/
theorem C150_extra_partial {A K : Type} (noKw : K) (e : ExtraOpt A K) :
    (∃ a k, DeclaredAs noKw e a k ∧ extraCalls noKw [e] = [(a, k)]) ∧ extraCalls noKw ([] : List (ExtraOpt A K)) = [] :=
  ⟨⟨_, _, declaredAs_call noKw e, by simp [extraCalls]⟩, rfl⟩

/-- **C150 is violated** (title of the options out of the sections): when the only comment at the top of the specifications is the coding line, no
option can be declared; otherwise they always can. -/
theorem C150_coding_violated (coding : Str → Bool) (initial : List Str) : globalDesc coding initial = none ↔ ∃ c, initial = [c] ∧ coding c = true := by
  match initial with
  | [] => simp [globalDesc]
  | [c] => cases h : coding c <;> simp [globalDesc, h]
  | c :: d :: l => cases h : coding c <;> simp [globalDesc, h]

/-- a text on both sides of its first colon -/
theorem splitColon_spec (a b : Str) (ha : ':' ∉ a) : splitColon (a ++ ':' :: b) = [a, b] := by
  obtain ⟨t1, t2⟩ := takeDrop_colon a b ha
  unfold splitColon
  rw [t1, t2, if_pos (by simp)]
  rfl

/-- number sign or blank -/
def HashBlank (c : Char) : Prop := c = '#' ∨ c = ' '

theorem stripHashBlank_bare (c t : Str) (h : Bare HashBlank c t) : stripHashBlank c = t :=
  trim_bare _ c t ((bare_congr (fun c => by simp [HashBlank]) _ _).1 h)

/-- **C150** (titles of the groups): a section whose comment is `title: description` gives its group this title and this description; any other comment is
the description of a group named after the section; a section without comment gives its name only. The comment is taken without the number signs and the
spaces around it. -/
theorem C150_groups (key : Str) :
    (∀ c a b, Bare HashBlank c (a ++ ':' :: b) → ':' ∉ a → sectionDesc key (some c) = [a, b]) ∧
    (∀ c t, Bare HashBlank c t → ':' ∉ t → sectionDesc key (some c) = [lower key, t]) ∧ sectionDesc key none = [key] := by
  refine ⟨?_, ?_, rfl⟩
  · intro c a b h ha
    show (if (stripHashBlank c).contains ':' then splitColon (stripHashBlank c) else _) = _
    rw [stripHashBlank_bare _ _ h, if_pos (by simp), splitColon_spec a b ha]
  · intro c t h ht
    show (if (stripHashBlank c).contains ':' then splitColon (stripHashBlank c) else _) = _
    rw [stripHashBlank_bare _ _ h, if_neg (by simpa using ht)]

/-- **C150** (title of the options out of the sections): with a coding line at the top of the specifications, the comment that follows it, without the number
signs and the spaces around it, gives the title, and the description if it has a colon; without coding line the title is the standard one. -/
theorem C150_global_title (coding : Str → Bool) (c d : Str) (l : List Str) :
    (coding c = true → ∀ a b, Bare HashBlank d (a ++ ':' :: b) → ':' ∉ a → globalDesc coding (c :: d :: l) = some [a, b]) ∧
    (coding c = true → ∀ t, Bare HashBlank d t → ':' ∉ t → globalDesc coding (c :: d :: l) = some [t]) ∧
    (coding c = false → ∀ r, globalDesc coding (c :: r) = some ["global configuration options".toList]) ∧
    globalDesc coding [] = some ["global configuration options".toList] := by
  refine ⟨?_, ?_, ?_, rfl⟩
  · intro hc a b h ha
    show (if coding c = true then some (splitColon (stripHashBlank d)) else _) = _
    rw [if_pos hc, stripHashBlank_bare _ _ h, splitColon_spec a b ha]
  · intro hc t h ht
    show (if coding c = true then some (splitColon (stripHashBlank d)) else _) = _
    rw [if_pos hc, stripHashBlank_bare _ _ h]
    unfold splitColon
    rw [if_neg (by simpa using ht)]
  · intro hc r
    unfold globalDesc
    simp [hc]

example : Bare HashBlank "# Title: text ".toList ("Title".toList ++ ':' :: " text".toList) :=
  ⟨"# ".toList, " ".toList, by decide, by simp [HashBlank], by simp [HashBlank],
    by intro c h; have e : some 'T' = some c := h; cases e; simp [HashBlank], by intro c h; have e : some 't' = some c := h; cases e; simp [HashBlank]⟩

/-- **C150** (validators): the text of an option of a section is checked with the functions given to the manager, and with those of the package for the
other types. -/
theorem C150_check_partial {V : Type} (pkg functions : Vtor V) (path : List Str) (hp : path ≠ []) (ty text : Str) :
    (∀ f, lookupS ty functions = some f → commandCheck pkg functions path ty text = f text) ∧
    (∀ f, lookupS ty functions = none → lookupS ty pkg = some f → commandCheck pkg functions path ty text = f text) := by
  unfold commandCheck
  rw [if_neg hp]
  constructor
  · intro f h
    unfold getValidator Vtor.check
    rw [lookupS_append, h]
    rfl
  · intro f h h'
    unfold getValidator Vtor.check
    rw [lookupS_append, h, h']
    rfl

/-- **C150 is violated** (validators): an option out of the sections whose type is one of the functions given to the manager, and not one of the package,
cannot be given on the command line. -/
theorem C150_check_violated {V : Type} (pkg functions : Vtor V) (ty text : Str) (h : lookupS ty pkg = none) : commandCheck pkg functions [] ty text = none := by
  unfold commandCheck getValidator Vtor.check
  simp [h]

/-- the hypotheses are met: two extra options, a coding line, a function of the user -/
example : extraCalls () [ExtraOpt.pair ["--a".toList] (), .pair ["--b".toList] ()] = [(["--b".toList], ())] ∧
    globalDesc (fun s => s.contains '*') ["# -*- coding: utf8 -*-".toList] = none ∧
    globalDesc (fun s => s.contains '*') ["# -*- coding: utf8 -*-".toList, "# Title: text".toList] = some ["Title".toList, " text".toList] ∧
    sectionDesc "Sec".toList (some "# the section".toList) = ["sec".toList, "the section".toList] ∧
    commandCheck [] [("my".toList, fun s => some s)] ["s".toList] "my".toList "x".toList = some "x".toList ∧
    commandCheck [] [("my".toList, fun s => some s)] [] "my".toList "x".toList = none := by decide +kernel

end Xoa
