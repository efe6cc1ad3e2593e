import Verif.Validators
import Verif.CfgmProps
import Mathlib.Tactic.Linarith
import Mathlib.Tactic.NormNum

/-!
# C122-C124: boxes, intervals, colors
-/

namespace Xoa

/-! ## splitting -/

theorem splitWs_word (w cur r : Str) (h : ∀ c ∈ w, isSpace c = false) : splitWs cur (w ++ r) = splitWs (w.reverse ++ cur) r := by
  induction w generalizing cur with
  | nil => rfl
  | cons c w ih =>
    rw [List.cons_append, splitWs, h c (by simp)]
    simp only [Bool.false_eq_true, if_false]
    rw [ih _ (fun x hx => h x (by simp [hx]))]
    simp

theorem splitWs_blanks (b r : Str) (h : ∀ c ∈ b, isSpace c = true) : splitWs [] (b ++ r) = splitWs [] r := by
  induction b with
  | nil => rfl
  | cons c b ih =>
    rw [List.cons_append, splitWs, h c (by simp)]
    simp only [if_true]
    exact ih (fun x hx => h x (by simp [hx]))

theorem splitWs_end (cur b r : Str) (hc : cur ≠ []) (h : ∀ c ∈ b, isSpace c = true) (hb : b ≠ []) : splitWs cur (b ++ r) = cur.reverse :: splitWs [] r := by
  cases b with
  | nil => exact absurd rfl hb
  | cons c b =>
    rw [List.cons_append, splitWs, h c (by simp)]
    simp only [if_true, if_neg hc]
    rw [splitWs_blanks b r (fun x hx => h x (by simp [hx]))]

theorem splitComma_word (w cur r : Str) (h : ',' ∉ w) : splitComma cur (w ++ r) = splitComma (w.reverse ++ cur) r := by
  induction w generalizing cur with
  | nil => rfl
  | cons c w ih =>
    simp only [List.mem_cons, not_or] at h
    rw [List.cons_append, splitComma, if_neg (fun e => h.1 e.symm), ih _ h.2]
    simp

theorem splitComma_ne_nil (cur s : Str) : splitComma cur s ≠ [] := by
  induction s generalizing cur with
  | nil => simp [splitComma]
  | cons c s ih =>
    rw [splitComma]
    split
    · simp
    · exact ih _

/-! ## boxes -/

/-- a text without blanks and commas, that is read as the number `x` -/
structure NumberText {F : Type} (toFloat : Str → Option F) (w : Str) (x : F) : Prop where
  nonempty : w ≠ []
  chars : ∀ c ∈ w, isSpace c = false ∧ c ≠ ','
  read : toFloat w = some x

/-- a separator of two coordinates: a comma, or blanks -/
def BoxSep (s : Str) : Prop := s = [','] ∨ (s ≠ [] ∧ ∀ c ∈ s, isSpace c = true)

/-- only blanks -/
def OnlyBlanks (s : Str) : Prop := ∀ c ∈ s, isSpace c = true

/-- the pieces of the text: those of its words -/
def boxPieces (cur : Str) (s : Str) : List Str := (splitWs cur s).flatMap (splitComma [])

theorem flatMap_word (w : Str) (h : ',' ∉ w) : splitComma [] w = [w] := by
  have := splitComma_word w [] [] h
  rw [List.append_nil] at this
  rw [this]
  simp [splitComma]

/-- the pieces after a word and its separator; `pre` holds the previous pieces of the current word, each followed by a comma -/
theorem boxPieces_sep (cur w sep r : Str) (hw : w ≠ []) (hc : ∀ c ∈ w, isSpace c = false ∧ c ≠ ',') (hsep : sep ≠ [] ∧ ∀ c ∈ sep, isSpace c = true) :
    boxPieces cur (w ++ (sep ++ r)) = splitComma [] (cur.reverse ++ w) ++ boxPieces [] r := by
  unfold boxPieces
  rw [splitWs_word _ _ _ (fun c h => (hc c h).1), splitWs_end _ _ _ (by simp [hw]) hsep.2 hsep.1]
  simp

theorem boxPieces_comma (cur w r : Str) (hc : ∀ c ∈ w, isSpace c = false ∧ c ≠ ',') :
    boxPieces cur (w ++ (',' :: r)) = boxPieces (',' :: (w.reverse ++ cur)) r := by
  unfold boxPieces
  rw [splitWs_word _ _ _ (fun c h => (hc c h).1), splitWs]
  rw [if_neg (by decide)]

theorem boxPieces_last (cur w b : Str) (hw : w ≠ []) (hc : ∀ c ∈ w, isSpace c = false ∧ c ≠ ',') (hb : OnlyBlanks b) :
    boxPieces cur (w ++ b) = splitComma [] (cur.reverse ++ w) := by
  unfold boxPieces
  rw [splitWs_word _ _ _ (fun c h => (hc c h).1)]
  have hne : w.reverse ++ cur ≠ [] := by simp [hw]
  cases b with
  | nil => rw [splitWs, if_neg hne]; simp
  | cons c b =>
    have := splitWs_end (w.reverse ++ cur) (c :: b) [] hne hb (by simp)
    rw [List.append_nil] at this
    rw [this]
    simp [splitWs]

/-- the pieces of the words that are already read, given that the current word is `cur` -/
theorem splitComma_append_comma (p w : Str) : splitComma [] (p ++ ',' :: w) = splitComma [] p ++ splitComma [] w := by
  have : ∀ cur : Str, splitComma cur (p ++ ',' :: w) = splitComma cur p ++ splitComma [] w := by
    induction p with
    | nil => intro cur; simp [splitComma]
    | cons c p ih =>
      intro cur
      rw [List.cons_append, splitComma, splitComma]
      split
      · rw [ih]; rfl
      · rw [ih]
  exact this []

/-- a current word that ends with a comma (or is empty) after the pieces `ps` -/
def Pending (cur : Str) (ps : List Str) : Prop := (cur = [] ∧ ps = []) ∨ ∃ p, cur.reverse = p ++ [','] ∧ splitComma [] p = ps

theorem pending_word {cur : Str} {ps : List Str} (h : Pending cur ps) (w : Str) (hc : ',' ∉ w) : splitComma [] (cur.reverse ++ w) = ps ++ [w] := by
  rcases h with ⟨rfl, rfl⟩ | ⟨p, e, rfl⟩
  · simpa using flatMap_word w hc
  · rw [e, List.append_assoc, List.singleton_append, splitComma_append_comma, flatMap_word w hc]

/-- one word and its separator -/
theorem boxPieces_step {cur : Str} {ps : List Str} (h : Pending cur ps) (w sep : Str) (hw : w ≠ []) (hc : ∀ c ∈ w, isSpace c = false ∧ c ≠ ',') (hs : BoxSep sep) :
    ∃ cur' ps', Pending cur' ps' ∧ ∃ done, done ++ ps' = ps ++ [w] ∧ ∀ r, boxPieces cur (w ++ (sep ++ r)) = done ++ boxPieces cur' r := by
  have hcomma : ',' ∉ w := fun hm => (hc _ hm).2 rfl
  rcases hs with rfl | hs
  · refine ⟨',' :: (w.reverse ++ cur), ps ++ [w], Or.inr ⟨cur.reverse ++ w, by simp, pending_word h w hcomma⟩, [], rfl, fun r => ?_⟩
    exact boxPieces_comma cur w r hc
  · refine ⟨[], [], Or.inl ⟨rfl, rfl⟩, ps ++ [w], by simp, fun r => ?_⟩
    rw [boxPieces_sep cur w sep r hw hc hs, pending_word h w hcomma]

theorem boxPieces_four (b w1 s1 w2 s2 w3 s3 w4 e : Str) (hb : OnlyBlanks b) (he : OnlyBlanks e)
    (hw : ∀ w ∈ [w1, w2, w3, w4], w ≠ [] ∧ ∀ c ∈ w, isSpace c = false ∧ c ≠ ',') (hs : ∀ s ∈ [s1, s2, s3], BoxSep s) :
    boxPieces [] (b ++ (w1 ++ (s1 ++ (w2 ++ (s2 ++ (w3 ++ (s3 ++ (w4 ++ e)))))))) = [w1, w2, w3, w4] := by
  have h0 : Pending [] [] := Or.inl ⟨rfl, rfl⟩
  obtain ⟨a1, a2⟩ := hw w1 (by simp)
  obtain ⟨b1, b2⟩ := hw w2 (by simp)
  obtain ⟨c1, c2⟩ := hw w3 (by simp)
  obtain ⟨d1, d2⟩ := hw w4 (by simp)
  obtain ⟨cur1, ps1, p1, d1', e1, f1⟩ := boxPieces_step h0 w1 s1 a1 a2 (hs s1 (by simp))
  obtain ⟨cur2, ps2, p2, d2', e2, f2⟩ := boxPieces_step p1 w2 s2 b1 b2 (hs s2 (by simp))
  obtain ⟨cur3, ps3, p3, d3', e3, f3⟩ := boxPieces_step p2 w3 s3 c1 c2 (hs s3 (by simp))
  have hstart : ∀ r, boxPieces [] (b ++ r) = boxPieces [] r := by
    intro r; unfold boxPieces; rw [splitWs_blanks b r hb]
  rw [hstart, f1, f2, f3, boxPieces_last cur3 w4 e d1 d2 he, pending_word p3 w4 (fun hm => (d2 _ hm).2 rfl)]
  rw [← List.append_assoc d3', e3, List.append_assoc, ← List.append_assoc d2', e2, List.append_assoc, ← List.append_assoc d1', e1]
  rfl

theorem boxText_not_special (b w1 r : Str) (h : w1 ≠ []) (hr : ∃ c ∈ r, c ≠ 'N' ∧ c ≠ 'o' ∧ c ≠ 'n' ∧ c ≠ 'e') :
    VdVal.text (b ++ (w1 ++ r)) ≠ .text "None".toList ∧ VdVal.text (b ++ (w1 ++ r)) ≠ .text [] := by
  constructor
  · intro e
    injection e with e
    obtain ⟨c, hc, h1, h2, h3, h4⟩ := hr
    have : c ∈ "None".toList := by rw [← e]; simp [hc]
    simp only [show "None".toList = ['N', 'o', 'n', 'e'] from rfl, List.mem_cons, List.not_mem_nil, or_false] at this
    rcases this with h | h | h | h <;> contradiction
  · intro e
    injection e with e
    simp only [List.append_eq_nil_iff] at e
    exact h e.2.1

/-- a separator has a character that is not a letter -/
theorem sep_char (s r : Str) (h : BoxSep s) : ∃ c ∈ s ++ r, c ≠ 'N' ∧ c ≠ 'o' ∧ c ≠ 'n' ∧ c ≠ 'e' := by
  rcases h with rfl | ⟨h1, h2⟩
  · exact ⟨',', by simp, by decide⟩
  · cases s with
    | nil => exact absurd rfl h1
    | cons c s =>
      have := h2 c (by simp)
      refine ⟨c, by simp, ?_, ?_, ?_, ?_⟩ <;> (rintro rfl; exact absurd this (by decide))

/-- **C122**: four numbers separated by commas or by blanks are read as a box. -/
theorem C122_bbox {F : Type} (toFloat : Str → Option F) (dflt : VdVal) (b w1 s1 w2 s2 w3 s3 w4 e : Str) (x1 x2 x3 x4 : F)
    (hb : OnlyBlanks b) (he : OnlyBlanks e) (h1 : NumberText toFloat w1 x1) (h2 : NumberText toFloat w2 x2) (h3 : NumberText toFloat w3 x3)
    (h4 : NumberText toFloat w4 x4) (hs1 : BoxSep s1) (hs2 : BoxSep s2) (hs3 : BoxSep s3) :
    isBbox toFloat dflt (.text (b ++ w1 ++ s1 ++ w2 ++ s2 ++ w3 ++ s3 ++ w4 ++ e)) = .ok (some [x1, x2, x3, x4]) := by
  have hw : ∀ w ∈ [w1, w2, w3, w4], w ≠ [] ∧ ∀ c ∈ w, isSpace c = false ∧ c ≠ ',' := by
    intro w hm
    simp only [List.mem_cons, List.not_mem_nil, or_false] at hm
    rcases hm with rfl | rfl | rfl | rfl
    exacts [⟨h1.nonempty, h1.chars⟩, ⟨h2.nonempty, h2.chars⟩, ⟨h3.nonempty, h3.chars⟩, ⟨h4.nonempty, h4.chars⟩]
  have hs : ∀ s ∈ [s1, s2, s3], BoxSep s := by
    intro s hm
    simp only [List.mem_cons, List.not_mem_nil, or_false] at hm
    rcases hm with rfl | rfl | rfl
    exacts [hs1, hs2, hs3]
  have hp := boxPieces_four b w1 s1 w2 s2 w3 s3 w4 e hb he hw hs
  obtain ⟨n1, n2⟩ := boxText_not_special b w1 _ h1.nonempty (sep_char s1 (w2 ++ (s2 ++ (w3 ++ (s3 ++ (w4 ++ e))))) hs1)
  simp only [List.append_assoc]
  unfold isBbox
  rw [if_neg (by rintro (h | h); exacts [VdVal.noConfusion h, n1 h]), if_neg n2]
  dsimp only
  unfold boxPieces at hp
  rw [hp]
  simp [h1.read, h2.read, h3.read, h4.read]

/-- **C122** (refused): a text whose words are not four numbers is refused (an empty text stands for the default). -/
theorem C122_count {F : Type} (toFloat : Str → Option F) (dflt : VdVal) (s : Str) (h0 : s ≠ []) (hn : s ≠ "None".toList) (r : Option (List F))
    (h : isBbox toFloat dflt (.text s) = .ok r) : ∃ x1 x2 x3 x4, r = some [x1, x2, x3, x4] := by
  unfold isBbox at h
  rw [if_neg (by rintro (h | h); exacts [VdVal.noConfusion h, hn (VdVal.text.inj h)]), if_neg (fun e => h0 (VdVal.text.inj e))] at h
  dsimp only at h
  split at h
  · cases h
  · next hl =>
    cases hm : ((splitWs [] s).flatMap (splitComma [])).mapM toFloat with
    | none => rw [hm] at h; cases h
    | some l =>
      rw [hm] at h
      injection h with h
      have hlen : l.length = 4 := by
        have := ((mapM_eq_some _ _ _).1 hm).1
        omega
      match l, hlen with
      | [a, b, c, d], _ => exact ⟨a, b, c, d, h.symm⟩

/-- **C122 is violated** when the commas are followed by blanks: such a text is always refused. -/
theorem C122_comma_blank_violated {F : Type} (toFloat : Str → Option F) (dflt : VdVal) (w1 w2 w3 w4 : Str)
    (hw : ∀ w ∈ [w1, w2, w3, w4], w ≠ [] ∧ ∀ c ∈ w, isSpace c = false ∧ c ≠ ',') :
    isBbox toFloat dflt (.text (w1 ++ ", ".toList ++ w2 ++ ", ".toList ++ w3 ++ ", ".toList ++ w4)) = .error .vdt := by
  obtain ⟨a1, a2⟩ := hw w1 (by simp)
  obtain ⟨b1, b2⟩ := hw w2 (by simp)
  obtain ⟨c1, c2⟩ := hw w3 (by simp)
  obtain ⟨d1, d2⟩ := hw w4 (by simp)
  have step : ∀ w r : Str, w ≠ [] → (∀ c ∈ w, isSpace c = false ∧ c ≠ ',') → boxPieces [] (w ++ (',' :: ' ' :: r)) = [w, []] ++ boxPieces [] r := by
    intro w r h1 h2
    rw [boxPieces_comma [] w _ h2]
    unfold boxPieces
    rw [splitWs, if_pos (by decide), if_neg (by simp)]
    rw [List.flatMap_cons]
    congr 1
    have : (',' :: (w.reverse ++ [])).reverse = w ++ ',' :: [] := by simp
    rw [this, splitComma_append_comma, flatMap_word w (fun hm => (h2 _ hm).2 rfl)]
    rfl
  have hp : boxPieces [] (w1 ++ (',' :: ' ' :: (w2 ++ (',' :: ' ' :: (w3 ++ (',' :: ' ' :: w4)))))) = [w1, [], w2, [], w3, [], w4] := by
    rw [step w1 _ a1 a2, step w2 _ b1 b2, step w3 _ c1 c2]
    have := boxPieces_last [] w4 [] d1 d2 (by intro c hc; simp at hc)
    rw [List.append_nil] at this
    rw [this]
    simp [flatMap_word w4 (fun hm => (d2 _ hm).2 rfl)]
  have e : w1 ++ ", ".toList ++ w2 ++ ", ".toList ++ w3 ++ ", ".toList ++ w4 = w1 ++ (',' :: ' ' :: (w2 ++ (',' :: ' ' :: (w3 ++ (',' :: ' ' :: w4))))) := by
    simp [show ", ".toList = [',', ' '] from rfl]
  rw [e]
  obtain ⟨n1, n2⟩ := boxText_not_special [] w1 (',' :: ' ' :: (w2 ++ (',' :: ' ' :: (w3 ++ (',' :: ' ' :: w4))))) a1 ⟨',', by simp, by decide⟩
  rw [List.nil_append] at n1 n2
  unfold isBbox
  rw [if_neg (by rintro (h | h); exacts [VdVal.noConfusion h, n1 h]), if_neg n2]
  dsimp only
  unfold boxPieces at hp
  rw [hp]
  rfl

/-- **C122 is violated** for lists, which is what a value with commas is in a configuration file: `AttributeError` -/
theorem C122_list_violated {F : Type} (toFloat : Str → Option F) (dflt : VdVal) (l : List Str) : isBbox toFloat dflt (.list l) = .error .attr := by
  unfold isBbox
  rw [if_neg (by simp), if_neg (by simp)]

/-- an empty text stands for the default, `None` and "None" for nothing -/
theorem C122_default {F : Type} (toFloat : Str → Option F) (dflt : VdVal) :
    isBbox toFloat dflt .none = .ok none ∧ isBbox toFloat dflt (.text "None".toList) = .ok none ∧
    (∀ s, s ≠ [] → s ≠ "None".toList → isBbox toFloat (.text s) (.text []) = isBbox toFloat dflt (.text s)) := by
  refine ⟨rfl, rfl, fun s h1 h2 => ?_⟩
  unfold isBbox
  rw [if_neg (by simp), if_pos rfl, if_neg (by rintro (h | h); exacts [VdVal.noConfusion h, h2 (VdVal.text.inj h)]), if_neg (fun e => h1 (VdVal.text.inj e))]

/-! ## intervals -/

/-- only brackets, parentheses and blanks -/
def OnlyBrackets (s : Str) : Prop := ∀ c ∈ s, c ∈ ['(', ')', '[', ']', ' ']

theorem isBracket_iff (c : Char) : isBracket c = true ↔ c ∈ ['(', ')', '[', ']', ' '] := by
  unfold isBracket
  simp [or_assoc]

theorem dropWhile_pre {α : Type} (p : α → Bool) (a b : List α) (ha : ∀ x ∈ a, p x = true) (hb : ∀ x, b.head? = some x → p x = false) :
    (a ++ b).dropWhile p = b := by
  induction a with
  | nil =>
    cases b with
    | nil => rfl
    | cons x b => rw [List.nil_append, List.dropWhile_cons_of_neg]; simp [hb x rfl]
  | cons x a ih => rw [List.cons_append, List.dropWhile_cons_of_pos (ha x (by simp)), ih (fun y hy => ha y (by simp [hy]))]

theorem stripBrackets_eq (o s e : Str) (ho : OnlyBrackets o) (he : OnlyBrackets e) (hs : ∀ c, s.head? = some c → c ∉ ['(', ')', '[', ']', ' '])
    (hl : ∀ c, s.getLast? = some c → c ∉ ['(', ')', '[', ']', ' ']) (hne : s ≠ []) : stripBrackets (o ++ s ++ e) = s := by
  have neg : ∀ c, c ∉ ['(', ')', '[', ']', ' '] → isBracket c = false := by
    intro c h
    cases hb : isBracket c with
    | false => rfl
    | true => exact absurd ((isBracket_iff c).1 hb) h
  unfold stripBrackets
  rw [List.append_assoc, dropWhile_pre _ o _ (fun x hx => (isBracket_iff x).2 (ho x hx))]
  · rw [List.reverse_append, dropWhile_pre _ e.reverse _ (fun x hx => (isBracket_iff x).2 (he x (by simpa using hx)))]
    · simp
    · intro x hx
      rw [List.head?_reverse] at hx
      exact neg x (hl x hx)
  · intro x hx
    cases s with
    | nil => exact absurd rfl hne
    | cons c s => exact neg x (hs x (by simpa using hx))

/-- `eval`, or the text itself: what a limit of the interval becomes -/
def Limit {F : Type} (ev : Str → Option F) (a : Str) (x : F ⊕ Str) : Prop :=
  (∀ y, ev a = some y → x = .inl y) ∧ (ev a = none → x = .inr a)

theorem limit_evalOr {F : Type} (ev : Str → Option F) (a : Str) : Limit ev a (evalOr ev a) := by
  unfold Limit evalOr
  cases h : ev a <;> simp

theorem limit_unique {F : Type} {ev : Str → Option F} {a : Str} {x : F ⊕ Str} (h : Limit ev a x) : x = evalOr ev a := by
  unfold evalOr
  cases hv : ev a with
  | none => exact h.2 hv
  | some y => exact h.1 y hv

/-- bounds of intervals: one or two letters `c` (closed) or `o` (open), then at most two letters `n` or `e` -/
def BoundsText (s : Str) : Prop :=
  ∃ a b, s = a ++ b ∧ 1 ≤ a.length ∧ a.length ≤ 2 ∧ b.length ≤ 2 ∧ (∀ c ∈ a, c = 'c' ∨ c = 'o') ∧ ∀ c ∈ b, c = 'n' ∨ c = 'e'

theorem takeWhile_pre {α : Type} (p : α → Bool) (a b : List α) (ha : ∀ x ∈ a, p x = true) (hb : ∀ x, b.head? = some x → p x = false) :
    (a ++ b).takeWhile p = a := by
  induction a with
  | nil =>
    cases b with
    | nil => rfl
    | cons x b => rw [List.nil_append, List.takeWhile_cons_of_neg]; simp [hb x rfl]
  | cons x a ih => rw [List.cons_append, List.takeWhile_cons_of_pos (ha x (by simp)), ih (fun y hy => ha y (by simp [hy]))]

theorem boundsSearch_text (blanks s : Str) (hb : ∀ c ∈ blanks, c ≠ 'c' ∧ c ≠ 'o') (h : BoundsText s) : boundsSearch (blanks ++ s) = some s := by
  induction blanks with
  | nil =>
    obtain ⟨a, b, rfl, h1, h2, h3, h4, h5⟩ := h
    cases a with
    | nil => simp at h1
    | cons c a =>
      rw [List.nil_append, List.cons_append, boundsSearch, if_pos (h4 c (by simp))]
      have t1 : (c :: (a ++ b)).takeWhile (fun c => c = 'c' || c = 'o') = c :: a := by
        have := takeWhile_pre (fun c => decide (c = 'c') || decide (c = 'o')) (c :: a) b (by intro x hx; simpa using h4 x hx) (by
          intro x hx
          cases b with
          | nil => simp at hx
          | cons y b =>
            simp only [List.head?_cons, Option.some.injEq] at hx
            subst hx
            rcases h5 y (by simp) with rfl | rfl <;> decide)
        simpa using this
      have t2 : (c :: a).take 2 = c :: a := List.take_of_length_le h2
      have t3 : (c :: (a ++ b)).drop (c :: a).length = b := by
        have := List.drop_left (l₁ := c :: a) (l₂ := b)
        simpa using this
      have t4 : b.takeWhile (fun c => c = 'n' || c = 'e') = b := by
        have := takeWhile_pre (fun c => decide (c = 'n') || decide (c = 'e')) b [] (by intro x hx; simpa using h5 x hx) (by simp)
        simpa using this
      have t5 : b.take 2 = b := List.take_of_length_le h3
      dsimp only
      rw [t1, t2, t3, t4, t5]
      rfl
  | cons x blanks ih =>
    rw [List.cons_append, boundsSearch, if_neg (by rintro (e | e); exacts [(hb x (by simp)).1 e, (hb x (by simp)).2 e])]
    exact ih (fun c hc => hb c (by simp [hc]))

theorem isInterval_core {F : Type} (ev : Str → Option F) (o s e : Str) (ho : OnlyBrackets o) (he : OnlyBrackets e) (hcomma : ',' ∈ s)
    (hs : ∀ c, s.head? = some c → c ∉ ['(', ')', '[', ']', ' ']) (hl : ∀ c, s.getLast? = some c → c ∉ ['(', ')', '[', ']', ' ']) :
    isInterval ev (.text (o ++ s ++ e)) = intervalOf ev (splitComma [] s) := by
  have hne : s ≠ [] := by rintro rfl; simp at hcomma
  unfold isInterval
  dsimp only
  rw [stripBrackets_eq o s e ho he hs hl hne]
  rw [if_neg (by
    rintro (h | h)
    · exact VdVal.noConfusion h
    · injection h with h
      rw [h] at hcomma
      exact absurd hcomma (by decide))]
  unfold intervalText
  dsimp only
  rw [if_neg (fun h => hs '(' h (by simp)), if_neg (fun h => hl ')' h (by simp))]

/-- **C123**: two limits between brackets or parentheses, separated by a comma, are read as an interval; each limit is evaluated
or kept as a text. -/
theorem C123_interval {F : Type} (ev : Str → Option F) (o a b e : Str) (ho : OnlyBrackets o) (he : OnlyBrackets e) (ha : ',' ∉ a) (hb : ',' ∉ b)
    (h1 : ∀ c, a.head? = some c → c ∉ ['(', ')', '[', ']', ' ']) (h2 : ∀ c, b.getLast? = some c → c ∉ ['(', ')', '[', ']', ' '])
    (x y : F ⊕ Str) (hx : Limit ev a x) (hy : Limit ev b y) :
    isInterval ev (.text (o ++ (a ++ [','] ++ b) ++ e)) = .ok (some (x, y, none)) := by
  rw [isInterval_core ev o _ e ho he (by simp)]
  · rw [List.append_assoc, List.singleton_append, splitComma_append_comma, flatMap_word a ha, flatMap_word b hb]
    rw [limit_unique hx, limit_unique hy]
    rfl
  · intro c hc
    cases a with
    | nil => simp at hc; subst hc; decide
    | cons z a => exact h1 c (by simpa using hc)
  · intro c hc
    rw [List.getLast?_append] at hc
    cases hbl : b.getLast? with
    | none =>
      rw [hbl] at hc
      rw [List.getLast?_append] at hc
      simp at hc
      subst hc
      decide
    | some z =>
      rw [hbl] at hc
      simp at hc
      subst hc
      exact h2 z hbl

/-- **C123** (bounds): the third part gives the bounds. -/
theorem C123_bounds {F : Type} (ev : Str → Option F) (o a b blanks bd e : Str) (ho : OnlyBrackets o) (he : OnlyBrackets e) (ha : ',' ∉ a) (hb : ',' ∉ b)
    (h1 : ∀ c, a.head? = some c → c ∉ ['(', ')', '[', ']', ' ']) (hbl : ∀ c ∈ blanks, c = ' ') (hbd : BoundsText bd)
    (x y : F ⊕ Str) (hx : Limit ev a x) (hy : Limit ev b y) :
    isInterval ev (.text (o ++ (a ++ [','] ++ (b ++ [','] ++ (blanks ++ bd))) ++ e)) = .ok (some (x, y, some bd)) := by
  have hchars : ∀ c ∈ bd, c = 'c' ∨ c = 'o' ∨ c = 'n' ∨ c = 'e' := by
    obtain ⟨p, q, rfl, -, -, -, h4, h5⟩ := hbd
    intro c hc
    rcases List.mem_append.1 hc with h | h
    · rcases h4 c h with h | h <;> simp [h]
    · rcases h5 c h with h | h <;> simp [h]
  have hbne : bd ≠ [] := by
    obtain ⟨p, q, rfl, h1, -⟩ := hbd
    cases p with
    | nil => simp at h1
    | cons z p => simp
  have hcm : ',' ∉ blanks ++ bd := by
    intro hm
    rcases List.mem_append.1 hm with h | h
    · exact absurd (hbl _ h) (by decide)
    · rcases hchars _ h with h | h | h | h <;> exact absurd h (by decide)
  rw [isInterval_core ev o _ e ho he (by simp)]
  · rw [List.append_assoc, List.singleton_append, splitComma_append_comma, flatMap_word a ha, List.singleton_append,
      List.append_assoc, List.singleton_append, splitComma_append_comma, flatMap_word b hb, flatMap_word _ hcm]
    rw [limit_unique hx, limit_unique hy]
    show (if blanks ++ bd = [] then _ else _) = _
    rw [if_neg (by simp [hbne]), boundsSearch_text blanks bd (fun c hc => by rw [hbl c hc]; decide) hbd]
  · intro c hc
    cases a with
    | nil => simp at hc; subst hc; decide
    | cons z a => exact h1 c (by simpa using hc)
  · intro c hc
    have : c ∈ bd := by
      rw [← List.append_assoc, ← List.append_assoc, ← List.append_assoc, List.getLast?_append] at hc
      cases hz : bd.getLast? with
      | none => exact absurd (List.getLast?_eq_none_iff.1 hz) hbne
      | some z =>
        rw [hz] at hc
        simp at hc
        subst hc
        exact List.mem_of_getLast? hz
    rcases hchars c this with h | h | h | h <;> subst h <;> decide

/-- **C123** (refused): a list that has not two or three elements is refused. -/
theorem C123_refused {F : Type} (ev : Str → Option F) (l : List Str) (h : ∀ s ∈ l, ',' ∉ s ∧ '(' ∉ s ∧ ')' ∉ s) (hl : l.length ≠ 2 ∧ l.length ≠ 3) :
    isInterval ev (.list l) = .error .vdt := by
  have split : ∀ l : List Str, l ≠ [] → (∀ s ∈ l, ',' ∉ s) → splitComma [] (List.intercalate [','] l) = l := by
    intro l
    induction l with
    | nil => intro h; exact absurd rfl h
    | cons a l ih =>
      intro _ hc
      cases l with
      | nil => simpa using flatMap_word a (hc a (by simp))
      | cons b l =>
        have : List.intercalate [','] (a :: b :: l) = a ++ ',' :: List.intercalate [','] (b :: l) := by simp [List.intercalate, List.intersperse]
        rw [this, splitComma_append_comma, flatMap_word a (hc a (by simp)), ih (by simp) (fun s hs => hc s (by simp [hs]))]
        rfl
  have chars : ∀ c ∈ List.intercalate [','] l, c ≠ '(' ∧ c ≠ ')' := by
    intro c hc
    have : ∀ l : List Str, (∀ s ∈ l, '(' ∉ s ∧ ')' ∉ s) → c ∈ List.intercalate [','] l → c ≠ '(' ∧ c ≠ ')' := by
      intro l
      induction l with
      | nil => intro _ h; simp at h
      | cons a l ih =>
        intro hh hm
        cases l with
        | nil =>
          simp at hm
          have := hh a (by simp)
          exact ⟨by rintro rfl; exact this.1 hm, by rintro rfl; exact this.2 hm⟩
        | cons b l =>
          have e : List.intercalate [','] (a :: b :: l) = a ++ ',' :: List.intercalate [','] (b :: l) := by simp [List.intercalate, List.intersperse]
          rw [e] at hm
          rcases List.mem_append.1 hm with hm | hm
          · have := hh a (by simp)
            exact ⟨by rintro rfl; exact this.1 hm, by rintro rfl; exact this.2 hm⟩
          · rcases List.mem_cons.1 hm with rfl | hm
            · decide
            · exact ih (fun s hs => hh s (by simp [hs])) hm
    exact this l (fun s hs => (h s hs).2) hc
  unfold isInterval
  dsimp only
  rw [if_neg (by simp)]
  unfold intervalText
  dsimp only
  have h1 : (List.intercalate [','] l).head? ≠ some '(' := fun e => (chars _ (List.mem_of_mem_head? e)).1 rfl
  have h2 : (List.intercalate [','] l).getLast? ≠ some ')' := fun e => (chars _ (List.mem_of_getLast? e)).2 rfl
  rw [if_neg h1, if_neg h2]
  by_cases hnil : l = []
  · subst hnil; rfl
  · rw [split l hnil (fun s hs => (h s hs).1)]
    match l with
    | [] => rfl
    | [a] => rfl
    | [a, b] => simp at hl
    | [a, b, c] => simp at hl
    | a :: b :: c :: d :: r => rfl

theorem splitComma_length (s : Str) : ∀ cur, (splitComma cur s).length = s.count ',' + 1 := by
  induction s with
  | nil => intro cur; rfl
  | cons c s ih =>
    intro cur
    rw [splitComma]
    by_cases h : c = ','
    · rw [if_pos h, h]
      simp [ih]
    · rw [if_neg h, ih, List.count_cons_of_ne h]

theorem takeWhile_mem_true {α : Type} (p : α → Bool) (l : List α) : ∀ x ∈ l.takeWhile p, p x = true := by
  induction l with
  | nil => intro x hx; cases hx
  | cons a l ih =>
    intro x hx
    rw [List.takeWhile_cons] at hx
    split at hx
    · rename_i h
      rcases List.mem_cons.mp hx with rfl | hx
      · exact h
      · exact ih x hx
    · cases hx

theorem stripBrackets_parts (s : Str) : ∃ o e, OnlyBrackets o ∧ OnlyBrackets e ∧ s = o ++ stripBrackets s ++ e := by
  refine ⟨s.takeWhile isBracket, (((s.dropWhile isBracket).reverse).takeWhile isBracket).reverse, ?_, ?_, ?_⟩
  · intro c hc
    exact (isBracket_iff c).mp (takeWhile_mem_true _ _ c hc)
  · intro c hc
    exact (isBracket_iff c).mp (takeWhile_mem_true _ _ c (List.mem_reverse.mp hc))
  · unfold stripBrackets
    rw [List.append_assoc, ← List.reverse_append, List.takeWhile_append_dropWhile, List.reverse_reverse, List.takeWhile_append_dropWhile]

theorem intervalOf_count {F : Type} (ev : Str → Option F) (l : List Str) (h : l.length ≠ 2 ∧ l.length ≠ 3) : intervalOf ev l = .error .vdt := by
  match l with
  | [] => rfl
  | [_] => rfl
  | [_, _] => exact absurd rfl h.1
  | [_, _, _] => exact absurd rfl h.2
  | _ :: _ :: _ :: _ :: _ => rfl

/-- **C123** (refused): a text that has not one or two commas is refused, but for `None` between any brackets. -/
theorem C123_refused_text {F : Type} (ev : Str → Option F) (s : Str) (h : s.count ',' ≠ 1 ∧ s.count ',' ≠ 2)
    (hn : ∀ o e, OnlyBrackets o → OnlyBrackets e → s ≠ o ++ "None".toList ++ e) : isInterval ev (.text s) = .error .vdt := by
  obtain ⟨o, e, ho, he, hs⟩ := stripBrackets_parts s
  have hob : ∀ t : Str, OnlyBrackets t → t.count ',' = 0 := by
    intro t ht
    rw [List.count_eq_zero]
    intro hc
    have := ht _ hc
    revert this
    decide
  have hcount : (stripBrackets s).count ',' = s.count ',' := by
    conv_rhs => rw [hs]
    rw [List.count_append, List.count_append, hob o ho, hob e he]
    omega
  have hne : stripBrackets s ≠ "None".toList := by
    intro hh
    rw [hh] at hs
    exact hn o e ho he hs
  unfold isInterval
  simp only
  rw [if_neg (by
    rintro (h' | h')
    · cases h'
    · injection h' with h'
      exact hne h')]
  have hdrop : ∀ t : Str, (if t.head? = some '(' then t.drop 1 else t).count ',' = t.count ',' := by
    intro t
    split
    · rename_i hh
      cases t with
      | nil => rfl
      | cons c t =>
        simp only [List.head?_cons, Option.some.injEq] at hh
        subst hh
        rw [List.drop_one, List.tail_cons, List.count_cons_of_ne (by decide)]
    · rfl
  have hlast : ∀ t : Str, (if t.getLast? = some ')' then t.dropLast else t).count ',' = t.count ',' := by
    intro t
    split
    · rename_i hh
      obtain ⟨t', rfl⟩ := List.getLast?_eq_some_iff.mp hh
      rw [List.dropLast_concat, List.count_append]
      simp
    · rfl
  show intervalText ev (stripBrackets s) = _
  unfold intervalText
  simp only
  apply intervalOf_count
  rw [splitComma_length, hlast, hdrop, hcount]
  omega

-- a single limit is refused
example {F : Type} (ev : Str → Option F) : isInterval ev (.text "(10)".toList) = .error .vdt := by
  apply C123_refused_text ev
  · decide
  · intro o e ho he hh
    have hl := congrArg List.length hh
    have : o.length + (e.length + 1 + 1 + 1 + 1) = 4 := by simpa using hl.symm
    have ho0 : o = [] := List.eq_nil_of_length_eq_zero (by omega)
    have he0 : e = [] := List.eq_nil_of_length_eq_zero (by omega)
    subst ho0 he0
    revert hh
    decide

theorem intervalText_plain {F : Type} (ev : Str → Option F) (s : Str) (h1 : s.head? ≠ some '(') (h2 : s.getLast? ≠ some ')') :
    intervalText ev s = intervalOf ev (splitComma [] s) := by
  unfold intervalText
  dsimp only
  rw [if_neg h1, if_neg h2]

theorem intervalText_paren {F : Type} (ev : Str → Option F) (s : Str) :
    intervalText ev ('(' :: (s ++ [')'])) = intervalOf ev (splitComma [] s) := by
  have e : (if ('(' :: (s ++ [')'])).head? = some '(' then List.drop 1 ('(' :: (s ++ [')'])) else '(' :: (s ++ [')'])) = s ++ [')'] := rfl
  unfold intervalText
  dsimp only
  simp only [e]
  have e2 : (s ++ [')']).getLast? = some ')' := by simp
  simp only [e2, if_true]
  rw [List.dropLast_concat]

theorem head_comma (a r : Str) (h : a.head? ≠ some '(') : (a ++ ',' :: r).head? ≠ some '(' := by
  cases a with
  | nil => simp
  | cons z a => simpa using h

theorem last_comma (a b : Str) (h : b.getLast? ≠ some ')') : (a ++ ',' :: b).getLast? ≠ some ')' := by
  intro hl
  have e3 : a ++ ',' :: b = (a ++ [',']) ++ b := by simp
  rw [e3, List.getLast?_append] at hl
  cases hz : b.getLast? with
  | none => rw [hz] at hl; simp at hl
  | some z =>
    rw [hz] at hl
    apply h
    rw [hz]
    simpa using hl

/-- **C123** (lists): the two elements of a list are the limits, with or without parentheses around. -/
theorem C123_list {F : Type} (ev : Str → Option F) (a b : Str) (ha : ',' ∉ a) (hb : ',' ∉ b) (x y : F ⊕ Str) (hx : Limit ev a x) (hy : Limit ev b y) :
    isInterval ev (.list ['(' :: a, b ++ [')']]) = .ok (some (x, y, none)) ∧
    (a.head? ≠ some '(' → b.getLast? ≠ some ')' → isInterval ev (.list [a, b]) = .ok (some (x, y, none))) := by
  have key : intervalOf ev (splitComma [] (a ++ ',' :: b)) = .ok (some (x, y, none)) := by
    rw [splitComma_append_comma, flatMap_word a ha, flatMap_word b hb, limit_unique hx, limit_unique hy]
    rfl
  constructor
  · unfold isInterval
    dsimp only
    rw [if_neg (by simp)]
    have e : List.intercalate [','] ['(' :: a, b ++ [')']] = '(' :: ((a ++ ',' :: b) ++ [')']) := by simp [List.intercalate, List.intersperse]
    rw [e, intervalText_paren, key]
  · intro h1 h2
    unfold isInterval
    dsimp only
    rw [if_neg (by simp)]
    have e : List.intercalate [','] [a, b] = a ++ ',' :: b := by simp [List.intercalate, List.intersperse]
    rw [e, intervalText_plain ev _ (head_comma a b h1) (last_comma a b h2), key]

theorem boundsSearch_none (s : Str) (h : 'c' ∉ s ∧ 'o' ∉ s) : boundsSearch s = none := by
  induction s with
  | nil => rfl
  | cons z s ih =>
    rw [boundsSearch, if_neg, ih]
    · exact ⟨fun hm => h.1 (by simp [hm]), fun hm => h.2 (by simp [hm])⟩
    · rintro (rfl | rfl)
      · exact h.1 (by simp)
      · exact h.2 (by simp)

/-- **C123** (bounds refused): a third part without the letters `c` and `o` is refused. -/
theorem C123_bounds_refused {F : Type} (ev : Str → Option F) (a b c : Str) (ha : ',' ∉ a) (hb : ',' ∉ b) (hc : ',' ∉ c)
    (hne : c ≠ []) (h : 'c' ∉ c ∧ 'o' ∉ c) (h1 : a.head? ≠ some '(') (h2 : c.getLast? ≠ some ')') :
    isInterval ev (.list [a, b, c]) = .error .vdt := by
  unfold isInterval
  dsimp only
  rw [if_neg (by simp)]
  have e : List.intercalate [','] [a, b, c] = a ++ ',' :: (b ++ ',' :: c) := by simp [List.intercalate, List.intersperse]
  rw [e]
  rw [intervalText_plain ev _ (head_comma a _ h1) (last_comma a _ (last_comma b c h2))]
  rw [splitComma_append_comma, flatMap_word a ha, splitComma_append_comma, flatMap_word b hb, flatMap_word c hc]
  show (if c = [] then _ else _) = _
  rw [if_neg hne, boundsSearch_none c h]

example : isInterval (fun _ => (none : Option Nat)) (.list ["0".toList, "1".toList, "left".toList]) = .error .vdt := rfl

/-- **C123 is violated** for the bounds: any text that has a letter `c` or `o` is accepted, and only a part of it is kept: "closed" gives
"c" and "left not bounded" gives "o". -/
theorem C123_bounds_violated {F : Type} (ev : Str → Option F) :
    isInterval ev (.text "0,10,closed".toList) = .ok (some (evalOr ev "0".toList, evalOr ev "10".toList, some "c".toList)) ∧
    isInterval ev (.text "0,10,left not bounded".toList) = .ok (some (evalOr ev "0".toList, evalOr ev "10".toList, some "o".toList)) := by
  constructor <;> rfl

/-- ... and the usual notation of half-open intervals is read without bounds -/
theorem C123_half_open_violated {F : Type} (ev : Str → Option F) :
    isInterval ev (.text "[0,10[".toList) = isInterval ev (.text "]0,10]".toList) := rfl

/-! ## colors -/

/-- **C124**: components in 0..256 give components in 0..1, in proportion, and the transparency is kept. -/
theorem C124_color (r g b : ℚ) (alpha : List ℚ) (h : ∀ v ∈ [r, g, b], 0 ≤ v ∧ v ≤ 256) :
    ∃ r' g' b', check256 (r :: g :: b :: alpha) none = r' :: g' :: b' :: alpha ∧ (∀ v ∈ [r', g', b'], 0 ≤ v ∧ v ≤ 1) ∧
      (((∀ v ∈ [r, g, b], v ≤ 1) ∧ [r', g', b'] = [r, g, b]) ∨ ((∃ v ∈ [r, g, b], 1 < v) ∧ r' = r / 256 ∧ g' = g / 256 ∧ b' = b / 256)) := by
  unfold check256
  by_cases hc : ((r :: g :: b :: alpha).take 3).any (fun v => decide (1 < v)) = true
  · rw [Option.getD_none, if_pos hc]
    refine ⟨r / 256, g / 256, b / 256, rfl, ?_, Or.inr ⟨?_, rfl, rfl, rfl⟩⟩
    · intro v hv
      simp only [List.mem_cons, List.not_mem_nil, or_false] at hv
      have h1 := h r (by simp)
      have h2 := h g (by simp)
      have h3 := h b (by simp)
      rcases hv with rfl | rfl | rfl <;> constructor <;> linarith
    · rw [List.any_eq_true] at hc
      obtain ⟨v, hv, hv'⟩ := hc
      exact ⟨v, by simpa using hv, by simpa using hv'⟩
  · rw [Option.getD_none, if_neg hc]
    have hle : ∀ v ∈ [r, g, b], v ≤ 1 := by
      intro v hv
      by_contra hlt
      apply hc
      rw [List.any_eq_true]
      exact ⟨v, by simpa using hv, by simpa using hlt⟩
    exact ⟨r, g, b, rfl, fun v hv => ⟨(h v hv).1, hle v hv⟩, Or.inl ⟨hle, rfl⟩⟩

/-- **C124** (explicit choice): `as256` forces or prevents the conversion. -/
theorem C124_as256 (r g b : ℚ) (alpha : List ℚ) :
    check256 (r :: g :: b :: alpha) (some true) = r / 256 :: g / 256 :: b / 256 :: alpha ∧
    check256 (r :: g :: b :: alpha) (some false) = r :: g :: b :: alpha := ⟨rfl, rfl⟩

/-- **C124 is violated** for 8-bit components: the largest one, 255, does not give 1. -/
theorem C124_white_violated : check256 [255, 255, 255] none = [255 / 256, 255 / 256, 255 / 256] ∧ (255 / 256 : ℚ) < 1 := by
  constructor
  · unfold check256
    norm_num
  · norm_num

/-! ## concrete cases -/

example : isBbox (fun w => if w.all (fun c => decide (c = '1')) then some w.length else none) .none (.text " 1,11 \t111\n1111 ".toList) = .ok (some [1, 2, 3, 4]) := by
  decide +kernel

example : BoxSep " \t".toList ∧ BoxSep ",".toList ∧ OnlyBrackets "[( ".toList ∧ BoundsText "con".toList :=
  ⟨Or.inr ⟨by decide, by decide⟩, Or.inl rfl, by unfold OnlyBrackets; decide, "co".toList, "n".toList, rfl, by decide⟩

example : isInterval (fun w => if w.all (fun c => decide (c = '1')) then some w.length else none) (.text "([ 11, 1x1,  con )".toList) =
    .ok (some (.inl 2, .inr " 1x1".toList, some "con".toList)) := by rfl

end Xoa
