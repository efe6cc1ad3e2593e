import Verif.SigmaTerms
import Verif.SGLocLemmas
import Verif.MiscFilterProps
import Verif.OptionsProps

/-! # Formula terms (C32) and decodable coordinates (C33) -/

namespace Xoa

/-! ## Specification of a well formed attribute -/

/-- a term or variable name: no blank and no colon, and a word character at both ends -/
structure isName (s : Str) : Prop where
  chars : ∀ c ∈ s, isSpace c = false ∧ c ≠ ':'
  first : ∃ c r, s = c :: r ∧ isWord c = true
  last : ∃ c r, s = r ++ [c] ∧ isWord c = true

/-- one item `key<blanks>:<blanks>value` -/
structure FTerm where
  key : Str
  b1 : Str
  b2 : Str
  val : Str

def blanks (b : Str) : Prop := ∀ c ∈ b, isSpace c = true

structure FTerm.ok (t : FTerm) : Prop where
  key : isName t.key
  val : isName t.val
  b1 : blanks t.b1
  b2 : blanks t.b2

def FTerm.text (t : FTerm) : Str := t.key ++ (t.b1 ++ (':' :: (t.b2 ++ t.val)))

/-- the attribute: items separated by blanks -/
def attrText : FTerm → List (Str × FTerm) → Str
  | t, [] => t.text
  | t, (sep, t') :: r => t.text ++ (sep ++ attrText t' r)

/-! ## The two splits -/

theorem space_not_word (c : Char) (h : isSpace c = true) : isWord c = false := by
  rw [isSpace_eq] at h
  simp only [Bool.or_eq_true, beq_iff_eq] at h
  cases hw : isWord c with
  | false => rfl
  | true =>
    rw [isWord_iff] at hw
    omega

theorem splitTerms_chunk (w cur r : Str) (h : ∀ c ∈ w, isSpace c = false) :
    splitTerms cur [] (w ++ r) = splitTerms (w.reverse ++ cur) [] r := by
  induction w generalizing cur with
  | nil => rfl
  | cons c w ih =>
    have hc := h c (by simp)
    rw [List.cons_append, splitTerms]
    simp only [hc, Bool.false_eq_true, if_false, ne_eq, not_true_eq_false, false_and, List.nil_append]
    rw [ih (c :: cur) (fun x hx => h x (by simp [hx]))]
    simp

theorem splitTerms_blanks (b cur pend r : Str) (hb : blanks b) (hw : cur.head?.any isWord = true) :
    splitTerms cur pend (b ++ r) = splitTerms cur (b.reverse ++ pend) r := by
  induction b generalizing pend with
  | nil => rfl
  | cons c b ih =>
    have hc := hb c (by simp)
    rw [List.cons_append, splitTerms]
    simp only [hc, if_true, hw, or_true]
    rw [ih (c :: pend) (fun x hx => hb x (by simp [hx]))]
    simp

theorem splitTerms_blanks_nonword (b cur r : Str) (hb : blanks b) (hw : cur.head?.any isWord = false) :
    splitTerms cur [] (b ++ r) = splitTerms (b.reverse ++ cur) [] r := by
  induction b generalizing cur with
  | nil => rfl
  | cons c b ih =>
    have hc := hb c (by simp)
    rw [List.cons_append, splitTerms]
    simp only [hc, if_true, hw, ne_eq, not_true_eq_false, false_or, Bool.false_eq_true, if_false]
    rw [ih (c :: cur) (fun x hx => hb x (by simp [hx])) (by simp [space_not_word c hc])]
    simp

theorem splitTerms_colon (b cur r : Str) (hb : blanks b) (hw : cur.head?.any isWord = true) :
    splitTerms cur [] (b ++ ':' :: r) = splitTerms (':' :: (b.reverse ++ cur)) [] r := by
  rw [splitTerms_blanks b cur [] _ hb hw, splitTerms]
  have h1 : isSpace ':' = false := by decide
  have h2 : isWord ':' = false := by decide
  simp [h1, h2]

theorem splitTerms_sep (b cur r : Str) (x : Char) (hb : blanks b) (hne : b ≠ []) (hw : cur.head?.any isWord = true)
    (hx : isWord x = true) : splitTerms cur [] (b ++ x :: r) = cur.reverse :: splitTerms [x] [] r := by
  rw [splitTerms_blanks b cur [] _ hb hw, splitTerms]
  have hs : isSpace x = false := by
    cases h : isSpace x with
    | false => rfl
    | true => rw [space_not_word x h] at hx; exact absurd hx (by simp)
  simp [hs, hx, hne]

theorem head_reverse_word {s : Str} (h : ∃ c r, s = r ++ [c] ∧ isWord c = true) (t : Str) :
    ((s.reverse ++ t).head?.any isWord) = true := by
  obtain ⟨c, r, rfl, hc⟩ := h
  simp [hc]

/-- the first split goes through one item -/
theorem splitTerms_item (t : FTerm) (ht : t.ok) (r : Str) :
    splitTerms [] [] (t.text ++ r) = splitTerms t.text.reverse [] r := by
  unfold FTerm.text
  rw [List.append_assoc, splitTerms_chunk _ _ _ (fun c hc => (ht.key.chars c hc).1), List.append_nil,
    List.append_assoc, List.cons_append, splitTerms_colon _ _ _ ht.b1 (by have := head_reverse_word ht.key.last []; rwa [List.append_nil] at this),
    List.append_assoc, splitTerms_blanks_nonword _ _ _ ht.b2 (by simp; decide),
    splitTerms_chunk _ _ _ (fun c hc => (ht.val.chars c hc).1)]
  congr 1
  simp

theorem text_last_word (t : FTerm) (ht : t.ok) : t.text.reverse.head?.any isWord = true := by
  have : t.text.reverse = t.val.reverse ++ (t.key ++ (t.b1 ++ (':' :: t.b2))).reverse := by
    unfold FTerm.text; simp
  rw [this]
  exact head_reverse_word ht.val.last _

theorem text_first_word (t : FTerm) (ht : t.ok) : ∃ c r, t.text = c :: r ∧ isWord c = true := by
  obtain ⟨c, r, h, hc⟩ := ht.key.first
  exact ⟨c, r ++ (t.b1 ++ (':' :: (t.b2 ++ t.val))), by unfold FTerm.text; rw [h]; simp, hc⟩

theorem attrText_first_word (t : FTerm) (ht : t.ok) (rest : List (Str × FTerm)) :
    ∃ c r, attrText t rest = c :: r ∧ isWord c = true := by
  obtain ⟨c, r, h, hc⟩ := text_first_word t ht
  cases rest with
  | nil => exact ⟨c, r, h, hc⟩
  | cons p rest =>
    obtain ⟨sep, t'⟩ := p
    exact ⟨c, r ++ (sep ++ attrText t' rest), by simp [attrText, h], hc⟩

theorem splitTerms_attr (t : FTerm) (ht : t.ok) (rest : List (Str × FTerm))
    (hr : ∀ p ∈ rest, blanks p.1 ∧ p.1 ≠ [] ∧ p.2.ok) :
    splitTerms [] [] (attrText t rest) = t.text :: rest.map (fun p => p.2.text) := by
  induction rest generalizing t with
  | nil =>
    have := splitTerms_item t ht []
    rw [List.append_nil] at this
    simp only [attrText, this, splitTerms, List.nil_append, List.reverse_reverse, List.map_nil]
  | cons p rest ih =>
    obtain ⟨sep, t'⟩ := p
    obtain ⟨h1, h2, h3⟩ := hr (sep, t') (by simp)
    obtain ⟨c, r, hcr, hc⟩ := attrText_first_word t' h3 rest
    rw [attrText, splitTerms_item t ht, hcr, splitTerms_sep _ _ _ _ h1 h2 (text_last_word t ht) hc, List.reverse_reverse]
    have hsp : isSpace c = false := by
      cases h : isSpace c with
      | false => rfl
      | true => rw [space_not_word c h] at hc; exact absurd hc (by simp)
    have := splitTerms_chunk [c] [] r (by intro x hx; simp at hx; rw [hx]; exact hsp)
    simp only [List.singleton_append, List.reverse_singleton, List.append_nil] at this
    rw [← this]
    have ih' := ih t' h3 (fun q hq => hr q (by simp [hq]))
    rw [hcr] at ih'
    rw [ih']
    rfl

theorem splitItem_chunk (w cur r : Str) (skip : Bool) (h : ∀ c ∈ w, isSpace c = false ∧ c ≠ ':') :
    splitItem cur [] skip (w ++ r) = if w = [] then splitItem cur [] skip r else splitItem (w.reverse ++ cur) [] false r := by
  induction w generalizing cur skip with
  | nil => rfl
  | cons c w ih =>
    obtain ⟨h1, h2⟩ := h c (by simp)
    rw [List.cons_append, splitItem]
    simp only [h1, h2, if_false, Bool.false_eq_true, List.nil_append, reduceCtorEq]
    rw [ih (c :: cur) false (fun x hx => h x (by simp [hx]))]
    by_cases hw : w = []
    · subst hw; simp
    · simp [hw]

theorem splitItem_blanks (b cur pend r : Str) (hb : blanks b) :
    splitItem cur pend false (b ++ r) = splitItem cur (b.reverse ++ pend) false r := by
  induction b generalizing pend with
  | nil => rfl
  | cons c b ih =>
    have hc := hb c (by simp)
    have hne : c ≠ ':' := by intro e; rw [e] at hc; exact absurd hc (by decide)
    rw [List.cons_append, splitItem]
    simp only [hne, if_false, hc, if_true, Bool.false_eq_true]
    rw [ih (c :: pend) (fun x hx => hb x (by simp [hx]))]
    simp

theorem splitItem_skip (b cur r : Str) (hb : blanks b) : splitItem cur [] true (b ++ r) = splitItem cur [] true r := by
  induction b with
  | nil => rfl
  | cons c b ih =>
    have hc := hb c (by simp)
    have hne : c ≠ ':' := by intro e; rw [e] at hc; exact absurd hc (by decide)
    rw [List.cons_append, splitItem]
    simp only [hne, if_false, hc, if_true]
    exact ih (fun x hx => hb x (by simp [hx]))

theorem isName_ne {s : Str} (h : isName s) : s ≠ [] := by
  obtain ⟨c, r, h, _⟩ := h.first
  rw [h]; simp

theorem splitItem_text (t : FTerm) (ht : t.ok) : splitItem [] [] false t.text = [t.key, t.val] := by
  unfold FTerm.text
  rw [splitItem_chunk _ _ _ _ ht.key.chars, if_neg (isName_ne ht.key), splitItem_blanks _ _ _ _ ht.b1, splitItem]
  simp only [if_true, List.append_nil, List.reverse_reverse]
  rw [splitItem_skip _ _ _ ht.b2]
  have := splitItem_chunk t.val [] [] true ht.val.chars
  rw [if_neg (isName_ne ht.val)] at this
  simp only [List.append_nil] at this
  rw [this, splitItem]
  simp

theorem decode_fold (ts : List FTerm) (hok : ∀ t ∈ ts, t.ok) (acc : List (Str × Str)) :
    (ts.map FTerm.text).foldlM addItem acc = some (ts.foldl (fun d t => setS t.key t.val d) acc) := by
  induction ts generalizing acc with
  | nil => rfl
  | cons t ts ih =>
    have e : addItem acc t.text = some (setS t.key t.val acc) := by
      unfold addItem
      rw [splitItem_text t (hok t (by simp))]
    rw [List.map_cons, List.foldlM_cons, e]
    exact ih (fun x hx => hok x (by simp [hx])) _

theorem setS_new {α : Type} (k : Str) (v : α) (d : List (Str × α)) (h : k ∉ d.map (·.1)) : setS k v d = d ++ [(k, v)] := by
  induction d with
  | nil => rfl
  | cons p d ih =>
    obtain ⟨k', v'⟩ := p
    simp only [List.map_cons, List.mem_cons, not_or] at h
    simp only [setS, h.1, if_false]
    rw [ih h.2]
    rfl

theorem foldl_setS_nodup (ts : List FTerm) (acc : List (Str × Str)) (h : (acc.map (·.1) ++ ts.map FTerm.key).Nodup) :
    ts.foldl (fun d t => setS t.key t.val d) acc = acc ++ ts.map (fun t => (t.key, t.val)) := by
  induction ts generalizing acc with
  | nil => simp
  | cons t ts ih =>
    rw [List.foldl_cons, setS_new]
    · rw [ih]
      · simp
      · simpa [List.append_assoc] using h
    · intro hm
      rw [List.map_cons, List.nodup_append] at h
      exact h.2.2 t.key hm t.key (by simp) rfl

/-- **C32**: the attribute `term: variable term: variable ...` is decoded to exactly the mapping from
terms to variables, for any number of terms and any blanks around the colons and between the items -/
theorem C32_decode (t : FTerm) (rest : List (Str × FTerm)) (ht : t.ok)
    (hr : ∀ p ∈ rest, blanks p.1 ∧ p.1 ≠ [] ∧ p.2.ok)
    (hn : ((t :: rest.map (·.2)).map FTerm.key).Nodup) :
    decodeFormulaTerms (attrText t rest) = some ((t :: rest.map (·.2)).map (fun t => (t.key, t.val))) := by
  unfold decodeFormulaTerms
  rw [splitTerms_attr t ht rest hr]
  have e : t.text :: rest.map (fun p => p.2.text) = (t :: rest.map (·.2)).map FTerm.text := by simp
  rw [e, decode_fold]
  · rw [foldl_setS_nodup _ _ (by simpa using hn)]
    simp
  · intro x hx
    rcases List.mem_cons.mp hx with rfl | hx
    · exact ht
    · rw [List.mem_map] at hx
      obtain ⟨p, hp, rfl⟩ := hx
      exact (hr p hp).2.2

/-- **C32**: a repeated term takes the last variable -/
theorem C32_repeated (t : FTerm) (rest : List (Str × FTerm)) (ht : t.ok)
    (hr : ∀ p ∈ rest, blanks p.1 ∧ p.1 ≠ [] ∧ p.2.ok) :
    decodeFormulaTerms (attrText t rest) = some ((t :: rest.map (·.2)).foldl (fun d t => setS t.key t.val d) []) := by
  unfold decodeFormulaTerms
  rw [splitTerms_attr t ht rest hr]
  have e : t.text :: rest.map (fun p => p.2.text) = (t :: rest.map (·.2)).map FTerm.text := by simp
  rw [e, decode_fold]
  intro x hx
  rcases List.mem_cons.mp hx with rfl | hx
  · exact ht
  · rw [List.mem_map] at hx
    obtain ⟨p, hp, rfl⟩ := hx
    exact (hr p hp).2.2

example : decodeFormulaTerms "s: sc_r C : Cs_r  eta:zeta depth: h depth_c:  hc".toList =
    some [("s".toList, "sc_r".toList), ("C".toList, "Cs_r".toList), ("eta".toList, "zeta".toList),
      ("depth".toList, "h".toList), ("depth_c".toList, "hc".toList)] := by decide +kernel

/-- the example above is an instance of the theorem -/
example : FTerm.ok ⟨"C".toList, " ".toList, "  ".toList, "Cs_r".toList⟩ := by
  refine ⟨⟨by decide, ⟨'C', [], rfl, by decide⟩, ⟨'C', [], rfl, by decide⟩⟩,
    ⟨by decide, ⟨'C', "s_r".toList, rfl, by decide⟩, ⟨'r', "Cs_".toList, rfl, by decide⟩⟩, ?_, ?_⟩ <;> unfold blanks <;> decide

theorem splitTerms_prefix (q : Str) (r : Str) : ∀ p pend : Str, (pend = [] → (p ++ q).head?.any isWord = p.head?.any isWord) →
    splitTerms (p ++ q) pend r = (splitTerms p pend r).modifyHead (q.reverse ++ ·) := by
  induction r with
  | nil => intro p pend _; simp [splitTerms]
  | cons c r ih =>
    intro p pend h
    rw [splitTerms, splitTerms]
    by_cases hs : isSpace c = true
    · rw [if_pos hs, if_pos hs]
      by_cases hp : pend = []
      · have hw := h hp
        simp only [hw]
        by_cases hc : pend ≠ [] ∨ p.head?.any isWord = true
        · rw [if_pos hc, if_pos hc]
          exact ih p (c :: pend) (by simp)
        · rw [if_neg hc, if_neg hc]
          exact ih (c :: p) [] (by simp)
      · rw [if_pos (Or.inl hp), if_pos (Or.inl hp)]
        exact ih p (c :: pend) (by simp)
    · rw [if_neg hs, if_neg hs]
      by_cases hc : pend ≠ [] ∧ isWord c = true
      · rw [if_pos hc, if_pos hc]
        simp
      · rw [if_neg hc, if_neg hc]
        have := ih (c :: (pend ++ p)) [] (by simp)
        simpa using this

theorem splitTerms_trailing (b : Str) (hb : blanks b) (t : FTerm) (ht : t.ok) (rest : List (Str × FTerm))
    (hr : ∀ p ∈ rest, blanks p.1 ∧ p.1 ≠ [] ∧ p.2.ok) (init : List FTerm) (u : FTerm) (hu : t :: rest.map (·.2) = init ++ [u]) :
    splitTerms [] [] (attrText t rest ++ b) = init.map FTerm.text ++ [u.text ++ b] := by
  induction rest generalizing t init with
  | nil =>
    cases init with
    | nil =>
      simp at hu
      subst hu
      rw [attrText, splitTerms_item t ht]
      have := splitTerms_blanks b t.text.reverse [] [] hb (text_last_word t ht)
      rw [List.append_nil] at this
      rw [this, splitTerms]
      simp
    | cons i init => simp at hu
  | cons p rest ih =>
    obtain ⟨sep, t'⟩ := p
    obtain ⟨h1, h2, h3⟩ := hr (sep, t') (by simp)
    cases init with
    | nil => simp at hu
    | cons i init =>
      simp only [List.map_cons, List.cons_append, List.cons.injEq] at hu
      obtain ⟨rfl, hu⟩ := hu
      obtain ⟨c, r, hcr, hc⟩ := attrText_first_word t' h3 rest
      have ih' := ih t' h3 (fun q hq => hr q (by simp [hq])) init hu
      rw [hcr] at ih'
      rw [attrText, List.append_assoc, List.append_assoc, splitTerms_item t ht, hcr, List.cons_append,
        splitTerms_sep _ _ _ _ h1 h2 (text_last_word t ht) hc, List.reverse_reverse]
      have hsp : isSpace c = false := by
        cases h : isSpace c with
        | false => rfl
        | true => rw [space_not_word c h] at hc; exact absurd hc (by simp)
      have := splitTerms_chunk [c] [] (r ++ b) (by intro x hx; simp at hx; rw [hx]; exact hsp)
      simp only [List.singleton_append, List.reverse_singleton, List.append_nil] at this
      rw [← this]
      rw [List.cons_append] at ih'
      rw [ih']
      rfl

theorem splitItem_leading (b : Str) (hb : blanks b) (t : FTerm) (ht : t.ok) : splitItem [] [] false (b ++ t.text) = [b ++ t.key, t.val] := by
  have hh := splitItem_text t ht
  obtain ⟨c, r, hk, hc⟩ := ht.key.first
  have hcs := ht.key.chars c (by rw [hk]; simp)
  have hkr : ∀ x ∈ r, isSpace x = false ∧ x ≠ ':' := fun x hx => ht.key.chars x (by rw [hk]; simp [hx])
  rw [splitItem_blanks _ _ _ _ hb]
  unfold FTerm.text
  rw [hk, List.cons_append, splitItem]
  simp only [hcs.1, hcs.2, if_false, Bool.false_eq_true]
  rw [splitItem_chunk _ _ _ _ hkr]
  have e : (if r = [] then splitItem (c :: (b.reverse ++ [] ++ [])) [] false (t.b1 ++ ':' :: (t.b2 ++ t.val)) else
      splitItem (r.reverse ++ c :: (b.reverse ++ [] ++ [])) [] false (t.b1 ++ ':' :: (t.b2 ++ t.val))) =
      splitItem (b ++ t.key).reverse [] false (t.b1 ++ ':' :: (t.b2 ++ t.val)) := by
    rw [hk]
    split
    · rename_i hr; subst hr; simp
    · simp
  rw [e, splitItem_blanks _ _ _ _ ht.b1, splitItem]
  simp only [if_true, List.reverse_reverse]
  rw [splitItem_skip _ _ _ ht.b2]
  have := splitItem_chunk t.val [] [] true ht.val.chars
  rw [if_neg (isName_ne ht.val)] at this
  simp only [List.append_nil] at this
  rw [this, splitItem, hk]
  simp

theorem splitItem_trailing (b : Str) (hb : blanks b) (t : FTerm) (ht : t.ok) : splitItem [] [] false (t.text ++ b) = [t.key, t.val ++ b] := by
  unfold FTerm.text
  rw [List.append_assoc, splitItem_chunk _ _ _ _ ht.key.chars, if_neg (isName_ne ht.key), List.append_assoc, splitItem_blanks _ _ _ _ ht.b1,
    List.cons_append, splitItem]
  simp only [if_true, List.append_nil, List.reverse_reverse]
  rw [List.append_assoc, splitItem_skip _ _ _ ht.b2, splitItem_chunk t.val [] b true ht.val.chars, if_neg (isName_ne ht.val)]
  have := splitItem_blanks b t.val.reverse [] [] hb
  rw [List.append_nil, List.append_nil] at this
  rw [List.append_nil, this, splitItem]
  simp

/-- **C83 is violated** by all the blanks at the beginning of the attribute: they are kept in the name of the first term, which is not
known under its name. -/
theorem C83_leading_violated (b : Str) (hb : blanks b) (t : FTerm) (rest : List (Str × FTerm)) (ht : t.ok)
    (hr : ∀ p ∈ rest, blanks p.1 ∧ p.1 ≠ [] ∧ p.2.ok)
    (hn : ((t :: rest.map (·.2)).map FTerm.key).Nodup) :
    decodeFormulaTerms (b ++ attrText t rest) = some ((b ++ t.key, t.val) :: rest.map (fun p => (p.2.key, p.2.val))) := by
  have hsplit : splitTerms [] [] (b ++ attrText t rest) = (b ++ t.text) :: rest.map (fun p => p.2.text) := by
    rw [splitTerms_blanks_nonword _ _ _ hb (by simp), List.append_nil]
    have hpre := splitTerms_prefix b.reverse (attrText t rest) [] []
    rw [splitTerms_attr t ht rest hr] at hpre
    simp only [List.nil_append, List.modifyHead_cons, List.reverse_reverse] at hpre
    apply hpre
    intro _
    cases hh : b.reverse with
    | nil => rfl
    | cons z w =>
      have : z ∈ b := by rw [← List.mem_reverse, hh]; simp
      simp [space_not_word z (hb z this)]
  unfold decodeFormulaTerms
  rw [hsplit, List.foldlM_cons]
  have e : addItem [] (b ++ t.text) = some [(b ++ t.key, t.val)] := by
    unfold addItem
    rw [splitItem_leading b hb t ht]
    rfl
  rw [e]
  have e2 : rest.map (fun p => p.2.text) = (rest.map (·.2)).map FTerm.text := by simp
  show List.foldlM addItem [(b ++ t.key, t.val)] _ = _
  rw [e2, decode_fold _ (by
    intro x hx
    rw [List.mem_map] at hx
    obtain ⟨p, hp, rfl⟩ := hx
    exact (hr p hp).2.2), foldl_setS_nodup]
  · simp
  · have h2 := hn
    rw [List.map_cons, List.nodup_cons] at h2
    simp only [List.map_cons, List.map_nil, List.singleton_append]
    rw [List.nodup_cons]
    refine ⟨?_, h2.2⟩
    intro hm
    rw [List.mem_map] at hm
    obtain ⟨x, hx, hk⟩ := hm
    rw [List.mem_map] at hx
    obtain ⟨p, hp, rfl⟩ := hx
    have hok := (hr p hp).2.2
    cases b with
    | nil => exact h2.1 (by rw [List.mem_map]; exact ⟨p.2, List.mem_map.2 ⟨p, hp, rfl⟩, by simpa using hk⟩)
    | cons z w =>
      have h3 := (hok.key.chars z (by rw [hk]; simp)).1
      rw [hb z (by simp)] at h3
      exact absurd h3 (by simp)

/-- **C83 is violated** by all the blanks at the end of the attribute: they are kept in the name of the last variable. -/
theorem C83_trailing_violated (b : Str) (hb : blanks b) (t : FTerm) (rest : List (Str × FTerm)) (ht : t.ok)
    (hr : ∀ p ∈ rest, blanks p.1 ∧ p.1 ≠ [] ∧ p.2.ok)
    (hn : ((t :: rest.map (·.2)).map FTerm.key).Nodup) (init : List FTerm) (u : FTerm) (hu : t :: rest.map (·.2) = init ++ [u]) :
    decodeFormulaTerms (attrText t rest ++ b) = some (init.map (fun t => (t.key, t.val)) ++ [(u.key, u.val ++ b)]) := by
  have hok : ∀ x ∈ init ++ [u], x.ok := by
    intro x hx
    rw [← hu] at hx
    rcases List.mem_cons.mp hx with rfl | hx
    · exact ht
    · rw [List.mem_map] at hx
      obtain ⟨p, hp, rfl⟩ := hx
      exact (hr p hp).2.2
  unfold decodeFormulaTerms
  rw [splitTerms_trailing b hb t ht rest hr init u hu, List.foldlM_append, decode_fold _ (fun x hx => hok x (by simp [hx]))]
  rw [hu] at hn
  rw [foldl_setS_nodup _ _ (by
    rw [List.map_append, List.nodup_append] at hn
    simpa using hn.1)]
  show List.foldlM addItem _ [u.text ++ b] = _
  rw [List.foldlM_cons]
  have e : ∀ acc, addItem acc (u.text ++ b) = some (setS u.key (u.val ++ b) acc) := by
    intro acc
    unfold addItem
    rw [splitItem_trailing b hb u (hok u (by simp))]
  rw [e]
  show some _ = _
  congr 1
  rw [setS_new]
  · rfl
  · intro hm
    rw [List.map_append, List.nodup_append] at hn
    refine hn.2.2 u.key ?_ u.key (by simp) rfl
    simpa using hm

/-- **C83 fails** for blanks at the ends of the attribute: they are kept in the term and in the
variable names. -/
theorem C83_outer_blanks_violated :
    decodeFormulaTerms " s: sc_r eta: zeta ".toList = some [(" s".toList, "sc_r".toList), ("eta".toList, "zeta ".toList)] := by
  decide +kernel

/-- an attribute with a missing colon or a missing variable is refused -/
example : decodeFormulaTerms "s sc_r".toList = none ∧ decodeFormulaTerms "s: a: b".toList = none := by decide +kernel

/-! ## C33 -/

/-- **C33 is violated**: two of the coordinates that have a formula function are refused whatever the
dataset (a comma is missing in the list of types) -/
theorem C33_types_violated (dataVars : List Str) (sig : SigVar)
    (h : sig.standardName = some "ocean_s_coordinate".toList ∨ sig.standardName = some "ocean_s_coordinate_g1".toList) :
    decodeCfSigma dataVars sig .raise = .raised .sigmaError ∧ decodeCfSigma dataVars sig .ignore = .unchanged := by
  have : getSigmaTerms dataVars sig = .error .sigmaError := by
    unfold getSigmaTerms
    rcases h with h | h <;> rw [h] <;> simp only [] <;> rw [if_pos (by decide)]
  unfold decodeCfSigma
  rw [this]
  simp

theorem subTerms_unknown (dataVars : List Str) (terms acc : List (Str × Str)) (k v : Str) (hm : (k, v) ∈ terms)
    (hu : lookupS (lower k) formulaTerms = none) : ∃ e, subTerms dataVars acc terms = .error e := by
  induction terms generalizing acc with
  | nil => simp at hm
  | cons p terms ih =>
    obtain ⟨k', v'⟩ := p
    unfold subTerms
    cases h : dsSearchCi dataVars v' with
    | error e => exact ⟨e, rfl⟩
    | ok x =>
      simp only
      cases h2 : lookupS (lower k') formulaTerms with
      | none => exact ⟨_, rfl⟩
      | some cf =>
        simp only
        rcases List.mem_cons.mp hm with e | e
        · injection e with e1 e2
          subst e1; rw [hu] at h2; exact absurd h2 (by simp)
        · exact ih _ e

/-- **C33 is violated**: the coordinates whose formula has the standard term `sigma` (atmosphere and
ocean sigma coordinates) are never decoded -/
theorem C33_sigma_term_violated (dataVars : List Str) (sig : SigVar) (attr : Str) (terms : List (Str × Str)) (v : Str)
    (ha : sig.formulaTerms = some attr) (hd : decodeFormulaTerms attr = some terms) (hm : ("sigma".toList, v) ∈ terms)
    (errors : ErrMode) : ∀ type kw, decodeCfSigma dataVars sig errors ≠ .called type kw := by
  intro type kw h
  unfold decodeCfSigma at h
  have : ∃ e, getSigmaTerms dataVars sig = .error e := by
    unfold getSigmaTerms
    cases sig.standardName with
    | none => exact ⟨_, rfl⟩
    | some sn =>
      simp only
      split
      · exact ⟨_, rfl⟩
      · rw [ha]
        simp only [hd]
        exact subTerms_unknown dataVars terms _ _ v hm (by decide)
  obtain ⟨e, he⟩ := this
  rw [he] at h
  cases e with
  | sigmaError =>
    simp only at h
    split at h <;> exact absurd h (by simp)
  | attributeError => exact absurd h (by simp)

/-- **C33 is violated**: a term whose variable is a coordinate (as the sigma variable of most files,
not a data variable) makes the decoding crash, even with `errors="ignore"` -/
theorem C33_coordinate_violated (dataVars : List Str) (sig : SigVar) (attr : Str) (k v : Str) (terms : List (Str × Str))
    (hs : sig.standardName = some "ocean_s_coordinate_g2".toList)
    (ha : sig.formulaTerms = some attr) (hd : decodeFormulaTerms attr = some ((k, v) :: terms))
    (hv : ∀ x ∈ dataVars, lower x ≠ lower v) (errors : ErrMode) :
    decodeCfSigma dataVars sig errors = .raised .attributeError := by
  have hf : dataVars.find? (fun x => lower x == lower v) = none := by
    rw [List.find?_eq_none]
    intro x hx
    simp only [beq_iff_eq]
    exact hv x hx
  have : getSigmaTerms dataVars sig = .error .attributeError := by
    unfold getSigmaTerms
    rw [hs]
    simp only
    rw [if_neg (by decide), ha]
    simp only [hd]
    unfold subTerms dsSearchCi
    rw [hf]
  unfold decodeCfSigma
  rw [this]

/-- **C33**, the declared types: a type with a formula function and whose terms are all known is
decodable in principle; only one of the five is. -/
theorem C33_decodable_types :
    sigmaFunctions.filter (fun p => decide (p.1 ∈ sigmaTypes) && p.2.all (fun t => (lookupS (lower t) formulaTerms).isSome)) =
      [("ocean_s_coordinate_g2".toList, ["s".toList, "C".toList, "eta".toList, "depth".toList, "depth_c".toList])] := by
  decide +kernel

/-! ### the one that works -/

/-- the result of the loop when all terms are known and all variables are data variables of exactly
these names -/
theorem subTerms_ok (dataVars : List Str) (terms acc : List (Str × Str)) (cf : Str → Str)
    (hcf : ∀ p ∈ terms, lookupS (lower p.1) formulaTerms = some (cf p.1))
    (hv : ∀ p ∈ terms, dsSearchCi dataVars p.2 = .ok p.2) :
    subTerms dataVars acc terms = .ok (terms.foldl (fun d p => setS p.2 (cf p.1) d) acc) := by
  induction terms generalizing acc with
  | nil => rfl
  | cons p terms ih =>
    obtain ⟨k, v⟩ := p
    unfold subTerms
    rw [hv (k, v) (by simp)]
    simp only
    rw [hcf (k, v) (by simp)]
    simp only
    rw [ih _ (fun q hq => hcf q (by simp [hq])) (fun q hq => hv q (by simp [hq]))]
    rfl

theorem dsSearchCi_self (dataVars : List Str) (v : Str) (hm : v ∈ dataVars)
    (hu : ∀ x ∈ dataVars, lower x = lower v → x = v) : dsSearchCi dataVars v = .ok v := by
  unfold dsSearchCi
  cases h : dataVars.find? (fun x => lower x == lower v) with
  | none =>
    rw [List.find?_eq_none] at h
    have := h v hm
    simp at this
  | some x =>
    have h1 := List.find?_some h
    have h2 := List.mem_of_find?_eq_some h
    simp only [beq_iff_eq] at h1
    rw [hu x h2 h1]

/-- **C33** for the generic form 2: if the formula terms are those of the CF convention, with
distinct data variables (names that differ by more than the case) and none called `type`, the
formula function is called with each variable as the argument of its term. -/
theorem C33_g2_partial (dataVars : List Str) (s c eta depth hc attr : Str) (errors : ErrMode)
    (hd : decodeFormulaTerms attr = some [("s".toList, s), ("C".toList, c), ("eta".toList, eta), ("depth".toList, depth), ("depth_c".toList, hc)])
    (hm : ∀ v ∈ [s, c, eta, depth, hc], v ∈ dataVars ∧ (∀ x ∈ dataVars, lower x = lower v → x = v) ∧ v ≠ "type".toList)
    (hn : [s, c, eta, depth, hc].Nodup) :
    decodeCfSigma dataVars ⟨s, some "ocean_s_coordinate_g2".toList, some attr⟩ errors =
      .called "ocean_s_coordinate_g2".toList
        [("sig".toList, s), ("cs".toList, c), ("ssh".toList, eta), ("bathy".toList, depth), ("hc".toList, hc)] := by
  have hv : ∀ v ∈ [s, c, eta, depth, hc], dsSearchCi dataVars v = .ok v := fun v h =>
    dsSearchCi_self dataVars v (hm v h).1 (hm v h).2.1
  have ht : ∀ v ∈ [s, c, eta, depth, hc], v ≠ "type".toList := fun v h => (hm v h).2.2
  simp only [List.mem_cons, List.not_mem_nil, or_false, forall_eq_or_imp, forall_eq] at hv ht
  obtain ⟨v1, v2, v3, v4, v5⟩ := hv
  obtain ⟨t1, t2, t3, t4, t5⟩ := ht
  simp only [List.nodup_cons, List.mem_cons, List.not_mem_nil, or_false, not_or, not_false_eq_true] at hn
  obtain ⟨⟨n12, n13, n14, n15⟩, ⟨n23, n24, n25⟩, ⟨n34, n35⟩, n45, -⟩ := hn
  have l1 : lookupS (lower "s".toList) formulaTerms = some "sig".toList := by decide
  have l2 : lookupS (lower "C".toList) formulaTerms = some "cs".toList := by decide
  have l3 : lookupS (lower "eta".toList) formulaTerms = some "ssh".toList := by decide
  have l4 : lookupS (lower "depth".toList) formulaTerms = some "bathy".toList := by decide
  have l5 : lookupS (lower "depth_c".toList) formulaTerms = some "hc".toList := by decide
  have hget : getSigmaTerms dataVars ⟨s, some "ocean_s_coordinate_g2".toList, some attr⟩ =
      .ok [(s, "sig".toList), ("type".toList, "ocean_s_coordinate_g2".toList), (c, "cs".toList), (eta, "ssh".toList),
        (depth, "bathy".toList), (hc, "hc".toList)] := by
    unfold getSigmaTerms
    simp only
    rw [if_neg (by decide), hd]
    simp only [subTerms, v1, v2, v3, v4, v5, l1, l2, l3, l4, l5]
    simp only [setS, Ne.symm t1, if_false, if_true, Ne.symm n12, t2, Ne.symm n13, t3, Ne.symm n23, Ne.symm n14, t4, Ne.symm n24,
      Ne.symm n34, Ne.symm n15, t5, Ne.symm n25, Ne.symm n35, Ne.symm n45]
  unfold decodeCfSigma
  rw [hget]
  simp only [lookupS, Ne.symm t1, if_false, if_true, Option.getD_some]
  congr 1
  unfold sigmaKwargs popS
  simp only [List.filter_cons, List.filter_nil, ne_eq, t1, t2, t3, t4, t5, not_true_eq_false, not_false_eq_true, decide_true,
    decide_false, if_true, Bool.false_eq_true, if_false]
  have d : ("sig".toList : Str) ≠ "cs".toList := by decide
  simp [List.foldl, setS]

example : decodeCfSigma ["sc_r".toList, "Cs_r".toList, "zeta".toList, "h".toList, "hc".toList, "temp".toList]
    ⟨"sc_r".toList, some "ocean_s_coordinate_g2".toList, some "s: sc_r C: Cs_r eta: zeta depth: h depth_c: hc".toList⟩ .raise =
    .called "ocean_s_coordinate_g2".toList
      [("sig".toList, "sc_r".toList), ("cs".toList, "Cs_r".toList), ("ssh".toList, "zeta".toList), ("bathy".toList, "h".toList),
        ("hc".toList, "hc".toList)] := by decide +kernel

/-- **C33 fails** even then if one variable stands for two terms: one argument is missing (here the
bathymetry, used as critical depth too). -/
theorem C33_shared_variable_violated :
    decodeCfSigma ["sc_r".toList, "Cs_r".toList, "zeta".toList, "h".toList]
      ⟨"sc_r".toList, some "ocean_s_coordinate_g2".toList, some "s: sc_r C: Cs_r eta: zeta depth: h depth_c: h".toList⟩ .raise =
    .called "ocean_s_coordinate_g2".toList
      [("sig".toList, "sc_r".toList), ("cs".toList, "Cs_r".toList), ("ssh".toList, "zeta".toList), ("hc".toList, "h".toList)] := by
  decide +kernel

end Xoa
