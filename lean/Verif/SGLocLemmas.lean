import Verif.SGLoc
import Mathlib.Tactic.Tauto

/-! Lemmas on the parsing of located names. -/

namespace Xoa

theorem isUpper_iff (c : Char) : c.isUpper = true ↔ 65 ≤ c.toNat ∧ c.toNat ≤ 90 := by
  unfold Char.isUpper
  simp only [ge_iff_le, Bool.and_eq_true, decide_eq_true_eq, UInt32.le_iff_toNat_le]
  exact Iff.rfl

theorem isLower_iff (c : Char) : c.isLower = true ↔ 97 ≤ c.toNat ∧ c.toNat ≤ 122 := by
  unfold Char.isLower
  simp only [ge_iff_le, Bool.and_eq_true, decide_eq_true_eq, UInt32.le_iff_toNat_le]
  exact Iff.rfl

theorem isAlpha_iff (c : Char) :
    c.isAlpha = true ↔ (65 ≤ c.toNat ∧ c.toNat ≤ 90) ∨ (97 ≤ c.toNat ∧ c.toNat ≤ 122) := by
  unfold Char.isAlpha
  rw [Bool.or_eq_true, isUpper_iff, isLower_iff]

theorem isDigit_iff (c : Char) : c.isDigit = true ↔ 48 ≤ c.toNat ∧ c.toNat ≤ 57 := by
  unfold Char.isDigit
  simp only [ge_iff_le, Bool.and_eq_true, decide_eq_true_eq, UInt32.le_iff_toNat_le]
  exact Iff.rfl

theorem char_eq_iff (c d : Char) : c = d ↔ c.toNat = d.toNat := by
  constructor
  · intro h; rw [h]
  · intro h; exact Char.ext (UInt32.toNat.inj h)

theorem isWord_iff (c : Char) :
    isWord c = true ↔ (65 ≤ c.toNat ∧ c.toNat ≤ 90) ∨ (97 ≤ c.toNat ∧ c.toNat ≤ 122) ∨
      (48 ≤ c.toNat ∧ c.toNat ≤ 57) ∨ c.toNat = 95 := by
  unfold isWord Char.isAlphanum
  rw [Bool.or_eq_true, Bool.or_eq_true, isAlpha_iff, isDigit_iff, decide_eq_true_eq, char_eq_iff]
  have : ('_' : Char).toNat = 95 := by decide
  rw [this]
  tauto

theorem Char.toUpper_toNat (c : Char) :
    c.toUpper.toNat = if 97 ≤ c.toNat ∧ c.toNat ≤ 122 then c.toNat - 32 else c.toNat := by
  unfold Char.toUpper
  by_cases h : c.val ≥ 'a'.val ∧ c.val ≤ 'z'.val
  · rw [dif_pos h]
    have ha := h.1
    have hb := h.2
    rw [ge_iff_le, UInt32.le_iff_toNat_le] at ha
    rw [UInt32.le_iff_toNat_le] at hb
    have h1 : ('a'.val).toNat = 97 := by decide
    have h2 : ('z'.val).toNat = 122 := by decide
    have h3 : ('A'.val - 'a'.val : UInt32).toNat = 4294967264 := by decide
    unfold Char.toNat
    rw [if_pos (by omega)]
    simp only [UInt32.toNat_add, h3]
    omega
  · rw [dif_neg h]
    rw [ge_iff_le, UInt32.le_iff_toNat_le, UInt32.le_iff_toNat_le] at h
    have h1 : ('a'.val).toNat = 97 := by decide
    have h2 : ('z'.val).toNat = 122 := by decide
    unfold Char.toNat
    rw [if_neg (by omega)]

theorem isAlpha_toLower (c : Char) : c.toLower.isAlpha = c.isAlpha := by
  rw [Bool.eq_iff_iff, isAlpha_iff, isAlpha_iff, Char.toLower_toNat]
  split <;> omega

theorem isAlpha_toUpper (c : Char) : c.toUpper.isAlpha = c.isAlpha := by
  rw [Bool.eq_iff_iff, isAlpha_iff, isAlpha_iff, Char.toUpper_toNat]
  split <;> omega

theorem isWord_toLower (c : Char) : isWord c.toLower = isWord c := by
  rw [Bool.eq_iff_iff, isWord_iff, isWord_iff, Char.toLower_toNat]
  split <;> omega

theorem isWord_toUpper (c : Char) : isWord c.toUpper = isWord c := by
  rw [Bool.eq_iff_iff, isWord_iff, isWord_iff, Char.toUpper_toNat]
  split <;> omega

theorem toLower_toUpper (c : Char) : c.toUpper.toLower = c.toLower := by
  rw [char_eq_iff, Char.toLower_toNat, Char.toUpper_toNat, Char.toLower_toNat]
  split <;> (try split) <;> (try split) <;> omega

theorem toUpper_toUpper (c : Char) : c.toUpper.toUpper = c.toUpper := by
  rw [char_eq_iff, Char.toUpper_toNat, Char.toUpper_toNat]
  split <;> (try split) <;> omega

theorem lower_upper (s : Str) : lower (upper s) = lower s := by
  unfold lower upper
  rw [List.map_map]
  congr 1
  funext c
  exact toLower_toUpper c

theorem upper_lower (s : Str) : upper (lower s) = upper s := by
  unfold lower upper
  rw [List.map_map]
  congr 1
  funext c
  show c.toLower.toUpper = c.toUpper
  rw [char_eq_iff, Char.toUpper_toNat, Char.toLower_toNat, Char.toUpper_toNat]
  split <;> (try split) <;> (try split) <;> omega

theorem alpha_word (c : Char) (h : c.isAlpha = true) : isWord c = true := by
  rw [isAlpha_iff] at h
  rw [isWord_iff]
  tauto

/-! ### literal text -/

theorem litMatch_nil (s : Str) : litMatch [] s = true := by simp [litMatch, lower]

theorem litMatch_cons_nil (c : Char) (lit : Str) : litMatch (c :: lit) [] = false := by
  simp [litMatch, lower]

theorem litMatch_cons_cons (c x : Char) (lit s : Str) :
    litMatch (c :: lit) (x :: s) = (decide (x.toLower = c.toLower) && litMatch lit s) := by
  unfold litMatch lower
  rw [Bool.eq_iff_iff]
  simp

theorem litMatch_append (lit s : Str) : litMatch lit (lit ++ s) = true := by
  simp [litMatch]

theorem litMatch_length (lit s : Str) (h : litMatch lit s = true) : lit.length ≤ s.length := by
  unfold litMatch at h
  rw [beq_iff_eq] at h
  have := congrArg List.length h
  rw [lower_length, lower_length, List.length_take] at this
  omega

/-- a non letter is not found where there is a letter or the end of the text -/
theorem litMatch_letter (c : Char) (lit s : Str) (hc : c.isAlpha = false)
    (hs : ∀ x, s.head? = some x → x.isAlpha = true) : litMatch (c :: lit) s = false := by
  cases s with
  | nil => exact litMatch_cons_nil c lit
  | cons x s =>
    rw [litMatch_cons_cons]
    have hx := hs x rfl
    have : x.toLower ≠ c.toLower := by
      intro e
      have := congrArg Char.isAlpha e
      rw [isAlpha_toLower, isAlpha_toLower, hx, hc] at this
      exact absurd this (by simp)
    simp [this]

/-- the case of the text does not matter -/
theorem litMatch_lower (lit s : Str) : litMatch lit (lower s) = litMatch lit s := by
  unfold litMatch
  have : (lower s).take lit.length = lower (s.take lit.length) := by simp [lower]
  rw [this, lower_lower]

/-- a matched literal is a prefix ignoring case -/
theorem litMatch_iff (lit s : Str) : litMatch lit s = true ↔ lower lit <+: lower s := by
  unfold litMatch
  rw [beq_iff_eq]
  constructor
  · intro h
    rw [← h]
    have : (lower s).take lit.length = lower (s.take lit.length) := by simp [lower]
    rw [← this]
    exact List.take_prefix _ _
  · rintro ⟨t, ht⟩
    have h1 := congrArg (List.take lit.length) ht
    have h2 : (lower s).take lit.length = lower (s.take lit.length) := by simp [lower]
    rw [h2] at h1
    rw [← h1, List.take_append_of_le_length (by simp [lower]), List.take_of_length_le (by simp [lower])]

/-! ### greedy repetition -/

theorem mem_desc (n k : Nat) : k ∈ desc n ↔ 1 ≤ k ∧ k ≤ n := by
  unfold desc
  simp only [List.mem_map, List.mem_reverse, List.mem_range]
  constructor
  · rintro ⟨a, ha, rfl⟩; omega
  · rintro ⟨h1, h2⟩; exact ⟨k - 1, by omega, by omega⟩

theorem desc_succ (n : Nat) : desc (n + 1) = (n + 1) :: desc n := by
  unfold desc
  rw [List.range_succ]
  simp

/-- the first length that works is the longest -/
theorem desc_findSome {α : Type} (f : Nat → Option α) (n m : Nat) (r : α) (h1 : 1 ≤ m) (h2 : m ≤ n)
    (hm : f m = some r) (hn : ∀ k, m < k → k ≤ n → f k = none) : (desc n).findSome? f = some r := by
  induction n with
  | zero => omega
  | succ n ih =>
    rw [desc_succ, List.findSome?_cons]
    by_cases e : m = n + 1
    · rw [← e, hm]
    · rw [hn (n + 1) (by omega) (by omega)]
      exact ih (by omega) (fun k a b => hn k a (by omega))

theorem spanLen_append (p : Char → Bool) (a b : Str) (ha : ∀ x ∈ a, p x = true) :
    spanLen p (a ++ b) = a.length + spanLen p b := by
  unfold spanLen
  induction a with
  | nil => simp
  | cons x a ih =>
    rw [List.cons_append, List.takeWhile_cons, ha x (by simp)]
    simp only [if_true, List.length_cons]
    rw [ih (fun y hy => ha y (by simp [hy]))]
    omega

theorem spanLen_le (p : Char → Bool) (a : Str) : spanLen p a ≤ a.length :=
  List.Sublist.length_le (List.takeWhile_sublist p)

theorem spanLen_take (p : Char → Bool) (a : Str) (n : Nat) (h : n ≤ spanLen p a) : ∀ x ∈ a.take n, p x = true := by
  induction a generalizing n with
  | nil => intro x hx; simp at hx
  | cons y a ih =>
    intro x hx
    cases n with
    | zero => simp at hx
    | succ n =>
      unfold spanLen at h
      rw [List.takeWhile_cons] at h
      by_cases hy : p y = true
      · simp only [hy, if_true, List.length_cons] at h
        rw [List.take_succ_cons, List.mem_cons] at hx
        rcases hx with rfl | hx
        · exact hy
        · exact ih n (by unfold spanLen; omega) x hx
      · simp [hy] at h

/-- a location made of letters at the end of the text -/
theorem tryLoc_letters (post loc rest : Str) (hl : loc ≠ []) (ha : ∀ x ∈ loc, x.isAlpha = true)
    (hr : spanLen Char.isAlpha rest = 0) (hp : litMatch post rest = true) :
    tryLoc [] post (loc ++ rest) = some loc := by
  unfold tryLoc
  rw [if_pos rfl, spanLen_append _ _ _ ha, hr]
  apply desc_findSome (m := loc.length)
  · exact List.length_pos_iff.mpr hl
  · omega
  · rw [List.drop_left, hp]
    simp
  · intro k h1 h2; omega

/-- the declared location `loc`, when no other one matches before -/
theorem tryLoc_valid (valid : List Str) (post loc rest : Str) (hv : ∃ l ∈ valid, lower l = lower loc)
    (hp : litMatch post rest = true)
    (ho : ∀ l ∈ valid, litMatch l (loc ++ rest) = true → litMatch post ((loc ++ rest).drop l.length) = true →
      l.length = loc.length) :
    tryLoc valid post (loc ++ rest) = some loc := by
  unfold tryLoc
  obtain ⟨l, hl, he⟩ := hv
  have hlen : l.length = loc.length := by rw [← lower_length, he, lower_length]
  rw [if_neg (by intro e; rw [e] at hl; simp at hl)]
  have hgood : (fun l : Str => if (litMatch l (loc ++ rest) && litMatch post ((loc ++ rest).drop l.length)) = true then
      some ((loc ++ rest).take l.length) else none) l = some loc := by
    have : litMatch l (loc ++ rest) = true := by
      rw [litMatch_iff, he, lower_append]
      exact List.prefix_append _ _
    simp only [this, hlen, List.drop_left, List.take_left, hp, Bool.and_self, if_true]
  cases hf : valid.findSome? (fun l => if (litMatch l (loc ++ rest) && litMatch post ((loc ++ rest).drop l.length)) = true
      then some ((loc ++ rest).take l.length) else none) with
  | none =>
    rw [List.findSome?_eq_none_iff] at hf
    have := hf l hl
    exact absurd (hgood.symm.trans this) (by simp)
  | some r =>
    obtain ⟨l', hl', h'⟩ := List.exists_of_findSome?_eq_some hf
    split at h'
    · next hc =>
      rw [Bool.and_eq_true] at hc
      have := ho l' hl' hc.1 hc.2
      rw [this, List.take_left] at h'
      exact h'.symm
    · exact absurd h' (by simp)

theorem head_of_append_letters (loc rest : Str) (hl : loc ≠ []) (ha : ∀ x ∈ loc, x.isAlpha = true) :
    ∀ x, (loc ++ rest).head? = some x → x.isAlpha = true := by
  cases loc with
  | nil => exact absurd rfl hl
  | cons y t => intro x hx; simp at hx; exact hx ▸ ha y (by simp)

end Xoa
