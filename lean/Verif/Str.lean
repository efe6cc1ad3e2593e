/-!
# Python strings

Python `str` is modelled by `List Char` (`Str`).  Case folding and character classes are
the ASCII ones: the model covers names made of any characters, but `lower`, `\w`, `\s` and
`[a-z]` only act on ASCII letters (Python also folds non-ASCII letters).
-/

namespace Xoa

abbrev Str := List Char

/-- `str.lower` -/
def lower (s : Str) : Str := s.map Char.toLower
/-- `str.upper` -/
def upper (s : Str) : Str := s.map Char.toUpper

/-- `\s`, characters removed by `str.strip` -/
def isSpace (c : Char) : Bool :=
  c = ' ' || c = '\t' || c = '\n' || c = '\r' || c = '\x0b' || c = '\x0c'

/-- `\w` -/
def isWord (c : Char) : Bool := c.isAlphanum || c = '_'

/-- `str.lstrip` -/
def lstrip (s : Str) : Str := s.dropWhile isSpace
/-- `str.rstrip` -/
def rstrip (s : Str) : Str := (s.reverse.dropWhile isSpace).reverse
/-- `str.strip` -/
def strip (s : Str) : Str := rstrip (lstrip s)

theorem Char.toLower_toLower (c : Char) : c.toLower.toLower = c.toLower := by
  unfold Char.toLower
  split
  · next h =>
    rw [dif_neg]
    simp only [Char.reduceVal, UInt32.le_iff_toNat_le, UInt32.toNat_add] 
    have h1 : ('A'.val).toNat = 65 := by decide
    have h2 : ('Z'.val).toNat = 90 := by decide
    have h3 : (97 - 65 : UInt32).toNat = 32 := by decide
    have h4 : (65 : UInt32).toNat = 65 := by decide
    have h5 : (90 : UInt32).toNat = 90 := by decide
    have ha := h.1
    have hb := h.2
    rw [ge_iff_le, UInt32.le_iff_toNat_le] at ha
    rw [UInt32.le_iff_toNat_le] at hb
    rw [h3]
    omega
  · rfl

@[simp] theorem lower_lower (s : Str) : lower (lower s) = lower s := by
  unfold lower
  rw [List.map_map]
  congr 1
  funext c
  exact Char.toLower_toLower c

theorem lower_length (s : Str) : (lower s).length = s.length := by simp [lower]

theorem lower_eq_nil (s : Str) : lower s = [] ↔ s = [] := by simp [lower]

theorem lower_append (s t : Str) : lower (s ++ t) = lower s ++ lower t := by simp [lower]

theorem Char.toLower_toNat (c : Char) :
    c.toLower.toNat = if 65 ≤ c.toNat ∧ c.toNat ≤ 90 then c.toNat + 32 else c.toNat := by
  unfold Char.toLower
  have h1 : ('A'.val).toNat = 65 := by decide
  have h2 : ('Z'.val).toNat = 90 := by decide
  have h3 : ('a'.val - 'A'.val : UInt32).toNat = 32 := by decide
  by_cases h : c.val ≥ 'A'.val ∧ c.val ≤ 'Z'.val
  · rw [dif_pos h]
    have ha := h.1
    have hb := h.2
    rw [ge_iff_le, UInt32.le_iff_toNat_le] at ha
    rw [UInt32.le_iff_toNat_le] at hb
    unfold Char.toNat
    rw [if_pos (by omega)]
    simp only [UInt32.toNat_add, h3]
    omega
  · rw [dif_neg h]
    rw [ge_iff_le, UInt32.le_iff_toNat_le, UInt32.le_iff_toNat_le] at h
    unfold Char.toNat
    rw [if_neg (by omega)]

theorem isSpace_eq (c : Char) : isSpace c =
    (c.toNat == 32 || c.toNat == 9 || c.toNat == 10 || c.toNat == 13 || c.toNat == 11 || c.toNat == 12) := by
  have e : ∀ d : Char, (decide (c = d)) = (c.toNat == d.toNat) := by
    intro d
    rw [Bool.eq_iff_iff, beq_iff_eq, decide_eq_true_eq]
    constructor
    · intro h; rw [h]
    · intro h; exact Char.ext (UInt32.toNat.inj h)
  unfold isSpace
  rw [e, e, e, e, e, e]
  rfl

theorem isSpace_toLower (c : Char) : isSpace c.toLower = isSpace c := by
  rw [isSpace_eq, isSpace_eq, Char.toLower_toNat]
  split
  · rw [Bool.eq_iff_iff]
    simp only [Bool.or_eq_true, beq_iff_eq]
    omega
  · rfl

theorem dropWhile_lower (s : Str) : (lower s).dropWhile isSpace = lower (s.dropWhile isSpace) := by
  induction s with
  | nil => rfl
  | cons c s ih =>
    simp only [lower, List.map_cons] at *
    simp only [List.dropWhile_cons, isSpace_toLower]
    split
    · exact ih
    · simp

/-- blanks are the same in any case -/
theorem strip_lower (s : Str) : strip (lower s) = lower (strip s) := by
  unfold strip rstrip lstrip
  rw [dropWhile_lower]
  generalize s.dropWhile isSpace = t
  have : (lower t).reverse = lower t.reverse := by simp [lower]
  rw [this, dropWhile_lower]
  simp [lower]

end Xoa
