import Verif.Num

/-! Independent specification of 1-D interpolation (no reference to the loops). -/

namespace Xoa
open V

/-- the coordinate row is ascending where it is valid (gaps of NaN allowed) -/
def AscRow (r : Row) : Prop :=
  ∀ i j : Int, 0 ≤ i → i ≤ j → j < r.n → ∀ a b, r.get i = some a → r.get j = some b → a ≤ b

/-- the valid values of the row are contiguous (NaN only at both ends) -/
def NoGap (r : Row) : Prop :=
  ∀ i j l : Int, 0 ≤ i → i ≤ j → j ≤ l → l < r.n → r.get i ≠ none → r.get l ≠ none → r.get j ≠ none

/-- `i` and `i+1` are two valid consecutive nodes enclosing `c` -/
def Brackets (y : Row) (i : Int) (c : ℚ) : Prop :=
  0 ≤ i ∧ i + 1 < y.n ∧ ∃ a b, y.get i = some a ∧ y.get (i + 1) = some b ∧ a ≤ c ∧ c ≤ b

/-- the last such pair -/
def LastBracket (y : Row) (i : Int) (c : ℚ) : Prop :=
  Brackets y i c ∧ ∀ j, i < j → ¬ Brackets y j c

/-- `c` is strictly between the two consecutive nodes `i`, `i+1` of coordinates `a`, `b` -/
def StrictlyBetween (y : Row) (i : Int) (a b c : ℚ) : Prop :=
  0 ≤ i ∧ i + 1 < y.n ∧ y.get i = some a ∧ y.get (i + 1) = some b ∧ a < c ∧ c < b

/-- value at `c` of the straight line through `(a, v0)` and `(b, v1)`; NaN if undefined -/
def lineThrough (a b : ℚ) (v0 v1 : V) (c : ℚ) : V :=
  match v0, v1 with
  | some x, some y => if a = b then none else some (x + (y - x) * ((c - a) / (b - a)))
  | _, _ => none

end Xoa
