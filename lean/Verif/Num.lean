import Mathlib.Algebra.Order.Field.Rat
import Mathlib.Data.Rat.Cast.Order

/-!
# Floating point values with NaN

`V` models a numpy/numba float: `none` is NaN, `some q` a finite value.
Simplifications (stated in DESIGN.md): no rounding, no infinities; a division by
zero gives NaN (floats give ±inf when the numerator is nonzero).
All comparisons with NaN are false, arithmetic propagates NaN (IEEE 754, as used
by every routine of `xoa/interp.py`).
-/

namespace Xoa

abbrev V := Option ℚ

namespace V

/-- the NaN value (`np.nan`) -/
def nan : V := none

def add : V → V → V
  | some a, some b => some (a + b)
  | _, _ => none

def sub : V → V → V
  | some a, some b => some (a - b)
  | _, _ => none

def mul : V → V → V
  | some a, some b => some (a * b)
  | _, _ => none

/-- division; `x/0` is NaN (floats: ±inf if `x ≠ 0`) -/
def div : V → V → V
  | some a, some b => if b = 0 then none else some (a / b)
  | _, _ => none

/-- `a < b`, false if one is NaN -/
def lt : V → V → Bool
  | some a, some b => decide (a < b)
  | _, _ => false

/-- `a <= b`, false if one is NaN -/
def le : V → V → Bool
  | some a, some b => decide (a ≤ b)
  | _, _ => false

/-- `a == b`, false if one is NaN -/
def eqv : V → V → Bool
  | some a, some b => decide (a = b)
  | _, _ => false

/-- `np.isnan` -/
def isnan (v : V) : Bool := v.isNone

@[simp] theorem add_some (a b : ℚ) : add (some a) (some b) = some (a + b) := rfl
@[simp] theorem sub_some (a b : ℚ) : sub (some a) (some b) = some (a - b) := rfl
@[simp] theorem mul_some (a b : ℚ) : mul (some a) (some b) = some (a * b) := rfl
@[simp] theorem lt_some (a b : ℚ) : lt (some a) (some b) = decide (a < b) := rfl
@[simp] theorem le_some (a b : ℚ) : le (some a) (some b) = decide (a ≤ b) := rfl
@[simp] theorem eqv_some (a b : ℚ) : eqv (some a) (some b) = decide (a = b) := rfl
@[simp] theorem sub_none_left (b : V) : sub none b = none := rfl
@[simp] theorem sub_none_right (a : V) : sub a none = none := by cases a <;> rfl
@[simp] theorem add_none_left (b : V) : add none b = none := rfl
@[simp] theorem add_none_right (a : V) : add a none = none := by cases a <;> rfl
@[simp] theorem mul_none_left (b : V) : mul none b = none := rfl
@[simp] theorem mul_none_right (a : V) : mul a none = none := by cases a <;> rfl
@[simp] theorem div_none_left (b : V) : div none b = none := rfl
@[simp] theorem div_none_right (a : V) : div a none = none := by cases a <;> rfl
@[simp] theorem lt_none_left (b : V) : lt none b = false := rfl
@[simp] theorem lt_none_right (a : V) : lt a none = false := by cases a <;> rfl
@[simp] theorem le_none_left (b : V) : le none b = false := rfl
@[simp] theorem le_none_right (a : V) : le a none = false := by cases a <;> rfl
@[simp] theorem isnan_none : isnan none = true := rfl
@[simp] theorem isnan_some (a : ℚ) : isnan (some a) = false := rfl

theorem div_some {a b : ℚ} (h : b ≠ 0) : div (some a) (some b) = some (a / b) := by
  simp [div, h]

theorem lt_iff {a b : V} : lt a b = true ↔ ∃ x y, a = some x ∧ b = some y ∧ x < y := by
  cases a <;> cases b <;> simp

theorem le_iff {a b : V} : le a b = true ↔ ∃ x y, a = some x ∧ b = some y ∧ x ≤ y := by
  cases a <;> cases b <;> simp

theorem isnan_iff {a : V} : isnan a = true ↔ a = none := by
  cases a <;> simp

theorem not_isnan_iff {a : V} : isnan a = false ↔ ∃ x, a = some x := by
  cases a <;> simp

end V

/-- Python `range(a, b)` on integers. -/
def pyRangeAux (a : Int) : Nat → List Int
  | 0 => []
  | n + 1 => a :: pyRangeAux (a + 1) n

/-- Python `range(a, b)`. -/
def pyRange (a b : Int) : List Int := pyRangeAux a (b - a).toNat

theorem mem_pyRangeAux {a x : Int} {n : Nat} :
    x ∈ pyRangeAux a n ↔ a ≤ x ∧ x < a + n := by
  induction n generalizing a with
  | zero => simp [pyRangeAux]
  | succ n ih =>
    simp only [pyRangeAux, List.mem_cons, ih]
    push_cast
    omega

theorem mem_pyRange {a b x : Int} : x ∈ pyRange a b ↔ a ≤ x ∧ x < b := by
  unfold pyRange
  rw [mem_pyRangeAux]
  omega

theorem pyRange_nil {a b : Int} (h : b ≤ a) : pyRange a b = [] := by
  unfold pyRange
  have : (b - a).toNat = 0 := by omega
  rw [this]; rfl

theorem pyRange_cons {a b : Int} (h : a < b) : pyRange a b = a :: pyRange (a + 1) b := by
  unfold pyRange
  have : (b - a).toNat = (b - (a + 1)).toNat + 1 := by omega
  rw [this]; rfl

/-- A numba array row: `n` elements; `get i` for `0 ≤ i < n` is the data.  numba does
not check bounds, so `get i` for other `i` stands for arbitrary memory. -/
structure Row where
  n : Nat
  get : Int → V

/-- numba/numpy wraparound of a (possibly negative) index. -/
def wrapIdx (n : Nat) (i : Int) : Int := if i < 0 then i + n else i

/-- read `row[i]` with wraparound of negative indices, no bound check -/
def Row.rd (r : Row) (i : Int) : V := r.get (wrapIdx r.n i)

theorem Row.rd_nonneg (r : Row) {i : Int} (h : 0 ≤ i) : r.rd i = r.get i := by
  unfold Row.rd wrapIdx
  rw [if_neg (by omega)]

/-- write `row[i] = v` with wraparound -/
def wr1 (n : Nat) (out : Int → V) (i : Int) (v : V) : Int → V :=
  fun j => if j = wrapIdx n i then v else out j

theorem wr1_nonneg (n : Nat) (out : Int → V) {i : Int} (v : V) (h : 0 ≤ i) (j : Int) :
    wr1 n out i v j = if j = i then v else out j := by
  unfold wr1 wrapIdx
  rw [if_neg (by omega : ¬ i < 0)]

/-- Row equality on the actual data. -/
def Row.agree (r r' : Row) : Prop := r.n = r'.n ∧ ∀ i : Int, 0 ≤ i → i < r.n → r.get i = r'.get i

/-- Build a row from a list (out-of-range memory is NaN). -/
def Row.ofList (l : List V) : Row := ⟨l.length, fun i => if 0 ≤ i then (l[i.toNat]?).getD none else none⟩

/-- A 2-D array of shape `(nx, ny)`, without bound checks. -/
structure Mat where
  nx : Nat
  ny : Nat
  get : Int → Int → V

/-- row `m[ix]` -/
def Mat.row (m : Mat) (ix : Int) : Row := ⟨m.ny, m.get ix⟩

/-- same shape and same data inside the bounds -/
def Mat.agree (m m' : Mat) : Prop :=
  m.nx = m'.nx ∧ m.ny = m'.ny ∧
  ∀ i j : Int, 0 ≤ i → i < m.nx → 0 ≤ j → j < m.ny → m.get i j = m'.get i j

def Mat.ofLists (l : List (List V)) : Mat :=
  ⟨l.length, (l.headD []).length,
   fun i j => if 0 ≤ i ∧ 0 ≤ j then (do (← l[i.toNat]?)[j.toNat]?).getD none else none⟩

end Xoa
