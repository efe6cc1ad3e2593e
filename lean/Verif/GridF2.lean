import Verif.GridF

/-!
# `get_edges_2d` in floating-point arithmetic

The same program as `edges2d` of `Verif.Grid`, every sum, difference and product being rounded. The centres are numbers of a floating-point type, and
the result has the same type (xoa/grid.py:103).
-/

namespace Xoa

/-- `0.25 * (a + b + c + d)`, from left to right, with four roundings, xoa/grid.py:107-110 -/
def meanF (fl : ℚ → ℚ) (a b c d : ℚ) : ℚ := fl (1 / 4 * fl (fl (fl (a + b) + c) + d))

/-- `1.5 * a - 0.5 * b`, with three roundings, xoa/grid.py:113-118 -/
def outF (fl : ℚ → ℚ) (a b : ℚ) : ℚ := fl (fl (3 / 2 * a) - fl (1 / 2 * b))

/-- `get_edges_1d` of a row of `n` values, at `i`, xoa/grid.py:113-118; the argument has one dimension and the default axis, the last one -/
def rowEdgesF (fl : ℚ → ℚ) (f : Nat → ℚ) (n i : Nat) : ℚ :=
  ((edges1dF fl 1 (-1) ((List.range (n + 1)).map (fun _ => 0)) ((List.range n).map f)).getD []).getD i 0

/-- `get_edges_2d` on a `ny x nx` floating point array, xoa/grid.py:88-121; `none` is an `IndexError`. `junk` is the initial content of the result.
Not modelled: overflows, and the labels of the result (`Verif.GridXr`). -/
def edges2dF (fl : ℚ → ℚ) (ny nx : Nat) (junk : Nat → Nat → ℚ) (d : Nat → Nat → ℚ) : Option (Nat → Nat → ℚ) :=
  if ny < 2 ∨ nx < 2 then none
  else
    -- Inner
    let e : Nat → Nat → ℚ := fun j i =>
      if 1 ≤ j ∧ j < ny ∧ 1 ≤ i ∧ i < nx then meanF fl (d j i) (d (j - 1) i) (d j (i - 1)) (d (j - 1) (i - 1)) else junk j i
    -- Lower and upper
    let e := fun j i => if j = 0 then fl (e j i + rowEdgesF fl (fun i => outF fl (d 0 i) (d 1 i)) nx i) else e j i
    let e := fun j i => if j = ny then fl (e j i + rowEdgesF fl (fun i => outF fl (d (ny - 1) i) (d (ny - 2) i)) nx i) else e j i
    -- Left and right
    let e := fun j i => if i = 0 then fl (e j i + rowEdgesF fl (fun j => outF fl (d j 0) (d j 1)) ny j) else e j i
    let e := fun j i => if i = nx then fl (e j i + rowEdgesF fl (fun j => outF fl (d j (nx - 1)) (d j (nx - 2))) ny j) else e j i
    -- Corners
    let e := fun j i => if (j = 0 ∨ j = ny) ∧ (i = 0 ∨ i = nx) then fl (e j i * (1 / 2)) else e j i
    some e

end Xoa
