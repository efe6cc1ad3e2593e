import Verif.Grid
import Verif.RoundingMono

/-!
# `get_edges_1d` in floating-point arithmetic

The same program as `edges1d` of `Verif.Grid`, every sum, difference and product being rounded. The centres are numbers of a floating-point type, and
the result has the same type (xoa/grid.py:72).
-/

namespace Xoa

/-- `a - (b - a) * 0.5`, with three roundings, xoa/grid.py:76-77 and 79-80 -/
def endEdgeF (fl : ℚ → ℚ) (a b : ℚ) : ℚ := fl (a - fl (fl (b - a) * (1 / 2)))

/-- `0.5 * (a + b)`, with two roundings, xoa/grid.py:78 -/
def midEdgeF (fl : ℚ → ℚ) (a b : ℚ) : ℚ := fl (1 / 2 * fl (a + b))

/-- `get_edges_1d` on one column of a floating-point array along the axis, xoa/grid.py:69-80; `none` is an `IndexError`; `junk` is the initial content
of the result -/
def edges1dF (fl : ℚ → ℚ) (ndim : Nat) (axis : Int) (junk : List ℚ) (data : List ℚ) : Option (List ℚ) := do
  let n := data.length
  let src := fun name => (colPos ndim axis name n).map (gather data)
  let first ← src "first"
  let firstp1 ← src "firstp1"
  let p ← colPos ndim axis "first" (n + 1)
  let e := scatter junk p (List.zipWith (endEdgeF fl) first firstp1)
  let firsts ← src "firsts"
  let lasts ← src "lasts"
  let p ← colPos ndim axis "mid" (n + 1)
  let e := scatter e p (List.zipWith (midEdgeF fl) firsts lasts)
  let last ← src "last"
  let lastm1 ← src "lastm1"
  let p ← colPos ndim axis "last" (n + 1)
  return scatter e p (List.zipWith (endEdgeF fl) last lastm1)

end Xoa
