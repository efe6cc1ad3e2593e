import Verif.Interp2d

/-!
# `haversine` and `closest2d` in floating-point arithmetic (xoa/interp.py:519-580)

The same programs as in `Verif.Interp2d`, where each operation and each function of the mathematical library gives an approximate result. The flag `fastmath=True` of numba, which lets the compiler
reorder operations, is not modelled; overflows and underflows are not modelled.
-/

namespace Xoa

/-- the arithmetic of the machine: rounding of a result, the constant `np.pi` and the functions of the library (in their domains) -/
structure MathF where
  fl : ℝ → ℝ
  pi : ℝ
  sin : ℝ → ℝ
  cos : ℝ → ℝ
  sqrt : ℝ → ℝ
  asin : ℝ → ℝ

/-- `deg2rad = np.pi / 180.`, xoa/interp.py:541 -/
noncomputable def MathF.d2r (m : MathF) : ℝ := m.fl (m.pi / 180)

/-- `math.sin(deg2rad*(a-b)*0.5)**2`, xoa/interp.py:542, 544 -/
noncomputable def MathF.sinSq (m : MathF) (a b : ℝ) : ℝ :=
  let s := m.sin (m.fl (m.fl (m.d2r * m.fl (a - b)) * (1 / 2)))
  m.fl (s * s)

/-- `math.cos(deg2rad*lat)`, xoa/interp.py:543 -/
noncomputable def MathF.cosLat (m : MathF) (lat : ℝ) : ℝ := m.cos (m.fl (m.d2r * lat))

/-- the value under the square root, xoa/interp.py:542-544 -/
noncomputable def havArgF (m : MathF) (lon0 lat0 lon1 lat1 : ℝ) : ℝ :=
  m.fl (m.sinSq lat0 lat1 + m.fl (m.fl (m.cosLat lat0 * m.cosLat lat1) * m.sinSq lon0 lon1))

/-- `haversine`, xoa/interp.py:521-546: NaN when the square root or the arc sine is out of its domain -/
noncomputable def haversineF (m : MathF) (lon0 lat0 lon1 lat1 : ℝ) : Option ℝ :=
  if havArgF m lon0 lat0 lon1 lat1 < 0 then none
  else if m.sqrt (havArgF m lon0 lat0 lon1 lat1) < -1 ∨ 1 < m.sqrt (havArgF m lon0 lat0 lon1 lat1) then none
  else some (m.fl (2 * m.asin (m.sqrt (havArgF m lon0 lat0 lon1 lat1))))

/-- the distance that the loop of `closest2d` computes: NaN as soon as a coordinate is, xoa/interp.py:575 -/
noncomputable def distF (m : MathF) (g : Grid2) (xo yo : ℝ) (it jt : Nat) : Option ℝ :=
  (g.lon jt it).bind fun x => (g.lat jt it).bind fun y => haversineF m xo yo x y

open Classical in
/-- the body of the inner loop of `closest2d`, xoa/interp.py:575-579 -/
noncomputable def closestStepF (m : MathF) (g : Grid2) (xo yo : ℝ) (it : Nat) (s : ClosestState) (jt : Nat) : ClosestState :=
  (distF m g xo yo it jt).elim s fun dist => if dist < s.2 then (some (it, jt), dist) else s

/-- `closest2d`, xoa/interp.py:549-580 -/
noncomputable def closest2dF (m : MathF) (g : Grid2) (xo yo : ℝ) : Except LocErr (Nat × Nat) :=
  let s := (List.range g.nx).foldl (fun s it => (List.range g.ny).foldl (closestStepF m g xo yo it) s) (none, m.pi)
  s.1.elim (.error .unbound) .ok

end Xoa
