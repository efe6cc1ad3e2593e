import Verif.HavF
import Verif.ClosestProps
import Mathlib.Analysis.SpecialFunctions.Trigonometric.Bounds
import Mathlib.Analysis.Real.Pi.Bounds

/-!
# C226: the closest point in floating-point arithmetic
-/

namespace Xoa

open Real

/-- the arithmetic of the machine has a relative precision of `u`: the operations are rounded to the nearest number, and the functions of the library are precise to the last digit -/
structure MathF.Close (m : MathF) (u : ℝ) : Prop where
  nonneg : 0 ≤ u
  small : u ≤ 1 / 2 ^ 20
  fl : ∀ x, |m.fl x - x| ≤ u * |x|
  pi : |m.pi - π| ≤ 4 * u
  sin : ∀ x, |m.sin x - Real.sin x| ≤ 2 * u
  cos : ∀ x, |m.cos x - Real.cos x| ≤ 2 * u
  sqrt : ∀ x, 0 ≤ x → |m.sqrt x - √x| ≤ u * √x
  asin : ∀ x, -1 ≤ x → x ≤ 1 → |m.asin x - arcsin x| ≤ 4 * u
  /-- the number that stands for π/2 is below it, so that the cosine of a latitude is never negative -/
  cos_lat : ∀ lat, |lat| ≤ 90 → 0 ≤ m.cosLat lat

/-! ## The arc cosine -/

theorem arccos_holder_aux (x y : ℝ) (hx : -1 ≤ x) (hy : y ≤ 1) (hxy : x ≤ y) : arccos x - arccos y ≤ π * √((y - x) / 2) := by
  have hp := pi_pos
  set θ := arccos x with hθ
  set φ := arccos y with hφ
  have t0 : 0 ≤ φ := arccos_nonneg y
  have t1 : θ ≤ π := arccos_le_pi x
  have t2 : φ ≤ θ := arccos_le_arccos hxy
  have cx : Real.cos θ = x := cos_arccos hx (hxy.trans hy)
  have cy : Real.cos φ = y := cos_arccos (hx.trans hxy) hy
  have h1 : y - x = 2 * Real.sin ((θ + φ) / 2) * Real.sin ((θ - φ) / 2) := by
    rw [← cx, ← cy, cos_sub_cos]
    have : (φ - θ) / 2 = - ((θ - φ) / 2) := by ring
    rw [this, Real.sin_neg, add_comm φ θ]
    ring
  have j : (θ - φ) / π ≤ Real.sin ((θ - φ) / 2) := by
    have := mul_le_sin (x := (θ - φ) / 2) (by linarith) (by linarith)
    calc (θ - φ) / π = 2 / π * ((θ - φ) / 2) := by ring
      _ ≤ _ := this
  have s : Real.sin ((θ - φ) / 2) ≤ Real.sin ((θ + φ) / 2) := by
    by_cases hc : (θ + φ) / 2 ≤ π / 2
    · exact sin_le_sin_of_le_of_le_pi_div_two (by linarith) hc (by linarith)
    · rw [← Real.sin_pi_sub ((θ + φ) / 2)]
      exact sin_le_sin_of_le_of_le_pi_div_two (by linarith) (by linarith) (by linarith)
  have j0 : 0 ≤ (θ - φ) / π := div_nonneg (by linarith) hp.le
  have h2 : ((θ - φ) / π) ^ 2 ≤ (y - x) / 2 := by
    rw [h1]
    nlinarith
  have h3 : (θ - φ) / π ≤ √((y - x) / 2) := Real.le_sqrt_of_sq_le h2
  rw [div_le_iff₀ hp] at h3
  linarith

/-- the arc cosine changes by at most `π √(|x - y| / 2)` -/
theorem arccos_holder (x y : ℝ) (hx : -1 ≤ x) (hx' : x ≤ 1) (hy : -1 ≤ y) (hy' : y ≤ 1) : |arccos x - arccos y| ≤ π * √(|x - y| / 2) := by
  rcases le_total x y with h | h
  · rw [abs_of_nonneg (by linarith [arccos_le_arccos h]), abs_sub_comm, abs_of_nonneg (by linarith)]
    exact arccos_holder_aux x y hx hy' h
  · rw [abs_sub_comm, abs_of_nonneg (by linarith [arccos_le_arccos h]), abs_of_nonneg (by linarith)]
    exact arccos_holder_aux y x hy hx' h

theorem two_arcsin (r : ℝ) (h0 : 0 ≤ r) (h1 : r ≤ 1) : 2 * arcsin r = arccos (1 - 2 * r ^ 2) := by
  set t := 1 - 2 * r ^ 2 with ht
  have hr2 : r ^ 2 ≤ 1 := by nlinarith
  have hθ := cos_arccos (x := t) (by nlinarith) (by nlinarith)
  have hh : r ^ 2 = Real.sin (arccos t / 2) ^ 2 := by
    rw [sin_sq_eq_half_sub, show 2 * (arccos t / 2) = arccos t by ring, hθ]; rw [ht]; ring
  have a0 := arccos_nonneg t
  have a1 := arccos_le_pi t
  have hs := sin_nonneg_of_nonneg_of_le_pi (x := arccos t / 2) (by linarith) (by linarith [pi_pos])
  have : r = Real.sin (arccos t / 2) := by
    have := congrArg Real.sqrt hh
    rwa [Real.sqrt_sq h0, Real.sqrt_sq hs] at this
  rw [this, arcsin_sin (by linarith [pi_pos]) (by linarith)]
  ring

/-! ## Propagation of the errors -/

theorem mul_err {a a' b b' ea eb A B : ℝ} (ha : |a' - a| ≤ ea) (hb : |b' - b| ≤ eb) (hA : |a| ≤ A) (hB : |b| ≤ B) :
    |a' * b' - a * b| ≤ ea * (B + eb) + A * eb := by
  have e : a' * b' - a * b = (a' - a) * b' + a * (b' - b) := by ring
  have hb' : |b'| ≤ B + eb := by
    calc |b'| = |b + (b' - b)| := by ring_nf
      _ ≤ |b| + |b' - b| := abs_add_le _ _
      _ ≤ _ := by linarith
  rw [e]
  refine (abs_add_le _ _).trans ?_
  rw [abs_mul, abs_mul]
  have h0 := abs_nonneg (a' - a)
  have h1 := abs_nonneg a
  have h2 := abs_nonneg b'
  have h3 := abs_nonneg (b' - b)
  have e1 : |a' - a| * |b'| ≤ ea * (B + eb) := mul_le_mul ha hb' h2 (h0.trans ha)
  have e2 : |a| * |b' - b| ≤ A * eb := mul_le_mul hA hb h3 (h1.trans hA)
  linarith

section
variable {m : MathF} {u : ℝ} (C : m.Close u)
include C

theorem MathF.Close.fl_err {x x' e B : ℝ} (h : |x' - x| ≤ e) (hB : |x| ≤ B) : |m.fl x' - x| ≤ e + u * (B + e) := by
  have h1 := C.fl x'
  have h2 : |x'| ≤ B + e := by
    calc |x'| = |x + (x' - x)| := by ring_nf
      _ ≤ |x| + |x' - x| := abs_add_le _ _
      _ ≤ _ := by linarith
  calc |m.fl x' - x| = |(m.fl x' - x') + (x' - x)| := by ring_nf
    _ ≤ |m.fl x' - x'| + |x' - x| := abs_add_le _ _
    _ ≤ u * (B + e) + e := by
      have := mul_le_mul_of_nonneg_left h2 C.nonneg
      linarith
    _ = _ := by ring

theorem MathF.Close.fl_nonneg {x : ℝ} (h : 0 ≤ x) : 0 ≤ m.fl x := by
  have h1 := abs_le.1 (C.fl x)
  rw [abs_of_nonneg h] at h1
  have := C.small
  nlinarith [h1.1]

omit C in
theorem d2r_bounds : 0 ≤ deg2rad ∧ deg2rad ≤ 1746 / 100000 := by
  have h1 := pi_lt_d2
  have h2 := pi_pos
  unfold deg2rad
  constructor
  · positivity
  · have := pi_lt_d4
    linarith

theorem MathF.Close.d2r_err : |m.d2r - deg2rad| ≤ u / 20 := by
  obtain ⟨a, b⟩ := d2r_bounds
  have hu := C.nonneg
  have hs := C.small
  have h1 : |m.pi / 180 - deg2rad| ≤ 4 * u / 180 := by
    unfold deg2rad
    rw [← sub_div, abs_div, abs_of_pos (show (0 : ℝ) < 180 by norm_num)]
    exact div_le_div_of_nonneg_right C.pi (by norm_num)
  have h2 := C.fl_err h1 (B := 1746 / 100000) (by rw [abs_of_nonneg a]; exact b)
  unfold MathF.d2r
  norm_num at hs
  nlinarith

/-- the error of the square of the sine of half a difference of degrees -/
theorem MathF.Close.sinSq_err (a b : ℝ) (h : |a - b| ≤ 720) : |m.sinSq a b - Real.sin (deg2rad * (a - b) * (1 / 2)) ^ 2| ≤ 83 * u ∧ 0 ≤ m.sinSq a b := by
  obtain ⟨d0, d1⟩ := d2r_bounds
  have hu := C.nonneg
  have hs := C.small
  norm_num at hs
  have e0 : |m.fl (a - b) - (a - b)| ≤ 720 * u := (C.fl (a - b)).trans (by nlinarith [abs_nonneg (a - b)])
  have hd : |deg2rad| ≤ 1746 / 100000 := by rw [abs_of_nonneg d0]; exact d1
  have e1 := mul_err C.d2r_err e0 hd h
  have e1' : |m.d2r * m.fl (a - b) - deg2rad * (a - b)| ≤ 49 * u := e1.trans (by nlinarith)
  have p1 : |deg2rad * (a - b)| ≤ 1258 / 100 := by
    rw [abs_mul]
    calc |deg2rad| * |a - b| ≤ 1746 / 100000 * 720 := mul_le_mul hd h (abs_nonneg _) (by norm_num)
      _ ≤ _ := by norm_num
  have e2 := C.fl_err e1' p1
  have e2' : |m.fl (m.d2r * m.fl (a - b)) - deg2rad * (a - b)| ≤ 62 * u := e2.trans (by nlinarith)
  have e3 : |m.fl (m.d2r * m.fl (a - b)) * (1 / 2) - deg2rad * (a - b) * (1 / 2)| ≤ 31 * u := by
    rw [← sub_mul, abs_mul, abs_of_pos (show (0 : ℝ) < 1 / 2 by norm_num)]
    linarith
  have p3 : |deg2rad * (a - b) * (1 / 2)| ≤ 629 / 100 := by
    rw [abs_mul, abs_of_pos (show (0 : ℝ) < 1 / 2 by norm_num)]
    linarith
  have e4 := C.fl_err e3 p3
  have e4' : |m.fl (m.fl (m.d2r * m.fl (a - b)) * (1 / 2)) - deg2rad * (a - b) * (1 / 2)| ≤ 38 * u := e4.trans (by nlinarith)
  set x' := m.fl (m.fl (m.d2r * m.fl (a - b)) * (1 / 2)) with hx'
  set x := deg2rad * (a - b) * (1 / 2) with hx
  have e5 : |m.sin x' - Real.sin x| ≤ 40 * u := by
    have l : |Real.sin x' - Real.sin x| ≤ |x' - x| := Real.abs_sin_sub_sin_le x' x
    calc |m.sin x' - Real.sin x| = |(m.sin x' - Real.sin x') + (Real.sin x' - Real.sin x)| := by ring_nf
      _ ≤ _ := (abs_add_le _ _).trans (by linarith [C.sin x'])
  have p5 : |Real.sin x| ≤ 1 := abs_sin_le_one x
  have e6 := mul_err e5 e5 p5 p5
  have e6' : |m.sin x' * m.sin x' - Real.sin x * Real.sin x| ≤ 81 * u := e6.trans (by nlinarith)
  have p6 : |Real.sin x * Real.sin x| ≤ 1 := by
    rw [abs_mul]
    exact mul_le_one₀ p5 (abs_nonneg _) p5
  have e7 := C.fl_err e6' p6
  refine ⟨?_, C.fl_nonneg (mul_self_nonneg _)⟩
  rw [pow_two]
  exact e7.trans (by nlinarith)

theorem MathF.Close.cosLat_err (lat : ℝ) (h : |lat| ≤ 90) : |m.cosLat lat - Real.cos (deg2rad * lat)| ≤ 9 * u := by
  obtain ⟨d0, d1⟩ := d2r_bounds
  have hu := C.nonneg
  have hs := C.small
  norm_num at hs
  have hd : |deg2rad| ≤ 1746 / 100000 := by rw [abs_of_nonneg d0]; exact d1
  have e1 := mul_err C.d2r_err (show |lat - lat| ≤ 0 by simp) hd h
  have e1' : |m.d2r * lat - deg2rad * lat| ≤ 45 / 10 * u := e1.trans (by nlinarith)
  have p1 : |deg2rad * lat| ≤ 16 / 10 := by
    rw [abs_mul]
    calc |deg2rad| * |lat| ≤ 1746 / 100000 * 90 := mul_le_mul hd h (abs_nonneg _) (by norm_num)
      _ ≤ _ := by norm_num
  have e2 := C.fl_err e1' p1
  have e2' : |m.fl (m.d2r * lat) - deg2rad * lat| ≤ 7 * u := e2.trans (by nlinarith)
  unfold MathF.cosLat
  have l := Real.abs_cos_sub_cos_le (m.fl (m.d2r * lat)) (deg2rad * lat)
  calc |m.cos (m.fl (m.d2r * lat)) - Real.cos (deg2rad * lat)|
      = |(m.cos (m.fl (m.d2r * lat)) - Real.cos (m.fl (m.d2r * lat))) + (Real.cos (m.fl (m.d2r * lat)) - Real.cos (deg2rad * lat))| := by ring_nf
    _ ≤ _ := (abs_add_le _ _).trans (by linarith [C.cos (m.fl (m.d2r * lat))])

/-- the error of the value under the square root -/
theorem MathF.Close.arg_err (lon0 lat0 lon1 lat1 : ℝ) (h0 : |lon0| ≤ 360) (h1 : |lon1| ≤ 360) (h2 : |lat0| ≤ 90) (h3 : |lat1| ≤ 90) :
    |havArgF m lon0 lat0 lon1 lat1 - havArg lon0 lat0 lon1 lat1| ≤ 190 * u ∧ 0 ≤ havArgF m lon0 lat0 lon1 lat1 := by
  have hu := C.nonneg
  have hs := C.small
  norm_num at hs
  have dl : |lon0 - lon1| ≤ 720 := (abs_sub _ _).trans (by linarith)
  have dt : |lat0 - lat1| ≤ 720 := (abs_sub _ _).trans (by linarith)
  obtain ⟨a1, a2⟩ := C.sinSq_err lat0 lat1 dt
  obtain ⟨b1, b2⟩ := C.sinSq_err lon0 lon1 dl
  have c0 := C.cosLat_err lat0 h2
  have c1 := C.cosLat_err lat1 h3
  have q : ∀ x : ℝ, |Real.cos x| ≤ 1 := abs_cos_le_one
  have qs : ∀ x : ℝ, |Real.sin x ^ 2| ≤ 1 := by
    intro x
    rw [abs_of_nonneg (sq_nonneg _)]
    exact sin_sq_le_one x
  have e1 := mul_err c0 c1 (q _) (q _)
  have e1' : |m.cosLat lat0 * m.cosLat lat1 - Real.cos (deg2rad * lat0) * Real.cos (deg2rad * lat1)| ≤ 185 / 10 * u := e1.trans (by nlinarith)
  have p1 : |Real.cos (deg2rad * lat0) * Real.cos (deg2rad * lat1)| ≤ 1 := by
    rw [abs_mul]; exact mul_le_one₀ (q _) (abs_nonneg _) (q _)
  have e2 := C.fl_err e1' p1
  have e2' : |m.fl (m.cosLat lat0 * m.cosLat lat1) - Real.cos (deg2rad * lat0) * Real.cos (deg2rad * lat1)| ≤ 20 * u := e2.trans (by nlinarith)
  have e3 := mul_err e2' b1 p1 (qs _)
  have e3' : |m.fl (m.cosLat lat0 * m.cosLat lat1) * m.sinSq lon0 lon1 - Real.cos (deg2rad * lat0) * Real.cos (deg2rad * lat1) * Real.sin (deg2rad * (lon0 - lon1) * (1 / 2)) ^ 2| ≤ 1035 / 10 * u :=
    e3.trans (by nlinarith)
  have p3 : |Real.cos (deg2rad * lat0) * Real.cos (deg2rad * lat1) * Real.sin (deg2rad * (lon0 - lon1) * (1 / 2)) ^ 2| ≤ 1 := by
    rw [abs_mul]; exact mul_le_one₀ p1 (abs_nonneg _) (qs _)
  have e4 := C.fl_err e3' p3
  have e4' : |m.fl (m.fl (m.cosLat lat0 * m.cosLat lat1) * m.sinSq lon0 lon1) - Real.cos (deg2rad * lat0) * Real.cos (deg2rad * lat1) * Real.sin (deg2rad * (lon0 - lon1) * (1 / 2)) ^ 2| ≤ 105 * u :=
    e4.trans (by nlinarith)
  have e5 : |(m.sinSq lat0 lat1 + m.fl (m.fl (m.cosLat lat0 * m.cosLat lat1) * m.sinSq lon0 lon1)) - havArg lon0 lat0 lon1 lat1| ≤ 188 * u := by
    unfold havArg
    rw [add_sub_add_comm]
    exact (abs_add_le _ _).trans (by linarith)
  obtain ⟨r0, r1⟩ := havArg_range lon0 lat0 lon1 lat1
  have e6 := C.fl_err e5 (B := 1) (by rw [abs_of_nonneg r0]; exact r1)
  refine ⟨e6.trans (by nlinarith), ?_⟩
  refine C.fl_nonneg (add_nonneg a2 (C.fl_nonneg (mul_nonneg (C.fl_nonneg (mul_nonneg (C.cos_lat _ h2) (C.cos_lat _ h3))) b2)))

/-- the square of the computed root -/
theorem MathF.Close.root_err (a a' : ℝ) (h : |a' - a| ≤ 190 * u) (h0 : 0 ≤ a') (h1 : a ≤ 1) : |m.sqrt a' ^ 2 - a| ≤ 193 * u ∧ 0 ≤ m.sqrt a' := by
  have hu := C.nonneg
  have hs := C.small
  norm_num at hs
  have e := abs_le.1 (C.sqrt a' h0)
  have q0 := Real.sqrt_nonneg a'
  have q2 := Real.sq_sqrt h0
  have ha' : a' ≤ 1 + 190 * u := by linarith [(abs_le.1 h).2]
  set q := √a' with hq
  set r := m.sqrt a' with hr
  have r0 : 0 ≤ r := by nlinarith [e.1]
  refine ⟨?_, r0⟩
  have f1 : r ≤ (1 + u) * q := by linarith [e.2]
  have f2 : (1 - u) * q ≤ r := by linarith [e.1]
  have g1 : r ^ 2 ≤ (1 + u) ^ 2 * a' := by
    rw [← q2, ← mul_pow]; exact pow_le_pow_left₀ r0 f1 2
  have g2 : (1 - u) ^ 2 * a' ≤ r ^ 2 := by
    rw [← q2, ← mul_pow]; exact pow_le_pow_left₀ (mul_nonneg (by linarith) q0) f2 2
  have k1 : (1 + u) ^ 2 * a' - a' ≤ 3 * u := by
    have : (1 + u) ^ 2 * a' - a' = u * ((2 + u) * a') := by ring
    rw [this]
    have : (2 + u) * a' ≤ 3 := by nlinarith
    nlinarith
  have k2 : a' - (1 - u) ^ 2 * a' ≤ 3 * u := by
    have : a' - (1 - u) ^ 2 * a' = u * ((2 - u) * a') := by ring
    rw [this]
    have : (2 - u) * a' ≤ 3 := by nlinarith
    nlinarith
  have := abs_le.1 h
  rw [abs_le]
  constructor <;> linarith

theorem MathF.Close.sqrt_bounds : 12 * u ≤ 1 / 50 * √u ∧ π * √(193 * u) ≤ 4365 / 100 * √u := by
  have hu := C.nonneg
  have hs := C.small
  have s0 := Real.sqrt_nonneg u
  have s2 := Real.sq_sqrt hu
  constructor
  · have s1 : √u ≤ 1 / 2 ^ 10 := by
      apply Real.sqrt_le_iff.2
      norm_num at hs ⊢
      exact hs
    norm_num at s1
    nlinarith
  · rw [Real.sqrt_mul (by norm_num)]
    have a : √193 ≤ 138925 / 10000 := Real.sqrt_le_iff.2 (by norm_num)
    have b := pi_lt_d4
    have : π * √193 ≤ 4365 / 100 := by nlinarith [pi_pos, Real.sqrt_nonneg 193]
    nlinarith

/-- **C226.** For longitudes between -360 and 360 and latitudes between -90 and 90, the distance computed in an arithmetic of precision `u` is that of the great circle to `44 √u`;
it is NaN only for points that are antipodal to `44 √u`. -/
theorem C226_haversine (lon0 lat0 lon1 lat1 : ℝ) (h0 : |lon0| ≤ 360) (h1 : |lon1| ≤ 360) (h2 : |lat0| ≤ 90) (h3 : |lat1| ≤ 90) :
    (∀ d, haversineF m lon0 lat0 lon1 lat1 = some d → |d - greatCircle lon0 lat0 lon1 lat1| ≤ 44 * √u) ∧
    (haversineF m lon0 lat0 lon1 lat1 = none → π - 44 * √u ≤ greatCircle lon0 lat0 lon1 lat1) := by
  obtain ⟨e, n⟩ := C.arg_err lon0 lat0 lon1 lat1 h0 h1 h2 h3
  obtain ⟨a0, a1⟩ := havArg_range lon0 lat0 lon1 lat1
  obtain ⟨q, r0⟩ := C.root_err _ _ e n a1
  obtain ⟨w1, w2⟩ := C.sqrt_bounds
  have hu := C.nonneg
  have hs := C.small
  norm_num at hs
  have s0 := Real.sqrt_nonneg u
  rw [greatCircle_arccos]
  unfold haversineF
  set a := havArg lon0 lat0 lon1 lat1 with ha
  set a' := havArgF m lon0 lat0 lon1 lat1 with ha'
  set r := m.sqrt a' with hr
  rw [if_neg (not_lt.2 n)]
  by_cases h : r < -1 ∨ 1 < r
  · rw [if_pos h]
    refine ⟨by simp, fun _ => ?_⟩
    have r1 : 1 < r := by
      rcases h with h | h
      · linarith
      · exact h
    have b : 1 - a ≤ 193 * u := by
      have := (abs_le.1 q).2
      nlinarith
    have k := arccos_holder (-1) (1 - 2 * a) (by norm_num) (by norm_num) (by linarith) (by linarith)
    rw [Real.arccos_neg_one] at k
    have k' : √(|-1 - (1 - 2 * a)| / 2) ≤ √(193 * u) := by
      apply Real.sqrt_le_sqrt
      rw [abs_of_nonpos (by linarith)]
      linarith
    have := mul_le_mul_of_nonneg_left k' pi_pos.le
    have := (abs_le.1 k).2
    linarith
  · rw [if_neg h]
    push Not at h
    refine ⟨?_, by simp⟩
    intro d hd
    obtain rfl := Option.some.inj hd
    have r2 : r ^ 2 ≤ 1 := by nlinarith [h.2]
    have k := arccos_holder (1 - 2 * r ^ 2) (1 - 2 * a) (by linarith) (by nlinarith) (by linarith) (by linarith)
    have k' : √(|1 - 2 * r ^ 2 - (1 - 2 * a)| / 2) ≤ √(193 * u) := by
      apply Real.sqrt_le_sqrt
      have : 1 - 2 * r ^ 2 - (1 - 2 * a) = - (2 * (r ^ 2 - a)) := by ring
      rw [this, abs_neg, abs_mul, abs_of_pos (show (0 : ℝ) < 2 by norm_num)]
      linarith
    have k2 := mul_le_mul_of_nonneg_left k' pi_pos.le
    rw [← two_arcsin r r0 h.2] at k
    have e1 : |2 * m.asin r - 2 * arcsin r| ≤ 8 * u := by
      rw [← mul_sub, abs_mul, abs_of_pos (show (0 : ℝ) < 2 by norm_num)]
      linarith [C.asin r h.1 h.2]
    have p1 : |2 * arcsin r| ≤ 3142 / 1000 := by
      have := arcsin_nonneg.2 r0
      have := arcsin_le_pi_div_two r
      have := pi_lt_d4
      rw [abs_of_nonneg (by linarith)]
      linarith
    have e2 := C.fl_err e1 p1
    have e2' : |m.fl (2 * m.asin r) - 2 * arcsin r| ≤ 12 * u := e2.trans (by nlinarith)
    have x := abs_le.1 e2'
    have y := abs_le.1 k
    rw [abs_le]
    constructor <;> linarith

end

/-! ## The running minimum -/

theorem closest2dF_visited (m : MathF) (g : Grid2) (xo yo : ℝ) :
    closest2dF m g xo yo = (((visited g).foldl (fun s c => closestStepF m g xo yo c.1 s c.2) (none, m.pi)).1).elim (.error .unbound) .ok := by
  unfold closest2dF visited
  rw [List.foldl_flatMap]
  simp only [List.foldl_map]

theorem closest_foldF (m : MathF) (g : Grid2) (xo yo : ℝ) (m0 : ℝ) : ∀ l : List (Nat × Nat),
    let s := l.foldl (fun s c => closestStepF m g xo yo c.1 s c.2) ((none, m0) : ClosestState)
    (s.1 = none ∧ s.2 = m0 ∧ ∀ c ∈ l, ∀ r, distF m g xo yo c.1 c.2 = some r → m0 ≤ r) ∨
    (∃ c ∈ l, s.1 = some c ∧ distF m g xo yo c.1 c.2 = some s.2 ∧ s.2 < m0 ∧ (∀ c' ∈ l, ∀ r, distF m g xo yo c'.1 c'.2 = some r → s.2 ≤ r)) := by
  intro l
  induction l using List.reverseRecOn with
  | nil => left; simp
  | append_singleton l c ih =>
    intro s
    simp only at ih
    set s0 := l.foldl (fun s c => closestStepF m g xo yo c.1 s c.2) ((none, m0) : ClosestState) with hs0
    have hs : s = closestStepF m g xo yo c.1 s0 c.2 := by
      simp only [s, List.foldl_append, List.foldl_cons, List.foldl_nil, ← hs0]
    have key : ∀ b : ℝ, (∀ c' ∈ l, ∀ r, distF m g xo yo c'.1 c'.2 = some r → b ≤ r) → (∀ r, distF m g xo yo c.1 c.2 = some r → b ≤ r) →
        ∀ c' ∈ l ++ [c], ∀ r, distF m g xo yo c'.1 c'.2 = some r → b ≤ r := by
      intro b h1 h2 c' hc'
      rcases List.mem_append.mp hc' with h' | h'
      · exact h1 c' h'
      · rw [List.mem_singleton] at h'; subst h'; exact h2
    unfold closestStepF at hs
    cases hc : distF m g xo yo c.1 c.2 with
    | none =>
      rw [hc, Option.elim_none] at hs
      rw [hs]
      rcases ih with ⟨a, b, h⟩ | ⟨d, e1, e2, e3, e4, e5⟩
      · left; exact ⟨a, b, key _ h (by simp [hc])⟩
      · right; exact ⟨d, List.mem_append_left _ e1, e2, e3, e4, key _ e5 (by simp [hc])⟩
    | some v =>
      rw [hc, Option.elim_some] at hs
      by_cases hv : v < s0.2
      · rw [if_pos hv] at hs
        rw [hs]
        right
        refine ⟨c, by simp, rfl, hc, ?_, key v ?_ ?_⟩
        · rcases ih with ⟨a, b, h⟩ | ⟨d, e1, e2, e3, e4, e5⟩
          · show v < m0; rw [← b]; exact hv
          · exact hv.trans e4
        · intro c' hc' r hr
          rcases ih with ⟨a, b, h⟩ | ⟨d, e1, e2, e3, e4, e5⟩
          · rw [b] at hv; exact hv.le.trans (h c' hc' r hr)
          · exact hv.le.trans (e5 c' hc' r hr)
        · intro r hr; rw [hc] at hr; exact (Option.some.inj hr).le
      · rw [if_neg hv] at hs
        rw [hs]
        push Not at hv
        have z : ∀ r, distF m g xo yo c.1 c.2 = some r → s0.2 ≤ r := by
          intro r hr; rw [hc] at hr; rw [← Option.some.inj hr]; exact hv
        rcases ih with ⟨a, b, h⟩ | ⟨d, e1, e2, e3, e4, e5⟩
        · left; exact ⟨a, b, key _ h (by rw [← b]; exact z)⟩
        · right; exact ⟨d, List.mem_append_left _ e1, e2, e3, e4, key _ e5 z⟩

/-- the coordinates of the points of the grid and of the target are in their ranges, in degrees -/
def DegRange (g : Grid2) (xo yo : ℝ) : Prop :=
  |xo| ≤ 360 ∧ |yo| ≤ 90 ∧ ∀ j i, j < g.ny → i < g.nx → (∀ x, g.lon j i = some x → |x| ≤ 360) ∧ (∀ y, g.lat j i = some y → |y| ≤ 90)

section
variable {m : MathF} {u : ℝ} (C : m.Close u) (g : Grid2) (xo yo : ℝ) (R : DegRange g xo yo)
include C R

theorem distF_some {i j : Nat} (hi : i < g.nx) (hj : j < g.ny) {d : ℝ} (h : distF m g xo yo i j = some d) :
    ∃ r, PointDist g xo yo i j r ∧ |d - r| ≤ 44 * √u := by
  obtain ⟨R1, R2, R3⟩ := R
  unfold distF at h
  cases hx : g.lon j i with
  | none => rw [hx] at h; simp at h
  | some x =>
    cases hy : g.lat j i with
    | none => rw [hx, hy] at h; simp at h
    | some y =>
      rw [hx, hy] at h
      simp only [Option.bind_some] at h
      obtain ⟨a, b⟩ := R3 j i hj hi
      exact ⟨_, ⟨hj, hi, x, y, hx, hy, rfl⟩, (C226_haversine C xo yo x y R1 (a x hx) R2 (b y hy)).1 d h⟩

theorem pointDist_F {i j : Nat} {r : ℝ} (h : PointDist g xo yo i j r) :
    (∃ d, distF m g xo yo i j = some d ∧ |d - r| ≤ 44 * √u) ∨ (distF m g xo yo i j = none ∧ π - 44 * √u ≤ r) := by
  obtain ⟨R1, R2, R3⟩ := R
  obtain ⟨hj, hi, x, y, hx, hy, rfl⟩ := h
  obtain ⟨a, b⟩ := R3 j i hj hi
  have k := C226_haversine C xo yo x y R1 (a x hx) R2 (b y hy)
  unfold distF
  rw [hx, hy]
  simp only [Option.bind_some]
  cases hd : haversineF m xo yo x y with
  | none => exact Or.inr ⟨rfl, k.2 hd⟩
  | some d => exact Or.inl ⟨d, rfl, k.1 d hd⟩

/-- **C226.** The point that `closest2d` returns in an arithmetic of precision `u` has known coordinates, and no point is closer to the target by more than `88 √u`. -/
theorem C226_closest (i j : Nat) (h : closest2dF m g xo yo = .ok (i, j)) :
    ∃ r, PointDist g xo yo i j r ∧ ∀ i' j' r', PointDist g xo yo i' j' r' → r ≤ r' + 88 * √u := by
  rw [closest2dF_visited] at h
  rcases closest_foldF m g xo yo m.pi (visited g) with ⟨a, -, -⟩ | ⟨c, e1, e2, e3, e4, e5⟩
  · rw [a] at h; simp at h
  · rw [e2] at h
    simp only [Option.elim_some, Except.ok.injEq] at h
    subst h
    rw [mem_visited] at e1
    obtain ⟨r, hr, hd⟩ := distF_some C g xo yo R e1.1 e1.2 e3
    refine ⟨r, hr, ?_⟩
    intro i' j' r' hr'
    have s0 := Real.sqrt_nonneg u
    have d1 := abs_le.1 hd
    rcases pointDist_F C g xo yo R hr' with ⟨d', x1, x2⟩ | ⟨-, x⟩
    · have := e5 (i', j') ((mem_visited g _).2 ⟨hr'.2.1, hr'.1⟩) d' x1
      have := abs_le.1 x2
      linarith
    · obtain ⟨-, -, x0, y0, -, -, rfl⟩ := hr
      have : greatCircle xo yo x0 y0 ≤ π := InnerProductGeometry.angle_le_pi ..
      linarith

/-- **C226.** It returns a point as soon as one is not antipodal to `45 √u`. -/
theorem C226_defined (i j : Nat) (r : ℝ) (hr : PointDist g xo yo i j r) (h : r < π - 45 * √u) : ∃ c, closest2dF m g xo yo = .ok c := by
  rw [closest2dF_visited]
  rcases closest_foldF m g xo yo m.pi (visited g) with ⟨-, -, a⟩ | ⟨c, e1, e2, e3, e4, e5⟩
  · exfalso
    have s0 := Real.sqrt_nonneg u
    rcases pointDist_F C g xo yo R hr with ⟨d', x1, x2⟩ | ⟨-, x⟩
    · have h1 := a (i, j) ((mem_visited g _).2 ⟨hr.2.1, hr.1⟩) d' x1
      have h2 := abs_le.1 x2
      have h3 := abs_le.1 C.pi
      have h4 := C.sqrt_bounds.1
      have hu := C.nonneg
      linarith
    · linarith
  · rw [e2]
    exact ⟨c, rfl⟩

/-- **C226.** A point that is closer than all the others by more than `88 √u` and that is not antipodal to `45 √u` is returned, in exact arithmetic and in an arithmetic of precision `u`. -/
theorem C226_same (i j : Nat) (r : ℝ) (hr : PointDist g xo yo i j r) (h : r < π - 45 * √u)
    (hc : ∀ i' j' r', PointDist g xo yo i' j' r' → (i', j') ≠ (i, j) → r + 88 * √u < r') :
    closest2dF m g xo yo = .ok (i, j) ∧ closest2d g (some xo) (some yo) = .ok (i, j) := by
  have s0 := Real.sqrt_nonneg u
  constructor
  · obtain ⟨⟨i1, j1⟩, e⟩ := C226_defined C g xo yo R i j r hr h
    obtain ⟨r1, h1, h2⟩ := C226_closest C g xo yo R i1 j1 e
    by_cases hn : (i1, j1) = (i, j)
    · rw [e, hn]
    · have := hc i1 j1 r1 h1 hn
      have := h2 i j r hr
      linarith
  · obtain ⟨⟨i1, j1⟩, e⟩ := (C70_closest_defined_iff_partial g xo yo).2 ⟨i, j, r, hr, by linarith⟩
    obtain ⟨r1, h1, h2⟩ := C12_closest_minimal g xo yo i1 j1 e
    by_cases hn : (i1, j1) = (i, j)
    · rw [e, hn]
    · have := hc i1 j1 r1 h1 hn
      have := h2 i j r hr
      linarith

end

/-! ## The hypotheses are met -/

/-- an arithmetic where each operation loses one unit of the last digit of a double, towards zero -/
noncomputable def lossy : MathF := ⟨fun x => (1 - 1 / 2 ^ 53) * x, π, Real.sin, Real.cos, Real.sqrt, Real.arcsin⟩

theorem lossy_close : lossy.Close (1 / 2 ^ 53) where
  nonneg := by norm_num
  small := by norm_num
  fl := by
    intro x
    show |(1 - 1 / 2 ^ 53) * x - x| ≤ 1 / 2 ^ 53 * |x|
    rw [show (1 - 1 / 2 ^ 53) * x - x = - (1 / 2 ^ 53 * x) by ring, abs_neg, abs_mul, abs_of_pos (show (0 : ℝ) < 1 / 2 ^ 53 by norm_num)]
  pi := by simp [lossy]
  sin := by intro x; simp [lossy]
  cos := by intro x; simp [lossy]
  sqrt := by intro x _; simp [lossy, Real.sqrt_nonneg]
  asin := by intro x _ _; simp [lossy]
  cos_lat := by
    intro lat h
    show 0 ≤ Real.cos ((1 - 1 / 2 ^ 53) * ((1 - 1 / 2 ^ 53) * (π / 180) * lat))
    have hp := pi_pos
    have h' := abs_le.1 h
    apply Real.cos_nonneg_of_neg_pi_div_two_le_of_le
    · norm_num
      nlinarith
    · norm_num
      nlinarith

theorem sqrt_2_53 : √(1 / 2 ^ 53 : ℝ) ≤ 1 / 2 ^ 26 := Real.sqrt_le_iff.2 (by norm_num)

/-- two points of the equator, two degrees and one degree from the target -/
def twoPts : Grid2 := ⟨1, 2, fun _ i => some (if i = 0 then 0 else 3), fun _ _ => some 0⟩

theorem gc_equator (a b : ℝ) (h : |a - b| ≤ 180) : greatCircle a 0 b 0 = |a - b| * π / 180 := by
  have hp := pi_pos
  rw [greatCircle_arccos]
  have : 1 - 2 * havArg a 0 b 0 = Real.cos (|a - b| * π / 180) := by
    unfold havArg deg2rad
    simp only [sub_self, mul_zero, zero_mul, Real.sin_zero, Real.cos_zero]
    have : |a - b| * π / 180 = |2 * (π / 180 * (a - b) * (1 / 2))| := by
      rw [show 2 * (π / 180 * (a - b) * (1 / 2)) = (π / 180) * (a - b) by ring, abs_mul, abs_of_pos (show 0 < π / 180 by positivity)]; ring
    rw [this, Real.cos_abs, Real.cos_two_mul', Real.cos_sq']
    ring
  rw [this, arccos_cos (by positivity)]
  nlinarith

example : closest2dF lossy twoPts 2 0 = .ok (1, 0) ∧ closest2d twoPts (some 2) (some 0) = .ok (1, 0) := by
  have hp := pi_pos
  have hp3 := pi_gt_three
  have s := sqrt_2_53
  norm_num at s
  apply C226_same lossy_close twoPts 2 0 ⟨by norm_num [abs_le], by norm_num [abs_le], ?_⟩ 1 0 (1 * π / 180)
  · refine ⟨by decide, by decide, 3, 0, by simp [twoPts], rfl, ?_⟩
    rw [gc_equator _ _ (by norm_num [abs_le])]
    norm_num
  · norm_num
    linarith
  · intro i' j' r' h hn
    obtain ⟨a, b, x, y, e1, e2, e3⟩ := h
    have b' : i' < 2 := b
    have a' : j' < 1 := a
    obtain rfl : j' = 0 := by omega
    have : i' = 0 := by
      by_contra h0
      exact hn (by rw [show i' = 1 by omega])
    subst this
    simp only [twoPts, if_pos, Option.some.injEq] at e1 e2
    subst e1; subst e2
    rw [e3, gc_equator _ _ (by norm_num [abs_le])]
    norm_num
    linarith
  · intro j i _ _
    refine ⟨?_, ?_⟩
    · intro x hx
      simp only [twoPts, Option.some.injEq] at hx
      subst hx
      split <;> norm_num
    · intro y hy
      simp only [twoPts, Option.some.injEq] at hy
      subst hy
      norm_num

end Xoa
