import Verif.Interp2d
import Mathlib.Geometry.Euclidean.Angle.Unoriented.TriangleInequality
import Mathlib.Analysis.InnerProductSpace.PiL2
import Mathlib.Tactic.Linarith
import Mathlib.Tactic.Ring
import Mathlib.Tactic.FieldSimp

/-!
# C11: the great circle distance

Specification: the point of longitude `lon` and latitude `lat` (degrees) of the unit sphere, and
the angle between two such points seen from the centre.
-/

namespace Xoa

open Real

/-- the point of the unit sphere of given longitude and latitude in degrees -/
noncomputable def spherePoint (lon lat : ℝ) : EuclideanSpace ℝ (Fin 3) :=
  !₂[cos (lat * π / 180) * cos (lon * π / 180), cos (lat * π / 180) * sin (lon * π / 180), sin (lat * π / 180)]

/-- the great circle distance of two points: the angle between their directions -/
noncomputable def greatCircle (lon0 lat0 lon1 lat1 : ℝ) : ℝ :=
  InnerProductGeometry.angle (spherePoint lon0 lat0) (spherePoint lon1 lat1)

theorem spherePoint_inner (lon0 lat0 lon1 lat1 : ℝ) :
    inner ℝ (spherePoint lon0 lat0) (spherePoint lon1 lat1) = 1 - 2 * havArg lon0 lat0 lon1 lat1 := by
  have h1 : deg2rad * (lat0 - lat1) * (1 / 2) = (lat0 * π / 180 - lat1 * π / 180) / 2 := by unfold deg2rad; ring
  have h2 : deg2rad * (lon0 - lon1) * (1 / 2) = (lon0 * π / 180 - lon1 * π / 180) / 2 := by unfold deg2rad; ring
  have h3 : deg2rad * lat0 = lat0 * π / 180 := by unfold deg2rad; ring
  have h4 : deg2rad * lat1 = lat1 * π / 180 := by unfold deg2rad; ring
  unfold havArg
  rw [h1, h2, h3, h4, sin_sq_eq_half_sub, sin_sq_eq_half_sub]
  have e : ∀ u : ℝ, 2 * (u / 2) = u := fun u => by ring
  rw [e, e, cos_sub, cos_sub]
  simp [spherePoint, PiLp.inner_apply, Fin.sum_univ_three]
  ring

theorem spherePoint_norm (lon lat : ℝ) : ‖spherePoint lon lat‖ = 1 := by
  have h : inner ℝ (spherePoint lon lat) (spherePoint lon lat) = (1 : ℝ) := by
    rw [spherePoint_inner]; simp [havArg]
  rw [real_inner_self_eq_norm_sq] at h
  have := norm_nonneg (spherePoint lon lat)
  nlinarith

theorem greatCircle_arccos (lon0 lat0 lon1 lat1 : ℝ) :
    greatCircle lon0 lat0 lon1 lat1 = arccos (1 - 2 * havArg lon0 lat0 lon1 lat1) := by
  unfold greatCircle InnerProductGeometry.angle
  rw [spherePoint_norm, spherePoint_norm, spherePoint_inner]; simp

theorem havArg_range (lon0 lat0 lon1 lat1 : ℝ) : 0 ≤ havArg lon0 lat0 lon1 lat1 ∧ havArg lon0 lat0 lon1 lat1 ≤ 1 := by
  have h := abs_real_inner_le_norm (spherePoint lon0 lat0) (spherePoint lon1 lat1)
  rw [spherePoint_norm, spherePoint_norm, spherePoint_inner, abs_le] at h
  constructor <;> linarith [h.1, h.2]

/-- **C11.** For all real longitudes and latitudes, `haversine` gives the angle at the centre of the
unit sphere between the two points; in particular it is never NaN: its square root and its arc-sine
are always taken in their domains. -/
theorem C11_haversine_is_great_circle (lon0 lat0 lon1 lat1 : ℝ) :
    haversine lon0 lat0 lon1 lat1 = some (greatCircle lon0 lat0 lon1 lat1) := by
  obtain ⟨h0, h1⟩ := havArg_range lon0 lat0 lon1 lat1
  have hs1 : √(havArg lon0 lat0 lon1 lat1) ≤ 1 := by exact Real.sqrt_le_one.mpr h1
  have hs0 := Real.sqrt_nonneg (havArg lon0 lat0 lon1 lat1)
  have hasin : asinF (√(havArg lon0 lat0 lon1 lat1)) = some (arcsin (√(havArg lon0 lat0 lon1 lat1))) := by
    unfold asinF; rw [if_neg]; intro h; rcases h with h | h <;> linarith
  unfold haversine sqrtF
  rw [if_neg (by linarith), Option.bind_some, hasin, greatCircle_arccos]
  simp only [Option.map_some, Option.some.injEq]
  set t := 1 - 2 * havArg lon0 lat0 lon1 lat1 with ht
  have hθ := cos_arccos (x := t) (by linarith) (by linarith)
  have hh : havArg lon0 lat0 lon1 lat1 = sin (arccos t / 2) ^ 2 := by
    rw [sin_sq_eq_half_sub, show 2 * (arccos t / 2) = arccos t by ring, hθ]; rw [ht]; ring
  have a0 := arccos_nonneg t
  have a1 := arccos_le_pi t
  rw [hh, Real.sqrt_sq (sin_nonneg_of_nonneg_of_le_pi (by linarith) (by linarith [pi_pos])),
    arcsin_sin (by linarith [pi_pos]) (by linarith)]
  ring

/-- **C11.** The arguments of the square root and of the arc-sine are in their domains, whatever the
longitudes and latitudes. -/
theorem C11_arguments_in_domain (lon0 lat0 lon1 lat1 : ℝ) :
    0 ≤ havArg lon0 lat0 lon1 lat1 ∧ √(havArg lon0 lat0 lon1 lat1) ∈ Set.Icc (-1 : ℝ) 1 := by
  obtain ⟨h0, h1⟩ := havArg_range lon0 lat0 lon1 lat1
  refine ⟨h0, ?_, ?_⟩
  · linarith [Real.sqrt_nonneg (havArg lon0 lat0 lon1 lat1)]
  · exact Real.sqrt_le_one.mpr h1

/-- **C11.** The distance does not depend on the order of the two points. -/
theorem C11_haversine_symmetric (lon0 lat0 lon1 lat1 : ℝ) :
    haversine lon0 lat0 lon1 lat1 = haversine lon1 lat1 lon0 lat0 := by
  rw [C11_haversine_is_great_circle, C11_haversine_is_great_circle]
  unfold greatCircle; rw [InnerProductGeometry.angle_comm]

/-- **C11.** The distance is always a number of [0, π]. -/
theorem C11_haversine_range (lon0 lat0 lon1 lat1 : ℝ) :
    ∃ r, haversine lon0 lat0 lon1 lat1 = some r ∧ 0 ≤ r ∧ r ≤ π :=
  ⟨_, C11_haversine_is_great_circle .., InnerProductGeometry.angle_nonneg .., InnerProductGeometry.angle_le_pi ..⟩

/-- **C11.** The distance of two points is zero exactly when they are the same point of the sphere;
in particular for identical coordinates. -/
theorem C11_haversine_zero_iff (lon0 lat0 lon1 lat1 : ℝ) :
    haversine lon0 lat0 lon1 lat1 = some 0 ↔ spherePoint lon0 lat0 = spherePoint lon1 lat1 := by
  rw [C11_haversine_is_great_circle]
  simp only [Option.some.injEq]
  unfold greatCircle
  rw [InnerProductGeometry.angle_eq_zero_iff]
  constructor
  · rintro ⟨-, r, hr, h⟩
    have hn := congrArg norm h
    rw [norm_smul, spherePoint_norm, spherePoint_norm, Real.norm_eq_abs, abs_of_pos hr] at hn
    rw [h, show r = 1 by linarith, one_smul]
  · intro h
    refine ⟨?_, 1, one_pos, by rw [h, one_smul]⟩
    intro h0; have := spherePoint_norm lon0 lat0; rw [h0] at this; simp at this

theorem C11_haversine_self (lon lat : ℝ) : haversine lon lat lon lat = some 0 :=
  (C11_haversine_zero_iff ..).mpr rfl

/-- **C11.** Two points of zero distance in the usual ranges, away from the poles, have the same
coordinates. -/
theorem C11_haversine_zero_coordinates (lon0 lat0 lon1 lat1 : ℝ) (a0 : -90 < lat0) (b0 : lat0 < 90) (a1 : -90 < lat1) (b1 : lat1 < 90)
    (hlon : |lon0 - lon1| < 360) (h : haversine lon0 lat0 lon1 lat1 = some 0) : lon0 = lon1 ∧ lat0 = lat1 := by
  have hp := pi_pos
  rw [C11_haversine_zero_iff] at h
  have e2 : sin (lat0 * π / 180) = sin (lat1 * π / 180) := by
    have := congrArg (fun v : EuclideanSpace ℝ (Fin 3) => v 2) h
    simpa [spherePoint] using this
  have l : lat0 * π / 180 = lat1 * π / 180 := by
    apply injOn_sin _ _ e2 <;> constructor <;> nlinarith
  have hl : lat0 = lat1 := by field_simp at l; exact l
  refine ⟨?_, hl⟩
  subst hl
  have hc : 0 < cos (lat0 * π / 180) := cos_pos_of_mem_Ioo ⟨by nlinarith, by nlinarith⟩
  have e0 : cos (lon0 * π / 180) = cos (lon1 * π / 180) := by
    have := congrArg (fun v : EuclideanSpace ℝ (Fin 3) => v 0) h
    simp [spherePoint] at this
    exact this.resolve_right hc.ne'
  have e1 : sin (lon0 * π / 180) = sin (lon1 * π / 180) := by
    have := congrArg (fun v : EuclideanSpace ℝ (Fin 3) => v 1) h
    simp [spherePoint] at this
    exact this.resolve_right hc.ne'
  have hd : cos ((lon0 - lon1) * π / 180) = 1 := by
    rw [show (lon0 - lon1) * π / 180 = lon0 * π / 180 - lon1 * π / 180 by ring, cos_sub, e0, e1]
    nlinarith [sin_sq_add_cos_sq (lon1 * π / 180)]
  rw [abs_lt] at hlon
  rw [cos_eq_one_iff_of_lt_of_lt (by nlinarith) (by nlinarith)] at hd
  have : (lon0 - lon1) * π = 0 := by linarith
  rcases mul_eq_zero.mp this with h' | h'
  · linarith
  · exact absurd h' hp.ne'

/-- **C11.** Whole turns added to a longitude change nothing. -/
theorem C11_haversine_periodic (lon0 lat0 lon1 lat1 : ℝ) (m n : ℤ) :
    haversine (lon0 + 360 * m) lat0 (lon1 + 360 * n) lat1 = haversine lon0 lat0 lon1 lat1 := by
  have h : ∀ lon lat : ℝ, ∀ m : ℤ, spherePoint (lon + 360 * m) lat = spherePoint lon lat := by
    intro lon lat m
    have e : (lon + 360 * m) * π / 180 = lon * π / 180 + m * (2 * π) := by ring
    unfold spherePoint
    rw [e, cos_add_int_mul_two_pi, sin_add_int_mul_two_pi]
  rw [C11_haversine_is_great_circle, C11_haversine_is_great_circle]
  unfold greatCircle; rw [h, h]

/-- **C11.** Triangle inequality. -/
theorem C11_haversine_triangle (lonA latA lonB latB lonC latC : ℝ) :
    ∃ ac ab bc, haversine lonA latA lonC latC = some ac ∧ haversine lonA latA lonB latB = some ab ∧
      haversine lonB latB lonC latC = some bc ∧ ac ≤ ab + bc :=
  ⟨_, _, _, C11_haversine_is_great_circle .., C11_haversine_is_great_circle .., C11_haversine_is_great_circle ..,
    InnerProductGeometry.angle_le_angle_add_angle ..⟩

/-- **C11.** On one meridian the distance is the difference of the latitudes, in radians. -/
theorem C11_haversine_meridian (lon lat0 lat1 : ℝ) (h : |lat0 - lat1| ≤ 180) :
    haversine lon lat0 lon lat1 = some (|lat0 - lat1| * π / 180) := by
  have hp := pi_pos
  rw [C11_haversine_is_great_circle, greatCircle_arccos]
  have e : 1 - 2 * havArg lon lat0 lon lat1 = cos (|lat0 - lat1| * π / 180) := by
    unfold havArg deg2rad
    rw [sub_self, show |lat0 - lat1| * π / 180 = 2 * (|lat0 - lat1| * π / 360) by ring, cos_two_mul, cos_sq']
    have : sin (π / 180 * (lat0 - lat1) * (1 / 2)) ^ 2 = sin (|lat0 - lat1| * π / 360) ^ 2 := by
      rcases abs_cases (lat0 - lat1) with ⟨h, -⟩ | ⟨h, -⟩ <;> rw [h]
      · congr 2; ring
      · rw [show π / 180 * (lat0 - lat1) * (1 / 2) = -(-(lat0 - lat1) * π / 360) by ring, sin_neg, neg_sq]
    rw [this]; simp; ring
  rw [e, arccos_cos (by positivity) (by rw [div_le_iff₀ (by norm_num)]; nlinarith [abs_nonneg (lat0 - lat1)])]

/-- the hypotheses of `C11_haversine_meridian` and `C11_haversine_zero_coordinates` are met -/
example : haversine 7 (-45) 7 45 = some (π / 2) := by
  rw [C11_haversine_meridian _ _ _ (by norm_num [abs_le])]
  norm_num [abs_of_neg]; ring

example : haversine (-5) 48 355 48 = some 0 := by
  rw [show (355 : ℝ) = -5 + 360 * ((1 : ℤ) : ℝ) by norm_num]
  have := C11_haversine_periodic (-5) 48 (-5) 48 0 1
  rw [Int.cast_zero, mul_zero, add_zero] at this
  rw [this]; exact C11_haversine_self ..

example : ¬ haversine 1 2 3 2 = some 0 := fun h => by
  have := C11_haversine_zero_coordinates 1 2 3 2 (by norm_num) (by norm_num) (by norm_num) (by norm_num) (by norm_num [abs_lt]) h
  norm_num at this

end Xoa
