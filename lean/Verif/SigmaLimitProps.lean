import Mathlib.Analysis.SpecialFunctions.Trigonometric.Deriv
import Mathlib.Analysis.Calculus.Deriv.Slope
import Verif.SigmaFormulaProps

/-! # The stretching function without stretching (C81) -/

namespace Xoa

open Filter Topology

/-- the quotient of two hyperbolic sines at small arguments -/
theorem sinh_quot_tendsto (r c : ℝ) (hc : c ≠ 0) :
    Tendsto (fun a : ℝ => Real.sinh (r * a) / Real.sinh (c * a)) (𝓝[≠] 0) (𝓝 (r / c)) := by
  have key : ∀ k : ℝ, Tendsto (fun a : ℝ => Real.sinh (k * a) / a) (𝓝[≠] 0) (𝓝 k) := by
    intro k
    have h : HasDerivAt (fun a : ℝ => Real.sinh (k * a)) k 0 := by
      have h1 : HasDerivAt (fun a : ℝ => k * a) k 0 := by
        simpa using (hasDerivAt_id (0 : ℝ)).const_mul k
      have h2 := h1.sinh
      simpa using h2
    have := h.tendsto_slope
    refine this.congr (fun a => ?_)
    simp [slope_def_field]
  have := (key r).div (key c) hc
  refine this.congr' ?_
  filter_upwards [self_mem_nhdsWithin] with a ha
  have ha : a ≠ 0 := ha
  have hs : Real.sinh (c * a) ≠ 0 := by
    rw [Ne, Real.sinh_eq_zero]; exact mul_ne_zero hc ha
  simp only [Pi.div_apply]
  field_simp

theorem cosh_tendsto (r : ℝ) : Tendsto (fun a : ℝ => Real.cosh (r * a)) (𝓝[≠] 0) (𝓝 1) := by
  have h : Continuous (fun a : ℝ => Real.cosh (r * a)) := Real.continuous_cosh.comp (continuous_const.mul continuous_id)
  have := h.tendsto 0
  rw [mul_zero, Real.cosh_zero] at this
  exact this.mono_left nhdsWithin_le_nhds

/-- **C81** (the limit case): for every level, every `theta_b` and every type, the stretching value of a small
`theta_s ≠ 0` is defined and tends to `s` when `theta_s` tends to 0; only the value at `theta_s = 0` itself is missing. -/
theorem C81_limit_partial (s b : ℝ) (t : Option String) :
    (∀ a : ℝ, getCs s a b t ≠ none ↔ a ≠ 0) ∧
    Tendsto (fun a : ℝ => (getCs s a b t).getD 0) (𝓝[≠] 0) (𝓝 s) := by
  constructor
  · intro a
    constructor
    · rintro h rfl
      exact h (C81_no_stretching_violated s b t)
    · intro ha
      rw [getCs_eq s a b ha t]
      simp
  · have h1 := (sinh_quot_tendsto s 1 one_ne_zero).mul_const (1 - b)
    have h2 := ((sinh_quot_tendsto (s + 1 / 2) (1 / 2) (by norm_num)).mul
      ((cosh_tendsto (1 / 2)).div (cosh_tendsto (s + 1 / 2)) one_ne_zero)).div_const 2
    have h3 := h1.add ((h2.sub_const (1 / 2)).const_mul b)
    have e : s / 1 * (1 - b) + b * ((s + 1 / 2) / (1 / 2) * (1 / 1) / 2 - 1 / 2) = s := by ring
    rw [e] at h3
    refine h3.congr' ?_
    filter_upwards [self_mem_nhdsWithin] with a ha
    have ha : a ≠ 0 := ha
    rw [getCs_eq s a b ha t]
    simp only [Option.getD_some, Pi.div_apply, Real.tanh_eq_sinh_div_cosh]
    have c1 := (Real.cosh_pos (1 / 2 * a)).ne'
    have c2 := (Real.cosh_pos ((s + 1 / 2) * a)).ne'
    have s1 : Real.sinh (1 / 2 * a) ≠ 0 := by
      rw [Ne, Real.sinh_eq_zero]; intro h; apply ha; linarith
    have s2 : Real.sinh a ≠ 0 := by rwa [Ne, Real.sinh_eq_zero]
    rw [one_mul, mul_comm a (s + 1 / 2)]
    generalize Real.cosh (1 / 2 * a) = x1 at *
    generalize Real.cosh ((s + 1 / 2) * a) = x2 at *
    generalize Real.sinh (1 / 2 * a) = x3 at *
    generalize Real.sinh a = x4 at *
    field_simp

end Xoa
