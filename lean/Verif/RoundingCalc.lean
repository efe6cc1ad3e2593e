import Verif.Rounding

/-! Propagation of the rounding errors: lemmas for `Interp1dFProps`. -/

namespace Xoa

/-- products of errors -/
theorem abs_mul_le {a b A B : ℚ} (ha : |a| ≤ A) (hb : |b| ≤ B) : |a * b| ≤ A * B := by
  rw [abs_mul]
  exact mul_le_mul ha hb (abs_nonneg _) ((abs_nonneg _).trans ha)

/-- two weights: the error on the first one -/
theorem weight_err {u d0 d1 e0 e1 : ℚ} (hu : u ≤ 1 / 64) (hd0 : 0 ≤ d0) (hd1 : 0 ≤ d1) (hs : 0 < d0 + d1) (he0 : |e0| ≤ u) (he1 : |e1| ≤ u) :
    0 < d0 * (1 + e0) + d1 * (1 + e1) ∧ |d1 * (1 + e1) / (d0 * (1 + e0) + d1 * (1 + e1)) - d1 / (d0 + d1)| ≤ 33 / 64 * u := by
  have hu0 : 0 ≤ u := (abs_nonneg _).trans he0
  obtain ⟨a0, b0⟩ := abs_le.1 he0
  obtain ⟨a1, b1⟩ := abs_le.1 he1
  have hS : (63 / 64) * (d0 + d1) ≤ d0 * (1 + e0) + d1 * (1 + e1) := by nlinarith
  have hS0 : 0 < d0 * (1 + e0) + d1 * (1 + e1) := lt_of_lt_of_le (by linarith) hS
  refine ⟨hS0, ?_⟩
  set S := d0 * (1 + e0) + d1 * (1 + e1) with hSd
  have e : d1 * (1 + e1) / S - d1 / (d0 + d1) = d0 * d1 * (e1 - e0) / (S * (d0 + d1)) := by
    rw [div_sub_div _ _ hS0.ne' hs.ne', hSd]
    congr 1
    ring
  rw [e, abs_div, abs_of_pos (mul_pos hS0 hs), div_le_iff₀ (mul_pos hS0 hs), abs_mul, abs_of_nonneg (mul_nonneg hd0 hd1)]
  have h2 : |e1 - e0| ≤ 2 * u := by rw [abs_le]; constructor <;> linarith
  have h3 : d0 * d1 * |e1 - e0| ≤ d0 * d1 * (2 * u) := mul_le_mul_of_nonneg_left h2 (mul_nonneg hd0 hd1)
  have h4 : d0 * d1 ≤ (d0 + d1) * (d0 + d1) / 4 := by nlinarith [sq_nonneg (d0 - d1)]
  have h5 : d0 * d1 * (2 * u) ≤ (d0 + d1) * (d0 + d1) / 4 * (2 * u) := mul_le_mul_of_nonneg_right h4 (by linarith)
  have h6 : (63 / 64) * (d0 + d1) * (d0 + d1) ≤ S * (d0 + d1) := mul_le_mul_of_nonneg_right hS hs.le
  have h7 : 33 / 64 * u * ((63 / 64) * (d0 + d1) * (d0 + d1)) ≤ 33 / 64 * u * (S * (d0 + d1)) := mul_le_mul_of_nonneg_left h6 (by linarith)
  have h8 : 0 ≤ u * ((d0 + d1) * (d0 + d1)) := mul_nonneg hu0 (mul_nonneg hs.le hs.le)
  nlinarith

/-- the error of `(1+a)(1+b)/(1+c)` -/
theorem factor_err {u a b c : ℚ} (hu : u ≤ 1 / 64) (ha : |a| ≤ u) (hb : |b| ≤ u) (hc : |c| ≤ u) :
    |(1 + a) * (1 + b) / (1 + c) - 1| ≤ 197 / 64 * u := by
  have hu0 : 0 ≤ u := (abs_nonneg _).trans ha
  obtain ⟨a0, a1⟩ := abs_le.1 ha
  obtain ⟨b0, b1⟩ := abs_le.1 hb
  obtain ⟨c0, c1⟩ := abs_le.1 hc
  have hpos : 0 < 1 + c := by linarith
  have hab : |a * b| ≤ u / 64 := (abs_mul_le ha hb).trans (by nlinarith)
  obtain ⟨p0, p1⟩ := abs_le.1 hab
  have huc : |u * c| ≤ u / 64 := by
    rw [abs_mul, abs_of_nonneg hu0]; nlinarith
  obtain ⟨q0, q1⟩ := abs_le.1 huc
  rw [abs_le]
  constructor
  · rw [le_sub_iff_add_le, le_div_iff₀ hpos]; nlinarith
  · rw [sub_le_iff_le_add, div_le_iff₀ hpos]; nlinarith

/-- the error of a weighted mean, from the errors on the weight and on the products -/
theorem comb_err {u M x y s t F e2 e3 : ℚ} (hu0 : 0 ≤ u) (hu : u ≤ 1 / 64) (hx : |x| ≤ M) (hy : |y| ≤ M) (hs0 : 0 ≤ s) (hs2 : 0 ≤ 1 - s)
    (hw : |s - t| ≤ 33 / 64 * u) (hF : |F - 1| ≤ 197 / 64 * u) (he2 : |e2| ≤ u) (he3 : |e3| ≤ u) :
    |(x * s * (1 + e2) + y * (1 - s) * (1 + e3)) * F - (x * t + y * (1 - t))| ≤ 6 * u * M := by
  have hM0 : 0 ≤ M := (abs_nonneg _).trans hx
  have g : ∀ e : ℚ, |e| ≤ u → |(1 + e) * F - 1| ≤ 270 / 64 * u := by
    intro e he
    have e' : (1 + e) * F - 1 = e + (F - 1) + e * (F - 1) := by ring
    have h1 : |e * (F - 1)| ≤ u * (197 / 64 * u) := abs_mul_le he hF
    have h2 : u * (197 / 64 * u) ≤ 9 / 64 * u := by nlinarith
    rw [e']
    have := abs_add_le (e + (F - 1)) (e * (F - 1))
    have := abs_add_le e (F - 1)
    linarith
  have ed : (x * s * (1 + e2) + y * (1 - s) * (1 + e3)) * F - (x * t + y * (1 - t)) =
      (x - y) * (s - t) + (x * (s * ((1 + e2) * F - 1)) + y * ((1 - s) * ((1 + e3) * F - 1))) := by ring
  rw [ed]
  have hxy : |x - y| ≤ 2 * M := by
    have := abs_sub x y
    linarith
  have k1 : |(x - y) * (s - t)| ≤ 2 * M * (33 / 64 * u) := abs_mul_le hxy hw
  have k2 : |x * (s * ((1 + e2) * F - 1))| ≤ M * (s * (270 / 64 * u)) :=
    abs_mul_le hx (abs_mul_le (abs_of_nonneg hs0).le (g e2 he2))
  have k3 : |y * ((1 - s) * ((1 + e3) * F - 1))| ≤ M * ((1 - s) * (270 / 64 * u)) :=
    abs_mul_le hy (abs_mul_le (abs_of_nonneg hs2).le (g e3 he3))
  have k4 := abs_add_le ((x - y) * (s - t)) (x * (s * ((1 + e2) * F - 1)) + y * ((1 - s) * ((1 + e3) * F - 1)))
  have k5 := abs_add_le (x * (s * ((1 + e2) * F - 1))) (y * ((1 - s) * ((1 + e3) * F - 1)))
  have k6 : M * (s * (270 / 64 * u)) + M * ((1 - s) * (270 / 64 * u)) = 270 / 64 * (u * M) := by ring
  have k7 : 0 ≤ u * M := mul_nonneg hu0 hM0
  linarith

theorem lin_alg {d0 d1 x y e0 e1 e2 e3 e4 e5 e6 S : ℚ} (hS : S ≠ 0) (hSd : S = d0 * (1 + e0) + d1 * (1 + e1)) (h5 : 1 + e5 ≠ 0) :
    (x * (d1 * (1 + e1)) * (1 + e2) + y * (d0 * (1 + e0)) * (1 + e3)) * (1 + e4) / (S * (1 + e5)) * (1 + e6) =
      (x * (d1 * (1 + e1) / S) * (1 + e2) + y * (1 - d1 * (1 + e1) / S) * (1 + e3)) * ((1 + e4) * (1 + e6) / (1 + e5)) := by
  have : 1 - d1 * (1 + e1) / S = d0 * (1 + e0) / S := by
    rw [eq_div_iff hS, sub_mul, div_mul_cancel₀ _ hS, hSd]; ring
  rw [this]
  field_simp

/-- the error of a weighted mean of two values, computed as in `linear1d` -/
theorem lin_err {fl : ℚ → ℚ} {u : ℚ} (h : Rounds fl u) (hu : u ≤ 1 / 64) (d0 d1 x y : ℚ) (hd0 : 0 ≤ d0) (hd1 : 0 ≤ d1) (hs : 0 < d0 + d1) :
    |fl (fl (fl (x * fl d1) + fl (y * fl d0)) / fl (fl d0 + fl d1)) - (x * d1 + y * d0) / (d0 + d1)| ≤ 6 * u * max |x| |y| := by
  have hu0 := h.nonneg
  obtain ⟨e0, he0, q0⟩ := h.delta d0
  obtain ⟨e1, he1, q1⟩ := h.delta d1
  obtain ⟨e2, he2, q2⟩ := h.delta (x * fl d1)
  obtain ⟨e3, he3, q3⟩ := h.delta (y * fl d0)
  obtain ⟨e4, he4, q4⟩ := h.delta (fl (x * fl d1) + fl (y * fl d0))
  obtain ⟨e5, he5, q5⟩ := h.delta (fl d0 + fl d1)
  obtain ⟨e6, he6, q6⟩ := h.delta (fl (fl (x * fl d1) + fl (y * fl d0)) / fl (fl d0 + fl d1))
  rw [q6, q4, q5, q2, q3, q0, q1]
  obtain ⟨hS, hw⟩ := weight_err hu hd0 hd1 hs he0 he1
  have hc0 : 0 < 1 + e5 := by linarith [(abs_le.1 he5).1]
  have et : (x * d1 + y * d0) / (d0 + d1) = x * (d1 / (d0 + d1)) + y * (1 - d1 / (d0 + d1)) := by
    field_simp; ring
  rw [lin_alg hS.ne' rfl hc0.ne', et]
  have p1 : 0 ≤ d1 * (1 + e1) := mul_nonneg hd1 (by linarith [(abs_le.1 he1).1])
  have p0 : 0 ≤ d0 * (1 + e0) := mul_nonneg hd0 (by linarith [(abs_le.1 he0).1])
  refine comb_err hu0 hu (le_max_left _ _) (le_max_right _ _) (div_nonneg p1 hS.le) ?_ hw (factor_err hu he4 he6 he5) he2 he3
  rw [sub_nonneg, div_le_one hS]
  linarith

end Xoa
