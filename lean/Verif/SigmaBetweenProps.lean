import Verif.SigmaFormulaProps

/-!
# C240: heights between the bottom and the surface

No new model. The sigma functions (xoa/sigma.py), on one point of the grid.
-/

namespace Xoa

/-! ## Specification -/

/-- the stretching value in force is between -1 and 0: it is given in this interval, or made from the stretching parameters, `theta_b` being between 0 and 1 -/
def ShapedStretch (a b cs : Option ℝ) : Prop :=
  (∃ C, cs = some C ∧ -1 ≤ C ∧ C ≤ 0) ∨ (cs = none ∧ ∃ a' b', a = some a' ∧ b = some b' ∧ a' ≠ 0 ∧ 0 ≤ b' ∧ b' ≤ 1)

/-! ## Proofs -/

theorem shaped_value {s : ℝ} {a b cs : Option ℝ} (h : ShapedStretch a b cs) (h1 : -1 ≤ s) (h0 : s ≤ 0) : ∃ C, StretchOf s a b cs C ∧ -1 ≤ C ∧ C ≤ 0 := by
  rcases h with ⟨C, rfl, a1, a2⟩ | ⟨rfl, a', b', rfl, rfl, ha, hb0, hb1⟩
  · exact ⟨C, Or.inl rfl, a1, a2⟩
  · obtain ⟨c, hc, c1, c2⟩ := C30_range s a' b' ha hb0 hb1 none h1 h0
    rw [getCs_cf s a' b' ha none] at hc
    cases hc
    exact ⟨_, Or.inr ⟨rfl, a', b', rfl, rfl, ha, rfl⟩, c1, c2⟩

theorem between_s {eta s dc depth C : ℝ} (hs1 : -1 ≤ s) (hs0 : s ≤ 0) (hC1 : -1 ≤ C) (hC0 : C ≤ 0) (h1 : dc ≤ depth) (h2 : -eta ≤ dc) :
    -depth ≤ cfOceanS eta s dc depth C ∧ cfOceanS eta s dc depth C ≤ eta := by
  unfold cfOceanS
  have a1 := mul_nonneg (by linarith : (0 : ℝ) ≤ 1 + s) (by linarith : (0 : ℝ) ≤ eta + dc)
  have a2 := mul_nonneg (by linarith : (0 : ℝ) ≤ 1 + C) (by linarith : (0 : ℝ) ≤ depth - dc)
  have b1 := mul_nonneg (by linarith : (0 : ℝ) ≤ -s) (by linarith : (0 : ℝ) ≤ eta + dc)
  have b2 := mul_nonneg (by linarith : (0 : ℝ) ≤ -C) (by linarith : (0 : ℝ) ≤ depth - dc)
  constructor <;> nlinarith

theorem scaled_between {eta depth S : ℝ} (hcol : 0 ≤ depth + eta) (h1 : -1 ≤ S) (h0 : S ≤ 0) : -depth ≤ eta + (eta + depth) * S ∧ eta + (eta + depth) * S ≤ eta := by
  have a1 := mul_nonneg (by linarith : (0 : ℝ) ≤ 1 + S) hcol
  have a2 := mul_nonneg (by linarith : (0 : ℝ) ≤ -S) hcol
  constructor <;> nlinarith

/-! ## The property -/

/-- **C240, sigma coordinates.** For levels between the bottom and the top, the height is between the bottom and the sea surface, and the pressure between that of the top and that of the ground. -/
theorem C240_sigma (s ssh bathy ps ptop : ℝ) (hs1 : -1 ≤ s) (hs0 : s ≤ 0) (hcol : 0 ≤ bathy + ssh) (hp : ptop ≤ ps) :
    (-bathy ≤ oceanSigma s ssh bathy ∧ oceanSigma s ssh bathy ≤ ssh) ∧ (ptop ≤ atmosphereSigma (-s) ps ptop ∧ atmosphereSigma (-s) ps ptop ≤ ps) := by
  unfold oceanSigma atmosphereSigma
  have a1 := mul_nonneg (by linarith : (0 : ℝ) ≤ 1 + s) hcol
  have a2 := mul_nonneg (by linarith : (0 : ℝ) ≤ -s) hcol
  have a3 := mul_nonneg (by linarith : (0 : ℝ) ≤ 1 + s) (by linarith : (0 : ℝ) ≤ ps - ptop)
  have a4 := mul_nonneg (by linarith : (0 : ℝ) ≤ -s) (by linarith : (0 : ℝ) ≤ ps - ptop)
  refine ⟨⟨?_, ?_⟩, ?_, ?_⟩ <;> nlinarith

/-- **C240, s coordinate.** Where the bathymetry is not less than the critical depth, and the critical depth not above the sea surface. -/
theorem C240_s (s ssh bathy hc a b : ℝ) (cs : Option ℝ) (t : Option String) (h : ShapedStretch (some a) (some b) cs) (hs1 : -1 ≤ s) (hs0 : s ≤ 0) (h1 : hc ≤ bathy) (h2 : -ssh ≤ hc) :
    ∃ z, (oceanS s ssh bathy hc a b cs t none).1 = .ok (some z) ∧ -bathy ≤ z ∧ z ≤ ssh := by
  obtain ⟨C, hC, c1, c2⟩ := shaped_value h hs1 hs0
  exact ⟨_, C112_ocean_s s ssh bathy hc a b C cs t none (Or.inl rfl) hC, between_s hs1 hs0 c1 c2 h1 h2⟩

/-- **C240, generic form 1.** Where there is water, and the critical depth is between 0 and the bathymetry. -/
theorem C240_s_g1 (s ssh bathy hc : ℝ) (a b cs : Option ℝ) (t : Option String) (h : ShapedStretch a b cs) (hs1 : -1 ≤ s) (hs0 : s ≤ 0) (hb : 0 < bathy) (hcol : 0 ≤ bathy + ssh)
    (h0 : 0 ≤ hc) (h1 : hc ≤ bathy) : ∃ z, (oceanSG1 s ssh bathy hc a b cs t none).1 = .ok (some z) ∧ -bathy ≤ z ∧ z ≤ ssh := by
  obtain ⟨C, hC, c1, c2⟩ := shaped_value h hs1 hs0
  refine ⟨_, C112_ocean_s_g1 s ssh bathy hc C a b cs t none (Or.inl rfl) hb.ne' hC, ?_⟩
  have e : cfOceanSG1 ssh s hc bathy C = ssh + (ssh + bathy) * ((hc * s + (bathy - hc) * C) / bathy) := by
    unfold cfOceanSG1
    field_simp
    ring
  rw [e]
  have a1 := mul_nonneg (by linarith : (0 : ℝ) ≤ 1 + s) h0
  have a2 := mul_nonneg (by linarith : (0 : ℝ) ≤ -s) h0
  have a3 := mul_nonneg (by linarith : (0 : ℝ) ≤ 1 + C) (by linarith : (0 : ℝ) ≤ bathy - hc)
  have a4 := mul_nonneg (by linarith : (0 : ℝ) ≤ -C) (by linarith : (0 : ℝ) ≤ bathy - hc)
  refine scaled_between hcol ?_ ?_
  · rw [le_div_iff₀ hb]; nlinarith
  · rw [div_le_iff₀ hb]; nlinarith

/-- **C240, generic form 2.** Where there is water, whatever the critical depth, if it is not negative. -/
theorem C240_s_g2 (s ssh bathy hc : ℝ) (a b cs : Option ℝ) (t : Option String) (h : ShapedStretch a b cs) (hs1 : -1 ≤ s) (hs0 : s ≤ 0) (hb : 0 < bathy) (hcol : 0 ≤ bathy + ssh)
    (h0 : 0 ≤ hc) : ∃ z, (oceanSG2 s ssh bathy hc a b cs t none).1 = .ok (some z) ∧ -bathy ≤ z ∧ z ≤ ssh := by
  obtain ⟨C, hC, c1, c2⟩ := shaped_value h hs1 hs0
  have hp : 0 < hc + bathy := by linarith
  refine ⟨_, C112_ocean_s_g2 s ssh bathy hc C a b cs t none (Or.inl rfl) hp.ne' hC, ?_⟩
  unfold cfOceanSG2
  have a1 := mul_nonneg (by linarith : (0 : ℝ) ≤ 1 + s) h0
  have a2 := mul_nonneg (by linarith : (0 : ℝ) ≤ -s) h0
  have a3 := mul_nonneg (by linarith : (0 : ℝ) ≤ 1 + C) hb.le
  have a4 := mul_nonneg (by linarith : (0 : ℝ) ≤ -C) hb.le
  refine scaled_between hcol ?_ ?_
  · rw [le_div_iff₀ hp]; nlinarith
  · rw [div_le_iff₀ hp]; nlinarith

/-- the condition on the critical depth is needed for the s coordinate: in water shallower than the critical depth a height can be above the sea surface -/
theorem C240_shallow_excluded : ∃ z, (oceanS 0 0 10 50 0 0 (some (-1)) none none).1 = .ok (some z) ∧ (0 : ℝ) < z := by
  refine ⟨_, C112_ocean_s 0 0 10 50 0 0 (-1) (some (-1)) none none (Or.inl rfl) (Or.inl rfl), ?_⟩
  unfold cfOceanS
  norm_num

/-- the hypotheses are met by a usual column: `theta_s = 5`, `theta_b = 0.4`, 100 m of water, a critical depth of 20 m and a level in the middle -/
example : ShapedStretch (some 5) (some 0.4) none ∧ ∃ z, (oceanS (-1 / 2) 1 100 20 5 0.4 none none none).1 = .ok (some z) ∧ -100 ≤ z ∧ z ≤ 1 := by
  have h : ShapedStretch (some 5) (some 0.4) none := Or.inr ⟨rfl, 5, 0.4, rfl, rfl, by norm_num, by norm_num, by norm_num⟩
  exact ⟨h, C240_s (-1 / 2) 1 100 20 5 0.4 none none h (by norm_num) (by norm_num) (by norm_num) (by norm_num)⟩

end Xoa
