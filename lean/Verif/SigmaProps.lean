import Verif.Sigma

/-! # Properties of the sigma formulas: C28, C29, C30, C31 -/

namespace Xoa

/-! ## The stretching function (C30) -/

theorem tanh_strictMono' {x y : ℝ} (h : x < y) : Real.tanh x < Real.tanh y := by
  rw [Real.tanh_eq_sinh_div_cosh, Real.tanh_eq_sinh_div_cosh, div_lt_div_iff₀ (Real.cosh_pos x) (Real.cosh_pos y)]
  have h1 : 0 < Real.sinh (y - x) := Real.sinh_pos_iff.mpr (by linarith)
  rw [Real.sinh_sub] at h1
  linarith

theorem tanh_half_ne (a : ℝ) (ha : a ≠ 0) : Real.tanh (1 / 2 * a) ≠ 0 := by
  rcases lt_or_gt_of_ne ha with h | h
  · have := tanh_strictMono' (x := 1 / 2 * a) (y := 0) (by linarith)
    rw [Real.tanh_zero] at this
    exact ne_of_lt this
  · have := tanh_strictMono' (x := 0) (y := 1 / 2 * a) (by linarith)
    rw [Real.tanh_zero] at this
    exact ne_of_gt this

theorem getCs_eq (s a b : ℝ) (ha : a ≠ 0) (t : Option String) : getCs s a b t =
    some (Real.sinh (s * a) * (1 - b) / Real.sinh a + b * (Real.tanh (a * (s + 1 / 2)) / (2 * Real.tanh (1 / 2 * a)) - 1 / 2)) := by
  unfold getCs
  rw [if_neg]
  rintro (h | h)
  · exact ha (Real.sinh_eq_zero.mp h)
  · exact tanh_half_ne a ha (by linarith)

/-- **C30**: the stretching function is 0 at the surface, for every parameters (`a ≠ 0`) -/
theorem C30_surface (a b : ℝ) (ha : a ≠ 0) (t : Option String) : getCs 0 a b t = some 0 := by
  rw [getCs_eq 0 a b ha t]
  have h1 := tanh_half_ne a ha
  have e : a * (0 + 1 / 2) = 1 / 2 * a := by ring
  rw [e, zero_mul, Real.sinh_zero]
  congr 1
  generalize Real.tanh (1 / 2 * a) = x at h1
  field_simp
  ring

/-- **C30**: the stretching function is -1 at the bottom, for every parameters (`a ≠ 0`) -/
theorem C30_bottom (a b : ℝ) (ha : a ≠ 0) (t : Option String) : getCs (-1) a b t = some (-1) := by
  rw [getCs_eq (-1) a b ha t]
  have h1 := tanh_half_ne a ha
  have h2 := Real.sinh_ne_zero.mpr ha
  have e1 : a * (-1 + 1 / 2) = -(1 / 2 * a) := by ring
  have e2 : (-1 : ℝ) * a = -a := by ring
  rw [e1, e2, Real.sinh_neg, Real.tanh_neg]
  congr 1
  generalize Real.tanh (1 / 2 * a) = x at h1
  field_simp
  ring

/-- **C30**: with `0 ≤ b ≤ 1`, the stretching function increases strictly with the level -/
theorem C30_increasing (s s' a b : ℝ) (ha : a ≠ 0) (hb0 : 0 ≤ b) (hb1 : b ≤ 1) (t t' : Option String) (hs : s < s') :
    ∃ c c', getCs s a b t = some c ∧ getCs s' a b t' = some c' ∧ c < c' := by
  refine ⟨_, _, getCs_eq s a b ha t, getCs_eq s' a b ha t', ?_⟩
  have A : Real.sinh (s * a) / Real.sinh a < Real.sinh (s' * a) / Real.sinh a := by
    rcases lt_or_gt_of_ne ha with h | h
    · have h1 : Real.sinh a < 0 := Real.sinh_neg_iff.mpr h
      have h2 : Real.sinh (s' * a) < Real.sinh (s * a) := Real.sinh_lt_sinh.mpr (by nlinarith)
      exact div_lt_div_of_neg_of_lt h1 h2
    · have h1 : 0 < Real.sinh a := Real.sinh_pos_iff.mpr h
      have h2 : Real.sinh (s * a) < Real.sinh (s' * a) := Real.sinh_lt_sinh.mpr (by nlinarith)
      exact div_lt_div_of_pos_right h2 h1
  have B : Real.tanh (a * (s + 1 / 2)) / (2 * Real.tanh (1 / 2 * a)) < Real.tanh (a * (s' + 1 / 2)) / (2 * Real.tanh (1 / 2 * a)) := by
    rcases lt_or_gt_of_ne ha with h | h
    · have h1 : 2 * Real.tanh (1 / 2 * a) < 0 := by
        have := tanh_strictMono' (x := 1 / 2 * a) (y := 0) (by linarith)
        rw [Real.tanh_zero] at this; linarith
      have h2 : Real.tanh (a * (s' + 1 / 2)) < Real.tanh (a * (s + 1 / 2)) := tanh_strictMono' (by nlinarith)
      exact div_lt_div_of_neg_of_lt h1 h2
    · have h1 : 0 < 2 * Real.tanh (1 / 2 * a) := by
        have := tanh_strictMono' (x := 0) (y := 1 / 2 * a) (by linarith)
        rw [Real.tanh_zero] at this; linarith
      have h2 : Real.tanh (a * (s + 1 / 2)) < Real.tanh (a * (s' + 1 / 2)) := tanh_strictMono' (by nlinarith)
      exact div_lt_div_of_pos_right h2 h1
  have e : ∀ x : ℝ, Real.sinh (x * a) * (1 - b) / Real.sinh a = (1 - b) * (Real.sinh (x * a) / Real.sinh a) := by
    intro x; ring
  rw [e, e]
  rcases eq_or_lt_of_le hb0 with h | h
  · rw [← h]; linarith
  · nlinarith

/-- **C30**: with `0 ≤ b ≤ 1`, the stretching function stays between -1 and 0 in the water column -/
theorem C30_range (s a b : ℝ) (ha : a ≠ 0) (hb0 : 0 ≤ b) (hb1 : b ≤ 1) (t : Option String) (h1 : -1 ≤ s) (h0 : s ≤ 0) :
    ∃ c, getCs s a b t = some c ∧ -1 ≤ c ∧ c ≤ 0 := by
  refine ⟨_, getCs_eq s a b ha t, ?_, ?_⟩
  · rcases eq_or_lt_of_le h1 with h | h
    · have e := C30_bottom a b ha t
      rw [h, getCs_eq s a b ha t] at e
      injection e with e
      rw [e, h]
    · obtain ⟨c, c', e1, e2, hlt⟩ := C30_increasing (-1) s a b ha hb0 hb1 t t h
      rw [C30_bottom a b ha t] at e1
      rw [getCs_eq s a b ha t] at e2
      injection e1 with e1
      injection e2 with e2
      rw [e2, e1]
      exact le_of_lt hlt
  · rcases eq_or_lt_of_le h0 with h | h
    · have e := C30_surface a b ha t
      rw [← h, getCs_eq s a b ha t] at e
      injection e with e
      rw [e, h]
    · obtain ⟨c, c', e1, e2, hlt⟩ := C30_increasing s 0 a b ha hb0 hb1 t t h
      rw [C30_surface a b ha t] at e2
      rw [getCs_eq s a b ha t] at e1
      injection e1 with e1
      injection e2 with e2
      rw [e1, e2]
      exact le_of_lt hlt

example : (6 : ℝ) ≠ 0 ∧ (0 : ℝ) ≤ 2 / 5 ∧ (2 / 5 : ℝ) ≤ 1 ∧ (-1 : ℝ) ≤ -1 / 3 ∧ (-1 / 3 : ℝ) ≤ 0 := by norm_num

/-- **C81**: the requested stretching type is ignored -/
theorem C81_type_ignored_violated (s a b : ℝ) (t t' : Option String) : getCs s a b t = getCs s a b t' := rfl

/-- **C81 fails** for `theta_s = 0` (no stretching, a legal value): the function is undefined -/
theorem C81_no_stretching_violated (s b : ℝ) (t : Option String) : getCs s 0 b t = none := by
  unfold getCs
  rw [Real.sinh_zero]
  simp

/-! ## Bottom and surface (C28) -/

/-- the depth computed by a formula, when there is no error and the number is finite -/
def depthOf (r : Except SigErr FVal × Option SCache) : Option ℝ :=
  match r.1 with
  | .ok v => v
  | .error _ => none

/-- **C28**, atmosphere: the pressure is the top one at the top and the surface one at the surface -/
theorem C28_atmosphere (ps ptop : ℝ) : atmosphereSigma 0 ps ptop = ptop ∧ atmosphereSigma 1 ps ptop = ps := by
  unfold atmosphereSigma
  exact ⟨by ring, by ring⟩

/-- **C28**, sigma coordinates -/
theorem C28_ocean_sigma (ssh bathy : ℝ) : oceanSigma (-1) ssh bathy = -bathy ∧ oceanSigma 0 ssh bathy = ssh := by
  unfold oceanSigma
  exact ⟨by ring, by ring⟩

/-- the stretching value of the bottom and of the surface: the given one, or the computed one -/
def csAt (cs : Option ℝ) (a : ℝ) (c : ℝ) : Prop := cs = some c ∨ (cs = none ∧ a ≠ 0)

theorem csValue_bottom (cs : Option ℝ) (a b : ℝ) (t : Option String) (h : csAt cs a (-1)) : csValue (-1) a b cs t = some (-1) := by
  rcases h with rfl | ⟨rfl, h⟩
  · rfl
  · exact C30_bottom a b h t

theorem csValue_surface (cs : Option ℝ) (a b : ℝ) (t : Option String) (h : csAt cs a 0) : csValue 0 a b cs t = some 0 := by
  rcases h with rfl | ⟨rfl, h⟩
  · rfl
  · exact C30_surface a b h t

/-- **C28**, s coordinates, with a given or a computed stretching (no cache or an empty one) -/
theorem C28_ocean_s (ssh bathy hc a b : ℝ) (cs : Option ℝ) (t : Option String) (cache : Option SCache)
    (hcache : cacheHit cache = false) :
    (csAt cs a (-1) → depthOf (oceanS (-1) ssh bathy hc a b cs t cache) = some (-bathy)) ∧
    (csAt cs a 0 → depthOf (oceanS 0 ssh bathy hc a b cs t cache) = some ssh) := by
  constructor
  · intro h
    unfold oceanS depthOf
    simp only [hcache, Bool.false_eq_true, if_false, csValue_bottom cs a b t h, Option.map_some]
    congr 1; ring
  · intro h
    unfold oceanS depthOf
    simp only [hcache, Bool.false_eq_true, if_false, csValue_surface cs a b t h, Option.map_some]
    congr 1; ring

theorem csValueOpt_bottom (cs a b : Option ℝ) (t : Option String)
    (h : cs = some (-1) ∨ (cs = none ∧ ∃ a' b', a = some a' ∧ b = some b' ∧ a' ≠ 0)) :
    csValueOpt (-1) a b cs t = .ok (some (-1)) := by
  rcases h with rfl | ⟨rfl, a', b', rfl, rfl, h⟩
  · rfl
  · simp only [csValueOpt, C30_bottom a' b' h t]

theorem csValueOpt_surface (cs a b : Option ℝ) (t : Option String)
    (h : cs = some 0 ∨ (cs = none ∧ ∃ a' b', a = some a' ∧ b = some b' ∧ a' ≠ 0)) :
    csValueOpt 0 a b cs t = .ok (some 0) := by
  rcases h with rfl | ⟨rfl, a', b', rfl, rfl, h⟩
  · rfl
  · simp only [csValueOpt, C30_surface a' b' h t]

/-- **C28**, s coordinates, generic form 1 (bathymetry different from zero) -/
theorem C28_ocean_s_g1 (ssh bathy hc : ℝ) (a b cs : Option ℝ) (t : Option String) (cache : Option SCache)
    (hcache : cacheHit cache = false) (hb : bathy ≠ 0) :
    ((cs = some (-1) ∨ (cs = none ∧ ∃ a' b', a = some a' ∧ b = some b' ∧ a' ≠ 0)) →
      depthOf (oceanSG1 (-1) ssh bathy hc a b cs t cache) = some (-bathy)) ∧
    ((cs = some 0 ∨ (cs = none ∧ ∃ a' b', a = some a' ∧ b = some b' ∧ a' ≠ 0)) →
      depthOf (oceanSG1 0 ssh bathy hc a b cs t cache) = some ssh) := by
  constructor
  · intro h
    unfold oceanSG1 depthOf
    simp only [hcache, Bool.false_eq_true, if_false, csValueOpt_bottom cs a b t h, Option.map_some, Option.bind_some, hb]
    congr 1; field_simp; ring
  · intro h
    unfold oceanSG1 depthOf
    simp only [hcache, Bool.false_eq_true, if_false, csValueOpt_surface cs a b t h, Option.map_some, Option.bind_some, hb]
    congr 1; field_simp; ring

/-- **C28**, s coordinates, generic form 2 -/
theorem C28_ocean_s_g2 (ssh bathy hc : ℝ) (a b cs : Option ℝ) (t : Option String) (cache : Option SCache)
    (hcache : cacheHit cache = false) (hb : hc + bathy ≠ 0) :
    ((cs = some (-1) ∨ (cs = none ∧ ∃ a' b', a = some a' ∧ b = some b' ∧ a' ≠ 0)) →
      depthOf (oceanSG2 (-1) ssh bathy hc a b cs t cache) = some (-bathy)) ∧
    ((cs = some 0 ∨ (cs = none ∧ ∃ a' b', a = some a' ∧ b = some b' ∧ a' ≠ 0)) →
      depthOf (oceanSG2 0 ssh bathy hc a b cs t cache) = some ssh) := by
  constructor
  · intro h
    unfold oceanSG2 depthOf
    simp only [hcache, Bool.false_eq_true, if_false, csValueOpt_bottom cs a b t h, Option.map_some, Option.bind_some, hb]
    congr 1; field_simp; ring
  · intro h
    unfold oceanSG2 depthOf
    simp only [hcache, Bool.false_eq_true, if_false, csValueOpt_surface cs a b t h, Option.map_some, Option.bind_some, hb]
    congr 1; field_simp; ring

example : cacheHit (some []) = false ∧ cacheHit none = false ∧ csAt none 6 (-1) ∧ csAt (some 0) 0 0 := by
  refine ⟨rfl, rfl, Or.inr ⟨rfl, by norm_num⟩, Or.inl rfl⟩

/-- **C79**, exact condition: `ocean_s_coordinate` can be called if and only if the dimensions of the stretching and of the bathymetry are
dimensions of the vertical coordinate or of the critical depth. -/
theorem C79_dims_iff_partial (sig bathy hc cs : List String) :
    (∃ d, oceanSDims sig bathy hc cs = some d) ↔ ∀ x, x ∈ bathy ∨ x ∈ cs → x ∈ sig ∨ x ∈ hc := by
  have hb : ∀ (d e : List String) (x : String), x ∈ bcastDims d e ↔ x ∈ d ∨ x ∈ e := by
    intro d e x
    unfold bcastDims
    simp only [List.mem_append, List.mem_filter, decide_eq_true_eq]
    tauto
  have hi : ∀ d e : List String, (∃ r, inplaceAdd d e = some r) ↔ ∀ x ∈ e, x ∈ d := by
    intro d e
    unfold inplaceAdd
    constructor
    · rintro ⟨r, h⟩ x hx
      by_cases hc : bcastDims d e = d
      · rw [← hc, hb]; exact Or.inr hx
      · rw [if_neg hc] at h; cases h
    · intro h
      refine ⟨d, if_pos ?_⟩
      unfold bcastDims
      rw [List.filter_eq_nil_iff.2, List.append_nil]
      intro x hx
      simp [h x hx]
  unfold oceanSDims
  rw [hi]
  simp only [hb]
  constructor
  · intro h x hx; exact h x (by tauto)
  · intro h x hx
    rcases hx with hx | hx | hx
    · exact h x (Or.inr hx)
    · exact h x (Or.inl hx)
    · exact Or.inr hx

/-- **C79 is violated** as a callable function: with a critical depth of one value and a bathymetry
that has its own dimensions, `ocean_s_coordinate` raises an exception (in-place addition of an
array with more dimensions). -/
theorem C79_dims_violated (sig bathy hc cs : List String) (x : String) (hx : x ∈ bathy) (h1 : x ∉ sig) (h2 : x ∉ hc) :
    oceanSDims sig bathy hc cs = none := by
  unfold oceanSDims inplaceAdd
  rw [if_neg]
  intro e
  have hm : x ∈ bcastDims (bcastDims sig hc) (bcastDims cs (bcastDims bathy hc)) := by
    unfold bcastDims
    simp only [List.mem_append, List.mem_filter, decide_eq_true_eq]
    by_cases hcs : x ∈ cs <;> simp [hx, h1, h2, hcs]
  rw [e] at hm
  unfold bcastDims at hm
  simp [h1, h2] at hm

example : oceanSDims ["s_rho"] ["y", "x"] [] ["s_rho"] = none :=
  C79_dims_violated _ _ _ _ "y" (by simp) (by simp) (by simp)

/-! ## Order of the levels (C29) -/

/-- **C29**, sigma coordinates: levels are ordered in a positive water column -/
theorem C29_ocean_sigma (s s' ssh bathy : ℝ) (hcol : 0 < bathy + ssh) (hs : s < s') :
    oceanSigma s ssh bathy < oceanSigma s' ssh bathy := by
  unfold oceanSigma
  nlinarith

/-- **C29**, atmosphere: pressure increases with sigma when it is larger at the surface than at the top -/
theorem C29_atmosphere (s s' ps ptop : ℝ) (h : ptop < ps) (hs : s < s') :
    atmosphereSigma s ps ptop < atmosphereSigma s' ps ptop := by
  unfold atmosphereSigma
  nlinarith

/-- **C29**, s coordinates: levels are ordered if the critical depth is between 0 and the bathymetry
and the sea surface is above it (all with the same stretching, given or computed) -/
theorem C29_ocean_s (s s' ssh bathy hc a b c c' : ℝ) (t : Option String) (cs cs' : Option ℝ)
    (h1 : csValue s a b cs t = some c) (h2 : csValue s' a b cs' t = some c') (hc' : c ≤ c')
    (hhc : hc ≤ bathy) (hssh : 0 < hc + ssh) (hs : s < s') :
    ∃ z z', depthOf (oceanS s ssh bathy hc a b cs t none) = some z ∧
      depthOf (oceanS s' ssh bathy hc a b cs' t none) = some z' ∧ z < z' := by
  refine ⟨_, _, by simp only [depthOf, oceanS, cacheHit, Bool.false_eq_true, if_false, h1, Option.map_some]; rfl,
    by simp only [depthOf, oceanS, cacheHit, Bool.false_eq_true, if_false, h2, Option.map_some]; rfl, ?_⟩
  nlinarith [mul_nonneg (sub_nonneg.mpr hc') (sub_nonneg.mpr hhc), mul_pos (sub_pos.mpr hs) hssh]

/-- **C29**, generic form 1: levels are ordered in a positive water column if the critical depth is
between 0 and the bathymetry -/
theorem C29_ocean_s_g1 (s s' ssh bathy hc c c' : ℝ) (a b : Option ℝ) (t : Option String) (cs cs' : Option ℝ)
    (h1 : csValueOpt s a b cs t = .ok (some c)) (h2 : csValueOpt s' a b cs' t = .ok (some c')) (hc' : c ≤ c')
    (h0 : 0 < hc) (hhc : hc ≤ bathy) (hcol : 0 < bathy + ssh) (hs : s < s') :
    ∃ z z', depthOf (oceanSG1 s ssh bathy hc a b cs t none) = some z ∧
      depthOf (oceanSG1 s' ssh bathy hc a b cs' t none) = some z' ∧ z < z' := by
  have hb : bathy ≠ 0 := by intro e; linarith
  have hb0 : 0 < bathy := by linarith
  refine ⟨_, _, by simp only [depthOf, oceanSG1, cacheHit, Bool.false_eq_true, if_false, h1, Option.map_some, Option.bind_some, hb]; rfl,
    by simp only [depthOf, oceanSG1, cacheHit, Bool.false_eq_true, if_false, h2, Option.map_some, Option.bind_some, hb]; rfl, ?_⟩
  have hS : s * hc + c * (bathy - hc) < s' * hc + c' * (bathy - hc) := by
    nlinarith [mul_nonneg (sub_nonneg.mpr hc') (sub_nonneg.mpr hhc), mul_pos (sub_pos.mpr hs) h0]
  generalize s * hc + c * (bathy - hc) = S at hS
  generalize s' * hc + c' * (bathy - hc) = S' at hS
  have e : ∀ S : ℝ, S + (S / bathy + 1) * ssh = S * ((bathy + ssh) / bathy) + ssh := by
    intro S; field_simp; ring
  rw [e, e]
  have : 0 < (bathy + ssh) / bathy := div_pos hcol hb0
  nlinarith

/-- **C29**, generic form 2: levels are ordered in a positive water column, whatever the critical depth -/
theorem C29_ocean_s_g2 (s s' ssh bathy hc c c' : ℝ) (a b : Option ℝ) (t : Option String) (cs cs' : Option ℝ)
    (h1 : csValueOpt s a b cs t = .ok (some c)) (h2 : csValueOpt s' a b cs' t = .ok (some c')) (hc' : c < c')
    (h0 : 0 ≤ hc) (hb0 : 0 < bathy) (hcol : 0 < bathy + ssh) (hs : s < s') :
    ∃ z z', depthOf (oceanSG2 s ssh bathy hc a b cs t none) = some z ∧
      depthOf (oceanSG2 s' ssh bathy hc a b cs' t none) = some z' ∧ z < z' := by
  have hb : hc + bathy ≠ 0 := by intro e; linarith
  have hp : 0 < hc + bathy := by linarith
  refine ⟨_, _, by simp only [depthOf, oceanSG2, cacheHit, Bool.false_eq_true, if_false, h1, Option.map_some, Option.bind_some, hb]; rfl,
    by simp only [depthOf, oceanSG2, cacheHit, Bool.false_eq_true, if_false, h2, Option.map_some, Option.bind_some, hb]; rfl, ?_⟩
  have hS : (s * hc + c * bathy) / (hc + bathy) < (s' * hc + c' * bathy) / (hc + bathy) := by
    apply div_lt_div_of_pos_right _ hp
    nlinarith [mul_nonneg h0 (sub_nonneg.mpr (le_of_lt hs)), mul_pos (sub_pos.mpr hc') hb0]
  generalize (s * hc + c * bathy) / (hc + bathy) = S at hS
  generalize (s' * hc + c' * bathy) / (hc + bathy) = S' at hS
  nlinarith [mul_pos (sub_pos.mpr hS) hcol]

/-- the hypotheses above hold with the computed stretching of the code -/
theorem C29_stretching_ok (s s' a b : ℝ) (ha : a ≠ 0) (hb0 : 0 ≤ b) (hb1 : b ≤ 1) (hs : s < s') (t : Option String) :
    ∃ c c', csValueOpt s (some a) (some b) none t = .ok (some c) ∧ csValueOpt s' (some a) (some b) none t = .ok (some c') ∧
      csValue s a b none t = some c ∧ csValue s' a b none t = some c' ∧ c < c' := by
  obtain ⟨c, c', h1, h2, h3⟩ := C30_increasing s s' a b ha hb0 hb1 t t hs
  exact ⟨c, c', by simp only [csValueOpt, h1], by simp only [csValueOpt, h2], h1, h2, h3⟩

/-- **C80**, exact condition for the order of two levels of the s coordinates -/
theorem C80_order_iff_partial (s s' ssh bathy hc a b c c' z z' : ℝ) (t : Option String)
    (h : depthOf (oceanS s ssh bathy hc a b (some c) t none) = some z) (h' : depthOf (oceanS s' ssh bathy hc a b (some c') t none) = some z') :
    z < z' ↔ 0 < (s' - s) * (hc + ssh) + (c' - c) * (bathy - hc) := by
  simp only [depthOf, oceanS, cacheHit, csValue, Bool.false_eq_true, if_false, Option.map_some, Option.some.injEq] at h h'
  subst h h'
  constructor <;> intro h <;> nlinarith

/-- **C80**, exact condition for the order of two levels of the generic form 1 -/
theorem C80_order_g1_iff_partial (s s' ssh bathy hc c c' z z' : ℝ) (a b : Option ℝ) (t : Option String) (hb : bathy ≠ 0)
    (h : depthOf (oceanSG1 s ssh bathy hc a b (some c) t none) = some z) (h' : depthOf (oceanSG1 s' ssh bathy hc a b (some c') t none) = some z') :
    z < z' ↔ 0 < ((s' - s) * hc + (c' - c) * (bathy - hc)) * (1 + ssh / bathy) := by
  simp only [depthOf, oceanSG1, cacheHit, csValueOpt, Bool.false_eq_true, if_false, Option.map_some, Option.bind_some, if_neg hb, Option.some.injEq] at h h'
  subst h h'
  have e : s' * hc + c' * (bathy - hc) + ((s' * hc + c' * (bathy - hc)) / bathy + 1) * ssh -
      (s * hc + c * (bathy - hc) + ((s * hc + c * (bathy - hc)) / bathy + 1) * ssh) =
      ((s' - s) * hc + (c' - c) * (bathy - hc)) * (1 + ssh / bathy) := by
    field_simp; ring
  rw [← e]
  constructor <;> intro h <;> linarith

/-- **C80 is violated** everywhere the bathymetry is smaller than the critical depth: any two levels are inverted by some increasing
stretching. -/
theorem C80_shallow_violated (s s' ssh bathy hc a b : ℝ) (t : Option String) (hh : bathy < hc) (c : ℝ) :
    ∃ c' z z' : ℝ, c < c' ∧
      depthOf (oceanS s ssh bathy hc a b (some c) t none) = some z ∧ depthOf (oceanS s' ssh bathy hc a b (some c') t none) = some z' ∧ z' < z := by
  obtain ⟨d, hd, hd'⟩ : ∃ d : ℝ, 0 < d ∧ (s' - s) * (hc + ssh) < d * (hc - bathy) := by
    refine ⟨(|(s' - s) * (hc + ssh)| + 1) / (hc - bathy), div_pos (by positivity) (by linarith), ?_⟩
    rw [div_mul_cancel₀ _ (by linarith : hc - bathy ≠ 0)]
    linarith [le_abs_self ((s' - s) * (hc + ssh))]
  refine ⟨c + d, _, _, by linarith, rfl, rfl, ?_⟩
  simp only [oceanS, cacheHit, csValue, Bool.false_eq_true, if_false, Option.map_some]
  nlinarith

/-- **C80 is violated** for the s coordinates where the bathymetry is smaller than the critical
depth, in a positive water column and with an increasing stretching: two levels are inverted. -/
theorem C80_ocean_s_violated :
    ∃ s s' ssh bathy hc c c' z z' : ℝ, s < s' ∧ c < c' ∧ 0 < bathy + ssh ∧ 0 < hc ∧
      depthOf (oceanS s ssh bathy hc 0 0 (some c) none none) = some z ∧
      depthOf (oceanS s' ssh bathy hc 0 0 (some c') none none) = some z' ∧ z' < z := by
  refine ⟨-1 / 2, -1 / 4, 0, 1, 10, -9 / 10, -1 / 10, 31 / 10, -16 / 10, by norm_num, by norm_num, by norm_num, by norm_num, ?_, ?_, by norm_num⟩
  · simp only [depthOf, oceanS, cacheHit, csValue, Bool.false_eq_true, if_false, Option.map_some]; norm_num
  · simp only [depthOf, oceanS, cacheHit, csValue, Bool.false_eq_true, if_false, Option.map_some]; norm_num

/-- **C80 is violated** in the same way by the generic form 1 -/
theorem C80_ocean_s_g1_violated :
    ∃ s s' ssh bathy hc c c' z z' : ℝ, s < s' ∧ c < c' ∧ 0 < bathy + ssh ∧ 0 < hc ∧
      depthOf (oceanSG1 s ssh bathy hc none none (some c) none none) = some z ∧
      depthOf (oceanSG1 s' ssh bathy hc none none (some c') none none) = some z' ∧ z' < z := by
  refine ⟨-1 / 2, -1 / 4, 0, 1, 10, -9 / 10, -1 / 10, 31 / 10, -16 / 10, by norm_num, by norm_num, by norm_num, by norm_num, ?_, ?_, by norm_num⟩
  · simp only [depthOf, oceanSG1, cacheHit, csValueOpt, Bool.false_eq_true, if_false, Option.map_some, Option.bind_some]; norm_num
  · simp only [depthOf, oceanSG1, cacheHit, csValueOpt, Bool.false_eq_true, if_false, Option.map_some, Option.bind_some]; norm_num

/-! ## Cache (C31) -/

/-- successive calls with the same cache dictionary -/
noncomputable def runCalls (f : ℝ → Option SCache → Except SigErr FVal × Option SCache) : Option SCache → List ℝ → List (Except SigErr FVal)
  | _, [] => []
  | c, x :: xs => (f x c).1 :: runCalls f (f x c).2 xs

/-- **C31**, s coordinates: with an empty cache, every sequence of sea surface heights gives the
results of the calls without cache -/
theorem C31_ocean_s (sig bathy hc a b : ℝ) (cs : Option ℝ) (t : Option String) (sshs : List ℝ) :
    runCalls (fun ssh c => oceanS sig ssh bathy hc a b cs t c) (some []) sshs =
      sshs.map (fun ssh => (oceanS sig ssh bathy hc a b cs t none).1) := by
  have hhit : ∀ xs : List ℝ, runCalls (fun ssh c => oceanS sig ssh bathy hc a b cs t c)
      (some [("zconst", (csValue sig a b cs t).map (fun c => sig * hc + c * (bathy - hc)))]) xs =
      xs.map (fun ssh => (oceanS sig ssh bathy hc a b cs t none).1) := by
    intro xs
    induction xs with
    | nil => rfl
    | cons x xs ih =>
      simp only [runCalls, List.map_cons]
      have : oceanS sig x bathy hc a b cs t (some [("zconst", (csValue sig a b cs t).map (fun c => sig * hc + c * (bathy - hc)))]) =
          ((oceanS sig x bathy hc a b cs t none).1, some [("zconst", (csValue sig a b cs t).map (fun c => sig * hc + c * (bathy - hc)))]) := by
        simp [oceanS, cacheHit, cacheGet, lookupK]
      rw [this, ih]
  cases sshs with
  | nil => rfl
  | cons x xs =>
    simp only [runCalls, List.map_cons]
    have : oceanS sig x bathy hc a b cs t (some []) =
        ((oceanS sig x bathy hc a b cs t none).1, some [("zconst", (csValue sig a b cs t).map (fun c => sig * hc + c * (bathy - hc)))]) := by
      simp [oceanS, cacheHit, cacheUpdate, setK]
    rw [this, hhit]

/-- **C31**, generic form 1 -/
theorem C31_ocean_s_g1 (sig bathy hc : ℝ) (a b cs : Option ℝ) (t : Option String) (sshs : List ℝ) :
    runCalls (fun ssh c => oceanSG1 sig ssh bathy hc a b cs t c) (some []) sshs =
      sshs.map (fun ssh => (oceanSG1 sig ssh bathy hc a b cs t none).1) := by
  cases hcs : csValueOpt sig a b cs t with
  | error e =>
    induction sshs with
    | nil => rfl
    | cons x xs ih =>
      simp only [runCalls, List.map_cons]
      have : ∀ c, cacheHit c = false → oceanSG1 sig x bathy hc a b cs t c = (.error e, c) := by
        intro c h
        simp only [oceanSG1, h, hcs, Bool.false_eq_true, if_false]
      rw [this (some []) rfl, this none rfl, ih]
  | ok c =>
    let S : FVal := c.map (fun c => sig * hc + c * (bathy - hc))
    let Sh1 : FVal := S.bind (fun S => if bathy = 0 then none else some (S / bathy + 1))
    have hnone : ∀ x, (oceanSG1 sig x bathy hc a b cs t none).1 = .ok (S.bind (fun S => Sh1.map (fun Sh1 => S + Sh1 * x))) := by
      intro x
      simp only [oceanSG1, cacheHit, hcs, Bool.false_eq_true, if_false]
      rfl
    have hhit : ∀ xs : List ℝ, runCalls (fun ssh c => oceanSG1 sig ssh bathy hc a b cs t c) (some [("S", S), ("Sh1", Sh1)]) xs =
        xs.map (fun ssh => (oceanSG1 sig ssh bathy hc a b cs t none).1) := by
      intro xs
      induction xs with
      | nil => rfl
      | cons x xs ih =>
        simp only [runCalls, List.map_cons]
        have : oceanSG1 sig x bathy hc a b cs t (some [("S", S), ("Sh1", Sh1)]) =
            (.ok (S.bind (fun S => Sh1.map (fun Sh1 => S + Sh1 * x))), some [("S", S), ("Sh1", Sh1)]) := by
          simp [oceanSG1, cacheHit, cacheGet, lookupK]
        rw [this, ih, hnone]
    cases sshs with
    | nil => rfl
    | cons x xs =>
      simp only [runCalls, List.map_cons]
      have : oceanSG1 sig x bathy hc a b cs t (some []) =
          (.ok (S.bind (fun S => Sh1.map (fun Sh1 => S + Sh1 * x))), some [("S", S), ("Sh1", Sh1)]) := by
        simp only [oceanSG1, cacheHit, hcs, Bool.false_eq_true, if_false]
        rfl
      rw [this, hhit, hnone]

/-- **C31**, generic form 2 -/
theorem C31_ocean_s_g2 (sig bathy hc : ℝ) (a b cs : Option ℝ) (t : Option String) (sshs : List ℝ) :
    runCalls (fun ssh c => oceanSG2 sig ssh bathy hc a b cs t c) (some []) sshs =
      sshs.map (fun ssh => (oceanSG2 sig ssh bathy hc a b cs t none).1) := by
  cases hcs : csValueOpt sig a b cs t with
  | error e =>
    induction sshs with
    | nil => rfl
    | cons x xs ih =>
      simp only [runCalls, List.map_cons]
      have : ∀ c, cacheHit c = false → oceanSG2 sig x bathy hc a b cs t c = (.error e, c) := by
        intro c h
        simp only [oceanSG2, h, hcs, Bool.false_eq_true, if_false]
      rw [this (some []) rfl, this none rfl, ih]
  | ok c =>
    let S : FVal := c.bind (fun c => if hc + bathy = 0 then none else some ((sig * hc + c * bathy) / (hc + bathy)))
    let hS : FVal := S.map (fun S => S * bathy)
    have hnone : ∀ x, (oceanSG2 sig x bathy hc a b cs t none).1 = .ok (S.bind (fun S => hS.map (fun hS => hS + (S + 1) * x))) := by
      intro x
      simp only [oceanSG2, cacheHit, hcs, Bool.false_eq_true, if_false]
      rfl
    have hhit : ∀ xs : List ℝ, runCalls (fun ssh c => oceanSG2 sig ssh bathy hc a b cs t c) (some [("S", S), ("hS", hS)]) xs =
        xs.map (fun ssh => (oceanSG2 sig ssh bathy hc a b cs t none).1) := by
      intro xs
      induction xs with
      | nil => rfl
      | cons x xs ih =>
        simp only [runCalls, List.map_cons]
        have : oceanSG2 sig x bathy hc a b cs t (some [("S", S), ("hS", hS)]) =
            (.ok (S.bind (fun S => hS.map (fun hS => hS + (S + 1) * x))), some [("S", S), ("hS", hS)]) := by
          simp [oceanSG2, cacheHit, cacheGet, lookupK]
        rw [this, ih, hnone]
    cases sshs with
    | nil => rfl
    | cons x xs =>
      simp only [runCalls, List.map_cons]
      have : oceanSG2 sig x bathy hc a b cs t (some []) =
          (.ok (S.bind (fun S => hS.map (fun hS => hS + (S + 1) * x))), some [("S", S), ("hS", hS)]) := by
        simp only [oceanSG2, cacheHit, hcs, Bool.false_eq_true, if_false]
        rfl
      rw [this, hhit, hnone]

/-- **C82 is violated** for all the arguments: the second call with the same cache dictionary uses the constants of the first one, whatever
its bathymetry, critical depth and stretching. -/
theorem C82_stale_violated (sig sig' ssh ssh' bathy bathy' hc hc' a a' b b' : ℝ) (cs cs' : Option ℝ) (t t' : Option String) (z : ℝ)
    (h : depthOf (oceanS sig ssh bathy hc a b cs t none) = some z) :
    depthOf (oceanS sig' ssh' bathy' hc' a' b' cs' t' (oceanS sig ssh bathy hc a b cs t (some [])).2) = some (z + (sig' + 1) * ssh' - (sig + 1) * ssh) := by
  simp only [depthOf, oceanS, cacheHit, Bool.false_eq_true, if_false] at h
  cases hc1 : csValue sig a b cs t with
  | none => rw [hc1] at h; simp at h
  | some c =>
    rw [hc1] at h
    simp only [Option.map_some, Option.some.injEq] at h
    simp [oceanS, depthOf, cacheHit, cacheGet, cacheUpdate, setK, lookupK, hc1]
    linarith

/-- **C82 is violated** for all the arguments when a cache dictionary is used by two formulas: the second one fails. -/
theorem C82_foreign_violated (sig sig' ssh ssh' bathy bathy' hc hc' a b : ℝ) (a' b' : Option ℝ) (cs cs' : Option ℝ) (c : ℝ) (t t' : Option String) :
    (oceanSG1 sig' ssh' bathy' hc' a' b' cs' t' (oceanS sig ssh bathy hc a b cs t (some [])).2).1 = .error .keyError ∧
    (oceanSG2 sig' ssh' bathy' hc' a' b' cs' t' (oceanS sig ssh bathy hc a b cs t (some [])).2).1 = .error .keyError ∧
    (oceanSG2 sig' ssh' bathy' hc' a' b' cs' t' (oceanSG1 sig ssh bathy hc a' b' (some c) t (some [])).2).1 = .error .keyError ∧
    (oceanSG1 sig' ssh' bathy' hc' a' b' cs' t' (oceanSG2 sig ssh bathy hc a' b' (some c) t (some [])).2).1 = .error .keyError ∧
    (oceanS sig' ssh' bathy' hc' a b cs' t' (oceanSG1 sig ssh bathy hc a' b' (some c) t (some [])).2).1 = .error .keyError ∧
    (oceanS sig' ssh' bathy' hc' a b cs' t' (oceanSG2 sig ssh bathy hc a' b' (some c) t (some [])).2).1 = .error .keyError := by
  refine ⟨?_, ?_, ?_, ?_, ?_, ?_⟩ <;>
    simp [oceanS, oceanSG1, oceanSG2, cacheHit, cacheGet, cacheUpdate, setK, lookupK, csValueOpt]

/-- **C82 is violated** when another argument changes from call to call: the second call with the
same cache ignores the new bathymetry. -/
theorem C82_other_arguments_violated :
    let c1 := (oceanSG2 (-1) 0 100 10 none none (some (-1)) none (some [])).2
    depthOf (oceanSG2 (-1) 0 50 10 none none (some (-1)) none c1) = some (-100) ∧
    depthOf (oceanSG2 (-1) 0 50 10 none none (some (-1)) none none) = some (-50) := by
  constructor
  · simp [oceanSG2, depthOf, cacheHit, cacheGet, cacheUpdate, setK, lookupK, csValueOpt]; norm_num
  · simp [oceanSG2, depthOf, cacheHit, csValueOpt]; norm_num

/-- **C82 is violated** when the cache is shared by two formulas: the second one fails. -/
theorem C82_shared_violated :
    let c1 := (oceanS (-1) 0 100 10 0 0 (some (-1)) none (some [])).2
    (oceanSG2 (-1) 0 100 10 none none (some (-1)) none c1).1 = .error .keyError := by
  simp [oceanS, oceanSG2, cacheHit, cacheGet, cacheUpdate, setK, lookupK, csValue]

end Xoa
