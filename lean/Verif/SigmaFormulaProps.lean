import Verif.SigmaProps

/-!
# C112: the sigma functions compute the formulas of the CF conventions

The right hand sides are those of the appendix D ("Parametric vertical coordinates") of the CF
conventions, written independently of the code: `eta` is the sea surface height, `depth` the
bathymetry, `dc` the critical depth, `a` and `b` the stretching parameters.
-/

namespace Xoa

/-- "Atmosphere sigma coordinate" -/
def cfAtmSigma (ptop sigma ps : ℝ) : ℝ := ptop + sigma * (ps - ptop)

/-- "Ocean sigma coordinate" -/
def cfOceanSigma (eta sigma depth : ℝ) : ℝ := eta + sigma * (depth + eta)

/-- "Ocean s-coordinate" -/
def cfOceanS (eta s dc depth C : ℝ) : ℝ := eta * (1 + s) + dc * s + (depth - dc) * C

/-- stretching function of the "Ocean s-coordinate" -/
noncomputable def cfStretching (a b s : ℝ) : ℝ :=
  (1 - b) * Real.sinh (a * s) / Real.sinh a
    + b * (Real.tanh (a * (s + 0.5)) / (2 * Real.tanh (0.5 * a)) - 0.5)

/-- "Ocean s-coordinate, generic form 1" -/
noncomputable def cfOceanSG1 (eta s dc depth C : ℝ) : ℝ :=
  (dc * s + (depth - dc) * C) + eta * (1 + (dc * s + (depth - dc) * C) / depth)

/-- "Ocean s-coordinate, generic form 2" -/
noncomputable def cfOceanSG2 (eta s dc depth C : ℝ) : ℝ :=
  eta + (eta + depth) * ((dc * s + depth * C) / (dc + depth))

/-- the stretching value in force: the given one, else the one of the stretching parameters -/
def StretchOf (s : ℝ) (a b cs : Option ℝ) (C : ℝ) : Prop :=
  cs = some C ∨ (cs = none ∧ ∃ a' b', a = some a' ∧ b = some b' ∧ a' ≠ 0 ∧ C = cfStretching a' b' s)

theorem getCs_cf (s a b : ℝ) (ha : a ≠ 0) (t : Option String) : getCs s a b t = some (cfStretching a b s) := by
  have h1 : Real.sinh a ≠ 0 := by rwa [Ne, Real.sinh_eq_zero]
  have h2 : 2 * Real.tanh (1 / 2 * a) ≠ 0 := by
    rw [Real.tanh_eq_sinh_div_cosh]
    have : Real.sinh (1 / 2 * a) ≠ 0 := by
      rw [Ne, Real.sinh_eq_zero]; intro h; apply ha; linarith
    have hc := (Real.cosh_pos (1 / 2 * a)).ne'
    positivity
  unfold getCs cfStretching
  rw [if_neg (by rintro (h | h); exacts [h1 h, h2 h])]
  rw [mul_comm s a, show (0.5 : ℝ) = 1 / 2 by norm_num]
  congr 2
  rw [mul_comm (Real.sinh _)]

/-- **C112**: `get_cs` is the CF stretching function for every `theta_s ≠ 0` and every type -/
theorem C112_get_cs (s a b : ℝ) (ha : a ≠ 0) (t : Option String) :
    getCs s a b t = some (cfStretching a b s) := getCs_cf s a b ha t

theorem csValueOpt_stretch {s : ℝ} {a b cs : Option ℝ} {C : ℝ} (t : Option String)
    (h : StretchOf s a b cs C) : csValueOpt s a b cs t = .ok (some C) := by
  rcases h with rfl | ⟨rfl, a', b', rfl, rfl, ha, rfl⟩
  · rfl
  · simp only [csValueOpt, getCs_cf s a' b' ha t]

/-- **C112**: the two sigma coordinates -/
theorem C112_sigma (sig ps ptop ssh bathy : ℝ) :
    atmosphereSigma sig ps ptop = cfAtmSigma ptop sig ps ∧
    oceanSigma sig ssh bathy = cfOceanSigma ssh sig bathy := by
  unfold atmosphereSigma cfAtmSigma oceanSigma cfOceanSigma
  constructor <;> ring

/-- **C112**: ocean s-coordinate, at every level, without a cache or with an empty one -/
theorem C112_ocean_s (sig ssh bathy hc a b C : ℝ) (cs : Option ℝ) (t : Option String)
    (cache : Option SCache) (hcache : cache = none ∨ cache = some [])
    (h : StretchOf sig (some a) (some b) cs C) :
    (oceanS sig ssh bathy hc a b cs t cache).1 = .ok (some (cfOceanS ssh sig hc bathy C)) := by
  have hh : cacheHit cache = false := by rcases hcache with rfl | rfl <;> rfl
  have hv : csValue sig a b cs t = some C := by
    rcases h with rfl | ⟨rfl, a', b', h1, h2, ha, rfl⟩
    · rfl
    · cases h1; cases h2; exact getCs_cf sig a b ha t
  unfold oceanS cfOceanS
  simp only [hh, Bool.false_eq_true, if_false, hv, Option.map_some]
  congr 2; ring

/-- **C112**: generic form 1, bathymetry different from zero -/
theorem C112_ocean_s_g1 (sig ssh bathy hc C : ℝ) (a b cs : Option ℝ) (t : Option String)
    (cache : Option SCache) (hcache : cache = none ∨ cache = some []) (hb : bathy ≠ 0)
    (h : StretchOf sig a b cs C) :
    (oceanSG1 sig ssh bathy hc a b cs t cache).1 = .ok (some (cfOceanSG1 ssh sig hc bathy C)) := by
  have hh : cacheHit cache = false := by rcases hcache with rfl | rfl <;> rfl
  unfold oceanSG1 cfOceanSG1
  simp only [hh, Bool.false_eq_true, if_false, csValueOpt_stretch t h, Option.map_some, Option.bind_some, hb]
  congr 2; ring

/-- **C112**: generic form 2, total depth different from zero -/
theorem C112_ocean_s_g2 (sig ssh bathy hc C : ℝ) (a b cs : Option ℝ) (t : Option String)
    (cache : Option SCache) (hcache : cache = none ∨ cache = some []) (hb : hc + bathy ≠ 0)
    (h : StretchOf sig a b cs C) :
    (oceanSG2 sig ssh bathy hc a b cs t cache).1 = .ok (some (cfOceanSG2 ssh sig hc bathy C)) := by
  have hh : cacheHit cache = false := by rcases hcache with rfl | rfl <;> rfl
  unfold oceanSG2 cfOceanSG2
  simp only [hh, Bool.false_eq_true, if_false, csValueOpt_stretch t h, Option.map_some, Option.bind_some, hb]
  congr 2; field_simp; ring

/-- **C112**: the generic forms need `cs`, or both stretching parameters: otherwise they raise
`XoaSigmaError` and leave the cache as it was -/
theorem C112_missing_parameters (sig ssh bathy hc : ℝ) (a b : Option ℝ) (t : Option String)
    (cache : Option SCache) (hcache : cache = none ∨ cache = some []) (h : a = none ∨ b = none) :
    oceanSG1 sig ssh bathy hc a b none t cache = (.error .sigmaError, cache) ∧
    oceanSG2 sig ssh bathy hc a b none t cache = (.error .sigmaError, cache) := by
  have hh : cacheHit cache = false := by rcases hcache with rfl | rfl <;> rfl
  have hv : csValueOpt sig a b none t = .error .sigmaError := by
    rcases h with rfl | rfl
    · rfl
    · cases a <;> rfl
  unfold oceanSG1 oceanSG2
  simp only [hh, Bool.false_eq_true, if_false, hv, and_self]

-- the hypotheses are met: a given stretching value, and computed ones
example : StretchOf (-1/2) none none (some (-1/4)) (-1/4) := Or.inl rfl
example : StretchOf (-1/2) (some 6) (some (1/5)) none (cfStretching 6 (1/5) (-1/2)) :=
  Or.inr ⟨rfl, 6, 1/5, rfl, rfl, by norm_num, rfl⟩
example : cfOceanSG2 1 (-1/2) 10 90 (-1/4) = 1 - 91 * (5 + 90 / 4) / 100 := by
  unfold cfOceanSG2; norm_num

end Xoa
