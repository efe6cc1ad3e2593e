import Verif.SigmaProps

/-!
# C191: terrain following coordinates, units of length and motion of the sea surface

Exact arithmetic on real numbers. No cache, or an empty one (cached constants: C31, C82).
-/

namespace Xoa

/-- the depth that a function gives, in units `lam` times smaller; errors and missing results are the same -/
def depthIn (lam : ℝ) (r : Except SigErr FVal) : Except SigErr FVal := r.map fun z => z.map fun x => lam * x

/-- **C191 (units).** The sigma coordinates with all the lengths (or pressures) in other units give the depths (or pressures) in these units. -/
theorem C191_sigma_units (lam sig x y : ℝ) :
    oceanSigma sig (lam * x) (lam * y) = lam * oceanSigma sig x y ∧ atmosphereSigma sig (lam * x) (lam * y) = lam * atmosphereSigma sig x y := by
  unfold oceanSigma atmosphereSigma; constructor <;> ring

/-- **C191 (units).** `ocean_s_coordinate` -/
theorem C191_s_units (lam sig ssh bathy hc a b : ℝ) (cs : Option ℝ) (t : Option String) (cache cache' : Option SCache) (hcache : cacheHit cache = false) (hcache' : cacheHit cache' = false) :
    (oceanS sig (lam * ssh) (lam * bathy) (lam * hc) a b cs t cache').1 = depthIn lam (oceanS sig ssh bathy hc a b cs t cache).1 := by
  unfold oceanS depthIn
  simp only [hcache, hcache', Bool.false_eq_true, if_false]
  show Except.ok _ = Except.ok _
  congr 1
  cases csValue sig a b cs t with
  | none => rfl
  | some c => simp only [Option.map_some]; congr 1; ring

/-- **C191 (units).** `ocean_s_coordinate_g1` -/
theorem C191_g1_units (lam : ℝ) (h0 : lam ≠ 0) (sig ssh bathy hc : ℝ) (a b cs : Option ℝ) (t : Option String) (cache cache' : Option SCache)
    (hcache : cacheHit cache = false) (hcache' : cacheHit cache' = false) :
    (oceanSG1 sig (lam * ssh) (lam * bathy) (lam * hc) a b cs t cache').1 = depthIn lam (oceanSG1 sig ssh bathy hc a b cs t cache).1 := by
  unfold oceanSG1 depthIn
  simp only [hcache, hcache', Bool.false_eq_true, if_false]
  cases csValueOpt sig a b cs t with
  | error e => rfl
  | ok c =>
    cases c with
    | none => rfl
    | some c =>
      show Except.ok _ = Except.ok _
      congr 1
      simp only [Option.map_some, Option.bind_some]
      by_cases hb : bathy = 0
      · simp [hb]
      · have hb' : lam * bathy ≠ 0 := mul_ne_zero h0 hb
        simp only [hb, hb', if_false, Option.map_some]
        congr 1
        field_simp

/-- **C191 (units).** `ocean_s_coordinate_g2` -/
theorem C191_g2_units (lam : ℝ) (h0 : lam ≠ 0) (sig ssh bathy hc : ℝ) (a b cs : Option ℝ) (t : Option String) (cache cache' : Option SCache)
    (hcache : cacheHit cache = false) (hcache' : cacheHit cache' = false) :
    (oceanSG2 sig (lam * ssh) (lam * bathy) (lam * hc) a b cs t cache').1 = depthIn lam (oceanSG2 sig ssh bathy hc a b cs t cache).1 := by
  unfold oceanSG2 depthIn
  simp only [hcache, hcache', Bool.false_eq_true, if_false]
  cases csValueOpt sig a b cs t with
  | error e => rfl
  | ok c =>
    cases c with
    | none => rfl
    | some c =>
      show Except.ok _ = Except.ok _
      congr 1
      simp only [Option.bind_some]
      by_cases hb : hc + bathy = 0
      · have hb' : lam * hc + lam * bathy = 0 := by rw [← mul_add, hb, mul_zero]
        simp only [hb, hb', if_true, Option.map_none, Option.bind_none]
      · have hb' : lam * hc + lam * bathy ≠ 0 := by rw [← mul_add]; exact mul_ne_zero h0 hb
        simp only [hb, hb', if_false, Option.map_some, Option.bind_some]
        congr 1
        field_simp

/-! ## motion of the sea surface -/

/-- the sea surface rises by `up`: the point rises by a fraction of it, between 0 (bottom) and 1 (surface), and the fraction does not depend on the motion -/
def RisesBy (z : ℝ → Option ℝ) : Prop :=
  (∀ ssh, z ssh = none) ∨ ∃ f : ℝ, 0 ≤ f ∧ f ≤ 1 ∧ ∀ ssh up : ℝ, ∃ x : ℝ, z ssh = some x ∧ z (ssh + up) = some (x + f * up)

/-- **C191 (sea surface).** For levels between the bottom (-1) and the surface (0), a rise of the sea surface raises each point by the same fraction of it, between 0 and 1, whatever the
sea surface before: sigma coordinates and `ocean_s_coordinate` (whatever the stretching). -/
theorem C191_rise (sig bathy hc a b : ℝ) (cs : Option ℝ) (t : Option String) (cache : Option SCache) (hcache : cacheHit cache = false) (h1 : -1 ≤ sig) (h2 : sig ≤ 0) :
    RisesBy (fun ssh => some (oceanSigma sig ssh bathy)) ∧ RisesBy (fun ssh => depthOf (oceanS sig ssh bathy hc a b cs t cache)) := by
  constructor
  · refine Or.inr ⟨sig + 1, by linarith, by linarith, fun ssh up => ⟨_, rfl, ?_⟩⟩
    unfold oceanSigma; congr 1; ring
  · unfold oceanS depthOf
    simp only [hcache, Bool.false_eq_true, if_false]
    cases csValue sig a b cs t with
    | none => exact Or.inl fun _ => rfl
    | some c =>
      refine Or.inr ⟨sig + 1, by linarith, by linarith, fun ssh up => ⟨_, rfl, ?_⟩⟩
      show some _ = some _
      congr 1; ring

/-- **C191 (sea surface).** The same for the generic forms, with a stretching between -1 and 0, a positive bathymetry and a critical depth that is positive, and not larger than the bathymetry for the
first form. -/
theorem C191_rise_generic (sig bathy hc : ℝ) (a b cs : Option ℝ) (t : Option String) (cache : Option SCache) (hcache : cacheHit cache = false) (h1 : -1 ≤ sig) (h2 : sig ≤ 0)
    (hb : 0 < bathy) (hc0 : 0 ≤ hc) (hcs : ∀ c, csValueOpt sig a b cs t = .ok (some c) → -1 ≤ c ∧ c ≤ 0) :
    (hc ≤ bathy → RisesBy (fun ssh => depthOf (oceanSG1 sig ssh bathy hc a b cs t cache))) ∧
    RisesBy (fun ssh => depthOf (oceanSG2 sig ssh bathy hc a b cs t cache)) := by
  unfold oceanSG1 oceanSG2 depthOf
  simp only [hcache, Bool.false_eq_true, if_false]
  cases hv : csValueOpt sig a b cs t with
  | error e => exact ⟨fun _ => Or.inl fun _ => rfl, Or.inl fun _ => rfl⟩
  | ok c =>
    cases c with
    | none => exact ⟨fun _ => Or.inl fun _ => rfl, Or.inl fun _ => rfl⟩
    | some c =>
      obtain ⟨c1, c2⟩ := hcs c hv
      have hb' : bathy ≠ 0 := hb.ne'
      have hpos : 0 < hc + bathy := by linarith
      constructor
      · intro hle
        right
        refine ⟨(sig * hc + c * (bathy - hc)) / bathy + 1, ?_, ?_, fun ssh up => ?_⟩
        · have : -1 ≤ (sig * hc + c * (bathy - hc)) / bathy := by
            rw [le_div_iff₀ hb]; nlinarith
          linarith
        · have : (sig * hc + c * (bathy - hc)) / bathy ≤ 0 := by
            rw [div_le_iff₀ hb]; nlinarith
          linarith
        · simp only [Option.map_some, Option.bind_some, hb', if_false]
          exact ⟨_, rfl, by congr 1; ring⟩
      · right
        refine ⟨(sig * hc + c * bathy) / (hc + bathy) + 1, ?_, ?_, fun ssh up => ?_⟩
        · have : -1 ≤ (sig * hc + c * bathy) / (hc + bathy) := by
            rw [le_div_iff₀ hpos]; nlinarith
          linarith
        · have : (sig * hc + c * bathy) / (hc + bathy) ≤ 0 := by
            rw [div_le_iff₀ hpos]; nlinarith
          linarith
        · simp only [Option.map_some, Option.bind_some, hpos.ne', if_false]
          exact ⟨_, rfl, by congr 1; ring⟩

/-! ## the computed stretching -/

/-- the stretching computed by the code at a level between the bottom and the surface is between -1 and 0 -/
theorem stretching_range (sig a b c : ℝ) (ha : a ≠ 0) (hb0 : 0 ≤ b) (hb1 : b ≤ 1) (h1 : -1 ≤ sig) (h2 : sig ≤ 0) (t : Option String)
    (h : csValueOpt sig (some a) (some b) none t = .ok (some c)) : -1 ≤ c ∧ c ≤ 0 := by
  constructor
  · rcases eq_or_lt_of_le h1 with e | e
    · have := csValueOpt_bottom none (some a) (some b) t (Or.inr ⟨rfl, a, b, rfl, rfl, ha⟩)
      rw [e, h] at this
      have := Except.ok.inj this
      simp only [Option.some.injEq] at this
      linarith
    · obtain ⟨x, y, k1, k2, _, _, k3⟩ := C29_stretching_ok (-1) sig a b ha hb0 hb1 e t
      rw [h] at k2
      rw [csValueOpt_bottom none (some a) (some b) t (Or.inr ⟨rfl, a, b, rfl, rfl, ha⟩)] at k1
      have e1 := Option.some.inj (Except.ok.inj k1)
      have e2 := Option.some.inj (Except.ok.inj k2)
      linarith
  · rcases eq_or_lt_of_le h2 with e | e
    · have := csValueOpt_surface none (some a) (some b) t (Or.inr ⟨rfl, a, b, rfl, rfl, ha⟩)
      rw [← e, h] at this
      have := Except.ok.inj this
      simp only [Option.some.injEq] at this
      linarith
    · obtain ⟨x, y, k1, k2, _, _, k3⟩ := C29_stretching_ok sig 0 a b ha hb0 hb1 e t
      rw [h] at k1
      rw [csValueOpt_surface none (some a) (some b) t (Or.inr ⟨rfl, a, b, rfl, rfl, ha⟩)] at k2
      have e1 := Option.some.inj (Except.ok.inj k1)
      have e2 := Option.some.inj (Except.ok.inj k2)
      linarith

/-- **C191 (sea surface).** With the stretching that the code computes, the conditions on it are met. -/
theorem C191_rise_computed (sig bathy hc a b : ℝ) (t : Option String) (cache : Option SCache) (hcache : cacheHit cache = false) (h1 : -1 ≤ sig) (h2 : sig ≤ 0)
    (hb : 0 < bathy) (hc0 : 0 ≤ hc) (ha : a ≠ 0) (hb0 : 0 ≤ b) (hb1 : b ≤ 1) :
    (hc ≤ bathy → RisesBy (fun ssh => depthOf (oceanSG1 sig ssh bathy hc (some a) (some b) none t cache))) ∧
    RisesBy (fun ssh => depthOf (oceanSG2 sig ssh bathy hc (some a) (some b) none t cache)) :=
  C191_rise_generic sig bathy hc (some a) (some b) none t cache hcache h1 h2 hb hc0 (fun c h => stretching_range sig a b c ha hb0 hb1 h1 h2 t h)

/-! ## concrete case -/

example : RisesBy (fun ssh => depthOf (oceanSG2 (-1 / 2) ssh 100 10 (some 5) (some (4 / 10)) none none none)) :=
  (C191_rise_computed (-1 / 2) 100 10 5 (4 / 10) none none rfl (by norm_num) (by norm_num) (by norm_num) (by norm_num) (by norm_num) (by norm_num) (by norm_num)).2

example : (oceanS (-1 / 2) (100 * 2) (100 * 50) (100 * 10) 5 0 (some (-1 / 4)) none none).1 = .ok (some (-1400)) := by
  rw [C191_s_units 100 (-1 / 2) 2 50 10 5 0 (some (-1 / 4)) none none none rfl rfl]
  unfold oceanS depthIn csValue
  simp only [cacheHit, Bool.false_eq_true, if_false]
  show Except.ok _ = Except.ok _
  congr 1
  simp only [Option.map_some]
  norm_num

end Xoa
