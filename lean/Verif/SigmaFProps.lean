import Verif.SigmaF

/-!
# C210: terrain following coordinates in floating-point arithmetic
-/

namespace Xoa

/-! ### rounding is symmetric -/

/-- a rounding that does not depend on the sign and that keeps one -/
structure Symmetric (fl : ℚ → ℚ) : Prop where
  neg : ∀ x : ℚ, fl (-x) = -fl x
  one : fl 1 = 1

theorem rneInt_neg (q : ℚ) : rneInt (-q) = -rneInt q := by
  by_cases hq : q = ⌊q⌋
  · rw [hq, ← Int.cast_neg, rneInt_int, rneInt_int]
  · have h0 := Int.floor_le q
    have h1 := Int.lt_floor_add_one q
    have h0' : (⌊q⌋ : ℚ) < q := lt_of_le_of_ne h0 (fun h => hq h.symm)
    have hf : ⌊-q⌋ = -⌊q⌋ - 1 := by
      rw [Int.floor_eq_iff]
      push_cast
      constructor <;> linarith
    unfold rneInt
    rw [hf]
    push_cast
    by_cases a : q - ⌊q⌋ < 1 / 2
    · rw [if_pos a, if_neg (show ¬ (-q - (-(⌊q⌋ : ℚ) - 1) < 1 / 2) by linarith), if_pos (show (1 : ℚ) / 2 < -q - (-(⌊q⌋ : ℚ) - 1) by linarith)]
      omega
    · rw [if_neg a]
      by_cases b : 1 / 2 < q - ⌊q⌋
      · rw [if_pos b, if_pos (show (-q - (-(⌊q⌋ : ℚ) - 1) < 1 / 2) by linarith)]
        omega
      · rw [if_neg b, if_neg (show ¬ (-q - (-(⌊q⌋ : ℚ) - 1) < 1 / 2) by linarith), if_neg (show ¬ ((1 : ℚ) / 2 < -q - (-(⌊q⌋ : ℚ) - 1)) by linarith)]
        split <;> split <;> omega

theorem rne_symmetric (p : ℕ) (hp : 0 < p) : Symmetric (rne p) := by
  refine ⟨fun x => ?_, rne_fits p hp ⟨1, 0, ?_, by norm_num⟩⟩
  · unfold rne
    by_cases hx : x = 0
    · rw [hx]; simp
    · rw [if_neg hx, if_neg (neg_ne_zero.2 hx)]
      dsimp only
      rw [abs_neg, neg_div, rneInt_neg]
      push_cast
      ring
  · rw [abs_one]; exact one_le_pow₀ (by norm_num)

/-! ### order of the levels -/

section
variable {fl : ℚ → ℚ} (O : Ordered fl)
include O

theorem Ordered.nonneg {x : ℚ} (h : 0 ≤ x) : 0 ≤ fl x := by
  have := O.mono 0 x h
  rwa [O.zero] at this

theorem stretchF_mono (s s' bathy hc c c' : ℚ) (hs : s ≤ s') (hc' : c ≤ c') (h0 : 0 ≤ hc) (h : hc ≤ bathy) :
    stretchF fl s bathy hc c ≤ stretchF fl s' bathy hc c' := by
  unfold stretchF
  refine O.mono _ _ (add_le_add (O.mono _ _ (mul_le_mul_of_nonneg_right hs h0)) (O.mono _ _ (mul_le_mul_of_nonneg_right hc' ?_)))
  exact O.nonneg (by linarith)

/-- **C210** (order, sigma coordinates): in floating-point arithmetic a level that is higher in the coordinate is never computed lower, in a column that is not negative. -/
theorem C210_order_sigma (s s' ssh bathy : ℚ) (hs : s ≤ s') (hcol : 0 ≤ bathy + ssh) : oceanSigmaF fl s ssh bathy ≤ oceanSigmaF fl s' ssh bathy := by
  unfold oceanSigmaF
  refine O.mono _ _ (add_le_add ?_ le_rfl)
  exact O.mono _ _ (mul_le_mul_of_nonneg_right hs (O.nonneg hcol))

/-- **C210** (order, atmosphere). -/
theorem C210_order_atmosphere (s s' ps ptop : ℚ) (hs : s ≤ s') (h : ptop ≤ ps) : atmosphereSigmaF fl s ps ptop ≤ atmosphereSigmaF fl s' ps ptop := by
  unfold atmosphereSigmaF
  refine O.mono _ _ (add_le_add ?_ le_rfl)
  exact O.mono _ _ (mul_le_mul_of_nonneg_right hs (O.nonneg (by linarith)))

/-- **C210** (order, s coordinates): with a critical depth between zero and the bathymetry, and a sea surface that is not below the reference level. -/
theorem C210_order_s (s s' ssh bathy hc c c' : ℚ) (hs : s ≤ s') (hc' : c ≤ c') (h0 : 0 ≤ hc) (h : hc ≤ bathy) (hssh : 0 ≤ ssh) :
    oceanSF fl s ssh bathy hc c ≤ oceanSF fl s' ssh bathy hc c' := by
  unfold oceanSF
  refine O.mono _ _ (add_le_add (O.mono _ _ (mul_le_mul_of_nonneg_right (O.mono _ _ (by linarith)) hssh)) ?_)
  exact stretchF_mono O s s' bathy hc c c' hs hc' h0 h

/-- **C210** (order, generic form 1). -/
theorem C210_order_g1 (s s' ssh bathy hc c c' : ℚ) (hs : s ≤ s') (hc' : c ≤ c') (h0 : 0 ≤ hc) (h : hc ≤ bathy) (hb : 0 < bathy) (hssh : 0 ≤ ssh) :
    oceanSG1F fl s ssh bathy hc c ≤ oceanSG1F fl s' ssh bathy hc c' := by
  have hS := stretchF_mono O s s' bathy hc c c' hs hc' h0 h
  unfold oceanSG1F
  dsimp only
  refine O.mono _ _ (add_le_add hS (O.mono _ _ (mul_le_mul_of_nonneg_right (O.mono _ _ (add_le_add (O.mono _ _ ?_) le_rfl)) hssh)))
  exact div_le_div_of_nonneg_right hS hb.le

/-- **C210** (order, generic form 2): whatever the critical depth. -/
theorem C210_order_g2 (s s' ssh bathy hc c c' : ℚ) (hs : s ≤ s') (hc' : c ≤ c') (h0 : 0 ≤ hc) (hb : 0 < bathy) (hssh : 0 ≤ ssh) :
    oceanSG2F fl s ssh bathy hc c ≤ oceanSG2F fl s' ssh bathy hc c' := by
  have hS : stretchG2F fl s bathy hc c ≤ stretchG2F fl s' bathy hc c' := by
    unfold stretchG2F
    refine O.mono _ _ (div_le_div_of_nonneg_right (O.mono _ _ (add_le_add ?_ ?_)) (O.nonneg (by linarith)))
    · exact O.mono _ _ (mul_le_mul_of_nonneg_right hs h0)
    · exact O.mono _ _ (mul_le_mul_of_nonneg_right hc' hb.le)
  unfold oceanSG2F
  dsimp only
  refine O.mono _ _ (add_le_add (O.mono _ _ (mul_le_mul_of_nonneg_right hS hb.le)) (O.mono _ _ (mul_le_mul_of_nonneg_right (O.mono _ _ (add_le_add hS le_rfl)) hssh)))

/-! ### ends of the column -/

/-- **C210** (surface): no rounding error at all at the surface, where the coordinate and the stretching are zero, for a sea surface of the type. -/
theorem C210_surface (Y : Symmetric fl) (ssh bathy hc : ℚ) (hssh : fl ssh = ssh) :
    oceanSigmaF fl 0 ssh bathy = ssh ∧ oceanSF fl 0 ssh bathy hc 0 = ssh ∧ oceanSG1F fl 0 ssh bathy hc 0 = ssh ∧ oceanSG2F fl 0 ssh bathy hc 0 = ssh := by
  have hz := O.zero
  have h1 := Y.one
  simp only [oceanSigmaF, oceanSF, oceanSG1F, oceanSG2F, stretchF, stretchG2F, zero_mul, hz, add_zero, zero_add, zero_div, h1, one_mul, hssh, and_self]

/-- **C210** (top of the atmosphere): no rounding error at the top. -/
theorem C210_top (ps ptop : ℚ) (h : fl ptop = ptop) : atmosphereSigmaF fl 0 ps ptop = ptop := by
  simp only [atmosphereSigmaF, zero_mul, O.zero, zero_add, h]

/-- **C210** (bottom, generic form 2): no rounding error at the bottom. -/
theorem C210_bottom_g2 (Y : Symmetric fl) (ssh bathy hc : ℚ) (hb : fl bathy = bathy) (hh : fl hc = hc) (hp : fl (hc + bathy) ≠ 0) :
    oceanSG2F fl (-1) ssh bathy hc (-1) = -bathy := by
  have hS : stretchG2F fl (-1) bathy hc (-1) = -1 := by
    unfold stretchG2F
    rw [neg_one_mul, neg_one_mul, Y.neg, Y.neg, hb, hh, ← neg_add, Y.neg, neg_div, div_self hp, Y.neg, Y.one]
  unfold oceanSG2F
  dsimp only
  rw [hS, neg_one_mul, Y.neg, hb, neg_add_cancel, O.zero, zero_mul, O.zero, add_zero, Y.neg, hb]

end

/-! ### accuracy -/

/-- `y'` is `y` up to `k` roundings of numbers of magnitude `B` -/
structure UpTo (u k B y' y : ℚ) : Prop where
  err : |y' - y| ≤ k * u * B
  bound : |y| ≤ B

namespace UpTo

theorem exact (u : ℚ) {y B : ℚ} (h : |y| ≤ B) : UpTo u 0 B y y := ⟨by simp, h⟩

theorem mul {u k B y' y a A : ℚ} (h : UpTo u k B y' y) (ha : |a| ≤ A) : UpTo u k (A * B) (a * y') (a * y) := by
  have hB : 0 ≤ B := (abs_nonneg _).trans h.bound
  have hA : 0 ≤ A := (abs_nonneg _).trans ha
  constructor
  · rw [← mul_sub, abs_mul]
    calc |a| * |y' - y| ≤ A * (k * u * B) := mul_le_mul ha h.err (abs_nonneg _) hA
      _ = k * u * (A * B) := by ring
  · rw [abs_mul]; exact mul_le_mul ha h.bound (abs_nonneg _) hA

theorem one_mul' {u k B y' y a : ℚ} (h : UpTo u k B y' y) (ha : |a| ≤ 1) : UpTo u k B (a * y') (a * y) := by
  have := h.mul ha
  rwa [one_mul] at this

theorem weaken {u k l B y' y : ℚ} (h : UpTo u k B y' y) (hu : 0 ≤ u) (hkl : k ≤ l) : UpTo u l B y' y := by
  have hB : 0 ≤ B := (abs_nonneg _).trans h.bound
  exact ⟨h.err.trans (mul_le_mul_of_nonneg_right (mul_le_mul_of_nonneg_right hkl hu) hB), h.bound⟩

theorem add {u k B C y' y z' z : ℚ} (h : UpTo u k B y' y) (h' : UpTo u k C z' z) : UpTo u k (B + C) (y' + z') (y + z) := by
  constructor
  · have e : y' + z' - (y + z) = (y' - y) + (z' - z) := by ring
    rw [e, mul_add]
    exact (abs_add_le _ _).trans (add_le_add h.err h'.err)
  · exact (abs_add_le _ _).trans (add_le_add h.bound h'.bound)

/-- the same error on a number whose magnitude is known otherwise -/
theorem rebound {u k B y' y : ℚ} (h : UpTo u k B y' y) {z' z : ℚ} (e : z' - z = y' - y) (hz : |z| ≤ B) : UpTo u k B z' z := ⟨by rw [e]; exact h.err, hz⟩

theorem round {fl : ℚ → ℚ} {u k B y' y : ℚ} (R : Rounds fl u) (hu : u ≤ 1 / 64) (h : UpTo u k B y' y) (hk0 : 0 ≤ k) (hk : k ≤ 16) : UpTo u (k + 5 / 4) B (fl y') y := by
  have hB : 0 ≤ B := (abs_nonneg _).trans h.bound
  have hu0 := R.nonneg
  refine ⟨?_, h.bound⟩
  have h1 := R.err y'
  have h2 : |y'| ≤ (1 + k * u) * B := by
    have := abs_sub_abs_le_abs_sub y' y
    linarith [h.err, h.bound, add_mul 1 (k * u) B]
  have h3 : |fl y' - y| ≤ |fl y' - y'| + |y' - y| := by
    have := abs_add_le (fl y' - y') (y' - y)
    rwa [sub_add_sub_cancel] at this
  have h4 := mul_le_mul_of_nonneg_left h2 hu0
  have h5 : k * u ≤ 1 / 4 := by nlinarith
  have h6 : u * ((1 + k * u) * B) ≤ 5 / 4 * u * B := by
    have : (1 + k * u) * (u * B) ≤ 5 / 4 * (u * B) := mul_le_mul_of_nonneg_right (by linarith) (mul_nonneg hu0 hB)
    linarith [this, mul_assoc u (1 + k * u) B]
  have e : (k + 5 / 4) * u * B = k * u * B + 5 / 4 * u * B := by ring
  rw [e]
  linarith [h.err]

end UpTo

section
variable {fl : ℚ → ℚ} {u : ℚ} (R : Rounds fl u) (hu : u ≤ 1 / 64)
include R hu

/-- **C210** (accuracy, atmosphere). -/
theorem C210_accurate_atmosphere (s ps ptop : ℚ) (hs : |s| ≤ 1) :
    |atmosphereSigmaF fl s ps ptop - (s * (ps - ptop) + ptop)| ≤ 4 * u * (|ps| + 2 * |ptop|) := by
  have h1 := (UpTo.exact u (abs_sub ps ptop)).round R hu le_rfl (by norm_num)
  have h2 := (h1.one_mul' hs).round R hu (by norm_num) (by norm_num)
  have h3 := (h2.add ((UpTo.exact u (le_refl |ptop|)).weaken R.nonneg (by norm_num : (0 : ℚ) ≤ 0 + 5 / 4 + 5 / 4))).round R hu (by norm_num) (by norm_num)
  refine h3.err.trans ?_
  have hu0 := R.nonneg
  have : 0 ≤ u * (|ps| + 2 * |ptop|) := by positivity
  have e : (0 + 5 / 4 + 5 / 4 + 5 / 4) * u * (|ps| + |ptop| + |ptop|) = 15 / 4 * (u * (|ps| + 2 * |ptop|)) := by ring
  rw [e]
  linarith

/-- **C210** (accuracy, sigma coordinates). -/
theorem C210_accurate_sigma (s ssh bathy : ℚ) (hs : |s| ≤ 1) :
    |oceanSigmaF fl s ssh bathy - (s * (bathy + ssh) + ssh)| ≤ 4 * u * (|bathy| + 2 * |ssh|) := by
  have h1 := (UpTo.exact u (abs_add_le bathy ssh)).round R hu le_rfl (by norm_num)
  have h2 := (h1.one_mul' hs).round R hu (by norm_num) (by norm_num)
  have h3 := (h2.add ((UpTo.exact u (le_refl |ssh|)).weaken R.nonneg (by norm_num : (0 : ℚ) ≤ 0 + 5 / 4 + 5 / 4))).round R hu (by norm_num) (by norm_num)
  refine h3.err.trans ?_
  have hu0 := R.nonneg
  have : 0 ≤ u * (|bathy| + 2 * |ssh|) := by positivity
  have e : (0 + 5 / 4 + 5 / 4 + 5 / 4) * u * (|bathy| + |ssh| + |ssh|) = 15 / 4 * (u * (|bathy| + 2 * |ssh|)) := by ring
  rw [e]
  linarith

theorem stretchF_near (s bathy hc c : ℚ) (hs : |s| ≤ 1) (hc' : |c| ≤ 1) (h0 : 0 ≤ hc) (h : hc ≤ bathy) :
    UpTo u (15 / 4) bathy (stretchF fl s bathy hc c) (s * hc + c * (bathy - hc)) := by
  have a1 := ((UpTo.exact u (abs_of_nonneg h0).le).one_mul' hs).round R hu le_rfl (by norm_num)
  have b1 := (UpTo.exact u (abs_of_nonneg (sub_nonneg.2 h)).le).round R hu le_rfl (by norm_num)
  have b2 := (b1.one_mul' hc').round R hu (by norm_num) (by norm_num)
  have c1 := ((a1.weaken R.nonneg (by norm_num : (0 : ℚ) + 5 / 4 ≤ 0 + 5 / 4 + 5 / 4)).add b2).round R hu (by norm_num) (by norm_num)
  rw [add_sub_cancel hc bathy] at c1
  have e : (0 : ℚ) + 5 / 4 + 5 / 4 + 5 / 4 = 15 / 4 := by norm_num
  rw [e] at c1
  exact c1

/-- **C210** (accuracy, s coordinates): in particular the bottom level (`s = C = -1`) is at minus the bathymetry up to this error. -/
theorem C210_accurate_s (s ssh bathy hc c : ℚ) (hs : -1 ≤ s ∧ s ≤ 0) (hc' : |c| ≤ 1) (h0 : 0 ≤ hc) (h : hc ≤ bathy) :
    |oceanSF fl s ssh bathy hc c - ((s + 1) * ssh + (s * hc + c * (bathy - hc)))| ≤ 5 * u * (bathy + |ssh|) := by
  have a := stretchF_near R hu s bathy hc c (abs_le.2 ⟨hs.1, by linarith [hs.2]⟩) hc' h0 h
  have b1 := (UpTo.exact u (show |s + 1| ≤ 1 from abs_le.2 ⟨by linarith [hs.1], by linarith [hs.2]⟩)).round R hu le_rfl (by norm_num)
  have b2 := (b1.mul (le_refl |ssh|)).round R hu (by norm_num) (by norm_num)
  rw [mul_one, mul_comm ssh, mul_comm ssh] at b2
  have c1 := ((b2.weaken R.nonneg (by norm_num : (0 : ℚ) + 5 / 4 + 5 / 4 ≤ 15 / 4)).add a).round R hu (by norm_num) (by norm_num)
  refine c1.err.trans (le_of_eq ?_)
  ring

/-- **C210** (accuracy, generic form 1). -/
theorem C210_accurate_g1 (s ssh bathy hc c : ℚ) (hs : -1 ≤ s ∧ s ≤ 0) (hc' : -1 ≤ c ∧ c ≤ 0) (h0 : 0 ≤ hc) (h : hc ≤ bathy) (hb : 0 < bathy) :
    |oceanSG1F fl s ssh bathy hc c - (let S := s * hc + c * (bathy - hc); S + (S / bathy + 1) * ssh)| ≤ 9 * u * (bathy + |ssh|) := by
  have a := stretchF_near R hu s bathy hc c (abs_le.2 ⟨hs.1, by linarith [hs.2]⟩) (abs_le.2 ⟨hc'.1, by linarith [hc'.2]⟩) h0 h
  unfold oceanSG1F
  dsimp only
  have hlo : -bathy ≤ s * hc + c * (bathy - hc) := by nlinarith [hs.1, hc'.1]
  have hhi : s * hc + c * (bathy - hc) ≤ 0 := by nlinarith [hs.2, hc'.2]
  generalize stretchF fl s bathy hc c = S' at *
  generalize s * hc + c * (bathy - hc) = S at *
  have q : UpTo u (15 / 4) 1 (S' / bathy) (S / bathy) := by
    have := a.mul (a := 1 / bathy) (A := 1 / bathy) (by rw [abs_of_pos (one_div_pos.2 hb)])
    rw [one_div_mul_cancel hb.ne', one_div_mul_eq_div, one_div_mul_eq_div] at this
    exact this
  have q1 := q.round R hu (by norm_num) (by norm_num)
  have q2 := (q1.rebound (z' := fl (S' / bathy) + 1) (z := S / bathy + 1) (by ring) (by
    rw [abs_le]
    have : -1 ≤ S / bathy := by rw [le_div_iff₀ hb]; linarith
    have : S / bathy ≤ 0 := div_nonpos_of_nonpos_of_nonneg hhi hb.le
    constructor <;> linarith)).round R hu (by norm_num) (by norm_num)
  have q3 := (q2.mul (le_refl |ssh|)).round R hu (by norm_num) (by norm_num)
  rw [mul_one, mul_comm ssh, mul_comm ssh] at q3
  have c1 := ((a.weaken R.nonneg (by norm_num : (15 : ℚ) / 4 ≤ 15 / 4 + 5 / 4 + 5 / 4 + 5 / 4)).add q3).round R hu (by norm_num) (by norm_num)
  refine c1.err.trans ?_
  have hu0 := R.nonneg
  have : 0 ≤ u * (bathy + |ssh|) := by positivity
  have e : (15 / 4 + 5 / 4 + 5 / 4 + 5 / 4 + 5 / 4) * u * (bathy + |ssh|) = 35 / 4 * (u * (bathy + |ssh|)) := by ring
  rw [e]
  linarith

/-- **C210** (accuracy, generic form 2): whatever the critical depth. -/
theorem C210_accurate_g2 (s ssh bathy hc c : ℚ) (hs : -1 ≤ s ∧ s ≤ 0) (hc' : -1 ≤ c ∧ c ≤ 0) (h0 : 0 ≤ hc) (hb : 0 < bathy) :
    |oceanSG2F fl s ssh bathy hc c - (let S := (s * hc + c * bathy) / (hc + bathy); S * bathy + (S + 1) * ssh)| ≤ 9 * u * (bathy + |ssh|) := by
  have hu0 := R.nonneg
  have hD : 0 < hc + bathy := by linarith
  have a1 := ((UpTo.exact u (abs_of_nonneg h0).le).one_mul' (abs_le.2 ⟨hs.1, by linarith [hs.2]⟩ : |s| ≤ 1)).round R hu le_rfl (by norm_num)
  have a2 := ((UpTo.exact u (abs_of_pos hb).le).one_mul' (abs_le.2 ⟨hc'.1, by linarith [hc'.2]⟩ : |c| ≤ 1)).round R hu le_rfl (by norm_num)
  have a3 := (a1.add a2).round R hu (by norm_num) (by norm_num)
  have hlo : -(hc + bathy) ≤ s * hc + c * bathy := by nlinarith [hs.1, hc'.1]
  have hhi : s * hc + c * bathy ≤ 0 := by nlinarith [hs.2, hc'.2]
  have hden := R.err (hc + bathy)
  rw [abs_of_pos hD] at hden
  unfold oceanSG2F stretchG2F
  dsimp only
  generalize fl (fl (s * hc) + fl (c * bathy)) = N' at *
  generalize s * hc + c * bathy = N at *
  generalize fl (hc + bathy) = D' at *
  generalize hc + bathy = D at *
  have hD' : 63 / 64 * D ≤ D' := by
    have := (abs_le.1 hden).1
    nlinarith
  have hD'p : 0 < D' := by linarith
  have hN := abs_le.2 (⟨hlo, by linarith⟩ : -D ≤ N ∧ N ≤ D)
  have q : UpTo u 4 1 (N' / D') (N / D) := by
    constructor
    · have e : N' / D' - N / D = ((N' - N) * D - N * (D' - D)) / (D' * D) := by field_simp; ring
      rw [e, abs_div, abs_of_pos (mul_pos hD'p hD), div_le_iff₀ (mul_pos hD'p hD)]
      have b1 : |(N' - N) * D| ≤ 5 / 2 * u * D * D := by
        rw [abs_mul, abs_of_pos hD]
        refine mul_le_mul_of_nonneg_right (a3.err.trans (le_of_eq ?_)) hD.le
        ring
      have b2 : |N * (D' - D)| ≤ D * (u * D) := by
        rw [abs_mul]; exact mul_le_mul hN hden (abs_nonneg _) hD.le
      refine (abs_sub _ _).trans ?_
      have b3 : 4 * u * (63 / 64 * D * D) ≤ 4 * u * (D' * D) :=
        mul_le_mul_of_nonneg_left (mul_le_mul_of_nonneg_right hD' hD.le) (by positivity)
      have : 0 ≤ u * D * D := by positivity
      nlinarith
    · rw [abs_div, abs_of_pos hD, div_le_one hD]; exact hN
  have hS0 : N / D ≤ 0 := div_nonpos_of_nonpos_of_nonneg hhi hD.le
  have hS1 : -1 ≤ N / D := by rw [le_div_iff₀ hD]; linarith
  have q1 := q.round R hu (by norm_num) (by norm_num)
  generalize fl (N' / D') = S' at *
  generalize N / D = S at *
  have q2 := (q1.mul (abs_of_pos hb).le).round R hu (by norm_num) (by norm_num)
  rw [mul_one, mul_comm bathy, mul_comm bathy] at q2
  have q3 := (q1.rebound (z' := S' + 1) (z := S + 1) (by ring) (abs_le.2 ⟨by linarith, by linarith⟩)).round R hu (by norm_num) (by norm_num)
  have q4 := (q3.mul (le_refl |ssh|)).round R hu (by norm_num) (by norm_num)
  rw [mul_one, mul_comm ssh, mul_comm ssh] at q4
  have c1 := ((q2.weaken R.nonneg (by norm_num : (4 : ℚ) + 5 / 4 + 5 / 4 ≤ 4 + 5 / 4 + 5 / 4 + 5 / 4)).add q4).round R hu (by norm_num) (by norm_num)
  refine c1.err.trans (le_of_eq ?_)
  ring

end

/-- **C210** applies to the types `float64` and `float32`. -/
theorem C210_float64 : (Rounds (rne 53) (1 / 2 ^ 53) ∧ Ordered (rne 53) ∧ Symmetric (rne 53) ∧ (1 : ℚ) / 2 ^ 53 ≤ 1 / 64) ∧
    (Rounds (rne 24) (1 / 2 ^ 24) ∧ Ordered (rne 24) ∧ Symmetric (rne 24) ∧ (1 : ℚ) / 2 ^ 24 ≤ 1 / 64) :=
  ⟨⟨rne_rounds 53 (by norm_num), rne_ordered 53 (by norm_num), rne_symmetric 53 (by norm_num), by norm_num⟩,
   ⟨rne_rounds 24 (by norm_num), rne_ordered 24 (by norm_num), rne_symmetric 24 (by norm_num), by norm_num⟩⟩

-- concrete levels, with 8 bits: a column of 100 m, a critical depth of 10 m, a sea surface at 1/4 m
example : oceanSF (rne 8) (-1 / 3) (1 / 4) 100 10 (-1 / 5) = -85 / 4 := by decide +kernel
example : oceanSG2F (rne 8) (-1) (1 / 4) 100 10 (-1) = -100 := by decide +kernel
example := C210_accurate_g1 (rne_rounds 8 (by norm_num)) (by norm_num) (-1 / 3) (1 / 4) 100 10 (-1 / 5) (by norm_num) (by norm_num) (by norm_num) (by norm_num) (by norm_num)
example := C210_order_s (rne_ordered 8 (by norm_num)) (-1 / 2) (-1 / 3) (1 / 4) 100 10 (-1 / 4) (-1 / 5) (by norm_num) (by norm_num) (by norm_num) (by norm_num) (by norm_num)
example := C210_bottom_g2 (rne_ordered 8 (by norm_num)) (rne_symmetric 8 (by norm_num)) (1 / 4) 100 10 (by decide +kernel) (by decide +kernel) (by decide +kernel)

/-- a sea surface below the reference level may invert close levels of the s coordinates, by rounding only: the hypothesis on the sea surface is needed -/
theorem levelsF_cross : ∃ s s' ssh bathy hc : ℚ, s < s' ∧ 0 < hc ∧ hc ≤ bathy ∧ 0 < hc + ssh ∧
    oceanSF (rne 4) s' ssh bathy hc s' < oceanSF (rne 4) s ssh bathy hc s :=
  ⟨-7 / 8, -3 / 4, -5, 6, 6, by norm_num, by norm_num, by norm_num, by norm_num, by decide +kernel⟩

/-- and those of the generic forms -/
theorem levelsF_cross_generic : ∃ s s' ssh bathy hc ssh' bathy' hc' t t' : ℚ, s < s' ∧ 0 < bathy + ssh ∧ hc ≤ bathy ∧ 0 < bathy' + ssh' ∧ t < t' ∧
    oceanSG1F (rne 4) s' ssh bathy hc s' < oceanSG1F (rne 4) s ssh bathy hc s ∧ oceanSG2F (rne 4) t' ssh' bathy' hc' t' < oceanSG2F (rne 4) t ssh' bathy' hc' t :=
  ⟨-3 / 8, -1 / 4, -9, 10, 10, -1, 7, 2, -3 / 4, -5 / 8, by norm_num, by norm_num, by norm_num, by norm_num, by norm_num, by decide +kernel, by decide +kernel⟩

end Xoa
