import Verif.GridF2
import Verif.GridFProps
import Verif.GridProps
import Verif.SigmaFProps

/-!
# C219: `get_edges_2d` in floating-point arithmetic
-/

namespace Xoa

/-! ## Rounding to nearest: `m + m + m + m` is `4 m` -/

theorem rneInt_near (q : ℚ) (n : ℤ) (h : |q - n| < 1 / 2) : rneInt q = n := by
  have e := rneInt_err q
  have : |((rneInt q - n : ℤ) : ℚ)| < 1 := by
    push_cast
    calc |(rneInt q : ℚ) - n| = |((rneInt q : ℚ) - q) + (q - n)| := by ring_nf
      _ ≤ |(rneInt q : ℚ) - q| + |q - n| := abs_add_le _ _
      _ < 1 := by linarith
  have h2 : |rneInt q - n| < 1 := by exact_mod_cast this
  have := Int.abs_lt_one_iff.1 h2
  omega

theorem rneInt_tie (n : ℤ) (hn : n % 2 = 0) : rneInt ((n : ℚ) + 1 / 2) = n ∧ rneInt ((n : ℚ) - 1 / 2) = n := by
  have f1 : ⌊(n : ℚ) + 1 / 2⌋ = n := by rw [Int.floor_eq_iff]; constructor <;> linarith
  have f2 : ⌊(n : ℚ) - 1 / 2⌋ = n - 1 := by rw [Int.floor_eq_iff]; push_cast; constructor <;> linarith
  constructor
  · unfold rneInt
    rw [f1, if_neg (by linarith), if_neg (by linarith), if_pos hn]
  · unfold rneInt
    rw [f2]
    push_cast
    rw [if_neg (by linarith), if_neg (by linarith), if_neg (by omega)]
    omega

/-- a positive number of the type is `M * 2 ^ E` with `2 ^ (p - 1) ≤ M < 2 ^ p` -/
theorem rne_repr (p : ℕ) (hp : 0 < p) (m : ℚ) (hm : 0 < m) (hs : rne p m = m) :
    ∃ (k M : ℤ), 2 ^ (p - 1) ≤ M ∧ M < 2 ^ p ∧ m = (M : ℚ) * 2 ^ (k + 1 - (p : ℤ)) := by
  obtain ⟨k, h0, h1⟩ := exists_log m hm.ne'
  have e := rne_eq p m k h0 h1
  rw [hs] at e
  rw [abs_of_pos hm] at h0 h1
  refine ⟨k, _, ?_, ?_, e⟩
  · rw [e, two_pow_eq' p hp k] at h0
    have := le_of_mul_le_mul_right h0 (two_zpow_pos _)
    exact_mod_cast this
  · rw [e, two_pow_eq p k] at h1
    have := lt_of_mul_lt_mul_right h1 (two_zpow_pos _).le
    exact_mod_cast this

/-- rounding a whole number of units: the place of the leading bit is given by bounds on this whole number -/
theorem rne_units (p : ℕ) (hp : 0 < p) (E : ℤ) (N : ℤ) (s : ℕ) (h0 : 2 ^ (p - 1 + s) ≤ N) (h1 : N < 2 ^ (p + s)) :
    rne p ((N : ℚ) * 2 ^ E) = (rneInt ((N : ℚ) / 2 ^ s) : ℚ) * 2 ^ (E + s) := by
  have hN : 0 ≤ N := le_trans (by positivity) h0
  have hN' : |(N : ℚ) * 2 ^ E| = (N : ℚ) * 2 ^ E := abs_of_nonneg (mul_nonneg (by exact_mod_cast hN) (two_zpow_pos E).le)
  have z : ∀ n : ℕ, (2 : ℚ) ^ (E + n) = ((2 ^ n : ℤ) : ℚ) * 2 ^ E := by
    intro n; rw [zpow_add₀ (by norm_num), zpow_natCast]; push_cast; ring
  have k0 : (2 : ℚ) ^ (E + ((p - 1 + s : ℕ) : ℤ)) ≤ |(N : ℚ) * 2 ^ E| := by
    rw [hN', z]
    exact mul_le_mul_of_nonneg_right (by exact_mod_cast h0) (two_zpow_pos E).le
  have k1 : |(N : ℚ) * 2 ^ E| < (2 : ℚ) ^ (E + ((p - 1 + s : ℕ) : ℤ) + 1) := by
    rw [hN', show E + ((p - 1 + s : ℕ) : ℤ) + 1 = E + ((p + s : ℕ) : ℤ) by push_cast; omega, z]
    exact mul_lt_mul_of_pos_right (by exact_mod_cast h1) (two_zpow_pos E)
  rw [rne_eq p _ _ k0 k1, show E + ((p - 1 + s : ℕ) : ℤ) + 1 - (p : ℤ) = E + (s : ℤ) by push_cast; omega]
  congr 3
  rw [z]
  have := two_zpow_pos E
  push_cast
  field_simp

theorem rne_four_pos (p : ℕ) (hp : 2 ≤ p) (m : ℚ) (hm : 0 < m) (hs : rne p m = m) : rne p (rne p (3 * m) + m) = 4 * m := by
  obtain ⟨k, M, h0, h1, e⟩ := rne_repr p (by omega) m hm hs
  generalize k + 1 - (p : ℤ) = E at e
  obtain ⟨P, hP⟩ : ∃ P : ℕ, p = P + 2 := ⟨p - 2, by omega⟩
  have w0 : (2 : ℤ) ^ (p - 1) = 2 * 2 ^ P := by rw [hP]; rw [show P + 2 - 1 = P + 1 by omega, pow_succ]; ring
  have w1 : (2 : ℤ) ^ p = 4 * 2 ^ P := by rw [hP, pow_add]; ring
  have w2 : (2 : ℤ) ^ (p + 1) = 8 * 2 ^ P := by rw [pow_succ, w1]; ring
  have w3 : (2 : ℤ) ^ (p + 2) = 16 * 2 ^ P := by rw [pow_add, w1]; ring
  have w1' : (2 : ℤ) ^ (p - 1 + 1) = 4 * 2 ^ P := by rw [pow_succ, w0]; ring
  have w2' : (2 : ℤ) ^ (p - 1 + 2) = 8 * 2 ^ P := by rw [pow_add, w0]; ring
  have hPpos : (1 : ℤ) ≤ 2 ^ P := one_le_pow₀ (by norm_num)
  have z1 : (2 : ℚ) ^ (E + ((1 : ℕ) : ℤ)) = 2 * 2 ^ E := by rw [zpow_add₀ (by norm_num)]; norm_num; ring
  have z2 : (2 : ℚ) ^ (E + ((2 : ℕ) : ℤ)) = 4 * 2 ^ E := by rw [zpow_add₀ (by norm_num)]; norm_num; ring
  have e3 : 3 * m = ((3 * M : ℤ) : ℚ) * 2 ^ E := by rw [e]; push_cast; ring
  rw [w0] at h0
  rw [w1] at h1
  by_cases hA : 3 * M < 8 * 2 ^ P
  · -- one bit is lost
    have r := rne_units p (by omega) E (3 * M) 1 (by rw [w1']; omega) (by rw [w2]; exact hA)
    rw [e3, r, z1]
    have er := rneInt_err (((3 * M : ℤ) : ℚ) / 2 ^ 1)
    generalize hT : rneInt (((3 * M : ℤ) : ℚ) / 2 ^ 1) = T at er ⊢
    have b : |2 * T - 3 * M| ≤ 1 := by
      have : |(2 * T - 3 * M : ℚ)| ≤ 1 := by
        rw [abs_le] at er ⊢; push_cast at er; constructor <;> linarith [er.1, er.2]
      exact_mod_cast this
    have b' := abs_le.1 b
    have es : (T : ℚ) * (2 * 2 ^ E) + m = ((2 * T + M : ℤ) : ℚ) * 2 ^ E := by rw [e]; push_cast; ring
    rw [es]
    by_cases hM : M = 2 * 2 ^ P
    · have hTe : T = 3 * 2 ^ P := by omega
      rw [show 2 * T + M = 4 * M by omega]
      rw [rne_fits p (by omega) ⟨4 * (2 * 2 ^ P) / 8, E + 3, ?_, ?_⟩, e]
      · push_cast; ring
      · rw [w1, show 4 * (2 * (2 : ℤ) ^ P) / 8 = 2 ^ P by omega, abs_of_nonneg (by omega)]; omega
      · rw [hM, show 4 * (2 * (2 : ℤ) ^ P) / 8 = 2 ^ P by omega, zpow_add₀ (by norm_num)]; push_cast; ring
    · have r2 := rne_units p (by omega) E (2 * T + M) 2 (by rw [w2']; omega) (by rw [w3]; omega)
      rw [r2, z2]
      have : rneInt (((2 * T + M : ℤ) : ℚ) / 2 ^ 2) = M := by
        apply rneInt_near
        have : |(2 * T - 3 * M : ℚ)| ≤ 1 := by exact_mod_cast b
        rw [abs_le] at this
        rw [abs_lt]
        push_cast
        constructor <;> linarith [this.1, this.2]
      rw [this, e]; ring
  · -- two bits are lost
    have r := rne_units p (by omega) E (3 * M) 2 (by rw [w2']; omega) (by rw [w3]; omega)
    rw [e3, r, z2]
    have er := rneInt_err (((3 * M : ℤ) : ℚ) / 2 ^ 2)
    generalize hT : rneInt (((3 * M : ℤ) : ℚ) / 2 ^ 2) = T at er ⊢
    have b : |4 * T - 3 * M| ≤ 2 := by
      have : |(4 * T - 3 * M : ℚ)| ≤ 2 := by
        rw [abs_le] at er ⊢; push_cast at er; constructor <;> linarith [er.1, er.2]
      exact_mod_cast this
    have b' := abs_le.1 b
    have es : (T : ℚ) * (4 * 2 ^ E) + m = ((4 * T + M : ℤ) : ℚ) * 2 ^ E := by rw [e]; push_cast; ring
    rw [es]
    have r2 := rne_units p (by omega) E (4 * T + M) 2 (by rw [w2']; omega) (by rw [w3]; omega)
    rw [r2, z2]
    have : rneInt (((4 * T + M : ℤ) : ℚ) / 2 ^ 2) = M := by
      rcases (show 4 * T + M = 4 * M + 2 ∨ 4 * T + M = 4 * M - 2 ∨ |4 * T + M - 4 * M| ≤ 1 by
        rw [abs_le]; omega) with h | h | h
      · rw [show ((4 * T + M : ℤ) : ℚ) / 2 ^ 2 = (M : ℚ) + 1 / 2 by rw [h]; push_cast; ring]
        exact (rneInt_tie M (by omega)).1
      · rw [show ((4 * T + M : ℤ) : ℚ) / 2 ^ 2 = (M : ℚ) - 1 / 2 by rw [h]; push_cast; ring]
        exact (rneInt_tie M (by omega)).2
      · apply rneInt_near
        have : |(4 * T + M - 4 * M : ℚ)| ≤ 1 := by exact_mod_cast h
        rw [abs_le] at this
        rw [abs_lt]
        push_cast
        constructor <;> linarith [this.1, this.2]
    rw [this, e]; ring

/-- a rounding for which four times the same number is exact, when it is computed as `m + m + m + m` -/
def FourExact (fl : ℚ → ℚ) : Prop := ∀ m : ℚ, fl m = m → fl (fl (fl (m + m) + m) + m) = 4 * m

theorem rne_four (p : ℕ) (hp : 2 ≤ p) : FourExact (rne p) := by
  intro m hs
  have O := rne_ordered p (by omega)
  have S := rne_symmetric p (by omega)
  have d : ∀ x : ℚ, rne p x = x → rne p (x + x) = 2 * x := by
    intro x hx
    have := O.half (x + x)
    rw [show (x + x) / 2 = x by ring, hx] at this
    linarith
  rw [d m hs, show 2 * m + m = 3 * m by ring]
  rcases lt_trichotomy m 0 with h | h | h
  · have k := rne_four_pos p hp (-m) (by linarith) (by rw [S.neg, hs])
    rw [show 3 * -m = -(3 * m) by ring, S.neg, ← neg_add, S.neg] at k
    linarith
  · subst h
    rw [mul_zero, O.zero, add_zero, O.zero, mul_zero]
  · exact rne_four_pos p hp m h hs

/-! ## Values inside the grid -/

/-- the value of an interior edge -/
theorem inner_val (fl : ℚ → ℚ) (ny nx : Nat) (junk d : Nat → Nat → ℚ) (hy : 2 ≤ ny) (hx : 2 ≤ nx) :
    ∃ e, edges2dF fl ny nx junk d = some e ∧ ∀ j i : Nat, 1 ≤ j → j < ny → 1 ≤ i → i < nx →
      e j i = meanF fl (d j i) (d (j - 1) i) (d j (i - 1)) (d (j - 1) (i - 1)) := by
  unfold edges2dF
  rw [if_neg (by omega)]
  refine ⟨_, rfl, ?_⟩
  intro j i h1 h2 h3 h4
  have a1 : ¬ j = 0 := by omega
  have a2 : ¬ j = ny := by omega
  have a3 : ¬ i = 0 := by omega
  have a4 : ¬ i = nx := by omega
  simp only [a1, a2, a3, a4, h1, h2, h3, h4, or_self, and_self, if_true, if_false]

theorem meanF_eq {fl : ℚ → ℚ} (O : Ordered fl) (a b c d : ℚ) : meanF fl a b c d = fl (fl (fl (a + b) + c) + d) / 4 := by
  unfold meanF
  have h : ∀ x : ℚ, fl (1 / 4 * x) = fl x / 4 := by
    intro x
    rw [show 1 / 4 * x = x / 2 / 2 by ring, O.half, O.half]; ring
  rw [h, O.idem]

theorem meanF_between {fl : ℚ → ℚ} (O : Ordered fl) (F : FourExact fl) (m : ℚ) (hm : fl m = m) (a b c d : ℚ) :
    (m ≤ a → m ≤ b → m ≤ c → m ≤ d → m ≤ meanF fl a b c d) ∧ (a ≤ m → b ≤ m → c ≤ m → d ≤ m → meanF fl a b c d ≤ m) := by
  rw [meanF_eq O]
  have k := F m hm
  constructor
  · intro h1 h2 h3 h4
    have := O.mono _ _ (add_le_add (O.mono _ _ (add_le_add (O.mono _ _ (add_le_add h1 h2)) h3)) h4)
    linarith
  · intro h1 h2 h3 h4
    have := O.mono _ _ (add_le_add (O.mono _ _ (add_le_add (O.mono _ _ (add_le_add h1 h2)) h3)) h4)
    linarith

/-- **C219**: with rounding to nearest, the corner between four cells is not outside of what their four centres span: each bound of the four centres that is
a number of the type is a bound of it. In particular it is this number if the four centres are equal. It depends on these centres only,
not on the memory. -/
theorem C219_between (p : ℕ) (hp : 2 ≤ p) (ny nx : Nat) (d : Nat → Nat → ℚ) (hy : 2 ≤ ny) (hx : 2 ≤ nx)
    (hs : ∀ j i : Nat, j < ny → i < nx → FitsBits p (d j i)) (j i : Nat) (hj : 1 ≤ j ∧ j < ny) (hi : 1 ≤ i ∧ i < nx) :
    ∃ v : ℚ, FitsBits p v ∧
      (∀ junk : Nat → Nat → ℚ, ∃ e, edges2dF (rne p) ny nx junk d = some e ∧ e j i = v) ∧
      min (min (d (j - 1) (i - 1)) (d (j - 1) i)) (min (d j (i - 1)) (d j i)) ≤ v ∧
      v ≤ max (max (d (j - 1) (i - 1)) (d (j - 1) i)) (max (d j (i - 1)) (d j i)) := by
  have O := rne_ordered p (by omega)
  have F := rne_four p hp
  refine ⟨meanF (rne p) (d j i) (d (j - 1) i) (d j (i - 1)) (d (j - 1) (i - 1)), fits_rne p _, ?_, ?_, ?_⟩
  · intro junk
    obtain ⟨e, he, hv⟩ := inner_val (rne p) ny nx junk d hy hx
    exact ⟨e, he, hv j i hj.1 hj.2 hi.1 hi.2⟩
  · have f1 := rne_fits p (by omega) (hs (j - 1) (i - 1) (by omega) (by omega))
    have f2 := rne_fits p (by omega) (hs (j - 1) i (by omega) (by omega))
    have f3 := rne_fits p (by omega) (hs j (i - 1) (by omega) (by omega))
    have f4 := rne_fits p (by omega) (hs j i (by omega) (by omega))
    refine (meanF_between O F _ ?_ _ _ _ _).1 ?_ ?_ ?_ ?_
    · rcases min_choice (min (d (j - 1) (i - 1)) (d (j - 1) i)) (min (d j (i - 1)) (d j i)) with h | h
      · rw [h]; rcases min_choice (d (j - 1) (i - 1)) (d (j - 1) i) with g | g <;> rw [g] <;> assumption
      · rw [h]; rcases min_choice (d j (i - 1)) (d j i) with g | g <;> rw [g] <;> assumption
    · exact (min_le_right _ _).trans (min_le_right _ _)
    · exact (min_le_left _ _).trans (min_le_right _ _)
    · exact (min_le_right _ _).trans (min_le_left _ _)
    · exact (min_le_left _ _).trans (min_le_left _ _)
  · have f1 := rne_fits p (by omega) (hs (j - 1) (i - 1) (by omega) (by omega))
    have f2 := rne_fits p (by omega) (hs (j - 1) i (by omega) (by omega))
    have f3 := rne_fits p (by omega) (hs j (i - 1) (by omega) (by omega))
    have f4 := rne_fits p (by omega) (hs j i (by omega) (by omega))
    refine (meanF_between O F _ ?_ _ _ _ _).2 ?_ ?_ ?_ ?_
    · rcases max_choice (max (d (j - 1) (i - 1)) (d (j - 1) i)) (max (d j (i - 1)) (d j i)) with h | h
      · rw [h]; rcases max_choice (d (j - 1) (i - 1)) (d (j - 1) i) with g | g <;> rw [g] <;> assumption
      · rw [h]; rcases max_choice (d j (i - 1)) (d j i) with g | g <;> rw [g] <;> assumption
    · exact (le_max_right _ _).trans (le_max_right _ _)
    · exact (le_max_right _ _).trans (le_max_left _ _)
    · exact (le_max_left _ _).trans (le_max_right _ _)
    · exact (le_max_left _ _).trans (le_max_left _ _)

/-- **C219**: accuracy. Whatever the rounding, the error of the corner between four cells is at most three relative errors of the sum of the magnitudes
of the four centres, divided by four. -/
theorem C219_accurate (fl : ℚ → ℚ) (u : ℚ) (O : Ordered fl) (R : Rounds fl u) (ny nx : Nat) (junk d : Nat → Nat → ℚ) (hy : 2 ≤ ny) (hx : 2 ≤ nx) :
    ∃ e, edges2dF fl ny nx junk d = some e ∧ ∀ j i : Nat, 1 ≤ j → j < ny → 1 ≤ i → i < nx →
      |e j i - (d (j - 1) (i - 1) + d (j - 1) i + d j (i - 1) + d j i) / 4| ≤
        ((1 + u) ^ 3 - 1) * ((|d (j - 1) (i - 1)| + |d (j - 1) i| + |d j (i - 1)| + |d j i|) / 4) := by
  obtain ⟨e, he, hv⟩ := inner_val fl ny nx junk d hy hx
  refine ⟨e, he, fun j i h1 h2 h3 h4 => ?_⟩
  rw [hv j i h1 h2 h3 h4, meanF_eq O]
  generalize d j i = a
  generalize d (j - 1) i = b
  generalize d j (i - 1) = c
  generalize d (j - 1) (i - 1) = g
  have hu := R.nonneg
  have s1 := R.err (a + b)
  have s2 := R.err (fl (a + b) + c)
  have s3 := R.err (fl (fl (a + b) + c) + g)
  have ab : |a + b| ≤ |a| + |b| := abs_add_le a b
  have m1 : |fl (a + b)| ≤ (1 + u) * (|a| + |b|) := by
    have : |fl (a + b)| ≤ |fl (a + b) - (a + b)| + |a + b| := by
      calc |fl (a + b)| = |(fl (a + b) - (a + b)) + (a + b)| := by ring_nf
        _ ≤ _ := abs_add_le _ _
    nlinarith [mul_le_mul_of_nonneg_left ab hu]
  have m2 : |fl (a + b) + c| ≤ (1 + u) * (|a| + |b| + |c|) := by
    have := abs_add_le (fl (a + b)) c
    nlinarith [abs_nonneg c, mul_nonneg hu (abs_nonneg c)]
  have m3 : |fl (fl (a + b) + c)| ≤ (1 + u) ^ 2 * (|a| + |b| + |c|) := by
    have : |fl (fl (a + b) + c)| ≤ |fl (fl (a + b) + c) - (fl (a + b) + c)| + |fl (a + b) + c| := by
      calc |fl (fl (a + b) + c)| = |(fl (fl (a + b) + c) - (fl (a + b) + c)) + (fl (a + b) + c)| := by ring_nf
        _ ≤ _ := abs_add_le _ _
    nlinarith [mul_le_mul_of_nonneg_left m2 hu]
  have m4 : |fl (fl (a + b) + c) + g| ≤ (1 + u) ^ 2 * (|a| + |b| + |c| + |g|) := by
    have := abs_add_le (fl (fl (a + b) + c)) g
    have q : |g| ≤ (1 + u) ^ 2 * |g| := le_mul_of_one_le_left (abs_nonneg g) (one_le_pow₀ (by linarith))
    nlinarith
  have t : |fl (fl (fl (a + b) + c) + g) - (a + b + c + g)| ≤ ((1 + u) ^ 3 - 1) * (|a| + |b| + |c| + |g|) := by
    have dec : fl (fl (fl (a + b) + c) + g) - (a + b + c + g) =
        (fl (fl (fl (a + b) + c) + g) - (fl (fl (a + b) + c) + g)) + ((fl (fl (a + b) + c) - (fl (a + b) + c)) + (fl (a + b) - (a + b))) := by ring
    rw [dec]
    have k1 := abs_add_le (fl (fl (fl (a + b) + c) + g) - (fl (fl (a + b) + c) + g)) ((fl (fl (a + b) + c) - (fl (a + b) + c)) + (fl (a + b) - (a + b)))
    have k2 := abs_add_le (fl (fl (a + b) + c) - (fl (a + b) + c)) (fl (a + b) - (a + b))
    have q1 := mul_le_mul_of_nonneg_left m4 hu
    have q2 := mul_le_mul_of_nonneg_left m2 hu
    have q3 := mul_le_mul_of_nonneg_left ab hu
    have n1 : 0 ≤ u * |c| := mul_nonneg hu (abs_nonneg c)
    have n2 : 0 ≤ u * |g| := mul_nonneg hu (abs_nonneg g)
    have n3 : 0 ≤ u * (u * |g|) := mul_nonneg hu n2
    nlinarith
  rw [show fl (fl (fl (a + b) + c) + g) / 4 - (g + b + c + a) / 4 = (fl (fl (fl (a + b) + c) + g) - (a + b + c + g)) / 4 by ring, abs_div,
    abs_of_pos (by norm_num : (0 : ℚ) < 4)]
  rw [show (|g| + |b| + |c| + |a|) / 4 = (|a| + |b| + |c| + |g|) / 4 by ring]
  linarith

/-! ## No error for short numbers -/

/-- the values of a grid are multiples of `2 ^ e` with at most `n` bits -/
def ShortGrid (n : ℕ) (e : ℤ) (ny nx : Nat) (d : Nat → Nat → ℚ) : Prop :=
  ∀ j i : Nat, j < ny → i < nx → ∃ m : ℤ, |m| ≤ 2 ^ n ∧ d j i = (m : ℚ) * 2 ^ e

theorem rowEdgesF_exact (p : ℕ) (hp : 2 ≤ p) (e : ℤ) (n : Nat) (hn : 2 ≤ n) (f : Nat → ℚ)
    (hf : ∀ i : Nat, i < n → ∃ m : ℤ, |m| ≤ 2 ^ (p - 2) ∧ f i = (m : ℚ) * 2 ^ e) (i : Nat) :
    rowEdgesF (rne p) f n i = ((edges1d .float 1 (-1) ((List.range (n + 1)).map (fun _ => (0 : ℚ))) ((List.range n).map f)).getD []).getD i 0 := by
  unfold rowEdgesF
  rw [C208_exact p hp e 1 (-1) _ _ (by omega) (by simpa using hn) (by simp)]
  intro k hk
  have hk : k < n := by simpa using hk
  rw [row_getD f n k hk]
  exact hf k hk

theorem out_exact (p : ℕ) (hp : 5 ≤ p) (e : ℤ) (a b : ℤ) (ha : |a| ≤ 2 ^ (p - 5)) (hb : |b| ≤ 2 ^ (p - 5)) :
    outF (rne p) ((a : ℚ) * 2 ^ e) ((b : ℚ) * 2 ^ e) = 3 / 2 * ((a : ℚ) * 2 ^ e) - 1 / 2 * ((b : ℚ) * 2 ^ e) ∧
    ∃ m : ℤ, |m| ≤ 4 * 2 ^ (p - 5) ∧ 3 / 2 * ((a : ℚ) * 2 ^ e) - 1 / 2 * ((b : ℚ) * 2 ^ e) = (m : ℚ) * 2 ^ (e - 1) := by
  have hz : (2 : ℚ) ^ e = 2 * 2 ^ (e - 1) := by rw [zpow_sub₀ (by norm_num), zpow_one]; ring
  have p32 : (2 : ℤ) ^ p = 32 * 2 ^ (p - 5) := by
    rw [show (32 : ℤ) = 2 ^ 5 by norm_num, ← pow_add]; congr 1; omega
  have fits : ∀ (m : ℤ) (q : ℚ), |m| ≤ 32 * 2 ^ (p - 5) → q = (m : ℚ) * 2 ^ (e - 1) → rne p q = q := by
    intro m q hm hq
    exact rne_fits p (by omega) ⟨m, e - 1, by rw [p32]; exact hm, hq⟩
  have h0 : (0 : ℤ) < 2 ^ (p - 5) := by positivity
  have ha := abs_le.1 ha
  have hb := abs_le.1 hb
  generalize (2 : ℤ) ^ (p - 5) = P at *
  constructor
  · unfold outF
    rw [fits (3 * a) (3 / 2 * ((a : ℚ) * 2 ^ e)) (by rw [abs_le]; constructor <;> omega) (by rw [hz]; push_cast; ring),
      fits b (1 / 2 * ((b : ℚ) * 2 ^ e)) (by rw [abs_le]; constructor <;> omega) (by rw [hz]; push_cast; ring),
      fits (3 * a - b) _ (by rw [abs_le]; constructor <;> omega) (by rw [hz]; push_cast; ring)]
  · exact ⟨3 * a - b, by rw [abs_le]; constructor <;> omega, by rw [hz]; push_cast; ring⟩

/-- the edges of a row of short numbers are short -/
theorem row_short (e : ℤ) (n : Nat) (hn : 2 ≤ n) (f : Nat → ℚ) (P : ℤ) (hf : ∀ i : Nat, i < n → ∃ m : ℤ, |m| ≤ P ∧ f i = (m : ℚ) * 2 ^ e)
    (i : Nat) (hi : i ≤ n) : ∃ m : ℤ, |m| ≤ 4 * P ∧
      ((edges1d .float 1 (-1) ((List.range (n + 1)).map (fun _ => (0 : ℚ))) ((List.range n).map f)).getD []).getD i 0 = (m : ℚ) * 2 ^ (e - 1) := by
  have hz : (2 : ℚ) ^ e = 2 * 2 ^ (e - 1) := by rw [zpow_sub₀ (by norm_num), zpow_one]; ring
  rw [row_edges f n i hn hi]
  split
  · obtain ⟨a, ha, ea⟩ := hf 0 (by omega)
    obtain ⟨b, hb, eb⟩ := hf 1 (by omega)
    rw [abs_le] at ha hb
    exact ⟨3 * a - b, by rw [abs_le]; constructor <;> omega, by rw [ea, eb, hz]; push_cast; ring⟩
  · split
    · obtain ⟨a, ha, ea⟩ := hf (n - 1) (by omega)
      obtain ⟨b, hb, eb⟩ := hf (n - 2) (by omega)
      rw [abs_le] at ha hb
      exact ⟨3 * a - b, by rw [abs_le]; constructor <;> omega, by rw [ea, eb, hz]; push_cast; ring⟩
    · obtain ⟨a, ha, ea⟩ := hf (i - 1) (by omega)
      obtain ⟨b, hb, eb⟩ := hf i (by omega)
      rw [abs_le] at ha hb
      exact ⟨a + b, by rw [abs_le]; constructor <;> omega, by rw [ea, eb, hz]; push_cast; ring⟩

/-- the edges of the line outside of the grid: no error, and short -/
theorem line_exact (p : ℕ) (hp : 5 ≤ p) (e : ℤ) (n : Nat) (hn : 2 ≤ n) (f g : Nat → ℚ)
    (hf : ∀ i : Nat, i < n → ∃ m : ℤ, |m| ≤ 2 ^ (p - 5) ∧ f i = (m : ℚ) * 2 ^ e)
    (hg : ∀ i : Nat, i < n → ∃ m : ℤ, |m| ≤ 2 ^ (p - 5) ∧ g i = (m : ℚ) * 2 ^ e) (i : Nat) (hi : i ≤ n) :
    ∃ m : ℤ, |m| ≤ 16 * 2 ^ (p - 5) ∧ rowEdgesF (rne p) (fun i => outF (rne p) (f i) (g i)) n i = (m : ℚ) * 2 ^ (e - 2) ∧
      ((edges1d .float 1 (-1) ((List.range (n + 1)).map (fun _ => (0 : ℚ))) ((List.range n).map (fun i => 3 / 2 * f i - 1 / 2 * g i))).getD []).getD i 0 =
        (m : ℚ) * 2 ^ (e - 2) := by
  have p8 : (2 : ℤ) ^ (p - 2) = 8 * 2 ^ (p - 5) := by
    rw [show (8 : ℤ) = 2 ^ 3 by norm_num, ← pow_add]; congr 1; omega
  have h0 : (0 : ℤ) < 2 ^ (p - 5) := by positivity
  have both : ∀ k : Nat, k < n → outF (rne p) (f k) (g k) = 3 / 2 * f k - 1 / 2 * g k ∧
      ∃ m : ℤ, |m| ≤ 4 * 2 ^ (p - 5) ∧ 3 / 2 * f k - 1 / 2 * g k = (m : ℚ) * 2 ^ (e - 1) := by
    intro k hk
    obtain ⟨a, ha, ea⟩ := hf k hk
    obtain ⟨b, hb, eb⟩ := hg k hk
    rw [ea, eb]
    exact out_exact p hp e a b ha hb
  have hrow : (List.range n).map (fun i => outF (rne p) (f i) (g i)) = (List.range n).map (fun i => 3 / 2 * f i - 1 / 2 * g i) :=
    List.map_congr_left (fun k hk => (both k (List.mem_range.1 hk)).1)
  obtain ⟨m, hm, em⟩ := row_short (e - 1) n hn (fun i => 3 / 2 * f i - 1 / 2 * g i) (4 * 2 ^ (p - 5)) (fun k hk => (both k hk).2) i hi
  refine ⟨m, by omega, ?_, by rw [em]; congr 2; ring⟩
  rw [rowEdgesF_exact p (by omega) (e - 1) n hn _ (fun k hk => ?_) i, hrow, em]
  · congr 2; ring
  · obtain ⟨h1, m, hm, em⟩ := both k hk
    exact ⟨m, by rw [p8]; omega, by rw [h1]; exact em⟩

/-- **C219**: no rounding error at all for centres that are multiples of the same power of two with five bits to spare (48 bits for the type `float64`): the interior
edges are the exact ones (C16) whatever the memory, and all the edges are if the memory of the borders is zero (C74). -/
theorem C219_exact (p : ℕ) (hp : 5 ≤ p) (b : ℤ) (ny nx : Nat) (junk d : Nat → Nat → ℚ) (hy : 2 ≤ ny) (hx : 2 ≤ nx) (hs : ShortGrid (p - 5) b ny nx d) :
    ∃ ef e, edges2dF (rne p) ny nx junk d = some ef ∧ edges2d ny nx junk d = some e ∧
      (∀ j i : Nat, 1 ≤ j → j < ny → 1 ≤ i → i < nx → ef j i = e j i) ∧
      ((∀ j i : Nat, j ≤ ny → i ≤ nx → junk j i = 0) → ∀ j i : Nat, j ≤ ny → i ≤ nx → ef j i = e j i) := by
  have p32 : (2 : ℤ) ^ p = 32 * 2 ^ (p - 5) := by
    rw [show (32 : ℤ) = 2 ^ 5 by norm_num, ← pow_add]; congr 1; omega
  have h0 : (0 : ℤ) < 2 ^ (p - 5) := by positivity
  have z1 : (2 : ℚ) ^ b = 4 * 2 ^ (b - 2) := by rw [zpow_sub₀ (by norm_num)]; norm_num; ring
  have fits : ∀ (m : ℤ) (q : ℚ) (k : ℤ), |m| ≤ 32 * 2 ^ (p - 5) → q = (m : ℚ) * 2 ^ k → rne p q = q := by
    intro m q k hm hq
    exact rne_fits p (by omega) ⟨m, k, by rw [p32]; exact hm, hq⟩
  have mean : ∀ j i : Nat, 1 ≤ j → j < ny → 1 ≤ i → i < nx →
      meanF (rne p) (d j i) (d (j - 1) i) (d j (i - 1)) (d (j - 1) (i - 1)) =
        1 / 4 * (d j i + d (j - 1) i + d j (i - 1) + d (j - 1) (i - 1)) := by
    intro j i h1 h2 h3 h4
    obtain ⟨m1, k1, e1⟩ := hs j i h2 h4
    obtain ⟨m2, k2, e2⟩ := hs (j - 1) i (by omega) h4
    obtain ⟨m3, k3, e3⟩ := hs j (i - 1) h2 (by omega)
    obtain ⟨m4, k4, e4⟩ := hs (j - 1) (i - 1) (by omega) (by omega)
    rw [abs_le] at k1 k2 k3 k4
    rw [e1, e2, e3, e4]
    unfold meanF
    rw [fits (m1 + m2) ((m1 : ℚ) * 2 ^ b + m2 * 2 ^ b) b (by rw [abs_le]; constructor <;> omega) (by push_cast; ring),
      fits (m1 + m2 + m3) ((m1 : ℚ) * 2 ^ b + m2 * 2 ^ b + m3 * 2 ^ b) b (by rw [abs_le]; constructor <;> omega) (by push_cast; ring),
      fits (m1 + m2 + m3 + m4) ((m1 : ℚ) * 2 ^ b + m2 * 2 ^ b + m3 * 2 ^ b + m4 * 2 ^ b) b (by rw [abs_le]; constructor <;> omega) (by push_cast; ring),
      fits (m1 + m2 + m3 + m4) _ (b - 2) (by rw [abs_le]; constructor <;> omega) (by rw [z1]; push_cast; ring)]
  unfold edges2dF edges2d
  rw [if_neg (by omega), if_neg (by omega)]
  refine ⟨_, _, rfl, rfl, ?_, ?_⟩
  · intro j i h1 h2 h3 h4
    have a1 : ¬ j = 0 := by omega
    have a2 : ¬ j = ny := by omega
    have a3 : ¬ i = 0 := by omega
    have a4 : ¬ i = nx := by omega
    simp only [a1, a2, a3, a4, h1, h2, h3, h4, or_self, and_self, if_true, if_false]
    exact mean j i h1 h2 h3 h4
  · intro hz j i hj hi
    obtain ⟨m1, k1, e1, e1'⟩ := line_exact p hp b nx hx (fun i => d 0 i) (fun i => d 1 i) (fun k hk => hs 0 k (by omega) hk)
      (fun k hk => hs 1 k (by omega) hk) i hi
    obtain ⟨m2, k2, e2, e2'⟩ := line_exact p hp b nx hx (fun i => d (ny - 1) i) (fun i => d (ny - 2) i) (fun k hk => hs (ny - 1) k (by omega) hk)
      (fun k hk => hs (ny - 2) k (by omega) hk) i hi
    obtain ⟨m3, k3, e3, e3'⟩ := line_exact p hp b ny hy (fun j => d j 0) (fun j => d j 1) (fun k hk => hs k 0 hk (by omega))
      (fun k hk => hs k 1 hk (by omega)) j hj
    obtain ⟨m4, k4, e4, e4'⟩ := line_exact p hp b ny hy (fun j => d j (nx - 1)) (fun j => d j (nx - 2)) (fun k hk => hs k (nx - 1) hk (by omega))
      (fun k hk => hs k (nx - 2) hk (by omega)) j hj
    rw [abs_le] at k1 k2 k3 k4
    simp only [e1, e1', e2, e2', e3, e3', e4, e4']
    have hz2 : (2 : ℚ) ^ (b - 2) = 2 * 2 ^ (b - 3) := by
      rw [show b - 2 = b - 3 + 1 by ring, zpow_add₀ (by norm_num)]; norm_num; ring
    have one : ∀ m : ℤ, |m| ≤ 16 * 2 ^ (p - 5) → rne p (0 + (m : ℚ) * 2 ^ (b - 2)) = 0 + (m : ℚ) * 2 ^ (b - 2) := by
      intro m hm; exact fits m _ (b - 2) (by omega) (by ring)
    have two : ∀ m m' : ℤ, |m| ≤ 16 * 2 ^ (p - 5) → |m'| ≤ 16 * 2 ^ (p - 5) →
        rne p (0 + (m : ℚ) * 2 ^ (b - 2) + (m' : ℚ) * 2 ^ (b - 2)) = 0 + (m : ℚ) * 2 ^ (b - 2) + (m' : ℚ) * 2 ^ (b - 2) ∧
        rne p ((0 + (m : ℚ) * 2 ^ (b - 2) + (m' : ℚ) * 2 ^ (b - 2)) * (1 / 2)) = (0 + (m : ℚ) * 2 ^ (b - 2) + (m' : ℚ) * 2 ^ (b - 2)) * (1 / 2) := by
      intro m m' hm hm'
      rw [abs_le] at hm hm'
      exact ⟨fits (m + m') _ (b - 2) (by rw [abs_le]; constructor <;> omega) (by push_cast; ring),
        fits (m + m') _ (b - 3) (by rw [abs_le]; constructor <;> omega) (by rw [hz2]; push_cast; ring)⟩
    have k1' : |m1| ≤ 16 * 2 ^ (p - 5) := abs_le.2 k1
    have k2' : |m2| ≤ 16 * 2 ^ (p - 5) := abs_le.2 k2
    have k3' : |m3| ≤ 16 * 2 ^ (p - 5) := abs_le.2 k3
    have k4' : |m4| ≤ 16 * 2 ^ (p - 5) := abs_le.2 k4
    have hjk := hz j i hj hi
    rcases (show j = 0 ∨ j = ny ∨ (¬ j = 0 ∧ ¬ j = ny) by omega) with c1 | c1 | c1 <;>
      rcases (show i = 0 ∨ i = nx ∨ (¬ i = 0 ∧ ¬ i = nx) by omega) with c2 | c2 | c2
    · have t1 : (j = 0) = True := eq_true (by omega)
      have t2 : (j = ny) = False := eq_false (by omega)
      have t3 : (i = 0) = True := eq_true (by omega)
      have t4 : (i = nx) = False := eq_false (by omega)
      have n1 : (1 ≤ j ∧ j < ny ∧ 1 ≤ i ∧ i < nx) = False := eq_false (by omega)
      simp only [t1, t2, t3, t4, n1, hjk, if_true, if_false, true_or, or_true, or_false, false_or, and_true, and_false, true_and, false_and, or_self, and_self]
      rw [one m1 k1', (two m1 m3 k1' k3').1, (two m1 m3 k1' k3').2]
    · have t1 : (j = 0) = True := eq_true (by omega)
      have t2 : (j = ny) = False := eq_false (by omega)
      have t3 : (i = 0) = False := eq_false (by omega)
      have t4 : (i = nx) = True := eq_true (by omega)
      have n1 : (1 ≤ j ∧ j < ny ∧ 1 ≤ i ∧ i < nx) = False := eq_false (by omega)
      simp only [t1, t2, t3, t4, n1, hjk, if_true, if_false, true_or, or_true, or_false, false_or, and_true, and_false, true_and, false_and, or_self, and_self]
      rw [one m1 k1', (two m1 m4 k1' k4').1, (two m1 m4 k1' k4').2]
    · have t1 : (j = 0) = True := eq_true (by omega)
      have t2 : (j = ny) = False := eq_false (by omega)
      have t3 : (i = 0) = False := eq_false (by omega)
      have t4 : (i = nx) = False := eq_false (by omega)
      have n1 : (1 ≤ j ∧ j < ny ∧ 1 ≤ i ∧ i < nx) = False := eq_false (by omega)
      simp only [t1, t2, t3, t4, n1, hjk, if_true, if_false, true_or, or_true, or_false, false_or, and_true, and_false, true_and, false_and, or_self, and_self]
      rw [one m1 k1']
    · have t1 : (j = 0) = False := eq_false (by omega)
      have t2 : (j = ny) = True := eq_true (by omega)
      have t3 : (i = 0) = True := eq_true (by omega)
      have t4 : (i = nx) = False := eq_false (by omega)
      have n1 : (1 ≤ j ∧ j < ny ∧ 1 ≤ i ∧ i < nx) = False := eq_false (by omega)
      simp only [t1, t2, t3, t4, n1, hjk, if_true, if_false, true_or, or_true, or_false, false_or, and_true, and_false, true_and, false_and, or_self, and_self]
      rw [one m2 k2', (two m2 m3 k2' k3').1, (two m2 m3 k2' k3').2]
    · have t1 : (j = 0) = False := eq_false (by omega)
      have t2 : (j = ny) = True := eq_true (by omega)
      have t3 : (i = 0) = False := eq_false (by omega)
      have t4 : (i = nx) = True := eq_true (by omega)
      have n1 : (1 ≤ j ∧ j < ny ∧ 1 ≤ i ∧ i < nx) = False := eq_false (by omega)
      simp only [t1, t2, t3, t4, n1, hjk, if_true, if_false, true_or, or_true, or_false, false_or, and_true, and_false, true_and, false_and, or_self, and_self]
      rw [one m2 k2', (two m2 m4 k2' k4').1, (two m2 m4 k2' k4').2]
    · have t1 : (j = 0) = False := eq_false (by omega)
      have t2 : (j = ny) = True := eq_true (by omega)
      have t3 : (i = 0) = False := eq_false (by omega)
      have t4 : (i = nx) = False := eq_false (by omega)
      have n1 : (1 ≤ j ∧ j < ny ∧ 1 ≤ i ∧ i < nx) = False := eq_false (by omega)
      simp only [t1, t2, t3, t4, n1, hjk, if_true, if_false, true_or, or_true, or_false, false_or, and_true, and_false, true_and, false_and, or_self, and_self]
      rw [one m2 k2']
    · have t1 : (j = 0) = False := eq_false (by omega)
      have t2 : (j = ny) = False := eq_false (by omega)
      have t3 : (i = 0) = True := eq_true (by omega)
      have t4 : (i = nx) = False := eq_false (by omega)
      have n1 : (1 ≤ j ∧ j < ny ∧ 1 ≤ i ∧ i < nx) = False := eq_false (by omega)
      simp only [t1, t2, t3, t4, n1, hjk, if_true, if_false, true_or, or_true, or_false, false_or, and_true, and_false, true_and, false_and, or_self, and_self]
      rw [one m3 k3']
    · have t1 : (j = 0) = False := eq_false (by omega)
      have t2 : (j = ny) = False := eq_false (by omega)
      have t3 : (i = 0) = False := eq_false (by omega)
      have t4 : (i = nx) = True := eq_true (by omega)
      have n1 : (1 ≤ j ∧ j < ny ∧ 1 ≤ i ∧ i < nx) = False := eq_false (by omega)
      simp only [t1, t2, t3, t4, n1, hjk, if_true, if_false, true_or, or_true, or_false, false_or, and_true, and_false, true_and, false_and, or_self, and_self]
      rw [one m4 k4']
    · have t1 : (j = 0) = False := eq_false (by omega)
      have t2 : (j = ny) = False := eq_false (by omega)
      have t3 : (i = 0) = False := eq_false (by omega)
      have t4 : (i = nx) = False := eq_false (by omega)
      have n1 : (1 ≤ j ∧ j < ny ∧ 1 ≤ i ∧ i < nx) = True := eq_true (by omega)
      simp only [t1, t2, t3, t4, n1, hjk, if_true, if_false, true_or, or_true, or_false, false_or, and_true, and_false, true_and, false_and, or_self, and_self]
      exact mean j i (by omega) (by omega) (by omega) (by omega)

/-- **C219**: a grid with one row or one column is an error, as in exact arithmetic. -/
theorem C219_too_small (fl : ℚ → ℚ) (ny nx : Nat) (junk d : Nat → Nat → ℚ) (h : ny < 2 ∨ nx < 2) : edges2dF fl ny nx junk d = none := by
  unfold edges2dF
  rw [if_pos h]

/-! ## Cases that meet the hypotheses -/

/-- three bits: the four centres `5, 5, 5, 6` have the mean `5.25`; the sums are `10, 14, 20`, and the corner `5` -/
example : (edges2dF (rne 3) 2 2 (fun _ _ => 100) (fun j i => 5 + j * i)).map (fun e => e 1 1) = some 5 := by decide +kernel
/-- and four equal centres -/
example : (edges2dF (rne 3) 2 2 (fun _ _ => 100) (fun _ _ => 7)).map (fun e => e 1 1) = some 7 := by decide +kernel
example : ∀ j i : Nat, j < 2 → i < 2 → FitsBits 3 ((fun j i : Nat => ((5 + j * i : Nat) : ℚ)) j i) := by
  intro j i hj hi
  refine ⟨((5 + j * i : Nat) : ℤ), 0, ?_, by simp⟩
  have : j * i ≤ 1 * 1 := Nat.mul_le_mul (by omega) (by omega)
  rw [abs_of_nonneg (by positivity)]
  push_cast
  have : (j : ℤ) * i ≤ 1 := by exact_mod_cast this
  norm_num
  omega
example : ShortGrid 48 (-1) 2 2 (fun j i => (j : ℚ) / 2 + i) := by
  intro j i hj hi
  refine ⟨j + 2 * i, ?_, ?_⟩
  · rw [abs_of_nonneg (by positivity)]
    norm_num
    omega
  · push_cast; norm_num; ring
end Xoa
