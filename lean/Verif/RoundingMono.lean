import Verif.Rounding

/-!
# Order and fixed points of the rounding to nearest

What the standard model `Rounds` does not say: rounding keeps the order of the numbers, commutes with a division by two, and changes no number that
fits in the type.
-/

namespace Xoa

/-- a rounding that keeps the order, commutes with the division by two and gives numbers of the type -/
structure Ordered (fl : ℚ → ℚ) : Prop where
  mono : ∀ x y : ℚ, x ≤ y → fl x ≤ fl y
  half : ∀ x : ℚ, fl (x / 2) = fl x / 2
  idem : ∀ x : ℚ, fl (fl x) = fl x
  zero : fl 0 = 0

/-- the numbers with at most `p` significant bits -/
def FitsBits (p : ℕ) (x : ℚ) : Prop := ∃ (m e : ℤ), |m| ≤ 2 ^ p ∧ x = (m : ℚ) * 2 ^ e

theorem rneInt_int (n : ℤ) : rneInt (n : ℚ) = n := by
  unfold rneInt
  rw [Int.floor_intCast, if_pos (by norm_num)]

theorem rneInt_ge_floor (q : ℚ) : ⌊q⌋ ≤ rneInt q := by
  unfold rneInt
  split
  · exact le_refl _
  · split
    · omega
    · split <;> omega

theorem rneInt_le_floor (q : ℚ) : rneInt q ≤ ⌊q⌋ + 1 := by
  unfold rneInt
  split
  · omega
  · split
    · omega
    · split <;> omega

theorem rneInt_mono {q r : ℚ} (h : q ≤ r) : rneInt q ≤ rneInt r := by
  rcases (Int.floor_le_floor h).lt_or_eq with hlt | heq
  · exact (rneInt_le_floor q).trans ((by omega : ⌊q⌋ + 1 ≤ ⌊r⌋).trans (rneInt_ge_floor r))
  · unfold rneInt
    rw [← heq]
    by_cases h1 : q - ⌊q⌋ < 1 / 2
    · rw [if_pos h1]
      split
      · exact le_refl _
      · split
        · omega
        · split <;> omega
    · rw [if_neg h1, if_neg (show ¬ (r - ⌊q⌋ < 1 / 2) by linarith)]
      by_cases h2 : 1 / 2 < q - ⌊q⌋
      · rw [if_pos h2, if_pos (show (1 : ℚ) / 2 < r - ⌊q⌋ by linarith)]
      · rw [if_neg h2]
        by_cases h3 : ⌊q⌋ % 2 = 0
        · rw [if_pos h3]
          split
          · omega
          · exact le_refl _
        · rw [if_neg h3]
          split <;> exact le_refl _

theorem rneInt_le_int {q : ℚ} {n : ℤ} (h : q ≤ n) : rneInt q ≤ n := by
  have := rneInt_mono h
  rwa [rneInt_int] at this

theorem int_le_rneInt {q : ℚ} {n : ℤ} (h : (n : ℚ) ≤ q) : n ≤ rneInt q := by
  have := rneInt_mono h
  rwa [rneInt_int] at this

theorem two_zpow_pos (k : ℤ) : (0 : ℚ) < 2 ^ k := zpow_pos (by norm_num) _

/-- a nonzero number lies between two powers of two -/
theorem exists_log (x : ℚ) (hx : x ≠ 0) : ∃ k : ℤ, (2 : ℚ) ^ k ≤ |x| ∧ |x| < 2 ^ (k + 1) := by
  refine ⟨Int.log 2 |x|, ?_, ?_⟩
  · have := Int.zpow_log_le_self (b := 2) (by norm_num) (abs_pos.2 hx)
    exact_mod_cast this
  · have := Int.lt_zpow_succ_log_self (b := 2) (by norm_num) |x|
    exact_mod_cast this

theorem two_pow_eq (p : ℕ) (k : ℤ) : (2 : ℚ) ^ (k + 1) = ((2 ^ p : ℤ) : ℚ) * 2 ^ (k + 1 - (p : ℤ)) := by
  push_cast
  rw [zpow_sub₀ (by norm_num), zpow_natCast]
  field_simp

theorem two_pow_eq' (p : ℕ) (hp : 0 < p) (k : ℤ) : (2 : ℚ) ^ k = ((2 ^ (p - 1) : ℤ) : ℚ) * 2 ^ (k + 1 - (p : ℤ)) := by
  push_cast
  rw [← zpow_natCast, ← zpow_add₀ (by norm_num)]
  congr 1
  omega

theorem rne_le_pow (p : ℕ) (x : ℚ) (k : ℤ) (h0 : (2 : ℚ) ^ k ≤ |x|) (h1 : |x| < 2 ^ (k + 1)) : rne p x ≤ 2 ^ (k + 1) := by
  rw [rne_eq p x k h0 h1, two_pow_eq p k]
  refine mul_le_mul_of_nonneg_right ?_ (two_zpow_pos _).le
  have : rneInt (x / 2 ^ (k + 1 - (p : ℤ))) ≤ 2 ^ p := rneInt_le_int (by
    rw [div_le_iff₀ (two_zpow_pos _), ← two_pow_eq p k]
    exact (le_abs_self x).trans h1.le)
  exact_mod_cast this

theorem neg_pow_le_rne (p : ℕ) (x : ℚ) (k : ℤ) (h0 : (2 : ℚ) ^ k ≤ |x|) (h1 : |x| < 2 ^ (k + 1)) : -2 ^ (k + 1) ≤ rne p x := by
  rw [rne_eq p x k h0 h1, two_pow_eq p k, ← neg_mul]
  refine mul_le_mul_of_nonneg_right ?_ (two_zpow_pos _).le
  have : -2 ^ p ≤ rneInt (x / 2 ^ (k + 1 - (p : ℤ))) := int_le_rneInt (by
    rw [le_div_iff₀ (two_zpow_pos _), Int.cast_neg, neg_mul, ← two_pow_eq p k]
    linarith [neg_abs_le x])
  exact_mod_cast this

theorem pow_le_rne (p : ℕ) (hp : 0 < p) (x : ℚ) (hx : 0 < x) (k : ℤ) (h0 : (2 : ℚ) ^ k ≤ |x|) (h1 : |x| < 2 ^ (k + 1)) : 2 ^ k ≤ rne p x := by
  rw [rne_eq p x k h0 h1, two_pow_eq' p hp k]
  refine mul_le_mul_of_nonneg_right ?_ (two_zpow_pos _).le
  have : 2 ^ (p - 1) ≤ rneInt (x / 2 ^ (k + 1 - (p : ℤ))) := int_le_rneInt (by
    rw [le_div_iff₀ (two_zpow_pos _), ← two_pow_eq' p hp k]
    rwa [abs_of_pos hx] at h0)
  exact_mod_cast this

theorem rne_le_neg_pow (p : ℕ) (hp : 0 < p) (x : ℚ) (hx : x < 0) (k : ℤ) (h0 : (2 : ℚ) ^ k ≤ |x|) (h1 : |x| < 2 ^ (k + 1)) : rne p x ≤ -2 ^ k := by
  rw [rne_eq p x k h0 h1, two_pow_eq' p hp k, ← neg_mul]
  refine mul_le_mul_of_nonneg_right ?_ (two_zpow_pos _).le
  have : rneInt (x / 2 ^ (k + 1 - (p : ℤ))) ≤ -2 ^ (p - 1) := rneInt_le_int (by
    rw [div_le_iff₀ (two_zpow_pos _), Int.cast_neg, neg_mul, ← two_pow_eq' p hp k]
    rw [abs_of_neg hx] at h0
    linarith)
  exact_mod_cast this

theorem rne_same_log (p : ℕ) (x y : ℚ) (h : x ≤ y) (k : ℤ) (h0 : (2 : ℚ) ^ k ≤ |x|) (h1 : |x| < 2 ^ (k + 1))
    (h2 : (2 : ℚ) ^ k ≤ |y|) (h3 : |y| < 2 ^ (k + 1)) : rne p x ≤ rne p y := by
  rw [rne_eq p x k h0 h1, rne_eq p y k h2 h3]
  refine mul_le_mul_of_nonneg_right ?_ (two_zpow_pos _).le
  exact_mod_cast rneInt_mono (div_le_div_of_nonneg_right h (two_zpow_pos _).le)

/-- rounding to nearest keeps the order -/
theorem rne_mono (p : ℕ) (hp : 0 < p) {x y : ℚ} (h : x ≤ y) : rne p x ≤ rne p y := by
  have R := rne_rounds p hp
  rcases lt_trichotomy x 0 with hx | hx | hx
  · by_cases hy : 0 ≤ y
    · exact ((R.neg hx).le).trans ((R.nonneg_iff y).2 hy)
    · have hy := not_le.1 hy
      obtain ⟨k, a0, a1⟩ := exists_log x hx.ne
      obtain ⟨l, b0, b1⟩ := exists_log y hy.ne
      have hab : |y| ≤ |x| := by rw [abs_of_neg hx, abs_of_neg hy]; linarith
      have hlk : l < k + 1 := (zpow_lt_zpow_iff_right₀ (by norm_num : (1 : ℚ) < 2)).1 (lt_of_le_of_lt (b0.trans hab) a1)
      rcases (by omega : l = k ∨ l + 1 ≤ k) with rfl | hlt
      · exact rne_same_log p x y h l a0 a1 b0 b1
      · refine (rne_le_neg_pow p hp x hx k a0 a1).trans (le_trans ?_ (neg_pow_le_rne p y l b0 b1))
        exact neg_le_neg (zpow_le_zpow_right₀ (by norm_num) hlt)
  · rw [hx, R.zero]
    exact (R.nonneg_iff y).2 (hx ▸ h)
  · have hy : 0 < y := lt_of_lt_of_le hx h
    obtain ⟨k, a0, a1⟩ := exists_log x hx.ne'
    obtain ⟨l, b0, b1⟩ := exists_log y hy.ne'
    have hab : |x| ≤ |y| := by rw [abs_of_pos hx, abs_of_pos hy]; exact h
    have hlk : k < l + 1 := (zpow_lt_zpow_iff_right₀ (by norm_num : (1 : ℚ) < 2)).1 (lt_of_le_of_lt (a0.trans hab) b1)
    rcases (by omega : k = l ∨ k + 1 ≤ l) with rfl | hlt
    · exact rne_same_log p x y h k a0 a1 b0 b1
    · refine (rne_le_pow p x k a0 a1).trans (le_trans ?_ (pow_le_rne p hp y hy l b0 b1))
      exact zpow_le_zpow_right₀ (by norm_num) hlt

/-- rounding commutes with a division by two -/
theorem rne_half (p : ℕ) (x : ℚ) : rne p (x / 2) = rne p x / 2 := by
  by_cases hx : x = 0
  · subst hx; simp [rne]
  · obtain ⟨k, h0, h1⟩ := exists_log x hx
    have e : |x / 2| = |x| / 2 := by rw [abs_div, abs_of_pos (by norm_num : (0 : ℚ) < 2)]
    have z : ∀ j : ℤ, (2 : ℚ) ^ (j - 1) = 2 ^ j / 2 := by
      intro j; rw [zpow_sub₀ (by norm_num), zpow_one]
    rw [rne_eq p x k h0 h1, rne_eq p (x / 2) (k - 1)]
    · rw [show k - 1 + 1 - (p : ℤ) = (k + 1 - (p : ℤ)) - 1 by ring, z, div_div_div_cancel_right₀ (by norm_num)]
      ring
    · rw [e, z]; linarith
    · rw [e, show k - 1 + 1 = (k + 1) - 1 by ring, z]; linarith

/-- a number of the type is not changed -/
theorem rne_fits (p : ℕ) (hp : 0 < p) {x : ℚ} (h : FitsBits p x) : rne p x = x := by
  obtain ⟨m, e, hm, hx⟩ := h
  by_cases h0 : x = 0
  · rw [h0]; exact (rne_rounds p hp).zero
  · obtain ⟨k, a0, a1⟩ := exists_log x h0
    have key : ∃ n : ℤ, x = (n : ℚ) * 2 ^ (k + 1 - (p : ℤ)) := by
      by_cases he : k + 1 - (p : ℤ) ≤ e
      · refine ⟨m * 2 ^ (e - (k + 1 - (p : ℤ))).toNat, ?_⟩
        rw [hx]
        push_cast
        rw [mul_assoc, ← zpow_natCast, ← zpow_add₀ (by norm_num)]
        congr 2
        omega
      · have he : e ≤ k - p := by omega
        have hle : |x| ≤ 2 ^ k := by
          rw [hx, abs_mul, abs_of_pos (two_zpow_pos e)]
          have hm' : |(m : ℚ)| ≤ 2 ^ p := by exact_mod_cast hm
          calc |(m : ℚ)| * 2 ^ e ≤ 2 ^ p * 2 ^ e := mul_le_mul_of_nonneg_right hm' (two_zpow_pos e).le
            _ = 2 ^ ((p : ℤ) + e) := by rw [zpow_add₀ (by norm_num), zpow_natCast]
            _ ≤ 2 ^ k := zpow_le_zpow_right₀ (by norm_num) (by omega)
        have habs : |x| = 2 ^ k := le_antisymm hle a0
        rcases abs_choice x with hc | hc
        · exact ⟨2 ^ (p - 1), by rw [← hc, habs]; exact two_pow_eq' p hp k⟩
        · refine ⟨-2 ^ (p - 1), ?_⟩
          rw [Int.cast_neg, neg_mul, ← two_pow_eq' p hp k, ← habs, hc, neg_neg]
    obtain ⟨n, hn⟩ := key
    rw [rne_eq p x k a0 a1]
    have : x / 2 ^ (k + 1 - (p : ℤ)) = n := by rw [div_eq_iff (two_zpow_pos _).ne', hn]
    rw [this, rneInt_int, ← hn]

/-- the rounded number is a number of the type -/
theorem fits_rne (p : ℕ) (x : ℚ) : FitsBits p (rne p x) := by
  by_cases h0 : x = 0
  · refine ⟨0, 0, by simp, ?_⟩
    simp [rne, h0]
  · obtain ⟨k, a0, a1⟩ := exists_log x h0
    refine ⟨rneInt (x / 2 ^ (k + 1 - (p : ℤ))), k + 1 - p, ?_, rne_eq p x k a0 a1⟩
    have h := rne_eq p x k a0 a1
    have u := rne_le_pow p x k a0 a1
    have l := neg_pow_le_rne p x k a0 a1
    rw [h, two_pow_eq p k] at u
    rw [h, two_pow_eq p k, ← neg_mul] at l
    have u' := le_of_mul_le_mul_right u (two_zpow_pos _)
    have l' := le_of_mul_le_mul_right l (two_zpow_pos _)
    rw [abs_le]
    exact ⟨by exact_mod_cast l', by exact_mod_cast u'⟩

theorem rne_eq_iff_fits (p : ℕ) (hp : 0 < p) (x : ℚ) : rne p x = x ↔ FitsBits p x :=
  ⟨fun h => h ▸ fits_rne p x, rne_fits p hp⟩

theorem rne_ordered (p : ℕ) (hp : 0 < p) : Ordered (rne p) :=
  ⟨fun _ _ h => rne_mono p hp h, rne_half p, fun x => rne_fits p hp (fits_rne p x), (rne_rounds p hp).zero⟩

end Xoa
