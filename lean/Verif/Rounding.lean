import Verif.Num
import Mathlib.Data.Int.Log
import Mathlib.Data.Rat.Floor
import Mathlib.Tactic.Linarith
import Mathlib.Tactic.Ring
import Mathlib.Tactic.NormNum
import Mathlib.Tactic.Positivity
import Mathlib.Tactic.FieldSimp

/-!
# Floating-point arithmetic

The other models compute with exact rational numbers. Here the result `x` of each operation is rounded to `fl x`.

* `Rounds fl u`: the standard model of floating-point arithmetic, all that most theorems need: the relative error of each operation is at most `u`.
* `rne p`: rounding to the nearest number with `p` significant bits, ties to even, which is what the processor does with `p = 53` for the type `float64`
  and `p = 24` for `float32`.

Simplification: exponents are not bounded, so that there is neither overflow nor underflow.
-/

namespace Xoa

/-- the relative error of the rounding is at most `u` -/
structure Rounds (fl : ℚ → ℚ) (u : ℚ) : Prop where
  nonneg : 0 ≤ u
  lt_one : u < 1
  err : ∀ x : ℚ, |fl x - x| ≤ u * |x|

namespace Rounds
variable {fl : ℚ → ℚ} {u : ℚ} (h : Rounds fl u)
include h

theorem delta (x : ℚ) : ∃ d : ℚ, |d| ≤ u ∧ fl x = x * (1 + d) := by
  by_cases hx : x = 0
  · have := h.err x
    rw [hx] at this ⊢
    simp only [abs_zero, mul_zero, sub_zero] at this
    have h0 : fl 0 = 0 := abs_eq_zero.1 (le_antisymm this (abs_nonneg _))
    exact ⟨0, by simpa using h.nonneg, by rw [h0]; ring⟩
  · refine ⟨(fl x - x) / x, ?_, ?_⟩
    · rw [abs_div, div_le_iff₀ (abs_pos.2 hx)]; exact h.err x
    · field_simp; ring

theorem zero : fl 0 = 0 := by
  obtain ⟨d, _, e⟩ := h.delta 0
  rw [e]; ring

theorem pos {x : ℚ} (hx : 0 < x) : 0 < fl x := by
  obtain ⟨d, hd, e⟩ := h.delta x
  rw [e]
  have := (abs_le.1 hd).1
  have := h.lt_one
  exact mul_pos hx (by linarith)

theorem neg {x : ℚ} (hx : x < 0) : fl x < 0 := by
  obtain ⟨d, hd, e⟩ := h.delta x
  rw [e]
  have := (abs_le.1 hd).1
  have := h.lt_one
  exact mul_neg_of_neg_of_pos hx (by linarith)

theorem lt_zero_iff (x : ℚ) : fl x < 0 ↔ x < 0 := by
  refine ⟨fun hx => ?_, h.neg⟩
  by_contra hc
  rcases (not_lt.1 hc).lt_or_eq with h0 | h0
  · exact absurd (h.pos h0) (not_lt.2 hx.le)
  · rw [← h0, h.zero] at hx; exact lt_irrefl _ hx

theorem nonneg_iff (x : ℚ) : 0 ≤ fl x ↔ 0 ≤ x := by
  rw [← not_lt, ← not_lt, h.lt_zero_iff]

theorem eq_zero_iff (x : ℚ) : fl x = 0 ↔ x = 0 := by
  constructor
  · intro h0
    by_contra hc
    rcases lt_or_gt_of_ne hc with h1 | h1
    · exact absurd (h.neg h1) (by rw [h0]; exact lt_irrefl _)
    · exact absurd (h.pos h1) (by rw [h0]; exact lt_irrefl _)
  · rintro rfl; exact h.zero

end Rounds

/-! ## Rounding to nearest, ties to even -/

/-- the nearest integer, the even one when there are two -/
def rneInt (q : ℚ) : ℤ :=
  if q - ⌊q⌋ < 1 / 2 then ⌊q⌋ else if 1 / 2 < q - ⌊q⌋ then ⌊q⌋ + 1 else if ⌊q⌋ % 2 = 0 then ⌊q⌋ else ⌊q⌋ + 1

/-- the nearest number with `p` significant bits, the one with an even significand when there are two -/
def rne (p : ℕ) (x : ℚ) : ℚ :=
  if x = 0 then 0 else
    let e : ℤ := Int.log 2 |x| + 1 - p
    (rneInt (x / 2 ^ e) : ℚ) * 2 ^ e

/-- the type `float64` -/
abbrev fl64 : ℚ → ℚ := rne 53

theorem rneInt_err (q : ℚ) : |(rneInt q : ℚ) - q| ≤ 1 / 2 := by
  have h0 := Int.floor_le q
  have h1 := Int.lt_floor_add_one q
  unfold rneInt
  rw [abs_le]
  split
  · constructor <;> linarith
  · next h =>
    have h := not_lt.1 h
    split
    · push_cast; constructor <;> linarith
    · next h' =>
      have h' := not_lt.1 h'
      split
      · constructor <;> linarith
      · push_cast; constructor <;> linarith

theorem rne_err (p : ℕ) (x : ℚ) : |rne p x - x| ≤ 1 / 2 ^ p * |x| := by
  unfold rne
  by_cases hx : x = 0
  · simp [hx]
  · rw [if_neg hx]
    have hlog : (2 : ℚ) ^ Int.log 2 |x| ≤ |x| := Int.zpow_log_le_self (by norm_num) (abs_pos.2 hx)
    set L := Int.log 2 |x| with hL
    show |(rneInt (x / 2 ^ (L + 1 - (p : ℤ))) : ℚ) * 2 ^ (L + 1 - (p : ℤ)) - x| ≤ _
    have hpos : (0 : ℚ) < 2 ^ (L + 1 - (p : ℤ)) := zpow_pos (by norm_num) _
    have hx' : x = x / 2 ^ (L + 1 - (p : ℤ)) * 2 ^ (L + 1 - (p : ℤ)) := by field_simp
    have hstep : |(rneInt (x / 2 ^ (L + 1 - (p : ℤ))) : ℚ) * 2 ^ (L + 1 - (p : ℤ)) - x| ≤ 1 / 2 * 2 ^ (L + 1 - (p : ℤ)) := by
      have e : (rneInt (x / 2 ^ (L + 1 - (p : ℤ))) : ℚ) * 2 ^ (L + 1 - (p : ℤ)) - x =
          ((rneInt (x / 2 ^ (L + 1 - (p : ℤ))) : ℚ) - x / 2 ^ (L + 1 - (p : ℤ))) * 2 ^ (L + 1 - (p : ℤ)) := by
        rw [sub_mul, ← hx']
      rw [e, abs_mul, abs_of_pos hpos]
      exact mul_le_mul_of_nonneg_right (rneInt_err _) hpos.le
    refine hstep.trans ?_
    have e2 : (1 : ℚ) / 2 * 2 ^ (L + 1 - (p : ℤ)) = 1 / 2 ^ p * 2 ^ L := by
      rw [zpow_sub₀ (by norm_num : (2 : ℚ) ≠ 0), zpow_add₀ (by norm_num : (2 : ℚ) ≠ 0), zpow_natCast, zpow_one]
      ring
    rw [e2]
    exact mul_le_mul_of_nonneg_left hlog (by positivity)

theorem rne_rounds (p : ℕ) (hp : 0 < p) : Rounds (rne p) (1 / 2 ^ p) := by
  refine ⟨by positivity, ?_, rne_err p⟩
  rw [div_lt_one (by positivity)]
  exact one_lt_pow₀ (by norm_num) (by omega)

/-- the value of `rne` from the place of the leading bit -/
theorem rne_eq (p : ℕ) (x : ℚ) (k : ℤ) (h0 : (2 : ℚ) ^ k ≤ |x|) (h1 : |x| < 2 ^ (k + 1)) :
    rne p x = (rneInt (x / 2 ^ (k + 1 - (p : ℤ))) : ℚ) * 2 ^ (k + 1 - (p : ℤ)) := by
  have hx : 0 < |x| := lt_of_lt_of_le (zpow_pos (by norm_num) _) h0
  have hk : Int.log 2 |x| = k := by
    apply le_antisymm
    · have := (Int.lt_zpow_iff_log_lt (b := 2) (by norm_num) (x := k + 1) hx).1 (by exact_mod_cast h1)
      omega
    · exact (Int.zpow_le_iff_le_log (b := 2) (by norm_num) hx).1 (by exact_mod_cast h0)
  unfold rne
  rw [if_neg (abs_pos.1 hx), hk]

end Xoa
