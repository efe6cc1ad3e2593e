import Verif.RoundingCalc
import Verif.Interp1dF

/-! A calculus of rounding errors: `NearV u M k v' v` tells that `v'` is within `k u M` of `v`, itself at most `M` in size, or that both are missing. -/

namespace Xoa
open V

/-- `x'` is within `k u M` of `x`, itself at most `M` in size -/
def Near (u M k x' x : ℚ) : Prop := |x' - x| ≤ k * u * M ∧ |x| ≤ M

/-- the same for values that may be missing -/
def NearV (u M k : ℚ) (v' v : V) : Prop := (v' = none ∧ v = none) ∨ ∃ x' x : ℚ, v' = some x' ∧ v = some x ∧ Near u M k x' x

section
variable {fl : ℚ → ℚ} {u : ℚ}

theorem Near.fl_of (h : Rounds fl u) {M E x' x : ℚ} (he : |x' - x| ≤ E) (hx : |x| ≤ M) : |fl x' - x| ≤ E + u * (M + E) := by
  have h0 := h.err x'
  have h1 : |x'| ≤ M + E := by
    have := abs_add_le (x' - x) x
    rw [sub_add_cancel] at this
    linarith
  have h2 := abs_add_le (fl x' - x') (x' - x)
  rw [sub_add_sub_cancel] at h2
  have h3 := mul_le_mul_of_nonneg_left h1 h.nonneg
  linarith

theorem Near.add (h : Rounds fl u) {M N k l n x' x y' y : ℚ} (hx : Near u M k x' x) (hy : Near u N l y' y) (hk : k ≤ n) (hl : l ≤ n) (hn : n * u ≤ 1) :
    Near u (M + N) (n + 2) (fl (x' + y')) (x + y) := by
  have hM : 0 ≤ M := (abs_nonneg _).trans hx.2
  have hN : 0 ≤ N := (abs_nonneg _).trans hy.2
  have hu := h.nonneg
  have hs : |x + y| ≤ M + N := (abs_add_le _ _).trans (add_le_add hx.2 hy.2)
  have he : |x' + y' - (x + y)| ≤ n * u * (M + N) := by
    have e : x' + y' - (x + y) = (x' - x) + (y' - y) := by ring
    rw [e]
    have h1 := abs_add_le (x' - x) (y' - y)
    have h2 : k * (u * M) ≤ n * (u * M) := mul_le_mul_of_nonneg_right hk (mul_nonneg hu hM)
    have h3 : l * (u * N) ≤ n * (u * N) := mul_le_mul_of_nonneg_right hl (mul_nonneg hu hN)
    have := hx.1; have := hy.1
    linarith
  refine ⟨(Near.fl_of h he hs).trans ?_, hs⟩
  have h4 : n * u * (u * (M + N)) ≤ 1 * (u * (M + N)) := mul_le_mul_of_nonneg_right hn (mul_nonneg hu (by linarith))
  linarith

theorem Near.neg {M k x' x : ℚ} (hx : Near u M k x' x) : Near u M k (-x') (-x) := by
  refine ⟨?_, by rw [abs_neg]; exact hx.2⟩
  have e : -x' - -x = -(x' - x) := by ring
  rw [e, abs_neg]; exact hx.1

theorem Near.sub (h : Rounds fl u) {M N k l n x' x y' y : ℚ} (hx : Near u M k x' x) (hy : Near u N l y' y) (hk : k ≤ n) (hl : l ≤ n) (hn : n * u ≤ 1) :
    Near u (M + N) (n + 2) (fl (x' - y')) (x - y) := by
  rw [sub_eq_add_neg, sub_eq_add_neg]
  exact Near.add h hx hy.neg hk hl hn

theorem Near.mul (h : Rounds fl u) {M N k l x' x y' y : ℚ} (hx : Near u M k x' x) (hy : Near u N l y' y) (hk : 0 ≤ k) (hl : 0 ≤ l)
    (hn : 2 * (k + 1) * (l + 1) * u ≤ 1) : Near u (M * N) (k + l + 2) (fl (x' * y')) (x * y) := by
  have hM : 0 ≤ M := (abs_nonneg _).trans hx.2
  have hN : 0 ≤ N := (abs_nonneg _).trans hy.2
  have hu := h.nonneg
  have hu1 := h.lt_one
  have hs : |x * y| ≤ M * N := abs_mul_le hx.2 hy.2
  have he : |x' * y' - x * y| ≤ (k + l + k * l * u) * u * (M * N) := by
    have e : x' * y' - x * y = (x' - x) * y + (x * (y' - y) + (x' - x) * (y' - y)) := by ring
    rw [e]
    have h1 := abs_add_le ((x' - x) * y) (x * (y' - y) + (x' - x) * (y' - y))
    have h2 := abs_add_le (x * (y' - y)) ((x' - x) * (y' - y))
    have h3 : |(x' - x) * y| ≤ k * u * M * N := abs_mul_le hx.1 hy.2
    have h4 : |x * (y' - y)| ≤ M * (l * u * N) := abs_mul_le hx.2 hy.1
    have h5 : |(x' - x) * (y' - y)| ≤ k * u * M * (l * u * N) := abs_mul_le hx.1 hy.1
    linarith
  refine ⟨(Near.fl_of h he hs).trans ?_, hs⟩
  have hP : 0 ≤ u * (M * N) := mul_nonneg hu (mul_nonneg hM hN)
  have hkl : 0 ≤ k * l := mul_nonneg hk hl
  have hc : k * l * u + (k + l + k * l * u) * u ≤ 1 := by
    have h1 : k * l * u * u ≤ k * l * 1 * u := by
      have := mul_le_mul_of_nonneg_left hu1.le hkl
      exact mul_le_mul_of_nonneg_right this hu
    nlinarith [mul_nonneg hk hu, mul_nonneg hl hu]
  have h2 := mul_le_mul_of_nonneg_right hc hP
  linarith

theorem Near.mono {M M' k k' x' x : ℚ} (hu : 0 ≤ u) (hx : Near u M k x' x) (hM : M ≤ M') (hk : k ≤ k') (hk0 : 0 ≤ k) : Near u M' k' x' x := by
  have hM0 : 0 ≤ M := (abs_nonneg _).trans hx.2
  refine ⟨hx.1.trans ?_, hx.2.trans hM⟩
  have h1 : k * u ≤ k' * u := mul_le_mul_of_nonneg_right hk hu
  have h2 : 0 ≤ k * u := mul_nonneg hk0 hu
  exact mul_le_mul h1 hM hM0 (h2.trans h1)

/-! with missing values -/

theorem NearV.exact {M : ℚ} {v : V} (h : ∀ q, v = some q → |q| ≤ M) : NearV u M 0 v v := by
  cases v with
  | none => exact Or.inl ⟨rfl, rfl⟩
  | some q => exact Or.inr ⟨q, q, rfl, rfl, by simp, h q rfl⟩

theorem NearV.const (M q : ℚ) (h : |q| ≤ M) : NearV u M 0 (some q) (some q) := NearV.exact (fun r hr => by cases hr; exact h)

theorem NearV.add (h : Rounds fl u) {M N k l : ℚ} (n : ℚ) {a' a b' b : V} (ha : NearV u M k a' a) (hb : NearV u N l b' b) (hk : k ≤ n) (hl : l ≤ n) (hn : n * u ≤ 1) :
    NearV u (M + N) (n + 2) (flAdd fl a' b') (V.add a b) := by
  rcases ha with ⟨rfl, rfl⟩ | ⟨x', x, rfl, rfl, hx⟩
  · exact Or.inl ⟨rfl, rfl⟩
  · rcases hb with ⟨rfl, rfl⟩ | ⟨y', y, rfl, rfl, hy⟩
    · exact Or.inl ⟨rfl, rfl⟩
    · exact Or.inr ⟨_, _, rfl, rfl, Near.add h hx hy hk hl hn⟩

theorem NearV.sub (h : Rounds fl u) {M N k l : ℚ} (n : ℚ) {a' a b' b : V} (ha : NearV u M k a' a) (hb : NearV u N l b' b) (hk : k ≤ n) (hl : l ≤ n) (hn : n * u ≤ 1) :
    NearV u (M + N) (n + 2) (flSub fl a' b') (V.sub a b) := by
  rcases ha with ⟨rfl, rfl⟩ | ⟨x', x, rfl, rfl, hx⟩
  · exact Or.inl ⟨rfl, rfl⟩
  · rcases hb with ⟨rfl, rfl⟩ | ⟨y', y, rfl, rfl, hy⟩
    · exact Or.inl ⟨rfl, rfl⟩
    · exact Or.inr ⟨_, _, rfl, rfl, Near.sub h hx hy hk hl hn⟩

theorem NearV.mul (h : Rounds fl u) {M N k l : ℚ} {a' a b' b : V} (ha : NearV u M k a' a) (hb : NearV u N l b' b) (hk : 0 ≤ k) (hl : 0 ≤ l)
    (hn : 2 * (k + 1) * (l + 1) * u ≤ 1) : NearV u (M * N) (k + l + 2) (flMul fl a' b') (V.mul a b) := by
  rcases ha with ⟨rfl, rfl⟩ | ⟨x', x, rfl, rfl, hx⟩
  · exact Or.inl ⟨rfl, rfl⟩
  · rcases hb with ⟨rfl, rfl⟩ | ⟨y', y, rfl, rfl, hy⟩
    · exact Or.inl ⟨rfl, rfl⟩
    · exact Or.inr ⟨_, _, rfl, rfl, Near.mul h hx hy hk hl hn⟩

/-- half a value -/
theorem NearV.half (h : Rounds fl u) {M k : ℚ} {a' a : V} (ha : NearV u M k a' a) (hk : 0 ≤ k) (hn : 2 * (k + 1) * u ≤ 1) :
    NearV u (M * (1 / 2)) (k + 2) (flDiv fl a' (some 2)) (V.mul a (some (1 / 2))) := by
  rcases ha with ⟨rfl, rfl⟩ | ⟨x', x, rfl, rfl, hx⟩
  · exact Or.inl ⟨rfl, rfl⟩
  · have hh : Near u (1 / 2) 0 (1 / 2) (1 / 2) := ⟨by simp, by rw [abs_of_pos (by norm_num)]⟩
    have := Near.mul h hx hh hk (le_refl 0) (by linarith)
    refine Or.inr ⟨fl (x' / 2), _, ?_, rfl, ?_⟩
    · show (V.div (some x') (some 2)).map fl = _
      rw [V.div_some (by norm_num : (2 : ℚ) ≠ 0)]
      rfl
    · have e : x' / 2 = x' * (1 / 2) := by ring
      rw [e]; rw [add_zero] at this; exact this

theorem NearV.mono {M M' k k' : ℚ} {a' a : V} (hu : 0 ≤ u) (ha : NearV u M k a' a) (hM : M ≤ M') (hk : k ≤ k') (hk0 : 0 ≤ k) : NearV u M' k' a' a := by
  rcases ha with h | ⟨x', x, h1, h2, hx⟩
  · exact Or.inl h
  · exact Or.inr ⟨x', x, h1, h2, Near.mono hu hx hM hk hk0⟩

/-- the relative place in a cell -/
theorem NearV.mu (h : Rounds fl u) (hu : u ≤ 1 / 64) (d0 d1 : ℚ) (hd0 : 0 ≤ d0) (hd1 : 0 ≤ d1) :
    NearV u 1 4 (flDiv fl (some (fl d0)) (flAdd fl (some (fl d0)) (some (fl d1)))) (V.div (some d0) (V.add (some d0) (some d1))) := by
  have hu0 := h.nonneg
  by_cases hs : d0 + d1 = 0
  · have e0 : d0 = 0 := by linarith
    have e1 : d1 = 0 := by linarith
    subst e0; subst e1
    left
    simp only [flDiv, flAdd, V.rd, h.zero, V.add_some, Option.map_some, add_zero, V.div, if_true, Option.map_none]
    exact ⟨trivial, trivial⟩
  · have hs' : 0 < d0 + d1 := lt_of_le_of_ne (by linarith) (Ne.symm hs)
    obtain ⟨e0, he0, q0⟩ := h.delta d0
    obtain ⟨e1, he1, q1⟩ := h.delta d1
    obtain ⟨e5, he5, q5⟩ := h.delta (fl d0 + fl d1)
    obtain ⟨e6, he6, q6⟩ := h.delta (fl d0 / fl (fl d0 + fl d1))
    obtain ⟨hS, hw⟩ := weight_err hu hd1 hd0 (by linarith) he1 he0
    have hS' : 0 < fl d0 + fl d1 := by rw [q0, q1]; linarith
    have hc0 : 0 < 1 + e5 := by linarith [(abs_le.1 he5).1]
    have hne : fl (fl d0 + fl d1) ≠ 0 := (h.pos hS').ne'
    right
    refine ⟨fl (fl d0 / fl (fl d0 + fl d1)), d0 / (d0 + d1), ?_, ?_, ?_, ?_⟩
    · simp only [flDiv, flAdd, V.rd, V.add_some, Option.map_some]
      rw [V.div_some hne]; rfl
    · rw [V.add_some, V.div_some hs]
    · have hF := factor_err hu (a := 0) (by simpa using hu0) he6 he5
      rw [add_zero, one_mul] at hF
      have es : fl (fl d0 / fl (fl d0 + fl d1)) = d0 * (1 + e0) / (d1 * (1 + e1) + d0 * (1 + e0)) * ((1 + e6) / (1 + e5)) := by
        rw [q6, q5, q0, q1, add_comm (d0 * (1 + e0))]
        field_simp
      rw [es]
      set s := d0 * (1 + e0) / (d1 * (1 + e1) + d0 * (1 + e0)) with hsd
      set F := (1 + e6) / (1 + e5) with hFd
      have p0 : 0 ≤ d0 * (1 + e0) := mul_nonneg hd0 (by linarith [(abs_le.1 he0).1])
      have p1 : 0 ≤ d1 * (1 + e1) := mul_nonneg hd1 (by linarith [(abs_le.1 he1).1])
      have s0 : 0 ≤ s := div_nonneg p0 hS.le
      have s1 : s ≤ 1 := by rw [hsd, div_le_one hS]; linarith
      have sa : |s| ≤ 1 := by rw [abs_of_nonneg s0]; exact s1
      have e : s * F - d0 / (d0 + d1) = (s - d0 / (d1 + d0)) + s * (F - 1) := by rw [add_comm d1 d0]; ring
      rw [e]
      have k1 := abs_add_le (s - d0 / (d1 + d0)) (s * (F - 1))
      have k2 : |s * (F - 1)| ≤ 1 * (197 / 64 * u) := abs_mul_le sa hF
      linarith
    · rw [abs_of_nonneg (div_nonneg hd0 hs'.le), div_le_one hs']
      linarith

end

end Xoa
