import Verif.FilterKernelProps

/-!
# C202: kernel sizes given as integers and as floats

In the model of `generate_orthogonal_kernel`, `K1.int` is a size of type `int`; every other scalar, floats as well as numpy integers (that are not of type `int`,
xoa/filter.py:273), is a `K1.float`.
-/

namespace Xoa

/-! ## specification -/

/-- number of points of the window in the kernel `v`, when it has `b` points of fill value at each border -/
def WindowPoints (window : Nat → List ℚ) (fill : ℚ) (v : List ℚ) (n b : Nat) : Prop :=
  v = List.replicate b fill ++ window n ++ List.replicate b fill

/-- the points of the window for a size of any type: the whole part of the size (what a user expects) -/
def ExpectedPoints (q : ℚ) : Nat := ⌊q⌋.toNat

/-! ## lemmas -/

theorem floor_of_between (n : Nat) (q : ℚ) (h1 : (n : ℚ) < q) (h2 : q < n + 1) : q.floor = (n : Int) := by
  have : ⌊q⌋ = (n : Int) := by
    rw [Int.floor_eq_iff]; push_cast; exact ⟨le_of_lt h1, h2⟩
  exact this

theorem kernel1d_frac (window : Nat → List ℚ) (fill : ℚ) (n : Nat) (q : ℚ) (h1 : (n : ℚ) < q) (h2 : q < n + 1) :
    kernel1d window fill (.float q) = .ok ([fill] ++ window n ++ [fill]) := by
  have h0 : (0 : ℚ) ≤ q := le_trans (Nat.cast_nonneg n) (le_of_lt h1)
  have hf := floor_of_between n q h1 h2
  have hne : ((n : Int) : ℚ) ≠ q := by push_cast; exact ne_of_lt h1
  unfold kernel1d
  simp only [if_pos h0, hf, if_pos hne]
  rw [if_neg (by omega)]
  have : ((n : Int) + 2 - 2).toNat = n := by omega
  rw [this]

theorem kernel1d_whole (window : Nat → List ℚ) (fill : ℚ) (n : Nat) :
    kernel1d window fill (.float n) = if n < 2 then .error .valueError else .ok ([fill] ++ window (n - 2) ++ [fill]) := by
  have h0 : (0 : ℚ) ≤ (n : ℚ) := Nat.cast_nonneg n
  have hf : (n : ℚ).floor = (n : Int) := by
    have : ⌊(n : ℚ)⌋ = (n : Int) := Int.floor_natCast n
    exact this
  unfold kernel1d
  simp only [if_pos h0, hf]
  rw [if_neg (not_not.mpr (by push_cast; rfl))]
  by_cases h : n < 2
  · rw [if_pos (by omega), if_pos h]
  · rw [if_neg (by omega), if_neg h]
    have : ((n : Int) - 2).toNat = n - 2 := by omega
    rw [this]

/-! ## C202 -/

/-- C202: a size of type `int` gives the points of the window, without border -/
theorem C202_int (window : Nat → List ℚ) (fill : ℚ) (n : Nat) :
    ∃ v, kernel1d window fill (.int n) = .ok v ∧ WindowPoints window fill v n 0 := by
  refine ⟨window n, ?_, by simp [WindowPoints]⟩
  show (if (n : Int) < 0 then Except.error CErr.valueError else Except.ok (window (n : Int).toNat)) = _
  rw [if_neg (by omega)]
  simp

/-- C202: a positive size that is not a whole number gives the points of the window for its whole part, between two fill values -/
theorem C202_fraction (window : Nat → List ℚ) (fill : ℚ) (q : ℚ) (h0 : 0 ≤ q) (hq : ∀ n : Nat, q ≠ n) :
    ∃ v, kernel1d window fill (.float q) = .ok v ∧ WindowPoints window fill v (ExpectedPoints q) 1 := by
  have hfl : (0 : Int) ≤ ⌊q⌋ := Int.floor_nonneg.mpr h0
  have hc : ((ExpectedPoints q : Nat) : ℚ) = (⌊q⌋ : ℚ) := by
    unfold ExpectedPoints
    have : ((⌊q⌋.toNat : Int) : ℚ) = (⌊q⌋ : ℚ) := by rw [Int.toNat_of_nonneg hfl]
    exact_mod_cast this
  refine ⟨_, kernel1d_frac window fill (ExpectedPoints q) q ?_ ?_, by simp [WindowPoints]⟩
  · apply lt_of_le_of_ne
    · rw [hc]; exact Int.floor_le q
    · exact fun h => hq _ h.symm
  · rw [hc]; exact Int.lt_floor_add_one q

/-- C202, partial: among the sizes that are not whole numbers a larger size never gives fewer points. Whole numbers are missing, see
`C202_shrink_violated`. -/
theorem C202_monotone_partial (window : Nat → List ℚ) (hw : ∀ n, (window n).length = n) (fill : ℚ) (q q' : ℚ) (h0 : 0 ≤ q) (hqq : q ≤ q')
    (hq : ∀ n : Nat, q ≠ n) (hq' : ∀ n : Nat, q' ≠ n) :
    ∃ v v', kernel1d window fill (.float q) = .ok v ∧ kernel1d window fill (.float q') = .ok v' ∧ v.length ≤ v'.length := by
  obtain ⟨v, h1, h2⟩ := C202_fraction window fill q h0 hq
  obtain ⟨v', h1', h2'⟩ := C202_fraction window fill q' (le_trans h0 hqq) hq'
  refine ⟨v, v', h1, h1', ?_⟩
  rw [h2, h2']
  simp only [List.length_append, List.length_replicate, hw]
  have : ExpectedPoints q ≤ ExpectedPoints q' := Int.toNat_le_toNat (Int.floor_le_floor hqq)
  omega

/-- C202 is false of whole numbers that are not of type `int` (`3.`, `np.int64(3)`): the window has two points less than the size and 0 and 1 are refused. -/
theorem C202_whole_violated (window : Nat → List ℚ) (fill : ℚ) (n : Nat) :
    (2 ≤ n → ∃ v, kernel1d window fill (.float n) = .ok v ∧ WindowPoints window fill v (n - 2) 1) ∧
    (n < 2 → kernel1d window fill (.float n) = .error .valueError) := by
  rw [kernel1d_whole]
  refine ⟨fun h => ⟨[fill] ++ window (n - 2) ++ [fill], if_neg (by omega), by simp [WindowPoints]⟩, fun h => if_pos h⟩

/-- C202 is false of the default window: `3` and `3.` (any whole size of 2 or more) give different kernels; the second one has zeros at its ends. -/
theorem C202_type_violated (n : Nat) (hn : 2 ≤ n) :
    kernel1d onesWindow 0 (.int n) ≠ kernel1d onesWindow 0 (.float n) := by
  obtain ⟨v, h1, h2⟩ := C202_int onesWindow 0 n
  obtain ⟨v', h1', h2'⟩ := (C202_whole_violated onesWindow 0 n).1 hn
  rw [h1, h1']
  intro h
  have h := Except.ok.inj h
  rw [h2, h2'] at h
  have hh := congrArg (fun l : List ℚ => l.getD 0 5) h
  obtain ⟨m, rfl⟩ : ∃ m, n = m + 2 := ⟨n - 2, by omega⟩
  simp [onesWindow, List.replicate_succ] at hh

/-- C202 is false of the order of sizes: `n + 1/2` gives `n` points of the window and the larger size `n + 1` as a float gives `n - 1` only -/
theorem C202_shrink_violated (window : Nat → List ℚ) (hw : ∀ n, (window n).length = n) (fill : ℚ) (n : Nat) (hn : 1 ≤ n) :
    ∃ v v', kernel1d window fill (.float (n + 1 / 2)) = .ok v ∧ kernel1d window fill (.float ((n + 1 : Nat) : ℚ)) = .ok v' ∧
      v'.length + 1 = v.length := by
  refine ⟨_, [fill] ++ window (n + 1 - 2) ++ [fill], kernel1d_frac window fill n _ (by linarith) (by linarith), ?_, ?_⟩
  · rw [kernel1d_whole, if_neg (by omega)]
  · simp only [List.length_append, List.length_cons, List.length_nil, hw]; omega

/-! ## non-vacuity -/

example : (kernel1d onesWindow 0 (.int 3)).toOption = some [1, 1, 1] := by decide +kernel
example : (kernel1d onesWindow 0 (.float 3)).toOption = some [0, 1, 0] := by decide +kernel
example : (kernel1d onesWindow 0 (.float (7 / 2))).toOption = some [0, 1, 1, 1, 0] := by decide +kernel
example : (kernel1d onesWindow 0 (.float 4)).toOption = some [0, 1, 1, 0] := by decide +kernel
example : ExpectedPoints (7 / 2) = 3 := by unfold ExpectedPoints; norm_num; rfl
example : ∀ n : Nat, (7 / 2 : ℚ) ≠ n := by
  intro n h
  have : (7 : ℚ) = 2 * n := by linarith
  have : (7 : Nat) = 2 * n := by exact_mod_cast this
  omega

end Xoa
