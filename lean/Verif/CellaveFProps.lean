import Verif.CellaveF
import Verif.CellaveProps

/-!
# C209: cell averages in floating-point arithmetic
-/

namespace Xoa
open V Finset

/-! ### only the data inside the bounds matters -/

theorem caInnerF_congr (fl : ℚ → ℚ) (conserv : Bool) (ex : CExtrap) (n : Nat) (y y' : Nat → ℚ) (va vb : Nat → V) (o0 o1 : ℚ)
    (h : ∀ i, i ≤ n → y i = y' i) :
    ∀ (l : List Nat), (∀ i ∈ l, i < n) → ∀ iyi0 wo acc,
      caInnerF fl conserv ex n y va vb o0 o1 l iyi0 wo acc = caInnerF fl conserv ex n y' va vb o0 o1 l iyi0 wo acc := by
  intro l
  induction l with
  | nil => intro _ _ _ _; rfl
  | cons i l ih =>
    intro hl iyi0 wo acc
    have hi : i < n := hl i (by simp)
    have ih' := ih (fun j hj => hl j (by simp [hj]))
    simp only [caInnerF]
    rw [caLo_congr ex y y' o0 i (h i (by omega)), caHi_congr ex n y y' o1 i (h (i+1) (by omega)), ih']
    simp only [ih']

theorem caCellsF_congr (fl : ℚ → ℚ) (conserv : Bool) (ex : CExtrap) (n no : Nat) (y y' yo yo' : Nat → ℚ) (va vb : Nat → V)
    (ix ixi : Nat) (h : ∀ i, i ≤ n → y i = y' i) (ho : ∀ i, i ≤ no → yo i = yo' i) :
    ∀ (l : List Nat), (∀ i ∈ l, i < no) → ∀ iyi0 varo,
      caCellsF fl conserv ex n y yo va vb ix ixi l iyi0 varo = caCellsF fl conserv ex n y' yo' va vb ix ixi l iyi0 varo := by
  intro l
  induction l with
  | nil => intro _ _ _; rfl
  | cons i l ih =>
    intro hl iyi0 varo
    have hi : i < no := hl i (by simp)
    have ih' := ih (fun j hj => hl j (by simp [hj]))
    simp only [caCellsF]
    rw [ho i (by omega), ho (i+1) (by omega)]
    rw [caInnerF_congr fl conserv ex n y y' va vb _ _ h _ (by
      intro j hj; rw [List.mem_range'_1] at hj; omega)]
    simp only [ih']

/-! ### one rounding -/

section
variable {fl : ℚ → ℚ} {u : ℚ} (R : Rounds fl u)
include R

/-- a rounding after an error `g` relative to `B` -/
theorem fl_close {y' y g B : ℚ} (h : |y' - y| ≤ g * B) (hy : |y| ≤ B) : |fl y' - y| ≤ ((1 + g) * (1 + u) - 1) * B := by
  have h1 := R.err y'
  have h2 : |y'| ≤ (1 + g) * B := by
    have := abs_sub_abs_le_abs_sub y' y
    linarith [add_mul 1 g B]
  have h3 : |fl y' - y| ≤ |fl y' - y'| + |y' - y| := by
    have := abs_add_le (fl y' - y') (y' - y)
    rwa [sub_add_sub_cancel] at this
  have h4 := mul_le_mul_of_nonneg_left h2 R.nonneg
  have e : ((1 + g) * (1 + u) - 1) * B = u * ((1 + g) * B) + g * B := by ring
  rw [e]
  linarith

/-- the accumulated weight and sum are those of the exact program up to the error `g` -/
structure AccClose (g M : ℚ) (wo' wo : ℚ) (acc' acc : V) : Prop where
  nonneg : 0 ≤ wo
  weight : |wo' - wo| ≤ g * wo
  sum : ∃ s' s, acc' = some s' ∧ acc = some s ∧ |s' - s| ≤ g * (M * wo) ∧ |s| ≤ M * wo

omit R in
theorem AccClose.weaken {g h M wo' wo : ℚ} {acc' acc : V} (a : AccClose g M wo' wo acc' acc) (hM : 0 ≤ M) (hgh : g ≤ h) : AccClose h M wo' wo acc' acc := by
  obtain ⟨s', s, e1, e2, h1, h2⟩ := a.sum
  refine ⟨a.nonneg, a.weight.trans (mul_le_mul_of_nonneg_right hgh a.nonneg), s', s, e1, e2, h1.trans (mul_le_mul_of_nonneg_right hgh ?_), h2⟩
  exact mul_nonneg hM a.nonneg

/-- one more input cell -/
theorem AccClose.step {g M wo' wo : ℚ} {acc' acc : V} (a : AccClose g M wo' wo acc' acc) (hM : 0 ≤ M) (e d d' x : ℚ) (he : 0 ≤ e) (hd : 0 ≤ d)
    (hd' : |d' - d| ≤ e * d) (hx : |x| ≤ M) (hg : (1 + e) * (1 + u) - 1 ≤ g) :
    AccClose ((1 + g) * (1 + u) - 1) M (fl (wo' + d')) (wo + d) (flV fl (add acc' (flV fl (mul (some x) (some d'))))) (add acc (mul (some x) (some d))) := by
  obtain ⟨s', s, e1, e2, h1, h2⟩ := a.sum
  have hu := R.nonneg
  have heg : e ≤ g := by nlinarith
  have hxd : |x * d| ≤ M * d := by
    rw [abs_mul, abs_of_nonneg hd]; exact mul_le_mul_of_nonneg_right hx hd
  have hxd' : |x * d' - x * d| ≤ e * (M * d) := by
    rw [← mul_sub, abs_mul]
    calc |x| * |d' - d| ≤ M * (e * d) := mul_le_mul hx hd' (abs_nonneg _) hM
      _ = e * (M * d) := by ring
  have hMd : 0 ≤ M * d := mul_nonneg hM hd
  have ht : |fl (x * d') - x * d| ≤ g * (M * d) := (fl_close R hxd' hxd).trans (mul_le_mul_of_nonneg_right hg hMd)
  refine ⟨add_nonneg a.nonneg hd, ?_, fl (s' + fl (x * d')), s + x * d, ?_, ?_, ?_, ?_⟩
  · refine fl_close R ?_ (le_of_eq (abs_of_nonneg (add_nonneg a.nonneg hd)))
    have : wo' + d' - (wo + d) = (wo' - wo) + (d' - d) := by ring
    rw [this]
    refine (abs_add_le _ _).trans ?_
    have := mul_le_mul_of_nonneg_right heg hd
    linarith [a.weight, mul_add g wo d]
  · rw [e1]; rfl
  · rw [e2]; rfl
  · refine fl_close R ?_ ?_
    · have : s' + fl (x * d') - (s + x * d) = (s' - s) + (fl (x * d') - x * d) := by ring
      rw [this]
      refine (abs_add_le _ _).trans ?_
      have e3 : g * (M * (wo + d)) = g * (M * wo) + g * (M * d) := by ring
      rw [e3]
      linarith
    · refine (abs_add_le _ _).trans ?_
      rw [mul_add]
      linarith
  · refine (abs_add_le _ _).trans ?_
    rw [mul_add]
    linarith

/-- the error of the weight of an input cell -/
theorem caStepF_close (hu1 : u ≤ 1 / 8) (conserv : Bool) (b0 b1 o0 o1 : ℚ) (h01 : o0 < o1) (hd : 0 ≤ min b1 o1 - max b0 o0) :
    |caStepF fl conserv b0 b1 o0 o1 - (if conserv ∧ b0 ≠ b1 then (min b1 o1 - max b0 o0) / (o1 - o0) else min b1 o1 - max b0 o0)| ≤
      ((1 + u) * (1 + u) / (1 - u) - 1) * (if conserv ∧ b0 ≠ b1 then (min b1 o1 - max b0 o0) / (o1 - o0) else min b1 o1 - max b0 o0) := by
  have hu := R.nonneg
  have h1u : 0 < 1 - u := by linarith
  have hue : u ≤ (1 + u) * (1 + u) / (1 - u) - 1 := by
    rw [le_sub_iff_add_le, le_div_iff₀ h1u]; nlinarith
  unfold caStepF
  generalize min b1 o1 - max b0 o0 = d at *
  split
  · have hD : 0 < o1 - o0 := by linarith
    generalize o1 - o0 = D at *
    obtain ⟨a, ha, e1⟩ := R.delta d
    obtain ⟨c, hc, e2⟩ := R.delta D
    obtain ⟨b, hb, e3⟩ := R.delta (fl d / fl D)
    rw [e3, e1, e2]
    have ha := abs_le.1 ha
    have hb := abs_le.1 hb
    have hc := abs_le.1 hc
    have hc1 : 0 < 1 + c := by linarith
    have e : d * (1 + a) / (D * (1 + c)) * (1 + b) - d / D = ((1 + a) * (1 + b) / (1 + c) - 1) * (d / D) := by
      field_simp
    rw [e, abs_mul, abs_of_nonneg (div_nonneg hd hD.le)]
    refine mul_le_mul_of_nonneg_right ?_ (div_nonneg hd hD.le)
    have hup : (1 + a) * (1 + b) / (1 + c) ≤ (1 + u) * (1 + u) / (1 - u) :=
      div_le_div₀ (by positivity) (mul_le_mul (by linarith) (by linarith) (by linarith) (by linarith)) h1u (by linarith)
    have hlo : (1 - u) * (1 - u) / (1 + u) ≤ (1 + a) * (1 + b) / (1 + c) :=
      div_le_div₀ (mul_nonneg (by linarith) (by linarith)) (mul_le_mul (by linarith) (by linarith) (by linarith) (by linarith)) hc1 (by linarith)
    have hsum : 2 ≤ (1 + u) * (1 + u) / (1 - u) + (1 - u) * (1 - u) / (1 + u) := by
      rw [div_add_div _ _ h1u.ne' (by linarith), le_div_iff₀ (by nlinarith)]
      nlinarith [mul_nonneg hu hu]
    rw [abs_le]
    constructor <;> linarith
  · exact (R.err d).trans (by rw [abs_of_nonneg hd]; exact mul_le_mul_of_nonneg_right hue hd)

/-- the rounded inner loop follows the exact one: same breaks, and the sums accumulate at most one error for each input cell -/
theorem caInnerF_close (hu1 : u ≤ 1 / 8) (conserv : Bool) (ex : CExtrap) (nyi : Nat) (yib : Nat → ℚ) (v : Nat → V) (o0 o1 M : ℚ) (hM : 0 ≤ M)
    (hm : Monotone yib) (h01 : o0 < o1) :
    ∀ (l : List Nat), (∀ i ∈ l, ∀ x, v i = some x → |x| ≤ M) → ∀ (g : ℚ) (iyi0 : Nat) (wo' wo : ℚ) (acc' acc : V),
      (1 + u) * (1 + u) / (1 - u) * (1 + u) - 1 ≤ g → AccClose g M wo' wo acc' acc →
      let r' := caInnerF fl conserv ex nyi yib v v o0 o1 l iyi0 wo' acc'
      let r := caInner conserv ex nyi yib v v o0 o1 l iyi0 wo acc
      r'.1 = r.1 ∧ AccClose ((1 + g) * (1 + u) ^ l.length - 1) M r'.2.1 r.2.1 r'.2.2 r.2.2 := by
  have hu := R.nonneg
  have h1u : 0 < 1 - u := by linarith
  intro l
  induction l with
  | nil =>
    intro _ g iyi0 wo' wo acc' acc _ ha
    refine ⟨rfl, ?_⟩
    have : (1 + g) * (1 + u) ^ ([] : List Nat).length - 1 = g := by simp
    rw [this]
    exact ha
  | cons i l ih =>
    intro hv g iyi0 wo' wo acc' acc hg ha
    have ih := ih (fun j hj => hv j (List.mem_cons_of_mem _ hj))
    have hg0 : 0 ≤ g := by
      refine le_trans ?_ hg
      have : 1 ≤ (1 + u) * (1 + u) / (1 - u) := by rw [le_div_iff₀ h1u]; nlinarith
      nlinarith
    have hlen : (i :: l).length = l.length + 1 := rfl
    have hpow : 1 ≤ (1 + u) ^ l.length := one_le_pow₀ (by linarith)
    have hgl : (1 + g) * (1 + u) ^ l.length - 1 ≤ (1 + g) * (1 + u) ^ (i :: l).length - 1 := by
      rw [hlen, pow_succ]
      have : 0 ≤ (1 + g) * (1 + u) ^ l.length := by positivity
      nlinarith
    have hgg : g ≤ (1 + g) * (1 + u) ^ (i :: l).length - 1 := by
      have : 1 ≤ (1 + u) ^ (i :: l).length := one_le_pow₀ (by linarith)
      nlinarith
    have hstep : (1 + ((1 + g) * (1 + u) - 1)) * (1 + u) ^ l.length - 1 = (1 + g) * (1 + u) ^ (i :: l).length - 1 := by
      rw [hlen, pow_succ]; ring
    have hgs : g ≤ (1 + g) * (1 + u) - 1 := by nlinarith
    simp only [caInnerF, caInner]
    by_cases h1 : caLo ex yib o0 i > o1
    · rw [if_pos h1, if_pos h1]
      exact ⟨rfl, ha.weaken hM hgg⟩
    · rw [if_neg h1, if_neg h1]
      by_cases h2 : caHi ex nyi yib o1 i < o0
      · rw [if_pos h2, if_pos h2]
        obtain ⟨q1, q2⟩ := ih g (i + 1) wo' wo acc' acc hg ha
        exact ⟨q1, q2.weaken hM hgl⟩
      · rw [if_neg h2, if_neg h2]
        have hpos : 0 ≤ min (caHi ex nyi yib o1 i) o1 - max (caLo ex yib o0 i) o0 := by
          have hle := caLo_le_caHi ex nyi yib o0 o1 hm h01 i
          rw [sub_nonneg]
          apply max_le <;> apply le_min
          · exact hle
          · exact not_lt.1 h1
          · exact not_lt.1 h2
          · exact le_of_lt h01
        have hclose := caStepF_close R hu1 conserv (caLo ex yib o0 i) (caHi ex nyi yib o1 i) o0 o1 h01 hpos
        have hwpos : 0 ≤ (if conserv = true ∧ caLo ex yib o0 i ≠ caHi ex nyi yib o1 i then
              (min (caHi ex nyi yib o1 i) o1 - max (caLo ex yib o0 i) o0) / (o1 - o0)
            else min (caHi ex nyi yib o1 i) o1 - max (caLo ex yib o0 i) o0) := by
          split
          · exact div_nonneg hpos (by linarith)
          · exact hpos
        generalize (if conserv = true ∧ caLo ex yib o0 i ≠ caHi ex nyi yib o1 i then
              (min (caHi ex nyi yib o1 i) o1 - max (caLo ex yib o0 i) o0) / (o1 - o0)
            else min (caHi ex nyi yib o1 i) o1 - max (caLo ex yib o0 i) o0) = d at *
        generalize caStepF fl conserv (caLo ex yib o0 i) (caHi ex nyi yib o1 i) o0 o1 = d' at *
        have hnew : AccClose ((1 + g) * (1 + u) - 1) M (if isnan (v i) = true then wo' else fl (wo' + d')) (if isnan (v i) = true then wo else wo + d)
            (if isnan (v i) = true then acc' else flV fl (add acc' (flV fl (mul (v i) (some d')))))
            (if isnan (v i) = true then acc else add acc (mul (v i) (some d))) := by
          cases hvi : v i with
          | none => simpa using ha.weaken hM hgs
          | some x =>
            have he : 0 ≤ (1 + u) * (1 + u) / (1 - u) - 1 := by
              rw [sub_nonneg, le_div_iff₀ h1u]; nlinarith
            have := ha.step R hM ((1 + u) * (1 + u) / (1 - u) - 1) d d' x he hwpos hclose (hv i (by simp) x hvi) (by
              rw [show 1 + ((1 + u) * (1 + u) / (1 - u) - 1) = (1 + u) * (1 + u) / (1 - u) by ring]; exact hg)
            simpa using this
        by_cases h3 : caHi ex nyi yib o1 i ≥ o1
        · rw [if_pos h3, if_pos h3]
          refine ⟨rfl, hnew.weaken hM ?_⟩
          rw [← hstep]
          have : 0 ≤ 1 + ((1 + g) * (1 + u) - 1) := by linarith
          nlinarith
        · rw [if_neg h3, if_neg h3]
          obtain ⟨q1, q2⟩ := ih ((1 + g) * (1 + u) - 1) iyi0 _ _ _ _ (hg.trans hgs) hnew
          rw [hstep] at q2
          exact ⟨q1, q2⟩

/-- what one output cell of the rounded program holds: computed from a weight and a sum that are close to the exact ones -/
def CellF (fl : ℚ → ℚ) (G M : ℚ) (conserv : Bool) (ex : CExtrap) (nyi : Nat) (yib : Nat → ℚ) (v : Nat → V) (o0 o1 : ℚ) (x : V) : Prop :=
  if o0 = o1 then x = some 0 else
    ∃ (wo' : ℚ) (acc' : V), AccClose G M wo' (∑ k ∈ range nyi, okv (v k) * caW conserv ex nyi yib o0 o1 k) acc'
        (some (∑ k ∈ range nyi, zv (v k) * caW conserv ex nyi yib o0 o1 k)) ∧
      x = if conserv then acc' else if wo' ≠ 0 then flV fl (div acc' (some wo')) else none

theorem caCellsF_spec (hu1 : u ≤ 1 / 8) (conserv : Bool) (ex : CExtrap) (nyi : Nat) (yib yob : Nat → ℚ) (v : Nat → V) (ix : Nat) (M : ℚ) (hM : 0 ≤ M)
    (hv : ∀ i : Nat, i < nyi → ∀ x, v i = some x → |x| ≤ M) (hm : Monotone yib) (ho : Monotone yob) :
    ∀ (m k iyi0 : Nat) (varo : Nat → Nat → V), iyi0 ≤ nyi →
      (∀ k' i, k ≤ k' → i < iyi0 → caHi ex nyi yib (yob (k' + 1)) i < yob k') →
      (∀ k', k ≤ k' → k' < k + m → varo ix k' = some 0) →
      ∀ i j, if i = ix ∧ k ≤ j ∧ j < k + m then
          CellF fl ((1 + u) * (1 + u) / (1 - u) * (1 + u) * (1 + u) ^ nyi - 1) M conserv ex nyi yib v (yob j) (yob (j + 1))
            (caCellsF fl conserv ex nyi yib yob v v ix ix (List.range' k m) iyi0 varo i j)
        else caCellsF fl conserv ex nyi yib yob v v ix ix (List.range' k m) iyi0 varo i j = varo i j := by
  have hu := R.nonneg
  have h1u : 0 < 1 - u := by linarith
  have hq1 : 1 ≤ (1 + u) * (1 + u) / (1 - u) := by rw [le_div_iff₀ h1u]; nlinarith
  have hg0 : 0 ≤ (1 + u) * (1 + u) / (1 - u) * (1 + u) - 1 := by nlinarith
  intro m
  induction m with
  | zero =>
    intro k iyi0 varo _ _ _ i j
    rw [if_neg (by omega)]; rfl
  | succ m ih =>
    intro k iyi0 varo hi0 hskip hz i j
    rw [List.range'_succ]
    simp only [caCellsF]
    have hle : yob k ≤ yob (k + 1) := ho (Nat.le_succ k)
    by_cases he : yob k = yob (k + 1)
    · rw [if_pos he]
      have := ih (k + 1) iyi0 varo hi0 (fun k' i a b => hskip k' i (by omega) b)
        (fun k' a b => hz k' (by omega) (by omega)) i j
      by_cases hj : i = ix ∧ k ≤ j ∧ j < k + (m + 1)
      · rw [if_pos hj]
        by_cases hjk : j = k
        · subst hjk
          rw [if_neg (by omega)] at this
          rw [this, hj.1, hz j (le_refl _) (by omega)]
          unfold CellF
          rw [if_pos he]
        · rw [if_pos ⟨hj.1, by omega, by omega⟩] at this
          exact this
      · rw [if_neg hj]
        rw [if_neg (by omega)] at this
        exact this
    · rw [if_neg he]
      have h01 : yob k < yob (k + 1) := lt_of_le_of_ne hle he
      obtain ⟨ha, hb, hc, hd⟩ := caInner_spec conserv ex nyi yib v (yob k) (yob (k + 1)) hm h01
        (nyi - iyi0) iyi0 iyi0 0 0 (by omega) (le_refl _) (fun k' hk' => Or.inl hk')
        (fun k' hk' => hskip k k' (le_refl _) hk')
      obtain ⟨h1, hA⟩ := caInnerF_close R hu1 conserv ex nyi yib v (yob k) (yob (k + 1)) M hM hm h01
        (List.range' iyi0 (nyi - iyi0)) (fun i hi => hv i (by rw [List.mem_range'_1] at hi; omega))
        ((1 + u) * (1 + u) / (1 - u) * (1 + u) - 1) iyi0 0 0 (some 0) (some 0) le_rfl
        ⟨le_rfl, by simp, 0, 0, rfl, rfl, by simp, by simp⟩
      rw [hz k (le_refl _) (by omega)]
      generalize caInner conserv ex nyi yib v v (yob k) (yob (k + 1)) (List.range' iyi0 (nyi - iyi0)) iyi0 0 (some 0)
        = r at *
      generalize caInnerF fl conserv ex nyi yib v v (yob k) (yob (k + 1)) (List.range' iyi0 (nyi - iyi0)) iyi0 0 (some 0)
        = r' at *
      have hw0 : ∀ k', k' < iyi0 → caW conserv ex nyi yib (yob k) (yob (k + 1)) k' = 0 :=
        fun k' hk' => caW_zero_of_hi conserv ex nyi yib _ _ k' (hskip k k' (le_refl _) hk')
      rw [sum_skip nyi iyi0 hi0 _ _ hw0] at ha hb
      rw [zero_add] at ha hb
      rw [ha, hb] at hA
      have hA := hA.weaken (h := (1 + u) * (1 + u) / (1 - u) * (1 + u) * (1 + u) ^ nyi - 1) hM (by
        rw [List.length_range', add_sub_cancel]
        have : (1 + u) ^ (nyi - iyi0) ≤ (1 + u) ^ nyi := pow_le_pow_right₀ (by linarith) (by omega)
        have h2 := mul_le_mul_of_nonneg_left this (by linarith : 0 ≤ (1 + u) * (1 + u) / (1 - u) * (1 + u))
        linarith)
      -- the value of this cell
      obtain ⟨x, hx⟩ : ∃ x : V, x = if conserv then r'.2.2 else if r'.2.1 ≠ 0 then flV fl (div r'.2.2 (some r'.2.1)) else none := ⟨_, rfl⟩
      have hcell : CellF fl ((1 + u) * (1 + u) / (1 - u) * (1 + u) * (1 + u) ^ nyi - 1) M conserv ex nyi yib v (yob k) (yob (k + 1)) x := by
        unfold CellF
        rw [if_neg he]
        exact ⟨r'.2.1, r'.2.2, hA, hx⟩
      have hnew : ∀ varo' : Nat → Nat → V, (∀ i j, varo' i j = if i = ix ∧ j = k then x else varo i j) →
          if i = ix ∧ k ≤ j ∧ j < k + (m + 1) then
            CellF fl ((1 + u) * (1 + u) / (1 - u) * (1 + u) * (1 + u) ^ nyi - 1) M conserv ex nyi yib v (yob j) (yob (j + 1))
              (caCellsF fl conserv ex nyi yib yob v v ix ix (List.range' (k + 1) m) r'.1 varo' i j)
          else caCellsF fl conserv ex nyi yib yob v v ix ix (List.range' (k + 1) m) r'.1 varo' i j = varo i j := by
        intro varo' hv'
        rw [h1]
        have := ih (k + 1) r.1 varo' hc ?_ ?_ i j
        · by_cases hj : i = ix ∧ k ≤ j ∧ j < k + (m + 1)
          · rw [if_pos hj]
            by_cases hjk : j = k
            · subst hjk
              rw [if_neg (by omega), hv', if_pos ⟨hj.1, rfl⟩] at this
              rw [this]
              exact hcell
            · rw [if_pos ⟨hj.1, by omega, by omega⟩] at this
              exact this
          · rw [if_neg hj]
            rw [if_neg (by omega), hv', if_neg (by omega)] at this
            exact this
        · intro k' i' hk' hi'
          have h1 := hd i' hi'
          have h2 : yob (k + 1) ≤ yob k' := ho hk'
          have hlt1 : yib (i' + 1) < yob k := by
            refine lt_of_le_of_lt ?_ h1
            unfold caHi; split
            · next h => exact le_of_lt h.2.2
            · exact le_refl _
          by_cases hx : (ex = .above ∨ ex = .both) ∧ i' + 1 = nyi
          · exfalso
            unfold caHi at h1
            rw [if_pos ⟨hx.1, hx.2, by linarith⟩] at h1
            linarith
          · unfold caHi
            rw [if_neg (fun h => hx ⟨h.1, h.2.1⟩)]
            linarith
        · intro k' a b
          rw [hv', if_neg (by omega)]
          exact hz k' (by omega) (by omega)
      apply hnew
      intro i' j'
      rw [hx]
      cases conserv with
      | true => simp [upd2]
      | false =>
        simp only [Bool.false_eq_true, if_false]
        split
        · by_cases hij : i' = ix ∧ j' = k
          · simp [upd2, hij]
          · simp [upd2, hij]
        · by_cases hij : i' = ix ∧ j' = k
          · simp [upd2, hij]
          · simp [upd2, hij]

theorem cellave1dF_get (hu1 : u ≤ 1 / 8) (vari : NMat V) (yib yob : NMat ℚ) (conserv : Bool) (ex : CExtrap) (hg : CellGrid vari yib yob)
    (ix k : Nat) (hix : ix < vari.nx) (hk : k < yob.ny - 1) (M : ℚ) (hM : 0 ≤ M)
    (hv : ∀ (r i : Nat), r < vari.nx → i < vari.ny → ∀ x, vari.get r i = some x → |x| ≤ M) :
    CellF fl ((1 + u) * (1 + u) / (1 - u) * (1 + u) * (1 + u) ^ vari.ny - 1) M conserv ex vari.ny (clampTo vari.ny (yib.get (ix % yib.nx))) (vari.get ix)
      (yob.get (ix % yob.nx) k) (yob.get (ix % yob.nx) (k + 1)) ((cellave1dF fl vari yib yob conserv ex).get ix k) := by
  have key : ∀ n, n ≤ vari.nx → ∀ ix' k' : Nat, ∀ x : V, x =
      (List.range n).foldl (fun varo ix =>
        caCellsF fl conserv ex vari.ny (yib.get (min (yib.nx - 1) (ix % yib.nx)))
          (yob.get (min (yob.nx - 1) (ix % yob.nx))) (vari.get ix)
          (vari.get (min (vari.nx - 1) (ix % vari.nx))) ix (min (vari.nx - 1) (ix % vari.nx))
          (List.range (yob.ny - 1)) 0 varo) (fun _ _ => some 0) ix' k' →
      if ix' < n ∧ k' < yob.ny - 1 then
        CellF fl ((1 + u) * (1 + u) / (1 - u) * (1 + u) * (1 + u) ^ vari.ny - 1) M conserv ex vari.ny (clampTo vari.ny (yib.get (ix' % yib.nx))) (vari.get ix')
          (yob.get (ix' % yob.nx) k') (yob.get (ix' % yob.nx) (k' + 1)) x else x = some 0 := by
    intro n
    induction n with
    | zero => intro _ ix' k' x hx; simpa using hx
    | succ n ih =>
      intro hn ix' k' x hx
      rw [List.range_succ, List.foldl_append] at hx
      simp only [List.foldl_cons, List.foldl_nil] at hx
      have ih := ih (by omega)
      generalize (List.range n).foldl _ _ = varo0 at ih hx
      have e1 : min (vari.nx - 1) (n % vari.nx) = n := by
        rw [Nat.mod_eq_of_lt (by omega)]; omega
      have e2 : min (yib.nx - 1) (n % yib.nx) = n % yib.nx := by
        have := Nat.mod_lt n hg.nxib; omega
      have e3 : min (yob.nx - 1) (n % yob.nx) = n % yob.nx := by
        have := Nat.mod_lt n hg.nxo; omega
      rw [e1, e2, e3] at hx
      rw [caCellsF_congr fl conserv ex vari.ny (yob.ny - 1) (yib.get (n % yib.nx))
        (clampTo vari.ny (yib.get (n % yib.nx))) (yob.get (n % yob.nx))
        (clampTo (yob.ny - 1) (yob.get (n % yob.nx))) _ _ n n
        (fun i hi => (clampTo_eq _ _ i hi).symm) (fun i hi => (clampTo_eq _ _ i hi).symm)
        _ (by intro i hi; exact List.mem_range.1 hi)] at hx
      rw [List.range_eq_range'] at hx
      have h := caCellsF_spec R hu1 conserv ex vari.ny _ _ (vari.get n) n M hM (fun i hi => hv n i (by omega) hi)
        (clampTo_mono _ _ (fun i hi => hg.asci (n % yib.nx) i (Nat.mod_lt _ hg.nxib) hi))
        (clampTo_mono _ _ (fun i hi => hg.asco (n % yob.nx) i (Nat.mod_lt _ hg.nxo) hi))
        (yob.ny - 1) 0 0 varo0 (Nat.zero_le _) (by intro _ _ _ h; omega)
        (by intro k' _ hk'; have := ih n k' _ rfl; rwa [if_neg (by omega)] at this) ix' k'
      rw [← hx] at h
      by_cases hc : ix' = n
      · subst hc
        by_cases hk' : k' < yob.ny - 1
        · rw [if_pos ⟨rfl, Nat.zero_le _, by omega⟩] at h
          rw [if_pos ⟨by omega, hk'⟩]
          rwa [clampTo_eq _ _ k' (by omega), clampTo_eq _ _ (k' + 1) (by omega)] at h
        · rw [if_neg (by omega)] at h
          rw [if_neg (by omega), h]
          have := ih ix' k' _ rfl
          rwa [if_neg (by omega)] at this
      · rw [if_neg (by omega)] at h
        have := ih ix' k' _ rfl
        rw [← h] at this
        by_cases hk' : ix' < n ∧ k' < yob.ny - 1
        · rw [if_pos hk'] at this
          rw [if_pos ⟨by omega, hk'.2⟩]
          exact this
        · rw [if_neg hk'] at this
          rw [if_neg (by omega)]
          exact this
  have h := key vari.nx le_rfl ix k _ rfl
  rw [if_pos ⟨hix, hk⟩] at h
  have hnx : max vari.nx yob.nx = vari.nx := max_eq_left hg.nxi
  unfold cellave1dF
  simp only [hnx]
  exact h


omit R in
/-- a cell of no width -/
theorem CellF.empty {fl : ℚ → ℚ} {G M : ℚ} {conserv : Bool} {ex : CExtrap} {n : Nat} {yib : Nat → ℚ} {v : Nat → V} {o0 o1 : ℚ} {x : V}
    (h : CellF fl G M conserv ex n yib v o0 o1 x) (he : o0 = o1) : x = some 0 := by
  unfold CellF at h
  rwa [if_pos he] at h

/-- `n + 3` roundings, and a quotient -/
theorem growth (n : Nat) (hn : ((n : ℚ) + 4) * u ≤ 1 / 8) :
    (1 + u) * (1 + u) / (1 - u) * (1 + u) * (1 + u) ^ n - 1 ≤ 8 / 7 * (((n : ℚ) + 4) * u) := by
  have hu := R.nonneg
  have hb : ∀ k : Nat, (k : ℚ) * u ≤ 1 → (1 + u) ^ k * (1 - k * u) ≤ 1 := by
    intro k
    induction k with
    | zero => intro _; simp
    | succ k ih =>
      intro hk
      push_cast at hk ⊢
      have ih := ih (by linarith)
      have hp : 0 ≤ (1 + u) ^ k := by positivity
      have e : (1 + u) ^ (k + 1) * (1 - ((k : ℚ) + 1) * u) = (1 + u) ^ k * (1 - k * u) - (1 + u) ^ k * (((k : ℚ) + 1) * u * u) := by ring
      rw [e]
      have : 0 ≤ (1 + u) ^ k * (((k : ℚ) + 1) * u * u) := by positivity
      linarith
  have hn4 : 4 * u ≤ ((n : ℚ) + 4) * u := by
    have : (0 : ℚ) ≤ n := Nat.cast_nonneg n
    nlinarith
  have h1u : 0 < 1 - u := by linarith
  have hnu : (0 : ℚ) ≤ n * u := by positivity
  have h := hb (n + 3) (by push_cast; linarith [add_mul (n : ℚ) 4 u, add_mul (n : ℚ) 3 u])
  push_cast at h
  have e : (1 + u) * (1 + u) / (1 - u) * (1 + u) * (1 + u) ^ n = (1 + u) ^ (n + 3) / (1 - u) := by
    rw [pow_add]; field_simp
  rw [e]
  have hX : 1 ≤ (1 + u) ^ (n + 3) := one_le_pow₀ (by linarith)
  generalize (1 + u) ^ (n + 3) = X at *
  have h3 : X / (1 - u) * (1 - ((n : ℚ) + 4) * u) ≤ 1 := by
    rw [div_mul_eq_mul_div, div_le_one h1u]
    have h4 : 0 < 1 - ((n : ℚ) + 3) * u := by linarith [add_mul (n : ℚ) 4 u, add_mul (n : ℚ) 3 u]
    have h5 : 1 - ((n : ℚ) + 4) * u ≤ (1 - ((n : ℚ) + 3) * u) * (1 - u) := by
      nlinarith [mul_nonneg hnu hu, mul_nonneg hu hu]
    calc X * (1 - ((n : ℚ) + 4) * u) ≤ X * ((1 - ((n : ℚ) + 3) * u) * (1 - u)) := mul_le_mul_of_nonneg_left h5 (by linarith)
      _ = (X * (1 - ((n : ℚ) + 3) * u)) * (1 - u) := by ring
      _ ≤ 1 * (1 - u) := mul_le_mul_of_nonneg_right h h1u.le
      _ = 1 - u := one_mul _
  have hY : 0 ≤ X / (1 - u) := div_nonneg (by linarith) h1u.le
  generalize X / (1 - u) = Y at *
  generalize ((n : ℚ) + 4) * u = t at *
  -- Y (1 - t) ≤ 1, t ≤ 1/8
  nlinarith

omit R in
/-- the weights of a cell: nothing else than the covered lengths -/
theorem sum_caW (conserv : Bool) (ex : CExtrap) (n : Nat) (yib : Nat → ℚ) (o0 o1 : ℚ) (f : Nat → ℚ) :
    ∑ i ∈ range n, f i * caW conserv ex n (clampTo n yib) o0 o1 i =
      (∑ i ∈ range n, f i * cellOverlap ex n yib o0 o1 i) / (if conserv then o1 - o0 else 1) := by
  rw [Finset.sum_div]
  apply Finset.sum_congr rfl
  intro i hi
  rw [caW_eq, cellOverlap_clamp _ _ _ _ _ _ (mem_range.1 hi), mul_div_assoc]

/-- **C209** (conservative): in floating-point arithmetic, each output cell of positive width holds the sum of the valid inputs weighted by the fraction of the cell that they cover,
up to `2 (n + 4) u` times the largest input times the covered fraction, for `n` input cells. -/
theorem C209_conserv (vari : NMat V) (yib yob : NMat ℚ) (ex : CExtrap) (hg : CellGrid vari yib yob)
    (ix k : Nat) (hix : ix < vari.nx) (hk : k < yob.ny - 1) (hw : yob.get (ix % yob.nx) k < yob.get (ix % yob.nx) (k + 1))
    (M : ℚ) (hM : 0 ≤ M) (hv : ∀ (r i : Nat), r < vari.nx → i < vari.ny → ∀ x, vari.get r i = some x → |x| ≤ M)
    (hn : ((vari.ny : ℚ) + 4) * u ≤ 1 / 8) :
    let o0 := yob.get (ix % yob.nx) k
    let o1 := yob.get (ix % yob.nx) (k + 1)
    let w := cellOverlap ex vari.ny (yib.get (ix % yib.nx)) o0 o1
    ∃ s : ℚ, (cellave1dF fl vari yib yob true ex).get ix k = some s ∧
      |s - (∑ i ∈ range vari.ny, zv (vari.get ix i) * w i) / (o1 - o0)| ≤
        2 * ((vari.ny : ℚ) + 4) * u * M * ((∑ i ∈ range vari.ny, okv (vari.get ix i) * w i) / (o1 - o0)) := by
  intro o0 o1 w
  have hu := R.nonneg
  have hu1 : u ≤ 1 / 8 := by
    have : (0 : ℚ) ≤ vari.ny := Nat.cast_nonneg _
    nlinarith
  have hG := growth R vari.ny hn
  have h := cellave1dF_get R hu1 vari yib yob true ex hg ix k hix hk M hM hv
  unfold CellF at h
  rw [if_neg (ne_of_lt hw)] at h
  obtain ⟨wo', acc', hA, hx⟩ := h
  rw [if_pos rfl] at hx
  rw [sum_caW, sum_caW, if_pos rfl] at hA
  have hA := hA.weaken hM hG
  obtain ⟨s', s, e1, e2, h1, _⟩ := hA.sum
  refine ⟨s', hx.trans e1, ?_⟩
  rw [← Option.some.inj e2] at h1
  refine h1.trans ?_
  have h0 := mul_nonneg hM hA.nonneg
  generalize (∑ i ∈ range vari.ny, okv (vari.get ix i) * cellOverlap ex vari.ny (yib.get (ix % yib.nx)) (yob.get (ix % yob.nx) k) (yob.get (ix % yob.nx) (k + 1)) i) /
    (yob.get (ix % yob.nx) (k + 1) - yob.get (ix % yob.nx) k) = c at *
  have : 0 ≤ ((vari.ny : ℚ) + 4) * u := by positivity
  calc 8 / 7 * (((vari.ny : ℚ) + 4) * u) * (M * c) ≤ 2 * (((vari.ny : ℚ) + 4) * u) * (M * c) := by nlinarith [mul_nonneg this h0]
    _ = 2 * ((vari.ny : ℚ) + 4) * u * M * c := by ring

/-- **C209** (mean): in floating-point arithmetic, a cell of positive width is missing exactly when no valid input overlaps it, as in exact arithmetic; otherwise
it holds the overlap-weighted mean of the valid inputs up to `3 (n + 5) u` times the largest input, for `n` input cells. -/
theorem C209_mean (vari : NMat V) (yib yob : NMat ℚ) (ex : CExtrap) (hg : CellGrid vari yib yob)
    (ix k : Nat) (hix : ix < vari.nx) (hk : k < yob.ny - 1) (hw : yob.get (ix % yob.nx) k < yob.get (ix % yob.nx) (k + 1))
    (M : ℚ) (hM : 0 ≤ M) (hv : ∀ (r i : Nat), r < vari.nx → i < vari.ny → ∀ x, vari.get r i = some x → |x| ≤ M)
    (hn : ((vari.ny : ℚ) + 4) * u ≤ 1 / 8) :
    let w := cellOverlap ex vari.ny (yib.get (ix % yib.nx)) (yob.get (ix % yob.nx) k) (yob.get (ix % yob.nx) (k + 1))
    let W := ∑ i ∈ range vari.ny, okv (vari.get ix i) * w i
    (W = 0 → (cellave1dF fl vari yib yob false ex).get ix k = none) ∧
    (W ≠ 0 → ∃ r : ℚ, (cellave1dF fl vari yib yob false ex).get ix k = some r ∧
      |r - (∑ i ∈ range vari.ny, zv (vari.get ix i) * w i) / W| ≤ 3 * ((vari.ny : ℚ) + 5) * u * M) := by
  intro w W
  have hu := R.nonneg
  have hny : (0 : ℚ) ≤ vari.ny := Nat.cast_nonneg _
  have hu1 : u ≤ 1 / 8 := by nlinarith
  have hG := growth R vari.ny hn
  have h := cellave1dF_get R hu1 vari yib yob false ex hg ix k hix hk M hM hv
  unfold CellF at h
  rw [if_neg (ne_of_lt hw)] at h
  obtain ⟨wo', acc', hA, hx⟩ := h
  simp only [Bool.false_eq_true, if_false] at hx
  rw [sum_caW, sum_caW] at hA
  simp only [Bool.false_eq_true, if_false, div_one] at hA
  change AccClose _ M wo' W acc' (some (∑ i ∈ range vari.ny, zv (vari.get ix i) * w i)) at hA
  have hA := hA.weaken hM hG
  generalize (∑ i ∈ range vari.ny, zv (vari.get ix i) * w i) = S at *
  generalize W = W at *
  have ht : 0 ≤ ((vari.ny : ℚ) + 4) * u := by positivity
  have h5 : 3 * ((vari.ny : ℚ) + 5) * u * M = (3 * (((vari.ny : ℚ) + 4) * u) + 3 * u) * M := by ring
  rw [h5]
  have hut : 4 * u ≤ ((vari.ny : ℚ) + 4) * u := by nlinarith
  generalize ((vari.ny : ℚ) + 4) * u = t at *
  obtain ⟨s', s, e1, e2, h1, h2⟩ := hA.sum
  have e2 := Option.some.inj e2
  subst e2
  have hwt := hA.weight
  have hW0 := hA.nonneg
  constructor
  · intro hW
    rw [hW, mul_zero] at hwt
    have : wo' = 0 := by
      have := abs_nonpos_iff.1 hwt
      linarith
    rw [hx, this]
    simp
  · intro hW
    have hWp : 0 < W := lt_of_le_of_ne hW0 (Ne.symm hW)
    have hab := abs_le.1 hwt
    have hwlo : 6 / 7 * W ≤ wo' := by nlinarith
    have hwp : 0 < wo' := by linarith
    refine ⟨fl (s' / wo'), ?_, ?_⟩
    · rw [hx, if_pos hwp.ne', e1]
      simp [div, flV, hwp.ne']
    · have hq : |s' / wo' - S / W| ≤ 8 / 3 * t * M := by
        have e : s' / wo' - S / W = ((s' - S) * W - S * (wo' - W)) / (wo' * W) := by
          field_simp; ring
        rw [e, abs_div, abs_of_pos (mul_pos hwp hWp), div_le_iff₀ (mul_pos hwp hWp)]
        have a1 : |(s' - S) * W| ≤ 8 / 7 * t * (M * W) * W := by
          rw [abs_mul, abs_of_pos hWp]; exact mul_le_mul_of_nonneg_right h1 hWp.le
        have a2 : |S * (wo' - W)| ≤ (M * W) * (8 / 7 * t * W) := by
          rw [abs_mul]; exact mul_le_mul h2 hwt (abs_nonneg _) (mul_nonneg hM hWp.le)
        refine (abs_sub _ _).trans ?_
        have a3 : 8 / 3 * t * M * (6 / 7 * W * W) ≤ 8 / 3 * t * M * (wo' * W) :=
          mul_le_mul_of_nonneg_left (mul_le_mul_of_nonneg_right hwlo hWp.le) (by positivity)
        have e3 : 8 / 3 * t * M * (6 / 7 * W * W) = 8 / 7 * t * (M * W) * W + (M * W) * (8 / 7 * t * W) := by ring
        linarith
      have hSM : |S / W| ≤ M := by
        rw [abs_div, abs_of_pos hWp, div_le_iff₀ hWp]; exact h2
      refine (fl_close R hq hSM).trans (mul_le_mul_of_nonneg_right ?_ hM)
      nlinarith

/-- **C209** (no width): a cell of no width holds zero. -/
theorem C209_no_width (vari : NMat V) (yib yob : NMat ℚ) (conserv : Bool) (ex : CExtrap) (hg : CellGrid vari yib yob)
    (ix k : Nat) (hix : ix < vari.nx) (hk : k < yob.ny - 1) (hw : yob.get (ix % yob.nx) k = yob.get (ix % yob.nx) (k + 1))
    (M : ℚ) (hM : 0 ≤ M) (hv : ∀ (r i : Nat), r < vari.nx → i < vari.ny → ∀ x, vari.get r i = some x → |x| ≤ M)
    (hn : ((vari.ny : ℚ) + 4) * u ≤ 1 / 8) :
    (cellave1dF fl vari yib yob conserv ex).get ix k = some 0 := by
  have hu := R.nonneg
  have hu1 : u ≤ 1 / 8 := by
    have : (0 : ℚ) ≤ vari.ny := Nat.cast_nonneg _
    nlinarith
  exact (cellave1dF_get R hu1 vari yib yob conserv ex hg ix k hix hk M hM hv).empty hw

/-- **C209** (same missing points): rounding changes neither which cells are missing nor which hold a value. -/
theorem C209_missing (vari : NMat V) (yib yob : NMat ℚ) (conserv : Bool) (ex : CExtrap) (hg : CellGrid vari yib yob)
    (ix k : Nat) (hix : ix < vari.nx) (hk : k < yob.ny - 1)
    (M : ℚ) (hM : 0 ≤ M) (hv : ∀ (r i : Nat), r < vari.nx → i < vari.ny → ∀ x, vari.get r i = some x → |x| ≤ M)
    (hn : ((vari.ny : ℚ) + 4) * u ≤ 1 / 8) :
    (cellave1dF fl vari yib yob conserv ex).get ix k = none ↔ (cellave1d vari yib yob conserv ex).get ix k = none := by
  rcases eq_or_lt_of_le (hg.asco (ix % yob.nx) k (Nat.mod_lt _ hg.nxo) hk) with he | hlt
  · rw [C209_no_width R vari yib yob conserv ex hg ix k hix hk he M hM hv hn,
      cellave1d_get vari yib yob conserv ex hg.nxi hg.asci hg.asco hg.nxib hg.nxo ix k hix hk]
    unfold caCellSpec
    rw [if_pos he]
  · cases conserv with
    | true =>
      obtain ⟨s, hs, _⟩ := C209_conserv R vari yib yob ex hg ix k hix hk hlt M hM hv hn
      rw [hs, C09_cellave1d_cell vari yib yob ex hg ix k hix hk]
      simp
    | false =>
      have h1 := C209_mean R vari yib yob ex hg ix k hix hk hlt M hM hv hn
      have h2 := C10_cellave1d_mean vari yib yob ex hg ix k hix hk hlt
      dsimp only at h1 h2
      rw [h2]
      by_cases hW : ∑ i ∈ range vari.ny, okv (vari.get ix i) * cellOverlap ex vari.ny (yib.get (ix % yib.nx)) (yob.get (ix % yob.nx) k) (yob.get (ix % yob.nx) (k + 1)) i = 0
      · rw [if_pos hW, h1.1 hW]
      · obtain ⟨r, hr, _⟩ := h1.2 hW
        rw [if_neg hW, hr]
        simp

end

/-- **C209** applies to the types `float64` (up to `2 ^ 50 - 4` input cells) and `float32` (up to `2 ^ 21 - 4` input cells). -/
theorem C209_float64 (n : Nat) :
    (Rounds (rne 53) (1 / 2 ^ 53) ∧ (n + 4 ≤ 2 ^ 50 → ((n : ℚ) + 4) * (1 / 2 ^ 53) ≤ 1 / 8)) ∧
    (Rounds (rne 24) (1 / 2 ^ 24) ∧ (n + 4 ≤ 2 ^ 21 → ((n : ℚ) + 4) * (1 / 2 ^ 24) ≤ 1 / 8)) := by
  refine ⟨⟨rne_rounds 53 (by norm_num), fun h => ?_⟩, ⟨rne_rounds 24 (by norm_num), fun h => ?_⟩⟩
  · have h : ((n + 4 : Nat) : ℚ) ≤ ((2 ^ 50 : Nat) : ℚ) := Nat.cast_le.2 h
    push_cast at h
    norm_num at h ⊢
    linarith
  · have h : ((n + 4 : Nat) : ℚ) ≤ ((2 ^ 21 : Nat) : ℚ) := Nat.cast_le.2 h
    push_cast at h
    norm_num at h ⊢
    linarith

/-! ### a concrete case -/

theorem exCaGrid : CellGrid exCaVar exCaYib exCaYob := by
  refine ⟨by decide, by decide, by decide, ?_, ?_⟩
  · intro r i _ hi
    have : i = 0 ∨ i = 1 ∨ i = 2 := by simp [exCaVar] at hi; omega
    rcases this with h | h | h <;> subst h <;> simp [exCaYib] <;> norm_num
  · intro r i _ hi
    have : i = 0 ∨ i = 1 := by simp [exCaYob] at hi; omega
    rcases this with h | h <;> subst h <;> simp [exCaYob] <;> norm_num

theorem exCaBound : ∀ (r i : Nat), r < exCaVar.nx → i < exCaVar.ny → ∀ x, exCaVar.get r i = some x → |x| ≤ 5 := by
  intro r i _ hi x hx
  have : i = 0 ∨ i = 1 ∨ i = 2 := by simp [exCaVar] at hi; omega
  rcases this with h | h | h <;> subst h <;> simp [exCaVar] at hx <;> subst hx <;> norm_num

-- with 6 bits, the three cells of `exCaVar`: the mean 11/3 is rounded to 59/16, the conservative value 11/5 to 35/16
example : (cellave1dF (rne 6) exCaVar exCaYib exCaYob false .no).get 0 0 = some (59 / 16) := by decide +kernel
example : (cellave1dF (rne 6) exCaVar exCaYib exCaYob true .no).get 0 0 = some (35 / 16) := by decide +kernel
-- the hypotheses of the theorems are met there
example := C209_mean (rne_rounds 6 (by norm_num)) exCaVar exCaYib exCaYob .no exCaGrid 0 0 (by decide) (by decide) (by decide +kernel) 5 (by norm_num) exCaBound
  (by simp [exCaVar]; norm_num)
example := C209_conserv (rne_rounds 6 (by norm_num)) exCaVar exCaYib exCaYob .both exCaGrid 0 1 (by decide) (by decide) (by decide +kernel) 5 (by norm_num) exCaBound
  (by simp [exCaVar]; norm_num)
example := C209_missing (rne_rounds 6 (by norm_num)) exCaVar exCaYib exCaYob true .no exCaGrid 0 1 (by decide) (by decide) 5 (by norm_num) exCaBound
  (by simp [exCaVar]; norm_num)

/-- the mean of equal values may differ from this value: in floating point the bound cannot be zero -/
theorem constF_inexact : ∃ (vari : NMat V) (yib yob : NMat ℚ), (∀ i j : Nat, vari.get i j = some (rne 3 7)) ∧ CellGrid vari yib yob ∧
    (cellave1dF (rne 3) vari yib yob false .no).get 0 0 ≠ some (rne 3 7) := by
  refine ⟨⟨1, 5, fun _ _ => some (rne 3 7)⟩, ⟨1, 6, fun _ j => j⟩, ⟨1, 2, fun _ j => 5 * j⟩, fun _ _ => rfl,
    ⟨by decide, by decide, by decide, ?_, ?_⟩, by decide +kernel⟩
  · intro r i _ _; push_cast; linarith
  · intro r i _ _; push_cast; linarith

end Xoa
