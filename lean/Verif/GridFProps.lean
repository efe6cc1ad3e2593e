import Verif.GridF
import Verif.GridProps

/-!
# C208: the edges in floating-point arithmetic
-/

namespace Xoa

/-- closed form of the edges -/
theorem edges1dF_spec (fl : ℚ → ℚ) (ndim : Nat) (axis : Int) (junk data : List ℚ)
    (hax : -(ndim : Int) ≤ axis ∧ axis < ndim) (hn : 2 ≤ data.length) (hj : junk.length = data.length + 1) :
    ∃ out, edges1dF fl ndim axis junk data = some out ∧ out.length = data.length + 1 ∧
      ∀ i, i < data.length + 1 → out[i]? = some (
        if i = 0 then endEdgeF fl (ctr data 0) (ctr data 1)
        else if i = data.length then endEdgeF fl (ctr data (i - 1)) (ctr data (i - 2))
        else midEdgeF fl (ctr data (i - 1)) (ctr data i)) := by
  obtain ⟨-, -, p1, p2, -, -, p3, p4, p5, -, p6, -⟩ := axisPositions_axis ndim axis data.length hax
  obtain ⟨-, q1, -, -, -, -, q2, q3, -, -, -, -⟩ := axisPositions_axis ndim axis (data.length + 1) hax
  have g1 : ∀ i, i < data.length → gather data [i] = [ctr data i] := by
    intro i hi
    simp [gather, ctr_get data i hi]
  unfold edges1dF colPos
  simp only [p1, p2, p3, p4, p5, p6, q1, q2, q3, if_pos (show 1 ≤ data.length by omega), if_pos hn,
    if_pos (show 1 ≤ data.length + 1 by omega), Option.map_some, Option.bind_eq_bind, Option.bind_some, pure]
  rw [g1 0 (by omega), g1 1 (by omega), g1 (data.length - 1) (by omega), g1 (data.length - 2) (by omega)]
  simp only [List.zipWith_cons_cons, List.zipWith_nil_left]
  have hr : List.range (data.length - 1) = List.range' 0 (data.length - 1) := by rw [List.range_eq_range']
  rw [hr, gather_range' data 0 (data.length - 1) (by omega), gather_range' data 1 (data.length - 1) (by omega)]
  generalize hm : List.zipWith (midEdgeF fl) (List.take (data.length - 1) (List.drop 0 data))
    (List.take (data.length - 1) (List.drop 1 data)) = mid
  have hml : mid.length = data.length - 1 := by rw [← hm]; simp
  have hmg : ∀ k, k < data.length - 1 → mid[k]? = some (midEdgeF fl (ctr data k) (ctr data (k + 1))) := by
    intro k hk
    rw [← hm, List.getElem?_zipWith, List.getElem?_take_of_lt hk, List.getElem?_take_of_lt hk, List.drop_zero,
      List.getElem?_drop, Nat.add_comm 1 k, ctr_get data k (by omega), ctr_get data (k + 1) (by omega)]
  have hone : ∀ (e : List ℚ) (s : Nat) (v : ℚ), scatter e [s] [v] = e.set s v := fun e s v => rfl
  rw [hone, hone]
  have hq : data.length + 1 - 2 = mid.length := by omega
  rw [hq]
  obtain ⟨l1, l2⟩ := scatter_range 1 mid (junk.set 0 (endEdgeF fl (ctr data 0) (ctr data 1))) (by simp; omega)
  refine ⟨_, rfl, by rw [List.length_set, l1, List.length_set, hj], ?_⟩
  intro i hi
  by_cases hlast : i = data.length
  · subst hlast
    rw [if_neg (by omega), if_pos rfl, Nat.add_sub_cancel, List.getElem?_set_self (by rw [l1, List.length_set, hj]; omega)]
  · rw [List.getElem?_set_ne (by omega), l2]
    by_cases h0 : i = 0
    · subst h0
      rw [if_neg (by omega), if_pos rfl, List.getElem?_set_self (by omega)]
    · rw [if_pos (by omega), if_neg h0, if_neg hlast, hmg (i - 1) (by omega), show i - 1 + 1 = i from by omega]

theorem edgesF_at (fl : ℚ → ℚ) (ndim : Nat) (axis : Int) (junk data out : List ℚ)
    (hax : -(ndim : Int) ≤ axis ∧ axis < ndim) (hn : 2 ≤ data.length) (hj : junk.length = data.length + 1)
    (h : edges1dF fl ndim axis junk data = some out) :
    ctr out 0 = endEdgeF fl (ctr data 0) (ctr data 1) ∧
    ctr out data.length = endEdgeF fl (ctr data (data.length - 1)) (ctr data (data.length - 2)) ∧
    ∀ i, 1 ≤ i → i < data.length → ctr out i = midEdgeF fl (ctr data (i - 1)) (ctr data i) := by
  obtain ⟨out', h', hl, hg⟩ := edges1dF_spec fl ndim axis junk data hax hn hj
  rw [h'] at h
  injection h with h
  subst h
  have key : ∀ i, i < data.length + 1 → ctr out' i =
      if i = 0 then endEdgeF fl (ctr data 0) (ctr data 1)
        else if i = data.length then endEdgeF fl (ctr data (i - 1)) (ctr data (i - 2))
        else midEdgeF fl (ctr data (i - 1)) (ctr data i) := by
    intro i hi
    unfold ctr at *
    rw [List.getD_eq_getElem?_getD, hg i hi]
    rfl
  refine ⟨?_, ?_, ?_⟩
  · rw [key 0 (by omega), if_pos rfl]
  · rw [key data.length (by omega), if_neg (by omega), if_pos rfl]
  · intro i h1 h2
    rw [key i (by omega), if_neg (by omega), if_neg (by omega)]

/-! ## One edge -/

section
variable {fl : ℚ → ℚ} (O : Ordered fl)
include O

theorem midEdgeF_eq (a b : ℚ) : midEdgeF fl a b = fl ((a + b) / 2) := by
  unfold midEdgeF
  rw [show (1 : ℚ) / 2 * fl (a + b) = fl (a + b) / 2 by ring, ← O.half, O.idem]

theorem endEdgeF_eq (a b : ℚ) : endEdgeF fl a b = fl (a - fl (b - a) / 2) := by
  unfold endEdgeF
  rw [show fl (b - a) * (1 / 2) = fl (b - a) / 2 by ring, ← O.half, O.idem, O.half]

theorem midEdgeF_between (a b : ℚ) (ha : fl a = a) (hb : fl b = b) (h : a ≤ b) : a ≤ midEdgeF fl a b ∧ midEdgeF fl a b ≤ b := by
  rw [midEdgeF_eq O]
  constructor
  · have := O.mono a ((a + b) / 2) (by linarith)
    rwa [ha] at this
  · have := O.mono ((a + b) / 2) b (by linarith)
    rwa [hb] at this

theorem midEdgeF_comm (a b : ℚ) : midEdgeF fl a b = midEdgeF fl b a := by
  unfold midEdgeF; rw [add_comm]

theorem endEdgeF_le (a b : ℚ) (ha : fl a = a) (h : a ≤ b) : endEdgeF fl a b ≤ a := by
  rw [endEdgeF_eq O]
  have h0 := O.mono 0 (b - a) (by linarith)
  rw [O.zero] at h0
  have := O.mono (a - fl (b - a) / 2) a (by linarith)
  rwa [ha] at this

theorem endEdgeF_ge (a b : ℚ) (ha : fl a = a) (h : b ≤ a) : a ≤ endEdgeF fl a b := by
  rw [endEdgeF_eq O]
  have h0 := O.mono (b - a) 0 (by linarith)
  rw [O.zero] at h0
  have := O.mono a (a - fl (b - a) / 2) (by linarith)
  rwa [ha] at this
end

/-! ## C208 -/

/-- **C208**: whatever the rounding, the edges are `n + 1` values of the type, and they depend neither on the uninitialised memory (`junk`) nor on the
number of dimensions nor on the way the axis is given. -/
theorem C208_values (fl : ℚ → ℚ) (O : Ordered fl) (data : List ℚ) (hn : 2 ≤ data.length) :
    ∃ out : List ℚ, out.length = data.length + 1 ∧ (∀ i : Nat, i < out.length → fl (ctr out i) = ctr out i) ∧
      ∀ (ndim : Nat) (axis : Int) (junk : List ℚ), -(ndim : Int) ≤ axis ∧ axis < ndim → junk.length = data.length + 1 →
        edges1dF fl ndim axis junk data = some out := by
  obtain ⟨out, h, hl, hg⟩ := edges1dF_spec fl 1 0 (List.replicate (data.length + 1) 0) data (by decide) hn (by simp)
  obtain ⟨e0, en, em⟩ := edgesF_at fl 1 0 _ data out (by decide) hn (by simp) h
  refine ⟨out, hl, ?_, ?_⟩
  · intro i hi
    by_cases h0 : i = 0
    · subst h0; rw [e0]; exact O.idem _
    · by_cases h1 : i = data.length
      · subst h1; rw [en]; exact O.idem _
      · rw [em i (by omega) (by omega)]; exact O.idem _
  · intro ndim axis junk hax hj
    obtain ⟨out', h', hl', hg'⟩ := edges1dF_spec fl ndim axis junk data hax hn hj
    rw [h']
    congr 1
    refine List.ext_getElem? (fun i => ?_)
    by_cases hi : i < data.length + 1
    · rw [hg i hi, hg' i hi]
    · rw [List.getElem?_eq_none (by omega), List.getElem?_eq_none (by omega)]

/-- the centres are numbers of the floating-point type -/
def Stored (fl : ℚ → ℚ) (data : List ℚ) : Prop := ∀ i : Nat, i < data.length → fl (ctr data i) = ctr data i

/-- **C208**: however the edges are rounded, the cell `i` of increasing centres contains the centre `i`, and the edges are in increasing order. -/
theorem C208_enclosed (fl : ℚ → ℚ) (O : Ordered fl) (ndim : Nat) (axis : Int) (junk data out : List ℚ)
    (hax : -(ndim : Int) ≤ axis ∧ axis < ndim) (hn : 2 ≤ data.length) (hj : junk.length = data.length + 1)
    (hs : Stored fl data) (hinc : ∀ i : Nat, i + 1 < data.length → ctr data i ≤ ctr data (i + 1))
    (h : edges1dF fl ndim axis junk data = some out) :
    (∀ i : Nat, i < data.length → ctr out i ≤ ctr data i ∧ ctr data i ≤ ctr out (i + 1)) ∧
    (∀ i : Nat, i < data.length → ctr out i ≤ ctr out (i + 1)) := by
  obtain ⟨e0, en, em⟩ := edgesF_at fl ndim axis junk data out hax hn hj h
  have key : ∀ i : Nat, i < data.length → ctr out i ≤ ctr data i ∧ ctr data i ≤ ctr out (i + 1) := by
    intro i hi
    constructor
    · by_cases h0 : i = 0
      · subst h0; rw [e0]; exact endEdgeF_le O _ _ (hs 0 hi) (hinc 0 (by omega))
      · rw [em i (by omega) hi]
        have := hinc (i - 1) (by omega)
        rw [show i - 1 + 1 = i by omega] at this
        exact (midEdgeF_between O _ _ (hs (i - 1) (by omega)) (hs i hi) this).2
    · by_cases h1 : i + 1 = data.length
      · rw [h1, en, show data.length - 1 = i by omega, show data.length - 2 = i - 1 by omega]
        have := hinc (i - 1) (by omega)
        rw [show i - 1 + 1 = i by omega] at this
        exact endEdgeF_ge O _ _ (hs i hi) this
      · rw [em (i + 1) (by omega) (by omega), Nat.add_sub_cancel]
        exact (midEdgeF_between O _ _ (hs i hi) (hs (i + 1) (by omega)) (hinc i (by omega))).1
  exact ⟨key, fun i hi => (key i hi).1.trans (key i hi).2⟩

/-- **C208**: the same for decreasing centres, in decreasing order. -/
theorem C208_enclosed_decreasing (fl : ℚ → ℚ) (O : Ordered fl) (ndim : Nat) (axis : Int) (junk data out : List ℚ)
    (hax : -(ndim : Int) ≤ axis ∧ axis < ndim) (hn : 2 ≤ data.length) (hj : junk.length = data.length + 1)
    (hs : Stored fl data) (hdec : ∀ i : Nat, i + 1 < data.length → ctr data (i + 1) ≤ ctr data i)
    (h : edges1dF fl ndim axis junk data = some out) :
    (∀ i : Nat, i < data.length → ctr out (i + 1) ≤ ctr data i ∧ ctr data i ≤ ctr out i) ∧
    (∀ i : Nat, i < data.length → ctr out (i + 1) ≤ ctr out i) := by
  obtain ⟨e0, en, em⟩ := edgesF_at fl ndim axis junk data out hax hn hj h
  have key : ∀ i : Nat, i < data.length → ctr out (i + 1) ≤ ctr data i ∧ ctr data i ≤ ctr out i := by
    intro i hi
    constructor
    · by_cases h1 : i + 1 = data.length
      · rw [h1, en, show data.length - 1 = i by omega, show data.length - 2 = i - 1 by omega]
        have := hdec (i - 1) (by omega)
        rw [show i - 1 + 1 = i by omega] at this
        exact endEdgeF_le O _ _ (hs i hi) this
      · rw [em (i + 1) (by omega) (by omega), Nat.add_sub_cancel, midEdgeF_comm O]
        exact (midEdgeF_between O _ _ (hs (i + 1) (by omega)) (hs i hi) (hdec i (by omega))).2
    · by_cases h0 : i = 0
      · subst h0; rw [e0]; exact endEdgeF_ge O _ _ (hs 0 hi) (hdec 0 (by omega))
      · rw [em i (by omega) hi, midEdgeF_comm O]
        have := hdec (i - 1) (by omega)
        rw [show i - 1 + 1 = i by omega] at this
        exact (midEdgeF_between O _ _ (hs i hi) (hs (i - 1) (by omega)) this).1
  exact ⟨key, fun i hi => (key i hi).1.trans (key i hi).2⟩

theorem endEdgeF_err {fl : ℚ → ℚ} {u : ℚ} (O : Ordered fl) (R : Rounds fl u) (a b : ℚ) :
    |endEdgeF fl a b - (a - (b - a) / 2)| ≤ u * |a - (b - a) / 2| + u * (1 + u) * |(b - a) / 2| := by
  rw [endEdgeF_eq O]
  have e1 := R.err (a - fl (b - a) / 2)
  have e2 := R.err (b - a)
  have e3 : |fl (b - a) / 2 - (b - a) / 2| ≤ u * |(b - a) / 2| := by
    rw [← sub_div, abs_div, abs_div (b - a), abs_of_pos (by norm_num : (0 : ℚ) < 2)]
    linarith
  have e4 : |a - fl (b - a) / 2| ≤ |a - (b - a) / 2| + u * |(b - a) / 2| := by
    have := abs_sub_abs_le_abs_sub (a - fl (b - a) / 2) (a - (b - a) / 2)
    have e : a - fl (b - a) / 2 - (a - (b - a) / 2) = -(fl (b - a) / 2 - (b - a) / 2) := by ring
    rw [e, abs_neg] at this
    linarith
  have e5 : |fl (a - fl (b - a) / 2) - (a - (b - a) / 2)| ≤
      |fl (a - fl (b - a) / 2) - (a - fl (b - a) / 2)| + |fl (b - a) / 2 - (b - a) / 2| := by
    have := abs_add_le (fl (a - fl (b - a) / 2) - (a - fl (b - a) / 2)) (-(fl (b - a) / 2 - (b - a) / 2))
    rw [abs_neg] at this
    refine le_trans (le_of_eq ?_) this
    congr 1; ring
  have e6 := mul_le_mul_of_nonneg_left e4 R.nonneg
  have : u * (1 + u) * |(b - a) / 2| = u * (u * |(b - a) / 2|) + u * |(b - a) / 2| := by ring
  linarith [e6, mul_add u (|a - (b - a) / 2|) (u * |(b - a) / 2|)]

/-- **C208**: accuracy. An interior edge has a single rounding error, relative to the midpoint; the first and the last edges have one relative to their
exact value and one relative to half of the width of the cell. -/
theorem C208_accurate (fl : ℚ → ℚ) (u : ℚ) (O : Ordered fl) (R : Rounds fl u) (ndim : Nat) (axis : Int) (junk data out : List ℚ)
    (hax : -(ndim : Int) ≤ axis ∧ axis < ndim) (hn : 2 ≤ data.length) (hj : junk.length = data.length + 1)
    (h : edges1dF fl ndim axis junk data = some out) :
    (∀ i : Nat, 1 ≤ i → i < data.length →
      |ctr out i - (ctr data (i - 1) + ctr data i) / 2| ≤ u * |(ctr data (i - 1) + ctr data i) / 2|) ∧
    |ctr out 0 - (ctr data 0 - (ctr data 1 - ctr data 0) / 2)| ≤
      u * |ctr data 0 - (ctr data 1 - ctr data 0) / 2| + u * (1 + u) * |(ctr data 1 - ctr data 0) / 2| ∧
    |ctr out data.length - (ctr data (data.length - 1) + (ctr data (data.length - 1) - ctr data (data.length - 2)) / 2)| ≤
      u * |ctr data (data.length - 1) + (ctr data (data.length - 1) - ctr data (data.length - 2)) / 2| +
        u * (1 + u) * |(ctr data (data.length - 1) - ctr data (data.length - 2)) / 2| := by
  obtain ⟨e0, en, em⟩ := edgesF_at fl ndim axis junk data out hax hn hj h
  refine ⟨fun i h1 h2 => ?_, ?_, ?_⟩
  · rw [em i h1 h2, midEdgeF_eq O]; exact R.err _
  · rw [e0]; exact endEdgeF_err O R _ _
  · rw [en]
    have := endEdgeF_err O R (ctr data (data.length - 1)) (ctr data (data.length - 2))
    have e : ctr data (data.length - 1) - (ctr data (data.length - 2) - ctr data (data.length - 1)) / 2 =
        ctr data (data.length - 1) + (ctr data (data.length - 1) - ctr data (data.length - 2)) / 2 := by ring
    have e' : |(ctr data (data.length - 2) - ctr data (data.length - 1)) / 2| =
        |(ctr data (data.length - 1) - ctr data (data.length - 2)) / 2| := by rw [← abs_neg]; congr 1; ring
    rw [e, e'] at this
    exact this

/-- the values of a list are multiples of `2 ^ e`, with at most `p - 2` bits -/
def Short (p : ℕ) (e : ℤ) (data : List ℚ) : Prop := ∀ i : Nat, i < data.length → ∃ m : ℤ, |m| ≤ 2 ^ (p - 2) ∧ ctr data i = (m : ℚ) * 2 ^ e

/-- **C208**: no rounding error at all for centres that are multiples of the same power of two with two bits to spare (whole numbers, halves, quarters
of degrees...): the edges are the exact ones, so that all that is proved of the exact edges (C15) holds of them. -/
theorem C208_exact (p : ℕ) (hp : 2 ≤ p) (e : ℤ) (ndim : Nat) (axis : Int) (junk data : List ℚ)
    (hax : -(ndim : Int) ≤ axis ∧ axis < ndim) (hn : 2 ≤ data.length) (hj : junk.length = data.length + 1)
    (hs : Short p e data) : edges1dF (rne p) ndim axis junk data = edges1d .float ndim axis junk data := by
  have pow4 : (4 : ℤ) * 2 ^ (p - 2) = 2 ^ p := by
    rw [show (4 : ℤ) = 2 ^ 2 by norm_num, ← pow_add]; congr 1; omega
  have hz : (2 : ℚ) ^ e = 2 * 2 ^ (e - 1) := by
    rw [zpow_sub₀ (by norm_num), zpow_one]; ring
  have fits : ∀ (m : ℤ) (q : ℚ), |m| ≤ 4 * 2 ^ (p - 2) → q = (m : ℚ) * 2 ^ (e - 1) → rne p q = q := by
    intro m q hm hq
    exact rne_fits p (by omega) ⟨m, e - 1, by rw [← pow4]; exact hm, hq⟩
  have two : ∀ (i j : Nat), i < data.length → j < data.length →
      endEdgeF (rne p) (ctr data i) (ctr data j) = ctr data i - (ctr data j - ctr data i) * (1 / 2) ∧
      midEdgeF (rne p) (ctr data i) (ctr data j) = 1 / 2 * (ctr data i + ctr data j) := by
    intro i j hi hj
    obtain ⟨m, hm, e1⟩ := hs i hi
    obtain ⟨k, hk, e2⟩ := hs j hj
    rw [e1, e2]
    have hm := abs_le.1 hm
    have hk := abs_le.1 hk
    have h0 : (0 : ℤ) < 2 ^ (p - 2) := by positivity
    generalize (2 : ℤ) ^ (p - 2) = P at *
    constructor
    · unfold endEdgeF
      rw [fits (2 * (k - m)) ((k : ℚ) * 2 ^ e - m * 2 ^ e) (by rw [abs_le]; constructor <;> omega) (by rw [hz]; push_cast; ring),
        fits (k - m) (((k : ℚ) * 2 ^ e - m * 2 ^ e) * (1 / 2)) (by rw [abs_le]; constructor <;> omega) (by rw [hz]; push_cast; ring),
        fits (2 * m - (k - m)) ((m : ℚ) * 2 ^ e - ((k : ℚ) * 2 ^ e - m * 2 ^ e) * (1 / 2)) (by rw [abs_le]; constructor <;> omega)
          (by rw [hz]; push_cast; ring)]
    · unfold midEdgeF
      rw [fits (2 * (m + k)) ((m : ℚ) * 2 ^ e + k * 2 ^ e) (by rw [abs_le]; constructor <;> omega) (by rw [hz]; push_cast; ring),
        fits (m + k) (1 / 2 * ((m : ℚ) * 2 ^ e + k * 2 ^ e)) (by rw [abs_le]; constructor <;> omega) (by rw [hz]; push_cast; ring)]
  obtain ⟨out, h, hl, hg⟩ := edges1dF_spec (rne p) ndim axis junk data hax hn hj
  obtain ⟨out', h', hl', hg'⟩ := edges1d_spec .float ndim axis junk data hax hn hj
  rw [h, h']
  congr 1
  refine List.ext_getElem? (fun i => ?_)
  by_cases hi : i < data.length + 1
  · rw [hg i hi, hg' i hi]
    congr 1
    unfold DType.store
    by_cases h0 : i = 0
    · rw [if_pos h0, if_pos h0]; exact (two 0 1 (by omega) (by omega)).1
    · rw [if_neg h0, if_neg h0]
      by_cases h1 : i = data.length
      · rw [if_pos h1, if_pos h1]; exact (two (i - 1) (i - 2) (by omega) (by omega)).1
      · rw [if_neg h1, if_neg h1]; exact (two (i - 1) i (by omega) (by omega)).2
  · rw [List.getElem?_eq_none (by omega), List.getElem?_eq_none (by omega)]

/-- the type `float64` -/
theorem fl64_ordered : Ordered fl64 := rne_ordered 53 (by norm_num)

/-- **C208** for the type `float64`: the cells contain their centres. -/
theorem C208_float64 (ndim : Nat) (axis : Int) (junk data out : List ℚ)
    (hax : -(ndim : Int) ≤ axis ∧ axis < ndim) (hn : 2 ≤ data.length) (hj : junk.length = data.length + 1)
    (hs : ∀ i : Nat, i < data.length → ∃ m e : ℤ, |m| ≤ 2 ^ 53 ∧ ctr data i = (m : ℚ) * 2 ^ e)
    (hinc : ∀ i : Nat, i + 1 < data.length → ctr data i ≤ ctr data (i + 1))
    (h : edges1dF fl64 ndim axis junk data = some out) :
    ∀ i : Nat, i < data.length → ctr out i ≤ ctr data i ∧ ctr data i ≤ ctr out (i + 1) := by
  refine (C208_enclosed fl64 fl64_ordered ndim axis junk data out hax hn hj ?_ hinc h).1
  intro i hi
  obtain ⟨m, e, hm, he⟩ := hs i hi
  exact rne_fits 53 (by norm_num) ⟨m, e, hm, he⟩

/-! ## Cases that meet the hypotheses -/

/-- three bits: `3, 5, 6, 7`; the midpoint `5.5` and the last edge `7.5` are rounded, the first edge `2` is exact -/
example : edges1dF (rne 3) 1 0 [9, 9, 9, 9, 9] [3, 5, 6, 7] = some [2, 4, 6, 6, 8] := by decide +kernel
example : edges1d .float 1 0 [9, 9, 9, 9, 9] [3, 5, 6, 7] = some [2, 4, 11 / 2, 13 / 2, 15 / 2] := by decide +kernel
example : Stored (rne 3) [3, 5, 6, 7] := by unfold Stored; decide +kernel
example : Short 53 (-1) [0, 1 / 2, 1] := by
  have key : ∀ i : Nat, i < 3 → ctr [0, 1 / 2, 1] i = ((i : ℤ) : ℚ) * 2 ^ (-1 : ℤ) := by decide +kernel
  refine fun i hi => ⟨i, ?_, key i hi⟩
  have hi : i < 3 := hi
  rw [abs_of_nonneg (by omega)]
  norm_num
  omega

/-- Remark: "contains" cannot be strict, an edge between two neighbouring numbers of the type is one of them -/
theorem edgesF_not_strict : ∃ data : List ℚ, Stored (rne 3) data ∧ (∀ i : Nat, i + 1 < data.length → ctr data i < ctr data (i + 1)) ∧
    ∃ out, edges1dF (rne 3) 1 0 [0, 0, 0] data = some out ∧ ctr out 1 = ctr data 1 :=
  by
  refine ⟨[5, 6], by unfold Stored; decide +kernel, fun i hi => ?_, _, rfl, by decide +kernel⟩
  have : i = 0 := by simp only [List.length_cons, List.length_nil] at hi; omega
  subst this
  decide +kernel

end Xoa
