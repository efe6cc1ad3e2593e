import Verif.FilterIso
import Mathlib.Tactic.Linarith
import Mathlib.Tactic.Ring
import Mathlib.Tactic.FieldSimp
import Mathlib.Tactic.NormNum
import Mathlib.Data.List.Forall2
import Mathlib.Algebra.Order.Floor.Ring
import Mathlib.Data.Real.Archimedean

/-!
# Windows given as values and isotropic kernels: C125, C126, C127
-/

namespace Xoa

/-! ## interpolation -/

theorem npInterp_at (p : ℝ × ℝ) (r : List (ℝ × ℝ)) (h : ∀ q ∈ r, p.1 < q.1) : npInterp p.1 p r = p.2 := by
  cases r with
  | nil => rfl
  | cons q r => rw [npInterp, if_pos (h q (by simp)), if_pos le_rfl]

theorem npInterp_cell (r : List (ℝ × ℝ)) : ∀ (p : ℝ × ℝ), (p :: r).Pairwise (fun a b => a.1 < b.1) → ∀ (j : Nat) (a b : ℝ × ℝ),
    (p :: r)[j]? = some a → (p :: r)[j + 1]? = some b → ∀ x, a.1 ≤ x → x ≤ b.1 →
    npInterp x p r = (b.2 - a.2) / (b.1 - a.1) * (x - a.1) + a.2 := by
  induction r with
  | nil => intro p _ j a b _ hb; simp at hb
  | cons q r ih =>
    intro p hp j a b ha hb x h1 h2
    rw [List.pairwise_cons] at hp
    have hpq := hp.1 q (by simp)
    cases j with
    | zero =>
      simp at ha hb
      subst ha hb
      rw [npInterp]
      have hd : q.1 - p.1 ≠ 0 := by intro h; linarith
      by_cases hx : x < q.1
      · rw [if_pos hx]
        by_cases hx' : x ≤ p.1
        · rw [if_pos hx']
          have : x = p.1 := le_antisymm hx' h1
          rw [this]; ring
        · rw [if_neg hx']
      · rw [if_neg hx]
        have : x = q.1 := le_antisymm h2 (not_lt.1 hx)
        rw [this, npInterp_at q r (List.pairwise_cons.1 hp.2).1]
        field_simp
        ring
    | succ j =>
      rw [List.getElem?_cons_succ] at ha hb
      have hq : q.1 ≤ a.1 := by
        cases j with
        | zero => simp at ha; rw [ha]
        | succ j =>
          rw [List.getElem?_cons_succ] at ha
          exact le_of_lt ((List.pairwise_cons.1 hp.2).1 a (List.mem_of_getElem? ha))
      rw [npInterp, if_neg (by linarith)]
      exact ih q hp.2 j a b ha hb x h1 h2

theorem npInterp_bounds (r : List (ℝ × ℝ)) : ∀ (p : ℝ × ℝ), (p :: r).Pairwise (fun a b => a.1 < b.1) → ∀ (m M : ℝ),
    (∀ q ∈ p :: r, m ≤ q.2 ∧ q.2 ≤ M) → ∀ x, m ≤ npInterp x p r ∧ npInterp x p r ≤ M := by
  induction r with
  | nil => intro p _ m M h x; exact h p (by simp)
  | cons q r ih =>
    intro p hp m M h x
    rw [List.pairwise_cons] at hp
    have hpq := hp.1 q (by simp)
    rw [npInterp]
    by_cases hx : x < q.1
    · rw [if_pos hx]
      by_cases hx' : x ≤ p.1
      · rw [if_pos hx']; exact h p (by simp)
      · rw [if_neg hx']
        have a := h p (by simp)
        have b := h q (by simp)
        have hd : 0 < q.1 - p.1 := by linarith
        have ht0 : 0 ≤ (x - p.1) / (q.1 - p.1) := div_nonneg (by linarith [not_le.1 hx']) hd.le
        have ht1 : (x - p.1) / (q.1 - p.1) ≤ 1 := (div_le_one hd).2 (by linarith)
        have e : (q.2 - p.2) / (q.1 - p.1) * (x - p.1) + p.2 = (1 - (x - p.1) / (q.1 - p.1)) * p.2 + (x - p.1) / (q.1 - p.1) * q.2 := by
          field_simp
          ring
        rw [e]
        constructor <;> nlinarith
    · rw [if_neg hx]
      exact ih q hp.2 m M (fun z hz => h z (by simp [hz])) x

theorem linspace01_length (n : Nat) : (linspace01 n).length = n := by simp [linspace01]

theorem linspace01_get (n j : Nat) (h : j < n) : (linspace01 n)[j]? = some ((j : ℝ) / ((n : ℝ) - 1)) := by
  simp [linspace01, h]

theorem points_sorted (fp : List ℝ) : ((linspace01 fp.length).zip fp).Pairwise (fun a b => a.1 < b.1) := by
  rw [List.pairwise_iff_getElem]
  intro i j hi hj hij
  simp only [List.length_zip, linspace01_length, min_self] at hi hj
  simp only [List.getElem_zip, linspace01, List.getElem_map, List.getElem_range]
  have h1 : (1 : ℝ) < (fp.length : ℝ) := by
    have : 1 < fp.length := by omega
    exact_mod_cast this
  apply div_lt_div_of_pos_right
  · exact_mod_cast hij
  · linarith

/-- piecewise linear interpolation of equidistant values on 0..1: `y` is the value at `x` -/
def Interpolated (fp : List ℝ) (x y : ℝ) : Prop :=
  ∀ (j : Nat) (t a b : ℝ), fp[j]? = some a → fp[j + 1]? = some b → 0 ≤ t → t ≤ 1 → x * ((fp.length : ℝ) - 1) = j + t →
    y = (1 - t) * a + t * b

theorem npInterpL_spec (fp : List ℝ) (h : fp ≠ []) (x : ℝ) :
    ∃ y, npInterpL (linspace01 fp.length) fp x = .ok y ∧ Interpolated fp x y ∧
      (∀ m M : ℝ, (∀ v ∈ fp, m ≤ v ∧ v ≤ M) → m ≤ y ∧ y ≤ M) ∧ (fp.length = 1 → fp = [y]) := by
  unfold npInterpL
  rw [if_neg (by rw [linspace01_length]; simp)]
  have hs := points_sorted fp
  have hlen : ((linspace01 fp.length).zip fp).length = fp.length := by simp [linspace01_length]
  have hget : ∀ (j : Nat) (a : ℝ), fp[j]? = some a → ((linspace01 fp.length).zip fp)[j]? = some ((j : ℝ) / ((fp.length : ℝ) - 1), a) := by
    intro j a ha
    have hj : j < fp.length := (List.getElem?_eq_some_iff.1 ha).1
    rw [List.getElem?_zip_eq_some]
    exact ⟨linspace01_get _ _ hj, ha⟩
  cases hz : (linspace01 fp.length).zip fp with
  | nil =>
    rw [hz] at hlen
    exact absurd (List.length_eq_zero_iff.1 hlen.symm) h
  | cons p r =>
    rw [hz] at hs hlen hget
    refine ⟨npInterp x p r, rfl, ?_, ?_, ?_⟩
    · intro j t a b ha hb h0 h1 hx
      have hj : j + 1 < fp.length := (List.getElem?_eq_some_iff.1 hb).1
      have hn : (0 : ℝ) < (fp.length : ℝ) - 1 := by
        have : (1 : ℝ) < (fp.length : ℝ) := by
          have : 1 < fp.length := by omega
          exact_mod_cast this
        linarith
      have e := npInterp_cell r p hs j _ _ (hget j a ha) (hget (j + 1) b hb) x
        (by rw [div_le_iff₀ hn]; linarith) (by rw [le_div_iff₀ hn]; push_cast; linarith)
      rw [e]
      have hx' : x = (j + t) / ((fp.length : ℝ) - 1) := by field_simp; linarith
      dsimp only
      rw [hx']
      push_cast
      field_simp
      ring
    · intro m M hm
      apply npInterp_bounds r p hs
      intro q hq
      rw [← hz] at hq
      exact hm q.2 (List.of_mem_zip hq).2
    · intro h1
      match fp, h1, hz with
      | [v], _, hz =>
        simp [linspace01] at hz
        obtain ⟨rfl, rfl⟩ := hz
        rfl

theorem exists_cell (n : Nat) (hn : 2 ≤ n) (x : ℝ) (h0 : 0 ≤ x) (h1 : x ≤ 1) :
    ∃ (j : Nat) (t : ℝ), j + 1 < n ∧ 0 ≤ t ∧ t ≤ 1 ∧ x * ((n : ℝ) - 1) = j + t := by
  have hn' : (2 : ℝ) ≤ n := by exact_mod_cast hn
  by_cases hx : x = 1
  · refine ⟨n - 2, 1, by omega, by norm_num, le_rfl, ?_⟩
    rw [hx, Nat.cast_sub hn]
    push_cast
    ring
  · have hlt : x < 1 := lt_of_le_of_ne h1 hx
    have hpos : 0 ≤ x * ((n : ℝ) - 1) := mul_nonneg h0 (by linarith)
    refine ⟨⌊x * ((n : ℝ) - 1)⌋₊, x * ((n : ℝ) - 1) - ⌊x * ((n : ℝ) - 1)⌋₊, ?_, ?_, ?_, by ring⟩
    · have h2 : (⌊x * ((n : ℝ) - 1)⌋₊ : ℝ) < (n : ℝ) - 1 := lt_of_le_of_lt (Nat.floor_le hpos) (by nlinarith)
      have : ((⌊x * ((n : ℝ) - 1)⌋₊ + 1 : Nat) : ℝ) < (n : ℝ) := by push_cast; linarith
      exact_mod_cast this
    · linarith [Nat.floor_le hpos]
    · linarith [Nat.lt_floor_add_one (x * ((n : ℝ) - 1))]

/-- the interpolated value is determined -/
theorem interpolated_unique (fp : List ℝ) (hn : 2 ≤ fp.length) (x y y' : ℝ) (h0 : 0 ≤ x) (h1 : x ≤ 1) (h : Interpolated fp x y) (h' : Interpolated fp x y') :
    y = y' := by
  obtain ⟨j, t, hj, ht0, ht1, e⟩ := exists_cell fp.length hn x h0 h1
  have ha : fp[j]? = some fp[j] := List.getElem?_eq_getElem (by omega)
  have hb : fp[j + 1]? = some fp[j + 1] := List.getElem?_eq_getElem hj
  rw [h j t _ _ ha hb ht0 ht1 e, h' j t _ _ ha hb ht0 ht1 e]

/-! ## windows given as values -/

theorem mapM_ok {α β : Type} (f : α → Except CErr β) (g : α → β) (l : List α) (h : ∀ x ∈ l, f x = .ok (g x)) : l.mapM f = .ok (l.map g) := by
  induction l with
  | nil => rfl
  | cons a l ih =>
    rw [List.mapM_cons, h a (by simp), ih (fun x hx => h x (by simp [hx]))]
    rfl

/-- **C126**: values given as a window are interpolated linearly, at equal distances, on the requested number of points, and stay within
their bounds. -/
theorem C126_window (w : List ℝ) (hw : w ≠ []) (size : Nat) :
    ∃ l, windowOfValues w size = .ok l ∧ l.length = size ∧
      (∀ (i : Nat) (y : ℝ), l[i]? = some y → Interpolated w ((i : ℝ) / ((size : ℝ) - 1)) y) ∧
      ∀ m M : ℝ, (∀ v ∈ w, m ≤ v ∧ v ≤ M) → ∀ y ∈ l, m ≤ y ∧ y ≤ M := by
  choose g hg using npInterpL_spec w hw
  refine ⟨(linspace01 size).map g, ?_, by simp [linspace01_length], ?_, ?_⟩
  · unfold windowOfValues
    rw [if_neg hw, mapM_ok _ g _ (fun x _ => (hg x).1)]
  · intro i y hy
    rw [List.getElem?_map] at hy
    by_cases hi : i < size
    · rw [linspace01_get size i hi] at hy
      simp only [Option.map_some, Option.some.injEq] at hy
      rw [← hy]
      exact (hg _).2.1
    · rw [List.getElem?_eq_none (by rw [linspace01_length]; omega)] at hy
      cases hy
  · intro m M hm y hy
    obtain ⟨x, -, rfl⟩ := List.mem_map.1 hy
    exact (hg x).2.2.1 m M hm

/-- **C126** (same size): with as many points as values, the window is made of the values. -/
theorem C126_same_size (w : List ℝ) (hw : w ≠ []) : windowOfValues w w.length = .ok w := by
  by_cases h1 : w.length = 1
  · match w, h1 with
    | [v], _ =>
      unfold windowOfValues
      rw [if_neg hw]
      simp [linspace01, npInterpL, npInterp]
  · obtain ⟨l, hl, hlen, hi, -⟩ := C126_window w hw w.length
    rw [hl]
    congr 1
    have hn : 2 ≤ w.length := by
      have := List.length_pos_iff.2 hw
      omega
    have hn' : (2 : ℝ) ≤ w.length := by exact_mod_cast hn
    apply List.ext_getElem hlen
    intro i h2 h3
    have := hi i l[i] (List.getElem?_eq_getElem h2)
    by_cases hlast : i + 1 < w.length
    · have e := this i 0 w[i] w[i + 1] (List.getElem?_eq_getElem h3) (List.getElem?_eq_getElem hlast) le_rfl zero_le_one (by
        rw [div_mul_cancel₀ _ (by linarith)]; ring)
      rw [e]; ring
    · have hi1 : i - 1 + 1 = i := by omega
      have e := this (i - 1) 1 w[i - 1] w[i] (List.getElem?_eq_getElem (by omega)) (by rw [hi1]; exact List.getElem?_eq_getElem h3) zero_le_one le_rfl (by
        rw [div_mul_cancel₀ _ (by linarith), Nat.cast_sub (by omega)]; push_cast; ring)
      rw [e]; ring

/-- **C126** (ends): the first and the last values are kept when there are at least two points. -/
theorem C126_ends (w l : List ℝ) (size : Nat) (hs : 2 ≤ size) (h : windowOfValues w size = .ok l) : l.head? = w.head? ∧ l.getLast? = w.getLast? := by
  by_cases hw : w = []
  · unfold windowOfValues at h
    rw [if_pos hw] at h
    cases h
  obtain ⟨l', hl, hlen, hi, hb⟩ := C126_window w hw size
  rw [hl] at h
  injection h with h
  subst h
  have hs' : (2 : ℝ) ≤ size := by exact_mod_cast hs
  have h0 : l'[0]? = some l'[0] := List.getElem?_eq_getElem (by omega)
  have h9 : l'[size - 1]? = some (l'[size - 1]'(by omega)) := List.getElem?_eq_getElem (by omega)
  rw [List.head?_eq_getElem?, List.head?_eq_getElem?, List.getLast?_eq_getElem?, List.getLast?_eq_getElem?, hlen]
  have hpos := List.length_pos_iff.2 hw
  by_cases h1 : w.length = 1
  · match w, h1 with
    | [v], _ =>
      have hb' := hb v v (by simp)
      rw [h0, h9]
      have e0 := hb' l'[0] (List.getElem_mem _)
      have e9 := hb' (l'[size - 1]'(by omega)) (List.getElem_mem _)
      simp only [List.length_singleton, Nat.sub_self, List.getElem?_cons_zero, Option.some.injEq]
      exact ⟨by linarith, by linarith⟩
  · have hn : 2 ≤ w.length := by omega
    have hn' : (2 : ℝ) ≤ w.length := by exact_mod_cast hn
    constructor
    · rw [h0, List.getElem?_eq_getElem hpos]
      have e := hi 0 _ h0 0 0 w[0] w[0 + 1] (List.getElem?_eq_getElem hpos) (List.getElem?_eq_getElem (by omega)) le_rfl zero_le_one (by push_cast; ring)
      rw [e]; congr 1; ring
    · rw [h9, List.getElem?_eq_getElem (by omega : w.length - 1 < w.length)]
      have hi1 : w.length - 2 + 1 = w.length - 1 := by omega
      have e := hi (size - 1) _ h9 (w.length - 2) 1 (w[w.length - 2]'(by omega)) (w[w.length - 1]'(by omega)) (List.getElem?_eq_getElem (by omega))
        (by rw [hi1]; exact List.getElem?_eq_getElem (by omega)) zero_le_one le_rfl (by
          have hn0 : (size : ℝ) - 1 ≠ 0 := by linarith
          rw [Nat.cast_sub (by omega), Nat.cast_sub hn]
          push_cast
          rw [div_self hn0]
          ring)
      rw [e]; congr 1; ring

/-- **C126** (symmetry): symmetric values give a symmetric window. -/
theorem C126_symmetric (w l : List ℝ) (size : Nat) (hw : w.reverse = w) (hs : size ≠ 1) (h : windowOfValues w size = .ok l) : l.reverse = l := by
  by_cases hne : w = []
  · unfold windowOfValues at h
    rw [if_pos hne] at h
    cases h
  obtain ⟨l', hl, hlen, hi, hb⟩ := C126_window w hne size
  rw [hl] at h
  injection h with h
  subst h
  have hpos := List.length_pos_iff.2 hne
  apply List.ext_getElem (by simp)
  intro i h2 h3
  rw [List.getElem_reverse]
  have hk : l'.length - 1 - i < l'.length := by omega
  by_cases h1 : w.length = 1
  · match w, h1 with
    | [v], _ =>
      have hb' := hb v v (by simp)
      have e0 := hb' l'[i] (List.getElem_mem _)
      have e9 := hb' l'[l'.length - 1 - i] (List.getElem_mem _)
      linarith
  · have hn : 2 ≤ w.length := by omega
    have hsz : 2 ≤ size := by omega
    have hs' : (2 : ℝ) ≤ size := by exact_mod_cast hsz
    have hi' : (i : ℝ) ≤ (size : ℝ) - 1 := by
      have : ((i + 1 : Nat) : ℝ) ≤ (size : ℝ) := by exact_mod_cast (by omega : i + 1 ≤ size)
      push_cast at this
      linarith
    have hx0 : 0 ≤ (i : ℝ) / ((size : ℝ) - 1) := div_nonneg (Nat.cast_nonneg i) (by linarith)
    have hx1 : (i : ℝ) / ((size : ℝ) - 1) ≤ 1 := (div_le_one (by linarith)).2 hi'
    refine interpolated_unique w hn ((i : ℝ) / ((size : ℝ) - 1)) _ _ hx0 hx1 ?_ (hi i _ (List.getElem?_eq_getElem h3))
    intro j t a b ha hb ht0 ht1 e
    have hj : j + 1 < w.length := (List.getElem?_eq_some_iff.1 hb).1
    have mir : ∀ q v, w[q]? = some v → w[w.length - 1 - q]? = some v := by
      intro q v hq
      have hq' : q < w.length := (List.getElem?_eq_some_iff.1 hq).1
      rw [← hq]
      conv_rhs => rw [← hw]
      rw [List.getElem?_reverse hq']
    have hq : w.length - 1 - (j + 1) + 1 = w.length - 1 - j := by omega
    have := hi (l'.length - 1 - i) _ (List.getElem?_eq_getElem hk) (w.length - 1 - (j + 1)) (1 - t) b a (mir _ _ hb) (by rw [hq]; exact mir _ _ ha)
      (by linarith) (by linarith) (by
        have hn0 : (size : ℝ) - 1 ≠ 0 := by linarith
        have e1 : ((l'.length - 1 - i : Nat) : ℝ) = (size : ℝ) - 1 - i := by
          rw [hlen, Nat.cast_sub (by omega), Nat.cast_sub (by omega)]; push_cast; ring
        have e2 : ((w.length - 1 - (j + 1) : Nat) : ℝ) = (w.length : ℝ) - 1 - (j + 1) := by
          rw [Nat.cast_sub (by omega), Nat.cast_sub (by omega)]; push_cast; ring
        rw [e1, e2, sub_div, div_self hn0, sub_mul, e]
        ring)
    rw [this]
    ring

/-- **C126 is violated** by windows of one point: the value of the border is used, not the one of the center. -/
theorem C126_one_point_violated (a b c : ℝ) : windowOfValues [a, b, c] 1 = .ok [a] := by
  unfold windowOfValues
  rw [if_neg (by simp)]
  have : linspace01 1 = [0] := by simp [linspace01]
  rw [this]
  have h : npInterpL (linspace01 [a, b, c].length) [a, b, c] 0 = .ok a := by
    have e : linspace01 [a, b, c].length = [0, 1 / 2, 1] := by
      simp [linspace01, List.range, List.range.loop]
      norm_num
    rw [e]
    simp [npInterpL, npInterp]
  rw [List.mapM_cons, h]
  rfl

/-! ## isotropic kernels -/

/-- square of the distance to the center of the kernel, each dimension being scaled so that its ends are at `-1/2` and `1/2` -/
noncomputable def centerDist2 (shape idx : List Nat) : ℝ :=
  ((shape.zip idx).map (fun p : Nat × Nat => ((p.2 : ℝ) / ((p.1 : ℝ) - 1) - 1 / 2) ^ 2)).sum

theorem sumSquares_eq (shape : List Nat) : ∀ idx : List Nat, (∀ w ∈ shape, w ≠ 1) → sumSquares shape idx = some (centerDist2 shape idx) := by
  induction shape with
  | nil => intro idx _; simp [sumSquares, centerDist2]
  | cons w ws ih =>
    intro idx h
    cases idx with
    | nil => simp [sumSquares, centerDist2]
    | cons i is =>
      rw [sumSquares, ih is (fun x hx => h x (by simp [hx])), Option.bind_some, if_neg (h w (by simp))]
      simp [centerDist2]

theorem sumSquares_none (shape : List Nat) : ∀ idx : List Nat, idx.length = shape.length → 1 ∈ shape → sumSquares shape idx = none := by
  induction shape with
  | nil => intro idx _ h; simp at h
  | cons w ws ih =>
    intro idx hl h
    cases idx with
    | nil => simp at hl
    | cons i is =>
      rw [sumSquares]
      by_cases hw : w = 1
      · cases sumSquares ws is with
        | none => rfl
        | some s => rw [Option.bind_some, if_pos hw]
      · have : 1 ∈ ws := by
          rcases List.mem_cons.1 h with h | h
          · exact absurd h.symm hw
          · exact h
        rw [ih is (by simpa using hl) this]
        rfl

theorem centerDist2_nonneg (shape idx : List Nat) : 0 ≤ centerDist2 shape idx := by
  unfold centerDist2
  apply List.sum_nonneg
  intro x hx
  obtain ⟨p, -, rfl⟩ := List.mem_map.1 hx
  exact sq_nonneg _

/-- values of the window used for a kernel: `npt` of them, or twice the largest size -/
def WindowValues (shape : List Nat) (window : Nat → Except CErr (List ℝ)) (npt : Option Nat) (fp : List ℝ) : Prop :=
  fp ≠ [] ∧ ((npt = none ∧ ∃ m ∈ shape, (∀ w ∈ shape, w ≤ m) ∧ window (2 * m) = .ok fp ∧ fp.length = 2 * m) ∨
    ∃ n, npt = some n ∧ window n = .ok fp ∧ fp.length = n)

theorem foldl_max_spec (l : List Nat) : ∀ a : Nat, (∀ w ∈ l, w ≤ l.foldl max a) ∧ a ≤ l.foldl max a ∧ (l.foldl max a = a ∨ l.foldl max a ∈ l) := by
  induction l with
  | nil => intro a; simp
  | cons x l ih =>
    intro a
    obtain ⟨h1, h2, h3⟩ := ih (max a x)
    rw [List.foldl_cons]
    refine ⟨?_, le_trans (le_max_left _ _) h2, ?_⟩
    · intro w hw
      rcases List.mem_cons.1 hw with rfl | hw
      · exact le_trans (le_max_right _ _) h2
      · exact h1 w hw
    · rcases h3 with h3 | h3
      · rcases le_total a x with h | h
        · right; rw [h3, max_eq_right h]; simp
        · left; rw [h3, max_eq_left h]
      · right; simp [h3]

theorem foldl_max_eq (l : List Nat) (m : Nat) (hm : m ∈ l) (h : ∀ w ∈ l, w ≤ m) : l.foldl max 0 = m := by
  obtain ⟨h1, -, h3⟩ := foldl_max_spec l 0
  apply le_antisymm
  · rcases h3 with h3 | h3
    · rw [h3]; exact Nat.zero_le _
    · exact h _ h3
  · exact h1 m hm

theorem isoKernel_eq (shape : List Nat) (window : Nat → Except CErr (List ℝ)) (fill : Option ℝ) (npt : Option Nat) (fp : List ℝ)
    (h : WindowValues shape window npt fp) :
    isoKernel shape window fill npt = .ok ⟨shape, fun idx => isoVal fp.length fp fill (sumSquares shape idx)⟩ := by
  obtain ⟨hne, ⟨rfl, m, hm, hmax, hw, hlen⟩ | ⟨n, rfl, hw, hlen⟩⟩ := h
  · unfold isoKernel
    rw [if_neg (by rintro ⟨rfl, -⟩; simp at hm), Option.getD_none, foldl_max_eq shape m hm hmax, hw]
    show isoFrom _ _ _ _ = _
    unfold isoFrom
    rw [if_neg (by rw [hlen]; simp [hne]), hlen]
  · unfold isoKernel
    rw [if_neg (by simp), Option.getD_some, hw]
    show isoFrom _ _ _ _ = _
    unfold isoFrom
    rw [if_neg (by rw [hlen]; simp [hne]), hlen]

/-- **C125**: the isotropic kernel has the fill value at more than 1/2 of its center, and elsewhere the value of the
window, linearly interpolated, at the scaled distance to the center (the middle of the window being at the center). -/
theorem C125_value (shape : List Nat) (window : Nat → Except CErr (List ℝ)) (fill : Option ℝ) (npt : Option Nat) (fp : List ℝ)
    (hw : WindowValues shape window npt fp) (hs : ∀ w ∈ shape, w ≠ 1) :
    ∃ k, isoKernel shape window fill npt = .ok k ∧ k.shape = shape ∧ ∀ idx,
      (1 / 2 < Real.sqrt (centerDist2 shape idx) → k.val idx = fill) ∧
      (Real.sqrt (centerDist2 shape idx) ≤ 1 / 2 → ∃ y, k.val idx = some y ∧ Interpolated fp (1 / 2 - Real.sqrt (centerDist2 shape idx)) y ∧
        ∀ m M : ℝ, (∀ v ∈ fp, m ≤ v ∧ v ≤ M) → m ≤ y ∧ y ≤ M) := by
  refine ⟨_, isoKernel_eq shape window fill npt fp hw, rfl, fun idx => ⟨fun h => ?_, fun h => ?_⟩⟩
  · dsimp only
    rw [sumSquares_eq shape idx hs, isoVal, if_pos (by linarith)]
  · obtain ⟨y, h1, h2, h3, -⟩ := npInterpL_spec fp hw.1 (1 / 2 - Real.sqrt (centerDist2 shape idx))
    refine ⟨y, ?_, h2, h3⟩
    dsimp only
    rw [sumSquares_eq shape idx hs, isoVal, if_neg (by linarith), h1]
    rfl

/-- **C125** (isotropy): two positions at the same scaled distance of the center have the same value. -/
theorem C125_isotropic (shape : List Nat) (window : Nat → Except CErr (List ℝ)) (fill : Option ℝ) (npt : Option Nat) (fp : List ℝ)
    (hw : WindowValues shape window npt fp) (hs : ∀ w ∈ shape, w ≠ 1) (k : RArr) (hk : isoKernel shape window fill npt = .ok k)
    (idx idx' : List Nat) (h : centerDist2 shape idx = centerDist2 shape idx') : k.val idx = k.val idx' := by
  rw [isoKernel_eq shape window fill npt fp hw] at hk
  injection hk with hk
  subst hk
  dsimp only
  rw [sumSquares_eq shape idx hs, sumSquares_eq shape idx' hs, h]

/-- positions that mirror each other along some dimensions -/
def Mirrored (shape idx idx' : List Nat) : Prop :=
  idx.length = shape.length ∧ idx'.length = shape.length ∧
    ∀ (a w i i' : Nat), shape[a]? = some w → idx[a]? = some i → idx'[a]? = some i' → i' = i ∨ i + i' + 1 = w

/-- **C125** (symmetry): the kernel is symmetric along each of its dimensions. -/
theorem C125_symmetric (shape : List Nat) (window : Nat → Except CErr (List ℝ)) (fill : Option ℝ) (npt : Option Nat) (fp : List ℝ)
    (hw : WindowValues shape window npt fp) (hs : ∀ w ∈ shape, w ≠ 1) (k : RArr) (hk : isoKernel shape window fill npt = .ok k)
    (idx idx' : List Nat) (h : Mirrored shape idx idx') : k.val idx = k.val idx' := by
  apply C125_isotropic shape window fill npt fp hw hs k hk
  obtain ⟨h1, h2, h3⟩ := h
  clear hk hw
  induction shape generalizing idx idx' with
  | nil => simp [centerDist2]
  | cons w ws ih =>
    match idx, idx', h1, h2 with
    | i :: is, i' :: is', h1, h2 =>
      have e := ih (fun x hx => hs x (by simp [hx])) is is' (by simpa using h1) (by simpa using h2) (fun a x y z p q r => h3 (a + 1) x y z (by simpa using p) (by simpa using q) (by simpa using r))
      have hc : ∀ (j : Nat) (js : List Nat), centerDist2 (w :: ws) (j :: js) = ((j : ℝ) / ((w : ℝ) - 1) - 1 / 2) ^ 2 + centerDist2 ws js := by
        intro j js; simp [centerDist2]
      rw [hc, hc, e]
      congr 1
      rcases h3 0 w i i' rfl rfl rfl with h | h
      · rw [h]
      · have hw1 : (w : ℝ) - 1 ≠ 0 := by
          intro h0
          have : (w : ℝ) = 1 := by linarith
          exact hs w (by simp) (by exact_mod_cast this)
        have hw2 : (i' : ℝ) = (w : ℝ) - 1 - i := by
          rw [← h]; push_cast; ring
        rw [hw2]
        field_simp
        ring

/-- **C125** (center): at the center of a kernel of odd sizes, the value is the mean of the two middle values of the window. -/
theorem C125_center (shape : List Nat) (window : Nat → Except CErr (List ℝ)) (fill : Option ℝ) (fp : List ℝ)
    (hw : WindowValues shape window none fp) (hs : ∀ w ∈ shape, w ≠ 1) (k : RArr) (hk : isoKernel shape window fill none = .ok k)
    (idx : List Nat) (hc : shape = idx.map (fun i => 2 * i + 1)) (a b : ℝ) (n : Nat) (hn : fp.length = 2 * n + 2) (ha : fp[n]? = some a) (hb : fp[n + 1]? = some b) :
    k.val idx = some ((a + b) / 2) := by
  obtain ⟨k', hk', -, hv⟩ := C125_value shape window fill none fp hw hs
  rw [hk] at hk'
  injection hk' with hk'
  subst hk'
  have hd : centerDist2 shape idx = 0 := by
    rw [hc]
    rw [hc] at hs
    clear hk hw hv hc
    induction idx with
    | nil => simp [centerDist2]
    | cons i is ih =>
      have e := ih (fun x hx => hs x (by simp at hx ⊢; right; exact hx))
      have hi : (i : ℝ) ≠ 0 := by
        intro h0
        have : i = 0 := by exact_mod_cast h0
        exact hs 1 (by simp [this]) rfl
      have hcc : centerDist2 (List.map (fun i => 2 * i + 1) (i :: is)) (i :: is) = ((i : ℝ) / (((2 * i + 1 : Nat) : ℝ) - 1) - 1 / 2) ^ 2 + centerDist2 (List.map (fun i => 2 * i + 1) is) is := by
        simp [centerDist2]
      rw [hcc, e]
      push_cast
      have : (i : ℝ) / (2 * i + 1 - 1) = 1 / 2 := by field_simp; ring
      rw [this]
      ring
  obtain ⟨y, h1, h2, -⟩ := (hv idx).2 (by rw [hd, Real.sqrt_zero]; norm_num)
  rw [h1, h2 n (1 / 2) a b ha hb (by norm_num) (by norm_num) (by rw [hd, Real.sqrt_zero, hn]; push_cast; ring)]
  congr 1
  ring

theorem exceptBind_ok {α β : Type} (a : α) (f : α → Except CErr β) : (Except.ok a : Except CErr α).bind f = f a := rfl

/-- **C125** (refused): a window that does not return the requested number of values is refused. -/
theorem C125_window_size (shape : List Nat) (window : Nat → Except CErr (List ℝ)) (fill : Option ℝ) (n : Nat) (fp : List ℝ)
    (hw : window n = .ok fp) (hn : fp.length ≠ n) : isoKernel shape window fill (some n) = .error .valueError := by
  unfold isoKernel
  rw [if_neg (by simp)]
  simp only [Option.getD_some, hw]
  rw [exceptBind_ok]
  unfold isoFrom
  rw [if_pos (Or.inl (fun h => hn h.symm))]

/-- **C125 is violated** by a dimension of size 1: all the values are missing. -/
theorem C125_single_violated (shape : List Nat) (window : Nat → Except CErr (List ℝ)) (fill : Option ℝ) (npt : Option Nat) (fp : List ℝ)
    (hw : WindowValues shape window npt fp) (hs : 1 ∈ shape) :
    ∃ k, isoKernel shape window fill npt = .ok k ∧ ∀ idx : List Nat, idx.length = shape.length → k.val idx = none := by
  refine ⟨_, isoKernel_eq shape window fill npt fp hw, fun idx hl => ?_⟩
  dsimp only
  rw [sumSquares_none shape idx hl hs, isoVal]

/-! ## kernels of data arrays -/

theorem isoSplit_scalars (iso : List String) (spec : List (String × Nat)) (h : ∀ p ∈ spec, p.1 ∈ iso) :
    ∀ (s : List (String × Nat)) (f : Option KI), (f = none ∨ ∃ n, f = some (.scalar n)) →
    isoSplit iso (spec.map (fun p => (p.1, KI.scalar p.2))) [] s f =
      .ok ([], s ++ spec, if spec = [] then f else some ((f.getD (.scalar (spec.headD ("", 0)).2)))) := by
  induction spec with
  | nil => intro s f _; simp [isoSplit]
  | cons p spec ih =>
    intro s f hf
    rw [List.map_cons, isoSplit, if_neg (by simp [h p (by simp)])]
    have step : isoCheck f (.scalar p.2) = .ok (f.getD (.scalar p.2)) := by
      rcases hf with rfl | ⟨n, rfl⟩ <;> rfl
    rw [step]
    show isoSplit iso _ _ _ _ = _
    rw [ih (fun q hq => h q (by simp [hq])) _ _ (Or.inr (by rcases hf with rfl | ⟨n, rfl⟩ <;> exact ⟨_, rfl⟩))]
    simp only [KI.size, List.append_assoc, List.singleton_append, if_neg (List.cons_ne_nil p spec), List.headD_cons]
    congr 3
    split
    · rfl
    · simp

/-- **C127**: when all the dimensions of the kernel are isotropic ones and have sizes, the kernel is the isotropic
kernel of these sizes, for these dimensions. -/
theorem C127_sizes (window : Nat → Except CErr (List ℝ)) (ortho : List KI → Except CErr RArr) (fill : Option ℝ)
    (spec : List (String × Nat)) (iso dims : List String) (hsub : ∀ d ∈ iso, d ∈ dims) (hiso : ∀ p ∈ spec, p.1 ∈ iso) (hne : spec ≠ [])
    (fp : List ℝ) (hw : WindowValues (spec.map (·.2)) window none fp) :
    ∃ k, isoKernel (spec.map (·.2)) window fill none = .ok k ∧
      generateKernelIso window ortho fill (spec.map (fun p => (p.1, KI.scalar p.2))) iso dims = .ok (spec.map (·.1), k) := by
  refine ⟨_, isoKernel_eq _ window fill none fp hw, ?_⟩
  unfold generateKernelIso
  rw [if_neg (by simpa using hsub), isoSplit_scalars iso spec hiso [] none (Or.inl rfl), if_neg hne]
  rw [exceptBind_ok]
  unfold isoAssemble
  have h := isoKernel_eq _ window fill none fp hw
  simp only [List.nil_append, if_true, Option.elim_some, KI.window, Option.getD_none, h]
  show (if _ then _ else _) = _
  rw [if_neg (by simp)]
  simp

/-- **C127** (inconsistent): sizes and lists cannot be mixed in the isotropic dimensions. -/
theorem C127_inconsistent (window : Nat → Except CErr (List ℝ)) (ortho : List KI → Except CErr RArr) (fill : Option ℝ)
    (d1 d2 : String) (n : Nat) (l : List ℝ) (iso dims : List String) (h1 : d1 ∈ iso) (h2 : d2 ∈ iso) :
    generateKernelIso window ortho fill [(d1, .scalar n), (d2, .arr l)] iso dims = .error .xoaError ∧
    generateKernelIso window ortho fill [(d1, .arr l), (d2, .scalar n)] iso dims = .error .xoaError := by
  unfold generateKernelIso
  have e1 : isoSplit iso [(d1, .scalar n), (d2, .arr l)] [] [] none = .error .xoaError := by
    rw [isoSplit, if_neg (by simp [h1])]
    show isoSplit _ _ _ _ _ = _
    rw [isoSplit, if_neg (by simp [h2])]
    rfl
  have e2 : isoSplit iso [(d1, .arr l), (d2, .scalar n)] [] [] none = .error .xoaError := by
    rw [isoSplit, if_neg (by simp [h1])]
    show isoSplit _ _ _ _ _ = _
    rw [isoSplit, if_neg (by simp [h2])]
    rfl
  rw [e1, e2]
  constructor <;> split <;> rfl

theorem isoSplit_scalar_first (iso : List String) (n : Nat) (d : String) (x : List ℝ) (hd : d ∈ iso) : ∀ (l o : List (String × KI)) (s : List (String × Nat)),
    (d, KI.arr x) ∈ l → ∃ e, isoSplit iso l o s (some (.scalar n)) = .error e := by
  intro l
  induction l with
  | nil => intro o s h; cases h
  | cons p l ih =>
    obtain ⟨d', k⟩ := p
    intro o s h
    rw [isoSplit]
    by_cases h' : d' ∉ iso
    · rw [if_pos h']
      rcases List.mem_cons.mp h with e | e
      · injection e with e1 e2; subst e1; exact absurd hd h'
      · exact ih _ _ e
    · rw [if_neg h']
      cases k with
      | arr y => exact ⟨_, rfl⟩
      | scalar m =>
        rcases List.mem_cons.mp h with e | e
        · cases e
        · exact ih _ _ e

theorem isoSplit_list_first (iso : List String) (y : List ℝ) (d : String) (n : Nat) (hd : d ∈ iso) : ∀ (l o : List (String × KI)) (s : List (String × Nat)),
    (d, KI.scalar n) ∈ l → ∃ e, isoSplit iso l o s (some (.arr y)) = .error e := by
  intro l
  induction l with
  | nil => intro o s h; cases h
  | cons p l ih =>
    obtain ⟨d', k⟩ := p
    intro o s h
    rw [isoSplit]
    by_cases h' : d' ∉ iso
    · rw [if_pos h']
      rcases List.mem_cons.mp h with e | e
      · injection e with e1 e2; subst e1; exact absurd hd h'
      · exact ih _ _ e
    · rw [if_neg h']
      cases k with
      | scalar m => exact ⟨_, rfl⟩
      | arr z =>
        have hm : (d, KI.scalar n) ∈ l := by
          rcases List.mem_cons.mp h with e | e
          · cases e
          · exact e
        cases hc : allClose z y with
        | error e =>
          refine ⟨e, ?_⟩
          show (isoCheck (some (.arr y)) (.arr z)).bind _ = _
          show ((allClose z y).bind _).bind _ = _
          rw [hc]; rfl
        | ok b =>
          cases b with
          | false =>
            refine ⟨.xoaError, ?_⟩
            show ((allClose z y).bind _).bind _ = _
            rw [hc]; rfl
          | true =>
            obtain ⟨e, he⟩ := ih o (s ++ [(d', KI.size (.arr z))]) hm
            refine ⟨e, ?_⟩
            show ((allClose z y).bind _).bind _ = _
            rw [hc]
            exact he

/-- **C127** (inconsistent): in any kernel, sizes and lists cannot be mixed in the isotropic dimensions, wherever they are. -/
theorem C127_mix_refused (window : Nat → Except CErr (List ℝ)) (ortho : List KI → Except CErr RArr) (fill : Option ℝ)
    (spec : List (String × KI)) (d1 d2 : String) (n : Nat) (x : List ℝ) (iso dims : List String) (h1 : d1 ∈ iso) (h2 : d2 ∈ iso)
    (hs : (d1, KI.scalar n) ∈ spec) (hl : (d2, KI.arr x) ∈ spec) : ∃ e, generateKernelIso window ortho fill spec iso dims = .error e := by
  have key : ∀ (l o : List (String × KI)) (s : List (String × Nat)), (d1, KI.scalar n) ∈ l → (d2, KI.arr x) ∈ l → ∃ e, isoSplit iso l o s none = .error e := by
    intro l
    induction l with
    | nil => intro o s h; cases h
    | cons p l ih =>
      obtain ⟨d', k⟩ := p
      intro o s ha hb
      rw [isoSplit]
      by_cases h' : d' ∉ iso
      · rw [if_pos h']
        refine ih _ _ ?_ ?_
        · rcases List.mem_cons.mp ha with e | e
          · injection e with e1 e2; subst e1; exact absurd h1 h'
          · exact e
        · rcases List.mem_cons.mp hb with e | e
          · injection e with e1 e2; subst e1; exact absurd h2 h'
          · exact e
      · rw [if_neg h']
        cases k with
        | scalar m =>
          rcases List.mem_cons.mp hb with e | e
          · cases e
          · exact isoSplit_scalar_first iso m d2 x h2 l _ _ e
        | arr y =>
          rcases List.mem_cons.mp ha with e | e
          · cases e
          · exact isoSplit_list_first iso y d1 n h1 l _ _ e
  unfold generateKernelIso
  split
  · exact ⟨_, rfl⟩
  · obtain ⟨e, he⟩ := key spec [] [] hs hl
    exact ⟨e, by rw [he]; rfl⟩

/-- **C127** (inconsistent lists): two lists of the same size that are not close cannot be used for isotropic dimensions. -/
theorem C127_different_lists (window : Nat → Except CErr (List ℝ)) (ortho : List KI → Except CErr RArr) (fill : Option ℝ)
    (d1 d2 : String) (l l' : List ℝ) (iso dims : List String) (h1 : d1 ∈ iso) (h2 : d2 ∈ iso) (hl : l'.length = l.length)
    (i : Nat) (x y : ℝ) (hx : l[i]? = some x) (hy : l'[i]? = some y) (hxy : 1 / 10 ^ 8 + 1 / 10 ^ 5 * |x| < |y - x|) :
    generateKernelIso window ortho fill [(d1, .arr l), (d2, .arr l')] iso dims = .error .xoaError := by
  have hc : allClose l' l = .ok false := by
    unfold allClose
    dsimp only
    split
    · rename_i z
      match l, hl with
      | [w], _ =>
        have hi : i = 0 := by
          by_contra hne
          obtain ⟨j, rfl⟩ := Nat.exists_eq_succ_of_ne_zero hne
          simp at hx
        subst hi
        simp at hx hy
        subst hx hy
        simp only [List.all_cons, List.all_nil, Bool.and_true, Except.ok.injEq]
        simpa using hxy
    · rename_i z hz
      match l', hl with
      | [w], _ => exact absurd rfl (hz w)
    · rw [if_neg (by simpa using hl)]
      congr 1
      rw [List.all_eq_false]
      refine ⟨false, ?_, by simp⟩
      rw [List.mem_iff_getElem?]
      refine ⟨i, ?_⟩
      rw [List.getElem?_zipWith, hx, hy]
      simpa using hxy
  have e1 : isoSplit iso [(d1, .arr l), (d2, .arr l')] [] [] none = .error .xoaError := by
    rw [isoSplit, if_neg (by simp [h1])]
    show isoSplit _ _ _ _ _ = _
    rw [isoSplit, if_neg (by simp [h2])]
    unfold isoCheck
    dsimp only
    rw [hc]
    rfl
  unfold generateKernelIso
  rw [e1]
  split <;> rfl

/-- **C127** (invalid): the isotropic dimensions must be dimensions of the data. -/
theorem C127_invalid_dims (window : Nat → Except CErr (List ℝ)) (ortho : List KI → Except CErr RArr) (fill : Option ℝ)
    (spec : List (String × KI)) (iso dims : List String) (d : String) (h1 : d ∈ iso) (h2 : d ∉ dims) :
    generateKernelIso window ortho fill spec iso dims = .error .xoaError := by
  unfold generateKernelIso
  rw [if_pos]
  intro h
  exact h2 (h d h1)

theorem isoSplit_spec (iso : List String) (spec : List (String × KI)) : ∀ o s f r, isoSplit iso spec o s f = .ok r →
    r.1 = o ++ spec.filter (fun p => decide (p.1 ∉ iso)) ∧ r.2.1.map (·.1) = s.map (·.1) ++ (spec.filter (fun p => decide (p.1 ∈ iso))).map (·.1) ∧
    ((∃ p ∈ spec, p.1 ∈ iso) ∨ f ≠ none → r.2.2 ≠ none) := by
  induction spec with
  | nil =>
    intro o s f r h
    rw [isoSplit] at h
    injection h with h
    subst h
    simp
  | cons p spec ih =>
    intro o s f r h
    rw [isoSplit] at h
    by_cases hp : p.1 ∈ iso
    · rw [if_neg (by simp [hp])] at h
      cases hc : isoCheck f p.2 with
      | error e => rw [hc] at h; cases h
      | ok f' =>
        rw [hc] at h
        obtain ⟨h1, h2, h3⟩ := ih _ _ _ _ h
        refine ⟨by rw [h1]; simp [hp], by rw [h2]; simp [hp], fun _ => h3 (Or.inr (by simp))⟩
    · rw [if_pos hp] at h
      obtain ⟨h1, h2, h3⟩ := ih _ _ _ _ h
      refine ⟨by rw [h1]; simp [hp], by rw [h2]; simp [hp], ?_⟩
      rintro (⟨q, hq, hq'⟩ | h)
      · rcases List.mem_cons.1 hq with rfl | hq
        · exact absurd hq' hp
        · exact h3 (Or.inl ⟨q, hq, hq'⟩)
      · exact h3 (Or.inr h)

theorem isoKernel_shape (shape : List Nat) (window : Nat → Except CErr (List ℝ)) (fill : Option ℝ) (npt : Option Nat) (k : RArr)
    (h : isoKernel shape window fill npt = .ok k) : k.shape = shape := by
  unfold isoKernel at h
  split at h
  · cases h
  · cases hw : window (npt.getD (2 * shape.foldl max 0)) with
    | error e => rw [hw] at h; cases h
    | ok fp =>
      rw [hw] at h
      change isoFrom _ _ _ _ = _ at h
      unfold isoFrom at h
      split at h
      · cases h
      · injection h with h
        subst h
        rfl

/-- **C127 is violated**: a kernel that is isotropic along some of its dimensions only cannot be built. -/
theorem C127_mixed_violated (window : Nat → Except CErr (List ℝ)) (ortho : List KI → Except CErr RArr) (fill : Option ℝ)
    (hortho : ∀ l k, ortho l = .ok k → k.shape.length = l.length)
    (spec : List (String × KI)) (iso dims : List String) (h1 : ∃ p ∈ spec, p.1 ∈ iso) (h2 : ∃ p ∈ spec, p.1 ∉ iso) :
    ∃ e, generateKernelIso window ortho fill spec iso dims = .error e := by
  cases hg : generateKernelIso window ortho fill spec iso dims with
  | error e => exact ⟨e, rfl⟩
  | ok res =>
    exfalso
    unfold generateKernelIso at hg
    split at hg
    · cases hg
    · cases hr : isoSplit iso spec [] [] none with
      | error e => rw [hr] at hg; cases hg
      | ok r =>
        rw [hr] at hg
        obtain ⟨e1, e2, e3⟩ := isoSplit_spec iso spec _ _ _ _ hr
        have ho : r.1 ≠ [] := by
          obtain ⟨p, hp, hp'⟩ := h2
          rw [e1]
          intro h
          have : p ∈ spec.filter (fun p => decide (p.1 ∉ iso)) := List.mem_filter.2 ⟨hp, by simpa using hp'⟩
          rw [List.nil_append] at h
          rw [h] at this
          simp at this
        change isoAssemble _ _ _ _ = _ at hg
        unfold isoAssemble at hg
        rw [if_neg ho] at hg
        cases hk1 : ortho (r.1.map (·.2)) with
        | error e => rw [hk1] at hg; cases hg
        | ok a =>
          rw [hk1] at hg
          have ha := hortho _ _ hk1
          cases hf : r.2.2 with
          | none => exact e3 (Or.inl h1) hf
          | some f =>
            rw [hf, Option.elim_some] at hg
            cases hk2 : isoKernel (r.2.1.map (·.2)) (f.window window) fill none with
            | error e => rw [hk2] at hg; cases hg
            | ok b =>
              rw [hk2] at hg
              have hb := isoKernel_shape _ _ _ _ _ hk2
              change Except.bind (tensordot2 a b) _ = _ at hg
              cases ht : tensordot2 a b with
              | error e => rw [ht] at hg; cases hg
              | ok k =>
                rw [ht] at hg
                change (if _ then _ else _) = _ at hg
                have hk : k.shape.length + 2 = a.shape.length + b.shape.length := by
                  unfold tensordot2 at ht
                  cases hl : a.shape.getLast? with
                  | none => rw [hl] at ht; cases ht
                  | some n =>
                    cases hbs : b.shape with
                    | nil => rw [hl, hbs] at ht; cases ht
                    | cons m ms =>
                      rw [hl, hbs] at ht
                      dsimp only at ht
                      split at ht
                      · injection ht with ht
                        subst ht
                        have : a.shape ≠ [] := by intro h; rw [h] at hl; cases hl
                        have := List.length_pos_iff.2 this
                        simp only [List.length_append, List.length_dropLast, List.length_cons]
                        omega
                      · cases ht
                rw [if_pos (by
                  rw [ha, hb] at hk
                  simp only [List.length_map, List.length_append] at hk ⊢
                  omega)] at hg
                cases hg

/-- **C127 is violated** by lists: the isotropic kernel of the list 1, 2, 1 does not have the value 2 at its center, and its middle
row is 1, 9/5, 1. -/
theorem C127_list_violated (window : Nat → Except CErr (List ℝ)) (ortho : List KI → Except CErr RArr) (fill : Option ℝ) :
    ∃ k, generateKernelIso window ortho fill [("y", .arr [1, 2, 1]), ("x", .arr [1, 2, 1])] ["y", "x"] ["y", "x"] = .ok (["y", "x"], k) ∧
      k.shape = [3, 3] ∧ k.val [1, 0] = some 1 ∧ k.val [1, 1] = some (9 / 5) ∧ k.val [1, 2] = some 1 := by
  have hsplit : isoSplit ["y", "x"] [("y", KI.arr [1, 2, 1]), ("x", .arr [1, 2, 1])] [] [] none =
      .ok ([], [("y", 3), ("x", 3)], some (.arr [1, 2, 1])) := by
    rw [isoSplit, if_neg (by simp)]
    show isoSplit _ _ _ _ _ = _
    rw [isoSplit, if_neg (by simp)]
    have : isoCheck (some (.arr [1, 2, 1])) (.arr [1, 2, 1]) = .ok (.arr [1, 2, 1]) := by
      have hc : allClose [1, 2, 1] [1, 2, 1] = .ok true := by
        simp [allClose]
        norm_num
      simp only [isoCheck, hc]
      rfl
    rw [this]
    rfl
  have hwin : windowOfValues [1, 2, 1] 6 = .ok [1, 7 / 5, 9 / 5, 9 / 5, 7 / 5, 1] := by
    obtain ⟨l, hl, hlen, hi, -⟩ := C126_window [1, 2, 1] (by simp) 6
    rw [hl]
    congr 1
    match l, hlen, hi with
    | [a, b, c, d, e, f], _, hi =>
      have v0 := hi 0 a rfl 0 0 1 2 rfl rfl (by norm_num) (by norm_num) (by norm_num)
      have v1 := hi 1 b rfl 0 (2 / 5) 1 2 rfl rfl (by norm_num) (by norm_num) (by norm_num)
      have v2 := hi 2 c rfl 0 (4 / 5) 1 2 rfl rfl (by norm_num) (by norm_num) (by norm_num)
      have v3 := hi 3 d rfl 1 (1 / 5) 2 1 rfl rfl (by norm_num) (by norm_num) (by norm_num)
      have v4 := hi 4 e rfl 1 (3 / 5) 2 1 rfl rfl (by norm_num) (by norm_num) (by norm_num)
      have v5 := hi 5 f rfl 1 1 2 1 rfl rfl (by norm_num) (by norm_num) (by norm_num)
      rw [v0, v1, v2, v3, v4, v5]
      norm_num
  have hw : WindowValues [3, 3] (KI.window window (.arr [1, 2, 1])) none [1, 7 / 5, 9 / 5, 9 / 5, 7 / 5, 1] :=
    ⟨by simp, Or.inl ⟨rfl, 3, by simp, by simp, hwin, rfl⟩⟩
  obtain ⟨k, hk, hshape, hv⟩ := C125_value [3, 3] _ fill none _ hw (by simp)
  refine ⟨k, ?_, hshape, ?_, ?_, ?_⟩
  · unfold generateKernelIso
    rw [if_neg (by simp), hsplit]
    rw [exceptBind_ok]
    unfold isoAssemble
    simp only [if_true, Option.elim_some, List.map_cons, List.map_nil, hk]
    show (if _ then _ else _) = _
    rw [if_neg (by rw [hshape]; simp)]
    simp
  · have hd : centerDist2 [3, 3] [1, 0] = (1 / 2) ^ 2 := by simp [centerDist2]; norm_num
    have hq : Real.sqrt (centerDist2 [3, 3] [1, 0]) = 1 / 2 := by rw [hd, Real.sqrt_sq (by norm_num)]
    obtain ⟨y, h1, h2, -⟩ := (hv [1, 0]).2 (by rw [hq])
    rw [h1, h2 0 0 1 (7 / 5) rfl rfl le_rfl zero_le_one (by rw [hq]; norm_num)]
    norm_num
  · have hd : centerDist2 [3, 3] [1, 1] = 0 := by simp [centerDist2]; norm_num
    obtain ⟨y, h1, h2, -⟩ := (hv [1, 1]).2 (by rw [hd, Real.sqrt_zero]; norm_num)
    rw [h1, h2 2 (1 / 2) (9 / 5) (9 / 5) rfl rfl (by norm_num) (by norm_num) (by rw [hd, Real.sqrt_zero]; norm_num)]
    norm_num
  · have hd : centerDist2 [3, 3] [1, 2] = (1 / 2) ^ 2 := by simp [centerDist2]; norm_num
    have hq : Real.sqrt (centerDist2 [3, 3] [1, 2]) = 1 / 2 := by rw [hd, Real.sqrt_sq (by norm_num)]
    obtain ⟨y, h1, h2, -⟩ := (hv [1, 2]).2 (by rw [hq])
    rw [h1, h2 0 0 1 (7 / 5) rfl rfl le_rfl zero_le_one (by rw [hq]; norm_num)]
    norm_num

/-! ## concrete cases -/

/-- the window `np.ones` -/
noncomputable def onesR (n : Nat) : Except CErr (List ℝ) := .ok (List.replicate n 1)

example : WindowValues [3, 5] onesR none (List.replicate 10 1) := ⟨by simp, Or.inl ⟨rfl, 5, by simp, by simp, rfl, by simp⟩⟩

example : WindowValues [3, 5] onesR (some 4) (List.replicate 4 1) := ⟨by simp, Or.inr ⟨4, rfl, rfl, by simp⟩⟩

example : Mirrored [3, 5] [0, 1] [2, 1] ∧ Mirrored [3, 5] [0, 1] [2, 3] := by
  constructor <;> refine ⟨rfl, rfl, ?_⟩ <;> intro a w i i' h1 h2 h3 <;> rcases a with _ | _ | a <;> simp at h1 h2 h3 <;> omega

example : ([1, 3, 1] : List ℝ).reverse = [1, 3, 1] := rfl

/-- a kernel of ones, isotropic along both dimensions: the corner has the fill value -/
example : ∃ k, generateKernelIso onesR (fun _ => .error .valueError) (some 0) [("y", .scalar 3), ("x", .scalar 5)] ["y", "x"] ["t", "y", "x"] = .ok (["y", "x"], k) ∧
    k.val [0, 0] = some 0 := by
  have hw : WindowValues ([("y", 3), ("x", 5)].map Prod.snd) onesR none (List.replicate 10 1) := ⟨by simp, Or.inl ⟨rfl, 5, by simp, by simp, rfl, by simp⟩⟩
  obtain ⟨k, h1, h2⟩ := C127_sizes onesR (fun _ => .error .valueError) (some 0) [("y", 3), ("x", 5)] ["y", "x"] ["t", "y", "x"] (by simp) (by simp) (by simp) _ hw
  refine ⟨k, h2, ?_⟩
  obtain ⟨k', h3, -, h4⟩ := C125_value _ onesR (some 0) none _ hw (by simp)
  rw [h1] at h3
  injection h3 with h3
  subst h3
  apply (h4 [0, 0]).1
  apply Real.lt_sqrt_of_sq_lt
  simp [centerDist2]

end Xoa
