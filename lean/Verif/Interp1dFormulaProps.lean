import Verif.Interp1dProps

/-!
# C05, the formulas of `cubic1d` and `hermit1d` inside a cell

`xoa/interp.py:208-293` and `xoa/interp.py:295-392`.  The textbook formulas are written below,
independently of the code: four successive values `p0 p1 p2 p3`, result at relative position `mu`
between `p1` and `p2`.
-/

namespace Xoa
open V

/-- Textbook cubic interpolation (P. Bourke): `a0 mu³ + a1 mu² + a2 mu + a3` with
`a0 = p3 - p2 - p0 + p1`, `a1 = p0 - p1 - a0`, `a2 = p2 - p0`, `a3 = p1` -/
def bourkeCubic (p0 p1 p2 p3 mu : ℚ) : ℚ :=
  (p3 - p2 - p0 + p1) * mu ^ 3 + (p0 - p1 - (p3 - p2 - p0 + p1)) * mu ^ 2 + (p2 - p0) * mu + p1

/-- tangent of the Hermite formula at the second of three successive values -/
def kbTangent (bias tension p q r : ℚ) : ℚ :=
  (q - p) * (1 + bias) * (1 - tension) / 2 + (r - q) * (1 - bias) * (1 - tension) / 2

/-- Textbook Hermite interpolation with bias and tension (P. Bourke): Hermite basis on the two
values and their tangents -/
def bourkeHermite (bias tension p0 p1 p2 p3 mu : ℚ) : ℚ :=
  (2 * mu ^ 3 - 3 * mu ^ 2 + 1) * p1 + (mu ^ 3 - 2 * mu ^ 2 + mu) * kbTangent bias tension p0 p1 p2
    + (mu ^ 3 - mu ^ 2) * kbTangent bias tension p1 p2 p3 + (3 * mu ^ 2 - 2 * mu ^ 3) * p2

/-- value before node `i` used by the four points formulas: the value of the previous node, or a
linear extension when `i` is the first node -/
def BeforeValue (yi : Row) (p : Int → ℚ) (i : Int) (q : ℚ) : Prop :=
  (IsFirstValid yi i ∧ q = 2 * p i - p (i + 1)) ∨ (¬ IsFirstValid yi i ∧ q = p (i - 1))

/-- value after node `i + 1`: the value of the next node, or a linear extension when `i + 1` is
the last node -/
def AfterValue (yi : Row) (p : Int → ℚ) (i : Int) (q : ℚ) : Prop :=
  (IsLastValid yi (i + 1) ∧ q = 2 * p (i + 1) - p i) ∨ (¬ IsLastValid yi (i + 1) ∧ q = p (i + 2))

theorem ch_formula (v yi yo : Row) (w : Int → Int → Int → V → V → V)
    (g : ℚ → ℚ → ℚ → ℚ → ℚ → ℚ)
    (hw : ∀ imin imax i a b c v0 v1 c0 c1, a < b → 0 ≤ i → v.get i = some v0 → v.get (i + 1) = some v1 →
      vc0 v v imin i = some c0 → vc1 v imax i = some c1 →
      w imin imax i (some (c - a)) (some (b - c)) = some (g c0 v0 v1 c1 ((c - a) / (b - a))))
    (ascI : StrictAsc yi) (ascO : AscRow yo) (j : Int) (hj0 : 0 ≤ j) (hj : j < yo.n)
    (c : ℚ) (hc : yo.get j = some c) (hbr : ∃ i, Brackets yi i c)
    (p : Int → ℚ) (hval : ∀ m : Int, 0 ≤ m → m < yi.n → v.get m = some (p m)) :
    ∃ i a b q r, Brackets yi i c ∧ yi.get i = some a ∧ yi.get (i + 1) = some b ∧
      BeforeValue yi p i q ∧ AfterValue yi p i r ∧
      chRow yi yo w (fun _ => none) j = some (g q (p i) (p (i + 1)) r ((c - a) / (b - a))) := by
  obtain ⟨i, a, b, ⟨i0, i1, a', b', ha', hb', h1, h2⟩, ha, hb, h⟩ :=
    chRow_complete yi yo ascI.asc ascO w (fun _ => none) j hj0 hj c hc hbr
  rw [ha] at ha'; cases ha'; rw [hb] at hb'; cases hb'
  have hab : a < b := ascI i (i + 1) i0 (by omega) i1 a b ha hb
  have p1 := valid_in_iminmax yi i0 (by omega) (by rw [ha]; simp)
  have p2 := valid_in_iminmax yi (by omega : 0 ≤ i + 1) i1 (by rw [hb]; simp)
  obtain ⟨e0, e1, ec0, ec1⟩ := vc_valid v (getIminmax yi).1 (getIminmax yi).2 i (i - 1) (i + 2)
    p1.2.2.1 p1.1 (by omega) (Or.inl (by omega)) (by omega) (Or.inl (by omega)) (by omega)
    p (fun m m1 m2 _ _ => hval m (by omega) (by omega))
  have hF : ∀ k, IsFirstValid yi k → k = (getIminmax yi).1 := by
    intro k hk
    obtain ⟨k0, kn, kv, kf⟩ := hk
    rcases getIminmax_spec yi with ⟨_, _, h'⟩ | ⟨g1, g2, g3, g4, g5, g6, g7⟩
    · exact absurd (h' i i0 (by omega)) (by rw [ha]; simp)
    · rcases lt_trichotomy k (getIminmax yi).1 with hlt | heq | hgt
      · exact absurd (g6 k k0 hlt) kv
      · exact heq
      · exact absurd (kf _ g1 hgt) g4
  have hL : ∀ k, IsLastValid yi k → k = (getIminmax yi).2 := by
    intro k hk
    obtain ⟨k0, kn, kv, kf⟩ := hk
    rcases getIminmax_spec yi with ⟨_, _, h'⟩ | ⟨g1, g2, g3, g4, g5, g6, g7⟩
    · exact absurd (h' i i0 (by omega)) (by rw [ha]; simp)
    · rcases lt_trichotomy k (getIminmax yi).2 with hlt | heq | hgt
      · exact absurd (kf _ hlt g3) g5
      · exact heq
      · exact absurd (g7 k hgt kn) kv
  have hF' : i = (getIminmax yi).1 → IsFirstValid yi i := by
    intro hi
    rcases getIminmax_spec yi with ⟨_, _, h'⟩ | ⟨g1, g2, g3, g4, g5, g6, g7⟩
    · exact absurd (h' i i0 (by omega)) (by rw [ha]; simp)
    · rw [hi]; exact ⟨g1, by omega, g4, g6⟩
  have hL' : i = (getIminmax yi).2 - 1 → IsLastValid yi (i + 1) := by
    intro hi
    rcases getIminmax_spec yi with ⟨_, _, h'⟩ | ⟨g1, g2, g3, g4, g5, g6, g7⟩
    · exact absurd (h' i i0 (by omega)) (by rw [ha]; simp)
    · rw [show i + 1 = (getIminmax yi).2 by omega]; exact ⟨by omega, g3, g5, g7⟩
  refine ⟨i, a, b, _, _, ⟨i0, i1, a, b, ha, hb, h1, h2⟩, ha, hb, ?_, ?_,
    by rw [h]; exact hw _ _ i a b c _ _ _ _ hab i0 e0 e1 ec0 ec1⟩
  · by_cases hi : i = (getIminmax yi).1
    · left; exact ⟨hF' hi, by rw [if_pos hi]⟩
    · right; exact ⟨fun hh => hi (hF i hh), by rw [if_neg hi]⟩
  · by_cases hi : i = (getIminmax yi).2 - 1
    · left; exact ⟨hL' hi, by rw [if_pos hi]⟩
    · right; exact ⟨fun hh => hi (by have := hL _ hh; omega), by rw [if_neg hi]⟩

/-- C05: inside a cell `cubic1d` is the four points cubic formula, with the values before the
first node and after the last node extended linearly. -/
theorem C05_cubic1d_formula (vari yi yo : Mat) (ix j : Int)
    (hx0 : 0 ≤ ix) (hx : ix < vari.nx) (hj0 : 0 ≤ j) (hj : j < yo.ny)
    (hi : 0 < yi.nx) (ho : 0 < yo.nx)
    (ascI : StrictAsc (yi.row (ix % yi.nx))) (ascO : AscRow (yo.row (ix % yo.nx)))
    (c : ℚ) (hc : yo.get (ix % yo.nx) j = some c)
    (hbr : ∃ i, Brackets (yi.row (ix % yi.nx)) i c)
    (p : Int → ℚ) (hval : ∀ m : Int, 0 ≤ m → m < yi.ny → vari.get ix m = some (p m)) :
    ∃ i a b q r, Brackets (yi.row (ix % yi.nx)) i c ∧ yi.get (ix % yi.nx) i = some a ∧
      yi.get (ix % yi.nx) (i + 1) = some b ∧
      BeforeValue (yi.row (ix % yi.nx)) p i q ∧ AfterValue (yi.row (ix % yi.nx)) p i r ∧
      (cubic1d vari yi yo).get ix j =
        some (bourkeCubic q (p i) (p (i + 1)) r ((c - a) / (b - a))) := by
  have hrow : (cubic1d vari yi yo).get ix = cubicBody vari yi yo ix (fun _ => none) :=
    mkOut_row _ _ _ ix hx0 (by omega)
  unfold cubicBody at hrow
  rw [rowIdx_eq _ _ hi, rowIdx_eq _ _ ho, rowIdx_self _ _ hx0 hx] at hrow
  rw [hrow]
  refine ch_formula (vari.row ix) _ _ _ bourkeCubic ?_ ascI ascO j hj0 hj c hc hbr p hval
  intro imin imax i a b c v0 v1 c0 c1 hab hi0 h0 h1 hc0 hc1
  obtain ⟨mu, hmu, h⟩ := cubicW_val (vari.row ix) imin imax i a b c v0 v1 c0 c1 hab hi0 h0 h1 hc0 hc1
  rw [h, hmu]; congr 1; unfold bourkeCubic; ring

/-- C05: inside a cell `hermit1d` is the Hermite formula with the given bias and tension, with
the values before the first node and after the last node extended linearly. -/
theorem C05_hermit1d_formula (vari yi yo : Mat) (bias tension : ℚ) (ix j : Int)
    (hx0 : 0 ≤ ix) (hx : ix < vari.nx) (hj0 : 0 ≤ j) (hj : j < yo.ny)
    (hi : 0 < yi.nx) (ho : 0 < yo.nx)
    (ascI : StrictAsc (yi.row (ix % yi.nx))) (ascO : AscRow (yo.row (ix % yo.nx)))
    (c : ℚ) (hc : yo.get (ix % yo.nx) j = some c)
    (hbr : ∃ i, Brackets (yi.row (ix % yi.nx)) i c)
    (p : Int → ℚ) (hval : ∀ m : Int, 0 ≤ m → m < yi.ny → vari.get ix m = some (p m)) :
    ∃ i a b q r, Brackets (yi.row (ix % yi.nx)) i c ∧ yi.get (ix % yi.nx) i = some a ∧
      yi.get (ix % yi.nx) (i + 1) = some b ∧
      BeforeValue (yi.row (ix % yi.nx)) p i q ∧ AfterValue (yi.row (ix % yi.nx)) p i r ∧
      (hermit1d vari yi yo bias tension).get ix j =
        some (bourkeHermite bias tension q (p i) (p (i + 1)) r ((c - a) / (b - a))) := by
  have hrow : (hermit1d vari yi yo bias tension).get ix =
      hermitBody bias tension vari yi yo ix (fun _ => none) :=
    mkOut_row _ _ _ ix hx0 (by omega)
  unfold hermitBody at hrow
  rw [rowIdx_eq _ _ hi, rowIdx_eq _ _ ho, rowIdx_self _ _ hx0 hx] at hrow
  rw [hrow]
  refine ch_formula (vari.row ix) _ _ _ (bourkeHermite bias tension) ?_ ascI ascO j hj0 hj c hc hbr p hval
  intro imin imax i a b c v0 v1 c0 c1 hab hi0 h0 h1 hc0 hc1
  obtain ⟨mu, hmu, h⟩ := hermitW_val bias tension (vari.row ix) imin imax i a b c v0 v1 c0 c1 hab hi0 h0 h1 hc0 hc1
  rw [h, hmu]; congr 1; unfold bourkeHermite kbTangent; ring

/-- the hypotheses are met by `exV3`, `exY3` (`exO3` at coordinate 1, in the first cell, and at
coordinate 4): the values computed by the routines are those of the formulas -/
example : (cubic1d exV3 exY3 exO3).get 0 2 = some (bourkeCubic (2 * 1 - 3) 1 3 7 (1 / 2)) ∧
    (hermit1d exV3 exY3 exO3 (1/4) (1/2)).get 0 2 =
      some (bourkeHermite (1/4) (1/2) (2 * 1 - 3) 1 3 7 (1 / 2)) ∧
    bourkeHermite (1/4) (1/2) (2 * 1 - 3) 1 3 7 (1 / 2) ≠ bourkeHermite 0 0 (2 * 1 - 3) 1 3 7 (1 / 2) := by
  decide +kernel

/-! ## C68 -/

/-- **C68**, exact: what `cubic1d` gives for data that are affine in the node index, at the relative position `mu` in the cell `i`: the error is
`β mu (1 - mu) (1 - 2 mu)`, and the data are reproduced exactly at the nodes, in the middle of the cells, and everywhere for constant data. -/
theorem C68_cubic1d_affine_iff_partial (vari yi yo : Mat) (ix j : Int)
    (hx0 : 0 ≤ ix) (hx : ix < vari.nx) (hj0 : 0 ≤ j) (hj : j < yo.ny)
    (hi : 0 < yi.nx) (ho : 0 < yo.nx)
    (ascI : StrictAsc (yi.row (ix % yi.nx))) (ascO : AscRow (yo.row (ix % yo.nx)))
    (α β c : ℚ) (hc : yo.get (ix % yo.nx) j = some c)
    (hbr : ∃ i, Brackets (yi.row (ix % yi.nx)) i c)
    (hval : ∀ m : Int, 0 ≤ m → m < yi.ny → vari.get ix m = some (α + β * m)) :
    ∃ (i : Int) (a b mu : ℚ), yi.get (ix % yi.nx) i = some a ∧ yi.get (ix % yi.nx) (i + 1) = some b ∧ a ≤ c ∧ c ≤ b ∧ c = a + mu * (b - a) ∧
      (cubic1d vari yi yo).get ix j = some (α + β * (i + mu) + β * (mu * (1 - mu) * (1 - 2 * mu))) ∧
      ((cubic1d vari yi yo).get ix j = some (α + β * (i + mu)) ↔ β = 0 ∨ mu = 0 ∨ mu = 1 / 2 ∨ mu = 1) := by
  obtain ⟨i, a, b, q, r, ⟨i0, i1, a', b', ha', hb', h1, h2⟩, ha, hb, hq, hr, h⟩ :=
    C05_cubic1d_formula vari yi yo ix j hx0 hx hj0 hj hi ho ascI ascO c hc hbr (fun m => α + β * m) hval
  have ea : a' = a := by have := ha'.symm.trans ha; simpa using this
  have eb : b' = b := by have := hb'.symm.trans hb; simpa using this
  subst ea; subst eb
  have hab : a' < b' := ascI i (i + 1) i0 (by omega) i1 a' b' ha' hb'
  have hd : b' - a' ≠ 0 := by linarith
  have hq' : q = α + β * ((i : ℚ) - 1) := by
    rcases hq with ⟨_, hq⟩ | ⟨_, hq⟩ <;> rw [hq] <;> push_cast <;> ring
  have hr' : r = α + β * ((i : ℚ) + 2) := by
    rcases hr with ⟨_, hr⟩ | ⟨_, hr⟩ <;> rw [hr] <;> push_cast <;> ring
  refine ⟨i, a', b', (c - a') / (b' - a'), ha, hb, h1, h2, by field_simp; ring, ?_⟩
  generalize (c - a') / (b' - a') = mu at h ⊢
  have hv : bourkeCubic q (α + β * (i : Int)) (α + β * ((i + 1 : Int) : ℚ)) r mu =
      α + β * (i + mu) + β * (mu * (1 - mu) * (1 - 2 * mu)) := by
    rw [hq', hr']; unfold bourkeCubic; push_cast; ring
  rw [hv] at h
  refine ⟨h, ?_⟩
  rw [h]
  constructor
  · intro e
    have e' : β * (mu * (1 - mu) * (1 - 2 * mu)) = 0 := by
      have := Option.some.inj e
      linarith
    rcases mul_eq_zero.1 e' with e1 | e1
    · exact Or.inl e1
    · rcases mul_eq_zero.1 e1 with e2 | e2
      · rcases mul_eq_zero.1 e2 with e3 | e3
        · exact Or.inr (Or.inl e3)
        · exact Or.inr (Or.inr (Or.inr (by linarith)))
      · exact Or.inr (Or.inr (Or.inl (by linarith)))
  · rintro (e | e | e | e) <;> rw [e] <;> congr 1 <;> ring

/-- at a quarter of a cell of the regular coordinate `0, 1, 2, 3`: the error is `3/32` -/
example : (cubic1d (Mat.ofLists [[some 0, some 1, some 2, some 3]]) (Mat.ofLists [[some 0, some 1, some 2, some 3]])
    (Mat.ofLists [[some (5/4), some (3/2)]])).get 0 0 = some (5/4 + 3/32) ∧
    (cubic1d (Mat.ofLists [[some 0, some 1, some 2, some 3]]) (Mat.ofLists [[some 0, some 1, some 2, some 3]])
    (Mat.ofLists [[some (5/4), some (3/2)]])).get 0 1 = some (3/2) := by
  refine ⟨by decide +kernel, by decide +kernel⟩

end Xoa
