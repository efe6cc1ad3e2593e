import Verif.OrderProps

/-!
# C230: errors in the data are not amplified

Two runs on data that differ by at most `e` everywhere give results that differ by at most `e`; with the cubic method at most `3 e / 2`, with the Hermite
method at most `5 e / 4`.
-/

namespace Xoa
open V

/-- the two values differ by at most `e`, when there are both -/
def NearBy (e : ℚ) (x y : V) : Prop := ∀ a b, x = some a → y = some b → |a - b| ≤ e

/-- both are missing, or they differ by at most `e` -/
def NearByM (e : ℚ) (x y : V) : Prop := (x = none ↔ y = none) ∧ NearBy e x y

theorem NearBy.symm {e : ℚ} {x y : V} (h : NearBy e x y) : NearBy e y x := fun a b ha hb => by rw [abs_sub_comm]; exact h b a hb ha
theorem NearByM.symm {e : ℚ} {x y : V} (h : NearByM e x y) : NearByM e y x := ⟨h.1.symm, h.2.symm⟩

theorem NearBy.below {e : ℚ} {x y : V} (h : NearBy e x y) : Below x (y.map fun v => 1 * v + e) := by
  intro a b ha hb
  cases y with
  | none => simp at hb
  | some v =>
    simp only [Option.map_some, Option.some.injEq] at hb
    have := (abs_le.1 (h a v ha rfl)).2
    linarith

theorem within_of {e : ℚ} {x y : V} (h1 : Below x (y.map fun v => 1 * v + e)) (h2 : Below y (x.map fun v => 1 * v + e)) : NearBy e x y := by
  intro a b ha hb
  subst ha hb
  have e1 := h1 a _ rfl rfl
  have e2 := h2 b _ rfl rfl
  rw [abs_le]; constructor <;> linarith

theorem NearByM.below {e : ℚ} {x y : V} (h : NearByM e x y) : BelowM x (y.map fun v => 1 * v + e) := by
  refine ⟨?_, h.2.below⟩
  rw [h.1]; cases y <;> simp

theorem withinM_of {e : ℚ} {x y : V} (h1 : BelowM x (y.map fun v => 1 * v + e)) (h2 : BelowM y (x.map fun v => 1 * v + e)) : NearByM e x y := by
  refine ⟨?_, within_of h1.2 h2.2⟩
  rw [h1.1]; cases y <;> simp

/-! ## linear, nearest -/

/-- **C230 (interpolation).** Linear and nearest interpolation of data that differ by at most `e` differ by at most `e`, whatever the coordinates, sorted or
not, and the missing values. -/
theorem C230_interp (e : ℚ) (v1 v2 yi yo : Mat) (hsh : v1.SameShape v2) (h : ∀ i j, NearBy e (v1.get i j) (v2.get i j)) (i j : Int) :
    NearBy e ((linear1d v1 yi yo).get i j) ((linear1d v2 yi yo).get i j) ∧ NearBy e ((nearest1d v1 yi yo).get i j) ((nearest1d v2 yi yo).get i j) := by
  have a := C186_interp v1 (v2.inUnits 1 e) yi yo hsh (fun i j => (h i j).below) i j
  have b := C186_interp v2 (v1.inUnits 1 e) yi yo ⟨hsh.1.symm, hsh.2.symm⟩ (fun i j => (h i j).symm.below) i j
  have u1 := C159_data_units 1 e v1 yi yo 0 0
  have u2 := C159_data_units 1 e v2 yi yo 0 0
  rw [u2.1, u2.2.1] at a
  rw [u1.1, u1.2.1] at b
  exact ⟨within_of a.1 b.1, within_of a.2 b.2⟩

/-! ## cubic, Hermite -/

/-- the second value, dropped when it is not within `e` of the first one -/
def closec (e : ℚ) (x y : V) : V := match x, y with
  | some a, some b => if |a - b| ≤ e then some b else none
  | _, y => y

theorem closec_iff (e : ℚ) (x y : V) : y = closec e x y ↔ NearBy e x y := by
  unfold NearBy closec
  cases x with
  | none => simp
  | some a =>
    cases y with
    | none => simp
    | some b =>
      by_cases h : |a - b| ≤ e
      · simp [h]
      · simp [h]

/-- the value that is written, which is only looked at inside a cell -/
def whenInside (w : Int → V → V → V) (i : Int) (d0 d1 : V) : V := if (le (some 0) d0 && le (some 0) d1) = true then w i d0 d1 else none

theorem chInner_inCell (yi yo : Row) (w : Int → V → V → V) (iyi : Int) (l : List Int) (m : Int) (out : Int → V) :
    chInner yi yo (whenInside w) iyi l m out = chInner yi yo w iyi l m out := by
  induction l generalizing m out with
  | nil => rfl
  | cons j l ih =>
    simp only [chInner]
    split
    · rfl
    · split
      · rename_i hc
        rw [show whenInside w iyi (sub (yo.rd j) (yi.rd iyi)) (sub (yi.rd (iyi + 1)) (yo.rd j)) = w iyi (sub (yo.rd j) (yi.rd iyi)) (sub (yi.rd (iyi + 1)) (yo.rd j)) from by
          unfold whenInside; rw [if_pos hc]]
        exact ih _ _
      · exact ih _ _

theorem chOuter_inCell (yi yo : Row) (w : Int → V → V → V) (M : Int) (l : List Int) (m : Int) (out : Int → V) :
    chOuter yi yo (whenInside w) M l m out = chOuter yi yo w M l m out := by
  induction l generalizing m out with
  | nil => rfl
  | cons j l ih =>
    simp only [chOuter, chInner_inCell, ih]

theorem chRow_inCell (yi yo : Row) (w : Int → Int → Int → V → V → V) (out : Int → V) :
    chRow yi yo (fun p q => whenInside (w p q)) out = chRow yi yo w out := chOuter_inCell _ _ _ _ _ _ _

/-- a sum with two nonnegative and two nonpositive weights -/
theorem four_weights (e p0 p1 p2 p3 d0 d1 d2 d3 : ℚ) (h0 : 0 ≤ p0) (h1 : 0 ≤ p1) (h2 : 0 ≤ p2) (h3 : 0 ≤ p3) (a0 : |d0| ≤ e) (a1 : |d1| ≤ e)
    (a2 : |d2| ≤ e) (a3 : |d3| ≤ e) : |-(p0 * d0) + p1 * d1 + p2 * d2 - p3 * d3| ≤ (p0 + p1 + p2 + p3) * e := by
  rw [abs_le] at *
  constructor <;> nlinarith [mul_le_mul_of_nonneg_left a0.1 h0, mul_le_mul_of_nonneg_left a0.2 h0, mul_le_mul_of_nonneg_left a1.1 h1,
    mul_le_mul_of_nonneg_left a1.2 h1, mul_le_mul_of_nonneg_left a2.1 h2, mul_le_mul_of_nonneg_left a2.2 h2, mul_le_mul_of_nonneg_left a3.1 h3,
    mul_le_mul_of_nonneg_left a3.2 h3]

/-- the neighbours of the cell, on the left and on the right: the values of nodes, or the values that extend the two values of the cell linearly -/
theorem ghost0 (r : Row) (m i : Int) : (vc0 r r m i = r.rd (i - 1)) ∨ (vc0 r r m i = sub (mul vtwo (r.rd i)) (r.rd (i + 1))) := by
  unfold vc0; split
  · exact Or.inr rfl
  · exact Or.inl rfl
theorem ghost1 (r : Row) (m i : Int) : (vc1 r m i = r.rd (i + 2)) ∨ (vc1 r m i = sub (mul vtwo (r.rd (i + 1))) (r.rd i)) := by
  unfold vc1; split
  · exact Or.inr rfl
  · exact Or.inl rfl

theorem mu_unit {d0 d1 mu : V} (hc : (le (some 0) d0 && le (some 0) d1) = true) (hm : mu = div d0 (add d0 d1)) :
    mu = none ∨ ∃ x : ℚ, mu = some x ∧ 0 ≤ x ∧ x ≤ 1 := by
  rw [Bool.and_eq_true, le_iff, le_iff] at hc
  obtain ⟨⟨_, p, e1, rfl, hp⟩, _, q, e2, rfl, hq⟩ := hc
  obtain rfl := Option.some.inj e1
  obtain rfl := Option.some.inj e2
  rw [add_some] at hm
  by_cases hz : p + q = 0
  · left; rw [hm]; simp [div, hz]
  · right
    have hpos : 0 < p + q := lt_of_le_of_ne (by linarith) (Ne.symm hz)
    exact ⟨p / (p + q), by rw [hm, div_some hz], div_nonneg hp hpos.le, by rw [div_le_one hpos]; linarith⟩

theorem cubic_some (r : Row) (p q i : Int) (d0 d1 : V) (x a : ℚ) (hm : div d0 (add d0 d1) = some x) (h : cubicW r r p q i d0 d1 = some a) :
    ∃ c0 v0 v1 c1 : ℚ, vc0 r r p i = some c0 ∧ r.rd i = some v0 ∧ r.rd (i + 1) = some v1 ∧ vc1 r q i = some c1 ∧
      a = -(x * (1 - x) ^ 2 * c0) + (1 - x) * (1 + x - x ^ 2) * v0 + x * (1 + x - x ^ 2) * v1 - x ^ 2 * (1 - x) * c1 := by
  unfold cubicW at h
  dsimp only at h
  rw [hm] at h
  revert h
  cases h0 : vc0 r r p i <;> cases h1 : r.rd i <;> cases h2 : r.rd (i + 1) <;> cases h3 : vc1 r q i <;> simp [cube, sq]
  intro h
  rw [← h]; ring

theorem hermit_some (r : Row) (p q i : Int) (d0 d1 : V) (x a : ℚ) (hm : div d0 (add d0 d1) = some x) (h : hermitW 0 0 r r p q i d0 d1 = some a) :
    ∃ c0 v0 v1 c1 : ℚ, vc0 r r p i = some c0 ∧ r.rd i = some v0 ∧ r.rd (i + 1) = some v1 ∧ vc1 r q i = some c1 ∧
      a = -(x * (1 - x) ^ 2 / 2 * c0) + ((1 - x) ^ 2 * (1 + 2 * x) + x ^ 2 * (1 - x) / 2) * v0 + (x ^ 2 * (3 - 2 * x) + x * (1 - x) ^ 2 / 2) * v1 -
        x ^ 2 * (1 - x) / 2 * c1 := by
  unfold hermitW at h
  dsimp only at h
  rw [hm] at h
  revert h
  cases h0 : vc0 r r p i <;> cases h1 : r.rd i <;> cases h2 : r.rd (i + 1) <;> cases h3 : vc1 r q i <;> simp [cube, sq, vtwo, vthree, vone]
  intro h
  rw [← h]; ring

/-- the difference of two values given by nonpositive weights of the neighbours and nonnegative weights of the values of the cell, when the neighbours may be
extended from the values of the cell -/
theorem ghost_bound (e : ℚ) (r1 r2 : Row) (h : ∀ i, NearBy e (r1.rd i) (r2.rd i)) (p q i : Int) (p0 p1 p2 p3 a b c0 v0 v1 c1 c0' v0' v1' c1' : ℚ)
    (h0 : 0 ≤ p0) (h1 : 0 ≤ p1 - 2 * p0) (h2 : 0 ≤ p2) (h3 : 0 ≤ p3) (h1' : 0 ≤ p1) (h2' : 0 ≤ p2 - 2 * p3)
    (a0 : vc0 r1 r1 p i = some c0) (a1 : r1.rd i = some v0) (a2 : r1.rd (i + 1) = some v1) (a3 : vc1 r1 q i = some c1)
    (b0 : vc0 r2 r2 p i = some c0') (b1 : r2.rd i = some v0') (b2 : r2.rd (i + 1) = some v1') (b3 : vc1 r2 q i = some c1')
    (ha : a = -(p0 * c0) + p1 * v0 + p2 * v1 - p3 * c1) (hb : b = -(p0 * c0') + p1 * v0' + p2 * v1' - p3 * c1') :
    |a - b| ≤ (p0 + p1 + p2 + p3) * e := by
  have e1 := h i _ _ a1 b1
  have e2 := h (i + 1) _ _ a2 b2
  have he : 0 ≤ e := le_trans (abs_nonneg _) e1
  have z : |(0 : ℚ)| ≤ e := by rw [abs_zero]; exact he
  unfold vc0 at a0 b0
  unfold vc1 at a3 b3
  rw [a1, a2] at a0
  rw [b1, b2] at b0
  rw [a1, a2] at a3
  rw [b1, b2] at b3
  simp only [vtwo, mul_some, sub_some] at a0 b0 a3 b3
  split_ifs at a0 b0 a3 b3
  · obtain rfl := Option.some.inj a0
    obtain rfl := Option.some.inj b0
    obtain rfl := Option.some.inj a3
    obtain rfl := Option.some.inj b3
    have k := four_weights e 0 (p1 - 2 * p0 + p3) (p2 + p0 - 2 * p3) 0 0 _ _ 0 le_rfl (by linarith) (by linarith) le_rfl z e1 e2 z
    have : a - b = -(0 * 0) + (p1 - 2 * p0 + p3) * (v0 - v0') + (p2 + p0 - 2 * p3) * (v1 - v1') - 0 * 0 := by rw [ha, hb]; ring
    rw [this]
    refine k.trans (mul_le_mul_of_nonneg_right (by linarith) he)
  · obtain rfl := Option.some.inj a0
    obtain rfl := Option.some.inj b0
    have e3 := h _ _ _ a3 b3
    have k := four_weights e 0 (p1 - 2 * p0) (p2 + p0) p3 0 _ _ _ le_rfl (by linarith) (by linarith) h3 z e1 e2 e3
    have : a - b = -(0 * 0) + (p1 - 2 * p0) * (v0 - v0') + (p2 + p0) * (v1 - v1') - p3 * (c1 - c1') := by rw [ha, hb]; ring
    rw [this]
    refine k.trans (mul_le_mul_of_nonneg_right (by linarith) he)
  · obtain rfl := Option.some.inj a3
    obtain rfl := Option.some.inj b3
    have e0 := h _ _ _ a0 b0
    have k := four_weights e p0 (p1 + p3) (p2 - 2 * p3) 0 _ _ _ 0 h0 (by linarith) (by linarith) le_rfl e0 e1 e2 z
    have : a - b = -(p0 * (c0 - c0')) + (p1 + p3) * (v0 - v0') + (p2 - 2 * p3) * (v1 - v1') - 0 * 0 := by rw [ha, hb]; ring
    rw [this]
    refine k.trans (mul_le_mul_of_nonneg_right (by linarith) he)
  · have e0 := h _ _ _ a0 b0
    have e3 := h _ _ _ a3 b3
    have k := four_weights e p0 p1 p2 p3 _ _ _ _ h0 h1' h2 h3 e0 e1 e2 e3
    have : a - b = -(p0 * (c0 - c0')) + p1 * (v0 - v0') + p2 * (v1 - v1') - p3 * (c1 - c1') := by rw [ha, hb]; ring
    rw [this]
    exact k

theorem cubic_close (e : ℚ) (r1 r2 : Row) (h : ∀ i, NearBy e (r1.rd i) (r2.rd i)) (p q i : Int) (d0 d1 : V) (hc : (le (some 0) d0 && le (some 0) d1) = true) :
    NearBy (3 / 2 * e) (cubicW r1 r1 p q i d0 d1) (cubicW r2 r2 p q i d0 d1) := by
  intro a b ha hb
  rcases mu_unit hc rfl with hm | ⟨x, hm, x0, x1⟩
  · unfold cubicW at ha
    dsimp only at ha
    rw [hm] at ha
    simp [cube, sq] at ha
  · obtain ⟨c0, v0, v1, c1, a0, a1, a2, a3, ha⟩ := cubic_some r1 p q i d0 d1 x a hm ha
    obtain ⟨c0', v0', v1', c1', b0, b1, b2, b3, hb⟩ := cubic_some r2 p q i d0 d1 x b hm hb
    have x2 : 0 ≤ 1 - x := by linarith
    have s0 : 0 ≤ x * (1 - x) := mul_nonneg x0 x2
    have s1 : 0 ≤ x ^ 2 := sq_nonneg x
    have he : 0 ≤ e := le_trans (abs_nonneg _) (h i _ _ a1 b1)
    have k := ghost_bound e r1 r2 h p q i (x * (1 - x) ^ 2) ((1 - x) * (1 + x - x ^ 2)) (x * (1 + x - x ^ 2)) (x ^ 2 * (1 - x)) a b _ _ _ _ _ _ _ _
      (mul_nonneg x0 (sq_nonneg _)) (by have := mul_nonneg x2 (show 0 ≤ 1 - x + x ^ 2 by linarith); nlinarith) (mul_nonneg x0 (by nlinarith)) (mul_nonneg s1 x2)
      (mul_nonneg x2 (by nlinarith)) (by have := mul_nonneg x0 (show 0 ≤ 1 - x + x ^ 2 by linarith); nlinarith) a0 a1 a2 a3 b0 b1 b2 b3 ha hb
    refine k.trans (mul_le_mul_of_nonneg_right ?_ he)
    nlinarith [sq_nonneg (2 * x - 1)]

theorem hermit_close (e : ℚ) (r1 r2 : Row) (h : ∀ i, NearBy e (r1.rd i) (r2.rd i)) (p q i : Int) (d0 d1 : V) (hc : (le (some 0) d0 && le (some 0) d1) = true) :
    NearBy (5 / 4 * e) (hermitW 0 0 r1 r1 p q i d0 d1) (hermitW 0 0 r2 r2 p q i d0 d1) := by
  intro a b ha hb
  rcases mu_unit hc rfl with hm | ⟨x, hm, x0, x1⟩
  · unfold hermitW at ha
    dsimp only at ha
    rw [hm] at ha
    simp [cube, sq] at ha
  · obtain ⟨c0, v0, v1, c1, a0, a1, a2, a3, ha⟩ := hermit_some r1 p q i d0 d1 x a hm ha
    obtain ⟨c0', v0', v1', c1', b0, b1, b2, b3, hb⟩ := hermit_some r2 p q i d0 d1 x b hm hb
    have x2 : 0 ≤ 1 - x := by linarith
    have s0 : 0 ≤ x * (1 - x) := mul_nonneg x0 x2
    have s1 : 0 ≤ x ^ 2 := sq_nonneg x
    have s2 : 0 ≤ (1 - x) ^ 2 := sq_nonneg _
    have t1 : 0 ≤ x ^ 2 * (1 - x) := mul_nonneg s1 x2
    have t2 : 0 ≤ x * (1 - x) ^ 2 := mul_nonneg x0 s2
    have t3 : 0 ≤ (1 - x) ^ 2 * (1 + x) := mul_nonneg s2 (by linarith)
    have t4 : 0 ≤ x ^ 2 * (2 - x) := mul_nonneg s1 (by linarith)
    have he : 0 ≤ e := le_trans (abs_nonneg _) (h i _ _ a1 b1)
    have k := ghost_bound e r1 r2 h p q i (x * (1 - x) ^ 2 / 2) ((1 - x) ^ 2 * (1 + 2 * x) + x ^ 2 * (1 - x) / 2)
      (x ^ 2 * (3 - 2 * x) + x * (1 - x) ^ 2 / 2) (x ^ 2 * (1 - x) / 2) a b _ _ _ _ _ _ _ _
      (by linarith) (by nlinarith) (by nlinarith) (by linarith) (by nlinarith) (by nlinarith) a0 a1 a2 a3 b0 b1 b2 b3 ha hb
    refine k.trans (mul_le_mul_of_nonneg_right ?_ he)
    nlinarith [sq_nonneg (2 * x - 1)]

/-- **C230 (cubic and Hermite).** Cubic interpolation of data that differ by at most `e` differs by at most `3 e / 2`, Hermite interpolation, with the
default bias and tension, by at most `5 e / 4`, on the rows of the data, whatever the coordinates, sorted or not, and the missing values. -/
theorem C230_cubic_hermit (e : ℚ) (v1 v2 yi yo : Mat) (hsh : v1.SameShape v2) (h : ∀ i j, NearBy e (v1.get i j) (v2.get i j)) (i j : Int) (hi : 0 ≤ i)
    (hi' : i < v1.nx) :
    NearBy (3 / 2 * e) ((cubic1d v1 yi yo).get i j) ((cubic1d v2 yi yo).get i j) ∧
    NearBy (5 / 4 * e) ((hermit1d v1 yi yo 0 0).get i j) ((hermit1d v2 yi yo 0 0).get i j) := by
  have hr : ∀ k, NearBy e ((v1.row i).rd k) ((v2.row i).rd k) := by
    intro k
    show NearBy e (v1.get i (wrapIdx v1.ny k)) (v2.get i (wrapIdx v2.ny k))
    rw [hsh.2]; exact h _ _
  have self : ∀ v : Mat, v.nx = v1.nx → rowIdx v.nx i = i := fun v hv => rowIdx_self _ _ hi (by rw [hv]; exact hi')
  have hb : ∀ (f : ℚ), OutComb (closec f) (fun _ => none) (fun _ => none) (fun _ => none) := fun f k => rfl
  constructor
  · have e1 : (cubic1d v1 yi yo).get i = cubicBody v1 yi yo i (fun _ => none) := mkOut_row _ _ _ i hi (by omega)
    have e2 : (cubic1d v2 yi yo).get i = cubicBody v2 yi yo i (fun _ => none) := mkOut_row _ _ _ i hi (by rw [← hsh.1]; omega)
    unfold cubicBody at e1 e2
    rw [self v1 rfl] at e1
    rw [self v2 hsh.1.symm] at e2
    rw [e1, e2, ← chRow_inCell _ _ (cubicW (v1.row i) (v1.row i)), ← chRow_inCell _ _ (cubicW (v2.row i) (v2.row i)), ← closec_iff]
    refine chOuter_comb _ _ (fun k d0 d1 => ?_) _ _ _ _ _ _ (hb _) j
    rw [closec_iff]
    unfold whenInside
    dsimp only
    split
    · rename_i hc; exact cubic_close e _ _ hr _ _ k d0 d1 hc
    · intro a b ha; simp at ha
  · have e1 : (hermit1d v1 yi yo 0 0).get i = hermitBody 0 0 v1 yi yo i (fun _ => none) := mkOut_row _ _ _ i hi (by omega)
    have e2 : (hermit1d v2 yi yo 0 0).get i = hermitBody 0 0 v2 yi yo i (fun _ => none) := mkOut_row _ _ _ i hi (by rw [← hsh.1]; omega)
    unfold hermitBody at e1 e2
    rw [self v1 rfl] at e1
    rw [self v2 hsh.1.symm] at e2
    rw [e1, e2, ← chRow_inCell _ _ (hermitW 0 0 (v1.row i) (v1.row i)), ← chRow_inCell _ _ (hermitW 0 0 (v2.row i) (v2.row i)), ← closec_iff]
    refine chOuter_comb _ _ (fun k d0 d1 => ?_) _ _ _ _ _ _ (hb _) j
    rw [closec_iff]
    unfold whenInside
    dsimp only
    split
    · rename_i hc; exact hermit_close e _ _ hr _ _ k d0 d1 hc
    · intro a b ha; simp at ha

/-! ## `regrid1d` -/

/-- **C230 (`regrid1d`).** With the linear and nearest methods and any dimensions: both calls succeed and the results differ by at most `e`, or both fail
with the same exception. -/
theorem C230_regrid1d (e : ℚ) (o : RegridOpts) (K : Mat → Mat → Mat → Mat) (hK : Named o.method K) (hm : K = linear1d ∨ K = nearest1d)
    (he : ExtrapKnown o.extrap) (A B cin cout : LArr V) (hd : B.dims = A.dims) (hsh : B.shape = A.shape) (h : ∀ i, NearBy e (A.val i) (B.val i))
    (dim0 dim1 : String) :
    (∃ x, regrid1d o A cin cout dim0 dim1 = .error x ∧ regrid1d o B cin cout dim0 dim1 = .error x) ∨
    (∃ RA RB, regrid1d o A cin cout dim0 dim1 = .ok RA ∧ regrid1d o B cin cout dim0 dim1 = .ok RB ∧ RB.dims = RA.dims ∧ RB.shape = RA.shape ∧
      ∀ i, NearBy e (RA.val i) (RB.val i)) := by
  rw [C21_method o K hK he, C21_method o K hK he]
  obtain ⟨d, sh, v1⟩ := A
  obtain ⟨d2, sh2, v2⟩ := B
  dsimp only at hd hsh
  subst hd hsh
  refine regridWith_rel K (NearBy e) ?_ d2 sh2 v1 v2 h cin cout dim0 dim1
  intro m1 m2 mi mo e1 e2 hb
  have key := C230_interp e m1 m2 mi mo ⟨e1.symm, e2.symm⟩ hb
  rcases hm with rfl | rfl
  · exact ⟨congrArg (max · mo.nx) e1, rfl, fun i j => (key i j).1⟩
  · exact ⟨congrArg (max · mo.nx) e1, rfl, fun i j => (key i j).2⟩

/-! ## cell averages -/

theorem cellave_half (e : ℚ) (v1 v2 : NMat V) (yib yob : NMat ℚ) (hg : CellGrid v1 yib yob) (hx : v2.nx = v1.nx) (hy : v2.ny = v1.ny) (ex : CExtrap)
    (ix k : Nat) (hix : ix < v1.nx) (hk : k < yob.ny - 1) (hw : yob.get (ix % yob.nx) k < yob.get (ix % yob.nx) (k + 1))
    (h : ∀ i, i < v1.ny → NearByM e (v1.get ix i) (v2.get ix i)) :
    BelowM ((cellave1d v1 yib yob false ex).get ix k) (((cellave1d v2 yib yob false ex).get ix k).map fun v => 1 * v + e) := by
  have hg2 : CellGrid v2 yib yob := ⟨by rw [hx]; exact hg.nxi, hg.nxib, hg.nxo, by rw [hy]; exact hg.asci, hg.asco⟩
  let o : NMat V := ⟨v2.nx, v2.ny, fun i j => (v2.get i j).map fun _ => 1⟩
  have hgo : CellGrid o yib yob := ⟨hg2.nxi, hg2.nxib, hg2.nxo, hg2.asci, hg2.asco⟩
  have hmask : ∀ i j, v2.get i j = none ↔ o.get i j = none := by
    intro i j
    show _ ↔ (v2.get i j).map _ = none
    simp
  have hsum : ∀ i j, (v2.combine 1 e o).get i j = (v2.get i j).map fun v => 1 * v + e := by
    intro i j
    show (match v2.get i j, (v2.get i j).map fun _ => (1 : ℚ) with | some x, some y => some (1 * x + e * y) | _, _ => none) = _
    cases v2.get i j <;> simp
  have c := C159_cellave 1 e v2 o rfl rfl hmask yib yob false ex
  have b := C186_cellave v1 (v2.combine 1 e o) yib yob hg hx hy false ex ix k hix hk (fun i hi => by rw [hsum]; exact (h i hi).below)
  rw [c] at b
  have hb : ((cellave1d v2 yib yob false ex).combine 1 e (cellave1d o yib yob false ex)).get ix k =
      ((cellave1d v2 yib yob false ex).get ix k).map fun v => 1 * v + e := by
    show (match (cellave1d v2 yib yob false ex).get ix k, (cellave1d o yib yob false ex).get ix k with
      | some x, some y => some (1 * x + e * y) | _, _ => none) = _
    have m2 := (C10_cellave1d_bounds v2 yib yob ex hg2 ix k (by rw [hx]; exact hix) hk hw).1
    have mo := (C10_cellave1d_bounds o yib yob ex hgo ix k (by show ix < v2.nx; rw [hx]; exact hix) hk hw).1
    have hn : (cellave1d v2 yib yob false ex).get ix k = none ↔ (cellave1d o yib yob false ex).get ix k = none := by
      rw [m2, mo]
      constructor
      · intro a i v hi hv
        have : (v2.get ix i).map (fun _ => (1 : ℚ)) = some v := hv
        cases hq : v2.get ix i with
        | none => rw [hq] at this; simp at this
        | some z => exact a i z hi hq
      · intro a i v hi hv
        exact a i 1 hi (show (v2.get ix i).map (fun _ => (1 : ℚ)) = some 1 by rw [hv]; rfl)
    have h1 := C10_cellave1d_const o yib yob ex hgo ix k (by show ix < v2.nx; rw [hx]; exact hix) hk hw 1 (by
      intro i _
      show (v2.get ix i).map (fun _ => (1 : ℚ)) = some 1 ∨ (v2.get ix i).map (fun _ => (1 : ℚ)) = none
      cases v2.get ix i <;> simp)
    rcases h1 with h1 | h1
    · rw [h1] at hn ⊢
      cases (cellave1d v2 yib yob false ex).get ix k <;> simp
    · rw [h1, hn.2 h1]; rfl
  rw [hb] at b
  exact b

/-- **C230 (cell averages).** The averages of data that are missing at the same places and differ by at most `e` are missing at the same places and differ by at
most `e`, with any extrapolation. -/
theorem C230_cellave (e : ℚ) (he : 0 ≤ e) (v1 v2 : NMat V) (yib yob : NMat ℚ) (hg : CellGrid v1 yib yob) (hx : v2.nx = v1.nx) (hy : v2.ny = v1.ny) (ex : CExtrap)
    (ix k : Nat) (hix : ix < v1.nx) (hk : k < yob.ny - 1) (h : ∀ i, i < v1.ny → NearByM e (v1.get ix i) (v2.get ix i)) :
    NearByM e ((cellave1d v1 yib yob false ex).get ix k) ((cellave1d v2 yib yob false ex).get ix k) := by
  have hg2 : CellGrid v2 yib yob := ⟨by rw [hx]; exact hg.nxi, hg.nxib, hg.nxo, by rw [hy]; exact hg.asci, hg.asco⟩
  rcases eq_or_lt_of_le (hg.asco (ix % yob.nx) k (Nat.mod_lt _ hg.nxo) hk) with hw | hw
  · rw [C10_cellave1d_zero_width v1 yib yob ex false hg ix k hix hk hw, C10_cellave1d_zero_width v2 yib yob ex false hg2 ix k (by rw [hx]; exact hix) hk hw]
    refine ⟨Iff.rfl, fun a b ha hb => ?_⟩
    rw [← Option.some.inj ha, ← Option.some.inj hb]; simpa using he
  · exact withinM_of (cellave_half e v1 v2 yib yob hg hx hy ex ix k hix hk hw h)
      (cellave_half e v2 v1 yib yob hg2 hx.symm hy.symm ex ix k (by rw [hx]; exact hix) hk hw (fun i hi => (h i (by rw [← hy]; exact hi)).symm))

/-! ## extrapolation, filters, erosion -/

/-- **C230 (extrapolation).** -/
theorem C230_extrap (e : ℚ) (v1 v2 : Mat) (mode : Extrap) (hsh : v1.SameShape v2) (h : ∀ i j, NearByM e (v1.get i j) (v2.get i j)) (i j : Int) :
    NearBy e ((extrap1d v1 mode).get i j) ((extrap1d v2 mode).get i j) := by
  have a := C186_extrap v1 (v2.inUnits 1 e) mode hsh (fun i j => (h i j).below) i j
  have b := C186_extrap v2 (v1.inUnits 1 e) mode ⟨hsh.1.symm, hsh.2.symm⟩ (fun i j => (h i j).symm.below) i j
  rw [C159_extrap_units] at a b
  exact within_of a b

/-- **C230 (filters).** With nonnegative weights, the normalised filters of data that are missing at the same places and differ by at most `e` are missing at
the same places and differ by at most `e`. -/
theorem C230_convolve (e : ℚ) (d1 d2 r1 r2 : LArr V) (k : LArr ℚ) (hk : KNonneg k) (hsh : d2.shape = d1.shape)
    (h : ∀ q, InShape d1.shape q → NearByM e (d1.val q) (d2.val q))
    (h1 : convolveNd d1 k true = .ok r1) (h2 : convolveNd d2 k true = .ok r2) (p : List Nat) : NearByM e (r1.val p) (r2.val p) := by
  have u1 := C160_units 1 e d1 k hk
  have u2 := C160_units 1 e d2 k hk
  rw [h1] at u1
  rw [h2] at u2
  exact withinM_of (C186_convolve d1 (d2.inUnits 1 e) r1 (r2.inUnits 1 e) k hk hsh (fun q hq => (h q hq).below) true h1 u2 p)
    (C186_convolve d2 (d1.inUnits 1 e) r2 (r1.inUnits 1 e) k hk hsh.symm (fun q hq => (h q (by rw [← hsh]; exact hq)).symm.below) true h2 u1 p)

/-- **C230 (`erode_mask`).** With nonnegative weights and any number of turns, the eroded data are missing at the same places and differ by at most `e`. -/
theorem C230_erode (e : ℚ) (d1 d2 : LArr V) (spec : KSpec) (k : LArr ℚ) (hk1 : ErodeKernel d1 spec k) (hn : KNonneg k) (hd : d2.dims = d1.dims)
    (hsh : d2.shape = d1.shape) (h : ∀ q, InShape d1.shape q → NearByM e (d1.val q) (d2.val q)) (n : Int) :
    ∃ r1 r2, erodeMaskN d1 n spec = .ok r1 ∧ erodeMaskN d2 n spec = .ok r2 ∧ ∀ q, InShape d1.shape q → NearByM e (r1.val q) (r2.val q) := by
  have hk2 : ErodeKernel d2 spec k := ⟨by rw [← hk1.made]; unfold erodeKernel; rw [hd], fill_fits hk1.fits hd hsh⟩
  obtain ⟨r1, r2', a1, a2, -, -, -, -, a⟩ := C186_erode d1 (d2.inUnits 1 e) spec k hk1 hn hd hsh (fun q hq => (h q hq).below) n
  obtain ⟨r2, r1', b1, b2, -, -, -, -, b⟩ := C186_erode d2 (d1.inUnits 1 e) spec k hk2 hn hd.symm hsh.symm (fun q hq => (h q (by rw [← hsh]; exact hq)).symm.below) n
  have u1 := (C160_erode_units 1 e d1 spec k hk1 hn).1 n
  have u2 := (C160_erode_units 1 e d2 spec k hk2 hn).1 n
  rw [a1, b2] at u1
  rw [b1, a2] at u2
  obtain rfl := Except.ok.inj u1
  obtain rfl := Except.ok.inj u2
  exact ⟨r1, r2, a1, b1, fun q hq => withinM_of (a q hq) (b q (by rw [hsh]; exact hq))⟩

/-! ## the factors are reached -/

/-- The factors of the cubic and Hermite methods are reached: errors of 1 in the data become 3/2 and 5/4 in the middle of the cell. -/
theorem C230_reached :
    (∀ i j, NearBy 1 ((Mat.ofLists [[some 0, some 0, some 0, some 0]]).get i j) ((Mat.ofLists [[some (-1), some 1, some 1, some (-1)]]).get i j)) ∧
    (cubic1d (Mat.ofLists [[some 0, some 0, some 0, some 0]]) oYi (Mat.ofLists [[some (3 / 2)]])).get 0 0 = some 0 ∧
    (cubic1d (Mat.ofLists [[some (-1), some 1, some 1, some (-1)]]) oYi (Mat.ofLists [[some (3 / 2)]])).get 0 0 = some (3 / 2) ∧
    (hermit1d (Mat.ofLists [[some 0, some 0, some 0, some 0]]) oYi (Mat.ofLists [[some (3 / 2)]]) 0 0).get 0 0 = some 0 ∧
    (hermit1d (Mat.ofLists [[some (-1), some 1, some 1, some (-1)]]) oYi (Mat.ofLists [[some (3 / 2)]]) 0 0).get 0 0 = some (5 / 4) := by
  refine ⟨?_, by decide +kernel, by decide +kernel, by decide +kernel, by decide +kernel⟩
  intro i j
  unfold Mat.ofLists
  dsimp only
  by_cases hij : 0 ≤ i ∧ 0 ≤ j
  · rw [if_pos hij, if_pos hij]
    rcases i.toNat with _ | a
    · rcases j.toNat with _ | _ | _ | _ | b <;> intro x y hx hy <;> simp at hx hy <;> rw [← hx, ← hy] <;> norm_num
    · intro x y hx; simp at hx
  · rw [if_neg hij, if_neg hij]
    intro x y hx; simp at hx

/-- the theorems apply to these data -/
example : NearBy (3 / 2 * 1) ((cubic1d (Mat.ofLists [[some 0, some 0, some 0, some 0]]) oYi (Mat.ofLists [[some (3 / 2)]])).get 0 0)
    ((cubic1d (Mat.ofLists [[some (-1), some 1, some 1, some (-1)]]) oYi (Mat.ofLists [[some (3 / 2)]])).get 0 0) :=
  (C230_cubic_hermit 1 (Mat.ofLists [[some 0, some 0, some 0, some 0]]) (Mat.ofLists [[some (-1), some 1, some 1, some (-1)]]) oYi _ ⟨rfl, rfl⟩ C230_reached.1 0 0 (by decide) (by decide)).1
example : NearBy 1 ((linear1d (Mat.ofLists [[some 0, some 0, some 0, some 0]]) oYi (Mat.ofLists [[some (3 / 2)]])).get 0 0)
    ((linear1d (Mat.ofLists [[some (-1), some 1, some 1, some (-1)]]) oYi (Mat.ofLists [[some (3 / 2)]])).get 0 0) :=
  (C230_interp 1 (Mat.ofLists [[some 0, some 0, some 0, some 0]]) (Mat.ofLists [[some (-1), some 1, some 1, some (-1)]]) oYi _ ⟨rfl, rfl⟩ C230_reached.1 0 0).1

end Xoa
