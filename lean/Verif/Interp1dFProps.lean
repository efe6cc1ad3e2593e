import Verif.RoundingNear
import Verif.Interp1dFormulaProps

/-!
# Properties C204, C205: the 1-D interpolations in floating-point arithmetic
-/

namespace Xoa
open V

/-! ## The loops see the same signs -/

section
variable {fl : ℚ → ℚ} {u : ℚ}

theorem lt_rd (h : Rounds fl u) (x : V) : lt (V.rd fl x) (some 0) = lt x (some 0) := by
  cases x with
  | none => rfl
  | some q => simp only [V.rd, Option.map_some, lt_some, h.lt_zero_iff]

theorem le_rd (h : Rounds fl u) (x : V) : le (some 0) (V.rd fl x) = le (some 0) x := by
  cases x with
  | none => rfl
  | some q => simp only [V.rd, Option.map_some, le_some, h.nonneg_iff]

theorem nlInnerF_eq (h : Rounds fl u) (yi yo : Row) (w : Int → V → V → Option V) (iyi : Int) : ∀ (l : List Int) (m : Int) (out : Int → V),
    nlInnerF fl yi yo w iyi l m out = nlInner yi yo (fun i d0 d1 => w i (V.rd fl d0) (V.rd fl d1)) iyi l m out := by
  intro l
  induction l with
  | nil => intro m out; rfl
  | cons k l ih =>
    intro m out
    simp only [nlInnerF, nlInner, flSub, lt_rd h, ih]
    cases w iyi (V.rd fl (sub (yo.rd k) (yi.rd iyi))) (V.rd fl (sub (yi.rd (iyi + 1)) (yo.rd k))) <;> rfl

theorem nlOuterF_eq (h : Rounds fl u) (yi yo : Row) (w : Int → V → V → Option V) (mx : Int) : ∀ (l : List Int) (m : Int) (out : Int → V),
    nlOuterF fl yi yo w mx l m out = nlOuter yi yo (fun i d0 d1 => w i (V.rd fl d0) (V.rd fl d1)) mx l m out := by
  intro l
  induction l with
  | nil => intro m out; rfl
  | cons k l ih =>
    intro m out
    simp only [nlOuterF, nlOuter, nlInnerF_eq h, ih]

theorem nlRowF_eq (h : Rounds fl u) (yi yo : Row) (w : Int → V → V → Option V) (out : Int → V) :
    nlRowF fl yi yo w out = nlRow yi yo (fun i d0 d1 => w i (V.rd fl d0) (V.rd fl d1)) out := nlOuterF_eq h _ _ _ _ _ _ _

theorem chInnerF_eq (h : Rounds fl u) (yi yo : Row) (w : Int → V → V → V) (iyi : Int) : ∀ (l : List Int) (m : Int) (out : Int → V),
    chInnerF fl yi yo w iyi l m out = chInner yi yo (fun i d0 d1 => w i (V.rd fl d0) (V.rd fl d1)) iyi l m out := by
  intro l
  induction l with
  | nil => intro m out; rfl
  | cons k l ih =>
    intro m out
    simp only [chInnerF, chInner, flSub, lt_rd h, le_rd h, ih]

theorem chOuterF_eq (h : Rounds fl u) (yi yo : Row) (w : Int → V → V → V) (mx : Int) : ∀ (l : List Int) (m : Int) (out : Int → V),
    chOuterF fl yi yo w mx l m out = chOuter yi yo (fun i d0 d1 => w i (V.rd fl d0) (V.rd fl d1)) mx l m out := by
  intro l
  induction l with
  | nil => intro m out; rfl
  | cons k l ih =>
    intro m out
    simp only [chOuterF, chOuter, chInnerF_eq h, ih]

theorem chRowF_eq (h : Rounds fl u) (yi yo : Row) (w : Int → Int → Int → V → V → V) (out : Int → V) :
    chRowF fl yi yo w out = chRow yi yo (fun p q i d0 d1 => w p q i (V.rd fl d0) (V.rd fl d1)) out := chOuterF_eq h _ _ _ _ _ _ _

end

/-! ## Two runs of the loops with different values written -/

section
variable (R : Int → V → V → Prop)

/-- both write, related values, or none does -/
def WRel (k : Int) (a b : Option V) : Prop := (a = none ∧ b = none) ∨ ∃ v v', a = some v ∧ b = some v' ∧ R k v v'

theorem wr_rel {R : Int → V → V → Prop} {out out' : Int → V} (ho : ∀ j, R j (out j) (out' j)) (n : Nat) (k : Int) (v v' : V) (hv : R (wrapIdx n k) v v') :
    ∀ j, R j (wr1 n out k v j) (wr1 n out' k v' j) := by
  intro j
  unfold wr1
  by_cases hj : j = wrapIdx n k
  · rw [if_pos hj, if_pos hj, hj]; exact hv
  · rw [if_neg hj, if_neg hj]; exact ho j

theorem nlInner_rel (yi yo : Row) (w w' : Int → V → V → Option V) (i : Int)
    (hw : ∀ k : Int, lt (sub (yi.rd (i + 1)) (yo.rd k)) (some 0) = false → lt (sub (yo.rd k) (yi.rd i)) (some 0) = false → WRel R (wrapIdx yo.n k) (w i (sub (yo.rd k) (yi.rd i)) (sub (yi.rd (i + 1)) (yo.rd k))) (w' i (sub (yo.rd k) (yi.rd i)) (sub (yi.rd (i + 1)) (yo.rd k)))) :
    ∀ (l : List Int) (m : Int) (out out' : Int → V), (∀ j, R j (out j) (out' j)) →
      (nlInner yi yo w i l m out).1 = (nlInner yi yo w' i l m out').1 ∧
      ∀ j, R j ((nlInner yi yo w i l m out).2 j) ((nlInner yi yo w' i l m out').2 j) := by
  intro l
  induction l with
  | nil => intro m out out' ho; exact ⟨rfl, ho⟩
  | cons k l ih =>
    intro m out out' ho
    simp only [nlInner]
    by_cases h1 : lt (sub (yi.rd (i + 1)) (yo.rd k)) (some 0) = true
    · rw [if_pos h1, if_pos h1]; exact ⟨rfl, ho⟩
    · rw [if_neg h1, if_neg h1]
      by_cases h2 : lt (sub (yo.rd k) (yi.rd i)) (some 0) = true
      · rw [if_pos h2, if_pos h2]; exact ih _ _ _ ho
      · rw [if_neg h2, if_neg h2]
        rcases hw k (Bool.eq_false_iff.2 h1) (Bool.eq_false_iff.2 h2) with ⟨e1, e2⟩ | ⟨v, v', e1, e2, hv⟩
        · rw [e1, e2]; exact ih _ _ _ ho
        · rw [e1, e2]; exact ih _ _ _ (wr_rel ho _ _ _ _ hv)

theorem nlOuter_rel (yi yo : Row) (w w' : Int → V → V → Option V) (mx : Int) : ∀ (l : List Int)
    (_ : ∀ i ∈ l, ∀ k : Int, lt (sub (yi.rd (i + 1)) (yo.rd k)) (some 0) = false → lt (sub (yo.rd k) (yi.rd i)) (some 0) = false → WRel R (wrapIdx yo.n k) (w i (sub (yo.rd k) (yi.rd i)) (sub (yi.rd (i + 1)) (yo.rd k))) (w' i (sub (yo.rd k) (yi.rd i)) (sub (yi.rd (i + 1)) (yo.rd k))))
    (m : Int) (out out' : Int → V), (∀ j, R j (out j) (out' j)) → ∀ j, R j (nlOuter yi yo w mx l m out j) (nlOuter yi yo w' mx l m out' j) := by
  intro l
  induction l with
  | nil => intro _ m out out' ho; exact ho
  | cons i l ih =>
    intro hw m out out' ho
    have ih := ih (fun i' hi' => hw i' (List.mem_cons_of_mem _ hi'))
    simp only [nlOuter]
    by_cases h1 : lt (yi.rd (i + 1)) (yo.rd m) = true
    · rw [if_pos h1, if_pos h1]; exact ih _ _ _ ho
    · rw [if_neg h1, if_neg h1]
      by_cases h2 : lt (yo.rd mx) (yi.rd i) = true
      · rw [if_pos h2, if_pos h2]; exact ho
      · rw [if_neg h2, if_neg h2]
        obtain ⟨e, hr⟩ := nlInner_rel R yi yo w w' i (hw i List.mem_cons_self) (pyRange m (mx + 1)) m out out' ho
        rw [e]
        exact ih _ _ _ hr

theorem chInner_rel (yi yo : Row) (w w' : Int → V → V → V) (i : Int)
    (hw : ∀ k : Int, le (some 0) (sub (yo.rd k) (yi.rd i)) = true → le (some 0) (sub (yi.rd (i + 1)) (yo.rd k)) = true →
      R (wrapIdx yo.n k) (w i (sub (yo.rd k) (yi.rd i)) (sub (yi.rd (i + 1)) (yo.rd k))) (w' i (sub (yo.rd k) (yi.rd i)) (sub (yi.rd (i + 1)) (yo.rd k)))) :
    ∀ (l : List Int) (m : Int) (out out' : Int → V), (∀ j, R j (out j) (out' j)) →
      (chInner yi yo w i l m out).1 = (chInner yi yo w' i l m out').1 ∧
      ∀ j, R j ((chInner yi yo w i l m out).2 j) ((chInner yi yo w' i l m out').2 j) := by
  intro l
  induction l with
  | nil => intro m out out' ho; exact ⟨rfl, ho⟩
  | cons k l ih =>
    intro m out out' ho
    simp only [chInner]
    by_cases h1 : lt (sub (yi.rd (i + 1)) (yo.rd k)) (some 0) = true
    · rw [if_pos h1, if_pos h1]; exact ⟨rfl, ho⟩
    · rw [if_neg h1, if_neg h1]
      by_cases h2 : (le (some 0) (sub (yo.rd k) (yi.rd i)) && le (some 0) (sub (yi.rd (i + 1)) (yo.rd k))) = true
      · rw [if_pos h2, if_pos h2]
        rw [Bool.and_eq_true] at h2
        exact ih _ _ _ (wr_rel ho _ _ _ _ (hw k h2.1 h2.2))
      · rw [if_neg h2, if_neg h2]; exact ih _ _ _ ho

theorem chOuter_rel (yi yo : Row) (w w' : Int → V → V → V) (mx : Int) : ∀ (l : List Int)
    (_ : ∀ i ∈ l, ∀ k : Int, le (some 0) (sub (yo.rd k) (yi.rd i)) = true → le (some 0) (sub (yi.rd (i + 1)) (yo.rd k)) = true →
      R (wrapIdx yo.n k) (w i (sub (yo.rd k) (yi.rd i)) (sub (yi.rd (i + 1)) (yo.rd k))) (w' i (sub (yo.rd k) (yi.rd i)) (sub (yi.rd (i + 1)) (yo.rd k))))
    (m : Int) (out out' : Int → V), (∀ j, R j (out j) (out' j)) → ∀ j, R j (chOuter yi yo w mx l m out j) (chOuter yi yo w' mx l m out' j) := by
  intro l
  induction l with
  | nil => intro _ m out out' ho; exact ho
  | cons i l ih =>
    intro hw m out out' ho
    have ih := ih (fun i' hi' => hw i' (List.mem_cons_of_mem _ hi'))
    simp only [chOuter]
    by_cases h1 : lt (yi.rd (i + 1)) (yo.rd m) = true
    · rw [if_pos h1, if_pos h1]; exact ih _ _ _ ho
    · rw [if_neg h1, if_neg h1]
      by_cases h2 : lt (yo.rd mx) (yi.rd i) = true
      · rw [if_pos h2, if_pos h2]; exact ho
      · rw [if_neg h2, if_neg h2]
        obtain ⟨e, hr⟩ := chInner_rel R yi yo w w' i (hw i List.mem_cons_self) (pyRange m yo.n) m out out' ho
        rw [e]
        exact ih _ _ _ hr

end

/-- the indices of the loop on the input points are in the row -/
theorem range_in (yi : Row) {i : Int} (hi : i ∈ pyRange (getIminmax yi).1 (getIminmax yi).2) :
    (getIminmax yi).1 ≤ i ∧ i < (getIminmax yi).2 ∧ 0 ≤ (getIminmax yi).1 ∧ (getIminmax yi).2 < yi.n := by
  rw [mem_pyRange] at hi
  rcases getIminmax_spec yi with ⟨i1, i2, i3⟩ | ⟨i1, i2, i3, _⟩ <;> omega

/-- the cell and the point, from the signs of the differences -/
theorem cell_of (yi yo : Row) {i : Int} (hi : i ∈ pyRange (getIminmax yi).1 (getIminmax yi).2) (k : Int)
    (h0 : le (some 0) (sub (yo.rd k) (yi.rd i)) = true) (h1 : le (some 0) (sub (yi.rd (i + 1)) (yo.rd k)) = true) :
    ∃ a b c, yo.get (wrapIdx yo.n k) = some c ∧ yi.get i = some a ∧ yi.get (i + 1) = some b ∧ a ≤ c ∧ c ≤ b ∧ Brackets yi i c ∧
      sub (yo.rd k) (yi.rd i) = some (c - a) ∧ sub (yi.rd (i + 1)) (yo.rd k) = some (b - c) := by
  obtain ⟨r0, r1, r2, r3⟩ := range_in yi hi
  rw [Row.rd_nonneg yi (by omega)] at h0 ⊢
  rw [Row.rd_nonneg yi (by omega)] at h1 ⊢
  have hk : yo.rd k = yo.get (wrapIdx yo.n k) := rfl
  rw [hk] at h0 h1 ⊢
  cases hc : yo.get (wrapIdx yo.n k) with
  | none => rw [hc] at h0; simp at h0
  | some c =>
    cases ha : yi.get i with
    | none => rw [hc, ha] at h0; simp at h0
    | some a =>
      cases hb : yi.get (i + 1) with
      | none => rw [hc, hb] at h1; simp at h1
      | some b =>
        rw [hc, ha] at h0; rw [hc, hb] at h1
        simp only [sub_some, le_some, decide_eq_true_eq, sub_nonneg] at h0 h1
        exact ⟨a, b, c, rfl, rfl, rfl, h0, h1, ⟨by omega, by omega, a, b, ha, hb, h0, h1⟩, rfl, rfl⟩

/-! ## C204: linear and nearest interpolation -/

/-- both values are missing, or the second one is within `6 u` times the data that enclose the point -/
def LinNear (u : ℚ) (v yi yo : Row) (j : Int) (v1 v2 : V) : Prop :=
  (v1 = none ∧ v2 = none) ∨ ∃ (i : Int) (c x y r r' : ℚ), yo.get j = some c ∧ Brackets yi i c ∧ v.get i = some x ∧ v.get (i + 1) = some y ∧
    v1 = some r' ∧ v2 = some r ∧ |r' - r| ≤ 6 * u * max |x| |y|

theorem linearW_rel {fl : ℚ → ℚ} {u : ℚ} (h : Rounds fl u) (hu : u ≤ 1 / 64) (v yi yo : Row) {i : Int}
    (hi : i ∈ pyRange (getIminmax yi).1 (getIminmax yi).2) (k : Int) :
    WRel (LinNear u v yi yo) (wrapIdx yo.n k)
      (linearWF fl v i (V.rd fl (sub (yo.rd k) (yi.rd i))) (V.rd fl (sub (yi.rd (i + 1)) (yo.rd k))))
      (linearW v i (sub (yo.rd k) (yi.rd i)) (sub (yi.rd (i + 1)) (yo.rd k))) := by
  obtain ⟨r0, r1, r2, r3⟩ := range_in yi hi
  unfold linearWF linearW
  rw [le_rd h, le_rd h]
  by_cases hc : (le (some 0) (sub (yo.rd k) (yi.rd i)) && le (some 0) (sub (yi.rd (i + 1)) (yo.rd k))) = true
  · rw [if_pos hc, if_pos hc]
    rw [Bool.and_eq_true] at hc
    obtain ⟨a, b, c, hcc, ha, hb, hac, hcb, hbr, e0, e1⟩ := cell_of yi yo hi k hc.1 hc.2
    rw [e0, e1]
    refine Or.inr ⟨_, _, rfl, rfl, ?_⟩
    rw [Row.rd_nonneg v (by omega), Row.rd_nonneg v (by omega)]
    cases hx : v.get i with
    | none => left; constructor <;> rfl
    | some x =>
      cases hy : v.get (i + 1) with
      | none => left; constructor <;> rfl
      | some y =>
        have hd0 : 0 ≤ c - a := by linarith
        have hd1 : 0 ≤ b - c := by linarith
        simp only [V.rd, Option.map_some, flMul, flAdd, flDiv, mul_some, add_some]
        by_cases hs : c - a + (b - c) = 0
        · have z0 : c - a = 0 := by linarith
          have z1 : b - c = 0 := by linarith
          left
          rw [z0, z1, h.zero]
          simp [V.div, h.zero]
        · have hs' : 0 < c - a + (b - c) := lt_of_le_of_ne (by linarith) (Ne.symm hs)
          right
          have hS : 0 < fl (c - a) + fl (b - c) := by
            rcases hd0.lt_or_eq with hp | hp
            · exact add_pos_of_pos_of_nonneg (h.pos hp) ((h.nonneg_iff _).2 hd1)
            · exact add_pos_of_nonneg_of_pos ((h.nonneg_iff _).2 hd0) (h.pos (by linarith))
          rw [V.div_some (h.pos hS).ne', V.div_some hs]
          exact ⟨i, c, x, y, _, _, hcc, hbr, hx, hy, rfl, rfl, lin_err h hu _ _ _ _ hd0 hd1 hs'⟩
  · rw [if_neg hc, if_neg hc]; exact Or.inl ⟨rfl, rfl⟩

/-- **C204** (linear interpolation): in floating-point arithmetic with a relative error of `u` by operation, `linear1d` gives a value exactly where exact arithmetic
does, and the two values differ by at most `6 u` times the larger of the sizes of the two data that enclose the point. Any coordinates, sorted or not. -/
theorem C204_linear {fl : ℚ → ℚ} {u : ℚ} (h : Rounds fl u) (hu : u ≤ 1 / 64) (vari yi yo : Mat) (ix j : Int) (hx0 : 0 ≤ ix) (hx : ix < max vari.nx yo.nx)
    (hv : 0 < vari.nx) (hi : 0 < yi.nx) (ho : 0 < yo.nx) :
    ((linear1dF fl vari yi yo).get ix j = none ∧ (linear1d vari yi yo).get ix j = none) ∨
    ∃ (i : Int) (c x y r r' : ℚ), yo.get (ix % yo.nx) j = some c ∧ Brackets (yi.row (ix % yi.nx)) i c ∧
      vari.get (ix % vari.nx) i = some x ∧ vari.get (ix % vari.nx) (i + 1) = some y ∧
      (linear1dF fl vari yi yo).get ix j = some r' ∧ (linear1d vari yi yo).get ix j = some r ∧ |r' - r| ≤ 6 * u * max |x| |y| := by
  have e1 : (linear1dF fl vari yi yo).get ix = nlRowF fl (yi.row (ix % yi.nx)) (yo.row (ix % yo.nx)) (linearWF fl (vari.row (ix % vari.nx))) (fun _ => none) := by
    rw [← rowIdx_eq _ _ hi, ← rowIdx_eq _ _ ho, ← rowIdx_eq _ _ hv]
    exact mkOut_row _ _ _ ix hx0 hx
  have e2 : (linear1d vari yi yo).get ix = nlRow (yi.row (ix % yi.nx)) (yo.row (ix % yo.nx)) (linearW (vari.row (ix % vari.nx))) (fun _ => none) := by
    rw [← rowIdx_eq _ _ hi, ← rowIdx_eq _ _ ho, ← rowIdx_eq _ _ hv]
    exact mkOut_row _ _ _ ix hx0 hx
  rw [e1, e2, nlRowF_eq h]
  exact nlOuter_rel (LinNear u (vari.row (ix % vari.nx)) (yi.row (ix % yi.nx)) (yo.row (ix % yo.nx))) _ _ _ _ _ _
    (fun i hi k _ _ => linearW_rel h hu _ _ _ hi k) _ _ _ (fun _ => Or.inl ⟨rfl, rfl⟩) j

/-- both values are the same, or the point is in the middle of its cell up to the rounding errors and they are the values at the two ends -/
def NearestNear (u : ℚ) (v yi yo : Row) (j : Int) (v1 v2 : V) : Prop :=
  v1 = v2 ∨ ∃ (i : Int) (a b c : ℚ), yo.get j = some c ∧ Brackets yi i c ∧ yi.get i = some a ∧ yi.get (i + 1) = some b ∧
    (c - a) * (1 - u) ≤ (b - c) * (1 + u) ∧ (b - c) * (1 - u) ≤ (c - a) * (1 + u) ∧
    ((v1 = v.get i ∧ v2 = v.get (i + 1)) ∨ (v1 = v.get (i + 1) ∧ v2 = v.get i))

theorem nearestW_rel {fl : ℚ → ℚ} {u : ℚ} (h : Rounds fl u) (v yi yo : Row) {i : Int}
    (hi : i ∈ pyRange (getIminmax yi).1 (getIminmax yi).2) (k : Int) (h1 : lt (sub (yi.rd (i + 1)) (yo.rd k)) (some 0) = false)
    (h0 : lt (sub (yo.rd k) (yi.rd i)) (some 0) = false) :
    WRel (NearestNear u v yi yo) (wrapIdx yo.n k)
      (nearestW v i (V.rd fl (sub (yo.rd k) (yi.rd i))) (V.rd fl (sub (yi.rd (i + 1)) (yo.rd k))))
      (nearestW v i (sub (yo.rd k) (yi.rd i)) (sub (yi.rd (i + 1)) (yo.rd k))) := by
  obtain ⟨r0, r1, r2, r3⟩ := range_in yi hi
  right
  unfold nearestW
  rw [Row.rd_nonneg v (by omega : 0 ≤ i), Row.rd_nonneg v (by omega : 0 ≤ i + 1)]
  by_cases hle : le (V.rd fl (sub (yo.rd k) (yi.rd i))) (V.rd fl (sub (yi.rd (i + 1)) (yo.rd k))) = le (sub (yo.rd k) (yi.rd i)) (sub (yi.rd (i + 1)) (yo.rd k))
  · rw [hle]
    by_cases hl : le (sub (yo.rd k) (yi.rd i)) (sub (yi.rd (i + 1)) (yo.rd k)) = true
    · rw [if_pos hl]; exact ⟨_, _, rfl, rfl, Or.inl rfl⟩
    · rw [if_neg hl]; exact ⟨_, _, rfl, rfl, Or.inl rfl⟩
  · cases hd0 : sub (yo.rd k) (yi.rd i) with
    | none => rw [hd0] at hle; exact absurd rfl hle
    | some d0 =>
      cases hd1 : sub (yi.rd (i + 1)) (yo.rd k) with
      | none => rw [hd0, hd1] at hle; exact absurd rfl hle
      | some d1 =>
        have p0 : 0 ≤ d0 := by rw [hd0] at h0; simpa using h0
        have p1 : 0 ≤ d1 := by rw [hd1] at h1; simpa using h1
        obtain ⟨a, b, c, hcc, ha, hb, hac, hcb, hbr, e0, e1⟩ := cell_of yi yo hi k (by rw [hd0]; simpa using p0) (by rw [hd1]; simpa using p1)
        rw [hd0] at e0; rw [hd1] at e1
        have e0 := Option.some.inj e0; have e1 := Option.some.inj e1
        rw [hd0, hd1] at hle
        simp only [V.rd, Option.map_some, le_some] at hle
        obtain ⟨x0, hx0, q0⟩ := h.delta d0
        obtain ⟨x1, hx1, q1⟩ := h.delta d1
        have l0 : d0 * (1 - u) ≤ fl d0 := by rw [q0]; exact mul_le_mul_of_nonneg_left (by linarith [(abs_le.1 hx0).1]) p0
        have g0 : fl d0 ≤ d0 * (1 + u) := by rw [q0]; exact mul_le_mul_of_nonneg_left (by linarith [(abs_le.1 hx0).2]) p0
        have l1 : d1 * (1 - u) ≤ fl d1 := by rw [q1]; exact mul_le_mul_of_nonneg_left (by linarith [(abs_le.1 hx1).1]) p1
        have g1 : fl d1 ≤ d1 * (1 + u) := by rw [q1]; exact mul_le_mul_of_nonneg_left (by linarith [(abs_le.1 hx1).2]) p1
        have hu := h.nonneg
        by_cases hl : d0 ≤ d1
        · have hr : ¬ fl d0 ≤ fl d1 := fun hr => hle (by simp [hl, hr])
          rw [if_neg (show ¬ le (V.rd fl (some d0)) (V.rd fl (some d1)) = true by simpa [V.rd] using hr), if_pos (show le (some d0) (some d1) = true by simpa using hl)]
          refine ⟨_, _, rfl, rfl, Or.inr ⟨i, a, b, c, hcc, hbr, ha, hb, ?_, ?_, Or.inr ⟨rfl, rfl⟩⟩⟩
          · rw [← e0, ← e1]; nlinarith
          · rw [← e0, ← e1]; linarith
        · have hr : fl d0 ≤ fl d1 := by by_contra hr; exact hle (by simp [hl, hr])
          rw [if_pos (show le (V.rd fl (some d0)) (V.rd fl (some d1)) = true by simpa [V.rd] using hr), if_neg (show ¬ le (some d0) (some d1) = true by simpa using hl)]
          refine ⟨_, _, rfl, rfl, Or.inr ⟨i, a, b, c, hcc, hbr, ha, hb, ?_, ?_, Or.inl ⟨rfl, rfl⟩⟩⟩
          · rw [← e0, ← e1]; linarith
          · rw [← e0, ← e1]; nlinarith

/-- **C204** (nearest neighbour): `nearest1d` gives the same value as in exact arithmetic, except at a point whose distances to the ends of its cell are
equal up to the rounding errors, where it may give the value at the other end. -/
theorem C204_nearest {fl : ℚ → ℚ} {u : ℚ} (h : Rounds fl u) (vari yi yo : Mat) (ix j : Int) (hx0 : 0 ≤ ix) (hx : ix < max vari.nx yo.nx)
    (hv : 0 < vari.nx) (hi : 0 < yi.nx) (ho : 0 < yo.nx) :
    (nearest1dF fl vari yi yo).get ix j = (nearest1d vari yi yo).get ix j ∨
    ∃ (i : Int) (a b c : ℚ), yo.get (ix % yo.nx) j = some c ∧ Brackets (yi.row (ix % yi.nx)) i c ∧
      yi.get (ix % yi.nx) i = some a ∧ yi.get (ix % yi.nx) (i + 1) = some b ∧
      (c - a) * (1 - u) ≤ (b - c) * (1 + u) ∧ (b - c) * (1 - u) ≤ (c - a) * (1 + u) ∧
      (((nearest1dF fl vari yi yo).get ix j = vari.get (ix % vari.nx) i ∧ (nearest1d vari yi yo).get ix j = vari.get (ix % vari.nx) (i + 1)) ∨
       ((nearest1dF fl vari yi yo).get ix j = vari.get (ix % vari.nx) (i + 1) ∧ (nearest1d vari yi yo).get ix j = vari.get (ix % vari.nx) i)) := by
  have e1 : (nearest1dF fl vari yi yo).get ix = nlRowF fl (yi.row (ix % yi.nx)) (yo.row (ix % yo.nx)) (nearestW (vari.row (ix % vari.nx))) (fun _ => none) := by
    rw [← rowIdx_eq _ _ hi, ← rowIdx_eq _ _ ho, ← rowIdx_eq _ _ hv]
    exact mkOut_row _ _ _ ix hx0 hx
  have e2 : (nearest1d vari yi yo).get ix = nlRow (yi.row (ix % yi.nx)) (yo.row (ix % yo.nx)) (nearestW (vari.row (ix % vari.nx))) (fun _ => none) := by
    rw [← rowIdx_eq _ _ hi, ← rowIdx_eq _ _ ho, ← rowIdx_eq _ _ hv]
    exact mkOut_row _ _ _ ix hx0 hx
  rw [e1, e2, nlRowF_eq h]
  exact nlOuter_rel (NearestNear u (vari.row (ix % vari.nx)) (yi.row (ix % yi.nx)) (yo.row (ix % yo.nx))) _ _ _ _ _ _
    (fun i hi k h1 h0 => nearestW_rel h _ _ _ hi k h1 h0) _ _ _ (fun _ => Or.inl rfl) j

end Xoa
