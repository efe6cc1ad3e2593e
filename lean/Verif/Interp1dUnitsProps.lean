import Verif.Interp1d
import Verif.Cellave
import Mathlib.Tactic.Ring
import Mathlib.Tactic.FieldSimp
import Mathlib.Tactic.Linarith

/-!
# C158, C159: units of the coordinates and of the data in the 1-D interpolations

No hypothesis on the order of the coordinates, on the missing values or on the shapes (but for the cell averages, see there).
-/

namespace Xoa
open V

/-! ## specification -/

/-- the array in other units: `x` becomes `s x + t`, missing values stay missing -/
def Mat.inUnits (s t : ℚ) (m : Mat) : Mat := ⟨m.nx, m.ny, fun i j => (m.get i j).map fun x => s * x + t⟩

/-- `a m + b m'`, missing where one of them is missing -/
def Mat.combine (a b : ℚ) (m m' : Mat) : Mat :=
  ⟨m.nx, m.ny, fun i j => match m.get i j, m'.get i j with
    | some x, some y => some (a * x + b * y)
    | _, _ => none⟩

/-- two arrays with the same shape -/
def Mat.SameShape (m m' : Mat) : Prop := m.nx = m'.nx ∧ m.ny = m'.ny

/-! ## change of the units of the coordinate -/

theorem iminmaxLoop_nan (d e : Row) (hn : d.n = e.n) (h : ∀ i, isnan (d.rd i) = isnan (e.rd i)) (l : List Int) (a b : Int) :
    iminmaxLoop d l a b = iminmaxLoop e l a b := by
  induction l generalizing a b with
  | nil => rfl
  | cons i l ih => simp only [iminmaxLoop, h, hn, ih]

theorem getIminmax_nan (d e : Row) (hn : d.n = e.n) (h : ∀ i, isnan (d.rd i) = isnan (e.rd i)) : getIminmax d = getIminmax e := by
  simp only [getIminmax, hn, iminmaxLoop_nan d e hn h]

/-- a row in other units -/
def RowAff (s t : ℚ) (r r' : Row) : Prop := r'.n = r.n ∧ ∀ i, r'.rd i = (r.rd i).map fun x => s * x + t

theorem RowAff.of (s t : ℚ) (m : Mat) (i : Int) : RowAff s t (m.row i) ((m.inUnits s t).row i) := ⟨rfl, fun _ => rfl⟩

theorem RowAff.imm {s t : ℚ} {r r' : Row} (h : RowAff s t r r') : getIminmax r' = getIminmax r :=
  getIminmax_nan _ _ h.1 fun i => by rw [h.2 i]; cases r.rd i <;> rfl

theorem lt_aff {s t : ℚ} (hs : 0 < s) (a b : V) : lt (a.map fun x => s * x + t) (b.map fun x => s * x + t) = lt a b := by
  cases a <;> cases b <;> simp [lt, hs]

theorem sub_aff {s t : ℚ} (a b : V) : sub (a.map fun x => s * x + t) (b.map fun x => s * x + t) = mul (some s) (sub a b) := by
  cases a <;> cases b <;> simp [sub, mul]; ring

theorem lt_scale {s : ℚ} (hs : 0 < s) (a : V) : lt (mul (some s) a) (some 0) = lt a (some 0) := by
  cases a with
  | none => rfl
  | some x => simp only [mul_some, lt_some]; congr 1; rw [eq_iff_iff]; constructor <;> intro h <;> nlinarith

theorem le_scale {s : ℚ} (hs : 0 < s) (a : V) : le (some 0) (mul (some s) a) = le (some 0) a := by
  cases a with
  | none => rfl
  | some x => simp only [mul_some, le_some]; congr 1; rw [eq_iff_iff]; constructor <;> intro h <;> nlinarith

theorem le_scale2 {s : ℚ} (hs : 0 < s) (a b : V) : le (mul (some s) a) (mul (some s) b) = le a b := by
  cases a <;> cases b <;> simp [mul, le, hs]

section
variable {s t : ℚ} (hs : 0 < s) {yi yo yi' yo' : Row} (hi : RowAff s t yi yi') (ho : RowAff s t yo yo')
include hs hi ho

theorem nlInner_aff (w : Int → V → V → Option V) (hw : ∀ i d0 d1, w i (mul (some s) d0) (mul (some s) d1) = w i d0 d1) (iyi : Int)
    (l : List Int) (m : Int) (out : Int → V) : nlInner yi' yo' w iyi l m out = nlInner yi yo w iyi l m out := by
  induction l generalizing m out with
  | nil => rfl
  | cons j l ih => simp only [nlInner, hi.2, ho.2, ho.1, sub_aff, lt_scale hs, hw, ih]

theorem nlOuter_aff (w : Int → V → V → Option V) (hw : ∀ i d0 d1, w i (mul (some s) d0) (mul (some s) d1) = w i d0 d1) (M : Int)
    (l : List Int) (m : Int) (out : Int → V) : nlOuter yi' yo' w M l m out = nlOuter yi yo w M l m out := by
  induction l generalizing m out with
  | nil => rfl
  | cons j l ih => simp only [nlOuter, hi.2, ho.2, lt_aff hs, nlInner_aff hs hi ho w hw, ih]

theorem nlRow_aff (w : Int → V → V → Option V) (hw : ∀ i d0 d1, w i (mul (some s) d0) (mul (some s) d1) = w i d0 d1) (out : Int → V) :
    nlRow yi' yo' w out = nlRow yi yo w out := by
  simp only [nlRow, hi.imm, ho.imm, nlOuter_aff hs hi ho w hw]

theorem chInner_aff (w : Int → V → V → V) (hw : ∀ i d0 d1, w i (mul (some s) d0) (mul (some s) d1) = w i d0 d1) (iyi : Int)
    (l : List Int) (m : Int) (out : Int → V) : chInner yi' yo' w iyi l m out = chInner yi yo w iyi l m out := by
  induction l generalizing m out with
  | nil => rfl
  | cons j l ih => simp only [chInner, hi.2, ho.2, ho.1, sub_aff, lt_scale hs, le_scale hs, hw, ih]

theorem chOuter_aff (w : Int → V → V → V) (hw : ∀ i d0 d1, w i (mul (some s) d0) (mul (some s) d1) = w i d0 d1) (M : Int)
    (l : List Int) (m : Int) (out : Int → V) : chOuter yi' yo' w M l m out = chOuter yi yo w M l m out := by
  induction l generalizing m out with
  | nil => rfl
  | cons j l ih => simp only [chOuter, hi.2, ho.2, ho.1, lt_aff hs, chInner_aff hs hi ho w hw, ih]

theorem chRow_aff (w : Int → Int → Int → V → V → V) (hw : ∀ p q i d0 d1, w p q i (mul (some s) d0) (mul (some s) d1) = w p q i d0 d1) (out : Int → V) :
    chRow yi' yo' w out = chRow yi yo w out := by
  simp only [chRow, hi.imm, ho.imm, chOuter_aff hs hi ho _ (hw _ _)]
end

theorem mkOut_congr (vari yo yo' : Mat) (h1 : yo'.nx = yo.nx) (h2 : yo'.ny = yo.ny) (b b' : Int → (Int → V) → (Int → V))
    (h : ∀ ix out, b' ix out = b ix out) : mkOut vari yo' b' = mkOut vari yo b := by
  have : b' = b := by funext ix out; exact h ix out
  simp only [mkOut, h1, h2, this]

theorem mu_scale {s : ℚ} (hs : 0 < s) (a b : V) : div (mul (some s) a) (add (mul (some s) a) (mul (some s) b)) = div a (add a b) := by
  cases a with
  | none => rfl
  | some x => cases b with
    | none => simp
    | some y =>
      simp only [mul_some, add_some, div]
      have e : s * x + s * y = s * (x + y) := by ring
      rw [e]
      by_cases h : x + y = 0
      · simp [h]
      · have hs' : s ≠ 0 := ne_of_gt hs
        rw [if_neg (mul_ne_zero hs' h), if_neg h, mul_div_mul_left _ _ hs']

theorem linearW_scale {s : ℚ} (hs : 0 < s) (v : Row) (i : Int) (d0 d1 : V) :
    linearW v i (mul (some s) d0) (mul (some s) d1) = linearW v i d0 d1 := by
  unfold linearW
  rw [le_scale hs, le_scale hs]
  congr 1; congr 1
  cases hx : v.rd i with
  | none => simp
  | some x => cases hy : v.rd (i + 1) with
    | none => simp
    | some y => cases d0 with
      | none => simp
      | some a => cases d1 with
        | none => simp
        | some b =>
          simp only [mul_some, add_some, div]
          have e : s * a + s * b = s * (a + b) := by ring
          have e2 : x * (s * b) + y * (s * a) = s * (x * b + y * a) := by ring
          rw [e, e2]
          by_cases h : a + b = 0
          · simp [h]
          · have hs' : s ≠ 0 := ne_of_gt hs
            rw [if_neg (mul_ne_zero hs' h), if_neg h, mul_div_mul_left _ _ hs']

/-- **C158 (units of the coordinate).** The four interpolation routines do not depend on the units of the coordinate: the same
change of units (any positive factor and any origin) of the input and of the output coordinates gives the same result,
whatever the order of the coordinates and the missing values. -/
theorem C158_coordinate_units (s t : ℚ) (hs : 0 < s) (vari yi yo : Mat) (bias tension : ℚ) :
    linear1d vari (yi.inUnits s t) (yo.inUnits s t) = linear1d vari yi yo ∧
    nearest1d vari (yi.inUnits s t) (yo.inUnits s t) = nearest1d vari yi yo ∧
    cubic1d vari (yi.inUnits s t) (yo.inUnits s t) = cubic1d vari yi yo ∧
    hermit1d vari (yi.inUnits s t) (yo.inUnits s t) bias tension = hermit1d vari yi yo bias tension := by
  refine ⟨?_, ?_, ?_, ?_⟩ <;> refine mkOut_congr _ _ _ rfl rfl _ _ fun ix out => ?_
  · exact nlRow_aff hs (RowAff.of s t yi _) (RowAff.of s t yo _) _ (linearW_scale hs _) out
  · exact nlRow_aff hs (RowAff.of s t yi _) (RowAff.of s t yo _) _ (fun i d0 d1 => by simp only [nearestW, le_scale2 hs]) out
  · exact chRow_aff hs (RowAff.of s t yi _) (RowAff.of s t yo _) _ (fun p q i d0 d1 => by simp only [cubicW, mu_scale hs]) out
  · exact chRow_aff hs (RowAff.of s t yi _) (RowAff.of s t yo _) _ (fun p q i d0 d1 => by simp only [hermitW, mu_scale hs]) out

/-! ## combination of data -/

/-- `a x + b y`, missing where one of them is missing -/
def comb (a b : ℚ) (x y : V) : V := add (mul (some a) x) (mul (some b) y)

theorem Mat.combine_get (a b : ℚ) (m m' : Mat) (i j : Int) : (m.combine a b m').get i j = comb a b (m.get i j) (m'.get i j) := by
  show (match m.get i j, m'.get i j with | some x, some y => some (a * x + b * y) | _, _ => none) = _
  cases m.get i j <;> cases m'.get i j <;> rfl

/-- the row is the combination of the two others -/
def RowComb (a b : ℚ) (r1 r2 r3 : Row) : Prop := ∀ i, r3.rd i = comb a b (r1.rd i) (r2.rd i)

theorem RowComb.of (a b : ℚ) (m m' : Mat) (h : m.SameShape m') (i : Int) : RowComb a b (m.row i) (m'.row i) ((m.combine a b m').row i) := by
  intro j
  show (m.combine a b m').get i (wrapIdx m.ny j) = comb a b (m.get i (wrapIdx m.ny j)) (m'.get i (wrapIdx m'.ny j))
  rw [Mat.combine_get, h.2]

/-- all the values of a row of the output are the combinations -/
def OutComb (c : V → V → V) (o1 o2 o3 : Int → V) : Prop := ∀ j, o3 j = c (o1 j) (o2 j)

theorem OutComb.wr {c : V → V → V} {o1 o2 o3 : Int → V} (h : OutComb c o1 o2 o3) (n : Nat) (i : Int) (x y z : V) (hz : z = c x y) :
    OutComb c (wr1 n o1 i x) (wr1 n o2 i y) (wr1 n o3 i z) := by
  intro j
  simp only [wr1]
  split
  · exact hz
  · exact h j

/-- three branches that write the values and their combination, or nothing -/
def WComb (c : V → V → V) (w1 w2 w3 : Int → V → V → Option V) : Prop := ∀ i d0 d1,
  (w1 i d0 d1 = none ∧ w2 i d0 d1 = none ∧ w3 i d0 d1 = none) ∨
  ∃ x y, w1 i d0 d1 = some x ∧ w2 i d0 d1 = some y ∧ w3 i d0 d1 = some (c x y)

theorem nlInner_comb {c : V → V → V} (yi yo : Row) {w1 w2 w3 : Int → V → V → Option V} (hw : WComb c w1 w2 w3) (iyi : Int) (l : List Int) (m : Int)
    (o1 o2 o3 : Int → V) (h : OutComb c o1 o2 o3) :
    (nlInner yi yo w2 iyi l m o2).1 = (nlInner yi yo w1 iyi l m o1).1 ∧ (nlInner yi yo w3 iyi l m o3).1 = (nlInner yi yo w1 iyi l m o1).1 ∧
    OutComb c (nlInner yi yo w1 iyi l m o1).2 (nlInner yi yo w2 iyi l m o2).2 (nlInner yi yo w3 iyi l m o3).2 := by
  induction l generalizing m o1 o2 o3 with
  | nil => exact ⟨rfl, rfl, h⟩
  | cons j l ih =>
    simp only [nlInner]
    split
    · exact ⟨rfl, rfl, h⟩
    · split
      · exact ih _ _ _ _ h
      · rcases hw iyi (sub (yo.rd j) (yi.rd iyi)) (sub (yi.rd (iyi + 1)) (yo.rd j)) with ⟨e1, e2, e3⟩ | ⟨x, y, e1, e2, e3⟩
        · rw [e1, e2, e3]; exact ih _ _ _ _ h
        · rw [e1, e2, e3]; exact ih _ _ _ _ (h.wr _ _ _ _ _ rfl)

theorem nlOuter_comb {c : V → V → V} (yi yo : Row) {w1 w2 w3 : Int → V → V → Option V} (hw : WComb c w1 w2 w3) (M : Int) (l : List Int) (m : Int)
    (o1 o2 o3 : Int → V) (h : OutComb c o1 o2 o3) :
    OutComb c (nlOuter yi yo w1 M l m o1) (nlOuter yi yo w2 M l m o2) (nlOuter yi yo w3 M l m o3) := by
  induction l generalizing m o1 o2 o3 with
  | nil => exact h
  | cons j l ih =>
    simp only [nlOuter]
    split
    · exact ih _ _ _ _ h
    · split
      · exact h
      · obtain ⟨e1, e2, e3⟩ := nlInner_comb yi yo hw j (pyRange m (M + 1)) m o1 o2 o3 h
        rw [e1, e2]; exact ih _ _ _ _ e3

theorem chInner_comb {c : V → V → V} (yi yo : Row) {w1 w2 w3 : Int → V → V → V} (hw : ∀ i d0 d1, w3 i d0 d1 = c (w1 i d0 d1) (w2 i d0 d1))
    (iyi : Int) (l : List Int) (m : Int) (o1 o2 o3 : Int → V) (h : OutComb c o1 o2 o3) :
    (chInner yi yo w2 iyi l m o2).1 = (chInner yi yo w1 iyi l m o1).1 ∧ (chInner yi yo w3 iyi l m o3).1 = (chInner yi yo w1 iyi l m o1).1 ∧
    OutComb c (chInner yi yo w1 iyi l m o1).2 (chInner yi yo w2 iyi l m o2).2 (chInner yi yo w3 iyi l m o3).2 := by
  induction l generalizing m o1 o2 o3 with
  | nil => exact ⟨rfl, rfl, h⟩
  | cons j l ih =>
    simp only [chInner]
    split
    · exact ⟨rfl, rfl, h⟩
    · split
      · exact ih _ _ _ _ (h.wr _ _ _ _ _ (hw _ _ _))
      · exact ih _ _ _ _ h

theorem chOuter_comb {c : V → V → V} (yi yo : Row) {w1 w2 w3 : Int → V → V → V} (hw : ∀ i d0 d1, w3 i d0 d1 = c (w1 i d0 d1) (w2 i d0 d1))
    (M : Int) (l : List Int) (m : Int) (o1 o2 o3 : Int → V) (h : OutComb c o1 o2 o3) :
    OutComb c (chOuter yi yo w1 M l m o1) (chOuter yi yo w2 M l m o2) (chOuter yi yo w3 M l m o3) := by
  induction l generalizing m o1 o2 o3 with
  | nil => exact h
  | cons j l ih =>
    simp only [chOuter]
    split
    · exact ih _ _ _ _ h
    · split
      · exact h
      · obtain ⟨e1, e2, e3⟩ := chInner_comb yi yo hw j (pyRange m yo.n) m o1 o2 o3 h
        rw [e1, e2]; exact ih _ _ _ _ e3

theorem rowLoop_comb {c : V → V → V} {b1 b2 b3 : Int → (Int → V) → (Int → V)}
    (hb : ∀ ix o1 o2 o3, OutComb c o1 o2 o3 → OutComb c (b1 ix o1) (b2 ix o2) (b3 ix o3)) (l : List Int) (m1 m2 m3 : Int → Int → V)
    (h : ∀ ix, OutComb c (m1 ix) (m2 ix) (m3 ix)) (ix : Int) : OutComb c (rowLoop b1 l m1 ix) (rowLoop b2 l m2 ix) (rowLoop b3 l m3 ix) := by
  induction l generalizing m1 m2 m3 with
  | nil => exact h ix
  | cons i l ih =>
    refine ih _ _ _ fun k => ?_
    simp only [updRow]
    split
    · exact hb i _ _ _ (h i)
    · exact h k

theorem mkOut_get_comb {c : V → V → V} (hc : c none none = none) (v1 v2 v3 yo : Mat) (h2 : v2.nx = v1.nx) (h3 : v3.nx = v1.nx)
    {b1 b2 b3 : Int → (Int → V) → (Int → V)} (hb : ∀ ix o1 o2 o3, OutComb c o1 o2 o3 → OutComb c (b1 ix o1) (b2 ix o2) (b3 ix o3)) (i j : Int) :
    (mkOut v3 yo b3).get i j = c ((mkOut v1 yo b1).get i j) ((mkOut v2 yo b2).get i j) := by
  have := rowLoop_comb hb (pyRange 0 (max v1.nx yo.nx : Nat)) nanMat nanMat nanMat (fun _ _ => hc.symm) i j
  show rowLoop b3 (pyRange 0 (max v3.nx yo.nx : Nat)) nanMat i j = c (rowLoop b1 (pyRange 0 (max v1.nx yo.nx : Nat)) nanMat i j)
    (rowLoop b2 (pyRange 0 (max v2.nx yo.nx : Nat)) nanMat i j)
  rw [h2, h3]; exact this

theorem mkOut_comb {a b : ℚ} (v1 v2 yo : Mat) (hsh : v1.SameShape v2) {b1 b2 b3 : Int → (Int → V) → (Int → V)}
    (hb : ∀ ix o1 o2 o3, OutComb (comb a b) o1 o2 o3 → OutComb (comb a b) (b1 ix o1) (b2 ix o2) (b3 ix o3)) :
    mkOut (v1.combine a b v2) yo b3 = (mkOut v1 yo b1).combine a b (mkOut v2 yo b2) := by
  have : (mkOut (v1.combine a b v2) yo b3).get = ((mkOut v1 yo b1).combine a b (mkOut v2 yo b2)).get := by
    funext i j
    rw [Mat.combine_get]
    exact mkOut_get_comb (c := comb a b) rfl v1 v2 (v1.combine a b v2) yo hsh.1.symm rfl hb i j
  calc mkOut (v1.combine a b v2) yo b3 = ⟨max v1.nx yo.nx, yo.ny, (mkOut (v1.combine a b v2) yo b3).get⟩ := rfl
    _ = _ := by rw [this]; rfl

/-- in other units, for one value -/
def affV (s t : ℚ) (x _ : V) : V := x.map fun x => s * x + t

theorem mkOut_aff {s t : ℚ} (v yo : Mat) {b b' : Int → (Int → V) → (Int → V)}
    (hb : ∀ ix o1 o2 o3, OutComb (affV s t) o1 o2 o3 → OutComb (affV s t) (b ix o1) (b ix o2) (b' ix o3)) :
    mkOut (v.inUnits s t) yo b' = (mkOut v yo b).inUnits s t := by
  have : (mkOut (v.inUnits s t) yo b').get = ((mkOut v yo b).inUnits s t).get := by
    funext i j
    exact mkOut_get_comb (c := affV s t) rfl v v (v.inUnits s t) yo rfl rfl hb i j
  calc mkOut (v.inUnits s t) yo b' = ⟨max v.nx yo.nx, yo.ny, (mkOut (v.inUnits s t) yo b').get⟩ := rfl
    _ = _ := by rw [this]; rfl

theorem linearW_comb (a b : ℚ) (r1 r2 r3 : Row) (h : RowComb a b r1 r2 r3) : WComb (comb a b) (linearW r1) (linearW r2) (linearW r3) := by
  intro i d0 d1
  unfold linearW
  by_cases hc : (le (some 0) d0 && le (some 0) d1) = true
  · right
    rw [if_pos hc, if_pos hc, if_pos hc, h, h]
    refine ⟨_, _, rfl, rfl, ?_⟩
    congr 1
    rw [Bool.and_eq_true, le_iff, le_iff] at hc
    obtain ⟨⟨_, p, _, rfl, _⟩, _, q, _, rfl, _⟩ := hc
    cases r1.rd i <;> cases r1.rd (i + 1) <;> cases r2.rd i <;> cases r2.rd (i + 1) <;> simp [comb, div]
    by_cases hz : p + q = 0
    · simp [hz]
    · simp only [hz, if_false, mul_some, add_some, Option.some.injEq]; field_simp; ring
  · left; rw [if_neg hc, if_neg hc, if_neg hc]; exact ⟨rfl, rfl, rfl⟩

theorem nearestW_comb (a b : ℚ) (r1 r2 r3 : Row) (h : RowComb a b r1 r2 r3) : WComb (comb a b) (nearestW r1) (nearestW r2) (nearestW r3) := by
  intro i d0 d1
  right
  unfold nearestW
  split
  · exact ⟨_, _, rfl, rfl, by rw [h]⟩
  · exact ⟨_, _, rfl, rfl, by rw [h]⟩

theorem vc0_comb (a b : ℚ) (r1 r2 r3 q1 q2 q3 : Row) (h : RowComb a b r1 r2 r3) (hq : RowComb a b q1 q2 q3) (m i : Int) :
    vc0 r3 q3 m i = comb a b (vc0 r1 q1 m i) (vc0 r2 q2 m i) := by
  unfold vc0
  split
  · rw [h, h]
    cases r1.rd i <;> cases r1.rd (i + 1) <;> cases r2.rd i <;> cases r2.rd (i + 1) <;> simp [comb, vtwo]
    ring
  · exact hq _

theorem vc1_comb (a b : ℚ) (q1 q2 q3 : Row) (hq : RowComb a b q1 q2 q3) (m i : Int) :
    vc1 q3 m i = comb a b (vc1 q1 m i) (vc1 q2 m i) := by
  unfold vc1
  split
  · rw [hq, hq]
    cases q1.rd i <;> cases q1.rd (i + 1) <;> cases q2.rd i <;> cases q2.rd (i + 1) <;> simp [comb, vtwo]
    ring
  · exact hq _

theorem cubicW_comb (a b : ℚ) (r1 r2 r3 q1 q2 q3 : Row) (h : RowComb a b r1 r2 r3) (hq : RowComb a b q1 q2 q3) (p q i : Int) (d0 d1 : V) :
    cubicW r3 q3 p q i d0 d1 = comb a b (cubicW r1 q1 p q i d0 d1) (cubicW r2 q2 p q i d0 d1) := by
  unfold cubicW
  simp only [vc0_comb a b r1 r2 r3 q1 q2 q3 h hq, vc1_comb a b q1 q2 q3 hq, h i, h (i + 1)]
  generalize vc0 r1 q1 p i = c1
  generalize vc0 r2 q2 p i = c2
  generalize vc1 q1 q i = e1
  generalize vc1 q2 q i = e2
  generalize r1.rd i = x1
  generalize r2.rd i = x2
  generalize r1.rd (i + 1) = y1
  generalize r2.rd (i + 1) = y2
  generalize div d0 (add d0 d1) = mu
  rcases mu with _ | mu
  · cases c1 <;> cases c2 <;> simp [comb, cube, sq]
  · rcases c1 with _ | c1 <;> rcases c2 with _ | c2 <;> rcases e1 with _ | e1 <;> rcases e2 with _ | e2 <;>
      rcases x1 with _ | x1 <;> rcases x2 with _ | x2 <;> rcases y1 with _ | y1 <;> rcases y2 with _ | y2 <;> simp [comb, cube, sq]
    ring

theorem hermitW_comb (bias tension a b : ℚ) (r1 r2 r3 q1 q2 q3 : Row) (h : RowComb a b r1 r2 r3) (hq : RowComb a b q1 q2 q3) (p q i : Int) (d0 d1 : V) :
    hermitW bias tension r3 q3 p q i d0 d1 = comb a b (hermitW bias tension r1 q1 p q i d0 d1) (hermitW bias tension r2 q2 p q i d0 d1) := by
  unfold hermitW
  simp only [vc0_comb a b r1 r2 r3 q1 q2 q3 h hq, vc1_comb a b q1 q2 q3 hq, h i, h (i + 1)]
  generalize vc0 r1 q1 p i = c1
  generalize vc0 r2 q2 p i = c2
  generalize vc1 q1 q i = e1
  generalize vc1 q2 q i = e2
  generalize r1.rd i = x1
  generalize r2.rd i = x2
  generalize r1.rd (i + 1) = y1
  generalize r2.rd (i + 1) = y2
  generalize div d0 (add d0 d1) = mu
  rcases mu with _ | mu
  · cases c1 <;> cases c2 <;> simp [comb, cube, sq, vtwo, vthree, vone]
  · rcases c1 with _ | c1 <;> rcases c2 with _ | c2 <;> rcases e1 with _ | e1 <;> rcases e2 with _ | e2 <;>
      rcases x1 with _ | x1 <;> rcases x2 with _ | x2 <;> rcases y1 with _ | y1 <;> rcases y2 with _ | y2 <;> simp [comb, cube, sq, vtwo, vthree, vone]
    ring

/-- **C159 (combination of data).** The four interpolation routines are linear: interpolating `a v₁ + b v₂` is the same as
combining the interpolated `v₁` and `v₂`, missing values included, whatever the order of the coordinates. -/
theorem C159_linear (a b : ℚ) (v1 v2 yi yo : Mat) (hsh : v1.SameShape v2) (bias tension : ℚ) :
    linear1d (v1.combine a b v2) yi yo = (linear1d v1 yi yo).combine a b (linear1d v2 yi yo) ∧
    nearest1d (v1.combine a b v2) yi yo = (nearest1d v1 yi yo).combine a b (nearest1d v2 yi yo) ∧
    cubic1d (v1.combine a b v2) yi yo = (cubic1d v1 yi yo).combine a b (cubic1d v2 yi yo) ∧
    hermit1d (v1.combine a b v2) yi yo bias tension = (hermit1d v1 yi yo bias tension).combine a b (hermit1d v2 yi yo bias tension) := by
  have hr : ∀ ix, RowComb a b (v1.row ix) (v2.row ix) ((v1.combine a b v2).row ix) := RowComb.of a b v1 v2 hsh
  have hr' : ∀ ix, RowComb a b (v1.row (rowIdx v1.nx ix)) (v2.row (rowIdx v2.nx ix)) ((v1.combine a b v2).row (rowIdx (v1.combine a b v2).nx ix)) := by
    intro ix; rw [← hsh.1]; exact hr _
  refine ⟨?_, ?_, ?_, ?_⟩ <;> refine mkOut_comb v1 v2 yo hsh fun ix o1 o2 o3 h => ?_
  · exact nlOuter_comb _ _ (linearW_comb a b _ _ _ (hr' ix)) _ _ _ _ _ _ h
  · exact nlOuter_comb _ _ (nearestW_comb a b _ _ _ (hr' ix)) _ _ _ _ _ _ h
  · exact chOuter_comb _ _ (fun i d0 d1 => cubicW_comb a b _ _ _ _ _ _ (hr ix) (hr' ix) _ _ i d0 d1) _ _ _ _ _ _ h
  · exact chOuter_comb _ _ (fun i d0 d1 => hermitW_comb bias tension a b _ _ _ _ _ _ (hr ix) (hr' ix) _ _ i d0 d1) _ _ _ _ _ _ h

/-! ## units of the data -/

theorem linearW_aff (s t : ℚ) (r r' : Row) (h : RowAff s t r r') : WComb (affV s t) (linearW r) (linearW r) (linearW r') := by
  intro i d0 d1
  unfold linearW
  by_cases hc : (le (some 0) d0 && le (some 0) d1) = true
  · right
    rw [if_pos hc, if_pos hc, h.2, h.2]
    refine ⟨_, _, rfl, rfl, ?_⟩
    congr 1
    rw [Bool.and_eq_true, le_iff, le_iff] at hc
    obtain ⟨⟨_, p, _, rfl, _⟩, _, q, _, rfl, _⟩ := hc
    cases r.rd i <;> cases r.rd (i + 1) <;> simp [affV, div]
    by_cases hz : p + q = 0
    · simp [hz]
    · simp only [hz, if_false, Option.map_some, Option.some.injEq]; field_simp; ring
  · left; rw [if_neg hc, if_neg hc]; exact ⟨rfl, rfl, rfl⟩

theorem nearestW_aff (s t : ℚ) (r r' : Row) (h : RowAff s t r r') : WComb (affV s t) (nearestW r) (nearestW r) (nearestW r') := by
  intro i d0 d1
  right
  unfold nearestW
  split
  · exact ⟨_, _, rfl, rfl, by rw [h.2]; rfl⟩
  · exact ⟨_, _, rfl, rfl, by rw [h.2]; rfl⟩

theorem vc0_aff (s t : ℚ) (r r' q q' : Row) (h : RowAff s t r r') (hq : RowAff s t q q') (m i : Int) :
    vc0 r' q' m i = (vc0 r q m i).map fun x => s * x + t := by
  unfold vc0
  split
  · rw [h.2, h.2]
    cases r.rd i <;> cases r.rd (i + 1) <;> simp [vtwo]
    ring
  · exact hq.2 _

theorem vc1_aff (s t : ℚ) (q q' : Row) (hq : RowAff s t q q') (m i : Int) :
    vc1 q' m i = (vc1 q m i).map fun x => s * x + t := by
  unfold vc1
  split
  · rw [hq.2, hq.2]
    cases q.rd i <;> cases q.rd (i + 1) <;> simp [vtwo]
    ring
  · exact hq.2 _

theorem cubicW_aff (s t : ℚ) (r r' q q' : Row) (h : RowAff s t r r') (hq : RowAff s t q q') (m M i : Int) (d0 d1 : V) :
    cubicW r' q' m M i d0 d1 = affV s t (cubicW r q m M i d0 d1) (cubicW r q m M i d0 d1) := by
  unfold cubicW
  simp only [vc0_aff s t r r' q q' h hq, vc1_aff s t q q' hq, h.2 i, h.2 (i + 1)]
  generalize vc0 r q m i = c
  generalize vc1 q M i = e
  generalize r.rd i = x
  generalize r.rd (i + 1) = y
  generalize div d0 (add d0 d1) = mu
  rcases mu with _ | mu <;> rcases c with _ | c <;> rcases e with _ | e <;> rcases x with _ | x <;> rcases y with _ | y <;> simp [affV, cube, sq]
  ring

theorem hermitW_aff (bias tension s t : ℚ) (r r' q q' : Row) (h : RowAff s t r r') (hq : RowAff s t q q') (m M i : Int) (d0 d1 : V) :
    hermitW bias tension r' q' m M i d0 d1 = affV s t (hermitW bias tension r q m M i d0 d1) (hermitW bias tension r q m M i d0 d1) := by
  unfold hermitW
  simp only [vc0_aff s t r r' q q' h hq, vc1_aff s t q q' hq, h.2 i, h.2 (i + 1)]
  generalize vc0 r q m i = c
  generalize vc1 q M i = e
  generalize r.rd i = x
  generalize r.rd (i + 1) = y
  generalize div d0 (add d0 d1) = mu
  rcases mu with _ | mu <;> rcases c with _ | c <;> rcases e with _ | e <;> rcases x with _ | x <;> rcases y with _ | y <;>
    simp [affV, cube, sq, vtwo, vthree, vone]
  ring

/-- **C159 (units of the data).** The result of the four interpolation routines on data in other units (any factor and any
origin: degrees Celsius or kelvins, for instance) is the result in these units, missing values included. -/
theorem C159_data_units (s t : ℚ) (v yi yo : Mat) (bias tension : ℚ) :
    linear1d (v.inUnits s t) yi yo = (linear1d v yi yo).inUnits s t ∧
    nearest1d (v.inUnits s t) yi yo = (nearest1d v yi yo).inUnits s t ∧
    cubic1d (v.inUnits s t) yi yo = (cubic1d v yi yo).inUnits s t ∧
    hermit1d (v.inUnits s t) yi yo bias tension = (hermit1d v yi yo bias tension).inUnits s t := by
  have hr : ∀ ix, RowAff s t (v.row ix) ((v.inUnits s t).row ix) := RowAff.of s t v
  refine ⟨?_, ?_, ?_, ?_⟩ <;> refine mkOut_aff v yo fun ix o1 o2 o3 h => ?_
  · exact nlOuter_comb _ _ (linearW_aff s t _ _ (hr _)) _ _ _ _ _ _ h
  · exact nlOuter_comb _ _ (nearestW_aff s t _ _ (hr _)) _ _ _ _ _ _ h
  · exact chOuter_comb _ _ (fun i d0 d1 => cubicW_aff s t _ _ _ _ (hr ix) (hr _) _ _ i d0 d1) _ _ _ _ _ _ h
  · exact chOuter_comb _ _ (fun i d0 d1 => hermitW_aff bias tension s t _ _ _ _ (hr ix) (hr _) _ _ i d0 d1) _ _ _ _ _ _ h

/-- **C159 (extrapolation).** The extrapolation of data in other units is the extrapolation in these units. -/
theorem C159_extrap_units (s t : ℚ) (v : Mat) (mode : Extrap) : extrap1d (v.inUnits s t) mode = (extrap1d v mode).inUnits s t := by
  unfold extrap1d
  by_cases hm : mode = .no
  · rw [if_pos hm, if_pos hm]
  · rw [if_neg hm, if_neg hm]
    have key : ∀ i j, rowLoop (fun ix => extrapRow mode ((v.inUnits s t).row ix)) (pyRange 0 v.nx) (v.inUnits s t).get i j =
        affV s t (rowLoop (fun ix => extrapRow mode (v.row ix)) (pyRange 0 v.nx) v.get i j) (rowLoop (fun ix => extrapRow mode (v.row ix)) (pyRange 0 v.nx) v.get i j) := by
      intro i j
      refine rowLoop_comb (c := affV s t) (fun ix o1 o2 o3 h => ?_) _ _ _ _ (fun _ _ => rfl) i j
      intro j
      have e := (RowAff.of s t v ix).imm
      have e1 : ((v.inUnits s t).row ix).n = (v.row ix).n := rfl
      have h' := h
      simp only [OutComb, affV] at h'
      simp only [extrapRow, e, e1, affV]
      split_ifs <;> simp only [h'] <;> split_ifs <;> simp only [h']
    have : (fun i j => rowLoop (fun ix => extrapRow mode ((v.inUnits s t).row ix)) (pyRange 0 v.nx) (v.inUnits s t).get i j) =
        (fun i j => (rowLoop (fun ix => extrapRow mode (v.row ix)) (pyRange 0 v.nx) v.get i j).map fun x => s * x + t) := by
      funext i j; exact key i j
    show (⟨v.nx, v.ny, fun i j => rowLoop (fun ix => extrapRow mode ((v.inUnits s t).row ix)) (pyRange 0 v.nx) (v.inUnits s t).get i j⟩ : Mat) = _
    rw [this]; rfl

/-! A concrete case: data with a missing value and a coordinate in centimetres below another origin; then in kelvins. -/
def uV : Mat := Mat.ofLists [[some 1, some 3, none, some 7, some 8], [some 0, some 10, some 20, some 25, some 31]]
def uYi : Mat := Mat.ofLists [[some 0, some 2, some 4, some 7, some 9]]
def uYo : Mat := Mat.ofLists [[some (-1), some 1, none, some 8]]
example : (linear1d uV (uYi.inUnits 100 (-7)) (uYo.inUnits 100 (-7))).get 1 3 = some 28 ∧ (linear1d uV uYi uYo).get 1 3 = some 28 ∧
    (linear1d uV uYi uYo).get 1 0 = none := by
  rw [(C158_coordinate_units 100 (-7) (by norm_num) uV uYi uYo 0 0).1]
  refine ⟨?_, ?_, ?_⟩ <;> decide +kernel
example : (linear1d (uV.inUnits 1 273) uYi uYo).get 1 3 = some 301 ∧ (linear1d (uV.combine 2 1 (uV.inUnits 1 5)) uYi uYo).get 1 3 = some 89 := by
  constructor <;> decide +kernel

end Xoa
