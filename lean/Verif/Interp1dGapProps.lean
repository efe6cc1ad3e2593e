import Verif.Interp1dSafeProps
import Verif.Interp1dProps

/-!
# Missing output coordinates in `nearest1d` (C67)
-/

namespace Xoa
open V

/-- the data of the row are valid where the input coordinates are -/
def FullRow (n : Nat) (v : Row) : Prop := ∀ k : Int, 0 ≤ k → k < n → v.get k ≠ none

theorem nearestW_some (v : Row) (n : Nat) (hv : FullRow n v) (i : Int) (h0 : 0 ≤ i) (h1 : i + 1 < n) (a b : V) :
    ∃ x : ℚ, nearestW v i a b = some (some x) := by
  unfold nearestW
  rw [Row.rd_nonneg v h0, Row.rd_nonneg v (by omega : 0 ≤ i + 1)]
  split
  · obtain ⟨x, hx⟩ := Option.ne_none_iff_exists'.mp (hv i h0 (by omega))
    exact ⟨x, by rw [hx]⟩
  · obtain ⟨x, hx⟩ := Option.ne_none_iff_exists'.mp (hv (i + 1) (by omega) h1)
    exact ⟨x, by rw [hx]⟩

theorem wr1_keep (n : Nat) (out : Int → V) (k : Int) (x : ℚ) (j : Int) (h : out j ≠ none) : wr1 n out k (some x) j ≠ none := by
  unfold wr1
  split
  · exact fun c => by cases c
  · exact h

theorem nlInner_keep (yi yo v : Row) (hv : FullRow yi.n v) (i : Int) (h0 : 0 ≤ i) (h1 : i + 1 < yi.n) (j : Int) :
    ∀ (l : List Int) (iyomin : Int) (out : Int → V), out j ≠ none → (nlInner yi yo (nearestW v) i l iyomin out).2 j ≠ none := by
  intro l
  induction l with
  | nil => intro iyomin out h; exact h
  | cons k rest ih =>
    intro iyomin out h
    unfold nlInner
    dsimp only
    split
    · exact h
    · split
      · exact ih _ _ h
      · obtain ⟨x, hx⟩ := nearestW_some v yi.n hv i h0 h1 (sub (yo.rd k) (yi.rd i)) (sub (yi.rd (i + 1)) (yo.rd k))
        rw [hx]
        exact ih _ _ (wr1_keep _ _ _ _ _ h)

theorem nlOuter_keep (yi yo v : Row) (hv : FullRow yi.n v) (iyomax j : Int) :
    ∀ (l : List Int) (iyomin : Int) (out : Int → V), (∀ i : Int, i ∈ l → 0 ≤ i ∧ i + 1 < yi.n) → out j ≠ none →
      nlOuter yi yo (nearestW v) iyomax l iyomin out j ≠ none := by
  intro l
  induction l with
  | nil => intro iyomin out _ h; exact h
  | cons i rest ih =>
    intro iyomin out hl h
    have hr : ∀ c : Int, c ∈ rest → 0 ≤ c ∧ c + 1 < yi.n := fun c hc => hl c (List.mem_cons_of_mem _ hc)
    obtain ⟨h0, h1⟩ := hl i (List.mem_cons_self ..)
    unfold nlOuter
    split
    · exact ih _ _ hr h
    · split
      · exact h
      · exact ih _ _ hr (nlInner_keep yi yo v hv i h0 h1 j _ _ _ h)

theorem nlInner_hit (yi yo v : Row) (hv : FullRow yi.n v) (i : Int) (h0 : 0 ≤ i) (h1 : i + 1 < yi.n) (j iyomax : Int) (hj : j ≤ iyomax) (hj0 : 0 ≤ j)
    (hnan : yo.rd j = none) : ∀ (m : Nat) (k iyomin : Int) (out : Int → V), k + m = j →
      (∀ q : Int, k ≤ q → q ≤ j → lt (sub (yi.rd (i + 1)) (yo.rd q)) (some 0) = false) →
      (nlInner yi yo (nearestW v) i (pyRange k (iyomax + 1)) iyomin out).2 j ≠ none := by
  intro m
  induction m with
  | zero =>
    intro k iyomin out hk hno
    have e : k = j := by omega
    subst e
    rw [pyRange_cons (by omega)]
    unfold nlInner
    simp only [Bool.false_eq_true, if_false, hnan, sub_none_left, sub_none_right, lt_none_left]
    obtain ⟨x, hx⟩ := nearestW_some v yi.n hv i h0 h1 none none
    rw [hx]
    apply nlInner_keep yi yo v hv i h0 h1
    rw [wr1_nonneg _ _ _ hj0, if_pos rfl]
    exact fun c => by cases c
  | succ m ih =>
    intro k iyomin out hk hno
    rw [pyRange_cons (by omega)]
    unfold nlInner
    simp only [hno k (le_refl _) (by omega), Bool.false_eq_true, if_false]
    have hr : ∀ q : Int, k + 1 ≤ q → q ≤ j → lt (sub (yi.rd (i + 1)) (yo.rd q)) (some 0) = false := fun q a b => hno q (by omega) b
    split
    · exact ih (k + 1) _ _ (by push_cast at hk; omega) hr
    · split
      · exact ih (k + 1) _ _ (by push_cast at hk; omega) hr
      · exact ih (k + 1) _ _ (by push_cast at hk; omega) hr

theorem nlOuter_hit (yi yo v : Row) (hv : FullRow yi.n v) (ascI : AscRow yi) (ascO : AscRow yo) (p j iyomax imax i : Int) (P A B : ℚ)
    (hp0 : 0 ≤ p) (hpj : p < j) (hj : j < iyomax) (hm : iyomax < yo.n) (hP : yo.get p = some P) (hgap : ∀ q : Int, p < q → q ≤ j → yo.get q = none)
    (hN : ∃ N : ℚ, yo.get iyomax = some N) (hi : i < imax) (hi1 : imax < yi.n) (hA : yi.get i = some A) (hB : yi.get (i + 1) = some B)
    (hAP : A ≤ P) (hPB : P ≤ B) : ∀ (m : Nat) (c iyomin : Int) (out : Int → V), 0 ≤ c → c + m = i → 0 ≤ iyomin → iyomin ≤ p →
      nlOuter yi yo (nearestW v) iyomax (pyRange c imax) iyomin out j ≠ none := by
  obtain ⟨N, hN⟩ := hN
  have hPN : P ≤ N := ascO p iyomax hp0 (by omega) hm P N hP hN
  -- the coordinates of the cells up to `i` are not above `P`
  have hle : ∀ c : Int, 0 ≤ c → c ≤ i → ∀ x : ℚ, yi.get c = some x → x ≤ P := fun c a b x hx =>
    le_trans (ascI c i a b (by omega) x A hx hA) hAP
  have hlo : ∀ q : Int, 0 ≤ q → q ≤ p → ∀ y : ℚ, yo.get q = some y → y ≤ P := fun q a b y hy => ascO q p a b (by omega) y P hy hP
  have nobreak : ∀ c : Int, 0 ≤ c → c ≤ i → lt (yo.rd iyomax) (yi.rd c) = false := by
    intro c a b
    rw [Row.rd_nonneg yo (by omega), Row.rd_nonneg yi a, hN]
    cases hx : yi.get c with
    | none => rfl
    | some x =>
      have := hle c a b x hx
      rw [lt_some, decide_eq_false_iff_not]
      linarith
  intro m
  induction m with
  | zero =>
    intro c iyomin out hc0 hc k0 k1
    have e : c = i := by omega
    subst e
    rw [pyRange_cons hi]
    unfold nlOuter
    have s1 : lt (yi.rd (c + 1)) (yo.rd iyomin) = false := by
      rw [Row.rd_nonneg yi (by omega), Row.rd_nonneg yo k0, hB]
      cases hy : yo.get iyomin with
      | none => rfl
      | some y =>
        have := hlo iyomin k0 k1 y hy
        rw [lt_some, decide_eq_false_iff_not]
        linarith
    rw [s1, nobreak c hc0 (le_refl _)]
    simp only [Bool.false_eq_true, if_false]
    apply nlOuter_keep yi yo v hv
    · intro d hd
      rw [mem_pyRange] at hd
      omega
    · refine nlInner_hit yi yo v hv c hc0 (by omega) j iyomax hj.le (by omega) ?_ (j - iyomin).toNat iyomin _ _ (by omega) ?_
      · rw [Row.rd_nonneg yo (by omega)]; exact hgap j hpj (le_refl _)
      · intro q a b
        rw [lt_sub_zero, Row.rd_nonneg yi (by omega), Row.rd_nonneg yo (by omega), hB]
        by_cases hqp : q ≤ p
        · cases hy : yo.get q with
          | none => rfl
          | some y =>
            have := hlo q (by omega) hqp y hy
            rw [lt_some, decide_eq_false_iff_not]
            linarith
        · rw [hgap q (by omega) b]; rfl
  | succ m ih =>
    intro c iyomin out hc0 hc k0 k1
    rw [pyRange_cons (by omega)]
    unfold nlOuter
    rw [nobreak c hc0 (by omega)]
    split
    · exact ih (c + 1) iyomin out (by omega) (by push_cast at hc; omega) k0 k1
    · simp only [Bool.false_eq_true, if_false]
      have hr : 0 ≤ (nlInner yi yo (nearestW v) c (pyRange iyomin (iyomax + 1)) iyomin out).1 ∧
          (nlInner yi yo (nearestW v) c (pyRange iyomin (iyomax + 1)) iyomin out).1 ≤ p := by
        rcases nlInner_fst yi yo (nearestW v) c (pyRange iyomin (iyomax + 1)) iyomin out with e | ⟨q, hq, e, hl⟩
        · omega
        · rw [mem_pyRange] at hq
          rw [Row.rd_nonneg yo (by omega), Row.rd_nonneg yi hc0] at hl
          obtain ⟨y, x, hy, hx, hyx⟩ := lt_iff.mp hl
          have h1 := hle c hc0 (by omega) x hx
          have : q < p := by
            by_contra hqp
            have := ascO p q hp0 (by omega) (by omega) P y hP hy
            linarith
          omega
      exact ih (c + 1) _ _ (by omega) (by push_cast at hc; omega) hr.1 hr.2

/-- **C67 is violated (inside)** for all coordinates: in `nearest1d`, with ascending coordinates (any missing values among them) and no missing datum, every missing output
coordinate that comes after a valid one inside of the range of the input coordinates, and before another valid one, gets a value. -/
theorem C67_nearest1d_inside_violated (vari yi yo : Mat) (ix p j n i : Int) (P A B : ℚ) (hx0 : 0 ≤ ix) (hx : ix < max vari.nx yo.nx)
    (hi : 0 < yi.nx) (ho : 0 < yo.nx) (ascI : AscRow (yi.row (ix % yi.nx))) (ascO : AscRow (yo.row (ix % yo.nx)))
    (hfull : ∀ k : Int, 0 ≤ k → k < yi.ny → vari.get (rowIdx vari.nx ix) k ≠ none)
    (hp0 : 0 ≤ p) (hpj : p < j) (hjn : j < n) (hn : n < yo.ny) (hP : yo.get (ix % yo.nx) p = some P)
    (hgap : ∀ q : Int, p < q → q ≤ j → yo.get (ix % yo.nx) q = none) (hN : yo.get (ix % yo.nx) n ≠ none)
    (hi0 : 0 ≤ i) (hi1 : i + 1 < yi.ny) (hA : yi.get (ix % yi.nx) i = some A) (hB : yi.get (ix % yi.nx) (i + 1) = some B) (hAP : A ≤ P) (hPB : P ≤ B) :
    (nearest1d vari yi yo).get ix j ≠ none := by
  have hrow : (nearest1d vari yi yo).get ix = nearestBody vari yi yo ix (fun _ => none) := mkOut_row _ _ _ ix hx0 hx
  unfold nearestBody at hrow
  rw [rowIdx_eq _ _ hi, rowIdx_eq _ _ ho] at hrow
  rw [hrow]
  unfold nlRow
  rcases getIminmax_spec (yo.row (ix % yo.nx)) with ⟨_, _, o3⟩ | ⟨o1, o2, o3, o4, o5, o6, o7⟩
  · have h : yo.get (ix % yo.nx) p = none := o3 p hp0 (by show p < (yo.ny : Int); omega)
    rw [hP] at h; cases h
  · rcases getIminmax_spec (yi.row (ix % yi.nx)) with ⟨_, _, q3⟩ | ⟨q1, q2, q3, q4, q5, q6, q7⟩
    · have h : yi.get (ix % yi.nx) i = none := q3 i hi0 (by show i < (yi.ny : Int); omega)
      rw [hA] at h; cases h
    · have a1 : (getIminmax (yi.row (ix % yi.nx))).1 ≤ i := by
        by_contra c
        have h : yi.get (ix % yi.nx) i = none := q6 i hi0 (by omega)
        rw [hA] at h; cases h
      have a2 : i + 1 ≤ (getIminmax (yi.row (ix % yi.nx))).2 := by
        by_contra c
        have h : yi.get (ix % yi.nx) (i + 1) = none := q7 (i + 1) (by omega) hi1
        rw [hB] at h; cases h
      have b1 : (getIminmax (yo.row (ix % yo.nx))).1 ≤ p := by
        by_contra c
        have h : yo.get (ix % yo.nx) p = none := o6 p hp0 (by omega)
        rw [hP] at h; cases h
      have b2 : n ≤ (getIminmax (yo.row (ix % yo.nx))).2 := by
        by_contra c
        exact hN (o7 n (by omega) hn)
      exact nlOuter_hit (yi.row (ix % yi.nx)) (yo.row (ix % yo.nx)) (vari.row (rowIdx vari.nx ix)) hfull ascI ascO p j _ _ i P A B hp0 hpj (by omega) o3 hP hgap (Option.ne_none_iff_exists'.mp o5)
        (by omega) q3 hA hB hAP hPB (i - (getIminmax (yi.row (ix % yi.nx))).1).toNat _ _ _ q1 (by omega) o1 b1

/-- the hypotheses are met: three missing output coordinates between two valid ones -/
example : (nearest1d (Mat.ofLists [[some 1, some 3, some 7]]) exYi (Mat.ofLists [[some 0, none, none, none, some 3]])).get 0 1 = some 7 ∧
    (nearest1d (Mat.ofLists [[some 1, some 3, some 7]]) exYi (Mat.ofLists [[some 0, none, none, none, some 3]])).get 0 3 = some 7 := by
  decide +kernel

theorem nlOuter_allnan_nearest (yi yo v : Row) (hn : yo.rd (-1) = none) : ∀ (m : Nat) (a b : Int) (out : Int → V), 0 ≤ a → a + m + 1 = b →
    nlOuter yi yo (nearestW v) (-1) (pyRange a b) (-1) out = wr1 yo.n out (-1) (v.rd b) := by
  intro m
  induction m with
  | zero =>
    intro a b out ha hb
    rw [pyRange_cons (by omega), pyRange_nil (by omega)]
    simp only [nlOuter, hn, lt_none_right, lt_none_left, Bool.false_eq_true, if_false]
    rw [pyRange_cons (by omega), pyRange_nil (by omega)]
    simp only [nlInner, hn, sub_none_left, sub_none_right, lt_none_left, Bool.false_eq_true, if_false, nearestW, le_none_left]
    have : a + 1 = b := by omega
    rw [this]
  | succ m ih =>
    intro a b out ha hb
    rw [pyRange_cons (by omega)]
    simp only [nlOuter, hn, lt_none_right, lt_none_left, Bool.false_eq_true, if_false]
    rw [pyRange_cons (by omega : (-1 : Int) < -1 + 1), pyRange_nil (by omega : (-1 : Int) + 1 ≤ -1 + 1)]
    simp only [nlInner, hn, sub_none_left, sub_none_right, lt_none_left, Bool.false_eq_true, if_false, nearestW, le_none_left]
    have := ih (a + 1) b (wr1 yo.n out (-1) (v.rd (a + 1))) (by omega) (by push_cast at hb; omega)
    rw [this]
    funext j
    unfold wr1
    split <;> rfl

/-- **C67 is violated (nothing valid)** for all coordinates: when a row of output coordinates is entirely missing, the last point of the result is the datum at the last valid
input coordinate `k`, as soon as there is another valid one, and the other points are missing. -/
theorem C67_nearest1d_nothing_violated (vari yi yo : Mat) (ix k l j : Int) (hx0 : 0 ≤ ix) (hx : ix < max vari.nx yo.nx) (hi : 0 < yi.nx) (ho : 0 < yo.nx)
    (hnan : ∀ q : Int, 0 ≤ q → q < yo.ny → yo.get (ix % yo.nx) q = none) (hl0 : 0 ≤ l) (hlk : l < k) (hk : k < yi.ny)
    (hl : yi.get (ix % yi.nx) l ≠ none) (hkv : yi.get (ix % yi.nx) k ≠ none) (hlast : ∀ q : Int, k < q → q < yi.ny → yi.get (ix % yi.nx) q = none)
    (hj0 : 0 ≤ j) (hj : j < yo.ny) :
    (nearest1d vari yi yo).get ix j = if j = yo.ny - 1 then vari.get (rowIdx vari.nx ix) k else none := by
  have hrow : (nearest1d vari yi yo).get ix = nearestBody vari yi yo ix (fun _ => none) := mkOut_row _ _ _ ix hx0 hx
  unfold nearestBody at hrow
  rw [rowIdx_eq _ _ hi, rowIdx_eq _ _ ho] at hrow
  rw [hrow]
  unfold nlRow
  rcases getIminmax_spec (yo.row (ix % yo.nx)) with ⟨e1, e2, _⟩ | ⟨o1, o2, o3, o4, _⟩
  · rw [e1, e2]
    rcases getIminmax_spec (yi.row (ix % yi.nx)) with ⟨_, _, q3⟩ | ⟨q1, q2, q3, q4, q5, q6, q7⟩
    · exact absurd (q3 l hl0 (by show l < (yi.ny : Int); omega)) hl
    · have q3' : (getIminmax (yi.row (ix % yi.nx))).2 < (yi.ny : Int) := q3
      have a1 : (getIminmax (yi.row (ix % yi.nx))).1 ≤ l := by
        by_contra c
        exact hl (q6 l hl0 (by omega))
      have a2 : (getIminmax (yi.row (ix % yi.nx))).2 = k := by
        by_contra c
        rcases lt_or_gt_of_ne c with d | d
        · exact hkv (q7 k d hk)
        · exact q5 (hlast _ d q3')
      rw [nlOuter_allnan_nearest _ _ _ _ (k - 1 - (getIminmax (yi.row (ix % yi.nx))).1).toNat _ _ _ q1 (by omega), a2]
      · rw [Row.rd_nonneg _ (by omega)]
        unfold wr1 wrapIdx
        rw [if_pos (by omega : (-1 : Int) < 0)]
        have : (-1 : Int) + ((yo.row (ix % yo.nx)).n : Int) = yo.ny - 1 := by show (-1 : Int) + (yo.ny : Int) = _; omega
        rw [this]
        rfl
      · unfold Row.rd wrapIdx
        rw [if_pos (by omega : (-1 : Int) < 0)]
        exact hnan _ (by show 0 ≤ (-1 : Int) + (yo.ny : Int); omega) (by show (-1 : Int) + (yo.ny : Int) < yo.ny; omega)
  · exact absurd (hnan _ o1 (by have o3' : (getIminmax (yo.row (ix % yo.nx))).2 < (yo.ny : Int) := o3; omega)) o4

end Xoa
