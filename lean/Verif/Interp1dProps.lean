import Verif.Interp1dLemmas3
import Mathlib.Algebra.Order.Field.Basic

/-!
# Properties C01-C06, C08: 1-D routines of `xoa/interp.py`

Statements use the whole-array functions (`linear1d`, ...) and the specification of
`Interp1dSpec`.  `m % n` is the paired row (Python `%`).
-/

namespace Xoa
open V

/-! ## C01 -/

/-- `i` is the index of the first valid value -/
def IsFirstValid (d : Row) (i : Int) : Prop :=
  0 ≤ i ∧ i < d.n ∧ d.get i ≠ none ∧ ∀ j : Int, 0 ≤ j → j < i → d.get j = none
/-- `i` is the index of the last valid value -/
def IsLastValid (d : Row) (i : Int) : Prop :=
  0 ≤ i ∧ i < d.n ∧ d.get i ≠ none ∧ ∀ j : Int, i < j → j < d.n → d.get j = none

/-- C01: `get_iminmax` returns the first and last valid indices, or (-1,-1) exactly when
the row has no valid value. -/
theorem C01_get_iminmax (d : Row) :
    (getIminmax d = (-1, -1) ↔ ∀ i : Int, 0 ≤ i → i < d.n → d.get i = none) ∧
    (getIminmax d ≠ (-1, -1) → IsFirstValid d (getIminmax d).1 ∧ IsLastValid d (getIminmax d).2) := by
  rcases getIminmax_spec d with ⟨h1, h2, h3⟩ | ⟨h1, h2, h3, h4, h5, h6, h7⟩
  · have e : getIminmax d = (-1, -1) := Prod.ext h1 h2
    exact ⟨⟨fun _ => h3, fun _ => e⟩, fun h => absurd e h⟩
  · have hne : getIminmax d ≠ (-1, -1) := by
      intro e; rw [e] at h1; simp at h1
    refine ⟨⟨fun e => absurd e hne, fun h => ?_⟩, fun _ => ⟨⟨h1, by omega, h4, h6⟩, ⟨by omega, h3, h5, h7⟩⟩⟩
    exact absurd (h _ h1 (by omega)) h4

/-- C01 for the converse: whatever is the first (last) valid index is what is returned. -/
theorem C01_get_iminmax_unique (d : Row) (i j : Int) (hi : IsFirstValid d i) (hj : IsLastValid d j) :
    getIminmax d = (i, j) := by
  obtain ⟨i0, i1, i2, i3⟩ := hi
  obtain ⟨j0, j1, j2, j3⟩ := hj
  rcases getIminmax_spec d with ⟨h1, h2, h3⟩ | ⟨h1, h2, h3, h4, h5, h6, h7⟩
  · exact absurd (h3 i i0 i1) i2
  · apply Prod.ext
    · rcases lt_trichotomy (getIminmax d).1 i with h | h | h
      · exact absurd (i3 _ h1 h) h4
      · exact h
      · exact absurd (h6 i i0 h) i2
    · rcases lt_trichotomy (getIminmax d).2 j with h | h | h
      · exact absurd (h7 j h j1) j2
      · exact h
      · exact absurd (j3 _ h h3) h5

-- a row starting and ending with NaN and with a gap, and a row with a valid first element
example : getIminmax (Row.ofList [none, some 1, none, some 2, none]) = (1, 3) := by decide +kernel
example : getIminmax (Row.ofList [some 1, none]) = (0, 0) := by decide +kernel

/-! ## C02: linear interpolation -/

/-- C02: `linear1d` is the piecewise-linear interpolant.  At an output point of coordinate
`c`, the value is that of the straight line through the (last) pair of consecutive valid
input nodes enclosing `c`, and NaN when there is no such pair; NaN also where the output
coordinate is NaN.  Rows `ix` of the output are paired with the rows `ix % n` of the inputs. -/
theorem C02_linear1d_interpolates (vari yi yo : Mat) (ix j : Int)
    (hx0 : 0 ≤ ix) (hx : ix < max vari.nx yo.nx) (hj0 : 0 ≤ j) (hj : j < yo.ny)
    (hv : 0 < vari.nx) (hi : 0 < yi.nx) (ho : 0 < yo.nx)
    (ascI : AscRow (yi.row (ix % yi.nx))) (ascO : AscRow (yo.row (ix % yo.nx))) :
    (yo.get (ix % yo.nx) j = none → (linear1d vari yi yo).get ix j = none) ∧
    ∀ c, yo.get (ix % yo.nx) j = some c →
      ((∀ i, ¬ Brackets (yi.row (ix % yi.nx)) i c) → (linear1d vari yi yo).get ix j = none) ∧
      (∀ i a b, LastBracket (yi.row (ix % yi.nx)) i c →
        yi.get (ix % yi.nx) i = some a → yi.get (ix % yi.nx) (i + 1) = some b →
        (linear1d vari yi yo).get ix j =
          lineThrough a b (vari.get (ix % vari.nx) i) (vari.get (ix % vari.nx) (i + 1)) c) := by
  have hrow : (linear1d vari yi yo).get ix = linearBody vari yi yo ix (fun _ => none) :=
    mkOut_row _ _ _ ix hx0 hx
  unfold linearBody at hrow
  rw [rowIdx_eq _ _ hi, rowIdx_eq _ _ ho, rowIdx_eq _ _ hv] at hrow
  rw [hrow]
  have hs := linearRow_sound (vari.row (ix % vari.nx)) (yi.row (ix % yi.nx)) (yo.row (ix % yo.nx)) j hj0
    (fun _ => none)
  refine ⟨fun hnan => ?_, fun c hc => ⟨fun hno => ?_, fun i a b hlb ha hb => ?_⟩⟩
  · rcases hs with h | ⟨i, a, b, c, _, h, _⟩
    · exact h
    · have h' : yo.get (ix % yo.nx) j = some c := h
      rw [hnan] at h'; cases h'
  · rcases hs with h | ⟨i, a, b, c', hbr, h, _⟩
    · exact h
    · have h' : yo.get (ix % yo.nx) j = some c' := h
      rw [hc] at h'; cases h'
      exact absurd hbr (hno i)
  · exact linearRow_last _ _ _ ascI ascO j hj0 hj _ i a b c hlb hc ha hb

/-- C02 at a point strictly between two consecutive nodes: no other condition on the data,
on gaps or on other nodes is needed. -/
theorem C02_linear1d_inside (vari yi yo : Mat) (ix j : Int)
    (hx0 : 0 ≤ ix) (hx : ix < max vari.nx yo.nx) (hj0 : 0 ≤ j) (hj : j < yo.ny)
    (hv : 0 < vari.nx) (hi : 0 < yi.nx) (ho : 0 < yo.nx)
    (ascI : AscRow (yi.row (ix % yi.nx))) (ascO : AscRow (yo.row (ix % yo.nx)))
    (i : Int) (a b c : ℚ) (hc : yo.get (ix % yo.nx) j = some c)
    (hs : StrictlyBetween (yi.row (ix % yi.nx)) i a b c) :
    (linear1d vari yi yo).get ix j =
      lineThrough a b (vari.get (ix % vari.nx) i) (vari.get (ix % vari.nx) (i + 1)) c := by
  obtain ⟨h0, h1, ha, hb, hac, hcb⟩ := hs
  refine ((C02_linear1d_interpolates vari yi yo ix j hx0 hx hj0 hj hv hi ho ascI ascO).2 c hc).2 i a b
    ⟨⟨h0, h1, a, b, ha, hb, le_of_lt hac, le_of_lt hcb⟩, ?_⟩ ha hb
  rintro k hk ⟨k0, k1, a', b', ha', hb', h1', h2'⟩
  have := ascI (i + 1) k (by omega) (by omega) (by omega) b a' hb ha'
  linarith

/-- C02: a value of the output lies between the two bracketing input values (for any
coordinates, sorted or not), so interpolation never overshoots. -/
theorem C02_linear1d_between (vari yi yo : Mat) (ix j : Int)
    (hx0 : 0 ≤ ix) (hx : ix < max vari.nx yo.nx) (hj0 : 0 ≤ j)
    (hv : 0 < vari.nx) (hi : 0 < yi.nx) (ho : 0 < yo.nx) (q : ℚ)
    (hq : (linear1d vari yi yo).get ix j = some q) :
    ∃ i c x y, yo.get (ix % yo.nx) j = some c ∧ Brackets (yi.row (ix % yi.nx)) i c ∧
      vari.get (ix % vari.nx) i = some x ∧ vari.get (ix % vari.nx) (i + 1) = some y ∧
      min x y ≤ q ∧ q ≤ max x y := by
  have hrow : (linear1d vari yi yo).get ix = linearBody vari yi yo ix (fun _ => none) :=
    mkOut_row _ _ _ ix hx0 hx
  unfold linearBody at hrow
  rw [rowIdx_eq _ _ hi, rowIdx_eq _ _ ho, rowIdx_eq _ _ hv] at hrow
  rw [hrow] at hq
  rcases linearRow_sound (vari.row (ix % vari.nx)) (yi.row (ix % yi.nx)) (yo.row (ix % yo.nx)) j hj0
    (fun _ => none) with h | ⟨i, a, b, c, hbr, hc, ha, hb, h⟩
  · rw [h] at hq; cases hq
  · rw [h] at hq
    obtain ⟨_, _, a', b', ha', hb', h1, h2⟩ := hbr
    rw [ha] at ha'; rw [hb] at hb'; cases ha'; cases hb'
    unfold lineThrough at hq
    cases hx : (vari.row (ix % vari.nx)).get i with
    | none => rw [hx] at hq; simp at hq
    | some x =>
      cases hy : (vari.row (ix % vari.nx)).get (i + 1) with
      | none => rw [hx, hy] at hq; simp at hq
      | some y =>
        rw [hx, hy] at hq
        simp only at hq
        split at hq
        · cases hq
        · next hab =>
          have hpos : 0 < b - a := by
            rcases lt_or_eq_of_le (le_trans h1 h2) with h | h
            · linarith
            · exact absurd h hab
          refine ⟨i, c, x, y, hc, ⟨‹_›, ‹_›, a, b, ha, hb, h1, h2⟩, hx, hy, ?_⟩
          have hq' := Option.some.inj hq
          set t := (c - a) / (b - a) with ht
          have t0 : 0 ≤ t := div_nonneg (by linarith) (le_of_lt hpos)
          have t1 : t ≤ 1 := by rw [ht, div_le_one hpos]; linarith
          rw [← hq']
          rcases le_total x y with hxy | hxy
          · rw [min_eq_left hxy, max_eq_right hxy]
            constructor <;> nlinarith
          · rw [min_eq_right hxy, max_eq_left hxy]
            constructor <;> nlinarith

/-- C02: exactness at a node.  If the output coordinate equals the coordinate of node `i`,
strictly separated from the others, and the data are valid at `i` and at the next node (when
there is one), the input value is returned unchanged. -/
theorem C02_linear1d_node (vari yi yo : Mat) (ix j : Int)
    (hx0 : 0 ≤ ix) (hx : ix < max vari.nx yo.nx) (hj0 : 0 ≤ j) (hj : j < yo.ny)
    (hv : 0 < vari.nx) (hi : 0 < yi.nx) (ho : 0 < yo.nx)
    (ascI : AscRow (yi.row (ix % yi.nx))) (ascO : AscRow (yo.row (ix % yo.nx)))
    (i : Int) (a b c x y : ℚ) (hi0 : 0 ≤ i) (hi1 : i + 1 < yi.ny)
    (ha : yi.get (ix % yi.nx) i = some a) (hb : yi.get (ix % yi.nx) (i + 1) = some b) (hab : a < b)
    (hx' : vari.get (ix % vari.nx) i = some x) (hy : vari.get (ix % vari.nx) (i + 1) = some y)
    (hc : yo.get (ix % yo.nx) j = some c) :
    (c = a → (linear1d vari yi yo).get ix j = some x) ∧
    (c = b → (∀ k, i + 1 < k → k < yi.ny → yi.get (ix % yi.nx) k = none) →
      (linear1d vari yi yo).get ix j = some y) := by
  have H := ((C02_linear1d_interpolates vari yi yo ix j hx0 hx hj0 hj hv hi ho ascI ascO).2 c hc).2 i a b
  constructor
  · intro e
    subst e
    rw [H ⟨⟨hi0, hi1, c, b, ha, hb, le_refl _, le_of_lt hab⟩, ?_⟩ ha hb, hx', hy]
    · simp [lineThrough, ne_of_lt hab]
    · rintro k hk ⟨k0, k1, a', b', ha', hb', h1', h2'⟩
      have := ascI (i + 1) k (by omega) (by omega) (by omega) b a' hb ha'
      linarith
  · intro e hlast
    subst e
    rw [H ⟨⟨hi0, hi1, a, c, ha, hb, le_of_lt hab, le_refl _⟩, ?_⟩ ha hb, hx', hy]
    · have : c - a ≠ 0 := by linarith
      simp [lineThrough, ne_of_lt hab, this]
    · rintro k hk ⟨k0, k1, a', b', ha', hb', h1', h2'⟩
      have k1' : k + 1 < yi.ny := k1
      have hb'' : yi.get (ix % yi.nx) (k + 1) = some b' := hb'
      rw [hlast (k + 1) (by omega) k1'] at hb''
      cases hb''

/-- C02: data that are an affine function of the coordinate are reproduced exactly
wherever a value is returned. -/
theorem C02_linear1d_affine (vari yi yo : Mat) (ix j : Int)
    (hx0 : 0 ≤ ix) (hx : ix < max vari.nx yo.nx) (hj0 : 0 ≤ j)
    (hv : 0 < vari.nx) (hi : 0 < yi.nx) (ho : 0 < yo.nx) (α β c q : ℚ)
    (haff : ∀ (i : Int) y x, 0 ≤ i → i < yi.ny → yi.get (ix % yi.nx) i = some y →
      vari.get (ix % vari.nx) i = some x → x = α * y + β)
    (hc : yo.get (ix % yo.nx) j = some c)
    (hq : (linear1d vari yi yo).get ix j = some q) : q = α * c + β := by
  have hrow : (linear1d vari yi yo).get ix = linearBody vari yi yo ix (fun _ => none) :=
    mkOut_row _ _ _ ix hx0 hx
  unfold linearBody at hrow
  rw [rowIdx_eq _ _ hi, rowIdx_eq _ _ ho, rowIdx_eq _ _ hv] at hrow
  rw [hrow] at hq
  rcases linearRow_sound (vari.row (ix % vari.nx)) (yi.row (ix % yi.nx)) (yo.row (ix % yo.nx)) j hj0
    (fun _ => none) with h | ⟨i, a, b, c', hbr, hc', ha, hb, h⟩
  · rw [h] at hq; cases hq
  · rw [h] at hq
    have e : yo.get (ix % yo.nx) j = some c' := hc'
    rw [hc] at e; cases e
    obtain ⟨i0, i1, _⟩ := hbr
    unfold lineThrough at hq
    cases hx : (vari.row (ix % vari.nx)).get i with
    | none => rw [hx] at hq; simp at hq
    | some x =>
      cases hy : (vari.row (ix % vari.nx)).get (i + 1) with
      | none => rw [hx, hy] at hq; simp at hq
      | some y =>
        rw [hx, hy] at hq
        simp only at hq
        split at hq
        · cases hq
        · next hab =>
          have i1' : i + 1 < yi.ny := i1
          have e1 := haff i a x i0 (by omega) ha hx
          have e2 := haff (i + 1) b y (by omega) i1' hb hy
          have hne : b - a ≠ 0 := sub_ne_zero.2 (Ne.symm hab)
          rw [← Option.some.inj hq, e1, e2]
          field_simp
          ring

-- two data rows, one coordinate row with NaN padding, two output rows: hypotheses met
def exV : Mat := Mat.ofLists [[some 1, some 3, some 7], [some 0, some 10, some 20]]
def exYi : Mat := Mat.ofLists [[some 0, some 2, some 4]]
def exYo : Mat := Mat.ofLists [[some (-1), some 1, none, some 2, some 3, some 5]]

example : ((linear1d exV exYi exYo).get 0 1, (linear1d exV exYi exYo).get 0 2,
    (linear1d exV exYi exYo).get 0 3, (linear1d exV exYi exYo).get 1 4, (linear1d exV exYi exYo).get 1 5)
    = (some 2, none, some 3, some 15, none) := by decide +kernel

/-- decidable form of `AscRow`, used in the examples only -/
theorem ascRow_ofList (l : List V) (h : ∀ i : Fin l.length, ∀ j : Fin l.length, i ≤ j →
    ∀ a ∈ l[i], ∀ b ∈ l[j], a ≤ b) (r : Row) (hr : r.n = l.length)
    (hg : ∀ i : Fin l.length, r.get (i : Nat) = l[i]) : AscRow r := by
  intro i j h0 hij hj a b ha hb
  obtain ⟨i, rfl⟩ := Int.eq_ofNat_of_zero_le h0
  obtain ⟨j, rfl⟩ := Int.eq_ofNat_of_zero_le (le_trans h0 hij)
  have hj' : j < l.length := by omega
  have hi' : i < l.length := by omega
  have e1 := hg ⟨i, hi'⟩
  have e2 := hg ⟨j, hj'⟩
  refine h ⟨i, hi'⟩ ⟨j, hj'⟩ (by simpa using hij) a ?_ b ?_
  · rw [← e1]; exact ha
  · rw [← e2]; exact hb

example : AscRow (exYi.row (1 % exYi.nx)) :=
  ascRow_ofList [some 0, some 2, some 4] (by decide +kernel) _ rfl (by decide +kernel)
example : AscRow (exYo.row (1 % exYo.nx)) :=
  ascRow_ofList [some (-1), some 1, none, some 2, some 3, some 5] (by decide +kernel) _ rfl (by decide +kernel)
example : StrictlyBetween (exYi.row (1 % exYi.nx)) 1 2 4 3 := by
  refine ⟨by decide, by decide, by decide +kernel, by decide +kernel, by norm_num, by norm_num⟩

/-- C02 is not true at a node whose *next* neighbour is missing, although the node itself
and the previous neighbour are valid: the value is lost (NaN), because the last interval
wins and multiplies the missing value by a zero weight. -/
theorem C02_linear1d_node_masked_counterexample :
    (linear1d (Mat.ofLists [[some 1, some 3, none]]) exYi (Mat.ofLists [[some 2]])).get 0 0 = none ∧
    exYi.get 0 1 = some 2 ∧ (Mat.ofLists [[some 1, some 3, none]]).get 0 1 = some 3 := by
  decide +kernel

/-! ## C03: nearest interpolation -/

/-- C03: at an output coordinate `c` inside the input range, `nearest1d` returns the value
of a node at minimal distance of `c` among all valid nodes of the row; outside the range
it returns NaN.  The coordinates are ascending with NaN only at their ends, and the output
coordinate row is not entirely NaN. -/
theorem C03_nearest1d (vari yi yo : Mat) (ix j : Int)
    (hx0 : 0 ≤ ix) (hx : ix < max vari.nx yo.nx) (hj0 : 0 ≤ j) (hj : j < yo.ny)
    (hv : 0 < vari.nx) (hi : 0 < yi.nx) (ho : 0 < yo.nx)
    (ascI : AscRow (yi.row (ix % yi.nx))) (ascO : AscRow (yo.row (ix % yo.nx)))
    (gapI : NoGap (yi.row (ix % yi.nx))) (gapO : NoGap (yo.row (ix % yo.nx)))
    (c : ℚ) (hc : yo.get (ix % yo.nx) j = some c) :
    ((∀ i, ¬ Brackets (yi.row (ix % yi.nx)) i c) → (nearest1d vari yi yo).get ix j = none) ∧
    ((∃ i, Brackets (yi.row (ix % yi.nx)) i c) →
      ∃ (n : Int) (d : ℚ), 0 ≤ n ∧ n < yi.ny ∧ yi.get (ix % yi.nx) n = some d ∧
        (nearest1d vari yi yo).get ix j = vari.get (ix % vari.nx) n ∧
        ∀ (m : Int) (e : ℚ), 0 ≤ m → m < yi.ny → yi.get (ix % yi.nx) m = some e → |c - d| ≤ |c - e|) := by
  have hrow : (nearest1d vari yi yo).get ix = nearestBody vari yi yo ix (fun _ => none) :=
    mkOut_row _ _ _ ix hx0 hx
  unfold nearestBody at hrow
  rw [rowIdx_eq _ _ hi, rowIdx_eq _ _ ho, rowIdx_eq _ _ hv] at hrow
  rw [hrow]
  set Y := yi.row (ix % yi.nx) with hY
  set O := yo.row (ix % yo.nx) with hO
  set W := vari.row (ix % vari.nx) with hW
  have hc' : O.get j = some c := hc
  rw [nearestRow_spec W Y O ascI ascO gapI gapO ⟨j, hj0, hj, by rw [hc']; simp⟩ j hj0 hj]
  have p3 := valid_in_iminmax O hj0 hj (by rw [hc']; simp)
  rw [if_pos ⟨p3.1, p3.2.1, p3.2.2.1⟩]
  -- all nodes in the range are valid
  have hval : ∀ i, (getIminmax Y).1 ≤ i → i < (getIminmax Y).2 →
      0 ≤ i ∧ i + 1 < Y.n ∧ ∃ a b, Y.get i = some a ∧ Y.get (i + 1) = some b := by
    intro i h1 h2
    rcases getIminmax_spec Y with ⟨i1, i2, i3⟩ | ⟨i1, i2, i3, i4, i5, i6, i7⟩
    · omega
    · obtain ⟨a, ha⟩ := Option.ne_none_iff_exists'.1 (gapI _ i _ i1 h1 (by omega) i3 i4 i5)
      obtain ⟨b, hb⟩ := Option.ne_none_iff_exists'.1 (gapI _ (i + 1) _ i1 (by omega) (by omega) i3 i4 i5)
      exact ⟨by omega, by omega, a, b, ha, hb⟩
  have hhit : ∀ i, (getIminmax Y).1 ≤ i → i < (getIminmax Y).2 →
      nlHit Y O (nearestW W) i j ≠ none → Brackets Y i c := by
    intro i h1 h2 hne
    obtain ⟨q0, q1, a, b, ha, hb⟩ := hval i h1 h2
    rw [nlHit_nearest Y O W q0 hj0 ha hb hc'] at hne
    split at hne
    · next h => exact ⟨q0, q1, a, b, ha, hb, h.1, h.2⟩
    · exact absurd rfl hne
  constructor
  · intro hno
    apply nlAcc_none
    intro i hi
    rw [mem_pyRange] at hi
    by_contra hne
    exact hno i (hhit i hi.1 hi.2 hne)
  · rintro ⟨i0, hb0⟩
    -- take the last bracket
    have hex : ∃ i, Brackets Y i c ∧ ∀ k, i < k → ¬ Brackets Y k c := by
      by_contra hcon
      push Not at hcon
      have : ∀ n : Nat, ∃ i, Brackets Y i c ∧ i0 + n ≤ i := by
        intro n
        induction n with
        | zero => exact ⟨i0, hb0, by simp⟩
        | succ n ih =>
          obtain ⟨i, hi, hle⟩ := ih
          obtain ⟨k, hk, hk'⟩ := hcon i hi
          exact ⟨k, hk', by push_cast; omega⟩
      obtain ⟨i, hi, hle⟩ := this (Y.n)
      have := hi.2.1
      have := hb0.1
      omega
    obtain ⟨i, ⟨q0, q1, a, b, ha, hb, h1, h2⟩, hlast⟩ := hex
    have p1 := valid_in_iminmax Y q0 (by omega) (by rw [ha]; simp)
    have p2 := valid_in_iminmax Y (by omega : 0 ≤ i + 1) q1 (by rw [hb]; simp)
    have hacc := nlAcc_last Y O (nearestW W) j (getIminmax Y).1 (getIminmax Y).2 i none _ p1.1 (by omega)
      (by rw [nlHit_nearest Y O W q0 hj0 ha hb hc', if_pos ⟨h1, h2⟩]) (fun k hk hk' => by
        by_contra hne
        exact hlast k hk (hhit k (by omega) hk' hne))
    rw [hacc]
    -- minimality
    have hmin : ∀ (m : Int) (e : ℚ), 0 ≤ m → m < Y.n → Y.get m = some e → e ≤ a ∨ b ≤ e := by
      intro m e m0 m1 he
      by_cases hm : m ≤ i
      · exact Or.inl (ascI m i m0 hm (by omega) e a he ha)
      · exact Or.inr (ascI (i + 1) m (by omega) (by omega) m1 b e hb he)
    by_cases hd : c - a ≤ b - c
    · refine ⟨i, a, q0, by have : Y.n = yi.ny := rfl; omega, ha, by rw [if_pos hd]; rfl, ?_⟩
      intro m e m0 m1 he
      have := hmin m e m0 m1 he
      rw [abs_of_nonneg (by linarith)]
      rcases this with h | h
      · rw [abs_of_nonneg (by linarith)]; linarith
      · rw [abs_of_nonpos (by linarith)]; linarith
    · refine ⟨i + 1, b, by omega, q1, hb, by rw [if_neg hd]; rfl, ?_⟩
      intro m e m0 m1 he
      have := hmin m e m0 m1 he
      rw [abs_of_nonpos (by linarith)]
      rcases this with h | h
      · rw [abs_of_nonneg (by linarith)]; linarith
      · rw [abs_of_nonpos (by linarith)]; linarith

def exYo2 : Mat := Mat.ofLists [[none, some (1/2), some 3, some 5]]
example : ((nearest1d exV exYi exYo2).get 0 1, (nearest1d exV exYi exYo2).get 0 2, (nearest1d exV exYi exYo2).get 1 3)
    = (some 1, some 3, none) := by decide +kernel
example : NoGap (exYo2.row (1 % exYo2.nx)) := by
  intro i j l h0 h1 h2 h3 h4 h5
  have h3' : l < 4 := h3
  by_cases hi : i = 0
  · subst hi; exact absurd (by decide +kernel) h4
  · have : j = 1 ∨ j = 2 ∨ j = 3 := by omega
    rcases this with rfl | rfl | rfl <;> decide +kernel

/-! ## C04: missing output coordinates -/

/-- C04 for `linear1d`, for any coordinates, data and gaps. -/
theorem C04_linear1d_nan (vari yi yo : Mat) (ix j : Int)
    (hx0 : 0 ≤ ix) (hx : ix < max vari.nx yo.nx) (hj0 : 0 ≤ j) (ho : 0 < yo.nx)
    (hnan : yo.get (ix % yo.nx) j = none) : (linear1d vari yi yo).get ix j = none := by
  have hrow : (linear1d vari yi yo).get ix = linearBody vari yi yo ix (fun _ => none) :=
    mkOut_row _ _ _ ix hx0 hx
  rw [hrow]
  unfold linearBody
  rw [rowIdx_eq _ _ ho]
  rcases linearRow_sound (vari.row (rowIdx vari.nx ix)) (yi.row (rowIdx yi.nx ix)) (yo.row (ix % yo.nx)) j hj0
    (fun _ => none) with h | ⟨i, a, b, c, _, h, _⟩
  · exact h
  · have h' : yo.get (ix % yo.nx) j = some c := h
    rw [hnan] at h'; cases h'

/-- C04 for `cubic1d`. -/
theorem C04_cubic1d_nan (vari yi yo : Mat) (ix j : Int)
    (hx0 : 0 ≤ ix) (hx : ix < max vari.nx yo.nx) (hj0 : 0 ≤ j) (ho : 0 < yo.nx)
    (hnan : yo.get (ix % yo.nx) j = none) : (cubic1d vari yi yo).get ix j = none := by
  have hrow : (cubic1d vari yi yo).get ix = cubicBody vari yi yo ix (fun _ => none) :=
    mkOut_row _ _ _ ix hx0 hx
  rw [hrow]
  unfold cubicBody
  rw [rowIdx_eq _ _ ho]
  rcases chRow_sound (yi.row (rowIdx yi.nx ix)) (yo.row (ix % yo.nx)) (cubicW (vari.row ix) (vari.row (rowIdx vari.nx ix)))
    (fun _ => none) j hj0 with h | ⟨i, a, b, c, _, h, _⟩
  · exact h
  · have h' : yo.get (ix % yo.nx) j = some c := h
    rw [hnan] at h'; cases h'

/-- C04 for `hermit1d`. -/
theorem C04_hermit1d_nan (vari yi yo : Mat) (bias tension : ℚ) (ix j : Int)
    (hx0 : 0 ≤ ix) (hx : ix < max vari.nx yo.nx) (hj0 : 0 ≤ j) (ho : 0 < yo.nx)
    (hnan : yo.get (ix % yo.nx) j = none) : (hermit1d vari yi yo bias tension).get ix j = none := by
  have hrow : (hermit1d vari yi yo bias tension).get ix = hermitBody bias tension vari yi yo ix (fun _ => none) :=
    mkOut_row _ _ _ ix hx0 hx
  rw [hrow]
  unfold hermitBody
  rw [rowIdx_eq _ _ ho]
  rcases chRow_sound (yi.row (rowIdx yi.nx ix)) (yo.row (ix % yo.nx))
    (hermitW bias tension (vari.row ix) (vari.row (rowIdx vari.nx ix)))
    (fun _ => none) j hj0 with h | ⟨i, a, b, c, _, h, _⟩
  · exact h
  · have h' : yo.get (ix % yo.nx) j = some c := h
    rw [hnan] at h'; cases h'

-- the hypotheses are met by the interior NaN of `exYo`
example : exYo.get (0 % exYo.nx) 2 = none := by decide +kernel

/-- C67 for `nearest1d`, partial: only when the output coordinate has no interior gap and at
least one valid value (and ascending gap-free coordinates).  Missing: interior NaN and all-NaN
rows, for which the property is false (`C67_nearest1d_violated`, `C67_nearest1d_allnan_violated`). -/
theorem C67_nearest1d_nan_partial (vari yi yo : Mat) (ix j : Int)
    (hx0 : 0 ≤ ix) (hx : ix < max vari.nx yo.nx) (hj0 : 0 ≤ j) (hj : j < yo.ny)
    (hi : 0 < yi.nx) (ho : 0 < yo.nx)
    (ascI : AscRow (yi.row (ix % yi.nx))) (ascO : AscRow (yo.row (ix % yo.nx)))
    (gapI : NoGap (yi.row (ix % yi.nx))) (gapO : NoGap (yo.row (ix % yo.nx)))
    (hval : ∃ k : Int, 0 ≤ k ∧ k < yo.ny ∧ yo.get (ix % yo.nx) k ≠ none)
    (hnan : yo.get (ix % yo.nx) j = none) : (nearest1d vari yi yo).get ix j = none := by
  have hrow : (nearest1d vari yi yo).get ix = nearestBody vari yi yo ix (fun _ => none) :=
    mkOut_row _ _ _ ix hx0 hx
  unfold nearestBody at hrow
  rw [rowIdx_eq _ _ hi, rowIdx_eq _ _ ho] at hrow
  rw [hrow, nearestRow_spec _ _ _ ascI ascO gapI gapO hval j hj0 hj, if_neg]
  rintro ⟨h1, h2, h3⟩
  have hnan' : (yo.row (ix % yo.nx)).get j = none := hnan
  rcases getIminmax_spec (yo.row (ix % yo.nx)) with ⟨o1, o2, o3⟩ | ⟨o1, o2, o3, o4, o5, o6, o7⟩
  · omega
  · exact gapO _ j _ o1 h1 h2 o3 o4 o5 hnan'

example : exYo2.get (0 % exYo2.nx) 0 = none ∧ exYo2.get (0 % exYo2.nx) 1 ≠ none := by decide +kernel

/-- The full C67 is false of `nearest1d`: an interior missing output coordinate receives a value. -/
theorem C67_nearest1d_violated :
    (Mat.ofLists [[some 0, none, some 3]]).get 0 1 = none ∧
    (nearest1d (Mat.ofLists [[some 1, some 3, some 7]]) exYi (Mat.ofLists [[some 0, none, some 3]])).get 0 1
      = some 7 := by
  decide +kernel

/-- The full C67 is false of `nearest1d`: with an all-missing output coordinate the last
output receives a value. -/
theorem C67_nearest1d_allnan_violated :
    (nearest1d (Mat.ofLists [[some 1, some 3, some 7]]) exYi (Mat.ofLists [[none, none]])).get 0 1
      = some 7 := by
  decide +kernel

/-! ## C05: cubic and Hermite interpolation -/

/-- strictly ascending valid coordinates -/
def StrictAsc (r : Row) : Prop :=
  ∀ i j : Int, 0 ≤ i → i < j → j < r.n → ∀ a b, r.get i = some a → r.get j = some b → a < b

theorem StrictAsc.asc {r : Row} (h : StrictAsc r) : AscRow r := by
  intro i j h0 hij hj a b ha hb
  rcases eq_or_lt_of_le hij with e | hlt
  · subst e; rw [ha] at hb; cases hb; exact le_refl _
  · exact le_of_lt (h i j h0 hlt hj a b ha hb)

/-- cubic weights at a point of an interval with valid data -/
theorem cubicW_val (v : Row) (imin imax i : Int) (a b c v0 v1 c0 c1 : ℚ) (hab : a < b) (hi : 0 ≤ i)
    (h0 : v.get i = some v0) (h1 : v.get (i + 1) = some v1)
    (hc0 : vc0 v v imin i = some c0) (hc1 : vc1 v imax i = some c1) :
    ∃ mu : ℚ, mu = (c - a) / (b - a) ∧
    cubicW v v imin imax i (some (c - a)) (some (b - c)) =
      some (mu ^ 3 * (c1 - v1 - c0 + v0) + mu ^ 2 * (c0 - v0 - (c1 - v1 - c0 + v0)) + mu * (v1 - c0) + v0) := by
  refine ⟨_, rfl, ?_⟩
  have hne : b - a ≠ 0 := by linarith
  have e : c - a + (b - c) = b - a := by ring
  unfold cubicW
  rw [hc0, hc1, Row.rd_nonneg v hi, Row.rd_nonneg v (by omega : 0 ≤ i + 1), h0, h1]
  simp only [add_some, e, div_some hne, sub_some, mul_some, cube, sq]
  congr 1
  ring

theorem hermitW_val (bias tension : ℚ) (v : Row) (imin imax i : Int) (a b c v0 v1 c0 c1 : ℚ) (hab : a < b) (hi : 0 ≤ i)
    (h0 : v.get i = some v0) (h1 : v.get (i + 1) = some v1)
    (hc0 : vc0 v v imin i = some c0) (hc1 : vc1 v imax i = some c1) :
    ∃ mu : ℚ, mu = (c - a) / (b - a) ∧
    hermitW bias tension v v imin imax i (some (c - a)) (some (b - c)) =
      some ((2 * mu ^ 3 - 3 * mu ^ 2 + 1) * v0
        + (mu ^ 3 - 2 * mu ^ 2 + mu) * ((v0 - c0) * ((1 + bias) * (1 - tension) / 2) + (v1 - v0) * ((1 - bias) * (1 - tension) / 2))
        + (mu ^ 3 - mu ^ 2) * ((v1 - v0) * ((1 + bias) * (1 - tension) / 2) + (c1 - v1) * ((1 - bias) * (1 - tension) / 2))
        + (-2 * mu ^ 3 + 3 * mu ^ 2) * v1) := by
  refine ⟨_, rfl, ?_⟩
  have hne : b - a ≠ 0 := by linarith
  have e : c - a + (b - c) = b - a := by ring
  unfold hermitW
  rw [hc0, hc1, Row.rd_nonneg v hi, Row.rd_nonneg v (by omega : 0 ≤ i + 1), h0, h1]
  simp only [add_some, e, div_some hne, sub_some, mul_some, cube, sq, vtwo, vthree, vone]
  congr 1
  ring

/-- neighbours are valid when the data are -/
theorem vc_valid (v : Row) (imin imax i lo hi : Int) (h0 : 0 ≤ imin) (h1 : imin ≤ i) (h2 : i < imax)
    (hlo : lo ≤ i - 1 ∨ i = imin) (hlo' : lo ≤ i) (hhi : i + 2 ≤ hi ∨ i = imax - 1) (hhi' : i + 1 ≤ hi)
    (f : Int → ℚ) (hf : ∀ m, imin ≤ m → m ≤ imax → lo ≤ m → m ≤ hi → v.get m = some (f m)) :
    v.get i = some (f i) ∧ v.get (i + 1) = some (f (i + 1)) ∧
    vc0 v v imin i = some (if i = imin then 2 * f i - f (i + 1) else f (i - 1)) ∧
    vc1 v imax i = some (if i = imax - 1 then 2 * f (i + 1) - f i else f (i + 2)) := by
  have e0 := hf i h1 (by omega) hlo' (by omega)
  have e1 := hf (i + 1) (by omega) (by omega) (by omega) hhi'
  refine ⟨e0, e1, ?_, ?_⟩
  · unfold vc0
    split
    · rw [Row.rd_nonneg v (by omega : 0 ≤ i), Row.rd_nonneg v (by omega : 0 ≤ i + 1), e0, e1]; rfl
    · next h =>
      rw [Row.rd_nonneg v (by omega : 0 ≤ i - 1)]
      exact hf _ (by omega) (by omega) (by omega) (by omega)
  · unfold vc1
    split
    · rw [Row.rd_nonneg v (by omega : 0 ≤ i), Row.rd_nonneg v (by omega : 0 ≤ i + 1), e0, e1]; rfl
    · next h =>
      rw [Row.rd_nonneg v (by omega : 0 ≤ i + 2)]
      exact hf _ (by omega) (by omega) (by omega) (by omega)

/-- The two routines as one: `w` is the writer of cubic or hermit on row `v`. -/
theorem ch_node (v yi yo : Row) (w : Int → Int → Int → V → V → V)
    (hw : ∀ imin imax i a b c v0 v1 c0 c1, a < b → 0 ≤ i → v.get i = some v0 → v.get (i + 1) = some v1 →
      vc0 v v imin i = some c0 → vc1 v imax i = some c1 → 
      (c = a → w imin imax i (some (c - a)) (some (b - c)) = some v0) ∧
      (c = b → w imin imax i (some (c - a)) (some (b - c)) = some v1))
    (ascI : StrictAsc yi) (ascO : AscRow yo) (j : Int) (hj0 : 0 ≤ j) (hj : j < yo.n)
    (n : Int) (hn0 : 0 ≤ n) (hn1 : n < yi.n) (c : ℚ) (hc : yo.get j = some c) (hnode : yi.get n = some c)
    (hbr : ∃ i, Brackets yi i c)
    (hval : ∀ m : Int, 0 ≤ m → m < yi.n → n - 2 ≤ m → m ≤ n + 2 → v.get m ≠ none) :
    chRow yi yo w (fun _ => none) j = v.get n := by
  obtain ⟨i, a, b, ⟨i0, i1, a', b', ha', hb', h1, h2⟩, ha, hb, h⟩ :=
    chRow_complete yi yo ascI.asc ascO w (fun _ => none) j hj0 hj c hc hbr
  rw [ha] at ha'; cases ha'; rw [hb] at hb'; cases hb'
  rw [h]
  have hab : a < b := ascI i (i + 1) i0 (by omega) i1 a b ha hb
  -- the node is i or i+1
  have hcase : (n = i ∧ c = a) ∨ (n = i + 1 ∧ c = b) := by
    rcases lt_trichotomy n i with hlt | heq | hgt
    · have := ascI n i hn0 hlt (by omega) c a hnode ha
      linarith
    · subst heq; rw [hnode] at ha; cases ha; exact Or.inl ⟨rfl, rfl⟩
    · rcases lt_trichotomy n (i + 1) with hlt | heq | hgt'
      · omega
      · subst heq; rw [hnode] at hb; cases hb; exact Or.inr ⟨rfl, rfl⟩
      · have := ascI (i + 1) n (by omega) hgt' hn1 b c hb hnode
        linarith
  have p1 := valid_in_iminmax yi i0 (by omega) (by rw [ha]; simp)
  have p2 := valid_in_iminmax yi (by omega : 0 ≤ i + 1) i1 (by rw [hb]; simp)
  set f : Int → ℚ := fun m => (v.get m).getD 0 with hf
  have hfv : ∀ m, (getIminmax yi).1 ≤ m → m ≤ (getIminmax yi).2 → n - 2 ≤ m → m ≤ n + 2 →
      v.get m = some (f m) := by
    intro m m1 m2 m3 m4
    obtain ⟨x, hx⟩ := Option.ne_none_iff_exists'.1 (hval m (by omega) (by omega) m3 m4)
    rw [hx, hf]; simp [hx]
  obtain ⟨e0, e1, ec0, ec1⟩ := vc_valid v (getIminmax yi).1 (getIminmax yi).2 i (n - 2) (n + 2)
    p1.2.2.1 p1.1 (by omega) (Or.inl (by omega)) (by omega)
    (Or.inl (by omega)) (by omega) f hfv
  have H := hw (getIminmax yi).1 (getIminmax yi).2 i a b c _ _ _ _ hab i0 e0 e1 ec0 ec1
  rcases hcase with ⟨rfl, hca⟩ | ⟨rfl, hca⟩
  · rw [H.1 hca, e0]
  · rw [H.2 hca, e1]

theorem rowIdx_self (n : Nat) (ix : Int) (h0 : 0 ≤ ix) (h : ix < n) : rowIdx n ix = ix := by
  rw [rowIdx_eq n ix (by omega), Int.emod_eq_of_lt h0 h]

/-- C05: `cubic1d` returns the input value at the nodes.  The data row index `ix` is one of
the data rows (see C06 for the other rows). -/
theorem C05_cubic1d_node (vari yi yo : Mat) (ix j : Int)
    (hx0 : 0 ≤ ix) (hx : ix < vari.nx) (hj0 : 0 ≤ j) (hj : j < yo.ny)
    (hi : 0 < yi.nx) (ho : 0 < yo.nx)
    (ascI : StrictAsc (yi.row (ix % yi.nx))) (ascO : AscRow (yo.row (ix % yo.nx)))
    (n : Int) (hn0 : 0 ≤ n) (hn1 : n < yi.ny) (c : ℚ) (hc : yo.get (ix % yo.nx) j = some c)
    (hnode : yi.get (ix % yi.nx) n = some c)
    (hbr : ∃ i, Brackets (yi.row (ix % yi.nx)) i c)
    (hval : ∀ m : Int, 0 ≤ m → m < yi.ny → n - 2 ≤ m → m ≤ n + 2 → vari.get ix m ≠ none) :
    (cubic1d vari yi yo).get ix j = vari.get ix n := by
  have hrow : (cubic1d vari yi yo).get ix = cubicBody vari yi yo ix (fun _ => none) :=
    mkOut_row _ _ _ ix hx0 (by omega)
  unfold cubicBody at hrow
  rw [rowIdx_eq _ _ hi, rowIdx_eq _ _ ho, rowIdx_self _ _ hx0 hx] at hrow
  rw [hrow]
  refine ch_node (vari.row ix) _ _ _ ?_ ascI ascO j hj0 hj n hn0 hn1 c hc hnode hbr hval
  intro imin imax i a b c v0 v1 c0 c1 hab hi0 h0 h1 hc0 hc1
  obtain ⟨mu, hmu, h⟩ := cubicW_val (vari.row ix) imin imax i a b c v0 v1 c0 c1 hab hi0 h0 h1 hc0 hc1
  rw [h]
  constructor
  · rintro rfl
    have : mu = 0 := by rw [hmu]; simp
    subst this; congr 1; ring
  · rintro rfl
    have : mu = 1 := by rw [hmu]; exact div_self (by linarith)
    subst this; congr 1; ring

/-- C05: `hermit1d` returns the input value at the nodes, for every bias and tension. -/
theorem C05_hermit1d_node (vari yi yo : Mat) (bias tension : ℚ) (ix j : Int)
    (hx0 : 0 ≤ ix) (hx : ix < vari.nx) (hj0 : 0 ≤ j) (hj : j < yo.ny)
    (hi : 0 < yi.nx) (ho : 0 < yo.nx)
    (ascI : StrictAsc (yi.row (ix % yi.nx))) (ascO : AscRow (yo.row (ix % yo.nx)))
    (n : Int) (hn0 : 0 ≤ n) (hn1 : n < yi.ny) (c : ℚ) (hc : yo.get (ix % yo.nx) j = some c)
    (hnode : yi.get (ix % yi.nx) n = some c)
    (hbr : ∃ i, Brackets (yi.row (ix % yi.nx)) i c)
    (hval : ∀ m : Int, 0 ≤ m → m < yi.ny → n - 2 ≤ m → m ≤ n + 2 → vari.get ix m ≠ none) :
    (hermit1d vari yi yo bias tension).get ix j = vari.get ix n := by
  have hrow : (hermit1d vari yi yo bias tension).get ix = hermitBody bias tension vari yi yo ix (fun _ => none) :=
    mkOut_row _ _ _ ix hx0 (by omega)
  unfold hermitBody at hrow
  rw [rowIdx_eq _ _ hi, rowIdx_eq _ _ ho, rowIdx_self _ _ hx0 hx] at hrow
  rw [hrow]
  refine ch_node (vari.row ix) _ _ _ ?_ ascI ascO j hj0 hj n hn0 hn1 c hc hnode hbr hval
  intro imin imax i a b c v0 v1 c0 c1 hab hi0 h0 h1 hc0 hc1
  obtain ⟨mu, hmu, h⟩ := hermitW_val bias tension (vari.row ix) imin imax i a b c v0 v1 c0 c1 hab hi0 h0 h1 hc0 hc1
  rw [h]
  constructor
  · rintro rfl
    have : mu = 0 := by rw [hmu]; simp
    subst this; congr 1; ring
  · rintro rfl
    have : mu = 1 := by rw [hmu]; exact div_self (by linarith)
    subst this; congr 1; ring

/-- C05: data `α·index + β` (in particular constants, `α = 0`): value inside a cell for the
two routines. -/
theorem ch_linear (v yi yo : Row) (w : Int → Int → Int → V → V → V) (α β : ℚ)
    (hw : ∀ imin imax i a b c, a < b → 0 ≤ i → v.get i = some (α * i + β) → v.get (i + 1) = some (α * (i + 1) + β) →
      vc0 v v imin i = some (α * (i - 1) + β) → vc1 v imax i = some (α * (i + 2) + β) →
      w imin imax i (some (c - a)) (some (b - c)) = some (α * (i + (c - a) / (b - a)) + β))
    (ascI : StrictAsc yi) (ascO : AscRow yo) (j : Int) (hj0 : 0 ≤ j) (hj : j < yo.n)
    (c : ℚ) (hc : yo.get j = some c) (hbr : ∃ i, Brackets yi i c)
    (hval : ∀ m : Int, 0 ≤ m → m < yi.n → v.get m = some (α * m + β)) :
    ∃ i a b, Brackets yi i c ∧ yi.get i = some a ∧ yi.get (i + 1) = some b ∧
      chRow yi yo w (fun _ => none) j = some (α * (i + (c - a) / (b - a)) + β) := by
  obtain ⟨i, a, b, ⟨i0, i1, a', b', ha', hb', h1, h2⟩, ha, hb, h⟩ :=
    chRow_complete yi yo ascI.asc ascO w (fun _ => none) j hj0 hj c hc hbr
  rw [ha] at ha'; cases ha'; rw [hb] at hb'; cases hb'
  have hab : a < b := ascI i (i + 1) i0 (by omega) i1 a b ha hb
  have p1 := valid_in_iminmax yi i0 (by omega) (by rw [ha]; simp)
  have p2 := valid_in_iminmax yi (by omega : 0 ≤ i + 1) i1 (by rw [hb]; simp)
  obtain ⟨e0, e1, ec0, ec1⟩ := vc_valid v (getIminmax yi).1 (getIminmax yi).2 i (i - 1) (i + 2)
    p1.2.2.1 p1.1 (by omega) (Or.inl (by omega)) (by omega) (Or.inl (by omega)) (by omega)
    (fun m => α * m + β) (fun m m1 m2 _ _ => hval m (by omega) (by omega))
  refine ⟨i, a, b, ⟨i0, i1, a, b, ha, hb, h1, h2⟩, ha, hb, ?_⟩
  rw [h]
  apply hw _ _ i a b c hab i0 e0 (by rw [e1]; push_cast; ring_nf)
  · rw [ec0]; congr 1
    split <;> push_cast <;> ring
  · rw [ec1]; congr 1
    split <;> push_cast <;> ring

/-- C68, partial for `cubic1d`: constant data are reproduced.  Missing: data affine in the node
index, for which the property is false (`C68_cubic1d_linear_violated`). -/
theorem C68_cubic1d_const_partial (vari yi yo : Mat) (ix j : Int)
    (hx0 : 0 ≤ ix) (hx : ix < vari.nx) (hj0 : 0 ≤ j) (hj : j < yo.ny)
    (hi : 0 < yi.nx) (ho : 0 < yo.nx)
    (ascI : StrictAsc (yi.row (ix % yi.nx))) (ascO : AscRow (yo.row (ix % yo.nx)))
    (β c : ℚ) (hc : yo.get (ix % yo.nx) j = some c)
    (hbr : ∃ i, Brackets (yi.row (ix % yi.nx)) i c)
    (hval : ∀ m : Int, 0 ≤ m → m < yi.ny → vari.get ix m = some β) :
    (cubic1d vari yi yo).get ix j = some β := by
  have hrow : (cubic1d vari yi yo).get ix = cubicBody vari yi yo ix (fun _ => none) :=
    mkOut_row _ _ _ ix hx0 (by omega)
  unfold cubicBody at hrow
  rw [rowIdx_eq _ _ hi, rowIdx_eq _ _ ho, rowIdx_self _ _ hx0 hx] at hrow
  rw [hrow]
  obtain ⟨i, a, b, _, _, _, h⟩ := ch_linear (vari.row ix) (yi.row (ix % yi.nx)) (yo.row (ix % yo.nx))
    (cubicW (vari.row ix) (vari.row ix)) 0 β (by
      intro imin imax i a b c hab hi0 h0 h1 hc0 hc1
      obtain ⟨mu, hmu, h⟩ := cubicW_val (vari.row ix) imin imax i a b c _ _ _ _ hab hi0 h0 h1 hc0 hc1
      rw [h, hmu]; congr 1; ring) ascI ascO j hj0 hj c hc hbr
    (by intro m m0 m1; have := hval m m0 m1; simpa [Mat.row] using this)
  rw [h]; simp

/-- `cubic1d` does not reproduce linear data on a regular grid: values 0,1,2,3 at coordinates
0,1,2,3 give 43/32 (= 1.34375) at coordinate 1.25. -/
theorem C68_cubic1d_linear_violated :
    (cubic1d (Mat.ofLists [[some 0, some 1, some 2, some 3]]) (Mat.ofLists [[some 0, some 1, some 2, some 3]])
      (Mat.ofLists [[some (5/4)]])).get 0 0 = some (43/32) ∧ (43/32 : ℚ) ≠ 5/4 := by
  decide +kernel

/-- C05: `hermit1d` with zero tension reproduces data affine in the node index, for every bias. -/
theorem C05_hermit1d_linear (vari yi yo : Mat) (bias : ℚ) (ix j : Int)
    (hx0 : 0 ≤ ix) (hx : ix < vari.nx) (hj0 : 0 ≤ j) (hj : j < yo.ny)
    (hi : 0 < yi.nx) (ho : 0 < yo.nx)
    (ascI : StrictAsc (yi.row (ix % yi.nx))) (ascO : AscRow (yo.row (ix % yo.nx)))
    (α β c : ℚ) (hc : yo.get (ix % yo.nx) j = some c)
    (hbr : ∃ i, Brackets (yi.row (ix % yi.nx)) i c)
    (hval : ∀ m : Int, 0 ≤ m → m < yi.ny → vari.get ix m = some (α * m + β)) :
    ∃ i a b, Brackets (yi.row (ix % yi.nx)) i c ∧ yi.get (ix % yi.nx) i = some a ∧
      yi.get (ix % yi.nx) (i + 1) = some b ∧
      (hermit1d vari yi yo bias 0).get ix j = some (α * (i + (c - a) / (b - a)) + β) := by
  have hrow : (hermit1d vari yi yo bias 0).get ix = hermitBody bias 0 vari yi yo ix (fun _ => none) :=
    mkOut_row _ _ _ ix hx0 (by omega)
  unfold hermitBody at hrow
  rw [rowIdx_eq _ _ hi, rowIdx_eq _ _ ho, rowIdx_self _ _ hx0 hx] at hrow
  rw [hrow]
  refine ch_linear (vari.row ix) _ _ _ α β ?_ ascI ascO j hj0 hj c hc hbr hval
  intro imin imax i a b c hab hi0 h0 h1 hc0 hc1
  obtain ⟨mu, hmu, h⟩ := hermitW_val bias 0 (vari.row ix) imin imax i a b c _ _ _ _ hab hi0 h0 h1 hc0 hc1
  rw [h, hmu]; congr 1; ring

/-- C05: `hermit1d` keeps a constant, for every bias and tension. -/
theorem C05_hermit1d_const (vari yi yo : Mat) (bias tension : ℚ) (ix j : Int)
    (hx0 : 0 ≤ ix) (hx : ix < vari.nx) (hj0 : 0 ≤ j) (hj : j < yo.ny)
    (hi : 0 < yi.nx) (ho : 0 < yo.nx)
    (ascI : StrictAsc (yi.row (ix % yi.nx))) (ascO : AscRow (yo.row (ix % yo.nx)))
    (β c : ℚ) (hc : yo.get (ix % yo.nx) j = some c)
    (hbr : ∃ i, Brackets (yi.row (ix % yi.nx)) i c)
    (hval : ∀ m : Int, 0 ≤ m → m < yi.ny → vari.get ix m = some β) :
    (hermit1d vari yi yo bias tension).get ix j = some β := by
  have hrow : (hermit1d vari yi yo bias tension).get ix = hermitBody bias tension vari yi yo ix (fun _ => none) :=
    mkOut_row _ _ _ ix hx0 (by omega)
  unfold hermitBody at hrow
  rw [rowIdx_eq _ _ hi, rowIdx_eq _ _ ho, rowIdx_self _ _ hx0 hx] at hrow
  rw [hrow]
  obtain ⟨i, a, b, _, _, _, h⟩ := ch_linear (vari.row ix) (yi.row (ix % yi.nx)) (yo.row (ix % yo.nx))
    (hermitW bias tension (vari.row ix) (vari.row ix)) 0 β (by
      intro imin imax i a b c hab hi0 h0 h1 hc0 hc1
      obtain ⟨mu, hmu, h⟩ := hermitW_val bias tension (vari.row ix) imin imax i a b c _ _ _ _ hab hi0 h0 h1 hc0 hc1
      rw [h, hmu]; congr 1; ring) ascI ascO j hj0 hj c hc hbr
    (by intro m m0 m1; have := hval m m0 m1; simpa [Mat.row] using this)
  rw [h]; simp

/-- C05: outside the input range (no enclosing pair of nodes) both routines give NaN, for any
coordinates. -/
theorem C05_outside_nan (vari yi yo : Mat) (bias tension : ℚ) (ix j : Int)
    (hx0 : 0 ≤ ix) (hx : ix < max vari.nx yo.nx) (hj0 : 0 ≤ j)
    (hi : 0 < yi.nx) (ho : 0 < yo.nx) (c : ℚ) (hc : yo.get (ix % yo.nx) j = some c)
    (hout : ∀ i, ¬ Brackets (yi.row (ix % yi.nx)) i c) :
    (cubic1d vari yi yo).get ix j = none ∧ (hermit1d vari yi yo bias tension).get ix j = none := by
  have hr1 : (cubic1d vari yi yo).get ix = cubicBody vari yi yo ix (fun _ => none) :=
    mkOut_row _ _ _ ix hx0 hx
  have hr2 : (hermit1d vari yi yo bias tension).get ix = hermitBody bias tension vari yi yo ix (fun _ => none) :=
    mkOut_row _ _ _ ix hx0 hx
  unfold cubicBody at hr1
  unfold hermitBody at hr2
  rw [rowIdx_eq _ _ hi, rowIdx_eq _ _ ho] at hr1 hr2
  rw [hr1, hr2]
  have key : ∀ w, chRow (yi.row (ix % yi.nx)) (yo.row (ix % yo.nx)) w (fun _ => none) j = none := by
    intro w
    rcases chRow_sound (yi.row (ix % yi.nx)) (yo.row (ix % yo.nx)) w (fun _ => none) j hj0 with
      h | ⟨i, a, b, c', hbr, h, _⟩
    · exact h
    · have h' : yo.get (ix % yo.nx) j = some c' := h
      rw [hc] at h'; cases h'
      exact absurd hbr (hout i)
  exact ⟨key _, key _⟩

def exV3 : Mat := Mat.ofLists [[some 1, some 3, some 7, some 2, some 5]]
def exY3 : Mat := Mat.ofLists [[some 0, some 2, some 4, some 7, some 8]]
def exO3 : Mat := Mat.ofLists [[some (-1), some 0, some 1, some 4, some 8, some 9]]
example : ((cubic1d exV3 exY3 exO3).get 0 1, (cubic1d exV3 exY3 exO3).get 0 3, (cubic1d exV3 exY3 exO3).get 0 4,
   (hermit1d exV3 exY3 exO3 1 (1/2)).get 0 3, (cubic1d exV3 exY3 exO3).get 0 5) =
   (some 1, some 7, some 5, some 7, none) := by decide +kernel
example : StrictAsc (exY3.row (0 % exY3.nx)) := by
  intro i j h0 h1 h2 a b ha hb
  have h2' : j < 5 := h2
  have : (i = 0 ∧ (j = 1 ∨ j = 2 ∨ j = 3 ∨ j = 4)) ∨ (i = 1 ∧ (j = 2 ∨ j = 3 ∨ j = 4)) ∨
    (i = 2 ∧ (j = 3 ∨ j = 4)) ∨ (i = 3 ∧ j = 4) := by omega
  have g0 : (exY3.row (0 % exY3.nx)).get 0 = some 0 := by decide +kernel
  have g1 : (exY3.row (0 % exY3.nx)).get 1 = some 2 := by decide +kernel
  have g2 : (exY3.row (0 % exY3.nx)).get 2 = some 4 := by decide +kernel
  have g3 : (exY3.row (0 % exY3.nx)).get 3 = some 7 := by decide +kernel
  have g4 : (exY3.row (0 % exY3.nx)).get 4 = some 8 := by decide +kernel
  rcases this with ⟨rfl, rfl | rfl | rfl | rfl⟩ | ⟨rfl, rfl | rfl | rfl⟩ | ⟨rfl, rfl | rfl⟩ | ⟨rfl, rfl⟩ <;>
    simp only [g0, g1, g2, g3, g4, Option.some.injEq] at ha hb <;> subst ha <;> subst hb <;> norm_num
example : Brackets (exY3.row (0 % exY3.nx)) 1 4 :=
  ⟨by decide, by decide, 2, 4, by decide +kernel, by decide +kernel, by norm_num, by norm_num⟩

/-! ## C06: rows are paired modulo the number of rows, no out-of-bound access -/

/-- rows `i` of two arrays have the same data -/
def SameRow (m m' : Mat) (i i' : Int) : Prop :=
  m.ny = m'.ny ∧ ∀ j : Int, 0 ≤ j → j < m.ny → m.get i j = m'.get i' j

theorem SameRow.agree {m m' : Mat} {i i' : Int} (h : SameRow m m' i i') : (m.row i).agree (m'.row i') := h

/-- C06 for `linear1d` and `nearest1d`: the row `ix` of the output is a function of the
in-bound elements of rows `ix % nxi` of the data, `ix % nxiy` of the input coordinate and
`ix % nxo` of the output coordinate only (it is the same for any other arrays, of any
number of rows and any memory beyond their bounds, having these same three rows). -/
theorem C06_linear1d_nearest1d_rows (vari yi yo vari' yi' yo' : Mat) (ix ix' : Int)
    (hx0 : 0 ≤ ix) (hx : ix < max vari.nx yo.nx) (hx0' : 0 ≤ ix') (hx' : ix' < max vari'.nx yo'.nx)
    (hv : 0 < vari.nx) (hi : 0 < yi.nx) (ho : 0 < yo.nx)
    (hv' : 0 < vari'.nx) (hi' : 0 < yi'.nx) (ho' : 0 < yo'.nx)
    (hny : vari.ny = yi.ny) (hnyo : 0 < yo.ny)
    (sv : SameRow vari vari' (ix % vari.nx) (ix' % vari'.nx))
    (si : SameRow yi yi' (ix % yi.nx) (ix' % yi'.nx))
    (so : SameRow yo yo' (ix % yo.nx) (ix' % yo'.nx)) (j : Int) :
    (linear1d vari yi yo).get ix j = (linear1d vari' yi' yo').get ix' j ∧
    (nearest1d vari yi yo).get ix j = (nearest1d vari' yi' yo').get ix' j := by
  have r1 : (linear1d vari yi yo).get ix = linearBody vari yi yo ix (fun _ => none) := mkOut_row _ _ _ ix hx0 hx
  have r2 : (linear1d vari' yi' yo').get ix' = linearBody vari' yi' yo' ix' (fun _ => none) := mkOut_row _ _ _ ix' hx0' hx'
  have r3 : (nearest1d vari yi yo).get ix = nearestBody vari yi yo ix (fun _ => none) := mkOut_row _ _ _ ix hx0 hx
  have r4 : (nearest1d vari' yi' yo').get ix' = nearestBody vari' yi' yo' ix' (fun _ => none) := mkOut_row _ _ _ ix' hx0' hx'
  rw [r1, r2, r3, r4]
  unfold linearBody nearestBody
  rw [rowIdx_eq _ _ hi, rowIdx_eq _ _ ho, rowIdx_eq _ _ hv, rowIdx_eq _ _ hi', rowIdx_eq _ _ ho', rowIdx_eq _ _ hv']
  have hrd : ∀ i : Int, 0 ≤ i → i < vari.ny → (vari.row (ix % vari.nx)).rd i = (vari'.row (ix' % vari'.nx)).rd i :=
    fun i a b => sv.agree.rd a b
  constructor
  · rw [nlRow_congr _ _ _ _ _ (linearW (vari'.row (ix' % vari'.nx))) si.agree so.agree hnyo]
    intro i d0 d1 a b
    have b' : i + 1 < yi.ny := b
    unfold linearW
    rw [hrd i a (by omega), hrd (i + 1) (by omega) (by omega)]
  · rw [nlRow_congr _ _ _ _ _ (nearestW (vari'.row (ix' % vari'.nx))) si.agree so.agree hnyo]
    intro i d0 d1 a b
    have b' : i + 1 < yi.ny := b
    unfold nearestW
    rw [hrd i a (by omega), hrd (i + 1) (by omega) (by omega)]

-- 2 data rows, 1 and 4 coordinate rows: row 3 of the output is paired with rows 1, 0, 3
example : SameRow exV exV (3 % exV.nx) 1 := ⟨rfl, by intro j _ _; rfl⟩

/-- C69 for `cubic1d` and `hermit1d`, partial: holds for output rows that are data rows
(`ix < nxi`, i.e. always when `nxo ≤ nxi`).  Missing: `nxo > nxi`, where it is false
(`C69_cubic1d_hermit1d_out_of_bounds`). -/
theorem C69_cubic1d_hermit1d_rows_partial (vari yi yo vari' yi' yo' : Mat) (bias tension : ℚ) (ix ix' : Int)
    (hx0 : 0 ≤ ix) (hx : ix < vari.nx) (hx0' : 0 ≤ ix') (hx' : ix' < vari'.nx)
    (hi : 0 < yi.nx) (ho : 0 < yo.nx) (hi' : 0 < yi'.nx) (ho' : 0 < yo'.nx)
    (hny : vari.ny = yi.ny) (hnyo : 0 < yo.ny)
    (sv : SameRow vari vari' (ix % vari.nx) (ix' % vari'.nx))
    (si : SameRow yi yi' (ix % yi.nx) (ix' % yi'.nx))
    (so : SameRow yo yo' (ix % yo.nx) (ix' % yo'.nx)) (j : Int) :
    (cubic1d vari yi yo).get ix j = (cubic1d vari' yi' yo').get ix' j ∧
    (hermit1d vari yi yo bias tension).get ix j = (hermit1d vari' yi' yo' bias tension).get ix' j := by
  have r1 : (cubic1d vari yi yo).get ix = cubicBody vari yi yo ix (fun _ => none) := mkOut_row _ _ _ ix hx0 (by omega)
  have r2 : (cubic1d vari' yi' yo').get ix' = cubicBody vari' yi' yo' ix' (fun _ => none) := mkOut_row _ _ _ ix' hx0' (by omega)
  have r3 : (hermit1d vari yi yo bias tension).get ix = hermitBody bias tension vari yi yo ix (fun _ => none) := mkOut_row _ _ _ ix hx0 (by omega)
  have r4 : (hermit1d vari' yi' yo' bias tension).get ix' = hermitBody bias tension vari' yi' yo' ix' (fun _ => none) := mkOut_row _ _ _ ix' hx0' (by omega)
  rw [Int.emod_eq_of_lt hx0 hx, Int.emod_eq_of_lt hx0' hx'] at sv
  rw [r1, r2, r3, r4]
  unfold cubicBody hermitBody
  rw [rowIdx_eq _ _ hi, rowIdx_eq _ _ ho, rowIdx_self _ _ hx0 hx, rowIdx_eq _ _ hi', rowIdx_eq _ _ ho', rowIdx_self _ _ hx0' hx']
  constructor
  · rw [chRow_congr _ _ _ _ _ (cubicW (vari'.row ix') (vari'.row ix')) si.agree so.agree hnyo]
    intro imin imax i d0 d1 a b c d
    exact cubicW_congr _ _ yi.ny sv.agree hny imin imax i d0 d1 a b c d
  · rw [chRow_congr _ _ _ _ _ (hermitW bias tension (vari'.row ix') (vari'.row ix')) si.agree so.agree hnyo]
    intro imin imax i d0 d1 a b c d
    exact hermitW_congr bias tension _ _ yi.ny sv.agree hny imin imax i d0 d1 a b c d

/-- C69 is false of `cubic1d` and `hermit1d` when there are more output coordinate rows than data rows:
two data arrays that are equal inside their bounds give different results, i.e. the
routine reads memory outside the data array. -/
theorem C69_cubic1d_hermit1d_out_of_bounds :
    ∃ vari vari' yi yo : Mat, vari.agree vari' ∧ vari.ny = yi.ny ∧ vari.nx = 1 ∧ yo.nx = 2 ∧
      (cubic1d vari yi yo).get 1 0 ≠ (cubic1d vari' yi yo).get 1 0 ∧
      (hermit1d vari yi yo 0 0).get 1 0 ≠ (hermit1d vari' yi yo 0 0).get 1 0 := by
  refine ⟨⟨1, 3, fun i _ => if i = 0 then some 1 else some 5⟩, ⟨1, 3, fun i _ => if i = 0 then some 1 else some 6⟩,
    exYi, Mat.ofLists [[some 1], [some 1]], ⟨rfl, rfl, ?_⟩, by decide, rfl, by decide, by decide +kernel, by decide +kernel⟩
  intro i j h0 h1 _ _
  have : i = 0 := by
    have h1' : i < 1 := h1
    omega
  subst this; rfl

/-! ## C08: extrapolation -/

/-- Output of `extrap1d` at `(ix, j)`, from the first (`p`) and last (`q`) valid index. -/
theorem C08_extrap1d (vari : Mat) (mode : Extrap) (ix j p q : Int)
    (hx0 : 0 ≤ ix) (hx : ix < vari.nx) (hj0 : 0 ≤ j) (hj : j < vari.ny)
    (hp : IsFirstValid (vari.row ix) p) (hq : IsLastValid (vari.row ix) q) :
    (extrap1d vari mode).get ix j =
      if j < p ∧ (mode = .bottom ∨ mode = .both) then vari.get ix p
      else if q < j ∧ (mode = .top ∨ mode = .both) then vari.get ix q
      else vari.get ix j := by
  have hg := C01_get_iminmax_unique (vari.row ix) p q hp hq
  unfold extrap1d
  by_cases hm : mode = .no
  · subst hm; simp
  · rw [if_neg hm]
    simp only
    rw [rowLoop_in _ _ _ ix (pyRange_nodup _ _) (by rw [mem_pyRange]; exact ⟨hx0, hx⟩)]
    unfold extrapRow
    rw [hg]
    have hp0 := hp.1
    have hpq : p ≤ q := by
      by_contra hlt
      exact hp.2.2.1 (hq.2.2.2 p (by omega) hp.2.1)
    have hne : ¬ (p = -1) := by omega
    have hn : (vari.row ix).n = vari.ny := rfl
    simp only [hne, if_false, hn]
    cases mode <;> simp at hm ⊢
    · -- top
      by_cases h1 : q + 1 ≤ j
      · rw [if_pos ⟨h1, hj⟩, if_pos (by omega)]
      · rw [if_neg (by omega), if_neg (by omega)]
    · -- bottom
      by_cases h1 : j < p
      · rw [if_pos ⟨hj0, h1⟩, if_pos h1]
      · rw [if_neg (by omega), if_neg h1]
    · -- both
      by_cases h1 : q + 1 ≤ j
      · rw [if_pos ⟨h1, hj⟩, if_neg (by omega), if_neg (by omega), if_pos (by omega)]
      · rw [if_neg (by omega)]
        by_cases h2 : j < p
        · rw [if_pos ⟨hj0, h2⟩, if_pos h2]
        · rw [if_neg (by omega), if_neg h2, if_neg (by omega)]

/-- C08: a row without any valid value is left unchanged; other rows are C08_extrap1d. -/
theorem C08_extrap1d_allnan (vari : Mat) (mode : Extrap) (ix j : Int)
    (hx0 : 0 ≤ ix) (hx : ix < vari.nx)
    (hall : ∀ i : Int, 0 ≤ i → i < vari.ny → vari.get ix i = none) :
    (extrap1d vari mode).get ix j = vari.get ix j := by
  unfold extrap1d
  split
  · rfl
  · simp only
    rw [rowLoop_in _ _ _ ix (pyRange_nodup _ _) (by rw [mem_pyRange]; exact ⟨hx0, hx⟩)]
    unfold extrapRow
    rw [((C01_get_iminmax (vari.row ix)).1.2 hall)]
    simp

/-- C08: valid values are never changed, and interior gaps and unrequested ends stay missing. -/
theorem C08_extrap1d_keeps (vari : Mat) (mode : Extrap) (ix j : Int)
    (hx0 : 0 ≤ ix) (hx : ix < vari.nx) (hj0 : 0 ≤ j) (hj : j < vari.ny) (hv : vari.get ix j ≠ none) :
    (extrap1d vari mode).get ix j = vari.get ix j := by
  rcases getIminmax_spec (vari.row ix) with ⟨_, _, h⟩ | ⟨h1, h2, h3, h4, h5, h6, h7⟩
  · exact absurd (h j hj0 hj) hv
  · have p3 := valid_in_iminmax (vari.row ix) hj0 hj hv
    rw [C08_extrap1d vari mode ix j _ _ hx0 hx hj0 hj ⟨h1, by omega, h4, h6⟩ ⟨by omega, h3, h5, h7⟩,
      if_neg (by omega), if_neg (by omega)]

/-- C08: extrapolating twice is the same as once. -/
theorem C08_extrap1d_idem (vari : Mat) (mode : Extrap) (ix j : Int)
    (hx0 : 0 ≤ ix) (hx : ix < vari.nx) (hj0 : 0 ≤ j) (hj : j < vari.ny) :
    (extrap1d (extrap1d vari mode) mode).get ix j = (extrap1d vari mode).get ix j := by
  have hnx : (extrap1d vari mode).nx = vari.nx := by unfold extrap1d; split <;> rfl
  have hny : (extrap1d vari mode).ny = vari.ny := by unfold extrap1d; split <;> rfl
  by_cases hv : (extrap1d vari mode).get ix j = none
  · -- missing after the first pass
    rcases getIminmax_spec (vari.row ix) with ⟨_, _, h⟩ | ⟨h1, h2, h3, h4, h5, h6, h7⟩
    · apply C08_extrap1d_allnan _ mode ix j hx0 (by rw [hnx]; exact hx)
      intro i i0 i1
      rw [hny] at i1
      rw [C08_extrap1d_allnan vari mode ix i hx0 hx h]
      exact h i i0 i1
    · set p := (getIminmax (vari.row ix)).1
      set q := (getIminmax (vari.row ix)).2
      have F : IsFirstValid (vari.row ix) p := ⟨h1, by omega, h4, h6⟩
      have L : IsLastValid (vari.row ix) q := ⟨by omega, h3, h5, h7⟩
      have E : ∀ i : Int, 0 ≤ i → i < vari.ny → (extrap1d vari mode).get ix i =
          if i < p ∧ (mode = .bottom ∨ mode = .both) then vari.get ix p
          else if q < i ∧ (mode = .top ∨ mode = .both) then vari.get ix q else vari.get ix i :=
        fun i i0 i1 => C08_extrap1d vari mode ix i p q hx0 hx i0 i1 F L
      have hpv : vari.get ix p ≠ none := h4
      have hqv : vari.get ix q ≠ none := h5
      have hq' : q < vari.ny := h3
      -- first and last valid of the result
      have hEp : (extrap1d vari mode).get ix p = vari.get ix p := C08_extrap1d_keeps vari mode ix p hx0 hx h1 (by omega) hpv
      have hEq : (extrap1d vari mode).get ix q = vari.get ix q := C08_extrap1d_keeps vari mode ix q hx0 hx (by omega) hq' hqv
      have F' : IsFirstValid ((extrap1d vari mode).row ix) (if mode = .bottom ∨ mode = .both then 0 else p) := by
        split
        · next hm =>
          refine ⟨le_refl _, by show (0:Int) < (extrap1d vari mode).ny; rw [hny]; omega, ?_, fun i a b => absurd b (by omega)⟩
          show (extrap1d vari mode).get ix 0 ≠ none
          rw [E 0 (le_refl _) (by omega)]
          by_cases h0 : (0 : Int) < p
          · rw [if_pos ⟨h0, hm⟩]; exact hpv
          · have : p = 0 := by omega
            rw [if_neg (by omega), if_neg (by omega), ← this]; exact hpv
        · next hm =>
          refine ⟨h1, by show p < (extrap1d vari mode).ny; rw [hny]; omega, ?_, fun i a b => ?_⟩
          · show (extrap1d vari mode).get ix p ≠ none
            rw [hEp]; exact hpv
          · show (extrap1d vari mode).get ix i = none
            rw [E i a (by omega), if_neg (fun h => hm h.2), if_neg (by omega)]
            exact h6 i a b
      have L' : IsLastValid ((extrap1d vari mode).row ix) (if mode = .top ∨ mode = .both then vari.ny - 1 else q) := by
        split
        · next hm =>
          refine ⟨by omega, by show (vari.ny : Int) - 1 < (extrap1d vari mode).ny; rw [hny]; omega, ?_, fun i a b => ?_⟩
          · show (extrap1d vari mode).get ix ((vari.ny : Int) - 1) ≠ none
            rw [E _ (by omega) (by omega)]
            by_cases h0 : q < (vari.ny : Int) - 1
            · rw [if_neg (by omega), if_pos ⟨h0, hm⟩]; exact hqv
            · have : q = (vari.ny : Int) - 1 := by omega
              rw [if_neg (by omega), if_neg (by omega), ← this]; exact hqv
          · have b' : i < (extrap1d vari mode).ny := b
            rw [hny] at b'; omega
        · next hm =>
          refine ⟨by omega, by show q < (extrap1d vari mode).ny; rw [hny]; omega, ?_, fun i a b => ?_⟩
          · show (extrap1d vari mode).get ix q ≠ none
            rw [hEq]; exact hqv
          · have b' : i < (extrap1d vari mode).ny := b
            rw [hny] at b'
            show (extrap1d vari mode).get ix i = none
            rw [E i (by omega) b', if_neg (by omega), if_neg (fun h => hm h.2)]
            exact h7 i a b'
      rw [C08_extrap1d (extrap1d vari mode) mode ix j _ _ hx0 (by rw [hnx]; exact hx) hj0 (by rw [hny]; exact hj) F' L']
      rw [if_neg, if_neg]
      · rintro ⟨a, b⟩
        rw [if_pos b] at a
        omega
      · rintro ⟨a, b⟩
        rw [if_pos b] at a
        omega
  · exact C08_extrap1d_keeps _ mode ix j hx0 (by rw [hnx]; exact hx) hj0 (by rw [hny]; exact hj) hv

def exX : Mat := Mat.ofLists [[none, some 1, none, some 2, none], [none, none, none, none, none]]
example : ((extrap1d exX .both).get 0 0, (extrap1d exX .bottom).get 0 4, (extrap1d exX .both).get 0 2,
    (extrap1d exX .top).get 0 4, (extrap1d exX .both).get 1 0) = (some 1, none, none, some 2, none) := by
  decide +kernel
example : IsFirstValid (exX.row 0) 1 ∧ IsLastValid (exX.row 0) 3 := by
  refine ⟨⟨by decide, by decide, by decide +kernel, ?_⟩, ⟨by decide, by decide, by decide +kernel, ?_⟩⟩
  · intro j h0 h1; have : j = 0 := by omega
    subst this; decide +kernel
  · intro j h0 h1
    have h1' : j < 5 := h1
    have : j = 4 := by omega
    subst this; decide +kernel

end Xoa
