import Verif.RegridTopProps

/-! # The direction of the coordinates in 1-D interpolation (C184)

The scans of xoa/interp.py:92-120, 164-193, 247-290 and 336-389 suppose that both coordinates increase.  Nothing in xoa/interp.py nor in xoa/regrid.py checks or reverses them. -/

namespace Xoa
open V

/-! ## Specification -/

/-- the row has no missing value and decreases strictly -/
structure DescRow (y : Row) : Prop where
  full : ∀ k : Int, 0 ≤ k → k < y.n → ∃ q, y.get k = some q
  desc : ∀ (k l : Int) (a b : ℚ), 0 ≤ k → k < l → l < y.n → y.get k = some a → y.get l = some b → b < a

/-- along the dimension `d`, through the position `pos`, the coordinate has no missing value and decreases strictly -/
structure Decreasing (c : LArr V) (d : String) (pos : String → Nat) : Prop where
  full : ∀ k : Nat, k < c.size d → ∃ q, c.at (moved pos d k) = some q
  desc : ∀ (k k' : Nat) (a b : ℚ), k < k' → k' < c.size d → c.at (moved pos d k) = some a → c.at (moved pos d k') = some b → b < a

/-- some input node is strictly between the last output (below) and the first output (above) -/
def NodeBetween (yi yo : Row) : Prop :=
  ∃ (n : Int) (q f l : ℚ), 0 ≤ n ∧ n < yi.n ∧ yi.get n = some q ∧ yo.get 0 = some f ∧ yo.get (yo.n - 1) = some l ∧ l < q ∧ q < f

/-! ## Lemmas -/

/-- a decreasing row has no cell of which the lower node is not above the upper one -/
theorem DescRow.noBracket {y : Row} (h : DescRow y) (i : Int) (c : ℚ) : ¬ Brackets y i c := by
  rintro ⟨i0, i1, a, b, ha, hb, hac, hcb⟩
  exact absurd (le_trans hac hcb) (not_le.mpr (h.desc i (i + 1) a b i0 (by omega) i1 ha hb))

theorem nearestRow_none (v yi yo : Row) (hf : ∀ k : Int, 0 ≤ k → k < yi.n → ∃ q, yi.get k = some q) (j : Int) (h0 : 0 ≤ j) (c : ℚ) (hc : yo.get j = some c)
    (hno : ∀ i : Int, ¬ Brackets yi i c) : nlRow yi yo (nearestW v) (fun _ => none) j = none := by
  rcases nlOuter_sound yi yo (nearestW v) (getIminmax yo).2
    (pyRange (getIminmax yi).1 (getIminmax yi).2) (getIminmax yo).1 (fun _ => none) j with h | ⟨i, hi, k, hk, h⟩
  · exact h
  · exfalso
    rw [mem_pyRange] at hi
    have hi0 : 0 ≤ i ∧ i + 1 < yi.n := by
      rcases getIminmax_spec yi with ⟨i1, i2, i3⟩ | ⟨i1, i2, i3, _⟩ <;> omega
    obtain ⟨a, ha⟩ := hf i hi0.1 (by omega)
    obtain ⟨b, hb⟩ := hf (i + 1) (by omega) hi0.2
    have hck : yo.rd k = some c := by
      rw [← hc, ← hk]; rfl
    apply hno i
    refine ⟨hi0.1, hi0.2, a, b, ha, hb, ?_, ?_⟩
    · by_contra hlt
      push Not at hlt
      simp [nlHit, hck, Row.rd_nonneg yi hi0.1, Row.rd_nonneg yi (show (0 : Int) ≤ i + 1 by omega), ha, hb, V.lt, V.sub, hlt] at h
    · by_contra hlt
      push Not at hlt
      simp [nlHit, hck, Row.rd_nonneg yi hi0.1, Row.rd_nonneg yi (show (0 : Int) ≤ i + 1 by omega), ha, hb, V.lt, V.sub, hlt] at h

theorem nlOuter_idle (yi yo : Row) (w : Int → V → V → Option V) (mx m : Int) (out : Int → V) : ∀ l : List Int,
    (∀ i ∈ l, lt (yi.rd (i + 1)) (yo.rd m) = true ∨ lt (yo.rd mx) (yi.rd i) = true) → nlOuter yi yo w mx l m out = out := by
  intro l
  induction l with
  | nil => intro _; rfl
  | cons i l ih =>
    intro h
    simp only [nlOuter]
    by_cases h1 : lt (yi.rd (i + 1)) (yo.rd m) = true
    · rw [if_pos h1]; exact ih (fun i' hi' => h i' (List.mem_cons_of_mem _ hi'))
    · rw [if_neg h1]
      rcases h i (List.mem_cons_self ..) with h2 | h2
      · exact absurd h2 h1
      · rw [if_pos h2]

theorem chOuter_idle (yi yo : Row) (w : Int → V → V → V) (mx m : Int) (out : Int → V) : ∀ l : List Int,
    (∀ i ∈ l, lt (yi.rd (i + 1)) (yo.rd m) = true ∨ lt (yo.rd mx) (yi.rd i) = true) → chOuter yi yo w mx l m out = out := by
  intro l
  induction l with
  | nil => intro _; rfl
  | cons i l ih =>
    intro h
    simp only [chOuter]
    by_cases h1 : lt (yi.rd (i + 1)) (yo.rd m) = true
    · rw [if_pos h1]; exact ih (fun i' hi' => h i' (List.mem_cons_of_mem _ hi'))
    · rw [if_neg h1]
      rcases h i (List.mem_cons_self ..) with h2 | h2
      · exact absurd h2 h1
      · rw [if_pos h2]

/-- a row of which the first and last values are valid is scanned entirely -/
theorem getIminmax_ends (y : Row) (h : 0 < y.n) (h0 : y.get 0 ≠ none) (h1 : y.get (y.n - 1) ≠ none) : getIminmax y = (0, (y.n : Int) - 1) :=
  C01_get_iminmax_unique y 0 (y.n - 1) ⟨by omega, by omega, h0, fun j _ _ => by omega⟩ ⟨by omega, by omega, h1, fun j _ _ => by omega⟩

theorem idle_of_node (yi yo : Row) (hf : ∀ k : Int, 0 ≤ k → k < yi.n → ∃ q, yi.get k = some q) (hs : StrictAsc yi) (hn : NodeBetween yi yo) (hy : 0 < yo.n) :
    ∀ i ∈ pyRange (getIminmax yi).1 (getIminmax yi).2, lt (yi.rd (i + 1)) (yo.rd (getIminmax yo).1) = true ∨ lt (yo.rd (getIminmax yo).2) (yi.rd i) = true := by
  obtain ⟨n, q, f, l, n0, n1, hq, hf0, hl0, h1, h2⟩ := hn
  rw [getIminmax_ends yo hy (by simp [hf0]) (by simp [hl0])]
  intro i hi
  rw [mem_pyRange] at hi
  have hi0 : 0 ≤ i ∧ i + 1 < yi.n := by
    rcases getIminmax_spec yi with ⟨i1, i2, i3⟩ | ⟨i1, i2, i3, _⟩ <;> omega
  obtain ⟨a, ha⟩ := hf i hi0.1 (by omega)
  obtain ⟨b, hb⟩ := hf (i + 1) (by omega) hi0.2
  simp only [Row.rd_nonneg yi hi0.1, Row.rd_nonneg yi (show (0 : Int) ≤ i + 1 by omega), Row.rd_nonneg yo (le_refl (0 : Int)),
    Row.rd_nonneg yo (show (0 : Int) ≤ (yo.n : Int) - 1 by omega), ha, hb, hf0, hl0, V.lt, decide_eq_true_eq]
  by_cases hin : i + 1 ≤ n
  · left
    rcases (show i + 1 = n ∨ i + 1 < n by omega) with e | e
    · rw [e, hq] at hb; cases hb; exact h2
    · exact lt_trans (hs (i + 1) n (by omega) e n1 b q hb hq) h2
  · right
    rcases (show i = n ∨ n < i by omega) with e | e
    · rw [e, hq] at ha; cases ha; exact h1
    · exact lt_trans h1 (hs n i n0 e (by omega) q a hq ha)

/-! ## The four routines -/

/-- **C184 (decreasing input, violated).** With an input coordinate that decreases strictly, the four routines give a missing value at *every* output that has a coordinate, while the same
data read in the other order are interpolated. -/
theorem C184_decreasing_input_violated (vari yi yo : Mat) (bias tension : ℚ) (ix j : Int)
    (hx0 : 0 ≤ ix) (hx : ix < max vari.nx yo.nx) (hj0 : 0 ≤ j) (hv : 0 < vari.nx) (hi : 0 < yi.nx) (ho : 0 < yo.nx) (c : ℚ) (hc : yo.get (ix % yo.nx) j = some c)
    (hd : DescRow (yi.row (ix % yi.nx))) :
    (nearest1d vari yi yo).get ix j = none ∧ (linear1d vari yi yo).get ix j = none ∧ (cubic1d vari yi yo).get ix j = none ∧
      (hermit1d vari yi yo bias tension).get ix j = none := by
  obtain ⟨h3, h4⟩ := C05_outside_nan vari yi yo bias tension ix j hx0 hx hj0 hi ho c hc (fun i => hd.noBracket i c)
  refine ⟨?_, ?_, h3, h4⟩
  · have hrow : (nearest1d vari yi yo).get ix = nearestBody vari yi yo ix (fun _ => none) := mkOut_row _ _ _ ix hx0 hx
    unfold nearestBody at hrow
    rw [rowIdx_eq _ _ hi, rowIdx_eq _ _ ho] at hrow
    rw [hrow]
    exact nearestRow_none _ _ _ hd.full j hj0 c hc (fun i => hd.noBracket i c)
  · cases hq : (linear1d vari yi yo).get ix j with
    | none => rfl
    | some q =>
      obtain ⟨i, c', x, y, hc', hbr, _⟩ := C02_linear1d_between vari yi yo ix j hx0 hx hj0 hv hi ho q hq
      exact absurd hbr (hd.noBracket i c')

/-- **C184 (decreasing output, violated).** With an increasing input coordinate, and an output coordinate that starts above some input node and ends below it (as a decreasing output that
crosses a node does), the four routines give missing values at *every* point of the row. -/
theorem C184_decreasing_output_violated (vari yi yo : Mat) (bias tension : ℚ) (ix j : Int)
    (hx0 : 0 ≤ ix) (hx : ix < max vari.nx yo.nx) (hi : 0 < yi.nx) (ho : 0 < yo.nx) (hy : 0 < yo.ny)
    (hf : ∀ k : Int, 0 ≤ k → k < yi.ny → ∃ q, yi.get (ix % yi.nx) k = some q) (hs : StrictAsc (yi.row (ix % yi.nx)))
    (hn : NodeBetween (yi.row (ix % yi.nx)) (yo.row (ix % yo.nx))) :
    (nearest1d vari yi yo).get ix j = none ∧ (linear1d vari yi yo).get ix j = none ∧ (cubic1d vari yi yo).get ix j = none ∧
      (hermit1d vari yi yo bias tension).get ix j = none := by
  have hidle := idle_of_node (yi.row (ix % yi.nx)) (yo.row (ix % yo.nx)) hf hs hn hy
  have k1 : ∀ w, nlRow (yi.row (ix % yi.nx)) (yo.row (ix % yo.nx)) w (fun _ => none) = fun _ => none :=
    fun w => nlOuter_idle _ _ _ _ _ _ _ hidle
  have k2 : ∀ w, chRow (yi.row (ix % yi.nx)) (yo.row (ix % yo.nx)) w (fun _ => none) = fun _ => none :=
    fun w => chOuter_idle _ _ _ _ _ _ _ hidle
  have hr0 : (nearest1d vari yi yo).get ix = nearestBody vari yi yo ix (fun _ => none) := mkOut_row _ _ _ ix hx0 hx
  have hr3 : (linear1d vari yi yo).get ix = linearBody vari yi yo ix (fun _ => none) := mkOut_row _ _ _ ix hx0 hx
  have hr1 : (cubic1d vari yi yo).get ix = cubicBody vari yi yo ix (fun _ => none) := mkOut_row _ _ _ ix hx0 hx
  have hr2 : (hermit1d vari yi yo bias tension).get ix = hermitBody bias tension vari yi yo ix (fun _ => none) := mkOut_row _ _ _ ix hx0 hx
  unfold nearestBody at hr0
  unfold linearBody at hr3
  unfold cubicBody at hr1
  unfold hermitBody at hr2
  rw [rowIdx_eq _ _ hi, rowIdx_eq _ _ ho] at hr0 hr1 hr2 hr3
  rw [hr0, hr1, hr2, hr3]
  refine ⟨congrFun (k1 _) j, congrFun (k1 _) j, congrFun (k2 _) j, congrFun (k2 _) j⟩

/-! ## In one cell, the order of the outputs does not count -/

theorem nlOuter_skip (yi yo : Row) (w : Int → V → V → Option V) (mx m : Int) (out : Int → V) (rest : List Int) : ∀ l : List Int,
    (∀ i ∈ l, lt (yi.rd (i + 1)) (yo.rd m) = true) → nlOuter yi yo w mx (l ++ rest) m out = nlOuter yi yo w mx rest m out := by
  intro l
  induction l with
  | nil => intro _; rfl
  | cons i l ih =>
    intro h
    simp only [List.cons_append, nlOuter]
    rw [if_pos (h i (List.mem_cons_self ..))]
    exact ih (fun i' hi' => h i' (List.mem_cons_of_mem _ hi'))

/-- when every point of the range is in the cell, the inner loop writes each of them and keeps its start -/
theorem nlInner_all (yi yo : Row) (w : Int → V → V → Option V) (i : Int) : ∀ (l : List Int) (m : Int) (out : Int → V), l.Nodup →
    (∀ k ∈ l, 0 ≤ k ∧ k < yo.n ∧ nlHit yi yo w i k ≠ none) →
    (nlInner yi yo w i l m out).1 = m ∧ ∀ j : Int, 0 ≤ j → (nlInner yi yo w i l m out).2 j = if j ∈ l then (nlHit yi yo w i j).getD none else out j := by
  intro l
  induction l with
  | nil => intro m out _ _; exact ⟨rfl, fun j _ => by simp [nlInner]⟩
  | cons k l ih =>
    intro m out hnd h
    obtain ⟨k0, k1, hk⟩ := h k (List.mem_cons_self ..)
    rw [List.nodup_cons] at hnd
    have ih' := fun out => ih m out hnd.2 (fun k' hk' => h k' (List.mem_cons_of_mem _ hk'))
    simp only [nlInner]
    have hk' := hk
    unfold nlHit at hk
    dsimp only at hk
    by_cases h1 : lt (sub (yi.rd (i + 1)) (yo.rd k)) (some 0) = true
    · rw [if_pos h1] at hk; exact absurd rfl hk
    · rw [if_neg h1] at hk
      rw [if_neg h1]
      by_cases h0 : lt (sub (yo.rd k) (yi.rd i)) (some 0) = true
      · rw [if_pos h0] at hk; exact absurd rfl hk
      · rw [if_neg h0] at hk
        rw [if_neg h0]
        have hval : nlHit yi yo w i k = w i (sub (yo.rd k) (yi.rd i)) (sub (yi.rd (i + 1)) (yo.rd k)) := by
          unfold nlHit; dsimp only; rw [if_neg h1, if_neg h0]
        cases hw : w i (sub (yo.rd k) (yi.rd i)) (sub (yi.rd (i + 1)) (yo.rd k)) with
        | none => rw [hw] at hk; exact absurd rfl hk
        | some v =>
          obtain ⟨e1, e2⟩ := ih' (wr1 yo.n out k v)
          refine ⟨e1, ?_⟩
          intro j hj
          rw [e2 j hj]
          by_cases hjk : j = k
          · subst hjk
            rw [if_neg hnd.1, if_pos (List.mem_cons_self ..), hval, hw]
            simp [wr1, wrapIdx, not_lt.mpr k0]
          · have : wr1 yo.n out k v j = out j := by
              have hne : ¬ (j = wrapIdx yo.n k) := by simp [wrapIdx, not_lt.mpr k0, hjk]
              simp [wr1, hne]
            rw [this]
            simp [List.mem_cons, hjk]

/-- **C184 (one cell, holds).** When all the outputs of a row are strictly inside one cell of an increasing input coordinate, the linear routine gives at each of them the value of the line
through the two nodes of the cell, whatever their order. -/
theorem C184_one_cell_partial (vari yi yo : Mat) (ix : Int) (hx0 : 0 ≤ ix) (hx : ix < max vari.nx yo.nx) (hv : 0 < vari.nx) (hi : 0 < yi.nx) (ho : 0 < yo.nx)
    (hf : ∀ k : Int, 0 ≤ k → k < yi.ny → ∃ q, yi.get (ix % yi.nx) k = some q) (hs : StrictAsc (yi.row (ix % yi.nx)))
    (i : Int) (a b : ℚ) (i0 : 0 ≤ i) (i1 : i + 1 < yi.ny) (ha : yi.get (ix % yi.nx) i = some a) (hb : yi.get (ix % yi.nx) (i + 1) = some b)
    (hall : ∀ j : Int, 0 ≤ j → j < yo.ny → ∃ c, yo.get (ix % yo.nx) j = some c ∧ a < c ∧ c < b) (j : Int) (j0 : 0 ≤ j) (j1 : j < yo.ny) (c : ℚ)
    (hc : yo.get (ix % yo.nx) j = some c) :
    (linear1d vari yi yo).get ix j = lineThrough a b (vari.get (ix % vari.nx) i) (vari.get (ix % vari.nx) (i + 1)) c := by
  have hrow : (linear1d vari yi yo).get ix = linearBody vari yi yo ix (fun _ => none) := mkOut_row _ _ _ ix hx0 hx
  unfold linearBody at hrow
  rw [rowIdx_eq _ _ hi, rowIdx_eq _ _ ho, rowIdx_eq _ _ hv] at hrow
  rw [hrow]
  set Yi := yi.row (ix % yi.nx) with hYi
  set Yo := yo.row (ix % yo.nx) with hYo
  set Va := vari.row (ix % vari.nx) with hVa
  have nYi : Yi.n = yi.ny := rfl
  have nYo : Yo.n = yo.ny := rfl
  have hf' : ∀ k : Int, 0 ≤ k → k < Yi.n → ∃ q, Yi.get k = some q := hf
  have hall' : ∀ j : Int, 0 ≤ j → j < Yo.n → ∃ c, Yo.get j = some c ∧ a < c ∧ c < b := hall
  have haY : Yi.get i = some a := ha
  have hbY : Yi.get (i + 1) = some b := hb
  have hyi : getIminmax Yi = (0, (Yi.n : Int) - 1) := by
    obtain ⟨q0, e0⟩ := hf' 0 (by omega) (by omega)
    obtain ⟨q1, e1⟩ := hf' (Yi.n - 1) (by omega) (by omega)
    exact getIminmax_ends Yi (by omega) (by simp [e0]) (by simp [e1])
  obtain ⟨cf, ecf, cf1, cf2⟩ := hall' 0 (by omega) (by omega)
  obtain ⟨cl, ecl, cl1, cl2⟩ := hall' (Yo.n - 1) (by omega) (by omega)
  have hyo : getIminmax Yo = (0, (Yo.n : Int) - 1) := getIminmax_ends Yo (by omega) (by simp [ecf]) (by simp [ecl])
  unfold nlRow
  rw [hyi, hyo]
  dsimp only
  have hsplit : pyRange 0 ((Yi.n : Int) - 1) = pyRange 0 i ++ (i :: pyRange (i + 1) ((Yi.n : Int) - 1)) := by
    rw [← pyRange_cons (by omega : i < (Yi.n : Int) - 1)]
    exact pyRange_append (a := 0) (b := i) (c := (Yi.n : Int) - 1) (by omega) (by omega)
  rw [hsplit, nlOuter_skip]
  · have hhit : ∀ k ∈ pyRange 0 ((Yo.n : Int) - 1 + 1), 0 ≤ k ∧ k < Yo.n ∧ nlHit Yi Yo (linearW Va) i k ≠ none := by
      intro k hk
      rw [mem_pyRange] at hk
      obtain ⟨ck, eck, ck1, ck2⟩ := hall' k hk.1 (by omega)
      exact ⟨hk.1, by omega, (nlHit_some_iff_linear Yi Yo Va i0 hk.1).2 ⟨a, b, ck, haY, hbY, eck, le_of_lt ck1, le_of_lt ck2⟩⟩
    obtain ⟨e1, e2⟩ := nlInner_all Yi Yo (linearW Va) i (pyRange 0 ((Yo.n : Int) - 1 + 1)) 0 (fun _ => none) (pyRange_nodup _ _) hhit
    simp only [nlOuter]
    rw [if_neg, if_neg]
    · rw [e1, nlOuter_idle]
      · have hjm : j ∈ pyRange 0 ((Yo.n : Int) - 1 + 1) := by
          rw [mem_pyRange]
          have : j < (Yo.n : Int) := j1
          omega
        rw [e2 j j0, if_pos hjm, nlHit_linear_val Yi Yo Va i0 j0 haY hbY hc]
        · rfl
        · obtain ⟨c', ec', h1, _⟩ := hall' j j0 (by omega)
          have hc' : Yo.get j = some c := hc
          rw [hc'] at ec'; cases ec'; exact le_of_lt h1
        · obtain ⟨c', ec', _, h2⟩ := hall' j j0 (by omega)
          have hc' : Yo.get j = some c := hc
          rw [hc'] at ec'; cases ec'; exact le_of_lt h2
      · intro i' hi'
        rw [mem_pyRange] at hi'
        right
        obtain ⟨a', ea'⟩ := hf' i' (by omega) (by omega)
        simp only [Row.rd_nonneg Yi (show (0 : Int) ≤ i' by omega), Row.rd_nonneg Yo (show (0 : Int) ≤ (Yo.n : Int) - 1 by omega), ea', ecl, V.lt, decide_eq_true_eq]
        rcases (show i' = i + 1 ∨ i + 1 < i' by omega) with e | e
        · rw [e, hbY] at ea'; cases ea'; exact cl2
        · exact lt_trans cl2 (hs (i + 1) i' (by omega) e (by omega) b a' hbY ea')
    · simp only [Row.rd_nonneg Yi i0, Row.rd_nonneg Yo (show (0 : Int) ≤ (Yo.n : Int) - 1 by omega), haY, ecl, V.lt, decide_eq_true_eq, not_lt]
      exact le_of_lt cl1
    · simp only [Row.rd_nonneg Yi (show (0 : Int) ≤ i + 1 by omega), Row.rd_nonneg Yo (le_refl (0 : Int)), hbY, ecf, V.lt, decide_eq_true_eq, not_lt]
      exact le_of_lt cf2
  · intro i' hi'
    rw [mem_pyRange] at hi'
    obtain ⟨b', eb'⟩ := hf' (i' + 1) (by omega) (by omega)
    simp only [Row.rd_nonneg Yi (show (0 : Int) ≤ i' + 1 by omega), Row.rd_nonneg Yo (le_refl (0 : Int)), eb', ecf, V.lt, decide_eq_true_eq]
    rcases (show i' + 1 = i ∨ i' + 1 < i by omega) with e | e
    · rw [e, haY] at eb'; cases eb'; exact cf1
    · exact lt_trans (hs (i' + 1) i (by omega) e (by omega) b' a eb' haY) cf1

/-! ## Through `regrid1d` -/

theorem Decreasing.row {c : LArr V} {d : String} {pos : String → Nat} (h : Decreasing c d pos) : DescRow ((oneRow (c.line d pos)).row 0) := by
  refine ⟨?_, ?_⟩
  · intro k k0 k1
    have k1' : k < (c.size d : Int) := k1
    exact h.full k.toNat (by omega)
  · intro k l a b k0 kl l1 ha hb
    have l1' : l < (c.size d : Int) := l1
    exact h.desc k.toNat l.toNat a b (by omega) (by omega) ha hb

/-- **C184 (regrid1d, decreasing input, violated).** `regrid1d` accepts data along a decreasing coordinate (depths counted from the surface down, latitudes from north to south), with each
method but cell averaging, and returns missing values only. -/
theorem C184_regrid1d_input_violated (o : RegridOpts) (K : Mat → Mat → Mat → Mat) (hK : Named o.method K) (he : ExtrapKnown o.extrap) (da cin cout : LArr V) (dim0 dim1 : String)
    (h : FlushIn da cin cout dim0 dim1) (hc : Compat da cout dim0 dim1) (hp : PairOk da cin cout dim0 dim1)
    (pos : String → Nat) (hpos : ∀ d ∈ outDims da cout dim0 dim1, pos d < outSize da cout dim1 d)
    (hi : Decreasing cin dim0 pos) (c : ℚ) (hcv : cout.at (moved pos dim1 (pos dim1)) = some c) :
    ∃ out, regrid1d o da cin cout dim0 dim1 = .ok out ∧ out.at pos = none := by
  obtain ⟨hj, out, e, hat⟩ := regrid1d_at o K hK he da cin cout dim0 dim1 h hc hp pos hpos
  refine ⟨out, e, ?_⟩
  rw [hat]
  obtain ⟨h1, h2, h3, h4⟩ := C184_decreasing_input_violated (oneRow (da.line dim0 pos)) (oneRow (cin.line dim0 pos)) (oneRow (cout.line dim1 pos)) 0 0 0 (pos dim1 : Nat) (by decide)
    (by show (0 : Int) < max (1 : Int) 1; decide) (by omega) (by show 0 < 1; decide) (by show 0 < 1; decide) (by show 0 < 1; decide) c hcv hi.row
  generalize o.method = m at hK
  cases hK <;> assumption

/-- **C184 (regrid1d, decreasing output, violated).** With an increasing input coordinate and an output coordinate that decreases from above some input node to below it, `regrid1d` returns
missing values only along the row. -/
theorem C184_regrid1d_output_violated (o : RegridOpts) (K : Mat → Mat → Mat → Mat) (hK : Named o.method K) (he : ExtrapKnown o.extrap) (da cin cout : LArr V) (dim0 dim1 : String)
    (h : FlushIn da cin cout dim0 dim1) (hc : Compat da cout dim0 dim1) (hp : PairOk da cin cout dim0 dim1)
    (pos : String → Nat) (hpos : ∀ d ∈ outDims da cout dim0 dim1, pos d < outSize da cout dim1 d)
    (hi : Increasing cin dim0 pos) (n : Nat) (hn : n < cin.size dim0) (q f l : ℚ) (hq : cin.at (moved pos dim0 n) = some q) (hf : cout.at (moved pos dim1 0) = some f)
    (hl : cout.at (moved pos dim1 (cout.size dim1 - 1)) = some l) (h1 : l < q) (h2 : q < f) :
    ∃ out, regrid1d o da cin cout dim0 dim1 = .ok out ∧ out.at pos = none := by
  obtain ⟨hj, out, e, hat⟩ := regrid1d_at o K hK he da cin cout dim0 dim1 h hc hp pos hpos
  refine ⟨out, e, ?_⟩
  rw [hat]
  have hnode : NodeBetween ((oneRow (cin.line dim0 pos)).row 0) ((oneRow (cout.line dim1 pos)).row 0) := by
    refine ⟨n, q, f, l, by omega, ?_, hq, hf, ?_, h1, h2⟩
    · show (n : Int) < (cin.size dim0 : Int); omega
    · show cout.at (moved pos dim1 (((cout.size dim1 : Nat) : Int) - 1).toNat) = some l
      rw [show (((cout.size dim1 : Nat) : Int) - 1).toNat = cout.size dim1 - 1 by omega]
      exact hl
  obtain ⟨h1, h2, h3, h4⟩ := C184_decreasing_output_violated (oneRow (da.line dim0 pos)) (oneRow (cin.line dim0 pos)) (oneRow (cout.line dim1 pos)) 0 0 0 (pos dim1 : Nat) (by decide)
    (by show (0 : Int) < max (1 : Int) 1; decide) (by show 0 < 1; decide) (by show 0 < 1; decide) (by show 0 < cout.size dim1; omega)
    (fun k k0 k1 => by
      have k1' : k < (cin.size dim0 : Int) := k1
      exact hi.full k.toNat (by omega)) hi.strict hnode
  generalize o.method = m at hK
  cases hK <;> assumption

/-! ## Concrete cases -/

def exDirV : Mat := Mat.ofLists [[some 1, some 3, some 7]]
def exDirUp : Mat := Mat.ofLists [[some 0, some 1, some 2]]
def exDirVr : Mat := Mat.ofLists [[some 7, some 3, some 1]]
def exDirDown : Mat := Mat.ofLists [[some 2, some 1, some 0]]
def exDirO : Mat := Mat.ofLists [[some (1/2), some (3/2)]]
def exDirOr : Mat := Mat.ofLists [[some (3/2), some (1/2)]]

-- the same profile, in increasing order: interpolated; in decreasing order: missing; with the outputs in decreasing order: missing
example : ((linear1d exDirV exDirUp exDirO).get 0 0, (linear1d exDirV exDirUp exDirO).get 0 1, (linear1d exDirVr exDirDown exDirO).get 0 0, (linear1d exDirVr exDirDown exDirO).get 0 1,
    (linear1d exDirV exDirUp exDirOr).get 0 0, (linear1d exDirV exDirUp exDirOr).get 0 1) = (some 2, some 5, none, none, none, none) := by decide +kernel
-- both in decreasing order
example : ((nearest1d exDirVr exDirDown exDirOr).get 0 0, (nearest1d exDirVr exDirDown exDirOr).get 0 1) = (none, none) := by decide +kernel
theorem exDirDown_desc : DescRow (exDirDown.row (0 % exDirDown.nx)) := by
  have g0 : (exDirDown.row (0 % exDirDown.nx)).get 0 = some 2 := by decide +kernel
  have g1 : (exDirDown.row (0 % exDirDown.nx)).get 1 = some 1 := by decide +kernel
  have g2 : (exDirDown.row (0 % exDirDown.nx)).get 2 = some 0 := by decide +kernel
  refine ⟨?_, ?_⟩
  · intro k k0 k1
    have k1' : k < 3 := k1
    rcases (show k = 0 ∨ k = 1 ∨ k = 2 by omega) with rfl | rfl | rfl
    · exact ⟨_, g0⟩
    · exact ⟨_, g1⟩
    · exact ⟨_, g2⟩
  · intro k l a b k0 kl l1 ha hb
    have l1' : l < 3 := l1
    rcases (show (k = 0 ∧ l = 1) ∨ (k = 0 ∧ l = 2) ∨ (k = 1 ∧ l = 2) by omega) with ⟨rfl, rfl⟩ | ⟨rfl, rfl⟩ | ⟨rfl, rfl⟩ <;>
      simp only [g0, g1, g2, Option.some.injEq] at ha hb <;> subst ha <;> subst hb <;> norm_num
-- the hypotheses of `C184_decreasing_input_violated`
example : (cubic1d exDirVr exDirDown exDirO).get 0 1 = none :=
  (C184_decreasing_input_violated exDirVr exDirDown exDirO 0 0 0 1 (by decide) (by decide +kernel) (by decide) (by decide +kernel) (by decide +kernel) (by decide +kernel) (3/2)
    (by decide +kernel) exDirDown_desc).2.2.1
-- the hypotheses on the nodes of `C184_decreasing_output_violated`
example : NodeBetween (exDirUp.row (0 % exDirUp.nx)) (exDirOr.row (0 % exDirOr.nx)) :=
  ⟨1, 1, 3/2, 1/2, by decide, by decide +kernel, by decide +kernel, by decide +kernel, by decide +kernel, by norm_num, by norm_num⟩
-- two outputs of one cell, in decreasing order, are interpolated
example : ((linear1d exDirV exDirUp (Mat.ofLists [[some (3/4), some (1/4)]])).get 0 0, (linear1d exDirV exDirUp (Mat.ofLists [[some (3/4), some (1/4)]])).get 0 1)
    = (some (5/2), some (3/2)) := by decide +kernel

end Xoa
