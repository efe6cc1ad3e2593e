import Verif.Interp1dFProps

/-!
# Property C204 for the cubic and Hermite interpolations
-/

namespace Xoa
open V

section
variable {fl : ℚ → ℚ} {u : ℚ}

/-- the data of the row are at most `M` in size -/
def RowBound (v : Row) (n : Nat) (M : ℚ) : Prop := ∀ m : Int, 0 ≤ m → m < n → ∀ q, v.get m = some q → |q| ≤ M

theorem RowBound.rd {v : Row} {n : Nat} {M : ℚ} (hb : RowBound v n M) {m : Int} (h0 : 0 ≤ m) (h1 : m < n) : NearV u M 0 (v.rd m) (v.rd m) := by
  rw [Row.rd_nonneg v h0]
  exact NearV.exact (hb m h0 h1)

theorem vc0_near (h : Rounds fl u) (hu : u ≤ 1 / 1048576) {v : Row} {n : Nat} {M : ℚ} (hM : 0 ≤ M) (hb : RowBound v n M) {p i : Int} (hp : 0 ≤ p) (hpi : p ≤ i)
    (hi : i + 1 < n) : NearV u (3 * M) 4 (vc0F fl v v p i) (vc0 v v p i) := by
  have hu0 := h.nonneg
  unfold vc0F vc0
  by_cases hip : i = p
  · rw [if_pos hip, if_pos hip]
    have h1 := NearV.mul h (NearV.const (u := u) 2 2 (by norm_num)) (hb.rd (u := u) (by omega : 0 ≤ i) (by omega)) (le_refl 0) (le_refl 0) (by linarith)
    have h2 := NearV.sub h 2 h1 (hb.rd (u := u) (by omega : 0 ≤ i + 1) (by omega)) (by norm_num) (by norm_num) (by linarith)
    exact NearV.mono hu0 h2 (by linarith) (by norm_num) (by norm_num)
  · rw [if_neg hip, if_neg hip]
    exact NearV.mono hu0 (hb.rd (by omega : 0 ≤ i - 1) (by omega)) (by linarith) (by norm_num) (le_refl 0)

theorem vc1_near (h : Rounds fl u) (hu : u ≤ 1 / 1048576) {v : Row} {n : Nat} {M : ℚ} (hM : 0 ≤ M) (hb : RowBound v n M) {q i : Int} (hi : 0 ≤ i) (hiq : i < q)
    (hq : q < n) : NearV u (3 * M) 4 (vc1F fl v q i) (vc1 v q i) := by
  have hu0 := h.nonneg
  unfold vc1F vc1
  by_cases hip : i = q - 1
  · rw [if_pos hip, if_pos hip]
    have h1 := NearV.mul h (NearV.const (u := u) 2 2 (by norm_num)) (hb.rd (u := u) (by omega : 0 ≤ i + 1) (by omega)) (le_refl 0) (le_refl 0) (by linarith)
    have h2 := NearV.sub h 2 h1 (hb.rd (u := u) (by omega : 0 ≤ i) (by omega)) (by norm_num) (by norm_num) (by linarith)
    exact NearV.mono hu0 h2 (by linarith) (by norm_num) (by norm_num)
  · rw [if_neg hip, if_neg hip]
    exact NearV.mono hu0 (hb.rd (by omega : 0 ≤ i + 2) (by omega)) (by linarith) (by norm_num) (le_refl 0)

theorem sq_near (h : Rounds fl u) (hu : u ≤ 1 / 1048576) {m' m : V} (hm : NearV u 1 4 m' m) : NearV u 1 10 (sqF fl m') (sq m) :=
  NearV.mono h.nonneg (NearV.mul h hm hm (by norm_num) (by norm_num) (by linarith)) (by norm_num) (by norm_num) (by norm_num)

theorem cube_near (h : Rounds fl u) (hu : u ≤ 1 / 1048576) {m' m : V} (hm : NearV u 1 4 m' m) : NearV u 1 16 (cubeF fl m') (cube m) :=
  NearV.mono h.nonneg (NearV.mul h hm (sq_near h hu hm) (by norm_num) (by norm_num) (by linarith)) (by norm_num) (by norm_num) (by norm_num)

theorem cubicW_near (h : Rounds fl u) (hu : u ≤ 1 / 1048576) {v : Row} {n : Nat} {M : ℚ} (hM : 0 ≤ M) (hb : RowBound v n M) {p q i : Int} (hp : 0 ≤ p) (hpi : p ≤ i)
    (hiq : i < q) (hq : q < n) (d0 d1 : ℚ) (hd0 : 0 ≤ d0) (hd1 : 0 ≤ d1) :
    NearV u (25 * M) 34 (cubicWF fl v v p q i (some (fl d0)) (some (fl d1))) (cubicW v v p q i (some d0) (some d1)) := by
  have hu0 := h.nonneg
  have hmu := NearV.mu h (by linarith) d0 d1 hd0 hd1
  have hc0 := vc0_near h hu hM hb hp hpi (by omega)
  have hc1 := vc1_near h hu hM hb (by omega : 0 ≤ i) hiq hq
  have h0 := hb.rd (u := u) (by omega : 0 ≤ i) (by omega)
  have h1 := hb.rd (u := u) (by omega : 0 ≤ i + 1) (by omega)
  have t := NearV.add h 8 (NearV.sub h 6 (NearV.sub h 4 hc1 h1 (by norm_num) (by norm_num) (by linarith)) hc0 (by norm_num) (by norm_num) (by linarith)) h0
    (by norm_num) (by norm_num) (by linarith)
  have s := NearV.sub h 10 (NearV.sub h 4 hc0 h0 (by norm_num) (by norm_num) (by linarith)) t (by norm_num) (by norm_num) (by linarith)
  have t2 := NearV.add h 28 (NearV.mul h (cube_near h hu hmu) t (by norm_num) (by norm_num) (by linarith))
    (NearV.mul h (sq_near h hu hmu) s (by norm_num) (by norm_num) (by linarith)) (by norm_num) (by norm_num) (by linarith)
  have t3 := NearV.add h 30 t2 (NearV.mul h hmu (NearV.sub h 4 h1 hc0 (by norm_num) (by norm_num) (by linarith)) (by norm_num) (by norm_num) (by linarith))
    (by norm_num) (by norm_num) (by linarith)
  have r := NearV.add h 32 t3 h0 (by norm_num) (by norm_num) (by linarith)
  exact NearV.mono hu0 r (by linarith) (by norm_num) (by norm_num)

theorem hermitF_near (h : Rounds fl u) (hu : u ≤ 1 / 1048576) {N k B T b' b t' t : ℚ} (hk : 0 ≤ k) (hk' : k ≤ 6) {x' x : V} (hx : NearV u N k x' x)
    (hb : NearV u B 2 (some b') (some b)) (ht : NearV u T 2 (some t') (some t)) :
    NearV u (N * B * T * (1 / 2)) (k + 10) (hermitF fl b' t' x') (V.mul x (some (b * t / 2))) := by
  have hu0 := h.nonneg
  have h1 := NearV.mul h hx hb hk (by norm_num) (by nlinarith)
  have h2 := NearV.mul h h1 ht (by linarith) (by norm_num) (by nlinarith)
  have h3 := NearV.half h h2 (by linarith) (by nlinarith)
  have e : V.mul (V.mul (V.mul x (some b)) (some t)) (some (1 / 2)) = V.mul x (some (b * t / 2)) := by
    cases x with
    | none => rfl
    | some x => simp only [mul_some]; congr 1; ring
  rw [e] at h3
  have hk2 : k + 2 + 2 + 2 + 2 + 2 = k + 10 := by ring
  rw [hk2] at h3
  exact h3

theorem hermitW_near (h : Rounds fl u) (hu : u ≤ 1 / 1048576) (bias tension : ℚ) {v : Row} {n : Nat} {M : ℚ} (hM : 0 ≤ M) (hb : RowBound v n M) {p q i : Int}
    (hp : 0 ≤ p) (hpi : p ≤ i) (hiq : i < q) (hq : q < n) (d0 d1 : ℚ) (hd0 : 0 ≤ d0) (hd1 : 0 ≤ d1) :
    NearV u (29 * ((1 + |bias|) * (1 + |tension|)) * M) 46 (hermitWF fl bias tension v v p q i (some (fl d0)) (some (fl d1)))
      (hermitW bias tension v v p q i (some d0) (some d1)) := by
  have hu0 := h.nonneg
  have hmu := NearV.mu h (by linarith) d0 d1 hd0 hd1
  have hc0 := vc0_near h hu hM hb hp hpi (by omega)
  have hc1 := vc1_near h hu hM hb (by omega : 0 ≤ i) hiq hq
  have h0 := hb.rd (u := u) (by omega : 0 ≤ i) (by omega)
  have h1 := hb.rd (u := u) (by omega : 0 ≤ i + 1) (by omega)
  have one : Near u 1 0 1 1 := ⟨by simp, by simp⟩
  have bb : Near u |bias| 0 bias bias := ⟨by simp, le_refl _⟩
  have tt : Near u |tension| 0 tension tension := ⟨by simp, le_refl _⟩
  have hbp : NearV u (1 + |bias|) 2 (some (fl (1 + bias))) (some (1 + bias)) :=
    Or.inr ⟨_, _, rfl, rfl, by simpa using Near.add h (n := 0) one bb (le_refl 0) (le_refl 0) (by linarith)⟩
  have hbm : NearV u (1 + |bias|) 2 (some (fl (1 - bias))) (some (1 - bias)) :=
    Or.inr ⟨_, _, rfl, rfl, by simpa using Near.sub h (n := 0) one bb (le_refl 0) (le_refl 0) (by linarith)⟩
  have htm : NearV u (1 + |tension|) 2 (some (fl (1 - tension))) (some (1 - tension)) :=
    Or.inr ⟨_, _, rfl, rfl, by simpa using Near.sub h (n := 0) one tt (le_refl 0) (le_refl 0) (by linarith)⟩
  set B := 1 + |bias| with hB
  set T := 1 + |tension| with hT
  have hB1 : 1 ≤ B := by rw [hB]; linarith [abs_nonneg bias]
  have hT1 : 1 ≤ T := by rw [hT]; linarith [abs_nonneg tension]
  have cu := cube_near h hu hmu
  have sqn := sq_near h hu hmu
  have two : NearV u 2 0 (some 2) (some 2) := NearV.const 2 2 (by norm_num)
  have thr : NearV u 3 0 (some 3) (some 3) := NearV.const 3 3 (by norm_num)
  have m2 : NearV u 2 0 (some (-2)) (some (-2)) := NearV.const 2 (-2) (by norm_num)
  have on : NearV u 1 0 (some 1) (some 1) := NearV.const 1 1 (by norm_num)
  have a0 := NearV.add h 20 (NearV.sub h 18 (NearV.mul h two cu (by norm_num) (by norm_num) (by linarith)) (NearV.mul h thr sqn (by norm_num) (by norm_num) (by linarith))
    (by norm_num) (by norm_num) (by linarith)) on (by norm_num) (by norm_num) (by linarith)
  have a1 := NearV.add h 18 (NearV.sub h 16 cu (NearV.mul h two sqn (by norm_num) (by norm_num) (by linarith)) (by norm_num) (by norm_num) (by linarith)) hmu
    (by norm_num) (by norm_num) (by linarith)
  have a2 := NearV.sub h 16 cu sqn (by norm_num) (by norm_num) (by linarith)
  have a3 := NearV.add h 18 (NearV.mul h m2 cu (by norm_num) (by norm_num) (by linarith)) (NearV.mul h thr sqn (by norm_num) (by norm_num) (by linarith))
    (by norm_num) (by norm_num) (by linarith)
  have s0 := NearV.sub h 4 h0 hc0 (by norm_num) (by norm_num) (by linarith)
  have s1 := NearV.sub h 0 h1 h0 (by norm_num) (by norm_num) (by linarith)
  have s2 := NearV.sub h 4 hc1 h1 (by norm_num) (by norm_num) (by linarith)
  have w1 := NearV.add h 16 (hermitF_near h hu (by norm_num) (by norm_num) s0 hbp htm) (hermitF_near h hu (by norm_num) (by norm_num) s1 hbm htm)
    (by norm_num) (by norm_num) (by linarith)
  have w2 := NearV.add h 16 (hermitF_near h hu (by norm_num) (by norm_num) s1 hbp htm) (hermitF_near h hu (by norm_num) (by norm_num) s2 hbm htm)
    (by norm_num) (by norm_num) (by linarith)
  have r0 := NearV.mul h a0 h0 (by norm_num) (by norm_num) (by linarith)
  have r1 := NearV.add h 40 r0 (NearV.mul h a1 w1 (by norm_num) (by norm_num) (by linarith)) (by norm_num) (by norm_num) (by linarith)
  have r2 := NearV.add h 42 r1 (NearV.mul h a2 w2 (by norm_num) (by norm_num) (by linarith)) (by norm_num) (by norm_num) (by linarith)
  have r3 := NearV.add h 44 r2 (NearV.mul h a3 h1 (by norm_num) (by norm_num) (by linarith)) (by norm_num) (by norm_num) (by linarith)
  refine NearV.mono hu0 r3 ?_ (by norm_num) (by norm_num)
  have hBT : M ≤ B * T * M := by
    have : 1 ≤ B * T := by nlinarith
    nlinarith
  nlinarith

theorem NearV.get {M k : ℚ} {v' v : V} (h : NearV u M k v' v) : (v' = none ∧ v = none) ∨ ∃ r r' : ℚ, v' = some r' ∧ v = some r ∧ |r' - r| ≤ k * u * M := by
  rcases h with h | ⟨x', x, h1, h2, h3, _⟩
  · exact Or.inl h
  · exact Or.inr ⟨x, x', h1, h2, h3⟩

/-- **C204** (cubic interpolation): in floating-point arithmetic `cubic1d` gives a value exactly where exact arithmetic does, and the two values differ by at most
`850 u M`, where `M` is a bound of the data of the row. Any coordinates. -/
theorem C204_cubic (h : Rounds fl u) (hu : u ≤ 1 / 1048576) (vari yi yo : Mat) (ix j : Int) (hx0 : 0 ≤ ix) (hx : ix < vari.nx) (hi : 0 < yi.nx) (ho : 0 < yo.nx)
    (M : ℚ) (hM : 0 ≤ M) (hb : ∀ m : Int, 0 ≤ m → m < yi.ny → ∀ q, vari.get ix m = some q → |q| ≤ M) :
    ((cubic1dF fl vari yi yo).get ix j = none ∧ (cubic1d vari yi yo).get ix j = none) ∨
    ∃ r r' : ℚ, (cubic1dF fl vari yi yo).get ix j = some r' ∧ (cubic1d vari yi yo).get ix j = some r ∧ |r' - r| ≤ 850 * u * M := by
  have hv : 0 < vari.nx := by omega
  have hrow : rowIdx vari.nx ix = ix := rowIdx_self _ _ hx0 hx
  have e1 : (cubic1dF fl vari yi yo).get ix = chRowF fl (yi.row (ix % yi.nx)) (yo.row (ix % yo.nx)) (cubicWF fl (vari.row ix) (vari.row ix)) (fun _ => none) := by
    have := mkOut_row vari yo (fun ix => chRowF fl (yi.row (rowIdx yi.nx ix)) (yo.row (rowIdx yo.nx ix)) (cubicWF fl (vari.row ix) (vari.row (rowIdx vari.nx ix)))) ix hx0 (by omega)
    have this' : (cubic1dF fl vari yi yo).get ix = chRowF fl (yi.row (rowIdx yi.nx ix)) (yo.row (rowIdx yo.nx ix)) (cubicWF fl (vari.row ix) (vari.row (rowIdx vari.nx ix))) (fun _ => none) := this
    rwa [hrow, rowIdx_eq _ _ hi, rowIdx_eq _ _ ho] at this'
  have e2 : (cubic1d vari yi yo).get ix = chRow (yi.row (ix % yi.nx)) (yo.row (ix % yo.nx)) (cubicW (vari.row ix) (vari.row ix)) (fun _ => none) := by
    have := mkOut_row vari yo (cubicBody vari yi yo) ix hx0 (by omega)
    simp only [cubicBody, hrow, rowIdx_eq _ _ hi, rowIdx_eq _ _ ho] at this
    exact this
  rw [e1, e2, chRowF_eq h]
  have key := chOuter_rel (fun _ v' v => NearV u (25 * M) 34 v' v) (yi.row (ix % yi.nx)) (yo.row (ix % yo.nx))
    (fun i d0 d1 => cubicWF fl (vari.row ix) (vari.row ix) (getIminmax (yi.row (ix % yi.nx))).1 (getIminmax (yi.row (ix % yi.nx))).2 i (V.rd fl d0) (V.rd fl d1))
    (cubicW (vari.row ix) (vari.row ix) (getIminmax (yi.row (ix % yi.nx))).1 (getIminmax (yi.row (ix % yi.nx))).2) (getIminmax (yo.row (ix % yo.nx))).2
    (pyRange (getIminmax (yi.row (ix % yi.nx))).1 (getIminmax (yi.row (ix % yi.nx))).2) (by
      intro i hir k h0 h1
      obtain ⟨r0, r1, r2, r3⟩ := range_in _ hir
      obtain ⟨a, b, c, _, _, _, hac, hcb, _, q0, q1⟩ := cell_of _ _ hir k h0 h1
      rw [q0, q1]
      exact cubicW_near h hu hM (v := vari.row ix) (n := yi.ny) hb r2 r0 r1 r3 _ _ (by linarith) (by linarith))
    (getIminmax (yo.row (ix % yo.nx))).1 (fun _ => none) (fun _ => none) (fun _ => Or.inl ⟨rfl, rfl⟩) j
  rcases NearV.get key with g | ⟨r, r', g1, g2, g3⟩
  · exact Or.inl g
  · exact Or.inr ⟨r, r', g1, g2, by linarith⟩

/-- **C204** (Hermite interpolation): the same for `hermit1d`, within `1334 (1+|bias|) (1+|tension|) u M`. -/
theorem C204_hermit (h : Rounds fl u) (hu : u ≤ 1 / 1048576) (vari yi yo : Mat) (bias tension : ℚ) (ix j : Int) (hx0 : 0 ≤ ix) (hx : ix < vari.nx) (hi : 0 < yi.nx)
    (ho : 0 < yo.nx) (M : ℚ) (hM : 0 ≤ M) (hb : ∀ m : Int, 0 ≤ m → m < yi.ny → ∀ q, vari.get ix m = some q → |q| ≤ M) :
    ((hermit1dF fl vari yi yo bias tension).get ix j = none ∧ (hermit1d vari yi yo bias tension).get ix j = none) ∨
    ∃ r r' : ℚ, (hermit1dF fl vari yi yo bias tension).get ix j = some r' ∧ (hermit1d vari yi yo bias tension).get ix j = some r ∧
      |r' - r| ≤ 1334 * ((1 + |bias|) * (1 + |tension|)) * u * M := by
  have hv : 0 < vari.nx := by omega
  have hrow : rowIdx vari.nx ix = ix := rowIdx_self _ _ hx0 hx
  have e1 : (hermit1dF fl vari yi yo bias tension).get ix =
      chRowF fl (yi.row (ix % yi.nx)) (yo.row (ix % yo.nx)) (hermitWF fl bias tension (vari.row ix) (vari.row ix)) (fun _ => none) := by
    have := mkOut_row vari yo (fun ix => chRowF fl (yi.row (rowIdx yi.nx ix)) (yo.row (rowIdx yo.nx ix)) (hermitWF fl bias tension (vari.row ix) (vari.row (rowIdx vari.nx ix))))
      ix hx0 (by omega)
    have this' : (hermit1dF fl vari yi yo bias tension).get ix =
      chRowF fl (yi.row (rowIdx yi.nx ix)) (yo.row (rowIdx yo.nx ix)) (hermitWF fl bias tension (vari.row ix) (vari.row (rowIdx vari.nx ix))) (fun _ => none) := this
    rwa [hrow, rowIdx_eq _ _ hi, rowIdx_eq _ _ ho] at this'
  have e2 : (hermit1d vari yi yo bias tension).get ix = chRow (yi.row (ix % yi.nx)) (yo.row (ix % yo.nx)) (hermitW bias tension (vari.row ix) (vari.row ix)) (fun _ => none) := by
    have := mkOut_row vari yo (hermitBody bias tension vari yi yo) ix hx0 (by omega)
    simp only [hermitBody, hrow, rowIdx_eq _ _ hi, rowIdx_eq _ _ ho] at this
    exact this
  rw [e1, e2, chRowF_eq h]
  have key := chOuter_rel (fun _ v' v => NearV u (29 * ((1 + |bias|) * (1 + |tension|)) * M) 46 v' v) (yi.row (ix % yi.nx)) (yo.row (ix % yo.nx))
    (fun i d0 d1 => hermitWF fl bias tension (vari.row ix) (vari.row ix) (getIminmax (yi.row (ix % yi.nx))).1 (getIminmax (yi.row (ix % yi.nx))).2 i (V.rd fl d0) (V.rd fl d1))
    (hermitW bias tension (vari.row ix) (vari.row ix) (getIminmax (yi.row (ix % yi.nx))).1 (getIminmax (yi.row (ix % yi.nx))).2) (getIminmax (yo.row (ix % yo.nx))).2
    (pyRange (getIminmax (yi.row (ix % yi.nx))).1 (getIminmax (yi.row (ix % yi.nx))).2) (by
      intro i hir k h0 h1
      obtain ⟨r0, r1, r2, r3⟩ := range_in _ hir
      obtain ⟨a, b, c, _, _, _, hac, hcb, _, q0, q1⟩ := cell_of _ _ hir k h0 h1
      rw [q0, q1]
      exact hermitW_near h hu bias tension hM (v := vari.row ix) (n := yi.ny) hb r2 r0 r1 r3 _ _ (by linarith) (by linarith))
    (getIminmax (yo.row (ix % yo.nx))).1 (fun _ => none) (fun _ => none) (fun _ => Or.inl ⟨rfl, rfl⟩) j
  rcases NearV.get key with g | ⟨r, r', g1, g2, g3⟩
  · exact Or.inl g
  · exact Or.inr ⟨r, r', g1, g2, by linarith⟩

/-- **C204** applies to the types `float64` and `float32`. -/
theorem C204_float64 : Rounds (rne 53) (1 / 2 ^ 53) ∧ (1 : ℚ) / 2 ^ 53 ≤ 1 / 1048576 ∧ Rounds (rne 24) (1 / 2 ^ 24) ∧ (1 : ℚ) / 2 ^ 24 ≤ 1 / 1048576 :=
  ⟨rne_rounds 53 (by norm_num), by norm_num, rne_rounds 24 (by norm_num), by norm_num⟩

end

/-- exact arithmetic is the case `u = 0`: the rounded functions without rounding are the functions of `Verif/Interp1d.lean` -/
theorem rounds_id : Rounds (fun x => x) 0 := ⟨le_refl 0, by norm_num, by simp⟩

theorem linear1dF_id (vari yi yo : Mat) (ix j : Int) (hx0 : 0 ≤ ix) (hx : ix < max vari.nx yo.nx) (hv : 0 < vari.nx) (hi : 0 < yi.nx) (ho : 0 < yo.nx) :
    (linear1dF (fun x => x) vari yi yo).get ix j = (linear1d vari yi yo).get ix j := by
  rcases C204_linear rounds_id (by norm_num) vari yi yo ix j hx0 hx hv hi ho with ⟨h1, h2⟩ | ⟨i, c, x, y, r, r', _, _, _, _, h1, h2, h3⟩
  · rw [h1, h2]
  · rw [h1, h2]
    simp only [mul_zero, zero_mul, abs_nonpos_iff, sub_eq_zero] at h3
    rw [h3]

/-! ## C205: what is exact in exact arithmetic -/

section
variable {fl : ℚ → ℚ} {u : ℚ}

/-- **C205** (constants): a constant is kept by `linear1d` up to `6 u` times its size. -/
theorem C205_constant_partial (h : Rounds fl u) (hu : u ≤ 1 / 64) (vari yi yo : Mat) (ix j : Int) (hx0 : 0 ≤ ix) (hx : ix < max vari.nx yo.nx) (hj0 : 0 ≤ j)
    (hv : 0 < vari.nx) (hi : 0 < yi.nx) (ho : 0 < yo.nx) (β : ℚ) (hval : ∀ (m : Int) q, 0 ≤ m → m < yi.ny → vari.get (ix % vari.nx) m = some q → q = β)
    (r' : ℚ) (hr : (linear1dF fl vari yi yo).get ix j = some r') : |r' - β| ≤ 6 * u * |β| := by
  rcases C204_linear h hu vari yi yo ix j hx0 hx hv hi ho with ⟨h1, _⟩ | ⟨i, c, x, y, r, r'', hc, hbr, hxx, hyy, h1, h2, h3⟩
  · rw [h1] at hr; cases hr
  · rw [h1] at hr; cases hr
    obtain ⟨b0, b1, _⟩ := hbr
    have ex := hval i x b0 (by have : i + 1 < (yi.ny : Int) := b1; omega) hxx
    have ey := hval (i + 1) y (by omega) b1 hyy
    have er := C02_linear1d_affine vari yi yo ix j hx0 hx hj0 hv hi ho 0 β c r
      (fun m _ q m0 m1 _ hq => by rw [hval m q m0 m1 hq]; ring) hc h2
    rw [ex, ey, max_self, er, zero_mul, zero_add] at h3
    exact h3

/-- **C205** (nodes): at a node of the input coordinate, away from missing data, `linear1d` gives the datum up to `6 u` times the size `M` of the data. -/
theorem C205_node_partial (h : Rounds fl u) (hu : u ≤ 1 / 64) (vari yi yo : Mat) (ix j : Int) (hx0 : 0 ≤ ix) (hx : ix < max vari.nx yo.nx) (hj0 : 0 ≤ j) (hj : j < yo.ny)
    (hv : 0 < vari.nx) (hi : 0 < yi.nx) (ho : 0 < yo.nx) (ascI : AscRow (yi.row (ix % yi.nx))) (ascO : AscRow (yo.row (ix % yo.nx)))
    (i : Int) (a b x y M : ℚ) (hi0 : 0 ≤ i) (hi1 : i + 1 < yi.ny) (ha : yi.get (ix % yi.nx) i = some a) (hb : yi.get (ix % yi.nx) (i + 1) = some b) (hab : a < b)
    (hx' : vari.get (ix % vari.nx) i = some x) (hy : vari.get (ix % vari.nx) (i + 1) = some y) (hc : yo.get (ix % yo.nx) j = some a)
    (hM : ∀ (m : Int) q, 0 ≤ m → m < yi.ny → vari.get (ix % vari.nx) m = some q → |q| ≤ M) :
    ∃ r', (linear1dF fl vari yi yo).get ix j = some r' ∧ |r' - x| ≤ 6 * u * M := by
  have hn := (C02_linear1d_node vari yi yo ix j hx0 hx hj0 hj hv hi ho ascI ascO i a b a x y hi0 hi1 ha hb hab hx' hy hc).1 rfl
  rcases C204_linear h hu vari yi yo ix j hx0 hx hv hi ho with ⟨_, h2⟩ | ⟨k, c, p, q, r, r', _, hbr, hp, hq, h1, h2, h3⟩
  · rw [hn] at h2; cases h2
  · rw [hn] at h2; cases h2
    obtain ⟨b0, b1, _⟩ := hbr
    have b1 : k + 1 < (yi.ny : Int) := b1
    refine ⟨r', h1, h3.trans ?_⟩
    exact mul_le_mul_of_nonneg_left (max_le (hM k p b0 (by omega) hp) (hM (k + 1) q (by omega) b1 hq)) (by linarith [h.nonneg])

/-- **C205** (bounds): no value of `linear1d` is outside the range of the two data that enclose the point by more than `6 u` times their size. -/
theorem C205_between_partial (h : Rounds fl u) (hu : u ≤ 1 / 64) (vari yi yo : Mat) (ix j : Int) (hx0 : 0 ≤ ix) (hx : ix < max vari.nx yo.nx) (hj0 : 0 ≤ j)
    (hv : 0 < vari.nx) (hi : 0 < yi.nx) (ho : 0 < yo.nx) (lo hi' M : ℚ)
    (hM : ∀ (m : Int) q, 0 ≤ m → m < yi.ny → vari.get (ix % vari.nx) m = some q → lo ≤ q ∧ q ≤ hi' ∧ |q| ≤ M)
    (r' : ℚ) (hr : (linear1dF fl vari yi yo).get ix j = some r') : lo - 6 * u * M ≤ r' ∧ r' ≤ hi' + 6 * u * M := by
  rcases C204_linear h hu vari yi yo ix j hx0 hx hv hi ho with ⟨h1, _⟩ | ⟨k, c, p, q, r, r'', _, hbr, hp, hq, h1, h2, h3⟩
  · rw [h1] at hr; cases hr
  · rw [h1] at hr; cases hr
    obtain ⟨k', c', x, y, _, ⟨b0', b1', _⟩, hx1, hy1, l1, l2⟩ := C02_linear1d_between vari yi yo ix j hx0 hx hj0 hv hi ho r h2
    obtain ⟨b0, b1, _⟩ := hbr
    have b1 : k + 1 < (yi.ny : Int) := b1
    have b1' : k' + 1 < (yi.ny : Int) := b1'
    have hp' := hM k p b0 (by omega) hp
    have hq' := hM (k + 1) q (by omega) b1 hq
    have hx2 := hM k' x b0' (by omega) hx1
    have hy2 := hM (k' + 1) y (by omega) b1' hy1
    have e : 6 * u * max |p| |q| ≤ 6 * u * M := mul_le_mul_of_nonneg_left (max_le hp'.2.2 hq'.2.2) (by linarith [h.nonneg])
    have m1 : lo ≤ min x y := le_min hx2.1 hy2.1
    have m2 : max x y ≤ hi' := max_le hx2.2.1 hy2.2.1
    have := abs_le.1 h3
    constructor <;> linarith [this.1, this.2]

end

/-- the `float64` number written `0.1` -/
def tenth64 : ℚ := 3602879701896397 / 36028797018963968

/-- **C205 is violated**: in the type `float64`, the data are 0.1 everywhere and the coordinates are 0 and 3; the interpolation at 0, a node, is not 0.1, but a value
larger than all the data. -/
theorem C205_exact_violated :
    fl64 (1 / 10) = tenth64 ∧ fl64 tenth64 = tenth64 ∧
    (linear1d (Mat.ofLists [[some tenth64, some tenth64]]) (Mat.ofLists [[some 0, some 3]]) (Mat.ofLists [[some 0]])).get 0 0 = some tenth64 ∧
    ∃ r, (linear1dF fl64 (Mat.ofLists [[some tenth64, some tenth64]]) (Mat.ofLists [[some 0, some 3]]) (Mat.ofLists [[some 0]])).get 0 0 = some r ∧ tenth64 < r :=
  ⟨by decide +kernel, by decide +kernel, by decide +kernel, 7205759403792795 / 72057594037927936, by decide +kernel, by decide +kernel⟩

-- the exception of `C204_nearest`: the middle of a cell up to the rounding errors
example : (nearest1d (Mat.ofLists [[some 1, some 2]]) (Mat.ofLists [[some (-1 / 2 ^ 60), some 1]]) (Mat.ofLists [[some (1 / 2)]])).get 0 0 = some 2 ∧
    (nearest1dF fl64 (Mat.ofLists [[some 1, some 2]]) (Mat.ofLists [[some (-1 / 2 ^ 60), some 1]]) (Mat.ofLists [[some (1 / 2)]])).get 0 0 = some 1 := by decide +kernel

-- cubic and Hermite interpolations with rounding
example : ((cubic1dF fl64 (Mat.ofLists [[some tenth64, some 2, some 5]]) (Mat.ofLists [[some 0, some 1, some 3]]) (Mat.ofLists [[some tenth64, some 4]])).get 0 0).isSome = true ∧
    (cubic1dF fl64 (Mat.ofLists [[some tenth64, some 2, some 5]]) (Mat.ofLists [[some 0, some 1, some 3]]) (Mat.ofLists [[some tenth64, some 4]])).get 0 1 = none ∧
    ((hermit1dF fl64 (Mat.ofLists [[some tenth64, some 2, some 5]]) (Mat.ofLists [[some 0, some 1, some 3]]) (Mat.ofLists [[some tenth64, some 4]]) 0 0).get 0 0).isSome = true := by
  decide +kernel

end Xoa
