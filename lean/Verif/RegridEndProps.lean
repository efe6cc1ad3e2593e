import Verif.RegridProps

/-! # `regrid1d` from one end to the other: named arrays in, named arrays out (C143) -/

namespace Xoa

/-- the named position `pos` moved to the index `k` along the dimension `d` -/
def moved (pos : String → Nat) (d : String) (k : Nat) : String → Nat := fun x => if x = d then k else pos x

/-- along the dimension `d`, through the position `pos`, the coordinate has no missing value and increases strictly -/
structure Increasing (c : LArr V) (d : String) (pos : String → Nat) : Prop where
  full : ∀ k, k < c.size d → ∃ q, c.at (moved pos d k) = some q
  asc : ∀ k k' a b, k < k' → k' < c.size d → c.at (moved pos d k) = some a → c.at (moved pos d k') = some b → a < b

theorem Increasing.strict {c : LArr V} {d : String} {pos : String → Nat} (h : Increasing c d pos) : StrictAsc ((oneRow (c.line d pos)).row 0) := by
  intro i j hi hij hj a b ha hb
  have hj' : j < (c.size d : Int) := hj
  exact h.asc i.toNat j.toNat a b (by omega) (by omega) ha hb

theorem Increasing.noGap {c : LArr V} {d : String} {pos : String → Nat} (h : Increasing c d pos) : NoGap ((oneRow (c.line d pos)).row 0) := by
  intro i j l hi hij hjl hl _ _ hn
  have hl' : l < (c.size d : Int) := hl
  obtain ⟨q, e⟩ := h.full j.toNat (by omega)
  have hn : c.at (moved pos d j.toNat) = none := hn
  rw [hn] at e
  cases e

/-- a node of an increasing row of two points at least is in a cell -/
theorem Increasing.brackets {c : LArr V} {d : String} {pos : String → Nat} (h : Increasing c d pos) (h2 : 2 ≤ c.size d) (n : Nat) (hn : n < c.size d) (q : ℚ)
    (hq : c.at (moved pos d n) = some q) : ∃ i, Brackets ((oneRow (c.line d pos)).row 0) i q := by
  by_cases hl : n + 1 < c.size d
  · obtain ⟨q', e⟩ := h.full (n + 1) hl
    refine ⟨n, by omega, ?_, q, q', ?_, ?_, le_refl _, le_of_lt (h.asc n (n + 1) q q' (by omega) hl hq e)⟩
    · show (n : Int) + 1 < (c.size d : Int); omega
    · exact hq
    · exact e
  · obtain ⟨q', e⟩ := h.full (n - 1) (by omega)
    refine ⟨(n - 1 : Nat), by omega, ?_, q', q, e, ?_, le_of_lt (h.asc (n - 1) n q' q (by omega) hn e hq), le_refl _⟩
    · show ((n - 1 : Nat) : Int) + 1 < (c.size d : Int); omega
    · show c.at (moved pos d ((n - 1 : Nat) + 1 : Int).toNat) = some q
      rw [show (((n - 1 : Nat) : Int) + 1).toNat = n by omega]
      exact hq

/-- each interpolation routine gives back the data of a row at the points of its own coordinate -/
theorem kernel_identity (m : EArg) (K : Mat → Mat → Mat → Mat) (hK : Named m K) (da cin cout : LArr V) (dim0 dim1 : String) (pos : String → Nat)
    (hi : Increasing cin dim0 pos) (ho : Increasing cout dim1 pos) (h2 : 2 ≤ cin.size dim0)
    (n j : Nat) (hn : n < cin.size dim0) (hj : j < cout.size dim1) (heq : cout.at (moved pos dim1 j) = cin.at (moved pos dim0 n))
    (hd : ∀ k, k < cin.size dim0 → da.at (moved pos dim0 k) ≠ none) :
    (K (oneRow (da.line dim0 pos)) (oneRow (cin.line dim0 pos)) (oneRow (cout.line dim1 pos))).get 0 j = da.at (moved pos dim0 n) := by
  obtain ⟨c, hc⟩ := hi.full n hn
  have hco : cout.at (moved pos dim1 j) = some c := by rw [heq, hc]
  obtain ⟨x, hx⟩ := Option.ne_none_iff_exists'.mp (hd n hn)
  have hbr := hi.brackets h2 n hn c hc
  have hjI : (j : Int) < ((oneRow (cout.line dim1 pos)).ny : Int) := by
    show (j : Int) < (cout.size dim1 : Int); omega
  have hlin : (linear1d (oneRow (da.line dim0 pos)) (oneRow (cin.line dim0 pos)) (oneRow (cout.line dim1 pos))).get 0 j = da.at (moved pos dim0 n) := by
    by_cases hl : n + 1 < cin.size dim0
    · obtain ⟨b, hb⟩ := hi.full (n + 1) hl
      obtain ⟨y, hy⟩ := Option.ne_none_iff_exists'.mp (hd (n + 1) hl)
      rw [hx]
      exact (C02_linear1d_node _ (oneRow (cin.line dim0 pos)) (oneRow (cout.line dim1 pos)) 0 j (by decide) (by show (0 : Int) < max (1 : Int) 1; decide) (by omega) hjI
        (by show 0 < 1; decide) (by show 0 < 1; decide) (by show 0 < 1; decide) hi.strict.asc ho.strict.asc n c b c x y (by omega)
        (by show (n : Int) + 1 < (cin.size dim0 : Int); omega) hc hb (hi.asc n (n + 1) c b (by omega) hl hc hb) hx hy hco).1 rfl
    · obtain ⟨a, ha⟩ := hi.full (n - 1) (by omega)
      obtain ⟨y, hy⟩ := Option.ne_none_iff_exists'.mp (hd (n - 1) (by omega))
      have e1 : (((n - 1 : Nat) : Int) + 1).toNat = n := by omega
      rw [hx]
      refine (C02_linear1d_node _ (oneRow (cin.line dim0 pos)) (oneRow (cout.line dim1 pos)) 0 j (by decide) (by show (0 : Int) < max (1 : Int) 1; decide) (by omega) hjI
        (by show 0 < 1; decide) (by show 0 < 1; decide) (by show 0 < 1; decide) hi.strict.asc ho.strict.asc ((n - 1 : Nat) : Int) a c c y x (by omega)
        (by show ((n - 1 : Nat) : Int) + 1 < (cin.size dim0 : Int); omega) ha ?_ (hi.asc (n - 1) n a c (by omega) hn ha hc) hy ?_ hco).2 rfl ?_
      · show cin.at (moved pos dim0 (((n - 1 : Nat) : Int) + 1).toNat) = some c
        rw [e1]; exact hc
      · show da.at (moved pos dim0 (((n - 1 : Nat) : Int) + 1).toNat) = some x
        rw [e1]; exact hx
      · intro k h1 h3
        have h3' : k < (cin.size dim0 : Int) := h3
        omega
  have hval : ∀ m : Int, 0 ≤ m → m < ((oneRow (cin.line dim0 pos)).ny : Int) → (n : Int) - 2 ≤ m → m ≤ n + 2 → (oneRow (da.line dim0 pos)).get 0 m ≠ none := by
    intro m h0 h1 _ _
    have h1' : m < (cin.size dim0 : Int) := h1
    exact hd m.toNat (by omega)
  have hnI : (n : Int) < ((oneRow (cin.line dim0 pos)).ny : Int) := by
    show (n : Int) < (cin.size dim0 : Int); omega
  have hcub : (cubic1d (oneRow (da.line dim0 pos)) (oneRow (cin.line dim0 pos)) (oneRow (cout.line dim1 pos))).get 0 j = da.at (moved pos dim0 n) :=
    C05_cubic1d_node _ _ _ 0 j (by decide) (by show (0 : Int) < 1; decide) (by omega) hjI (by show 0 < 1; decide) (by show 0 < 1; decide) hi.strict ho.strict.asc n (by omega) hnI c hco hc hbr hval
  have hher : (hermit1d (oneRow (da.line dim0 pos)) (oneRow (cin.line dim0 pos)) (oneRow (cout.line dim1 pos)) 0 0).get 0 j = da.at (moved pos dim0 n) :=
    C05_hermit1d_node _ _ _ 0 0 0 j (by decide) (by show (0 : Int) < 1; decide) (by omega) hjI (by show 0 < 1; decide) (by show 0 < 1; decide) hi.strict ho.strict.asc n (by omega) hnI c hco hc hbr hval
  have hnea : (nearest1d (oneRow (da.line dim0 pos)) (oneRow (cin.line dim0 pos)) (oneRow (cout.line dim1 pos))).get 0 j = da.at (moved pos dim0 n) := by
    obtain ⟨m, d, m0, m1, hm, e, hmin⟩ := (C03_nearest1d (oneRow (da.line dim0 pos)) (oneRow (cin.line dim0 pos)) (oneRow (cout.line dim1 pos)) 0 j (by decide)
      (by show (0 : Int) < max (1 : Int) 1; decide) (by omega) hjI (by show 0 < 1; decide) (by show 0 < 1; decide) (by show 0 < 1; decide) hi.strict.asc ho.strict.asc
      hi.noGap ho.noGap c hco).2 hbr
    have := hmin n c (by omega) hnI hc
    rw [sub_self, abs_zero] at this
    have hcd : c = d := by
      have := abs_nonpos_iff.mp this
      linarith
    have hmn : m.toNat = n := by
      have m1' : m < (cin.size dim0 : Int) := m1
      have hm' : cin.at (moved pos dim0 m.toNat) = some d := hm
      rcases Nat.lt_trichotomy m.toNat n with hlt | heq | hgt
      · exact absurd (hi.asc _ _ _ _ hlt hn hm' hc) (by rw [hcd]; exact lt_irrefl _)
      · exact heq
      · exact absurd (hi.asc _ _ _ _ hgt (by omega) hc hm') (by rw [hcd]; exact lt_irrefl _)
    rw [e]
    show da.at (moved pos dim0 m.toNat) = _
    rw [hmn]
  cases hK <;> assumption

/-- **C143 (identity).** With each method but cell averaging, regridding gives back the data at every point of the output coordinate that is a point of the input coordinate: if along the row
through a position the coordinates increase and have at least two points, and no data are missing, the value at an output point equal to the input point number `n` is the datum number `n`.
In particular regridding to the same coordinate changes nothing. -/
theorem C143_identity_partial (o : RegridOpts) (K : Mat → Mat → Mat → Mat) (hK : Named o.method K) (he : ExtrapKnown o.extrap) (da cin cout : LArr V) (dim0 dim1 : String)
    (h : FlushIn da cin cout dim0 dim1) (hc : Compat da cout dim0 dim1) (hp : PairOk da cin cout dim0 dim1)
    (pos : String → Nat) (hpos : ∀ d ∈ outDims da cout dim0 dim1, pos d < outSize da cout dim1 d)
    (hi : Increasing cin dim0 pos) (ho : Increasing cout dim1 pos) (h2 : 2 ≤ cin.size dim0) (hd : ∀ k, k < cin.size dim0 → da.at (moved pos dim0 k) ≠ none)
    (n : Nat) (hn : n < cin.size dim0) (heq : cout.at (moved pos dim1 (pos dim1)) = cin.at (moved pos dim0 n)) :
    ∃ out, regrid1d o da cin cout dim0 dim1 = .ok out ∧ out.at pos = da.at (moved pos dim0 n) := by
  obtain ⟨out, e, hdims, hsz, hat⟩ := C19_regrid1d_partial o K hK he da cin cout dim0 dim1 h hc hp pos hpos
  have hposo : ∀ d ∈ out.dims, pos d < out.size d := by
    intro d hd
    rw [hsz d hd]
    exact hpos d (hdims ▸ hd)
  have hj : pos dim1 < cout.size dim1 := by
    have := hpos dim1 (by unfold outDims; exact List.mem_append_right _ (List.mem_map.mpr ⟨dim0, h.d0, by simp⟩))
    unfold outSize at this
    simpa using this
  refine ⟨out, e, ?_⟩
  rw [hat pos hposo]
  exact kernel_identity o.method K hK da cin cout dim0 dim1 pos hi ho h2 n (pos dim1) hn hj heq hd

/-- the result of `regrid1d` at a position is that of the routine on the rows through this position -/
theorem regrid1d_at (o : RegridOpts) (K : Mat → Mat → Mat → Mat) (hK : Named o.method K) (he : ExtrapKnown o.extrap) (da cin cout : LArr V) (dim0 dim1 : String)
    (h : FlushIn da cin cout dim0 dim1) (hc : Compat da cout dim0 dim1) (hp : PairOk da cin cout dim0 dim1)
    (pos : String → Nat) (hpos : ∀ d ∈ outDims da cout dim0 dim1, pos d < outSize da cout dim1 d) :
    pos dim1 < cout.size dim1 ∧ ∃ out, regrid1d o da cin cout dim0 dim1 = .ok out ∧
      out.at pos = (K (oneRow (da.line dim0 pos)) (oneRow (cin.line dim0 pos)) (oneRow (cout.line dim1 pos))).get 0 (pos dim1 : Nat) := by
  obtain ⟨out, e, hdims, hsz, hat⟩ := C19_regrid1d_partial o K hK he da cin cout dim0 dim1 h hc hp pos hpos
  refine ⟨?_, out, e, hat pos ?_⟩
  · have := hpos dim1 (by unfold outDims; exact List.mem_append_right _ (List.mem_map.mpr ⟨dim0, h.d0, by simp⟩))
    unfold outSize at this
    simpa using this
  · intro d hd
    rw [hsz d hd]
    exact hpos d (hdims ▸ hd)

/-- a value in the range of an increasing row is in a last cell -/
theorem Increasing.lastBracket {c : LArr V} {d : String} {pos : String → Nat} (h : Increasing c d pos) (k : Nat) (hk : k + 1 < c.size d) (q lo hi : ℚ)
    (hlo : c.at (moved pos d 0) = some lo) (hhi : c.at (moved pos d (k + 1)) = some hi) (h1 : lo ≤ q) (h2 : q ≤ hi)
    (hlast : ∀ j, k < j → j + 1 < c.size d → ¬ Brackets ((oneRow (c.line d pos)).row 0) j q) : ∃ i : Nat, i ≤ k ∧ LastBracket ((oneRow (c.line d pos)).row 0) i q := by
  induction k generalizing hi with
  | zero =>
    refine ⟨0, le_refl _, ⟨by decide, ?_, lo, hi, hlo, hhi, h1, h2⟩, ?_⟩
    · show ((0 : Nat) : Int) + 1 < (c.size d : Int); omega
    · intro j hj hb
      have hb2 : j + 1 < (c.size d : Int) := hb.2.1
      have e : j = (j.toNat : Int) := by omega
      rw [e] at hb
      exact hlast j.toNat (by omega) (by omega) hb
  | succ k ih =>
    obtain ⟨a, ha⟩ := h.full (k + 1) (by omega)
    by_cases hq : a ≤ q
    · refine ⟨k + 1, le_refl _, ⟨by omega, ?_, a, hi, ha, hhi, hq, h2⟩, ?_⟩
      · show ((k + 1 : Nat) : Int) + 1 < (c.size d : Int); omega
      · intro j hj hb
        have hb2 : j + 1 < (c.size d : Int) := hb.2.1
        have e : j = (j.toNat : Int) := by omega
        rw [e] at hb
        exact hlast j.toNat (by omega) (by omega) hb
    · obtain ⟨i, hi1, hi2⟩ := ih (by omega) a ha (le_of_lt (not_le.mp hq)) (by
        intro j hj hj2 hb
        obtain ⟨-, -, a', b', ha', -, hq1, -⟩ := hb
        have ha'' : c.at (moved pos d j) = some a' := ha'
        rcases Nat.lt_or_ge (k + 1) j with hlt | hge
        · have := h.asc (k + 1) j a a' hlt (by omega) ha ha''
          exact hq (le_of_lt (lt_of_lt_of_le this hq1))
        · have : j = k + 1 := by omega
          subst this
          rw [ha] at ha''
          injection ha'' with ha''
          exact hq (by rw [ha'']; exact hq1))
      exact ⟨i, by omega, hi2⟩

/-- **C143 (affine data).** With the linear method, data that are an affine function of the coordinate along each row (the slope and the origin can differ from one row to another) are
reproduced exactly at every output point in the range of the input coordinate. -/
theorem C143_affine_partial (o : RegridOpts) (hK : Named o.method linear1d) (he : ExtrapKnown o.extrap) (da cin cout : LArr V) (dim0 dim1 : String)
    (h : FlushIn da cin cout dim0 dim1) (hc : Compat da cout dim0 dim1) (hp : PairOk da cin cout dim0 dim1)
    (pos : String → Nat) (hpos : ∀ d ∈ outDims da cout dim0 dim1, pos d < outSize da cout dim1 d)
    (hi : Increasing cin dim0 pos) (ho : Increasing cout dim1 pos) (h2 : 2 ≤ cin.size dim0) (α β : ℚ)
    (hd : ∀ k q, k < cin.size dim0 → cin.at (moved pos dim0 k) = some q → da.at (moved pos dim0 k) = some (α * q + β))
    (c lo hi' : ℚ) (hcv : cout.at (moved pos dim1 (pos dim1)) = some c) (hlo : cin.at (moved pos dim0 0) = some lo)
    (hhi : cin.at (moved pos dim0 (cin.size dim0 - 1)) = some hi') (h1 : lo ≤ c) (h3 : c ≤ hi') :
    ∃ out, regrid1d o da cin cout dim0 dim1 = .ok out ∧ out.at pos = some (α * c + β) := by
  obtain ⟨hj, out, e, hat⟩ := regrid1d_at o linear1d hK he da cin cout dim0 dim1 h hc hp pos hpos
  refine ⟨out, e, ?_⟩
  rw [hat]
  have hjI : ((pos dim1 : Nat) : Int) < ((oneRow (cout.line dim1 pos)).ny : Int) := by
    show ((pos dim1 : Nat) : Int) < (cout.size dim1 : Int); omega
  obtain ⟨i, hi1, hi2⟩ := hi.lastBracket (cin.size dim0 - 2) (by omega) c lo hi' hlo (by rw [show cin.size dim0 - 2 + 1 = cin.size dim0 - 1 by omega]; exact hhi) h1 h3
    (fun j hj1 hj2 => by omega)
  obtain ⟨a, ha⟩ := hi.full i (by omega)
  obtain ⟨b, hb⟩ := hi.full (i + 1) (by omega)
  have hval := ((C02_linear1d_interpolates (oneRow (da.line dim0 pos)) (oneRow (cin.line dim0 pos)) (oneRow (cout.line dim1 pos)) 0 (pos dim1 : Nat) (by decide)
    (by show (0 : Int) < max (1 : Int) 1; decide) (by omega) hjI (by show 0 < 1; decide) (by show 0 < 1; decide) (by show 0 < 1; decide) hi.strict.asc ho.strict.asc).2 c hcv).2
    i a b hi2 ha hb
  have hva : (oneRow (da.line dim0 pos)).get ((0 : Int) % ((oneRow (da.line dim0 pos)).nx : Int)) (i : Int) = some (α * a + β) := hd i a (by omega) ha
  have hvb : (oneRow (da.line dim0 pos)).get ((0 : Int) % ((oneRow (da.line dim0 pos)).nx : Int)) ((i : Int) + 1) = some (α * b + β) := hd (i + 1) b (by omega) hb
  rw [hval, hva, hvb]
  have hab : a < b := hi.asc i (i + 1) a b (by omega) (by omega) ha hb
  unfold lineThrough
  simp only
  rw [if_neg (ne_of_lt hab)]
  congr 1
  have : b - a ≠ 0 := sub_ne_zero.mpr (ne_of_gt hab)
  field_simp
  ring

/-- **C143 (no overshoot).** With the linear method, a value of the result lies between two neighbouring data of the same row, whether the coordinates are sorted or not. -/
theorem C143_between_partial (o : RegridOpts) (hK : Named o.method linear1d) (he : ExtrapKnown o.extrap) (da cin cout : LArr V) (dim0 dim1 : String)
    (h : FlushIn da cin cout dim0 dim1) (hc : Compat da cout dim0 dim1) (hp : PairOk da cin cout dim0 dim1)
    (pos : String → Nat) (hpos : ∀ d ∈ outDims da cout dim0 dim1, pos d < outSize da cout dim1 d) :
    ∃ out, regrid1d o da cin cout dim0 dim1 = .ok out ∧
      ∀ q, out.at pos = some q → ∃ k x y, k + 1 < cin.size dim0 ∧ da.at (moved pos dim0 k) = some x ∧ da.at (moved pos dim0 (k + 1)) = some y ∧ min x y ≤ q ∧ q ≤ max x y := by
  obtain ⟨hj, out, e, hat⟩ := regrid1d_at o linear1d hK he da cin cout dim0 dim1 h hc hp pos hpos
  refine ⟨out, e, ?_⟩
  rw [hat]
  intro q hq
  obtain ⟨i, c, x, y, -, hb, hx, hy, h1, h2⟩ := C02_linear1d_between (oneRow (da.line dim0 pos)) (oneRow (cin.line dim0 pos)) (oneRow (cout.line dim1 pos)) 0 (pos dim1 : Nat) (by decide)
    (by show (0 : Int) < max (1 : Int) 1; decide) (by omega) (by show 0 < 1; decide) (by show 0 < 1; decide) (by show 0 < 1; decide) q hq
  have hb1 := hb.1
  have hb2 : i + 1 < (cin.size dim0 : Int) := hb.2.1
  refine ⟨i.toNat, x, y, by omega, hx, ?_, h1, h2⟩
  have hy' : da.at (moved pos dim0 (i + 1).toNat) = some y := hy
  rw [show i.toNat + 1 = (i + 1).toNat by omega]
  exact hy'

/-- **C143 (nearest).** With the nearest method each value of the result at an output point in the range of the coordinate is a datum of the same row, whose coordinate is at
minimal distance. -/
theorem C143_nearest_partial (o : RegridOpts) (hK : Named o.method nearest1d) (he : ExtrapKnown o.extrap) (da cin cout : LArr V) (dim0 dim1 : String)
    (h : FlushIn da cin cout dim0 dim1) (hc : Compat da cout dim0 dim1) (hp : PairOk da cin cout dim0 dim1)
    (pos : String → Nat) (hpos : ∀ d ∈ outDims da cout dim0 dim1, pos d < outSize da cout dim1 d)
    (hi : Increasing cin dim0 pos) (ho : Increasing cout dim1 pos) (h2 : 2 ≤ cin.size dim0)
    (c lo hi' : ℚ) (hcv : cout.at (moved pos dim1 (pos dim1)) = some c) (hlo : cin.at (moved pos dim0 0) = some lo)
    (hhi : cin.at (moved pos dim0 (cin.size dim0 - 1)) = some hi') (h1 : lo ≤ c) (h3 : c ≤ hi') :
    ∃ out, regrid1d o da cin cout dim0 dim1 = .ok out ∧ ∃ n d, n < cin.size dim0 ∧ cin.at (moved pos dim0 n) = some d ∧ out.at pos = da.at (moved pos dim0 n) ∧
      ∀ m e, m < cin.size dim0 → cin.at (moved pos dim0 m) = some e → |c - d| ≤ |c - e| := by
  obtain ⟨hj, out, e, hat⟩ := regrid1d_at o nearest1d hK he da cin cout dim0 dim1 h hc hp pos hpos
  refine ⟨out, e, ?_⟩
  rw [hat]
  have hjI : ((pos dim1 : Nat) : Int) < ((oneRow (cout.line dim1 pos)).ny : Int) := by
    show ((pos dim1 : Nat) : Int) < (cout.size dim1 : Int); omega
  obtain ⟨i, hi1, hi2⟩ := hi.lastBracket (cin.size dim0 - 2) (by omega) c lo hi' hlo (by rw [show cin.size dim0 - 2 + 1 = cin.size dim0 - 1 by omega]; exact hhi) h1 h3
    (fun j hj1 hj2 => by omega)
  obtain ⟨m, d, m0, m1, hm, e, hmin⟩ := (C03_nearest1d (oneRow (da.line dim0 pos)) (oneRow (cin.line dim0 pos)) (oneRow (cout.line dim1 pos)) 0 (pos dim1 : Nat) (by decide)
      (by show (0 : Int) < max (1 : Int) 1; decide) (by omega) hjI (by show 0 < 1; decide) (by show 0 < 1; decide) (by show 0 < 1; decide) hi.strict.asc ho.strict.asc
      hi.noGap ho.noGap c hcv).2 ⟨i, hi2.1⟩
  have m1' : m < (cin.size dim0 : Int) := m1
  refine ⟨m.toNat, d, by omega, hm, e, ?_⟩
  intro m' e' hm' he'
  exact hmin (m' : Int) e' (by omega) (by show (m' : Int) < (cin.size dim0 : Int); omega) he'

/-- **C143 (outside).** With each method but cell averaging, the result is missing at the output points out of the range of the input coordinate. -/
theorem C143_outside_partial (o : RegridOpts) (K : Mat → Mat → Mat → Mat) (hK : Named o.method K) (he : ExtrapKnown o.extrap) (da cin cout : LArr V) (dim0 dim1 : String)
    (h : FlushIn da cin cout dim0 dim1) (hc : Compat da cout dim0 dim1) (hp : PairOk da cin cout dim0 dim1)
    (pos : String → Nat) (hpos : ∀ d ∈ outDims da cout dim0 dim1, pos d < outSize da cout dim1 d)
    (hi : Increasing cin dim0 pos) (ho : Increasing cout dim1 pos) (c : ℚ) (hcv : cout.at (moved pos dim1 (pos dim1)) = some c)
    (hout : (∀ k q, k < cin.size dim0 → cin.at (moved pos dim0 k) = some q → c < q) ∨ (∀ k q, k < cin.size dim0 → cin.at (moved pos dim0 k) = some q → q < c)) :
    ∃ out, regrid1d o da cin cout dim0 dim1 = .ok out ∧ out.at pos = none := by
  obtain ⟨hj, out, e, hat⟩ := regrid1d_at o K hK he da cin cout dim0 dim1 h hc hp pos hpos
  refine ⟨out, e, ?_⟩
  rw [hat]
  have hjI : ((pos dim1 : Nat) : Int) < ((oneRow (cout.line dim1 pos)).ny : Int) := by
    show ((pos dim1 : Nat) : Int) < (cout.size dim1 : Int); omega
  have hno : ∀ i, ¬ Brackets ((oneRow (cin.line dim0 pos)).row 0) i c := by
    rintro i ⟨i0, i1, a, b, ha, hb, hac, hcb⟩
    have i1' : i + 1 < (cin.size dim0 : Int) := i1
    have ha' : cin.at (moved pos dim0 i.toNat) = some a := ha
    have hb' : cin.at (moved pos dim0 (i + 1).toNat) = some b := hb
    rcases hout with hh | hh
    · exact absurd (hh i.toNat a (by omega) ha') (not_lt.mpr hac)
    · exact absurd (hh (i + 1).toNat b (by omega) hb') (not_lt.mpr hcb)
  have hlin := ((C02_linear1d_interpolates (oneRow (da.line dim0 pos)) (oneRow (cin.line dim0 pos)) (oneRow (cout.line dim1 pos)) 0 (pos dim1 : Nat) (by decide)
    (by show (0 : Int) < max (1 : Int) 1; decide) (by omega) hjI (by show 0 < 1; decide) (by show 0 < 1; decide) (by show 0 < 1; decide) hi.strict.asc ho.strict.asc).2 c hcv).1 hno
  have hnea := (C03_nearest1d (oneRow (da.line dim0 pos)) (oneRow (cin.line dim0 pos)) (oneRow (cout.line dim1 pos)) 0 (pos dim1 : Nat) (by decide)
      (by show (0 : Int) < max (1 : Int) 1; decide) (by omega) hjI (by show 0 < 1; decide) (by show 0 < 1; decide) (by show 0 < 1; decide) hi.strict.asc ho.strict.asc
      hi.noGap ho.noGap c hcv).1 hno
  obtain ⟨hcub, hher⟩ := C05_outside_nan (oneRow (da.line dim0 pos)) (oneRow (cin.line dim0 pos)) (oneRow (cout.line dim1 pos)) 0 0 0 (pos dim1 : Nat) (by decide)
    (by show (0 : Int) < max (1 : Int) 1; decide) (by omega) (by show 0 < 1; decide) (by show 0 < 1; decide) c hcv hno
  generalize o.method = m at hK
  cases hK <;> assumption

/-- the row of depths (x = 0) through the second time increases -/
theorem exIncreasing_in : Increasing exCinX "z" (exPos 1 0 0) := by
  have e0 : exCinX.at (moved (exPos 1 0 0) "z" 0) = some 0 := by decide +kernel
  have e1 : exCinX.at (moved (exPos 1 0 0) "z" 1) = some 1 := by decide +kernel
  have hs : exCinX.size "z" = 2 := by decide +kernel
  refine ⟨?_, ?_⟩
  · intro k hk
    rw [hs] at hk
    rcases (show k = 0 ∨ k = 1 by omega) with rfl | rfl
    · exact ⟨0, e0⟩
    · exact ⟨1, e1⟩
  · intro k k' a b h1 h2 ha hb
    rw [hs] at h2
    have hk : k = 0 := by omega
    have hk' : k' = 1 := by omega
    subst hk hk'
    rw [e0] at ha
    rw [e1] at hb
    injection ha with ha
    injection hb with hb
    rw [← ha, ← hb]
    decide

theorem exIncreasing_out : Increasing exCoutX "zo" (exPos 1 0 0) := by
  have hs : exCoutX.size "zo" = 1 := by decide +kernel
  refine ⟨?_, ?_⟩
  · intro k hk
    rw [hs] at hk
    have : k = 0 := by omega
    subst this
    exact ⟨1 / 2, by decide +kernel⟩
  · intro k k' a b h1 h2
    rw [hs] at h2
    omega

-- the hypotheses of `C143_affine_partial` are met by the data (time, x, z), which are 6 z in the row (1, 0): the value at the depth 1/2 is 3
example : ∃ out, regrid1d { method := .str "linear".toList } exDa exCinX exCoutX "z" "zo" = .ok out ∧ out.at (exPos 1 0 0) = some (6 * (1 / 2) + 0) := by
  refine C143_affine_partial { method := .str "linear".toList } (.linear) ⟨_, rfl⟩ exDa exCinX exCoutX "z" "zo"
    ⟨ofList_ok _ _ _ (by decide) rfl, ofList_ok _ _ _ (by decide) rfl, ofList_ok _ _ _ (by decide) rfl, by decide, by decide, by decide,
    by decide, by decide, by decide, by decide, by decide⟩ ⟨by decide, by decide⟩ (Or.inr ⟨by decide, by decide⟩) (exPos 1 0 0) (by decide +kernel) exIncreasing_in exIncreasing_out
    (by decide +kernel) 6 0 ?_ (1 / 2) 0 1 (by decide +kernel) (by decide +kernel) (by decide +kernel) (by norm_num) (by norm_num)
  intro k q hk hq
  have hs : exCinX.size "z" = 2 := by decide +kernel
  rw [hs] at hk
  rcases (show k = 0 ∨ k = 1 by omega) with rfl | rfl
  · have e0 : exCinX.at (moved (exPos 1 0 0) "z" 0) = some 0 := by decide +kernel
    rw [e0] at hq
    injection hq with hq
    rw [← hq]
    decide +kernel
  · have e1 : exCinX.at (moved (exPos 1 0 0) "z" 1) = some 1 := by decide +kernel
    rw [e1] at hq
    injection hq with hq
    rw [← hq]
    decide +kernel

/-- C143 is false when the input coordinate varies along a dimension that is not among the last ones of the data: in the row (t=0, x=1) the depths are 0, 1 and the data are
0, 4, that is four times the depth, but the value at the depth 1/2 is missing instead of 2. -/
theorem C143_violated : FlushIn exDa exCinT exCout "z" "zo" ∧ Compat exDa exCout "z" "zo" ∧
    exCinT.at (moved (exPos 0 1 0) "z" 0) = some 0 ∧ exCinT.at (moved (exPos 0 1 0) "z" 1) = some 1 ∧
    exDa.at (moved (exPos 0 1 0) "z" 0) = some 0 ∧ exDa.at (moved (exPos 0 1 0) "z" 1) = some 4 ∧ exCout.at (moved (exPos 0 1 0) "zo" 0) = some (1 / 2) ∧
    (regrid1d { method := .str "linear".toList } exDa exCinT exCout "z" "zo").toOption.map (fun r => r.at (exPos 0 1 0)) = some none := by
  refine ⟨⟨ofList_ok _ _ _ (by decide) rfl, ofList_ok _ _ _ (by decide) rfl, ofList_ok _ _ _ (by decide) rfl, by decide, by decide, by decide,
    by decide, by decide, by decide, by decide, by decide⟩, ⟨by decide, by decide⟩, ?_⟩
  decide +kernel

end Xoa
