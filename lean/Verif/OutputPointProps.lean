import Verif.RegridEndProps

/-!
# C187: each output of an interpolation depends on its own coordinate only

Interpolating to some of the output coordinates gives these values of the whole result.
-/

namespace Xoa
open V

/-! ## the scan of `cubic1d` and `hermit1d`, for strictly increasing output coordinates -/

section
variable (yi yo : Row) (w : Int → V → V → V)

theorem chOuter_last (hyi : AscRow yi) (hyo : StrictAsc yo) (iyomax imax : Int)
    (hm0 : 0 ≤ iyomax) (hmax : iyomax < yo.n) (himax : imax < yi.n)
    (hlast : ∀ k : Int, iyomax < k → k < yo.n → yo.get k = none) :
    ∀ (m : Nat) (i iyomin : Int) (out : Int → V), 0 ≤ i → i + m = imax →
      0 ≤ iyomin → iyomin < yo.n →
      ∀ j, iyomin ≤ j → j < yo.n → (∃ i', i ≤ i' ∧ i' < imax ∧ chIn yi yo i' j) →
        ∃ i', i ≤ i' ∧ i' < imax ∧ chIn yi yo i' j ∧ (∀ i'' : Int, i' < i'' → i'' < imax → ¬ chIn yi yo i'' j) ∧
          chOuter yi yo w iyomax (pyRange i imax) iyomin out j = chVal yi yo w i' j := by
  have hyo' := hyo.asc
  intro m
  induction m with
  | zero =>
    intro i iyomin out hi hm hl hu j hj1 hj2 hex
    obtain ⟨i', a, b, _⟩ := hex
    omega
  | succ m ih =>
    intro i iyomin out hi hm hl hu j hj1 hj2 hex
    have hrest : i + 1 + (m : Int) = imax := by push_cast at hm; omega
    rw [pyRange_cons (by omega)]
    simp only [chOuter]
    by_cases hc1 : lt (yi.rd (i + 1)) (yo.rd iyomin) = true
    · rw [if_pos hc1]
      have hni : ¬ chIn yi yo i j := by
        rw [chIn_iff yi yo hi (by omega)]
        rintro ⟨a, b, c, ha, hb, hc, h1, h2⟩
        rw [Row.rd_nonneg yi (by omega : 0 ≤ i + 1), hb, Row.rd_nonneg yo hl, lt_iff] at hc1
        obtain ⟨x, y, hx, hy, hxy⟩ := hc1
        have := hyo' iyomin j hl hj1 hj2 y c hy hc
        cases hx
        linarith
      have hex' : ∃ i', i + 1 ≤ i' ∧ i' < imax ∧ chIn yi yo i' j := by
        obtain ⟨i', a, b, c⟩ := hex
        refine ⟨i', ?_, b, c⟩
        by_contra hlt
        have : i' = i := by omega
        subst this; exact hni c
      obtain ⟨i', a, b, c, d⟩ := ih (i + 1) iyomin out (by omega) hrest hl hu j hj1 hj2 hex'
      exact ⟨i', by omega, b, c, d⟩
    · rw [if_neg hc1]
      by_cases hc2 : lt (yo.rd iyomax) (yi.rd i) = true
      · exfalso
        obtain ⟨i', a1, a2, a3⟩ := hex
        rw [chIn_iff yi yo (by omega) (by omega)] at a3
        obtain ⟨a, b, c, ha, hb, hc, h1, h2⟩ := a3
        rw [Row.rd_nonneg yi hi, Row.rd_nonneg yo hm0, lt_iff] at hc2
        obtain ⟨x, y, hx, hy, hxy⟩ := hc2
        have hj3 : j ≤ iyomax := by
          by_contra hgt
          rw [hlast j (by omega) hj2] at hc; cases hc
        have e1 := hyo' j iyomax (by omega) hj3 hmax c x hc hx
        have e2 := hyi i i' hi a1 (by omega) y a hy ha
        linarith
      · rw [if_neg hc2]
        have hab : ∀ k l : Int, 0 ≤ k → k ≤ l → l < yo.n →
            lt (sub (yi.rd (i + 1)) (yo.rd k)) (some 0) = true → ¬ chIn yi yo i l := by
          intro k l k0 kl lm hlt hin
          rw [chIn_iff yi yo hi (by omega)] at hin
          obtain ⟨a, b, c, ha, hb, hc, h1, h2⟩ := hin
          rw [Row.rd_nonneg yi (by omega : 0 ≤ i + 1), Row.rd_nonneg yo k0, hb] at hlt
          cases hk : yo.get k with
          | none => rw [hk] at hlt; simp at hlt
          | some c' =>
            rw [hk] at hlt
            simp only [sub_some, lt_some, decide_eq_true_eq] at hlt
            have := hyo' k l k0 kl lm c' c hk hc
            linarith
        obtain ⟨hA, hB⟩ := chInner_spec yi yo w i hab (yo.n - iyomin).toNat iyomin iyomin out hl (by omega)
        generalize hr : chInner yi yo w i (pyRange iyomin yo.n) iyomin out = r at *
        have hr1 : iyomin ≤ r.1 ∧ r.1 < yo.n := by
          rcases hB with hB | hB
          · omega
          · exact ⟨hB.1, hB.2.1⟩
        by_cases hex' : ∃ i', i + 1 ≤ i' ∧ i' < imax ∧ chIn yi yo i' j
        · by_cases hjr : r.1 ≤ j
          · obtain ⟨i', a, b, c, d⟩ := ih (i + 1) r.1 r.2 (by omega) hrest (by omega) hr1.2 j hjr hj2 hex'
            exact ⟨i', by omega, b, c, d⟩
          · exfalso
            have hrin : chIn yi yo i r.1 := by
              rcases hB with hB | hB
              · omega
              · exact hB.2.2
            obtain ⟨i', a1, a2, a3⟩ := hex'
            rw [chIn_iff yi yo (by omega) (by omega)] at a3 hrin
            obtain ⟨a, b, c, ha, hb, hc, h1, h2⟩ := a3
            obtain ⟨a', b', c', ha', hb', hc', h1', h2'⟩ := hrin
            have e1 := hyi (i + 1) i' (by omega) a1 (by omega) b' a hb' ha
            have e2 := hyo j r.1 (by omega) (by omega) (by omega) c c' hc hc'
            linarith
        · have hji : chIn yi yo i j := by
            obtain ⟨i', a1, a2, a3⟩ := hex
            by_cases h : i' = i
            · subst h; exact a3
            · exact absurd ⟨i', by omega, a2, a3⟩ hex'
          rcases chOuter_sound yi yo w iyomax (pyRange (i + 1) imax) r.1 r.2 j with h | ⟨i', hi', k, hk, hin, h⟩
          · refine ⟨i, le_refl _, by omega, hji, fun i'' b1 b2 b3 => hex' ⟨i'', by omega, b2, b3⟩, ?_⟩
            rw [h, hA j, if_pos ⟨hj1, hj2, hji⟩]
          · exfalso
            have hrd : yo.rd k = yo.rd j := by
              rw [Row.rd_nonneg yo (by omega : 0 ≤ j), ← hk]; rfl
            rw [mem_pyRange] at hi'
            refine hex' ⟨i', hi'.1, hi'.2, ?_⟩
            unfold chIn at hin ⊢; rwa [hrd] at hin

end

theorem LastBracket.unique {y : Row} {i i' : Int} {c : ℚ} (h : LastBracket y i c) (h' : LastBracket y i' c) : i = i' := by
  rcases lt_trichotomy i i' with e | e | e
  · exact absurd h'.1 (h.2 i' e)
  · exact e
  · exact absurd h.1 (h'.2 i e)

/-- the value of `cubic1d`/`hermit1d` is the one of the last cell around the output coordinate -/
theorem chRow_last (yi yo : Row) (hyi : AscRow yi) (hyo : StrictAsc yo) (w : Int → Int → Int → V → V → V) (out : Int → V) (j : Int) (h0 : 0 ≤ j) (hn : j < yo.n)
    (c : ℚ) (hc : yo.get j = some c) (hbr : ∃ i, Brackets yi i c) :
    ∃ i a b, LastBracket yi i c ∧ yi.get i = some a ∧ yi.get (i + 1) = some b ∧
      chRow yi yo w out j = w (getIminmax yi).1 (getIminmax yi).2 i (some (c - a)) (some (b - c)) := by
  obtain ⟨i, i0, i1, a, b, ha, hb, h1, h2⟩ := hbr
  have p1 := valid_in_iminmax yi i0 (by omega) (by rw [ha]; simp)
  have p2 := valid_in_iminmax yi (by omega : 0 ≤ i + 1) i1 (by rw [hb]; simp)
  have p3 := valid_in_iminmax yo h0 hn (by rw [hc]; simp)
  have hlast : ∀ k : Int, (getIminmax yo).2 < k → k < yo.n → yo.get k = none := by
    rcases getIminmax_spec yo with ⟨_, o2, _⟩ | ⟨_, _, _, _, _, _, h⟩
    · omega
    · exact h
  obtain ⟨i', b1, b2, b3, b5, b4⟩ := chOuter_last yi yo (w (getIminmax yi).1 (getIminmax yi).2) hyi hyo
    (getIminmax yo).2 (getIminmax yi).2 (by omega) p3.2.2.2 p1.2.2.2 hlast
    ((getIminmax yi).2 - (getIminmax yi).1).toNat (getIminmax yi).1 (getIminmax yo).1 out
    p1.2.2.1 (by omega) p3.2.2.1 (by omega) j p3.1 hn
    ⟨i, p1.1, by omega, (chIn_iff yi yo i0 h0).2 ⟨a, b, c, ha, hb, hc, h1, h2⟩⟩
  obtain ⟨a', b', c', ha', hb', hc', h1', h2'⟩ := (chIn_iff yi yo (by omega) h0).1 b3
  rw [hc] at hc'; cases hc'
  refine ⟨i', a', b', ⟨⟨by omega, by omega, a', b', ha', hb', h1', h2'⟩, ?_⟩, ha', hb', ?_⟩
  · rintro k hk ⟨k0, k1, x, y, hx, hy, hxc, hcy⟩
    have q := valid_in_iminmax yi (by omega : 0 ≤ k + 1) k1 (by rw [hy]; simp)
    exact b5 k hk (by omega) ((chIn_iff yi yo k0 h0).2 ⟨x, y, c, hx, hy, hc, hxc, hcy⟩)
  · unfold chRow
    rw [b4]
    unfold chVal
    rw [Row.rd_nonneg yi (by omega : 0 ≤ i'), Row.rd_nonneg yi (by omega : 0 ≤ i' + 1), Row.rd_nonneg yo h0, ha', hb', hc]
    rfl

theorem chRow_point (yi yo yo' : Row) (hyi : AscRow yi) (hyo : StrictAsc yo) (hyo' : StrictAsc yo') (w : Int → Int → Int → V → V → V)
    (j j' : Int) (h0 : 0 ≤ j) (hn : j < yo.n) (h0' : 0 ≤ j') (hn' : j' < yo'.n) (he : yo'.get j' = yo.get j) :
    chRow yi yo' w (fun _ => none) j' = chRow yi yo w (fun _ => none) j := by
  cases hc : yo.get j with
  | none =>
    have e1 : chRow yi yo w (fun _ => none) j = none := by
      rcases chRow_sound yi yo w (fun _ => none) j h0 with h | ⟨_, _, _, c, _, h, _⟩
      · exact h
      · rw [hc] at h; cases h
    have e2 : chRow yi yo' w (fun _ => none) j' = none := by
      rcases chRow_sound yi yo' w (fun _ => none) j' h0' with h | ⟨_, _, _, c, _, h, _⟩
      · exact h
      · rw [he, hc] at h; cases h
    rw [e1, e2]
  | some c =>
    rw [hc] at he
    by_cases hbr : ∃ i, Brackets yi i c
    · obtain ⟨i, a, b, l1, ha, hb, e⟩ := chRow_last yi yo hyi hyo w (fun _ => none) j h0 hn c hc hbr
      obtain ⟨i', a', b', l1', ha', hb', e'⟩ := chRow_last yi yo' hyi hyo' w (fun _ => none) j' h0' hn' c he hbr
      obtain rfl := l1.unique l1'
      rw [ha] at ha'; cases ha'
      rw [hb] at hb'; cases hb'
      rw [e, e']
    · have e1 : chRow yi yo w (fun _ => none) j = none := by
        rcases chRow_sound yi yo w (fun _ => none) j h0 with h | ⟨i, _, _, c', h1, h, _⟩
        · exact h
        · rw [hc] at h; cases h; exact absurd ⟨i, h1⟩ hbr
      have e2 : chRow yi yo' w (fun _ => none) j' = none := by
        rcases chRow_sound yi yo' w (fun _ => none) j' h0' with h | ⟨i, _, _, c', h1, h, _⟩
        · exact h
        · rw [he] at h; cases h; exact absurd ⟨i, h1⟩ hbr
      rw [e1, e2]

theorem nlAcc_point (yi yo yo' : Row) (w : Int → V → V → Option V) (j j' : Int) (h0 : 0 ≤ j) (h0' : 0 ≤ j') (he : yo'.get j' = yo.get j) (l : List Int) (v : V) :
    nlAcc yi yo' w j' l v = nlAcc yi yo w j l v := by
  have : ∀ i, nlHit yi yo' w i j' = nlHit yi yo w i j := by
    intro i; unfold nlHit; rw [Row.rd_nonneg yo h0, Row.rd_nonneg yo' h0', he]
  unfold nlAcc
  simp only [this]

theorem linearRow_nan (v yi yo : Row) (j : Int) (h0 : 0 ≤ j) (hc : yo.get j = none) : nlRow yi yo (linearW v) (fun _ => none) j = none := by
  rcases linearRow_sound v yi yo j h0 (fun _ => none) with h | ⟨_, _, _, c, _, h, _⟩
  · exact h
  · rw [hc] at h; cases h

/-- **C187 (linear).** The value of `linear1d` at an output point depends on the coordinate of this point, not on the other output coordinates: the same
coordinate in another increasing output coordinate, with other sizes and missing values, gives the same value. -/
theorem C187_linear (vari yi yo yo' : Mat) (hnx : yo'.nx = yo.nx) (ix j j' : Int) (hx0 : 0 ≤ ix) (hx : ix < max vari.nx yo.nx) (hj0 : 0 ≤ j) (hj : j < yo.ny)
    (hj0' : 0 ≤ j') (hj' : j' < yo'.ny) (hv : 0 < vari.nx) (hi : 0 < yi.nx) (ho : 0 < yo.nx)
    (ascI : AscRow (yi.row (ix % yi.nx))) (ascO : AscRow (yo.row (ix % yo.nx))) (ascO' : AscRow (yo'.row (ix % yo.nx)))
    (he : yo'.get (ix % yo.nx) j' = yo.get (ix % yo.nx) j) :
    (linear1d vari yi yo').get ix j' = (linear1d vari yi yo).get ix j := by
  have key := C02_linear1d_interpolates vari yi yo ix j hx0 hx hj0 hj hv hi ho ascI ascO
  have key' := C02_linear1d_interpolates vari yi yo' ix j' hx0 (by rw [hnx]; exact hx) hj0' hj' hv hi (by rw [hnx]; exact ho) ascI (by rw [hnx]; exact ascO')
  rw [hnx, he] at key'
  cases hc : yo.get (ix % yo.nx) j with
  | none => rw [key.1 hc, key'.1 hc]
  | some c =>
    by_cases hbr : ∃ i, LastBracket (yi.row (ix % yi.nx)) i c
    · obtain ⟨i, hl⟩ := hbr
      have hl' := hl
      obtain ⟨⟨_, _, a, b, ha, hb, _⟩, _⟩ := hl'
      rw [(key.2 c hc).2 i a b hl ha hb, (key'.2 c hc).2 i a b hl ha hb]
    · have hno : ∀ i, ¬ Brackets (yi.row (ix % yi.nx)) i c := by
        intro i hb
        apply hbr
        -- the last of the brackets
        have hind : ∀ (n : Nat) (i : Int), Brackets (yi.row (ix % yi.nx)) i c → (yi.row (ix % yi.nx)).n ≤ i + n → ∃ i, LastBracket (yi.row (ix % yi.nx)) i c := by
          intro n
          induction n with
          | zero => intro i h1 h2; have := h1.2.1; push_cast at h2; omega
          | succ n ih =>
            intro i h1 h2
            by_cases h3 : ∃ k, i < k ∧ Brackets (yi.row (ix % yi.nx)) k c
            · obtain ⟨k, k1, k2⟩ := h3
              exact ih k k2 (by push_cast at h2; omega)
            · push Not at h3
              exact ⟨i, h1, h3⟩
        exact hind ((yi.row (ix % yi.nx)).n) i hb (by have := hb.1; omega)
      rw [(key.2 c hc).1 hno, (key'.2 c hc).1 hno]

/-- **C187 (nearest).** The same for `nearest1d`, when missing coordinates are only at the ends. -/
theorem C187_nearest (vari yi yo yo' : Mat) (hnx : yo'.nx = yo.nx) (ix j j' : Int) (hx0 : 0 ≤ ix) (hx : ix < max vari.nx yo.nx) (hj0 : 0 ≤ j) (hj : j < yo.ny)
    (hj0' : 0 ≤ j') (hj' : j' < yo'.ny) (hi : 0 < yi.nx) (ho : 0 < yo.nx)
    (ascI : AscRow (yi.row (ix % yi.nx))) (ascO : AscRow (yo.row (ix % yo.nx))) (ascO' : AscRow (yo'.row (ix % yo.nx)))
    (gapI : NoGap (yi.row (ix % yi.nx))) (gapO : NoGap (yo.row (ix % yo.nx))) (gapO' : NoGap (yo'.row (ix % yo.nx)))
    (c : ℚ) (hc : yo.get (ix % yo.nx) j = some c) (he : yo'.get (ix % yo.nx) j' = some c) :
    (nearest1d vari yi yo').get ix j' = (nearest1d vari yi yo).get ix j := by
  unfold nearest1d
  rw [mkOut_row vari yo _ ix hx0 hx, mkOut_row vari yo' _ ix hx0 (by rw [hnx]; exact hx)]
  unfold nearestBody; rw [hnx]; simp only [rowIdx_eq _ _ hi, rowIdx_eq _ _ ho]
  have e1 := nearestRow_spec (vari.row (rowIdx vari.nx ix)) (yi.row (ix % yi.nx)) (yo.row (ix % yo.nx)) ascI ascO gapI gapO
    ⟨j, hj0, hj, by show yo.get _ j ≠ none; rw [hc]; simp⟩ j hj0 hj (fun _ => none)
  have e2 := nearestRow_spec (vari.row (rowIdx vari.nx ix)) (yi.row (ix % yi.nx)) (yo'.row (ix % yo.nx)) ascI ascO' gapI gapO'
    ⟨j', hj0', hj', by show yo'.get _ j' ≠ none; rw [he]; simp⟩ j' hj0' hj' (fun _ => none)
  have p1 := valid_in_iminmax (yo.row (ix % yo.nx)) hj0 hj (by show yo.get _ j ≠ none; rw [hc]; simp)
  have p2 := valid_in_iminmax (yo'.row (ix % yo.nx)) hj0' hj' (by show yo'.get _ j' ≠ none; rw [he]; simp)
  rw [if_pos ⟨p1.1, p1.2.1, p1.2.2.1⟩] at e1
  rw [if_pos ⟨p2.1, p2.2.1, p2.2.2.1⟩] at e2
  rw [e1, e2]
  exact nlAcc_point _ _ _ _ _ _ hj0 hj0' (he.trans hc.symm) _ _

/-- **C187 (cubic and Hermite).** The same for `cubic1d` and `hermit1d`, when no coordinate is repeated in the output coordinates. -/
theorem C187_cubic_hermit (vari yi yo yo' : Mat) (bias tension : ℚ) (hnx : yo'.nx = yo.nx) (ix j j' : Int) (hx0 : 0 ≤ ix) (hx : ix < max vari.nx yo.nx) (hj0 : 0 ≤ j) (hj : j < yo.ny)
    (hj0' : 0 ≤ j') (hj' : j' < yo'.ny) (hi : 0 < yi.nx) (ho : 0 < yo.nx)
    (ascI : AscRow (yi.row (ix % yi.nx))) (ascO : StrictAsc (yo.row (ix % yo.nx))) (ascO' : StrictAsc (yo'.row (ix % yo.nx)))
    (he : yo'.get (ix % yo.nx) j' = yo.get (ix % yo.nx) j) :
    (cubic1d vari yi yo').get ix j' = (cubic1d vari yi yo).get ix j ∧
    (hermit1d vari yi yo' bias tension).get ix j' = (hermit1d vari yi yo bias tension).get ix j := by
  constructor
  · unfold cubic1d
    rw [mkOut_row vari yo _ ix hx0 hx, mkOut_row vari yo' _ ix hx0 (by rw [hnx]; exact hx)]
    unfold cubicBody; rw [hnx]; simp only [rowIdx_eq _ _ hi, rowIdx_eq _ _ ho]
    exact chRow_point _ _ _ ascI ascO ascO' _ j j' hj0 hj hj0' hj' he
  · unfold hermit1d
    rw [mkOut_row vari yo _ ix hx0 hx, mkOut_row vari yo' _ ix hx0 (by rw [hnx]; exact hx)]
    unfold hermitBody; rw [hnx]; simp only [rowIdx_eq _ _ hi, rowIdx_eq _ _ ho]
    exact chRow_point _ _ _ ascI ascO ascO' _ j j' hj0 hj hj0' hj' he

/-- **C187 (`regrid1d`).** With each method but cell averaging, regridding to another output coordinate gives the same value at the points that have the same
coordinate: in particular regridding to a part of the output coordinate gives this part of the result. The coordinates increase along the row through the
position, and each row is paired with its own coordinates (C19). -/
theorem C187_regrid1d (o : RegridOpts) (K : Mat → Mat → Mat → Mat) (hK : Named o.method K) (he : ExtrapKnown o.extrap) (da cin cout cout' : LArr V) (dim0 dim1 : String)
    (h : FlushIn da cin cout dim0 dim1) (hc : Compat da cout dim0 dim1) (hp : PairOk da cin cout dim0 dim1)
    (h' : FlushIn da cin cout' dim0 dim1) (hc' : Compat da cout' dim0 dim1) (hp' : PairOk da cin cout' dim0 dim1)
    (pos : String → Nat) (hpos : ∀ d ∈ outDims da cout dim0 dim1, pos d < outSize da cout dim1 d) (j' : Nat)
    (hpos' : ∀ d ∈ outDims da cout' dim0 dim1, moved pos dim1 j' d < outSize da cout' dim1 d)
    (hi : Increasing cin dim0 pos) (ho : Increasing cout dim1 pos) (ho' : Increasing cout' dim1 pos)
    (heq : cout'.at (moved pos dim1 j') = cout.at (moved pos dim1 (pos dim1))) :
    ∃ out out', regrid1d o da cin cout dim0 dim1 = .ok out ∧ regrid1d o da cin cout' dim0 dim1 = .ok out' ∧ out'.at (moved pos dim1 j') = out.at pos := by
  obtain ⟨hj, out, e, hat⟩ := regrid1d_at o K hK he da cin cout dim0 dim1 h hc hp pos hpos
  obtain ⟨hj', out', e', hat'⟩ := regrid1d_at o K hK he da cin cout' dim0 dim1 h' hc' hp' (moved pos dim1 j') hpos'
  refine ⟨out, out', e, e', ?_⟩
  rw [hat, hat']
  have hm : moved pos dim1 j' dim1 = j' := by simp [moved]
  rw [hm] at hj' ⊢
  have l1 : cout'.line dim1 (moved pos dim1 j') = cout'.line dim1 pos := by
    unfold LArr.line
    congr 1; funext i; congr 1; funext x; unfold moved; split <;> rfl
  have lin : ∀ a : LArr V, (∀ d ∈ a.dims, d ∈ da.dims) → a.line dim0 (moved pos dim1 j') = a.line dim0 pos := by
    intro a ha
    unfold LArr.line
    congr 1; funext i
    unfold LArr.at
    congr 1
    refine List.map_congr_left fun x hx => ?_
    unfold moved
    by_cases hx0 : x = dim0
    · rw [if_pos hx0, if_pos hx0]
    · rw [if_neg hx0, if_neg hx0]
      by_cases hx1 : x = dim1
      · subst hx1
        rcases h.names with e | e
        · exact absurd e.symm hx0
        · exact absurd (ha _ hx) e.1
      · rw [if_neg hx1]
  rw [l1, lin da (fun d hd => hd), lin cin h.csub]
  have hz : (0 : Int) < max (1 : Nat) 1 := by decide
  obtain ⟨c, hcv⟩ := ho.full (pos dim1) hj
  have h1 : ((pos dim1 : Nat) : Int) < ((oneRow (cout.line dim1 pos)).ny : Int) := by
    show ((pos dim1 : Nat) : Int) < (cout.size dim1 : Int); omega
  have h2 : ((j' : Nat) : Int) < ((oneRow (cout'.line dim1 pos)).ny : Int) := by
    show ((j' : Nat) : Int) < (cout'.size dim1 : Int); omega
  have q1 : (oneRow (cout.line dim1 pos)).get 0 ((pos dim1 : Nat) : Int) = some c := hcv
  have q2 : (oneRow (cout'.line dim1 pos)).get 0 ((j' : Nat) : Int) = some c := heq.trans hcv
  have elin := C187_linear (oneRow (da.line dim0 pos)) (oneRow (cin.line dim0 pos)) (oneRow (cout.line dim1 pos)) (oneRow (cout'.line dim1 pos)) rfl 0 (pos dim1 : Nat) (j' : Nat)
    (by decide) hz (by omega) h1 (by omega) h2 Nat.one_pos Nat.one_pos Nat.one_pos hi.strict.asc ho.strict.asc ho'.strict.asc (q2.trans q1.symm)
  have enea := C187_nearest (oneRow (da.line dim0 pos)) (oneRow (cin.line dim0 pos)) (oneRow (cout.line dim1 pos)) (oneRow (cout'.line dim1 pos)) rfl 0 (pos dim1 : Nat) (j' : Nat)
    (by decide) hz (by omega) h1 (by omega) h2 Nat.one_pos Nat.one_pos hi.strict.asc ho.strict.asc ho'.strict.asc hi.noGap ho.noGap ho'.noGap c q1 q2
  obtain ⟨ecub, eher⟩ := C187_cubic_hermit (oneRow (da.line dim0 pos)) (oneRow (cin.line dim0 pos)) (oneRow (cout.line dim1 pos)) (oneRow (cout'.line dim1 pos)) 0 0 rfl 0 (pos dim1 : Nat) (j' : Nat)
    (by decide) hz (by omega) h1 (by omega) h2 Nat.one_pos Nat.one_pos hi.strict.asc ho.strict ho'.strict (q2.trans q1.symm)
  generalize o.method = m at hK
  cases hK <;> assumption

/-! ## examples -/

/-- the values at 1/2 and 5/2 alone, and among others -/
example : (cubic1d (Mat.ofLists [[some 0, some 3, none, some 1, some 5]]) (Mat.ofLists [[some 0, some 1, some 2, some 3, some 4]]) (Mat.ofLists [[some (7 / 2)]])).get 0 0 =
    (cubic1d (Mat.ofLists [[some 0, some 3, none, some 1, some 5]]) (Mat.ofLists [[some 0, some 1, some 2, some 3, some 4]])
      (Mat.ofLists [[some (-1), some 1, some 3, some (13 / 4), some (7 / 2), some 9]])).get 0 4 := by decide +kernel

/-- output depths (x, zo) with three levels, the second one is the only level of `exCoutX` -/
def exCoutX3 : LArr V := LArr.ofList ["x", "zo"] [2, 3] [some (1/4), some (1/2), some (3/4), some (1/4), some (1/2), some (3/4)]

theorem exIncreasing_out3 : Increasing exCoutX3 "zo" (exPos 1 0 0) := by
  have hs : exCoutX3.size "zo" = 3 := by decide +kernel
  have e0 : exCoutX3.at (moved (exPos 1 0 0) "zo" 0) = some (1 / 4) := by decide +kernel
  have e1 : exCoutX3.at (moved (exPos 1 0 0) "zo" 1) = some (1 / 2) := by decide +kernel
  have e2 : exCoutX3.at (moved (exPos 1 0 0) "zo" 2) = some (3 / 4) := by decide +kernel
  refine ⟨?_, ?_⟩
  · intro k hk
    rw [hs] at hk
    rcases (show k = 0 ∨ k = 1 ∨ k = 2 by omega) with rfl | rfl | rfl
    · exact ⟨_, e0⟩
    · exact ⟨_, e1⟩
    · exact ⟨_, e2⟩
  · intro k k' a b h1 h2 ha hb
    rw [hs] at h2
    rcases (show (k = 0 ∧ k' = 1) ∨ (k = 0 ∧ k' = 2) ∨ (k = 1 ∧ k' = 2) by omega) with ⟨rfl, rfl⟩ | ⟨rfl, rfl⟩ | ⟨rfl, rfl⟩
    · rw [e0] at ha; rw [e1] at hb; cases ha; cases hb; norm_num
    · rw [e0] at ha; rw [e2] at hb; cases ha; cases hb; norm_num
    · rw [e1] at ha; rw [e2] at hb; cases ha; cases hb; norm_num

/-- the hypotheses of `C187_regrid1d` are met by the data (time, x, z) and these two output coordinates -/
example : ∃ out out', regrid1d { method := .str "linear".toList } exDa exCinX exCoutX "z" "zo" = .ok out ∧ regrid1d { method := .str "linear".toList } exDa exCinX exCoutX3 "z" "zo" = .ok out' ∧
    out'.at (moved (exPos 1 0 0) "zo" 1) = out.at (exPos 1 0 0) :=
  C187_regrid1d { method := .str "linear".toList } linear1d .linear ⟨_, rfl⟩ exDa exCinX exCoutX exCoutX3 "z" "zo"
    ⟨ofList_ok _ _ _ (by decide) rfl, ofList_ok _ _ _ (by decide) rfl, ofList_ok _ _ _ (by decide) rfl, by decide, by decide, by decide,
      by decide, by decide, by decide, by decide, by decide⟩ ⟨by decide, by decide⟩ (Or.inr ⟨by decide, by decide⟩)
    ⟨ofList_ok _ _ _ (by decide) rfl, ofList_ok _ _ _ (by decide) rfl, ofList_ok _ _ _ (by decide) rfl, by decide, by decide, by decide,
      by decide, by decide, by decide, by decide, by decide⟩ ⟨by decide, by decide⟩ (Or.inr ⟨by decide, by decide⟩)
    (exPos 1 0 0) (by decide +kernel) 1 (by decide +kernel) exIncreasing_in exIncreasing_out exIncreasing_out3 (by decide +kernel)

/-- A repeated output coordinate is the reason of the hypothesis of `C187_cubic_hermit`: at a node next to a missing value, the first of two equal output coordinates has a
value and the second one has not. -/
theorem cubic_repeated_output :
    (cubic1d (Mat.ofLists [[some 0, some 1, some 2, some 3, none]]) (Mat.ofLists [[some 0, some 1, some 2, some 3, some 4]]) (Mat.ofLists [[some 2, some 2]])).get 0 0 = some 2 ∧
    (cubic1d (Mat.ofLists [[some 0, some 1, some 2, some 3, none]]) (Mat.ofLists [[some 0, some 1, some 2, some 3, some 4]]) (Mat.ofLists [[some 2, some 2]])).get 0 1 = none := by
  constructor <;> decide +kernel

end Xoa
