import Verif.Interp1dProps
import Verif.Interp1dFormulaProps

/-!
# C203: interpolating through a finer coordinate
-/

namespace Xoa
open V

/-! ## specification -/

/-- a coordinate without missing value, that increases -/
def GoodCoord (r : Row) : Prop := (∀ i : Int, 0 ≤ i → i < r.n → r.get i ≠ none) ∧ StrictAsc r

/-- the coordinate `f` has all the nodes of `c` -/
def HasNodes (f c : Row) : Prop :=
  ∀ (i : Int) (a : ℚ), 0 ≤ i → i < c.n → c.get i = some a → ∃ k : Int, 0 ≤ k ∧ k < f.n ∧ f.get k = some a

/-- the coordinate `f` does not go beyond the ends of `c` -/
def WithinEnds (f c : Row) : Prop :=
  ∀ (k : Int) (m : ℚ), 0 ≤ k → k < f.n → f.get k = some m →
    (∃ (i : Int) (a : ℚ), 0 ≤ i ∧ i < c.n ∧ c.get i = some a ∧ a ≤ m) ∧ (∃ (i : Int) (a : ℚ), 0 ≤ i ∧ i < c.n ∧ c.get i = some a ∧ m ≤ a)

/-- an array has one row, or as many rows as the output of the first interpolation -/
def RowsFit (n N : Nat) : Prop := n = 1 ∨ n = N

/-! ## lemmas -/

theorem RowsFit.mod {n N : Nat} (h : RowsFit n N) (ix : Int) : ix % (N : Int) % (n : Int) = ix % (n : Int) := by
  rcases h with rfl | rfl
  · simp
  · exact Int.emod_emod_of_dvd _ (dvd_refl _)

/-- between two nodes on both sides of `c` there are two consecutive nodes on both sides of `c` -/
theorem brackets_between (r : Row) (hv : ∀ i : Int, 0 ≤ i → i < r.n → r.get i ≠ none) (c : ℚ) (d : Nat) :
    ∀ (p : Int) (a b : ℚ), 0 ≤ p → p + d + 1 < r.n → r.get p = some a → r.get (p + d + 1) = some b → a ≤ c → c ≤ b →
      ∃ k : Int, p ≤ k ∧ k < p + d + 1 ∧ Brackets r k c := by
  induction d with
  | zero =>
    intro p a b h0 h1 ha hb hac hcb
    simp only [Nat.cast_zero, add_zero] at h1 hb
    exact ⟨p, le_refl _, by omega, h0, by omega, a, b, ha, hb, hac, hcb⟩
  | succ d ih =>
    intro p a b h0 h1 ha hb hac hcb
    push_cast at h1 hb
    obtain ⟨m, hm⟩ := Option.ne_none_iff_exists'.mp (hv (p + 1) (by omega) (by omega))
    by_cases h : c ≤ m
    · exact ⟨p, le_refl _, by omega, h0, by omega, a, m, ha, hm, hac, h⟩
    · obtain ⟨k, k1, k2, k3⟩ := ih (p + 1) m b (by omega) (by omega) hm (by rw [show p + 1 + (d : Int) + 1 = p + (d + 1) + 1 by ring]; exact hb) (le_of_lt (not_le.mp h)) hcb
      exact ⟨k, by omega, by push_cast; omega, k3⟩

/-- the position of a node of a good coordinate: larger nodes are after -/
theorem GoodCoord.lt_of_lt {r : Row} (h : GoodCoord r) {p q : Int} {a b : ℚ} (hp0 : 0 ≤ p) (hpn : p < r.n) (hq0 : 0 ≤ q) (hqn : q < r.n)
    (hp : r.get p = some a) (hq : r.get q = some b) (hab : a < b) : p < q := by
  by_contra hc
  rcases eq_or_lt_of_le (not_lt.mp hc) with e | hlt
  · subst e; rw [hp] at hq; cases hq; exact lt_irrefl _ hab
  · exact lt_asymm hab (h.2 q p hq0 hlt hpn b a hq hp)

/-- in the interval `i` of a good coordinate with valid data `linear1d` is the line of this interval, ends included -/
theorem linear_at (vari yi yo : Mat) (ix j : Int)
    (hx0 : 0 ≤ ix) (hx : ix < max vari.nx yo.nx) (hj0 : 0 ≤ j) (hj : j < yo.ny)
    (hv : 0 < vari.nx) (hi : 0 < yi.nx) (ho : 0 < yo.nx)
    (gi : GoodCoord (yi.row (ix % yi.nx))) (ascO : AscRow (yo.row (ix % yo.nx)))
    (hd : ∀ i : Int, 0 ≤ i → i < yi.ny → vari.get (ix % vari.nx) i ≠ none)
    (c : ℚ) (hc : yo.get (ix % yo.nx) j = some c) (i : Int) (a b x y : ℚ) (hi0 : 0 ≤ i) (hi1 : i + 1 < yi.ny)
    (ha : yi.get (ix % yi.nx) i = some a) (hb : yi.get (ix % yi.nx) (i + 1) = some b)
    (hx' : vari.get (ix % vari.nx) i = some x) (hy : vari.get (ix % vari.nx) (i + 1) = some y) (hac : a ≤ c) (hcb : c ≤ b) :
    a < b ∧ (linear1d vari yi yo).get ix j = some (x + (y - x) * ((c - a) / (b - a))) := by
  have hab : a < b := gi.2 i (i + 1) hi0 (by omega) hi1 a b ha hb
  refine ⟨hab, ?_⟩
  have hC := (C02_linear1d_interpolates vari yi yo ix j hx0 hx hj0 hj hv hi ho gi.2.asc ascO).2 c hc
  have hbr : Brackets (yi.row (ix % yi.nx)) i c := ⟨hi0, hi1, a, b, ha, hb, hac, hcb⟩
  rcases eq_or_lt_of_le hcb with e | hlt
  · -- at the end of the interval
    subst e
    have e1 : x + (y - x) * ((c - a) / (c - a)) = y := by
      rw [div_self (by linarith : c - a ≠ 0)]; ring
    rw [e1]
    by_cases hn : i + 1 + 1 < yi.ny
    · obtain ⟨d, hd2⟩ := Option.ne_none_iff_exists'.mp (gi.1 (i + 1 + 1) (by omega) hn)
      obtain ⟨z, hz⟩ := Option.ne_none_iff_exists'.mp (hd (i + 1 + 1) (by omega) hn)
      have hcd : c < d := gi.2 (i + 1) (i + 1 + 1) (by omega) (by omega) hn c d hb hd2
      have hl : LastBracket (yi.row (ix % yi.nx)) (i + 1) c := by
        refine ⟨⟨by omega, hn, c, d, hb, hd2, le_refl _, le_of_lt hcd⟩, ?_⟩
        rintro k hk ⟨k0, k1, p, q, hp, hq, hpc, hcq⟩
        have := gi.2 (i + 1) k (by omega) hk (by omega) c p hb hp
        linarith
      rw [hC.2 (i + 1) c d hl hb hd2, hy, hz]
      unfold lineThrough
      dsimp only
      rw [if_neg (ne_of_lt hcd), sub_self, zero_div, mul_zero, add_zero]
    · have hl : LastBracket (yi.row (ix % yi.nx)) i c := by
        refine ⟨hbr, ?_⟩
        rintro k hk ⟨k0, k1, -⟩
        have k1' : k + 1 < (yi.ny : Int) := k1
        omega
      rw [hC.2 i a c hl ha hb, hx', hy]
      unfold lineThrough
      dsimp only
      rw [if_neg (ne_of_lt hab), e1]
  · have hl : LastBracket (yi.row (ix % yi.nx)) i c := by
      refine ⟨hbr, ?_⟩
      rintro k hk ⟨k0, k1, p, q, hp, hq, hpc, hcq⟩
      have : b ≤ p := gi.2.asc (i + 1) k (by omega) (by omega) (by have k1' : k + 1 < (yi.ny : Int) := k1; show k < (yi.ny : Int); omega) b p hb hp
      linarith
    rw [hC.2 i a b hl ha hb, hx', hy]
    unfold lineThrough
    dsimp only
    rw [if_neg (ne_of_lt hab)]

/-- shape of the output -/
theorem linear1d_dims (vari yi yo : Mat) : (linear1d vari yi yo).nx = max vari.nx yo.nx ∧ (linear1d vari yi yo).ny = yo.ny := ⟨rfl, rfl⟩

/-! ## C203 -/

/-- **C203 (two steps).** `linear1d` of data without missing values to a finer coordinate `ym` (with all the nodes of the coordinate of the data, and within its ends), then to
`yo`, is `linear1d` to `yo` at once, missing values outside included. -/
theorem C203_two_steps (vari yi ym yo : Mat) (ix j : Int)
    (hx0 : 0 ≤ ix) (hx : ix < max vari.nx yo.nx) (hj0 : 0 ≤ j) (hj : j < yo.ny)
    (hv : 0 < vari.nx) (hi : 0 < yi.nx) (hm : 0 < ym.nx) (ho : 0 < yo.nx)
    (rv : RowsFit vari.nx (max vari.nx ym.nx)) (ri : RowsFit yi.nx (max vari.nx ym.nx)) (rm : RowsFit ym.nx (max vari.nx ym.nx))
    (gi : GoodCoord (yi.row (ix % yi.nx))) (gm : GoodCoord (ym.row (ix % ym.nx))) (ascO : AscRow (yo.row (ix % yo.nx)))
    (hn : HasNodes (ym.row (ix % ym.nx)) (yi.row (ix % yi.nx))) (hw : WithinEnds (ym.row (ix % ym.nx)) (yi.row (ix % yi.nx)))
    (hd : ∀ i : Int, 0 ≤ i → i < yi.ny → vari.get (ix % vari.nx) i ≠ none) :
    (linear1d (linear1d vari yi ym) ym yo).get ix j = (linear1d vari yi yo).get ix j := by
  have hN : 0 < (linear1d vari yi ym).nx := lt_of_lt_of_le hv (le_max_left _ _)
  have hx2 : ix < max (linear1d vari yi ym).nx yo.nx := lt_of_lt_of_le hx (by
    rw [(linear1d_dims vari yi ym).1]
    have : max vari.nx yo.nx ≤ max (max vari.nx ym.nx) yo.nx := max_le_max (le_max_left _ _) (le_refl _)
    exact_mod_cast this)
  -- the rows of the intermediate array
  have key : ∀ (k : Int) (m : ℚ), 0 ≤ k → k < ym.ny → ym.get (ix % ym.nx) k = some m →
      ∀ (i : Int) (a b x y : ℚ), 0 ≤ i → i + 1 < yi.ny → yi.get (ix % yi.nx) i = some a → yi.get (ix % yi.nx) (i + 1) = some b →
        vari.get (ix % vari.nx) i = some x → vari.get (ix % vari.nx) (i + 1) = some y → a ≤ m → m ≤ b →
        (linear1d vari yi ym).get (ix % (linear1d vari yi ym).nx) k = some (x + (y - x) * ((m - a) / (b - a))) := by
    intro k m k0 k1 hk i a b x y i0 i1 ha hb hx' hy h1 h2
    have e0 : (0 : Int) ≤ ix % ((linear1d vari yi ym).nx : Int) := Int.emod_nonneg _ (by omega)
    have e1 : ix % ((linear1d vari yi ym).nx : Int) < ((max vari.nx ym.nx : Nat) : Int) := Int.emod_lt_of_pos _ (by exact_mod_cast hN)
    have ev := rv.mod ix
    have ei := ri.mod ix
    have em := rm.mod ix
    rw [← (linear1d_dims vari yi ym).1] at ev ei em
    exact (linear_at vari yi ym _ k e0 (by exact_mod_cast e1) k0 k1 hv hi hm (by rw [ei]; exact gi) (by rw [em]; exact gm.2.asc)
      (by rw [ev]; exact hd) m (by rw [em]; exact hk) i a b x y i0 i1 (by rw [ei]; exact ha) (by rw [ei]; exact hb) (by rw [ev]; exact hx')
      (by rw [ev]; exact hy) h1 h2).2
  have hA := C02_linear1d_interpolates (linear1d vari yi ym) ym yo ix j hx0 hx2 hj0 hj hN hm ho gm.2.asc ascO
  have hB := C02_linear1d_interpolates vari yi yo ix j hx0 hx hj0 hj hv hi ho gi.2.asc ascO
  cases hc : yo.get (ix % yo.nx) j with
  | none => rw [hA.1 hc, hB.1 hc]
  | some c =>
    by_cases hbr : ∃ i, Brackets (yi.row (ix % yi.nx)) i c
    · obtain ⟨i, i0, i1, a, b, ha, hb, hac, hcb⟩ := hbr
      have i1' : i + 1 < (yi.ny : Int) := i1
      obtain ⟨x, hxv⟩ := Option.ne_none_iff_exists'.mp (hd i i0 (by omega))
      obtain ⟨y, hyv⟩ := Option.ne_none_iff_exists'.mp (hd (i + 1) (by omega) i1')
      obtain ⟨hab, eB⟩ := linear_at vari yi yo ix j hx0 hx hj0 hj hv hi ho gi ascO hd c hc i a b x y i0 i1 ha hb hxv hyv hac hcb
      rw [eB]
      obtain ⟨p, p0, p1, hp⟩ := hn i a i0 (by show i < (yi.ny : Int); omega) ha
      obtain ⟨q, q0, q1, hq⟩ := hn (i + 1) b (by omega) i1 hb
      have hpq := gm.lt_of_lt p0 p1 q0 q1 hp hq hab
      have p1' : p < (ym.ny : Int) := p1
      have q1' : q < (ym.ny : Int) := q1
      obtain ⟨k, k0, k1, kb⟩ := brackets_between (ym.row (ix % ym.nx)) gm.1 c (q - p - 1).toNat p a b p0
        (by show p + ((q - p - 1).toNat : Int) + 1 < (ym.ny : Int); omega) hp (by rw [show p + ((q - p - 1).toNat : Int) + 1 = q by omega]; exact hq) hac hcb
      obtain ⟨kk0, kk1, m0, m1, hm0, hm1, hmc, hcm⟩ := kb
      have kk1' : k + 1 < (ym.ny : Int) := kk1
      have ham0 : a ≤ m0 := gm.2.asc p k p0 k0 (by show k < (ym.ny : Int); omega) a m0 hp hm0
      have hm1b : m1 ≤ b := gm.2.asc (k + 1) q (by omega) (by omega) q1 m1 b hm1 hq
      have hm01 : m0 < m1 := gm.2 k (k + 1) kk0 (by omega) kk1 m0 m1 hm0 hm1
      have v0 := key k m0 kk0 (by omega) hm0 i a b x y i0 i1 ha hb hxv hyv ham0 (by linarith)
      have v1 := key (k + 1) m1 (by omega) kk1' hm1 i a b x y i0 i1 ha hb hxv hyv (by linarith) hm1b
      -- data valid at all the intermediate nodes
      have hdm : ∀ l : Int, 0 ≤ l → l < ym.ny → (linear1d vari yi ym).get (ix % (linear1d vari yi ym).nx) l ≠ none := by
        intro l l0 l1
        obtain ⟨m, hml⟩ := Option.ne_none_iff_exists'.mp (gm.1 l l0 l1)
        obtain ⟨⟨s, sa, s0, s1, hs, hsm⟩, ⟨t, ta, t0, t1, ht, hmt⟩⟩ := hw l m l0 l1 hml
        have s1' : s < (yi.ny : Int) := s1
        have t1' : t < (yi.ny : Int) := t1
        have : ∃ u, Brackets (yi.row (ix % yi.nx)) u m := by
          rcases lt_trichotomy s t with h | h | h
          · obtain ⟨u, -, -, hu⟩ := brackets_between (yi.row (ix % yi.nx)) gi.1 m (t - s - 1).toNat s sa ta s0
              (by show s + ((t - s - 1).toNat : Int) + 1 < (yi.ny : Int); omega) hs
              (by rw [show s + ((t - s - 1).toNat : Int) + 1 = t by omega]; exact ht) hsm hmt
            exact ⟨u, hu⟩
          · subst h
            rw [hs] at ht; cases ht
            have em : m = sa := le_antisymm hmt hsm
            subst em
            by_cases hlast : s + 1 < yi.ny
            · obtain ⟨z, hz⟩ := Option.ne_none_iff_exists'.mp (gi.1 (s + 1) (by omega) hlast)
              exact ⟨s, s0, hlast, m, z, hs, hz, le_refl _, le_of_lt (gi.2 s (s + 1) s0 (by omega) hlast m z hs hz)⟩
            · have : 1 ≤ s := by omega
              obtain ⟨z, hz⟩ := Option.ne_none_iff_exists'.mp (gi.1 (s - 1) (by omega) (by show s - 1 < (yi.ny : Int); omega))
              refine ⟨s - 1, by omega, by show s - 1 + 1 < (yi.ny : Int); omega, z, m, hz, by rw [sub_add_cancel]; exact hs, ?_, le_refl _⟩
              exact le_of_lt (gi.2 (s - 1) s (by omega) (by omega) s1 z m hz hs)
          · have : ta < sa := gi.2 t s t0 h s1 ta sa ht hs
            linarith
        obtain ⟨u, u0, u1, pa, pb, hpa, hpb, hpm, hmp⟩ := this
        have u1' : u + 1 < (yi.ny : Int) := u1
        obtain ⟨x', hx''⟩ := Option.ne_none_iff_exists'.mp (hd u u0 (by omega))
        obtain ⟨y', hy''⟩ := Option.ne_none_iff_exists'.mp (hd (u + 1) (by omega) u1')
        rw [key l m l0 l1 hml u pa pb x' y' u0 u1' hpa hpb hx'' hy'' hpm hmp]
        exact Option.some_ne_none _
      have := (linear_at (linear1d vari yi ym) ym yo ix j hx0 hx2 hj0 hj hN hm ho gm ascO hdm c hc k m0 m1 _ _ kk0 kk1' hm0 hm1 v0 v1 hmc hcm).2
      rw [this]
      congr 1
      have hba : b - a ≠ 0 := by linarith
      have hmm : m1 - m0 ≠ 0 := by linarith
      field_simp
      ring
    · rw [(hB.2 c hc).1 (fun i h => hbr ⟨i, h⟩)]
      apply (hA.2 c hc).1
      rintro k ⟨k0, k1, m0, m1, hm0, hm1, h0, h1⟩
      have k1' : k + 1 < (ym.ny : Int) := k1
      have hm01 : m0 < m1 := gm.2 k (k + 1) k0 (by omega) k1 m0 m1 hm0 hm1
      obtain ⟨s, sa, s0, s1, hs, hsm⟩ := (hw k m0 k0 (by show k < (ym.ny : Int); omega) hm0).1
      obtain ⟨t, ta, t0, t1, ht, hmt⟩ := (hw (k + 1) m1 (by omega) k1 hm1).2
      have hst := gi.lt_of_lt s0 s1 t0 t1 hs ht (by linarith)
      have t1' : t < (yi.ny : Int) := t1
      obtain ⟨u, -, -, hu⟩ := brackets_between (yi.row (ix % yi.nx)) gi.1 c (t - s - 1).toNat s sa ta s0
        (by show s + ((t - s - 1).toNat : Int) + 1 < (yi.ny : Int); omega) hs
        (by rw [show s + ((t - s - 1).toNat : Int) + 1 = t by omega]; exact ht) (by linarith) (by linarith)
      exact hbr ⟨u, hu⟩

/-- a node of a good coordinate with two nodes at least is in an interval -/
theorem node_brackets (r : Row) (g : GoodCoord r) (h2 : 2 ≤ r.n) (i : Int) (i0 : 0 ≤ i) (i1 : i < r.n) (a : ℚ) (ha : r.get i = some a) :
    ∃ u, Brackets r u a := by
  by_cases hlast : i + 1 < r.n
  · obtain ⟨z, hz⟩ := Option.ne_none_iff_exists'.mp (g.1 (i + 1) (by omega) hlast)
    exact ⟨i, i0, hlast, a, z, ha, hz, le_refl _, le_of_lt (g.2 i (i + 1) i0 (by omega) hlast a z ha hz)⟩
  · have : 1 ≤ i := by omega
    obtain ⟨z, hz⟩ := Option.ne_none_iff_exists'.mp (g.1 (i - 1) (by omega) (by omega))
    exact ⟨i - 1, by omega, by omega, z, a, hz, by rw [sub_add_cancel]; exact ha,
      le_of_lt (g.2 (i - 1) i (by omega) (by omega) i1 z a hz ha), le_refl _⟩

/-- at a node `linear1d` gives the datum -/
theorem linear_node (vari yi yo : Mat) (ix j : Int)
    (hx0 : 0 ≤ ix) (hx : ix < max vari.nx yo.nx) (hj0 : 0 ≤ j) (hj : j < yo.ny)
    (hv : 0 < vari.nx) (hi : 0 < yi.nx) (ho : 0 < yo.nx) (h2 : 2 ≤ yi.ny)
    (gi : GoodCoord (yi.row (ix % yi.nx))) (ascO : AscRow (yo.row (ix % yo.nx)))
    (hd : ∀ i : Int, 0 ≤ i → i < yi.ny → vari.get (ix % vari.nx) i ≠ none) (i : Int) (hi0 : 0 ≤ i) (hi1 : i < yi.ny)
    (he : yo.get (ix % yo.nx) j = yi.get (ix % yi.nx) i) :
    (linear1d vari yi yo).get ix j = vari.get (ix % vari.nx) i := by
  obtain ⟨a, ha⟩ := Option.ne_none_iff_exists'.mp (gi.1 i hi0 hi1)
  have ha' : yi.get (ix % yi.nx) i = some a := ha
  rw [ha'] at he
  obtain ⟨x, hxv⟩ := Option.ne_none_iff_exists'.mp (hd i hi0 hi1)
  rw [hxv]
  by_cases hlast : i + 1 < yi.ny
  · obtain ⟨b, hb⟩ := Option.ne_none_iff_exists'.mp (gi.1 (i + 1) (by omega) hlast)
    obtain ⟨y, hyv⟩ := Option.ne_none_iff_exists'.mp (hd (i + 1) (by omega) hlast)
    have hab : a < b := gi.2 i (i + 1) hi0 (by omega) hlast a b ha hb
    rw [(linear_at vari yi yo ix j hx0 hx hj0 hj hv hi ho gi ascO hd a he i a b x y hi0 hlast ha hb hxv hyv (le_refl _) (le_of_lt hab)).2]
    rw [sub_self, zero_div, mul_zero, add_zero]
  · have : 1 ≤ i := by omega
    obtain ⟨b, hb⟩ := Option.ne_none_iff_exists'.mp (gi.1 (i - 1) (by omega) (by show i - 1 < (yi.ny : Int); omega))
    obtain ⟨y, hyv⟩ := Option.ne_none_iff_exists'.mp (hd (i - 1) (by omega) (by omega))
    have hab : b < a := gi.2 (i - 1) i (by omega) (by omega) hi1 b a hb ha
    rw [(linear_at vari yi yo ix j hx0 hx hj0 hj hv hi ho gi ascO hd a he (i - 1) b a y x (by omega) (by omega) hb (by rw [sub_add_cancel]; exact ha) hyv
      (by rw [sub_add_cancel]; exact hxv) (le_of_lt hab) (le_refl _)).2]
    rw [div_self (by linarith : a - b ≠ 0)]
    congr 1; ring

/-- **C203 (and back, linear).** Data without missing values, interpolated by `linear1d` to a finer coordinate and from it back to their own coordinate, are unchanged. -/
theorem C203_round_trip (vari yi ym yo : Mat) (ix j : Int)
    (hx0 : 0 ≤ ix) (hx : ix < max vari.nx yo.nx) (hj0 : 0 ≤ j) (hj : j < yo.ny) (hj' : j < yi.ny)
    (hv : 0 < vari.nx) (hi : 0 < yi.nx) (hm : 0 < ym.nx) (ho : 0 < yo.nx) (h2 : 2 ≤ yi.ny)
    (rv : RowsFit vari.nx (max vari.nx ym.nx)) (ri : RowsFit yi.nx (max vari.nx ym.nx)) (rm : RowsFit ym.nx (max vari.nx ym.nx))
    (gi : GoodCoord (yi.row (ix % yi.nx))) (gm : GoodCoord (ym.row (ix % ym.nx))) (ascO : AscRow (yo.row (ix % yo.nx)))
    (hn : HasNodes (ym.row (ix % ym.nx)) (yi.row (ix % yi.nx))) (hw : WithinEnds (ym.row (ix % ym.nx)) (yi.row (ix % yi.nx)))
    (hd : ∀ i : Int, 0 ≤ i → i < yi.ny → vari.get (ix % vari.nx) i ≠ none)
    (hsame : yo.get (ix % yo.nx) j = yi.get (ix % yi.nx) j) :
    (linear1d (linear1d vari yi ym) ym yo).get ix j = vari.get (ix % vari.nx) j := by
  rw [C203_two_steps vari yi ym yo ix j hx0 hx hj0 hj hv hi hm ho rv ri rm gi gm ascO hn hw hd]
  exact linear_node vari yi yo ix j hx0 hx hj0 hj hv hi ho h2 gi ascO hd j hj0 hj' hsame

/-- at a node `nearest1d` gives the datum, missing or not -/
theorem nearest_node (vari yi yo : Mat) (ix j : Int)
    (hx0 : 0 ≤ ix) (hx : ix < max vari.nx yo.nx) (hj0 : 0 ≤ j) (hj : j < yo.ny)
    (hv : 0 < vari.nx) (hi : 0 < yi.nx) (ho : 0 < yo.nx) (h2 : 2 ≤ yi.ny)
    (gi : GoodCoord (yi.row (ix % yi.nx))) (gO : GoodCoord (yo.row (ix % yo.nx))) (i : Int) (hi0 : 0 ≤ i) (hi1 : i < yi.ny)
    (he : yo.get (ix % yo.nx) j = yi.get (ix % yi.nx) i) :
    (nearest1d vari yi yo).get ix j = vari.get (ix % vari.nx) i := by
  obtain ⟨a, ha⟩ := Option.ne_none_iff_exists'.mp (gi.1 i hi0 hi1)
  have ha' : yi.get (ix % yi.nx) i = some a := ha
  rw [ha'] at he
  have gap : ∀ {r : Row}, GoodCoord r → NoGap r := fun g s t u s0 st tu un _ _ => g.1 t (by omega) (by omega)
  obtain ⟨n, d, n0, n1, hnd, hr, hmin⟩ := (C03_nearest1d vari yi yo ix j hx0 hx hj0 hj hv hi ho gi.2.asc gO.2.asc (gap gi) (gap gO) a he).2
    (node_brackets _ gi h2 i hi0 hi1 a ha)
  rw [hr]
  have h0 := hmin i a hi0 hi1 ha'
  rw [sub_self, abs_zero] at h0
  have had : a = d := by
    have := abs_eq_zero.mp (le_antisymm h0 (abs_nonneg (a - d)))
    linarith
  subst had
  have : n = i := by
    rcases lt_trichotomy n i with h | h | h
    · exact absurd (gi.2 n i n0 h hi1 a a hnd ha) (lt_irrefl _)
    · exact h
    · exact absurd (gi.2 i n hi0 h n1 a a ha hnd) (lt_irrefl _)
  rw [this]

/-- **C203 (and back, nearest).** Any data, interpolated by `nearest1d` to a coordinate that has all the nodes of their own one (and may go beyond) and from it back, are
unchanged, missing values included. -/
theorem C203_round_trip_nearest (vari yi ym yo : Mat) (ix j : Int)
    (hx0 : 0 ≤ ix) (hx : ix < max vari.nx yo.nx) (hj0 : 0 ≤ j) (hj : j < yo.ny) (hj' : j < yi.ny)
    (hv : 0 < vari.nx) (hi : 0 < yi.nx) (hm : 0 < ym.nx) (ho : 0 < yo.nx) (h2 : 2 ≤ yi.ny)
    (rv : RowsFit vari.nx (max vari.nx ym.nx)) (ri : RowsFit yi.nx (max vari.nx ym.nx)) (rm : RowsFit ym.nx (max vari.nx ym.nx))
    (gi : GoodCoord (yi.row (ix % yi.nx))) (gm : GoodCoord (ym.row (ix % ym.nx))) (gO : GoodCoord (yo.row (ix % yo.nx)))
    (hn : HasNodes (ym.row (ix % ym.nx)) (yi.row (ix % yi.nx)))
    (hsame : yo.get (ix % yo.nx) j = yi.get (ix % yi.nx) j) :
    (nearest1d (nearest1d vari yi ym) ym yo).get ix j = vari.get (ix % vari.nx) j := by
  have hnx : (nearest1d vari yi ym).nx = max vari.nx ym.nx := rfl
  have hN : 0 < (nearest1d vari yi ym).nx := lt_of_lt_of_le hv (le_max_left _ _)
  have hx2 : ix < max (nearest1d vari yi ym).nx yo.nx := lt_of_lt_of_le hx (by
    rw [hnx]
    have : max vari.nx yo.nx ≤ max (max vari.nx ym.nx) yo.nx := max_le_max (le_max_left _ _) (le_refl _)
    exact_mod_cast this)
  obtain ⟨a, ha⟩ := Option.ne_none_iff_exists'.mp (gi.1 j hj0 hj')
  have ha' : yi.get (ix % yi.nx) j = some a := ha
  obtain ⟨k, k0, k1, hk⟩ := hn j a hj0 hj' ha
  have hk' : ym.get (ix % ym.nx) k = some a := hk
  -- two nodes in the intermediate coordinate
  have hm2 : 2 ≤ ym.ny := by
    obtain ⟨a0, h0⟩ := Option.ne_none_iff_exists'.mp (gi.1 0 (le_refl _) (by show (0 : Int) < (yi.ny : Int); omega))
    obtain ⟨a1, h1⟩ := Option.ne_none_iff_exists'.mp (gi.1 1 (by omega) (by show (1 : Int) < (yi.ny : Int); omega))
    have hlt : a0 < a1 := gi.2 0 1 (le_refl _) (by omega) (by show (1 : Int) < (yi.ny : Int); omega) a0 a1 h0 h1
    obtain ⟨p, p0, p1, hp⟩ := hn 0 a0 (le_refl _) (by show (0 : Int) < (yi.ny : Int); omega) h0
    obtain ⟨q, q0, q1, hq⟩ := hn 1 a1 (by omega) (by show (1 : Int) < (yi.ny : Int); omega) h1
    have := gm.lt_of_lt p0 p1 q0 q1 hp hq hlt
    have q1' : q < (ym.ny : Int) := q1
    omega
  rw [nearest_node (nearest1d vari yi ym) ym yo ix j hx0 hx2 hj0 hj hN hm ho hm2 gm gO k k0 k1 (by rw [hsame, ha', hk'])]
  have e0 : (0 : Int) ≤ ix % ((nearest1d vari yi ym).nx : Int) := Int.emod_nonneg _ (by omega)
  have e1 : ix % ((nearest1d vari yi ym).nx : Int) < ((max vari.nx ym.nx : Nat) : Int) := Int.emod_lt_of_pos _ (by exact_mod_cast hN)
  have ev := rv.mod ix
  have ei := ri.mod ix
  have em := rm.mod ix
  rw [← hnx] at ev ei em
  have := nearest_node vari yi ym (ix % (nearest1d vari yi ym).nx) k e0 (by exact_mod_cast e1) k0 k1 hv hi hm h2 (by rw [ei]; exact gi) (by rw [em]; exact gm)
    j hj0 hj' (by rw [ei, em, ha', hk'])
  rw [this, ev]

/-- the nodes of a coordinate within the ends of another one are in its intervals -/
theorem within_brackets (f r : Row) (g : GoodCoord r) (h2 : 2 ≤ r.n) (hw : WithinEnds f r) (l : Int) (l0 : 0 ≤ l) (l1 : l < f.n) (m : ℚ)
    (hl : f.get l = some m) : ∃ u, Brackets r u m := by
  obtain ⟨⟨s, sa, s0, s1, hs, hsm⟩, ⟨t, ta, t0, t1, ht, hmt⟩⟩ := hw l m l0 l1 hl
  rcases lt_trichotomy s t with h | h | h
  · obtain ⟨u, -, -, hu⟩ := brackets_between r g.1 m (t - s - 1).toNat s sa ta s0 (by omega) hs
      (by rw [show s + ((t - s - 1).toNat : Int) + 1 = t by omega]; exact ht) hsm hmt
    exact ⟨u, hu⟩
  · subst h
    rw [hs] at ht; cases ht
    have em : m = sa := le_antisymm hmt hsm
    subst em
    exact node_brackets r g h2 s s0 s1 m hs
  · have : ta < sa := g.2 t s t0 h s1 ta sa ht hs
    linarith

/-- **C203 (and back, cubic and Hermite).** The same for `cubic1d` and `hermit1d`, with any bias and tension in each of both steps. -/
theorem C203_round_trip_cubic_hermit (vari yi ym yo : Mat) (b1 t1 b2 t2 : ℚ) (ix j : Int)
    (hx0 : 0 ≤ ix) (hx : ix < vari.nx) (hj0 : 0 ≤ j) (hj : j < yo.ny) (hj' : j < yi.ny)
    (hi : 0 < yi.nx) (hm : 0 < ym.nx) (ho : 0 < yo.nx) (h2 : 2 ≤ yi.ny)
    (gi : GoodCoord (yi.row (ix % yi.nx))) (gm : GoodCoord (ym.row (ix % ym.nx))) (ascO : AscRow (yo.row (ix % yo.nx)))
    (hn : HasNodes (ym.row (ix % ym.nx)) (yi.row (ix % yi.nx))) (hw : WithinEnds (ym.row (ix % ym.nx)) (yi.row (ix % yi.nx)))
    (hd : ∀ i : Int, 0 ≤ i → i < yi.ny → vari.get ix i ≠ none)
    (hsame : yo.get (ix % yo.nx) j = yi.get (ix % yi.nx) j) :
    (cubic1d (cubic1d vari yi ym) ym yo).get ix j = vari.get ix j ∧
    (hermit1d (hermit1d vari yi ym b1 t1) ym yo b2 t2).get ix j = vari.get ix j := by
  obtain ⟨a, ha⟩ := Option.ne_none_iff_exists'.mp (gi.1 j hj0 hj')
  have ha' : yi.get (ix % yi.nx) j = some a := ha
  obtain ⟨k, k0, k1, hk⟩ := hn j a hj0 hj' ha
  have hk' : ym.get (ix % ym.nx) k = some a := hk
  have k1' : k < (ym.ny : Int) := k1
  have hm2 : 2 ≤ ym.ny := by
    obtain ⟨a0, h0⟩ := Option.ne_none_iff_exists'.mp (gi.1 0 (le_refl _) (by show (0 : Int) < (yi.ny : Int); omega))
    obtain ⟨a1, h1⟩ := Option.ne_none_iff_exists'.mp (gi.1 1 (by omega) (by show (1 : Int) < (yi.ny : Int); omega))
    have hlt : a0 < a1 := gi.2 0 1 (le_refl _) (by omega) (by show (1 : Int) < (yi.ny : Int); omega) a0 a1 h0 h1
    obtain ⟨p, p0, p1, hp⟩ := hn 0 a0 (le_refl _) (by show (0 : Int) < (yi.ny : Int); omega) h0
    obtain ⟨q, q0, q1, hq⟩ := hn 1 a1 (by omega) (by show (1 : Int) < (yi.ny : Int); omega) h1
    have := gm.lt_of_lt p0 p1 q0 q1 hp hq hlt
    have q1' : q < (ym.ny : Int) := q1
    omega
  -- the data as a function
  let p : Int → ℚ := fun i => (vari.get ix i).getD 0
  have hp : ∀ m : Int, 0 ≤ m → m < yi.ny → vari.get ix m = some (p m) := by
    intro m m0 m1
    obtain ⟨x, hx⟩ := Option.ne_none_iff_exists'.mp (hd m m0 m1)
    show vari.get ix m = some ((vari.get ix m).getD 0)
    rw [hx]; rfl
  have hbk : ∃ u, Brackets (ym.row (ix % ym.nx)) u a := node_brackets _ gm hm2 k k0 k1 a hk
  have hbj : ∃ u, Brackets (yi.row (ix % yi.nx)) u a := node_brackets _ gi h2 j hj0 hj' a ha
  have hyo : yo.get (ix % yo.nx) j = some a := by rw [hsame, ha']
  have hxm : ix < ((max vari.nx ym.nx : Nat) : Int) := lt_of_lt_of_le hx (by exact_mod_cast le_max_left _ _)
  constructor
  · rw [C05_cubic1d_node (cubic1d vari yi ym) ym yo ix j hx0 hxm hj0 hj hm ho gm.2 ascO k k0 k1' a hyo hk' hbk ?_]
    · exact C05_cubic1d_node vari yi ym ix k hx0 hx k0 k1' hi hm gi.2 gm.2.asc j hj0 hj' a hk' ha' hbj (fun m m0 m1 _ _ => hd m m0 m1)
    · intro m m0 m1 _ _
      obtain ⟨c, hc⟩ := Option.ne_none_iff_exists'.mp (gm.1 m m0 m1)
      obtain ⟨_, _, _, _, _, _, _, _, _, _, e⟩ := C05_cubic1d_formula vari yi ym ix m hx0 hx m0 m1 hi hm gi.2 gm.2.asc c hc
        (within_brackets _ _ gi h2 hw m m0 m1 c hc) p hp
      rw [e]; exact Option.some_ne_none _
  · rw [C05_hermit1d_node (hermit1d vari yi ym b1 t1) ym yo b2 t2 ix j hx0 hxm hj0 hj hm ho gm.2 ascO k k0 k1' a hyo hk' hbk ?_]
    · exact C05_hermit1d_node vari yi ym b1 t1 ix k hx0 hx k0 k1' hi hm gi.2 gm.2.asc j hj0 hj' a hk' ha' hbj (fun m m0 m1 _ _ => hd m m0 m1)
    · intro m m0 m1 _ _
      obtain ⟨c, hc⟩ := Option.ne_none_iff_exists'.mp (gm.1 m m0 m1)
      obtain ⟨_, _, _, _, _, _, _, _, _, _, e⟩ := C05_hermit1d_formula vari yi ym b1 t1 ix m hx0 hx m0 m1 hi hm gi.2 gm.2.asc c hc
        (within_brackets _ _ gi h2 hw m m0 m1 c hc) p hp
      rw [e]; exact Option.some_ne_none _

/-! ## non-vacuity and limits -/

def exFineV : Mat := Mat.ofLists [[some 1, some 5, some 2]]
def exFineYm : Mat := Mat.ofLists [[some 0, some 1, some 2, some (5 / 2), some 4]]
def exFineYo : Mat := Mat.ofLists [[some (-1), some (1 / 2), some 2, some 3, some 4]]

/-- the hypotheses hold of a coordinate `0, 2, 4` and of the finer one `0, 1, 2, 5/2, 4` -/
theorem exFine_hyps : GoodCoord (exYi.row 0) ∧ GoodCoord (exFineYm.row 0) ∧ HasNodes (exFineYm.row 0) (exYi.row 0) ∧
    WithinEnds (exFineYm.row 0) (exYi.row 0) := by
  have i3 : ∀ i : Int, 0 ≤ i → i < ((exYi.row 0).n : Int) → i = 0 ∨ i = 1 ∨ i = 2 := by
    intro i h0 h1
    have : (exYi.row 0).n = 3 := rfl
    rw [this] at h1
    omega
  have i5 : ∀ i : Int, 0 ≤ i → i < ((exFineYm.row 0).n : Int) → i = 0 ∨ i = 1 ∨ i = 2 ∨ i = 3 ∨ i = 4 := by
    intro i h0 h1
    have : (exFineYm.row 0).n = 5 := rfl
    rw [this] at h1
    omega
  have v0 : (exYi.row 0).get 0 = some 0 := rfl
  have v1 : (exYi.row 0).get 1 = some 2 := rfl
  have v2 : (exYi.row 0).get 2 = some 4 := rfl
  have w0 : (exFineYm.row 0).get 0 = some 0 := rfl
  have w1 : (exFineYm.row 0).get 1 = some 1 := rfl
  have w2 : (exFineYm.row 0).get 2 = some 2 := rfl
  have w3 : (exFineYm.row 0).get 3 = some (5 / 2) := rfl
  have w4 : (exFineYm.row 0).get 4 = some 4 := rfl
  refine ⟨⟨?_, ?_⟩, ⟨?_, ?_⟩, ?_, ?_⟩
  · intro i h0 h1
    rcases i3 i h0 h1 with rfl | rfl | rfl
    · rw [v0]; exact Option.some_ne_none _
    · rw [v1]; exact Option.some_ne_none _
    · rw [v2]; exact Option.some_ne_none _
  · intro i j h0 hij hj a b ha hb
    rcases i3 i h0 (by omega) with rfl | rfl | rfl <;> rcases i3 j (by omega) hj with rfl | rfl | rfl <;>
      simp only [v0, v1, v2, Option.some.injEq] at ha hb <;> subst ha <;> subst hb <;> first | omega | norm_num
  · intro i h0 h1
    rcases i5 i h0 h1 with rfl | rfl | rfl | rfl | rfl
    · rw [w0]; exact Option.some_ne_none _
    · rw [w1]; exact Option.some_ne_none _
    · rw [w2]; exact Option.some_ne_none _
    · rw [w3]; exact Option.some_ne_none _
    · rw [w4]; exact Option.some_ne_none _
  · intro i j h0 hij hj a b ha hb
    rcases i5 i h0 (by omega) with rfl | rfl | rfl | rfl | rfl <;> rcases i5 j (by omega) hj with rfl | rfl | rfl | rfl | rfl <;>
      simp only [w0, w1, w2, w3, w4, Option.some.injEq] at ha hb <;> subst ha <;> subst hb <;> first | omega | norm_num
  · intro i a h0 h1 ha
    rcases i3 i h0 h1 with rfl | rfl | rfl
    · exact ⟨0, by norm_num, by show (0 : Int) < 5; norm_num, by rw [w0, ← ha, v0]⟩
    · exact ⟨2, by norm_num, by show (2 : Int) < 5; norm_num, by rw [w2, ← ha, v1]⟩
    · exact ⟨4, by norm_num, by show (4 : Int) < 5; norm_num, by rw [w4, ← ha, v2]⟩
  · intro k m h0 h1 hm
    refine ⟨⟨0, 0, le_refl _, by show (0 : Int) < 3; norm_num, v0, ?_⟩, ⟨2, 4, by norm_num, by show (2 : Int) < 3; norm_num, v2, ?_⟩⟩ <;>
      rcases i5 k h0 h1 with rfl | rfl | rfl | rfl | rfl <;> simp only [w0, w1, w2, w3, w4, Option.some.injEq] at hm <;> subst hm <;> norm_num

example : ((List.range 5).map (fun j : Nat => (linear1d (linear1d exFineV exYi exFineYm) exFineYm exFineYo).get 0 j)) =
    [none, some 2, some 5, some (7 / 2), some 2] := by decide +kernel
example : ((List.range 5).map (fun j : Nat => (linear1d exFineV exYi exFineYo).get 0 j)) =
    [none, some 2, some 5, some (7 / 2), some 2] := by decide +kernel
example : ((List.range 3).map (fun j : Nat => (linear1d (linear1d exFineV exYi exFineYm) exFineYm exYi).get 0 j)) = [some 1, some 5, some 2] := by
  decide +kernel
example : ((List.range 3).map (fun j : Nat => (cubic1d (cubic1d exFineV exYi exFineYm) exFineYm exYi).get 0 j)) = [some 1, some 5, some 2] := by
  decide +kernel
example : ((List.range 3).map (fun j : Nat => (nearest1d (nearest1d exFineV exYi exFineYm) exFineYm exYi).get 0 j)) = [some 1, some 5, some 2] := by
  decide +kernel

/-- remark: a finer coordinate that goes beyond the last node loses the last datum, because the linear interpolation gives a missing value beyond it, and at a node before a missing value -/
theorem linear_beyond_loses_last :
    (linear1d (linear1d exFineV exYi (Mat.ofLists [[some 0, some 2, some 4, some 6]])) (Mat.ofLists [[some 0, some 2, some 4, some 6]]) exYi).get 0 2 = none := by
  decide +kernel

end Xoa
