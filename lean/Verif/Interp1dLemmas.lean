import Verif.Interp1d
import Verif.Interp1dSpec
import Mathlib.Tactic.Linarith
import Mathlib.Tactic.FieldSimp
import Mathlib.Tactic.Ring

/-! Helper lemmas for the 1-D routines. -/

namespace Xoa
open V

/-! ### get_iminmax -/

theorem iminmaxLoop_spec (d : Row) :
    ∀ (m : Nat) (k imin imax : Int), 0 ≤ k → k + m = d.n →
    -- invariant on what has been scanned
    ((imin = -1 ∧ ∀ i : Int, 0 ≤ i → i < k → d.get i = none) ∨
      (0 ≤ imin ∧ imin < k ∧ d.get imin ≠ none ∧ ∀ i : Int, 0 ≤ i → i < imin → d.get i = none)) →
    ((imax = -1 ∧ ∀ i : Int, (d.n : Int) - k ≤ i → i < d.n → d.get i = none) ∨
      ((d.n : Int) - k ≤ imax ∧ imax < d.n ∧ d.get imax ≠ none ∧
        ∀ i : Int, imax < i → i < d.n → d.get i = none)) →
    let r := iminmaxLoop d (pyRange k d.n) imin imax
    ((r.1 = -1 ∧ r.2 = -1 ∧ ∀ i : Int, 0 ≤ i → i < d.n → d.get i = none) ∨
      (0 ≤ r.1 ∧ r.1 ≤ r.2 ∧ r.2 < d.n ∧ d.get r.1 ≠ none ∧ d.get r.2 ≠ none ∧
        (∀ i : Int, 0 ≤ i → i < r.1 → d.get i = none) ∧ (∀ i : Int, r.2 < i → i < d.n → d.get i = none))) := by
  intro m
  induction m with
  | zero =>
    intro k imin imax hk hkn h1 h2
    have : (d.n : Int) ≤ k := by omega
    rw [pyRange_nil this]
    simp only [iminmaxLoop]
    rcases h1 with ⟨e1, n1⟩ | ⟨p1, q1, r1, s1⟩
    · left
      rcases h2 with ⟨e2, n2⟩ | ⟨p2, q2, r2, s2⟩
      · exact ⟨e1, e2, fun i a b => n1 i a (by omega)⟩
      · exact absurd (n1 imax (by omega) (by omega)) r2
    · right
      rcases h2 with ⟨e2, n2⟩ | ⟨p2, q2, r2, s2⟩
      · exact absurd (n2 imin (by omega) (by omega)) r1
      · refine ⟨p1, ?_, q2, r1, r2, s1, s2⟩
        by_contra hlt
        exact r1 (s2 imin (by omega) (by omega))
  | succ m ih =>
    intro k imin imax hk hkn h1 h2
    have hlt : k < d.n := by omega
    rw [pyRange_cons hlt]
    simp only [iminmaxLoop]
    rw [Row.rd_nonneg d hk, Row.rd_nonneg d (by omega : (0:Int) ≤ (d.n : Int) - 1 - k)]
    -- new imin / imax invariants at k+1
    have H1 : ∀ imin', imin' = (if imin < 0 ∧ isnan (d.get k) = false then k else imin) →
        ((imin' = -1 ∧ ∀ i : Int, 0 ≤ i → i < k + 1 → d.get i = none) ∨
        (0 ≤ imin' ∧ imin' < k + 1 ∧ d.get imin' ≠ none ∧ ∀ i : Int, 0 ≤ i → i < imin' → d.get i = none)) := by
      intro imin' e
      rcases h1 with ⟨e1, n1⟩ | ⟨p1, q1, r1, s1⟩
      · by_cases hn : isnan (d.get k) = false
        · rw [if_pos ⟨by omega, hn⟩] at e
          right
          subst e
          obtain ⟨x, hx⟩ := not_isnan_iff.1 hn
          exact ⟨hk, by omega, by simp [hx], n1⟩
        · rw [if_neg (by tauto)] at e
          left
          refine ⟨by omega, fun i a b => ?_⟩
          by_cases hik : i = k
          · subst hik
            cases hd : d.get i with
            | none => rfl
            | some x => simp [hd] at hn
          · exact n1 i a (by omega)
      · rw [if_neg (by omega)] at e
        subst e
        exact Or.inr ⟨p1, by omega, r1, s1⟩
    have H2 : ∀ imax', imax' = (if imax < 0 ∧ isnan (d.get ((d.n : Int) - 1 - k)) = false
          then (d.n : Int) - 1 - k else imax) →
        ((imax' = -1 ∧ ∀ i : Int, (d.n : Int) - (k + 1) ≤ i → i < d.n → d.get i = none) ∨
        ((d.n : Int) - (k + 1) ≤ imax' ∧ imax' < d.n ∧ d.get imax' ≠ none ∧
          ∀ i : Int, imax' < i → i < d.n → d.get i = none)) := by
      intro imax' e
      rcases h2 with ⟨e1, n1⟩ | ⟨p1, q1, r1, s1⟩
      · by_cases hn : isnan (d.get ((d.n : Int) - 1 - k)) = false
        · rw [if_pos ⟨by omega, hn⟩] at e
          right
          obtain ⟨x, hx⟩ := not_isnan_iff.1 hn
          subst e
          exact ⟨by omega, by omega, by simp [hx], fun i a b => n1 i (by omega) b⟩
        · rw [if_neg (by tauto)] at e
          left
          refine ⟨by omega, fun i a b => ?_⟩
          by_cases hik : i = (d.n : Int) - 1 - k
          · subst hik
            cases hd : d.get ((d.n : Int) - 1 - k) with
            | none => rfl
            | some x => simp [hd] at hn
          · exact n1 i (by omega) b
      · rw [if_neg (by omega)] at e
        subst e
        exact Or.inr ⟨by omega, q1, r1, s1⟩
    specialize H1 _ rfl
    specialize H2 _ rfl
    generalize (if imin < 0 ∧ isnan (d.get k) = false then k else imin) = imin' at *
    generalize (if imax < 0 ∧ isnan (d.get ((d.n : Int) - 1 - k)) = false
          then (d.n : Int) - 1 - k else imax) = imax' at *
    split
    · next hb =>
      right
      obtain ⟨hb1, hb2⟩ := hb
      rcases H1 with ⟨e1, _⟩ | ⟨p1, q1, r1, s1⟩
      · omega
      · rcases H2 with ⟨e2, _⟩ | ⟨p2, q2, r2, s2⟩
        · omega
        · refine ⟨p1, ?_, q2, r1, r2, s1, s2⟩
          by_contra hlt'
          exact r1 (s2 imin' (by omega) (by omega))
    · exact ih (k + 1) imin' imax' (by omega) (by push_cast at hkn; omega) H1 H2

/-- What `get_iminmax` computes. -/
theorem getIminmax_spec (d : Row) :
    ((getIminmax d).1 = -1 ∧ (getIminmax d).2 = -1 ∧ ∀ i : Int, 0 ≤ i → i < d.n → d.get i = none) ∨
      (0 ≤ (getIminmax d).1 ∧ (getIminmax d).1 ≤ (getIminmax d).2 ∧ (getIminmax d).2 < d.n ∧
        d.get (getIminmax d).1 ≠ none ∧ d.get (getIminmax d).2 ≠ none ∧
        (∀ i : Int, 0 ≤ i → i < (getIminmax d).1 → d.get i = none) ∧
        (∀ i : Int, (getIminmax d).2 < i → i < d.n → d.get i = none)) := by
  have := iminmaxLoop_spec d d.n 0 (-1) (-1) (by omega) (by omega)
    (Or.inl ⟨rfl, fun i a b => absurd b (by omega)⟩)
    (Or.inl ⟨rfl, fun i a b => absurd b (by omega)⟩)
  exact this

/-! ### The nearest/linear scan -/

section nl
variable (yi yo : Row) (w : Int → V → V → Option V)

/-- what the inner loop writes at `(iyi, iyo)`, if reached -/
def nlHit (iyi iyo : Int) : Option V :=
  let dy0 := sub (yo.rd iyo) (yi.rd iyi)
  let dy1 := sub (yi.rd (iyi + 1)) (yo.rd iyo)
  if lt dy1 (some 0) then none
  else if lt dy0 (some 0) then none
  else w iyi dy0 dy1

/-- Inner loop: for each output point of the range. -/
theorem nlInner_spec (iyi : Int) (iyomin0 iyomax : Int) (h00 : 0 ≤ iyomin0)
    -- once above, always above
    (hab : ∀ k l, iyomin0 ≤ k → k ≤ l → l ≤ iyomax →
      lt (sub (yi.rd (iyi + 1)) (yo.rd k)) (some 0) = true → nlHit yi yo w iyi l = none) :
    ∀ (m : Nat) (k iyomin : Int) (out : Int → V), iyomin0 ≤ k → k + m = iyomax + 1 →
      let r := nlInner yi yo w iyi (pyRange k (iyomax + 1)) iyomin out
      (∀ j, r.2 j = if k ≤ j ∧ j ≤ iyomax then (nlHit yi yo w iyi j).getD (out j) else out j) ∧
      (r.1 = iyomin ∨ (∃ j, k ≤ j ∧ j ≤ iyomax ∧ r.1 = j + 1 ∧
        lt (sub (yo.rd j) (yi.rd iyi)) (some 0) = true)) := by
  intro m
  induction m with
  | zero =>
    intro k iyomin out hk hm
    rw [pyRange_nil (by omega)]
    refine ⟨fun j => ?_, Or.inl rfl⟩
    rw [if_neg (by omega)]; rfl
  | succ m ih =>
    intro k iyomin out hk hm
    rw [pyRange_cons (by omega)]
    simp only [nlInner]
    by_cases h1 : lt (sub (yi.rd (iyi + 1)) (yo.rd k)) (some 0) = true
    · rw [if_pos h1]
      refine ⟨fun j => ?_, Or.inl rfl⟩
      split
      · next hj => rw [hab k j hk hj.1 hj.2 h1]; rfl
      · rfl
    · rw [if_neg h1]
      by_cases h0 : lt (sub (yo.rd k) (yi.rd iyi)) (some 0) = true
      · rw [if_pos h0]
        obtain ⟨ha, hb⟩ := ih (k + 1) (k + 1) out (by omega) (by push_cast at hm; omega)
        refine ⟨fun j => ?_, ?_⟩
        · rw [ha j]
          by_cases hjk : j = k
          · subst hjk
            rw [if_neg (by omega), if_pos ⟨by omega, by push_cast at hm; omega⟩]
            simp [nlHit, h1, h0]
          · by_cases hj : k ≤ j ∧ j ≤ iyomax
            · rw [if_pos hj, if_pos ⟨by omega, hj.2⟩]
            · rw [if_neg hj, if_neg (by omega)]
        · right
          rcases hb with hb | ⟨j, j1, j2, j3, j4⟩
          · exact ⟨k, le_refl _, by push_cast at hm; omega, hb, h0⟩
          · exact ⟨j, by omega, j2, j3, j4⟩
      · rw [if_neg h0]
        have hhit : nlHit yi yo w iyi k =
            w iyi (sub (yo.rd k) (yi.rd iyi)) (sub (yi.rd (iyi + 1)) (yo.rd k)) := by
          simp [nlHit, h1, h0]
        have key : ∀ out' : Int → V, (∀ j, out' j = if j = k then (nlHit yi yo w iyi k).getD (out k) else out j) →
            let r := nlInner yi yo w iyi (pyRange (k+1) (iyomax + 1)) iyomin out'
            (∀ j, r.2 j = if k ≤ j ∧ j ≤ iyomax then (nlHit yi yo w iyi j).getD (out j) else out j) ∧
            (r.1 = iyomin ∨ (∃ j, k ≤ j ∧ j ≤ iyomax ∧ r.1 = j + 1 ∧
              lt (sub (yo.rd j) (yi.rd iyi)) (some 0) = true)) := by
          intro out' hout'
          obtain ⟨ha, hb⟩ := ih (k + 1) iyomin out' (by omega) (by push_cast at hm; omega)
          refine ⟨fun j => ?_, ?_⟩
          · rw [ha j]
            by_cases hjk : j = k
            · subst hjk
              rw [if_neg (by omega), if_pos ⟨by omega, by push_cast at hm; omega⟩, hout', if_pos rfl]
            · by_cases hj : k ≤ j ∧ j ≤ iyomax
              · rw [if_pos hj, if_pos ⟨by omega, hj.2⟩, hout', if_neg hjk]
              · rw [if_neg hj, if_neg (by omega), hout', if_neg hjk]
          · rcases hb with hb | ⟨j, j1, j2, j3, j4⟩
            · exact Or.inl hb
            · exact Or.inr ⟨j, by omega, j2, j3, j4⟩
        cases hw : w iyi (sub (yo.rd k) (yi.rd iyi)) (sub (yi.rd (iyi + 1)) (yo.rd k)) with
        | some v =>
          simp only
          apply key
          intro j
          rw [wr1_nonneg _ _ _ (by omega : 0 ≤ k), hhit, hw]
          rfl
        | none =>
          simp only
          apply key
          intro j
          rw [hhit, hw]
          split
          · next h => rw [h]; rfl
          · rfl

/-- Value accumulated at output point `k` by a list of intervals: the last hit wins. -/
def nlAcc (k : Int) (l : List Int) (v : V) : V :=
  l.foldl (fun acc i => (nlHit yi yo w i k).getD acc) v

theorem nlAcc_none (k : Int) (l : List Int) (v : V)
    (h : ∀ i ∈ l, nlHit yi yo w i k = none) : nlAcc yi yo w k l v = v := by
  induction l generalizing v with
  | nil => rfl
  | cons a l ih =>
    simp only [nlAcc, List.foldl_cons]
    rw [h a (by simp)]
    exact ih v (fun i hi => h i (by simp [hi]))

/-- Outer loop. -/
theorem nlOuter_spec (hyi : AscRow yi) (hyo : AscRow yo) (iyomin0 iyomax imin imax : Int)
    (h0 : 0 ≤ iyomin0) (hi0 : 0 ≤ imin) (hmax : iyomax < yo.n) (himax : imax < yi.n)
    (hw : ∀ i k, imin ≤ i → i < imax → iyomin0 ≤ k → k ≤ iyomax → nlHit yi yo w i k ≠ none →
      (yi.get i ≠ none ∧ yi.get (i + 1) ≠ none ∧ yo.get k ≠ none)) :
    ∀ (m : Nat) (i iyomin : Int) (out : Int → V), imin ≤ i → i + m = imax →
      iyomin0 ≤ iyomin → iyomin ≤ iyomax →
      (∀ k, iyomin0 ≤ k → k < iyomin → ∀ i', i ≤ i' → i' < imax → nlHit yi yo w i' k = none) →
      ∀ j, nlOuter yi yo w iyomax (pyRange i imax) iyomin out j =
        if iyomin0 ≤ j ∧ j ≤ iyomax then nlAcc yi yo w j (pyRange i imax) (out j) else out j := by
  -- a hit bounds the coordinates
  have hitb : ∀ i k, imin ≤ i → i < imax → iyomin0 ≤ k → k ≤ iyomax → nlHit yi yo w i k ≠ none →
      ∃ a b c, yi.get i = some a ∧ yi.get (i + 1) = some b ∧ yo.get k = some c ∧ a ≤ c ∧ c ≤ b := by
    intro i k a1 a2 a3 a4 hh
    obtain ⟨h1, h2, h3⟩ := hw i k a1 a2 a3 a4 hh
    have a1 : 0 ≤ i := by omega
    obtain ⟨a, ha⟩ := Option.ne_none_iff_exists'.1 h1
    obtain ⟨b, hb⟩ := Option.ne_none_iff_exists'.1 h2
    obtain ⟨c, hc⟩ := Option.ne_none_iff_exists'.1 h3
    refine ⟨a, b, c, ha, hb, hc, ?_⟩
    unfold nlHit at hh
    rw [Row.rd_nonneg yi a1, Row.rd_nonneg yi (by omega : 0 ≤ i + 1), Row.rd_nonneg yo (by omega : 0 ≤ k), ha, hb, hc] at hh
    simp only [sub_some, lt_some, decide_eq_true_eq] at hh
    split at hh
    · exact absurd rfl hh
    · split at hh
      · exact absurd rfl hh
      · constructor <;> linarith
  intro m
  induction m with
  | zero =>
    intro i iyomin out hi hm hl hu hbelow j
    rw [pyRange_nil (by omega)]
    simp [nlOuter, nlAcc]
  | succ m ih =>
    intro i iyomin out hii hm hl hu hbelow j
    have hi : 0 ≤ i := by omega
    rw [pyRange_cons (by omega)]
    simp only [nlOuter]
    have hrest : i + 1 + (m : Int) = imax := by push_cast at hm; omega
    by_cases hc1 : lt (yi.rd (i + 1)) (yo.rd iyomin) = true
    · -- continue
      rw [if_pos hc1]
      rw [ih (i + 1) iyomin out (by omega) hrest hl hu (fun k a b i' c d => hbelow k a b i' (by omega) d) j]
      by_cases hj : iyomin0 ≤ j ∧ j ≤ iyomax
      · rw [if_pos hj, if_pos hj]
        have hnone : nlHit yi yo w i j = none := by
          by_cases hjm : j < iyomin
          · exact hbelow j hj.1 hjm i (le_refl _) (by omega)
          · by_contra hne
            obtain ⟨a, b, c, ha, hb, hc, h1, h2⟩ := hitb i j hii (by omega) hj.1 hj.2 hne
            rw [Row.rd_nonneg yi (by omega : 0 ≤ i + 1), hb, Row.rd_nonneg yo (by omega : 0 ≤ iyomin), lt_iff] at hc1
            obtain ⟨x, y, hx, hy, hxy⟩ := hc1
            have := hyo iyomin j (by omega) (by omega) (by omega) y c hy hc
            cases hx
            linarith
        simp only [nlAcc, List.foldl_cons]
        rw [hnone]; rfl
      · rw [if_neg hj, if_neg hj]
    · rw [if_neg hc1]
      by_cases hc2 : lt (yo.rd iyomax) (yi.rd i) = true
      · -- break
        rw [if_pos hc2]
        by_cases hj : iyomin0 ≤ j ∧ j ≤ iyomax
        · rw [if_pos hj, ← pyRange_cons (by omega), nlAcc_none]
          intro i' hi'
          rw [mem_pyRange] at hi'
          by_contra hne
          obtain ⟨a, b, c, ha, hb, hc, h1, h2⟩ := hitb i' j (by omega) hi'.2 hj.1 hj.2 hne
          rw [Row.rd_nonneg yi hi, Row.rd_nonneg yo (by omega : 0 ≤ iyomax), lt_iff] at hc2
          obtain ⟨x, y, hx, hy, hxy⟩ := hc2
          have e1 := hyo j iyomax (by omega) hj.2 hmax c x hc hx
          have e2 := hyi i i' hi hi'.1 (by omega) y a hy ha
          linarith
        · rw [if_neg hj]
      · rw [if_neg hc2]
        -- inner loop
        have hab : ∀ k l, iyomin0 ≤ k → k ≤ l → l ≤ iyomax →
            lt (sub (yi.rd (i + 1)) (yo.rd k)) (some 0) = true → nlHit yi yo w i l = none := by
          intro k l k0 kl lm hlt
          by_contra hne
          obtain ⟨a, b, c, ha, hb, hc, h1, h2⟩ := hitb i l hii (by omega) (by omega) lm hne
          rw [Row.rd_nonneg yi (by omega : 0 ≤ i + 1), Row.rd_nonneg yo (by omega : 0 ≤ k), hb] at hlt
          cases hk : yo.get k with
          | none => rw [hk] at hlt; simp at hlt
          | some c' =>
            rw [hk] at hlt
            simp only [sub_some, lt_some, decide_eq_true_eq] at hlt
            have := hyo k l (by omega) kl (by omega) c' c hk hc
            linarith
        obtain ⟨hA, hB⟩ := nlInner_spec yi yo w i iyomin0 iyomax h0 hab
          (iyomax + 1 - iyomin).toNat iyomin iyomin out (by omega) (by omega)
        generalize nlInner yi yo w i (pyRange iyomin (iyomax + 1)) iyomin out = r at *
        have hr : iyomin0 ≤ r.1 ∧ r.1 ≤ iyomax ∧
            (∀ k, iyomin0 ≤ k → k < r.1 → ∀ i', i + 1 ≤ i' → i' < imax → nlHit yi yo w i' k = none) := by
          rcases hB with hB | ⟨j', j1, j2, j3, j4⟩
          · rw [hB]
            exact ⟨hl, hu, fun k a b i' c d => hbelow k a b i' (by omega) d⟩
          · rw [Row.rd_nonneg yi hi, Row.rd_nonneg yo (by omega : 0 ≤ j'), lt_iff] at j4
            obtain ⟨x, y, hx, hy, hxy⟩ := j4
            cases hyj : yo.get j' with
            | none => rw [hyj] at hx; simp at hx
            | some c =>
              cases hyi' : yi.get i with
              | none => rw [hyi'] at hx; simp at hx
              | some a =>
                rw [hyj, hyi'] at hx
                simp only [sub_some, Option.some.injEq] at hx hy
                have hca : c < a := by linarith
                have hne : j' ≠ iyomax := by
                  intro he
                  apply hc2
                  rw [Row.rd_nonneg yi hi, Row.rd_nonneg yo (by omega : 0 ≤ iyomax), ← he, hyj, hyi']
                  simpa using hca
                refine ⟨by omega, by omega, fun k hk1 hk2 i' hi1 hi2 => ?_⟩
                by_contra hne'
                obtain ⟨a', b', c', ha', hb', hc', h1', h2'⟩ := hitb i' k (by omega) hi2 hk1 (by omega) hne'
                have e1 := hyo k j' (by omega) (by omega) (by omega) c' c hc' hyj
                have e2 := hyi i i' hi (by omega) (by omega) a a' hyi' ha'
                linarith
        rw [ih (i + 1) r.1 r.2 (by omega) hrest hr.1 hr.2.1 hr.2.2 j]
        by_cases hj : iyomin0 ≤ j ∧ j ≤ iyomax
        · rw [if_pos hj, if_pos hj]
          simp only [nlAcc, List.foldl_cons]
          congr 1
          rw [hA j]
          by_cases hjm : iyomin ≤ j
          · rw [if_pos ⟨hjm, hj.2⟩]
          · rw [if_neg (by omega), hbelow j hj.1 (by omega) i (le_refl _) (by omega)]
            rfl
        · rw [if_neg hj, if_neg hj, hA j, if_neg (by omega)]

/-- If the output coordinate is entirely NaN and NaN distances are never written, nothing
is written. -/
theorem nlOuter_allnan (hn : yo.rd (-1) = none) (hw : ∀ i, w i none none = none) :
    ∀ (l : List Int) (out : Int → V), nlOuter yi yo w (-1) l (-1) out = out := by
  intro l
  induction l with
  | nil => intro out; rfl
  | cons i l ih =>
    intro out
    simp only [nlOuter, hn, lt_none_right, lt_none_left, Bool.false_eq_true, if_false]
    have : nlInner yi yo w i (pyRange (-1) (-1 + 1)) (-1) out = (-1, out) := by
      rw [pyRange_cons (by omega), pyRange_nil (by omega)]
      simp [nlInner, hn, hw]
    rw [this]
    exact ih out

end nl

/-! ### From the scan to brackets -/

theorem nlHit_some_iff_linear (yi yo v : Row) {i k : Int} (hi : 0 ≤ i) (hk : 0 ≤ k) :
    nlHit yi yo (linearW v) i k ≠ none ↔
    ∃ a b c, yi.get i = some a ∧ yi.get (i + 1) = some b ∧ yo.get k = some c ∧ a ≤ c ∧ c ≤ b := by
  unfold nlHit
  rw [Row.rd_nonneg yi hi, Row.rd_nonneg yi (by omega : 0 ≤ i + 1), Row.rd_nonneg yo hk]
  cases hk' : yo.get k <;> cases ha : yi.get i <;> cases hb : yi.get (i + 1) <;>
    simp [linearW]

theorem nlHit_linear_val (yi yo v : Row) {i k : Int} (hi : 0 ≤ i) (hk : 0 ≤ k) {a b c : ℚ}
    (ha : yi.get i = some a) (hb : yi.get (i + 1) = some b) (hc : yo.get k = some c)
    (h1 : a ≤ c) (h2 : c ≤ b) :
    nlHit yi yo (linearW v) i k = some (lineThrough a b (v.get i) (v.get (i + 1)) c) := by
  unfold nlHit
  rw [Row.rd_nonneg yi hi, Row.rd_nonneg yi (by omega : 0 ≤ i + 1), Row.rd_nonneg yo hk, ha, hb, hc]
  have e1 : ¬ (b - c < 0) := by linarith
  have e2 : ¬ (c - a < 0) := by linarith
  simp only [sub_some, lt_some, decide_eq_true_eq, if_neg e1, if_neg e2, linearW]
  rw [Row.rd_nonneg v hi, Row.rd_nonneg v (by omega : 0 ≤ i + 1)]
  have e3 : (le (some 0) (some (c - a)) && le (some 0) (some (b - c))) = true := by
    simp; constructor <;> linarith
  simp only [e3, if_true]
  congr 1
  cases hv0 : v.get i with
  | none => simp [lineThrough]
  | some x =>
    cases hv1 : v.get (i + 1) with
    | none => simp [lineThrough]
    | some y =>
      simp only [mul_some, add_some, lineThrough, div]
      have e4 : c - a + (b - c) = b - a := by ring
      rw [e4]
      by_cases hab : a = b
      · subst hab; simp
      · have hne : b - a ≠ 0 := sub_ne_zero.2 (Ne.symm hab)
        rw [if_neg hne, if_neg hab]
        congr 1
        field_simp
        ring

theorem pyRange_append {a b c : Int} (h1 : a ≤ b) (h2 : b ≤ c) :
    pyRange a c = pyRange a b ++ pyRange b c := by
  obtain ⟨n, hn⟩ : ∃ n : Nat, a + n = b := ⟨(b - a).toNat, by omega⟩
  induction n generalizing a with
  | zero =>
    have : a = b := by omega
    subst this
    rw [pyRange_nil (le_refl a)]; simp
  | succ n ih =>
    rw [pyRange_cons (by omega : a < c), pyRange_cons (by omega : a < b), List.cons_append,
      ih (by omega) (by push_cast at hn; omega)]

/-- `nlAcc` is the value of the last hit. -/
theorem nlAcc_last (yi yo : Row) (w) (k imin imax i : Int) (v0 : V) (v : V)
    (h1 : imin ≤ i) (h2 : i < imax) (hi : nlHit yi yo w i k = some v)
    (hl : ∀ j, i < j → j < imax → nlHit yi yo w j k = none) :
    nlAcc yi yo w k (pyRange imin imax) v0 = v := by
  rw [pyRange_append h1 (le_of_lt h2), pyRange_cons h2]
  unfold nlAcc
  rw [List.foldl_append, List.foldl_cons, hi]
  exact nlAcc_none yi yo w k _ v (fun j hj => by
    rw [mem_pyRange] at hj
    exact hl j (by omega) hj.2)

/-- range of `get_iminmax` contains every valid index -/
theorem valid_in_iminmax (d : Row) {i : Int} (h0 : 0 ≤ i) (hn : i < d.n) (hv : d.get i ≠ none) :
    (getIminmax d).1 ≤ i ∧ i ≤ (getIminmax d).2 ∧ 0 ≤ (getIminmax d).1 ∧ (getIminmax d).2 < d.n := by
  rcases getIminmax_spec d with ⟨_, _, h⟩ | ⟨h1, h2, h3, h4, h5, h6, h7⟩
  · exact absurd (h i h0 hn) hv
  · refine ⟨?_, ?_, h1, h3⟩
    · by_contra hc; exact hv (h6 i h0 (by omega))
    · by_contra hc; exact hv (h7 i (by omega) hn)

/-- Result of a nearest/linear row in terms of hits. -/
theorem nlRow_spec (yi yo : Row) (w : Int → V → V → Option V) (out : Int → V)
    (hyi : AscRow yi) (hyo : AscRow yo)
    (hw : ∀ i k, (getIminmax yi).1 ≤ i → i < (getIminmax yi).2 →
      (getIminmax yo).1 ≤ k → k ≤ (getIminmax yo).2 → 0 ≤ k → nlHit yi yo w i k ≠ none →
      (yi.get i ≠ none ∧ yi.get (i + 1) ≠ none ∧ yo.get k ≠ none))
    (hall : (∀ k : Int, 0 ≤ k → k < yo.n → yo.get k = none) → ∀ i, w i none none = none)
    (j : Int) (h0 : 0 ≤ j) (hn : j < yo.n) :
    nlRow yi yo w out j =
      if (getIminmax yo).1 ≤ j ∧ j ≤ (getIminmax yo).2 ∧ 0 ≤ (getIminmax yo).1
      then nlAcc yi yo w j (pyRange (getIminmax yi).1 (getIminmax yi).2) (out j) else out j := by
  unfold nlRow
  rcases getIminmax_spec yo with ⟨o1, o2, o3⟩ | ⟨o1, o2, o3, o4, o5, o6, o7⟩
  · -- output coordinate all NaN
    have hr : yo.rd (-1) = none := by
      unfold Row.rd wrapIdx
      rw [if_pos (by omega)]
      exact o3 _ (by omega) (by omega)
    rw [o1, o2, nlOuter_allnan yi yo w hr (hall o3), if_neg (by omega)]
  · rcases getIminmax_spec yi with ⟨i1, i2, i3⟩ | ⟨i1, i2, i3, i4, i5, i6, i7⟩
    · rw [i1, i2, pyRange_nil (le_refl _)]
      simp [nlOuter, nlAcc]
    · have := nlOuter_spec yi yo w hyi hyo (getIminmax yo).1 (getIminmax yo).2
        (getIminmax yi).1 (getIminmax yi).2 o1 i1 o3 i3
        (fun i k a b c d e => hw i k a b c d (by omega) e)
        ((getIminmax yi).2 - (getIminmax yi).1).toNat (getIminmax yi).1 (getIminmax yo).1 out
        (le_refl _) (by omega) (le_refl _) o2 (fun k a b => by omega) j
      rw [this]
      simp [o1]

end Xoa
