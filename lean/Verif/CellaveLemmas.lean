import Verif.Cellave
import Mathlib.Tactic.Linarith
import Mathlib.Tactic.FieldSimp
import Mathlib.Tactic.Ring
import Mathlib.Algebra.Order.BigOperators.Group.Finset
import Mathlib.Algebra.BigOperators.Ring.Finset
import Mathlib.Algebra.BigOperators.Field
import Mathlib.Algebra.BigOperators.Intervals

namespace Xoa
open V Finset

/-- length of `[a,b] ∩ [c,d]` -/
def overlap (a b c d : ℚ) : ℚ := max 0 (min b d - max a c)

theorem overlap_nonneg (a b c d : ℚ) : 0 ≤ overlap a b c d := le_max_left _ _

/-- overlap as a difference of clamped positions -/
theorem overlap_clamp (a b c d : ℚ) (hab : a ≤ b) (hcd : c ≤ d) :
    overlap a b c d = max a (min b d) - max a (min b c) := by
  unfold overlap
  rcases le_total b d with h1 | h1 <;> rcases le_total b c with h2 | h2 <;> rcases le_total a c with h3 | h3 <;>
    rcases le_total a d with h4 | h4 <;>
    simp only [min_eq_left, min_eq_right, max_eq_left, max_eq_right, h1, h2, h3, h4, hab] <;>
    first
      | (rw [max_eq_right (by linarith)]; done)
      | (rw [max_eq_right (by linarith)]; linarith)
      | (rw [max_eq_left (by linarith)]; linarith)

/-- telescoping: overlaps with consecutive cells add up to the overlap with their union -/
theorem sum_overlap (a b : ℚ) (hab : a ≤ b) (o : Nat → ℚ) (n : Nat) (ho : ∀ k, k < n → o k ≤ o (k + 1)) :
    ∑ k ∈ range n, overlap a b (o k) (o (k + 1)) = overlap a b (o 0) (o n) := by
  have hmono : ∀ m, m ≤ n → o 0 ≤ o m := by
    intro m
    induction m with
    | zero => intro _; exact le_refl _
    | succ m ih => intro hm; exact le_trans (ih (by omega)) (ho m (by omega))
  rw [overlap_clamp a b _ _ hab (hmono n (le_refl _))]
  have : ∀ k ∈ range n, overlap a b (o k) (o (k + 1)) = max a (min b (o (k + 1))) - max a (min b (o k)) :=
    fun k hk => overlap_clamp a b _ _ hab (ho k (mem_range.1 hk))
  rw [Finset.sum_congr rfl this, Finset.sum_range_sub (fun k => max a (min b (o k)))]

/-! ### inner loop -/

section inner
variable (conserv : Bool) (ex : CExtrap) (nyi : Nat) (yib : Nat → ℚ) (v : Nat → V) (o0 o1 : ℚ)

/-- weight of input cell `i` in output cell `[o0,o1]` -/
def caW (i : Nat) : ℚ :=
  overlap (caLo ex yib o0 i) (caHi ex nyi yib o1 i) o0 o1 / (if conserv then o1 - o0 else 1)

/-- data with NaN replaced by 0 -/
def zv (x : V) : ℚ := x.getD 0
/-- 1 if valid -/
def okv (x : V) : ℚ := if isnan x then 0 else 1

theorem caLo_le_caHi (hm : Monotone yib) (_h01 : o0 < o1) (i : Nat) :
    caLo ex yib o0 i ≤ caHi ex nyi yib o1 i := by
  have h := hm (Nat.le_succ i)
  unfold caLo caHi
  split <;> split <;> rename_i h1 h2 <;> (try simp only [Nat.succ_eq_add_one] at h)
  · linarith
  · have := h1.2.2; linarith
  · have := h2.2.2; linarith
  · exact h

theorem caW_zero_of_hi (i : Nat) (h : caHi ex nyi yib o1 i < o0) : caW conserv ex nyi yib o0 o1 i = 0 := by
  unfold caW overlap
  rw [max_eq_left]
  · simp
  · have := min_le_left (caHi ex nyi yib o1 i) o1
    have := le_max_right (caLo ex yib o0 i) o0
    linarith

theorem caW_zero_of_lo (i : Nat) (h : o1 ≤ caLo ex yib o0 i) : caW conserv ex nyi yib o0 o1 i = 0 := by
  unfold caW overlap
  rw [max_eq_left]
  · simp
  · have := min_le_right (caHi ex nyi yib o1 i) o1
    have := le_max_left (caLo ex yib o0 i) o0
    linarith

theorem caInner_spec (hm : Monotone yib) (h01 : o0 < o1) :
    ∀ (m i iyi0 : Nat) (wo s : ℚ), i + m = nyi → iyi0 ≤ i →
      (∀ k, k < i → k < iyi0 ∨ ¬ (caHi ex nyi yib o1 k < o0)) →
      (∀ k, k < iyi0 → caHi ex nyi yib o1 k < o0) →
      let r := caInner conserv ex nyi yib v v o0 o1 (List.range' i m) iyi0 wo (some s)
      r.2.1 = wo + ∑ k ∈ Ico i nyi, okv (v k) * caW conserv ex nyi yib o0 o1 k ∧
      r.2.2 = some (s + ∑ k ∈ Ico i nyi, zv (v k) * caW conserv ex nyi yib o0 o1 k) ∧
      r.1 ≤ nyi ∧ (∀ k, k < r.1 → caHi ex nyi yib o1 k < o0) := by
  intro m
  induction m with
  | zero =>
    intro i iyi0 wo s him hii _ hlt
    have : i = nyi := by omega
    subst this
    simp [caInner]
    exact ⟨hii, hlt⟩
  | succ m ih =>
    intro i iyi0 wo s him hii hge hlt
    have hin : i < nyi := by omega
    rw [List.range'_succ]
    simp only [caInner]
    rw [Finset.sum_eq_sum_Ico_succ_bot hin, Finset.sum_eq_sum_Ico_succ_bot hin]
    -- later cells start after this one ends
    have hlater : ∀ k, i < k → yib (i + 1) ≤ caLo ex yib o0 k := by
      intro k hk
      unfold caLo
      rw [if_neg (by omega)]
      exact hm hk
    by_cases h1 : caLo ex yib o0 i > o1
    · rw [if_pos h1]
      have hz : ∀ k, i ≤ k → caW conserv ex nyi yib o0 o1 k = 0 := by
        intro k hk
        apply caW_zero_of_lo
        have hyi : o1 < yib i := by
          unfold caLo at h1
          split at h1
          · linarith
          · exact h1
        rcases eq_or_lt_of_le hk with e | hlt'
        · subst e; exact le_of_lt h1
        · have := hlater k hlt'
          have := hm (Nat.le_succ i)
          simp only [Nat.succ_eq_add_one] at this
          linarith
      have hs : ∀ (f : Nat → ℚ), ∑ k ∈ Ico (i + 1) nyi, f k * caW conserv ex nyi yib o0 o1 k = 0 := by
        intro f
        apply Finset.sum_eq_zero
        intro k hk
        rw [mem_Ico] at hk
        rw [hz k (by omega)]; simp
      rw [hs, hs, hz i (le_refl _)]
      refine ⟨by simp, by simp, by simp; omega, hlt⟩
    · rw [if_neg h1]
      by_cases h2 : caHi ex nyi yib o1 i < o0
      · rw [if_pos h2]
        have hall : ∀ k, k < i + 1 → caHi ex nyi yib o1 k < o0 := by
          intro k hk
          rcases Nat.lt_succ_iff_lt_or_eq.1 hk with h | h
          · -- smaller cells end before
            have hk' : ¬ (k + 1 = nyi) := by omega
            have e : caHi ex nyi yib o1 k = yib (k + 1) := by unfold caHi; rw [if_neg (fun h => hk' h.2.1)]
            rw [e]
            have e2 : yib (i + 1) ≤ caHi ex nyi yib o1 i := by
              unfold caHi; split
              · next h => exact le_of_lt h.2.2
              · exact le_refl _
            have := hm (show k + 1 ≤ i + 1 by omega)
            linarith
          · subst h; exact h2
        obtain ⟨ha, hb, hc, hd⟩ := ih (i + 1) (i + 1) wo s (by omega) (le_refl _)
          (fun k hk => Or.inl hk) hall
        rw [caW_zero_of_hi conserv ex nyi yib o0 o1 i h2]
        refine ⟨by rw [ha]; ring, by rw [hb]; congr 1; ring, hc, hd⟩
      · rw [if_neg h2]
        -- contribution
        have hpos : 0 ≤ min (caHi ex nyi yib o1 i) o1 - max (caLo ex yib o0 i) o0 := by
          have hle := caLo_le_caHi ex nyi yib o0 o1 hm h01 i
          rw [sub_nonneg]
          apply max_le <;> apply le_min
          · exact hle
          · exact not_lt.1 h1
          · exact not_lt.1 h2
          · exact le_of_lt h01
        have hd : (if conserv = true ∧ caLo ex yib o0 i ≠ caHi ex nyi yib o1 i then
              (min (caHi ex nyi yib o1 i) o1 - max (caLo ex yib o0 i) o0) / (o1 - o0)
            else min (caHi ex nyi yib o1 i) o1 - max (caLo ex yib o0 i) o0) = caW conserv ex nyi yib o0 o1 i := by
          unfold caW overlap
          rw [max_eq_right hpos]
          cases conserv with
          | false => simp
          | true =>
            by_cases he : caLo ex yib o0 i = caHi ex nyi yib o1 i
            · have hz : min (caHi ex nyi yib o1 i) o1 - max (caLo ex yib o0 i) o0 = 0 := by
                apply le_antisymm _ hpos
                have := min_le_left (caHi ex nyi yib o1 i) o1
                have := le_max_left (caLo ex yib o0 i) o0
                linarith
              rw [hz]; simp
            · simp [he]
        rw [hd]
        have hwo : (if isnan (v i) = true then wo else wo + caW conserv ex nyi yib o0 o1 i)
            = wo + okv (v i) * caW conserv ex nyi yib o0 o1 i := by
          unfold okv; split <;> simp
        have hac : (if isnan (v i) = true then some s else
              add (some s) (mul (v i) (some (caW conserv ex nyi yib o0 o1 i))))
            = some (s + zv (v i) * caW conserv ex nyi yib o0 o1 i) := by
          cases hv : v i <;> simp [zv]
        rw [hwo, hac]
        by_cases h3 : caHi ex nyi yib o1 i ≥ o1
        · rw [if_pos h3]
          have hz : ∀ k, i < k → k < nyi → caW conserv ex nyi yib o0 o1 k = 0 := by
            intro k hk hkn
            apply caW_zero_of_lo
            have e : caHi ex nyi yib o1 i = yib (i + 1) := by unfold caHi; rw [if_neg (by omega)]
            have := hlater k hk
            linarith
          have hs : ∀ (f : Nat → ℚ), ∑ k ∈ Ico (i + 1) nyi, f k * caW conserv ex nyi yib o0 o1 k = 0 := by
            intro f
            apply Finset.sum_eq_zero
            intro k hk
            rw [mem_Ico] at hk
            rw [hz k (by omega) hk.2]; simp
          rw [hs, hs]
          exact ⟨by simp, by simp, by simp; omega, hlt⟩
        · rw [if_neg h3]
          obtain ⟨ha, hb, hc, hd'⟩ := ih (i + 1) iyi0 (wo + okv (v i) * caW conserv ex nyi yib o0 o1 i)
            (s + zv (v i) * caW conserv ex nyi yib o0 o1 i) (by omega) (by omega)
            (fun k hk => by
              rcases Nat.lt_succ_iff_lt_or_eq.1 hk with h | h
              · exact hge k h
              · subst h; exact Or.inr h2) hlt
          exact ⟨by rw [ha]; ring, by rw [hb]; congr 1; ring, hc, hd'⟩

end inner

/-! ### cells of a row -/

/-- Spec of one output cell from the weights. -/
def caCellSpec (conserv : Bool) (ex : CExtrap) (nyi : Nat) (yib : Nat → ℚ) (v : Nat → V) (o0 o1 : ℚ) : V :=
  if o0 = o1 then some 0
  else
    let wo := ∑ k ∈ range nyi, okv (v k) * caW conserv ex nyi yib o0 o1 k
    let s := ∑ k ∈ range nyi, zv (v k) * caW conserv ex nyi yib o0 o1 k
    if conserv then some s else if wo ≠ 0 then some (s / wo) else none

theorem sum_skip (nyi i0 : Nat) (h : i0 ≤ nyi) (f w : Nat → ℚ) (hz : ∀ k, k < i0 → w k = 0) :
    ∑ k ∈ Ico i0 nyi, f k * w k = ∑ k ∈ range nyi, f k * w k := by
  have h0 : ∑ k ∈ Ico 0 i0, f k * w k = 0 := by
    apply Finset.sum_eq_zero
    intro k hk
    rw [mem_Ico] at hk
    rw [hz k hk.2]; simp
  rw [Finset.range_eq_Ico, ← Finset.sum_Ico_consecutive _ (Nat.zero_le i0) h, h0, zero_add]

theorem caCells_spec (conserv : Bool) (ex : CExtrap) (nyi : Nat) (yib yob : Nat → ℚ) (v : Nat → V) (ix : Nat)
    (hm : Monotone yib) (ho : Monotone yob) :
    ∀ (m k iyi0 : Nat) (varo : Nat → Nat → V), iyi0 ≤ nyi →
      (∀ k' i, k ≤ k' → i < iyi0 → caHi ex nyi yib (yob (k' + 1)) i < yob k') →
      (∀ k', k ≤ k' → k' < k + m → varo ix k' = some 0) →
      ∀ i j, caCells conserv ex nyi yib yob v v ix ix (List.range' k m) iyi0 varo i j =
        if i = ix ∧ k ≤ j ∧ j < k + m then caCellSpec conserv ex nyi yib v (yob j) (yob (j + 1)) else varo i j := by
  intro m
  induction m with
  | zero =>
    intro k iyi0 varo _ _ _ i j
    rw [if_neg (by omega)]; rfl
  | succ m ih =>
    intro k iyi0 varo hi0 hskip hz i j
    rw [List.range'_succ]
    simp only [caCells]
    have hle : yob k ≤ yob (k + 1) := ho (Nat.le_succ k)
    by_cases he : yob k = yob (k + 1)
    · rw [if_pos he, ih (k + 1) iyi0 varo hi0 (fun k' i a b => hskip k' i (by omega) b)
        (fun k' a b => hz k' (by omega) (by omega)) i j]
      by_cases hj : i = ix ∧ k ≤ j ∧ j < k + (m + 1)
      · rw [if_pos hj]
        by_cases hjk : j = k
        · subst hjk
          rw [if_neg (by omega), hj.1, hz j (le_refl _) (by omega)]
          simp [caCellSpec, he]
        · rw [if_pos ⟨hj.1, by omega, by omega⟩]
      · rw [if_neg hj, if_neg (by omega)]
    · rw [if_neg he]
      have h01 : yob k < yob (k + 1) := lt_of_le_of_ne hle he
      obtain ⟨ha, hb, hc, hd⟩ := caInner_spec conserv ex nyi yib v (yob k) (yob (k + 1)) hm h01
        (nyi - iyi0) iyi0 iyi0 0 0 (by omega) (le_refl _) (fun k' hk' => Or.inl hk')
        (fun k' hk' => hskip k k' (le_refl _) hk')
      rw [hz k (le_refl _) (by omega)]
      generalize caInner conserv ex nyi yib v v (yob k) (yob (k + 1)) (List.range' iyi0 (nyi - iyi0)) iyi0 0 (some 0)
        = r at *
      have hw0 : ∀ k', k' < iyi0 → caW conserv ex nyi yib (yob k) (yob (k + 1)) k' = 0 :=
        fun k' hk' => caW_zero_of_hi conserv ex nyi yib _ _ k' (hskip k k' (le_refl _) hk')
      rw [sum_skip nyi iyi0 hi0 _ _ hw0] at ha hb
      rw [zero_add] at ha hb
      -- the row after this cell
      have hnew : ∀ varo' : Nat → Nat → V, (∀ i j, varo' i j = if i = ix ∧ j = k then
            caCellSpec conserv ex nyi yib v (yob k) (yob (k + 1)) else varo i j) →
          caCells conserv ex nyi yib yob v v ix ix (List.range' (k + 1) m) r.1 varo' i j =
          if i = ix ∧ k ≤ j ∧ j < k + (m + 1) then caCellSpec conserv ex nyi yib v (yob j) (yob (j + 1)) else varo i j := by
        intro varo' hv'
        rw [ih (k + 1) r.1 varo' hc ?_ ?_ i j]
        · by_cases hj : i = ix ∧ k ≤ j ∧ j < k + (m + 1)
          · rw [if_pos hj]
            by_cases hjk : j = k
            · subst hjk
              rw [if_neg (by omega), hv', if_pos ⟨hj.1, rfl⟩]
            · rw [if_pos ⟨hj.1, by omega, by omega⟩]
          · rw [if_neg hj, if_neg (by omega), hv', if_neg (by omega)]
        · intro k' i' hk' hi'
          have h1 := hd i' hi'
          have h2 : yob (k + 1) ≤ yob k' := ho hk'
          -- the upper edge was not extended
          have hlt1 : yib (i' + 1) < yob k := by
            refine lt_of_le_of_lt ?_ h1
            unfold caHi; split
            · next h => exact le_of_lt h.2.2
            · exact le_refl _
          by_cases hx : (ex = .above ∨ ex = .both) ∧ i' + 1 = nyi
          · exfalso
            unfold caHi at h1
            rw [if_pos ⟨hx.1, hx.2, by linarith⟩] at h1
            linarith
          · unfold caHi
            rw [if_neg (fun h => hx ⟨h.1, h.2.1⟩)]
            linarith
        · intro k' a b
          rw [hv', if_neg (by omega)]
          exact hz k' (by omega) (by omega)
      apply hnew
      intro i' j'
      rw [hb]
      unfold caCellSpec
      rw [if_neg he, ha]
      cases conserv with
      | true => simp [upd2]
      | false =>
        simp only [Bool.false_eq_true, if_false]
        split
        · next hwo =>
          by_cases hij : i' = ix ∧ j' = k
          · simp [upd2, hij, div, hwo]
          · simp [upd2, hij]
        · by_cases hij : i' = ix ∧ j' = k
          · simp [upd2, hij]
          · simp [upd2, hij]

end Xoa
