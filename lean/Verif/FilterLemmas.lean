import Verif.Filter
import Verif.FlushLemmas
import Mathlib.Tactic.Linarith
import Mathlib.Tactic.Ring
import Mathlib.Tactic.FieldSimp
import Mathlib.Tactic.Positivity

namespace Xoa

/-! ## positions of an array -/

theorem mem_positions (shape idx : List Nat) : idx ∈ positions shape ↔ InShape shape idx := by
  induction shape generalizing idx with
  | nil => cases idx <;> simp [positions, InShape]
  | cons n ns ih =>
    cases idx with
    | nil => simp [positions, InShape]
    | cons i is =>
      simp only [positions, List.mem_flatMap, List.mem_range, List.mem_map, List.cons.injEq, InShape, ← ih]
      constructor
      · rintro ⟨a, h1, b, h2, rfl, rfl⟩; exact ⟨h1, h2⟩
      · rintro ⟨h1, h2⟩; exact ⟨i, h1, is, h2, rfl, rfl⟩

theorem positions_nodup (shape : List Nat) : (positions shape).Nodup := by
  induction shape with
  | nil => simp [positions]
  | cons n ns ih =>
    simp only [positions]
    rw [List.nodup_flatMap]
    refine ⟨fun i _ => ih.map (fun a b h => by simpa using h), ?_⟩
    refine List.Pairwise.imp_of_mem ?_ (List.nodup_range (n := n))
    intro a b _ _ hab x hx hy
    simp only [List.mem_map] at hx hy
    obtain ⟨u, _, rfl⟩ := hx
    obtain ⟨v, _, h⟩ := hy
    simp at h
    exact hab h.1.symm

theorem inShape_length (shape idx : List Nat) (h : InShape shape idx) : idx.length = shape.length := by
  induction shape generalizing idx with
  | nil => cases idx <;> simp_all [InShape]
  | cons n ns ih =>
    cases idx with
    | nil => simp [InShape] at h
    | cons i is => simp [ih is h.2]

/-! ## the weight of a datum -/

theorem kIdx_inShape (ks p q j : List Nat) (h : kIdx ks p q = some j) : InShape ks j := by
  induction ks generalizing p q j with
  | nil =>
    cases p <;> cases q <;> simp [kIdx] at h
    subst h; trivial
  | cons k ks ih =>
    cases p with
    | nil => simp [kIdx] at h
    | cons a p => cases q with
      | nil => simp [kIdx] at h
      | cons b q =>
        simp only [kIdx] at h
        split at h
        · rename_i hc
          simp only [Option.map_eq_some_iff] at h
          obtain ⟨t, h1, rfl⟩ := h
          exact ⟨hc.2, ih p q t h1⟩
        · simp at h

theorem kIdx_inj (ks p q q' j : List Nat) (h : kIdx ks p q = some j) (h' : kIdx ks p q' = some j) : q = q' := by
  induction ks generalizing p q q' j with
  | nil =>
    cases p <;> cases q <;> cases q' <;> simp [kIdx] at h h' ⊢
  | cons k ks ih =>
    cases p with
    | nil => simp [kIdx] at h
    | cons a p => cases q with
      | nil => simp [kIdx] at h
      | cons b q => cases q' with
        | nil => simp [kIdx] at h'
        | cons b' q' =>
          simp only [kIdx] at h h'
          split at h
          · split at h'
            · rename_i hc hc'
              simp only [Option.map_eq_some_iff] at h h'
              obtain ⟨t, h1, rfl⟩ := h
              obtain ⟨t', h1', h2⟩ := h'
              simp only [List.cons.injEq] at h2
              obtain ⟨h3, rfl⟩ := h2
              rw [ih p q q' t' h1 h1']
              congr 1
              omega
            · simp at h'
          · simp at h

theorem sum_partial_inj {α β : Type} [DecidableEq β] (L : List α) (hn : L.Nodup) (φ : α → Option β)
    (hinj : ∀ a b j, φ a = some j → φ b = some j → a = b) (g : β → ℚ) :
    ∀ P : List β, (∀ q ∈ L, ∀ j, φ q = some j → j ∈ P) → (∀ j ∈ P, 0 ≤ g j) →
      (L.map (fun q => (φ q).elim 0 g)).sum ≤ (P.map g).sum := by
  induction L with
  | nil =>
    intro P _ hg
    simp only [List.map_nil, List.sum_nil]
    exact List.sum_nonneg (by simpa using hg)
  | cons a L ih =>
    intro P hP hg
    rw [List.nodup_cons] at hn
    simp only [List.map_cons, List.sum_cons]
    cases ha : φ a with
    | none =>
      simp only [Option.elim]
      rw [zero_add]
      exact ih hn.2 P (fun q hq => hP q (by simp [hq])) hg
    | some j =>
      have hj : j ∈ P := hP a (by simp) j ha
      have h1 := ih hn.2 (P.erase j) (fun q hq j' hj' => by
        have : j' ≠ j := by
          rintro rfl
          exact hn.1 (by rw [hinj a q _ ha hj']; exact hq)
        exact (List.mem_erase_of_ne this).2 (hP q (by simp [hq]) j' hj')) (fun j' hj' => hg j' (List.mem_of_mem_erase hj'))
      have h2 : g j + ((P.erase j).map g).sum = (P.map g).sum := List.sum_map_erase g hj
      simp only [Option.elim] at h1 ⊢
      linarith

/-- nonnegative kernel -/
def KNonneg (k : LArr ℚ) : Prop := ∀ j, InShape k.shape j → 0 ≤ k.val j

theorem kAt_nonneg (k : LArr ℚ) (hk : KNonneg k) (p q : List Nat) : 0 ≤ kAt k p q := by
  unfold kAt
  cases h : kIdx k.shape p q with
  | none => simp
  | some j => exact hk j (kIdx_inShape _ _ _ _ h)

/-- the weights given at a point never exceed the sum of the kernel -/
theorem kAt_sum_le (k : LArr ℚ) (hk : KNonneg k) (shape p : List Nat) :
    ((positions shape).map (fun q => kAt k p q)).sum ≤ kSum k := by
  unfold kSum kAt
  exact sum_partial_inj (positions shape) (positions_nodup shape) (fun q => kIdx k.shape p q)
    (fun a b j h1 h2 => kIdx_inj _ _ _ _ _ h1 h2) k.val (positions k.shape)
    (fun q _ j hj => (mem_positions _ _).2 (kIdx_inShape _ _ _ _ hj)) (fun j hj => hk j ((mem_positions _ _).1 hj))

theorem kSum_nonneg (k : LArr ℚ) (hk : KNonneg k) : 0 ≤ kSum k := by
  unfold kSum
  refine List.sum_nonneg ?_
  intro x hx
  simp only [List.mem_map] at hx
  obtain ⟨j, hj, rfl⟩ := hx
  exact hk j ((mem_positions _ _).1 hj)

/-! ## specification: available neighbours and their weighted mean -/

/-- sum of the weights of the available data around `p` -/
def availWeight (data : LArr V) (k : LArr ℚ) (p : List Nat) : ℚ :=
  ((positions data.shape).map (fun q => (data.val q).elim 0 (fun _ => kAt k p q))).sum

/-- weighted sum of the available data around `p` -/
def availSum (data : LArr V) (k : LArr ℚ) (p : List Nat) : ℚ :=
  ((positions data.shape).map (fun q => (data.val q).elim 0 (fun v => kAt k p q * v))).sum

/-- some datum is missing -/
def HasMissing (data : LArr V) : Prop := ∃ q, InShape data.shape q ∧ data.val q = none

theorem conv_filled (data : LArr V) (k : LArr ℚ) (p : List Nat) :
    conv data.shape (fun q => (data.val q).getD 0) k p = availSum data k p := by
  unfold conv availSum
  congr 1
  apply List.map_congr_left
  intro q _
  cases h : data.val q <;> simp [h]

theorem conv_valid (data : LArr V) (k : LArr ℚ) (p : List Nat) :
    conv data.shape (fun q => if (data.val q).isNone then 0 else 1) k p = availWeight data k p := by
  unfold conv availWeight
  congr 1
  apply List.map_congr_left
  intro q _
  cases h : data.val q <;> simp [h]

theorem list_sum_le {α} (l : List α) (f g : α → ℚ) (h : ∀ x ∈ l, f x ≤ g x) : (l.map f).sum ≤ (l.map g).sum := by
  induction l with
  | nil => simp
  | cons a l ih =>
    simp only [List.map_cons, List.sum_cons]
    have h1 := h a (by simp)
    have h2 := ih (fun x hx => h x (by simp [hx]))
    linarith

theorem availWeight_nonneg (data : LArr V) (k : LArr ℚ) (hk : KNonneg k) (p : List Nat) : 0 ≤ availWeight data k p := by
  unfold availWeight
  refine List.sum_nonneg ?_
  intro x hx
  simp only [List.mem_map] at hx
  obtain ⟨q, _, rfl⟩ := hx
  cases data.val q
  · simp
  · exact kAt_nonneg k hk p q

theorem availWeight_le (data : LArr V) (k : LArr ℚ) (hk : KNonneg k) (p : List Nat) : availWeight data k p ≤ kSum k := by
  refine le_trans ?_ (kAt_sum_le k hk data.shape p)
  unfold availWeight
  refine list_sum_le _ _ _ ?_
  intro q _
  cases data.val q
  · exact kAt_nonneg k hk p q
  · exact le_refl _

theorem clip_weight (data : LArr V) (k : LArr ℚ) (hk : KNonneg k) (p : List Nat) :
    min (max (availWeight data k p) 0) (kSum k) = availWeight data k p := by
  rw [max_eq_left (availWeight_nonneg data k hk p), min_eq_left (availWeight_le data k hk p)]

theorem withMask_iff (data : LArr V) : (positions data.shape).any (fun q => (data.val q).isNone) = true ↔ HasMissing data := by
  simp [HasMissing, List.any_eq_true, mem_positions]

/-- what `_convolve_` gives with a nonnegative kernel -/
theorem convolveNd_spec (data : LArr V) (k : LArr ℚ) (hk : KNonneg k) (hl : data.shape.length = k.shape.length) (normalize : Bool) :
    ∃ r, convolveNd data k normalize = .ok r ∧ r.dims = data.dims ∧ r.shape = data.shape ∧
      ∀ p, (HasMissing data → availWeight data k p ≤ 1 / 1000000 * kSum k → r.val p = none) ∧
        (¬ (HasMissing data ∧ availWeight data k p ≤ 1 / 1000000 * kSum k) →
          r.val p = if normalize then V.div (some (availSum data k p)) (some (availWeight data k p)) else some (availSum data k p)) := by
  unfold convolveNd
  rw [if_neg (by simpa using hl)]
  refine ⟨_, rfl, rfl, rfl, ?_⟩
  intro p
  dsimp only
  have e1 := conv_filled data k p
  have e2 : min (max (conv data.shape (fun q => if (data.val q).isNone = true then 0 else 1) k p) 0) (kSum k) = availWeight data k p := by
    rw [conv_valid data k p, clip_weight data k hk p]
  simp only [e2, e1, abs_of_nonneg (availWeight_nonneg data k hk p)]
  constructor
  · intro h1 h2
    rw [(withMask_iff data).2 h1]
    simp only [h2, decide_true, Bool.and_self, if_true]
  · intro h
    rw [if_neg]
    simp only [Bool.and_eq_true, decide_eq_true_eq]
    rw [withMask_iff data]
    exact h

end Xoa
