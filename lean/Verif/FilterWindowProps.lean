import Verif.FilterProps

/-!
# C22, C23: the window of the convolution

The weights used in the statements of C22 to C26 (`kAt`) come from the model; they are characterised
here by the definition of the convolution: along each dimension of size `k` of the kernel, the weight `j`
of the kernel is given to the datum at `q` for the result at `p` when `j + q = p + (k - 1) // 2`.
-/

namespace Xoa

/-- `j` is the position in a kernel of sizes `ks` of the weight given to `q` for the result at `p` -/
def IsLag : List Nat → List Nat → List Nat → List Nat → Prop
  | [], [], [], [] => True
  | k :: ks, p :: ps, q :: qs, j :: js => j + q = p + (k - 1) / 2 ∧ IsLag ks ps qs js
  | _, _, _, _ => False

instance decIsLag : ∀ ks ps qs js, Decidable (IsLag ks ps qs js)
  | [], [], [], [] => .isTrue trivial
  | k :: ks, p :: ps, q :: qs, j :: js => by
    unfold IsLag
    exact @instDecidableAnd _ _ _ (decIsLag ks ps qs js)
  | [], _ :: _, _, _ => .isFalse (by simp [IsLag])
  | [], [], _ :: _, _ => .isFalse (by simp [IsLag])
  | [], [], [], _ :: _ => .isFalse (by simp [IsLag])
  | _ :: _, [], _, _ => .isFalse (by simp [IsLag])
  | _ :: _, _ :: _, [], _ => .isFalse (by simp [IsLag])
  | _ :: _, _ :: _, _ :: _, [] => .isFalse (by simp [IsLag])

theorem kIdx_iff (ks p q j : List Nat) : kIdx ks p q = some j ↔ InShape ks j ∧ IsLag ks p q j := by
  induction ks generalizing p q j with
  | nil => cases p <;> cases q <;> cases j <;> simp [kIdx, InShape, IsLag]
  | cons k ks ih =>
    cases p with
    | nil => simp [kIdx, IsLag]
    | cons a p => cases q with
      | nil => simp [kIdx, IsLag]
      | cons b q => cases j with
        | nil =>
          simp only [kIdx, IsLag]
          split <;> simp
        | cons c j =>
          simp only [kIdx, InShape, IsLag]
          split
          · rename_i hc
            simp only [Option.map_eq_some_iff, List.cons.injEq]
            constructor
            · rintro ⟨t, h1, h2, rfl⟩
              have := (ih p q t).1 h1
              exact ⟨⟨by omega, this.1⟩, by omega, this.2⟩
            · rintro ⟨⟨h1, h2⟩, h3, h4⟩
              exact ⟨j, (ih p q j).2 ⟨h2, h4⟩, by omega, rfl⟩
          · rename_i hc
            simp only [reduceCtorEq, false_iff]
            rintro ⟨⟨h1, h2⟩, h3, h4⟩
            exact hc ⟨by omega, by omega⟩

/-- **C22, C23**: the weight given to the datum at `q` for the result at `p` -/
theorem C22_weight (k : LArr ℚ) (p q : List Nat) :
    (∀ j, InShape k.shape j → IsLag k.shape p q j → kAt k p q = k.val j) ∧
    ((∀ j, InShape k.shape j → ¬ IsLag k.shape p q j) → kAt k p q = 0) := by
  unfold kAt
  constructor
  · intro j h1 h2
    rw [(kIdx_iff _ _ _ _).2 ⟨h1, h2⟩]; rfl
  · intro h
    cases hj : kIdx k.shape p q with
    | none => rfl
    | some j => obtain ⟨h1, h2⟩ := (kIdx_iff _ _ _ _).1 hj; exact absurd h2 (h j h1)

theorem sum_unique {β : Type} [DecidableEq β] (L : List β) (hn : L.Nodup) (P : β → Prop) [DecidablePred P] (g : β → ℚ) (j : β)
    (hj : j ∈ L) (hP : ∀ x ∈ L, P x ↔ x = j) : (L.map (fun x => if P x then g x else 0)).sum = g j := by
  induction L with
  | nil => cases hj
  | cons a L ih =>
    rw [List.nodup_cons] at hn
    simp only [List.map_cons, List.sum_cons]
    by_cases h : a = j
    · subst h
      have h0 : (L.map (fun x => if P x then g x else 0)).sum = 0 := by
        apply List.sum_eq_zero
        intro y hy
        obtain ⟨x, hx, rfl⟩ := List.mem_map.1 hy
        rw [if_neg]
        intro hp
        have := (hP x (List.mem_cons_of_mem _ hx)).1 hp
        exact hn.1 (this ▸ hx)
      rw [if_pos ((hP a List.mem_cons_self).2 rfl), h0, add_zero]
    · rw [if_neg (fun hp => h ((hP a List.mem_cons_self).1 hp)), zero_add]
      apply ih hn.2
      · rcases List.mem_cons.1 hj with rfl | hj
        · exact absurd rfl h
        · exact hj
      · exact fun x hx => hP x (List.mem_cons_of_mem _ hx)

theorem kAt_sum (k : LArr ℚ) (p q : List Nat) :
    kAt k p q = ((positions k.shape).map (fun j => if IsLag k.shape p q j then k.val j else 0)).sum := by
  by_cases h : ∃ j, InShape k.shape j ∧ IsLag k.shape p q j
  · obtain ⟨j, h1, h2⟩ := h
    rw [(C22_weight k p q).1 j h1 h2]
    symm
    apply sum_unique _ (positions_nodup _) (fun j => IsLag k.shape p q j) k.val j ((mem_positions _ _).2 h1)
    intro x hx
    constructor
    · intro hl
      have e1 := (kIdx_iff k.shape p q x).2 ⟨(mem_positions _ _).1 hx, hl⟩
      have e2 := (kIdx_iff k.shape p q j).2 ⟨h1, h2⟩
      rw [e1] at e2; exact Option.some.inj e2
    · rintro rfl; exact h2
  · push Not at h
    rw [(C22_weight k p q).2 h]
    symm
    apply List.sum_eq_zero
    intro y hy
    obtain ⟨x, hx, rfl⟩ := List.mem_map.1 hy
    rw [if_neg (h x ((mem_positions _ _).1 hx))]

/-- **C23**: without normalisation, complete data are convolved with the kernel: the result at `p` is the sum of
the products of the data and kernel values at all the pairs of positions `q`, `j` with `j + q = p + (k - 1) // 2`. -/
theorem C23_convolution (dims : List String) (shape : List Nat) (f : List Nat → ℚ) (k : LArr ℚ)
    (hl : shape.length = k.shape.length) :
    ∃ r, convolveNd (full dims shape f) k false = .ok r ∧ r.dims = dims ∧ r.shape = shape ∧
      ∀ p, r.val p = some (((positions shape).map (fun q =>
        ((positions k.shape).map (fun j => if IsLag k.shape p q j then k.val j * f q else 0)).sum)).sum) := by
  obtain ⟨r, h1, h2, h3, h4⟩ := convolveNd_full dims shape f k hl
  refine ⟨r, h1, h2, h3, ?_⟩
  intro p
  rw [h4 p]
  congr 1
  unfold conv
  congr 1
  apply List.map_congr_left
  intro q _
  rw [kAt_sum, mul_comm, ← sum_mulLeft]
  congr 1
  apply List.map_congr_left
  intro j _
  split <;> ring

/-- a kernel of size 2 (the result at `p` takes the data at `p - 1` and `p`) and one of size 3 -/
example : IsLag [2, 3] [5, 5] [4, 6] [1, 0] ∧ ¬ IsLag [2] [5] [6] [0] := by decide

end Xoa
