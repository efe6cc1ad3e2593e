import Verif.ErodeTurnProps
import Verif.FilterSepProps

/-! # C233: what the Shapiro kernel keeps and removes -/

namespace Xoa

/-! ## Specification -/

/-- the position one step after `P` along `d` -/
def stepUp (P : String → Nat) (d : String) : String → Nat := setPos P d (P d + 1)

/-- the position one step before `P` along `d` -/
def stepDown (P : String → Nat) (d : String) : String → Nat := setPos P d (P d - 1)

/-- `P` is a position of the array that has a neighbour on each side along the dimension `d` -/
def InnerAlong (data : LArr V) (d : String) (P : String → Nat) : Prop := 1 ≤ P d ∧ P d + 1 < data.size d

/-- the datum at a position given by dimension -/
def datumAt (data : LArr V) (f : List Nat → ℚ) (P : String → Nat) : ℚ := f (data.dims.map P)

/-! ## Proofs -/

theorem sum_support (L S : List (List Nat)) (g : List Nat → ℚ) (hL : L.Nodup) (hS : S.Nodup) (hsub : ∀ q ∈ S, q ∈ L) (h0 : ∀ q ∈ L, q ∉ S → g q = 0) :
    (L.map g).sum = (S.map g).sum := by
  rw [← List.sum_toFinset g hL, ← List.sum_toFinset g hS]
  symm
  apply Finset.sum_subset
  · intro q hq
    rw [List.mem_toFinset] at hq ⊢
    exact hsub q hq
  · intro q hq hn
    rw [List.mem_toFinset] at hq hn
    exact h0 q hq hn

theorem map_ne_of {L : List String} {P Q : String → Nat} {d : String} (hd : d ∈ L) (h : P d ≠ Q d) : L.map P ≠ L.map Q := by
  intro e
  exact h (List.map_inj_left.1 e d hd)

theorem stencil_sum (data : LArr V) (hd : data.Ok) (y x : String) (hne : y ≠ x) (hy : y ∈ data.dims) (hx : x ∈ data.dims)
    (k : LArr ℚ) (ht : Transposed (shapiroKernel [y, x]) k data.dims (newSize .insert (fun _ => none))) (f : List Nat → ℚ)
    (P : String → Nat) (hP : ∀ d ∈ data.dims, P d < data.size d) (iy : InnerAlong data y P) (ix : InnerAlong data x P) :
    ((positions data.shape).map (fun q => kAt k (data.dims.map P) q * f q)).sum =
      2 * datumAt data f P + datumAt data f (stepUp P y) + datumAt data f (stepDown P y) + datumAt data f (stepUp P x) + datumAt data f (stepDown P x) := by
  have w := shapiro_weights data.dims y x k hne hy hx ht P
  obtain ⟨iy1, iy2⟩ := iy
  obtain ⟨ix1, ix2⟩ := ix
  have uy : stepUp P y y = P y + 1 := by simp [stepUp, setPos]
  have dy : stepDown P y y = P y - 1 := by simp [stepDown, setPos]
  have ux : stepUp P x x = P x + 1 := by simp [stepUp, setPos]
  have dx : stepDown P x x = P x - 1 := by simp [stepDown, setPos]
  have uyo : ∀ d, d ≠ y → stepUp P y d = P d := by intro d h; simp [stepUp, setPos, h]
  have dyo : ∀ d, d ≠ y → stepDown P y d = P d := by intro d h; simp [stepDown, setPos, h]
  have uxo : ∀ d, d ≠ x → stepUp P x d = P d := by intro d h; simp [stepUp, setPos, h]
  have dxo : ∀ d, d ≠ x → stepDown P x d = P d := by intro d h; simp [stepDown, setPos, h]
  have w0 : kAt k (data.dims.map P) (data.dims.map P) = 2 := by
    rw [w, if_pos ⟨fun _ _ _ _ => rfl, by unfold gap; omega, by unfold gap; omega⟩, if_pos rfl, if_pos rfl]; norm_num
  have w1 : kAt k (data.dims.map P) (data.dims.map (stepUp P y)) = 1 := by
    rw [w, if_pos ⟨fun d _ h _ => uyo d h, by rw [uy]; unfold gap; omega, by rw [uyo x hne.symm]; unfold gap; omega⟩, if_neg (by rw [uy]; omega), if_pos (uyo x hne.symm)]; norm_num
  have w2 : kAt k (data.dims.map P) (data.dims.map (stepDown P y)) = 1 := by
    rw [w, if_pos ⟨fun d _ h _ => dyo d h, by rw [dy]; unfold gap; omega, by rw [dyo x hne.symm]; unfold gap; omega⟩, if_neg (by rw [dy]; omega), if_pos (dyo x hne.symm)]; norm_num
  have w3 : kAt k (data.dims.map P) (data.dims.map (stepUp P x)) = 1 := by
    rw [w, if_pos ⟨fun d _ _ h => uxo d h, by rw [uxo y hne]; unfold gap; omega, by rw [ux]; unfold gap; omega⟩, if_pos (uxo y hne), if_neg (by rw [ux]; omega)]; norm_num
  have w4 : kAt k (data.dims.map P) (data.dims.map (stepDown P x)) = 1 := by
    rw [w, if_pos ⟨fun d _ _ h => dxo d h, by rw [dxo y hne]; unfold gap; omega, by rw [dx]; unfold gap; omega⟩, if_pos (dxo y hne), if_neg (by rw [dx]; omega)]; norm_num
  rw [sum_support (positions data.shape) [data.dims.map P, data.dims.map (stepUp P y), data.dims.map (stepDown P y), data.dims.map (stepUp P x), data.dims.map (stepDown P x)]
    (fun q => kAt k (data.dims.map P) q * f q) (positions_nodup _)]
  · simp only [List.map_cons, List.map_nil, List.sum_cons, List.sum_nil, w0, w1, w2, w3, w4, datumAt]
    ring
  · simp only [List.nodup_cons, List.mem_cons, List.not_mem_nil, or_false, not_or, List.nodup_nil, not_false_eq_true, and_true]
    refine ⟨⟨?_, ?_, ?_, ?_⟩, ⟨?_, ?_, ?_⟩, ⟨?_, ?_⟩, ?_⟩
    · exact map_ne_of hy (by rw [uy]; omega)
    · exact map_ne_of hy (by rw [dy]; omega)
    · exact map_ne_of hx (by rw [ux]; omega)
    · exact map_ne_of hx (by rw [dx]; omega)
    · exact map_ne_of hy (by rw [uy, dy]; omega)
    · exact map_ne_of hy (by rw [uy, uxo y hne]; omega)
    · exact map_ne_of hy (by rw [uy, dxo y hne]; omega)
    · exact map_ne_of hy (by rw [dy, uxo y hne]; omega)
    · exact map_ne_of hy (by rw [dy, dxo y hne]; omega)
    · exact map_ne_of hx (by rw [ux, dx]; omega)
  · have key : ∀ Q : String → Nat, (∀ d ∈ data.dims, Q d < data.size d) → data.dims.map Q ∈ positions data.shape := by
      intro Q hQ
      rw [mem_positions, shape_eq data hd]
      exact inShape_map _ _ _ hQ
    have one : ∀ (Q : String → Nat) (a : String), (∀ d, d ≠ a → Q d = P d) → Q a < data.size a → data.dims.map Q ∈ positions data.shape := by
      intro Q a ho ha
      apply key
      intro d hdd
      by_cases h : d = a
      · rw [h]; exact ha
      · rw [ho d h]; exact hP d hdd
    intro q hq
    simp only [List.mem_cons, List.not_mem_nil, or_false] at hq
    rcases hq with rfl | rfl | rfl | rfl | rfl
    · exact key P hP
    · exact one _ y uyo (by rw [uy]; omega)
    · exact one _ y dyo (by rw [dy]; omega)
    · exact one _ x uxo (by rw [ux]; omega)
    · exact one _ x dxo (by rw [dx]; omega)
  · intro q hq hn
    have hin := (mem_positions _ _).1 hq
    have hl : q.length = data.dims.length := by rw [inShape_length _ _ hin, hd.len]
    have hqe : data.dims.map (look data.dims q) = q := map_look data.dims q hd.nodup hl
    generalize look data.dims q = Q at hqe
    subst hqe
    rw [w]
    by_cases hc : (∀ d ∈ data.dims, d ≠ y → d ≠ x → Q d = P d) ∧ gap (P y) (Q y) ≤ 1 ∧ gap (P x) (Q x) ≤ 1
    · rw [if_pos hc]
      obtain ⟨c1, c2, c3⟩ := hc
      unfold gap at c2 c3
      have same : ∀ R : String → Nat, (∀ d, d ≠ y → d ≠ x → R d = P d) → R y = Q y → R x = Q x → data.dims.map Q = data.dims.map R := by
        intro R h1 h2 h3
        apply List.map_congr_left
        intro d hdd
        by_cases e1 : d = y
        · rw [e1, h2]
        · by_cases e2 : d = x
          · rw [e2, h3]
          · rw [h1 d e1 e2]; exact c1 d hdd e1 e2
      simp only [List.mem_cons, List.not_mem_nil, or_false, not_or] at hn
      obtain ⟨n0, n1, n2, n3, n4⟩ := hn
      by_cases hQy : Q y = P y
      · exfalso
        by_cases hQx : Q x = P x
        · exact n0 (same P (fun _ _ _ => rfl) hQy.symm hQx.symm)
        · by_cases hgt : P x < Q x
          · exact n3 (same _ (fun d _ h => uxo d h) (by rw [uxo y hne]; exact hQy.symm) (by rw [ux]; omega))
          · exact n4 (same _ (fun d _ h => dxo d h) (by rw [dxo y hne]; exact hQy.symm) (by rw [dx]; omega))
      · by_cases hQx : Q x = P x
        · exfalso
          by_cases hgt : P y < Q y
          · exact n1 (same _ (fun d h _ => uyo d h) (by rw [uy]; omega) (by rw [uyo x hne.symm]; exact hQx.symm))
          · exact n2 (same _ (fun d h _ => dyo d h) (by rw [dy]; omega) (by rw [dyo x hne.symm]; exact hQx.symm))
        · rw [if_neg hQy, if_neg hQx]; ring
    · rw [if_neg hc, zero_mul]

/-- **C233** (stencil): on complete data, the convolution with the Shapiro kernel of two dimensions gives, away from the edges along these dimensions, a sixth of twice the datum plus its four neighbours,
whatever the number of other dimensions and the order of all of them. -/
theorem C233_stencil (data : LArr V) (hd : data.Ok) (f : List Nat → ℚ) (hf : Complete data f) (y x : String) (hne : y ≠ x) (hy : y ∈ data.dims) (hx : x ∈ data.dims) :
    ∃ r, convolve data (.da (shapiroKernel [y, x])) true = .ok r ∧ r.dims = data.dims ∧ r.shape = data.shape ∧
      ∀ P : String → Nat, (∀ d ∈ data.dims, P d < data.size d) → InnerAlong data y P → InnerAlong data x P →
        r.val (data.dims.map P) =
          some ((2 * datumAt data f P + datumAt data f (stepUp P y) + datumAt data f (stepDown P y) + datumAt data f (stepUp P x) + datumAt data f (stepDown P x)) / 6) := by
  obtain ⟨k, hk, hn, ht⟩ := shapiro_erode data hd y x hne hy hx
  obtain ⟨k', g1, gt⟩ := generateKernel_da onesWindow 0 (shapiroKernel [y, x]) (shapiro_ok [y, x] (by simp [hne])) data.dims hd.nodup
    (by intro d h; simp only [shapiroKernel, List.mem_cons, List.not_mem_nil, or_false] at h; rcases h with rfl | rfl <;> assumption)
  have hn' : KNonneg k' := by
    intro j hj
    obtain ⟨h2, h3⟩ := transposed_val _ k' (shapiro_ok [y, x] (by simp [hne])) data.dims _ gt j hj
    rw [h3]
    exact ((C27_shapiro [y, x]).2.2 _ h2).2.1
  have hl : data.shape.length = k'.shape.length := by rw [hd.len, gt.ok.len, gt.dims]
  obtain ⟨r, e, h1, h2, -⟩ := convolveNd_spec data k' hn' hl true
  refine ⟨r, ?_, h1, h2, ?_⟩
  · unfold convolve
    rw [g1]; exact e
  · intro P hP iy ix
    have hm : ¬ HasMissing data := by
      rintro ⟨q, hq, hv⟩
      rw [hf q hq] at hv
      cases hv
    have hs : availSum data k' (data.dims.map P) = _ := Eq.trans ?_ (stencil_sum data hd y x hne hy hx k' gt f P hP iy ix)
    have hw : availWeight data k' (data.dims.map P) = 6 := by
      have := stencil_sum data hd y x hne hy hx k' gt (fun _ => 1) P hP iy ix
      unfold availWeight
      rw [show (6 : ℚ) = 2 * datumAt data (fun _ => 1) P + datumAt data (fun _ => 1) (stepUp P y) + datumAt data (fun _ => 1) (stepDown P y) + datumAt data (fun _ => 1) (stepUp P x) +
        datumAt data (fun _ => 1) (stepDown P x) by unfold datumAt; norm_num, ← this]
      congr 1
      apply List.map_congr_left
      intro q hq
      rw [hf q ((mem_positions _ _).1 hq), mul_one]; rfl
    · cases hv : r.val (data.dims.map P) with
      | none =>
        exfalso
        rw [C22_missing_complete data r k' hn' e hm] at hv
        exact hv ((availWeight_pos_iff data k' hn' _).1 (by rw [hw]; norm_num))
      | some v =>
        obtain ⟨-, -, h⟩ := C22_weighted_mean data r k' hn' e
        have := (h _ v hv).2.1
        rw [hs, hw] at this
        rw [this]
    · unfold availSum
      congr 1
      apply List.map_congr_left
      intro q hq
      rw [hf q ((mem_positions _ _).1 hq)]; rfl

/-- **C233** (what is kept): a field that is linear along the two dimensions around a position (each datum is the mean of its two neighbours along each dimension) keeps its value there, in particular a uniform field. -/
theorem C233_linear_kept_partial (data : LArr V) (hd : data.Ok) (f : List Nat → ℚ) (hf : Complete data f) (y x : String) (hne : y ≠ x) (hy : y ∈ data.dims) (hx : x ∈ data.dims) :
    ∃ r, convolve data (.da (shapiroKernel [y, x])) true = .ok r ∧
      ∀ P : String → Nat, (∀ d ∈ data.dims, P d < data.size d) → InnerAlong data y P → InnerAlong data x P →
        datumAt data f (stepUp P y) + datumAt data f (stepDown P y) = 2 * datumAt data f P →
        datumAt data f (stepUp P x) + datumAt data f (stepDown P x) = 2 * datumAt data f P →
        r.val (data.dims.map P) = data.val (data.dims.map P) := by
  obtain ⟨r, e, _, _, h⟩ := C233_stencil data hd f hf y x hne hy hx
  refine ⟨r, e, ?_⟩
  intro P hP iy ix h1 h2
  rw [h P hP iy ix, hf _ (by rw [shape_eq data hd]; exact inShape_map _ _ _ hP)]
  have : 2 * datumAt data f P + datumAt data f (stepUp P y) + datumAt data f (stepDown P y) + datumAt data f (stepUp P x) + datumAt data f (stepDown P x) = 6 * datumAt data f P := by linarith
  rw [this]
  unfold datumAt
  congr 1
  ring

/-- **C233** (violation: waves of two grid steps): the Shapiro kernel of two dimensions does not remove the shortest waves. Where the field alternates along one of the dimensions and is uniform along the other one,
a third of it remains; where it alternates along both, it is changed of sign and a third of it remains. -/
theorem C233_waves_violated (data : LArr V) (hd : data.Ok) (f : List Nat → ℚ) (hf : Complete data f) (y x : String) (hne : y ≠ x) (hy : y ∈ data.dims) (hx : x ∈ data.dims) :
    ∃ r, convolve data (.da (shapiroKernel [y, x])) true = .ok r ∧
      ∀ P : String → Nat, (∀ d ∈ data.dims, P d < data.size d) → InnerAlong data y P → InnerAlong data x P →
        (datumAt data f (stepUp P x) = -datumAt data f P → datumAt data f (stepDown P x) = -datumAt data f P →
          (datumAt data f (stepUp P y) = datumAt data f P → datumAt data f (stepDown P y) = datumAt data f P → r.val (data.dims.map P) = some (datumAt data f P / 3)) ∧
          (datumAt data f (stepUp P y) = -datumAt data f P → datumAt data f (stepDown P y) = -datumAt data f P → r.val (data.dims.map P) = some (-datumAt data f P / 3))) := by
  obtain ⟨r, e, _, _, h⟩ := C233_stencil data hd f hf y x hne hy hx
  refine ⟨r, e, ?_⟩
  intro P hP iy ix h1 h2
  refine ⟨fun h3 h4 => ?_, fun h3 h4 => ?_⟩ <;> rw [h P hP iy ix, h1, h2, h3, h4] <;> congr 1 <;> ring

/-- **C233** (violation: one dimension): the Shapiro kernel of a single dimension is `[0, 1, 0]`: the convolution changes nothing at all, whatever the data, with missing values or not, with normalisation or not. -/
theorem C233_one_dim_violated (data : LArr V) (hd : data.Ok) (d : String) (hdd : d ∈ data.dims) (normalize : Bool) :
    ∃ r, convolve data (.da (shapiroKernel [d])) normalize = .ok r ∧ ∀ p, InShape data.shape p → r.val p = data.val p := by
  have hok := shapiro_ok [d] (by simp)
  obtain ⟨k, g1, gt⟩ := generateKernel_da onesWindow 0 (shapiroKernel [d]) hok data.dims hd.nodup
    (by intro a h; simp only [shapiroKernel, List.mem_cons, List.not_mem_nil, or_false] at h; subst h; assumption)
  have s1 : k.size d = 3 := by
    rw [(gt.sizes d (by simp [shapiroKernel])).2]
    simp [LArr.size, shapiroKernel, look]
  have s2 : ∀ a ∈ data.dims, a ≠ d → k.size a = 1 := by
    intro a ha hne
    rw [gt.new a ha (by simp [shapiroKernel, hne])]
    simp [newSize]
  have hsh : k.shape = data.dims.map k.size := by rw [shape_eq k gt.ok, gt.dims]
  have hl : data.shape.length = k.shape.length := by rw [hd.len, gt.ok.len, gt.dims]
  have hval : ∀ j, InShape k.shape j → k.val j = if look data.dims j d = 1 then 1 else 0 := by
    intro j hj
    obtain ⟨t1, t2⟩ := transposed_val _ k hok data.dims _ gt j hj
    rw [t2, ((C27_shapiro [d]).2.2 _ t1).1]
    show ((List.count 1 [look data.dims j d] : ℕ) : ℚ) = _
    by_cases h : look data.dims j d = 1 <;> simp [h]
  have hc : k.shape.map (fun n => n / 2) = data.dims.map (fun a => k.size a / 2) := by
    rw [hsh, List.map_map]; rfl
  have himp : Impulse k := by
    refine ⟨?_, ?_, ?_⟩
    · intro n hn
      rw [hsh, List.mem_map] at hn
      obtain ⟨a, ha, rfl⟩ := hn
      by_cases h : a = d
      · rw [h, s1]
      · rw [s2 a ha h]
    · rw [hval, hc, look_map _ _ _ hdd, s1]
      · rfl
      · rw [hc, hsh]
        apply inShape_map
        intro a ha
        by_cases h : a = d
        · rw [h, s1]; omega
        · rw [s2 a ha h]; omega
    · intro j hj hne
      rw [hval j hj, if_neg]
      intro h1
      apply hne
      have hjl : j.length = data.dims.length := by rw [inShape_length _ _ hj, gt.ok.len, gt.dims]
      rw [hc, ← map_look data.dims j hd.nodup hjl]
      apply List.map_congr_left
      intro a ha
      by_cases h : a = d
      · rw [h, h1, s1]
      · have := look_lt data.dims k.size j (by rw [← hsh]; exact hj) a ha
        rw [s2 a ha h] at this ⊢
        omega
  obtain ⟨r, e, h⟩ := C23_identity_missing data k himp hl normalize
  refine ⟨r, ?_, h⟩
  unfold convolve
  rw [g1]; exact e

/-- the hypotheses of **C233** are met by a wave on a 3 by 3 grid, of which the kernel keeps a third -/
example :
    let f : List Nat → ℚ := fun p => if p.getD 1 0 % 2 = 0 then 1 else -1
    let data : LArr V := ⟨["y", "x"], [3, 3], fun p => some (f p)⟩
    let P : String → Nat := fun _ => 1
    data.Ok ∧ Complete data f ∧ (∀ d ∈ data.dims, P d < data.size d) ∧ InnerAlong data "y" P ∧ InnerAlong data "x" P ∧
    datumAt data f (stepUp P "x") = -datumAt data f P ∧ datumAt data f (stepDown P "x") = -datumAt data f P ∧
    datumAt data f (stepUp P "y") = datumAt data f P ∧ datumAt data f (stepDown P "y") = datumAt data f P ∧ datumAt data f P ≠ 0 := by
  refine ⟨⟨by decide, rfl⟩, fun q _ => rfl, by decide, ⟨by decide, by decide⟩, ⟨by decide, by decide⟩, ?_, ?_, ?_, ?_, ?_⟩ <;>
    simp [datumAt, stepUp, stepDown, setPos]

/-- the hypotheses of **C233** (what is kept) are met by a field that is linear along both dimensions -/
example :
    let f : List Nat → ℚ := fun p => 2 * (p.getD 0 0 : ℚ) - 3 * (p.getD 1 0 : ℚ)
    let data : LArr V := ⟨["y", "x"], [3, 4], fun p => some (f p)⟩
    let P : String → Nat := fun d => if d = "x" then 2 else 1
    data.Ok ∧ Complete data f ∧ (∀ d ∈ data.dims, P d < data.size d) ∧ InnerAlong data "y" P ∧ InnerAlong data "x" P ∧
    datumAt data f (stepUp P "y") + datumAt data f (stepDown P "y") = 2 * datumAt data f P ∧
    datumAt data f (stepUp P "x") + datumAt data f (stepDown P "x") = 2 * datumAt data f P := by
  refine ⟨⟨by decide, rfl⟩, fun q _ => rfl, by decide, ⟨by decide, by decide⟩, ⟨by decide, by decide⟩, ?_, ?_⟩ <;>
    simp [datumAt, stepUp, stepDown, setPos] <;> norm_num

end Xoa
