import Verif.ErodeUntilProps
import Mathlib.Tactic.IntervalCases

namespace Xoa

/-! ## C26 with the default kernel -/

theorem kIdx_map (L : List String) (S P Q : String → Nat) (h : ∀ d ∈ L, Q d ≤ P d + (S d - 1) / 2 ∧ P d + (S d - 1) / 2 - Q d < S d) :
    kIdx (L.map S) (L.map P) (L.map Q) = some (L.map (fun d => P d + (S d - 1) / 2 - Q d)) := by
  induction L with
  | nil => rfl
  | cons a L ih =>
    simp only [List.map_cons, kIdx]
    rw [if_pos (h a (by simp)), ih (fun d hd => h d (by simp [hd]))]
    rfl

theorem positions_length (shape : List Nat) : (positions shape).length = shape.prod := by
  induction shape with
  | nil => rfl
  | cons n ns ih =>
    simp only [positions, List.length_flatMap, List.length_map, ih, List.prod_cons]
    simp

theorem prod_three (L : List String) (S : String → Nat) (A : List String) (hn : L.Nodup) (h3 : ∀ d ∈ L, d ∈ A → S d = 3) (h1 : ∀ d ∈ L, d ∉ A → S d = 1) :
    (L.map S).prod ≤ 3 ^ A.length := by
  have : (L.map S).prod = 3 ^ (L.filter (· ∈ A)).length := by
    clear hn
    induction L with
    | nil => rfl
    | cons a L ih =>
      simp only [List.map_cons, List.prod_cons]
      rw [ih (fun d hd => h3 d (by simp [hd])) (fun d hd => h1 d (by simp [hd]))]
      by_cases ha : a ∈ A
      · rw [h3 a (by simp) ha, List.filter_cons_of_pos (by simpa using ha), List.length_cons, Nat.pow_succ]
        ring
      · rw [h1 a (by simp) ha, List.filter_cons_of_neg (by simpa using ha)]
        ring
  rw [this]
  apply Nat.pow_le_pow_right (by norm_num)
  have hs : (L.filter (· ∈ A)).Subperm A := by
    refine List.subperm_of_subset (hn.filter _) ?_
    intro d hd
    simpa using (List.mem_filter.1 hd).2
  exact hs.length_le

section
variable (dims : List String) (ydim xdim : String) (k : LArr ℚ)

theorem shapiro_size (ht : Transposed (shapiroKernel [ydim, xdim]) k dims (newSize .insert (fun _ => none))) :
    k.size ydim = 3 ∧ k.size xdim = 3 ∧ ∀ d ∈ dims, d ≠ ydim → d ≠ xdim → k.size d = 1 := by
  have h1 := (ht.sizes ydim (by simp [shapiroKernel])).2
  have h2 := (ht.sizes xdim (by simp [shapiroKernel])).2
  refine ⟨?_, ?_, ?_⟩
  · rw [h1]; simp [LArr.size, shapiroKernel, look]
  · rw [h2]; simp [LArr.size, shapiroKernel, look]
  · intro d hd hy hx
    rw [ht.new d hd (by simp [shapiroKernel, hy, hx])]
    simp [newSize]

theorem shapiro_sum (hne : ydim ≠ xdim) (ht : Transposed (shapiroKernel [ydim, xdim]) k dims (newSize .insert (fun _ => none))) : kSum k ≤ 18 := by
  obtain ⟨s1, s2, s3⟩ := shapiro_size dims ydim xdim k ht
  have hok := shapiro_ok [ydim, xdim] (by simp [hne])
  have hb : ∀ j ∈ positions k.shape, k.val j ≤ 2 := by
    intro j hj
    obtain ⟨h1, h2⟩ := transposed_val _ k hok dims _ ht j ((mem_positions _ _).1 hj)
    rw [h2, ((C27_shapiro [ydim, xdim]).2.2 _ h1).1]
    have := List.count_le_length (a := 1) (l := (shapiroKernel [ydim, xdim]).dims.map (look dims j))
    have h3 : ((shapiroKernel [ydim, xdim]).dims.map (look dims j)).length = 2 := by simp [shapiroKernel]
    rw [h3] at this
    exact_mod_cast this
  have hlen : (positions k.shape).length ≤ 9 := by
    rw [positions_length, shape_eq k ht.ok, ht.dims]
    have hnd : dims.Nodup := by rw [← ht.dims]; exact ht.ok.nodup
    refine le_trans (prod_three dims k.size [ydim, xdim] hnd ?_ ?_) (by norm_num)
    · intro d _ hd
      simp only [List.mem_cons, List.not_mem_nil, or_false] at hd
      rcases hd with rfl | rfl
      · exact s1
      · exact s2
    · intro d hd hnd
      simp only [List.mem_cons, List.not_mem_nil, or_false, not_or] at hnd
      exact s3 d hd hnd.1 hnd.2
  unfold kSum
  calc ((positions k.shape).map k.val).sum ≤ ((positions k.shape).map (fun _ => (2 : ℚ))).sum := list_sum_le _ _ _ hb
    _ = (positions k.shape).length * 2 := by simp
    _ ≤ 9 * 2 := by
      have : ((positions k.shape).length : ℚ) ≤ 9 := by exact_mod_cast hlen
      linarith
    _ = 18 := by norm_num

/-- weight of the neighbour along one horizontal dimension -/
theorem shapiro_weight (hne : ydim ≠ xdim) (hy : ydim ∈ dims) (hx : xdim ∈ dims)
    (ht : Transposed (shapiroKernel [ydim, xdim]) k dims (newSize .insert (fun _ => none))) (P Q : String → Nat) (a b : String)
    (hab : (a = ydim ∧ b = xdim) ∨ (a = xdim ∧ b = ydim)) (h : ∀ d ∈ dims, d ≠ a → Q d = P d) (h1 : Q a = P a + 1 ∨ P a = Q a + 1) :
    kAt k (dims.map P) (dims.map Q) = 1 := by
  obtain ⟨s1, s2, s3⟩ := shapiro_size dims ydim xdim k ht
  have hok := shapiro_ok [ydim, xdim] (by simp [hne])
  have hsh : k.shape = dims.map k.size := by rw [shape_eq k ht.ok, ht.dims]
  have hsa : k.size a = 3 := by rcases hab with ⟨rfl, -⟩ | ⟨rfl, -⟩ <;> assumption
  have hsb : k.size b = 3 := by rcases hab with ⟨-, rfl⟩ | ⟨-, rfl⟩ <;> assumption
  have hbm : b ∈ dims := by rcases hab with ⟨-, rfl⟩ | ⟨-, rfl⟩ <;> assumption
  have hba : b ≠ a := by rcases hab with ⟨rfl, rfl⟩ | ⟨rfl, rfl⟩ <;> [exact hne.symm; exact hne]
  have ha : kIdx k.shape (dims.map P) (dims.map Q) = some (dims.map (fun d => P d + (k.size d - 1) / 2 - Q d)) := by
    rw [hsh]
    apply kIdx_map
    intro d hd
    by_cases hda : d = a
    · subst hda
      rw [hsa]
      omega
    · rw [h d hd hda]
      have : k.size d = 1 ∨ k.size d = 3 := by
        by_cases h4 : d = ydim
        · right; rw [h4]; exact s1
        · by_cases h5 : d = xdim
          · right; rw [h5]; exact s2
          · left; exact s3 d hd h4 h5
      rcases this with h6 | h6 <;> rw [h6] <;> omega
  unfold kAt
  rw [ha]
  simp only [Option.elim]
  obtain ⟨t1, t2⟩ := transposed_val _ k hok dims _ ht _ (kIdx_inShape _ _ _ _ ha)
  rw [t2, ((C27_shapiro [ydim, xdim]).2.2 _ t1).1]
  have e : (shapiroKernel [ydim, xdim]).dims.map (look dims (dims.map (fun d => P d + (k.size d - 1) / 2 - Q d))) =
      [P ydim + 1 - Q ydim, P xdim + 1 - Q xdim] := by
    show [ydim, xdim].map _ = _
    simp only [List.map_cons, List.map_nil]
    rw [look_map _ _ _ hy, look_map _ _ _ hx, s1, s2]
  rw [e]
  rcases hab with ⟨rfl, rfl⟩ | ⟨rfl, rfl⟩
  · rw [h b hbm hba]
    have : P b + 1 - P b = 1 := by omega
    rw [this]
    rcases h1 with h1 | h1
    · rw [h1]; simp
    · rw [h1]
      have : Q a + 1 + 1 - Q a = 2 := by omega
      rw [this]; simp
  · rw [h b hbm hba]
    have : P b + 1 - P b = 1 := by omega
    rw [this]
    rcases h1 with h1 | h1
    · rw [h1]; simp
    · rw [h1]
      have : Q a + 1 + 1 - Q a = 2 := by omega
      rw [this]; simp

end

/-- distance between two indices -/
def gap (a b : Nat) : Nat := (a - b) + (b - a)

theorem reached_slice (data : LArr V) (hd : data.Ok) (ydim xdim : String) (hne : ydim ≠ xdim) (hy : ydim ∈ data.dims) (hx : xdim ∈ data.dims)
    (k : LArr ℚ) (ht : Transposed (shapiroKernel [ydim, xdim]) k data.dims (newSize .insert (fun _ => none)))
    (Q : String → Nat) (hQ : ∀ d ∈ data.dims, Q d < data.size d) (v : ℚ) (hv : data.val (data.dims.map Q) = some v) (n : Nat) :
    ∀ P : String → Nat, (∀ d ∈ data.dims, P d < data.size d) → (∀ d ∈ data.dims, d ≠ ydim → d ≠ xdim → P d = Q d) →
      gap (P ydim) (Q ydim) + gap (P xdim) (Q xdim) ≤ n → Reached data k (data.dims.map P) := by
  have htol : (1 : ℚ) / 1000000 * kSum k < 1 := by
    have := shapiro_sum data.dims ydim xdim k hne ht
    linarith
  have hin : ∀ P : String → Nat, (∀ d ∈ data.dims, P d < data.size d) → InShape data.shape (data.dims.map P) := by
    intro P hP
    rw [shape_eq data hd]
    exact inShape_map _ _ _ hP
  induction n with
  | zero =>
    intro P hP hag hgap
    unfold gap at hgap
    have : data.dims.map P = data.dims.map Q := by
      apply List.map_congr_left
      intro d hdd
      by_cases h1 : d = ydim
      · rw [h1]; omega
      · by_cases h2 : d = xdim
        · rw [h2]; omega
        · exact hag d hdd h1 h2
    rw [this]
    exact .valid _ v (hin Q hQ) hv
  | succ n ih =>
    intro P hP hag hgap
    -- one step along `a`
    have step : ∀ a b, (a = ydim ∧ b = xdim) ∨ (a = xdim ∧ b = ydim) → P a ≠ Q a → Reached data k (data.dims.map P) := by
      intro a b hab hpa
      have ham : a ∈ data.dims := by rcases hab with ⟨rfl, -⟩ | ⟨rfl, -⟩ <;> assumption
      have hba : b ≠ a := by rcases hab with ⟨rfl, rfl⟩ | ⟨rfl, rfl⟩ <;> [exact hne.symm; exact hne]
      have hqa := hQ a ham
      have hpa' := hP a ham
      obtain ⟨c, hc1, hc2, hc3⟩ : ∃ c, (c = P a + 1 ∨ P a = c + 1) ∧ c < data.size a ∧ gap c (Q a) + 1 = gap (P a) (Q a) := by
        unfold gap
        by_cases hlt : P a < Q a
        · exact ⟨P a + 1, Or.inl rfl, by omega, by omega⟩
        · exact ⟨P a - 1, Or.inr (by omega), by omega, by omega⟩
      have hset : setPos P a c a = c := by simp [setPos]
      have hoth : ∀ d, d ≠ a → setPos P a c d = P d := by intro d h; simp [setPos, h]
      refine .step _ (data.dims.map (setPos P a c)) (hin P hP) (ih (setPos P a c) ?_ ?_ ?_) ?_
      · intro d hdd
        by_cases h : d = a
        · rw [h, hset]; exact hc2
        · rw [hoth d h]; exact hP d hdd
      · intro d hdd h1 h2
        have : d ≠ a := by rcases hab with ⟨rfl, -⟩ | ⟨rfl, -⟩ <;> assumption
        rw [hoth d this]
        exact hag d hdd h1 h2
      · rcases hab with ⟨rfl, rfl⟩ | ⟨rfl, rfl⟩
        · rw [hset, hoth _ hba]; omega
        · rw [hset, hoth _ hba]; omega
      · rw [shapiro_weight data.dims ydim xdim k hne hy hx ht P (setPos P a c) a b hab (fun d _ h => hoth d h) (by rw [hset]; exact hc1)]
        exact htol
    by_cases h1 : P ydim = Q ydim
    · by_cases h2 : P xdim = Q xdim
      · exact ih P hP hag (by unfold gap; omega)
      · exact step xdim ydim (Or.inr ⟨rfl, rfl⟩) h2
    · exact step ydim xdim (Or.inl ⟨rfl, rfl⟩) h1

/-- C26 with the default kernel: for data with two horizontal dimensions (and any others), `erode_mask` returns as soon as the horizontal slice of
each point that the target does not mask has a valid datum, however far. -/
theorem C26_default_terminates (data : LArr V) (hd : data.Ok) (ydim xdim : String) (hne : ydim ≠ xdim) (hy : ydim ∈ data.dims) (hx : xdim ∈ data.dims)
    (mask : LArr Bool) (hm : mask.Ok) (hmd : ∀ d, d ∈ mask.dims ↔ d = ydim ∨ d = xdim) (hms : ∀ d ∈ mask.dims, mask.size d = data.size d)
    (hv : ∀ P : String → Nat, (∀ d ∈ data.dims, P d < data.size d) → mask.at P = false →
      ∃ Q : String → Nat, (∀ d ∈ data.dims, Q d < data.size d) ∧ (∀ d, d ≠ ydim → d ≠ xdim → Q d = P d) ∧ ∃ v, data.at Q = some v) :
    ∃ N, ∀ fuel, N ≤ fuel → ∃ r, erodeMaskUntil data mask (.da (shapiroKernel [ydim, xdim])) fuel = some (.ok r) ∧ r.dims = data.dims ∧ r.shape = data.shape ∧
      ∀ P : String → Nat, (∀ d ∈ data.dims, P d < data.size d) → mask.at P = false → ∃ v, r.at P = some v := by
  obtain ⟨k, hk, hn, ht⟩ := shapiro_erode data hd ydim xdim hne hy hx
  obtain ⟨s1, s2, s3⟩ := shapiro_size data.dims ydim xdim k ht
  have hsub : ∀ d ∈ mask.dims, d ∈ data.dims := by
    intro d h
    rcases (hmd d).1 h with rfl | rfl <;> assumption
  have htm : TargetMask mask data k := by
    refine ⟨hm, ?_, hms⟩
    intro d
    rw [hmd d]
    unfold kDims
    rw [List.mem_filter, ht.dims]
    constructor
    · rintro (rfl | rfl)
      · exact ⟨hy, by simp [s1]⟩
      · exact ⟨hx, by simp [s2]⟩
    · rintro ⟨h1, h2⟩
      by_contra hc
      rw [not_or] at hc
      simp [s3 d h1 hc.1 hc.2] at h2
  have hlook : ∀ p, InShape data.shape p → data.dims.map (look data.dims p) = p ∧ ∀ d ∈ data.dims, look data.dims p d < data.size d := by
    intro p hp
    have hpl : p.length = data.dims.length := by rw [inShape_length _ _ hp, hd.len]
    refine ⟨map_look _ _ hd.nodup hpl, ?_⟩
    rw [shape_eq data hd] at hp
    exact fun d h => look_lt _ _ _ hp d h
  obtain ⟨N, hN⟩ := C26_terminates_partial data _ k hk hn mask htm (by
    intro p hp hmp
    obtain ⟨e1, e2⟩ := hlook p hp
    obtain ⟨Q, q1, q2, v, q3⟩ := hv (look data.dims p) e2 hmp
    have := reached_slice data hd ydim xdim hne hy hx k ht Q q1 v q3 _ (look data.dims p) e2 (fun d _ h1 h2 => (q2 d h1 h2).symm) (le_refl _)
    rw [e1] at this
    exact this)
  refine ⟨N, ?_⟩
  intro fuel hf
  obtain ⟨r, h1, h2⟩ := hN fuel hf
  obtain ⟨n, r', b1, b2, b3, b4, b5, b6⟩ := C26_result data _ k hk mask htm fuel _ h1
  cases b3
  obtain ⟨r2, c1, c2, c3, -⟩ := C25_valid_kept data _ k hk n
  rw [b4] at c1
  cases c1
  refine ⟨r, h1, c2, c3, ?_⟩
  intro P hP hmP
  have hin : InShape data.shape (data.dims.map P) := by
    rw [shape_eq data hd]
    exact inShape_map _ _ _ hP
  have : maskAt mask data (data.dims.map P) = false := by
    unfold maskAt
    have e : mask.dims.map (look data.dims (data.dims.map P)) = mask.dims.map P := by
      apply List.map_congr_left
      intro d h
      exact look_map _ _ _ (hsub d h)
    rw [e]
    exact hmP
  obtain ⟨v, hv'⟩ := h2 _ hin this
  refine ⟨v, ?_⟩
  unfold LArr.at
  rw [c2]
  exact hv'

/-- C26 with the default kernel and two-dimensional data: one valid datum anywhere is enough. -/
theorem C26_default_2d (data : LArr V) (hd : data.Ok) (ydim xdim : String) (hne : ydim ≠ xdim) (hdims : data.dims = [ydim, xdim])
    (mask : LArr Bool) (hm : mask.Ok) (hmd : mask.dims = [ydim, xdim]) (hms : mask.shape = data.shape)
    (Q : String → Nat) (hQ : ∀ d ∈ data.dims, Q d < data.size d) (v : ℚ) (hv : data.at Q = some v) :
    ∃ N, ∀ fuel, N ≤ fuel → ∃ r, erodeMaskUntil data mask (.da (shapiroKernel [ydim, xdim])) fuel = some (.ok r) := by
  obtain ⟨N, h⟩ := C26_default_terminates data hd ydim xdim hne (by simp [hdims]) (by simp [hdims]) mask hm (by simp [hmd])
    (by intro d _; unfold LArr.size; rw [hmd, hdims, hms])
    (by
      intro P hP _
      refine ⟨fun d => if d = ydim ∨ d = xdim then Q d else P d, ?_, ?_, v, ?_⟩
      · intro d h
        dsimp only
        split
        · exact hQ d h
        · exact hP d h
      · intro d h1 h2
        simp [h1, h2]
      · unfold LArr.at at hv ⊢
        rw [← hv]
        congr 1
        apply List.map_congr_left
        intro d h
        rw [hdims] at h
        simp only [List.mem_cons, List.not_mem_nil, or_false] at h
        simp [h])
  exact ⟨N, fun fuel hf => by obtain ⟨r, h1, -⟩ := h fuel hf; exact ⟨r, h1⟩⟩

/-- mask for the examples -/
def eMask (l : List (List Bool)) : LArr Bool := ⟨["y", "x"], [l.length, (l.headD []).length], fun idx => (l.getD (idx.getD 0 0) []).getD (idx.getD 1 0) false⟩

-- two turns are needed
example : (erodeMaskUntil (eData [[some 1, none, none], [none, none, none]]) (eMask [[false, false, false], [true, true, true]]) (.da (shapiroKernel ["y", "x"])) 1).isNone ∧
    (erodeMaskUntil (eData [[some 1, none, none], [none, none, none]]) (eMask [[false, false, false], [true, true, true]]) (.da (shapiroKernel ["y", "x"])) 5).map fVals =
      some (some [some 1, some 1, some 1, some 1, some 1, none]) := by decide +kernel
-- the hypotheses of C26_all_missing_violated are met by the default kernel
example (fuel : Nat) : erodeMaskUntil (eData [[none, none], [none, none]]) (eMask [[false, true], [true, true]]) (.da (shapiroKernel ["y", "x"])) fuel = none := by
  have hd : (eData [[none, none], [none, none]]).Ok := ⟨by decide, rfl⟩
  obtain ⟨k, hk, hn, ht⟩ := shapiro_erode _ hd "y" "x" (by decide) (by decide) (by decide)
  obtain ⟨s1, s2, s3⟩ := shapiro_size _ "y" "x" k ht
  refine C26_all_missing_violated _ _ k hk hn _ ⟨⟨by decide, rfl⟩, ?_, ?_⟩ ?_ [0, 0] (by simp [eData, InShape]) rfl fuel
  · intro d
    unfold kDims
    rw [List.mem_filter, ht.dims]
    constructor
    · intro h
      simp only [eMask, List.mem_cons, List.not_mem_nil, or_false] at h
      rcases h with rfl | rfl
      · exact ⟨by decide, by simp [s1]⟩
      · exact ⟨by decide, by simp [s2]⟩
    · rintro ⟨h, -⟩
      exact h
  · intro d h
    rfl
  · intro p hp
    simp only [eData]
    rcases p with _ | ⟨a, _ | ⟨b, _ | ⟨c, p⟩⟩⟩ <;> simp [eData, InShape] at hp
    obtain ⟨h1, h2⟩ := hp
    interval_cases a <;> interval_cases b <;> rfl

end Xoa
