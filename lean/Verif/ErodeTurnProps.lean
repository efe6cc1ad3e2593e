import Verif.ErodeDefaultProps

namespace Xoa

/-! ## C25: what one turn with the default kernel does, exactly -/

/-- the positions next to `P` along the dimension `a` of size `n` -/
def nextTo (P : String → Nat) (a : String) (n : Nat) : List (String → Nat) :=
  (if P a + 1 < n then [setPos P a (P a + 1)] else []) ++ (if 0 < P a then [setPos P a (P a - 1)] else [])

/-- the positions next to `P` in a horizontal slice of the array -/
def around (data : LArr V) (ydim xdim : String) (P : String → Nat) : List (String → Nat) :=
  nextTo P ydim (data.size ydim) ++ nextTo P xdim (data.size xdim)

/-- the mean of some numbers, none when there is nothing -/
def plainMean (l : List ℚ) : Option ℚ := if l = [] then none else some (l.sum / l.length)

theorem kIdx_map_none (L : List String) (S P Q : String → Nat) (d : String) (hd : d ∈ L) (h : ¬ (Q d ≤ P d + (S d - 1) / 2 ∧ P d + (S d - 1) / 2 - Q d < S d)) :
    kIdx (L.map S) (L.map P) (L.map Q) = none := by
  induction L with
  | nil => simp at hd
  | cons a L ih =>
    simp only [List.map_cons, kIdx]
    by_cases ha : d = a
    · rw [if_neg (by rw [← ha]; exact h)]
    · rw [ih (by simpa [ha] using hd)]
      split <;> rfl

/-- the weights of the default kernel -/
theorem shapiro_weights (dims : List String) (ydim xdim : String) (k : LArr ℚ) (hne : ydim ≠ xdim) (hy : ydim ∈ dims) (hx : xdim ∈ dims)
    (ht : Transposed (shapiroKernel [ydim, xdim]) k dims (newSize .insert (fun _ => none))) (P Q : String → Nat) :
    kAt k (dims.map P) (dims.map Q) =
      if (∀ d ∈ dims, d ≠ ydim → d ≠ xdim → Q d = P d) ∧ gap (P ydim) (Q ydim) ≤ 1 ∧ gap (P xdim) (Q xdim) ≤ 1 then
        (if Q ydim = P ydim then 1 else 0) + (if Q xdim = P xdim then 1 else 0) else 0 := by
  obtain ⟨s1, s2, s3⟩ := shapiro_size dims ydim xdim k ht
  have hok := shapiro_ok [ydim, xdim] (by simp [hne])
  have hsh : k.shape = dims.map k.size := by rw [shape_eq k ht.ok, ht.dims]
  split
  case isTrue h =>
    obtain ⟨h1, h2, h3⟩ := h
    unfold gap at h2 h3
    have ha : kIdx k.shape (dims.map P) (dims.map Q) = some (dims.map (fun d => P d + (k.size d - 1) / 2 - Q d)) := by
      rw [hsh]
      apply kIdx_map
      intro d hd
      by_cases h4 : d = ydim
      · rw [h4, s1]; omega
      · by_cases h5 : d = xdim
        · rw [h5, s2]; omega
        · rw [h1 d hd h4 h5, s3 d hd h4 h5]; omega
    unfold kAt
    rw [ha]
    simp only [Option.elim]
    obtain ⟨t1, t2⟩ := transposed_val _ k hok dims _ ht _ (kIdx_inShape _ _ _ _ ha)
    rw [t2, ((C27_shapiro [ydim, xdim]).2.2 _ t1).1]
    have e : (shapiroKernel [ydim, xdim]).dims.map (look dims (dims.map (fun d => P d + (k.size d - 1) / 2 - Q d))) =
        [P ydim + 1 - Q ydim, P xdim + 1 - Q xdim] := by
      show [ydim, xdim].map _ = _
      simp only [List.map_cons, List.map_nil]
      rw [look_map _ _ _ hy, look_map _ _ _ hx, s1, s2]
    rw [e]
    have c : ∀ a b : Nat, (List.count 1 [a, b] : ℕ) = (if a = 1 then 1 else 0) + (if b = 1 then 1 else 0) := by
      intro a b
      by_cases ha : a = 1 <;> by_cases hb : b = 1 <;> simp [List.count_cons, ha, hb]
    rw [c]
    have e1 : (P ydim + 1 - Q ydim = 1) ↔ Q ydim = P ydim := by omega
    have e2 : (P xdim + 1 - Q xdim = 1) ↔ Q xdim = P xdim := by omega
    simp only [e1, e2]
    push_cast
    rfl
  case isFalse h =>
    have : kIdx k.shape (dims.map P) (dims.map Q) = none := by
      rw [hsh]
      by_cases h1 : ∀ d ∈ dims, d ≠ ydim → d ≠ xdim → Q d = P d
      · by_cases h2 : gap (P ydim) (Q ydim) ≤ 1
        · have h3 : ¬ gap (P xdim) (Q xdim) ≤ 1 := fun h3 => h ⟨h1, h2, h3⟩
          refine kIdx_map_none _ _ _ _ xdim hx ?_
          unfold gap at h3
          rw [s2]; omega
        · refine kIdx_map_none _ _ _ _ ydim hy ?_
          unfold gap at h2
          rw [s1]; omega
      · push Not at h1
        obtain ⟨d, hd, h4, h5, h6⟩ := h1
        refine kIdx_map_none _ _ _ _ d hd ?_
        rw [s3 d hd h4 h5]; omega
    unfold kAt
    rw [this]; rfl

/-- a sum over a list of a function that is zero out of some of its items -/
theorem sum_on (l N : List (List Nat)) (hl : l.Nodup) (hN : N.Nodup) (hs : ∀ x ∈ N, x ∈ l) (f : List Nat → ℚ) (h0 : ∀ x ∈ l, x ∉ N → f x = 0) :
    (l.map f).sum = (N.map f).sum := by
  have h1 : (l.map f).sum = ((l.filter (· ∈ N)).map f).sum := by
    clear hs hl
    induction l with
    | nil => rfl
    | cons a l ih =>
      have ih := ih (fun x hx => h0 x (by simp [hx]))
      by_cases ha : a ∈ N
      · rw [List.filter_cons_of_pos (by simpa using ha)]
        simp [ih]
      · rw [List.filter_cons_of_neg (by simpa using ha)]
        simp [ih, h0 a (by simp) ha]
  have hp : (l.filter (· ∈ N)).Perm N := by
    rw [List.perm_ext_iff_of_nodup (hl.filter _) hN]
    intro x
    simp only [List.mem_filter, decide_eq_true_eq]
    exact ⟨fun h => h.2, fun h => ⟨hs x h, h⟩⟩
  rw [h1]
  exact (hp.map f).sum_eq

theorem map_inj_pos (dims : List String) (P Q : String → Nat) (h : dims.map P = dims.map Q) : ∀ d ∈ dims, P d = Q d := by
  intro d hd
  have := congrArg (fun l => look dims l d) h
  simpa [look_map _ _ _ hd] using this

theorem mem_nextTo (P : String → Nat) (a : String) (n : Nat) (Q : String → Nat) :
    Q ∈ nextTo P a n ↔ (P a + 1 < n ∧ Q = setPos P a (P a + 1)) ∨ (0 < P a ∧ Q = setPos P a (P a - 1)) := by
  unfold nextTo
  rw [List.mem_append]
  constructor
  · rintro (h | h)
    · split at h
      · left; simp at h; exact ⟨by assumption, h⟩
      · simp at h
    · split at h
      · right; simp at h; exact ⟨by assumption, h⟩
      · simp at h
  · rintro (⟨h, rfl⟩ | ⟨h, rfl⟩)
    · left; simp [h]
    · right; simp [h]

theorem setPos_same (P : String → Nat) (a : String) (i : Nat) : setPos P a i a = i := by simp [setPos]
theorem setPos_other (P : String → Nat) (a d : String) (i : Nat) (h : d ≠ a) : setPos P a i d = P d := by simp [setPos, h]

theorem nextTo_nodup (dims : List String) (P : String → Nat) (a : String) (n : Nat) (ha : a ∈ dims) : ((nextTo P a n).map (fun Q => dims.map Q)).Nodup := by
  unfold nextTo
  split <;> split <;> simp
  exact ⟨a, ha, by rw [setPos_same, setPos_same]; omega⟩

theorem around_nodup (data : LArr V) (ydim xdim : String) (hne : ydim ≠ xdim) (hy : ydim ∈ data.dims) (P : String → Nat)
    (hx : xdim ∈ data.dims) : ((around data ydim xdim P).map (fun Q => data.dims.map Q)).Nodup := by
  unfold around
  rw [List.map_append, List.nodup_append]
  refine ⟨nextTo_nodup _ _ _ _ hy, nextTo_nodup _ _ _ _ hx, ?_⟩
  intro q hq q' hq' e
  obtain ⟨Q, hQ, rfl⟩ := List.mem_map.1 hq
  obtain ⟨Q', hQ', rfl⟩ := List.mem_map.1 hq'
  have := map_inj_pos data.dims _ _ e ydim hy
  rcases (mem_nextTo _ _ _ _).1 hQ with ⟨h1, rfl⟩ | ⟨h1, rfl⟩ <;> rcases (mem_nextTo _ _ _ _).1 hQ' with ⟨h2, rfl⟩ | ⟨h2, rfl⟩ <;>
    rw [setPos_same, setPos_other _ _ _ _ hne] at this <;> omega

/-- a position is next to `P` when it is one step away along one of the two dimensions -/
theorem mem_around (data : LArr V) (ydim xdim : String) (hne : ydim ≠ xdim) (hy : ydim ∈ data.dims) (hx : xdim ∈ data.dims) (P Q : String → Nat)
    (hP : ∀ d ∈ data.dims, P d < data.size d) (hQ : ∀ d ∈ data.dims, Q d < data.size d) :
    data.dims.map Q ∈ (around data ydim xdim P).map (fun Q => data.dims.map Q) ↔
      (∀ d ∈ data.dims, d ≠ ydim → d ≠ xdim → Q d = P d) ∧
        ((gap (P ydim) (Q ydim) = 1 ∧ Q xdim = P xdim) ∨ (Q ydim = P ydim ∧ gap (P xdim) (Q xdim) = 1)) := by
  have key : ∀ (a b : String) (i : Nat), (a = ydim ∧ b = xdim) ∨ (a = xdim ∧ b = ydim) →
      (data.dims.map Q = data.dims.map (setPos P a i) ↔ (∀ d ∈ data.dims, d ≠ ydim → d ≠ xdim → Q d = P d) ∧ Q a = i ∧ Q b = P b) := by
    intro a b i hab
    have ham : a ∈ data.dims := by rcases hab with ⟨rfl, -⟩ | ⟨rfl, -⟩ <;> assumption
    have hbm : b ∈ data.dims := by rcases hab with ⟨-, rfl⟩ | ⟨-, rfl⟩ <;> assumption
    have hba : b ≠ a := by rcases hab with ⟨rfl, rfl⟩ | ⟨rfl, rfl⟩ <;> [exact hne.symm; exact hne]
    constructor
    · intro h
      have h := map_inj_pos _ _ _ h
      refine ⟨?_, ?_, ?_⟩
      · intro d hd h1 h2
        rw [h d hd, setPos_other]
        rcases hab with ⟨rfl, -⟩ | ⟨rfl, -⟩ <;> assumption
      · rw [h a ham, setPos_same]
      · rw [h b hbm, setPos_other _ _ _ _ hba]
    · rintro ⟨h1, h2, h3⟩
      apply List.map_congr_left
      intro d hd
      by_cases hda : d = a
      · rw [hda, setPos_same, h2]
      · rw [setPos_other _ _ _ _ hda]
        by_cases hdb : d = b
        · rw [hdb, h3]
        · rcases hab with ⟨rfl, rfl⟩ | ⟨rfl, rfl⟩
          · exact h1 d hd hda hdb
          · exact h1 d hd hdb hda
  have py := hP ydim hy
  have px := hP xdim hx
  have qy := hQ ydim hy
  have qx := hQ xdim hx
  rw [List.mem_map]
  unfold around gap
  constructor
  · rintro ⟨R, hR, e⟩
    rw [List.mem_append, mem_nextTo, mem_nextTo] at hR
    rcases hR with (⟨h, rfl⟩ | ⟨h, rfl⟩) | (⟨h, rfl⟩ | ⟨h, rfl⟩)
    · obtain ⟨h1, h2, h3⟩ := (key ydim xdim _ (.inl ⟨rfl, rfl⟩)).1 e.symm
      exact ⟨h1, .inl ⟨by omega, h3⟩⟩
    · obtain ⟨h1, h2, h3⟩ := (key ydim xdim _ (.inl ⟨rfl, rfl⟩)).1 e.symm
      exact ⟨h1, .inl ⟨by omega, h3⟩⟩
    · obtain ⟨h1, h2, h3⟩ := (key xdim ydim _ (.inr ⟨rfl, rfl⟩)).1 e.symm
      exact ⟨h1, .inr ⟨h3, by omega⟩⟩
    · obtain ⟨h1, h2, h3⟩ := (key xdim ydim _ (.inr ⟨rfl, rfl⟩)).1 e.symm
      exact ⟨h1, .inr ⟨h3, by omega⟩⟩
  · rintro ⟨h1, ⟨h2, h3⟩ | ⟨h2, h3⟩⟩
    · by_cases h4 : P ydim < Q ydim
      · exact ⟨setPos P ydim (P ydim + 1), by rw [List.mem_append, mem_nextTo]; exact .inl (.inl ⟨by omega, rfl⟩),
          ((key ydim xdim _ (.inl ⟨rfl, rfl⟩)).2 ⟨h1, by omega, h3⟩).symm⟩
      · exact ⟨setPos P ydim (P ydim - 1), by rw [List.mem_append, mem_nextTo]; exact .inl (.inr ⟨by omega, rfl⟩),
          ((key ydim xdim _ (.inl ⟨rfl, rfl⟩)).2 ⟨h1, by omega, h3⟩).symm⟩
    · by_cases h4 : P xdim < Q xdim
      · exact ⟨setPos P xdim (P xdim + 1), by rw [List.mem_append, mem_nextTo, mem_nextTo]; exact .inr (.inl ⟨by omega, rfl⟩),
          ((key xdim ydim _ (.inr ⟨rfl, rfl⟩)).2 ⟨h1, by omega, h2⟩).symm⟩
      · exact ⟨setPos P xdim (P xdim - 1), by rw [List.mem_append, mem_nextTo, mem_nextTo]; exact .inr (.inr ⟨by omega, rfl⟩),
          ((key xdim ydim _ (.inr ⟨rfl, rfl⟩)).2 ⟨h1, by omega, h2⟩).symm⟩

theorem around_inside (data : LArr V) (ydim xdim : String) (P Q : String → Nat) (hP : ∀ d ∈ data.dims, P d < data.size d)
    (hQ : Q ∈ around data ydim xdim P) : ∀ d ∈ data.dims, Q d < data.size d := by
  intro d hd
  have := hP d hd
  unfold around at hQ
  rw [List.mem_append, mem_nextTo, mem_nextTo] at hQ
  rcases hQ with (⟨h, rfl⟩ | ⟨h, rfl⟩) | (⟨h, rfl⟩ | ⟨h, rfl⟩) <;> unfold setPos <;> split <;> (try subst d) <;> omega

/-- the weight of a datum in the default kernel -/
theorem weight_around (data : LArr V) (ydim xdim : String) (hne : ydim ≠ xdim) (hy : ydim ∈ data.dims) (hx : xdim ∈ data.dims) (k : LArr ℚ)
    (ht : Transposed (shapiroKernel [ydim, xdim]) k data.dims (newSize .insert (fun _ => none))) (P Q : String → Nat)
    (hP : ∀ d ∈ data.dims, P d < data.size d) (hQ : ∀ d ∈ data.dims, Q d < data.size d) (hPQ : data.dims.map Q ≠ data.dims.map P) :
    kAt k (data.dims.map P) (data.dims.map Q) =
      if data.dims.map Q ∈ (around data ydim xdim P).map (fun Q => data.dims.map Q) then 1 else 0 := by
  rw [shapiro_weights data.dims ydim xdim k hne hy hx ht P Q]
  have hm := mem_around data ydim xdim hne hy hx P Q hP hQ
  by_cases h1 : ∀ d ∈ data.dims, d ≠ ydim → d ≠ xdim → Q d = P d
  · have hc : ¬ (Q ydim = P ydim ∧ Q xdim = P xdim) := by
      rintro ⟨h2, h3⟩
      refine hPQ (List.map_congr_left ?_)
      intro d hd
      by_cases h4 : d = ydim
      · rw [h4, h2]
      · by_cases h5 : d = xdim
        · rw [h5, h3]
        · exact h1 d hd h4 h5
    by_cases h2 : data.dims.map Q ∈ (around data ydim xdim P).map (fun Q => data.dims.map Q)
    · rw [if_pos h2]
      obtain ⟨-, h | h⟩ := hm.1 h2
      · have h7 : ¬ Q ydim = P ydim := fun h8 => hc ⟨h8, h.2⟩
        rw [if_pos ⟨h1, by rw [h.1], by rw [h.2]; unfold gap; omega⟩, if_neg h7, if_pos h.2]; norm_num
      · have h7 : ¬ Q xdim = P xdim := fun h8 => hc ⟨h.1, h8⟩
        rw [if_pos ⟨h1, by rw [h.1]; unfold gap; omega, by rw [h.2]⟩, if_pos h.1, if_neg h7]; norm_num
    · rw [if_neg h2]
      split
      case isFalse => rfl
      case isTrue h =>
        have h3 : ¬ Q ydim = P ydim := by
          intro h4
          refine h2 (hm.2 ⟨h1, .inr ⟨h4, ?_⟩⟩)
          have : ¬ Q xdim = P xdim := fun h5 => hc ⟨h4, h5⟩
          have := h.2.2
          unfold gap at this ⊢
          omega
        have h4 : ¬ Q xdim = P xdim := by
          intro h4
          refine h2 (hm.2 ⟨h1, .inl ⟨?_, h4⟩⟩)
          have := h.2.1
          unfold gap at this ⊢
          omega
        rw [if_neg h3, if_neg h4]; norm_num
  · rw [if_neg (fun h => h1 h.1), if_neg (fun h => h1 (hm.1 h).1)]

/-- the valid data next to a position -/
def validAround (data : LArr V) (ydim xdim : String) (P : String → Nat) : List ℚ := (around data ydim xdim P).filterMap (fun Q => data.at Q)

theorem filterMap_sum {α} (l : List α) (f : α → Option ℚ) : (l.map (fun q => (f q).elim 0 (fun v => v))).sum = (l.filterMap f).sum := by
  induction l with
  | nil => rfl
  | cons a l ih => cases h : f a <;> simp [h, ih]

theorem filterMap_len {α} (l : List α) (f : α → Option ℚ) : (l.map (fun q => (f q).elim 0 (fun _ => (1 : ℚ)))).sum = (l.filterMap f).length := by
  induction l with
  | nil => rfl
  | cons a l ih => cases h : f a <;> simp [h, ih]; ring

/-- **C25 (default kernel).** One turn of `erode_mask` keeps the valid data, and gives to each missing point the mean of the valid data next to it along the
two horizontal dimensions: at most four data, with equal weights; a point without valid data next to it stays missing. -/
theorem C25_default_turn (data : LArr V) (hd : data.Ok) (ydim xdim : String) (hne : ydim ≠ xdim) (hy : ydim ∈ data.dims) (hx : xdim ∈ data.dims) :
    ∃ r, erodeMaskN data 1 (.da (shapiroKernel [ydim, xdim])) = .ok r ∧ r.dims = data.dims ∧ r.shape = data.shape ∧
      ∀ P : String → Nat, (∀ d ∈ data.dims, P d < data.size d) →
        (∀ v, data.at P = some v → r.at P = some v) ∧ (data.at P = none → r.at P = plainMean (validAround data ydim xdim P)) := by
  obtain ⟨k, hk, hnn, ht⟩ := shapiro_erode data hd ydim xdim hne hy hx
  obtain ⟨r, hr, r1, r2, r3⟩ := C25_valid_kept data _ k hk 1
  refine ⟨r, hr, r1, r2, ?_⟩
  intro P hP
  have hin : ∀ Q : String → Nat, (∀ d ∈ data.dims, Q d < data.size d) → InShape data.shape (data.dims.map Q) := by
    intro Q hQ
    rw [shape_eq data hd]
    exact inShape_map _ _ _ hQ
  have rat : ∀ Q : String → Nat, r.at Q = r.val (data.dims.map Q) := by intro Q; unfold LArr.at; rw [r1]
  refine ⟨fun v hv => by rw [rat]; exact r3 _ v hv, ?_⟩
  intro h0
  have h0' : data.val (data.dims.map P) = none := h0
  have hw : ∀ q ∈ positions data.shape, q ≠ data.dims.map P → kAt k (data.dims.map P) q =
      if q ∈ (around data ydim xdim P).map (fun Q => data.dims.map Q) then 1 else 0 := by
    intro q hq hne'
    have hq := (mem_positions _ _).1 hq
    have hql : q.length = data.dims.length := by
      rw [← hd.len]; exact (inShape_length _ _ hq)
    have hqe := map_look data.dims q hd.nodup hql
    have hQ : ∀ d ∈ data.dims, look data.dims q d < data.size d := by
      intro d hdd
      rw [shape_eq data hd] at hq
      exact look_lt _ _ _ hq d hdd
    have := weight_around data ydim xdim hne hy hx k ht P (look data.dims q) hP hQ (by rw [hqe]; exact hne')
    rwa [hqe] at this
  have hsub : ∀ q ∈ (around data ydim xdim P).map (fun Q => data.dims.map Q), q ∈ positions data.shape := by
    intro q hq
    obtain ⟨Q, hQ, rfl⟩ := List.mem_map.1 hq
    exact (mem_positions _ _).2 (hin Q (around_inside data ydim xdim P Q hP hQ))
  have hnotP : data.dims.map P ∉ (around data ydim xdim P).map (fun Q => data.dims.map Q) := by
    rw [mem_around data ydim xdim hne hy hx P P hP hP]
    rintro ⟨-, ⟨h, -⟩ | ⟨-, h⟩⟩ <;> unfold gap at h <;> omega
  have hS : availSum data k (data.dims.map P) = (validAround data ydim xdim P).sum := by
    unfold availSum validAround
    rw [sum_on _ _ (positions_nodup _) (around_nodup data ydim xdim hne hy P hx) hsub _ (by
      intro q hq hn
      by_cases hqp : q = data.dims.map P
      · rw [hqp, h0']; rfl
      · rw [hw q hq hqp, if_neg hn]; cases data.val q <;> simp), ← filterMap_sum, List.map_map]
    congr 1
    apply List.map_congr_left
    intro Q hQ
    have hm : data.dims.map Q ∈ (around data ydim xdim P).map (fun Q => data.dims.map Q) := List.mem_map.2 ⟨Q, hQ, rfl⟩
    have hqp : data.dims.map Q ≠ data.dims.map P := fun e => hnotP (e ▸ hm)
    show (data.val (data.dims.map Q)).elim 0 _ = (data.val (data.dims.map Q)).elim 0 _
    rw [hw _ (hsub _ hm) hqp, if_pos hm]
    cases data.val (data.dims.map Q) <;> simp
  have hW : availWeight data k (data.dims.map P) = (validAround data ydim xdim P).length := by
    unfold availWeight validAround
    rw [sum_on _ _ (positions_nodup _) (around_nodup data ydim xdim hne hy P hx) hsub _ (by
      intro q hq hn
      by_cases hqp : q = data.dims.map P
      · rw [hqp, h0']; rfl
      · rw [hw q hq hqp, if_neg hn]; cases data.val q <;> simp), ← filterMap_len, List.map_map]
    congr 1
    apply List.map_congr_left
    intro Q hQ
    have hm : data.dims.map Q ∈ (around data ydim xdim P).map (fun Q => data.dims.map Q) := List.mem_map.2 ⟨Q, hQ, rfl⟩
    have hqp : data.dims.map Q ≠ data.dims.map P := fun e => hnotP (e ▸ hm)
    show (data.val (data.dims.map Q)).elim 0 _ = (data.val (data.dims.map Q)).elim 0 _
    rw [hw _ (hsub _ hm) hqp, if_pos hm]
  obtain ⟨d, hturn, T⟩ := turn_ok data k hk.fits
  have hrd : r = d := by
    have : erodeMaskN data 1 (.da (shapiroKernel [ydim, xdim])) = .ok d := by
      unfold erodeMaskN
      simp only [hk.made, bind, Except.bind]
      show erodeIter k 1 data = _
      rw [erodeIter_succ k 0 data d hturn]; rfl
    rw [hr] at this
    injection this
  subst hrd
  rw [rat]
  unfold plainMean
  by_cases hl : validAround data ydim xdim P = []
  · rw [if_pos hl]
    refine T.none hnn _ (hin P hP) h0' ?_
    rw [← availWeight_pos_iff data k hnn, hW, hl]
    simp
  · rw [if_neg hl]
    obtain ⟨Q, hQ, v, hv⟩ : ∃ Q ∈ around data ydim xdim P, ∃ v, data.at Q = some v := by
      unfold validAround at hl
      obtain ⟨v, hv⟩ := List.exists_mem_of_ne_nil _ hl
      obtain ⟨Q, hQ, hv⟩ := List.mem_filterMap.1 hv
      exact ⟨Q, hQ, v, hv⟩
    have hm : data.dims.map Q ∈ (around data ydim xdim P).map (fun Q => data.dims.map Q) := List.mem_map.2 ⟨Q, hQ, rfl⟩
    have hqp : data.dims.map Q ≠ data.dims.map P := fun e => hnotP (e ▸ hm)
    have hk1 : kAt k (data.dims.map P) (data.dims.map Q) = 1 := by rw [hw _ (hsub _ hm) hqp, if_pos hm]
    obtain ⟨x, hx'⟩ := T.reach hnn (data.dims.map P) (data.dims.map Q) (hin P hP)
      ⟨hin Q (around_inside data ydim xdim P Q hP hQ), ⟨v, hv⟩, by rw [hk1]; norm_num⟩ (by
        have := shapiro_sum data.dims ydim xdim k hne ht
        rw [hk1]; linarith)
    rw [hx', ((T.fill hnn _ x h0' hx').2).1, hS, hW]

/-- the center has three valid data next to it, the last corner has none -/
example : fVals (erodeMaskN (eData [[none, some 2, none], [some 4, none, some 6], [none, none, none], [none, none, none]]) 1 (.da (shapiroKernel ["y", "x"]))) =
    some [some 3, some 2, some 4, some 4, some 4, some 6, some 4, none, some 6, none, none, none] := by decide +kernel

end Xoa
