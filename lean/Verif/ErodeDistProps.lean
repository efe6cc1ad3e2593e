import Verif.ErodeTurnProps
import Verif.ErodeUntilProps
import Mathlib.Tactic.IntervalCases

/-!
# C225: how far `erode_mask` fills

No new model. `erode_mask` (xoa/filter.py:576-645) with its default kernel (`shapiro_kernel` along the two horizontal dimensions, xoa/filter.py:430-463, 623-626).
-/

namespace Xoa

/-- there is a valid datum at `n` steps or less of the position `P` along the two horizontal dimensions, in the horizontal slice of `P` -/
def ValidWithin (data : LArr V) (ydim xdim : String) (P : String → Nat) (n : Nat) : Prop :=
  ∃ Q : String → Nat, (∀ d ∈ data.dims, Q d < data.size d) ∧ (∀ d ∈ data.dims, d ≠ ydim → d ≠ xdim → Q d = P d) ∧
    gap (P ydim) (Q ydim) + gap (P xdim) (Q xdim) ≤ n ∧ ∃ v, data.at Q = some v

theorem erodeKernel_congr (data d : LArr V) (spec : KSpec) (h : d.dims = data.dims) : erodeKernel d spec = erodeKernel data spec := by
  unfold erodeKernel; rw [h]

/-- `n + 1` turns are one turn, then `n` turns -/
theorem erodeMaskN_succ (data d : LArr V) (spec : KSpec) (k : LArr ℚ) (hk : ErodeKernel data spec k) (n : Nat) (h1 : erodeMaskN data 1 spec = .ok d) (hd : d.dims = data.dims) :
    erodeMaskN data ((n + 1 : Nat) : Int) spec = erodeMaskN d n spec := by
  obtain ⟨d', hd', -⟩ := turn_ok data k hk.fits
  have e : d = d' := by
    unfold erodeMaskN at h1
    simp only [hk.made, bind, Except.bind] at h1
    rw [show (1 : Int).toNat = 0 + 1 from rfl, erodeIter_succ k 0 data d' hd'] at h1
    cases h1; rfl
  subst e
  unfold erodeMaskN
  rw [erodeKernel_congr data d spec hd, hk.made]
  simp only [bind, Except.bind]
  rw [Int.toNat_natCast, Int.toNat_natCast, erodeIter_succ k n data d hd']

/-- one turn fills the points that have a valid datum next to them, and no other -/
theorem turn_within (data : LArr V) (hd : data.Ok) (ydim xdim : String) (hne : ydim ≠ xdim) (hy : ydim ∈ data.dims) (hx : xdim ∈ data.dims) :
    ∃ r, erodeMaskN data 1 (.da (shapiroKernel [ydim, xdim])) = .ok r ∧ r.dims = data.dims ∧ r.shape = data.shape ∧
      ∀ P : String → Nat, (∀ d ∈ data.dims, P d < data.size d) → ((∃ v, r.at P = some v) ↔ ValidWithin data ydim xdim P 1) := by
  obtain ⟨r, h1, h2, h3, h4⟩ := C25_default_turn data hd ydim xdim hne hy hx
  refine ⟨r, h1, h2, h3, fun P hP => ?_⟩
  obtain ⟨a1, a2⟩ := h4 P hP
  cases h0 : data.at P with
  | some v =>
    exact ⟨fun _ => ⟨P, hP, fun _ _ _ _ => rfl, by unfold gap; omega, v, h0⟩, fun _ => ⟨v, a1 v h0⟩⟩
  | none =>
    rw [a2 h0]
    have hsome : (∃ v, plainMean (validAround data ydim xdim P) = some v) ↔ ∃ Q ∈ around data ydim xdim P, ∃ v, data.at Q = some v := by
      unfold plainMean
      split
      case isTrue h =>
        constructor
        · rintro ⟨v, hv⟩; cases hv
        · rintro ⟨Q, hQ, v, hv⟩
          have : v ∈ validAround data ydim xdim P := List.mem_filterMap.2 ⟨Q, hQ, hv⟩
          rw [h] at this; cases this
      case isFalse h =>
        refine ⟨fun _ => ?_, fun _ => ⟨_, rfl⟩⟩
        obtain ⟨v, hv⟩ := List.exists_mem_of_ne_nil _ h
        obtain ⟨Q, hQ, hv⟩ := List.mem_filterMap.1 hv
        exact ⟨Q, hQ, v, hv⟩
    rw [hsome]
    constructor
    · rintro ⟨Q, hQ, v, hv⟩
      have hin := around_inside data ydim xdim P Q hP hQ
      obtain ⟨b1, b2⟩ := (mem_around data ydim xdim hne hy hx P Q hP hin).1 (List.mem_map.2 ⟨Q, hQ, rfl⟩)
      refine ⟨Q, hin, b1, ?_, v, hv⟩
      rcases b2 with ⟨b2, b3⟩ | ⟨b2, b3⟩
      · rw [b2, b3]; unfold gap; omega
      · rw [b3, b2]; unfold gap; omega
    · rintro ⟨Q, hin, b1, b2, v, hv⟩
      have hm : data.dims.map Q ∈ (around data ydim xdim P).map (fun Q => data.dims.map Q) := by
        refine (mem_around data ydim xdim hne hy hx P Q hP hin).2 ⟨b1, ?_⟩
        have hc : ¬ (Q ydim = P ydim ∧ Q xdim = P xdim) := by
          rintro ⟨c1, c2⟩
          have : data.at Q = data.at P := by
            unfold LArr.at
            congr 1
            refine List.map_congr_left fun d hdd => ?_
            by_cases e1 : d = ydim
            · rw [e1, c1]
            · by_cases e2 : d = xdim
              · rw [e2, c2]
              · exact b1 d hdd e1 e2
          rw [this, h0] at hv; cases hv
        unfold gap at b2 ⊢
        omega
      obtain ⟨Q', hQ', e⟩ := List.mem_map.1 hm
      refine ⟨Q', hQ', v, ?_⟩
      rw [← hv]
      unfold LArr.at
      rw [e]

/-- a step from `a` towards `b` -/
def stepTo (a b : Nat) : Nat := if a < b then a + 1 else if b < a then a - 1 else a

/-- **C225.** After `n` turns of `erode_mask` with the default kernel, a point is valid if and only if there was a valid datum at `n` steps or less of it, counted along the two
horizontal dimensions, in its horizontal slice. -/
theorem C225_distance (data : LArr V) (hd : data.Ok) (ydim xdim : String) (hne : ydim ≠ xdim) (hy : ydim ∈ data.dims) (hx : xdim ∈ data.dims) (n : Nat) :
    ∃ r, erodeMaskN data n (.da (shapiroKernel [ydim, xdim])) = .ok r ∧ r.dims = data.dims ∧ r.shape = data.shape ∧
      ∀ P : String → Nat, (∀ d ∈ data.dims, P d < data.size d) → ((∃ v, r.at P = some v) ↔ ValidWithin data ydim xdim P n) := by
  induction n generalizing data with
  | zero =>
    obtain ⟨k, hk, -, -⟩ := shapiro_erode data hd ydim xdim hne hy hx
    refine ⟨data, ?_, rfl, rfl, fun P hP => ⟨fun ⟨v, hv⟩ => ⟨P, hP, fun _ _ _ _ => rfl, by unfold gap; omega, v, hv⟩, ?_⟩⟩
    · unfold erodeMaskN
      simp only [hk.made, bind, Except.bind]
      rfl
    · rintro ⟨Q, q1, q2, q3, v, hv⟩
      refine ⟨v, ?_⟩
      rw [← hv]
      unfold LArr.at
      congr 1
      refine List.map_congr_left fun d hdd => ?_
      unfold gap at q3
      by_cases e1 : d = ydim
      · rw [e1]; omega
      · by_cases e2 : d = xdim
        · rw [e2]; omega
        · exact (q2 d hdd e1 e2).symm
  | succ n ih =>
    obtain ⟨k, hk, -, -⟩ := shapiro_erode data hd ydim xdim hne hy hx
    obtain ⟨d, h1, h2, h3, h4⟩ := turn_within data hd ydim xdim hne hy hx
    have hdok : d.Ok := ⟨by rw [h2]; exact hd.nodup, by rw [h2, h3]; exact hd.len⟩
    have hsz : ∀ a, d.size a = data.size a := by intro a; unfold LArr.size; rw [h2, h3]
    obtain ⟨r, r1, r2, r3, r4⟩ := ih d hdok (by rw [h2]; exact hy) (by rw [h2]; exact hx)
    refine ⟨r, ?_, by rw [r2, h2], by rw [r3, h3], fun P hP => ?_⟩
    · rw [erodeMaskN_succ data d _ k hk n h1 h2]; exact r1
    · rw [r4 P (by intro a ha; rw [hsz]; rw [h2] at ha; exact hP a ha)]
      constructor
      · rintro ⟨Q, q1, q2, q3, hv⟩
        rw [h2] at q1 q2
        have q1 : ∀ a ∈ data.dims, Q a < data.size a := fun a ha => by rw [← hsz]; exact q1 a ha
        obtain ⟨R, s1, s2, s3, hv⟩ := (h4 Q q1).1 hv
        refine ⟨R, s1, fun a ha e1 e2 => by rw [s2 a ha e1 e2, q2 a ha e1 e2], ?_, hv⟩
        unfold gap at q3 s3 ⊢
        omega
      · rintro ⟨R, s1, s2, s3, v, hv⟩
        have py := hP ydim hy
        have px := hP xdim hx
        have ry := s1 ydim hy
        have rx := s1 xdim hx
        -- one step from the datum towards the point
        by_cases hyy : R ydim = P ydim
        · refine ⟨setPos R xdim (stepTo (R xdim) (P xdim)), ?_, ?_, ?_, ?_⟩
          · intro a ha
            rw [h2] at ha
            rw [hsz]
            by_cases e : a = xdim
            · rw [e, setPos_same]; unfold stepTo; split <;> [skip; split] <;> omega
            · rw [setPos_other _ _ _ _ e]; exact s1 a ha
          · intro a ha e1 e2
            rw [h2] at ha
            rw [setPos_other _ _ _ _ e2]
            exact s2 a ha e1 e2
          · rw [setPos_same, setPos_other _ _ _ _ hne, hyy]
            rw [hyy] at s3
            unfold gap at s3 ⊢
            unfold stepTo
            split <;> [skip; split] <;> omega
          · refine (h4 _ ?_).2 ⟨R, s1, ?_, ?_, v, hv⟩
            · intro a ha
              by_cases e : a = xdim
              · rw [e, setPos_same]; unfold stepTo; split <;> [skip; split] <;> omega
              · rw [setPos_other _ _ _ _ e]; exact s1 a ha
            · intro a ha e1 e2
              rw [setPos_other _ _ _ _ e2]
            · rw [setPos_same, setPos_other _ _ _ _ hne]
              unfold gap stepTo
              split <;> [skip; split] <;> omega
        · refine ⟨setPos R ydim (stepTo (R ydim) (P ydim)), ?_, ?_, ?_, ?_⟩
          · intro a ha
            rw [h2] at ha
            rw [hsz]
            by_cases e : a = ydim
            · rw [e, setPos_same]; unfold stepTo; split <;> [skip; split] <;> omega
            · rw [setPos_other _ _ _ _ e]; exact s1 a ha
          · intro a ha e1 e2
            rw [h2] at ha
            rw [setPos_other _ _ _ _ e1]
            exact s2 a ha e1 e2
          · rw [setPos_same, setPos_other _ _ _ _ hne.symm]
            unfold gap at s3 ⊢
            unfold stepTo
            split <;> [skip; split] <;> omega
          · refine (h4 _ ?_).2 ⟨R, s1, ?_, ?_, v, hv⟩
            · intro a ha
              by_cases e : a = ydim
              · rw [e, setPos_same]; unfold stepTo; split <;> [skip; split] <;> omega
              · rw [setPos_other _ _ _ _ e]; exact s1 a ha
            · intro a ha e1 e2
              rw [setPos_other _ _ _ _ e1]
            · rw [setPos_same, setPos_other _ _ _ _ hne.symm]
              unfold gap stepTo
              split <;> [skip; split] <;> omega

/-- **C225, enough turns.** With as many turns as there are steps across the grid, or more, all the points of the horizontal slices with a valid datum are valid, and the slices without valid datum
stay missing. -/
theorem C225_enough (data : LArr V) (hd : data.Ok) (ydim xdim : String) (hne : ydim ≠ xdim) (hy : ydim ∈ data.dims) (hx : xdim ∈ data.dims) (n : Nat)
    (hn : (data.size ydim - 1) + (data.size xdim - 1) ≤ n) :
    ∃ r, erodeMaskN data n (.da (shapiroKernel [ydim, xdim])) = .ok r ∧
      ∀ P : String → Nat, (∀ d ∈ data.dims, P d < data.size d) → ((∃ v, r.at P = some v) ↔
        ∃ Q : String → Nat, (∀ d ∈ data.dims, Q d < data.size d) ∧ (∀ d ∈ data.dims, d ≠ ydim → d ≠ xdim → Q d = P d) ∧ ∃ v, data.at Q = some v) := by
  obtain ⟨r, h1, -, -, h4⟩ := C225_distance data hd ydim xdim hne hy hx n
  refine ⟨r, h1, fun P hP => (h4 P hP).trans ?_⟩
  constructor
  · rintro ⟨Q, a, b, -, c⟩; exact ⟨Q, a, b, c⟩
  · rintro ⟨Q, a, b, c⟩
    refine ⟨Q, a, b, ?_, c⟩
    have := hP ydim hy
    have := hP xdim hx
    have := a ydim hy
    have := a xdim hx
    unfold gap
    omega

/-- **C225, down to a mask.** With the default kernel, `erode_mask(data, until=mask)` makes `n` turns exactly, where `n` is the number of steps (at least one) from the point that the mask does not
hide and that is the furthest from the valid data, and gives what `erode_mask(data, until=n)` gives. -/
theorem C225_until (data : LArr V) (hd : data.Ok) (ydim xdim : String) (hne : ydim ≠ xdim) (hy : ydim ∈ data.dims) (hx : xdim ∈ data.dims)
    (mask : LArr Bool) (hm : mask.Ok) (hmd : ∀ d, d ∈ mask.dims ↔ d = ydim ∨ d = xdim) (hms : ∀ d ∈ mask.dims, mask.size d = data.size d)
    (n : Nat) (hn : 1 ≤ n)
    (hall : ∀ P : String → Nat, (∀ d ∈ data.dims, P d < data.size d) → mask.at P = false → ValidWithin data ydim xdim P n)
    (hmin : ∀ m, 1 ≤ m → m < n → ∃ P : String → Nat, (∀ d ∈ data.dims, P d < data.size d) ∧ mask.at P = false ∧ ¬ ValidWithin data ydim xdim P m) (fuel : Nat) :
    erodeMaskUntil data mask (.da (shapiroKernel [ydim, xdim])) fuel =
      if n ≤ fuel then some (erodeMaskN data n (.da (shapiroKernel [ydim, xdim]))) else none := by
  obtain ⟨k, hk, hnn, ht⟩ := shapiro_erode data hd ydim xdim hne hy hx
  obtain ⟨s1, s2, s3⟩ := shapiro_size data.dims ydim xdim k ht
  have hsub : ∀ d ∈ mask.dims, d ∈ data.dims := by
    intro d h
    rcases (hmd d).1 h with rfl | rfl <;> assumption
  have htm : TargetMask mask data k := by
    refine ⟨hm, ?_, hms⟩
    intro d
    rw [hmd d]
    unfold kDims
    rw [List.mem_filter, ht.dims]
    constructor
    · rintro (rfl | rfl)
      · exact ⟨hy, by simp [s1]⟩
      · exact ⟨hx, by simp [s2]⟩
    · rintro ⟨h1, h2⟩
      by_contra hc
      rw [not_or] at hc
      simp [s3 d h1 hc.1 hc.2] at h2
  have reach : ∀ m r, erodeMaskN data ((m : Nat) : Int) (.da (shapiroKernel [ydim, xdim])) = .ok r →
      (Reaches mask data r ↔ ∀ P : String → Nat, (∀ d ∈ data.dims, P d < data.size d) → mask.at P = false → ValidWithin data ydim xdim P m) := by
    intro m r hr
    obtain ⟨r', a1, a2, a3, a4⟩ := C225_distance data hd ydim xdim hne hy hx m
    rw [hr] at a1
    cases a1
    constructor
    · intro h P hP hmP
      refine (a4 P hP).1 ?_
      have hin : InShape data.shape (data.dims.map P) := by
        rw [shape_eq data hd]
        exact inShape_map _ _ _ hP
      obtain ⟨v, hv⟩ := h _ hin (by
        unfold maskAt
        have e : mask.dims.map (look data.dims (data.dims.map P)) = mask.dims.map P := List.map_congr_left fun d h => look_map _ _ _ (hsub d h)
        rw [e]
        exact hmP)
      exact ⟨v, by unfold LArr.at; rw [a2]; exact hv⟩
    · intro h p hp hmp
      have hpl : p.length = data.dims.length := by rw [inShape_length _ _ hp, hd.len]
      have e := map_look data.dims p hd.nodup hpl
      have hl : ∀ d ∈ data.dims, look data.dims p d < data.size d := by
        rw [shape_eq data hd] at hp
        exact fun d h => look_lt _ _ _ hp d h
      obtain ⟨v, hv⟩ := (a4 _ hl).2 (h _ hl hmp)
      refine ⟨v, ?_⟩
      unfold LArr.at at hv
      rw [a2, e] at hv
      exact hv
  have only : ∀ m r, 1 ≤ m → erodeMaskN data ((m : Nat) : Int) (.da (shapiroKernel [ydim, xdim])) = .ok r → Reaches mask data r → n ≤ m := by
    intro m r h1 h2 h3
    by_contra hc
    obtain ⟨P, p1, p2, p3⟩ := hmin m h1 (by omega)
    exact p3 ((reach m r h2).1 h3 P p1 p2)
  obtain ⟨rn, hrn, -, -, -⟩ := C225_distance data hd ydim xdim hne hy hx n
  have hRn : Reaches mask data rn := (reach n rn hrn).2 hall
  have hiff := C26_returns_iff data _ k hk mask htm fuel
  split
  case isTrue hf =>
    obtain ⟨out, ho⟩ := Option.isSome_iff_exists.1 (hiff.2 ⟨n, rn, hn, hf, hrn, hRn⟩)
    obtain ⟨m, r, b1, b2, b3, b4, b5, b6⟩ := C26_result data _ k hk mask htm fuel out ho
    have h1 := only m r b1 b4 b5
    have h2 : ¬ n < m := fun h => b6 n rn hn h hrn hRn
    have : m = n := by omega
    subst this
    rw [ho, b3, b4]
  case isFalse hf =>
    cases ho : erodeMaskUntil data mask (.da (shapiroKernel [ydim, xdim])) fuel with
    | none => rfl
    | some out =>
      exfalso
      obtain ⟨m, r, b1, b2, b3, b4, b5, b6⟩ := C26_result data _ k hk mask htm fuel out ho
      have := only m r b1 b4 b5
      omega

/-- the datum of a corner reaches the other corner of a (2, 3) grid after three turns, not two -/
example : fVals (erodeMaskN (eData [[some 2, none, none], [none, none, none]]) 2 (.da (shapiroKernel ["y", "x"]))) =
      some [some 2, some 2, some 2, some 2, some 2, none] ∧
    fVals (erodeMaskN (eData [[some 2, none, none], [none, none, none]]) 3 (.da (shapiroKernel ["y", "x"]))) =
      some [some 2, some 2, some 2, some 2, some 2, some 2] := by decide +kernel

/-- the hypotheses of `C225_until` for the same data and a mask that hides nothing: three turns -/
example (fuel : Nat) : erodeMaskUntil (eData [[some 2, none, none], [none, none, none]]) ⟨["y", "x"], [2, 3], fun _ => false⟩ (.da (shapiroKernel ["y", "x"])) fuel =
    if 3 ≤ fuel then some (erodeMaskN (eData [[some 2, none, none], [none, none, none]]) (3 : Nat) (.da (shapiroKernel ["y", "x"]))) else none := by
  have hs : ∀ d, (eData [[some 2, none, none], [none, none, none]]).size d = if d = "y" then 2 else if d = "x" then 3 else 0 := by
    intro d
    by_cases h1 : d = "y"
    · subst h1; rfl
    · by_cases h2 : d = "x"
      · subst h2; rfl
      · simp [LArr.size, look, eData, h1, h2]
  have hdims : (eData [[some 2, none, none], [none, none, none]]).dims = ["y", "x"] := rfl
  refine C225_until _ ⟨by decide, rfl⟩ "y" "x" (by decide) (by simp [hdims]) (by simp [hdims]) _ ⟨by decide, rfl⟩ (by simp) ?_ 3 (by decide) ?_ ?_ fuel
  · intro d hd
    simp only [List.mem_cons, List.not_mem_nil, or_false] at hd
    rcases hd with rfl | rfl <;> rfl
  · intro P hP _
    refine ⟨fun _ => 0, ?_, ?_, ?_, 2, rfl⟩
    · intro d hd
      have := hP d hd
      show 0 < _
      omega
    · intro d hd h1 h2
      simp [hdims, h1, h2] at hd
    · have h1 := hP "y" (by simp [hdims])
      have h2 := hP "x" (by simp [hdims])
      rw [hs] at h1 h2
      simp at h1 h2
      show gap _ 0 + gap _ 0 ≤ 3
      unfold gap
      omega
  · intro m h1 h2
    refine ⟨fun d => if d = "y" then 1 else 2, ?_, rfl, ?_⟩
    · intro d hd
      rw [hs]
      simp only [hdims, List.mem_cons, List.not_mem_nil, or_false] at hd
      rcases hd with rfl | rfl <;> decide
    · rintro ⟨Q, q1, -, q3, v, hv⟩
      have a1 := q1 "y" (by simp [hdims])
      have a2 := q1 "x" (by simp [hdims])
      rw [hs] at a1 a2
      simp at a1 a2
      have hv' : (([[some 2, none, none], [none, none, none]] : List (List V)).getD (Q "y") []).getD (Q "x") none = some v := hv
      unfold gap at q3
      simp at q3
      generalize Q "y" = a at *
      generalize Q "x" = b at *
      interval_cases a <;> interval_cases b <;> simp at hv' <;> omega

end Xoa
