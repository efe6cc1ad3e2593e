import Verif.CoordsProps
import Verif.Interp1dProps
import Verif.ErodeProps

/-!
# Transposing, extrapolating and eroding in several steps (C25, C228, C229)
-/

namespace Xoa

/-! ## transposition -/

/-- **C228** (again): asking again for the same dimensions, with the same sizes and in the same mode, changes nothing: same dimensions, same sizes, same values. -/
theorem C228_again {α} (a : LArr α) (ha : a.Ok) (ds : List String) (hn : ds.Nodup) (sizes : String → Option Nat) (mode : TMode) (hm : mode ≠ .classic) :
    ∃ r s, transposeTo a (ds.map some) sizes mode = .ok r ∧ transposeTo r (ds.map some) sizes mode = .ok s ∧
      s.dims = r.dims ∧ (∀ d ∈ r.dims, s.size d = r.size d) ∧ ∀ pos, s.at pos = r.at pos := by
  obtain ⟨r, hr, h1⟩ := C17_transpose a ha ds hn sizes mode hm
  obtain ⟨s, hs, h2⟩ := C17_transpose r h1.ok ds hn sizes mode hm
  refine ⟨r, s, hr, hs, ?_, fun d hd => (h2.sizes d hd).2, h2.vals⟩
  rw [h2.dims, h1.dims]
  have hw : ∀ d ∈ wanted a mode ds, d ∈ ds := by
    intro d hd
    unfold wanted at hd
    split at hd
    · exact (List.mem_filter.1 hd).1
    · exact hd
  congr 1
  · rw [List.filter_append, List.filter_filter]
    simp only [Bool.and_self]
    have : (wanted a mode ds).filter (fun d => decide (d ∉ ds)) = [] := by
      rw [List.filter_eq_nil_iff]
      intro d hd
      simpa using hw d hd
    rw [this, List.append_nil]
  · show (if mode = .compat then ds.filter (fun d => d ∈ r.dims) else ds) = if mode = .compat then ds.filter (fun d => d ∈ a.dims) else ds
    split
    · next hc =>
      refine List.filter_congr fun d hd => ?_
      rw [h1.dims]
      simp only [List.mem_append, List.mem_filter, decide_eq_decide, wanted, hc, if_true, decide_eq_true_eq]
      constructor
      · rintro (⟨_, h⟩ | ⟨_, h⟩)
        · exact absurd hd h
        · exact h
      · exact fun h => Or.inr ⟨hd, h⟩
    · rfl

/-- **C228** (several orders): after a transposition to an order of all the dimensions of the array, a transposition to another one gives the same array as the second one alone, in any modes. -/
theorem C228_last {α} (a : LArr α) (ds1 ds2 : List String) (hn1 : ds1.Nodup) (hn2 : ds2.Nodup) (h1 : ∀ d, d ∈ ds1 ↔ d ∈ a.dims) (h2 : ∀ d, d ∈ ds2 ↔ d ∈ a.dims)
    (sizes sizes' : String → Option Nat) (mode mode' : TMode) :
    ∃ r, transposeTo a (ds1.map some) sizes mode = .ok r ∧ transposeTo r (ds2.map some) sizes' mode' = transposeTo a (ds2.map some) sizes' mode' := by
  refine ⟨_, C17_mode_independent a ds1 hn1 h1 sizes mode, ?_⟩
  rw [C17_mode_independent a ds2 hn2 h2, C17_mode_independent (a.permute ds1) ds2 hn2 (fun d => by rw [h2]; exact (h1 d).symm)]
  congr 1
  show (⟨ds2, ds2.map (a.permute ds1).size, fun idx => a.val (a.dims.map (look ds1 (ds1.map (look ds2 idx))))⟩ : LArr α) = ⟨ds2, ds2.map a.size, fun idx => a.val (a.dims.map (look ds2 idx))⟩
  have e1 : ds2.map (a.permute ds1).size = ds2.map a.size :=
    List.map_congr_left fun d hd => permute_size a ds1 d ((h1 d).2 ((h2 d).1 hd))
  have e2 : (fun idx => a.val (a.dims.map (look ds1 (ds1.map (look ds2 idx))))) = fun idx => a.val (a.dims.map (look ds2 idx)) := by
    funext idx
    congr 1
    exact List.map_congr_left fun d hd => look_map ds1 _ d ((h1 d).2 hd)
  rw [e1, e2]

/-- **C228** (there and back): an array transposed to another order of its dimensions, and transposed back to its own order, is the same array: same dimensions, same shape, same values at the same indices, in any modes. -/
theorem C228_back {α} (a : LArr α) (ha : a.Ok) (ds : List String) (hn : ds.Nodup) (h : ∀ d, d ∈ ds ↔ d ∈ a.dims) (sizes sizes' : String → Option Nat) (mode mode' : TMode) :
    ∃ r s, transposeTo a (ds.map some) sizes mode = .ok r ∧ transposeTo r (a.dims.map some) sizes' mode' = .ok s ∧
      s.dims = a.dims ∧ s.shape = a.shape ∧ ∀ idx : List Nat, idx.length = a.dims.length → s.val idx = a.val idx := by
  obtain ⟨r, h1, h2⟩ := C228_last a ds a.dims hn ha.nodup h (fun _ => Iff.rfl) sizes sizes' mode mode'
  rw [C17_mode_independent a a.dims ha.nodup (fun _ => Iff.rfl)] at h2
  refine ⟨r, _, h1, h2, rfl, ?_, fun idx hl => ?_⟩
  · exact map_look a.dims a.shape ha.nodup ha.len
  · show a.val (a.dims.map (look a.dims idx)) = _
    rw [map_look a.dims idx ha.nodup hl]

/-- **C228** (common target): arrays whose dimensions are all in the target have exactly the dimensions of the target, in its order, after a transposition in the modes `insert` and `resize`, and those of its dimensions that they have in the mode `compat`. -/
theorem C228_target {α} (a : LArr α) (ha : a.Ok) (ds : List String) (hn : ds.Nodup) (hd : ∀ d ∈ a.dims, d ∈ ds) (sizes : String → Option Nat) (mode : TMode) (hm : mode ≠ .classic) :
    ∃ r, transposeTo a (ds.map some) sizes mode = .ok r ∧ r.dims = (if mode = .compat then ds.filter (fun d => d ∈ a.dims) else ds) ∧ ∀ pos, r.at pos = a.at pos := by
  obtain ⟨r, hr, h1⟩ := C17_transpose a ha ds hn sizes mode hm
  refine ⟨r, hr, ?_, h1.vals⟩
  rw [h1.dims]
  have : a.dims.filter (fun d => decide (d ∉ ds)) = [] := by
    rw [List.filter_eq_nil_iff]
    intro d hd'
    simpa using hd d hd'
  rw [this]; rfl

/-! ## extrapolation -/

/-- the mode that fills the ends that `m` or `m'` fill -/
def bothEnds (m m' : Extrap) : Extrap :=
  if (m = .bottom ∨ m = .both) ∨ (m' = .bottom ∨ m' = .both) then
    if (m = .top ∨ m = .both) ∨ (m' = .top ∨ m' = .both) then .both else .bottom
  else if (m = .top ∨ m = .both) ∨ (m' = .top ∨ m' = .both) then .top else .no

/-- **C229** Extrapolating twice is extrapolating once at the ends of the one and of the other: in particular `bottom` then `top`, or `top` then `bottom`, is `both`. -/
theorem C229_extrap_steps (v : Mat) (m m' : Extrap) (ix j : Int) (hx0 : 0 ≤ ix) (hx : ix < v.nx) (hj0 : 0 ≤ j) (hj : j < v.ny) :
    (extrap1d (extrap1d v m) m').get ix j = (extrap1d v (bothEnds m m')).get ix j := by
  have hnx : (extrap1d v m).nx = v.nx := by unfold extrap1d; split <;> rfl
  have hny : (extrap1d v m).ny = v.ny := by unfold extrap1d; split <;> rfl
  rcases getIminmax_spec (v.row ix) with ⟨_, _, h⟩ | ⟨h1, h2, h3, h4, h5, h6, h7⟩
  · rw [C08_extrap1d_allnan v _ ix j hx0 hx h, C08_extrap1d_allnan _ m' ix j hx0 (by rw [hnx]; exact hx) ?_, C08_extrap1d_allnan v m ix j hx0 hx h]
    intro i i0 i1
    rw [hny] at i1
    rw [C08_extrap1d_allnan v m ix i hx0 hx h]
    exact h i i0 i1
  · set p := (getIminmax (v.row ix)).1
    set q := (getIminmax (v.row ix)).2
    have hq' : q < v.ny := h3
    have F : IsFirstValid (v.row ix) p := ⟨h1, by omega, h4, h6⟩
    have L : IsLastValid (v.row ix) q := ⟨by omega, h3, h5, h7⟩
    have hpv : v.get ix p ≠ none := h4
    have hqv : v.get ix q ≠ none := h5
    have hlo : ∀ i : Int, 0 ≤ i → i < p → v.get ix i = none := h6
    have hhi : ∀ i : Int, q < i → i < v.ny → v.get ix i = none := h7
    have E : ∀ mm : Extrap, ∀ i : Int, 0 ≤ i → i < v.ny → (extrap1d v mm).get ix i =
        if i < p ∧ (mm = .bottom ∨ mm = .both) then v.get ix p
        else if q < i ∧ (mm = .top ∨ mm = .both) then v.get ix q else v.get ix i :=
      fun mm i i0 i1 => C08_extrap1d v mm ix i p q hx0 hx i0 i1 F L
    have F' : IsFirstValid ((extrap1d v m).row ix) (if m = .bottom ∨ m = .both then 0 else p) := by
      refine ⟨by split <;> omega, by show (_ : Int) < (extrap1d v m).ny; rw [hny]; split <;> omega, ?_, fun i a b => ?_⟩
      · show (extrap1d v m).get ix _ ≠ none
        rw [E m _ (by split <;> omega) (by split <;> omega)]
        by_cases hm : m = .bottom ∨ m = .both
        · rw [if_pos hm]
          by_cases h0 : (0 : Int) < p
          · rw [if_pos ⟨h0, hm⟩]; exact hpv
          · have : p = 0 := by omega
            rw [if_neg (by omega), if_neg (by omega), ← this]; exact hpv
        · rw [if_neg hm, if_neg (by omega), if_neg (by omega)]; exact hpv
      · show (extrap1d v m).get ix i = none
        split at b
        · omega
        · next hm => rw [E m i a (by omega), if_neg (fun h => hm h.2), if_neg (by omega)]; exact hlo i a b
    have L' : IsLastValid ((extrap1d v m).row ix) (if m = .top ∨ m = .both then v.ny - 1 else q) := by
      refine ⟨by split <;> omega, by show (_ : Int) < (extrap1d v m).ny; rw [hny]; split <;> omega, ?_, fun i a b => ?_⟩
      · show (extrap1d v m).get ix _ ≠ none
        rw [E m _ (by split <;> omega) (by split <;> omega)]
        by_cases hm : m = .top ∨ m = .both
        · rw [if_pos hm, if_neg (by omega)]
          split_ifs with hc
          · exact hqv
          · have : q = (v.ny : Int) - 1 := by
              by_contra hne
              exact hc ⟨by omega, hm⟩
            rw [← this]; exact hqv
        · rw [if_neg hm, if_neg (by omega), if_neg (by omega)]; exact hqv
      · have b' : i < (extrap1d v m).ny := b
        rw [hny] at b'
        show (extrap1d v m).get ix i = none
        split at a
        · omega
        · next hm => rw [E m i (by omega) b', if_neg (by omega), if_neg (fun h => hm h.2)]; exact hhi i a b'
    rw [C08_extrap1d (extrap1d v m) m' ix j _ _ hx0 (by rw [hnx]; exact hx) hj0 (by rw [hny]; exact hj) F' L']
    rw [E m _ (by split <;> omega) (by split <;> omega), E m _ (by split <;> omega) (by split <;> omega), E m j hj0 hj, E _ j hj0 hj]
    have hpq : p ≤ q := h2
    have eB : (bothEnds m m' = .bottom ∨ bothEnds m m' = .both) ↔ ((m = .bottom ∨ m = .both) ∨ (m' = .bottom ∨ m' = .both)) := by
      cases m <;> cases m' <;> simp [bothEnds]
    have eT : (bothEnds m m' = .top ∨ bothEnds m m' = .both) ↔ ((m = .top ∨ m = .both) ∨ (m' = .top ∨ m' = .both)) := by
      cases m <;> cases m' <;> simp [bothEnds]
    simp only [eB, eT]
    clear eB eT F' L' E
    by_cases hB : m = .bottom ∨ m = .both <;> by_cases hT : m = .top ∨ m = .both <;> by_cases hB' : m' = .bottom ∨ m' = .both <;>
      by_cases hT' : m' = .top ∨ m' = .both <;>
      simp only [hB, hT, hB', hT', and_true, and_false, if_true, if_false, or_true, or_false, lt_self_iff_false] <;>
      split_ifs <;> first | rfl | omega

/-- **C229** (the two ends): extrapolating to the bottom then to the top, or to the top then to the bottom, is extrapolating to both. -/
theorem C229_two_ends (v : Mat) (ix j : Int) (hx0 : 0 ≤ ix) (hx : ix < v.nx) (hj0 : 0 ≤ j) (hj : j < v.ny) :
    (extrap1d (extrap1d v .bottom) .top).get ix j = (extrap1d v .both).get ix j ∧ (extrap1d (extrap1d v .top) .bottom).get ix j = (extrap1d v .both).get ix j :=
  ⟨C229_extrap_steps v .bottom .top ix j hx0 hx hj0 hj, C229_extrap_steps v .top .bottom ix j hx0 hx hj0 hj⟩

/-- **C229** (shape): extrapolating never changes the shape. -/
theorem C229_shape (v : Mat) (m : Extrap) : (extrap1d v m).nx = v.nx ∧ (extrap1d v m).ny = v.ny := by
  constructor <;> (unfold extrap1d; split <;> rfl)

/-! ## erosion -/

theorem erodeIter_add (k : LArr ℚ) (m n : Nat) (data : LArr V) : erodeIter k (m + n) data = (erodeIter k m data).bind (erodeIter k n) := by
  induction m generalizing data with
  | zero => rw [Nat.zero_add]; rfl
  | succ m ih =>
    rw [Nat.succ_add]
    show (convolveFill data k).bind (erodeIter k (m + n)) = ((convolveFill data k).bind (erodeIter k m)).bind (erodeIter k n)
    cases convolveFill data k with
    | error e => rfl
    | ok d => exact ih d

/-- **C25** (several calls): eroding `m` turns, then `n` turns the result, is eroding `m + n` turns, with any kernel. -/
theorem C25_two_calls (data : LArr V) (spec : KSpec) (k : LArr ℚ) (hk : ErodeKernel data spec k) (m n : Nat) :
    ∃ r, erodeMaskN data m spec = .ok r ∧ erodeMaskN r n spec = erodeMaskN data ((m + n : Nat) : Int) spec := by
  obtain ⟨r, hr, hd, _, _⟩ := C25_valid_kept data spec k hk m
  refine ⟨r, hr, ?_⟩
  have hkk : erodeKernel r spec = erodeKernel data spec := by
    unfold erodeKernel
    rw [hd]
  unfold erodeMaskN at hr ⊢
  rw [hkk]
  cases hc : erodeKernel data spec with
  | error e => rfl
  | ok k' =>
    rw [hc] at hr
    have hr' : erodeIter k' m data = .ok r := by simpa [bind, Except.bind] using hr
    show erodeIter k' ((n : Int).toNat) r = erodeIter k' (((m + n : Nat) : Int).toNat) data
    rw [Int.toNat_natCast, Int.toNat_natCast, erodeIter_add, hr']
    rfl

/-! ### cases -/

/-- an array along `time` (2) and `depth` (3) -/
def exTZ : LArr Nat := ⟨["time", "depth"], [2, 3], fun i => 10 * i.getD 0 0 + i.getD 1 0⟩

example : exTZ.Ok ∧ ["depth", "time"].Nodup ∧ (∀ d, d ∈ ["depth", "time"] ↔ d ∈ exTZ.dims) ∧ (∀ d ∈ exTZ.dims, d ∈ ["depth", "lon", "time"]) := by
  refine ⟨⟨by decide, by decide⟩, by decide, fun d => ?_, by decide⟩
  simp only [exTZ, List.mem_cons, List.not_mem_nil, or_false]
  exact or_comm

example : ((transposeTo exTZ (["depth", "lon", "time"].map some) (fun _ => none) .insert).toOption.map fun r => (r.dims, r.shape, r.val [2, 0, 1])) =
    some (["depth", "lon", "time"], [3, 1, 2], 12) := by decide +kernel

/-- a row of five data with two known values -/
def exRow5 : Mat := ⟨1, 5, fun _ j => if j = 1 then some 4 else if j = 3 then some 7 else none⟩

example : (List.range 5).map (fun j => (extrap1d exRow5 .bottom).get 0 (j : Int)) = [some 4, some 4, none, some 7, none] ∧
    (List.range 5).map (fun j => (extrap1d (extrap1d exRow5 .bottom) .top).get 0 (j : Int)) = [some 4, some 4, none, some 7, some 7] := by decide +kernel

end Xoa
