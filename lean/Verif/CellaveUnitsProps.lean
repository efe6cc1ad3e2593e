import Verif.Interp1dUnitsProps

/-!
# C158, C159 for the cell averages
-/

namespace Xoa
open V

/-- the cell edges in other units -/
def NMat.inUnits (s t : ℚ) (m : NMat ℚ) : NMat ℚ := ⟨m.nx, m.ny, fun i j => s * m.get i j + t⟩

/-- `a m + b m'`, missing where one of them is missing -/
def NMat.combine (a b : ℚ) (m m' : NMat V) : NMat V :=
  ⟨m.nx, m.ny, fun i j => match m.get i j, m'.get i j with
    | some x, some y => some (a * x + b * y)
    | _, _ => none⟩

/-! ## units of the coordinate -/

section
variable {s t : ℚ} (hs : 0 < s) (conserv : Bool) (ex : CExtrap) (nyi : Nat) (yib : Nat → ℚ)
include hs

theorem aff_lt (x y : ℚ) : s * x + t < s * y + t ↔ x < y := by
  constructor
  · intro h; nlinarith
  · intro h; nlinarith

theorem caLo_aff (o0 : ℚ) (i : Nat) : caLo ex (fun k => s * yib k + t) (s * o0 + t) i = s * caLo ex yib o0 i + t := by
  unfold caLo
  simp only [gt_iff_lt, aff_lt hs]
  split <;> rfl

theorem caHi_aff (o1 : ℚ) (i : Nat) : caHi ex nyi (fun k => s * yib k + t) (s * o1 + t) i = s * caHi ex nyi yib o1 i + t := by
  unfold caHi
  simp only [aff_lt hs]
  split <;> rfl

theorem min_aff (x y : ℚ) : min (s * x + t) (s * y + t) = s * min x y + t := by
  rcases le_total x y with h | h
  · rw [min_eq_left h, min_eq_left (by nlinarith)]
  · rw [min_eq_right h, min_eq_right (by nlinarith)]

theorem max_aff (x y : ℚ) : max (s * x + t) (s * y + t) = s * max x y + t := by
  rcases le_total x y with h | h
  · rw [max_eq_right h, max_eq_right (by nlinarith)]
  · rw [max_eq_left h, max_eq_left (by nlinarith)]

theorem caWidth_aff (b0 b1 o0 o1 : ℚ) (h0 : ¬ b0 > o1) (h1 : ¬ b1 < o0) :
    (if conserv = true ∧ s * b0 + t ≠ s * b1 + t then (min (s * b1 + t) (s * o1 + t) - max (s * b0 + t) (s * o0 + t)) / ((s * o1 + t) - (s * o0 + t))
      else min (s * b1 + t) (s * o1 + t) - max (s * b0 + t) (s * o0 + t)) =
    (if conserv then 1 else s) * (if conserv = true ∧ b0 ≠ b1 then (min b1 o1 - max b0 o0) / (o1 - o0) else min b1 o1 - max b0 o0) := by
  have hs' : s ≠ 0 := ne_of_gt hs
  rw [min_aff hs, max_aff hs]
  have e1 : s * min b1 o1 + t - (s * max b0 o0 + t) = s * (min b1 o1 - max b0 o0) := by ring
  have e2 : s * o1 + t - (s * o0 + t) = s * (o1 - o0) := by ring
  have e3 : (s * b0 + t ≠ s * b1 + t) ↔ b0 ≠ b1 := by
    constructor
    · intro h e; exact h (by rw [e])
    · intro h e; exact h (mul_left_cancel₀ hs' (add_right_cancel e))
  rw [e1, e2]
  cases conserv with
  | false => simp
  | true =>
    by_cases hb : b0 = b1
    · subst hb
      have h2 : min b0 o1 - max b0 o0 = 0 := by
        rw [min_eq_left (not_lt.1 h0), max_eq_left (not_lt.1 h1)]; ring
      simp [h2]
    · simp only [e3, true_and, ne_eq, hb, not_false_eq_true, if_true, mul_div_mul_left _ _ hs', one_mul]

theorem caInner_aff (va vb : Nat → V) (o0 o1 : ℚ) (l : List Nat) (i0 : Nat) (wo : ℚ) (acc : V) :
    caInner conserv ex nyi (fun k => s * yib k + t) va vb (s * o0 + t) (s * o1 + t) l i0 ((if conserv then 1 else s) * wo) (mul (some (if conserv then 1 else s)) acc) =
      ((caInner conserv ex nyi yib va vb o0 o1 l i0 wo acc).1, (if conserv then 1 else s) * (caInner conserv ex nyi yib va vb o0 o1 l i0 wo acc).2.1,
        mul (some (if conserv then 1 else s)) (caInner conserv ex nyi yib va vb o0 o1 l i0 wo acc).2.2) := by
  induction l generalizing i0 wo acc with
  | nil => rfl
  | cons i l ih =>
    simp only [caInner, caLo_aff hs, caHi_aff hs, gt_iff_lt, aff_lt hs, ge_iff_le]
    by_cases h0 : o1 < caLo ex yib o0 i
    · simp only [if_pos h0]
    by_cases h1 : caHi ex nyi yib o1 i < o0
    · simp only [if_neg h0, if_pos h1]
      exact ih _ _ _
    simp only [if_neg h0, if_neg h1]
    have hle : (s * o1 + t ≤ s * caHi ex nyi yib o1 i + t) ↔ o1 ≤ caHi ex nyi yib o1 i := by
      rw [← not_lt, ← not_lt, aff_lt hs]
    rw [caWidth_aff hs conserv _ _ _ _ h0 h1]
    generalize hW : (if conserv = true ∧ caLo ex yib o0 i ≠ caHi ex nyi yib o1 i then
      (min (caHi ex nyi yib o1 i) o1 - max (caLo ex yib o0 i) o0) / (o1 - o0) else min (caHi ex nyi yib o1 i) o1 - max (caLo ex yib o0 i) o0) = W
    generalize hk : (if conserv then (1 : ℚ) else s) = k at *
    have a1 : (if isnan (vb i) = true then k * wo else k * wo + k * W) = k * (if isnan (vb i) = true then wo else wo + W) := by
      split <;> ring
    have a2 : (if isnan (vb i) = true then mul (some k) acc else add (mul (some k) acc) (mul (va i) (some (k * W)))) =
        mul (some k) (if isnan (vb i) = true then acc else add acc (mul (va i) (some W))) := by
      split
      · rfl
      · cases acc <;> cases va i <;> simp; ring
    rw [a1, a2]
    by_cases h2 : o1 ≤ caHi ex nyi yib o1 i
    · rw [if_pos (hle.2 h2), if_pos h2]
    · rw [if_neg (fun h => h2 (hle.1 h)), if_neg h2]
      exact ih _ _ _

theorem caCells_aff (yob : Nat → ℚ) (v : Nat → V) (ix : Nat) (l : List Nat) (hl : l.Nodup) (i0 : Nat) (varo : Nat → Nat → V)
    (h0 : ∀ j ∈ l, varo ix j = some 0) :
    caCells conserv ex nyi (fun k => s * yib k + t) (fun k => s * yob k + t) v v ix ix l i0 varo = caCells conserv ex nyi yib yob v v ix ix l i0 varo := by
  have hs' : s ≠ 0 := ne_of_gt hs
  induction l generalizing i0 varo with
  | nil => rfl
  | cons j l ih =>
    rw [List.nodup_cons] at hl
    simp only [caCells]
    have hz : (s * yob j + t = s * yob (j + 1) + t) ↔ yob j = yob (j + 1) :=
      ⟨fun e => mul_left_cancel₀ hs' (add_right_cancel e), fun e => by rw [e]⟩
    by_cases he : yob j = yob (j + 1)
    · rw [if_pos (hz.2 he), if_pos he]
      exact ih hl.2 _ _ fun k hk => h0 k (by simp [hk])
    · rw [if_neg (fun e => he (hz.1 e)), if_neg he, h0 j (by simp)]
      have key := caInner_aff hs conserv ex nyi yib v v (t := t) (yob j) (yob (j + 1)) (List.range' i0 (nyi - i0)) i0 0 (some 0)
      rw [mul_zero] at key
      have e0 : mul (some (if conserv then (1 : ℚ) else s)) (some 0) = some 0 := by simp
      rw [e0] at key
      rw [key]
      generalize caInner conserv ex nyi yib v v (yob j) (yob (j + 1)) (List.range' i0 (nyi - i0)) i0 0 (some 0) = r
      obtain ⟨r1, r2, r3⟩ := r
      cases conserv with
      | true =>
        have e1 : mul (some (1 : ℚ)) r3 = r3 := by cases r3 <;> simp
        simp only [if_true, e1]
        refine ih hl.2 _ _ fun k hk => ?_
        simp only [upd2]
        rw [if_neg (by rintro ⟨-, rfl⟩; exact hl.1 hk)]
        exact h0 k (by simp [hk])
      | false =>
        have hu : ∀ x : V, upd2 varo ix j x ix j = x := by intro x; simp [upd2]
        have huu : ∀ x y : V, upd2 (upd2 varo ix j x) ix j y = upd2 varo ix j y := by
          intro x y; funext p q; simp only [upd2]; split <;> rfl
        simp only [Bool.false_eq_true, if_false, hu, huu]
        have hne : (s * r2 ≠ 0) ↔ r2 ≠ 0 := by simp [hs']
        have hd : (if s * r2 ≠ 0 then upd2 varo ix j (div (mul (some s) r3) (some (s * r2))) else upd2 varo ix j none) =
            (if r2 ≠ 0 then upd2 varo ix j (div r3 (some r2)) else upd2 varo ix j none) := by
          by_cases h : r2 = 0
          · simp [h]
          · rw [if_pos (hne.2 h), if_pos h]
            congr 1
            cases r3 with
            | none => simp
            | some x => simp only [mul_some]; rw [div_some (hne.2 h), div_some h, mul_div_mul_left _ _ hs']
        rw [hd]
        refine ih hl.2 _ _ fun k hk => ?_
        have hkj : k ≠ j := fun e => hl.1 (e ▸ hk)
        split <;> (simp only [upd2]; rw [if_neg (fun e => hkj e.2)]; exact h0 k (by simp [hk]))

end

theorem caCells_other_units (conserv : Bool) (ex : CExtrap) (nyi : Nat) (yib yob : Nat → ℚ) (va vb : Nat → V) (ix : Nat) (l : List Nat) (i0 : Nat) (varo : Nat → Nat → V)
    (i j : Nat) (h : i ≠ ix) : caCells conserv ex nyi yib yob va vb ix ix l i0 varo i j = varo i j := by
  induction l generalizing i0 varo with
  | nil => rfl
  | cons k l ih =>
    simp only [caCells]
    split
    · exact ih _ _
    · rw [ih]
      split
      · simp [upd2, h]
      · split <;> simp [upd2, h]

/-- **C158 (cell averages).** The averages do not depend on the units of the coordinate: the same change of units (positive factor, any
origin) of the edges of the input and of the output cells gives the same array, conservative or not, with any extrapolation,
whatever the order of the edges. The data have at least as many rows as the output edges, as in `regrid1d`. -/
theorem C158_cellave (s t : ℚ) (hs : 0 < s) (vari : NMat V) (yib yob : NMat ℚ) (conserv : Bool) (ex : CExtrap) (hr : yob.nx ≤ vari.nx) :
    cellave1d vari (yib.inUnits s t) (yob.inUnits s t) conserv ex = cellave1d vari yib yob conserv ex := by
  unfold cellave1d
  have e1 : (yob.inUnits s t).nx = yob.nx := rfl
  have e2 : (yib.inUnits s t).nx = yib.nx := rfl
  have e3 : (yob.inUnits s t).ny = yob.ny := rfl
  simp only [e1, e2, e3, max_eq_left hr]
  congr 1
  have key : ∀ (l : List Nat), l.Nodup → (∀ ix ∈ l, ix < vari.nx) → ∀ varo : Nat → Nat → V, (∀ ix ∈ l, ∀ j, varo ix j = some 0) →
      l.foldl (fun varo ix => caCells conserv ex vari.ny ((yib.inUnits s t).get (min (yib.nx - 1) (ix % yib.nx))) ((yob.inUnits s t).get (min (yob.nx - 1) (ix % yob.nx)))
        (vari.get ix) (vari.get (min (vari.nx - 1) (ix % vari.nx))) ix (min (vari.nx - 1) (ix % vari.nx)) (List.range (yob.ny - 1)) 0 varo) varo =
      l.foldl (fun varo ix => caCells conserv ex vari.ny (yib.get (min (yib.nx - 1) (ix % yib.nx))) (yob.get (min (yob.nx - 1) (ix % yob.nx)))
        (vari.get ix) (vari.get (min (vari.nx - 1) (ix % vari.nx))) ix (min (vari.nx - 1) (ix % vari.nx)) (List.range (yob.ny - 1)) 0 varo) varo := by
    intro l hl hlt
    induction l with
    | nil => intro varo _; rfl
    | cons ix l ih =>
      intro varo h0
      rw [List.nodup_cons] at hl
      have hix : ix < vari.nx := hlt ix (by simp)
      have hm : min (vari.nx - 1) (ix % vari.nx) = ix := by rw [Nat.mod_eq_of_lt hix]; omega
      rw [List.foldl_cons, List.foldl_cons, hm]
      have := caCells_aff hs conserv ex vari.ny (yib.get (min (yib.nx - 1) (ix % yib.nx))) (t := t) (yob.get (min (yob.nx - 1) (ix % yob.nx))) (vari.get ix) ix
        (List.range (yob.ny - 1)) List.nodup_range 0 varo (fun j _ => h0 ix (by simp) j)
      have this' : caCells conserv ex vari.ny ((yib.inUnits s t).get (min (yib.nx - 1) (ix % yib.nx))) ((yob.inUnits s t).get (min (yob.nx - 1) (ix % yob.nx)))
        (vari.get ix) (vari.get ix) ix ix (List.range (yob.ny - 1)) 0 varo = _ := this
      rw [this']
      refine ih hl.2 (fun i hi => hlt i (by simp [hi])) _ fun i hi j => ?_
      have hne : i ≠ ix := fun e => hl.1 (e ▸ hi)
      rw [caCells_other_units _ _ _ _ _ _ _ _ _ _ _ _ _ hne]
      exact h0 i (by simp [hi]) j
  exact key (List.range vari.nx) List.nodup_range (fun i hi => List.mem_range.1 hi) _ (fun _ _ _ => rfl)

/-! ## combination of data -/

theorem isnan_comb (a b : ℚ) (x y : V) (h : isnan x = isnan y) : isnan (comb a b x y) = isnan x := by
  cases x <;> cases y <;> simp_all [comb]

section
variable (a b : ℚ) (conserv : Bool) (ex : CExtrap) (nyi : Nat) (yib : Nat → ℚ)

theorem caInner_comb (va va' va3 vb vb' vb3 : Nat → V) (h3 : ∀ i, va3 i = comb a b (va i) (va' i)) (hb3 : ∀ i, isnan (vb3 i) = isnan (vb i))
    (hb : ∀ i, isnan (vb' i) = isnan (vb i)) (o0 o1 : ℚ) (l : List Nat) (i0 : Nat) (wo : ℚ) (acc acc' : V) :
    (caInner conserv ex nyi yib va' vb' o0 o1 l i0 wo acc').1 = (caInner conserv ex nyi yib va vb o0 o1 l i0 wo acc).1 ∧
    (caInner conserv ex nyi yib va' vb' o0 o1 l i0 wo acc').2.1 = (caInner conserv ex nyi yib va vb o0 o1 l i0 wo acc).2.1 ∧
    caInner conserv ex nyi yib va3 vb3 o0 o1 l i0 wo (comb a b acc acc') =
      ((caInner conserv ex nyi yib va vb o0 o1 l i0 wo acc).1, (caInner conserv ex nyi yib va vb o0 o1 l i0 wo acc).2.1,
        comb a b (caInner conserv ex nyi yib va vb o0 o1 l i0 wo acc).2.2 (caInner conserv ex nyi yib va' vb' o0 o1 l i0 wo acc').2.2) := by
  induction l generalizing i0 wo acc acc' with
  | nil => exact ⟨rfl, rfl, rfl⟩
  | cons i l ih =>
    simp only [caInner, hb3, hb, h3]
    generalize (if conserv = true ∧ caLo ex yib o0 i ≠ caHi ex nyi yib o1 i then
      (min (caHi ex nyi yib o1 i) o1 - max (caLo ex yib o0 i) o0) / (o1 - o0) else min (caHi ex nyi yib o1 i) o1 - max (caLo ex yib o0 i) o0) = W
    have e : (if isnan (vb i) = true then comb a b acc acc' else add (comb a b acc acc') (mul (comb a b (va i) (va' i)) (some W))) =
        comb a b (if isnan (vb i) = true then acc else add acc (mul (va i) (some W))) (if isnan (vb i) = true then acc' else add acc' (mul (va' i) (some W))) := by
      split
      · rfl
      · cases acc <;> cases acc' <;> cases va i <;> cases va' i <;> simp [comb]; ring
    rw [e]
    split
    · exact ⟨rfl, rfl, rfl⟩
    · split
      · exact ih _ _ _ _
      · split
        · exact ⟨rfl, rfl, rfl⟩
        · exact ih _ _ _ _

theorem caCells_comb (yob : Nat → ℚ) (va va' va3 vb vb' vb3 : Nat → V) (h3 : ∀ i, va3 i = comb a b (va i) (va' i)) (hb3 : ∀ i, isnan (vb3 i) = isnan (vb i))
    (hb : ∀ i, isnan (vb' i) = isnan (vb i)) (ix ixi : Nat) (l : List Nat) (i0 : Nat) (m m' m3 : Nat → Nat → V)
    (hm : ∀ i j, m3 i j = comb a b (m i j) (m' i j)) (i j : Nat) :
    caCells conserv ex nyi yib yob va3 vb3 ix ixi l i0 m3 i j =
      comb a b (caCells conserv ex nyi yib yob va vb ix ixi l i0 m i j) (caCells conserv ex nyi yib yob va' vb' ix ixi l i0 m' i j) := by
  induction l generalizing i0 m m' m3 with
  | nil => exact hm i j
  | cons k l ih =>
    simp only [caCells]
    split
    · exact ih _ _ _ _ hm
    · obtain ⟨e1, e2, e3⟩ := caInner_comb a b conserv ex nyi yib va va' va3 vb vb' vb3 h3 hb3 hb (yob k) (yob (k + 1)) (List.range' i0 (nyi - i0)) i0 0 (m ixi k) (m' ixi k)
      rw [hm ixi k, e3, e1, e2]
      dsimp only
      generalize (caInner conserv ex nyi yib va vb (yob k) (yob (k + 1)) (List.range' i0 (nyi - i0)) i0 0 (m ixi k)).2.2 = x
      generalize (caInner conserv ex nyi yib va' vb' (yob k) (yob (k + 1)) (List.range' i0 (nyi - i0)) i0 0 (m' ixi k)).2.2 = x'
      generalize (caInner conserv ex nyi yib va vb (yob k) (yob (k + 1)) (List.range' i0 (nyi - i0)) i0 0 (m ixi k)).2.1 = wo
      have hu : ∀ i j, upd2 m3 ixi k (comb a b x x') i j = comb a b (upd2 m ixi k x i j) (upd2 m' ixi k x' i j) := by
        intro i j; simp only [upd2]; split
        · rfl
        · exact hm i j
      cases conserv with
      | true => simp only [if_true]; exact ih _ _ _ _ hu
      | false =>
        simp only [Bool.false_eq_true, if_false]
        by_cases hw : wo = 0
        · simp only [hw, ne_eq, not_true_eq_false, if_false]
          refine ih _ _ _ _ fun i j => ?_
          simp only [upd2]
          split
          · rfl
          · exact hu i j
        · simp only [hw, ne_eq, not_false_eq_true, if_true]
          refine ih _ _ _ _ fun i j => ?_
          show upd2 (upd2 m3 ixi k (comb a b x x')) ix k (div (upd2 m3 ixi k (comb a b x x') ix k) (some wo)) i j =
            comb a b (upd2 (upd2 m ixi k x) ix k (div (upd2 m ixi k x ix k) (some wo)) i j) (upd2 (upd2 m' ixi k x') ix k (div (upd2 m' ixi k x' ix k) (some wo)) i j)
          rw [hu ix k]
          have hd : ∀ p q : V, div (comb a b p q) (some wo) = comb a b (div p (some wo)) (div q (some wo)) := by
            intro p q
            cases p <;> cases q <;> simp [comb, div, hw]; ring
          rw [hd]
          by_cases hij : i = ix ∧ j = k
          · obtain ⟨rfl, rfl⟩ := hij
            simp [upd2]
          · have hup : ∀ (M : Nat → Nat → V) (y : V), upd2 M ix k y i j = M i j := by intro M y; simp only [upd2, if_neg hij]
            rw [hup, hup, hup]; exact hu i j
end

/-- **C159 (cell averages).** The averages are linear: the average of `a v₁ + b v₂`, for data that are missing at the same places, is the
combination of the averages, conservative or not, with any extrapolation, whatever the order of the edges. -/
theorem C159_cellave (a b : ℚ) (v1 v2 : NMat V) (hx : v2.nx = v1.nx) (hy : v2.ny = v1.ny) (hmask : ∀ i j, v1.get i j = none ↔ v2.get i j = none)
    (yib yob : NMat ℚ) (conserv : Bool) (ex : CExtrap) :
    cellave1d (v1.combine a b v2) yib yob conserv ex = (cellave1d v1 yib yob conserv ex).combine a b (cellave1d v2 yib yob conserv ex) := by
  have hcomb : ∀ x y : V, (match x, y with | some x, some y => some (a * x + b * y) | _, _ => none) = comb a b x y := by
    intro x y; cases x <;> cases y <;> rfl
  have hc : ∀ M N : NMat V, (M.combine a b N).get = fun i j => comb a b (M.get i j) (N.get i j) := by
    intro M N; funext i j; exact hcomb _ _
  have hn : ∀ i j, isnan (v2.get i j) = isnan (v1.get i j) := by
    intro i j
    have := hmask i j
    cases h1 : v1.get i j <;> cases h2 : v2.get i j <;> simp_all
  have hn3 : ∀ i j, isnan ((v1.combine a b v2).get i j) = isnan (v1.get i j) := by
    intro i j; rw [hc]; exact isnan_comb a b _ _ (hn i j).symm
  have e1 : (v1.combine a b v2).nx = v1.nx := rfl
  have e2 : (v1.combine a b v2).ny = v1.ny := rfl
  have key : ∀ (l : List Nat) (m m' m3 : Nat → Nat → V), (∀ i j, m3 i j = comb a b (m i j) (m' i j)) → ∀ i j,
      l.foldl (fun varo ix => caCells conserv ex v1.ny (yib.get (min (yib.nx - 1) (ix % yib.nx))) (yob.get (min (yob.nx - 1) (ix % yob.nx)))
        ((v1.combine a b v2).get ix) ((v1.combine a b v2).get (min (v1.nx - 1) (ix % v1.nx))) ix (min (v1.nx - 1) (ix % v1.nx)) (List.range (yob.ny - 1)) 0 varo) m3 i j =
      comb a b (l.foldl (fun varo ix => caCells conserv ex v1.ny (yib.get (min (yib.nx - 1) (ix % yib.nx))) (yob.get (min (yob.nx - 1) (ix % yob.nx)))
        (v1.get ix) (v1.get (min (v1.nx - 1) (ix % v1.nx))) ix (min (v1.nx - 1) (ix % v1.nx)) (List.range (yob.ny - 1)) 0 varo) m i j)
      (l.foldl (fun varo ix => caCells conserv ex v1.ny (yib.get (min (yib.nx - 1) (ix % yib.nx))) (yob.get (min (yob.nx - 1) (ix % yob.nx)))
        (v2.get ix) (v2.get (min (v1.nx - 1) (ix % v1.nx))) ix (min (v1.nx - 1) (ix % v1.nx)) (List.range (yob.ny - 1)) 0 varo) m' i j) := by
    intro l
    induction l with
    | nil => intro m m' m3 h i j; exact h i j
    | cons ix l ih =>
      intro m m' m3 h i j
      rw [List.foldl_cons, List.foldl_cons, List.foldl_cons]
      refine ih _ _ _ (fun i j => ?_) i j
      exact caCells_comb a b conserv ex v1.ny _ _ _ _ _ _ _ _ (fun i => by rw [hc]) (hn3 _) (hn _) ix _ _ _ _ _ _ h i j
  have hg : (cellave1d (v1.combine a b v2) yib yob conserv ex).get = ((cellave1d v1 yib yob conserv ex).combine a b (cellave1d v2 yib yob conserv ex)).get := by
    rw [hc]
    funext i j
    unfold cellave1d
    simp only [hx, hy, e1, e2]
    exact key _ _ _ _ (fun i j => by simp [comb]) i j
  calc cellave1d (v1.combine a b v2) yib yob conserv ex = ⟨max v1.nx yob.nx, yob.ny - 1, (cellave1d (v1.combine a b v2) yib yob conserv ex).get⟩ := rfl
    _ = _ := by rw [hg]; rfl

/-! ### examples: two rows, a missing value, edges in metres and in kilometres above another level -/

def cuV1 : NMat V := ⟨2, 2, fun i j => if i = 0 ∧ j = 1 then none else some (i + 2 * j)⟩
def cuV2 : NMat V := ⟨2, 2, fun i j => if i = 0 ∧ j = 1 then none else some (3 * i - j)⟩
def cuIn : NMat ℚ := ⟨1, 3, fun _ j => 1000 * j⟩
def cuOut : NMat ℚ := ⟨1, 2, fun _ j => 500 + 1000 * j⟩

example : cuOut.nx ≤ cuV1.nx := by decide
example : (cellave1d cuV1 cuIn cuOut false .no).get 1 0 = some 2 ∧ (cellave1d cuV1 (cuIn.inUnits (1 / 1000) 7) (cuOut.inUnits (1 / 1000) 7) false .no).get 1 0 = some 2 := by
  rw [C158_cellave (1 / 1000) 7 (by norm_num) cuV1 cuIn cuOut false .no (by decide)]
  constructor <;> decide +kernel
example : ∀ i j, cuV1.get i j = none ↔ cuV2.get i j = none := by
  intro i j
  show (if i = 0 ∧ j = 1 then none else some ((i : ℚ) + 2 * j)) = none ↔ (if i = 0 ∧ j = 1 then none else some (3 * (i : ℚ) - j)) = none
  split <;> simp

end Xoa
