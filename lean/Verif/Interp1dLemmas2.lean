import Verif.Interp1dLemmas

/-! More helper lemmas: row results of the four interpolation routines. -/

namespace Xoa
open V

/-! ### Soundness of the nearest/linear scan, without any hypothesis -/

theorem nlInner_sound (yi yo : Row) (w) (i : Int) : ∀ (l : List Int) (m : Int) (out : Int → V) (j : Int),
    (nlInner yi yo w i l m out).2 j = out j ∨
    ∃ k, wrapIdx yo.n k = j ∧ nlHit yi yo w i k = some ((nlInner yi yo w i l m out).2 j) := by
  intro l
  induction l with
  | nil => intro m out j; exact Or.inl rfl
  | cons k l ih =>
    intro m out j
    simp only [nlInner]
    by_cases h1 : lt (sub (yi.rd (i + 1)) (yo.rd k)) (some 0) = true
    · rw [if_pos h1]; exact Or.inl rfl
    · rw [if_neg h1]
      by_cases h0 : lt (sub (yo.rd k) (yi.rd i)) (some 0) = true
      · rw [if_pos h0]; exact ih _ _ _
      · rw [if_neg h0]
        cases hw : w i (sub (yo.rd k) (yi.rd i)) (sub (yi.rd (i + 1)) (yo.rd k)) with
        | none => exact ih _ _ _
        | some v =>
          simp only
          rcases ih m (wr1 yo.n out k v) j with h | h
          · by_cases hj : j = wrapIdx yo.n k
            · right
              refine ⟨k, hj.symm, ?_⟩
              rw [h]
              simp [nlHit, h1, h0, hw, wr1, hj]
            · left
              rw [h]; simp [wr1, hj]
          · exact Or.inr h

theorem nlOuter_sound (yi yo : Row) (w) (iyomax : Int) : ∀ (l : List Int) (m : Int) (out : Int → V) (j : Int),
    nlOuter yi yo w iyomax l m out j = out j ∨
    ∃ i ∈ l, ∃ k, wrapIdx yo.n k = j ∧ nlHit yi yo w i k = some (nlOuter yi yo w iyomax l m out j) := by
  intro l
  induction l with
  | nil => intro m out j; exact Or.inl rfl
  | cons i l ih =>
    intro m out j
    simp only [nlOuter]
    have lift : ∀ m out, (nlOuter yi yo w iyomax l m out j = out j ∨
        ∃ i ∈ l, ∃ k, wrapIdx yo.n k = j ∧ nlHit yi yo w i k = some (nlOuter yi yo w iyomax l m out j)) →
        (nlOuter yi yo w iyomax l m out j = out j ∨
        ∃ i' ∈ i :: l, ∃ k, wrapIdx yo.n k = j ∧ nlHit yi yo w i' k = some (nlOuter yi yo w iyomax l m out j)) := by
      rintro m out (h | ⟨i', h, h'⟩)
      · exact Or.inl h
      · exact Or.inr ⟨i', by simp [h], h'⟩
    by_cases h1 : lt (yi.rd (i + 1)) (yo.rd m) = true
    · rw [if_pos h1]; exact lift _ _ (ih _ _ _)
    · rw [if_neg h1]
      by_cases h2 : lt (yo.rd iyomax) (yi.rd i) = true
      · rw [if_pos h2]; exact Or.inl rfl
      · rw [if_neg h2]
        rcases lift _ _ (ih (nlInner yi yo w i (pyRange m (iyomax + 1)) m out).1
          (nlInner yi yo w i (pyRange m (iyomax + 1)) m out).2 j) with h | h
        · rcases nlInner_sound yi yo w i (pyRange m (iyomax + 1)) m out j with h' | ⟨k, hk, h'⟩
          · exact Or.inl (h.trans h')
          · exact Or.inr ⟨i, by simp, k, hk, by rw [h]; exact h'⟩
        · exact Or.inr h

/-- `linear1d` row: a value is written only from a bracketing pair (no hypothesis). -/
theorem linearRow_sound (v yi yo : Row) (j : Int) (h0 : 0 ≤ j) (out : Int → V) :
    nlRow yi yo (linearW v) out j = out j ∨
    ∃ i a b c, Brackets yi i c ∧ yo.get j = some c ∧ yi.get i = some a ∧ yi.get (i + 1) = some b ∧
      nlRow yi yo (linearW v) out j = lineThrough a b (v.get i) (v.get (i + 1)) c := by
  rcases nlOuter_sound yi yo (linearW v) (getIminmax yo).2
    (pyRange (getIminmax yi).1 (getIminmax yi).2) (getIminmax yo).1 out j with h | ⟨i, hi, k, hk, h⟩
  · exact Or.inl h
  · right
    rw [mem_pyRange] at hi
    have hi0 : 0 ≤ i ∧ i + 1 < yi.n := by
      rcases getIminmax_spec yi with ⟨i1, i2, i3⟩ | ⟨i1, i2, i3, _⟩ <;> omega
    have hrd : nlHit yi yo (linearW v) i k = nlHit yi yo (linearW v) i j := by
      have : yo.rd k = yo.rd j := by
        rw [Row.rd_nonneg yo h0, ← hk]; rfl
      unfold nlHit
      rw [this]
    rw [hrd] at h
    have hne : nlHit yi yo (linearW v) i j ≠ none := by rw [h]; simp
    obtain ⟨a, b, c, ha, hb, hc, h1, h2⟩ := (nlHit_some_iff_linear yi yo v hi0.1 h0).1 hne
    refine ⟨i, a, b, c, ⟨hi0.1, hi0.2, a, b, ha, hb, h1, h2⟩, hc, ha, hb, ?_⟩
    rw [nlHit_linear_val yi yo v hi0.1 h0 ha hb hc h1 h2] at h
    exact (Option.some.inj h).symm

/-- `linear1d` row, ascending coordinates: the last bracketing pair gives the value. -/
theorem linearRow_last (v yi yo : Row) (hyi : AscRow yi) (hyo : AscRow yo)
    (j : Int) (h0 : 0 ≤ j) (hn : j < yo.n) (out : Int → V) (i : Int) (a b c : ℚ)
    (hb : LastBracket yi i c) (hc : yo.get j = some c)
    (ha' : yi.get i = some a) (hb' : yi.get (i + 1) = some b) :
    nlRow yi yo (linearW v) out j = lineThrough a b (v.get i) (v.get (i + 1)) c := by
  rw [nlRow_spec yi yo (linearW v) out hyi hyo ?_ ?_ j h0 hn]
  · obtain ⟨⟨hi0, hi1, a', b', e1, e2, h1, h2⟩, hlast⟩ := hb
    rw [ha'] at e1; rw [hb'] at e2; cases e1; cases e2
    have p1 := valid_in_iminmax yi hi0 (by omega) (by rw [ha']; simp)
    have p2 := valid_in_iminmax yi (by omega : 0 ≤ i + 1) hi1 (by rw [hb']; simp)
    have p3 := valid_in_iminmax yo h0 hn (by rw [hc]; simp)
    rw [if_pos ⟨p3.1, p3.2.1, p3.2.2.1⟩]
    refine nlAcc_last yi yo (linearW v) j _ _ i _ _ p1.1 (by omega)
      (nlHit_linear_val yi yo v hi0 h0 ha' hb' hc h1 h2) ?_
    intro i' hi' hi''
    by_contra hne
    obtain ⟨a2, b2, c2, e1, e2, e3, e4, e5⟩ := (nlHit_some_iff_linear yi yo v (by omega) h0).1 hne
    rw [hc] at e3; cases e3
    exact hlast i' hi' ⟨by omega, by omega, a2, b2, e1, e2, e4, e5⟩
  · intro i k a1 a2 a3 a4 a5 hne
    rcases getIminmax_spec yi with ⟨i1, i2, i3⟩ | ⟨i1, i2, i3, _⟩
    · omega
    · obtain ⟨a2, b2, c2, e1, e2, e3, e4, e5⟩ := (nlHit_some_iff_linear yi yo v (by omega) a5).1 hne
      simp [e1, e2, e3]
  · intro _ i; simp [linearW]

/-! ### nearest -/

theorem nearestRow_spec (v yi yo : Row) (hyi : AscRow yi) (hyo : AscRow yo)
    (gyi : NoGap yi) (gyo : NoGap yo) (hval : ∃ k : Int, 0 ≤ k ∧ k < yo.n ∧ yo.get k ≠ none)
    (j : Int) (h0 : 0 ≤ j) (hn : j < yo.n) (out : Int → V) :
    nlRow yi yo (nearestW v) out j =
      if (getIminmax yo).1 ≤ j ∧ j ≤ (getIminmax yo).2 ∧ 0 ≤ (getIminmax yo).1
      then nlAcc yi yo (nearestW v) j (pyRange (getIminmax yi).1 (getIminmax yi).2) (out j) else out j := by
  apply nlRow_spec yi yo (nearestW v) out hyi hyo ?_ ?_ j h0 hn
  · intro i k a1 a2 a3 a4 a5 _
    rcases getIminmax_spec yi with ⟨i1, i2, i3⟩ | ⟨i1, i2, i3, i4, i5, i6, i7⟩
    · omega
    · rcases getIminmax_spec yo with ⟨o1, o2, o3⟩ | ⟨o1, o2, o3, o4, o5, o6, o7⟩
      · omega
      · exact ⟨gyi _ i _ i1 a1 (by omega) i3 i4 i5, gyi _ (i+1) _ i1 (by omega) (by omega) i3 i4 i5,
          gyo _ k _ o1 a3 a4 o3 o4 o5⟩
  · intro hall
    obtain ⟨k, k0, k1, k2⟩ := hval
    exact absurd (hall k k0 k1) k2

theorem nlHit_nearest (yi yo v : Row) {i k : Int} (hi : 0 ≤ i) (hk : 0 ≤ k) {a b c : ℚ}
    (ha : yi.get i = some a) (hb : yi.get (i + 1) = some b) (hc : yo.get k = some c) :
    nlHit yi yo (nearestW v) i k =
      if a ≤ c ∧ c ≤ b then some (if c - a ≤ b - c then v.get i else v.get (i + 1)) else none := by
  unfold nlHit
  rw [Row.rd_nonneg yi hi, Row.rd_nonneg yi (by omega : 0 ≤ i + 1), Row.rd_nonneg yo hk, ha, hb, hc]
  simp only [sub_some, lt_some, decide_eq_true_eq, nearestW, le_some]
  rw [Row.rd_nonneg v hi, Row.rd_nonneg v (by omega : 0 ≤ i + 1)]
  by_cases h1 : a ≤ c <;> by_cases h2 : c ≤ b
  · have e1 : ¬ (b - c < 0) := by linarith
    have e2 : ¬ (c - a < 0) := by linarith
    simp only [if_neg e1, if_neg e2, h1, h2, and_self, if_true]
    split <;> rfl
  · have e1 : (b - c < 0) := by linarith
    simp [e1, h2]
  · have e1 : ¬ (b - c < 0) := by linarith
    have e2 : (c - a < 0) := by linarith
    simp [e1, e2, h1]
  · have e1 : (b - c < 0) := by linarith
    simp [e1, h2]

/-! ### cubic/hermit scan -/

section ch
variable (yi yo : Row) (w : Int → V → V → V)

/-- point `k` is inside interval `i` -/
def chIn (i k : Int) : Prop :=
  (le (some 0) (sub (yo.rd k) (yi.rd i)) && le (some 0) (sub (yi.rd (i + 1)) (yo.rd k))) = true

instance (i k : Int) : Decidable (chIn yi yo i k) := by unfold chIn; infer_instance

/-- value written -/
def chVal (i k : Int) : V := w i (sub (yo.rd k) (yi.rd i)) (sub (yi.rd (i + 1)) (yo.rd k))

theorem chIn_iff {i k : Int} (hi : 0 ≤ i) (hk : 0 ≤ k) : chIn yi yo i k ↔
    ∃ a b c, yi.get i = some a ∧ yi.get (i + 1) = some b ∧ yo.get k = some c ∧ a ≤ c ∧ c ≤ b := by
  unfold chIn
  rw [Row.rd_nonneg yi hi, Row.rd_nonneg yi (by omega : 0 ≤ i + 1), Row.rd_nonneg yo hk]
  cases hk' : yo.get k <;> cases ha : yi.get i <;> cases hb : yi.get (i + 1) <;> simp

theorem chInner_sound (i : Int) : ∀ (l : List Int) (m : Int) (out : Int → V) (j : Int),
    (chInner yi yo w i l m out).2 j = out j ∨
    ∃ k, wrapIdx yo.n k = j ∧ chIn yi yo i k ∧ (chInner yi yo w i l m out).2 j = chVal yi yo w i k := by
  intro l
  induction l with
  | nil => intro m out j; exact Or.inl rfl
  | cons k l ih =>
    intro m out j
    simp only [chInner]
    by_cases h1 : lt (sub (yi.rd (i + 1)) (yo.rd k)) (some 0) = true
    · rw [if_pos h1]; exact Or.inl rfl
    · rw [if_neg h1]
      by_cases h0 : chIn yi yo i k
      · have h0' := h0
        unfold chIn at h0
        rw [if_pos h0]
        rcases ih k (wr1 yo.n out k (w i (sub (yo.rd k) (yi.rd i)) (sub (yi.rd (i + 1)) (yo.rd k)))) j with h | h
        · by_cases hj : j = wrapIdx yo.n k
          · right
            refine ⟨k, hj.symm, h0', ?_⟩
            rw [h]; simp [wr1, hj, chVal]
          · left; rw [h]; simp [wr1, hj]
        · exact Or.inr h
      · unfold chIn at h0
        rw [if_neg h0]
        exact ih _ _ _

theorem chOuter_sound (iyomax : Int) : ∀ (l : List Int) (m : Int) (out : Int → V) (j : Int),
    chOuter yi yo w iyomax l m out j = out j ∨
    ∃ i ∈ l, ∃ k, wrapIdx yo.n k = j ∧ chIn yi yo i k ∧
      chOuter yi yo w iyomax l m out j = chVal yi yo w i k := by
  intro l
  induction l with
  | nil => intro m out j; exact Or.inl rfl
  | cons i l ih =>
    intro m out j
    simp only [chOuter]
    have lift : ∀ m out, (chOuter yi yo w iyomax l m out j = out j ∨
        ∃ i ∈ l, ∃ k, wrapIdx yo.n k = j ∧ chIn yi yo i k ∧ chOuter yi yo w iyomax l m out j = chVal yi yo w i k) →
        (chOuter yi yo w iyomax l m out j = out j ∨
        ∃ i' ∈ i :: l, ∃ k, wrapIdx yo.n k = j ∧ chIn yi yo i' k ∧ chOuter yi yo w iyomax l m out j = chVal yi yo w i' k) := by
      rintro m out (h | ⟨i', h, h'⟩)
      · exact Or.inl h
      · exact Or.inr ⟨i', by simp [h], h'⟩
    by_cases h1 : lt (yi.rd (i + 1)) (yo.rd m) = true
    · rw [if_pos h1]; exact lift _ _ (ih _ _ _)
    · rw [if_neg h1]
      by_cases h2 : lt (yo.rd iyomax) (yi.rd i) = true
      · rw [if_pos h2]; exact Or.inl rfl
      · rw [if_neg h2]
        rcases lift _ _ (ih (chInner yi yo w i (pyRange m yo.n) m out).1
          (chInner yi yo w i (pyRange m yo.n) m out).2 j) with h | h
        · rcases chInner_sound yi yo w i (pyRange m yo.n) m out j with h' | ⟨k, hk, h', h''⟩
          · exact Or.inl (h.trans h')
          · exact Or.inr ⟨i, by simp, k, hk, h', by rw [h]; exact h''⟩
        · exact Or.inr h

theorem chInner_spec (iyi : Int)
    (hab : ∀ k l : Int, 0 ≤ k → k ≤ l → l < yo.n →
      lt (sub (yi.rd (iyi + 1)) (yo.rd k)) (some 0) = true → ¬ chIn yi yo iyi l) :
    ∀ (m : Nat) (k iyomin : Int) (out : Int → V), 0 ≤ k → k + m = yo.n →
      let r := chInner yi yo w iyi (pyRange k yo.n) iyomin out
      (∀ j, r.2 j = if k ≤ j ∧ j < yo.n ∧ chIn yi yo iyi j then chVal yi yo w iyi j else out j) ∧
      (r.1 = iyomin ∨ (k ≤ r.1 ∧ r.1 < yo.n ∧ chIn yi yo iyi r.1)) := by
  intro m
  induction m with
  | zero =>
    intro k iyomin out hk hm
    rw [pyRange_nil (by omega)]
    refine ⟨fun j => ?_, Or.inl rfl⟩
    rw [if_neg (by omega)]; rfl
  | succ m ih =>
    intro k iyomin out hk hm
    rw [pyRange_cons (by omega)]
    simp only [chInner]
    by_cases h1 : lt (sub (yi.rd (iyi + 1)) (yo.rd k)) (some 0) = true
    · rw [if_pos h1]
      refine ⟨fun j => ?_, Or.inl rfl⟩
      rw [if_neg]
      rintro ⟨a, b, c⟩
      exact hab k j hk a b h1 c
    · rw [if_neg h1]
      by_cases h0 : chIn yi yo iyi k
      · have h0' := h0
        unfold chIn at h0
        rw [if_pos h0]
        obtain ⟨ha, hb⟩ := ih (k + 1) k (wr1 yo.n out k (w iyi (sub (yo.rd k) (yi.rd iyi)) (sub (yi.rd (iyi + 1)) (yo.rd k))))
          (by omega) (by push_cast at hm; omega)
        refine ⟨fun j => ?_, ?_⟩
        · rw [ha j]
          by_cases hjk : j = k
          · subst hjk
            rw [if_neg (by omega), if_pos ⟨by omega, by omega, h0'⟩, wr1_nonneg _ _ _ hk, if_pos rfl]
            rfl
          · rw [wr1_nonneg _ _ _ hk, if_neg hjk]
            by_cases hj : k ≤ j ∧ j < yo.n ∧ chIn yi yo iyi j
            · rw [if_pos hj, if_pos ⟨by omega, hj.2⟩]
            · rw [if_neg hj, if_neg (fun h => hj ⟨by omega, h.2⟩)]
        · right
          rcases hb with hb | hb
          · rw [hb]; exact ⟨by omega, by omega, h0'⟩
          · exact ⟨by omega, hb.2⟩
      · have h0' := h0
        unfold chIn at h0
        rw [if_neg h0]
        obtain ⟨ha, hb⟩ := ih (k + 1) iyomin out (by omega) (by push_cast at hm; omega)
        refine ⟨fun j => ?_, ?_⟩
        · rw [ha j]
          by_cases hjk : j = k
          · subst hjk
            rw [if_neg (by omega), if_neg (fun h => h0' h.2.2)]
          · by_cases hj : k ≤ j ∧ j < yo.n ∧ chIn yi yo iyi j
            · rw [if_pos hj, if_pos ⟨by omega, hj.2⟩]
            · rw [if_neg hj, if_neg (fun h => hj ⟨by omega, h.2⟩)]
        · rcases hb with hb | hb
          · exact Or.inl hb
          · exact Or.inr ⟨by omega, hb.2⟩

theorem chOuter_spec (hyi : AscRow yi) (hyo : AscRow yo) (iyomax imax : Int)
    (hm0 : 0 ≤ iyomax) (hmax : iyomax < yo.n) (himax : imax < yi.n)
    (hlast : ∀ k : Int, iyomax < k → k < yo.n → yo.get k = none) :
    ∀ (m : Nat) (i iyomin : Int) (out : Int → V), 0 ≤ i → i + m = imax →
      0 ≤ iyomin → iyomin < yo.n →
      ∀ j, iyomin ≤ j → j < yo.n → (∃ i', i ≤ i' ∧ i' < imax ∧ chIn yi yo i' j) →
        ∃ i', i ≤ i' ∧ i' < imax ∧ chIn yi yo i' j ∧
          chOuter yi yo w iyomax (pyRange i imax) iyomin out j = chVal yi yo w i' j := by
  intro m
  induction m with
  | zero =>
    intro i iyomin out hi hm hl hu j hj1 hj2 hex
    obtain ⟨i', a, b, _⟩ := hex
    omega
  | succ m ih =>
    intro i iyomin out hi hm hl hu j hj1 hj2 hex
    have hrest : i + 1 + (m : Int) = imax := by push_cast at hm; omega
    rw [pyRange_cons (by omega)]
    simp only [chOuter]
    by_cases hc1 : lt (yi.rd (i + 1)) (yo.rd iyomin) = true
    · rw [if_pos hc1]
      have hni : ¬ chIn yi yo i j := by
        rw [chIn_iff yi yo hi (by omega)]
        rintro ⟨a, b, c, ha, hb, hc, h1, h2⟩
        rw [Row.rd_nonneg yi (by omega : 0 ≤ i + 1), hb, Row.rd_nonneg yo hl, lt_iff] at hc1
        obtain ⟨x, y, hx, hy, hxy⟩ := hc1
        have := hyo iyomin j hl hj1 hj2 y c hy hc
        cases hx
        linarith
      have hex' : ∃ i', i + 1 ≤ i' ∧ i' < imax ∧ chIn yi yo i' j := by
        obtain ⟨i', a, b, c⟩ := hex
        refine ⟨i', ?_, b, c⟩
        by_contra hlt
        have : i' = i := by omega
        subst this; exact hni c
      obtain ⟨i', a, b, c, d⟩ := ih (i + 1) iyomin out (by omega) hrest hl hu j hj1 hj2 hex'
      exact ⟨i', by omega, b, c, d⟩
    · rw [if_neg hc1]
      by_cases hc2 : lt (yo.rd iyomax) (yi.rd i) = true
      · exfalso
        obtain ⟨i', a1, a2, a3⟩ := hex
        rw [chIn_iff yi yo (by omega) (by omega)] at a3
        obtain ⟨a, b, c, ha, hb, hc, h1, h2⟩ := a3
        rw [Row.rd_nonneg yi hi, Row.rd_nonneg yo hm0, lt_iff] at hc2
        obtain ⟨x, y, hx, hy, hxy⟩ := hc2
        have hj3 : j ≤ iyomax := by
          by_contra hgt
          rw [hlast j (by omega) hj2] at hc; cases hc
        have e1 := hyo j iyomax (by omega) hj3 hmax c x hc hx
        have e2 := hyi i i' hi a1 (by omega) y a hy ha
        linarith
      · rw [if_neg hc2]
        have hab : ∀ k l : Int, 0 ≤ k → k ≤ l → l < yo.n →
            lt (sub (yi.rd (i + 1)) (yo.rd k)) (some 0) = true → ¬ chIn yi yo i l := by
          intro k l k0 kl lm hlt hin
          rw [chIn_iff yi yo hi (by omega)] at hin
          obtain ⟨a, b, c, ha, hb, hc, h1, h2⟩ := hin
          rw [Row.rd_nonneg yi (by omega : 0 ≤ i + 1), Row.rd_nonneg yo k0, hb] at hlt
          cases hk : yo.get k with
          | none => rw [hk] at hlt; simp at hlt
          | some c' =>
            rw [hk] at hlt
            simp only [sub_some, lt_some, decide_eq_true_eq] at hlt
            have := hyo k l k0 kl lm c' c hk hc
            linarith
        obtain ⟨hA, hB⟩ := chInner_spec yi yo w i hab (yo.n - iyomin).toNat iyomin iyomin out hl (by omega)
        generalize hr : chInner yi yo w i (pyRange iyomin yo.n) iyomin out = r at *
        have hr1 : iyomin ≤ r.1 ∧ r.1 < yo.n := by
          rcases hB with hB | hB
          · omega
          · exact ⟨hB.1, hB.2.1⟩
        by_cases hex' : ∃ i', i + 1 ≤ i' ∧ i' < imax ∧ chIn yi yo i' j
        · by_cases hjr : r.1 ≤ j
          · obtain ⟨i', a, b, c, d⟩ := ih (i + 1) r.1 r.2 (by omega) hrest (by omega) hr1.2 j hjr hj2 hex'
            exact ⟨i', by omega, b, c, d⟩
          · -- then j is inside i
            have hrin : chIn yi yo i r.1 := by
              rcases hB with hB | hB
              · omega
              · exact hB.2.2
            have hji : chIn yi yo i j := by
              obtain ⟨i', a1, a2, a3⟩ := hex'
              rw [chIn_iff yi yo (by omega) (by omega)] at a3 hrin ⊢
              obtain ⟨a, b, c, ha, hb, hc, h1, h2⟩ := a3
              obtain ⟨a', b', c', ha', hb', hc', h1', h2'⟩ := hrin
              refine ⟨a', b', c, ha', hb', hc, ?_, ?_⟩
              · have := hyi i i' hi (by omega) (by omega) a' a ha' ha; linarith
              · have := hyo j r.1 (by omega) (by omega) (by omega) c c' hc hc'; linarith
            rcases chOuter_sound yi yo w iyomax (pyRange (i + 1) imax) r.1 r.2 j with h | ⟨i', hi', k, hk, hin, h⟩
            · refine ⟨i, le_refl _, by omega, hji, ?_⟩
              rw [h, hA j, if_pos ⟨hj1, hj2, hji⟩]
            · have hrd : yo.rd k = yo.rd j := by
                rw [Row.rd_nonneg yo (by omega : 0 ≤ j), ← hk]; rfl
              rw [mem_pyRange] at hi'
              refine ⟨i', by omega, hi'.2, ?_, ?_⟩
              · unfold chIn at hin ⊢; rwa [hrd] at hin
              · rw [h]; unfold chVal; rw [hrd]
        · -- only interval i contains j
          have hji : chIn yi yo i j := by
            obtain ⟨i', a1, a2, a3⟩ := hex
            by_cases h : i' = i
            · subst h; exact a3
            · exact absurd ⟨i', by omega, a2, a3⟩ hex'
          rcases chOuter_sound yi yo w iyomax (pyRange (i + 1) imax) r.1 r.2 j with h | ⟨i', hi', k, hk, hin, h⟩
          · refine ⟨i, le_refl _, by omega, hji, ?_⟩
            rw [h, hA j, if_pos ⟨hj1, hj2, hji⟩]
          · exfalso
            have hrd : yo.rd k = yo.rd j := by
              rw [Row.rd_nonneg yo (by omega : 0 ≤ j), ← hk]; rfl
            rw [mem_pyRange] at hi'
            refine hex' ⟨i', hi'.1, hi'.2, ?_⟩
            unfold chIn at hin ⊢; rwa [hrd] at hin

end ch

/-- `cubic1d`/`hermit1d` row: soundness (no hypothesis on the coordinates). -/
theorem chRow_sound (yi yo : Row) (w : Int → Int → Int → V → V → V) (out : Int → V) (j : Int) (h0 : 0 ≤ j) :
    chRow yi yo w out j = out j ∨
    ∃ i a b c, Brackets yi i c ∧ yo.get j = some c ∧ yi.get i = some a ∧ yi.get (i + 1) = some b ∧
      chRow yi yo w out j = w (getIminmax yi).1 (getIminmax yi).2 i (some (c - a)) (some (b - c)) := by
  rcases chOuter_sound yi yo (w (getIminmax yi).1 (getIminmax yi).2) (getIminmax yo).2
    (pyRange (getIminmax yi).1 (getIminmax yi).2) (getIminmax yo).1 out j with h | ⟨i, hi, k, hk, hin, h⟩
  · exact Or.inl h
  · right
    rw [mem_pyRange] at hi
    have hi0 : 0 ≤ i ∧ i + 1 < yi.n := by
      rcases getIminmax_spec yi with ⟨i1, i2, i3⟩ | ⟨i1, i2, i3, _⟩ <;> omega
    have hrd : yo.rd k = yo.rd j := by
      rw [Row.rd_nonneg yo h0, ← hk]; rfl
    have hin' : chIn yi yo i j := by unfold chIn at hin ⊢; rwa [hrd] at hin
    obtain ⟨a, b, c, ha, hb, hc, h1, h2⟩ := (chIn_iff yi yo hi0.1 h0).1 hin'
    refine ⟨i, a, b, c, ⟨hi0.1, hi0.2, a, b, ha, hb, h1, h2⟩, hc, ha, hb, ?_⟩
    unfold chRow
    rw [h]
    unfold chVal
    rw [hrd, Row.rd_nonneg yi hi0.1, Row.rd_nonneg yi (by omega : 0 ≤ i + 1), Row.rd_nonneg yo h0, ha, hb, hc]
    rfl

/-- `cubic1d`/`hermit1d` row: completeness for ascending coordinates. -/
theorem chRow_complete (yi yo : Row) (hyi : AscRow yi) (hyo : AscRow yo)
    (w : Int → Int → Int → V → V → V) (out : Int → V) (j : Int) (h0 : 0 ≤ j) (hn : j < yo.n)
    (c : ℚ) (hc : yo.get j = some c) (hbr : ∃ i, Brackets yi i c) :
    ∃ i a b, Brackets yi i c ∧ yi.get i = some a ∧ yi.get (i + 1) = some b ∧
      chRow yi yo w out j = w (getIminmax yi).1 (getIminmax yi).2 i (some (c - a)) (some (b - c)) := by
  obtain ⟨i, i0, i1, a, b, ha, hb, h1, h2⟩ := hbr
  have p1 := valid_in_iminmax yi i0 (by omega) (by rw [ha]; simp)
  have p2 := valid_in_iminmax yi (by omega : 0 ≤ i + 1) i1 (by rw [hb]; simp)
  have p3 := valid_in_iminmax yo h0 hn (by rw [hc]; simp)
  have hlast : ∀ k : Int, (getIminmax yo).2 < k → k < yo.n → yo.get k = none := by
    rcases getIminmax_spec yo with ⟨_, o2, _⟩ | ⟨_, _, _, _, _, _, h⟩
    · omega
    · exact h
  obtain ⟨i', b1, b2, b3, b4⟩ := chOuter_spec yi yo (w (getIminmax yi).1 (getIminmax yi).2) hyi hyo
    (getIminmax yo).2 (getIminmax yi).2 (by omega) p3.2.2.2 p1.2.2.2 hlast
    ((getIminmax yi).2 - (getIminmax yi).1).toNat (getIminmax yi).1 (getIminmax yo).1 out
    p1.2.2.1 (by omega) p3.2.2.1 (by omega) j p3.1 hn
    ⟨i, p1.1, by omega, (chIn_iff yi yo i0 h0).2 ⟨a, b, c, ha, hb, hc, h1, h2⟩⟩
  obtain ⟨a', b', c', ha', hb', hc', h1', h2'⟩ := (chIn_iff yi yo (by omega) h0).1 b3
  rw [hc] at hc'; cases hc'
  refine ⟨i', a', b', ⟨by omega, by omega, a', b', ha', hb', h1', h2'⟩, ha', hb', ?_⟩
  unfold chRow
  rw [b4]
  unfold chVal
  rw [Row.rd_nonneg yi (by omega : 0 ≤ i'), Row.rd_nonneg yi (by omega : 0 ≤ i' + 1), Row.rd_nonneg yo h0, ha', hb', hc]
  rfl

/-! ### Row loop -/

theorem rowLoop_notin (body) : ∀ (l : List Int) (varo : Int → Int → V) (ix : Int), ix ∉ l →
    rowLoop body l varo ix = varo ix := by
  intro l
  induction l with
  | nil => intros; rfl
  | cons a l ih =>
    intro varo ix h
    simp only [List.mem_cons, not_or] at h
    simp only [rowLoop, List.foldl_cons]
    have := ih (updRow varo a (body a (varo a))) ix h.2
    rw [rowLoop] at this
    rw [this]
    simp [updRow, h.1]

theorem rowLoop_in (body) : ∀ (l : List Int) (varo : Int → Int → V) (ix : Int), l.Nodup → ix ∈ l →
    rowLoop body l varo ix = body ix (varo ix) := by
  intro l
  induction l with
  | nil => intro _ _ _ h; simp at h
  | cons a l ih =>
    intro varo ix hnd h
    rw [List.nodup_cons] at hnd
    simp only [rowLoop, List.foldl_cons]
    by_cases hx : ix = a
    · subst hx
      have := rowLoop_notin body l (updRow varo ix (body ix (varo ix))) ix hnd.1
      rw [rowLoop] at this
      rw [this]; simp [updRow]
    · have hm : ix ∈ l := by
        rcases List.mem_cons.1 h with h | h
        · exact absurd h hx
        · exact h
      have := ih (updRow varo a (body a (varo a))) ix hnd.2 hm
      rw [rowLoop] at this
      rw [this]; simp [updRow, hx]

theorem pyRangeAux_nodup (a : Int) (n : Nat) : (pyRangeAux a n).Nodup := by
  induction n generalizing a with
  | zero => simp [pyRangeAux]
  | succ n ih =>
    simp only [pyRangeAux, List.nodup_cons]
    refine ⟨?_, ih _⟩
    rw [mem_pyRangeAux]
    omega

theorem pyRange_nodup (a b : Int) : (pyRange a b).Nodup := pyRangeAux_nodup _ _

theorem mkOut_row (vari yo : Mat) (body) (ix : Int) (h0 : 0 ≤ ix) (h1 : ix < max vari.nx yo.nx) :
    (mkOut vari yo body).get ix = body ix (fun _ => none) := by
  unfold mkOut
  simp only
  rw [rowLoop_in body _ _ ix (pyRange_nodup _ _)]
  · rfl
  · rw [mem_pyRange]; exact ⟨h0, h1⟩

theorem rowIdx_eq (n : Nat) (ix : Int) (h : 0 < n) : rowIdx n ix = ix % n := by
  unfold rowIdx
  have := Int.emod_lt_of_pos ix (by omega : (0:Int) < n)
  omega

end Xoa
