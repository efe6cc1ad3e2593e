import Verif.Interp1dLemmas2

/-! Locality lemmas: the routines read only in-bound elements of their rows. -/

namespace Xoa
open V

theorem Row.agree.rd {r r' : Row} (h : r.agree r') {i : Int} (h0 : 0 ≤ i) (hn : i < r.n) :
    r.rd i = r'.rd i := by
  rw [Row.rd_nonneg r h0, Row.rd_nonneg r' h0]; exact h.2 i h0 hn

theorem iminmaxLoop_congr (d d' : Row) (h : d.agree d') : ∀ (l : List Int),
    (∀ i ∈ l, 0 ≤ i ∧ i < d.n) → ∀ imin imax, iminmaxLoop d l imin imax = iminmaxLoop d' l imin imax := by
  intro l
  induction l with
  | nil => intros; rfl
  | cons a l ih =>
    intro hl imin imax
    have ha := hl a (by simp)
    simp only [iminmaxLoop]
    rw [h.rd ha.1 ha.2, h.rd (by omega : (0:Int) ≤ (d.n : Int) - 1 - a) (by omega), h.1]
    simp only [ih (fun i hi => hl i (by simp [hi]))]

theorem getIminmax_congr (d d' : Row) (h : d.agree d') : getIminmax d = getIminmax d' := by
  unfold getIminmax
  rw [← h.1]
  apply iminmaxLoop_congr d d' h
  intro i hi
  rw [mem_pyRange] at hi
  exact hi

theorem nlInner_congr (yi yi' yo yo' : Row) (w w') (i : Int) (hn : yo.n = yo'.n)
    (h0 : yi.rd i = yi'.rd i) (h1 : yi.rd (i + 1) = yi'.rd (i + 1))
    (hw : ∀ d0 d1, w i d0 d1 = w' i d0 d1) : ∀ (l : List Int), (∀ k ∈ l, yo.rd k = yo'.rd k) →
    ∀ m out, nlInner yi yo w i l m out = nlInner yi' yo' w' i l m out := by
  intro l
  induction l with
  | nil => intros; rfl
  | cons k l ih =>
    intro hl m out
    have ih' := ih (fun k hk => hl k (by simp [hk]))
    simp only [nlInner, hl k (by simp), h0, h1, hw, hn, ih']

/-- bound of the new `iyomin` -/
theorem nlInner_bound (yi yo : Row) (w) (i omax : Int)
    (hmax : ¬ lt (yo.rd omax) (yi.rd i) = true) :
    ∀ (l : List Int), (∀ k ∈ l, k ≤ omax) → ∀ lo m out, (∀ k ∈ l, lo ≤ k) → lo ≤ m → m ≤ omax →
    lo ≤ (nlInner yi yo w i l m out).1 ∧ (nlInner yi yo w i l m out).1 ≤ omax := by
  intro l
  induction l with
  | nil => intro _ lo m out _ h1 h2; exact ⟨h1, h2⟩
  | cons k l ih =>
    intro hl lo m out hlo h1 h2
    have ih' := ih (fun k hk => hl k (by simp [hk])) lo
    have hlo' : ∀ k ∈ l, lo ≤ k := fun k hk => hlo k (by simp [hk])
    have hk1 := hl k (by simp)
    have hk2 := hlo k (by simp)
    simp only [nlInner]
    split
    · exact ⟨h1, h2⟩
    · split
      · next hd =>
        apply ih' _ _ hlo' (by omega)
        have : k ≠ omax := by
          intro he
          apply hmax
          rw [he] at hd
          cases hyo : yo.rd omax <;> cases hyi : yi.rd i <;> rw [hyo, hyi] at hd <;> simp at hd ⊢
          linarith
        omega
      · split
        · exact ih' _ _ hlo' h1 h2
        · exact ih' _ _ hlo' h1 h2

theorem nlOuter_congr (yi yi' yo yo' : Row) (w w') (hn : yo.n = yo'.n) (omin omax imin imax : Int)
    (hyi : ∀ i, imin ≤ i → i ≤ imax → yi.rd i = yi'.rd i)
    (hyo : ∀ k, omin ≤ k → k ≤ omax → yo.rd k = yo'.rd k) (ho : omin ≤ omax)
    (hw : ∀ i d0 d1, imin ≤ i → i < imax → w i d0 d1 = w' i d0 d1) :
    ∀ (l : List Int), (∀ i ∈ l, imin ≤ i ∧ i < imax) → ∀ m out, omin ≤ m → m ≤ omax →
    nlOuter yi yo w omax l m out = nlOuter yi' yo' w' omax l m out := by
  intro l
  induction l with
  | nil => intros; rfl
  | cons i l ih =>
    intro hl m out h1 h2
    have ih' := ih (fun k hk => hl k (by simp [hk]))
    obtain ⟨ha, hb⟩ := hl i (by simp)
    simp only [nlOuter]
    rw [← hyi i ha (by omega), ← hyi (i + 1) (by omega) (by omega), ← hyo m h1 h2, ← hyo omax ho (le_refl _),
      ← nlInner_congr yi yi' yo yo' w w' i hn (hyi i ha (by omega)) (hyi (i + 1) (by omega) (by omega))
        (fun d0 d1 => hw i d0 d1 ha hb) _ (fun k hk => by
          rw [mem_pyRange] at hk; exact hyo k (by omega) (by omega))]
    split
    · exact ih' _ _ h1 h2
    · split
      · rfl
      · next hc =>
        obtain ⟨p, q⟩ := nlInner_bound yi yo w i omax hc (pyRange m (omax + 1))
          (fun k hk => by rw [mem_pyRange] at hk; omega) m m out
          (fun k hk => by rw [mem_pyRange] at hk; omega) (le_refl _) h2
        exact ih' _ _ (by omega) q

theorem nlRow_congr (yi yi' yo yo' : Row) (w w') (hi : yi.agree yi') (ho : yo.agree yo') (hpos : 0 < yo.n)
    (hw : ∀ (i : Int) d0 d1, 0 ≤ i → i + 1 < yi.n → w i d0 d1 = w' i d0 d1) (out : Int → V) :
    nlRow yi yo w out = nlRow yi' yo' w' out := by
  unfold nlRow
  rw [← getIminmax_congr yi yi' hi, ← getIminmax_congr yo yo' ho]
  simp only
  rcases getIminmax_spec yi with ⟨i1, i2, i3⟩ | ⟨i1, i2, i3, _⟩
  · rw [i1, i2, pyRange_nil (le_refl _)]; rfl
  · have hord : (getIminmax yo).1 ≤ (getIminmax yo).2 := by
      rcases getIminmax_spec yo with ⟨o1, o2, o3⟩ | ⟨o1, o2, o3, _⟩ <;> omega
    apply nlOuter_congr yi yi' yo yo' w w' ho.1 (getIminmax yo).1 (getIminmax yo).2
      (getIminmax yi).1 (getIminmax yi).2 _ _ hord _ _ (fun i h => by rwa [mem_pyRange] at h) _ _ (le_refl _) hord
    · intro i a b; exact hi.rd (by omega) (by omega)
    · intro k a b
      rcases getIminmax_spec yo with ⟨o1, o2, o3⟩ | ⟨o1, o2, o3, _⟩
      · have : k = -1 := by omega
        subst this
        unfold Row.rd wrapIdx
        rw [if_pos (by omega), if_pos (by omega), ← ho.1]
        exact ho.2 _ (by omega) (by omega)
      · exact ho.rd (by omega) (by omega)
    · intro i d0 d1 a b; exact hw i d0 d1 (by omega) (by omega)

theorem chInner_congr (yi yi' yo yo' : Row) (w w') (i : Int) (hn : yo.n = yo'.n)
    (h0 : yi.rd i = yi'.rd i) (h1 : yi.rd (i + 1) = yi'.rd (i + 1))
    (hw : ∀ d0 d1, w i d0 d1 = w' i d0 d1) : ∀ (l : List Int), (∀ k ∈ l, yo.rd k = yo'.rd k) →
    ∀ m out, chInner yi yo w i l m out = chInner yi' yo' w' i l m out := by
  intro l
  induction l with
  | nil => intros; rfl
  | cons k l ih =>
    intro hl m out
    have ih' := ih (fun k hk => hl k (by simp [hk]))
    simp only [chInner, hl k (by simp), h0, h1, hw, hn, ih']

theorem chInner_bound (yi yo : Row) (w) (i : Int) :
    ∀ (l : List Int) (lo hi m : Int) (out), (∀ k ∈ l, lo ≤ k ∧ k < hi) → lo ≤ m → m < hi →
    lo ≤ (chInner yi yo w i l m out).1 ∧ (chInner yi yo w i l m out).1 < hi := by
  intro l
  induction l with
  | nil => intro lo hi m out _ h1 h2; exact ⟨h1, h2⟩
  | cons k l ih =>
    intro lo hi m out hl h1 h2
    have hk := hl k (by simp)
    have hl' : ∀ k ∈ l, lo ≤ k ∧ k < hi := fun k hk => hl k (by simp [hk])
    simp only [chInner]
    split
    · exact ⟨h1, h2⟩
    · split
      · exact ih lo hi _ _ hl' hk.1 hk.2
      · exact ih lo hi _ _ hl' h1 h2

theorem chOuter_congr (yi yi' yo yo' : Row) (w w') (hn : yo.n = yo'.n) (omin omax imin imax : Int)
    (hyi : ∀ i, imin ≤ i → i ≤ imax → yi.rd i = yi'.rd i)
    (hyo : ∀ k : Int, omin ≤ k → k < yo.n → yo.rd k = yo'.rd k) (ho : omin ≤ omax) (ho2 : omax < yo.n)
    (hw : ∀ i d0 d1, imin ≤ i → i < imax → w i d0 d1 = w' i d0 d1) :
    ∀ (l : List Int), (∀ i ∈ l, imin ≤ i ∧ i < imax) → ∀ m out, omin ≤ m → m < yo.n →
    chOuter yi yo w omax l m out = chOuter yi' yo' w' omax l m out := by
  intro l
  induction l with
  | nil => intros; rfl
  | cons i l ih =>
    intro hl m out h1 h2
    have ih' := ih (fun k hk => hl k (by simp [hk]))
    obtain ⟨ha, hb⟩ := hl i (by simp)
    simp only [chOuter]
    rw [← hn, ← hyi i ha (by omega), ← hyi (i + 1) (by omega) (by omega), ← hyo m h1 h2, ← hyo omax ho ho2,
      ← chInner_congr yi yi' yo yo' w w' i hn (hyi i ha (by omega)) (hyi (i + 1) (by omega) (by omega))
        (fun d0 d1 => hw i d0 d1 ha hb) _ (fun k hk => by
          rw [mem_pyRange] at hk; exact hyo k (by omega) (by omega))]
    split
    · exact ih' _ _ h1 h2
    · split
      · rfl
      · obtain ⟨p, q⟩ := chInner_bound yi yo w i (pyRange m yo.n) m yo.n m out
          (fun k hk => by rw [mem_pyRange] at hk; omega) (le_refl _) h2
        exact ih' _ _ (by omega) q

theorem chRow_congr (yi yi' yo yo' : Row) (w w') (hi : yi.agree yi') (ho : yo.agree yo') (hpos : 0 < yo.n)
    (hw : ∀ (imin imax i : Int) d0 d1, 0 ≤ imin → imin ≤ i → i < imax → imax < yi.n →
      w imin imax i d0 d1 = w' imin imax i d0 d1) (out : Int → V) :
    chRow yi yo w out = chRow yi' yo' w' out := by
  unfold chRow
  rw [← getIminmax_congr yi yi' hi, ← getIminmax_congr yo yo' ho]
  simp only
  rcases getIminmax_spec yi with ⟨i1, i2, i3⟩ | ⟨i1, i2, i3, _⟩
  · rw [i1, i2, pyRange_nil (le_refl _)]; rfl
  · have hord : (getIminmax yo).1 ≤ (getIminmax yo).2 ∧ (getIminmax yo).2 < yo.n ∧ -1 ≤ (getIminmax yo).1 := by
      rcases getIminmax_spec yo with ⟨o1, o2, o3⟩ | ⟨o1, o2, o3, _⟩ <;> omega
    apply chOuter_congr yi yi' yo yo' _ _ ho.1 (getIminmax yo).1 (getIminmax yo).2
      (getIminmax yi).1 (getIminmax yi).2 _ _ hord.1 hord.2.1 _ _ (fun i h => by rwa [mem_pyRange] at h) _ _ (le_refl _)
      (by omega)
    · intro i a b; exact hi.rd (by omega) (by omega)
    · intro k a b
      by_cases hk : k = -1
      · subst hk
        unfold Row.rd wrapIdx
        rw [if_pos (by omega), if_pos (by omega), ← ho.1]
        exact ho.2 _ (by omega) (by omega)
      · exact ho.rd (by omega) (by omega)
    · intro i d0 d1 a b; exact hw _ _ i d0 d1 i1 a b i3

theorem cubicW_congr (v v' : Row) (n : Nat) (h : v.agree v') (hn : v.n = n)
    (imin imax i : Int) (d0 d1 : V) (h0 : 0 ≤ imin) (h1 : imin ≤ i) (h2 : i < imax) (h3 : imax < n) :
    cubicW v v imin imax i d0 d1 = cubicW v' v' imin imax i d0 d1 := by
  have e0 := h.rd (by omega : 0 ≤ i) (by omega)
  have e1 := h.rd (by omega : 0 ≤ i + 1) (by omega)
  have ec0 : vc0 v v imin i = vc0 v' v' imin i := by
    unfold vc0; rw [e0, e1]
    split
    · rfl
    · exact h.rd (by omega) (by omega)
  have ec1 : vc1 v imax i = vc1 v' imax i := by
    unfold vc1; rw [e0, e1]
    split
    · rfl
    · exact h.rd (by omega) (by omega)
  unfold cubicW
  rw [e0, e1, ec0, ec1]

theorem hermitW_congr (bias tension : ℚ) (v v' : Row) (n : Nat) (h : v.agree v') (hn : v.n = n)
    (imin imax i : Int) (d0 d1 : V) (h0 : 0 ≤ imin) (h1 : imin ≤ i) (h2 : i < imax) (h3 : imax < n) :
    hermitW bias tension v v imin imax i d0 d1 = hermitW bias tension v' v' imin imax i d0 d1 := by
  have e0 := h.rd (by omega : 0 ≤ i) (by omega)
  have e1 := h.rd (by omega : 0 ≤ i + 1) (by omega)
  have ec0 : vc0 v v imin i = vc0 v' v' imin i := by
    unfold vc0; rw [e0, e1]
    split
    · rfl
    · exact h.rd (by omega) (by omega)
  have ec1 : vc1 v imax i = vc1 v' imax i := by
    unfold vc1; rw [e0, e1]
    split
    · rfl
    · exact h.rd (by omega) (by omega)
  unfold hermitW
  rw [e0, e1, ec0, ec1]

end Xoa
