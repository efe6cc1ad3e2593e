import Verif.Interp1dLemmas2

/-!
# C07: schedule independence of the parallel row loops

A parallel run of `for ix in numba.prange(nx)` is modelled at the granularity of single
memory writes: a run is a list of events, in the order in which they reach memory.  The
event `⟨row, col, val⟩` is one store `varo[row, col] = val` where `val` is computed from
the content of row `row` at that time (needed by `extrap1d` only).  A run is *admissible*
when, for every iteration `ix`, the events of `ix` occur in the program order of the body;
nothing is assumed on how events of different iterations are interleaved.

`…Trace` below are the stores of one iteration of each routine, in program order; the
theorems `…_trace` tie them to the sequential bodies of `Verif/Interp1d.lean`.
-/

namespace Xoa
open V

/-- one store -/
structure Ev where
  row : Int
  col : Int
  val : (Int → V) → V

/-- effect of one store on the memory of `varo` -/
def Ev.step (m : Int → Int → V) (e : Ev) : Int → Int → V :=
  fun i j => if i = e.row ∧ j = e.col then e.val (m e.row) else m i j

/-- effect of a run -/
def runEv (m : Int → Int → V) (l : List Ev) : Int → Int → V := l.foldl Ev.step m

/-- effect of stores on one row -/
def runRow (r : Int → V) (l : List Ev) : Int → V :=
  l.foldl (fun r e j => if j = e.col then e.val r else r j) r

/-- a run row by row: whatever the interleaving, row `ix` only sees its own stores -/
theorem runEv_row (l : List Ev) : ∀ (m : Int → Int → V) (ix : Int),
    runEv m l ix = runRow (m ix) (l.filter (fun e => e.row = ix)) := by
  induction l with
  | nil => intro m ix; rfl
  | cons e l ih =>
    intro m ix
    unfold runEv at *
    rw [List.foldl_cons, ih (e.step m) ix]
    by_cases h : e.row = ix
    · rw [List.filter_cons_of_pos (by simpa using h)]
      unfold runRow
      rw [List.foldl_cons]
      congr 1
      funext j
      simp [Ev.step, h]
    · rw [List.filter_cons_of_neg (by simpa using h)]
      congr 1
      funext j
      simp [Ev.step, Ne.symm h]

/-- a store at a numba index (negative indices wrap) of a value that does not depend on `varo` -/
def st (ix : Int) (n : Nat) (iyo : Int) (v : V) : Ev := ⟨ix, wrapIdx n iyo, fun _ => v⟩

theorem runRow_append (r : Int → V) (l l' : List Ev) : runRow r (l ++ l') = runRow (runRow r l) l' := by
  unfold runRow; rw [List.foldl_append]

theorem runRow_st (r : Int → V) (ix : Int) (n : Nat) (iyo : Int) (v : V) (l : List Ev) :
    runRow r (st ix n iyo v :: l) = runRow (wr1 n r iyo v) l := rfl

/-! ### stores of `nearest1d` / `linear1d` -/

/-- `(iyomin, stores)` of the inner loop, xoa/interp.py:103-120, 175-193 -/
def nlInnerT (ix : Int) (yi yo : Row) (w : Int → V → V → Option V) (iyi : Int) : List Int → Int → Int × List Ev
  | [], iyomin => (iyomin, [])
  | iyo :: rest, iyomin =>
    let dy0 := sub (yo.rd iyo) (yi.rd iyi)
    let dy1 := sub (yi.rd (iyi + 1)) (yo.rd iyo)
    if lt dy1 (some 0) then (iyomin, [])
    else if lt dy0 (some 0) then nlInnerT ix yi yo w iyi rest (iyo + 1)
    else match w iyi dy0 dy1 with
      | some v => ((nlInnerT ix yi yo w iyi rest iyomin).1, st ix yo.n iyo v :: (nlInnerT ix yi yo w iyi rest iyomin).2)
      | none => nlInnerT ix yi yo w iyi rest iyomin

/-- stores of the outer loop, xoa/interp.py:94-120, 166-193 -/
def nlOuterT (ix : Int) (yi yo : Row) (w : Int → V → V → Option V) (iyomax : Int) : List Int → Int → List Ev
  | [], _ => []
  | iyi :: rest, iyomin =>
    if lt (yi.rd (iyi + 1)) (yo.rd iyomin) then nlOuterT ix yi yo w iyomax rest iyomin
    else if lt (yo.rd iyomax) (yi.rd iyi) then []
    else
      let r := nlInnerT ix yi yo w iyi (pyRange iyomin (iyomax + 1)) iyomin
      r.2 ++ nlOuterT ix yi yo w iyomax rest r.1

/-- stores of one iteration of the row loop, xoa/interp.py:84-120, 156-193 -/
def nlTrace (ix : Int) (yi yo : Row) (w : Int → V → V → Option V) : List Ev :=
  nlOuterT ix yi yo w (getIminmax yo).2 (pyRange (getIminmax yi).1 (getIminmax yi).2) (getIminmax yo).1

theorem nlInner_trace (ix : Int) (yi yo : Row) (w) (iyi : Int) : ∀ (l : List Int) (iyomin : Int) (out : Int → V),
    nlInner yi yo w iyi l iyomin out =
      ((nlInnerT ix yi yo w iyi l iyomin).1, runRow out (nlInnerT ix yi yo w iyi l iyomin).2) := by
  intro l
  induction l with
  | nil => intro _ _; rfl
  | cons iyo l ih =>
    intro iyomin out
    simp only [nlInner, nlInnerT]
    split
    · rfl
    · split
      · exact ih _ _
      · cases w iyi (sub (yo.rd iyo) (yi.rd iyi)) (sub (yi.rd (iyi + 1)) (yo.rd iyo)) with
        | some v => simp only; rw [ih]; rfl
        | none => exact ih _ _

theorem nlOuter_trace (ix : Int) (yi yo : Row) (w) (iyomax : Int) : ∀ (l : List Int) (iyomin : Int) (out : Int → V),
    nlOuter yi yo w iyomax l iyomin out = runRow out (nlOuterT ix yi yo w iyomax l iyomin) := by
  intro l
  induction l with
  | nil => intro _ _; rfl
  | cons iyi l ih =>
    intro iyomin out
    simp only [nlOuter, nlOuterT]
    split
    · exact ih _ _
    · split
      · rfl
      · rw [nlInner_trace ix]; simp only
        rw [ih, runRow_append]

theorem nlRow_trace (ix : Int) (yi yo : Row) (w) (out : Int → V) :
    nlRow yi yo w out = runRow out (nlTrace ix yi yo w) := nlOuter_trace ix yi yo w _ _ _ _

/-! ### stores of `cubic1d` / `hermit1d` -/

/-- xoa/interp.py:258-290, 347-389 -/
def chInnerT (ix : Int) (yi yo : Row) (w : Int → V → V → V) (iyi : Int) : List Int → Int → Int × List Ev
  | [], iyomin => (iyomin, [])
  | iyo :: rest, iyomin =>
    let dy0 := sub (yo.rd iyo) (yi.rd iyi)
    let dy1 := sub (yi.rd (iyi + 1)) (yo.rd iyo)
    if lt dy1 (some 0) then (iyomin, [])
    else if le (some 0) dy0 && le (some 0) dy1 then
      ((chInnerT ix yi yo w iyi rest iyo).1, st ix yo.n iyo (w iyi dy0 dy1) :: (chInnerT ix yi yo w iyi rest iyo).2)
    else chInnerT ix yi yo w iyi rest iyomin

/-- xoa/interp.py:249-290, 338-389 -/
def chOuterT (ix : Int) (yi yo : Row) (w : Int → V → V → V) (iyomax : Int) : List Int → Int → List Ev
  | [], _ => []
  | iyi :: rest, iyomin =>
    if lt (yi.rd (iyi + 1)) (yo.rd iyomin) then chOuterT ix yi yo w iyomax rest iyomin
    else if lt (yo.rd iyomax) (yi.rd iyi) then []
    else
      let r := chInnerT ix yi yo w iyi (pyRange iyomin yo.n) iyomin
      r.2 ++ chOuterT ix yi yo w iyomax rest r.1

/-- stores of one iteration of the row loop of `cubic1d`/`hermit1d` -/
def chTrace (ix : Int) (yi yo : Row) (w : Int → Int → Int → V → V → V) : List Ev :=
  chOuterT ix yi yo (w (getIminmax yi).1 (getIminmax yi).2) (getIminmax yo).2
    (pyRange (getIminmax yi).1 (getIminmax yi).2) (getIminmax yo).1

theorem chInner_trace (ix : Int) (yi yo : Row) (w) (iyi : Int) : ∀ (l : List Int) (iyomin : Int) (out : Int → V),
    chInner yi yo w iyi l iyomin out =
      ((chInnerT ix yi yo w iyi l iyomin).1, runRow out (chInnerT ix yi yo w iyi l iyomin).2) := by
  intro l
  induction l with
  | nil => intro _ _; rfl
  | cons iyo l ih =>
    intro iyomin out
    simp only [chInner, chInnerT]
    split
    · rfl
    · split
      · rw [ih]; rfl
      · exact ih _ _

theorem chOuter_trace (ix : Int) (yi yo : Row) (w) (iyomax : Int) : ∀ (l : List Int) (iyomin : Int) (out : Int → V),
    chOuter yi yo w iyomax l iyomin out = runRow out (chOuterT ix yi yo w iyomax l iyomin) := by
  intro l
  induction l with
  | nil => intro _ _; rfl
  | cons iyi l ih =>
    intro iyomin out
    simp only [chOuter, chOuterT]
    split
    · exact ih _ _
    · split
      · rfl
      · rw [chInner_trace ix]; simp only
        rw [ih, runRow_append]

theorem chRow_trace (ix : Int) (yi yo : Row) (w) (out : Int → V) :
    chRow yi yo w out = runRow out (chTrace ix yi yo w) := chOuter_trace ix yi yo _ _ _ _ _

/-! ### stores of `extrap1d` -/

/-- stores of one iteration of `extrap1d`, xoa/interp.py:416-423: the slice assignments
store `varo[ix, iybot]` (then `varo[ix, iytop]`) one element at a time. -/
def extrapTrace (ix : Int) (mode : Extrap) (v : Row) : List Ev :=
  let r := getIminmax v
  if r.1 = -1 then []
  else
    (if mode = .both ∨ mode = .bottom then (pyRange 0 r.1).map (fun j => ⟨ix, j, fun row => row r.1⟩) else []) ++
    (if mode = .both ∨ mode = .top then (pyRange (r.2 + 1) v.n).map (fun j => ⟨ix, j, fun row => row r.2⟩) else [])

theorem runRow_fill (ix : Int) (src : Int) : ∀ (l : List Int), src ∉ l → ∀ (r : Int → V),
    runRow r (l.map (fun j => (⟨ix, j, fun row => row src⟩ : Ev))) = fun j => if j ∈ l then r src else r j := by
  intro l
  induction l with
  | nil => intro _ r; simp [runRow]
  | cons a l ih =>
    intro h r
    simp only [List.mem_cons, not_or] at h
    rw [List.map_cons]
    have hstep : runRow r ((⟨ix, a, fun row => row src⟩ : Ev) :: l.map (fun j => (⟨ix, j, fun row => row src⟩ : Ev)))
      = runRow (fun j => if j = a then r src else r j) (l.map (fun j => (⟨ix, j, fun row => row src⟩ : Ev))) := rfl
    rw [hstep, ih h.2]
    funext j
    simp only [h.1, if_false, List.mem_cons]
    by_cases h1 : j ∈ l <;> by_cases h2 : j = a <;> simp [h1, h2]

theorem extrapRow_trace (ix : Int) (mode : Extrap) (v : Row) (out : Int → V) :
    extrapRow mode v out = runRow out (extrapTrace ix mode v) := by
  unfold extrapRow extrapTrace
  simp only
  generalize getIminmax v = r
  split
  · rfl
  · rw [runRow_append]
    have h1 : (if mode = .both ∨ mode = .bottom then
          (fun i => if 0 ≤ i ∧ i < r.1 then out r.1 else out i) else out) =
        runRow out (if mode = .both ∨ mode = .bottom then
          (pyRange 0 r.1).map (fun j => (⟨ix, j, fun row => row r.1⟩ : Ev)) else []) := by
      split
      · rw [runRow_fill _ _ _ (by rw [mem_pyRange]; omega)]
        funext j; simp only [mem_pyRange]
      · rfl
    rw [← h1]
    generalize (if mode = .both ∨ mode = .bottom then
          (fun i => if 0 ≤ i ∧ i < r.1 then out r.1 else out i) else out) = out'
    split
    · rw [runRow_fill _ _ _ (by rw [mem_pyRange]; omega)]
      funext j; simp only [mem_pyRange]
    · rfl

/-! ### C07 -/

/-- `run` is an admissible interleaving of the iterations `0 … nx-1`: the events of each
iteration appear in its program order `prog ix`, and every event belongs to an iteration. -/
def Interleaving (nx : Nat) (prog : Int → List Ev) (run : List Ev) : Prop :=
  (∀ e ∈ run, 0 ≤ e.row ∧ e.row < nx) ∧
  ∀ ix : Int, 0 ≤ ix → ix < nx → run.filter (fun e => e.row = ix) = prog ix

/-- program order of the iterations of each routine -/
def nearestProg (vari yi yo : Mat) (ix : Int) : List Ev :=
  nlTrace ix (yi.row (rowIdx yi.nx ix)) (yo.row (rowIdx yo.nx ix)) (nearestW (vari.row (rowIdx vari.nx ix)))
/-- see `nearestProg` -/
def linearProg (vari yi yo : Mat) (ix : Int) : List Ev :=
  nlTrace ix (yi.row (rowIdx yi.nx ix)) (yo.row (rowIdx yo.nx ix)) (linearW (vari.row (rowIdx vari.nx ix)))
/-- see `nearestProg` -/
def cubicProg (vari yi yo : Mat) (ix : Int) : List Ev :=
  chTrace ix (yi.row (rowIdx yi.nx ix)) (yo.row (rowIdx yo.nx ix)) (cubicW (vari.row ix) (vari.row (rowIdx vari.nx ix)))
/-- see `nearestProg` -/
def hermitProg (bias tension : ℚ) (vari yi yo : Mat) (ix : Int) : List Ev :=
  chTrace ix (yi.row (rowIdx yi.nx ix)) (yo.row (rowIdx yo.nx ix))
    (hermitW bias tension (vari.row ix) (vari.row (rowIdx vari.nx ix)))
/-- see `nearestProg` -/
def extrapProg (mode : Extrap) (vari : Mat) (ix : Int) : List Ev := extrapTrace ix mode (vari.row ix)

/-- every parallel run ends with the sequential result, for any row bodies -/
theorem interleaving_mkOut (vari yo : Mat) (body : Int → (Int → V) → (Int → V)) (prog : Int → List Ev)
    (hb : ∀ ix out, body ix out = runRow out (prog ix)) (run : List Ev)
    (h : Interleaving (max vari.nx yo.nx) prog run) (ix j : Int) (h0 : 0 ≤ ix) (h1 : ix < max vari.nx yo.nx) :
    runEv nanMat run ix j = (mkOut vari yo body).get ix j := by
  rw [mkOut_row vari yo body ix h0 h1, runEv_row, h.2 ix h0 h1, hb]
  rfl

/-- **C07** for `nearest1d` -/
theorem C07_nearest1d (vari yi yo : Mat) (run : List Ev)
    (h : Interleaving (max vari.nx yo.nx) (nearestProg vari yi yo) run) (ix j : Int)
    (h0 : 0 ≤ ix) (h1 : ix < max vari.nx yo.nx) :
    runEv nanMat run ix j = (nearest1d vari yi yo).get ix j :=
  interleaving_mkOut vari yo (nearestBody vari yi yo) (nearestProg vari yi yo) (fun ix out => nlRow_trace ix _ _ _ out) run h ix j h0 h1

/-- **C07** for `linear1d` -/
theorem C07_linear1d (vari yi yo : Mat) (run : List Ev)
    (h : Interleaving (max vari.nx yo.nx) (linearProg vari yi yo) run) (ix j : Int)
    (h0 : 0 ≤ ix) (h1 : ix < max vari.nx yo.nx) :
    runEv nanMat run ix j = (linear1d vari yi yo).get ix j :=
  interleaving_mkOut vari yo (linearBody vari yi yo) (linearProg vari yi yo) (fun ix out => nlRow_trace ix _ _ _ out) run h ix j h0 h1

/-- **C07** for `cubic1d` -/
theorem C07_cubic1d (vari yi yo : Mat) (run : List Ev)
    (h : Interleaving (max vari.nx yo.nx) (cubicProg vari yi yo) run) (ix j : Int)
    (h0 : 0 ≤ ix) (h1 : ix < max vari.nx yo.nx) :
    runEv nanMat run ix j = (cubic1d vari yi yo).get ix j :=
  interleaving_mkOut vari yo (cubicBody vari yi yo) (cubicProg vari yi yo) (fun ix out => chRow_trace ix _ _ _ out) run h ix j h0 h1

/-- **C07** for `hermit1d` -/
theorem C07_hermit1d (bias tension : ℚ) (vari yi yo : Mat) (run : List Ev)
    (h : Interleaving (max vari.nx yo.nx) (hermitProg bias tension vari yi yo) run) (ix j : Int)
    (h0 : 0 ≤ ix) (h1 : ix < max vari.nx yo.nx) :
    runEv nanMat run ix j = (hermit1d vari yi yo bias tension).get ix j :=
  interleaving_mkOut vari yo (hermitBody bias tension vari yi yo) (hermitProg bias tension vari yi yo) (fun ix out => chRow_trace ix _ _ _ out) run h ix j h0 h1

/-- **C07** for `extrap1d` -/
theorem C07_extrap1d (mode : Extrap) (vari : Mat) (hm : mode ≠ .no) (run : List Ev)
    (h : Interleaving vari.nx (extrapProg mode vari) run) (ix j : Int)
    (h0 : 0 ≤ ix) (h1 : ix < vari.nx) :
    runEv vari.get run ix j = (extrap1d vari mode).get ix j := by
  unfold extrap1d
  rw [if_neg hm]
  simp only
  rw [rowLoop_in _ _ _ ix (pyRange_nodup _ _) (by rw [mem_pyRange]; exact ⟨h0, h1⟩), runEv_row, h.2 ix h0 h1,
    extrapRow_trace ix]
  rfl

/-- **C07**, coarse form: any order of the whole iterations gives the same array. -/
theorem C07_row_order (vari yo : Mat) (body : Int → (Int → V) → (Int → V)) (sched : List Int)
    (hp : sched.Perm (pyRange 0 (max vari.nx yo.nx : Nat))) :
    rowLoop body sched nanMat = (mkOut vari yo body).get := by
  unfold mkOut
  simp only
  funext ix
  have hnd := pyRange_nodup 0 (max vari.nx yo.nx : Nat)
  by_cases hx : ix ∈ pyRange 0 (max vari.nx yo.nx : Nat)
  · rw [rowLoop_in body _ _ ix (hp.nodup_iff.2 hnd) (hp.mem_iff.2 hx), rowLoop_in body _ _ ix hnd hx]
  · rw [rowLoop_notin body _ _ ix (fun h => hx (hp.mem_iff.1 h)), rowLoop_notin body _ _ ix hx]

/-- any two admissible runs of a routine agree on the whole output -/
theorem C07_runs_agree (nx : Nat) (prog : Int → List Ev) (m : Int → Int → V) (run run' : List Ev)
    (h : Interleaving nx prog run) (h' : Interleaving nx prog run') : runEv m run = runEv m run' := by
  funext ix
  rw [runEv_row, runEv_row]
  by_cases hx : 0 ≤ ix ∧ ix < nx
  · rw [h.2 ix hx.1 hx.2, h'.2 ix hx.1 hx.2]
  · have e : ∀ r : List Ev, (∀ e ∈ r, 0 ≤ e.row ∧ e.row < nx) → r.filter (fun e => e.row = ix) = [] := by
      intro r hr
      rw [List.filter_eq_nil_iff]
      intro e he
      have := hr e he
      simp; intro hc; rw [hc] at this; exact hx this
    rw [e run h.1, e run' h'.1]

/-! ### admissible runs exist, and do interleave -/

theorem nlInnerT_rows (ix : Int) (yi yo : Row) (w) (iyi : Int) : ∀ (l : List Int) (iyomin : Int),
    ∀ e ∈ (nlInnerT ix yi yo w iyi l iyomin).2, e.row = ix := by
  intro l
  induction l with
  | nil => intro _ e he; simp [nlInnerT] at he
  | cons iyo l ih =>
    intro iyomin e he
    simp only [nlInnerT] at he
    split at he
    · simp at he
    · split at he
      · exact ih _ e he
      · cases hw : w iyi (sub (yo.rd iyo) (yi.rd iyi)) (sub (yi.rd (iyi + 1)) (yo.rd iyo)) with
        | some v =>
          rw [hw] at he
          simp only [List.mem_cons] at he
          rcases he with h | h
          · rw [h]; rfl
          · exact ih _ e h
        | none => rw [hw] at he; exact ih _ e he

theorem nlOuterT_rows (ix : Int) (yi yo : Row) (w) (iyomax : Int) : ∀ (l : List Int) (iyomin : Int),
    ∀ e ∈ nlOuterT ix yi yo w iyomax l iyomin, e.row = ix := by
  intro l
  induction l with
  | nil => intro _ e he; simp [nlOuterT] at he
  | cons iyi l ih =>
    intro iyomin e he
    simp only [nlOuterT] at he
    split at he
    · exact ih _ e he
    · split at he
      · simp at he
      · rw [List.mem_append] at he
        rcases he with h | h
        · exact nlInnerT_rows ix yi yo w iyi _ _ e h
        · exact ih _ e h

theorem linearProg_rows (vari yi yo : Mat) (ix : Int) : ∀ e ∈ linearProg vari yi yo ix, e.row = ix :=
  nlOuterT_rows ix _ _ _ _ _ _

/-- two rows of two points -/
def exSchedVar : Mat := Mat.ofLists [[some 1, some 2], [some 3, some 5]]
def exSchedY : Mat := Mat.ofLists [[some 0, some 1]]
def exSchedYo : Mat := Mat.ofLists [[some (1/4), some (3/4)]]

/-- a run in which row 1 starts, then row 0 is completed, then row 1 is completed -/
def exSchedRun : List Ev :=
  let p := linearProg exSchedVar exSchedY exSchedYo
  (p 1).take 1 ++ p 0 ++ (p 1).drop 1

-- each row stores twice
example : (linearProg exSchedVar exSchedY exSchedYo 0).length = 2 ∧
    (linearProg exSchedVar exSchedY exSchedYo 1).length = 2 := by decide +kernel

example : Interleaving (max exSchedVar.nx exSchedYo.nx) (linearProg exSchedVar exSchedY exSchedYo) exSchedRun := by
  have hr := linearProg_rows exSchedVar exSchedY exSchedYo
  have hnx : max exSchedVar.nx exSchedYo.nx = 2 := by decide
  have ht : ∀ e ∈ (linearProg exSchedVar exSchedY exSchedYo 1).take 1, e.row = 1 :=
    fun e he => hr 1 e (List.mem_of_mem_take he)
  have hd : ∀ e ∈ (linearProg exSchedVar exSchedY exSchedYo 1).drop 1, e.row = 1 :=
    fun e he => hr 1 e (List.mem_of_mem_drop he)
  have hall : ∀ (l : List Ev) (a : Int), (∀ e ∈ l, e.row = a) → l.filter (fun e => e.row = a) = l := by
    intro l a h; rw [List.filter_eq_self]; intro e he; simp [h e he]
  have hnone : ∀ (l : List Ev) (a b : Int), a ≠ b → (∀ e ∈ l, e.row = a) → l.filter (fun e => e.row = b) = [] := by
    intro l a b hab h; rw [List.filter_eq_nil_iff]; intro e he; simp [h e he, hab]
  constructor
  · intro e he
    rw [hnx]
    unfold exSchedRun at he
    simp only [List.mem_append] at he
    rcases he with (h | h) | h
    · rw [ht e h]; decide
    · rw [hr 0 e h]; decide
    · rw [hd e h]; decide
  · intro ix h0 h1
    rw [hnx] at h1
    have hx : ix = 0 ∨ ix = 1 := by omega
    unfold exSchedRun
    simp only [List.filter_append]
    rcases hx with h | h <;> subst h
    · rw [hnone _ 1 0 (by decide) ht, hall _ 0 (hr 0), hnone _ 1 0 (by decide) hd]; simp
    · rw [hall _ 1 ht, hnone _ 0 1 (by decide) (hr 0), hall _ 1 hd, List.append_nil, List.take_append_drop]

end Xoa
