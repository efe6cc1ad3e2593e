import Verif.CfThreads

/-! # C218: CF specifications and threads -/

namespace Xoa

/-- the specifications of the innermost context, else those of the start -/
def innermost (x : Nat) (ctx : List Nat) : Nat := ctx.headD x

/-- the contexts are nested in each other: each one has saved the specifications of the one around it -/
def nestedIn (x : Nat) : List (Nat × Option Nat) → Prop
  | [] => True
  | (_, old) :: rest => old = some (innermost x (rest.map (fun p : Nat × Option Nat => p.1))) ∧ nestedIn x rest

/-- the point of a thread that only reads -/
def CfThr.reader (y : CfThr) : Prop := y.op = .get ∧ y.saved = [] ∧ (y.at_ = .idle ∨ y.at_ = .check1 ∨ y.at_ = .read)

/-- the point of the thread that uses contexts -/
def CfThr.user (cur : Nat) (y : CfThr) : Prop :=
  y.at_ = .idle ∨ (y.op = .get ∧ (y.at_ = .check1 ∨ y.at_ = .read)) ∨ (∃ obj, y.op = .enter obj ∧ (y.at_ = .old obj ∨ y.at_ = .store obj (some cur))) ∨ (y.op = .exit ∧ y.at_ = .exit)

structure InvS (t x : Nat) (objs : Nat → Prop) (s : CfSys) : Prop where
  /-- the specifications in force are those of the innermost context of `t` -/
  specs : s.specs = some (innermost x ((s.threads t).saved.map (fun p : Nat × Option Nat => p.1)))
  nested : nestedIn x (s.threads t).saved
  entered : ∀ p ∈ (s.threads t).saved, objs p.1
  pending : ∀ obj, (s.threads t).op = .enter obj → objs obj
  mine : (s.threads t).user (innermost x ((s.threads t).saved.map (fun p : Nat × Option Nat => p.1)))
  others : ∀ u, u ≠ t → (s.threads u).reader
  log : ∀ o ∈ s.log, o.result ≠ .keyError ∧ (o.op = .get → ∃ y, o.result = .got y ∧ (y = x ∨ objs y) ∧ (o.thread = t → y = innermost x o.ctx))

theorem innermost_mem (x : Nat) (objs : Nat → Prop) (l : List (Nat × Option Nat)) (h : ∀ p ∈ l, objs p.1) :
    innermost x (l.map (fun p : Nat × Option Nat => p.1)) = x ∨ objs (innermost x (l.map (fun p : Nat × Option Nat => p.1))) := by
  cases l with
  | nil => exact Or.inl rfl
  | cons p l => exact Or.inr (h p List.mem_cons_self)

theorem InvS.step {t x : Nat} {objs : Nat → Prop} {s : CfSys} (h : InvS t x objs s) (e : CfEv)
    (he : ∀ u op, e = .call u op → op = .get ∨ (u = t ∧ (op = .exit ∨ ∃ obj, op = .enter obj ∧ objs obj))) : InvS t x objs (cftStep e s) := by
  cases e with
  | call u op =>
    unfold cftStep
    dsimp only
    split
    · rename_i hi
      by_cases hu : u = t
      · subst hu
        refine ⟨?_, ?_, ?_, ?_, ?_, ?_, h.log⟩
        · simpa [CfSys.setThr] using h.specs
        · simpa [CfSys.setThr] using h.nested
        · simpa [CfSys.setThr] using h.entered
        · intro obj ho
          simp only [CfSys.setThr, if_true] at ho
          rcases he u op rfl with rfl | ⟨_, rfl | ⟨obj', rfl, hobj⟩⟩
          · cases ho
          · cases ho
          · cases ho; exact hobj
        · simp only [CfSys.setThr, if_true]
          rcases he u op rfl with rfl | ⟨_, rfl | ⟨obj', rfl, hobj⟩⟩
          · exact Or.inr (Or.inl ⟨rfl, Or.inl rfl⟩)
          · exact Or.inr (Or.inr (Or.inr ⟨rfl, rfl⟩))
          · exact Or.inr (Or.inr (Or.inl ⟨obj', rfl, Or.inl rfl⟩))
        · intro v hv
          simp only [CfSys.setThr, if_neg hv]; exact h.others v hv
      · have ht : t ≠ u := fun e => hu e.symm
        rcases he u op rfl with rfl | ⟨e, _⟩
        · refine ⟨?_, ?_, ?_, ?_, ?_, ?_, h.log⟩
          · simpa [CfSys.setThr, ht] using h.specs
          · simpa [CfSys.setThr, ht] using h.nested
          · simpa [CfSys.setThr, ht] using h.entered
          · simpa [CfSys.setThr, ht] using h.pending
          · simpa [CfSys.setThr, ht] using h.mine
          · intro v hv
            by_cases hvu : v = u
            · subst hvu
              simp only [CfSys.setThr, if_true]
              exact ⟨rfl, (h.others v hv).2.1, Or.inr (Or.inl rfl)⟩
            · simp only [CfSys.setThr, if_neg hvu]; exact h.others v hv
        · exact absurd e hu
    · exact h
  | run u =>
    by_cases hu : u = t
    · subst hu
      have hm := h.mine
      have goto : ∀ p : CfPoint, (CfThr.user (innermost x ((s.threads u).saved.map (fun p : Nat × Option Nat => p.1))) ⟨(s.threads u).op, p, (s.threads u).saved⟩) → InvS u x objs (s.goto u p) := by
        intro p hp
        refine ⟨?_, ?_, ?_, ?_, ?_, ?_, h.log⟩
        · simpa [CfSys.goto, CfSys.setThr] using h.specs
        · simpa [CfSys.goto, CfSys.setThr] using h.nested
        · simpa [CfSys.goto, CfSys.setThr] using h.entered
        · simpa [CfSys.goto, CfSys.setThr] using h.pending
        · simpa [CfSys.goto, CfSys.setThr] using hp
        · intro v hv
          simp only [CfSys.goto, CfSys.setThr, if_neg hv]; exact h.others v hv
      rcases hm with hat | ⟨hop, hat | hat⟩ | ⟨obj, hop, hat | hat⟩ | ⟨hop, hat⟩
      · unfold cftStep cftRun; dsimp only; rw [hat]; exact h
      · unfold cftStep cftRun; dsimp only; rw [hat]; dsimp only; rw [h.specs]
        exact goto _ (Or.inr (Or.inl ⟨hop, Or.inr rfl⟩))
      · have e : cftStep (.run u) s = s.ret u (.got (innermost x ((s.threads u).saved.map (fun p : Nat × Option Nat => p.1)))) := by
          unfold cftStep cftRun; dsimp only; rw [hat]; dsimp only; rw [h.specs]
        rw [e]
        have g := goto .idle (Or.inl rfl)
        refine ⟨g.specs, g.nested, g.entered, g.pending, g.mine, g.others, ?_⟩
        intro o ho
        rcases List.mem_append.1 ho with ho | ho
        · exact h.log o ho
        · rw [List.mem_singleton] at ho; subst ho
          exact ⟨by simp, fun _ => ⟨_, rfl, innermost_mem x objs _ h.entered, fun _ => rfl⟩⟩
      · have e : cftStep (.run u) s = s.goto u (.store obj (some (innermost x ((s.threads u).saved.map (fun p : Nat × Option Nat => p.1))))) := by
          unfold cftStep cftRun; dsimp only; rw [hat]; dsimp only; rw [h.specs]
        rw [e]
        exact goto _ (Or.inr (Or.inr (Or.inl ⟨obj, hop, Or.inr rfl⟩)))
      · have e : cftStep (.run u) s = ({ s with specs := some obj }.setThr u ⟨(s.threads u).op, .idle, (obj, some (innermost x ((s.threads u).saved.map (fun p : Nat × Option Nat => p.1)))) :: (s.threads u).saved⟩).ret u .done := by
          unfold cftStep cftRun; dsimp only; rw [hat]
        rw [e]
        refine ⟨?_, ?_, ?_, ?_, ?_, ?_, ?_⟩
        · simp [CfSys.ret, CfSys.goto, CfSys.setThr, innermost]
        · simp only [CfSys.ret, CfSys.goto, CfSys.setThr, if_true]
          exact ⟨rfl, h.nested⟩
        · simp only [CfSys.ret, CfSys.goto, CfSys.setThr, if_true]
          intro p hp
          rcases List.mem_cons.1 hp with rfl | hp
          · exact h.pending obj hop
          · exact h.entered p hp
        · simpa [CfSys.ret, CfSys.goto, CfSys.setThr] using h.pending
        · left; simp [CfSys.ret, CfSys.goto, CfSys.setThr]
        · intro v hv
          simp only [CfSys.ret, CfSys.goto, CfSys.setThr, if_neg hv]; exact h.others v hv
        · intro o ho
          rcases List.mem_append.1 ho with ho | ho
          · exact h.log o ho
          · rw [List.mem_singleton] at ho; subst ho
            refine ⟨by simp, fun hg => ?_⟩
            simp [CfSys.setThr, hop] at hg
      · have hn := h.nested
        cases hs : (s.threads u).saved with
        | nil =>
          have e : cftStep (.run u) s = s.ret u .done := by
            unfold cftStep cftRun; dsimp only; rw [hat]; dsimp only; rw [hs]
          rw [e]
          have g := goto .idle (Or.inl rfl)
          refine ⟨g.specs, g.nested, g.entered, g.pending, g.mine, g.others, ?_⟩
          intro o ho
          rcases List.mem_append.1 ho with ho | ho
          · exact h.log o ho
          · rw [List.mem_singleton] at ho; subst ho
            refine ⟨by simp, fun hg => ?_⟩
            have : (s.threads u).op = .get := hg
            rw [hop] at this; cases this
        | cons p rest =>
          obtain ⟨ob, old⟩ := p
          rw [hs] at hn
          obtain ⟨ho, hn⟩ := hn
          have e : cftStep (.run u) s = ({ s with specs := some (innermost x (rest.map (fun p : Nat × Option Nat => p.1))) }.setThr u ⟨(s.threads u).op, .idle, rest⟩).ret u .done := by
            unfold cftStep cftRun; dsimp only; rw [hat]; dsimp only; rw [hs, ho]
          rw [e]
          refine ⟨?_, ?_, ?_, ?_, ?_, ?_, ?_⟩
          · simp [CfSys.ret, CfSys.goto, CfSys.setThr]
          · simpa [CfSys.ret, CfSys.goto, CfSys.setThr] using hn
          · simp only [CfSys.ret, CfSys.goto, CfSys.setThr, if_true]
            intro p hp
            exact h.entered p (by rw [hs]; exact List.mem_cons_of_mem _ hp)
          · simpa [CfSys.ret, CfSys.goto, CfSys.setThr] using h.pending
          · left; simp [CfSys.ret, CfSys.goto, CfSys.setThr]
          · intro v hv
            simp only [CfSys.ret, CfSys.goto, CfSys.setThr, if_neg hv]; exact h.others v hv
          · intro o ho
            rcases List.mem_append.1 ho with ho | ho
            · exact h.log o ho
            · rw [List.mem_singleton] at ho; subst ho
              refine ⟨by simp, fun hg => ?_⟩
              simp [CfSys.setThr, hop] at hg
    · have ht : t ≠ u := fun e => hu e.symm
      obtain ⟨hop, hsv, hat⟩ := h.others u hu
      have goto : ∀ p : CfPoint, (p = .idle ∨ p = .check1 ∨ p = .read) → InvS t x objs (s.goto u p) := by
        intro p hp
        refine ⟨?_, ?_, ?_, ?_, ?_, ?_, h.log⟩
        · simpa [CfSys.goto, CfSys.setThr, ht] using h.specs
        · simpa [CfSys.goto, CfSys.setThr, ht] using h.nested
        · simpa [CfSys.goto, CfSys.setThr, ht] using h.entered
        · simpa [CfSys.goto, CfSys.setThr, ht] using h.pending
        · simpa [CfSys.goto, CfSys.setThr, ht] using h.mine
        · intro v hv
          by_cases hvu : v = u
          · subst hvu
            simp only [CfSys.goto, CfSys.setThr, if_true]
            exact ⟨hop, hsv, hp⟩
          · simp only [CfSys.goto, CfSys.setThr, if_neg hvu]; exact h.others v hv
      rcases hat with hat | hat | hat
      · unfold cftStep cftRun; dsimp only; rw [hat]; exact h
      · unfold cftStep cftRun; dsimp only; rw [hat]; dsimp only; rw [h.specs]
        exact goto _ (Or.inr (Or.inr rfl))
      · have e : cftStep (.run u) s = s.ret u (.got (innermost x ((s.threads t).saved.map (fun p : Nat × Option Nat => p.1)))) := by
          unfold cftStep cftRun; dsimp only; rw [hat]; dsimp only; rw [h.specs]
        rw [e]
        have g := goto .idle (Or.inl rfl)
        refine ⟨g.specs, g.nested, g.entered, g.pending, g.mine, g.others, ?_⟩
        intro o ho
        rcases List.mem_append.1 ho with ho | ho
        · exact h.log o ho
        · rw [List.mem_singleton] at ho; subst ho
          exact ⟨by simp, fun _ => ⟨_, rfl, innermost_mem x objs _ h.entered, fun e => absurd e hu⟩⟩

/-- **C218** (contexts of one thread): once there are current specifications, if only the thread `t` uses contexts, nested in any way, while any number of other threads call `get_cf_specs`, then, in any order of their accesses: no call
fails; `t` always gets the specifications of its innermost context; the other threads get those of the start or those of a context of `t`; and each time `t` is out of its contexts the current specifications are those of the start. -/
theorem C218_one_user_partial (x next t : Nat) (es : List CfEv)
    (he : ∀ u op, CfEv.call u op ∈ es → op = .get ∨ (u = t ∧ (op = .exit ∨ ∃ obj, op = .enter obj))) :
    (∀ o ∈ (cftExec es (CfSys.start (some x) next)).log, o.result ≠ .keyError ∧
      (o.op = .get → ∃ y, o.result = .got y ∧ (y = x ∨ CfEv.call t (.enter y) ∈ es) ∧ (o.thread = t → y = innermost x o.ctx))) ∧
    (((cftExec es (CfSys.start (some x) next)).threads t).saved = [] → (cftExec es (CfSys.start (some x) next)).specs = some x) := by
  have key : ∀ (es' : List CfEv) (s : CfSys), (∀ e ∈ es', e ∈ es) → InvS t x (fun y => CfEv.call t (.enter y) ∈ es) s → InvS t x (fun y => CfEv.call t (.enter y) ∈ es) (cftExec es' s) := by
    intro es'
    induction es' with
    | nil => intro s _ h; exact h
    | cons e es' ih =>
      intro s hsub h
      refine ih _ (fun e' h' => hsub e' (List.mem_cons_of_mem _ h')) (h.step e ?_)
      intro u op e'
      have hm : CfEv.call u op ∈ es := by rw [← e']; exact hsub e List.mem_cons_self
      rcases he u op hm with h1 | ⟨rfl, h1 | ⟨obj, rfl⟩⟩
      · exact Or.inl h1
      · exact Or.inr ⟨rfl, Or.inl h1⟩
      · exact Or.inr ⟨rfl, Or.inr ⟨obj, rfl, hm⟩⟩
  have h := key es (CfSys.start (some x) next) (fun _ h => h) ⟨rfl, trivial, fun _ h => (by cases h), fun _ h => (by cases h), Or.inl rfl, fun _ _ => ⟨rfl, rfl, Or.inl rfl⟩, fun _ h => (by cases h)⟩
  refine ⟨h.log, fun hs => ?_⟩
  rw [h.specs, hs]; rfl

/-- **C218** violated (contexts of two threads): two threads enter and leave a context each, without interruption during the calls; after both have left, the current specifications are those of one of the contexts, for good, whatever
the specifications. -/
theorem C218_leak_violated (x next a b : Nat) :
    (cftExec [.call 0 (.enter a), .run 0, .run 0, .call 1 (.enter b), .run 1, .run 1, .call 0 .exit, .run 0, .call 1 .exit, .run 1] (CfSys.start (some x) next)).specs = some a ∧
    ∀ t, ((cftExec [.call 0 (.enter a), .run 0, .run 0, .call 1 (.enter b), .run 1, .run 1, .call 0 .exit, .run 0, .call 1 .exit, .run 1] (CfSys.start (some x) next)).threads t).saved = [] := by
  refine ⟨by simp [cftExec, cftStep, cftRun, CfSys.start, COp.first, CfSys.setThr, CfSys.goto, CfSys.ret], fun t => ?_⟩
  simp [cftExec, cftStep, cftRun, CfSys.start, COp.first, CfSys.setThr, CfSys.goto, CfSys.ret]
  split
  · rfl
  · split <;> rfl

/-- **C218** violated (first use): two threads that call `get_cf_specs` for the first time at the same time: the first one gets specifications that are not the current ones any more, and what it changes in them is lost for all the threads,
itself included. -/
theorem C218_first_violated (next : Nat) :
    (cftExec [.call 0 .get, .call 1 .get, .run 0, .run 1, .run 0, .run 1, .run 0, .run 0, .run 1, .run 1, .call 0 .get, .run 0, .run 0] (CfSys.start none next)).log =
      [⟨0, .get, .got next, []⟩, ⟨1, .get, .got (next + 1), []⟩, ⟨0, .get, .got (next + 1), []⟩] := by
  simp [cftExec, cftStep, cftRun, CfSys.start, COp.first, CfSys.setThr, CfSys.goto, CfSys.ret]

/-- **C218** violated (first context): if there are no current specifications when a thread enters a context, a thread that calls `get_cf_specs` when it leaves it gets `KeyError`. -/
theorem C218_key_error_violated (next a : Nat) :
    (cftExec [.call 0 (.enter a), .run 0, .run 0, .call 1 .get, .run 1, .call 0 .exit, .run 0, .run 1] (CfSys.start none next)).log =
      [⟨0, .enter a, .done, [a]⟩, ⟨0, .exit, .done, []⟩, ⟨1, .get, .keyError, []⟩] := by
  simp [cftExec, cftStep, cftRun, CfSys.start, COp.first, CfSys.setThr, CfSys.goto, CfSys.ret]

/-- the hypotheses of `C218_one_user_partial` are met: two nested contexts of a thread and a reader -/
example : (cftExec [.call 0 (.enter 7), .run 0, .call 1 .get, .run 0, .run 1, .call 0 (.enter 8), .run 0, .run 1, .run 0, .call 0 .get, .run 0, .run 0, .call 1 .get, .run 1, .run 1, .call 0 .exit, .run 0, .call 0 .exit, .run 0,
    .call 1 .get, .run 1, .run 1] (CfSys.start (some 3) 10)).log.map (fun o => (o.thread, o.result, o.ctx)) =
    [(0, .done, [7]), (1, .got 7, []), (0, .done, [8, 7]), (0, .got 8, [8, 7]), (1, .got 8, []), (0, .done, [7]), (0, .done, []), (1, .got 3, [])] := by decide +kernel

end Xoa
