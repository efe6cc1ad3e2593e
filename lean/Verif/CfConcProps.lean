import Verif.CfConc

/-! # C215: sessions that run at the same time -/

namespace Xoa

variable {β S : Type}

/-- a process is writing the cache file -/
def CSys.isWriting (st : CSys β S) (p : Nat) : Prop := ∃ m i pos, (st.procs p).at_ = .writing m i pos

/-- no two processes are writing it -/
def CSys.oneWriter (st : CSys β S) : Prop := ∀ p q, st.isWriting p → st.isWriting q → p = q

/-- no two processes ever write the file at the same time along the schedule -/
def OneWriter (zero : β) (dump : List β) (s0 : S) (load : List β → Option S) (pkgTime : Nat) (es : List CEvent) (st : CSys β S) : Prop :=
  ∀ pre post, es = pre ++ post → (cRun zero dump s0 load pkgTime pre st).oneWriter

/-- `pickle.load` gives back what `pickle.dump` has written, and fails on a truncated file (the mark of the end of a pickle is its last byte) -/
structure Pickle (dump : List β) (s0 : S) (load : List β → Option S) : Prop where
  whole : load dump = some s0
  truncated : ∀ l, l <+: dump → l ≠ dump → load l = none

/-! ## no reading -/

/-- the point is not in the part that reads the file -/
def CPoint.notReading : CPoint β → Prop
  | .start m => m ≠ .read
  | .exists_ | .stat | .openr | .reading _ _ => False
  | .build m | .openw m | .writing m _ _ | .finish m => m ≠ .read
  | _ => True

structure InvN (s0 : S) (st : CSys β S) : Prop where
  mem : ∀ p s, (st.procs p).mem = some s → s = s0
  at_ : ∀ p, (st.procs p).at_.notReading
  log : ∀ o ∈ st.log, o.result = .ok s0 ∨ (o.mode = .clean ∧ o.result = .error .fileNotFound)

theorem InvN.setProc {s0 : S} {st : CSys β S} (h : InvN s0 st) (p : Nat) (c : CProc β S) (hm : ∀ s, c.mem = some s → s = s0) (ha : c.at_.notReading) :
    InvN s0 (st.setProc p c) := by
  refine ⟨?_, ?_, h.log⟩
  · intro q s hs
    by_cases hq : q = p
    · simp only [CSys.setProc, hq, if_true] at hs; exact hm s hs
    · simp only [CSys.setProc, if_neg hq] at hs; exact h.mem q s hs
  · intro q
    by_cases hq : q = p
    · simp only [CSys.setProc, hq, if_true]; exact ha
    · simp only [CSys.setProc, if_neg hq]; exact h.at_ q

theorem InvN.goto {s0 : S} {st : CSys β S} (h : InvN s0 st) (p : Nat) (a : CPoint β) (ha : a.notReading) : InvN s0 (st.goto p a) :=
  h.setProc p _ (h.mem p) ha

theorem InvN.ret {s0 : S} {st : CSys β S} (h : InvN s0 st) (p : Nat) (m : CacheMode) (r : Except CErr2 S) (hr : r = .ok s0 ∨ (m = .clean ∧ r = .error .fileNotFound)) : InvN s0 (st.ret p m r) := by
  have g := h.goto p .idle trivial
  refine ⟨g.mem, g.at_, ?_⟩
  intro o ho
  rcases List.mem_append.1 ho with ho | ho
  · exact h.log o ho
  · rw [List.mem_singleton] at ho; subst ho; exact hr

theorem InvN.retMem {s0 : S} {st : CSys β S} (h : InvN s0 st) (p : Nat) (m : CacheMode) : InvN s0 (st.retMem p m) := by
  unfold CSys.retMem
  split
  · rename_i s hs
    exact h.ret p m _ (Or.inl (by rw [h.mem p s hs]))
  · exact h

/-- the files do not matter -/
theorem InvN.files {s0 : S} {st : CSys β S} (h : InvN s0 st) (f : Nat → Nat × List β) (pa : Option Nat) (n c : Nat) :
    InvN s0 ({ st with files := f, path := pa, next := n, clock := c } : CSys β S) := ⟨h.mem, h.at_, h.log⟩

theorem InvN.step {s0 : S} {st : CSys β S} (h : InvN s0 st) (zero : β) (dump : List β) (load : List β → Option S) (pkgTime : Nat) (e : CEvent) (he : ∀ p, e ≠ .call p .read) :
    InvN s0 (cStep zero dump s0 load pkgTime e st) := by
  cases e with
  | call p mode =>
    unfold cStep
    dsimp only
    split
    · exact h.goto p _ (fun e => he p (by rw [e]))
    · exact h
  | kill p => exact h.setProc p _ (fun s e => by cases e) trivial
  | tick => exact h.files _ _ _ _
  | run p n =>
    have ha := h.at_ p
    unfold cStep cSyscall
    dsimp only
    split
    · exact h
    · rename_i mode hat
      rw [hat] at ha
      split
      · exact h.goto p _ ha
      · rw [if_neg ha]; exact h.goto p _ ha
    · rename_i hat; rw [hat] at ha; exact ha.elim
    · rename_i hat; rw [hat] at ha; exact ha.elim
    · rename_i hat; rw [hat] at ha; exact ha.elim
    · rename_i hat; rw [hat] at ha; exact ha.elim
    · rename_i mode hat
      rw [hat] at ha
      refine h.setProc p _ (fun s e => (Option.some.inj e).symm) ?_
      dsimp only
      split <;> exact ha
    · rename_i mode hat
      rw [hat] at ha
      split
      · exact InvN.goto (h.files _ _ _ _) p _ ha
      · exact InvN.goto (h.files _ _ _ _) p _ ha
    · rename_i mode i pos hat
      rw [hat] at ha
      split
      · exact InvN.goto (h.files _ _ _ _) p _ ha
      · exact h.goto p _ ha
    · rename_i mode hat
      split
      · exact h.goto p _ trivial
      · exact h.retMem p mode
    · split
      · exact h.goto p _ trivial
      · exact h.retMem p _
    · split
      · exact h.ret p _ _ (Or.inr ⟨rfl, rfl⟩)
      · exact InvN.retMem (h.files _ _ _ _) p _

/-- **C215** (modes that do not read): whatever the number of processes and the order in which their system calls are executed, with processes killed at any time, if no process uses
the mode `read`, every call gives the specifications of the configuration; only a call in the mode `clean` may fail. In particular this holds for the default mode. -/
theorem C215_not_reading_partial (zero : β) (dump : List β) (s0 : S) (load : List β → Option S) (pkgTime : Nat) (es : List CEvent) (he : ∀ p, CEvent.call p .read ∉ es) :
    ∀ o ∈ (cRun zero dump s0 load pkgTime es CSys.init).log, o.result = .ok s0 ∨ (o.mode = .clean ∧ o.result = .error .fileNotFound) := by
  have key : ∀ (es : List CEvent) (st : CSys β S), (∀ p, CEvent.call p .read ∉ es) → InvN s0 st → InvN s0 (cRun zero dump s0 load pkgTime es st) := by
    intro es
    induction es with
    | nil => intro st _ h; exact h
    | cons e es ih =>
      intro st he h
      exact ih _ (fun p hp => he p (List.mem_cons_of_mem _ hp)) (h.step zero dump load pkgTime e (fun p e' => he p (by rw [e']; exact List.mem_cons_self)))
  exact (key es CSys.init he ⟨fun p s e => (by cases e), fun p => trivial, fun o ho => (by cases ho)⟩).log

/-! ## one writer at a time -/

structure InvW (dump : List β) (s0 : S) (st : CSys β S) : Prop where
  mem : ∀ p s, (st.procs p).mem = some s → s = s0
  acc : ∀ p i acc, (st.procs p).at_ = .reading i acc → acc <+: dump
  file : ∀ i, (st.files i).2 <+: dump
  writer : ∀ p m i pos, (st.procs p).at_ = .writing m i pos → (st.files i).2 = dump.take pos
  log : ∀ o ∈ st.log, o.result = .ok s0 ∨ ((o.mode = .read ∨ o.mode = .clean) ∧ o.result = .error .fileNotFound)

theorem InvW.setProc {dump : List β} {s0 : S} {st : CSys β S} (h : InvW dump s0 st) (p : Nat) (c : CProc β S) (hm : ∀ s, c.mem = some s → s = s0)
    (hr : ∀ i acc, c.at_ = .reading i acc → acc <+: dump) (hw : ∀ m i pos, c.at_ = .writing m i pos → (st.files i).2 = dump.take pos) : InvW dump s0 (st.setProc p c) := by
  refine ⟨?_, ?_, h.file, ?_, h.log⟩
  · intro q s hs
    by_cases hq : q = p
    · simp only [CSys.setProc, hq, if_true] at hs; exact hm s hs
    · simp only [CSys.setProc, if_neg hq] at hs; exact h.mem q s hs
  · intro q i acc hs
    by_cases hq : q = p
    · simp only [CSys.setProc, hq, if_true] at hs; exact hr i acc hs
    · simp only [CSys.setProc, if_neg hq] at hs; exact h.acc q i acc hs
  · intro q m i pos hs
    by_cases hq : q = p
    · simp only [CSys.setProc, hq, if_true] at hs; exact hw m i pos hs
    · simp only [CSys.setProc, if_neg hq] at hs; exact h.writer q m i pos hs

theorem InvW.goto {dump : List β} {s0 : S} {st : CSys β S} (h : InvW dump s0 st) (p : Nat) (a : CPoint β)
    (hr : ∀ i acc, a = .reading i acc → acc <+: dump) (hw : ∀ m i pos, a = .writing m i pos → (st.files i).2 = dump.take pos) : InvW dump s0 (st.goto p a) :=
  h.setProc p _ (h.mem p) hr hw

theorem InvW.ret {dump : List β} {s0 : S} {st : CSys β S} (h : InvW dump s0 st) (p : Nat) (m : CacheMode) (r : Except CErr2 S)
    (hr : r = .ok s0 ∨ ((m = .read ∨ m = .clean) ∧ r = .error .fileNotFound)) : InvW dump s0 (st.ret p m r) := by
  have g := h.goto p .idle (fun i acc e => by cases e) (fun m i pos e => by cases e)
  refine ⟨g.mem, g.acc, g.file, g.writer, ?_⟩
  intro o ho
  rcases List.mem_append.1 ho with ho | ho
  · exact h.log o ho
  · rw [List.mem_singleton] at ho; subst ho; exact hr

theorem InvW.retMem {dump : List β} {s0 : S} {st : CSys β S} (h : InvW dump s0 st) (p : Nat) (m : CacheMode) : InvW dump s0 (st.retMem p m) := by
  unfold CSys.retMem
  split
  · rename_i s hs
    exact h.ret p m _ (Or.inl (by rw [h.mem p s hs]))
  · exact h

/-- the name of the file and the time do not matter -/
theorem InvW.rename {dump : List β} {s0 : S} {st : CSys β S} (h : InvW dump s0 st) (pa : Option Nat) (n c : Nat) :
    InvW dump s0 ({ st with path := pa, next := n, clock := c } : CSys β S) := ⟨h.mem, h.acc, h.file, h.writer, h.log⟩

/-- a process changes a file and is the only writer afterwards -/
theorem InvW.write {dump : List β} {s0 : S} {st : CSys β S} (h : InvW dump s0 st) (p : Nat) (m : CacheMode) (i pos : Nat) (b : List β) (hb : b = dump.take pos) (pa : Option Nat) (n : Nat)
    (ho : (({ (st.setFile i b) with path := pa, next := n } : CSys β S).goto p (.writing m i pos)).oneWriter) :
    InvW dump s0 (({ (st.setFile i b) with path := pa, next := n } : CSys β S).goto p (.writing m i pos)) := by
  have hp : (({ (st.setFile i b) with path := pa, next := n } : CSys β S).goto p (.writing m i pos)).isWriting p :=
    ⟨m, i, pos, by simp [CSys.goto, CSys.setProc]⟩
  refine ⟨?_, ?_, ?_, ?_, h.log⟩
  · intro q s hs
    by_cases hq : q = p
    · subst hq; simp only [CSys.goto, CSys.setProc, CSys.setFile, if_true] at hs; exact h.mem q s hs
    · simp only [CSys.goto, CSys.setProc, CSys.setFile, if_neg hq] at hs; exact h.mem q s hs
  · intro q j acc hs
    by_cases hq : q = p
    · subst hq; simp only [CSys.goto, CSys.setProc, CSys.setFile, if_true] at hs; cases hs
    · simp only [CSys.goto, CSys.setProc, CSys.setFile, if_neg hq] at hs; exact h.acc q j acc hs
  · intro j
    show (if j = i then (st.clock, b) else st.files j).2 <+: dump
    split
    · rw [hb]; exact List.take_prefix _ _
    · exact h.file j
  · intro q m' j pos' hs
    have e := ho q p ⟨m', j, pos', hs⟩ hp
    subst e
    simp only [CSys.goto, CSys.setProc, CSys.setFile, if_true] at hs
    cases hs
    show (if i = i then (st.clock, b) else st.files i).2 = _
    rw [if_pos rfl]; exact hb

theorem writeAt_prefix (zero : β) (dump : List β) (pos n : Nat) (hp : pos < dump.length) :
    writeAt zero (dump.take pos) pos ((dump.drop pos).take (n + 1)) = dump.take (pos + ((dump.drop pos).take (n + 1)).length) := by
  unfold writeAt
  have h1 : (dump.take pos).length = pos := by rw [List.length_take]; omega
  rw [h1, Nat.sub_self, List.replicate_zero, List.append_nil, List.take_take, Nat.min_self]
  have h2 : (dump.take pos).drop (pos + ((dump.drop pos).take (n + 1)).length) = [] := List.drop_eq_nil_of_le (by rw [h1]; omega)
  rw [h2, List.append_nil, List.take_add (i := pos)]
  congr 1
  rw [List.length_take]
  by_cases h : n + 1 ≤ (dump.drop pos).length
  · rw [Nat.min_eq_left h]
  · rw [Nat.min_eq_right (by omega), List.take_of_length_le (by omega), List.take_of_length_le (Nat.le_refl _)]

theorem read_prefix (l f dump : List β) (n : Nat) (hl : l <+: dump) (hf : f <+: dump) (h : l.length < f.length) : l ++ (f.drop l.length).take (n + 1) <+: dump := by
  have h1 : l <+: f := List.prefix_of_prefix_length_le hl hf (Nat.le_of_lt h)
  obtain ⟨r, rfl⟩ := h1
  rw [List.drop_append_of_le_length (Nat.le_refl _), List.drop_length, List.nil_append]
  refine List.IsPrefix.trans ?_ hf
  obtain ⟨t, ht⟩ := List.take_prefix (n + 1) r
  exact ⟨t, by rw [List.append_assoc, ht]⟩

theorem InvW.step {dump : List β} {s0 : S} {st : CSys β S} (h : InvW dump s0 st) (zero : β) (load : List β → Option S) (hl : Pickle dump s0 load) (pkgTime : Nat) (e : CEvent)
    (ho : (cStep zero dump s0 load pkgTime e st).oneWriter) : InvW dump s0 (cStep zero dump s0 load pkgTime e st) := by
  have plain : ∀ (p : Nat) (a : CPoint β), (∀ i acc, a ≠ .reading i acc) → (∀ m i pos, a ≠ .writing m i pos) → InvW dump s0 (st.goto p a) :=
    fun p a h1 h2 => h.goto p a (fun i acc e => absurd e (h1 i acc)) (fun m i pos e => absurd e (h2 m i pos))
  cases e with
  | call p mode =>
    unfold cStep
    dsimp only
    split
    · exact plain p _ (by simp) (by simp)
    · exact h
  | kill p => exact h.setProc p _ (fun s e => by cases e) (fun i acc e => by cases e) (fun m i pos e => by cases e)
  | tick => exact h.rename _ _ _
  | run p n =>
    revert ho
    unfold cStep cSyscall
    dsimp only
    split
    · intro _; exact h
    · intro _
      split
      · exact plain p _ (by simp) (by simp)
      · split
        · exact plain p _ (by simp) (by simp)
        · exact plain p _ (by simp) (by simp)
    · intro _
      split
      · exact plain p _ (by simp) (by simp)
      · exact plain p _ (by simp) (by simp)
    · intro _
      split
      · exact h.ret p _ _ (Or.inr ⟨Or.inl rfl, rfl⟩)
      · split
        · exact plain p _ (by simp) (by simp)
        · exact plain p _ (by simp) (by simp)
    · intro _
      split
      · exact plain p _ (by simp) (by simp)
      · exact h.goto p _ (fun i acc e => by cases e; exact List.nil_prefix) (fun m i pos e => by cases e)
    · rename_i i acc hat
      intro _
      have ha := h.acc p i acc hat
      split
      · rename_i hlt
        exact h.goto p _ (fun i' acc' e => by cases e; exact read_prefix acc _ dump n ha (h.file i) hlt) (fun m i pos e => by cases e)
      · cases hld : load acc with
        | none => exact plain p _ (by simp) (by simp)
        | some s =>
          refine h.setProc p _ (fun s' e => ?_) (fun i acc e => by cases e) (fun m i pos e => by cases e)
          rw [Option.some.inj e] at hld
          by_cases hd : acc = dump
          · rw [hd, hl.whole] at hld; exact (Option.some.inj hld).symm
          · rw [hl.truncated acc ha hd] at hld; cases hld
    · rename_i mode hat
      intro _
      refine h.setProc p _ (fun s e => (Option.some.inj e).symm) (fun i acc e => ?_) (fun m i pos e => ?_)
      · dsimp only at e; split at e <;> cases e
      · dsimp only at e; split at e <;> cases e
    · rename_i mode hat
      split
      · intro ho
        exact h.write p mode _ 0 [] rfl st.path st.next ho
      · intro ho
        exact h.write p mode _ 0 [] rfl (some st.next) (st.next + 1) ho
    · rename_i mode i pos hat
      split
      · rename_i hlt
        intro ho
        refine h.write p mode i _ _ ?_ st.path st.next ho
        rw [h.writer p mode i pos hat]
        exact writeAt_prefix zero dump pos n hlt
      · intro _; exact plain p _ (by simp) (by simp)
    · intro _
      split
      · exact plain p _ (by simp) (by simp)
      · exact h.retMem p _
    · intro _
      split
      · exact plain p _ (by simp) (by simp)
      · exact h.retMem p _
    · intro _
      split
      · exact h.ret p _ _ (Or.inr ⟨Or.inr rfl, rfl⟩)
      · exact InvW.retMem (h.rename _ _ _) p _

/-- **C215** (reading): whatever the number of processes, their modes and the order in which their system calls are executed, with processes killed at any time, even in the middle of a write, if no two processes write the
file at the same time, every call gives the specifications of the configuration, or fails in one of the modes `read` and `clean` because the file has been removed. -/
theorem C215_reading_partial (zero : β) (dump : List β) (s0 : S) (load : List β → Option S) (hl : Pickle dump s0 load) (pkgTime : Nat) (es : List CEvent)
    (ho : OneWriter zero dump s0 load pkgTime es CSys.init) :
    ∀ o ∈ (cRun zero dump s0 load pkgTime es CSys.init).log, o.result = .ok s0 ∨ ((o.mode = .read ∨ o.mode = .clean) ∧ o.result = .error .fileNotFound) := by
  have key : ∀ (es : List CEvent) (st : CSys β S), OneWriter zero dump s0 load pkgTime es st → InvW dump s0 st → InvW dump s0 (cRun zero dump s0 load pkgTime es st) := by
    intro es
    induction es with
    | nil => intro st _ h; exact h
    | cons e es ih =>
      intro st ho h
      refine ih _ (fun pre post hp => ?_) (h.step zero load hl pkgTime e ?_)
      · exact ho (e :: pre) post (by rw [hp]; rfl)
      · exact ho [e] es rfl
  refine (key es _ ho ⟨fun p s e => (by cases e), fun p i acc e => (by cases e), fun i => List.nil_prefix, fun p m i pos e => (by cases e), fun o ho => (by cases ho)⟩).log

/-! ## no removal -/

/-- the point is not in a call in the mode `clean` -/
def CPoint.notCleaning : CPoint β → Prop
  | .start m | .build m | .openw m | .writing m _ _ | .finish m => m ≠ .clean
  | .cleanExists | .remove => False
  | _ => True

/-- the file is not removed after it has been found -/
structure InvF (st : CSys β S) : Prop where
  stat : ∀ p, (st.procs p).at_ = .stat → st.path ≠ none
  at_ : ∀ p, (st.procs p).at_.notCleaning
  log : ∀ o ∈ st.log, ∃ s, o.result = .ok s

theorem InvF.setProc {st : CSys β S} (h : InvF st) (p : Nat) (c : CProc β S) (hs : c.at_ = .stat → st.path ≠ none) (ha : c.at_.notCleaning) : InvF (st.setProc p c) := by
  refine ⟨?_, ?_, h.log⟩
  · intro q e
    by_cases hq : q = p
    · simp only [CSys.setProc, hq, if_true] at e; exact hs e
    · simp only [CSys.setProc, if_neg hq] at e; exact h.stat q e
  · intro q
    by_cases hq : q = p
    · simp only [CSys.setProc, hq, if_true]; exact ha
    · simp only [CSys.setProc, if_neg hq]; exact h.at_ q

theorem InvF.goto {st : CSys β S} (h : InvF st) (p : Nat) (a : CPoint β) (hs : a = .stat → st.path ≠ none) (ha : a.notCleaning) : InvF (st.goto p a) :=
  h.setProc p _ hs ha

theorem InvF.ret {st : CSys β S} (h : InvF st) (p : Nat) (m : CacheMode) (s : S) : InvF (st.ret p m (.ok s)) := by
  have g := h.goto p .idle (fun e => by cases e) trivial
  refine ⟨g.stat, g.at_, ?_⟩
  intro o ho
  rcases List.mem_append.1 ho with ho | ho
  · exact h.log o ho
  · rw [List.mem_singleton] at ho; subst ho; exact ⟨s, rfl⟩

theorem InvF.retMem {st : CSys β S} (h : InvF st) (p : Nat) (m : CacheMode) : InvF (st.retMem p m) := by
  unfold CSys.retMem
  split
  · exact h.ret p m _
  · exact h

theorem InvF.files {st : CSys β S} (h : InvF st) (f : Nat → Nat × List β) (pa : Option Nat) (n c : Nat) (hp : st.path ≠ none → pa ≠ none) :
    InvF ({ st with files := f, path := pa, next := n, clock := c } : CSys β S) := ⟨fun p e => hp (h.stat p e), h.at_, h.log⟩

theorem InvF.step {st : CSys β S} (h : InvF st) (zero : β) (dump : List β) (s0 : S) (load : List β → Option S) (pkgTime : Nat) (e : CEvent) (he : ∀ p, e ≠ .call p .clean) :
    InvF (cStep zero dump s0 load pkgTime e st) := by
  cases e with
  | call p mode =>
    unfold cStep
    dsimp only
    split
    · exact h.goto p _ (by simp) (fun e => he p (by rw [e]))
    · exact h
  | kill p => exact h.setProc p _ (by simp) trivial
  | tick => exact h.files _ _ _ _ id
  | run p n =>
    have ha := h.at_ p
    have hst := h.stat p
    unfold cStep cSyscall
    dsimp only
    split
    · exact h
    · rename_i mode hat
      rw [hat] at ha
      split
      · exact h.goto p _ (by simp) ha
      · split
        · exact h.goto p _ (by simp) trivial
        · exact h.goto p _ (by simp) ha
    · split
      · rename_i hp
        exact h.goto p _ (fun _ e => by rw [e] at hp; cases hp) trivial
      · exact h.goto p _ (by simp) (by intro e; cases e)
    · rename_i hat
      split
      · rename_i hp
        exact absurd hp (hst hat)
      · split
        · exact h.goto p _ (by simp) trivial
        · exact h.goto p _ (by simp) (by intro e; cases e)
    · split
      · exact h.goto p _ (by simp) (by intro e; cases e)
      · exact h.goto p _ (by simp) trivial
    · split
      · exact h.goto p _ (by simp) trivial
      · split
        · exact h.setProc p _ (by simp) (by intro e; cases e)
        · exact h.goto p _ (by simp) (by intro e; cases e)
    · rename_i mode hat
      rw [hat] at ha
      refine h.setProc p _ ?_ ?_
      · dsimp only; split <;> simp
      · dsimp only; split <;> exact ha
    · rename_i mode hat
      rw [hat] at ha
      split
      · exact InvF.goto (h.files _ _ _ _ id) p _ (by simp) ha
      · exact InvF.goto (h.files _ _ _ _ (fun _ => by simp)) p _ (by simp) ha
    · rename_i mode i pos hat
      rw [hat] at ha
      split
      · exact InvF.goto (h.files _ _ _ _ id) p _ (by simp) ha
      · exact h.goto p _ (by simp) ha
    · rename_i mode hat
      rw [hat] at ha
      rw [if_neg ha]
      exact h.retMem p mode
    · rename_i hat; rw [hat] at ha; exact ha.elim
    · rename_i hat; rw [hat] at ha; exact ha.elim

/-- **C215** (no error): if no process uses the mode `clean`, no call fails, even if several processes write the file at the same time. -/
theorem C215_no_error_partial (zero : β) (dump : List β) (s0 : S) (load : List β → Option S) (pkgTime : Nat) (es : List CEvent) (he : ∀ p, CEvent.call p .clean ∉ es) :
    ∀ o ∈ (cRun zero dump s0 load pkgTime es CSys.init).log, ∃ s, o.result = .ok s := by
  have key : ∀ (es : List CEvent) (st : CSys β S), (∀ p, CEvent.call p .clean ∉ es) → InvF st → InvF (cRun zero dump s0 load pkgTime es st) := by
    intro es
    induction es with
    | nil => intro st _ h; exact h
    | cons e es ih =>
      intro st he h
      exact ih _ (fun p hp => he p (List.mem_cons_of_mem _ hp)) (h.step zero dump s0 load pkgTime e (fun p e' => he p (by rw [e']; exact List.mem_cons_self)))
  exact (key es CSys.init he ⟨fun p e => (by cases e), fun p => trivial, fun o ho => (by cases ho)⟩).log

/-! ## every call ends -/

/-- a bound on the number of system calls that a process executes before the end of its call, when it is alone -/
def CSys.left (dump : List β) (st : CSys β S) (p : Nat) : Nat :=
  match (st.procs p).at_ with
  | .idle => 0
  | .remove => 1
  | .cleanExists => 2
  | .finish _ => 3
  | .writing _ _ pos => 4 + (dump.length - pos)
  | .openw _ => 5 + dump.length
  | .build _ => 6 + dump.length
  | .reading i acc => 7 + dump.length + ((st.files i).2.length - acc.length)
  | .openr => 8 + dump.length + (st.path.elim 0 (fun i => (st.files i).2.length))
  | .stat => 9 + dump.length + (st.path.elim 0 (fun i => (st.files i).2.length))
  | .exists_ => 10 + dump.length + (st.path.elim 0 (fun i => (st.files i).2.length))
  | .start _ => 11 + dump.length + (st.path.elim 0 (fun i => (st.files i).2.length))

/-- at the end of a call there are specifications in memory -/
def CPoint.hasMem : CPoint β → Prop
  | .finish _ | .cleanExists | .remove | .openw _ | .writing _ _ _ => True
  | _ => False

/-- the call has built or read the specifications when it is about to end -/
def CSys.InvM (st : CSys β S) : Prop := ∀ p, (st.procs p).at_.hasMem → (st.procs p).mem ≠ none

theorem InvM.setProc {st : CSys β S} (h : st.InvM) (p : Nat) (c : CProc β S) (hc : c.at_.hasMem → c.mem ≠ none) : (st.setProc p c).InvM := by
  intro q
  by_cases hq : q = p
  · simp only [CSys.setProc, hq, if_true]; exact hc
  · simp only [CSys.setProc, if_neg hq]; exact h q

theorem InvM.goto {st : CSys β S} (h : st.InvM) (p : Nat) (a : CPoint β) (hc : a.hasMem → (st.procs p).mem ≠ none) : (st.goto p a).InvM := InvM.setProc h p _ hc

theorem InvM.ret {st : CSys β S} (h : st.InvM) (p : Nat) (m : CacheMode) (r : Except CErr2 S) : (st.ret p m r).InvM := InvM.goto h p .idle (fun e => e.elim)

theorem InvM.retMem {st : CSys β S} (h : st.InvM) (p : Nat) (m : CacheMode) : (st.retMem p m).InvM := by
  unfold CSys.retMem
  split
  · exact InvM.ret h p m _
  · exact h

theorem InvM.step {st : CSys β S} (h : st.InvM) (zero : β) (dump : List β) (s0 : S) (load : List β → Option S) (pkgTime : Nat) (e : CEvent) : (cStep zero dump s0 load pkgTime e st).InvM := by
  cases e with
  | call p mode =>
    unfold cStep
    dsimp only
    split
    · exact InvM.goto h p _ (fun e => e.elim)
    · exact h
  | kill p => exact InvM.setProc h p _ (fun e => e.elim)
  | tick => exact h
  | run p n =>
    have ha := h p
    unfold cStep cSyscall
    dsimp only
    split
    · exact h
    · split
      · rename_i hm
        exact InvM.goto h p _ (fun _ e => by rw [e] at hm; cases hm)
      · split <;> exact InvM.goto h p _ (fun e => e.elim)
    · split <;> exact InvM.goto h p _ (fun e => e.elim)
    · split
      · exact InvM.ret h p _ _
      · split <;> exact InvM.goto h p _ (fun e => e.elim)
    · split <;> exact InvM.goto h p _ (fun e => e.elim)
    · split
      · exact InvM.goto h p _ (fun e => e.elim)
      · split
        · exact InvM.setProc h p _ (fun _ e => by cases e)
        · exact InvM.goto h p _ (fun e => e.elim)
    · exact InvM.setProc h p _ (fun _ e => by cases e)
    · rename_i mode hat
      rw [hat] at ha
      split
      · exact InvM.goto (st := st.setFile _ []) h p _ ha
      · exact InvM.goto (st := { (st.setFile st.next []) with path := some st.next, next := st.next + 1 }) h p _ ha
    · rename_i mode i pos hat
      rw [hat] at ha
      split
      · exact InvM.goto (st := st.setFile i _) h p _ ha
      · exact InvM.goto h p _ ha
    · rename_i mode hat
      rw [hat] at ha
      split
      · exact InvM.goto h p _ ha
      · exact InvM.retMem h p _
    · rename_i hat
      rw [hat] at ha
      split
      · exact InvM.goto h p _ ha
      · exact InvM.retMem h p _
    · split
      · exact InvM.ret h p _ _
      · exact InvM.retMem (st := { st with path := none }) h p _

/-- the call of `p` has ended, with one more outcome -/
def CSys.endedFrom (st st' : CSys β S) (p : Nat) : Prop := (st'.procs p).at_ = .idle ∧ ∃ o, o.proc = p ∧ st'.log = st.log ++ [o]

theorem ret_ended (st : CSys β S) (p : Nat) (m : CacheMode) (r : Except CErr2 S) : st.endedFrom (st.ret p m r) p :=
  ⟨by simp [CSys.ret, CSys.goto, CSys.setProc], ⟨p, m, r⟩, rfl, rfl⟩

theorem retMem_ended (st : CSys β S) (p : Nat) (m : CacheMode) (hm : (st.procs p).mem ≠ none) : st.endedFrom (st.retMem p m) p := by
  unfold CSys.retMem
  split
  · exact ret_ended st p m _
  · rename_i e; exact absurd e hm

/-- a system call ends the call or comes nearer to its end -/
theorem left_step (zero : β) (dump : List β) (s0 : S) (load : List β → Option S) (pkgTime p n : Nat) (st : CSys β S) (h : st.InvM) (hp : (st.procs p).at_ ≠ .idle) :
    st.endedFrom (cSyscall zero dump s0 load pkgTime p n st) p ∨
      ((cSyscall zero dump s0 load pkgTime p n st).left dump p < st.left dump p ∧ (cSyscall zero dump s0 load pkgTime p n st).log = st.log ∧
        ((cSyscall zero dump s0 load pkgTime p n st).procs p).at_ ≠ .idle) := by
  have hm := h p
  have go : ∀ (st' : CSys β S) (a : CPoint β), ((st'.goto p a).procs p).at_ = a := fun st' a => by simp [CSys.goto, CSys.setProc]
  unfold cSyscall
  split
  · rename_i hat; exact absurd hat hp
  all_goals rename_i hat
  · split
    · right
      refine ⟨?_, rfl, ?_⟩
      · simp [CSys.left, CSys.goto, CSys.setProc, hat]; omega
      · simp [CSys.goto, CSys.setProc]
    · split
      · right
        refine ⟨?_, rfl, ?_⟩
        · simp [CSys.left, CSys.goto, CSys.setProc, hat]
        · simp [CSys.goto, CSys.setProc]
      · right
        refine ⟨?_, rfl, ?_⟩
        · simp [CSys.left, CSys.goto, CSys.setProc, hat]; omega
        · simp [CSys.goto, CSys.setProc]
  · split
    · right
      refine ⟨?_, rfl, ?_⟩
      · simp [CSys.left, CSys.goto, CSys.setProc, hat]
      · simp [CSys.goto, CSys.setProc]
    · right
      refine ⟨?_, rfl, ?_⟩
      · simp [CSys.left, CSys.goto, CSys.setProc, hat]; omega
      · simp [CSys.goto, CSys.setProc]
  · split
    · left; exact ret_ended st p _ _
    · split
      · right
        refine ⟨?_, rfl, ?_⟩
        · simp [CSys.left, CSys.goto, CSys.setProc, hat]
        · simp [CSys.goto, CSys.setProc]
      · right
        refine ⟨?_, rfl, ?_⟩
        · simp [CSys.left, CSys.goto, CSys.setProc, hat]; omega
        · simp [CSys.goto, CSys.setProc]
  · split
    · right
      refine ⟨?_, rfl, ?_⟩
      · simp [CSys.left, CSys.goto, CSys.setProc, hat]; omega
      · simp [CSys.goto, CSys.setProc]
    · rename_i i hpath
      right
      refine ⟨?_, rfl, ?_⟩
      · simp [CSys.left, CSys.goto, CSys.setProc, hat, hpath]
      · simp [CSys.goto, CSys.setProc]
  · split
    · rename_i hlt
      right
      refine ⟨?_, rfl, ?_⟩
      · simp [CSys.left, CSys.goto, CSys.setProc, hat]; omega
      · simp [CSys.goto, CSys.setProc]
    · split
      · right
        refine ⟨?_, rfl, ?_⟩
        · simp [CSys.left, CSys.setProc, hat]; omega
        · simp [CSys.setProc]
      · right
        refine ⟨?_, rfl, ?_⟩
        · simp [CSys.left, CSys.goto, CSys.setProc, hat]; omega
        · simp [CSys.goto, CSys.setProc]
  · rename_i mode
    right
    by_cases hw : mode = .write ∨ mode = .rw
    · rw [if_pos hw]
      refine ⟨?_, rfl, ?_⟩
      · simp [CSys.left, CSys.setProc, hat]
      · simp [CSys.setProc]
    · rw [if_neg hw]
      refine ⟨?_, rfl, ?_⟩
      · simp [CSys.left, CSys.setProc, hat]; omega
      · simp [CSys.setProc]
  · split
    · right
      refine ⟨?_, rfl, ?_⟩
      · simp [CSys.left, CSys.goto, CSys.setProc, hat]
      · simp [CSys.goto, CSys.setProc]
    · right
      refine ⟨?_, rfl, ?_⟩
      · simp [CSys.left, CSys.goto, CSys.setProc, hat]
      · simp [CSys.goto, CSys.setProc]
  · split
    · right
      refine ⟨?_, rfl, ?_⟩
      · simp [CSys.left, CSys.goto, CSys.setProc, hat]; omega
      · simp [CSys.goto, CSys.setProc]
    · right
      refine ⟨?_, rfl, ?_⟩
      · simp [CSys.left, CSys.goto, CSys.setProc, hat]; omega
      · simp [CSys.goto, CSys.setProc]
  · split
    · right
      refine ⟨?_, rfl, ?_⟩
      · simp [CSys.left, CSys.goto, CSys.setProc, hat]
      · simp [CSys.goto, CSys.setProc]
    · left; exact retMem_ended st p _ (hm (by rw [hat]; trivial))
  · split
    · right
      refine ⟨?_, rfl, ?_⟩
      · simp [CSys.left, CSys.goto, CSys.setProc, hat]
      · simp [CSys.goto, CSys.setProc]
    · left; exact retMem_ended st p _ (hm (by rw [hat]; trivial))
  · split
    · left; exact ret_ended st p _ _
    · left; exact retMem_ended { st with path := none } p _ (hm (by rw [hat]; trivial))

theorem cRun_append (zero : β) (dump : List β) (s0 : S) (load : List β → Option S) (pkgTime : Nat) (es es' : List CEvent) (st : CSys β S) :
    cRun zero dump s0 load pkgTime (es ++ es') st = cRun zero dump s0 load pkgTime es' (cRun zero dump s0 load pkgTime es st) := by
  induction es generalizing st with
  | nil => rfl
  | cons e es ih => exact ih _

/-- **C215** (every call ends): whatever has happened before, a process in a call that is left alone ends its call, with one outcome. -/
theorem C215_ends (zero : β) (dump : List β) (s0 : S) (load : List β → Option S) (pkgTime : Nat) (es : List CEvent) (p n : Nat)
    (hp : ((cRun zero dump s0 load pkgTime es (CSys.init : CSys β S)).procs p).at_ ≠ .idle) :
    ∃ k, (cRun zero dump s0 load pkgTime es CSys.init).endedFrom (cRun zero dump s0 load pkgTime (es ++ List.replicate k (.run p n)) CSys.init) p := by
  have inv : ∀ (es : List CEvent) (st : CSys β S), st.InvM → (cRun zero dump s0 load pkgTime es st).InvM := by
    intro es
    induction es with
    | nil => intro st h; exact h
    | cons e es ih => intro st h; exact ih _ (InvM.step h zero dump s0 load pkgTime e)
  have key : ∀ (l : Nat) (st : CSys β S), st.left dump p = l → st.InvM → (st.procs p).at_ ≠ .idle →
      ∃ k, st.endedFrom (cRun zero dump s0 load pkgTime (List.replicate k (.run p n)) st) p := by
    intro l
    induction l using Nat.strongRecOn with
    | ind l ih =>
      intro st hl h hp
      rcases left_step zero dump s0 load pkgTime p n st h hp with he | ⟨hlt, hlog, hne⟩
      · exact ⟨1, he⟩
      · obtain ⟨k, hk1, o, ho, hk2⟩ := ih _ (by rw [← hl]; exact hlt) _ rfl (InvM.step h zero dump s0 load pkgTime (.run p n)) hne
        refine ⟨k + 1, hk1, o, ho, ?_⟩
        have hlog' : (cStep zero dump s0 load pkgTime (.run p n) st).log = st.log := hlog
        rw [hlog'] at hk2
        exact hk2
  obtain ⟨k, hk⟩ := key _ _ rfl (inv es CSys.init (fun p e => e.elim)) hp
  exact ⟨k, by rw [cRun_append]; exact hk⟩

/-! ## one process that writes -/

/-- the point is not in a call that writes -/
def CPoint.notWriter : CPoint β → Prop
  | .start m | .build m => ¬ (m = .write ∨ m = .rw)
  | .openw _ | .writing _ _ _ => False
  | _ => True

def CSys.InvO (w : Nat) (st : CSys β S) : Prop := ∀ q, q ≠ w → (st.procs q).at_.notWriter

theorem InvO.setProc {w : Nat} {st : CSys β S} (h : st.InvO w) (p : Nat) (c : CProc β S) (hc : p ≠ w → c.at_.notWriter) : (st.setProc p c).InvO w := by
  intro q hw
  by_cases hq : q = p
  · simp only [CSys.setProc, hq, if_true]; exact hc (hq ▸ hw)
  · simp only [CSys.setProc, if_neg hq]; exact h q hw

theorem InvO.goto {w : Nat} {st : CSys β S} (h : st.InvO w) (p : Nat) (a : CPoint β) (hc : p ≠ w → a.notWriter) : (st.goto p a).InvO w := InvO.setProc h p _ hc

theorem InvO.retMem {w : Nat} {st : CSys β S} (h : st.InvO w) (p : Nat) (m : CacheMode) : (st.retMem p m).InvO w := by
  unfold CSys.retMem
  split
  · exact InvO.goto h p .idle (fun _ => trivial)
  · exact h

theorem InvO.step {w : Nat} {st : CSys β S} (h : st.InvO w) (zero : β) (dump : List β) (s0 : S) (load : List β → Option S) (pkgTime : Nat) (e : CEvent)
    (he : ∀ p m, e = .call p m → (m = .write ∨ m = .rw) → p = w) : (cStep zero dump s0 load pkgTime e st).InvO w := by
  have rd : ¬ (CacheMode.read = .write ∨ CacheMode.read = .rw) := by decide
  cases e with
  | call p mode =>
    unfold cStep
    dsimp only
    split
    · exact InvO.goto h p _ (fun hw hm => hw (he p mode rfl hm))
    · exact h
  | kill p => exact InvO.setProc h p _ (fun _ => trivial)
  | tick => exact h
  | run p n =>
    have ha := h p
    unfold cStep cSyscall
    dsimp only
    split
    · exact h
    · rename_i mode hat
      rw [hat] at ha
      split
      · exact InvO.goto h p _ (fun _ => trivial)
      · split
        · exact InvO.goto h p _ (fun _ => trivial)
        · exact InvO.goto h p _ ha
    · split
      · exact InvO.goto h p _ (fun _ => trivial)
      · exact InvO.goto h p _ (fun _ => rd)
    · split
      · exact InvO.goto h p .idle (fun _ => trivial)
      · split
        · exact InvO.goto h p _ (fun _ => trivial)
        · exact InvO.goto h p _ (fun _ => rd)
    · split
      · exact InvO.goto h p _ (fun _ => rd)
      · exact InvO.goto h p _ (fun _ => trivial)
    · split
      · exact InvO.goto h p _ (fun _ => trivial)
      · split
        · exact InvO.setProc h p _ (fun _ => trivial)
        · exact InvO.goto h p _ (fun _ => rd)
    · rename_i mode hat
      rw [hat] at ha
      refine InvO.setProc h p _ (fun hw => ?_)
      rw [if_neg (ha hw)]; trivial
    · rename_i mode hat
      rw [hat] at ha
      split
      · exact InvO.goto (st := st.setFile _ []) h p _ ha
      · exact InvO.goto (st := { (st.setFile st.next []) with path := some st.next, next := st.next + 1 }) h p _ ha
    · rename_i mode i pos hat
      rw [hat] at ha
      split
      · exact InvO.goto (st := st.setFile i _) h p _ ha
      · exact InvO.goto h p _ (fun _ => trivial)
    · split
      · exact InvO.goto h p _ (fun _ => trivial)
      · exact InvO.retMem h p _
    · split
      · exact InvO.goto h p _ (fun _ => trivial)
      · exact InvO.retMem h p _
    · split
      · exact InvO.goto h p .idle (fun _ => trivial)
      · exact InvO.retMem (st := { st with path := none }) h p _

theorem InvO.run {w : Nat} (zero : β) (dump : List β) (s0 : S) (load : List β → Option S) (pkgTime : Nat) : ∀ (es : List CEvent) (st : CSys β S), st.InvO w →
    (∀ p m, CEvent.call p m ∈ es → (m = .write ∨ m = .rw) → p = w) → (cRun zero dump s0 load pkgTime es st).InvO w
  | [], _, h, _ => h
  | e :: es, st, h, he =>
    InvO.run zero dump s0 load pkgTime es _ (InvO.step h zero dump s0 load pkgTime e (fun p m e' => he p m (by rw [← e']; exact List.mem_cons_self))) (fun p m hp => he p m (List.mem_cons_of_mem _ hp))

/-- if a single process calls `get_cf_specs` in the modes that write, no two processes write at the same time -/
theorem oneWriter_of_process (zero : β) (dump : List β) (s0 : S) (load : List β → Option S) (pkgTime : Nat) (es : List CEvent) (w : Nat)
    (he : ∀ p m, CEvent.call p m ∈ es → (m = .write ∨ m = .rw) → p = w) : OneWriter zero dump s0 load pkgTime es (CSys.init : CSys β S) := by
  intro pre post e p q hp hq
  have h := InvO.run (w := w) zero dump s0 load pkgTime pre (CSys.init : CSys β S) (fun _ _ => trivial) (fun p m hpm => he p m (by rw [e]; exact List.mem_append_left _ hpm))
  have is : ∀ r : Nat, (cRun zero dump s0 load pkgTime pre (CSys.init : CSys β S)).isWriting r → r = w := by
    intro r ⟨m, i, pos, hr⟩
    by_cases hrw : r = w
    · exact hrw
    · have := h r hrw
      rw [hr] at this
      exact this.elim
  rw [is p hp, is q hq]

/-- **C215** (one process that writes and any number of readers): a call never gives anything else than the specifications of the configuration, in any mode and in any order of the system calls, even while the file is
being written and even if the process that writes is killed in the middle of a write. -/
theorem C215_one_writer_partial (zero : β) (dump : List β) (s0 : S) (load : List β → Option S) (hl : Pickle dump s0 load) (pkgTime : Nat) (es : List CEvent) (w : Nat)
    (hw : ∀ p m, CEvent.call p m ∈ es → (m = .write ∨ m = .rw) → p = w) (hc : ∀ p, CEvent.call p .clean ∉ es) :
    ∀ o ∈ (cRun zero dump s0 load pkgTime es CSys.init).log, o.result = .ok s0 := by
  intro o ho
  obtain ⟨s, hs⟩ := C215_no_error_partial zero dump s0 load pkgTime es hc o ho
  rcases C215_reading_partial zero dump s0 load hl pkgTime es (oneWriter_of_process zero dump s0 load pkgTime es w hw) o ho with h | ⟨_, h⟩
  · exact h
  · rw [hs] at h; cases h

/-! ## where a call may fail -/

/-- **C215** (where a call may fail): in any state, one event ends at most one call, and the call fails only if it is about to ask for the time of the cache file, or to remove it, and the file does not exist any more. -/
theorem C215_failures (zero : β) (dump : List β) (s0 : S) (load : List β → Option S) (pkgTime : Nat) (e : CEvent) (st : CSys β S) :
    (cStep zero dump s0 load pkgTime e st).log = st.log ∨
      ∃ o, (cStep zero dump s0 load pkgTime e st).log = st.log ++ [o] ∧
        ((∃ s, o.result = .ok s) ∨ (st.path = none ∧ ((o.mode = .read ∧ (st.procs o.proc).at_ = .stat) ∨ (o.mode = .clean ∧ (st.procs o.proc).at_ = .remove)))) := by
  have rm : ∀ (st' : CSys β S) (p : Nat) (m : CacheMode), (st'.retMem p m).log = st'.log ∨ ∃ o : COut S, (st'.retMem p m).log = st'.log ++ [o] ∧ ∃ s, o.result = .ok s := by
    intro st' p m
    unfold CSys.retMem
    split
    · rename_i s _
      exact Or.inr ⟨⟨p, m, .ok s⟩, rfl, s, rfl⟩
    · exact Or.inl rfl
  have rm' : ∀ (st' : CSys β S) (p : Nat) (m : CacheMode), st'.log = st.log → (st'.retMem p m).log = st.log ∨
      ∃ o : COut S, (st'.retMem p m).log = st.log ++ [o] ∧
        ((∃ s, o.result = .ok s) ∨ (st.path = none ∧ ((o.mode = .read ∧ (st.procs o.proc).at_ = .stat) ∨ (o.mode = .clean ∧ (st.procs o.proc).at_ = .remove)))) := by
    intro st' p m hl
    rcases rm st' p m with h | ⟨o, h, hs⟩
    · exact Or.inl (by rw [h, hl])
    · exact Or.inr ⟨o, by rw [h, hl], Or.inl hs⟩
  cases e with
  | call p mode =>
    unfold cStep
    dsimp only
    split <;> exact Or.inl rfl
  | kill p => exact Or.inl rfl
  | tick => exact Or.inl rfl
  | run p n =>
    unfold cStep cSyscall
    dsimp only
    split
    · exact Or.inl rfl
    · split
      · exact Or.inl rfl
      · split <;> exact Or.inl rfl
    · split <;> exact Or.inl rfl
    · rename_i hat
      split
      · rename_i hp
        exact Or.inr ⟨⟨p, .read, .error .fileNotFound⟩, rfl, Or.inr ⟨hp, Or.inl ⟨rfl, hat⟩⟩⟩
      · split <;> exact Or.inl rfl
    · split <;> exact Or.inl rfl
    · split
      · exact Or.inl rfl
      · split <;> exact Or.inl rfl
    · exact Or.inl rfl
    · split <;> exact Or.inl rfl
    · split <;> exact Or.inl rfl
    · split
      · exact Or.inl rfl
      · exact rm' st p _ rfl
    · split
      · exact Or.inl rfl
      · exact rm' st p _ rfl
    · rename_i hat
      split
      · rename_i hp
        exact Or.inr ⟨⟨p, .clean, .error .fileNotFound⟩, rfl, Or.inr ⟨hp, Or.inr ⟨rfl, hat⟩⟩⟩
      · exact rm' _ p _ rfl

/-! ## violations -/

/-- **C215** violated (cleaning): two processes that clean the cache at the same time: for one of them `get_cf_specs` raises `FileNotFoundError`, because the file is removed by the other one after it has been found. -/
theorem C215_clean_violated (zero : β) (dump : List β) (s0 : S) (load : List β → Option S) (pkgTime : Nat) :
    ∃ es, (∀ p, CEvent.call p .read ∉ es ∧ CEvent.call p .rw ∉ es) ∧ (cRun zero dump s0 load pkgTime es (CSys.init : CSys β S)).log = [⟨1, .clean, .ok s0⟩, ⟨2, .clean, .error .fileNotFound⟩] :=
  ⟨[.call 0 .write, .run 0 0, .run 0 0, .run 0 0, .call 1 .clean, .call 2 .clean, .run 1 0, .run 1 0, .run 1 0, .run 2 0, .run 2 0, .run 2 0, .run 1 0, .run 2 0, .run 1 0, .run 2 0], fun p => by simp, by
    simp [cRun, cStep, cSyscall, CSys.init, CSys.goto, CSys.setProc, CSys.setFile, CSys.retMem, CSys.ret]⟩

/-- **C215** violated (reading): a process that reads the cache while another one cleans it: `get_cf_specs` raises `FileNotFoundError` to the reader, because `os.stat` is called out of the block that protects the reading. -/
theorem C215_stat_violated (zero : β) (dump : List β) (s0 : S) (load : List β → Option S) (pkgTime : Nat) :
    ∃ es, (cRun zero dump s0 load pkgTime es (CSys.init : CSys β S)).log = [⟨2, .clean, .ok s0⟩, ⟨1, .read, .error .fileNotFound⟩] :=
  ⟨[.call 0 .write, .run 0 0, .run 0 0, .run 0 0, .call 1 .read, .run 1 0, .run 1 0, .call 2 .clean, .run 2 0, .run 2 0, .run 2 0, .run 2 0, .run 2 0, .run 1 0], by
    simp [cRun, cStep, cSyscall, CSys.init, CSys.goto, CSys.setProc, CSys.setFile, CSys.retMem, CSys.ret]⟩

/-- a format whose reader checks the number of bytes -/
def toyLoad (l : List Nat) : Option Nat := if l.length = 3 then l[1]? else none

theorem toy_pickle : Pickle [1, 7, 2] 7 toyLoad := by
  refine ⟨rfl, fun l hp hne => ?_⟩
  have h : l.length ≠ 3 := fun e => hne (hp.eq_of_length e)
  exact if_neg h

/-- **C215** violated (writing): two processes write the cache file at the same time: the second one truncates it, the first one goes on at its position. The file has the length of a complete one, with
bytes that no process has written, and a reader gets other specifications than those of the configuration, although the format detects any truncated file. -/
theorem C215_holes_violated : Pickle [1, 7, 2] 7 toyLoad ∧
    ∃ es, (∀ p m, CEvent.call p m ∈ es → m = .write ∨ m = .read) ∧ (cRun 0 [1, 7, 2] 7 toyLoad 0 es CSys.init).log = [⟨0, .write, .ok 7⟩, ⟨2, .read, .ok 0⟩] :=
  ⟨toy_pickle, [.tick, .call 0 .write, .run 0 0, .run 0 0, .run 0 0, .run 0 1, .call 1 .write, .run 1 0, .run 1 0, .run 1 0, .run 1 0, .run 0 0, .run 0 0, .run 0 0,
    .call 2 .read, .run 2 0, .run 2 0, .run 2 0, .run 2 0, .run 2 5, .run 2 0, .run 2 0], by
      intro p m h
      simp only [List.mem_cons, CEvent.call.injEq, reduceCtorEq, List.not_mem_nil, false_or, or_false] at h
      rcases h with ⟨_, rfl⟩ | ⟨_, rfl⟩ | ⟨_, rfl⟩ <;> simp, rfl⟩

/-! ## the hypotheses are met -/

/-- a process writes the file byte by byte, a reader meets it unfinished and builds the specifications, another reader gets them from the file -/
example : (cRun 0 [1, 7, 2] 7 toyLoad 0 [.tick, .call 0 .write, .run 0 0, .run 0 0, .run 0 0, .run 0 0, .call 1 .read, .run 1 0, .run 1 0, .run 1 0, .run 1 0, .run 1 0, .run 1 0, .run 0 1,
    .run 1 0, .run 1 0, .run 0 0, .run 0 0, .call 2 .read, .run 2 0, .run 2 0, .run 2 0, .run 2 0, .run 2 1, .run 2 1, .run 2 0, .run 2 0] CSys.init).log.map (fun o : COut Nat => (o.proc, o.mode, o.result.toOption)) =
    [(1, .read, some 7), (0, .write, some 7), (2, .read, some 7)] := by decide +kernel

/-- the second reader has read the three bytes of the file -/
example : (match ((cRun 0 [1, 7, 2] 7 toyLoad 0 [.tick, .call 0 .write, .run 0 0, .run 0 0, .run 0 0, .run 0 2, .run 0 0, .run 0 0, .call 2 .read, .run 2 0, .run 2 0, .run 2 0, .run 2 0, .run 2 1, .run 2 1] CSys.init).procs 2).at_ with
    | .reading i acc => (i, acc)
    | _ => (9, [])) = (0, [1, 7, 2]) := by decide +kernel

/-- a process that is killed in the middle of a write: the next reader builds the specifications -/
example : (cRun 0 [1, 7, 2] 7 toyLoad 0 [.tick, .call 0 .write, .run 0 0, .run 0 0, .run 0 0, .run 0 1, .kill 0, .call 2 .read, .run 2 0, .run 2 0, .run 2 0, .run 2 0, .run 2 1, .run 2 1, .run 2 0, .run 2 0] CSys.init).log.map (fun o : COut Nat => (o.proc, o.mode, o.result.toOption)) =
    [(2, .read, some 7)] := by decide +kernel

end Xoa
