import Verif.OptThreads
import Verif.OptionsProps

/-! # C216: options and threads -/

namespace Xoa

/-! ## a call that is not interrupted -/

/-- what a call does in the sequential model: the options, the result and the contexts of the thread -/
def seqCall (user : Opts) (op : TOp) (saved : List (Option Nat)) (o : OSt) : OSt × TRes × List (Option Nat) :=
  match op with
  | .get sec opt => ((getOption user sec opt o).1, .got (getOption user sec opt o).2, saved)
  | .load c => ((loadOptions user (.cfg c) o).1, .done, saved)
  | .enter sec os =>
    if (setInit user sec os o).2.1 then ((setInit user sec os o).1, if o.cur = none then .keyError else .configError, saved)
    else ((setInit user sec os o).1, .done, (setInit user sec os o).2.2 :: saved)
  | .exit => match saved with
    | [] => (o, .done, [])
    | old :: rest => ((setExit old o).1, if (setExit old o).2 then .keyError else .done, rest)
  | .reset => ((resetOptions o).1, if (resetOptions o).2 then .keyError else .done, saved)

theorem put_put (o : OSt) (a : Nat) (c d : Opts) : (o.put a c).put a d = o.put a d := by
  unfold OSt.put
  simp

theorem at_put (o : OSt) (a : Nat) (c : Opts) (h : a < o.objs.length) : (o.put a c).at a = c := by
  unfold OSt.put OSt.at
  simp [h]

theorem mergeO_nil (o : Opts) : mergeO o [] = o := rfl

/-- the state after a call -/
structure Ended (s s' : TSys) (t : Nat) (op : TOp) (r : OSt × TRes × List (Option Nat)) : Prop where
  o : s'.o = r.1
  log : s'.log = s.log ++ [⟨t, op, r.2.1⟩]
  mine : s'.threads t = ⟨op, .idle, r.2.2⟩
  others : ∀ u, u ≠ t → s'.threads u = s.threads u

theorem tExec_append (user : Opts) (es es' : List TEvent) (s : TSys) : tExec user (es ++ es') s = tExec user es' (tExec user es s) := by
  induction es generalizing s with
  | nil => rfl
  | cons e es ih => exact ih _

theorem alone_load (user : Opts) (s : TSys) (t : Nat) (c : Opts) (hi : (s.threads t).at_ = .idle) (hwf : ∀ a, s.o.cur = some a → a < s.o.objs.length) :
    ∃ k, Ended s (tExec user (.call t (.load c) :: List.replicate k (.run t)) s) t (.load c) (seqCall user (.load c) (s.threads t).saved s.o) := by
  cases hc : s.o.cur with
  | some a =>
    have := hwf a hc
    refine ⟨3, ?_, ?_, ?_, ?_⟩
    all_goals
      by_cases he : c = []
      all_goals simp [tExec, tStep, hi, tRun, TOp.first, TSys.setThr, TSys.goto, TSys.ret, TSys.after, seqCall, loadOptions, ensure, hc, he, OSt.put, OSt.at, mergeO_nil, this]
    all_goals intro u hu; simp [hu]
  | none =>
    refine ⟨4, ?_, ?_, ?_, ?_⟩
    all_goals
      by_cases he : c = []
      all_goals simp [tExec, tStep, hi, tRun, TOp.first, TSys.setThr, TSys.goto, TSys.ret, TSys.after, seqCall, loadOptions, ensure, hc, he, OSt.put, OSt.at, mergeO_nil]
    all_goals intro u hu; simp [hu]

theorem alone_get (user : Opts) (s : TSys) (t : Nat) (sec : Str) (opt : Option Str) (hi : (s.threads t).at_ = .idle) :
    ∃ k, Ended s (tExec user (.call t (.get sec opt) :: List.replicate k (.run t)) s) t (.get sec opt) (seqCall user (.get sec opt) (s.threads t).saved s.o) := by
  have hr : ∀ (o : OSt) (a : Nat), o.cur = some a → (getOption user sec opt o) = (o, readOption (o.at a) sec opt) := by
    intro o a ha
    unfold getOption readOption
    simp only [ha]
    cases opt with
    | some op => cases get2 sec op (o.at a) <;> rfl
    | none =>
      cases splitOption sec with
      | none => rfl
      | some p => cases hg : get2 p.1 p.2 (o.at a) <;> simp [hg]
  cases hc : s.o.cur with
  | some a =>
    refine ⟨2, ?_, ?_, ?_, ?_⟩
    all_goals simp [tExec, tStep, hi, tRun, TOp.first, TSys.setThr, TSys.goto, TSys.ret, seqCall, hc, hr s.o a hc]
    all_goals intro u hu; simp [hu]
  | none =>
    have h2 : getOption user sec opt s.o = getOption user sec opt (loadOptions user (.cfg []) s.o).1 := by
      have h3 : (loadOptions user (.cfg []) s.o).1.cur = some s.o.objs.length := by simp [loadOptions, ensure, hc]
      unfold getOption
      simp only [hc, h3]
    have h4 : (loadOptions user (.cfg []) s.o).1 = { objs := s.o.objs ++ [validateO user], cur := some s.o.objs.length } := by
      simp [loadOptions, ensure, hc, OSt.at, mergeO_nil]
    have h5 := hr { objs := s.o.objs ++ [validateO user], cur := some s.o.objs.length } s.o.objs.length rfl
    rw [h4, h5] at h2
    refine ⟨6, ?_, ?_, ?_, ?_⟩
    all_goals simp [tExec, tStep, hi, tRun, TOp.first, TSys.setThr, TSys.goto, TSys.ret, TSys.after, seqCall, hc, h2, OSt.put, OSt.at]
    all_goals intro u hu; simp [hu]

theorem alone_enter (user : Opts) (s : TSys) (t : Nat) (sec : Option Str) (os : List (Str × OVal)) (hi : (s.threads t).at_ = .idle) :
    ∃ k, Ended s (tExec user (.call t (.enter sec os) :: List.replicate k (.run t)) s) t (.enter sec os) (seqCall user (.enter sec os) (s.threads t).saved s.o) := by
  cases hc : s.o.cur with
  | none =>
    refine ⟨2, ?_, ?_, ?_, ?_⟩
    all_goals simp [tExec, tStep, hi, tRun, TOp.first, TSys.setThr, TSys.goto, TSys.ret, seqCall, hc, setInit]
    all_goals intro u hu; simp [hu]
  | some a =>
    cases hco : collectOpts sec os [] with
    | none =>
      refine ⟨2, ?_, ?_, ?_, ?_⟩
      all_goals simp [tExec, tStep, hi, tRun, TOp.first, TSys.setThr, TSys.goto, TSys.ret, seqCall, hc, setInit, hco]
      all_goals intro u hu; simp [hu]
    | some c =>
      refine ⟨7, ?_, ?_, ?_, ?_⟩
      all_goals
        by_cases he : c = []
        all_goals simp [tExec, tStep, hi, tRun, TOp.first, TSys.setThr, TSys.goto, TSys.ret, TSys.after, seqCall, hc, setInit, hco, he, loadOptions, ensure, OSt.put, OSt.at, mergeO_nil]
      all_goals intro u hu; simp [hu]

/-- **C216** (calls that are not interrupted): a call whose accesses are not interleaved with those of other threads does what the sequential model says, whatever the other threads have begun. -/
theorem C216_alone (user : Opts) (s : TSys) (t : Nat) (op : TOp) (hi : (s.threads t).at_ = .idle) (hwf : ∀ a, s.o.cur = some a → a < s.o.objs.length) :
    ∃ k, Ended s (tExec user (.call t op :: List.replicate k (.run t)) s) t op (seqCall user op (s.threads t).saved s.o) := by
  cases op with
  | get sec opt => exact alone_get user s t sec opt hi
  | load c => exact alone_load user s t c hi hwf
  | enter sec os => exact alone_enter user s t sec os hi
  | exit =>
    refine ⟨1, ?_, ?_, ?_, ?_⟩
    all_goals
      cases hs : (s.threads t).saved
      all_goals simp [tExec, tStep, hi, tRun, TOp.first, TSys.setThr, TSys.goto, TSys.ret, seqCall, hs]
    all_goals intro u hu; simp [hu]
  | reset =>
    refine ⟨1, ?_, ?_, ?_, ?_⟩
    all_goals
      cases hc : s.o.cur
      all_goals simp [tExec, tStep, hi, tRun, TOp.first, TSys.setThr, TSys.goto, TSys.ret, seqCall, hc, resetOptions]
    all_goals intro u hu; simp [hu]

/-! ## threads that read and load -/

/-- the call asks for an option -/
def TOp.asks (sec opt : Str) : TOp → Prop
  | .get s (some o) => s = sec ∧ o = opt
  | .get s none => splitOption s = some (sec, opt)
  | _ => False

def TCont.fits (op : TOp) : TCont → Prop
  | .ret => ∃ c, op = .load c
  | .read s o => op = .get s o
  | .entered _ => False

/-- the thread is in a call of `get_option` or `load_options`, and gives to the option only values of `W` -/
def Thr.quiet (W : OVal → Prop) (sec opt : Str) (x : Thr) : Prop :=
  match x.at_ with
  | .idle => True
  | .check c k => c.ok ∧ (∀ u, get2 sec opt c = some u → W u) ∧ k.fits x.op
  | .merge c k => c.ok ∧ (∀ u, get2 sec opt c = some u → W u) ∧ k.fits x.op
  | .validate k => k.fits x.op
  | .gcheck s o => x.op = .get s o
  | .gread s o => x.op = .get s o
  | _ => False

/-- the object `a` is in force, the option has a value of `W` in it, and so it was for all the calls that have ended since `l0`; each thread gives to it values of its own `V` only -/
structure InvL (V : Nat → OVal → Prop) (W : OVal → Prop) (sec opt : Str) (a : Nat) (l0 : List TOut) (s : TSys) : Prop where
  cur : s.o.cur = some a
  len : a < s.o.objs.length
  val : ∃ v, get2 sec opt (s.o.at a) = some v ∧ W v
  thr : ∀ t, (s.threads t).quiet (V t) sec opt
  log : ∃ l1, s.log = l0 ++ l1 ∧ ∀ o ∈ l1, o.result ≠ .keyError ∧ (o.op.asks sec opt → ∃ v, o.result = .got (.val v) ∧ W v)

theorem InvL.setThr {V : Nat → OVal → Prop} {W : OVal → Prop} {sec opt : Str} {a : Nat} {l0 : List TOut} {s : TSys} (h : InvL V W sec opt a l0 s) (t : Nat) (x : Thr) (hx : x.quiet (V t) sec opt) :
    InvL V W sec opt a l0 (s.setThr t x) := by
  refine ⟨h.cur, h.len, h.val, ?_, h.log⟩
  intro u
  by_cases hu : u = t
  · simp only [TSys.setThr, hu, if_true]; exact hx
  · simp only [TSys.setThr, if_neg hu]; exact h.thr u

theorem InvL.ret {V : Nat → OVal → Prop} {W : OVal → Prop} {sec opt : Str} {a : Nat} {l0 : List TOut} {s : TSys} (h : InvL V W sec opt a l0 s) (t : Nat) (r : TRes) (hk : r ≠ .keyError)
    (hr : (s.threads t).op.asks sec opt → ∃ v, r = .got (.val v) ∧ W v) : InvL V W sec opt a l0 (s.ret t r) := by
  have g := h.setThr t ⟨(s.threads t).op, .idle, (s.threads t).saved⟩ trivial
  refine ⟨g.cur, g.len, g.val, g.thr, ?_⟩
  obtain ⟨l1, e, hl⟩ := h.log
  refine ⟨l1 ++ [⟨t, (s.threads t).op, r⟩], ?_, ?_⟩
  · show s.log ++ _ = _
    rw [e, List.append_assoc]
  · intro o ho
    rcases List.mem_append.1 ho with ho | ho
    · exact hl o ho
    · rw [List.mem_singleton] at ho; subst ho; exact ⟨hk, hr⟩

/-- the object in force is changed -/
theorem InvL.put {V : Nat → OVal → Prop} {W : OVal → Prop} {sec opt : Str} {a : Nat} {l0 : List TOut} {s : TSys} (h : InvL V W sec opt a l0 s) (c : Opts) (hc : ∃ v, get2 sec opt c = some v ∧ W v) :
    InvL V W sec opt a l0 ({ s with o := s.o.put a c } : TSys) := by
  refine ⟨h.cur, ?_, ?_, h.thr, h.log⟩
  · simp only [OSt.put, List.length_set]; exact h.len
  · rw [at_put _ _ _ h.len]; exact hc

theorem readOption_asks (sec opt s : Str) (o : Option Str) (c : Opts) (v : OVal) (ha : (TOp.get s o).asks sec opt) (hv : get2 sec opt c = some v) : readOption c s o = .val v := by
  unfold readOption
  cases o with
  | some op =>
    obtain ⟨rfl, rfl⟩ := ha
    simp only [hv]
  | none =>
    have : splitOption s = some (sec, opt) := ha
    simp only [this, hv]

theorem InvL.run {V : Nat → OVal → Prop} {W : OVal → Prop} {sec opt : Str} {a : Nat} {l0 : List TOut} {s : TSys} (h : InvL V W sec opt a l0 s) (hV : ∀ t u, V t u → W u) (hW : ∀ v w, W v → effective sec opt (some v) = some w → W w) (user : Opts) (t : Nat) :
    InvL V W sec opt a l0 (tRun user t s) := by
  have ht := h.thr t
  have hc := h.cur
  unfold Thr.quiet at ht
  unfold tRun
  split
  · exact h
  · rename_i c k hat
    rw [hat] at ht
    rw [hc]
    exact h.setThr t _ ht
  · rename_i hat; rw [hat] at ht; exact ht.elim
  · rename_i c k hat
    rw [hat] at ht
    split
    · exact h.setThr t _ ht.2.2
    · rw [hc]
      refine InvL.setThr (h.put _ ?_) t _ ht.2.2
      rw [get2_mergeO sec opt _ c ht.1]
      cases hg : get2 sec opt c with
      | none => exact h.val
      | some u => exact ⟨u, rfl, hV t u (ht.2.1 u hg)⟩
  · rename_i k hat
    rw [hat] at ht
    rw [hc]
    have g : InvL V W sec opt a l0 ({ s with o := s.o.put a (validateO (s.o.at a)) } : TSys) := by
      refine h.put _ ?_
      obtain ⟨v, hv, hw⟩ := h.val
      rw [get2_validateO, hv]
      cases he : effective sec opt (some v) with
      | none =>
        unfold effective at he
        split at he
        · cases he
        · cases he
      | some w => exact ⟨w, rfl, hW v w hw he⟩
    cases k with
    | ret =>
      refine g.ret t _ (by simp) (fun ha => ?_)
      obtain ⟨c, hop⟩ := ht
      have : ((s.threads t).op).asks sec opt := ha
      rw [hop] at this
      exact this.elim
    | read se op => exact g.setThr t _ ht
    | entered old => exact ht.elim
  · rename_i se op hat
    rw [hat] at ht
    rw [hc]
    exact h.setThr t _ ht
  · rename_i se op hat
    rw [hat] at ht
    rw [hc]
    refine h.ret t _ (by simp) (fun ha => ?_)
    obtain ⟨v, hv, hw⟩ := h.val
    rw [ht] at ha
    exact ⟨v, by rw [readOption_asks sec opt se op _ v ha hv], hw⟩
  all_goals (rename_i hat; rw [hat] at ht; exact ht.elim)

/-- the call is one of `get_option` and `load_options`, and gives to the option only values of `W` -/
def TOp.quiet (W : OVal → Prop) (sec opt : Str) : TOp → Prop
  | .get _ _ => True
  | .load c => c.ok ∧ ∀ u, get2 sec opt c = some u → W u
  | _ => False

theorem InvL.step {V : Nat → OVal → Prop} {W : OVal → Prop} {sec opt : Str} {a : Nat} {l0 : List TOut} {s : TSys} (h : InvL V W sec opt a l0 s) (hV : ∀ t u, V t u → W u) (hW : ∀ v w, W v → effective sec opt (some v) = some w → W w) (user : Opts) (e : TEvent)
    (he : ∀ t op, e = .call t op → op.quiet (V t) sec opt) : InvL V W sec opt a l0 (tStep user e s) := by
  cases e with
  | run t => exact h.run hV hW user t
  | call t op =>
    have hq := he t op rfl
    unfold tStep
    dsimp only
    split
    · refine h.setThr t _ ?_
      cases op with
      | get s o => exact rfl
      | load c => exact ⟨hq.1, hq.2, c, rfl⟩
      | enter _ _ => exact hq.elim
      | exit => exact hq.elim
      | reset => exact hq.elim
    · exact h

theorem InvL.exec {V : Nat → OVal → Prop} {W : OVal → Prop} {sec opt : Str} {a : Nat} {l0 : List TOut} (hV : ∀ t u, V t u → W u) (hW : ∀ v w, W v → effective sec opt (some v) = some w → W w) (user : Opts) : ∀ (es : List TEvent) (s : TSys),
    InvL V W sec opt a l0 s → (∀ t op, TEvent.call t op ∈ es → op.quiet (V t) sec opt) → InvL V W sec opt a l0 (tExec user es s)
  | [], _, h, _ => h
  | e :: es, s, h, he => InvL.exec hV hW user es _ (h.step hV hW user e (fun t op e' => he t op (by rw [← e']; exact List.mem_cons_self))) (fun t op hp => he t op (List.mem_cons_of_mem _ hp))

theorem convert_idem (k : Kind) (v w : OVal) (h : convert k v = some w) : convert k w = some w := by
  cases k <;> cases v
  · simp only [convert] at h
    split at h
    · obtain rfl := Option.some.inj h; rfl
    · split at h
      · obtain rfl := Option.some.inj h; rfl
      · cases h
  · simp only [convert] at h; obtain rfl := Option.some.inj h; rfl
  · simp only [convert] at h
    split at h
    · obtain rfl := Option.some.inj h; rfl
    · split at h
      · obtain rfl := Option.some.inj h; rfl
      · cases h
  · simp only [convert] at h; obtain rfl := Option.some.inj h; rfl
  · cases h
  · cases h

theorem effective_idem (sec opt : Str) (v w : OVal) (h : effective sec opt (some v) = some w) : effective sec opt (some w) = some w := by
  unfold effective at h ⊢
  split at h
  · rfl
  · rename_i k d hs
    have h' := Option.some.inj h
    dsimp only at h' ⊢
    cases hc : convert k v with
    | none =>
      rw [hc] at h'
      have : v = w := h'
      subst this
      rw [hc]; rfl
    | some x =>
      rw [hc] at h'
      have : x = w := h'
      subst this
      rw [convert_idem k v x hc]; rfl

/-- **C216** (reading while other threads load): once the options are loaded, any number of threads that call `get_option` and `load_options` at the same time, in any order of their accesses, never get an error because of the others:
an option that had a value always has one, which is its value at the start or a value given by one of the calls of `load_options`, converted or not according to its specifications. -/
theorem C216_only_given_partial (user : Opts) (o : OSt) (a : Nat) (hc : o.cur = some a) (hl : a < o.objs.length) (sec opt : Str) (v0 : OVal) (hv : get2 sec opt (o.at a) = some v0) (es : List TEvent)
    (he : ∀ t op, TEvent.call t op ∈ es → (∃ s x, op = .get s x) ∨ ∃ c, op = .load c ∧ c.ok) :
    ∀ r ∈ (tExec user es (TSys.start o)).log, r.result ≠ .keyError ∧
      (r.op.asks sec opt → ∃ v u, r.result = .got (.val v) ∧ (u = v0 ∨ ∃ t c, TEvent.call t (.load c) ∈ es ∧ get2 sec opt c = some u) ∧ (v = u ∨ some v = effective sec opt (some u))) := by
  let W : OVal → Prop := fun v => ∃ u, (u = v0 ∨ ∃ t c, TEvent.call t (.load c) ∈ es ∧ get2 sec opt c = some u) ∧ (v = u ∨ some v = effective sec opt (some u))
  have hW : ∀ v w, W v → effective sec opt (some v) = some w → W w := by
    intro v w ⟨u, hu, hvu⟩ hw
    refine ⟨u, hu, Or.inr ?_⟩
    rcases hvu with rfl | hvu
    · exact hw.symm
    · rw [effective_idem sec opt u v hvu.symm] at hw
      rw [← hvu, hw]
  have h0 : InvL (fun _ => W) W sec opt a [] (TSys.start o) := ⟨hc, hl, ⟨v0, hv, v0, Or.inl rfl, Or.inl rfl⟩, fun t => trivial, [], rfl, fun _ h => by cases h⟩
  obtain ⟨l1, e, h1⟩ := (InvL.exec (V := fun _ => W) (W := W) (fun _ _ h => h) hW user es _ h0 (by
    intro t op hop
    rcases he t op hop with ⟨s, x, rfl⟩ | ⟨c, rfl, hok⟩
    · trivial
    · exact ⟨hok, fun u hu => ⟨u, Or.inr ⟨t, c, hop, hu⟩, Or.inl rfl⟩⟩)).log
  intro r hr
  rw [e] at hr
  obtain ⟨hk, ha⟩ := h1 r (by simpa using hr)
  refine ⟨hk, fun h => ?_⟩
  obtain ⟨v, hv, u, hu, hvu⟩ := ha h
  exact ⟨v, u, hv, hu, hvu⟩

/-- **C216** (an option that nobody changes): an option of a valid value that no thread loads keeps it for all the threads. -/
theorem C216_unchanged_partial (user : Opts) (o : OSt) (a : Nat) (hc : o.cur = some a) (hl : a < o.objs.length) (sec opt : Str) (v0 : OVal) (hv : get2 sec opt (o.at a) = some v0)
    (hvalid : effective sec opt (some v0) = some v0) (es : List TEvent) (he : ∀ t op, TEvent.call t op ∈ es → (∃ s x, op = .get s x) ∨ ∃ c, op = .load c ∧ c.ok ∧ get2 sec opt c = none) :
    ∀ r ∈ (tExec user es (TSys.start o)).log, r.op.asks sec opt → r.result = .got (.val v0) := by
  intro r hr ha
  obtain ⟨_, h⟩ := C216_only_given_partial user o a hc hl sec opt v0 hv es (fun t op hop => by
    rcases he t op hop with h | ⟨c, h, hok, _⟩
    · exact Or.inl h
    · exact Or.inr ⟨c, h, hok⟩) r hr
  obtain ⟨v, u, hres, hu, hvu⟩ := h ha
  have hu0 : u = v0 := by
    rcases hu with h | ⟨t, c, hop, hg⟩
    · exact h
    · rcases he t _ hop with ⟨s, x, e⟩ | ⟨c', e, _, hn⟩
      · cases e
      · cases e; rw [hn] at hg; cases hg
  subst hu0
  have : v = u := by
    rcases hvu with h | h
    · exact h
    · rw [hvalid] at h; exact Option.some.inj h
  rw [hres, this]

/-! ## what a thread loads is not lost -/

theorem InvL.weaken {V V' : Nat → OVal → Prop} {W W' : OVal → Prop} {sec opt : Str} {a : Nat} {l0 : List TOut} {s : TSys} (h : InvL V W sec opt a l0 s)
    (hv : ∃ v, get2 sec opt (s.o.at a) = some v ∧ W' v) (ht : ∀ t, (s.threads t).quiet (V' t) sec opt) : InvL V' W' sec opt a s.log s :=
  ⟨h.cur, h.len, hv, ht, [], by simp, fun _ h => by cases h⟩

/-- an event of another thread does not change a thread -/
theorem step_other (user : Opts) (s : TSys) (t : Nat) (e : TEvent) (h1 : e ≠ .run t) (h2 : ∀ op, e = .call t op → (s.threads t).at_ ≠ .idle) : (tStep user e s).threads t = s.threads t := by
  cases e with
  | call u op =>
    unfold tStep
    dsimp only
    split
    · rename_i hi
      by_cases hu : t = u
      · subst hu; exact absurd hi (h2 op rfl)
      · simp [TSys.setThr, hu]
    · rfl
  | run u =>
    have hu : t ≠ u := fun e => h1 (by rw [e])
    unfold tStep tRun
    dsimp only
    split
    · rfl
    · split <;> simp [TSys.goto, TSys.setThr, hu]
    · simp [TSys.goto, TSys.setThr, hu]
    · split
      · simp [TSys.goto, TSys.setThr, hu]
      · split <;> simp [TSys.goto, TSys.setThr, TSys.ret, hu]
    · rename_i k _
      split
      · simp [TSys.goto, TSys.setThr, TSys.ret, hu]
      · cases k <;> simp [TSys.goto, TSys.setThr, TSys.ret, TSys.after, hu]
    · split <;> simp [TSys.goto, TSys.setThr, hu]
    · split <;> simp [TSys.goto, TSys.setThr, TSys.ret, hu]
    · simp [TSys.goto, TSys.setThr, hu]
    · split
      · simp [TSys.goto, TSys.setThr, TSys.ret, hu]
      · split <;> simp [TSys.goto, TSys.setThr, TSys.ret, hu]
    · split <;> simp [TSys.goto, TSys.setThr, TSys.ret, hu]
    · split <;> simp [TSys.goto, TSys.setThr, TSys.ret, hu]
    · split <;> simp [TSys.goto, TSys.setThr, TSys.ret, hu]

/-- only the thread `t` gives `v` -/
def givesOnly (t : Nat) (v : OVal) : Nat → OVal → Prop := fun u x => u = t ∧ x = v

def givesNone : Nat → OVal → Prop := fun _ _ => False

theorem quiet_mono {V V' : OVal → Prop} {sec opt : Str} (hV : ∀ u, V u → V' u) {x : Thr} (h : x.quiet V sec opt) : x.quiet V' sec opt := by
  unfold Thr.quiet at h ⊢
  cases hx : x.at_ <;> rw [hx] at h <;> first | trivial | exact ⟨h.1, fun u hu => hV u (h.2.1 u hu), h.2.2⟩

/-- the three phases of the call `load_options(c)` of `t` -/
inductive Phase (sec opt : Str) (a t : Nat) (c : Opts) (v w : OVal) (s : TSys) : Prop
  | before (l0 : List TOut) (h : InvL (givesOnly t v) (fun _ => True) sec opt a l0 s) (hat : (s.threads t).at_ = .check c .ret ∨ (s.threads t).at_ = .merge c .ret)
  | merged (l0 : List TOut) (h : InvL (givesOnly t v) (fun x => x = v ∨ x = w) sec opt a l0 s) (hat : (s.threads t).at_ = .validate .ret)
  | done (l0 : List TOut) (h : InvL givesNone (fun x => x = w) sec opt a l0 s)

theorem Phase.step {sec opt : Str} {a t : Nat} {c : Opts} {v w : OVal} {s : TSys} (h : Phase sec opt a t c v w s) (hok : c.ok) (hv : get2 sec opt c = some v) (hw : effective sec opt (some v) = some w)
    (user : Opts) (e : TEvent) (he : ∀ u op, e = .call u op → op.quiet (fun _ => False) sec opt) : Phase sec opt a t c v w (tStep user e s) := by
  have hww := effective_idem sec opt v w hw
  have he' : ∀ (V : Nat → OVal → Prop) (u : Nat) (op : TOp), e = .call u op → op.quiet (V u) sec opt := by
    intro V u op e'
    have := he u op e'
    cases op with
    | get s o => trivial
    | load c => exact ⟨this.1, fun x hx => (this.2 x hx).elim⟩
    | enter _ _ => exact this
    | exit => exact this
    | reset => exact this
  cases h with
  | before l0 h hat =>
    have hs := h.step (fun _ _ _ => trivial) (fun _ _ _ _ => trivial) user e (he' _)
    by_cases hr : e = .run t
    · subst hr
      rcases hat with hat | hat
      · refine .before l0 hs (Or.inr ?_)
        simp [tStep, tRun, hat, h.cur, TSys.goto, TSys.setThr]
      · have hne : c ≠ [] := by rintro rfl; simp [get2, lookupS] at hv
        refine .merged _ (hs.weaken ?_ hs.thr) ?_
        · refine ⟨v, ?_, Or.inl rfl⟩
          have : (tStep user (.run t) s).o = s.o.put a (mergeO (s.o.at a) c) := by
            simp [tStep, tRun, hat, h.cur, hne, TSys.goto, TSys.setThr]
          rw [this, at_put _ _ _ h.len, get2_mergeO _ _ _ _ hok, hv]; rfl
        · simp [tStep, tRun, hat, h.cur, hne, TSys.goto, TSys.setThr]
    · refine .before l0 hs ?_
      rw [step_other user s t e hr (fun op _ hi => by rw [hi] at hat; rcases hat with h | h <;> cases h)]
      exact hat
  | merged l0 h hat =>
    have hs := h.step (fun _ u hu => Or.inl hu.2) (fun x y hx hy => by
      rcases hx with rfl | rfl
      · rw [hw] at hy; exact Or.inr (Option.some.inj hy).symm
      · rw [hww] at hy; exact Or.inr (Option.some.inj hy).symm) user e (he' _)
    by_cases hr : e = .run t
    · subst hr
      refine .done _ (hs.weaken ?_ ?_)
      · refine ⟨w, ?_, rfl⟩
        have : (tStep user (.run t) s).o = s.o.put a (validateO (s.o.at a)) := by
          simp [tStep, tRun, hat, h.cur, TSys.after, TSys.ret, TSys.goto, TSys.setThr]
        rw [this, at_put _ _ _ h.len, get2_validateO]
        obtain ⟨x, hx, hxx⟩ := h.val
        rw [hx]
        rcases hxx with rfl | rfl
        · exact hw
        · exact hww
      · intro u
        by_cases hu : u = t
        · subst hu
          have : ((tStep user (.run u) s).threads u).at_ = .idle := by
            simp [tStep, tRun, hat, h.cur, TSys.after, TSys.ret, TSys.goto, TSys.setThr]
          unfold Thr.quiet
          rw [this]; trivial
        · exact quiet_mono (fun x hx => hu hx.1) (hs.thr u)
    · refine .merged l0 hs ?_
      rw [step_other user s t e hr (fun op _ hi => by rw [hi] at hat; cases hat)]
      exact hat
  | done l0 h =>
    exact .done l0 (h.step (fun _ _ hu => hu.elim) (fun x y hx hy => by subst hx; rw [hww] at hy; exact (Option.some.inj hy).symm) user e (he' _))

theorem Phase.exec {sec opt : Str} {a t : Nat} {c : Opts} {v w : OVal} (hok : c.ok) (hv : get2 sec opt c = some v) (hw : effective sec opt (some v) = some w)
    (user : Opts) : ∀ (es : List TEvent) (s : TSys), Phase sec opt a t c v w s → (∀ u op, TEvent.call u op ∈ es → op.quiet (fun _ => False) sec opt) → Phase sec opt a t c v w (tExec user es s)
  | [], _, h, _ => h
  | e :: es, s, h, he => Phase.exec hok hv hw user es _ (h.step hok hv hw user e (fun u op e' => he u op (by rw [← e']; exact List.mem_cons_self))) (fun u op hp => he u op (List.mem_cons_of_mem _ hp))

/-- **C216** (what a thread loads is not lost): once the options are loaded, if a thread calls `load_options` with a value of an option that no other call of `load_options` gives, then, from the end of its call, every thread gets this value,
converted according to the specifications, whatever the accesses of the other threads that were in progress. -/
theorem C216_not_lost_partial (user : Opts) (o : OSt) (a : Nat) (hc : o.cur = some a) (hl : a < o.objs.length) (sec opt : Str) (hv0 : get2 sec opt (o.at a) ≠ none) (pre mid post : List TEvent) (t : Nat) (c : Opts) (v w : OVal)
    (hok : c.ok) (hv : get2 sec opt c = some v) (hw : effective sec opt (some v) = some w)
    (he : ∀ u op, TEvent.call u op ∈ pre ++ mid ++ post → (∃ s x, op = .get s x) ∨ ∃ c', op = .load c' ∧ c'.ok ∧ get2 sec opt c' = none)
    (hidle : ((tExec user pre (TSys.start o)).threads t).at_ = .idle)
    (hend : ((tExec user (pre ++ .call t (.load c) :: mid) (TSys.start o)).threads t).at_ = .idle) :
    ∃ l1, (tExec user (pre ++ .call t (.load c) :: mid ++ post) (TSys.start o)).log = (tExec user (pre ++ .call t (.load c) :: mid) (TSys.start o)).log ++ l1 ∧
      ∀ r ∈ l1, r.op.asks sec opt → r.result = .got (.val w) := by
  have hq : ∀ u op, TEvent.call u op ∈ pre ++ mid ++ post → op.quiet (fun _ => False) sec opt := by
    intro u op hop
    rcases he u op hop with ⟨s, x, rfl⟩ | ⟨c', rfl, hok', hn⟩
    · trivial
    · exact ⟨hok', fun x hx => by rw [hn] at hx; cases hx⟩
  obtain ⟨v0, hv0'⟩ := Option.ne_none_iff_exists'.1 hv0
  have h0 : InvL givesNone (fun _ => True) sec opt a [] (TSys.start o) := ⟨hc, hl, ⟨v0, hv0', trivial⟩, fun t => trivial, [], rfl, fun _ h => by cases h⟩
  have h1 := InvL.exec (fun _ _ h => h.elim) (fun _ _ _ _ => trivial) user pre _ h0 (fun u op hop => hq u op (List.mem_append_left _ (List.mem_append_left _ hop)))
  have h2 : Phase sec opt a t c v w (tStep user (.call t (.load c)) (tExec user pre (TSys.start o))) := by
    have e : tStep user (.call t (.load c)) (tExec user pre (TSys.start o)) = (tExec user pre (TSys.start o)).setThr t ⟨.load c, .check c .ret, ((tExec user pre (TSys.start o)).threads t).saved⟩ := by
      simp [tStep, hidle, TOp.first]
    rw [e]
    refine .before _ (InvL.setThr (h1.weaken (V' := givesOnly t v) ⟨_, h1.val.choose_spec.1, trivial⟩ (fun u => quiet_mono (fun x hx => hx.elim) (h1.thr u))) t _ ?_) (Or.inl ?_)
    · exact ⟨hok, fun u hu => ⟨rfl, by rw [hv] at hu; exact (Option.some.inj hu).symm⟩, c, rfl⟩
    · simp [TSys.setThr]
  have h3 := Phase.exec hok hv hw user mid _ h2 (fun u op hop => hq u op (List.mem_append_left _ (List.mem_append_right _ hop)))
  have e3 : tExec user mid (tStep user (.call t (.load c)) (tExec user pre (TSys.start o))) = tExec user (pre ++ .call t (.load c) :: mid) (TSys.start o) := by
    rw [tExec_append]; rfl
  rw [e3] at h3
  have h4 : ∃ l0, InvL givesNone (fun x => x = w) sec opt a l0 (tExec user (pre ++ .call t (.load c) :: mid) (TSys.start o)) := by
    cases h3 with
    | before l0 h hat => rw [hend] at hat; rcases hat with h | h <;> cases h
    | merged l0 h hat => rw [hend] at hat; cases hat
    | done l0 h => exact ⟨l0, h⟩
  obtain ⟨l0, h4⟩ := h4
  have hww := effective_idem sec opt v w hw
  obtain ⟨l1, e, h5⟩ := (InvL.exec (fun _ _ h => h.elim) (fun x y hx hy => by subst hx; rw [hww] at hy; exact (Option.some.inj hy).symm) user post _ (h4.weaken h4.val h4.thr)
    (fun u op hop => hq u op (List.mem_append_right _ hop))).log
  refine ⟨l1, by rw [tExec_append]; exact e, fun r hr ha => ?_⟩
  obtain ⟨x, hx, rfl⟩ := (h5 r hr).2 ha
  exact hx

/-! ## violations -/

/-- **C216** violated (reading during a context of another thread): although the options are loaded and the thread only reads, `get_option` raises `KeyError` if another thread enters a context between its two accesses. -/
theorem C216_key_error_violated (user : Opts) (o : OSt) (a : Nat) (hc : o.cur = some a) (sec : Str) (opt : Option Str) (sec' : Option Str) (os : List (Str × OVal)) :
    ∃ es, (∀ op, TEvent.call 0 op ∈ es → op = .get sec opt) ∧ ∃ r ∈ (tExec user es (TSys.start o)).log, r.thread = 0 ∧ r.result = .keyError := by
  refine ⟨[.call 0 (.get sec opt), .run 0, .call 1 (.enter sec' os), .run 1, .run 1, .run 0], by simp, ⟨0, .get sec opt, .keyError⟩, ?_, rfl, rfl⟩
  cases hco : collectOpts sec' os [] <;>
    simp [tExec, tStep, tRun, TSys.start, TOp.first, TSys.setThr, TSys.goto, TSys.ret, hc, hco]

/-- **C216** violated (first reading): if two threads read an option for the first time, one of them may get an exception object instead of the value, because it finds the options before they are validated. -/
theorem C216_first_read_violated (objs : List Opts) (sec opt : Str) :
    ∃ es, (∀ t op, TEvent.call t op ∈ es → op = .get sec (some opt)) ∧ (⟨1, .get sec (some opt), .got .returnedError⟩ : TOut) ∈ (tExec [] es (TSys.start ⟨objs, none⟩)).log := by
  refine ⟨[.call 0 (.get sec (some opt)), .run 0, .run 0, .run 0, .call 1 (.get sec (some opt)), .run 1, .run 1], by
    intro t op h
    simp at h
    rcases h with ⟨_, h⟩ | ⟨_, h⟩ <;> exact h, ?_⟩
  simp [tExec, tStep, tRun, TSys.start, TOp.first, TSys.setThr, TSys.goto, TSys.ret, OSt.at, readOption, get2, lookupS]

/-- options with a colormap -/
def withCmap (c : Str) : Opts := validateO [("plot".toList, [("cmapdiv".toList, .str c)])]

/-- a call that is not interrupted -/
def wholeCall (t : Nat) (op : TOp) : List TEvent := .call t op :: List.replicate 7 (.run t)

/-- **C216** violated (contexts of two threads): two threads enter and leave a context each, without interruption during the calls; after both have left, the options in force are those of one of the contexts, for good. -/
theorem C216_leak_violated :
    ((tExec [] (wholeCall 0 (.enter none [("plot.cmapdiv".toList, .str "a".toList)]) ++ wholeCall 1 (.enter none [("plot.cmapdiv".toList, .str "b".toList)]) ++ wholeCall 0 .exit ++ wholeCall 1 .exit ++
      wholeCall 2 (.get "plot".toList (some "cmapdiv".toList))) (TSys.start ⟨[withCmap "mine".toList], some 0⟩)).log.map (fun r => (r.thread, r.result))) =
      [(0, .done), (1, .done), (0, .done), (1, .done), (2, .got (.val (.str "a".toList)))] := by decide +kernel

/-- **C216** violated (a reader destroys the options): a thread enters and leaves a context; another one only reads an option meanwhile. The options of the session are lost for good: all the threads get the default value afterwards. -/
theorem C216_reader_violated :
    ((tExec [] ([.call 0 (.enter none [("plot.cmappos".toList, .str "a".toList)]), .run 0, .run 0] ++ [.call 1 (.get "plot".toList (some "cmapdiv".toList)), .run 1, .run 1] ++ List.replicate 7 (.run 0) ++ wholeCall 0 .exit ++
      wholeCall 0 (.get "plot".toList (some "cmapdiv".toList)) ++ List.replicate 7 (.run 1) ++ wholeCall 0 (.get "plot".toList (some "cmapdiv".toList))) (TSys.start ⟨[withCmap "mine".toList], some 0⟩)).log.map
      (fun r => (r.thread, r.result))) =
      [(0, .done), (0, .done), (0, .got (.val (.str "mine".toList))), (1, .got (.val (.str "cmo.balance".toList))), (0, .got (.val (.str "cmo.balance".toList)))] := by decide +kernel

/-! ## the hypotheses are met -/

/-- two threads load different options at the same time and a third one reads, on options that are loaded -/
example : ((tExec [] [.call 0 (.load [("plot".toList, [("cmapdiv".toList, .str "x".toList)])]), .call 1 (.load [("cf".toList, [("cache".toList, .str "no".toList)])]), .run 0, .run 1, .run 1,
      .call 2 (.get "cf".toList (some "cache".toList)), .run 2, .run 2, .run 0, .run 0, .run 1, .call 2 (.get "cf".toList (some "cache".toList)), .run 2, .run 2,
      .call 2 (.get "plot.cmapdiv".toList none), .run 2, .run 2] (TSys.start ⟨[withCmap "mine".toList], some 0⟩)).log.map (fun r => (r.thread, r.result))) =
      [(2, .got (.val (.str "no".toList))), (0, .done), (1, .done), (2, .got (.val (.bool false))), (2, .got (.val (.str "x".toList)))] := by decide +kernel

example : get2 "cf".toList "cache".toList (withCmap "mine".toList) = some (.bool true) ∧ effective "cf".toList "cache".toList (some (.str "no".toList)) = some (.bool false) := by decide +kernel

/-- the hypotheses of `C216_not_lost_partial`: the thread 0 is idle before and after its call -/
example : ((tExec [] ([] ++ .call 0 (.load [("cf".toList, [("cache".toList, .str "no".toList)])]) :: [.run 0, .run 0, .run 0]) (TSys.start ⟨[withCmap "mine".toList], some 0⟩)).threads 0).at_ = .idle := rfl

end Xoa
