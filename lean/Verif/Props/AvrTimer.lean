import Verif.Lemmas.AvrTimer
import Verif.Props.Avr

/-!
# Several steppers on one AVR timer (C83) and the cyclic task (C84)
-/

namespace FAS
namespace AvrTimer

/-- C83, under the condition that between load and store of the shared registers the bits of other steppers do not
change (`Apart`): every stepper is exactly in the state (queue, position, pulses, ...), in which it would be alone
with its own step interrupts and its own API calls, whenever none of its own calls is in progress. -/
theorem C83_independent_partial (a : ArchId) (pin : Nat → Nat) (hi : Nat → Bool) (evs : List Ev)
    (hg : Along a Apart (fresh a pin hi) evs) (i : Nat) (hfree : (run a (fresh a pin hi) evs).Free i) :
    (run a (fresh a pin hi) evs).ch i = Avr.run a (Avr.fresh a (pin i) (hi i)) (own a i (fresh a pin hi) evs) := by
  have h := Inv.run evs (Inv.fresh a pin hi i) hg
  rcases h.rel with ⟨-, he⟩ | ⟨j, hj, -⟩
  · exact he
  · rw [hfree.jobs] at hj
    cases hj

theorem track_fst (a : ArchId) : ∀ (evs : List Avr.Ev) (s : Avr) (t : AvrHist), (Avr.track a s t evs).1 = Avr.run a s evs
  | [], _, _ => rfl
  | ev :: evs, s, _ => track_fst a evs (s.step a ev) _

/-- C83 for the pulses: the pulses of every stepper are the beginning of the pulse train documented for its own
commands, and if its queue has ended, they are this pulse train, whatever the other steppers do. -/
theorem C83_pulses_partial (a : ArchId) (hav : a.isAvr = true) (pin : Nat → Nat) (hi : Nat → Bool) (evs : List Ev)
    (hg : Along a Apart (fresh a pin hi) evs) (i : Nat) (hpin : pin i = pinUndefined ∨ pin i < 128)
    (hfree : (run a (fresh a pin hi) evs).Free i)
    (hplain : ∀ ev ∈ own a i (fresh a pin hi) evs, ev.Plain)
    (hstart : Avr.Along a Avr.NoLateStart (Avr.fresh a (pin i) (hi i)) (own a i (fresh a pin hi) evs))
    (hintime : Avr.Along a Avr.InTime (Avr.fresh a (pin i) (hi i)) (own a i (fresh a pin hi) evs)) :
    let c := (run a (fresh a pin hi) evs).ch i
    let t := (Avr.track a (Avr.fresh a (pin i) (hi i)) ⟨[], []⟩ (own a i (fresh a pin hi) evs)).2
    ∃ rest, t.expected (dirLevelFor (pin i) (hi i)) = c.pulses.reverse ++ rest ∧ (∀ p ∈ rest, c.ocr ≤ p.time) ∧
      (c.q.running = false → rest = []) := by
  intro c _
  have h1 : c = _ := C83_independent_partial a pin hi evs hg i hfree
  have h2 := C10_pulse_train_partial a hav (pin i) hpin (hi i) _ hplain hstart hintime
  rw [h1, ← track_fst a _ _ ⟨[], []⟩]
  exact h2

/-! ## Register operations which are not interrupted -/

/-- What an uninterrupted operation has loaded is what the register contains, and no operation has been interrupted
between load and store. -/
structure Whole (m : AvrTimer) : Prop where
  top : ∀ j l op ops, m.stack.head? = some (some j) → j.loaded = some l → j.ops = op :: ops → l = m.load op
  below : ∀ j, some j ∈ m.stack.tail → j.loaded = none

theorem load_ch {m m' : AvrTimer} (h : m'.ch = m.ch) (h2 : m'.ovf = m.ovf) (op : RegOp) : m'.load op = m.load op := by
  cases op <;> simp only [load, h, h2]

theorem Whole.step {a : ArchId} {m : AvrTimer} (h : Whole m) (ev : Ev) (hu : m.Undivided ev) : Whole (m.step a ev) := by
  -- an event which leaves the lower part of the stack and puts an activity without load on top
  have key : ∀ (m' : AvrTimer), m'.stack.tail = m.stack.tail → (∀ j, m'.stack.head? = some (some j) → j.loaded = none) →
      Whole m' := by
    intro m' h1 h2
    refine ⟨fun j l op ops ht hl _ => ?_, by rw [h1]; exact h.below⟩
    rw [h2 j ht] at hl
    cases hl
  cases ev with
  | compare i => exact key _ rfl hu
  | connect i =>
    simp only [AvrTimer.step]
    split
    · split
      · exact h
      · exact key _ rfl (by intro j hj; cases hj; rfl)
    · exact h
  | api i ev =>
    simp only [AvrTimer.step]
    split
    · rename_i htop
      split
      · have hc := api_cases a m i ev
        generalize AvrTimer.api a m i ev = m' at hc
        cases hc with
        | cmp _ => exact h
        | plain _ => exact key _ rfl (fun j hj => by rw [show (m.setCh i _).stack = m.stack from rfl, htop] at hj; cases hj)
        | addFinish _ _ _ _ => exact key _ rfl (by intro j hj; cases hj; rfl)
        | startNull _ _ _ _ => exact key _ rfl (by intro j hj; cases hj; rfl)
        | forceStop _ _ _ => exact key _ rfl (by intro j hj; cases hj; rfl)
      · exact h
    · exact h
  | proceed now =>
    simp only [AvrTimer.step]
    split
    · rename_i j htop
      unfold AvrTimer.proceed
      split
      · rename_i op ops ho hl
        refine ⟨fun j2 l op2 ops2 ht hl2 ho2 => ?_, h.below⟩
        cases ht
        cases hl2
        rw [show j.ops = op2 :: ops2 from ho2] at ho
        cases ho
        exact (load_ch rfl rfl _).symm
      · exact key _ rfl (by intro j hj; cases hj; rfl)
      · exact key _ rfl (by intro j hj; cases hj)
    · exact h
  | taskBegin =>
    simp only [AvrTimer.step]
    split
    · refine ⟨fun j l op ops ht => (by cases ht), ?_⟩
      intro j hj
      have hj' : some j ∈ m.stack := hj
      cases hs : m.stack with
      | nil => rw [hs] at hj'; cases hj'
      | cons c r =>
        rw [hs] at hj'
        rcases List.mem_cons.mp hj' with hx | hx
        · exact hu j (by rw [hs, ← hx]; rfl)
        · exact h.below j (by rw [hs]; exact hx)
    · exact h
  | taskEnd =>
    simp only [AvrTimer.step]
    split
    · rename_i c rest hs
      have hb := h.below
      rw [hs] at hb
      refine ⟨fun j l op ops ht hl => ?_, fun j hj => hb j (List.mem_cons_of_mem _ hj)⟩
      cases ht
      rw [hb j (by simp)] at hl
      cases hl
    · exact h

theorem Whole.apart {a : ArchId} : ∀ (evs : List Ev) {m : AvrTimer}, Whole m → Along a Undivided m evs →
    Along a Calm m evs → Along a Apart m evs
  | [], _, _, _, _ => trivial
  | ev :: evs, m, h, hu, hc => by
    refine ⟨?_, Whole.apart evs (h.step ev hu.1) hu.2 hc.2⟩
    cases ev with
    | compare i => exact hc.1
    | api i ev => exact hc.1
    | proceed now =>
      intro j l op ops ht hl ho k _
      rw [h.top j l op ops ht hl ho]
    | _ => trivial

/-- C83: if interrupts were disabled during the register operations of start, stop and connect (so that none is
interrupted between load and store), then steppers would not disturb each other. -/
theorem C83_undivided_partial (a : ArchId) (pin : Nat → Nat) (hi : Nat → Bool) (evs : List Ev)
    (hu : Along a Undivided (fresh a pin hi) evs) (hc : Along a Calm (fresh a pin hi) evs) (i : Nat)
    (hfree : (run a (fresh a pin hi) evs).Free i) :
    (run a (fresh a pin hi) evs).ch i = Avr.run a (Avr.fresh a (pin i) (hi i)) (own a i (fresh a pin hi) evs) :=
  C83_independent_partial a pin hi evs
    (Whole.apart evs ⟨fun _ _ _ _ ht => (by cases ht), fun _ hj => (by cases hj)⟩ hu hc) i hfree

/-! ## Decidability of the conditions for concrete schedules -/

instance (m : AvrTimer) (i : Nat) : Decidable (m.Free i) :=
  decidable_of_iff (jobsOn i m.stack = []) ⟨free_of_jobs, Free.jobs⟩

instance (m : AvrTimer) : DecidablePred m.Calm := fun ev => by
  cases ev with
  | compare i =>
    refine decidable_of_iff (∀ j ∈ jobsOn i m.stack, j.kind = .addFinish ∨ j.kind = .startNull → j.ops ≠ []) ?_
    constructor
    · exact fun h j hj hc hk => h j (mem_jobsOn.mpr ⟨hj, hc⟩) hk
    · exact fun h j hj hk => h j (mem_jobsOn.mp hj).1 (mem_jobsOn.mp hj).2 hk
  | api i ev => exact inferInstanceAs (Decidable (m.Free i))
  | _ => exact isTrue trivial

instance (m : AvrTimer) : DecidablePred m.Undivided := fun ev => by
  have : Decidable (∀ j, m.stack.head? = some (some j) → j.loaded = none) :=
    decidable_of_iff ((m.stack.head?.all fun o => o.all fun j => j.loaded.isNone) = true) <| by
      cases m.stack.head? with
      | none => simp
      | some o =>
        cases o with
        | none => simp
        | some j => simp
  cases ev with
  | proceed now => exact isTrue trivial
  | _ => exact this

instance decAlongTimer (a : ArchId) (P : AvrTimer → Ev → Prop) [∀ m, DecidablePred (P m)] :
    ∀ (evs : List Ev) (m : AvrTimer), Decidable (Along a P m evs)
  | [], _ => isTrue trivial
  | _ :: evs, _ =>
    have := decAlongTimer a P evs
    inferInstanceAs (Decidable (_ ∧ _))

/-! ## Examples and refutations -/

/-- Two connected steppers. -/
def twoSteppers : List Ev := callConnect 0 ++ callConnect 1

/-- The cyclic task starts stepper 0 with a step, a pause and a step. -/
def stepPauseStep : List Ev :=
  twoSteppers ++ [.taskBegin] ++ callStart 0 ⟨1000, 1, true⟩ 0 ++ List.replicate 5 (.proceed 0) ++
    callQueue 0 ⟨5000, 0, true⟩ ++ callQueue 0 ⟨1000, 1, true⟩ ++ [.taskEnd]

/-- The next cycle of the task starts stepper 1; the step interrupt of stepper 0 occurs in between, but not between load
and store. -/
def bothRunning : List Ev :=
  stepPauseStep ++ [.taskBegin] ++ callStart 1 ⟨1000, 2, true⟩ 5 ++ List.replicate 2 (.proceed 5) ++ [.compare 0] ++
    List.replicate 3 (.proceed 20) ++ [.compare 1, .taskEnd, .compare 1] ++ List.replicate 5 (.compare 0) ++ [.compare 1, .compare 1]

/-- The conditions are met by a schedule in which both steppers run and their interrupts and calls are interleaved. -/
example :
    let f := fresh .avr328 (fun _ => 5) (fun _ => true)
    let m := run .avr328 f bothRunning
    Along .avr328 Undivided f bothRunning ∧ Along .avr328 Calm f bothRunning ∧ m.Free 0 ∧ m.Free 1 ∧
    (∀ i ∈ [0, 1], (∀ ev ∈ own .avr328 i f bothRunning, ev.Plain) ∧
      Avr.Along .avr328 Avr.NoLateStart (Avr.fresh .avr328 5 true) (own .avr328 i f bothRunning) ∧
      Avr.Along .avr328 Avr.InTime (Avr.fresh .avr328 5 true) (own .avr328 i f bothRunning)) ∧
    (m.ch 0).pulses.reverse.map Pulse.time = [10, 6010] ∧ (m.ch 1).pulses.reverse.map Pulse.time = [30, 1030] := by
  decide +kernel

/-- Refutation of C83 without the condition: the step interrupt of stepper 0 between load and store of the output mode
register by the start of stepper 1. The mode "one" of stepper 0 is restored, and stepper 0 makes one step more than
commanded: three pulses for two steps, and the reported position is 2. -/
theorem C83_extra_step_refuted :
    let f := fresh .avr328 (fun _ => 5) (fun _ => true)
    let evs := stepPauseStep ++ [.taskBegin] ++ callStart 1 ⟨1000, 1, true⟩ 5 ++ [.proceed 5, .compare 0] ++
      List.replicate 4 (.proceed 20) ++ [.taskEnd] ++ List.replicate 5 (.compare 0)
    let m := run .avr328 f evs
    Along .avr328 Calm f evs ∧ m.Free 0 ∧ (m.ch 0).q.running = false ∧ (m.ch 0).q.getCurrentPosition .avr328 0 = 2 ∧
    (m.ch 0).pulses.reverse.map Pulse.time = [10, 1010, 6010] ∧
    ((Avr.run .avr328 (Avr.fresh .avr328 5 true) (own .avr328 0 f evs)).pulses.reverse.map Pulse.time = [10, 6010]) := by
  decide +kernel

/-- Likewise with the interrupt at the end of the pause of stepper 0: it makes one step less than commanded. -/
theorem C83_lost_step_refuted :
    let f := fresh .avr328 (fun _ => 5) (fun _ => true)
    let evs := stepPauseStep ++ [.compare 0, .taskBegin] ++ callStart 1 ⟨1000, 1, true⟩ 5 ++ [.proceed 1000, .compare 0] ++
      List.replicate 4 (.proceed 1020) ++ [.taskEnd] ++ List.replicate 5 (.compare 0)
    let m := run .avr328 f evs
    Along .avr328 Calm f evs ∧ m.Free 0 ∧ (m.ch 0).q.running = false ∧ (m.ch 0).q.getCurrentPosition .avr328 0 = 2 ∧
    (m.ch 0).pulses.reverse.map Pulse.time = [10] ∧
    ((Avr.run .avr328 (Avr.fresh .avr328 5 true) (own .avr328 0 f evs)).pulses.reverse.map Pulse.time = [10, 6010]) := by
  decide +kernel

/-- The start of a stepper by the application is interrupted by a cycle of the task which takes longer than 32768 ticks:
the compare event happens before the start is complete, and the second step follows the first one after 110 ticks
instead of 1000. -/
theorem C83_slow_start_refuted :
    let f := fresh .avr328 (fun _ => 5) (fun _ => true)
    let evs := twoSteppers ++ callStart 1 ⟨1000, 3, true⟩ 0 ++ List.replicate 4 (.proceed 0) ++
      [.taskBegin, .compare 1, .taskEnd, .proceed 32868] ++ List.replicate 4 (.compare 1)
    let m := run .avr328 f evs
    Along .avr328 Undivided f evs ∧ (m.ch 1).q.running = false ∧
    (m.ch 1).pulses.reverse.map Pulse.time = [32768, 32878, 33878] := by
  decide +kernel

/-- A stepper that is running for the API, but has lost its interrupt. -/
structure Dead (i : Nat) (m : AvrTimer) : Prop where
  conn : m.conn i = true
  running : (m.ch i).q.running = true
  irq : (m.ch i).irq = false
  free : m.Free i
  loaded : ∀ j l op ops, some j ∈ m.stack → j.loaded = some l → j.ops = op :: ops →
    (∀ v, op ≠ .mode v) → l.bits i = false

/-- The application does not use forceStopAndNewPosition on stepper `i`. -/
def NoForceStop (i : Nat) : Ev → Prop
  | .api k (.forceStop _) => k ≠ i
  | _ => True

/-- A stepper without interrupt, which is running: only a force stop changes this. -/
theorem dead_call (a : ArchId) (s : Avr) (ev : Avr.Ev) (hr : s.q.running = true) (hi : s.irq = false)
    (hne : ∀ p, ev ≠ .forceStop p) :
    (s.step a ev).q.running = true ∧ (s.step a ev).irq = false ∧ (s.step a ev).pulses = s.pulses := by
  have hP : ∀ q : Queue, ∀ c, (q.prepare a c).1.running = q.running := by
    intro q c
    obtain ⟨e, pe, pr, pw, prun, -⟩ := prepare_spec a q c
    exact prun
  have hC : ∀ (q : Queue) n, (q.commit n).1.running = q.running := by
    intro q n
    unfold Queue.commit
    repeat' split
    all_goals rfl
  have hN : ∀ {q : Queue}, q.running = true → (q.addNull true).start ≠ true := by
    intro q hq hx
    rw [addNull_running hx] at hq
    cases hq
  cases ev with
  | compare => simp [Avr.step, hi, hr]
  | addBegin c st =>
    simp only [Avr.step]
    repeat' split
    all_goals first | exact ⟨hr, hi, rfl⟩ | exact ⟨(hP _ _).trans hr, hi, rfl⟩
  | addCommit =>
    simp only [Avr.step]
    split
    · exact ⟨(hC _ _).trans hr, hi, rfl⟩
    · exact ⟨hr, hi, rfl⟩
  | addFinish now =>
    simp only [Avr.step]
    split
    · rw [hr]; exact ⟨hr, hi, rfl⟩
    · exact ⟨hr, hi, rfl⟩
  | startNull now =>
    simp only [Avr.step]
    split
    · rw [if_neg (hN hr)]; exact ⟨hr, hi, rfl⟩
    · exact ⟨hr, hi, rfl⟩
  | forceStop p => exact absurd rfl (hne p)
  | clearIgnore => exact ⟨hr, hi, rfl⟩
  | extPoll agree =>
    simp only [Avr.step]
    split
    · exact ⟨hr, hi, rfl⟩
    · exact ⟨hr, hi, rfl⟩

theorem Dead.step {a i m} (h : Dead i m) (ev : Ev) (hne : NoForceStop i ev) :
    Dead i (m.step a ev) ∧ ((m.step a ev).ch i).pulses = (m.ch i).pulses := by
  -- in the stack only the first element changes, which gets an activity for another stepper
  have key : ∀ (m' : AvrTimer), m'.stack.tail = m.stack.tail →
      (∀ j, m'.stack.head? = some (some j) → j.chan ≠ i ∧ ∀ l op ops, j.loaded = some l → j.ops = op :: ops →
        (∀ v, op ≠ .mode v) → l.bits i = false) → m'.conn i = true →
      (m'.ch i).q.running = true ∧ (m'.ch i).irq = false ∧ (m'.ch i).pulses = (m.ch i).pulses →
      Dead i m' ∧ (m'.ch i).pulses = (m.ch i).pulses := by
    rintro m' h1 h2 h0 ⟨h3, h4, h5⟩
    have hmem : ∀ j, some j ∈ m'.stack → m'.stack.head? = some (some j) ∨ some j ∈ m.stack := by
      intro j hj
      cases hs : m'.stack with
      | nil => rw [hs] at hj; cases hj
      | cons c r =>
        rw [hs] at hj h1
        rcases List.mem_cons.mp hj with hx | hx
        · exact Or.inl (by rw [← hx]; rfl)
        · exact Or.inr (List.mem_of_mem_tail (by rw [← h1]; exact hx))
    refine ⟨⟨h0, h3, h4, fun j hj => ?_, fun j l op ops hj => ?_⟩, h5⟩
    · rcases hmem j hj with hx | hx
      · exact (h2 j hx).1
      · exact h.free j hx
    · rcases hmem j hj with hx | hx
      · exact (h2 j hx).2 l op ops
      · exact h.loaded j l op ops hx
  have same : (m.ch i).q.running = true ∧ (m.ch i).irq = false ∧ (m.ch i).pulses = (m.ch i).pulses :=
    ⟨h.running, h.irq, rfl⟩
  have htopOld : ∀ j, m.stack.head? = some (some j) → j.chan ≠ i ∧ ∀ l op ops, j.loaded = some l → j.ops = op :: ops →
        (∀ v, op ≠ .mode v) → l.bits i = false := by
    intro j hj
    have hm : some j ∈ m.stack := by rw [stack_of_head hj]; simp
    exact ⟨h.free j hm, fun l op ops => h.loaded j l op ops hm⟩
  -- a call for stepper k
  have call : ∀ k x, (k = i → (x : Avr).q.running = true ∧ x.irq = false ∧ x.pulses = (m.ch i).pulses) →
      ((m.setCh k x).ch i).q.running = true ∧ ((m.setCh k x).ch i).irq = false ∧
        ((m.setCh k x).ch i).pulses = (m.ch i).pulses := by
    intro k x hx
    by_cases hk : k = i
    · subst hk
      rw [setCh_same]
      exact hx rfl
    · rw [setCh_other _ _ (Ne.symm hk)]
      exact same
  cases ev with
  | compare k =>
    exact key _ rfl htopOld h.conn (call k _ (fun hk => by subst hk; exact dead_call a _ .compare h.running h.irq (by simp)))
  | connect k =>
    simp only [AvrTimer.step]
    split
    · split
      · exact ⟨h, rfl⟩
      · rename_i hc
        have hk : k ≠ i := by rintro rfl; exact hc h.conn
        exact key _ rfl (fun j hj => by cases hj; exact ⟨hk, fun l op ops hl => nomatch hl⟩) h.conn same
    · exact ⟨h, rfl⟩
  | api k ev =>
    simp only [AvrTimer.step]
    split
    rotate_left
    · exact ⟨h, rfl⟩
    rename_i htop
    split
    rotate_left
    · exact ⟨h, rfl⟩
    have hc := api_cases a m k ev
    generalize AvrTimer.api a m k ev = m' at hc
    cases hc with
    | cmp _ => exact ⟨h, rfl⟩
    | plain hn =>
      refine key _ rfl (fun j hj => htopOld j hj) h.conn (call k _ (fun hk => ?_))
      subst hk
      exact dead_call a _ ev h.running h.irq (by rintro p rfl; exact hne rfl)
    | addFinish now he hr _ =>
      have hk : k ≠ i := by rintro rfl; rw [h.running] at hr; cases hr
      exact key _ rfl (fun j hj => by cases hj; exact ⟨hk, fun l op ops hl => nomatch hl⟩) h.conn
        (call k _ (fun hx => absurd hx hk))
    | startNull now he _ hs =>
      have hk : k ≠ i := by rintro rfl; have := addNull_running hs; rw [h.running] at this; cases this
      exact key _ rfl (fun j hj => by cases hj; exact ⟨hk, fun l op ops hl => nomatch hl⟩) h.conn
        (call k _ (fun hx => absurd hx hk))
    | forceStop p he _ =>
      subst he
      exact key _ rfl (fun j hj => by cases hj; exact ⟨hne, fun l op ops hl => nomatch hl⟩) h.conn same
  | proceed now =>
    simp only [AvrTimer.step]
    split
    rotate_left
    · exact ⟨h, rfl⟩
    rename_i j htop
    have hj := htopOld j htop
    unfold AvrTimer.proceed
    split
    · rename_i op ops ho hl
      refine key _ rfl (fun j2 hj2 => ?_) h.conn same
      cases hj2
      refine ⟨hj.1, fun l op2 ops2 hl2 ho2 hv => ?_⟩
      cases hl2
      rw [show j.ops = op2 :: ops2 from ho2] at ho
      cases ho
      cases op with
      | mode v => exact absurd rfl (hv v)
      | mask v => exact h.irq
      | ovf => exact h.irq
    · rename_i op ops l ho hl
      have hcn : (m.store j.chan l op).conn i = true := by cases op <;> exact h.conn
      refine key _ rfl (fun j2 hj2 => ?_) hcn ?_
      · cases hj2
        exact ⟨hj.1, fun l op2 ops2 hl2 => nomatch hl2⟩
      · show ((m.store j.chan l op).ch i).q.running = true ∧ ((m.store j.chan l op).ch i).irq = false ∧
          ((m.store j.chan l op).ch i).pulses = _
        cases op with
        | mode v => exact same
        | mask v =>
          refine ⟨h.running, ?_, rfl⟩
          show (if i = j.chan then v else l.bits i) = false
          rw [if_neg (Ne.symm hj.1)]
          exact hj.2 l _ ops hl ho (by simp)
        | ovf => exact ⟨h.running, hj.2 l _ ops hl ho (by simp), rfl⟩
    · refine key _ rfl (fun j2 hj2 => nomatch hj2) ?_ (call j.chan _ (fun hx => absurd hx hj.1))
      dsimp only
      split
      · exact (if_neg (Ne.symm hj.1)).trans h.conn
      · exact h.conn
  | taskBegin =>
    simp only [AvrTimer.step]
    split
    · refine ⟨⟨h.conn, h.running, h.irq, fun j hj => ?_, fun j l op ops hj => ?_⟩, rfl⟩
      · rcases List.mem_cons.mp hj with hx | hx
        · cases hx
        · exact h.free j hx
      · rcases List.mem_cons.mp hj with hx | hx
        · cases hx
        · exact h.loaded j l op ops hx
    · exact ⟨h, rfl⟩
  | taskEnd =>
    simp only [AvrTimer.step]
    split
    · rename_i c rest hs
      have hf := h.free
      have hl := h.loaded
      unfold Free at hf
      rw [hs] at hf hl
      exact ⟨⟨h.conn, h.running, h.irq, fun j hj => hf j (List.mem_cons_of_mem _ hj),
        fun j l op ops hj => hl j l op ops (List.mem_cons_of_mem _ hj)⟩, rfl⟩
    · exact ⟨h, rfl⟩

theorem Dead.run {a i} : ∀ (evs : List Ev) {m}, Dead i m → (∀ ev ∈ evs, NoForceStop i ev) →
    Dead i (m.run a evs) ∧ ((m.run a evs).ch i).pulses = (m.ch i).pulses
  | [], _, h, _ => ⟨h, rfl⟩
  | ev :: evs, m, h, hne => by
    have h1 := h.step (a := a) ev (hne ev (by simp))
    have h2 := Dead.run (a := a) evs h1.1 (fun e he => hne e (by simp [he]))
    exact ⟨h2.1, h2.2.trans h1.2⟩

/-- forceStopAndNewPosition of stepper 1 by the application is interrupted between load and store of the interrupt
enable register by a cycle of the task, which starts stepper 0 with 100 steps. -/
def stopMeetsStart : List Ev :=
  twoSteppers ++ [.taskBegin] ++ callStart 1 ⟨1000, 200, true⟩ 0 ++ List.replicate 5 (.proceed 0) ++ [.taskEnd, .compare 1] ++
    [.api 1 (.forceStop 0), .proceed 0, .taskBegin] ++ callStart 0 ⟨1000, 100, true⟩ 5 ++ List.replicate 5 (.proceed 0) ++
    [.taskEnd] ++ List.replicate 4 (.proceed 10)

/-- Refutation of C83 (and of C11 in presence of a second stepper): a force stop of one stepper disables the interrupt
of another one, which has just been started. From then on this stepper is reported as running, but never makes any
step, whatever happens, except it is force stopped itself. -/
theorem C83_stuck_refuted :
    let m := run .avr328 (fresh .avr328 (fun _ => 5) (fun _ => true)) stopMeetsStart
    Along .avr328 Calm (fresh .avr328 (fun _ => 5) (fun _ => true)) stopMeetsStart ∧
    (m.ch 0).q.getCurrentPosition .avr328 0 = 0 ∧ (m.ch 0).q.qend.pos = 100 ∧
    ∀ evs : List Ev, (∀ ev ∈ evs, NoForceStop 0 ev) →
      ((run .avr328 m evs).ch 0).q.running = true ∧ ((run .avr328 m evs).ch 0).pulses = [] := by
  intro m
  have hdead : Dead 0 m := by
    have hs : m.stack = [none] := by
      have : m.stack.map Option.isNone = [true] := by decide +kernel
      match h : m.stack, this with
      | [none], _ => rfl
    refine ⟨by decide +kernel, by decide +kernel, by decide +kernel, fun j hj => ?_, fun j l op ops hj => ?_⟩
    · rw [hs] at hj; cases List.mem_singleton.mp hj
    · rw [hs] at hj; cases List.mem_singleton.mp hj
  refine ⟨by decide +kernel, by decide +kernel, by decide +kernel, fun evs hne => ?_⟩
  have h := Dead.run (a := .avr328) evs hdead hne
  refine ⟨h.1.running, h.2.trans ?_⟩
  decide +kernel

/-! ## The cyclic task -/

/-- What an activity of the application has loaded from the interrupt enable register contains the overflow bit. -/
def MainOk (o : Option Job) : Prop :=
  ∀ j l op ops, o = some j → j.loaded = some l → j.ops = op :: ops → (∀ v, op ≠ .mode v) → l.ovf = true

/-- What an activity of the task has loaded does not contain it, and it does not set it. -/
def TaskOk (o : Option Job) : Prop :=
  ∀ j, o = some j → .ovf ∉ j.ops ∧ j.kind ≠ .connect ∧
    ∀ l op ops, j.loaded = some l → j.ops = op :: ops → (∀ v, op ≠ .mode v) → l.ovf = false

/-- Before the first stepper is connected: the application is about to enable the overflow interrupt. -/
def InitOk (o : Option Job) : Prop := ∀ j, o = some j → j.kind = .connect ∧ .ovf ∈ j.ops

/-- The phases: nothing connected, the application runs, the task runs. -/
inductive Phase (m : AvrTimer) : Prop where
  | init (o : Option Job) (hs : m.stack = [o]) (hv : m.ovf = false) (hc : ∀ i, m.conn i = false) (ho : InitOk o)
  | main (o : Option Job) (hs : m.stack = [o]) (hv : m.ovf = true) (ho : MainOk o)
  | task (t o : Option Job) (hs : m.stack = [t, o]) (hv : m.ovf = false) (ht : TaskOk t) (ho : MainOk o)

theorem MainOk.idle : MainOk none := fun _ _ _ _ h => nomatch h
theorem TaskOk.idle : TaskOk none := fun _ h => nomatch h
theorem InitOk.idle : InitOk none := fun _ h => nomatch h
theorem MainOk.unloaded {j : Job} (h : j.loaded = none) : MainOk (some j) := by
  intro j' l op ops he hl
  cases he
  rw [h] at hl
  cases hl

theorem startOps_ovf (a : ArchId) (s : Avr) : RegOp.ovf ∉ startOps a s := by simp [startOps]
theorem stopOps_ovf : RegOp.ovf ∉ stopOps := by simp [stopOps]

theorem store_ovf_mode (m : AvrTimer) (i : Nat) (l : Loaded) (v : Bool) : (m.store i l (.mode v)).ovf = m.ovf := rfl

/-- The top of the stack in every phase. -/
theorem Phase.step {a : ArchId} {m : AvrTimer} (h : Phase m) (ev : Ev) : Phase (m.step a ev) := by
  cases ev with
  | compare k =>
    cases h with
    | init o hs hv hc ho => exact .init o hs hv hc ho
    | main o hs hv ho => exact .main o hs hv ho
    | task t o hs hv ht ho => exact .task t o hs hv ht ho
  | connect k =>
    simp only [AvrTimer.step]
    split
    rotate_left
    · exact h
    rename_i hst
    split
    · exact h
    cases h with
    | init o hs hv hc ho =>
      refine .init _ (by show _ :: m.stack.tail = _; rw [hs]; rfl) hv hc ?_
      intro j hj
      cases hj
      exact ⟨rfl, by simp [connectOps]⟩
    | main o hs hv ho => exact .main _ (by show _ :: m.stack.tail = _; rw [hs]; rfl) hv (MainOk.unloaded rfl)
    | task t o hs hv ht ho => rw [hs] at hst; cases hst
  | api k ev =>
    simp only [AvrTimer.step]
    split
    rotate_left
    · exact h
    rename_i htop
    by_cases hconn : m.conn k = true
    rotate_left
    · rw [if_neg hconn]; exact h
    rw [if_pos hconn]
    -- an activity begins
    have begun : ∀ (j : Job) (x : Avr), j.loaded = none → .ovf ∉ j.ops → j.kind ≠ .connect →
        Phase ((m.setCh k x).begin j) := by
      intro j x hl hv1 hk
      cases h with
      | init o hs hv hc ho => rw [hc k] at hconn; cases hconn
      | main o hs hv ho =>
        exact .main _ (by show _ :: m.stack.tail = _; rw [hs]; rfl) hv (MainOk.unloaded hl)
      | task t o hs hv ht ho =>
        refine .task (some j) o (by show _ :: m.stack.tail = _; rw [hs]; rfl) hv ?_ ho
        intro j' he
        cases he
        exact ⟨hv1, hk, fun l op ops hx => by rw [hl] at hx; cases hx⟩
    have hc := api_cases a m k ev
    generalize AvrTimer.api a m k ev = m' at hc
    cases hc with
    | cmp _ => exact h
    | plain hn =>
      cases h with
      | init o hs hv hc ho => exact .init o hs hv hc ho
      | main o hs hv ho => exact .main o hs hv ho
      | task t o hs hv ht ho => exact .task t o hs hv ht ho
    | addFinish now he hr _ => exact begun _ _ rfl (startOps_ovf a _) (by simp)
    | startNull now he _ hs => exact begun _ _ rfl (startOps_ovf a _) (by simp)
    | forceStop p he _ =>
      have := begun ⟨.forceStop p, k, stopOps, none⟩ (m.ch k) rfl stopOps_ovf (by simp)
      rw [setCh_self] at this
      exact this
  | proceed now =>
    simp only [AvrTimer.step]
    split
    rotate_left
    · exact h
    rename_i j htop
    unfold AvrTimer.proceed
    split
    · rename_i op ops ho hl
      cases h with
      | init o hs hv hc hok =>
        rw [hs] at htop
        cases htop
        refine .init _ (by show _ :: m.stack.tail = _; rw [hs]; rfl) hv hc ?_
        intro j2 hj2
        cases hj2
        exact hok j rfl
      | main o hs hv hok =>
        rw [hs] at htop
        cases htop
        refine .main _ (by show _ :: m.stack.tail = _; rw [hs]; rfl) hv ?_
        intro j2 l op2 ops2 hj2 hl2 ho2 hm
        cases hj2
        cases hl2
        cases op with
        | mode v =>
          rw [show j.ops = op2 :: ops2 from ho2] at ho
          cases ho
          exact absurd rfl (hm v)
        | mask v => exact hv
        | ovf => exact hv
      | task t o hs hv ht hok =>
        rw [hs] at htop
        cases htop
        refine .task _ o (by show _ :: m.stack.tail = _; rw [hs]; rfl) hv ?_ hok
        intro j2 hj2
        cases hj2
        refine ⟨(ht j rfl).1, (ht j rfl).2.1, fun l op2 ops2 hl2 ho2 hm => ?_⟩
        cases hl2
        cases op with
        | mode v =>
          rw [show j.ops = op2 :: ops2 from ho2] at ho
          cases ho
          exact absurd rfl (hm v)
        | mask v => exact hv
        | ovf => exact hv
    · rename_i op ops l ho hl
      cases h with
      | init o hs hv hc hok =>
        rw [hs] at htop
        cases htop
        obtain ⟨hk, hmem⟩ := hok j rfl
        by_cases hop : op = .ovf
        · subst hop
          exact .main _ (by show _ :: m.stack.tail = _; rw [hs]; rfl) rfl (MainOk.unloaded rfl)
        · have hcn : ∀ i, (m.store j.chan l op).conn i = false := by cases op <;> exact hc
          have hrest : InitOk (some { j with ops := ops, loaded := none }) := by
            intro j2 hj2
            cases hj2
            rw [ho] at hmem
            rcases List.mem_cons.mp hmem with hx | hx
            · exact absurd hx.symm hop
            · exact ⟨hk, hx⟩
          cases hvv : (m.store j.chan l op).ovf
          · exact .init _ (by show _ :: m.stack.tail = _; rw [hs]; rfl) hvv hcn hrest
          · exact .main _ (by show _ :: m.stack.tail = _; rw [hs]; rfl) hvv (MainOk.unloaded rfl)
      | main o hs hv hok =>
        rw [hs] at htop
        cases htop
        refine .main _ (by show _ :: m.stack.tail = _; rw [hs]; rfl) ?_ (MainOk.unloaded rfl)
        cases op with
        | mode v => exact hv
        | mask v => exact hok j l _ ops rfl hl ho (by simp)
        | ovf => rfl
      | task t o hs hv ht hok =>
        rw [hs] at htop
        cases htop
        obtain ⟨h1, h2, h3⟩ := ht j rfl
        refine .task (some { j with ops := ops, loaded := none }) o (by show _ :: m.stack.tail = _; rw [hs]; rfl) ?_ ?_ hok
        · cases op with
          | mode v => exact hv
          | mask v => exact h3 l _ ops hl ho (by simp)
          | ovf => rw [ho] at h1; exact absurd (by simp) h1
        · intro j2 hj2
          cases hj2
          refine ⟨fun hx => h1 (by rw [ho]; exact List.mem_cons_of_mem _ hx), h2, fun l op ops hx => nomatch hx⟩
    · rename_i ho
      cases h with
      | init o hs hv hc hok =>
        rw [hs] at htop
        cases htop
        obtain ⟨hk, hmem⟩ := hok j rfl
        rw [ho] at hmem
        cases hmem
      | main o hs hv hok => exact .main none (by show _ :: m.stack.tail = _; rw [hs]; rfl) hv MainOk.idle
      | task t o hs hv ht hok =>
        exact .task none o (by show _ :: m.stack.tail = _; rw [hs]; rfl) hv TaskOk.idle hok
  | taskBegin =>
    simp only [AvrTimer.step]
    split
    rotate_left
    · exact h
    rename_i hov
    cases h with
    | init o hs hv hc ho => rw [hv] at hov; cases hov
    | main o hs hv ho => exact .task none o (by show _ :: m.stack = _; rw [hs]) rfl TaskOk.idle ho
    | task t o hs hv ht ho => rw [hv] at hov; cases hov
  | taskEnd =>
    simp only [AvrTimer.step]
    split
    rotate_left
    · exact h
    rename_i c rest hst
    cases h with
    | init o hs hv hc ho => rw [hs] at hst; cases hst
    | main o hs hv ho => rw [hs] at hst; cases hst
    | task t o hs hv ht ho =>
      rw [hs] at hst
      cases hst
      exact .main _ rfl rfl ho

theorem Phase.run {a : ArchId} : ∀ (evs : List Ev) {m : AvrTimer}, Phase m → Phase (m.run a evs)
  | [], _, h => h
  | ev :: evs, _, h => Phase.run evs (h.step (a := a) ev)

/-- C84: for every schedule whatsoever, in which start, stop and connect of steppers are interrupted at any point: the
cyclic task is never entered while it is running (at most the application and one invocation of the task are in
progress), and as soon as a stepper is connected, the task is either running or will be started by the next timer
overflow. -/
theorem C84_task_alive (a : ArchId) (pin : Nat → Nat) (hi : Nat → Bool) (evs : List Ev) :
    let m := run a (fresh a pin hi) evs
    m.stack.length ≤ 2 ∧ ∀ i, m.conn i = true → (m.ovf = true ↔ m.stack.length = 1) := by
  intro m
  have h : Phase m := Phase.run evs (.init none rfl rfl (fun _ => rfl) InitOk.idle)
  cases h with
  | init o hs hv hc ho => exact ⟨by rw [hs]; simp, fun i hx => by rw [hc i] at hx; cases hx⟩
  | main o hs hv ho => exact ⟨by rw [hs]; simp, fun i _ => by rw [hs, hv]; simp⟩
  | task t o hs hv ht ho => exact ⟨by rw [hs]; simp, fun i _ => by rw [hs, hv]; simp⟩

/-- Both cases of C84 occur: the task running in the middle of an activity of the application, and the application
continuing afterwards. -/
example :
    let m := run .avr328 (fresh .avr328 (fun _ => 5) (fun _ => true)) (stopMeetsStart.take 34)
    m.conn 0 = true ∧ m.stack.length = 2 ∧ m.ovf = false ∧
    (run .avr328 m [.taskBegin]).stack.length = 2 ∧
    (run .avr328 (fresh .avr328 (fun _ => 5) (fun _ => true)) stopMeetsStart).ovf = true := by
  decide +kernel

end AvrTimer
end FAS
