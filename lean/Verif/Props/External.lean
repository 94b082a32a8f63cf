import Verif.Lemmas.External
import Verif.Props.AddEntry
import Verif.Model.Engine

/-!
# External direction pins: C16
-/

namespace FAS
open Spec Stepper

/-! ## The interrupt -/

/-- C16, first part: every pulse is emitted for a queued command while the level required for this command is the one which has been
confirmed last. For AVR, for every schedule of interrupts, commands and callback answers, with commands as added by
`FastAccelStepper::addQueueEntry` (`C16_turns_at_pauses`). Not covered: schedules with a force stop, and a start with the level
of the last direction not confirmed (`C16_low_counts_up_refuted`, `C16_force_stop_refuted`). -/
theorem C16_confirmed_partial (a : ArchId) (ha : a.externalDir = true) (s : Avr) (l : ExtLog) (h : s.ExtIdle a l) (evs : List Avr.Ev)
    (hp : Avr.Along a Avr.ExtTurn s evs) : (Avr.watch a s l evs).2.Confirmed :=
  (XInv.run ha evs (XInv.idle h) hp).pulses

/-- A fresh AVR stepper with external direction pin 5. -/
def extAvr : Avr := Avr.fresh .avr328 (128 + 5) true

theorem extAvr_idle : extAvr.ExtIdle .avr328 ⟨some true, []⟩ where
  idx := by decide
  irq := rfl
  one := rfl
  ready := rfl
  ign := rfl
  pc := rfl
  pin := by decide
  sync := by decide
  clean := fun _ => rfl
  conf := rfl
  pulses := rfl

/-- Two steps up, the pauses with the change of direction, a step down. -/
def extEvs : List Avr.Ev :=
  [.addBegin ⟨2000, 2, true⟩ true, .addCommit, .addFinish 0, .compare, .addBegin ⟨8000, 0, false⟩ true, .addCommit, .addFinish 0,
   .addBegin ⟨8000, 0, false⟩ true, .addCommit, .addFinish 0, .addBegin ⟨2000, 1, false⟩ true, .extPoll true, .addCommit, .addFinish 0,
   .compare, .compare, .extPoll false, .compare, .compare, .compare, .compare]

/-- Non-vacuity: the change of direction is confirmed after many repetitions of the pause, only then the last step is executed. -/
example : Avr.Along .avr328 Avr.ExtTurn extAvr (extEvs ++ [.extPoll true, .compare, .compare, .compare]) ∧
    (Avr.watch .avr328 extAvr ⟨some true, []⟩ extEvs).2 = ⟨none, [(some true, some true), (some true, some true)]⟩ ∧
    (Avr.watch .avr328 extAvr ⟨some true, []⟩ (extEvs ++ [.extPoll true, .compare, .compare, .compare])).2 =
      ⟨some false, [(some false, some false), (some true, some true), (some true, some true)]⟩ := by
  refine ⟨?_, ?_, ?_⟩ <;> decide +kernel

/-- C16, second part: as long as the answer is missing, the queue repeats the pause. If the level required for the command in process is not
confirmed, then without a confirming answer no step is executed, and this command stays the one in process. -/
theorem C16_waits_partial (a : ArchId) (ha : a.externalDir = true) (s : Avr) (l : ExtLog) (h : s.ExtIdle a l) (evs1 evs2 : List Avr.Ev)
    (hp : Avr.Along a Avr.ExtTurn s (evs1 ++ evs2)) (hn : ∀ ev ∈ evs2, ev ≠ .extPoll true) :
    let r1 := Avr.watch a s l evs1
    let r2 := Avr.watch a s l (evs1 ++ evs2)
    r1.1.q.requiredLevel a ≠ none → r1.1.q.requiredLevel a ≠ r1.2.conf →
    r2.2.pulses = r1.2.pulses ∧ r2.1.q.requiredLevel a = r1.1.q.requiredLevel a ∧
    (Hw.readOut a ⟨r2.1.q, 0⟩).head? = (Hw.readOut a ⟨r1.1.q, 0⟩).head? := by
  intro r1 r2 hreq hconf
  have hw : ∀ (e1 : List Avr.Ev) (s : Avr) (l : ExtLog), Avr.watch a s l (e1 ++ evs2) = Avr.watch a (Avr.watch a s l e1).1 (Avr.watch a s l e1).2 evs2 := by
    intro e1
    induction e1 with
    | nil => intro s l; rfl
    | cons e es ih => intro s l; exact ih _ _
  have hal : ∀ (e1 : List Avr.Ev) (s : Avr) (l : ExtLog), Avr.Along a Avr.ExtTurn s (e1 ++ evs2) →
      Avr.Along a Avr.ExtTurn s e1 ∧ Avr.Along a Avr.ExtTurn (Avr.watch a s l e1).1 evs2 := by
    intro e1
    induction e1 with
    | nil => intro s l h; exact ⟨trivial, h⟩
    | cons e es ih => intro s l h; exact ⟨⟨h.1, (ih _ (l.observe a s e) h.2).1⟩, (ih _ _ h.2).2⟩
  obtain ⟨hp1, hp2⟩ := hal evs1 s l hp
  have hx := XInv.run ha evs1 (XInv.idle h) hp1
  have hne : r1.1.q.queueEntries ≠ 0 := by
    intro h0
    apply hreq
    unfold Queue.requiredLevel Hw.readOut
    simp [h0]
  have h0 : 0 < xcount r1.1.q r1.1.pc.isPrep := by unfold xcount; omega
  have hlv := hx.xq.lvl 0 h0
  rw [Nat.add_zero] at hlv
  have hrl := requiredLevel_head a r1.1.q hx.xq.idx hne
  have hrep : (r1.1.q.slot a r1.1.q.readIdx).repeatEntry = true := by
    rcases hx.xq.head h0 with h1 | h1
    · exfalso
      apply hconf
      change r1.1.q.requiredLevel a = (Avr.watch a s l evs1).2.conf
      rw [h1.2, hrl, ← hlv]
    · exact h1.1
  obtain ⟨w1, w2, w3, w4⟩ := hx.wait ha evs2 hp2 hn hne hrep
  have hr2 : r2 = Avr.watch a r1.1 r1.2 evs2 := hw evs1 s l
  have hx2 := XInv.run ha evs2 hx hp2
  have hro : ∀ q : Queue, q.IdxOK a → q.queueEntries ≠ 0 → (Hw.readOut a ⟨q, 0⟩).head? =
      some ⟨(q.slot a q.readIdx).ticks, (q.slot a q.readIdx).steps, (q.slot a q.readIdx).countUp⟩ := by
    intro q hi hq
    have : Hw.readOut a ⟨q, 0⟩ = (q.pending a).map fun e => (⟨e.ticks, e.steps, e.countUp⟩ : Cmd) := by
      unfold Hw.readOut Queue.pending
      rw [List.map_map]
      apply List.map_congr_left
      intro k _
      by_cases hk : k = 0
      · subst hk; rfl
      · simp only [hk, if_false]; rfl
    rw [this, (Queue.pending_cons a q hi hq).1]
    rfl
  have hup : r2.1.q.dirHighCountsUp = r1.1.q.dirHighCountsUp := by
    rw [hr2]
    exact (watch_up a evs2 r1.1 r1.2)
  rw [hr2]
  refine ⟨w1, ?_, ?_⟩
  · rw [hrl, requiredLevel_head a _ hx2.xq.idx w4, w2, w3, ← hr2, hup]
  · rw [hro _ hx.xq.idx hne, hro _ hx2.xq.idx w4, w2, w3]

/-- Non-vacuity: in the example above the queue waits. -/
example : let r := Avr.watch .avr328 extAvr ⟨some true, []⟩ extEvs
    r.1.q.requiredLevel .avr328 = some false ∧ r.2.conf = none := by decide +kernel

/-- C16 is false, if LOW counts up: `setDirectionPin(pin | PIN_EXTERNAL_FLAG, false)` on a fresh stepper. The queue assumes level HIGH at start, so that
the very first command up is repeated until the pin is confirmed, although it has a step: after `n` interrupts `n` steps have been executed
instead of one. -/
theorem C16_low_counts_up_refuted (n : Nat) :
    let evs := [Avr.Ev.addBegin ⟨2000, 1, true⟩ true, .addCommit, .addFinish 0] ++ List.replicate n .compare
    (Avr.watch .avr328 (Avr.fresh .avr328 (128 + 5) false) ⟨none, []⟩ evs).2.pulses = List.replicate n (some false, none) := by
  intro evs
  have key : ∀ (n : Nat) (s : Avr) (l : ExtLog), s.irq = true → s.one = true → s.noMore = false → s.q.readIdx = 0 → s.q.nextWriteIdx = 1 →
      (s.q.slot .avr328 0).repeatEntry = true → (s.q.slot .avr328 0).steps = 1 → (s.q.slot .avr328 0).toggleDir = false →
      (s.q.slot .avr328 0).countUp = true → s.q.dirHighCountsUp = false → l.conf = none →
      (Avr.watch .avr328 s l (List.replicate n .compare)).2.pulses = List.replicate n (some false, none) ++ l.pulses := by
    intro n
    induction n with
    | zero => intros; rfl
    | succ n ih =>
      intro s l h1 h2 h3 h4 h5 h6 h7 h8 h9 h10 h11
      have hq : Avr.toggleFor (s.q.slot .avr328 0) s.q = s.q := by unfold Avr.toggleFor; rw [h8]; rfl
      have hs : s.step .avr328 .compare = { s with ocr := s.ocr + (s.q.slot .avr328 0).ticks, pulses := ⟨s.ocr, s.q.dirLevel⟩ :: s.pulses } := by
        have hd : decide ((s.q.slot .avr328 0).steps ≠ 0) = s.one := by rw [h7, h2]; rfl
        simp only [Avr.step]
        rw [if_pos h1, Avr.compare, if_pos h2, Avr.isrBody]
        dsimp only
        rw [if_neg (by rw [h4, h5]; decide), h4, if_neg (by rw [h7]; decide), if_neg (by rw [h3]; decide), if_pos h6, hq, hd]
      have hl : l.observe .avr328 s .compare = ⟨l.conf, (some false, none) :: l.pulses⟩ := by
        have hr : s.q.requiredLevel .avr328 = some false := by
          have hi : s.q.IdxOK .avr328 := by unfold Queue.IdxOK Queue.queueEntries subU8; rw [h4, h5]; decide
          rw [requiredLevel_head .avr328 s.q hi (by unfold Queue.queueEntries subU8; rw [h4, h5]; decide), h4, h9, h10]
          rfl
        simp only [ExtLog.observe, h1, h2, Bool.and_true, if_true, hr, h11]
      change (Avr.watch .avr328 (s.step .avr328 .compare) (l.observe .avr328 s .compare) (List.replicate n .compare)).2.pulses = _
      rw [hs, hl]
      refine (ih _ _ (by exact h1) (by exact h2) (by exact h3) (by exact h4) (by exact h5) (by exact h6) (by exact h7) (by exact h8) (by exact h9)
        (by exact h10) (by exact h11)).trans ?_
      rw [List.replicate_succ']
      simp
  have := key n (Avr.run .avr328 (Avr.fresh .avr328 (128 + 5) false) [.addBegin ⟨2000, 1, true⟩ true, .addCommit, .addFinish 0]) ⟨none, []⟩
    (by decide +kernel) (by decide +kernel) (by decide +kernel) (by decide +kernel) (by decide +kernel) (by decide +kernel) (by decide +kernel)
    (by decide +kernel) (by decide +kernel) (by decide +kernel) rfl
  rw [List.append_nil] at this
  simp only [Avr.run, List.foldl] at this
  simp only [evs, List.cons_append, List.nil_append, Avr.watch, ExtLog.observe]
  exact this

/-- C16 is false with a force stop between the change of direction and its confirmation: the pauses are dropped, but the queue remembers
the direction, so that the next command in this direction is executed without any call of the callback. -/
theorem C16_force_stop_refuted :
    ∃ evs, (Avr.watch .avr328 extAvr ⟨some true, []⟩ evs).2.pulses = [(some false, some true)] ∧
      ∀ ev ∈ evs, ∀ c st, ev = .addBegin c st → c.Valid :=
  ⟨[.addBegin ⟨8000, 0, false⟩ true, .addCommit, .addFinish 0, .addBegin ⟨8000, 0, false⟩ true, .addCommit, .addFinish 0, .forceStop 0, .extPoll true,
    .clearIgnore, .addBegin ⟨2000, 1, false⟩ true, .addCommit, .addFinish 0, .compare], by decide +kernel, by
    intro ev hev c st he
    subst he
    simp only [List.mem_cons, Avr.Ev.addBegin.injEq, reduceCtorEq, false_or, List.not_mem_nil, or_false] at hev
    rcases hev with h | h | h <;> rw [h.1] <;> decide⟩

/-! ## Adding commands -/

/-- A history of calls on a stepper with external direction pin: the queue has accepted the commands `acc`, in this order. Besides `addQueueEntry` anything else
may happen which keeps the direction pin and the direction of the last queued command. -/
inductive ExtHist (a : ArchId) : Stepper → List Cmd → Stepper → Prop
  | nil (s) : ExtHist a s [] s
  | add {s acc s1} (ext gaps busy c st) : ExtHist a s acc s1 →
      ExtHist a s (acc ++ (s1.addQueueEntry a ext gaps busy c st).1.accepted) (s1.addQueueEntry a ext gaps busy c st).1.s
  | other {s acc s1} (s2) : ExtHist a s acc s1 → s2.hw.q.qend.countUp = s1.hw.q.qend.countUp → s2.dirPin = s1.dirPin → ExtHist a s acc s2

/-- C16: with an external direction pin the direction changes only with a pause, for all commands, calls, hardware progress and delays. -/
theorem C16_turns_at_pauses (a : ArchId) (s s' : Stepper) (acc : List Cmd) (hext : pinIsExternal s.dirPin = true) (h : ExtHist a s acc s') :
    TurnsAtPauses s.hw.q.qend.countUp acc := by
  suffices key : (TurnsAtPauses s.hw.q.qend.countUp acc ∧ lastDir s.hw.q.qend.countUp acc = s'.hw.q.qend.countUp) ∧ s'.dirPin = s.dirPin from key.1.1
  induction h with
  | nil => exact ⟨⟨trivial, rfl⟩, rfl⟩
  | @add acc s1 ext gaps busy c st hh ih =>
    obtain ⟨⟨h1, h2⟩, h3⟩ := ih
    obtain ⟨g1, g2⟩ := addQueueEntry_turn a ext gaps busy s1 c st (by rw [h3]; exact hext)
    refine ⟨⟨?_, ?_⟩, (addQueueEntry_frame a ext gaps busy s1 c st).pin.trans h3⟩
    · rw [turns_append, h2]; exact ⟨h1, g1⟩
    · rw [lastDir_append, h2]; exact g2
  | @other acc s1 s2 hh hc hp ih =>
    obtain ⟨⟨h1, h2⟩, h3⟩ := ih
    exact ⟨⟨h1, h2.trans hc.symm⟩, hp.trans h3⟩

/-- An AVR stepper with step pin 9 and external direction pin 5. -/
def extStepper : Stepper :=
  (((Stepper.init .avr328 9).adjustSpeedToStepperCount .avr328 1).setDirectionPin .avr328 none (128 + 5) true 1000).1

/-- Non-vacuity: a step up, then three steps down. -/
example : ∃ acc s', ExtHist .avr328 extStepper acc s' ∧ acc = [⟨2000, 1, true⟩, ⟨8000, 0, false⟩, ⟨8000, 0, false⟩, ⟨2000, 3, false⟩] := by
  have h1 := (ExtHist.nil (a := .avr328) extStepper).add none noProgress false ⟨2000, 1, true⟩ true
  have h2 := h1.add none noProgress false ⟨2000, 3, false⟩ true
  exact ⟨_, _, h2, by decide +kernel⟩

/-- C16: a command in the other direction is preceded by two pauses of 500 us; if there is no space for two pauses, then nothing is enqueued. The block for the
on-delay of the auto enable function is not entered, and the queue is ready for commands. -/
theorem C16_two_pauses_partial (a : ArchId) (ext : ExtPin) (gaps : Nat → Gap) (s : Stepper) (c : Cmd) (st : Bool) (hi : s.hw.q.IdxOK a)
    (hr : s.hw.q.ready = true) (hg : s.hw.q.ignoreCommands = false)
    (hauto : ¬ (s.autoEnable = true ∧ s.counter = 0)) (hext : pinIsExternal s.dirPin = true) (hdef : s.dirPin ≠ pinUndefined)
    (hc : s.hw.q.qend.countUp ≠ c.countUp) (hmax : s.getMaxSpeedInTicks ≤ c.ticks) :
    let r := s.addQueueEntry a ext gaps false c st
    let pause : Cmd := ⟨500 * (a.ticksPerS / 1000000), 0, c.countUp⟩
    if (s.hw.gap a (gaps 0)).q.queueEntries > a.queueLen - 2 then r.2 = AQE_QUEUE_FULL ∧ r.1.accepted = []
    else r.1.accepted = [pause, pause] ++ (if r.2 = AQE_OK then [c] else []) := by
  intro r pause
  have hk : r = (match Call.dirChange a gaps ⟨s, 0, [], []⟩ c st with
      | (k, some code) => (k, code)
      | (k, none) => k.final a gaps c st) := by
    have hae : Call.autoEnable a ext gaps ⟨s, 0, [], []⟩ c st = (⟨s, 0, [], []⟩, none) := by
      unfold Call.autoEnable
      exact if_neg hauto
    simp only [r, addQueueEntry]
    rw [if_neg (by have : s.getMaxSpeedInTicks = s.hw.q.maxSpeedInTicks := rfl; omega), if_neg (by simp), if_neg (fun hx => hdef hx.1)]
    generalize Call.autoEnable a ext gaps ⟨s, 0, [], []⟩ c st = x at hae
    subst hae
    rfl
  rw [hk]
  unfold Call.dirChange
  dsimp only
  rw [if_pos hc, if_pos hext]
  by_cases hfull : (s.hw.gap a (gaps 0)).q.queueEntries > a.queueLen - 2
  · rw [if_pos hfull, if_pos hfull]
    exact ⟨rfl, rfl⟩
  rw [if_neg hfull, if_neg hfull]
  have hp : (⟨u16 (usToTicks a 500), 0, c.countUp⟩ : Cmd) = pause := by
    simp only [pause]
    congr 1
    cases a <;> rfl
  have hmin : a.minCmdTicks ≤ Queue.commandRateTicks pause := by
    have : ∀ b : ArchId, b.minCmdTicks ≤ 500 * (b.ticksPerS / 1000000) := by intro b; cases b <;> decide
    exact this a
  rw [hp]
  have hgi := s.hw.gap_idx a (gaps 0) hi
  have hgf := gap_frame a s (gaps 0)
  generalize hk0 : ({ s := { s with hw := s.hw.gap a (gaps 0) }, n := 0 + 1, accepted := [], writes := [] } : Call) = k0
  have k0s : k0.s = { s with hw := s.hw.gap a (gaps 0) } := by rw [← hk0]
  have k0a : k0.accepted = [] := by rw [← hk0]
  have hlen := a.queueLen_cases
  have h1ok := Call.add_ok a gaps k0 pause st (by rw [k0s]; exact hgi.1) (by rw [k0s]; exact hgf.ready.trans hr)
    (by rw [k0s]; change (s.hw.gap a (gaps 0)).q.queueEntries < _; omega) hmin
  have h1i := Call.add_idx a gaps k0 pause st (by rw [k0s]; exact hgi.1)
  have h1s := Call.add_spec a gaps k0 pause st
  have hig : k0.s.hw.q.ignoreCommands = false := by rw [k0s]; exact hgf.ign.trans hg
  rw [if_neg (by rw [h1ok]; decide)]
  generalize k0.add a gaps pause st = r1 at h1ok h1i h1s
  have h1a : r1.1.accepted = [pause] := by
    rcases h1s.2.2.2 with hx | hx
    · rw [hx.2.2.1, k0a]; rfl
    · rw [hx.1 h1ok] at hig; cases hig
  have hready1 : r1.1.s.hw.q.ready = true := by rw [h1s.1.ready, k0s]; exact hgf.ready.trans hr
  have hig1 : r1.1.s.hw.q.ignoreCommands = false := h1s.1.ign.trans hig
  have h2ok := Call.add_ok a gaps r1.1 pause st h1i.1 hready1 (by
    have := h1i.2
    rw [k0s] at this
    change _ ≤ (s.hw.gap a (gaps 0)).q.queueEntries + 1 at this
    omega) hmin
  have h2s := Call.add_spec a gaps r1.1 pause st
  generalize r1.1.add a gaps pause st = r2 at h2ok h2s
  have h2a : r2.1.accepted = [pause, pause] := by
    rcases h2s.2.2.2 with hx | hx
    · rw [hx.2.2.1, h1a]; rfl
    · rw [hx.1 h2ok] at hig1; cases hig1
  have hig2 : r2.1.s.hw.q.ignoreCommands = false := h2s.1.ign.trans hig1
  rw [if_neg (by rw [h2ok]; decide)]
  dsimp only
  have h3s := (Call.add_spec a gaps r2.1 c st).2.2.2
  have hfin : (r2.1.final a gaps c st).1.accepted = (r2.1.add a gaps c st).1.accepted ∧ (r2.1.final a gaps c st).2 = (r2.1.add a gaps c st).2 := by
    unfold Call.final
    dsimp only
    split <;> exact ⟨rfl, rfl⟩
  rw [hfin.1, hfin.2]
  rcases h3s with hx | hx
  · rw [if_pos hx.1, hx.2.2.1, h2a]
  · rw [if_neg (fun hy => by rw [hx.1 hy] at hig2; cases hig2), hx.2.1, h2a]
    rfl

/-- Non-vacuity: the step down of the example, and a queue with space for one command only. -/
example : let r := extStepper.addQueueEntry .avr328 none noProgress false ⟨2000, 3, false⟩ true
    let full := (addAll .avr328 extStepper (List.replicate 15 (⟨2000, 1, true⟩, noProgress))).1
    r.2 = AQE_OK ∧ r.1.accepted = [⟨8000, 0, false⟩, ⟨8000, 0, false⟩, ⟨2000, 3, false⟩] ∧ full.hw.q.queueEntries = 15 ∧
    (full.addQueueEntry .avr328 none noProgress false ⟨2000, 3, false⟩ true).2 = AQE_QUEUE_FULL := by decide +kernel

/-! ## The cyclic task -/

/-- C16, the polls of the model of the interrupt are what the task does when it services a stepper with external direction pin: the callback `f` is asked
for the level of the command in process, if this command waits for it. If the answer is another level, then the service ends with the
stepper unchanged. Else the queue is the one after a confirming poll (`Avr.Ev.extPoll`), and the ramp is serviced. -/
theorem C16_task_polls (a : ArchId) (ha : a.externalDir = true) (n : Nat) (f : Nat → Bool → Bool) (env : Stepper.Env) (junk : NextCommand)
    (e e' : Engine) (i : Nat) (s : Stepper) (hs : e.stepper i = some s) (hpin : s.dirPin ≠ pinUndefined ∧ pinIsExternal s.dirPin = true)
    (avr : Avr) (hq : avr.q = s.hw.q) (h : e.fillOne a n (some f) env junk i = some e') :
    let cmd := s.hw.q.slot a s.hw.q.readIdx
    let agree := f s.dirPin cmd.dirPinState == cmd.dirPinState
    if cmd.repeatEntry && !agree then e'.stepper i = some s
    else ∃ s' acc, e'.stepper i = some s' ∧
      ({ s with hw := { s.hw with q := (avr.step a (.extPoll agree)).q } } : Stepper).fillQueue a
        { env with busy := fun _ => e.isDirPinBusy n s.dirPin i } junk = some (s', acc) := by
  dsimp only
  have hset : ∀ x : Stepper, (e.set i x).stepper i = some x := by intro x; unfold Engine.set; simp
  have key : (Engine.extDirPoll a (some f) s).2 = false ∧ e'.stepper i = some (Engine.extDirPoll a (some f) s).1 ∨
      (Engine.extDirPoll a (some f) s).2 = true ∧ ∃ s' acc, e'.stepper i = some s' ∧
        (Engine.extDirPoll a (some f) s).1.fillQueue a { env with busy := fun _ => e.isDirPinBusy n s.dirPin i } junk = some (s', acc) := by
    unfold Engine.fillOne at h
    rw [hs] at h
    dsimp only at h
    rw [if_pos ha] at h
    generalize Engine.extDirPoll a (some f) s = r at h ⊢
    split at h
    · rename_i hr
      split at h
      · cases h
      · rename_i s' acc hf
        cases h
        exact Or.inr ⟨hr, s', acc, hset _, hf⟩
    · rename_i hr
      cases h
      exact Or.inl ⟨by simpa using hr, hset _⟩
  have hpin' : (s.hw.q.dirPin != pinUndefined && pinIsExternal s.hw.q.dirPin) = true := by
    have h2 : (s.hw.q.dirPin != pinUndefined) = true := bne_iff_ne.mpr hpin.1
    rw [h2]
    exact hpin.2
  generalize hag : (f s.dirPin (s.hw.q.slot a s.hw.q.readIdx).dirPinState == (s.hw.q.slot a s.hw.q.readIdx).dirPinState) = agree
  have hag' : (f s.dirPin (s.hw.q.slot a s.hw.q.readIdx).dirPinState = (s.hw.q.slot a s.hw.q.readIdx).dirPinState) ↔ agree = true := by
    rw [← hag]; simp
  have hstep : (avr.step a (.extPoll agree)).q =
      if (s.hw.q.slot a s.hw.q.readIdx).repeatEntry && agree then Avr.clearRepeatingFlag a s.hw.q else s.hw.q := by
    unfold Avr.step
    dsimp only
    rw [hq, hpin', Bool.true_and]
    split
    · rfl
    · exact hq
  have hpoll : Engine.extDirPoll a (some f) s =
      if (s.hw.q.slot a s.hw.q.readIdx).repeatEntry && !agree then (s, false)
      else ({ s with hw := { s.hw with q := (avr.step a (.extPoll agree)).q } }, true) := by
    rw [hstep]
    unfold Engine.extDirPoll
    rw [if_pos hpin]
    dsimp only
    generalize hrep : (s.hw.q.slot a s.hw.q.readIdx).repeatEntry = rep
    cases rep
    · rfl
    · cases agree
      · rw [if_pos rfl, if_pos (by rw [ne_eq, hag']; decide)]
        rfl
      · rw [if_pos rfl, if_neg (by rw [ne_eq, hag']; decide)]
        rfl
  rw [hpoll] at key
  cases hc : ((s.hw.q.slot a s.hw.q.readIdx).repeatEntry && !agree)
  · rw [hc] at key
    rcases key with ⟨h1, -⟩ | ⟨-, h2⟩
    · cases h1
    · exact h2
  · rw [hc] at key
    rcases key with ⟨-, h2⟩ | ⟨h1, -⟩
    · exact h2
    · cases h1

/-- Non-vacuity: the step down of the example waits for the pin, the callback refuses. -/
example : let s := (extStepper.addQueueEntry .avr328 none noProgress false ⟨2000, 3, false⟩ true).1.s
    (s.hw.q.slot .avr328 s.hw.q.readIdx).repeatEntry = true ∧ (s.hw.q.slot .avr328 s.hw.q.readIdx).dirPinState = false ∧
    s.dirPin ≠ pinUndefined ∧ pinIsExternal s.dirPin = true := by decide +kernel

end FAS
