import Verif.Model.Due

/-!
# The SAM Due backend with its PWM periods

Adds the time to Model/Due.lean: when the periods of the PWM channel begin and how long they are. All times are in ticks of 21 MHz
(`PWM_CMR_CPRE_MCK_DIV_4`, src/StepperISR_due.cpp:535).

Hardware abstraction, from the comments in src/StepperISR_due.cpp and the description of the peripheral:
* an enabled channel runs through periods one after the other; connected to the step pin it emits a pulse at the begin of each period;
* a period written to `PWM_CPRDUPD` holds from the begin of the next period on (lines 357-360), one written to `PWM_CPRD` of a disabled channel at once;
* `PWM_DIS` takes effect at the end of the period (libsam's pwmc.c); enabling before that keeps the channel running;
* the end of each period sets the flag of the channel in `PWM_ISR1`, whether or not the interrupt is enabled; reading `PWM_ISR1` deletes the
  flags of all channels; with the interrupt enabled a flag left over interrupts at once (lines 661-670). Whether the flag is also set by the end of
  the period at which the channel is disabled, is left open (parameter `flag`).
The interrupt routines run `lat` ticks after their cause. The delays within the interrupt routines are not modelled.
-/

namespace FAS

/-- One channel: `en` is its bit in `PWM_SR`, `dis` a disable request not yet in effect, `next` the begin of the next period, `len` the length of
that period, `fresh` tells that it is the first period after enabling the channel, `chid` is the flag in `PWM_ISR1`, `tIrq` is
`timePWMInterruptEnabled` in µs, `times` are the times of the pulses, newest first. -/
structure DueT where
  s : Due
  en : Bool
  dis : Bool
  next : Nat
  len : Nat
  fresh : Bool
  chid : Bool
  tIrq : Nat
  times : List Nat

namespace DueT

/-- `micros()`: 32 bit. -/
def micros (t : Nat) : Nat := u32 (t / 21)

/-- The time since the interrupt was enabled, with the treatment of the wrap around, src/StepperISR_due.cpp:202-209. Both calls of `micros()` are
assumed to give the same value. -/
def elapsed (t tEn : Nat) : Nat := if t < tEn then u32 (0xFFFFFFFF - tEn + t) else t - tEn

/-- The period of the command in process. -/
def headTicks (q : Queue) : Nat := (q.slot .sam q.readIdx).ticks

/-- `PWM_Handler()` for this channel at time `now`, src/StepperISR_due.cpp:177-302. The command after the completed pause gives the length of the
next period (line 278, 296); without such a command the channel is disabled (lines 246-247). -/
def pwmIsr (now : Nat) (d : DueT) : DueT :=
  let d := { d with chid := false }
  if elapsed (micros now) d.tIrq < 100 then d
  else
    let s := d.s.period
    if s.q.readIdx = d.s.q.readIdx then { d with s := s }
    else if s.q.running then { d with s := s, len := headTicks s.q }
    else { d with s := s, dis := true }

/-- A pulse at time `t` with the interrupt of the step pin at time `now`, src/StepperISR_due.cpp:327-408: lines 389 and 402 (next period), 382
(time), 371-372 (end). -/
def pulse (t now : Nat) (d : DueT) : DueT :=
  let s := d.s.pulse
  let d := { d with times := t :: d.times }
  if s.q.readIdx = d.s.q.readIdx then { d with s := s }
  else if s.q.running then { d with s := s, len := headTicks s.q, tIrq := if s.pause then micros now else d.tIrq }
  else { d with s := s, dis := true }

/-- The begin of the next period (or the end of the last one). -/
def boundary (lat : Nat) (flag : Bool) (d : DueT) : DueT :=
  if !d.en then d
  else if d.dis then { d with en := false, dis := false, chid := d.chid || flag }
  else
    let d1 := { d with next := d.next + d.len, chid := d.chid || !d.fresh, fresh := false }
    let d2 := if d1.s.attached then pulse d.next (d.next + lat) d1 else d1
    if d2.chid && d2.s.irq then pwmIsr (d.next + lat) d2 else d2

/-- `startQueue()` at time `now`, src/StepperISR_due.cpp:605-687; `s` is the state of the queue after it. -/
def starting (now : Nat) (s : Due) (d : DueT) : DueT :=
  let ticks := headTicks s.q
  if s.attached then
    if d.en then { d with s := s, dis := false, len := ticks }
    else { d with s := s, en := true, dis := false, next := now, len := ticks, fresh := true }
  else
    let d1 := if d.en then { d with s := s, dis := false, len := ticks }
      else { d with s := s, en := true, dis := false, next := now + ticks, len := ticks, fresh := false }
    if d1.chid then pwmIsr now d1 else d1

/-- Events of a schedule. -/
inductive Ev where
  /-- the period ends; the interrupt routines run after `lat` -/
  | boundary (lat : Nat) (flag : Bool)
  /-- first phase of addQueueEntry(cmd, start) -/
  | addBegin (c : Cmd) (start : Bool)
  /-- second phase (critical section) -/
  | addCommit
  /-- third phase: eventually start -/
  | addFinish (now : Nat)
  /-- addQueueEntry(NULL, true) -/
  | startNull (now : Nat)
  /-- `PWM_Handler()` is called for the pause of another stepper; it serves all channels with a flag -/
  | otherIsr (now : Nat)
deriving DecidableEq

/-- The effect on the queue, of the events which are phases of `addQueueEntry`. -/
def Ev.base : Ev → Option Due.Ev
  | .boundary _ _ => none
  | .addBegin c st => some (.addBegin c st)
  | .addCommit => some .addCommit
  | .addFinish _ => some .addFinish
  | .startNull _ => some .startNull
  | .otherIsr _ => none

/-- Executes an event. -/
def step (d : DueT) : Ev → DueT
  | .boundary lat flag => d.boundary lat flag
  | .addBegin c st => { d with s := d.s.step (.addBegin c st) }
  | .addCommit => { d with s := d.s.step .addCommit }
  | .addFinish now =>
    let s := d.s.step .addFinish
    if !d.s.q.running && s.q.running then d.starting now s else { d with s := s }
  | .startNull now =>
    let s := d.s.step .startNull
    if !d.s.q.running && s.q.running then d.starting now s else { d with s := s }
  | .otherIsr now => if d.chid then d.pwmIsr now else d

/-- Executes a schedule. -/
def run (d : DueT) (evs : List Ev) : DueT := evs.foldl step d

end DueT
end FAS
