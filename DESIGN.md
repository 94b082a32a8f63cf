# Formal model of FastAccelStepper in Lean 4

## Trusted base

* Lean 4.33.0's kernel. Theorems depend at most on the three standard axioms
  `propext`, `Classical.choice`, `Quot.sound` (listed by `Verif/Audit.lean` with `#print axioms`).
  No own axioms, no `sorry`, no `native_decide`, no `bv_decide`.
* The transcription of the C++ text into the Lean definitions (each definition cites file and lines).
* Integer semantics: `uintN_t` values are `Nat` with explicit `% 2^N` wherever the C++ can wrap;
  `int32_t`/`int16_t` are `Int` with explicit two's complement wrap where the project documents
  wrap-around (positions, see README) or the conversion is implementation defined.
  Undefined behaviour which the code does not guard (division by zero, negating `INT32_MIN`) is a
  separate outcome (`none`) of the model function.
* Uninitialised memory is an extra function argument (`junk`) that theorems quantify over.

## Modelled code / not modelled code

See the table at the end ("Coverage"), kept up to date with the modules.

## Style

* `Verif/Model/*.lean` – transcription only, total computable functions.
* `Verif/Spec/*.lean` – small specifications, independent from the model.
* `Verif/Lemmas/*.lean` – helper lemmas.
* `Verif/Props/*.lean` – the property theorems, with a non-vacuity `example` beside each one.
* If the code violates a property: a theorem with suffix `_refuted` gives the concrete witness
  (negation of the property) and the `_partial` theorem gives the exact guard under which it holds.

The architectures are an inductive type `ArchId` (`testPc`, `avr328`, `avr2560`, `avr32u4`, `esp32`, `sam`), theorems
quantify over all of them.

## Plan per property

| Id | Modelled by | Proof method |
|---|---|---|
| C01 | ring `Queue` with u8 indices; ops add/complete/forceStop | refinement to a `List` queue, induction over op lists |
| C02 | `Queue.add` | case analysis, decision table as iff |
| C03 | `Queue.add` | induction over histories |
| C04 | `Queue.getCurrentPosition` (both position field variants) | arithmetic invariant: entry position differs from end position by < 0x2000; case table by omega |
| C05, C06, C07 | `ticksInQueue`, `hasTicksInQueue`, `getActualTicksWithDirection` | induction over the read loop against list sum |
| C08–C12 | AVR interrupt as state machine (timer compare + ISR), `addQueueEntry` in 3 phases | invariant by induction over arbitrary schedules; trace refinement for timing; witness for starved queue |
| C16 | `Avr.watch`: AVR model with an observer of the callback answers (Spec/External.lean); `Stepper.addQueueEntry` with external pin; `Rmt.watch`, `Mcpwm.watch`: the ESP32 backends with the polling of the task (Model/ExternalPin.lean, Spec/ExternalEsp.lean) | queue invariant `XQ` relating repeat flags, levels and the last answer, `EQ` for the ESP32 |
| C13–C15, C24 | `Stepper.addQueueEntry` on top of `Queue.add`; engine with several steppers for sharing | invariant over histories, split function induction |
| C17–C20, C55 | setters | direct, for all arguments (omega) |
| C21–C23 | engine: `manageSteppers`, `stepperConnectToPin` | invariants over lists of steppers |
| C25–C29 | setters / getters | omega / nonlinear arithmetic; witnesses for overflow |
| C30–C33 | `pmfl_*` with tables, `calculate_ticks`, `calculate_ramp_steps` | kernel evaluation over the complete mantissa tables lifted by lemmas to all 32 bit values |
| C34–C40, C54, C57 | `_getNextCommand` transcribed branch by branch | case analysis, invariants over ramp runs, ranking function; C57 also over histories of task cycles (Spec/Cycles.lean) |
| C41–C45, C48 | `RampGenerator`, parameters | case analysis, induction over call/task interleavings |
| C46, C47 | `moveTimed` | loop invariants; witnesses |
| C49 | `fill_queue` | loop invariant |
| C50, C51 | RMT encoders idf4/idf5, symbols decoded by an independent spec | conservation by arithmetic; witnesses |
| C52 | Due ISRs | witness of violation, partial theorem for queues without pause-borne toggles |
| C53 | `isRunning` | direct |
| C56 | `_getNextCommand` with uninitialised result | witness |
| C58, C59 | move/run commands on a stepper at standstill, then the cyclic task | case analysis of the first planned command |
| C60, C61 | `calculate_ticks`, `calculate_ramp_steps` | monotonicity of the logarithmic arithmetic; comparison with real arithmetic over integers; with linear acceleration near-monotonicity from the physical law, compared by sixth powers |
| C62 | `FastAccelStepper::addQueueEntry` | refinement of the queue content |
| C64 | Due ISRs | invariant over schedules, ranking function over the queued steps, witnesses |
| C65, C71 | `forwardStep`/`backwardStep`, `addQueueEntry`, `moveTimed`, `fill_queue` | case analysis; position as ghost sum over the accepted commands |
| C66, C68, C70 | `moveByAcceleration`, period getters, `keepRunning` | reduction to C54/C36 invariants; witnesses |
| C67 | `adjustSpeedToStepperCount`, `getMaxSpeedIn...` | induction over connect histories, arithmetic |
| C69 | set calls, stop calls, task and hardware as events | two runs differing by parameters not applied stay related (simulation by induction over events); invariant for the hand over |
| C63 | RMT backends | ranking function over the parts sent; witnesses of the stuck state |
| C72, C73, C75 | MCPWM/PCNT backend with an abstract pulse counter | invariant over schedules (periods output + periods in queue = periods accepted), ranking function over the missing periods; witnesses |
| C74 | `apply_command`, branch correcting the limit, access by access | case analysis over the arrival point, arithmetic |
| C76 | position of the MCPWM/PCNT backend, both critical sections of `getCurrentPosition` | invariant: position of the first queued command = start + travel of the commands completed, counter = pulses output of the first command; witnesses |
| C77 | position of the RMT backends | invariant: start positions (16 bits) of the queued commands follow those handed over completely; reuse of C50; witnesses |
| C78 | free pulse counter of the ESP32 | induction over the edges: value ≡ net pulses modulo N; composed with the output of the MCPWM (C72, C73) and RMT (C77) drivers; witness |
| C79 | task histories (Spec/Cycles.lean) and the four drivers | composition over the list of queued commands: C57 (C87 for fast moves) gives their signed sum, the driver theorems give pulses and levels |
| C80 | move commands in parts (Model/Preempt.lean), `Meanwhile` = any number of task cycles (Spec/Preempt.lean) | invariants over services (`Served`), one per phase of the call; the parts compose to the calls of the other properties (`InterruptedMoveTo.uninterrupted`, `Fill_body_halves`) |
| C81 | AVR driver with a clock (Spec/Clock.lean): events have times, interrupts are served at or after their compare event | invariant tying the next compare event to the end of the commands accepted; the guards of C08–C10 follow |
| C82 | one task cycle (`fillQueue`), with the clocked AVR driver of C81 | induction over the rounds of the loop: it ends by its condition, by a full queue (the only refusal left) or by the end of the ramp; composed with `ticksInQueue()` of C81 |
| C83 | all steppers of an AVR timer (Model/AvrTimer.lean): connect, start and force stop as sequences of register operations, each a load and a store, interrupted by step interrupts and, if the application is the caller, by the cyclic task | simulation: each stepper of the system is the single stepper of Model/AvrIsr.lean under its own events, with its call in progress taking effect at its end; refutations by concrete schedules, and an invariant for "never again a step" |
| C84 | as C83, with the overflow interrupt enable bit, which is in the same register, and the stack of interrupted activities | invariant with three phases (nothing connected, application, task) |
| C85 | ramp generator and planner as in C57, with arbitrary moves but constant settings; the physical braking distance over the reals (`idealRampSteps`) | invariant `SteadyInv`/`Brakeable`: ramp-up steps ≥ steps of the ramp law for the current period, carried through acceleration, coasting and deceleration; with linear acceleration, whose periods are monotone up to 2 % only (`linearRamp_near`), the shortest period up to a number of steps (`lowest`) takes the place of the ramp; refuted for speeds at which the planner looks ahead further than a command reaches |
| C86 | as C85, and the way to the target | invariant `Approach` over the services of the ramp |
| C87 | as C57 with the cyclic task; the planner's three phases for a period below the minimum command time (`Planner.Long` for long moves, `Planner.Tri` for any distance) | invariant `PlanInv`/`FastWay` over task cycles: every command takes at least the minimum command time, because `n` steps of the ramp law do (`FastRamp.mass`); numbers of the ramp over the reals; for any distance under the guard `hclear` (`C87_fast_move_partial`), which holds when no number of steps is up to 6 % too short for a command at the set speed (`C87_fast_move_clear_partial`); without the guard refuted for distances just above twice the ramp (`C87_fast_move_refuted`: ESP32, 199 µs, 100000 steps/s², `moveTo(257)` ends at 130) |
| C88 | Model/DueTime.lean: PWM periods of the SAM Due (buffered period, delayed disable, interrupt flag, 100 µs filter) around Model/Due.lean | invariant `TInv`: pulses so far plus the documented times of the queue from the next period on = documented times; `SInv` shows that the filter does not strike for slow steps; refuted for fast steps before a pause, for a pause as first command, and for a pause added during the last period |
| C89 | Model/DueBoard.lean: up to six channels of Model/Due.lean with the pin table, the channel tables, the common interrupt with its flags, and the interrupt mask written by `connect` | invariant `Wired` on the tables; per event, the state of stepper i changes by its own events only, induction over the schedule; refuted for connecting during a pause of another stepper and for detaching a running stepper |
| C90 | Spec/RealTime.lean: `fill_queue` (Model/Stepper.lean) and the step interrupt of AVR (Model/AvrIsr.lean) in one timed schedule: each task cycle finds the queue of the driver and the driver gets the calls for the queued commands | invariant `RealInv`: one start only; while the ramp is active, the begin of the last period of the queue is later than the latest queueing of the next cycle. Kept by C82 (supply of the queue after a cycle), C85 (pulse times), and the duration of each command. For all speeds (`C90_any_speed_partial`): Lemmas/Brisk*.lean show that a planned command takes at least 11000 ticks, with three exceptions: up to two immediately before the deceleration begins, where the way up to there has less steps than planned, and one at the target; the reserve of a full queue is then (queueLen - 5) * 11000 ticks. |
| C91 | Model/EspBoard.lean: mapping table, set up, pin routing, delivery of the interrupts, `attachToPulseCounter`, and the two registers shared by the channels (MCPWM int_ena, PCNT_CTRL) as copies read and written back; per stepper the code of Model/Mcpwm.lean | invariant `Wired`; each event changes the channel of a stepper as an event of Model/Mcpwm.lean alone (`step_channel`), so C72/C73 transfer; refutations by concrete schedules followed by any number of periods (`Stuck.periods`) |
| C92 | Model/RmtReg.lean: RMT memory, threshold and end interrupts, continuous mode, the interrupt routine, `startQueue_rmt`, `stop_rmt`, `disconnect_rmt` of the IDF 4 drivers | simulation: `Rel` relates the channel to Model/Rmt.lean (`track_Rel`), with the phases `Ph` of the two parts of the memory; the deadline is `Timely`; C50/C63 then give the output; `Left` counts the words until the end; refutations by concrete schedules, for detach followed by any number of words (`Blind.run`). C3/S3: the same with the phases `PhS` (threshold interrupts for both parts), invariant `JS`, `LeftS` |
| C93 | Model/RmtBoard.lean: channels and queues of all RMT steppers of a chip, the common interrupt service with its interrupt status, the shared interrupt enable register with copies read before a modification | invariant `Wired` for all schedules; `Calm` and `step_channel`: each event changes only the stepper concerned, as Model/RmtReg.lean says for it alone (`fold_spec` for the interrupt service); composed with C92; refutation: lost enable bit, followed by any number of words and interrupts (`blindS`) |
| C94 | control calls in parts (Model/Control.lean), `Interruption` = any number of task cycles and hardware progress (Spec/Control.lean) | invariants over services (`Interruption.induct`); the result is shown to be that of the uninterrupted call at its last moment; the parts compose to the calls of the other properties (`….uninterrupted`); refutations with concrete interruptions |
| C95 | accesses to single bytes of 32 bit variables (Model/Bytes.lean), read or written in any order with an `Interruption` before and after each byte (Spec/Bytes.lean) | each byte is that of a moment of the call; invariants over services show which variables the task does not change; refuted for every order of the bytes with concrete interruptions |
| C96 | `ticksInQueueReads`, `hasTicksInQueueReads`, `actualTicksReads`: every access at its own time (Model/QueueReads.lean) | invariant `Held` of the entries during the call, by induction over events; induction over the read loops |
| C97 | Spec/Drive.lean: as C90, with calls of the application at any time between task cycles | invariant `DriveInv` (Lemmas/DriveRun.lean): the timing part `RealCore` of the invariant of C90, and all commands have at least `L` ticks per step (`SlowInv`, C35); for runs moreover `RunInv` (C54), under which no service ends the ramp and no command is refused for good |
| C98 | Spec/Redirect.lean: `Moving` (an active ramp in any state), `brakingBound`; task cycles as for C57 | the invariant `MoveInv` of C57 also holds after `moveTo()` of an active ramp: the ramp keeps its state, the task takes over target and configuration, and the braking distance is the old one or the one calculated from the current speed, bounded by the law of C61; then termination as for C57. Without a pending change of the acceleration the braking distance does not change, with one it is recalculated (`brakingSteps`); `MildInv` keeps the ramp of the used configuration that of some acceleration up to `A` with some linear acceleration (Props/Halt.lean) |
| C99 | Spec/Halt.lean: `brakingSteps`, `stopPosition`, `ApiCall.Mild`; `Moving` of C98, task cycles as for C57 | the invariant `MoveInv` of C57 is extended to a ramp after `stopMove()` (`Halts`): each service computes the target anew from the remaining braking distance; the way to go is exactly the braking distance, hence at any speed every command decelerates and takes as many steps off the braking distance as it makes (`StepFacts.level`), so the target stays the same, also if the queue refuses the command (`prepare_again`); then termination as for C57 |
| C100 | as C98 and C99, and the four drivers | composition over the list of all commands queued since the hardware was idle: `TaskHist.tracks` gives the end of the queue at the call, C99 and C98 the signed sum of the commands after it, the driver theorems of C79 pulses and levels |

## Coverage

| Source | Modelled | Not modelled |
|---|---|---|
| src/StepperISR.cpp, StepperISR.h | queue ring, `addQueueEntry` (in three phases: prepare, commit in the critical section, start), `getCurrentPosition`, `ticksInQueue`, `hasTicksInQueue`, `getActualTicksWithDirection`, `_initVars`, `setDirPin` → Model/Queue.lean; the queries access by access → Model/QueueReads.lean | port/bit addresses of pins, trace output |
| src/StepperISR_avr.cpp | compare interrupt, `startQueue`, `forceStop`, pin handling as levels → Model/AvrIsr.lean; all channels of the timer with the shared registers, connect, and the cyclic timer interrupt → Model/AvrTimer.lean | what the cyclic timer interrupt does for each stepper is in Model/Engine.lean; pin/timer setup, `prescale` constants |
| src/StepperISR_idf5_esp32_rmt.cpp, idf4_esp32_rmt.cpp, idf4_esp32c3/s3_rmt.cpp | encoders, `startQueue_rmt`, `forceStop_rmt`, end of transmission, `isReadyForCommands` → Model/Rmt.lean; IDF 4: memory, interrupts and registers of a channel → Model/RmtReg.lean; all channels of a chip, `init_rmt`, `connect_rmt`, `disconnect_rmt`, the common interrupt service → Model/RmtBoard.lean | GPIO matrix, driver calls; RMT registers with IDF 5; what the hardware does with a level of duration 0 |
| src/PoorManFloat.cpp/.h, PoorManFloatConst.h | all functions and tables → Model/Pmf.lean | – |
| src/RampCalculator.cpp/.h | all → Model/RampCalc.lean | – |
| src/RampConstAcceleration.cpp/.h | `_getNextCommand` and callers → Model/Ramp.lean | test prints |
| src/RampGenerator.cpp/.h | all → Model/Ramp.lean | – |
| src/FastAccelStepper.cpp/.h | stepper class incl. `fill_queue`, `moveTimed`, enable/direction handling, position, speed getters/setters → Model/Stepper.lean; engine (`stepperConnectToPin`, `manageSteppers`, sharing of pins, auto disable) → Model/Engine.lean | debug LED, `detachFromPin`/`reAttachToPin`, `blockingWaitForForceStopComplete` |
| src/StepperISR_due.cpp | pin interrupt, `PWM_Handler`, `startQueue`, `forceStop` for one channel → Model/Due.lean; PWM periods, times and the 100 µs filter of the PWM interrupt → Model/DueTime.lean; pins, channels, `connect`/`disconnect` of several steppers → Model/DueBoard.lean | delays in the interrupt routines |
| src/StepperISR_idf4_esp32_mcpwm_pcnt.cpp | `prepare_for_next_command`, `apply_command`, `init_stop`, `what_is_next`, interrupt services, `startQueue`, `forceStop`, `isReadyForCommands` for one channel → Model/Mcpwm.lean; `channel2mapping`, `init`, `connect`/`disconnect`, delivery of interrupts for all channels → Model/EspBoard.lean | register addresses; the timer prescaler |
| src/FastAccelStepper_idf4_esp32_pcnt.cpp, FastAccelStepper_idf5_esp32_pcnt.cpp | `attachToPulseCounter`, `clearPulseCounter`, `readPulseCounter`, `pulseCounterAttached` → Model/PulseCounter.lean | GPIO matrix, driver calls (their results are arguments; whether a driver accepts given limits is not known from the source), direction pins handled by an external callback |
| StepperISR_esp32.cpp, AVRStepperPins.h, src/fas_arch | constants of the architectures (Model/Basic.lean) | interrupts of these backends |

Pulse counter of the ESP32 (C72–C75): the code and its comments do not tell, what reading back `cnt_h_lim` gives and when a new limit is used. The counter is therefore a parameter (`PcntHw`). C72 and C73 are proved
for `shadowPcnt` (new limit used from the next zero of the counter, reading back gives the limit in use), C75 for every counter; `C72_limit_readback_refuted` shows that other natural choices break C72.

Concurrency: interrupts can occur between any two phases of `addQueueEntry` (AVR, RMT, MCPWM, SAM Due) and between any two calls of the stepper
API; the cyclic task is an event, too, and the hardware may execute any amount of queued work between any two commands
queued by `fill_queue`, `addQueueEntry` and `moveTimed` (`Env`, `Gap`). Reads and writes of a single variable are atomic, except in C95 (bytes of 32 bit variables on AVR). The move commands are interruptible between any two accesses in C80 (Model/Preempt.lean), the control calls in C94 (Model/Control.lean); in the other properties a call of the ramp generator is one step.
Accesses outside of critical sections are modelled one by one in C80, C94, C95 and C96 only.

## Violations found in the code

Each one is a theorem with suffix `_refuted` (named in MANIFEST.json), unless marked (n), which is an observation from reading only.

1. AVR: a command which arrives after the last pulse of the previous one loses its direction change, the pulse distance or a pause
   (C09, C10); a race between the commit and `isRunning()` starts an empty queue and creates an extra pulse (C08); an ignored command with
   start flag creates a pulse, and a stale flag doubles the first step after a force stop (C12).
2. Direction/enable delays: a pause with flipped direction, a force stop with pending direction change, and enable pauses in an almost full
   queue break the delays (C13, C14); the on-delay conversion wraps for long delays (C18).
3. `addQueueEntry()` returns OK for commands ignored after `forceStopAndNewPosition()`, a rejected command can leave pauses (C62).
4. Auto disable with chained enable pins (C21). `addQueueEntry(NULL, true)` drives a shared direction pin (C24).
5. `setSpeedInMilliHz` and `getSpeedInMilliHz` overflow on SAM Due and for long periods (C27, C25).
6. `moveTo()` followed by `move()` before the task runs loses the `moveTo()` (C43); `forceStop()` with a pending move is dropped (C44);
   `setCurrentPosition()` with pending commands (C45).
7. Ramp: clip branch with set speeds above 65535 ticks (C36, C39, C40), commands below the minimum time at high speed, with jump start at the speed limit
   and with a change to periods above 65535 ticks (C35), jump start in the
   wrong direction (C38, C59), uninitialised performed ramp up steps (C56), `run` after force stop (C59), relative moves after `forwardStep()`
   (C58). Wrapping sum of ramp steps (C32), non monotone periods with linear acceleration (C60).
8. `moveTimed`: period of exactly 131072 ticks, fit check of pauses and slow steps, rate 65535 with remainder, over-reported duration,
   -32768 steps (C46, C47).
9. RMT: periods below `fastLimit`, longest period with many steps, C3/S3 4 ticks short, zero length levels in inserted pauses (C50); starting
   an empty queue on IDF 4 makes the motor run forever (C63).
10. SAM Due: changes of direction at or after a pause and of late commands are lost (C52); `forceStop()` during a pause makes the next command run
    forever, and the start of an empty queue loses the next command (C64).
11. External direction pin: if LOW counts up, the first command up repeats its steps until the pin is confirmed; a force stop before the confirmation
    makes the next command step with the unconfirmed level. On the ESP32 a direction change rejected with AQE_DEVICE_NOT_READY is polled nevertheless, and the next
    steps are executed with the wrong level; with RMT the pin is changed as soon as the last steps have been handed over, before they are sent (C16).
12. Reported speed: `getCurrentSpeedInUs(false)` before the first service of a ramp reports -268435455 µs at standstill; on SAM Due `getCurrentSpeedInMilliHz()` overflows
    and reports wrong values; a single step without ramp is reported as standstill.
13. API: `forwardStep()`/`backwardStep()` do nothing on AVR with three steppers (C65); `moveByAcceleration(0)` does not keep the speed (C66);
    `getMaxSpeedInMilliHz()` on SAM Due overflows, and `setSpeedInUs(getMaxSpeedInUs())` fails on AVR with two steppers (C67);
    values set after a move command are used without a further call, if the task has not served it yet (C69); `keepRunning()` while
    moving backward by `move()` reverses to forward, and `applySpeedAcceleration()` after `keepRunning()` ends continuous running (C70).
14. (n) C3/S3 with IDF 4: after `startQueue` with a single command `_rmtStopped` stays true, so that no further command is accepted until the end of the
    transmission. (n) `moveByAcceleration(INT32_MIN)` and `fas_abs(INT32_MIN)` are undefined.
    (n) a changed level of a shared direction pin gets no direction delay. (n) `externalDirPinChangeCompletedIfNeeded` reads a stale slot if the queue is empty.
15. MCPWM/PCNT: an interrupt served after the end of the period gives an extra pulse, the start of an emptied queue executes an outdated entry, a read-modify-write of the interrupt enable register of another channel makes a pause endless (C72);
    the last pulse of a command arriving during the correction of the limit leaves the limit 0 with all interrupts disabled, `val2 > 0` instead of `val2 > 1` (C74); an interrupt pending at a force stop ends the next command prematurely (C75);
    `getCurrentPosition()` reads the end position only once and misses a command queued and finished before its second critical section, and the pulse counter is not cleared by a force stop, so the position is wrong while the next command waits for its start (C76).
16. RMT: the position does not change during a command and counts it when its last part is handed over, before the pulses are sent (C77). As with C76 a command queued and finished between both critical sections is missed.
17. ESP32 pulse counter: the configuration of the direction pin is taken when the counter is attached; if the pin is set (or its polarity changed) afterwards, steps backward are counted up (C78).
18. `moveTo()` interrupted by the task (C80): (a) while a stop is in progress, `moveTo(target)` is lost if the task completes the stop after the call has read the present target; (b) `force_stop = false` is a read-modify-write of the byte which also has `force_immediate_stop`: an immediate stop which the task drops in between comes back and ends the new move; (c) with the task on the other core of an ESP32, a `moveTo()` between planning and write-back of the last command is lost.
19. A set speed with a period of a multiple of 65536 ticks (C82): after a speed change, the planner may deliver a step with 0 ticks, which the task takes for the end of the ramp: this cycle leaves the queue empty (`C82_speed_refuted`).
20. Several steppers on an AVR timer (C83): `Stepper_One/Zero/Disconnect` and `Enable/DisableCompareInterrupt` in `startQueue()`, `forceStop()` and `init()` are read-modify-write operations on registers shared by all channels, executed with interrupts enabled. A step interrupt of another stepper in between makes this stepper do a step too much or too few (`C83_extra_step_refuted`, `C83_lost_step_refuted`); a task cycle in between, which starts another stepper, leaves that stepper without interrupt: running for the API, but without any step ever (`C83_stuck_refuted`). A start by the application interrupted for more than 32768 ticks gives a too short period (`C83_slow_start_refuted`).
21. Set speeds faster than the minimum command time (C87): the planner merges as many steps into a command as it needs for the minimum duration, but computes this with the period before it is limited to the set speed. For distances which just suffice to reach the set speed, a command of one or two steps is too short, the queue rejects it (`AQE_ERROR_TICKS_TOO_LOW`) and the move ends far from its target, without any notice to the user (`C87_fast_move_refuted`: `moveTo(257)` ends at 130). This needs a number of steps which is long enough at the speed the ramp has that many steps before its end, but not at the set speed; `C87_fast_move_partial` proves the arrival whenever there is none.
22. SAM Due pauses (C88): after steps less than 100 µs apart the interrupt at the begin of a pause is ignored and the pause takes twice as long (`C88_fast_pause_refuted`); so does a pause as very first command (`C88_first_pause_refuted`); a pause added during the last period of the preceding command is lost (`C88_late_pause_refuted`).
23. SAM Due, several steppers (C89): connecting or reattaching a stepper disables the PWM interrupts of the channels 0 to 3 of all steppers; one which is in a pause then stays there (`C89_connect_refuted`). A stepper detached while running stays running without pulses after reattaching (`C89_detach_refuted`).
24. ESP32 with MCPWM/PCNT, several steppers (C91): `int_ena` of an MCPWM unit and `PCNT_CTRL_REG` are modified by read-modify-write from the task and from interrupts without common lock. A stepper may stay in a pause without end (`C91_enable_bit_refuted`) or output pulses without end (`C91_reset_bit_refuted`). attachToPulseCounter() on a counter in use lets a stepper run without end (`C91_pulse_counter_refuted`; documented as responsibility of the user).
25. ESP32 RMT driver, IDF 4 (C92): a late interrupt lets the peripheral send a part a second time (`C92_late_refuted`, `C92_c3_late_refuted`). detachFromPin() while running disables the interrupts but not the transmission: the motor runs for ever and the memory is sent again and again (`C92_detach_refuted`, `C92_c3_detach_refuted`). On ESP32/ESP32S2 a force stop while the end interrupt is pending leaves a stale interrupt flag which lets the next move lose the steps of a command (`C92_force_stop_refuted`).
26. ESP32C3/S3 RMT driver, IDF 4 (C93): the interrupt enable register of all channels is modified by read-modify-write without protection. If a task starting one stepper is interrupted between reading and writing by a task starting another one (or on the S3 runs at the same time on the other core), the interrupts of the other stepper are disabled: it sends the content of its memory for ever (`C93_ena_refuted`).
27. Control calls (C94): the bit fields `force_stop` and `force_immediate_stop` share a byte, which the application and the task write. `stopMove()` after `forceStop()`, interrupted by the task between reading and writing the byte, brings the served immediate stop back: the next `runForward()` returns success, but makes no step (`C94_stale_byte_refuted`). `keepRunning()` after `runBackward()` while running forward brings the old direction back in the same way (`C94_keep_refuted`). With the task on a second core, `forceStopAndNewPosition()` between the planning of a command and its execution by the task is undone: the ramp is active again and makes steps (`C94_second_core_refuted`).
28. Accesses to 32 bit variables on AVR (C95): `getPositionAfterCommandsCompleted()` and `targetPos()` read four bytes without disabling interrupts. When the task comes between two of them, and the position passes a multiple of 256 (or the target changes), a value is returned which the variable never had: with the motor going from -1 to 10 positions like 255 or -250. `setJumpStart()` writes four bytes without disabling interrupts: a move waiting for the task may be executed with neither the old nor the new number of steps.
29. `getPeriodInTicksAfterCommandsCompleted()` (C95, all processors) reads the ramp state and then the period. If the ramp ends in between, it returns 4294967295 instead of 0.
30. `setAutoEnable(true)` during a move, with a delay after enabling the motor (C35): the driver takes the running motor for disabled, and puts the delay as a pause between two steps of the ramp, at whatever
    speed the motor has. If this pause is completed before `addQueueEntry()` goes on, the ramp is aborted (`C35_auto_enable_refuted`).
31. `ticksInQueue()`, `hasTicksInQueue()` and the realtime speed read entries outside of the critical section (C96): if the queue is emptied and filled again during the call, an entry is read as a mixture of two
    commands (`C96_ticks_refuted`, `C96_realtime_speed_refuted`).
32. `setJumpStart(1)` (C85): a move of one step leaves the ramp at its set speed with `stepsToStop()` = 0. A further move, commanded while this step is not completed, goes on with the set speed
    without having accelerated, and will not decelerate either (`C85_jump_refuted`).
