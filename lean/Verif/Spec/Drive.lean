import Verif.Spec.RealTime
import Verif.Spec.Ramp

/-!
# Specification: changing commands on AVR in real time

As Spec/RealTime.lean, but the application may change speed, acceleration and target while the motor is moving, let it run, or stop it.
-/

namespace FAS.Spec

/-- The calls by which the application steers the motor: speeds with a period of `L` to 65535 ticks, any acceleration and linear acceleration, no jump start, and any target, run and stop command but the immediate stops. -/
def ApiCall.Steer (L : Nat) : ApiCall → Prop
  | .config (.speed t) => L ≤ t ∧ t ≤ 65535
  | .config (.jump n) => n = 0
  | .config _ => True
  | .moveTo _ => True
  | .move _ => True
  | .run _ => True
  | .keepRunning => True
  | .stopMove => True
  | _ => False

/-- The calls which change speed and acceleration only. -/
def ApiCall.Adjust (L : Nat) (c : ApiCall) : Prop := c.Steer L ∧ ∃ k, c = .config k

/-- As `AvrMove`, with calls of the application (those with `ok`) between the task cycles, at any time: before the first command is queued, and as long as the ramp is active. Calls which do not start a ramp can be made also later. -/
inductive AvrDrive (a : ArchId) (tm : AvrTiming) (ok : ApiCall → Prop) (s0 : Stepper) (v0 : Avr) : Nat → Nat → Avr → AvrHist → List Cmd → Stepper → Prop where
  | start (now : Nat) : AvrDrive a tm ok s0 v0 now now v0 ⟨[], []⟩ [] s0
  | call {last now : Nat} {v : Avr} {h : AvrHist} {cmds : List Cmd} {s : Stepper} (c : ApiCall) : AvrDrive a tm ok s0 v0 last now v h cmds s →
      ok c → cmds = [] ∨ s.isRampGeneratorActive = true ∨ (c.exec a s).isRampGeneratorActive = false →
      AvrDrive a tm ok s0 v0 last now v h cmds (c.exec a s)
  | cycle {last now : Nat} {v : Avr} {h : AvrHist} {cmds : List Cmd} {s : Stepper} (τ : Nat) (env : Stepper.Env) (junk : NextCommand) (m : Nat)
      (evs : List (Nat × Avr.Ev)) (acc : List Cmd) (s1 s2 : Stepper) : AvrDrive a tm ok s0 v0 last now v h cmds s →
      now ≤ τ → (cmds ≠ [] → τ ≤ last + tm.cycle) → (v.q.running = true → τ ≤ v.ocr + tm.latency) →
      junk.rw.performedRampUpSteps < 4294967296 → s.fillQueue a env junk = some (s1, acc) → Unrefused a env s m →
      Avr.Clocked a v τ τ evs → avrCalls evs = taskCalls v.q.running acc → (∀ e ∈ evs, e.2 = .addCommit → e.1 ≤ τ + tm.commit) →
      SameSettings s1 s2 → s2.hw = ⟨(Avr.track a v h (evs.map Prod.snd)).1.q, 0⟩ →
      AvrDrive a tm ok s0 v0 τ (lastTime τ evs) (Avr.track a v h (evs.map Prod.snd)).1 (Avr.track a v h (evs.map Prod.snd)).2 (cmds ++ acc) s2

end FAS.Spec
