import Verif.Model.Stepper
import Verif.Spec.Queue

/-!
# Specification of the stepper level
-/

namespace FAS.Spec

/-- Scans commands in the order of their execution and checks the direction delay. `dir` is the current
direction; `w` is `some t` if the direction has changed, no step has been done since and the pauses since
then sum up to `t`. The result is `none` as soon as a step is done less than `d` ticks after a change of
direction. The direction pin is changed at the begin of the first command with the new direction, and the
first step of a command is counted as being done at the begin of that command. -/
def dirScan (d : Nat) : Bool → Option Nat → List Cmd → Option (Bool × Option Nat)
  | dir, w, [] => some (dir, w)
  | dir, w, c :: cs =>
    let w := if c.countUp = dir then w else some 0
    if c.steps = 0 then dirScan d c.countUp (w.map (· + c.ticks)) cs
    else
      match w with
      | none => dirScan d c.countUp none cs
      | some t => if d ≤ t then dirScan d c.countUp none cs else none

/-- No step is done less than `d` ticks after a change of direction. -/
def DirDelayKept (d : Nat) (dir : Bool) (cmds : List Cmd) : Prop := (dirScan d dir none cmds).isSome = true

instance (d dir cmds) : Decidable (DirDelayKept d dir cmds) := by
  unfold DirDelayKept; infer_instance

example : DirDelayKept 1000 true [⟨500, 3, true⟩, ⟨600, 0, false⟩, ⟨400, 0, false⟩, ⟨500, 3, false⟩] := by
  decide
example : ¬ DirDelayKept 1001 true [⟨500, 3, true⟩, ⟨600, 0, false⟩, ⟨400, 0, false⟩, ⟨500, 3, false⟩] := by
  decide
example : ¬ DirDelayKept 1 true [⟨500, 3, true⟩, ⟨500, 3, false⟩] := by decide

/-- Sum of a list of ticks. -/
def ticksSum : List Nat → Nat
  | [] => 0
  | t :: ts => t + ticksSum ts

end FAS.Spec
