import Verif.Spec.Queue
import Verif.Model.Stepper

/-!
# Specification of one cycle of the task filling the queue
-/

namespace FAS

/-- The commands added in one cycle, with `n` commands already queued and `t` ticks of planned time. The commands are added
in rounds. A round adds pauses for the enable or direction delay, followed by one command of the ramp. It only takes place
if the queue is not full, and if less than `fwd` ticks are planned or at most one command is queued. The planned time is
that of the commands behind the one being executed plus that of the ramp commands added. A last round may add pauses only,
if the command itself has been refused. `rel n' n` tells how many commands `n'` may be left of `n` ones until the next round. -/
inductive Rounds (rel : Nat → Nat → Prop) (full fwd : Nat) : Nat → Nat → List Cmd → Prop where
  | stop (n t : Nat) : Rounds rel full fwd n t []
  | refused (n t : Nat) (ps : List Cmd) (hp : ∀ p ∈ ps, p.steps = 0) (hn : n < full) (ht : t < fwd ∨ n ≤ 1) :
      Rounds rel full fwd n t ps
  | round (n t : Nat) (ps : List Cmd) (c : Cmd) (rest : List Cmd) (n' : Nat) (hp : ∀ p ∈ ps, p.steps = 0) (hn : n < full)
      (ht : t < fwd ∨ n ≤ 1) (hr : rel n' (n + ps.length + 1)) (h : Rounds rel full fwd n' (t + c.duration) rest) :
      Rounds rel full fwd n t (ps ++ c :: rest)

/-- Without hardware progress while the task is running. -/
def Stepper.Env.Quiet (env : Stepper.Env) : Prop := ∀ i n, (env.gaps i n).advances = 0

end FAS
