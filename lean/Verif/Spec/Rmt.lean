import Verif.Model.Rmt
import Verif.Spec.Queue

/-!
# Specification of the output of the RMT backends

From the documentation of `stepper_command_s` (src/fas_arch/common.h:11-42): the steps of a command are `ticks` apart, and after the
last step there is again a wait of `ticks` until the next command; a command without steps is a pause of `ticks`.
-/

namespace FAS

/-- Duration of a sequence of levels. -/
def segTime : List Seg → Nat
  | [] => 0
  | s :: ss => s.dur + segTime ss

/-- A sequence of levels without any pulse. -/
def Silent (w : List Seg) : Prop := ∀ s ∈ w, s.high = false

/-- No level has the duration 0 (which the peripheral takes as the end of the transmission). -/
def NoEnd (w : List Seg) : Prop := ∀ s ∈ w, 0 < s.dur

/-- `n` steps: each one is a high level followed by low levels, and lasts at least `lo` and at most `t` ticks until the next one. -/
inductive Train (lo t : Nat) : Nat → List Seg → Prop where
  | nil : Train lo t 0 []
  | step {n : Nat} {rest : List Seg} (h : Nat) (low : List Seg) (hlow : low ≠ []) (hs : Silent low) (h1 : lo ≤ h + segTime low)
      (h2 : h + segTime low ≤ t) (ht : Train lo t n rest) : Train lo t (n + 1) (⟨true, h⟩ :: (low ++ rest))

/-- The levels of a list of parts in the order of transmission. -/
def segsOf (r : List Chunk) : List Seg := r.flatMap Chunk.segs

/-- The parts `r` are the documented output for command `c`; `slack` is the tolerance for the periods. -/
def Renders (slack : Nat) (c : Cmd) (r : List Chunk) : Prop :=
  NoEnd (segsOf r) ∧
  if c.steps = 0 then Silent (segsOf r) ∧ segTime (segsOf r) = c.ticks
  else Train (c.ticks - slack) c.ticks c.steps (segsOf r)

/-- The parts are the output for the commands, one after the other and nothing else than additional pauses. `D up level` is the
requirement for the direction pin during a command with direction `up`. -/
inductive Plays (slack : Nat) (D : Bool → Bool → Prop) : List Cmd → List Chunk → Prop where
  | nil : Plays slack D [] []
  | pause {cs : List Cmd} {w : List Chunk} (k : Chunk) (h : Plays slack D cs w) (hk : Silent k.segs) (hu : k.up = none) : Plays slack D cs (w ++ [k])
  | cmd {cs : List Cmd} {w : List Chunk} (c : Cmd) (r : List Chunk) (h : Plays slack D cs w) (hr : Renders slack c r)
      (hd : ∀ k ∈ r, D c.countUp k.level) : Plays slack D (cs ++ [c]) (w ++ r)

/-- The direction pin has the level for the direction of the command (unless there is no direction pin). -/
def DirOK (pin : Nat) (highCountsUp : Bool) (up level : Bool) : Prop := pin ≠ pinUndefined → level = (up == highCountsUp)

/-- In a list of parts, newest first, the direction pin is not changed during the transmission of a part with pulses: this is during
the call for the next part of the same transmission. -/
def Steady : List Chunk → Prop
  | k2 :: k1 :: ks => (k2.first = false → ¬ Silent k1.segs → k2.level = k1.level) ∧ Steady (k1 :: ks)
  | _ => True

/-- The tolerance of the periods: 4 ticks on C3/S3 with IDF 4, otherwise none. -/
def RmtVer.slack : RmtVer → Nat
  | .idf4s => 4
  | _ => 0

/-- Shortest period for which commands with more steps than words in a part can be encoded. -/
def RmtVer.fastLimit : RmtVer → Nat
  | .idf5 => 130
  | .idf5s => 98
  | .idf4 => 122
  | .idf4s => 106

/-- The commands which the encoder can handle (among those accepted by `addQueueEntry()`): no more steps than words in a part, or a
period of at least `fastLimit`; on IDF 4 with the longest period 65535 fewer than half as many steps as words in a part. -/
def RmtVer.Encodable (v : RmtVer) (c : Cmd) : Prop :=
  (c.steps ≤ v.part ∨ v.fastLimit ≤ c.ticks) ∧ (v.isIdf5 = false → c.ticks = 65535 → c.steps < v.part / 2)

instance (v : RmtVer) (c : Cmd) : Decidable (v.Encodable c) := inferInstanceAs (Decidable (_ ∧ _))

/-- The events considered: commands are representable, no force stop. -/
def Rmt.Ev.Basic : Rmt.Ev → Prop
  | .addBegin c _ => c.Valid
  | .forceStop _ => False
  | _ => True

/-- The events considered for the encoding: commands are representable and can be encoded, no force stop. -/
def Rmt.Ev.Plain (v : RmtVer) : Rmt.Ev → Prop
  | .addBegin c _ => c.Valid ∧ v.Encodable c
  | .forceStop _ => False
  | _ => True

/-- The commands accepted in one event: in the second phase of addQueueEntry, unless the peripheral has stopped in between. -/
def Rmt.accepts (s : Rmt) : Rmt.Ev → List Cmd
  | .addCommit =>
    match s.pc with
    | .prepared _ c _ => if s.q.ready && !s.q.ignoreCommands then [c] else []
    | _ => []
  | _ => []

/-- Executes a schedule and collects the accepted commands. -/
def Rmt.track (v : RmtVer) : Rmt → List Cmd → List Rmt.Ev → Rmt × List Cmd
  | s, acc, [] => (s, acc)
  | s, acc, ev :: evs => track v (s.step v ev) (acc ++ s.accepts ev) evs

/-- A freshly initialised RMT channel with its direction pin. -/
def Rmt.fresh (pin : Nat) (highCountsUp : Bool) : Rmt := { Rmt.init with q := (Queue.init .esp32).setDirPin pin highCountsUp }

/-- Pulses in a sequence of levels. -/
def pulseCount (w : List Seg) : Nat := (w.filter Seg.high).length

/-- A stepper without anything to do: after `init()`, or after a force stop at the end of the transmission. -/
structure Rmt.Idle (s : Rmt) : Prop where
  idx : s.q.readIdx = s.q.nextWriteIdx ∧ s.q.readIdx < 256
  run : s.q.running = false
  tx : s.tx = false
  ready : s.q.ready = true
  ign : s.q.ignoreCommands = false
  pc : s.pc = .idle
  out : s.out = []
  pin : s.q.dirPin = pinUndefined ∨ pinIsExternal s.q.dirPin = false

/-- The half of the RMT memory which has been filled last (IDF 4); the peripheral sends the other one at this time. -/
def Rmt.filledHalf (s : Rmt) : List Nat := if s.partOne then s.mem2 else s.mem1

/-- The half of the RMT memory which the peripheral sends while the other one is waiting (IDF 4). -/
def Rmt.playedHalf (s : Rmt) : List Nat := if s.partOne then s.mem1 else s.mem2

/-- The levels which the peripheral reads from a half of its memory are those of the part `k`, apart from the tick of low level at the
end of the memory. -/
def HoldsPart (mem : List Nat) (k : Chunk) : Prop := k.segs = mem.flatMap rmtDecode ∨ k.segs = mem.flatMap rmtDecode ++ [⟨false, 1⟩]

end FAS
