import Verif.Model.RmtReg
import Verif.Spec.Rmt

/-!
# Specification: the RMT channel sends the parts one after the other
-/

namespace FAS
namespace RmtReg

/-- A freshly initialised channel with its direction pin. -/
def fresh (pin : Nat) (highCountsUp : Bool) : RmtReg := { init with q := (Queue.init .esp32).setDirPin pin highCountsUp }

/-- The same with an arbitrary content of the RMT memory. -/
def freshMem (pin : Nat) (highCountsUp : Bool) (m1 m2 : List Nat) : RmtReg := { fresh pin highCountsUp with mem1 := m1, mem2 := m2 }

/-- The event of the channel, as it is seen by Model/Rmt.lean, on ESP32 and ESP32S2: an interrupt is a request for the next part, or the end of the transmission; the words are not seen. -/
def seen (s : RmtReg) : Ev → List Rmt.Ev
  | .word => []
  | .isr => (if s.fin && s.ena then [if s.stopped then .txDone else .fill] else []) ++ (if s.thr && s.ena && !s.stopped then [.fill] else [])
  | .addBegin c start => [.addBegin c start]
  | .addCommit => [.addCommit]
  | .addFinish => [.addFinish]
  | .startNull => [.startNull]
  | .forceStop p => [.forceStop p]
  | .clearIgnore => [.clearIgnore]
  | .detach => []

/-- The events of a schedule as seen by Model/Rmt.lean. -/
def requests (v : RmtVer) : RmtReg → List Ev → List Rmt.Ev
  | _, [] => []
  | s, ev :: evs => s.seen ev ++ requests v (s.step v ev) evs

/-- * Interrupts are served before the peripheral has sent the part of the memory in which they are raised: none is pending when it reaches the begin of the second part or the end marker;
* no force stop;
* detachFromPin() only while nothing is sent. -/
def Timely (v : RmtVer) (s : RmtReg) : Ev → Prop
  | .word => s.sending = true → s.pos = v.part ∨ s.pos = 2 * v.part → s.thr = false ∧ s.fin = false
  | .forceStop _ => False
  | .detach => s.ena = false
  | _ => True

/-- The commands are representable. -/
def Ev.Basic : Ev → Prop
  | .addBegin c _ => c.Valid
  | _ => True

/-- The commands are representable and can be encoded. -/
def Ev.Plain (v : RmtVer) : Ev → Prop
  | .addBegin c _ => c.Valid ∧ v.Encodable c
  | _ => True

instance (v : RmtVer) : DecidablePred (Ev.Plain v) := fun ev => by
  cases ev <;> unfold Ev.Plain <;> infer_instance

/-- The levels of a list of parts in the order of transmission, each with the level of the direction pin noted for the part. -/
def labs (r : List Chunk) : List (Seg × Bool) := r.flatMap fun k => k.segs.map fun g => (g, k.level)

/-- The same levels, and the same direction at each pulse. -/
def SameOut (a b : List (Seg × Bool)) : Prop := a.map Prod.fst = b.map Prod.fst ∧ a.filter (fun x => x.1.high) = b.filter (fun x => x.1.high)

/-- The pulses sent so far, each with the level of the direction pin. -/
def pulses (s : RmtReg) : List (Seg × Bool) := s.wire.reverse.filter fun x => x.1.high

/-- The commands accepted in one event: in the second phase of addQueueEntry, unless the peripheral has stopped in between. -/
def accepts (s : RmtReg) : Ev → List Cmd
  | .addCommit =>
    match s.pc with
    | .prepared _ c _ => if s.q.ready && !s.q.ignoreCommands then [c] else []
    | _ => []
  | _ => []

/-- Executes a schedule and collects the accepted commands. -/
def track (v : RmtVer) : RmtReg → List Cmd → List Ev → RmtReg × List Cmd
  | s, acc, [] => (s, acc)
  | s, acc, ev :: evs => track v (s.step v ev) (acc ++ s.accepts ev) evs

/-- A schedule all events of which satisfy a predicate on the state before the event. -/
def Along (v : RmtVer) (P : RmtReg → Ev → Prop) : RmtReg → List Ev → Prop
  | _, [] => True
  | s, ev :: evs => P s ev ∧ Along v P (s.step v ev) evs

/-- Number of words and end markers sent in a schedule. -/
def words (evs : List Ev) : Nat := evs.countP (fun ev => ev == .word)

instance (v : RmtVer) (s : RmtReg) : DecidablePred (Timely v s) := fun ev => by
  cases ev <;> unfold Timely <;> infer_instance

instance decAlong (v : RmtVer) (P : RmtReg → Ev → Prop) [∀ s, DecidablePred (P s)] : ∀ (evs : List Ev) (s : RmtReg), Decidable (Along v P s evs)
  | [], _ => isTrue trivial
  | _ :: evs, _ =>
    have := decAlong v P evs
    inferInstanceAs (Decidable (_ ∧ _))

end RmtReg
end FAS
