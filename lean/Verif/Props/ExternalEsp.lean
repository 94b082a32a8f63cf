import Verif.Lemmas.ExternalMcpwm

/-!
# External direction pins of the ESP32: C16 for the backends RMT and MCPWM/PCNT
-/

namespace FAS
open Spec

/-! ## RMT -/

theorem Rmt.watch_append (v : RmtVer) (e2 : List (ExtEv Rmt.Ev)) : ∀ (e1 : List (ExtEv Rmt.Ev)) (s : Rmt) (l : ExtLog),
    Rmt.watch v s l (e1 ++ e2) = Rmt.watch v (Rmt.watch v s l e1).1 (Rmt.watch v s l e1).2 e2
  | [], _, _ => rfl
  | .hw _ :: es, _, _ => watch_append v e2 es _ _
  | .poll _ :: es, _, _ => watch_append v e2 es _ _

theorem Rmt.alongExt_append (v : RmtVer) (P : Rmt → ExtEv Rmt.Ev → Prop) (e2 : List (ExtEv Rmt.Ev)) : ∀ (e1 : List (ExtEv Rmt.Ev)) (s : Rmt) (l : ExtLog),
    Rmt.AlongExt v P s (e1 ++ e2) → Rmt.AlongExt v P s e1 ∧ Rmt.AlongExt v P (Rmt.watch v s l e1).1 e2
  | [], _, _, h => ⟨trivial, h⟩
  | .hw ev :: es, s, l, h => ⟨⟨h.1, (alongExt_append v P e2 es _ (l.parts s (s.step v ev)) h.2).1⟩, (alongExt_append v P e2 es _ _ h.2).2⟩
  | .poll agree :: es, s, l, h => ⟨⟨h.1, (alongExt_append v P e2 es _ (l.polled s.q agree) h.2).1⟩, (alongExt_append v P e2 es _ _ h.2).2⟩

/-- C16, first part, for the RMT backends: every part with pulses is handed over to the peripheral for a queued command, while the level required for this command is the one which has been
confirmed last. For every schedule of the peripheral, commands and callback answers, with commands as added by `FastAccelStepper::addQueueEntry` (`C16_turns_at_pauses`). Not covered:
schedules with a force stop or with a direction change rejected in the critical section (`C16_rmt_rejected_refuted`), and the time between handing over and output (`C16_rmt_early_refuted`). -/
theorem C16_rmt_confirmed_partial (v : RmtVer) (s : Rmt) (l : ExtLog) (h : s.q.ExtIdle l) (hpc : s.pc = .idle) (evs : List (ExtEv Rmt.Ev))
    (hp : Rmt.AlongExt v Rmt.ExtTurn s evs) : (Rmt.watch v s l evs).2.Confirmed :=
  (RX.run evs { eq := by rw [hpc]; exact EQ.idle h, pulses := ExtIdle_confirmed h } hp).pulses

/-- C16, second part, for the RMT backends: if the level required for the command in process is not confirmed, then without a confirming answer no part with pulses is handed over, and this command stays
the one in process. -/
theorem C16_rmt_waits_partial (v : RmtVer) (s : Rmt) (l : ExtLog) (h : s.q.ExtIdle l) (hpc : s.pc = .idle) (evs1 evs2 : List (ExtEv Rmt.Ev))
    (hp : Rmt.AlongExt v Rmt.ExtTurn s (evs1 ++ evs2)) (hn : ∀ ev ∈ evs2, ev ≠ .poll true) :
    let r1 := Rmt.watch v s l evs1
    let r2 := Rmt.watch v s l (evs1 ++ evs2)
    r1.1.q.requiredLevel .esp32 ≠ none → r1.1.q.requiredLevel .esp32 ≠ r1.2.conf →
    r2.2.pulses = r1.2.pulses ∧ r2.1.q.requiredLevel .esp32 = r1.1.q.requiredLevel .esp32 ∧
    (Hw.readOut .esp32 ⟨r2.1.q, 0⟩).head? = (Hw.readOut .esp32 ⟨r1.1.q, 0⟩).head? := by
  intro r1 r2 hreq hconf
  obtain ⟨hp1, hp2⟩ := Rmt.alongExt_append v _ evs2 evs1 s l hp
  have hx := RX.run evs1 { eq := by rw [hpc]; exact EQ.idle h, pulses := ExtIdle_confirmed h } hp1
  obtain ⟨hne, he⟩ := hx.eq.waits hreq hconf
  obtain ⟨w1, w2, w3, w4⟩ := EQ.rwait evs2 (l := r1.2) he hne hp2 (fun agree ha => by
    cases agree
    · rfl
    · exact absurd rfl (hn _ ha))
  obtain ⟨k1, k2⟩ := w2.required he w3 hne w4
  change (Rmt.watch v s l (evs1 ++ evs2)).2.pulses = _ ∧ (Rmt.watch v s l (evs1 ++ evs2)).1.q.requiredLevel .esp32 = _ ∧ (Hw.readOut .esp32 ⟨(Rmt.watch v s l (evs1 ++ evs2)).1.q, 0⟩).head? = _
  rw [Rmt.watch_append]
  exact ⟨w1, k1, k2⟩

/-- A fresh stepper with RMT driver and external direction pin 5. -/
def extRmt : Rmt := Rmt.fresh (128 + 5) true

theorem extRmt_idle : extRmt.q.ExtIdle ⟨some true, []⟩ where
  idx := by decide
  run := rfl
  ign := rfl
  pin := by decide
  sync := by decide
  clean := fun _ => rfl
  conf := rfl
  pulses := rfl

/-- addQueueEntry without interruption -/
def extAdd (c : Cmd) (start : Bool) : List (ExtEv Rmt.Ev) := [.hw (.addBegin c start), .hw .addCommit, .hw .addFinish]

/-- Two steps up, a pause with the change of direction, two steps down, and many parts of the peripheral. -/
def extRmtEvs : List (ExtEv Rmt.Ev) :=
  extAdd ⟨2000, 2, true⟩ false ++ extAdd ⟨8000, 0, false⟩ true ++ [.hw (.addBegin ⟨2000, 2, false⟩ true), .hw .fill, .hw .addCommit, .hw .addFinish, .hw .fill, .poll false, .hw .fill, .hw .fill,
    .hw .fill]

/-- The following confirmation. -/
def extRmtEvs2 : List (ExtEv Rmt.Ev) := extRmtEvs ++ [.poll true, .hw .fill, .hw .fill, .hw .fill]

/-- Non-vacuity: the peripheral repeats the pause, the queue waits for the confirmation, and only then the last steps are handed over. -/
example (v : RmtVer) : extRmt.pc = .idle ∧ Rmt.AlongExt v Rmt.ExtTurn extRmt extRmtEvs2 ∧
    (Rmt.watch v extRmt ⟨some true, []⟩ extRmtEvs).2 = ⟨none, [(some true, some true)]⟩ ∧
    (Rmt.watch v extRmt ⟨some true, []⟩ extRmtEvs).1.q.requiredLevel .esp32 = some false ∧
    (Rmt.watch v extRmt ⟨some true, []⟩ extRmtEvs2).2 = ⟨some false, [(some false, some false), (some true, some true)]⟩ := by
  cases v <;> decide +kernel

/-- Two times two steps up, and a pause with the change of direction; the peripheral has got two parts. -/
def extRmtEarly (v : RmtVer) : List (ExtEv Rmt.Ev) :=
  extAdd ⟨2000, 2, true⟩ false ++ extAdd ⟨2000, 2, true⟩ false ++ extAdd ⟨8000, 0, false⟩ true ++ if v.isIdf5 then [.hw .fill, .hw .fill] else []

/-- C16 is false for the RMT backends, if the pulses themselves are considered: the peripheral has a buffer of two parts, and as soon as the last steps up have been handed over, the pause with the change of
direction is in process. The task then calls back for the new level, and the application changes the pin, while the part with the last steps up is still to be sent. (A pin of the ESP32 itself is
changed in a pause only, C51.) -/
theorem C16_rmt_early_refuted (v : RmtVer) :
    let r := Rmt.watch v extRmt ⟨some true, []⟩ (extRmtEarly v)
    let r2 := Rmt.watch v extRmt ⟨some true, []⟩ (extRmtEarly v ++ [.poll true])
    Rmt.AlongExt v Rmt.ExtTurn extRmt (extRmtEarly v ++ [.poll true]) ∧
    r.1.out.length = 2 ∧ r.1.tx = true ∧ r.1.out.head?.map (fun k => (k.up, pulseCount k.segs)) = some (some true, 2) ∧ r2.1.out = r.1.out ∧
    r.2.conf = some true ∧ r2.2.conf = some false := by
  cases v <;> decide +kernel

/-- A change of direction, which is rejected with AQE_DEVICE_NOT_READY, because the peripheral stops while it is prepared. Afterwards two steps up are added. -/
def extRmtRejected : List (ExtEv Rmt.Ev) :=
  extAdd ⟨2000, 2, true⟩ true ++ [.hw (.addBegin ⟨8000, 0, false⟩ true), .hw .fill, .hw .fill, .hw .fill, .hw .fill, .hw .addCommit, .hw .txDone, .poll true] ++ extAdd ⟨2000, 2, true⟩ true ++ [.hw .fill]

/-- Why C16 is restricted to schedules without such a rejection: the rejected pause stays in the memory of the queue and its flag is evaluated by the task, although the queue is empty. The application is
requested to set the level for down, and then the accepted steps up are executed with this level. (On the C3 the peripheral has stopped within `startQueue` already.) -/
theorem C16_rmt_rejected_refuted (v : RmtVer) (hv : v ≠ .idf4s) :
    ¬ (Rmt.watch v extRmt ⟨some true, []⟩ extRmtRejected).2.Confirmed ∧
    (Rmt.watch v extRmt ⟨some true, []⟩ extRmtRejected).2.pulses = [(some true, some false), (some true, some true)] := by
  have h : (Rmt.watch v extRmt ⟨some true, []⟩ extRmtRejected).2.pulses = [(some true, some false), (some true, some true)] := by
    cases v
    · decide +kernel
    · decide +kernel
    · decide +kernel
    · exact absurd rfl hv
  refine ⟨fun hc => ?_, h⟩
  obtain ⟨level, hl⟩ := hc (some true, some false) (by rw [h]; exact List.mem_cons_self)
  cases level <;> cases hl

/-! ## MCPWM/PCNT -/

theorem Mcpwm.watch_append {σ : Type} (hw : PcntHw σ) (e2 : List (ExtEv Mcpwm.Ev)) : ∀ (e1 : List (ExtEv Mcpwm.Ev)) (s : Mcpwm σ) (l : ExtLog),
    Mcpwm.watch hw s l (e1 ++ e2) = Mcpwm.watch hw (Mcpwm.watch hw s l e1).1 (Mcpwm.watch hw s l e1).2 e2
  | [], _, _ => rfl
  | .hw _ :: es, _, _ => watch_append hw e2 es _ _
  | .poll _ :: es, _, _ => watch_append hw e2 es _ _

theorem Mcpwm.alongExt_append {σ : Type} (hw : PcntHw σ) (P : Mcpwm σ → ExtEv Mcpwm.Ev → Prop) (e2 : List (ExtEv Mcpwm.Ev)) : ∀ (e1 : List (ExtEv Mcpwm.Ev)) (s : Mcpwm σ) (l : ExtLog),
    Mcpwm.AlongExt hw P s (e1 ++ e2) → Mcpwm.AlongExt hw P s e1 ∧ Mcpwm.AlongExt hw P (Mcpwm.watch hw s l e1).1 e2
  | [], _, _, h => ⟨trivial, h⟩
  | .hw ev :: es, s, l, h => ⟨⟨h.1, (alongExt_append hw P e2 es _
      (if ev = .compare ∧ s.timer = .low ∧ s.out = true then { l with pulses := (s.q.requiredLevel .esp32, l.conf) :: l.pulses } else l) h.2).1⟩, (alongExt_append hw P e2 es _ _ h.2).2⟩
  | .poll agree :: es, s, l, h => ⟨⟨h.1, (alongExt_append hw P e2 es _ (l.polled s.q agree) h.2).1⟩, (alongExt_append hw P e2 es _ _ h.2).2⟩

theorem MX.idle {σ : Type} {s : Mcpwm σ} {l : ExtLog} (h : s.ExtIdle l) : MX s l.conf where
  eq := by rw [h.pc]; exact EQ.idle h.queue
  calm := fun _ => ⟨h.irq, by rw [h.ena, Bool.and_false]⟩
  low := fun hx => by rw [h.timer] at hx; cases hx
  run := by rw [h.run, h.queue.run]
  hd := fun hx => by rw [h.queue.run] at hx; cases hx

/-- C16, first part, for the MCPWM/PCNT backend: every pulse is output for a queued command, while the level required for this command is the one which has been confirmed last. For any pulse counter, and every
schedule of interrupts (as for C72), commands and callback answers, with commands as added by `FastAccelStepper::addQueueEntry` (`C16_turns_at_pauses`). Not covered: schedules with a force stop or
with a direction change rejected in the critical section. -/
theorem C16_mcpwm_confirmed_partial {σ : Type} (hw : PcntHw σ) (s : Mcpwm σ) (l : ExtLog) (h : s.ExtIdle l) (evs : List (ExtEv Mcpwm.Ev))
    (hp : Mcpwm.AlongExt hw Mcpwm.ExtTurn s evs) : (Mcpwm.watch hw s l evs).2.Confirmed :=
  (MX.watch evs (MX.idle h) (ExtIdle_confirmed h.queue) hp).2

/-- C16, second part, for the MCPWM/PCNT backend: if the level required for the command in process is not confirmed, then without a confirming answer no pulse is output, and this command stays the one in
process. -/
theorem C16_mcpwm_waits_partial {σ : Type} (hw : PcntHw σ) (s : Mcpwm σ) (l : ExtLog) (h : s.ExtIdle l) (evs1 evs2 : List (ExtEv Mcpwm.Ev))
    (hp : Mcpwm.AlongExt hw Mcpwm.ExtTurn s (evs1 ++ evs2)) (hn : ∀ ev ∈ evs2, ev ≠ .poll true) :
    let r1 := Mcpwm.watch hw s l evs1
    let r2 := Mcpwm.watch hw s l (evs1 ++ evs2)
    r1.1.q.requiredLevel .esp32 ≠ none → r1.1.q.requiredLevel .esp32 ≠ r1.2.conf →
    r2.2.pulses = r1.2.pulses ∧ r2.1.q.requiredLevel .esp32 = r1.1.q.requiredLevel .esp32 ∧
    (Hw.readOut .esp32 ⟨r2.1.q, 0⟩).head? = (Hw.readOut .esp32 ⟨r1.1.q, 0⟩).head? := by
  intro r1 r2 hreq hconf
  obtain ⟨hp1, hp2⟩ := Mcpwm.alongExt_append hw _ evs2 evs1 s l hp
  have hx := (MX.watch evs1 (MX.idle h) (ExtIdle_confirmed h.queue) hp1).1
  obtain ⟨hne, he⟩ := hx.eq.waits hreq hconf
  have hm : MX r1.1 none := { eq := he, calm := hx.calm, low := hx.low, run := hx.run, hd := hx.hd }
  obtain ⟨w1, w2, w3, w4⟩ := MX.mwait evs2 (l := r1.2) hm hne hp2 (fun agree ha => by
    cases agree
    · rfl
    · exact absurd rfl (hn _ ha))
  obtain ⟨k1, k2⟩ := w2.required he w3 hne w4
  change (Mcpwm.watch hw s l (evs1 ++ evs2)).2.pulses = _ ∧ (Mcpwm.watch hw s l (evs1 ++ evs2)).1.q.requiredLevel .esp32 = _ ∧
    (Hw.readOut .esp32 ⟨(Mcpwm.watch hw s l (evs1 ++ evs2)).1.q, 0⟩).head? = _
  rw [Mcpwm.watch_append]
  exact ⟨w1, k1, k2⟩

/-- A fresh stepper with MCPWM/PCNT driver and external direction pin 5. -/
def extMcpwm : Mcpwm ShadowPcnt := Mcpwm.fresh shadowPcnt ⟨7, 9, 9⟩ (128 + 5) true

theorem extMcpwm_idle : extMcpwm.ExtIdle ⟨some true, []⟩ where
  queue := ⟨by decide, rfl, rfl, by decide, by decide, fun _ => rfl, rfl, rfl⟩
  pc := rfl
  timer := rfl
  run := rfl
  irq := rfl
  ena := rfl

/-- addQueueEntry without interruption -/
def extMcAdd (c : Cmd) (start : Bool) : List (ExtEv Mcpwm.Ev) := [.hw (.addBegin c start), .hw .addCommit, .hw .addFinish]

/-- One period of the timer with its interrupts. -/
def extPeriod : List (ExtEv Mcpwm.Ev) := [.hw .compare, .hw .pcntIsr, .hw .teaIsr, .hw .zero]

/-- Two steps up, a pause with the change of direction, two steps down; the pause is repeated. -/
def extMcEvs : List (ExtEv Mcpwm.Ev) :=
  extMcAdd ⟨2000, 2, true⟩ true ++ extMcAdd ⟨8000, 0, false⟩ true ++ [.hw (.addBegin ⟨2000, 2, false⟩ true)] ++ extPeriod ++ [.hw .addCommit, .hw .addFinish] ++ extPeriod ++ [.poll false] ++
  extPeriod ++ extPeriod ++ extPeriod

/-- The following confirmation. -/
def extMcEvs2 : List (ExtEv Mcpwm.Ev) := extMcEvs ++ [.poll true] ++ extPeriod ++ extPeriod ++ extPeriod

/-- Non-vacuity: the timer runs through the pause several times, the queue waits for the confirmation, and only then the last steps are executed. -/
example : Mcpwm.AlongExt shadowPcnt Mcpwm.ExtTurn extMcpwm extMcEvs2 ∧
    (Mcpwm.watch shadowPcnt extMcpwm ⟨some true, []⟩ extMcEvs).2 = ⟨none, [(some true, some true), (some true, some true)]⟩ ∧
    (Mcpwm.watch shadowPcnt extMcpwm ⟨some true, []⟩ extMcEvs).1.q.requiredLevel .esp32 = some false ∧
    (Mcpwm.watch shadowPcnt extMcpwm ⟨some true, []⟩ extMcEvs2).2 = ⟨some false, [(some false, some false), (some false, some false), (some true, some true), (some true, some true)]⟩ := by
  refine ⟨?_, ?_, ?_, ?_⟩ <;> decide +kernel

end FAS
