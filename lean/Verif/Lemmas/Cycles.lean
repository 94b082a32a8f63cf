import Verif.Props.Arrive
import Verif.Props.Single
import Verif.Lemmas.Fill

/-!
# Lemmas about the task cycles of a move
-/

namespace FAS

open Spec

/-! ## The end of the queue after `addQueueEntry` -/

namespace Stepper

theorem autoEnable_countUp (a : ArchId) (ext : ExtPin) (gaps : Nat → Gap) (k : Call) (c : Cmd) (st : Bool) :
    (k.autoEnable a ext gaps c st).1.s.hw.q.qend.countUp = k.s.hw.q.qend.countUp ∨
    (k.autoEnable a ext gaps c st).1.s.hw.q.qend.countUp = c.countUp := by
  unfold Call.autoEnable
  dsimp only
  split
  · split
    · exact Or.inl rfl
    · split
      · rw [(Call.addNull_spec a gaps _ st).2.2.2.2.1]
        exact addPauses_countUp a gaps c.countUp _ _
      · exact Or.inl rfl
  · exact Or.inl rfl

theorem dirChange_countUp (a : ArchId) (gaps : Nat → Gap) (k : Call) (c : Cmd) (st : Bool) :
    (k.dirChange a gaps c st).1.s.hw.q.qend.countUp = k.s.hw.q.qend.countUp ∨
    (k.dirChange a gaps c st).1.s.hw.q.qend.countUp = c.countUp := by
  have hg : ∀ (k : Call), (k.s.hw.gap a (gaps k.n)).q.qend = k.s.hw.q.qend := fun k => (k.s.hw.gap_fields a (gaps k.n)).1
  have hadd : ∀ (k : Call) (d : Cmd), (k.add a gaps d st).1.s.hw.q.qend.countUp = k.s.hw.q.qend.countUp ∨
      (k.add a gaps d st).1.s.hw.q.qend.countUp = d.countUp := by
    intro k d
    rcases (Call.add_spec a gaps k d st).2.2.2 with ⟨-, -, -, h⟩ | ⟨-, -, h⟩
    · exact Or.inr h
    · exact Or.inl h
  unfold Call.dirChange
  dsimp only
  split
  · split
    · split
      · left; rw [hg]
      · have h1 := hadd { k with s := { k.s with hw := k.s.hw.gap a (gaps k.n) }, n := k.n + 1 } ⟨u16 (usToTicks a 500), 0, c.countUp⟩
        have h0 : ({ k with s := { k.s with hw := k.s.hw.gap a (gaps k.n) }, n := k.n + 1 } : Call).s.hw.q.qend.countUp =
          k.s.hw.q.qend.countUp := by dsimp only; rw [hg]
        rw [h0] at h1
        split
        · exact h1
        · have h2 := hadd (Call.add a gaps { k with s := { k.s with hw := k.s.hw.gap a (gaps k.n) }, n := k.n + 1 }
            ⟨u16 (usToTicks a 500), 0, c.countUp⟩ st).1 ⟨u16 (usToTicks a 500), 0, c.countUp⟩
          rcases h2 with h2 | h2
          · rcases h1 with h1 | h1
            · exact Or.inl (h2.trans h1)
            · exact Or.inr (h2.trans h1)
          · exact Or.inr h2
    · split
      · exact hadd k ⟨k.s.dirChangeDelayTicks, 0, c.countUp⟩
      · exact Or.inl rfl
  · exact Or.inl rfl

/-- What `addQueueEntry` leaves at the end of the queue. -/
theorem addQueueEntry_qend (a : ArchId) (ext : ExtPin) (gaps : Nat → Gap) (busy : Bool) (s : Stepper) (c : Cmd) (st : Bool)
    (hign : s.hw.q.ignoreCommands = false) (hpos : i32 s.hw.q.qend.pos = s.hw.q.qend.pos) :
    let r := s.addQueueEntry a ext gaps busy c st
    (r.2 = AQE_OK → r.1.s.hw.q.qend.pos = i32 (posAfter s.hw.q.qend.pos c) ∧ r.1.s.hw.q.qend.countUp = c.countUp) ∧
    (r.2 ≠ AQE_OK → r.1.s.hw.q.qend.pos = s.hw.q.qend.pos ∧
      (r.1.s.hw.q.qend.countUp = s.hw.q.qend.countUp ∨ r.1.s.hw.q.qend.countUp = c.countUp)) := by
  intro r
  have hm := addQueueEntry_moved a ext gaps busy s c st hpos
  obtain ⟨ps, hps, hacc⟩ := addQueueEntry_accepted a ext gaps busy s c st hign
  have hps0 := signedSum_pauses hps
  have key : (r.2 = AQE_OK → r.1.s.hw.q.qend.countUp = c.countUp) ∧
      (r.1.s.hw.q.qend.countUp = s.hw.q.qend.countUp ∨ r.1.s.hw.q.qend.countUp = c.countUp) := by
    change (((s.addQueueEntry a ext gaps busy c st).2 = AQE_OK → (s.addQueueEntry a ext gaps busy c st).1.s.hw.q.qend.countUp = c.countUp) ∧
      ((s.addQueueEntry a ext gaps busy c st).1.s.hw.q.qend.countUp = s.hw.q.qend.countUp ∨
        (s.addQueueEntry a ext gaps busy c st).1.s.hw.q.qend.countUp = c.countUp))
    unfold addQueueEntry
    dsimp only
    split
    · exact ⟨fun h => absurd h (by dsimp only; decide), Or.inl rfl⟩
    split
    · exact ⟨fun h => absurd h (by dsimp only; decide), Or.inl rfl⟩
    split
    · exact ⟨fun h => absurd h (by dsimp only; decide), Or.inl rfl⟩
    have h1 := autoEnable_countUp a ext gaps ⟨s, 0, [], []⟩ c st
    have f1 := (autoEnable_frame a ext gaps ⟨s, 0, [], []⟩ c st).1.ign
    split
    · rename_i k code heq
      have := autoEnable_code a ext gaps ⟨s, 0, [], []⟩ c st code (by rw [heq])
      rw [heq] at h1
      exact ⟨fun h => absurd h this, h1⟩
    · rename_i k heq
      rw [heq] at h1 f1
      have h2 := dirChange_countUp a gaps k c st
      have f2 := (dirChange_frame a gaps k c st).1.ign
      split
      · rename_i k2 code heq2
        have := dirChange_code a gaps k c st code (by rw [heq2])
        rw [heq2] at h2
        refine ⟨fun h => absurd h this, ?_⟩
        dsimp only at h1 h2 ⊢
        rcases h2 with h2 | h2
        · rw [h2]; exact h1
        · exact Or.inr h2
      · rename_i k2 heq2
        rw [heq2] at h2 f2
        dsimp only at h1 h2 f1 f2
        have h3 : ((k2.add a gaps c st).2 = AQE_OK → (k2.add a gaps c st).1.s.hw.q.qend.countUp = c.countUp) ∧
            ((k2.add a gaps c st).1.s.hw.q.qend.countUp = k2.s.hw.q.qend.countUp ∨
             (k2.add a gaps c st).1.s.hw.q.qend.countUp = c.countUp) := by
          rcases (Call.add_spec a gaps k2 c st).2.2.2 with ⟨h, -, -, h'⟩ | ⟨h, -, h'⟩
          · exact ⟨fun _ => h', Or.inr h'⟩
          · refine ⟨fun hx => ?_, Or.inl h'⟩
            have := h hx
            rw [f2, f1, hign] at this; cases this
        have h4 : (k2.final a gaps c st).1.s.hw.q.qend = (k2.add a gaps c st).1.s.hw.q.qend ∧
            (k2.final a gaps c st).2 = (k2.add a gaps c st).2 := by
          unfold Call.final; dsimp only; split <;> exact ⟨rfl, rfl⟩
        rw [h4.1, h4.2]
        refine ⟨h3.1, ?_⟩
        rcases h3.2 with h3 | h3
        · rcases h2 with h2 | h2
          · rw [h3, h2]; exact h1
          · right; rw [h3, h2]
        · exact Or.inr h3
  refine ⟨fun hok => ⟨?_, key.1 hok⟩, fun hno => ⟨?_, key.2⟩⟩
  · rcases hacc with ⟨-, hacc⟩ | ⟨h, -⟩
    · rw [hacc, signedSum_append, hps0] at hm
      rw [hm]
      unfold posAfter signedSum signedSum Cmd.signed
      congr 1
      split <;> omega
    · exact absurd hok h
  · rcases hacc with ⟨h, -⟩ | ⟨-, hacc⟩
    · exact absurd h hno
    · rw [hacc, hps0, Int.add_zero, hpos] at hm
      exact hm

end Stepper

/-! ## A service whose command is refused -/

/-- Preparing a prepared ramp changes nothing. If it is stopping, this needs the same end of the queue. -/
theorem prepare_again (a : ArchId) (g : RampGen) (qe qe' : QueueEnd)
    (hf : g.ro.forceStop = false ∨ (qe'.pos = qe.pos ∧ (qe'.countUp = qe.countUp ∨ (g.prepare a qe).stepsToStop = 0))) :
    (g.prepare a qe).prepare a qe' = g.prepare a qe := by
  have hp := prepared a g qe
  have hs := prepare_settled a g qe
  have hfs : (g.prepare a qe).ro.forceStop = g.ro.forceStop := hp.fstop
  have hst : (g.prepare a qe).startSteps a = g.prepare a qe := by
    have hr : ∀ (g : RampGen) b, (g.updateTarget b qe).rw = g.rw := by
      intro g b
      unfold RampGen.updateTarget
      dsimp only
      repeat' split
      all_goals rfl
    have hro : ∀ g : RampGen, (g.startSteps a).ro = g.ro := by
      intro g
      unfold RampGen.startSteps
      dsimp only
      split
      · rfl
      · split <;> rfl
    have hcfg : ∀ (g : RampGen) b, (g.updateTarget b qe).clearRecalc.ro.config.parameters.sJump = g.ro.config.parameters.sJump ∧
        (g.updateTarget b qe).clearRecalc.ro.config.parameters.minTravelTicks = g.ro.config.parameters.minTravelTicks ∧
        (∀ n, (g.updateTarget b qe).clearRecalc.ro.config.calculateTicks a n = g.ro.config.calculateTicks a n) ∧
        (∀ n, (g.updateTarget b qe).clearRecalc.ro.config.calculateRampSteps a n = g.ro.config.calculateRampSteps a n) := by
      intro g b
      unfold RampGen.updateTarget
      dsimp only
      repeat' split
      all_goals exact ⟨rfl, rfl, fun _ => rfl, fun _ => rfl⟩
    obtain ⟨e1, e2, e3, e4⟩ := hcfg ((g.takeOver a).startSteps a) g.ro.config.parameters.keepRunning
    have hrw : (g.prepare a qe).rw = ((g.takeOver a).startSteps a).rw := by
      change (((g.takeOver a).startSteps a).updateTarget _ qe).rw = _
      rw [hr]
    rw [hro] at e1 e2 e3 e4
    change (g.prepare a qe).ro.config.parameters.sJump = _ at e1
    change (g.prepare a qe).ro.config.parameters.minTravelTicks = _ at e2
    change ∀ n, (g.prepare a qe).ro.config.calculateTicks a n = _ at e3
    change ∀ n, (g.prepare a qe).ro.config.calculateRampSteps a n = _ at e4
    have hrc := hs.1
    generalize g.prepare a qe = g1 at *
    generalize g.takeOver a = g0 at *
    have hct : g1.rw.currTicks = g0.rw.currTicks := by
      rw [hrw]; unfold RampGen.startSteps; dsimp only; repeat' split
      all_goals rfl
    have hrw2 : (g1.startSteps a).rw = g1.rw := by
      by_cases hc : g1.rw.currTicks = ticksForStoppedMotor
      · have h0 : g0.rw.currTicks = ticksForStoppedMotor := by rw [← hct]; exact hc
        unfold RampGen.startSteps at hrw ⊢
        dsimp only at hrw ⊢
        rw [if_pos h0] at hrw
        rw [if_pos hc, e1, e2, e3, e4, hrw]
      · unfold RampGen.startSteps
        dsimp only
        rw [if_neg hc, if_neg (by rw [hrc]; decide)]
    have : (g1.startSteps a) = { g1 with rw := (g1.startSteps a).rw } := by
      unfold RampGen.startSteps
      dsimp only
      repeat' split
      all_goals rfl
    rw [this, hrw2]
  have hto : (g.prepare a qe).takeOver a = g.prepare a qe := by
    unfold RampGen.takeOver; rw [if_neg (by rw [hp.papply]; decide)]
  have hrc := hs.1
  generalize g.prepare a qe = g1 at *
  unfold RampGen.prepare
  rw [hto, hst]
  have hut : ∀ b, g1.updateTarget b qe' = g1 := by
    intro b
    unfold RampGen.updateTarget
    dsimp only
    cases hcf : g.ro.forceStop
    · rw [if_neg (by rw [hfs, hcf]; decide), if_neg (by rw [hs.2.1 hcf]; decide)]
    · rw [if_pos (by rw [hfs, hcf])]
      obtain ⟨k1, k2⟩ := hs.2.2 hcf
      rcases hf with hf | ⟨h1, h2⟩
      · rw [hcf] at hf; cases hf
      have htg : i32 (if qe'.countUp = true then qe'.pos + (g1.rw.performedRampUpSteps : Int) else qe'.pos - (g1.rw.performedRampUpSteps : Int)) = g1.ro.targetPos := by
        rw [k2, h1]
        rcases h2 with h2 | h2
        · rw [h2]; rfl
        · have h3 : g1.rw.performedRampUpSteps = 0 := h2
          rw [h2, h3]
          split <;> split <;> simp
      rw [htg]
      unfold RampGen.isRunningContinuously at k1
      rw [← k1]
  rw [hut]
  unfold RampGen.clearRecalc
  rw [← hrc]

theorem prepare_idem (a : ArchId) (g : RampGen) (qe qe' : QueueEnd) (hf : g.ro.forceStop = false) :
    (g.prepare a qe).prepare a qe' = g.prepare a qe := prepare_again a g qe qe' (Or.inl hf)

/-- The ramp can brake after `stopMove()`: no jump start, and a set speed of at most 65535 ticks. -/
structure Halts (a : ArchId) (d : Drive) : Prop where
  jump : (d.g.prepare a d.qe).ro.config.parameters.sJump = 0
  limit : (d.g.prepare a d.qe).ro.config.parameters.minTravelTicks ≤ 65535

/-- The target stays the same while the motor brakes. -/
theorem Halts.serve {a : ArchId} {d d' : Drive} {junk : NextCommand} (hk : Halts a d) (hg : Going a d)
    (hl : Lively a (d.g.prepare a d.qe).ro.config d.g.rw.currTicks) (hf : d.g.ro.forceStop = true)
    (h : d.serve a junk = some d') (hact : d'.g.isActive = true) :
    Halts a d' ∧ d'.g.ro.forceStop = true ∧ (d'.g.prepare a d'.qe).ro.targetPos = (d.g.prepare a d.qe).ro.targetPos := by
  unfold Drive.serve at h
  cases hn : d.g.getNextCommand a d.qe junk with
  | none => rw [hn] at h; cases h
  | some gc =>
    obtain ⟨g1, c⟩ := gc
    rw [hn] at h
    dsimp only at h
    cases h
    have hp := prepared a d.g d.qe
    have hs := prepare_settled a d.g d.qe
    have hmove := hg.move
    have hbrake := hg.brake
    obtain ⟨hk1, hk3⟩ := hk
    rcases service_cases hg.range hn with ⟨-, -, -, h1⟩ | ⟨hgg, -, hc⟩
    · have : (g1.afterCommandEnqueued c).isActive = false := isActive_stopped h1
      rw [this] at hact; cases hact
    · rw [← hgg] at hp hs hmove hbrake hl hk1 hk3
      have hfs := hp.fstop
      rw [← hgg]
      have hc1 : (g1.afterCommandEnqueued c).parameters = g1.parameters := rfl
      have hc2 : (g1.afterCommandEnqueued c).ro = g1.ro := rfl
      have hc3 : (g1.afterCommandEnqueued c).rw = c.rw := rfl
      generalize hg2 : g1.afterCommandEnqueued c = g2 at *
      generalize hqe : (if c.command.ticks = 0 then d.qe
        else { pos := i32 (posAfter d.qe.pos c.command), countUp := c.command.countUp, dir := d.qe.dir : QueueEnd }) = qe2
      have hp2 := prepared a g2 qe2
      have hs2 := prepare_settled a g2 qe2
      have hsm := prepare_same a g2 qe2 (by rw [hc1]; exact hp.papply) (by rw [hc2]; exact hs.1)
      rw [hc2] at hsm hs2
      have hcfg : (g2.prepare a qe2).ro.config.parameters.minTravelTicks = g1.ro.config.parameters.minTravelTicks ∧
          (g2.prepare a qe2).ro.config.parameters.sJump = g1.ro.config.parameters.sJump := by
        rcases hp2.cfg with ⟨h1, -⟩ | ⟨-, h1, h2, -⟩
        · rw [hc1, hp.papply] at h1; cases h1
        · rw [h1, h2, hc2]; exact ⟨rfl, rfl⟩
      have hfs1 : g1.ro.forceStop = true := by rw [hfs]; exact hf
      have htg1 := (hs.2.2 hf).2
      have htg2 := (hs2.2.2 hfs1).2
      have hb : g1.rw.performedRampUpSteps = g1.stepsToStop := rfl
      have key : i32 (if qe2.countUp then qe2.pos + (g2.prepare a qe2).stepsToStop else qe2.pos - (g2.prepare a qe2).stepsToStop) = g1.ro.targetPos := by
        have hbr : (g2.prepare a qe2).stepsToStop = if g2.rw.currTicks = ticksForStoppedMotor then 0 else c.rw.performedRampUpSteps := by
          split
          · rename_i hst
            exact hp2.stand hst (by rw [hcfg.2]; exact hk1)
          · rename_i hst
            rw [hsm.1 hst]
            unfold RampGen.stepsToStop
            rw [hc3]
        rcases hc with ⟨h1, h2⟩ | ⟨-, -, -, -, h2⟩ | ⟨remaining, same, ph, P, ho⟩
        · have hct : c.rw.currTicks = g1.rw.currTicks := by rw [h2]
          have hpp : c.rw.performedRampUpSteps = g1.rw.performedRampUpSteps := by rw [h2]
          have hpos : i32 (posAfter d.qe.pos c.command) = i32 d.qe.pos := by
            rw [h2]; unfold posAfter; dsimp only; split <;> simp
          have hq2 : i32 qe2.pos = i32 d.qe.pos ∧ qe2.countUp = d.qe.countUp := by
            rw [← hqe]
            split
            · exact ⟨rfl, rfl⟩
            · refine ⟨?_, by rw [h2]⟩
              change i32 (i32 _) = _
              rw [hpos]; unfold i32; omega
          have hb2 : (g2.prepare a qe2).stepsToStop = g1.stepsToStop := by
            rw [hbr, hc3, hct, hp.ticks, hpp]
            split
            · rename_i hst
              have e2 : g1.rw.performedRampUpSteps = 0 := hp.stand hst hk1
              rw [← hb, e2]
            · rfl
          rw [hb2, hq2.2, htg1]
          have := hq2.1
          split <;> (unfold i32 at *; omega)
        · exfalso
          unfold RampGen.isActive at hact
          rw [hc3, h2] at hact
          cases hact
        · have f := ho.facts
          have hlt := f.lt
          have hmv := ho.moving
          have hway := ho.way hmove
          have hnd := ho.notDone
          have hsame := ho.towards
          unfold Towards at hsame
          rw [hmove, if_neg (by decide)] at hsame
          have hp0 : g1.rw.performedRampUpSteps ≠ 0 := by
            intro h0
            apply hnd
            rw [hway.1, htg1, hb.symm, h0]
            unfold shortestWay
            refine ⟨?_, by omega⟩
            cases d.qe.countUp <;> simp only [Bool.false_eq_true, if_false, if_true] <;> (unfold i32; omega)
          have hup := hmv hp0
          have hw1 : shortestWay g1.ro.targetPos d.qe.pos =
              if c.command.countUp then (g1.stepsToStop : Int) else -(g1.stepsToStop : Int) := by
            rw [htg1, ← hup]
            unfold shortestWay
            cases c.command.countUp <;> simp only [Bool.false_eq_true, if_false, if_true] <;> (unfold i32; omega)
          rw [hw1] at hsame
          have hrem : remaining = g1.stepsToStop := by
            rw [hway.1, hw1]; split <;> omega
          have hst : same = true := by
            apply hsame.mpr
            rw [hb] at hp0
            cases c.command.countUp
            · simp only [Bool.false_eq_true, if_false]; omega
            · simp only [if_true]; omega
          have hst0 : ticksForStoppedMotor = 4294967295 := rfl
          have hdec : ph.isDec = true := by
            rcases f.kind with ⟨-, -, h2, -⟩ | ⟨-, -, h2, -⟩ | ⟨h2, -⟩
            · omega
            · omega
            · exact h2
          have hsum := f.level hdec hst (by rw [hrem]; rfl)
          have hct : c.rw.currTicks = P ∧ c.command.ticks ≠ 0 := by
            have := f.pos
            rcases f.period with ⟨h1, -, h2⟩ | ⟨-, -, h1, -⟩
            · refine ⟨h2, ?_⟩
              rw [h1]; split <;> omega
            · have := h1 (by rw [hb]; omega)
              omega
          rw [if_neg hct.2] at hqe
          have hstep : (g2.prepare a qe2).stepsToStop = c.rw.performedRampUpSteps := by
            rw [hbr, if_neg]
            rw [hc3, hct.1]
            obtain ⟨l1, -, l3⟩ := hl
            exact f.live l1 (by omega) l3
          rw [hstep, htg1, ← hup]
          have hqp : qe2.pos = i32 (posAfter d.qe.pos c.command) := by rw [← hqe]
          have hqu : qe2.countUp = c.command.countUp := by rw [← hqe]
          rw [hqp, hqu]
          unfold posAfter
          rw [← hb, ← hsum]
          cases c.command.countUp
          · simp only [Bool.false_eq_true, if_false]; unfold i32; omega
          · simp only [if_true]; unfold i32; omega
      refine ⟨⟨?_, ?_⟩, by rw [hc2]; exact hfs1, by rw [htg2]; exact key⟩
      · change (g2.prepare a qe2).ro.config.parameters.sJump = 0
        rw [hcfg.2]; exact hk1
      · change (g2.prepare a qe2).ro.config.parameters.minTravelTicks ≤ _
        rw [hcfg.1]; exact hk3

theorem motionRank_turn (w : Int) (p : Nat) (u v : Bool) (h : u = v ∨ p = 0) : motionRank w p u = motionRank w p v := by
  rcases h with h | h
  · rw [h]
  · unfold motionRank
    rw [h]
    simp

/-- The ramp is on its way to `p`, and its progress measure is below `M`. -/
structure OnWay (a : ArchId) (R : Nat) (p : Int) (M : Nat) (g : RampGen) (qe : QueueEnd) : Prop where
  active : g.isActive = true
  safe : Safe a R ⟨g, qe⟩
  below : motionMeasure a ⟨g, qe⟩ < M
  fstop : g.ro.forceStop = true → Halts a ⟨g, qe⟩
  fimm : (g.prepare a qe).ro.forceImmediateStop = false
  target : (g.prepare a qe).ro.targetPos = p

/-- The ramp is on its way to `p` or has arrived. -/
def Arrives (a : ArchId) (R : Nat) (p : Int) (M : Nat) (g : RampGen) (qe : QueueEnd) : Prop :=
  (g.isActive = false ∧ shortestWay p qe.pos = 0) ∨ OnWay a R p M g qe

theorem OnWay.mono {a : ArchId} {R : Nat} {p : Int} {M M' : Nat} {g : RampGen} {qe : QueueEnd} (h : OnWay a R p M g qe) (hM : M ≤ M') :
    OnWay a R p M' g qe := ⟨h.active, h.safe, Nat.lt_of_lt_of_le h.below hM, h.fstop, h.fimm, h.target⟩

theorem Arrives.mono {a : ArchId} {R : Nat} {p : Int} {M M' : Nat} {g : RampGen} {qe : QueueEnd} (h : Arrives a R p M g qe) (hM : M ≤ M') :
    Arrives a R p M' g qe := h.imp id (fun h => h.mono hM)

/-- The level of the direction pin plays no role. -/
theorem OnWay.dir {a : ArchId} {R : Nat} {p : Int} {M : Nat} {g : RampGen} {qe qe' : QueueEnd} (h : OnWay a R p M g qe)
    (hpos : qe'.pos = qe.pos) (hup : qe'.countUp = qe.countUp) : OnWay a R p M g qe' := by
  obtain ⟨x, u, d⟩ := qe
  obtain ⟨x', u', d'⟩ := qe'
  dsimp only at hpos hup
  subst hpos hup
  obtain ⟨h1, ⟨⟨g1, g2, g3, g4, g5, g6⟩, h3, h4, h5, h6, h7⟩, h8, h9, h10, h11⟩ := h
  refine ⟨h1, ⟨⟨g1, g2, g3, g4, g5, g6⟩, h3, h4.imp id (fun ⟨B, k⟩ => ⟨B, ?_⟩), h5, h6, h7⟩, h8, fun h => ?_, h10, h11⟩
  case _ => obtain ⟨k1, k2⟩ := h9 h; exact ⟨k1, k2⟩
  exact ⟨k.plain, k.jump, k.slow, k.ticks, k.first, k.far, k.near, k.brake, k.top⟩

/-- The queue refuses the command of a service. -/
theorem OnWay.refused {a : ArchId} {R : Nat} {p : Int} {M : Nat} {g g1 : RampGen} {qe qe' : QueueEnd} {junk c : NextCommand}
    (h : OnWay a R p M g qe) (hn : g.getNextCommand a qe junk = some (g1, c)) (hpos : qe'.pos = qe.pos) (ht : c.command.ticks ≠ 0)
    (hup : qe'.countUp = qe.countUp ∨ qe'.countUp = c.command.countUp) : OnWay a R p M g1 qe' := by
  have hr := h.safe.going.range
  rcases service_cases hr hn with ⟨-, -, h1, -⟩ | ⟨hgg, hfi, hc⟩
  · exact absurd h1 ht
  · have hturn : qe'.countUp = qe.countUp ∨ (g.prepare a qe).stepsToStop = 0 := by
      rcases hup with hup | hup
      · exact Or.inl hup
      · rcases hc with ⟨-, h2⟩ | ⟨-, -, -, -, h2⟩ | ⟨remaining, same, ph, P, ho⟩
        · left; rw [hup, h2]
        · rw [h2] at ht; exact absurd rfl ht
        · by_cases h0 : g1.rw.performedRampUpSteps = 0
          · right; rw [← hgg]; exact h0
          · left; rw [hup]; exact ho.moving h0
    have hid := prepare_again a g qe qe' (Or.inr ⟨hpos, hturn⟩)
    have hp := prepared a g qe
    rw [← hgg] at hid hp hturn
    obtain ⟨⟨s1, s2, s3, s4, s5, s6⟩, s7, s8, s9, s10, s11⟩ := h.safe
    have hb := h.below
    have hf := h.fimm
    have htg := h.target
    replace s8 : (∀ n, 1 ≤ n → n ≤ max 65535 R → 0 < (g1.prepare a qe').ro.config.calculateTicks a n) ∨ ∃ B, Steep a R B ⟨g1, qe'⟩ := by
      rw [hid]
      rcases s8 with s8 | ⟨B, k⟩
      · left; rw [hgg]; exact s8
      · refine Or.inr ⟨B, ?_⟩
        obtain ⟨k0, k1, k2, k3, k4, k5, k6, k7, k8⟩ := k
        dsimp only at k0 k1 k2 k3 k4 k5 k6 k7 k8
        rw [← hgg] at k1 k2 k3 k5 k6 k7 k8
        refine ⟨by change g1.ro.forceStop = false; rw [hp.fstop]; exact k0, ?_, ?_, ?_, k4, ?_, ?_, ?_, ?_⟩ <;> dsimp only <;> rw [hid]
        · exact k1
        · exact k2
        · rw [hp.ticks]; exact k3
        · exact k5
        · exact k6
        · exact k7
        · intro hB
          rw [hp.ticks, hpos]
          rcases hturn with ht | ht
          · rw [ht]; exact k8 hB
          · omega
    dsimp only at s1 s2 s3 s4 s5 s6 s7 s9 s10 s11
    unfold motionReach at s9
    unfold motionMeasure at hb
    dsimp only at s9 hb
    rw [← hgg] at s3 s4 s5 s6 s7 s9 hb hf htg
    have hr1 : InRange g1 := by rw [hgg]; exact hr.prepare a qe
    refine ⟨?_, ⟨⟨hr1, ?_, ?_, ?_, ?_, ?_⟩, ?_, ?_, ?_, s10, ?_⟩, ?_, ?_, ?_, ?_⟩
    · have := h.active
      unfold RampGen.isActive at this ⊢
      rw [hp.state]; exact this
    · change g1.rw.pauseTicksLeft < _; rw [hp.pause]; exact s2
    · change (g1.prepare a qe').isRunningContinuously = false; rw [hid]; exact s3
    · change (g1.prepare a qe').ro.config.parameters.sJump = 0 ∨ (Lively a (g1.prepare a qe').ro.config g1.rw.currTicks ∧
        (g1.rw.currTicks = ticksForStoppedMotor → g1.rw.pauseTicksLeft = 0))
      rw [hid, hp.ticks, hp.pause]; exact s4
    · change (g1.prepare a qe').ro.config.parameters.minTravelTicks % 65536 ≠ 0 ∨ Crawls (g1.prepare a qe').ro.config g1.rw.currTicks
      rw [hid, hp.ticks]; exact s5
    · change (g1.prepare a qe').stepsToStop < _; rw [hid]; exact s6
    · change Lively a (g1.prepare a qe').ro.config g1.rw.currTicks; rw [hid, hp.ticks]; exact s7
    · exact s8
    · unfold motionReach
      dsimp only
      rw [hid, hpos, motionRank_turn _ _ _ _ hturn]; exact s9
    · change 0 < g1.rw.currTicks; rw [hp.ticks]; exact s11
    · unfold motionMeasure
      dsimp only
      rw [hid, hpos, motionRank_turn _ _ _ _ hturn]; exact hb
    · intro h0
      rw [hp.fstop] at h0
      obtain ⟨k1, k2⟩ := h.fstop h0
      dsimp only at k1 k2
      rw [← hgg] at k1 k2
      refine ⟨?_, ?_⟩ <;> dsimp only <;> rw [hid]
      · exact k1
      · exact k2
    · rw [hid]; exact hf
    · rw [hid]; exact htg

/-- The queue takes the command of a service. -/
theorem OnWay.served {a : ArchId} {R : Nat} {p : Int} {M : Nat} {g g1 : RampGen} {qe qe' : QueueEnd} {junk c : NextCommand}
    (h : OnWay a R p M g qe) (hj : junk.rw.performedRampUpSteps < 4294967296) (hn : g.getNextCommand a qe junk = some (g1, c))
    (hpos : qe'.pos = if c.command.ticks = 0 then qe.pos else i32 (posAfter qe.pos c.command))
    (hup : qe'.countUp = if c.command.ticks = 0 then qe.countUp else c.command.countUp) : Arrives a R p (M - 1) (g1.afterCommandEnqueued c) qe' := by
  have hserve : Drive.serve a junk ⟨g, qe⟩ = some ⟨g1.afterCommandEnqueued c,
      if c.command.ticks = 0 then qe else { pos := i32 (posAfter qe.pos c.command), countUp := c.command.countUp, dir := qe.dir }⟩ := by
    unfold Drive.serve
    dsimp only
    rw [hn]
  have hb := h.below
  have hq : ∀ X : QueueEnd, X = (if c.command.ticks = 0 then qe else { pos := i32 (posAfter qe.pos c.command), countUp := c.command.countUp, dir := qe.dir }) →
      qe'.pos = X.pos ∧ qe'.countUp = X.countUp := by
    intro X hX
    rw [hX, hpos, hup]
    split <;> exact ⟨rfl, rfl⟩
  rcases h.safe.serve h.active hj hserve with ⟨h1, h2⟩ | ⟨h1, h2, h3, h4, h5⟩
  · left
    refine ⟨h1, ?_⟩
    obtain ⟨h3, h4⟩ := h2 h.fimm
    dsimp only at h3 h4
    rw [h.target] at h4
    rw [← h4]
    unfold shortestWay
    rw [← i32_sub_i32, (hq _ rfl).1, h3, i32_sub_i32]
  · right
    cases hfs : g.ro.forceStop
    · obtain ⟨h6, h7⟩ := h5 hfs
      refine OnWay.dir ⟨h2, h1, by omega, fun h => ?_, h4, by rw [h7]; exact h.target⟩ (hq _ rfl).1 (hq _ rfl).2
      change (g1.afterCommandEnqueued c).ro.forceStop = false at h6
      rw [h6] at h; cases h
    · obtain ⟨h6, -, h7⟩ := (h.fstop hfs).serve h.safe.going h.safe.lively hfs hserve h2
      exact OnWay.dir ⟨h2, h1, by omega, fun _ => h6, h4, by rw [h7]; exact h.target⟩ (hq _ rfl).1 (hq _ rfl).2

/-! ## One task cycle -/

/-- The state at the begin of an iteration. -/
structure CycleState (a : ArchId) (R : Nat) (p : Int) (M : Nat) (f : Stepper.Fill) : Prop where
  arrives : Arrives a R p M f.s.rg f.s.hw.q.qend
  ign : f.s.hw.q.ignoreCommands = false
  pos : i32 f.s.hw.q.qend.pos = f.s.hw.q.qend.pos
  junk : f.cmd.rw.performedRampUpSteps < 4294967296

theorem i32_i32 (x : Int) : i32 (i32 x) = i32 x := by unfold i32; omega

/-- One iteration. -/
theorem CycleState.body {a : ArchId} {R : Nat} {p : Int} {M : Nat} {f : Stepper.Fill} (env : Stepper.Env) (i : Nat)
    (h : CycleState a R p M f) (hc : f.cond a = true)
    (hna : ∀ rg cmd, f.s.rg.getNextCommand a f.s.hw.q.qend f.cmd = some (rg, cmd) → cmd.command.ticks ≠ 0 →
      0 ≤ (({ f.s with rg := rg } : Stepper).addQueueEntry a (env.ext i) (env.gaps i) (env.busy i) cmd.command (!f.delayedStart)).2) :
    ∃ f' b, f.body a env i = some (f', b) ∧ CycleState a R p M f' ∧ (b = true → CycleState a R p (M - 1) f') ∧
      (∀ rg cmd, f.s.rg.getNextCommand a f.s.hw.q.qend f.cmd = some (rg, cmd) →
        (cmd.command.ticks ≠ 0 → (({ f.s with rg := rg } : Stepper).addQueueEntry a (env.ext i) (env.gaps i) (env.busy i) cmd.command
          (!f.delayedStart)).2 = AQE_OK) → CycleState a R p (M - 1) f') := by
  have hact : f.s.rg.isActive = true := by
    unfold Stepper.Fill.cond at hc
    exact (Bool.and_eq_true_iff.mp hc).2
  have hw : OnWay a R p M f.s.rg f.s.hw.q.qend := by
    rcases h.arrives with ⟨h1, -⟩ | h1
    · rw [hact] at h1; cases h1
    · exact h1
  obtain ⟨d', hd⟩ := hw.safe.defined f.cmd
  unfold Drive.serve at hd
  dsimp only at hd
  cases hn : f.s.rg.getNextCommand a f.s.hw.q.qend f.cmd with
  | none => rw [hn] at hd; cases hd
  | some gc =>
    obtain ⟨rg, cmd⟩ := gc
    clear hd d'
    have hbody : ∃ f' b, f.body a env i = some (f', b) := by
      unfold Stepper.Fill.body
      rw [hn]
      dsimp only
      repeat' split
      all_goals exact ⟨_, _, rfl⟩
    obtain ⟨f', b, hb⟩ := hbody
    refine ⟨f', b, hb, ?_⟩
    obtain ⟨rg', cmd', hn', hcmd, hcase⟩ := Stepper.Fill.body_cases a env i f f' b hb
    rw [hn] at hn'
    cases hn'
    have hj : f'.cmd.rw.performedRampUpSteps < 4294967296 := by
      rw [hcmd]; exact (InRange_serve hw.safe.going.range h.junk hn).1
    rcases hcase with ⟨ht, r, hr, -, hcase⟩ | ⟨ht, hbf, hs, -⟩
    · have hq := Stepper.addQueueEntry_qend a (env.ext i) (env.gaps i) (env.busy i) { f.s with rg := rg } cmd.command (!f.delayedStart) h.ign h.pos
      have hfr := Stepper.addQueueEntry_frame a (env.ext i) (env.gaps i) (env.busy i) { f.s with rg := rg } cmd.command (!f.delayedStart)
      dsimp only at hq
      have hna' := hna rg cmd hn ht
      rw [← hr] at hq hfr hna'
      rcases hcase with ⟨hok, hbt, hs, -⟩ | ⟨hok, hbt, hs, -⟩ | ⟨hok, -⟩
      · obtain ⟨q1, q2⟩ := hq.1 hok
        have hcs : CycleState a R p (M - 1) f' := by
          refine ⟨?_, ?_, ?_, hj⟩
          · rw [hs]
            change Arrives a R p (M - 1) (r.1.s.rg.afterCommandEnqueued cmd) r.1.s.hw.q.qend
            rw [hfr.rg]
            exact hw.served h.junk hn (by rw [if_neg ht]; exact q1) (by rw [if_neg ht]; exact q2)
          · rw [hs]; exact hfr.ign.trans h.ign
          · rw [hs]
            change i32 r.1.s.hw.q.qend.pos = r.1.s.hw.q.qend.pos
            rw [q1, i32_i32]
        exact ⟨⟨hcs.arrives.mono (by omega), hcs.ign, hcs.pos, hcs.junk⟩, fun _ => hcs, fun _ _ _ _ => hcs⟩
      · obtain ⟨q1, q2⟩ := hq.2 (fun hx => by rw [hx] at hok; exact absurd hok (by decide))
        have hcs : CycleState a R p M f' := by
          refine ⟨?_, ?_, ?_, hj⟩
          · rw [hs, hfr.rg]
            exact Or.inr (hw.refused hn q1 ht q2)
          · rw [hs]; exact hfr.ign.trans h.ign
          · rw [hs, q1]; exact h.pos
        refine ⟨hcs, fun hx => (by rw [hbt] at hx; cases hx), fun rg2 cmd2 h2 h3 => ?_⟩
        cases h2
        have h4 := h3 ht
        rw [← hr] at h4
        rw [h4] at hok
        exact absurd hok (by decide)
      · omega
    · have hcs : CycleState a R p (M - 1) f' := by
        refine ⟨?_, ?_, ?_, hj⟩
        · rw [hs]
          exact hw.served h.junk hn (by rw [if_pos ht]) (by rw [if_pos ht])
        · rw [hs]; exact h.ign
        · rw [hs]; exact h.pos
      exact ⟨⟨hcs.arrives.mono (by omega), hcs.ign, hcs.pos, hcs.junk⟩, fun _ => hcs, fun _ _ _ _ => hcs⟩

theorem CycleState.mono {a : ArchId} {R : Nat} {p : Int} {M M' : Nat} {f : Stepper.Fill} (h : CycleState a R p M f) (hM : M ≤ M') :
    CycleState a R p M' f := ⟨h.arrives.mono hM, h.ign, h.pos, h.junk⟩

/-- The loop. -/
theorem CycleState.loop {a : ArchId} {R : Nat} {p : Int} {M : Nat} (env : Stepper.Env) (f0 : Stepper.Fill)
    (hna : ∀ i f rg cmd, FillState a env f0 i f → f.cond a = true → f.s.rg.getNextCommand a f.s.hw.q.qend f.cmd = some (rg, cmd) →
      cmd.command.ticks ≠ 0 →
      0 ≤ (({ f.s with rg := rg } : Stepper).addQueueEntry a (env.ext i) (env.gaps i) (env.busy i) cmd.command (!f.delayedStart)).2) :
    ∀ n i f, FillState a env f0 i f → CycleState a R p M f → ∃ f' x, Stepper.Fill.loop a env n i f = some (f', x) ∧ CycleState a R p M f' := by
  intro n
  induction n with
  | zero => intro i f _ h; exact ⟨f, _, rfl, h⟩
  | succ n ih =>
    intro i f hst h
    unfold Stepper.Fill.loop
    by_cases hc : f.cond a = true
    · rw [if_pos hc]
      obtain ⟨f', b, hb, h1, -⟩ := h.body env i hc (fun rg cmd h1 h2 => hna i f rg cmd hst hc h1 h2)
      rw [hb]
      cases b
      · exact ⟨f', _, rfl, h1⟩
      · exact ih (i + 1) f' (.step hst hc hb) h1
    · rw [if_neg hc]; exact ⟨f, _, rfl, h⟩

/-- The ramp is on its way, with the facts about the position. -/
structure MoveState (a : ArchId) (R : Nat) (p : Int) (M : Nat) (s : Stepper) : Prop where
  arrives : Arrives a R p M s.rg s.hw.q.qend
  pos : i32 s.hw.q.qend.pos = s.hw.q.qend.pos

theorem startQueue_keeps (s : Stepper) (st : Bool) : (s.startQueue st).1.rg = s.rg ∧ (s.startQueue st).1.hw.q.qend = s.hw.q.qend := by
  unfold Stepper.startQueue
  dsimp only
  rw [Queue.addNull_q]
  split <;> exact ⟨rfl, rfl⟩

/-- One task cycle. -/
theorem MoveState.cycle {a : ArchId} {R : Nat} {p : Int} {M : Nat} {s : Stepper} (h : MoveState a R p M s) (env : Stepper.Env) (junk : NextCommand)
    (hj : junk.rw.performedRampUpSteps < 4294967296) (hna : ¬ AbortedRamp a env junk s) :
    ∃ s' acc, s.fillQueue a env junk = some (s', acc) ∧ MoveState a R p M s' ∧
      (1 ≤ env.iterations → s.rg.parameters.checkValidConfig = MOVE_OK → (fillStart a junk s).cond a = true →
       (∀ rg cmd, s.rg.getNextCommand a s.hw.q.qend junk = some (rg, cmd) → cmd.command.ticks ≠ 0 →
        (({ (fillStart a junk s).s with rg := rg } : Stepper).addQueueEntry a (env.ext 0) (env.gaps 0) (env.busy 0) cmd.command
          s.hw.q.running).2 = AQE_OK) → MoveState a R p (M - 1) s') := by
  by_cases hact : s.rg.isActive = true
  · by_cases hv : s.rg.parameters.checkValidConfig = MOVE_OK
    · have hna' : ∀ i f rg cmd, FillState a env (fillStart a junk s) i f → f.cond a = true →
          f.s.rg.getNextCommand a f.s.hw.q.qend f.cmd = some (rg, cmd) → cmd.command.ticks ≠ 0 →
          0 ≤ (({ f.s with rg := rg } : Stepper).addQueueEntry a (env.ext i) (env.gaps i) (env.busy i) cmd.command (!f.delayedStart)).2 := by
        intro i f rg cmd h1 h2 h3 h4
        by_cases h5 : 0 ≤ (({ f.s with rg := rg } : Stepper).addQueueEntry a (env.ext i) (env.gaps i) (env.busy i) cmd.command (!f.delayedStart)).2
        · exact h5
        · exact absurd ⟨i, f, rg, cmd, h1, h2, h3, h4, by omega⟩ hna
      have h0 : CycleState a R p M (fillStart a junk s) := ⟨h.arrives, rfl, h.pos, hj⟩
      obtain ⟨f, x, hl, hf⟩ := CycleState.loop env (fillStart a junk s) hna' env.iterations 0 _ .zero h0
      have hfq : s.fillQueue a env junk = some (if f.needDelayedStart then (f.s.startQueue true).1 else f.s, f.accepted) := by
        unfold Stepper.fillQueue
        rw [if_neg (by rw [hact]; decide), if_neg (by rw [hv]; simp)]
        dsimp only
        change (match Stepper.Fill.loop a env env.iterations 0 (fillStart a junk s) with | none => none | some (f, _) => _) = _
        rw [hl]
        dsimp only
        split <;> rfl
      have hfin : ∀ M', CycleState a R p M' f → MoveState a R p M' (if f.needDelayedStart then (f.s.startQueue true).1 else f.s) := by
        intro M' h'
        obtain ⟨k1, k2⟩ := startQueue_keeps f.s true
        split
        · exact ⟨by rw [k1, k2]; exact h'.arrives, by rw [k2]; exact h'.pos⟩
        · exact ⟨h'.arrives, h'.pos⟩
      refine ⟨_, _, hfq, hfin M hf, fun hit _ hcond hok => hfin _ ?_⟩
      -- the first iteration
      obtain ⟨n, hn⟩ : ∃ n, env.iterations = n + 1 := ⟨env.iterations - 1, by omega⟩
      rw [hn] at hl
      unfold Stepper.Fill.loop at hl
      rw [if_pos hcond] at hl
      obtain ⟨f', b, hb, -, h1, h2⟩ := h0.body env 0 hcond (fun rg cmd h1 h2 => hna' 0 _ rg cmd .zero hcond h1 h2)
      rw [hb] at hl
      have h3 : CycleState a R p (M - 1) f' := by
        obtain ⟨rg, cmd, hg, -⟩ := Stepper.Fill.body_cases a env 0 _ f' b hb
        refine h2 rg cmd hg (fun ht => ?_)
        have := hok rg cmd hg ht
        have hds : (!(fillStart a junk s).delayedStart) = s.hw.q.running := by
          unfold fillStart; dsimp only; rw [Bool.not_not]
        rw [hds]
        exact this
      cases b
      · cases hl; exact h3
      · obtain ⟨f2, x2, hl2, hf2⟩ := CycleState.loop env (fillStart a junk s) hna' n 1 f' (.step .zero hcond hb) h3
        dsimp only at hl
        rw [hl2] at hl
        cases hl
        exact hf2
    · refine ⟨s, [], ?_, h, fun _ hx => absurd hx hv⟩
      unfold Stepper.fillQueue
      rw [if_neg (by rw [hact]; decide), if_pos hv]
  · have hia : s.rg.isActive = false := by simpa using hact
    refine ⟨s, [], Stepper.fillQueue_inactive a env junk s hia, h, fun _ _ _ _ => ⟨?_, h.pos⟩⟩
    rcases h.arrives with h1 | h1
    · exact Or.inl h1
    · have := h1.active; rw [hia] at this; cases this

end FAS
