import Verif.Lemmas.BriskMove
import Verif.Lemmas.RealFill
import Verif.Lemmas.Control

/-!
# Short commands of a move: the task cycles
-/

namespace FAS

open Spec Stepper

/-- What `addQueueEntry()` queues: a pause for the direction delay, and the command. -/
theorem addQueueEntry_shape (a : ArchId) (ext : ExtPin) (gaps : Nat → Gap) (busy : Bool) (s : Stepper) (c : Cmd) (st : Bool)
    (hpin : pinIsExternal s.dirPin = false) (hen : s.autoEnable = false ∨ s.onDelayTicks = 0) :
    ∃ X, (X = [] ∨ (X = [⟨s.dirChangeDelayTicks, 0, c.countUp⟩] ∧ s.dirChangeDelayTicks ≠ 0)) ∧
      ((s.addQueueEntry a ext gaps busy c st).1.accepted = X ∨
        ((s.addQueueEntry a ext gaps busy c st).2 = AQE_OK ∧ (s.addQueueEntry a ext gaps busy c st).1.accepted = X ++ [c])) := by
  have hae : (Call.autoEnable a ext gaps ⟨s, 0, [], []⟩ c st).1.accepted = [] ∧ (Call.autoEnable a ext gaps ⟨s, 0, [], []⟩ c st).1.s = s := by
    unfold Call.autoEnable
    dsimp only
    split
    · rename_i h1
      split
      · exact ⟨rfl, rfl⟩
      · rw [if_neg]
        · exact ⟨rfl, rfl⟩
        · rcases hen with h | h
          · rw [h] at h1; exact absurd h1.1 (by decide)
          · omega
    · exact ⟨rfl, rfl⟩
  unfold addQueueEntry
  dsimp only
  split
  · exact ⟨[], Or.inl rfl, Or.inl rfl⟩
  split
  · exact ⟨[], Or.inl rfl, Or.inl rfl⟩
  split
  · exact ⟨[], Or.inl rfl, Or.inl rfl⟩
  split
  · rename_i k code hk
    rw [hk] at hae
    exact ⟨[], Or.inl rfl, Or.inl hae.1⟩
  · rename_i k hk
    rw [hk] at hae
    obtain ⟨h1, h2⟩ := hae
    dsimp only at h1 h2
    have hdc : (k.dirChange a gaps c st).1.accepted = [] ∨
        ((k.dirChange a gaps c st).1.accepted = [⟨s.dirChangeDelayTicks, 0, c.countUp⟩] ∧ s.dirChangeDelayTicks ≠ 0) := by
      unfold Call.dirChange
      rw [h2, hpin]
      split
      · rw [if_neg (by decide)]
        split
        · rename_i h3
          unfold Call.add
          dsimp only
          rw [h1]
          split
          · exact Or.inr ⟨rfl, h3.1⟩
          · exact Or.inl rfl
        · exact Or.inl h1
      · exact Or.inl h1
    split
    · rename_i k' code hk'
      rw [hk'] at hdc
      exact ⟨_, hdc, Or.inl rfl⟩
    · rename_i k' hk'
      rw [hk'] at hdc
      have hacc : (k'.final a gaps c st).1.accepted = (k'.add a gaps c st).1.accepted ∧ (k'.final a gaps c st).2 = (k'.add a gaps c st).2 := by
        unfold Call.final; dsimp only; split <;> exact ⟨rfl, rfl⟩
      rw [hacc.1, hacc.2]
      refine ⟨k'.accepted, hdc, ?_⟩
      unfold Call.add
      dsimp only
      split
      · rename_i h3; exact Or.inr ⟨h3.1, rfl⟩
      · exact Or.inl rfl

/-- The short commands of a task cycle. -/
theorem MoveInv.fill_brisk {a : ArchId} (hav : a.isAvr = true) {T A : Nat} (hT1 : a.minCmdTicks ≤ T) (hT : T < ticksForStoppedMotor) (hA : 0 < A) (hA2 : A ≤ 700000)
    {L R : Nat} {p W0 : Int} {M k : Nat} (hmin : a.minCmdTicks ≤ L) (hL : L ≤ 32768) {env : Env} {junk : NextCommand} {s s' : Stepper} {acc : List Cmd}
    (hi : MoveInv a L R p M s) (hb : Brisk a T A p W0 k s.rg s.hw.q.qend) (hen : s.autoEnable = false ∨ s.onDelayTicks = 0) (hpin : pinIsExternal s.dirPin = false)
    (hd : s.dirChangeDelayTicks = 0 ∨ 11000 ≤ s.dirChangeDelayTicks)
    (hj : junk.rw.performedRampUpSteps < 4294967296) (h : s.fillQueue a env junk = some (s', acc)) :
    ∃ k', shorts 11000 acc + k' ≤ k ∧ Brisk a T A p W0 k' s'.rg s'.hw.q.qend := by
  rcases fillQueue_cases a env junk s s' acc h with ⟨-, h2, h3⟩ | ⟨-, hv, f0, f, x, e1, e2, e3, -, -, e4, hl, hacc, hs'⟩
  · rw [h2, h3]; exact ⟨k, by simp [shorts], hb⟩
  · have h0 : IterState a L R p M s f0 ∧ ∃ k', shorts 11000 f0.accepted + k' ≤ k ∧ Brisk a T A p W0 k' f0.s.rg f0.s.hw.q.qend := by
      have h2 := hi.iter junk hj (.undelayed hen)
      refine ⟨⟨⟨?_, ?_, ?_, by rw [e2]; exact hj⟩, ?_, ?_, ?_⟩, k, by rw [e4]; simp [shorts], by rw [e1]; exact hb⟩
      · rw [e1]; exact h2.cycle.arrives
      · rw [e1]
      · rw [e1]; exact h2.cycle.pos
      · rw [e1]; exact h2.steady
      · rw [e1]; exact h2.same
      · unfold FillPower; rw [e1, e3]; exact h2.power
    have hfin := (Stepper.Fill.loop_induct a env (fun g => IterState a L R p M s g ∧ ∃ k', shorts 11000 g.accepted + k' ≤ k ∧
      Brisk a T A p W0 k' g.s.rg g.s.hw.q.qend) ?_ _ _ _ _ _ h0 hl).2
    · rw [hacc, hs']
      obtain ⟨k', j1, j2⟩ := hfin
      refine ⟨k', j1, ?_⟩
      split
      · obtain ⟨k1, k2⟩ := startQueue_keeps f.s true
        rw [k1, k2]; exact j2
      · exact j2
    · intro i f f' b hc ⟨i1, k1, i2, i3⟩ hbd
      refine ⟨IterState.body hmin hL hi env i i1 hc hbd, ?_⟩
      have hact : f.s.rg.isActive = true := by
        unfold Stepper.Fill.cond at hc
        exact (Bool.and_eq_true_iff.mp hc).2
      obtain ⟨rg, cmd, hg, hcmd, hcase⟩ := Stepper.Fill.body_cases a env i f f' b hbd
      obtain ⟨k2, b1, b2, b3⟩ := i3.accepted hav hT1 hT hA hA2 hact i1.cycle.junk hg
      rcases hcase with ⟨ht, r, hr, hacc, hcase⟩ | ⟨ht, -, hs, hacc, -⟩
      · have hq := Stepper.addQueueEntry_qend a (env.ext i) (env.gaps i) (env.busy i) { f.s with rg := rg } cmd.command (!f.delayedStart) i1.cycle.ign i1.cycle.pos
        have hfr := Stepper.addQueueEntry_frame a (env.ext i) (env.gaps i) (env.busy i) { f.s with rg := rg } cmd.command (!f.delayedStart)
        have hna := (IterState.next hmin hL hi env i i1 hc hg).2 ht
        obtain ⟨X, hX, hsh⟩ := addQueueEntry_shape a (env.ext i) (env.gaps i) (env.busy i) { f.s with rg := rg } cmd.command (!f.delayedStart)
          (show pinIsExternal f.s.dirPin = false by
            unfold Stepper.dirPin at hpin ⊢
            rw [i1.same.pin]; exact hpin) (show f.s.autoEnable = false ∨ f.s.onDelayTicks = 0 by rw [i1.same.auto, i1.same.on]; exact hen)
        dsimp only at hq
        rw [← hr] at hq hfr hna hsh
        have hX0 : shorts 11000 X = 0 := by
          rcases hX with hX | ⟨hX, h0⟩
          · rw [hX]; rfl
          · rw [hX, shorts_one, if_neg]
            change f.s.dirChangeDelayTicks ≠ 0 at h0
            have h8 : f.s.dirChangeDelayTicks = s.dirChangeDelayTicks := i1.same.delay
            change ¬ f.s.dirChangeDelayTicks * 1 < 11000
            omega
        rcases hcase with ⟨hok, hbt, hs, -⟩ | ⟨hok, hbt, hs, -⟩ | ⟨hok, -⟩
        · obtain ⟨q1, q2⟩ := hq.1 hok
          refine ⟨k2, ?_, ?_⟩
          · rw [hacc, shorts_append]
            rcases hsh with h | ⟨-, h⟩
            · rw [h, hX0]; omega
            · rw [h, shorts_append, hX0, shorts_one]
              have := b2 ht
              split <;> omega
          · rw [hs]
            change Brisk a T A p W0 k2 (r.1.s.rg.afterCommandEnqueued cmd) r.1.s.hw.q.qend
            rw [hfr.rg]
            exact b3 _ (by rw [if_neg ht]; exact q1) (by rw [if_neg ht]; exact q2)
        · have hno : r.2 ≠ AQE_OK := fun hx => by rw [hx] at hok; exact absurd hok (by decide)
          obtain ⟨q1, q2⟩ := hq.2 hno
          refine ⟨k1, ?_, ?_⟩
          · rw [hacc, shorts_append, hsh.resolve_right (fun h => hno h.1), hX0]; omega
          · rw [hs, hfr.rg]
            exact i3.refused hT1 hT hA (by omega) hact i1.cycle.junk hg ht q1 q2
        · omega
      · refine ⟨k2, ?_, ?_⟩
        · rw [hacc]; omega
        · rw [hs]
          exact b3 _ (by rw [if_pos ht]) (by rw [if_pos ht])

/-- The begin of a move. -/
theorem configuredMove_brisk {a : ArchId} {L R : Nat} {p : Int} {M : Nat} {s : Stepper} (hh : RampHist a ApiCall.Typed s) (hidle : s.rg.isActive = false)
    (hforce : s.rg.ro.forceImmediateStop = false) {speed : Nat} {accel : Int} (hlim : s.getMaxSpeedInTicks ≤ speed) (hs2 : speed < 4294967295) (ha1 : 0 < accel)
    (hinv : MoveInv a L R p M (configuredMove s speed accel 0 0 p)) :
    Brisk a speed accel.toNat p (shortestWay p s.hw.q.qend.pos) 3 (configuredMove s speed accel 0 0 p).rg s.hw.q.qend := by
  obtain ⟨s1, hs⟩ : ∃ s1, ((((s.setSpeedInTicks speed).1.setAcceleration accel).1.setLinearAcceleration 0).setJumpStart 0) = s1 := ⟨_, rfl⟩
  have hcm : configuredMove s speed accel 0 0 p = (s1.moveTo p).1 := by rw [← hs]; rfl
  obtain ⟨e1, e2, e3, e4, e5, e6, e7, e8⟩ := configured_facts s speed accel 0 0 hlim hs2 ha1 s1 hs
  have hr : InRange s1.rg := by
    have hr := RampHist.inRange hh
    exact ⟨by omega, by omega, by rw [e2]; exact hr.usedSpeed, by rw [e2]; exact hr.usedJump, by rw [e3]; exact hr.brake, by rw [e3]; exact hr.period⟩
  have hidle1 : s1.rg.isActive = false := by unfold RampGen.isActive; rw [e3]; exact hidle
  have hno : ∀ {P : Prop}, s1.rg.isActive = true → P := fun h => by rw [hidle1] at h; cases h
  have hsi : SteadyInv a speed accel.toNat 0 s1.rg :=
    ⟨fun _ => e4, fun _ => e5, e6, e7, fun h => hno h, fun h => hno h, by rw [e2]; exact hh.flags.1, fun h => hno h, fun h => hno h⟩
  have happ := Approach.start hr hsi hidle1 (by rw [e2]; exact hforce) p
  rw [e1, ← hcm] at happ
  refine ⟨happ, hinv.steady.pause, fun hact _ => Or.inl ?_, fun _ => ?_⟩
  · have hok : (s1.rg.moveTo p s.hw.q.qend).2 = MOVE_OK := by
      unfold RampGen.moveTo; dsimp only; rw [if_neg (by rw [e8]; decide)]
    have hrg : (s1.moveTo p).1.rg = (s1.rg.moveTo p s.hw.q.qend).1 := by unfold Stepper.moveTo; rw [e1]
    rw [hcm, hrg] at hact ⊢
    by_cases hne : p = s.hw.q.qend.pos
    · exfalso
      have hin : (s1.rg.moveTo p s.hw.q.qend).1.isActive = false := by
        unfold RampGen.moveTo; dsimp only; rw [if_neg (by rw [e8]; decide)]
        unfold RampGen.startMove
        dsimp only
        rw [hidle1, hne]
        simp only [Bool.false_and, Bool.false_eq_true, if_false, ne_eq, not_true, decide_false]
        exact hidle1
      rw [hin] at hact; cases hact
    · exact (moveTo_prepared a s1.rg p s.hw.q.qend hidle1 (by rw [e2]; exact hforce) hok hne).2.2.1
  · unfold Planner.shortsLeft; split <;> omega

/-- The commands of a move, over all task cycles: at most three are short. -/
theorem task_shorts {a : ArchId} (hav : a.isAvr = true) {T A : Nat} (hT1 : a.minCmdTicks ≤ T) (hT : T < ticksForStoppedMotor) (hA : 0 < A) (hA2 : A ≤ 700000)
    {L R : Nat} {p W0 : Int} {M K : Nat} (hmin : a.minCmdTicks ≤ L) (hL : L ≤ 32768) {s0 : Stepper}
    (hi : MoveInv a L R p M s0) (hb : Brisk a T A p W0 K s0.rg s0.hw.q.qend) (hen : s0.autoEnable = false ∨ s0.onDelayTicks = 0) (hpin : pinIsExternal s0.dirPin = false)
    (hd : s0.dirChangeDelayTicks = 0 ∨ 11000 ≤ s0.dirChangeDelayTicks) {k : Nat} {cs : List Cmd} {s : Stepper} (h : TaskHist a s0 k cs s) :
    shorts 11000 cs ≤ K := by
  have key : ∃ k', shorts 11000 cs + k' ≤ K ∧ Brisk a T A p W0 k' s.rg s.hw.q.qend ∧ MoveInv a L R p M s ∧ s.dirPin = s0.dirPin ∧
      s.dirChangeDelayTicks = s0.dirChangeDelayTicks := by
    have hstep : ∀ {cs : List Cmd} {s s' : Stepper} {env : Stepper.Env} {junk : NextCommand} {acc : List Cmd}, (s.autoEnable = false ∨ s.onDelayTicks = 0) → junk.rw.performedRampUpSteps < 4294967296 →
        s.fillQueue a env junk = some (s', acc) →
        (∃ k', shorts 11000 cs + k' ≤ K ∧ Brisk a T A p W0 k' s.rg s.hw.q.qend ∧ MoveInv a L R p M s ∧ s.dirPin = s0.dirPin ∧ s.dirChangeDelayTicks = s0.dirChangeDelayTicks) →
        ∃ k', shorts 11000 (cs ++ acc) + k' ≤ K ∧ Brisk a T A p W0 k' s'.rg s'.hw.q.qend ∧ MoveInv a L R p M s' ∧ s'.dirPin = s0.dirPin ∧ s'.dirChangeDelayTicks = s0.dirChangeDelayTicks := by
      intro cs s s' env junk acc he hj hf ⟨k', i1, i4, i2, i3, i6⟩
      obtain ⟨k2, j2, j3⟩ := i2.fill_brisk hav hT1 hT hA hA2 hmin hL i4 he (by rw [i3]; exact hpin) (by rw [i6]; exact hd) hj hf
      obtain ⟨s2, acc2, hf2, j1, -⟩ := i2.task hmin hL (.undelayed he) env junk hj
      rw [hf] at hf2
      cases hf2
      have hcfg := fillQueue_sameConfig a env junk s s' acc hf
      have hp : s'.dirPin = s.dirPin := hcfg.pin
      exact ⟨k2, by rw [shorts_append]; omega, j3, j1, hp.trans i3, hcfg.delay.trans i6⟩
    have hen' : ∀ {k cs s}, TaskHist a s0 k cs s → s.autoEnable = false ∨ s.onDelayTicks = 0 := fun h => h.undelayed hen
    induction h with
    | start => exact ⟨K, by simp [shorts], hb, hi, rfl, rfl⟩
    | elapse _ he ih =>
      obtain ⟨k', i1, i4, i2, i3, i6⟩ := ih
      have hp := he.dirPin
      refine ⟨k', i1, by rw [he.ramp, he.queueEnd]; exact i4, i2.elapse he, ?_, he.dirDelay.trans i6⟩
      unfold Stepper.dirPin at i3 ⊢
      rw [hp]; exact i3
    | task env junk acc hx hj _ hf ih => exact hstep (hen' hx) hj hf ih
    | unhindered env junk acc hx hj _ hf _ ih => exact hstep (hen' hx) hj hf ih
  obtain ⟨k', h1, -⟩ := key
  omega

end FAS
