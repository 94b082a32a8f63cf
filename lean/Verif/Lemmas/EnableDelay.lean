import Verif.Props.Single
import Verif.Spec.Cycles

/-!
# `addQueueEntry` with a delay after enabling the motor
-/

namespace FAS

open Spec
open Stepper

/-- The counter for auto disable after `addQueueEntry`. -/
theorem addQueueEntry_counter (a : ArchId) (ext : ExtPin) (gaps : Nat → Gap) (busy : Bool) (s : Stepper) (c : Cmd) (st : Bool) :
    (s.addQueueEntry a ext gaps busy c st).1.s.counter = s.counter ∨
    (s.addQueueEntry a ext gaps busy c st).1.s.counter = s.offDelayCount := by
  unfold addQueueEntry
  dsimp only
  split
  · exact Or.inl rfl
  split
  · exact Or.inl rfl
  split
  · exact Or.inl rfl
  have h1 := autoEnable_frame a ext gaps ⟨s, 0, [], []⟩ c st
  split
  · rename_i k code heq; rw [heq] at h1; exact Or.inl h1.2
  · rename_i k heq
    rw [heq] at h1
    have h2 := dirChange_frame a gaps k c st
    split
    · rename_i k2 code heq2; rw [heq2] at h2; exact Or.inl (h2.2.2.trans h1.2)
    · rename_i k2 heq2
      rw [heq2] at h2
      have h3 := Call.add_spec a gaps k2 c st
      unfold Call.final
      dsimp only
      split
      · right
        change (k2.add a gaps c st).1.s.offDelayCount = _
        rw [h3.1.off, h2.1.off, h1.1.off]
      · left
        rw [h3.2.2.1, h2.2.2, h1.2]

/-- A command with the pauses of the enable delay in an idle queue, which is not started yet: it is accepted. -/
theorem addQueueEntry_idle_delay (a : ArchId) (ext : ExtPin) (gaps : Nat → Gap) (s : Stepper) (c : Cmd)
    (hi : s.hw.q.IdxOK a) (hr : s.hw.q.ready = true) (hig : s.hw.q.ignoreCommands = false) (h0 : s.hw.q.queueEntries = 0)
    (hauto : s.autoEnable = true) (hcnt : s.counter = 0) (hen : (s.enableOutputs ext).1 = true)
    (hon : a.minCmdTicks ≤ s.onDelayTicks ∧ s.onDelayTicks ≤ a.maxOnDelayTicks) (hdir : s.dirChangeDelayTicks ≤ 65535)
    (hmax : s.getMaxSpeedInTicks ≤ c.ticks) (hpin : s.dirPin = pinUndefined → c.countUp = true)
    (hc : a.minCmdTicks ≤ Queue.commandRateTicks c) : (s.addQueueEntry a ext gaps false c false).2 = AQE_OK := by
  have hmp := a.minCmd_pos
  have hql := a.queueLen_cases
  have hpos : 0 < Stepper.enableDelay s c := by unfold Stepper.enableDelay; split <;> omega
  have hmin : a.minCmdTicks ≤ Stepper.enableDelay s c := by unfold Stepper.enableDelay; split <;> omega
  have hlen := enableDelay_pauses a s c hon.2 (by omega)
  have hsp := onDelayPauses_spec (Stepper.enableDelay s c) (Stepper.enableDelay s c) (Nat.le_refl _)
  have hmins : ∀ t ∈ onDelayPauses (Stepper.enableDelay s c) (Stepper.enableDelay s c), a.minCmdTicks ≤ t := by
    intro t ht
    have := (hsp.2.1 t ht).2
    omega
  obtain ⟨K, hK⟩ : ∃ K, K = Call.addPauses a gaps c.countUp ⟨s, 0, [], [] ++ (s.enableOutputs ext).2⟩
      (onDelayPauses (Stepper.enableDelay s c) (Stepper.enableDelay s c)) := ⟨_, rfl⟩
  have hall := addPauses_all a gaps c.countUp
    (onDelayPauses (Stepper.enableDelay s c) (Stepper.enableDelay s c))
    ⟨s, 0, [], [] ++ (s.enableOutputs ext).2⟩ hi hr hig (by change s.hw.q.queueEntries + _ ≤ _; omega) hmins
  have hfr := addPauses_frame a gaps c.countUp
    (onDelayPauses (Stepper.enableDelay s c) (Stepper.enableDelay s c))
    ⟨s, 0, [], [] ++ (s.enableOutputs ext).2⟩
  rw [← hK] at hall hfr
  have hcu := hall.2.2.2 (hsp.2.2.2.2 hpos)
  have hKr : K.s.hw.q.ready = true := hfr.1.ready.trans hr
  have hK2 := Call.addNull_spec a gaps K false
  have hnull : (K.addNull a gaps false).2 = AQE_OK := by
    have hgf := K.s.hw.gap_fields a (gaps K.n)
    change ((K.s.hw.gap a (gaps K.n)).q.addNull false).code = _
    unfold Queue.addNull
    rw [hgf.2.2.2.2.1, hKr]
    rfl
  have hae : (Call.mk s 0 [] []).autoEnable a ext gaps c false = ((K.addNull a gaps false).1, none) := by
    unfold Call.autoEnable
    rw [if_pos ⟨hauto, hcnt⟩]
    dsimp only
    rw [hen, if_neg (by simp), if_pos (by omega)]
    have hpair : ((K.addNull a gaps false).1, if (K.addNull a gaps false).2 ≠ AQE_OK then some (K.addNull a gaps false).2 else none) =
        ((K.addNull a gaps false).1, (none : Option Int)) := by rw [if_neg (fun h => h hnull)]
    rw [← hpair, hK]
    rfl
  have hmax' : s.hw.q.maxSpeedInTicks ≤ c.ticks := hmax
  unfold addQueueEntry
  dsimp only
  rw [if_neg (by omega), if_neg (by simp), if_neg (by
    intro h; have := hpin h.1; rw [this] at h; exact absurd h.2 (by decide)), hae]
  dsimp only
  have hcu2 : (K.addNull a gaps false).1.s.hw.q.qend.countUp = c.countUp := by rw [hK2.2.2.2.2.1]; exact hcu
  have hdc : (K.addNull a gaps false).1.dirChange a gaps c false = ((K.addNull a gaps false).1, none) := by
    unfold Call.dirChange
    rw [if_neg (by simp [hcu2])]
  rw [hdc]
  dsimp only
  have hidx2 := hK2.2.2.2.2.2 hall.2.1
  have hfin : ((K.addNull a gaps false).1.add a gaps c false).2 = AQE_OK := by
    apply Call.add_ok a gaps _ c false hidx2.1 (hK2.1.ready.trans hKr)
    · have h1 : K.s.hw.q.queueEntries ≤ s.hw.q.queueEntries + _ := hall.2.2.1
      omega
    · exact hc
  unfold Call.final
  dsimp only
  split <;> exact hfin

theorem addNull_false (a : ArchId) (gaps : Nat → Gap) (k : Call) : 0 ≤ (k.addNull a gaps false).2 := by
  change 0 ≤ ((k.s.hw.gap a (gaps k.n)).q.addNull false).code
  unfold Queue.addNull
  split
  · dsimp only; decide
  · rw [if_neg (by simp)]; dsimp only; decide

/-- The first command of a task cycle which is not hindered is accepted. -/
theorem addQueueEntry_unhindered {a : ArchId} {env : Env} {junk : NextCommand} {s : Stepper} {rg : RampGen} {c : Cmd} (hpow : Powered s)
    (hon : EnableDelayed s → a.minCmdTicks ≤ s.onDelayTicks ∧ s.onDelayTicks ≤ a.maxOnDelayTicks ∧ s.dirChangeDelayTicks ≤ 65535)
    (hu : Unhindered env s) (hi : s.hw.q.IdxOK a) (hr : s.hw.q.ready = true) (hmax : s.hw.q.maxSpeedInTicks ≤ c.ticks)
    (hpin : s.dirPin = pinUndefined → c.countUp = true) (hdelay : s.dirChangeDelayTicks = 0 ∨ a.minCmdTicks ≤ s.dirChangeDelayTicks)
    (hc : a.minCmdTicks ≤ Queue.commandRateTicks c) :
    (({ (fillStart a junk s).s with rg := rg } : Stepper).addQueueEntry a (env.ext 0) (env.gaps 0) false c s.hw.q.running).2 = AQE_OK := by
  by_cases hd : s.autoEnable = true ∧ s.counter = 0 ∧ s.onDelayTicks ≠ 0
  · obtain ⟨h1, h2, h3⟩ := hd
    obtain ⟨h4, h5, h6⟩ := hon ⟨h1, h3⟩
    have hrun : s.hw.q.running = false := by
      cases h : s.hw.q.running
      · rfl
      · exact absurd h2 ((hpow ⟨h1, h3⟩).2 h)
    rw [hrun]
    exact addQueueEntry_idle_delay a (env.ext 0) (env.gaps 0) _ c hi hr rfl hu.empty h1 h2 (hu.enable h1 h2) ⟨h4, h5⟩ h6 hmax hpin hc
  · refine addQueueEntry_idle a (env.ext 0) (env.gaps 0) _ c _ hi hr hu.empty ?_ hmax hpin hdelay hc
    intro h1 h2
    exact ⟨hu.enable h1 h2, Decidable.not_not.mp fun h3 => hd ⟨h1, h2, h3⟩⟩

/-- What `addQueueEntry` in the loop of a task cycle needs to return no error. -/
def FillPower (f : Stepper.Fill) : Prop :=
  EnableDelayed f.s → f.s.offDelayCount ≠ 0 ∧ (f.delayedStart = true ∨ f.s.counter ≠ 0)

theorem Spec.Powered.undelayed {s : Stepper} (h : s.autoEnable = false ∨ s.onDelayTicks = 0) : Powered s := by
  intro hd
  rcases h with h | h
  · have := hd.1; rw [h] at this; cases this
  · exact absurd h hd.2

theorem Spec.TaskHist.undelayed {a : ArchId} {s0 s : Stepper} {k : Nat} {cmds : List Cmd} (h : TaskHist a s0 k cmds s)
    (h0 : s0.autoEnable = false ∨ s0.onDelayTicks = 0) : s.autoEnable = false ∨ s.onDelayTicks = 0 := by
  induction h with
  | start => exact h0
  | elapse _ he ih => rw [he.autoEnable, he.enableDelay]; exact ih
  | task env junk acc _ _ _ hf ih =>
    have hc := Stepper.fillQueue_sameConfig a env junk _ _ acc hf
    rw [hc.auto, hc.on]; exact ih
  | unhindered env junk acc _ _ _ hf _ ih =>
    have hc := Stepper.fillQueue_sameConfig a env junk _ _ acc hf
    rw [hc.auto, hc.on]; exact ih

theorem Spec.Powered.start {a : ArchId} {s : Stepper} (h : Powered s) (junk : NextCommand) : FillPower (fillStart a junk s) := by
  intro hd
  obtain ⟨h1, h2⟩ := h hd
  refine ⟨h1, ?_⟩
  change (!s.hw.q.running) = true ∨ s.counter ≠ 0
  cases hr : s.hw.q.running
  · exact Or.inl rfl
  · exact Or.inr (h2 hr)

theorem FillPower.enable {f : Stepper.Fill} (h : FillPower f) (rg : RampGen) :
    ({ f.s with rg := rg } : Stepper).autoEnable = false ∨ ({ f.s with rg := rg } : Stepper).onDelayTicks = 0 ∨
    ({ f.s with rg := rg } : Stepper).counter ≠ 0 ∨ (!f.delayedStart) = false := by
  change f.s.autoEnable = false ∨ f.s.onDelayTicks = 0 ∨ f.s.counter ≠ 0 ∨ _
  by_cases h1 : f.s.autoEnable = true
  · by_cases h2 : f.s.onDelayTicks = 0
    · exact Or.inr (Or.inl h2)
    · rcases (h ⟨h1, h2⟩).2 with h3 | h3
      · right; right; right; rw [h3]; rfl
      · exact Or.inr (Or.inr (Or.inl h3))
  · left; simpa using h1

theorem FillPower.body {a : ArchId} {env : Env} {i : Nat} {f f' : Stepper.Fill} {b : Bool} (h : FillPower f) (hb : f.body a env i = some (f', b))
    (hna : ∀ rg cmd, f.s.rg.getNextCommand a f.s.hw.q.qend f.cmd = some (rg, cmd) → cmd.command.ticks ≠ 0 →
      0 ≤ (({ f.s with rg := rg } : Stepper).addQueueEntry a (env.ext i) (env.gaps i) (env.busy i) cmd.command (!f.delayedStart)).2) :
    FillPower f' := by
  intro hd
  have hcfg := Stepper.Fill.body_sameConfig a env i _ _ _ hb
  obtain ⟨h1, h2⟩ := h (by unfold EnableDelayed at hd ⊢; rw [hcfg.auto, hcfg.on] at hd; exact hd)
  refine ⟨by rw [hcfg.off]; exact h1, ?_⟩
  obtain ⟨rg, cmd, hg, -, hcase⟩ := Stepper.Fill.body_cases a env i f f' b hb
  rcases hcase with ⟨ht, r, hr, -, hcase⟩ | ⟨-, -, hs, -, hds, -⟩
  · have hc := addQueueEntry_counter a (env.ext i) (env.gaps i) (env.busy i) { f.s with rg := rg } cmd.command (!f.delayedStart)
    have hna' := hna rg cmd hg ht
    rw [← hr] at hc hna'
    have hc2 : f.s.counter ≠ 0 → r.1.s.counter ≠ 0 := by
      intro h3
      rcases hc with h4 | h4
      · rw [h4]; exact h3
      · rw [h4]; exact h1
    rcases hcase with ⟨-, -, hs, hds, -⟩ | ⟨-, -, hs, hds, -⟩ | ⟨hneg, -⟩
    · rw [hs, hds]; exact h2.imp id hc2
    · rw [hs, hds]; exact h2.imp id hc2
    · omega
  · rw [hs, hds]; exact h2

end FAS
