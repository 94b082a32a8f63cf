import Verif.Props.Cycles
import Verif.Props.Clock
import Verif.Spec.Supply

/-!
# C82: the task keeps the queue supplied
-/

namespace FAS
open Spec Stepper

theorem Call.add_full (a : ArchId) (gaps : Nat → Gap) (k : Call) (c : Cmd) (st : Bool) (hr : k.s.hw.q.ready = true)
    (h : 0 < (k.add a gaps c st).2) : (k.add a gaps c st).1.s.hw.q.queueEntries = a.queueLen := by
  have hg : (k.s.hw.gap a (gaps k.n)).q.ready = true := by
    have := (gap_frame a k.s (gaps k.n)).sameConfig.ready
    rw [hr] at this; exact this
  revert h
  unfold Call.add
  dsimp only
  generalize (k.s.hw.gap a (gaps k.n)).q = q at hg
  by_cases hf : q.isQueueFull a = true
  · intro _
    have : q.add a c st = ⟨q, AQE_QUEUE_FULL, false⟩ := by
      unfold Queue.add; rw [hg, hf]; rfl
    rw [this]
    unfold Queue.isQueueFull at hf
    simpa using hf
  · intro h
    exfalso
    revert h
    unfold Queue.add
    rw [if_neg (by rw [hg]; decide), if_neg hf]
    split
    · dsimp only; decide
    · have hok : ((q.prepare a c).1.commit (q.prepare a c).2).2 = true := by
        have : (q.prepare a c).1.ready = true := hg
        unfold Queue.commit
        rw [this]
        split
        · rfl
        · rfl
      dsimp only
      rw [hok]
      intro h
      exact absurd h (by change ¬ (0 : Int) < AQE_OK; decide)

/-- The only reason for a refusal. -/
theorem addQueueEntry_noRoom (a : ArchId) (ext : ExtPin) (gaps : Nat → Gap) (s : Stepper) (c : Cmd) (st : Bool)
    (hr : s.hw.q.ready = true) (hen : s.autoEnable = true → (s.enableOutputs ext).1 = true)
    (h : 0 < (s.addQueueEntry a ext gaps false c st).2) : NoRoom a (s.addQueueEntry a ext gaps false c st).1.s := by
  have hfr := addQueueEntry_frame a ext gaps false s c st
  revert h hfr
  unfold addQueueEntry
  dsimp only
  split
  · intro h _; exact absurd h (by dsimp only; decide)
  rw [if_neg (by simp)]
  split
  · intro h _; exact absurd h (by dsimp only; decide)
  have h1 := (autoEnable_frame a ext gaps ⟨s, 0, [], []⟩ c st).1
  split
  · rename_i k code heq
    intro h hfr
    exfalso
    unfold Call.autoEnable at heq
    dsimp only at heq
    split at heq
    · rename_i h2
      rw [hen h2.1] at heq
      rw [if_neg (by decide)] at heq
      split at heq
      · obtain ⟨-, h3⟩ := Prod.mk.inj heq
        generalize hk : Call.addPauses a gaps c.countUp _ _ = k1 at h3
        have hr1 : k1.s.hw.q.ready = true := by
          rw [← hk]; exact (addPauses_frame a gaps c.countUp _ _).1.sameConfig.ready.trans hr
        have hg : (k1.s.hw.gap a (gaps k1.n)).q.ready = true := by
          have := (gap_frame a k1.s (gaps k1.n)).sameConfig.ready
          rw [hr1] at this; exact this
        split at h3
        · cases h3
          revert h
          unfold Call.addNull
          dsimp only
          unfold Queue.addNull
          rw [hg]
          rw [if_neg (by decide)]
          repeat' split
          all_goals (dsimp only; decide)
        · cases h3
      · cases heq
    · cases heq
  · rename_i k heq
    rw [heq] at h1
    have hrk : k.s.hw.q.ready = true := by rw [h1.sameConfig.ready]; exact hr
    have h2 := (dirChange_frame a gaps k c st).1
    split
    · rename_i k2 code heq2
      intro h hfr
      rw [heq2] at h2
      dsimp only at h ⊢
      unfold Call.dirChange at heq2
      dsimp only at heq2
      split at heq2
      · split at heq2
        · rename_i hx
          split at heq2
          · rename_i hent
            cases heq2
            right
            refine ⟨by
              have := (gap_frame a k.s (gaps k.n)).sameConfig.pin
              change pinIsExternal (k.s.hw.gap a (gaps k.n)).q.dirPin = true
              rw [show (k.s.hw.gap a (gaps k.n)).q.dirPin = k.s.hw.q.dirPin from this]; exact hx, ?_⟩
            change _ ≤ (k.s.hw.gap a (gaps k.n)).q.queueEntries
            omega
          · have hr0 : (k.s.hw.gap a (gaps k.n)).q.ready = true := by
              have := (gap_frame a k.s (gaps k.n)).sameConfig.ready
              rw [hrk] at this; exact this
            split at heq2
            · cases heq2
              left
              exact Call.add_full a gaps _ _ _ hr0 h
            · obtain ⟨h3, h4⟩ := Prod.mk.inj heq2
              split at h4
              · cases h4; subst h3
                left
                refine Call.add_full a gaps _ _ _ ?_ h
                have := (Call.add_spec a gaps { k with s := { k.s with hw := k.s.hw.gap a (gaps k.n) }, n := k.n + 1 } ⟨u16 (usToTicks a 500), 0, c.countUp⟩ st).1.sameConfig.ready
                rw [this]; exact hr0
              · cases h4
        · split at heq2
          · obtain ⟨h3, h4⟩ := Prod.mk.inj heq2
            split at h4
            · cases h4; subst h3
              left
              exact Call.add_full a gaps _ _ _ hrk h
            · cases h4
          · cases heq2
      · cases heq2
    · rename_i k2 heq2
      intro h hfr
      rw [heq2] at h2
      have hr2 : k2.s.hw.q.ready = true := by rw [h2.sameConfig.ready]; exact hrk
      left
      revert h
      unfold Call.final
      dsimp only
      split
      · intro h; exact Call.add_full a gaps _ _ _ hr2 h
      · intro h; exact Call.add_full a gaps _ _ _ hr2 h

/-- A service without command ends the ramp. -/
theorem service_zero {a : ArchId} {g g' : RampGen} {qe : QueueEnd} {junk c : NextCommand} (hr : InRange g) (hsp : speedPeriod g % 65536 ≠ 0)
    (h : g.getNextCommand a qe junk = some (g', c)) (ht : c.command.ticks = 0) : (g'.afterCommandEnqueued c).isActive = false := by
  have hp := prepared a g qe
  rcases service_cases hr h with ⟨-, -, -, h2⟩ | ⟨hg, -, h1⟩
  · unfold RampGen.afterCommandEnqueued RampGen.isActive
    rw [h2]; rfl
  rcases h1 with ⟨h1, h2⟩ | ⟨-, -, -, -, h2⟩ | ⟨remaining, same, ph, P, ho⟩
  · exfalso
    rw [h2] at ht
    change u16 (Planner.pauseTicks _) = 0 at ht
    unfold u16 Planner.pauseTicks at ht
    split at ht <;> omega
  · rw [h2]; rfl
  · exfalso
    rcases ho.facts.period with ⟨h1, -⟩ | ⟨-, -, -, h1, -⟩
    · have := ho.facts.pos
      rw [ht] at h1
      split at h1 <;> omega
    · rw [ht] at h1
      apply hsp
      have hmt : g'.ro.config.parameters.minTravelTicks = speedPeriod g := by
        unfold speedPeriod
        rw [hg]
        rcases hp.cfg with ⟨h2, h3, -⟩ | ⟨h2, h3, -⟩
        · rw [h2, h3]; rfl
        · rw [h2, h3]; rfl
      rw [← hmt]
      unfold u16 at h1
      omega

theorem speedPeriod_service {a : ArchId} {g g' : RampGen} {qe : QueueEnd} {junk c : NextCommand} (hr : InRange g)
    (h : g.getNextCommand a qe junk = some (g', c)) : speedPeriod g' = speedPeriod g := by
  have hp := prepared a g qe
  have key : speedPeriod (g.prepare a qe) = speedPeriod g := by
    unfold speedPeriod
    rw [hp.papply]
    rcases hp.cfg with ⟨h2, h3, -⟩ | ⟨h2, h3, -⟩
    · rw [h2, h3]; rfl
    · rw [h2, h3]; rfl
  rcases service_cases hr h with ⟨-, h1, -⟩ | ⟨hg, -⟩
  · rw [h1]; exact key
  · rw [hg]; exact key

/-- The state of the loop. -/
structure Supply (s : Stepper) (f : Stepper.Fill) : Prop where
  same : SameConfig s f.s
  range : InRange f.s.rg
  period : speedPeriod f.s.rg % 65536 ≠ 0
  brake : f.cmd.rw.performedRampUpSteps < 4294967296

theorem Supply.body {a : ArchId} {env : Env} {i : Nat} {s : Stepper} {f f' : Stepper.Fill} {b : Bool} (h : Supply s f)
    (hb : f.body a env i = some (f', b)) : Supply s f' := by
  obtain ⟨rg, cmd, hgc, hcmd, hcase⟩ := Fill.body_cases a env i f f' b hb
  obtain ⟨q1, q2, q3, q4⟩ := InRange_serve h.range h.brake hgc
  have hsp := speedPeriod_service h.range hgc
  have hmk : InRange f'.s.rg ∧ speedPeriod f'.s.rg = speedPeriod f.s.rg := by
    rcases hcase with ⟨-, r, hrr, -, hcase⟩ | ⟨-, -, hcase, -⟩
    · have hrg : r.1.s.rg = rg := by
        rw [hrr]; exact (addQueueEntry_frame a _ _ _ _ _ _).rg
      rcases hcase with ⟨-, -, h, -⟩ | ⟨-, -, h, -⟩ | ⟨-, -, h, -⟩
      · rw [h]; change InRange (r.1.s.rg.afterCommandEnqueued cmd) ∧ speedPeriod r.1.s.rg = _; rw [hrg]; exact ⟨q3, hsp⟩
      · rw [h, hrg]; exact ⟨q2, hsp⟩
      · rw [h]; change InRange r.1.s.rg.stopRamp ∧ speedPeriod r.1.s.rg = _; rw [hrg]; exact ⟨q4, hsp⟩
    · rw [hcase]; exact ⟨q3, hsp⟩
  exact ⟨h.same.trans (Fill.body_sameConfig a env i f f' b hb), hmk.1, by rw [hmk.2]; exact h.period, by rw [hcmd]; exact q1⟩

theorem Supply.stops {a : ArchId} {env : Env} {i m : Nat} {s : Stepper} {f f' : Stepper.Fill} (h : Supply s f) (hun : Unrefused a env s m)
    (hb : f.body a env i = some (f', false)) : f'.s.rg.isActive = false ∨ NoRoom a f'.s := by
  obtain ⟨rg, cmd, hgc, hcmd, hcase⟩ := Fill.body_cases a env i f f' false hb
  rcases hcase with ⟨-, r, hrr, -, hcase⟩ | ⟨ht, -, hcase, -⟩
  · rcases hcase with ⟨-, h1, -⟩ | ⟨h1, -, h2, -⟩ | ⟨-, h1, -⟩
    · cases h1
    · right
      rw [h2, hrr]
      rw [hrr, hun.dirPin i] at h1
      rw [hun.dirPin i]
      refine addQueueEntry_noRoom a (env.ext i) (env.gaps i) { f.s with rg := rg } cmd.command (!f.delayedStart) ?_ ?_ h1
      · change f.s.hw.q.ready = true
        rw [h.same.ready]; exact hun.ready
      · intro hx
        have h3 := hun.enable i (by rw [← h.same.auto]; exact hx)
        unfold enableOutputs at h3 ⊢
        dsimp only at h3 ⊢
        rw [h.same.low, h.same.high]
        exact h3
    · cases h1
  · left
    rw [hcase]
    exact service_zero h.range h.period hgc ht

theorem Supply.loop {a : ArchId} {env : Env} {m : Nat} {s : Stepper} (hun : Unrefused a env s m) : ∀ (n i : Nat) (f f' : Stepper.Fill) (x : Bool),
    Supply s f → f.s.hw.q.IdxOK a → f.s.hw.q.ignoreCommands = false →
    (if i < m then m - i + a.queueLen + 1 else a.queueLen - f.s.hw.q.queueEntries + 1) ≤ n →
    Stepper.Fill.loop a env n i f = some (f', x) →
    f'.s.rg.isActive = false ∨ NoRoom a f'.s ∨ (s.forwardPlanning ≤ f'.ticksPrepared ∧ 2 ≤ f'.s.hw.q.queueEntries)
  | 0, i, f, f', x, _, _, _, hn, _ => by split at hn <;> omega
  | n + 1, i, f, f', x, h, hi, hg, hn, hl => by
    have hoff : ∀ g : Stepper.Fill, Supply s g → g.cond a ≠ true → g.s.rg.isActive = false ∨ NoRoom a g.s ∨ (s.forwardPlanning ≤ g.ticksPrepared ∧ 2 ≤ g.s.hw.q.queueEntries) := by
      intro g hsg hc
      rw [Ne, Fill.cond_iff] at hc
      rw [hsg.same.fwd] at hc
      by_cases h1 : g.s.rg.isActive = true
      · by_cases h2 : g.s.hw.q.queueEntries = a.queueLen
        · exact Or.inr (Or.inl (Or.inl h2))
        · right; right
          by_cases h3 : g.ticksPrepared < s.forwardPlanning ∨ g.s.hw.q.queueEntries ≤ 1
          · exact absurd ⟨h2, h3, h1⟩ hc
          · omega
      · left; simpa using h1
    unfold Stepper.Fill.loop at hl
    by_cases hc : f.cond a = true
    · rw [if_pos hc] at hl
      cases hb : f.body a env i with
      | none => rw [hb] at hl; cases hl
      | some p =>
        obtain ⟨g, b⟩ := p
        rw [hb] at hl
        have hS := h.body hb
        cases b with
        | false =>
          cases hl
          rcases h.stops hun hb with h1 | h1
          · exact Or.inl h1
          · exact Or.inr (Or.inl h1)
        | true =>
          dsimp only at hl
          obtain ⟨h1, h2, ps, -, h3⟩ := FAS.Fill.body_queue a env i f g true hi hg hb
          rcases h3 with ⟨-, -, -, -, h3⟩ | ⟨h3, -⟩
          · apply Supply.loop hun n (i + 1) g f' x hS h1 h2 ?_ hl
            have hc' := (FAS.Fill.cond_iff a f).mp hc
            have hi2 := hi.2.2
            have hi3 := h1.2.2
            by_cases him : i < m
            · rw [if_pos him] at hn
              split <;> omega
            · rw [if_neg him] at hn
              rw [if_neg (by omega)]
              have := h3 (hun.settles i (by omega))
              omega
          · have hina : g.s.rg.isActive = false := by
              rcases h3 with h3 | h3
              · cases h3
              · exact h3
            have hcf : g.cond a = false := by
              cases hx : g.cond a
              · rfl
              · have := ((FAS.Fill.cond_iff a g).mp hx).2.2
                rw [hina] at this; cases this
            rw [FAS.Fill.loop_off a env g hcf] at hl
            cases hl
            exact Or.inl hina
    · rw [if_neg hc] at hl
      cases hl
      exact hoff f h hc

theorem Fill.loop_time (a : ArchId) (env : Env) (B n i : Nat) (f f' : Stepper.Fill) (x : Bool) (hi : f.s.hw.q.IdxOK a)
    (hg : f.s.hw.q.ignoreCommands = false) (ht : f.ticksPrepared ≤ B + durationSum f.accepted) (h : Stepper.Fill.loop a env n i f = some (f', x)) :
    f'.ticksPrepared ≤ B + durationSum f'.accepted := by
  refine (Stepper.Fill.loop_induct a env
    (fun g => g.s.hw.q.IdxOK a ∧ g.s.hw.q.ignoreCommands = false ∧ g.ticksPrepared ≤ B + durationSum g.accepted)
    ?_ n i f f' x ⟨hi, hg, ht⟩ h).2.2
  intro i g g' b _ ⟨h1, h2, h3⟩ hb
  obtain ⟨k1, k2, -⟩ := FAS.Fill.body_queue a env i g g' b h1 h2 hb
  refine ⟨k1, k2, ?_⟩
  obtain ⟨rg, cmd, -, -, hcase⟩ := Stepper.Fill.body_cases a env i g g' b hb
  rcases hcase with ⟨-, r, hr, hacc, hcase⟩ | ⟨-, -, -, hacc, -, -, h5⟩
  · rw [hacc, cmdDurationSum_append]
    rcases hcase with ⟨h4, -, -, -, -, h5⟩ | ⟨-, -, -, -, -, h5⟩ | ⟨-, -, -, -, -, h5⟩
    · obtain ⟨ps, -, hp⟩ := addQueueEntry_accepted a (env.ext i) (env.gaps i) (env.busy i) { g.s with rg := rg } cmd.command (!g.delayedStart) h2
      rw [← hr] at hp
      rcases hp with ⟨-, hp⟩ | ⟨hp, -⟩
      · rw [hp, cmdDurationSum_append, h5]
        have h6 : (if cmd.command.steps ≤ 1 then cmd.command.ticks else u32 (cmd.command.ticks * cmd.command.steps)) ≤ cmd.command.duration := by
          unfold Cmd.duration
          split
          · rename_i h5
            rw [Nat.max_eq_left h5]; omega
          · rename_i h5
            rw [Nat.max_eq_right (by omega)]
            exact Nat.mod_le _ _
        refine Nat.le_trans (Nat.mod_le _ _) ?_
        simp only [durationSum]
        omega
      · exact absurd h4 hp
    · omega
    · omega
  · rw [hacc]; omega

/-- **C82.** A task cycle supplies the queue: if nothing but a full queue hinders the task, then at the end of the cycle the ramp is finished (or aborted by an error), or the queue has no more
room, or at least two commands are queued, and the commands queued behind the one being executed at the begin of the cycle last at least for the forward planning time.
Missing: speeds with a period of a multiple of 65536 ticks (`C82_speed_refuted`). -/
theorem C82_supplied_partial (a : ArchId) (s s' : Stepper) (env : Env) (junk : NextCommand) (acc : List Cmd) (q : QSpec) (m : Nat)
    (hh : RampHist a ApiCall.Typed s) (hs : Sim a s.hw q) (hj : junk.rw.performedRampUpSteps < 4294967296)
    (hsp : speedPeriod s.rg % 65536 ≠ 0) (hv : s.rg.parameters.checkValidConfig = MOVE_OK) (hun : Unrefused a env s m)
    (h : s.fillQueue a env junk = some (s', acc)) :
    s'.isRampGeneratorActive = false ∨ NoRoom a s' ∨
    (2 ≤ s'.hw.q.queueEntries ∧ s.forwardPlanning ≤ durationSum q.pend.tail + durationSum acc) := by
  rcases fillQueue_cases a env junk s s' acc h with ⟨h1 | h1, h2, -⟩ | ⟨-, -, f0, f, x, e1, e2, -, -, e3, e4, hl, hacc, hs'⟩
  · left; rw [h2]; exact h1
  · exact absurd hv h1
  have ht : f0.ticksPrepared = durationSum q.pend.tail := by
    rw [e3, e1, ← hs.ticksInQueue]; exact ticksInQueue_ignore a s.hw.q false
  have hidx : f0.s.hw.q.IdxOK a := by rw [e1]; exact hs.idx
  have hig : f0.s.hw.q.ignoreCommands = false := by rw [e1]
  have hS : Supply s f0 :=
    ⟨by rw [e1]; exact ⟨rfl, rfl, rfl, rfl, rfl, rfl, rfl, rfl, rfl, rfl, rfl, rfl⟩,
      by have h1 : InRange s.rg := RampHist.inRange hh
         rw [e1]; exact h1, by rw [e1]; exact hsp, by rw [e2]; exact hj⟩
  have hend := Supply.loop hun env.iterations 0 f0 f x hS hidx hig (by have := hun.rounds; split <;> omega) hl
  have htime := Fill.loop_time a env (durationSum q.pend.tail) env.iterations 0 f0 f x hidx hig (by rw [ht]; omega) hl
  rw [← hacc] at htime
  have hfin : s'.rg = f.s.rg ∧ s'.hw.q.queueEntries = f.s.hw.q.queueEntries ∧ s'.hw.q.dirPin = f.s.hw.q.dirPin := by
    rw [hs']
    split
    · unfold startQueue
      dsimp only
      rw [Queue.addNull_q]
      split <;> exact ⟨rfl, rfl, rfl⟩
    · exact ⟨rfl, rfl, rfl⟩
  obtain ⟨g1, g2, g3⟩ := hfin
  unfold isRampGeneratorActive NoRoom dirPin
  rw [g1, g2, g3]
  rcases hend with h1 | h1 | ⟨h1, h2⟩
  · exact Or.inl h1
  · exact Or.inr (Or.inl h1)
  · exact Or.inr (Or.inr ⟨h2, by omega⟩)

theorem AvrHist.queued_phases : ∀ (acc : List Cmd) (t : AvrHist) (t0 : Nat) (cs : List Cmd) (ps : List (Nat × List Cmd)),
    t.phases = (t0, cs) :: ps → (t.queued acc).phases = (t0, cs ++ acc) :: ps
  | [], t, t0, cs, ps, h => by unfold AvrHist.queued; simpa using h
  | c :: acc, t, t0, cs, ps, h => by
    have h1 : (t.accept true c).phases = (t0, cs ++ [c]) :: ps := by
      unfold AvrHist.accept; rw [h]; rfl
    have h2 := AvrHist.queued_phases acc (t.accept true c) t0 (cs ++ [c]) ps h1
    have h3 : (t.queued (c :: acc)) = (t.accept true c).queued acc := rfl
    rw [h3, h2]; simp

/-- **C82 (in time).** AVR, the motor is running and no interrupt is overdue at the begin of a task cycle at time `now`. The commands of this cycle then give the motor work up to `now` plus
the forward planning time, unless the ramp is finished or the queue full. So a later cycle is punctual in the sense of C81 with all its commands queued up to this time less the period of the last command, which is at most 65535 ticks: cycles
of at most the forward planning time less 65535 ticks keep the motor supplied. -/
theorem C82_in_time_partial (a : ArchId) (hav : a.isAvr = true) (pin : Nat) (hpin : pin = pinUndefined ∨ pin < 128) (hi : Bool)
    (evs : List (Nat × Avr.Ev)) (hplain : ∀ ev ∈ evs, ev.2.Plain) (hclk : Avr.Clocked a (Avr.fresh a pin hi) 0 0 evs)
    (hpun : Avr.Punctual a (Avr.fresh a pin hi) ⟨[], []⟩ evs)
    (s s' : Stepper) (env : Env) (junk : NextCommand) (acc : List Cmd) (m now : Nat) :
    let r := Avr.track a (Avr.fresh a pin hi) ⟨[], []⟩ (evs.map Prod.snd)
    r.1.q.running = true → now ≤ r.1.ocr → s.hw = ⟨r.1.q, 0⟩ →
    RampHist a ApiCall.Typed s → junk.rw.performedRampUpSteps < 4294967296 →
    speedPeriod s.rg % 65536 ≠ 0 → s.rg.parameters.checkValidConfig = MOVE_OK → Unrefused a env s m →
    s.fillQueue a env junk = some (s', acc) →
    s'.isRampGeneratorActive = false ∨ NoRoom a s' ∨
    (now + s.forwardPlanning ≤ (r.2.queued acc).ends ∧
      ∀ time, time + (r.2.queued acc).lastTicks < now + s.forwardPlanning → time < (r.2.queued acc).deadline) := by
  intro r hrun hnow hhw hh hj hsp hv hun hf
  obtain ⟨-, -, qs, tc', h, hT, -⟩ := clk_fresh a hav pin hpin hi evs hplain 0 hclk hpun
  have hsim : Sim a s.hw qs := by rw [hhw]; exact h.sim
  rcases C82_supplied_partial a s s' env junk acc qs m hh hsim hj hsp hv hun hf with h1 | h1 | ⟨-, h1⟩
  · exact Or.inl h1
  · exact Or.inr (Or.inl h1)
  · right; right
    have h2 := (C81_ticks_in_queue a hav pin hpin hi evs hplain hclk hpun hrun).2 now hnow
    rw [show r.1.q.ticksInQueue a = durationSum qs.pend.tail from h.sim.ticksInQueue] at h2
    obtain ⟨t0, cs, ps, hph, -⟩ := hT.dur hrun
    have hq := AvrHist.queued_phases acc r.2 t0 cs ps hph
    have he : r.2.ends = t0 + durationSum cs := by
      have : r.2.phases = (t0, cs) :: ps := hph
      unfold AvrHist.ends; rw [this]
    have he2 : (r.2.queued acc).ends = t0 + durationSum (cs ++ acc) := by unfold AvrHist.ends; rw [hq]
    have hd2 : (r.2.queued acc).deadline = t0 + durationSum (cs ++ acc) - lastPeriod (cs ++ acc) := by unfold AvrHist.deadline; rw [hq]
    have hl2 : (r.2.queued acc).lastTicks = lastPeriod (cs ++ acc) := by unfold AvrHist.lastTicks; rw [hq]
    have h2 : now + durationSum qs.pend.tail ≤ r.2.ends := h2
    rw [he2, hd2, hl2, cmdDurationSum_append]
    refine ⟨by omega, fun time ht => by omega⟩

/-- The stepper of `speedChange` with its queue drained. -/
def slowChange : Option Stepper := do
  let d ← speedChange .avr328 1105 60000 196608 11
  let s := ((ratedStepper .avr328 60000 1105).moveTo 100000).1
  let s := (({ s with rg := d.g } : Stepper).setForwardPlanningTimeInMs .avr328 20)
  some { s with hw := { s.hw with q := { s.hw.q with qend := d.qe } } }

/-- C82 does not hold for set speeds with a period of a multiple of 65536 ticks: after a speed change to 196608 ticks the planner delivers a step with 0 ticks, which the task takes for the end of the ramp. The cycle ends
with an empty queue, though the ramp is still active, and the motor is to go on. -/
theorem C82_speed_refuted : ∃ s, slowChange = some s ∧ speedPeriod s.rg = 196608 ∧ s.forwardPlanning = 320000 ∧
    ∃ r, s.fillQueue .avr328 calmEnv junk0 = some r ∧ r.1.isRampGeneratorActive = true ∧ r.1.hw.q.queueEntries = 0 ∧ r.2 = [] := by
  apply exists_of_any
  decide +kernel

/-- The hypotheses of `C82_supplied_partial` are met, and the third alternative occurs: avr328, one cycle after `moveTo(100)`. -/
example : ∃ s, RampHist .avr328 ApiCall.Typed s ∧ Sim .avr328 s.hw QSpec.init ∧ speedPeriod s.rg % 65536 ≠ 0 ∧
    s.rg.parameters.checkValidConfig = MOVE_OK ∧ Unrefused .avr328 calmEnv s 0 ∧
    ∃ r, s.fillQueue .avr328 calmEnv junk0 = some r ∧ r.1.isRampGeneratorActive = true ∧ r.1.hw.q.queueEntries < 15 ∧ 2 ≤ r.2.length ∧
      s.forwardPlanning = 320000 ∧ 320000 ≤ durationSum r.2 := by
  refine ⟨(ApiCall.exec .avr328 (ApiCall.exec .avr328 (ApiCall.exec .avr328 ((Stepper.init .avr328 1).setAbsoluteSpeedLimit 640)
    (.config (.speed 60000))) (.config (.acceleration 20))) (.moveTo 100)), ?_, ?_, ?_, ?_, ?_, ?_⟩
  · exact .call _ (.call _ (.call _ (.start _ rfl) (by change 60000 < 4294967296; decide)) trivial) trivial
  · exact ⟨(Sim.init .avr328).idx, rfl, rfl, rfl, rfl, rfl, rfl⟩
  · decide +kernel
  · decide +kernel
  · refine ⟨by decide +kernel, fun _ => rfl, fun i => ?_, fun _ _ _ => rfl, by decide +kernel⟩
    intro h; exact absurd h (by decide +kernel)
  · apply exists_of_any; decide +kernel

/-- The stepper of the next example: `moveTo(100)` with the queue of a driver which is executing a command. -/
def runningStepper : Stepper :=
  let s := ApiCall.exec .avr328 (ApiCall.exec .avr328 (ApiCall.exec .avr328 ((Stepper.init .avr328 1).setAbsoluteSpeedLimit 640)
    (.config (.speed 60000))) (.config (.acceleration 20))) (.moveTo 100)
  { s with hw := ⟨(Avr.track .avr328 (Avr.fresh .avr328 5 true) ⟨[], []⟩ ((clockedExample.take 7).map Prod.snd)).1.q, 0⟩ }

/-- The hypotheses of `C82_in_time_partial` are met at time 960, and the third alternative occurs. -/
example : let evs := clockedExample.take 7
    let r := Avr.track .avr328 (Avr.fresh .avr328 5 true) ⟨[], []⟩ (evs.map Prod.snd)
    (∀ ev ∈ evs, ev.2.Plain) ∧ Avr.Clocked .avr328 (Avr.fresh .avr328 5 true) 0 0 evs ∧ Avr.Punctual .avr328 (Avr.fresh .avr328 5 true) ⟨[], []⟩ evs ∧
    r.1.q.running = true ∧ 960 ≤ r.1.ocr ∧ runningStepper.hw = ⟨r.1.q, 0⟩ ∧ RampHist .avr328 ApiCall.Typed runningStepper ∧
    speedPeriod runningStepper.rg % 65536 ≠ 0 ∧ runningStepper.rg.parameters.checkValidConfig = MOVE_OK ∧ Unrefused .avr328 calmEnv runningStepper 0 ∧
    ∃ x, runningStepper.fillQueue .avr328 calmEnv junk0 = some x ∧ x.1.isRampGeneratorActive = true ∧ x.1.hw.q.queueEntries < 15 ∧
      320960 ≤ (r.2.queued x.2).ends := by
  refine ⟨by decide +kernel, by decide +kernel, by decide +kernel, by decide +kernel, by decide +kernel, rfl, ?_, by decide +kernel, by decide +kernel, ?_, ?_⟩
  · refine .other (s := ApiCall.exec .avr328 (ApiCall.exec .avr328 (ApiCall.exec .avr328 ((Stepper.init .avr328 1).setAbsoluteSpeedLimit 640)
      (.config (.speed 60000))) (.config (.acceleration 20))) (.moveTo 100)) ?_ rfl
    exact .call _ (.call _ (.call _ (.start _ rfl) (by change 60000 < 4294967296; decide)) trivial) trivial
  · refine ⟨by decide +kernel, fun _ => rfl, fun i => ?_, fun _ _ _ => rfl, by decide +kernel⟩
    intro h; exact absurd h (by decide +kernel)
  · apply exists_of_any; decide +kernel

end FAS
