import Verif.Lemmas.RealRun

/-! The number of commands of a move. -/

namespace FAS
open Spec Stepper

/-- Without delays `addQueueEntry()` queues the command or nothing. -/
theorem addQueueEntry_one (a : ArchId) (ext : ExtPin) (gaps : Nat → Gap) (busy : Bool) (s : Stepper) (c : Cmd) (st : Bool)
    (hpin : pinIsExternal s.dirPin = false) (hen : s.autoEnable = false ∨ s.onDelayTicks = 0) (hd : s.dirChangeDelayTicks = 0) :
    (s.addQueueEntry a ext gaps busy c st).1.accepted = [] ∨
    ((s.addQueueEntry a ext gaps busy c st).2 = AQE_OK ∧ (s.addQueueEntry a ext gaps busy c st).1.accepted = [c]) := by
  have hae : (Call.autoEnable a ext gaps ⟨s, 0, [], []⟩ c st).1.accepted = [] ∧ (Call.autoEnable a ext gaps ⟨s, 0, [], []⟩ c st).1.s = s := by
    unfold Call.autoEnable
    dsimp only
    split
    · rename_i h1
      split
      · exact ⟨rfl, rfl⟩
      · rw [if_neg]
        · exact ⟨rfl, rfl⟩
        · rcases hen with h | h
          · rw [h] at h1; exact absurd h1.1 (by decide)
          · omega
    · exact ⟨rfl, rfl⟩
  unfold addQueueEntry
  dsimp only
  split
  · exact Or.inl rfl
  split
  · exact Or.inl rfl
  split
  · exact Or.inl rfl
  split
  · rename_i k code hk
    rw [hk] at hae
    exact Or.inl hae.1
  · rename_i k hk
    rw [hk] at hae
    obtain ⟨h1, h2⟩ := hae
    dsimp only at h1 h2
    have hdc : (k.dirChange a gaps c st).1.accepted = [] := by
      unfold Call.dirChange
      rw [h2, hpin]
      split
      · rw [if_neg (by decide), if_neg (by rw [hd]; simp)]
        exact h1
      · exact h1
    split
    · rename_i k' code hk'
      rw [hk'] at hdc
      exact Or.inl hdc
    · rename_i k' hk'
      rw [hk'] at hdc
      have hacc : (k'.final a gaps c st).1.accepted = (k'.add a gaps c st).1.accepted ∧ (k'.final a gaps c st).2 = (k'.add a gaps c st).2 := by
        unfold Call.final; dsimp only; split <;> exact ⟨rfl, rfl⟩
      rw [hacc.1, hacc.2]
      unfold Call.add
      dsimp only at hdc ⊢
      split
      · rename_i h3
        right
        refine ⟨h3.1, ?_⟩
        rw [hdc]; rfl
      · left; exact hdc

/-- No delays are configured. -/
structure NoDelay (s : Stepper) : Prop where
  pin : pinIsExternal s.dirPin = false
  enable : s.autoEnable = false ∨ s.onDelayTicks = 0
  delay : s.dirChangeDelayTicks = 0

theorem NoDelay.same {s s' : Stepper} (h : NoDelay s) (hc : SameConfig s s') : NoDelay s' := by
  have hp : s'.dirPin = s.dirPin := hc.pin
  exact ⟨by rw [hp]; exact h.pin, by rw [hc.auto, hc.on]; exact h.enable, by rw [hc.delay]; exact h.delay⟩

/-- Each command of an iteration brings the ramp closer to its end. -/
theorem CycleState.body_count {a : ArchId} {R : Nat} {p : Int} {M : Nat} {f : Stepper.Fill} (env : Stepper.Env) (i : Nat)
    (h : CycleState a R p M f) (hc : f.cond a = true) (hd : NoDelay f.s)
    (hna : ∀ rg cmd, f.s.rg.getNextCommand a f.s.hw.q.qend f.cmd = some (rg, cmd) → cmd.command.ticks ≠ 0 →
      0 ≤ (({ f.s with rg := rg } : Stepper).addQueueEntry a (env.ext i) (env.gaps i) (env.busy i) cmd.command (!f.delayedStart)).2) :
    ∃ f' b M', f.body a env i = some (f', b) ∧ CycleState a R p M' f' ∧ f'.accepted.length + M' ≤ f.accepted.length + M := by
  have hM : 1 ≤ M := by
    have hact : f.s.rg.isActive = true := by
      unfold Stepper.Fill.cond at hc
      exact (Bool.and_eq_true_iff.mp hc).2
    rcases h.arrives with ⟨h1, -⟩ | h1
    · rw [hact] at h1; cases h1
    · have := h1.below; omega
  obtain ⟨f', b, hb, h1, h2, -⟩ := h.body env i hc hna
  obtain ⟨rg, cmd, -, -, hcase⟩ := Stepper.Fill.body_cases a env i f f' b hb
  rcases hcase with ⟨-, r, hr, hacc, hcase⟩ | ⟨-, -, -, hacc, -⟩
  · rcases addQueueEntry_one a (env.ext i) (env.gaps i) (env.busy i) { f.s with rg := rg } cmd.command (!f.delayedStart) hd.pin hd.enable hd.delay with h3 | ⟨h3, h4⟩
    · rw [← hr] at h3
      refine ⟨f', b, M, hb, h1, ?_⟩
      rw [hacc, h3, List.append_nil]
    · rw [← hr] at h3 h4
      have hbt : b = true := by
        rcases hcase with ⟨-, hx, -⟩ | ⟨hx, -⟩ | ⟨hx, -⟩
        · exact hx
        · rw [h3] at hx; exact absurd hx (by decide)
        · rw [h3] at hx; exact absurd hx (by decide)
      refine ⟨f', b, M - 1, hb, h2 hbt, ?_⟩
      rw [hacc, h4, List.length_append, List.length_singleton]
      omega
  · refine ⟨f', b, M, hb, h1, ?_⟩
    rw [hacc]

theorem CycleState.loop_count {a : ArchId} {R : Nat} {p : Int} (env : Stepper.Env) (f0 : Stepper.Fill)
    (hna : ∀ i f rg cmd, FillState a env f0 i f → f.cond a = true → f.s.rg.getNextCommand a f.s.hw.q.qend f.cmd = some (rg, cmd) →
      cmd.command.ticks ≠ 0 →
      0 ≤ (({ f.s with rg := rg } : Stepper).addQueueEntry a (env.ext i) (env.gaps i) (env.busy i) cmd.command (!f.delayedStart)).2) :
    ∀ n i f M, FillState a env f0 i f → CycleState a R p M f → NoDelay f.s →
      ∃ f' x M', Stepper.Fill.loop a env n i f = some (f', x) ∧ CycleState a R p M' f' ∧ f'.accepted.length + M' ≤ f.accepted.length + M := by
  intro n
  induction n with
  | zero => intro i f M _ h _; exact ⟨f, _, M, rfl, h, Nat.le_refl _⟩
  | succ n ih =>
    intro i f M hst h hd
    unfold Stepper.Fill.loop
    by_cases hc : f.cond a = true
    · rw [if_pos hc]
      obtain ⟨f', b, M', hb, h1, h2⟩ := h.body_count env i hc hd (fun rg cmd h1 h2 => hna i f rg cmd hst hc h1 h2)
      rw [hb]
      cases b
      · exact ⟨f', _, M', rfl, h1, h2⟩
      · obtain ⟨f2, x, M2, e1, e2, e3⟩ := ih (i + 1) f' M' (.step hst hc hb) h1 (hd.same (Stepper.Fill.body_sameConfig a env i f f' _ hb))
        exact ⟨f2, x, M2, e1, e2, by omega⟩
    · rw [if_neg hc]; exact ⟨f, _, M, rfl, h, Nat.le_refl _⟩

/-- A task cycle queues at most as many commands as it brings the ramp closer to its end. -/
theorem MoveState.cycle_count {a : ArchId} {R : Nat} {p : Int} {M : Nat} {s s' : Stepper} {acc : List Cmd} (h : MoveState a R p M s) (hd : NoDelay s) (env : Stepper.Env) (junk : NextCommand)
    (hj : junk.rw.performedRampUpSteps < 4294967296) (hna : ¬ AbortedRamp a env junk s) (hf : s.fillQueue a env junk = some (s', acc)) :
    ∃ M', MoveState a R p M' s' ∧ acc.length + M' ≤ M := by
  by_cases hact : s.rg.isActive = true
  · by_cases hv : s.rg.parameters.checkValidConfig = MOVE_OK
    · have hna' : ∀ i f rg cmd, FillState a env (fillStart a junk s) i f → f.cond a = true →
          f.s.rg.getNextCommand a f.s.hw.q.qend f.cmd = some (rg, cmd) → cmd.command.ticks ≠ 0 →
          0 ≤ (({ f.s with rg := rg } : Stepper).addQueueEntry a (env.ext i) (env.gaps i) (env.busy i) cmd.command (!f.delayedStart)).2 := by
        intro i f rg cmd h1 h2 h3 h4
        by_cases h5 : 0 ≤ (({ f.s with rg := rg } : Stepper).addQueueEntry a (env.ext i) (env.gaps i) (env.busy i) cmd.command (!f.delayedStart)).2
        · exact h5
        · exact absurd ⟨i, f, rg, cmd, h1, h2, h3, h4, by omega⟩ hna
      have h0 : CycleState a R p M (fillStart a junk s) := ⟨h.arrives, rfl, h.pos, hj⟩
      obtain ⟨f, x, M', hl, hf', hcnt⟩ := CycleState.loop_count env (fillStart a junk s) hna' env.iterations 0 _ M .zero h0 ⟨hd.pin, hd.enable, hd.delay⟩
      have hfq : s.fillQueue a env junk = some (if f.needDelayedStart then (f.s.startQueue true).1 else f.s, f.accepted) := by
        unfold Stepper.fillQueue
        rw [if_neg (by rw [hact]; decide), if_neg (by rw [hv]; simp)]
        dsimp only
        change (match Stepper.Fill.loop a env env.iterations 0 (fillStart a junk s) with | none => none | some (f, _) => _) = _
        rw [hl]
        dsimp only
        split <;> rfl
      rw [hf] at hfq
      cases hfq
      refine ⟨M', ?_, ?_⟩
      · obtain ⟨k1, k2⟩ := startQueue_keeps f.s true
        split
        · exact ⟨by rw [k1, k2]; exact hf'.arrives, by rw [k2]; exact hf'.pos⟩
        · exact ⟨hf'.arrives, hf'.pos⟩
      · have : (fillStart a junk s).accepted.length = 0 := rfl
        omega
    · have : s.fillQueue a env junk = some (s, []) := by
        unfold Stepper.fillQueue
        rw [if_neg (by rw [hact]; decide), if_pos hv]
      rw [hf] at this
      cases this
      exact ⟨M, h, by simp⟩
  · have hia : s.rg.isActive = false := by simpa using hact
    rw [Stepper.fillQueue_inactive a env junk s hia] at hf
    cases hf
    exact ⟨M, h, by simp⟩

/-- The number of commands of a move. -/
theorem MoveInv.commands {a : ArchId} {L R : Nat} {p : Int} {M : Nat} {s0 : Stepper} (hmin : a.minCmdTicks ≤ L) (hL : L ≤ 32768)
    (h0 : MoveInv a L R p M s0) (hd : NoDelay s0) {k : Nat} {cmds : List Cmd} {s : Stepper} (h : TaskHist a s0 k cmds s) :
    cmds.length ≤ M := by
  have hstep : ∀ {cmds acc : List Cmd} {s s' : Stepper} {env : Stepper.Env} {junk : NextCommand}, junk.rw.performedRampUpSteps < 4294967296 → s.fillQueue a env junk = some (s', acc) →
      (∃ M', MoveInv a L R p M' s ∧ NoDelay s ∧ cmds.length + M' ≤ M) → ∃ M', MoveInv a L R p M' s' ∧ NoDelay s' ∧ (cmds ++ acc).length + M' ≤ M := by
    intro cmds acc s s' env junk hj hf ⟨M', i1, i2, i3⟩
    have hna := i1.never_aborted hmin hL (.undelayed i2.enable) env junk hj
    obtain ⟨M2, j1, j2⟩ := i1.state.cycle_count i2 env junk hj hna hf
    obtain ⟨s2, acc2, hf2, k1, -⟩ := i1.task hmin hL (.undelayed i2.enable) env junk hj
    rw [hf] at hf2
    cases hf2
    refine ⟨M2, ⟨j1, k1.steady, k1.max, k1.delay, k1.valid, k1.pin, k1.enable, k1.ready, k1.idx⟩, i2.same (fillQueue_sameConfig a env junk s s' acc hf), ?_⟩
    rw [List.length_append]
    omega
  have key : ∃ M', MoveInv a L R p M' s ∧ NoDelay s ∧ cmds.length + M' ≤ M := by
    induction h with
    | start => exact ⟨M, h0, hd, by simp⟩
    | elapse _ he ih =>
      obtain ⟨M', i1, i2, i3⟩ := ih
      have hp := he.dirPin
      refine ⟨M', i1.elapse he, ⟨?_, ?_, ?_⟩, i3⟩
      · have := i2.pin
        unfold Stepper.dirPin at this ⊢
        rw [hp]; exact this
      · rw [he.autoEnable, he.enableDelay]; exact i2.enable
      · rw [he.dirDelay]; exact i2.delay
    | task env junk acc _ hj _ hf ih => exact hstep hj hf ih
    | unhindered env junk acc _ hj _ hf _ ih => exact hstep hj hf ih
  obtain ⟨M', -, -, i3⟩ := key
  omega

/-- The first task cycle queues commands, unless the ramp is at its end. -/
theorem first_cycle {a : ArchId} {tm : AvrTiming} {D e : Nat} {s0 : Stepper} {v0 : Avr} (hav : a.isAvr = true) (hT : Timely a tm D e s0) (hq : v0.Quiet)
    (hpin : v0.q.dirPin < 128) (hpos : -2147483648 ≤ v0.q.qend.pos ∧ v0.q.qend.pos < 2147483648) (hhw : s0.hw = ⟨v0.q, 0⟩)
    (hact : ∀ k s, TaskHist a s0 k [] s → s.rg.isActive = true)
    {τ now : Nat} {v : Avr} {h : AvrHist} {cmds : List Cmd} {s : Stepper} (hm : AvrMove a tm s0 v0 τ now v h cmds s) (hc : cmds = []) :
    now = τ ∧ v = v0 ∧ s = s0 := by
  cases hm with
  | start now => exact ⟨rfl, rfl, rfl⟩
  | cycle τ env junk m evs acc s1 s2 hm h1 h2 h3 h4 h5 h6 h7 h8 h9 h10 h12 =>
    rename_i last now' v' h' cmds' s'
    exfalso
    have hI := real_run hav hT hq hpin hpos hhw hm
    obtain ⟨hc1, hc2⟩ := List.append_eq_nil_iff.mp hc
    subst hc1 hc2
    have hext : pinIsExternal s'.dirPin = false := by
      have : s0.dirPin = v0.q.dirPin := by unfold Stepper.dirPin; rw [hhw]
      rw [hI.pin, this]
      unfold pinIsExternal
      exact decide_eq_false (by omega)
    obtain ⟨k, htask⟩ := hI.task
    exact hI.core.first hT.plan hT.full hext (fun _ => hI.period) h4 h5 h6 (hact _ _ (.task env junk [] htask h4 (.undelayed (htask.undelayed hT.enable)) h5))

theorem durationSum_bound : ∀ cs : List Cmd, (∀ c ∈ cs, c.Valid) → durationSum cs ≤ cs.length * (65535 * 255)
  | [], _ => Nat.zero_le _
  | c :: cs, h => by
    have h1 := durationSum_bound cs (fun x hx => h x (List.mem_cons_of_mem _ hx))
    have h2 := h c List.mem_cons_self
    unfold Cmd.Valid at h2
    have h3 : c.duration ≤ 65535 * 255 := Nat.mul_le_mul (by omega) (by omega)
    have h4 : durationSum (c :: cs) = c.duration + durationSum cs := rfl
    rw [h4, List.length_cons, Nat.succ_mul]
    omega

end FAS
