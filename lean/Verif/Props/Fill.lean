import Verif.Lemmas.Count
import Verif.Lemmas.QueueObs
import Verif.Spec.Fill
import Verif.Props.Planner

/-!
# C49: one cycle of the task filling the queue
-/

namespace FAS
open Spec Stepper

theorem Fill.loop_env (a : ArchId) (env : Env) (m : Nat) : ∀ (n i : Nat) (f : Fill),
    Fill.loop a { env with iterations := m } n i f = Fill.loop a env n i f
  | 0, _, _ => rfl
  | n + 1, i, f => by
    unfold Fill.loop
    have hb : f.body a { env with iterations := m } i = f.body a env i := rfl
    rw [hb]
    split
    · split
      · rfl
      · exact Fill.loop_env a env m n _ _
      · rfl
    · rfl

theorem Fill.loop_off (a : ArchId) (env : Env) (f : Fill) (h : f.cond a = false) : ∀ (n i : Nat),
    Fill.loop a env n i f = some (f, false)
  | 0, _ => by unfold Fill.loop; rw [h]
  | n + 1, _ => by unfold Fill.loop; rw [h]; rfl

theorem Fill.cond_iff (a : ArchId) (f : Fill) : f.cond a = true ↔
    f.s.hw.q.queueEntries ≠ a.queueLen ∧ (f.ticksPrepared < f.s.forwardPlanning ∨ f.s.hw.q.queueEntries ≤ 1) ∧
      f.s.rg.isActive = true := by
  unfold Fill.cond Queue.isQueueFull
  simp [and_assoc]

/-- What one iteration does to the queue. -/
theorem Fill.body_queue (a : ArchId) (env : Env) (i : Nat) (f f' : Fill) (b : Bool)
    (hi : f.s.hw.q.IdxOK a) (hn : f.s.hw.q.ignoreCommands = false)
    (h : f.body a env i = some (f', b)) :
    f'.s.hw.q.IdxOK a ∧ f'.s.hw.q.ignoreCommands = false ∧
    ∃ ps, (∀ p ∈ ps, p.steps = 0) ∧
      ((b = true ∧ f'.accepted = f.accepted ++ (ps ++ [f'.cmd.command]) ∧
        f'.s.hw.q.queueEntries ≤ f.s.hw.q.queueEntries + ps.length + 1 ∧
        f'.ticksPrepared = u32 (f.ticksPrepared +
              (if f'.cmd.command.steps ≤ 1 then f'.cmd.command.ticks
                else u32 (f'.cmd.command.ticks * f'.cmd.command.steps))) ∧
        ((∀ n, (env.gaps i n).advances = 0) →
          f'.s.hw.q.queueEntries = f.s.hw.q.queueEntries + ps.length + 1)) ∨
       ((b = false ∨ f'.s.rg.isActive = false) ∧ f'.accepted = f.accepted ++ ps)) := by
  obtain ⟨rg, cmd, -, hcmd, hc⟩ := Fill.body_cases a env i f f' b h
  rcases hc with ⟨-, r, hr, hacc, hc⟩ | ⟨-, hb, hs, hacc, -⟩
  · have hcnt := addQueueEntry_cnt a (env.ext i) (env.gaps i) (env.busy i) { f.s with rg := rg } cmd.command (!f.delayedStart)
    have hfr := addQueueEntry_frame a (env.ext i) (env.gaps i) (env.busy i) { f.s with rg := rg } cmd.command (!f.delayedStart)
    obtain ⟨ps, hps, hp⟩ := addQueueEntry_accepted a (env.ext i) (env.gaps i) (env.busy i) { f.s with rg := rg } cmd.command
      (!f.delayedStart) hn
    rw [← hr] at hcnt hfr hp
    have hidx : r.1.s.hw.q.IdxOK a := hcnt.idx hi
    have hig : r.1.s.hw.q.ignoreCommands = false := hfr.ign.trans hn
    rcases hc with ⟨hok, hb, hs, -, -, ht⟩ | ⟨hok, hb, hs, -⟩ | ⟨hok, hb, hs, -⟩
    · rcases hp with ⟨-, hp⟩ | ⟨hp, -⟩
      · refine ⟨by rw [hs]; exact hidx, by rw [hs]; exact hig, ps, hps, Or.inl ⟨hb, ?_, ?_, ?_, ?_⟩⟩
        · rw [hacc, hp, hcmd]
        · have := hcnt.le hi
          rw [hp] at this
          rw [hs]
          simpa [Nat.add_assoc] using this
        · rw [ht, hcmd]
        · intro h0
          have := hcnt.count h0 hi
          rw [hp] at this
          rw [hs]
          simpa [Nat.add_assoc] using this
      · exact absurd hok hp
    · refine ⟨by rw [hs]; exact hidx, by rw [hs]; exact hig, ps, hps, Or.inr ⟨Or.inl hb, ?_⟩⟩
      rcases hp with ⟨hp, -⟩ | ⟨-, hp⟩
      · rw [hp] at hok; exact absurd hok (by decide)
      · rw [hacc, hp]
    · refine ⟨by rw [hs]; exact hidx, by rw [hs]; exact hig, ps, hps, Or.inr ⟨Or.inr ?_, ?_⟩⟩
      · rw [hs]; rfl
      rcases hp with ⟨hp, -⟩ | ⟨-, hp⟩
      · rw [hp] at hok; exact absurd hok (by decide)
      · rw [hacc, hp]
  · refine ⟨by rw [hs]; exact hi, by rw [hs]; exact hn, [], by simp, Or.inr ⟨Or.inl hb, by rw [hacc]; simp⟩⟩

theorem Fill.loop_stable (a : ArchId) (env : Env) (m : Nat)
    (h0 : ∀ i, m ≤ i → ∀ n, (env.gaps i n).advances = 0) (k : Nat) : ∀ (n i : Nat) (f : Fill),
    f.s.hw.q.IdxOK a → f.s.hw.q.ignoreCommands = false →
    (if i < m then m - i + a.queueLen + 1 else a.queueLen - f.s.hw.q.queueEntries + 1) ≤ n →
    Fill.loop a env (n + k) i f = Fill.loop a env n i f
  | 0, i, f, _, _, hn => by split at hn <;> omega
  | n + 1, i, f, hi, hg, hn => by
    have he : n + 1 + k = n + k + 1 := by omega
    rw [he]
    unfold Fill.loop
    by_cases hc : f.cond a = true
    · rw [if_pos hc, if_pos hc]
      cases hb : f.body a env i with
      | none => rfl
      | some p =>
        obtain ⟨f', b⟩ := p
        cases b with
        | false => rfl
        | true =>
          dsimp only
          obtain ⟨h1, h2, ps, -, h3⟩ := Fill.body_queue a env i f f' true hi hg hb
          rcases h3 with ⟨-, -, -, -, h3⟩ | ⟨h3, -⟩
          · apply Fill.loop_stable a env m h0 k n (i + 1) f' h1 h2
            have hc' := (Fill.cond_iff a f).mp hc
            have hi2 := hi.2.2
            have hi3 := h1.2.2
            by_cases him : i < m
            · rw [if_pos him] at hn
              split <;> omega
            · rw [if_neg him] at hn
              rw [if_neg (by omega)]
              have := h3 (h0 i (by omega))
              omega
          · have hoff : f'.cond a = false := by
              rcases h3 with h3 | h3
              · cases h3
              · cases hx : f'.cond a
                · rfl
                · have := ((Fill.cond_iff a f').mp hx).2.2
                  rw [h3] at this; cases this
            rw [Fill.loop_off a env f' hoff, Fill.loop_off a env f' hoff]
    · rw [if_neg hc, if_neg hc]

/-- C49, the task terminates: if the hardware makes no more progress from the `m`-th command on, then the loop ends after
at most `m + queueLen + 1` rounds. In the model the number of rounds is bounded by `env.iterations`: any larger
bound gives the same result. -/
theorem C49_terminates (a : ArchId) (s : Stepper) (env : Env) (junk : NextCommand) (m n : Nat)
    (hi : s.hw.q.IdxOK a) (h0 : ∀ i, m ≤ i → ∀ j, (env.gaps i j).advances = 0)
    (hit : m + a.queueLen + 1 ≤ env.iterations) (hn : env.iterations ≤ n) :
    s.fillQueue a { env with iterations := n } junk = s.fillQueue a env junk := by
  unfold fillQueue
  dsimp only
  split
  · rfl
  split
  · rfl
  · rw [Fill.loop_env]
    obtain ⟨k, rfl⟩ := Nat.exists_eq_add_of_le hn
    rw [Fill.loop_stable a env m h0 k env.iterations 0 _ (by exact hi) rfl (by
      dsimp only
      split <;> omega)]

theorem cmd_time (c : Cmd) (hc : c.Valid) :
    (if c.steps ≤ 1 then c.ticks else u32 (c.ticks * c.steps)) = c.duration ∧ c.duration ≤ 16711425 := by
  have h2 := duration_le c hc
  refine ⟨?_, by omega⟩
  unfold Cmd.duration at *
  split
  · rename_i h
    rw [Nat.max_eq_left h]; omega
  · rename_i h
    rw [Nat.max_eq_right (by omega)] at h2 ⊢
    unfold u32; omega

theorem cmdDurationSum_append : ∀ xs ys : List Cmd, durationSum (xs ++ ys) = durationSum xs + durationSum ys
  | [], ys => by simp [durationSum]
  | x :: xs, ys => by simp [durationSum, cmdDurationSum_append xs ys]; omega

theorem Fill.loop_accepted (a : ArchId) (env : Env) (n i : Nat) (f f' : Fill) (x : Bool)
    (hi : f.s.hw.q.IdxOK a) (hg : f.s.hw.q.ignoreCommands = false) (h : Fill.loop a env n i f = some (f', x)) :
    ∃ rest, f'.accepted = f.accepted ++ rest := by
  refine (Fill.loop_induct a env
    (fun g => g.s.hw.q.IdxOK a ∧ g.s.hw.q.ignoreCommands = false ∧ ∃ rest, g.accepted = f.accepted ++ rest)
    ?_ n i f f' x ⟨hi, hg, [], by simp⟩ h).2.2
  intro i g g' b _ ⟨h1, h2, rest, h3⟩ hb
  obtain ⟨k1, k2, ps, -, k3⟩ := Fill.body_queue a env i g g' b h1 h2 hb
  refine ⟨k1, k2, ?_⟩
  rcases k3 with ⟨-, k3, -⟩ | ⟨-, k3⟩
  · exact ⟨rest ++ (ps ++ [g'.cmd.command]), by rw [k3, h3, List.append_assoc]⟩
  · exact ⟨rest ++ ps, by rw [k3, h3, List.append_assoc]⟩

theorem Fill.loop_rounds (a : ArchId) (env : Env) (rel : Nat → Nat → Prop)
    (hrel : ∀ x y, x ≤ y → (env.Quiet → x = y) → rel x y) (B : Nat) : ∀ (n i : Nat) (f f' : Fill) (x : Bool),
    f.s.hw.q.IdxOK a → f.s.hw.q.ignoreCommands = false → InRange f.s.rg →
    f.cmd.rw.performedRampUpSteps < 4294967296 →
    ((env.Quiet ∧ f.ticksPrepared ≤ 16711425 * f.s.hw.q.queueEntries) ∨
      (f.ticksPrepared ≤ B + durationSum f.accepted ∧ B + durationSum f'.accepted < 4294967296)) →
    Fill.loop a env n i f = some (f', x) →
    ∃ new, f'.accepted = f.accepted ++ new ∧
      Rounds rel a.queueLen f.s.forwardPlanning f.s.hw.q.queueEntries f.ticksPrepared new
  | 0, i, f, f', x, _, _, _, _, _, h => by
    unfold Fill.loop at h
    cases h
    exact ⟨[], by simp, .stop _ _⟩
  | n + 1, i, f, f', x, hi, hg, hr, hj, ht, h => by
    unfold Fill.loop at h
    by_cases hc : f.cond a = true
    · rw [if_pos hc] at h
      have hc' := (Fill.cond_iff a f).mp hc
      have hlt : f.s.hw.q.queueEntries < a.queueLen := Nat.lt_of_le_of_ne hi.2.2 hc'.1
      cases hb : f.body a env i with
      | none => rw [hb] at h; cases h
      | some p =>
        obtain ⟨g, b⟩ := p
        rw [hb] at h
        obtain ⟨h1, h2, ps, hps, h3⟩ := Fill.body_queue a env i f g b hi hg hb
        obtain ⟨rg, cmd, hgc, hcmd, hcase⟩ := Fill.body_cases a env i f g b hb
        obtain ⟨q1, q2, q3, q4⟩ := InRange_serve hr hj hgc
        have hsame := Fill.body_sameConfig a env i f g b hb
        have hrg : InRange g.s.rg := by
          rcases hcase with ⟨-, r, hrr, -, hcase⟩ | ⟨-, -, hcase, -⟩
          · have hrg : r.1.s.rg = rg := by
              rw [hrr]; exact (addQueueEntry_frame a _ _ _ _ _ _).rg
            rcases hcase with ⟨-, -, h, -⟩ | ⟨-, -, h, -⟩ | ⟨-, -, h, -⟩
            · rw [h]; change InRange (r.1.s.rg.afterCommandEnqueued cmd); rw [hrg]; exact q3
            · rw [h, hrg]; exact q2
            · rw [h]; change InRange r.1.s.rg.stopRamp; rw [hrg]; exact q4
          · rw [hcase]; exact q3
        have hval : cmd.command.ticks ≠ 0 → cmd.command.Valid := by
          intro hne
          have := C34_well_formed a f.s.rg rg f.s.hw.q.qend f.cmd cmd hr hgc
          unfold Cmd.Valid
          omega
        rcases h3 with ⟨hbt, hacc, hle, htp, hent⟩ | ⟨hoff, hacc⟩
        · subst hbt
          have hne : cmd.command.ticks ≠ 0 := by
            rcases hcase with ⟨h, -⟩ | ⟨-, h, -⟩
            · exact h
            · cases h
          have hv := hval hne
          rw [hcmd] at hacc htp
          obtain ⟨t1, t2⟩ := cmd_time cmd.command hv
          rw [t1] at htp
          have hql := a.queueLen_cases
          obtain ⟨rest, hrest⟩ := Fill.loop_accepted a env n (i + 1) g f' x h1 h2 h
          have hsum : durationSum g.accepted = durationSum f.accepted + durationSum ps + cmd.command.duration := by
            rw [hacc, cmdDurationSum_append, cmdDurationSum_append]; simp only [durationSum]; omega
          have hsum' : durationSum f'.accepted = durationSum g.accepted + durationSum rest := by
            rw [hrest, cmdDurationSum_append]
          have htp' : g.ticksPrepared = f.ticksPrepared + cmd.command.duration := by
            rw [htp]; unfold u32
            rcases ht with ⟨-, ht⟩ | ⟨ht, hB⟩
            · have : f.ticksPrepared + cmd.command.duration ≤ 16711425 * 33 := by omega
              omega
            · omega
          obtain ⟨new, hnew, hro⟩ := Fill.loop_rounds a env rel hrel B n (i + 1) g f' x h1 h2 hrg (by rw [hcmd]; exact q1)
            (by
              rcases ht with ⟨hq, ht⟩ | ⟨ht, hB⟩
              · have := hent (hq i)
                left; exact ⟨hq, by rw [htp', this]; omega⟩
              · right; exact ⟨by omega, hB⟩) h
          refine ⟨ps ++ cmd.command :: new, by rw [hnew, hacc]; simp, ?_⟩
          rw [hsame.fwd, htp'] at hro
          exact .round _ _ ps cmd.command new _ hps hlt hc'.2.1 (hrel _ _ hle (fun hq => hent (hq i))) hro
        · have hend : f'.accepted = g.accepted := by
            cases b with
            | false => cases h; rfl
            | true =>
              have hcf : g.cond a = false := by
                rcases hoff with h3 | h3
                · cases h3
                · cases hx : g.cond a
                  · rfl
                  · have := ((Fill.cond_iff a g).mp hx).2.2
                    rw [h3] at this; cases this
              dsimp only at h
              rw [Fill.loop_off a env g hcf] at h
              cases h; rfl
          exact ⟨ps, by rw [hend, hacc], .refused _ _ ps hps hlt hc'.2.1⟩
    · rw [if_neg hc] at h
      cases h
      exact ⟨[], by simp, .stop _ _⟩

theorem ticksLoop_ignore (a : ArchId) (q : Queue) (b : Bool) : ∀ n rp t,
    Queue.ticksLoop a { q with ignoreCommands := b } n rp t = Queue.ticksLoop a q n rp t
  | 0, _, _ => rfl
  | n + 1, rp, t => by
    have ih := ticksLoop_ignore a q b n
    simp only [Queue.ticksLoop, ih]
    rfl

theorem ticksInQueue_ignore (a : ArchId) (q : Queue) (b : Bool) :
    Queue.ticksInQueue a { q with ignoreCommands := b } = Queue.ticksInQueue a q := by
  unfold Queue.ticksInQueue
  dsimp only
  rw [ticksLoop_ignore]

theorem fillQueue_rounds (a : ArchId) (s s' : Stepper) (env : Env) (junk : NextCommand) (acc : List Cmd) (q : QSpec)
    (hh : RampHist a ApiCall.Typed s) (hs : Sim a s.hw q) (hj : junk.rw.performedRampUpSteps < 4294967296)
    (rel : Nat → Nat → Prop) (hrel : ∀ x y, x ≤ y → (env.Quiet → x = y) → rel x y)
    (hq : env.Quiet ∨ durationSum q.pend.tail + durationSum acc < 4294967296)
    (h : s.fillQueue a env junk = some (s', acc)) :
    Rounds rel a.queueLen s.forwardPlanning q.pend.length (durationSum q.pend.tail) acc := by
  rcases fillQueue_cases a env junk s s' acc h with ⟨-, -, h⟩ | ⟨-, -, f0, f, x, e1, e2, -, -, e3, e4, hl, hacc, -⟩
  · rw [h]; exact .stop _ _
  · have ht : f0.ticksPrepared = durationSum q.pend.tail := by
      rw [e3, e1, ← hs.ticksInQueue]; exact ticksInQueue_ignore a s.hw.q false
    have hlen : f0.s.hw.q.queueEntries = q.pend.length := by
      rw [e1]; exact hs.length
    have hr : InRange f0.s.rg := by
      have h1 : InRange s.rg := RampHist.inRange hh
      rw [e1]; exact h1
    have hb : durationSum q.pend.tail ≤ 16711425 * q.pend.length := by
      have := durationSum_le q.pend.tail (fun c hc => hs.rel.valid c (List.mem_of_mem_tail hc))
      have := List.length_tail (l := q.pend)
      omega
    obtain ⟨new, hnew, hro⟩ := Fill.loop_rounds a env rel hrel (durationSum q.pend.tail) env.iterations 0 f0 f x (by rw [e1]; exact hs.idx) (by rw [e1]) hr
      (by rw [e2]; exact hj) (by
        rcases hq with hq | hq
        · left; exact ⟨hq, by rw [ht, hlen]; exact hb⟩
        · right; refine ⟨by rw [ht, e4]; exact Nat.le_add_right _ _, by rw [← hacc]; exact hq⟩) hl
    rw [e4] at hnew
    rw [hacc, hnew, ← ht, ← hlen]
    have hf : f0.s.forwardPlanning = s.forwardPlanning := by rw [e1]
    rw [hf] at hro
    exact hro

/-- C49, the task only adds while the queue is not full and less than the planning time or fewer than two commands are queued.
`q` has the commands pending at the begin of the cycle, and the hardware completes none of them during the cycle. -/
theorem C49_planning (a : ArchId) (s s' : Stepper) (env : Env) (junk : NextCommand) (acc : List Cmd) (q : QSpec)
    (hh : RampHist a ApiCall.Typed s) (hs : Sim a s.hw q) (hj : junk.rw.performedRampUpSteps < 4294967296)
    (hq : env.Quiet) (h : s.fillQueue a env junk = some (s', acc)) :
    Rounds (· = ·) a.queueLen s.forwardPlanning q.pend.length (durationSum q.pend.tail) acc :=
  fillQueue_rounds a s s' env junk acc q hh hs hj _ (fun _ _ _ h => h hq) (Or.inl hq) h

/-- C49, the same for any hardware progress during the cycle: between the rounds the number of pending commands may get
smaller. The commands added in the cycle and those pending before it last less than 2^32 ticks, which is more than
three minutes. -/
theorem C49_planning_progress (a : ArchId) (s s' : Stepper) (env : Env) (junk : NextCommand) (acc : List Cmd) (q : QSpec)
    (hh : RampHist a ApiCall.Typed s) (hs : Sim a s.hw q) (hj : junk.rw.performedRampUpSteps < 4294967296)
    (hsum : durationSum q.pend.tail + durationSum acc < 4294967296)
    (h : s.fillQueue a env junk = some (s', acc)) :
    Rounds (· ≤ ·) a.queueLen s.forwardPlanning q.pend.length (durationSum q.pend.tail) acc :=
  fillQueue_rounds a s s' env junk acc q hh hs hj _ (fun _ _ h _ => h) (Or.inr hsum) h

/-- C49, an inactive ramp: the task does not touch the stepper. -/
theorem C49_inactive (a : ArchId) (s : Stepper) (env : Env) (junk : NextCommand) (h : s.rg.isActive = false) :
    s.fillQueue a env junk = some (s, []) :=
  fillQueue_inactive a env junk s h

/-- The hypotheses are met: avr328, one cycle after `moveTo(1000)`. At least two commands are added. -/
example : ∃ s r, RampHist .avr328 ApiCall.Typed s ∧ Sim .avr328 s.hw QSpec.init ∧ calmEnv.Quiet ∧ s.hw.q.IdxOK .avr328 ∧
    s.fillQueue .avr328 calmEnv junk0 = some r ∧ 2 ≤ r.2.length ∧ r.1.rg.isActive = true := by
  refine ⟨ApiCall.exec .avr328 (ApiCall.exec .avr328 (ApiCall.exec .avr328 ((Stepper.init .avr328 1).setAbsoluteSpeedLimit 640)
    (.config (.speed 60000))) (.config (.acceleration 20))) (.moveTo 100), ?_⟩
  have h : ∀ s : Stepper, RampHist .avr328 ApiCall.Typed s → Sim .avr328 s.hw QSpec.init →
      (∃ r, s.fillQueue .avr328 calmEnv junk0 = some r ∧ 2 ≤ r.2.length ∧ r.1.rg.isActive = true) →
      ∃ r, RampHist .avr328 ApiCall.Typed s ∧ Sim .avr328 s.hw QSpec.init ∧ calmEnv.Quiet ∧ s.hw.q.IdxOK .avr328 ∧
        s.fillQueue .avr328 calmEnv junk0 = some r ∧ 2 ≤ r.2.length ∧ r.1.rg.isActive = true := by
    intro s h1 h2 ⟨r, h3⟩
    exact ⟨r, h1, h2, fun _ _ => rfl, h2.idx, h3⟩
  apply h
  · exact .call _ (.call _ (.call _ (.start _ rfl) (by change 60000 < 4294967296; decide)) trivial) trivial
  · exact ⟨(Sim.init .avr328).idx, rfl, rfl, rfl, rfl, rfl, rfl⟩
  · apply exists_of_any; decide +kernel

/-! ## C62 -/

/-- C62: the result of `addQueueEntry()` tells whether the command has been queued. With `AQE_OK` the commands queued by the call
are pauses followed by the command, with any other result they are pauses only, so no step is added. Missing: after `forceStop()` or
`forceStopAndNewPosition()`, and before the next ramp command is serviced, commands are ignored with `AQE_OK`
(`C62_ignored_refuted`). -/
theorem C62_result_tells_partial (a : ArchId) (ext : ExtPin) (gaps : Nat → Gap) (busy : Bool) (s : Stepper)
    (c : Cmd) (st : Bool) (hign : s.hw.q.ignoreCommands = false) :
    ∃ pauses : List Cmd, (∀ p ∈ pauses, p.steps = 0) ∧
      (s.addQueueEntry a ext gaps busy c st).1.accepted =
        pauses ++ if (s.addQueueEntry a ext gaps busy c st).2 = AQE_OK then [c] else [] := by
  obtain ⟨ps, hps, ⟨h1, h2⟩ | ⟨h1, h2⟩⟩ := addQueueEntry_accepted a ext gaps busy s c st hign
  · exact ⟨ps, hps, by rw [if_pos h1, h2]⟩
  · exact ⟨ps, hps, by rw [if_neg h1, h2]; simp⟩

/-- C62 does not hold after `forceStopAndNewPosition()`: the result is `AQE_OK`, and the command is not queued. -/
theorem C62_ignored_refuted :
    let r := ((Stepper.init .avr328 1).forceStopAndNewPosition 0).addQueueEntry .avr328 none (fun _ => ⟨0, false⟩) false ⟨20000, 1, true⟩ true
    r.2 = AQE_OK ∧ r.1.accepted = [] ∧ r.1.s.hw.q.queueEntries = 0 := by
  decide +kernel

/-- A refused command may leave its pauses: the queue of an avr328 has room for one command, a command with changed direction and
a direction delay gets `AQE_QUEUE_FULL`, and the pause for the direction delay has been queued. -/
theorem C62_no_effect_refuted :
    ∃ s : Stepper, ∃ c : Cmd,
      (s.addQueueEntry .avr328 none (fun _ => ⟨0, false⟩) false c false).2 = AQE_QUEUE_FULL ∧
      (s.addQueueEntry .avr328 none (fun _ => ⟨0, false⟩) false c false).1.accepted = [⟨3200, 0, false⟩] := by
  let s0 := ((Stepper.init .avr328 1).setDirectionPin .avr328 none 5 true 200).1
  let add := fun (s : Stepper) (_ : Nat) =>
    (s.addQueueEntry .avr328 none (fun _ => ⟨0, false⟩) false ⟨20000, 1, true⟩ false).1.s
  refine ⟨(List.range 15).foldl add s0, ⟨20000, 1, false⟩, ?_, ?_⟩ <;> decide +kernel

end FAS
