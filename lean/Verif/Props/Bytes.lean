import Verif.Spec.Bytes
import Verif.Props.Control
import Verif.Props.RealTime

/-!
# C95: values read and written byte by byte on AVR
-/

namespace FAS

open Spec

/-! ## Bytes -/

theorem fromBytes_byteOf {x : Nat} (h : x < 4294967296) {b : Nat → Nat} (hb : ∀ k, k < 4 → b k = byteOf x k) : fromBytes b = x := by
  have h0 := hb 0 (by omega)
  have h1 := hb 1 (by omega)
  have h2 := hb 2 (by omega)
  have h3 := hb 3 (by omega)
  unfold fromBytes
  rw [h0, h1, h2, h3]
  unfold byteOf
  norm_num
  omega

theorem byteOf_lt (x k : Nat) : byteOf x k < 256 := Nat.mod_lt _ (by omega)

theorem byteOf_putByte {x : Nat} (h : x < 4294967296) {k b j : Nat} (hk : k < 4) (hb : b < 256) (hj : j < 4) :
    putByte x k b < 4294967296 ∧ byteOf (putByte x k b) j = if j = k then b else byteOf x j := by
  have hk' : k = 0 ∨ k = 1 ∨ k = 2 ∨ k = 3 := by omega
  have hj' : j = 0 ∨ j = 1 ∨ j = 2 ∨ j = 3 := by omega
  unfold putByte byteOf
  rcases hk' with rfl | rfl | rfl | rfl <;> rcases hj' with rfl | rfl | rfl | rfl <;> norm_num <;> omega

theorem byte_of_mem {order : List Nat} (h : order.Perm [0, 1, 2, 3]) (k : Nat) : k ∈ order ↔ k < 4 := by
  rw [h.mem_iff]
  simp only [List.mem_cons, List.not_mem_nil, or_false]
  omega

/-! ## Interruptions -/

theorem Spec.Interruption.trans {a : ArchId} {s t u : Stepper} (h : Interruption a s t) (h' : Interruption a t u) : Interruption a s u := by
  induction h' with
  | nothing => exact h
  | progress g _ ih => exact .progress g ih
  | counting n _ ih => exact .counting n ih
  | task env junk acc _ hj hf ih => exact .task env junk acc ih hj hf

/-- Each byte read is the one of a moment of the call. -/
theorem Spec.ReadBytes.moment {a : ArchId} {var : Stepper → Nat} {b : Nat → Nat} {s s' : Stepper} {ks : List Nat} (h : ReadBytes a var b s ks s') :
    Interruption a s s' ∧ ∀ k ∈ ks, ∃ t, Moment a s t s' ∧ b k = byteOf (var t) k := by
  induction h with
  | finish h => exact ⟨h, fun k hk => absurd hk List.not_mem_nil⟩
  | byte h1 hb _ ih =>
    refine ⟨h1.trans ih.1, fun k hk => ?_⟩
    rcases List.mem_cons.mp hk with rfl | hk
    · exact ⟨_, ⟨h1, ih.1⟩, hb⟩
    · obtain ⟨t, m, e⟩ := ih.2 k hk
      exact ⟨t, ⟨h1.trans m.before, m.after⟩, e⟩

theorem Spec.Read32.moment {a : ArchId} {var : Stepper → Nat} {s s' : Stepper} {v : Nat} (h : Read32 a var s s' v) :
    Interruption a s s' ∧ ∃ b, v = fromBytes b ∧ ∀ k, k < 4 → ∃ t, Moment a s t s' ∧ b k = byteOf (var t) k := by
  obtain ⟨order, b, hp, hr, hv⟩ := h
  exact ⟨hr.moment.1, b, hv, fun k hk => hr.moment.2 k ((byte_of_mem hp k).mpr hk)⟩

/-- A variable, which does not change during the call, is read as it is. -/
theorem Spec.Read32.const {a : ArchId} {var : Stepper → Nat} {s s' : Stepper} {v : Nat} (h : Read32 a var s s' v) (hlt : var s < 4294967296)
    (hc : ∀ t, Interruption a s t → var t = var s) : v = var s := by
  obtain ⟨-, b, hv, hb⟩ := h.moment
  rw [hv]
  refine fromBytes_byteOf hlt (fun k hk => ?_)
  obtain ⟨t, m, e⟩ := hb k hk
  rw [e, hc t m.before]

/-- A variable, of which only the lowest byte changes during the call, is read as it is at one moment. -/
theorem Spec.Read32.low {a : ArchId} {var : Stepper → Nat} {s s' : Stepper} {v : Nat} (h : Read32 a var s s' v) (hlt : var s < 4294967296)
    (hc : ∀ t, Moment a s t s' → var t / 256 = var s / 256) : ∃ t, Moment a s t s' ∧ v = var t := by
  obtain ⟨-, b, hv, hb⟩ := h.moment
  obtain ⟨t, m, e⟩ := hb 0 (by omega)
  refine ⟨t, m, ?_⟩
  have ht := hc t m
  rw [hv]
  refine fromBytes_byteOf (by omega) (fun k hk => ?_)
  by_cases hk0 : k = 0
  · rw [hk0]; exact e
  · obtain ⟨t', m', e'⟩ := hb k hk
    have ht' := (hc t' m').trans ht.symm
    rw [e']
    have hk' : k = 1 ∨ k = 2 ∨ k = 3 := by omega
    unfold byteOf
    rcases hk' with rfl | rfl | rfl <;> norm_num <;> omega

/-- Without interruption the value is read as it is. -/
theorem Read32.uninterrupted (a : ArchId) (var : Stepper → Nat) (s : Stepper) (hlt : var s < 4294967296) : Read32 a var s s (var s) :=
  ⟨[0, 1, 2, 3], byteOf (var s), .refl _, .byte (.nothing _) rfl (.byte (.nothing _) rfl (.byte (.nothing _) rfl (.byte (.nothing _) rfl (.finish (.nothing _))))),
    (fromBytes_byteOf hlt (fun _ _ => rfl)).symm⟩

/-- The task keeps the acceleration, which `getAcceleration()` returns. -/
theorem Spec.Interruption.accel {a : ArchId} {s s' : Stepper} (h : Interruption a s s') : s'.rg.acceleration = s.rg.acceleration := by
  have hserve : ∀ (g g' : RampGen) (qe : QueueEnd) (junk c : NextCommand), g.getNextCommand a qe junk = some (g', c) → g'.acceleration = g.acceleration := by
    intro g g' qe junk c hn
    have hp : (g.prepare a qe).acceleration = g.acceleration := by
      have e1 : (g.takeOver a).acceleration = g.acceleration := by
        unfold RampGen.takeOver
        split <;> rfl
      have e2 : ∀ g : RampGen, (g.startSteps a).acceleration = g.acceleration := by
        intro g
        unfold RampGen.startSteps
        dsimp only
        repeat' split
        all_goals rfl
      have e3 : ∀ (g : RampGen) (b : Bool), (g.updateTarget b qe).acceleration = g.acceleration := by
        intro g b
        unfold RampGen.updateTarget
        dsimp only
        repeat' split
        all_goals rfl
      unfold RampGen.prepare RampGen.clearRecalc
      dsimp only
      rw [e3, e2, e1]
    unfold RampGen.getNextCommand at hn
    dsimp only at hn
    split at hn
    · cases hn; exact hp
    · split at hn
      · cases hn
      · cases hn; exact hp
  induction h with
  | nothing => rfl
  | progress g _ ih => exact ih
  | counting n _ ih => exact ih
  | task env junk acc _ hj hf ih =>
    rw [← ih]
    rename_i s1 s2 _
    rcases Stepper.fillQueue_cases a env junk _ _ acc hf with ⟨-, h, -⟩ | ⟨ha, hv, f0, f, x, hf0, hc0, -, -, -, -, hl, -, hs'⟩
    · rw [h]
    · have hend := Stepper.Fill.loop_induct a env (fun f => f.s.rg.acceleration = s1.rg.acceleration) ?_ _ _ _ _ _ (by rw [hf0]) hl
      · rw [hs']
        split
        · exact hend
        · exact hend
      · intro i g g2 b hcond hp hb
        obtain ⟨rg, cmd, hg, hcmd, hcase⟩ := Stepper.Fill.body_cases a env i g g2 b hb
        have hz := (hserve _ _ _ _ _ hg).trans hp
        rcases hcase with ⟨-, r, hr, -, hcase⟩ | ⟨-, -, hcase, -⟩
        · have hrg : r.1.s.rg = rg := by
            rw [hr]; exact (Stepper.addQueueEntry_frame a _ _ _ _ _ _).rg
          rcases hcase with ⟨-, -, h, -⟩ | ⟨-, -, h, -⟩ | ⟨-, -, h, -⟩
          · rw [h]; change r.1.s.rg.acceleration = _; rw [hrg]; exact hz
          · rw [h, hrg]; exact hz
          · rw [h]; change r.1.s.rg.acceleration = _; rw [hrg]; exact hz
        · rw [hcase]; exact hz

/-- The task keeps the target, if no command and no stop waits for it. -/
theorem Spec.Interruption.target {a : ArchId} {s s' : Stepper} (h : Interruption a s s') (hh : RampHist a ApiCall.Typed s) (hp : s.rg.parameters.apply = false)
    (hf : s.rg.ro.forceStop = false) (hi : s.rg.ro.forceImmediateStop = false) : s'.rg.ro.targetPos = s.rg.ro.targetPos := by
  have key := h.induct (fun p ro => p.apply = false ∧ ro.forceStop = false ∧ ro.forceImmediateStop = false ∧ ro.config.parameters.anyChange = false ∧
    ro.targetPos = s.rg.ro.targetPos) ?_ ⟨hp, hf, hi, hh.flags.2 hp hf, rfl⟩
  · exact key.2.2.2.2
  · intro g g' qe junk c ⟨q1, q2, q5, q3, q4⟩ hn
    obtain ⟨r1, r2, r3, r4⟩ := service_ro hn
    refine ⟨by rw [r4]; exact (prepFacts a g qe).apply, r2.trans q2, r3 q5, ?_, ?_⟩
    · rw [r1, prepare_config, nextParams_of g q1]
      dsimp only
      rw [q3]; rfl
    · have ht : (g.prepare a qe).ro.targetPos = g.ro.targetPos := by
        unfold RampGen.prepare RampGen.clearRecalc RampGen.updateTarget RampGen.startSteps RampGen.takeOver
        dsimp only
        simp only [q1, Bool.false_eq_true, if_false]
        repeat' split
        all_goals simp_all
      rw [← q4, ← ht]
      unfold RampGen.getNextCommand at hn
      dsimp only at hn
      rw [if_neg (by rw [(prepFacts a g qe).fimm q5]; decide)] at hn
      split at hn
      · cases hn
      · cases hn; rfl

/-! ## C95 -/

/-- C95 for the getters of the settings: wherever the task interrupts `getSpeedInTicks()` (and so `getSpeedInUs()` and `getSpeedInMilliHz()`) and `getAcceleration()`, the value read is the one set by the
application, in whatever order the bytes are read. The hypotheses on the values are the types of the variables. -/
theorem C95_settings (a : ArchId) (s s' : Stepper) (v w : Nat) (h1 : s.getSpeedInTicks < 4294967296) (h2 : s.getAcceleration < 4294967296)
    (hv : Read32 a Stepper.speedVar s s' v) (hw : Read32 a Stepper.accelerationVar s s' w) :
    v = s.getSpeedInTicks ∧ w = s.getAcceleration :=
  ⟨hv.const h1 (fun _ m => m.values.1), hw.const h2 (fun _ m => m.accel)⟩

theorem i32_toU32 {x : Int} (h : i32 x = x) : i32 (toU32 x : Int) = x := by
  unfold i32 toU32 at *
  omega

theorem toU32_lt (x : Int) : toU32 x < 4294967296 := by
  unfold toU32
  omega

/-- C95 for `targetPos()`: wherever the task interrupts the call, the value read is the target, in whatever order the bytes are read, if no command and no stop waits for the task.

Missing: if a command waits for the task, a mixture of the old and of the new target may be read (`C95_target_refuted`). -/
theorem C95_target_partial (a : ArchId) (s s' : Stepper) (v : Nat) (hh : RampHist a ApiCall.Typed s) (ht : i32 s.rg.ro.targetPos = s.rg.ro.targetPos)
    (hp : s.rg.parameters.apply = false) (hf : s.rg.ro.forceStop = false) (hi : s.rg.ro.forceImmediateStop = false)
    (hv : Read32 a Stepper.targetVar s s' v) :
    i32 (v : Int) = s.rg.ro.targetPos := by
  have := hv.const (toU32_lt _) (fun t m => by unfold Stepper.targetVar; rw [m.target hh hp hf hi])
  rw [this]
  exact i32_toU32 ht

/-- C95 for `getPositionAfterCommandsCompleted()` while no ramp is active: the value read is the position after the commands queued. -/
theorem C95_position_idle_partial (a : ArchId) (s s' : Stepper) (v : Nat) (ht : i32 s.getPositionAfterCommandsCompleted = s.getPositionAfterCommandsCompleted)
    (hi : s.isRampGeneratorActive = false) (hv : Read32 a Stepper.endVar s s' v) : i32 (v : Int) = s.getPositionAfterCommandsCompleted := by
  have := hv.const (toU32_lt _) (fun t m => by unfold Stepper.endVar; rw [(m.idle hi).2.1])
  rw [this]
  exact i32_toU32 ht

/-- C95 for `getPositionAfterCommandsCompleted()` while the motor moves: if the end of the queue stays within one block of 256 positions (from a multiple of 256 to the next) during the call, then the value
read is the one of a moment of the call.

Missing: when the move crosses a multiple of 256, then a position the motor never comes to may be read (`C95_position_refuted`). -/
theorem C95_position_partial (a : ArchId) (s s' : Stepper) (v : Nat) (hv : Read32 a Stepper.endVar s s' v)
    (hr : ∀ t, Moment a s t s' → i32 t.getPositionAfterCommandsCompleted = t.getPositionAfterCommandsCompleted ∧
      t.getPositionAfterCommandsCompleted / 256 = s.getPositionAfterCommandsCompleted / 256) :
    ∃ t, Moment a s t s' ∧ i32 (v : Int) = t.getPositionAfterCommandsCompleted := by
  obtain ⟨t, m, e⟩ := hv.low (toU32_lt _) (fun t m => by
    have h1 := hr t m
    have h2 := hr s ⟨.nothing _, hv.moment.1⟩
    unfold Stepper.endVar
    unfold Stepper.getPositionAfterCommandsCompleted i32 at h1 h2
    unfold toU32
    omega)
  exact ⟨t, m, by rw [e]; exact i32_toU32 (hr t m).1⟩

/-- An idle ramp has the period of a stopped motor. -/
def IdleStopped (rw : RampRw) : Prop := rw.state = RampState.IDLE → rw.currTicks = ticksForStoppedMotor

theorem planner_idle {a : ArchId} {ro : RampRo} {rw : RampRw} {qe : QueueEnd} {junk c : NextCommand} (h0 : IdleStopped rw)
    (h : Planner.getNextCommand a ro rw qe junk = some c) : IdleStopped c.rw := by
  have hout : ∀ phase up prus steps ticks pause, IdleStopped (Planner.output phase up prus steps ticks pause).rw := by
    intro phase up prus steps ticks pause hi
    unfold Planner.output RampState.IDLE at hi
    cases up <;> cases hi
  unfold Planner.getNextCommand at h
  split at h
  · cases h; exact h0
  · simp only [Option.bind_eq_bind, Option.bind_eq_some_iff] at h
    obtain ⟨⟨up, rem⟩, -, h⟩ := h
    dsimp only at h
    generalize hC : (if rw.performedRampUpSteps = 0 then up else qe.countUp) = up' at h
    split at h
    · cases h; intro _; rfl
    · unfold Planner.plan at h
      simp only [Option.bind_eq_bind, Option.bind_eq_some_iff] at h
      obtain ⟨orig, -, h⟩ := h
      split at h
      · cases h; intro _; rfl
      · simp only [Option.bind_eq_some_iff] at h
        obtain ⟨p, -, h⟩ := h
        cases h
        exact hout _ _ _ _ _ _

theorem service_idle {a : ArchId} {g g' : RampGen} {qe : QueueEnd} {junk c : NextCommand} (h0 : IdleStopped g.rw)
    (h : g.getNextCommand a qe junk = some (g', c)) : IdleStopped g'.rw ∧ IdleStopped c.rw := by
  have hp : (g.prepare a qe).rw.state = g.rw.state ∧ (g.prepare a qe).rw.currTicks = g.rw.currTicks := by
    have e1 : (g.takeOver a).rw = g.rw := by
      unfold RampGen.takeOver
      split <;> rfl
    have e2 : ∀ g : RampGen, (g.startSteps a).rw.state = g.rw.state ∧ (g.startSteps a).rw.currTicks = g.rw.currTicks := by
      intro g
      unfold RampGen.startSteps
      dsimp only
      repeat' split
      all_goals exact ⟨rfl, rfl⟩
    have e3 : ∀ (g : RampGen) (b : Bool), (g.updateTarget b qe).rw = g.rw := by
      intro g b
      unfold RampGen.updateTarget
      dsimp only
      repeat' split
      all_goals rfl
    unfold RampGen.prepare RampGen.clearRecalc
    dsimp only
    rw [e3]
    exact ⟨(e2 _).1.trans (by rw [e1]), (e2 _).2.trans (by rw [e1])⟩
  have hp' : IdleStopped (g.prepare a qe).rw := by
    unfold IdleStopped
    rw [hp.1, hp.2]; exact h0
  unfold RampGen.getNextCommand at h
  dsimp only at h
  split at h
  · cases h; exact ⟨hp', fun _ => rfl⟩
  · split at h
    · cases h
    · rename_i hc
      cases h
      exact ⟨hp', planner_idle hp' hc⟩

/-- The task leaves an idle ramp with the period of a stopped motor. -/
theorem Spec.Interruption.stopped {a : ArchId} {s s' : Stepper} (h : Interruption a s s') (h0 : IdleStopped s.rg.rw) : IdleStopped s'.rg.rw := by
  induction h with
  | nothing => exact h0
  | progress g _ ih => exact ih
  | counting n _ ih => exact ih
  | task env junk acc _ hj hf ih =>
    rename_i s1 s2 _
    rcases Stepper.fillQueue_cases a env junk _ _ acc hf with ⟨-, h, -⟩ | ⟨ha, hv, f0, f, x, hf0, hc0, -, -, -, -, hl, -, hs'⟩
    · rw [h]; exact ih
    · have hend := Stepper.Fill.loop_induct a env (fun f => IdleStopped f.s.rg.rw) ?_ _ _ _ _ _ (by rw [hf0]; exact ih) hl
      · rw [hs']
        split
        · exact hend
        · exact hend
      · intro i g g2 b hcond hp hb
        obtain ⟨rg, cmd, hg, hcmd, hcase⟩ := Stepper.Fill.body_cases a env i g g2 b hb
        obtain ⟨hz, hz'⟩ := service_idle hp hg
        rcases hcase with ⟨-, r, hr, -, hcase⟩ | ⟨-, -, hcase, -⟩
        · have hrg : r.1.s.rg = rg := by
            rw [hr]; exact (Stepper.addQueueEntry_frame a _ _ _ _ _ _).rg
          rcases hcase with ⟨-, -, h, -⟩ | ⟨-, -, h, -⟩ | ⟨-, -, h, -⟩
          · rw [h]; exact hz'
          · rw [h, hrg]; exact hz
          · rw [h]; exact fun _ => rfl
        · rw [hcase]; exact hz'

/-- C95 for `getPeriodInTicksAfterCommandsCompleted()`: the ramp state and the period are read one after the other, in the states `s1` and `s2`. The result is the one of one of these moments, or the ramp has
ended in between, and the result is 4294967295.

Missing: in the last case the documented result is 0 or the period at the begin of the call (`C95_period_refuted`). -/
theorem C95_period_partial (a : ArchId) (s1 s2 : Stepper) (h : Interruption a s1 s2) :
    Stepper.periodOf s1 s2 = s1.getPeriodInTicksAfterCommandsCompleted ∨ Stepper.periodOf s1 s2 = s2.getPeriodInTicksAfterCommandsCompleted ∨
    (s1.isRampGeneratorActive = true ∧ s2.isRampGeneratorActive = false ∧ Stepper.periodOf s1 s2 = 4294967295) := by
  unfold Stepper.periodOf Stepper.getPeriodInTicksAfterCommandsCompleted Stepper.isRampGeneratorActive
  cases h1 : s1.rg.isActive
  · left; rfl
  · right
    cases h2 : s2.rg.isActive
    · right
      refine ⟨rfl, rfl, ?_⟩
      rw [if_pos rfl]
      refine h.stopped (fun hi => ?_) (by unfold RampGen.isActive at h2; simpa using h2)
      unfold RampGen.isActive at h1
      rw [hi] at h1
      cases h1
    · left; rfl

/-- Writing the bytes of the jump start, while no command waits for the task: the settings in use do not change, and afterwards the bytes `ks` are those of `n`. -/
theorem Spec.WriteJump.spec {a : ArchId} {n : Nat} {s s' : Stepper} {ks : List Nat} (h : WriteJump a n s ks s') (hk : ∀ k ∈ ks, k < 4) (hp : s.rg.parameters.apply = false)
    (hlt : s.rg.parameters.sJump < 4294967296) :
    s'.rg.parameters.sJump < 4294967296 ∧ s'.rg.parameters = { s.rg.parameters with sJump := s'.rg.parameters.sJump } ∧
    s'.rg.ro.config.parameters.sJump = s.rg.ro.config.parameters.sJump ∧
    ∀ j, j < 4 → byteOf s'.rg.parameters.sJump j = if j ∈ ks then byteOf n j else byteOf s.rg.parameters.sJump j := by
  have hcfg : ∀ {s s' : Stepper}, Interruption a s s' → s.rg.parameters.apply = false → s'.rg.ro.config.parameters.sJump = s.rg.ro.config.parameters.sJump := by
    intro s s' h hp
    have key := h.induct (fun p ro => p.apply = false ∧ ro.config.parameters.sJump = s.rg.ro.config.parameters.sJump) ?_ ⟨hp, rfl⟩
    · exact key.2
    · intro g g' qe junk c ⟨q1, q2⟩ hn
      obtain ⟨r1, r2, r3, r4⟩ := service_ro hn
      refine ⟨by rw [r4]; exact (prepFacts a g qe).apply, ?_⟩
      rw [r1, prepare_config, nextParams_of g q1]
      exact q2
  induction h with
  | finish h =>
    have := h.params hp
    refine ⟨by rw [this]; exact hlt, by rw [this], hcfg h hp, fun j _ => ?_⟩
    rw [this, if_neg List.not_mem_nil]
  | @byte s s1 s' k ks h1 h2 ih =>
    have e1 := h1.params hp
    have hk0 := hk k (List.mem_cons_self ..)
    have hlt1 : s1.rg.parameters.sJump < 4294967296 := by rw [e1]; exact hlt
    obtain ⟨i1, i2, i3, i4⟩ := ih (fun j hj => hk j (List.mem_cons_of_mem _ hj)) (by change s1.rg.parameters.apply = false; rw [e1]; exact hp)
      (byteOf_putByte hlt1 hk0 (byteOf_lt _ _) hk0).1
    refine ⟨i1, ?_, i3.trans (show s1.rg.ro.config.parameters.sJump = _ from hcfg h1 hp), fun j hj => ?_⟩
    · rw [i2]
      change ({ s1.rg.parameters with sJump := _ } : RampParams) = _
      rw [e1]
    · rw [i4 j hj]
      change (if j ∈ ks then _ else byteOf (putByte s1.rg.parameters.sJump k (byteOf n k)) j) = _
      rw [(byteOf_putByte hlt1 hk0 (byteOf_lt _ _) hj).2, e1]
      by_cases hj1 : j ∈ ks
      · rw [if_pos hj1, if_pos (List.mem_cons_of_mem _ hj1)]
      · by_cases hj2 : j = k
        · rw [if_neg hj1, if_pos hj2, if_pos (by rw [hj2]; exact List.mem_cons_self ..), hj2]
        · rw [if_neg hj1, if_neg hj2, if_neg (by simp [hj1, hj2])]

/-- C95 for `setJumpStart(n)`: wherever the task interrupts the call, afterwards the setting is `n`, and the jump start in use has not changed, if no command waits for the task.

Missing: if a command waits for the task, then it may be executed with a jump start, which is neither the one set before nor `n` (`C95_jump_start_refuted`). -/
theorem C95_jump_start_partial (a : ArchId) (n : Nat) (hn : n < 4294967296) (s s' : Stepper) (hlt : s.rg.parameters.sJump < 4294967296)
    (hp : s.rg.parameters.apply = false) (h : SetJumpCall a n s s') :
    s'.rg.parameters = (s.setJumpStart n).rg.parameters ∧ s'.rg.ro.config.parameters.sJump = s.rg.ro.config.parameters.sJump := by
  obtain ⟨order, ho, hw⟩ := h
  obtain ⟨h1, h2, h3, h4⟩ := hw.spec (fun k hk => (byte_of_mem ho k).mp hk) hp hlt
  have e : s'.rg.parameters.sJump = n := by
    have e1 := fromBytes_byteOf h1 (b := byteOf s'.rg.parameters.sJump) (fun _ _ => rfl)
    have e2 := fromBytes_byteOf hn (b := byteOf s'.rg.parameters.sJump) (fun k hk => by rw [h4 k hk, if_pos ((byte_of_mem ho k).mpr hk)])
    exact e1.symm.trans e2
  refine ⟨?_, h3⟩
  rw [h2, e]
  rfl

/-! ## Refutations -/

/-- The bytes read, if the task comes after the first one. -/
def tornBytes (x y k : Nat) : Nat → Nat := fun j => if j = k then byteOf x j else byteOf y j

theorem tornRead {a : ArchId} {var : Stepper → Nat} {s s' : Stepper} (h : Interruption a s s') {order : List Nat} (ho : order.Perm [0, 1, 2, 3]) :
    ∃ k, k < 4 ∧ ReadBytes a var (tornBytes (var s) (var s') k) s order s' := by
  have hrest : ∀ (b : Nat → Nat) (ks : List Nat), (∀ j ∈ ks, b j = byteOf (var s') j) → ReadBytes a var b s' ks s' := by
    intro b ks
    induction ks with
    | nil => exact fun _ => .finish (.nothing _)
    | cons k ks ih => exact fun hb => .byte (.nothing _) (hb k (List.mem_cons_self ..)) (ih (fun j hj => hb j (List.mem_cons_of_mem _ hj)))
  cases order with
  | nil => exact absurd ho.length_eq (by decide)
  | cons k ks =>
    have hnd : (k :: ks).Nodup := ho.nodup_iff.mpr (by decide)
    refine ⟨k, (byte_of_mem ho k).mp (List.mem_cons_self ..), .byte (.nothing _) (by unfold tornBytes; rw [if_pos rfl]) ?_⟩
    cases ks with
    | nil => exact absurd ho.length_eq (by simp)
    | cons l ls =>
      refine .byte h ?_ (hrest _ _ (fun j hj => ?_))
      · unfold tornBytes
        rw [if_neg]
        rintro rfl
        exact (List.nodup_cons.mp hnd).1 (List.mem_cons_self ..)
      · unfold tornBytes
        rw [if_neg]
        rintro rfl
        exact (List.nodup_cons.mp hnd).1 (List.mem_cons_of_mem _ hj)

/-- A stepper on AVR at position -1, with `moveTo(p)`. -/
def fromMinusOne (p : Int) : Stepper := configuredMove (realStepper.setCurrentPosition .avr328 (-1)) 20000 20000 0 0 p

theorem fromMinusOne_hist (p : Int) : RampHist .avr328 ApiCall.Typed (fromMinusOne p) := by
  have h0 : RampHist .avr328 ApiCall.Typed (realStepper.setCurrentPosition .avr328 (-1)) :=
    RampHist.call (.setCurrentPosition (-1)) (.start realStepper rfl) trivial
  have h1 := RampHist.call (.config (.speed 20000)) h0 (by change 20000 < 4294967296; omega)
  have h2 := RampHist.call (.config (.acceleration 20000)) h1 trivial
  have h3 := RampHist.call (.config (.linear 0)) h2 trivial
  have h4 := RampHist.call (.config (.jump 0)) h3 (by change 0 < 4294967296; omega)
  exact RampHist.call (.moveTo p) h4 trivial

/-- C95 is false of `getPositionAfterCommandsCompleted()` on AVR: the motor is at -1 and moves to 10. In whatever order the compiled code reads the bytes, if the task comes after the first byte, then the
call returns a position outside of -1 to 10. (The position before the task is -1, that is 255 in all bytes; afterwards it is 6.) -/
theorem C95_position_refuted : ∃ s s' : Stepper, RampHist .avr328 ApiCall.Typed s ∧ s = fromMinusOne 10 ∧ s.getPositionAfterCommandsCompleted = -1 ∧
    s'.getPositionAfterCommandsCompleted = 6 ∧ ∀ order : List Nat, order.Perm [0, 1, 2, 3] →
      ∃ b, ReadBytes .avr328 Stepper.endVar b s order s' ∧ (i32 (fromBytes b : Nat) < -1 ∨ 10 < i32 (fromBytes b : Nat)) := by
  have hcomp : ((fromMinusOne 10).fillQueue .avr328 calmEnv junk0).any (fun r => decide ((fromMinusOne 10).getPositionAfterCommandsCompleted = -1 ∧
      r.1.getPositionAfterCommandsCompleted = 6)) = true := by
    decide +kernel
  obtain ⟨⟨s', acc⟩, e, h1, h2⟩ := exists_of_any hcomp
  refine ⟨_, s', fromMinusOne_hist 10, rfl, h1, h2, fun order ho => ?_⟩
  obtain ⟨k, hk, hr⟩ := tornRead (var := Stepper.endVar) (.task calmEnv junk0 acc (.nothing (fromMinusOne 10)) (by decide) e) ho
  refine ⟨_, hr, ?_⟩
  have v1 : (fromMinusOne 10).endVar = 4294967295 := by
    unfold Stepper.getPositionAfterCommandsCompleted at h1
    unfold Stepper.endVar
    rw [h1]; rfl
  have v2 : s'.endVar = 6 := by
    unfold Stepper.getPositionAfterCommandsCompleted at h2
    unfold Stepper.endVar
    rw [h2]; rfl
  rw [v1, v2]
  have hk' : k = 0 ∨ k = 1 ∨ k = 2 ∨ k = 3 := by omega
  rcases hk' with rfl | rfl | rfl | rfl <;> decide +kernel

/-- C95 is false of `targetPos()` on AVR if a command waits for the task: while the motor stands at -1, where the target is, it gets `moveTo(0)`. In whatever order the compiled code reads the bytes, if
the task comes after the first byte, then the call returns neither -1 nor 0. -/
theorem C95_target_refuted : ∃ s s' : Stepper, RampHist .avr328 ApiCall.Typed s ∧ s = fromMinusOne 0 ∧ s.rg.ro.targetPos = -1 ∧ s'.rg.ro.targetPos = 0 ∧
    ∀ order : List Nat, order.Perm [0, 1, 2, 3] →
      ∃ b, ReadBytes .avr328 Stepper.targetVar b s order s' ∧ i32 (fromBytes b : Nat) ≠ -1 ∧ i32 (fromBytes b : Nat) ≠ 0 := by
  have hcomp : ((fromMinusOne 0).fillQueue .avr328 calmEnv junk0).any (fun r => decide ((fromMinusOne 0).rg.ro.targetPos = -1 ∧ r.1.rg.ro.targetPos = 0)) = true := by
    decide +kernel
  obtain ⟨⟨s', acc⟩, e, h1, h2⟩ := exists_of_any hcomp
  refine ⟨_, s', fromMinusOne_hist 0, rfl, h1, h2, fun order ho => ?_⟩
  obtain ⟨k, hk, hr⟩ := tornRead (var := Stepper.targetVar) (.task calmEnv junk0 acc (.nothing (fromMinusOne 0)) (by decide) e) ho
  refine ⟨_, hr, ?_⟩
  have v1 : (fromMinusOne 0).targetVar = 4294967295 := by
    unfold Stepper.targetVar
    rw [h1]; rfl
  have v2 : s'.targetVar = 0 := by
    unfold Stepper.targetVar
    rw [h2]; rfl
  rw [v1, v2]
  have hk' : k = 0 ∨ k = 1 ∨ k = 2 ∨ k = 3 := by omega
  rcases hk' with rfl | rfl | rfl | rfl <;> decide +kernel

/-- The motor under way from -1 to 10: one task cycle, of which the commands have been executed. -/
def halfWay : Option Stepper := ((fromMinusOne 10).fillQueue .avr328 calmEnv junk0).map (fun r => drained .avr328 r.1)

theorem drained_rg (a : ArchId) (s : Stepper) : (drained a s).rg = s.rg := by
  unfold drained
  dsimp only

/-- C95 is false of `getPeriodInTicksAfterCommandsCompleted()`: the period is 40032 ticks when the call begins, and 0 when it ends, since the task has finished the ramp. The call returns 4294967295. -/
theorem C95_period_refuted : ∃ s s' : Stepper, RampHist .avr328 ApiCall.Typed s ∧ Interruption .avr328 s s' ∧
    s.getPeriodInTicksAfterCommandsCompleted = 40032 ∧ s'.getPeriodInTicksAfterCommandsCompleted = 0 ∧ Stepper.periodOf s s' = 4294967295 := by
  have hcomp : halfWay.any (fun s => (s.fillQueue .avr328 calmEnv junk0).any (fun r => decide (s.getPeriodInTicksAfterCommandsCompleted = 40032 ∧
      r.1.getPeriodInTicksAfterCommandsCompleted = 0 ∧ Stepper.periodOf s r.1 = 4294967295))) = true := by
    decide +kernel
  obtain ⟨s, e, h1⟩ := (Option.any_eq_true _ _).mp hcomp
  obtain ⟨⟨s', acc⟩, e', h⟩ := exists_of_any h1
  unfold halfWay at e
  obtain ⟨⟨s0, acc0⟩, e0, hs⟩ := Option.map_eq_some_iff.mp e
  have hh : RampHist .avr328 ApiCall.Typed s := by
    rw [← hs]
    exact .other (.task calmEnv junk0 acc0 (fromMinusOne_hist 10) (by decide) e0) (drained_rg _ _)
  exact ⟨s, s', hh, .task calmEnv junk0 acc (.nothing _) (by decide) e', h⟩

/-- `setJumpStart(255)` and `moveTo(10)`. -/
def jumping : Stepper := configuredMove realStepper 20000 20000 0 255 10

theorem jumping_hist : RampHist .avr328 ApiCall.Typed jumping := by
  have h0 : RampHist .avr328 ApiCall.Typed realStepper := .start realStepper rfl
  have h1 := RampHist.call (.config (.speed 20000)) h0 (by change 20000 < 4294967296; omega)
  have h2 := RampHist.call (.config (.acceleration 20000)) h1 trivial
  have h3 := RampHist.call (.config (.linear 0)) h2 trivial
  have h4 := RampHist.call (.config (.jump 255)) h3 (by change 255 < 4294967296; omega)
  exact RampHist.call (.moveTo 10) h4 trivial

/-- `setJumpStart(n)`, interrupted after the lowest byte. -/
theorem tornJump {a : ArchId} {n : Nat} {s s' : Stepper} (h : Interruption a (s.jumpByte 0 n) s') :
    SetJumpCall a n s (((s'.jumpByte 1 n).jumpByte 2 n).jumpByte 3 n) :=
  ⟨[0, 1, 2, 3], .refl _, .byte (.nothing _) (.byte h (.byte (.nothing _) (.byte (.nothing _) (.finish (.nothing _)))))⟩

/-- C95 is false of `setJumpStart()` on AVR if a command waits for the task: after `setJumpStart(255)` and `moveTo(10)` the application calls `setJumpStart(256)`. If the lowest byte is written first, and
then the task comes, then the move is executed with a jump start of 0 steps. -/
theorem C95_jump_start_refuted : ∃ s s' : Stepper, RampHist .avr328 ApiCall.Typed s ∧ SetJumpCall .avr328 256 s s' ∧ s.rg.parameters.sJump = 255 ∧
    s'.rg.parameters.sJump = 256 ∧ s.isRampGeneratorActive = true ∧ s'.rg.parameters.apply = false ∧ s'.rg.ro.config.parameters.sJump = 0 := by
  have hcomp : ((jumping.jumpByte 0 256).fillQueue .avr328 calmEnv junk0).any (fun r => decide (
      jumping.rg.parameters.sJump = 255 ∧ (((r.1.jumpByte 1 256).jumpByte 2 256).jumpByte 3 256).rg.parameters.sJump = 256 ∧ jumping.isRampGeneratorActive = true ∧
      (((r.1.jumpByte 1 256).jumpByte 2 256).jumpByte 3 256).rg.parameters.apply = false ∧
      (((r.1.jumpByte 1 256).jumpByte 2 256).jumpByte 3 256).rg.ro.config.parameters.sJump = 0)) = true := by
    decide +kernel
  obtain ⟨⟨s', acc⟩, e, h⟩ := exists_of_any hcomp
  exact ⟨jumping, _, jumping_hist, tornJump (.task calmEnv junk0 acc (.nothing _) (by decide) e), h⟩

/-! ## The hypotheses are met -/

/-- A stepper under way, for which nothing waits for the task. The target read over a task cycle is 10, the position read within the block of 256 positions is right, and the settings are read as set. -/
theorem halfWay_reads : ∃ s s' : Stepper, RampHist .avr328 ApiCall.Typed s ∧ Interruption .avr328 s s' ∧ s.isRampGeneratorActive = true ∧
    s.getPositionAfterCommandsCompleted = 6 ∧ s'.getPositionAfterCommandsCompleted = 10 ∧ s.getSpeedInTicks = 20000 ∧ s.getAcceleration = 20000 ∧
    (∀ order : List Nat, order.Perm [0, 1, 2, 3] → ∃ b, ReadBytes .avr328 Stepper.targetVar b s order s' ∧ i32 (fromBytes b : Nat) = 10) := by
  have hcomp : halfWay.any (fun s => (s.fillQueue .avr328 calmEnv junk0).any (fun r => decide (s.isRampGeneratorActive = true ∧
      s.getPositionAfterCommandsCompleted = 6 ∧ r.1.getPositionAfterCommandsCompleted = 10 ∧ s.getSpeedInTicks = 20000 ∧ s.getAcceleration = 20000 ∧
      s.rg.parameters.apply = false ∧ s.rg.ro.forceStop = false ∧ s.rg.ro.forceImmediateStop = false ∧ s.rg.ro.targetPos = 10))) = true := by
    decide +kernel
  obtain ⟨s, e, h1⟩ := (Option.any_eq_true _ _).mp hcomp
  obtain ⟨⟨s', acc⟩, e', k1, k2, k3, k4, k5, k6, k7, k8, k9⟩ := exists_of_any h1
  unfold halfWay at e
  obtain ⟨⟨s0, acc0⟩, e0, hs⟩ := Option.map_eq_some_iff.mp e
  have hh : RampHist .avr328 ApiCall.Typed s := by
    rw [← hs]
    exact .other (.task calmEnv junk0 acc0 (fromMinusOne_hist 10) (by decide) e0) (drained_rg _ _)
  have hi : Interruption .avr328 s s' := .task calmEnv junk0 acc (.nothing _) (by decide) e'
  refine ⟨s, s', hh, hi, k1, k2, k3, k4, k5, fun order ho => ?_⟩
  obtain ⟨k, -, hr⟩ := tornRead (var := Stepper.targetVar) hi ho
  refine ⟨_, hr, ?_⟩
  rw [← k9]
  exact C95_target_partial .avr328 s s' _ hh (by rw [k9]; decide) k6 k7 k8 ⟨order, _, ho, hr, rfl⟩

end FAS
