import Verif.Lemmas.Planned
import Verif.Lemmas.Triangle
import Verif.Props.Brake

/-!
# Fast moves: C87
-/

namespace FAS

open Spec

theorem ticksPerS_real (a : ArchId) : (16000000 : ℝ) ≤ a.ticksPerS ∧ (a.ticksPerS : ℝ) ≤ 21000000 := by
  cases a <;> (unfold ArchId.ticksPerS; norm_num)

/-- `n` steps at the speed after `n` steps take more than a command has to. -/
theorem steadyRamp_mass {a : ArchId} {A : Nat} (hA : 0 < A) (hA2 : A ≤ 1000000) {n : Nat} (h1 : 1 ≤ n) (h2 : n ≤ 2000000) :
    a.minCmdTicks ≤ steadyRamp a A n * n := by
  have hm : a.minCmdTicks ≤ 4200 := by cases a <;> decide
  have l2 := (steadyRamp_law (a := a) hA (by omega) h1 (by omega)).2
  have q1 := idealPeriod_sq a hA h1
  have p1 := idealPeriod_pos a hA h1
  obtain ⟨t1, -⟩ := ticksPerS_real a
  have hAr : (0 : ℝ) < A := by exact_mod_cast hA
  have hAr2 : (A : ℝ) ≤ 1000000 := by exact_mod_cast hA2
  have hnr : (1 : ℝ) ≤ n := by exact_mod_cast h1
  have hnr2 : (n : ℝ) ≤ 2000000 := by exact_mod_cast h2
  generalize idealPeriod a A n = I at *
  have hX : (128000000 : ℝ) * n ≤ (I * n) ^ 2 := by
    have h3 : (16000000 : ℝ) ^ 2 ≤ (a.ticksPerS : ℝ) ^ 2 := pow_le_pow_left₀ (by norm_num) t1 2
    have h4 : I ^ 2 * (2 * A * n) ≤ I ^ 2 * (2 * 1000000 * n) := by
      apply mul_le_mul_of_nonneg_left _ (by positivity)
      apply mul_le_mul_of_nonneg_right _ (by linarith)
      linarith
    have h5 : (128000000 : ℝ) ≤ I ^ 2 * n := by linarith
    calc (128000000 : ℝ) * n ≤ I ^ 2 * n * n := mul_le_mul_of_nonneg_right h5 (by linarith)
      _ = (I * n) ^ 2 := by ring
  have hX0 : 0 < I * n := by positivity
  have hfn : I * n ≤ 201 / 200 * (steadyRamp a A n * n + n) := by
    calc I * n ≤ 201 / 200 * (steadyRamp a A n + 1) * n := mul_le_mul_of_nonneg_right l2 (by linarith)
      _ = _ := by ring
  generalize I * (n : ℝ) = X at *
  have h6 : (8 : ℝ) * n ≤ X := by
    have : (8 * (n : ℝ)) ^ 2 ≤ X ^ 2 := by nlinarith
    exact le_of_sq_le_sq this hX0.le
  have h7 : (11000 : ℝ) ≤ X := by
    have : (11000 : ℝ) ^ 2 ≤ X ^ 2 := by nlinarith
    exact le_of_sq_le_sq this hX0.le
  have h8 : (4200 : ℝ) ≤ steadyRamp a A n * n := by linarith
  have h9 : 4200 ≤ steadyRamp a A n * n := by exact_mod_cast h8
  omega

theorem steadyRamp_fast {a : ArchId} {T A : Nat} (hA : 0 < A) (hA2 : A ≤ 1000000) (hT1 : a.ticksPerS / 500 < 128 * T) (hT2 : T < a.minCmdTicks) :
    Planner.FastRamp a T (steadyRamp a A) := by
  obtain ⟨c, hc, he⟩ := steadyRamp_configured a A
  have hanti : Planner.Antitone32 (steadyRamp a A) := steadyRamp_anti hA (by omega)
  have hlive : ∀ n, 1 ≤ n → n < 4294967296 → steadyRamp a A n ≤ 16777216 := by
    rw [← he]; exact ticks_lively_plain hc hA (by omega)
  have hpos : 0 < T := by omega
  refine ⟨hanti, hlive, fun n h1 h2 => steadyRamp_mass hA hA2 h1 h2, ?_, hT2, hpos⟩
  have := Nat.div_lt_of_lt_mul (m := a.ticksPerS / 500) (n := T) (k := 128) (by omega)
  omega

theorem idealRampSteps_period {a : ArchId} {A T n : Nat} (hA : 0 < A) (hT : 0 < T) (hn : 1 ≤ n) :
    idealPeriod a A n ^ 2 * n = idealRampSteps a A T * T ^ 2 := by
  have q1 := idealPeriod_sq a hA hn
  have hAr : (0 : ℝ) < A := by exact_mod_cast hA
  have hTr : (0 : ℝ) < T := by exact_mod_cast hT
  unfold idealRampSteps
  rw [div_pow, ← q1]
  field_simp

/-- Where the set speed is reached. -/
theorem rampEnd {a : ArchId} {T A : Nat} (hA : 0 < A) (hA2 : A ≤ 1000000) (hT1 : a.ticksPerS / 500 < 128 * T) (hT2 : T < a.minCmdTicks) :
    ∃ N : Nat, 1 ≤ N ∧ (N : ℝ) ≤ 103 / 100 * idealRampSteps a A T + 1 ∧
      (N + 2 * (a.ticksPerS / 500 / T) < 4294967296 → steadyRamp a A N < T ∧ T ≤ 2 * steadyRamp a A (N + 2 * (a.ticksPerS / 500 / T))) := by
  have hT0 : 0 < T := by omega
  have hTr : (0 : ℝ) < T := by exact_mod_cast hT0
  have hT250 : (250 : ℝ) ≤ T := by
    have h : 32000 ≤ a.ticksPerS / 500 := by cases a <;> decide
    have : 250 ≤ T := by omega
    exact_mod_cast this
  have hAr : (0 : ℝ) < A := by exact_mod_cast hA
  have hAr2 : (A : ℝ) ≤ 1000000 := by exact_mod_cast hA2
  obtain ⟨t1, t2⟩ := ticksPerS_real a
  -- the ideal ramp
  have hn0 : (a.ticksPerS : ℝ) ^ 2 ≤ idealRampSteps a A T * (2000000 * T ^ 2) := by
    unfold idealRampSteps
    rw [div_pow, div_div, div_mul_eq_mul_div, le_div_iff₀ (by positivity)]
    have : (a.ticksPerS : ℝ) ^ 2 * (T ^ 2 * (2 * A)) ≤ (a.ticksPerS : ℝ) ^ 2 * (T ^ 2 * (2 * 1000000)) := by
      apply mul_le_mul_of_nonneg_left _ (by positivity)
      apply mul_le_mul_of_nonneg_left _ (by positivity)
      linarith
    calc (a.ticksPerS : ℝ) ^ 2 * (T ^ 2 * (2 * A)) ≤ (a.ticksPerS : ℝ) ^ 2 * (T ^ 2 * (2 * 1000000)) := this
      _ = (a.ticksPerS : ℝ) ^ 2 * (2000000 * T ^ 2) := by ring
  have hT5000 : (5000 : ℝ) * T ≤ a.ticksPerS := by
    have h : a.minCmdTicks * 5000 ≤ a.ticksPerS := by cases a <;> decide
    have : 5000 * T ≤ a.ticksPerS := by omega
    exact_mod_cast this
  generalize hI : idealRampSteps a A T = n0 at *
  have hn1 : (12 : ℝ) ≤ n0 := by
    have h1 : (5000 * (T : ℝ)) ^ 2 ≤ (a.ticksPerS : ℝ) ^ 2 := pow_le_pow_left₀ (by positivity) hT5000 2
    have h2 : (12.5 : ℝ) * (2000000 * T ^ 2) ≤ n0 * (2000000 * T ^ 2) := by
      calc (12.5 : ℝ) * (2000000 * T ^ 2) = (5000 * (T : ℝ)) ^ 2 := by ring
        _ ≤ _ := le_trans h1 hn0
    have h3 := le_of_mul_le_mul_right h2 (by positivity)
    linarith
  obtain ⟨O, hO⟩ : ∃ O, a.ticksPerS / 500 / T = O := ⟨_, rfl⟩
  rw [hO]
  have hO1 : (O : ℝ) * T * 500 ≤ a.ticksPerS := by
    have h1 : O * T ≤ a.ticksPerS / 500 := by rw [← hO]; exact Nat.div_mul_le_self _ _
    have h2 : O * T * 500 ≤ a.ticksPerS := by omega
    exact_mod_cast h2
  have hO2 : 2 * (O : ℝ) ≤ 8 / 5 * n0 := by
    -- 2 O T ≤ TPS / 250, and TPS T ≤ TPS² / 5000
    have h1 : (2 * (O : ℝ)) * (2000000 * T ^ 2) ≤ 8 / 5 * n0 * (2000000 * T ^ 2) := by
      calc (2 * (O : ℝ)) * (2000000 * T ^ 2) = 8000 * T * ((O : ℝ) * T * 500) := by ring
        _ ≤ 8000 * T * a.ticksPerS := by
          apply mul_le_mul_of_nonneg_left hO1 (by positivity)
        _ = 8 / 5 * ((5000 * T) * a.ticksPerS) := by ring
        _ ≤ 8 / 5 * (a.ticksPerS * a.ticksPerS) := by
          apply mul_le_mul_of_nonneg_left _ (by norm_num)
          exact mul_le_mul_of_nonneg_right hT5000 (by linarith)
        _ = 8 / 5 * (a.ticksPerS : ℝ) ^ 2 := by ring
        _ ≤ 8 / 5 * (n0 * (2000000 * T ^ 2)) := mul_le_mul_of_nonneg_left hn0 (by norm_num)
        _ = _ := by ring
    exact le_of_mul_le_mul_right h1 (by positivity)
  obtain ⟨N, hN⟩ : ∃ N, Nat.ceil (103 / 100 * n0) = N := ⟨_, rfl⟩
  have hN1 : 103 / 100 * n0 ≤ N := by rw [← hN]; exact Nat.le_ceil _
  have hN2 : (N : ℝ) ≤ 103 / 100 * n0 + 1 := by rw [← hN]; exact (Nat.ceil_lt_add_one (by linarith)).le
  have hN3 : 1 ≤ N := by
    have : (1 : ℝ) ≤ N := by linarith
    exact_mod_cast this
  refine ⟨N, hN3, hN2, fun hlt => ⟨?_, ?_⟩⟩
  · have l1 := (steadyRamp_law (a := a) hA (by omega) hN3 (by omega)).1
    have q := idealRampSteps_period (a := a) hA hT0 hN3
    rw [hI] at q
    have p1 := idealPeriod_pos a hA hN3
    generalize idealPeriod a A N = I at *
    have h1 : I ^ 2 * (103 / 100) ≤ T ^ 2 := by
      have : I ^ 2 * (103 / 100 * n0) ≤ n0 * T ^ 2 := by
        rw [← q]; exact mul_le_mul_of_nonneg_left hN1 (by positivity)
      have h2 : I ^ 2 * (103 / 100) * n0 ≤ T ^ 2 * n0 := by linarith
      exact le_of_mul_le_mul_right h2 (by linarith)
    have h2 : I ≤ 99 / 100 * T := by
      have : I ^ 2 ≤ (99 / 100 * (T : ℝ)) ^ 2 := by nlinarith
      exact le_of_sq_le_sq this (by positivity)
    have h3 : (steadyRamp a A N : ℝ) < T := by linarith
    exact_mod_cast h3
  · have hn' : 1 ≤ N + 2 * O := by omega
    have l2 := (steadyRamp_law (a := a) hA (by omega) hn' hlt).2
    have q := idealRampSteps_period (a := a) hA hT0 hn'
    rw [hI] at q
    have p1 := idealPeriod_pos a hA hn'
    have hle : ((N + 2 * O : Nat) : ℝ) ≤ 275 / 100 * n0 := by push_cast; linarith
    generalize idealPeriod a A (N + 2 * O) = I at *
    have h1 : (T : ℝ) ^ 2 ≤ I ^ 2 * (275 / 100) := by
      have : n0 * (T : ℝ) ^ 2 ≤ I ^ 2 * (275 / 100 * n0) := by
        rw [← q]; exact mul_le_mul_of_nonneg_left hle (by positivity)
      have h2 : (T : ℝ) ^ 2 * n0 ≤ I ^ 2 * (275 / 100) * n0 := by linarith
      exact le_of_mul_le_mul_right h2 (by linarith)
    have h2 : 6 / 10 * (T : ℝ) ≤ I := by
      have : (6 / 10 * (T : ℝ)) ^ 2 ≤ I ^ 2 := by nlinarith
      exact le_of_sq_le_sq this p1.le
    have h3 : (T : ℝ) ≤ 2 * steadyRamp a A (N + 2 * O) := by linarith
    exact_mod_cast h3

/-- New settings are taken over. -/
theorem settings_apply {a : ArchId} {T A : Nat} {g : RampGen} (hap : g.parameters.apply = true) (hs : Settings T A g.parameters) (qe : QueueEnd) :
    Settings T A (g.prepare a qe).ro.config.parameters := by
  have h1 : Settings T A (g.takeOver a).ro.config.parameters := by
    unfold RampGen.takeOver
    rw [if_pos hap]
    dsimp only
    rw [RampConfig.update_parameters]
    exact hs
  revert h1
  unfold RampGen.prepare
  generalize g.takeOver a = gt
  intro h1
  have k1 : (gt.startSteps a).ro = gt.ro := by
    unfold RampGen.startSteps
    dsimp only
    repeat' split
    all_goals rfl
  rw [← k1] at h1
  revert h1
  generalize gt.startSteps a = gs
  intro h1
  have t1 : ∀ b, SameSettings (gs.updateTarget b qe).ro.config.parameters gs.ro.config.parameters := by
    intro b
    unfold RampGen.updateTarget
    dsimp only
    repeat' split
    all_goals exact ⟨rfl, rfl, rfl, rfl, rfl, rfl⟩
  have c3 : ∀ gu : RampGen, SameSettings gu.clearRecalc.ro.config.parameters gu.ro.config.parameters := fun _ => ⟨rfl, rfl, rfl, rfl, rfl, rfl⟩
  exact (c3 _).settings ((t1 _).settings h1)

theorem steadyRamp_pos {a : ArchId} {A : Nat} (hA : 0 < A) (hA2 : A ≤ 1000000) {n : Nat} (h1 : 1 ≤ n) (h2 : n ≤ 4000001) :
    0 < Unbounded.ticks a A 0 n := by
  obtain ⟨c, hc, he⟩ := steadyRamp_configured a A
  rw [← C32_period_no_overflow hc hA (by omega) (by omega) (by omega) (by omega), he]
  have l2 := (steadyRamp_law (a := a) hA (by omega) h1 (by omega)).2
  have q1 := idealPeriod_sq a hA h1
  have p1 := idealPeriod_pos a hA h1
  obtain ⟨t1, -⟩ := ticksPerS_real a
  have hAr : (0 : ℝ) < A := by exact_mod_cast hA
  have hAr2 : (A : ℝ) ≤ 1000000 := by exact_mod_cast hA2
  have hnr : (1 : ℝ) ≤ n := by exact_mod_cast h1
  have hnr2 : (n : ℝ) ≤ 4000001 := by exact_mod_cast h2
  generalize idealPeriod a A n = I at *
  have h3 : (16000000 : ℝ) ^ 2 ≤ (a.ticksPerS : ℝ) ^ 2 := pow_le_pow_left₀ (by norm_num) t1 2
  have h4 : I ^ 2 * (2 * A * n) ≤ I ^ 2 * (2 * 1000000 * 4000001) := by
    apply mul_le_mul_of_nonneg_left _ (by positivity)
    have : (A : ℝ) * n ≤ 1000000 * 4000001 := mul_le_mul hAr2 hnr2 (by linarith) (by norm_num)
    linarith
  have h5 : (5 : ℝ) ≤ I := by
    have : (5 : ℝ) ^ 2 ≤ I ^ 2 := by linarith
    exact le_of_sq_le_sq this p1.le
  have h6 : (0 : ℝ) < steadyRamp a A n := by linarith
  exact_mod_cast h6

/-- The steps of the ramp to the set speed are computed with the new settings. -/
theorem update_steps {a : ArchId} {T A : Nat} {c : RampConfig} (h0 : 0 < T) (h1 : T < 4294967296) (hs : Settings T A c.parameters) :
    (c.update a).maxRampUpSteps = (rampConfig a A 0 T).maxRampUpSteps := by
  have h2 : Settings T A (((RampParams.init.setAcceleration A).setCubicAccelerationSteps 0).setSpeedInTicks T) := by
    refine ⟨?_, ?_, ?_, ?_⟩ <;> unfold RampParams.setSpeedInTicks
    · split
      · rfl
      · rename_i h
        simp at h
        exact absurd h.1 (by change ¬ false = true; decide)
    all_goals split <;> rfl
  have key : ∀ c : RampConfig, Settings T A c.parameters → (c.update a).maxRampUpSteps =
      (if u32 (pmflToU32 (i16 (i16 (a.pmfAccelFactor - pmflFrom A) - pmflSquare (pmflFrom T))) + u32 (0 + 2) / 4) = 0 then 1 else
        u32 (pmflToU32 (i16 (i16 (a.pmfAccelFactor - pmflFrom A) - pmflSquare (pmflFrom T))) + u32 (0 + 2) / 4)) := by
    intro c hs
    have hS := pmflFrom_range h0 h1
    unfold RampConfig.update RampConfig.updateCubic
    dsimp only
    have hl : ¬ c.parameters.sH > 0 := by rw [hs.linear]; decide
    rw [if_neg hl]
    unfold RampConfig.calculateRampSteps
    dsimp only
    have hT : pmflFrom T ≤ pmfMax := by unfold pmfMax; omega
    rw [hs.speed, hs.accel, hs.linear, if_pos hT]
  rw [key c hs]
  unfold rampConfig
  rw [key _ h2]

theorem steps_apply {a : ArchId} {T A : Nat} {g : RampGen} (h0 : 0 < T) (hT : T < 4294967296) (hap : g.parameters.apply = true) (hs : Settings T A g.parameters) (qe : QueueEnd) :
    (g.prepare a qe).ro.config.maxRampUpSteps = (rampConfig a A 0 T).maxRampUpSteps := by
  have h1 : (g.takeOver a).ro.config.maxRampUpSteps = (rampConfig a A 0 T).maxRampUpSteps := by
    unfold RampGen.takeOver
    rw [if_pos hap]
    dsimp only
    exact update_steps h0 hT hs
  revert h1
  unfold RampGen.prepare
  generalize g.takeOver a = gt
  intro h1
  have k1 : (gt.startSteps a).ro = gt.ro := by
    unfold RampGen.startSteps
    dsimp only
    repeat' split
    all_goals rfl
  rw [← k1] at h1
  revert h1
  generalize gt.startSteps a = gs
  intro h1
  have t1 : ∀ b, (gs.updateTarget b qe).ro.config.maxRampUpSteps = gs.ro.config.maxRampUpSteps := by
    intro b
    unfold RampGen.updateTarget
    dsimp only
    repeat' split
    all_goals rfl
  have c3 : ∀ gu : RampGen, gu.clearRecalc.ro.config.maxRampUpSteps = gu.ro.config.maxRampUpSteps := fun _ => rfl
  rw [c3, t1, h1]

/-- A move from standstill whose states `X` produce only acceptable commands arrives. -/
theorem fast_move (a : ArchId) (s : Stepper) (hh : RampHist a ApiCall.Typed s) (hst : Standing a a.minCmdTicks s)
    (speed : Nat) (accel : Int) (p : Int) (hs1 : s.getMaxSpeedInTicks ≤ speed) (hs2 : speed < a.minCmdTicks) (hs0 : 2 ≤ speed)
    (ha1 : 0 < accel) (ha2 : accel ≤ 1000000) (hp : i32 p = p)
    (hne : p ≠ s.getPositionAfterCommandsCompleted)
    (hshort : (shortestWay p s.getPositionAfterCommandsCompleted).natAbs ≤ 2000000)
    (X : Nat → Nat → Nat → Prop)
    (hX : ∀ (cfg : RampConfig) (rw : RampRw) (up : Bool) (R : Nat) (junk c : NextCommand), Settings speed accel.toNat cfg.parameters →
      cfg.maxRampUpSteps = (rampConfig a accel.toNat 0 speed).maxRampUpSteps → R ≠ 0 → X rw.currTicks rw.performedRampUpSteps R →
      Planner.plan a cfg rw up true R junk = some c → Planner.MoveOut a speed X R up c)
    (hend : ∀ P k, X P k 0 → k ≤ 1) (hstart : X ticksForStoppedMotor 0 (shortestWay p s.getPositionAfterCommandsCompleted).natAbs) :
    ∃ N, ∀ k cmds s', TaskHist a (configuredMove s speed accel 0 0 p) k cmds s' →
      (Powered s' → ∀ env junk, junk.rw.performedRampUpSteps < 4294967296 → (∃ r, s'.fillQueue a env junk = some r) ∧ ¬ AbortedRamp a env junk s') ∧
      (s'.isRampGeneratorActive = false → s'.getPositionAfterCommandsCompleted = p ∧
        stepsOn s.getPositionAfterCommandsCompleted (signedSum cmds) = p) ∧
      (N ≤ k → s'.isRampGeneratorActive = false) := by
  obtain ⟨hmin, hlimit, hL, hidle, hforce, hpin, hdelay, hen, hready, hx1, hx2, hx3, hpos⟩ := hst
  have hi : s.hw.q.IdxOK a := ⟨hx1, hx2, hx3⟩
  have hmc : a.minCmdTicks ≤ 4200 ∧ 32000 ≤ a.ticksPerS / 500 := by cases a <;> decide
  have hA : 0 < accel.toNat ∧ accel.toNat ≤ 1000000 := by omega
  have hq : s.getPositionAfterCommandsCompleted = s.hw.q.qend.pos := rfl
  rw [hq] at hpos hne hshort hstart ⊢
  -- the start
  obtain ⟨c1, c2⟩ := configuredMove_state a s hh hidle hforce speed accel 0 0 p hs1 (by omega) (by omega) ha1 (by omega) (by omega) (by omega) 0
    (configuredMove_stand a s hidle hforce speed accel 0 p hs1 (by omega) ha1) (by rw [hq]; omega)
    (Or.inl fun n hn1 hn2 => steadyRamp_pos hA.1 hA.2 (by omega) (by rw [hq] at hn2; omega))
  obtain ⟨s1, hs⟩ : ∃ s1, ((((s.setSpeedInTicks speed).1.setAcceleration accel).1.setLinearAcceleration 0).setJumpStart 0) = s1 := ⟨_, rfl⟩
  obtain ⟨e1, e2, e3, e4, e5, e6, e7, e8⟩ := configured_facts s speed accel 0 0 hs1 (by omega) ha1 s1 hs
  have hcm : configuredMove s speed accel 0 0 p = (s1.moveTo p).1 := by rw [← hs]; rfl
  have hhw : (configuredMove s speed accel 0 0 p).hw = s.hw := by rw [hcm]; exact e1
  have hcf : (configuredMove s speed accel 0 0 p).dirChangeDelayTicks = s.dirChangeDelayTicks ∧
      (configuredMove s speed accel 0 0 p).autoEnable = s.autoEnable ∧ (configuredMove s speed accel 0 0 p).onDelayTicks = s.onDelayTicks := by
    have hset : (s.setSpeedInTicks speed).1 = { s with rg := { s.rg with parameters := s.rg.parameters.setSpeedInTicks speed } } := by
      unfold Stepper.setSpeedInTicks
      rw [if_neg (Nat.not_lt.mpr hs1), if_neg (by unfold ticksForStoppedMotor; omega)]
    unfold configuredMove
    rw [hset]
    exact ⟨rfl, rfl, rfl⟩
  have hhist : RampHist a ApiCall.Typed (configuredMove s speed accel 0 0 p) := by
    have x1 := RampHist.call (.config (.speed speed)) hh (show speed < 4294967296 by omega)
    have x2 := RampHist.call (.config (.acceleration accel)) x1 trivial
    have x3 := RampHist.call (.config (.linear 0)) x2 trivial
    have x4 := RampHist.call (.config (.jump 0)) x3 (show (0 : Nat) < 4294967296 by decide)
    exact RampHist.call (.moveTo p) x4 trivial
  have hvalid : (configuredMove s speed accel 0 0 p).rg.parameters.checkValidConfig = MOVE_OK := by
    rw [hcm]
    unfold Stepper.moveTo RampGen.moveTo
    dsimp only
    rw [if_neg (by rw [e8]; decide)]
    exact e8
  have hidle1 : s1.rg.isActive = false := by unfold RampGen.isActive; rw [e3]; exact hidle
  have hok : (s1.rg.moveTo p s.hw.q.qend).2 = MOVE_OK := by
    unfold RampGen.moveTo
    dsimp only
    rw [if_neg (by rw [e8]; decide)]
  have hrg : (configuredMove s speed accel 0 0 p).rg = (s1.rg.moveTo p s.hw.q.qend).1 := by
    rw [hcm, ← e1]; rfl
  obtain ⟨f1, f2, f3, f4, f5, f6, f7, f8, f9, -⟩ := moveTo_prepared a s1.rg p s.hw.q.qend hidle1 (by rw [e2]; exact hforce) hok hne
  have hGp : (s1.rg.moveTo p s.hw.q.qend).1.parameters = s1.rg.parameters.setTargetPosition p := by
    unfold RampGen.moveTo; dsimp only; rw [if_neg (by rw [e8]; decide)]; rfl
  have hset : Settings speed accel.toNat ((s1.rg.moveTo p s.hw.q.qend).1.prepare a s.hw.q.qend).ro.config.parameters := by
    refine settings_apply (by rw [hGp]; rfl) ?_ _
    rw [hGp]
    exact ⟨e4, e5, e6, e7⟩
  have hstp : ((s1.rg.moveTo p s.hw.q.qend).1.prepare a s.hw.q.qend).ro.config.maxRampUpSteps = (rampConfig a accel.toNat 0 speed).maxRampUpSteps := by
    refine steps_apply (by omega) (by omega) (by rw [hGp]; rfl) ?_ _
    rw [hGp]
    exact ⟨e4, e5, e6, e7⟩
  rw [← hrg] at f1 f2 f3 f4 f5 f6 f7 f8 f9 hset hstp
  obtain ⟨h1, h2, h3, h4, h5⟩ := c2 hne
  have hpr := prepared a (configuredMove s speed accel 0 0 p).rg s.hw.q.qend
  have hk0 : ((configuredMove s speed accel 0 0 p).rg.prepare a s.hw.q.qend).rw.performedRampUpSteps = 0 := hpr.stand f3 hset.jump
  have hplan : (configuredMove s speed accel 0 0 p).rg.isActive = true →
      FastWay a speed accel.toNat (rampConfig a accel.toNat 0 speed).maxRampUpSteps X p (configuredMove s speed accel 0 0 p).rg (configuredMove s speed accel 0 0 p).hw.q.qend := by
    intro _
    rw [hhw]
    refine ⟨f2, hset, f7, f6, f5, hstp, ?_, hshort, fun h => absurd hk0 h, Or.inl ?_⟩
    · rw [hk0, hpr.ticks, f3]
      exact hstart
    · rw [f4, e3]; exact RampHist.idlePause hh hidle
  have hinv : PlanInv a speed (fun g qe => g.isActive = true → FastWay a speed accel.toNat (rampConfig a accel.toNat 0 speed).maxRampUpSteps X p g qe)
      (2 * ((shortestWay p s.hw.q.qend.pos).natAbs + 0) + 1) p (motionMeasure a ⟨(configuredMove s speed accel 0 0 p).rg, s.hw.q.qend⟩ + 1)
      (configuredMove s speed accel 0 0 p) := by
    refine ⟨⟨Or.inr ?_, by rw [hhw]; exact hpos⟩, hplan, hhist, ⟨by rw [hhw]; exact hs1, by rw [hcf.1]; exact hdelay, ?_, by unfold EnableDelayed; rw [hcf.1, hcf.2.1, hcf.2.2]; exact hen⟩,
      hvalid, by rw [hhw]; exact hready, by rw [hhw]; exact hi⟩
    · rw [hhw]
      exact ⟨h2, h1, by omega, fun h => absurd h (by rw [h3]; decide), h4, h5⟩
    · unfold Stepper.dirPin; rw [hhw]; exact hpin
  exact ⟨_, fun k cmds s' ht => hinv.arrives (FastWay.plans hs2 (by omega) hX hend) hp (by rw [hhw]) ht⟩

/-- C87: a long move with a set speed whose period is shorter than the minimum duration of a command: `speed < minCmdTicks` (on ESP32 periods of
less than 200 µs). The set speed allows at most 127 steps in 2 ms, the acceleration is at most 1000000 steps/s², and the distance is at least 2.1 times
the distance needed to reach the set speed, plus 14 ms at the set speed, and at most 2000000 steps. Then `moveTo(p)` from standstill arrives, and the
queue never rejects a command of the ramp generator, for whatever happens between the task cycles. -/
theorem C87_fast_long_move_partial (a : ArchId) (s : Stepper) (hh : RampHist a ApiCall.Typed s) (hst : Standing a a.minCmdTicks s)
    (speed : Nat) (accel : Int) (p : Int) (hs1 : s.getMaxSpeedInTicks ≤ speed) (hs2 : speed < a.minCmdTicks) (hs3 : a.ticksPerS / 500 < 128 * speed)
    (ha1 : 0 < accel) (ha2 : accel ≤ 1000000) (hp : i32 p = p)
    (hlong : 21 / 10 * idealRampSteps a accel.toNat speed + 7 * (a.ticksPerS / 500 / speed : Nat) ≤
      (shortestWay p s.getPositionAfterCommandsCompleted).natAbs)
    (hshort : (shortestWay p s.getPositionAfterCommandsCompleted).natAbs ≤ 2000000) :
    ∃ N, ∀ k cmds s', TaskHist a (configuredMove s speed accel 0 0 p) k cmds s' →
      (Powered s' → ∀ env junk, junk.rw.performedRampUpSteps < 4294967296 → (∃ r, s'.fillQueue a env junk = some r) ∧ ¬ AbortedRamp a env junk s') ∧
      (s'.isRampGeneratorActive = false → s'.getPositionAfterCommandsCompleted = p ∧
        stepsOn s.getPositionAfterCommandsCompleted (signedSum cmds) = p) ∧
      (N ≤ k → s'.isRampGeneratorActive = false) := by
  have hA : 0 < accel.toNat ∧ accel.toNat ≤ 1000000 := by omega
  -- the ramp
  have hf := steadyRamp_fast hA.1 hA.2 hs3 hs2
  have hnum := hf.nums
  obtain ⟨N, hN1, hN2, hN3⟩ := rampEnd hA.1 hA.2 hs3 hs2
  obtain ⟨O, hO⟩ : ∃ O, a.ticksPerS / 500 / speed = O := ⟨_, rfl⟩
  have ho3 := hnum.o3
  have ho2 := hnum.o2
  rw [hO] at hlong ho3 hN3 ho2
  have hW : 2 * N + 6 * O ≤ (shortestWay p s.getPositionAfterCommandsCompleted).natAbs := by
    have h1 : (10 : ℝ) ≤ O := by exact_mod_cast ho3
    have h0 : 0 ≤ idealRampSteps a accel.toNat speed := by unfold idealRampSteps; positivity
    have h2 : (2 * N + 6 * O : ℝ) ≤ (shortestWay p s.getPositionAfterCommandsCompleted).natAbs := by linarith
    exact_mod_cast h2
  obtain ⟨hN4, hhalf⟩ := hN3 (by omega)
  refine fast_move a s hh hst speed accel p hs1 hs2 (by have := hnum.t1; have := hnum.m1; omega) ha1 ha2 hp ?_ hshort (Planner.Long a speed (steadyRamp a accel.toNat) N)
    (fun cfg rw up R junk c g1 _ g3 g4 g5 => ?_) (fun P k h => h.finished hf) ?_
  · intro h
    have : (shortestWay p s.getPositionAfterCommandsCompleted).natAbs = 0 := by rw [h]; unfold shortestWay i32; omega
    omega
  · have hramp := g1.ramp (a := a)
    have hout := Planner.plan_long (N := N) g1.speed (by rw [hramp]; exact hf) (by rw [hramp]; omega) hN1 (by rw [hramp, hO]; exact hhalf) g3
      (by rw [hramp]; exact g4) g5
    rw [hramp] at hout
    exact hout
  · have hmc : a.minCmdTicks ≤ 4200 := by cases a <;> decide
    exact .acc (by unfold ticksForStoppedMotor; omega) (Or.inl ⟨rfl, rfl⟩) (by rw [hO]; omega) (by rw [hO]; omega) (by omega)

/-! ## Moves of any distance -/

/-- The ramp at `n` steps, over the reals. -/
theorem steadyRamp_real {a : ArchId} {A : Nat} (hA : 0 < A) (hA2 : A ≤ 500000) {n : Nat} (h1 : 1 ≤ n) (h2 : n ≤ 4000000) :
    ∃ I : ℝ, 0 < I ∧ (steadyRamp a A n : ℝ) ≤ 201 / 200 * I + 1 ∧ I ≤ 201 / 200 * (steadyRamp a A n + 1) ∧
      I ^ 2 * (2 * A * n) = (a.ticksPerS : ℝ) ^ 2 ∧ (a.ticksPerS : ℝ) ^ 2 ≤ 1000000 * (I ^ 2 * n) ∧ 7.9 ≤ I := by
  have l := steadyRamp_law (a := a) hA (by omega) h1 (by omega)
  have q1 := idealPeriod_sq a hA h1
  have p1 := idealPeriod_pos a hA h1
  obtain ⟨t1, -⟩ := ticksPerS_real a
  have hAr : (0 : ℝ) < A := by exact_mod_cast hA
  have hAr2 : (A : ℝ) ≤ 500000 := by exact_mod_cast hA2
  have hnr : (1 : ℝ) ≤ n := by exact_mod_cast h1
  have hnr2 : (n : ℝ) ≤ 4000000 := by exact_mod_cast h2
  refine ⟨idealPeriod a A n, p1, l.1, l.2, q1, ?_, ?_⟩
  · rw [← q1]
    generalize idealPeriod a A n = I at *
    have h4 : I ^ 2 * n * (2 * A) ≤ I ^ 2 * n * 1000000 := by
      apply mul_le_mul_of_nonneg_left _ (by positivity)
      linarith
    linarith
  · generalize idealPeriod a A n = I at *
    have h3 : (16000000 : ℝ) ^ 2 ≤ (a.ticksPerS : ℝ) ^ 2 := pow_le_pow_left₀ (by norm_num) t1 2
    have h4 : I ^ 2 * (2 * A * n) ≤ I ^ 2 * (2 * 500000 * 4000000) := by
      apply mul_le_mul_of_nonneg_left _ (by positivity)
      have : (A : ℝ) * n ≤ 500000 * 4000000 := mul_le_mul hAr2 hnr2 (by linarith) (by norm_num)
      linarith
    have : (7.9 : ℝ) ^ 2 ≤ I ^ 2 := by linarith
    exact le_of_sq_le_sq this p1.le

theorem minCmd_real (a : ArchId) : 5000 * (a.minCmdTicks : ℝ) ≤ a.ticksPerS ∧ ((a.ticksPerS / 500 : Nat) : ℝ) * 500 = a.ticksPerS := by
  cases a <;> (unfold ArchId.minCmdTicks ArchId.ticksPerS; norm_num)

/-- `n` steps of a fast period take long. -/
theorem steadyRamp_heavy {a : ArchId} {A : Nat} (hA : 0 < A) (hA2 : A ≤ 500000) {n c : Nat} (h1 : 1 ≤ n) (h2 : n ≤ 2000000) (hc1 : 1 ≤ c) (hc2 : c ≤ 2)
    (hf : steadyRamp a A n < c * a.minCmdTicks) : 12 * (a.ticksPerS / 500) < 5 * (c * (steadyRamp a A n * n)) := by
  obtain ⟨I, p1, -, l2, -, q2, -⟩ := steadyRamp_real (a := a) hA hA2 h1 (by omega)
  obtain ⟨t1, t2⟩ := ticksPerS_real a
  obtain ⟨m1, m2⟩ := minCmd_real a
  have hfr : (steadyRamp a A n : ℝ) + 1 ≤ c * a.minCmdTicks := by exact_mod_cast hf
  have hnr : (1 : ℝ) ≤ n := by exact_mod_cast h1
  have hnr2 : (n : ℝ) ≤ 2000000 := by exact_mod_cast h2
  have hcr : (1 : ℝ) ≤ c := by exact_mod_cast hc1
  have hcr2 : (c : ℝ) ≤ 2 := by exact_mod_cast hc2
  suffices h : (12 : ℝ) * ((a.ticksPerS / 500 : Nat) : ℝ) < 5 * (c * (steadyRamp a A n * n)) by exact_mod_cast h
  generalize ((a.ticksPerS / 500 : Nat) : ℝ) = H at *
  generalize (a.ticksPerS : ℝ) = t at *
  generalize (steadyRamp a A n : ℝ) = f at *
  generalize (a.minCmdTicks : ℝ) = m at *
  -- c I n is at least t / 201
  have hIc : I ≤ 201 / 200 * (c * m) := by linarith
  have h3 : t ≤ 201 * (c * (I * n)) := by
    have e1 : t * t ≤ 1000000 * ((I * n) * (201 / 200 * (c * m))) := by
      have : (I * n) * I ≤ (I * n) * (201 / 200 * (c * m)) := mul_le_mul_of_nonneg_left hIc (by positivity)
      have e : I ^ 2 * n = (I * n) * I := by ring
      rw [e] at q2
      have e' : t ^ 2 = t * t := by ring
      rw [e'] at q2
      linarith
    have e2 : (I * n) * (201 / 200 * (c * m)) * 5000 ≤ (I * n) * (201 / 200 * c) * t := by
      have : (I * n) * (201 / 200 * c) * (5000 * m) ≤ (I * n) * (201 / 200 * c) * t := mul_le_mul_of_nonneg_left m1 (by positivity)
      linarith
    have e3 : t * t ≤ (201 * (c * (I * n))) * t := by linarith
    exact le_of_mul_le_mul_right e3 (by linarith)
  have hfn : I * n ≤ 201 / 200 * (f * n + n) := by
    calc I * n ≤ 201 / 200 * (f + 1) * n := mul_le_mul_of_nonneg_right l2 (by linarith)
      _ = _ := by ring
  have hX0 : 0 < I * n := by positivity
  have hX : (256000000 : ℝ) * n ≤ (I * n) ^ 2 := by
    have h6 : (16000000 : ℝ) ^ 2 ≤ t ^ 2 := pow_le_pow_left₀ (by norm_num) t1 2
    have h7 : (256000000 : ℝ) ≤ I ^ 2 * n := by linarith
    calc (256000000 : ℝ) * n ≤ I ^ 2 * n * n := mul_le_mul_of_nonneg_right h7 (by linarith)
      _ = (I * n) ^ 2 := by ring
  generalize I * (n : ℝ) = X at *
  generalize hF : f * (n : ℝ) = F at *
  rcases le_or_gt (n : ℝ) 100 with h | h
  · -- short ramp
    have e1 : (c : ℝ) * X ≤ 201 / 200 * (c * F + c * n) := by
      calc (c : ℝ) * X ≤ c * (201 / 200 * (F + n)) := mul_le_mul_of_nonneg_left hfn (by linarith)
        _ = _ := by ring
    have e2 : (c : ℝ) * n ≤ 2 * 100 := mul_le_mul hcr2 h (by linarith) (by norm_num)
    linarith
  · have h8 : (11 : ℝ) * n ≤ X := by
      have : (11 * (n : ℝ)) ^ 2 ≤ X ^ 2 := by nlinarith
      exact le_of_sq_le_sq this hX0.le
    have h9 : (160000 : ℝ) ≤ X := by
      have : (160000 : ℝ) ^ 2 ≤ X ^ 2 := by nlinarith
      exact le_of_sq_le_sq this hX0.le
    have e1 : F ≤ c * F := by
      have : 0 ≤ F := by linarith
      nlinarith
    linarith

theorem steadyRamp_double {a : ArchId} {A : Nat} (hA : 0 < A) (hA2 : A ≤ 500000) {n j : Nat} (h1 : 1 ≤ n) (hj : j ≤ n) (h2 : n ≤ 2000000) :
    steadyRamp a A n ≤ 2 * steadyRamp a A (n + j) := by
  obtain ⟨I, p1, l1, -, q1, -, i1⟩ := steadyRamp_real (a := a) hA hA2 h1 (by omega)
  obtain ⟨J, p2, -, l2, q2, -, -⟩ := steadyRamp_real (a := a) (n := n + j) hA hA2 (by omega) (by omega)
  have hAr : (0 : ℝ) < A := by exact_mod_cast hA
  have hnr : (1 : ℝ) ≤ n := by exact_mod_cast h1
  have hjr : (j : ℝ) ≤ n := by exact_mod_cast hj
  have e : I ^ 2 ≤ 2 * J ^ 2 := by
    push_cast at q2
    have h3 : J ^ 2 * (2 * A * (n + j)) ≤ J ^ 2 * (2 * A * (2 * n)) := by
      apply mul_le_mul_of_nonneg_left _ (by positivity)
      apply mul_le_mul_of_nonneg_left _ (by positivity)
      linarith
    have h4 : I ^ 2 * (2 * A * n) ≤ (2 * J ^ 2) * (2 * A * n) := by linarith
    exact le_of_mul_le_mul_right h4 (by positivity)
  have h5 : 7 / 10 * I ≤ J := by
    have : (7 / 10 * I) ^ 2 ≤ J ^ 2 := by nlinarith
    exact le_of_sq_le_sq this p2.le
  have h6 : (steadyRamp a A n : ℝ) ≤ 2 * steadyRamp a A (n + j) := by linarith
  exact_mod_cast h6

theorem steadyRamp_sixth {a : ArchId} {A : Nat} (hA : 0 < A) (hA2 : A ≤ 500000) {n j : Nat} (h1 : 1 ≤ j) (hj : j ≤ n) (hn : n ≤ 6 * j) (h2 : n ≤ 2000000) :
    steadyRamp a A j ≤ 3 * steadyRamp a A n := by
  obtain ⟨J, p1, l1, -, q1, -, -⟩ := steadyRamp_real (a := a) hA hA2 h1 (by omega)
  obtain ⟨I, p2, -, l2, q2, -, i2⟩ := steadyRamp_real (a := a) (n := n) hA hA2 (by omega) (by omega)
  have hAr : (0 : ℝ) < A := by exact_mod_cast hA
  have hjr : (1 : ℝ) ≤ j := by exact_mod_cast h1
  have hnr : (n : ℝ) ≤ 6 * j := by exact_mod_cast hn
  have e : J ^ 2 ≤ 6 * I ^ 2 := by
    have h3 : I ^ 2 * (2 * A * n) ≤ I ^ 2 * (2 * A * (6 * j)) := by
      apply mul_le_mul_of_nonneg_left _ (by positivity)
      apply mul_le_mul_of_nonneg_left _ (by positivity)
      linarith
    have h4 : J ^ 2 * (2 * A * j) ≤ (6 * I ^ 2) * (2 * A * j) := by linarith
    exact le_of_mul_le_mul_right h4 (by positivity)
  have h5 : J ≤ 245 / 100 * I := by
    have : J ^ 2 ≤ (245 / 100 * I) ^ 2 := by nlinarith
    exact le_of_sq_le_sq this (by positivity)
  have h6 : (steadyRamp a A j : ℝ) ≤ 3 * steadyRamp a A n := by linarith
  exact_mod_cast h6

theorem rampConfig_settings (a : ArchId) (A T : Nat) : Settings T A (rampConfig a A 0 T).parameters := by
  unfold rampConfig
  rw [RampConfig.update_parameters]
  refine ⟨?_, ?_, ?_, ?_⟩ <;> unfold RampParams.setSpeedInTicks
  · split
    · rfl
    · rename_i h
      simp at h
      exact absurd h.1 (by change ¬ false = true; decide)
  all_goals split <;> rfl

/-- The ideal ramp to a fast set speed. -/
theorem idealRampSteps_fast {a : ArchId} {T A : Nat} (hA : 0 < A) (hA2 : A ≤ 500000) (hT1 : a.ticksPerS / 500 < 128 * T) (hT2 : T < a.minCmdTicks) :
    25 ≤ idealRampSteps a A T ∧ (a.ticksPerS : ℝ) ≤ 200 * (T * idealRampSteps a A T) ∧ idealRampSteps a A T ≤ 2050000000 := by
  have hT0 : 0 < T := by omega
  have hTr : (0 : ℝ) < T := by exact_mod_cast hT0
  have hAr : (1 : ℝ) ≤ A := by exact_mod_cast hA
  have hAr2 : (A : ℝ) ≤ 500000 := by exact_mod_cast hA2
  obtain ⟨t1, t2⟩ := ticksPerS_real a
  obtain ⟨m1, m2⟩ := minCmd_real a
  have hTm : (T : ℝ) ≤ a.minCmdTicks := by exact_mod_cast hT2.le
  have hTl : ((a.ticksPerS / 500 : Nat) : ℝ) ≤ 128 * T := by exact_mod_cast hT1.le
  have hdef : idealRampSteps a A T * (T ^ 2 * (2 * A)) = (a.ticksPerS : ℝ) ^ 2 := by
    unfold idealRampSteps
    field_simp
  generalize idealRampSteps a A T = n0 at *
  generalize (a.ticksPerS : ℝ) = t at *
  generalize (a.minCmdTicks : ℝ) = m at *
  have hn0 : 0 < n0 := by
    by_contra h
    have h1 : n0 * (T ^ 2 * (2 * A)) ≤ 0 := mul_nonpos_of_nonpos_of_nonneg (not_lt.mp h) (by positivity)
    have h2 : 0 < t ^ 2 := by positivity
    linarith
  have h5 : t * t ≤ (200 * (T * n0)) * t := by
    have e1 : n0 * (T ^ 2 * (2 * A)) ≤ n0 * (T ^ 2 * 1000000) := by
      apply mul_le_mul_of_nonneg_left _ hn0.le
      apply mul_le_mul_of_nonneg_left _ (by positivity)
      linarith
    have e2 : (200 * (T * n0)) * (5000 * T) ≤ (200 * (T * n0)) * t := mul_le_mul_of_nonneg_left (by linarith) (by positivity)
    have e3 : t ^ 2 = t * t := by ring
    rw [e3] at hdef
    nlinarith
  have h6 : t ≤ 200 * (T * n0) := le_of_mul_le_mul_right h5 (by linarith)
  refine ⟨?_, h6, ?_⟩
  · have : (25 : ℝ) * T ≤ n0 * T := by linarith
    exact le_of_mul_le_mul_right this hTr
  · have e1 : t ≤ 64000 * T := by linarith
    have e2 : t ^ 2 ≤ (64000 * T) ^ 2 := pow_le_pow_left₀ (by linarith) e1 2
    have e3 : n0 * (T ^ 2 * 2) ≤ n0 * (T ^ 2 * (2 * A)) := by
      apply mul_le_mul_of_nonneg_left _ hn0.le
      apply mul_le_mul_of_nonneg_left _ (by positivity)
      linarith
    have e4 : n0 * (T ^ 2 * 2) ≤ 2050000000 * (T ^ 2 * 2) := by nlinarith
    exact le_of_mul_le_mul_right e4 (by positivity)

/-- The ramp is as the planner needs it. -/
theorem steadyRamp_tri {a : ArchId} {T A : Nat} (hA : 0 < A) (hA2 : A ≤ 500000) (hT1 : a.ticksPerS / 500 < 128 * T) (hT2 : T < a.minCmdTicks)
    (hclear : ∀ p, 1 ≤ p → T * p < a.minCmdTicks → steadyRamp a A ((rampConfig a A 0 T).maxRampUpSteps - p) * p < a.minCmdTicks) :
    ∃ N, Planner.TriRamp a T (steadyRamp a A) (rampConfig a A 0 T).maxRampUpSteps N := by
  have hf := steadyRamp_fast hA (by omega) hT1 hT2
  have hnum := hf.nums
  obtain ⟨n1, n2, n3⟩ := idealRampSteps_fast hA hA2 hT1 hT2
  obtain ⟨N, hN1, hN2, hN3⟩ := rampEnd hA (by omega) hT1 hT2
  have hfit : N + 2 * (a.ticksPerS / 500 / T) < 4294967296 := by
    have h1 : (N : ℝ) ≤ 2111500001 := by linarith
    have h2 : N ≤ 2111500001 := by exact_mod_cast h1
    have := hnum.o2
    omega
  obtain ⟨hN4, hN5⟩ := hN3 hfit
  refine ⟨N, hf, fun n h1 h2 h3 => ?_, fun n h1 h2 h3 => ?_, fun n j h1 h2 h3 => steadyRamp_double hA hA2 h1 h2 h3,
    fun n j h1 h2 h3 h4 => steadyRamp_sixth hA hA2 h1 h2 h3 h4, ?_, hN4, hN5, hN1, hfit, hclear⟩
  · have := steadyRamp_heavy (a := a) hA hA2 (c := 2) h1 h2 (by omega) (by omega) h3
    omega
  · have := steadyRamp_heavy (a := a) hA hA2 (c := 1) h1 h2 (by omega) (by omega) (by omega)
    omega
  · have hset := rampConfig_settings a A T
    have hmc : a.minCmdTicks ≤ 4200 := by cases a <;> decide
    have hlaw := C61_planned_ramp_steps (rampConfig_configured a A 0 T) hA (by omega) (by rw [hset.speed]; exact hf.pos) (by rw [hset.speed]; omega)
      (by rw [hset.speed]; exact lt_of_le_of_lt n3 (by norm_num))
    rw [hset.speed] at hlaw
    obtain ⟨-, -, h3⟩ := hlaw
    obtain ⟨m1, m2⟩ := minCmd_real a
    obtain ⟨t1, t2⟩ := ticksPerS_real a
    have hTm : (T : ℝ) ≤ a.minCmdTicks := by exact_mod_cast hT2.le
    have hT0 : (0 : ℝ) < T := by exact_mod_cast hf.pos
    suffices h : (2 : ℝ) * ((a.ticksPerS / 500 : Nat) : ℝ) < T * (rampConfig a A 0 T).maxRampUpSteps by exact_mod_cast h
    generalize ((rampConfig a A 0 T).maxRampUpSteps : ℝ) = M at *
    have h4 : T * idealRampSteps a A T ≤ 101 / 100 * (T * M + T) := by
      calc T * idealRampSteps a A T ≤ T * (101 / 100 * (M + 1)) := mul_le_mul_of_nonneg_left h3 hT0.le
        _ = _ := by ring
    linarith

/-- C87: a move of any distance up to 2000000 steps with a set speed whose period is shorter than the minimum duration of a command:
`speed < minCmdTicks` (on ESP32 periods of less than 200 µs). The set speed allows at most 127 steps in 2 ms, and the acceleration is at most 500000
steps/s². The guard `hclear` excludes a coincidence: a number of steps `q` which at the set speed are too short for a command, but at the (slower)
speed which the ramp has `q` steps before its end are long enough; here `c.maxRampUpSteps` is the length of the ramp and `c.calculateTicks` the period
on the ramp, as the library computes them for this speed and acceleration. Then `moveTo(p)` from standstill arrives, and the queue never rejects a
command of the ramp generator, for whatever happens between the task cycles. -/
theorem C87_fast_move_partial (a : ArchId) (s : Stepper) (hh : RampHist a ApiCall.Typed s) (hst : Standing a a.minCmdTicks s)
    (speed : Nat) (accel : Int) (p : Int) (hs1 : s.getMaxSpeedInTicks ≤ speed) (hs2 : speed < a.minCmdTicks) (hs3 : a.ticksPerS / 500 < 128 * speed)
    (ha1 : 0 < accel) (ha2 : accel ≤ 500000) (hp : i32 p = p)
    (c : RampConfig) (hc : c = rampConfig a accel.toNat 0 speed)
    (hclear : ∀ q, 1 ≤ q → speed * q < a.minCmdTicks → c.calculateTicks a (c.maxRampUpSteps - q) * q < a.minCmdTicks)
    (hne : p ≠ s.getPositionAfterCommandsCompleted)
    (hshort : (shortestWay p s.getPositionAfterCommandsCompleted).natAbs ≤ 2000000) :
    ∃ N, ∀ k cmds s', TaskHist a (configuredMove s speed accel 0 0 p) k cmds s' →
      (Powered s' → ∀ env junk, junk.rw.performedRampUpSteps < 4294967296 → (∃ r, s'.fillQueue a env junk = some r) ∧ ¬ AbortedRamp a env junk s') ∧
      (s'.isRampGeneratorActive = false → s'.getPositionAfterCommandsCompleted = p ∧
        stepsOn s.getPositionAfterCommandsCompleted (signedSum cmds) = p) ∧
      (N ≤ k → s'.isRampGeneratorActive = false) := by
  have hA : 0 < accel.toNat ∧ accel.toNat ≤ 500000 := by omega
  subst hc
  rw [(rampConfig_settings a accel.toNat speed).ramp] at hclear
  obtain ⟨N, hf⟩ := steadyRamp_tri hA.1 hA.2 hs3 hs2 hclear
  have hnum := hf.base.nums
  refine fast_move a s hh hst speed accel p hs1 hs2 (by have := hnum.t1; have := hnum.m1; omega) ha1 (by omega) hp hne hshort
    (Planner.Tri a speed (steadyRamp a accel.toNat) N)
    (fun cfg rw up R junk c g1 g2 g3 g4 g5 => ?_) (fun P k h => h.finished) ?_
  · have hramp := g1.ramp (a := a)
    have hout := Planner.plan_tri (N := N) g1.speed (by rw [hramp]; exact hf) g2 g3 (by rw [hramp]; exact g4) g5
    rw [hramp] at hout
    exact hout
  · have hmc : a.minCmdTicks ≤ 4200 := by cases a <;> decide
    refine .acc (by unfold ticksForStoppedMotor; omega) (Or.inl ⟨rfl, rfl⟩) ?_ (by omega)
    have hpos := hst.pos
    have h0 : shortestWay p s.getPositionAfterCommandsCompleted ≠ 0 := by
      unfold shortestWay
      unfold i32 at hp hpos ⊢
      omega
    omega

/-- Near the end of the ramp the period is within 6 % of the set one. -/
theorem steadyRamp_clear {a : ArchId} {T A : Nat} (hA : 0 < A) (hA2 : A ≤ 500000) (hT1 : a.ticksPerS / 500 < 128 * T) (hT2 : T < a.minCmdTicks)
    {q : Nat} (hq : 1 ≤ q) (hq2 : T * q < a.minCmdTicks) :
    100 * steadyRamp a A ((rampConfig a A 0 T).maxRampUpSteps - q) < 106 * T := by
  obtain ⟨n1, n2, n3⟩ := idealRampSteps_fast hA hA2 hT1 hT2
  have hT0 : 0 < T := by omega
  have hset := rampConfig_settings a A T
  have hmc : a.minCmdTicks ≤ 4200 := by cases a <;> decide
  have hlaw := C61_planned_ramp_steps (rampConfig_configured a A 0 T) hA (by omega) (by rw [hset.speed]; exact hT0) (by rw [hset.speed]; omega)
    (by rw [hset.speed]; exact lt_of_le_of_lt n3 (by norm_num))
  rw [hset.speed] at hlaw
  obtain ⟨h1, h2, h3⟩ := hlaw
  obtain ⟨m1, m2⟩ := minCmd_real a
  have hTr : (0 : ℝ) < T := by exact_mod_cast hT0
  have hT250 : (250 : ℝ) ≤ T := by
    have h : 32000 ≤ a.ticksPerS / 500 := by cases a <;> decide
    have : 250 ≤ T := by omega
    exact_mod_cast this
  have hAr : (0 : ℝ) < A := by exact_mod_cast hA
  -- few steps fit into the shortest command
  have hqr : 25 * (q : ℝ) ≤ idealRampSteps a A T := by
    have e1 : (T : ℝ) * q ≤ a.minCmdTicks := by exact_mod_cast hq2.le
    have e2 : (25 * (q : ℝ)) * T ≤ idealRampSteps a A T * T := by linarith
    exact le_of_mul_le_mul_right e2 hTr
  obtain ⟨M, hM⟩ : ∃ M, (rampConfig a A 0 T).maxRampUpSteps = M := ⟨_, rfl⟩
  rw [hM] at h1 h2 h3 ⊢
  have hMq : q + 1 ≤ M := by
    have : (q + 1 : ℝ) ≤ M := by linarith
    exact_mod_cast this
  have hM2 : M < 4294967296 := by
    have : (M : ℝ) < 4294967296 := by linarith
    exact_mod_cast this
  obtain ⟨n, hn⟩ : ∃ n, M - q = n := ⟨_, rfl⟩
  have hnr : (M : ℝ) = n + q := by
    have : M = n + q := by omega
    exact_mod_cast this
  have hn1 : 1 ≤ n := by omega
  have hlow : 91 / 100 * idealRampSteps a A T ≤ n := by linarith
  rw [hn]
  have l := (steadyRamp_law (a := a) hA (by omega) hn1 (by omega)).1
  have q1 := idealPeriod_sq a hA hn1
  have p1 := idealPeriod_pos a hA hn1
  have hdef : idealRampSteps a A T * (T ^ 2 * (2 * A)) = (a.ticksPerS : ℝ) ^ 2 := by
    unfold idealRampSteps
    field_simp
  generalize idealPeriod a A n = I at *
  generalize idealRampSteps a A T = n0 at *
  have hn0 : 0 < n0 := by linarith
  have e3 : I ^ 2 * (91 / 100) ≤ T ^ 2 := by
    have e4 : I ^ 2 * (2 * A * (91 / 100 * n0)) ≤ I ^ 2 * (2 * A * n) := by
      apply mul_le_mul_of_nonneg_left _ (by positivity)
      apply mul_le_mul_of_nonneg_left _ (by positivity)
      exact hlow
    have e5 : I ^ 2 * (91 / 100) * (n0 * (2 * A)) ≤ T ^ 2 * (n0 * (2 * A)) := by linarith
    exact le_of_mul_le_mul_right e5 (by positivity)
  have e6 : I ≤ 10484 / 10000 * T := by
    have : I ^ 2 ≤ (10484 / 10000 * T) ^ 2 := by nlinarith
    exact le_of_sq_le_sq this (by positivity)
  have e7 : (100 : ℝ) * steadyRamp a A n < 106 * T := by linarith
  exact_mod_cast e7

/-- C87 with a guard on the set speed alone: no number of steps is up to 6 % too short for a command at the set speed. -/
theorem C87_fast_move_clear_partial (a : ArchId) (s : Stepper) (hh : RampHist a ApiCall.Typed s) (hst : Standing a a.minCmdTicks s)
    (speed : Nat) (accel : Int) (p : Int) (hs1 : s.getMaxSpeedInTicks ≤ speed) (hs2 : speed < a.minCmdTicks) (hs3 : a.ticksPerS / 500 < 128 * speed)
    (ha1 : 0 < accel) (ha2 : accel ≤ 500000) (hp : i32 p = p)
    (hclear : ∀ q, speed * q < a.minCmdTicks → 106 * (speed * q) ≤ 100 * a.minCmdTicks)
    (hne : p ≠ s.getPositionAfterCommandsCompleted)
    (hshort : (shortestWay p s.getPositionAfterCommandsCompleted).natAbs ≤ 2000000) :
    ∃ N, ∀ k cmds s', TaskHist a (configuredMove s speed accel 0 0 p) k cmds s' →
      (Powered s' → ∀ env junk, junk.rw.performedRampUpSteps < 4294967296 → (∃ r, s'.fillQueue a env junk = some r) ∧ ¬ AbortedRamp a env junk s') ∧
      (s'.isRampGeneratorActive = false → s'.getPositionAfterCommandsCompleted = p ∧
        stepsOn s.getPositionAfterCommandsCompleted (signedSum cmds) = p) ∧
      (N ≤ k → s'.isRampGeneratorActive = false) := by
  refine C87_fast_move_partial a s hh hst speed accel p hs1 hs2 hs3 ha1 ha2 hp _ rfl (fun q h1 h2 => ?_) hne hshort
  rw [(rampConfig_settings a accel.toNat speed).ramp]
  have h3 := steadyRamp_clear (A := accel.toNat) (by omega) (by omega) hs3 hs2 h1 h2
  have h4 := hclear q h2
  generalize steadyRamp a accel.toNat _ = F at *
  have h5 : 100 * F * q < 106 * speed * q := Nat.mul_lt_mul_of_pos_right h3 h1
  have h6 : 100 * F * q = 100 * (F * q) := Nat.mul_assoc _ _ _
  have h7 : 106 * speed * q = 106 * (speed * q) := Nat.mul_assoc _ _ _
  omega

/-- A stepper as the engine connects it: `standing0` with the speed limit for one stepper. -/
def fastStanding : Stepper := standing0.adjustSpeedToStepperCount .esp32 1

theorem fastStanding_ok : Standing .esp32 ArchId.esp32.minCmdTicks fastStanding := by
  refine ⟨by decide, by decide, by decide, rfl, rfl, by decide, Or.inl rfl, fun h => absurd h.1 (by decide), by decide, by decide, by decide, by decide, by decide⟩

/-- The hypotheses are met: a move by 20000 steps with a period of 100 µs and 10000 steps/s². -/
theorem fastStanding_move : ∃ N, ∀ k cmds s', TaskHist .esp32 (configuredMove fastStanding 1600 10000 0 0 20000) k cmds s' →
    (Powered s' → ∀ env junk, junk.rw.performedRampUpSteps < 4294967296 → (∃ r, s'.fillQueue .esp32 env junk = some r) ∧ ¬ AbortedRamp .esp32 env junk s') ∧
    (s'.isRampGeneratorActive = false → s'.getPositionAfterCommandsCompleted = 20000 ∧
      stepsOn fastStanding.getPositionAfterCommandsCompleted (signedSum cmds) = 20000) ∧ (N ≤ k → s'.isRampGeneratorActive = false) := by
  have hw : (shortestWay 20000 fastStanding.getPositionAfterCommandsCompleted).natAbs = 20000 := by decide
  refine C87_fast_long_move_partial .esp32 fastStanding (RampHist.start _ rfl) fastStanding_ok 1600 10000 20000 (by decide) (by decide)
    (by decide) (by decide) (by decide) (by decide) ?_ (by decide)
  rw [hw]
  rw [show (10000 : Int).toNat = 10000 from rfl]
  unfold idealRampSteps ArchId.ticksPerS
  norm_num

/-- The move of this example does arrive: there is a schedule with enough unhindered task cycles. -/
theorem fastStanding_arrives : ∃ k cmds s', TaskHist .esp32 (configuredMove fastStanding 1600 10000 0 0 20000) k cmds s' ∧
    s'.isRampGeneratorActive = false ∧ s'.getPositionAfterCommandsCompleted = 20000 := by
  obtain ⟨N, hN⟩ := fastStanding_move
  obtain ⟨cmds, s', h⟩ := TaskHist_all (fun k cmds s' h hpow env junk hj => ((hN k cmds s' h).1 hpow env junk hj).1) (by unfold Queue.IdxOK; decide) N
  obtain ⟨-, h2, h3⟩ := hN N cmds s' h
  exact ⟨N, cmds, s', h, h3 (Nat.le_refl _), (h2 (h3 (Nat.le_refl _))).1⟩

/-- The hypotheses of the theorems for any distance are met: a move by 300 steps with a period of 100 µs and 100000 steps/s², which has to brake long
before it reaches the set speed. -/
theorem fastStanding_short : ∃ N, ∀ k cmds s', TaskHist .esp32 (configuredMove fastStanding 1600 100000 0 0 300) k cmds s' →
    (Powered s' → ∀ env junk, junk.rw.performedRampUpSteps < 4294967296 → (∃ r, s'.fillQueue .esp32 env junk = some r) ∧ ¬ AbortedRamp .esp32 env junk s') ∧
    (s'.isRampGeneratorActive = false → s'.getPositionAfterCommandsCompleted = 300 ∧
      stepsOn fastStanding.getPositionAfterCommandsCompleted (signedSum cmds) = 300) ∧ (N ≤ k → s'.isRampGeneratorActive = false) := by
  refine C87_fast_move_clear_partial .esp32 fastStanding (RampHist.start _ rfl) fastStanding_ok 1600 100000 300 (by decide) (by decide)
    (by decide) (by decide) (by decide) (by decide) (fun q h => ?_) (by decide) (by decide)
  rw [show ArchId.esp32.minCmdTicks = 3200 from rfl] at h ⊢
  omega

theorem fastStanding_short_arrives : ∃ k cmds s', TaskHist .esp32 (configuredMove fastStanding 1600 100000 0 0 300) k cmds s' ∧
    s'.isRampGeneratorActive = false ∧ s'.getPositionAfterCommandsCompleted = 300 := by
  obtain ⟨N, hN⟩ := fastStanding_short
  obtain ⟨cmds, s', h⟩ := TaskHist_all (fun k cmds s' h hpow env junk hj => ((hN k cmds s' h).1 hpow env junk hj).1) (by unfold Queue.IdxOK; decide) N
  obtain ⟨-, h2, h3⟩ := hN N cmds s' h
  exact ⟨N, cmds, s', h, h3 (Nat.le_refl _), (h2 (h3 (Nat.le_refl _))).1⟩

/-- The guard of `C87_fast_move_partial` holds where that of `C87_fast_move_clear_partial` fails: a period of 3100 ticks with 2000 steps/s². -/
example : ∃ N, ∀ k cmds s', TaskHist .esp32 (configuredMove fastStanding 3100 2000 0 0 500) k cmds s' → N ≤ k → s'.isRampGeneratorActive = false := by
  obtain ⟨N, h⟩ := C87_fast_move_partial .esp32 fastStanding (RampHist.start _ rfl) fastStanding_ok 3100 2000 500 (by decide) (by decide)
    (by decide) (by decide) (by decide) (by decide) _ rfl (fun q h1 h2 => by
      have hq : q = 1 := by rw [show ArchId.esp32.minCmdTicks = 3200 from rfl] at h2; omega
      subst hq
      decide +kernel) (by decide) (by decide)
  exact ⟨N, fun k cmds s' ht => (h k cmds s' ht).2.2⟩

/-- The queue runs empty, then the task comes; `n` times. -/
def drainFill (a : ArchId) : Nat → Stepper → Option Stepper
  | 0, s => some s
  | n + 1, s =>
    match ({ s with hw := { s.hw with q := { s.hw.q with readIdx := s.hw.q.nextWriteIdx } } } : Stepper).fillQueue a calmEnv junk0 with
    | none => none
    | some (s', _) => drainFill a n s'

theorem drainFill_hist {a : ArchId} {s0 : Stepper} : ∀ n {k cmds s s'}, TaskHist a s0 k cmds s → s.hw.q.IdxOK a → s.autoEnable = false → drainFill a n s = some s' →
    ∃ k' cmds', TaskHist a s0 k' cmds' s'
  | 0, k, cmds, s, s', h, _, _, hd => by cases hd; exact ⟨k, cmds, h⟩
  | n + 1, k, cmds, s, s', h, hi, hoff, hd => by
    unfold drainFill at hd
    split at hd
    · cases hd
    · rename_i s2 acc hf
      have h2 : TaskHist a s0 k cmds { s with hw := { s.hw with q := { s.hw.q with readIdx := s.hw.q.nextWriteIdx } } } :=
        .elapse h ⟨rfl, rfl, rfl, rfl, rfl, rfl, rfl, rfl, hi.2.1, hi.2.1, by
          change subU8 s.hw.q.nextWriteIdx s.hw.q.nextWriteIdx ≤ _
          unfold subU8; omega⟩
      refine drainFill_hist n (.task calmEnv junk0 acc h2 (by decide) (.undelayed (Or.inl hoff)) hf) (fillQueue_idx ?_ hf)
        ((Stepper.fillQueue_sameConfig a _ _ _ _ _ hf).auto.trans hoff) hd
      refine ⟨hi.2.1, hi.2.1, ?_⟩
      change subU8 s.hw.q.nextWriteIdx s.hw.q.nextWriteIdx ≤ _
      unfold subU8; omega

/-- Without the lower bound of the distance this is false: with `setSpeedInUs(199)` (3184 ticks), `setAcceleration(100000)` and `moveTo(257)` on ESP32
the motor stops at position 130, and the ramp generator is idle. Near the turning point the planner emits a command of one step, with the set speed as
period; this is shorter than the minimum duration of a command, the queue rejects it, and the move is aborted. -/
theorem C87_fast_move_refuted : ∃ k cmds s', TaskHist .esp32 (configuredMove fastStanding 3184 100000 0 0 257) k cmds s' ∧
    s'.isRampGeneratorActive = false ∧ s'.getPositionAfterCommandsCompleted = 130 := by
  have h : ∃ s', drainFill .esp32 30 (configuredMove fastStanding 3184 100000 0 0 257) = some s' ∧
      s'.isRampGeneratorActive = false ∧ s'.getPositionAfterCommandsCompleted = 130 := by
    have : ((drainFill .esp32 30 (configuredMove fastStanding 3184 100000 0 0 257)).any
      fun s' => s'.isRampGeneratorActive = false ∧ s'.getPositionAfterCommandsCompleted = 130) = true := by decide +kernel
    obtain ⟨x, h1, h2⟩ := exists_of_any this
    exact ⟨x, h1, h2⟩
  obtain ⟨s', h1, h2, h3⟩ := h
  obtain ⟨k, cmds, ht⟩ := drainFill_hist 30 .start (by unfold Queue.IdxOK; decide) (configuredMove_auto _ _ _ _ _ _) h1
  exact ⟨k, cmds, s', ht, h2, h3⟩

end FAS
