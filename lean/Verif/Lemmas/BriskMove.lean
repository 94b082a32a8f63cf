import Verif.Props.Brake
import Verif.Lemmas.Brisk

/-!
# Short commands of a move: the services
-/

namespace FAS

open Spec

/-- The ramp for accelerations up to 700000 steps/s². -/
theorem steadyRamp_quick {a : ArchId} (hav : a.isAvr = true) {A : Nat} (hA : 0 < A) (hA2 : A ≤ 700000) : Planner.QuickRamp (steadyRamp a A) := by
  have hA3 : A < 2 ^ 31 := by omega
  have htp : (a.ticksPerS : ℝ) = 16000000 := by cases a <;> first | (exact absurd hav (by decide)) | norm_num [ArchId.ticksPerS]
  have hAr : (0 : ℝ) < A := by exact_mod_cast hA
  have hAr2 : (A : ℝ) ≤ 700000 := by exact_mod_cast hA2
  -- the ramp from below
  have low : ∀ n v : Nat, 1 ≤ n → n < 4294967296 → (1.006 * ((v : ℝ) + 1)) ^ 2 * (2 * 700000 * n) ≤ 16000000 ^ 2 → v ≤ steadyRamp a A n := by
    intro n v h1 h2 h3
    have l := (steadyRamp_law (a := a) hA hA3 h1 h2).2
    have q := idealPeriod_sq a (n := n) hA h1
    have p := idealPeriod_pos a (steps := n) hA h1
    rw [htp] at q
    generalize idealPeriod a A n = I at *
    have hn : (0 : ℝ) < n := by exact_mod_cast h1
    have h4 : (1.006 * ((v : ℝ) + 1)) ^ 2 * (2 * A * n) ≤ I ^ 2 * (2 * A * n) := by
      rw [q]
      refine le_trans (mul_le_mul_of_nonneg_left ?_ (by positivity)) h3
      nlinarith
    have h5 : (1.006 * ((v : ℝ) + 1)) ^ 2 ≤ I ^ 2 := le_of_mul_le_mul_right h4 (by positivity)
    have h6 : 1.006 * ((v : ℝ) + 1) ≤ I := le_of_sq_le_sq h5 p.le
    have hv : (0 : ℝ) ≤ v := Nat.cast_nonneg v
    have h7 : (v : ℝ) ≤ steadyRamp a A n := by linarith
    exact_mod_cast h7
  refine ⟨steadyRamp_anti hA hA3, fun n h1 h2 => ?_, fun k h1 h2 => ?_, ?_, ?_, fun n h1 h2 => ?_⟩
  · have l1 := (steadyRamp_law (a := a) hA hA3 h1 (by omega)).1
    have l2 := (steadyRamp_law (a := a) hA hA3 (n := 2 * n) (by omega) h2).2
    have q1 := idealPeriod_sq a hA h1
    have q2 := idealPeriod_sq a (n := 2 * n) hA (by omega)
    have p1 := idealPeriod_pos a hA h1
    have p2 := idealPeriod_pos a (steps := 2 * n) hA (by omega)
    push_cast at q2
    generalize idealPeriod a A n = I at *
    generalize idealPeriod a A (2 * n) = J at *
    have hn : (0 : ℝ) < n := by exact_mod_cast h1
    have h3 : I ^ 2 = 2 * J ^ 2 := by
      have : I ^ 2 * (2 * A * n) = (2 * J ^ 2) * (2 * A * n) := by rw [q1, ← q2]; ring
      exact mul_right_cancel₀ (by positivity) this
    have h4 : I ≤ 1.4143 * J := by
      apply le_of_sq_le_sq _ (by positivity)
      rw [mul_pow, h3]; nlinarith [sq_nonneg J]
    have h5 : (7 : ℝ) * steadyRamp a A n ≤ 10 * steadyRamp a A (2 * n) + 17 := by
      have : (0 : ℝ) ≤ steadyRamp a A (2 * n) := Nat.cast_nonneg _
      nlinarith
    exact_mod_cast h5
  · have h3 := low (2 * k) ((11000 + k - 1) / k) (by omega) (by omega) ?_
    · have h4 : 11000 ≤ k * ((11000 + k - 1) / k) := by
        have := Nat.div_add_mod (11000 + k - 1) k
        have := Nat.mod_lt (11000 + k - 1) (show 0 < k by omega)
        omega
      exact le_trans h4 (Nat.mul_le_mul_left k h3)
    · interval_cases k <;> norm_num
  · exact low 1 11000 (by omega) (by omega) (by norm_num)
  · exact low 100 1281 (by omega) (by omega) (by norm_num)
  · obtain ⟨c, hc, he⟩ := steadyRamp_configured a A
    have := ticks_lively_plain hc hA hA3 n h1 h2
    rw [he] at this; omega


theorem prepare_congr (a : ArchId) (g : RampGen) {qe qe' : QueueEnd} (h1 : qe'.pos = qe.pos) (h2 : qe'.countUp = qe.countUp) : g.prepare a qe' = g.prepare a qe := by
  obtain ⟨p, c, d⟩ := qe
  obtain ⟨p', c', d'⟩ := qe'
  dsimp only at h1 h2
  subst h1 h2
  rfl

theorem Approach.congr {a : ArchId} {T A H : Nat} {p W0 : Int} {g : RampGen} {qe qe' : QueueEnd} (h : Approach a T A H p W0 ⟨g, qe⟩)
    (h1 : qe'.pos = qe.pos) (h2 : qe'.countUp = qe.countUp) : Approach a T A H p W0 ⟨g, qe'⟩ := by
  have hm := h.move
  have hw := h.way
  dsimp only at hm hw
  refine ⟨h.range, h.steady, ?_, ?_⟩ <;> dsimp only <;> rw [prepare_congr a g h1 h2]
  · exact hm
  · rw [h1, h2]; exact hw

/-- The braking distance at the next service. -/
theorem SteadyInv.brake {a : ArchId} {T A H : Nat} {g : RampGen} (hi : SteadyInv a T A H g) (ha : g.isActive = true) (qe : QueueEnd) :
    (g.prepare a qe).stepsToStop = if g.rw.currTicks = ticksForStoppedMotor then 0 else g.rw.performedRampUpSteps := by
  obtain ⟨-, -, -, -, -, -, q7⟩ := hi.prepare ha qe
  rcases q7 with ⟨q, e⟩ | ⟨q, e⟩
  · rw [if_pos q]; exact e
  · rw [if_neg q]; exact e

/-- During a move at most `k` short commands may still come. -/
structure Brisk (a : ArchId) (T A : Nat) (p W0 : Int) (k : Nat) (g : RampGen) (qe : QueueEnd) : Prop where
  app : Approach a T A 0 p W0 ⟨g, qe⟩
  pause : g.rw.pauseTicksLeft = 0 ∨ 32768 ≤ g.rw.pauseTicksLeft
  curve : g.isActive = true → (g.prepare a qe).stepsToStop < (shortestWay p qe.pos).natAbs →
    Planner.OnCurve T (steadyRamp a A) g.rw.currTicks (g.prepare a qe).stepsToStop
  left : g.isActive = true → Planner.shortsLeft (shortestWay p qe.pos).natAbs (g.prepare a qe).stepsToStop ≤ k

theorem Brisk.congr {a : ArchId} {T A : Nat} {p W0 : Int} {k : Nat} {g : RampGen} {qe qe' : QueueEnd} (h : Brisk a T A p W0 k g qe)
    (h1 : qe'.pos = qe.pos) (h2 : qe'.countUp = qe.countUp) : Brisk a T A p W0 k g qe' := by
  refine ⟨h.app.congr h1 h2, h.pause, ?_, ?_⟩ <;> rw [prepare_congr a g h1 h2, h1]
  · exact h.curve
  · exact h.left

theorem Brisk.mono {a : ArchId} {T A : Nat} {p W0 : Int} {k k' : Nat} {g : RampGen} {qe : QueueEnd} (h : Brisk a T A p W0 k g qe) (hk : k ≤ k') :
    Brisk a T A p W0 k' g qe := ⟨h.app, h.pause, h.curve, fun ha => Nat.le_trans (h.left ha) hk⟩

theorem shortestWay_i32 (p x : Int) : shortestWay p (i32 x) = shortestWay p x := by
  unfold shortestWay; rw [i32_sub_i32]

/-- A service whose command the queue does not take. -/
theorem Brisk.refused {a : ArchId} {T A : Nat} (hmin : a.minCmdTicks ≤ T) (hT : T < ticksForStoppedMotor) (hA : 0 < A) (hA2 : A < 2 ^ 31)
    {p W0 : Int} {k : Nat} {g g1 : RampGen} {qe qe' : QueueEnd} {junk c : NextCommand} (hb : Brisk a T A p W0 k g qe) (ha : g.isActive = true)
    (hj : junk.rw.performedRampUpSteps < 4294967296) (hn : g.getNextCommand a qe junk = some (g1, c)) (ht : c.command.ticks ≠ 0)
    (h1 : qe'.pos = qe.pos) (h2 : qe'.countUp = qe.countUp ∨ qe'.countUp = c.command.countUp) : Brisk a T A p W0 k g1 qe' := by
  have hi := hb.app
  obtain ⟨-, r1, -, -⟩ := InRange_serve hi.range hj hn
  obtain ⟨s1, -, -⟩ := hi.steady.serve (ramp_good hmin hA hA2 (by decide) (Or.inl rfl)) hmin hT ha hn
  have hp := prepared a g qe
  have hs := prepare_settled a g qe
  obtain ⟨m1, m2, m3⟩ := hi.move ha
  obtain ⟨w1, w2, w3⟩ := hi.way ha
  have hcv := hb.curve ha
  have hlf := hb.left ha
  have hbr := hi.steady.brake ha qe
  rcases service_cases hi.range hn with ⟨-, -, h3, -⟩ | ⟨hgg, -, hc⟩
  · exact absurd h3 ht
  have hdir : (g.prepare a qe).stepsToStop ≠ 0 → qe'.countUp = qe.countUp := by
    intro h0
    rcases h2 with h2 | h2
    · exact h2
    · rcases hc with ⟨-, h3⟩ | ⟨-, -, -, -, h3⟩ | ⟨remaining, same, ph, P, ho⟩
      · rw [h2, h3]
      · rw [h3] at ht; exact absurd rfl ht
      · rw [h2]; exact ho.moving (by rw [hgg]; exact h0)
  have ha1 : g1.isActive = true := by
    unfold RampGen.isActive at ha ⊢; rw [hgg, hp.state]; exact ha
  have hsm := prepare_same a g1 qe' (by rw [hgg]; exact hp.papply) (by rw [hgg]; exact hs.1)
  have hf1 : g1.ro.forceStop = false := by rw [hgg, hp.fstop]; exact m3
  have hsm2 := hsm.2 hf1 (by rw [hgg]; exact hs.2.1 m3)
  have hct : g1.rw.currTicks = g.rw.currTicks := by rw [hgg]; exact hp.ticks
  have hbr1 : (g1.prepare a qe').stepsToStop = (g.prepare a qe).stepsToStop := by
    rw [s1.brake ha1 qe', hct]
    by_cases h : g.rw.currTicks = ticksForStoppedMotor
    · rw [if_pos h, hbr, if_pos h]
    · rw [if_neg h, hgg]; rfl
  refine ⟨⟨r1, s1, fun _ => ⟨?_, ?_, hf1⟩, fun _ => ?_⟩, ?_, fun _ => ?_, fun _ => ?_⟩
  · dsimp only; rw [hsm2.2, hgg]; exact m1
  · dsimp only; rw [hsm2.1, hgg]; exact m2
  · dsimp only
    rw [hbr1, h1]
    refine ⟨w1, w2, ?_⟩
    by_cases h0 : (g.prepare a qe).stepsToStop = 0
    · rw [h0]; exact Or.inl ⟨Nat.zero_le _, Or.inl rfl⟩
    · rw [hdir h0]; exact w3
  · rw [hgg, hp.pause]; exact hb.pause
  · rw [hbr1, h1, hct]; exact hcv
  · rw [hbr1, h1]; exact hlf

theorem way_after {p pos w : Int} {c : Cmd} (hw : shortestWay p pos = w) (hd : c.countUp = true ↔ 0 < w) (hs : c.steps ≤ w.natAbs)
    (hr : -2147483648 ≤ w ∧ w < 2147483648) : (shortestWay p (posAfter pos c)).natAbs = w.natAbs - c.steps := by
  have : shortestWay p (posAfter pos c) = i32 (if c.countUp then w - c.steps else w + c.steps) := by
    rw [← hw]
    unfold shortestWay posAfter
    split <;> (unfold i32; omega)
  rw [this]
  by_cases h : c.countUp = true
  · have := hd.mp h
    rw [if_pos h]; unfold i32; omega
  · have : ¬ 0 < w := fun h' => h (hd.mpr h')
    rw [if_neg h]; unfold i32; omega

theorem lowest_anti32 {f : Nat → Nat} (hf : Planner.Antitone32 f) {n : Nat} (h1 : 1 ≤ n) (h2 : n < 4294967296) : f n ≤ lowest f n := by
  obtain ⟨m, k1, k2, k3⟩ := lowest_spec f h1
  have := hf m n (by omega) k2 h2
  omega

/-- A service whose command the queue takes: the command is long, or one short command less may come. -/
theorem Brisk.accepted {a : ArchId} (hav : a.isAvr = true) {T A : Nat} (hmin : a.minCmdTicks ≤ T) (hT : T < ticksForStoppedMotor) (hA : 0 < A) (hA2 : A ≤ 700000)
    {p W0 : Int} {k : Nat} {g g1 : RampGen} {qe : QueueEnd} {junk c : NextCommand} (hb : Brisk a T A p W0 k g qe) (ha : g.isActive = true)
    (hj : junk.rw.performedRampUpSteps < 4294967296) (hn : g.getNextCommand a qe junk = some (g1, c)) :
    ∃ k', k' ≤ k ∧ (c.command.ticks ≠ 0 → 11000 ≤ c.command.duration ∨ k' < k) ∧
      ∀ qe' : QueueEnd, qe'.pos = (if c.command.ticks = 0 then qe.pos else i32 (posAfter qe.pos c.command)) →
        qe'.countUp = (if c.command.ticks = 0 then qe.countUp else c.command.countUp) → Brisk a T A p W0 k' (g1.afterCommandEnqueued c) qe' := by
  have hA3 : A < 2 ^ 31 := by omega
  have hmc : a.minCmdTicks = 640 := by cases a <;> first | rfl | cases hav
  have hi := hb.app
  have happ : ∀ qe' : QueueEnd, qe'.pos = (if c.command.ticks = 0 then qe.pos else i32 (posAfter qe.pos c.command)) →
        qe'.countUp = (if c.command.ticks = 0 then qe.countUp else c.command.countUp) → Approach a T A 0 p W0 ⟨g1.afterCommandEnqueued c, qe'⟩ := by
    intro qe' h1 h2
    have hx := hi.serve (junk := junk) hmin hT hA hA3 (by decide) (Or.inl rfl) ha hj (by unfold Drive.serve; dsimp only; rw [hn])
    refine hx.congr ?_ ?_
    · rw [h1]; split <;> rfl
    · rw [h2]; split <;> rfl
  have hp := prepared a g qe
  obtain ⟨m1, m2, m3⟩ := hi.move ha
  obtain ⟨w1, w2, w3⟩ := hi.way ha
  have hcv := hb.curve ha
  have hlf := hb.left ha
  have hbr := hi.steady.brake ha qe
  obtain ⟨p1, p2, p3, p4, p5, p6, p7⟩ := hi.steady.prepare ha qe
  have hbrk := hi.steady.moving ha
  have hrng := (hi.range.prepare a qe).period
  dsimp only at m1 m2 w1 w2 w3 hbrk
  have hc3 : (g1.afterCommandEnqueued c).rw = c.rw := rfl
  unfold RampGen.getNextCommand at hn
  dsimp only at hn
  by_cases hf : (g.prepare a qe).ro.forceImmediateStop = true
  · rw [if_pos hf] at hn
    cases hn
    exact ⟨k, Nat.le_refl _, fun h => absurd rfl h, fun qe' h1 h2 => ⟨happ qe' h1 h2, Or.inl rfl, fun h => (by cases h), fun h => (by cases h)⟩⟩
  rw [if_neg hf] at hn
  cases hpn : Planner.getNextCommand a (g.prepare a qe).ro (g.prepare a qe).rw qe junk with
  | none => rw [hpn] at hn; cases hn
  | some c1 =>
    rw [hpn] at hn
    cases hn
    rcases Planner.getNextCommand_cases hpn with ⟨hpos, he⟩ | ⟨hnp, need, remaining, ht, ⟨-, -, he⟩ | ⟨hnd, countUp, hcu, hpl⟩⟩
    · -- pause
      have hpz := hb.pause
      rw [← hp.pause] at hpz
      have hct : c.rw.currTicks = g.rw.currTicks := by rw [he]; exact p5
      have hpr : c.rw.performedRampUpSteps = (g.prepare a qe).stepsToStop := by rw [he]; rfl
      have hbr2 : ∀ qe', (g1x : RampGen) → SteadyInv a T A 0 g1x → g1x.isActive = true → g1x.rw = c.rw → (g1x.prepare a qe').stepsToStop = (g.prepare a qe).stepsToStop := by
        intro qe' g2 h1 h2 h3
        rw [h1.brake h2 qe', h3, hct]
        by_cases h : g.rw.currTicks = ticksForStoppedMotor
        · rw [if_pos h, hbr, if_pos h]
        · rw [if_neg h, hpr]
      have hpt : 32768 ≤ u16 (Planner.pauseTicks (g.prepare a qe).rw.pauseTicksLeft) ∧
          ((g.prepare a qe).rw.pauseTicksLeft - Planner.pauseTicks (g.prepare a qe).rw.pauseTicksLeft = 0 ∨
            32768 ≤ (g.prepare a qe).rw.pauseTicksLeft - Planner.pauseTicks (g.prepare a qe).rw.pauseTicksLeft) := by
        unfold u16 Planner.pauseTicks
        constructor <;> split <;> omega
      refine ⟨k, Nat.le_refl _, fun _ => Or.inl ?_, fun qe' h1 h2 => ?_⟩
      · rw [he]
        change 11000 ≤ u16 _ * max 1 0
        rw [show max 1 0 = 1 from rfl, Nat.mul_one]
        exact Nat.le_trans (by decide) hpt.1
      · have hx := happ qe' h1 h2
        have hway : shortestWay p qe'.pos = shortestWay p qe.pos := by
          rw [h1]
          split
          · rfl
          · rw [shortestWay_i32, he]; unfold posAfter; dsimp only; split <;> simp
        refine ⟨hx, ?_, fun hac => ?_, fun hac => ?_⟩
        · rw [hc3, he]; exact hpt.2
        · rw [hbr2 qe' _ hx.steady hac rfl, hway, hc3, hct]; exact hcv
        · rw [hbr2 qe' _ hx.steady hac rfl, hway]; exact hlf
    · -- complete
      rw [he] at happ ⊢
      exact ⟨k, Nat.le_refl _, fun h => absurd rfl h, fun qe' h1 h2 => ⟨happ qe' h1 h2, Or.inl rfl, fun h => (by cases h), fun h => (by cases h)⟩⟩
    · -- steps
      have hn0 : (g.prepare a qe).rw.performedRampUpSteps = (g.prepare a qe).stepsToStop := rfl
      rcases Planner.target_cases ht with ⟨e1, -⟩ | ⟨-, hne, e3, e4⟩
      · unfold RampGen.isRunningContinuously at m1
        rw [e1] at m1; cases m1
      rw [m2] at e3 e4 hne
      change remaining = (shortestWay p qe.pos).natAbs at e3
      change need = (if shortestWay p qe.pos = 0 then _ else decide (0 < shortestWay p qe.pos)) at e4
      change shortestWay p qe.pos ≠ _ at hne
      have hwr : -2147483648 ≤ shortestWay p qe.pos ∧ shortestWay p qe.pos < 2147483648 := by
        unfold shortestWay i32; omega
      generalize hw : shortestWay p qe.pos = w at *
      generalize hnn : (g.prepare a qe).stepsToStop = n at *
      rw [hn0] at hnd hcu
      have hnw : n ≤ w.natAbs ∧ w ≠ 0 ∧ (n = 0 ∨ if qe.countUp then 0 < w else w < 0) := by
        rcases w3 with ⟨h1, h2⟩ | ⟨h1, h2⟩
        · exact ⟨h1, by omega, h2⟩
        · omega
      have hsame : countUp = need ∧ (countUp = true ↔ 0 < w) := by
        rw [if_neg hnw.2.1] at e4
        by_cases h0 : n = 0
        · rw [if_pos h0] at hcu
          exact ⟨hcu, by rw [hcu, e4]; exact decide_eq_true_iff⟩
        · rw [if_neg h0] at hcu
          have h1 := hnw.2.2.resolve_left h0
          rw [← hcu] at h1
          have h2 : countUp = true ↔ 0 < w := by
            cases countUp
            · simp only [Bool.false_eq_true, if_false, false_iff] at h1 ⊢; omega
            · simp only [if_true, true_iff] at h1 ⊢; exact h1
          refine ⟨?_, h2⟩
          rw [e4]
          cases countUp
          · symm; rw [decide_eq_false_iff_not]; exact fun h => Bool.noConfusion (h2.mpr h)
          · symm; rw [decide_eq_true_iff]; exact h2.mp rfl
      rw [hsame.1, beq_self_eq_true] at hpl
      have hn2 : n < 2147483648 := by omega
      have hF := steadyRamp_quick hav hA hA2
      have hlong := Planner.plan_long_or (T := T) (n := n) (P := g.rw.currTicks) (R := remaining) hav hF (by rw [p3.2, linearRamp_zero]) p3.1.speed (by omega) hT hn0 p5
        (by rw [← p5]; exact hrng) hn2 (by omega) (by omega) (by omega) ?_ (by rw [e3]; exact hcv) hpl
      · obtain ⟨⟨l1, l2, l3, l4, l5⟩, l6, l7, l8⟩ := hlong
        have hcd : c.command.countUp = countUp := by
          rcases Planner.plan_cases hpl with ⟨o, s, -, -, ⟨-, e⟩ | ⟨-, d, pl, p, sp, pa, -, -, -, -, e⟩⟩
          · rw [e] at l5; exact absurd rfl l5
          · rw [e]; exact hsame.1.symm
        refine ⟨Planner.shortsLeft (remaining - c.command.steps) c.rw.performedRampUpSteps, ?_, fun _ => ?_, fun qe' h1 h2 => ?_⟩
        · rw [← e3] at hlf; exact Nat.le_trans l7 hlf
        · rw [← e3] at hlf
          rcases l6 with h | h
          · exact Or.inl h
          · exact Or.inr (by omega)
        · have hx := happ qe' h1 h2
          have hway : (shortestWay p qe'.pos).natAbs = remaining - c.command.steps := by
            rw [h1, if_neg l5, shortestWay_i32]
            rw [e3]
            exact way_after hw (hcd ▸ hsame.2) (by rw [← e3]; exact l2) hwr
          have hbr2 : ((g.prepare a qe).afterCommandEnqueued c).isActive = true →
              (((g.prepare a qe).afterCommandEnqueued c).prepare a qe').stepsToStop = c.rw.performedRampUpSteps := by
            intro hac
            rw [hx.steady.brake hac qe', hc3, if_neg]
            have hst : ticksForStoppedMotor = 4294967295 := rfl
            omega
          refine ⟨hx, l4, fun hac => ?_, fun hac => ?_⟩
          · rw [hbr2 hac, hway]; exact l8
          · rw [hbr2 hac, hway]
      · by_cases h : g.rw.currTicks = ticksForStoppedMotor
        · rw [if_pos h] at hbr; exact Or.inl ⟨h, hbr⟩
        · rw [if_neg h] at hbr
          obtain ⟨-, -, -, b⟩ := hbrk h
          refine Or.inr ⟨h, b.set, ?_⟩
          have hb1 := b.slow
          rw [linearRamp_zero, ← hbr] at hb1
          have hP : 640 ≤ g.rw.currTicks := by have := b.set; omega
          have hhz := Planner.horizon_pos (a := a) (P := g.rw.currTicks) (by omega)
          have hsm := Planner.horizon_small (a := a) (P := g.rw.currTicks) (by omega)
          exact Nat.le_trans (lowest_anti32 hF.anti (by omega) (by omega)) hb1

end FAS
