import Verif.Lemmas.Fast

/-!
# The planner in a move of any distance with a set speed faster than one step per minimum command time
-/

namespace FAS

open Spec

namespace Planner

/-- What the planner needs to know about ramp and set speed `T` in moves of any distance. `M` is the length of the ramp as the planner knows it, and `N`
steps of ramp lead to a speed above the set speed. -/
structure TriRamp (a : ArchId) (T : Nat) (f : Nat → Nat) (M N : Nat) : Prop where
  base : FastRamp a T f
  heavy : ∀ n, 1 ≤ n → n ≤ 2000000 → f n < 2 * a.minCmdTicks → 6 * (a.ticksPerS / 500) < 5 * (f n * n)
  heavy2 : ∀ n, 1 ≤ n → n ≤ 2000000 → f n < a.minCmdTicks → 2 * (a.ticksPerS / 500) < f n * n
  double : ∀ n j, 1 ≤ n → j ≤ n → n ≤ 2000000 → f n ≤ 2 * f (n + j)
  sixth : ∀ n j, 1 ≤ j → j ≤ n → n ≤ 6 * j → n ≤ 2000000 → f j ≤ 3 * f n
  long : 2 * (a.ticksPerS / 500) < T * M
  fast : f N < T
  half : T ≤ 2 * f (N + 2 * (a.ticksPerS / 500 / T))
  n1 : 1 ≤ N
  fit : N + 2 * (a.ticksPerS / 500 / T) < 4294967296
  /-- No number of steps is too short for a command with the set speed, but long enough with the speed so many steps before the end of the ramp. -/
  clear : ∀ p, 1 ≤ p → T * p < a.minCmdTicks → f (M - p) * p < a.minCmdTicks

/-- The states of a move: period `P`, ramp steps `k` and remaining way `R`. -/
inductive Tri (a : ArchId) (T : Nat) (f : Nat → Nat) (N P k R : Nat) : Prop where
  | acc (slow : T < P) (inv : (P = ticksForStoppedMotor ∧ k = 0) ∨ (P < ticksForStoppedMotor ∧ 1 ≤ k ∧ P ≤ f k ∧ f k ≤ 2 * P ∧
      (2 * a.minCmdTicks ≤ P ∨ 6 * (a.ticksPerS / 500) < 5 * (P * k)))) (way : k < R) (small : R + k ≤ 2000000)
  | coast (set : P = T) (inv : a.ticksPerS / 500 + 4 * a.minCmdTicks < T * k) (near : f k ≤ 2 * T) (k1 : k < N + a.ticksPerS / 500 / T) (way : k < R)
      (small : R + k ≤ 2000000)
  | down (h : Down a T f P k R)

theorem Tri.finished {a : ArchId} {T : Nat} {f : Nat → Nat} {N P k : Nat} (h : Tri a T f N P k 0) : k ≤ 1 := by
  rcases h with ⟨l1, l2, l3, l4⟩ | ⟨l1, l2, l0, l3, l4, l5⟩ | ⟨l1, l2, l3, l4, l5, l6, l7⟩ | ⟨-, -, l3, l4⟩ <;> omega

/-- Where the ramp is slower than the set speed. -/
theorem TriRamp.before {a : ArchId} {T : Nat} {f : Nat → Nat} {M N : Nat} (hf : TriRamp a T f M N) {k : Nat} (h1 : k < 4294967296) (h : T < f k) :
    k < N := by
  rcases Nat.lt_or_ge k N with h2 | h2
  · exact h2
  · have := hf.base.anti N k hf.n1 h2 (by omega)
    have := hf.fast
    omega

theorem TriRamp.halfway {a : ArchId} {T : Nat} {f : Nat → Nat} {M N : Nat} (hf : TriRamp a T f M N) {k : Nat} (h1 : 1 ≤ k)
    (h : k ≤ N + 2 * (a.ticksPerS / 500 / T)) : T ≤ 2 * f k := by
  have := hf.base.anti k _ h1 h (by have := hf.fit; omega)
  have := hf.half
  omega

/-- The state after `pl` steps of acceleration. -/
theorem acc_next {a : ArchId} {T : Nat} {f : Nat → Nat} {M N P Q k pl R : Nat} (hf : TriRamp a T f M N) (slow : T < P) (mot : P < ticksForStoppedMotor)
    (k1 : 1 ≤ k) (i1 : P ≤ f k) (i2 : f k ≤ 2 * P) (i3 : 2 * a.minCmdTicks ≤ P ∨ 6 * (a.ticksPerS / 500) < 5 * (P * k)) (hpl1 : 1 ≤ pl)
    (hpl : pl ≤ a.ticksPerS / 500 / T) (way : k + 2 * pl ≤ R) (small : R + k ≤ 2000000) (hQ : Q = min (max T (f (k + pl))) P)
    (hm : a.minCmdTicks ≤ Q * pl) : Tri a T f N Q (k + pl) (R - pl) := by
  have hs0 : ticksForStoppedMotor = 4294967295 := rfl
  have hanti := hf.base.anti k (k + pl) k1 (by omega) (by omega)
  have hkN := hf.before (k := k) (by omega) (by omega)
  have hmk : a.minCmdTicks ≤ Q * (k + pl) := by
    have : Q * pl ≤ Q * (k + pl) := Nat.mul_le_mul_left _ (by omega)
    omega
  have hfit := hf.fit
  by_cases h0 : k + 2 * pl = R
  · exact .down (.dec (by omega) (by omega) (by omega) (by omega) hmk (hf.halfway (by omega) (by omega)) (by omega))
  · have hb : 10 * a.minCmdTicks ≤ a.ticksPerS / 500 := by cases a <;> decide
    by_cases hqT : Q = T
    · refine .coast hqT ?_ (by omega) (by omega) (by omega) (by omega)
      have h1 : f (k + pl) ≤ T := by omega
      have h2 := hf.heavy2 (k + pl) (by omega) (by omega) (by have := hf.base.fast; omega)
      have h3 : f (k + pl) * (k + pl) ≤ T * (k + pl) := Nat.mul_le_mul_right _ h1
      omega
    · refine .acc (by omega) (Or.inr ⟨by omega, by omega, by omega, by omega, ?_⟩) (by omega) (by omega)
      rcases Nat.lt_or_ge P (f (k + pl)) with h1 | h1
      · have hQP : Q = P := by omega
        rw [hQP]
        rcases i3 with h | h
        · exact Or.inl h
        · right
          have : P * k ≤ P * (k + pl) := Nat.mul_le_mul_left _ (by omega)
          omega
      · have hQf : Q = f (k + pl) := by omega
        rw [hQf]
        rcases Nat.lt_or_ge (f (k + pl)) (2 * a.minCmdTicks) with h2 | h2
        · exact Or.inr (hf.heavy _ (by omega) (by omega) h2)
        · exact Or.inl h2

/-- Nothing to correct. -/
theorem minCmd_same {a : ArchId} {ph : RampPhase} {R k d pl : Nat} {p : Plan} (hpl : pl ≤ 1000) (hm : a.minCmdTicks ≤ d * pl)
    (h : minCmd a ph R k d pl = some p) : p = ⟨ph, d, pl⟩ := by
  unfold minCmd at h
  by_cases c3 : d < a.minCmdTicks
  · have hmc : a.minCmdTicks ≤ 4200 := by cases a <;> decide
    have : d * pl ≤ 4200 * 1000 := Nat.mul_le_mul (by omega) (by omega)
    have hu2 : u32 (d * pl) = d * pl := by unfold u32; omega
    rw [if_pos c3, hu2, if_neg (by omega)] at h
    exact (Option.some.inj h).symm
  · rw [if_neg c3] at h
    exact (Option.some.inj h).symm

/-- Planned steps with a period of less than twice the minimum command time. -/
theorem horizon_fast {a : ArchId} {P : Nat} (h0 : 0 < P) (h : P < 2 * a.minCmdTicks) :
    a.ticksPerS / 500 < P * (horizon a P + 1) ∧ P * horizon a P ≤ a.ticksPerS / 500 ∧ 5 ≤ horizon a P := by
  have hb : 10 * a.minCmdTicks ≤ a.ticksPerS / 500 ∧ 2 * a.minCmdTicks ≤ a.ticksPerS / 1000 := by cases a <;> decide
  unfold horizon
  rw [if_pos (by omega)]
  have h1 : a.ticksPerS / 500 < P * (a.ticksPerS / 500 / P + 1) := Nat.lt_mul_div_succ _ h0
  have h2 : P * (a.ticksPerS / 500 / P) ≤ a.ticksPerS / 500 := Nat.mul_div_le _ _
  refine ⟨h1, h2, ?_⟩
  rw [Nat.le_div_iff_mul_le h0]
  omega

/-- The motor starts. -/
theorem plan_tri_start {a : ArchId} {cfg : RampConfig} {rw : RampRw} {countUp : Bool} {R : Nat} {junk c : NextCommand} {T M N : Nat}
    (hT : cfg.parameters.minTravelTicks = T) (hf : TriRamp a T (cfg.calculateTicks a) M N)
    (stop : rw.currTicks = ticksForStoppedMotor) (k0 : rw.performedRampUpSteps = 0) (way : 0 < R) (small : R ≤ 2000000)
    (h : plan a cfg rw countUp true R junk = some c) : MoveOut a T (Tri a T (cfg.calculateTicks a) N) R countUp c := by
  have hnum := hf.base.nums
  have hs0 : ticksForStoppedMotor = 4294967295 := rfl
  obtain ⟨orig, s, ho, hs, h⟩ := plan_cases h
  rw [hT] at hs
  rw [k0, stop] at *
  generalize hff : cfg.calculateTicks a = f at *
  have hor := planningSteps_horizon ho
  rw [horizon_slow (by decide)] at hor
  subst hor
  obtain ⟨-, o2, o3, mc, m1, t1, t2, big, hh⟩ := hnum
  have hsel : s = ⟨.accelerate, R, 1⟩ := by
    rw [← hs]
    unfold select
    simp only [Bool.not_true, Bool.false_eq_true, if_false]
    rw [if_neg (by omega), if_neg (by omega), if_pos (by omega), if_neg (by omega)]
    split
    · rw [if_neg (by simp)]
    · rfl
  subst hsel
  rcases h with ⟨h, -⟩ | ⟨-, d, pl, p, sp, pa, hnt, hm, hsp, hpa, hc⟩
  · dsimp only at h; omega
  dsimp only at hnt hm hsp hpa
  have hmass := hf.base.mass 1 (by omega) (by omega)
  rw [Nat.mul_one] at hmass
  have hd : d = f 1 ∧ pl = 1 := by
    unfold newTicks at hnt
    dsimp only at hnt
    have hsub : subU32 R 0 = R := by unfold subU32; omega
    rw [if_pos (by decide), hsub, hT, hff] at hnt
    have e1 : (if R < 512 then if u16 R / 2 < 1 then if u16 R / 2 = 0 then 1 else u16 R / 2 else 1 else 1) = 1 := by
      split
      · split
        · rw [if_pos (by omega)]
        · rfl
      · rfl
    rw [e1] at hnt
    have hu : u32 (0 + 1) = 1 := rfl
    rw [hu, if_neg (by omega)] at hnt
    obtain ⟨n1, n2⟩ := Prod.mk.inj hnt
    exact ⟨n1.symm, n2.symm⟩
  obtain ⟨hd, hpl⟩ := hd
  subst hpl
  have hp := minCmd_same (by omega) (by omega) hm
  subst hp
  dsimp only at hsp hpa hc
  have hclip : clip .accelerate ticksForStoppedMotor d = d := by
    unfold clip; rw [if_neg (by simp)]
  have hsf : stepsFor 1 R = 1 := by unfold stepsFor; omega
  rw [hclip, hsf] at hsp
  have hpa2 : pa = (u32 (0 + sp.steps), sp.ticks) := by
    rw [← hpa]; unfold prusAfter; rw [if_pos (by decide)]
  subst hpa2
  have hlive := hf.base.live 1 (by omega) (by omega)
  obtain ⟨e1, e2, e3, e4, e5, e6, e7, e8, e9, e10⟩ := emitted (a := a) (T := T) (R := R) mc t2 (by omega) (by omega) (by omega) (by omega) (by omega)
    (show a.minCmdTicks ≤ d * 1 by omega) hsp hc
  refine ⟨e3, e4, e7, e6, by rw [e1]; omega, e9, e10, ?_⟩
  have hss : c.command.steps = 1 := by omega
  rw [e1, e2, ← e5, hss]
  change Tri a T f N d 1 (R - 1)
  rw [hd]
  by_cases hR1 : R = 1
  · exact .down (.fin (by omega) (by omega) (by omega) (by omega))
  · by_cases hR2 : R = 2
    · exact .down (.dec (by omega) (by omega) (by omega) (by omega) (by omega) (by omega) (by omega))
    · refine .acc (by omega) (Or.inr ⟨by omega, by omega, by omega, by omega, ?_⟩) (by omega) (by omega)
      rcases Nat.lt_or_ge (f 1) (2 * a.minCmdTicks) with h2 | h2
      · exact Or.inr (hf.heavy _ (by omega) (by omega) h2)
      · exact Or.inl h2

/-- Outcome of an acceleration by `pl` steps. -/
theorem acc_out {a : ArchId} {cfg : RampConfig} {countUp : Bool} {R P k d pl : Nat} {p : Plan} {sp : Split} {pa : Nat × Nat} {c : NextCommand} {T M N : Nat} {f : Nat → Nat}
    (hf : TriRamp a T f M N) (slow : T < P) (mot : P < ticksForStoppedMotor)
    (k1 : 1 ≤ k) (i1 : P ≤ f k) (i2 : f k ≤ 2 * P) (i3 : 2 * a.minCmdTicks ≤ P ∨ 6 * (a.ticksPerS / 500) < 5 * (P * k)) (hpl1 : 1 ≤ pl)
    (hpl : pl ≤ a.ticksPerS / 500 / T) (way : k + 2 * pl ≤ R) (small : R + k ≤ 2000000) (hd : d = max T (f (k + pl)))
    (hone : 65535 < P → pl = 1) (hmd : a.minCmdTicks ≤ d * pl) (hmP : a.minCmdTicks ≤ P * pl)
    (hm : minCmd a .accelerate R k d pl = some p) (hsp : split (stepsFor p.planning R) (clip p.phase P p.ticks) = sp)
    (hpa : prusAfter p.phase cfg.parameters.minTravelTicks cfg.maxRampUpSteps k R sp.steps sp.ticks = pa)
    (hc : c = output p.phase countUp pa.1 sp.steps pa.2 sp.pause) : MoveOut a T (Tri a T f N) R countUp c := by
  have hs0 : ticksForStoppedMotor = 4294967295 := rfl
  obtain ⟨-, o2, o3, mc, m1, t1, t2, big, hh⟩ := hf.base.nums
  have hp := minCmd_same (by omega) hmd hm
  subst hp
  dsimp only at hsp hpa hc
  have hclip : clip .accelerate P d = min d P := by
    unfold clip; rw [if_pos (by omega), if_pos (by decide)]
  have hsf : stepsFor pl R = pl := by unfold stepsFor; omega
  rw [hclip, hsf] at hsp
  have hpa2 : pa = (u32 (k + sp.steps), sp.ticks) := by
    rw [← hpa]; unfold prusAfter; rw [if_pos (by decide)]
  subst hpa2
  have hmQ : a.minCmdTicks ≤ min d P * pl := by
    rcases Nat.le_total d P with h | h
    · rw [Nat.min_eq_left h]; exact hmd
    · rw [Nat.min_eq_right h]; exact hmP
  obtain ⟨e1, e2, e3, e4, e5, e6, e7, e8, e9, e10⟩ := emitted (a := a) (T := T) (R := R) mc t2 (by omega) (by omega) (by omega) (by omega) (by omega)
    hmQ hsp hc
  refine ⟨e3, e4, e7, e6, by rw [e1]; omega, e9, e10, ?_⟩
  have hss : c.command.steps = pl := by omega
  rw [e1, e2, ← e5, hss]
  have hu : u32 (k + pl) = k + pl := by unfold u32; omega
  dsimp only
  rw [hu]
  exact acc_next hf slow mot k1 i1 i2 i3 hpl1 hpl way small (by rw [hd]) hmQ

/-- Outcome of a coasting command. -/
theorem coast_out {a : ArchId} {cfg : RampConfig} {countUp : Bool} {R P k pl : Nat} {p : Plan} {sp : Split} {pa : Nat × Nat} {c : NextCommand} {T M N : Nat} {f : Nat → Nat}
    (hf : TriRamp a T f M N) (hTP : T ≤ P) (mot : P < ticksForStoppedMotor) (hpl1 : 1 ≤ pl)
    (hpl : pl ≤ 255) (way : k + pl ≤ R) (hone : 65535 < P → pl = 1) (hmP : a.minCmdTicks ≤ P * pl)
    (hm : minCmd a .coast R k P pl = some p) (hsp : split (stepsFor p.planning R) (clip p.phase P p.ticks) = sp)
    (hpa : prusAfter p.phase cfg.parameters.minTravelTicks cfg.maxRampUpSteps k R sp.steps sp.ticks = pa)
    (hc : c = output p.phase countUp pa.1 sp.steps pa.2 sp.pause) (hnext : Tri a T f N P k (R - pl)) : MoveOut a T (Tri a T f N) R countUp c := by
  have hs0 : ticksForStoppedMotor = 4294967295 := rfl
  obtain ⟨-, o2, o3, mc, m1, t1, t2, big, hh⟩ := hf.base.nums
  have hp := minCmd_same (by omega) hmP hm
  subst hp
  dsimp only at hsp hpa hc
  have hclip : clip .coast P P = P := by unfold clip; split <;> rfl
  have hsf : stepsFor pl R = pl := by unfold stepsFor; omega
  rw [hclip, hsf] at hsp
  have hpa2 : pa = (k, sp.ticks) := by rw [← hpa]; rfl
  subst hpa2
  obtain ⟨e1, e2, e3, e4, e5, e6, e7, e8, e9, e10⟩ := emitted (a := a) (T := T) (R := R) mc t2 mot hTP (by omega) (by omega) (by omega)
    hmP hsp hc
  refine ⟨e3, e4, e7, e6, by rw [e1]; omega, e9, e10, ?_⟩
  have hss : c.command.steps = pl := by omega
  rw [e1, e2, hss]
  exact hnext

/-- Outcome of a slowing command of `st` steps, fewer than there are ramp steps, before the turning point. -/
theorem brake_out {a : ArchId} {countUp : Bool} {R Q k st mt mx : Nat} {sp : Split} {pa : Nat × Nat} {c : NextCommand} {T N : Nat} {f : Nat → Nat}
    (hf : FastRamp a T f) (hTQ : T ≤ Q) (hQ : Q ≤ 65535) (hst1 : 1 ≤ st) (hst : st < k) (hst2 : st ≤ 255) (way : k < R) (small : R ≤ 2000000) (hmQ : a.minCmdTicks ≤ Q * st)
    (hsp : split st Q = sp) (hpa : prusAfter .decelerate mt mx k R sp.steps sp.ticks = pa)
    (hc : c = output .decelerate countUp pa.1 sp.steps pa.2 sp.pause)
    (hclear : ¬ (k = mx ∧ st ≤ R - k))
    (h1 : mx < k → Tri a T f N Q (k - st) (R - st))
    (h2 : R - k < st → Down a T f Q (R - st) (R - st))
    (h3 : k < mx → st ≤ R - k → Tri a T f N Q k (R - st)) : MoveOut a T (Tri a T f N) R countUp c := by
  have hs0 : ticksForStoppedMotor = 4294967295 := rfl
  obtain ⟨-, o2, o3, mc, m1, t1, t2, big, hh⟩ := hf.nums
  have hsp2 := hsp
  unfold split at hsp2
  rw [if_neg (by omega)] at hsp2
  have hfst : ∃ n, pa = (n, sp.ticks) ∧ Tri a T f N Q n (R - st) := by
    rw [← hpa, ← hsp2]
    dsimp only
    rcases prusAfter_cases .decelerate mt mx k R st Q with ⟨h, -⟩ | ⟨-, h, -⟩ | ⟨-, h⟩
    · cases h
    · cases h
    · rcases h with ⟨g1, -⟩ | ⟨-, g1, g2, h⟩ | ⟨g1, g2, g3, h⟩ | ⟨g1, -, g2, g3, h⟩ | ⟨-, g1, g2, g3, h⟩ | ⟨-, -, g2, h⟩
      · omega
      · exact ⟨_, h, h1 (by omega)⟩
      · exfalso; unfold u32 at g3; exact hclear ⟨g2, by omega⟩
      · exact ⟨_, h, .down (h2 (by omega))⟩
      · refine ⟨_, h, h3 ?_ g3⟩
        rcases Nat.lt_or_ge k mx with h | h
        · exact h
        · exact absurd ⟨by omega, g3⟩ hclear
      · omega
  obtain ⟨n, hn, htri⟩ := hfst
  subst hn
  obtain ⟨e1, e2, e3, e4, e5, e6, e7, e8, e9, e10⟩ := emitted (a := a) (T := T) (R := R) mc t2 (by omega) hTQ hst1 hst2 (by omega)
    hmQ hsp hc
  refine ⟨e3, e4, e7, e6, by rw [e1]; omega, e9, e10, ?_⟩
  have hss : c.command.steps = st := by omega
  rw [e1, e2, hss]
  exact htri

theorem plan_tri_acc {a : ArchId} {cfg : RampConfig} {rw : RampRw} {countUp : Bool} {R : Nat} {junk c : NextCommand} {T M N : Nat}
    (hT : cfg.parameters.minTravelTicks = T) (hf : TriRamp a T (cfg.calculateTicks a) M N)
    (slow : T < rw.currTicks) (mot : rw.currTicks < ticksForStoppedMotor) (k1 : 1 ≤ rw.performedRampUpSteps)
    (i1 : rw.currTicks ≤ cfg.calculateTicks a rw.performedRampUpSteps) (i2 : cfg.calculateTicks a rw.performedRampUpSteps ≤ 2 * rw.currTicks)
    (i3 : 2 * a.minCmdTicks ≤ rw.currTicks ∨ 6 * (a.ticksPerS / 500) < 5 * (rw.currTicks * rw.performedRampUpSteps))
    (way : rw.performedRampUpSteps < R) (small : R + rw.performedRampUpSteps ≤ 2000000)
    (h : plan a cfg rw countUp true R junk = some c) : MoveOut a T (Tri a T (cfg.calculateTicks a) N) R countUp c := by
  have hnum := hf.base.nums
  have hs0 : ticksForStoppedMotor = 4294967295 := rfl
  obtain ⟨orig, s, ho, hs, h⟩ := plan_cases h
  rw [hT] at hs
  generalize hk : rw.performedRampUpSteps = k at *
  generalize hP : rw.currTicks = P at *
  generalize hff : cfg.calculateTicks a = f at *
  have hor := planningSteps_horizon ho
  obtain ⟨o1, -⟩ := planningSteps_range ho
  have hT0 := hf.base.pos
  have hoO : orig ≤ a.ticksPerS / 500 / T := by
    rw [hor, ← hnum.hor]
    exact horizon_anti hT0 (by omega)
  have hslow1 : 65535 < P → orig = 1 := fun hx => by rw [hor]; exact horizon_slow (by omega)
  obtain ⟨-, o2, o3, mc, m1, t1, t2, big, hh⟩ := hnum
  have hb : 10 * a.minCmdTicks ≤ a.ticksPerS / 500 := by cases a <;> decide
  have hmk : a.minCmdTicks ≤ P * k := by
    rcases i3 with h | h
    · have := Nat.mul_le_mul h k1
      omega
    · omega
  have hsub : subU32 R k = R - k := by unfold subU32; omega
  have hu16 : R - k < 512 → u16 (R - k) = R - k := by intro hx; unfold u16; omega
  -- the period when accelerating
  have haccd : ∀ d pl, newTicks a cfg P k orig ⟨.accelerate, R, orig⟩ = (d, pl) →
      d = max T (f (k + pl)) ∧ pl = (if R - k < 512 then if (R - k) / 2 < orig then if (R - k) / 2 = 0 then 1 else (R - k) / 2 else orig else orig) := by
    intro d pl hnt
    unfold newTicks at hnt
    dsimp only at hnt
    rw [if_pos (by decide), hsub, hT, hff] at hnt
    obtain ⟨n1, n2⟩ := Prod.mk.inj hnt
    have e1 : pl = (if R - k < 512 then if (R - k) / 2 < orig then if (R - k) / 2 = 0 then 1 else (R - k) / 2 else orig else orig) := by
      rw [← n2]
      split
      · rename_i hx
        rw [hu16 hx]
      · rfl
    refine ⟨?_, e1⟩
    rw [n2] at n1
    have hle : pl ≤ R := by
      rw [e1]; repeat' split
      all_goals omega
    have hu : u32 (k + pl) = k + pl := by unfold u32; omega
    rw [hu] at n1
    rw [← n1]
    split <;> omega
  by_cases c1 : P < 2 * a.minCmdTicks
  · -- fast
    have hi3 : 6 * (a.ticksPerS / 500) < 5 * (P * k) := i3.resolve_left (by omega)
    obtain ⟨z1, z2, z3⟩ := horizon_fast (a := a) (P := P) (by omega) c1
    rw [← hor] at z1 z2 z3
    rw [Nat.mul_add, Nat.mul_one] at z1
    have hok : 6 * orig < 5 * k := by
      have : P * (6 * orig) < P * (5 * k) := by
        rw [Nat.mul_left_comm, Nat.mul_left_comm P 5 k]
        omega
      exact Nat.lt_of_mul_lt_mul_left this
    by_cases c2 : orig > R - k
    · -- slow down
      have hsel : s = ⟨.decelerate, R, orig⟩ := by
        rw [← hs]
        unfold select
        simp only [Bool.not_true, Bool.false_eq_true, if_false]
        rw [if_neg (by omega), if_neg (by omega), if_pos slow, if_pos c1, if_pos c2]
      subst hsel
      rcases h with ⟨h, -⟩ | ⟨-, d, pl, p, sp, pa, hnt, hm, hsp, hpa, hc⟩
      · dsimp only at h; omega
      dsimp only at hnt hm hsp hpa
      unfold newTicks at hnt
      dsimp only at hnt
      have hk1 : ¬ k = 1 := by omega
      have hko : ¬ k ≤ orig := by omega
      rw [if_neg (by decide), if_pos (by decide), hT, hff, if_neg hk1, if_neg hko] at hnt
      have hanti := hf.base.anti (k - orig) k (by omega) (by omega) (by omega)
      have hthree := hf.sixth k (k - orig) (by omega) (by omega) (by omega) (by omega)
      obtain ⟨n1, n2⟩ := Prod.mk.inj hnt
      rw [if_neg (by omega)] at n1
      subst n2
      have hmd : a.minCmdTicks ≤ d * orig := by
        have : P * orig ≤ d * orig := Nat.mul_le_mul_right _ (by omega)
        have : 1 * a.minCmdTicks ≤ orig * a.minCmdTicks := Nat.mul_le_mul_right _ o1
        rcases Nat.lt_or_ge P a.minCmdTicks with h | h
        · omega
        · have := Nat.mul_le_mul h o1
          omega
      have hp := minCmd_same (by omega) hmd hm
      subst hp
      dsimp only at hsp hpa hc
      have hclip : clip .decelerate P d = d := by
        unfold clip
        rw [if_pos (by omega), if_neg (by decide), if_pos (by decide)]; omega
      have hsf : stepsFor orig R = orig := by unfold stepsFor; omega
      rw [hclip, hsf] at hsp
      have hmass := hf.base.mass (k - orig) (by omega) (by omega)
      refine brake_out hf.base (by omega) (by omega) o1 (by omega) (by omega) way (by omega) hmd hsp hpa hc (by omega) (fun _ => ?_) (fun _ => ?_)
        (fun _ hx => absurd hx (by omega))
      · refine .acc (by omega) (Or.inr ⟨by omega, by omega, by omega, by omega, ?_⟩) (by omega) (by omega)
        rw [← n1]
        rcases Nat.lt_or_ge (f (k - orig)) (2 * a.minCmdTicks) with h2 | h2
        · exact Or.inr (hf.heavy _ (by omega) (by omega) h2)
        · exact Or.inl h2
      · have h4 : d * (k - orig) ≤ d * (R - orig) := Nat.mul_le_mul_left _ (by omega)
        rw [n1] at hmass
        have h5 := hf.base.anti (R - orig) k (by omega) (by omega) (by omega)
        exact .dec (by omega) (by omega) (by omega) rfl (by omega) (by omega) (by omega)
    · -- room enough
      have hPo : P < a.minCmdTicks → 8 * a.minCmdTicks ≤ P * orig - P := by intro hx; omega
      by_cases c3 : (R - k) / 4 > 0 ∧ u32 ((R - k) / 4 * P) < 2 * a.minCmdTicks
      · have hsel : s = ⟨.coast, R, orig⟩ := by
          rw [← hs]
          unfold select
          simp only [Bool.not_true, Bool.false_eq_true, if_false]
          rw [if_neg (by omega), if_neg (by omega), if_pos slow, if_pos c1, if_neg c2, if_pos c3]
        subst hsel
        rcases h with ⟨h, -⟩ | ⟨-, d, pl, p, sp, pa, hnt, hm, hsp, hpa, hc⟩
        · dsimp only at h; omega
        dsimp only at hnt hm hsp hpa
        unfold newTicks at hnt
        dsimp only at hnt
        rw [if_neg (by decide), if_neg (by decide), hsub] at hnt
        obtain ⟨n1, n2⟩ := Prod.mk.inj hnt
        subst n1
        have hpl : orig ≤ pl ∧ pl ≤ 254 ∧ k + pl ≤ R := by
          rw [← n2]
          split
          · rw [hu16 (by omega)]
            split <;> omega
          · omega
        have hmP : a.minCmdTicks ≤ P * pl := by
          have : P * orig ≤ P * pl := Nat.mul_le_mul_left _ hpl.1
          rcases Nat.lt_or_ge P a.minCmdTicks with h | h
          · have := hPo h; omega
          · have := Nat.mul_le_mul h (show 1 ≤ pl by omega)
            omega
        refine coast_out hf (by omega) mot (by omega) (by omega) hpl.2.2 (by omega) hmP hm hsp hpa hc ?_
        by_cases h0 : k + pl = R
        · exact .down (.dec (by omega) mot k1 (by omega) hmk (by omega) (by omega))
        · exact .acc slow (Or.inr ⟨mot, k1, i1, i2, i3⟩) (by omega) (by omega)
      · have hsel : s = ⟨.accelerate, R, orig⟩ := by
          rw [← hs]
          unfold select
          simp only [Bool.not_true, Bool.false_eq_true, if_false]
          rw [if_neg (by omega), if_neg (by omega), if_pos slow, if_pos c1, if_neg c2, if_neg c3]
        subst hsel
        rcases h with ⟨h, -⟩ | ⟨-, d, pl, p, sp, pa, hnt, hm, hsp, hpa, hc⟩
        · dsimp only at h; omega
        dsimp only at hnt hm hsp hpa
        obtain ⟨hd, hpl⟩ := haccd d pl hnt
        have hpl2 : 2 ≤ pl ∧ orig ≤ 2 * pl + 1 ∧ pl ≤ orig ∧ k + 2 * pl ≤ R := by
          clear z1 z2 hok hi3 hmk hPo
          rw [hpl]
          split
          · split
            · rw [if_neg (by omega)]
              omega
            · omega
          · omega
        have hdbl := hf.double k pl k1 (by omega) (by omega)
        have hmP : 2 * a.minCmdTicks ≤ P * pl := by
          rcases Nat.lt_or_ge P a.minCmdTicks with h | h
          · have h3 := hPo h
            have h4 : P * orig ≤ P * (2 * pl + 1) := Nat.mul_le_mul_left _ hpl2.2.1
            rw [Nat.mul_add, Nat.mul_one, Nat.mul_left_comm] at h4
            omega
          · have := Nat.mul_le_mul h hpl2.1
            omega
        have hmd : a.minCmdTicks ≤ d * pl := by
          have h5 : P * pl ≤ 2 * d * pl := Nat.mul_le_mul_right _ (by omega)
          rw [Nat.mul_assoc] at h5
          omega
        exact acc_out hf slow mot k1 i1 i2 i3 (by omega) (by omega) hpl2.2.2.2 small hd (by omega) hmd (by omega) hm hsp hpa hc
  · -- slow
    have hmP2 : 2 * a.minCmdTicks ≤ P := by omega
    have hsm := horizon_small (a := a) (P := P) (by omega)
    rw [← hor] at hsm
    by_cases c2 : R - k < 2 * orig
    · have hsel : s = ⟨.coast, R, R - k⟩ := by
        rw [← hs]
        unfold select
        simp only [Bool.not_true, Bool.false_eq_true, if_false]
        rw [if_neg (by omega), if_neg (by omega), if_pos slow, if_neg c1, if_pos c2, if_pos (by omega), hu16 (by omega)]
      subst hsel
      rcases h with ⟨h, -⟩ | ⟨-, d, pl, p, sp, pa, hnt, hm, hsp, hpa, hc⟩
      · dsimp only at h; omega
      dsimp only at hnt hm hsp hpa
      unfold newTicks at hnt
      dsimp only at hnt
      rw [if_neg (by decide), if_neg (by decide), hsub, if_pos (by omega), hu16 (by omega), if_pos c2] at hnt
      obtain ⟨n1, n2⟩ := Prod.mk.inj hnt
      subst n1 n2
      have hmP : a.minCmdTicks ≤ P * (R - k) := by
        have := Nat.mul_le_mul hmP2 (show 1 ≤ R - k by omega)
        omega
      refine coast_out hf (by omega) mot (by omega) (by omega) (by omega) (by omega) hmP hm hsp hpa hc ?_
      exact .down (.dec (by omega) mot k1 (by omega) hmk (by omega) (by omega))
    · have hsel : s = ⟨.accelerate, R, orig⟩ := by
        rw [← hs]
        unfold select
        simp only [Bool.not_true, Bool.false_eq_true, if_false]
        rw [if_neg (by omega), if_neg (by omega), if_pos slow, if_neg c1, if_neg c2]
      subst hsel
      rcases h with ⟨h, -⟩ | ⟨-, d, pl, p, sp, pa, hnt, hm, hsp, hpa, hc⟩
      · dsimp only at h; omega
      dsimp only at hnt hm hsp hpa
      obtain ⟨hd, hpl⟩ := haccd d pl hnt
      have hpl2 : pl = orig := by
        rw [hpl]
        split
        · rw [if_neg (by omega)]
        · rfl
      subst hpl2
      have hmP : a.minCmdTicks ≤ P * pl := by
        have := Nat.mul_le_mul hmP2 o1
        omega
      have hmd : a.minCmdTicks ≤ d * pl := by
        have hfd : f (k + pl) ≤ d := by omega
        have h5 : f (k + pl) * pl ≤ d * pl := Nat.mul_le_mul_right _ hfd
        rcases Nat.le_total pl k with h | h
        · have := hf.double k pl k1 h (by omega)
          have := Nat.mul_le_mul (show a.minCmdTicks ≤ f (k + pl) by omega) o1
          omega
        · have h6 := hf.base.anti (k + pl) (2 * pl) (by omega) (by omega) (by omega)
          rcases Nat.lt_or_ge (f (2 * pl)) (2 * a.minCmdTicks) with h7 | h7
          · have h8 := hf.heavy (2 * pl) (by omega) (by omega) h7
            have h9 : f (2 * pl) * (2 * pl) ≤ d * (2 * pl) := Nat.mul_le_mul_right _ (by omega)
            rw [Nat.mul_left_comm d 2 pl] at h9
            omega
          · have := Nat.mul_le_mul (show a.minCmdTicks ≤ d by omega) o1
            omega
      exact acc_out hf slow mot k1 i1 i2 i3 (by omega) hoO (by omega) small hd hslow1 hmd hmP hm hsp hpa hc

/-- Outcome of the correction to the minimum command time, for slowing down from the set speed. -/
theorem minCmd_top {a : ArchId} {T O : Nat} {R k d pl : Nat} {p : Plan} (hn : FastNums a T O) (hd : T ≤ 2 * d) (h1 : 1 ≤ pl) (hpl : pl ≤ O)
    (hlong : a.ticksPerS / 500 + 4 * a.minCmdTicks < T * k) (hk : k < R) (h : minCmd a .decelerate R k d pl = some p) :
    (p = ⟨.decelerate, d, pl⟩ ∧ a.minCmdTicks ≤ d * pl) ∨
    (∃ st, p = ⟨.decelerate, d, st⟩ ∧ pl < st ∧ st ≤ 26 ∧ a.minCmdTicks ≤ d * st ∧ T * st ≤ 4 * a.minCmdTicks ∧ 2 * st < R ∧ 3 * st ≤ k) := by
  have hb : 10 * a.minCmdTicks ≤ a.ticksPerS / 500 := by cases a <;> decide
  obtain ⟨-, o2, o3, mc, m1, t1, t2, big, -⟩ := hn
  unfold minCmd at h
  by_cases c1 : d < a.minCmdTicks
  · rw [if_pos c1] at h
    have hmul : d * pl ≤ 4200 * 127 := Nat.mul_le_mul (by omega) (by omega)
    have hu : u32 (d * pl) = d * pl := by unfold u32; omega
    rw [hu] at h
    by_cases c2 : d * pl < a.minCmdTicks
    · have hud : u16 d = d := by unfold u16; omega
      have hus : u16 (a.minCmdTicks + d - 1) = a.minCmdTicks + d - 1 := by unfold u16; omega
      rw [if_pos c2, hud, if_neg (by omega), hus] at h
      dsimp only at h
      have hd0 : 0 < d := by omega
      have g1 : (a.minCmdTicks + d - 1) / d ≤ 26 := by
        rw [Nat.div_le_iff_le_mul_add_pred hd0]; omega
      have g2 : a.minCmdTicks ≤ d * ((a.minCmdTicks + d - 1) / d) := by
        have := Nat.lt_mul_div_succ (a.minCmdTicks + d - 1) hd0
        rw [Nat.mul_add] at this
        omega
      have g0 : d * ((a.minCmdTicks + d - 1) / d) ≤ a.minCmdTicks + d - 1 := Nat.mul_div_le _ _
      generalize (a.minCmdTicks + d - 1) / d = st at h g1 g2 g0
      have g3 : pl < st := by
        rcases Nat.lt_or_ge pl st with g | g
        · exact g
        · have := Nat.mul_le_mul_left d g
          omega
      -- st is short
      have g4 : T * st ≤ 4 * a.minCmdTicks := by
        have h4 : T * st ≤ 2 * d * st := Nat.mul_le_mul_right _ hd
        rw [Nat.mul_assoc] at h4
        rcases Nat.lt_or_ge T d with h5 | h5
        · have h6 : T * st ≤ d * st := Nat.mul_le_mul_right _ (by omega)
          omega
        · -- d ≤ T ≤ 2 d
          omega
      have g5 : 3 * st ≤ k := by
        have h5 : T * (3 * st) < T * k := by
          rw [Nat.mul_left_comm]; omega
        exact Nat.le_of_lt (Nat.lt_of_mul_lt_mul_left h5)
      have hr0 : ¬ R = 0 := by omega
      have c3 : ¬ st ≥ R := by omega
      have c4 : ¬ 2 * st ≥ R := by omega
      simp only [if_neg c3, Nat.max_eq_right (Nat.le_of_lt g3), if_neg c4] at h
      refine Or.inr ⟨st, ?_, g3, g1, g2, g4, by omega, g5⟩
      rw [← Option.some.inj h]
      split <;> rfl
    · rw [if_neg c2] at h
      exact Or.inl ⟨(Option.some.inj h).symm, by omega⟩
  · rw [if_neg c1] at h
    refine Or.inl ⟨(Option.some.inj h).symm, ?_⟩
    have := Nat.mul_le_mul (show a.minCmdTicks ≤ d by omega) h1
    omega

theorem plan_tri_coast {a : ArchId} {cfg : RampConfig} {rw : RampRw} {countUp : Bool} {R : Nat} {junk c : NextCommand} {T M N : Nat}
    (hT : cfg.parameters.minTravelTicks = T) (hf : TriRamp a T (cfg.calculateTicks a) M N) (hM : cfg.maxRampUpSteps = M)
    (set : rw.currTicks = T) (inv : a.ticksPerS / 500 + 4 * a.minCmdTicks < T * rw.performedRampUpSteps)
    (near : cfg.calculateTicks a rw.performedRampUpSteps ≤ 2 * T)
    (k1 : rw.performedRampUpSteps < N + a.ticksPerS / 500 / T) (way : rw.performedRampUpSteps < R) (small : R + rw.performedRampUpSteps ≤ 2000000)
    (h : plan a cfg rw countUp true R junk = some c) : MoveOut a T (Tri a T (cfg.calculateTicks a) N) R countUp c := by
  have hnum := hf.base.nums
  have hs0 : ticksForStoppedMotor = 4294967295 := rfl
  obtain ⟨O, hO⟩ : ∃ O, a.ticksPerS / 500 / T = O := ⟨_, rfl⟩
  obtain ⟨orig, s, ho, hs, h⟩ := plan_cases h
  rw [hT] at hs
  generalize hk : rw.performedRampUpSteps = k at *
  rw [set] at *
  generalize hff : cfg.calculateTicks a = f at *
  have hor := planningSteps_horizon ho
  have hnum2 := hnum
  have hfit := hf.fit
  have hhalf : ∀ n, 1 ≤ n → n ≤ k → T ≤ 2 * f n := fun n h1 h2 => hf.halfway h1 (by omega)
  rw [hO] at hnum k1 hfit
  obtain ⟨-, o2, o3, mc, m1, t1, t2, big, hh⟩ := hnum
  rw [hh] at hor
  subst hor
  have hT0 := hf.base.pos
  have hb : 10 * a.minCmdTicks ≤ a.ticksPerS / 500 := by cases a <;> decide
  have hOT : orig * T ≤ a.ticksPerS / 500 := by rw [← hO]; exact Nat.div_mul_le_self _ _
  have hok : orig < k := by
    have : T * orig < T * k := by rw [Nat.mul_comm T orig]; omega
    exact Nat.lt_of_mul_lt_mul_left this
  have hmk : a.minCmdTicks ≤ T * k := by omega
  have hsub : subU32 R k = R - k := by unfold subU32; omega
  have hu16 : R - k < 512 → u16 (R - k) = R - k := by intro hx; unfold u16; omega
  -- coasting
  have hcoast : ∀ n, s = ⟨.coast, R, n⟩ → (n = R - k ∧ n < 2 * orig ∨ n = orig ∧ 2 * orig ≤ R - k) → a.minCmdTicks ≤ T * n →
      MoveOut a T (Tri a T f N) R countUp c := by
    intro n hsel hn hmn
    subst hsel
    rcases h with ⟨h, -⟩ | ⟨-, d, pl, p, sp, pa, hnt, hm, hsp, hpa, hc⟩
    · dsimp only at h; omega
    dsimp only at hnt hm hsp hpa
    unfold newTicks at hnt
    dsimp only at hnt
    rw [if_neg (by decide), if_neg (by decide), hsub] at hnt
    obtain ⟨n1, n2⟩ := Prod.mk.inj hnt
    subst n1
    have hpl : pl = n := by
      rw [← n2]
      split
      · rw [hu16 (by omega)]
        split <;> omega
      · rfl
    subst hpl
    refine coast_out hf (by omega) (by omega) (by omega) (by omega) (by omega) (by omega) hmn hm hsp hpa hc ?_
    by_cases h0 : k + pl = R
    · exact .down (.dec (by omega) (by omega) (by omega) (by omega) hmk (hhalf k (by omega) (by omega)) (by omega))
    · exact .coast rfl inv near (by rw [hO]; exact k1) (by omega) (by omega)
  by_cases c1 : R - k < 2 * orig
  · by_cases c2 : T * (R - k) < a.minCmdTicks
    · -- slow down
      have hlt : R - k < orig := by
        have : T * (R - k) < T * orig := by rw [Nat.mul_comm T orig]; omega
        exact Nat.lt_of_mul_lt_mul_left this
      have hsel : s = ⟨.decelerate, R, R - k⟩ := by
        rw [← hs]
        unfold select
        simp only [Bool.not_true, Bool.false_eq_true, if_false]
        have hu : u32 (T * (R - k)) = T * (R - k) := by unfold u32; omega
        rw [if_neg (by omega), if_neg (by omega), if_neg (by omega), if_neg (by omega), if_pos c1, hu16 (by omega), hu, if_pos ⟨t2, c2⟩]
      subst hsel
      rcases h with ⟨h, -⟩ | ⟨-, d, pl, p, sp, pa, hnt, hm, hsp, hpa, hc⟩
      · dsimp only at h; omega
      dsimp only at hnt hm hsp hpa
      unfold newTicks at hnt
      dsimp only at hnt
      have hk1 : ¬ k = 1 := by omega
      have hko : ¬ k ≤ R - k := by omega
      rw [if_neg (by decide), if_pos (by decide), hT, hff, if_neg hk1, if_neg hko] at hnt
      obtain ⟨n1, n2⟩ := Prod.mk.inj hnt
      have hrs : ¬ (k - (R - k) = 1 ∧ T > f (k - (R - k))) := by
        intro ⟨g1, g2⟩
        have := hf.base.mass 1 (by omega) (by omega)
        rw [g1] at g2; omega
      rw [if_neg hrs] at n1
      have hanti := hf.base.anti (k - (R - k)) k (by omega) (by omega) (by omega)
      have h14 : 14 * (R - k) < k := by
        have : T * (14 * (R - k)) < T * k := by rw [Nat.mul_left_comm]; omega
        exact Nat.lt_of_mul_lt_mul_left this
      have hthree := hf.sixth k (k - (R - k)) (by omega) (by omega) (by omega) (by omega)
      have hclip : clip .decelerate T d = max d T := by
        unfold clip
        rw [if_pos (by omega), if_neg (by decide), if_pos (by decide)]
      have hlong := hf.long
      have hhk := hhalf k (by omega) (by omega)
      rw [← n2] at hm
      rcases minCmd_top hnum2 (by omega) (by omega) (by rw [hO]; omega) inv way hm with ⟨hp, g⟩ | ⟨st, hp, g1, g2, g3, g4, g5, g6⟩
      · subst hp
        dsimp only at hsp hpa hc
        have hdT : T < d := by
          rcases Nat.lt_or_ge T d with h | h
          · exact h
          · have : d * (R - k) ≤ T * (R - k) := Nat.mul_le_mul_right _ h
            omega
        have hsf : stepsFor (R - k) R = R - k := by unfold stepsFor; omega
        rw [hclip, hsf, Nat.max_eq_left (Nat.le_of_lt hdT)] at hsp
        refine brake_out hf.base (by omega) (by omega) (by omega) (by omega) (by omega) way (by omega) g hsp hpa hc ?_ (fun _ => ?_)
          (fun hx => absurd hx (by omega)) (fun _ _ => ?_)
        · rw [hM]
          intro ⟨q1, _⟩
          have := hf.clear (R - k) (by omega) c2
          rw [← q1, n1] at this
          omega
        · refine .acc hdT (Or.inr ⟨by omega, by omega, by omega, by omega, ?_⟩) (by omega) (by omega)
          rw [← n1]
          rcases Nat.lt_or_ge (f (k - (R - k))) (2 * a.minCmdTicks) with h2 | h2
          · exact Or.inr (hf.heavy _ (by omega) (by omega) h2)
          · exact Or.inl h2
        · have h4 : d * (R - k) ≤ d * k := Nat.mul_le_mul_left _ (by omega)
          exact .down (.dec (by omega) (by omega) (by omega) (by omega) (by omega) hhk (by omega))
      · subst hp
        dsimp only at hsp hpa hc
        have hsf : stepsFor st R = st := by unfold stepsFor; omega
        rw [hclip, hsf] at hsp
        have hmQ : a.minCmdTicks ≤ max d T * st := by
          have : d * st ≤ max d T * st := Nat.mul_le_mul_right _ (by omega)
          omega
        have hdbl := hf.double (k - st) (st - (R - k)) (by omega) (by omega) (by omega)
        rw [show k - st + (st - (R - k)) = k - (R - k) by omega] at hdbl
        have hmono := hf.base.anti (k - st) (k - (R - k)) (by omega) (by omega) (by omega)
        refine brake_out hf.base (by omega) (by omega) (by omega) (by omega) (by omega) way (by omega) hmQ hsp hpa hc (by omega) (fun hx => ?_)
          (fun hx => ?_) (fun _ hx => absurd hx (by omega))
        · rw [hM] at hx
          have h5 : T * M ≤ T * k := Nat.mul_le_mul_left _ (by omega)
          have h6 : T * (k - st) = T * k - T * st := Nat.mul_sub _ _ _
          rcases Nat.lt_or_ge T d with h | h
          · rw [Nat.max_eq_left (Nat.le_of_lt h)]
            refine .acc h (Or.inr ⟨by omega, by omega, by omega, by omega, Or.inr ?_⟩) (by omega) (by omega)
            have h7 : T * (k - st) ≤ d * (k - st) := Nat.mul_le_mul_right _ (by omega)
            omega
          · rw [Nat.max_eq_right h]
            exact .coast rfl (by omega) (by omega) (by omega) (by omega) (by omega)
        · have h5 : max d T * st ≤ max d T * (R - st) := Nat.mul_le_mul_left _ (by omega)
          exact .dec (by omega) (by omega) (by omega) rfl (by omega) (hhalf _ (by omega) (by omega)) (by omega)
    · have hsel : s = ⟨.coast, R, R - k⟩ := by
        rw [← hs]
        unfold select
        simp only [Bool.not_true, Bool.false_eq_true, if_false]
        have hu : u32 (T * (R - k)) = T * (R - k) := by
          have : T * (R - k) ≤ 4200 * 254 := Nat.mul_le_mul (by omega) (by omega)
          unfold u32; omega
        rw [if_neg (by omega), if_neg (by omega), if_neg (by omega), if_neg (by omega), if_pos c1, hu16 (by omega), hu, if_neg (by omega)]
      exact hcoast _ hsel (Or.inl ⟨rfl, c1⟩) (by omega)
  · have hsel : s = ⟨.coast, R, orig⟩ := by
      rw [← hs]
      unfold select
      simp only [Bool.not_true, Bool.false_eq_true, if_false]
      rw [if_neg (by omega), if_neg (by omega), if_neg (by omega), if_neg (by omega), if_neg c1]
    refine hcoast _ hsel (Or.inr ⟨rfl, by omega⟩) ?_
    rw [Nat.mul_comm]; omega

/-- Every command of the move is acceptable, and the move goes on. -/
theorem plan_tri {a : ArchId} {cfg : RampConfig} {rw : RampRw} {countUp : Bool} {R : Nat} {junk c : NextCommand} {T M N : Nat}
    (hT : cfg.parameters.minTravelTicks = T) (hf : TriRamp a T (cfg.calculateTicks a) M N) (hM : cfg.maxRampUpSteps = M) (hR : R ≠ 0)
    (hl : Tri a T (cfg.calculateTicks a) N rw.currTicks rw.performedRampUpSteps R)
    (h : plan a cfg rw countUp true R junk = some c) : MoveOut a T (Tri a T (cfg.calculateTicks a) N) R countUp c := by
  rcases hl with ⟨l1, ⟨l2, l3⟩ | ⟨l2, l3, l4, l5, l6⟩, l7, l8⟩ | ⟨l1, l2, l3, l4, l5, l6⟩ | ⟨l1, l2, l3, l4, l5, l6, l7⟩ | ⟨-, -, -, l4⟩
  · exact plan_tri_start hT hf l2 l3 (by omega) (by omega) h
  · exact plan_tri_acc hT hf l1 l2 l3 l4 l5 l6 l7 l8 h
  · exact plan_tri_coast hT hf hM l1 l2 l3 l4 l5 l6 h
  · exact (plan_down hT hf.base l1 l2 l3 l4 l5 l6 l7 h).mono fun _ _ _ hx => .down hx
  · exact absurd l4 hR

end Planner
end FAS
