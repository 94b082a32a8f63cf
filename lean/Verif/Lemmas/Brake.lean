import Verif.Lemmas.Service
import Verif.Spec.Brake

/-!
# The planner keeps a speed from which it can stop
-/

namespace FAS

open Spec

namespace Planner

/-- Steps the planner looks ahead. -/
def horizon (a : ArchId) (P : Nat) : Nat := if P < a.ticksPerS / 1000 then a.ticksPerS / 500 / P else 1

theorem planningSteps_horizon {a : ArchId} {ct orig : Nat} (h : planningSteps a ct = some orig) : orig = horizon a ct := by
  unfold planningSteps at h
  unfold horizon
  split at h
  · rename_i hc
    rw [if_pos hc]
    split at h
    · cases h
    · cases h
      cases a <;> simp only [ArchId.ticksPerS, u16] at hc ⊢ <;>
        rw [Nat.mod_eq_of_lt (show ct < 65536 by omega)]
  · rename_i hc
    rw [if_neg hc]
    cases h; rfl

theorem horizon_pos {a : ArchId} {P : Nat} (h : 0 < P) : 1 ≤ horizon a P := by
  unfold horizon
  split
  · rename_i hc
    refine Nat.div_pos ?_ h
    cases a <;> simp only [ArchId.ticksPerS] at hc ⊢ <;> omega
  · exact Nat.le_refl _

theorem horizon_anti {a : ArchId} {P Q : Nat} (hp : 0 < P) (h : P ≤ Q) : horizon a Q ≤ horizon a P := by
  by_cases hq : Q < a.ticksPerS / 1000
  · unfold horizon
    rw [if_pos hq, if_pos (by omega)]
    exact Nat.div_le_div_left h hp
  · have h1 : horizon a Q = 1 := by unfold horizon; rw [if_neg hq]
    rw [h1]; exact horizon_pos hp

theorem horizon_small {a : ArchId} {P : Nat} (h : a.minCmdTicks ≤ P) : horizon a P ≤ 50 := by
  refine Nat.le_trans (horizon_anti (by cases a <;> decide) h) ?_
  cases a <;> decide

theorem horizon_slow {a : ArchId} {P : Nat} (h : 21000 ≤ P) : horizon a P = 1 := by
  unfold horizon
  rw [if_neg]
  cases a <;> simp only [ArchId.ticksPerS] <;> omega

theorem horizon_2ms {a : ArchId} {P : Nat} : horizon a P ≤ stepsIn2ms a P := by
  unfold horizon stepsIn2ms
  split <;> omega

/-- The speed (period `P`) is one from which the motor can stop within `prus` steps, or within the steps the planner looks ahead. -/
structure Brakeable (a : ArchId) (T : Nat) (f : Nat → Nat) (P prus : Nat) : Prop where
  slow : f (max prus (horizon a P)) ≤ P
  over : prus ≤ horizon a P ∨ a.minCmdTicks ≤ f (prus - horizon a P)
  acc : T < P → prus = 0 ∨ a.minCmdTicks ≤ f prus
  set : T ≤ P

/-- The ramp gets slower with fewer steps. -/
def Antitone32 (f : Nat → Nat) : Prop := ∀ s t, 0 < s → s ≤ t → t < 4294967296 → f t ≤ f s

theorem Brakeable.accelerate {a : ArchId} {T P prus pl Q F : Nat} {f : Nat → Nat} (hf : Antitone32 f) (hmin : a.minCmdTicks ≤ T)
    (hlt : prus + pl < 2147483648) (hpl : 0 < pl) (hct : T < P) (hF : f (prus + pl) ≤ F) (hacc : T < F → a.minCmdTicks ≤ f (prus + pl))
    (h : (P = ticksForStoppedMotor ∧ prus = 0 ∧ Q = max T F ∧ pl = 1) ∨
      (Brakeable a T f P prus ∧ pl ≤ horizon a P ∧ Q = min (max T F) P)) : Brakeable a T f Q (prus + pl) := by
  have hm : 0 < a.minCmdTicks := by cases a <;> decide
  have hQT : T ≤ Q := by
    rcases h with ⟨-, -, h, -⟩ | ⟨-, -, h⟩ <;> omega
  have hsm := horizon_small (a := a) (P := Q) (by omega)
  have hpo := horizon_pos (a := a) (P := Q) (by omega)
  rcases h with ⟨-, h0, hQ, hp1⟩ | ⟨hb, hle, hQ⟩
  · subst h0
    refine ⟨?_, Or.inl (by omega), fun h => Or.inr (by omega), hQT⟩
    have := hf (0 + pl) (max (0 + pl) (horizon a Q)) (by omega) (by omega) (by omega)
    omega
  · have hPQ : Q ≤ P := by omega
    have hh := horizon_anti (a := a) (P := Q) (Q := P) (by omega) hPQ
    have hsP := horizon_small (a := a) (P := P) (by omega)
    have hpP := horizon_pos (a := a) (P := P) (by omega)
    refine ⟨?_, ?_, fun h => Or.inr (by omega), hQT⟩
    · by_cases he : Q = P
      · rw [he] at hpo ⊢
        have := hb.slow
        have := hf (max prus (horizon a P)) (max (prus + pl) (horizon a P)) (by omega) (by omega) (by omega)
        omega
      · have := hf (prus + pl) (max (prus + pl) (horizon a Q)) (by omega) (by omega) (by omega)
        omega
    · by_cases ho : prus + pl ≤ horizon a Q
      · exact Or.inl ho
      · right
        rcases hb.acc hct with h0 | h0
        · omega
        · have := hf (prus + pl - horizon a Q) prus (by omega) (by omega) (by omega)
          omega

/-- Deceleration without slowing down: the braking distance is not larger than the planner looks ahead. The period can get longer by the rounding of the ramp. -/
theorem Brakeable.hold {a : ArchId} {T P prus n Q : Nat} {f : Nat → Nat} (hf : Antitone32 f) (hmin : a.minCmdTicks ≤ T)
    (hb : Brakeable a T f P prus) (hle : prus ≤ horizon a P) (hn : n ≤ prus)
    (hQ : Q = P ∨ (P < Q ∧ f (horizon a Q) ≤ Q ∧ a.minCmdTicks ≤ f (horizon a P))) : Brakeable a T f Q n := by
  rcases hQ with hQ | ⟨hQ, hq2, hq3⟩
  rotate_left
  · have hm : 0 < a.minCmdTicks := by cases a <;> decide
    have := hb.set
    have hsm := horizon_small (a := a) (P := P) (by omega)
    have hpo := horizon_pos (a := a) (P := Q) (by omega)
    have hsq := horizon_small (a := a) (P := Q) (by omega)
    refine ⟨?_, ?_, fun _ => ?_, by omega⟩
    · have := hf (horizon a Q) (max n (horizon a Q)) (by omega) (by omega) (by omega)
      omega
    · by_cases h1 : n ≤ horizon a Q
      · exact Or.inl h1
      · right
        have := hf (n - horizon a Q) (horizon a P) (by omega) (by omega) (by omega)
        omega
    · by_cases h0 : n = 0
      · exact Or.inl h0
      · right
        have := hf n (horizon a P) (by omega) (by omega) (by omega)
        omega
  rw [hQ]
  have hm : 0 < a.minCmdTicks := by cases a <;> decide
  have := hb.set
  have hsm := horizon_small (a := a) (P := P) (by omega)
  have hpo := horizon_pos (a := a) (P := P) (by omega)
  refine ⟨?_, Or.inl (by omega), fun h => ?_, hb.set⟩
  · have h1 := hb.slow
    rw [Nat.max_eq_right hle] at h1
    rw [Nat.max_eq_right (by omega)]
    exact h1
  · by_cases h0 : n = 0
    · exact Or.inl h0
    · right
      rcases hb.acc h with h1 | h1
      · omega
      · have := hf n prus (by omega) hn (by omega)
        omega

/-- Deceleration: at least `rs` of the braking distance remains, and the period is the one of the ramp or slower. -/
theorem Brakeable.decelerate {a : ArchId} {T P prus rs n Q : Nat} {f : Nat → Nat} (hf : Antitone32 f) (hmin : a.minCmdTicks ≤ T)
    (hb : Brakeable a T f P prus) (hprus : prus < 4294967296) (h1 : 1 ≤ rs) (hrs : rs + horizon a P = prus) (hn1 : rs ≤ n) (hn : n ≤ prus)
    (hP : P ≤ Q) (hQ : f n ≤ Q) (hne : n = rs ∨ a.minCmdTicks ≤ f prus) : Brakeable a T f Q n := by
  have hm : 0 < a.minCmdTicks := by cases a <;> decide
  have hset := hb.set
  have hsm := horizon_small (a := a) (P := Q) (by omega)
  have hpo := horizon_pos (a := a) (P := Q) (by omega)
  have hpP := horizon_pos (a := a) (P := P) (by omega)
  have hov : a.minCmdTicks ≤ f rs := by
    rcases hb.over with h | h
    · omega
    · rw [show prus - horizon a P = rs by omega] at h; exact h
  refine ⟨?_, ?_, fun h => Or.inr ?_, by omega⟩
  · by_cases hx : n ≤ horizon a Q
    · rw [Nat.max_eq_right hx]
      have := hf n (horizon a Q) (by omega) (by omega) (by omega)
      omega
    · rw [Nat.max_eq_left (by omega)]
      exact hQ
  · by_cases hx : n ≤ horizon a Q
    · exact Or.inl hx
    · right
      rcases hne with h | h
      · have := hf (n - horizon a Q) rs (by omega) (by omega) (by omega)
        omega
      · have := hf (n - horizon a Q) prus (by omega) (by omega) (by omega)
        omega
  · rcases hne with h2 | h2
    · subst h2; exact hov
    · have := hf n prus (by omega) hn (by omega)
      omega

/-- The output for a period `P`. -/
theorem output_period {ph : RampPhase} {up : Bool} {n st P t : Nat} {sp : Split} (hP : P < 4294967296) (hsp : split st P = sp) (ht : t = sp.ticks) :
    (output ph up n sp.steps t sp.pause).rw.currTicks = P ∧ (output ph up n sp.steps t sp.pause).command.ticks + sp.pause = P ∧
    (output ph up n sp.steps t sp.pause).rw.pauseTicksLeft = sp.pause ∧ (output ph up n sp.steps t sp.pause).rw.performedRampUpSteps = n ∧
    ((P ≤ 65535 ∧ sp.steps = st) ∨ (65535 < P ∧ sp.steps = 1)) := by
  subst ht
  unfold output
  dsimp only
  rcases split_range st P with ⟨h1, h2⟩ | ⟨h1, h2, h3, h4⟩
  · rw [← hsp, h2]
    unfold u16 u32
    dsimp only
    exact ⟨by omega, by omega, rfl, rfl, Or.inl ⟨h1, rfl⟩⟩
  · rw [hsp] at h2 h3 h4
    unfold u16 u32
    exact ⟨by omega, by omega, rfl, rfl, Or.inr ⟨h1, h2⟩⟩

theorem minCmd_slow {a : ArchId} {ph : RampPhase} {remaining prus d pl : Nat} {p : Plan} (hd : a.minCmdTicks ≤ d)
    (h : minCmd a ph remaining prus d pl = some p) : p = ⟨ph, d, pl⟩ := by
  unfold minCmd at h
  rw [if_neg (by omega)] at h
  exact (Option.some.inj h).symm

/-- What the planner needs to know about the ramp `F`: up to rounding it gets slower with fewer steps, `f` is a lower bound which really does so. -/
structure GoodRamp (a : ArchId) (T : Nat) (f F : Nat → Nat) : Prop where
  anti : Antitone32 f
  below : ∀ n, 1 ≤ n → n < 4294967296 → f n ≤ F n
  live : ∀ n, 1 ≤ n → n < 4294967296 → F n ≤ 1073741824
  /-- The speed does not jump: a step slower than 65535 ticks is not followed within 50 steps by one below the minimum command time. -/
  smooth : ∀ n k, 1 ≤ n → n + k < 4294967296 → k ≤ 50 → 65535 < F n → a.minCmdTicks ≤ f (n + k)
  acc : ∀ n, 1 ≤ n → n < 4294967296 → T < F n → a.minCmdTicks ≤ f n
  hold : ∀ P, T ≤ P → P < 4294967296 → f (horizon a P) ≤ P → P < F (horizon a P) →
    f (horizon a (F (horizon a P))) ≤ F (horizon a P) ∧ F (horizon a P) ≤ 2 * P

/-- The command made for slowing down. -/
theorem slow_down {a : ArchId} {f : Nat → Nat} {T P prus orig d mx : Nat} {ph : RampPhase} {rem : Nat} {sp : Split} {pa : Nat × Nat} {countUp : Bool}
    {c : NextCommand} (hf : Antitone32 f) (hmin : a.minCmdTicks ≤ T) (hmt : T < 4294967295) (hprus : prus < 2147483648)
    (hb : Brakeable a T f P prus) (hP : P < 4294967295) (hor : horizon a P = orig) (o1 : 0 < orig) (h50 : orig ≤ 50) (hlt : orig < prus)
    (hd3 : f (prus - orig) ≤ max d P) (hd4 : d < 4294967295) (hjump : max d P > 65535 → orig ≠ 1 → a.minCmdTicks ≤ f prus)
    (hslp : T < P → a.minCmdTicks ≤ f prus) (hdec : ph.isDec = true)
    (k5 : rem = prus ∨ (T < P ∧ P < 8400 ∧ rem - prus < orig))
    (hsp : split orig (max d P) = sp) (hpa : prusAfter ph T mx prus rem sp.steps sp.ticks = pa)
    (hc : c = output ph countUp pa.1 sp.steps pa.2 sp.pause) :
    c.command.ticks + c.rw.pauseTicksLeft = c.rw.currTicks ∧ c.rw.currTicks ≠ ticksForStoppedMotor ∧ c.rw.performedRampUpSteps < 2147483648 ∧
    Brakeable a T f c.rw.currTicks c.rw.performedRampUpSteps := by
  have hst : ticksForStoppedMotor = 4294967295 := rfl
  have hst2 := split_range orig (max d P)
  rw [hsp] at hst2
  have hsteps : 1 ≤ sp.steps ∧ sp.steps ≤ orig ∧ (sp.steps = orig ∨ (65535 < max d P ∧ orig ≠ 1)) := by
    rcases hst2 with ⟨h4, h5⟩ | ⟨h4, h5, -⟩
    · rw [h5]; exact ⟨o1, Nat.le_refl _, Or.inl rfl⟩
    · rw [h5]; exact ⟨Nat.le_refl _, o1, by omega⟩
  obtain ⟨s1, s2, s3⟩ := hsteps
  have hfn : ∀ n, prus - orig ≤ n → n ≤ prus → f n ≤ max d P := by
    intro n h1 h2
    have := hf (prus - orig) n (by omega) h1 (by omega)
    omega
  -- all but one case
  have hgen : ∀ n, pa = (n, sp.ticks) → prus - orig ≤ n → n ≤ prus → (n = prus - orig ∨ a.minCmdTicks ≤ f prus) →
      c.command.ticks + c.rw.pauseTicksLeft = c.rw.currTicks ∧ c.rw.currTicks ≠ ticksForStoppedMotor ∧ c.rw.performedRampUpSteps < 2147483648 ∧
      Brakeable a T f c.rw.currTicks c.rw.performedRampUpSteps := by
    intro n e1 e2 e3 e4
    clear hst2 s3 k5 hjump hslp
    subst e1
    obtain ⟨q1, q2, q3, q4, q5⟩ := output_period (ph := ph) (up := countUp) (n := n) (P := max d P) (by omega) hsp rfl
    rw [hc]
    dsimp only
    rw [q1, q3, q4]
    clear q1 q3 q4 q5
    refine ⟨q2, by omega, by omega, ?_⟩
    exact hb.decelerate hf hmin (by omega) (rs := prus - orig) (by omega) (by omega) e2 e3 (by omega) (hfn _ e2 e3) e4
  have hfull : sp.steps = orig ∨ a.minCmdTicks ≤ f prus := by
    rcases s3 with h4 | ⟨h4, h5⟩
    · exact Or.inl h4
    · exact Or.inr (hjump h4 h5)
  have hna : ph.isAcc = false := by
    cases hq : ph <;> rw [hq] at hdec <;> first | rfl | cases hdec
  rcases prusAfter_cases ph T mx prus rem sp.steps sp.ticks with ⟨h, -⟩ | ⟨-, h, -⟩ | ⟨-, h⟩
  · rw [hna] at h; cases h
  · rw [hdec] at h; cases h
  · rw [hpa] at h
    clear hjump hpa hsp s3
    rcases h with ⟨h1, -⟩ | ⟨-, -, -, h⟩ | ⟨h1, h2, h3, h⟩ | ⟨h1, -, h2, h3, h⟩ | ⟨-, -, h2, -, h⟩ | ⟨-, -, -, h⟩
    · omega
    · refine hgen _ h (by omega) (by omega) ?_
      rcases hfull with h4 | h4
      · left; rw [h4]
      · exact Or.inr h4
    · -- the set speed is put in
      clear hgen
      have hu : u32 (mx + sp.steps) = prus + sp.steps := by unfold u32; omega
      rw [hu] at h3
      have hTP : T < P ∧ P < 8400 ∧ rem - prus < orig := by
        rcases k5 with h4 | h4
        · omega
        · exact h4
      rcases hst2 with ⟨h4, h5⟩ | ⟨h4, h5, h6, h7⟩
      · rw [h5] at h3; dsimp only at h3; omega
      · have e1 : c.rw.currTicks = sp.pause + T := by
          rw [hc, h]
          change u32 (sp.pause + T) = _
          unfold u32; omega
        have e2 : c.command.ticks = T := by
          rw [hc, h]
          change u16 T = _
          unfold u16; omega
        have e3 : c.rw.pauseTicksLeft = sp.pause := by rw [hc]; rfl
        have e4 : c.rw.performedRampUpSteps = prus := by rw [hc, h, h2]; rfl
        have hsl := hb.slow
        rw [hor, Nat.max_eq_left (by omega)] at hsl
        rw [e1, e2, e3, e4]
        refine ⟨by omega, by omega, hprus, ?_⟩
        exact hb.decelerate hf hmin (by omega) (rs := prus - orig) (by omega) (by omega) (by omega) (Nat.le_refl _) (by omega) (by omega)
          (Or.inr (hslp hTP.1))
    · refine hgen _ h (by omega) (by omega) (Or.inr (hslp ?_))
      omega
    · refine hgen _ h (by omega) (by omega) (Or.inr (hslp ?_))
      omega
    · refine hgen _ h (by omega) (by omega) ?_
      rcases hfull with h4 | h4
      · left; rw [h4]
      · exact Or.inr h4

set_option maxHeartbeats 800000 in
/-- The planner keeps the relation of speed and braking distance. -/
theorem plan_brake {a : ArchId} {cfg : RampConfig} {rw : RampRw} {countUp same : Bool} {remaining : Nat}
    {junk c : NextCommand} {f : Nat → Nat} (hg : GoodRamp a cfg.parameters.minTravelTicks f (cfg.calculateTicks a)) (hmin : a.minCmdTicks ≤ cfg.parameters.minTravelTicks)
    (hmt : cfg.parameters.minTravelTicks < ticksForStoppedMotor)
    (hprus : rw.performedRampUpSteps < 2147483648) (hrem : remaining < 2147483648) (hct : rw.currTicks < 4294967296)
    (hsame : rw.performedRampUpSteps = 0 → same = true) (hnd : ¬(remaining = 0 ∧ rw.performedRampUpSteps ≤ 1))
    (hb : (rw.currTicks = ticksForStoppedMotor ∧ rw.performedRampUpSteps = 0) ∨
      (rw.currTicks ≠ ticksForStoppedMotor ∧
        Brakeable a cfg.parameters.minTravelTicks f rw.currTicks rw.performedRampUpSteps))
    (h : plan a cfg rw countUp same remaining junk = some c) :
    c.command.ticks + c.rw.pauseTicksLeft = c.rw.currTicks ∧ c.rw.currTicks ≠ ticksForStoppedMotor ∧ c.rw.performedRampUpSteps < 2147483648 ∧
    Brakeable a cfg.parameters.minTravelTicks f c.rw.currTicks c.rw.performedRampUpSteps := by
  have hmc : a.minCmdTicks ≤ 4200 ∧ 0 < a.minCmdTicks := by cases a <;> decide
  obtain ⟨orig, s, ho, hs, h⟩ := plan_cases h
  have hor := planningSteps_horizon ho
  obtain ⟨o1, o2, o3, -⟩ := planningSteps_range ho
  have hsr : s.remaining = wayToGo rw.performedRampUpSteps remaining same := by rw [← hs]; exact select_remaining _ _ _ _ _ _ _
  have hway : s.remaining ≠ 0 := by
    rw [hsr]; unfold wayToGo
    split
    · omega
    · rename_i h1
      intro h2
      exact h1 ⟨hsame h2, by omega⟩
  rcases h with ⟨h, -⟩ | ⟨-, d, pl, p, sp, pa, hn, hm, hsp, hpa, hc⟩
  · exact absurd h hway
  have hctT : cfg.parameters.minTravelTicks ≤ rw.currTicks := by
    rcases hb with ⟨h, -⟩ | ⟨-, h⟩
    · omega
    · exact h.set
  have hst : ticksForStoppedMotor = 4294967295 := rfl
  have h50 : orig ≤ 50 := by rw [hor]; exact horizon_small (by omega)
  have hslow : 21000 ≤ rw.currTicks → orig = 1 := by intro h; rw [hor]; exact horizon_slow h
  generalize hfd : cfg.calculateTicks a = F at hg
  have hf := hg.anti
  generalize hT : cfg.parameters.minTravelTicks = T at *
  generalize hP0 : rw.currTicks = P at *
  generalize hB : rw.performedRampUpSteps = prus at *
  -- the kinds of commands
  have hkind : (s.phase = .accelerate ∧ prus < remaining ∧ T < P ∧ s.planning = orig ∧ s.remaining = remaining) ∨
      (s.phase = .coast ∧ prus < remaining ∧ P ≠ ticksForStoppedMotor ∧ s.remaining = remaining ∧
        (s.planning = orig ∨ s.planning ≤ remaining - prus)) ∨
      (s.phase.isDec = true ∧ s.planning = orig ∧ P ≠ ticksForStoppedMotor ∧
        (s.remaining = prus ∨ (T < P ∧ P < 8400 ∧ prus < s.remaining ∧ s.remaining - prus < orig))) := by
    have hnst : same = false ∨ remaining ≤ prus → P ≠ ticksForStoppedMotor := by
      intro h1 h2
      rcases hb with ⟨-, h3⟩ | ⟨h3, -⟩
      · rcases h1 with h1 | h1
        · rw [hsame h3] at h1; cases h1
        · omega
      · exact h3 h2
    by_cases hx : same = false ∨ remaining < prus
    · rw [select_reverse hx] at hs
      refine Or.inr (Or.inr ?_)
      have := hnst (by rcases hx with h | h; exacts [Or.inl h, Or.inr (by omega)])
      subst hs
      exact ⟨rfl, rfl, this, Or.inl rfl⟩
    · have hstt : same = true := by
        cases same
        · exact absurd (Or.inl rfl) hx
        · rfl
      subst hstt
      by_cases he : remaining = prus
      · have := hnst (Or.inr (by omega))
        rw [he, select_equal] at hs; subst hs
        exact Or.inr (Or.inr ⟨rfl, rfl, this, Or.inl rfl⟩)
      · have hlt : prus < remaining := by omega
        obtain ⟨e1, e2⟩ := select_forward hlt hs
        rcases e2 with ⟨h1, h2, h3⟩ | ⟨h1, h2, h3⟩ | ⟨h1, h2⟩
        · exact Or.inl ⟨h1, hlt, h2, h3, e1⟩
        · exact Or.inr (Or.inl ⟨h1, hlt, by omega, e1, h3⟩)
        · refine Or.inr (Or.inr ?_)
          rw [h1, e1]
          refine ⟨rfl, ?_⟩
          rcases h2 with ⟨h2, -⟩ | ⟨h2, h3, h4, h5⟩ | ⟨h2, h3, -⟩
          · omega
          · exact ⟨h4, by omega, Or.inr ⟨h2, by omega, hlt, h5⟩⟩
          · omega
  rcases hkind with ⟨k1, k2, k3, k4, k5⟩ | ⟨k1, k2, k3, k4, k5⟩ | ⟨k1, k2, k4, k5⟩
  · -- acceleration
    obtain ⟨n1, n2, n3, n4⟩ := newTicks_acc k1 (by rw [k5]; exact k2) (by rw [k5]; exact hrem) k4 o1 hn
    have hd : d = max T (F (prus + pl)) := by
      unfold newTicks at hn
      dsimp only at hn
      rw [k1] at hn
      simp only [RampPhase.isAcc, if_true] at hn
      obtain ⟨h3, h4⟩ := Prod.mk.inj hn
      rw [h4, hfd, hT] at h3
      have hu : u32 (prus + pl) = prus + pl := by unfold u32; omega
      rw [hu] at h3
      rw [← h3]
      split <;> omega
    have hp := minCmd_slow (by omega) hm
    subst hp
    dsimp only at hsp hpa hc
    rw [k1] at hsp hpa hc
    rw [k5] at hsp
    have hst1 : stepsFor pl remaining = pl := by unfold stepsFor; omega
    rw [hst1] at hsp
    generalize hQ : clip .accelerate P d = Q at hsp
    have hQ' : Q = if P = ticksForStoppedMotor then d else min d P := by
      rw [← hQ]; unfold clip
      by_cases h : P = ticksForStoppedMotor
      · rw [if_neg (by simpa using h), if_pos h]
      · rw [if_pos h, if_neg h]; rfl
    have hflt := hg.live (prus + pl) (by omega) (by omega)
    have hpa' : pa = (u32 (prus + sp.steps), sp.ticks) := by rw [← hpa]; rfl
    subst hpa'
    have hQlt : Q < 4294967295 := by rw [hQ']; split <;> omega
    obtain ⟨q1, q2, q3, q4, q5⟩ := output_period (ph := .accelerate) (up := countUp) (n := u32 (prus + sp.steps)) (st := pl) (P := Q)
      (by omega) hsp rfl
    have hsteps : sp.steps = pl := by
      rcases q5 with ⟨-, q5⟩ | ⟨q5, q6⟩
      · exact q5
      · have : 21000 ≤ P := by rw [hQ'] at q5; split at q5 <;> omega
        have := hslow this
        omega
    rw [hc]
    dsimp only
    rw [q1, q3, q4]
    have hu : u32 (prus + sp.steps) = prus + pl := by rw [hsteps]; unfold u32; omega
    rw [hu]
    refine ⟨q2, by omega, by omega, ?_⟩
    refine Brakeable.accelerate hf hmin (P := P) (by omega) n2 k3 (hg.below _ (by omega) (by omega)) (hg.acc _ (by omega) (by omega)) ?_
    by_cases hs0 : P = ticksForStoppedMotor
    · rw [if_pos hs0] at hQ'
      rcases hb with ⟨-, hb⟩ | ⟨hb, -⟩
      · exact Or.inl ⟨hs0, hb, by omega, by have := hslow (by omega); omega⟩
      · exact absurd hs0 hb
    · rw [if_neg hs0] at hQ'
      rcases hb with ⟨hb, -⟩ | ⟨-, hb⟩
      · exact absurd hb hs0
      · exact Or.inr ⟨hb, by omega, by omega⟩
  · -- constant speed
    replace hb : Brakeable a T f P prus := by
      rcases hb with ⟨hb, -⟩ | ⟨-, hb⟩
      · exact absurd hb k3
      · exact hb
    have hd := (newTicks_coast k1 (by rw [k4]; exact k2) (by rw [k4]; exact hrem) (by rw [k4]; exact k5) hn).1
    have hp := minCmd_slow (by omega) hm
    subst hp
    dsimp only at hsp hpa hc
    rw [k1] at hsp hpa hc
    have hQ : clip .coast P d = P := by
      unfold clip; rw [if_pos k3, hd]; rfl
    rw [hQ] at hsp
    have hpa' : pa = (prus, sp.ticks) := by rw [← hpa]; rfl
    subst hpa'
    obtain ⟨q1, q2, q3, q4, q5⟩ := output_period (ph := .coast) (up := countUp) (n := prus) (P := P) hct hsp rfl
    rw [hc]
    dsimp only
    rw [q1, q3, q4]
    exact ⟨q2, k3, hprus, hb⟩
  · -- deceleration
    replace hb : Brakeable a T f P prus := by
      rcases hb with ⟨hb, -⟩ | ⟨-, hb⟩
      · exact absurd hb k4
      · exact hb
    have hpl : pl = orig := (newTicks_dec k1 hn).trans k2
    have hna : s.phase.isAcc = false := by
      cases hq : s.phase <;> rw [hq] at k1 <;> first | rfl | cases k1
    have hnew : (prus = 1 ∧ d = T) ∨ (prus ≠ 1 ∧ prus ≤ orig ∧ (d = F orig ∨ d = T)) ∨
        (orig < prus ∧ (d = F (prus - orig) ∨ (d = T ∧ F (prus - orig) < T))) := by
      unfold newTicks at hn
      dsimp only at hn
      rw [hna, k1, k2, hfd, hT] at hn
      simp only [Bool.false_eq_true, if_false, if_true] at hn
      by_cases h1 : prus = 1
      · rw [if_pos h1] at hn
        exact Or.inl ⟨h1, (Prod.mk.inj hn).1.symm⟩
      · rw [if_neg h1] at hn
        have hn := (Prod.mk.inj hn).1
        by_cases h2 : prus ≤ orig
        · rw [if_pos h2] at hn
          refine Or.inr (Or.inl ⟨h1, h2, ?_⟩)
          split at hn
          · exact Or.inr hn.symm
          · exact Or.inl hn.symm
        · rw [if_neg h2] at hn
          refine Or.inr (Or.inr ⟨by omega, ?_⟩)
          split at hn
          · rename_i h3; exact Or.inr ⟨hn.symm, h3.2⟩
          · exact Or.inl hn.symm
    have hR : prus ≤ s.remaining := by omega
    by_cases hle : prus ≤ orig
    · -- the speed is held
      have hfo : f orig ≤ P := by
        have h1 := hb.slow
        rw [← hor, Nat.max_eq_right hle] at h1
        exact h1
      have hdP : d ≤ P ∨ (P < d ∧ d = F orig ∧ d ≤ 2 * P ∧ f (horizon a d) ≤ d ∧ a.minCmdTicks ≤ f orig) := by
        by_cases hdP : d ≤ P
        · exact Or.inl hdP
        · right
          have hdF : d = F orig := by omega
          have h2 := hg.hold P hctT (by omega) (by rw [← hor]; exact hfo) (by rw [← hor]; omega)
          rw [← hor, ← hdF] at h2
          exact ⟨by omega, hdF, h2.2, h2.1, hg.acc orig (by omega) (by omega) (by omega)⟩
      obtain ⟨-, hmc2⟩ := minCmd_cases hm
      have hdec : p.phase.isDec = true := by
        rcases hmc2 with ⟨h, -⟩ | ⟨-, -, h⟩ | ⟨-, -, -, -, -, ⟨h, -⟩ | ⟨h, -⟩⟩ <;> rw [h]
        · exact k1
        · rfl
        · exact k1
        · rfl
      have hpt : p.ticks ≤ P ∨ p.ticks = d := by
        rcases hmc2 with ⟨h, -⟩ | ⟨-, h0, h⟩ | ⟨-, h, -⟩
        · rw [h]; exact Or.inr rfl
        · rw [h]
          left
          dsimp only
          have h2 : (a.minCmdTicks + s.remaining - 1) / s.remaining ≤ a.minCmdTicks := by
            apply Nat.div_le_of_le_mul
            obtain ⟨r, hr⟩ : ∃ r, s.remaining = r + 1 := ⟨s.remaining - 1, by omega⟩
            obtain ⟨m, hm⟩ : ∃ m, a.minCmdTicks = m + 1 := ⟨a.minCmdTicks - 1, by omega⟩
            rw [hr, hm, Nat.add_mul, Nat.mul_add]
            omega
          omega
        · omega
      have hpa2 : p.phase.isAcc = false := by
        cases hq : p.phase <;> rw [hq] at hdec <;> first | rfl | cases hdec
      have hQ : ∃ Q, clip p.phase P p.ticks = Q ∧ (Q = P ∨ (P < Q ∧ f (horizon a Q) ≤ Q ∧ a.minCmdTicks ≤ f orig)) ∧ P ≤ Q ∧ Q ≤ 2 * P ∧ Q < 4294967295 := by
        refine ⟨_, rfl, ?_⟩
        have hlive := hg.live orig (by omega) (by omega)
        unfold clip
        rw [if_pos k4, hpa2, hdec]
        simp only [Bool.false_eq_true, if_false, if_true]
        by_cases h1 : p.ticks ≤ P
        · rw [show max p.ticks P = P by omega]
          omega
        · have h2 : p.ticks = d := by omega
          rw [h2] at h1 ⊢
          rw [show max d P = d by omega]
          omega
      obtain ⟨Q, hQ, hQ1, hQ2, hQ3, hQ4⟩ := hQ
      rw [hQ] at hsp
      have hst2 := split_range (stepsFor p.planning s.remaining) Q
      rw [hsp] at hst2
      have key : pa.1 ≤ prus ∧ pa.2 = sp.ticks := by
        rcases prusAfter_cases p.phase T cfg.maxRampUpSteps prus s.remaining sp.steps sp.ticks with ⟨h, -⟩ | ⟨-, h, -⟩ | ⟨-, h⟩
        · rw [hpa2] at h; cases h
        · rw [hdec] at h; cases h
        · rw [hpa] at h
          rcases h with ⟨-, h⟩ | ⟨-, -, -, h⟩ | ⟨h1, h2, h3, h⟩ | ⟨h1, -, h2, h3, h⟩ | ⟨-, -, -, -, h⟩ | ⟨-, -, -, h⟩
          · rw [h]; exact ⟨Nat.zero_le _, rfl⟩
          · rw [h]; exact ⟨Nat.sub_le _ _, rfl⟩
          · exfalso
            have hu : u32 (cfg.maxRampUpSteps + sp.steps) = prus + sp.steps := by unfold u32; omega
            rw [hu] at h3
            have hs1 : 1 ≤ stepsFor p.planning s.remaining := (stepsFor_range _ _ hway).1
            rcases hst2 with ⟨h4, h5⟩ | ⟨h4, h5, -⟩
            · rw [h5] at h1 h3
              dsimp only at h1 h3
              unfold stepsFor at h1 h3 hs1
              rcases hmc2 with ⟨h, -⟩ | ⟨-, -, h⟩ | ⟨-, -, -, h6, h7, -⟩
              · rw [h] at h1 h3 hs1; dsimp only at h1 h3 hs1; omega
              · rw [h] at h1 h3 hs1; dsimp only at h1 h3 hs1
                have : u16 s.remaining = s.remaining := by unfold u16; omega
                omega
              · omega
            · omega
          · rw [h]; refine ⟨?_, rfl⟩; dsimp only; omega
          · rw [h]; exact ⟨Nat.le_refl _, rfl⟩
          · rw [h]; exact ⟨Nat.sub_le _ _, rfl⟩
      obtain ⟨q1, q2, q3, q4, q5⟩ := output_period (ph := p.phase) (up := countUp) (n := pa.1) (P := Q) (by omega) hsp key.2
      rw [hc, q1, q3, q4]
      exact ⟨q2, by omega, by omega, hb.hold hf hmin (by omega) key.1 (by rw [← hor]; exact hQ1)⟩
    · -- slowing down
      have hlt : orig < prus := by omega
      have hov : a.minCmdTicks ≤ f (prus - orig) := by
        rcases hb.over with h | h
        · omega
        · rw [← hor] at h; exact h
      have hd2 : a.minCmdTicks ≤ d ∧ f (prus - orig) ≤ max d P ∧ d ≤ max T 1073741824 ∧ (d = F (prus - orig) ∨ d = T) := by
        have := hg.live (prus - orig) (by omega) (by omega)
        have := hg.below (prus - orig) (by omega) (by omega)
        rcases hnew with ⟨h, -⟩ | ⟨-, h, -⟩ | ⟨-, h | ⟨h, h2⟩⟩
        · omega
        · omega
        · omega
        · omega
      obtain ⟨hd2, hd3, hd4, hd5⟩ := hd2
      have hp := minCmd_slow hd2 hm
      subst hp
      dsimp only at hsp hpa hc
      have hQ : clip s.phase P d = max d P := by
        unfold clip
        rw [if_pos k4, hna, k1]
        simp only [Bool.false_eq_true, if_false, if_true]
      rw [hQ] at hsp
      have hst1 : stepsFor pl s.remaining = orig := by unfold stepsFor; omega
      rw [hst1] at hsp
      have hslp : T < P → a.minCmdTicks ≤ f prus := by
        intro h
        rcases hb.acc h with h1 | h1
        · omega
        · exact h1
      have hjump : max d P > 65535 → orig ≠ 1 → a.minCmdTicks ≤ f prus := by
        intro h1 h2
        have h3 : ¬ 21000 ≤ P := fun h => h2 (hslow h)
        have := hg.smooth (prus - orig) orig (by omega) (by omega) h50 (by omega)
        rw [show prus - orig + orig = prus by omega] at this
        exact this
      refine slow_down hf hmin hmt hprus hb (by omega) hor.symm o1 h50 hlt hd3 (by omega) hjump hslp k1 ?_ hsp hpa hc
      · rcases k5 with h | ⟨h1, h2, h3, h4⟩
        · exact Or.inl h
        · exact Or.inr ⟨h1, h2, h4⟩

/-- An acceleration leaves room for braking, except for the single step of a move by one step. -/
theorem plan_room {a : ArchId} {cfg : RampConfig} {rw : RampRw} {countUp : Bool} {remaining : Nat}
    {junk c : NextCommand} (hmin : a.minCmdTicks ≤ cfg.parameters.minTravelTicks) (hset : cfg.parameters.minTravelTicks ≤ rw.currTicks)
    (hrem : remaining < 2147483648) (hlt : rw.performedRampUpSteps < remaining)
    (h : plan a cfg rw countUp true remaining junk = some c) (hph : c.rw.state.phase = .accelerate) :
    rw.performedRampUpSteps + 2 * c.command.steps ≤ remaining ∨ (rw.currTicks = ticksForStoppedMotor ∧ remaining = rw.performedRampUpSteps + 1) := by
  have hmc : a.minCmdTicks ≤ 4200 ∧ 0 < a.minCmdTicks := by cases a <;> decide
  obtain ⟨orig, s, ho, hs, h⟩ := plan_cases h
  have hor := planningSteps_horizon ho
  obtain ⟨o1, o2, o3, -⟩ := planningSteps_range ho
  have h50 : orig ≤ 50 := by rw [hor]; exact horizon_small (by omega)
  rcases h with ⟨-, h⟩ | ⟨-, d, pl, p, sp, pa, hn, hm, hsp, hpa, hc⟩
  · rw [h] at hph; cases hph
  have hpp : p.phase = .accelerate := by rw [hc] at hph; exact hph
  have hsel := select_forward hlt hs
  -- the phase is chosen by `select`
  have hsp' : s.phase = .accelerate := by
    have hd : p.phase = s.phase ∨ p.phase = .decelerate := by
      unfold minCmd at hm
      dsimp only at hm
      repeat' split at hm
      all_goals cases hm
      all_goals first | exact Or.inl rfl | exact Or.inr rfl
    rcases hd with hd | hd
    · rw [← hd]; exact hpp
    · rw [hpp] at hd; cases hd
  obtain ⟨e1, ⟨-, e2, e3⟩ | ⟨e2, -⟩ | ⟨e2, -⟩⟩ := hsel
  · obtain ⟨n1, n2, n3, n4⟩ := newTicks_acc hsp' (by rw [e1]; exact hlt) (by rw [e1]; exact hrem) e3 o1 hn
    have hp := minCmd_slow (by omega) hm
    subst hp
    dsimp only at hsp
    have hsteps : c.command.steps ≤ pl := by
      have h1 : c.command.steps = u8 sp.steps := by rw [hc]; rfl
      have h2 : stepsFor pl s.remaining ≤ pl := by unfold stepsFor; omega
      have h3 := split_range (stepsFor pl s.remaining) (clip s.phase rw.currTicks d)
      rw [hsp] at h3
      have h4 : u8 sp.steps ≤ sp.steps := Nat.mod_le _ _
      rcases h3 with ⟨-, h3⟩ | ⟨-, h3, -⟩
      · rw [h3] at h4 h1; dsimp only at h4 h1; omega
      · omega
    by_cases h1 : rw.performedRampUpSteps + 2 * pl ≤ remaining
    · left; omega
    · right
      rw [e1] at n4
      have hpl : pl = 1 := by omega
      refine ⟨?_, by omega⟩
      -- one step left: only from standstill
      have hone : remaining = rw.performedRampUpSteps + 1 := by omega
      unfold select at hs
      simp only [Bool.not_true, Bool.false_eq_true, if_false] at hs
      rw [if_neg (by omega), if_neg (by omega), if_pos e2] at hs
      by_cases h2 : rw.currTicks < 2 * a.minCmdTicks
      · exfalso
        have hh : 2 ≤ orig := by
          rw [hor]
          refine Nat.le_trans ?_ (horizon_anti (a := a) (P := rw.currTicks) (Q := 2 * a.minCmdTicks) (by omega) (by omega))
          cases a <;> decide
        rw [if_pos h2, if_pos (show orig > remaining - rw.performedRampUpSteps by omega)] at hs
        rw [← hs] at hsp'
        cases hsp'
      · rw [if_neg h2, if_pos (show remaining - rw.performedRampUpSteps < 2 * orig by omega)] at hs
        by_cases h3 : rw.currTicks = ticksForStoppedMotor
        · exact h3
        · rw [if_pos h3] at hs
          rw [← hs] at hsp'
          cases hsp'
  · rw [hsp'] at e2; cases e2
  · rw [hsp'] at e2; cases e2

end Planner
end FAS
