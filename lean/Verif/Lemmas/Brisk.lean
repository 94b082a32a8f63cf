import Verif.Lemmas.Brake

/-!
# Short commands of a move

At full speed and while accelerating or decelerating a command takes at least 11000 ticks (AVR: 0.7 ms). There are shorter ones only where the acceleration ends for lack of distance, where the deceleration begins, and at the end.
-/

namespace FAS

open Spec

namespace Planner

/-- What is needed of the ramp. -/
structure QuickRamp (F : Nat → Nat) : Prop where
  anti : Antitone32 F
  double : ∀ n, 1 ≤ n → 2 * n < 4294967296 → 7 * F n ≤ 10 * F (2 * n) + 17
  root : ∀ k, 2 ≤ k → k ≤ 25 → 11000 ≤ k * F (2 * k)
  first : 11000 ≤ F 1
  hundred : 1281 ≤ F 100
  live : ∀ n, 1 ≤ n → n < 4294967296 → F n ≤ 1073741824

/-- The number of short commands which may still come, `R` steps before the target and with the braking distance `n`. -/
def shortsLeft (R n : Nat) : Nat := if R = 0 then 0 else 1 + min 2 (R - n)

/-- As long as the motor need not decelerate, it follows the ramp. -/
def OnCurve (T : Nat) (F : Nat → Nat) (P n : Nat) : Prop := P = ticksForStoppedMotor ∨ P ≤ T ∨ (1 ≤ n ∧ P ≤ F n)

/-- The steps of a period. -/
theorem split_out {st q : Nat} {sp : Split} {ph : RampPhase} {up : Bool} {n : Nat} (hsp : split st q = sp) (h1 : 1 ≤ st) (h2 : st ≤ 255) (hq : q < 4294967296)
    {t : Nat} (ht : t = sp.ticks) {c : NextCommand} (hc : c = output ph up n sp.steps t sp.pause) :
    (c.command.steps = sp.steps ∧ (c.rw.pauseTicksLeft = 0 ∨ 32768 ≤ c.rw.pauseTicksLeft) ∧ (0 < q → c.command.ticks ≠ 0)) ∧ c.rw.currTicks = q ∧ c.rw.performedRampUpSteps = n ∧
    ((sp.steps = st ∧ q ≤ 65535 ∧ c.command.duration = q * st) ∨ (sp.steps = 1 ∧ 65535 < q ∧ 11000 ≤ c.command.duration)) := by
  obtain ⟨q1, q2, q3, q4, q5⟩ := output_period (ph := ph) (up := up) (n := n) hq hsp ht
  rw [← hc] at q1 q2 q3 q4
  have hst : c.command.steps = sp.steps := by
    rw [hc]; change u8 sp.steps = _
    unfold u8
    rcases q5 with ⟨-, h⟩ | ⟨-, h⟩ <;> omega
  refine ⟨⟨hst, ?_, ?_⟩, q1, q4, ?_⟩
  · rw [q3, ← hsp]; unfold split
    split
    · right; dsimp only; omega
    · exact Or.inl rfl
  · intro h0
    rcases split_range st q with ⟨h3, h4⟩ | ⟨h3, h4, h5, h6⟩
    · have : sp.pause = 0 := by rw [← hsp, h4]
      omega
    · have e2 : sp.ticks = min (q / 2) 65535 := by
        rw [← hsp]; unfold split; rw [if_pos (by omega)]
      rw [hsp] at h6
      omega
  have hd : c.command.duration = c.command.ticks * max 1 c.command.steps := rfl
  rcases split_range st q with ⟨h3, h4⟩ | ⟨h3, h4, h5, h6⟩
  · left
    have e1 : sp.steps = st ∧ sp.pause = 0 := by rw [← hsp, h4]; exact ⟨rfl, rfl⟩
    refine ⟨e1.1, h3, ?_⟩
    rw [hd, hst, e1.1, Nat.max_eq_right h1, show c.command.ticks = q by omega]
  · right
    rw [hsp] at h4 h5 h6
    have : c.command.ticks = sp.ticks := by omega
    have e2 : sp.ticks = min (q / 2) 65535 := by
      rw [← hsp]; unfold split; rw [if_pos (by omega)]
    refine ⟨h4, h3, ?_⟩
    rw [hd, hst, h4, show max 1 1 = 1 from rfl, Nat.mul_one]
    omega

theorem horizon_avr {a : ArchId} (hav : a.isAvr = true) (P : Nat) : horizon a P = if P < 16000 then 32000 / P else 1 := by
  cases a <;> first | rfl | cases hav

/-- The steps in 2 ms take at least 1.3 ms. -/
theorem horizon_time {P : Nat} (h0 : 640 ≤ P) (h1 : P < 16000) : 2 ≤ 32000 / P ∧ 32000 / P ≤ 50 ∧ 21333 ≤ P * (32000 / P) ∧ (1280 ≤ P → 32000 / P ≤ 25) ∧ (P < 1280 → 25 ≤ 32000 / P) := by
  have a1 : 2 ≤ 32000 / P := by rw [Nat.le_div_iff_mul_le (by omega)]; omega
  have a2 : 32000 / P ≤ 50 := Nat.le_trans (Nat.div_le_div_left h0 (by decide)) (by decide)
  have a3 := Nat.lt_mul_div_succ 32000 (show 0 < P by omega)
  refine ⟨a1, a2, ?_, fun h => Nat.le_trans (Nat.div_le_div_left h (by decide)) (by decide), fun h => ?_⟩
  · generalize 32000 / P = k at *
    have h3 : P * 2 ≤ P * k := Nat.mul_le_mul_left _ a1
    have h4 : P * (k + 1) = P * k + P := Nat.mul_succ _ _
    omega
  · rw [Nat.le_div_iff_mul_le (by omega)]; omega

theorem newAcc {a : ArchId} {cfg : RampConfig} {ct n R orig : Nat} (hnR : n < R) (hR : R < 2147483648) (o2 : orig ≤ 50) (o1 : 1 ≤ orig) :
    ∃ pl, newTicks a cfg ct n orig ⟨.accelerate, R, orig⟩ = (max cfg.parameters.minTravelTicks (cfg.calculateTicks a (n + pl)), pl) ∧
      ((pl = orig ∧ 2 * orig ≤ R - n) ∨ ((R - n) / 2 < orig ∧ pl = max 1 ((R - n) / 2))) := by
  unfold newTicks
  dsimp only
  simp only [RampPhase.isAcc, if_true]
  have hd : subU32 R n = R - n := by unfold subU32; omega
  rw [hd]
  have hmax : ∀ x y : Nat, (if x < y then y else x) = max y x := by intro x y; split <;> omega
  rw [hmax]
  by_cases h1 : R - n < 512
  · rw [if_pos h1]
    have h6 : u16 (R - n) = R - n := by unfold u16; omega
    rw [h6]
    by_cases h2 : (R - n) / 2 < orig
    · rw [if_pos h2]
      have h3 : (if (R - n) / 2 = 0 then 1 else (R - n) / 2) = max 1 ((R - n) / 2) := by split <;> omega
      rw [h3]
      exact ⟨_, by rw [show u32 (n + max 1 ((R - n) / 2)) = n + max 1 ((R - n) / 2) by unfold u32; omega], Or.inr ⟨h2, rfl⟩⟩
    · rw [if_neg h2]
      exact ⟨_, by rw [show u32 (n + orig) = n + orig by unfold u32; omega], Or.inl ⟨rfl, by omega⟩⟩
  · rw [if_neg h1]
    exact ⟨_, by rw [show u32 (n + orig) = n + orig by unfold u32; omega], Or.inl ⟨rfl, by omega⟩⟩

theorem newCoast {a : ArchId} {cfg : RampConfig} {ct n R orig x : Nat} (hnR : n < R) (hR : R < 2147483648) (o2 : orig ≤ 50) :
    newTicks a cfg ct n orig ⟨.coast, R, x⟩ = (ct, if R - n < 2 * orig then R - n else x) := by
  unfold newTicks
  dsimp only
  simp only [RampPhase.isAcc, RampPhase.isDec, Bool.false_eq_true, if_false]
  have hd : subU32 R n = R - n := by unfold subU32; omega
  rw [hd]
  by_cases h1 : R - n < 256
  · rw [if_pos h1]
    have h6 : u16 (R - n) = R - n := by unfold u16; omega
    rw [h6]
  · rw [if_neg h1, if_neg (by omega)]

theorem newDec {a : ArchId} {cfg : RampConfig} {ct n R orig x : Nat} :
    ∃ d, newTicks a cfg ct n orig ⟨.decelerate, R, x⟩ = (d, x) ∧ (d = cfg.parameters.minTravelTicks ∧ n ≤ 1 ∨
      (d = max cfg.parameters.minTravelTicks (cfg.calculateTicks a 1) ∧ (if n ≤ x then x else n - x) = 1) ∨ d = cfg.calculateTicks a (if n ≤ x then x else n - x)) := by
  unfold newTicks
  dsimp only
  simp only [RampPhase.isAcc, RampPhase.isDec, Bool.false_eq_true, if_false, if_true]
  by_cases h1 : n = 1
  · rw [if_pos h1]; exact ⟨_, rfl, Or.inl ⟨rfl, by omega⟩⟩
  · rw [if_neg h1]
    refine ⟨_, rfl, Or.inr ?_⟩
    generalize (if n ≤ x then x else n - x) = rs
    by_cases h2 : rs = 1 ∧ cfg.parameters.minTravelTicks > cfg.calculateTicks a rs
    · have h3 := h2.1
      rw [if_pos h2]; rw [h3] at h2; left; exact ⟨by omega, h3⟩
    · rw [if_neg h2]; right; rfl

theorem minCmdDec {a : ArchId} {R n d pl : Nat} {p : Plan} (hR : R ≠ 0) (hpl : 1 ≤ pl) (hpl2 : pl ≤ 50) (hmc : a.minCmdTicks = 640)
    (h : minCmd a .decelerate R n d pl = some p) : p.phase = .decelerate ∧ min pl R ≤ p.planning ∧ p.ticks ≤ max d 640 := by
  unfold minCmd at h
  rw [hmc] at h
  by_cases h1 : d < 640
  · rw [if_pos h1] at h
    by_cases h2 : u32 (d * pl) < 640
    · rw [if_pos h2] at h
      have h3 : u16 d = d := by unfold u16; omega
      rw [h3] at h
      by_cases h4 : d = 0
      · rw [if_pos h4] at h; cases h
      · rw [if_neg h4] at h
        dsimp only at h
        have h5 : u16 (640 + d - 1) = 640 + d - 1 := by unfold u16; omega
        rw [h5] at h
        have h6 : (640 + d - 1) / d ≤ 1280 := Nat.le_trans (Nat.div_le_self _ _) (by omega)
        generalize (640 + d - 1) / d = st at *
        have hu : u16 R ≤ R := Nat.mod_le _ _
        by_cases h7 : st ≥ R
        · simp only [if_pos h7] at h
          have h8 : u16 R = R := by unfold u16; omega
          rw [h8, if_pos (by omega), if_neg hR] at h
          cases h
          exact ⟨rfl, by dsimp only; omega, Nat.le_trans (Nat.div_le_of_le_mul (by rw [Nat.mul_comm]; have : 640 * 1 ≤ 640 * R := Nat.mul_le_mul_left _ (by omega); omega)) (Nat.le_max_right _ _)⟩
        · simp only [if_neg h7] at h
          by_cases h8 : 2 * max pl st ≥ R
          · have h9 : u16 R = R := by unfold u16; omega
            rw [if_pos h8, if_neg hR, h9] at h
            cases h
            exact ⟨rfl, by dsimp only; omega, Nat.le_trans (Nat.div_le_of_le_mul (by rw [Nat.mul_comm]; have : 640 * 1 ≤ 640 * R := Nat.mul_le_mul_left _ (by omega); omega)) (Nat.le_max_right _ _)⟩
          · rw [if_neg h8] at h
            cases h
            refine ⟨?_, by dsimp only; omega, Nat.le_max_left _ _⟩
            dsimp only
            split <;> rfl
    · rw [if_neg h2] at h
      cases h
      exact ⟨rfl, Nat.min_le_left _ _, Nat.le_max_left _ _⟩
  · rw [if_neg h1] at h
    cases h
    exact ⟨rfl, Nat.min_le_left _ _, Nat.le_max_left _ _⟩

/-- What is claimed about a command. -/
def LongOr (R n : Nat) (T : Nat) (F : Nat → Nat) (c : NextCommand) : Prop :=
  (1 ≤ c.command.steps ∧ c.command.steps ≤ R ∧ c.rw.currTicks < 4294967295 ∧ (c.rw.pauseTicksLeft = 0 ∨ 32768 ≤ c.rw.pauseTicksLeft) ∧ c.command.ticks ≠ 0) ∧
  (11000 ≤ c.command.duration ∨ shortsLeft (R - c.command.steps) c.rw.performedRampUpSteps < shortsLeft R n) ∧
  shortsLeft (R - c.command.steps) c.rw.performedRampUpSteps ≤ shortsLeft R n ∧
  (c.rw.performedRampUpSteps < R - c.command.steps → OnCurve T F c.rw.currTicks c.rw.performedRampUpSteps)

theorem shorts_le {R n R' n' : Nat} (h0 : R ≠ 0) (h : R' - n' ≤ R - n ∨ R' = 0 ∨ R' ≤ n') : shortsLeft R' n' ≤ shortsLeft R n := by
  unfold shortsLeft
  repeat' split
  all_goals omega

theorem shorts_lt {R n R' n' : Nat} (h0 : R ≠ 0) (h : R' = 0 ∨ (R' ≤ n' ∧ n < R) ∨ (R' ≤ n' + 1 ∧ n + 2 ≤ R)) : shortsLeft R' n' < shortsLeft R n := by
  unfold shortsLeft
  repeat' split
  all_goals omega

theorem long_coast {a : ArchId} {cfg : RampConfig} {up : Bool} {R n P T orig x d pl : Nat} {F : Nat → Nat} {c : NextCommand} {p : Plan} {sp : Split} {pa : Nat × Nat}
    (hmc : a.minCmdTicks = 640) (hR : R < 2147483648) (hnR : n < R) (hP : 640 ≤ P) (hP2 : P < 4294967295) (o1 : 1 ≤ orig) (o2 : orig ≤ 50) (o4 : 16000 ≤ P → orig = 1)
    (hdur : 11000 ≤ P * orig) (hx : 2 * orig ≤ R - n → x = orig) (hcv : OnCurve T F P n)
    (hnt : newTicks a cfg P n orig ⟨.coast, R, x⟩ = (d, pl)) (hm : minCmd a .coast R n d pl = some p)
    (hsp : split (stepsFor p.planning R) (clip p.phase P p.ticks) = sp)
    (hpa : prusAfter p.phase T cfg.maxRampUpSteps n R sp.steps sp.ticks = pa) (hc : c = output p.phase up pa.1 sp.steps pa.2 sp.pause) : LongOr R n T F c := by
  rw [newCoast hnR hR o2] at hnt
  cases hnt
  have hp := minCmd_slow (by omega) hm
  subst hp
  have hcl : clip .coast P P = P := by unfold clip; split <;> rfl
  dsimp only at hsp hpa hc
  rw [hcl] at hsp
  have hpa' : pa = (n, sp.ticks) := by rw [← hpa]; rfl
  subst hpa'
  generalize hpl : (if R - n < 2 * orig then R - n else x) = pl at hsp
  have hpl2 : 1 ≤ pl ∧ pl ≤ 100 ∧ pl ≤ R - n ∧ (R - n < 2 * orig ∧ pl = R - n ∨ 2 * orig ≤ R - n ∧ pl = orig) := by
    rw [← hpl]
    split
    · exact ⟨by omega, by omega, by omega, Or.inl ⟨by omega, rfl⟩⟩
    · have := hx (by omega)
      exact ⟨by omega, by omega, by omega, Or.inr ⟨by omega, this⟩⟩
  have hst : stepsFor pl R = pl := by unfold stepsFor; omega
  rw [hst] at hsp
  obtain ⟨⟨s1, s0, s00⟩, s2, s3, s4⟩ := split_out hsp (by omega) (by omega) (by omega) rfl hc
  have hk : sp.steps = pl ∧ (11000 ≤ P * pl → 11000 ≤ c.command.duration) := by
    rcases s4 with ⟨h1, -, h2⟩ | ⟨h1, h2, h3⟩
    · exact ⟨h1, fun h => by rw [h2]; exact h⟩
    · have := o4 (by omega)
      exact ⟨by omega, fun _ => h3⟩
  unfold LongOr
  rw [s1, s2, s3, hk.1]
  refine ⟨⟨by omega, by omega, by omega, s0, s00 (by omega)⟩, ?_, shorts_le (by omega) (by omega), fun _ => hcv⟩
  rcases hpl2.2.2.2 with ⟨h1, h2⟩ | ⟨h1, h2⟩
  · exact Or.inr (shorts_lt (by omega) (by omega))
  · exact Or.inl (hk.2 (by rw [h2]; exact hdur))

theorem long_acc {a : ArchId} {cfg : RampConfig} {up : Bool} {R n P T orig d pl : Nat} {F : Nat → Nat} {c : NextCommand} {p : Plan} {sp : Split} {pa : Nat × Nat}
    (hmc : a.minCmdTicks = 640) (hF : QuickRamp F) (hcf : cfg.calculateTicks a = F) (hT : cfg.parameters.minTravelTicks = T) (hmin : 640 ≤ T) (hmt : T < 4294967295)
    (hR : R < 2147483648) (hnR : n < R) (hTP : T < P) (hP2 : P < 4294967296) (o1 : 1 ≤ orig) (o2 : orig ≤ 50)
    (o3 : P < 16000 → 2 ≤ orig ∧ 21333 ≤ P * orig ∧ (1280 ≤ P → orig ≤ 25) ∧ (P < 1280 → 25 ≤ orig)) (o4 : 16000 ≤ P → orig = 1)
    (hcase : (P = ticksForStoppedMotor ∧ n = 0) ∨ (P ≠ ticksForStoppedMotor ∧ 1 ≤ n ∧ P ≤ F n ∧ ((P < 1280 ∧ orig ≤ R - n) ∨ (1280 ≤ P ∧ 2 * orig ≤ R - n))))
    (hnt : newTicks a cfg P n orig ⟨.accelerate, R, orig⟩ = (d, pl)) (hm : minCmd a .accelerate R n d pl = some p)
    (hsp : split (stepsFor p.planning R) (clip p.phase P p.ticks) = sp)
    (hpa : prusAfter p.phase T cfg.maxRampUpSteps n R sp.steps sp.ticks = pa) (hc : c = output p.phase up pa.1 sp.steps pa.2 sp.pause) : LongOr R n T F c := by
  have hst0 : ticksForStoppedMotor = 4294967295 := rfl
  obtain ⟨pl', e1, e2⟩ := newAcc (a := a) (cfg := cfg) (ct := P) hnR hR o2 o1
  rw [e1] at hnt
  cases hnt
  rw [hT, hcf] at hm
  have hp := minCmd_slow (by omega) hm
  subst hp
  dsimp only at hsp hpa hc
  have hpl : 1 ≤ pl ∧ pl ≤ orig ∧ pl ≤ R - n := by omega
  have hst : stepsFor pl R = pl := by unfold stepsFor; omega
  rw [hst] at hsp
  have hlive := hF.live (n + pl) (by omega) (by omega)
  have hq : ∃ q, clip .accelerate P (max T (F (n + pl))) = q ∧ 640 ≤ q ∧ q < 4294967295 ∧ q ≤ P ∧ q ≤ max T (F (n + pl)) ∧
      (q = max T (F (n + pl)) ∨ (P ≠ ticksForStoppedMotor ∧ q = min (max T (F (n + pl))) P)) := by
    refine ⟨_, rfl, ?_⟩
    unfold clip
    by_cases h1 : P = ticksForStoppedMotor
    · rw [if_neg (by omega)]
      exact ⟨by omega, by omega, by omega, by omega, Or.inl rfl⟩
    · rw [if_pos h1]
      simp only [RampPhase.isAcc, if_true]
      exact ⟨by omega, by omega, by omega, by omega, Or.inr ⟨h1, trivial⟩⟩
  obtain ⟨q, q0, q1, q2, q3, q4, q5⟩ := hq
  rw [q0] at hsp
  have hpa' : pa = (u32 (n + sp.steps), sp.ticks) := by rw [← hpa]; rfl
  subst hpa'
  obtain ⟨⟨s1, s0, s00⟩, s2, s3, s4⟩ := split_out hsp (by omega) (by omega) (by omega) rfl hc
  have hk : sp.steps = pl ∧ (11000 ≤ q * pl → 11000 ≤ c.command.duration) := by
    rcases s4 with ⟨h1, -, h2⟩ | ⟨h1, h2, h3⟩
    · exact ⟨h1, fun h => by rw [h2]; exact h⟩
    · have := o4 (by omega)
      exact ⟨by omega, fun _ => h3⟩
  have hu : u32 (n + pl) = n + pl := by unfold u32; omega
  unfold LongOr
  rw [s1, s2, s3, hk.1, hu]
  refine ⟨⟨by omega, by omega, by omega, s0, s00 (by omega)⟩, ?_, shorts_le (by omega) (by omega), fun _ => Or.inr ?_⟩
  rotate_left
  · by_cases h1 : q ≤ T
    · exact Or.inl h1
    · exact Or.inr ⟨by dsimp only; omega, by dsimp only; omega⟩
  rcases hcase with ⟨h1, h2⟩ | ⟨h1, h2, h3, h4⟩
  · left
    apply hk.2
    have h5 : pl = 1 := by have := o4 (by omega); omega
    have h6 := hF.first
    rw [h2, h5] at q5
    rw [h5]
    simp only [Nat.zero_add] at q5
    omega
  · have hq5 : q = min (max T (F (n + pl))) P := by
      rcases q5 with h | h
      · omega
      · exact h.2
    rcases h4 with ⟨h4, h5⟩ | ⟨h4, h5⟩
    · have h6 := (o3 (by omega)).2.2.2 h4
      rcases e2 with ⟨e2, e3⟩ | ⟨e2, e3⟩
      · left
        apply hk.2
        have : 640 * 25 ≤ q * pl := Nat.mul_le_mul q1 (by omega)
        omega
      · exact Or.inr (shorts_lt (by omega) (by omega))
    · left
      apply hk.2
      have hpo : pl = orig := by omega
      rw [hpo] at hq5 ⊢
      by_cases h7 : orig ≤ n
      · have h8 := hF.anti (n + orig) (2 * n) (by omega) (by omega) (by omega)
        have h9 := hF.double n h2 (by omega)
        have h10 : 7 * P ≤ 10 * q + 17 := by omega
        by_cases h11 : P < 16000
        · obtain ⟨b1, b2, b3, -⟩ := o3 h11
          have b4 := b3 h4
          have h12 : 7 * P * orig ≤ (10 * q + 17) * orig := Nat.mul_le_mul_right _ h10
          rw [Nat.add_mul, Nat.mul_assoc, Nat.mul_assoc] at h12
          omega
        · rw [o4 (by omega)]; omega
      · have h11 : P < 16000 := by
          by_cases h11 : P < 16000
          · exact h11
          · have := o4 (by omega); omega
        obtain ⟨b1, b2, b3, -⟩ := o3 h11
        have b4 := b3 h4
        have h8 := hF.anti (n + orig) (2 * orig) (by omega) (by omega) (by omega)
        have h9 := hF.root orig b1 b4
        have h10 : q = P ∨ F (2 * orig) ≤ q := by omega
        rcases h10 with h10 | h10
        · rw [h10]; omega
        · have := Nat.mul_le_mul_left orig h10
          rw [Nat.mul_comm q]; omega

theorem long_dec {a : ArchId} {cfg : RampConfig} {up : Bool} {R n P T orig d pl : Nat} {F : Nat → Nat} {c : NextCommand} {p : Plan} {sp : Split} {pa : Nat × Nat}
    (hmc : a.minCmdTicks = 640) (hF : QuickRamp F) (hcf : cfg.calculateTicks a = F) (hmin : 640 ≤ T)
    (hR : R < 2147483648) (hnR : n < R) (hTP : T < P) (hP2 : P < 1280) (o1 : 1 ≤ orig) (o2 : orig ≤ 50) (hdur : 11000 ≤ P * orig)
    (hgap : R - n < orig) (hcv : P ≤ F n) (hslow : F (max n orig) ≤ P)
    (hnt : newTicks a cfg P n orig ⟨.decelerate, R, orig⟩ = (d, pl)) (hm : minCmd a .decelerate R n d pl = some p)
    (hsp : split (stepsFor p.planning R) (clip p.phase P p.ticks) = sp)
    (hpa : prusAfter p.phase T cfg.maxRampUpSteps n R sp.steps sp.ticks = pa) (hc : c = output p.phase up pa.1 sp.steps pa.2 sp.pause) : LongOr R n T F c := by
  have hst0 : ticksForStoppedMotor = 4294967295 := rfl
  have hn : 100 < n := by
    rcases Nat.lt_or_ge 100 n with h | h
    · exact h
    · have h1 := hF.anti (max n orig) 100 (by omega) (by omega) (by omega)
      have := hF.hundred
      omega
  rw [Nat.max_eq_left (by omega)] at hslow
  obtain ⟨d', e1, e2⟩ := newDec (a := a) (cfg := cfg) (ct := P) (n := n) (R := R) (orig := orig) (x := orig)
  rw [e1] at hnt
  cases hnt
  rw [if_neg (by omega), hcf] at e2
  have hd : d = F (n - orig) := by omega
  have h1 := hF.anti (n - orig) n (by omega) (by omega) (by omega)
  have h2 := hF.anti n (2 * (n - orig)) (by omega) (by omega) (by omega)
  have h3 := hF.double (n - orig) (by omega) (by omega)
  have hp := minCmd_slow (by omega) hm
  subst hp
  dsimp only at hsp hpa hc
  have hst : stepsFor orig R = orig := by unfold stepsFor; omega
  have hcl : clip .decelerate P d = d := by
    unfold clip
    rw [if_pos (by omega)]
    simp only [RampPhase.isAcc, RampPhase.isDec, Bool.false_eq_true, if_false, if_true]
    omega
  rw [hst, hcl] at hsp
  have hspl : sp = ⟨orig, d, 0⟩ := by rw [← hsp]; unfold split; rw [if_neg (by omega)]
  have key : ∀ m, pa = (m, sp.ticks) → (m = n - orig ∨ m = R - orig) → LongOr R n T F c := by
    intro m h4 h5
    subst h4
    obtain ⟨⟨s1, s0, s00⟩, s2, s3, s4⟩ := split_out hsp (by omega) (by omega) (by omega) rfl hc
    have hk : sp.steps = orig := by rw [hspl]
    unfold LongOr
    rw [s1, s2, s3, hk]
    refine ⟨⟨o1, by omega, by omega, s0, s00 (by omega)⟩, Or.inl ?_, shorts_le (by omega) (by omega), fun h6 => Or.inr (Or.inr ⟨by omega, ?_⟩)⟩
    · rcases s4 with ⟨-, -, h6⟩ | ⟨-, -, h6⟩
      · rw [h6]
        have := Nat.mul_le_mul_right orig (show P ≤ d by omega)
        omega
      · exact h6
    · have : m = n - orig := by omega
      rw [this]; dsimp only; omega
  rcases prusAfter_cases .decelerate T cfg.maxRampUpSteps n R sp.steps sp.ticks with ⟨h, -⟩ | ⟨-, h, -⟩ | ⟨-, h⟩
  · cases h
  · cases h
  · rw [hpa] at h
    have hk : sp.steps = orig := by rw [hspl]
    rw [hk] at h
    rcases h with ⟨h4, -⟩ | ⟨-, -, -, h⟩ | ⟨h4, h5, h6, h⟩ | ⟨h4, -, h5, h6, h⟩ | ⟨-, -, h5, h6, h⟩ | ⟨-, -, h5, h⟩
    · omega
    · exact key _ h (Or.inl rfl)
    · have : u32 (cfg.maxRampUpSteps + orig) = n + orig := by unfold u32; omega
      omega
    · exact key _ h (Or.inr rfl)
    · omega
    · omega

/-- Deceleration to the target. -/
theorem long_end {a : ArchId} {cfg : RampConfig} {up : Bool} {R P T orig d pl : Nat} {F : Nat → Nat} {c : NextCommand} {p : Plan} {sp : Split} {pa : Nat × Nat}
    (hmc : a.minCmdTicks = 640) (hF : QuickRamp F) (hcf : cfg.calculateTicks a = F) (hT : cfg.parameters.minTravelTicks = T) (hmt : T < 4294967295)
    (hR : R < 2147483648) (hR0 : R ≠ 0) (hP2 : P < 4294967295) (o1 : 1 ≤ orig) (o2 : orig ≤ 50) (hdur : 11000 ≤ P * orig)
    (hnt : newTicks a cfg P R orig ⟨.decelerate, R, orig⟩ = (d, pl)) (hm : minCmd a .decelerate R R d pl = some p)
    (hsp : split (stepsFor p.planning R) (clip p.phase P p.ticks) = sp)
    (hpa : prusAfter p.phase T cfg.maxRampUpSteps R R sp.steps sp.ticks = pa) (hc : c = output p.phase up pa.1 sp.steps pa.2 sp.pause) : LongOr R R T F c := by
  have hst0 : ticksForStoppedMotor = 4294967295 := rfl
  obtain ⟨d', e1, e2⟩ := newDec (a := a) (cfg := cfg) (ct := P) (n := R) (R := R) (orig := orig) (x := orig)
  rw [e1] at hnt
  cases hnt
  rw [hcf, hT] at e2
  have hd : d < 4294967295 := by
    have l1 := hF.live 1 (by omega) (by omega)
    have l2 := hF.live (if R ≤ orig then orig else R - orig) (by split <;> omega) (by split <;> omega)
    omega
  obtain ⟨m1, m2, m3⟩ := minCmdDec hR0 o1 o2 hmc hm
  rw [m1] at hsp hpa hc
  have hq : ∃ q, clip .decelerate P p.ticks = q ∧ P ≤ q ∧ q < 4294967295 := by
    refine ⟨_, rfl, ?_⟩
    unfold clip
    rw [if_pos (by omega)]
    simp only [RampPhase.isAcc, RampPhase.isDec, Bool.false_eq_true, if_false, if_true]
    omega
  obtain ⟨q, q1, q2, q3⟩ := hq
  have hst : ∃ st, stepsFor p.planning R = st ∧ 1 ≤ st ∧ st ≤ 255 ∧ st ≤ R ∧ (st = R ∨ orig ≤ st) := by
    refine ⟨_, rfl, ?_⟩
    unfold stepsFor
    omega
  obtain ⟨st, t1, t2, t3, t4, t5⟩ := hst
  rw [q1, t1] at hsp
  have hk1 : sp.steps ≤ R ∧ 1 ≤ sp.steps := by
    have := split_range st q
    rw [hsp] at this
    rcases this with ⟨-, h⟩ | ⟨-, h, -⟩
    · rw [h]; exact ⟨t4, t2⟩
    · rw [h]; omega
  have hpa' : pa = (R - sp.steps, sp.ticks) := by
    rcases prusAfter_cases .decelerate T cfg.maxRampUpSteps R R sp.steps sp.ticks with ⟨h, -⟩ | ⟨-, h, -⟩ | ⟨-, h⟩
    · cases h
    · cases h
    · rw [hpa] at h
      rcases h with ⟨h4, -⟩ | ⟨-, -, -, h⟩ | ⟨h4, h5, h6, h⟩ | ⟨h4, -, h5, h6, h⟩ | ⟨-, -, h5, h6, h⟩ | ⟨-, -, h5, h⟩
      · omega
      · exact h
      · have : u32 (cfg.maxRampUpSteps + sp.steps) = R + sp.steps := by unfold u32; omega
        omega
      · omega
      · omega
      · exact h
  subst hpa'
  obtain ⟨⟨s1, s0, s00⟩, s2, s3, s4⟩ := split_out hsp (by omega) (by omega) (by omega) rfl hc
  unfold LongOr
  rw [s1, s2, s3]
  have hP0 : 0 < P := Nat.pos_of_ne_zero (by intro h; rw [h, Nat.zero_mul] at hdur; omega)
  refine ⟨⟨hk1.2, hk1.1, q3, s0, s00 (by omega)⟩, ?_, shorts_le (by omega) (by omega), fun h => by dsimp only at h; omega⟩
  rcases s4 with ⟨h1, -, h2⟩ | ⟨-, -, h2⟩
  · rcases t5 with t5 | t5
    · right
      exact shorts_lt hR0 (by omega)
    · left
      rw [h2]
      have := Nat.mul_le_mul q2 t5
      omega
  · exact Or.inl h2

set_option maxHeartbeats 1000000 in
theorem plan_long_or {a : ArchId} {cfg : RampConfig} {rw : RampRw} {countUp : Bool} {R : Nat} {junk c : NextCommand} {T n P : Nat} {F : Nat → Nat} (hav : a.isAvr = true)
    (hF : QuickRamp F) (hcf : cfg.calculateTicks a = F) (hT : cfg.parameters.minTravelTicks = T) (hmin : 640 ≤ T) (hmt : T < ticksForStoppedMotor)
    (hn : rw.performedRampUpSteps = n) (hP : rw.currTicks = P) (hP2 : P < 4294967296) (hn2 : n < 2147483648) (hR : R < 2147483648) (hnR : n ≤ R) (hR0 : R ≠ 0)
    (hb : P = ticksForStoppedMotor ∧ n = 0 ∨ P ≠ ticksForStoppedMotor ∧ T ≤ P ∧ F (max n (horizon a P)) ≤ P)
    (hcv : n < R → OnCurve T F P n) (h : plan a cfg rw countUp true R junk = some c) :
    LongOr R n T F c := by
  have hmc : a.minCmdTicks = 640 := by cases a <;> first | rfl | cases hav
  have hst : ticksForStoppedMotor = 4294967295 := rfl
  obtain ⟨orig, s, ho, hs, h⟩ := plan_cases h
  have hor := planningSteps_horizon ho
  rw [hP] at hor
  rw [← hor] at hb
  rw [horizon_avr hav] at hor
  rw [hT, hn, hP] at hs
  rw [hn, hP, hT] at h
  have ho1 : 1 ≤ orig ∧ orig ≤ 50 ∧ (P < 16000 → 2 ≤ orig ∧ 21333 ≤ P * orig ∧ (1280 ≤ P → orig ≤ 25) ∧ (P < 1280 → 25 ≤ orig)) ∧ (16000 ≤ P → orig = 1) := by
    by_cases h1 : P < 16000
    · rw [if_pos h1] at hor
      obtain ⟨b1, b2, b3, b4, b5⟩ := horizon_time (P := P) (by omega) h1
      rw [hor]
      exact ⟨by omega, b2, fun _ => ⟨b1, b3, b4, b5⟩, fun h => by omega⟩
    · rw [if_neg h1] at hor
      rw [hor]
      exact ⟨by omega, by omega, fun h => by omega, fun _ => rfl⟩
  clear hor ho
  obtain ⟨o1, o2, o3, o4⟩ := ho1
  have hdur : 11000 ≤ P * orig := by
    by_cases h1 : P < 16000
    · have := (o3 h1).2.1; omega
    · rw [o4 (by omega)]; omega
  unfold select at hs
  simp only [Bool.not_true, Bool.false_eq_true, if_false] at hs
  rw [hmc] at hs
  by_cases hRn : R = n
  · rw [if_pos hRn] at hs
    subst hs
    have hPs : P < 4294967295 := by omega
    rcases h with ⟨h, -⟩ | ⟨-, d, pl, p, sp, pa, hnt, hm, hsp, hpa, hc⟩
    · exact absurd h hR0
    · rw [← hRn] at hnt hm hpa ⊢
      exact long_end hmc hF hcf hT (by omega) hR hR0 hPs o1 o2 hdur hnt hm hsp hpa hc
  · rw [if_neg hRn, if_neg (by omega)] at hs
    have hlt : n < R := by omega
    replace hcv := hcv hlt
    have hgo : ∀ ph x, s = ⟨ph, R, x⟩ → ∃ d pl p sp pa, newTicks a cfg P n orig ⟨ph, R, x⟩ = (d, pl) ∧ minCmd a ph R n d pl = some p ∧
        split (stepsFor p.planning R) (clip p.phase P p.ticks) = sp ∧ prusAfter p.phase T cfg.maxRampUpSteps n R sp.steps sp.ticks = pa ∧
        c = output p.phase countUp pa.1 sp.steps pa.2 sp.pause := by
      intro ph x hsx
      subst hsx
      rcases h with ⟨h, -⟩ | ⟨-, h⟩
      · exact absurd h hR0
      · exact h
    clear h
    by_cases hTP : T < P
    · rw [if_pos hTP] at hs
      by_cases hP1 : P < 2 * 640
      · rw [if_pos hP1] at hs
        have hcv2 : 1 ≤ n ∧ P ≤ F n := by
          rcases hcv with h | h | h
          · omega
          · omega
          · exact h
        obtain ⟨b1, b2, b3, b4⟩ := o3 (by omega)
        have b5 := b4 (by omega)
        by_cases hg : orig > R - n
        · rw [if_pos hg] at hs
          obtain ⟨d, pl, p, sp, pa, hnt, hm, hsp, hpa, hc⟩ := hgo _ _ hs.symm
          exact long_dec hmc hF hcf hmin hR hlt hTP (by omega) o1 o2 hdur hg hcv2.2 (hb.resolve_left (by omega)).2.2 hnt hm hsp hpa hc
        · rw [if_neg hg] at hs
          by_cases hu : (R - n) / 4 > 0 ∧ u32 ((R - n) / 4 * P) < 2 * 640
          · rw [if_pos hu] at hs
            obtain ⟨d, pl, p, sp, pa, hnt, hm, hsp, hpa, hc⟩ := hgo _ _ hs.symm
            exact long_coast hmc hR hlt (by omega) (by omega) o1 o2 o4 hdur (fun _ => rfl) hcv hnt hm hsp hpa hc
          · rw [if_neg hu] at hs
            obtain ⟨d, pl, p, sp, pa, hnt, hm, hsp, hpa, hc⟩ := hgo _ _ hs.symm
            exact long_acc hmc hF hcf hT hmin (by omega) hR hlt hTP hP2 o1 o2 o3 o4 (Or.inr ⟨by omega, hcv2.1, hcv2.2, Or.inl ⟨by omega, by omega⟩⟩) hnt hm hsp hpa hc
      · rw [if_neg hP1] at hs
        by_cases hPs : P = ticksForStoppedMotor
        · have hs2 : s = ⟨.accelerate, R, orig⟩ := by
            rw [if_neg (show ¬ P ≠ ticksForStoppedMotor by omega)] at hs
            rw [← hs]; split <;> rfl
          obtain ⟨d, pl, p, sp, pa, hnt, hm, hsp, hpa, hc⟩ := hgo _ _ hs2
          exact long_acc hmc hF hcf hT hmin (by omega) hR hlt hTP hP2 o1 o2 o3 o4 (Or.inl (by omega)) hnt hm hsp hpa hc
        · rw [if_pos hPs] at hs
          by_cases hg : R - n < 2 * orig
          · rw [if_pos hg] at hs
            obtain ⟨d, pl, p, sp, pa, hnt, hm, hsp, hpa, hc⟩ := hgo _ _ hs.symm
            exact long_coast hmc hR hlt (by omega) (by omega) o1 o2 o4 hdur (by omega) hcv hnt hm hsp hpa hc
          · rw [if_neg hg] at hs
            have hcv2 : 1 ≤ n ∧ P ≤ F n := by
              rcases hcv with h | h | h
              · exact absurd h hPs
              · omega
              · exact h
            obtain ⟨d, pl, p, sp, pa, hnt, hm, hsp, hpa, hc⟩ := hgo _ _ hs.symm
            exact long_acc hmc hF hcf hT hmin (by omega) hR hlt hTP hP2 o1 o2 o3 o4 (Or.inr ⟨hPs, hcv2.1, hcv2.2, Or.inr ⟨by omega, by omega⟩⟩) hnt hm hsp hpa hc
    · have hPT : P = T := by omega
      rw [if_neg hTP, if_neg (by omega)] at hs
      have hs2 : ∃ x, s = ⟨.coast, R, x⟩ ∧ (2 * orig ≤ R - n → x = orig) := by
        by_cases hg : R - n < 2 * orig
        · rw [if_pos hg, if_neg (by omega)] at hs
          exact ⟨_, hs.symm, fun h => by omega⟩
        · rw [if_neg hg] at hs
          exact ⟨_, hs.symm, fun _ => rfl⟩
      obtain ⟨x, hs2, hx⟩ := hs2
      obtain ⟨d, pl, p, sp, pa, hnt, hm, hsp, hpa, hc⟩ := hgo _ _ hs2
      exact long_coast hmc hR hlt (by omega) (by omega) o1 o2 o4 hdur hx hcv hnt hm hsp hpa hc

end Planner
end FAS
