import Verif.Lemmas.Brake

/-!
# The planner in a long move with a set speed faster than one step per minimum command time
-/

namespace FAS

open Spec

namespace Planner

/-- What the planner needs to know about ramp and set speed `T`. -/
structure FastRamp (a : ArchId) (T : Nat) (f : Nat → Nat) : Prop where
  anti : Antitone32 f
  live : ∀ n, 1 ≤ n → n < 4294967296 → f n ≤ 16777216
  /-- `n` steps at the speed after `n` steps of ramp take at least the minimum time of a command. -/
  mass : ∀ n, 1 ≤ n → n ≤ 2000000 → a.minCmdTicks ≤ f n * n
  short : a.ticksPerS / 500 / T ≤ 127
  fast : T < a.minCmdTicks
  pos : 0 < T

/-- The states on the way down to standstill: period `P`, ramp steps `k` and remaining way `R`. -/
inductive Down (a : ArchId) (T : Nat) (f : Nat → Nat) (P k R : Nat) : Prop where
  | dec (set : T ≤ P) (mot : P < ticksForStoppedMotor) (k1 : 1 ≤ k) (way : R = k) (inv : a.minCmdTicks ≤ P * k) (half : T ≤ 2 * f k)
      (small : R ≤ 2000000)
  | fin (mot : P < ticksForStoppedMotor) (set : T ≤ P) (k0 : k ≤ 1) (way : R = 0)

/-- The states of a long move. `N` steps of ramp lead to the set speed. -/
inductive Long (a : ArchId) (T : Nat) (f : Nat → Nat) (N P k R : Nat) : Prop where
  | acc (slow : T < P) (inv : (P = ticksForStoppedMotor ∧ k = 0) ∨ (P < ticksForStoppedMotor ∧ 1 ≤ k ∧ f k ≤ P))
      (k1 : k < N + a.ticksPerS / 500 / T) (way : 2 * N + 6 * (a.ticksPerS / 500 / T) ≤ R + k) (small : R + k ≤ 2000000)
  | coast (set : P = T) (k1 : 1 ≤ k) (inv : f k ≤ T) (half : T ≤ 2 * f k) (way : k + a.ticksPerS / 500 / T ≤ R) (small : R ≤ 2000000)
  | down (h : Down a T f P k R)

/-- The numbers of a fast set speed: `O` steps take 2 ms. -/
structure FastNums (a : ArchId) (T O : Nat) : Prop where
  o1 : O = a.ticksPerS / 500 / T
  o2 : O ≤ 127
  o3 : 10 ≤ O
  mc : a.minCmdTicks ≤ 4200
  m1 : 640 ≤ a.minCmdTicks
  t1 : a.minCmdTicks < 13 * T
  t2 : T < a.minCmdTicks
  big : 9 * a.minCmdTicks ≤ O * T
  hor : horizon a T = O

theorem FastRamp.nums {a : ArchId} {T : Nat} {f : Nat → Nat} (hf : FastRamp a T f) : FastNums a T (a.ticksPerS / 500 / T) := by
  have h := hf.short
  have h2 := hf.fast
  have h0 := hf.pos
  have hmc : a.minCmdTicks ≤ 4200 ∧ 640 ≤ a.minCmdTicks := by cases a <;> decide
  have hb : 10 * a.minCmdTicks ≤ a.ticksPerS / 500 ∧ a.minCmdTicks ≤ a.ticksPerS / 1000 := by cases a <;> decide
  have hlt : a.ticksPerS / 500 < (a.ticksPerS / 500 / T + 1) * T := by
    rw [Nat.mul_comm]; exact Nat.lt_mul_div_succ _ h0
  refine ⟨rfl, h, ?_, hmc.1, hmc.2, ?_, h2, ?_, ?_⟩
  · rw [Nat.le_div_iff_mul_le h0]; omega
  · have : (a.ticksPerS / 500 / T + 1) * T ≤ 128 * T := Nat.mul_le_mul_right _ (by omega)
    omega
  · rw [Nat.add_mul] at hlt; omega
  · unfold horizon; rw [if_pos (by omega)]

/-- Outcome of the correction to the minimum command time, with room enough. -/
theorem minCmd_room {a : ArchId} {T O : Nat} {ph : RampPhase} {R k d pl : Nat} {p : Plan} (hn : FastNums a T O) (hd : T ≤ d)
    (h1 : 1 ≤ pl) (hpl : pl ≤ O) (hR : k + 2 * O < R)
    (h : minCmd a ph R k d pl = some p) :
    ∃ st, p = ⟨ph, d, st⟩ ∧ pl ≤ st ∧ st ≤ O ∧ (a.minCmdTicks ≤ d → st = pl) ∧ a.minCmdTicks ≤ d * st := by
  obtain ⟨-, o2, o3, mc, m1, t1, t2, big, -⟩ := hn
  have hOd : O * T ≤ O * d := Nat.mul_le_mul_left _ hd
  unfold minCmd at h
  by_cases c1 : d < a.minCmdTicks
  · rw [if_pos c1] at h
    have hmul : d * pl ≤ 4200 * 127 := Nat.mul_le_mul (by omega) (by omega)
    have hu : u32 (d * pl) = d * pl := by unfold u32; omega
    rw [hu] at h
    by_cases c2 : d * pl < a.minCmdTicks
    · have hud : u16 d = d := by unfold u16; omega
      have hus : u16 (a.minCmdTicks + d - 1) = a.minCmdTicks + d - 1 := by unfold u16; omega
      rw [if_pos c2, hud, if_neg (by omega), hus] at h
      dsimp only at h
      have hd0 : 0 < d := by omega
      have g1 : (a.minCmdTicks + d - 1) / d ≤ O := by
        rw [Nat.div_le_iff_le_mul_add_pred hd0, Nat.mul_comm]; omega
      have g2 : a.minCmdTicks ≤ d * ((a.minCmdTicks + d - 1) / d) := by
        have := Nat.lt_mul_div_succ (a.minCmdTicks + d - 1) hd0
        rw [Nat.mul_add] at this
        omega
      generalize (a.minCmdTicks + d - 1) / d = st at h g1 g2
      have g3 : pl ≤ st := by
        rcases Nat.le_total pl st with g | g
        · exact g
        · have := Nat.mul_le_mul_left d g
          omega
      have c3 : ¬ st ≥ R := by omega
      have c4 : ¬ 2 * st ≥ R := by omega
      have c5 : ¬ R < u32 (k + st) := by unfold u32; omega
      simp only [if_neg c3, Nat.max_eq_right g3, if_neg c4, if_neg c5] at h
      exact ⟨st, (Option.some.inj h).symm, g3, g1, fun hx => absurd hx (by omega), g2⟩
    · rw [if_neg c2] at h
      exact ⟨pl, (Option.some.inj h).symm, Nat.le_refl _, hpl, fun _ => rfl, by omega⟩
  · rw [if_neg c1] at h
    refine ⟨pl, (Option.some.inj h).symm, Nat.le_refl _, hpl, fun _ => rfl, ?_⟩
    have := Nat.mul_le_mul (show a.minCmdTicks ≤ d by omega) h1
    omega

/-- The command made for `st` steps of period `Q`. -/
theorem emitted {a : ArchId} {T : Nat} {ph : RampPhase} {up : Bool} {n st Q R : Nat} {sp : Split} {c : NextCommand} (hmc : a.minCmdTicks ≤ 4200)
    (hT : T < a.minCmdTicks) (hQ : Q < ticksForStoppedMotor) (hQT : T ≤ Q)
    (hst1 : 1 ≤ st) (hst2 : st ≤ 255) (hR : st ≤ R) (hm : a.minCmdTicks ≤ Q * st) (hsp : split st Q = sp) (hc : c = output ph up n sp.steps sp.ticks sp.pause) :
    c.rw.currTicks = Q ∧ c.rw.performedRampUpSteps = n ∧ 1 ≤ c.command.steps ∧ c.command.steps ≤ R ∧ c.command.steps = sp.steps ∧
    T ≤ c.command.ticks ∧ a.minCmdTicks ≤ Queue.commandRateTicks c.command ∧
    ((Q ≤ 65535 ∧ c.command.steps = st) ∨ (65535 < Q ∧ c.command.steps = 1)) ∧
    (c.rw.pauseTicksLeft = 0 ∨ 32768 ≤ c.rw.pauseTicksLeft) ∧ c.command.countUp = up := by
  have hs0 : ticksForStoppedMotor = 4294967295 := rfl
  obtain ⟨q1, q2, q3, q4, q5⟩ := output_period (ph := ph) (up := up) (n := n) (P := Q) (by omega) hsp rfl
  rw [hc]
  rw [q1, q3, q4]
  have hsr := split_range st Q
  rw [hsp] at hsr
  have hcs : (output ph up n sp.steps sp.ticks sp.pause).command.steps = u8 sp.steps := rfl
  rcases hsr with ⟨h1, h2⟩ | ⟨h1, h2, h3, h4⟩
  · rw [h2] at q2 hcs ⊢
    dsimp only at q2 hcs ⊢
    have hu : u8 st = st := by unfold u8; omega
    rw [hu] at hcs
    have ht : (output ph up n st Q 0).command.ticks = Q := by omega
    refine ⟨rfl, rfl, by omega, by omega, by omega, by omega, ?_, Or.inl ⟨h1, hcs⟩, Or.inl rfl, rfl⟩
    unfold Queue.commandRateTicks
    rw [hcs, ht]
    have : Q * st ≤ 65535 * 255 := Nat.mul_le_mul h1 hst2
    split
    · unfold u32; omega
    · have : st = 1 := by omega
      rw [this] at hm; omega
  · have hu : u8 sp.steps = 1 := by rw [h2]; rfl
    have ht : 32768 ≤ (output ph up n sp.steps sp.ticks sp.pause).command.ticks := by omega
    rw [hu] at hcs
    refine ⟨rfl, rfl, by omega, by omega, by omega, by omega, ?_, Or.inr ⟨h1, hcs⟩, Or.inr (by omega), rfl⟩
    unfold Queue.commandRateTicks
    rw [if_neg (by omega)]
    omega

/-- What a command does in a move with the states `X`. -/
structure MoveOut (a : ArchId) (T : Nat) (X : Nat → Nat → Nat → Prop) (R : Nat) (up : Bool) (c : NextCommand) : Prop where
  some : 1 ≤ c.command.steps
  room : c.command.steps ≤ R
  rate : a.minCmdTicks ≤ Queue.commandRateTicks c.command
  speed : T ≤ c.command.ticks
  moving : c.rw.currTicks < ticksForStoppedMotor
  pause : c.rw.pauseTicksLeft = 0 ∨ 32768 ≤ c.rw.pauseTicksLeft
  dir : c.command.countUp = up
  next : X c.rw.currTicks c.rw.performedRampUpSteps (R - c.command.steps)

theorem MoveOut.mono {a : ArchId} {T : Nat} {X Y : Nat → Nat → Nat → Prop} {R : Nat} {up : Bool} {c : NextCommand} (h : MoveOut a T X R up c)
    (hxy : ∀ P k R, X P k R → Y P k R) : MoveOut a T Y R up c :=
  ⟨h.some, h.room, h.rate, h.speed, h.moving, h.pause, h.dir, hxy _ _ _ h.next⟩

theorem plan_long_acc {a : ArchId} {cfg : RampConfig} {rw : RampRw} {countUp : Bool} {N R : Nat} {junk c : NextCommand} {T : Nat}
    (hT : cfg.parameters.minTravelTicks = T) (hf : FastRamp a T (cfg.calculateTicks a)) (hN : cfg.calculateTicks a N ≤ T) (hN1 : 1 ≤ N)
    (half : T ≤ 2 * cfg.calculateTicks a (N + 2 * (a.ticksPerS / 500 / T)))
    (slow : T < rw.currTicks) (inv : (rw.currTicks = ticksForStoppedMotor ∧ rw.performedRampUpSteps = 0) ∨
      (rw.currTicks < ticksForStoppedMotor ∧ 1 ≤ rw.performedRampUpSteps ∧ cfg.calculateTicks a rw.performedRampUpSteps ≤ rw.currTicks))
    (k1 : rw.performedRampUpSteps < N + a.ticksPerS / 500 / T)
    (way : 2 * N + 6 * (a.ticksPerS / 500 / T) ≤ R + rw.performedRampUpSteps) (small : R + rw.performedRampUpSteps ≤ 2000000)
    (h : plan a cfg rw countUp true R junk = some c) : MoveOut a T (Long a T (cfg.calculateTicks a) N) R countUp c := by
  have hnum := hf.nums
  have hs0 : ticksForStoppedMotor = 4294967295 := rfl
  obtain ⟨O, hO⟩ : ∃ O, a.ticksPerS / 500 / T = O := ⟨_, rfl⟩
  rw [hO] at hnum half k1 way
  obtain ⟨orig, s, ho, hs, h⟩ := plan_cases h
  rw [hT] at hs
  generalize hk : rw.performedRampUpSteps = k at *
  generalize hP : rw.currTicks = P at *
  generalize hff : cfg.calculateTicks a = f at *
  have hor := planningSteps_horizon ho
  obtain ⟨o1, -⟩ := planningSteps_range ho
  have hoO : orig ≤ O := by
    rw [hor, ← hnum.hor]
    exact horizon_anti hf.pos (by omega)
  have hslow1 : 65535 < P → orig = 1 := fun hx => by rw [hor]; exact horizon_slow (by omega)
  have hn2 := hnum
  obtain ⟨-, o2, o3, mc, m1, t1, t2, big, hh⟩ := hnum
  -- selection
  have hsel : s = ⟨.accelerate, R, orig⟩ := by
    rw [← hs]
    unfold select
    simp only [Bool.not_true, Bool.false_eq_true, if_false]
    rw [if_neg (by omega), if_neg (by omega), if_pos slow]
    by_cases c1 : P < 2 * a.minCmdTicks
    · rw [if_pos c1]
      have e1 : O ≤ (R - k) / 4 ∧ (R - k) / 4 ≤ 500000 := by omega
      have e2 : O * T ≤ (R - k) / 4 * P := Nat.mul_le_mul e1.1 (by omega)
      have e3 : (R - k) / 4 * P ≤ 500000 * 8400 := Nat.mul_le_mul e1.2 (by omega)
      have hu : u32 ((R - k) / 4 * P) = (R - k) / 4 * P := by unfold u32; omega
      rw [hu, if_neg (by omega), if_neg (by omega)]
    · rw [if_neg c1, if_neg (by omega)]
  subst hsel
  rcases h with ⟨h, -⟩ | ⟨-, d, pl, p, sp, pa, hnt, hm, hsp, hpa, hc⟩
  · dsimp only at h; omega
  dsimp only at hnt hm hsp hpa
  -- period
  have hd : d = max T (f (k + orig)) ∧ pl = orig := by
    unfold newTicks at hnt
    dsimp only at hnt
    have hsub : subU32 R k = R - k := by unfold subU32; omega
    rw [if_pos (by decide), hsub, hT, hff] at hnt
    have e1 : (if R - k < 512 then if u16 (R - k) / 2 < orig then if u16 (R - k) / 2 = 0 then 1 else u16 (R - k) / 2 else orig else orig) = orig := by
      split
      · rw [if_neg]
        unfold u16; omega
      · rfl
    rw [e1] at hnt
    have hu : u32 (k + orig) = k + orig := by unfold u32; omega
    rw [hu] at hnt
    obtain ⟨n1, n2⟩ := Prod.mk.inj hnt
    refine ⟨?_, n2.symm⟩
    rw [← n1]
    split <;> omega
  obtain ⟨hd, hpl⟩ := hd
  subst hpl
  obtain ⟨st, hp, hst1, hst2, hst3, hmm⟩ := minCmd_room hn2 (by omega) o1 hoO (by omega) hm
  subst hp
  dsimp only at hsp hpa hc
  have hfk : f (k + pl) ≤ 16777216 := hf.live _ (by omega) (by omega)
  have hclip : clip .accelerate P d = d := by
    unfold clip
    split
    · rw [if_pos (by decide)]
      rcases inv with ⟨h1, -⟩ | ⟨-, h2, h3⟩
      · omega
      · have := hf.anti k (k + pl) (by omega) (by omega) (by omega)
        omega
    · rfl
  have hsf : stepsFor st R = st := by unfold stepsFor; omega
  rw [hclip, hsf] at hsp
  have hpa2 : pa = (u32 (k + sp.steps), sp.ticks) := by
    rw [← hpa]; unfold prusAfter; rw [if_pos (by decide)]
  subst hpa2
  obtain ⟨e1, e2, e3, e4, e5, e6, e7, e8, e9, e10⟩ := emitted (a := a) (T := T) (R := R) mc t2 (by omega) (by omega) (by omega) (by omega) (by omega) hmm hsp hc
  refine ⟨e3, e4, e7, e6, by rw [e1]; omega, e9, e10, ?_⟩
  rw [e1, e2, ← e5]
  dsimp only
  clear hs hm hsp hpa hc e1 e2 e7 ho
  have hss : c.command.steps = st := by
    rcases e8 with ⟨-, h8⟩ | ⟨h8, h9⟩
    · exact h8
    · have hP6 : 65535 < P := by
        rcases inv with ⟨h1, -⟩ | ⟨-, h2, h3⟩
        · omega
        · have := hf.anti k (k + pl) (by omega) (by omega) (by omega)
          omega
      have := hslow1 hP6
      have := hst3 (by omega)
      omega
  rw [hss]
  have hu : u32 (k + st) = k + st := by unfold u32; omega
  rw [hu]
  have hfst : f (k + st) ≤ f (k + pl) := hf.anti _ _ (by omega) (by omega) (by omega)
  by_cases hq : f (k + pl) ≤ T
  · refine .coast (by omega) (by omega) (by omega) ?_ (by rw [hO]; omega) (by omega)
    have := hf.anti (k + st) (N + 2 * O) (by omega) (by omega) (by omega)
    omega
  · have hkN : k + pl < N := by
      rcases Nat.lt_or_ge (k + pl) N with h1 | h1
      · exact h1
      · have := hf.anti N (k + pl) (by omega) h1 (by omega)
        omega
    refine .acc (by omega) (Or.inr ⟨by omega, by omega, by omega⟩) (by rw [hO]; omega) (by rw [hO]; omega) (by omega)

theorem plan_long_coast {a : ArchId} {cfg : RampConfig} {rw : RampRw} {countUp : Bool} {N R : Nat} {junk c : NextCommand} {T : Nat}
    (hT : cfg.parameters.minTravelTicks = T) (hf : FastRamp a T (cfg.calculateTicks a))
    (set : rw.currTicks = T) (k1 : 1 ≤ rw.performedRampUpSteps) (inv : cfg.calculateTicks a rw.performedRampUpSteps ≤ T)
    (half : T ≤ 2 * cfg.calculateTicks a rw.performedRampUpSteps)
    (way : rw.performedRampUpSteps + a.ticksPerS / 500 / T ≤ R) (small : R ≤ 2000000)
    (h : plan a cfg rw countUp true R junk = some c) : MoveOut a T (Long a T (cfg.calculateTicks a) N) R countUp c := by
  have hnum := hf.nums
  have hs0 : ticksForStoppedMotor = 4294967295 := rfl
  obtain ⟨O, hO⟩ : ∃ O, a.ticksPerS / 500 / T = O := ⟨_, rfl⟩
  rw [hO] at hnum way
  obtain ⟨orig, s, ho, hs, h⟩ := plan_cases h
  rw [hT] at hs
  generalize hk : rw.performedRampUpSteps = k at *
  rw [set] at *
  generalize hff : cfg.calculateTicks a = f at *
  have hor := planningSteps_horizon ho
  obtain ⟨-, o2, o3, mc, m1, t1, t2, big, hh⟩ := hnum
  rw [hh] at hor
  subst hor
  have hT0 := hf.pos
  obtain ⟨n, hn⟩ : ∃ n, (if R - k < 2 * orig then R - k else orig) = n := ⟨_, rfl⟩
  have hn1 : orig ≤ n ∧ n ≤ 253 ∧ n ≤ R - k ∧ (n = R - k ∨ (n = orig ∧ 2 * orig ≤ R - k)) := by
    rw [← hn]; split <;> omega
  have hTn : orig * T ≤ T * n := by
    rw [Nat.mul_comm]; exact Nat.mul_le_mul_left _ hn1.1
  -- selection
  have hsel : s = ⟨.coast, R, n⟩ := by
    rw [← hs]
    unfold select
    simp only [Bool.not_true, Bool.false_eq_true, if_false]
    rw [if_neg (by omega), if_neg (by omega), if_neg (by omega), if_neg (by omega), ← hn]
    split
    · rename_i c1
      have hu : u16 (R - k) = R - k := by unfold u16; omega
      rw [hu]
      rw [if_pos c1] at hn
      have : T * n ≤ 4200 * 253 := Nat.mul_le_mul (by omega) (by omega)
      have hu2 : u32 (T * n) = T * n := by unfold u32; omega
      rw [hn, hu2, if_neg (by omega)]
    · rfl
  subst hsel
  rcases h with ⟨h, -⟩ | ⟨-, d, pl, p, sp, pa, hnt, hm, hsp, hpa, hc⟩
  · dsimp only at h; omega
  dsimp only at hnt hm hsp hpa
  have hd : d = T ∧ pl = n := by
    unfold newTicks at hnt
    dsimp only at hnt
    have hsub : subU32 R k = R - k := by unfold subU32; omega
    rw [if_neg (by decide), if_neg (by decide), hsub] at hnt
    obtain ⟨n1, n2⟩ := Prod.mk.inj hnt
    refine ⟨n1.symm, ?_⟩
    rw [← n2]
    split
    · have hu : u16 (R - k) = R - k := by unfold u16; omega
      rw [hu]
      split <;> omega
    · rfl
  obtain ⟨hd, hpl⟩ := hd
  subst hd hpl
  have hp : p = ⟨.coast, d, pl⟩ := by
    unfold minCmd at hm
    have : d * pl ≤ 4200 * 253 := Nat.mul_le_mul (by omega) (by omega)
    have hu2 : u32 (d * pl) = d * pl := by unfold u32; omega
    rw [if_pos t2, hu2, if_neg (by omega)] at hm
    exact (Option.some.inj hm).symm
  subst hp
  dsimp only at hsp hpa hc
  have hclip : clip .coast d d = d := by unfold clip; split <;> rfl
  have hsf : stepsFor pl R = pl := by unfold stepsFor; omega
  rw [hclip, hsf] at hsp
  have hpa2 : pa = (k, sp.ticks) := by rw [← hpa]; rfl
  subst hpa2
  obtain ⟨e1, e2, e3, e4, e5, e6, e7, e8, e9, e10⟩ := emitted (a := a) (T := d) (R := R) mc t2 (by omega) (by omega) (by omega) (by omega) (by omega)
    (show a.minCmdTicks ≤ d * pl by omega) hsp hc
  refine ⟨e3, e4, e7, e6, by rw [e1]; omega, e9, e10, ?_⟩
  rw [e1, e2]
  dsimp only
  have hss : c.command.steps = pl := by omega
  rw [hss]
  have hmass := hf.mass k k1 (by omega)
  have hdk : f k * k ≤ d * k := Nat.mul_le_mul_right _ inv
  rcases hn1.2.2.2 with h1 | ⟨h1, h2⟩
  · exact .down (.dec (Nat.le_refl _) (by omega) k1 (by omega) (by omega) half (by omega))
  · exact .coast rfl k1 inv half (by rw [hO]; omega) (by omega)

/-- Outcome of the correction to the minimum command time, for slowing down to standstill. -/
theorem minCmd_dec {a : ArchId} {T O : Nat} {R d pl : Nat} {p : Plan} (hn : FastNums a T O) (hd : T ≤ 2 * d) (h1 : 1 ≤ pl) (hpl : pl ≤ O) (hR : pl < R)
    (hR2 : R < 2147483648) (h : minCmd a .decelerate R R d pl = some p) :
    (p = ⟨.decelerate, d, pl⟩ ∧ a.minCmdTicks ≤ d * pl) ∨ (p = ⟨.decelerate, (a.minCmdTicks + R - 1) / R, R⟩ ∧ R ≤ 60) ∨
    (∃ st, p = ⟨.decelerate, d, st⟩ ∧ 1 ≤ st ∧ st ≤ 30 ∧ a.minCmdTicks ≤ d * st ∧ 2 * st < R) := by
  obtain ⟨-, o2, o3, mc, m1, t1, t2, big, -⟩ := hn
  unfold minCmd at h
  by_cases c1 : d < a.minCmdTicks
  · rw [if_pos c1] at h
    have hmul : d * pl ≤ 4200 * 127 := Nat.mul_le_mul (by omega) (by omega)
    have hu : u32 (d * pl) = d * pl := by unfold u32; omega
    rw [hu] at h
    by_cases c2 : d * pl < a.minCmdTicks
    · have hud : u16 d = d := by unfold u16; omega
      have hus : u16 (a.minCmdTicks + d - 1) = a.minCmdTicks + d - 1 := by unfold u16; omega
      rw [if_pos c2, hud, if_neg (by omega), hus] at h
      dsimp only at h
      have hd0 : 0 < d := by omega
      have g1 : (a.minCmdTicks + d - 1) / d ≤ 26 := by
        rw [Nat.div_le_iff_le_mul_add_pred hd0]; omega
      have g2 : a.minCmdTicks ≤ d * ((a.minCmdTicks + d - 1) / d) := by
        have := Nat.lt_mul_div_succ (a.minCmdTicks + d - 1) hd0
        rw [Nat.mul_add] at this
        omega
      generalize (a.minCmdTicks + d - 1) / d = st at h g1 g2
      have g3 : pl ≤ st := by
        rcases Nat.le_total pl st with g | g
        · exact g
        · have := Nat.mul_le_mul_left d g
          omega
      have hr0 : ¬ R = 0 := by omega
      by_cases c3 : st ≥ R
      · have huR : u16 R = R := by unfold u16; omega
        have c4 : 2 * st ≥ R := by omega
        simp only [if_pos c3, huR, Nat.max_eq_right c3, if_pos c4, if_neg hr0] at h
        exact Or.inr (Or.inl ⟨(Option.some.inj h).symm, by omega⟩)
      · by_cases c4 : 2 * st ≥ R
        · have huR : u16 R = R := by unfold u16; omega
          simp only [if_neg c3, huR, Nat.max_eq_right g3, if_pos c4, if_neg hr0] at h
          exact Or.inr (Or.inl ⟨(Option.some.inj h).symm, by omega⟩)
        · simp only [if_neg c3, Nat.max_eq_right g3, if_neg c4] at h
          refine Or.inr (Or.inr ⟨st, ?_, by omega, by omega, g2, by omega⟩)
          rw [← Option.some.inj h]
          split <;> rfl
    · rw [if_neg c2] at h
      exact Or.inl ⟨(Option.some.inj h).symm, by omega⟩
  · rw [if_neg c1] at h
    refine Or.inl ⟨(Option.some.inj h).symm, ?_⟩
    have := Nat.mul_le_mul (show a.minCmdTicks ≤ d by omega) h1
    omega

theorem prusAfter_dec {mt mx k n t : Nat} (h : n ≤ k) (h1 : 1 ≤ n) (hk : k < 2147483648) : prusAfter .decelerate mt mx k k n t = (k - n, t) := by
  rcases prusAfter_cases .decelerate mt mx k k n t with ⟨h, -⟩ | ⟨-, h, -⟩ | ⟨-, h⟩
  · cases h
  · cases h
  · rcases h with ⟨h1, -⟩ | ⟨-, -, -, h⟩ | ⟨h1, h2, h3, h⟩ | ⟨h1, -, h2, h3, h⟩ | ⟨-, -, h2, -, h⟩ | ⟨-, -, -, h⟩
    · omega
    · exact h
    · unfold u32 at h3; omega
    · omega
    · omega
    · exact h

theorem minCmd_down {a : ArchId} {R k d pl : Nat} {p : Plan} (h : minCmd a .decelerate R k d pl = some p) :
    p.phase = .decelerate ∧ (p.ticks = d ∨ p.ticks = (a.minCmdTicks + R - 1) / R) := by
  unfold minCmd at h
  dsimp only at h
  repeat' split at h
  all_goals cases h
  all_goals first | exact ⟨rfl, Or.inl rfl⟩ | exact ⟨rfl, Or.inr rfl⟩

/-- A command of `st` steps on the way down to standstill. -/
theorem dec_out {a : ArchId} {T : Nat} {f : Nat → Nat} {k st Q mt mx : Nat} {up : Bool} {sp : Split} {pa : Nat × Nat} {c : NextCommand}
    (hf : FastRamp a T f) (hnum : FastNums a T (a.ticksPerS / 500 / T)) (small : k ≤ 2000000) (half : T ≤ 2 * f k) (hQ : Q < ticksForStoppedMotor) (hQT : T ≤ Q)
    (hst1 : 1 ≤ st) (hst2 : st ≤ 255) (hst3 : st ≤ k) (hm : a.minCmdTicks ≤ Q * st) (hrest : st < k → a.minCmdTicks ≤ Q * (k - st))
    (hsp : split st Q = sp) (hpa : prusAfter .decelerate mt mx k k sp.steps sp.ticks = pa)
    (hc : c = output .decelerate up pa.1 sp.steps pa.2 sp.pause) : MoveOut a T (Down a T f) k up c := by
  obtain ⟨-, o2, o3, mc, m1, t1, t2, big, hh⟩ := hnum
  have hsr := split_range st Q
  rw [hsp] at hsr
  have hsn : 1 ≤ sp.steps ∧ sp.steps ≤ k := by
    rcases hsr with ⟨-, h⟩ | ⟨-, h, -⟩
    · rw [h]; dsimp only; omega
    · omega
  rw [prusAfter_dec hsn.2 hsn.1 (by omega)] at hpa
  subst hpa
  obtain ⟨e1, e2, e3, e4, e5, e6, e7, e8, e9, e10⟩ := emitted (a := a) (T := T) (R := k) mc t2 hQ hQT hst1 hst2 hst3 hm hsp hc
  refine ⟨e3, e4, e7, e6, by rw [e1]; omega, e9, e10, ?_⟩
  rw [e1, e2, ← e5]
  dsimp only
  by_cases h0 : c.command.steps = k
  · exact .fin hQ hQT (by omega) (by omega)
  · refine .dec hQT hQ (by omega) rfl ?_ ?_ (by omega)
    · rcases e8 with ⟨-, h8⟩ | ⟨h8, h9⟩
      · rw [h8]; exact hrest (by omega)
      · have := Nat.mul_le_mul (show 65535 ≤ Q by omega) (show 1 ≤ k - c.command.steps by omega)
        omega
    · have := hf.anti (k - c.command.steps) k (by omega) (by omega) (by omega)
      omega

theorem plan_down {a : ArchId} {cfg : RampConfig} {rw : RampRw} {countUp : Bool} {R : Nat} {junk c : NextCommand} {T : Nat}
    (hT : cfg.parameters.minTravelTicks = T) (hf : FastRamp a T (cfg.calculateTicks a))
    (set : T ≤ rw.currTicks) (mot : rw.currTicks < ticksForStoppedMotor) (k1 : 1 ≤ rw.performedRampUpSteps) (way : R = rw.performedRampUpSteps)
    (inv : a.minCmdTicks ≤ rw.currTicks * rw.performedRampUpSteps)
    (half : T ≤ 2 * cfg.calculateTicks a rw.performedRampUpSteps) (small : R ≤ 2000000)
    (h : plan a cfg rw countUp true R junk = some c) : MoveOut a T (Down a T (cfg.calculateTicks a)) R countUp c := by
  have hnum := hf.nums
  have hs0 : ticksForStoppedMotor = 4294967295 := rfl
  obtain ⟨orig, s, ho, hs, h⟩ := plan_cases h
  rw [hT] at hs
  generalize hk : rw.performedRampUpSteps = k at *
  subst way
  generalize hP : rw.currTicks = P at *
  generalize hff : cfg.calculateTicks a = f at *
  have hor := planningSteps_horizon ho
  obtain ⟨o1, -⟩ := planningSteps_range ho
  have hoO : orig ≤ a.ticksPerS / 500 / T := by
    rw [hor, ← hnum.hor]
    exact horizon_anti hf.pos (by omega)
  have hnum2 := hnum
  obtain ⟨-, o2, o3, mc, m1, t1, t2, big, hh⟩ := hnum
  have hsel : s = ⟨.decelerate, R, orig⟩ := by
    rw [← hs]
    unfold select
    simp only [Bool.not_true, Bool.false_eq_true, if_false, if_true]
  subst hsel
  rcases h with ⟨h, -⟩ | ⟨-, d, pl, p, sp, pa, hnt, hm, hsp, hpa, hc⟩
  · dsimp only at h; omega
  dsimp only at hnt hm hsp hpa
  unfold newTicks at hnt
  dsimp only at hnt
  rw [if_neg (by decide), if_pos (by decide), hT, hff] at hnt
  have hclip : ∀ d, clip .decelerate P d = max d P := by
    intro d
    unfold clip
    rw [if_pos (by omega), if_neg (by decide), if_pos (by decide)]
  by_cases c1 : R = 1
  · -- the last step
    rw [if_pos c1] at hnt
    obtain ⟨n1, n2⟩ := Prod.mk.inj hnt
    obtain ⟨g1, g2⟩ := minCmd_down hm
    subst c1
    rw [g1] at hsp hpa hc
    have hsf : stepsFor p.planning 1 = 1 := by unfold stepsFor; omega
    rw [hclip, hsf] at hsp
    exact dec_out hf hnum2 small half (by omega) (by omega) (Nat.le_refl _) (by omega) (Nat.le_refl _) (by omega) (fun hx => absurd hx (by omega)) hsp hpa hc
  · rw [if_neg c1] at hnt
    by_cases c2 : R ≤ orig
    · -- all the rest in one command
      rw [if_pos c2] at hnt
      obtain ⟨n1, n2⟩ := Prod.mk.inj hnt
      rw [if_neg (by omega)] at n1
      have hmass := hf.mass orig (by omega) (by omega)
      have hp : p = ⟨.decelerate, d, orig⟩ := by
        rw [← n2] at hm
        unfold minCmd at hm
        by_cases c3 : d < a.minCmdTicks
        · have : d * orig ≤ 4200 * 127 := Nat.mul_le_mul (by omega) (by omega)
          have hu2 : u32 (d * orig) = d * orig := by unfold u32; omega
          rw [if_pos c3, hu2, if_neg (by rw [← n1]; omega)] at hm
          exact (Option.some.inj hm).symm
        · rw [if_neg c3] at hm
          exact (Option.some.inj hm).symm
      subst hp
      dsimp only at hsp hpa hc
      have hsf : stepsFor orig R = R := by unfold stepsFor; omega
      rw [hclip, hsf] at hsp
      have hlive := hf.live orig (by omega) (by omega)
      have : P * R ≤ max d P * R := Nat.mul_le_mul_right _ (by omega)
      exact dec_out hf hnum2 small half (by omega) (by omega) k1 (by omega) (Nat.le_refl _) (by omega) (fun hx => absurd hx (by omega)) hsp hpa hc
    · rw [if_neg c2] at hnt
      obtain ⟨n1, n2⟩ := Prod.mk.inj hnt
      have hlive := hf.live (R - orig) (by omega) (by omega)
      have hmass := hf.mass (R - orig) (by omega) (by omega)
      have hanti := hf.anti (R - orig) R (by omega) (by omega) (by omega)
      have hd : f (R - orig) ≤ d ∧ d ≤ 16777216 := by
        rw [← n1]; split <;> omega
      rw [← n2] at hm
      have hrest : ∀ d', d ≤ d' → a.minCmdTicks ≤ d' * (R - orig) := by
        intro d' hx
        have := Nat.mul_le_mul_right (R - orig) (show f (R - orig) ≤ d' by omega)
        omega
      rcases minCmd_dec hnum2 (by omega) o1 hoO (by omega) (by omega) hm with ⟨hp, g⟩ | ⟨hp, g⟩ | ⟨st, hp, g1, g2, g3, g4⟩
      · subst hp
        dsimp only at hsp hpa hc
        have hsf : stepsFor orig R = orig := by unfold stepsFor; omega
        rw [hclip, hsf] at hsp
        have : d * orig ≤ max d P * orig := Nat.mul_le_mul_right _ (by omega)
        exact dec_out hf hnum2 small half (by omega) (by omega) o1 (by omega) (by omega) (by omega) (fun _ => hrest _ (by omega)) hsp hpa hc
      · subst hp
        dsimp only at hsp hpa hc
        have hsf : stepsFor R R = R := by unfold stepsFor; omega
        rw [hclip, hsf] at hsp
        have hdiv : (a.minCmdTicks + R - 1) / R ≤ a.minCmdTicks + R - 1 := Nat.div_le_self _ _
        generalize (a.minCmdTicks + R - 1) / R = e at hsp hdiv
        have : P * R ≤ max e P * R := Nat.mul_le_mul_right _ (by omega)
        exact dec_out hf hnum2 small half (by omega) (by omega) k1 (by omega) (Nat.le_refl _) (by omega) (fun hx => absurd hx (by omega)) hsp hpa hc
      · subst hp
        dsimp only at hsp hpa hc
        have hsf : stepsFor st R = st := by unfold stepsFor; omega
        rw [hclip, hsf] at hsp
        have : d * st ≤ max d P * st := Nat.mul_le_mul_right _ (by omega)
        have hrest2 : max d P * st ≤ max d P * (R - st) := Nat.mul_le_mul_left _ (by omega)
        exact dec_out hf hnum2 small half (by omega) (by omega) g1 (by omega) (by omega) (by omega) (fun _ => by omega) hsp hpa hc

/-- Every command of a long move is acceptable, and the move goes on. -/
theorem plan_long {a : ArchId} {cfg : RampConfig} {rw : RampRw} {countUp : Bool} {N R : Nat} {junk c : NextCommand} {T : Nat}
    (hT : cfg.parameters.minTravelTicks = T) (hf : FastRamp a T (cfg.calculateTicks a)) (hN : cfg.calculateTicks a N ≤ T) (hN1 : 1 ≤ N)
    (half : T ≤ 2 * cfg.calculateTicks a (N + 2 * (a.ticksPerS / 500 / T))) (hR : R ≠ 0)
    (hl : Long a T (cfg.calculateTicks a) N rw.currTicks rw.performedRampUpSteps R)
    (h : plan a cfg rw countUp true R junk = some c) : MoveOut a T (Long a T (cfg.calculateTicks a) N) R countUp c := by
  rcases hl with ⟨l1, l2, l3, l4, l5⟩ | ⟨l1, l2, l3, l4, l5, l6⟩ | ⟨l1, l2, l3, l4, l5, l6, l7⟩ | ⟨-, -, -, l4⟩
  · exact plan_long_acc hT hf hN hN1 half l1 l2 l3 l4 l5 h
  · exact plan_long_coast hT hf l1 l2 l3 l4 l5 l6 h
  · exact (plan_down hT hf l1 l2 l3 l4 l5 l6 l7 h).mono fun _ _ _ hx => .down hx
  · exact absurd l4 hR

theorem Long.finished {a : ArchId} {T : Nat} {f : Nat → Nat} {N P k : Nat} (hf : FastRamp a T f) (h : Long a T f N P k 0) : k ≤ 1 := by
  have := hf.nums.o3
  rcases h with ⟨l1, l2, l3, l4, l5⟩ | ⟨l1, l2, l3, l4, l5, l6⟩ | ⟨l1, l2, l3, l4, l5, l6, l7⟩ | ⟨-, -, l3, l4⟩ <;> omega

end Planner
end FAS
