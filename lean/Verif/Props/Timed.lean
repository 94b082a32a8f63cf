import Verif.Lemmas.Count
import Verif.Props.Fill
import Verif.Spec.Timed

/-!
# C46, C47: `moveTimed()`
-/

namespace FAS
open Spec Stepper

theorem cmdStepSum_append : ∀ xs ys : List Cmd, cmdStepSum (xs ++ ys) = cmdStepSum xs + cmdStepSum ys
  | [], ys => by simp [cmdStepSum]
  | x :: xs, ys => by simp [cmdStepSum, cmdStepSum_append xs ys]; omega

theorem WithPauses.append {xs ys as bs : List Cmd} (h : WithPauses xs as) (h' : WithPauses ys bs) :
    WithPauses (xs ++ ys) (as ++ bs) := by
  induction h with
  | nil => exact h'
  | cons ps c hp _ ih =>
    rw [List.append_assoc, List.cons_append, List.cons_append]
    exact .cons ps c hp ih

/-- The result codes of `addQueueEntry()`. -/
def AqeCode (r : Int) : Prop := -3 ≤ r ∧ r ≤ 4

theorem Queue.add_code_range (a : ArchId) (q : Queue) (c : Cmd) (st : Bool) : AqeCode (q.add a c st).code := by
  unfold Queue.add AqeCode
  repeat' split
  all_goals (dsimp only; decide)

theorem addNull_code_range (q : Queue) (st : Bool) : AqeCode (q.addNull st).code := by
  unfold Queue.addNull AqeCode
  repeat' split
  all_goals (dsimp only; decide)

theorem code_range {x : Int} {o : Option Int} {r : Int} (hx : AqeCode x) (h : (if x ≠ AQE_OK then some x else none) = o)
    (hr : o = some r) : AqeCode r := by
  rw [hr] at h
  split at h
  · cases h; exact hx
  · cases h

theorem addQueueEntry_code_range (a : ArchId) (ext : ExtPin) (gaps : Nat → Gap) (busy : Bool) (s : Stepper) (c : Cmd) (st : Bool) :
    AqeCode (s.addQueueEntry a ext gaps busy c st).2 := by
  have hadd : ∀ (k : Call) (c : Cmd), AqeCode (k.add a gaps c st).2 := fun k c => Queue.add_code_range a _ c st
  unfold addQueueEntry
  dsimp only
  split
  · unfold AqeCode; dsimp only; decide
  split
  · unfold AqeCode; dsimp only; decide
  split
  · unfold AqeCode; dsimp only; decide
  split
  · rename_i k code hk
    have : (Call.autoEnable a ext gaps ⟨s, 0, [], []⟩ c st).2 = some code := by rw [hk]
    revert this
    unfold Call.autoEnable
    dsimp only
    split
    · split
      · intro h; cases h; unfold AqeCode; decide
      · split
        · intro h; exact code_range (addNull_code_range _ st) rfl h
        · intro h; cases h
    · intro h; cases h
  · rename_i k hk
    split
    · rename_i k' code hk'
      have : (k.dirChange a gaps c st).2 = some code := by rw [hk']
      revert this
      unfold Call.dirChange
      dsimp only
      split
      · split
        · split
          · intro h; cases h; unfold AqeCode; decide
          · split
            · intro h; cases h; exact hadd _ _
            · intro h; exact code_range (hadd _ _) rfl h
        · split
          · intro h; exact code_range (hadd _ _) rfl h
          · intro h; cases h
      · intro h; cases h
    · have : (Call.final a gaps ‹_› c st).2 = (Call.add a gaps ‹_› c st).2 := by
        unfold Call.final; dsimp only; split <;> rfl
      rw [this]; exact hadd _ _

/-- One command within `moveTimed()`. -/
theorem Timed.add_cases (a : ArchId) (env : Env) (st : Bool) (t : Timed) (c : Cmd) (d : Nat)
    (hign : t.s.hw.q.ignoreCommands = false) :
    (t.add a env st c d).1.s.hw.q.ignoreCommands = false ∧
    (((t.add a env st c d).2 = 0 ∧ (∃ ps, (∀ p ∈ ps, p.steps = 0) ∧
        (t.add a env st c d).1.accepted = t.accepted ++ (ps ++ [c])) ∧
        (t.add a env st c d).1.actual = u32 (t.actual + d)) ∨
     ((t.add a env st c d).2 ≠ 0 ∧ AqeCode (t.add a env st c d).2)) := by
  have h1 := addQueueEntry_accepted a (env.ext t.n) (env.gaps t.n) (env.busy t.n) t.s c st hign
  have h2 := addQueueEntry_frame a (env.ext t.n) (env.gaps t.n) (env.busy t.n) t.s c st
  have h3 := addQueueEntry_code_range a (env.ext t.n) (env.gaps t.n) (env.busy t.n) t.s c st
  refine ⟨h2.ign.trans hign, ?_⟩
  obtain ⟨ps, hps, ⟨h, h'⟩ | ⟨h, -⟩⟩ := h1
  · refine Or.inl ⟨h, ⟨ps, hps, ?_⟩, ?_⟩
    · change t.accepted ++ _ = _; rw [h']
    · change (if _ then _ else _) = _; rw [if_pos h]
  · exact Or.inr ⟨h, h3⟩

/-- What a part of `moveTimed()` did: all of its commands are queued, or an error of `addQueueEntry()` is returned. -/
def Ran (t : Timed) (r : Timed × Int) (ok : Int) (P : List Cmd → Nat → Prop) : Prop :=
  r.1.s.hw.q.ignoreCommands = false ∧
  ((r.2 = ok ∧ ∃ cmds new A, r.1.accepted = t.accepted ++ new ∧ WithPauses cmds new ∧ P cmds A ∧
      r.1.actual = u32 (t.actual + A)) ∨
   (r.2 ≠ 0 ∧ AqeCode r.2))

theorem u32_add (x y z : Nat) : u32 (u32 (x + y) + z) = u32 (x + (y + z)) := by unfold u32; omega

theorem Timed.pauses_ran (a : ArchId) (env : Env) (st : Bool) (ok : Int) : ∀ (n : Nat) (t : Timed) (d : Nat),
    t.s.hw.q.ignoreCommands = false → d ≤ n → t.actual < 4294967296 →
    Ran t (t.pauses a env st ok n d) ok (fun cmds A => (∀ c ∈ cmds, c.steps = 0) ∧ durationSum cmds = d ∧ A = d)
  | 0, t, d, hi, hd, ht => ⟨hi, Or.inl ⟨rfl, [], [], 0, by simp [Timed.pauses], .nil, ⟨by simp, by simp [durationSum]; omega, by omega⟩,
      by unfold u32; change t.actual = _; omega⟩⟩
  | n + 1, t, d, hi, hd, ht => by
    unfold Timed.pauses
    by_cases h0 : d > 0
    · rw [if_pos h0]
      dsimp only
      have key : ∀ x, u16 x = x → 1 ≤ x → x ≤ d → Ran t
          (if (t.add a env st ⟨u16 x, 0, true⟩ (u16 x)).2 ≠ 0 then t.add a env st ⟨u16 x, 0, true⟩ (u16 x)
            else Timed.pauses a env st ok n (t.add a env st ⟨u16 x, 0, true⟩ (u16 x)).1 (d - u16 x)) ok
          (fun cmds A => (∀ c ∈ cmds, c.steps = 0) ∧ durationSum cmds = d ∧ A = d) := by
        intro x hx hx1 hx2
        rw [hx]
        obtain ⟨h1, h2⟩ := Timed.add_cases a env st t ⟨x, 0, true⟩ x hi
        rcases h2 with ⟨h2, ⟨ps, hps, h3⟩, h4⟩ | ⟨h2, h3⟩
        · rw [if_neg (by simp [h2])]
          obtain ⟨k1, k2⟩ := Timed.pauses_ran a env st ok n (t.add a env st ⟨x, 0, true⟩ x).1 (d - x) h1 (by omega)
            (by rw [h4]; unfold u32; omega)
          refine ⟨k1, ?_⟩
          rcases k2 with ⟨k2, cmds, new, A, k3, k4, ⟨k5, k6, k7⟩, k8⟩ | k2
          · refine Or.inl ⟨k2, ⟨x, 0, true⟩ :: cmds, ps ++ ⟨x, 0, true⟩ :: new, x + A, ?_, .cons ps _ hps k4, ⟨?_, ?_, ?_⟩, ?_⟩
            · rw [k3, h3]; simp
            · intro c hc
              rcases List.mem_cons.mp hc with hc | hc
              · rw [hc]
              · exact k5 c hc
            · simp only [durationSum, k6, Cmd.duration, Nat.max_zero]; omega
            · omega
            · rw [k8, h4]; exact u32_add _ _ _
          · exact Or.inr k2
        · rw [if_pos h2]
          exact ⟨h1, Or.inr ⟨h2, h3⟩⟩
      apply key
      · split
        · unfold u16; omega
        · split <;> unfold u16 <;> omega
      · split
        · omega
        · split <;> omega
      · split
        · omega
        · split <;> omega
    · rw [if_neg h0]
      exact ⟨hi, Or.inl ⟨rfl, [], [], 0, by simp, .nil, ⟨by simp, by simp [durationSum]; omega, by omega⟩,
        by unfold u32; change t.actual = _; omega⟩⟩

/-- A command with `ticks = 0` is never accepted. -/
theorem add_zero (a : ArchId) (ext : ExtPin) (gaps : Nat → Gap) (busy : Bool) (s : Stepper) (c : Cmd) (st : Bool)
    (h : c.ticks = 0) : (s.addQueueEntry a ext gaps busy c st).2 ≠ AQE_OK := by
  have hmin : 0 < a.minCmdTicks := by cases a <;> decide
  have hadd : ∀ q : Queue, (q.add a c st).code ≠ AQE_OK := by
    intro q
    unfold Queue.add
    have : Queue.commandRateTicks c = 0 := by unfold Queue.commandRateTicks; rw [h]; unfold u32; simp
    rw [this]
    repeat' split
    all_goals first
      | omega
      | (dsimp only; decide)
  intro hok
  obtain ⟨k, hk⟩ := addQueueEntry_final a ext gaps busy s c st hok
  exact hadd _ hk

theorem Timed.add_zero (a : ArchId) (env : Env) (st : Bool) (t : Timed) (c : Cmd) (d : Nat) (h : c.ticks = 0) :
    (t.add a env st c d).2 ≠ 0 := FAS.add_zero a _ _ _ _ c st h

theorem Timed.slowStep_ran (a : ArchId) (env : Env) (st up : Bool) : ∀ (n : Nat) (t : Timed) (s d : Nat),
    t.s.hw.q.ignoreCommands = false → d ≤ n → t.actual < 4294967296 → s ≤ 1 →
    Ran t (t.slowStep a env st up n s d) 0 (fun cmds A => (∀ c ∈ cmds, c.countUp = up) ∧
      cmdStepSum cmds = (if d > 0 then s else 0) ∧ durationSum cmds = d ∧ A = d)
  | 0, t, s, d, hi, hd, ht, hs => ⟨hi, Or.inl ⟨rfl, [], [], 0, by simp [Timed.slowStep], .nil,
      ⟨by simp, by rw [if_neg (by omega)]; rfl, by simp [durationSum]; omega, by omega⟩, by unfold u32; change t.actual = _; omega⟩⟩
  | n + 1, t, s, d, hi, hd, ht, hs => by
    unfold Timed.slowStep
    by_cases h0 : d > 0
    · rw [if_pos h0]
      dsimp only
      have key : ∀ x, x ≤ d → Ran t
          (if (t.add a env st ⟨x, s, up⟩ x).2 ≠ 0 then t.add a env st ⟨x, s, up⟩ x
            else Timed.slowStep a env st up n (t.add a env st ⟨x, s, up⟩ x).1 0 (d - x)) 0
          (fun cmds A => (∀ c ∈ cmds, c.countUp = up) ∧
            cmdStepSum cmds = (if d > 0 then s else 0) ∧ durationSum cmds = d ∧ A = d) := by
        intro x hx2
        obtain ⟨h1, h2⟩ := Timed.add_cases a env st t ⟨x, s, up⟩ x hi
        rcases h2 with ⟨h2, ⟨ps, hps, h3⟩, h4⟩ | ⟨h2, h3⟩
        · have hx1 : x ≠ 0 := fun h => Timed.add_zero a env st t ⟨x, s, up⟩ x h h2
          rw [if_neg (by simp [h2])]
          obtain ⟨k1, k2⟩ := Timed.slowStep_ran a env st up n (t.add a env st ⟨x, s, up⟩ x).1 0 (d - x) h1 (by omega)
            (by rw [h4]; unfold u32; omega) (by omega)
          refine ⟨k1, ?_⟩
          rcases k2 with ⟨k2, cmds, new, A, k3, k4, ⟨k5, k5', k6, k7⟩, k8⟩ | k2
          · refine Or.inl ⟨k2, ⟨x, s, up⟩ :: cmds, ps ++ ⟨x, s, up⟩ :: new, x + A, ?_, .cons ps _ hps k4, ⟨?_, ?_, ?_, ?_⟩, ?_⟩
            · rw [k3, h3]; simp
            · intro c hc
              rcases List.mem_cons.mp hc with hc | hc
              · rw [hc]
              · exact k5 c hc
            · simp only [cmdStepSum, k5', if_pos h0]; split <;> omega
            · simp only [durationSum, k6, Cmd.duration]
              rw [Nat.max_eq_left hs]; omega
            · omega
            · rw [k8, h4]; exact u32_add _ _ _
          · exact Or.inr k2
        · rw [if_pos h2]
          exact ⟨h1, Or.inr ⟨h2, h3⟩⟩
      apply key
      unfold u16
      split
      · omega
      · split <;> omega
    · rw [if_neg h0]
      exact ⟨hi, Or.inl ⟨rfl, [], [], 0, by simp, .nil, ⟨by simp, by rw [if_neg h0]; rfl, by simp [durationSum]; omega, by omega⟩,
        by unfold u32; change t.actual = _; omega⟩⟩

theorem Timed.slow_ran (a : ArchId) (env : Env) (st up : Bool) (ok : Int) (rate : Nat) (hr : 0 < rate) : ∀ (n : Nat) (t : Timed),
    t.s.hw.q.ignoreCommands = false → t.actual < 4294967296 →
    Ran t (t.slow a env st up ok rate n) ok (fun cmds A => (∀ c ∈ cmds, c.countUp = up) ∧
      cmdStepSum cmds = n ∧ durationSum cmds = n * rate ∧ A = n * rate)
  | 0, t, hi, ht => ⟨hi, Or.inl ⟨rfl, [], [], 0, by simp [Timed.slow], .nil,
      ⟨by simp, rfl, by simp [durationSum], by omega⟩, by unfold u32; change t.actual = _; omega⟩⟩
  | n + 1, t, hi, ht => by
    unfold Timed.slow
    dsimp only
    obtain ⟨h1, h2⟩ := Timed.slowStep_ran a env st up rate t 1 rate hi (Nat.le_refl _) ht (Nat.le_refl _)
    rcases h2 with ⟨h2, cmds1, new1, A1, h3, h4, ⟨h5, h5', h6, h7⟩, h8⟩ | ⟨h2, h3⟩
    · rw [if_neg (by simp [h2])]
      obtain ⟨k1, k2⟩ := Timed.slow_ran a env st up ok rate hr n (t.slowStep a env st up rate 1 rate).1 h1
        (by rw [h8]; unfold u32; omega)
      refine ⟨k1, ?_⟩
      rcases k2 with ⟨k2, cmds, new, A, k3, k4, ⟨k5, k5', k6, k7⟩, k8⟩ | k2
      · refine Or.inl ⟨k2, cmds1 ++ cmds, new1 ++ new, A1 + A, by rw [k3, h3, List.append_assoc], h4.append k4, ⟨?_, ?_, ?_, ?_⟩, ?_⟩
        · intro c hc
          rcases List.mem_append.mp hc with hc | hc
          · exact h5 c hc
          · exact k5 c hc
        · rw [cmdStepSum_append, h5', k5', if_pos hr]; omega
        · rw [cmdDurationSum_append, h6, k6, Nat.succ_mul]; omega
        · rw [h7, k7, Nat.succ_mul]; omega
        · rw [k8, h8]; exact u32_add _ _ _
      · exact Or.inr k2
    · rw [if_pos h2]
      exact ⟨h1, Or.inr ⟨h2, h3⟩⟩

theorem Timed.fast_ran (a : ArchId) (env : Env) (st up : Bool) (ok : Int) : ∀ (n : Nat) (t : Timed) (steps ticks missing : Nat),
    t.s.hw.q.ignoreCommands = false → t.actual < 4294967296 → steps ≤ n → steps ≤ 32767 → ticks ≤ 65535 →
    Ran t (t.fast a env st up ok n steps ticks missing) ok (fun cmds A => (∀ c ∈ cmds, c.countUp = up) ∧
      cmdStepSum cmds = steps ∧ ticks * steps ≤ durationSum cmds ∧ durationSum cmds ≤ ticks * steps + missing ∧
      (steps ≤ 255 → A = durationSum cmds))
  | 0, t, steps, ticks, missing, hi, ht, hn, h16, _ => by
    have h0 : steps = 0 := by omega
    subst h0
    exact ⟨hi, Or.inl ⟨rfl, [], [], 0, by simp [Timed.fast], .nil,
      ⟨by simp, rfl, by simp [durationSum], by simp [durationSum], by simp [durationSum]⟩, by unfold u32; change t.actual = _; omega⟩⟩
  | n + 1, t, steps, ticks, missing, hi, ht, hn, h16, htk => by
    unfold Timed.fast
    by_cases h0 : steps > 0
    · rw [if_pos h0]
      dsimp only
      have key : ∀ cs tk ms, 1 ≤ cs → cs ≤ steps → (steps ≤ 255 → cs = steps) → tk ≤ 65535 → (tk ≠ 0 → ticks ≤ tk) →
          (tk ≠ 0 → tk * steps + ms ≤ ticks * steps + missing) →
          Ran t
          (if (t.add a env st ⟨tk, cs, up⟩ (u32 (tk * steps))).2 ≠ 0 then t.add a env st ⟨tk, cs, up⟩ (u32 (tk * steps))
            else Timed.fast a env st up ok n (t.add a env st ⟨tk, cs, up⟩ (u32 (tk * steps))).1 (steps - cs) tk ms) ok
          (fun cmds A => (∀ c ∈ cmds, c.countUp = up) ∧
            cmdStepSum cmds = steps ∧ ticks * steps ≤ durationSum cmds ∧ durationSum cmds ≤ ticks * steps + missing ∧
            (steps ≤ 255 → A = durationSum cmds)) := by
        intro cs tk ms hc1 hc2 hc3 htk' hle hms
        obtain ⟨h1, h2⟩ := Timed.add_cases a env st t ⟨tk, cs, up⟩ (u32 (tk * steps)) hi
        rcases h2 with ⟨h2, ⟨ps, hps, h3⟩, h4⟩ | ⟨h2, h3⟩
        · have hx1 : tk ≠ 0 := fun h => Timed.add_zero a env st t ⟨tk, cs, up⟩ (u32 (tk * steps)) h h2
          rw [if_neg (by simp [h2])]
          obtain ⟨k1, k2⟩ := Timed.fast_ran a env st up ok n (t.add a env st ⟨tk, cs, up⟩ (u32 (tk * steps))).1 (steps - cs) tk ms h1
            (by rw [h4]; unfold u32; omega) (by omega) (by omega) htk'
          refine ⟨k1, ?_⟩
          rcases k2 with ⟨k2, cmds, new, A, k3, k4, ⟨k5, k5', k6, k7, k9⟩, k8⟩ | k2
          · have hsum : durationSum (⟨tk, cs, up⟩ :: cmds) = tk * cs + durationSum cmds := by
              simp only [durationSum, Cmd.duration]
              rw [Nat.max_eq_right hc1]
            have hsplit : tk * cs + tk * (steps - cs) = tk * steps := by
              rw [← Nat.mul_add]; congr 1; omega
            have hlow : ticks * steps ≤ tk * steps := Nat.mul_le_mul_right _ (hle hx1)
            refine Or.inl ⟨k2, ⟨tk, cs, up⟩ :: cmds, ps ++ ⟨tk, cs, up⟩ :: new, u32 (tk * steps) + A, ?_, .cons ps _ hps k4, ⟨?_, ?_, ?_, ?_, ?_⟩, ?_⟩
            · rw [k3, h3]; simp
            · intro c hc
              rcases List.mem_cons.mp hc with hc | hc
              · rw [hc]
              · exact k5 c hc
            · simp only [cmdStepSum, k5']; omega
            · rw [hsum]; omega
            · rw [hsum]; have := hms hx1; omega
            · intro h255
              have hcs := hc3 h255
              rw [hsum, hcs]
              have hz : steps - cs = 0 := by omega
              rw [hz] at k5' k9 k6 k7
              rw [k9 (by omega)]
              have : tk * steps ≤ 65535 * 255 := Nat.mul_le_mul htk' h255
              unfold u32; omega
            · rw [k8, h4]; exact u32_add _ _ _
          · exact Or.inr k2
        · rw [if_pos h2]
          exact ⟨h1, Or.inr ⟨h2, h3⟩⟩
      by_cases hinc : steps ≤ missing
      · simp only [hinc, decide_true, if_true]
        apply key
        · split
          · omega
          · split <;> omega
        · split
          · omega
          · split <;> omega
        · intro h; rw [if_neg (by omega), if_neg (by omega)]
        · unfold u16; omega
        · unfold u16; omega
        · intro hne
          have : u16 (ticks + 1) = ticks + 1 := by unfold u16 at hne ⊢; omega
          rw [this, Nat.add_mul]; omega
      · simp only [hinc, decide_false, Bool.false_eq_true, if_false]
        apply key
        · split
          · omega
          · split <;> omega
        · split
          · omega
          · split <;> omega
        · intro h; rw [if_neg (by omega), if_neg (by omega)]
        · exact htk
        · intro _; omega
        · intro _; omega
    · rw [if_neg h0]
      have h0' : steps = 0 := by omega
      subst h0'
      exact ⟨hi, Or.inl ⟨rfl, [], [], 0, by simp, .nil,
        ⟨by simp, rfl, by simp [durationSum], by simp [durationSum], by simp [durationSum]⟩, by unfold u32; change t.actual = _; omega⟩⟩

/-- The decisions of `moveTimed()` with steps and `n = |steps|`. -/
theorem moveTimed_steps (a : ArchId) (env : Env) (s : Stepper) (steps : Int) (duration : Nat) (st : Bool)
    (h0 : steps ≠ 0) (h1 : -32768 < steps) (h2 : steps ≤ 32767) (hd : duration < 4294967296) :
    let ok : Int := if s.isQueueEmpty then MOVE_TIMED_EMPTY else MOVE_TIMED_OK
    let n := steps.natAbs
    let rate := duration / n
    s.moveTimed a env steps duration st =
      if rate > 65535 then
        if u16 (rate / 65536 + 1) ≥ a.queueLen then (⟨s, 0, [], 0⟩, MOVE_TIMED_TOO_LARGE_ERROR)
        else if n ≥ a.queueLen then (⟨s, 0, [], 0⟩, MOVE_TIMED_TOO_LARGE_ERROR)
        else if u8 (n * u16 (rate / 65536 + 1)) ≥ a.queueLen then (⟨s, 0, [], 0⟩, MOVE_TIMED_TOO_LARGE_ERROR)
        else if u8 (n * u16 (rate / 65536 + 1)) > a.queueLen - s.hw.q.queueEntries then (⟨s, 0, [], 0⟩, MOVE_TIMED_BUSY)
        else Timed.slow a env st (decide (0 ≤ steps)) ok rate n ⟨s, 0, [], 0⟩
      else if n > a.queueLen * 255 then (⟨s, 0, [], 0⟩, MOVE_TIMED_TOO_LARGE_ERROR)
      else if n > (a.queueLen - s.hw.q.queueEntries) * 255 then (⟨s, 0, [], 0⟩, MOVE_TIMED_BUSY)
      else Timed.fast a env st (decide (0 ≤ steps)) ok n ⟨s, 0, [], 0⟩ n rate (duration - rate * n) := by
  dsimp only
  have hn : (if steps < 0 then i16 (-steps) else steps) = (steps.natAbs : Int) := by
    unfold i16
    split <;> omega
  have hu : toU32 (steps.natAbs : Int) = steps.natAbs := by unfold toU32; omega
  unfold moveTimed
  dsimp only
  rw [if_neg (by simp [h0]), if_neg h0, hn, hu]
  have hpos : 0 < steps.natAbs := by omega
  have hmul : duration / steps.natAbs * steps.natAbs ≤ duration := Nat.div_mul_le_self _ _
  have hlt : duration < duration / steps.natAbs * steps.natAbs + steps.natAbs := by
    have := Nat.lt_div_mul_add hpos (a := duration)
    exact this
  have hmiss : (i16 (subU32 duration (u32 (duration / steps.natAbs * steps.natAbs)) : Nat)).toNat =
      duration - duration / steps.natAbs * steps.natAbs := by
    generalize duration / steps.natAbs * steps.natAbs = m at *
    have e1 : u32 m = m := by unfold u32; omega
    have e2 : subU32 duration m = duration - m := by unfold subU32; omega
    rw [e1, e2]
    unfold i16; omega
  rw [hmiss]
  have hge : decide (steps ≥ 0) = decide (0 ≤ steps) := rfl
  rw [hge]
  have c1 : ((steps.natAbs : Int) ≥ (a.queueLen : Int)) ↔ steps.natAbs ≥ a.queueLen := by omega
  have c2 : ((steps.natAbs : Int) > (a.queueLen : Int) * 255) ↔ steps.natAbs > a.queueLen * 255 := by omega
  have c3 : ((steps.natAbs : Int) > ((a.queueLen - s.hw.q.queueEntries : Nat) : Int) * 255) ↔
      steps.natAbs > (a.queueLen - s.hw.q.queueEntries) * 255 := by omega
  simp only [c1, c2, c3, Int.toNat_natCast]

/-- C46: if `moveTimed(steps, duration)` succeeds, then the commands queued (besides pauses for enable and direction delay) have exactly
`|steps|` steps in the requested direction, and their time is `duration` rounded down by less than one tick per step, exactly
`duration` for `steps = 0`. -/
theorem C46_steps_and_time_partial (a : ArchId) (env : Env) (s : Stepper) (steps : Int) (duration : Nat) (st : Bool)
    (h1 : -32768 < steps) (h2 : steps ≤ 32767) (hd : duration < 4294967296) (hign : s.hw.q.ignoreCommands = false)
    (hok : TimedOk (s.moveTimed a env steps duration st).2) :
    ∃ cmds, WithPauses cmds (s.moveTimed a env steps duration st).1.accepted ∧
      (∀ c ∈ cmds, c.steps > 0 → c.countUp = decide (steps > 0)) ∧
      cmdStepSum cmds = steps.natAbs ∧
      durationSum cmds ≤ duration ∧ duration < durationSum cmds + max 1 steps.natAbs ∧
      (steps.natAbs ≤ 255 ∨ 65535 < duration / steps.natAbs →
        (s.moveTimed a env steps duration st).1.actual = durationSum cmds) := by
  have hno : ∀ x : Timed, ¬ TimedOk (x, MOVE_TIMED_TOO_LARGE_ERROR).2 := by intro x; unfold TimedOk; dsimp only; decide
  have hno2 : ∀ x : Timed, ¬ TimedOk (x, MOVE_TIMED_BUSY).2 := by intro x; unfold TimedOk; dsimp only; decide
  have hran : ∀ (r : Timed × Int) (P : List Cmd → Nat → Prop), TimedOk r.2 →
      Ran ⟨s, 0, [], 0⟩ r (if s.isQueueEmpty then MOVE_TIMED_EMPTY else MOVE_TIMED_OK) P →
      ∃ cmds A, WithPauses cmds r.1.accepted ∧ P cmds A ∧ r.1.actual = u32 A := by
    intro r P hok h
    obtain ⟨-, ⟨-, cmds, new, A, h3, h4, h5, h6⟩ | ⟨h3, h4⟩⟩ := h
    · simp only [List.nil_append] at h3
      exact ⟨cmds, A, by rw [h3]; exact h4, h5, by rw [h6]; simp⟩
    · exfalso
      unfold TimedOk MOVE_TIMED_OK MOVE_TIMED_EMPTY at hok
      unfold AqeCode at h4
      omega
  by_cases h0 : steps = 0
  · subst h0
    revert hok
    unfold moveTimed
    dsimp only
    by_cases hd0 : duration = 0
    · rw [if_pos ⟨rfl, hd0⟩]
      intro hok
      refine ⟨[], ?_, by simp, rfl, by simp [durationSum], by simp [durationSum, hd0], ?_⟩
      · split <;> exact .nil
      · intro _; split <;> rfl
    · rw [if_neg (by simp [hd0]), if_pos rfl]
      split
      · intro hok; exact absurd hok (hno _)
      split
      · intro hok; exact absurd hok (hno2 _)
      intro hok
      obtain ⟨cmds, A, h3, ⟨h4, h5, h6⟩, h7⟩ := hran _ _ hok (Timed.pauses_ran a env st _ duration ⟨s, 0, [], 0⟩ duration hign
        (Nat.le_refl _) (by dsimp only; omega))
      refine ⟨cmds, h3, ?_, ?_, by omega, by omega, ?_⟩
      · intro c hc hpos
        rw [h4 c hc] at hpos; omega
      · clear h3 h5
        induction cmds with
        | nil => rfl
        | cons c cs ih =>
          have := h4 c (by simp)
          have := ih (fun c hc => h4 c (by simp [hc]))
          simp only [cmdStepSum]; omega
      · intro _; rw [h7, h5, h6]; unfold u32; omega
  · revert hok
    rw [moveTimed_steps a env s steps duration st h0 h1 h2 hd]
    have hpos : 0 < steps.natAbs := by omega
    have hmul : duration / steps.natAbs * steps.natAbs ≤ duration := Nat.div_mul_le_self _ _
    have hlt : duration < duration / steps.natAbs * steps.natAbs + steps.natAbs :=
      Nat.lt_div_mul_add hpos (a := duration)
    have hdir : decide (0 ≤ steps) = decide (steps > 0) := by
      rw [decide_eq_decide]; omega
    rw [hdir]
    generalize duration / steps.natAbs = rate at *
    split
    · rename_i hrate
      split
      · intro hok; exact absurd hok (hno _)
      split
      · intro hok; exact absurd hok (hno _)
      split
      · intro hok; exact absurd hok (hno _)
      split
      · intro hok; exact absurd hok (hno2 _)
      intro hok
      obtain ⟨cmds, A, h3, ⟨h4, h5, h6, h7⟩, h8⟩ := hran _ _ hok (Timed.slow_ran a env st _ _ rate (by omega) steps.natAbs ⟨s, 0, [], 0⟩ hign
        (by dsimp only; omega))
      rw [Nat.mul_comm] at h6 h7
      refine ⟨cmds, h3, fun c hc _ => h4 c hc, h5, by omega, by omega, ?_⟩
      intro _; rw [h8, h6, h7]; unfold u32; omega
    · rename_i hrate
      split
      · intro hok; exact absurd hok (hno _)
      split
      · intro hok; exact absurd hok (hno2 _)
      intro hok
      obtain ⟨cmds, A, h3, ⟨h4, h5, h6, h7, h8⟩, h9⟩ := hran _ _ hok (Timed.fast_ran a env st _ _ steps.natAbs ⟨s, 0, [], 0⟩ steps.natAbs
        rate (duration - rate * steps.natAbs) hign (by dsimp only; omega) (Nat.le_refl _) (by omega) (by omega))
      refine ⟨cmds, h3, fun c hc _ => h4 c hc, h5, by omega, by omega, ?_⟩
      intro hs
      have hs' : steps.natAbs ≤ 255 := by omega
      rw [h9, h8 hs']; unfold u32; omega

/-- A stepper for the examples, with the speed limit of the ESP32. -/
def timedStepper (a : ArchId) : Stepper := (Stepper.init a 1).setAbsoluteSpeedLimit 80

/-- The hypotheses of `C46_steps_and_time_partial` are met: 600 steps in 1000000 ticks on an ESP32. -/
example : TimedOk ((timedStepper .esp32).moveTimed .esp32 calmEnv 600 1000000 true).2 ∧
    ((timedStepper .esp32).moveTimed .esp32 calmEnv 600 1000000 true).1.accepted =
      [⟨1666, 255, true⟩, ⟨1667, 172, true⟩, ⟨1667, 173, true⟩] ∧
    (timedStepper .esp32).hw.q.ignoreCommands = false := by
  refine ⟨Or.inr ?_, ?_, ?_⟩ <;> decide +kernel

/-- C46 does not hold for `steps = -32768`: the call succeeds without moving. -/
theorem C46_min_steps_refuted :
    TimedOk ((timedStepper .esp32).moveTimed .esp32 calmEnv (-32768) 1000000 true).2 ∧
    ((timedStepper .esp32).moveTimed .esp32 calmEnv (-32768) 1000000 true).1.accepted = [] := by
  refine ⟨Or.inr ?_, ?_⟩ <;> decide +kernel

/-- C46 does not hold for the reported duration with more than 255 steps: 256 steps with 1000 ticks each last 256000 ticks, and 384000
are reported. -/
theorem C46_actual_duration_refuted :
    TimedOk ((timedStepper .esp32).moveTimed .esp32 calmEnv 256 256000 true).2 ∧
    ((timedStepper .esp32).moveTimed .esp32 calmEnv 256 256000 true).1.accepted = [⟨1000, 128, true⟩, ⟨1000, 128, true⟩] ∧
    ((timedStepper .esp32).moveTimed .esp32 calmEnv 256 256000 true).1.actual = 384000 := by
  refine ⟨Or.inr ?_, ?_, ?_⟩ <;> decide +kernel

/-! ## C47 -/

/-- `C47_rejected_no_effect` without the step count -32768. -/
theorem C47_rejected_no_effect_aux (a : ArchId) (env : Env) (s : Stepper) (steps : Int) (duration : Nat) (st : Bool)
    (h1 : -32768 < steps) (h2 : steps ≤ 32767) (hd : duration < 4294967296) (hign : s.hw.q.ignoreCommands = false)
    (hno : (s.moveTimed a env steps duration st).2 = MOVE_TIMED_TOO_LARGE_ERROR ∨
      (s.moveTimed a env steps duration st).2 = MOVE_TIMED_BUSY) :
    (s.moveTimed a env steps duration st).1.s = s ∧ (s.moveTimed a env steps duration st).1.accepted = [] := by
  have hran : ∀ (r : Timed × Int) (P : List Cmd → Nat → Prop), r.2 = MOVE_TIMED_TOO_LARGE_ERROR ∨ r.2 = MOVE_TIMED_BUSY →
      Ran ⟨s, 0, [], 0⟩ r (if s.isQueueEmpty then MOVE_TIMED_EMPTY else MOVE_TIMED_OK) P → r.1.s = s ∧ r.1.accepted = [] := by
    intro r P hok h
    exfalso
    obtain ⟨-, ⟨h3, -⟩ | ⟨h3, h4⟩⟩ := h
    · rw [h3] at hok
      split at hok
      · revert hok; decide
      · revert hok; decide
    · unfold MOVE_TIMED_TOO_LARGE_ERROR MOVE_TIMED_BUSY at hok
      unfold AqeCode at h4
      omega
  by_cases h0 : steps = 0
  · subst h0
    revert hno
    unfold moveTimed
    dsimp only
    by_cases hd0 : duration = 0
    · rw [if_pos ⟨rfl, hd0⟩]
      have hokc : ∀ x : Timed, ¬ ((x, (if s.isQueueEmpty then MOVE_TIMED_EMPTY else MOVE_TIMED_OK : Int)).2 = MOVE_TIMED_TOO_LARGE_ERROR ∨
          (x, (if s.isQueueEmpty then MOVE_TIMED_EMPTY else MOVE_TIMED_OK : Int)).2 = MOVE_TIMED_BUSY) := by
        intro x
        dsimp only
        split <;> decide
      intro hno
      split at hno <;> exact absurd hno (hokc _)
    · rw [if_neg (by simp [hd0]), if_pos rfl]
      split
      · intro _; exact ⟨rfl, rfl⟩
      split
      · intro _; exact ⟨rfl, rfl⟩
      intro hno
      exact hran _ _ hno (Timed.pauses_ran a env st _ duration ⟨s, 0, [], 0⟩ duration hign (Nat.le_refl _) (by dsimp only; omega))
  · revert hno
    rw [moveTimed_steps a env s steps duration st h0 h1 h2 hd]
    generalize duration / steps.natAbs = rate at *
    split
    · rename_i hrate
      split
      · intro _; exact ⟨rfl, rfl⟩
      split
      · intro _; exact ⟨rfl, rfl⟩
      split
      · intro _; exact ⟨rfl, rfl⟩
      split
      · intro _; exact ⟨rfl, rfl⟩
      intro hno
      exact hran _ _ hno (Timed.slow_ran a env st _ _ rate (by omega) steps.natAbs ⟨s, 0, [], 0⟩ hign (by dsimp only; omega))
    · rename_i hrate
      split
      · intro _; exact ⟨rfl, rfl⟩
      split
      · intro _; exact ⟨rfl, rfl⟩
      intro hno
      exact hran _ _ hno (Timed.fast_ran a env st _ _ steps.natAbs ⟨s, 0, [], 0⟩ steps.natAbs
        rate (duration - rate * steps.natAbs) hign (by dsimp only; omega) (Nat.le_refl _) (by omega) (by omega))

/-- A command which needs nothing inserted is accepted if there is room. -/
theorem straight_add (a : ArchId) (env : Env) (i : Nat) (s : Stepper) (c : Cmd) (st : Bool) (hs : Straight env s c.countUp)
    (hi : s.hw.q.IdxOK a) (hf : s.hw.q.queueEntries < a.queueLen) (hm : s.hw.q.maxSpeedInTicks ≤ c.ticks)
    (hl : a.minCmdTicks ≤ Queue.commandRateTicks c) :
    let r := s.addQueueEntry a (env.ext i) (env.gaps i) (env.busy i) c st
    r.2 = AQE_OK ∧ Straight env r.1.s c.countUp ∧ r.1.s.hw.q.IdxOK a ∧
      r.1.s.hw.q.queueEntries ≤ s.hw.q.queueEntries + 1 ∧ r.1.s.hw.q.maxSpeedInTicks = s.hw.q.maxSpeedInTicks := by
  dsimp only
  have e : s.addQueueEntry a (env.ext i) (env.gaps i) (env.busy i) c st = Call.final a (env.gaps i) ⟨s, 0, [], []⟩ c st := by
    unfold addQueueEntry
    dsimp only
    have he : Call.autoEnable a (env.ext i) (env.gaps i) ⟨s, 0, [], []⟩ c st = (⟨s, 0, [], []⟩, none) := by
      unfold Call.autoEnable
      rw [if_neg]
      rintro ⟨h1, h2⟩
      rcases hs.enabled with h | h
      · rw [h] at h1; cases h1
      · exact h.1 h2
    have hd : Call.dirChange a (env.gaps i) ⟨s, 0, [], []⟩ c st = (⟨s, 0, [], []⟩, none) := by
      unfold Call.dirChange
      rw [if_neg]
      intro h; exact h hs.dir
    rw [if_neg (by omega), if_neg (by rw [hs.free i]; simp), if_neg (by
      rintro ⟨h1, h2⟩
      rw [hs.pin h1] at h2; cases h2), he]
    dsimp only
    rw [hd]
  rw [e]
  have h1 := Call.add_spec a (env.gaps i) ⟨s, 0, [], []⟩ c st
  have h2 := Call.add_ok a (env.gaps i) ⟨s, 0, [], []⟩ c st hi hs.ready hf hl
  have h3 := Call.add_idx a (env.gaps i) ⟨s, 0, [], []⟩ c st hi
  have hcu : (Call.add a (env.gaps i) ⟨s, 0, [], []⟩ c st).1.s.hw.q.qend.countUp = c.countUp := by
    rcases h1.2.2.2 with ⟨-, -, -, h⟩ | ⟨h, -⟩
    · exact h
    · have := h h2
      rw [hs.ign] at this; cases this
  have hfr := h1.1
  unfold Call.final
  dsimp only
  have hpin : ∀ s' : Stepper, s'.hw.q.dirPin = s.hw.q.dirPin → s'.dirPin = pinUndefined → c.countUp = true := by
    intro s' h h'
    exact hs.pin (by unfold Stepper.dirPin at *; rw [← h]; exact h')
  split
  · rename_i hauto
    refine ⟨h2, ⟨hfr.ready.trans hs.ready, hfr.ign.trans hs.ign, Or.inr ?_, hcu, hpin _ hfr.pin, hs.free⟩, h3.1, h3.2, hfr.max⟩
    have ha := hfr.auto.symm.trans hauto.1
    have ho := hfr.off
    rcases hs.enabled with h | h
    · exact absurd (h.symm.trans ha) (by decide)
    · exact ⟨by change Stepper.offDelayCount _ ≠ 0; rw [ho]; exact h.2, by change Stepper.offDelayCount _ ≠ 0; rw [ho]; exact h.2⟩
  · refine ⟨h2, ⟨hfr.ready.trans hs.ready, hfr.ign.trans hs.ign, ?_, hcu, hpin _ hfr.pin, hs.free⟩, h3.1, h3.2, hfr.max⟩
    rcases hs.enabled with h | h
    · exact Or.inl (hfr.auto.trans h)
    · exact Or.inr ⟨by rw [h1.2.2.1]; exact h.1, by rw [hfr.off]; exact h.2⟩

/-- State within `moveTimed()` in which `room` more commands fit. -/
structure Room (a : ArchId) (env : Env) (up : Bool) (L room : Nat) (t : Timed) : Prop where
  straight : Straight env t.s up
  idx : t.s.hw.q.IdxOK a
  room : t.s.hw.q.queueEntries + room ≤ a.queueLen
  limit : t.s.hw.q.maxSpeedInTicks ≤ L

theorem Room.add {a : ArchId} {env : Env} {up : Bool} {L room : Nat} {t : Timed} (h : Room a env up L (room + 1) t) (st : Bool) (c : Cmd)
    (d : Nat) (hup : c.countUp = up) (hL : L ≤ c.ticks) (hl : a.minCmdTicks ≤ Queue.commandRateTicks c) :
    (t.add a env st c d).2 = 0 ∧ Room a env up L room (t.add a env st c d).1 := by
  have hr := h.room
  have hlim := h.limit
  obtain ⟨h1, h2, h3, h4, h5⟩ := straight_add a env t.n t.s c st (by rw [hup]; exact h.straight) h.idx (by omega) (by omega) hl
  refine ⟨h1, ⟨by rw [← hup]; exact h2, h3, ?_, ?_⟩⟩
  · change Queue.queueEntries (addQueueEntry a (env.ext t.n) (env.gaps t.n) (env.busy t.n) t.s c st).1.s.hw.q + _ ≤ _
    omega
  · change (addQueueEntry a (env.ext t.n) (env.gaps t.n) (env.busy t.n) t.s c st).1.s.hw.q.maxSpeedInTicks ≤ _
    rw [h5]; exact hlim

theorem rate_small (a : ArchId) (x s : Nat) (up : Bool) (h : a.minCmdTicks ≤ x) (hs : s ≤ 1) :
    a.minCmdTicks ≤ Queue.commandRateTicks ⟨x, s, up⟩ := by
  unfold Queue.commandRateTicks
  dsimp only
  split
  · omega
  · exact h

theorem EvenSplit.next {d : Nat} (h : EvenSplit d) (hd : 131072 ≤ d) :
    EvenSplit (d - 65535) ∧ (d - 65535) / 65536 + 1 = d / 65536 ∧ d ≠ 131072 + 65535 := by
  unfold EvenSplit at *; omega

theorem Timed.pauses_fit (a : ArchId) (env : Env) (st : Bool) (ok : Int) (L : Nat) (hmin : a.minCmdTicks ≤ L) (hL : L ≤ 32768) :
    ∀ (n : Nat) (t : Timed) (d : Nat), d ≤ n → L ≤ d → EvenSplit d → Room a env true L (d / 65536 + 1) t →
    (t.pauses a env st ok n d).2 = ok
  | 0, t, d, hn, hd, he, hr => rfl
  | n + 1, t, d, hn, hd, he, hr => by
    unfold Timed.pauses
    have hLpos : 0 < a.minCmdTicks := by cases a <;> decide
    rw [if_pos (by omega)]
    dsimp only
    by_cases h1 : d ≤ 65535
    · rw [if_pos h1]
      have hx : u16 d = d := by unfold u16; omega
      rw [hx]
      have hk : d / 65536 = 0 := by omega
      rw [hk] at hr
      obtain ⟨k1, k2⟩ := hr.add st ⟨d, 0, true⟩ d rfl hd (rate_small a d 0 true (by omega) (by omega))
      rw [if_neg (by simp [k1]), Nat.sub_self]
      cases n <;> rfl
    · rw [if_neg h1]
      by_cases h2 : d ≥ 131072
      · rw [if_pos h2]
        have hx : u16 65535 = 65535 := rfl
        rw [hx]
        obtain ⟨e1, e2, -⟩ := he.next h2
        rw [← e2] at hr
        obtain ⟨k1, k2⟩ := hr.add st ⟨65535, 0, true⟩ 65535 rfl (by dsimp only; omega) (rate_small a 65535 0 true (by omega) (by omega))
        rw [if_neg (by simp [k1])]
        exact Timed.pauses_fit a env st ok L hmin hL n _ (d - 65535) (by omega) (by omega) e1 k2
      · rw [if_neg h2]
        have hx : u16 (d / 2) = d / 2 := by unfold u16; omega
        rw [hx]
        have hk : d / 65536 = 1 := by omega
        rw [hk] at hr
        obtain ⟨k1, k2⟩ := hr.add st ⟨d / 2, 0, true⟩ (d / 2) rfl (by dsimp only; omega) (rate_small a (d / 2) 0 true (by omega) (by omega))
        rw [if_neg (by simp [k1])]
        unfold EvenSplit at he
        have hz : (d - d / 2) / 65536 = 0 := by omega
        exact Timed.pauses_fit a env st ok L hmin hL n _ (d - d / 2) (by omega) (by omega) (by unfold EvenSplit; omega)
          (by rw [hz]; exact k2)

theorem Timed.slowStep_fit (a : ArchId) (env : Env) (st up : Bool) (L : Nat) (hmin : a.minCmdTicks ≤ L) (hL : L ≤ 32768) :
    ∀ (n : Nat) (t : Timed) (s d room : Nat), s ≤ 1 → d ≤ n → L ≤ d → EvenSplit d → d ≠ 131072 → Room a env up L (room + (d / 65536 + 1)) t →
    (t.slowStep a env st up n s d).2 = 0 ∧ Room a env up L room (t.slowStep a env st up n s d).1
  | 0, t, s, d, room, hs, hn, hd, he, hne, hr => by
    have hLpos : 0 < a.minCmdTicks := by cases a <;> decide
    omega
  | n + 1, t, s, d, room, hs, hn, hd, he, hne, hr => by
    unfold Timed.slowStep
    have hLpos : 0 < a.minCmdTicks := by cases a <;> decide
    rw [if_pos (by omega)]
    dsimp only
    by_cases h2 : d > 131072
    · rw [if_pos h2]
      obtain ⟨e1, e2, e3⟩ := he.next (by omega)
      rw [← e2, ← Nat.add_assoc] at hr
      obtain ⟨k1, k2⟩ := hr.add st ⟨65535, s, up⟩ 65535 rfl (by dsimp only; omega) (rate_small a 65535 s up (by omega) hs)
      rw [if_neg (by simp [k1])]
      exact Timed.slowStep_fit a env st up L hmin hL n _ 0 (d - 65535) room (by omega) (by omega) (by omega) e1 (by omega) k2
    · rw [if_neg h2]
      by_cases h1 : d > 65535
      · rw [if_pos h1]
        unfold EvenSplit at he
        have hx : u16 (d / 2) = d / 2 := by unfold u16; omega
        rw [hx]
        have hk : d / 65536 = 1 := by omega
        rw [hk, ← Nat.add_assoc] at hr
        obtain ⟨k1, k2⟩ := hr.add st ⟨d / 2, s, up⟩ (d / 2) rfl (by dsimp only; omega) (rate_small a (d / 2) s up (by omega) hs)
        rw [if_neg (by simp [k1])]
        have hz : (d - d / 2) / 65536 = 0 := by omega
        exact Timed.slowStep_fit a env st up L hmin hL n _ 0 (d - d / 2) room (by omega) (by omega) (by omega) (by unfold EvenSplit; omega) (by omega)
          (by rw [hz]; exact k2)
      · rw [if_neg h1]
        have hx : u16 d = d := by unfold u16; omega
        rw [hx]
        have hk : d / 65536 = 0 := by omega
        rw [hk] at hr
        obtain ⟨k1, k2⟩ := hr.add st ⟨d, s, up⟩ d rfl hd (rate_small a d s up (by omega) hs)
        rw [if_neg (by simp [k1]), Nat.sub_self]
        cases n <;> exact ⟨rfl, k2⟩

theorem Timed.slow_fit (a : ArchId) (env : Env) (st up : Bool) (ok : Int) (L : Nat) (hmin : a.minCmdTicks ≤ L) (hL : L ≤ 32768)
    (rate : Nat) (hr : L ≤ rate) (he : EvenSplit rate) (hne : rate ≠ 131072) :
    ∀ (n : Nat) (t : Timed), Room a env up L (n * (rate / 65536 + 1)) t → (t.slow a env st up ok rate n).2 = ok
  | 0, t, _ => rfl
  | n + 1, t, hroom => by
    unfold Timed.slow
    dsimp only
    rw [Nat.succ_mul] at hroom
    obtain ⟨h1, h2⟩ := Timed.slowStep_fit a env st up L hmin hL rate t 1 rate _ (by omega) (Nat.le_refl _) hr he hne hroom
    rw [if_neg (by simp [h1])]
    exact Timed.slow_fit a env st up ok L hmin hL rate hr he hne n _ h2

theorem Timed.fast_fit (a : ArchId) (env : Env) (st up : Bool) (ok : Int) (L m : Nat) (hm : 1 ≤ m) (hm2 : m ≤ 128) :
    ∀ (n : Nat) (t : Timed) (steps ticks missing room : Nat), steps ≤ n → (steps = 0 ∨ m ≤ steps) → L ≤ ticks → ticks ≤ 65535 →
    (ticks = 65535 → missing = 0) → a.minCmdTicks ≤ ticks * m → steps ≤ room * 255 → Room a env up L room t →
    (t.fast a env st up ok n steps ticks missing).2 = ok
  | 0, t, _, _, _, _, _, _, _, _, _, _, _, _ => rfl
  | n + 1, t, steps, ticks, missing, room, hn, hs, hL, h16, hmiss, hmin, hroom, hr => by
    unfold Timed.fast
    by_cases h0 : steps > 0
    · rw [if_pos h0]
      dsimp only
      have key : ∀ cs tk ms, m ≤ cs → cs ≤ steps → cs ≤ 255 → (steps - cs = 0 ∨ m ≤ steps - cs) →
          steps - cs ≤ (room - 1) * 255 → ticks ≤ tk → tk ≤ 65535 → (tk = 65535 → ms = 0) →
          (if (t.add a env st ⟨tk, cs, up⟩ (u32 (tk * steps))).2 ≠ 0 then t.add a env st ⟨tk, cs, up⟩ (u32 (tk * steps))
            else Timed.fast a env st up ok n (t.add a env st ⟨tk, cs, up⟩ (u32 (tk * steps))).1 (steps - cs) tk ms).2 = ok := by
        intro cs tk ms c1 c2 c3 c4 c5 t1 t2 t3
        have hmul : tk * m ≤ tk * cs := Nat.mul_le_mul_left _ c1
        have hmul2 : ticks * m ≤ tk * m := Nat.mul_le_mul_right _ t1
        have hmul3 : tk * cs ≤ 65535 * 255 := Nat.mul_le_mul t2 c3
        have hrate : a.minCmdTicks ≤ Queue.commandRateTicks ⟨tk, cs, up⟩ := by
          unfold Queue.commandRateTicks
          dsimp only
          split
          · unfold u32; omega
          · have : cs = 1 := by omega
            rw [this] at hmul
            omega
        obtain ⟨r, rfl⟩ : ∃ r, room = r + 1 := ⟨room - 1, by omega⟩
        obtain ⟨k1, k2⟩ := hr.add st ⟨tk, cs, up⟩ (u32 (tk * steps)) rfl (by dsimp only; omega) hrate
        rw [if_neg (by simp [k1])]
        exact Timed.fast_fit a env st up ok L m hm hm2 n _ (steps - cs) tk ms r (by omega) c4 (by omega) t2 t3 (by omega) c5 k2
      have hcs : ∃ cs, (if steps > 510 then 255 else if steps > 255 then steps / 2 else steps) = cs ∧ m ≤ cs ∧ cs ≤ steps ∧ cs ≤ 255 ∧
          (steps - cs = 0 ∨ m ≤ steps - cs) ∧ steps - cs ≤ (room - 1) * 255 := by
        refine ⟨_, rfl, ?_⟩
        split
        · omega
        · split <;> omega
      obtain ⟨cs, e, c1, c2, c3, c4, c5⟩ := hcs
      rw [e]
      by_cases hinc : steps ≤ missing
      · simp only [hinc, decide_true, if_true]
        have : ticks ≠ 65535 := by intro h; have := hmiss h; omega
        have hx : u16 (ticks + 1) = ticks + 1 := by unfold u16; omega
        rw [hx]
        exact key cs (ticks + 1) 0 c1 c2 c3 c4 c5 (by omega) (by omega) (by omega)
      · simp only [hinc, decide_false, Bool.false_eq_true, if_false]
        exact key cs ticks missing c1 c2 c3 c4 c5 (by omega) h16 hmiss
    · rw [if_neg h0]

/-- C47: if nothing needs to be inserted, and the arguments are legal and split evenly, then a call which is not rejected with
`MOVE_TIMED_TOO_LARGE_ERROR` or `MOVE_TIMED_BUSY` has queued all of its commands. -/
theorem C47_fits_partial (a : ArchId) (env : Env) (s : Stepper) (steps : Int) (duration : Nat) (st : Bool)
    (h1 : -32768 < steps) (h2 : steps ≤ 32767) (hd : duration < 4294967296) (hi : s.hw.q.IdxOK a)
    (hs : Straight env s (decide (0 ≤ steps))) (hl : TimedLegal a s steps duration)
    (hno : (s.moveTimed a env steps duration st).2 ≠ MOVE_TIMED_TOO_LARGE_ERROR)
    (hno2 : (s.moveTimed a env steps duration st).2 ≠ MOVE_TIMED_BUSY) :
    TimedOk (s.moveTimed a env steps duration st).2 := by
  have hokc : TimedOk (if s.isQueueEmpty then MOVE_TIMED_EMPTY else MOVE_TIMED_OK) := by
    split
    · exact Or.inr rfl
    · exact Or.inl rfl
  have hmin32 : a.minCmdTicks ≤ 32768 := by cases a <;> decide
  have hlim := hl.limit
  have hlen := hi.2.2
  by_cases h0 : steps = 0
  · subst h0
    revert hno hno2
    unfold moveTimed
    dsimp only
    by_cases hd0 : duration = 0
    · rw [if_pos ⟨rfl, hd0⟩]
      intro _ _
      split <;> exact hokc
    · rw [if_neg (by simp [hd0]), if_pos rfl]
      split
      · intro h; exact absurd rfl h
      split
      · intro _ h; exact absurd rfl h
      rename_i hfit
      intro _ _
      obtain ⟨p1, p2, p3⟩ := hl.pause rfl hd0
      rw [Timed.pauses_fit a env st _ (max a.minCmdTicks s.hw.q.maxSpeedInTicks) (by omega) (by omega) duration ⟨s, 0, [], 0⟩ duration
        (Nat.le_refl _) (by omega) p1 ⟨hs, hi, by dsimp only; omega, by dsimp only; omega⟩]
      exact hokc
  · revert hno hno2
    rw [moveTimed_steps a env s steps duration st h0 h1 h2 hd]
    have hsl := hl.slow h0
    have hfa := hl.fast h0
    have hpos : 0 < steps.natAbs := by omega
    have hlt : duration < duration / steps.natAbs * steps.natAbs + steps.natAbs :=
      Nat.lt_div_mul_add hpos (a := duration)
    generalize duration / steps.natAbs = rate at *
    split
    · rename_i hrate
      obtain ⟨e1, ene, e2⟩ := hsl hrate
      have hk : rate / 65536 + 1 < 256 := by
        have := Nat.mul_le_mul_right (rate / 65536 + 1) hpos
        omega
      have hu : u16 (rate / 65536 + 1) = rate / 65536 + 1 := by unfold u16; omega
      have hu8 : u8 (steps.natAbs * (rate / 65536 + 1)) = steps.natAbs * (rate / 65536 + 1) := Nat.mod_eq_of_lt e2
      rw [hu, hu8]
      split
      · intro h; exact absurd rfl h
      split
      · intro h; exact absurd rfl h
      split
      · intro h; exact absurd rfl h
      split
      · intro _ h; exact absurd rfl h
      rename_i hfit
      intro _ _
      rw [Timed.slow_fit a env st _ _ (max a.minCmdTicks s.hw.q.maxSpeedInTicks) (by omega) (by omega) rate (by omega) e1 ene steps.natAbs
        ⟨s, 0, [], 0⟩ ⟨hs, hi, by dsimp only; omega, by dsimp only; omega⟩]
      exact hokc
    · rename_i hrate
      obtain ⟨f1, f2, f3⟩ := hfa (by omega)
      split
      · intro h; exact absurd rfl h
      split
      · intro _ h; exact absurd rfl h
      rename_i hfit
      intro _ _
      rw [Timed.fast_fit a env st _ _ s.hw.q.maxSpeedInTicks (min 128 steps.natAbs) (by omega) (by omega) steps.natAbs ⟨s, 0, [], 0⟩ steps.natAbs
        rate _ (a.queueLen - s.hw.q.queueEntries) (Nat.le_refl _) (by omega) f1 (by omega) (by omega) f3 (by omega)
        ⟨hs, hi, by dsimp only; omega, by dsimp only; omega⟩]
      exact hokc

/-- `moveTimed(-32768, …)` does nothing. -/
theorem moveTimed_min (a : ArchId) (env : Env) (s : Stepper) (duration : Nat) (st : Bool) (hd : duration < 4294967296) :
    s.moveTimed a env (-32768) duration st = (⟨s, 0, [], 0⟩, if s.isQueueEmpty then MOVE_TIMED_EMPTY else MOVE_TIMED_OK) := by
  unfold moveTimed
  dsimp only
  have h1 : (if (-32768 : Int) < 0 then i16 (- -32768) else -32768) = -32768 := by decide
  have h2 : toU32 (-32768) = 4294934528 := by decide
  rw [h1, h2, if_neg (by simp), if_neg (by decide)]
  rw [if_neg (by omega), if_neg (by omega), if_neg (by omega)]
  rfl

/-- C47: if `moveTimed()` returns `MOVE_TIMED_TOO_LARGE_ERROR` or `MOVE_TIMED_BUSY`, then nothing has been queued and the stepper is
unchanged. -/
theorem C47_rejected_no_effect (a : ArchId) (env : Env) (s : Stepper) (steps : Int) (duration : Nat) (st : Bool)
    (h1 : -32768 ≤ steps) (h2 : steps ≤ 32767) (hd : duration < 4294967296) (hign : s.hw.q.ignoreCommands = false)
    (hno : (s.moveTimed a env steps duration st).2 = MOVE_TIMED_TOO_LARGE_ERROR ∨
      (s.moveTimed a env steps duration st).2 = MOVE_TIMED_BUSY) :
    (s.moveTimed a env steps duration st).1.s = s ∧ (s.moveTimed a env steps duration st).1.accepted = [] := by
  by_cases h : steps = -32768
  · subst h
    rw [moveTimed_min a env s duration st hd]
    exact ⟨rfl, rfl⟩
  · exact C47_rejected_no_effect_aux a env s steps duration st (by omega) h2 hd hign hno

/-- The stepper after a timed move of 29 commands: three commands are free on an ESP32. -/
def threeFree : Stepper := ((timedStepper .esp32).moveTimed .esp32 calmEnv 7395 7395000 false).1.s

/-- The hypotheses of `C47_rejected_no_effect` are met: with three free commands a pause of three commands is not rejected, four are. -/
example : threeFree.hw.q.queueEntries = 29 ∧ threeFree.hw.q.ignoreCommands = false ∧
    (threeFree.moveTimed .esp32 calmEnv 0 196608 true).2 = MOVE_TIMED_BUSY ∧
    (threeFree.moveTimed .esp32 calmEnv 0 3000000 true).2 = MOVE_TIMED_TOO_LARGE_ERROR ∧
    TimedOk (threeFree.moveTimed .esp32 calmEnv 0 196605 true).2 := by
  refine ⟨?_, ?_, ?_, ?_, Or.inl ?_⟩ <;> decide +kernel

/-- The hypotheses of `C47_fits_partial` are met: 3 × 255 steps, three slow steps, and a pause of 196605 ticks with three free commands. -/
example : threeFree.hw.q.IdxOK .esp32 ∧ Straight calmEnv threeFree true ∧ TimedLegal .esp32 threeFree 765 765000 ∧
    TimedLegal .esp32 threeFree 3 300000 ∧ TimedLegal .esp32 threeFree 0 196605 := by
  have hmax : threeFree.hw.q.maxSpeedInTicks = 80 := by decide +kernel
  refine ⟨⟨by decide +kernel, by decide +kernel, by decide +kernel⟩, ⟨by decide +kernel, by decide +kernel, Or.inl (by decide +kernel), by decide +kernel, fun _ => rfl, fun _ => rfl⟩,
    ⟨?_, ?_, ?_, ?_⟩, ⟨?_, ?_, ?_, ?_⟩, ⟨?_, ?_, ?_, ?_⟩⟩ <;> simp [hmax, EvenSplit, ArchId.minCmdTicks, ArchId.ticksPerS]

/-- C47 does not hold for pauses: with three free commands a pause of 196607 ticks passes the check, needs four commands, and is cut short. -/
theorem C47_pause_fit_refuted :
    (threeFree.moveTimed .esp32 calmEnv 0 196607 true).2 = AQE_QUEUE_FULL ∧
    (threeFree.moveTimed .esp32 calmEnv 0 196607 true).1.accepted = [⟨65535, 0, true⟩, ⟨65535, 0, true⟩, ⟨32768, 0, true⟩] := by
  refine ⟨?_, ?_⟩ <;> decide +kernel

/-- C47 does not hold for slow steps: 16 steps of 16 commands each are counted as 0 commands, so that the call passes the check with any
free space and executes two of 16 steps. -/
theorem C47_slow_fit_refuted :
    ((timedStepper .esp32).moveTimed .esp32 calmEnv 16 15728640 true).2 = AQE_QUEUE_FULL ∧
    cmdStepSum ((timedStepper .esp32).moveTimed .esp32 calmEnv 16 15728640 true).1.accepted = 2 := by
  refine ⟨?_, ?_⟩ <;> decide +kernel

/-- C47 does not hold for one very slow step: its 65536 commands are counted as 0. -/
theorem C47_slowest_fit_refuted :
    ((timedStepper .esp32).moveTimed .esp32 calmEnv 1 0xffff0000 true).2 = AQE_QUEUE_FULL ∧
    ((timedStepper .esp32).moveTimed .esp32 calmEnv 1 0xffff0000 true).1.accepted.length = 32 := by
  refine ⟨?_, ?_⟩ <;> decide +kernel

/-- A step of 196607 ticks is started and then cut short with an error: the rest of 131072 ticks is halved to 65536, which does not fit in 16 bits. -/
theorem C47_half_refuted :
    ((timedStepper .esp32).moveTimed .esp32 calmEnv 1 196607 true).2 = AQE_ERROR_TICKS_TOO_LOW ∧
    ((timedStepper .esp32).moveTimed .esp32 calmEnv 1 196607 true).1.accepted = [⟨65535, 1, true⟩] := by
  refine ⟨?_, ?_⟩ <;> decide +kernel

/-- 510 steps with a period between 65535 and 65536 ticks stop after 255 steps with an error: the period is raised to 65536, which does not
fit in 16 bits. -/
theorem C47_period_refuted :
    ((timedStepper .esp32).moveTimed .esp32 calmEnv 510 33423359 true).2 = AQE_ERROR_TICKS_TOO_LOW ∧
    ((timedStepper .esp32).moveTimed .esp32 calmEnv 510 33423359 true).1.accepted = [⟨65535, 255, true⟩] := by
  refine ⟨?_, ?_⟩ <;> decide +kernel

end FAS
