import Verif.Model.Stepper
import Verif.Spec.Config
import Verif.Lemmas.Queue
import Mathlib.Data.List.Induction

/-!
# Configuration: C17-C20, C25-C28, C55
-/

namespace FAS
open Spec

/-! ## C17 -/

/-- C17: delay 0 disables the direction delay; any other value gives the clamped delay, which fits in
16 bit and is long enough for the queue. -/
theorem C17_direction_delay_clamped (a : ArchId) (ext : ExtPin) (s : Stepper) (pin : Nat) (hi : Bool)
    (us : Nat) :
    let s' := (s.setDirectionPin a ext pin hi us).1
    (us = 0 → s'.dirChangeDelayTicks = 0) ∧
    (us ≠ 0 →
      s'.dirChangeDelayTicks = clamp a.minDirDelayUs a.maxDirDelayUs us * ticksPerUs a ∧
      s'.dirChangeDelayTicks < 65536 ∧
      Queue.commandRateTicks ⟨s'.dirChangeDelayTicks, 0, hi⟩ ≥ a.minCmdTicks) := by
  have key : ∀ x : Nat, a.minDirDelayUs ≤ x → x ≤ a.maxDirDelayUs →
      u16 (x * (a.ticksPerS / 1000000)) = x * ticksPerUs a ∧ x * ticksPerUs a < 65536 ∧
      a.minCmdTicks ≤ x * ticksPerUs a := by
    intro x h1 h2
    unfold u16 ticksPerUs
    cases a <;>
      simp only [ArchId.minDirDelayUs, ArchId.maxDirDelayUs, ArchId.minCmdTicks, ArchId.ticksPerS]
        at h1 h2 ⊢ <;> omega
  have hle : a.minDirDelayUs ≤ a.maxDirDelayUs := by cases a <;> decide
  constructor
  · intro h; simp [Stepper.setDirectionPin, h]
  · intro h
    have hx : (s.setDirectionPin a ext pin hi us).1.dirChangeDelayTicks =
        u16 (clamp a.minDirDelayUs a.maxDirDelayUs us * (a.ticksPerS / 1000000)) := by
      simp only [Stepper.setDirectionPin, h, ne_eq, not_false_eq_true, if_true]
      congr 2
      unfold clamp
      split <;> split <;> omega
    have hk := key (clamp a.minDirDelayUs a.maxDirDelayUs us)
      (by unfold clamp; omega) (by unfold clamp; omega)
    rw [hx, hk.1]
    refine ⟨rfl, hk.2.1, ?_⟩
    simp [Queue.commandRateTicks, hk.2.2]

example : ((Stepper.init .avr328 9).setDirectionPin .avr328 none 5 true 1).1.dirChangeDelayTicks = 640 ∧
    ((Stepper.init .avr328 9).setDirectionPin .avr328 none 5 true 100).1.dirChangeDelayTicks = 1600 ∧
    ((Stepper.init .sam 9).setDirectionPin .sam none 5 true 65535).1.dirChangeDelayTicks = 65520 := by
  decide

/-! ## C18 -/

/-- The documented result of `setDelayToEnable`. -/
def Spec.delayToEnableCode (a : ArchId) (us : Nat) : Int :=
  if us ≠ 0 ∧ us * ticksPerUs a < a.minCmdTicks then DELAY_TOO_LOW
  else if us * ticksPerUs a > 65535 * (a.queueLen - 1) then DELAY_TOO_HIGH
  else DELAY_OK

/-- C18 as long as the delay in ticks fits in 32 bit: exact result, the accepted delay is set exactly and a
rejected one changes nothing. Missing: longer delays, see `C18_long_delay_refuted`. -/
theorem C18_delay_to_enable_partial (a : ArchId) (s : Stepper) (us : Nat)
    (h32 : us * ticksPerUs a < 4294967296) :
    (s.setDelayToEnable a us).2 = delayToEnableCode a us ∧
    (s.setDelayToEnable a us).1 =
      if delayToEnableCode a us = DELAY_OK then { s with onDelayTicks := us * ticksPerUs a } else s := by
  have hu : usToTicks a us = us * ticksPerUs a := by
    unfold usToTicks u32
    exact Nat.mod_eq_of_lt h32
  have hpos : 0 < us * ticksPerUs a ↔ us ≠ 0 := by
    have ht : 0 < ticksPerUs a := by cases a <;> decide
    constructor
    · rintro h rfl; simp at h
    · intro h; exact Nat.mul_pos (Nat.pos_of_ne_zero h) ht
  simp only [Stepper.setDelayToEnable, hu, delayToEnableCode, gt_iff_lt, hpos, ArchId.maxOnDelayTicks]
  split
  · exact ⟨rfl, by simp [DELAY_TOO_LOW, DELAY_OK]⟩
  · split
    · exact ⟨rfl, by simp [DELAY_TOO_HIGH, DELAY_OK]⟩
    · exact ⟨rfl, by simp⟩

/-- C18 is false for long delays: 268435456 us (about 4.5 minutes) is accepted and sets no delay at all. -/
theorem C18_long_delay_refuted :
    ((Stepper.init .esp32 9).setDelayToEnable .esp32 268435456).2 = DELAY_OK ∧
    ((Stepper.init .esp32 9).setDelayToEnable .esp32 268435456).1.onDelayTicks = 0 ∧
    delayToEnableCode .esp32 268435456 = DELAY_TOO_HIGH := by decide

example : delayToEnableCode .avr328 39 = DELAY_TOO_LOW ∧ delayToEnableCode .avr328 40 = DELAY_OK ∧
    delayToEnableCode .avr328 61439 = DELAY_OK ∧ delayToEnableCode .avr328 61440 = DELAY_TOO_HIGH ∧
    61440 * ticksPerUs .avr328 < 4294967296 := by decide

/-! ## C19 -/

/-- C19: the off-delay is one cycle for 0, else the delay divided by the cycle time, but at least two
cycles; never zero; fits in 16 bit. -/
theorem C19_delay_to_disable (a : ArchId) (s : Stepper) (ms : Nat) (h : ms < 65536) :
    let n := (s.setDelayToDisable a ms).offDelayCount
    n = (if ms = 0 then 1 else max 2 (ms / a.delayMsBase)) ∧ 0 < n ∧ n < 65536 := by
  have hb : 0 < a.delayMsBase := by cases a <;> decide
  have hle : ms / a.delayMsBase ≤ ms := Nat.div_le_self _ _
  intro n
  have hn : n = (if ms = 0 then 1 else max 2 (ms / a.delayMsBase)) := by
    simp only [n, Stepper.setDelayToDisable]
    by_cases h0 : ms = 0
    · simp [h0]
    · rw [if_neg h0]; split <;> omega
  refine ⟨hn, ?_, ?_⟩
  · rw [hn]; split <;> omega
  · rw [hn]; split
    · omega
    · omega

example : ((Stepper.init .esp32 9).setDelayToDisable .esp32 3).offDelayCount = 2 ∧
    ((Stepper.init .esp32 9).setDelayToDisable .esp32 100).offDelayCount = 25 := by decide

/-- C19: the off-delay is kept by later calls of `setAutoEnable()`. -/
theorem C19_kept (a : ArchId) (s : Stepper) (ms : Nat) (bs : List Bool) :
    (bs.foldl Stepper.setAutoEnable (s.setDelayToDisable a ms)).offDelayCount = (s.setDelayToDisable a ms).offDelayCount := by
  have hpos : (s.setDelayToDisable a ms).offDelayCount ≠ 0 := by
    simp only [Stepper.setDelayToDisable]; omega
  have key : ∀ (bs : List Bool) (t : Stepper), t.offDelayCount ≠ 0 → (bs.foldl Stepper.setAutoEnable t).offDelayCount = t.offDelayCount := by
    intro bs
    induction bs with
    | nil => intro t _; rfl
    | cons b bs ih =>
      intro t ht
      have h1 : (t.setAutoEnable b).offDelayCount = t.offDelayCount := by
        simp only [Stepper.setAutoEnable]; rw [if_neg (by intro h; exact ht h.2)]
      rw [List.foldl_cons, ih _ (by rw [h1]; exact ht), h1]
  exact key bs _ hpos

example : ([true, false, true].foldl Stepper.setAutoEnable ((Stepper.init .esp32 9).setDelayToDisable .esp32 100)).offDelayCount = 25 := by decide

/-! ## C20 -/

/-- A sequence of `setEnablePin(pin, lowActive)` calls. -/
def Stepper.setEnablePins (ext : ExtPin) : Stepper → List (Nat × Bool) → Stepper
  | s, [] => s
  | s, c :: cs => Stepper.setEnablePins ext (s.setEnablePin ext c.1 c.2).1 cs

/-- The polarity given in the last call for `pin`, most recent call last. -/
def Spec.lastPolarity (pin : Nat) : List (Nat × Bool) → Option Bool
  | [] => none
  | c :: cs => (Spec.lastPolarity pin cs).or (if c.1 = pin then some c.2 else none)

theorem setEnablePins_append (ext : ExtPin) (s : Stepper) (xs ys : List (Nat × Bool)) :
    s.setEnablePins ext (xs ++ ys) = (s.setEnablePins ext xs).setEnablePins ext ys := by
  induction xs generalizing s with
  | nil => rfl
  | cons x xs ih => exact ih _

theorem lastPolarity_append_one (pin : Nat) (xs : List (Nat × Bool)) (c : Nat × Bool) :
    lastPolarity pin (xs ++ [c]) = if c.1 = pin then some c.2 else lastPolarity pin xs := by
  induction xs with
  | nil => simp [lastPolarity]
  | cons x xs ih =>
    simp only [List.cons_append, lastPolarity, ih]
    split <;> simp

/-- C20: after any sequence of calls an internal pin is used with the polarity of the last call naming it,
so never with both. -/
theorem C20_enable_pin_polarity (ext : ExtPin) (a : ArchId) (stepPin : Nat) (calls : List (Nat × Bool))
    (pin : Nat) (hint : pinIsExternal pin = false) :
    let s := (Stepper.init a stepPin).setEnablePins ext calls
    (s.enLow = pin → lastPolarity pin calls = some true) ∧
    (s.enHigh = pin → lastPolarity pin calls = some false) ∧
    ¬ (s.enLow = pin ∧ s.enHigh = pin) := by
  have hund : pin ≠ pinUndefined := by
    rintro rfl; revert hint; decide
  have main : ((Stepper.init a stepPin).setEnablePins ext calls).enLow = pin →
        lastPolarity pin calls = some true := by
    induction calls using List.reverseRecOn with
    | nil => intro h; exact absurd h.symm hund
    | append_singleton xs c ih =>
      rw [setEnablePins_append, lastPolarity_append_one]
      intro h
      simp only [Stepper.setEnablePins, Stepper.setEnablePin] at h
      by_cases hp : c.1 = pin
      · rw [if_pos hp]
        cases hc : c.2
        · exfalso
          rw [hc] at h
          simp only [Bool.false_eq_true, if_false, hp, hund, ne_eq, not_false_eq_true, if_true, hint] at h
          split at h
          · exact hund h.symm
          · rename_i h2; exact h2 h
        · rfl
      · rw [if_neg hp]
        apply ih
        cases hc : c.2 <;> rw [hc] at h
        · simp only [Bool.false_eq_true, if_false] at h
          split at h
          · split at h
            · exact h
            · split at h
              · exact absurd h.symm hund
              · exact h
          · exact h
        · simp only [if_true] at h
          split at h
          · split at h
            · exact absurd h hp
            · split at h <;> exact absurd h hp
          · exact absurd h hp
  have main2 : ((Stepper.init a stepPin).setEnablePins ext calls).enHigh = pin →
        lastPolarity pin calls = some false := by
    clear main
    induction calls using List.reverseRecOn with
    | nil => intro h; exact absurd h.symm hund
    | append_singleton xs c ih =>
      rw [setEnablePins_append, lastPolarity_append_one]
      intro h
      simp only [Stepper.setEnablePins, Stepper.setEnablePin] at h
      by_cases hp : c.1 = pin
      · rw [if_pos hp]
        cases hc : c.2
        · rfl
        · exfalso
          rw [hc] at h
          simp only [if_true, hp, hund, ne_eq, not_false_eq_true, hint, Bool.false_eq_true, if_false] at h
          split at h
          · exact hund h.symm
          · rename_i h2; exact h2 h
      · rw [if_neg hp]
        apply ih
        cases hc : c.2 <;> rw [hc] at h
        · simp only [Bool.false_eq_true, if_false] at h
          split at h
          · split at h
            · exact absurd h hp
            · split at h <;> exact absurd h hp
          · exact absurd h hp
        · simp only [if_true] at h
          split at h
          · split at h
            · exact h
            · split at h
              · exact absurd h.symm hund
              · exact h
          · exact h
  refine ⟨main, main2, ?_⟩
  rintro ⟨h1, h2⟩
  have := (main h1).symm.trans (main2 h2)
  simp at this

/-- The level of a pin after some writes. -/
def Spec.levelAfter (l : Nat → Bool) : List PinWrite → Nat → Bool
  | [], p => l p
  | w :: ws, p => Spec.levelAfter (fun p => if p = w.1 then w.2 else l p) ws p

/-- C20: `enableOutputs()` drives each registered internal pin to its active level, `disableOutputs()` to its
inactive level, whatever the levels were before (`pinIsExternal` pins are handed to the callback). -/
theorem C20_enable_levels (ext : ExtPin) (s : Stepper) (l : Nat → Bool)
    (hne : s.enLow ≠ s.enHigh) :
    (pinIsExternal s.enLow = false →
      levelAfter l (s.enableOutputs ext).2 s.enLow = false) ∧
    (pinIsExternal s.enHigh = false →
      levelAfter l (s.enableOutputs ext).2 s.enHigh = true) ∧
    (¬ (s.isRunning = true ∧ s.autoEnable = true) →
      (pinIsExternal s.enLow = false → levelAfter l (s.disableOutputs ext).2.2 s.enLow = true) ∧
      (pinIsExternal s.enHigh = false → levelAfter l (s.disableOutputs ext).2.2 s.enHigh = false)) := by
  have hu : ∀ p, pinIsExternal p = false → p ≠ pinUndefined := by
    rintro p h rfl; revert h; decide
  have aux : ∀ (l : Nat → Bool) (p : Nat) (v : Bool) (p2 : Nat) (v2 : Bool), p ≠ p2 →
      pinIsExternal p = false →
      levelAfter l ((Stepper.driveEnablePin ext p v).2 ++ (Stepper.driveEnablePin ext p2 v2).2) p = v ∧
      levelAfter l ((Stepper.driveEnablePin ext p2 v2).2 ++ (Stepper.driveEnablePin ext p v).2) p = v := by
    intro l p v p2 v2 hpp hp
    have h1 : (Stepper.driveEnablePin ext p v).2 = [(p, v)] := by
      simp [Stepper.driveEnablePin, hu p hp, hp]
    have h2 : (Stepper.driveEnablePin ext p2 v2).2 = [] ∨
        (Stepper.driveEnablePin ext p2 v2).2 = [(p2, v2)] := by
      unfold Stepper.driveEnablePin
      split
      · split
        · cases ext <;> simp
        · simp
      · simp
    rw [h1]
    rcases h2 with h2 | h2 <;> rw [h2] <;> simp [levelAfter, hpp]
  refine ⟨fun h => (aux l _ _ _ _ hne h).1, fun h => (aux l _ _ _ _ (Ne.symm hne) h).2, ?_⟩
  intro hr
  have hr' : (s.isRunning && s.autoEnable) = false := by
    cases h1 : s.isRunning <;> cases h2 : s.autoEnable <;> simp_all
  have he : (s.disableOutputs ext).2.2 =
      (Stepper.driveEnablePin ext s.enLow true).2 ++ (Stepper.driveEnablePin ext s.enHigh false).2 := by
    simp [Stepper.disableOutputs, hr']
  rw [he]
  exact ⟨fun h => (aux l _ _ _ _ hne h).1, fun h => (aux l _ _ _ _ (Ne.symm hne) h).2⟩

/-- A pin which is handed to the callback. -/
def Spec.Registered (pin : Nat) : Prop := pin ≠ pinUndefined ∧ pinIsExternal pin = true

/-- C20, external pins: `enableOutputs()` and `disableOutputs()` call back with the level to be set for each registered external pin, and return `true` if and
only if each answer is this level (without callback and for internal pins there is nothing to wait for). `disableOutputs()` returns `false`
for a running stepper with auto enable. -/
theorem C20_external_result (f : Nat → Bool → Bool) (s : Stepper) :
    ((s.enableOutputs (some f)).1 = true ↔ (Registered s.enLow → f s.enLow false = false) ∧ (Registered s.enHigh → f s.enHigh true = true)) ∧
    (Registered s.enLow → (s.enLow, false) ∈ (s.enableOutputs (some f)).2) ∧
    (Registered s.enHigh → (s.enHigh, true) ∈ (s.enableOutputs (some f)).2) ∧
    (s.enableOutputs none).1 = true ∧
    ((s.disableOutputs (some f)).2.1 = true ↔ ¬ (s.isRunning = true ∧ s.autoEnable = true) ∧
      (Registered s.enLow → f s.enLow true = true) ∧ (Registered s.enHigh → f s.enHigh false = false)) ∧
    (¬ (s.isRunning = true ∧ s.autoEnable = true) →
      (Registered s.enLow → (s.enLow, true) ∈ (s.disableOutputs (some f)).2.2) ∧
      (Registered s.enHigh → (s.enHigh, false) ∈ (s.disableOutputs (some f)).2.2)) := by
  have h1 : ∀ p v, (Stepper.driveEnablePin (some f) p v).1 = true ↔ (Registered p → f p v = v) := by
    intro p v
    unfold Stepper.driveEnablePin Registered
    by_cases hp : p = pinUndefined
    · simp [hp]
    · by_cases hx : pinIsExternal p = true
      · simp [hp, hx]
      · simp [hp, hx]
  have h2 : ∀ p v, Registered p → (p, v) ∈ (Stepper.driveEnablePin (some f) p v).2 := by
    intro p v h
    unfold Stepper.driveEnablePin
    rw [if_pos h.1, if_pos h.2]
    simp
  have h3 : ∀ p v, (Stepper.driveEnablePin none p v).1 = true := by
    intro p v; unfold Stepper.driveEnablePin; split
    · split <;> rfl
    · rfl
  refine ⟨?_, ?_, ?_, ?_, ?_, ?_⟩
  · unfold Stepper.enableOutputs; dsimp only; rw [Bool.and_eq_true, h1, h1]
  · intro h; unfold Stepper.enableOutputs; exact List.mem_append_left _ (h2 _ _ h)
  · intro h; unfold Stepper.enableOutputs; exact List.mem_append_right _ (h2 _ _ h)
  · unfold Stepper.enableOutputs; dsimp only; rw [h3, h3]; rfl
  · unfold Stepper.disableOutputs
    dsimp only
    by_cases hr : s.isRunning = true ∧ s.autoEnable = true
    · rw [if_pos (by rw [hr.1, hr.2]; rfl)]
      constructor
      · intro h; cases h
      · intro h; exact absurd hr h.1
    · rw [if_neg (by intro h; rw [Bool.and_eq_true] at h; exact hr h)]
      rw [Bool.and_eq_true, h1, h1]
      exact ⟨fun h => ⟨hr, h⟩, fun h => h.2⟩
  · intro hr
    unfold Stepper.disableOutputs
    dsimp only
    rw [if_neg (by intro h; rw [Bool.and_eq_true] at h; exact hr h)]
    exact ⟨fun h => List.mem_append_left _ (h2 _ _ h), fun h => List.mem_append_right _ (h2 _ _ h)⟩

/-- A callback which does not follow: the result is `false`. -/
example : let s := (Stepper.init .esp32 9).setEnablePins none [(130, true)]
    Registered s.enLow ∧ (s.enableOutputs (some fun _ _ => true)).1 = false ∧ (s.enableOutputs (some fun _ v => v)).1 = true := by
  unfold Registered; decide

example : let s := (Stepper.init .avr328 9).setEnablePins none [(5, true), (5, false), (6, true)]
    s.enLow = 6 ∧ s.enHigh = 5 ∧ pinIsExternal 5 = false ∧ pinIsExternal 6 = false := by decide

/-- An external pin can be registered with both polarities; `enableOutputs()` then calls back with both
levels. (C20 claims only internal pins.) -/
theorem C20_external_pin_both_polarities :
    let s := (Stepper.init .esp32 9).setEnablePins none [(130, true), (130, false)]
    s.enLow = 130 ∧ s.enHigh = 130 ∧
    (s.enableOutputs (some fun _ v => v)).2 = [(130, false), (130, true)] := by decide

/-! ## C25, C26, C28: speed setters -/

/-- The result of a speed setter asked for `ticks` (`none`: argument out of range): accepted and set
exactly, or rejected and unchanged. -/
def Spec.SpeedSet (s : Stepper) (ticks : Option Nat) (r : Stepper × Int) : Prop :=
  match ticks with
  | some t =>
    if s.getMaxSpeedInTicks ≤ t ∧ t ≠ 0xffffffff then
      r.2 = 0 ∧ r.1.getSpeedInTicks = t ∧ r.1.rg.parameters.validSpeed = true ∧
        r.1.getMaxSpeedInTicks = s.getMaxSpeedInTicks
    else r = (s, -1)
  | none => r = (s, -1)

theorem setSpeedInTicks_spec (s : Stepper) (t : Nat) :
    SpeedSet s (some t) (s.setSpeedInTicks t) := by
  unfold SpeedSet Stepper.setSpeedInTicks
  have hs : ticksForStoppedMotor = 0xffffffff := rfl
  rw [hs]
  simp only []
  by_cases h1 : t < s.getMaxSpeedInTicks
  · rw [if_pos h1, if_neg (by omega)]
  · rw [if_neg h1]
    by_cases h2 : t = 0xffffffff
    · rw [if_pos h2, if_neg (by omega)]
    · rw [if_neg h2, if_pos ⟨by omega, h2⟩]
      refine ⟨rfl, ?_, ?_, rfl⟩
      · simp only [Stepper.getSpeedInTicks, RampParams.setSpeedInTicks]
        split
        · rfl
        · rename_i h; simp at h; exact h.2
      · simp only [RampParams.setSpeedInTicks]
        split
        · rfl
        · rename_i h; simp at h; exact h.1

/-- C25/C26/C28: each setter accepts exactly the documented range and sets exactly the converted period:
ticks; microseconds times ticks per microsecond (never wrapping); `TICKS_PER_S/f` rounded to nearest. -/
theorem C25_speed_setters (a : ArchId) (s : Stepper) (x : Nat) (hx : x < 4294967296) :
    SpeedSet s (some x) (s.setSpeedInTicks x) ∧
    SpeedSet s (if x < 0xffffffff / ticksPerUs a then some (x * ticksPerUs a) else none)
      (s.setSpeedInUs a x) ∧
    SpeedSet s (if 0 < x then some (roundDiv a.ticksPerS x) else none) (s.setSpeedInHz a x) := by
  refine ⟨setSpeedInTicks_spec s x, ?_, ?_⟩
  · unfold Stepper.setSpeedInUs
    have e : ticksToUs a 0xffffffff = 0xffffffff / ticksPerUs a := rfl
    rw [e]
    by_cases h : x < 0xffffffff / ticksPerUs a
    · rw [if_pos h, if_neg (by omega)]
      have hu : usToTicks a x = x * ticksPerUs a := by
        unfold usToTicks u32
        apply Nat.mod_eq_of_lt
        have := Nat.mul_le_of_le_div (ticksPerUs a) x 0xffffffff (by omega)
        exact Nat.lt_of_le_of_lt this (by decide)
      rw [hu]
      exact setSpeedInTicks_spec s _
    · rw [if_neg h, if_pos (by omega)]; rfl
  · unfold Stepper.setSpeedInHz
    by_cases h : x = 0
    · rw [if_pos h, if_neg (by omega)]; rfl
    · rw [if_neg h, if_pos (by omega)]
      have e : RampGen.divForHz a x = roundDiv a.ticksPerS x := by
        unfold RampGen.divForHz roundDiv u32
        rw [Nat.mod_eq_of_lt (by cases a <;> simp only [ArchId.ticksPerS] <;> omega)]
        rw [show 2 * a.ticksPerS + x = x + 2 * a.ticksPerS by omega, ← Nat.div_div_eq_div_mul]
        congr 1
        omega
      rw [e]
      exact setSpeedInTicks_spec s _

/-- C26: the period of `setSpeedInHz(f)` is the nearest integer to `TICKS_PER_S/f`. -/
theorem C26_hz_nearest (a : ArchId) (s : Stepper) (f : Nat) (hf : 0 < f) (h32 : f < 4294967296)
    (hok : (s.setSpeedInHz a f).2 = 0) :
    let t := (s.setSpeedInHz a f).1.getSpeedInTicks
    2 * f * t ≤ 2 * a.ticksPerS + f ∧ 2 * a.ticksPerS + f < 2 * f * t + 2 * f := by
  have h := (C25_speed_setters a s f h32).2.2
  rw [if_pos hf] at h
  unfold SpeedSet at h
  simp only at h
  split at h
  · intro t
    have ht : t = roundDiv a.ticksPerS f := h.2.1
    rw [ht]
    exact roundDiv_nearest _ _ hf
  · rw [h] at hok; exact absurd hok (by simp)

/-- C28: an accepted period in microseconds is set exactly. -/
theorem C28_us_exact (a : ArchId) (s : Stepper) (us : Nat) (h32 : us < 4294967296)
    (hok : (s.setSpeedInUs a us).2 = 0) :
    (s.setSpeedInUs a us).1.getSpeedInTicks = us * ticksPerUs a ∧ us * ticksPerUs a < 4294967296 := by
  have h := (C25_speed_setters a s us h32).2.1
  by_cases hc : us < 0xffffffff / ticksPerUs a
  · rw [if_pos hc] at h
    unfold SpeedSet at h
    simp only at h
    split at h
    · refine ⟨h.2.1, ?_⟩
      have := Nat.mul_le_of_le_div (ticksPerUs a) us 0xffffffff (by omega)
      exact Nat.lt_of_le_of_lt this (by decide)
    · rw [h] at hok; exact absurd hok (by simp)
  · rw [if_neg hc] at h
    unfold SpeedSet at h
    simp only at h
    rw [h] at hok; exact absurd hok (by simp)

example : ((Stepper.init .testPc 9).setSpeedInHz .testPc 3000).2 = 0 ∧
    ((Stepper.init .testPc 9).setSpeedInHz .testPc 3000).1.getSpeedInTicks = 5333 ∧
    ((Stepper.init .testPc 9).setSpeedInUs .testPc 100).1.getSpeedInTicks = 1600 ∧
    ((Stepper.init .testPc 9).setSpeedInUs .testPc 268435455).2 = -1 := by decide

/-- C28 (reading back): an accepted period in microseconds is read back exactly; any other period is rounded down to microseconds. -/
theorem C28_us_read_back (a : ArchId) (s : Stepper) :
    s.rg.getSpeedInUs a = s.getSpeedInTicks / ticksPerUs a ∧
    ∀ us, us < 4294967296 → (s.setSpeedInUs a us).2 = 0 → (s.setSpeedInUs a us).1.rg.getSpeedInUs a = us := by
  have hd : ∀ s : Stepper, s.rg.getSpeedInUs a = s.getSpeedInTicks / ticksPerUs a := by
    intro s
    unfold RampGen.getSpeedInUs
    cases a <;> rfl
  refine ⟨hd s, fun us h1 h2 => ?_⟩
  rw [hd, (C28_us_exact a s us h1 h2).1, Nat.mul_div_cancel]
  cases a <;> decide

example : ((Stepper.init .sam 9).setSpeedInUs .sam 1000).2 = 0 ∧ ((Stepper.init .sam 9).setSpeedInUs .sam 1000).1.rg.getSpeedInUs .sam = 1000 := by decide

/-! ## C27: milliHz -/

/-- The conversion is exact if the shifted remainder fits in 32 bit. -/
theorem divForMilliHz_eq (a : ArchId) (ha : a ≠ .sam) (f : Nat) (hf : 0 < f)
    (hr : (250 * a.ticksPerS % f) * 4 + f / 2 < 4294967296)
    (hq : 1000 * a.ticksPerS / f + 1 < 4294967296) :
    RampGen.divForMilliHz a f = roundDiv (1000 * a.ticksPerS) f := by
  have hT : a.ticksPerS = 16000000 := by cases a <;> first | rfl | exact absurd rfl ha
  rw [hT] at hr hq
  unfold RampGen.divForMilliHz
  rw [hT]
  have e1 : u32 (250 * 16000000) = 4000000000 := by decide
  simp only [e1]
  have hdm := Nat.div_add_mod 4000000000 f
  have hml := Nat.mod_lt 4000000000 hf
  have hle : 4000000000 / f * f ≤ 4000000000 := Nat.div_mul_le_self _ _
  have e2 : subU32 4000000000 (u32 (4000000000 / f * f)) = 4000000000 % f := by
    unfold subU32 u32
    have hc : f * (4000000000 / f) = 4000000000 / f * f := Nat.mul_comm _ _
    generalize 4000000000 / f * f = P at *
    rw [hc] at hdm
    omega
  have hr' : (4000000000 % f) * 4 + f / 2 < 4294967296 := hr
  have e3 : u32 (u32 (4000000000 % f * 4) + f / 2) = 4000000000 % f * 4 + f / 2 := by
    unfold u32; omega
  rw [e2, e3]
  have main : 4000000000 / f * 4 + (4000000000 % f * 4 + f / 2) / f = roundDiv (1000 * 16000000) f := by
    unfold roundDiv
    rw [show 2 * (1000 * 16000000) + f = f + 2 * (1000 * 16000000) by omega, ← Nat.div_div_eq_div_mul]
    have e5 : (f + 2 * (1000 * 16000000)) / 2 = f * (4000000000 / f * 4) + (4000000000 % f * 4 + f / 2) := by
      have : f * (4000000000 / f * 4) = 4 * (f * (4000000000 / f)) := by
        rw [Nat.mul_comm (4000000000 / f) 4, ← Nat.mul_assoc, Nat.mul_comm f 4, Nat.mul_assoc]
      omega
    rw [e5, Nat.mul_add_div hf]
  have hb : roundDiv (1000 * 16000000) f ≤ 1000 * 16000000 / f + 1 := by
    unfold roundDiv
    rw [show 2 * (1000 * 16000000) + f = f + 2 * (1000 * 16000000) by omega, ← Nat.div_div_eq_div_mul]
    have : (f + 2 * (1000 * 16000000)) / 2 / f ≤ (1000 * 16000000 + f) / f :=
      Nat.div_le_div_right (by omega)
    rw [Nat.add_div_right _ hf] at this
    exact this
  have h9 : 4000000000 / f * 4 < 4294967296 := by
    have : 4000000000 / f * 4 ≤ roundDiv (1000 * 16000000) f := by rw [← main]; exact Nat.le_add_right _ _
    exact Nat.lt_of_le_of_lt (Nat.le_trans this hb) hq
  have h10 : u32 (4000000000 / f * 4) = 4000000000 / f * 4 := Nat.mod_eq_of_lt h9
  rw [h10, main]
  exact Nat.mod_eq_of_lt (Nat.lt_of_le_of_lt hb hq)

/-- The conversion is exact, or both the computed and the exact value are below 80 ticks. -/
theorem divForMilliHz_or (a : ArchId) (ha : a ≠ .sam) (f : Nat) (h4 : 4 < f) :
    RampGen.divForMilliHz a f = roundDiv (1000 * a.ticksPerS) f ∨
    RampGen.divForMilliHz a f < 80 ∧ roundDiv (1000 * a.ticksPerS) f < 80 := by
  have hT : a.ticksPerS = 16000000 := by cases a <;> first | rfl | exact absurd rfl ha
  by_cases hbig : f < 900000000
  · left
    apply divForMilliHz_eq a ha f (by omega)
    · have := Nat.mod_lt (250 * a.ticksPerS) (show 0 < f by omega)
      omega
    · rw [hT]
      have : 1000 * 16000000 / f ≤ 1000 * 16000000 / 5 := Nat.div_le_div_left (by omega) (by omega)
      omega
  · right
    constructor
    · unfold RampGen.divForMilliHz
      rw [hT]
      have e1 : u32 (250 * 16000000) = 4000000000 := by decide
      simp only [e1]
      have h6 : 4000000000 / f ≤ 4000000000 / 900000000 := Nat.div_le_div_left (by omega) (by omega)
      have hB : (u32 (u32 (subU32 4000000000 (u32 (4000000000 / f * f)) * 4) + f / 2)) < 4294967296 :=
        Nat.mod_lt _ (by decide)
      generalize (u32 (u32 (subU32 4000000000 (u32 (4000000000 / f * f)) * 4) + f / 2)) = B at *
      have h7 : B / f ≤ B / 900000000 := Nat.div_le_div_left (by omega) (by omega)
      have h8 : 4000000000 / f ≤ 4 := h6
      generalize 4000000000 / f = Q at *
      generalize B / f = R at *
      unfold u32
      omega
    · unfold roundDiv
      rw [hT, show 2 * (1000 * 16000000) + f = f + 2 * (1000 * 16000000) by omega,
        ← Nat.div_div_eq_div_mul]
      have h1 : (f + 2 * (1000 * 16000000)) / 2 / f ≤ (1000 * 16000000 + f) / f :=
        Nat.div_le_div_right (by omega)
      rw [Nat.add_div_right _ (by omega)] at h1
      have h2 : 1000 * 16000000 / f ≤ 1000 * 16000000 / 900000000 :=
        Nat.div_le_div_left (by omega) (by omega)
      have h3 : 1000 * 16000000 / f ≤ 17 := h2
      omega

/-- C25/C27 (setter), 16 MHz architectures: exactly the values above 4 mHz whose period
`1000*TICKS_PER_S/f`, rounded to nearest, is valid are accepted, and this period is set. Missing: SAM, see
`C27_sam_refuted`. The hypothesis on the maximum speed holds on every architecture unless it is lowered with
`setAbsoluteSpeedLimit()`. -/
theorem C27_set_milliHz_partial (a : ArchId) (ha : a ≠ .sam) (s : Stepper) (f : Nat)
    (hmax : 80 ≤ s.getMaxSpeedInTicks) :
    SpeedSet s (if 4 < f then some (roundDiv (1000 * a.ticksPerS) f) else none)
      (s.setSpeedInMilliHz a f) := by
  have hT : a.ticksPerS = 16000000 := by cases a <;> first | rfl | exact absurd rfl ha
  have hlim : 1000 * a.ticksPerS / 0xffffffff + 1 = 4 := by rw [hT]
  unfold Stepper.setSpeedInMilliHz
  rw [hlim]
  by_cases h4 : f ≤ 4
  · rw [if_pos h4, if_neg (by omega)]; rfl
  · rw [if_neg h4, if_pos (by omega)]
    have hset := setSpeedInTicks_spec s (RampGen.divForMilliHz a f)
    rcases divForMilliHz_or a ha f (by omega) with he | ⟨h1, h2⟩
    · rw [he] at hset ⊢; exact hset
    · unfold SpeedSet at hset ⊢
      simp only at hset ⊢
      rw [if_neg (by omega)] at hset ⊢
      exact hset

/-- C27 (reading back), 16 MHz architectures: the reported milliHz value is `1000*TICKS_PER_S/ticks` rounded
to nearest for every period below 900000000 ticks (56 s). Missing: longer periods and SAM. -/
theorem C27_get_milliHz_partial (a : ArchId) (ha : a ≠ .sam) (s : Stepper)
    (h0 : 4 ≤ s.getSpeedInTicks) (h1 : s.getSpeedInTicks < 900000000) :
    s.rg.getSpeedInMilliHz a = some (roundDiv (1000 * a.ticksPerS) s.getSpeedInTicks) := by
  have hT : a.ticksPerS = 16000000 := by cases a <;> first | rfl | exact absurd rfl ha
  have e : s.rg.parameters.minTravelTicks = s.getSpeedInTicks := rfl
  unfold RampGen.getSpeedInMilliHz RampGen.divForMilliHz?
  rw [e, if_neg (by omega), if_neg (by omega)]
  congr 1
  apply divForMilliHz_eq a ha _ (by omega)
  · have := Nat.mod_lt (250 * a.ticksPerS) (show 0 < s.getSpeedInTicks by omega)
    omega
  · rw [hT]
    have : 1000 * 16000000 / s.getSpeedInTicks ≤ 1000 * 16000000 / 4 :=
      Nat.div_le_div_left (by omega) (by omega)
    omega

example : let s := ((Stepper.init .esp32 9).adjustSpeedToStepperCount .esp32 1).setSpeedInMilliHz .esp32 3000001
    s.2 = 0 ∧ s.1.getSpeedInTicks = 5333 ∧ 80 ≤ s.1.getMaxSpeedInTicks ∧
    s.1.rg.getSpeedInMilliHz .esp32 = some 3000188 := by decide

/-- C27 (reading back), every state and architecture: the query is defined, and gives 0 as long as no speed has been set. -/
theorem C27_get_defined (a : ArchId) (s : Stepper) : ∃ f, s.rg.getSpeedInMilliHz a = some f ∧ (s.getSpeedInTicks = 0 → f = 0) := by
  unfold RampGen.getSpeedInMilliHz RampGen.divForMilliHz?
  by_cases h : s.rg.parameters.minTravelTicks = 0
  · rw [if_pos h]; exact ⟨0, rfl, fun _ => rfl⟩
  · rw [if_neg h, if_neg h]; exact ⟨_, rfl, fun hx => absurd hx h⟩

example : (Stepper.init .esp32 9).rg.getSpeedInMilliHz .esp32 = some 0 := by decide

/-- C27 is false on SAM (21 MHz): `250*TICKS_PER_S` does not fit in 32 bit, so asking for 1000 Hz is accepted
and gives 3820 ticks, i.e. 5.5 kHz, instead of 21000 ticks. -/
theorem C27_sam_refuted :
    let s := ((Stepper.init .sam 9).adjustSpeedToStepperCount .sam 1).setSpeedInMilliHz .sam 1000000
    s.2 = 0 ∧ s.1.getSpeedInTicks = 3820 ∧ roundDiv (1000 * ArchId.sam.ticksPerS) 1000000 = 21000 := by
  decide

/-- C27 is false for long periods: with 1.4e9 ticks (87.5 s) 8 mHz are reported instead of 11 mHz. -/
theorem C27_long_period_refuted :
    let s := ((Stepper.init .avr328 9).adjustSpeedToStepperCount .avr328 1).setSpeedInTicks 1400000000
    s.2 = 0 ∧ s.1.rg.getSpeedInMilliHz .avr328 = some 8 ∧
    roundDiv (1000 * ArchId.avr328.ticksPerS) 1400000000 = 11 := by decide

/-! ## C55 -/

/-- C55: the forward planning time is exactly `ms` milliseconds: `ms/1000 = ticks/TICKS_PER_S`. -/
theorem C55_forward_planning (a : ArchId) (s : Stepper) (ms : Nat) (h : ms < 256) :
    (s.setForwardPlanningTimeInMs a ms).forwardPlanning * 1000 = ms * a.ticksPerS := by
  simp only [Stepper.setForwardPlanningTimeInMs, u32]
  cases a <;> simp only [ArchId.ticksPerS] <;> omega

example : ((Stepper.init .sam 9).setForwardPlanningTimeInMs .sam 255).forwardPlanning = 5355000 := by
  decide

end FAS
