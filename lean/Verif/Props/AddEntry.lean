import Verif.Lemmas.AddEntry

/-!
# `addQueueEntry` on stepper level: C13, C14, C15
-/

namespace FAS
open Spec Stepper

/-! ## C13 -/

/-- A history of calls on a stepper. `DirHist a s acc s'`: starting with `s` the queue has accepted the commands
`acc`, in this order, and the stepper is now `s'`. Besides `addQueueEntry` anything else may happen, as long
as direction pin, direction delay and the direction of the last queued command are kept: ramp generator,
hardware progress, the auto enable configuration, `setCurrentPosition()`, ... -/
inductive DirHist (a : ArchId) : Stepper → List Cmd → Stepper → Prop
  | nil (s) : DirHist a s [] s
  | add {s acc s1} (ext gaps busy c st) : DirHist a s acc s1 →
      (c.steps = 0 → c.countUp = s1.hw.q.qend.countUp) → EnableGuard a s1 →
      DirHist a s (acc ++ (s1.addQueueEntry a ext gaps busy c st).1.accepted)
        (s1.addQueueEntry a ext gaps busy c st).1.s
  | other {s acc s1} (s2) : DirHist a s acc s1 → s2.hw.q.qend.countUp = s1.hw.q.qend.countUp →
      s2.dirPin = s1.dirPin → s2.dirChangeDelayTicks = s1.dirChangeDelayTicks → DirHist a s acc s2

/-- C13 with an internal direction pin, for histories in which pauses added by the user do not change the
direction, no queue content is dropped (`forceStop`), and pauses of the enable delay are not rejected due to
lack of space (`EnableGuard`). For each of these the claim is false, see the refuted theorems. -/
theorem C13_direction_delay_partial (a : ArchId) (s s' : Stepper) (acc : List Cmd)
    (hint : pinIsExternal s.dirPin = false) (hd : s.dirChangeDelayTicks < 65536) (h : DirHist a s acc s') :
    DirDelayKept s.dirChangeDelayTicks s.hw.q.qend.countUp acc := by
  suffices key : (∃ w, dirScan s.dirChangeDelayTicks s.hw.q.qend.countUp none acc =
        some (s'.hw.q.qend.countUp, w) ∧ GoodWait s.dirChangeDelayTicks w) ∧
      s'.dirChangeDelayTicks = s.dirChangeDelayTicks ∧ s'.dirPin = s.dirPin by
    obtain ⟨⟨w, h1, -⟩, -⟩ := key
    unfold DirDelayKept; rw [h1]; rfl
  induction h with
  | nil => exact ⟨⟨none, rfl, GoodWait.none _⟩, rfl, rfl⟩
  | @add acc s1 ext gaps busy c st hh hp hg ih =>
    obtain ⟨⟨w, h1, h2⟩, h3, h4⟩ := ih
    have hs := addQueueEntry_scan a ext gaps busy s1 c st w (by rw [h3]; exact h2)
      (by rw [h4]; exact hint) hg (by rw [h3]; exact hd) hp
    have hf := addQueueEntry_frame a ext gaps busy s1 c st
    refine ⟨?_, hf.delay.trans h3, hf.pin.trans h4⟩
    obtain ⟨w', h5, h6⟩ := hs
    rw [h3] at h5 h6
    exact ⟨w', by rw [dirScan_append, h1]; exact h5, h6⟩
  | @other acc s1 s2 hh hc hp hd2 ih =>
    obtain ⟨⟨w, h1, h2⟩, h3, h4⟩ := ih
    exact ⟨⟨w, by rw [hc]; exact h1, h2⟩, hd2.trans h3, hp.trans h4⟩

/-- A list of `addQueueEntry(cmd, true)` calls, each with its hardware progress: stepper, accepted
commands and return codes. -/
def addAll (a : ArchId) (s : Stepper) : List (Cmd × (Nat → Gap)) → Stepper × List Cmd × List Int
  | [] => (s, [], [])
  | c :: cs =>
    let r := s.addQueueEntry a none c.2 false c.1 true
    let q := addAll a r.1.s cs
    (q.1, r.1.accepted ++ q.2.1, r.2 :: q.2.2)

/-- A running queue without progress during the calls. -/
def noProgress : Nat → Gap := fun _ => ⟨0, true⟩

/-- An AVR stepper with step pin 9, direction pin 5 and 1000 us direction delay. -/
def dirStepper : Stepper :=
  (((Stepper.init .avr328 9).adjustSpeedToStepperCount .avr328 1).setDirectionPin .avr328 none 5 true 1000).1

/-- Non-vacuity: two changes of direction. -/
example : ∃ acc s', DirHist .avr328 dirStepper acc s' ∧ acc =
    [⟨2000, 1, true⟩, ⟨16000, 0, false⟩, ⟨2000, 3, false⟩, ⟨1000, 0, false⟩, ⟨16000, 0, true⟩, ⟨1000, 2, true⟩] := by
  have h0 := DirHist.nil (a := .avr328) dirStepper
  have h1 := h0.add none noProgress false ⟨2000, 1, true⟩ true (by decide) (by intro h; exact absurd h.1 (by decide))
  have h2 := h1.add none noProgress false ⟨2000, 3, false⟩ true (by decide) (by intro h; exact absurd h.1 (by decide))
  have h3 := h2.add none noProgress false ⟨1000, 0, false⟩ true (by decide +kernel)
    (by intro h; exact absurd h.1 (by decide))
  have h4 := h3.add none noProgress false ⟨1000, 2, true⟩ true (by decide) (by intro h; exact absurd h.1 (by decide))
  exact ⟨_, _, h4, by decide +kernel⟩

/-- C13 is false for pauses which change the direction: they are taken as the change of direction, however
short they are. -/
theorem C13_short_pause_refuted :
    let r := addAll .avr328 dirStepper
      [(⟨2000, 1, true⟩, noProgress), (⟨700, 0, false⟩, noProgress), (⟨2000, 1, false⟩, noProgress)]
    r.2.2 = [AQE_OK, AQE_OK, AQE_OK] ∧ dirStepper.dirChangeDelayTicks = 16000 ∧
    ¬ DirDelayKept 16000 true r.2.1 := by decide +kernel

/-- C13 is false after a force stop: a queued change of direction is dropped, `runBackward()` then changes the
direction pin while adding its first step, without any pause before. -/
theorem C13_force_stop_refuted :
    let s1 := (addAll .avr328 dirStepper [(⟨2000, 10, true⟩, noProgress), (⟨2000, 10, false⟩, noProgress)]).1
    let s2 := ((s1.forceStopAndNewPosition 0).setSpeedInTicks 2000).1.setAcceleration 1000
    let s3 := (s2.1.startRun false).1
    let r := s3.fillQueue .avr328 ⟨40, fun _ => none, fun _ _ => ⟨0, false⟩, fun _ => false⟩
      ⟨⟨0, 0, true⟩, ⟨⟨.idle, .none⟩, 0, 0, 0⟩⟩
    s3.dirChangeDelayTicks = 16000 ∧ s3.hw.q.dirLevel = true ∧
    r.map (fun r => (r.1.hw.q.dirLevel, r.2.head?)) = some (false, some ⟨65535, 1, false⟩) := by
  decide +kernel

/-- An AVR stepper with 15 commands in the queue, auto enable switched on afterwards, on-delay 70000 ticks and
direction delay 65520 ticks. -/
def lateEnableStepper : Stepper :=
  let s := (dirStepper.setDirectionPin .avr328 none 5 true 4095).1
  let s := (addAll .avr328 s (List.replicate 15 (⟨2000, 1, true⟩, noProgress))).1
  { s.setAutoEnable true with onDelayTicks := 70000 }

/-- C13 and C14 are false if auto enable is switched on with commands in the queue: pauses of the enable delay
which do not fit into the queue are lost, but the command itself is accepted if an entry becomes free. -/
theorem C13_C14_late_enable_refuted :
    let r := lateEnableStepper.addQueueEntry .avr328 none
      (fun n => if n = 3 then ⟨1, true⟩ else ⟨0, true⟩) false ⟨2000, 1, false⟩ true
    r.2 = AQE_OK ∧ r.1.accepted = [⟨35000, 0, false⟩, ⟨2000, 1, false⟩] ∧
    lateEnableStepper.onDelayTicks = 70000 ∧ lateEnableStepper.dirChangeDelayTicks = 65520 ∧
    ¬ DirDelayKept 65520 true r.1.accepted := by
  decide +kernel

/-! ## C14 -/

/-- The delay C14 demands. -/
def Spec.enableDelay (onDelay dirDelay : Nat) (changes : Bool) : Nat :=
  if changes then max onDelay dirDelay else onDelay

/-- C14: outputs disabled in auto enable mode, idle (empty) queue, any accepted configuration, any command
valid for the queue, for any hardware progress: if the call succeeds, then the outputs have been enabled and
the queue has got pauses with exactly the delay in total, followed by the command. If the callback confirms the
enable pins and the queue is not processed before being started, then the call succeeds. -/
theorem C14_enable_delay_partial (a : ArchId) (ext : ExtPin) (gaps : Nat → Gap) (s : Stepper) (c : Cmd)
    (st : Bool) (hs : ∃ sp : QSpec, Sim a s.hw sp ∧ sp.pend = [] ∧ sp.ready = true ∧ sp.ignore = false)
    (hauto : s.autoEnable = true) (hcnt : s.counter = 0)
    (hon : a.minCmdTicks ≤ s.onDelayTicks ∧ s.onDelayTicks ≤ a.maxOnDelayTicks)
    (hdir : s.dirChangeDelayTicks < 65536)
    (hc : c.Valid) (hdur : a.minCmdTicks ≤ c.duration) (hspeed : s.getMaxSpeedInTicks ≤ c.ticks)
    (hpin : s.dirPin = pinUndefined → c.countUp = true) :
    let r := s.addQueueEntry a ext gaps false c st
    (r.2 = AQE_OK → r.1.writes = (s.enableOutputs ext).2 ∧
      ∃ ps, ticksSum ps = enableDelay s.onDelayTicks s.dirChangeDelayTicks (c.countUp != s.hw.q.qend.countUp) ∧
        r.1.accepted = ps.map (fun t => ⟨t, 0, c.countUp⟩) ++ [c]) ∧
    ((s.enableOutputs ext).1 = true → (∀ n < a.queueLen, (gaps n).advances = 0) → r.2 = AQE_OK) ∧
    ((s.enableOutputs ext).1 = false → r.2 = AQE_WAIT_FOR_ENABLE_PIN_ACTIVE ∧ r.1.accepted = []) := by
  obtain ⟨sp, hsim, hpend, hrdy, hign⟩ := hs
  have hi := hsim.idx
  have hr : s.hw.q.ready = true := hsim.ready.trans hrdy
  have hig : s.hw.q.ignoreCommands = false := hsim.ign.trans hign
  have hempty : s.hw.q.queueEntries = 0 := by rw [hsim.length, hpend]; rfl
  have hdel : Stepper.enableDelay s c =
      Spec.enableDelay s.onDelayTicks s.dirChangeDelayTicks (c.countUp != s.hw.q.qend.countUp) := by
    unfold Stepper.enableDelay Spec.enableDelay
    by_cases h1 : c.countUp = s.hw.q.qend.countUp
    · rw [if_neg (by intro h; exact h.2 h1.symm)]; simp [h1]
    · have : (c.countUp != s.hw.q.qend.countUp) = true := by simp [h1]
      rw [if_pos this]
      by_cases h2 : s.onDelayTicks < s.dirChangeDelayTicks
      · rw [if_pos ⟨h2, Ne.symm h1⟩]; omega
      · rw [if_neg (by intro h; exact h2 h.1)]; omega
  have hpos : 0 < Stepper.enableDelay s c := by
    have := a.minCmd_pos
    unfold Stepper.enableDelay; split <;> omega
  have hmin : a.minCmdTicks ≤ Stepper.enableDelay s c := by
    unfold Stepper.enableDelay; split <;> omega
  have hlen := enableDelay_pauses a s c hon.2 hdir
  have hsp := onDelayPauses_spec (Stepper.enableDelay s c) (Stepper.enableDelay s c) (Nat.le_refl _)
  have hql := a.queueLen_cases
  have hmins : ∀ t ∈ onDelayPauses (Stepper.enableDelay s c) (Stepper.enableDelay s c), a.minCmdTicks ≤ t := by
    intro t ht
    have := (hsp.2.1 t ht).2
    have := a.minCmd_pos
    omega
  intro r
  have hr1 : r = match (Call.mk s 0 [] []).autoEnable a ext gaps c st with
    | (k, some code) => (k, code)
    | (k, none) =>
      match k.dirChange a gaps c st with
      | (k, some code) => (k, code)
      | (k, none) => k.final a gaps c st := by
    simp only [r, addQueueEntry]
    have h1 : ¬ c.ticks < s.hw.q.maxSpeedInTicks := Nat.not_lt.mpr hspeed
    rw [if_neg h1, if_neg (by simp)]
    rw [if_neg (by rintro ⟨h1, h2⟩; rw [hpin h1] at h2; simp at h2)]
    rfl
  cases hen : (s.enableOutputs ext).1
  · have hae : (Call.mk s 0 [] []).autoEnable a ext gaps c st =
        (⟨s, 0, [], [] ++ (s.enableOutputs ext).2⟩, some AQE_WAIT_FOR_ENABLE_PIN_ACTIVE) := by
      simp [Call.autoEnable, hauto, hcnt, hen]
    rw [hae] at hr1
    dsimp only at hr1
    rw [hr1]
    refine ⟨?_, ?_, fun _ => ⟨rfl, rfl⟩⟩
    · intro h; change AQE_WAIT_FOR_ENABLE_PIN_ACTIVE = AQE_OK at h; exact absurd h (by decide)
    · intro h; cases h
  · obtain ⟨K, hK⟩ : ∃ K, K = Call.addPauses a gaps c.countUp ⟨s, 0, [], [] ++ (s.enableOutputs ext).2⟩
      (onDelayPauses (Stepper.enableDelay s c) (Stepper.enableDelay s c)) := ⟨_, rfl⟩
    have hae : (Call.mk s 0 [] []).autoEnable a ext gaps c st =
        ((K.addNull a gaps st).1, if (K.addNull a gaps st).2 ≠ AQE_OK then some (K.addNull a gaps st).2 else none) := by
      have hon0 : s.onDelayTicks > 0 := by have := a.minCmd_pos; omega
      unfold Call.autoEnable
      rw [if_pos ⟨hauto, hcnt⟩]
      dsimp only
      rw [hen, if_neg (by simp), if_pos hon0, hK]
      rfl
    have hall := addPauses_all a gaps c.countUp
      (onDelayPauses (Stepper.enableDelay s c) (Stepper.enableDelay s c))
      ⟨s, 0, [], [] ++ (s.enableOutputs ext).2⟩ hi hr hig (by change s.hw.q.queueEntries + _ ≤ _; omega) hmins
    have hfr := addPauses_frame a gaps c.countUp
      (onDelayPauses (Stepper.enableDelay s c) (Stepper.enableDelay s c))
      ⟨s, 0, [], [] ++ (s.enableOutputs ext).2⟩
    have hn := addPauses_n a gaps c.countUp
      (onDelayPauses (Stepper.enableDelay s c) (Stepper.enableDelay s c))
      ⟨s, 0, [], [] ++ (s.enableOutputs ext).2⟩
    have hent := addPauses_entries a gaps c.countUp
      (onDelayPauses (Stepper.enableDelay s c) (Stepper.enableDelay s c))
      ⟨s, 0, [], [] ++ (s.enableOutputs ext).2⟩ hi hr hig (by change s.hw.q.queueEntries + _ ≤ _; omega) hmins
    rw [← hK] at hall hfr hn hent
    have hcu := hall.2.2.2 (hsp.2.2.2.2 hpos)
    have hK2 := Call.addNull_spec a gaps K st
    obtain ⟨R, hR⟩ : ∃ R, R = K.addNull a gaps st := ⟨_, rfl⟩
    rw [← hR] at hae hK2
    rw [hae] at hr1
    have hnull : (∀ n < a.queueLen, (gaps n).advances = 0) → R.2 = AQE_OK := by
      intro h0
      rw [hR]
      have hne : (onDelayPauses (Stepper.enableDelay s c) (Stepper.enableDelay s c)).length ≠ 0 := by
        intro h
        exact hsp.2.2.2.2 hpos (List.length_eq_zero_iff.mp h)
      have hent' := hent (fun n hn => h0 n (by
        change n < 0 + _ at hn
        omega))
      have hent2 : K.s.hw.q.queueEntries = s.hw.q.queueEntries + _ := hent'
      have hn2 : K.n = 0 + _ := hn
      apply Call.addNull_ok a gaps K st hall.2.1 (hfr.1.ready.trans hr)
      · omega
      · apply h0; omega
    by_cases hok : R.2 = AQE_OK
    · have hif : (if R.2 ≠ AQE_OK then some R.2 else none) = none := by simp [hok]
      rw [hif] at hr1
      dsimp only at hr1
      have hcu2 : R.1.s.hw.q.qend.countUp = c.countUp := by rw [hK2.2.2.2.2.1]; exact hcu
      have hdc : R.1.dirChange a gaps c st = (R.1, none) := by
        unfold Call.dirChange
        rw [if_neg (by simp [hcu2])]
      rw [hdc] at hr1
      dsimp only at hr1
      have hidx2 := hK2.2.2.2.2.2 hall.2.1
      have hfin : (R.1.add a gaps c st).2 = AQE_OK := by
        apply Call.add_ok a gaps R.1 c st hidx2.1 (hK2.1.ready.trans (hfr.1.ready.trans hr))
        · have h1 : K.s.hw.q.queueEntries ≤ s.hw.q.queueEntries + _ := hall.2.2.1
          omega
        · rw [commandRateTicks_eq c hc]; exact hdur
      have hspec := Call.add_spec a gaps R.1 c st
      have hacc : (R.1.add a gaps c st).1.accepted = R.1.accepted ++ [c] := by
        rcases hspec.2.2.2 with h | h
        · exact h.2.2.1
        · have := h.1 hfin
          rw [hK2.1.ign, hfr.1.ign] at this
          change s.hw.q.ignoreCommands = true at this
          rw [hig] at this; cases this
      have hrw : r.2 = AQE_OK ∧ r.1.accepted = R.1.accepted ++ [c] ∧ r.1.writes = R.1.writes := by
        rw [hr1]
        unfold Call.final
        dsimp only
        split
        · exact ⟨hfin, hacc, hspec.2.1⟩
        · exact ⟨hfin, hacc, hspec.2.1⟩
      refine ⟨fun _ => ⟨?_, onDelayPauses (Stepper.enableDelay s c) (Stepper.enableDelay s c), ?_, ?_⟩,
        fun _ _ => hrw.1, fun h => by cases h⟩
      · rw [hrw.2.2, hK2.2.1, hfr.2.1]; rfl
      · rw [hsp.1, hdel]
      · rw [hrw.2.1, hK2.2.2.2.1, hall.1]; rfl
    · have hif : (if R.2 ≠ AQE_OK then some R.2 else none) = some R.2 := by simp [hok]
      rw [hif] at hr1
      dsimp only at hr1
      rw [hr1]
      refine ⟨fun h => absurd h hok, fun _ h0 => absurd (hnull h0) hok, fun h => by cases h⟩

/-- The same stepper with auto enable, low active enable pin 6 and 10 ms on-delay. -/
def enableStepper : Stepper :=
  (((dirStepper.setEnablePin none 6 true).1.setAutoEnable true).setDelayToEnable .avr328 10000).1

/-- Non-vacuity: the hypotheses hold and three pauses are inserted. -/
example : (∃ sp : QSpec, Sim .avr328 enableStepper.hw sp ∧ sp.pend = [] ∧ sp.ready = true ∧ sp.ignore = false) ∧
    enableStepper.autoEnable = true ∧ enableStepper.counter = 0 ∧
    (ArchId.avr328.minCmdTicks ≤ enableStepper.onDelayTicks ∧
      enableStepper.onDelayTicks ≤ ArchId.avr328.maxOnDelayTicks) ∧
    enableStepper.dirChangeDelayTicks < 65536 ∧
    (enableStepper.addQueueEntry .avr328 none noProgress false ⟨2000, 1, false⟩ true).1.accepted =
      [⟨65535, 0, false⟩, ⟨47232, 0, false⟩, ⟨47233, 0, false⟩, ⟨2000, 1, false⟩] ∧
    (enableStepper.addQueueEntry .avr328 none noProgress false ⟨2000, 1, false⟩ true).1.writes = [(6, false)] := by
  refine ⟨⟨QSpec.init, ?_, rfl, rfl, rfl⟩, ?_⟩
  · have h := ((Sim.init .avr328).step (.setDirPin 5 true) trivial).1
    exact ⟨h.idx, h.run, h.ready, h.ign, h.doneP, h.rel, h.pos⟩
  · decide +kernel

/-! ## C15 -/

/-- Codes the queue returns. -/
def QueueCode (x : Int) : Prop :=
  x = AQE_OK ∨ x = AQE_QUEUE_FULL ∨ x = AQE_ERROR_TICKS_TOO_LOW ∨ x = AQE_DEVICE_NOT_READY ∨
  x = AQE_ERROR_EMPTY_QUEUE_TO_START

theorem Queue.add_queueCode (a : ArchId) (q : Queue) (c : Cmd) (st : Bool) : QueueCode (q.add a c st).code := by
  unfold QueueCode Queue.add
  dsimp only
  repeat' split
  all_goals simp

theorem Queue.addNull_queueCode (q : Queue) (st : Bool) : QueueCode (q.addNull st).code := by
  unfold QueueCode Queue.addNull
  repeat' split
  all_goals simp

theorem Call.dirChange_code (a : ArchId) (gaps : Nat → Gap) (k : Call) (c : Cmd) (st : Bool) (x : Int) :
    (k.dirChange a gaps c st).2 = some x → QueueCode x := by
  have hadd : ∀ (k : Call) (c : Cmd), QueueCode (k.add a gaps c st).2 := fun k c => Queue.add_queueCode a _ c st
  unfold Call.dirChange
  dsimp only
  split
  · split
    · split
      · intro h; cases h; right; left; rfl
      · split
        · intro h; cases h; exact hadd _ _
        · split
          · intro h; cases h; exact hadd _ _
          · intro h; cases h
    · split
      · split
        · intro h; cases h; exact hadd _ _
        · intro h; cases h
      · intro h; cases h
  · intro h; cases h

theorem ifCode_queueCode (R : Call × Int) (x : Int) (hR : QueueCode R.2)
    (h : (if R.2 ≠ AQE_OK then some R.2 else none) = some x) : QueueCode x := by
  by_cases h1 : R.2 = AQE_OK
  · rw [if_neg (by intro h2; exact h2 h1)] at h; cases h
  · rw [if_pos h1] at h
    rw [Option.some.inj h] at hR
    exact hR

theorem Call.autoEnable_code (a : ArchId) (ext : ExtPin) (gaps : Nat → Gap) (k : Call) (c : Cmd) (st : Bool)
    (x : Int) :
    (k.autoEnable a ext gaps c st).2 = some x → QueueCode x ∨ x = AQE_WAIT_FOR_ENABLE_PIN_ACTIVE := by
  have hnull : ∀ (k : Call), QueueCode (k.addNull a gaps st).2 := fun k => Queue.addNull_queueCode _ st
  unfold Call.autoEnable
  dsimp only
  split
  · split
    · intro h; cases h; right; rfl
    · split
      · intro h
        left
        exact ifCode_queueCode _ x (hnull _) h
      · intro h; cases h
  · intro h; cases h

theorem Call.final_code (a : ArchId) (gaps : Nat → Gap) (k : Call) (c : Cmd) (st : Bool) :
    QueueCode (k.final a gaps c st).2 := by
  unfold Call.final
  dsimp only
  split <;> exact Queue.add_queueCode a _ c st

/-- C15: too fast commands, counting down without direction pin and a direction pin in use by another stepper
are rejected with the documented code, in this order of precedence, and have no effect at all. -/
theorem C15_rejected_without_effect (a : ArchId) (ext : ExtPin) (gaps : Nat → Gap) (busy : Bool)
    (s : Stepper) (c : Cmd) (st : Bool) :
    let r := s.addQueueEntry a ext gaps busy c st
    let unchanged := r.1.s = s ∧ r.1.accepted = [] ∧ r.1.writes = []
    (c.ticks < s.getMaxSpeedInTicks → r.2 = AQE_ERROR_TICKS_TOO_LOW ∧ unchanged) ∧
    (s.getMaxSpeedInTicks ≤ c.ticks → s.dirPin = pinUndefined → c.countUp = false →
      r.2 = AQE_ERROR_NO_DIR_PIN_TO_TOGGLE ∧ unchanged) ∧
    (s.getMaxSpeedInTicks ≤ c.ticks → s.dirPin ≠ pinUndefined → s.isQueueRunning = false → busy = true →
      r.2 = AQE_DIR_PIN_IS_BUSY ∧ unchanged) ∧
    (r.2 = AQE_ERROR_NO_DIR_PIN_TO_TOGGLE → s.dirPin = pinUndefined ∧ c.countUp = false) ∧
    (r.2 = AQE_DIR_PIN_IS_BUSY → s.dirPin ≠ pinUndefined ∧ s.isQueueRunning = false ∧ busy = true) := by
  intro r unchanged
  have e : s.getMaxSpeedInTicks = s.hw.q.maxSpeedInTicks := rfl
  simp only [e]
  by_cases h1 : c.ticks < s.hw.q.maxSpeedInTicks
  · have hr : r = (⟨s, 0, [], []⟩, AQE_ERROR_TICKS_TOO_LOW) := by simp [r, addQueueEntry, h1]
    simp only [unchanged, hr]
    refine ⟨fun _ => by simp, fun h => ?_, fun h => ?_, fun h => ?_, fun h => ?_⟩
    · omega
    · omega
    · exact absurd h (by decide)
    · exact absurd h (by decide)
  · by_cases h2 : s.dirPin ≠ pinUndefined ∧ (!s.isQueueRunning) = true ∧ busy = true
    · have hr : r = (⟨s, 0, [], []⟩, AQE_DIR_PIN_IS_BUSY) := by
        simp only [r, addQueueEntry]
        rw [if_neg h1, if_pos h2]
      simp only [unchanged, hr]
      refine ⟨fun h => absurd h h1, fun _ h => absurd h h2.1, fun _ _ _ _ => by simp, fun h => ?_,
        fun _ => ⟨h2.1, by simpa using h2.2.1, h2.2.2⟩⟩
      exact absurd h (by decide)
    · by_cases h3 : s.dirPin = pinUndefined ∧ (!c.countUp) = true
      · have hr : r = (⟨s, 0, [], []⟩, AQE_ERROR_NO_DIR_PIN_TO_TOGGLE) := by
          simp only [r, addQueueEntry]
          rw [if_neg h1, if_neg h2, if_pos h3]
        simp only [unchanged, hr]
        refine ⟨fun h => absurd h h1, fun _ _ _ => by simp, fun _ h => absurd h3.1 h,
          fun _ => ⟨h3.1, by simpa using h3.2⟩, fun h => ?_⟩
        exact absurd h (by decide)
      · have hcode : QueueCode r.2 ∨ r.2 = AQE_WAIT_FOR_ENABLE_PIN_ACTIVE := by
          simp only [r, addQueueEntry]
          rw [if_neg h1, if_neg h2, if_neg h3]
          split
          · rename_i k x heq
            exact Call.autoEnable_code a ext gaps _ c st x (by rw [heq])
          · split
            · rename_i k2 x heq
              left; exact Call.dirChange_code a gaps _ c st x (by rw [heq])
            · left; exact Call.final_code a gaps _ c st
        refine ⟨fun h => absurd h h1, fun _ ha hb => absurd ⟨ha, by simp [hb]⟩ h3,
          fun _ ha hb hc => absurd ⟨ha, by simp [hb], hc⟩ h2, fun h => ?_, fun h => ?_⟩
        · rw [h] at hcode; exfalso; revert hcode; unfold QueueCode; decide
        · rw [h] at hcode; exfalso; revert hcode; unfold QueueCode; decide

example : (dirStepper.addQueueEntry .avr328 none noProgress false ⟨319, 5, true⟩ true).2 = AQE_ERROR_TICKS_TOO_LOW ∧
    (dirStepper.addQueueEntry .avr328 none noProgress true ⟨320, 5, true⟩ true).2 = AQE_DIR_PIN_IS_BUSY ∧
    (Stepper.addQueueEntry .avr328 none noProgress true (Stepper.init .avr328 9) ⟨20000, 5, false⟩ true).2 =
      AQE_ERROR_NO_DIR_PIN_TO_TOGGLE := by decide +kernel

end FAS
