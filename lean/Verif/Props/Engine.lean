import Verif.Lemmas.Engine

/-!
# Properties of the engine: C21-C24
-/

namespace FAS
open Spec

/-! ## C23 -/

/-- C23: after any history of `stepperConnectToPin` calls (with any use of the steppers in between) no two
steppers have the same step pin, the queue numbers handed out are pairwise different and below MAX_STEPPER (so
there are at most MAX_STEPPER steppers) and exactly these queues are in use. A further call either fails and
changes nothing, which happens exactly if the pin is in use, invalid or no slot is left, or it hands out a slot
not used before, and no other stepper gets lost or another pin. -/
theorem C23_connect (a : ArchId) (rule : SlotRule) (hr : SlotRuleOK rule) (ops : List ConnectOp) :
    let st := connectRun a rule (Engine.init, []) ops
    (∀ i j s t, st.1.stepper i = some s → st.1.stepper j = some t → s.stepPin = t.stepPin → i = j) ∧
    st.2.Nodup ∧ (∀ i ∈ st.2, i < rule.maxStepper) ∧ st.2.length ≤ rule.maxStepper ∧
    (∀ i, (st.1.stepper i).isSome ↔ i ∈ st.2) ∧
    ∀ pin driver valid,
      match (st.1.connect a rule valid pin driver).2 with
      | none => (st.1.connect a rule valid pin driver).1 = st.1
      | some i =>
        valid = true ∧ i < rule.maxStepper ∧ st.1.stepper i = none ∧
        (∀ j s, st.1.stepper j = some s → s.stepPin ≠ pin) ∧
        (∃ s, (st.1.connect a rule valid pin driver).1.stepper i = some s ∧ s.stepPin = pin) ∧
        ∀ j, j ≠ i → ((st.1.connect a rule valid pin driver).1.stepper j).map Stepper.stepPin =
          (st.1.stepper j).map Stepper.stepPin := by
  intro st
  have h : st.1.Conn rule st.2 := Engine.Conn.run hr ops _ _ (Engine.Conn.init rule)
  refine ⟨h.uniq, h.nodup, h.bound, nodup_bounded_length _ _ h.nodup h.bound, h.occ, ?_⟩
  intro pin driver valid
  cases hc : (st.1.connect a rule valid pin driver).2 with
  | none => exact (st.1.connect_none a rule valid pin driver hc).1
  | some i =>
    obtain ⟨hu, hv, hs, -, hst⟩ := st.1.connect_some a rule valid pin driver i hc
    have hb : ∀ i, (st.1.stepper i).isSome → i < rule.maxStepper := fun i hi => h.bound i ((h.occ i).mp hi)
    have hu' : ∀ j s, st.1.stepper j = some s → s.stepPin ≠ pin := by
      intro j s hj hp
      have := (st.1.stepPinUsed_iff rule pin hb).mpr ⟨j, s, hj, hp⟩
      rw [hu] at this; cases this
    obtain ⟨h1, h2, -, -⟩ := h.chooseSlot hr pin driver i hu' hs
    refine ⟨hv, h2, h1, hu', ⟨_, by rw [hst i, if_pos rfl]; rfl, rfl⟩, ?_⟩
    intro j hj
    rw [hst j, if_neg hj, Option.map_map]
    rfl

/-- C23: a call fails exactly if the pin is in use, the pin is invalid or there is no free slot for it; for the
next-slot rule this is: all slots are used; with driver selection: all slots of the driver are used. -/
theorem C23_failure (a : ArchId) (rule : SlotRule) (hr : SlotRuleOK rule) (ops : List ConnectOp)
    (pin driver : Nat) (valid : Bool) :
    let st := connectRun a rule (Engine.init, []) ops
    (st.1.connect a rule valid pin driver).2 = none ↔
      (∃ i s, st.1.stepper i = some s ∧ s.stepPin = pin) ∨ valid = false ∨
      NoSlotLeft rule st.2 pin driver := by
  intro st
  have h : st.1.Conn rule st.2 := Engine.Conn.run hr ops _ _ (Engine.Conn.init rule)
  have hb : ∀ i, (st.1.stepper i).isSome → i < rule.maxStepper := fun i hi => h.bound i ((h.occ i).mp hi)
  rw [← st.1.stepPinUsed_iff rule pin hb]
  have hlen := nodup_bounded_length _ _ h.nodup h.bound
  have hsl : st.1.chooseSlot rule pin driver = none ↔
      NoSlotLeft rule st.2 pin driver := by
    unfold Engine.chooseSlot NoSlotLeft
    have hcnt := h.cnt
    cases rule with
    | byPin pins => simp
    | next n =>
      simp only [SlotRule.maxStepper] at hlen ⊢
      split
      · simp; omega
      · simp; omega
    | select m r =>
      simp only
      by_cases hd0 : driver = 0
      · subst hd0
        simp only [if_true]
        rw [st.1.firstFree_none]
        simp only [h.occ, Nat.zero_add]
        exact Iff.rfl
      · rw [if_neg hd0]
        by_cases hd1 : driver = 1
        · subst hd1
          simp only [if_true]
          rw [st.1.firstFree_none]
          simp only [h.occ]
          exact Iff.rfl
        · rw [if_neg hd1, st.1.firstFree_none]
          simp only [h.occ, if_neg hd0, if_neg hd1, Nat.zero_add]
  rw [← hsl]
  unfold Engine.connect
  cases st.1.stepPinUsed rule pin <;> cases valid <;> cases st.1.chooseSlot rule pin driver <;> simp

/-- The slot rules of all architectures satisfy the hypothesis. -/
example : ∀ a : ArchId, SlotRuleOK a.slotRule := by
  intro a; cases a <;> simp [SlotRuleOK, ArchId.slotRule]

/-! ## C21 -/

/-- C21, if sharing of enable pins is transitive: the auto disable part of a task cycle drives an enable pin only
if every stepper using this pin is stopped and its off-delay counter has run down (`e1`: the state at the decision,
after the service of the ramps in the same cycle). -/
theorem C21_auto_disable_partial (a : ArchId) (n : Nat) (ext : ExtPin) (env : Nat → Stepper.Env) (junk : NextCommand)
    (e e' : Engine) (ws : List PinWrite) (ht : SharingTransitive n e)
    (h : e.manageSteppers a n ext env junk = some (e', ws)) :
    ∃ e1, e.fillAll a n ext env junk (List.range n) = some e1 ∧
      ∀ w ∈ ws, ∀ k < n, ∀ u, e1.stepper k = some u → UsesPin u w.1 →
        u.isRunning = false ∧ u.counter ≤ 1 := by
  unfold Engine.manageSteppers at h
  split at h
  · cases h
  · rename_i e1 hf
    cases h
    refine ⟨e1, hf, fun w hw k hk u hu hup => ?_⟩
    have h1 := (Engine.fillAll_spec a n ext env junk _ _ _ hf).1.sharing ht
    obtain ⟨i, hi, s, hs, hc, hr, hall, j, hj, t, htt, hst, htp, -⟩ :=
      (Engine.autoDisable_spec n ext _ e1 (fun i hi => List.mem_range.mp hi)).2 w hw
    have := hall k hk u hu (h1 i j k s t u hi hj hk hs htt hu hst ⟨w.1, htp, hup⟩)
    exact ⟨this.2, this.1⟩

/-- C21 also tells the level: each write of the auto disable part is the inactive level of a stepper's pin, and
some stepper with this or a shared pin has just run down. -/
theorem C21_levels (n : Nat) (ext : ExtPin) (e : Engine) (w : PinWrite)
    (hw : w ∈ (Engine.autoDisable n ext (List.range n) e).2) :
    ∃ j < n, ∃ t, e.stepper j = some t ∧ t.isRunning = false ∧ t.counter ≤ 1 ∧ UsesPin t w.1 ∧
      ((w.1 = t.enLow ∧ w.2 = true) ∨ (w.1 = t.enHigh ∧ w.2 = false)) := by
  obtain ⟨i, hi, s, hs, hc, hr, hall, j, hj, t, htt, hst, htp, hlv⟩ :=
    (Engine.autoDisable_spec n ext _ e (fun i hi => List.mem_range.mp hi)).2 w hw
  have := hall j hj t htt hst
  exact ⟨j, hj, t, htt, this.2, this.1, htp, hlv⟩

/-- Three steppers: 0 uses pin 10, 1 uses the pins 10 and 11, 2 uses pin 11 and is running. -/
def pinChainEngine : Engine where
  cnt := 3
  stepper := fun i =>
    let s := Stepper.init .esp32 (i + 1)
    match i with
    | 0 => some { s with autoEnable := true, enHigh := 10, counter := 1 }
    | 1 => some { s with autoEnable := true, enHigh := 10, enLow := 11 }
    | 2 => some { s with
        autoEnable := true, enLow := 11, counter := 1, hw := { s.hw with q := { s.hw.q with running := true } } }
    | _ => none

/-- C21 is false of the code in general: stepper 0 has run down and stepper 1, which shares pin 10 with it, agrees. So
`disableOutputs()` of stepper 1 is called, which drives also its pin 11 inactive: the enable pin of the running
stepper 2, which has not been asked. -/
theorem C21_chained_pins_refuted :
    ∃ e' ws, pinChainEngine.manageSteppers .esp32 3 none (fun _ => ⟨0, fun _ => none, fun _ _ => ⟨0, false⟩, fun _ => false⟩)
      ⟨⟨0,0,true⟩,⟨⟨.idle,.none⟩,0,0,0⟩⟩ = some (e', ws) ∧ (11, true) ∈ ws ∧
      ∃ s, pinChainEngine.stepper 2 = some s ∧ s.isRunning = true ∧ s.enLow = 11 ∧ s.autoEnable = true := by
  refine ⟨_, [(10, false), (11, true), (10, false)], rfl, by decide, _, rfl, by decide, rfl, rfl⟩

/-- The hypotheses of C21 are met by a non-trivial case: two steppers share pin 10, both have run down. -/
def sharedPinEngine (counter : Nat) : Engine where
  cnt := 2
  stepper := fun i =>
    let s := Stepper.init .esp32 (i + 1)
    match i with
    | 0 => some { s with autoEnable := true, enHigh := 10, counter := 1 }
    | 1 => some { s with autoEnable := true, enHigh := 10, counter := counter }
    | _ => none

example : ((sharedPinEngine 1).manageSteppers .esp32 2 none
    (fun _ => ⟨0, fun _ => none, fun _ _ => ⟨0, false⟩, fun _ => false⟩)
    ⟨⟨0,0,true⟩,⟨⟨.idle,.none⟩,0,0,0⟩⟩).map (·.2) = some [(10, false), (10, false)] := by rfl

example : ((sharedPinEngine 2).manageSteppers .esp32 2 none
    (fun _ => ⟨0, fun _ => none, fun _ _ => ⟨0, false⟩, fun _ => false⟩)
    ⟨⟨0,0,true⟩,⟨⟨.idle,.none⟩,0,0,0⟩⟩).map (·.2) = some [] := by rfl

example (c : Nat) : SharingTransitive 2 (sharedPinEngine c) := by
  intro i j k s t u hi hj hk hs ht hu h1 h2
  have : ∀ i < 2, ∀ s, (sharedPinEngine c).stepper i = some s → s.enHigh = 10 ∧ s.enLow = pinUndefined := by
    intro i hi s hs
    have : i = 0 ∨ i = 1 := by omega
    rcases this with rfl | rfl <;> cases hs <;> exact ⟨rfl, rfl⟩
  exact ⟨10, ⟨by decide, Or.inl (this i hi s hs).1.symm⟩, ⟨by decide, Or.inl (this k hk u hu).1.symm⟩⟩

/-! ## C22 -/

/-- C22, one cycle: a stopped stepper whose enable pins are used by nobody else. Its counter is decremented down to
1; at 1 its pins are driven inactive and the counter becomes 0 if the pins confirm. In all other cycles none of its
pins is touched. -/
theorem C22_cycle (a : ArchId) (n : Nat) (ext : ExtPin) (env : Nat → Stepper.Env) (junk : NextCommand)
    (e e' : Engine) (ws : List PinWrite) (h : e.manageSteppers a n ext env junk = some (e', ws))
    (i : Nat) (s : Stepper) (hi : i < n) (hs : e.stepper i = some s) (hr : s.isRunning = false)
    (hn : ∀ j < n, j ≠ i → ∀ t, e.stepper j = some t → ¬SharePin s t)
    (hp : UsesPin s s.enHigh ∨ UsesPin s s.enLow) :
    ∃ s', e'.stepper i = some s' ∧ s'.isRunning = false ∧ s'.enHigh = s.enHigh ∧ s'.enLow = s.enLow ∧
      (s.counter ≠ 1 → s'.counter = (if s.counter = 0 then 0 else s.counter - 1) ∧ ∀ w ∈ ws, ¬UsesPin s w.1) ∧
      (s.counter = 1 →
        s'.counter = (if (Stepper.driveEnablePin ext s.enLow true).1 ∧ (Stepper.driveEnablePin ext s.enHigh false).1
          then 0 else 1) ∧
        ∀ w ∈ (Stepper.driveEnablePin ext s.enLow true).2 ++ (Stepper.driveEnablePin ext s.enHigh false).2,
          w ∈ ws) := by
  unfold Engine.manageSteppers at h
  split at h
  · cases h
  · rename_i e1 hf
    cases h
    obtain ⟨hsc, hrun⟩ := Engine.fillAll_spec a n ext env junk _ _ _ hf
    obtain ⟨s1, hs1, hc1, hr1⟩ := hrun i s hs hr
    have hcfg : s1.enHigh = s.enHigh ∧ s1.enLow = s.enLow := by
      rcases hsc i with ⟨h0, -⟩ | ⟨x, y, hx, hy, hxy⟩
      · rw [hs] at h0; cases h0
      · rw [hs] at hx; cases hx
        rw [hs1] at hy; cases hy
        exact ⟨hxy.high, hxy.low⟩
    have hn1 : e1.NoShare n i s1 := by
      intro j hj hji t ht hsh
      rcases hsc j with ⟨-, h0⟩ | ⟨x, y, hx, hy, hxy⟩
      · rw [ht] at h0; cases h0
      · rw [ht] at hy; cases hy
        exact hn j hj hji x hx (SharePin.congr hcfg.1.symm hcfg.2.symm hxy.high.symm hxy.low.symm hsh)
    have hp1 : UsesPin s1 s1.enHigh ∨ UsesPin s1 s1.enLow := by
      unfold UsesPin at hp ⊢
      rw [hcfg.1, hcfg.2]
      exact hp
    have hsing := Engine.autoDisable_single n ext e1 i s1 hi hs1 hn1 hr1 hp1
    have hget : ∀ t, (Engine.autoDisable n ext (List.range n) e1).1.stepper i = some t →
        ((Engine.autoDisable n ext (List.range n) e1).1.updateCounters).stepper i = some t.updateAutoDisable := by
      intro t ht
      unfold Engine.updateCounters
      simp [ht]
    by_cases hc : s.counter = 1
    · have h2 := hsing.2 (hc1.trans hc)
      have hdis : s1.disableOutputs ext =
          ((if (Stepper.driveEnablePin ext s.enLow true).1 && (Stepper.driveEnablePin ext s.enHigh false).1
              then { s1 with counter := 0 } else s1),
            (Stepper.driveEnablePin ext s.enLow true).1 && (Stepper.driveEnablePin ext s.enHigh false).1,
            (Stepper.driveEnablePin ext s.enLow true).2 ++ (Stepper.driveEnablePin ext s.enHigh false).2) := by
        unfold Stepper.disableOutputs
        rw [hr1, hcfg.1, hcfg.2]
        rfl
      rw [hdis] at h2
      refine ⟨_, hget _ h2.1, ?_, ?_, ?_, fun h => absurd hc h, fun _ => ⟨?_, h2.2⟩⟩
      · dsimp only
        split <;> (unfold Stepper.updateAutoDisable; split <;> exact hr1)
      · dsimp only
        split <;> (unfold Stepper.updateAutoDisable; split <;> exact hcfg.1)
      · dsimp only
        split <;> (unfold Stepper.updateAutoDisable; split <;> exact hcfg.2)
      · dsimp only
        cases (Stepper.driveEnablePin ext s.enLow true).1 <;>
          cases (Stepper.driveEnablePin ext s.enHigh false).1 <;>
          simp [Stepper.updateAutoDisable, hc1, hc]
    · have h2 := hsing.1 (by rw [hc1]; exact hc)
      refine ⟨_, hget _ h2, ?_, ?_, ?_, fun _ => ⟨?_, ?_⟩, fun h => absurd h hc⟩
      · unfold Stepper.updateAutoDisable; split <;> exact hr1
      · unfold Stepper.updateAutoDisable; split <;> exact hcfg.1
      · unfold Stepper.updateAutoDisable; split <;> exact hcfg.2
      · unfold Stepper.updateAutoDisable
        rw [hr1]
        by_cases h3 : s1.counter > 1
        · rw [if_pos ⟨h3, rfl⟩, if_neg (by omega)]
          change s1.counter - 1 = _
          rw [hc1]
        · rw [if_neg (fun h => h3 h.1), hc1, if_pos (by omega)]
          omega
      · intro w hw hup
        obtain ⟨i0, hi0, s0, hs0, hc0, -, -, j, hj, t, htt, hst, htp, -⟩ :=
          (Engine.autoDisable_spec n ext _ e1 (fun i hi => List.mem_range.mp hi)).2 w hw
        have hup1 : UsesPin s1 w.1 := by
          unfold UsesPin at hup ⊢
          rw [hcfg.1, hcfg.2]
          exact hup
        by_cases hji : j = i
        · subst hji
          rw [hs1] at htt; cases htt
          by_cases hii : i0 = j
          · subst hii
            rw [hs1] at hs0; cases hs0
            omega
          · exact hn1 i0 hi0 hii s0 hs0 (SharePin.symm hst)
        · exact hn1 j hj hji t htt ⟨w.1, hup1, htp⟩

theorem Stepper.Call.autoEnable_notOk (a : ArchId) (ext : ExtPin) (gaps : Nat → Gap) (k : Stepper.Call) (c : Cmd) (st : Bool)
    (x : Int) (h : (k.autoEnable a ext gaps c st).2 = some x) : x ≠ AQE_OK := by
  unfold Stepper.Call.autoEnable at h
  dsimp only at h
  repeat' split at h
  all_goals first
    | (cases h; decide)
    | (cases h; assumption)
    | cases h

theorem Stepper.Call.dirChange_notOk (a : ArchId) (gaps : Nat → Gap) (k : Stepper.Call) (c : Cmd) (st : Bool)
    (x : Int) (h : (k.dirChange a gaps c st).2 = some x) : x ≠ AQE_OK := by
  unfold Stepper.Call.dirChange at h
  dsimp only at h
  repeat' split at h
  all_goals first
    | (cases h; decide)
    | (cases h; assumption)
    | cases h

/-- C22, the start value: each accepted command of a stepper in auto enable mode sets the off-delay counter to the
configured `off_delay_count`; in all other cases the counter is left as it is. -/
theorem C22_armed (a : ArchId) (ext : ExtPin) (gaps : Nat → Gap) (busy : Bool) (s : Stepper) (c : Cmd) (st : Bool) :
    let r := s.addQueueEntry a ext gaps busy c st
    r.1.s.counter = if s.autoEnable ∧ r.2 = AQE_OK then s.offDelayCount else s.counter := by
  let P : Stepper.Call × Int → Prop := fun r =>
    r.1.s.counter = if s.autoEnable ∧ r.2 = AQE_OK then s.offDelayCount else s.counter
  have key : ∀ (k : Stepper.Call) (x : Int), x ≠ AQE_OK → k.s.counter = s.counter → P (k, x) := by
    intro k x hx hc
    simp only [P]
    rw [if_neg (fun h => hx h.2)]
    exact hc
  change P (s.addQueueEntry a ext gaps busy c st)
  unfold Stepper.addQueueEntry
  dsimp only
  split
  · exact key _ _ (by decide) rfl
  split
  · exact key _ _ (by decide) rfl
  split
  · exact key _ _ (by decide) rfl
  have h1 := Stepper.autoEnable_frame a ext gaps ⟨s, 0, [], []⟩ c st
  have h1' := Stepper.Call.autoEnable_notOk a ext gaps ⟨s, 0, [], []⟩ c st
  split
  · rename_i k code heq
    rw [heq] at h1 h1'
    exact key _ _ (h1' code rfl) h1.2
  · rename_i k heq
    rw [heq] at h1
    have h2 := Stepper.dirChange_frame a gaps k c st
    have h2' := Stepper.Call.dirChange_notOk a gaps k c st
    split
    · rename_i k2 code heq2
      rw [heq2] at h2 h2'
      exact key _ _ (h2' code rfl) (h2.2.2.trans h1.2)
    · rename_i k2 heq2
      rw [heq2] at h2
      have hf := h1.1.trans h2.1
      have h3 := Stepper.Call.add_spec a gaps k2 c st
      have ha : (Stepper.Call.add a gaps k2 c st).1.s.autoEnable = s.autoEnable := h3.1.auto.trans hf.auto
      have ho : (Stepper.Call.add a gaps k2 c st).1.s.offDelayCount = s.offDelayCount := h3.1.off.trans hf.off
      have hc : (Stepper.Call.add a gaps k2 c st).1.s.counter = s.counter := h3.2.2.1.trans (h2.2.2.trans h1.2)
      unfold Stepper.Call.final
      dsimp only
      by_cases hh : s.autoEnable = true ∧ (Stepper.Call.add a gaps k2 c st).2 = AQE_OK
      · rw [if_pos (by rw [ha]; exact hh)]
        simp only [P]
        rw [if_pos hh]
        exact ho
      · rw [if_neg (by rw [ha]; exact hh)]
        simp only [P]
        rw [if_neg hh]
        exact hc

example : (({ Stepper.init .esp32 1 with autoEnable := true, offDelayCount := 3 } : Stepper).addQueueEntry .esp32 none
    (fun _ => ⟨0, false⟩) false ⟨20000, 10, true⟩ true).1.s.counter = 3 := by decide +kernel

/-- C22: a stepper has stopped with off-delay counter `N` (`off_delay_count`, see
`C22_armed`) and gets no new command, and nobody else uses its enable pins, which follow their drive level
(always, if internal). Then the first `N-1` cycles of the task do not touch its pins, cycle number `N` (index `N-1`)
drives all its pins to the inactive level, and afterwards they are not touched. -/
theorem C22_auto_disable (a : ArchId) (n i : Nat) (ext : Nat → ExtPin) (E E' : Nat → Engine)
    (W : Nat → List PinWrite) (hE : CyclesOf a n i ext E E' W) (s : Stepper) (N : Nat) (hN : 1 ≤ N)
    (hi : i < n) (hs : (E 0).stepper i = some s) (hr : s.isRunning = false) (hc : s.counter = N)
    (hn : ∀ k, ∀ j < n, j ≠ i → ∀ t, (E k).stepper j = some t → ¬SharePin s t)
    (hp : UsesPin s s.enHigh ∨ UsesPin s s.enLow)
    (hok : ∀ k, (Stepper.driveEnablePin (ext k) s.enLow true).1 = true ∧
      (Stepper.driveEnablePin (ext k) s.enHigh false).1 = true) :
    (∀ k, k + 1 ≠ N → ∀ w ∈ W k, ¬UsesPin s w.1) ∧
    (∀ w ∈ (Stepper.driveEnablePin (ext (N - 1)) s.enLow true).2 ++
        (Stepper.driveEnablePin (ext (N - 1)) s.enHigh false).2, w ∈ W (N - 1)) := by
  have key : ∀ k, ∃ t, (E k).stepper i = some t ∧ t.isRunning = false ∧ t.enHigh = s.enHigh ∧ t.enLow = s.enLow ∧
      t.counter = N - k := by
    intro k
    induction k with
    | zero => exact ⟨s, hs, hr, rfl, rfl, by omega⟩
    | succ k ih =>
      obtain ⟨t, ht, htr, hth, htl, htc⟩ := ih
      obtain ⟨⟨env, junk, hm⟩, hnext⟩ := hE k
      obtain ⟨t', ht', h1, h2, h3, h4, h5⟩ := C22_cycle a n (ext k) env junk _ _ _ hm i t hi ht htr
        (fun j hj hji u hu hsh => hn k j hj hji u hu (SharePin.congr hth.symm htl.symm rfl rfl hsh))
        (by unfold UsesPin at hp ⊢; rw [hth, htl]; exact hp)
      refine ⟨t', by rw [hnext]; exact ht', h1, h2.trans hth, h3.trans htl, ?_⟩
      by_cases hc1 : t.counter = 1
      · have := (h5 hc1).1
        rw [hth, htl, (hok k).1, (hok k).2] at this
        simp at this
        omega
      · have := (h4 hc1).1
        split at this <;> omega
  have one : ∀ k, (k + 1 ≠ N → ∀ w ∈ W k, ¬UsesPin s w.1) ∧ (k + 1 = N →
      ∀ w ∈ (Stepper.driveEnablePin (ext k) s.enLow true).2 ++ (Stepper.driveEnablePin (ext k) s.enHigh false).2,
        w ∈ W k) := by
    intro k
    obtain ⟨t, ht, htr, hth, htl, htc⟩ := key k
    obtain ⟨⟨env, junk, hm⟩, -⟩ := hE k
    obtain ⟨t', ht', h1, h2, h3, h4, h5⟩ := C22_cycle a n (ext k) env junk _ _ _ hm i t hi ht htr
      (fun j hj hji u hu hsh => hn k j hj hji u hu (SharePin.congr hth.symm htl.symm rfl rfl hsh))
      (by unfold UsesPin at hp ⊢; rw [hth, htl]; exact hp)
    constructor
    · intro hk w hw hup
      exact (h4 (by omega)).2 w hw (by unfold UsesPin at hup ⊢; rw [hth, htl]; exact hup)
    · intro hk
      have := (h5 (by omega)).2
      rw [hth, htl] at this
      exact this
  exact ⟨fun k => (one k).1, (one (N - 1)).2 (by omega)⟩

/-- An internal pin follows its level, and driving it is a write. -/
example (ext : ExtPin) : Stepper.driveEnablePin ext 10 true = (true, [(10, true)]) := by
  cases ext <;> rfl

/-- The hypotheses of C22 are met by a stepper with off-delay counter 3: pins written in the cycles 0 to 4. -/
def cycleEngine : Nat → Engine
  | 0 =>
    { cnt := 1
      stepper := fun i =>
        if i = 0 then some { Stepper.init .esp32 1 with autoEnable := true, enHigh := 10, counter := 3 } else none }
  | k + 1 =>
    (((cycleEngine k).manageSteppers .esp32 1 none
      (fun _ => ⟨0, fun _ => none, fun _ _ => ⟨0, false⟩, fun _ => false⟩)
      ⟨⟨0,0,true⟩,⟨⟨.idle,.none⟩,0,0,0⟩⟩).map (·.1)).getD Engine.init

example : (List.range 5).map (fun k => ((cycleEngine k).manageSteppers .esp32 1 none
    (fun _ => ⟨0, fun _ => none, fun _ _ => ⟨0, false⟩, fun _ => false⟩)
    ⟨⟨0,0,true⟩,⟨⟨.idle,.none⟩,0,0,0⟩⟩).map (·.2)) =
    [some [], some [], some [(10, false)], some [], some []] := by decide +kernel

/-! ## C24 -/

theorem Engine.isDirPinBusy_iff (n : Nat) (e : Engine) (p i : Nat) :
    e.isDirPinBusy n p i = true ↔
      ∃ j < n, j ≠ i ∧ ∃ t, e.stepper j = some t ∧ t.dirPin = p ∧ t.isQueueRunning = true := by
  unfold Engine.isDirPinBusy
  rw [List.any_eq_true]
  constructor
  · rintro ⟨j, hj, h⟩
    cases ht : e.stepper j with
    | none => simp [ht] at h
    | some t =>
      simp only [ht, Bool.and_eq_true, bne_iff_ne, ne_eq, beq_iff_eq] at h
      exact ⟨j, List.mem_range.mp hj, h.1, t, ht, h.2.1, h.2.2⟩
  · rintro ⟨j, hj, hji, t, ht, hp, hr⟩
    refine ⟨j, List.mem_range.mpr hj, ?_⟩
    simp [ht, hji, hp, hr]

/-- C24: while another stepper with the same direction pin is running, a stopped stepper can not enqueue anything:
the call is rejected and nothing changes. -/
theorem C24_busy_pin_rejects (a : ArchId) (n : Nat) (ext : ExtPin) (gaps : Nat → Gap) (e : Engine) (i j : Nat)
    (s t : Stepper) (c : Cmd) (start : Bool) (hs : e.stepper i = some s) (ht : e.stepper j = some t) (hj : j < n)
    (hji : j ≠ i) (hp : s.dirPin ≠ pinUndefined) (hpt : t.dirPin = s.dirPin) (hrt : t.isQueueRunning = true)
    (hrs : s.isQueueRunning = false) :
    let r := e.addQueueEntry a n ext gaps i c start
    r.1.stepper = e.stepper ∧ r.1.cnt = e.cnt ∧
    r.2 = if c.ticks < s.getMaxSpeedInTicks then AQE_ERROR_TICKS_TOO_LOW else AQE_DIR_PIN_IS_BUSY := by
  intro r
  have hb : e.isDirPinBusy n s.dirPin i = true :=
    (e.isDirPinBusy_iff n _ i).mpr ⟨j, hj, hji, t, ht, hpt, hrt⟩
  have hset : (e.set i s).stepper = e.stepper := by
    funext k
    unfold Engine.set
    by_cases hk : k = i
    · simp [hk, hs]
    · simp [hk]
  simp only [r, Engine.addQueueEntry, hs, hb]
  unfold Stepper.addQueueEntry Stepper.getMaxSpeedInTicks
  dsimp only
  by_cases hl : c.ticks < s.hw.q.maxSpeedInTicks
  · rw [if_pos hl, if_pos hl]; exact ⟨hset, rfl, rfl⟩
  · have hc : s.dirPin ≠ pinUndefined ∧ (!s.isQueueRunning) = true ∧ true = true := ⟨hp, by simp [hrs], rfl⟩
    rw [if_neg hl, if_neg hl, if_pos hc]
    exact ⟨hset, rfl, rfl⟩

/-- Changing one stepper keeps exclusivity, if afterwards it only runs if it did before or nobody else runs. -/
theorem DirPinExclusive.set {n : Nat} {e : Engine} (h : DirPinExclusive n e) (i : Nat) (s s' : Stepper)
    (hs : e.stepper i = some s) (hp : s'.dirPin = s.dirPin)
    (hr : s'.isQueueRunning = true → s.isQueueRunning = true ∨ s.dirPin = pinUndefined ∨
      e.isDirPinBusy n s.dirPin i = false) : DirPinExclusive n (e.set i s') := by
  have hget : ∀ k t, (e.set i s').stepper k = some t → (k = i ∧ t = s') ∨ (k ≠ i ∧ e.stepper k = some t) := by
    intro k t hk
    unfold Engine.set at hk
    dsimp only at hk
    split at hk
    · rename_i h1; cases hk; exact Or.inl ⟨h1, rfl⟩
    · rename_i h1; exact Or.inr ⟨h1, hk⟩
  have main : ∀ j t, j < n → i < n → j ≠ i → e.stepper j = some t → s.dirPin ≠ pinUndefined → t.dirPin = s.dirPin →
      s'.isQueueRunning = true → t.isQueueRunning = true → False := by
    intro j t hj hi hji ht hne hpt h1 h2
    rcases hr h1 with h3 | h3 | h3
    · exact h i j s t hi hj (Ne.symm hji) hs ht hne hpt.symm ⟨h3, h2⟩
    · exact hne h3
    · have : e.isDirPinBusy n s.dirPin i = true := (e.isDirPinBusy_iff n _ i).mpr ⟨j, hj, hji, t, ht, hpt, h2⟩
      rw [h3] at this; cases this
  intro j k t u hj hk hjk ht hu hne hpp hrun
  rcases hget j t ht with ⟨h1, h2⟩ | ⟨h1, h2⟩ <;> rcases hget k u hu with ⟨h3, h4⟩ | ⟨h3, h4⟩
  · omega
  · subst h1; subst h2
    exact main k u hk hj h3 h4 (by rw [← hp]; exact hne) (by rw [← hp]; exact hpp.symm) hrun.1 hrun.2
  · subst h3; subst h4
    exact main j t hj hk h1 h2 (by rw [← hp, ← hpp]; exact hne) (by rw [← hp]; exact hpp) hrun.2 hrun.1
  · exact h j k t u hj hk hjk h2 h4 hne hpp hrun

theorem Stepper.addQueueEntry_running (a : ArchId) (ext : ExtPin) (gaps : Nat → Gap) (busy : Bool) (s : Stepper)
    (c : Cmd) (st : Bool) (h : (s.addQueueEntry a ext gaps busy c st).1.s.isQueueRunning = true) :
    s.isQueueRunning = true ∨ s.dirPin = pinUndefined ∨ busy = false := by
  cases hr : s.isQueueRunning
  · by_cases hp : s.dirPin = pinUndefined
    · exact Or.inr (Or.inl hp)
    · cases hb : busy
      · exact Or.inr (Or.inr rfl)
      · exfalso
        subst hb
        unfold Stepper.addQueueEntry at h
        dsimp only at h
        split at h
        · rw [hr] at h; cases h
        · have hc : s.dirPin ≠ pinUndefined ∧ (!s.isQueueRunning) = true ∧ true = true := ⟨hp, by simp [hr], rfl⟩
          rw [if_pos hc] at h
          rw [hr] at h; cases h
  · exact Or.inl rfl

/-- C24 for all histories which do not start a blocked queue directly: two queues sharing a direction pin never run at
the same time. Missing for the full claim: `addQueueEntry(NULL, true)` (or the service by the task) for a stopped stepper
with queued but not started commands, see `C24_null_start_refuted`. -/
theorem C24_exclusive_partial (a : ArchId) (n : Nat) (e e' : Engine)
    (h0 : DirPinExclusive n e) (h : ShareHist a n e e') : DirPinExclusive n e' := by
  induction h with
  | nil => exact h0
  | step op hh hg hst ih =>
    rename_i e1 e2
    have ih := ih
    cases op with
    | add i ext gaps c start =>
      simp only [shareStep, Option.some.injEq] at hst
      rw [← hst]
      unfold Engine.addQueueEntry
      cases hs : e1.stepper i with
      | none => exact ih
      | some s =>
        exact DirPinExclusive.set ih i s _ hs (Stepper.addQueueEntry_frame a ext gaps _ s c start).pin
          (Stepper.addQueueEntry_running a ext gaps _ s c start)
    | startNull i =>
      simp only [shareStep] at hst
      cases hs : e1.stepper i with
      | none => rw [hs] at hst; cases hst; exact ih
      | some s =>
        rw [hs] at hst
        cases hst
        refine DirPinExclusive.set ih i s _ hs (Stepper.startQueue_sameConfig s true).pin (fun h => ?_)
        cases hr : s.isQueueRunning
        · by_cases hp : s.dirPin = pinUndefined
          · exact Or.inr (Or.inl hp)
          · cases hb : e1.isDirPinBusy n s.dirPin i
            · exact Or.inr (Or.inr rfl)
            · exfalso
              by_cases he : s.hw.q.nextWriteIdx = s.hw.q.readIdx
              · revert h
                unfold Stepper.startQueue Queue.addNull Stepper.isQueueRunning at *
                simp only [hr, he]
                cases s.hw.q.ready <;> simp [hr]
              · exact hg ⟨s, hs, hr, he, hp, (e1.isDirPinBusy_iff n _ i).mp hb⟩
        · exact Or.inl rfl
    | fill i ext env junk =>
      simp only [shareStep, Engine.fillOne] at hst
      cases hs : e1.stepper i with
      | none => rw [hs] at hst; cases hst; exact ih
      | some s =>
        rw [hs] at hst
        dsimp only at hst
        obtain ⟨c1, -, -, -, c5, c6, c7⟩ :
            Stepper.SameConfig s (if a.externalDir then Engine.extDirPoll a ext s else (s, true)).1 ∧
            (if a.externalDir then Engine.extDirPoll a ext s else (s, true)).1.isRunning = s.isRunning ∧
            (if a.externalDir then Engine.extDirPoll a ext s else (s, true)).1.counter = s.counter ∧
            (if a.externalDir then Engine.extDirPoll a ext s else (s, true)).1.rg = s.rg ∧
            (if a.externalDir then Engine.extDirPoll a ext s else (s, true)).1.hw.q.running = s.hw.q.running ∧
            (if a.externalDir then Engine.extDirPoll a ext s else (s, true)).1.hw.q.nextWriteIdx =
              s.hw.q.nextWriteIdx ∧
            (if a.externalDir then Engine.extDirPoll a ext s else (s, true)).1.hw.q.readIdx = s.hw.q.readIdx := by
          split
          · exact extDirPoll_spec a ext s
          · exact ⟨Stepper.SameConfig.refl s, rfl, rfl, rfl, rfl, rfl, rfl⟩
        revert hst c1 c5 c6 c7
        generalize (if a.externalDir then Engine.extDirPoll a ext s else (s, true)) = r
        intro hst c1 c5 c6 c7
        split at hst
        · split at hst
          · cases hst
          · rename_i s' acc hfq
            cases hst
            refine DirPinExclusive.set ih i s s' hs ((Stepper.fillQueue_sameConfig a _ junk _ _ _ hfq).pin.trans c1.pin) (fun h => ?_)
            cases hr : s.isQueueRunning
            · by_cases hp : s.dirPin = pinUndefined
              · exact Or.inr (Or.inl hp)
              · cases hb : e1.isDirPinBusy n s.dirPin i
                · exact Or.inr (Or.inr rfl)
                · exfalso
                  by_cases he : s.hw.q.nextWriteIdx = s.hw.q.readIdx
                  · have := (Stepper.fillQueue_busy a _ junk _ _ _ (fun _ => hb) (c5.trans hr)
                      (by have := c1.pin; unfold Stepper.dirPin at this hp ⊢; rw [this]; exact hp)
                      (by rw [c6, c7]; exact he) hfq).1
                    unfold Stepper.isQueueRunning at h
                    rw [this] at h; cases h
                  · exact hg ⟨s, hs, hr, he, hp, (e1.isDirPinBusy_iff n _ i).mp hb⟩
            · exact Or.inl rfl
        · cases hst
          refine DirPinExclusive.set ih i s r.1 hs c1.pin (fun h => Or.inl ?_)
          unfold Stepper.isQueueRunning at h ⊢
          rw [← c5]; exact h
    | other i s' =>
      simp only [shareStep] at hst
      cases hs : e1.stepper i with
      | none => rw [hs] at hst; cases hst; exact ih
      | some s =>
        rw [hs] at hst
        dsimp only at hst
        split at hst
        · rename_i hh
          cases hst
          exact DirPinExclusive.set ih i s s' hs hh.1 (fun h => Or.inl (hh.2 h))
        · cases hst; exact ih

/-- Two steppers with direction pin 7 on an AVR. -/
def sharedDirEngine : Engine where
  cnt := 2
  stepper := fun i =>
    if i < 2 then some ((Stepper.init .avr2560 (i + 1)).setDirectionPin .avr2560 none 7 true 0).1 else none

/-- C24 is false of the code in general: both steppers get a command with `start = false` and are then started with
`addQueueEntry(NULL, true)`, which does not look at the other users of the pin. -/
theorem C24_null_start_refuted :
    ∃ e, (([.add 0 none (fun _ => ⟨0, false⟩) ⟨20000, 10, true⟩ false,
            .add 1 none (fun _ => ⟨0, false⟩) ⟨20000, 10, false⟩ false, .startNull 0, .startNull 1] : List ShareOp).foldlM
        (shareStep .avr2560 2) sharedDirEngine) = some e ∧ ¬DirPinExclusive 2 e := by
  refine ⟨_, rfl, fun h => ?_⟩
  exact h 0 1 _ _ (by decide) (by decide) (by decide) rfl rfl (by decide) (by decide) ⟨by decide, by decide⟩

/-- Non-vacuity: stepper 0 is started, then stepper 1 is rejected while stepper 0 runs. -/
example : DirPinExclusive 2 sharedDirEngine ∧
    let e := (sharedDirEngine.addQueueEntry .avr2560 2 none (fun _ => ⟨0, false⟩) 0 ⟨20000, 10, true⟩ true).1
    (e.stepper 0).map (·.isQueueRunning) = some true ∧
    (e.addQueueEntry .avr2560 2 none (fun _ => ⟨0, false⟩) 1 ⟨20000, 10, false⟩ true).2 = AQE_DIR_PIN_IS_BUSY ∧
    ShareHist .avr2560 2 sharedDirEngine
      (e.addQueueEntry .avr2560 2 none (fun _ => ⟨0, false⟩) 1 ⟨20000, 10, false⟩ true).1 := by
  refine ⟨?_, by decide, by decide, ?_⟩
  · intro j k t u hj hk hjk ht hu _ _ hr
    have h1 : ∀ j < 2, ∀ t, sharedDirEngine.stepper j = some t → t.isQueueRunning = false := by
      intro j hj t ht
      have : j = 0 ∨ j = 1 := by omega
      rcases this with rfl | rfl <;> cases ht <;> rfl
    rw [h1 j hj t ht] at hr
    cases hr.1
  · exact .step (.add 1 none (fun _ => ⟨0, false⟩) ⟨20000, 10, false⟩ true)
      (.step (.add 0 none (fun _ => ⟨0, false⟩) ⟨20000, 10, true⟩ true) (.nil _) trivial rfl) trivial rfl

end FAS
