import Verif.Lemmas.RealEnd
import Verif.Props.Clock

/-! The move in real time: the invariant at the ends of the task cycles. -/

namespace FAS
open Spec Stepper

theorem shorts_sum (D : Nat) : ∀ cs : List Cmd, cs.length * D ≤ durationSum cs + shorts D cs * D
  | [] => by simp [durationSum, shorts]
  | c :: cs => by
    have h1 := shorts_sum D cs
    have h2 : shorts D (c :: cs) = shorts D [c] + shorts D cs := shorts_append D [c] cs
    have h3 : durationSum (c :: cs) = c.duration + durationSum cs := rfl
    rw [h2, h3, shorts_one, List.length_cons, Nat.succ_mul, Nat.add_mul]
    split <;> omega

theorem durationSum_sum : ∀ cs : List Cmd, durationSum cs = (cs.map Cmd.duration).sum
  | [] => rfl
  | c :: cs => by rw [durationSum, durationSum_sum cs]; rfl

theorem shorts_map (D : Nat) (cs : List Cmd) : shorts D cs = (cs.map Cmd.duration).countP (fun z => decide (z < D)) := by
  unfold shorts; rw [List.countP_map]; rfl

/-- The commands `Y` at the end of `Z`, without the last one, if at most `e` commands are short. -/
theorem suffix_reserve {D e : Nat} (Y Z : List Cmd) (hs : Y.map Cmd.duration <:+ Z.map Cmd.duration) (hne : Y ≠ []) (hD : shorts D Z ≤ e) :
    (Y.length - 1 - e) * D + (Z.map Cmd.duration).getLast?.getD 0 ≤ durationSum Y := by
  obtain ⟨X, y, rfl⟩ : ∃ X y, Y = X ++ [y] := ⟨Y.dropLast, Y.getLast hne, (List.dropLast_append_getLast hne).symm⟩
  obtain ⟨W, hW⟩ := hs
  have h1 : (Z.map Cmd.duration).getLast?.getD 0 = y.duration := by
    rw [← hW, List.map_append, ← List.append_assoc, List.map_singleton, List.getLast?_append]; rfl
  have h2 : shorts D X ≤ e := by
    refine Nat.le_trans ?_ hD
    rw [shorts_map, shorts_map, ← hW, List.map_append, List.countP_append, List.countP_append]
    omega
  have h4 := shorts_sum D X
  have h5 : durationSum (X ++ [y]) = durationSum X + y.duration := by
    rw [cmdDurationSum_append]; rfl
  rw [h1, h5, List.length_append, List.length_singleton, Nat.add_sub_cancel, Nat.sub_mul]
  have h7 : shorts D X * D ≤ e * D := Nat.mul_le_mul_right _ h2
  omega

theorem lastPeriod_le_duration (cs : List Cmd) : lastPeriod cs ≤ (cs.map Cmd.duration).getLast?.getD 0 := by
  unfold lastPeriod
  rw [List.getLast?_map, List.getLast?_map]
  cases cs.getLast? with
  | none => exact Nat.le_refl 0
  | some c =>
    change c.ticks ≤ c.ticks * max 1 c.steps
    exact Nat.le_mul_of_pos_right _ (by omega)

theorem lastPeriod_valid (cs : List Cmd) (h : ∀ c ∈ cs, c.Valid) : lastPeriod cs ≤ 65535 := by
  unfold lastPeriod
  rw [List.getLast?_map]
  cases hl : cs.getLast? with
  | none => exact Nat.zero_le _
  | some c =>
    have := (h c (List.mem_of_getLast? hl)).1
    change c.ticks ≤ 65535
    omega

/-- The assumptions on a stepper and its task. -/
structure Timely (a : ArchId) (tm : AvrTiming) (D e : Nat) (s0 : Stepper) : Prop where
  hist : RampHist a ApiCall.Typed s0
  enable : s0.autoEnable = false ∨ s0.onDelayTicks = 0
  period : speedPeriod s0.rg % 65536 ≠ 0
  valid : s0.rg.parameters.checkValidConfig = MOVE_OK
  cmds : ∀ k cs s, TaskHist a s0 k cs s → (∀ c ∈ cs, c.Valid) ∧ shorts D cs ≤ e
  plan : tm.cycle + tm.commit + tm.latency + 65535 < s0.forwardPlanning
  full : tm.cycle + tm.commit + tm.latency < (a.queueLen - 2 - e) * D

structure RealInv (a : ArchId) (tm : AvrTiming) (lvl : Bool → Bool) (base : Int) (s0 : Stepper) (τ now : Nat) (v : Avr) (h : AvrHist) (cmds : List Cmd) (s : Stepper) : Prop where
  inv : ∃ tc, AvrInv a lvl base v h now tc
  pc : v.pc = .idle
  hw : s.hw = ⟨v.q, 0⟩
  task : ∃ k, TaskHist a s0 k cmds s
  rhist : RampHist a ApiCall.Typed s
  period : speedPeriod s.rg % 65536 ≠ 0
  valid : s.rg.parameters.checkValidConfig = MOVE_OK
  fwd : s.forwardPlanning = s0.forwardPlanning
  pin : s.dirPin = s0.dirPin
  phase : (cmds = [] ∧ h = ⟨[], []⟩) ∨
    (cmds ≠ [] ∧ ∃ t0, h = ⟨[(t0, cmds)], []⟩ ∧ (s.rg.isActive = true → τ + tm.cycle + tm.commit < h.deadline))

theorem fillQueue_period {a : ArchId} {env : Env} {junk : NextCommand} {s s' : Stepper} {acc : List Cmd} (hr : InRange s.rg)
    (hj : junk.rw.performedRampUpSteps < 4294967296) (h : s.fillQueue a env junk = some (s', acc)) :
    speedPeriod s'.rg = speedPeriod s.rg ∧ (s.rg.parameters.checkValidConfig = MOVE_OK → s'.rg.parameters.checkValidConfig = MOVE_OK) := by
  have h0 : InRange s.rg ∧ speedPeriod s.rg = speedPeriod s.rg ∧ (s.rg.parameters.checkValidConfig = MOVE_OK → s.rg.parameters.checkValidConfig = MOVE_OK) := ⟨hr, rfl, id⟩
  refine (fillQueue_rg_induct (fun g => InRange g ∧ speedPeriod g = speedPeriod s.rg ∧
    (s.rg.parameters.checkValidConfig = MOVE_OK → g.parameters.checkValidConfig = MOVE_OK)) ?_ h0 hj h).2
  intro g g' qe junk c ⟨h1, h2, h3⟩ ha hv hj hs
  obtain ⟨q1, q2, q3, q4⟩ := InRange_serve h1 hj hs
  have hsp := speedPeriod_service h1 hs
  have hv2 : g'.parameters.checkValidConfig = MOVE_OK := by
    rw [service_params hs, Prepared.valid, hv]
  exact ⟨q1, ⟨q2, hsp.trans h2, fun _ => hv2⟩, ⟨q3, hsp.trans h2, fun _ => hv2⟩, ⟨q4, hsp.trans h2, fun _ => hv2⟩⟩

/-- Not running before the first start. -/
theorem AvrInv.stopped {a lvl base v w now tc} (h : AvrInv a lvl base v ⟨[], w⟩ now tc) : v.q.running = false := by
  obtain ⟨qs, h1, -⟩ := h
  cases hr : v.q.running with
  | false => rfl
  | true => obtain ⟨p, ps, hp⟩ := h1.ph hr; cases hp

/-- Nothing is queued. -/
theorem quiet_cycle {a lvl base} (hav : a.isAvr = true) (evs : List (Nat × Avr.Ev)) {v h now tc} (hI : AvrInv a lvl base v h now tc) (hpc : v.pc = .idle)
    (hc : Avr.Clocked a v now tc evs) (hevs : avrCalls evs = []) :
    (Avr.track a v h (evs.map Prod.snd)).2 = h ∧ (Avr.track a v h (evs.map Prod.snd)).1.pc = .idle ∧
    ∃ tc', AvrInv a lvl base (Avr.track a v h (evs.map Prod.snd)).1 (Avr.track a v h (evs.map Prod.snd)).2 (lastTime now evs) tc' := by
  have hno : ∀ e ∈ evs, e.2 ≠ .addCommit := by
    clear hI hc hpc
    induction evs with
    | nil => intro e he; cases he
    | cons x xs ih =>
      obtain ⟨t, ev⟩ := x
      cases ev with
      | compare =>
        intro e he
        rcases List.mem_cons.mp he with h1 | h1
        · rw [h1]; exact fun h => nomatch h
        · exact ih hevs e h1
      | _ => cases hevs
  exact running_cycle hav 0 evs (cs := []) hI hc (fun e he hx => absurd hx (hno e he)) (fun c hc => by cases hc)
    (by rw [hpc, hevs]; exact ToDo.idle []) (fun h => absurd rfl h) (fun h => by rw [hpc] at h; cases h)

/-- How far the queue reaches after a cycle. -/
theorem reserve_enough {a : ArchId} {tm : AvrTiming} {D e F : Nat} (hplan : tm.cycle + tm.commit + tm.latency + 65535 < F)
    (hfull : tm.cycle + tm.commit + tm.latency < (a.queueLen - 2 - e) * D) {s s1 : Stepper} {env : Env} {junk : NextCommand} {m : Nat}
    {cmds acc : List Cmd} {q : QSpec} (hr : RampHist a ApiCall.Typed s) (hp : speedPeriod s.rg % 65536 ≠ 0) (hv : s.rg.parameters.checkValidConfig = MOVE_OK)
    (hfw : s.forwardPlanning = F) (hpin : pinIsExternal s.dirPin = false) (hs : Sim a s.hw q) (hj : junk.rw.performedRampUpSteps < 4294967296)
    (hun : Unrefused a env s m) (hf : s.fillQueue a env junk = some (s1, acc)) (hact : s1.rg.isActive = true)
    (hall : (∀ c ∈ cmds ++ acc, c.Valid) ∧ shorts D (cmds ++ acc) ≤ e) (hsuf : q.pend.tail.map Cmd.duration <:+ cmds.map Cmd.duration) :
    tm.cycle + tm.commit + tm.latency + lastPeriod (cmds ++ acc) < durationSum q.pend.tail + durationSum acc := by
  rcases C82_supplied_partial a s s1 env junk acc q m hr hs hj hp hv hun hf with h1 | h1 | h1
  · change s1.rg.isActive = false at h1
    rw [h1] at hact; cases hact
  · have h2 : s1.hw.q.queueEntries = a.queueLen := by
      rcases h1 with h1 | ⟨h1, -⟩
      · exact h1
      · have h3 : s1.dirPin = s.dirPin := (fillQueue_sameConfig a env junk s s1 acc hf).pin
        rw [h3, hpin] at h1; cases h1
    have h3 := fillQueue_count a env junk s s1 acc hs.idx hf
    rw [h2, hs.length] at h3
    have hql : 16 ≤ a.queueLen := by cases a <;> decide
    have h4 : (q.pend.tail ++ acc).length ≥ a.queueLen - 1 := by
      rw [List.length_append, List.length_tail]; omega
    have hsuf2 : (q.pend.tail ++ acc).map Cmd.duration <:+ (cmds ++ acc).map Cmd.duration := by
      obtain ⟨W, hW⟩ := hsuf
      exact ⟨W, by rw [List.map_append, List.map_append, ← hW, List.append_assoc]⟩
    have h5 := suffix_reserve (D := D) _ _ hsuf2 (fun hx => by
        have := congrArg List.length hx
        simp only [List.length_nil] at this
        omega) hall.2
    rw [cmdDurationSum_append] at h5
    have h6 := lastPeriod_le_duration (cmds ++ acc)
    have h7 : (a.queueLen - 2 - e) * D ≤ ((q.pend.tail ++ acc).length - 1 - e) * D := Nat.mul_le_mul_right _ (by omega)
    omega
  · have h2 := lastPeriod_valid (cmds ++ acc) hall.1
    rw [hfw] at h1
    omega

theorem queued_single (t0 : Nat) : ∀ (acc cmds : List Cmd), (AvrHist.mk [(t0, cmds)] []).queued acc = ⟨[(t0, cmds ++ acc)], []⟩
  | [], cmds => by rw [List.append_nil]; rfl
  | c :: acc, cmds => by
    have := queued_single t0 acc (cmds ++ [c])
    rw [List.append_assoc] at this
    exact this

theorem remaining_le (q : QSpec) : durationSum q.pend.tail ≤ durationSum q.remaining := by
  unfold QSpec.remaining
  cases q.pend with
  | nil => exact Nat.le_refl _
  | cons c cs => simp only [durationSum, List.tail_cons]; omega

/-- What a task cycle keeps. -/
structure RealCore (a : ArchId) (tm : AvrTiming) (lvl : Bool → Bool) (base : Int) (F : Nat) (τ now : Nat) (v : Avr) (h : AvrHist) (cmds : List Cmd) (s : Stepper) : Prop where
  inv : ∃ tc, AvrInv a lvl base v h now tc
  pc : v.pc = .idle
  hw : s.hw = ⟨v.q, 0⟩
  rhist : RampHist a ApiCall.Typed s
  valid : s.rg.parameters.checkValidConfig = MOVE_OK
  fwd : s.forwardPlanning = F
  phase : (cmds = [] ∧ h = ⟨[], []⟩) ∨
    (cmds ≠ [] ∧ ∃ t0, h = ⟨[(t0, cmds)], []⟩ ∧ (s.rg.isActive = true → τ + tm.cycle + tm.commit < h.deadline))

theorem RealCore.step {a : ArchId} {tm : AvrTiming} {D e F : Nat} {lvl base} (hav : a.isAvr = true) (hplan : tm.cycle + tm.commit + tm.latency + 65535 < F)
    (hfull : tm.cycle + tm.commit + tm.latency < (a.queueLen - 2 - e) * D)
    {last now : Nat} {v : Avr} {h : AvrHist} {cmds : List Cmd} {s : Stepper} (hI : RealCore a tm lvl base F last now v h cmds s) (hext : pinIsExternal s.dirPin = false)
    (hper : s.rg.isActive = true → speedPeriod s.rg % 65536 ≠ 0)
    {τ : Nat} {env : Stepper.Env} {junk : NextCommand} {m : Nat} {evs : List (Nat × Avr.Ev)} {acc : List Cmd} {s1 s2 : Stepper}
    (h1 : now ≤ τ) (h2 : cmds ≠ [] → τ ≤ last + tm.cycle) (h3 : v.q.running = true → τ ≤ v.ocr + tm.latency)
    (h4 : junk.rw.performedRampUpSteps < 4294967296) (h5 : s.fillQueue a env junk = some (s1, acc)) (h6 : Unrefused a env s m)
    (h7 : Avr.Clocked a v τ τ evs) (h8 : avrCalls evs = taskCalls v.q.running acc) (h9 : ∀ e ∈ evs, e.2 = .addCommit → e.1 ≤ τ + tm.commit)
    (h10 : SameSettings s1 s2) (h12 : s2.hw = ⟨(Avr.track a v h (evs.map Prod.snd)).1.q, 0⟩)
    (hall : (∀ c ∈ cmds ++ acc, c.Valid) ∧ shorts D (cmds ++ acc) ≤ e) :
    RealCore a tm lvl base F τ (lastTime τ evs) (Avr.track a v h (evs.map Prod.snd)).1 (Avr.track a v h (evs.map Prod.snd)).2 (cmds ++ acc) s2 ∧ Elapses a s1 s2 := by
  obtain ⟨⟨tc, hinv⟩, hpc, hhw, hrh, hval, hfwd, hphase⟩ := hI
  have hperv := fillQueue_period (RampHist.inRange hrh) h4 h5
  have hcfg := fillQueue_sameConfig a env junk s s1 acc h5
  have hI2 : AvrInv a lvl base v h τ τ := hinv.anew hpc h1 τ
  have finish : (Avr.track a v h (evs.map Prod.snd)).1.pc = .idle →
      (∃ tc', AvrInv a lvl base (Avr.track a v h (evs.map Prod.snd)).1 (Avr.track a v h (evs.map Prod.snd)).2 (lastTime τ evs) tc') →
      ((cmds ++ acc = [] ∧ (Avr.track a v h (evs.map Prod.snd)).2 = ⟨[], []⟩) ∨
        (cmds ++ acc ≠ [] ∧ ∃ t0, (Avr.track a v h (evs.map Prod.snd)).2 = ⟨[(t0, cmds ++ acc)], []⟩ ∧
          (s2.rg.isActive = true → τ + tm.cycle + tm.commit < (Avr.track a v h (evs.map Prod.snd)).2.deadline))) →
      RealCore a tm lvl base F τ (lastTime τ evs) (Avr.track a v h (evs.map Prod.snd)).1 (Avr.track a v h (evs.map Prod.snd)).2 (cmds ++ acc) s2 ∧ Elapses a s1 s2 := by
    intro f1 f2 f3
    have hel : Elapses a s1 s2 := by
      obtain ⟨qs, hC, -⟩ := hI2
      obtain ⟨tc', qs', hC', -⟩ := f2
      obtain ⟨e1, e2⟩ := cycle_qend (h := h) (by rw [hhw]) h5 hpc hC.ready hC.ign h7 h8
      have hq : s2.hw.q = (Avr.track a v h (evs.map Prod.snd)).1.q := by rw [h12]
      have hv : s.hw.q = v.q := by rw [hhw]
      refine ⟨h10.ramp, by rw [hq, e2], ?_, ?_, ?_, h10.dirDelay, h10.autoEnable, h10.enableDelay, ?_, ?_, ?_⟩
      · rw [hq, e1.pin, hcfg.pin, hv]
      · rw [hq, e1.ready, hcfg.ready, hv]
      · rw [hq, e1.max, hcfg.max, hv]
      · rw [hq]; exact hC'.sim.idx.1
      · rw [hq]; exact hC'.sim.idx.2.1
      · rw [hq]; exact hC'.sim.idx.2.2
    exact ⟨⟨f2, f1, h12, .other (.task env junk acc hrh h4 h5) h10.ramp, by rw [h10.ramp]; exact hperv.2 hval,
      by rw [h10.planning, hcfg.fwd]; exact hfwd, f3⟩, hel⟩
  rcases hphase with ⟨hc0, hh0⟩ | ⟨hc0, t0, hh0, hdl⟩
  · subst hc0 hh0
    have hrun := hinv.stopped
    by_cases hacc : acc = []
    · subst hacc
      rw [hrun] at h8
      obtain ⟨g1, g2, g3⟩ := quiet_cycle hav evs hI2 hpc h7 h8
      exact finish g2 g3 (Or.inl ⟨rfl, g1⟩)
    · rw [hrun] at h8
      unfold taskCalls at h8
      rw [if_neg (by decide), if_neg hacc] at h8
      obtain ⟨t0, g0, g1, g2, g3⟩ := starting_cycle hav evs (w := []) (cs := acc) hI2 h7 (fun c hc => hall.1 c (by simpa using hc)) hrun (by simpa using hacc)
        (by rw [hpc, h8]; exact ToDo.idle acc)
      refine finish g2 g3 (Or.inr ⟨by simpa using hacc, t0, g1, fun hact => ?_⟩)
      obtain ⟨qs, hC, -⟩ := hinv
      have hpe : qs.pend = [] := by
        have := hC.wait
        rw [hrun] at this
        simpa using this.symm
      have hact0 : s.rg.isActive = true := by
        cases hx : s.rg.isActive with
        | true => rfl
        | false => rw [fillQueue_inactive a env junk s hx] at h5; cases h5; exact absurd rfl hacc
      have hres := reserve_enough (cmds := []) hplan hfull hrh (hper hact0) hval hfwd hext (by rw [hhw]; exact hC.sim) h4 h6 h5 (by rw [h10.ramp] at hact; exact hact) hall
        (by rw [hpe]; exact List.suffix_refl _)
      rw [g1, List.nil_append]
      rw [hpe, List.nil_append] at hres
      unfold AvrHist.deadline
      dsimp only
      simp only [List.tail_nil, durationSum] at hres
      omega
  · subst hh0
    by_cases hact0 : s.rg.isActive = true
    · have hdl := hdl hact0
      have hτ := h2 hc0
      have hde : t0 + durationSum cmds - lastPeriod cmds = (AvrHist.mk [(t0, cmds)] []).deadline := rfl
      have hee : (AvrHist.mk [(t0, cmds)] []).ends = t0 + durationSum cmds := rfl
      have hrun : v.q.running = true := by
        obtain ⟨qs, -, -, -, hL⟩ := hinv
        rcases hL.alive with h | h | h
        · exact h
        · cases h
        · rw [hee] at h
          omega
      rw [hrun] at h8
      unfold taskCalls at h8
      rw [if_pos rfl] at h8
      obtain ⟨g1, g2, g3⟩ := running_cycle hav (τ + tm.commit) evs (cs := acc) hI2 h7 h9 (fun c hc => hall.1 c (List.mem_append_right _ hc))
        (by rw [hpc, h8, ← List.append_nil (addCalls true acc)]; exact ToDo.idle acc) (fun _ => by omega) (fun hx => by rw [hpc] at hx; cases hx)
      have hq := queued_single t0 acc cmds
      rw [hq] at g1
      refine finish g2 g3 (Or.inr ⟨by simp [hc0], t0, g1, fun hact => ?_⟩)
      obtain ⟨qs, hC, hTm, -, hL⟩ := hinv
      have hsuf : qs.pend.tail.map Cmd.duration <:+ cmds.map Cmd.duration := by
        obtain ⟨t0', cs', ps', e1, e2⟩ := hL.suf hrun
        cases e1
        have hrel := hC.sim.rel
        dsimp only at hrel
        cases hpd : v.q.pending a with
        | nil =>
          rw [hpd] at hrel
          cases hpp : qs.pend with
          | nil => exact List.nil_suffix
          | cons c cs => rw [hpp] at hrel; exact hrel.elim
        | cons e es =>
          rw [hpd] at hrel e2
          cases hpp : qs.pend with
          | nil => rw [hpp] at hrel; exact hrel.elim
          | cons c cs =>
            rw [hpp] at hrel
            rw [List.tail_cons, ← rel_dur hav es cs _ hrel.2]
            exact e2
      have hres := reserve_enough hplan hfull hrh (hper hact0) hval hfwd hext (by rw [hhw]; exact hC.sim) h4 h6 h5 (by rw [h10.ramp] at hact; exact hact) hall hsuf
      obtain ⟨t0', cs', ps', e1, e2⟩ := hTm.dur hrun
      cases e1
      have h13 := h3 hrun
      have h14 := remaining_le qs
      rw [g1]
      unfold AvrHist.deadline
      dsimp only
      rw [cmdDurationSum_append]
      omega
    · have hin : s.rg.isActive = false := by simpa using hact0
      rw [fillQueue_inactive a env junk s hin] at h5
      cases h5
      have h8' : avrCalls evs = [] := by
        rw [h8]; unfold taskCalls; split <;> rfl
      obtain ⟨g1, g2, g3⟩ := quiet_cycle hav evs hI2 hpc h7 h8'
      refine finish g2 g3 (Or.inr ⟨by simpa using hc0, t0, by rw [g1, List.append_nil], fun hact => ?_⟩)
      rw [h10.ramp, hin] at hact
      cases hact

/-- A cycle which leaves the ramp active has queued commands. -/
theorem RealCore.first {a : ArchId} {tm : AvrTiming} {D e F : Nat} {lvl base} (hplan : tm.cycle + tm.commit + tm.latency + 65535 < F)
    (hfull : tm.cycle + tm.commit + tm.latency < (a.queueLen - 2 - e) * D)
    {last now : Nat} {v : Avr} {h : AvrHist} {s : Stepper} (hI : RealCore a tm lvl base F last now v h [] s) (hext : pinIsExternal s.dirPin = false)
    (hper : s.rg.isActive = true → speedPeriod s.rg % 65536 ≠ 0) {env : Stepper.Env} {junk : NextCommand} {m : Nat} {s1 : Stepper}
    (h4 : junk.rw.performedRampUpSteps < 4294967296) (h5 : s.fillQueue a env junk = some (s1, [])) (h6 : Unrefused a env s m) (hact : s1.rg.isActive = true) : False := by
  obtain ⟨⟨tc, hinv⟩, hpc, hhw, hrh, hval, hfwd, hphase⟩ := hI
  rcases hphase with ⟨-, hh⟩ | ⟨hx, -⟩
  · subst hh
    have hrun := hinv.stopped
    obtain ⟨qs, hC, -⟩ := hinv
    have hpe : qs.pend = [] := by
      have := hC.wait
      rw [hrun] at this
      simpa using this.symm
    have hact0 : s.rg.isActive = true := by
      cases hx : s.rg.isActive with
      | true => rfl
      | false => rw [fillQueue_inactive a env junk s hx] at h5; cases h5; rw [hx] at hact; exact hact
    have hres := reserve_enough (cmds := []) hplan hfull hrh (hper hact0) hval hfwd hext (by rw [hhw]; exact hC.sim) h4 h6 h5 hact
      ⟨fun c hc => (by cases hc), Nat.zero_le _⟩ (by rw [hpe]; exact List.suffix_refl _)
    rw [hpe] at hres
    simp [durationSum] at hres
  · exact absurd rfl hx

theorem RealInv.core {a tm lvl base s0 τ now v h cmds s} (hI : RealInv a tm lvl base s0 τ now v h cmds s) : RealCore a tm lvl base s0.forwardPlanning τ now v h cmds s :=
  ⟨hI.inv, hI.pc, hI.hw, hI.rhist, hI.valid, hI.fwd, hI.phase⟩

theorem RealInv.step {a : ArchId} {tm : AvrTiming} {D e : Nat} {s0 : Stepper} {lvl base} (hav : a.isAvr = true) (hT : Timely a tm D e s0) (hpin : pinIsExternal s0.dirPin = false)
    {last now : Nat} {v : Avr} {h : AvrHist} {cmds : List Cmd} {s : Stepper} (hI : RealInv a tm lvl base s0 last now v h cmds s)
    {τ : Nat} {env : Stepper.Env} {junk : NextCommand} {m : Nat} {evs : List (Nat × Avr.Ev)} {acc : List Cmd} {s1 s2 : Stepper}
    (h1 : now ≤ τ) (h2 : cmds ≠ [] → τ ≤ last + tm.cycle) (h3 : v.q.running = true → τ ≤ v.ocr + tm.latency)
    (h4 : junk.rw.performedRampUpSteps < 4294967296) (h5 : s.fillQueue a env junk = some (s1, acc)) (h6 : Unrefused a env s m)
    (h7 : Avr.Clocked a v τ τ evs) (h8 : avrCalls evs = taskCalls v.q.running acc) (h9 : ∀ e ∈ evs, e.2 = .addCommit → e.1 ≤ τ + tm.commit)
    (h10 : SameSettings s1 s2) (h12 : s2.hw = ⟨(Avr.track a v h (evs.map Prod.snd)).1.q, 0⟩) :
    RealInv a tm lvl base s0 τ (lastTime τ evs) (Avr.track a v h (evs.map Prod.snd)).1 (Avr.track a v h (evs.map Prod.snd)).2 (cmds ++ acc) s2 := by
  obtain ⟨k, htask⟩ := hI.task
  have htask1 : TaskHist a s0 k (cmds ++ acc) s1 := .task env junk acc htask h4 (.undelayed (htask.undelayed hT.enable)) h5
  obtain ⟨hC, hel⟩ := hI.core.step hav hT.plan hT.full (by rw [hI.pin]; exact hpin) (fun _ => hI.period) h1 h2 h3 h4 h5 h6 h7 h8 h9 h10 h12 (hT.cmds _ _ _ htask1)
  have e1 : s2.dirPin = s1.dirPin := hel.dirPin
  have e2 : s1.dirPin = s.dirPin := (fillQueue_sameConfig a env junk s s1 acc h5).pin
  exact ⟨hC.inv, hC.pc, hC.hw, ⟨k, .elapse htask1 hel⟩, hC.rhist, by rw [h10.ramp, (fillQueue_period (RampHist.inRange hI.rhist) h4 h5).1]; exact hI.period, hC.valid, hC.fwd, by rw [e1, e2]; exact hI.pin, hC.phase⟩

theorem real_run {a : ArchId} {tm : AvrTiming} {D e : Nat} {s0 : Stepper} {v0 : Avr} (hav : a.isAvr = true) (hT : Timely a tm D e s0) (hq : v0.Quiet)
    (hpin : v0.q.dirPin < 128) (hpos : -2147483648 ≤ v0.q.qend.pos ∧ v0.q.qend.pos < 2147483648) (hhw : s0.hw = ⟨v0.q, 0⟩)
    {τ now : Nat} {v : Avr} {h : AvrHist} {cmds : List Cmd} {s : Stepper} (hm : AvrMove a tm s0 v0 τ now v h cmds s) :
    RealInv a tm (fun u => if v0.q.dirPin = pinUndefined then v0.q.dirLevel else (u == v0.q.dirHighCountsUp)) v0.q.qend.pos s0 τ now v h cmds s := by
  have hext : pinIsExternal s0.dirPin = false := by
    have : s0.dirPin = v0.q.dirPin := by unfold Stepper.dirPin; rw [hhw]
    rw [this]
    unfold pinIsExternal
    exact decide_eq_false (by omega)
  induction hm with
  | start now =>
    refine ⟨⟨0, _, Core.quiet a v0 hq (Or.inr hpin) hpos, Tim.quiet a v0 hq, ?_, ?_⟩, hq.pc, hhw, ⟨0, .start⟩, hT.hist, hT.period, hT.valid, rfl, rfl, Or.inl ⟨rfl, rfl⟩⟩
    · exact { suf := fun hx => (by rw [hq.run] at hx; cases hx), late := fun hx => (by rw [hq.run] at hx; cases hx)
              prep := fun _ _ _ hx => (by rw [hq.pc] at hx; cases hx), com := fun _ hx => (by rw [hq.pc] at hx; cases hx) }
    · exact ⟨fun hx => (by rw [hq.run] at hx; cases hx), Or.inr (Or.inl rfl)⟩
  | cycle τ env junk m evs acc s1 s2 _ h1 h2 h3 h4 h5 h6 h7 h8 h9 h10 h12 ih =>
    exact ih.step hav hT hext h1 h2 h3 h4 h5 h6 h7 h8 h9 h10 h12

end FAS
