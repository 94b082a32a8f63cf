import Verif.Spec.DueTime
import Verif.Lemmas.Due

/-! The pulse times of the SAM Due backend. -/

namespace FAS

theorem Due.complete_rd (q : Queue) (hi : q.IdxOK .sam) : q.complete.readIdx ≠ q.readIdx := by
  have := hi.1
  change u8 (q.readIdx + 1) ≠ q.readIdx
  unfold u8
  omega

/-- what a pulse does to the queue -/
theorem DInv.pulse_cases {lvl D turn s acc} (h : DInv lvl D turn s acc) (ha : s.attached = true) :
    ∃ e es, s.q.running = true ∧ s.q.pending .sam = e :: es ∧ e.steps ≠ 0 ∧ s.pulse.pc = s.pc ∧
      ((e.steps ≠ 1 ∧ s.pulse.q.readIdx = s.q.readIdx ∧ s.pulse.q.running = true ∧ s.pulse.pause = false ∧
          s.pulse.q.pending .sam = { e with steps := e.steps - 1 } :: es) ∨
       (e.steps = 1 ∧ es = [] ∧ s.pulse.q.readIdx ≠ s.q.readIdx ∧ s.pulse.q.running = false ∧ s.pulse.q.pending .sam = []) ∨
       (e.steps = 1 ∧ s.pulse.q.readIdx ≠ s.q.readIdx ∧ s.pulse.q.running = true ∧ ∃ x y es', es = x :: es' ∧
          s.pulse.q.pending .sam = y :: es' ∧ y.asCmd = x.asCmd ∧ s.pulse.pause = decide (y.steps = 0) ∧
          DueT.headTicks s.pulse.q = y.ticks)) := by
  have hrun : s.q.running = true := by
    cases hr : s.q.running with
    | true => rfl
    | false => rw [(h.off hr).1] at ha; cases ha
  obtain ⟨e, es, hp, hpa, hat, hirq⟩ := h.on hrun
  have hst : e.steps ≠ 0 := by rw [hat] at ha; simpa using ha
  refine ⟨e, es, hrun, hp, hst, ?_, ?_⟩
  · unfold Due.pulse
    dsimp only
    repeat' split
    all_goals rfl
  have hn : s.q.queueEntries ≠ 0 := by
    intro hx; rw [← Queue.pending_nil_iff .sam, hp] at hx; cases hx
  obtain ⟨hc, hci, hcn⟩ := Queue.pending_cons .sam s.q h.idx hn
  have he : s.q.slot .sam s.q.readIdx = e := by rw [hc] at hp; injection hp
  have hes : s.q.complete.pending .sam = es := by rw [hc] at hp; injection hp
  have hpause : s.pause = false := by rw [hpa]; simpa using hst
  have hne : s.q.readIdx ≠ s.q.nextWriteIdx := fun hx => hn ((due_ne_empty s.q h.idx).mp hx)
  obtain ⟨hd, hdl⟩ := due_dec s.q h.idx hn
  rw [he] at hd
  have hb := (h.ent e (by rw [hp]; simp)).1
  have hsub : subU8 e.steps 1 = e.steps - 1 := by simp only [subU8]; omega
  rw [hsub] at hd
  unfold Due.pulse
  dsimp only
  rw [if_neg hne, he]
  rw [if_neg (by rw [hrun, hpause]; decide), if_neg hne]
  rw [hd.rd, hd.head]
  dsimp only
  by_cases hlast : e.steps - 1 ≠ 0
  · rw [if_pos hlast]
    refine Or.inl ⟨by omega, hd.rd, hd.run.trans hrun, hpause, ?_⟩
    change (Due.decSteps s.q).pending .sam = _
    rw [hd.pend, hes]
  · rw [if_neg hlast]
    have hn1 : (Due.decSteps s.q).queueEntries ≠ 0 := by rw [hd.entries]; exact hn
    obtain ⟨ht1, _⟩ := due_toggle (Due.decSteps s.q) hd.idx hn1
    have hm := hd.trans ht1 hn
    generalize hq1 : Due.toggleHead (Due.decSteps s.q) = q1 at hm ⊢
    obtain ⟨hmc, hmi⟩ := hm.complete hn
    have hrd : q1.complete.readIdx ≠ s.q.readIdx := by
      have := Due.complete_rd q1 hm.idx
      rw [hm.rd] at this
      exact this
    rw [hes] at hmc
    by_cases hemp : q1.complete.readIdx = q1.complete.nextWriteIdx
    · rw [if_pos hemp]
      have hnil := (Queue.pending_nil_iff .sam q1.complete).mpr ((due_ne_empty q1.complete hmi).mp hemp)
      refine Or.inr (Or.inl ⟨by omega, ?_, hrd, rfl, hnil⟩)
      rw [← hmc]; exact hnil
    · rw [if_neg hemp]
      have hn2 : q1.complete.queueEntries ≠ 0 := fun hx => hemp ((due_ne_empty q1.complete hmi).mpr hx)
      obtain ⟨ht2, _⟩ := due_toggle q1.complete hmi hn2
      have hc2 := (Queue.pending_cons .sam q1.complete hmi hn2).1
      have hrr : q1.complete.running = true := hm.run.trans hrun
      rw [hmc] at hc2
      have hx2 := h.ent (q1.complete.slot .sam q1.complete.readIdx) (by rw [hp, hc2]; simp)
      by_cases hpz : ((q1.complete.slot .sam q1.complete.readIdx).steps = 0 || !(q1.complete.slot .sam q1.complete.readIdx).hasSteps) = true
      · rw [if_pos hpz]
        have h0 : (q1.complete.slot .sam q1.complete.readIdx).steps = 0 := by
          rw [hx2.2] at hpz
          simp at hpz
          omega
        refine Or.inr (Or.inr ⟨by omega, hrd, hrr, _, _, _, hc2, ?_, rfl, ?_, rfl⟩)
        · exact hmc.trans hc2
        · simp [h0]
      · rw [if_neg hpz]
        have h0 : (q1.complete.slot .sam q1.complete.readIdx).steps ≠ 0 := by
          intro hx
          apply hpz
          simp [hx]
        refine Or.inr (Or.inr ⟨by omega, ?_, ?_, _, _, _, hc2, ht2.pend, rfl, ?_, ?_⟩)
        · rw [ht2.rd]; exact hrd
        · exact ht2.run.trans hrr
        · simpa [h0] using hpause
        · unfold DueT.headTicks
          change ((Due.toggleHead q1.complete).slot .sam (Due.toggleHead q1.complete).readIdx).ticks = _
          rw [ht2.rd, ht2.head]

/-- what the end of a pause does to the queue -/
theorem DInv.period_cases {lvl D turn s acc} (h : DInv lvl D turn s acc) (hq : s.irq = true) :
    ∃ e es, s.q.running = true ∧ s.q.pending .sam = e :: es ∧ e.steps = 0 ∧ s.period.pc = s.pc ∧ s.period.q.readIdx ≠ s.q.readIdx ∧
      s.period.q.pending .sam = es ∧
      ((es = [] ∧ s.period.q.running = false) ∨
       (s.period.q.running = true ∧ ∃ x es', es = x :: es' ∧ DueT.headTicks s.period.q = x.ticks)) := by
  have hrun : s.q.running = true := by
    cases hr : s.q.running with
    | true => rfl
    | false => rw [(h.off hr).2.1] at hq; cases hq
  obtain ⟨e, es, hp, hpa, hat, hirq⟩ := h.on hrun
  have hst : e.steps = 0 := by rw [hirq] at hq; simpa using hq
  refine ⟨e, es, hrun, hp, hst, ?_, ?_⟩
  · unfold Due.period
    dsimp only
    repeat' split
    all_goals rfl
  have hn : s.q.queueEntries ≠ 0 := by
    intro hx; rw [← Queue.pending_nil_iff .sam, hp] at hx; cases hx
  obtain ⟨hc, hci, hcn⟩ := Queue.pending_cons .sam s.q h.idx hn
  have hes : s.q.complete.pending .sam = es := by rw [hc] at hp; injection hp
  have hpause : s.pause = true := by rw [hpa]; simpa using hst
  have hne : s.q.readIdx ≠ s.q.nextWriteIdx := fun hx => hn ((due_ne_empty s.q h.idx).mp hx)
  have hrd := Due.complete_rd s.q h.idx
  unfold Due.period
  dsimp only
  rw [if_neg (by rw [hpause]; decide), if_neg hne]
  by_cases hemp : s.q.complete.readIdx = s.q.complete.nextWriteIdx
  · rw [if_pos hemp]
    have hnil := (Queue.pending_nil_iff .sam s.q.complete).mpr ((due_ne_empty s.q.complete hci).mp hemp)
    refine ⟨hrd, hes, Or.inl ⟨?_, rfl⟩⟩
    rw [← hes]; exact hnil
  · rw [if_neg hemp]
    have hn2 : s.q.complete.queueEntries ≠ 0 := fun hx => hemp ((due_ne_empty s.q.complete hci).mpr hx)
    have hc2 := (Queue.pending_cons .sam s.q.complete hci hn2).1
    rw [hes] at hc2
    split
    · exact ⟨hrd, hes, Or.inr ⟨hrun, _, _, hc2, rfl⟩⟩
    · exact ⟨hrd, hes, Or.inr ⟨hrun, _, _, hc2, rfl⟩⟩

theorem stepTimes_append : ∀ (a b : List Cmd) (t : Nat), stepTimes t (a ++ b) = stepTimes t a ++ stepTimes (t + durationSum a) b
  | [], b, t => by simp [stepTimes, durationSum]
  | c :: a, b, t => by
    rw [List.cons_append, stepTimes, stepTimes, stepTimes_append a b, List.append_assoc, durationSum, Nat.add_assoc]

theorem stepTimes_first (t : Nat) (c : Cmd) (cs : List Cmd) (h : c.steps ≠ 0) (h1 : c.steps ≠ 1) :
    stepTimes t (c :: cs) = t :: stepTimes (t + c.ticks) ({ c with steps := c.steps - 1 } :: cs) ∧
      durationSum (c :: cs) = c.ticks + durationSum ({ c with steps := c.steps - 1 } :: cs) := by
  obtain ⟨n, hn⟩ : ∃ n, c.steps = n + 2 := ⟨c.steps - 2, by omega⟩
  have hd : c.duration = c.ticks + c.ticks * (n + 1) := by
    unfold Cmd.duration
    rw [hn, show max 1 (n + 2) = n + 1 + 1 by omega, Nat.mul_succ]
    omega
  have hd' : ({ c with steps := c.steps - 1 } : Cmd).duration = c.ticks * (n + 1) := by
    unfold Cmd.duration
    dsimp only
    rw [hn, show max 1 (n + 2 - 1) = n + 1 by omega]
  constructor
  · rw [stepTimes, stepTimes, hd, hd']
    dsimp only
    rw [hn, show n + 2 - 1 = n + 1 by omega, List.range_succ_eq_map (n := n + 1), List.map_cons, List.cons_append, List.map_map]
    congr 1
    · simp
    · rw [Nat.add_assoc]
      congr 1
      apply List.map_congr_left
      intro i _
      simp only [Function.comp]
      rw [Nat.succ_mul]
      omega
  · rw [durationSum, durationSum, hd, hd']
    omega

theorem stepTimes_one (t : Nat) (c : Cmd) (cs : List Cmd) (h : c.steps = 1) :
    stepTimes t (c :: cs) = t :: stepTimes (t + c.ticks) cs ∧ durationSum (c :: cs) = c.ticks + durationSum cs := by
  have hd : c.duration = c.ticks := by unfold Cmd.duration; rw [h]; simp
  rw [stepTimes, durationSum, hd, h]
  simp [List.range_succ]

theorem stepTimes_pause (t : Nat) (c : Cmd) (cs : List Cmd) (h : c.steps = 0) :
    stepTimes t (c :: cs) = stepTimes (t + c.ticks) cs ∧ durationSum (c :: cs) = c.ticks + durationSum cs := by
  have hd : c.duration = c.ticks := by unfold Cmd.duration; rw [h]; simp
  rw [stepTimes, durationSum, hd, h]
  simp

/-- pulses so far and pulses to come are the documented ones -/
structure TInv (d : DueT) (t : AvrHist) : Prop where
  base : ∃ lvl D acc, DInv lvl D False d.s acc ∧ ∀ u, D u (lvl u)
  on : d.s.q.running = true → d.en = true ∧ d.dis = false ∧ t.waiting = [] ∧
    (∀ e es, d.s.q.pending .sam = e :: es → d.len = e.ticks) ∧
    d.times.reverse ++ stepTimes d.next ((d.s.q.pending .sam).map Entry.asCmd) = t.stepTimes ∧
    ∃ t0 cs ps, t.phases = (t0, cs) :: ps ∧ t0 + durationSum cs = d.next + durationSum ((d.s.q.pending .sam).map Entry.asCmd)
  off : d.s.q.running = false → (d.en = true → d.dis = true) ∧ t.waiting = (d.s.q.pending .sam).map Entry.asCmd ∧
    d.times.reverse = t.stepTimes ∧ ∀ t0 cs ps, t.phases = (t0, cs) :: ps → t0 + durationSum cs = d.next
  flag : d.s.pause = true → d.chid = false
  fr : d.fresh = true → d.s.attached = true
  ord : PhasesOrdered t.phases

theorem DInv.headTicks {lvl D turn s acc} (h : DInv lvl D turn s acc) {e es} (hp : s.q.pending .sam = e :: es) : DueT.headTicks s.q = e.ticks := by
  have hn : s.q.queueEntries ≠ 0 := by
    intro hx; rw [← Queue.pending_nil_iff .sam, hp] at hx; cases hx
  have hc := (Queue.pending_cons .sam s.q h.idx hn).1
  rw [hc] at hp
  injection hp with hp _
  unfold DueT.headTicks
  rw [hp]

theorem DueT.elapsed_self (x : Nat) : DueT.elapsed x x = 0 := by
  unfold DueT.elapsed
  rw [if_neg (by omega)]
  omega

/-- an ignored PWM interrupt -/
theorem DueT.pwmIsr_filtered (now : Nat) (d : DueT) (h : DueT.elapsed (DueT.micros now) d.tIrq < 100) : d.pwmIsr now = { d with chid := false } := by
  unfold DueT.pwmIsr
  dsimp only
  rw [if_pos h]

/-- a PWM interrupt at the begin of the pause in process -/
theorem TInv.pwm {d : DueT} {t : AvrHist} (now : Nat) (h : ∃ lvl D acc, DInv lvl D False d.s acc ∧ ∀ u, D u (lvl u)) (hirq : d.s.irq = true)
    (hel : 100 ≤ DueT.elapsed (DueT.micros now) d.tIrq) (hen : d.en = true) (hdis : d.dis = false) (hfr : d.fresh = false) (hw : t.waiting = [])
    {e es} (hp : d.s.q.pending .sam = e :: es)
    (hst : d.times.reverse ++ stepTimes (d.next - e.ticks) ((d.s.q.pending .sam).map Entry.asCmd) = t.stepTimes) (hge : e.ticks ≤ d.next)
    (hph : ∃ t0 cs ps, t.phases = (t0, cs) :: ps ∧ t0 + durationSum cs = d.next - e.ticks + durationSum ((d.s.q.pending .sam).map Entry.asCmd))
    (ho : PhasesOrdered t.phases) : TInv (d.pwmIsr now) t := by
  obtain ⟨lvl, D, acc, hd, hD⟩ := h
  have hd' := hd.period hirq
  obtain ⟨e1, es1, hrun, hp1, h0, hpc, hrd, hpe, hcase⟩ := hd.period_cases hirq
  rw [hp] at hp1
  injection hp1 with hx hy
  subst hx; subst hy
  obtain ⟨q1, q2⟩ := stepTimes_pause (d.next - e.ticks) e.asCmd (es.map Entry.asCmd) h0
  have hxx : d.next - e.ticks + e.asCmd.ticks = d.next := by
    change d.next - e.ticks + e.ticks = d.next
    omega
  rw [hxx] at q1
  obtain ⟨t0, cs, ps, r1, r2⟩ := hph
  rw [hp, List.map_cons, q2, ← Nat.add_assoc, hxx] at r2
  rw [hp, List.map_cons, q1] at hst
  unfold DueT.pwmIsr
  dsimp only
  rw [if_neg (by omega), if_neg hrd]
  rcases hcase with ⟨c1, c2⟩ | ⟨c1, x, es', c2, c3⟩
  · rw [if_neg (by rw [c2]; decide)]
    subst c1
    exact { base := ⟨lvl, D, acc, hd', hD⟩
            on := fun hx => by rw [show d.s.period.q.running = true from hx] at c2; cases c2
            off := fun _ => ⟨fun _ => rfl, by rw [hpe]; exact hw, by simpa [stepTimes] using hst, fun t0' cs' ps' hx => by
              rw [r1] at hx
              injection hx with hx _
              injection hx with hx1 hx2
              rw [← hx1, ← hx2]
              simpa [durationSum] using r2⟩
            flag := fun _ => rfl
            fr := fun hx => by rw [show d.fresh = true from hx] at hfr; cases hfr
            ord := ho }
  · rw [if_pos c1]
    exact { base := ⟨lvl, D, acc, hd', hD⟩
            on := fun _ => ⟨hen, hdis, hw, fun e' es'' hx => by
              rw [hpe, c2] at hx
              injection hx with hx _
              rw [← hx]; exact c3, by rw [hpe]; exact hst, t0, cs, ps, r1, by rw [hpe]; exact r2⟩
            off := fun hx => by rw [show d.s.period.q.running = false from hx] at c1; cases c1
            flag := fun _ => rfl
            fr := fun hx => by rw [show d.fresh = true from hx] at hfr; cases hfr
            ord := ho }

theorem TInv.boundary {d : DueT} {t : AvrHist} (h : TInv d t) (lat : Nat) (flag : Bool) (hf : d.Unfiltered (.boundary lat flag)) :
    TInv (d.boundary lat flag) t := by
  unfold DueT.boundary
  by_cases hen : d.en = false
  · rw [if_pos (by rw [hen]; rfl)]; exact h
  have hen : d.en = true := by simpa using hen
  rw [if_neg (by rw [hen]; decide)]
  obtain ⟨lvl, D, acc, hd, hD⟩ := h.base
  by_cases hdis : d.dis = true
  · rw [if_pos hdis]
    have hr : d.s.q.running = false := by
      cases hr : d.s.q.running with
      | false => rfl
      | true => rw [(h.on hr).2.1] at hdis; cases hdis
    obtain ⟨o1, o2, o3, o4⟩ := h.off hr
    exact { base := h.base
            on := fun hx => by rw [show d.s.q.running = true from hx] at hr; cases hr
            off := fun _ => ⟨(fun hx => nomatch hx), o2, o3, o4⟩
            flag := fun hx => by
              have hx' : d.s.pause = true := hx
              rw [(hd.off hr).2.2] at hx'; cases hx'
            fr := h.fr, ord := h.ord }
  rw [if_neg hdis]
  have hr : d.s.q.running = true := by
    cases hr : d.s.q.running with
    | true => rfl
    | false => exact absurd ((h.off hr).1 hen) hdis
  obtain ⟨o1, o2, o3, o4, o5, t0, cs, ps, o6, o7⟩ := h.on hr
  by_cases hat : d.s.attached = true
  · have hd' := hd.pulse hD hat
    obtain ⟨e, es, _, hp, hst, hpc, hcase⟩ := hd.pulse_cases hat
    have hlen := o4 e es hp
    dsimp only
    rw [if_pos hat]
    rw [hp, List.map_cons] at o5 o7
    rcases hcase with ⟨c1, c2, c3, c4, c5⟩ | ⟨c1, c2, c3, c4, c5⟩ | ⟨c1, c2, c3, x, y, es', c4, c5, c6, c7, c8⟩
    · obtain ⟨q1, q2⟩ := stepTimes_first d.next e.asCmd (es.map Entry.asCmd) hst c1
      have hirq : d.s.pulse.irq = false := by
        obtain ⟨e', es', hx, _, _, hy⟩ := hd'.on c3
        rw [c5] at hx
        injection hx with hx _
        rw [hy, ← hx]
        dsimp only
        exact decide_eq_false (by omega)
      unfold DueT.pulse
      dsimp only
      rw [if_pos c2]
      dsimp only
      rw [if_neg (by rw [hirq]; simp)]
      exact { base := ⟨lvl, D, acc, hd', hD⟩
              on := fun _ => ⟨o1, o2, o3, fun e' es' hx => by
                rw [c5] at hx
                injection hx with hx _
                rw [← hx]; exact hlen, by
                rw [← o5, q1, c5, List.reverse_cons, List.append_assoc, hlen]; rfl, t0, cs, ps, o6, by
                rw [o7, q2, c5, hlen, Nat.add_assoc]; rfl⟩
              off := fun hx => by rw [show d.s.pulse.q.running = false from hx] at c3; cases c3
              flag := fun hx => by rw [show d.s.pulse.pause = true from hx] at c4; cases c4
              fr := (fun hx => nomatch hx)
              ord := h.ord }
    · obtain ⟨q1, q2⟩ := stepTimes_one d.next e.asCmd (es.map Entry.asCmd) c1
      subst c2
      have hoff := hd'.off c4
      unfold DueT.pulse
      dsimp only
      have c4' : ¬ d.s.pulse.q.running = true := by rw [c4]; decide
      rw [if_neg c3, if_neg c4']
      dsimp only
      rw [if_neg (by rw [hoff.2.1]; simp)]
      exact { base := ⟨lvl, D, acc, hd', hD⟩
              on := fun hx => by rw [show d.s.pulse.q.running = true from hx] at c4; cases c4
              off := fun _ => ⟨fun _ => rfl, by rw [c5]; exact o3, by
                rw [← o5, q1, List.reverse_cons]; rfl, fun t0' cs' ps' hx => by
                rw [o6] at hx
                injection hx with hx _
                injection hx with hx1 hx2
                rw [← hx1, ← hx2, o7, q2, hlen]
                rfl⟩
              flag := fun hx => by rw [show d.s.pulse.pause = true from hx] at hoff; exact absurd hoff.2.2 (by decide)
              fr := (fun hx => nomatch hx)
              ord := h.ord }
    · obtain ⟨q1, q2⟩ := stepTimes_one d.next e.asCmd (es.map Entry.asCmd) c1
      have hm : (d.s.pulse.q.pending .sam).map Entry.asCmd = es.map Entry.asCmd := by
        rw [c5, c4, List.map_cons, List.map_cons, c6]
      have key : ∀ b, (d.s.pulse.pause = true → b = false) → TInv { d with
          s := d.s.pulse, next := d.next + d.len, fresh := false, chid := b, times := d.next :: d.times, len := DueT.headTicks d.s.pulse.q
          tIrq := if d.s.pulse.pause then DueT.micros (d.next + lat) else d.tIrq } t := by
        intro b hb
        exact { base := ⟨lvl, D, acc, hd', hD⟩
                on := fun _ => ⟨o1, o2, o3, fun e' es' hx => by
                  rw [c5] at hx
                  injection hx with hx _
                  rw [← hx]; exact c8, by
                  rw [← o5, q1, hm, List.reverse_cons, List.append_assoc, hlen]; rfl, t0, cs, ps, o6, by
                  rw [o7, q2, hm, hlen, Nat.add_assoc]; rfl⟩
                off := fun hx => by rw [show d.s.pulse.q.running = false from hx] at c3; cases c3
                flag := hb
                fr := (fun hx => nomatch hx)
                ord := h.ord }
      unfold DueT.pulse
      dsimp only
      rw [if_neg c2, if_pos c3]
      dsimp only
      obtain ⟨e', es'', hx, hy1, _, hy2⟩ := hd'.on c3
      have hpi : d.s.pulse.irq = d.s.pulse.pause := by rw [hy1, hy2]
      cases hpa : d.s.pulse.pause with
      | false =>
        rw [if_neg (by rw [hpi, hpa]; simp)]
        have := key (d.chid || !d.fresh) (fun hx => by rw [hpa] at hx; cases hx)
        rw [hpa] at this
        exact this
      | true =>
        have k0 := key false (fun _ => rfl)
        rw [hpa] at k0
        rw [if_pos rfl]
        rw [if_pos rfl] at k0
        by_cases hch : ((d.chid || !d.fresh) && d.s.pulse.irq) = true
        · rw [if_pos hch, DueT.pwmIsr_filtered _ _ (by dsimp only; rw [DueT.elapsed_self]; omega)]
          exact k0
        · rw [if_neg hch]
          have : (d.chid || !d.fresh) = false := by
            rw [hpi, hpa, Bool.and_true] at hch
            simpa using hch
          rw [this]
          exact k0
  · obtain ⟨e, es, hp, hy1, hy2, hy3⟩ := hd.on hr
    have h0 : e.steps = 0 := by
      rw [hy2] at hat
      simpa using hat
    have hirq : d.s.irq = true := by rw [hy3]; simpa using h0
    have hfr : d.fresh = false := by
      cases hx : d.fresh with
      | false => rfl
      | true => exact absurd (h.fr hx) hat
    have hlen := o4 e es hp
    dsimp only
    rw [if_neg hat]
    dsimp only
    rw [if_pos (by rw [hfr, hirq]; simp)]
    refine TInv.pwm (e := e) (es := es) (d.next + lat) h.base hirq (hf hirq) o1 o2 rfl o3 hp ?_ ?_ ?_ h.ord
    · dsimp only
      rw [hlen, Nat.add_sub_cancel]
      exact o5
    · dsimp only
      omega
    · dsimp only
      rw [hlen, Nat.add_sub_cancel]
      exact ⟨t0, cs, ps, o6, o7⟩

theorem AvrHist.stepTimes_start (t : AvrHist) (time : Nat) : (t.start time).stepTimes = t.stepTimes ++ FAS.stepTimes time t.waiting := by
  unfold AvrHist.stepTimes AvrHist.start
  rw [List.reverse_cons, List.flatMap_append, List.flatMap_cons, List.flatMap_nil, List.append_nil]

/-- startQueue -/
theorem TInv.starting {d : DueT} {t : AvrHist} (h : TInv d t) (hr : d.s.q.running = false) (s' : Due) {lvl D acc}
    (hd : DInv lvl D False s' acc) (hD : ∀ u, D u (lvl u)) (hrun : s'.q.running = true) (hpend : s'.q.pending .sam = d.s.q.pending .sam)
    {c cs} (hw : t.waiting = c :: cs) (now : Nat) (hnow : d.en = false → d.next ≤ now) (hpz : d.en = true → c.steps ≠ 0) :
    TInv (d.starting now s') (t.start (d.begins now c)) := by
  obtain ⟨e, es, hp, y1, y2, y3⟩ := hd.on hrun
  obtain ⟨o1, o2, o3, o4⟩ := h.off hr
  have hht := hd.headTicks hp
  have hm : (s'.q.pending .sam).map Entry.asCmd = t.waiting := by rw [hpend, o2]
  have hec : e.asCmd = c := by
    rw [hp, hw, List.map_cons] at hm
    injection hm
  have hes : e.steps = c.steps := by rw [← hec]; rfl
  have hord : ∀ b, (d.next ≤ b) → PhasesOrdered (t.start b).phases := by
    intro b hb
    unfold AvrHist.start
    cases hph : t.phases with
    | nil => trivial
    | cons p ps =>
      have := o4 p.1 p.2 ps hph
      refine ⟨by omega, ?_⟩
      rw [← hph]; exact h.ord
  unfold DueT.starting DueT.begins
  dsimp only
  rw [hht]
  by_cases h0 : c.steps = 0
  · have hat : s'.attached = false := by rw [y2, hes]; simpa using h0
    have hirq : s'.irq = true := by rw [y3, hes]; simpa using h0
    have hen : d.en = false := by
      cases hx : d.en with
      | false => rfl
      | true => exact absurd h0 (hpz hx)
    have hfr : d.fresh = false := by
      cases hx : d.fresh with
      | false => rfl
      | true => 
        have := h.fr hx
        obtain ⟨_, _, _, hb, _⟩ := h.base
        rw [(hb.off hr).1] at this; cases this
    have hnn := hnow hen
    have hat' : ¬ s'.attached = true := by rw [hat]; decide
    have hen' : ¬ d.en = true := by rw [hen]; decide
    rw [if_neg hat', if_neg hen', if_neg (by omega : ¬ c.steps ≠ 0)]
    have hct : c.ticks = e.ticks := by rw [← hec]; rfl
    -- the interrupt is not executed: the pause begins one pause later
    have key : ∀ b, b = false → TInv { d with s := s', en := true, dis := false, next := now + e.ticks, len := e.ticks, fresh := false, chid := b }
        (t.start (now + c.ticks)) := by
      intro b hb
      exact { base := ⟨lvl, D, acc, hd, hD⟩
              on := fun _ => ⟨rfl, rfl, rfl, fun e' es' hx => by
                rw [hp] at hx
                injection hx with hx _
                rw [← hx], by
                rw [AvrHist.stepTimes_start, ← o3]
                dsimp only
                rw [hm, hct], _, _, _, rfl, by rw [hm, hct]⟩
              off := fun hx => by rw [show s'.q.running = false from hx] at hrun; cases hrun
              flag := fun _ => hb
              fr := (fun hx => nomatch hx)
              ord := hord _ (by omega) }
    by_cases hch : d.chid = true
    · rw [if_pos hch]
      by_cases hel : 100 ≤ DueT.elapsed (DueT.micros now) d.tIrq
      · rw [if_pos ⟨hch, hel⟩]
        refine TInv.pwm (e := e) (es := es) now ⟨lvl, D, acc, hd, hD⟩ hirq hel rfl rfl rfl rfl hp ?_ ?_ ?_ (hord _ hnn)
        · dsimp only
          rw [AvrHist.stepTimes_start, ← o3, hm, Nat.add_sub_cancel]
        · dsimp only; omega
        · dsimp only
          refine ⟨_, _, _, rfl, ?_⟩
          rw [hm, Nat.add_sub_cancel]
      · rw [if_neg (by intro hx; exact hel hx.2), DueT.pwmIsr_filtered _ _ (by dsimp only; omega)]
        exact key false rfl
    · rw [if_neg hch, if_neg (by intro hx; exact hch hx.1)]
      exact key d.chid (by simpa using hch)
  · have hat : s'.attached = true := by rw [y2, hes]; simpa using h0
    have hpa : s'.pause = false := by rw [y1, hes]; simpa using h0
    rw [if_pos hat, if_pos h0]
    by_cases hen : d.en = true
    · rw [if_pos hen, if_pos hen]
      exact { base := ⟨lvl, D, acc, hd, hD⟩
              on := fun _ => ⟨hen, rfl, rfl, fun e' es' hx => by
                rw [hp] at hx
                injection hx with hx _
                rw [← hx], by
                rw [AvrHist.stepTimes_start, ← o3]
                dsimp only
                rw [hm], _, _, _, rfl, by rw [hm]⟩
              off := fun hx => by rw [show s'.q.running = false from hx] at hrun; cases hrun
              flag := fun hx => by rw [show s'.pause = true from hx] at hpa; cases hpa
              fr := fun _ => hat
              ord := hord _ (Nat.le_refl _) }
    · rw [if_neg hen, if_neg hen]
      exact { base := ⟨lvl, D, acc, hd, hD⟩
              on := fun _ => ⟨rfl, rfl, rfl, fun e' es' hx => by
                rw [hp] at hx
                injection hx with hx _
                rw [← hx], by
                rw [AvrHist.stepTimes_start, ← o3]
                dsimp only
                rw [hm], _, _, _, rfl, by rw [hm]⟩
              off := fun hx => by rw [show s'.q.running = false from hx] at hrun; cases hrun
              flag := fun hx => by rw [show s'.pause = true from hx] at hpa; cases hpa
              fr := fun _ => hat
              ord := hord _ (hnow (by simpa using hen)) }

/-- an event which changes neither the commands in the queue nor the outputs -/
theorem TInv.frame {d : DueT} {t : AvrHist} (h : TInv d t) (s' : Due) {lvl D acc} (hd : DInv lvl D False s' acc) (hD : ∀ u, D u (lvl u))
    (hrun : s'.q.running = d.s.q.running) (hpend : s'.q.pending .sam = d.s.q.pending .sam) (hpa : s'.pause = d.s.pause)
    (hat : s'.attached = d.s.attached) : TInv { d with s := s' } t :=
  { base := ⟨lvl, D, acc, hd, hD⟩
    on := fun hx => by
      have := h.on (by rw [← hrun]; exact hx)
      dsimp only
      rw [hpend]
      exact this
    off := fun hx => by
      have := h.off (by rw [← hrun]; exact hx)
      dsimp only
      rw [hpend]
      exact this
    flag := fun hx => h.flag (by rw [← hpa]; exact hx)
    fr := fun hx => by
      have := h.fr hx
      rw [← hat] at this
      exact this
    ord := h.ord }

theorem PhasesOrdered.last {t0 : Nat} {cs cs' : List Cmd} {ps} (h : PhasesOrdered ((t0, cs) :: ps)) : PhasesOrdered ((t0, cs') :: ps) := by
  cases ps with
  | nil => trivial
  | cons p ps => exact h

/-- a command is appended -/
theorem TInv.append {d : DueT} {t : AvrHist} (h : TInv d t) (s' : Due) {lvl D acc} (hd : DInv lvl D False s' acc) (hD : ∀ u, D u (lvl u))
    (hrun : s'.q.running = d.s.q.running) (c : Cmd) (hpend : (s'.q.pending .sam).map Entry.asCmd = (d.s.q.pending .sam).map Entry.asCmd ++ [c])
    (hhead : ∀ e es, d.s.q.pending .sam = e :: es → ∃ es', s'.q.pending .sam = e :: es') (hpa : s'.pause = d.s.pause)
    (hat : s'.attached = d.s.attached) : TInv { d with s := s' } (t.accept d.s.q.running c) := by
  cases hr : d.s.q.running with
  | false =>
    obtain ⟨o1, o2, o3, o4⟩ := h.off hr
    rw [hr] at hrun
    exact { base := ⟨lvl, D, acc, hd, hD⟩
            on := fun hx => by rw [show s'.q.running = true from hx] at hrun; cases hrun
            off := fun _ => ⟨o1, by change t.waiting ++ [c] = _; rw [o2, ← hpend], o3, o4⟩
            flag := fun hx => h.flag (by rw [← hpa]; exact hx)
            fr := fun hx => by
              have := h.fr hx
              rw [← hat] at this
              exact this
            ord := h.ord }
  | true =>
    obtain ⟨o1, o2, o3, o4, o5, t0, cs, ps, o6, o7⟩ := h.on hr
    rw [hr] at hrun
    have ha : t.accept true c = { t with phases := (t0, cs ++ [c]) :: ps } := by
      unfold AvrHist.accept
      rw [if_pos rfl, o6]
    rw [ha]
    have hst : ({ t with phases := (t0, cs ++ [c]) :: ps } : AvrHist).stepTimes = t.stepTimes ++ stepTimes (t0 + durationSum cs) [c] := by
      unfold AvrHist.stepTimes
      rw [o6]
      simp only [List.reverse_cons, List.flatMap_append, List.flatMap_cons, List.flatMap_nil, List.append_nil, stepTimes_append, List.append_assoc]
    exact { base := ⟨lvl, D, acc, hd, hD⟩
            on := fun _ => ⟨o1, o2, o3, fun e es hx => by
              obtain ⟨lvl', D', acc', hb, _⟩ := h.base
              obtain ⟨e1, es1, hp1, _⟩ := hb.on hr
              obtain ⟨es', hx'⟩ := hhead e1 es1 hp1
              rw [show s'.q.pending .sam = e :: es from hx] at hx'
              injection hx' with hx' _
              rw [hx']
              exact o4 e1 es1 hp1, by
              dsimp only
              rw [hst, hpend, stepTimes_append, ← List.append_assoc, o5, o7], t0, cs ++ [c], ps, rfl, by
              dsimp only
              rw [hpend, durationSum_append, durationSum_append]
              omega⟩
            off := fun hx => by rw [show s'.q.running = false from hx] at hrun; cases hrun
            flag := fun hx => h.flag (by rw [← hpa]; exact hx)
            fr := fun hx => by
              have := h.fr hx
              rw [← hat] at this
              exact this
            ord := by
              have := h.ord
              rw [o6] at this
              exact this.last }

theorem Due.addBegin_frame {lvl D turn s acc} (h : DInv lvl D turn s acc) (c : Cmd) (st : Bool) :
    (s.step (.addBegin c st)).q.running = s.q.running ∧ (s.step (.addBegin c st)).q.pending .sam = s.q.pending .sam ∧
      (s.step (.addBegin c st)).pause = s.pause ∧ (s.step (.addBegin c st)).attached = s.attached ∧ (s.step (.addBegin c st)).irq = s.irq ∧
      (∀ next c' st', (s.step (.addBegin c st)).pc = .prepared next c' st' → s.pc = .prepared next c' st' ∨
        (c' = c ∧ ArchId.sam.minCmdTicks ≤ Queue.commandRateTicks c)) := by
  unfold Due.step
  cases hpc : s.pc with
  | prepared n c' st' => exact ⟨rfl, rfl, rfl, rfl, rfl, fun _ _ _ hx => Or.inl (hpc.symm.trans hx)⟩
  | committed st' => exact ⟨rfl, rfl, rfl, rfl, rfl, fun _ _ _ hx => Or.inl (hpc.symm.trans hx)⟩
  | idle =>
    simp only
    by_cases h1 : (!s.q.ready) = true
    · rw [if_pos h1]; exact ⟨rfl, rfl, rfl, rfl, rfl, fun _ _ _ hx => by rw [hpc] at hx; cases hx⟩
    rw [if_neg h1]
    by_cases h2 : s.q.isQueueFull .sam = true
    · rw [if_pos h2]; exact ⟨rfl, rfl, rfl, rfl, rfl, fun _ _ _ hx => by rw [hpc] at hx; cases hx⟩
    rw [if_neg h2]
    by_cases h3 : Queue.commandRateTicks c < ArchId.sam.minCmdTicks
    · rw [if_pos h3]; exact ⟨rfl, rfl, rfl, rfl, rfl, fun _ _ _ hx => by rw [hpc] at hx; cases hx⟩
    rw [if_neg h3]
    have hnf : s.q.queueEntries < ArchId.sam.queueLen := by
      have h4 := h.idx.2.2
      have h5 : s.q.queueEntries ≠ ArchId.sam.queueLen := by
        intro hx
        apply h2
        unfold Queue.isQueueFull
        rw [hx]
        simp
      omega
    obtain ⟨e, pe, pr, pw, prun, _⟩ := prepare_spec .sam s.q c
    have hp := Queue.pending_write_unused .sam s.q e h.idx hnf (s.q.prepare .sam c).1 pe pr pw
    exact ⟨prun, hp.1, rfl, rfl, rfl, fun _ _ _ hx => by
      injection hx with _ hx _
      exact Or.inr ⟨hx.symm, by omega⟩⟩

/-- an observed event without start and without acceptance -/
theorem DueT.observe_none {d : DueT} {t : AvrHist} {ev : DueT.Ev} (h1 : d.startsAt ev = none) (h2 : ev ≠ .addCommit) : d.observe t ev = t := by
  unfold DueT.observe
  cases ev with
  | addCommit => exact absurd rfl h2
  | _ => simp only [h1]

theorem due_readOut (q : Queue) : Hw.readOut .sam ⟨q, 0⟩ = (q.pending .sam).map Entry.asCmd := by
  unfold Hw.readOut Queue.pending
  rw [List.map_map]
  apply List.map_congr_left
  intro k _
  by_cases hk : k = 0
  · subst hk; rfl
  · simp only [hk, if_false]; rfl

theorem TInv.starts {d : DueT} {t : AvrHist} (h : TInv d t) (s' : Due) (s1 : Due) (now : Nat) (hs1 : s1.q = d.s.q) 
    (hr : d.s.q.running = false) (hs : s' = s1.startQueue) {lvl D acc}
    (hd : DInv lvl D False s' acc) (hD : ∀ u, D u (lvl u)) (hne : d.s.q.readIdx ≠ d.s.q.nextWriteIdx)
    (hnow : d.en = false → d.next ≤ now) (hpz : d.en = true → (Hw.readOut .sam ⟨d.s.q, 0⟩).head?.all (fun c => c.steps ≠ 0) = true) :
    ∃ c cs, t.waiting = c :: cs ∧ TInv (d.starting now s') (t.start (d.begins now c)) := by
  obtain ⟨_, _, _, hb, _⟩ := h.base
  have hn : d.s.q.queueEntries ≠ 0 := fun hx => hne ((due_ne_empty d.s.q hb.idx).mpr hx)
  obtain ⟨hc, _, _⟩ := Queue.pending_cons .sam d.s.q hb.idx hn
  have hw := (h.off hr).2.1
  rw [hc, List.map_cons] at hw
  refine ⟨_, _, hw, ?_⟩
  have hq : s'.q.running = true ∧ s'.q.pending .sam = d.s.q.pending .sam := by
    rw [hs]
    unfold Due.startQueue
    dsimp only
    split
    · exact ⟨rfl, by rw [← hs1]; rfl⟩
    · exact ⟨rfl, by rw [← hs1]; rfl⟩
  refine h.starting hr s' hd hD hq.1 hq.2 hw now hnow ?_
  intro hen
  have := hpz hen
  rw [due_readOut, hc] at this
  simpa using this

theorem TInv.step {d : DueT} {t : AvrHist} (h : TInv d t) (ev : DueT.Ev) (hb : d.Basic ev) (hf : d.Unfiltered ev) :
    TInv (d.step ev) (d.observe t ev) := by
  obtain ⟨lvl, D, acc, hd, hD⟩ := h.base
  cases ev with
  | boundary lat flag =>
    rw [DueT.observe_none rfl (by simp)]
    exact h.boundary lat flag hf
  | addBegin c st =>
    rw [DueT.observe_none rfl (by simp)]
    obtain ⟨f1, f2, f3, f4, _⟩ := Due.addBegin_frame hd c st
    exact h.frame _ (hd.step hD (.addBegin c st) hb.1 (fun hx => hx.elim)) hD f1 f2 f3 f4
  | addCommit =>
    have hd' := hd.step hD .addCommit trivial (fun hx => hx.elim)
    cases hpc : d.s.pc with
    | idle =>
      have : d.observe t .addCommit = t := by unfold DueT.observe; simp [hpc, DueT.startsAt]
      rw [this]
      have hs : d.s.step .addCommit = d.s := by simp [Due.step, hpc]
      exact h.frame _ hd' hD (by rw [hs]) (by rw [hs]) (by rw [hs]) (by rw [hs])
    | committed st =>
      have : d.observe t .addCommit = t := by unfold DueT.observe; simp [hpc, DueT.startsAt]
      rw [this]
      have hs : d.s.step .addCommit = d.s := by simp [Due.step, hpc]
      exact h.frame _ hd' hD (by rw [hs]) (by rw [hs]) (by rw [hs]) (by rw [hs])
    | prepared next c st =>
      have : d.observe t .addCommit = t.accept d.s.q.running c := by unfold DueT.observe; simp [hpc, DueT.startsAt, hd.ign]
      rw [this]
      have hs : d.s.step .addCommit =
          { d.s with q := { d.s.q with nextWriteIdx := u8 (d.s.q.nextWriteIdx + 1), qend := next }, pc := .committed st } := by
        simp [Due.step, hpc, commit_ok d.s.q next hd.ready hd.ign]
      obtain ⟨p1, p2, _⟩ := hd.prep next c st hpc
      have hp := (pending_commit (a := .sam) next hd.idx p1).1
      have hp' : (d.s.step .addCommit).q.pending .sam = d.s.q.pending .sam ++ [d.s.q.slot .sam d.s.q.nextWriteIdx] := by rw [hs]; exact hp
      refine h.append _ hd' hD (by rw [hs]) c ?_ ?_ (by rw [hs]) (by rw [hs])
      · rw [hp', List.map_append, List.map_cons, List.map_nil, p2]
      · intro e es hx
        rw [hp', hx]
        exact ⟨_, rfl⟩
  | addFinish now =>
    have hd' := hd.step hD .addFinish hb.1 (fun hx => hx.elim)
    have hbb : d.s.q.running = true ∨ d.s.q.readIdx ≠ d.s.q.nextWriteIdx := hb.1
    by_cases hst : d.s.q.running = false ∧ (d.s.step .addFinish).q.running = true
    · have hat : d.startsAt (.addFinish now) = some now := by simp only [DueT.startsAt]; rw [if_pos hst]
      have hg := hb.2
      rw [hat] at hg
      have hs : ∃ st, d.s.pc = .committed st ∧ d.s.step .addFinish = Due.startQueue { d.s with pc := .idle } := by
        have h2 := hst.2
        unfold Due.step at h2
        cases hpc : d.s.pc with
        | idle => rw [hpc] at h2; rw [show d.s.q.running = true from h2] at hst; exact absurd hst.1 (by decide)
        | prepared n c st => rw [hpc] at h2; rw [show d.s.q.running = true from h2] at hst; exact absurd hst.1 (by decide)
        | committed st =>
          rw [hpc] at h2
          simp only at h2
          by_cases hx : (!d.s.q.running && st) = true
          · exact ⟨st, rfl, by unfold Due.step; rw [hpc]; simp only; rw [if_pos hx]⟩
          · rw [if_neg hx] at h2
            rw [show d.s.q.running = true from h2] at hst; exact absurd hst.1 (by decide)
      obtain ⟨st, hpc, hs⟩ := hs
      obtain ⟨c, cs, hw, hT⟩ := h.starts (d.s.step .addFinish) { d.s with pc := .idle } now rfl hst.1 hs hd' hD
        (hbb.resolve_left (by rw [hst.1]; decide)) hg.1 hg.2
      have ho : d.observe t (.addFinish now) = t.start (d.begins now c) := by
        unfold DueT.observe
        simp only [hat, hw]
      rw [ho]
      have : d.step (.addFinish now) = d.starting now (d.s.step .addFinish) := by
        unfold DueT.step
        dsimp only
        rw [if_pos (by rw [hst.1, hst.2]; rfl)]
      rw [this]
      exact hT
    · have hat : d.startsAt (.addFinish now) = none := by simp only [DueT.startsAt]; rw [if_neg hst]
      rw [DueT.observe_none hat (by simp)]
      have : d.step (.addFinish now) = { d with s := d.s.step .addFinish } := by
        unfold DueT.step
        dsimp only
        rw [if_neg (by intro hx; apply hst; simpa using hx)]
      rw [this]
      have hs : d.s.step .addFinish = d.s ∨ d.s.step .addFinish = { d.s with pc := .idle } := by
        unfold Due.step
        cases hpc : d.s.pc with
        | idle => exact Or.inl rfl
        | prepared n c st => exact Or.inl rfl
        | committed st =>
          simp only
          by_cases hx : (!d.s.q.running && st) = true
          · exfalso
            apply hst
            refine ⟨?_, ?_⟩
            · rw [Bool.and_eq_true, Bool.not_eq_true'] at hx; exact hx.1
            · unfold Due.step
              rw [hpc]
              simp only
              rw [if_pos hx]
              unfold Due.startQueue
              dsimp only
              split <;> rfl
          · rw [if_neg hx]; exact Or.inr rfl
      rcases hs with hs | hs
      · exact h.frame _ hd' hD (by rw [hs]) (by rw [hs]) (by rw [hs]) (by rw [hs])
      · exact h.frame _ hd' hD (by rw [hs]) (by rw [hs]) (by rw [hs]) (by rw [hs])
  | startNull now =>
    have hd' := hd.step hD .startNull trivial (fun hx => hx.elim)
    by_cases hst : d.s.q.running = false ∧ (d.s.step .startNull).q.running = true
    · have hat : d.startsAt (.startNull now) = some now := by simp only [DueT.startsAt]; rw [if_pos hst]
      have hg := hb.2
      rw [hat] at hg
      have hs : d.s.q.readIdx ≠ d.s.q.nextWriteIdx ∧ d.s.step .startNull = Due.startQueue d.s := by
        have h2 := hst.2
        unfold Due.step at h2
        cases hpc : d.s.pc with
        | prepared n c st => rw [hpc] at h2; rw [show d.s.q.running = true from h2] at hst; exact absurd hst.1 (by decide)
        | committed st => rw [hpc] at h2; rw [show d.s.q.running = true from h2] at hst; exact absurd hst.1 (by decide)
        | idle =>
          rw [hpc] at h2
          simp only at h2
          by_cases hx : (d.s.q.addNull true).start = true
          · refine ⟨?_, by unfold Due.step; rw [hpc]; simp only; rw [if_pos hx]⟩
            intro hy
            unfold Queue.addNull at hx
            rw [hd.ready, hst.1, hy] at hx
            simp at hx
          · rw [if_neg hx] at h2
            rw [show d.s.q.running = true from h2] at hst; exact absurd hst.1 (by decide)
      obtain ⟨c, cs, hw, hT⟩ := h.starts (d.s.step .startNull) d.s now rfl hst.1 hs.2 hd' hD hs.1 hg.1 hg.2
      have ho : d.observe t (.startNull now) = t.start (d.begins now c) := by
        unfold DueT.observe
        simp only [hat, hw]
      rw [ho]
      have : d.step (.startNull now) = d.starting now (d.s.step .startNull) := by
        unfold DueT.step
        dsimp only
        rw [if_pos (by rw [hst.1, hst.2]; rfl)]
      rw [this]
      exact hT
    · have hat : d.startsAt (.startNull now) = none := by simp only [DueT.startsAt]; rw [if_neg hst]
      rw [DueT.observe_none hat (by simp)]
      have : d.step (.startNull now) = { d with s := d.s.step .startNull } := by
        unfold DueT.step
        dsimp only
        rw [if_neg (by intro hx; apply hst; simpa using hx)]
      rw [this]
      have hs : d.s.step .startNull = d.s := by
        unfold Due.step
        cases hpc : d.s.pc with
        | committed st => rfl
        | prepared n c st => rfl
        | idle =>
          simp only
          by_cases hx : (d.s.q.addNull true).start = true
          · exfalso
            apply hst
            refine ⟨?_, ?_⟩
            · unfold Queue.addNull at hx
              cases hr : d.s.q.running with
              | false => rfl
              | true => rw [hr, hd.ready] at hx; simp at hx
            · unfold Due.step
              rw [hpc]
              simp only
              rw [if_pos hx]
              unfold Due.startQueue
              dsimp only
              split <;> rfl
          · rw [if_neg hx]
      exact h.frame _ hd' hD (by rw [hs]) (by rw [hs]) (by rw [hs]) (by rw [hs])
  | otherIsr now =>
    rw [DueT.observe_none rfl (by simp)]
    unfold DueT.step
    dsimp only
    by_cases hch : d.chid = true
    · rw [if_pos hch]
      have hpa : d.s.pause = false := by
        cases hx : d.s.pause with
        | false => rfl
        | true => rw [h.flag hx] at hch; cases hch
      have hirq : d.s.irq = false := by
        cases hr : d.s.q.running with
        | false => exact (hd.off hr).2.1
        | true =>
          obtain ⟨e, es, _, y1, _, y3⟩ := hd.on hr
          rw [y3, ← y1]; exact hpa
      have hper : d.s.period = d.s := by
        unfold Due.period
        rw [if_pos (by rw [hpa]; rfl), ← hirq]
      have hs : d.pwmIsr now = { d with chid := false } := by
        unfold DueT.pwmIsr
        dsimp only
        rw [hper, if_pos rfl]
        split <;> rfl
      rw [hs]
      exact { base := h.base, on := h.on, off := h.off, flag := fun _ => rfl, fr := h.fr, ord := h.ord }
    · rw [if_neg hch]; exact h

theorem TInv.track : ∀ (evs : List DueT.Ev) {d : DueT} {t : AvrHist}, TInv d t → DueT.Along DueT.Basic d evs → DueT.Along DueT.Unfiltered d evs →
    TInv (DueT.track d t evs).1 (DueT.track d t evs).2
  | [], _, _, h, _, _ => h
  | ev :: evs, _, _, h, hb, hf => TInv.track evs (h.step ev hb.1 hf.1) hb.2 hf.2

/-! ## When the PWM interrupts are not ignored -/

/-- the interrupts of a pause are far enough from the pulse before -/
structure SInv (d : DueT) : Prop where
  pz : ∀ e ∈ d.s.q.pending .sam, e.steps = 0 → 4200 ≤ e.ticks
  pzp : ∀ next c st, d.s.pc = .prepared next c st → c.steps = 0 → 4200 ≤ c.ticks
  irq : d.s.pause = true → 21 * (d.tIrq + 100) ≤ d.next
  old : 21 * (d.tIrq + 100) ≤ d.next ∨ d.tIrq = 0

theorem DueT.micros_le (t : Nat) : 21 * DueT.micros t ≤ t := by
  unfold DueT.micros u32
  omega

theorem SInv.unfiltered {d : DueT} {t : AvrHist} {J : Nat} (hT : TInv d t) (h : SInv d) (ev : DueT.Ev) (hs : d.Slow J ev) : d.Unfiltered ev := by
  cases ev with
  | boundary lat flag =>
    intro hirq
    obtain ⟨lvl, D, acc, hd, _⟩ := hT.base
    have hpa : d.s.pause = true := by
      cases hr : d.s.q.running with
      | false => rw [(hd.off hr).2.1] at hirq; cases hirq
      | true =>
        obtain ⟨e, es, _, y1, _, y3⟩ := hd.on hr
        rw [y1, ← y3]; exact hirq
    have h1 := h.irq hpa
    have h2 := hs.2.1
    have h3 : DueT.micros (d.next + lat) = (d.next + lat) / 21 := by
      unfold DueT.micros u32
      omega
    unfold DueT.elapsed
    rw [h3, if_neg (by omega)]
    omega
  | _ => trivial

theorem DueT.pwmIsr_next (now : Nat) (d : DueT) : (d.pwmIsr now).next = d.next ∧ (d.pwmIsr now).tIrq = d.tIrq := by
  unfold DueT.pwmIsr
  dsimp only
  split
  · exact ⟨rfl, rfl⟩
  · split
    · exact ⟨rfl, rfl⟩
    · split <;> exact ⟨rfl, rfl⟩

/-- a PWM interrupt leaves the queue, or takes the pause from it -/
theorem SInv.pwm {d : DueT} (now : Nat) (hd : ∃ lvl D acc, DInv lvl D False d.s acc ∧ ∀ u, D u (lvl u)) (h : SInv d) (hirq : d.s.irq = true) :
    SInv (d.pwmIsr now) := by
  obtain ⟨lvl, D, acc, hd, _⟩ := hd
  obtain ⟨n1, n2⟩ := DueT.pwmIsr_next now d
  obtain ⟨e, es, hrun, hp, h0, hpc, hrd, hpe, _⟩ := hd.period_cases hirq
  have hpa : d.s.pause = true := by
    obtain ⟨e, es, _, y1, _, y3⟩ := hd.on hrun
    rw [y1, ← y3]; exact hirq
  have hsub : ∀ e ∈ (d.pwmIsr now).s.q.pending .sam, e.steps = 0 → 4200 ≤ e.ticks := by
    unfold DueT.pwmIsr
    dsimp only
    split
    · exact h.pz
    · have : ∀ e ∈ d.s.period.q.pending .sam, e.steps = 0 → 4200 ≤ e.ticks := by
        rw [hpe]
        intro x hx
        exact h.pz x (by rw [hp]; exact List.mem_cons_of_mem _ hx)
      split <;> exact this
  have hpcs : (d.pwmIsr now).s.pc = d.s.pc := by
    unfold DueT.pwmIsr
    dsimp only
    split
    · rfl
    · split <;> exact hpc
  refine { pz := hsub, pzp := by rw [hpcs]; exact h.pzp, irq := fun _ => ?_, old := ?_ }
  · rw [n1, n2]; exact h.irq hpa
  · rw [n1, n2]; exact h.old

theorem SInv.later {d : DueT} (h : SInv d) (n : Nat) (hn : d.next ≤ n) (len : Nat) (b f : Bool) : SInv { d with next := n, len := len, chid := b, fresh := f } :=
  { pz := h.pz, pzp := h.pzp, irq := fun hx => Nat.le_trans (h.irq hx) hn, old := h.old.imp (fun hx => Nat.le_trans hx hn) id }

theorem SInv.boundary {d : DueT} {t : AvrHist} {J : Nat} (hT : TInv d t) (h : SInv d) (lat : Nat) (flag : Bool) (hs : d.Slow J (.boundary lat flag)) :
    SInv (d.boundary lat flag) := by
  unfold DueT.boundary
  by_cases hen : d.en = false
  · rw [if_pos (by rw [hen]; rfl)]; exact h
  have hen : d.en = true := by simpa using hen
  rw [if_neg (by rw [hen]; decide)]
  obtain ⟨lvl, D, acc, hd, hD⟩ := hT.base
  by_cases hdis : d.dis = true
  · rw [if_pos hdis]
    exact { pz := h.pz, pzp := h.pzp, irq := h.irq, old := h.old }
  rw [if_neg hdis]
  have hr : d.s.q.running = true := by
    cases hr : d.s.q.running with
    | true => rfl
    | false => exact absurd ((hT.off hr).1 hen) hdis
  obtain ⟨_, _, _, o4, _⟩ := hT.on hr
  obtain ⟨s1, s2, s3⟩ := hs
  by_cases hat : d.s.attached = true
  · have hd' := hd.pulse hD hat
    obtain ⟨e, es, _, hp, hst, hpc, hcase⟩ := hd.pulse_cases hat
    have hlen := o4 e es hp
    dsimp only
    rw [if_pos hat]
    have hpzp : ∀ next c st, d.s.pulse.pc = .prepared next c st → c.steps = 0 → 4200 ≤ c.ticks := by rw [hpc]; exact h.pzp
    have hold : 21 * (d.tIrq + 100) ≤ d.next + d.len ∨ d.tIrq = 0 := h.old.imp (fun hx => by omega) id
    have hpz : ∀ e ∈ es, e.steps = 0 → 4200 ≤ e.ticks := fun x hx => h.pz x (by rw [hp]; exact List.mem_cons_of_mem _ hx)
    rcases hcase with ⟨c1, c2, c3, c4, c5⟩ | ⟨c1, c2, c3, c4, c5⟩ | ⟨c1, c2, c3, x, y, es', c4, c5, c6, c7, c8⟩
    · have hirq : d.s.pulse.irq = false := by
        obtain ⟨e', es', hx, _, _, hy⟩ := hd'.on c3
        rw [c5] at hx
        injection hx with hx _
        rw [hy, ← hx]
        dsimp only
        exact decide_eq_false (by omega)
      unfold DueT.pulse
      dsimp only
      rw [if_pos c2]
      dsimp only
      rw [if_neg (by rw [hirq]; simp)]
      refine { pz := ?_, pzp := hpzp, irq := (fun hx => by rw [show d.s.pulse.pause = true from hx] at c4; cases c4), old := hold }
      dsimp only
      rw [c5]
      intro z hz hz0
      rcases List.mem_cons.mp hz with hz | hz
      · rw [hz] at hz0
        exact absurd hz0 (by dsimp only; omega)
      · exact hpz z hz hz0
    · have hoff := hd'.off c4
      unfold DueT.pulse
      dsimp only
      have c4' : ¬ d.s.pulse.q.running = true := by rw [c4]; decide
      rw [if_neg c3, if_neg c4']
      dsimp only
      rw [if_neg (by rw [hoff.2.1]; simp)]
      refine { pz := ?_, pzp := hpzp, irq := (fun hx => by rw [show d.s.pulse.pause = true from hx] at hoff; exact absurd hoff.2.2 (by decide)), old := hold }
      dsimp only
      rw [c5]
      intro z hz
      cases hz
    · have hxy : y.steps = x.steps ∧ y.ticks = x.ticks := ⟨congrArg Cmd.steps c6, congrArg Cmd.ticks c6⟩
      rw [due_readOut, hp, c4, List.map_cons, List.map_cons] at s3
      have hpz' : ∀ e ∈ d.s.pulse.q.pending .sam, e.steps = 0 → 4200 ≤ e.ticks := by
        rw [c5]
        intro z hz hz0
        rcases List.mem_cons.mp hz with hz | hz
        · rw [hz] at hz0 ⊢
          rw [hxy.2]
          exact hpz x (by rw [c4]; simp) (by omega)
        · exact hpz z (by rw [c4]; exact List.mem_cons_of_mem _ hz) hz0
      have hm := DueT.micros_le (d.next + lat)
      have key : ∀ b, SInv { d with
          s := d.s.pulse, next := d.next + d.len, fresh := false, chid := b, times := d.next :: d.times, len := DueT.headTicks d.s.pulse.q
          tIrq := if d.s.pulse.pause then DueT.micros (d.next + lat) else d.tIrq } := by
        intro b
        have hq : d.s.pulse.pause = true → 21 * (DueT.micros (d.next + lat) + 100) ≤ d.next + d.len := by
          intro hx
          rw [c7] at hx
          have h0 : y.steps = 0 := by simpa using hx
          have h1 : 2100 + J ≤ e.ticks := s3 c1 (show x.steps = 0 by omega)
          omega
        refine { pz := hpz', pzp := hpzp, irq := ?_, old := ?_ }
        · dsimp only
          intro hx
          rw [if_pos hx]
          exact hq hx
        · dsimp only
          by_cases hx : d.s.pulse.pause = true
          · rw [if_pos hx]; exact Or.inl (hq hx)
          · rw [if_neg hx]; exact hold
      unfold DueT.pulse
      dsimp only
      rw [if_neg c2, if_pos c3]
      dsimp only
      by_cases hch : ((d.chid || !d.fresh) && d.s.pulse.irq) = true
      · rw [if_pos hch]
        have hpi : d.s.pulse.irq = true := by
          rw [Bool.and_eq_true] at hch
          exact hch.2
        exact SInv.pwm _ ⟨lvl, D, acc, hd', hD⟩ (key _) hpi
      · rw [if_neg hch]
        exact key _
  · dsimp only
    rw [if_neg hat]
    dsimp only
    have k := h.later (d.next + d.len) (by omega) d.len (d.chid || !d.fresh) false
    split
    · rename_i hch
      rw [Bool.and_eq_true] at hch
      exact SInv.pwm _ hT.base k hch.2
    · exact k

theorem SInv.starting {d : DueT} {t : AvrHist} (hT : TInv d t) (h : SInv d) (s1 s' : Due) (hs1 : s1.q = d.s.q)
    (hpc : ∀ next c st, s1.pc = .prepared next c st → d.s.pc = .prepared next c st) (hs : s' = s1.startQueue) {lvl D acc}
    (hd : DInv lvl D False s' acc) (hD : ∀ u, D u (lvl u)) (now : Nat) (hr : d.s.q.running = false) (hnow : d.en = false → d.next ≤ now)
    (hpz : d.en = true → (Hw.readOut .sam ⟨d.s.q, 0⟩).head?.all (fun c => c.steps ≠ 0) = true) : SInv (d.starting now s') := by
  have hq : s'.q.running = true ∧ s'.q.pending .sam = d.s.q.pending .sam ∧ s'.pc = s1.pc := by
    rw [hs]
    unfold Due.startQueue
    dsimp only
    split
    · exact ⟨rfl, by rw [← hs1]; rfl, rfl⟩
    · exact ⟨rfl, by rw [← hs1]; rfl, rfl⟩
  obtain ⟨q1, q2, q3⟩ := hq
  obtain ⟨e, es, hp, y1, y2, y3⟩ := hd.on q1
  have hht := hd.headTicks hp
  have hpz' : ∀ e ∈ s'.q.pending .sam, e.steps = 0 → 4200 ≤ e.ticks := by rw [q2]; exact h.pz
  have hpzp' : ∀ next c st, s'.pc = .prepared next c st → c.steps = 0 → 4200 ≤ c.ticks := by
    rw [q3]; exact fun n c st hx => h.pzp n c st (hpc n c st hx)
  unfold DueT.starting
  dsimp only
  rw [hht]
  by_cases h0 : e.steps = 0
  · have hat : ¬ s'.attached = true := by rw [y2]; simpa using h0
    have hirq : s'.irq = true := by rw [y3]; simpa using h0
    have hen : ¬ d.en = true := by
      intro hx
      have := hpz hx
      rw [due_readOut, ← q2, hp] at this
      simp at this
      exact this h0
    rw [if_neg hat, if_neg hen]
    have hn := hnow (by simpa using hen)
    have h42 := hpz' e (by rw [hp]; simp) h0
    have key : SInv { d with s := s', en := true, dis := false, next := now + e.ticks, len := e.ticks, fresh := false } := by
      have h1 : 21 * (d.tIrq + 100) ≤ now + e.ticks := by
        rcases h.old with hx | hx
        · omega
        · rw [hx]; omega
      exact { pz := hpz', pzp := hpzp', irq := fun _ => h1, old := Or.inl h1 }
    split
    · exact SInv.pwm _ ⟨lvl, D, acc, hd, hD⟩ key hirq
    · exact key
  · have hat : s'.attached = true := by rw [y2]; simpa using h0
    have hpa : s'.pause = false := by rw [y1]; simpa using h0
    rw [if_pos hat]
    by_cases hen : d.en = true
    · rw [if_pos hen]
      exact { pz := hpz', pzp := hpzp', irq := (fun hx => by rw [show s'.pause = true from hx] at hpa; cases hpa), old := h.old }
    · rw [if_neg hen]
      have hn := hnow (by simpa using hen)
      exact { pz := hpz', pzp := hpzp', irq := (fun hx => by rw [show s'.pause = true from hx] at hpa; cases hpa)
              old := h.old.imp (fun hx => Nat.le_trans hx hn) id }

theorem SInv.frame {d : DueT} (h : SInv d) (s' : Due) (hpend : s'.q.pending .sam = d.s.q.pending .sam) (hpa : s'.pause = d.s.pause)
    (hpc : ∀ next c st, s'.pc = .prepared next c st → d.s.pc = .prepared next c st) : SInv { d with s := s' } :=
  { pz := by dsimp only; rw [hpend]; exact h.pz
    pzp := fun n c st hx => h.pzp n c st (hpc n c st hx)
    irq := fun hx => h.irq (by rw [← hpa]; exact hx), old := h.old }

/-- the phases of addQueueEntry which may start the queue -/
theorem Due.finish_cases (s : Due) : s.step .addFinish = s ∨ s.step .addFinish = { s with pc := .idle } ∨
    s.q.running = false ∧ s.step .addFinish = Due.startQueue { s with pc := .idle } := by
  unfold Due.step
  cases hpc : s.pc with
  | idle => exact Or.inl rfl
  | prepared n c st => exact Or.inl rfl
  | committed st =>
    simp only
    by_cases hx : (!s.q.running && st) = true
    · rw [if_pos hx]
      rw [Bool.and_eq_true, Bool.not_eq_true'] at hx
      exact Or.inr (Or.inr ⟨hx.1, rfl⟩)
    · rw [if_neg hx]; exact Or.inr (Or.inl rfl)

theorem Due.null_cases (s : Due) (hready : s.q.ready = true) : s.step .startNull = s ∨ s.q.running = false ∧ s.step .startNull = Due.startQueue s := by
  unfold Due.step
  cases hpc : s.pc with
  | committed st => exact Or.inl rfl
  | prepared n c st => exact Or.inl rfl
  | idle =>
    simp only
    by_cases hx : (s.q.addNull true).start = true
    · rw [if_pos hx]
      refine Or.inr ⟨?_, rfl⟩
      unfold Queue.addNull at hx
      cases hr : s.q.running with
      | false => rfl
      | true => rw [hr, hready] at hx; simp at hx
    · rw [if_neg hx]; exact Or.inl rfl

theorem Due.startQueue_running (s : Due) : s.startQueue.q.running = true := by
  unfold Due.startQueue
  dsimp only
  split <;> rfl

theorem SInv.step {d : DueT} {t : AvrHist} {J : Nat} (hT : TInv d t) (h : SInv d) (ev : DueT.Ev) (hb : d.Basic ev) (hs : d.Slow J ev) : SInv (d.step ev) := by
  obtain ⟨lvl, D, acc, hd, hD⟩ := hT.base
  cases ev with
  | boundary lat flag => exact h.boundary hT lat flag hs
  | addBegin c st =>
    obtain ⟨f1, f2, f3, f4, _, f6⟩ := Due.addBegin_frame hd c st
    refine { pz := ?_, pzp := ?_, irq := fun hx => h.irq (f3.symm.trans hx), old := h.old }
    · change ∀ e ∈ (d.s.step (.addBegin c st)).q.pending .sam, _
      rw [f2]; exact h.pz
    · intro n c' st' hx h0
      rcases f6 n c' st' hx with hy | ⟨hy, hz⟩
      · exact h.pzp n c' st' hy h0
      · subst hy
        have : Queue.commandRateTicks c' = c'.ticks := by
          unfold Queue.commandRateTicks
          simp [h0]
        rw [this] at hz
        exact hz
  | addCommit =>
    change SInv { d with s := d.s.step .addCommit }
    cases hpc : d.s.pc with
    | idle =>
      have hs : d.s.step .addCommit = d.s := by simp [Due.step, hpc]
      exact h.frame _ (by rw [hs]) (by rw [hs]) (fun _ _ _ hx => by rw [hs] at hx; exact hx)
    | committed st =>
      have hs : d.s.step .addCommit = d.s := by simp [Due.step, hpc]
      exact h.frame _ (by rw [hs]) (by rw [hs]) (fun _ _ _ hx => by rw [hs] at hx; exact hx)
    | prepared next c st =>
      have hs : d.s.step .addCommit =
          { d.s with q := { d.s.q with nextWriteIdx := u8 (d.s.q.nextWriteIdx + 1), qend := next }, pc := .committed st } := by
        simp [Due.step, hpc, commit_ok d.s.q next hd.ready hd.ign]
      obtain ⟨p1, p2, _⟩ := hd.prep next c st hpc
      have hp := (pending_commit (a := .sam) next hd.idx p1).1
      have hp' : (d.s.step .addCommit).q.pending .sam = d.s.q.pending .sam ++ [d.s.q.slot .sam d.s.q.nextWriteIdx] := by rw [hs]; exact hp
      refine { pz := ?_, pzp := ?_, irq := fun hx => h.irq (by rw [hs] at hx; exact hx), old := h.old }
      · dsimp only
        rw [hp']
        intro z hz hz0
        rcases List.mem_append.mp hz with hz | hz
        · exact h.pz z hz hz0
        · rw [List.mem_singleton] at hz
          have := h.pzp next c st hpc
          rw [← p2, ← hz] at this
          exact this hz0
      · intro n c' st' hx
        rw [show d.s.step .addCommit = _ from hs] at hx
        cases hx
  | addFinish now =>
    have hd' := hd.step hD .addFinish hb.1 (fun hx => hx.elim)
    unfold DueT.step
    dsimp only
    rcases Due.finish_cases d.s with hc | hc | ⟨hr, hc⟩
    · rw [if_neg (by rw [hc]; simp)]
      exact h.frame _ (by rw [hc]) (by rw [hc]) (fun _ _ _ hx => by rw [hc] at hx; exact hx)
    · rw [if_neg (by rw [hc]; simp)]
      exact h.frame _ (by rw [hc]) (by rw [hc]) (fun _ _ _ hx => by rw [hc] at hx; cases hx)
    · have hst : (d.s.step .addFinish).q.running = true := by rw [hc]; exact Due.startQueue_running _
      rw [if_pos (by rw [hr, hst]; rfl)]
      have hg := hb.2
      have hat : d.startsAt (.addFinish now) = some now := by simp only [DueT.startsAt]; rw [if_pos ⟨hr, hst⟩]
      rw [hat] at hg
      exact h.starting hT { d.s with pc := .idle } _ rfl (fun _ _ _ hx => by cases hx) hc hd' hD now hr hg.1 hg.2
  | startNull now =>
    have hd' := hd.step hD .startNull trivial (fun hx => hx.elim)
    unfold DueT.step
    dsimp only
    rcases Due.null_cases d.s hd.ready with hc | ⟨hr, hc⟩
    · rw [if_neg (by rw [hc]; simp)]
      exact h.frame _ (by rw [hc]) (by rw [hc]) (fun _ _ _ hx => by rw [hc] at hx; exact hx)
    · have hst : (d.s.step .startNull).q.running = true := by rw [hc]; exact Due.startQueue_running _
      rw [if_pos (by rw [hr, hst]; rfl)]
      have hg := hb.2
      have hat : d.startsAt (.startNull now) = some now := by simp only [DueT.startsAt]; rw [if_pos ⟨hr, hst⟩]
      rw [hat] at hg
      exact h.starting hT d.s _ rfl (fun _ _ _ hx => hx) hc hd' hD now hr hg.1 hg.2
  | otherIsr now =>
    unfold DueT.step
    dsimp only
    by_cases hch : d.chid = true
    · rw [if_pos hch]
      by_cases hirq : d.s.irq = true
      · exact SInv.pwm now hT.base h hirq
      · have hpa : d.s.pause = false := by
          cases hx : d.s.pause with
          | false => rfl
          | true => rw [hT.flag hx] at hch; cases hch
        have hper : d.s.period = d.s := by
          unfold Due.period
          rw [if_pos (by rw [hpa]; rfl), ← (by simpa using hirq : d.s.irq = false)]
        have hs : d.pwmIsr now = { d with chid := false } := by
          unfold DueT.pwmIsr
          dsimp only
          rw [hper, if_pos rfl]
          split <;> rfl
        rw [hs]
        exact { pz := h.pz, pzp := h.pzp, irq := h.irq, old := h.old }
    · rw [if_neg hch]; exact h

theorem SInv.track {J : Nat} : ∀ (evs : List DueT.Ev) {d : DueT} {t : AvrHist}, TInv d t → SInv d → DueT.Along DueT.Basic d evs →
    DueT.Along (DueT.Slow J) d evs → DueT.Along DueT.Unfiltered d evs
  | [], _, _, _, _, _, _ => trivial
  | ev :: evs, _, _, hT, h, hb, hs =>
    have hu := h.unfiltered hT ev hs.1
    ⟨hu, SInv.track evs (hT.step ev hb.1 hu) (h.step hT ev hb.1 hs.1) hb.2 hs.2⟩

end FAS
