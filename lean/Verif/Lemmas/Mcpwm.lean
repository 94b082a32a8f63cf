import Verif.Spec.Mcpwm
import Verif.Lemmas.QPos

/-! The invariant of the MCPWM/PCNT backend and its preservation by every event. -/

namespace FAS

/-- the queue and the phases of addQueueEntry -/
structure MQ (lvl : Bool → Bool) (q : Queue) (pc : AddPc) : Prop where
  idx : q.IdxOK .esp32
  ign : q.ignoreCommands = false
  pin : q.dirPin = pinUndefined ∨ pinIsExternal q.dirPin = false
  lv : ∀ u, lvl u = if q.dirPin = pinUndefined then q.dirLevel else (u == q.dirHighCountsUp)
  norep : ∀ e ∈ q.pending .esp32, e.repeatEntry = false
  ent : ∀ e ∈ q.pending .esp32, e.steps < 256
  prep : ∀ next c st, pc = .prepared next c st →
    q.queueEntries < ArchId.esp32.queueLen ∧ (q.slot .esp32 q.nextWriteIdx).asCmd = c ∧
    (q.slot .esp32 q.nextWriteIdx).repeatEntry = false ∧ (q.slot .esp32 q.nextWriteIdx).steps < 256 ∧
    (q.slot .esp32 q.nextWriteIdx).toggleDir = (lvl c.countUp != q.lastLvl) ∧
    (q.dirPin ≠ pinUndefined → next.dir = lvl c.countUp)

theorem MQ.frame {lvl q pc} (h : MQ lvl q pc) (q' : Queue) (he : q'.entry = q.entry) (hr : q'.readIdx = q.readIdx)
    (hw : q'.nextWriteIdx = q.nextWriteIdx) (hi : q'.ignoreCommands = q.ignoreCommands) (hp : q'.dirPin = q.dirPin)
    (hh : q'.dirHighCountsUp = q.dirHighCountsUp) (hq : q'.qend = q.qend) (hl : q.dirPin = pinUndefined → q'.dirLevel = q.dirLevel) :
    MQ lvl q' pc ∧ q'.pending .esp32 = q.pending .esp32 ∧ q'.lastLvl = q.lastLvl := by
  have hpe : q'.pending .esp32 = q.pending .esp32 := (Queue.pending_congr .esp32 q q' he hr hw).1
  have hqe : q'.queueEntries = q.queueEntries := by unfold Queue.queueEntries; rw [hr, hw]
  have hsl : ∀ i, q'.slot .esp32 i = q.slot .esp32 i := fun i => by unfold Queue.slot; rw [he]
  have hll : q'.lastLvl = q.lastLvl := by
    unfold Queue.lastLvl
    rw [hp, hq]
    by_cases hu : q.dirPin = pinUndefined
    · rw [if_pos hu, if_pos hu, hl hu]
    · rw [if_neg hu, if_neg hu]
  refine ⟨{ idx := ?_, ign := hi.trans h.ign, pin := by rw [hp]; exact h.pin, lv := ?_, norep := by rw [hpe]; exact h.norep
            ent := by rw [hpe]; exact h.ent, prep := ?_ }, hpe, hll⟩
  · have := h.idx
    unfold Queue.IdxOK at *
    rw [hqe, hr, hw]
    exact this
  · intro u
    rw [h.lv u, hp, hh]
    by_cases hu : q.dirPin = pinUndefined
    · rw [if_pos hu, if_pos hu, hl hu]
    · rw [if_neg hu, if_neg hu]
  · intro next c st hpc
    have := h.prep next c st hpc
    rw [hqe, hw, hsl, hll, hp]
    exact this

theorem MQ.complete {lvl q pc e es} (h : MQ lvl q pc) (hp : q.pending .esp32 = e :: es) :
    MQ lvl q.complete pc ∧ q.complete.pending .esp32 = es ∧ q.slot .esp32 q.readIdx = e ∧ q.readIdx ≠ q.nextWriteIdx ∧
      (q.complete.readIdx = q.complete.nextWriteIdx ↔ es = []) := by
  have hn : q.queueEntries ≠ 0 := by
    intro hx; rw [← Queue.pending_nil_iff .esp32, hp] at hx; cases hx
  obtain ⟨hc, hci, hcn⟩ := Queue.pending_cons .esp32 q h.idx hn
  rw [hp] at hc
  injection hc with hc1 hc2
  refine ⟨{ idx := hci, ign := h.ign, pin := h.pin, lv := h.lv, norep := ?_, ent := ?_, prep := ?_ }, hc2.symm, hc1.symm, ?_, ?_⟩
  · rw [← hc2]; intro x hx; exact h.norep x (by rw [hp]; simp [hx])
  · rw [← hc2]; intro x hx; exact h.ent x (by rw [hp]; simp [hx])
  · intro next c st hpc
    obtain ⟨p1, p2⟩ := h.prep next c st hpc
    exact ⟨by omega, p2⟩
  · intro hx
    exact hn ((Queue.empty_iff .esp32 q h.idx).mp hx)
  · rw [Queue.empty_iff .esp32 q.complete hci, ← Queue.pending_nil_iff .esp32, ← hc2]

/-- the effect of `apply_command()` when the counter is zero and no interrupt is pending -/
theorem mcpwm_apply (s : Mcpwm ShadowPcnt) (e : Entry) (hv : s.pcnt.val = 0) (he : e.steps < 256) :
    ∃ (t : Bool) (p : ShadowPcnt), s.apply shadowPcnt e =
        { s with
          q := if e.toggleDir then { s.q with dirLevel := !s.q.dirLevel } else s.q
          atZero := decide (s.timer = .high)
          shadow := e.ticks
          period := if s.timer = .high then s.period else e.ticks
          out := decide (e.steps ≠ 0)
          tea := t
          ena := decide (e.steps = 0)
          pcnt := p } ∧ p.val = 0 ∧ (e.steps = 0 → t = false) ∧ (e.steps ≠ 0 → p.act = e.steps) := by
  by_cases h0 : e.steps = 0
  · refine ⟨false, s.pcnt, ?_, hv, fun _ => rfl, fun hx => absurd h0 hx⟩
    unfold Mcpwm.apply
    rw [if_pos h0]
    simp [h0]
  · by_cases h1 : s.pcnt.act = e.steps
    · refine ⟨s.tea, s.pcnt, ?_, hv, fun hx => absurd hx h0, fun _ => h1⟩
      unfold Mcpwm.apply
      dsimp only
      rw [if_neg h0, if_neg (show ¬ (shadowPcnt.lim s.pcnt ≠ e.steps) from fun hx => hx h1)]
      simp [h0]
    · have hs : subU16 e.steps 0 = e.steps := by unfold subU16; omega
      refine ⟨false, ⟨0, e.steps, e.steps⟩, ?_, rfl, fun hx => absurd hx h0, fun _ => rfl⟩
      unfold Mcpwm.apply
      dsimp only
      rw [if_neg h0, if_pos (show shadowPcnt.lim s.pcnt ≠ e.steps from h1)]
      simp [Mcpwm.adjust, Mcpwm.arrive, shadowPcnt, hv, h0, hs]

/-- the remaining commands -/
def Mcpwm.todo (s : Mcpwm ShadowPcnt) : List Cmd :=
  match (s.q.pending .esp32).map Entry.asCmd with
  | [] => []
  | c :: cs =>
    if s.q.running = false then c :: cs
    else if (s.irq || (s.tea && s.ena)) = true then cs
    else { c with steps := c.steps - s.pcnt.val } :: cs

/-- the hardware while `e` is in process -/
structure MWork (s : Mcpwm ShadowPcnt) (e : Entry) : Prop where
  out : s.out = decide (e.steps ≠ 0)
  irq : s.irq = false
  shadow : s.shadow = e.ticks
  period : s.timer ≠ .high ∨ s.atZero = false → s.period = e.ticks
  ena : s.ena = decide (e.steps = 0)
  pause : e.steps = 0 → s.tea = false ∧ s.pcnt.val = 0
  steps : e.steps ≠ 0 → s.pcnt.act = e.steps ∧ s.pcnt.val < e.steps

/-- the hardware when `e` is completed and its interrupt is pending -/
structure MFin (s : Mcpwm ShadowPcnt) (e : Entry) : Prop where
  timer : s.timer = .high
  val : s.pcnt.val = 0
  pause : e.steps = 0 → s.irq = false ∧ s.tea = true ∧ s.ena = true
  steps : e.steps ≠ 0 → s.irq = true ∧ s.ena = false

structure MInv (lvl : Bool → Bool) (D : Bool → Bool → Prop) (s : Mcpwm ShadowPcnt) (acc : List Cmd) : Prop where
  mq : MQ lvl s.q s.pc
  dir : s.q.running = false → (s.q.pending .esp32 = [] ∧ s.pc = .idle) ∨ Tog lvl s.q.dirLevel (s.q.pending .esp32) s.q.lastLvl
  off : s.q.running = false → s.run = false ∧ s.ena = false ∧ s.irq = false ∧ s.timer ≠ .low
  on : s.q.running = true → ∃ e es, s.q.pending .esp32 = e :: es ∧ s.q.dirLevel = lvl e.countUp ∧ Tog lvl s.q.dirLevel es s.q.lastLvl ∧
    s.run = true ∧ s.timer ≠ .stopped ∧ (s.prepared = true → ∃ f fs, es = f :: fs) ∧ (MWork s e ∨ MFin s e)
  log : s.log.reverse.map Cycle.shape ++ cycles s.todo = cycles acc
  dirs : ∀ c ∈ s.log, c.pulse = true → ∀ u, c.up = some u → D u c.level

theorem cycles_append (a b : List Cmd) : cycles (a ++ b) = cycles a ++ cycles b := by
  induction a with
  | nil => rfl
  | cons c cs ih => simp only [List.cons_append, cycles, ih, List.append_assoc]

/-- the interrupt service when `e` is completed -/
theorem MInv.isr {lvl D acc} {s : Mcpwm ShadowPcnt} {e : Entry} {es : List Entry} (hq : MQ lvl s.q s.pc)
    (hp : s.q.pending .esp32 = e :: es) (ht : Tog lvl s.q.dirLevel es s.q.lastLvl) (hrun : s.q.running = true)
    (hr : s.run = true) (htm : s.timer = .high) (hv : s.pcnt.val = 0) (hi : s.irq = false)
    (hlog : s.log.reverse.map Cycle.shape ++ cycles (es.map Entry.asCmd) = cycles acc)
    (hdirs : ∀ c ∈ s.log, c.pulse = true → ∀ u, c.up = some u → D u c.level) : MInv lvl D (s.whatIsNext shadowPcnt) acc := by
  obtain ⟨hqc, hpc, hsl, hne, hemp⟩ := hq.complete hp
  have hrep : e.repeatEntry = false := hq.norep e (by rw [hp]; simp)
  have hll : s.q.complete.lastLvl = s.q.lastLvl := rfl
  unfold Mcpwm.whatIsNext
  dsimp only
  rw [if_neg hne, hsl, hrep]
  simp only [Bool.false_eq_true, if_false]
  by_cases h0 : es = []
  · rw [if_pos (hemp.mpr h0)]
    subst h0
    obtain ⟨hq1, hp1, hl1⟩ := hqc.frame { s.q.complete with running := false } rfl rfl rfl rfl rfl rfl rfl (fun _ => rfl)
    rw [hpc] at hp1
    refine { mq := hq1, dir := fun _ => Or.inr ?_, off := fun _ => ⟨rfl, rfl, hi, ?_⟩
             on := (fun hx => nomatch hx), log := ?_, dirs := hdirs }
    · change Tog lvl s.q.dirLevel (({ s.q.complete with running := false } : Queue).pending .esp32) ({ s.q.complete with running := false } : Queue).lastLvl
      rw [hp1, hl1]; exact ht
    · change s.timer ≠ .low
      rw [htm]; decide
    · have : Mcpwm.todo (Mcpwm.initStop { s with prepared := false, q := s.q.complete }) = [] := by
        unfold Mcpwm.todo
        rw [show (Mcpwm.initStop { s with prepared := false, q := s.q.complete }).q.pending .esp32 = [] from hp1]
        rfl
      rw [this]
      exact hlog
  · rw [if_neg (fun hx => h0 (hemp.mp hx))]
    cases es with
    | nil => exact absurd rfl h0
    | cons f fs =>
      obtain ⟨hqc2, hpc2, hsl2, hne2, hemp2⟩ := hqc.complete hpc
      have hf : f.steps < 256 := hqc.ent f (by rw [hpc]; simp)
      rw [hsl2]
      obtain ⟨ht1, ht2⟩ := ht
      -- the state in which the command is applied
      have key : ∀ s1 : Mcpwm ShadowPcnt, s1.q = s.q.complete → s1.run = true → s1.timer = .high → s1.pcnt.val = 0 → s1.irq = false → s1.log = s.log →
          s1.pc = s.pc → s1.prepared = false →
          MInv lvl D (if u8 ((s1.apply shadowPcnt f).q.readIdx + 1) = (s1.apply shadowPcnt f).q.nextWriteIdx then s1.apply shadowPcnt f
            else { s1.apply shadowPcnt f with
                   prepared := true
                   pcnt := Mcpwm.prepareNext shadowPcnt ((s1.apply shadowPcnt f).q.slot .esp32 (u8 ((s1.apply shadowPcnt f).q.readIdx + 1)))
                     (s1.apply shadowPcnt f).pcnt }) acc := by
        intro s1 k1 k2 k3 k4 k5 k6 k7 k8
        obtain ⟨t, p, hap, g1, g2, g3⟩ := mcpwm_apply s1 f k4 hf
        rw [hap, k1, k3]
        generalize hQ : (if f.toggleDir then { s.q.complete with dirLevel := !s.q.complete.dirLevel } else s.q.complete) = Q
        have hlev : Q.dirLevel = lvl f.countUp := by
          rw [← hQ]
          cases hx : f.toggleDir with
          | true =>
            rw [hx] at ht1
            simp only [if_true]
            change (!s.q.dirLevel) = _
            revert ht1
            cases lvl f.countUp <;> cases s.q.dirLevel <;> decide
          | false =>
            rw [hx] at ht1
            simp only [Bool.false_eq_true, if_false]
            change s.q.dirLevel = _
            revert ht1
            cases lvl f.countUp <;> cases s.q.dirLevel <;> decide
        have hfr : Q.entry = s.q.complete.entry ∧ Q.readIdx = s.q.complete.readIdx ∧ Q.nextWriteIdx = s.q.complete.nextWriteIdx ∧
            Q.ignoreCommands = s.q.complete.ignoreCommands ∧ Q.dirPin = s.q.complete.dirPin ∧ Q.dirHighCountsUp = s.q.complete.dirHighCountsUp ∧
            Q.qend = s.q.complete.qend ∧ Q.running = true := by
          rw [← hQ]
          cases f.toggleDir <;> exact ⟨rfl, rfl, rfl, rfl, rfl, rfl, rfl, hrun⟩
        obtain ⟨f1, f2, f3, f4, f5, f6, f7, f8⟩ := hfr
        obtain ⟨hq1, hp1, hl1⟩ := hqc.frame Q f1 f2 f3 f4 f5 f6 f7 (fun hu => by
          rw [hlev, hq.lv, if_pos (show s.q.dirPin = pinUndefined from hu)]; rfl)
        rw [hpc] at hp1
        have hD1 : Tog lvl Q.dirLevel fs Q.lastLvl := by rw [hl1, hlev, hll]; exact ht2
        have main : ∀ (pr : Bool) (P : ShadowPcnt), P.val = 0 → (f.steps ≠ 0 → P.act = f.steps) → (pr = true → ∃ g gs, fs = g :: gs) →
            MInv lvl D ({ s1 with
              timer := .high, q := Q, atZero := decide (McTimer.high = .high), shadow := f.ticks, period := if McTimer.high = .high then s1.period else f.ticks
              out := decide (f.steps ≠ 0), tea := t, ena := decide (f.steps = 0), pcnt := P, prepared := pr } : Mcpwm ShadowPcnt) acc := by
          intro pr P hP1 hP2 hpr
          refine { mq := by rw [k7]; exact hq1, dir := ?_, off := ?_, on := ?_, log := ?_, dirs := by rw [k6]; exact hdirs }
          · intro hx; rw [f8] at hx; cases hx
          · intro hx; rw [f8] at hx; cases hx
          · intro _
            refine ⟨f, fs, hp1, hlev, hD1, k2, (fun hx => nomatch hx), hpr, Or.inl ?_⟩
            refine { out := rfl, irq := k5, shadow := rfl, period := ?_, ena := rfl, pause := fun hx => ⟨g2 hx, hP1⟩, steps := fun hx => ⟨hP2 hx, ?_⟩ }
            · intro hx
              rcases hx with hx | hx
              · exact absurd rfl hx
              · cases hx
            · change P.val < _
              rw [hP1]; omega
          · have htodo : Mcpwm.todo { s1 with
                timer := .high, q := Q, atZero := decide (McTimer.high = .high), shadow := f.ticks, period := if McTimer.high = .high then s1.period else f.ticks
                out := decide (f.steps ≠ 0), tea := t, ena := decide (f.steps = 0), pcnt := P, prepared := pr } = (f :: fs).map Entry.asCmd := by
              unfold Mcpwm.todo
              dsimp only
              rw [hp1, k5]
              have hte : (t && decide (f.steps = 0)) = false := by
                by_cases hx : f.steps = 0
                · rw [g2 hx]; rfl
                · simp [hx]
              simp [f8, hte, hP1, Entry.asCmd]
            rw [htodo, k6]
            exact hlog
        by_cases hlast : u8 (Q.readIdx + 1) = Q.nextWriteIdx
        · dsimp only
          rw [if_pos hlast]
          have := main s1.prepared p g1 g3 (by rw [k8]; intro hx; cases hx)
          exact this
        · dsimp only
          rw [if_neg hlast]
          have hfs : fs ≠ [] := by
            intro hx
            apply hlast
            rw [f2, f3]
            exact hemp2.mpr hx
          have hpr : ∃ g gs, fs = g :: gs := by
            cases fs with
            | nil => exact absurd rfl hfs
            | cons g gs => exact ⟨g, gs, rfl⟩
          refine main true _ ?_ ?_ (fun _ => hpr)
          · unfold Mcpwm.prepareNext
            split
            · exact g1
            · exact g1
          · intro hx
            unfold Mcpwm.prepareNext
            split
            · exact g3 hx
            · exact g3 hx
      by_cases hpr : s.prepared = true
      · rw [if_pos hpr]
        exact key { s with prepared := false, q := s.q.complete } rfl hr htm hv hi rfl rfl rfl
      · rw [if_neg hpr]
        exact key { s with prepared := false, q := s.q.complete, pcnt := shadowPcnt.clear (Mcpwm.prepareNext shadowPcnt f s.pcnt) } rfl hr htm rfl hi rfl rfl rfl

/-! ## the other events -/

theorem MInv.sync {lvl D s acc} (h : MInv lvl D s acc) : MInv lvl D s.sync acc := by
  obtain ⟨hq, hp, hl⟩ := h.mq.frame { s.q with ready := s.q.running || decide (s.timer ≠ .high) } rfl rfl rfl rfl rfl rfl rfl (fun _ => rfl)
  refine { mq := hq, dir := ?_, off := h.off, on := ?_, log := ?_, dirs := h.dirs }
  · intro hr
    have := h.dir hr
    rw [← hp, ← hl] at this
    exact this
  · intro hr
    obtain ⟨e, es, h1, h2, h3, h4, h5, h6, h7⟩ := h.on hr
    rw [← hp] at h1
    rw [← hl] at h3
    refine ⟨e, es, h1, h2, h3, h4, h5, h6, ?_⟩
    rcases h7 with h7 | h7
    · exact Or.inl { out := h7.out, irq := h7.irq, shadow := h7.shadow, period := h7.period, ena := h7.ena, pause := h7.pause, steps := h7.steps }
    · exact Or.inr { timer := h7.timer, val := h7.val, pause := h7.pause, steps := h7.steps }
  · exact h.log

/-- the interrupt of the completed command is pending exactly in the state `MFin` -/
theorem MWork.served {s e} (h : MWork s e) : (s.irq || (s.tea && s.ena)) = false := by
  rw [h.irq, h.ena]
  by_cases h0 : e.steps = 0
  · rw [(h.pause h0).1]; rfl
  · simp [h0]

theorem MFin.pending {s e} (h : MFin s e) : (s.irq || (s.tea && s.ena)) = true := by
  by_cases h0 : e.steps = 0
  · obtain ⟨_, h2, h3⟩ := h.pause h0
    rw [h2, h3]; simp
  · rw [(h.steps h0).1]; rfl

theorem Mcpwm.todo_run {s : Mcpwm ShadowPcnt} {e es} (hp : s.q.pending .esp32 = e :: es) (hr : s.q.running = true) :
    s.todo = if (s.irq || (s.tea && s.ena)) = true then es.map Entry.asCmd
      else { e.asCmd with steps := e.steps - s.pcnt.val } :: es.map Entry.asCmd := by
  unfold Mcpwm.todo
  rw [hp]
  simp [hr, Entry.asCmd]

theorem Mcpwm.todo_stop {s : Mcpwm ShadowPcnt} (hr : s.q.running = false) : s.todo = (s.q.pending .esp32).map Entry.asCmd := by
  unfold Mcpwm.todo
  cases (s.q.pending .esp32).map Entry.asCmd with
  | nil => rfl
  | cons c cs => simp [hr]

/-- the compare event -/
theorem MInv.compare {lvl D s acc} (h : MInv lvl D s acc) (hD : ∀ u, D u (lvl u)) (ht : s.timer = .low) : MInv lvl D (s.compare shadowPcnt) acc := by
  have hrun : s.q.running = true := by
    cases hr : s.q.running with
    | true => rfl
    | false => exact absurd ht (h.off hr).2.2.2
  obtain ⟨e, es, h1, h2, h3, h4, h5, h6, h7⟩ := h.on hrun
  have hw : MWork s e := by
    rcases h7 with h7 | h7
    · exact h7
    · rw [h7.timer] at ht; cases ht
  obtain ⟨_, _, hsl, hne, _⟩ := h.mq.complete h1
  have hper : s.period = e.ticks := hw.period (Or.inl (by rw [ht]; decide))
  have hl := h.log
  rw [Mcpwm.todo_run h1 hrun, hw.served] at hl
  simp only [Bool.false_eq_true, if_false] at hl
  have hdirs : ∀ c ∈ (⟨s.period, s.out, s.q.dirLevel, some e.countUp⟩ : Cycle) :: s.log, c.pulse = true → ∀ u, c.up = some u → D u c.level := by
    intro c hc hp u hu
    rcases List.mem_cons.mp hc with hc | hc
    · subst hc
      injection hu with hu
      subst hu
      dsimp only
      rw [h2]; exact hD _
    · exact h.dirs c hc hp u hu
  unfold Mcpwm.compare
  dsimp only
  rw [if_neg hne, hsl, hw.out]
  by_cases h0 : e.steps = 0
  · have hv := (hw.pause h0).2
    rw [if_neg (by simp [h0])]
    refine { mq := h.mq, dir := h.dir, off := fun hx => ?_, on := fun _ => ⟨e, es, h1, h2, h3, h4, (fun hx => nomatch hx), h6, Or.inr ?_⟩, log := ?_, dirs := ?_ }
    · rw [hrun] at hx; cases hx
    · exact { timer := rfl, val := hv, pause := fun _ => ⟨hw.irq, rfl, by rw [hw.ena]; simp [h0]⟩, steps := fun hx => absurd h0 hx }
    · rw [Mcpwm.todo_run (s := { s with timer := .high, tea := true, out := decide (e.steps ≠ 0), log := _ }) h1 hrun]
      dsimp only
      rw [hw.irq, hw.ena, hper]
      rw [← hl]
      simp [h0, cycles, Entry.asCmd, Cycle.shape, hv]
    · rw [hw.out] at hdirs; exact hdirs
  · obtain ⟨hs1, hs2⟩ := hw.steps h0
    rw [if_pos (by simp [h0])]
    have hcy : ∀ l, cycles ({ e.asCmd with steps := e.steps - s.pcnt.val } :: l) =
        (e.ticks, true, some e.countUp) :: (if s.pcnt.val + 1 = e.steps then cycles l
          else cycles ({ e.asCmd with steps := e.steps - (s.pcnt.val + 1) } :: l)) := by
      intro l
      by_cases hx : s.pcnt.val + 1 = e.steps
      · rw [if_pos hx]
        have : e.steps - s.pcnt.val = 1 := by omega
        simp [cycles, this, Entry.asCmd]
      · rw [if_neg hx]
        have h8 : e.steps - s.pcnt.val = (e.steps - (s.pcnt.val + 1)) + 1 := by omega
        have h9 : max 1 (e.steps - s.pcnt.val) = max 1 (e.steps - (s.pcnt.val + 1)) + 1 := by omega
        have h10 : e.steps - (s.pcnt.val + 1) ≠ 0 := by omega
        simp only [cycles, h9, List.replicate_succ, List.cons_append, Entry.asCmd]
        have h11 : e.steps - s.pcnt.val ≠ 0 := by omega
        simp [h10, h11]
    rw [hcy] at hl
    by_cases hx : s.pcnt.val + 1 = e.steps
    · have hcnt : shadowPcnt.count s.pcnt = (⟨0, s.pcnt.reg, s.pcnt.reg⟩, true) := by
        simp [shadowPcnt, hs1, hx]
      rw [hcnt, hw.irq]
      rw [if_pos hx] at hl
      refine { mq := h.mq, dir := h.dir, off := fun hx => ?_, on := fun _ => ⟨e, es, h1, h2, h3, h4, (fun hx => nomatch hx), h6, Or.inr ?_⟩, log := ?_, dirs := ?_ }
      · rw [hrun] at hx; cases hx
      · exact { timer := rfl, val := rfl, pause := fun hx => absurd hx h0, steps := fun _ => ⟨rfl, by rw [hw.ena]; simp [h0]⟩ }
      · rw [Mcpwm.todo_run (s := { s with timer := .high, tea := true, out := decide (e.steps ≠ 0), log := _, pcnt := _, irq := _ }) h1 hrun]
        dsimp only
        rw [hper, ← hl]
        simp [h0, Cycle.shape]
      · rw [hw.out] at hdirs; exact hdirs
    · have hcnt : shadowPcnt.count s.pcnt = ({ s.pcnt with val := s.pcnt.val + 1 }, false) := by
        simp [shadowPcnt, hs1, hx]
      rw [hcnt, hw.irq]
      rw [if_neg hx] at hl
      refine { mq := h.mq, dir := h.dir, off := fun hx => ?_, on := fun _ => ⟨e, es, h1, h2, h3, h4, (fun hx => nomatch hx), h6, Or.inl ?_⟩, log := ?_, dirs := ?_ }
      · rw [hrun] at hx; cases hx
      · exact { out := rfl, irq := rfl, shadow := hw.shadow, period := fun _ => hper, ena := hw.ena, pause := fun hx => absurd hx h0
                steps := fun _ => ⟨hs1, by change s.pcnt.val + 1 < _; omega⟩ }
      · rw [Mcpwm.todo_run (s := { s with timer := .high, tea := true, out := decide (e.steps ≠ 0), log := _, pcnt := _, irq := _ }) h1 hrun]
        dsimp only
        rw [hw.ena, hper, ← hl]
        simp [h0, Cycle.shape]
      · rw [hw.out] at hdirs; exact hdirs

/-- the timer reaches zero -/
theorem MInv.zero {lvl D s acc} (h : MInv lvl D s acc) (hs : s.Served) : MInv lvl D s.zero acc := by
  refine { mq := h.mq, dir := h.dir, off := ?_, on := ?_, log := h.log, dirs := h.dirs }
  · intro hr
    obtain ⟨h1, h2, h3, h4⟩ := h.off hr
    refine ⟨h1, h2, h3, ?_⟩
    unfold Mcpwm.zero
    rw [h1]
    simp
  · intro hr
    obtain ⟨e, es, h1, h2, h3, h4, h5, h6, h7⟩ := h.on hr
    refine ⟨e, es, h1, h2, h3, h4, ?_, h6, Or.inl ?_⟩
    · unfold Mcpwm.zero
      rw [h4]
      simp
    · rcases h7 with h7 | h7
      · refine { out := h7.out, irq := h7.irq, shadow := h7.shadow, period := fun _ => ?_, ena := h7.ena, pause := h7.pause, steps := h7.steps }
        unfold Mcpwm.zero
        dsimp only
        cases hz : s.atZero with
        | true => rw [if_pos rfl]; exact h7.shadow
        | false => rw [if_neg (by decide)]; exact h7.period (Or.inr hz)
      · have := h7.pending
        rw [hs.1, hs.2] at this
        cases this

/-- the interrupt service routines -/
theorem MInv.irqs {lvl D s acc} (h : MInv lvl D s acc) (hx : (s.irq || (s.tea && s.ena)) = true) :
    MInv lvl D (({ s with irq := false } : Mcpwm ShadowPcnt).whatIsNext shadowPcnt) acc := by
  have hrun : s.q.running = true := by
    cases hr : s.q.running with
    | true => rfl
    | false =>
      obtain ⟨h1, h2, h3, h4⟩ := h.off hr
      rw [h3, h2] at hx
      simp at hx
  obtain ⟨e, es, h1, h2, h3, h4, h5, h6, h7⟩ := h.on hrun
  have hl := h.log
  rw [Mcpwm.todo_run h1 hrun, if_pos hx] at hl
  rcases h7 with h7 | h7
  · rw [h7.served] at hx; cases hx
  · exact MInv.isr (s := { s with irq := false }) h.mq h1 h3 hrun h4 h7.timer h7.val rfl hl h.dirs

theorem MInv.leave {lvl D s acc} (h : MInv lvl D s acc) : MInv lvl D { s with pc := .idle } acc := by
  refine { mq := { idx := h.mq.idx, ign := h.mq.ign, pin := h.mq.pin, lv := h.mq.lv, norep := h.mq.norep, ent := h.mq.ent
                   prep := (fun _ _ _ hx => nomatch hx) }, dir := ?_, off := h.off, on := ?_, log := h.log, dirs := h.dirs }
  · intro hr
    rcases h.dir hr with hx | hx
    · exact Or.inl ⟨hx.1, rfl⟩
    · exact Or.inr hx
  · intro hr
    obtain ⟨e, es, h1, h2, h3, h4, h5, h6, h7⟩ := h.on hr
    refine ⟨e, es, h1, h2, h3, h4, h5, h6, ?_⟩
    rcases h7 with h7 | h7
    · exact Or.inl { out := h7.out, irq := h7.irq, shadow := h7.shadow, period := h7.period, ena := h7.ena, pause := h7.pause, steps := h7.steps }
    · exact Or.inr { timer := h7.timer, val := h7.val, pause := h7.pause, steps := h7.steps }

/-- first phase of addQueueEntry -/
theorem MInv.prepare {lvl D s acc} (h : MInv lvl D s acc) (c : Cmd) (st : Bool) (hnf : s.q.queueEntries < ArchId.esp32.queueLen) (hc : c.Valid) :
    MInv lvl D { s with q := (s.q.prepare .esp32 c).1, pc := .prepared (s.q.prepare .esp32 c).2 c st } acc := by
  obtain ⟨e, pe, pr, pw, prun, pready, pign, ppos, pdp, pdh, pms, pnpos, pncu, es, ecu, em, eh, et, ep⟩ := prepare_spec .esp32 s.q c
  have hp := Queue.pending_write_unused .esp32 s.q e h.mq.idx hnf (s.q.prepare .esp32 c).1 pe pr pw
  obtain ⟨k1, k2, k3, k4, k5, k6⟩ := prepare_dir .esp32 s.q c lvl h.mq.lv h.mq.pin
  have hsl : (s.q.prepare .esp32 c).1.slot .esp32 s.q.nextWriteIdx = e := by simp [Queue.slot, pe]
  have hpe : (s.q.prepare .esp32 c).1.queueEntries = s.q.queueEntries := by simp only [Queue.queueEntries, pr, pw]
  refine { mq := { idx := hp.2, ign := pign.trans h.mq.ign, pin := ?_, lv := ?_, norep := ?_, ent := ?_, prep := ?_ }, dir := ?_, off := ?_, on := ?_
           log := ?_, dirs := h.dirs }
  · simp only [pdp]; exact h.mq.pin
  · intro u; simp only [pdp, pdh]; exact k1 u
  · simp only [hp.1]; exact h.mq.norep
  · simp only [hp.1]; exact h.mq.ent
  · intro next c' st' heq
    injection heq with h1 h2 h3
    subst h1 h2 h3
    simp only [pw, hpe, pdp]
    refine ⟨hnf, ?_, k6, ?_, k4, k5⟩
    · rw [hsl]
      unfold Entry.asCmd
      rw [et, es, ecu]
    · rw [hsl, es]
      have := hc.2
      omega
  · intro hr
    simp only [prun] at hr
    simp only [hp.1]
    refine Or.inr ?_
    by_cases hpn : s.q.pending .esp32 = []
    · rw [hpn]; exact k3 hr hpn
    · rw [(k2 (Or.inr hpn)).1, (k2 (Or.inr hpn)).2]
      rcases h.dir hr with hy | hy
      · exact absurd hy.1 hpn
      · exact hy
  · intro hr
    simp only [prun] at hr
    exact h.off hr
  · intro hr
    simp only [prun] at hr
    obtain ⟨f, fs, h1, h2, h3, h4, h5, h6, h7⟩ := h.on hr
    simp only [hp.1, (k2 (Or.inl hr)).1, (k2 (Or.inl hr)).2]
    refine ⟨f, fs, h1, h2, h3, h4, h5, h6, ?_⟩
    rcases h7 with h7 | h7
    · exact Or.inl { out := h7.out, irq := h7.irq, shadow := h7.shadow, period := h7.period, ena := h7.ena, pause := h7.pause, steps := h7.steps }
    · exact Or.inr { timer := h7.timer, val := h7.val, pause := h7.pause, steps := h7.steps }
  · have : Mcpwm.todo { s with q := (s.q.prepare .esp32 c).1, pc := .prepared (s.q.prepare .esp32 c).2 c st } = s.todo := by
      unfold Mcpwm.todo
      simp only [hp.1, prun]
    rw [this]; exact h.log

/-- second phase of addQueueEntry -/
theorem MInv.commit {lvl D s acc next c st} (h : MInv lvl D s acc) (hpc : s.pc = .prepared next c st) :
    MInv lvl D { s with q := { s.q with nextWriteIdx := u8 (s.q.nextWriteIdx + 1), qend := next }, pc := .committed st } (acc ++ [c]) := by
  obtain ⟨p1, p2, p3, p4, p5, p6⟩ := h.mq.prep next c st hpc
  obtain ⟨hp, hidx⟩ := pending_commit (a := .esp32) next h.mq.idx p1
  have hcu : (s.q.slot .esp32 s.q.nextWriteIdx).countUp = c.countUp := by rw [← p2]; rfl
  have hlast : Queue.lastLvl { s.q with nextWriteIdx := u8 (s.q.nextWriteIdx + 1), qend := next } =
      lvl (s.q.slot .esp32 s.q.nextWriteIdx).countUp := by
    rw [hcu]
    change (if s.q.dirPin = pinUndefined then s.q.dirLevel else next.dir) = _
    by_cases hu : s.q.dirPin = pinUndefined
    · rw [if_pos hu, h.mq.lv, if_pos hu]
    · rw [if_neg hu]; exact p6 hu
  refine { mq := { idx := hidx, ign := h.mq.ign, pin := h.mq.pin, lv := h.mq.lv, norep := ?_, ent := ?_, prep := (fun _ _ _ hx => nomatch hx) }
           dir := ?_, off := h.off, on := ?_, log := ?_, dirs := h.dirs }
  · intro e he
    rw [hp] at he
    rcases List.mem_append.mp he with he | he
    · exact h.mq.norep e he
    · simp at he; rw [he]; exact p3
  · intro e he
    rw [hp] at he
    rcases List.mem_append.mp he with he | he
    · exact h.mq.ent e he
    · simp at he; rw [he]; exact p4
  · intro hr
    rw [hp, hlast]
    rcases h.dir hr with hy | hy
    · rw [hy.2] at hpc; cases hpc
    · exact Or.inr (hy.append (by rw [hcu]; exact p5))
  · intro hr
    obtain ⟨f, fs, h1, h2, h3, h4, h5, h6, h7⟩ := h.on hr
    rw [hp, hlast, h1]
    refine ⟨f, fs ++ [s.q.slot .esp32 s.q.nextWriteIdx], rfl, h2, h3.append (by rw [hcu]; exact p5), h4, h5, ?_, ?_⟩
    · intro hx
      obtain ⟨g, gs, hg⟩ := h6 hx
      exact ⟨g, gs ++ [_], by rw [hg]; rfl⟩
    · rcases h7 with h7 | h7
      · exact Or.inl { out := h7.out, irq := h7.irq, shadow := h7.shadow, period := h7.period, ena := h7.ena, pause := h7.pause, steps := h7.steps }
      · exact Or.inr { timer := h7.timer, val := h7.val, pause := h7.pause, steps := h7.steps }
  · have htodo : Mcpwm.todo { s with q := { s.q with nextWriteIdx := u8 (s.q.nextWriteIdx + 1), qend := next }, pc := .committed st } = s.todo ++ [c] := by
      cases hr : s.q.running with
      | false =>
        rw [Mcpwm.todo_stop hr, Mcpwm.todo_stop (by exact hr)]
        dsimp only
        rw [hp, List.map_append, List.map_cons, List.map_nil, p2]
      | true =>
        obtain ⟨f, fs, h1, _⟩ := h.on hr
        rw [h1, List.cons_append] at hp
        rw [Mcpwm.todo_run h1 hr, Mcpwm.todo_run (by exact hp) (by exact hr)]
        dsimp only
        split
        · rw [List.map_append, List.map_cons, List.map_nil, p2]
        · rw [List.map_append, List.map_cons, List.map_nil, p2]; rfl
    rw [htodo, cycles_append, cycles_append, ← List.append_assoc, h.log]

/-- start of the queue -/
theorem MInv.start {lvl D s acc} (h : MInv lvl D s acc) (hrun : s.q.running = false) (hne : s.q.readIdx ≠ s.q.nextWriteIdx) :
    MInv lvl D (s.startQueue shadowPcnt) acc := by
  obtain ⟨o1, o2, o3, o4⟩ := h.off hrun
  have hpn : s.q.pending .esp32 ≠ [] := fun hx => hne ((Queue.empty_iff .esp32 s.q h.mq.idx).mpr ((Queue.pending_nil_iff .esp32 s.q).mp hx))
  cases hp : s.q.pending .esp32 with
  | nil => exact absurd hp hpn
  | cons e es =>
  have htog := (h.dir hrun).resolve_left (fun hx => hpn hx.1)
  rw [hp] at htog
  obtain ⟨ht1, ht2⟩ := htog
  obtain ⟨_, _, hsl, _, _⟩ := h.mq.complete hp
  have hl := h.log
  rw [Mcpwm.todo_stop hrun, hp] at hl
  have he : e.steps < 256 := h.mq.ent e (by rw [hp]; simp)
  unfold Mcpwm.startQueue
  dsimp only
  have hsl' : Queue.slot .esp32 { s.q with running := true } s.q.readIdx = e := hsl
  rw [hsl']
  obtain ⟨t, p, hap, g1, g2, g3⟩ := mcpwm_apply { s with pcnt := shadowPcnt.clear s.pcnt, prepared := false, q := { s.q with running := true } } e rfl he
  rw [hap]
  dsimp only
  generalize hQ : (if e.toggleDir then ({ s.q with running := true, dirLevel := !s.q.dirLevel } : Queue) else { s.q with running := true }) = Q
  have hlev : Q.dirLevel = lvl e.countUp := by
    rw [← hQ]
    cases hx : e.toggleDir with
    | true =>
      rw [hx] at ht1
      simp only [if_true]
      revert ht1
      cases lvl e.countUp <;> cases s.q.dirLevel <;> decide
    | false =>
      rw [hx] at ht1
      simp only [Bool.false_eq_true, if_false]
      revert ht1
      cases lvl e.countUp <;> cases s.q.dirLevel <;> decide
  have hfr : Q.entry = s.q.entry ∧ Q.readIdx = s.q.readIdx ∧ Q.nextWriteIdx = s.q.nextWriteIdx ∧ Q.ignoreCommands = s.q.ignoreCommands ∧
      Q.dirPin = s.q.dirPin ∧ Q.dirHighCountsUp = s.q.dirHighCountsUp ∧ Q.qend = s.q.qend ∧ Q.running = true := by
    rw [← hQ]
    cases e.toggleDir <;> exact ⟨rfl, rfl, rfl, rfl, rfl, rfl, rfl, rfl⟩
  obtain ⟨f1, f2, f3, f4, f5, f6, f7, f8⟩ := hfr
  obtain ⟨hq1, hp1, hl1⟩ := h.mq.frame Q f1 f2 f3 f4 f5 f6 f7 (fun hu => by rw [hlev, h.mq.lv, if_pos hu])
  rw [hp] at hp1
  have hte : (t && decide (e.steps = 0)) = false := by
    by_cases hx : e.steps = 0
    · rw [g2 hx]; rfl
    · simp [hx]
  refine { mq := hq1, dir := ?_, off := ?_, on := ?_, log := ?_, dirs := h.dirs }
  · intro hx; rw [f8] at hx; cases hx
  · intro hx; rw [f8] at hx; cases hx
  · intro _
    refine ⟨e, es, hp1, hlev, ?_, rfl, ?_, (fun hx => nomatch hx), Or.inl ?_⟩
    · rw [hl1, hlev]; exact ht2
    · dsimp only
      split
      · decide
      · assumption
    · refine { out := rfl, irq := o3, shadow := rfl, period := ?_, ena := rfl, pause := fun hx => ⟨g2 hx, g1⟩, steps := fun hx => ⟨g3 hx, ?_⟩ }
      · dsimp only
        intro hx
        by_cases hh : s.timer = .high
        · rw [hh] at hx
          rcases hx with hx | hx
          · exact absurd rfl hx
          · cases hx
        · rw [if_neg hh]
      · change p.val < _
        rw [g1]; omega
  · rw [Mcpwm.todo_run (by exact hp1) (by exact f8)]
    dsimp only
    rw [o3, hte, g1]
    exact hl

/-- every event keeps the invariant -/
theorem MInv.step {lvl D s acc} (h : MInv lvl D s acc) (hD : ∀ u, D u (lvl u)) (ev : Mcpwm.Ev) (hp : s.Basic ev) :
    MInv lvl D (s.step shadowPcnt ev) (acc ++ s.accepts ev) := by
  unfold Mcpwm.step
  apply MInv.sync
  cases ev with
  | zero =>
    simp only [Mcpwm.accepts, List.append_nil]
    by_cases ht : s.timer = .high
    · rw [if_pos ht]; exact h.zero hp
    · rw [if_neg ht]; exact h
  | compare =>
    simp only [Mcpwm.accepts, List.append_nil]
    by_cases ht : s.timer = .low
    · rw [if_pos ht]; exact h.compare hD ht
    · rw [if_neg ht]; exact h
  | pcntIsr =>
    simp only [Mcpwm.accepts, List.append_nil]
    by_cases ht : s.irq = true
    · rw [if_pos ht]; exact h.irqs (by rw [ht]; rfl)
    · rw [if_neg ht]; exact h
  | teaIsr =>
    simp only [Mcpwm.accepts, List.append_nil]
    by_cases ht : (s.tea && s.ena) = true
    · rw [if_pos ht]
      have h1 := h.irqs (by rw [ht]; simp)
      have : ({ s with irq := false } : Mcpwm ShadowPcnt) = s := by
        have hrun : s.q.running = true := by
          cases hr : s.q.running with
          | true => rfl
          | false => rw [(h.off hr).2.1] at ht; simp at ht
        obtain ⟨e, es, _, _, _, _, _, _, h7⟩ := h.on hrun
        have : s.irq = false := by
          rcases h7 with h7 | h7
          · exact h7.irq
          · by_cases h0 : e.steps = 0
            · exact (h7.pause h0).1
            · rw [(h7.steps h0).2] at ht; simp at ht
        rw [← this]
      rw [this] at h1
      exact h1
    · rw [if_neg ht]; exact h
  | otherRead =>
    simp only [Mcpwm.accepts, List.append_nil]
    refine { mq := h.mq, dir := h.dir, off := h.off, on := ?_, log := h.log, dirs := h.dirs }
    intro hr
    obtain ⟨e, es, h1, h2, h3, h4, h5, h6, h7⟩ := h.on hr
    refine ⟨e, es, h1, h2, h3, h4, h5, h6, ?_⟩
    rcases h7 with h7 | h7
    · exact Or.inl { out := h7.out, irq := h7.irq, shadow := h7.shadow, period := h7.period, ena := h7.ena, pause := h7.pause, steps := h7.steps }
    · exact Or.inr { timer := h7.timer, val := h7.val, pause := h7.pause, steps := h7.steps }
  | otherWrite =>
    simp only [Mcpwm.accepts, List.append_nil]
    have hp : s.snap.getD s.ena = s.ena := hp
    rw [hp]
    refine { mq := h.mq, dir := h.dir, off := h.off, on := ?_, log := h.log, dirs := h.dirs }
    intro hr
    obtain ⟨e, es, h1, h2, h3, h4, h5, h6, h7⟩ := h.on hr
    refine ⟨e, es, h1, h2, h3, h4, h5, h6, ?_⟩
    rcases h7 with h7 | h7
    · exact Or.inl { out := h7.out, irq := h7.irq, shadow := h7.shadow, period := h7.period, ena := h7.ena, pause := h7.pause, steps := h7.steps }
    · exact Or.inr { timer := h7.timer, val := h7.val, pause := h7.pause, steps := h7.steps }
  | addBegin c st =>
    simp only [Mcpwm.accepts, List.append_nil]
    cases hpc : s.pc with
    | idle =>
      simp only
      by_cases h1 : (!s.q.ready) = true
      · rw [if_pos h1]; exact h
      rw [if_neg h1]
      by_cases h2 : s.q.isQueueFull .esp32 = true
      · rw [if_pos h2]; exact h
      rw [if_neg h2]
      by_cases h3 : Queue.commandRateTicks c < ArchId.esp32.minCmdTicks
      · rw [if_pos h3]; exact h
      rw [if_neg h3]
      refine h.prepare c st ?_ hp
      have h4 := h.mq.idx.2.2
      have h5 : s.q.queueEntries ≠ ArchId.esp32.queueLen := by
        intro hx
        apply h2
        unfold Queue.isQueueFull
        rw [hx]
        simp
      omega
    | prepared n c' st' => exact h
    | committed st' => exact h
  | addCommit =>
    cases hpc : s.pc with
    | idle => simp only [Mcpwm.accepts, hpc, List.append_nil]; exact h
    | committed st => simp only [Mcpwm.accepts, hpc, List.append_nil]; exact h
    | prepared next c st =>
      simp only [Mcpwm.accepts, hpc, h.mq.ign]
      by_cases hrd : s.q.ready = true
      · have e : (if (s.q.ready && !false) = true then [c] else []) = [c] := by rw [hrd]; rfl
        rw [e, commit_ok s.q next hrd h.mq.ign]
        exact h.commit hpc
      · have hrd : s.q.ready = false := by simpa using hrd
        have hc : s.q.commit next = (s.q, false) := by simp [Queue.commit, h.mq.ign, hrd]
        rw [hc, hrd]
        simp only [Bool.false_and, Bool.false_eq_true, if_false, List.append_nil]
        exact h.leave
  | addFinish =>
    simp only [Mcpwm.accepts, List.append_nil]
    cases hpc : s.pc with
    | idle => exact h
    | prepared n c st => exact h
    | committed st =>
      simp only
      by_cases hx : (!s.q.running && st) = true
      · rw [if_pos hx]
        rw [Bool.and_eq_true, Bool.not_eq_true'] at hx
        refine h.leave.start hx.1 ?_
        rcases hp with hp | hp
        · rw [hx.1] at hp; cases hp
        · exact hp
      · rw [if_neg hx]; exact h.leave
  | startNull =>
    simp only [Mcpwm.accepts, List.append_nil]
    cases hpc : s.pc with
    | prepared n c st => exact h
    | committed st => exact h
    | idle =>
      simp only
      by_cases hx : (s.q.addNull true).start = true
      · rw [if_pos hx]
        have hx : s.q.running = false ∧ s.q.nextWriteIdx ≠ s.q.readIdx := by
          unfold Queue.addNull at hx
          split at hx
          · cases hx
          split at hx
          · next hy =>
            split at hx
            · cases hx
            · next hz => exact ⟨by simpa using hy, hz⟩
          · cases hx
        exact h.start hx.1 (fun hy => hx.2 hy.symm)
      · rw [if_neg hx]; exact h
  | forceStop p => exact hp.elim
  | clearIgnore =>
    simp only [Mcpwm.accepts, List.append_nil]
    have : ({ s with q := { s.q with ignoreCommands := false } } : Mcpwm ShadowPcnt) = s := by rw [← h.mq.ign]
    rw [this]
    exact h

/-- schedules keep the invariant -/
theorem MInv.run {lvl D} (hD : ∀ u, D u (lvl u)) : ∀ (evs : List Mcpwm.Ev) {s acc}, MInv lvl D s acc → Mcpwm.Along shadowPcnt Mcpwm.Basic s evs →
    MInv lvl D (Mcpwm.track shadowPcnt s acc evs).1 (Mcpwm.track shadowPcnt s acc evs).2
  | [], _, _, h, _ => h
  | ev :: evs, _, _, h, hp => MInv.run hD evs (h.step hD ev hp.1) hp.2

theorem MInv.idle {s : Mcpwm ShadowPcnt} (h : s.Idle) :
    MInv (fun u => if s.q.dirPin = pinUndefined then s.q.dirLevel else (u == s.q.dirHighCountsUp)) (DirOK s.q.dirPin s.q.dirHighCountsUp) s [] := by
  have hn : s.q.queueEntries = 0 := by
    have := h.idx
    unfold Queue.queueEntries subU8
    omega
  have hpn : s.q.pending .esp32 = [] := (Queue.pending_nil_iff _ _).mpr hn
  refine { mq := { idx := ⟨h.idx.2, by have := h.idx; omega, by rw [hn]; omega⟩, ign := h.ign, pin := h.pin, lv := fun _ => rfl, norep := ?_, ent := ?_, prep := ?_ }
           dir := fun _ => Or.inl ⟨hpn, h.pc⟩, off := fun _ => ⟨h.timer.2, h.irqs.2, h.irqs.1, h.timer.1⟩, on := ?_, log := ?_, dirs := ?_ }
  · rw [hpn]; intro e he; cases he
  · rw [hpn]; intro e he; cases he
  · intro n c st hx; rw [h.pc] at hx; cases hx
  · intro hx; rw [h.run] at hx; cases hx
  · rw [Mcpwm.todo_stop h.run, hpn, h.log]; rfl
  · rw [h.log]; intro x hx; cases hx

/-! ## all commands are executed -/

theorem mcpwm_apply_frame {σ : Type} (hw : PcntHw σ) (s : Mcpwm σ) (e : Entry) :
    (s.apply hw e).log = s.log ∧ (s.apply hw e).timer = s.timer ∧ (s.apply hw e).run = s.run ∧ (s.apply hw e).pc = s.pc ∧
      (s.apply hw e).q.running = s.q.running ∧ (s.apply hw e).q.readIdx = s.q.readIdx ∧ (s.apply hw e).q.nextWriteIdx = s.q.nextWriteIdx ∧ QSame s.q (s.apply hw e).q := by
  unfold Mcpwm.apply
  dsimp only
  cases e.toggleDir
  · by_cases h0 : e.steps = 0
    · rw [if_pos h0]; exact ⟨rfl, rfl, rfl, rfl, rfl, rfl, rfl, ⟨rfl, rfl, rfl, rfl⟩⟩
    · rw [if_neg h0]
      by_cases h1 : hw.lim s.pcnt ≠ e.steps
      · rw [if_pos h1]; exact ⟨rfl, rfl, rfl, rfl, rfl, rfl, rfl, ⟨rfl, rfl, rfl, rfl⟩⟩
      · rw [if_neg h1]; exact ⟨rfl, rfl, rfl, rfl, rfl, rfl, rfl, ⟨rfl, rfl, rfl, rfl⟩⟩
  · by_cases h0 : e.steps = 0
    · rw [if_pos h0]; exact ⟨rfl, rfl, rfl, rfl, rfl, rfl, rfl, ⟨rfl, rfl, rfl, rfl⟩⟩
    · rw [if_neg h0]
      by_cases h1 : hw.lim s.pcnt ≠ e.steps
      · rw [if_pos h1]; exact ⟨rfl, rfl, rfl, rfl, rfl, rfl, rfl, ⟨rfl, rfl, rfl, rfl⟩⟩
      · rw [if_neg h1]; exact ⟨rfl, rfl, rfl, rfl, rfl, rfl, rfl, ⟨rfl, rfl, rfl, rfl⟩⟩

theorem mcpwm_next_frame {σ : Type} (hw : PcntHw σ) (s : Mcpwm σ) :
    (s.whatIsNext hw).log = s.log ∧ (s.whatIsNext hw).timer = s.timer ∧ (s.whatIsNext hw).pc = s.pc ∧
      ((s.whatIsNext hw).q.running = s.q.running ∨ ((s.whatIsNext hw).q.readIdx = (s.whatIsNext hw).q.nextWriteIdx ∧ (s.whatIsNext hw).pcnt = s.pcnt)) ∧
      ∃ q0, (q0 = s.q ∨ (s.q.readIdx ≠ s.q.nextWriteIdx ∧ (s.q.slot .esp32 s.q.readIdx).repeatEntry = false ∧ q0 = s.q.complete)) ∧ QSame q0 (s.whatIsNext hw).q := by
  have hstop : ∀ (t : Mcpwm σ) (q0 : Queue), t.q.readIdx = t.q.nextWriteIdx → t.log = s.log → t.timer = s.timer → t.pc = s.pc → QSame q0 t.q → t.pcnt = s.pcnt →
      t.initStop.log = s.log ∧ t.initStop.timer = s.timer ∧ t.initStop.pc = s.pc ∧
      (t.initStop.q.running = s.q.running ∨ (t.initStop.q.readIdx = t.initStop.q.nextWriteIdx ∧ t.initStop.pcnt = s.pcnt)) ∧ QSame q0 t.initStop.q :=
        fun t q0 h1 h2 h3 h4 h5 h6 => ⟨h2, h3, h4, Or.inr ⟨h1, h6⟩, ⟨h5.entry, h5.rd, h5.wr, h5.pos⟩⟩
  unfold Mcpwm.whatIsNext
  dsimp only
  by_cases h1 : s.q.readIdx = s.q.nextWriteIdx
  · rw [if_pos h1]
    obtain ⟨k1, k2, k3, k4, k5⟩ := hstop { s with prepared := false } s.q h1 rfl rfl rfl (QSame.refl _) rfl
    exact ⟨k1, k2, k3, k4, s.q, Or.inl rfl, k5⟩
  rw [if_neg h1]
  generalize hrep : (s.q.slot .esp32 s.q.readIdx).repeatEntry = rep
  have hgo : ∀ (t : Mcpwm σ) (q0 : Queue), QSame q0 t.q → t.pcnt = s.pcnt → t.log = s.log → t.timer = s.timer → t.pc = s.pc → t.q.running = s.q.running → ∀ u : Mcpwm σ,
      u = (if t.q.readIdx = t.q.nextWriteIdx then t.initStop else
        (if rep then (if s.prepared then t else { t with pcnt := hw.clear (Mcpwm.prepareNext hw (t.q.slot .esp32 t.q.readIdx) t.pcnt) }).apply hw (t.q.slot .esp32 t.q.readIdx)
        else if u8 (((if s.prepared then t else { t with pcnt := hw.clear (Mcpwm.prepareNext hw (t.q.slot .esp32 t.q.readIdx) t.pcnt) }).apply hw (t.q.slot .esp32 t.q.readIdx)).q.readIdx + 1) =
            ((if s.prepared then t else { t with pcnt := hw.clear (Mcpwm.prepareNext hw (t.q.slot .esp32 t.q.readIdx) t.pcnt) }).apply hw (t.q.slot .esp32 t.q.readIdx)).q.nextWriteIdx then
          (if s.prepared then t else { t with pcnt := hw.clear (Mcpwm.prepareNext hw (t.q.slot .esp32 t.q.readIdx) t.pcnt) }).apply hw (t.q.slot .esp32 t.q.readIdx)
        else
          { (if s.prepared then t else { t with pcnt := hw.clear (Mcpwm.prepareNext hw (t.q.slot .esp32 t.q.readIdx) t.pcnt) }).apply hw (t.q.slot .esp32 t.q.readIdx) with
            prepared := true
            pcnt := Mcpwm.prepareNext hw (((if s.prepared then t else { t with pcnt := hw.clear (Mcpwm.prepareNext hw (t.q.slot .esp32 t.q.readIdx) t.pcnt) }).apply hw
              (t.q.slot .esp32 t.q.readIdx)).q.slot .esp32 (u8 (((if s.prepared then t else { t with pcnt := hw.clear (Mcpwm.prepareNext hw (t.q.slot .esp32 t.q.readIdx) t.pcnt) }).apply hw
              (t.q.slot .esp32 t.q.readIdx)).q.readIdx + 1))) ((if s.prepared then t else { t with pcnt := hw.clear (Mcpwm.prepareNext hw (t.q.slot .esp32 t.q.readIdx) t.pcnt) }).apply hw
              (t.q.slot .esp32 t.q.readIdx)).pcnt })) →
      u.log = s.log ∧ u.timer = s.timer ∧ u.pc = s.pc ∧ (u.q.running = s.q.running ∨ (u.q.readIdx = u.q.nextWriteIdx ∧ u.pcnt = s.pcnt)) ∧ QSame q0 u.q := by
    intro t q0 t0 tp t1 t2 t3 t4 u hu
    by_cases h2 : t.q.readIdx = t.q.nextWriteIdx
    · rw [if_pos h2] at hu; rw [hu]; exact hstop t q0 h2 t1 t2 t3 t0 tp
    rw [if_neg h2] at hu
    generalize ht' : (if s.prepared then t else { t with pcnt := hw.clear (Mcpwm.prepareNext hw (t.q.slot .esp32 t.q.readIdx) t.pcnt) }) = t' at hu
    have hf : t'.log = s.log ∧ t'.timer = s.timer ∧ t'.pc = s.pc ∧ t'.q.running = s.q.running ∧ QSame q0 t'.q := by
      rw [← ht']
      cases s.prepared <;> exact ⟨t1, t2, t3, t4, t0⟩
    obtain ⟨a1, a2, a3, a4, a5, a6, a7, a8⟩ := mcpwm_apply_frame hw t' (t.q.slot .esp32 t.q.readIdx)
    generalize t'.apply hw (t.q.slot .esp32 t.q.readIdx) = w at *
    have hw' : w.log = s.log ∧ w.timer = s.timer ∧ w.pc = s.pc ∧ w.q.running = s.q.running ∧ QSame q0 w.q :=
      ⟨a1.trans hf.1, a2.trans hf.2.1, a4.trans hf.2.2.1, a5.trans hf.2.2.2.1, a8.entry.trans hf.2.2.2.2.entry, a8.rd.trans hf.2.2.2.2.rd,
        a8.wr.trans hf.2.2.2.2.wr, a8.pos.trans hf.2.2.2.2.pos⟩
    have hfin : ∀ x : Mcpwm σ, x.log = w.log → x.timer = w.timer → x.pc = w.pc → x.q = w.q →
        x.log = s.log ∧ x.timer = s.timer ∧ x.pc = s.pc ∧ (x.q.running = s.q.running ∨ (x.q.readIdx = x.q.nextWriteIdx ∧ x.pcnt = s.pcnt)) ∧ QSame q0 x.q := by
      intro x x1 x2 x3 x4
      exact ⟨x1.trans hw'.1, x2.trans hw'.2.1, x3.trans hw'.2.2.1, Or.inl (by rw [x4]; exact hw'.2.2.2.1), by rw [x4]; exact hw'.2.2.2.2⟩
    rw [hu]
    cases rep with
    | true => rw [if_pos rfl]; exact hfin w rfl rfl rfl rfl
    | false =>
      rw [if_neg (by decide)]
      by_cases h3 : u8 (w.q.readIdx + 1) = w.q.nextWriteIdx
      · rw [if_pos h3]; exact hfin w rfl rfl rfl rfl
      · rw [if_neg h3]; exact hfin _ rfl rfl rfl rfl
  cases rep with
  | true =>
    obtain ⟨k1, k2, k3, k4, k5⟩ := hgo { s with prepared := false } s.q (QSame.refl _) rfl rfl rfl rfl rfl _ rfl
    exact ⟨k1, k2, k3, k4, s.q, Or.inl rfl, k5⟩
  | false =>
    obtain ⟨k1, k2, k3, k4, k5⟩ := hgo { s with prepared := false, q := s.q.complete } s.q.complete (QSame.refl _) rfl rfl rfl rfl rfl _ rfl
    exact ⟨k1, k2, k3, k4, s.q.complete, Or.inr ⟨h1, rfl, rfl⟩, k5⟩

/-- started, or nothing left -/
def Mcpwm.Busy {σ : Type} (s : Mcpwm σ) : Prop := s.q.running = true ∨ s.q.readIdx = s.q.nextWriteIdx

theorem Mcpwm.served_of {σ : Type} {s : Mcpwm σ} (hs : (s.irq || (s.tea && s.ena)) = false) : s.Served := by
  rw [Bool.or_eq_false_iff] at hs
  exact hs

/-- the interrupts of a period -/
theorem MInv.serve {lvl D s acc} (h : MInv lvl D s acc) (hD : ∀ u, D u (lvl u)) (hb : s.Busy) :
    ∃ t, t = (s.step shadowPcnt .pcntIsr).step shadowPcnt .teaIsr ∧ MInv lvl D t acc ∧ t.Served ∧ t.Busy ∧ t.log = s.log ∧ t.timer = s.timer := by
  refine ⟨_, rfl, ?_⟩
  have h1 := h.step hD .pcntIsr trivial
  have h2 := h1.step hD .teaIsr trivial
  simp only [Mcpwm.accepts, List.append_nil] at h1 h2
  have hbusy : ∀ (t : Mcpwm ShadowPcnt), t.Busy → (t.whatIsNext shadowPcnt).sync.Busy := by
    intro t ht
    obtain ⟨_, _, _, f4, _⟩ := mcpwm_next_frame shadowPcnt t
    rcases f4 with f4 | f4
    · rcases ht with ht | ht
      · exact Or.inl (f4.trans ht)
      · refine Or.inr ?_
        have : t.whatIsNext shadowPcnt = Mcpwm.initStop { t with prepared := false } := by
          unfold Mcpwm.whatIsNext
          dsimp only
          rw [if_pos ht]
        rw [this]; exact ht
    · exact Or.inr f4.1
  have hf1 : (s.step shadowPcnt .pcntIsr).log = s.log ∧ (s.step shadowPcnt .pcntIsr).timer = s.timer ∧ (s.step shadowPcnt .pcntIsr).Busy := by
    unfold Mcpwm.step
    dsimp only
    by_cases hx : s.irq = true
    · rw [if_pos hx]
      obtain ⟨f1, f2, _, _⟩ := mcpwm_next_frame shadowPcnt { s with irq := false }
      exact ⟨f1, f2, hbusy { s with irq := false } hb⟩
    · rw [if_neg hx]; exact ⟨rfl, rfl, hb⟩
  have hf2 : ∀ t : Mcpwm ShadowPcnt, t.Busy → (t.step shadowPcnt .teaIsr).log = t.log ∧ (t.step shadowPcnt .teaIsr).timer = t.timer ∧ (t.step shadowPcnt .teaIsr).Busy := by
    intro t hb
    unfold Mcpwm.step
    dsimp only
    by_cases hx : (t.tea && t.ena) = true
    · rw [if_pos hx]
      obtain ⟨f1, f2, _, _⟩ := mcpwm_next_frame shadowPcnt t
      exact ⟨f1, f2, hbusy t hb⟩
    · rw [if_neg hx]; exact ⟨rfl, rfl, hb⟩
  obtain ⟨g1, g2, g3⟩ := hf1
  obtain ⟨k1, k2, k3⟩ := hf2 _ g3
  refine ⟨h2, ?_, k3, k1.trans g1, k2.trans g2⟩
  -- no interrupt is pending any more
  have hnp : ∀ (u : Mcpwm ShadowPcnt), MInv lvl D u acc → u.Served ∨ ∃ e es, u.q.pending .esp32 = e :: es ∧ u.q.running = true ∧ MFin u e := by
    intro u hu
    cases hr : u.q.running with
    | false =>
      obtain ⟨_, o2, o3, _⟩ := hu.off hr
      exact Or.inl ⟨o3, by rw [o2]; simp⟩
    | true =>
      obtain ⟨e, es, q1, _, _, _, _, _, q7⟩ := hu.on hr
      rcases q7 with q7 | q7
      · exact Or.inl (Mcpwm.served_of q7.served)
      · exact Or.inr ⟨e, es, q1, rfl, q7⟩
  have hclean : ∀ (u : Mcpwm ShadowPcnt), MInv lvl D u acc → (u.irq || (u.tea && u.ena)) = true →
      (({ u with irq := false } : Mcpwm ShadowPcnt).whatIsNext shadowPcnt).sync.Served := by
    intro u hu hx
    have hrun : u.q.running = true := by
      cases hr : u.q.running with
      | true => rfl
      | false =>
        obtain ⟨o1, o2, o3, o4⟩ := hu.off hr
        rw [o3, o2] at hx
        simp at hx
    obtain ⟨e, es, q1, q2, q3, q4, q5, q6, q7⟩ := hu.on hrun
    rcases q7 with q7 | q7
    · rw [q7.served] at hx; cases hx
    obtain ⟨hqc, hpc, hsl, hne, hemp⟩ := hu.mq.complete q1
    have hrep : e.repeatEntry = false := hu.mq.norep e (by rw [q1]; simp)
    unfold Mcpwm.whatIsNext
    dsimp only
    rw [if_neg hne, hsl, hrep]
    simp only [Bool.false_eq_true, if_false]
    by_cases h0 : es = []
    · rw [if_pos (hemp.mpr h0)]
      exact ⟨rfl, by change (u.tea && false) = false; simp⟩
    · rw [if_neg (fun hx => h0 (hemp.mp hx))]
      cases es with
      | nil => exact absurd rfl h0
      | cons f fs =>
        obtain ⟨_, _, hsl2, _, _⟩ := hqc.complete hpc
        rw [hsl2]
        have hf : f.steps < 256 := hqc.ent f (by rw [hpc]; simp)
        have key : ∀ s1 : Mcpwm ShadowPcnt, s1.irq = false → s1.pcnt.val = 0 → (s1.apply shadowPcnt f).irq = false ∧
            ((s1.apply shadowPcnt f).tea && (s1.apply shadowPcnt f).ena) = false := by
          intro s1 k1 k2
          obtain ⟨t, p, hap, _, g2, _⟩ := mcpwm_apply s1 f k2 hf
          rw [hap]
          refine ⟨k1, ?_⟩
          by_cases hz : f.steps = 0
          · rw [g2 hz]; rfl
          · simp [hz]
        have hfin : ∀ s1 : Mcpwm ShadowPcnt, s1.irq = false → s1.pcnt.val = 0 →
            (if u8 ((s1.apply shadowPcnt f).q.readIdx + 1) = (s1.apply shadowPcnt f).q.nextWriteIdx then s1.apply shadowPcnt f
            else { s1.apply shadowPcnt f with
                   prepared := true
                   pcnt := Mcpwm.prepareNext shadowPcnt ((s1.apply shadowPcnt f).q.slot .esp32 (u8 ((s1.apply shadowPcnt f).q.readIdx + 1)))
                     (s1.apply shadowPcnt f).pcnt }).sync.Served := by
          intro s1 k1 k2
          have := key s1 k1 k2
          split
          · exact this
          · exact this
        by_cases hpr : u.prepared = true
        · rw [if_pos hpr]
          exact hfin { u with irq := false, prepared := false, q := u.q.complete } rfl q7.val
        · rw [if_neg hpr]
          exact hfin { u with irq := false, prepared := false, q := u.q.complete, pcnt := shadowPcnt.clear (Mcpwm.prepareNext shadowPcnt f u.pcnt) } rfl rfl
  -- serving
  have hsame : ∀ u : Mcpwm ShadowPcnt, u.Served → u.step shadowPcnt .teaIsr = u.sync := by
    intro u hu
    unfold Mcpwm.step
    dsimp only
    rw [if_neg (by rw [hu.2]; decide)]
  by_cases hx : s.irq = true
  · have hs1 : s.step shadowPcnt .pcntIsr = (({ s with irq := false } : Mcpwm ShadowPcnt).whatIsNext shadowPcnt).sync := by
      unfold Mcpwm.step
      dsimp only
      rw [if_pos hx]
    have := hclean s h (by rw [hx]; rfl)
    rw [hs1, hsame _ this]
    exact this
  · have hs1 : s.step shadowPcnt .pcntIsr = s.sync := by
      unfold Mcpwm.step
      dsimp only
      rw [if_neg hx]
    have hi0 : s.irq = false := by simpa using hx
    rw [hs1]
    by_cases hy : (s.tea && s.ena) = true
    · have hs2 : s.sync.step shadowPcnt .teaIsr = (({ s.sync with irq := false } : Mcpwm ShadowPcnt).whatIsNext shadowPcnt).sync := by
        have : ({ s.sync with irq := false } : Mcpwm ShadowPcnt) = s.sync := by
          have : s.sync.irq = false := hi0
          rw [← this]
        rw [this]
        unfold Mcpwm.step
        dsimp only
        rw [if_pos (show (s.sync.tea && s.sync.ena) = true from hy)]
      rw [hs2]
      exact hclean s.sync h.sync (by
        change (s.irq || (s.tea && s.ena)) = true
        rw [hy]; simp)
    · have hs0 : s.sync.Served := ⟨hi0, Bool.eq_false_iff.mpr hy⟩
      rw [hsame _ hs0]
      exact hs0

/-- one period with its interrupts served in time -/
theorem MInv.round {lvl D s acc} (h : MInv lvl D s acc) (hD : ∀ u, D u (lvl u)) (hb : s.Busy) :
    ∃ t, t = s.exec shadowPcnt Mcpwm.round ∧ MInv lvl D t acc ∧ t.Busy ∧ (t.q.running = true → t.timer = .low) ∧
      s.log.length ≤ t.log.length ∧ (s.timer = .low → s.log.length < t.log.length) := by
  refine ⟨_, rfl, ?_⟩
  have h1 := h.step hD .compare trivial
  simp only [Mcpwm.accepts, List.append_nil] at h1
  have hc : (s.step shadowPcnt .compare).Busy ∧ s.log.length ≤ (s.step shadowPcnt .compare).log.length ∧
      (s.timer = .low → s.log.length < (s.step shadowPcnt .compare).log.length) := by
    unfold Mcpwm.step
    dsimp only
    by_cases ht : s.timer = .low
    · rw [if_pos ht]
      unfold Mcpwm.compare
      dsimp only
      cases s.out
      · exact ⟨hb, by change _ ≤ (_ :: s.log).length; simp, fun _ => by change _ < (_ :: s.log).length; simp⟩
      · exact ⟨hb, by change _ ≤ (_ :: s.log).length; simp, fun _ => by change _ < (_ :: s.log).length; simp⟩
    · rw [if_neg ht]
      exact ⟨hb, Nat.le_refl _, fun hx => absurd hx ht⟩
  obtain ⟨t, ht, k1, k2, k3, k4, k5⟩ := h1.serve hD hc.1
  have hex : s.exec shadowPcnt Mcpwm.round = t.step shadowPcnt .zero := by rw [ht]; rfl
  rw [hex]
  have h2 := k1.step hD .zero k2
  simp only [Mcpwm.accepts, List.append_nil] at h2
  have hz : (t.step shadowPcnt .zero).q.running = t.q.running ∧ (t.step shadowPcnt .zero).log = t.log ∧ (t.step shadowPcnt .zero).Busy ∧
      (t.q.running = true → (t.step shadowPcnt .zero).timer = .low) := by
    have hon : t.q.running = true → t.run = true ∧ t.timer ≠ .stopped := by
      intro hr
      obtain ⟨e, es, _, _, _, q4, q5, _, _⟩ := k1.on hr
      exact ⟨q4, q5⟩
    unfold Mcpwm.step
    dsimp only
    by_cases hh : t.timer = .high
    · rw [if_pos hh]
      refine ⟨rfl, rfl, k3, ?_⟩
      intro hr
      change (if t.run then McTimer.low else McTimer.stopped) = _
      rw [(hon hr).1]; rfl
    · rw [if_neg hh]
      refine ⟨rfl, rfl, k3, ?_⟩
      intro hr
      change t.timer = _
      have := (hon hr).2
      cases hx : t.timer with
      | low => rfl
      | high => exact absurd hx hh
      | stopped => exact absurd hx this
  refine ⟨h2, hz.2.2.1, ?_, ?_, ?_⟩
  · rw [hz.1]; exact hz.2.2.2
  · rw [hz.2.1, k4]; exact hc.2.1
  · rw [hz.2.1, k4]; exact hc.2.2

theorem Mcpwm.exec_append {σ : Type} (hw : PcntHw σ) (s : Mcpwm σ) (a b : List Mcpwm.Ev) : s.exec hw (a ++ b) = (s.exec hw a).exec hw b := by
  unfold Mcpwm.exec; rw [List.foldl_append]

/-- a stopped queue stays as it is -/
theorem MInv.rounds_off {lvl D} (hD : ∀ u, D u (lvl u)) {acc} : ∀ (m : Nat) {v : Mcpwm ShadowPcnt}, MInv lvl D v acc → v.q.running = false →
    (v.exec shadowPcnt (Mcpwm.rounds m)).q.running = false ∧ MInv lvl D (v.exec shadowPcnt (Mcpwm.rounds m)) acc ∧
      (v.exec shadowPcnt (Mcpwm.rounds m)).q.pending .esp32 = v.q.pending .esp32 ∧ (0 < m → (v.exec shadowPcnt (Mcpwm.rounds m)).timer = .stopped) := by
  intro m
  induction m with
  | zero => intro v hv hvr; exact ⟨hvr, hv, rfl, fun hx => absurd hx (Nat.lt_irrefl _)⟩
  | succ m ihm =>
    intro v hv hvr
    have e1 : v.exec shadowPcnt (Mcpwm.rounds (m + 1)) = (v.exec shadowPcnt Mcpwm.round).exec shadowPcnt (Mcpwm.rounds m) := by
      rw [← Mcpwm.exec_append]; simp only [Mcpwm.rounds, List.replicate_succ, List.flatten_cons]
    rw [e1]
    obtain ⟨o1, o2, o3, o4⟩ := hv.off hvr
    have e2 : v.exec shadowPcnt Mcpwm.round = v.sync.sync.sync.step shadowPcnt .zero := by
      change (((v.step shadowPcnt .compare).step shadowPcnt .pcntIsr).step shadowPcnt .teaIsr).step shadowPcnt .zero = _
      have a1 : v.step shadowPcnt .compare = v.sync := by
        unfold Mcpwm.step; dsimp only; rw [if_neg o4]
      have a2 : v.sync.step shadowPcnt .pcntIsr = v.sync.sync := by
        unfold Mcpwm.step; dsimp only; rw [if_neg (show ¬ v.sync.irq = true by change ¬ v.irq = true; rw [o3]; decide)]
      have a3 : v.sync.sync.step shadowPcnt .teaIsr = v.sync.sync.sync := by
        unfold Mcpwm.step; dsimp only
        rw [if_neg (show ¬ (v.sync.sync.tea && v.sync.sync.ena) = true by change ¬ (v.tea && v.ena) = true; rw [o2]; simp)]
      rw [a1, a2, a3]
    rw [e2]
    have hs3 := hv.sync.sync.sync.step hD .zero ⟨o3, by change (v.tea && v.ena) = false; rw [o2]; simp⟩
    simp only [Mcpwm.accepts, List.append_nil] at hs3
    have hz : (v.sync.sync.sync.step shadowPcnt .zero).q.running = false ∧ (v.sync.sync.sync.step shadowPcnt .zero).q.pending .esp32 = v.q.pending .esp32 ∧
        (v.sync.sync.sync.step shadowPcnt .zero).timer = .stopped := by
      unfold Mcpwm.step
      dsimp only
      by_cases ht : v.timer = .high
      · rw [if_pos (show v.sync.sync.sync.timer = .high from ht)]
        refine ⟨hvr, rfl, ?_⟩
        change (if v.run then McTimer.low else McTimer.stopped) = .stopped
        rw [o1]; rfl
      · rw [if_neg (show ¬ v.sync.sync.sync.timer = .high from ht)]
        refine ⟨hvr, rfl, ?_⟩
        change v.timer = .stopped
        cases hx : v.timer with
        | stopped => rfl
        | low => exact absurd hx o4
        | high => exact absurd hx ht
    obtain ⟨i1, i2, i3, i4⟩ := ihm hs3 hz.1
    refine ⟨i1, i2, i3.trans hz.2.1, fun _ => ?_⟩
    cases m with
    | zero => exact hz.2.2
    | succ m => exact i4 (Nat.succ_pos _)

theorem MInv.rounds {lvl D} (hD : ∀ u, D u (lvl u)) {acc} : ∀ (n : Nat) {s}, MInv lvl D s acc → s.Busy →
    ∃ t, t = s.exec shadowPcnt (Mcpwm.rounds n) ∧ MInv lvl D t acc ∧ t.Busy ∧ s.log.length ≤ t.log.length ∧
      (s.q.running = true → (t.q.running = true → t.timer = .low ∨ n = 0) ∧
        (t.q.running = true → s.log.length + n ≤ t.log.length + (if s.timer = .low then 0 else 1))) := by
  intro n
  induction n with
  | zero =>
    intro s h hb
    exact ⟨s, rfl, h, hb, Nat.le_refl _, fun _ => ⟨fun _ => Or.inr rfl, fun _ => by omega⟩⟩
  | succ n ih =>
    intro s h hb
    obtain ⟨t, ht, r1, r2, r3, r4, r5⟩ := h.round hD hb
    obtain ⟨u, hu, q1, q2, q3, q4⟩ := ih r1 r2
    refine ⟨u, ?_, q1, q2, by omega, ?_⟩
    · rw [hu, ht, ← Mcpwm.exec_append]
      simp only [Mcpwm.rounds, List.replicate_succ, List.flatten_cons]
    · intro hrun
      have hback : u.q.running = true → t.q.running = true := by
        intro hur
        cases htr : t.q.running with
        | true => rfl
        | false =>
          -- a stopped queue without commands stays stopped
          exfalso
          have hne : t.q.readIdx = t.q.nextWriteIdx := by
            rcases r2 with r2 | r2
            · rw [htr] at r2; cases r2
            · exact r2
          have := (MInv.rounds_off hD n r1 htr).1
          rw [← hu, hur] at this
          cases this
      refine ⟨?_, ?_⟩
      · intro hur
        have htr := hback hur
        rcases (q4 htr).1 hur with hx | hx
        · exact Or.inl hx
        · left
          subst hx
          have : u = t := by rw [hu]; rfl
          rw [this]; exact r3 htr
      · intro hur
        have htr := hback hur
        have h1 := (q4 htr).2 hur
        rw [if_pos (r3 htr)] at h1
        by_cases hl : s.timer = .low
        · rw [if_pos hl]
          have := r5 hl
          omega
        · rw [if_neg hl]
          omega

end FAS
