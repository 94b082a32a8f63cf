import Verif.Spec.Due
import Verif.Lemmas.RmtInv

/-! The invariant of the SAM Due backend and its preservation by every event. -/

namespace FAS

/-- `q'` is `q` with another head entry `x` -/
structure HeadMod (q q' : Queue) (x : Entry) : Prop where
  pend : q'.pending .sam = x :: q.complete.pending .sam
  idx : q'.IdxOK .sam
  rd : q'.readIdx = q.readIdx
  wr : q'.nextWriteIdx = q.nextWriteIdx
  ign : q'.ignoreCommands = q.ignoreCommands
  run : q'.running = q.running
  ready : q'.ready = q.ready
  pin : q'.dirPin = q.dirPin
  hi : q'.dirHighCountsUp = q.dirHighCountsUp
  qend : q'.qend = q.qend
  free : q.queueEntries < ArchId.sam.queueLen → q'.slot .sam q.nextWriteIdx = q.slot .sam q.nextWriteIdx
  head : q'.slot .sam q.readIdx = x

theorem HeadMod.entries {q q' x} (h : HeadMod q q' x) : q'.queueEntries = q.queueEntries := by
  unfold Queue.queueEntries; rw [h.rd, h.wr]

theorem HeadMod.complete {q q' x} (h : HeadMod q q' x) (hn : q.queueEntries ≠ 0) :
    q'.complete.pending .sam = q.complete.pending .sam ∧ q'.complete.IdxOK .sam := by
  obtain ⟨h1, h2, _⟩ := Queue.pending_cons .sam q' h.idx (by rw [h.entries]; exact hn)
  rw [h.pend] at h1
  injection h1 with _ h1
  exact ⟨h1.symm, h2⟩

theorem HeadMod.trans {q q' q'' x y} (h : HeadMod q q' x) (h' : HeadMod q' q'' y) (hn : q.queueEntries ≠ 0) : HeadMod q q'' y :=
  { pend := by rw [h'.pend, (h.complete hn).1], idx := h'.idx, rd := h'.rd.trans h.rd, wr := h'.wr.trans h.wr, ign := h'.ign.trans h.ign
    run := h'.run.trans h.run, ready := h'.ready.trans h.ready, pin := h'.pin.trans h.pin, hi := h'.hi.trans h.hi, qend := h'.qend.trans h.qend
    free := fun hx => by rw [← h.wr, h'.free (by rw [h.entries]; exact hx), h.wr, h.free hx]
    head := by rw [← h.rd, h'.head] }

theorem HeadMod.refl (q : Queue) (hi : q.IdxOK .sam) (hn : q.queueEntries ≠ 0) : HeadMod q q (q.slot .sam q.readIdx) :=
  { pend := (Queue.pending_cons .sam q hi hn).1, idx := hi, rd := rfl, wr := rfl, ign := rfl, run := rfl, ready := rfl, pin := rfl, hi := rfl
    qend := rfl, free := fun _ => rfl, head := rfl }

theorem due_dec (q : Queue) (hi : q.IdxOK .sam) (hn : q.queueEntries ≠ 0) :
    HeadMod q (Due.decSteps q) { q.slot .sam q.readIdx with steps := subU8 (q.slot .sam q.readIdx).steps 1 } ∧
      (Due.decSteps q).dirLevel = q.dirLevel := by
  have hm := Queue.pending_modify_head .sam q (fun e => { e with steps := subU8 e.steps 1 }) hi hn (Due.decSteps q) rfl rfl rfl
  refine ⟨{ pend := hm.1, idx := hm.2, rd := rfl, wr := rfl, ign := rfl, run := rfl, ready := rfl, pin := rfl, hi := rfl, qend := rfl
            free := ?_, head := ?_ }, rfl⟩
  · intro hlt
    have := slot_write_ne (a := .sam) hi hn hlt
    simp only [Due.decSteps, Queue.slot]
    rw [if_neg this]
  · simp [Due.decSteps, Queue.slot]

theorem due_toggle (q : Queue) (hi : q.IdxOK .sam) (hn : q.queueEntries ≠ 0) :
    HeadMod q (Due.toggleHead q) { q.slot .sam q.readIdx with toggleDir := false } ∧
      (Due.toggleHead q).dirLevel = ((q.slot .sam q.readIdx).toggleDir != q.dirLevel) := by
  by_cases htd : (q.slot .sam q.readIdx).toggleDir = true
  · have htd' : (q.entry (q.readIdx % ArchId.sam.queueLen)).toggleDir = true := htd
    have heq : Due.toggleHead q = { q with
        dirLevel := !q.dirLevel
        entry := fun j => if j = q.readIdx % ArchId.sam.queueLen then
          { q.entry (q.readIdx % ArchId.sam.queueLen) with toggleDir := false } else q.entry j } := by
      unfold Due.toggleHead
      dsimp only
      rw [if_pos htd']
    have hm := Queue.pending_modify_head .sam q (fun e => { e with toggleDir := false }) hi hn (Due.toggleHead q)
      (by rw [heq]) (by rw [heq]) (by rw [heq])
    refine ⟨{ pend := hm.1, idx := hm.2, rd := by rw [heq], wr := by rw [heq], ign := by rw [heq], run := by rw [heq], ready := by rw [heq]
              pin := by rw [heq], hi := by rw [heq], qend := by rw [heq], free := ?_, head := ?_ }, ?_⟩
    · intro hlt
      have := slot_write_ne (a := .sam) hi hn hlt
      rw [heq]
      simp only [Queue.slot]
      rw [if_neg this]
    · rw [heq]
      simp [Queue.slot]
    · rw [heq, htd]
      cases q.dirLevel <;> rfl
  · have htd' : ¬ (q.entry (q.readIdx % ArchId.sam.queueLen)).toggleDir = true := htd
    have heq : Due.toggleHead q = q := by
      unfold Due.toggleHead
      dsimp only
      rw [if_neg htd']
    have htd0 : (q.slot .sam q.readIdx).toggleDir = false := by simpa using htd
    have hsame : { q.slot .sam q.readIdx with toggleDir := false } = q.slot .sam q.readIdx := by
      rw [← htd0]
    rw [heq, hsame, htd0]
    exact ⟨HeadMod.refl q hi hn, by cases q.dirLevel <;> rfl⟩

/-! ## direction of the queued commands -/

/-- the entries after `e` -/
def DChain (lvl : Bool → Bool) : Entry → List Entry → Bool → Prop
  | e, [], last => last = lvl e.countUp
  | e, f :: fs, last => f.toggleDir = (lvl f.countUp != lvl e.countUp) ∧ (f.toggleDir = true → f.hasSteps = true ∧ e.hasSteps = true) ∧
      DChain lvl f fs last

def DTog (lvl : Bool → Bool) (lev : Bool) : List Entry → Bool → Prop
  | [], last => lev = last
  | e :: es, last => e.toggleDir = false ∧ lev = lvl e.countUp ∧ DChain lvl e es last

theorem DChain.congr {lvl e e'} (hc : e'.countUp = e.countUp) (hs : e'.hasSteps = e.hasSteps) : ∀ {es last}, DChain lvl e es last → DChain lvl e' es last
  | [], _, h => by unfold DChain at *; rw [hc]; exact h
  | _ :: _, _, h => by unfold DChain at *; rw [hc, hs]; exact h

theorem DChain.append {lvl} {x : Entry} : ∀ {es : List Entry} {e : Entry} {last : Bool}, DChain lvl e es last →
    x.toggleDir = (lvl x.countUp != last) → (x.toggleDir = true → x.hasSteps = true ∧ ((e :: es).getLast (by simp)).hasSteps = true) →
    DChain lvl e (es ++ [x]) (lvl x.countUp)
  | [], e, last, h, h1, h2 => by
    unfold DChain at h
    subst h
    exact ⟨h1, h2, rfl⟩
  | f :: fs, e, last, h, h1, h2 => by
    obtain ⟨g1, g2, g3⟩ := h
    exact ⟨g1, g2, DChain.append g3 h1 (fun hx => by simpa using h2 hx)⟩

/-! ## the invariant -/

/-- `turn`: the interrupts can handle all changes of direction -/
structure DInv (lvl : Bool → Bool) (D : Bool → Bool → Prop) (turn : Prop) (s : Due) (acc : List Cmd) : Prop where
  idx : s.q.IdxOK .sam
  ign : s.q.ignoreCommands = false
  ready : s.q.ready = true
  pin : s.q.dirPin = pinUndefined ∨ pinIsExternal s.q.dirPin = false
  lv : turn → ∀ u, lvl u = if s.q.dirPin = pinUndefined then s.q.dirLevel else (u == s.q.dirHighCountsUp)
  ent : ∀ e ∈ s.q.pending .sam, e.steps < 256 ∧ e.hasSteps = decide (e.steps > 0)
  prep : ∀ next c st, s.pc = .prepared next c st →
    s.q.queueEntries < ArchId.sam.queueLen ∧ (s.q.slot .sam s.q.nextWriteIdx).asCmd = c ∧
    ((s.q.slot .sam s.q.nextWriteIdx).steps < 256 ∧
      (s.q.slot .sam s.q.nextWriteIdx).hasSteps = decide ((s.q.slot .sam s.q.nextWriteIdx).steps > 0)) ∧
    (turn → (s.q.slot .sam s.q.nextWriteIdx).toggleDir = (lvl c.countUp != s.q.lastLvl)) ∧
    (turn → s.q.dirPin ≠ pinUndefined → next.dir = lvl c.countUp)
  off : s.q.running = false → s.attached = false ∧ s.irq = false ∧ s.pause = false
  on : s.q.running = true → ∃ e es, s.q.pending .sam = e :: es ∧ s.pause = decide (e.steps = 0) ∧ s.attached = decide (e.steps ≠ 0) ∧
    s.irq = decide (e.steps = 0)
  ups : (s.pulses.reverse.map DuePulse.up) ++ stepDirs ((s.q.pending .sam).map Entry.asCmd) = stepDirs acc
  dir : turn → (s.q.running = false ∧ s.q.pending .sam = [] ∧ s.pc = .idle) ∨ DTog lvl s.q.dirLevel (s.q.pending .sam) s.q.lastLvl
  dirs : turn → ∀ p ∈ s.pulses, ∀ u, p.up = some u → D u p.level

/-- the frame of an interrupt: everything that is not changed when the head of the queue is replaced or removed -/
theorem DInv.prep_frame {lvl D turn s acc} (h : DInv lvl D turn s acc) (q' : Queue) (hw : q'.nextWriteIdx = s.q.nextWriteIdx)
    (he : q'.queueEntries ≤ s.q.queueEntries) (hf : s.q.queueEntries < ArchId.sam.queueLen → q'.slot .sam s.q.nextWriteIdx = s.q.slot .sam s.q.nextWriteIdx)
    (hl : turn → q'.lastLvl = s.q.lastLvl) (hp : q'.dirPin = s.q.dirPin) :
    ∀ next c st, s.pc = .prepared next c st →
    q'.queueEntries < ArchId.sam.queueLen ∧ (q'.slot .sam q'.nextWriteIdx).asCmd = c ∧
    ((q'.slot .sam q'.nextWriteIdx).steps < 256 ∧
      (q'.slot .sam q'.nextWriteIdx).hasSteps = decide ((q'.slot .sam q'.nextWriteIdx).steps > 0)) ∧
    (turn → (q'.slot .sam q'.nextWriteIdx).toggleDir = (lvl c.countUp != q'.lastLvl)) ∧
    (turn → q'.dirPin ≠ pinUndefined → next.dir = lvl c.countUp) := by
  intro next c st hpc
  obtain ⟨p1, p2, p3, p4, p5⟩ := h.prep next c st hpc
  rw [hw, hf p1, hp]
  refine ⟨by omega, p2, p3, ?_, p5⟩
  intro ht
  rw [hl ht]
  exact p4 ht

/-- with a direction pin the level at the end is not changed by interrupts; without one, nothing is -/
theorem lastLvl_frame {q q' : Queue} (hp : q'.dirPin = q.dirPin) (hq : q'.qend = q.qend) (hl : q.dirPin = pinUndefined → q'.dirLevel = q.dirLevel) :
    q'.lastLvl = q.lastLvl := by
  unfold Queue.lastLvl
  rw [hp, hq]
  by_cases hu : q.dirPin = pinUndefined
  · rw [if_pos hu, if_pos hu, hl hu]
  · rw [if_neg hu, if_neg hu]

theorem stepDirs_append (a b : List Cmd) : stepDirs (a ++ b) = stepDirs a ++ stepDirs b := by
  induction a with
  | nil => rfl
  | cons c cs ih => simp only [List.cons_append, stepDirs, ih, List.append_assoc]

/-- The invariant after an interrupt: the head of the queue `qh` is replaced or removed, the pin may have been toggled. -/
theorem DInv.isr {lvl D turn s acc} (h : DInv lvl D turn s acc) (s' : Due)
    (hidx : s'.q.IdxOK .sam) (hign : s'.q.ignoreCommands = s.q.ignoreCommands) (hready : s'.q.ready = s.q.ready)
    (hpin : s'.q.dirPin = s.q.dirPin) (hhi : s'.q.dirHighCountsUp = s.q.dirHighCountsUp) (hqe : s'.q.qend = s.q.qend)
    (hwr : s'.q.nextWriteIdx = s.q.nextWriteIdx) (he : s'.q.queueEntries ≤ s.q.queueEntries)
    (hf : s.q.queueEntries < ArchId.sam.queueLen → s'.q.slot .sam s.q.nextWriteIdx = s.q.slot .sam s.q.nextWriteIdx) (hpc : s'.pc = s.pc)
    (hlv : turn → s.q.dirPin = pinUndefined → s'.q.dirLevel = s.q.dirLevel)
    (hent : ∀ e ∈ s'.q.pending .sam, e.steps < 256 ∧ e.hasSteps = decide (e.steps > 0))
    (hoff : s'.q.running = false → s'.attached = false ∧ s'.irq = false ∧ s'.pause = false)
    (hon : s'.q.running = true → ∃ e es, s'.q.pending .sam = e :: es ∧ s'.pause = decide (e.steps = 0) ∧ s'.attached = decide (e.steps ≠ 0) ∧
      s'.irq = decide (e.steps = 0))
    (hups : (s'.pulses.reverse.map DuePulse.up) ++ stepDirs ((s'.q.pending .sam).map Entry.asCmd) =
      (s.pulses.reverse.map DuePulse.up) ++ stepDirs ((s.q.pending .sam).map Entry.asCmd))
    (hdir : turn → DTog lvl s'.q.dirLevel (s'.q.pending .sam) s.q.lastLvl)
    (hdirs : turn → ∀ p ∈ s'.pulses, ∀ u, p.up = some u → D u p.level) : DInv lvl D turn s' acc := by
  have hl : turn → s'.q.lastLvl = s.q.lastLvl := fun ht => lastLvl_frame hpin hqe (hlv ht)
  refine { idx := hidx, ign := hign.trans h.ign, ready := hready.trans h.ready, pin := by rw [hpin]; exact h.pin, lv := ?_, ent := hent
           prep := ?_, off := hoff, on := hon, ups := hups.trans h.ups, dir := fun ht => Or.inr (by rw [hl ht]; exact hdir ht), dirs := hdirs }
  · intro ht u
    rw [h.lv ht u, hpin, hhi]
    by_cases hu : s.q.dirPin = pinUndefined
    · rw [if_pos hu, if_pos hu, hlv ht hu]
    · rw [if_neg hu, if_neg hu]
  · rw [hpc]
    exact h.prep_frame s'.q hwr he hf hl hpin

theorem due_ne_empty (q : Queue) (hi : q.IdxOK .sam) : q.readIdx = q.nextWriteIdx ↔ q.queueEntries = 0 := by
  rw [Queue.empty_iff .sam q hi, eq_comm]

/-- a pulse with its interrupt -/
theorem DInv.pulse {lvl D turn s acc} (h : DInv lvl D turn s acc) (hD : ∀ u, D u (lvl u)) (ha : s.attached = true) :
    DInv lvl D turn s.pulse acc := by
  have hrun : s.q.running = true := by
    cases hr : s.q.running with
    | true => rfl
    | false => rw [(h.off hr).1] at ha; cases ha
  obtain ⟨e, es, hp, hpa, hat, hirq⟩ := h.on hrun
  have hst : e.steps ≠ 0 := by rw [hat] at ha; simpa using ha
  have hn : s.q.queueEntries ≠ 0 := by
    intro hx; rw [← Queue.pending_nil_iff .sam, hp] at hx; cases hx
  obtain ⟨hc, hci, hcn⟩ := Queue.pending_cons .sam s.q h.idx hn
  have he : s.q.slot .sam s.q.readIdx = e := by rw [hc] at hp; injection hp
  have hes : s.q.complete.pending .sam = es := by rw [hc] at hp; injection hp
  have hpause : s.pause = false := by rw [hpa]; simpa using hst
  have hirq0 : s.irq = false := by rw [hirq]; simpa using hst
  have hent := h.ent
  rw [hp] at hent
  obtain ⟨hb1, hb2⟩ := hent e (by simp)
  have hdirT : turn → e.toggleDir = false ∧ s.q.dirLevel = lvl e.countUp ∧ DChain lvl e es s.q.lastLvl := by
    intro ht
    rcases h.dir ht with hx | hx
    · rw [hx.2.1] at hp; cases hp
    · rw [hp] at hx; exact hx
  have hne : s.q.readIdx ≠ s.q.nextWriteIdx := fun hx => hn ((due_ne_empty s.q h.idx).mp hx)
  obtain ⟨hd, hdl⟩ := due_dec s.q h.idx hn
  rw [he] at hd
  have hsub : subU8 e.steps 1 = e.steps - 1 := by simp only [subU8]; omega
  rw [hsub] at hd
  have hdirs : turn → ∀ p ∈ (⟨s.q.dirLevel, some e.countUp⟩ : DuePulse) :: s.pulses, ∀ u, p.up = some u → D u p.level := by
    intro ht p hpm u hu
    rcases List.mem_cons.mp hpm with hpm | hpm
    · subst hpm
      injection hu with hu
      subst hu
      rw [(hdirT ht).2.1]
      exact hD _
    · exact h.dirs ht p hpm u hu
  have hrep : List.replicate e.steps (some e.countUp) = some e.countUp :: List.replicate (e.steps - 1) (some e.countUp) := by
    have : e.steps = (e.steps - 1) + 1 := by omega
    rw [this]; rfl
  have hups : ∀ l, ((⟨s.q.dirLevel, some e.countUp⟩ : DuePulse) :: s.pulses).reverse.map DuePulse.up ++
      (List.replicate (e.steps - 1) (some e.countUp) ++ l) = s.pulses.reverse.map DuePulse.up ++ (List.replicate e.steps (some e.countUp) ++ l) := by
    intro l
    rw [hrep]
    simp
  have hold : stepDirs ((s.q.pending .sam).map Entry.asCmd) = List.replicate e.steps (some e.countUp) ++ stepDirs (es.map Entry.asCmd) := by
    rw [hp]; rfl
  unfold Due.pulse
  dsimp only
  rw [if_neg hne, he]
  rw [if_neg (by rw [hrun, hpause]; decide), if_neg hne]
  rw [hd.rd, hd.head]
  dsimp only
  by_cases hlast : e.steps - 1 ≠ 0
  · rw [if_pos hlast]
    refine h.isr _ hd.idx hd.ign hd.ready hd.pin hd.hi hd.qend hd.wr (Nat.le_of_eq hd.entries) hd.free rfl (fun _ _ => hdl) ?_ ?_ ?_ ?_ ?_ hdirs
    · intro x hx
      simp only [hd.pend, hes] at hx
      rcases List.mem_cons.mp hx with hx | hx
      · subst hx
        refine ⟨by dsimp only; omega, ?_⟩
        dsimp only
        rw [hb2]
        have h1 : e.steps > 0 := by omega
        have h2 : e.steps - 1 > 0 := by omega
        simp [h1, h2]
      · exact hent x (by simp [hx])
    · intro hx
      simp only [hd.run, hrun] at hx
      cases hx
    · intro _
      refine ⟨_, _, hd.pend, ?_, ?_, ?_⟩
      · dsimp only; rw [hpause]; symm; simpa using hlast
      · dsimp only; rw [ha]; symm; simpa using hlast
      · dsimp only; rw [hirq0]; symm; simpa using hlast
    · simp only [hd.pend, hes]
      rw [hold, ← hups]
      rfl
    · intro ht
      simp only [hd.pend, hes]
      obtain ⟨t1, t2, t3⟩ := hdirT ht
      exact ⟨t1, hdl.trans t2, by refine DChain.congr (e := e) ?_ ?_ t3 <;> rfl⟩
  · rw [if_neg hlast]
    have h1s : e.steps - 1 = 0 := by omega
    simp only [h1s, List.replicate_zero, List.nil_append] at hups
    have hn1 : (Due.decSteps s.q).queueEntries ≠ 0 := by rw [hd.entries]; exact hn
    obtain ⟨ht1, htl⟩ := due_toggle (Due.decSteps s.q) hd.idx hn1
    have hm := hd.trans ht1 hn
    rw [hd.rd, hd.head] at hm htl
    dsimp only at hm htl
    rw [hdl] at htl
    generalize hq1 : Due.toggleHead (Due.decSteps s.q) = q1 at hm htl ⊢
    obtain ⟨hmc, hmi⟩ := hm.complete hn
    rw [hes] at hmc
    have hlvl1 : turn → q1.dirLevel = s.q.dirLevel := by
      intro ht
      rw [htl, (hdirT ht).1]
      cases s.q.dirLevel <;> rfl
    have hent2 : ∀ x ∈ es, x.steps < 256 ∧ x.hasSteps = decide (x.steps > 0) := fun x hx => hent x (by simp [hx])
    have hcn1 : q1.complete.queueEntries ≤ s.q.queueEntries := by
      have h1 := (Queue.pending_cons .sam q1 hm.idx (by rw [hm.entries]; exact hn)).2.2
      rw [hm.entries] at h1
      omega
    have hwr1 : q1.complete.nextWriteIdx = s.q.nextWriteIdx := hm.wr
    have hfree1 : s.q.queueEntries < ArchId.sam.queueLen → q1.complete.slot .sam s.q.nextWriteIdx = s.q.slot .sam s.q.nextWriteIdx := hm.free
    by_cases hemp : q1.complete.readIdx = q1.complete.nextWriteIdx
    · rw [if_pos hemp]
      have hes0 : es = [] := by
        rw [← hmc, Queue.pending_nil_iff]
        exact (due_ne_empty q1.complete hmi).mp hemp
      subst hes0
      refine h.isr _ hmi hm.ign hm.ready hm.pin hm.hi hm.qend hwr1 hcn1 hfree1 rfl (fun ht _ => hlvl1 ht) ?_ ?_ ?_ ?_ ?_ hdirs
      · intro x hx
        have hx' : x ∈ q1.complete.pending .sam := hx
        rw [hmc] at hx'
        cases hx'
      · intro _
        exact ⟨rfl, hirq0, hpause⟩
      · intro hx; cases hx
      · change _ ++ stepDirs ((q1.complete.pending .sam).map Entry.asCmd) = _
        rw [hmc, hold, ← hups]
      · intro ht
        change DTog lvl q1.dirLevel (q1.complete.pending .sam) _
        rw [hmc, hlvl1 ht]
        obtain ⟨t1, t2, t3⟩ := hdirT ht
        exact t2.trans t3.symm
    · rw [if_neg hemp]
      have hn2 : q1.complete.queueEntries ≠ 0 := fun hx => hemp ((due_ne_empty q1.complete hmi).mpr hx)
      obtain ⟨hc2, _, _⟩ := Queue.pending_cons .sam q1.complete hmi hn2
      obtain ⟨ht2, htl2⟩ := due_toggle q1.complete hmi hn2
      rw [hmc] at hc2
      generalize hfe : q1.complete.slot .sam q1.complete.readIdx = f at hc2 ht2 htl2 ⊢
      generalize hfs : q1.complete.complete.pending .sam = fs at hc2
      subst hc2
      obtain ⟨hf1, hf2⟩ := hent2 f (by simp)
      by_cases hf0 : f.steps = 0
      · rw [if_pos (by simp [hf0])]
        refine h.isr _ hmi hm.ign hm.ready hm.pin hm.hi hm.qend hwr1 hcn1 hfree1 rfl (fun ht _ => hlvl1 ht) ?_ ?_ ?_ ?_ ?_ hdirs
        · change ∀ x ∈ q1.complete.pending .sam, _
          rw [hmc]; exact hent2
        · intro hx
          have hx' : q1.running = false := hx
          rw [hm.run, hrun] at hx'
          cases hx'
        · intro _
          exact ⟨f, fs, hmc, by simp [hf0], by simp [hf0], by simp [hf0]⟩
        · change _ ++ stepDirs ((q1.complete.pending .sam).map Entry.asCmd) = _
          rw [hmc, hold, ← hups]
        · intro ht
          change DTog lvl q1.dirLevel (q1.complete.pending .sam) _
          rw [hmc, hlvl1 ht]
          obtain ⟨t1, t2, t3, t4, t5⟩ := hdirT ht
          have hft : f.toggleDir = false := by
            cases hx : f.toggleDir with
            | false => rfl
            | true =>
              have := (t4 hx).1
              rw [hf2, hf0] at this
              simp at this
          rw [hft] at t3
          have : lvl f.countUp = lvl e.countUp := by
            revert t3
            cases lvl f.countUp <;> cases lvl e.countUp <;> simp
          exact ⟨hft, t2.trans this.symm, t5⟩
      · have hfh : f.hasSteps = true := by
          rw [hf2]; have : f.steps > 0 := by omega
          simp [this]
        rw [if_neg (by rw [hfh]; simp [hf0])]
        have hlvf : turn → (Due.toggleHead q1.complete).dirLevel = lvl f.countUp := by
          intro ht
          rw [htl2]
          obtain ⟨t1, t2, t3, t4, t5⟩ := hdirT ht
          change (f.toggleDir != q1.dirLevel) = _
          rw [hlvl1 ht, t2, t3]
          cases lvl f.countUp <;> cases lvl e.countUp <;> rfl
        have hpend2 : (Due.toggleHead q1.complete).pending .sam = { f with toggleDir := false } :: fs := by rw [ht2.pend, hfs]
        refine h.isr _ ht2.idx (ht2.ign.trans hm.ign) (ht2.ready.trans hm.ready) (ht2.pin.trans hm.pin) (ht2.hi.trans hm.hi)
          (ht2.qend.trans hm.qend) (ht2.wr.trans hwr1) (by rw [ht2.entries]; exact hcn1) ?_ rfl ?_ ?_ ?_ ?_ ?_ ?_ hdirs
        · intro hlt
          have h1 := (Queue.pending_cons .sam q1 hm.idx (by rw [hm.entries]; exact hn)).2.2
          rw [hm.entries] at h1
          have h2 := ht2.free (by omega)
          rw [hwr1] at h2
          rw [h2]
          exact hfree1 hlt
        · intro ht hu
          dsimp only
          obtain ⟨t1, t2, t3, t4, t5⟩ := hdirT ht
          rw [hlvf ht, t2, h.lv ht, h.lv ht, if_pos hu, if_pos hu]
        · simp only [hpend2]
          intro x hx
          rcases List.mem_cons.mp hx with hx | hx
          · subst hx; exact ⟨hf1, hf2⟩
          · exact hent2 x (by simp [hx])
        · intro hx
          have hx' : q1.running = false := by
            have : (Due.toggleHead q1.complete).running = false := hx
            rw [ht2.run] at this
            exact this
          rw [hm.run, hrun] at hx'
          cases hx'
        · intro _
          refine ⟨_, _, hpend2, ?_, ?_, ?_⟩
          · dsimp only; rw [hpause]; symm; simpa using hf0
          · dsimp only; rw [ha]; symm; simpa using hf0
          · dsimp only; rw [hirq0]; symm; simpa using hf0
        · simp only [hpend2]
          rw [hold, ← hups]
          rfl
        · intro ht
          simp only [hpend2]
          obtain ⟨t1, t2, t3, t4, t5⟩ := hdirT ht
          exact ⟨rfl, hlvf ht, by refine DChain.congr (e := f) ?_ ?_ t5 <;> rfl⟩

/-- the interrupt at the end of a period -/
theorem DInv.period {lvl D turn s acc} (h : DInv lvl D turn s acc) (hq : s.irq = true) : DInv lvl D turn s.period acc := by
  have hrun : s.q.running = true := by
    cases hr : s.q.running with
    | true => rfl
    | false => rw [(h.off hr).2.1] at hq; cases hq
  obtain ⟨e, es, hp, hpa, hat, hirq⟩ := h.on hrun
  have hst : e.steps = 0 := by rw [hirq] at hq; simpa using hq
  have hn : s.q.queueEntries ≠ 0 := by
    intro hx; rw [← Queue.pending_nil_iff .sam, hp] at hx; cases hx
  obtain ⟨hc, hci, hcn⟩ := Queue.pending_cons .sam s.q h.idx hn
  have he : s.q.slot .sam s.q.readIdx = e := by rw [hc] at hp; injection hp
  have hes : s.q.complete.pending .sam = es := by rw [hc] at hp; injection hp
  have hpause : s.pause = true := by rw [hpa]; simpa using hst
  have hatt : s.attached = false := by rw [hat]; simpa using hst
  have hent := h.ent
  rw [hp] at hent
  have hdirT : turn → e.toggleDir = false ∧ s.q.dirLevel = lvl e.countUp ∧ DChain lvl e es s.q.lastLvl := by
    intro ht
    rcases h.dir ht with hx | hx
    · rw [hx.2.1] at hp; cases hp
    · rw [hp] at hx; exact hx
  have hne : s.q.readIdx ≠ s.q.nextWriteIdx := fun hx => hn ((due_ne_empty s.q h.idx).mp hx)
  have hold : stepDirs ((s.q.pending .sam).map Entry.asCmd) = stepDirs (es.map Entry.asCmd) := by
    rw [hp, List.map_cons]; simp [stepDirs, Entry.asCmd, hst]
  have hfree1 : s.q.queueEntries < ArchId.sam.queueLen → s.q.complete.slot .sam s.q.nextWriteIdx = s.q.slot .sam s.q.nextWriteIdx := fun _ => rfl
  have hcn1 : s.q.complete.queueEntries ≤ s.q.queueEntries := by omega
  have hent2 : ∀ x ∈ es, x.steps < 256 ∧ x.hasSteps = decide (x.steps > 0) := fun x hx => hent x (by simp [hx])
  -- the direction does not change at the end of a pause
  have hdirP : turn → DTog lvl s.q.dirLevel es s.q.lastLvl := by
    intro ht
    obtain ⟨t1, t2, t3⟩ := hdirT ht
    cases es with
    | nil => exact t2.trans t3.symm
    | cons f fs =>
      obtain ⟨t3, t4, t5⟩ := t3
      have hft : f.toggleDir = false := by
        cases hx : f.toggleDir with
        | false => rfl
        | true =>
          have := (t4 hx).2
          rw [(hent e (by simp)).2, hst] at this
          simp at this
      rw [hft] at t3
      have : lvl f.countUp = lvl e.countUp := by
        revert t3
        cases lvl f.countUp <;> cases lvl e.countUp <;> simp
      exact ⟨hft, t2.trans this.symm, t5⟩
  unfold Due.period
  dsimp only
  rw [if_neg (by rw [hpause]; decide), if_neg hne]
  by_cases hemp : s.q.complete.readIdx = s.q.complete.nextWriteIdx
  · rw [if_pos hemp]
    have hes0 : es = [] := by
      rw [← hes, Queue.pending_nil_iff]
      exact (due_ne_empty s.q.complete hci).mp hemp
    subst hes0
    refine h.isr _ hci rfl rfl rfl rfl rfl rfl hcn1 hfree1 rfl (fun _ _ => rfl) ?_ ?_ ?_ ?_ ?_ h.dirs
    · intro x hx
      have hx' : x ∈ s.q.complete.pending .sam := hx
      rw [hes] at hx'
      cases hx'
    · intro _
      exact ⟨rfl, rfl, rfl⟩
    · intro hx; cases hx
    · change _ ++ stepDirs ((s.q.complete.pending .sam).map Entry.asCmd) = _
      rw [hes, hold]
    · intro ht
      change DTog lvl s.q.dirLevel (s.q.complete.pending .sam) _
      rw [hes]
      exact hdirP ht
  · rw [if_neg hemp]
    have hn2 : s.q.complete.queueEntries ≠ 0 := fun hx => hemp ((due_ne_empty s.q.complete hci).mpr hx)
    obtain ⟨hc2, _, _⟩ := Queue.pending_cons .sam s.q.complete hci hn2
    have hc2' := hc2
    rw [hes] at hc2
    generalize hfe : s.q.complete.slot .sam s.q.complete.readIdx = f at hc2 hc2' ⊢
    generalize hfs : s.q.complete.complete.pending .sam = fs at hc2 hc2'
    have hups' : s.pulses.reverse.map DuePulse.up ++ stepDirs ((s.q.complete.pending .sam).map Entry.asCmd) =
        s.pulses.reverse.map DuePulse.up ++ stepDirs ((s.q.pending .sam).map Entry.asCmd) := by rw [hes, hold]
    have hdir' : turn → DTog lvl s.q.dirLevel (s.q.complete.pending .sam) s.q.lastLvl := by rw [hes]; exact hdirP
    have hent' : ∀ x ∈ s.q.complete.pending .sam, x.steps < 256 ∧ x.hasSteps = decide (x.steps > 0) := by rw [hes]; exact hent2
    by_cases hf0 : f.steps > 0
    · rw [if_pos hf0]
      have hf1 : f.steps ≠ 0 := by omega
      refine h.isr _ hci rfl rfl rfl rfl rfl rfl hcn1 hfree1 rfl (fun _ _ => rfl) hent' ?_ ?_ hups' hdir' h.dirs
      · intro hx
        have hx' : s.q.running = false := hx
        rw [hrun] at hx'
        cases hx'
      · intro _
        exact ⟨f, fs, hc2', by simp [hf1], by simp [hf1], by simp [hf1]⟩
    · rw [if_neg hf0]
      have hf1 : f.steps = 0 := by omega
      refine h.isr _ hci rfl rfl rfl rfl rfl rfl hcn1 hfree1 rfl (fun _ _ => rfl) hent' ?_ ?_ hups' hdir' h.dirs
      · intro hx
        have hx' : s.q.running = false := hx
        rw [hrun] at hx'
        cases hx'
      · intro _
        exact ⟨f, fs, hc2', by simp [hf1, hpause], by simp [hf1, hatt], by simp [hf1, hq]⟩

theorem DInv.leave {lvl D turn s acc} (h : DInv lvl D turn s acc) : DInv lvl D turn { s with pc := .idle } acc :=
  { idx := h.idx, ign := h.ign, ready := h.ready, pin := h.pin, lv := h.lv, ent := h.ent, prep := (fun _ _ _ hx => nomatch hx)
    off := h.off, on := h.on, ups := h.ups, dirs := h.dirs
    dir := fun ht => (h.dir ht).elim (fun hx => Or.inl ⟨hx.1, hx.2.1, rfl⟩) Or.inr }

/-- first phase of addQueueEntry -/
theorem DInv.prepare {lvl D turn s acc} (h : DInv lvl D turn s acc) (c : Cmd) (st : Bool) (hnf : s.q.queueEntries < ArchId.sam.queueLen)
    (hv : c.Valid) :
    DInv lvl D turn { s with q := (s.q.prepare .sam c).1, pc := .prepared (s.q.prepare .sam c).2 c st } acc := by
  obtain ⟨e, pe, pr, pw, prun, pready, pign, ppos, pdp, pdh, pms, pnpos, pncu, es, ecu, em, eh, et, ep⟩ := prepare_spec .sam s.q c
  have hp := Queue.pending_write_unused .sam s.q e h.idx hnf (s.q.prepare .sam c).1 pe pr pw
  have kk := fun ht => prepare_dir .sam s.q c lvl (h.lv ht) h.pin
  have hsl : (s.q.prepare .sam c).1.slot .sam s.q.nextWriteIdx = e := by simp [Queue.slot, pe]
  have hpe : (s.q.prepare .sam c).1.queueEntries = s.q.queueEntries := by simp only [Queue.queueEntries, pr, pw]
  refine { idx := hp.2, ign := pign.trans h.ign, ready := pready.trans h.ready, pin := ?_, lv := ?_, ent := ?_, prep := ?_, off := ?_, on := ?_
           ups := ?_, dir := fun ht => Or.inr ?_, dirs := h.dirs }
  · simp only [pdp]; exact h.pin
  · intro ht u; simp only [pdp, pdh]; exact (kk ht).1 u
  · simp only [hp.1]; exact h.ent
  · intro next c' st' heq
    injection heq with h1 h2 h3
    subst h1 h2 h3
    simp only [pw, hpe, pdp]
    refine ⟨hnf, ?_, ?_, fun ht => (kk ht).2.2.2.1, fun ht => (kk ht).2.2.2.2.1⟩
    · rw [hsl]
      unfold Entry.asCmd
      rw [et, es, ecu]
    · rw [hsl, es, eh]
      exact ⟨hv.2, rfl⟩
  · simp only [prun]; exact h.off
  · simp only [prun, hp.1]; exact h.on
  · simp only [hp.1]; exact h.ups
  · simp only [hp.1]
    obtain ⟨_, k2, k3, _⟩ := kk ht
    by_cases hpn : s.q.pending .sam = []
    · cases hr : s.q.running with
      | false => rw [hpn]; exact k3 hr hpn
      | true =>
        rw [(k2 (Or.inl hr)).1, (k2 (Or.inl hr)).2]
        rcases h.dir ht with hy | hy
        · rw [hr] at hy; cases hy.1
        · exact hy
    · rw [(k2 (Or.inr hpn)).1, (k2 (Or.inr hpn)).2]
      rcases h.dir ht with hy | hy
      · exact absurd hy.2.1 hpn
      · exact hy

/-- second phase of addQueueEntry -/
theorem DInv.commit {lvl D turn s acc next c st} (h : DInv lvl D turn s acc) (hpc : s.pc = .prepared next c st)
    (hsafe : turn → s.q.dirPin = pinUndefined ∨ (c.countUp == s.q.dirHighCountsUp) = s.q.qend.dir ∨
        (c.steps ≠ 0 ∧ ∃ d, (s.q.pending .sam).getLast? = some d ∧ d.steps ≠ 0)) :
    DInv lvl D turn { s with q := { s.q with nextWriteIdx := u8 (s.q.nextWriteIdx + 1), qend := next }, pc := .committed st } (acc ++ [c]) := by
  obtain ⟨p1, p2, p3, p4, p5⟩ := h.prep next c st hpc
  obtain ⟨hp, hidx⟩ := pending_commit (a := .sam) next h.idx p1
  have hcu : (s.q.slot .sam s.q.nextWriteIdx).countUp = c.countUp := by rw [← p2]; rfl
  have hcs : (s.q.slot .sam s.q.nextWriteIdx).steps = c.steps := by rw [← p2]; rfl
  have hlast : turn → Queue.lastLvl { s.q with nextWriteIdx := u8 (s.q.nextWriteIdx + 1), qend := next } =
      lvl (s.q.slot .sam s.q.nextWriteIdx).countUp := by
    intro ht
    rw [hcu]
    change (if s.q.dirPin = pinUndefined then s.q.dirLevel else next.dir) = _
    by_cases hu : s.q.dirPin = pinUndefined
    · rw [if_pos hu, h.lv ht, if_pos hu]
    · rw [if_neg hu]; exact p5 ht hu
  refine { idx := hidx, ign := h.ign, ready := h.ready, pin := h.pin, lv := h.lv, ent := ?_, prep := (fun _ _ _ hx => nomatch hx)
           off := h.off, on := ?_, ups := ?_, dir := fun ht => Or.inr ?_, dirs := h.dirs }
  · intro e he
    rw [hp] at he
    rcases List.mem_append.mp he with he | he
    · exact h.ent e he
    · simp at he; rw [he]; exact p3
  · intro hr
    obtain ⟨e, es, h1, h2⟩ := h.on hr
    refine ⟨e, es ++ [s.q.slot .sam s.q.nextWriteIdx], ?_, h2⟩
    rw [hp, h1]; rfl
  · rw [hp, List.map_append, List.map_cons, List.map_nil, p2, stepDirs_append, stepDirs_append, ← h.ups, List.append_assoc]
  · rw [hp, hlast ht]
    have htog : (s.q.slot .sam s.q.nextWriteIdx).toggleDir = (lvl c.countUp != s.q.lastLvl) := p4 ht
    have hflag : (s.q.slot .sam s.q.nextWriteIdx).toggleDir = true → c.steps ≠ 0 ∧ ∃ d, (s.q.pending .sam).getLast? = some d ∧ d.steps ≠ 0 := by
      intro hx
      rw [htog] at hx
      rcases hsafe ht with hu | hd | hd
      · rw [h.lv ht, if_pos hu] at hx
        unfold Queue.lastLvl at hx
        rw [if_pos hu] at hx
        cases hy : s.q.dirLevel <;> rw [hy] at hx <;> cases hx
      · by_cases hu : s.q.dirPin = pinUndefined
        · rw [h.lv ht, if_pos hu] at hx
          unfold Queue.lastLvl at hx
          rw [if_pos hu] at hx
          cases hy : s.q.dirLevel <;> rw [hy] at hx <;> cases hx
        · rw [h.lv ht, if_neg hu, hd] at hx
          unfold Queue.lastLvl at hx
          rw [if_neg hu] at hx
          cases hy : s.q.qend.dir <;> rw [hy] at hx <;> cases hx
      · exact hd
    have hD : DTog lvl s.q.dirLevel (s.q.pending .sam) s.q.lastLvl := by
      rcases h.dir ht with hy | hy
      · rw [hy.2.2] at hpc; cases hpc
      · exact hy
    have hent := h.ent
    change DTog lvl s.q.dirLevel _ _
    revert hD hflag hent
    generalize s.q.pending .sam = l
    intro hflag hD hent
    cases l with
    | nil =>
      have hD' : s.q.dirLevel = s.q.lastLvl := hD
      have hf : (s.q.slot .sam s.q.nextWriteIdx).toggleDir = false := by
        cases hx : (s.q.slot .sam s.q.nextWriteIdx).toggleDir with
        | false => rfl
        | true =>
          obtain ⟨_, d, hd, _⟩ := hflag hx
          cases hd
      refine ⟨hf, ?_, rfl⟩
      rw [hcu, hD']
      rw [hf] at htog
      revert htog
      cases lvl c.countUp <;> cases s.q.lastLvl <;> simp
    | cons e es =>
      obtain ⟨d1, d2, d3⟩ := hD
      refine ⟨d1, d2, d3.append (by rw [hcu]; exact htog) ?_⟩
      intro hx
      obtain ⟨f1, d, f2, f3⟩ := hflag hx
      refine ⟨?_, ?_⟩
      · rw [p3.2, hcs]
        have : c.steps > 0 := by omega
        simp [this]
      · have hd : (e :: es).getLast (by simp) = d := by
          rw [List.getLast?_eq_some_getLast (by simp)] at f2
          injection f2
        rw [hd, (hent d (hd ▸ List.getLast_mem _)).2]
        have : d.steps > 0 := by omega
        simp [this]

/-- start of the queue -/
theorem DInv.start {lvl D turn s acc} (h : DInv lvl D turn s acc) (hr : s.q.running = false) (hne : s.q.readIdx ≠ s.q.nextWriteIdx)
    (hdir : turn → DTog lvl s.q.dirLevel (s.q.pending .sam) s.q.lastLvl) : DInv lvl D turn s.startQueue acc := by
  have hn : s.q.queueEntries ≠ 0 := fun hx => hne ((due_ne_empty s.q h.idx).mpr hx)
  obtain ⟨hc, hci, hcn⟩ := Queue.pending_cons .sam s.q h.idx hn
  obtain ⟨he1, he2⟩ := h.ent (s.q.slot .sam s.q.readIdx) (by rw [hc]; simp)
  obtain ⟨o1, o2, o3⟩ := h.off hr
  unfold Due.startQueue
  dsimp only
  by_cases h0 : (s.q.slot .sam s.q.readIdx).steps = 0
  · rw [if_neg (by rw [he2, h0]; decide)]
    exact { idx := h.idx, ign := h.ign, ready := h.ready, pin := h.pin, lv := h.lv, ent := h.ent, prep := h.prep
            off := (fun hx => nomatch hx), on := (fun _ => ⟨_, _, hc, by simp [h0], by simp [h0], by simp [h0]⟩), ups := h.ups, dirs := h.dirs
            dir := fun ht => Or.inr (hdir ht) }
  · have : (s.q.slot .sam s.q.readIdx).steps > 0 := by omega
    rw [if_pos (by simp [this])]
    exact { idx := h.idx, ign := h.ign, ready := h.ready, pin := h.pin, lv := h.lv, ent := h.ent, prep := h.prep
            off := (fun hx => nomatch hx), on := (fun _ => ⟨_, _, hc, by simp [h0, o3], by simp [h0], by simp [h0]⟩), ups := h.ups, dirs := h.dirs
            dir := fun ht => Or.inr (hdir ht) }

theorem DInv.step {lvl D turn s acc} (h : DInv lvl D turn s acc) (hD : ∀ u, D u (lvl u))
    (ev : Due.Ev) (hp : s.Basic ev) (hs : turn → s.SafeTurn ev) : DInv lvl D turn (s.step ev) (acc ++ s.accepts ev) := by
  unfold Due.step
  cases ev with
  | pulse =>
    simp only [Due.accepts, List.append_nil]
    by_cases ht : s.attached = true
    · rw [if_pos ht]; exact h.pulse hD ht
    · rw [if_neg ht]; exact h
  | period =>
    simp only [Due.accepts, List.append_nil]
    by_cases ht : s.irq = true
    · rw [if_pos ht]; exact h.period ht
    · rw [if_neg ht]; exact h
  | addBegin c st =>
    simp only [Due.accepts, List.append_nil]
    cases hpc : s.pc with
    | idle =>
      simp only
      by_cases h1 : (!s.q.ready) = true
      · rw [if_pos h1]; exact h
      rw [if_neg h1]
      by_cases h2 : s.q.isQueueFull .sam = true
      · rw [if_pos h2]; exact h
      rw [if_neg h2]
      by_cases h3 : Queue.commandRateTicks c < ArchId.sam.minCmdTicks
      · rw [if_pos h3]; exact h
      rw [if_neg h3]
      refine h.prepare c st ?_ hp
      have h4 := h.idx.2.2
      have h5 : s.q.queueEntries ≠ ArchId.sam.queueLen := by
        intro hx
        apply h2
        unfold Queue.isQueueFull
        rw [hx]
        simp
      omega
    | prepared n c' st' => exact h
    | committed st' => exact h
  | addCommit =>
    cases hpc : s.pc with
    | idle => simp only [Due.accepts, hpc, List.append_nil]; exact h
    | committed st => simp only [Due.accepts, hpc, List.append_nil]; exact h
    | prepared next c st =>
      have e : s.accepts .addCommit = [c] := by simp [Due.accepts, hpc, h.ign]
      rw [e]
      simp only [commit_ok s.q next h.ready h.ign, if_true]
      refine h.commit hpc ?_
      intro ht
      have hx := hs ht
      simp only [Due.SafeTurn, hpc] at hx
      rcases hx with hx | hx | ⟨hx, hy⟩
      · exact Or.inl hx
      · exact Or.inr (Or.inl hx)
      · refine Or.inr (Or.inr ⟨hx, ?_⟩)
        have hro : Hw.readOut .sam ⟨s.q, 0⟩ = (s.q.pending .sam).map Entry.asCmd := by
          unfold Hw.readOut Queue.pending
          rw [List.map_map]
          apply List.map_congr_left
          intro k _
          by_cases hk : k = 0
          · subst hk; rfl
          · simp only [hk, if_false]; rfl
        rw [hro, List.getLast?_map] at hy
        cases hl : (s.q.pending .sam).getLast? with
        | none => rw [hl] at hy; cases hy
        | some d =>
          rw [hl] at hy
          refine ⟨d, rfl, ?_⟩
          simpa [Entry.asCmd] using hy
  | addFinish =>
    simp only [Due.accepts, List.append_nil]
    cases hpc : s.pc with
    | idle => exact h
    | prepared n c st => exact h
    | committed st =>
      simp only
      by_cases hx : (!s.q.running && st) = true
      · rw [if_pos hx]
        rw [Bool.and_eq_true, Bool.not_eq_true'] at hx
        refine h.leave.start hx.1 ?_ ?_
        · have : s.q.running = true ∨ s.q.readIdx ≠ s.q.nextWriteIdx := hp
          rcases this with hy | hy
          · rw [hx.1] at hy; cases hy
          · exact hy
        · intro ht
          rcases h.dir ht with hy | hy
          · rw [hy.2.2] at hpc; cases hpc
          · exact hy
      · rw [if_neg hx]; exact h.leave
  | startNull =>
    simp only [Due.accepts, List.append_nil]
    cases hpc : s.pc with
    | prepared n c st => exact h
    | committed st => exact h
    | idle =>
      simp only
      by_cases hx : (s.q.addNull true).start = true
      · rw [if_pos hx]
        have hx : s.q.running = false ∧ s.q.nextWriteIdx ≠ s.q.readIdx := by
          unfold Queue.addNull at hx
          rw [h.ready] at hx
          cases hr : s.q.running with
          | true => rw [hr] at hx; simp at hx
          | false =>
            refine ⟨rfl, ?_⟩
            intro hy
            rw [hr, hy] at hx
            simp at hx
        refine h.start hx.1 (fun hy => hx.2 hy.symm) ?_
        intro ht
        rcases h.dir ht with hy | hy
        · exact absurd ((Queue.pending_nil_iff .sam s.q).mp hy.2.1) (fun hz => hx.2 ((due_ne_empty s.q h.idx).mpr hz).symm)
        · exact hy
      · rw [if_neg hx]; exact h
  | forceStop p => exact absurd hp id
  | clearIgnore =>
    simp only [Due.accepts, List.append_nil]
    have : ({ s with q := { s.q with ignoreCommands := false } } : Due) = s := by rw [← h.ign]
    rw [this]
    exact h

theorem DInv.run {lvl D turn} (hD : ∀ u, D u (lvl u)) : ∀ (evs : List Due.Ev) {s acc}, DInv lvl D turn s acc → Due.Along Due.Basic s evs →
    (turn → Due.Along Due.SafeTurn s evs) → DInv lvl D turn (Due.track s acc evs).1 (Due.track s acc evs).2
  | [], _, _, h, _, _ => h
  | ev :: evs, _, _, h, hb, hs =>
    DInv.run hD evs (h.step hD ev hb.1 (fun ht => (hs ht).1)) hb.2 (fun ht => (hs ht).2)

theorem Due.track_run : ∀ (evs : List Due.Ev) (s : Due) (acc : List Cmd), (Due.track s acc evs).1 = s.run evs
  | [], _, _ => rfl
  | _ :: evs, _, _ => Due.track_run evs _ _

/-! ## everything is executed -/

/-- bound for the number of interrupts -/
def Due.work (s : Due) : Nat := ((s.q.pending .sam).map fun e => e.steps + 1).sum

theorem Due.rounds_succ (n : Nat) : Due.rounds (n + 1) = .pulse :: .period :: Due.rounds n := by
  unfold Due.rounds
  rw [List.replicate_succ]
  rfl

theorem DInv.pulse_work {lvl D turn s acc} (h : DInv lvl D turn s acc) (ha : s.attached = true) : s.pulse.work < s.work ∧
    (s.pulse.q.running = false → s.pulse.q.pending .sam = []) := by
  have hrun : s.q.running = true := by
    cases hr : s.q.running with
    | true => rfl
    | false => rw [(h.off hr).1] at ha; cases ha
  obtain ⟨e, es, hp, hpa, hat, hirq⟩ := h.on hrun
  have hst : e.steps ≠ 0 := by rw [hat] at ha; simpa using ha
  have hn : s.q.queueEntries ≠ 0 := by
    intro hx; rw [← Queue.pending_nil_iff .sam, hp] at hx; cases hx
  obtain ⟨hc, hci, hcn⟩ := Queue.pending_cons .sam s.q h.idx hn
  have he : s.q.slot .sam s.q.readIdx = e := by rw [hc] at hp; injection hp
  have hes : s.q.complete.pending .sam = es := by rw [hc] at hp; injection hp
  have hpause : s.pause = false := by rw [hpa]; simpa using hst
  have hne : s.q.readIdx ≠ s.q.nextWriteIdx := fun hx => hn ((due_ne_empty s.q h.idx).mp hx)
  obtain ⟨hd, hdl⟩ := due_dec s.q h.idx hn
  rw [he] at hd
  have hb := (h.ent e (by rw [hp]; simp)).1
  have hsub : subU8 e.steps 1 = e.steps - 1 := by simp only [subU8]; omega
  rw [hsub] at hd
  have hwork : s.work = e.steps + 1 + (es.map fun e => e.steps + 1).sum := by
    unfold Due.work; rw [hp]; simp
  rw [hwork]
  unfold Due.pulse
  dsimp only
  rw [if_neg hne, he]
  rw [if_neg (by rw [hrun, hpause]; decide), if_neg hne]
  rw [hd.rd, hd.head]
  dsimp only
  by_cases hlast : e.steps - 1 ≠ 0
  · rw [if_pos hlast]
    refine ⟨?_, ?_⟩
    · unfold Due.work
      simp only [hd.pend, hes, List.map_cons, List.sum_cons]
      omega
    · intro hx
      have hx' : (Due.decSteps s.q).running = false := hx
      rw [hd.run, hrun] at hx'
      cases hx'
  · rw [if_neg hlast]
    have hn1 : (Due.decSteps s.q).queueEntries ≠ 0 := by rw [hd.entries]; exact hn
    obtain ⟨ht1, _⟩ := due_toggle (Due.decSteps s.q) hd.idx hn1
    have hm := hd.trans ht1 hn
    generalize hq1 : Due.toggleHead (Due.decSteps s.q) = q1 at hm ⊢
    obtain ⟨hmc, hmi⟩ := hm.complete hn
    rw [hes] at hmc
    by_cases hemp : q1.complete.readIdx = q1.complete.nextWriteIdx
    · rw [if_pos hemp]
      refine ⟨?_, fun _ => (Queue.pending_nil_iff .sam q1.complete).mpr ((due_ne_empty q1.complete hmi).mp hemp)⟩
      change ((q1.complete.pending .sam).map fun e => e.steps + 1).sum < _
      rw [hmc]; omega
    · rw [if_neg hemp]
      have hn2 : q1.complete.queueEntries ≠ 0 := fun hx => hemp ((due_ne_empty q1.complete hmi).mpr hx)
      obtain ⟨ht2, _⟩ := due_toggle q1.complete hmi hn2
      have hc2 := (Queue.pending_cons .sam q1.complete hmi hn2).1
      split
      · refine ⟨?_, ?_⟩
        · change ((q1.complete.pending .sam).map fun e => e.steps + 1).sum < _
          rw [hmc]; omega
        · intro hx
          have hx' : q1.running = false := hx
          rw [hm.run, hrun] at hx'
          cases hx'
      · refine ⟨?_, ?_⟩
        · change (((Due.toggleHead q1.complete).pending .sam).map fun e => e.steps + 1).sum < _
          rw [hmc] at hc2
          rw [ht2.pend, hc2]
          simp only [List.map_cons, List.sum_cons]
          omega
        · intro hx
          have hx' : (Due.toggleHead q1.complete).running = false := hx
          rw [ht2.run] at hx'
          have hx'' : q1.running = false := hx'
          rw [hm.run, hrun] at hx''
          cases hx''

theorem DInv.period_work {lvl D turn s acc} (h : DInv lvl D turn s acc) (hq : s.irq = true) : s.period.work < s.work ∧
    (s.period.q.running = false → s.period.q.pending .sam = []) := by
  have hrun : s.q.running = true := by
    cases hr : s.q.running with
    | true => rfl
    | false => rw [(h.off hr).2.1] at hq; cases hq
  obtain ⟨e, es, hp, hpa, hat, hirq⟩ := h.on hrun
  have hst : e.steps = 0 := by rw [hirq] at hq; simpa using hq
  have hn : s.q.queueEntries ≠ 0 := by
    intro hx; rw [← Queue.pending_nil_iff .sam, hp] at hx; cases hx
  obtain ⟨hc, hci, hcn⟩ := Queue.pending_cons .sam s.q h.idx hn
  have hes : s.q.complete.pending .sam = es := by rw [hc] at hp; injection hp
  have hpause : s.pause = true := by rw [hpa]; simpa using hst
  have hne : s.q.readIdx ≠ s.q.nextWriteIdx := fun hx => hn ((due_ne_empty s.q h.idx).mp hx)
  have hwork : s.work = e.steps + 1 + (es.map fun e => e.steps + 1).sum := by
    unfold Due.work; rw [hp]; simp
  rw [hwork]
  unfold Due.period
  dsimp only
  rw [if_neg (by rw [hpause]; decide), if_neg hne]
  by_cases hemp : s.q.complete.readIdx = s.q.complete.nextWriteIdx
  · rw [if_pos hemp]
    refine ⟨?_, fun _ => (Queue.pending_nil_iff .sam s.q.complete).mpr ((due_ne_empty s.q.complete hci).mp hemp)⟩
    change ((s.q.complete.pending .sam).map fun e => e.steps + 1).sum < _
    rw [hes]; omega
  · rw [if_neg hemp]
    split
    · refine ⟨?_, fun hx => ?_⟩
      · change ((s.q.complete.pending .sam).map fun e => e.steps + 1).sum < _
        rw [hes]; omega
      · have hx' : s.q.running = false := hx
        rw [hrun] at hx'; cases hx'
    · refine ⟨?_, fun hx => ?_⟩
      · change ((s.q.complete.pending .sam).map fun e => e.steps + 1).sum < _
        rw [hes]; omega
      · have hx' : s.q.running = false := hx
        rw [hrun] at hx'; cases hx'

theorem DInv.finish {lvl D turn acc} (hD : ∀ u, D u (lvl u)) : ∀ (n : Nat) {s : Due}, DInv lvl D turn s acc →
    (s.q.running = false → s.q.pending .sam = []) → s.work ≤ n →
    DInv lvl D turn (s.run (Due.rounds n)) acc ∧ (s.run (Due.rounds n)).q.pending .sam = []
  | 0, s, h, hr, hw => by
    refine ⟨h, ?_⟩
    change s.q.pending .sam = []
    cases hp : s.q.pending .sam with
    | nil => rfl
    | cons e es =>
      unfold Due.work at hw
      rw [hp] at hw
      simp at hw
  | n + 1, s, h, hr, hw => by
    rw [Due.rounds_succ]
    change DInv lvl D turn (((s.step .pulse).step .period).run (Due.rounds n)) acc ∧ (((s.step .pulse).step .period).run (Due.rounds n)).q.pending .sam = []
    have key : ∀ ev, ev = .pulse ∨ ev = .period → ∀ {s : Due}, DInv lvl D turn s acc → (s.q.running = false → s.q.pending .sam = []) →
        DInv lvl D turn (s.step ev) acc ∧ ((s.step ev).q.running = false → (s.step ev).q.pending .sam = []) ∧ (s.step ev).work ≤ s.work ∧
        (s.q.running = true → (ev = .pulse → s.attached = true → (s.step ev).work < s.work) ∧ (ev = .period → s.irq = true → (s.step ev).work < s.work)) := by
      intro ev hev s h hr
      rcases hev with rfl | rfl
      · change DInv lvl D turn (if s.attached then s.pulse else s) acc ∧ _ ∧ (if s.attached then s.pulse else s).work ≤ _ ∧ _
        by_cases ha : s.attached = true
        · have hs : s.step .pulse = s.pulse := by simp [Due.step, ha]
          rw [hs, if_pos ha]
          have := h.pulse_work ha
          exact ⟨h.pulse hD ha, this.2, by omega, fun _ => ⟨fun _ _ => this.1, fun hx => nomatch hx⟩⟩
        · have hs : s.step .pulse = s := by simp [Due.step, ha]
          rw [hs, if_neg ha]
          exact ⟨h, hr, Nat.le_refl _, fun _ => ⟨fun _ hx => absurd hx ha, fun hx => nomatch hx⟩⟩
      · change DInv lvl D turn (if s.irq then s.period else s) acc ∧ _ ∧ (if s.irq then s.period else s).work ≤ _ ∧ _
        by_cases ha : s.irq = true
        · have hs : s.step .period = s.period := by simp [Due.step, ha]
          rw [hs, if_pos ha]
          have := h.period_work ha
          exact ⟨h.period ha, this.2, by omega, fun _ => ⟨(fun hx => nomatch hx), fun _ _ => this.1⟩⟩
        · have hs : s.step .period = s := by simp [Due.step, ha]
          rw [hs, if_neg ha]
          exact ⟨h, hr, Nat.le_refl _, fun _ => ⟨(fun hx => nomatch hx), fun _ hx => absurd hx ha⟩⟩
    obtain ⟨a1, a2, a3, a4⟩ := key .pulse (Or.inl rfl) h hr
    obtain ⟨b1, b2, b3, b4⟩ := key .period (Or.inr rfl) a1 a2
    refine DInv.finish hD n b1 b2 ?_
    cases hrun : s.q.running with
    | false =>
      have h0 : s.work = 0 := by unfold Due.work; rw [hr hrun]; rfl
      omega
    | true =>
      obtain ⟨e, es, hp, hpa, hat, hirq⟩ := h.on hrun
      by_cases h0 : e.steps = 0
      · have hatt : s.attached = false := by rw [hat]; simpa using h0
        have hs : s.step .pulse = s := by simp [Due.step, hatt]
        rw [hs] at b4 ⊢
        have := (b4 hrun).2 rfl (by rw [hirq]; simpa using h0)
        omega
      · have := (a4 hrun).1 rfl (by rw [hat]; simpa using h0)
        omega

theorem DInv.idle {s : Due} (h : s.Idle) (turn : Prop) :
    DInv (fun u => if s.q.dirPin = pinUndefined then s.q.dirLevel else (u == s.q.dirHighCountsUp)) (DirOK s.q.dirPin s.q.dirHighCountsUp) turn s [] := by
  have hidx : s.q.IdxOK .sam := by
    have := h.idx
    refine ⟨by omega, by omega, ?_⟩
    unfold Queue.queueEntries subU8
    have hl : ArchId.sam.queueLen = 32 := by decide
    omega
  have hp : s.q.pending .sam = [] := by
    rw [Queue.pending_nil_iff]; exact (due_ne_empty s.q hidx).mp h.idx.1
  refine { idx := hidx, ign := h.ign, ready := h.ready, pin := h.pin, lv := fun _ _ => rfl, ent := ?_, prep := ?_, off := fun _ => h.hw, on := ?_
           ups := ?_, dir := fun _ => Or.inl ⟨h.run, hp, h.pc⟩, dirs := ?_ }
  · rw [hp]; intro e he; cases he
  · rw [h.pc]; intro _ _ _ hx; cases hx
  · rw [h.run]; intro hx; cases hx
  · rw [hp, h.pulses]; rfl
  · rw [h.pulses]; intro _ p hx; cases hx

end FAS
