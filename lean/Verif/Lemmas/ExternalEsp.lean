import Verif.Spec.ExternalEsp
import Verif.Lemmas.External
import Verif.Lemmas.RmtPos

/-! The queue with an external direction pin and the ESP32 backends. -/

namespace FAS

/-- the queue of an ESP32 stepper with an external direction pin, while `addQueueEntry` is at `pc` -/
structure EQ (q : Queue) (pc : AddPc) (conf : Option Bool) : Prop where
  xq : XQ .esp32 q pc.isPrep conf
  ign : q.ignoreCommands = false
  pin : pinIsExternal q.dirPin = true ∧ q.dirPin ≠ pinUndefined
  sync : q.qend.dir = (q.qend.countUp == q.dirHighCountsUp)
  prep : ∀ next c st, pc = .prepared next c st → next.dir = (q.slot .esp32 q.nextWriteIdx).dirPinState ∧
    next.dir = (c.countUp == q.dirHighCountsUp) ∧ next.countUp = c.countUp ∧ (next.dir = q.qend.dir → (q.slot .esp32 q.nextWriteIdx).repeatEntry = false)
  tick : ∀ k, k < xcount q pc.isPrep → (q.slot .esp32 (q.readIdx + k)).steps = 0 →
    3200 ≤ (q.slot .esp32 (q.readIdx + k)).ticks ∧ (q.slot .esp32 (q.readIdx + k)).ticks ≤ 65535

theorem EQ.congr {q q' pc conf} (h : EQ q pc conf) (he : q'.entry = q.entry) (hr : q'.readIdx = q.readIdx) (hw : q'.nextWriteIdx = q.nextWriteIdx)
    (hi : q'.ignoreCommands = q.ignoreCommands) (hp : q'.dirPin = q.dirPin) (hu : q'.dirHighCountsUp = q.dirHighCountsUp) (hq : q'.qend = q.qend) :
    EQ q' pc conf := by
  have hs : ∀ i, q'.slot .esp32 i = q.slot .esp32 i := by intro i; unfold Queue.slot; rw [he]
  have hn : q'.queueEntries = q.queueEntries := by unfold Queue.queueEntries; rw [hr, hw]
  have hx : ∀ b, xcount q' b = xcount q b := by intro b; unfold xcount; rw [hn]
  refine { xq := ?_, ign := by rw [hi]; exact h.ign, pin := by rw [hp]; exact h.pin, sync := by rw [hq, hu]; exact h.sync, prep := ?_, tick := ?_ }
  · refine { idx := ?_, room := ?_, empty := ?_, head := ?_, chain := ?_, lvl := ?_, last := ?_, rep := ?_ }
    · unfold Queue.IdxOK; rw [hn, hr, hw]; exact h.xq.idx
    · rw [hn]; exact h.xq.room
    · rw [hx, hq]; exact h.xq.empty
    · rw [hx, hs, hr]; exact h.xq.head
    · rw [hx, hr]; simp only [hs]; exact h.xq.chain
    · rw [hx, hr, hu]; simp only [hs]; exact h.xq.lvl
    · rw [hn, hs, hr, hq]; exact h.xq.last
    · rw [hx, hr]; simp only [hs]; exact h.xq.rep
  · rw [hs, hw, hu, hq]; exact h.prep
  · rw [hx, hr]; simp only [hs]; exact h.tick

/-- changing the head entry -/
theorem EQ.modify {q pc conf} (h : EQ q pc conf) (q' : Queue) (conf' : Option Bool) (e' : Entry)
    (he : q'.entry = fun j => if j = q.readIdx % ArchId.esp32.queueLen then e' else q.entry j) (hr : q'.readIdx = q.readIdx)
    (hw : q'.nextWriteIdx = q.nextWriteIdx) (hu : q'.dirHighCountsUp = q.dirHighCountsUp) (hq : q'.qend = q.qend)
    (hi : q'.ignoreCommands = q.ignoreCommands) (hp : q'.dirPin = q.dirPin)
    (hd : e'.dirPinState = (q.slot .esp32 q.readIdx).dirPinState) (hc : e'.countUp = (q.slot .esp32 q.readIdx).countUp)
    (hn : 0 < xcount q pc.isPrep) (hne : (q.slot .esp32 q.readIdx).repeatEntry = false → e'.repeatEntry = false) (hh : XHead e' conf')
    (ht : e'.steps = 0 → 3200 ≤ e'.ticks ∧ e'.ticks ≤ 65535) : EQ q' pc conf' := by
  have hne' : q'.queueEntries = q.queueEntries := by unfold Queue.queueEntries; rw [hr, hw]
  have hnc : xcount q' pc.isPrep = xcount q pc.isPrep := by unfold xcount; rw [hne']
  have hs0 : ∀ i, i % ArchId.esp32.queueLen = q.readIdx % ArchId.esp32.queueLen → q'.slot .esp32 i = e' := by
    intro i hi; simp [Queue.slot, he, hi]
  have hsk : ∀ i, i % ArchId.esp32.queueLen ≠ q.readIdx % ArchId.esp32.queueLen → q'.slot .esp32 i = q.slot .esp32 i := by
    intro i hi; simp [Queue.slot, he, hi]
  refine { xq := h.xq.modify q' conf' e' he hr hw hu hq hd hc hn hh, ign := by rw [hi]; exact h.ign, pin := by rw [hp]; exact h.pin
           sync := by rw [hq, hu]; exact h.sync, prep := ?_, tick := ?_ }
  · intro next c st hpc
    obtain ⟨p1, p2, p3, p4⟩ := h.prep next c st hpc
    rw [hw, hu, hq]
    by_cases hx : q.nextWriteIdx % ArchId.esp32.queueLen = q.readIdx % ArchId.esp32.queueLen
    · rw [hs0 _ hx, hd, ← slot_congr .esp32 q hx]
      refine ⟨p1, p2, p3, fun hy => hne ?_⟩
      rw [← slot_congr .esp32 q hx]
      exact p4 hy
    · rw [hsk _ hx]; exact ⟨p1, p2, p3, p4⟩
  · intro k hk
    rw [hr]
    by_cases hx : (q.readIdx + k) % ArchId.esp32.queueLen = q.readIdx % ArchId.esp32.queueLen
    · rw [hs0 _ hx]; exact ht
    · rw [hsk _ hx]; exact h.tick k (by rw [← hnc]; exact hk)

/-- the entry in process is completed -/
theorem EQ.complete {q pc conf} (h : EQ q pc conf) (hn : q.queueEntries ≠ 0) (hr : (q.slot .esp32 q.readIdx).repeatEntry = false) : EQ q.complete pc conf := by
  obtain ⟨_, hi, hc⟩ := Queue.pending_cons .esp32 q h.xq.idx hn
  refine { xq := h.xq.complete hn hr, ign := h.ign, pin := h.pin, sync := h.sync, prep := h.prep, tick := ?_ }
  intro k hk
  have hxc : xcount q.complete pc.isPrep + 1 = xcount q pc.isPrep := by unfold xcount; omega
  have : q.complete.slot .esp32 (q.complete.readIdx + k) = q.slot .esp32 (q.readIdx + (k + 1)) := by
    change q.slot .esp32 (u8 (q.readIdx + 1) + k) = _
    apply slot_congr
    unfold u8
    rcases ArchId.esp32.queueLen_cases with hl | hl <;> rw [hl] <;> omega
  rw [this]
  exact h.tick (k + 1) (by omega)

/-- first phase of addQueueEntry -/
theorem EQ.begin {q conf} (h : EQ q .idle conf) (c : Cmd) (st : Bool) (hf : q.isQueueFull .esp32 = false) (hr : ¬ Queue.commandRateTicks c < ArchId.esp32.minCmdTicks)
    (hv : c.Valid) (ht : c.countUp ≠ q.qend.countUp → c.steps = 0) :
    EQ (q.prepare .esp32 c).1 (.prepared (q.prepare .esp32 c).2 c st) conf := by
  have hnf : q.queueEntries < ArchId.esp32.queueLen := by
    have h4 := h.xq.idx.2.2
    have h5 : q.queueEntries ≠ ArchId.esp32.queueLen := by
      intro hx
      unfold Queue.isQueueFull at hf
      rw [hx] at hf
      simp at hf
    omega
  obtain ⟨x1, x2, x3, x4, x5, x6⟩ := XQ.prepare (a := .esp32) (q := q) h.xq rfl h.pin c hnf (by
    intro hx
    apply ht
    intro hy
    apply hx
    rw [hy, h.sync])
  obtain ⟨e, pe, pr, pw, prun, pready, pign, ppos, pdp, pdh, pms, pnpos, pncu, es, ecu, em, eh, et, ep⟩ := prepare_spec .esp32 q c
  have hsl : (q.prepare .esp32 c).1.slot .esp32 q.nextWriteIdx = e := by simp [Queue.slot, pe]
  refine { xq := x1, ign := pign.trans h.ign, pin := by rw [pdp]; exact h.pin, sync := by rw [x5, pdh]; exact h.sync, prep := ?_, tick := ?_ }
  · intro next c' st' heq
    injection heq with g1 g2 g3
    subst g1 g2 g3
    rw [pw, pdh, x4, x2, x3, x5]
    refine ⟨rfl, rfl, rfl, ?_⟩
    intro hy
    have hu : (q.dirPin != pinUndefined) = true := by simp [h.pin.2]
    simp [Queue.prepare, Queue.slot, ArchId.externalDir, h.pin.1, hu, hy]
  · intro k hk
    rw [pr]
    have hk : k < q.queueEntries + 1 := by
      unfold xcount at hk; rw [x6] at hk; exact hk
    by_cases hk0 : k = q.queueEntries
    · subst hk0
      rw [slot_congr .esp32 _ (h.xq.wr).symm, hsl, es, et]
      intro h0
      obtain ⟨v1, v2⟩ := hv
      unfold Queue.commandRateTicks at hr
      rw [if_neg (by omega)] at hr
      exact ⟨by change ¬ c.ticks < 3200 at hr; omega, by omega⟩
    · have : (q.readIdx + k) % ArchId.esp32.queueLen ≠ q.nextWriteIdx % ArchId.esp32.queueLen := by
        rw [h.xq.wr]
        rcases ArchId.esp32.queueLen_cases with hl | hl <;> rw [hl] at hnf ⊢ <;> omega
      have : (q.prepare .esp32 c).1.slot .esp32 (q.readIdx + k) = q.slot .esp32 (q.readIdx + k) := by simp [Queue.slot, pe, this]
      rw [this]
      refine h.tick k ?_
      change k < q.queueEntries + 0
      omega

/-- second phase of addQueueEntry -/
theorem EQ.accept {q next c st conf} (h : EQ q (.prepared next c st) conf) (st' : Bool) :
    EQ { q with nextWriteIdx := u8 (q.nextWriteIdx + 1), qend := next } (.committed st') conf := by
  obtain ⟨p1, p2, p3, p4⟩ := h.prep next c st rfl
  have hx : XQ .esp32 q true conf := h.xq
  have hroom := hx.room rfl
  obtain ⟨i1, i2, i3⟩ := h.xq.idx
  have hne : ({ q with nextWriteIdx := u8 (q.nextWriteIdx + 1), qend := next } : Queue).queueEntries = q.queueEntries + 1 := by
    revert hroom
    unfold Queue.queueEntries subU8 u8
    dsimp only
    rcases ArchId.esp32.queueLen_cases with hl | hl <;> rw [hl] <;> omega
  refine { xq := hx.commit next p1, ign := h.ign, pin := h.pin, sync := by rw [p3]; exact p2, prep := (fun _ _ _ hx => nomatch hx), tick := ?_ }
  intro k hk
  refine h.tick k ?_
  unfold xcount at hk ⊢
  rw [hne] at hk
  exact hk

/-- the command is rejected in the second phase -/
theorem EQ.reject {q next c st conf} (h : EQ q (.prepared next c st) conf) (hc : c.countUp = q.qend.countUp) : EQ q .idle conf := by
  obtain ⟨p1, p2, p3, p4⟩ := h.prep next c st rfl
  have hx : XQ .esp32 q true conf := h.xq
  have hnd : next.dir = q.qend.dir := by rw [p2, hc, h.sync]
  have hnr : (q.slot .esp32 q.nextWriteIdx).repeatEntry = false := p4 hnd
  have hwr := hx.wr
  have e1 : xcount q true = q.queueEntries + 1 := rfl
  have e0 : xcount q false = q.queueEntries := rfl
  refine { xq := ?_, ign := h.ign, pin := h.pin, sync := h.sync, prep := (fun _ _ _ hx => nomatch hx), tick := fun k hk => h.tick k (by change k < xcount q true; change k < xcount q false at hk; omega) }
  change XQ .esp32 q false conf
  refine { idx := hx.idx, room := (fun hy => nomatch hy), empty := ?_, head := fun _ => hx.head (by omega), chain := fun k hk => hx.chain k (by omega),
           lvl := fun k hk => hx.lvl k (by omega), last := hx.last, rep := ?_ }
  · intro h0
    rw [e0] at h0
    rw [h0, Nat.add_zero] at hwr
    rcases hx.head (by omega) with hy | hy
    · rw [hy.2, ← slot_congr .esp32 q hwr, ← p1, hnd]
    · rw [← slot_congr .esp32 q hwr, hnr] at hy; cases hy.1
  · intro i hi
    obtain ⟨k, hk, hk2⟩ := hx.rep i hi
    by_cases hk0 : k = q.queueEntries
    · rw [hk0, ← hwr] at hk2
      rw [slot_congr .esp32 q hk2, hnr] at hi
      cases hi
    · exact ⟨k, by omega, hk2⟩

theorem EQ.leave {q st conf} (h : EQ q (.committed st) conf) : EQ q .idle conf :=
  { xq := h.xq, ign := h.ign, pin := h.pin, sync := h.sync, prep := (fun _ _ _ hx => nomatch hx), tick := h.tick }

/-- the entry with steps is confirmed -/
theorem EQ.conf {q pc conf} (h : EQ q pc conf) (hn : q.queueEntries ≠ 0) (hs : (q.slot .esp32 q.readIdx).steps ≠ 0) :
    conf = some ((q.slot .esp32 q.readIdx).countUp == q.dirHighCountsUp) ∧ (q.slot .esp32 q.readIdx).repeatEntry = false := by
  have h0 : 0 < xcount q pc.isPrep := by unfold xcount; omega
  have h1 := h.xq.lvl 0 h0
  rw [Nat.add_zero] at h1
  rcases h.xq.head h0 with hx | hx
  · rw [hx.2, h1]; exact ⟨rfl, hx.1⟩
  · exact absurd hx.2 hs

theorem EQ.entry_steps {q pc conf} (h : EQ q pc conf) (hr : (q.slot .esp32 q.readIdx).repeatEntry = true) :
    0 < xcount q pc.isPrep ∧ (q.slot .esp32 q.readIdx).steps = 0 := by
  obtain ⟨k, hk, hk2⟩ := h.xq.rep q.readIdx hr
  have h0 : 0 < xcount q pc.isPrep := by omega
  rcases h.xq.head h0 with hx | hx
  · rw [hr] at hx; cases hx.1
  · exact ⟨h0, hx.2⟩

/-- the task asks the callback -/
theorem EQ.poll {q pc} {l : ExtLog} (h : EQ q pc l.conf) (agree : Bool) : EQ (q.extPoll .esp32 agree) pc (l.polled q agree).conf := by
  unfold Queue.extPoll ExtLog.polled
  have hpp : (q.dirPin != pinUndefined && pinIsExternal q.dirPin) = true := by simp [h.pin.1, h.pin.2]
  rw [hpp, Bool.true_and]
  by_cases hr : (q.slot .esp32 q.readIdx).repeatEntry = true
  · rw [if_pos hr]
    obtain ⟨h0, hst⟩ := h.entry_steps hr
    cases agree with
    | false =>
      rw [if_neg (by simp)]
      refine { xq := ?_, ign := h.ign, pin := h.pin, sync := h.sync, prep := h.prep, tick := h.tick }
      exact { idx := h.xq.idx, room := h.xq.room, empty := fun hx => by omega, head := fun _ => Or.inr ⟨hr, hst⟩, chain := h.xq.chain, lvl := h.xq.lvl
              last := h.xq.last, rep := h.xq.rep }
    | true =>
      rw [if_pos (by rw [hr]; rfl)]
      refine h.modify (Avr.clearRepeatingFlag .esp32 q) _ { q.slot .esp32 q.readIdx with repeatEntry := false } rfl rfl rfl rfl rfl rfl rfl rfl rfl h0 (fun _ => rfl)
        (Or.inl ⟨rfl, rfl⟩) ?_
      have := h.tick 0 h0
      rw [Nat.add_zero] at this
      exact this
  · rw [if_neg hr]
    have hr' : (q.slot .esp32 q.readIdx).repeatEntry = false := by simpa using hr
    rw [if_neg (by rw [hr']; simp)]
    exact h

/-! ## RMT -/

/-- the parts `new` are handed over with confirmation -/
def AddsConf (conf : Option Bool) (hcu : Bool) (out out' : List Chunk) : Prop :=
  ∃ new, out' = new ++ out ∧ ∀ ch ∈ new, ch.hasPulses = true → ∃ u, ch.up = some u ∧ conf = some (u == hcu)

theorem AddsConf.refl {conf hcu out} : AddsConf conf hcu out out := ⟨[], rfl, fun _ h => nomatch h⟩

theorem AddsConf.trans {conf hcu a b c} (h : AddsConf conf hcu a b) (h' : AddsConf conf hcu b c) : AddsConf conf hcu a c := by
  obtain ⟨n, h1, h2⟩ := h
  obtain ⟨n', h3, h4⟩ := h'
  refine ⟨n' ++ n, by rw [h3, h1, List.append_assoc], ?_⟩
  intro ch hch
  rcases List.mem_append.mp hch with hx | hx
  · exact h4 ch hx
  · exact h2 ch hx

theorem hasPulses_silent {k : Chunk} (h : Silent k.segs) : k.hasPulses = false := by
  unfold Chunk.hasPulses
  rw [List.any_eq_false]
  intro x hx
  rw [h x hx]
  decide

theorem AddsConf.silent {conf hcu} {ch : Chunk} {out : List Chunk} (h : Silent ch.segs) : AddsConf conf hcu out (ch :: out) :=
  ⟨[ch], rfl, fun x hx hp => by
    rw [List.mem_singleton] at hx
    subst hx
    rw [hasPulses_silent h] at hp
    cases hp⟩

theorem EQ.toggleHead {q pc conf} (h : EQ q pc conf) (hn : q.queueEntries ≠ 0) : EQ (Rmt.toggleHead q) pc conf ∧
    (Rmt.toggleHead q).slot .esp32 q.readIdx = { q.slot .esp32 q.readIdx with toggleDir := (Rmt.toggleHead q).slot .esp32 q.readIdx |>.toggleDir } := by
  unfold Rmt.toggleHead
  dsimp only
  split
  · refine ⟨h.modify _ conf { q.slot .esp32 q.readIdx with toggleDir := false } rfl rfl rfl rfl rfl rfl rfl rfl rfl (by unfold xcount; omega) (fun hx => hx) ?_ ?_, ?_⟩
    · exact h.xq.head (by unfold xcount; omega)
    · have := h.tick 0 (by unfold xcount; omega)
      rw [Nat.add_zero] at this
      exact this
    · simp [Queue.slot]
  · exact ⟨h, rfl⟩

theorem EQ.finishHead {q pc conf} (h : EQ q pc conf) (hn : q.queueEntries ≠ 0) (rest : Nat) (hr : rest ≠ 0 → (q.slot .esp32 q.readIdx).steps ≠ 0) :
    EQ (Rmt.finishHead q rest) pc conf := by
  unfold Rmt.finishHead
  dsimp only
  split
  · split
    · exact h
    · rename_i hx
      have hx : ¬ (q.slot .esp32 q.readIdx).repeatEntry = true := hx
      exact h.complete hn (Bool.eq_false_iff.mpr hx)
  · rename_i hr0
    refine h.modify _ conf { q.slot .esp32 q.readIdx with steps := rest } rfl rfl rfl rfl rfl rfl rfl rfl rfl (by unfold xcount; omega) (fun hx => hx) ?_ (fun hx => absurd hx hr0)
    rcases h.xq.head (by unfold xcount; omega) with hx | hx
    · exact Or.inl hx
    · exact absurd hx.2 (hr hr0)

theorem EQ.fill {v conf} {s : Rmt} (h : EQ s.q s.pc conf) :
    EQ (s.fill v).q (s.fill v).pc conf ∧ AddsConf conf s.q.dirHighCountsUp s.out (s.fill v).out ∧ (s.fill v).q.dirHighCountsUp = s.q.dirHighCountsUp := by
  unfold Rmt.fill
  by_cases hst : (s.stopped && decide (v ≠ .idf4s)) = true
  · rw [if_pos hst]; exact ⟨h, .refl, rfl⟩
  rw [if_neg hst]
  by_cases hemp : s.q.readIdx = s.q.nextWriteIdx
  · rw [if_pos hemp]
    generalize (decide (v = RmtVer.idf4) && !s.partOne) = idle
    obtain ⟨segs, hout, hsg⟩ := send_out v s (v.emptyPause s.partOne) idle none
    have hsg := hsg (emptyPause_ok v s.partOne).2
    refine ⟨h, ?_, rfl⟩
    change AddsConf _ _ _ (s.send v (v.emptyPause s.partOne) idle none).out
    rw [hout]
    exact .silent (by rw [hsg]; exact (emptyPause_ok v s.partOne).1.append (by cases idle <;> simp [Silent]))
  rw [if_neg hemp]
  have hn : s.q.queueEntries ≠ 0 := fun h0 => hemp ((Queue.empty_iff .esp32 s.q h.xq.idx).mpr h0)
  dsimp only
  by_cases htd : ((s.q.slot .esp32 s.q.readIdx).toggleDir && s.lastSteps) = true
  · rw [if_pos htd]
    generalize (decide (v = RmtVer.idf4) && !s.partOne) = idle
    obtain ⟨segs, hout, hsg⟩ := send_out v s v.dirPause idle none
    have hsg := hsg (dirPause_ok v).2
    refine ⟨h, ?_, rfl⟩
    change AddsConf _ _ _ (s.send v v.dirPause idle none).out
    rw [hout]
    exact .silent (by rw [hsg]; exact (dirPause_ok v).1.append (by cases idle <;> simp [Silent]))
  rw [if_neg htd]
  obtain ⟨h1, h2⟩ := h.toggleHead hn
  obtain ⟨u1, u2, u3, u4, u5, u6, u7, u8⟩ := toggleHead_frame s.q
  have hn1 : (Rmt.toggleHead s.q).queueEntries ≠ 0 := by unfold Queue.queueEntries at hn ⊢; rw [u1, u2]; exact hn
  have hst1 : ((Rmt.toggleHead s.q).slot .esp32 (Rmt.toggleHead s.q).readIdx).steps = (s.q.slot .esp32 s.q.readIdx).steps := by rw [u1, h2]
  refine ⟨?_, ?_, ?_⟩
  · refine h1.finishHead hn1 _ ?_
    intro hr h0
    rw [hst1] at h0
    apply hr
    rw [if_pos h0]
  · by_cases h0 : (s.q.slot .esp32 s.q.readIdx).steps = 0
    · have htk := h.tick 0 (by unfold xcount; omega)
      rw [Nat.add_zero] at htk
      obtain ⟨p1, p2, p3⟩ := pauseWords_ok v _ (htk h0).1 (htk h0).2
      simp only [if_pos h0]
      by_cases hid : (decide (v = .idf4) && !s.partOne) = true
      · rw [if_pos hid, hid]
        have hv : v = .idf4 := by simp at hid; exact hid.1
        obtain ⟨segs, hout, hsg⟩ := send_out v { s with q := Rmt.toggleHead s.q } (Rmt.decLast (v.pauseWords (s.q.slot .esp32 s.q.readIdx).ticks)) true
          (some (s.q.slot .esp32 s.q.readIdx).countUp)
        change AddsConf _ _ _ ({ s with q := Rmt.toggleHead s.q }.send v (Rmt.decLast (v.pauseWords (s.q.slot .esp32 s.q.readIdx).ticks)) true _).out
        rw [hout]
        have hl : (Rmt.decLast (v.pauseWords (s.q.slot .esp32 s.q.readIdx).ticks)).length = v.part := by
          rw [← p1]
          unfold Rmt.decLast
          split
          · rfl
          · rename_i w hw
            rw [List.length_append, List.length_dropLast, List.length_singleton]
            have : (v.pauseWords (s.q.slot .esp32 s.q.readIdx).ticks).length ≠ 0 := by rw [p1]; cases v <;> decide
            omega
        refine .silent ?_
        rw [hsg hl, if_pos rfl]
        exact (p3 hv).1
      · rw [if_neg hid]
        have hid' : (decide (v = .idf4) && !s.partOne) = false := by simpa using hid
        rw [hid']
        obtain ⟨segs, hout, hsg⟩ := send_out v { s with q := Rmt.toggleHead s.q } (v.pauseWords (s.q.slot .esp32 s.q.readIdx).ticks) false
          (some (s.q.slot .esp32 s.q.readIdx).countUp)
        change AddsConf _ _ _ ({ s with q := Rmt.toggleHead s.q }.send v (v.pauseWords (s.q.slot .esp32 s.q.readIdx).ticks) false _).out
        rw [hout]
        refine .silent ?_
        rw [hsg p1, if_neg (by decide), List.append_nil]
        exact p2.1
    · refine ⟨[_], rfl, ?_⟩
      intro ch hch _
      rw [List.mem_singleton] at hch
      subst hch
      exact ⟨_, rfl, (h.conf hn h0).1⟩
  · obtain ⟨g1, g2, g3, g4, g5, g6, g7⟩ := finishHead_frame (Rmt.toggleHead s.q)
      (if (s.q.slot .esp32 s.q.readIdx).steps = 0 then (v.pauseWords (s.q.slot .esp32 s.q.readIdx).ticks, 0)
        else v.stepWords (s.q.slot .esp32 s.q.readIdx).steps (s.q.slot .esp32 s.q.readIdx).ticks).2
    exact g5.trans u6

theorem EQ.start {v conf} {s : Rmt} (h : EQ s.q s.pc conf) :
    EQ (s.startQueue v).q (s.startQueue v).pc conf ∧ AddsConf conf s.q.dirHighCountsUp s.out (s.startQueue v).out ∧
      (s.startQueue v).q.dirHighCountsUp = s.q.dirHighCountsUp := by
  unfold Rmt.startQueue
  by_cases hemp : s.q.readIdx = s.q.nextWriteIdx
  · rw [if_pos hemp]
    split
    · exact ⟨h, .refl, rfl⟩
    · exact ⟨h.congr rfl rfl rfl rfl rfl rfl rfl, .refl, rfl⟩
  rw [if_neg hemp]
  have hn : s.q.queueEntries ≠ 0 := fun h0 => hemp ((Queue.empty_iff .esp32 s.q h.xq.idx).mpr h0)
  obtain ⟨u1, u2, u3, u4, u5, u6, u7, u8⟩ := toggleHead_frame s.q
  have h1 : EQ { Rmt.toggleHead s.q with running := true } s.pc conf := (h.toggleHead hn).1.congr rfl rfl rfl rfl rfl rfl rfl
  dsimp only
  by_cases hv : v.isIdf5 = true
  · rw [if_pos hv]
    exact ⟨h1, .refl, u6⟩
  · rw [if_neg hv]
    dsimp only
    generalize hs0 : ({ s with
        q := { Rmt.toggleHead s.q with running := true }, stopped := false, lastSteps := true, prevSteps := true, partOne := true
        mem1 := Rmt.pattern v 0 s.mem1, mem2 := Rmt.pattern v v.part s.mem2, tx := true, starting := true } : Rmt) = s0
    have h2 : EQ s0.q s0.pc conf := by rw [← hs0]; exact h1
    have ho : s0.out = s.out := by rw [← hs0]
    have hu : s0.q.dirHighCountsUp = s.q.dirHighCountsUp := by rw [← hs0]; exact u6
    obtain ⟨f1, f2, f3⟩ := h2.fill (v := v)
    obtain ⟨g1, g2, g3⟩ := f1.fill (v := v)
    rw [ho, hu] at f2
    rw [f3, hu] at g2
    exact ⟨g1, f2.trans g2, by rw [g3, f3, hu]⟩

structure RX (s : Rmt) (l : ExtLog) : Prop where
  eq : EQ s.q s.pc l.conf
  pulses : l.Confirmed

theorem RX.adds {s t : Rmt} {l : ExtLog} (h : RX s l) (h1 : EQ t.q t.pc l.conf) (h2 : AddsConf l.conf s.q.dirHighCountsUp s.out t.out)
    (h3 : t.q.dirHighCountsUp = s.q.dirHighCountsUp) : RX t (l.parts s t) := by
  refine ⟨h1, ?_⟩
  obtain ⟨new, hn, hc⟩ := h2
  have hnew : t.out.take (t.out.length - s.out.length) = new := by
    rw [hn, List.length_append, Nat.add_sub_cancel, List.take_append_of_le_length (Nat.le_refl _), List.take_length]
  intro p hp
  unfold ExtLog.parts at hp
  rw [hnew] at hp
  rcases List.mem_append.mp hp with hp | hp
  · obtain ⟨k, hk, rfl⟩ := List.mem_map.mp hp
    obtain ⟨hk1, hk2⟩ := List.mem_filter.mp hk
    obtain ⟨u, hu, hconf⟩ := hc k hk1 hk2
    exact ⟨u == s.q.dirHighCountsUp, by rw [hu, hconf, h3]; rfl⟩
  · exact h.pulses p hp

theorem RX.same {s t : Rmt} {l : ExtLog} (h : RX s l) (h1 : EQ t.q t.pc l.conf) (h2 : t.out = s.out) (h3 : t.q.dirHighCountsUp = s.q.dirHighCountsUp) :
    RX t (l.parts s t) := h.adds h1 (by rw [h2]; exact .refl) h3

theorem EQ.rsync {s : Rmt} {conf} (h : EQ s.q s.pc conf) : EQ s.sync.q s.sync.pc conf := h.congr rfl rfl rfl rfl rfl rfl rfl

theorem EQ.rstep {v} {s : Rmt} {conf} (h : EQ s.q s.pc conf) (ev : Rmt.Ev) (hp : s.ExtTurn (.hw ev)) : EQ (s.step v ev).q (s.step v ev).pc conf ∧
    AddsConf conf s.q.dirHighCountsUp s.out (s.step v ev).out ∧ (s.step v ev).q.dirHighCountsUp = s.q.dirHighCountsUp := by
  suffices key : ∃ t : Rmt, s.step v ev = t.sync ∧ EQ t.q t.pc conf ∧ AddsConf conf s.q.dirHighCountsUp s.out t.out ∧
      t.q.dirHighCountsUp = s.q.dirHighCountsUp by
    obtain ⟨t, h1, h2, h3, h4⟩ := key
    rw [h1]
    exact ⟨h2.rsync, h3, h4⟩
  cases ev with
  | fill =>
    refine ⟨_, rfl, ?_⟩
    dsimp only
    split
    · exact h.fill
    · exact ⟨h, .refl, rfl⟩
  | txDone =>
    refine ⟨_, rfl, ?_⟩
    dsimp only
    split
    · exact ⟨h.congr rfl rfl rfl rfl rfl rfl rfl, .refl, rfl⟩
    · exact ⟨h, .refl, rfl⟩
  | addBegin c st =>
    refine ⟨_, rfl, ?_⟩
    dsimp only
    cases hpc : s.pc with
    | idle =>
      dsimp only
      split
      · exact ⟨h, .refl, rfl⟩
      split
      · exact ⟨h, .refl, rfl⟩
      rename_i hf
      split
      · exact ⟨h, .refl, rfl⟩
      rename_i hr
      have h0 := h
      rw [hpc] at h0
      refine ⟨h0.begin c st (by simpa using hf) hr hp.1 hp.2, .refl, ?_⟩
      obtain ⟨e, pe, pr, pw, prun, pready, pign, ppos, pdp, pdh, _⟩ := prepare_spec .esp32 s.q c
      exact pdh
    | prepared n c' st' => exact ⟨h, .refl, rfl⟩
    | committed st' => exact ⟨h, .refl, rfl⟩
  | addCommit =>
    refine ⟨_, rfl, ?_⟩
    dsimp only
    cases hpc : s.pc with
    | idle => exact ⟨h, .refl, rfl⟩
    | committed st => exact ⟨h, .refl, rfl⟩
    | prepared next c st =>
      have h0 := h
      rw [hpc] at h0
      dsimp only
      by_cases hrd : s.q.ready = true
      · rw [commit_ok s.q next hrd h.ign]
        exact ⟨h0.accept st, .refl, rfl⟩
      · have hc : s.q.commit next = (s.q, false) := by
          unfold Queue.commit
          rw [if_neg (by rw [h.ign]; decide), if_neg hrd]
        rw [hc]
        have hpp : s.pc.NotLost s.q := hp
        rw [hpc] at hpp
        refine ⟨h0.reject ?_, .refl, rfl⟩
        by_cases hcu : c.countUp = s.q.qend.countUp
        · exact hcu
        · exact absurd (hpp hcu) hrd
  | addFinish =>
    refine ⟨_, rfl, ?_⟩
    dsimp only
    cases hpc : s.pc with
    | idle => exact ⟨h, .refl, rfl⟩
    | prepared n c st => exact ⟨h, .refl, rfl⟩
    | committed st =>
      have h0 := h
      rw [hpc] at h0
      dsimp only
      split
      · exact EQ.start (v := v) (s := { s with pc := .idle }) h0.leave
      · exact ⟨h0.leave, .refl, rfl⟩
  | startNull =>
    refine ⟨_, rfl, ?_⟩
    dsimp only
    cases hpc : s.pc with
    | prepared n c st => exact ⟨h, .refl, rfl⟩
    | committed st => exact ⟨h, .refl, rfl⟩
    | idle =>
      dsimp only
      split
      · exact h.start
      · exact ⟨h, .refl, rfl⟩
  | forceStop p => exact absurd hp id
  | clearIgnore =>
    refine ⟨_, rfl, ?_⟩
    exact ⟨h.congr rfl rfl rfl h.ign.symm rfl rfl rfl, .refl, rfl⟩

theorem RX.step {v s l} (h : RX s l) (ev : Rmt.Ev) (hp : s.ExtTurn (.hw ev)) : RX (s.step v ev) (l.parts s (s.step v ev)) := by
  obtain ⟨h1, h2, h3⟩ := h.eq.rstep (v := v) ev hp
  exact h.adds h1 h2 h3

theorem RX.poll {v s l} (h : RX s l) (agree : Bool) : RX (s.stepExt v (.poll agree)) (l.polled s.q agree) := by
  refine ⟨h.eq.poll agree, ?_⟩
  unfold ExtLog.polled
  split <;> exact h.pulses

theorem RX.run {v} : ∀ (evs : List (ExtEv Rmt.Ev)) {s l}, RX s l → Rmt.AlongExt v Rmt.ExtTurn s evs → RX (Rmt.watch v s l evs).1 (Rmt.watch v s l evs).2
  | [], _, _, h, _ => h
  | .hw ev :: evs, _, _, h, hp => RX.run evs (h.step ev hp.1) hp.2
  | .poll agree :: evs, _, _, h, hp => RX.run evs (h.poll (v := v) agree) hp.2

theorem EQ.idle {q : Queue} {l : ExtLog} (h : q.ExtIdle l) : EQ q .idle l.conf := by
  have hq : q.queueEntries = 0 := by
    have := h.idx
    unfold Queue.queueEntries subU8
    omega
  have hx : xcount q AddPc.idle.isPrep = 0 := by unfold xcount; rw [hq]; rfl
  refine { xq := ?_, ign := h.ign, pin := h.pin, sync := h.sync, prep := (fun _ _ _ hx => nomatch hx), tick := by rw [hx]; intro k hk; omega }
  refine { idx := ⟨h.idx.2, by rw [← h.idx.1]; exact h.idx.2, by omega⟩, room := (fun hy => nomatch hy), empty := fun _ => h.conf, head := ?_, chain := ?_, lvl := ?_, last := ?_, rep := ?_ }
  · rw [hx]; intro hy; omega
  · rw [hx]; intro k hy; omega
  · rw [hx]; intro k hy; omega
  · rw [hq]; intro hy; omega
  · intro i hi
    rw [h.clean i] at hi
    cases hi

theorem ExtIdle_confirmed {q : Queue} {l : ExtLog} (h : q.ExtIdle l) : l.Confirmed := by
  intro p hp; rw [h.pulses] at hp; cases hp

/-! ### waiting for the confirmation -/

/-- the head entry stays -/
structure HK (q q' : Queue) : Prop where
  rd : q'.readIdx = q.readIdx
  cmd : (q'.slot .esp32 q.readIdx).asCmd = (q.slot .esp32 q.readIdx).asCmd
  cnt : q'.queueEntries ≠ 0
  rep : (q'.slot .esp32 q.readIdx).repeatEntry = true

theorem HK.trans {q q' q'' : Queue} (h : HK q q') (h' : HK q' q'') : HK q q'' := by
  refine ⟨h'.rd.trans h.rd, ?_, h'.cnt, ?_⟩
  · have := h'.cmd; rw [h.rd] at this; rw [this, h.cmd]
  · have := h'.rep; rw [h.rd] at this; exact this

theorem HK.congr {q q' q'' : Queue} (h : HK q q') (he : q''.entry = q'.entry) (hr : q''.readIdx = q'.readIdx) (hw : q''.nextWriteIdx = q'.nextWriteIdx) : HK q q'' := by
  refine ⟨hr.trans h.rd, ?_, ?_, ?_⟩
  · have := h.cmd; unfold Queue.slot at this ⊢; rw [he]; exact this
  · have := h.cnt; unfold Queue.queueEntries at this ⊢; rw [hr, hw]; exact this
  · have := h.rep; unfold Queue.slot at this ⊢; rw [he]; exact this

theorem HK.refl {q : Queue} (hn : q.queueEntries ≠ 0) (hr : (q.slot .esp32 q.readIdx).repeatEntry = true) : HK q q := ⟨rfl, rfl, hn, hr⟩

theorem HK.toggleHead {q q' : Queue} (h : HK q q') : HK q (Rmt.toggleHead q') := by
  obtain ⟨u1, u2, -⟩ := toggleHead_frame q'
  have hs : (Rmt.toggleHead q').slot .esp32 q.readIdx = { q'.slot .esp32 q.readIdx with toggleDir := ((Rmt.toggleHead q').slot .esp32 q.readIdx).toggleDir } := by
    rw [← h.rd]
    unfold Rmt.toggleHead
    dsimp only
    split
    · simp [Queue.slot]
    · rfl
  refine ⟨u1.trans h.rd, ?_, ?_, ?_⟩
  · rw [hs]; exact h.cmd
  · have := h.cnt; unfold Queue.queueEntries at this ⊢; rw [u1, u2]; exact this
  · rw [hs]; exact h.rep

/-- a command whose direction is not confirmed -/
theorem EQ.unconf {q pc} (h : EQ q pc none) (hn : q.queueEntries ≠ 0) : (q.slot .esp32 q.readIdx).repeatEntry = true ∧ (q.slot .esp32 q.readIdx).steps = 0 := by
  rcases h.xq.head (by unfold xcount; omega) with hx | hx
  · cases hx.2
  · exact hx

/-- while the head entry is repeated, the answer before does not matter -/
theorem EQ.forget {q pc conf} (h : EQ q pc conf) (hr : (q.slot .esp32 q.readIdx).repeatEntry = true) : EQ q pc none := by
  obtain ⟨h0, hst⟩ := h.entry_steps hr
  refine { xq := ?_, ign := h.ign, pin := h.pin, sync := h.sync, prep := h.prep, tick := h.tick }
  exact { idx := h.xq.idx, room := h.xq.room, empty := fun hx => by omega, head := fun _ => Or.inr ⟨hr, hst⟩, chain := h.xq.chain, lvl := h.xq.lvl
          last := h.xq.last, rep := h.xq.rep }

theorem HK.fill {v} {q : Queue} {s : Rmt} (h : HK q s.q) (he : EQ s.q s.pc none) : HK q (s.fill v).q := by
  obtain ⟨hr, hst⟩ := he.unconf h.cnt
  unfold Rmt.fill
  split
  · exact h
  split
  · exact h
  dsimp only
  by_cases htd : ((s.q.slot .esp32 s.q.readIdx).toggleDir && s.lastSteps) = true
  · rw [if_pos htd]; exact h
  rw [if_neg htd, if_pos hst]
  have ht := h.toggleHead
  change HK q (Rmt.finishHead (Rmt.toggleHead s.q) 0)
  unfold Rmt.finishHead
  dsimp only
  rw [if_pos rfl, if_pos]
  · exact ht
  · have h2 := ht.rep
    rw [← ht.rd] at h2
    exact h2

theorem HK.start {v} {q : Queue} {s : Rmt} (h : HK q s.q) (he : EQ s.q s.pc none) : HK q (s.startQueue v).q := by
  unfold Rmt.startQueue
  by_cases hemp : s.q.readIdx = s.q.nextWriteIdx
  · exact absurd ((Queue.empty_iff .esp32 s.q he.xq.idx).mp hemp) h.cnt
  rw [if_neg hemp]
  have h1 : EQ { Rmt.toggleHead s.q with running := true } s.pc none := (he.toggleHead h.cnt).1.congr rfl rfl rfl rfl rfl rfl rfl
  have h2 : HK q { Rmt.toggleHead s.q with running := true } := h.toggleHead.congr rfl rfl rfl
  dsimp only
  by_cases hv : v.isIdf5 = true
  · rw [if_pos hv]; exact h2
  · rw [if_neg hv]
    dsimp only
    generalize hs0 : ({ s with
        q := { Rmt.toggleHead s.q with running := true }, stopped := false, lastSteps := true, prevSteps := true, partOne := true
        mem1 := Rmt.pattern v 0 s.mem1, mem2 := Rmt.pattern v v.part s.mem2, tx := true, starting := true } : Rmt) = s0
    have e1 : EQ s0.q s0.pc none := by rw [← hs0]; exact h1
    have e2 : HK q s0.q := by rw [← hs0]; exact h2
    exact (e2.fill (v := v) e1).fill (v := v) (e1.fill (v := v)).1

theorem HK.begin {q : Queue} {pc} (he : EQ q pc none) (hn : q.queueEntries ≠ 0) (c : Cmd) (hf : q.isQueueFull .esp32 = false) : HK q (q.prepare .esp32 c).1 := by
  obtain ⟨hr, hst⟩ := he.unconf hn
  obtain ⟨e, pe, pr, pw, _⟩ := prepare_spec .esp32 q c
  have hnf : q.queueEntries < ArchId.esp32.queueLen := by
    have h4 := he.xq.idx.2.2
    have h5 : q.queueEntries ≠ ArchId.esp32.queueLen := by
      intro hx
      unfold Queue.isQueueFull at hf
      rw [hx] at hf
      simp at hf
    omega
  have hne : q.readIdx % ArchId.esp32.queueLen ≠ q.nextWriteIdx % ArchId.esp32.queueLen := by
    rw [he.xq.wr]
    rcases ArchId.esp32.queueLen_cases with hl | hl <;> rw [hl] at hnf ⊢ <;> omega
  have hs : (q.prepare .esp32 c).1.slot .esp32 q.readIdx = q.slot .esp32 q.readIdx := by simp [Queue.slot, pe, hne]
  refine ⟨pr, by rw [hs], ?_, by rw [hs]; exact hr⟩
  unfold Queue.queueEntries at hn ⊢
  rw [pr, pw]
  exact hn

theorem HK.commit {q : Queue} {next c st} (he : EQ q (.prepared next c st) none) (hn : q.queueEntries ≠ 0) : HK q (q.commit next).1 := by
  obtain ⟨hr, hst⟩ := he.unconf hn
  unfold Queue.commit
  split
  · exact HK.refl hn hr
  split
  · refine ⟨rfl, rfl, ?_, hr⟩
    have hroom := he.xq.room rfl
    obtain ⟨i1, i2, i3⟩ := he.xq.idx
    revert hn hroom
    unfold Queue.queueEntries subU8 u8
    dsimp only
    rcases ArchId.esp32.queueLen_cases with hl | hl <;> rw [hl] <;> omega
  · exact HK.refl hn hr

theorem HK.rstep {v} {s : Rmt} (he : EQ s.q s.pc none) (hn : s.q.queueEntries ≠ 0) (ev : Rmt.Ev) (hp : s.ExtTurn (.hw ev)) : HK s.q (s.step v ev).q := by
  obtain ⟨hr, hst⟩ := he.unconf hn
  have h0 := HK.refl hn hr
  suffices key : ∃ t : Rmt, s.step v ev = t.sync ∧ HK s.q t.q by
    obtain ⟨t, h1, h2⟩ := key
    rw [h1]
    exact h2.congr rfl rfl rfl
  cases ev with
  | fill =>
    refine ⟨_, rfl, ?_⟩
    dsimp only
    split
    · exact h0.fill he
    · exact h0
  | txDone =>
    refine ⟨_, rfl, ?_⟩
    dsimp only
    split
    · exact h0.congr rfl rfl rfl
    · exact h0
  | addBegin c st =>
    refine ⟨_, rfl, ?_⟩
    dsimp only
    repeat' split
    all_goals first | exact h0 | skip
    rename_i hf _
    exact HK.begin he hn c (by simpa using hf)
  | addCommit =>
    refine ⟨_, rfl, ?_⟩
    dsimp only
    cases hpc : s.pc with
    | idle => exact h0
    | committed st => exact h0
    | prepared next c st =>
      rw [hpc] at he
      exact HK.commit he hn
  | addFinish =>
    refine ⟨_, rfl, ?_⟩
    dsimp only
    cases hpc : s.pc with
    | idle => exact h0
    | prepared n c st => exact h0
    | committed st =>
      rw [hpc] at he
      dsimp only
      split
      · exact HK.start (s := { s with pc := .idle }) h0 he.leave
      · exact h0
  | startNull =>
    refine ⟨_, rfl, ?_⟩
    dsimp only
    cases hpc : s.pc with
    | prepared n c st => exact h0
    | committed st => exact h0
    | idle =>
      dsimp only
      split
      · exact h0.start he
      · exact h0
  | forceStop p => exact absurd hp id
  | clearIgnore => exact ⟨_, rfl, h0.congr rfl rfl rfl⟩

theorem polled_none {q : Queue} {pc} {l : ExtLog} (he : EQ q pc none) (hn : q.queueEntries ≠ 0) :
    q.extPoll .esp32 false = q ∧ (l.polled q false).conf = none ∧ (l.polled q false).pulses = l.pulses := by
  obtain ⟨hr, hst⟩ := he.unconf hn
  unfold Queue.extPoll ExtLog.polled
  have hpp : (q.dirPin != pinUndefined && pinIsExternal q.dirPin) = true := by simp [he.pin.1, he.pin.2]
  rw [hpp, Bool.true_and, hr]
  exact ⟨rfl, rfl, rfl⟩

/-- an unconfirmed change of direction stops the queue -/
theorem EQ.rwait {v} : ∀ (evs : List (ExtEv Rmt.Ev)) {s : Rmt} {l : ExtLog}, EQ s.q s.pc none → s.q.queueEntries ≠ 0 → Rmt.AlongExt v Rmt.ExtTurn s evs →
    (∀ agree, .poll agree ∈ evs → agree = false) →
    (Rmt.watch v s l evs).2.pulses = l.pulses ∧ HK s.q (Rmt.watch v s l evs).1.q ∧ EQ (Rmt.watch v s l evs).1.q (Rmt.watch v s l evs).1.pc none ∧
      (Rmt.watch v s l evs).1.q.dirHighCountsUp = s.q.dirHighCountsUp
  | [], s, l, he, hn, _, _ => ⟨rfl, HK.refl hn (he.unconf hn).1, he, rfl⟩
  | .hw ev :: evs, s, l, he, hn, hp, hf => by
    obtain ⟨h1, ⟨new, h2, h3⟩, h4⟩ := he.rstep (v := v) ev hp.1
    have hk := HK.rstep (v := v) he hn ev hp.1
    obtain ⟨i1, i2, i3, i4⟩ := EQ.rwait evs (l := l.parts s (s.step v ev)) h1 hk.cnt hp.2 (fun a ha => hf a (List.mem_cons_of_mem _ ha))
    refine ⟨i1.trans ?_, hk.trans i2, i3, i4.trans h4⟩
    have hnew : (s.step v ev).out.take ((s.step v ev).out.length - s.out.length) = new := by
      rw [h2, List.length_append, Nat.add_sub_cancel, List.take_append_of_le_length (Nat.le_refl _), List.take_length]
    unfold ExtLog.parts
    dsimp only
    rw [hnew]
    have : new.filter Chunk.hasPulses = [] := by
      rw [List.filter_eq_nil_iff]
      intro ch hch hx
      obtain ⟨u, _, hu⟩ := h3 ch hch hx
      cases hu
    rw [this]
    rfl
  | .poll agree :: evs, s, l, he, hn, hp, hf => by
    have ha : agree = false := hf agree List.mem_cons_self
    subst ha
    obtain ⟨p1, p2, p3⟩ := polled_none (l := l) he hn
    have hs : s.stepExt v (.poll false) = s := by
      change ({ s with q := s.q.extPoll .esp32 false } : Rmt) = s
      rw [p1]
    have hp2 := hp.2
    rw [hs] at hp2
    change (Rmt.watch v (s.stepExt v (.poll false)) (l.polled s.q false) evs).2.pulses = _ ∧ HK s.q (Rmt.watch v (s.stepExt v (.poll false)) (l.polled s.q false) evs).1.q ∧ _ ∧ _
    rw [hs]
    obtain ⟨i1, i2, i3, i4⟩ := EQ.rwait evs (s := s) (l := l.polled s.q false) he hn hp2 (fun a ha => hf a (List.mem_cons_of_mem _ ha))
    refine ⟨i1.trans p3, i2, ?_⟩
    change EQ (Rmt.watch v (s.stepExt v (.poll false)) (l.polled s.q false) evs).1.q (Rmt.watch v (s.stepExt v (.poll false)) (l.polled s.q false) evs).1.pc none ∧
      (Rmt.watch v (s.stepExt v (.poll false)) (l.polled s.q false) evs).1.q.dirHighCountsUp = _
    rw [hs]
    exact ⟨i3, i4⟩

/-- what the observer sees of the head entry -/
theorem readOut_head (q : Queue) (h : q.IdxOK .esp32) (hn : q.queueEntries ≠ 0) : (Hw.readOut .esp32 ⟨q, 0⟩).head? = some (q.slot .esp32 q.readIdx).asCmd := by
  have hro : Hw.readOut .esp32 ⟨q, 0⟩ = (q.pending .esp32).map fun e => (⟨e.ticks, e.steps, e.countUp⟩ : Cmd) := by
    unfold Hw.readOut Queue.pending
    rw [List.map_map]
    apply List.map_congr_left
    intro k _
    by_cases hk : k = 0
    · subst hk; rfl
    · simp only [hk, if_false]; rfl
  rw [hro, (Queue.pending_cons .esp32 q h hn).1]
  rfl

/-- a command waits for its confirmation -/
theorem EQ.waits {q pc} {l : ExtLog} (h : EQ q pc l.conf) (h1 : q.requiredLevel .esp32 ≠ none) (h2 : q.requiredLevel .esp32 ≠ l.conf) :
    q.queueEntries ≠ 0 ∧ EQ q pc none := by
  have hn : q.queueEntries ≠ 0 := by
    intro h0
    apply h1
    unfold Queue.requiredLevel Hw.readOut
    simp [h0]
  refine ⟨hn, ?_⟩
  have h0 : 0 < xcount q pc.isPrep := by unfold xcount; omega
  have hlv := h.xq.lvl 0 h0
  rw [Nat.add_zero] at hlv
  rcases h.xq.head h0 with hx | hx
  · exfalso
    apply h2
    rw [requiredLevel_head .esp32 q h.xq.idx hn, ← hlv, hx.2]
  · exact h.forget hx.1

theorem HK.required {q q' : Queue} {pc pc'} (h : HK q q') (he : EQ q pc none) (he' : EQ q' pc' none) (hn : q.queueEntries ≠ 0) (hu : q'.dirHighCountsUp = q.dirHighCountsUp) :
    q'.requiredLevel .esp32 = q.requiredLevel .esp32 ∧ (Hw.readOut .esp32 ⟨q', 0⟩).head? = (Hw.readOut .esp32 ⟨q, 0⟩).head? := by
  have h1 : (Hw.readOut .esp32 ⟨q', 0⟩).head? = (Hw.readOut .esp32 ⟨q, 0⟩).head? := by
    rw [readOut_head q he.xq.idx hn, readOut_head q' he'.xq.idx h.cnt, h.rd, h.cmd]
  refine ⟨?_, h1⟩
  unfold Queue.requiredLevel
  rw [h1, hu]

end FAS
