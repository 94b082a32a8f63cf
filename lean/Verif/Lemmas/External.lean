import Verif.Spec.External
import Verif.Lemmas.AddEntry
import Verif.Lemmas.AvrRun

/-! The queue with an external direction pin: entries waiting for the confirmation. -/

namespace FAS

/-- number of written entries from the read index on -/
def xcount (q : Queue) (prep : Bool) : Nat := q.queueEntries + prep.toNat

/-- the entry in process: confirmed, or a pause which is repeated -/
def XHead (e : Entry) (conf : Option Bool) : Prop :=
  (e.repeatEntry = false ∧ conf = some e.dirPinState) ∨ (e.repeatEntry = true ∧ e.steps = 0)

structure XQ (a : ArchId) (q : Queue) (prep : Bool) (conf : Option Bool) : Prop where
  idx : q.IdxOK a
  room : prep = true → q.queueEntries < a.queueLen
  empty : xcount q prep = 0 → conf = some q.qend.dir
  head : 0 < xcount q prep → XHead (q.slot a q.readIdx) conf
  chain : ∀ k, k + 1 < xcount q prep →
    (q.slot a (q.readIdx + (k + 1))).repeatEntry = ((q.slot a (q.readIdx + (k + 1))).dirPinState != (q.slot a (q.readIdx + k)).dirPinState) ∧
    ((q.slot a (q.readIdx + (k + 1))).repeatEntry = true → (q.slot a (q.readIdx + (k + 1))).steps = 0)
  lvl : ∀ k, k < xcount q prep → (q.slot a (q.readIdx + k)).dirPinState = ((q.slot a (q.readIdx + k)).countUp == q.dirHighCountsUp)
  last : 0 < q.queueEntries → (q.slot a (q.readIdx + (q.queueEntries - 1))).dirPinState = q.qend.dir
  rep : ∀ i, (q.slot a i).repeatEntry = true → ∃ k, k < xcount q prep ∧ i % a.queueLen = (q.readIdx + k) % a.queueLen

theorem XQ.count_le {a q prep conf} (h : XQ a q prep conf) : xcount q prep ≤ a.queueLen := by
  have h1 := h.idx.2.2
  have h2 := h.room
  unfold xcount
  cases prep with
  | false => simpa using h1
  | true => have := h2 rfl; simp; omega

theorem slot_congr (a : ArchId) (q : Queue) {i j : Nat} (h : i % a.queueLen = j % a.queueLen) : q.slot a i = q.slot a j := by
  unfold Queue.slot; rw [h]

theorem XQ.wr {a q prep conf} (h : XQ a q prep conf) : q.nextWriteIdx % a.queueLen = (q.readIdx + q.queueEntries) % a.queueLen := by
  obtain ⟨h1, h2, h3⟩ := h.idx
  rcases a.queueLen_cases with hl | hl <;> rw [hl] <;> unfold Queue.queueEntries subU8 <;> omega

/-- changing the head entry, keeping the direction -/
theorem XQ.modify {a q prep conf} (h : XQ a q prep conf) (q' : Queue) (conf' : Option Bool) (e' : Entry)
    (he : q'.entry = fun j => if j = q.readIdx % a.queueLen then e' else q.entry j) (hr : q'.readIdx = q.readIdx)
    (hw : q'.nextWriteIdx = q.nextWriteIdx) (hi : q'.dirHighCountsUp = q.dirHighCountsUp) (hq : q'.qend = q.qend)
    (hd : e'.dirPinState = (q.slot a q.readIdx).dirPinState) (hc : e'.countUp = (q.slot a q.readIdx).countUp)
    (hn : 0 < xcount q prep) (hh : XHead e' conf') :
    XQ a q' prep conf' := by
  have hne : q'.queueEntries = q.queueEntries := by unfold Queue.queueEntries; rw [hr, hw]
  have hnc : xcount q' prep = xcount q prep := by unfold xcount; rw [hne]
  have hs0 : q'.slot a q.readIdx = e' := by simp [Queue.slot, he]
  have hsk : ∀ i, i % a.queueLen ≠ q.readIdx % a.queueLen → q'.slot a i = q.slot a i := by
    intro i hi
    simp [Queue.slot, he, hi]
  have hcl := h.count_le
  have hkne : ∀ k, 0 < k → k < xcount q prep → (q.readIdx + k) % a.queueLen ≠ q.readIdx % a.queueLen := by
    intro k h1 h2
    rcases a.queueLen_cases with hl | hl <;> rw [hl] at hcl ⊢ <;> omega
  have hdps : ∀ k, k < xcount q prep → (q'.slot a (q.readIdx + k)).dirPinState = (q.slot a (q.readIdx + k)).dirPinState ∧
      (q'.slot a (q.readIdx + k)).countUp = (q.slot a (q.readIdx + k)).countUp := by
    intro k hk
    by_cases h0 : k = 0
    · subst h0; rw [Nat.add_zero, hs0]; exact ⟨hd, hc⟩
    · rw [hsk _ (hkne k (by omega) hk)]; exact ⟨rfl, rfl⟩
  refine { idx := ?_, room := ?_, empty := ?_, head := ?_, chain := ?_, lvl := ?_, last := ?_, rep := ?_ }
  · unfold Queue.IdxOK; rw [hne, hr, hw]; exact h.idx
  · rw [hne]; exact h.room
  · rw [hnc]; intro hx; omega
  · intro _; rw [hr, hs0]; exact hh
  · intro k hk
    rw [hnc] at hk
    rw [hr, hsk _ (hkne (k + 1) (by omega) hk), (hdps k (by omega)).1]
    exact h.chain k hk
  · intro k hk
    rw [hnc] at hk
    rw [hr, (hdps k hk).1, (hdps k hk).2, hi]
    exact h.lvl k hk
  · rw [hne, hr, hq]
    intro hx
    rw [(hdps _ (by unfold xcount; omega)).1]
    exact h.last hx
  · intro i hrep
    rw [hnc, hr]
    by_cases hi : i % a.queueLen = q.readIdx % a.queueLen
    · exact ⟨0, hn, hi⟩
    · rw [hsk i hi] at hrep
      exact h.rep i hrep

/-- the entry in process is completed -/
theorem XQ.complete {a q prep conf} (h : XQ a q prep conf) (hn : q.queueEntries ≠ 0) (hr : (q.slot a q.readIdx).repeatEntry = false) :
    XQ a q.complete prep conf := by
  obtain ⟨_, hi, hc⟩ := Queue.pending_cons a q h.idx hn
  have hxc : xcount q.complete prep + 1 = xcount q prep := by unfold xcount; omega
  have hsl : ∀ i, q.complete.slot a i = q.slot a i := fun _ => rfl
  have hrd : ∀ k, (q.complete.readIdx + k) % a.queueLen = (q.readIdx + (k + 1)) % a.queueLen := by
    intro k
    change (u8 (q.readIdx + 1) + k) % _ = _
    unfold u8
    rcases a.queueLen_cases with hl | hl <;> rw [hl] <;> omega
  have hsk : ∀ k, q.complete.slot a (q.complete.readIdx + k) = q.slot a (q.readIdx + (k + 1)) := by
    intro k; rw [hsl]; exact slot_congr a q (hrd k)
  have hconf : conf = some (q.slot a q.readIdx).dirPinState := by
    rcases h.head (by omega) with hx | hx
    · exact hx.2
    · rw [hr] at hx; cases hx.1
  refine { idx := hi, room := ?_, empty := ?_, head := ?_, chain := ?_, lvl := ?_, last := ?_, rep := ?_ }
  · intro hp; have := h.room hp; omega
  · intro hx
    change conf = some q.qend.dir
    rw [← h.last (by omega), hconf]
    have : q.queueEntries = 1 := by unfold xcount at hx; omega
    rw [this]; rfl
  · intro hx
    have h1 := h.chain 0 (by omega)
    have h2 := hsk 0
    rw [Nat.add_zero] at h2
    rw [h2]
    rw [Nat.zero_add, Nat.add_zero] at h1
    rw [Nat.zero_add]
    unfold XHead
    cases hx : (q.slot a (q.readIdx + 1)).repeatEntry with
    | true => exact Or.inr ⟨rfl, h1.2 hx⟩
    | false =>
      refine Or.inl ⟨rfl, ?_⟩
      rw [hx] at h1
      rw [hconf]
      have := h1.1
      revert this
      cases (q.slot a (q.readIdx + 1)).dirPinState <;> cases (q.slot a q.readIdx).dirPinState <;> simp
  · intro k hk
    have h1 := h.chain (k + 1) (by omega)
    rw [hsk, hsk]
    exact h1
  · intro k hk
    rw [hsk]
    exact h.lvl (k + 1) (by omega)
  · intro hx
    rw [hsk]
    have : q.complete.queueEntries - 1 + 1 = q.queueEntries - 1 := by omega
    rw [this]
    exact h.last (by omega)
  · intro i hrep
    rw [hsl] at hrep
    obtain ⟨k, hk, hik⟩ := h.rep i hrep
    cases k with
    | zero =>
      rw [Nat.add_zero] at hik
      rw [slot_congr a q hik, hr] at hrep
      cases hrep
    | succ k => exact ⟨k, by omega, by rw [hrd]; exact hik⟩

/-- first phase of addQueueEntry -/
theorem XQ.prepare {a q conf} (h : XQ a q false conf) (hx : a.externalDir = true) (hpin : pinIsExternal q.dirPin = true ∧ q.dirPin ≠ pinUndefined)
    (c : Cmd) (hnf : q.queueEntries < a.queueLen) (ht : (c.countUp == q.dirHighCountsUp) ≠ q.qend.dir → c.steps = 0) :
    XQ a (q.prepare a c).1 true conf ∧ (q.prepare a c).2.dir = (c.countUp == q.dirHighCountsUp) ∧ (q.prepare a c).2.countUp = c.countUp ∧
      ((q.prepare a c).1.slot a q.nextWriteIdx).dirPinState = (c.countUp == q.dirHighCountsUp) ∧ (q.prepare a c).1.qend = q.qend ∧
      ((q.prepare a c).1.queueEntries = q.queueEntries) := by
  obtain ⟨e, pe, pr, pw, prun, pready, pign, ppos, pdp, pdh, pms, pnpos, pncu, es, ecu, em, eh, et, ep⟩ := prepare_spec a q c
  have hu : (q.dirPin != pinUndefined) = true := by simp [hpin.2]
  have hsl : (q.prepare a c).1.slot a q.nextWriteIdx = e := by simp [Queue.slot, pe]
  have hdps : e.dirPinState = (c.countUp == q.dirHighCountsUp) := by
    rw [← hsl]; simp [Queue.prepare, Queue.slot, hx]
  have hrep : e.repeatEntry = ((c.countUp == q.dirHighCountsUp) != q.qend.dir) := by
    rw [← hsl]; simp [Queue.prepare, Queue.slot, hx, hpin.1, hu]
  have hqe : (q.prepare a c).1.qend = q.qend := by simp [Queue.prepare, hpin.1]
  have hne : (q.prepare a c).1.queueEntries = q.queueEntries := by unfold Queue.queueEntries; rw [pr, pw]
  refine ⟨?_, rfl, rfl, by rw [hsl, hdps], hqe, hne⟩
  have hwr := h.wr
  have hsk : ∀ k, k < q.queueEntries → (q.prepare a c).1.slot a (q.readIdx + k) = q.slot a (q.readIdx + k) := by
    intro k hk
    have : (q.readIdx + k) % a.queueLen ≠ q.nextWriteIdx % a.queueLen := by
      rw [hwr]
      rcases a.queueLen_cases with hl | hl <;> rw [hl] at hnf ⊢ <;> omega
    simp [Queue.slot, pe, this]
  have hsn : (q.prepare a c).1.slot a (q.readIdx + q.queueEntries) = e := by
    rw [← hsl]; exact slot_congr a _ hwr.symm
  have hstep : e.repeatEntry = true → e.steps = 0 := by
    rw [hrep, es]
    intro h1
    apply ht
    simpa using h1
  have hxc : xcount (q.prepare a c).1 true = q.queueEntries + 1 := by unfold xcount; rw [hne]; rfl
  have hxo : xcount q false = q.queueEntries := by unfold xcount; simp
  refine { idx := ?_, room := ?_, empty := ?_, head := ?_, chain := ?_, lvl := ?_, last := ?_, rep := ?_ }
  · unfold Queue.IdxOK; rw [hne, pr, pw]; exact h.idx
  · intro _; rw [hne]; exact hnf
  · rw [hxc]; intro hx; omega
  · intro _
    rw [pr]
    by_cases h0 : q.queueEntries = 0
    · have h1 := hsn
      rw [h0, Nat.add_zero] at h1
      rw [h1]
      unfold XHead
      cases hr : e.repeatEntry with
      | true => exact Or.inr ⟨rfl, hstep hr⟩
      | false =>
        refine Or.inl ⟨rfl, ?_⟩
        rw [h.empty (by omega), hdps]
        rw [hr] at hrep
        revert hrep
        cases (c.countUp == q.dirHighCountsUp) <;> cases q.qend.dir <;> simp
    · have h1 := hsk 0 (by omega)
      rw [Nat.add_zero] at h1
      rw [h1]
      exact h.head (by omega)
  · intro k hk
    rw [hxc] at hk
    rw [pr, hsk k (by omega)]
    by_cases h0 : k + 1 = q.queueEntries
    · rw [h0, hsn, hdps, hrep]
      have h1 := h.last (by omega)
      have h2 : q.queueEntries - 1 = k := by omega
      rw [h2] at h1
      rw [h1, ← hrep]
      exact ⟨rfl, hstep⟩
    · rw [hsk (k + 1) (by omega)]
      exact h.chain k (by omega)
  · intro k hk
    rw [hxc] at hk
    rw [pr, pdh]
    by_cases h0 : k = q.queueEntries
    · subst h0
      rw [hsn, hdps, ecu]
    · rw [hsk k (by omega)]
      exact h.lvl k (by omega)
  · rw [hne, pr, hqe]
    intro hx
    rw [hsk _ (by omega)]
    exact h.last hx
  · intro i hi
    rw [hxc, pr]
    by_cases h0 : i % a.queueLen = q.nextWriteIdx % a.queueLen
    · exact ⟨q.queueEntries, by omega, h0.trans hwr⟩
    · have h1 : (q.prepare a c).1.slot a i = q.slot a i := by simp [Queue.slot, pe, h0]
      rw [h1] at hi
      obtain ⟨k, hk, hk2⟩ := h.rep i hi
      exact ⟨k, by omega, hk2⟩

/-- second phase of addQueueEntry -/
theorem XQ.commit {a q conf} (h : XQ a q true conf) (next : QueueEnd) (hd : next.dir = (q.slot a q.nextWriteIdx).dirPinState) :
    XQ a { q with nextWriteIdx := u8 (q.nextWriteIdx + 1), qend := next } false conf := by
  have hroom := h.room rfl
  obtain ⟨_, hidx⟩ := pending_commit (a := a) next h.idx hroom
  have hwr := h.wr
  obtain ⟨i1, i2, i3⟩ := h.idx
  have hne : ({ q with nextWriteIdx := u8 (q.nextWriteIdx + 1), qend := next } : Queue).queueEntries = q.queueEntries + 1 := by
    revert hroom
    unfold Queue.queueEntries subU8 u8
    dsimp only
    rcases a.queueLen_cases with hl | hl <;> rw [hl] <;> omega
  have hxc : xcount ({ q with nextWriteIdx := u8 (q.nextWriteIdx + 1), qend := next } : Queue) false = xcount q true := by
    unfold xcount; rw [hne]; rfl
  refine { idx := hidx, room := (fun hx => nomatch hx), empty := ?_, head := ?_, chain := ?_, lvl := ?_, last := ?_, rep := ?_ }
  · rw [hxc]; unfold xcount; intro hx; simp at hx
  · rw [hxc]; exact h.head
  · rw [hxc]; exact h.chain
  · rw [hxc]; exact h.lvl
  · intro _
    rw [hne]
    change (q.slot a (q.readIdx + (q.queueEntries + 1 - 1))).dirPinState = next.dir
    rw [hd, Nat.add_sub_cancel]
    rw [slot_congr a q hwr]
  · rw [hxc]; exact h.rep

/-! ## the AVR backend -/

/-- the slot at the write index is prepared -/
def AddPc.isPrep : AddPc → Bool
  | .prepared _ _ _ => true
  | _ => false

structure XInv (a : ArchId) (s : Avr) (l : ExtLog) : Prop where
  xq : XQ a s.q s.pc.isPrep l.conf
  ign : s.q.ignoreCommands = false
  ready : s.q.ready = true
  pin : pinIsExternal s.q.dirPin = true ∧ s.q.dirPin ≠ pinUndefined
  sync : s.q.qend.dir = (s.q.qend.countUp == s.q.dirHighCountsUp)
  prep : ∀ next c st, s.pc = .prepared next c st → next.dir = (s.q.slot a s.q.nextWriteIdx).dirPinState ∧
    next.dir = (next.countUp == s.q.dirHighCountsUp)
  one : s.one = true → s.q.queueEntries ≠ 0 ∧ (s.q.slot a s.q.readIdx).steps ≠ 0
  pulses : l.Confirmed

theorem requiredLevel_head (a : ArchId) (q : Queue) (h : q.IdxOK a) (hn : q.queueEntries ≠ 0) :
    q.requiredLevel a = some ((q.slot a q.readIdx).countUp == q.dirHighCountsUp) := by
  have hro : Hw.readOut a ⟨q, 0⟩ = (q.pending a).map fun e => (⟨e.ticks, e.steps, e.countUp⟩ : Cmd) := by
    unfold Hw.readOut Queue.pending
    rw [List.map_map]
    apply List.map_congr_left
    intro k _
    by_cases hk : k = 0
    · subst hk; rfl
    · simp only [hk, if_false]; rfl
  unfold Queue.requiredLevel
  rw [hro, (Queue.pending_cons a q h hn).1]
  rfl

/-- an entry with steps is confirmed -/
theorem XInv.conf {a s l} (h : XInv a s l) (hn : s.q.queueEntries ≠ 0) (hs : (s.q.slot a s.q.readIdx).steps ≠ 0) :
    l.conf = some ((s.q.slot a s.q.readIdx).countUp == s.q.dirHighCountsUp) ∧ (s.q.slot a s.q.readIdx).repeatEntry = false := by
  have h0 : 0 < xcount s.q s.pc.isPrep := by unfold xcount; omega
  have h1 := h.xq.lvl 0 h0
  rw [Nat.add_zero] at h1
  rcases h.xq.head h0 with hx | hx
  · rw [hx.2, h1]; exact ⟨rfl, hx.1⟩
  · exact absurd hx.2 hs

theorem xslot_write {a : ArchId} {q : Queue} {prep : Bool} {conf : Option Bool} (h : XQ a q prep conf) (hn : q.queueEntries ≠ 0) (hp : prep = true) :
    q.nextWriteIdx % a.queueLen ≠ q.readIdx % a.queueLen := by
  have h1 := h.wr
  have h2 := h.room hp
  rw [h1]
  rcases a.queueLen_cases with hl | hl <;> rw [hl] at h2 ⊢ <;> omega

theorem toggleFor_xq {a : ArchId} {q : Queue} {prep : Bool} {conf : Option Bool} (e : Entry) (h : XQ a q prep conf) : XQ a (Avr.toggleFor e q) prep conf := by
  unfold Avr.toggleFor
  split
  · exact { idx := h.idx, room := h.room, empty := h.empty, head := h.head, chain := h.chain, lvl := h.lvl, last := h.last, rep := h.rep }
  · exact h

theorem toggleFor_frame (e : Entry) (q : Queue) : (Avr.toggleFor e q).entry = q.entry ∧ (Avr.toggleFor e q).readIdx = q.readIdx ∧
    (Avr.toggleFor e q).nextWriteIdx = q.nextWriteIdx ∧ (Avr.toggleFor e q).ignoreCommands = q.ignoreCommands ∧ (Avr.toggleFor e q).ready = q.ready ∧
    (Avr.toggleFor e q).dirPin = q.dirPin ∧ (Avr.toggleFor e q).qend = q.qend ∧ (Avr.toggleFor e q).dirHighCountsUp = q.dirHighCountsUp := by
  unfold Avr.toggleFor
  split <;> exact ⟨rfl, rfl, rfl, rfl, rfl, rfl, rfl, rfl⟩

/-- new state with the same queue up to the level of the internal pin -/
theorem XInv.toggle {a s l} (h : XInv a s l) (e : Entry) (s' : Avr) (hq : s'.q = Avr.toggleFor e s.q) (hpc : s'.pc = s.pc)
    (hone : s'.one = true → s.q.queueEntries ≠ 0 ∧ (s.q.slot a s.q.readIdx).steps ≠ 0) : XInv a s' l := by
  obtain ⟨f1, f2, f3, f4, f5, f6, f7, f8⟩ := toggleFor_frame e s.q
  have hsl : ∀ i, s'.q.slot a i = s.q.slot a i := by intro i; unfold Queue.slot; rw [hq, f1]
  have hne : s'.q.queueEntries = s.q.queueEntries := by unfold Queue.queueEntries; rw [hq, f2, f3]
  refine { xq := ?_, ign := ?_, ready := ?_, pin := ?_, sync := ?_, prep := ?_, one := ?_, pulses := h.pulses }
  · rw [hq, hpc]; exact toggleFor_xq e h.xq
  · rw [hq, f4]; exact h.ign
  · rw [hq, f5]; exact h.ready
  · rw [hq, f6]; exact h.pin
  · rw [hq, f7, f8]; exact h.sync
  · intro next c st hx
    rw [hpc] at hx
    have := h.prep next c st hx
    rw [hsl, hq, f3, f8]
    exact this
  · intro hx
    rw [hne, hsl, hq, f2]
    exact hone hx

/-- the interrupt -/
theorem XInv.isr {a s l} (h : XInv a s l) : XInv a (Avr.isrBody a s) l := by
  unfold Avr.isrBody
  by_cases hemp : s.q.readIdx = s.q.nextWriteIdx
  · rw [if_pos hemp]
    exact { xq := ⟨h.xq.idx, h.xq.room, h.xq.empty, h.xq.head, h.xq.chain, h.xq.lvl, h.xq.last, h.xq.rep⟩, ign := h.ign, ready := h.ready
            pin := h.pin, sync := h.sync, prep := h.prep, one := (fun hx => nomatch hx), pulses := h.pulses }
  rw [if_neg hemp]
  have hn : s.q.queueEntries ≠ 0 := fun hx => hemp ((Queue.empty_iff a s.q h.xq.idx).mpr hx)
  have h0 : 0 < xcount s.q s.pc.isPrep := by unfold xcount; omega
  dsimp only
  by_cases h1 : (s.q.slot a s.q.readIdx).steps > 1
  · rw [if_pos h1]
    obtain ⟨hconf, hrep⟩ := h.conf hn (by omega)
    have hdps : (s.q.slot a s.q.readIdx).dirPinState = ((s.q.slot a s.q.readIdx).countUp == s.q.dirHighCountsUp) := by
      have := h.xq.lvl 0 h0
      rwa [Nat.add_zero] at this
    have hx : XQ a (Avr.decSteps a s.q) s.pc.isPrep l.conf := by
      refine h.xq.modify (Avr.decSteps a s.q) l.conf { s.q.slot a s.q.readIdx with steps := (s.q.slot a s.q.readIdx).steps - 1 } rfl rfl rfl rfl rfl rfl rfl h0 ?_
      exact Or.inl ⟨hrep, by rw [hconf, ← hdps]⟩
    refine { xq := hx, ign := h.ign, ready := h.ready, pin := h.pin, sync := h.sync, prep := ?_, one := ?_, pulses := h.pulses }
    · intro next c st hpc
      have h2 := h.prep next c st hpc
      have h3 : (Avr.decSteps a s.q).slot a s.q.nextWriteIdx = s.q.slot a s.q.nextWriteIdx := by
        have := xslot_write h.xq hn (by have hpc' : s.pc = _ := hpc; rw [hpc']; rfl)
        simp [Avr.decSteps, Queue.slot, this]
      change next.dir = ((Avr.decSteps a s.q).slot a s.q.nextWriteIdx).dirPinState ∧ _
      rw [h3]
      exact h2
    · intro _
      refine ⟨hn, ?_⟩
      change ((Avr.decSteps a s.q).slot a s.q.readIdx).steps ≠ 0
      have : ((Avr.decSteps a s.q).slot a s.q.readIdx).steps = (s.q.slot a s.q.readIdx).steps - 1 := by simp [Avr.decSteps, Queue.slot]
      omega
  · rw [if_neg h1]
    by_cases hnm : s.noMore = true
    · rw [if_pos hnm]
      exact h.toggle (s.q.slot a s.q.readIdx) _ rfl rfl (fun hx => ⟨hn, by simpa using hx⟩)
    · rw [if_neg hnm]
      by_cases hrp : (s.q.slot a s.q.readIdx).repeatEntry = true
      · rw [if_pos hrp]
        exact h.toggle (s.q.slot a s.q.readIdx) _ rfl rfl (fun hx => ⟨hn, by simpa using hx⟩)
      · rw [if_neg hrp]
        have hxc := h.xq.complete hn (by simpa using hrp)
        have hk : XInv a { s with q := s.q.complete, noMore := true, one := false, ocr := s.ocr + (s.q.slot a s.q.readIdx).ticks } l :=
          { xq := hxc, ign := h.ign, ready := h.ready, pin := h.pin, sync := h.sync, prep := h.prep, one := (fun hx => nomatch hx), pulses := h.pulses }
        by_cases he2 : s.q.complete.readIdx = s.q.complete.nextWriteIdx
        · rw [if_pos he2]; exact hk
        · rw [if_neg he2]
          have hn2 : s.q.complete.queueEntries ≠ 0 := fun hx => he2 ((Queue.empty_iff a s.q.complete hxc.idx).mpr hx)
          exact hk.toggle (s.q.complete.slot a s.q.complete.readIdx) _ rfl rfl (fun hx => ⟨hn2, by simpa using hx⟩)

theorem XInv.step {a s l} (h : XInv a s l) (ha : a.externalDir = true) (ev : Avr.Ev) (hp : s.ExtTurn ev) : XInv a (s.step a ev) (l.observe a s ev) := by
  cases ev with
  | compare =>
    simp only [Avr.step, ExtLog.observe]
    by_cases hi : s.irq = true
    · rw [if_pos hi]
      unfold Avr.compare
      by_cases ho : s.one = true
      · rw [if_pos ho, if_pos (show (s.irq && s.one) = true by rw [hi, ho]; rfl)]
        apply XInv.isr
        obtain ⟨h1, h2⟩ := h.one ho
        obtain ⟨hc, _⟩ := h.conf h1 h2
        refine { xq := h.xq, ign := h.ign, ready := h.ready, pin := h.pin, sync := h.sync, prep := h.prep, one := h.one, pulses := ?_ }
        intro p hp
        rcases List.mem_cons.mp hp with hp | hp
        · exact ⟨_, by rw [hp, requiredLevel_head a s.q h.xq.idx h1, hc]⟩
        · exact h.pulses p hp
      · rw [if_neg ho, if_neg (show ¬ (s.irq && s.one) = true by simp [ho])]
        exact h.isr
    · rw [if_neg hi, if_neg (by simp [hi])]
      exact h
  | addBegin c st =>
    simp only [Avr.step, ExtLog.observe]
    cases hpc : s.pc with
    | idle =>
      simp only
      by_cases h1 : (!s.q.ready) = true
      · rw [if_pos h1]; exact h
      rw [if_neg h1]
      by_cases h2 : s.q.isQueueFull a = true
      · rw [if_pos h2]; exact h
      rw [if_neg h2]
      by_cases h3 : Queue.commandRateTicks c < a.minCmdTicks
      · rw [if_pos h3]; exact h
      rw [if_neg h3]
      have hnf : s.q.queueEntries < a.queueLen := by
        have h4 := h.xq.idx.2.2
        have h5 : s.q.queueEntries ≠ a.queueLen := by
          intro hx
          apply h2
          unfold Queue.isQueueFull
          rw [hx]
          simp
        omega
      have hx0 : XQ a s.q false l.conf := by
        have := h.xq
        rw [hpc] at this
        exact this
      obtain ⟨x1, x2, x3, x4, x5, x6⟩ := hx0.prepare ha h.pin c hnf (by
        intro hx
        apply hp.2
        intro hy
        apply hx
        rw [hy, h.sync])
      obtain ⟨e, pe, pr, pw, prun, pready, pign, ppos, pdp, pdh, _⟩ := prepare_spec a s.q c
      refine { xq := x1, ign := pign.trans h.ign, ready := pready.trans h.ready, pin := ?_, sync := ?_, prep := ?_, one := ?_, pulses := h.pulses }
      · simp only [pdp]; exact h.pin
      · simp only [x5, pdh]; exact h.sync
      · intro next c' st' heq
        injection heq with g1 g2 g3
        subst g1 g2 g3
        simp only [pw, pdh]
        rw [x4, x2, x3]
        exact ⟨rfl, rfl⟩
      · intro hone
        obtain ⟨o1, o2⟩ := h.one hone
        simp only [x6, pr]
        refine ⟨o1, ?_⟩
        have hne : s.q.readIdx % a.queueLen ≠ s.q.nextWriteIdx % a.queueLen := by
          rw [h.xq.wr]
          rcases a.queueLen_cases with hl | hl <;> rw [hl] at hnf ⊢ <;> omega
        have : (s.q.prepare a c).1.slot a s.q.readIdx = s.q.slot a s.q.readIdx := by simp [Queue.slot, pe, hne]
        rw [this]
        exact o2
    | prepared n c' st' => exact h
    | committed st' => exact h
  | addCommit =>
    simp only [Avr.step, ExtLog.observe]
    cases hpc : s.pc with
    | idle => exact h
    | committed st => exact h
    | prepared next c st =>
      simp only [commit_ok s.q next h.ready h.ign, if_true]
      obtain ⟨p1, p2⟩ := h.prep next c st hpc
      have hx0 : XQ a s.q true l.conf := by
        have := h.xq
        rw [hpc] at this
        exact this
      have hroom := hx0.room rfl
      refine { xq := hx0.commit next p1, ign := h.ign, ready := h.ready, pin := h.pin, sync := p2, prep := (fun _ _ _ hx => nomatch hx), one := ?_, pulses := h.pulses }
      intro hone
      obtain ⟨o1, o2⟩ := h.one hone
      refine ⟨?_, o2⟩
      obtain ⟨i1, i2, i3⟩ := h.xq.idx
      revert o1 hroom
      unfold Queue.queueEntries subU8 u8
      dsimp only
      rcases a.queueLen_cases with hl | hl <;> rw [hl] <;> omega
  | addFinish now =>
    simp only [Avr.step, ExtLog.observe]
    cases hpc : s.pc with
    | idle => exact h
    | prepared n c st => exact h
    | committed st =>
      have hlv : XInv a { s with pc := .idle } l := by
        refine { xq := ?_, ign := h.ign, ready := h.ready, pin := h.pin, sync := h.sync, prep := (fun _ _ _ hx => nomatch hx), one := h.one, pulses := h.pulses }
        have := h.xq
        rw [hpc] at this
        exact this
      simp only
      by_cases hx : (!s.q.running && st) = true
      · rw [if_pos hx]
        rw [Bool.and_eq_true, Bool.not_eq_true'] at hx
        have hne : s.q.readIdx ≠ s.q.nextWriteIdx := by
          have : s.q.running = true ∨ s.q.readIdx ≠ s.q.nextWriteIdx := hp
          rcases this with hy | hy
          · rw [hx.1] at hy; cases hy
          · exact hy
        have hn : s.q.queueEntries ≠ 0 := fun hy => hne ((Queue.empty_iff a s.q h.xq.idx).mpr hy)
        have hlr : XInv a { s with pc := .idle, q := { s.q with running := true } } l :=
          { xq := ⟨hlv.xq.idx, hlv.xq.room, hlv.xq.empty, hlv.xq.head, hlv.xq.chain, hlv.xq.lvl, hlv.xq.last, hlv.xq.rep⟩, ign := h.ign, ready := h.ready
            pin := h.pin, sync := h.sync, prep := hlv.prep, one := hlv.one, pulses := h.pulses }
        exact hlr.toggle (s.q.slot a s.q.readIdx) _ rfl rfl (fun hx => ⟨hn, of_decide_eq_true hx⟩)
      · rw [if_neg hx]; exact hlv
  | startNull now =>
    simp only [Avr.step, ExtLog.observe]
    cases hpc : s.pc with
    | prepared n c st => exact h
    | committed st => exact h
    | idle =>
      simp only
      by_cases hx : (s.q.addNull true).start = true
      · rw [if_pos hx]
        have hne : s.q.nextWriteIdx ≠ s.q.readIdx := by
          intro hy
          unfold Queue.addNull at hx
          rw [h.ready, hy] at hx
          cases hr : s.q.running <;> rw [hr] at hx <;> simp at hx
        have hn : s.q.queueEntries ≠ 0 := fun hy => hne ((Queue.empty_iff a s.q h.xq.idx).mpr hy).symm
        have hlr : XInv a { s with q := { s.q with running := true } } l :=
          { xq := ⟨h.xq.idx, h.xq.room, h.xq.empty, h.xq.head, h.xq.chain, h.xq.lvl, h.xq.last, h.xq.rep⟩, ign := h.ign, ready := h.ready
            pin := h.pin, sync := h.sync, prep := h.prep, one := h.one, pulses := h.pulses }
        exact hlr.toggle (s.q.slot a s.q.readIdx) _ rfl rfl (fun hx => ⟨hn, of_decide_eq_true hx⟩)
      · rw [if_neg hx]; exact h
  | forceStop p => exact absurd hp id
  | clearIgnore =>
    simp only [Avr.step, ExtLog.observe]
    have : ({ s with q := { s.q with ignoreCommands := false } } : Avr) = s := by rw [← h.ign]
    rw [this]
    exact h
  | extPoll agree =>
    simp only [Avr.step, ExtLog.observe]
    have hpp : (s.q.dirPin != pinUndefined && pinIsExternal s.q.dirPin) = true := by simp [h.pin.1, h.pin.2]
    rw [hpp, Bool.true_and]
    by_cases hr : (s.q.slot a s.q.readIdx).repeatEntry = true
    · rw [if_pos hr]
      obtain ⟨k, hk, hk2⟩ := h.xq.rep s.q.readIdx hr
      have h0 : 0 < xcount s.q s.pc.isPrep := by omega
      have hst : (s.q.slot a s.q.readIdx).steps = 0 := by
        rcases h.xq.head h0 with hx | hx
        · rw [hr] at hx; cases hx.1
        · exact hx.2
      have hone : s.one = false := by
        cases ho : s.one with
        | false => rfl
        | true => exact absurd hst (h.one ho).2
      cases agree with
      | false =>
        rw [if_neg (by simp)]
        refine { xq := ?_, ign := h.ign, ready := h.ready, pin := h.pin, sync := h.sync, prep := h.prep, one := h.one, pulses := h.pulses }
        exact { idx := h.xq.idx, room := h.xq.room, empty := fun hx => by omega, head := fun _ => Or.inr ⟨hr, hst⟩, chain := h.xq.chain, lvl := h.xq.lvl
                last := h.xq.last, rep := h.xq.rep }
      | true =>
        rw [if_pos (by rw [hr]; rfl)]
        refine { xq := ?_, ign := h.ign, ready := h.ready, pin := h.pin, sync := h.sync, prep := ?_, one := ?_, pulses := h.pulses }
        · exact h.xq.modify (Avr.clearRepeatingFlag a s.q) _ { s.q.slot a s.q.readIdx with repeatEntry := false } rfl rfl rfl rfl rfl rfl rfl h0 (Or.inl ⟨rfl, rfl⟩)
        · intro next c st hpc
          obtain ⟨p1, p2⟩ := h.prep next c st hpc
          refine ⟨?_, p2⟩
          rw [p1]
          change _ = ((Avr.clearRepeatingFlag a s.q).slot a s.q.nextWriteIdx).dirPinState
          unfold Avr.clearRepeatingFlag Queue.slot
          dsimp only
          split
          · rename_i hy; rw [hy]
          · rfl
        · intro hx
          rw [hone] at hx
          cases hx
    · rw [if_neg hr]
      have hr' : (s.q.slot a s.q.readIdx).repeatEntry = false := by simpa using hr
      rw [if_neg (by rw [hr']; simp)]
      exact h

theorem XInv.run {a} (ha : a.externalDir = true) : ∀ (evs : List Avr.Ev) {s l}, XInv a s l → Avr.Along a Avr.ExtTurn s evs →
    XInv a (Avr.watch a s l evs).1 (Avr.watch a s l evs).2
  | [], _, _, h, _ => h
  | ev :: evs, _, _, h, hp => XInv.run ha evs (h.step ha ev hp.1) hp.2

theorem XInv.idle {a s l} (h : Avr.ExtIdle a s l) : XInv a s l := by
  have hq : s.q.queueEntries = 0 := by
    have := h.idx
    unfold Queue.queueEntries subU8
    omega
  have hx : xcount s.q s.pc.isPrep = 0 := by
    unfold xcount; rw [hq, h.pc]; rfl
  refine { xq := ?_, ign := h.ign, ready := h.ready, pin := h.pin, sync := h.sync, prep := ?_, one := ?_, pulses := ?_ }
  · refine { idx := ⟨h.idx.2, by rw [← h.idx.1]; exact h.idx.2, by omega⟩, room := ?_, empty := fun _ => h.conf, head := ?_, chain := ?_, lvl := ?_, last := ?_, rep := ?_ }
    · rw [h.pc]; intro hy; cases hy
    · rw [hx]; intro hy; omega
    · rw [hx]; intro k hy; omega
    · rw [hx]; intro k hy; omega
    · rw [hq]; intro hy; omega
    · intro i hi
      rw [h.clean i] at hi
      cases hi
  · rw [h.pc]; intro _ _ _ hy; cases hy
  · rw [h.one]; intro hy; cases hy
  · intro p hp; rw [h.pulses] at hp; cases hp

/-- an unconfirmed change of direction stops the queue: nothing happens at its read end -/
theorem XInv.wait {a} (ha : a.externalDir = true) : ∀ (evs : List Avr.Ev) {s l}, XInv a s l → Avr.Along a Avr.ExtTurn s evs →
    (∀ ev ∈ evs, ev ≠ .extPoll true) → s.q.queueEntries ≠ 0 → (s.q.slot a s.q.readIdx).repeatEntry = true →
    let r := Avr.watch a s l evs
    r.2.pulses = l.pulses ∧ r.1.q.readIdx = s.q.readIdx ∧ r.1.q.slot a s.q.readIdx = s.q.slot a s.q.readIdx ∧ r.1.q.queueEntries ≠ 0
  | [], _, _, _, _, _, hn, _ => ⟨rfl, rfl, rfl, hn⟩
  | ev :: evs, s, l, h, hp, hne, hn, hr => by
    have h0 : 0 < xcount s.q s.pc.isPrep := by unfold xcount; omega
    have hst : (s.q.slot a s.q.readIdx).steps = 0 := by
      rcases h.xq.head h0 with hx | hx
      · rw [hr] at hx; cases hx.1
      · exact hx.2
    have hone : s.one = false := by
      cases ho : s.one with
      | false => rfl
      | true => exact absurd hst (h.one ho).2
    have hemp : s.q.readIdx ≠ s.q.nextWriteIdx := fun hx => hn ((Queue.empty_iff a s.q h.xq.idx).mp hx)
    have key : (l.observe a s ev).pulses = l.pulses ∧ (s.step a ev).q.readIdx = s.q.readIdx ∧
        (s.step a ev).q.slot a s.q.readIdx = s.q.slot a s.q.readIdx ∧ (s.step a ev).q.queueEntries ≠ 0 := by
      have htog : ∀ e : Entry, ∀ q : Queue, (Avr.toggleFor e q).readIdx = q.readIdx ∧ (Avr.toggleFor e q).slot a q.readIdx = q.slot a q.readIdx ∧
          (Avr.toggleFor e q).queueEntries = q.queueEntries := by
        intro e q
        unfold Avr.toggleFor
        split <;> exact ⟨rfl, rfl, rfl⟩
      cases ev with
      | compare =>
        simp only [Avr.step, ExtLog.observe, hone, Bool.and_false, Bool.false_eq_true, if_false]
        refine ⟨trivial, ?_⟩
        by_cases hi : s.irq = true
        · rw [if_pos hi]
          unfold Avr.compare
          rw [if_neg (by rw [hone]; decide)]
          unfold Avr.isrBody
          rw [if_neg hemp]
          dsimp only
          rw [if_neg (by omega)]
          obtain ⟨t1, t2, t3⟩ := htog (s.q.slot a s.q.readIdx) s.q
          have t4 : (Avr.toggleFor (s.q.slot a s.q.readIdx) s.q).queueEntries ≠ 0 := by rw [t3]; exact hn
          rw [hr]
          split <;> exact ⟨t1, t2, t4⟩
        · rw [if_neg hi]; exact ⟨rfl, rfl, hn⟩
      | addBegin c st =>
        simp only [Avr.step, ExtLog.observe]
        refine ⟨trivial, ?_⟩
        cases hpc : s.pc with
        | idle =>
          simp only
          split
          · exact ⟨rfl, rfl, hn⟩
          split
          · exact ⟨rfl, rfl, hn⟩
          rename_i h2
          split
          · exact ⟨rfl, rfl, hn⟩
          obtain ⟨e, pe, pr, pw, _⟩ := prepare_spec a s.q c
          have hnf : s.q.queueEntries < a.queueLen := by
            have h4 := h.xq.idx.2.2
            have h5 : s.q.queueEntries ≠ a.queueLen := by
              intro hx
              apply h2
              unfold Queue.isQueueFull
              rw [hx]
              simp
            omega
          have hne : s.q.readIdx % a.queueLen ≠ s.q.nextWriteIdx % a.queueLen := by
            rw [h.xq.wr]
            rcases a.queueLen_cases with hl | hl <;> rw [hl] at hnf ⊢ <;> omega
          refine ⟨pr, by simp [Queue.slot, pe, hne], ?_⟩
          unfold Queue.queueEntries at hn ⊢
          simp only [pr, pw]
          exact hn
        | prepared n c' st' => exact ⟨rfl, rfl, hn⟩
        | committed st' => exact ⟨rfl, rfl, hn⟩
      | addCommit =>
        simp only [Avr.step, ExtLog.observe]
        refine ⟨trivial, ?_⟩
        cases hpc : s.pc with
        | idle => exact ⟨rfl, rfl, hn⟩
        | committed st => exact ⟨rfl, rfl, hn⟩
        | prepared next c st =>
          simp only [commit_ok s.q next h.ready h.ign]
          refine ⟨trivial, rfl, ?_⟩
          have hroom := h.xq.room (by rw [hpc]; rfl)
          obtain ⟨i1, i2, i3⟩ := h.xq.idx
          revert hn hroom
          unfold Queue.queueEntries subU8 u8
          dsimp only
          rcases a.queueLen_cases with hl | hl <;> rw [hl] <;> omega
      | addFinish now =>
        simp only [Avr.step, ExtLog.observe]
        refine ⟨trivial, ?_⟩
        cases hpc : s.pc with
        | idle => exact ⟨rfl, rfl, hn⟩
        | prepared n c st => exact ⟨rfl, rfl, hn⟩
        | committed st =>
          simp only
          split
          · obtain ⟨t1, t2, t3⟩ := htog (s.q.slot a s.q.readIdx) { s.q with running := true }
            exact ⟨t1, t2, (by have hn' := hn; intro hx; exact hn' (t3.symm.trans hx))⟩
          · exact ⟨rfl, rfl, hn⟩
      | startNull now =>
        simp only [Avr.step, ExtLog.observe]
        refine ⟨trivial, ?_⟩
        cases hpc : s.pc with
        | prepared n c st => exact ⟨rfl, rfl, hn⟩
        | committed st => exact ⟨rfl, rfl, hn⟩
        | idle =>
          simp only
          split
          · obtain ⟨t1, t2, t3⟩ := htog (s.q.slot a s.q.readIdx) { s.q with running := true }
            exact ⟨t1, t2, (by have hn' := hn; intro hx; exact hn' (t3.symm.trans hx))⟩
          · exact ⟨rfl, rfl, hn⟩
      | forceStop p => exact absurd hp.1 id
      | clearIgnore => exact ⟨rfl, rfl, rfl, hn⟩
      | extPoll agree =>
        cases agree with
        | true => exact absurd rfl (hne (.extPoll true) (by simp))
        | false =>
          simp only [Avr.step, ExtLog.observe, Bool.and_false, Bool.false_eq_true, if_false]
          refine ⟨?_, trivial, trivial, hn⟩
          split <;> rfl
    obtain ⟨k1, k2, k3, k4⟩ := key
    have h2 := XInv.wait ha evs (h.step ha ev hp.1) hp.2 (fun e he => hne e (List.mem_cons_of_mem _ he)) k4 (by rw [k2, k3]; exact hr)
    obtain ⟨r1, r2, r3, r4⟩ := h2
    refine ⟨r1.trans k1, r2.trans k2, ?_, r4⟩
    rw [k2, k3] at r3
    exact r3

/-- the meaning of the level of the direction pin does not change -/
theorem watch_up (a : ArchId) : ∀ (evs : List Avr.Ev) (s : Avr) (l : ExtLog), (Avr.watch a s l evs).1.q.dirHighCountsUp = s.q.dirHighCountsUp
  | [], _, _ => rfl
  | ev :: evs, s, l => by
    have ht : ∀ (e : Entry) (q : Queue), (Avr.toggleFor e q).dirHighCountsUp = q.dirHighCountsUp := fun e q => (toggleFor_frame e q).2.2.2.2.2.2.2
    have h1 : (s.step a ev).q.dirHighCountsUp = s.q.dirHighCountsUp := by
      cases ev with
      | compare =>
        simp only [Avr.step]
        split
        · have hi : ∀ s : Avr, (Avr.isrBody a s).q.dirHighCountsUp = s.q.dirHighCountsUp := by
            intro s
            unfold Avr.isrBody
            dsimp only
            split
            · rfl
            split
            · rfl
            split
            · exact ht _ _
            split
            · exact ht _ _
            split
            · rfl
            · exact ht _ _
          unfold Avr.compare
          rw [hi]
          split <;> rfl
        · rfl
      | addBegin c st =>
        simp only [Avr.step]
        repeat' split
        all_goals rfl
      | addCommit =>
        simp only [Avr.step]
        split
        · unfold Queue.commit
          dsimp only
          repeat' split
          all_goals rfl
        · rfl
      | addFinish now =>
        simp only [Avr.step]
        split
        · split
          · exact ht _ _
          · rfl
        · rfl
      | startNull now =>
        simp only [Avr.step]
        split
        · split
          · exact ht _ _
          · rfl
        · rfl
      | forceStop p =>
        simp only [Avr.step]
        split <;> rfl
      | clearIgnore => rfl
      | extPoll agree =>
        simp only [Avr.step]
        split <;> rfl
    exact (watch_up a evs _ _).trans h1

/-! ## adding commands -/

/-- the direction after the commands -/
def lastDir (dir : Bool) (cs : List Cmd) : Bool := cs.foldl (fun _ c => c.countUp) dir

theorem lastDir_append (dir : Bool) (xs ys : List Cmd) : lastDir dir (xs ++ ys) = lastDir (lastDir dir xs) ys := by
  unfold lastDir; rw [List.foldl_append]

theorem turns_append : ∀ (xs ys : List Cmd) (dir : Bool), TurnsAtPauses dir (xs ++ ys) ↔ TurnsAtPauses dir xs ∧ TurnsAtPauses (lastDir dir xs) ys
  | [], ys, dir => by simp [TurnsAtPauses, lastDir]
  | x :: xs, ys, dir => by
    have := turns_append xs ys x.countUp
    simp only [List.cons_append, TurnsAtPauses, this, lastDir, List.foldl_cons]
    rw [and_assoc]

namespace Stepper

def TurnOK (dir : Bool) (k : Call) : Prop := TurnsAtPauses dir k.accepted ∧ lastDir dir k.accepted = k.s.hw.q.qend.countUp

theorem TurnOK.congr {dir} {k k' : Call} (h : TurnOK dir k) (ha : k'.accepted = k.accepted) (hc : k'.s.hw.q.qend.countUp = k.s.hw.q.qend.countUp) :
    TurnOK dir k' := by
  unfold TurnOK at h ⊢
  rw [ha, hc]
  exact h

theorem TurnOK.add {dir} {k : Call} (h : TurnOK dir k) (a : ArchId) (gaps : Nat → Gap) (c : Cmd) (st : Bool)
    (hc : k.s.hw.q.ignoreCommands = true ∨ c.countUp = k.s.hw.q.qend.countUp ∨ c.steps = 0) : TurnOK dir (k.add a gaps c st).1 := by
  obtain ⟨-, -, -, hs⟩ := Call.add_spec a gaps k c st
  rcases hs with ⟨-, hni, hacc, hcu⟩ | ⟨-, hacc, hcu⟩
  · unfold TurnOK
    rw [hacc, hcu, turns_append, lastDir_append, h.2]
    refine ⟨⟨h.1, ?_, trivial⟩, rfl⟩
    intro hne
    rcases hc with hc | hc | hc
    · rw [hc] at hni; cases hni
    · exact absurd hc hne
    · exact hc
  · exact h.congr hacc hcu

theorem TurnOK.addPauses {dir} (a : ArchId) (gaps : Nat → Gap) (u : Bool) : ∀ (ts : List Nat) {k : Call}, TurnOK dir k → TurnOK dir (k.addPauses a gaps u ts)
  | [], _, h => h
  | _ :: ts, _, h => TurnOK.addPauses a gaps u ts (h.add a gaps _ false (Or.inr (Or.inr rfl)))

theorem TurnOK.autoEnable {dir} {k : Call} (h : TurnOK dir k) (a : ArchId) (ext : ExtPin) (gaps : Nat → Gap) (c : Cmd) (st : Bool) :
    TurnOK dir (k.autoEnable a ext gaps c st).1 := by
  have h0 : TurnOK dir { k with writes := k.writes ++ (k.s.enableOutputs ext).2 } := h
  unfold Call.autoEnable
  dsimp only
  split
  · split
    · exact h0
    · split
      · have h1 := TurnOK.addPauses a gaps c.countUp (onDelayPauses (enableDelay k.s c) (enableDelay k.s c)) h0
        have h2 := Call.addNull_spec a gaps (Call.addPauses a gaps c.countUp { k with writes := k.writes ++ (k.s.enableOutputs ext).2 }
          (onDelayPauses (enableDelay k.s c) (enableDelay k.s c))) st
        exact h1.congr h2.2.2.2.1 (congrArg QueueEnd.countUp h2.2.2.2.2.1)
      · exact h0
  · exact h

theorem TurnOK.dirChange {dir} {k : Call} (h : TurnOK dir k) (a : ArchId) (gaps : Nat → Gap) (c : Cmd) (st : Bool) (hext : pinIsExternal k.s.dirPin = true) :
    TurnOK dir (k.dirChange a gaps c st).1 ∧ ((k.dirChange a gaps c st).2 = none →
      (k.dirChange a gaps c st).1.s.hw.q.ignoreCommands = true ∨ c.countUp = (k.dirChange a gaps c st).1.s.hw.q.qend.countUp) := by
  unfold Call.dirChange
  dsimp only
  by_cases hc : k.s.hw.q.qend.countUp ≠ c.countUp
  · rw [if_pos hc, if_pos hext]
    have hgf := k.s.hw.gap_fields a (gaps k.n)
    have h0 : TurnOK dir { k with s := { k.s with hw := k.s.hw.gap a (gaps k.n) }, n := k.n + 1 } := h.congr rfl (by
      change (k.s.hw.gap a (gaps k.n)).q.qend.countUp = _
      rw [hgf.1])
    split
    · exact ⟨h0, fun hx => nomatch hx⟩
    · have h1 := h0.add a gaps ⟨u16 (usToTicks a 500), 0, c.countUp⟩ st (Or.inr (Or.inr rfl))
      split
      · exact ⟨h1, fun hx => nomatch hx⟩
      · rename_i hok1
        have h2 := h1.add a gaps ⟨u16 (usToTicks a 500), 0, c.countUp⟩ st (Or.inr (Or.inr rfl))
        refine ⟨h2, ?_⟩
        intro hn
        have hok : (Call.add a gaps (Call.add a gaps
            { k with s := { k.s with hw := k.s.hw.gap a (gaps k.n) }, n := k.n + 1 }
            ⟨u16 (usToTicks a 500), 0, c.countUp⟩ st).1 ⟨u16 (usToTicks a 500), 0, c.countUp⟩ st).2 = AQE_OK := by
          by_cases hx : (Call.add a gaps (Call.add a gaps
            { k with s := { k.s with hw := k.s.hw.gap a (gaps k.n) }, n := k.n + 1 }
            ⟨u16 (usToTicks a 500), 0, c.countUp⟩ st).1 ⟨u16 (usToTicks a 500), 0, c.countUp⟩ st).2 = AQE_OK
          · exact hx
          · simp [hx] at hn
        have hsp := Call.add_spec a gaps (Call.add a gaps
            { k with s := { k.s with hw := k.s.hw.gap a (gaps k.n) }, n := k.n + 1 }
            ⟨u16 (usToTicks a 500), 0, c.countUp⟩ st).1 ⟨u16 (usToTicks a 500), 0, c.countUp⟩ st
        rcases hsp.2.2.2 with hx | hx
        · right; exact hx.2.2.2.symm
        · left; exact hsp.1.ign.trans (hx.1 hok)
  · rw [if_neg hc]
    exact ⟨h, fun _ => Or.inr (Decidable.not_not.mp hc).symm⟩

theorem addQueueEntry_turn (a : ArchId) (ext : ExtPin) (gaps : Nat → Gap) (busy : Bool) (s : Stepper) (c : Cmd) (st : Bool)
    (hext : pinIsExternal s.dirPin = true) : TurnOK s.hw.q.qend.countUp (s.addQueueEntry a ext gaps busy c st).1 := by
  have h0 : TurnOK s.hw.q.qend.countUp ⟨s, 0, [], []⟩ := ⟨trivial, rfl⟩
  unfold addQueueEntry
  dsimp only
  split
  · exact h0
  split
  · exact h0
  split
  · exact h0
  have h1 := h0.autoEnable a ext gaps c st
  have f1 := (autoEnable_frame a ext gaps ⟨s, 0, [], []⟩ c st).1
  split
  · rename_i k code heq
    rw [heq] at h1
    exact h1
  · rename_i k heq
    rw [heq] at h1 f1
    obtain ⟨h2, h3⟩ := h1.dirChange a gaps c st (by
      have := f1.pin; unfold dirPin at *; rw [this]; exact hext)
    split
    · rename_i k2 code heq2
      rw [heq2] at h2
      exact h2
    · rename_i k2 heq2
      rw [heq2] at h2 h3
      have h4 := h2.add a gaps c st (by
        rcases h3 rfl with hx | hx
        · exact Or.inl hx
        · exact Or.inr (Or.inl hx))
      unfold Call.final
      dsimp only
      split
      · exact h4.congr rfl rfl
      · exact h4

end Stepper

end FAS
