import Verif.Lemmas.Stepper

/-!
# `addQueueEntry` on stepper level: pauses and direction
-/

namespace FAS
open Spec

theorem dirScan_append (d : Nat) : ∀ (xs ys : List Cmd) (dir : Bool) (w : Option Nat),
    dirScan d dir w (xs ++ ys) = (dirScan d dir w xs).bind (fun r => dirScan d r.1 r.2 ys)
  | [], _, _, _ => rfl
  | c :: cs, ys, dir, w => by
    simp only [List.cons_append, dirScan]
    split
    · exact dirScan_append d cs ys _ _
    · split
      · exact dirScan_append d cs ys _ _
      · split
        · exact dirScan_append d cs ys _ _
        · rfl

/-- The time waited since the last change of direction is long enough. -/
def GoodWait (d : Nat) (w : Option Nat) : Prop := ∀ t, w = some t → d ≤ t

theorem GoodWait.none (d : Nat) : GoodWait d none := by intro t h; cases h

theorem GoodWait.map {d : Nat} {w : Option Nat} (h : GoodWait d w) (n : Nat) :
    GoodWait d (w.map (· + n)) := by
  intro t ht
  cases w with
  | none => cases ht
  | some x =>
    have := h x rfl
    simp only [Option.map_some, Option.some.injEq] at ht
    omega

/-- Scanning a command in the direction of the previous one. -/
theorem dirScan_same {d : Nat} {w : Option Nat} (h : GoodWait d w) (c : Cmd) :
    ∃ w', dirScan d c.countUp w [c] = some (c.countUp, w') ∧ GoodWait d w' := by
  unfold dirScan
  simp only [if_true]
  by_cases hs : c.steps = 0
  · rw [if_pos hs]; exact ⟨_, rfl, h.map _⟩
  · rw [if_neg hs]
    cases w with
    | none => exact ⟨_, rfl, GoodWait.none d⟩
    | some t =>
      simp only [h t rfl, if_true]
      exact ⟨_, rfl, GoodWait.none d⟩

/-- Scanning a long enough pause, in any direction. -/
theorem dirScan_pause {d : Nat} {w : Option Nat} {dir : Bool} (h : GoodWait d w) (c : Cmd) (hs : c.steps = 0)
    (hd : d ≤ c.ticks) :
    ∃ w', dirScan d dir w [c] = some (c.countUp, w') ∧ GoodWait d w' := by
  by_cases hc : c.countUp = dir
  · subst hc; exact dirScan_same h c
  · unfold dirScan
    simp only [hc, if_false, hs, if_true]
    refine ⟨_, rfl, ?_⟩
    intro t ht
    simp only [Option.map_some, Option.some.injEq] at ht
    omega

theorem dirScan_zero {d : Nat} {w : Option Nat} {dir : Bool} (hd : d = 0) (c : Cmd) :
    ∃ w', dirScan d dir w [c] = some (c.countUp, w') ∧ GoodWait d w' := by
  have hg : ∀ w, GoodWait d w := by intro w t _; omega
  unfold dirScan
  simp only [dirScan, hd]
  generalize (if c.countUp = dir then w else some 0) = w2
  by_cases hs : c.steps = 0
  · rw [if_pos hs]; exact ⟨_, rfl, hd ▸ hg _⟩
  · rw [if_neg hs]
    cases w2 with
    | none => exact ⟨_, rfl, hd ▸ hg _⟩
    | some t => exact ⟨none, by simp, hd ▸ hg _⟩

/-- Scanning pauses of the same direction. -/
theorem dirScan_pauses_same {d : Nat} (u : Bool) : ∀ (ts : List Nat) {w : Option Nat}, GoodWait d w →
    ∃ w', dirScan d u w (ts.map fun t => ⟨t, 0, u⟩) = some (u, w') ∧ GoodWait d w'
  | [], _, h => ⟨_, rfl, h⟩
  | t :: ts, w, h => by
    have := dirScan_pauses_same u ts (h.map t)
    simpa [dirScan] using this

theorem dirScan_pauses_sum {d : Nat} (u : Bool) : ∀ (ts : List Nat) (w : Nat),
    dirScan d u (some w) (ts.map fun t => ⟨t, 0, u⟩) = some (u, some (w + ticksSum ts))
  | [], _ => rfl
  | t :: ts, w => by
    have := dirScan_pauses_sum (d := d) u ts (w + t)
    simp only [List.map_cons, dirScan, if_true, Option.map_some, this, ticksSum]
    rw [Nat.add_assoc]

/-- Scanning pauses which are long enough in total. -/
theorem dirScan_pauses {d : Nat} (dir u : Bool) (ts : List Nat) (w : Option Nat) (hw : GoodWait d w)
    (hsum : dir ≠ u → d ≤ ticksSum ts) (hne : ts ≠ []) :
    ∃ w', dirScan d dir w (ts.map fun t => ⟨t, 0, u⟩) = some (u, w') ∧ GoodWait d w' := by
  by_cases hc : u = dir
  · subst hc; exact dirScan_pauses_same u ts hw
  · cases ts with
    | nil => exact absurd rfl hne
    | cons t ts =>
      have h2 := dirScan_pauses_sum (d := d) u ts (0 + t)
      simp only [List.map_cons, dirScan, hc, if_false, if_true, Option.map_some, h2]
      refine ⟨_, rfl, ?_⟩
      intro x hx
      have := hsum (Ne.symm hc)
      simp only [ticksSum, Option.some.injEq] at this hx
      omega

namespace Stepper

/-- The state of the scan agrees with the queue's end. -/
def ScanOK (d : Nat) (dir : Bool) (w : Option Nat) (k : Call) : Prop :=
  ∃ w', dirScan d dir w k.accepted = some (k.s.hw.q.qend.countUp, w') ∧ GoodWait d w'

theorem ScanOK.congr {d dir w} {k k' : Call} (h : ScanOK d dir w k) (ha : k'.accepted = k.accepted)
    (hc : k'.s.hw.q.qend.countUp = k.s.hw.q.qend.countUp) : ScanOK d dir w k' := by
  obtain ⟨w', h1, h2⟩ := h
  exact ⟨w', by rw [ha, hc]; exact h1, h2⟩

/-- A queue call keeps the scan state good if the command continues in the same direction or is a pause
of sufficient length. -/
theorem ScanOK.add {d dir w} {k : Call} (h : ScanOK d dir w k) (a : ArchId) (gaps : Nat → Gap) (c : Cmd)
    (st : Bool) (hc : c.countUp = k.s.hw.q.qend.countUp ∨ (c.steps = 0 ∧ d ≤ c.ticks) ∨ d = 0 ∨
      k.s.hw.q.ignoreCommands = true) :
    ScanOK d dir w (k.add a gaps c st).1 := by
  obtain ⟨-, -, -, hs⟩ := Call.add_spec a gaps k c st
  rcases hs with ⟨-, hni, hacc, hcu⟩ | ⟨-, hacc, hcu⟩
  · obtain ⟨w', h1, h2⟩ := h
    unfold ScanOK
    rw [hacc, hcu, dirScan_append, h1]
    rcases hc with hc | ⟨h0, hd⟩ | hd | hi
    · rw [← hc]; exact dirScan_same h2 c
    · exact dirScan_pause h2 c h0 hd
    · exact dirScan_zero hd c
    · rw [hi] at hni; cases hni
  · exact h.congr hacc hcu

theorem addPauses_frame (a : ArchId) (gaps : Nat → Gap) (u : Bool) : ∀ (ts : List Nat) (k : Call),
    Frame k.s (k.addPauses a gaps u ts).s ∧ (k.addPauses a gaps u ts).writes = k.writes ∧
    (k.addPauses a gaps u ts).s.counter = k.s.counter
  | [], k => ⟨Frame.refl _, rfl, rfl⟩
  | t :: ts, k => by
    have h1 := Call.add_spec a gaps k ⟨t, 0, u⟩ false
    have h2 := addPauses_frame a gaps u ts (k.add a gaps ⟨t, 0, u⟩ false).1
    exact ⟨h1.1.trans h2.1, h2.2.1.trans h1.2.1, h2.2.2.trans h1.2.2.1⟩

theorem addPauses_countUp (a : ArchId) (gaps : Nat → Gap) (u : Bool) : ∀ (ts : List Nat) (k : Call),
    (k.addPauses a gaps u ts).s.hw.q.qend.countUp = k.s.hw.q.qend.countUp ∨
    (k.addPauses a gaps u ts).s.hw.q.qend.countUp = u
  | [], _ => Or.inl rfl
  | t :: ts, k => by
    rcases addPauses_countUp a gaps u ts (k.add a gaps ⟨t, 0, u⟩ false).1 with h | h
    · rcases (Call.add_spec a gaps k ⟨t, 0, u⟩ false).2.2.2 with ⟨-, -, -, hcu⟩ | ⟨-, -, hcu⟩
      · right; exact h.trans hcu
      · left; exact h.trans hcu
    · right; exact h

/-- All pauses individually long enough. -/
theorem ScanOK.addPauses {d dir w} (a : ArchId) (gaps : Nat → Gap) (u : Bool) :
    ∀ (ts : List Nat) {k : Call}, ScanOK d dir w k →
      (u = k.s.hw.q.qend.countUp ∨ ∀ t ∈ ts, d ≤ t) → ScanOK d dir w (k.addPauses a gaps u ts)
  | [], _, h, _ => h
  | t :: ts, k, h, ht => by
    refine ScanOK.addPauses a gaps u ts (h.add a gaps _ false ?_) ?_
    · rcases ht with ht | ht
      · left; exact ht
      · right; left; exact ⟨rfl, ht t (by simp)⟩
    · rcases ht with ht | ht
      · left
        have hs := (Call.add_spec a gaps k ⟨t, 0, u⟩ false).2.2.2
        rcases hs with ⟨-, -, -, hcu⟩ | ⟨-, -, hcu⟩
        · rw [hcu]
        · rw [hcu]; exact ht
      · right; intro x hx; exact ht x (by simp [hx])

/-- With enough space all pauses are accepted. -/
theorem addPauses_all (a : ArchId) (gaps : Nat → Gap) (u : Bool) : ∀ (ts : List Nat) (k : Call),
    k.s.hw.q.IdxOK a → k.s.hw.q.ready = true → k.s.hw.q.ignoreCommands = false →
    k.s.hw.q.queueEntries + ts.length ≤ a.queueLen → (∀ t ∈ ts, a.minCmdTicks ≤ t) →
    (k.addPauses a gaps u ts).accepted = k.accepted ++ ts.map (fun t => ⟨t, 0, u⟩) ∧
    (k.addPauses a gaps u ts).s.hw.q.IdxOK a ∧
    (k.addPauses a gaps u ts).s.hw.q.queueEntries ≤ k.s.hw.q.queueEntries + ts.length ∧
    (ts ≠ [] → (k.addPauses a gaps u ts).s.hw.q.qend.countUp = u)
  | [], k, hi, _, _, _, _ => ⟨by simp [Call.addPauses], hi, by simp [Call.addPauses], by simp⟩
  | t :: ts, k, hi, hr, hg, hl, hm => by
    have hs := Call.add_spec a gaps k ⟨t, 0, u⟩ false
    have hidx := Call.add_idx a gaps k ⟨t, 0, u⟩ false hi
    have hok : (k.add a gaps ⟨t, 0, u⟩ false).2 = AQE_OK :=
      Call.add_ok a gaps k ⟨t, 0, u⟩ false hi hr (by simp at hl; omega)
        (by simpa [Queue.commandRateTicks] using hm t (by simp))
    rcases hs with ⟨hf, -, -, ⟨-, -, hacc, hcu⟩ | ⟨hign, -⟩⟩
    · have ih := addPauses_all a gaps u ts (k.add a gaps ⟨t, 0, u⟩ false).1 hidx.1
        (hf.ready.trans hr) (hf.ign.trans hg) (by simp at hl; omega) (fun x hx => hm x (by simp [hx]))
      refine ⟨?_, ih.2.1, ?_, ?_⟩
      · change (Call.addPauses a gaps u _ ts).accepted = _
        rw [ih.1, hacc]; simp
      · change (Call.addPauses a gaps u _ ts).s.hw.q.queueEntries ≤ _
        have := ih.2.2.1
        simp only [List.length_cons]
        omega
      · intro _
        change (Call.addPauses a gaps u _ ts).s.hw.q.qend.countUp = _
        cases ts with
        | nil => exact hcu
        | cons => exact ih.2.2.2 (by simp)
    · rw [hign hok] at hg; cases hg

theorem _root_.FAS.Queue.add_entries (a : ArchId) (q : Queue) (c : Cmd) (st : Bool) (hi : q.IdxOK a)
    (hok : (q.add a c st).code = AQE_OK) (hign : q.ignoreCommands = false) :
    (q.add a c st).q.queueEntries = q.queueEntries + 1 := by
  obtain ⟨e, pe, pr, pw, prun, pready, pign, ppos, pdp, pdh, pms, -⟩ := prepare_spec a q c
  cases hr : q.ready
  · rw [Queue.add_notReady a q c st hr] at hok; simp [AQE_OK, AQE_DEVICE_NOT_READY] at hok
  · by_cases hf : q.queueEntries = a.queueLen
    · rw [Queue.add_full a q c st hr hf] at hok; simp [AQE_OK, AQE_QUEUE_FULL] at hok
    · by_cases hl : Queue.commandRateTicks c < a.minCmdTicks
      · rw [Queue.add_low a q c st hr hf hl] at hok; simp [AQE_OK, AQE_ERROR_TICKS_TOO_LOW] at hok
      · have hlt : q.queueEntries < a.queueLen := Nat.lt_of_le_of_ne hi.2.2 hf
        rw [Queue.add_ok a q c st hr hf hl hign]
        have := Queue.pending_push a q e hi hlt ({ (q.prepare a c).1 with
          nextWriteIdx := u8 (q.nextWriteIdx + 1), qend := (q.prepare a c).2 }) pe pr rfl
        rw [← Queue.pending_length a, this.1, List.length_append, Queue.pending_length]; simp

theorem Call.add_entries (a : ArchId) (gaps : Nat → Gap) (k : Call) (c : Cmd) (st : Bool)
    (hi : k.s.hw.q.IdxOK a) (hok : (k.add a gaps c st).2 = AQE_OK) (hign : k.s.hw.q.ignoreCommands = false)
    (h0 : (gaps k.n).advances = 0) :
    (k.add a gaps c st).1.s.hw.q.queueEntries = k.s.hw.q.queueEntries + 1 := by
  have hg := k.s.hw.gap_idx a (gaps k.n) hi
  have hgf := k.s.hw.gap_fields a (gaps k.n)
  have ha := Queue.add_entries a (k.s.hw.gap a (gaps k.n)).q c st hg.1 hok (hgf.2.1.trans hign)
  have hstart : ∀ (b : Bool) (q : Queue),
      (if b then { q with running := true } else q).queueEntries = q.queueEntries := by
    intro b q; cases b <;> rfl
  have hs := hstart ((k.s.hw.gap a (gaps k.n)).q.add a c st).start
    ((k.s.hw.gap a (gaps k.n)).q.add a c st).q
  have e : (k.add a gaps c st).1.s.hw.q.queueEntries =
    ((k.s.hw.gap a (gaps k.n)).q.add a c st).q.queueEntries := hs
  have e2 : (k.s.hw.gap a (gaps k.n)).q.queueEntries = k.s.hw.q.queueEntries := by
    unfold Hw.gap; rw [h0]; rfl
  omega

/-- Without hardware progress the pauses stay in the queue. -/
theorem addPauses_entries (a : ArchId) (gaps : Nat → Gap) (u : Bool) : ∀ (ts : List Nat) (k : Call),
    k.s.hw.q.IdxOK a → k.s.hw.q.ready = true → k.s.hw.q.ignoreCommands = false →
    k.s.hw.q.queueEntries + ts.length ≤ a.queueLen → (∀ t ∈ ts, a.minCmdTicks ≤ t) →
    (∀ n < k.n + ts.length, (gaps n).advances = 0) →
    (k.addPauses a gaps u ts).s.hw.q.queueEntries = k.s.hw.q.queueEntries + ts.length
  | [], k, hi, _, _, _, _, _ => rfl
  | t :: ts, k, hi, hr, hg, hl, hm, h0 => by
    have hs := Call.add_spec a gaps k ⟨t, 0, u⟩ false
    have hidx := Call.add_idx a gaps k ⟨t, 0, u⟩ false hi
    have hok : (k.add a gaps ⟨t, 0, u⟩ false).2 = AQE_OK :=
      Call.add_ok a gaps k ⟨t, 0, u⟩ false hi hr (by simp at hl; omega)
        (by simpa [Queue.commandRateTicks] using hm t (by simp))
    have he := Call.add_entries a gaps k ⟨t, 0, u⟩ false hi hok hg (h0 _ (by simp))
    have ih := addPauses_entries a gaps u ts (k.add a gaps ⟨t, 0, u⟩ false).1 hidx.1
      (hs.1.ready.trans hr) (hs.1.ign.trans hg) (by simp at hl; omega) (fun x hx => hm x (by simp [hx]))
      (fun n hn => h0 n (by
        have : (k.add a gaps ⟨t, 0, u⟩ false).1.n = k.n + 1 := rfl
        simp only [List.length_cons]; omega))
    change (Call.addPauses a gaps u _ ts).s.hw.q.queueEntries = _
    rw [ih, he, List.length_cons]; omega

theorem addPauses_n (a : ArchId) (gaps : Nat → Gap) (u : Bool) : ∀ (ts : List Nat) (k : Call),
    (k.addPauses a gaps u ts).n = k.n + ts.length
  | [], _ => rfl
  | t :: ts, k => by
    have := addPauses_n a gaps u ts (k.add a gaps ⟨t, 0, u⟩ false).1
    change (Call.addPauses a gaps u _ ts).n = _
    rw [this, List.length_cons]
    change k.n + 1 + _ = _
    omega

theorem Call.addNull_ok (a : ArchId) (gaps : Nat → Gap) (k : Call) (st : Bool) (hi : k.s.hw.q.IdxOK a)
    (hr : k.s.hw.q.ready = true) (hne : k.s.hw.q.queueEntries ≠ 0) (h0 : (gaps k.n).advances = 0) :
    (k.addNull a gaps st).2 = AQE_OK := by
  have hgf := k.s.hw.gap_fields a (gaps k.n)
  change ((k.s.hw.gap a (gaps k.n)).q.addNull st).code = _
  have e2 : ¬ (k.s.hw.gap a (gaps k.n)).q.nextWriteIdx = (k.s.hw.gap a (gaps k.n)).q.readIdx := by
    intro h
    have : k.s.hw.q.readIdx = k.s.hw.q.nextWriteIdx := by
      unfold Hw.gap at h; rw [h0] at h; exact h.symm
    exact hne ((Queue.empty_iff a _ hi).mp this)
  unfold Queue.addNull
  rw [hgf.2.2.2.2.1, hr]
  simp only [Bool.not_true, Bool.false_eq_true, if_false, e2]
  split <;> rfl

/-- If nothing can be added, then nothing is added. -/
theorem addPauses_none (a : ArchId) (gaps : Nat → Gap) (u : Bool) : ∀ (ts : List Nat) (k : Call),
    (k.s.hw.q.ready = false ∨ k.s.hw.q.ignoreCommands = true ∨ ∀ t ∈ ts, t < a.minCmdTicks) →
    (k.addPauses a gaps u ts).accepted = k.accepted ∧
    (k.addPauses a gaps u ts).s.hw.q.qend.countUp = k.s.hw.q.qend.countUp
  | [], k, _ => ⟨rfl, rfl⟩
  | t :: ts, k, hn => by
    have hs := Call.add_spec a gaps k ⟨t, 0, u⟩ false
    have hgf := k.s.hw.gap_fields a (gaps k.n)
    have ih := addPauses_none a gaps u ts (k.add a gaps ⟨t, 0, u⟩ false).1 (by
      rcases hn with h | h | h
      · left; exact hs.1.ready.trans h
      · right; left; exact hs.1.ign.trans h
      · right; right; intro x hx; exact h x (by simp [hx]))
    rcases hs.2.2.2 with ⟨hok, hg, -⟩ | ⟨-, hacc, hcu⟩
    · exfalso
      have hcode : (k.add a gaps ⟨t, 0, u⟩ false).2 = ((k.s.hw.gap a (gaps k.n)).q.add a ⟨t, 0, u⟩ false).code := rfl
      rw [hcode] at hok
      rcases hn with h | h | h
      · rw [Queue.add_notReady a _ _ _ (hgf.2.2.2.2.1.trans h)] at hok; simp [AQE_OK, AQE_DEVICE_NOT_READY] at hok
      · rw [h] at hg; cases hg
      · have hlow : Queue.commandRateTicks ⟨t, 0, u⟩ < a.minCmdTicks := by
          simpa [Queue.commandRateTicks] using h t (by simp)
        cases hr : (k.s.hw.gap a (gaps k.n)).q.ready
        · rw [Queue.add_notReady a _ _ _ hr] at hok; simp [AQE_OK, AQE_DEVICE_NOT_READY] at hok
        · by_cases hfull : (k.s.hw.gap a (gaps k.n)).q.queueEntries = a.queueLen
          · rw [Queue.add_full a _ _ _ hr hfull] at hok; simp [AQE_OK, AQE_QUEUE_FULL] at hok
          · rw [Queue.add_low a _ _ _ hr hfull hlow] at hok; simp [AQE_OK, AQE_ERROR_TICKS_TOO_LOW] at hok
    · exact ⟨ih.1.trans hacc, ih.2.trans hcu⟩

/-- The delay inserted by auto enable. -/
def enableDelay (s : Stepper) (c : Cmd) : Nat :=
  if s.onDelayTicks < s.dirChangeDelayTicks ∧ s.hw.q.qend.countUp ≠ c.countUp
  then s.dirChangeDelayTicks else s.onDelayTicks

/-- What auto enable may rely on: the queue is empty, or the delay is not split into pauses shorter than
the direction delay. -/
def EnableGuard (a : ArchId) (s : Stepper) : Prop :=
  s.autoEnable = true ∧ s.counter = 0 →
    (s.hw.q.IdxOK a ∧ s.hw.q.queueEntries = 0 ∧ s.onDelayTicks ≤ a.maxOnDelayTicks) ∨
      s.dirChangeDelayTicks ≤ 32768 ∨ s.onDelayTicks < 65536

theorem enableDelay_pauses (a : ArchId) (s : Stepper) (c : Cmd) (h1 : s.onDelayTicks ≤ a.maxOnDelayTicks)
    (h2 : s.dirChangeDelayTicks < 65536) :
    (onDelayPauses (enableDelay s c) (enableDelay s c)).length ≤ a.queueLen - 1 := by
  have hp := (onDelayPauses_spec (enableDelay s c) (enableDelay s c) (Nat.le_refl _)).2.2.1
  have hd : enableDelay s c ≤ 65535 * (a.queueLen - 1) := by
    unfold enableDelay
    unfold ArchId.maxOnDelayTicks at h1
    rcases a.queueLen_cases with h | h <;> rw [h] at h1 ⊢ <;> split <;> omega
  rcases a.queueLen_cases with h | h <;> rw [h] at hd ⊢ <;> omega

theorem ScanOK.autoEnable {dir w} {k : Call} (a : ArchId) (ext : ExtPin) (gaps : Nat → Gap) (c : Cmd)
    (st : Bool) (h : ScanOK k.s.dirChangeDelayTicks dir w k) (hg : EnableGuard a k.s)
    (hd16 : k.s.dirChangeDelayTicks < 65536) :
    ScanOK k.s.dirChangeDelayTicks dir w (k.autoEnable a ext gaps c st).1 ∧
    Frame k.s (k.autoEnable a ext gaps c st).1.s ∧
    ((k.autoEnable a ext gaps c st).1.s.hw.q.qend.countUp = k.s.hw.q.qend.countUp ∨
     (k.autoEnable a ext gaps c st).1.s.hw.q.qend.countUp = c.countUp) := by
  unfold Call.autoEnable
  by_cases hon : k.s.autoEnable = true ∧ k.s.counter = 0
  · rw [if_pos hon]
    dsimp only
    cases he : (k.s.enableOutputs ext).1
    · simp only [Bool.not_false, if_true]
      exact ⟨h.congr rfl rfl, Frame.refl _, by simp⟩
    · simp only [Bool.not_true, Bool.false_eq_true, if_false]
      by_cases h0 : k.s.onDelayTicks > 0
      · rw [if_pos h0]
        suffices key : ∀ k0 : Call, k0.s = k.s → k0.accepted = k.accepted →
            ScanOK k.s.dirChangeDelayTicks dir w
              ((k0.addPauses a gaps c.countUp
                (onDelayPauses (enableDelay k.s c) (enableDelay k.s c))).addNull a gaps st).1 ∧
            Frame k.s ((k0.addPauses a gaps c.countUp
                (onDelayPauses (enableDelay k.s c) (enableDelay k.s c))).addNull a gaps st).1.s ∧
            (((k0.addPauses a gaps c.countUp
                (onDelayPauses (enableDelay k.s c) (enableDelay k.s c))).addNull a gaps st).1.s.hw.q.qend.countUp
                = k.s.hw.q.qend.countUp ∨
             ((k0.addPauses a gaps c.countUp
                (onDelayPauses (enableDelay k.s c) (enableDelay k.s c))).addNull a gaps st).1.s.hw.q.qend.countUp
                = c.countUp) from
          key { k with writes := k.writes ++ (k.s.enableOutputs ext).2 } rfl rfl
        intro k0 hk0s hk0a
        have hsk0 : ScanOK k.s.dirChangeDelayTicks dir w k0 := h.congr hk0a (by rw [hk0s])
        have hsp := onDelayPauses_spec (enableDelay k.s c) (enableDelay k.s c) (Nat.le_refl _)
        have hpos : 0 < enableDelay k.s c := by unfold enableDelay; split <;> omega
        have hge : c.countUp ≠ k.s.hw.q.qend.countUp → k.s.dirChangeDelayTicks ≤ enableDelay k.s c := by
          intro hne
          unfold enableDelay
          split
          · omega
          · rename_i hn
            by_cases hlt : k.s.onDelayTicks < k.s.dirChangeDelayTicks
            · exact absurd ⟨hlt, Ne.symm hne⟩ hn
            · omega
        have hsc : ScanOK k.s.dirChangeDelayTicks dir w
            (k0.addPauses a gaps c.countUp (onDelayPauses (enableDelay k.s c) (enableDelay k.s c))) := by
          by_cases hdir : c.countUp = k.s.hw.q.qend.countUp
          · exact hsk0.addPauses a gaps _ _ (Or.inl (by rw [hk0s]; exact hdir))
          · rcases hg hon with ⟨hi, hemp, hmax⟩ | hsmall
            · by_cases hcan : k.s.hw.q.ready = true ∧ k.s.hw.q.ignoreCommands = false ∧
                  a.minCmdTicks ≤ enableDelay k.s c
              · obtain ⟨hr, hig, hmin⟩ := hcan
                have hlen := enableDelay_pauses a k.s c hmax hd16
                have hall := addPauses_all a gaps c.countUp
                  (onDelayPauses (enableDelay k.s c) (enableDelay k.s c)) k0
                  (by rw [hk0s]; exact hi) (by rw [hk0s]; exact hr) (by rw [hk0s]; exact hig)
                  (by rw [hk0s, hemp]; omega)
                  (by
                    intro t ht
                    have := (hsp.2.1 t ht).2
                    have := a.minCmd_pos
                    omega)
                obtain ⟨w', hw1, hw2⟩ := hsk0
                unfold ScanOK
                rw [hall.1, dirScan_append, hw1, hall.2.2.2 (hsp.2.2.2.2 hpos)]
                exact dirScan_pauses _ _ _ _ hw2 (fun _ => by rw [hsp.1]; exact hge hdir)
                  (hsp.2.2.2.2 hpos)
              · have hnone := addPauses_none a gaps c.countUp
                  (onDelayPauses (enableDelay k.s c) (enableDelay k.s c)) k0 (by
                    rw [hk0s]
                    by_cases h1 : k.s.hw.q.ready = true
                    · by_cases h2 : k.s.hw.q.ignoreCommands = false
                      · right; right
                        have h3 : enableDelay k.s c < a.minCmdTicks := by
                          by_cases h3 : a.minCmdTicks ≤ enableDelay k.s c
                          · exact absurd ⟨h1, h2, h3⟩ hcan
                          · omega
                        have := a.minCmd_pos
                        rw [hsp.2.2.2.1 (by omega) hpos]
                        intro t ht
                        simp only [List.mem_singleton] at ht
                        omega
                      · right; left; simpa using h2
                    · left; simpa using h1)
                exact hsk0.congr hnone.1 hnone.2
            · refine hsk0.addPauses a gaps _ _ (Or.inr ?_)
              intro t ht
              have h1 := (hsp.2.1 t ht).2
              have h2 := hge hdir
              rcases hsmall with hs | hs
              · omega
              · have h3 : enableDelay k.s c < 65536 := by unfold enableDelay; split <;> omega
                rw [hsp.2.2.2.1 h3 hpos] at ht
                simp only [List.mem_singleton] at ht
                omega
        have hn := Call.addNull_spec a gaps
          (k0.addPauses a gaps c.countUp (onDelayPauses (enableDelay k.s c) (enableDelay k.s c))) st
        have hfr := (addPauses_frame a gaps c.countUp
          (onDelayPauses (enableDelay k.s c) (enableDelay k.s c)) k0).1
        refine ⟨hsc.congr hn.2.2.2.1 (by rw [hn.2.2.2.2.1]), ?_, ?_⟩
        · have := hfr.trans hn.1
          rwa [hk0s] at this
        · rw [hn.2.2.2.2.1, ← hk0s]
          exact addPauses_countUp a gaps c.countUp _ k0
      · rw [if_neg h0]
        exact ⟨h.congr rfl rfl, Frame.refl _, Or.inl rfl⟩
  · rw [if_neg hon]
    exact ⟨h, Frame.refl _, Or.inl rfl⟩

theorem ScanOK.dirChange {d dir w} {k : Call} (a : ArchId) (gaps : Nat → Gap) (c : Cmd) (st : Bool)
    (h : ScanOK d dir w k) (hd : k.s.dirChangeDelayTicks = d) (hint : pinIsExternal k.s.dirPin = false)
    (hp : c.steps = 0 → c.countUp = k.s.hw.q.qend.countUp ) :
    ScanOK d dir w (k.dirChange a gaps c st).1 ∧ Frame k.s (k.dirChange a gaps c st).1.s ∧
    ((k.dirChange a gaps c st).2 = none → k.s.hw.q.ignoreCommands = true ∨ d = 0 ∨
      (k.dirChange a gaps c st).1.s.hw.q.qend.countUp = c.countUp) := by
  unfold Call.dirChange
  by_cases hc : k.s.hw.q.qend.countUp ≠ c.countUp
  · rw [if_pos hc, hint]
    simp only [Bool.false_eq_true, if_false]
    by_cases h0 : k.s.dirChangeDelayTicks ≠ 0 ∧ c.steps ≠ 0
    · rw [if_pos h0]
      have hs := Call.add_spec a gaps k ⟨k.s.dirChangeDelayTicks, 0, c.countUp⟩ st
      refine ⟨h.add a gaps _ st (Or.inr (Or.inl ⟨rfl, by rw [hd]; exact Nat.le_refl _⟩)), hs.1, ?_⟩
      intro hnone
      have hok : (k.add a gaps ⟨k.s.dirChangeDelayTicks, 0, c.countUp⟩ st).2 = AQE_OK := by
        by_cases hx : (k.add a gaps ⟨k.s.dirChangeDelayTicks, 0, c.countUp⟩ st).2 = AQE_OK
        · exact hx
        · simp [hx] at hnone
      rcases hs.2.2.2 with ⟨-, -, -, hcu⟩ | ⟨hi, -, -⟩
      · right; right; exact hcu
      · left; exact hi hok
    · rw [if_neg h0]
      refine ⟨h, Frame.refl _, fun _ => ?_⟩
      by_cases hdz : d = 0
      · right; left; exact hdz
      · exfalso
        by_cases hst : c.steps = 0
        · exact hc (hp hst).symm
        · exact h0 ⟨by omega, hst⟩
  · rw [if_neg hc]
    refine ⟨h, Frame.refl _, fun _ => ?_⟩
    right; right
    by_cases hx : k.s.hw.q.qend.countUp = c.countUp
    · exact hx
    · exact absurd hx hc

/-- One `addQueueEntry` keeps the direction delay. -/
theorem addQueueEntry_scan (a : ArchId) (ext : ExtPin) (gaps : Nat → Gap) (busy : Bool) (s : Stepper)
    (c : Cmd) (st : Bool) (w : Option Nat) (hw : GoodWait s.dirChangeDelayTicks w)
    (hint : pinIsExternal s.dirPin = false) (hg : EnableGuard a s) (hd16 : s.dirChangeDelayTicks < 65536)
    (hp : c.steps = 0 → c.countUp = s.hw.q.qend.countUp) :
    ScanOK s.dirChangeDelayTicks s.hw.q.qend.countUp w (s.addQueueEntry a ext gaps busy c st).1 := by
  have h0 : ScanOK s.dirChangeDelayTicks s.hw.q.qend.countUp w ⟨s, 0, [], []⟩ := ⟨w, rfl, hw⟩
  unfold addQueueEntry
  dsimp only
  split
  · exact h0
  split
  · exact h0
  split
  · exact h0
  obtain ⟨h1, f1, cu1⟩ := ScanOK.autoEnable (k := ⟨s, 0, [], []⟩) a ext gaps c st h0 hg hd16
  split
  · rename_i k code heq
    rw [heq] at h1
    exact h1
  · rename_i k heq
    rw [heq] at h1 f1 cu1
    dsimp only at h1 f1 cu1
    obtain ⟨h2, f2, hn⟩ := ScanOK.dirChange a gaps c st h1 f1.delay (by
        have := f1.pin; unfold dirPin at *; rw [this]; exact hint) (by
        intro hz
        rcases cu1 with e | e
        · rw [e]; exact hp hz
        · exact e.symm)
    split
    · rename_i k2 code heq2
      rw [heq2] at h2
      exact h2
    · rename_i k2 heq2
      rw [heq2] at h2 f2 hn
      dsimp only at h2 f2 hn
      have h3 := h2.add a gaps c st (by
        rcases hn rfl with h | h | h
        · right; right; right; rw [f2.ign]; exact h
        · right; right; left; exact h
        · left; exact h.symm)
      unfold Call.final
      dsimp only
      split
      · exact h3.congr rfl rfl
      · exact h3

/-! ## Frame of `addQueueEntry` -/

theorem autoEnable_frame (a : ArchId) (ext : ExtPin) (gaps : Nat → Gap) (k : Call) (c : Cmd) (st : Bool) :
    Frame k.s (k.autoEnable a ext gaps c st).1.s ∧
    (k.autoEnable a ext gaps c st).1.s.counter = k.s.counter := by
  unfold Call.autoEnable
  dsimp only
  split
  · split
    · exact ⟨Frame.refl _, rfl⟩
    · split
      · have h1 := addPauses_frame a gaps c.countUp (onDelayPauses (enableDelay k.s c) (enableDelay k.s c))
          { k with writes := k.writes ++ (k.s.enableOutputs ext).2 }
        have h2 := Call.addNull_spec a gaps (Call.addPauses a gaps c.countUp
          { k with writes := k.writes ++ (k.s.enableOutputs ext).2 }
          (onDelayPauses (enableDelay k.s c) (enableDelay k.s c))) st
        exact ⟨h1.1.trans h2.1, h2.2.2.1.trans h1.2.2⟩
      · exact ⟨Frame.refl _, rfl⟩
  · exact ⟨Frame.refl _, rfl⟩

theorem gap_frame (a : ArchId) (s : Stepper) (g : Gap) : Frame s { s with hw := s.hw.gap a g } := by
  have h := s.hw.gap_fields a g
  exact ⟨rfl, rfl, rfl, rfl, rfl, rfl, rfl, rfl, rfl, h.2.1, h.2.2.1, h.2.2.2.1, h.2.2.2.2.1, h.2.2.2.2.2⟩

theorem dirChange_frame (a : ArchId) (gaps : Nat → Gap) (k : Call) (c : Cmd) (st : Bool) :
    Frame k.s (k.dirChange a gaps c st).1.s ∧ (k.dirChange a gaps c st).1.writes = k.writes ∧
    (k.dirChange a gaps c st).1.s.counter = k.s.counter := by
  unfold Call.dirChange
  dsimp only
  split
  · split
    · split
      · exact ⟨gap_frame a k.s _, rfl, rfl⟩
      · have h0 := gap_frame a k.s (gaps k.n)
        have h1 := Call.add_spec a gaps
          { k with s := { k.s with hw := k.s.hw.gap a (gaps k.n) }, n := k.n + 1 }
          ⟨u16 (usToTicks a 500), 0, c.countUp⟩ st
        split
        · exact ⟨h0.trans h1.1, h1.2.1, h1.2.2.1⟩
        · have h2 := Call.add_spec a gaps (Call.add a gaps
            { k with s := { k.s with hw := k.s.hw.gap a (gaps k.n) }, n := k.n + 1 }
            ⟨u16 (usToTicks a 500), 0, c.countUp⟩ st).1 ⟨u16 (usToTicks a 500), 0, c.countUp⟩ st
          exact ⟨(h0.trans h1.1).trans h2.1, h2.2.1.trans h1.2.1, h2.2.2.1.trans h1.2.2.1⟩
    · split
      · have h1 := Call.add_spec a gaps k ⟨k.s.dirChangeDelayTicks, 0, c.countUp⟩ st
        exact ⟨h1.1, h1.2.1, h1.2.2.1⟩
      · exact ⟨Frame.refl _, rfl, rfl⟩
  · exact ⟨Frame.refl _, rfl, rfl⟩

theorem final_frame (a : ArchId) (gaps : Nat → Gap) (k : Call) (c : Cmd) (st : Bool) :
    Frame k.s (k.final a gaps c st).1.s ∧ (k.final a gaps c st).1.writes = k.writes := by
  have h1 := Call.add_spec a gaps k c st
  unfold Call.final
  dsimp only
  split
  · exact ⟨⟨h1.1.rg, h1.1.auto, h1.1.delay, h1.1.on, h1.1.off, h1.1.stepPin, h1.1.high, h1.1.low, h1.1.fwd,
      h1.1.ign, h1.1.pin, h1.1.up, h1.1.ready, h1.1.max⟩, h1.2.1⟩
  · exact ⟨h1.1, h1.2.1⟩

theorem addQueueEntry_frame (a : ArchId) (ext : ExtPin) (gaps : Nat → Gap) (busy : Bool) (s : Stepper)
    (c : Cmd) (st : Bool) : Frame s (s.addQueueEntry a ext gaps busy c st).1.s := by
  unfold addQueueEntry
  dsimp only
  split
  · exact Frame.refl _
  split
  · exact Frame.refl _
  split
  · exact Frame.refl _
  have h1 := (autoEnable_frame a ext gaps ⟨s, 0, [], []⟩ c st).1
  split
  · rename_i k code heq; rw [heq] at h1; exact h1
  · rename_i k heq
    rw [heq] at h1
    have h2 := (dirChange_frame a gaps k c st).1
    split
    · rename_i k2 code heq2; rw [heq2] at h2; exact h1.trans h2
    · rename_i k2 heq2
      rw [heq2] at h2
      exact (h1.trans h2).trans (final_frame a gaps k2 c st).1

end Stepper
end FAS
