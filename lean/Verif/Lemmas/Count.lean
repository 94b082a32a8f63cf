import Verif.Lemmas.Fill

/-!
# Counting the commands a call of `addQueueEntry` leaves in the queue
-/

namespace FAS
open Stepper

/-- A queue call without hardware progress: the number of pending commands grows by what is accepted. -/
theorem Call.add_count (a : ArchId) (gaps : Nat → Gap) (k : Call) (c : Cmd) (st : Bool)
    (hi : k.s.hw.q.IdxOK a) (h0 : (gaps k.n).advances = 0) :
    (k.add a gaps c st).1.s.hw.q.queueEntries + k.accepted.length =
      k.s.hw.q.queueEntries + (k.add a gaps c st).1.accepted.length := by
  have hs := Call.add_spec a gaps k c st
  rcases hs.2.2.2 with ⟨hok, hign, hacc, -⟩ | ⟨hign, hacc, -⟩
  · rw [Call.add_entries a gaps k c st hi hok hign h0, hacc]
    simp; omega
  · rw [hacc]
    congr 1
    have hgap : (k.s.hw.gap a (gaps k.n)).q.queueEntries = k.s.hw.q.queueEntries := by
      unfold Hw.gap; rw [h0]; rfl
    have hgf := k.s.hw.gap_fields a (gaps k.n)
    have hstart : ∀ (b : Bool) (q : Queue),
        (if b then { q with running := true } else q).queueEntries = q.queueEntries := by
      intro b q; cases b <;> rfl
    change (if _ then _ else _ : Queue).queueEntries = _
    rw [hstart, ← hgap]
    change ((k.s.hw.gap a (gaps k.n)).q.add a c st).code = AQE_OK → _ at hign
    revert hign
    rw [← hgf.2.1]
    have hlen := (k.s.hw.gap_idx a (gaps k.n) hi).1.2
    revert hlen
    generalize (k.s.hw.gap a (gaps k.n)).q = q
    intro hlen hign
    cases hr : q.ready
    · rw [Queue.add_notReady a q c st hr]
    · by_cases hf : q.queueEntries = a.queueLen
      · rw [Queue.add_full a q c st hr hf]
      · by_cases hl : Queue.commandRateTicks c < a.minCmdTicks
        · rw [Queue.add_low a q c st hr hf hl]
        · have hq : q.ignoreCommands = true := by
            by_cases hq : q.ignoreCommands = true
            · exact hq
            · apply hign
              exact Queue.add_code_ok a q c st hr (by omega) (by omega)
          rw [Queue.add_ignored a q c st hr hf (by omega) hq]
          obtain ⟨e, -, pr, pw, -⟩ := prepare_spec a q c
          unfold Queue.queueEntries
          dsimp only
          rw [pr, pw]

theorem Queue.add_same (a : ArchId) (q : Queue) (c : Cmd) (st : Bool) (hlen : q.IdxOK a)
    (hign : (q.add a c st).code = AQE_OK → q.ignoreCommands = true) :
    (q.add a c st).q.queueEntries = q.queueEntries := by
  cases hr : q.ready
  · rw [Queue.add_notReady a q c st hr]
  · by_cases hf : q.queueEntries = a.queueLen
    · rw [Queue.add_full a q c st hr hf]
    · by_cases hl : Queue.commandRateTicks c < a.minCmdTicks
      · rw [Queue.add_low a q c st hr hf hl]
      · have hq : q.ignoreCommands = true := by
          by_cases hq : q.ignoreCommands = true
          · exact hq
          · apply hign
            have := hlen.2.2
            exact Queue.add_code_ok a q c st hr (by omega) (by omega)
        rw [Queue.add_ignored a q c st hr hf (by omega) hq]
        obtain ⟨e, -, pr, pw, -⟩ := prepare_spec a q c
        unfold Queue.queueEntries
        dsimp only
        rw [pr, pw]

/-- A queue call: the number of pending commands grows at most by what is accepted. -/
theorem Call.add_le (a : ArchId) (gaps : Nat → Gap) (k : Call) (c : Cmd) (st : Bool) (hi : k.s.hw.q.IdxOK a) :
    (k.add a gaps c st).1.s.hw.q.queueEntries + k.accepted.length ≤
      k.s.hw.q.queueEntries + (k.add a gaps c st).1.accepted.length := by
  have hs := Call.add_spec a gaps k c st
  rcases hs.2.2.2 with ⟨hok, hign, hacc, -⟩ | ⟨hign, hacc, -⟩
  · have := (Call.add_idx a gaps k c st hi).2
    rw [hacc]
    simp; omega
  · rw [hacc]
    apply Nat.add_le_add_right
    have hg := k.s.hw.gap_idx a (gaps k.n) hi
    have hgf := k.s.hw.gap_fields a (gaps k.n)
    have hstart : ∀ (b : Bool) (q : Queue),
        (if b then { q with running := true } else q).queueEntries = q.queueEntries := by
      intro b q; cases b <;> rfl
    change (if _ then _ else _ : Queue).queueEntries ≤ _
    rw [hstart, Queue.add_same a _ c st hg.1 (fun h => hgf.2.1.trans (hign h))]
    exact hg.2

/-- Between two points of a call without hardware progress, the number of pending commands grows by what
is accepted. -/
structure Cnt (a : ArchId) (gaps : Nat → Gap) (k k' : Call) : Prop where
  idx : k.s.hw.q.IdxOK a → k'.s.hw.q.IdxOK a
  le : k.s.hw.q.IdxOK a →
    k'.s.hw.q.queueEntries + k.accepted.length ≤ k.s.hw.q.queueEntries + k'.accepted.length
  count : (∀ n, (gaps n).advances = 0) → k.s.hw.q.IdxOK a →
    k'.s.hw.q.queueEntries + k.accepted.length = k.s.hw.q.queueEntries + k'.accepted.length

theorem Cnt.refl (a : ArchId) (gaps : Nat → Gap) (k : Call) : Cnt a gaps k k := ⟨id, fun _ => Nat.le_refl _, fun _ _ => rfl⟩

theorem Cnt.trans {a : ArchId} {gaps : Nat → Gap} {k k' k'' : Call} (h : Cnt a gaps k k') (h' : Cnt a gaps k' k'') :
    Cnt a gaps k k'' :=
  ⟨fun hi => h'.idx (h.idx hi), fun hi => by
    have h1 := h.le hi
    have h2 := h'.le (h.idx hi)
    omega, fun h0 hi => by
    have h1 := h.count h0 hi
    have h2 := h'.count h0 (h.idx hi)
    omega⟩

theorem Cnt.add (a : ArchId) (gaps : Nat → Gap) (k : Call) (c : Cmd) (st : Bool) :
    Cnt a gaps k (k.add a gaps c st).1 :=
  ⟨fun hi => (Call.add_idx a gaps k c st hi).1, fun hi => Call.add_le a gaps k c st hi, fun h0 hi => Call.add_count a gaps k c st hi (h0 _)⟩

theorem Cnt.addNull (a : ArchId) (gaps : Nat → Gap) (k : Call) (st : Bool) :
    Cnt a gaps k (k.addNull a gaps st).1 := by
  have hs := Call.addNull_spec a gaps k st
  refine ⟨fun hi => (hs.2.2.2.2.2 hi).1, fun hi => by
    rw [hs.2.2.2.1]
    exact Nat.add_le_add_right (hs.2.2.2.2.2 hi).2 _, fun h0 hi => ?_⟩
  rw [hs.2.2.2.1]
  congr 1
  have hgap : (k.s.hw.gap a (gaps k.n)).q.queueEntries = k.s.hw.q.queueEntries := by
    unfold Hw.gap; rw [h0]; rfl
  have hstart : ∀ (b : Bool) (q : Queue),
      (if b then { q with running := true } else q).queueEntries = q.queueEntries := by
    intro b q; cases b <;> rfl
  change (if _ then _ else _ : Queue).queueEntries = _
  rw [hstart, Queue.addNull_q, hgap]

theorem Cnt.addPauses (a : ArchId) (gaps : Nat → Gap) (u : Bool) :
    ∀ (ts : List Nat) (k : Call), Cnt a gaps k (k.addPauses a gaps u ts)
  | [], k => Cnt.refl a gaps k
  | _ :: ts, k => (Cnt.add a gaps k _ false).trans (Cnt.addPauses a gaps u ts _)

theorem Cnt.autoEnable (a : ArchId) (ext : ExtPin) (gaps : Nat → Gap) (k : Call) (c : Cmd) (st : Bool) :
    Cnt a gaps k (k.autoEnable a ext gaps c st).1 := by
  unfold Call.autoEnable
  dsimp only
  have hw : ∀ w, Cnt a gaps k { k with writes := w } := fun w => ⟨id, fun _ => Nat.le_refl _, fun _ _ => rfl⟩
  split
  · split
    · exact hw _
    · split
      · exact (hw _).trans ((Cnt.addPauses a gaps _ _ _).trans (Cnt.addNull a gaps _ st))
      · exact hw _
  · exact Cnt.refl a gaps k

theorem Cnt.dirChange (a : ArchId) (gaps : Nat → Gap) (k : Call) (c : Cmd) (st : Bool) :
    Cnt a gaps k (k.dirChange a gaps c st).1 := by
  have hg : Cnt a gaps k { k with s := { k.s with hw := k.s.hw.gap a (gaps k.n) }, n := k.n + 1 } := by
    refine ⟨fun hi => (k.s.hw.gap_idx a (gaps k.n) hi).1, fun hi => Nat.add_le_add_right (k.s.hw.gap_idx a (gaps k.n) hi).2 _,
      fun h0 _ => ?_⟩
    have hgap : (k.s.hw.gap a (gaps k.n)).q.queueEntries = k.s.hw.q.queueEntries := by
      unfold Hw.gap; rw [h0]; rfl
    change (k.s.hw.gap a (gaps k.n)).q.queueEntries + _ = _
    rw [hgap]
  unfold Call.dirChange
  dsimp only
  split
  · split
    · split
      · exact hg
      · split
        · exact hg.trans (Cnt.add a gaps _ _ st)
        · exact hg.trans ((Cnt.add a gaps _ _ st).trans (Cnt.add a gaps _ _ st))
    · split
      · exact Cnt.add a gaps _ _ st
      · exact Cnt.refl a gaps k
  · exact Cnt.refl a gaps k

theorem Cnt.final (a : ArchId) (gaps : Nat → Gap) (k : Call) (c : Cmd) (st : Bool) :
    Cnt a gaps k (k.final a gaps c st).1 := by
  unfold Call.final
  dsimp only
  have h := Cnt.add a gaps k c st
  split
  · exact ⟨h.idx, h.le, h.count⟩
  · exact h

/-- `addQueueEntry`: the indices stay good, and without hardware progress the number of pending commands
grows by what is accepted. -/
theorem addQueueEntry_cnt (a : ArchId) (ext : ExtPin) (gaps : Nat → Gap) (busy : Bool) (s : Stepper)
    (c : Cmd) (st : Bool) : Cnt a gaps ⟨s, 0, [], []⟩ (s.addQueueEntry a ext gaps busy c st).1 := by
  unfold addQueueEntry
  dsimp only
  split
  · exact Cnt.refl a gaps _
  split
  · exact Cnt.refl a gaps _
  split
  · exact Cnt.refl a gaps _
  have h1 := Cnt.autoEnable a ext gaps ⟨s, 0, [], []⟩ c st
  split
  · rename_i k code hk; rw [hk] at h1; exact h1
  · rename_i k hk; rw [hk] at h1
    have h2 := Cnt.dirChange a gaps k c st
    split
    · rename_i k' code hk'; rw [hk'] at h2; exact h1.trans h2
    · rename_i k' hk'; rw [hk'] at h2
      exact h1.trans (h2.trans (Cnt.final a gaps k' c st))

/-- Everything but the last command accepted by `addQueueEntry` is a pause. -/
def AllPauses (k k' : Call) : Prop := ∃ ps : List Cmd, k'.accepted = k.accepted ++ ps ∧ ∀ p ∈ ps, p.steps = 0

theorem AllPauses.refl (k : Call) : AllPauses k k := ⟨[], by simp, by simp⟩

theorem AllPauses.trans {k k' k'' : Call} (h : AllPauses k k') (h' : AllPauses k' k'') : AllPauses k k'' := by
  obtain ⟨ps, h1, h2⟩ := h
  obtain ⟨qs, h3, h4⟩ := h'
  refine ⟨ps ++ qs, by rw [h3, h1, List.append_assoc], ?_⟩
  intro p hp
  rcases List.mem_append.mp hp with hp | hp
  · exact h2 p hp
  · exact h4 p hp

theorem AllPauses.of_eq {k k' : Call} (h : k'.accepted = k.accepted) : AllPauses k k' :=
  ⟨[], by simp [h], by simp⟩

theorem AllPauses.add (a : ArchId) (gaps : Nat → Gap) (k : Call) (c : Cmd) (st : Bool) (hc : c.steps = 0) :
    AllPauses k (k.add a gaps c st).1 := by
  rcases (Call.add_spec a gaps k c st).2.2.2 with ⟨-, -, h, -⟩ | ⟨-, h, -⟩
  · exact ⟨[c], h, by simp [hc]⟩
  · exact AllPauses.of_eq h

theorem AllPauses.addPauses (a : ArchId) (gaps : Nat → Gap) (u : Bool) :
    ∀ (ts : List Nat) (k : Call), AllPauses k (k.addPauses a gaps u ts)
  | [], k => AllPauses.refl k
  | _ :: ts, k => (AllPauses.add a gaps k _ false rfl).trans (AllPauses.addPauses a gaps u ts _)

theorem AllPauses.autoEnable (a : ArchId) (ext : ExtPin) (gaps : Nat → Gap) (k : Call) (c : Cmd) (st : Bool) :
    AllPauses k (k.autoEnable a ext gaps c st).1 := by
  unfold Call.autoEnable
  dsimp only
  have hw : ∀ w, AllPauses k { k with writes := w } := fun w => AllPauses.of_eq rfl
  split
  · split
    · exact AllPauses.of_eq rfl
    · split
      · exact (hw _).trans ((AllPauses.addPauses a gaps _ _ _).trans
          (AllPauses.of_eq (Call.addNull_spec a gaps _ st).2.2.2.1))
      · exact AllPauses.of_eq rfl
  · exact AllPauses.refl k

theorem AllPauses.dirChange (a : ArchId) (gaps : Nat → Gap) (k : Call) (c : Cmd) (st : Bool) :
    AllPauses k (k.dirChange a gaps c st).1 := by
  have hg : AllPauses k { k with s := { k.s with hw := k.s.hw.gap a (gaps k.n) }, n := k.n + 1 } :=
    AllPauses.of_eq rfl
  unfold Call.dirChange
  dsimp only
  split
  · split
    · split
      · exact hg
      · split
        · exact hg.trans (AllPauses.add a gaps _ _ st rfl)
        · exact hg.trans ((AllPauses.add a gaps _ _ st rfl).trans (AllPauses.add a gaps _ _ st rfl))
    · split
      · exact AllPauses.add a gaps _ _ st rfl
      · exact AllPauses.refl k
  · exact AllPauses.refl k

theorem code_ne {x code : Int} (h : (if x ≠ AQE_OK then some x else none) = some code) : code ≠ AQE_OK := by
  split at h
  · rename_i h'; cases h; exact h'
  · cases h

theorem autoEnable_code (a : ArchId) (ext : ExtPin) (gaps : Nat → Gap) (k : Call) (c : Cmd) (st : Bool) (code : Int) :
    (k.autoEnable a ext gaps c st).2 = some code → code ≠ AQE_OK := by
  unfold Call.autoEnable
  dsimp only
  split
  · split
    · intro h; cases h; simp [AQE_OK, AQE_WAIT_FOR_ENABLE_PIN_ACTIVE]
    · split
      · exact code_ne
      · intro h; cases h
  · intro h; cases h

theorem dirChange_code (a : ArchId) (gaps : Nat → Gap) (k : Call) (c : Cmd) (st : Bool) (code : Int) :
    (k.dirChange a gaps c st).2 = some code → code ≠ AQE_OK := by
  unfold Call.dirChange
  dsimp only
  split
  · split
    · split
      · intro h; cases h; simp [AQE_OK, AQE_QUEUE_FULL]
      · split
        · rename_i h; intro h'; cases h'; exact h
        · exact code_ne
    · split
      · exact code_ne
      · intro h; cases h
  · intro h; cases h

/-- With `AQE_OK` the queue accepted the command itself. -/
theorem addQueueEntry_final (a : ArchId) (ext : ExtPin) (gaps : Nat → Gap) (busy : Bool) (s : Stepper)
    (c : Cmd) (st : Bool) (h : (s.addQueueEntry a ext gaps busy c st).2 = AQE_OK) :
    ∃ k : Call, (k.add a gaps c st).2 = AQE_OK := by
  unfold addQueueEntry at h
  dsimp only at h
  split at h
  · exact absurd h (by dsimp only; decide)
  split at h
  · exact absurd h (by dsimp only; decide)
  split at h
  · exact absurd h (by dsimp only; decide)
  split at h
  · rename_i k code hk
    exact absurd h (autoEnable_code a ext gaps ⟨s, 0, [], []⟩ c st code (by rw [hk]))
  · rename_i k hk
    split at h
    · rename_i k' code hk'
      exact absurd h (dirChange_code a gaps k c st code (by rw [hk']))
    · rename_i k' hk'
      refine ⟨k', ?_⟩
      rw [← h]
      unfold Call.final; dsimp only; split <;> rfl

/-- What `addQueueEntry` accepts: pauses, followed by the command if and only if the result is OK (and
commands are not ignored). -/
theorem addQueueEntry_accepted (a : ArchId) (ext : ExtPin) (gaps : Nat → Gap) (busy : Bool) (s : Stepper)
    (c : Cmd) (st : Bool) (hign : s.hw.q.ignoreCommands = false) :
    ∃ ps : List Cmd, (∀ p ∈ ps, p.steps = 0) ∧
      (((s.addQueueEntry a ext gaps busy c st).2 = AQE_OK ∧
          (s.addQueueEntry a ext gaps busy c st).1.accepted = ps ++ [c]) ∨
       ((s.addQueueEntry a ext gaps busy c st).2 ≠ AQE_OK ∧
          (s.addQueueEntry a ext gaps busy c st).1.accepted = ps)) := by
  unfold addQueueEntry
  dsimp only
  split
  · exact ⟨[], by simp, Or.inr ⟨by simp [AQE_OK, AQE_ERROR_TICKS_TOO_LOW], rfl⟩⟩
  split
  · exact ⟨[], by simp, Or.inr ⟨by simp [AQE_OK, AQE_DIR_PIN_IS_BUSY], rfl⟩⟩
  split
  · exact ⟨[], by simp, Or.inr ⟨by simp [AQE_OK, AQE_ERROR_NO_DIR_PIN_TO_TOGGLE], rfl⟩⟩
  have h1 := AllPauses.autoEnable a ext gaps ⟨s, 0, [], []⟩ c st
  have f1 := (autoEnable_frame a ext gaps ⟨s, 0, [], []⟩ c st).1
  have e1 : ∀ code, (Call.autoEnable a ext gaps ⟨s, 0, [], []⟩ c st).2 = some code → code ≠ AQE_OK :=
    fun code h => autoEnable_code a ext gaps _ c st code h
  split
  · rename_i k code hk
    rw [hk] at h1 e1
    obtain ⟨ps, h, hp⟩ := h1
    exact ⟨ps, hp, Or.inr ⟨e1 code rfl, by simpa using h⟩⟩
  · rename_i k hk
    rw [hk] at h1 f1
    have h2 := AllPauses.dirChange a gaps k c st
    have f2 := (dirChange_frame a gaps k c st).1
    have e2 : ∀ code, (k.dirChange a gaps c st).2 = some code → code ≠ AQE_OK :=
      fun code h => dirChange_code a gaps k c st code h
    split
    · rename_i k' code hk'
      rw [hk'] at h2 e2
      obtain ⟨ps, h, hp⟩ := h1.trans h2
      exact ⟨ps, hp, Or.inr ⟨e2 code rfl, by simpa using h⟩⟩
    · rename_i k' hk'
      rw [hk'] at h2 f2
      obtain ⟨ps, h, hp⟩ := h1.trans h2
      refine ⟨ps, hp, ?_⟩
      have hign' : k'.s.hw.q.ignoreCommands = false := (f2.ign.trans f1.ign).trans hign
      have hacc : (k'.final a gaps c st).1.accepted = (k'.add a gaps c st).1.accepted := by
        unfold Call.final; dsimp only; split <;> rfl
      have hcode : (k'.final a gaps c st).2 = (k'.add a gaps c st).2 := by
        unfold Call.final; dsimp only; split <;> rfl
      rw [hacc, hcode]
      rcases (Call.add_spec a gaps k' c st).2.2.2 with ⟨hok, -, h', -⟩ | ⟨hok, h', -⟩
      · left; exact ⟨hok, by rw [h', h]; simp⟩
      · right
        refine ⟨fun hx => ?_, by rw [h', h]; simp⟩
        rw [hign'] at hok
        exact absurd (hok hx) (by simp)

end FAS
