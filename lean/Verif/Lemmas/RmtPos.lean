import Verif.Lemmas.RmtRun
import Verif.Lemmas.QPos

/-! The position reported by the RMT backends. -/

namespace FAS

/-- start positions (16 bits) of the commands, from position `B` on -/
def PR : Int → List Nat → List Cmd → Prop
  | _, [], [] => True
  | B, p :: ps, c :: cs => (p : Int) = B % 65536 ∧ c.Valid ∧ PR (B + c.signed) ps cs
  | _, _, _ => False

theorem PR.length : ∀ {ps : List Nat} {cs : List Cmd} {B : Int}, PR B ps cs → ps.length = cs.length
  | [], [], _, _ => rfl
  | _ :: _, _ :: _, _, h => by simp only [List.length_cons, PR.length h.2.2]
  | [], _ :: _, _, h => h.elim
  | _ :: _, [], _, h => h.elim

theorem PR.valid : ∀ {ps : List Nat} {cs : List Cmd} {B : Int}, PR B ps cs → ∀ c ∈ cs, c.Valid
  | [], [], _, _ => by simp
  | _ :: _, d :: _, _, h => by
    intro c hc
    rcases List.mem_cons.mp hc with hc | hc
    · rw [hc]; exact h.2.1
    · exact PR.valid h.2.2 c hc
  | [], _ :: _, _, h => h.elim
  | _ :: _, [], _, h => h.elim

theorem PR.snoc : ∀ {ps : List Nat} {cs : List Cmd} {B : Int} (p : Nat) (c : Cmd), PR B ps cs → (p : Int) = (B + signedSum cs) % 65536 → c.Valid →
    PR B (ps ++ [p]) (cs ++ [c])
  | [], [], B, p, c, _, hp, hc => ⟨by simpa [signedSum] using hp, hc, trivial⟩
  | _ :: _, d :: ds, B, p, c, h, hp, hc => by
    refine ⟨h.1, h.2.1, PR.snoc p c h.2.2 ?_ hc⟩
    rw [hp]
    simp only [signedSum]
    congr 1
    omega
  | [], _ :: _, _, _, _, h, _, _ => h.elim
  | _ :: _, [], _, _, _, h, _, _ => h.elim

theorem PR.drop : ∀ (k : Nat) {ps : List Nat} {cs : List Cmd} {B : Int}, PR B ps cs → PR (B + signedSum (cs.take k)) (ps.drop k) (cs.drop k)
  | 0, ps, cs, B, h => by simpa [signedSum] using h
  | k + 1, [], [], B, _ => by simp [PR]
  | k + 1, _ :: _, d :: ds, B, h => by
    have := PR.drop k h.2.2
    simp only [List.take_succ_cons, signedSum, List.drop_succ_cons]
    rw [← Int.add_assoc]
    exact this
  | _ + 1, [], _ :: _, _, h => h.elim
  | _ + 1, _ :: _, [], _, h => h.elim

/-- what the encoder does with the queue: some of the first commands are removed -/
structure QDrop (q q' : Queue) : Prop where
  idx : q'.IdxOK .esp32
  suf : ∃ k, (q'.pending .esp32).map Entry.pos16 = ((q.pending .esp32).map Entry.pos16).drop k
  pos : q'.qend.pos = q.qend.pos
  ign : q'.ignoreCommands = q.ignoreCommands
  ent : q'.queueEntries ≤ q.queueEntries
  slot : q.queueEntries < ArchId.esp32.queueLen → q'.slot .esp32 q'.nextWriteIdx = q.slot .esp32 q.nextWriteIdx

theorem QDrop.refl {q : Queue} (h : q.IdxOK .esp32) : QDrop q q := ⟨h, ⟨0, rfl⟩, rfl, rfl, Nat.le_refl _, fun _ => rfl⟩

theorem QDrop.trans {q q' q'' : Queue} (h : QDrop q q') (h' : QDrop q' q'') : QDrop q q'' := by
  obtain ⟨k, hk⟩ := h.suf
  obtain ⟨k', hk'⟩ := h'.suf
  refine ⟨h'.idx, ⟨k + k', by rw [hk', hk, List.drop_drop]⟩, h'.pos.trans h.pos, h'.ign.trans h.ign, Nat.le_trans h'.ent h.ent, fun hl => ?_⟩
  rw [h'.slot (by have := h.ent; omega), h.slot hl]

theorem QDrop.of_eq {q q' : Queue} (h : q.IdxOK .esp32) (he : q'.entry = q.entry) (hr : q'.readIdx = q.readIdx) (hw : q'.nextWriteIdx = q.nextWriteIdx)
    (hp : q'.qend.pos = q.qend.pos) (hi : q'.ignoreCommands = q.ignoreCommands) : QDrop q q' := by
  have hc := Queue.pending_congr .esp32 q q' he hr hw
  refine ⟨hc.2 h, ⟨0, by rw [hc.1]; rfl⟩, hp, hi, ?_, fun _ => ?_⟩
  · unfold Queue.queueEntries; rw [hr, hw]; exact Nat.le_refl _
  · unfold Queue.slot; rw [he, hw]

/-- modification of the command in process -/
theorem QDrop.modify {q q' : Queue} (f : Entry → Entry) (hf : ∀ e, (f e).pos16 = e.pos16) (h : q.IdxOK .esp32) (hn : q.queueEntries ≠ 0)
    (he : q'.entry = fun j => if j = q.readIdx % ArchId.esp32.queueLen then f (q.entry (q.readIdx % ArchId.esp32.queueLen)) else q.entry j)
    (hr : q'.readIdx = q.readIdx) (hw : q'.nextWriteIdx = q.nextWriteIdx) (hp : q'.qend.pos = q.qend.pos) (hi : q'.ignoreCommands = q.ignoreCommands) : QDrop q q' := by
  obtain ⟨h1, h2⟩ := Queue.pending_modify_head .esp32 q f h hn q' he hr hw
  refine ⟨h2, ⟨0, ?_⟩, hp, hi, ?_, fun hl => ?_⟩
  · rw [h1, (Queue.pending_cons .esp32 q h hn).1, List.map_cons, hf]; rfl
  · unfold Queue.queueEntries; rw [hr, hw]; exact Nat.le_refl _
  · have := slot_write_ne (a := .esp32) h hn hl
    rw [hw]
    unfold Queue.slot
    rw [he]
    dsimp only
    rw [if_neg this]

theorem QDrop.toggle {q : Queue} (h : q.IdxOK .esp32) (hn : q.queueEntries ≠ 0) : QDrop q (Rmt.toggleHead q) := by
  unfold Rmt.toggleHead
  dsimp only
  split
  · exact QDrop.modify (fun e => { e with toggleDir := false }) (fun _ => rfl) h hn rfl rfl rfl rfl rfl
  · exact QDrop.refl h

theorem QDrop.finish {q : Queue} (rest : Nat) (h : q.IdxOK .esp32) (hn : q.queueEntries ≠ 0) : QDrop q (Rmt.finishHead q rest) := by
  unfold Rmt.finishHead
  dsimp only
  split
  · split
    · exact QDrop.refl h
    · obtain ⟨h1, h2, h3⟩ := Queue.pending_cons .esp32 q h hn
      exact ⟨h2, ⟨1, by rw [h1]; rfl⟩, rfl, rfl, by omega, fun _ => rfl⟩
  · exact QDrop.modify (fun e => { e with steps := rest }) (fun _ => rfl) h hn rfl rfl rfl rfl rfl

theorem QDrop.fill (v : RmtVer) {s : Rmt} (h : s.q.IdxOK .esp32) : QDrop s.q (s.fill v).q := by
  unfold Rmt.fill
  split
  · exact QDrop.refl h
  split
  · exact QDrop.refl h
  next hne =>
    have hn : s.q.queueEntries ≠ 0 := fun hx => hne ((Queue.empty_iff .esp32 s.q h).mpr hx)
    dsimp only
    split
    · exact QDrop.refl h
    · have h1 := QDrop.toggle h hn
      have hn1 : (Rmt.toggleHead s.q).queueEntries ≠ 0 := by
        have := toggleHead_frame s.q
        unfold Queue.queueEntries at *
        rw [this.1, this.2.1]; exact hn
      exact h1.trans (QDrop.finish _ h1.idx hn1)

theorem QDrop.then_fill (v : RmtVer) {q : Queue} {s : Rmt} (h : QDrop q s.q) : QDrop q (s.fill v).q := h.trans (QDrop.fill v h.idx)

theorem QDrop.start (v : RmtVer) {s : Rmt} (h : s.q.IdxOK .esp32) : QDrop s.q (s.startQueue v).q := by
  unfold Rmt.startQueue
  split
  · split
    · exact QDrop.refl h
    · exact QDrop.of_eq h rfl rfl rfl rfl rfl
  next hne =>
    have hn : s.q.queueEntries ≠ 0 := fun hx => hne ((Queue.empty_iff .esp32 s.q h).mpr hx)
    dsimp only
    have h1 := QDrop.toggle h hn
    have h2 : QDrop s.q { Rmt.toggleHead s.q with running := true } := h1.trans (QDrop.of_eq h1.idx rfl rfl rfl rfl rfl)
    split
    · exact h2
    · exact QDrop.then_fill v (QDrop.then_fill v h2)

/-- `n` commands have been handed over completely -/
structure RPI (p0 : Int) (s : Rmt) (acc : List Cmd) : Prop where
  idx : s.q.IdxOK .esp32
  ign : s.q.ignoreCommands = false
  pos : s.q.qend.pos = i32 (p0 + signedSum acc)
  rel : ∃ dn pend, acc = dn ++ pend ∧ PR (p0 + signedSum dn) ((s.q.pending .esp32).map Entry.pos16) pend
  prep : ∀ next c st, s.pc = .prepared next c st → s.q.queueEntries < ArchId.esp32.queueLen ∧ c.Valid ∧ next.pos = i32 (p0 + signedSum acc + c.signed) ∧
    ((s.q.slot .esp32 s.q.nextWriteIdx).pos16 : Int) = (p0 + signedSum acc) % 65536

theorem RPI.drop {p0 acc} {s s' : Rmt} (h : RPI p0 s acc) (hd : QDrop s.q s'.q) (hpc : s'.pc = s.pc ∨ ∀ n c st, s'.pc ≠ .prepared n c st) : RPI p0 s' acc := by
  refine { idx := hd.idx, ign := hd.ign.trans h.ign, pos := hd.pos.trans h.pos, rel := ?_, prep := ?_ }
  · obtain ⟨dn, pend, h1, h2⟩ := h.rel
    obtain ⟨k, hk⟩ := hd.suf
    refine ⟨dn ++ pend.take k, pend.drop k, by rw [List.append_assoc, List.take_append_drop, h1], ?_⟩
    rw [hk, signedSum_append, ← Int.add_assoc]
    exact h2.drop k
  · intro next c st hx
    rcases hpc with hpc | hpc
    · rw [hpc] at hx
      obtain ⟨p1, p2, p3, p4⟩ := h.prep next c st hx
      exact ⟨Nat.lt_of_le_of_lt hd.ent p1, p2, p3, by rw [hd.slot p1]; exact p4⟩
    · exact absurd hx (hpc next c st)

theorem Rmt.start_pc (v : RmtVer) (s : Rmt) : (s.startQueue v).pc = s.pc := by
  unfold Rmt.startQueue
  split
  · split <;> rfl
  · dsimp only
    split
    · rfl
    · exact (Rmt.fill_tx v _).2.1.trans (Rmt.fill_tx v _).2.1

theorem RPI.start {v p0 acc} {s : Rmt} (h : RPI p0 s acc) : RPI p0 (s.startQueue v) acc := h.drop (QDrop.start v h.idx) (Or.inl (Rmt.start_pc v s))

theorem RPI.step {v p0 acc} {s : Rmt} (h : RPI p0 s acc) (ev : Rmt.Ev) (hp : ev.Basic) : RPI p0 (s.step v ev) (acc ++ s.accepts ev) := by
  have hsync : ∀ {t : Rmt} {acc : List Cmd}, RPI p0 t acc → RPI p0 t.sync acc :=
    fun ht => ht.drop (QDrop.of_eq ht.idx rfl rfl rfl rfl rfl) (Or.inl rfl)
  have hleave : RPI p0 { s with pc := .idle } acc := h.drop (QDrop.refl h.idx) (Or.inr (fun _ _ _ hx => nomatch hx))
  unfold Rmt.step
  apply hsync
  cases ev with
  | fill =>
    simp only [Rmt.accepts, List.append_nil]
    split
    · exact h.drop (QDrop.fill v h.idx) (Or.inl (Rmt.fill_tx v s).2.1)
    · exact h
  | txDone =>
    simp only [Rmt.accepts, List.append_nil]
    split
    · exact h.drop (QDrop.of_eq h.idx rfl rfl rfl rfl rfl) (Or.inl rfl)
    · exact h
  | addBegin c st =>
    simp only [Rmt.accepts, List.append_nil]
    cases hpc : s.pc with
    | idle =>
      simp only
      by_cases h1 : (!s.q.ready) = true
      · rw [if_pos h1]; exact h
      rw [if_neg h1]
      by_cases h2 : s.q.isQueueFull .esp32 = true
      · rw [if_pos h2]; exact h
      rw [if_neg h2]
      by_cases h3 : Queue.commandRateTicks c < ArchId.esp32.minCmdTicks
      · rw [if_pos h3]; exact h
      rw [if_neg h3]
      have h4 := h.idx.2.2
      have h5 : s.q.queueEntries ≠ ArchId.esp32.queueLen := by
        intro hx
        apply h2
        unfold Queue.isQueueFull
        rw [hx]
        simp
      obtain ⟨e, pe, pr, pw, prun, pready, pign, ppos, pdp, pdh, pms, pnpos, pncu, es, ecu, em, eh, et, ep⟩ := prepare_spec .esp32 s.q c
      have hpu := Queue.pending_write_unused .esp32 s.q e h.idx (by omega) (s.q.prepare .esp32 c).1 pe pr pw
      have hsl : (s.q.prepare .esp32 c).1.slot .esp32 s.q.nextWriteIdx = e := by simp [Queue.slot, pe]
      have hpe : (s.q.prepare .esp32 c).1.queueEntries = s.q.queueEntries := by simp only [Queue.queueEntries, pr, pw]
      refine { idx := hpu.2, ign := pign.trans h.ign, pos := ppos.trans h.pos, rel := ?_, prep := ?_ }
      · change ∃ dn pend, acc = dn ++ pend ∧ PR (p0 + signedSum dn) (((s.q.prepare .esp32 c).1.pending .esp32).map Entry.pos16) pend
        rw [hpu.1]; exact h.rel
      · intro next c' st' heq
        injection heq with h6 h7 h8
        subst h6 h7 h8
        refine ⟨by rw [hpe]; omega, hp, ?_, ?_⟩
        · rw [pnpos]
          unfold Queue.nextPos
          rw [h.pos]
          exact i32_i32_add _ _
        · rw [pw, hsl, ep, h.pos, if_pos (by decide)]
          unfold i32; omega
    | prepared n c' st' => exact h
    | committed st' => exact h
  | addCommit =>
    cases hpc : s.pc with
    | idle => simp only [Rmt.accepts, hpc, List.append_nil]; exact h
    | committed st => simp only [Rmt.accepts, hpc, List.append_nil]; exact h
    | prepared next c st =>
      simp only [Rmt.accepts, hpc, h.ign]
      by_cases hrd : s.q.ready = true
      · have e : (if (s.q.ready && !false) = true then [c] else []) = [c] := by rw [hrd]; rfl
        rw [e, commit_ok s.q next hrd h.ign]
        obtain ⟨p1, p2, p3, p4⟩ := h.prep next c st hpc
        obtain ⟨hpp, hidx⟩ := pending_commit (a := .esp32) next h.idx p1
        refine { idx := hidx, ign := h.ign, pos := ?_, rel := ?_, prep := (fun _ _ _ hx => nomatch hx) }
        · change next.pos = _
          rw [p3, signedSum_append]
          simp only [signedSum]
          congr 1; omega
        · obtain ⟨dn, pend, h1, h2⟩ := h.rel
          refine ⟨dn, pend ++ [c], by rw [h1, List.append_assoc], ?_⟩
          change PR _ ((({ s.q with nextWriteIdx := u8 (s.q.nextWriteIdx + 1), qend := next } : Queue).pending .esp32).map Entry.pos16) _
          rw [hpp, List.map_append, List.map_cons, List.map_nil]
          refine h2.snoc _ c ?_ p2
          rw [p4, h1, signedSum_append]
          congr 1; omega
      · have hrd : s.q.ready = false := by simpa using hrd
        have hc : s.q.commit next = (s.q, false) := by simp [Queue.commit, h.ign, hrd]
        rw [hc, hrd]
        simp only [Bool.false_and, Bool.false_eq_true, if_false, List.append_nil]
        exact hleave
  | addFinish =>
    simp only [Rmt.accepts, List.append_nil]
    cases hpc : s.pc with
    | idle => exact h
    | prepared n c st => exact h
    | committed st =>
      simp only
      split
      · exact hleave.start
      · exact hleave
  | startNull =>
    simp only [Rmt.accepts, List.append_nil]
    cases hpc : s.pc with
    | prepared n c st => exact h
    | committed st => exact h
    | idle =>
      simp only
      split
      · exact h.start
      · exact h
  | forceStop p => exact hp.elim
  | clearIgnore =>
    simp only [Rmt.accepts, List.append_nil]
    exact h.drop (QDrop.of_eq h.idx rfl rfl rfl rfl h.ign.symm) (Or.inl rfl)

theorem RPI.run {v p0} : ∀ (evs : List Rmt.Ev) {s acc}, RPI p0 s acc → (∀ ev ∈ evs, ev.Basic) →
    RPI p0 (Rmt.track v s acc evs).1 (Rmt.track v s acc evs).2
  | [], _, _, h, _ => h
  | ev :: evs, _, _, h, hp => RPI.run evs (h.step ev (hp ev (by simp))) (fun e he => hp e (List.mem_cons_of_mem _ he))

theorem RPI.idle {s : Rmt} (h : s.Idle) (p0 : Int) (hpos : s.q.qend.pos = i32 p0) : RPI p0 s [] := by
  have hn : s.q.queueEntries = 0 := by
    have := h.idx
    unfold Queue.queueEntries subU8
    omega
  have hpn : s.q.pending .esp32 = [] := (Queue.pending_nil_iff _ _).mpr hn
  refine { idx := ⟨h.idx.2, by have := h.idx; omega, by rw [hn]; omega⟩, ign := h.ign, pos := ?_, rel := ⟨[], [], rfl, ?_⟩, prep := ?_ }
  · simpa [signedSum] using hpos
  · rw [hpn]; trivial
  · intro n c st hx; rw [h.pc] at hx; cases hx

/-- the position reported is the start of the first command which has not been handed over completely -/
theorem RPI.position {p0 acc dn pend} {s : Rmt} (h : RPI p0 s acc) (h1 : acc = dn ++ pend) (hl : (s.q.pending .esp32).length = pend.length) :
    s.q.getCurrentPosition .esp32 0 = i32 (p0 + signedSum dn) := by
  obtain ⟨dn', pend', h1', hr⟩ := h.rel
  have hlen := hr.length
  rw [List.length_map, hl] at hlen
  rw [h1] at h1'
  obtain ⟨rfl, rfl⟩ := List.append_inj' h1' hlen
  have hU : (toU32 s.q.qend.pos : Int) = (p0 + signedSum acc) % 4294967296 := by
    rw [h.pos]; unfold toU32 i32; omega
  unfold Queue.getCurrentPosition
  dsimp only
  by_cases he : s.q.readIdx = s.q.nextWriteIdx
  · rw [if_pos he]
    have hp0 : s.q.pending .esp32 = [] := (Queue.pending_nil_iff _ _).mpr ((Queue.empty_iff .esp32 s.q h.idx).mp he)
    rw [hp0] at hl
    have : pend = [] := List.length_eq_zero_iff.mp hl.symm
    rw [this, List.append_nil] at h1
    rw [hU, h1]
    unfold i32; omega
  rw [if_neg he]
  have hn : s.q.queueEntries ≠ 0 := fun hx => he ((Queue.empty_iff .esp32 s.q h.idx).mpr hx)
  have hv := signedSum_le pend hr.valid
  have hle := h.idx.2.2
  rw [Queue.pending_length] at hl
  have hql : ArchId.esp32.queueLen = 32 := rfl
  rw [(Queue.pending_cons .esp32 s.q h.idx hn).1, List.map_cons] at hr
  have he16 : ((s.q.slot .esp32 s.q.readIdx).pos16 : Int) = (p0 + signedSum dn) % 65536 := by
    cases pend with
    | nil => exact hr.elim
    | cons c cs => exact hr.1
  have hrec := reconstruct (p0 + signedSum acc) (p0 + signedSum dn) (s.q.slot .esp32 s.q.readIdx).pos16 (toU32 s.q.qend.pos)
    (by rw [h1, signedSum_append]; omega) (by rw [h1, signedSum_append]; omega) he16 hU 0
  simp only [Int.add_zero] at hrec
  have hz : (if (s.q.slot .esp32 s.q.readIdx).countUp = true then (if ArchId.esp32.startPosField = true then ((0 : Nat) : Int) else -((s.q.slot .esp32 s.q.readIdx).steps : Int))
      else (if ArchId.esp32.startPosField = true then -((0 : Nat) : Int) else ((s.q.slot .esp32 s.q.readIdx).steps : Int))) = 0 := by
    have : ArchId.esp32.startPosField = true := rfl
    rw [if_pos this, if_pos this]
    split <;> rfl
  split
  · rw [hz, Int.add_zero]; exact hrec
  · exact hrec

end FAS
