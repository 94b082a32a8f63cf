import Verif.Lemmas.QueueReads
import Verif.Props.Queue

/-!
# C96: queries of the queue while it is processed
-/

namespace FAS

open Spec

theorem entryTicks_le {e : Entry} (h1 : e.ticks < 65536) (h2 : e.steps < 256) : entryTicks e ≤ 65535 * 255 := by
  unfold entryTicks
  exact Nat.mul_le_mul (by omega) (by omega)

/-- What an iteration of `ticksInQueue()` adds. -/
def ticksRead (a : ArchId) (q0 : Queue) (w : Nat → Queue) (t k : Nat) : Nat :=
  (entryNo a q0 (w t) k).ticks +
    (if 1 < (entryNo a q0 (w (t + 1)) k).steps then (entryNo a q0 (w (t + 2)) k).ticks * ((entryNo a q0 (w (t + 1)) k).steps - 1) else 0)

/-- What an iteration of `hasTicksInQueue()` subtracts. -/
def ticksTaken (a : ArchId) (q0 : Queue) (w : Nat → Queue) (t k : Nat) : Nat :=
  (entryNo a q0 (w t) k).ticks * (if 1 < (entryNo a q0 (w (t + 1)) k).steps then (entryNo a q0 (w (t + 2)) k).steps else 1)

theorem ticksReads_ge (a : ArchId) (w : Nat → Queue) (wp : Nat) : ∀ (n t rp acc : Nat), t ≤ (Queue.ticksReads a w wp n t rp acc).2
  | 0, t, _, _ => Nat.le_refl _
  | n + 1, t, rp, acc => by
    unfold Queue.ticksReads
    split
    · exact Nat.le_refl _
    · exact Nat.le_trans (by omega) (ticksReads_ge a w wp n (t + 3) _ _)

theorem hasTicksReads_ge (a : ArchId) (w : Nat → Queue) (wp : Nat) : ∀ (n t rp acc : Nat), t ≤ (Queue.hasTicksReads a w wp n t rp acc).2
  | 0, t, _, _ => Nat.le_refl _
  | n + 1, t, rp, acc => by
    unfold Queue.hasTicksReads
    split
    · exact Nat.le_refl _
    · generalize (if ((w (t + 1)).slot a rp).steps > 1 then ((w (t + 2)).slot a rp).steps else 1) = s
      dsimp only
      split
      · exact Nat.le_add_right _ _
      · exact Nat.le_trans (by omega) (hasTicksReads_ge a w wp n (t + 3) _ _)

/-- The loop of `ticksInQueue()` with entries between `lo` and `hi`. -/
theorem ticksReads_bounds (a : ArchId) (q0 : Queue) (w : Nat → Queue) (e0 : Nat) (he : e0 ≤ 32) (lo hi : Nat → Nat) (hhi : ∀ k, hi k ≤ 65535 * 255) :
    ∀ (n fuel t i acc : Nat), n < fuel → i + n = e0 → acc ≤ i * (65535 * 255) →
      (∀ k t', i ≤ k → k < e0 → t ≤ t' → t' + 2 < (Queue.ticksReads a w ((q0.readIdx + e0) % 256) fuel t (u8 (q0.readIdx + i)) acc).2 →
        lo k ≤ ticksRead a q0 w t' k ∧ ticksRead a q0 w t' k ≤ hi k) →
      acc + sumFrom lo i n ≤ (Queue.ticksReads a w ((q0.readIdx + e0) % 256) fuel t (u8 (q0.readIdx + i)) acc).1 ∧
      (Queue.ticksReads a w ((q0.readIdx + e0) % 256) fuel t (u8 (q0.readIdx + i)) acc).1 ≤ acc + sumFrom hi i n
  | 0, fuel + 1, t, i, acc, _, h2, _, _ => by
    unfold Queue.ticksReads
    rw [if_pos (by unfold u8; rw [← h2]; rfl)]
    exact ⟨Nat.le_refl _, Nat.le_refl _⟩
  | n + 1, fuel + 1, t, i, acc, h1, h2, h3, h4 => by
    have hne : ¬ (q0.readIdx + e0) % 256 = u8 (q0.readIdx + i) := by unfold u8; omega
    unfold Queue.ticksReads at h4 ⊢
    rw [if_neg hne] at h4 ⊢
    have hidx : u8 (u8 (q0.readIdx + i) + 1) = u8 (q0.readIdx + (i + 1)) := by unfold u8; omega
    rw [hidx, slot_entryNo, slot_entryNo, slot_entryNo] at h4 ⊢
    have hge := ticksReads_ge a w ((q0.readIdx + e0) % 256) fuel (t + 3) (u8 (q0.readIdx + (i + 1)))
    have hrd : ∀ acc', t + 3 ≤ (Queue.ticksReads a w ((q0.readIdx + e0) % 256) fuel (t + 3) (u8 (q0.readIdx + (i + 1))) acc').2 := fun acc' => hge acc'
    dsimp only at h4 ⊢
    have hval := h4 i t (Nat.le_refl _) (by omega) (Nat.le_refl _) (Nat.lt_of_lt_of_le (by omega) (hrd _))
    have hacc : (if (entryNo a q0 (w (t + 1)) i).steps > 1 then
        u32 (u32 (acc + (entryNo a q0 (w t) i).ticks) + u32 ((entryNo a q0 (w (t + 2)) i).ticks * ((entryNo a q0 (w (t + 1)) i).steps - 1)))
        else u32 (acc + (entryNo a q0 (w t) i).ticks)) = acc + ticksRead a q0 w t i := by
      have hb := hhi i
      have hv := hval.2
      revert hv
      unfold ticksRead
      split
      · intro hv; unfold u32
        generalize (entryNo a q0 (w (t + 2)) i).ticks * ((entryNo a q0 (w (t + 1)) i).steps - 1) = x at *
        omega
      · intro hv; unfold u32; omega
    rw [hacc] at h4 ⊢
    have hb := hhi i
    have := ticksReads_bounds a q0 w e0 he lo hi hhi n fuel (t + 3) (i + 1) (acc + ticksRead a q0 w t i) (by omega) (by omega) (by omega)
      (fun k t' hk1 hk2 ht hlt => h4 k t' (by omega) hk2 (by omega) hlt)
    simp only [sumFrom]
    omega

/-- The loop of `hasTicksInQueue()` with entries between `lo` and `hi`. -/
theorem hasTicksReads_bounds (a : ArchId) (q0 : Queue) (w : Nat → Queue) (e0 : Nat) (he : e0 ≤ 32) (lo hi : Nat → Nat) (hhi : ∀ k, hi k ≤ 65535 * 255) :
    ∀ (n fuel t i mt : Nat), n < fuel → i + n = e0 → 0 < mt →
      (∀ k t', i ≤ k → k < e0 → t ≤ t' → t' + 2 < (Queue.hasTicksReads a w ((q0.readIdx + e0) % 256) fuel t (u8 (q0.readIdx + i)) mt).2 →
        lo k ≤ ticksTaken a q0 w t' k ∧ ticksTaken a q0 w t' k ≤ hi k) →
      ((Queue.hasTicksReads a w ((q0.readIdx + e0) % 256) fuel t (u8 (q0.readIdx + i)) mt).1 = true → mt ≤ sumFrom hi i n) ∧
      ((Queue.hasTicksReads a w ((q0.readIdx + e0) % 256) fuel t (u8 (q0.readIdx + i)) mt).1 = false → sumFrom lo i n < mt)
  | 0, fuel + 1, t, i, mt, _, h2, hmt, _ => by
    unfold Queue.hasTicksReads
    rw [if_pos (by unfold u8; rw [← h2]; rfl)]
    exact ⟨fun h => Bool.noConfusion h, fun _ => hmt⟩
  | n + 1, fuel + 1, t, i, mt, h1, h2, hmt, h4 => by
    have hne : ¬ (q0.readIdx + e0) % 256 = u8 (q0.readIdx + i) := by unfold u8; omega
    unfold Queue.hasTicksReads at h4 ⊢
    rw [if_neg hne] at h4 ⊢
    have hidx : u8 (u8 (q0.readIdx + i) + 1) = u8 (q0.readIdx + (i + 1)) := by unfold u8; omega
    rw [hidx, slot_entryNo, slot_entryNo, slot_entryNo] at h4 ⊢
    dsimp only at h4 ⊢
    have hge := hasTicksReads_ge a w ((q0.readIdx + e0) % 256) fuel (t + 3) (u8 (q0.readIdx + (i + 1)))
    have hval := h4 i t (Nat.le_refl _) (by omega) (Nat.le_refl _) (by
      generalize (if (entryNo a q0 (w (t + 1)) i).steps > 1 then (entryNo a q0 (w (t + 2)) i).steps else 1) = s
      split
      · exact Nat.lt_succ_self _
      · exact Nat.lt_of_lt_of_le (by omega) (hge _))
    have hb := hhi i
    have hacc : u32 ((entryNo a q0 (w t) i).ticks * (if (entryNo a q0 (w (t + 1)) i).steps > 1 then (entryNo a q0 (w (t + 2)) i).steps else 1)) =
        ticksTaken a q0 w t i := by
      have hv := hval.2
      unfold ticksTaken at hv ⊢
      exact Nat.mod_eq_of_lt (Nat.lt_of_le_of_lt hv (by omega))
    rw [hacc] at h4 ⊢
    simp only [sumFrom]
    by_cases hx : ticksTaken a q0 w t i ≥ mt
    · rw [if_pos hx]
      exact ⟨fun _ => by omega, fun h => Bool.noConfusion h⟩
    · rw [if_neg hx] at h4 ⊢
      have := hasTicksReads_bounds a q0 w e0 he lo hi hhi n fuel (t + 3) (i + 1) (mt - ticksTaken a q0 w t i) (by omega) (by omega) (by omega)
        (fun k t' hk1 hk2 ht hlt => h4 k t' (by omega) hk2 (by omega) hlt)
      exact ⟨fun h => by have := this.1 h; omega, fun h => by have := this.2 h; omega⟩

/-- Without interruption, the calls are those of Model/Queue.lean. -/
theorem ticksReads_still (a : ArchId) (q : Queue) : ∀ (n t rp acc : Nat),
    (Queue.ticksReads a (fun _ => q) q.nextWriteIdx n t rp acc).1 = Queue.ticksLoop a q n rp acc
  | 0, _, _, _ => rfl
  | n + 1, t, rp, acc => by
    unfold Queue.ticksReads Queue.ticksLoop
    split
    · rfl
    · exact ticksReads_still a q n (t + 3) _ _

theorem ticksInQueue_still (a : ArchId) (q : Queue) : (Queue.ticksInQueueReads a fun _ => q).1 = q.ticksInQueue a := by
  unfold Queue.ticksInQueueReads Queue.ticksInQueue
  split
  · rfl
  · exact ticksReads_still a q _ _ _ _

theorem hasTicksReads_still (a : ArchId) (q : Queue) : ∀ (n t rp mt : Nat),
    (Queue.hasTicksReads a (fun _ => q) q.nextWriteIdx n t rp mt).1 = Queue.hasTicksLoop a q n rp mt
  | 0, _, _, _ => rfl
  | n + 1, t, rp, mt => by
    have hmax : (if (q.slot a rp).steps > 1 then (q.slot a rp).steps else 1) = max (q.slot a rp).steps 1 := by
      split <;> omega
    unfold Queue.hasTicksReads Queue.hasTicksLoop
    dsimp only
    rw [hmax]
    split
    · rfl
    · split
      · rfl
      · exact hasTicksReads_still a q n (t + 3) _ _

theorem queries_still (a : ArchId) (q : Queue) (n : Nat) : (Queue.hasTicksInQueueReads a (fun _ => q) n).1 = q.hasTicksInQueue a n ∧
    Queue.actualTicksReads a (fun _ => q) = q.getActualTicksWithDirection a := by
  constructor
  · unfold Queue.hasTicksInQueueReads Queue.hasTicksInQueue
    split
    · rfl
    · exact hasTicksReads_still a q _ _ _ _
  · rfl

theorem Spec.SaneQueue.write {a : ArchId} {q : Queue} (h : SaneQueue a q) : (q.readIdx + q.queueEntries) % 256 = q.nextWriteIdx := by
  have h1 := h.readIdx
  have h2 := h.writeIdx
  unfold Queue.queueEntries subU8; omega

theorem Spec.SaneQueue.length {a : ArchId} {q : Queue} (h : SaneQueue a q) : q.queueEntries ≤ 32 := by
  have := h.entries
  rcases a.queueLen_cases with hl | hl <;> omega

theorem ticksRead_still {a : ArchId} {q0 q : Queue} {t k : Nat} : ticksRead a q0 (fun _ => q) t k = entryTicks (entryNo a q0 q k) := by
  unfold ticksRead entryTicks
  dsimp only
  split
  · rename_i h
    rw [Nat.max_eq_right (by omega)]
    generalize (entryNo a q0 q k).ticks = x
    obtain ⟨y, hy⟩ : ∃ y, (entryNo a q0 q k).steps = y + 1 := ⟨(entryNo a q0 q k).steps - 1, by omega⟩
    rw [hy, Nat.add_sub_cancel, Nat.mul_add]; omega
  · rename_i h
    rw [Nat.max_eq_left (by omega)]; omega

/-- The queue is not empty: at the access 0 the loop is entered. -/
theorem ticksInQueueReads_loop {a : ArchId} {q : Queue} {w : Nat → Queue} (hw : w 0 = q) (h : SaneQueue a q) (hne : q.queueEntries ≠ 0) :
    Queue.ticksInQueueReads a w = Queue.ticksReads a w ((q.readIdx + q.queueEntries) % 256) 256 1 (u8 (q.readIdx + 1)) 0 := by
  have h1 := h.readIdx
  have hl := h.length
  unfold Queue.ticksInQueueReads
  rw [hw, if_neg (by rw [← h.write]; omega), h.write]

theorem ticksInQueue_sum {a : ArchId} {q : Queue} (h : SaneQueue a q) :
    q.ticksInQueue a = sumFrom (fun i => entryTicks (entryNo a q q i)) 1 (q.queueEntries - 1) := by
  rw [← ticksInQueue_still]
  by_cases hne : q.queueEntries = 0
  · rw [hne]
    unfold Queue.ticksInQueueReads
    rw [if_pos (by change q.nextWriteIdx = q.readIdx; rw [← h.write, hne]; have := h.readIdx; omega)]
    rfl
  · rw [ticksInQueueReads_loop (w := fun _ => q) rfl h hne]
    have hb := ticksReads_bounds a q (fun _ => q) q.queueEntries h.length (fun i => entryTicks (entryNo a q q i)) (fun i => entryTicks (entryNo a q q i))
      (fun k => entryTicks_le (h.ticks _) (h.steps _)) (q.queueEntries - 1) 256 1 1 0 (by have := h.length; omega) (by omega) (by omega)
      (fun k t' _ _ _ _ => by rw [ticksRead_still]; exact ⟨Nat.le_refl _, Nat.le_refl _⟩)
    omega

theorem sumFrom_shift (f : Nat → Nat) (d : Nat) : ∀ (n lo : Nat), sumFrom (fun i => f (d + i)) lo n = sumFrom f (d + lo) n
  | 0, _ => rfl
  | n + 1, lo => by simp only [sumFrom]; rw [sumFrom_shift f d n (lo + 1)]; rfl

/-- The commands still pending at the end of the query, which were there at its begin, are among those it has read completely. -/
theorem Held.ticks_end {a : ArchId} {q0 q : Queue} {d m n A : Nat} (h : Held a q0 q d m n A) (hn : n + q0.queueEntries ≤ a.queueLen) :
    q.ticksInQueue a ≤ sumFrom (fun k => if d < k then entryTicks (entryNo a q0 q0 k) else 0) 1 (q0.queueEntries - 1) + A := by
  have hent := h.entries hn
  have hmle := h.mle
  have hdle := h.dle
  have hs : SaneQueue a q := ⟨by rw [h.rd]; omega, by rw [h.wr]; omega, by omega, h.ticks, h.steps⟩
  rw [ticksInQueue_sum hs]
  have hsh : sumFrom (fun i => entryTicks (entryNo a q q i)) 1 (q.queueEntries - 1) =
      sumFrom (fun i => entryTicks (entryNo a q0 q i)) (d + 1) (q.queueEntries - 1) := by
    rw [← sumFrom_shift]
    congr 1
    funext i
    unfold entryNo
    rw [h.rd]
    congr 2
    rcases a.queueLen_cases with hl | hl <;> rw [hl] <;> omega
  rw [hsh, hent]
  have hnew := h.new
  generalize hF : (fun i => entryTicks (entryNo a q0 q i)) = F at *
  rcases Nat.lt_or_ge (d + 1) q0.queueEntries with hd | hd
  · have h1 : q0.queueEntries + m - d - 1 = (q0.queueEntries - (d + 1)) + m := by omega
    have h2 : q0.queueEntries - 1 = d + (q0.queueEntries - (d + 1)) := by omega
    rw [h1, h2, sumFrom_split, sumFrom_split]
    rw [show d + 1 + (q0.queueEntries - (d + 1)) = q0.queueEntries by omega, show 1 + d = d + 1 by omega]
    have h3 : sumFrom F (d + 1) (q0.queueEntries - (d + 1)) ≤
        sumFrom (fun k => if d < k then entryTicks (entryNo a q0 q0 k) else 0) (d + 1) (q0.queueEntries - (d + 1)) := by
      apply sumFrom_le
      intro i hi1 hi2
      rw [← hF]
      dsimp only
      rw [if_pos (by omega)]
      obtain ⟨s1, -, -, -, -, s6⟩ := h.same i (by omega)
      unfold entryTicks
      rw [s1, s6 (by omega)]
      exact Nat.le_refl _
    omega
  · by_cases hz : q0.queueEntries + m - d = 0
    · rw [hz]; simp only [Nat.zero_sub, sumFrom]; omega
    · have h1 : m = (d + 1 - q0.queueEntries) + (q0.queueEntries + m - d - 1) := by omega
      have h2 : sumFrom F q0.queueEntries m = sumFrom F q0.queueEntries (d + 1 - q0.queueEntries) + sumFrom F (d + 1) (q0.queueEntries + m - d - 1) := by
        conv => lhs; rw [h1]
        rw [sumFrom_split, show q0.queueEntries + (d + 1 - q0.queueEntries) = d + 1 by omega]
      omega

/-- `ticks + (steps - 1) * ticks` from reads at three times. -/
theorem ticksRead_bounds {a : ArchId} {q0 : Queue} {w : Nat → Queue} {t k d D : Nat} {e1 e2 e3 o : Entry} (h1 : entryNo a q0 (w t) k = e1)
    (h2 : entryNo a q0 (w (t + 1)) k = e2) (h3 : entryNo a q0 (w (t + 2)) k = e3) (t1 : e1.ticks = o.ticks) (t3 : e3.ticks = o.ticks)
    (s2 : e2.steps ≤ o.steps) (hd : d ≤ D) (s2' : d < k → e2.steps = o.steps) :
    (if D < k then entryTicks o else 0) ≤ ticksRead a q0 w t k ∧ ticksRead a q0 w t k ≤ entryTicks o := by
  unfold ticksRead entryTicks
  rw [h1, h2, h3, t1, t3]
  have key : ∀ s, o.ticks + (if 1 < s then o.ticks * (s - 1) else 0) = o.ticks * max 1 s := by
    intro s
    split
    · rw [Nat.max_eq_right (by omega)]
      obtain ⟨y, rfl⟩ : ∃ y, s = y + 1 := ⟨s - 1, by omega⟩
      rw [Nat.add_sub_cancel, Nat.mul_add]; omega
    · rw [Nat.max_eq_left (by omega)]; omega
  rw [key]
  constructor
  · split
    · rw [s2' (by omega)]; exact Nat.le_refl _
    · exact Nat.zero_le _
  · exact Nat.mul_le_mul_left _ (by omega)

theorem ticksTaken_bounds {a : ArchId} {q0 : Queue} {w : Nat → Queue} {t k d d' D : Nat} {e1 e2 e3 o : Entry} (h1 : entryNo a q0 (w t) k = e1)
    (h2 : entryNo a q0 (w (t + 1)) k = e2) (h3 : entryNo a q0 (w (t + 2)) k = e3) (t1 : e1.ticks = o.ticks)
    (s2 : e2.steps ≤ o.steps) (s3 : e3.steps ≤ o.steps) (hd : d ≤ D) (s2' : d < k → e2.steps = o.steps) (hd' : d' ≤ D) (s3' : d' < k → e3.steps = o.steps) :
    (if D < k then entryTicks o else 0) ≤ ticksTaken a q0 w t k ∧ ticksTaken a q0 w t k ≤ entryTicks o := by
  unfold ticksTaken entryTicks
  rw [h1, h2, h3, t1]
  constructor
  · split
    · rw [s2' (by omega), s3' (by omega)]
      apply Nat.mul_le_mul_left
      split <;> omega
    · exact Nat.zero_le _
  · apply Nat.mul_le_mul_left
    split <;> omega

/-- C96 for `ticksInQueue()`: while the call reads the entries, interrupts execute, complete and drop commands, and other tasks offer commands to the queue (`evs t`: what happens after access
number `t` of the call), not more than there was room for at the begin of the call. Then the result is at most the planned time at the begin of the call, and at least the planned time
at its end, less the duration of the commands offered meanwhile. -/
theorem C96_ticks_partial (a : ArchId) (q : Queue) (hq : SaneQueue a q) (evs : Nat → List QueueEv) :
    let r := Queue.ticksInQueueReads a (duringQuery a q evs)
    (∀ c ∈ offered evs r.2, c.Valid) → (offered evs r.2).length + q.queueEntries ≤ a.queueLen →
    r.1 ≤ q.ticksInQueue a ∧ (duringQuery a q evs r.2).ticksInQueue a ≤ r.1 + durationSum (offered evs r.2) := by
  intro r hv hn
  obtain ⟨D, M, hT, hall⟩ := Held.reads hq hv hn
  have hend := hT.ticks_end hn
  by_cases hne : q.queueEntries = 0
  · have hr : r = (0, 1) := by
      change Queue.ticksInQueueReads a _ = _
      unfold Queue.ticksInQueueReads
      rw [if_pos (by change q.nextWriteIdx = q.readIdx; rw [← hq.write, hne]; have := hq.readIdx; omega)]
    have hr1 : r.1 = 0 := by rw [hr]
    rw [hne] at hend
    simp only [Nat.zero_sub, sumFrom] at hend
    exact ⟨by omega, by omega⟩
  · have hloop := ticksInQueueReads_loop (q := q) (w := duringQuery a q evs) rfl hq hne
    have hb := ticksReads_bounds a q (duringQuery a q evs) q.queueEntries hq.length (fun k => if D < k then entryTicks (entryNo a q q k) else 0)
      (fun i => entryTicks (entryNo a q q i)) (fun k => entryTicks_le (hq.ticks _) (hq.steps _)) (q.queueEntries - 1) 256 1 1 0 (by have := hq.length; omega) (by omega) (by omega)
      (fun k t' hk1 hk2 ht hlt => by
        rw [← hloop] at hlt
        change t' + 2 < r.2 at hlt
        obtain ⟨d1, m1, e1, x1⟩ := hall t' (by omega)
        obtain ⟨d2, m2, e2, x2⟩ := hall (t' + 1) (by omega)
        obtain ⟨d3, m3, e3, x3⟩ := hall (t' + 2) (by omega)
        have y1 := x1.same k hk2
        have y2 := x2.same k hk2
        have y3 := x3.same k hk2
        exact ticksRead_bounds rfl rfl rfl y1.1 y3.1 y2.2.2.2.2.1 e2 y2.2.2.2.2.2)
    rw [← hloop, ← ticksInQueue_sum hq] at hb
    change _ ≤ r.1 ∧ r.1 ≤ _ at hb
    constructor <;> omega

/-- C96 for `hasTicksInQueue(n)`, `n > 0`, under the same conditions: if the result is true, then at least `n` ticks were planned at the begin of the call; if it is false, then at its end less than `n`
ticks are planned, besides the commands offered meanwhile. -/
theorem C96_has_ticks_partial (a : ArchId) (q : Queue) (hq : SaneQueue a q) (evs : Nat → List QueueEv) (n : Nat) (hpos : 0 < n) :
    let r := Queue.hasTicksInQueueReads a (duringQuery a q evs) n
    (∀ c ∈ offered evs r.2, c.Valid) → (offered evs r.2).length + q.queueEntries ≤ a.queueLen →
    (r.1 = true → n ≤ q.ticksInQueue a) ∧
    (r.1 = false → (duringQuery a q evs r.2).ticksInQueue a < n + durationSum (offered evs r.2)) := by
  intro r hv hn
  obtain ⟨D, M, hT, hall⟩ := Held.reads hq hv hn
  have hend := hT.ticks_end hn
  by_cases hne : q.queueEntries = 0
  · have hr : r = (false, 1) := by
      change Queue.hasTicksInQueueReads a _ _ = _
      unfold Queue.hasTicksInQueueReads
      rw [if_pos (by change q.nextWriteIdx = q.readIdx; rw [← hq.write, hne]; have := hq.readIdx; omega)]
    have hr1 : r.1 = false := by rw [hr]
    rw [hne] at hend
    simp only [Nat.zero_sub, sumFrom] at hend
    exact ⟨fun h => by rw [hr1] at h; exact absurd h (by decide), fun _ => by omega⟩
  · have hloop : r = Queue.hasTicksReads a (duringQuery a q evs) ((q.readIdx + q.queueEntries) % 256) 256 1 (u8 (q.readIdx + 1)) n := by
      have h1 := hq.readIdx
      have hl := hq.length
      change Queue.hasTicksInQueueReads a _ _ = _
      unfold Queue.hasTicksInQueueReads
      rw [if_neg (by change ¬ q.nextWriteIdx = q.readIdx; rw [← hq.write]; omega), hq.write]
      rfl
    have hb := hasTicksReads_bounds a q (duringQuery a q evs) q.queueEntries hq.length (fun k => if D < k then entryTicks (entryNo a q q k) else 0)
      (fun i => entryTicks (entryNo a q q i)) (fun k => entryTicks_le (hq.ticks _) (hq.steps _)) (q.queueEntries - 1) 256 1 1 n (by have := hq.length; omega) (by omega) hpos
      (fun k t' hk1 hk2 ht hlt => by
        rw [← hloop] at hlt
        obtain ⟨d1, m1, e1, x1⟩ := hall t' (by omega)
        obtain ⟨d2, m2, e2, x2⟩ := hall (t' + 1) (by omega)
        obtain ⟨d3, m3, e3, x3⟩ := hall (t' + 2) (by omega)
        have y1 := x1.same k hk2
        have y2 := x2.same k hk2
        have y3 := x3.same k hk2
        exact ticksTaken_bounds rfl rfl rfl y1.1 y2.2.2.2.2.1 y3.2.2.2.2.1 e2 y2.2.2.2.2.2 e3 y3.2.2.2.2.2)
    rw [← hloop, ← ticksInQueue_sum hq] at hb
    exact ⟨hb.1, fun h => by have := hb.2 h; omega⟩

/-- C96 for the realtime speed, under the same conditions: the result is the one of a call without interruption. -/
theorem C96_realtime_speed_partial (a : ArchId) (q : Queue) (hq : SaneQueue a q) (evs : Nat → List QueueEv)
    (hv : ∀ c ∈ offered evs 5, c.Valid) (hn : (offered evs 5).length + q.queueEntries ≤ a.queueLen) :
    Queue.actualTicksReads a (duringQuery a q evs) = q.getActualTicksWithDirection a := by
  obtain ⟨D, M, hT, hall⟩ := Held.reads hq hv hn
  have hr := hq.readIdx
  have hl := hq.length
  have hsame : ∀ t, t ≤ 5 → ∀ k, k < q.queueEntries → (entryNo a q (duringQuery a q evs t) k).ticks = (entryNo a q q k).ticks ∧
      (entryNo a q (duringQuery a q evs t) k).countUp = (entryNo a q q k).countUp ∧
      (entryNo a q (duringQuery a q evs t) k).hasSteps = (entryNo a q q k).hasSteps ∧
      (entryNo a q (duringQuery a q evs t) k).moreThanOneStep = (entryNo a q q k).moreThanOneStep := by
    intro t ht k hk
    obtain ⟨d, m, -, h⟩ := hall t ht
    have := h.same k hk
    exact ⟨this.1, this.2.1, this.2.2.1, this.2.2.2.1⟩
  have hslot : ∀ q' : Queue, q'.slot a q.readIdx = entryNo a q q' 0 := fun q' => by
    have := slot_entryNo a q q' 0
    rw [← this]; unfold u8; rw [Nat.add_zero, Nat.mod_eq_of_lt hr]
  unfold Queue.actualTicksReads Queue.getActualTicksWithDirection
  change (if q.nextWriteIdx = q.readIdx then _ else _) = _
  by_cases he : q.nextWriteIdx = q.readIdx
  · rw [if_pos he, if_pos he]
  · rw [if_neg he, if_neg he]
    have he0 : 0 < q.queueEntries := by
      have := hq.write
      rcases Nat.eq_zero_or_pos q.queueEntries with h0 | h0
      · rw [h0] at this; omega
      · exact h0
    change (if (Queue.slot a (duringQuery a q evs 1) q.readIdx).hasSteps = true then _ else _) = _
    dsimp only
    rw [show (duringQuery a q evs 0).readIdx = q.readIdx from rfl, show (duringQuery a q evs 0).nextWriteIdx = q.nextWriteIdx from rfl]
    rw [hslot, hslot, hslot, hslot, hslot, slot_entryNo, slot_entryNo, (hsame 1 (by omega) 0 he0).2.2.1, (hsame 2 (by omega) 0 he0).2.1, (hsame 3 (by omega) 0 he0).1,
      (hsame 4 (by omega) 0 he0).2.2.2]
    by_cases h1 : q.nextWriteIdx = u8 (q.readIdx + 1)
    · simp only [h1, ne_eq, not_true_eq_false, if_false]
    · have he1 : 1 < q.queueEntries := by
        have hw := hq.write
        rcases Nat.lt_or_ge 1 q.queueEntries with h2 | h2
        · exact h2
        · have : q.queueEntries = 1 := by omega
          rw [this] at hw
          exact absurd hw.symm h1
      rw [(hsame 5 (by omega) 1 he1).2.2.1]

/-- A queue with a pause in process, 200 slow steps and 3 steps behind it. -/
def queriedQueue (a : ArchId) : Queue :=
  (Hw.run a (Hw.init a) [.add ⟨50000, 0, true⟩ true, .add ⟨5000, 200, true⟩ true, .add ⟨20000, 3, true⟩ true]).1.q

theorem queriedQueue_sane (a : ArchId) : SaneQueue a (queriedQueue a) := by
  have he : ∀ i, ((queriedQueue a).entry i).ticks < 65536 ∧ ((queriedQueue a).entry i).steps < 256 := by
    intro i
    cases a <;>
      (change (if i = _ then _ else if i = _ then _ else if i = _ then _ else Entry.zero : Entry).ticks < _ ∧ (if i = _ then _ else if i = _ then _ else if i = _ then _ else Entry.zero : Entry).steps < _
       split
       · decide
       · split
         · decide
         · split <;> decide)
  exact ⟨by cases a <;> decide, by cases a <;> decide, by cases a <;> decide, fun i => (he i).1, fun i => (he i).2⟩

/-- After the third access, the pause is completed, 150 of the 200 steps are done, and a command is added. -/
def queryEvents : Nat → List QueueEv
  | 1 => [.complete, .count 50, .offer ⟨30000, 2, false⟩ true]
  | _ => []

/-- The hypotheses of C96 are met: 1060000 ticks at the begin, 120000 at the end, of which 60000 are new, and a result in between. -/
example :
    let r := Queue.ticksInQueueReads .avr328 (duringQuery .avr328 (queriedQueue .avr328) queryEvents)
    SaneQueue .avr328 (queriedQueue .avr328) ∧ (∀ c ∈ offered queryEvents r.2, c.Valid) ∧ (offered queryEvents r.2).length + (queriedQueue .avr328).queueEntries ≤ ArchId.avr328.queueLen ∧
    (queriedQueue .avr328).ticksInQueue .avr328 = 1060000 ∧ r.1 = 310000 ∧ (duringQuery .avr328 (queriedQueue .avr328) queryEvents r.2).ticksInQueue .avr328 = 120000 ∧
    (Queue.hasTicksInQueueReads .avr328 (duringQuery .avr328 (queriedQueue .avr328) queryEvents) 400000).1 = false ∧
    (Queue.hasTicksInQueueReads .avr328 (duringQuery .avr328 (queriedQueue .avr328) queryEvents) 300000).1 = true ∧
    (Queue.actualTicksReads .avr328 (duringQuery .avr328 (queriedQueue .avr328) (fun t => queryEvents (t + 1)))) = ⟨false, none, none⟩ := by
  refine ⟨queriedQueue_sane _, ?_⟩
  decide +kernel

/-- The queue is processed completely and filled again, while a query waits: all entries are replaced by single steps backward. -/
def refill (a : ArchId) : List QueueEv := .complete :: .complete :: .complete :: List.replicate a.queueLen (.offer ⟨65535, 1, false⟩ true)

/-- C96 does not hold if the queue is emptied and filled again during a call: the third access of `ticksInQueue()` to the entry with 200 steps of 5000 ticks meets the 65535 ticks of a single step which has replaced
it. The result is 5000 + 199 * 65535 + 65535 ticks (0.8 s): more than twelve times the planned time at the begin and at the end of the call. -/
theorem C96_ticks_refuted :
    let evs : Nat → List QueueEv := fun t => if t = 2 then refill .avr328 else []
    let r := Queue.ticksInQueueReads .avr328 (duringQuery .avr328 (queriedQueue .avr328) evs)
    (∀ c ∈ offered evs r.2, c.Valid) ∧ r.1 = 13112000 ∧ (queriedQueue .avr328).ticksInQueue .avr328 = 1060000 ∧
    (duringQuery .avr328 (queriedQueue .avr328) evs r.2).ticksInQueue .avr328 = 983025 := by
  decide +kernel

/-- The same for the realtime speed: steps with 5000 ticks forward are in process, and are replaced by steps backward after the direction has been read. The call returns 65535 ticks in
direction forward: neither the speed at its begin nor the one at its end. -/
theorem C96_realtime_speed_refuted :
    let q := (queriedQueue .avr328).complete
    let w := duringQuery .avr328 q (fun t => if t = 2 then .complete :: .complete :: List.replicate 16 (.offer ⟨65535, 1, false⟩ true) else [])
    q.getActualTicksWithDirection .avr328 = ⟨true, some 5000, some true⟩ ∧
    Queue.actualTicksReads .avr328 w = ⟨true, some 65535, some true⟩ ∧
    (w 5).getActualTicksWithDirection .avr328 = ⟨true, some 65535, some false⟩ := by
  decide +kernel

end FAS
