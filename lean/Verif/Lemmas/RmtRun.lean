import Verif.Lemmas.RmtInv

/-! Every accepted command is sent by the RMT backends, and then the transmission ends. -/

namespace FAS

/-- measure for the parts needed for the queued commands -/
def entrySum : List Entry → Nat
  | [] => 0
  | e :: es => e.steps + 1 + entrySum es

def rmtMeasure (s : Rmt) : Nat := 2 * entrySum (s.q.pending .esp32) + if s.lastSteps then 1 else 0

/-- a part makes progress -/
theorem RInv.fill_progress {v lvl D enc s acc} (h : RInv v lvl D enc s acc) (henc : enc) (htx : s.tx = true) (hne : s.q.pending .esp32 ≠ []) :
    rmtMeasure (s.fill v) < rmtMeasure s := by
  have hrun := h.txrun htx
  have hst : s.stopped = false := by
    cases hx : s.stopped with
    | false => rfl
    | true => exact absurd (h.stop htx hx) hne
  have htog : Tog lvl s.q.dirLevel (s.q.pending .esp32) s.q.lastLvl := by
    rcases h.dir with hx | hx
    · rw [hrun] at hx; cases hx.1
    · exact hx
  have hn : s.q.queueEntries ≠ 0 := fun hx => hne ((Queue.pending_nil_iff _ _).mpr hx)
  have hemp : s.q.readIdx ≠ s.q.nextWriteIdx := fun hx => hn ((Queue.empty_iff .esp32 s.q h.idx).mp hx)
  obtain ⟨hcons, _, _⟩ := Queue.pending_cons .esp32 s.q h.idx hn
  unfold Rmt.fill
  rw [if_neg (by rw [hst]; simp), if_neg hemp]
  dsimp only
  generalize hee : s.q.slot .esp32 s.q.readIdx = e at *
  by_cases htd : (e.toggleDir && s.lastSteps) = true
  · rw [if_pos htd]
    rw [Bool.and_eq_true] at htd
    unfold rmtMeasure
    change 2 * entrySum (s.q.pending .esp32) + 0 < _
    rw [htd.2, if_pos rfl]
    omega
  rw [if_neg htd]
  obtain ⟨t1, t2, t3, t4, t5, t6, t7⟩ := toggleHead_spec s.q lvl s.q.lastLvl h.idx hn htog
  obtain ⟨u1, _⟩ := toggleHead_frame s.q
  have hn1 : (Rmt.toggleHead s.q).queueEntries ≠ 0 := by rw [t3]; exact hn
  have hrep : e.repeatEntry = false := h.norep e (by rw [hcons]; simp)
  have hgood : v.Good e.steps e.ticks := h.good henc e (by rw [hcons]; simp)
  rw [hee] at t1 t4 t5 t7
  rw [← u1] at t7
  generalize hq1 : Rmt.toggleHead s.q = q1 at *
  have hc1 : q1.complete.pending .esp32 = s.q.complete.pending .esp32 := by
    have := (Queue.pending_cons .esp32 q1 t2 hn1).1
    rw [t1] at this
    injection this with _ this
    exact this.symm
  have hrest : ∀ rest, (e.steps = 0 → rest = 0) → (e.steps ≠ 0 → rest < e.steps) →
      entrySum ((Rmt.finishHead q1 rest).pending .esp32) < entrySum (s.q.pending .esp32) := by
    intro rest h0 h1
    rw [(finishHead_spec q1 rest t2 hn1 (by rw [t7]; exact hrep)).1, hc1, t7, hcons]
    by_cases hr : rest = 0
    · rw [if_pos hr]; simp only [entrySum]; omega
    · rw [if_neg hr]; simp only [entrySum]; omega
  have key : entrySum ((Rmt.finishHead q1 (if e.steps = 0 then (v.pauseWords e.ticks, 0) else v.stepWords e.steps e.ticks).2).pending .esp32) <
      entrySum (s.q.pending .esp32) := by
    apply hrest
    · intro h0; rw [if_pos h0]
    · intro h0
      rw [if_neg h0]
      unfold RmtVer.Good at hgood
      rw [if_neg h0] at hgood
      exact (stepWords_ok v e.steps e.ticks hgood).1
  have hm : ∀ x : Bool, (if x = true then 1 else 0 : Nat) ≤ 1 := by decide
  have := hm (decide (e.steps ≠ 0))
  unfold rmtMeasure
  change 2 * entrySum ((Rmt.finishHead q1 (if e.steps = 0 then (v.pauseWords e.ticks, 0) else v.stepWords e.steps e.ticks).2).pending .esp32) +
    (if decide (e.steps ≠ 0) = true then 1 else 0) < _
  omega

theorem Rmt.track_append (v : RmtVer) : ∀ (xs ys : List Rmt.Ev) (s : Rmt) (acc : List Cmd),
    Rmt.track v s acc (xs ++ ys) = Rmt.track v (Rmt.track v s acc xs).1 (Rmt.track v s acc xs).2 ys
  | [], _, _, _ => rfl
  | x :: xs, ys, s, acc => Rmt.track_append v xs ys _ _

theorem Rmt.track_fst (v : RmtVer) : ∀ (evs : List Rmt.Ev) (s : Rmt) (acc : List Cmd), (Rmt.track v s acc evs).1 = Rmt.run v s evs
  | [], _, _ => rfl
  | _ :: evs, _, _ => Rmt.track_fst v evs _ _

theorem Rmt.track_fills (v : RmtVer) : ∀ (n : Nat) (s : Rmt) (acc : List Cmd), (Rmt.track v s acc (List.replicate n .fill)).2 = acc
  | 0, _, _ => rfl
  | n + 1, s, acc => by
    rw [List.replicate_succ]
    change (Rmt.track v _ (acc ++ []) _).2 = acc
    rw [List.append_nil]
    exact Rmt.track_fills v n _ _

/-- after enough parts, all commands have been sent -/
theorem RInv.drain {v lvl D} {enc : Prop} (henc : enc) (hD : ∀ u, D u (lvl u)) : ∀ (k : Nat) {s acc}, RInv v lvl D enc s acc → s.tx = true → rmtMeasure s < k →
    ∃ n, RInv v lvl D enc (Rmt.run v s (List.replicate n .fill)) acc ∧ (Rmt.run v s (List.replicate n .fill)).tx = true ∧
      (Rmt.run v s (List.replicate n .fill)).q.pending .esp32 = []
  | 0, _, _, _, _, hk => absurd hk (Nat.not_lt_zero _)
  | k + 1, s, acc, h, htx, hk => by
    by_cases hp : s.q.pending .esp32 = []
    · exact ⟨0, h, htx, hp⟩
    · have hs : s.step v .fill = (s.fill v).sync := by
        unfold Rmt.step
        dsimp only
        rw [if_pos htx]
      have h1 := (h.fill hD htx).sync
      have hm : rmtMeasure (s.fill v).sync < k := by
        have := h.fill_progress henc htx hp
        change rmtMeasure (s.fill v) < k
        omega
      have htx1 : (s.fill v).sync.tx = true := (Rmt.fill_tx v s).1.trans htx
      obtain ⟨n, hn⟩ := RInv.drain henc hD k h1 htx1 hm
      refine ⟨n + 1, ?_⟩
      rw [List.replicate_succ]
      change RInv v lvl D enc (Rmt.run v (s.step v .fill) _) acc ∧ (Rmt.run v (s.step v .fill) _).tx = true ∧
        (Rmt.run v (s.step v .fill) _).q.pending .esp32 = []
      rw [hs]
      exact hn

/-- with an empty queue, at most two more parts stop the peripheral -/
theorem RInv.finish {v lvl D enc s acc} (hD : ∀ u, D u (lvl u)) (h : RInv v lvl D enc s acc) (htx : s.tx = true) (hp : s.q.pending .esp32 = []) :
    ∃ n, RInv v lvl D enc (Rmt.run v s (List.replicate n .fill)) acc ∧ (Rmt.run v s (List.replicate n .fill)).tx = true ∧
      (Rmt.run v s (List.replicate n .fill)).q.pending .esp32 = [] ∧ (Rmt.run v s (List.replicate n .fill)).stopped = true := by
  by_cases hst : s.stopped = true
  · exact ⟨0, h, htx, hp, hst⟩
  have one : ∀ s : Rmt, RInv v lvl D enc s acc → s.tx = true → s.q.pending .esp32 = [] → ¬ s.stopped = true →
      RInv v lvl D enc (s.step v .fill) acc ∧ (s.step v .fill).tx = true ∧ (s.step v .fill).q.pending .esp32 = [] ∧
        (s.step v .fill).stopped = (if v.isIdf5 then true else !s.partOne) ∧ (s.step v .fill).partOne = !s.partOne := by
    intro s h htx hp hst
    have hs : s.step v .fill = (s.fill v).sync := by
      unfold Rmt.step
      dsimp only
      rw [if_pos htx]
    have hemp : s.q.readIdx = s.q.nextWriteIdx := (Queue.empty_iff .esp32 s.q h.idx).mpr ((Queue.pending_nil_iff _ _).mp hp)
    rw [hs]
    refine ⟨(h.fill hD htx).sync, (Rmt.fill_tx v s).1.trans htx, ?_, ?_, ?_⟩ <;>
      (unfold Rmt.fill; rw [if_neg (by rw [Bool.and_eq_true]; exact fun hx => hst hx.1), if_pos hemp]; first | exact hp | (rw [Bool.eq_false_iff.mpr hst]; rfl) | rfl)
  obtain ⟨a1, a2, a3, a4, a5⟩ := one s h htx hp hst
  by_cases hs1 : (s.step v .fill).stopped = true
  · exact ⟨1, a1, a2, a3, hs1⟩
  · obtain ⟨b1, b2, b3, b4, b5⟩ := one _ a1 a2 a3 hs1
    refine ⟨2, b1, b2, b3, ?_⟩
    change ((s.step v .fill).step v .fill).stopped = true
    rw [b4, a5]
    rw [a4] at hs1
    cases hv : v.isIdf5 with
    | true => rfl
    | false =>
      rw [hv] at hs1
      revert hs1
      cases s.partOne <;> decide

theorem Plays.weaken {slack : Nat} {D D' : Bool → Bool → Prop} (hD : ∀ u l, D u l → D' u l) : ∀ {cs : List Cmd} {w : List Chunk},
    Plays slack D cs w → Plays slack D' cs w
  | _, _, .nil => .nil
  | _, _, .pause k h hk hu => .pause k (h.weaken hD) hk hu
  | _, _, .cmd c r h hr hd => .cmd c r (h.weaken hD) hr (fun k hk => hD _ _ (hd k hk))

/-- a state in which the RMT backend claims to run without a transmission -/
theorem Rmt.stuck_step (v : RmtVer) (hv : v.isIdf5 = false) (s : Rmt) (h1 : s.tx = false) (h2 : s.q.running = true) (ev : Rmt.Ev) :
    (s.step v ev).tx = false ∧ (s.step v ev).q.running = true ∧ (s.step v ev).out = s.out := by
  unfold Rmt.step
  cases ev with
  | fill => simp only [h1]; exact ⟨h1, h2, rfl⟩
  | txDone => simp only [h1]; exact ⟨h1, h2, rfl⟩
  | addBegin c st =>
    cases hpc : s.pc with
    | idle =>
      simp only
      split
      · exact ⟨h1, h2, rfl⟩
      split
      · exact ⟨h1, h2, rfl⟩
      split
      · exact ⟨h1, h2, rfl⟩
      · refine ⟨h1, ?_, rfl⟩
        obtain ⟨_, _, _, _, prun, _⟩ := prepare_spec .esp32 s.q c
        exact prun.trans h2
    | prepared n c' st' => exact ⟨h1, h2, rfl⟩
    | committed st' => exact ⟨h1, h2, rfl⟩
  | addCommit =>
    cases hpc : s.pc with
    | idle => exact ⟨h1, h2, rfl⟩
    | committed st' => exact ⟨h1, h2, rfl⟩
    | prepared n c' st' =>
      refine ⟨h1, ?_, rfl⟩
      change (s.q.commit n).1.running = true
      unfold Queue.commit
      split
      · exact h2
      split
      · exact h2
      · exact h2
  | addFinish =>
    cases hpc : s.pc with
    | idle => exact ⟨h1, h2, rfl⟩
    | prepared n c' st' => exact ⟨h1, h2, rfl⟩
    | committed st' =>
      simp only [h2]
      exact ⟨h1, h2, rfl⟩
  | startNull =>
    cases hpc : s.pc with
    | committed st' => exact ⟨h1, h2, rfl⟩
    | prepared n c' st' => exact ⟨h1, h2, rfl⟩
    | idle =>
      have : (s.q.addNull true).start = false := by
        unfold Queue.addNull
        rw [h2]
        split <;> rfl
      simp only [this]
      exact ⟨h1, h2, rfl⟩
  | forceStop p =>
    cases hpc : s.pc with
    | committed st' => exact ⟨h1, h2, rfl⟩
    | prepared n c' st' => exact ⟨h1, h2, rfl⟩
    | idle =>
      simp only [Rmt.forceStopAndNewPosition, Rmt.forceStop, hv]
      exact ⟨h1, h2, rfl⟩
  | clearIgnore => exact ⟨h1, h2, rfl⟩

theorem Rmt.stuck_run (v : RmtVer) (hv : v.isIdf5 = false) : ∀ (evs : List Rmt.Ev) (s : Rmt), s.tx = false → s.q.running = true →
    (Rmt.run v s evs).q.running = true ∧ (Rmt.run v s evs).out = s.out
  | [], _, _, h2 => ⟨h2, rfl⟩
  | ev :: evs, s, h1, h2 => by
    obtain ⟨a1, a2, a3⟩ := Rmt.stuck_step v hv s h1 h2 ev
    have := Rmt.stuck_run v hv evs (s.step v ev) a1 a2
    exact ⟨this.1, this.2.trans a3⟩

end FAS
