import Verif.Spec.RmtBoard

/-!
# Lemmas: several steppers on the RMT drivers
-/

namespace FAS
namespace RmtBoard

/-- The channels of the connected steppers. -/
def Own (c : RmtChip) (b : RmtBoard) : Prop := b.n ≤ c.rmt ∧ ∀ i, i < b.n → (b.que (c.mcpwm + i)).channel = i

theorem Own.view {c b} (h : Own c b) {i : Nat} (hi : i < b.n) : b.view (c.mcpwm + i) =
    ⟨(b.que (c.mcpwm + i)).q, (b.que (c.mcpwm + i)).stopped, (b.que (c.mcpwm + i)).has0, (b.que (c.mcpwm + i)).has1, (b.hw i).mem1, (b.hw i).mem2, (b.que (c.mcpwm + i)).pc, (b.hw i).conti, (b.hw i).lim,
      (b.hw i).thr, (b.hw i).fin, (b.hw i).ena, (b.hw i).sending, (b.hw i).pos, (b.hw i).cnt, (b.hw i).wire⟩ := by
  unfold RmtBoard.view
  dsimp only
  rw [h.2 i hi]

theorem view_put (b : RmtBoard) (k : Nat) (s : RmtReg) : (b.put k s).view k = s := by
  unfold view put
  simp

theorem view_put_other (b : RmtBoard) {k j : Nat} (s : RmtReg) (h : j ≠ k) (hc : (b.que j).channel ≠ (b.que k).channel) : (b.put k s).view j = b.view j := by
  unfold view put
  simp [h, hc]

theorem put_frame (b : RmtBoard) (k : Nat) (s : RmtReg) : (b.put k s).n = b.n ∧ (b.put k s).drv = b.drv ∧ (b.put k s).service = b.service ∧ (b.put k s).copy = b.copy ∧
    (∀ j, ((b.put k s).que j).channel = (b.que j).channel ∧ ((b.put k s).que j).pin = (b.que j).pin) := by
  refine ⟨rfl, rfl, rfl, rfl, fun j => ?_⟩
  unfold put
  dsimp only
  split
  · next h => subst h; exact ⟨rfl, rfl⟩
  · exact ⟨rfl, rfl⟩

theorem put_hw (b : RmtBoard) (k : Nat) (s : RmtReg) {ch : Nat} (h : ch ≠ (b.que k).channel) : (b.put k s).hw ch = b.hw ch := by
  unfold put
  simp [h]

theorem put_ena (b : RmtBoard) (k : Nat) (s : RmtReg) : ((b.put k s).hw (b.que k).channel).ena = s.ena := by
  unfold put
  simp

theorem flush_frame (b : RmtBoard) (k : Nat) : (b.flush k).n = b.n ∧ (b.flush k).drv = b.drv ∧ (b.flush k).service = b.service ∧ (b.flush k).que = b.que := ⟨rfl, rfl, rfl, rfl⟩

/-- With an up to date copy nothing else is changed. -/
theorem flush_hw (b : RmtBoard) (k ch : Nat) (h : ∀ r ∈ b.copy k, ch ≠ (b.que k).channel → r ch = (b.hw ch).ena) : (b.flush k).hw ch = b.hw ch := by
  unfold flush
  dsimp only
  cases hc : b.copy k with
  | none => rfl
  | some r =>
    dsimp only
    by_cases hx : ch ≠ (b.que k).channel
    · rw [if_pos hx, h r hc hx]
    · rw [if_neg hx]

theorem flush_view (b : RmtBoard) (k j : Nat) (h : ∀ r ∈ b.copy k, (b.que j).channel ≠ (b.que k).channel → r (b.que j).channel = (b.hw (b.que j).channel).ena) : (b.flush k).view j = b.view j := by
  have hh := flush_hw b k (b.que j).channel h
  unfold view
  dsimp only
  rw [show (b.flush k).que = b.que from rfl, hh]

theorem Own.put {c b} (h : Own c b) (k : Nat) (s : RmtReg) : Own c (b.put k s) := by
  refine ⟨h.1, fun i hi => ?_⟩
  rw [((put_frame b k s).2.2.2.2 _).1]
  exact h.2 i hi

theorem Own.flush {c b} (h : Own c b) (k : Nat) : Own c (b.flush k) := h

theorem owner_eq {c b} (h : Own c b) (ch : Nat) : b.owner c ch = if ch < b.n then some (c.mcpwm + ch) else none := by
  unfold owner
  have : ∀ m, m ≤ b.n → ((List.range m).map (c.mcpwm + ·)).find? (fun k => (b.que k).channel == ch) = if ch < m then some (c.mcpwm + ch) else none := by
    intro m
    induction m with
    | zero => intro _; simp
    | succ m ih =>
      intro hm
      rw [List.range_succ, List.map_append, List.find?_append, ih (by omega)]
      by_cases hlt : ch < m
      · rw [if_pos hlt, if_pos (by omega)]
        rfl
      · rw [if_neg hlt]
        simp only [List.map_cons, List.map_nil, List.find?_cons, List.find?_nil, Option.none_or]
        rw [h.2 m (by omega)]
        by_cases hx : ch = m
        · subst hx
          simp
        · rw [if_neg (by omega)]
          rw [show (m == ch) = false by simp; omega]
  exact this b.n (Nat.le_refl _)

theorem mem_processed {c : RmtChip} {i : Nat} (h : i < c.rmt) : i ∈ processed c := by
  cases c <;> unfold processed <;> simp only [RmtChip.rmt] at h ⊢ <;> simp <;> omega

theorem processed_nodup (c : RmtChip) : (processed c).Nodup := by
  cases c <;> decide

theorem processed_lt {c : RmtChip} {i : Nat} (h : i ∈ processed c) : i < c.rmt := by
  cases c <;> unfold processed at h <;> simp only [RmtChip.rmt] at h ⊢ <;> simp at h <;> omega

/-- Only queues and channels change, not their connections. -/
structure Same (b b' : RmtBoard) : Prop where
  n : b'.n = b.n
  drv : b'.drv = b.drv
  service : b'.service = b.service
  que : ∀ j, (b'.que j).channel = (b.que j).channel ∧ (b'.que j).pin = (b.que j).pin

theorem Same.refl (b : RmtBoard) : Same b b := ⟨rfl, rfl, rfl, fun _ => ⟨rfl, rfl⟩⟩

theorem Same.trans {a b c : RmtBoard} (h : Same a b) (g : Same b c) : Same a c :=
  ⟨g.n.trans h.n, g.drv.trans h.drv, g.service.trans h.service, fun j => ⟨(g.que j).1.trans (h.que j).1, (g.que j).2.trans (h.que j).2⟩⟩

theorem Same.put (b : RmtBoard) (k : Nat) (s : RmtReg) : Same b (b.put k s) := ⟨rfl, rfl, rfl, (put_frame b k s).2.2.2.2⟩

theorem Same.flush (b : RmtBoard) (k : Nat) : Same b (b.flush k) := ⟨rfl, rfl, rfl, fun _ => ⟨rfl, rfl⟩⟩

theorem Same.service1 (c : RmtChip) (b0 b : RmtBoard) (ch : Nat) : Same b (service1 c b0 b ch) := by
  unfold RmtBoard.service1
  dsimp only
  split
  · split
    · exact (Same.put _ _ _).trans (Same.flush _ _)
    · exact Same.put _ _ _
  · exact Same.refl b

theorem Same.fold (c : RmtChip) (b0 : RmtBoard) : ∀ (l : List Nat) (b : RmtBoard), Same b (l.foldl (RmtBoard.service1 c b0) b)
  | [], b => Same.refl b
  | ch :: l, b => (Same.service1 c b0 b ch).trans (Same.fold c b0 l _)

theorem Same.own {c b b'} (h : Same b b') (g : Own c b) : Own c b' := ⟨by rw [h.n]; exact g.1, fun i hi => by rw [(h.que _).1]; exact g.2 i (by rw [← h.n]; exact hi)⟩

theorem Same.wired {c b b'} (h : Same b b') (g : Wired c b) : Wired c b' where
  max := by rw [h.n]; exact g.max
  channels := fun i j hi hj => by
    rw [(h.que _).1, (h.que _).1]
    exact g.channels i j (by rw [← h.n]; exact hi) (by rw [← h.n]; exact hj)
  pins := fun i j hi hj => by
    rw [(h.que _).2, (h.que _).2]
    exact g.pins i j (by rw [← h.n]; exact hi) (by rw [← h.n]; exact hj)
  service := fun i hi => by
    rw [h.service, (h.que _).1]
    exact g.service i (by rw [← h.n]; exact hi)
  pin := fun i hi => by
    rw [h.drv, (h.que _).1, (h.que _).2]
    exact g.pin i (by rw [← h.n]; exact hi)
  only := fun pin ch hp => by
    rw [h.drv] at hp
    obtain ⟨i, hi, h1, h2⟩ := g.only pin ch hp
    exact ⟨i, by rw [h.n]; exact hi, by rw [(h.que _).2]; exact h1, by rw [(h.que _).1]; exact h2⟩

theorem Wired.own {c b} (h : Wired c b) : Own c b := ⟨h.max, fun i hi => by have := (h.service i hi).2.2; omega⟩

theorem Wired.init (c : RmtChip) (junk) : Wired c (init junk) where
  max := Nat.zero_le _
  channels := fun i j hi => absurd hi (Nat.not_lt_zero _)
  pins := fun i j hi => absurd hi (Nat.not_lt_zero _)
  service := fun i hi => absurd hi (Nat.not_lt_zero _)
  pin := fun i hi => absurd hi (Nat.not_lt_zero _)
  only := fun pin ch h => by cases h

theorem pinUsed_false {c b pin} (h : pinUsed c b pin = false) : ∀ i, i < b.n → (b.que (c.mcpwm + i)).pin ≠ pin := by
  intro i hi hx
  unfold pinUsed at h
  rw [List.any_eq_false] at h
  exact h i (List.mem_range.mpr hi) (by simp [hx])

theorem setUp_que (c : RmtChip) (b : RmtBoard) (pin dirPin : Nat) (hi : Bool) (j : Nat) :
    (b.setUp c pin dirPin hi).que j = if j = c.mcpwm + b.n then ⟨(Queue.init .esp32).setDirPin dirPin hi, true, false, false, .idle, b.n, pin⟩ else b.que j := by
  unfold setUp RmtBoard.wire RmtBoard.flush
  dsimp only
  rw [show c.mcpwm + b.n - c.mcpwm = b.n by omega]

theorem setUp_drv (c : RmtChip) (b : RmtBoard) (pin dirPin : Nat) (hi : Bool) (p : Nat) :
    (b.setUp c pin dirPin hi).drv p = if p = pin then some b.n else b.drv p := by
  unfold setUp RmtBoard.wire RmtBoard.flush
  dsimp only
  rw [show c.mcpwm + b.n - c.mcpwm = b.n by omega]
  simp only [if_true]

theorem Wired.setUp {c b} (h : Wired c b) (pin dirPin : Nat) (hi : Bool) (hp : pinUsed c b pin = false) (hn : b.n < c.rmt) : Wired c (b.setUp c pin dirPin hi) := by
  have hpin := pinUsed_false hp
  have hold : ∀ i, i < b.n → (b.setUp c pin dirPin hi).que (c.mcpwm + i) = b.que (c.mcpwm + i) := fun i hx => by
    rw [setUp_que, if_neg (by omega)]
  have hnew : (b.setUp c pin dirPin hi).que (c.mcpwm + b.n) = ⟨(Queue.init .esp32).setDirPin dirPin hi, true, false, false, .idle, b.n, pin⟩ := by
    rw [setUp_que, if_pos rfl]
  have hch := h.own.2
  have hn' : (b.setUp c pin dirPin hi).n = b.n + 1 := rfl
  have hserv : (b.setUp c pin dirPin hi).service = (b.service || decide (b.n = 0)) := by
    change (b.service || decide (c.mcpwm + b.n - c.mcpwm = 0)) = _
    rw [show c.mcpwm + b.n - c.mcpwm = b.n by omega]
  have hcase : ∀ i, i < b.n + 1 → i < b.n ∨ i = b.n := fun i hx => by omega
  have hchan : ∀ i, i < b.n + 1 → ((b.setUp c pin dirPin hi).que (c.mcpwm + i)).channel = i := fun i hx => by
    rcases hcase i hx with hx | rfl
    · rw [hold i hx]; exact hch i hx
    · rw [hnew]
  refine ⟨by rw [hn']; omega, fun i j hi' hj' hx => ?_, fun i j hi' hj' hx => ?_, fun i hi' => ?_, fun i hi' => ?_, fun p ch hx => ?_⟩
  · rw [hn'] at hi' hj'
    rw [hchan i hi', hchan j hj'] at hx
    exact hx
  · rw [hn'] at hi' hj'
    rcases hcase i hi' with h1 | rfl <;> rcases hcase j hj' with h2 | rfl
    · rw [hold i h1, hold j h2] at hx
      exact h.pins i j h1 h2 hx
    · rw [hold i h1, hnew] at hx
      exact absurd hx (hpin i h1)
    · rw [hold j h2, hnew] at hx
      exact absurd hx.symm (hpin j h2)
    · rfl
  · rw [hn'] at hi'
    rw [hchan i hi', hserv]
    refine ⟨?_, mem_processed (by omega), rfl⟩
    by_cases h0 : b.n = 0
    · simp [h0]
    · rw [(h.service 0 (by omega)).1]
      rfl
  · rw [hn'] at hi'
    rw [hchan i hi', setUp_drv]
    rcases hcase i hi' with h1 | rfl
    · rw [hold i h1, if_neg (hpin i h1)]
      have := h.pin i h1
      rw [hch i h1] at this
      exact this
    · rw [hnew, if_pos rfl]
      exact Or.inl rfl
  · rw [setUp_drv] at hx
    rw [hn']
    by_cases hpp : p = pin
    · rw [if_pos hpp] at hx
      injection hx with hx
      exact ⟨b.n, by omega, by rw [hnew, hpp], by rw [hnew]; exact hx⟩
    · rw [if_neg hpp] at hx
      obtain ⟨i, h1, h2, h3⟩ := h.only p ch hx
      exact ⟨i, by omega, by rw [hold i h1]; exact h2, by rw [hold i h1]; exact h3⟩

theorem Wired.step {c b} (h : Wired c b) (ev : Ev) : Wired c (b.step c ev) := by
  cases ev with
  | connect pin dirPin hi =>
    unfold RmtBoard.step
    dsimp only
    by_cases hx : (b.pinUsed c pin || decide (b.n ≥ c.rmt)) = true
    · rw [if_pos hx]; exact h
    · rw [if_neg hx]
      simp only [Bool.or_eq_true, decide_eq_true_eq, not_or, Bool.not_eq_true] at hx
      exact h.setUp pin dirPin hi hx.1 (by omega)
  | detach i =>
    unfold RmtBoard.step
    dsimp only
    split
    · next hi =>
      have hs := (Same.put b (c.mcpwm + i) ((b.view (c.mcpwm + i)).step c.ver .detach)).trans (Same.flush _ (c.mcpwm + i))
      have hw := hs.wired h
      split
      · refine ⟨hw.max, hw.channels, hw.pins, hw.service, fun j hj => ?_, fun p ch hp => ?_⟩
        · have hj' : j < b.n := by rw [← hs.n]; exact hj
          change (if _ = _ then none else _) = _ ∨ (if _ = _ then none else _) = _
          split
          · exact Or.inr rfl
          · have := hw.pin j hj
            rw [hs.drv] at this
            exact this
        · replace hp : (if p = (b.que (c.mcpwm + i)).pin then none else b.drv p) = some ch := hp
          split at hp
          · cases hp
          · exact hw.only p ch (by rw [hs.drv]; exact hp)
      · exact hw
    · exact h
  | reattach i =>
    unfold RmtBoard.step
    dsimp only
    split
    · next hi =>
      refine ⟨h.max, h.channels, h.pins, h.service, fun j hj => ?_, fun p ch hp => ?_⟩
      · change (if _ = _ then _ else _) = _ ∨ (if _ = _ then _ else _) = _
        split
        · next he =>
          left
          have := h.pins j i hj hi he
          subst this
          rfl
        · exact h.pin j hj
      · replace hp : (if p = (b.que (c.mcpwm + i)).pin then some (b.que (c.mcpwm + i)).channel else b.drv p) = some ch := hp
        split at hp
        · next he =>
          injection hp with hp
          exact ⟨i, hi, he.symm, hp⟩
        · exact h.only p ch hp
    · exact h
  | word ch =>
    unfold RmtBoard.step
    dsimp only
    split
    · exact (Same.put _ _ _).wired h
    · exact h
  | isr =>
    unfold RmtBoard.step
    dsimp only
    split
    · exact (Same.fold c b _ b).wired h
    · exact h
  | readEna i =>
    unfold RmtBoard.step
    dsimp only
    split
    · exact ⟨h.max, h.channels, h.pins, h.service, h.pin, h.only⟩
    · exact h
  | stepper i ev =>
    unfold RmtBoard.step
    dsimp only
    split
    · split
      · exact ((Same.put _ _ _).trans (Same.flush _ _)).wired h
      · exact (Same.put _ _ _).wired h
    · exact h

theorem Wired.run {c} : ∀ (evs : List Ev) {b : RmtBoard}, Wired c b → Wired c (b.run c evs)
  | [], _, h => h
  | ev :: evs, _, h => Wired.run evs (h.step ev)

/-! ## Independence -/

/-- The channels not in use yet; the states are up to date. -/
structure Calm (c : RmtChip) (junk : Nat → List Nat × List Nat) (b : RmtBoard) : Prop where
  wired : Wired c b
  blank : ∀ ch, b.n ≤ ch → ch < c.rmt → b.hw ch = (init junk).hw ch
  sync : ∀ i, i < b.n → (b.channel c i).sync = b.channel c i

theorem step_sync (v : RmtVer) (s : RmtReg) (ev : RmtReg.Ev) : (s.step v ev).sync = s.step v ev := rfl

/-- The interrupt of a channel disables it only at the end. -/
theorem isr_ena (v : RmtVer) (s : RmtReg) (h : s.ena = true) (he : (s.step v .isr).ena = false) : s.fin = true := by
  cases hf : s.fin
  · exfalso
    have happ : ∀ (one : Bool) (x : RmtReg), (RmtReg.applyCommand v one x).ena = x.ena := by
      intro one x
      unfold RmtReg.applyCommand
      dsimp only
      repeat' split
      all_goals first | rfl | (unfold RmtReg.put; split <;> rfl)
    have : (RmtReg.isr v s).ena = true := by
      unfold RmtReg.isr
      dsimp only
      simp only [hf, Bool.false_and, Bool.false_eq_true, if_false]
      repeat' split
      all_goals first | exact h | exact (happ _ _).trans h
    change (RmtReg.isr v s).ena = false at he
    rw [this] at he
    cases he
  · rfl

theorem copy_none {b : RmtBoard} {k : Nat} (h : b.copy k = none) : (b.flush k).hw = b.hw ∧ (b.flush k).copy = b.copy := by
  refine ⟨?_, ?_⟩
  · funext ch
    exact flush_hw b k ch fun r hr => by rw [h] at hr; cases hr
  · funext j
    unfold flush
    dsimp only
    split
    · next hj => rw [hj, h]
    · rfl

/-- What the interrupt service does for one channel. -/
theorem service1_spec {c b0 b} (ho : Own c b) {ch : Nat} (hch : ch < b.n) (hhw : b.hw ch = b0.hw ch) (hs : (b.view (c.mcpwm + ch)).sync = b.view (c.mcpwm + ch))
    (hq : (b0.hw ch).ena = true → (b0.hw ch).fin = true → b.copy (c.mcpwm + ch) = none) :
    (service1 c b0 b ch).view (c.mcpwm + ch) = (b.view (c.mcpwm + ch)).step c.ver .isr ∧ (service1 c b0 b ch).copy = b.copy ∧ (∀ j, j ≠ ch → (service1 c b0 b ch).hw j = b.hw j) ∧
      (∀ j, j < b.n → j ≠ ch → (service1 c b0 b ch).view (c.mcpwm + j) = b.view (c.mcpwm + j)) := by
  have hv := ho.view hch
  have he : (b.view (c.mcpwm + ch)).ena = (b0.hw ch).ena := by rw [hv, ← hhw]
  have hf : (b.view (c.mcpwm + ch)).fin = (b0.hw ch).fin := by rw [hv, ← hhw]
  have ht : (b.view (c.mcpwm + ch)).thr = (b0.hw ch).thr := by rw [hv, ← hhw]
  unfold service1
  dsimp only
  by_cases hm : ((b0.hw ch).ena && ((b0.hw ch).fin || (b0.hw ch).thr)) = true
  · rw [if_pos hm]
    have hena : (b0.hw ch).ena = true := by revert hm; cases (b0.hw ch).ena <;> simp
    have hsame : { b.view (c.mcpwm + ch) with ena := (b0.hw ch).ena } = b.view (c.mcpwm + ch) := by rw [← he]
    rw [hsame, he, hena]
    simp only [Bool.true_and]
    have heta : { (b.view (c.mcpwm + ch)).step c.ver .isr with ena := ((b.view (c.mcpwm + ch)).step c.ver .isr).ena } = (b.view (c.mcpwm + ch)).step c.ver .isr := rfl
    rw [heta]
    have hput : ((b.put (c.mcpwm + ch) ((b.view (c.mcpwm + ch)).step c.ver .isr)).view (c.mcpwm + ch) = (b.view (c.mcpwm + ch)).step c.ver .isr) ∧
        (∀ j, j ≠ ch → (b.put (c.mcpwm + ch) ((b.view (c.mcpwm + ch)).step c.ver .isr)).hw j = b.hw j) ∧
        (∀ j, j < b.n → j ≠ ch → (b.put (c.mcpwm + ch) ((b.view (c.mcpwm + ch)).step c.ver .isr)).view (c.mcpwm + j) = b.view (c.mcpwm + j)) :=
      ⟨view_put _ _ _, fun j hj => put_hw _ _ _ (by rw [ho.2 ch hch]; exact hj), fun j hj hne => view_put_other _ _ (by omega) (by rw [ho.2 j hj, ho.2 ch hch]; exact hne)⟩
    by_cases hx : ((b.view (c.mcpwm + ch)).step c.ver .isr).ena = false
    · rw [if_pos (by rw [hx]; rfl)]
      have hcn : (b.put (c.mcpwm + ch) ((b.view (c.mcpwm + ch)).step c.ver .isr)).copy (c.mcpwm + ch) = none := hq hena (by rw [← hf]; exact isr_ena c.ver _ (he.trans hena) hx)
      obtain ⟨c1, c2⟩ := copy_none hcn
      have hvv : ∀ j, ((b.put (c.mcpwm + ch) ((b.view (c.mcpwm + ch)).step c.ver .isr)).flush (c.mcpwm + ch)).view j = (b.put (c.mcpwm + ch) ((b.view (c.mcpwm + ch)).step c.ver .isr)).view j :=
        fun j => flush_view _ _ _ fun r hr => by rw [hcn] at hr; cases hr
      refine ⟨by rw [hvv]; exact hput.1, c2, fun j hj => by rw [c1]; exact hput.2.1 j hj, fun j hj hne => by rw [hvv]; exact hput.2.2 j hj hne⟩
    · rw [if_neg (by revert hx; cases ((b.view (c.mcpwm + ch)).step c.ver .isr).ena <;> simp)]
      exact ⟨hput.1, rfl, hput.2.1, hput.2.2⟩
  · rw [if_neg hm]
    refine ⟨?_, rfl, fun _ _ => rfl, fun _ _ _ => rfl⟩
    change _ = (RmtReg.isr c.ver (b.view (c.mcpwm + ch))).sync
    have hmask : (((b.view (c.mcpwm + ch)).fin && (b.view (c.mcpwm + ch)).ena) = false) ∧ (((b.view (c.mcpwm + ch)).thr && (b.view (c.mcpwm + ch)).ena) = false) := by
      rw [he, hf, ht]
      revert hm
      cases (b0.hw ch).ena <;> cases (b0.hw ch).fin <;> cases (b0.hw ch).thr <;> simp
    have hnone : RmtReg.isr c.ver (b.view (c.mcpwm + ch)) = b.view (c.mcpwm + ch) := by
      generalize b.view (c.mcpwm + ch) = s at *
      obtain ⟨h1, h2⟩ := hmask
      unfold RmtReg.isr
      dsimp only
      rw [h1, h2]
      simp
    rw [hnone]
    exact hs.symm

/-- What the interrupt service does for a list of channels. -/
theorem fold_spec {c b0} (hq : ∀ i, i < b0.n → (b0.hw i).ena = true → (b0.hw i).fin = true → b0.copy (c.mcpwm + i) = none) (hblank : ∀ ch, b0.n ≤ ch → ch < c.rmt → (b0.hw ch).ena = false) :
    ∀ (l : List Nat) (b : RmtBoard), l.Nodup → (∀ ch ∈ l, ch < c.rmt) → Own c b → b.n = b0.n → b.copy = b0.copy → (∀ ch ∈ l, b.hw ch = b0.hw ch) →
      (∀ i, i < b.n → (b.view (c.mcpwm + i)).sync = b.view (c.mcpwm + i)) →
      (l.foldl (service1 c b0) b).copy = b.copy ∧ (∀ ch, (ch ∉ l ∨ b0.n ≤ ch) → (l.foldl (service1 c b0) b).hw ch = b.hw ch) ∧
        ∀ i, i < b.n → (l.foldl (service1 c b0) b).view (c.mcpwm + i) = if i ∈ l then (b.view (c.mcpwm + i)).step c.ver .isr else b.view (c.mcpwm + i)
  | [], b, _, _, _, _, _, _, _ => ⟨rfl, fun _ _ => rfl, fun i _ => by simp⟩
  | ch :: l, b, hnd, hlt, ho, hn, hcp, hhw, hs => by
    obtain ⟨hnot, hnd'⟩ := List.nodup_cons.mp hnd
    have hsame := Same.service1 c b0 b ch
    by_cases hch : ch < b.n
    · obtain ⟨k1, k2, k3, k4⟩ := service1_spec ho hch (hhw ch (by simp)) (hs ch hch) (by rw [hcp]; exact hq ch (by omega))
      obtain ⟨g1, g2, g3⟩ := fold_spec hq hblank l (service1 c b0 b ch) hnd' (fun x hx => hlt x (List.mem_cons_of_mem _ hx)) (hsame.own ho) (hsame.n.trans hn) (k2.trans hcp)
        (fun x hx => by rw [k3 x fun he => hnot (he ▸ hx)]; exact hhw x (List.mem_cons_of_mem _ hx))
        (fun i hi => by
          rw [hsame.n] at hi
          by_cases he : i = ch
          · subst he; rw [k1]; rfl
          · rw [k4 i hi he]; exact hs i hi)
      refine ⟨g1.trans k2, fun x hx => ?_, fun i hi => ?_⟩
      · have hxne : x ≠ ch := by
          rintro rfl
          rcases hx with hx | hx
          · simp at hx
          · omega
        refine (g2 x ?_).trans (k3 x hxne)
        rcases hx with hx | hx
        · exact Or.inl fun hm => hx (List.mem_cons_of_mem _ hm)
        · exact Or.inr hx
      · rw [List.foldl_cons, g3 i (by rw [hsame.n]; exact hi)]
        by_cases he : i = ch
        · subst he
          rw [if_neg hnot, if_pos (by simp), k1]
        · rw [k4 i hi he]
          simp [he]
    · have hnone : service1 c b0 b ch = b := by
        unfold service1
        dsimp only
        rw [if_neg (by rw [hblank ch (by omega) (hlt ch (by simp))]; simp)]
      rw [List.foldl_cons, hnone]
      obtain ⟨g1, g2, g3⟩ := fold_spec hq hblank l b hnd' (fun x hx => hlt x (List.mem_cons_of_mem _ hx)) ho hn hcp (fun x hx => hhw x (List.mem_cons_of_mem _ hx)) hs
      refine ⟨g1, fun x hx => g2 x ?_, fun i hi => ?_⟩
      · rcases hx with hx | hx
        · exact Or.inl fun hm => hx (List.mem_cons_of_mem _ hm)
        · exact Or.inr hx
      · rw [g3 i hi]
        have : i ≠ ch := by omega
        simp [this]

/-- Code of stepper `i` with an up to date copy of the register. -/
theorem put_flush {c b} (ho : Own c b) {i : Nat} (hi : i < b.n) (s : RmtReg) (hu : b.UpToDate c i) :
    let b' := (b.put (c.mcpwm + i) s).flush (c.mcpwm + i)
    b'.view (c.mcpwm + i) = s ∧ (∀ j, j < b.n → j ≠ i → b'.view (c.mcpwm + j) = b.view (c.mcpwm + j)) ∧ (∀ ch, ch < c.rmt → ch ≠ i → b'.hw ch = b.hw ch) := by
  intro b'
  have hr := ho.1
  have hcp : (b.put (c.mcpwm + i) s).copy = b.copy := rfl
  have hchan : ∀ j, j < b.n → ((b.put (c.mcpwm + i) s).que (c.mcpwm + j)).channel = j := fun j hj => by
    rw [((put_frame b _ s).2.2.2.2 _).1]; exact ho.2 j hj
  refine ⟨?_, fun j hj hne => ?_, fun ch hch hne => ?_⟩
  · refine (flush_view _ _ _ fun r hr hne => ?_).trans (view_put _ _ _)
    exact absurd rfl hne
  · refine (flush_view _ _ _ fun r hr' hne' => ?_).trans (view_put_other _ _ (by omega) (by rw [ho.2 j hj, ho.2 i hi]; exact hne))
    rw [hchan j hj, put_hw _ _ _ (by rw [ho.2 i hi]; exact hne)]
    exact hu r hr' j (by omega) hne
  · refine (flush_hw _ _ _ fun r hr' hne' => ?_).trans (put_hw _ _ _ (by rw [ho.2 i hi]; exact hne))
    rw [put_hw _ _ _ (by rw [ho.2 i hi]; exact hne)]
    exact hu r hr' ch hch hne

/-- The same without writing the register. -/
theorem put_only {c b} (ho : Own c b) {i : Nat} (hi : i < b.n) (s : RmtReg) :
    let b' := b.put (c.mcpwm + i) s
    b'.view (c.mcpwm + i) = s ∧ (∀ j, j < b.n → j ≠ i → b'.view (c.mcpwm + j) = b.view (c.mcpwm + j)) ∧ (∀ ch, ch < c.rmt → ch ≠ i → b'.hw ch = b.hw ch) :=
  ⟨view_put _ _ _, fun j hj hne => view_put_other _ _ (by omega) (by rw [ho.2 j hj, ho.2 i hi]; exact hne), fun _ _ hne => put_hw _ _ _ (by rw [ho.2 i hi]; exact hne)⟩

/-- One event. -/
theorem step_channel {c junk b} (h : Calm c junk b) (ev : Ev) (hq : Quiet c b ev) :
    Calm c junk (b.step c ev) ∧ b.n ≤ (b.step c ev).n ∧ (∀ i, i < b.n → (b.step c ev).channel c i = RmtReg.run c.ver (b.channel c i) (mine c i b [ev])) ∧
      (b.n < (b.step c ev).n → (b.step c ev).n = b.n + 1 ∧ ∃ pin dirPin hi, ev = .connect pin dirPin hi ∧ (b.step c ev).channel c b.n = RmtReg.freshMem dirPin hi (junk b.n).1 (junk b.n).2) := by
  have hw := h.wired
  have ho := hw.own
  have hw' := hw.step ev
  -- nothing relevant happens
  have keep : ∀ b', b.step c ev = b' → b'.n = b.n → (∀ j, b'.view j = b.view j) → (∀ ch, b'.hw ch = b.hw ch) → (∀ i, i < b.n → mine c i b [ev] = []) →
      Calm c junk (b.step c ev) ∧ b.n ≤ (b.step c ev).n ∧ (∀ i, i < b.n → (b.step c ev).channel c i = RmtReg.run c.ver (b.channel c i) (mine c i b [ev])) ∧
      (b.n < (b.step c ev).n → (b.step c ev).n = b.n + 1 ∧ ∃ pin dirPin hi, ev = .connect pin dirPin hi ∧ (b.step c ev).channel c b.n = RmtReg.freshMem dirPin hi (junk b.n).1 (junk b.n).2) := by
    intro b' he hn hv hh hm
    rw [he] at hw' ⊢
    refine ⟨⟨hw', fun ch h1 h2 => by rw [hh]; exact h.blank ch (by omega) h2, fun i hi => ?_⟩, by omega, fun i hi => ?_, fun hx => by omega⟩
    · unfold channel
      rw [hv]
      exact h.sync i (by omega)
    · rw [hm i hi]
      exact hv _
  -- one stepper does something
  have one : ∀ (i : Nat) (b' : RmtBoard) (s : RmtReg), b.step c ev = b' → i < b.n → b'.n = b.n → s.sync = s →
      (b'.view (c.mcpwm + i) = s ∧ (∀ j, j < b.n → j ≠ i → b'.view (c.mcpwm + j) = b.view (c.mcpwm + j)) ∧ (∀ ch, ch < c.rmt → ch ≠ i → b'.hw ch = b.hw ch)) →
      (∀ j, j < b.n → j ≠ i → mine c j b [ev] = []) → s = RmtReg.run c.ver (b.channel c i) (mine c i b [ev]) →
      Calm c junk (b.step c ev) ∧ b.n ≤ (b.step c ev).n ∧ (∀ i, i < b.n → (b.step c ev).channel c i = RmtReg.run c.ver (b.channel c i) (mine c i b [ev])) ∧
      (b.n < (b.step c ev).n → (b.step c ev).n = b.n + 1 ∧ ∃ pin dirPin hi, ev = .connect pin dirPin hi ∧ (b.step c ev).channel c b.n = RmtReg.freshMem dirPin hi (junk b.n).1 (junk b.n).2) := by
    intro i b' s he hi hn hs hp hm hrun
    obtain ⟨p1, p2, p3⟩ := hp
    rw [he] at hw' ⊢
    refine ⟨⟨hw', fun ch h1 h2 => by rw [p3 ch h2 (by omega)]; exact h.blank ch (by omega) h2, fun j hj => ?_⟩, by omega, fun j hj => ?_, fun hx => by omega⟩
    · unfold channel
      by_cases hji : j = i
      · subst hji; rw [p1]; exact hs
      · rw [p2 j (by omega) hji]; exact h.sync j (by omega)
    · by_cases hji : j = i
      · subst hji; exact p1.trans hrun
      · rw [hm j hj hji]; exact p2 j hj hji
  cases ev with
  | connect pin dirPin hi =>
    by_cases hx : (b.pinUsed c pin || decide (b.n ≥ c.rmt)) = true
    · exact keep b (if_pos hx) rfl (fun _ => rfl) (fun _ => rfl) (fun i hi => by simp [mine, hi])
    · have hst : b.step c (.connect pin dirPin hi) = b.setUp c pin dirPin hi := if_neg hx
      simp only [Bool.or_eq_true, decide_eq_true_eq, not_or, Bool.not_eq_true] at hx
      rw [hst] at hw' ⊢
      have hn' : (b.setUp c pin dirPin hi).n = b.n + 1 := rfl
      have hhw : ∀ ch, ch < c.rmt → (b.setUp c pin dirPin hi).hw ch = if ch = b.n then { b.hw b.n with ena := false, sending := false } else b.hw ch := by
        intro ch hch
        unfold setUp
        dsimp only
        rw [show c.mcpwm + b.n - c.mcpwm = b.n by omega]
        refine (flush_hw _ _ _ fun r hr hne => ?_).trans rfl
        have hne' : ch ≠ b.n := by
          refine fun he => hne ?_
          rw [he]
          unfold RmtBoard.wire
          simp only [if_true]
        change r ch = (if ch = b.n then _ else b.hw ch).ena
        rw [if_neg hne']
        exact hq r hr ch hch hne'
      have hnew : (b.setUp c pin dirPin hi).channel c b.n = RmtReg.freshMem dirPin hi (junk b.n).1 (junk b.n).2 := by
        unfold channel
        rw [Own.view hw'.own (by omega), setUp_que, if_pos rfl, hhw b.n (by omega), if_pos rfl, h.blank b.n (Nat.le_refl _) (by omega)]
        rfl
      have hold : ∀ i, i < b.n → (b.setUp c pin dirPin hi).channel c i = b.channel c i := by
        intro i hi'
        unfold channel
        rw [Own.view hw'.own (by omega), ho.view hi', setUp_que, if_neg (by omega), hhw i (by omega), if_neg (by omega)]
      refine ⟨⟨hw', fun ch h1 h2 => ?_, fun i hi' => ?_⟩, by omega, fun i hi' => ?_, fun _ => ⟨rfl, pin, dirPin, hi, rfl, hnew⟩⟩
      · rw [hhw ch h2, if_neg (by omega)]
        exact h.blank ch (by omega) h2
      · by_cases hin : i = b.n
        · subst hin
          rw [hnew]
          rfl
        · rw [hold i (by omega)]
          exact h.sync i (by omega)
      · rw [hold i hi']
        simp [mine, hi']
        rfl
  | detach i =>
    by_cases hi : i < b.n
    · have hp := put_flush ho hi ((b.view (c.mcpwm + i)).step c.ver .detach) hq
      by_cases hv : c.ver = .idf4
      · have hst : b.step c (.detach i) = { (b.put (c.mcpwm + i) ((b.view (c.mcpwm + i)).step c.ver .detach)).flush (c.mcpwm + i) with
                                            drv := fun pin => if pin = (b.que (c.mcpwm + i)).pin then none else b.drv pin } := by
          unfold RmtBoard.step; dsimp only; rw [if_pos hi, if_pos hv]
        refine one i _ _ hst hi (by rfl) (by rfl) hp (fun j hj hne => ?_) ?_
        · simp [mine, hj, Ne.symm hne]
        · simp [mine, hi]
          rfl
      · have hst : b.step c (.detach i) = (b.put (c.mcpwm + i) ((b.view (c.mcpwm + i)).step c.ver .detach)).flush (c.mcpwm + i) := by
          unfold RmtBoard.step; dsimp only; rw [if_pos hi, if_neg hv]
        refine one i _ _ hst hi (by rfl) (by rfl) hp (fun j hj hne => ?_) ?_
        · simp [mine, hj, Ne.symm hne]
        · simp [mine, hi]
          rfl
    · exact keep b (if_neg hi) rfl (fun _ => rfl) (fun _ => rfl) (fun j hj => by
        have : i ≠ j := by omega
        simp [mine, hj, this])
  | reattach i =>
    by_cases hi : i < b.n
    · exact keep _ (if_pos hi) rfl (fun _ => rfl) (fun _ => rfl) (fun j hj => by simp [mine, hj])
    · exact keep b (if_neg hi) rfl (fun _ => rfl) (fun _ => rfl) (fun j hj => by simp [mine, hj])
  | word ch =>
    have hown := owner_eq ho ch
    by_cases hch : ch < b.n
    · rw [if_pos hch] at hown
      have hst : b.step c (.word ch) = b.put (c.mcpwm + ch) ((b.view (c.mcpwm + ch)).step c.ver .word) := by
        unfold RmtBoard.step; dsimp only; rw [hown]
      refine one ch _ _ hst hch (by rfl) (by rfl) (put_only ho hch ((b.view (c.mcpwm + ch)).step c.ver .word)) (fun j hj hne => ?_) ?_
      · simp [mine, hj, Ne.symm hne]
      · simp [mine, hch]
        rfl
    · rw [if_neg hch] at hown
      exact keep b (by unfold RmtBoard.step; dsimp only; rw [hown]) rfl (fun _ => rfl) (fun _ => rfl) (fun j hj => by
        have : ch ≠ j := by omega
        simp [mine, hj, this])
  | isr =>
    by_cases h0 : b.n = 0
    · have hst : (b.step c .isr).n = b.n := by
        unfold RmtBoard.step
        dsimp only
        split
        · exact (Same.fold c b _ b).n
        · rfl
      have hhw : ∀ ch, ch < c.rmt → (b.step c .isr).hw ch = b.hw ch := by
        intro ch hch
        unfold RmtBoard.step
        dsimp only
        split
        · exact (fold_spec hq (fun ch h1 h2 => by rw [h.blank ch h1 h2]; rfl) (processed c) b (processed_nodup c) (fun ch hm => processed_lt hm) ho rfl rfl (fun _ _ => rfl) h.sync).2.1 ch (Or.inr (by omega))
        · rfl
      exact ⟨⟨hw', fun ch h1 h2 => by rw [hhw ch h2]; exact h.blank ch (by omega) h2, fun i hi => by omega⟩, by omega, fun i hi => by omega, fun hx => by omega⟩
    · have hserv := (hw.service 0 (by omega)).1
      have hst : b.step c .isr = (processed c).foldl (service1 c b) b := if_pos hserv
      obtain ⟨g1, g2, g3⟩ := fold_spec hq (fun ch h1 h2 => by rw [h.blank ch h1 h2]; rfl) (processed c) b (processed_nodup c) (fun ch hm => processed_lt hm) ho rfl rfl (fun _ _ => rfl) h.sync
      have hn := (Same.fold c b (processed c) b).n
      rw [hst] at hw' ⊢
      have hch : ∀ i, i < b.n → ((processed c).foldl (service1 c b) b).channel c i = (b.channel c i).step c.ver .isr := fun i hi => by
        unfold channel
        rw [g3 i hi, if_pos (mem_processed (by have := hw.max; omega))]
      refine ⟨⟨hw', fun ch h1 h2 => by rw [g2 ch (Or.inr (by omega))]; exact h.blank ch (by omega) h2, fun i hi => by rw [hch i (by omega)]; rfl⟩, by omega, fun i hi => ?_, fun hx => by omega⟩
      rw [hch i hi]
      simp [mine, hi]
      rfl
  | readEna i =>
    by_cases hi : c.ver = .idf4s ∧ i < c.rmt
    · exact keep _ (if_pos hi) rfl (fun _ => rfl) (fun _ => rfl) (fun j hj => by simp [mine, hj])
    · exact keep b (if_neg hi) rfl (fun _ => rfl) (fun _ => rfl) (fun j hj => by simp [mine, hj])
  | stepper i ev =>
    by_cases hi : i < b.n ∧ apiCall ev = true
    · have hmo : ∀ j, j < b.n → j ≠ i → mine c j b [.stepper i ev] = [] := fun j hj hne => by simp [mine, hj, Ne.symm hne]
      have hmi : (b.view (c.mcpwm + i)).step c.ver ev = RmtReg.run c.ver (b.channel c i) (mine c i b [.stepper i ev]) := by
        simp [mine, hi]
        rfl
      by_cases hr : (!(b.view (c.mcpwm + i)).q.running && ((b.view (c.mcpwm + i)).step c.ver ev).q.running) = true
      · have hst : b.step c (.stepper i ev) = (b.put (c.mcpwm + i) ((b.view (c.mcpwm + i)).step c.ver ev)).flush (c.mcpwm + i) := by
          unfold RmtBoard.step; dsimp only; rw [if_pos hi, if_pos hr]
        exact one i _ _ hst hi.1 (by rfl) (by rfl) (put_flush ho hi.1 _ hq) hmo hmi
      · have hst : b.step c (.stepper i ev) = b.put (c.mcpwm + i) ((b.view (c.mcpwm + i)).step c.ver ev) := by
          unfold RmtBoard.step; dsimp only; rw [if_pos hi, if_neg hr]
        exact one i _ _ hst hi.1 (by rfl) (by rfl) (put_only ho hi.1 _) hmo hmi
    · refine keep b (if_neg hi) rfl (fun _ => rfl) (fun _ => rfl) (fun j hj => ?_)
      by_cases hji : i = j
      · subst hji
        have hx : apiCall ev = false := by
          by_cases hx : apiCall ev = true
          · exact absurd ⟨hj, hx⟩ hi
          · exact Bool.not_eq_true _ ▸ hx
        simp [mine, hx]
      · simp [mine, hj, hji]

theorem flush_none {b : RmtBoard} {k : Nat} (h : b.copy k = none) (j : Nat) : (b.flush j).copy k = none := by
  unfold flush
  dsimp only
  split
  · rfl
  · exact h

theorem service1_none {c b0} {b : RmtBoard} {k : Nat} (h : b.copy k = none) (ch : Nat) : (service1 c b0 b ch).copy k = none := by
  unfold service1
  dsimp only
  split
  · split
    · exact flush_none h _
    · exact h
  · exact h

theorem fold_none {c b0} : ∀ (l : List Nat) {b : RmtBoard} {k : Nat}, b.copy k = none → (l.foldl (service1 c b0) b).copy k = none
  | [], _, _, h => h
  | ch :: l, _, _, h => fold_none l (service1_none h ch)

/-- Events other than reading the register leave no copy of it. -/
theorem copy_stays {c : RmtChip} {b : RmtBoard} {k : Nat} (h : b.copy k = none) (ev : Ev) (hv : ∀ i, ev = .readEna i → c.ver = .idf4 ∨ c.mcpwm + i ≠ k) : (b.step c ev).copy k = none := by
  cases ev with
  | connect pin dirPin hi =>
    unfold RmtBoard.step
    dsimp only
    split
    · exact h
    · unfold setUp
      dsimp only
      exact flush_none h _
  | detach i =>
    unfold RmtBoard.step
    dsimp only
    split
    · split
      · exact flush_none (b := RmtBoard.put _ _ _) h _
      · exact flush_none (b := RmtBoard.put _ _ _) h _
    · exact h
  | reattach i =>
    unfold RmtBoard.step
    dsimp only
    split
    · exact h
    · exact h
  | word ch =>
    unfold RmtBoard.step
    dsimp only
    split
    · exact h
    · exact h
  | isr =>
    unfold RmtBoard.step
    dsimp only
    split
    · exact fold_none _ h
    · exact h
  | readEna i =>
    unfold RmtBoard.step
    dsimp only
    split
    · next hx =>
      rcases hv i rfl with hv | hv
      · rw [hx.1] at hv; cases hv
      · exact (if_neg (fun he => hv he.symm)).trans h
    · exact h
  | stepper i ev =>
    unfold RmtBoard.step
    dsimp only
    split
    · split
      · exact flush_none (b := RmtBoard.put _ _ _) h _
      · exact h
    · exact h

/-- Without copies of the register all is quiet. -/
theorem quiet_none {c b} (h : ∀ k, b.copy k = none) (ev : Ev) : Quiet c b ev := by
  have hu : ∀ i, b.UpToDate c i := fun i r hr => by rw [h] at hr; cases hr
  cases ev <;> first | exact hu _ | exact trivial | exact fun i _ _ _ => h _

theorem quiet_all {c} : ∀ (evs : List Ev) {b : RmtBoard}, (∀ ev ∈ evs, ∀ i, ev = .readEna i → c.ver = .idf4) → (∀ k, b.copy k = none) → Along c (Quiet c) b evs
  | [], _, _, _ => trivial
  | ev :: evs, _, hv, h => ⟨quiet_none h ev, quiet_all evs (fun e he => hv e (List.mem_cons_of_mem _ he)) (fun k => copy_stays (h k) ev fun i hi => Or.inl (hv ev (by simp) i hi))⟩

end RmtBoard
end FAS
