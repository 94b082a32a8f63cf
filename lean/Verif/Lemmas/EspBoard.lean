import Verif.Spec.EspBoard

/-!
# Lemmas for C91
-/

namespace FAS

/-! ## The reset bit -/

namespace Mcpwm
variable {σ : Type} (hw : PcntHw σ)

/-- without the reset bit -/
def base (s : Mcpwm (σ × Bool)) : Mcpwm σ :=
  { q := s.q, prepared := s.prepared, timer := s.timer, run := s.run, period := s.period, shadow := s.shadow, atZero := s.atZero, out := s.out, tea := s.tea, ena := s.ena,
    pcnt := s.pcnt.1, irq := s.irq, snap := s.snap, pc := s.pc, log := s.log }

theorem base_adjust (steps : Nat) (s : Adj (σ × Bool)) :
    let r := adjust (resettable hw) steps none s
    let r' := adjust hw steps none ⟨s.p.1, s.tea, s.irq⟩
    r.1.p.1 = r'.1.p ∧ r.1.tea = r'.1.tea ∧ r.1.irq = r'.1.irq ∧ r.2 = r'.2 ∧ r.1.p.2 = false := by
  obtain ⟨⟨p, f⟩, tea, irq⟩ := s
  simp only [adjust, arrive, resettable]
  repeat' split
  all_goals simp_all

theorem base_apply (s : Mcpwm (σ × Bool)) (e : Entry) : (s.apply (resettable hw) e).base = s.base.apply hw e := by
  obtain ⟨h1, h2, h3, h4, _⟩ := base_adjust hw e.steps ⟨s.pcnt, s.tea, s.irq⟩
  unfold apply
  by_cases hs : e.steps = 0
  · simp only [hs, if_true]
    rfl
  · by_cases hl : hw.lim s.pcnt.1 = e.steps
    · have hl' : (resettable hw).lim s.pcnt = e.steps := hl
      have hl2 : hw.lim s.base.pcnt = e.steps := hl
      simp only [hs, hl', hl2, if_false, ne_eq, not_true_eq_false]
      rfl
    · have hl' : ¬ (resettable hw).lim s.pcnt = e.steps := hl
      have hl2 : ¬ hw.lim s.base.pcnt = e.steps := hl
      simp only [hs, hl', hl2, if_false, ne_eq, not_false_eq_true, if_true]
      unfold base
      dsimp only
      simp only [h1, h2, h3, h4]

theorem apply_flag (s : Mcpwm (σ × Bool)) (e : Entry) (h : s.pcnt.2 = false) : (s.apply (resettable hw) e).pcnt.2 = false := by
  obtain ⟨_, _, _, _, h5⟩ := base_adjust hw e.steps ⟨s.pcnt, s.tea, s.irq⟩
  unfold apply
  by_cases hs : e.steps = 0
  · simp only [hs, if_true]
    exact h
  · by_cases hl : (resettable hw).lim s.pcnt = e.steps
    · simp only [hs, hl, if_false, ne_eq, not_true_eq_false]
      exact h
    · simp only [hs, hl, if_false, ne_eq, not_false_eq_true, if_true]
      exact h5

theorem apply_snap {τ : Type} (hw : PcntHw τ) (s : Mcpwm τ) (e : Entry) : (s.apply hw e).snap = s.snap := by
  unfold apply
  dsimp only
  repeat' split
  all_goals rfl

theorem base_prepareNext (e : Entry) (p : σ × Bool) : (prepareNext (resettable hw) e p).1 = prepareNext hw e p.1 ∧ (prepareNext (resettable hw) e p).2 = p.2 := by
  unfold prepareNext
  split <;> exact ⟨rfl, rfl⟩

theorem apply_q {τ : Type} (hw : PcntHw τ) (s : Mcpwm τ) (e : Entry) : (s.apply hw e).q = if e.toggleDir then { s.q with dirLevel := !s.q.dirLevel } else s.q := by
  unfold apply
  dsimp only
  repeat' split
  all_goals rfl

/-- `whatIsNext` in parts: the completed entry -/
def wnAdv {τ : Type} (rep : Bool) (s : Mcpwm τ) : Mcpwm τ := if rep then { s with prepared := false } else { s with prepared := false, q := s.q.complete }

/-- the counter for an entry not prepared -/
def wnLoad {τ : Type} (hw : PcntHw τ) (p : Bool) (e : Entry) (s : Mcpwm τ) : Mcpwm τ :=
  if p then s else { s with pcnt := hw.clear (prepareNext hw e s.pcnt) }

/-- the entry after it -/
def wnNext {τ : Type} (hw : PcntHw τ) (rep : Bool) (s : Mcpwm τ) : Mcpwm τ :=
  if rep then s
  else if u8 (s.q.readIdx + 1) = s.q.nextWriteIdx then s
  else { s with prepared := true, pcnt := prepareNext hw (s.q.slot .esp32 (u8 (s.q.readIdx + 1))) s.pcnt }

theorem whatIsNext_eq {τ : Type} (hw : PcntHw τ) (s : Mcpwm τ) :
    s.whatIsNext hw =
      if s.q.readIdx = s.q.nextWriteIdx then initStop { s with prepared := false }
      else
        if (wnAdv (s.q.slot .esp32 s.q.readIdx).repeatEntry s).q.readIdx = (wnAdv (s.q.slot .esp32 s.q.readIdx).repeatEntry s).q.nextWriteIdx then
          initStop (wnAdv (s.q.slot .esp32 s.q.readIdx).repeatEntry s)
        else
          wnNext hw (s.q.slot .esp32 s.q.readIdx).repeatEntry
            (apply hw
              (wnLoad hw s.prepared ((wnAdv (s.q.slot .esp32 s.q.readIdx).repeatEntry s).q.slot .esp32 (wnAdv (s.q.slot .esp32 s.q.readIdx).repeatEntry s).q.readIdx)
                (wnAdv (s.q.slot .esp32 s.q.readIdx).repeatEntry s))
              ((wnAdv (s.q.slot .esp32 s.q.readIdx).repeatEntry s).q.slot .esp32 (wnAdv (s.q.slot .esp32 s.q.readIdx).repeatEntry s).q.readIdx)) := by
  have hq : ∀ (p : Bool) (e : Entry) (x : Mcpwm τ), (wnLoad hw p e x).q = x.q := by
    intro p e x
    unfold wnLoad
    split <;> rfl
  unfold whatIsNext wnNext wnLoad wnAdv
  rfl

theorem base_wnAdv (rep : Bool) (s : Mcpwm (σ × Bool)) : (wnAdv rep s).base = wnAdv rep s.base := by
  unfold wnAdv
  split <;> rfl

theorem base_wnLoad (p : Bool) (e : Entry) (s : Mcpwm (σ × Bool)) : (wnLoad (resettable hw) p e s).base = wnLoad hw p e s.base := by
  unfold wnLoad
  split
  · rfl
  · change ({ s.base with pcnt := hw.clear (prepareNext (resettable hw) e s.pcnt).1 } : Mcpwm σ) = _
    rw [(base_prepareNext hw e s.pcnt).1]
    rfl

theorem base_wnNext (rep : Bool) (s : Mcpwm (σ × Bool)) : (wnNext (resettable hw) rep s).base = wnNext hw rep s.base := by
  unfold wnNext
  have e1 : s.base.q = s.q := rfl
  rw [e1]
  split
  · rfl
  split
  · rfl
  · change ({ s.base with prepared := true, pcnt := (prepareNext (resettable hw) (s.q.slot .esp32 (u8 (s.q.readIdx + 1))) s.pcnt).1 } : Mcpwm σ) = _
    rw [(base_prepareNext hw _ s.pcnt).1]
    rfl

theorem base_whatIsNext (s : Mcpwm (σ × Bool)) : (s.whatIsNext (resettable hw)).base = s.base.whatIsNext hw := by
  rw [whatIsNext_eq, whatIsNext_eq]
  have e1 : s.base.q = s.q := rfl
  have e2 : s.base.prepared = s.prepared := rfl
  rw [e1, e2, ← base_wnAdv]
  generalize wnAdv (s.q.slot .esp32 s.q.readIdx).repeatEntry s = s1
  have e3 : s1.base.q = s1.q := rfl
  rw [e3]
  split
  · rfl
  split
  · rfl
  · rw [base_wnNext, base_apply, base_wnLoad]

theorem wnAdv_snap {τ : Type} (rep : Bool) (s : Mcpwm τ) : (wnAdv rep s).snap = s.snap ∧ (wnAdv rep s).pcnt = s.pcnt := by
  unfold wnAdv
  split <;> exact ⟨rfl, rfl⟩

theorem wnLoad_snap {τ : Type} (hw : PcntHw τ) (p : Bool) (e : Entry) (s : Mcpwm τ) : (wnLoad hw p e s).snap = s.snap := by
  unfold wnLoad
  split <;> rfl

theorem wnNext_snap {τ : Type} (hw : PcntHw τ) (rep : Bool) (s : Mcpwm τ) : (wnNext hw rep s).snap = s.snap := by
  unfold wnNext
  repeat' split
  all_goals rfl

theorem whatIsNext_snap {τ : Type} (hw : PcntHw τ) (s : Mcpwm τ) : (s.whatIsNext hw).snap = s.snap := by
  rw [whatIsNext_eq]
  split
  · rfl
  split
  · exact (wnAdv_snap _ _).1
  · rw [wnNext_snap, apply_snap, wnLoad_snap]
    exact (wnAdv_snap _ _).1

theorem whatIsNext_flag (s : Mcpwm (σ × Bool)) (h : s.pcnt.2 = false) : (s.whatIsNext (resettable hw)).pcnt.2 = false := by
  rw [whatIsNext_eq]
  have h1 : ∀ rep, (wnAdv rep s).pcnt.2 = false := fun rep => by rw [(wnAdv_snap _ _).2]; exact h
  split
  · exact h
  split
  · exact h1 _
  · have h2 : ∀ (p : Bool) (e : Entry) (x : Mcpwm (σ × Bool)), x.pcnt.2 = false → (wnLoad (resettable hw) p e x).pcnt.2 = false := by
      intro p e x hx
      unfold wnLoad
      split
      · exact hx
      · rfl
    have h3 : ∀ (rep : Bool) (x : Mcpwm (σ × Bool)), x.pcnt.2 = false → (wnNext (resettable hw) rep x).pcnt.2 = false := by
      intro rep x hx
      unfold wnNext
      split
      · exact hx
      split
      · exact hx
      · exact (base_prepareNext hw _ x.pcnt).2.trans hx
    exact h3 _ _ (apply_flag hw _ _ (h2 _ _ _ (h1 _)))

/-- the timer is started -/
def sqRun {τ : Type} (s : Mcpwm τ) : Mcpwm τ := { s with run := true, timer := if s.timer = .stopped then .low else s.timer }

theorem base_startQueue (s : Mcpwm (σ × Bool)) : (s.startQueue (resettable hw)).base = s.base.startQueue hw := by
  have h := base_apply hw { s with pcnt := (resettable hw).clear s.pcnt, prepared := false, q := { s.q with running := true } }
    (({ s.q with running := true } : Queue).slot .esp32 s.q.readIdx)
  change sqRun (base (apply _ _ _)) = _
  rw [h]
  rfl

theorem startQueue_flag (s : Mcpwm (σ × Bool)) : (s.startQueue (resettable hw)).pcnt.2 = false := apply_flag hw _ _ rfl

theorem startQueue_snap {τ : Type} (hw : PcntHw τ) (s : Mcpwm τ) : (s.startQueue hw).snap = s.snap := apply_snap hw _ _

theorem base_compare (s : Mcpwm (σ × Bool)) (h : s.pcnt.2 = false) : (s.compare (resettable hw)).base = s.base.compare hw ∧ (s.compare (resettable hw)).pcnt.2 = false := by
  unfold compare
  dsimp only
  have e1 : s.base.q = s.q := rfl
  have e2 : s.base.out = s.out := rfl
  rw [e1, e2]
  have hc : (resettable hw).count s.pcnt = (((hw.count s.pcnt.1).1, false), (hw.count s.pcnt.1).2) := by
    change (if s.pcnt.2 = true then _ else _) = _
    rw [h]
    rfl
  split
  · dsimp only
    rw [hc]
    exact ⟨rfl, rfl⟩
  · exact ⟨rfl, h⟩

theorem base_sync (s : Mcpwm (σ × Bool)) : s.sync.base = s.base.sync := rfl

/-- an event of the channel with the reset bit clear -/
theorem base_step (s : Mcpwm (σ × Bool)) (h : s.pcnt.2 = false) (hn : s.snap = none) (ev : Ev) :
    (s.step (resettable hw) ev).base = s.base.step hw ev ∧ (s.step (resettable hw) ev).pcnt.2 = false ∧
      (EspBoard.apiCall ev = true → (s.step (resettable hw) ev).snap = none) := by
  have e1 : s.base.q = s.q := rfl
  have e2 : s.base.pc = s.pc := rfl
  have e3 : s.base.timer = s.timer := rfl
  cases ev with
  | zero =>
    unfold step
    dsimp only
    rw [e3, base_sync]
    split <;> exact ⟨rfl, h, fun hx => nomatch hx⟩
  | compare =>
    unfold step
    dsimp only
    rw [e3, base_sync]
    split
    · exact ⟨by rw [(base_compare hw s h).1], (base_compare hw s h).2, fun hx => nomatch hx⟩
    · exact ⟨rfl, h, fun hx => nomatch hx⟩
  | pcntIsr =>
    unfold step
    dsimp only
    have e4 : s.base.irq = s.irq := rfl
    rw [e4, base_sync]
    split
    · exact ⟨by rw [base_whatIsNext]; rfl, whatIsNext_flag hw _ h, fun hx => nomatch hx⟩
    · exact ⟨rfl, h, fun hx => nomatch hx⟩
  | teaIsr =>
    unfold step
    dsimp only
    have e4 : s.base.tea = s.tea := rfl
    have e5 : s.base.ena = s.ena := rfl
    rw [e4, e5, base_sync]
    split
    · exact ⟨by rw [base_whatIsNext], whatIsNext_flag hw _ h, fun hx => nomatch hx⟩
    · exact ⟨rfl, h, fun hx => nomatch hx⟩
  | otherRead => exact ⟨rfl, h, fun hx => nomatch hx⟩
  | otherWrite => exact ⟨rfl, h, fun hx => nomatch hx⟩
  | addBegin c start =>
    unfold step
    dsimp only
    rw [e2, e1, base_sync]
    split
    · repeat' split
      all_goals exact ⟨rfl, h, fun _ => hn⟩
    · exact ⟨rfl, h, fun _ => hn⟩
  | addCommit =>
    unfold step
    dsimp only
    rw [e2, e1, base_sync]
    split
    · exact ⟨rfl, h, fun _ => hn⟩
    · exact ⟨rfl, h, fun _ => hn⟩
  | addFinish =>
    unfold step
    dsimp only
    rw [e2, e1, base_sync]
    split
    · split
      · exact ⟨by rw [base_startQueue]; rfl, startQueue_flag hw _, fun _ => (startQueue_snap _ _).trans hn⟩
      · exact ⟨rfl, h, fun _ => hn⟩
    · exact ⟨rfl, h, fun _ => hn⟩
  | startNull =>
    unfold step
    dsimp only
    rw [e2, e1, base_sync]
    split
    · split
      · exact ⟨by rw [base_startQueue], startQueue_flag hw _, fun _ => (startQueue_snap _ _).trans hn⟩
      · exact ⟨rfl, h, fun _ => hn⟩
    · exact ⟨rfl, h, fun _ => hn⟩
  | forceStop p =>
    unfold step
    dsimp only
    rw [e2, base_sync]
    split
    · exact ⟨rfl, h, fun _ => hn⟩
    · exact ⟨rfl, h, fun _ => hn⟩
  | clearIgnore => exact ⟨rfl, h, fun _ => hn⟩

end Mcpwm

/-! ## The mapping -/

namespace EspBoard
variable {σ : Type} (hw : PcntHw σ)

theorem six {i : Nat} (h : i < 6) : i = 0 ∨ i = 1 ∨ i = 2 ∨ i = 3 ∨ i = 4 ∨ i = 5 := by omega

theorem map_timer {i j : Nat} (hi : i < 6) (hj : j < 6) (h1 : (mcMap i).unit = (mcMap j).unit) (h2 : (mcMap i).timer = (mcMap j).timer) : i = j := by
  rcases six hi with rfl | rfl | rfl | rfl | rfl | rfl <;> rcases six hj with rfl | rfl | rfl | rfl | rfl | rfl <;>
    first | rfl | exact absurd h1 (by decide) | exact absurd h2 (by decide)

theorem map_pcnt {i j : Nat} (hi : i < 6) (hj : j < 6) (h1 : (mcMap i).pcnt = (mcMap j).pcnt) : i = j := by
  rcases six hi with rfl | rfl | rfl | rfl | rfl | rfl <;> rcases six hj with rfl | rfl | rfl | rfl | rfl | rfl <;>
    first | rfl | exact absurd h1 (by decide)

theorem map_io (i : Nat) : (mcMap i).output = (mcMap i).timer ∧ (mcMap i).input = (mcMap i).pcnt := by
  unfold mcMap
  split <;> exact ⟨rfl, rfl⟩

theorem map_unit (i : Nat) : (mcMap i).unit = 0 ∨ (mcMap i).unit = 1 := by
  unfold mcMap
  split <;> simp

/-- the first queue of a unit -/
theorem map_first {i n : Nat} (hi : i < n) (hn : n < 6) (h1 : (mcMap i).unit = (mcMap n).unit) : (mcMap n).timer ≠ 0 := by
  rcases six hn with rfl | rfl | rfl | rfl | rfl | rfl <;> first | (simp [mcMap]; done) | skip
  · omega
  · have : i = 0 ∨ i = 1 ∨ i = 2 := by omega
    rcases this with rfl | rfl | rfl <;> exact absurd h1 (by decide)

theorem map_dispatch {m i : Nat} (hm : m = 4 ∨ m = 6) (hi : i < m) : ((mcMap i).timer, i) ∈ mcDispatch m (mcMap i).unit := by
  rcases hm with rfl | rfl
  · have : i = 0 ∨ i = 1 ∨ i = 2 ∨ i = 3 := by omega
    rcases this with rfl | rfl | rfl | rfl <;> decide
  · rcases six hi with rfl | rfl | rfl | rfl | rfl | rfl <;> decide

/-- the services of a unit -/
theorem dispatch_map {m : Nat} (u : Nat) (hu : u = 0 ∨ u = 1) {tk : Nat × Nat} (h : tk ∈ mcDispatch m u) : tk.2 < 6 ∧ (mcMap tk.2).unit = u ∧ (mcMap tk.2).timer = tk.1 := by
  unfold mcDispatch at h
  rcases hu with rfl | rfl
  · simp only [if_true, List.mem_cons, List.not_mem_nil, or_false] at h
    rcases h with rfl | rfl | rfl <;> exact ⟨by decide, rfl, rfl⟩
  · rw [if_neg (by decide)] at h
    split at h
    · simp only [List.mem_cons, List.not_mem_nil, or_false] at h
      rcases h with rfl
      exact ⟨by decide, rfl, rfl⟩
    · simp only [List.mem_cons, List.not_mem_nil, or_false] at h
      rcases h with rfl | rfl | rfl <;> exact ⟨by decide, rfl, rfl⟩

theorem dispatch_nodup (m u : Nat) : ((mcDispatch m u).map Prod.snd).Nodup := by
  unfold mcDispatch
  repeat' split
  all_goals decide

/-! ## Frames -/

/-- the parts the code of a queue does not change -/
structure Frame (b b' : EspBoard σ) : Prop where
  n : b'.n = b.n
  pin : ∀ i, (b'.que i).pin = (b.que i).pin
  drv : b'.drv = b.drv
  sig : b'.sig = b.sig
  thr : b'.thr = b.thr
  handler : b'.handler = b.handler
  unitOn : b'.unitOn = b.unitOn
  service : b'.service = b.service

theorem Frame.refl (b : EspBoard σ) : Frame b b := ⟨rfl, fun _ => rfl, rfl, rfl, rfl, rfl, rfl, rfl⟩

theorem Frame.trans {a b c : EspBoard σ} (h : Frame a b) (h' : Frame b c) : Frame a c :=
  ⟨h'.n.trans h.n, fun i => (h'.pin i).trans (h.pin i), h'.drv.trans h.drv, h'.sig.trans h.sig, h'.thr.trans h.thr, h'.handler.trans h.handler, h'.unitOn.trans h.unitOn, h'.service.trans h.service⟩

theorem put_frame (b : EspBoard σ) (i : Nat) (s : Mcpwm (σ × Bool)) : Frame b (b.put i s) := by
  refine ⟨rfl, fun j => ?_, rfl, rfl, rfl, rfl, rfl, rfl⟩
  change (if j = i then _ else b.que j).pin = _
  split
  · rename_i h; rw [h]
  · rfl

theorem flush_frame (b : EspBoard σ) (i : Nat) : Frame b (b.flush hw i) := ⟨rfl, fun _ => rfl, rfl, rfl, rfl, rfl, rfl, rfl⟩

theorem code_frame (b : EspBoard σ) (i : Nat) (f : Mcpwm (σ × Bool) → Mcpwm (σ × Bool)) : Frame b (b.code hw i f) := (put_frame b i _).trans (flush_frame hw _ i)

theorem service_frame (u : Nat) : ∀ (l : List (Nat × Nat)) (b : EspBoard σ), Frame b (l.foldl (service1 hw u) b)
  | [], b => Frame.refl b
  | tk :: l, b => by
    refine Frame.trans ?_ (service_frame u l (service1 hw u b tk))
    unfold service1
    split
    · exact code_frame hw b _ _
    · exact Frame.refl b

theorem compare_frame (b : EspBoard σ) (u t : Nat) : Frame b (b.compare hw u t) := by
  refine ⟨rfl, fun i => ?_, rfl, rfl, rfl, rfl, rfl, rfl⟩
  change (if _ then _ else b.que i).pin = _
  split <;> rfl

/-- events of code, timers and interrupts -/
theorem step_frame (m : Nat) (b : EspBoard σ) (ev : Ev) (h : match ev with | .connect _ _ _ | .detach _ | .reattach _ | .attachCounter _ _ _ => False | _ => True) :
    Frame b (b.step hw m ev) := by
  cases ev with
  | connect _ _ _ => exact h.elim
  | detach _ => exact h.elim
  | reattach _ => exact h.elim
  | attachCounter _ _ _ => exact h.elim
  | zero u t =>
    unfold step
    dsimp only
    split
    · exact ⟨rfl, fun _ => rfl, rfl, rfl, rfl, rfl, rfl, rfl⟩
    · exact Frame.refl b
  | compare u t =>
    unfold step
    dsimp only
    split
    · exact compare_frame hw b u t
    · exact Frame.refl b
  | mcpwmIsr u =>
    unfold step
    dsimp only
    split
    · exact service_frame hw u _ b
    · exact Frame.refl b
  | pcntIsr p =>
    unfold step
    dsimp only
    split
    · have h1 : Frame b { b with irq := fun p' => if p' = p then false else b.irq p' } := ⟨rfl, fun _ => rfl, rfl, rfl, rfl, rfl, rfl, rfl⟩
      split
      · exact h1.trans (code_frame hw _ _ _)
      · exact h1
    · exact Frame.refl b
  | readEna i =>
    unfold step
    dsimp only
    split
    · exact ⟨rfl, fun _ => rfl, rfl, rfl, rfl, rfl, rfl, rfl⟩
    · exact Frame.refl b
  | readCtrl i d =>
    unfold step
    dsimp only
    split
    · exact ⟨rfl, fun _ => rfl, rfl, rfl, rfl, rfl, rfl, rfl⟩
    · exact Frame.refl b
  | stepper i ev =>
    unfold step
    dsimp only
    split
    · split
      · exact code_frame hw _ _ _
      · exact put_frame _ _ _
    · exact Frame.refl b

/-! ## The wiring -/

theorem Wired.frame {m : Nat} {b b' : EspBoard σ} (h : b.Wired m) (f : Frame b b') : b'.Wired m where
  max := by rw [f.n]; exact h.max
  timers := by rw [f.n]; exact h.timers
  counters := by rw [f.n]; exact h.counters
  pins := by
    intro i j hi hj
    rw [f.pin, f.pin]
    rw [f.n] at hi hj
    exact h.pins i j hi hj
  unit := by rw [f.n, f.unitOn]; exact h.unit
  counter := by rw [f.n, f.service, f.handler]; exact h.counter
  handlers := by rw [f.n, f.handler]; exact h.handlers
  pin := by
    intro i hi
    rw [f.pin, f.drv]
    rw [f.n] at hi
    exact h.pin i hi
  only := by
    intro pin u t
    rw [f.drv, f.n]
    intro hx
    obtain ⟨i, h1, h2, h3⟩ := h.only pin u t hx
    exact ⟨i, h1, by rw [f.pin]; exact h2, h3⟩

theorem not_pinUsed {b : EspBoard σ} {pin : Nat} (h : b.pinUsed pin = false) (i : Nat) (hi : i < b.n) : (b.que i).pin ≠ pin := by
  intro hx
  have : b.pinUsed pin = true := List.any_eq_true.mpr ⟨i, List.mem_range.mpr hi, by rw [hx]; exact beq_self_eq_true pin⟩
  rw [h] at this
  cases this

theorem Wired.setUp {m : Nat} (hm : m = 4 ∨ m = 6) {b : EspBoard σ} (h : b.Wired m) (pin dirPin : Nat) (hi : Bool) (hp : b.pinUsed pin = false) (hn : b.n < m) :
    (b.setUp hw pin dirPin hi).Wired m := by
  have hn6 : b.n < 6 := by omega
  have hlt : ∀ i, i < b.n + 1 → i < 6 := fun i hi => by omega
  have hpin : ∀ i, ((b.setUp hw pin dirPin hi).que i).pin = if i = b.n then pin else (b.que i).pin := by
    intro i
    change (if i = b.n then _ else b.que i).pin = _
    split <;> rfl
  have hdrv : ∀ x, (b.setUp hw pin dirPin hi).drv x = if x = pin then some ((mcMap b.n).unit, (mcMap b.n).output) else b.drv x := by
    intro x
    change (if x = (if b.n = b.n then _ else b.que b.n).pin then _ else b.drv x) = _
    rw [if_pos rfl]
  refine { max := hn, timers := ?_, counters := ?_, pins := ?_, unit := ?_, counter := ?_, handlers := ?_, pin := ?_, only := ?_ }
  · exact fun i j hi hj h1 h2 => map_timer (hlt i hi) (hlt j hj) h1 h2
  · exact fun i j hi hj h1 => map_pcnt (hlt i hi) (hlt j hj) h1
  · intro i j hi hj hij
    rw [hpin, hpin] at hij
    change i < b.n + 1 at hi
    change j < b.n + 1 at hj
    by_cases h1 : i = b.n
    · by_cases h2 : j = b.n
      · omega
      · rw [if_pos h1, if_neg h2] at hij
        exact absurd hij.symm (not_pinUsed hp j (by omega))
    · by_cases h2 : j = b.n
      · rw [if_neg h1, if_pos h2] at hij
        exact absurd hij (not_pinUsed hp i (by omega))
      · rw [if_neg h1, if_neg h2] at hij
        exact h.pins i j (by omega) (by omega) hij
  · intro i hi
    change i < b.n + 1 at hi
    refine ⟨?_, map_dispatch hm (by omega)⟩
    change (if (mcMap i).unit = (mcMap b.n).unit ∧ (mcMap b.n).timer = 0 then true else b.unitOn (mcMap i).unit) = true
    split
    · rfl
    · rename_i hx
      by_cases h1 : i = b.n
      · rw [h1]
        rw [h1] at hx
        have ht : (mcMap b.n).timer ≠ 0 := fun hy => hx ⟨rfl, hy⟩
        -- an earlier queue has set up the unit
        have : ∃ j, j < b.n ∧ (mcMap j).unit = (mcMap b.n).unit := by
          rcases six hn6 with h0 | h0 | h0 | h0 | h0 | h0
          · rw [h0] at ht; exact absurd rfl ht
          · exact ⟨0, by omega, by rw [h0]; rfl⟩
          · exact ⟨0, by omega, by rw [h0]; rfl⟩
          · rw [h0] at ht; exact absurd rfl ht
          · exact ⟨3, by omega, by rw [h0]; rfl⟩
          · exact ⟨3, by omega, by rw [h0]; rfl⟩
        obtain ⟨j, hj, hju⟩ := this
        rw [← hju]
        exact (h.unit j hj).1
      · exact (h.unit i (by omega)).1
  · intro i hi
    change i < b.n + 1 at hi
    refine ⟨?_, ?_⟩
    · change (b.service || decide (b.n = 0)) = true
      by_cases h0 : b.n = 0
      · rw [h0]; simp
      · rw [(h.counter 0 (by omega)).1]; rfl
    · change (if (mcMap i).pcnt = (mcMap b.n).pcnt then some b.n else b.handler (mcMap i).pcnt) = some i
      by_cases h1 : i = b.n
      · rw [h1, if_pos rfl]
      · rw [if_neg (fun hx => h1 (map_pcnt (by omega) hn6 hx))]
        exact (h.counter i (by omega)).2
  · intro p i hx
    change (if p = (mcMap b.n).pcnt then some b.n else b.handler p) = some i at hx
    change i < b.n + 1 ∧ _
    split at hx
    · rename_i hy
      injection hx with hx
      rw [← hx]
      exact ⟨Nat.lt_succ_self _, hy.symm⟩
    · obtain ⟨h1, h2⟩ := h.handlers p i hx
      exact ⟨Nat.lt_succ_of_lt h1, h2⟩
  · intro i hi
    change i < b.n + 1 at hi
    rw [hpin, hdrv]
    by_cases h1 : i = b.n
    · rw [if_pos h1, if_pos rfl, h1, (map_io b.n).1]
      exact Or.inl rfl
    · rw [if_neg h1, if_neg (not_pinUsed hp i (by omega))]
      exact h.pin i (by omega)
  · intro x u t hx
    rw [hdrv] at hx
    by_cases h1 : x = pin
    · rw [if_pos h1] at hx
      injection hx with hx
      injection hx with hx1 hx2
      refine ⟨b.n, Nat.lt_succ_self _, ?_, hx1, ?_⟩
      · rw [hpin, if_pos rfl, h1]
      · rw [← (map_io b.n).1]; exact hx2
    · rw [if_neg h1] at hx
      obtain ⟨i, a1, a2, a3⟩ := h.only x u t hx
      refine ⟨i, Nat.lt_succ_of_lt a1, ?_, a3⟩
      rw [hpin, if_neg (by omega)]
      exact a2

theorem Wired.step {m : Nat} (hm : m = 4 ∨ m = 6) {b : EspBoard σ} (h : b.Wired m) (ev : Ev) : (b.step hw m ev).Wired m := by
  cases ev with
  | connect pin dirPin hi =>
    unfold EspBoard.step
    dsimp only
    split
    · exact h
    · rename_i hx
      rw [Bool.not_eq_true, Bool.or_eq_false_iff] at hx
      exact h.setUp hw hm pin dirPin hi hx.1 (by have := of_decide_eq_false hx.2; omega)
  | detach i =>
    unfold EspBoard.step
    dsimp only
    split
    · rename_i hi
      refine { h with pin := ?_, only := ?_ }
      · intro j hj
        change (if (b.que j).pin = (b.que i).pin then none else b.drv (b.que j).pin) = _ ∨ (if (b.que j).pin = (b.que i).pin then none else b.drv (b.que j).pin) = none
        split
        · exact Or.inr rfl
        · exact h.pin j hj
      · intro pin u t hx
        change (if pin = (b.que i).pin then none else b.drv pin) = some (u, t) at hx
        split at hx
        · cases hx
        · exact h.only pin u t hx
    · exact h
  | reattach i =>
    unfold EspBoard.step
    dsimp only
    split
    · rename_i hi
      have hdrv : ∀ x, (b.wire i).drv x = if x = (b.que i).pin then some ((mcMap i).unit, (mcMap i).output) else b.drv x := fun _ => rfl
      refine { h with pin := ?_, only := ?_ }
      · intro j hj
        rw [hdrv]
        change (if (b.que j).pin = (b.que i).pin then _ else _) = _ ∨ (if (b.que j).pin = (b.que i).pin then _ else _) = _
        split
        · rename_i hx
          rw [h.pins j i hj hi hx, (map_io i).1]
          exact Or.inl rfl
        · exact h.pin j hj
      · intro pin u t hx
        rw [hdrv] at hx
        split at hx
        · rename_i hp
          injection hx with hx
          injection hx with hx1 hx2
          exact ⟨i, hi, hp.symm, hx1, by rw [← (map_io i).1]; exact hx2⟩
        · exact h.only pin u t hx
    · exact h
  | attachCounter i unit high =>
    unfold EspBoard.step
    dsimp only
    by_cases hx : i < b.n ∧ unit < (if m = 4 then 4 else 8)
    · rw [if_pos hx]
      exact { h with pin := h.pin, only := h.only }
    · rw [if_neg hx]
      exact h
  | zero u t => exact h.frame (step_frame hw m b _ trivial)
  | compare u t => exact h.frame (step_frame hw m b _ trivial)
  | mcpwmIsr u => exact h.frame (step_frame hw m b _ trivial)
  | pcntIsr p => exact h.frame (step_frame hw m b _ trivial)
  | readEna i => exact h.frame (step_frame hw m b _ trivial)
  | readCtrl i d => exact h.frame (step_frame hw m b _ trivial)
  | stepper i ev => exact h.frame (step_frame hw m b _ trivial)

theorem Wired.init (m : Nat) (junk : Nat → σ) : (EspBoard.init junk).Wired m where
  max := Nat.zero_le _
  timers := fun _ _ hi => absurd hi (Nat.not_lt_zero _)
  counters := fun _ _ hi => absurd hi (Nat.not_lt_zero _)
  pins := fun _ _ hi => absurd hi (Nat.not_lt_zero _)
  unit := fun _ hi => absurd hi (Nat.not_lt_zero _)
  counter := fun _ hi => absurd hi (Nat.not_lt_zero _)
  handlers := fun _ _ hx => nomatch hx
  pin := fun _ hi => absurd hi (Nat.not_lt_zero _)
  only := fun _ _ _ hx => nomatch hx

theorem Wired.run {m : Nat} (hm : m = 4 ∨ m = 6) : ∀ (evs : List Ev) {b : EspBoard σ}, b.Wired m → (b.run hw m evs).Wired m
  | [], _, h => h
  | ev :: evs, _, h => Wired.run hm evs (h.step hw hm ev)

/-! ## Quiet schedules -/

/-- the state in a quiet schedule: no reset bit is set, the inputs of the pulse counters of the steppers are as connected, and unused timers have their interrupt disabled -/
structure Calm (b : EspBoard σ) : Prop where
  cnt : ∀ p, (b.cnt p).2 = false
  ctrl : ∀ i r p, b.ctrlCopy i = some r → r p = false
  sig : ∀ i, i < b.n → b.sig (mcMap i).pcnt = some (b.que i).pin ∧ b.thr (mcMap i).pcnt = true
  ena : ∀ u t, (∀ i, i < b.n → ¬ (u = (mcMap i).unit ∧ t = (mcMap i).timer)) → (b.tim u t).ena = false

theorem Calm.init (junk : Nat → σ) : (EspBoard.init junk).Calm where
  cnt := fun _ => rfl
  ctrl := fun _ _ _ hx => nomatch hx
  sig := fun _ hi => absurd hi (Nat.not_lt_zero _)
  ena := fun _ _ _ => rfl

theorem sync_sync {τ : Type} (s : Mcpwm τ) : s.sync.sync = s.sync := rfl

theorem view_sync (b : EspBoard σ) (i : Nat) : (b.view i).sync = b.view i := rfl

theorem view_put_self (b : EspBoard σ) (i : Nat) (s : Mcpwm (σ × Bool)) (hs : s.snap = none) : (b.put i s).view i = s.sync := by
  obtain ⟨q, prepared, timer, run, period, shadow, atZero, out, tea, ena, pcnt, irq, snap, pc, log⟩ := s
  cases hs
  unfold view put
  dsimp only
  simp only [if_true, and_self]

theorem view_congr {b b' : EspBoard σ} (i : Nat) (h1 : (b'.que i).q = (b.que i).q ∧ (b'.que i).prepared = (b.que i).prepared ∧ (b'.que i).pc = (b.que i).pc ∧ (b'.que i).log = (b.que i).log)
    (h2 : b'.tim (mcMap i).unit (mcMap i).timer = b.tim (mcMap i).unit (mcMap i).timer) (h3 : b'.cnt (mcMap i).pcnt = b.cnt (mcMap i).pcnt)
    (h4 : b'.irq (mcMap i).pcnt = b.irq (mcMap i).pcnt) : b'.view i = b.view i := by
  unfold view
  dsimp only
  rw [h1.1, h1.2.1, h1.2.2.1, h1.2.2.2, h2, h3, h4]

theorem view_put_other {m : Nat} (hm : m ≤ 6) {b : EspBoard σ} (h : b.Wired m) {i k : Nat} (hi : i < b.n) (hk : k < b.n) (hik : i ≠ k) (s : Mcpwm (σ × Bool)) :
    (b.put k s).view i = b.view i := by
  have hmax := h.max
  refine view_congr i ?_ ?_ ?_ ?_
  · have : (b.put k s).que i = b.que i := if_neg hik
    rw [this]
    exact ⟨rfl, rfl, rfl, rfl⟩
  · exact if_neg (fun hx => hik (map_timer (by omega) (by omega) hx.1 hx.2))
  · exact if_neg (fun hx => hik (map_pcnt (by omega) (by omega) hx))
  · exact if_neg (fun hx => hik (map_pcnt (by omega) (by omega) hx))

theorem Calm.put {b : EspBoard σ} (h : b.Calm) {k : Nat} (hk : k < b.n) (s : Mcpwm (σ × Bool)) (hs : s.pcnt.2 = false) : (b.put k s).Calm where
  cnt := by
    intro p
    change (if p = _ then s.pcnt else b.cnt p).2 = false
    split
    · exact hs
    · exact h.cnt p
  ctrl := h.ctrl
  sig := by
    intro i hi
    rw [(put_frame b k s).pin]
    exact h.sig i hi
  ena := by
    intro u t hut
    have : (b.put k s).tim u t = b.tim u t := if_neg (hut k hk)
    rw [this]
    exact h.ena u t hut

theorem flush_same {b : EspBoard σ} (h : b.Calm) (k : Nat) (hu : b.UpToDate k) : (b.flush hw k).tim = b.tim ∧ (b.flush hw k).cnt = b.cnt := by
  constructor
  · funext u t
    unfold flush
    dsimp only
    cases hr : b.enaCopy k with
    | none => rfl
    | some r =>
      dsimp only
      split
      · rename_i hx
        rw [hu r hr t hx.2.2 hx.2.1, hx.1]
      · rfl
  · funext p
    unfold flush
    dsimp only
    cases hr : b.ctrlCopy k with
    | none => rfl
    | some r =>
      dsimp only
      split
      · rw [h.ctrl k r p hr]
        change ((b.cnt p).1, false) = b.cnt p
        rw [← h.cnt p]
      · rfl

theorem Calm.flush {b : EspBoard σ} (h : b.Calm) (k : Nat) (hu : b.UpToDate k) : (b.flush hw k).Calm where
  cnt := by rw [(flush_same hw h k hu).2]; exact h.cnt
  ctrl := by
    intro i r p hx
    change (if i = k then none else b.ctrlCopy i) = some r at hx
    split at hx
    · cases hx
    · exact h.ctrl i r p hx
  sig := h.sig
  ena := by
    rw [(flush_same hw h k hu).1]
    exact h.ena

theorem view_flush {b : EspBoard σ} (h : b.Calm) (k : Nat) (hu : b.UpToDate k) (i : Nat) : (b.flush hw k).view i = b.view i := by
  refine view_congr i ⟨rfl, rfl, rfl, rfl⟩ ?_ ?_ rfl
  · rw [(flush_same hw h k hu).1]
  · rw [(flush_same hw h k hu).2]

theorem UpToDate.put {b : EspBoard σ} {k : Nat} (h : b.UpToDate k) (s : Mcpwm (σ × Bool)) : (b.put k s).UpToDate k := by
  intro r hr t h3 ht
  rw [h r hr t h3 ht]
  have : (b.put k s).tim (mcMap k).unit t = b.tim (mcMap k).unit t := if_neg (fun hx => ht hx.2)
  rw [this]

/-- code of a queue in a quiet schedule -/
theorem code_quiet {m : Nat} (hm : m ≤ 6) {b : EspBoard σ} (hb : b.Wired m) (h : b.Calm) {k : Nat} (hk : k < b.n) (hu : b.UpToDate k) (f : Mcpwm (σ × Bool) → Mcpwm (σ × Bool))
    (h1 : (f (b.view k)).snap = none) (h2 : (f (b.view k)).pcnt.2 = false) :
    (b.code hw k f).Calm ∧ (b.code hw k f).view k = (f (b.view k)).sync ∧ ∀ i, i < b.n → i ≠ k → (b.code hw k f).view i = b.view i := by
  have hc := h.put hk _ h2
  have hu' := hu.put (f (b.view k))
  refine ⟨hc.flush hw k hu', ?_, fun i hi hik => ?_⟩
  · exact (view_flush hw hc k hu' k).trans (view_put_self b k _ h1)
  · exact (view_flush hw hc k hu' i).trans (view_put_other hm hb hi hk hik _)

theorem view_flag {b : EspBoard σ} (h : b.Calm) (i : Nat) : (b.view i).pcnt.2 = false := h.cnt _

theorem channel_base (b : EspBoard σ) (i : Nat) : b.channel i = (b.view i).base := rfl

/-- the interrupt of an MCPWM unit: the services of the list `l` -/
theorem service_all {m : Nat} (hm : m ≤ 6) {u : Nat} (hu : u = 0 ∨ u = 1) : ∀ (l : List (Nat × Nat)) {b : EspBoard σ}, (∀ tk ∈ l, tk ∈ mcDispatch m u) → (l.map Prod.snd).Nodup → b.Wired m → b.Calm →
    (∀ i, i < b.n → (mcMap i).unit = u → ((b.tim u (mcMap i).timer).tea && (b.tim u (mcMap i).timer).ena) = true → b.enaCopy i = none) →
    (l.foldl (service1 hw u) b).Calm ∧
      ∀ i, i < b.n → (l.foldl (service1 hw u) b).view i = if ((mcMap i).timer, i) ∈ l then (b.view i).step (resettable hw) .teaIsr else b.view i
  | [], b, _, _, _, hc, _ => ⟨hc, fun i _ => by rw [if_neg (List.not_mem_nil)]; rfl⟩
  | tk :: l, b, hl, hn, hb, hc, hq => by
    rw [List.map_cons, List.nodup_cons] at hn
    obtain ⟨hk6, hku, hkt⟩ := dispatch_map u hu (hl tk List.mem_cons_self)
    have hl' : ∀ x ∈ l, x ∈ mcDispatch m u := fun x hx => hl x (List.mem_cons_of_mem _ hx)
    have hnot : ∀ t, (t, tk.2) ∉ l := fun t hx => hn.1 (List.mem_map.mpr ⟨_, hx, rfl⟩)
    rw [List.foldl_cons]
    by_cases hs : ((b.tim u tk.1).tea && (b.tim u tk.1).ena) = true
    · have hk : tk.2 < b.n := by
        by_cases hk : tk.2 < b.n
        · exact hk
        · have := hc.ena u tk.1 (fun i hi hx => by
            have hmax := hb.max
            have := map_timer (i := i) (j := tk.2) (by omega) hk6 (by rw [← hx.1, hku]) (by rw [← hx.2, hkt])
            omega)
          rw [this, Bool.and_false] at hs
          cases hs
      have hnone : b.enaCopy tk.2 = none := hq tk.2 hk hku (by rw [hkt]; exact hs)
      have hup : b.UpToDate tk.2 := by
        intro r hr
        rw [hnone] at hr
        cases hr
      have e1 : service1 hw u b tk = b.code hw tk.2 (Mcpwm.whatIsNext (resettable hw)) := if_pos hs
      obtain ⟨c1, c2, c3⟩ := code_quiet hw hm hb hc hk hup (Mcpwm.whatIsNext (resettable hw)) (Mcpwm.whatIsNext_snap _ _) (Mcpwm.whatIsNext_flag hw _ (view_flag hc _))
      have hf := code_frame hw b tk.2 (Mcpwm.whatIsNext (resettable hw))
      have hcopy : ∀ i, i ≠ tk.2 → (b.code hw tk.2 (Mcpwm.whatIsNext (resettable hw))).enaCopy i = b.enaCopy i := fun i hi => if_neg hi
      rw [e1]
      obtain ⟨d1, d2⟩ := service_all hm hu l (b := b.code hw tk.2 (Mcpwm.whatIsNext (resettable hw))) hl' hn.2 (hb.frame hf) c1 (by
        intro i hi hiu hx
        by_cases hik : i = tk.2
        · rw [hik]; exact if_pos rfl
        · rw [hcopy i hik]
          rw [hf.n] at hi
          refine hq i hi hiu ?_
          have hv := c3 i hi hik
          have v1 : ((b.code hw tk.2 (Mcpwm.whatIsNext (resettable hw))).view i).tea = (b.view i).tea := by rw [hv]
          have v2 : ((b.code hw tk.2 (Mcpwm.whatIsNext (resettable hw))).view i).ena = (b.view i).ena := by rw [hv]
          change ((b.code hw tk.2 (Mcpwm.whatIsNext (resettable hw))).tim (mcMap i).unit (mcMap i).timer).tea = (b.tim (mcMap i).unit (mcMap i).timer).tea at v1
          change ((b.code hw tk.2 (Mcpwm.whatIsNext (resettable hw))).tim (mcMap i).unit (mcMap i).timer).ena = (b.tim (mcMap i).unit (mcMap i).timer).ena at v2
          rw [hiu] at v1 v2
          rw [v1, v2] at hx
          exact hx)
      refine ⟨d1, fun i hi => ?_⟩
      rw [d2 i (by rw [hf.n]; exact hi)]
      by_cases hik : i = tk.2
      · have hmem : ((mcMap i).timer, i) ∈ tk :: l := by
          rw [hik, hkt]
          exact List.mem_cons_self
        rw [if_pos hmem, if_neg (by rw [hik]; exact hnot _), hik, c2]
        unfold Mcpwm.step
        dsimp only
        have : ((b.view tk.2).tea && (b.view tk.2).ena) = true := by
          change ((b.tim (mcMap tk.2).unit (mcMap tk.2).timer).tea && (b.tim (mcMap tk.2).unit (mcMap tk.2).timer).ena) = true
          rw [hku, hkt]
          exact hs
        rw [if_pos this]
      · have hmem : ((mcMap i).timer, i) ∈ tk :: l ↔ ((mcMap i).timer, i) ∈ l := by
          constructor
          · intro hx
            rcases List.mem_cons.mp hx with hx | hx
            · exact absurd (congrArg Prod.snd hx) hik
            · exact hx
          · exact List.mem_cons_of_mem _
        rw [c3 i hi hik]
        by_cases hx : ((mcMap i).timer, i) ∈ l
        · rw [if_pos hx, if_pos (hmem.mpr hx)]
        · rw [if_neg hx, if_neg (fun hy => hx (hmem.mp hy))]
    · have e1 : service1 hw u b tk = b := if_neg hs
      rw [e1]
      obtain ⟨d1, d2⟩ := service_all hm hu l (b := b) hl' hn.2 hb hc hq
      refine ⟨d1, fun i hi => ?_⟩
      rw [d2 i hi]
      by_cases hik : i = tk.2
      · have hmem : ((mcMap i).timer, i) ∈ tk :: l := by
          rw [hik, hkt]
          exact List.mem_cons_self
        rw [if_pos hmem, if_neg (by rw [hik]; exact hnot _), hik]
        unfold Mcpwm.step
        dsimp only
        have : ¬ ((b.view tk.2).tea && (b.view tk.2).ena) = true := by
          change ¬ ((b.tim (mcMap tk.2).unit (mcMap tk.2).timer).tea && (b.tim (mcMap tk.2).unit (mcMap tk.2).timer).ena) = true
          rw [hku, hkt]
          exact hs
        rw [if_neg this]
        rfl
      · have hmem : ((mcMap i).timer, i) ∈ tk :: l ↔ ((mcMap i).timer, i) ∈ l := by
          constructor
          · intro hx
            rcases List.mem_cons.mp hx with hx | hx
            · exact absurd (congrArg Prod.snd hx) hik
            · exact hx
          · exact List.mem_cons_of_mem _
        by_cases hx : ((mcMap i).timer, i) ∈ l
        · rw [if_pos hx, if_pos (hmem.mpr hx)]
        · rw [if_neg hx, if_neg (fun hy => hx (hmem.mp hy))]

/-- the compare event of a timer -/
theorem compare_view {m : Nat} {b : EspBoard σ} (hb : b.Wired m) (hc : b.Calm) (u t : Nat)
    (hq : ∀ i, i < b.n → (mcMap i).unit = u → (mcMap i).timer = t → b.drv (b.que i).pin ≠ none) (hlow : (b.tim u t).timer = .low) :
    (b.compare hw u t).Calm ∧
      ∀ i, i < b.n → (b.compare hw u t).view i = if u = (mcMap i).unit ∧ t = (mcMap i).timer then (b.view i).step (resettable hw) .compare else b.view i := by
  have hf := compare_frame hw b u t
  refine ⟨{ cnt := ?_, ctrl := hc.ctrl, sig := ?_, ena := ?_ }, ?_⟩
  · intro p
    change (if (b.tim u t).out && b.counted u t p then ((resettable hw).count (b.cnt p)).1 else b.cnt p).2 = false
    split
    · change (if (b.cnt p).2 = true then (b.cnt p, false) else (((hw.count (b.cnt p).1).1, false), (hw.count (b.cnt p).1).2)).1.2 = false
      rw [hc.cnt p]
      rfl
    · exact hc.cnt p
  · intro i hi
    rw [hf.pin, hf.sig, hf.thr]
    exact hc.sig i hi
  · intro u' t' hx
    have := hc.ena u' t' hx
    change (if u' = u ∧ t' = t then { b.tim u t with timer := .high, tea := true } else b.tim u' t').ena = false
    split
    · rename_i hy
      rw [hy.1, hy.2] at this
      exact this
    · exact this
  · intro i hi
    have hcounted : b.counted u t (mcMap i).pcnt = (b.drv (b.que i).pin == some (u, t)) := by
      unfold counted
      rw [(hc.sig i hi).1]
      rfl
    by_cases hx : u = (mcMap i).unit ∧ t = (mcMap i).timer
    · rw [if_pos hx]
      have hd : b.drv (b.que i).pin = some (u, t) := by
        rcases hb.pin i hi with h1 | h1
        · rw [h1, hx.1, hx.2]
        · exact absurd h1 (hq i hi hx.1.symm hx.2.symm)
      have hct : b.counted u t (mcMap i).pcnt = true := by rw [hcounted, hd]; exact beq_self_eq_true _
      have hque : (b.compare hw u t).que i = { b.que i with log := ⟨(b.tim u t).period, (b.tim u t).out, (b.que i).q.dirLevel,
          if (b.que i).q.readIdx = (b.que i).q.nextWriteIdx then none else some ((b.que i).q.slot .esp32 (b.que i).q.readIdx).countUp⟩ :: (b.que i).log } := if_pos ⟨hi, hd⟩
      have htim : (b.compare hw u t).tim (mcMap i).unit (mcMap i).timer = { b.tim u t with timer := .high, tea := true } := by
        rw [← hx.1, ← hx.2]
        exact if_pos ⟨rfl, rfl⟩
      have hcnt : (b.compare hw u t).cnt (mcMap i).pcnt = if (b.tim u t).out = true then ((resettable hw).count (b.cnt (mcMap i).pcnt)).1 else b.cnt (mcMap i).pcnt := by
        change (if (b.tim u t).out && b.counted u t (mcMap i).pcnt then _ else _) = _
        rw [hct, Bool.and_true]
      have hirq : (b.compare hw u t).irq (mcMap i).pcnt = if (b.tim u t).out = true then b.irq (mcMap i).pcnt || ((resettable hw).count (b.cnt (mcMap i).pcnt)).2 else b.irq (mcMap i).pcnt := by
        change (if (b.tim u t).out && b.counted u t (mcMap i).pcnt then b.irq (mcMap i).pcnt || (_ && b.thr (mcMap i).pcnt) else _) = _
        rw [hct, (hc.sig i hi).2, Bool.and_true, Bool.and_true]
      have hlow' : (b.view i).timer = .low := by
        change (b.tim (mcMap i).unit (mcMap i).timer).timer = .low
        rw [← hx.1, ← hx.2]
        exact hlow
      have ht : b.tim (mcMap i).unit (mcMap i).timer = b.tim u t := by rw [hx.1, hx.2]
      unfold Mcpwm.step
      dsimp only
      rw [if_pos hlow']
      unfold view
      dsimp only
      rw [hque, htim, hcnt, hirq, ht]
      unfold Mcpwm.compare
      dsimp only [Mcpwm.sync]
      cases (b.tim u t).out <;> rfl
    · rw [if_neg hx]
      have hd : b.drv (b.que i).pin ≠ some (u, t) := by
        rcases hb.pin i hi with h1 | h1
        · rw [h1]
          intro hy
          injection hy with hy
          injection hy with hy1 hy2
          exact hx ⟨hy1.symm, hy2.symm⟩
        · rw [h1]
          exact fun hy => nomatch hy
      have hct : b.counted u t (mcMap i).pcnt = false := by
        rw [hcounted]
        cases hy : (b.drv (b.que i).pin == some (u, t)) with
        | false => rfl
        | true => exact absurd (eq_of_beq hy) hd
      refine view_congr i ?_ ?_ ?_ ?_
      · have : (b.compare hw u t).que i = b.que i := if_neg (fun hy => hd hy.2)
        rw [this]
        exact ⟨rfl, rfl, rfl, rfl⟩
      · exact if_neg (fun hy => hx ⟨hy.1.symm, hy.2.symm⟩)
      · change (if (b.tim u t).out && b.counted u t (mcMap i).pcnt then _ else _) = _
        rw [hct, Bool.and_false]
        rfl
      · change (if (b.tim u t).out && b.counted u t (mcMap i).pcnt then _ else _) = _
        rw [hct, Bool.and_false]
        rfl

/-- the timer reaches zero -/
theorem zero_view {b : EspBoard σ} (hc : b.Calm) (u t : Nat) (hhigh : (b.tim u t).timer = .high) :
    (b.zero u t).Calm ∧
      ∀ i, i < b.n → (b.zero u t).view i = if u = (mcMap i).unit ∧ t = (mcMap i).timer then (b.view i).step (resettable hw) .zero else b.view i := by
  refine ⟨{ cnt := hc.cnt, ctrl := hc.ctrl, sig := hc.sig, ena := ?_ }, ?_⟩
  · intro u' t' hx
    have := hc.ena u' t' hx
    by_cases hy : u' = u ∧ t' = t
    · have e : (b.zero u t).tim u' t' =
          { b.tim u t with timer := if (b.tim u t).run then .low else .stopped, period := if (b.tim u t).atZero then (b.tim u t).shadow else (b.tim u t).period } := if_pos hy
      rw [e]
      rw [hy.1, hy.2] at this
      exact this
    · have e : (b.zero u t).tim u' t' = b.tim u' t' := if_neg hy
      rw [e]
      exact this
  · intro i hi
    by_cases hx : u = (mcMap i).unit ∧ t = (mcMap i).timer
    · rw [if_pos hx]
      have htim : (b.zero u t).tim (mcMap i).unit (mcMap i).timer =
          { b.tim u t with timer := if (b.tim u t).run then .low else .stopped, period := if (b.tim u t).atZero then (b.tim u t).shadow else (b.tim u t).period } := by
        rw [← hx.1, ← hx.2]
        exact if_pos ⟨rfl, rfl⟩
      have ht : b.tim (mcMap i).unit (mcMap i).timer = b.tim u t := by rw [hx.1, hx.2]
      have hhigh' : (b.view i).timer = .high := by
        change (b.tim (mcMap i).unit (mcMap i).timer).timer = .high
        rw [ht]
        exact hhigh
      unfold Mcpwm.step
      dsimp only
      rw [if_pos hhigh']
      unfold view
      dsimp only
      rw [htim, ht]
      rfl
    · rw [if_neg hx]
      refine view_congr i ⟨rfl, rfl, rfl, rfl⟩ ?_ rfl rfl
      exact if_neg (fun hy => hx ⟨hy.1.symm, hy.2.symm⟩)

/-- a new stepper -/
theorem setUp_view {m : Nat} (hm : m = 4 ∨ m = 6) {b : EspBoard σ} (hc : b.Calm) (pin dirPin : Nat) (hi' : Bool) (hn : b.n < m) :
    (b.setUp hw pin dirPin hi').Calm ∧ (∀ i, i < b.n → (b.setUp hw pin dirPin hi').view i = b.view i) ∧
      (b.setUp hw pin dirPin hi').channel b.n = Mcpwm.fresh hw (b.cnt (mcMap b.n).pcnt).1 dirPin hi' := by
  have hn6 : b.n < 6 := by omega
  have hown : (b.tim (mcMap b.n).unit (mcMap b.n).timer).ena = false :=
    hc.ena _ _ (fun i hi hx => by
      have := map_timer (i := i) (j := b.n) (by omega) hn6 hx.1.symm hx.2.symm
      omega)
  refine ⟨{ cnt := ?_, ctrl := hc.ctrl, sig := ?_, ena := ?_ }, ?_, ?_⟩
  · intro p
    change (if p = (mcMap b.n).pcnt then (resettable hw).clear _ else b.cnt p).2 = false
    split
    · rfl
    · exact hc.cnt p
  · intro i hi
    change i < b.n + 1 at hi
    have e1 : (b.setUp hw pin dirPin hi').sig (mcMap i).pcnt =
        if (mcMap i).pcnt = (mcMap b.n).input then some (if b.n = b.n then (⟨(Queue.init .esp32).setDirPin dirPin hi', false, .idle, pin, []⟩ : EspQueue) else b.que b.n).pin else b.sig (mcMap i).pcnt := rfl
    have e2 : ((b.setUp hw pin dirPin hi').que i).pin = (if i = b.n then (⟨(Queue.init .esp32).setDirPin dirPin hi', false, .idle, pin, []⟩ : EspQueue) else b.que i).pin := rfl
    have e3 : (b.setUp hw pin dirPin hi').thr (mcMap i).pcnt = if (mcMap i).pcnt = (mcMap b.n).pcnt then true else b.thr (mcMap i).pcnt := rfl
    rw [e1, e2, e3, (map_io b.n).2]
    by_cases hx : i = b.n
    · rw [hx]
      simp only [if_true, and_self]
    · have hne : (mcMap i).pcnt ≠ (mcMap b.n).pcnt := fun hy => hx (map_pcnt (by omega) hn6 hy)
      rw [if_neg hne, if_neg hx, if_neg hne]
      exact hc.sig i (by omega)
  · intro u t hx
    have h0 : ¬ (u = (mcMap b.n).unit ∧ t = (mcMap b.n).timer) := hx b.n (Nat.lt_succ_self _)
    have h1 := hc.ena u t (fun i hi => hx i (Nat.lt_succ_of_lt hi))
    change (if u = (mcMap b.n).unit ∧ t = (mcMap b.n).timer then _ else if u = (mcMap b.n).unit ∧ (mcMap b.n).timer = 0 then { b.tim u t with ena := false } else b.tim u t : EspTimer).ena = false
    rw [if_neg h0]
    split
    · rfl
    · exact h1
  · intro i hi
    have hne : i ≠ b.n := by omega
    have hne2 : (mcMap i).pcnt ≠ (mcMap b.n).pcnt := fun hy => hne (map_pcnt (by omega) hn6 hy)
    refine view_congr i ?_ ?_ ?_ ?_
    · have : (b.setUp hw pin dirPin hi').que i = b.que i := if_neg hne
      rw [this]
      exact ⟨rfl, rfl, rfl, rfl⟩
    · have h0 : ¬ ((mcMap i).unit = (mcMap b.n).unit ∧ (mcMap i).timer = (mcMap b.n).timer) := fun hy => hne (map_timer (by omega) hn6 hy.1 hy.2)
      have h1 : ¬ ((mcMap i).unit = (mcMap b.n).unit ∧ (mcMap b.n).timer = 0) := fun hy => map_first hi hn6 hy.1 hy.2
      change (if (mcMap i).unit = (mcMap b.n).unit ∧ (mcMap i).timer = (mcMap b.n).timer then _ else if (mcMap i).unit = (mcMap b.n).unit ∧ (mcMap b.n).timer = 0 then _ else b.tim _ _ : EspTimer) = _
      rw [if_neg h0, if_neg h1]
    · exact if_neg hne2
    · exact if_neg hne2
  · have e1 : (b.setUp hw pin dirPin hi').que b.n = ⟨(Queue.init .esp32).setDirPin dirPin hi', false, .idle, pin, []⟩ := if_pos rfl
    have e2 : (b.setUp hw pin dirPin hi').tim (mcMap b.n).unit (mcMap b.n).timer = ⟨.stopped, false, 400, 400, true, false, false, false⟩ := by
      have : (b.setUp hw pin dirPin hi').tim (mcMap b.n).unit (mcMap b.n).timer =
        ⟨.stopped, false, 400, 400, true, false, false, (b.tim (mcMap b.n).unit (mcMap b.n).timer).ena && decide ((mcMap b.n).timer ≠ 0)⟩ := if_pos ⟨rfl, rfl⟩
      rw [this, hown]
      rfl
    have e3 : (b.setUp hw pin dirPin hi').cnt (mcMap b.n).pcnt = (resettable hw).clear ((resettable hw).setLim 1 (b.cnt (mcMap b.n).pcnt)) := if_pos rfl
    have e4 : (b.setUp hw pin dirPin hi').irq (mcMap b.n).pcnt = false := if_pos rfl
    unfold channel view
    dsimp only
    rw [e1, e2, e3, e4]
    unfold Mcpwm.fresh Mcpwm.init Queue.setDirPin
    rfl

end EspBoard
end FAS
