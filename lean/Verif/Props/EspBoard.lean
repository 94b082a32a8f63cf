import Verif.Lemmas.EspBoard
import Verif.Props.Mcpwm

/-!
# Property C91: several steppers on the MCPWM/PCNT drivers of an ESP32

`(EspBoard.init junk).run hw m evs` executes an arbitrary schedule of connections of steppers, detaching and reattaching of pins, events of the timers, interrupts, accesses to the shared registers and
calls of the API. `m` is the number of queues of the driver: 6 on ESP32 and 4 on ESP32S3. `hw` is the behaviour of the pulse counters and `junk` their state before.
-/

namespace FAS
namespace EspBoard
variable {σ : Type} (hw : PcntHw σ)

/-- C91: whatever pins are connected in whatever order, each stepper has a timer with its output, a pulse counter and a step pin of its own, which are set up, and their interrupts are delivered to it. No
restriction on the schedule. -/
theorem _root_.FAS.C91_channels (m : Nat) (hm : m = 4 ∨ m = 6) (junk : Nat → σ) (evs : List Ev) : ((EspBoard.init junk).run hw m evs).Wired m :=
  Wired.run hw hm evs (Wired.init m junk)

/-- Four attempts on an ESP32S3 with two steppers connected twice, and a fifth one. -/
example : let b := (EspBoard.init (fun _ => mcCnt)).run shadowPcnt 4 [.connect 18 5 true, .connect 18 6 true, .connect 19 6 true, .connect 21 7 true, .detach 1, .connect 22 8 true, .connect 23 9 true]
    b.n = 4 ∧ (List.range 4).map (fun i => (b.que i).pin) = [18, 19, 21, 22] ∧ b.drv 18 = some (0, 0) ∧ b.drv 19 = none ∧ b.drv 22 = some (1, 0) ∧ b.sig 3 = some 22 := by
  decide +kernel

/-- one event for a connected stepper -/
theorem step_channel {m : Nat} (hm : m = 4 ∨ m = 6) {b : EspBoard σ} (hb : b.Wired m) (hc : b.Calm) (ev : Ev) (hq : b.Quiet ev) :
    (b.step hw m ev).Calm ∧ ∀ i, i < b.n → (b.step hw m ev).channel i = (b.channel i).exec hw (mine hw m i b [ev]) := by
  have hm6 : m ≤ 6 := by omega
  have hmax := hb.max
  -- the events of the list `l` of stepper i, in terms of the view
  have none_ : ∀ {b' : EspBoard σ} i, b'.view i = b.view i → b'.channel i = (b.channel i).exec hw [] := by
    intro b' i hv
    rw [channel_base, channel_base, hv]
    rfl
  have one : ∀ {b' : EspBoard σ} i (e : Mcpwm.Ev), b'.view i = (b.view i).step (resettable hw) e → b'.channel i = (b.channel i).exec hw [e] := by
    intro b' i e hv
    rw [channel_base, channel_base, hv]
    exact (Mcpwm.base_step hw _ (view_flag hc i) rfl e).1
  cases ev with
  | connect pin dirPin hi =>
    unfold EspBoard.step
    dsimp only
    split
    · refine ⟨hc, fun i hi => ?_⟩
      simp only [mine, List.append_nil, if_pos hi]
      exact none_ i rfl
    · rename_i hx
      rw [Bool.not_eq_true, Bool.or_eq_false_iff] at hx
      obtain ⟨h1, h2, _⟩ := setUp_view hw hm hc pin dirPin hi (by have := of_decide_eq_false hx.2; omega)
      refine ⟨h1, fun i hi => ?_⟩
      simp only [mine, List.append_nil, if_pos hi]
      exact none_ i (h2 i hi)
  | detach j =>
    have hv : ∀ i, (b.step hw m (.detach j)).view i = b.view i := by
      intro i
      unfold EspBoard.step
      dsimp only
      split <;> rfl
    refine ⟨?_, fun i hi => ?_⟩
    · unfold EspBoard.step
      dsimp only
      split
      · exact { cnt := hc.cnt, ctrl := hc.ctrl, sig := hc.sig, ena := hc.ena }
      · exact hc
    · simp only [mine, List.append_nil, if_pos hi]
      exact none_ i (hv i)
  | reattach j =>
    have hv : ∀ i, (b.step hw m (.reattach j)).view i = b.view i := by
      intro i
      unfold EspBoard.step
      dsimp only
      split <;> rfl
    refine ⟨?_, fun i hi => ?_⟩
    · unfold EspBoard.step
      dsimp only
      split
      · rename_i hj
        refine { cnt := hc.cnt, ctrl := hc.ctrl, sig := ?_, ena := hc.ena }
        intro i hi
        change i < b.n at hi
        have e1 : (b.wire j).sig (mcMap i).pcnt = if (mcMap i).pcnt = (mcMap j).input then some (b.que j).pin else b.sig (mcMap i).pcnt := rfl
        have e2 : ((b.wire j).que i).pin = (b.que i).pin := rfl
        have e3 : (b.wire j).thr = b.thr := rfl
        rw [e1, e2, e3, (map_io j).2]
        split
        · rename_i hx
          rw [map_pcnt (by omega) (by omega) hx]
          exact ⟨rfl, (hc.sig j hj).2⟩
        · exact hc.sig i hi
      · exact hc
    · simp only [mine, List.append_nil, if_pos hi]
      exact none_ i (hv i)
  | attachCounter j unit high =>
    unfold EspBoard.step
    dsimp only
    by_cases hx : j < b.n ∧ unit < (if m = 4 then 4 else 8)
    · rw [if_pos hx]
      refine ⟨{ cnt := ?_, ctrl := hc.ctrl, sig := ?_, ena := hc.ena }, fun i hi => ?_⟩
      · intro p
        change (if p = unit then (resettable hw).clear _ else b.cnt p).2 = false
        split
        · rfl
        · exact hc.cnt p
      · intro i hi
        have hne := hq i hi
        change (if (mcMap i).pcnt = unit then _ else b.sig (mcMap i).pcnt) = _ ∧ (if (mcMap i).pcnt = unit then _ else b.thr (mcMap i).pcnt) = _
        rw [if_neg hne, if_neg hne]
        exact hc.sig i hi
      · simp only [mine, List.append_nil, if_pos hi]
        refine none_ i (view_congr i ⟨rfl, rfl, rfl, rfl⟩ rfl ?_ rfl)
        exact if_neg (hq i hi)
    · rw [if_neg hx]
      refine ⟨hc, fun i hi => ?_⟩
      simp only [mine, List.append_nil, if_pos hi]
      exact none_ i rfl
  | zero u t =>
    have hno : ∀ i, (b.tim (mcMap i).unit (mcMap i).timer).timer ≠ .high → (b.view i).step (resettable hw) .zero = b.view i := by
      intro i hi
      unfold Mcpwm.step
      dsimp only
      rw [if_neg (by exact hi)]
      rfl
    unfold EspBoard.step
    dsimp only
    split
    · rename_i hx
      rw [Bool.and_eq_true] at hx
      obtain ⟨h1, h2⟩ := zero_view hw hc u t (of_decide_eq_true hx.2)
      refine ⟨h1, fun i hi => ?_⟩
      have h2 := h2 i hi
      simp only [mine, List.append_nil, if_pos hi]
      split
      · rename_i hy
        rw [if_pos hy] at h2
        exact one i _ h2
      · rename_i hy
        rw [if_neg hy] at h2
        exact none_ i h2
    · rename_i hx
      refine ⟨hc, fun i hi => ?_⟩
      simp only [mine, List.append_nil, if_pos hi]
      split
      · rename_i hy
        refine one i _ (hno i ?_).symm
        intro hz
        refine hx ?_
        rw [hy.1, hy.2, (hb.unit i hi).1, hz]
        rfl
      · exact none_ i rfl
  | compare u t =>
    have hno : ∀ i, (b.tim (mcMap i).unit (mcMap i).timer).timer ≠ .low → (b.view i).step (resettable hw) .compare = b.view i := by
      intro i hi
      unfold Mcpwm.step
      dsimp only
      rw [if_neg (by exact hi)]
      rfl
    unfold EspBoard.step
    dsimp only
    split
    · rename_i hx
      rw [Bool.and_eq_true] at hx
      obtain ⟨h1, h2⟩ := compare_view hw hb hc u t hq (of_decide_eq_true hx.2)
      refine ⟨h1, fun i hi => ?_⟩
      have h2 := h2 i hi
      simp only [mine, List.append_nil, if_pos hi]
      split
      · rename_i hy
        rw [if_pos hy] at h2
        exact one i _ h2
      · rename_i hy
        rw [if_neg hy] at h2
        exact none_ i h2
    · rename_i hx
      refine ⟨hc, fun i hi => ?_⟩
      simp only [mine, List.append_nil, if_pos hi]
      split
      · rename_i hy
        refine one i _ (hno i ?_).symm
        intro hz
        refine hx ?_
        rw [hy.1, hy.2, (hb.unit i hi).1, hz]
        rfl
      · exact none_ i rfl
  | mcpwmIsr u =>
    unfold EspBoard.step
    dsimp only
    by_cases hx : (decide (u < 2) && b.unitOn u) = true
    · rw [if_pos hx]
      rw [Bool.and_eq_true] at hx
      have hu : u = 0 ∨ u = 1 := by have := of_decide_eq_true hx.1; omega
      obtain ⟨h1, h2⟩ := service_all hw hm6 hu (mcDispatch m u) (b := b) (fun _ hx => hx) (dispatch_nodup m u) hb hc hq
      refine ⟨h1, fun i hi => ?_⟩
      have h2 := h2 i hi
      simp only [mine, List.append_nil, if_pos hi]
      by_cases hy : u = (mcMap i).unit
      · rw [if_pos hy]
        rw [if_pos (by rw [hy]; exact (hb.unit i hi).2)] at h2
        exact one i _ h2
      · rw [if_neg hy]
        rw [if_neg (fun hz => hy (dispatch_map u hu hz).2.1.symm)] at h2
        exact none_ i h2
    · rw [if_neg hx]
      refine ⟨hc, fun i hi => ?_⟩
      simp only [mine, List.append_nil, if_pos hi]
      by_cases hy : u = (mcMap i).unit
      · refine absurd ?_ hx
        rw [hy, (hb.unit i hi).1, Bool.and_true]
        rcases map_unit i with h0 | h0 <;> rw [h0] <;> rfl
      · rw [if_neg hy]
        exact none_ i rfl
  | pcntIsr p =>
    unfold EspBoard.step
    dsimp only
    by_cases hx : (b.service && b.irq p) = true
    · rw [if_pos hx]
      rw [Bool.and_eq_true] at hx
      generalize hb' : ({ b with irq := fun p' => if p' = p then false else b.irq p' } : EspBoard σ) = b'
      have hf : Frame b b' := by rw [← hb']; exact ⟨rfl, fun _ => rfl, rfl, rfl, rfl, rfl, rfl, rfl⟩
      have hc' : b'.Calm := by
        rw [← hb']
        exact { cnt := hc.cnt, ctrl := hc.ctrl, sig := hc.sig, ena := hc.ena }
      have hother : ∀ i, (mcMap i).pcnt ≠ p → b'.view i = b.view i := by
        intro i hi
        rw [← hb']
        exact view_congr i ⟨rfl, rfl, rfl, rfl⟩ rfl rfl (if_neg hi)
      have hself : ∀ i, (mcMap i).pcnt = p → b'.view i = { b.view i with irq := false } := by
        intro i hi
        have e : b'.irq (mcMap i).pcnt = false := by rw [← hb']; exact if_pos hi
        have e1 : b'.tim = b.tim ∧ b'.cnt = b.cnt ∧ b'.que = b.que := by rw [← hb']; exact ⟨rfl, rfl, rfl⟩
        unfold view
        dsimp only
        rw [e, e1.1, e1.2.1, e1.2.2]
        rfl
      by_cases hex : ∃ i, i < b.n ∧ (mcMap i).pcnt = p
      · obtain ⟨k, hkn, hkp⟩ := hex
        have hh : b.handler p = some k := by rw [← hkp]; exact (hb.counter k hkn).2
        rw [hh]
        dsimp only
        have hup : b'.UpToDate k := by
          have := hq k hkn hkp
          rw [← hb']
          exact this
        obtain ⟨c1, c2, c3⟩ := code_quiet hw hm6 (hb.frame hf) hc' (by rw [hf.n]; exact hkn) hup (Mcpwm.whatIsNext (resettable hw)) (Mcpwm.whatIsNext_snap _ _)
          (Mcpwm.whatIsNext_flag hw _ (view_flag hc' _))
        refine ⟨c1, fun i hi => ?_⟩
        simp only [mine, List.append_nil, if_pos hi]
        by_cases hik : i = k
        · rw [hik, if_pos hkp.symm]
          refine one k _ ?_
          rw [c2, hself k hkp]
          unfold Mcpwm.step
          dsimp only
          have : (b.view k).irq = true := by
            change b.irq (mcMap k).pcnt = true
            rw [hkp]
            exact hx.2
          rw [if_pos this]
        · have hne : (mcMap i).pcnt ≠ p := fun hy => hik (hb.counters i k hi hkn (hy.trans hkp.symm))
          rw [if_neg (fun hy => hne hy.symm)]
          refine none_ i ?_
          rw [c3 i (by rw [hf.n]; exact hi) hik, hother i hne]
      · -- nobody uses it
        have hne : ∀ i, i < b.n → (mcMap i).pcnt ≠ p := fun i hi hy => hex ⟨i, hi, hy⟩
        have hh : b.handler p = none := by
          cases hh : b.handler p with
          | none => rfl
          | some k => exact absurd (hb.handlers p k hh) (fun hy => hne k hy.1 hy.2)
        rw [hh]
        dsimp only
        refine ⟨hc', fun i hi => ?_⟩
        simp only [mine, List.append_nil, if_pos hi]
        rw [if_neg (fun hy => hne i hi hy.symm)]
        exact none_ i (hother i (hne i hi))
    · rw [if_neg hx]
      refine ⟨hc, fun i hi => ?_⟩
      simp only [mine, List.append_nil, if_pos hi]
      by_cases hy : p = (mcMap i).pcnt
      · rw [if_pos hy]
        refine one i _ ?_
        unfold Mcpwm.step
        dsimp only
        have : ¬ (b.view i).irq = true := by
          intro hz
          refine hx ?_
          rw [(hb.counter i hi).1, hy]
          exact hz
        rw [if_neg this]
        rfl
      · rw [if_neg hy]
        exact none_ i rfl
  | readEna j =>
    have hv : ∀ i, (b.step hw m (.readEna j)).view i = b.view i := by
      intro i
      unfold EspBoard.step
      dsimp only
      split <;> rfl
    refine ⟨?_, fun i hi => ?_⟩
    · unfold EspBoard.step
      dsimp only
      split
      · exact { cnt := hc.cnt, ctrl := hc.ctrl, sig := hc.sig, ena := hc.ena }
      · exact hc
    · simp only [mine, List.append_nil, if_pos hi]
      exact none_ i (hv i)
  | readCtrl j d =>
    have hv : ∀ i, (b.step hw m (.readCtrl j d)).view i = b.view i := by
      intro i
      unfold EspBoard.step
      dsimp only
      split <;> rfl
    refine ⟨?_, fun i hi => ?_⟩
    · unfold EspBoard.step
      dsimp only
      split
      · refine { cnt := hc.cnt, ctrl := ?_, sig := hc.sig, ena := hc.ena }
        intro i r p hr
        change (if i = j then some (fun p => (b.cnt p).2 || decide (d = some p)) else b.ctrlCopy i) = some r at hr
        split at hr
        · injection hr with hr
          rw [← hr]
          change ((b.cnt p).2 || decide (d = some p)) = false
          have hd : d = none := hq
          rw [hc.cnt p, hd]
          rfl
        · exact hc.ctrl i r p hr
      · exact hc
    · simp only [mine, List.append_nil, if_pos hi]
      exact none_ i (hv i)
  | stepper j e =>
    unfold EspBoard.step
    dsimp only
    by_cases hx : j < b.n ∧ apiCall e = true
    · rw [if_pos hx]
      obtain ⟨_, hfl, hsn⟩ := Mcpwm.base_step hw (b.view j) (view_flag hc j) rfl e
      have hsync : ((b.view j).step (resettable hw) e).sync = (b.view j).step (resettable hw) e := rfl
      have key : ∀ b' : EspBoard σ, b'.Calm → b'.view j = ((b.view j).step (resettable hw) e).sync → (∀ i, i < b.n → i ≠ j → b'.view i = b.view i) →
          b'.Calm ∧ ∀ i, i < b.n → b'.channel i = (b.channel i).exec hw (mine hw m i b [.stepper j e]) := by
        intro b' c1 c2 c3
        refine ⟨c1, fun i hi => ?_⟩
        simp only [mine, List.append_nil, if_pos hi]
        by_cases hij : i = j
        · rw [if_pos ⟨hij.symm, hx.2⟩, hij]
          exact one j _ c2
        · rw [if_neg (fun hy => hij hy.1.symm)]
          exact none_ i (c3 i hi hij)
      split
      · rename_i hwr
        obtain ⟨c1, c2, c3⟩ := code_quiet hw hm6 hb hc hx.1 (hq hwr) (fun s => s.step (resettable hw) e) (hsn hx.2) hfl
        exact key _ c1 c2 c3
      · exact key _ (hc.put hx.1 _ hfl) (view_put_self b j _ (hsn hx.2)) (fun i hi hij => view_put_other hm6 hb hi hx.1 hij _)
    · rw [if_neg hx]
      refine ⟨hc, fun i hi => ?_⟩
      simp only [mine, List.append_nil, if_pos hi]
      by_cases hij : j = i ∧ apiCall e = true
      · exact absurd ⟨by rw [hij.1]; exact hi, hij.2⟩ hx
      · rw [if_neg hij]
        exact none_ i rfl

theorem mine_cons (m i : Nat) (b : EspBoard σ) (ev : Ev) (evs : List Ev) : mine hw m i b (ev :: evs) = mine hw m i b [ev] ++ mine hw m i (b.step hw m ev) evs := by
  simp only [mine, List.append_nil]

/-- only connecting changes the number of steppers -/
theorem step_n (m : Nat) (b : EspBoard σ) (ev : Ev) : (b.step hw m ev).n = b.n ∨ ((b.step hw m ev).n = b.n + 1 ∧ b.n < m ∧
    ∃ pin dirPin hi, ev = .connect pin dirPin hi ∧ b.step hw m ev = b.setUp hw pin dirPin hi) := by
  cases ev with
  | connect pin dirPin hi =>
    by_cases hx : (b.pinUsed pin || decide (b.n ≥ m)) = true
    · refine Or.inl ?_
      unfold EspBoard.step
      dsimp only
      rw [if_pos hx]
    · have e : b.step hw m (.connect pin dirPin hi) = b.setUp hw pin dirPin hi := by
        unfold EspBoard.step
        dsimp only
        rw [if_neg hx]
      rw [Bool.not_eq_true, Bool.or_eq_false_iff] at hx
      refine Or.inr ⟨?_, by have := of_decide_eq_false hx.2; omega, pin, dirPin, hi, rfl, e⟩
      rw [e]
      rfl
  | detach i =>
    refine Or.inl ?_
    unfold EspBoard.step
    dsimp only
    split <;> rfl
  | reattach i =>
    refine Or.inl ?_
    unfold EspBoard.step
    dsimp only
    split <;> rfl
  | attachCounter i unit high =>
    refine Or.inl ?_
    unfold EspBoard.step
    dsimp only
    by_cases hx : i < b.n ∧ unit < (if m = 4 then 4 else 8)
    · rw [if_pos hx]
    · rw [if_neg hx]
  | zero u t => exact Or.inl (step_frame hw m b _ trivial).n
  | compare u t => exact Or.inl (step_frame hw m b _ trivial).n
  | mcpwmIsr u => exact Or.inl (step_frame hw m b _ trivial).n
  | pcntIsr p => exact Or.inl (step_frame hw m b _ trivial).n
  | readEna i => exact Or.inl (step_frame hw m b _ trivial).n
  | readCtrl i d => exact Or.inl (step_frame hw m b _ trivial).n
  | stepper i ev => exact Or.inl (step_frame hw m b _ trivial).n

theorem run_old {m : Nat} (hm : m = 4 ∨ m = 6) (i : Nat) : ∀ (evs : List Ev) {b : EspBoard σ}, b.Wired m → b.Calm → Along hw m Quiet b evs → i < b.n →
    (b.run hw m evs).channel i = (b.channel i).exec hw (mine hw m i b evs)
  | [], _, _, _, _, _ => rfl
  | ev :: evs, b, hb, hc, hq, hi => by
    obtain ⟨h1, h2⟩ := step_channel hw hm hb hc ev hq.1
    have hi' : i < (b.step hw m ev).n := by
      rcases step_n hw m b ev with h | ⟨h, _⟩ <;> omega
    have ih := run_old hm i evs (hb.step hw hm ev) h1 hq.2 hi'
    rw [mine_cons]
    change ((b.step hw m ev).run hw m evs).channel i = _
    rw [ih, h2 i hi]
    unfold Mcpwm.exec
    rw [List.foldl_append]

theorem run_new {m : Nat} (hm : m = 4 ∨ m = 6) (i : Nat) : ∀ (evs : List Ev) {b : EspBoard σ}, b.Wired m → b.Calm → Along hw m Quiet b evs → b.n ≤ i → i < (b.run hw m evs).n →
    ∃ p, (b.run hw m evs).channel i = (Mcpwm.fresh hw p (config hw m i b evs).1 (config hw m i b evs).2).exec hw (mine hw m i b evs)
  | [], b, _, _, _, h1, h2 => absurd h2 (by change ¬ i < b.n; omega)
  | ev :: evs, b, hb, hc, hq, hn, hi => by
    obtain ⟨h1, _⟩ := step_channel hw hm hb hc ev hq.1
    have hmine : mine hw m i b (ev :: evs) = mine hw m i (b.step hw m ev) evs := by
      rw [mine_cons]
      simp only [mine, if_neg (Nat.not_lt.mpr hn), List.append_nil, List.nil_append]
    rw [hmine]
    rcases step_n hw m b ev with h | ⟨h, hnm, pin, dirPin, hi', hev, hs⟩
    · obtain ⟨p, hp⟩ := run_new hm i evs (hb.step hw hm ev) h1 hq.2 (by omega) hi
      refine ⟨p, ?_⟩
      have hcfg : config hw m i b (ev :: evs) = config hw m i (b.step hw m ev) evs := by
        cases ev with
        | connect pin dirPin hiup =>
          change (if b.n = i ∧ (b.step hw m (.connect pin dirPin hiup)).n = i + 1 then (dirPin, hiup) else _) = _
          rw [if_neg (by omega)]
        | _ => rfl
      rw [hcfg]
      exact hp
    · by_cases hx : b.n = i
      · have hold := run_old hw hm i evs (hb.step hw hm ev) h1 hq.2 (by omega)
        obtain ⟨_, _, h3⟩ := setUp_view hw hm hc pin dirPin hi' hnm
        refine ⟨(b.cnt (mcMap b.n).pcnt).1, ?_⟩
        have hcfg : config hw m i b (ev :: evs) = (dirPin, hi') := by
          rw [hev] at h ⊢
          change (if b.n = i ∧ (b.step hw m (.connect pin dirPin hi')).n = i + 1 then (dirPin, hi') else _) = _
          rw [if_pos (by omega)]
        rw [hcfg]
        change ((b.step hw m ev).run hw m evs).channel i = _
        rw [hold]
        have : (b.step hw m ev).channel i = Mcpwm.fresh hw (b.cnt (mcMap b.n).pcnt).1 dirPin hi' := by
          rw [hs, ← hx]
          exact h3
        rw [this]
      · obtain ⟨p, hp⟩ := run_new hm i evs (hb.step hw hm ev) h1 hq.2 (by omega) hi
        refine ⟨p, ?_⟩
        have hcfg : config hw m i b (ev :: evs) = config hw m i (b.step hw m ev) evs := by
          rw [hev]
          change (if b.n = i ∧ (b.step hw m (.connect pin dirPin hi')).n = i + 1 then (dirPin, hi') else _) = _
          rw [if_neg (fun hy => hx hy.1)]
        rw [hcfg]
        exact hp

/-- C91: in a schedule in which no register shared by the steppers is written with an outdated value, each stepper behaves as if it were alone: its queue, its timer, its pulse counter and the output at its step
pin are those of a single channel with its own calls, timer events and interrupts. -/
theorem _root_.FAS.C91_independent_partial (m : Nat) (hm : m = 4 ∨ m = 6) (junk : Nat → σ) (evs : List Ev) (hq : Along hw m Quiet (EspBoard.init junk) evs) (i : Nat)
    (hi : i < ((EspBoard.init junk).run hw m evs).n) :
    ∃ p, ((EspBoard.init junk).run hw m evs).channel i =
      (Mcpwm.fresh hw p (config hw m i (EspBoard.init junk) evs).1 (config hw m i (EspBoard.init junk) evs).2).exec hw (mine hw m i (EspBoard.init junk) evs) :=
  run_new hw hm i evs (Wired.init m junk) (Calm.init junk) hq (Nat.zero_le _) hi

theorem track_exec (evs : List Mcpwm.Ev) : ∀ (s : Mcpwm σ) (acc : List Cmd), (Mcpwm.track hw s acc evs).1 = s.exec hw evs := by
  induction evs with
  | nil => intro s acc; rfl
  | cons ev evs ih => intro s acc; exact ih _ _

/-- A new stepper alone. -/
def alone (m i : Nat) (junk : Nat → ShadowPcnt) (evs : List Ev) : Mcpwm ShadowPcnt :=
  Mcpwm.fresh shadowPcnt ⟨0, 0, 0⟩ (config shadowPcnt m i (EspBoard.init junk) evs).1 (config shadowPcnt m i (EspBoard.init junk) evs).2

/-- C91: hence the output at the step pin of each stepper is exactly the periods of its accepted commands (C72), and each pulse has the commanded direction (C73). -/
theorem _root_.FAS.C91_output_partial (m : Nat) (hm : m = 4 ∨ m = 6) (junk : Nat → ShadowPcnt) (evs : List Ev) (hq : Along shadowPcnt m Quiet (EspBoard.init junk) evs) (i : Nat)
    (hi : i < ((EspBoard.init junk).run shadowPcnt m evs).n)
    (hpin : (config shadowPcnt m i (EspBoard.init junk) evs).1 = pinUndefined ∨ (config shadowPcnt m i (EspBoard.init junk) evs).1 < 128)
    (hp : Mcpwm.Along shadowPcnt Mcpwm.Basic (alone m i junk evs) (mine shadowPcnt m i (EspBoard.init junk) evs)) :
    let s := ((EspBoard.init junk).run shadowPcnt m evs).channel i
    let acc := (Mcpwm.track shadowPcnt (alone m i junk evs) [] (mine shadowPcnt m i (EspBoard.init junk) evs)).2
    s.log.reverse.map Cycle.shape <+: cycles acc ∧
      (s.Served → s.log.reverse.map Cycle.shape ++ cycles (Hw.readOut .esp32 ⟨s.q, if s.q.running then s.pcnt.val else 0⟩) = cycles acc) ∧
      ∀ c ∈ s.log, c.pulse = true → ∃ u, c.up = some u ∧ DirOK (config shadowPcnt m i (EspBoard.init junk) evs).1 (config shadowPcnt m i (EspBoard.init junk) evs).2 u c.level := by
  obtain ⟨p, h⟩ := FAS.C91_independent_partial shadowPcnt m hm junk evs hq i hi
  have h0 : Mcpwm.fresh shadowPcnt p (config shadowPcnt m i (EspBoard.init junk) evs).1 (config shadowPcnt m i (EspBoard.init junk) evs).2 = alone m i junk evs := rfl
  dsimp only
  rw [h, h0, ← track_exec shadowPcnt _ _ []]
  have h1 := C72_periods_partial _ (Mcpwm.fresh_idle shadowPcnt ⟨0, 0, 0⟩ _ hpin _) _ hp
  have h2 := C73_direction_partial _ (Mcpwm.fresh_idle shadowPcnt ⟨0, 0, 0⟩ _ hpin (config shadowPcnt m i (EspBoard.init junk) evs).2) _ hp
  exact ⟨h1.1, h1.2, h2⟩

/-! ## A concrete schedule -/

instance decUpToDate (b : EspBoard σ) (i : Nat) : Decidable (b.UpToDate i) :=
  match h : b.enaCopy i with
  | none => isTrue (fun r hr => by rw [h] at hr; cases hr)
  | some r =>
    if hx : ∀ t, t < 3 → t ≠ (mcMap i).timer → r t = (b.tim (mcMap i).unit t).ena then
      isTrue (fun r' hr => by rw [h] at hr; injection hr with hr; rw [← hr]; exact hx)
    else isFalse (fun hy => hx (hy r h))

instance decQuiet (b : EspBoard σ) : (ev : Ev) → Decidable (b.Quiet ev)
  | .connect _ _ _ => isTrue trivial
  | .detach _ => isTrue trivial
  | .reattach _ => isTrue trivial
  | .attachCounter _ _ _ => inferInstanceAs (Decidable (∀ i, i < b.n → _))
  | .zero _ _ => isTrue trivial
  | .compare _ _ => inferInstanceAs (Decidable (∀ i, i < b.n → _))
  | .mcpwmIsr u => inferInstanceAs (Decidable (∀ i, i < b.n → (mcMap i).unit = u → ((b.tim u (mcMap i).timer).tea && (b.tim u (mcMap i).timer).ena) = true → b.enaCopy i = none))
  | .pcntIsr _ => inferInstanceAs (Decidable (∀ i, i < b.n → _))
  | .readEna _ => isTrue trivial
  | .readCtrl _ d => inferInstanceAs (Decidable (d = none))
  | .stepper i e => inferInstanceAs (Decidable (writes e = true → b.UpToDate i))

instance decAlong (m : Nat) (P : EspBoard σ → Ev → Prop) [∀ s, DecidablePred (P s)] : ∀ (evs : List Ev) (b : EspBoard σ), Decidable (Along hw m P b evs)
  | [], _ => isTrue trivial
  | _ :: evs, _ =>
    have := decAlong m P evs
    inferInstanceAs (Decidable (_ ∧ _))

/-- One period of the timer of stepper `i`, with its interrupts served. -/
def period (i : Nat) : List Ev := [.compare (mcMap i).unit (mcMap i).timer, .pcntIsr (mcMap i).pcnt, .mcpwmIsr (mcMap i).unit, .zero (mcMap i).unit (mcMap i).timer]

/-- Two steppers on the same MCPWM unit with steps and pauses, a third one connected in between. Stepper 1 is started while its code has copies of the shared registers. -/
def example3 : List Ev :=
  [.connect 18 5 true, .connect 19 6 false] ++ (mcAdd ⟨1600, 2, true⟩ true).map (.stepper 0) ++ (mcAdd ⟨5000, 0, true⟩ true).map (.stepper 0) ++ (mcAdd ⟨4000, 1, true⟩ true).map (.stepper 0) ++
    [.stepper 1 (.addBegin ⟨3200, 1, true⟩ true), .stepper 1 .addCommit, .readCtrl 1 none, .readEna 1] ++ period 0 ++ [.stepper 1 .addFinish] ++
    period 1 ++ period 0 ++ [.connect 21 7 true, .attachCounter 1 6 100] ++ period 0 ++ [.detach 1] ++ period 0 ++ [.reattach 1]

example : Along shadowPcnt 6 Quiet (EspBoard.init (fun _ => mcCnt)) example3 ∧
    mine shadowPcnt 6 1 (EspBoard.init (fun _ => mcCnt)) example3 =
      [.addBegin ⟨3200, 1, true⟩ true, .addCommit, .teaIsr, .addFinish, .compare, .pcntIsr, .teaIsr, .zero, .teaIsr, .teaIsr, .teaIsr] ∧
    Mcpwm.Along shadowPcnt Mcpwm.Basic (alone 6 0 (fun _ => mcCnt) example3) (mine shadowPcnt 6 0 (EspBoard.init (fun _ => mcCnt)) example3) ∧
    (((EspBoard.init (fun _ => mcCnt)).run shadowPcnt 6 example3).channel 0).log.reverse.map Cycle.shape =
      [(1600, true, some true), (1600, true, some true), (5000, false, some true), (4000, true, some true)] ∧
    (((EspBoard.init (fun _ => mcCnt)).run shadowPcnt 6 example3).channel 1).log.reverse.map Cycle.shape = [(3200, true, some true)] ∧
    ((EspBoard.init (fun _ => mcCnt)).run shadowPcnt 6 example3).n = 3 := by
  decide +kernel

/-! ## Why the schedules are restricted -/

/-- `n` periods of the timer of stepper `i`. -/
def periods (n i : Nat) : List Ev := (List.replicate n (period i)).flatten

/-- Stepper 0 goes on with its output, but gets no interrupt. -/
structure Stuck (b : EspBoard σ) : Prop where
  on : b.unitOn 0 = true
  low : (b.tim 0 0).timer = .low
  run : (b.tim 0 0).run = true
  ena : ∀ t, t < 3 → (b.tim 0 t).ena = false
  irq : b.irq 0 = false
  drv : 0 < b.n ∧ b.drv (b.que 0).pin = some (0, 0)
  cnt : (b.tim 0 0).out = false ∨ b.counted 0 0 0 = false ∨ (b.cnt 0).2 = true

theorem Stuck.compare {m : Nat} {b : EspBoard σ} (h : b.Stuck) : let b' := b.step hw m (.compare 0 0)
    b'.unitOn 0 = true ∧ (b'.tim 0 0).timer = .high ∧ (b'.tim 0 0).run = true ∧ (∀ t, t < 3 → (b'.tim 0 t).ena = false) ∧ b'.irq 0 = false ∧ (0 < b'.n ∧ b'.drv (b'.que 0).pin = some (0, 0)) ∧
      ((b'.tim 0 0).out = false ∨ b'.counted 0 0 0 = false ∨ (b'.cnt 0).2 = true) ∧ (b'.tim 0 0).out = (b.tim 0 0).out ∧ (b'.que 0).q = (b.que 0).q ∧
      ∃ c, (b'.que 0).log = c :: (b.que 0).log ∧ c.pulse = (b.tim 0 0).out := by
  obtain ⟨h1, h2, h3, h4, h5, h6, h7⟩ := h
  intro b'
  have e : b' = b.compare hw 0 0 := by
    change (if b.unitOn 0 && decide ((b.tim 0 0).timer = .low) then _ else b) = _
    rw [h1, h2]; rfl
  rw [e]
  unfold EspBoard.compare
  dsimp only
  simp only [and_self, if_true, h6, true_and, h1, h3]
  refine ⟨fun t ht => ?_, ?_, ?_, ⟨_, rfl, rfl⟩⟩
  · split
    · exact h4 0 (by omega)
    · exact h4 t ht
  · rcases h7 with h7 | h7 | h7
    · rw [h7]; simpa using h5
    · rw [h7]; simpa using h5
    · split
      · simp [resettable, h7, h5]
      · exact h5
  · rcases h7 with h7 | h7 | h7
    · exact Or.inl h7
    · exact Or.inr (Or.inl h7)
    · refine Or.inr (Or.inr ?_)
      split
      · simp [resettable, h7]
      · exact h7

theorem Stuck.period {m : Nat} {b : EspBoard σ} (h : b.Stuck) : let b' := b.run hw m (period 0)
    b'.Stuck ∧ (b'.tim 0 0).out = (b.tim 0 0).out ∧ (b'.que 0).q = (b.que 0).q ∧ ∃ c, (b'.que 0).log = c :: (b.que 0).log ∧ c.pulse = (b.tim 0 0).out := by
  intro b'
  obtain ⟨h1, h2, h3, h4, h5, h6, h7, h8, h9, h10⟩ := h.compare hw (m := m)
  obtain ⟨c, hc⟩ : ∃ c, c = b.step hw m (.compare 0 0) := ⟨_, rfl⟩
  rw [← hc] at h1 h2 h3 h4 h5 h6 h7 h8 h9 h10
  have e1 : c.step hw m (.pcntIsr 0) = c := by
    change (if c.service && c.irq 0 then _ else c) = c
    rw [h5, Bool.and_false]; rfl
  have e2 : c.step hw m (.mcpwmIsr 0) = c := by
    change (if decide (0 < 2) && c.unitOn 0 then (mcDispatch m 0).foldl (service1 hw 0) c else c) = c
    rw [h1]
    simp [mcDispatch, service1, h4]
  have e3 : b' = c.zero 0 0 := by
    change (((b.step hw m (.compare 0 0)).step hw m (.pcntIsr 0)).step hw m (.mcpwmIsr 0)).step hw m (.zero 0 0) = _
    rw [← hc, e1, e2]
    change (if c.unitOn 0 && decide ((c.tim 0 0).timer = .high) then _ else c) = _
    rw [h1, h2]; rfl
  rw [e3]
  refine ⟨⟨h1, ?_, ?_, fun t ht => ?_, h5, h6, ?_⟩, ?_, h9, h10⟩
  · simp [EspBoard.zero, h3]
  · simp [EspBoard.zero, h3]
  · unfold EspBoard.zero
    dsimp only
    split
    · exact h4 0 (by omega)
    · exact h4 t ht
  · simpa [EspBoard.zero, EspBoard.counted] using h7
  · simpa [EspBoard.zero] using h8

theorem Stuck.periods {m : Nat} : ∀ (n : Nat) {b : EspBoard σ}, b.Stuck → let b' := b.run hw m (periods n 0)
    (b'.que 0).q = (b.que 0).q ∧ ((b'.que 0).log.filter Cycle.pulse).length = ((b.que 0).log.filter Cycle.pulse).length + if (b.tim 0 0).out then n else 0
  | 0, b, h => by simp [EspBoard.periods, EspBoard.run]
  | n + 1, b, h => by
    intro b'
    have e : b' = (b.run hw m (EspBoard.period 0)).run hw m (EspBoard.periods n 0) := by
      change b.run hw m (EspBoard.periods (n + 1) 0) = _
      unfold EspBoard.run EspBoard.periods
      rw [List.replicate_succ, List.flatten_cons, List.foldl_append]
    obtain ⟨h1, h2, h3, c, h4, h5⟩ := h.period hw (m := m)
    obtain ⟨k1, k2⟩ := Stuck.periods n h1
    rw [e]
    refine ⟨k1.trans h3, ?_⟩
    rw [k2, h4, h2, List.filter_cons, h5]
    cases (b.tim 0 0).out <;> simp
    omega

/-- Two steppers on the first MCPWM unit, each with its commands added. -/
def two (a b : List Cmd) : List Ev :=
  [.connect 18 5 true, .connect 19 6 true] ++ ((a.map fun c => mcAdd c true).flatten).map (.stepper 0) ++ ((b.map fun c => mcAdd c true).flatten).map (.stepper 1)

/-- Why C91 is restricted: the call of stepper 1 which starts its queue modifies the interrupt enable register shared by the steppers of the unit by read-modify-write, and is interrupted by the begin of a pause of stepper 0. The
pause of stepper 0 never ends: however many periods pass, the command after the pause is not executed. -/
theorem _root_.FAS.C91_enable_bit_refuted (n : Nat) :
    let evs := two [⟨1600, 2, true⟩, ⟨5000, 0, true⟩, ⟨1600, 2, true⟩] [] ++ [.stepper 1 (.addBegin ⟨3200, 1, true⟩ true), .stepper 1 .addCommit] ++ period 0 ++
      [.compare 0 0, .readEna 1, .pcntIsr 0, .stepper 1 .addFinish, .mcpwmIsr 0, .zero 0 0]
    let s := ((EspBoard.init (fun _ => mcCnt)).run shadowPcnt 6 (evs ++ periods n 0)).channel 0
    s.q.running = true ∧ Hw.readOut .esp32 ⟨s.q, 0⟩ = [⟨5000, 0, true⟩, ⟨1600, 2, true⟩] ∧ (s.log.filter Cycle.pulse).length = 2 := by
  intro evs
  have h : ((EspBoard.init (fun _ => mcCnt)).run shadowPcnt 6 evs).Stuck := by constructor <;> decide +kernel
  obtain ⟨k1, k2⟩ := Stuck.periods shadowPcnt (m := 6) n h
  have e : (EspBoard.init (fun _ => mcCnt)).run shadowPcnt 6 (evs ++ EspBoard.periods n 0) = ((EspBoard.init (fun _ => mcCnt)).run shadowPcnt 6 evs).run shadowPcnt 6 (EspBoard.periods n 0) :=
    List.foldl_append
  rw [e]
  have ho : (((EspBoard.init (fun _ => mcCnt)).run shadowPcnt 6 evs).tim 0 0).out = false := by decide +kernel
  have hl : (((((EspBoard.init (fun _ => mcCnt)).run shadowPcnt 6 evs).que 0).log.filter Cycle.pulse).length = 2) := by decide +kernel
  rw [ho, if_neg (by decide), hl] at k2
  dsimp only [channel, view, Mcpwm.sync]
  rw [k1, k2]
  refine ⟨by decide +kernel, ?_, rfl⟩
  rw [readOut_pending]
  refine (congrArg (List.map Entry.asCmd) (Queue.pending_congr .esp32 (((EspBoard.init (fun _ => mcCnt)).run shadowPcnt 6 evs).que 0).q _ rfl rfl rfl).1).trans ?_
  rw [← readOut_pending]
  decide +kernel

/-- Why C91 is restricted: the call of stepper 1 which starts its queue clears its pulse counter by read-modify-write of the register shared by all pulse counters, while on the other core the interrupt of stepper 0 clears the pulse
counter of stepper 0. The reset bit of the latter is written back, so it does not count any more, and stepper 0 outputs pulses without end: its commands have 4 steps. -/
theorem _root_.FAS.C91_reset_bit_refuted (n : Nat) :
    let evs := two [⟨1600, 2, true⟩, ⟨1600, 2, true⟩] [] ++ [.stepper 1 (.addBegin ⟨3200, 1, true⟩ true), .stepper 1 .addCommit] ++ period 0 ++
      [.compare 0 0, .readCtrl 1 (some 0), .pcntIsr 0, .stepper 1 .addFinish, .mcpwmIsr 0, .zero 0 0]
    let s := ((EspBoard.init (fun _ => mcCnt)).run shadowPcnt 6 (evs ++ periods n 0)).channel 0
    s.q.running = true ∧ (s.log.filter Cycle.pulse).length = 2 + n := by
  intro evs
  have h : ((EspBoard.init (fun _ => mcCnt)).run shadowPcnt 6 evs).Stuck := by constructor <;> decide +kernel
  obtain ⟨k1, k2⟩ := Stuck.periods shadowPcnt (m := 6) n h
  have e : (EspBoard.init (fun _ => mcCnt)).run shadowPcnt 6 (evs ++ EspBoard.periods n 0) = ((EspBoard.init (fun _ => mcCnt)).run shadowPcnt 6 evs).run shadowPcnt 6 (EspBoard.periods n 0) :=
    List.foldl_append
  rw [e]
  have ho : (((EspBoard.init (fun _ => mcCnt)).run shadowPcnt 6 evs).tim 0 0).out = true := by decide +kernel
  have hl : (((((EspBoard.init (fun _ => mcCnt)).run shadowPcnt 6 evs).que 0).log.filter Cycle.pulse).length = 2) := by decide +kernel
  rw [ho, if_pos rfl, hl] at k2
  dsimp only [channel, view, Mcpwm.sync]
  rw [k1, k2]
  exact ⟨by decide +kernel, rfl⟩

/-- Why C91 is restricted: `attachToPulseCounter(0)` of stepper 1, while stepper 0 uses this pulse counter (the documentation leaves it to the application to choose a free one). Stepper 0 outputs pulses without end: its command has 2
steps. -/
theorem _root_.FAS.C91_pulse_counter_refuted (n : Nat) :
    let evs := two [⟨1600, 2, true⟩] [] ++ [.attachCounter 1 0 100]
    let s := ((EspBoard.init (fun _ => mcCnt)).run shadowPcnt 6 (evs ++ periods n 0)).channel 0
    s.q.running = true ∧ (s.log.filter Cycle.pulse).length = n := by
  intro evs
  have h : ((EspBoard.init (fun _ => mcCnt)).run shadowPcnt 6 evs).Stuck := by constructor <;> decide +kernel
  obtain ⟨k1, k2⟩ := Stuck.periods shadowPcnt (m := 6) n h
  have e : (EspBoard.init (fun _ => mcCnt)).run shadowPcnt 6 (evs ++ EspBoard.periods n 0) = ((EspBoard.init (fun _ => mcCnt)).run shadowPcnt 6 evs).run shadowPcnt 6 (EspBoard.periods n 0) :=
    List.foldl_append
  rw [e]
  have ho : (((EspBoard.init (fun _ => mcCnt)).run shadowPcnt 6 evs).tim 0 0).out = true := by decide +kernel
  have hl : (((((EspBoard.init (fun _ => mcCnt)).run shadowPcnt 6 evs).que 0).log.filter Cycle.pulse).length = 0) := by decide +kernel
  rw [ho, if_pos rfl, hl] at k2
  dsimp only [channel, view, Mcpwm.sync]
  rw [k1, k2]
  exact ⟨by decide +kernel, Nat.zero_add n⟩

end EspBoard
end FAS
