import Verif.Props.RmtRegS
import Verif.Lemmas.RmtBoard

/-!
# C93: steppers on the RMT drivers of an ESP32 with IDF 4 are independent
-/

namespace FAS
namespace RmtBoard

open RmtReg (freshMem track labs SameOut)

/-- C93, for all schedules: each connected stepper has its own channel and step pin; its channel is served by the interrupt service with its queue, and its pin is driven by its channel only. -/
theorem _root_.FAS.C93_channels (c : RmtChip) (junk : Nat → List Nat × List Nat) (evs : List Ev) : Wired c (run c (init junk) evs) := (Wired.init c junk).run evs

/-- What is known about the pin of stepper `i`. -/
def PinOK (c : RmtChip) (i : Nat) (p : Nat) (a : Bool) (b : RmtBoard) : Prop := (b.que (c.mcpwm + i)).pin = p ∧ b.drv p = if a then some i else none

theorem PinOK.same {c i p a b b'} (h : PinOK c i p a b) (g : Same b b') : PinOK c i p a b' := ⟨(g.que _).2.trans h.1, by rw [g.drv]; exact h.2⟩

theorem run_pin {c} : ∀ (evs : List Ev) {b : RmtBoard} {i p : Nat} {a : Bool}, Wired c b → i < b.n → PinOK c i p a b → PinOK c i p (attached c i b a evs) (run c b evs)
  | [], _, _, _, _, _, _, h => h
  | ev :: evs, b, i, p, a, hw, hi, h => by
    have keep : ∀ {b' : RmtBoard} {a' : Bool}, b.step c ev = b' → attached c i b a (ev :: evs) = attached c i (b.step c ev) a' evs → b.n ≤ b'.n → PinOK c i p a' b' →
        PinOK c i p (attached c i b a (ev :: evs)) (run c b (ev :: evs)) := by
      intro b' a' he ha hn hp
      have hw' := hw.step ev
      rw [ha]
      change PinOK c i p _ (run c (b.step c ev) evs)
      rw [he] at hw' ⊢
      exact run_pin evs hw' (by omega) hp
    cases ev with
    | connect pin dirPin hi2 =>
      have ha : attached c i b a (.connect pin dirPin hi2 :: evs) = attached c i (b.step c (.connect pin dirPin hi2)) a evs := by
        rw [attached]
        rw [if_neg (by omega)]
      by_cases hx : (b.pinUsed c pin || decide (b.n ≥ c.rmt)) = true
      · exact keep (if_pos hx) ha (Nat.le_refl _) h
      · refine keep (if_neg hx) ha (Nat.le_succ _) ?_
        simp only [Bool.or_eq_true, decide_eq_true_eq, not_or, Bool.not_eq_true] at hx
        refine ⟨by rw [setUp_que, if_neg (by omega)]; exact h.1, ?_⟩
        rw [setUp_drv, if_neg (by rw [← h.1]; exact pinUsed_false hx.1 i hi)]
        exact h.2
    | detach j =>
      by_cases hj : j < b.n
      · have hs := (Same.put b (c.mcpwm + j) ((b.view (c.mcpwm + j)).step c.ver .detach)).trans (Same.flush _ (c.mcpwm + j))
        by_cases hv : c.ver = .idf4
        · have hst : b.step c (.detach j) = { (b.put (c.mcpwm + j) ((b.view (c.mcpwm + j)).step c.ver .detach)).flush (c.mcpwm + j) with
                                              drv := fun pin => if pin = (b.que (c.mcpwm + j)).pin then none else b.drv pin } := by
            unfold RmtBoard.step; dsimp only; rw [if_pos hj, if_pos hv]
          by_cases hji : j = i
          · subst hji
            refine keep (a' := false) hst (by rw [attached]; rw [if_pos ⟨rfl, hj, hv⟩]) (by exact Nat.le_refl _) ⟨(hs.que _).2.trans h.1, ?_⟩
            exact if_pos h.1.symm
          · refine keep (a' := a) hst (by rw [attached]; rw [if_neg (by simp [hji])]) (by exact Nat.le_refl _) ⟨(hs.que _).2.trans h.1, ?_⟩
            exact (if_neg (by rw [← h.1]; exact fun he => hji (hw.pins i j hi hj he).symm)).trans h.2
        · have hst : b.step c (.detach j) = (b.put (c.mcpwm + j) ((b.view (c.mcpwm + j)).step c.ver .detach)).flush (c.mcpwm + j) := by
            unfold RmtBoard.step; dsimp only; rw [if_pos hj, if_neg hv]
          exact keep hst (by rw [attached]; rw [if_neg (by simp [hv])]) (by exact Nat.le_refl _) (h.same hs)
      · exact keep (if_neg hj) (by rw [attached]; rw [if_neg (by omega)]) (Nat.le_refl _) h
    | reattach j =>
      by_cases hj : j < b.n
      · by_cases hji : j = i
        · subst hji
          refine keep (a' := true) (if_pos hj) (by rw [attached]; rw [if_pos ⟨rfl, hj⟩]) (by exact Nat.le_refl _) ⟨h.1, ?_⟩
          refine (if_pos h.1.symm).trans ?_
          rw [hw.own.2 j hj]
          rfl
        · refine keep (a' := a) (if_pos hj) (by rw [attached]; rw [if_neg (by simp [hji])]) (by exact Nat.le_refl _) ⟨h.1, ?_⟩
          exact (if_neg (by rw [← h.1]; exact fun he => hji (hw.pins i j hi hj he).symm)).trans h.2
      · exact keep (if_neg hj) (by rw [attached]; rw [if_neg (by omega)]) (Nat.le_refl _) h
    | word ch =>
      have hs : Same b (b.step c (.word ch)) := by
        unfold RmtBoard.step
        dsimp only
        split
        · exact Same.put _ _ _
        · exact Same.refl b
      exact keep rfl rfl (Nat.le_of_eq hs.n.symm) (h.same hs)
    | isr =>
      have hs : Same b (b.step c .isr) := by
        unfold RmtBoard.step
        dsimp only
        split
        · exact Same.fold c b _ b
        · exact Same.refl b
      exact keep rfl rfl (Nat.le_of_eq hs.n.symm) (h.same hs)
    | readEna j =>
      have hs : Same b (b.step c (.readEna j)) := by
        unfold RmtBoard.step
        dsimp only
        split
        · exact ⟨rfl, rfl, rfl, fun _ => ⟨rfl, rfl⟩⟩
        · exact Same.refl b
      exact keep rfl rfl (Nat.le_of_eq hs.n.symm) (h.same hs)
    | stepper j e =>
      have hs : Same b (b.step c (.stepper j e)) := by
        unfold RmtBoard.step
        dsimp only
        split
        · split
          · exact (Same.put _ _ _).trans (Same.flush _ _)
          · exact Same.put _ _ _
        · exact Same.refl b
      exact keep rfl rfl (Nat.le_of_eq hs.n.symm) (h.same hs)

theorem step_n (c : RmtChip) (b : RmtBoard) (ev : Ev) : (b.step c ev).n = b.n ∨ (b.step c ev).n = b.n + 1 ∧ ∃ pin dirPin hi, ev = .connect pin dirPin hi ∧ b.step c ev = b.setUp c pin dirPin hi := by
  cases ev with
  | connect pin dirPin hi =>
    by_cases hx : (b.pinUsed c pin || decide (b.n ≥ c.rmt)) = true
    · left
      rw [show b.step c (.connect pin dirPin hi) = b from if_pos hx]
    · right
      have hst : b.step c (.connect pin dirPin hi) = b.setUp c pin dirPin hi := if_neg hx
      exact ⟨by rw [hst]; rfl, pin, dirPin, hi, rfl, hst⟩
  | isr =>
    left
    unfold RmtBoard.step
    dsimp only
    split
    · exact (Same.fold c b _ b).n
    · rfl
  | _ =>
    left
    unfold RmtBoard.step
    dsimp only
    repeat' split
    all_goals rfl

theorem run_pin_new {c} : ∀ (evs : List Ev) {b : RmtBoard} {i : Nat}, Wired c b → b.n ≤ i → i < (run c b evs).n → PinOK c i (config c i b evs).1 (attached c i b false evs) (run c b evs)
  | [], b, i, _, h1, h2 => absurd h1 (by have : i < b.n := h2; omega)
  | ev :: evs, b, i, hw, h1, h2 => by
    have hw' := hw.step ev
    have h2' : i < (run c (b.step c ev) evs).n := h2
    change PinOK c i _ _ (run c (b.step c ev) evs)
    by_cases hi : (b.step c ev).n ≤ i
    · have hc : config c i b (ev :: evs) = config c i (b.step c ev) evs := by
        cases ev with
        | connect pin dirPin hi2 => exact if_neg (by omega)
        | _ => rfl
      have ha : attached c i b false (ev :: evs) = attached c i (b.step c ev) false evs := by
        cases ev with
        | connect pin dirPin hi2 => rw [attached]; rw [if_neg (by omega)]
        | detach j => rw [attached]; rw [if_neg (by omega)]
        | reattach j => rw [attached]; rw [if_neg (by omega)]
        | _ => rfl
      rw [hc, ha]
      exact run_pin_new evs hw' hi h2'
    · rcases step_n c b ev with hn | ⟨hn, pin, dirPin, hi2, rfl, hst⟩
      · omega
      · have hib : i = b.n := by omega
        subst hib
        have hc : config c b.n b (.connect pin dirPin hi2 :: evs) = (pin, dirPin, hi2) := if_pos ⟨rfl, hn⟩
        have ha : attached c b.n b false (.connect pin dirPin hi2 :: evs) = attached c b.n (b.step c (.connect pin dirPin hi2)) true evs := by
          rw [attached]; rw [if_pos ⟨rfl, hn⟩]
        rw [hc, ha]
        refine run_pin evs hw' (by omega) ?_
        rw [hst]
        exact ⟨by rw [setUp_que, if_pos rfl], by rw [setUp_drv, if_pos rfl]; rfl⟩

/-- C93, for all schedules: the step pin given when stepper `i` was connected is driven by its channel, from then on, except between detachFromPin() and reAttachToPin() of this stepper (on C3/S3 also then). -/
theorem _root_.FAS.C93_pin (c : RmtChip) (junk : Nat → List Nat × List Nat) (evs : List Ev) (i : Nat) (hi : i < (run c (init junk) evs).n) :
    let b := run c (init junk) evs
    b.drv (config c i (init junk) evs).1 = if attached c i (init junk) false evs then some (b.que (c.mcpwm + i)).channel else none := by
  intro b
  have h := (run_pin_new evs (Wired.init c junk) (Nat.zero_le i) hi).2
  have hch : (b.que (c.mcpwm + i)).channel = i := (C93_channels c junk evs).own.2 i hi
  rw [hch]
  exact h

theorem run_channel {c junk} : ∀ (evs : List Ev) {b : RmtBoard}, Calm c junk b → Along c (Quiet c) b evs → Calm c junk (run c b evs) ∧ b.n ≤ (run c b evs).n ∧ ∀ i, i < (run c b evs).n →
    (run c b evs).channel c i =
      RmtReg.run c.ver (if i < b.n then b.channel c i else freshMem (config c i b evs).2.1 (config c i b evs).2.2 (junk i).1 (junk i).2) (mine c i b evs)
  | [], b, h, _ => ⟨h, Nat.le_refl _, fun i hi => by rw [if_pos (show i < b.n from hi)]; rfl⟩
  | ev :: evs, b, h, hq => by
    obtain ⟨h1, h2, h3, h4⟩ := step_channel h ev hq.1
    obtain ⟨k1, k3, k2⟩ := run_channel evs h1 hq.2
    refine ⟨k1, Nat.le_trans h2 k3, fun i hi => ?_⟩
    have hmine : mine c i b (ev :: evs) = mine c i b [ev] ++ mine c i (b.step c ev) evs := by
      simp [mine]
    change (run c (b.step c ev) evs).channel c i = _
    rw [k2 i hi, hmine, RmtReg.run_two]
    by_cases hib : i < b.n
    · rw [if_pos hib, if_pos (by omega), h3 i hib]
    · have hno : mine c i b [ev] = [] := by simp [mine, hib]
      rw [if_neg hib, hno]
      by_cases hi' : i < (b.step c ev).n
      · obtain ⟨g1, pin, dirPin, hi2, g2, g3⟩ := h4 (by omega)
        have hin : i = b.n := by omega
        subst hin
        rw [if_pos hi', g3]
        subst g2
        have hc : config c b.n b (.connect pin dirPin hi2 :: evs) = (pin, dirPin, hi2) := if_pos ⟨rfl, g1⟩
        rw [hc]
        rfl
      · rw [if_neg hi']
        have hc : config c i b (ev :: evs) = config c i (b.step c ev) evs := by
          cases ev with
          | connect pin dirPin hi2 => exact if_neg (by omega)
          | _ => rfl
        rw [hc]
        rfl

theorem init_calm (c : RmtChip) (junk : Nat → List Nat × List Nat) : Calm c junk (init junk) :=
  ⟨Wired.init c junk, fun _ _ _ => rfl, fun i hi => absurd hi (Nat.not_lt_zero i)⟩

/-- C93, if modifications of the interrupt enable register are not interleaved (see C93_ena_refuted; on ESP32 and ESP32S2 always): whatever the schedule, the queue of a stepper, its channel and the levels sent are those of the stepper
alone on a freshly initialised channel, with the events concerning it. So nothing done with the other steppers, including connecting and detaching them and their interrupts, has an effect on it. -/
theorem _root_.FAS.C93_independent_partial (c : RmtChip) (junk : Nat → List Nat × List Nat) (evs : List Ev) (hq : Along c (Quiet c) (init junk) evs) (i : Nat) (hi : i < (run c (init junk) evs).n) :
    (run c (init junk) evs).channel c i =
      RmtReg.run c.ver (freshMem (config c i (init junk) evs).2.1 (config c i (init junk) evs).2.2 (junk i).1 (junk i).2) (mine c i (init junk) evs) := by
  have := (run_channel evs (init_calm c junk) hq).2.2 i hi
  rwa [if_neg (show ¬ i < (init junk).n from Nat.not_lt_zero i)] at this

/-- C93 on ESP32 and ESP32S2, for all schedules. -/
theorem _root_.FAS.C93_independent (c : RmtChip) (hc : c = .esp32 ∨ c = .esp32s2) (junk : Nat → List Nat × List Nat) (evs : List Ev) (i : Nat) (hi : i < (run c (init junk) evs).n) :
    (run c (init junk) evs).channel c i =
      RmtReg.run .idf4 (freshMem (config c i (init junk) evs).2.1 (config c i (init junk) evs).2.2 (junk i).1 (junk i).2) (mine c i (init junk) evs) := by
  have hv : c.ver = .idf4 := by rcases hc with rfl | rfl <;> rfl
  rw [← hv]
  exact C93_independent_partial c junk evs (quiet_all evs (fun _ _ _ _ => hv) fun _ => rfl) i hi

/-- The steppers of a board with three of them, with moves at the same time. -/
def threeSteppers : List Ev :=
  let add (i : Nat) (x : Cmd) (start : Bool) : List Ev := (RmtReg.add x start).map (.stepper i)
  let both : List Ev := [.word 0, .isr, .word 1, .isr]
  [.connect 17 5 true, .connect 18 pinUndefined true] ++ add 0 ⟨1000, 5, true⟩ false ++ add 1 ⟨900, 7, true⟩ true ++ [.word 1, .readEna 0] ++ add 0 ⟨2000, 40, false⟩ true ++
    (List.replicate 50 both).flatten ++ [.connect 17 6 true, .connect 19 6 true, .detach 1] ++ (List.replicate 100 both).flatten

example : let b := run .esp32 (init fun _ => ([], [])) threeSteppers
    b.n = 3 ∧ (b.channel .esp32 0).pulses.length = 45 ∧ (b.channel .esp32 1).pulses.length = 7 ∧ b.drv 17 = some 0 ∧ b.drv 18 = none ∧ b.drv 19 = some 2 ∧
    config .esp32 0 (init fun _ => ([], [])) threeSteppers = (17, 5, true) ∧ attached .esp32 0 (init fun _ => ([], [])) false threeSteppers = true ∧
    attached .esp32 1 (init fun _ => ([], [])) false threeSteppers = false := by
  decide +kernel

example : let m := (List.replicate 23 0, List.replicate 23 7)
    let b := run .esp32s3 (init fun _ => m) threeSteppers
    Along .esp32s3 (Quiet .esp32s3) (init fun _ => m) threeSteppers ∧ b.n = 3 ∧ (b.channel .esp32s3 0).pulses.length = 45 ∧ (b.channel .esp32s3 1).pulses.length = 7 := by
  decide +kernel

/-- The step periods may be shorter by, see C50 and C92. -/
def slack (c : RmtChip) : Nat := if c.ver = .idf4s then 4 else 0

/-- C93 together with C92: each stepper outputs the documented pulses of its own accepted commands, whatever is done with the other steppers, under the conditions of C92 for its own commands and
interrupts. -/
theorem _root_.FAS.C93_output_partial (c : RmtChip) (junk : Nat → List Nat × List Nat) (evs : List Ev) (hq : Along c (Quiet c) (init junk) evs) (i : Nat) (hi : i < (run c (init junk) evs).n)
    (hj : c.ver = .idf4s → (junk i).1.length = 23 ∧ (junk i).2.length = 23) :
    let pin := (config c i (init junk) evs).2.1
    let high := (config c i (init junk) evs).2.2
    let s0 := freshMem pin high (junk i).1 (junk i).2
    let own := mine c i (init junk) evs
    (pin = pinUndefined ∨ pinIsExternal pin = false) → RmtReg.Along c.ver (RmtReg.Timely c.ver) s0 own → (∀ ev ∈ own, ev.Plain c.ver) →
    let s := (run c (init junk) evs).channel c i
    let acc := (track c.ver s0 [] own).2
    ∃ parts sent n w r, SameOut s.wire.reverse sent ∧ sent <+: labs parts ∧ labs (parts.take (parts.length - 2)) <+: sent ∧ (s.sending = false → sent = labs parts) ∧
      (∀ x ∈ s.wire, 0 < x.1.dur) ∧ parts = w ++ r ∧ Plays (slack c) (DirOK pin high) (acc.take n) w ∧
      (r = [] ∧ Hw.readOut .esp32 ⟨s.q, 0⟩ = acc.drop n ∨
        ∃ x xs k, acc.drop n = x :: xs ∧ 0 < k ∧ k < x.steps ∧ Train (x.ticks - slack c) x.ticks k (segsOf r) ∧
          (∀ ch ∈ r, DirOK pin high x.countUp ch.level) ∧
          Hw.readOut .esp32 ⟨s.q, 0⟩ = { x with steps := x.steps - k } :: xs) := by
  intro pin high s0 own hpin ht hp
  rw [C93_independent_partial c junk evs hq i hi]
  change let s := RmtReg.run c.ver s0 own; _
  have hrun := RmtReg.track_run c.ver own s0 []
  rw [← hrun]
  by_cases hv : c.ver = .idf4s
  · obtain ⟨l1, l2⟩ := hj hv
    have hs : slack c = 4 := if_pos hv
    rw [hs]
    rw [hv] at ht hp ⊢
    exact C92_c3_wire_partial pin high hpin _ _ l1 l2 own ht hp
  · have hv' : c.ver = .idf4 := by revert hv; cases c <;> decide
    have hs : slack c = 0 := if_neg hv
    rw [hs]
    rw [hv'] at ht hp ⊢
    exact C92_wire_partial pin high hpin _ _ own ht hp

example : let m := (List.replicate 23 0, List.replicate 23 7)
    let own := mine .esp32s3 0 (init fun _ => m) threeSteppers
    RmtReg.Along .idf4s (RmtReg.Timely .idf4s) (freshMem 5 true m.1 m.2) own ∧ (∀ ev ∈ own, ev.Plain .idf4s) ∧
      (track .idf4s (freshMem 5 true m.1 m.2) [] own).2 = [⟨1000, 5, true⟩, ⟨2000, 40, false⟩] := by
  decide +kernel

/-- Stepper 1 has read the interrupt enable register to start its queue; meanwhile stepper 0 is started. -/
def starts : List Ev :=
  [.connect 17 5 true, .connect 18 6 true, .stepper 0 (.addBegin ⟨1000, 5, true⟩ true), .stepper 0 .addCommit, .stepper 1 (.addBegin ⟨1000, 5, true⟩ true), .stepper 1 .addCommit,
    .readEna 1, .stepper 0 .addFinish, .stepper 1 .addFinish]

theorem copies {c k} : ∀ (evs : List Ev) {b : RmtBoard}, b.copy k = none → (∀ ev ∈ evs, ∀ i, ev = .readEna i → c.ver = .idf4 ∨ c.mcpwm + i ≠ k) → (run c b evs).copy k = none
  | [], _, h, _ => h
  | ev :: evs, _, h, hv => copies evs (copy_stays h ev (hv ev (by simp))) fun e he => hv e (List.mem_cons_of_mem _ he)

theorem mine_words (c : RmtChip) (i : Nat) : ∀ (more : List Ev) (b : RmtBoard), (∀ ev ∈ more, ev = .isr ∨ ∃ ch, ev = .word ch) → ∀ ev ∈ mine c i b more, ev = .word ∨ ev = .isr
  | [], _, _, ev, h => by cases h
  | e :: more, b, hw, ev, h => by
    have ih := mine_words c i more (b.step c e) (fun x hx => hw x (List.mem_cons_of_mem _ hx)) ev
    rcases hw e (by simp) with rfl | ⟨ch, rfl⟩
    · simp only [mine, List.mem_append] at h
      rcases h with h | h
      · split at h
        · right; simpa using h
        · cases h
      · exact ih h
    · simp only [mine, List.mem_append] at h
      rcases h with h | h
      · split at h
        · split at h
          · left; simpa using h
          · cases h
        · cases h
      · exact ih h

/-- The memory is zero. -/
def zeroed : RmtBoard := init fun _ => (List.replicate 23 0, List.replicate 23 0)

/-- C93 on C3/S3, violation: if two steppers are started at the same time, the second one writes back an outdated copy of the interrupt enable register and disables the interrupts of the first. This sends its memory for ever and
is reported as running: after two rounds through the memory 10 pulses have been sent with 5 steps commanded. -/
theorem _root_.FAS.C93_ena_refuted (c : RmtChip) (hc : c = .esp32s3 ∨ c = .esp32c3) :
    (track .idf4s (freshMem 5 true (List.replicate 23 0) (List.replicate 23 0)) [] (mine c 0 zeroed starts)).2 = [⟨1000, 5, true⟩] ∧
    (∀ more : List Ev, (∀ ev ∈ more, ev = .isr ∨ ∃ ch, ev = .word ch) →
      let s := (run c zeroed (starts ++ more)).channel c 0
      s.q.running = true ∧ s.sending = true) ∧
    ((run c zeroed (starts ++ (List.replicate 94 [.word 0, .word 1, .isr]).flatten)).channel c 0).pulses.length = 10 := by
  refine ⟨by rcases hc with rfl | rfl <;> decide +kernel, fun more hw => ?_, by rcases hc with rfl | rfl <;> decide +kernel⟩
  have hv : c.ver = .idf4s := by rcases hc with rfl | rfl <;> rfl
  have hrun : run c zeroed (starts ++ more) = run c (run c zeroed starts) more := List.foldl_append
  have hwired : Wired c (run c zeroed starts) := C93_channels c _ starts
  have hn : (run c zeroed starts).n = 2 := by rcases hc with rfl | rfl <;> decide +kernel
  have hcopy : ∀ k, (run c zeroed starts).copy k = none := by
    intro k
    by_cases hk : k = c.mcpwm + 1
    · subst hk
      have h : ((run c zeroed starts).copy (c.mcpwm + 1)).isNone = true := by rcases hc with rfl | rfl <;> decide +kernel
      exact Option.isNone_iff_eq_none.mp h
    · refine copies starts rfl fun ev he i hx => Or.inr ?_
      subst hx
      simp only [starts, List.mem_cons, List.not_mem_nil, or_false, reduceCtorEq, false_or, Ev.readEna.injEq] at he
      omega
  have hblank : ∀ ch, ch < c.rmt → 2 ≤ ch → (run c zeroed starts).hw ch = zeroed.hw ch := by rcases hc with rfl | rfl <;> decide +kernel
  have hsync : ∀ i < 2, ((run c zeroed starts).channel c i).q.ready = (!((run c zeroed starts).channel c i).q.running || !((run c zeroed starts).channel c i).stopped) := by
    rcases hc with rfl | rfl <;> decide +kernel
  have hcalm : Calm c (fun _ => (List.replicate 23 0, List.replicate 23 0)) (run c zeroed starts) :=
    ⟨hwired, fun ch h1 h2 => hblank ch h2 (by omega), fun i hi => RmtReg.sync_eq (hsync i (by omega))⟩
  obtain ⟨_, hn', k2⟩ := run_channel more hcalm (quiet_all more (fun ev he i hx => by rcases hw ev he with h | ⟨ch, h⟩ <;> rw [h] at hx <;> cases hx) hcopy)
  have hm := mine_words c 0 more (run c zeroed starts) hw
  have hs : ((run c zeroed starts).channel c 0).ena = false ∧ ((run c zeroed starts).channel c 0).conti = true ∧ ((run c zeroed starts).channel c 0).sending = true ∧
      ((run c zeroed starts).channel c 0).q.running = true := by rcases hc with rfl | rfl <;> decide +kernel
  dsimp only
  rw [hrun, k2 0 (by omega), if_pos (by omega), hv]
  exact RmtReg.blindS _ hm hs.1 hs.2.1 hs.2.2.1 hs.2.2.2

end RmtBoard
end FAS
