import Verif.Spec.DueBoard
import Verif.Props.Due

/-!
# Property C89: several steppers on a SAM Due

`DueBoard.init.run evs` executes an arbitrary schedule of connections of steppers, detaching and reattaching of pins, PWM interrupts and events of the
single steppers.
-/

namespace FAS
namespace DueBoard

theorem pinToChannel_lt {pin c : Nat} (h : duePinToChannel pin = some c) : c < 8 := by
  unfold duePinToChannel at h
  repeat' split at h
  all_goals first | (injection h with h; omega) | cases h

theorem mask_chan (b : DueBoard) : b.mask.chan = b.chan ∧ b.mask.used = b.used ∧ b.mask.map = b.map ∧ b.mask.cnt = b.cnt := ⟨rfl, rfl, rfl, rfl⟩

theorem handle_frame (flags : Nat → Bool) : ∀ (l : List Nat) (b : DueBoard), (l.foldl (handle flags) b).chan = b.chan ∧
    (l.foldl (handle flags) b).used = b.used ∧ (l.foldl (handle flags) b).map = b.map ∧ (l.foldl (handle flags) b).cnt = b.cnt
  | [], _ => ⟨rfl, rfl, rfl, rfl⟩
  | c :: l, b => by
    have h := handle_frame flags l (handle flags b c)
    have h0 : (handle flags b c).chan = b.chan ∧ (handle flags b c).used = b.used ∧ (handle flags b c).map = b.map ∧ (handle flags b c).cnt = b.cnt := by
      unfold handle
      split
      · split <;> exact ⟨rfl, rfl, rfl, rfl⟩
      · exact ⟨rfl, rfl, rfl, rfl⟩
    exact ⟨h.1.trans h0.1, h.2.1.trans h0.2.1, h.2.2.1.trans h0.2.2.1, h.2.2.2.trans h0.2.2.2⟩

theorem Wired.step {b : DueBoard} (h : b.Wired) (ev : Ev) : (b.step ev).Wired := by
  have keep : ∀ b' : DueBoard, b'.chan = b.chan → b'.used = b.used → b'.map = b.map → b'.cnt = b.cnt → b'.Wired := by
    intro b' h1 h2 h3 h4
    exact { own := by rw [h1, h2, h3, h4]; exact h.own, uniq := by rw [h1, h4]; exact h.uniq, only := by rw [h1, h2, h3, h4]; exact h.only
            max := by rw [h4]; exact h.max }
  cases ev with
  | connect pin dirPin hi =>
    unfold DueBoard.step
    dsimp only
    cases hc : duePinToChannel pin with
    | none => exact h
    | some c =>
      dsimp only
      by_cases hx : b.used c = true ∨ b.cnt ≥ 6
      · rw [if_pos hx]; exact h
      · rw [if_neg hx]
        have hu : b.used c = false := by
          cases hy : b.used c with
          | false => rfl
          | true => exact absurd (Or.inl hy) hx
        have hn : b.cnt < 6 := by
          by_cases hy : b.cnt ≥ 6
          · exact absurd (Or.inr hy) hx
          · omega
        have hfree : ∀ i, i < b.cnt → b.chan i ≠ some c := by
          intro i hi hy
          obtain ⟨d, _, h1, h2, _⟩ := h.own i hi
          rw [hy] at h1
          injection h1 with h1
          rw [← h1, hu] at h2
          cases h2
        refine { own := ?_, uniq := ?_, only := ?_, max := ?_ }
        · intro i hi
          change i < b.cnt + 1 at hi
          change ∃ d, d < 8 ∧ (if i = b.cnt then some c else b.chan i) = some d ∧ (if d = c then true else b.used d) = true ∧
            (if d = c then b.cnt else b.map d) = i
          by_cases hic : i = b.cnt
          · refine ⟨c, pinToChannel_lt hc, ?_, ?_, ?_⟩
            · rw [if_pos hic]
            · rw [if_pos rfl]
            · rw [if_pos rfl, hic]
          · obtain ⟨d, d1, d2, d3, d4⟩ := h.own i (by omega)
            have hdc : d ≠ c := by
              intro hy
              rw [hy, hu] at d3
              cases d3
            refine ⟨d, d1, ?_, ?_, ?_⟩
            · rw [if_neg hic]; exact d2
            · rw [if_neg hdc]; exact d3
            · rw [if_neg hdc]; exact d4
        · intro i j hi hj hij
          change i < b.cnt + 1 at hi
          change j < b.cnt + 1 at hj
          change (if i = b.cnt then some c else b.chan i) = (if j = b.cnt then some c else b.chan j) at hij
          by_cases hic : i = b.cnt
          · by_cases hjc : j = b.cnt
            · omega
            · rw [if_pos hic, if_neg hjc] at hij
              exact absurd hij.symm (hfree j (by omega))
          · by_cases hjc : j = b.cnt
            · rw [if_neg hic, if_pos hjc] at hij
              exact absurd hij (hfree i (by omega))
            · rw [if_neg hic, if_neg hjc] at hij
              exact h.uniq i j (by omega) (by omega) hij
        · intro d hd
          change (if d = c then true else b.used d) = true at hd
          change (if d = c then b.cnt else b.map d) < b.cnt + 1 ∧
            (if (if d = c then b.cnt else b.map d) = b.cnt then some c else b.chan (if d = c then b.cnt else b.map d)) = some d
          by_cases hdc : d = c
          · rw [if_pos hdc, if_pos rfl]
            exact ⟨by omega, by rw [hdc]⟩
          · rw [if_neg hdc] at hd ⊢
            obtain ⟨h1, h2⟩ := h.only d hd
            rw [if_neg (by omega)]
            exact ⟨by omega, h2⟩
        · change b.cnt + 1 ≤ 6
          omega
  | detach i =>
    unfold DueBoard.step
    dsimp only
    split
    · exact keep _ rfl rfl rfl rfl
    · exact h
  | reattach i =>
    unfold DueBoard.step
    dsimp only
    split
    · exact keep _ rfl rfl rfl rfl
    · exact h
  | pwm flags =>
    unfold DueBoard.step
    dsimp only
    split
    · obtain ⟨h1, h2, h3, h4⟩ := handle_frame flags [7, 6, 5, 4, 3, 2, 1, 0] b
      exact keep _ h1 h2 h3 h4
    · exact h
  | stepper i e =>
    cases e
    case period => exact h
    all_goals
      unfold DueBoard.step
      dsimp only
      split
      · exact keep _ rfl rfl rfl rfl
      · exact h

theorem Wired.init : DueBoard.init.Wired :=
  { own := fun _ hi => absurd hi (Nat.not_lt_zero _), uniq := fun _ _ hi => absurd hi (Nat.not_lt_zero _), only := fun _ hx => nomatch hx
    max := by decide }

theorem Wired.run : ∀ (evs : List Ev) {b : DueBoard}, b.Wired → (b.run evs).Wired
  | [], _, h => h
  | ev :: evs, _, h => Wired.run evs (h.step ev)

/-- C89: whatever pins are connected in whatever order, each stepper has a PWM channel of its own, the PWM interrupts of this channel are delivered to
it, and there are at most six. -/
theorem _root_.FAS.C89_channels (evs : List Ev) : (DueBoard.init.run evs).Wired := Wired.run evs Wired.init

/-- Five attempts: pin 37 is refused because its channel is used by pin 36, pin 5 because it has no channel. -/
def connectExample : List Ev := [.connect 36 5 true, .connect 37 5 true, .connect 6 10 false, .connect 5 5 true, .connect 34 pinUndefined true]

example : (DueBoard.init.run connectExample).cnt = 3 ∧ (List.range 3).map (DueBoard.init.run connectExample).chan = [some 1, some 7, some 0] := by
  decide +kernel

/-- a masked interrupt which was disabled before -/
theorem mask_ch {b : DueBoard} (j : Nat) (h : (b.chan j).any (fun c => decide (c < 4)) = true → (b.ch j).irq = false) : b.mask.ch j = b.ch j := by
  change (if (b.chan j).any (fun c => decide (c < 4)) then { b.ch j with irq := false } else b.ch j) = b.ch j
  split
  · rename_i hx
    rw [← h hx]
  · rfl

theorem disable_ch {b : DueBoard} (i : Nat) (h1 : (b.ch i).attached = false) (h2 : (b.ch i).irq = false) : b.disable i = b := by
  have hs : { b.ch i with attached := false, irq := false } = b.ch i := by
    generalize b.ch i = s at h1 h2 ⊢
    cases s
    cases h1
    cases h2
    rfl
  unfold disable setCh
  rw [hs]
  have : (fun j => if j = i then b.ch i else b.ch j) = b.ch := by
    funext j
    split
    · rename_i hx; rw [hx]
    · rfl
  rw [this]

theorem handle_ch {flags : Nat → Bool} {b : DueBoard} (hw : b.Wired) (c i : Nat) (hi : i < b.cnt) :
    (handle flags b c).ch i = if b.chan i = some c ∧ flags c = true then (b.ch i).period else b.ch i := by
  unfold handle
  by_cases hf : flags c = true
  · rw [if_pos hf]
    by_cases hc : b.chan i = some c
    · obtain ⟨d, _, d1, d2, d3⟩ := hw.own i hi
      rw [hc] at d1
      injection d1 with d1
      rw [← d1] at d2 d3
      have hxy : b.chan i = some c ∧ flags c = true := ⟨hc, hf⟩
      rw [if_pos d2, if_pos hxy, d3]
      change (if i = i then _ else _) = _
      rw [if_pos rfl]
    · have hxy : ¬ (b.chan i = some c ∧ flags c = true) := fun hx => hc hx.1
      rw [if_neg hxy]
      split
      · rename_i hu
        obtain ⟨h1, h2⟩ := hw.only c hu
        change (if i = b.map c then _ else _) = _
        rw [if_neg (by intro hx; rw [← hx] at h2; exact hc h2)]
      · rfl
  · have hxy : ¬ (b.chan i = some c ∧ flags c = true) := fun hx => hf hx.2
    rw [if_neg hf, if_neg hxy]

theorem Wired.handle {b : DueBoard} (hw : b.Wired) (flags : Nat → Bool) (c : Nat) : (handle flags b c).Wired := by
  obtain ⟨h1, h2, h3, h4⟩ := handle_frame flags [c] b
  change (DueBoard.handle flags b c).chan = _ at h1
  change (DueBoard.handle flags b c).used = _ at h2
  change (DueBoard.handle flags b c).map = _ at h3
  change (DueBoard.handle flags b c).cnt = _ at h4
  exact { own := by rw [h1, h2, h3, h4]; exact hw.own, uniq := by rw [h1, h4]; exact hw.uniq, only := by rw [h1, h2, h3, h4]; exact hw.only
          max := by rw [h4]; exact hw.max }

/-- the loop of the interrupt handles each stepper at most once -/
theorem handle_all {flags : Nat → Bool} {d : Nat} (i : Nat) : ∀ (l : List Nat) {b : DueBoard}, b.Wired → i < b.cnt → b.chan i = some d → l.Nodup →
    (l.foldl (handle flags) b).ch i = if d ∈ l ∧ flags d = true then (b.ch i).period else b.ch i
  | [], b, _, _, _, _ => by
    have hxy : ¬ (d ∈ ([] : List Nat) ∧ flags d = true) := fun hx => nomatch hx.1
    rw [if_neg hxy]
    rfl
  | c :: l, b, hw, hi, hd, hn => by
    rw [List.nodup_cons] at hn
    obtain ⟨h1, h2, h3, h4⟩ := handle_frame flags [c] b
    change (handle flags b c).chan = _ at h1
    change (handle flags b c).cnt = _ at h4
    have ih := handle_all (flags := flags) i l (hw.handle flags c) (by rw [h4]; exact hi) (by rw [h1]; exact hd) hn.2
    rw [handle_ch hw c i hi] at ih
    rw [List.foldl_cons, ih, hd]
    by_cases hcd : c = d
    · subst hcd
      have hxy : ¬ (c ∈ l ∧ flags c = true) := fun hx => hn.1 hx.1
      rw [if_neg hxy]
      by_cases hf : flags c = true
      · have hx1 : some c = some c ∧ flags c = true := ⟨rfl, hf⟩
        have hx2 : c ∈ c :: l ∧ flags c = true := ⟨List.mem_cons_self, hf⟩
        rw [if_pos hx1, if_pos hx2]
      · have hx1 : ¬ (some c = some c ∧ flags c = true) := fun hx => hf hx.2
        have hx2 : ¬ (c ∈ c :: l ∧ flags c = true) := fun hx => hf hx.2
        rw [if_neg hx1, if_neg hx2]
    · have hx1 : ¬ (some d = some c ∧ flags c = true) := by
        intro hx
        injection hx.1 with hx
        exact hcd hx.symm
      rw [if_neg hx1]
      by_cases hx : d ∈ l ∧ flags d = true
      · have hx2 : d ∈ c :: l ∧ flags d = true := ⟨List.mem_cons_of_mem _ hx.1, hx.2⟩
        rw [if_pos hx, if_pos hx2]
      · have hx2 : ¬ (d ∈ c :: l ∧ flags d = true) := by
          intro hy
          rcases List.mem_cons.mp hy.1 with hz | hz
          · exact hcd hz.symm
          · exact hx ⟨hz, hy.2⟩
        rw [if_neg hx, if_neg hx2]

theorem step_cnt (b : DueBoard) (ev : Ev) : (b.step ev).cnt = b.cnt ∨ (b.step ev).cnt = b.cnt + 1 := by
  unfold DueBoard.step
  cases ev with
  | connect pin dirPin hi =>
    dsimp only
    cases hc : duePinToChannel pin with
    | none => exact Or.inl rfl
    | some c =>
      dsimp only
      by_cases hx : b.used c = true ∨ b.cnt ≥ 6
      · rw [if_pos hx]; exact Or.inl rfl
      · rw [if_neg hx]; exact Or.inr rfl
  | detach i => dsimp only; split <;> exact Or.inl rfl
  | reattach i => dsimp only; split <;> exact Or.inl rfl
  | pwm flags =>
    dsimp only
    split
    · exact Or.inl (handle_frame flags [7, 6, 5, 4, 3, 2, 1, 0] b).2.2.2
    · exact Or.inl rfl
  | stepper i e =>
    cases e
    case period => exact Or.inl rfl
    all_goals
      dsimp only
      split <;> exact Or.inl rfl

/-- one event for a connected stepper -/
theorem step_ch {b : DueBoard} (hw : b.Wired) (ev : Ev) (hq : b.Quiet ev) (i : Nat) (hi : i < b.cnt) :
    (b.step ev).ch i = (b.ch i).run (mine i b [ev]) := by
  unfold DueBoard.step mine
  cases ev with
  | connect pin dirPin hi' =>
    simp only [mine, List.append_nil]
    change _ = b.ch i
    cases hc : duePinToChannel pin with
    | none => rfl
    | some c =>
      dsimp only
      by_cases hx : b.used c = true ∨ b.cnt ≥ 6
      · rw [if_pos hx]
      · rw [if_neg hx, mask_ch]
        · dsimp only
          rw [if_neg (by omega)]
        · dsimp only
          rw [if_neg (by omega), if_neg (by omega)]
          exact hq i hi
  | detach j =>
    simp only [mine, List.append_nil]
    change _ = b.ch i
    split
    · rw [disable_ch j hq.1 hq.2]
    · rfl
  | reattach j =>
    simp only [mine, List.append_nil]
    change _ = b.ch i
    split
    · rw [disable_ch j hq.2.1 hq.2.2]
      exact mask_ch i (hq.1 i hi)
    · rfl
  | pwm flags =>
    simp only [mine, List.append_nil]
    obtain ⟨d, hd8, hd, hu, hm⟩ := hw.own i hi
    have hmem : d ∈ [7, 6, 5, 4, 3, 2, 1, 0] := by
      have : d = 0 ∨ d = 1 ∨ d = 2 ∨ d = 3 ∨ d = 4 ∨ d = 5 ∨ d = 6 ∨ d = 7 := by omega
      rcases this with rfl | rfl | rfl | rfl | rfl | rfl | rfl | rfl <;> decide
    have hall := handle_all (flags := flags) i [7, 6, 5, 4, 3, 2, 1, 0] hw hi hd (by decide)
    rw [hd]
    change _ = (b.ch i).run (if i < b.cnt ∧ flags d = true then [.period] else [])
    by_cases hf : flags d = true
    · have hx1 : i < b.cnt ∧ flags d = true := ⟨hi, hf⟩
      have hx2 : d ∈ [7, 6, 5, 4, 3, 2, 1, 0] ∧ flags d = true := ⟨hmem, hf⟩
      rw [if_pos hx2] at hall
      rw [if_pos hx1]
      change _ = if (b.ch i).irq = true then (b.ch i).period else b.ch i
      cases hirq : (b.ch i).irq with
      | true =>
        have hr : b.irqReason flags = true := by
          unfold irqReason
          rw [List.any_eq_true]
          exact ⟨d, List.mem_range.mpr hd8, by rw [hf, hu, hm, hirq]; rfl⟩
        rw [if_pos hr, if_pos rfl, hall]
      | false =>
        rw [if_neg (show ¬ (false = true) by decide)]
        have hp : (b.ch i).period = b.ch i := by
          unfold Due.period
          rcases hq i hi (by rw [hd]; exact hf) with hx | hx | hx
          · rw [hirq] at hx; cases hx
          · rw [if_pos (by rw [hx]; rfl), ← hirq]
          · rw [if_pos hx]
            split
            · rw [← hirq]
            · rfl
        split
        · exact hall.trans hp
        · rfl
    · have hx1 : ¬ (i < b.cnt ∧ flags d = true) := fun hx => hf hx.2
      have hx2 : ¬ (d ∈ [7, 6, 5, 4, 3, 2, 1, 0] ∧ flags d = true) := fun hx => hf hx.2
      rw [if_neg hx2] at hall
      rw [if_neg hx1]
      split
      · exact hall
      · rfl
  | stepper j e =>
    simp only [mine, List.append_nil]
    by_cases hij : j = i
    · subst hij
      cases e
      case period =>
        have hxy : ¬ (j = j ∧ j < b.cnt ∧ (Due.Ev.period) ≠ .period) := fun hx => hx.2.2 rfl
        rw [if_neg hxy]
        rfl
      all_goals
        rw [if_pos ⟨rfl, hi, by intro hx; cases hx⟩]
        dsimp only
        rw [if_pos hi]
        change (if j = j then _ else _) = _
        rw [if_pos rfl]
        rfl
    · have hxy : ¬ (j = i ∧ i < b.cnt ∧ e ≠ .period) := fun hx => hij hx.1
      rw [if_neg hxy]
      change _ = b.ch i
      cases e
      case period => rfl
      all_goals
        dsimp only
        split
        · change (if i = j then _ else _) = _
          rw [if_neg (fun hx => hij hx.symm)]
        · rfl

theorem mine_cons (i : Nat) (b : DueBoard) (ev : Ev) (evs : List Ev) : mine i b (ev :: evs) = mine i b [ev] ++ mine i (b.step ev) evs := by
  simp only [mine, List.append_nil]

theorem run_ch (i : Nat) : ∀ (evs : List Ev) {b : DueBoard}, b.Wired → Along Quiet b evs → i < b.cnt → (b.run evs).ch i = (b.ch i).run (mine i b evs)
  | [], _, _, _, _ => rfl
  | ev :: evs, b, hw, hq, hi => by
    have h1 := run_ch i evs (hw.step ev) hq.2 (by have := step_cnt b ev; omega)
    rw [mine_cons]
    unfold Due.run at h1 ⊢
    rw [List.foldl_append]
    have h2 := step_ch hw ev hq.1 i hi
    unfold Due.run at h2
    rw [← h2]
    exact h1

theorem run_new (i : Nat) : ∀ (evs : List Ev) {b : DueBoard}, b.Wired → Along Quiet b evs → b.cnt ≤ i → i < (b.run evs).cnt →
    (b.run evs).ch i = (Due.fresh (config i b evs).1 (config i b evs).2).run (mine i b evs)
  | [], _, _, _, h, hi => by
    change i < _ at hi
    exact absurd hi (by unfold DueBoard.run; simp only [List.foldl_nil]; omega)
  | ev :: evs, b, hw, hq, h, hi => by
    have hnil : mine i b [ev] = [] := by
      unfold mine
      cases ev with
      | stepper j e => simp only [mine, List.append_nil]; rw [if_neg (by intro hx; omega)]
      | pwm c => simp only [mine, List.append_nil]; rw [if_neg (by intro hx; omega)]
      | _ => rfl
    rw [mine_cons, hnil, List.nil_append]
    by_cases hn : (b.step ev).cnt ≤ i
    · have hcfg : config i b (ev :: evs) = config i (b.step ev) evs := by
        cases ev with
        | connect pin dirPin hi' =>
          rw [config]
          have hxy : ¬ (b.cnt = i ∧ (b.step (.connect pin dirPin hi')).cnt = i + 1) := by intro hx; omega
          rw [if_neg hxy]
        | _ => rfl
      rw [hcfg]
      exact run_new i evs (hw.step ev) hq.2 hn hi
    · have hcn := step_cnt b ev
      have hci : b.cnt = i := by omega
      have h1 := run_ch i evs (hw.step ev) hq.2 (by omega)
      have h2 : (b.step ev).ch i = Due.fresh (config i b (ev :: evs)).1 (config i b (ev :: evs)).2 := by
        cases ev with
        | connect pin dirPin hi' =>
          rw [config]
          have hxy : b.cnt = i ∧ (b.step (.connect pin dirPin hi')).cnt = i + 1 := ⟨hci, by omega⟩
          rw [if_pos hxy]
          clear hxy h1 hcn hnil
          revert hn
          unfold DueBoard.step
          dsimp only
          cases hc : duePinToChannel pin with
          | none => intro hn; exact absurd h hn
          | some c =>
            dsimp only
            by_cases hx : b.used c = true ∨ b.cnt ≥ 6
            · rw [if_pos hx]; intro hn; exact absurd h hn
            · rw [if_neg hx]
              intro _
              rw [mask_ch]
              · dsimp only
                rw [if_pos hci.symm]
                rfl
              · intro _
                dsimp only
                rw [if_pos hci.symm]
                rfl
        | detach j => exact absurd (show (b.step (.detach j)).cnt ≤ i by unfold DueBoard.step; dsimp only; split <;> exact h) hn
        | reattach j => exact absurd (show (b.step (.reattach j)).cnt ≤ i by unfold DueBoard.step; dsimp only; split <;> exact h) hn
        | pwm flags =>
          refine absurd (show (b.step (.pwm flags)).cnt ≤ i from ?_) hn
          unfold DueBoard.step
          dsimp only
          split
          · rw [(handle_frame flags [7, 6, 5, 4, 3, 2, 1, 0] b).2.2.2]; exact h
          · exact h
        | stepper j e =>
          refine absurd (show (b.step (.stepper j e)).cnt ≤ i from ?_) hn
          cases e
          case period => exact h
          all_goals
            unfold DueBoard.step
            dsimp only
            split <;> exact h
      change ((b.step ev).run evs).ch i = _
      rw [h1, h2]

/-- C89, for schedules in which steppers are connected or reattached only while no stepper on the channels 0 to 3 is in a pause: each stepper does exactly
what it would do alone on the board, with its own events: same pulses, same queue, same position. -/
theorem _root_.FAS.C89_independent_partial (evs : List Ev) (hq : Along Quiet DueBoard.init evs) (i : Nat) (hi : i < (DueBoard.init.run evs).cnt) :
    (DueBoard.init.run evs).ch i = (Due.fresh (config i DueBoard.init evs).1 (config i DueBoard.init evs).2).run (mine i DueBoard.init evs) :=
  run_new i evs Wired.init hq (Nat.zero_le _) hi

/-- Two steppers with steps and pauses interleaved, a third one connected in between. -/
def example2 : List Ev :=
  [.connect 34 5 true, .connect 9 6 false] ++ (dueAdd ⟨10000, 2, true⟩ true).map (.stepper 0) ++ (dueAdd ⟨20000, 0, true⟩ true).map (.stepper 1) ++
    (dueAdd ⟨20000, 1, true⟩ true).map (.stepper 1) ++ [.stepper 0 .pulse, .connect 6 7 true, .pwm (fun c => c == 0 || c == 4), .stepper 1 .pulse, .stepper 0 .pulse, .detach 0, .reattach 0]

instance decQuiet (b : DueBoard) : (ev : Ev) → Decidable (b.Quiet ev)
  | .connect _ _ _ => inferInstanceAs (Decidable (∀ j, j < b.cnt → _ → _))
  | .reattach i => inferInstanceAs (Decidable ((∀ j, j < b.cnt → (b.chan j).any (fun c => decide (c < 4)) = true → (b.ch j).irq = false) ∧
      (b.ch i).attached = false ∧ (b.ch i).irq = false))
  | .detach i => inferInstanceAs (Decidable ((b.ch i).attached = false ∧ (b.ch i).irq = false))
  | .pwm _ => inferInstanceAs (Decidable (∀ j, j < b.cnt → _ → _))
  | .stepper _ _ => isTrue trivial

instance decAlong (P : DueBoard → Ev → Prop) [∀ s, DecidablePred (P s)] : ∀ (evs : List Ev) (b : DueBoard), Decidable (Along P b evs)
  | [], _ => isTrue trivial
  | _ :: evs, _ =>
    have := decAlong P evs
    inferInstanceAs (Decidable (_ ∧ _))

example : Along Quiet DueBoard.init example2 ∧ (DueBoard.init.run example2).cnt = 3 ∧
    ((DueBoard.init.run example2).ch 0).pulses.length = 2 ∧ ((DueBoard.init.run example2).ch 1).pulses.length = 1 := by
  decide +kernel

/-- Together with C64: on a board with several steppers, the pulses of each stepper and the steps in its queue are together exactly the steps of the
commands accepted by it. -/
theorem _root_.FAS.C89_pulses_partial (evs : List Ev) (hq : Along Quiet DueBoard.init evs) (i : Nat) (hi : i < (DueBoard.init.run evs).cnt)
    (hpin : (config i DueBoard.init evs).1 = pinUndefined ∨ (config i DueBoard.init evs).1 < 128)
    (hp : Due.Along Due.Basic (Due.fresh (config i DueBoard.init evs).1 (config i DueBoard.init evs).2) (mine i DueBoard.init evs)) :
    ((DueBoard.init.run evs).ch i).pulses.reverse.map DuePulse.up ++ stepDirs (Hw.readOut .sam ⟨((DueBoard.init.run evs).ch i).q, 0⟩) =
      stepDirs (Due.track (Due.fresh (config i DueBoard.init evs).1 (config i DueBoard.init evs).2) [] (mine i DueBoard.init evs)).2 := by
  rw [FAS.C89_independent_partial evs hq i hi, ← Due.track_run _ _ []]
  exact C64_pulses_partial _ (Due.fresh_idle _ hpin _) _ hp

example : mine 1 DueBoard.init example2 = dueAdd ⟨20000, 0, true⟩ true ++ dueAdd ⟨20000, 1, true⟩ true ++ [.period, .pulse] := by
  decide +kernel

/-- the events of the peripherals -/
def Ev.isHw : Ev → Prop
  | .pwm _ => True
  | .stepper _ .pulse => True
  | _ => False

/-- Without enabled channels nothing happens. -/
def Dead (b : DueBoard) : Prop := ∀ i, i < b.cnt → (b.ch i).attached = false ∧ (b.ch i).irq = false

theorem dead_run : ∀ (hw : List Ev) {b : DueBoard}, b.Wired → b.Dead → (∀ ev ∈ hw, ev.isHw) → b.run hw = b
  | [], _, _, _, _ => rfl
  | ev :: hw, b, hwi, hd, he => by
    have hs : b.step ev = b := by
      have := he ev (by simp)
      unfold DueBoard.step
      cases ev with
      | pwm flags =>
        have hr : b.irqReason flags = false := by
          unfold irqReason
          rw [List.any_eq_false]
          intro c _ hx
          rw [Bool.and_eq_true, Bool.and_eq_true] at hx
          have := (hd _ (hwi.only c hx.2.1).1).2
          rw [hx.2.2] at this
          cases this
        dsimp only
        rw [hr]
        rfl
      | stepper j e =>
        cases e with
        | pulse =>
          dsimp only
          split
          · rename_i hj
            have : (b.ch j).step .pulse = b.ch j := by
              simp only [Due.step, (hd j hj).1]
              rfl
            rw [this]
            unfold setCh
            have : (fun k => if k = j then b.ch j else b.ch k) = b.ch := by
              funext k
              split
              · rename_i hx; rw [hx]
              · rfl
            rw [this]
          · rfl
        | _ => cases this
      | _ => cases this
    change (b.step ev).run hw = b
    rw [hs]
    exact dead_run hw hwi hd (fun e hx => he e (List.mem_cons_of_mem _ hx))

/-- Why C89 is restricted: if a second stepper is connected while the first one is in a pause, the interrupt which ends the pause is disabled. The first stepper
reports that it is running, but makes none of its queued steps, whatever the hardware does afterwards. -/
theorem _root_.FAS.C89_connect_refuted :
    let evs := Ev.connect 34 5 true :: ((dueAdd ⟨20000, 0, true⟩ true).map (.stepper 0) ++ (dueAdd ⟨20000, 4, true⟩ true).map (.stepper 0) ++ [.connect 36 6 true])
    ∀ hw : List Ev, (∀ ev ∈ hw, ev.isHw) → let s := (DueBoard.init.run (evs ++ hw)).ch 0
      s.q.running = true ∧ s.pulses = [] ∧ Hw.readOut .sam ⟨s.q, 0⟩ = [⟨20000, 0, true⟩, ⟨20000, 4, true⟩] := by
  intro evs hw hhw
  have hrun : (DueBoard.init.run (evs ++ hw)) = (DueBoard.init.run evs).run hw := by unfold DueBoard.run; rw [List.foldl_append]
  rw [hrun, dead_run hw (FAS.C89_channels evs) (by unfold Dead; decide +kernel) hhw]
  decide +kernel

/-- A stepper which is detached from its pin while it is running and reattached afterwards never continues, and reports that it is running. -/
theorem _root_.FAS.C89_detach_refuted :
    let evs := Ev.connect 34 5 true :: ((dueAdd ⟨20000, 4, true⟩ true).map (.stepper 0) ++ [.stepper 0 .pulse, .detach 0, .reattach 0])
    ∀ hw : List Ev, (∀ ev ∈ hw, ev.isHw) → let s := (DueBoard.init.run (evs ++ hw)).ch 0
      s.q.running = true ∧ s.pulses.length = 1 ∧ Hw.readOut .sam ⟨s.q, 0⟩ = [⟨20000, 3, true⟩] := by
  intro evs hw hhw
  have hrun : (DueBoard.init.run (evs ++ hw)) = (DueBoard.init.run evs).run hw := by unfold DueBoard.run; rw [List.foldl_append]
  rw [hrun, dead_run hw (FAS.C89_channels evs) (by unfold Dead; decide +kernel) hhw]
  decide +kernel

end DueBoard
end FAS
