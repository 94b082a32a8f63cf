import Verif.Props.EspBoard

/-!
# C91: the step pins of the steppers on the MCPWM/PCNT driver
-/

namespace FAS
namespace EspBoard
variable {σ : Type} (hw : PcntHw σ)

/-- What is known about the pin of stepper `i`. -/
def PinOK (i p : Nat) (a : Bool) (b : EspBoard σ) : Prop := (b.que i).pin = p ∧ b.drv p = if a then some ((mcMap i).unit, (mcMap i).timer) else none

theorem run_pin {m : Nat} (hm : m = 4 ∨ m = 6) : ∀ (evs : List Ev) {b : EspBoard σ} {i p : Nat} {a : Bool}, b.Wired m → i < b.n → PinOK i p a b →
    PinOK i p (attached hw m i b a evs) (b.run hw m evs)
  | [], _, _, _, _, _, _, h => h
  | ev :: evs, b, i, p, a, hb, hi, h => by
    have keep : ∀ {b' : EspBoard σ} {a' : Bool}, b.step hw m ev = b' → attached hw m i b a (ev :: evs) = attached hw m i (b.step hw m ev) a' evs → b.n ≤ b'.n → PinOK i p a' b' →
        PinOK i p (attached hw m i b a (ev :: evs)) (b.run hw m (ev :: evs)) := by
      intro b' a' he ha hn hp
      have hw' := hb.step hw hm ev
      rw [ha]
      change PinOK i p _ ((b.step hw m ev).run hw m evs)
      rw [he] at hw' ⊢
      exact run_pin hm evs hw' (by omega) hp
    have same : Frame b (b.step hw m ev) →
        attached hw m i b a (ev :: evs) = attached hw m i (b.step hw m ev) a evs → PinOK i p (attached hw m i b a (ev :: evs)) (b.run hw m (ev :: evs)) := by
      intro f ha
      exact keep rfl ha (Nat.le_of_eq f.n.symm) ⟨(f.pin i).trans h.1, by rw [f.drv]; exact h.2⟩
    cases ev with
    | connect pin dirPin hi2 =>
      have ha : attached hw m i b a (.connect pin dirPin hi2 :: evs) = attached hw m i (b.step hw m (.connect pin dirPin hi2)) a evs := by
        rw [attached]
        rw [if_neg (by omega)]
      by_cases hx : (b.pinUsed pin || decide (b.n ≥ m)) = true
      · exact keep (if_pos hx) ha (Nat.le_refl _) h
      · refine keep (if_neg hx) ha (Nat.le_succ _) ?_
        simp only [Bool.or_eq_true, decide_eq_true_eq, not_or, Bool.not_eq_true] at hx
        have hque : ((setUp hw b pin dirPin hi2).que i) = b.que i := if_neg (by omega)
        refine ⟨by rw [hque]; exact h.1, ?_⟩
        have hnew : ((setUp hw b pin dirPin hi2).que b.n).pin = pin := by
          change (if b.n = b.n then (_ : EspQueue) else _).pin = pin
          rw [if_pos rfl]
        have hdrv : (setUp hw b pin dirPin hi2).drv p = if p = ((setUp hw b pin dirPin hi2).que b.n).pin then some ((mcMap b.n).unit, (mcMap b.n).output) else b.drv p := rfl
        rw [hdrv, hnew, if_neg (by rw [← h.1]; exact not_pinUsed hx.1 i hi)]
        exact h.2
    | detach j =>
      by_cases hj : j < b.n
      · by_cases hji : j = i
        · subst hji
          exact keep (a' := false) (if_pos hj) (by rw [attached]; rw [if_pos ⟨rfl, hj⟩]) (by exact Nat.le_refl _) ⟨h.1, if_pos h.1.symm⟩
        · refine keep (a' := a) (if_pos hj) (by rw [attached]; rw [if_neg (by simp [hji])]) (by exact Nat.le_refl _) ⟨h.1, ?_⟩
          exact (if_neg (by rw [← h.1]; exact fun he => hji (hb.pins i j hi hj he).symm)).trans h.2
      · exact keep (a' := a) (if_neg hj) (by rw [attached]; rw [if_neg (by omega)]) (Nat.le_refl _) h
    | reattach j =>
      by_cases hj : j < b.n
      · by_cases hji : j = i
        · subst hji
          refine keep (a' := true) (if_pos hj) (by rw [attached]; rw [if_pos ⟨rfl, hj⟩]) (by exact Nat.le_refl _) ⟨h.1, ?_⟩
          refine (if_pos h.1.symm).trans ?_
          rw [(map_io j).1]
          rfl
        · refine keep (a' := a) (if_pos hj) (by rw [attached]; rw [if_neg (by simp [hji])]) (by exact Nat.le_refl _) ⟨h.1, ?_⟩
          exact (if_neg (by rw [← h.1]; exact fun he => hji (hb.pins i j hi hj he).symm)).trans h.2
      · exact keep (a' := a) (if_neg hj) (by rw [attached]; rw [if_neg (by omega)]) (Nat.le_refl _) h
    | attachCounter j unit high =>
      by_cases hj : j < b.n ∧ unit < (if m = 4 then 4 else 8)
      · exact keep (a' := a) (if_pos hj) rfl (by exact Nat.le_refl _) h
      · exact keep (a' := a) (if_neg hj) rfl (Nat.le_refl _) h
    | _ => exact same (step_frame hw m b _ trivial) rfl

theorem run_pin_new {m : Nat} (hm : m = 4 ∨ m = 6) : ∀ (evs : List Ev) {b : EspBoard σ} {i : Nat}, b.Wired m → b.n ≤ i → i < (b.run hw m evs).n →
    PinOK i (stepPin hw m i b evs) (attached hw m i b false evs) (b.run hw m evs)
  | [], b, i, _, h1, h2 => absurd h1 (by have : i < b.n := h2; omega)
  | ev :: evs, b, i, hb, h1, h2 => by
    have hw' := hb.step hw hm ev
    have h2' : i < ((b.step hw m ev).run hw m evs).n := h2
    change PinOK i _ _ ((b.step hw m ev).run hw m evs)
    by_cases hi : (b.step hw m ev).n ≤ i
    · have hc : stepPin hw m i b (ev :: evs) = stepPin hw m i (b.step hw m ev) evs := by
        cases ev with
        | connect pin dirPin hi2 => exact if_neg (by omega)
        | _ => rfl
      have ha : attached hw m i b false (ev :: evs) = attached hw m i (b.step hw m ev) false evs := by
        cases ev with
        | connect pin dirPin hi2 => rw [attached]; rw [if_neg (by omega)]
        | detach j => rw [attached]; rw [if_neg (by omega)]
        | reattach j => rw [attached]; rw [if_neg (by omega)]
        | _ => rfl
      rw [hc, ha]
      exact run_pin_new hm evs hw' hi h2'
    · rcases step_n hw m b ev with hn | ⟨hn, _, pin, dirPin, hi2, rfl, hst⟩
      · omega
      · have hib : i = b.n := by omega
        subst hib
        have hc : stepPin hw m b.n b (.connect pin dirPin hi2 :: evs) = pin := if_pos ⟨rfl, hn⟩
        have ha : attached hw m b.n b false (.connect pin dirPin hi2 :: evs) = attached hw m b.n (b.step hw m (.connect pin dirPin hi2)) true evs := by
          rw [attached]; rw [if_pos ⟨rfl, hn⟩]
        rw [hc, ha]
        refine run_pin hw hm evs hw' (by omega) ?_
        rw [hst]
        have hnew : ((setUp hw b pin dirPin hi2).que b.n).pin = pin := by
          change (if b.n = b.n then (_ : EspQueue) else _).pin = pin
          rw [if_pos rfl]
        have hdrv : (setUp hw b pin dirPin hi2).drv pin = if pin = ((setUp hw b pin dirPin hi2).que b.n).pin then some ((mcMap b.n).unit, (mcMap b.n).output) else b.drv pin := rfl
        exact ⟨hnew, by rw [hdrv, hnew, if_pos rfl, (map_io b.n).1]; rfl⟩

/-- C91, for all schedules: the step pin given when stepper `i` was connected is driven by the output of its timer from then on, except between detachFromPin() and reAttachToPin() of this stepper. -/
theorem _root_.FAS.C91_pin (m : Nat) (hm : m = 4 ∨ m = 6) (junk : Nat → σ) (evs : List Ev) (i : Nat) (hi : i < ((EspBoard.init junk).run hw m evs).n) :
    ((EspBoard.init junk).run hw m evs).drv (stepPin hw m i (EspBoard.init junk) evs) =
      if attached hw m i (EspBoard.init junk) false evs then some ((mcMap i).unit, (mcMap i).timer) else none :=
  (run_pin_new hw hm evs (Wired.init m junk) (Nat.zero_le i) hi).2

example : let evs : List Ev := [.connect 18 5 true, .connect 18 6 true, .connect 19 6 true, .connect 21 7 true, .detach 1, .detach 0, .connect 22 8 true, .reattach 0]
    let b0 := EspBoard.init (fun _ => mcCnt)
    (b0.run shadowPcnt 4 evs).n = 4 ∧ (List.range 4).map (fun i => stepPin shadowPcnt 4 i b0 evs) = [18, 19, 21, 22] ∧
      (List.range 4).map (fun i => attached shadowPcnt 4 i b0 false evs) = [true, false, true, true] := by
  decide +kernel

end EspBoard
end FAS
