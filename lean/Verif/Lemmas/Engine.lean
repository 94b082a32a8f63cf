import Mathlib.Data.List.Perm.Subperm
import Verif.Spec.Engine
import Verif.Lemmas.Fill

/-!
# Lemmas about the engine
-/

namespace FAS
open Spec

/-! ## Connecting steppers -/

/-- Invariant of `stepperConnectToPin` histories. -/
structure Engine.Conn (rule : SlotRule) (e : Engine) (given : List Nat) : Prop where
  uniq : ∀ i j s t, e.stepper i = some s → e.stepper j = some t → s.stepPin = t.stepPin → i = j
  occ : ∀ i, (e.stepper i).isSome ↔ i ∈ given
  bound : ∀ i ∈ given, i < rule.maxStepper
  nodup : given.Nodup
  cnt : e.cnt = given.length
  byPin : ∀ pins, rule = .byPin pins → ∀ i s, e.stepper i = some s → pins[i]? = some s.stepPin
  next : ∀ n, rule = .next n → ∀ i, i ∈ given ↔ i < e.cnt

theorem Engine.firstFree_spec (e : Engine) (n start i : Nat) (h : e.firstFree start n = some i) :
    (e.stepper i).isNone ∧ start ≤ i ∧ i < start + n := by
  induction n generalizing start with
  | zero => cases h
  | succ n ih =>
    unfold Engine.firstFree at h
    split at h
    · rename_i h1
      cases h
      exact ⟨h1, by omega, by omega⟩
    · have := ih _ h
      exact ⟨this.1, by omega, by omega⟩

theorem Engine.firstFree_none (e : Engine) (n start : Nat) :
    e.firstFree start n = none ↔ ∀ i, start ≤ i → i < start + n → (e.stepper i).isSome := by
  induction n generalizing start with
  | zero => exact ⟨fun _ i h1 h2 => by omega, fun _ => rfl⟩
  | succ n ih =>
    unfold Engine.firstFree
    split
    · rename_i h1
      constructor
      · intro h; cases h
      · intro h
        have := h start (by omega) (by omega)
        cases hs : e.stepper start <;> simp [hs] at h1 this
    · rename_i h1
      rw [ih]
      constructor
      · intro h i h2 h3
        by_cases h4 : i = start
        · subst h4
          cases hs : e.stepper i <;> simp [hs] at h1 ⊢
        · exact h i (by omega) (by omega)
      · intro h i h2 h3
        exact h i (by omega) (by omega)

theorem nodup_bounded_length (l : List Nat) (n : Nat) (hn : l.Nodup) (hb : ∀ i ∈ l, i < n) : l.length ≤ n := by
  have h1 : l.Subperm (List.range n) :=
    hn.subperm (fun i hi => List.mem_range.mpr (hb i hi))
  simpa using h1.length_le

theorem SlotRule.max_le (rule : SlotRule) (h : SlotRuleOK rule) : rule.maxStepper ≤ 127 := by
  cases rule with
  | byPin pins => exact h.2
  | next n => exact h
  | select m r => exact h

theorem Engine.stepPinUsed_iff (rule : SlotRule) (e : Engine) (pin : Nat)
    (hb : ∀ i, (e.stepper i).isSome → i < rule.maxStepper) :
    e.stepPinUsed rule pin = true ↔ ∃ i s, e.stepper i = some s ∧ s.stepPin = pin := by
  unfold Engine.stepPinUsed
  rw [List.any_eq_true]
  constructor
  · rintro ⟨i, -, h⟩
    cases hs : e.stepper i with
    | none => simp [hs] at h
    | some s =>
      simp only [hs, beq_iff_eq] at h
      exact ⟨i, s, hs, h⟩
  · rintro ⟨i, s, hs, hp⟩
    refine ⟨i, List.mem_range.mpr (hb i (by rw [hs]; rfl)), ?_⟩
    simp [hs, hp]

/-- The slot chosen for a new pin is free and within the array. -/
theorem Engine.Conn.chooseSlot {rule : SlotRule} {e : Engine} {given : List Nat} (hr : SlotRuleOK rule)
    (h : e.Conn rule given) (pin driver i : Nat) (hu : ∀ j s, e.stepper j = some s → s.stepPin ≠ pin)
    (hc : e.chooseSlot rule pin driver = some i) :
    e.stepper i = none ∧ i < rule.maxStepper ∧ (∀ pins, rule = .byPin pins → pins[i]? = some pin) ∧
    (∀ n, rule = .next n → i = e.cnt) := by
  unfold Engine.chooseSlot at hc
  cases rule with
  | byPin pins =>
    simp only at hc
    split at hc
    · rename_i hm
      cases hc
      have hlt : pins.idxOf pin < pins.length := List.idxOf_lt_length_iff.mpr hm
      have hg : pins[pins.idxOf pin]? = some pin := by
        rw [List.getElem?_eq_getElem hlt, List.getElem_idxOf]
      refine ⟨?_, hlt, ?_, fun n hn => by cases hn⟩
      · cases hs : e.stepper (pins.idxOf pin) with
        | none => rfl
        | some s =>
          have h1 := h.byPin pins rfl _ s hs
          rw [hg] at h1
          exact absurd (Option.some.inj h1).symm (hu _ s hs)
      · intro pins' hp
        cases hp
        exact hg
    · cases hc
  | next n =>
    simp only at hc
    split at hc
    · cases hc
    · rename_i hlt
      cases hc
      refine ⟨?_, by simp only [SlotRule.maxStepper]; omega, ?_, fun _ _ => rfl⟩
      · cases hs : e.stepper e.cnt with
        | none => rfl
        | some s =>
          have h1 : e.cnt ∈ given := (h.occ e.cnt).mp (by rw [hs]; rfl)
          have := (h.next n rfl _).mp h1
          omega
      · intro pins hp; cases hp
  | select m r =>
    simp only at hc
    refine ⟨?_, ?_, ?_, ?_⟩
    · have : (e.stepper i).isNone := by
        split at hc
        · exact (e.firstFree_spec _ _ _ hc).1
        · split at hc <;> exact (e.firstFree_spec _ _ _ hc).1
      cases hs : e.stepper i with
      | none => rfl
      | some s => rw [hs] at this; cases this
    · simp only [SlotRule.maxStepper]
      split at hc
      · have := e.firstFree_spec _ _ _ hc; omega
      · split at hc <;> (have := e.firstFree_spec _ _ _ hc; omega)
    · intro _ hp; cases hp
    · intro _ hp; cases hp

theorem Engine.connect_some (a : ArchId) (rule : SlotRule) (valid : Bool) (e : Engine) (pin driver i : Nat)
    (h : (e.connect a rule valid pin driver).2 = some i) :
    e.stepPinUsed rule pin = false ∧ valid = true ∧ e.chooseSlot rule pin driver = some i ∧
    (e.connect a rule valid pin driver).1.cnt = u8 (e.cnt + 1) ∧
    ∀ j, (e.connect a rule valid pin driver).1.stepper j =
      (if j = i then some (Stepper.init a pin) else e.stepper j).map
        (Stepper.adjustSpeedToStepperCount a (u8 (e.cnt + 1))) := by
  revert h
  unfold Engine.connect
  cases hu : e.stepPinUsed rule pin
  · cases hv : valid
    · simp
    · cases hs : e.chooseSlot rule pin driver with
      | none => simp
      | some k =>
        intro h
        simp only [Bool.false_eq_true, if_false, Bool.not_true] at h ⊢
        cases h
        exact ⟨by trivial, by trivial, rfl, by trivial, fun j => rfl⟩
  · simp

theorem Engine.connect_none (a : ArchId) (rule : SlotRule) (valid : Bool) (e : Engine) (pin driver : Nat)
    (h : (e.connect a rule valid pin driver).2 = none) :
    (e.connect a rule valid pin driver).1 = e ∧
    (e.stepPinUsed rule pin = true ∨ valid = false ∨ e.chooseSlot rule pin driver = none) := by
  revert h
  unfold Engine.connect
  cases hu : e.stepPinUsed rule pin
  · cases hv : valid
    · simp
    · cases hs : e.chooseSlot rule pin driver with
      | none => simp
      | some k => simp
  · simp

theorem Stepper.adjust_stepPin (a : ArchId) (n : Nat) (s : Stepper) :
    (s.adjustSpeedToStepperCount a n).stepPin = s.stepPin := rfl

theorem Engine.Conn.connect {a : ArchId} {rule : SlotRule} {e : Engine} {given : List Nat}
    (hr : SlotRuleOK rule) (h : e.Conn rule given) (pin driver : Nat) (valid : Bool) :
    (e.connect a rule valid pin driver).1.Conn rule
      (given ++ (e.connect a rule valid pin driver).2.toList) := by
  cases hc : (e.connect a rule valid pin driver).2 with
  | none =>
    rw [(e.connect_none a rule valid pin driver hc).1]
    simpa using h
  | some i =>
    obtain ⟨hu, -, hs, hcnt, hst⟩ := e.connect_some a rule valid pin driver i hc
    have hb : ∀ i, (e.stepper i).isSome → i < rule.maxStepper := fun i hi => h.bound i ((h.occ i).mp hi)
    have hu' : ∀ j s, e.stepper j = some s → s.stepPin ≠ pin := by
      intro j s hj hp
      have := (e.stepPinUsed_iff rule pin hb).mpr ⟨j, s, hj, hp⟩
      rw [hu] at this; cases this
    obtain ⟨h1, h2, h3, h4⟩ := h.chooseSlot hr pin driver i hu' hs
    have hni : i ∉ given := by
      intro hi
      have := (h.occ i).mpr hi
      rw [h1] at this; cases this
    have hnd : (given ++ [i]).Nodup := by
      rw [List.nodup_append]
      refine ⟨h.nodup, by simp, ?_⟩
      intro x hx y hy
      simp only [List.mem_singleton] at hy
      subst hy
      intro hxy; subst hxy; exact hni hx
    have hbd : ∀ x ∈ given ++ [i], x < rule.maxStepper := by
      intro x hx
      rcases List.mem_append.mp hx with hx | hx
      · exact h.bound x hx
      · simp only [List.mem_singleton] at hx; omega
    have hlen := nodup_bounded_length _ _ hnd hbd
    have hmax := rule.max_le hr
    have hcnt2 : u8 (e.cnt + 1) = e.cnt + 1 := by
      have := h.cnt
      simp only [List.length_append, List.length_cons, List.length_nil] at hlen
      unfold u8; omega
    have hpin : ∀ j s, (e.connect a rule valid pin driver).1.stepper j = some s →
        (j = i ∧ s.stepPin = pin) ∨ (j ≠ i ∧ ∃ s0, e.stepper j = some s0 ∧ s.stepPin = s0.stepPin) := by
      intro j s hj
      rw [hst j] at hj
      by_cases hji : j = i
      · left
        rw [if_pos hji] at hj
        simp only [Option.map_some, Option.some.injEq] at hj
        exact ⟨hji, by rw [← hj]; rfl⟩
      · right
        rw [if_neg hji] at hj
        cases hs0 : e.stepper j with
        | none => rw [hs0] at hj; cases hj
        | some s0 =>
          rw [hs0] at hj
          simp only [Option.map_some, Option.some.injEq] at hj
          exact ⟨hji, s0, rfl, by rw [← hj]; rfl⟩
    constructor
    · intro j k s t hj hk hp
      rcases hpin j s hj with ⟨hj1, hj2⟩ | ⟨hj1, s0, hj2, hj3⟩ <;>
        rcases hpin k t hk with ⟨hk1, hk2⟩ | ⟨hk1, t0, hk2, hk3⟩
      · omega
      · exact absurd (hk3 ▸ hp ▸ hj2) (hu' k t0 hk2)
      · exact absurd (hj3 ▸ hp ▸ hk2) (hu' j s0 hj2)
      · exact h.uniq j k s0 t0 hj2 hk2 (by rw [← hj3, ← hk3, hp])
    · intro j
      rw [hst j]
      simp only [Option.isSome_map, Option.toList_some, List.mem_append, List.mem_singleton]
      by_cases hji : j = i
      · simp [hji]
      · simp [hji, h.occ j]
    · simpa using hbd
    · simpa using hnd
    · rw [hcnt, hcnt2, h.cnt]; simp
    · intro pins hp j s hj
      rcases hpin j s hj with ⟨hj1, hj2⟩ | ⟨hj1, s0, hj2, hj3⟩
      · rw [hj1, hj2]; exact h3 pins hp
      · rw [hj3]; exact h.byPin pins hp j s0 hj2
    · intro n hn j
      have h5 := h.next n hn j
      have h6 := h4 n hn
      rw [hcnt, hcnt2]
      simp only [Option.toList_some, List.mem_append, List.mem_singleton, h5]
      omega

theorem Engine.Conn.use {rule : SlotRule} {e : Engine} {given : List Nat} (h : e.Conn rule given) (i : Nat)
    (s s0 : Stepper) (hi : e.stepper i = some s0) (hp : s.stepPin = s0.stepPin) : (e.set i s).Conn rule given := by
  have hget : ∀ j t, (e.set i s).stepper j = some t → ∃ t0, e.stepper j = some t0 ∧ t.stepPin = t0.stepPin := by
    intro j t hj
    unfold Engine.set at hj
    simp only at hj
    split at hj
    · rename_i hji
      cases hj
      exact ⟨s0, hji ▸ hi, hp⟩
    · exact ⟨t, hj, rfl⟩
  constructor
  · intro j k t u hj hk hpp
    obtain ⟨t0, h1, h2⟩ := hget j t hj
    obtain ⟨u0, h3, h4⟩ := hget k u hk
    exact h.uniq j k t0 u0 h1 h3 (by rw [← h2, ← h4, hpp])
  · intro j
    rw [← h.occ j]
    unfold Engine.set
    simp only
    split
    · rename_i hji; rw [hji, hi]; simp
    · exact Iff.rfl
  · exact h.bound
  · exact h.nodup
  · exact h.cnt
  · intro pins hpp j t hj
    obtain ⟨t0, h1, h2⟩ := hget j t hj
    rw [h2]; exact h.byPin pins hpp j t0 h1
  · exact h.next

theorem Engine.Conn.run {a : ArchId} {rule : SlotRule} (hr : SlotRuleOK rule) (ops : List ConnectOp) (e : Engine)
    (given : List Nat) (h : e.Conn rule given) :
    (connectRun a rule (e, given) ops).1.Conn rule (connectRun a rule (e, given) ops).2 := by
  induction ops generalizing e given with
  | nil => exact h
  | cons op ops ih =>
    cases op with
    | connect pin driver valid => exact ih _ _ (h.connect hr pin driver valid)
    | use i s =>
      unfold connectRun
      cases hs : e.stepper i with
      | none => exact ih _ _ h
      | some s0 =>
        simp only
        split
        · rename_i hp; exact ih _ _ (h.use i s s0 hs hp)
        · exact ih _ _ h

theorem Engine.Conn.init (rule : SlotRule) : Engine.init.Conn rule [] where
  uniq := by intro i j s t hi; cases hi
  occ := by intro i; simp [Engine.init]
  bound := by intro i hi; cases hi
  nodup := List.nodup_nil
  cnt := rfl
  byPin := by intro _ _ i s hi; cases hi
  next := by intro n _ i; simp [Engine.init]

/-! ## Auto disable -/

theorem usesPins_iff (s : Stepper) (high low : Nat) :
    Engine.usesPins s high low = true ↔
      (high ≠ pinUndefined ∧ (high = s.enHigh ∨ high = s.enLow)) ∨
      (low ≠ pinUndefined ∧ (low = s.enHigh ∨ low = s.enLow)) := by
  unfold Engine.usesPins Stepper.usesAutoEnablePin
  simp

theorem usesPins_share (s t : Stepper) : Engine.usesPins t s.enHigh s.enLow = true ↔ SharePin s t := by
  rw [usesPins_iff]
  constructor
  · rintro (⟨h1, h2⟩ | ⟨h1, h2⟩)
    · exact ⟨s.enHigh, ⟨h1, Or.inl rfl⟩, h1, h2⟩
    · exact ⟨s.enLow, ⟨h1, Or.inr rfl⟩, h1, h2⟩
  · rintro ⟨p, ⟨h1, h2 | h2⟩, h3, h4⟩
    · subst h2; exact Or.inl ⟨h1, h4⟩
    · subst h2; exact Or.inr ⟨h1, h4⟩

/-- `e'` is `e` with the auto disable counter of some run down, stopped steppers cleared. -/
def Engine.Cleared (e e' : Engine) : Prop :=
  e'.cnt = e.cnt ∧
  ∀ j, e'.stepper j = e.stepper j ∨
    ∃ s, e.stepper j = some s ∧ s.counter ≤ 1 ∧ s.isRunning = false ∧
      e'.stepper j = some { s with counter := 0 }

theorem Engine.Cleared.refl (e : Engine) : e.Cleared e := ⟨rfl, fun _ => Or.inl rfl⟩

theorem Engine.Cleared.trans {e f g : Engine} (h1 : e.Cleared f) (h2 : f.Cleared g) : e.Cleared g := by
  refine ⟨h2.1.trans h1.1, fun j => ?_⟩
  rcases h1.2 j with h | ⟨s, hs, hc, hr, h⟩ <;> rcases h2.2 j with h' | ⟨t, ht, hc', hr', h'⟩
  · exact Or.inl (h'.trans h)
  · exact Or.inr ⟨t, by rw [← h]; exact ht, hc', hr', h'⟩
  · exact Or.inr ⟨s, hs, hc, hr, by rw [h', h]⟩
  · rw [h] at ht
    cases ht
    exact Or.inr ⟨s, hs, hc, hr, h'⟩

/-- Reading a slot of `e'`: the stepper of `e`, eventually with another counter. -/
theorem Engine.Cleared.get {e e' : Engine} (h : e.Cleared e') {j : Nat} {t : Stepper} (ht : e'.stepper j = some t) :
    ∃ s, e.stepper j = some s ∧ t.enHigh = s.enHigh ∧ t.enLow = s.enLow ∧ t.isRunning = s.isRunning ∧
      (t = s ∨ (t = { s with counter := 0 } ∧ s.counter ≤ 1)) := by
  rcases h.2 j with h | ⟨s, hs, hc, hr, h⟩
  · exact ⟨t, by rw [← h]; exact ht, rfl, rfl, rfl, Or.inl rfl⟩
  · rw [h] at ht
    cases ht
    exact ⟨s, hs, rfl, rfl, rfl, Or.inr ⟨rfl, hc⟩⟩

theorem Engine.Cleared.get' {e e' : Engine} (h : e.Cleared e') {j : Nat} {s : Stepper} (hs : e.stepper j = some s) :
    ∃ t, e'.stepper j = some t ∧ t.enHigh = s.enHigh ∧ t.enLow = s.enLow ∧ t.isRunning = s.isRunning ∧
      (t = s ∨ (t = { s with counter := 0 } ∧ s.counter ≤ 1)) := by
  rcases h.2 j with h | ⟨s', hs', hc, hr, h⟩
  · exact ⟨s, by rw [h]; exact hs, rfl, rfl, rfl, Or.inl rfl⟩
  · rw [hs] at hs'
    cases hs'
    exact ⟨_, h, rfl, rfl, rfl, Or.inr ⟨rfl, hc⟩⟩

theorem driveEnablePin_writes (ext : ExtPin) (pin : Nat) (l : Bool) (w : PinWrite)
    (h : w ∈ (Stepper.driveEnablePin ext pin l).2) : pin ≠ pinUndefined ∧ w = (pin, l) := by
  unfold Stepper.driveEnablePin at h
  split at h
  · rename_i hp
    refine ⟨hp, ?_⟩
    split at h
    · split at h
      · simpa using h
      · cases h
    · simpa using h
  · cases h

/-- Result of `disableOutputs()`: only pins of the stepper are driven, to the inactive level. -/
theorem disableOutputs_spec (ext : ExtPin) (s : Stepper) :
    ((s.disableOutputs ext).1 = s ∨ (s.disableOutputs ext).1 = { s with counter := 0 }) ∧
    ∀ w ∈ (s.disableOutputs ext).2.2, UsesPin s w.1 ∧
      ((w.1 = s.enLow ∧ w.2 = true) ∨ (w.1 = s.enHigh ∧ w.2 = false)) := by
  unfold Stepper.disableOutputs
  dsimp only
  split
  · exact ⟨Or.inl rfl, by simp⟩
  · refine ⟨?_, ?_⟩
    · dsimp only
      split
      · exact Or.inr rfl
      · exact Or.inl rfl
    · intro w hw
      rcases List.mem_append.mp hw with h | h
      · have := driveEnablePin_writes _ _ _ _ h
        rw [this.2]
        exact ⟨⟨this.1, Or.inr rfl⟩, Or.inl ⟨rfl, rfl⟩⟩
      · have := driveEnablePin_writes _ _ _ _ h
        rw [this.2]
        exact ⟨⟨this.1, Or.inl rfl⟩, Or.inr ⟨rfl, rfl⟩⟩

/-- The disable loop only touches steppers sharing a pin with the reference pins, all of which have run down. -/
theorem Engine.disableUsers_spec (ext : ExtPin) (high low : Nat) : ∀ (js : List Nat) (e : Engine),
    (∀ j ∈ js, ∀ t, e.stepper j = some t → usesPins t high low = true → t.counter ≤ 1 ∧ t.isRunning = false) →
    e.Cleared (disableUsers ext high low js e).1 ∧
    ∀ w ∈ (disableUsers ext high low js e).2, ∃ j ∈ js, ∃ t, e.stepper j = some t ∧
      usesPins t high low = true ∧ UsesPin t w.1 ∧
      ((w.1 = t.enLow ∧ w.2 = true) ∨ (w.1 = t.enHigh ∧ w.2 = false)) := by
  intro js
  induction js with
  | nil => intro e _; exact ⟨Cleared.refl e, by simp [disableUsers]⟩
  | cons j js ih =>
    intro e hok
    unfold disableUsers
    cases hs : e.stepper j with
    | none =>
      have := ih e (fun k hk => hok k (List.mem_cons_of_mem _ hk))
      refine ⟨this.1, fun w hw => ?_⟩
      obtain ⟨k, hk, t, h⟩ := this.2 w hw
      exact ⟨k, List.mem_cons_of_mem _ hk, t, h⟩
    | some s =>
      dsimp only
      by_cases hu : usesPins s high low = true
      · rw [if_pos hu]
        have hd := disableOutputs_spec ext s
        have hc := hok j (List.mem_cons_self ..) s hs hu
        have hcl : e.Cleared (e.set j (s.disableOutputs ext).1) := by
          refine ⟨rfl, fun k => ?_⟩
          unfold set
          dsimp only
          by_cases hk : k = j
          · rw [if_pos hk, hk]
            rcases hd.1 with h | h
            · left; rw [h, hs]
            · right; exact ⟨s, hs, hc.1, hc.2, by rw [h]⟩
          · rw [if_neg hk]; exact Or.inl rfl
        have hih := ih (e.set j (s.disableOutputs ext).1) (by
          intro k hk t ht htu
          obtain ⟨t0, ht0, hh, hl, hr, heq⟩ := hcl.get ht
          have htu0 : usesPins t0 high low = true := by
            rw [usesPins_iff] at htu ⊢
            rw [hh, hl] at htu
            exact htu
          have := hok k (List.mem_cons_of_mem _ hk) t0 ht0 htu0
          rcases heq with h | ⟨h, -⟩
          · rw [h]; exact this
          · rw [h]; exact ⟨Nat.zero_le _, this.2⟩)
        refine ⟨hcl.trans hih.1, fun w hw => ?_⟩
        rcases List.mem_append.mp hw with h | h
        · have := hd.2 w h
          exact ⟨j, List.mem_cons_self .., s, hs, hu, this⟩
        · obtain ⟨k, hk, t, ht, htu, htp, hlv⟩ := hih.2 w h
          obtain ⟨t0, ht0, hh, hl, hr, -⟩ := hcl.get ht
          refine ⟨k, List.mem_cons_of_mem _ hk, t0, ht0, ?_, ?_, ?_⟩
          · rw [usesPins_iff] at htu ⊢
            rw [hh, hl] at htu
            exact htu
          · unfold UsesPin at htp ⊢
            rw [hh, hl] at htp
            exact htp
          · rw [hh, hl] at hlv
            exact hlv
      · rw [if_neg hu]
        have := ih e (fun k hk => hok k (List.mem_cons_of_mem _ hk))
        refine ⟨this.1, fun w hw => ?_⟩
        obtain ⟨k, hk, t, h⟩ := this.2 w hw
        exact ⟨k, List.mem_cons_of_mem _ hk, t, h⟩

/-- What is known about the pin writes of the auto disable loop: they come from a stepper `t` which shares a pin
with (or is) a stepper `s` needing auto disable, and all sharing a pin with `s` have run down and are stopped. -/
def Engine.WriteOK (n : Nat) (e : Engine) (w : PinWrite) : Prop :=
  ∃ i < n, ∃ s, e.stepper i = some s ∧ s.counter = 1 ∧ s.isRunning = false ∧
    (∀ k < n, ∀ u, e.stepper k = some u → SharePin s u → u.counter ≤ 1 ∧ u.isRunning = false) ∧
    ∃ j < n, ∃ t, e.stepper j = some t ∧ SharePin s t ∧ UsesPin t w.1 ∧
      ((w.1 = t.enLow ∧ w.2 = true) ∨ (w.1 = t.enHigh ∧ w.2 = false))

theorem Engine.autoDisableOne_spec (n : Nat) (ext : ExtPin) (e : Engine) (i : Nat) (hi : i < n) :
    e.Cleared (e.autoDisableOne n ext i).1 ∧ ∀ w ∈ (e.autoDisableOne n ext i).2, e.WriteOK n w := by
  unfold autoDisableOne
  cases hs : e.stepper i with
  | none => exact ⟨Cleared.refl e, by simp⟩
  | some s =>
    dsimp only
    by_cases hn : s.needAutoDisable = true
    · rw [if_pos hn]
      by_cases ha : e.agree n i s.enHigh s.enLow = true
      · rw [if_pos ha]
        have hs1 : s.counter = 1 ∧ s.isRunning = false := by
          unfold Stepper.needAutoDisable at hn
          simpa using hn
        have hall : ∀ k < n, ∀ u, e.stepper k = some u → usesPins u s.enHigh s.enLow = true →
            u.counter ≤ 1 ∧ u.isRunning = false := by
          intro k hk u hu huse
          by_cases hki : k = i
          · subst hki
            rw [hs] at hu
            cases hu
            exact ⟨by omega, hs1.2⟩
          · unfold agree at ha
            rw [List.all_eq_true] at ha
            have := ha k (List.mem_range.mpr hk)
            rw [hu] at this
            simp only [huse, Bool.or_eq_true, beq_iff_eq, hki, false_or, Bool.not_true, Bool.false_eq_true] at this
            unfold Stepper.agreeWithAutoDisable at this
            simp only [Bool.and_eq_true, Bool.not_eq_true', decide_eq_false_iff_not, Nat.not_lt] at this
            exact ⟨this.2, this.1⟩
        have hd := disableUsers_spec ext s.enHigh s.enLow (List.range n) e
          (fun j hj t ht hu => hall j (List.mem_range.mp hj) t ht hu)
        refine ⟨hd.1, fun w hw => ?_⟩
        obtain ⟨j, hj, t, ht, hu, hp, hlv⟩ := hd.2 w hw
        exact ⟨i, hi, s, hs, hs1.1, hs1.2,
          fun k hk u hu hsh => hall k hk u hu ((usesPins_share s u).mpr hsh),
          j, List.mem_range.mp hj, t, ht, (usesPins_share s t).mp hu, hp, hlv⟩
      · rw [if_neg ha]; exact ⟨Cleared.refl e, by simp⟩
    · rw [if_neg hn]; exact ⟨Cleared.refl e, by simp⟩

theorem SharePin.congr {s t s' t' : Stepper} (h1 : s'.enHigh = s.enHigh) (h2 : s'.enLow = s.enLow)
    (h3 : t'.enHigh = t.enHigh) (h4 : t'.enLow = t.enLow) (h : SharePin s t) : SharePin s' t' := by
  obtain ⟨p, hp, hq⟩ := h
  exact ⟨p, ⟨hp.1, by rw [h1, h2]; exact hp.2⟩, ⟨hq.1, by rw [h3, h4]; exact hq.2⟩⟩

theorem Engine.WriteOK.back {n : Nat} {e e' : Engine} {w : PinWrite} (hc : e.Cleared e') (h : e'.WriteOK n w) :
    e.WriteOK n w := by
  obtain ⟨i, hi, s, hs, hs1, hs2, hall, j, hj, t, ht, hsh, hu, hlv⟩ := h
  obtain ⟨s0, hs0, a1, a2, a3, a4⟩ := hc.get hs
  have hs0c : s0.counter = 1 := by
    rcases a4 with h | ⟨h, -⟩
    · rw [← h]; exact hs1
    · rw [h] at hs1; cases hs1
  obtain ⟨t0, ht0, b1, b2, b3, -⟩ := hc.get ht
  refine ⟨i, hi, s0, hs0, hs0c, by rw [← a3]; exact hs2, ?_, j, hj, t0, ht0, ?_, ?_, ?_⟩
  · intro k hk u0 hu0 hsh0
    obtain ⟨u, hu, c1, c2, c3, c4⟩ := hc.get' hu0
    have := hall k hk u hu (SharePin.congr a1 a2 c1 c2 hsh0)
    refine ⟨?_, by rw [← c3]; exact this.2⟩
    rcases c4 with h | ⟨-, h⟩
    · rw [← h]; exact this.1
    · exact h
  · exact SharePin.congr a1.symm a2.symm b1.symm b2.symm hsh
  · exact ⟨hu.1, by rw [← b1, ← b2]; exact hu.2⟩
  · rw [← b1, ← b2]; exact hlv

theorem Engine.autoDisable_spec (n : Nat) (ext : ExtPin) : ∀ (is : List Nat) (e : Engine), (∀ i ∈ is, i < n) →
    e.Cleared (autoDisable n ext is e).1 ∧ ∀ w ∈ (autoDisable n ext is e).2, e.WriteOK n w := by
  intro is
  induction is with
  | nil => intro e _; exact ⟨Cleared.refl e, by simp [autoDisable]⟩
  | cons i is ih =>
    intro e hb
    unfold autoDisable
    dsimp only
    have h1 := e.autoDisableOne_spec n ext i (hb i (List.mem_cons_self ..))
    have h2 := ih (e.autoDisableOne n ext i).1 (fun k hk => hb k (List.mem_cons_of_mem _ hk))
    refine ⟨h1.1.trans h2.1, fun w hw => ?_⟩
    rcases List.mem_append.mp hw with h | h
    · exact h1.2 w h
    · exact (h2.2 w h).back h1.1

/-! ## The service loop keeps configuration -/

/-- The slots are the same and the steppers have the same configuration. -/
def Engine.SameConf (e e' : Engine) : Prop :=
  ∀ j, (e.stepper j = none ∧ e'.stepper j = none) ∨
    ∃ s s', e.stepper j = some s ∧ e'.stepper j = some s' ∧ Stepper.SameConfig s s'

theorem Engine.SameConf.refl (e : Engine) : e.SameConf e := by
  intro j
  cases h : e.stepper j with
  | none => exact Or.inl ⟨rfl, rfl⟩
  | some s => exact Or.inr ⟨s, s, rfl, rfl, Stepper.SameConfig.refl s⟩

theorem Engine.SameConf.trans {e f g : Engine} (h1 : e.SameConf f) (h2 : f.SameConf g) : e.SameConf g := by
  intro j
  rcases h1 j with ⟨h, h'⟩ | ⟨s, s', hs, hs', hc⟩ <;> rcases h2 j with ⟨k, k'⟩ | ⟨t, t', ht, ht', hd⟩
  · exact Or.inl ⟨h, k'⟩
  · rw [h'] at ht; cases ht
  · rw [hs'] at k; cases k
  · rw [hs'] at ht; cases ht
    exact Or.inr ⟨s, t', hs, ht', hc.trans hd⟩

theorem Engine.SameConf.set (e : Engine) (i : Nat) (s s' : Stepper) (hs : e.stepper i = some s)
    (h : Stepper.SameConfig s s') : e.SameConf (e.set i s') := by
  intro j
  unfold Engine.set
  dsimp only
  by_cases hj : j = i
  · subst hj
    exact Or.inr ⟨s, s', hs, by rw [if_pos rfl], h⟩
  · rw [if_neg hj]
    exact Engine.SameConf.refl e j

theorem extDirPoll_spec (a : ArchId) (ext : ExtPin) (s : Stepper) :
    Stepper.SameConfig s (Engine.extDirPoll a ext s).1 ∧
    (Engine.extDirPoll a ext s).1.isRunning = s.isRunning ∧
    (Engine.extDirPoll a ext s).1.counter = s.counter ∧
    (Engine.extDirPoll a ext s).1.rg = s.rg ∧
    (Engine.extDirPoll a ext s).1.hw.q.running = s.hw.q.running ∧
    (Engine.extDirPoll a ext s).1.hw.q.nextWriteIdx = s.hw.q.nextWriteIdx ∧
    (Engine.extDirPoll a ext s).1.hw.q.readIdx = s.hw.q.readIdx := by
  have hrefl := Stepper.SameConfig.refl s
  unfold Engine.extDirPoll
  dsimp only
  repeat' split
  all_goals first
    | exact ⟨hrefl, rfl, rfl, rfl, rfl, rfl, rfl⟩
    | exact ⟨⟨rfl, rfl, rfl, rfl, rfl, rfl, rfl, rfl, rfl, rfl, rfl, rfl⟩, rfl, rfl, rfl, rfl, rfl, rfl⟩

theorem Engine.fillOne_spec (a : ArchId) (n : Nat) (ext : ExtPin) (env : Stepper.Env) (junk : NextCommand)
    (e e' : Engine) (i : Nat) (h : e.fillOne a n ext env junk i = some e') :
    e.SameConf e' ∧ e'.cnt = e.cnt ∧ (∀ j, j ≠ i → e'.stepper j = e.stepper j) ∧
    ∀ s, e.stepper i = some s → s.isRunning = false →
      ∃ s', e'.stepper i = some s' ∧ s'.counter = s.counter ∧ s'.isRunning = false := by
  unfold Engine.fillOne at h
  cases hs : e.stepper i with
  | none =>
    rw [hs] at h
    cases h
    exact ⟨SameConf.refl e, rfl, fun _ _ => rfl, fun s h => by cases h⟩
  | some s =>
    rw [hs] at h
    dsimp only at h
    have hp := extDirPoll_spec a ext s
    revert h
    generalize hr : (if a.externalDir then extDirPoll a ext s else (s, true)) = r
    have hrs : Stepper.SameConfig s r.1 ∧ r.1.isRunning = s.isRunning ∧ r.1.counter = s.counter ∧ r.1.rg = s.rg := by
      rw [← hr]
      split
      · exact ⟨hp.1, hp.2.1, hp.2.2.1, hp.2.2.2.1⟩
      · exact ⟨Stepper.SameConfig.refl s, rfl, rfl, rfl⟩
    intro h
    split at h
    · split at h
      · cases h
      · rename_i s' acc hf
        cases h
        have hc := Stepper.fillQueue_sameConfig a _ junk _ _ _ hf
        refine ⟨SameConf.set e i s s' hs (hrs.1.trans hc), rfl, ?_, ?_⟩
        · intro j hj; unfold Engine.set; simp [hj]
        · intro s0 h0 hrun
          cases h0
          have hact : r.1.rg.isActive = false := by
            rw [hrs.2.2.2]
            unfold Stepper.isRunning at hrun
            cases hx : s.rg.isActive
            · rfl
            · rw [hx] at hrun; simp at hrun
          rw [Stepper.fillQueue_inactive _ _ _ _ hact] at hf
          cases hf
          exact ⟨r.1, by unfold Engine.set; simp, hrs.2.2.1, by rw [hrs.2.1]; exact hrun⟩
    · cases h
      refine ⟨SameConf.set e i s _ hs hrs.1, rfl, ?_, ?_⟩
      · intro j hj; unfold Engine.set; simp [hj]
      · intro s0 h0 hrun
        cases h0
        exact ⟨r.1, by unfold Engine.set; simp, hrs.2.2.1, by rw [hrs.2.1]; exact hrun⟩

theorem Engine.fillAll_spec (a : ArchId) (n : Nat) (ext : ExtPin) (env : Nat → Stepper.Env) (junk : NextCommand) :
    ∀ (is : List Nat) (e e' : Engine), fillAll a n ext env junk is e = some e' →
    e.SameConf e' ∧
    ∀ i s, e.stepper i = some s → s.isRunning = false →
      ∃ s', e'.stepper i = some s' ∧ s'.counter = s.counter ∧ s'.isRunning = false := by
  intro is
  induction is with
  | nil => intro e e' h; cases h; exact ⟨SameConf.refl e, fun i s h1 h2 => ⟨s, h1, rfl, h2⟩⟩
  | cons k is ih =>
    intro e e' h
    unfold fillAll at h
    cases hf : e.fillOne a n ext (env k) junk k with
    | none => rw [hf] at h; cases h
    | some e1 =>
      rw [hf] at h
      have h1 := e.fillOne_spec a n ext _ junk e1 k hf
      have h2 := ih e1 e' h
      refine ⟨h1.1.trans h2.1, fun i s hs hrun => ?_⟩
      by_cases hi : i = k
      · subst hi
        obtain ⟨s1, hs1, hc1, hr1⟩ := h1.2.2.2 s hs hrun
        obtain ⟨s2, hs2, hc2, hr2⟩ := h2.2 i s1 hs1 hr1
        exact ⟨s2, hs2, hc2.trans hc1, hr2⟩
      · exact h2.2 i s (by rw [h1.2.2.1 i hi]; exact hs) hrun

theorem Engine.SameConf.sharing {n : Nat} {e e' : Engine} (h : e.SameConf e') (ht : SharingTransitive n e) :
    SharingTransitive n e' := by
  intro i j k s' t' u' hi hj hk hs' ht' hu' h1 h2
  rcases h i with ⟨-, h0⟩ | ⟨s, s1, hs, hs1, hcs⟩
  · rw [h0] at hs'; cases hs'
  rcases h j with ⟨-, h0⟩ | ⟨t, t1, htt, ht1, hct⟩
  · rw [h0] at ht'; cases ht'
  rcases h k with ⟨-, h0⟩ | ⟨u, u1, hu, hu1, hcu⟩
  · rw [h0] at hu'; cases hu'
  rw [hs'] at hs1; cases hs1
  rw [ht'] at ht1; cases ht1
  rw [hu'] at hu1; cases hu1
  have := ht i j k s t u hi hj hk hs htt hu
    (SharePin.congr hcs.high.symm hcs.low.symm hct.high.symm hct.low.symm h1)
    (SharePin.congr hct.high.symm hct.low.symm hcu.high.symm hcu.low.symm h2)
  exact SharePin.congr hcs.high hcs.low hcu.high hcu.low this

/-! ## Auto disable of a stepper not sharing its pins -/

/-- Nobody else uses a pin of the stepper `s` in slot `i`. -/
def Engine.NoShare (n : Nat) (e : Engine) (i : Nat) (s : Stepper) : Prop :=
  ∀ j < n, j ≠ i → ∀ t, e.stepper j = some t → ¬SharePin s t

theorem SharePin.symm {s t : Stepper} (h : SharePin s t) : SharePin t s := by
  obtain ⟨p, h1, h2⟩ := h
  exact ⟨p, h2, h1⟩

theorem Engine.NoShare.cleared {n : Nat} {e e' : Engine} {i : Nat} {s : Stepper} (h : e.NoShare n i s)
    (hc : e.Cleared e') : e'.NoShare n i s := by
  intro j hj hji t ht hsh
  obtain ⟨t0, ht0, h1, h2, -⟩ := hc.get ht
  exact h j hj hji t0 ht0 (SharePin.congr rfl rfl h1.symm h2.symm hsh)

theorem Engine.disableUsers_other (ext : ExtPin) (high low i : Nat) (s : Stepper)
    (hu : usesPins s high low = false) : ∀ (js : List Nat) (e : Engine), e.stepper i = some s →
    (disableUsers ext high low js e).1.stepper i = some s := by
  intro js
  induction js with
  | nil => intro e h; exact h
  | cons j js ih =>
    intro e h
    unfold disableUsers
    cases hj : e.stepper j with
    | none => exact ih e h
    | some t =>
      dsimp only
      split
      · rename_i htu
        apply ih
        unfold set
        dsimp only
        by_cases hij : i = j
        · subst hij
          rw [h] at hj
          cases hj
          rw [hu] at htu
          cases htu
        · rw [if_neg hij]; exact h
      · exact ih e h

theorem Engine.disableUsers_none (ext : ExtPin) (high low : Nat) : ∀ (js : List Nat) (e : Engine),
    (∀ j ∈ js, ∀ t, e.stepper j = some t → usesPins t high low = false) →
    disableUsers ext high low js e = (e, []) := by
  intro js
  induction js with
  | nil => intro e _; rfl
  | cons j js ih =>
    intro e h
    unfold disableUsers
    have hih := ih e (fun k hk => h k (List.mem_cons_of_mem _ hk))
    cases hj : e.stepper j with
    | none => exact hih
    | some t =>
      dsimp only
      rw [h j (List.mem_cons_self ..) t hj]
      exact hih

/-- If only the stepper in slot `i` uses the pins, then exactly its outputs are disabled. -/
theorem Engine.disableUsers_only (ext : ExtPin) (high low i : Nat) (s : Stepper)
    (hu : usesPins s high low = true) : ∀ (js : List Nat) (e : Engine), js.Nodup → i ∈ js →
    e.stepper i = some s →
    (∀ j ∈ js, j ≠ i → ∀ t, e.stepper j = some t → usesPins t high low = false) →
    disableUsers ext high low js e = (e.set i (s.disableOutputs ext).1, (s.disableOutputs ext).2.2) := by
  intro js
  induction js with
  | nil => intro e _ h; cases h
  | cons j js ih =>
    intro e hnd hi hs hno
    unfold disableUsers
    by_cases hji : j = i
    · subst hji
      rw [hs]
      dsimp only
      rw [if_pos hu, disableUsers_none]
      · simp
      · intro k hk t ht
        have hkj : k ≠ j := by
          intro h; subst h; exact (List.nodup_cons.mp hnd).1 hk
        apply hno k (List.mem_cons_of_mem _ hk) hkj t
        unfold set at ht
        dsimp only at ht
        rw [if_neg hkj] at ht
        exact ht
    · have hi' : i ∈ js := by
        rcases List.mem_cons.mp hi with h | h
        · exact absurd h.symm hji
        · exact h
      have hih := ih e (List.nodup_cons.mp hnd).2 hi' hs (fun k hk => hno k (List.mem_cons_of_mem _ hk))
      cases hj : e.stepper j with
      | none => exact hih
      | some t =>
        dsimp only
        rw [hno j (List.mem_cons_self ..) hji t hj]
        exact hih

theorem Engine.autoDisableOne_other (n : Nat) (ext : ExtPin) (e : Engine) (i k : Nat) (s : Stepper) (hk : k < n)
    (hki : k ≠ i) (hs : e.stepper i = some s) (hn : e.NoShare n i s) :
    (e.autoDisableOne n ext k).1.stepper i = some s := by
  unfold autoDisableOne
  cases ht : e.stepper k with
  | none => exact hs
  | some t =>
    dsimp only
    split
    · split
      · apply disableUsers_other _ _ _ _ _ _ _ _ hs
        cases hu : usesPins s t.enHigh t.enLow
        · rfl
        · exact absurd (SharePin.symm ((usesPins_share t s).mp hu)) (hn k hk hki t ht)
      · exact hs
    · exact hs

theorem Engine.autoDisable_other (n : Nat) (ext : ExtPin) (i : Nat) (s : Stepper) : ∀ (is : List Nat) (e : Engine),
    (∀ k ∈ is, k < n ∧ k ≠ i) → e.stepper i = some s → e.NoShare n i s →
    (autoDisable n ext is e).1.stepper i = some s ∧
    (autoDisable n ext is e).1.NoShare n i s := by
  intro is
  induction is with
  | nil => intro e _ h h'; exact ⟨h, h'⟩
  | cons k is ih =>
    intro e hb hs hn
    unfold autoDisable
    have hk := hb k (List.mem_cons_self ..)
    exact ih _ (fun j hj => hb j (List.mem_cons_of_mem _ hj))
      (e.autoDisableOne_other n ext i k s hk.1 hk.2 hs hn)
      (hn.cleared (e.autoDisableOne_spec n ext k hk.1).1)

theorem Engine.autoDisable_cons (n : Nat) (ext : ExtPin) (i : Nat) (is : List Nat) (e : Engine) :
    autoDisable n ext (i :: is) e =
      ((autoDisable n ext is (e.autoDisableOne n ext i).1).1,
       (e.autoDisableOne n ext i).2 ++ (autoDisable n ext is (e.autoDisableOne n ext i).1).2) := rfl

theorem Engine.autoDisable_append (n : Nat) (ext : ExtPin) : ∀ (is js : List Nat) (e : Engine),
    autoDisable n ext (is ++ js) e =
      ((autoDisable n ext js (autoDisable n ext is e).1).1,
       (autoDisable n ext is e).2 ++ (autoDisable n ext js (autoDisable n ext is e).1).2) := by
  intro is
  induction is with
  | nil => intro js e; simp [autoDisable]
  | cons k is ih =>
    intro js e
    rw [List.cons_append, autoDisable_cons, autoDisable_cons, ih]
    simp only [List.append_assoc]

/-- The loop for a stopped stepper with not shared pins: its slot afterwards. -/
theorem Engine.autoDisable_single (n : Nat) (ext : ExtPin) (e : Engine) (i : Nat) (s : Stepper) (hi : i < n)
    (hs : e.stepper i = some s) (hn : e.NoShare n i s) (hr : s.isRunning = false)
    (hp : UsesPin s s.enHigh ∨ UsesPin s s.enLow) :
    (s.counter ≠ 1 → (autoDisable n ext (List.range n) e).1.stepper i = some s) ∧
    (s.counter = 1 →
      (autoDisable n ext (List.range n) e).1.stepper i = some (s.disableOutputs ext).1 ∧
      ∀ w ∈ (s.disableOutputs ext).2.2, w ∈ (autoDisable n ext (List.range n) e).2) := by
  obtain ⟨m, rfl⟩ : ∃ m, n = i + (m + 1) := ⟨n - i - 1, by omega⟩
  have hrange : List.range (i + (m + 1)) = List.range i ++ i :: (List.range' (i + 1) m) := by
    rw [List.range_eq_range', List.range_eq_range', ← List.range'_append_1, Nat.zero_add, List.range'_succ]
  generalize hN : i + (m + 1) = N at *
  have h1 := autoDisable_other N ext i s (List.range i) e
    (fun k hk => by have := List.mem_range.mp hk; omega) hs hn
  have hne : ∀ k ∈ List.range' (i + 1) m, k < N ∧ k ≠ i := by
    intro k hk
    rw [List.mem_range'_1] at hk
    omega
  have hone : (autoDisable N ext (List.range i) e).1.autoDisableOne N ext i =
      if s.counter = 1 then
        ((autoDisable N ext (List.range i) e).1.set i (s.disableOutputs ext).1, (s.disableOutputs ext).2.2)
      else ((autoDisable N ext (List.range i) e).1, []) := by
    generalize autoDisable N ext (List.range i) e = E at h1
    unfold autoDisableOne
    rw [h1.1]
    dsimp only
    by_cases hc : s.counter = 1
    · have hneed : s.needAutoDisable = true := by
        unfold Stepper.needAutoDisable; simp [hc, hr]
      have hno : ∀ k < N, k ≠ i → ∀ t, E.1.stepper k = some t → usesPins t s.enHigh s.enLow = false := by
        intro k hk hki t ht
        cases hu : usesPins t s.enHigh s.enLow
        · rfl
        · exact absurd ((usesPins_share s t).mp hu) (h1.2 k hk hki t ht)
      have hag : E.1.agree N i s.enHigh s.enLow = true := by
        unfold agree
        rw [List.all_eq_true]
        intro k hk
        by_cases hki : k = i
        · simp [hki]
        · cases ht : E.1.stepper k with
          | none => simp
          | some t => simp [hno k (List.mem_range.mp hk) hki t ht]
      have hself : usesPins s s.enHigh s.enLow = true := by
        rw [usesPins_share]
        rcases hp with hp | hp <;> exact ⟨_, hp, hp⟩
      rw [if_pos hneed, if_pos hag, if_pos hc]
      exact disableUsers_only ext _ _ i s hself _ _ List.nodup_range (List.mem_range.mpr hi) h1.1
        (fun k hk => hno k (List.mem_range.mp hk))
    · have hneed : s.needAutoDisable = false := by
        unfold Stepper.needAutoDisable; simp [hc]
      rw [hneed, if_neg hc]
      rfl
  rw [hrange, autoDisable_append]
  unfold autoDisable
  dsimp only
  rw [hone]
  constructor
  · intro hc
    rw [if_neg hc]
    exact (autoDisable_other N ext i s _ _ hne h1.1 h1.2).1
  · intro hc
    rw [if_pos hc]
    constructor
    · have hd := disableOutputs_spec ext s
      apply (autoDisable_other N ext i _ _ _ hne _ _).1
      · unfold set; simp
      · intro j hj hji t ht hsh
        unfold set at ht
        dsimp only at ht
        rw [if_neg hji] at ht
        refine h1.2 j hj hji t ht ?_
        rcases hd.1 with h | h
        · rw [h] at hsh; exact hsh
        · rw [h] at hsh; exact hsh
    · intro w hw
      dsimp only
      exact List.mem_append_right _ (List.mem_append_left _ hw)

end FAS
