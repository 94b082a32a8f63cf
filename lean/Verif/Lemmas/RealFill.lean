import Verif.Lemmas.RealTime
import Verif.Props.Cycles
import Verif.Props.Supply

/-! What a task cycle queues, and how many commands. -/

namespace FAS
open Spec Stepper

/-- The number of commands shorter than `D`. -/
def shorts (D : Nat) (cs : List Cmd) : Nat := cs.countP (fun c => decide (c.duration < D))

theorem shorts_append (D : Nat) (cs ds : List Cmd) : shorts D (cs ++ ds) = shorts D cs + shorts D ds := List.countP_append

theorem shorts_one (D : Nat) (c : Cmd) : shorts D [c] = if c.duration < D then 1 else 0 := by
  unfold shorts
  rw [List.countP_singleton]
  simp only [decide_eq_true_eq]

theorem Call.add_mem (a : ArchId) (gaps : Nat → Gap) (k : Call) (c : Cmd) (st : Bool) :
    ∀ x ∈ (k.add a gaps c st).1.accepted, x ∈ k.accepted ∨ x = c := by
  intro x hx
  unfold Call.add at hx
  dsimp only at hx
  split at hx
  · simpa using hx
  · exact Or.inl hx

/-- Without an external direction pin and without an on-delay of the enable pin `addQueueEntry()` queues the command, and a pause for the direction delay. -/
theorem addQueueEntry_mem (a : ArchId) (ext : ExtPin) (gaps : Nat → Gap) (busy : Bool) (s : Stepper) (c : Cmd) (st : Bool)
    (hpin : pinIsExternal s.dirPin = false) (hen : s.autoEnable = false ∨ s.onDelayTicks = 0) :
    ∀ x ∈ (s.addQueueEntry a ext gaps busy c st).1.accepted, x = c ∨ (x = ⟨s.dirChangeDelayTicks, 0, c.countUp⟩ ∧ s.dirChangeDelayTicks ≠ 0) := by
  have hae : (Call.autoEnable a ext gaps ⟨s, 0, [], []⟩ c st).1.accepted = [] ∧ (Call.autoEnable a ext gaps ⟨s, 0, [], []⟩ c st).1.s = s := by
    unfold Call.autoEnable
    dsimp only
    split
    · rename_i h1
      split
      · exact ⟨rfl, rfl⟩
      · rw [if_neg]
        · exact ⟨rfl, rfl⟩
        · rcases hen with h | h
          · rw [h] at h1; exact absurd h1.1 (by decide)
          · omega
    · exact ⟨rfl, rfl⟩
  unfold addQueueEntry
  dsimp only
  split
  · intro x hx; cases hx
  split
  · intro x hx; cases hx
  split
  · intro x hx; cases hx
  split
  · rename_i k code hk
    rw [hk] at hae
    intro x hx
    have h1 : k.accepted = [] := hae.1
    change x ∈ k.accepted at hx
    rw [h1] at hx; cases hx
  · rename_i k hk
    rw [hk] at hae
    obtain ⟨h1, h2⟩ := hae
    dsimp only at h1 h2
    have hdc : ∀ x ∈ (k.dirChange a gaps c st).1.accepted, x = ⟨s.dirChangeDelayTicks, 0, c.countUp⟩ ∧ s.dirChangeDelayTicks ≠ 0 := by
      intro x hx
      unfold Call.dirChange at hx
      rw [h2, hpin] at hx
      split at hx
      · rw [if_neg (by decide)] at hx
        split at hx
        · rename_i h3
          dsimp only at hx
          rcases Call.add_mem a gaps k _ st x hx with h4 | h4
          · rw [h1] at h4; cases h4
          · exact ⟨h4, h3.1⟩
        · rw [h1] at hx; cases hx
      · rw [h1] at hx; cases hx
    split
    · rename_i k' code hk'
      rw [hk'] at hdc
      intro x hx
      exact Or.inr (hdc x hx)
    · rename_i k' hk'
      rw [hk'] at hdc
      intro x hx
      have hacc : (k'.final a gaps c st).1.accepted = (k'.add a gaps c st).1.accepted := by
        unfold Call.final; dsimp only; split <;> rfl
      rw [hacc] at hx
      rcases Call.add_mem a gaps k' c st x hx with h4 | h4
      · exact Or.inr (hdc x h4)
      · exact Or.inl h4

theorem Fill.body_count (a : ArchId) (env : Env) (i : Nat) (f f' : Stepper.Fill) (b : Bool) (hi : f.s.hw.q.IdxOK a)
    (h : f.body a env i = some (f', b)) :
    f'.s.hw.q.IdxOK a ∧ f'.s.hw.q.queueEntries + f.accepted.length ≤ f.s.hw.q.queueEntries + f'.accepted.length := by
  obtain ⟨rg, cmd, -, hcmd, hc⟩ := Stepper.Fill.body_cases a env i f f' b h
  rcases hc with ⟨-, r, hr, hacc, hc⟩ | ⟨-, hb, hs, hacc, -⟩
  · have hcnt := addQueueEntry_cnt a (env.ext i) (env.gaps i) (env.busy i) { f.s with rg := rg } cmd.command (!f.delayedStart)
    rw [← hr] at hcnt
    have h1 := hcnt.idx hi
    have h2 := hcnt.le hi
    simp only [List.length_nil] at h2
    have h3 : f'.accepted.length = f.accepted.length + r.1.accepted.length := by rw [hacc, List.length_append]
    rcases hc with ⟨-, -, hs, -⟩ | ⟨-, -, hs, -⟩ | ⟨-, -, hs, -⟩
    all_goals
      rw [hs, h3]
      refine ⟨h1, ?_⟩
      change r.1.s.hw.q.queueEntries + _ ≤ _
      omega
  · rw [hs, hacc]
    exact ⟨hi, Nat.le_refl _⟩

theorem startQueue_entries (s : Stepper) (st : Bool) : (s.startQueue st).1.hw.q.queueEntries = s.hw.q.queueEntries := by
  unfold Stepper.startQueue Queue.addNull
  dsimp only
  repeat' split
  all_goals rfl

/-- A task cycle does not make more commands pending than it queues. -/
theorem fillQueue_count (a : ArchId) (env : Env) (junk : NextCommand) (s s' : Stepper) (acc : List Cmd) (hi : s.hw.q.IdxOK a)
    (h : s.fillQueue a env junk = some (s', acc)) : s'.hw.q.queueEntries ≤ s.hw.q.queueEntries + acc.length := by
  rcases fillQueue_cases a env junk s s' acc h with ⟨-, h2, h3⟩ | ⟨-, -, f0, f, x, e1, -, -, -, -, e4, hl, hacc, hs'⟩
  · rw [h2]; omega
  · have h0 : f0.s.hw.q.IdxOK a ∧ f0.s.hw.q.queueEntries ≤ s.hw.q.queueEntries + f0.accepted.length := by
      rw [e1, e4]; exact ⟨hi, Nat.le_refl _⟩
    have h1 := Stepper.Fill.loop_induct a env (fun g => g.s.hw.q.IdxOK a ∧ g.s.hw.q.queueEntries ≤ s.hw.q.queueEntries + g.accepted.length)
      (fun i g g' b _ hp hb => by
        have := Fill.body_count a env i g g' b hp.1 hb
        exact ⟨this.1, by have := this.2; have := hp.2; omega⟩) _ _ _ _ _ h0 hl
    rw [hs', hacc]
    split
    · rw [startQueue_entries]; exact h1.2
    · exact h1.2

/-- The commands of a move. -/
theorem MoveInv.fill_commands {a : ArchId} {L R : Nat} {p : Int} {M : Nat} {D : Nat} (hmin : a.minCmdTicks ≤ L) (hL : L ≤ 32768) (hDL : D ≤ L)
    {env : Env} {junk : NextCommand} {s s' : Stepper} {acc : List Cmd}
    (hi : MoveInv a L R p M s) (hen : s.autoEnable = false ∨ s.onDelayTicks = 0) (hpin : pinIsExternal s.dirPin = false)
    (hd : s.dirChangeDelayTicks = 0 ∨ D ≤ s.dirChangeDelayTicks) (hd2 : s.dirChangeDelayTicks < 65536)
    (hj : junk.rw.performedRampUpSteps < 4294967296) (h : s.fillQueue a env junk = some (s', acc)) :
    ∀ c ∈ acc, c.Valid ∧ D ≤ c.ticks := by
  rcases fillQueue_cases a env junk s s' acc h with ⟨-, -, h3⟩ | ⟨-, hv, f0, f, x, e1, e2, e3, -, -, e4, hl, hacc, -⟩
  · rw [h3]; intro c hc; cases hc
  · have h0 : IterState a L R p M s f0 ∧ ∀ c ∈ f0.accepted, c.Valid ∧ D ≤ c.ticks := by
      have h2 := hi.iter junk hj (.undelayed hen)
      refine ⟨⟨⟨?_, ?_, ?_, by rw [e2]; exact hj⟩, ?_, ?_, ?_⟩, by rw [e4]; intro c hc; cases hc⟩
      · rw [e1]; exact h2.cycle.arrives
      · rw [e1]
      · rw [e1]; exact h2.cycle.pos
      · rw [e1]; exact h2.steady
      · rw [e1]; exact h2.same
      · unfold FillPower; rw [e1, e3]; exact h2.power
    rw [hacc]
    refine (Stepper.Fill.loop_induct a env (fun g => IterState a L R p M s g ∧ ∀ c ∈ g.accepted, c.Valid ∧ D ≤ c.ticks) ?_ _ _ _ _ _ h0 hl).2
    intro i f f' b hc ⟨i1, i5⟩ hb
    refine ⟨IterState.body hmin hL hi env i i1 hc hb, ?_⟩
    obtain ⟨rg, cmd, hg, hcmd, hcase⟩ := Stepper.Fill.body_cases a env i f f' b hb
    obtain ⟨⟨q1, -⟩, -⟩ := IterState.next hmin hL hi env i i1 hc hg
    have hwf := C34_well_formed a f.s.rg rg f.s.hw.q.qend f.cmd cmd i1.steady.range hg
    rcases hcase with ⟨ht, r, hr, hacc, -⟩ | ⟨-, -, -, hacc, -⟩
    · intro c hc
      rw [hacc, List.mem_append] at hc
      rcases hc with hc | hc
      · exact i5 c hc
      · rw [hr] at hc
        rcases addQueueEntry_mem a _ _ _ { f.s with rg := rg } _ _ (show pinIsExternal f.s.dirPin = false by
            unfold Stepper.dirPin at hpin ⊢
            rw [i1.same.pin]; exact hpin) (show f.s.autoEnable = false ∨ f.s.onDelayTicks = 0 by rw [i1.same.auto, i1.same.on]; exact hen) c hc with h6 | ⟨h6, h7⟩
        · rw [h6]
          have h8 := q1 ht
          exact ⟨⟨by omega, by omega⟩, by omega⟩
        · rw [h6]
          change f.s.dirChangeDelayTicks ≠ 0 at h7
          have h8 : f.s.dirChangeDelayTicks = s.dirChangeDelayTicks := i1.same.delay
          refine ⟨⟨?_, by change (0 : Nat) < 256; decide⟩, ?_⟩
          · change f.s.dirChangeDelayTicks < 65536; omega
          · change D ≤ f.s.dirChangeDelayTicks; omega
    · rw [hacc]; exact i5

end FAS
