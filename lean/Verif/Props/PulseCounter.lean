import Verif.Spec.PulseCounter
import Verif.Props.Mcpwm
import Verif.Props.Rmt

/-!
# The free pulse counter: C78
-/

namespace FAS

/-- Both configurations count forward pulses up and backward pulses down. -/
theorem PulseUnit.edge_step (pin : Nat) (hcu : Bool) (hpin : pin ≠ pinUndefined) (low high c : Int) (l : Bool) :
    ({ PulseUnit.config pin hcu low high with cnt := c } : PulseUnit).edge l =
      { PulseUnit.config pin hcu low high with
        cnt := if c + (if l = hcu then 1 else -1) = high ∨ c + (if l = hcu then 1 else -1) = low then 0 else i16 (c + (if l = hcu then 1 else -1)) } := by
  unfold PulseUnit.config PulseUnit.edge
  rw [if_neg hpin]
  cases hcu <;> cases l <;> rfl

/-- The counter with the limits -N and N. -/
theorem PulseUnit.edges_mod (pin : Nat) (hcu : Bool) (hpin : pin ≠ pinUndefined) (N : Nat) (hN : 0 < N) (hN2 : N ≤ 32767) (ls : List Bool) :
    ∀ c : Int, -(N : Int) < c → c < N → ∃ c', ({ PulseUnit.config pin hcu (-N) N with cnt := c } : PulseUnit).edges ls = { PulseUnit.config pin hcu (-N) N with cnt := c' } ∧
      -(N : Int) < c' ∧ c' < N ∧ (c' - (c + netPulses hcu ls)) % N = 0 := by
  induction ls with
  | nil => intro c h1 h2; exact ⟨c, rfl, h1, h2, by simp [netPulses]⟩
  | cons l ls ih =>
    intro c h1 h2
    unfold PulseUnit.edges
    rw [PulseUnit.edge_step pin hcu hpin]
    have hs : (if l = hcu then (1 : Int) else -1) = 1 ∨ (if l = hcu then (1 : Int) else -1) = -1 := by split <;> simp
    unfold netPulses
    generalize (if l = hcu then (1 : Int) else -1) = x at hs ⊢
    by_cases hl : c + x = N ∨ c + x = -N
    · rw [if_pos hl]
      obtain ⟨c', e1, e2, e3, e4⟩ := ih 0 (by omega) (by omega)
      refine ⟨c', e1, e2, e3, ?_⟩
      rcases hl with hl | hl
      · rw [show c' - (c + (x + netPulses hcu ls)) = (c' - (0 + netPulses hcu ls)) - N by omega, Int.sub_emod, e4]; simp
      · rw [show c' - (c + (x + netPulses hcu ls)) = (c' - (0 + netPulses hcu ls)) + N by omega, Int.add_emod, e4]; simp
    · rw [if_neg hl]
      have hi : i16 (c + x) = c + x := by unfold i16; omega
      rw [hi]
      obtain ⟨c', e1, e2, e3, e4⟩ := ih (c + x) (by omega) (by omega)
      exact ⟨c', e1, e2, e3, by rw [← e4]; congr 1; omega⟩

/-- The counter with the limits 0. -/
theorem PulseUnit.edges_free (pin : Nat) (hcu : Bool) (hpin : pin ≠ pinUndefined) (ls : List Bool) :
    ∀ c : Int, ({ PulseUnit.config pin hcu 0 0 with cnt := i16 c } : PulseUnit).edges ls = { PulseUnit.config pin hcu 0 0 with cnt := i16 (c + netPulses hcu ls) } := by
  induction ls with
  | nil => intro c; simp [PulseUnit.edges, netPulses]
  | cons l ls ih =>
    intro c
    unfold PulseUnit.edges
    rw [PulseUnit.edge_step pin hcu hpin]
    have hs : (if l = hcu then (1 : Int) else -1) = 1 ∨ (if l = hcu then (1 : Int) else -1) = -1 := by split <;> simp
    unfold netPulses
    generalize (if l = hcu then (1 : Int) else -1) = x at hs ⊢
    have : (if i16 c + x = 0 ∨ i16 c + x = 0 then (0 : Int) else i16 (i16 c + x)) = i16 (c + x) := by
      split
      · unfold i16 at *; omega
      · unfold i16; omega
    rw [this, ih, Int.add_assoc]

/-- C78, the counter alone: after a successful `attachToPulseCounter()` (or a later `clearPulseCounter()`), for any pulses with any levels of the direction pin: with the limits -N and N the angle derived
from the value read is the signed number of pulses modulo N, and the value is between the limits; with the limits 0 the value is the signed number of pulses, as an `int16_t`. -/
theorem C78_counts (p0 p : PulseCounter) (pin : Nat) (hcu : Bool) (hpin : pin ≠ pinUndefined) (low high : Int) (ls0 ls : List Bool)
    (h : (∃ units unit, p0.attachIdf4 units pin hcu unit low high = (p, true)) ∨ (∃ ok, p0.attachIdf5 pin hcu low high ok = (p, true))) :
    p.attached = true ∧ p.read = 0 ∧
    (∀ N : Nat, 0 < N → N ≤ 32767 → low = -N → high = N →
      angle N (p.pulses ls).read = netPulses hcu ls % N ∧ -(N : Int) < (p.pulses ls).read ∧ (p.pulses ls).read < N ∧
      angle N ((p.pulses ls0).clear.pulses ls).read = netPulses hcu ls % N) ∧
    (low = 0 → high = 0 → (p.pulses ls).read = i16 (netPulses hcu ls) ∧ ((p.pulses ls0).clear.pulses ls).read = i16 (netPulses hcu ls)) := by
  have hp : p = some (PulseUnit.config pin hcu low high) := by
    rcases h with ⟨units, unit, h⟩ | ⟨ok, h⟩
    · unfold PulseCounter.attachIdf4 at h
      split at h
      · cases h
      · cases h; rfl
    · unfold PulseCounter.attachIdf5 at h
      split at h
      · cases h; rfl
      · cases h
  have h0 : ({ PulseUnit.config pin hcu low high with cnt := 0 } : PulseUnit) = PulseUnit.config pin hcu low high := by
    unfold PulseUnit.config
    repeat' split
    all_goals rfl
  have hz : (PulseUnit.config pin hcu low high).cnt = 0 := by rw [← h0]
  subst hp
  refine ⟨rfl, ?_, ?_, ?_⟩
  · change i16 (PulseUnit.config pin hcu low high).cnt = 0
    rw [hz]; decide
  · intro N h1 h2 rfl rfl
    obtain ⟨c', e1, e2, e3, e4⟩ := PulseUnit.edges_mod pin hcu hpin N h1 h2 ls 0 (by omega) (by omega)
    obtain ⟨c0, f1, -, -, -⟩ := PulseUnit.edges_mod pin hcu hpin N h1 h2 ls0 0 (by omega) (by omega)
    rw [h0] at e1 f1
    have hr : (PulseCounter.pulses (some (PulseUnit.config pin hcu (-N) N)) ls).read = c' := by
      change i16 ((PulseUnit.config pin hcu (-N) N).edges ls).cnt = c'
      rw [e1]
      change i16 c' = c'
      unfold i16; omega
    have hr2 : ((PulseCounter.pulses (some (PulseUnit.config pin hcu (-N) N)) ls0).clear.pulses ls).read = c' := by
      change i16 (({ (PulseUnit.config pin hcu (-N) N).edges ls0 with cnt := 0 } : PulseUnit).edges ls).cnt = c'
      rw [f1]
      change i16 (({ PulseUnit.config pin hcu (-N) N with cnt := 0 } : PulseUnit).edges ls).cnt = c'
      rw [h0, e1]
      change i16 c' = c'
      unfold i16; omega
    have ha : angle N c' = netPulses hcu ls % N := by
      rw [Int.zero_add] at e4
      have e5 : (c' : Int) % N = netPulses hcu ls % N := Int.emod_eq_emod_iff_emod_sub_eq_zero.mpr e4
      rw [← e5]
      unfold angle
      split
      · rw [← Int.add_emod_right, Int.emod_eq_of_lt (by omega) (by omega)]
      · rw [Int.emod_eq_of_lt (by omega) (by omega)]
    rw [hr, hr2]
    exact ⟨ha, e2, e3, ha⟩
  · intro rfl rfl
    have e := PulseUnit.edges_free pin hcu hpin ls 0
    have f := PulseUnit.edges_free pin hcu hpin ls0 0
    rw [show i16 0 = 0 from rfl, h0, Int.zero_add] at e f
    constructor
    · change i16 ((PulseUnit.config pin hcu 0 0).edges ls).cnt = _
      rw [e]
      change i16 (i16 _) = _
      unfold i16; omega
    · change i16 (({ (PulseUnit.config pin hcu 0 0).edges ls0 with cnt := 0 } : PulseUnit).edges ls).cnt = _
      rw [f]
      change i16 (({ PulseUnit.config pin hcu 0 0 with cnt := 0 } : PulseUnit).edges ls).cnt = _
      rw [h0, e]
      change i16 (i16 _) = _
      unfold i16; omega

/-- A stepper moves 5 forward and 9 backward with the limits -3 and 3: the angle is (5 - 9) mod 3 = 2. -/
example : PulseCounter.attachIdf4 8 none 5 false 7 (-3) 3 = (some (PulseUnit.config 5 false (-3) 3), true) ∧
    angle 3 (PulseCounter.pulses (some (PulseUnit.config 5 false (-3) 3)) (List.replicate 5 false ++ List.replicate 9 true)).read = 2 ∧
    netPulses false (List.replicate 5 false ++ List.replicate 9 true) = -4 := by
  decide

/-- C78: without direction pin every pulse counts up; without a counter attached, or if the attachment fails, nothing changes, and 0 is read. -/
theorem C78_other_cases (p : PulseCounter) (units unit pin : Nat) (hcu : Bool) (low high : Int) (ok : List Bool) :
    (units ≤ unit → p.attachIdf4 units pin hcu unit low high = (p, false)) ∧
    (unit < units → (p.attachIdf4 units pin hcu unit low high).2 = true) ∧
    (false ∈ ok → p.attachIdf5 pin hcu low high ok = (p, false)) ∧
    (∀ ls, (PulseCounter.pulses none ls).read = 0 ∧ (PulseCounter.pulses none ls).attached = false) ∧
    ∀ (u : PulseUnit), PulseUnit.config pinUndefined hcu 0 0 = u → ∀ ls, (PulseCounter.pulses (some u) ls).read = i16 ls.length := by
  refine ⟨fun h => ?_, fun h => ?_, fun h => ?_, fun _ => ⟨rfl, rfl⟩, ?_⟩
  · unfold PulseCounter.attachIdf4; rw [if_pos h]
  · unfold PulseCounter.attachIdf4; rw [if_neg (by omega)]
  · unfold PulseCounter.attachIdf5
    rw [if_neg]
    intro h2
    have := List.all_eq_true.mp h2 false h
    cases this
  · intro u hu ls
    have key : ∀ (ls : List Bool) (c : Int), (({ u with cnt := i16 c } : PulseUnit).edges ls).cnt = i16 (c + ls.length) := by
      intro ls
      induction ls with
      | nil => intro c; simp [PulseUnit.edges]
      | cons l ls ih =>
        intro c
        have hstep : ({ u with cnt := i16 c } : PulseUnit).edge l = { u with cnt := i16 (c + 1) } := by
          subst hu
          unfold PulseUnit.config PulseUnit.edge
          rw [if_pos rfl]
          dsimp only
          simp only [Bool.false_and, Bool.false_eq_true, if_false]
          congr 1
          split
          · unfold i16 at *; omega
          · unfold i16; omega
        unfold PulseUnit.edges
        rw [hstep, ih]
        congr 1
        rw [List.length_cons]
        omega
    have h0 : u = { u with cnt := i16 0 } := by subst hu; rfl
    change i16 (u.edges ls).cnt = _
    rw [h0, key]
    unfold i16; omega

/-! ## With the drivers -/

/-- The levels of the direction pin at the pulses of a list of periods (oldest first). -/
def pulseLevels (log : List Cycle) : List Bool := (log.filter Cycle.pulse).map Cycle.level

theorem net_travel {pin : Nat} {hcu : Bool} (hpin : pin ≠ pinUndefined) (log : List Cycle)
    (h : ∀ c ∈ log, c.pulse = true → ∃ u, c.up = some u ∧ DirOK pin hcu u c.level) : netPulses hcu (pulseLevels log) = travel (log.map Cycle.shape) := by
  induction log with
  | nil => rfl
  | cons c cs ih =>
    have ih := ih (fun x hx => h x (List.mem_cons_of_mem _ hx))
    unfold pulseLevels at ih ⊢
    rw [List.map_cons]
    obtain ⟨t, p, l, up⟩ := c
    unfold travel
    cases hp : p
    · rw [List.filter_cons_of_neg (by simp), ih]
      simp [Cycle.shape]
    · rw [List.filter_cons_of_pos (by simp), List.map_cons]
      unfold netPulses
      rw [ih]
      obtain ⟨u, hu, hd⟩ := h ⟨t, p, l, up⟩ List.mem_cons_self hp
      have hl := hd hpin
      dsimp only at hl hu
      subst hu
      simp only [Cycle.shape, if_true]
      rw [hl]
      cases u <;> cases hcu <;> rfl

theorem mcpwm_apply_log {σ : Type} (hw : PcntHw σ) (s : Mcpwm σ) (e : Entry) : (s.apply hw e).log = s.log := by
  unfold Mcpwm.apply
  dsimp only
  repeat' split
  all_goals rfl

theorem mcpwm_next_log {σ : Type} (hw : PcntHw σ) (s : Mcpwm σ) : (s.whatIsNext hw).log = s.log := by
  unfold Mcpwm.whatIsNext
  dsimp only
  repeat' split
  all_goals first | rfl | exact mcpwm_apply_log hw _ _ | (rw [mcpwm_apply_log])

theorem mcpwm_start_log {σ : Type} (hw : PcntHw σ) (s : Mcpwm σ) : (s.startQueue hw).log = s.log := by
  unfold Mcpwm.startQueue
  dsimp only
  rw [mcpwm_apply_log]

theorem mcpwm_step_log {σ : Type} (hw : PcntHw σ) (s : Mcpwm σ) (ev : Mcpwm.Ev) : ∃ new, (s.step hw ev).log = new ++ s.log := by
  have hsync : ∀ t : Mcpwm σ, t.sync.log = t.log := fun _ => rfl
  unfold Mcpwm.step
  rw [hsync]
  cases ev <;> dsimp only
  case compare =>
    split
    · unfold Mcpwm.compare
      dsimp only
      split <;> exact ⟨[_], rfl⟩
    · exact ⟨[], rfl⟩
  all_goals
    refine ⟨[], ?_⟩
    rw [List.nil_append]
    repeat' split
    all_goals first | rfl | exact mcpwm_next_log hw _ | exact mcpwm_start_log hw _

/-- Periods once output stay in the log. -/
theorem mcpwm_log_mono {σ : Type} (hw : PcntHw σ) (evs : List Mcpwm.Ev) : ∀ (s : Mcpwm σ) (acc : List Cmd), ∃ new, (Mcpwm.track hw s acc evs).1.log = new ++ s.log := by
  induction evs with
  | nil => intro s acc; exact ⟨[], rfl⟩
  | cons ev evs ih =>
    intro s acc
    unfold Mcpwm.track
    obtain ⟨n1, h1⟩ := ih (s.step hw ev) (acc ++ s.accepts ev)
    obtain ⟨n2, h2⟩ := mcpwm_step_log hw s ev
    exact ⟨n1 ++ n2, by rw [h1, h2, List.append_assoc]⟩

theorem mcpwm_track_append {σ : Type} (hw : PcntHw σ) : ∀ (xs ys : List Mcpwm.Ev) (s : Mcpwm σ) (acc : List Cmd),
    Mcpwm.track hw s acc (xs ++ ys) = Mcpwm.track hw (Mcpwm.track hw s acc xs).1 (Mcpwm.track hw s acc xs).2 ys
  | [], _, _, _ => rfl
  | _ :: xs, ys, _, _ => mcpwm_track_append hw xs ys _ _

/-- C78 with the MCPWM/PCNT driver: a pulse counter attached at any time of any schedule counts the steps of the commands output since then, with the sign of the direction of the command. -/
theorem C78_mcpwm_partial (s0 : Mcpwm ShadowPcnt) (h0 : s0.Idle) (evs mid : List Mcpwm.Ev) (hp : Mcpwm.Along shadowPcnt Mcpwm.Basic s0 (evs ++ mid))
    (hpin : s0.q.dirPin ≠ pinUndefined) (p0 p : PulseCounter) (units unit : Nat) (low high : Int)
    (ha : p0.attachIdf4 units s0.q.dirPin s0.q.dirHighCountsUp unit low high = (p, true)) :
    let s := (Mcpwm.track shadowPcnt s0 [] evs).1
    let t := (Mcpwm.track shadowPcnt s0 [] (evs ++ mid)).1
    ∃ new, t.log = new ++ s.log ∧
      (∀ N : Nat, 0 < N → N ≤ 32767 → low = -N → high = N →
        angle N (p.pulses (pulseLevels new.reverse)).read = travel (new.reverse.map Cycle.shape) % N) ∧
      (low = 0 → high = 0 → (p.pulses (pulseLevels new.reverse)).read = i16 (travel (new.reverse.map Cycle.shape))) := by
  intro s t
  obtain ⟨new, hnew⟩ : ∃ new, t.log = new ++ s.log := by
    have : t = (Mcpwm.track shadowPcnt s (Mcpwm.track shadowPcnt s0 [] evs).2 mid).1 := by
      change (Mcpwm.track shadowPcnt s0 [] (evs ++ mid)).1 = _
      rw [mcpwm_track_append]
    rw [this]
    exact mcpwm_log_mono shadowPcnt mid s _
  have hd := C73_direction_partial s0 h0 (evs ++ mid) hp
  have hn : netPulses s0.q.dirHighCountsUp (pulseLevels new.reverse) = travel (new.reverse.map Cycle.shape) := by
    apply net_travel hpin
    intro c hc hpu
    exact hd c (by change c ∈ t.log; rw [hnew]; exact List.mem_append_left _ (List.mem_reverse.mp hc)) hpu
  obtain ⟨-, -, h1, h2⟩ := C78_counts p0 p s0.q.dirPin s0.q.dirHighCountsUp hpin low high [] (pulseLevels new.reverse) (Or.inl ⟨units, unit, ha⟩)
  refine ⟨new, hnew, fun N x1 x2 x3 x4 => ?_, fun x1 x2 => ?_⟩
  · rw [(h1 N x1 x2 x3 x4).1, hn]
  · rw [(h2 x1 x2).1, hn]

/-- A pulse counter attached in the middle: 2 steps forward before, 5 of 7 steps backward since then. -/
example : let s0 := Mcpwm.fresh shadowPcnt mcCnt 5 true
    let evs := mcAdd ⟨1600, 2, true⟩ true ++ Mcpwm.rounds 2
    let mid := mcAdd ⟨1200, 7, false⟩ true ++ Mcpwm.rounds 5
    Mcpwm.Along shadowPcnt Mcpwm.Basic s0 (evs ++ mid) ∧
    ((Mcpwm.track shadowPcnt s0 [] (evs ++ mid)).1.log.take 5).map Cycle.level = List.replicate 5 false ∧
    (PulseCounter.pulses (some (PulseUnit.config 5 true (-3) 3)) (List.replicate 5 false)).read = -2 := by
  decide +kernel

/-- The levels of the direction pin at the pulses of a list of parts (oldest first). -/
def partLevels : List Chunk → List Bool
  | [] => []
  | k :: ks => List.replicate (pulseCount k.segs) k.level ++ partLevels ks

theorem partLevels_append (a b : List Chunk) : partLevels (a ++ b) = partLevels a ++ partLevels b := by
  induction a with
  | nil => rfl
  | cons k ks ih => simp only [List.cons_append, partLevels, ih, List.append_assoc]

theorem netPulses_append (hcu : Bool) (a b : List Bool) : netPulses hcu (a ++ b) = netPulses hcu a + netPulses hcu b := by
  induction a with
  | nil => simp [netPulses]
  | cons k ks ih => simp only [List.cons_append, netPulses, ih]; omega

theorem pulseCount_append (a b : List Seg) : pulseCount (a ++ b) = pulseCount a + pulseCount b := by
  unfold pulseCount; rw [List.filter_append, List.length_append]

theorem pulseCount_silent {w : List Seg} (h : Silent w) : pulseCount w = 0 := by
  unfold pulseCount
  rw [List.length_eq_zero_iff, List.filter_eq_nil_iff]
  intro x hx
  rw [h x hx]; decide

theorem pulseCount_train {lo t n : Nat} {w : List Seg} (h : Train lo t n w) : pulseCount w = n := by
  induction h with
  | nil => rfl
  | @step n rest h low hlow hs h1 h2 ht ih =>
    change pulseCount ([⟨true, h⟩] ++ (low ++ rest)) = _
    rw [pulseCount_append, pulseCount_append, pulseCount_silent hs, ih]
    change 1 + (0 + n) = n + 1
    omega

/-- The pulses of parts all sent with the direction `up`. -/
theorem net_parts {pin : Nat} {hcu up : Bool} (hpin : pin ≠ pinUndefined) (r : List Chunk) (h : ∀ k ∈ r, DirOK pin hcu up k.level) :
    netPulses hcu (partLevels r) = (if up then (pulseCount (segsOf r) : Int) else -(pulseCount (segsOf r) : Int)) := by
  induction r with
  | nil => cases up <;> rfl
  | cons k ks ih =>
    have hk := h k List.mem_cons_self hpin
    have ih := ih (fun x hx => h x (List.mem_cons_of_mem _ hx))
    have hrep : ∀ n, netPulses hcu (List.replicate n k.level) = if up then (n : Int) else -(n : Int) := by
      intro n
      induction n with
      | zero => cases up <;> rfl
      | succ n ihn =>
        rw [List.replicate_succ]
        unfold netPulses
        rw [ihn, hk]
        cases up <;> cases hcu <;> simp <;> omega
    have hseg : segsOf (k :: ks) = k.segs ++ segsOf ks := by simp [segsOf]
    unfold partLevels
    rw [netPulses_append, ih, hrep, hseg, pulseCount_append]
    cases up <;> simp <;> omega

theorem net_plays {pin : Nat} {hcu : Bool} (hpin : pin ≠ pinUndefined) {slack : Nat} {cs : List Cmd} {w : List Chunk}
    (h : Plays slack (DirOK pin hcu) cs w) : netPulses hcu (partLevels w) = signedSum cs := by
  induction h with
  | nil => rfl
  | @pause cs w k h hk hu ih =>
    rw [partLevels_append, netPulses_append, ih]
    unfold partLevels
    rw [pulseCount_silent hk]
    simp [partLevels, netPulses]
  | @cmd cs w c r h hr hd ih =>
    rw [partLevels_append, netPulses_append, ih, net_parts hpin r hd, signedSum_append]
    have hc : pulseCount (segsOf r) = c.steps := by
      have h2 := hr.2
      split at h2
      · rename_i h0; rw [pulseCount_silent h2.1, h0]
      · exact pulseCount_train h2
    rw [hc]
    simp only [signedSum, Cmd.signed]
    cases c.countUp <;> simp

/-- C78 with the RMT drivers, for commands which can be encoded: when the motor has come to standstill (no command in the queue), a pulse counter attached at the start shows the signed number of steps of all commands. -/
theorem C78_rmt_partial (v : RmtVer) (s0 : Rmt) (h0 : s0.Idle) (evs : List Rmt.Ev) (hp : ∀ ev ∈ evs, ev.Plain v)
    (he : Hw.readOut .esp32 ⟨(Rmt.track v s0 [] evs).1.q, 0⟩ = []) (hpin : s0.q.dirPin ≠ pinUndefined)
    (hpos : s0.q.qend.pos = i32 s0.q.qend.pos) (p0 p : PulseCounter) (low high : Int) (ha : (∃ units unit, p0.attachIdf4 units s0.q.dirPin s0.q.dirHighCountsUp unit low high = (p, true)) ∨
      (∃ ok, p0.attachIdf5 s0.q.dirPin s0.q.dirHighCountsUp low high ok = (p, true))) :
    let s := (Rmt.track v s0 [] evs).1
    let acc := (Rmt.track v s0 [] evs).2
    (∀ N : Nat, 0 < N → N ≤ 32767 → low = -N → high = N → angle N (p.pulses (partLevels s.out.reverse)).read = signedSum acc % N) ∧
      (low = 0 → high = 0 → (p.pulses (partLevels s.out.reverse)).read = i16 (signedSum acc)) := by
  intro s acc
  have hpl := (C77_standstill_partial v _ s0 h0 hpos evs hp he).1
  have hn := net_plays hpin hpl
  obtain ⟨-, -, h1, h2⟩ := C78_counts p0 p s0.q.dirPin s0.q.dirHighCountsUp hpin low high [] (partLevels s.out.reverse) ha
  refine ⟨fun N x1 x2 x3 x4 => ?_, fun x1 x2 => ?_⟩
  · rw [(h1 N x1 x2 x3 x4).1, hn]
  · rw [(h2 x1 x2).1, hn]

/-- 5 steps forward and 40 backward on IDF 5. -/
example : let s := Rmt.track .idf5 (Rmt.fresh 5 false) [] (rmtExample ++ [.fill, .fill])
    Hw.readOut .esp32 ⟨s.1.q, 0⟩ = [] ∧ signedSum s.2 = -35 ∧ partLevels s.1.out.reverse = List.replicate 5 false ++ List.replicate 40 true ∧
    PulseCounter.attachIdf5 none 5 false (-10) 10 (List.replicate 8 true) = (some (PulseUnit.config 5 false (-10) 10), true) ∧
    angle 10 (PulseCounter.pulses (some (PulseUnit.config 5 false (-10) 10)) (partLevels s.1.out.reverse)).read = 5 := by
  decide +kernel

/-- Why the direction pin has to be set before: the counter keeps the configuration of the direction pin it found when it was attached. If the pin is set afterwards, steps backward are counted up. -/
theorem C78_attached_before_direction_refuted :
    let p := (PulseCounter.attachIdf4 8 none pinUndefined true 7 (-16384) 16384).1
    let q := (Queue.init .esp32).setDirPin 5 true
    q.dirHighCountsUp = true ∧ netPulses q.dirHighCountsUp (List.replicate 3 false) = -3 ∧ (p.pulses (List.replicate 3 false)).read = 3 := by
  decide

end FAS
