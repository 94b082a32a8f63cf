import Verif.Lemmas.Queue

/-! Helper lemmas about the observers of the queue. -/

namespace FAS

theorem signed_le (c : Cmd) (hc : c.Valid) : -255 ≤ c.signed ∧ c.signed ≤ 255 := by
  have := hc.2
  unfold Cmd.signed
  split <;> omega

theorem signedSum_le : ∀ (cs : List Cmd), (∀ c ∈ cs, c.Valid) →
    -(255 * (cs.length : Int)) ≤ signedSum cs ∧ signedSum cs ≤ 255 * (cs.length : Int)
  | [], _ => by simp [signedSum]
  | c :: cs, h => by
    have h1 := signed_le c (h c (by simp))
    have h2 := signedSum_le cs (fun d hd => h d (by simp [hd]))
    simp only [signedSum, List.length_cons]
    omega

theorem Rel.valid {a : ArchId} : ∀ {es : List Entry} {cs : List Cmd} {B d}, Rel a B d es cs → ∀ c ∈ cs, c.Valid
  | [], [], _, _, _ => by simp
  | _ :: es, c :: cs, _, _, h => by
    intro d hd
    rcases List.mem_cons.mp hd with h' | h'
    · rw [h']; exact h.1.valid
    · exact Rel.valid h.2 d h'
  | [], _ :: _, _, _, h => h.elim
  | _ :: _, [], _, _, h => h.elim

/-- The reconstruction of a 32 bit position `X` from the 16 low bits of `X` and a position `P` nearby. -/
theorem reconstruct (P X : Int) (e16 pos : Nat) (hd1 : X - P ≤ 8160) (hd2 : P - X ≤ 8160)
    (he : (e16 : Int) = X % 65536) (hp : (pos : Int) = P % 4294967296) (k : Int) :
    let t := pos % 65536 / 4096 % 16 / 4 * 4 + e16 / 16384
    let pos1 :=
      if t = 1 ∨ t = 6 ∨ t = 11 ∨ t = 12 then u32 (pos + 0x4000)
      else if t = 4 ∨ t = 9 ∨ t = 14 ∨ t = 3 then subU32 pos 0x4000
      else pos
    i32 (((pos1 / 65536 * 65536 + e16 : Nat) : Int) + k) = i32 (X + k) := by
  intro t pos1
  rw [i32_eq_iff]
  have ht : t = pos % 65536 / 16384 * 4 + e16 / 16384 := by
    simp only [t]; omega
  clear_value t
  have hA : pos % 65536 / 16384 < 4 := by omega
  have hB : e16 / 16384 < 4 := by omega
  generalize hA' : pos % 65536 / 16384 = A at *
  generalize hB' : e16 / 16384 = B at *
  simp only [pos1]
  clear pos1
  subst ht
  have hpos : pos < 4294967296 := by omega
  -- the block difference
  obtain ⟨b, hb⟩ : ∃ b : Int, b = X / 16384 := ⟨_, rfl⟩
  obtain ⟨p, hpp⟩ : ∃ p : Int, p = P / 16384 := ⟨_, rfl⟩
  have hbp : b = p ∨ b = p + 1 ∨ b = p - 1 := by omega
  have hbm : b % 4 = B := by omega
  have hpm : p % 4 = A := by omega
  have hAc : A = 0 ∨ A = 1 ∨ A = 2 ∨ A = 3 := by omega
  have hX : X = b * 16384 + X % 16384 := by omega
  rcases hbp with h | h | h
  · have hAB : A = B := by omega
    rw [if_neg (by omega), if_neg (by omega)]
    omega
  · have hAB : (B : Nat) = (A + 1) % 4 := by omega
    rw [if_pos (by omega)]
    unfold u32
    omega
  · have hAB : (B : Nat) = (A + 3) % 4 := by omega
    rw [if_neg (by omega), if_pos (by omega)]
    unfold subU32
    omega

theorem Sim.currentPosition {a h s} (hs : Sim a h s) : h.q.getCurrentPosition a h.doneP = i32 s.pos := by
  unfold Queue.getCurrentPosition
  have hU : (toU32 h.q.qend.pos : Int) = (s.pos + s.todo) % 4294967296 := by
    rw [hs.pos]; unfold toU32 i32; omega
  have hlen := hs.length
  by_cases he : h.q.queueEntries = 0
  · have hn : s.pend = [] := by
      rw [← List.length_eq_zero_iff, ← hs.length, he]
    simp only [(Queue.empty_iff a h.q hs.idx).mpr he, if_true]
    rw [hU]
    simp only [QSpec.todo, hn, Int.add_zero]
    unfold i32; omega
  have hne : ¬ h.q.readIdx = h.q.nextWriteIdx := fun hh => he ((Queue.empty_iff a h.q hs.idx).mp hh)
  simp only [hne, if_false]
  obtain ⟨hcons, hidx, hn⟩ := Queue.pending_cons a h.q hs.idx he
  have hrel := hs.rel
  have hv := hrel.valid
  have hql := a.queueLen_cases
  have hle := hs.idx.2.2
  cases hp : s.pend with
  | nil => rw [← List.length_eq_zero_iff, ← hs.length] at hp; exact absurd hp he
  | cons c cs =>
  have htodo := Rel.todo (a := a) (es := h.q.pending a) hp hrel
  have hvc := hv c (by simp [hp])
  have hvcs := signedSum_le cs (fun d hd => hv d (by simp [hp, hd]))
  have hsc := signed_le c hvc
  have hlcs : cs.length + 1 ≤ 32 := by
    rw [hp, List.length_cons] at hlen; omega
  rw [hp, hcons] at hrel
  obtain ⟨hent, -⟩ := hrel
  have hpos16 := hent.pos16
  have hsteps := hent.steps
  have hcu := hent.countUp
  have hd := hs.doneP
  rw [htodo, hp] at hpos16
  rw [htodo, hp] at hU
  simp only [signedSum] at hpos16 hU
  have hdn := hent.dn
  generalize hE : h.q.slot a h.q.readIdx = e at *
  generalize hD : (if c.countUp = true then (s.done : Int) else -(s.done : Int)) = D at *
  -- the reference position and the correction
  let X : Int := if a.startPosField then s.pos - D else s.pos - D + c.signed
  have hXdef : X = if a.startPosField then s.pos - D else s.pos - D + c.signed := rfl
  clear_value X
  have he16 : (e.pos16 : Int) = X % 65536 := by
    rw [hpos16, hXdef]
    split
    · congr 1; omega
    · congr 1; omega
  have hrec := fun k => reconstruct (s.pos + (c.signed + signedSum cs - D)) X e.pos16 (toU32 h.q.qend.pos)
    (by rw [hXdef]; split <;> omega) (by rw [hXdef]; split <;> omega) he16 hU k
  simp only at hrec
  have hcsg : c.signed = if c.countUp = true then (c.steps : Int) else -(c.steps : Int) := rfl
  by_cases hs0 : e.steps = 0
  · rw [if_neg (by simp [hs0])]
    have := hrec 0
    simp only [Int.add_zero] at this
    rw [this, hXdef]
    have : c.steps = 0 := by
      rw [hs0] at hsteps
      revert hsteps; split <;> intro hsteps <;> omega
    have hd0 : s.done = 0 := by omega
    have : D = 0 := by rw [← hD]; split <;> omega
    have : c.signed = 0 := by rw [hcsg]; split <;> omega
    have hx : (if a.startPosField = true then s.pos - D else s.pos - D + c.signed) = s.pos := by split <;> omega
    rw [hx]
  · rw [if_pos (by simpa using hs0)]
    refine (hrec _).trans ?_
    rw [hXdef]
    congr 1
    rw [hcu]
    cases hst : a.startPosField <;> simp only [hst] at hsteps hd <;> simp only [Bool.false_eq_true, if_false, if_true] at hsteps hd ⊢ <;>
      cases hup : c.countUp <;> simp only [hup, Bool.false_eq_true, if_false, if_true] at hcsg hD ⊢ <;> omega

/-! ### ticksInQueue / hasTicksInQueue -/

theorem ticksLoop_complete (a : ArchId) (q : Queue) : ∀ n rp t,
    Queue.ticksLoop a q.complete n rp t = Queue.ticksLoop a q n rp t
  | 0, _, _ => rfl
  | n + 1, rp, t => by
    have ih := ticksLoop_complete a q n
    simp only [Queue.ticksLoop, ih]
    rfl

theorem hasTicksLoop_complete (a : ArchId) (q : Queue) : ∀ n rp t,
    Queue.hasTicksLoop a q.complete n rp t = Queue.hasTicksLoop a q n rp t
  | 0, _, _ => rfl
  | n + 1, rp, t => by
    have ih := hasTicksLoop_complete a q n
    simp only [Queue.hasTicksLoop, ih]
    rfl

theorem duration_le (c : Cmd) (hc : c.Valid) : c.duration ≤ 65535 * 255 := by
  obtain ⟨h1, h2⟩ := hc
  exact Nat.mul_le_mul (by omega) (by omega)

theorem durationSum_le : ∀ (cs : List Cmd), (∀ c ∈ cs, c.Valid) → durationSum cs ≤ 65535 * 255 * cs.length
  | [], _ => by simp [durationSum]
  | c :: cs, h => by
    have h1 := duration_le c (h c (by simp))
    have h2 := durationSum_le cs (fun d hd => h d (by simp [hd]))
    simp only [durationSum, List.length_cons]
    omega

/-- entries which were not touched yet -/
theorem Rel.fresh {a : ArchId} {B : Int} {e : Entry} {c : Cmd} (h : EntryOK a B 0 e c) :
    e.ticks = c.ticks ∧ e.steps = c.steps := by
  refine ⟨h.ticks, ?_⟩
  rw [h.steps]; split <;> simp

theorem ticksLoop_eq (a : ArchId) : ∀ (n : Nat) (q : Queue) (B : Int) (cs : List Cmd) (t : Nat), q.IdxOK a →
    Rel a B 0 (q.pending a) cs → cs.length < n → t + durationSum cs < 4294967296 →
    Queue.ticksLoop a q n q.readIdx t = t + durationSum cs
  | 0, _, _, _, _, _, _, h, _ => by omega
  | n + 1, q, B, cs, t, hi, hr, hl, ht => by
    have hlen := hr.length
    rw [Queue.pending_length] at hlen
    unfold Queue.ticksLoop
    by_cases he : q.queueEntries = 0
    · have hn : cs = [] := by rw [← List.length_eq_zero_iff]; omega
      rw [if_pos ((Queue.empty_iff a q hi).mpr he).symm, hn]
      rfl
    rw [if_neg (fun hh => he ((Queue.empty_iff a q hi).mp hh.symm))]
    obtain ⟨hcons, hidx, hn⟩ := Queue.pending_cons a q hi he
    cases cs with
    | nil => simp at hlen; exact absurd hlen he
    | cons c cs =>
    rw [hcons] at hr
    obtain ⟨hent, htail⟩ := hr
    obtain ⟨h1, h2⟩ := Rel.fresh hent
    have hv := hent.valid
    simp only [durationSum] at ht ⊢
    have ih := fun t ht => ticksLoop_eq a n q.complete (B + c.signed) cs t hidx htail (by simp at hl; omega) ht
    simp only [ticksLoop_complete] at ih
    simp only [h1, h2]
    have hdur : c.duration = if c.steps > 1 then c.ticks + c.ticks * (c.steps - 1) else c.ticks := by
      unfold Cmd.duration
      split
      · rw [Nat.max_eq_right (by omega)]
        obtain ⟨k, hk⟩ : ∃ k, c.steps = k + 1 := ⟨c.steps - 1, by omega⟩
        rw [hk]; simp only [Nat.add_sub_cancel]; rw [Nat.mul_succ]; omega
      · rw [Nat.max_eq_left (by omega)]; omega
    have : u8 (q.readIdx + 1) = q.complete.readIdx := rfl
    rw [this]
    have harg : (if c.steps > 1 then u32 (u32 (t + c.ticks) + u32 (c.ticks * (c.steps - 1))) else u32 (t + c.ticks)) =
        t + c.duration := by
      rw [hdur] at ht ⊢
      unfold u32
      split at ht <;> rename_i hgt <;> simp only [hgt, if_true, if_false] <;> omega
    rw [harg, ih (t + c.duration) (by omega)]
    omega

theorem hasTicksLoop_eq (a : ArchId) : ∀ (n : Nat) (q : Queue) (B : Int) (cs : List Cmd) (m : Nat), q.IdxOK a →
    Rel a B 0 (q.pending a) cs → cs.length < n →
    (Queue.hasTicksLoop a q n q.readIdx m = true ↔ cs ≠ [] ∧ m ≤ durationSum cs)
  | 0, _, _, _, _, _, _, h => by omega
  | n + 1, q, B, cs, m, hi, hr, hl => by
    have hlen := hr.length
    rw [Queue.pending_length] at hlen
    unfold Queue.hasTicksLoop
    by_cases he : q.queueEntries = 0
    · have hn : cs = [] := by rw [← List.length_eq_zero_iff]; omega
      rw [if_pos ((Queue.empty_iff a q hi).mpr he).symm, hn]
      simp
    rw [if_neg (fun hh => he ((Queue.empty_iff a q hi).mp hh.symm))]
    obtain ⟨hcons, hidx, hn⟩ := Queue.pending_cons a q hi he
    cases cs with
    | nil => simp at hlen; exact absurd hlen he
    | cons c cs =>
    rw [hcons] at hr
    obtain ⟨hent, htail⟩ := hr
    obtain ⟨h1, h2⟩ := Rel.fresh hent
    have hv := hent.valid
    have hdle := duration_le c hv
    have ih := fun m => hasTicksLoop_eq a n q.complete (B + c.signed) cs m hidx htail (by simp at hl; omega)
    simp only [hasTicksLoop_complete] at ih
    have hdur : u32 (c.ticks * max c.steps 1) = c.duration := by
      unfold u32
      rw [show c.ticks * max c.steps 1 = c.duration by unfold Cmd.duration; rw [Nat.max_comm]]
      omega
    simp only [h1, h2, hdur, durationSum]
    have : u8 (q.readIdx + 1) = q.complete.readIdx := rfl
    rw [this]
    by_cases hge : c.duration ≥ m
    · rw [if_pos hge]
      simp; omega
    · rw [if_neg hge, ih (m - c.duration)]
      constructor
      · rintro ⟨_, h⟩; exact ⟨by simp, by omega⟩
      · rintro ⟨_, h⟩
        refine ⟨?_, by omega⟩
        intro hh
        rw [hh] at h
        simp only [durationSum] at h
        omega

theorem Sim.tail {a h s} (hs : Sim a h s) (he : s.pend ≠ []) :
    h.q.complete.IdxOK a ∧ ∃ B, Rel a B 0 (h.q.complete.pending a) s.pend.tail := by
  have he' : h.q.queueEntries ≠ 0 := by
    rw [hs.length]; intro hh; exact he (List.length_eq_zero_iff.mp hh)
  obtain ⟨hcons, hidx, hn⟩ := Queue.pending_cons a h.q hs.idx he'
  have hrel := hs.rel
  rw [hcons] at hrel
  cases hp : s.pend with
  | nil => exact absurd hp he
  | cons c cs =>
  rw [hp] at hrel
  exact ⟨hidx, _, hrel.2⟩

theorem Sim.emptyIdx {a h s} (hs : Sim a h s) : h.q.nextWriteIdx = h.q.readIdx ↔ s.pend = [] := by
  rw [eq_comm, Queue.empty_iff a h.q hs.idx, hs.length, List.length_eq_zero_iff]

theorem Sim.ticksInQueue {a h s} (hs : Sim a h s) : h.q.ticksInQueue a = durationSum s.pend.tail := by
  unfold Queue.ticksInQueue
  by_cases he : s.pend = []
  · rw [if_pos (hs.emptyIdx.mpr he), he]; rfl
  rw [if_neg (fun hh => he (hs.emptyIdx.mp hh))]
  obtain ⟨hi, B, hr⟩ := hs.tail he
  have hv := hr.valid
  have hle := hs.idx.2.2
  have hlen := hs.length
  have hql := a.queueLen_cases
  have htl : s.pend.tail.length ≤ 31 := by
    rw [List.length_tail]; omega
  have hd := durationSum_le _ hv
  have := ticksLoop_eq a 256 h.q.complete B s.pend.tail 0 hi hr (by omega) (by
    have : 65535 * 255 * s.pend.tail.length ≤ 65535 * 255 * 31 := Nat.mul_le_mul_left _ htl
    omega)
  rw [ticksLoop_complete, Nat.zero_add] at this
  exact this

theorem Sim.hasTicksInQueue {a h s} (hs : Sim a h s) (m : Nat) :
    h.q.hasTicksInQueue a m = true ↔ 2 ≤ s.pend.length ∧ m ≤ durationSum s.pend.tail := by
  unfold Queue.hasTicksInQueue
  by_cases he : s.pend = []
  · rw [if_pos (hs.emptyIdx.mpr he), he]; simp
  rw [if_neg (fun hh => he (hs.emptyIdx.mp hh))]
  obtain ⟨hi, B, hr⟩ := hs.tail he
  have hle := hs.idx.2.2
  have hlen := hs.length
  have hql := a.queueLen_cases
  have := hasTicksLoop_eq a 256 h.q.complete B s.pend.tail m hi hr (by rw [List.length_tail]; omega)
  rw [hasTicksLoop_complete] at this
  have hx : u8 (h.q.readIdx + 1) = h.q.complete.readIdx := rfl
  rw [hx, this]
  constructor
  · rintro ⟨h1, h2⟩
    refine ⟨?_, h2⟩
    cases hp : s.pend with
    | nil => exact absurd hp he
    | cons c cs =>
      rw [hp] at h1
      cases cs with
      | nil => simp at h1
      | cons => simp
  · rintro ⟨h1, h2⟩
    refine ⟨?_, h2⟩
    intro hh
    have : s.pend.tail.length = 0 := by rw [hh]; rfl
    rw [List.length_tail] at this
    omega

theorem Sim.readOut {a h s} (hs : Sim a h s) : h.readOut a = s.remaining := by
  unfold Hw.readOut QSpec.remaining
  by_cases he : h.q.queueEntries = 0
  · have hn : s.pend = [] := by
      rw [← List.length_eq_zero_iff, ← hs.length, he]
    simp [he, hn]
  obtain ⟨hcons, hidx, hn⟩ := Queue.pending_cons a h.q hs.idx he
  have hrel := hs.rel
  cases hp : s.pend with
  | nil => rw [← List.length_eq_zero_iff, ← hs.length] at hp; exact absurd hp he
  | cons c cs =>
  rw [hp, hcons] at hrel
  obtain ⟨hent, htail⟩ := hrel
  have hd := hs.doneP
  rw [← hn, List.range_succ_eq_map, List.map_cons, List.map_map]
  congr 1
  · have hx : h.q.entry ((h.q.readIdx + 0) % 256 % a.queueLen) = h.q.slot a h.q.readIdx := by
      unfold Queue.slot
      congr 2
      have := hs.idx.1
      omega
    simp only [hx, hent.ticks, hent.countUp, hent.steps, hd, if_true]
    congr 1
    split <;> omega
  · have key : ∀ (es : List Entry) (cs : List Cmd) B, Rel a B 0 es cs →
        es.map (fun e => ({ ticks := e.ticks, steps := e.steps, countUp := e.countUp } : Cmd)) = cs := by
      intro es
      induction es with
      | nil => intro cs B hr; cases cs with
        | nil => rfl
        | cons => exact hr.elim
      | cons e es ih => intro cs B hr; cases cs with
        | nil => exact hr.elim
        | cons c cs =>
          obtain ⟨h1, h2⟩ := Rel.fresh hr.1
          simp only [List.map_cons, h1, h2, hr.1.countUp, ih cs _ hr.2]
    rw [← key _ _ _ htail]
    unfold Queue.pending
    rw [List.map_map]
    apply List.map_congr_left
    intro k _
    simp only [Function.comp, Queue.slot, Queue.complete, u8]
    have : (h.q.readIdx + (k + 1)) % 256 = ((h.q.readIdx + 1) % 256 + k) % 256 := by omega
    simp only [Nat.succ_eq_add_one, this, Nat.succ_ne_zero, if_false]

theorem Sim.actual {a h s} (hs : Sim a h s) :
    h.q.getActualTicksWithDirection a =
      match s.pend with
      | [] => ⟨true, some 0, none⟩
      | c :: cs =>
        if c.steps = 0 then ⟨false, none, none⟩
        else ⟨decide (1 < c.steps) || (match cs with | [] => false | d :: _ => decide (0 < d.steps)),
              some c.ticks, some c.countUp⟩ := by
  unfold Queue.getActualTicksWithDirection
  by_cases he : s.pend = []
  · rw [if_pos (hs.emptyIdx.mpr he), he]
  rw [if_neg (fun hh => he (hs.emptyIdx.mp hh))]
  have he' : h.q.queueEntries ≠ 0 := by
    rw [hs.length]; intro hh; exact he (List.length_eq_zero_iff.mp hh)
  obtain ⟨hcons, hidx, hn⟩ := Queue.pending_cons a h.q hs.idx he'
  have hrel := hs.rel
  cases hp : s.pend with
  | nil => exact absurd hp he
  | cons c cs =>
  rw [hp, hcons] at hrel
  obtain ⟨hent, htail⟩ := hrel
  simp only [hent.has, hent.more, hent.ticks, hent.countUp]
  by_cases h0 : c.steps = 0
  · simp [h0]
  rw [if_pos (by simpa using Nat.pos_of_ne_zero h0), if_neg h0]
  by_cases h1 : c.steps > 1
  · simp [h1]
  rw [if_neg (by simpa using h1)]
  have hd1 : decide (1 < c.steps) = false := by simpa using h1
  rw [hd1, Bool.false_or]
  have hx : u8 (h.q.readIdx + 1) = h.q.complete.readIdx := rfl
  have hw : h.q.nextWriteIdx = h.q.complete.nextWriteIdx := rfl
  rw [hx, hw]
  by_cases hemp : h.q.complete.queueEntries = 0
  · rw [if_neg (by simpa using ((Queue.empty_iff a _ hidx).mpr hemp).symm)]
    have : cs = [] := by
      have := htail.length
      rw [Queue.pending_length] at this
      rw [← List.length_eq_zero_iff]; omega
    rw [this]
  · rw [if_pos (fun hh => hemp ((Queue.empty_iff a _ hidx).mp hh.symm))]
    obtain ⟨hcons2, hidx2, hn2⟩ := Queue.pending_cons a h.q.complete hidx hemp
    cases cs with
    | nil => rw [hcons2] at htail; exact htail.elim
    | cons d ds =>
    rw [hcons2] at htail
    have := htail.1.has
    have hsl : h.q.slot a h.q.complete.readIdx = h.q.complete.slot a h.q.complete.readIdx := rfl
    rw [hsl, this]

end FAS
