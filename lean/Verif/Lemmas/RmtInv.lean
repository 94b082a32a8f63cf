import Verif.Lemmas.Rmt
import Verif.Lemmas.AvrRun

/-! The invariant of the RMT backends and its preservation by every event. -/

namespace FAS

/-- a queue entry as command -/
def Entry.asCmd (e : Entry) : Cmd := ⟨e.ticks, e.steps, e.countUp⟩

/-- the commands of a list with `k` steps of the first one removed -/
def cutHead (k : Nat) : List Cmd → List Cmd
  | [] => []
  | c :: cs => { c with steps := c.steps - k } :: cs

theorem cutHead_zero (cs : List Cmd) : cutHead 0 cs = cs := by cases cs <;> rfl

theorem cutHead_append (k : Nat) (cs : List Cmd) (c : Cmd) (h : cs = [] → k = 0) : cutHead k (cs ++ [c]) = cutHead k cs ++ [c] := by
  cases cs with
  | nil => rw [h rfl]; rfl
  | cons x xs => rfl

/-- everything about the direction pin in the first phase of addQueueEntry -/
theorem prepare_dir (a : ArchId) (q : Queue) (c : Cmd) (lvl : Bool → Bool)
    (hlv : ∀ u, lvl u = if q.dirPin = pinUndefined then q.dirLevel else (u == q.dirHighCountsUp))
    (hpin : q.dirPin = pinUndefined ∨ pinIsExternal q.dirPin = false) :
    (∀ u, lvl u = if q.dirPin = pinUndefined then (q.prepare a c).1.dirLevel else (u == q.dirHighCountsUp)) ∧
      (q.running = true ∨ q.pending a ≠ [] → (q.prepare a c).1.dirLevel = q.dirLevel ∧ (q.prepare a c).1.lastLvl = q.lastLvl) ∧
      (q.running = false → q.pending a = [] → (q.prepare a c).1.dirLevel = (q.prepare a c).1.lastLvl) ∧
      ((q.prepare a c).1.slot a q.nextWriteIdx).toggleDir = (lvl c.countUp != (q.prepare a c).1.lastLvl) ∧
      (q.dirPin ≠ pinUndefined → (q.prepare a c).2.dir = lvl c.countUp) ∧
      ((q.prepare a c).1.slot a q.nextWriteIdx).repeatEntry = false := by
  obtain ⟨e, pe, pr, pw, prun, pready, pign, ppos, pdp, pdh, pms, pnpos, pncu, es, ecu, em, eh, et, ep⟩ := prepare_spec a q c
  have hemp : q.isQueueEmpty = true ↔ q.pending a = [] := by
    rw [Queue.pending_nil_iff]; simp [Queue.isQueueEmpty]
  by_cases hu : q.dirPin = pinUndefined
  · obtain ⟨d1, d2, d3, d4⟩ := prepare_undef a q c hu
    refine ⟨?_, ?_, ?_, ?_, fun hx => absurd hu hx, d4⟩
    · intro u; rw [hlv u, if_pos hu, if_pos hu, d1]
    · intro _; refine ⟨d1, ?_⟩
      simp only [Queue.lastLvl, pdp, hu, if_true, d1]
    · intro _ _; simp only [Queue.lastLvl, pdp, hu, if_true]
    · rw [d3]
      simp only [Queue.lastLvl, pdp, hu, if_true, d1]
      rw [hlv, if_pos hu]; cases q.dirLevel <;> rfl
  · have hi : pinIsExternal q.dirPin = false := by
      rcases hpin with hx | hx
      · exact absurd hx hu
      · exact hx
    obtain ⟨d1, d2, d3, d4, d5⟩ := prepare_int a q c hu hi
    have hl : (q.prepare a c).1.lastLvl = (q.prepare a c).1.qend.dir := by
      simp only [Queue.lastLvl, pdp]; rw [if_neg hu]
    have hl' : q.lastLvl = q.qend.dir := by simp only [Queue.lastLvl]; rw [if_neg hu]
    have hlc : lvl c.countUp = (c.countUp == q.dirHighCountsUp) := by rw [hlv, if_neg hu]
    refine ⟨?_, ?_, ?_, ?_, fun _ => by rw [d5, hlc], d4⟩
    · intro u; rw [hlv u, if_neg hu, if_neg hu]
    · intro hx
      have : (q.isQueueEmpty && !q.running) = false := by
        rcases hx with hx | hx
        · rw [hx]; simp
        · have : q.isQueueEmpty ≠ true := fun hy => hx (hemp.mp hy)
          simp [this]
      rw [this] at d1 d2
      exact ⟨by simpa using d1, by rw [hl, hl']; simpa using d2⟩
    · intro h1 h2
      rw [hl, d1, d2, hemp.mpr h2, h1]; rfl
    · rw [hl, d3, d2, hlc]
      cases (q.isQueueEmpty && !q.running) <;> simp

/-! ## What has been sent -/

/-- The output is that of the first commands, and of the first steps of the next one; `rem` is the rest. -/
def RPlay (slack : Nat) (D : Bool → Bool → Prop) (lvl : Bool → Bool) (out : List Chunk) (lev : Bool) (rem acc : List Cmd) : Prop :=
  ∃ dn pend k w r, acc = dn ++ pend ∧ out.reverse = w ++ r ∧ Plays slack D dn w ∧ rem = cutHead k pend ∧
    (k = 0 ∧ r = [] ∨
      ∃ c cs, pend = c :: cs ∧ 0 < k ∧ k < c.steps ∧ Train (c.ticks - slack) c.ticks k (segsOf r) ∧ NoEnd (segsOf r) ∧
        (∀ ch ∈ r, D c.countUp ch.level) ∧ lev = lvl c.countUp)

theorem RPlay.level {slack D lvl out lev acc} (h : RPlay slack D lvl out lev [] acc) (lev' : Bool) :
    RPlay slack D lvl out lev' [] acc := by
  obtain ⟨dn, pend, k, w, r, h1, h2, h3, h4, h5⟩ := h
  refine ⟨dn, pend, k, w, r, h1, h2, h3, h4, ?_⟩
  rcases h5 with h5 | ⟨c, cs, h5, h6⟩
  · exact Or.inl h5
  · rw [h5] at h4; cases h4

theorem RPlay.relevel {slack D lvl out lev acc e es} (h : RPlay slack D lvl out lev (e :: es) acc) :
    RPlay slack D lvl out (lvl e.countUp) (e :: es) acc := by
  obtain ⟨dn, pend, k, w, r, h1, h2, h3, h4, h5⟩ := h
  refine ⟨dn, pend, k, w, r, h1, h2, h3, h4, ?_⟩
  rcases h5 with h5 | ⟨c, cs, h5, h6, h7, h8, h9, h10, h11⟩
  · exact Or.inl h5
  · refine Or.inr ⟨c, cs, h5, h6, h7, h8, h9, h10, ?_⟩
    rw [h5] at h4
    have : e = { c with steps := c.steps - k } := by injection h4
    rw [this]

theorem RPlay.accept {slack D lvl out lev rem acc} (h : RPlay slack D lvl out lev rem acc) (c : Cmd) :
    RPlay slack D lvl out lev (rem ++ [c]) (acc ++ [c]) := by
  obtain ⟨dn, pend, k, w, r, h1, h2, h3, h4, h5⟩ := h
  refine ⟨dn, pend ++ [c], k, w, r, by rw [h1, List.append_assoc], h2, h3, ?_, ?_⟩
  · rw [cutHead_append, h4]
    intro hp
    rcases h5 with h5 | ⟨c', cs, h5, h6⟩
    · exact h5.1
    · rw [hp] at h5; cases h5
  · rcases h5 with h5 | ⟨c', cs, h5, h6⟩
    · exact Or.inl h5
    · exact Or.inr ⟨c', cs ++ [c], by rw [h5]; rfl, h6⟩

/-- a pause in between, not within a command -/
theorem RPlay.pause {slack D lvl out lev rem acc} (h : RPlay slack D lvl out lev rem acc) (ch : Chunk) (hs : Silent ch.segs) (hu : ch.up = none)
    (hn : ∀ e es, rem = e :: es → lev ≠ lvl e.countUp) : RPlay slack D lvl (ch :: out) lev rem acc := by
  obtain ⟨dn, pend, k, w, r, h1, h2, h3, h4, h5⟩ := h
  rcases h5 with ⟨h5, h6⟩ | ⟨c, cs, h5, h6, h7, h8, h9, h10, h11⟩
  · subst h6
    refine ⟨dn, pend, k, w ++ [ch], [], h1, ?_, .pause ch h3 hs hu, h4, Or.inl ⟨h5, rfl⟩⟩
    rw [List.reverse_cons, h2]; simp
  · rw [h5] at h4
    exact absurd h11 (hn { c with steps := c.steps - k } cs h4)

/-- the next part of the command in process -/
theorem RPlay.part {slack D lvl out lev acc e es} (h : RPlay slack D lvl out lev (e :: es) acc) (ch : Chunk) (rest : Nat)
    (hl : ch.level = lvl e.countUp) (hD : ∀ u, D u (lvl u))
    (hp : e.steps = 0 → rest = 0 ∧ IsPause e.ticks ch.segs)
    (hs : e.steps ≠ 0 → rest < e.steps ∧ Train (e.ticks - slack) e.ticks (e.steps - rest) ch.segs ∧ NoEnd ch.segs) :
    RPlay slack D lvl (ch :: out) (lvl e.countUp) (if rest = 0 then es else { e with steps := rest } :: es) acc := by
  obtain ⟨dn, pend, k, w, r, h1, h2, h3, h4, h5⟩ := h
  cases pend with
  | nil => cases h4
  | cons c cs =>
    have he : e = { c with steps := c.steps - k } := by injection h4
    have hes : es = cs := by injection h4
    subst hes
    have htk : e.ticks = c.ticks := by rw [he]
    have hst : e.steps = c.steps - k := by rw [he]
    have hcu : e.countUp = c.countUp := by rw [he]
    have hone : segsOf [ch] = ch.segs := by simp [segsOf]
    have happ : segsOf (r ++ [ch]) = segsOf r ++ ch.segs := by simp [segsOf]
    have hkr : k ≤ c.steps ∧ (k = 0 → r = []) ∧ (0 < k → k < c.steps) ∧ Train (c.ticks - slack) c.ticks k (segsOf r) ∧ NoEnd (segsOf r) ∧
        ∀ ch ∈ r, D c.countUp ch.level := by
      rcases h5 with ⟨h5, h6⟩ | ⟨c', cs', h5, h6, h7, h8, h9, h10, h11⟩
      · subst h5 h6
        exact ⟨by omega, fun _ => rfl, fun h => absurd h (by omega), .nil, NoEnd.nil, fun _ h => by cases h⟩
      · injection h5 with h5 _
        subst h5
        exact ⟨by omega, fun h => by omega, fun _ => h7, h8, h9, h10⟩
    obtain ⟨g1, g2, g3, g4, g5, g6⟩ := hkr
    have hdir : ∀ x ∈ r ++ [ch], D c.countUp x.level := by
      intro x hx
      rcases List.mem_append.mp hx with hx | hx
      · exact g6 x hx
      · simp at hx; rw [hx, hl, hcu]; exact hD _
    have hout : (ch :: out).reverse = w ++ (r ++ [ch]) := by rw [List.reverse_cons, h2, List.append_assoc]
    have hacc : acc = dn ++ [c] ++ es := by rw [h1]; simp
    by_cases h0 : e.steps = 0
    · obtain ⟨p1, p2, p3, p4⟩ := hp h0
      have hk : k = 0 := by
        apply Classical.byContradiction
        intro hk
        have := g3 (by omega)
        omega
      have hr := g2 hk
      subst p1 hk hr
      rw [if_pos rfl]
      refine ⟨dn ++ [c], es, 0, w ++ [ch], [], hacc, by rw [hout]; simp, .cmd c [ch] h3 ⟨?_, ?_⟩ (by simpa using hdir),
        (cutHead_zero es).symm, Or.inl ⟨rfl, rfl⟩⟩
      · rw [hone]; exact p3
      · rw [if_pos (by omega), hone]; exact ⟨p2, by rw [p4, htk]⟩
    · obtain ⟨s1, s2, s3⟩ := hs h0
      have ht : Train (c.ticks - slack) c.ticks (k + (e.steps - rest)) (segsOf (r ++ [ch])) := by
        rw [happ, ← htk]; rw [← htk] at g4; exact Train.append g4 s2
      have hne : NoEnd (segsOf (r ++ [ch])) := by rw [happ]; exact NoEnd.append g5 s3
      by_cases hr0 : rest = 0
      · subst hr0
        rw [if_pos rfl]
        refine ⟨dn ++ [c], es, 0, w ++ (r ++ [ch]), [], hacc, by rw [hout]; simp, .cmd c (r ++ [ch]) h3 ⟨hne, ?_⟩ hdir,
          (cutHead_zero es).symm, Or.inl ⟨rfl, rfl⟩⟩
        rw [if_neg (by omega)]
        have : k + (e.steps - 0) = c.steps := by omega
        rw [this] at ht
        exact ht
      · rw [if_neg hr0]
        refine ⟨dn, c :: es, k + (e.steps - rest), w, r ++ [ch], h1, hout, h3, ?_, Or.inr ⟨c, es, rfl, by omega, by omega, ht, hne, hdir, by rw [hcu]⟩⟩
        have : rest = c.steps - (k + (e.steps - rest)) := by omega
        change _ = { c with steps := c.steps - (k + (e.steps - rest)) } :: es
        rw [← this, htk, hcu]

/-! ## the queue operations of the encoder -/

/-- toggling the direction pin for the command in process -/
theorem toggleHead_spec (q : Queue) (lvl : Bool → Bool) (last : Bool) (hi : q.IdxOK .esp32) (hn : q.queueEntries ≠ 0)
    (ht : Tog lvl q.dirLevel (q.pending .esp32) last) :
    (Rmt.toggleHead q).pending .esp32 = { q.slot .esp32 q.readIdx with toggleDir := false } :: q.complete.pending .esp32 ∧
      (Rmt.toggleHead q).IdxOK .esp32 ∧ (Rmt.toggleHead q).queueEntries = q.queueEntries ∧
      (Rmt.toggleHead q).dirLevel = lvl (q.slot .esp32 q.readIdx).countUp ∧
      Tog lvl (lvl (q.slot .esp32 q.readIdx).countUp) (q.complete.pending .esp32) last ∧
      (q.queueEntries < ArchId.esp32.queueLen → (Rmt.toggleHead q).slot .esp32 q.nextWriteIdx = q.slot .esp32 q.nextWriteIdx) ∧
      (Rmt.toggleHead q).slot .esp32 q.readIdx = { q.slot .esp32 q.readIdx with toggleDir := false } := by
  obtain ⟨hc, _, _⟩ := Queue.pending_cons .esp32 q hi hn
  rw [hc] at ht
  obtain ⟨ht1, ht2⟩ := ht
  by_cases htd : (q.slot .esp32 q.readIdx).toggleDir = true
  · have heq : Rmt.toggleHead q = { q with
        dirLevel := !q.dirLevel
        entry := fun j => if j = q.readIdx % ArchId.esp32.queueLen then
          { q.entry (q.readIdx % ArchId.esp32.queueLen) with toggleDir := false } else q.entry j } := by
      have htd' : (q.entry (q.readIdx % ArchId.esp32.queueLen)).toggleDir = true := htd
      unfold Rmt.toggleHead
      dsimp only
      rw [if_pos htd']
    have hm := Queue.pending_modify_head .esp32 q (fun e => { e with toggleDir := false }) hi hn (Rmt.toggleHead q)
      (by rw [heq]) (by rw [heq]) (by rw [heq])
    refine ⟨hm.1, hm.2, by rw [heq]; rfl, ?_, ht2, ?_, ?_⟩
    · rw [heq]
      change (!q.dirLevel) = _
      rw [htd] at ht1
      revert ht1
      cases lvl (q.slot .esp32 q.readIdx).countUp <;> cases q.dirLevel <;> decide
    · intro hlt
      have := slot_write_ne (a := .esp32) hi hn hlt
      rw [heq]
      simp only [Queue.slot]
      rw [if_neg this]
    · rw [heq]
      simp [Queue.slot]
  · have heq : Rmt.toggleHead q = q := by
      have htd' : ¬ (q.entry (q.readIdx % ArchId.esp32.queueLen)).toggleDir = true := htd
      unfold Rmt.toggleHead
      dsimp only
      rw [if_neg htd']
    have htd0 : (q.slot .esp32 q.readIdx).toggleDir = false := by simpa using htd
    have hsame : { q.slot .esp32 q.readIdx with toggleDir := false } = q.slot .esp32 q.readIdx := by
      rw [← htd0]
    rw [heq, hsame]
    refine ⟨hc, hi, rfl, ?_, ht2, fun _ => rfl, rfl⟩
    rw [htd0] at ht1
    revert ht1
    cases lvl (q.slot .esp32 q.readIdx).countUp <;> cases q.dirLevel <;> decide

theorem toggleHead_frame (q : Queue) :
    (Rmt.toggleHead q).readIdx = q.readIdx ∧ (Rmt.toggleHead q).nextWriteIdx = q.nextWriteIdx ∧
      (Rmt.toggleHead q).ignoreCommands = q.ignoreCommands ∧ (Rmt.toggleHead q).running = q.running ∧
      (Rmt.toggleHead q).dirPin = q.dirPin ∧ (Rmt.toggleHead q).dirHighCountsUp = q.dirHighCountsUp ∧
      (Rmt.toggleHead q).qend = q.qend ∧ (Rmt.toggleHead q).ready = q.ready := by
  unfold Rmt.toggleHead
  dsimp only
  split <;> exact ⟨rfl, rfl, rfl, rfl, rfl, rfl, rfl, rfl⟩

/-- completing the command in process or storing the remaining steps -/
theorem finishHead_spec (q : Queue) (rest : Nat) (hi : q.IdxOK .esp32) (hn : q.queueEntries ≠ 0)
    (hr : (q.slot .esp32 q.readIdx).repeatEntry = false) :
    (Rmt.finishHead q rest).pending .esp32 =
        (if rest = 0 then q.complete.pending .esp32
          else { q.slot .esp32 q.readIdx with steps := rest } :: q.complete.pending .esp32) ∧
      (Rmt.finishHead q rest).IdxOK .esp32 ∧ (Rmt.finishHead q rest).queueEntries ≤ q.queueEntries ∧
      (q.queueEntries < ArchId.esp32.queueLen → (Rmt.finishHead q rest).slot .esp32 q.nextWriteIdx = q.slot .esp32 q.nextWriteIdx) := by
  obtain ⟨hc, hci, hce⟩ := Queue.pending_cons .esp32 q hi hn
  by_cases h0 : rest = 0
  · have heq : Rmt.finishHead q rest = q.complete := by
      have hr' : ¬ (q.entry (q.readIdx % ArchId.esp32.queueLen)).repeatEntry = true := by
        have : (q.entry (q.readIdx % ArchId.esp32.queueLen)).repeatEntry = false := hr
        rw [this]; decide
      unfold Rmt.finishHead
      dsimp only
      rw [if_pos h0, if_neg hr']
    rw [heq, if_pos h0]
    exact ⟨rfl, hci, by omega, fun _ => rfl⟩
  · have heq : Rmt.finishHead q rest = { q with
        entry := fun j => if j = q.readIdx % ArchId.esp32.queueLen then
          { q.entry (q.readIdx % ArchId.esp32.queueLen) with steps := rest } else q.entry j } := by
      unfold Rmt.finishHead
      dsimp only
      rw [if_neg h0]
    have hm := Queue.pending_modify_head .esp32 q (fun e => { e with steps := rest }) hi hn (Rmt.finishHead q rest)
      (by rw [heq]) (by rw [heq]) (by rw [heq])
    rw [if_neg h0]
    refine ⟨hm.1, hm.2, by rw [heq]; exact Nat.le_refl _, ?_⟩
    intro hlt
    have := slot_write_ne (a := .esp32) hi hn hlt
    rw [heq]
    simp only [Queue.slot]
    rw [if_neg this]

theorem finishHead_frame (q : Queue) (rest : Nat) :
    (Rmt.finishHead q rest).nextWriteIdx = q.nextWriteIdx ∧
      (Rmt.finishHead q rest).ignoreCommands = q.ignoreCommands ∧ (Rmt.finishHead q rest).running = q.running ∧
      (Rmt.finishHead q rest).dirPin = q.dirPin ∧ (Rmt.finishHead q rest).dirHighCountsUp = q.dirHighCountsUp ∧
      (Rmt.finishHead q rest).qend = q.qend ∧ (Rmt.finishHead q rest).dirLevel = q.dirLevel := by
  unfold Rmt.finishHead
  dsimp only
  split
  · split <;> exact ⟨rfl, rfl, rfl, rfl, rfl, rfl, rfl⟩
  · exact ⟨rfl, rfl, rfl, rfl, rfl, rfl, rfl⟩

/-! ## the invariant -/

/-- `enc`: all commands can be encoded -/
structure RInv (v : RmtVer) (lvl : Bool → Bool) (D : Bool → Bool → Prop) (enc : Prop) (s : Rmt) (acc : List Cmd) : Prop where
  idx : s.q.IdxOK .esp32
  ign : s.q.ignoreCommands = false
  pin : s.q.dirPin = pinUndefined ∨ pinIsExternal s.q.dirPin = false
  lv : ∀ u, lvl u = if s.q.dirPin = pinUndefined then s.q.dirLevel else (u == s.q.dirHighCountsUp)
  norep : ∀ e ∈ s.q.pending .esp32, e.repeatEntry = false
  good : enc → ∀ e ∈ s.q.pending .esp32, v.Good e.steps e.ticks
  goodP : ∀ e ∈ s.q.pending .esp32, e.steps = 0 → 3200 ≤ e.ticks ∧ e.ticks ≤ 65535
  prep : ∀ next c st, s.pc = .prepared next c st →
    s.q.queueEntries < ArchId.esp32.queueLen ∧ (s.q.slot .esp32 s.q.nextWriteIdx).asCmd = c ∧
    (s.q.slot .esp32 s.q.nextWriteIdx).repeatEntry = false ∧
    ((enc → v.Good c.steps c.ticks) ∧ (c.steps = 0 → 3200 ≤ c.ticks ∧ c.ticks ≤ 65535)) ∧
    (s.q.slot .esp32 s.q.nextWriteIdx).toggleDir = (lvl c.countUp != s.q.lastLvl) ∧
    (s.q.dirPin ≠ pinUndefined → next.dir = lvl c.countUp)
  dir : (s.q.running = false ∧ s.q.pending .esp32 = [] ∧ s.pc = .idle) ∨
    Tog lvl s.q.dirLevel (s.q.pending .esp32) s.q.lastLvl
  txrun : s.tx = true → s.q.running = true
  stop : s.tx = true → s.stopped = true → s.q.pending .esp32 = []
  cur : s.tx = true → s.starting = false → ∀ c cs, s.out = c :: cs → c.level = s.q.dirLevel ∧ (¬ Silent c.segs → s.lastSteps = true)
  steady : Steady s.out
  dirs : ∀ ch ∈ s.out, ∀ u, ch.up = some u → D u ch.level
  play : enc → RPlay v.slack D lvl s.out s.q.dirLevel ((s.q.pending .esp32).map Entry.asCmd) acc

/-- the part handed over to the peripheral -/
theorem send_out (v : RmtVer) (s : Rmt) (words : List Nat) (idle : Bool) (up : Option Bool) :
    ∃ segs, (s.send v words idle up).out = ⟨segs, s.q.dirLevel, s.starting, up⟩ :: s.out ∧
      (words.length = v.part → segs = words.flatMap rmtDecode ++ (if idle then [⟨false, 1⟩] else [])) := by
  refine ⟨_, rfl, ?_⟩
  intro h
  by_cases hv : v.isIdf5 = true
  · rw [if_pos hv]
  · rw [if_neg hv, ← h, List.take_append_of_le_length (Nat.le_refl _), List.take_length]

theorem Steady.cons {ch : Chunk} {out : List Chunk} (h : Steady out)
    (hc : ch.first = false → ∀ c cs, out = c :: cs → ¬ Silent c.segs → ch.level = c.level) : Steady (ch :: out) := by
  cases out with
  | nil => trivial
  | cons c cs => exact ⟨fun hf hs => hc hf c cs rfl hs, h⟩

/-- the RMT peripheral asks for the next part -/
theorem RInv.fill {v lvl D enc s acc} (h : RInv v lvl D enc s acc) (hD : ∀ u, D u (lvl u)) (htx : s.tx = true) :
    RInv v lvl D enc (s.fill v) acc := by
  unfold Rmt.fill
  by_cases hst : (s.stopped && decide (v ≠ .idf4s)) = true
  · rw [if_pos hst]; exact h
  rw [if_neg hst]
  have hrun := h.txrun htx
  have htog : Tog lvl s.q.dirLevel (s.q.pending .esp32) s.q.lastLvl := by
    rcases h.dir with hx | hx
    · rw [hrun] at hx; cases hx.1
    · exact hx
  by_cases hemp : s.q.readIdx = s.q.nextWriteIdx
  · rw [if_pos hemp]
    generalize (decide (v = RmtVer.idf4) && !s.partOne) = idle
    have hpn : s.q.pending .esp32 = [] := (Queue.pending_nil_iff _ _).mpr ((Queue.empty_iff .esp32 s.q h.idx).mp hemp)
    obtain ⟨segs, hout, hsg⟩ := send_out v s (v.emptyPause s.partOne) idle none
    have hsg := hsg (emptyPause_ok v s.partOne).2
    have hsil : Silent segs := by rw [hsg]; exact (emptyPause_ok v s.partOne).1.append (by cases idle <;> simp [Silent])
    refine { idx := h.idx, ign := h.ign, pin := h.pin, lv := h.lv, norep := h.norep, good := h.good, goodP := h.goodP, prep := h.prep, dir := h.dir,
             txrun := h.txrun, stop := fun _ _ => hpn, cur := ?_, steady := ?_, dirs := ?_, play := ?_ }
    · intro _ _ c cs hc
      have hc : (s.send v (v.emptyPause s.partOne) idle none).out = c :: cs := hc
      rw [hout] at hc
      injection hc with hc _
      subst hc
      exact ⟨rfl, fun hx => absurd hsil hx⟩
    · change Steady (s.send v (v.emptyPause s.partOne) idle none).out
      rw [hout]
      refine h.steady.cons ?_
      intro hf c cs hc _
      exact (h.cur htx hf c cs hc).1.symm
    · change ∀ x ∈ (s.send v (v.emptyPause s.partOne) idle none).out, _
      rw [hout]
      intro x hx u hu
      rcases List.mem_cons.mp hx with hx | hx
      · subst hx; cases hu
      · exact h.dirs x hx u hu
    · intro henc
      change RPlay _ D lvl (s.send v (v.emptyPause s.partOne) idle none).out s.q.dirLevel ((s.q.pending .esp32).map Entry.asCmd) acc
      rw [hout]
      refine (h.play henc).pause _ hsil rfl ?_
      intro e es he
      rw [hpn] at he
      cases he
  rw [if_neg hemp]
  have hn : s.q.queueEntries ≠ 0 := fun h0 => hemp ((Queue.empty_iff .esp32 s.q h.idx).mpr h0)
  obtain ⟨hcons, _, _⟩ := Queue.pending_cons .esp32 s.q h.idx hn
  have hst : ¬ s.stopped = true := by
    intro hx
    have := h.stop htx hx
    rw [hcons] at this
    cases this
  dsimp only
  generalize hee : s.q.slot .esp32 s.q.readIdx = e at *
  by_cases htd : (e.toggleDir && s.lastSteps) = true
  · rw [if_pos htd]
    generalize (decide (v = RmtVer.idf4) && !s.partOne) = idle
    rw [Bool.and_eq_true] at htd
    obtain ⟨segs, hout, hsg⟩ := send_out v s v.dirPause idle none
    have hsg := hsg (dirPause_ok v).2
    have hsil : Silent segs := by rw [hsg]; exact (dirPause_ok v).1.append (by cases idle <;> simp [Silent])
    refine { idx := h.idx, ign := h.ign, pin := h.pin, lv := h.lv, norep := h.norep, good := h.good, goodP := h.goodP, prep := h.prep, dir := h.dir,
             txrun := h.txrun, stop := h.stop, cur := ?_, steady := ?_, dirs := ?_, play := ?_ }
    · intro _ _ c cs hc
      have hc : (s.send v v.dirPause idle none).out = c :: cs := hc
      rw [hout] at hc
      injection hc with hc _
      subst hc
      exact ⟨rfl, fun hx => absurd hsil hx⟩
    · change Steady (s.send v v.dirPause idle none).out
      rw [hout]
      refine h.steady.cons ?_
      intro hf c cs hc _
      exact (h.cur htx hf c cs hc).1.symm
    · change ∀ x ∈ (s.send v v.dirPause idle none).out, _
      rw [hout]
      intro x hx u hu
      rcases List.mem_cons.mp hx with hx | hx
      · subst hx; cases hu
      · exact h.dirs x hx u hu
    · intro henc
      change RPlay _ D lvl (s.send v v.dirPause idle none).out s.q.dirLevel ((s.q.pending .esp32).map Entry.asCmd) acc
      rw [hout]
      refine (h.play henc).pause _ hsil rfl ?_
      intro e' es he
      rw [hcons] at he htog
      injection he with he _
      subst he
      have := htog.1
      rw [htd.1] at this
      intro hx
      rw [hx] at this
      change true = (lvl e.countUp != lvl e.countUp) at this
      simp at this
  rw [if_neg htd]
  -- a part of the command
  obtain ⟨t1, t2, t3, t4, t5, t6, t7⟩ := toggleHead_spec s.q lvl s.q.lastLvl h.idx hn htog
  obtain ⟨u1, u2, u3, u4, u5, u6, u7, u8⟩ := toggleHead_frame s.q
  have hn1 : (Rmt.toggleHead s.q).queueEntries ≠ 0 := by rw [t3]; exact hn
  have hrep : e.repeatEntry = false := h.norep e (by rw [hcons]; simp)
  have hgood : enc → v.Good e.steps e.ticks := fun henc => h.good henc e (by rw [hcons]; simp)
  have hgoodP : e.steps = 0 → 3200 ≤ e.ticks ∧ e.ticks ≤ 65535 := h.goodP e (by rw [hcons]; simp)
  rw [hee] at t1 t4 t5 t7
  rw [← u1] at t7
  generalize hq1 : Rmt.toggleHead s.q = q1 at *
  obtain ⟨f1, f2, f3, f4⟩ := finishHead_spec q1 (if e.steps = 0 then (v.pauseWords e.ticks, 0) else v.stepWords e.steps e.ticks).2 t2 hn1
    (by rw [t7]; exact hrep)
  obtain ⟨g1, g2, g3, g4, g5, g6, g7⟩ := finishHead_frame q1 (if e.steps = 0 then (v.pauseWords e.ticks, 0) else v.stepWords e.steps e.ticks).2
  have hc1 : q1.complete.pending .esp32 = s.q.complete.pending .esp32 := by
    have := (Queue.pending_cons .esp32 q1 t2 hn1).1
    rw [t1] at this
    injection this with _ this
    exact this.symm
  rw [hc1, t7] at f1
  -- what is sent
  have hwords : ∃ words rest, (if e.steps = 0 then (v.pauseWords e.ticks, 0) else v.stepWords e.steps e.ticks) = (words, rest) ∧
      (e.steps = 0 ∨ enc → words.length = v.part) ∧ (e.steps = 0 → rest = 0) ∧ (enc → e.steps ≠ 0 → rest < e.steps) ∧
      (enc → rest ≠ 0 → v.Good rest e.ticks) ∧
      (e.steps = 0 → IsPause e.ticks (words.flatMap rmtDecode) ∧
        (v = .idf4 → IsPause e.ticks ((Rmt.decLast words).flatMap rmtDecode ++ [⟨false, 1⟩]))) ∧
      (enc → e.steps ≠ 0 →
        (Train (e.ticks - v.slack) e.ticks (e.steps - rest) (words.flatMap rmtDecode) ∧ NoEnd (words.flatMap rmtDecode)) ∧
        (v = .idf4 → Train (e.ticks - v.slack) e.ticks (e.steps - rest) ((Rmt.decLast words).flatMap rmtDecode ++ [⟨false, 1⟩]) ∧
          NoEnd ((Rmt.decLast words).flatMap rmtDecode ++ [⟨false, 1⟩]))) := by
    by_cases h0 : e.steps = 0
    · rw [if_pos h0]
      obtain ⟨p1, p2, p3⟩ := pauseWords_ok v e.ticks (hgoodP h0).1 (hgoodP h0).2
      exact ⟨_, _, rfl, fun _ => p1, fun _ => rfl, fun _ hx => absurd h0 hx, fun _ hx => absurd rfl hx, fun _ => ⟨p2, p3⟩,
        fun _ hx => absurd h0 hx⟩
    · rw [if_neg h0]
      have hok : enc → v.Fits e.steps e.ticks := by
        intro henc
        have := hgood henc
        unfold RmtVer.Good at this
        rw [if_neg h0] at this
        exact this
      refine ⟨_, _, rfl, ?_, fun hx => absurd hx h0, fun henc _ => (stepWords_ok v e.steps e.ticks (hok henc)).1, ?_,
        fun hx => absurd hx h0, fun henc _ => (stepWords_ok v e.steps e.ticks (hok henc)).2.2.2⟩
      · rintro (hx | henc)
        · exact absurd hx h0
        · exact (stepWords_ok v e.steps e.ticks (hok henc)).2.1
      · intro henc hx
        unfold RmtVer.Good
        rw [if_neg hx]
        exact (stepWords_ok v e.steps e.ticks (hok henc)).2.2.1 hx
  obtain ⟨words, rest, hwr, w1, w2, w3, w4, w5, w6⟩ := hwords
  rw [hwr] at f1 f2 f3 f4 g1 g2 g3 g4 g5 g6 g7 ⊢
  dsimp only at f1 f2 f3 f4 g1 g2 g3 g4 g5 g6 g7 ⊢
  generalize hq2 : Rmt.finishHead q1 rest = q2 at *
  generalize hidle : (decide (v = RmtVer.idf4) && !s.partOne) = idle at *
  have hidf : idle = true → v = .idf4 := by
    intro hx
    rw [← hidle, Bool.and_eq_true] at hx
    exact of_decide_eq_true hx.1
  have hlen : e.steps = 0 ∨ enc → (if idle = true then Rmt.decLast words else words).length = v.part := by
    intro hy
    have w1 := w1 hy
    by_cases hx : idle = true
    · rw [if_pos hx]
      have hne : words ≠ [] := by
        intro hy
        rw [hy] at w1
        cases v <;> cases w1
      rw [← List.dropLast_concat_getLast hne, decLast_concat]
      have : words.dropLast.length + 1 = words.length := by
        rw [List.length_dropLast]; have := List.length_pos_iff.mpr hne; omega
      rw [List.length_append]; simp only [List.length_cons, List.length_nil]; omega
    · rw [if_neg hx]; exact w1
  obtain ⟨segs, hout, hsg⟩ := send_out v { s with q := q1 } (if idle = true then Rmt.decLast words else words) idle (some e.countUp)
  generalize hch : ({ segs := segs, level := q1.dirLevel, first := s.starting, up := some e.countUp } : Chunk) = ch at *
  have hchl : ch.level = lvl e.countUp := by rw [← hch]; exact t4
  have hchf : ch.first = s.starting := by rw [← hch]
  have hchu : ch.up = some e.countUp := by rw [← hch]
  have hsegs : e.steps = 0 ∨ enc →
      ch.segs = if idle = true then (Rmt.decLast words).flatMap rmtDecode ++ [⟨false, 1⟩] else words.flatMap rmtDecode := by
    intro hy
    have hsg := hsg (hlen hy)
    rw [← hch]
    dsimp only
    rw [hsg]
    by_cases hx : idle = true
    · rw [if_pos hx, if_pos hx, if_pos hx]
    · rw [if_neg hx, if_neg hx, if_neg hx, List.append_nil]
  have hsP : e.steps = 0 → IsPause e.ticks ch.segs := by
    intro h0
    rw [hsegs (Or.inl h0)]
    by_cases hx : idle = true
    · rw [if_pos hx]; exact (w5 h0).2 (hidf hx)
    · rw [if_neg hx]; exact (w5 h0).1
  have hsT : enc → e.steps ≠ 0 → Train (e.ticks - v.slack) e.ticks (e.steps - rest) ch.segs ∧ NoEnd ch.segs := by
    intro henc h0
    rw [hsegs (Or.inr henc)]
    by_cases hx : idle = true
    · rw [if_pos hx]; exact (w6 henc h0).2 (hidf hx)
    · rw [if_neg hx]; exact (w6 henc h0).1
  have hundef : s.q.dirPin = pinUndefined → lvl e.countUp = s.q.dirLevel := by
    intro hu
    rw [h.lv, if_pos hu]
  have hlast : q2.lastLvl = s.q.lastLvl := by
    unfold Queue.lastLvl
    rw [g4, g6, g7, u5, u7, t4]
    by_cases hu : s.q.dirPin = pinUndefined
    · rw [if_pos hu, if_pos hu, hundef hu]
    · rw [if_neg hu, if_neg hu]
  refine { idx := f2, ign := ?_, pin := ?_, lv := ?_, norep := ?_, good := ?_, goodP := ?_, prep := ?_, dir := Or.inr ?_,
           txrun := ?_, stop := ?_, cur := ?_, steady := ?_, dirs := ?_, play := ?_ }
  · change q2.ignoreCommands = false
    rw [g2, u3]; exact h.ign
  · change q2.dirPin = _ ∨ pinIsExternal q2.dirPin = false
    rw [g4, u5]; exact h.pin
  · intro u
    change _ = if q2.dirPin = pinUndefined then q2.dirLevel else (u == q2.dirHighCountsUp)
    rw [g4, u5, g5, u6, g7, t4, h.lv u]
    by_cases hu : s.q.dirPin = pinUndefined
    · rw [if_pos hu, if_pos hu, hundef hu]
    · rw [if_neg hu, if_neg hu]
  · change ∀ x ∈ q2.pending .esp32, _
    intro x hx
    rw [f1] at hx
    by_cases hr : rest = 0
    · rw [if_pos hr] at hx
      exact h.norep x (by rw [hcons]; exact List.mem_cons_of_mem _ hx)
    · rw [if_neg hr] at hx
      rcases List.mem_cons.mp hx with hx | hx
      · rw [hx]; exact hrep
      · exact h.norep x (by rw [hcons]; exact List.mem_cons_of_mem _ hx)
  · intro henc
    change ∀ x ∈ q2.pending .esp32, _
    intro x hx
    rw [f1] at hx
    by_cases hr : rest = 0
    · rw [if_pos hr] at hx
      exact h.good henc x (by rw [hcons]; exact List.mem_cons_of_mem _ hx)
    · rw [if_neg hr] at hx
      rcases List.mem_cons.mp hx with hx | hx
      · rw [hx]; exact w4 henc hr
      · exact h.good henc x (by rw [hcons]; exact List.mem_cons_of_mem _ hx)
  · change ∀ x ∈ q2.pending .esp32, _
    intro x hx
    rw [f1] at hx
    by_cases hr : rest = 0
    · rw [if_pos hr] at hx
      exact h.goodP x (by rw [hcons]; exact List.mem_cons_of_mem _ hx)
    · rw [if_neg hr] at hx
      rcases List.mem_cons.mp hx with hx | hx
      · rw [hx]; exact fun h0 => absurd h0 hr
      · exact h.goodP x (by rw [hcons]; exact List.mem_cons_of_mem _ hx)
  · intro next c st hpc
    obtain ⟨p1, p2, p3, p4, p5, p6⟩ := h.prep next c st hpc
    change q2.queueEntries < _ ∧ (q2.slot .esp32 q2.nextWriteIdx).asCmd = c ∧ (q2.slot .esp32 q2.nextWriteIdx).repeatEntry = false ∧
      ((enc → v.Good c.steps c.ticks) ∧ (c.steps = 0 → 3200 ≤ c.ticks ∧ c.ticks ≤ 65535)) ∧ (q2.slot .esp32 q2.nextWriteIdx).toggleDir = (lvl c.countUp != q2.lastLvl) ∧
      (q2.dirPin ≠ pinUndefined → next.dir = lvl c.countUp)
    have hsl : q2.slot .esp32 q2.nextWriteIdx = s.q.slot .esp32 s.q.nextWriteIdx := by
      rw [g1, f4 (by omega), u2, t6 p1]
    rw [hsl, hlast, g4, u5]
    exact ⟨by omega, p2, p3, p4, p5, p6⟩
  · change Tog lvl q2.dirLevel (q2.pending .esp32) q2.lastLvl
    rw [hlast, f1, g7, t4]
    by_cases hr : rest = 0
    · rw [if_pos hr]; exact t5
    · rw [if_neg hr]; exact ⟨by simp, t5⟩
  · intro _
    change q2.running = true
    rw [g3, u4]; exact hrun
  · intro _ hx
    exact absurd hx hst
  · intro _ _ c cs hc
    have hc : (Rmt.send v { s with q := q1 } (if idle = true then Rmt.decLast words else words) idle (some e.countUp)).out = c :: cs := hc
    rw [hout] at hc
    injection hc with hc _
    subst hc
    refine ⟨by change ch.level = q2.dirLevel; rw [g7, t4]; exact hchl, ?_⟩
    intro hx
    change decide (e.steps ≠ 0) = true
    rw [decide_eq_true_eq]
    intro h0
    exact hx (hsP h0).1
  · change Steady (Rmt.send v { s with q := q1 } (if idle = true then Rmt.decLast words else words) idle (some e.countUp)).out
    rw [hout]
    refine h.steady.cons ?_
    intro hf c cs hc hs
    rw [hchf] at hf
    obtain ⟨c1, c2⟩ := h.cur htx hf c cs hc
    have hl := c2 hs
    rw [hl, Bool.and_true, Bool.not_eq_true] at htd
    rw [hcons] at htog
    have := htog.1
    rw [htd] at this
    rw [hchl, c1]
    revert this
    cases lvl e.countUp <;> cases s.q.dirLevel <;> decide
  · change ∀ x ∈ (Rmt.send v { s with q := q1 } (if idle = true then Rmt.decLast words else words) idle (some e.countUp)).out, _
    rw [hout]
    intro x hx u hu
    rcases List.mem_cons.mp hx with hx | hx
    · subst hx
      rw [hchu] at hu
      injection hu with hu
      rw [← hu, hchl]
      exact hD _
    · exact h.dirs x hx u hu
  · intro henc
    change RPlay _ D lvl (Rmt.send v { s with q := q1 } (if idle = true then Rmt.decLast words else words) idle (some e.countUp)).out q2.dirLevel
      ((q2.pending .esp32).map Entry.asCmd) acc
    rw [hout]
    have hp := h.play henc
    rw [hcons, List.map_cons] at hp
    have hp := hp.part ch rest hchl hD (fun h0 => ⟨w2 h0, hsP h0⟩) (fun h0 => ⟨w3 henc h0, hsT henc h0⟩)
    rw [g7, t4, f1]
    by_cases hr : rest = 0
    · rw [if_pos hr] at hp ⊢; exact hp
    · rw [if_neg hr] at hp ⊢; exact hp

/-! ## the other events -/

theorem RInv.sync {v lvl D enc s acc} (h : RInv v lvl D enc s acc) : RInv v lvl D enc s.sync acc :=
  { idx := h.idx, ign := h.ign, pin := h.pin, lv := h.lv, norep := h.norep, good := h.good, goodP := h.goodP, prep := h.prep, dir := h.dir,
    txrun := h.txrun, stop := h.stop, cur := h.cur, steady := h.steady, dirs := h.dirs, play := h.play }

theorem RInv.txDone {v lvl D enc s acc} (h : RInv v lvl D enc s acc) :
    RInv v lvl D enc { s with tx := false, q := { s.q with running := false } } acc :=
  { idx := h.idx, ign := h.ign, pin := h.pin, lv := h.lv, norep := h.norep, good := h.good, goodP := h.goodP, prep := h.prep
    dir := by
      rcases h.dir with hx | hx
      · exact Or.inl ⟨rfl, hx.2⟩
      · exact Or.inr hx
    txrun := (fun hx => nomatch hx), stop := (fun hx => nomatch hx), cur := (fun hx => nomatch hx), steady := h.steady, dirs := h.dirs, play := h.play }

theorem RInv.leave {v lvl D enc s acc} (h : RInv v lvl D enc s acc) : RInv v lvl D enc { s with pc := .idle } acc :=
  { idx := h.idx, ign := h.ign, pin := h.pin, lv := h.lv, norep := h.norep, good := h.good, goodP := h.goodP
    prep := (fun n c st hx => nomatch hx)
    dir := by
      rcases h.dir with hx | hx
      · exact Or.inl ⟨hx.1, hx.2.1, rfl⟩
      · exact Or.inr hx
    txrun := h.txrun, stop := h.stop, cur := h.cur, steady := h.steady, dirs := h.dirs, play := h.play }

/-- first phase of addQueueEntry -/
theorem RInv.prepare {v lvl D enc s acc} (h : RInv v lvl D enc s acc) (c : Cmd) (st : Bool) (hnf : s.q.queueEntries < ArchId.esp32.queueLen)
    (hg : (enc → v.Good c.steps c.ticks) ∧ (c.steps = 0 → 3200 ≤ c.ticks ∧ c.ticks ≤ 65535)) :
    RInv v lvl D enc { s with q := (s.q.prepare .esp32 c).1, pc := .prepared (s.q.prepare .esp32 c).2 c st } acc := by
  obtain ⟨e, pe, pr, pw, prun, pready, pign, ppos, pdp, pdh, pms, pnpos, pncu, es, ecu, em, eh, et, ep⟩ := prepare_spec .esp32 s.q c
  have hp := Queue.pending_write_unused .esp32 s.q e h.idx hnf (s.q.prepare .esp32 c).1 pe pr pw
  obtain ⟨k1, k2, k3, k4, k5, k6⟩ := prepare_dir .esp32 s.q c lvl h.lv h.pin
  have hsl : (s.q.prepare .esp32 c).1.slot .esp32 s.q.nextWriteIdx = e := by simp [Queue.slot, pe]
  have hpe : (s.q.prepare .esp32 c).1.queueEntries = s.q.queueEntries := by simp only [Queue.queueEntries, pr, pw]
  refine { idx := hp.2, ign := pign.trans h.ign, pin := ?_, lv := ?_, norep := ?_, good := ?_, goodP := ?_, prep := ?_, dir := Or.inr ?_,
           txrun := ?_, stop := ?_, cur := ?_, steady := h.steady, dirs := h.dirs, play := ?_ }
  · simp only [pdp]; exact h.pin
  · intro u; simp only [pdp, pdh]; exact k1 u
  · simp only [hp.1]; exact h.norep
  · simp only [hp.1]; exact h.good
  · simp only [hp.1]; exact h.goodP
  · intro next c' st' heq
    injection heq with h1 h2 h3
    subst h1 h2 h3
    simp only [pw, hpe, pdp]
    refine ⟨hnf, ?_, k6, hg, k4, k5⟩
    rw [hsl]
    unfold Entry.asCmd
    rw [et, es, ecu]
  · simp only [hp.1]
    by_cases hpn : s.q.pending .esp32 = []
    · cases hr : s.q.running with
      | false => rw [hpn]; exact k3 hr hpn
      | true =>
        rw [(k2 (Or.inl hr)).1, (k2 (Or.inl hr)).2]
        rcases h.dir with hy | hy
        · rw [hr] at hy; cases hy.1
        · exact hy
    · rw [(k2 (Or.inr hpn)).1, (k2 (Or.inr hpn)).2]
      rcases h.dir with hy | hy
      · exact absurd hy.2.1 hpn
      · exact hy
  · simp only [prun]; exact h.txrun
  · simp only [hp.1]; exact h.stop
  · intro htx hs
    simp only [(k2 (Or.inl (h.txrun htx))).1]
    exact h.cur htx hs
  · simp only [hp.1]
    by_cases hpn : s.q.pending .esp32 = []
    · intro henc
      have := h.play henc
      rw [hpn] at this ⊢
      exact RPlay.level this _
    · rw [(k2 (Or.inr hpn)).1]; exact h.play

/-- second phase of addQueueEntry -/
theorem RInv.commit {v lvl D enc s acc next c st} (h : RInv v lvl D enc s acc) (hpc : s.pc = .prepared next c st)
    (hns : s.tx = true → s.stopped = false) :
    RInv v lvl D enc { s with q := { s.q with nextWriteIdx := u8 (s.q.nextWriteIdx + 1), qend := next }, pc := .committed st } (acc ++ [c]) := by
  obtain ⟨p1, p2, p3, p4, p5, p6⟩ := h.prep next c st hpc
  obtain ⟨hp, hidx⟩ := pending_commit (a := .esp32) next h.idx p1
  have hcu : (s.q.slot .esp32 s.q.nextWriteIdx).countUp = c.countUp := by rw [← p2]; rfl
  have hlast : Queue.lastLvl { s.q with nextWriteIdx := u8 (s.q.nextWriteIdx + 1), qend := next } =
      lvl (s.q.slot .esp32 s.q.nextWriteIdx).countUp := by
    rw [hcu]
    change (if s.q.dirPin = pinUndefined then s.q.dirLevel else next.dir) = _
    by_cases hu : s.q.dirPin = pinUndefined
    · rw [if_pos hu, h.lv, if_pos hu]
    · rw [if_neg hu]; exact p6 hu
  refine { idx := hidx, ign := h.ign, pin := h.pin, lv := h.lv, norep := ?_, good := ?_, goodP := ?_, prep := (fun _ _ _ hx => nomatch hx),
           dir := Or.inr ?_, txrun := h.txrun, stop := ?_, cur := h.cur, steady := h.steady, dirs := h.dirs, play := ?_ }
  · intro e he
    rw [hp] at he
    rcases List.mem_append.mp he with he | he
    · exact h.norep e he
    · simp at he; rw [he]; exact p3
  · intro henc e he
    rw [hp] at he
    rcases List.mem_append.mp he with he | he
    · exact h.good henc e he
    · simp at he; rw [he]; rw [← p2] at p4; exact p4.1 henc
  · intro e he
    rw [hp] at he
    rcases List.mem_append.mp he with he | he
    · exact h.goodP e he
    · simp at he; rw [he]; rw [← p2] at p4; exact p4.2
  · rw [hp, hlast]
    rcases h.dir with hy | hy
    · rw [hy.2.2] at hpc; cases hpc
    · exact hy.append (by rw [hcu]; exact p5)
  · intro hx hy
    rw [hns hx] at hy
    cases hy
  · intro henc
    change RPlay _ D lvl s.out s.q.dirLevel _ _
    rw [hp, List.map_append, List.map_cons, List.map_nil, p2]
    exact (h.play henc).accept c

theorem Rmt.fill_tx (v : RmtVer) (s : Rmt) : (s.fill v).tx = s.tx ∧ (s.fill v).pc = s.pc ∧ (s.fill v).q.ready = s.q.ready := by
  have h1 : ∀ q rest, (Rmt.finishHead q rest).ready = q.ready := by
    intro q rest
    unfold Rmt.finishHead
    dsimp only
    split
    · split <;> rfl
    · rfl
  unfold Rmt.fill
  split
  · exact ⟨rfl, rfl, rfl⟩
  split
  · exact ⟨rfl, rfl, rfl⟩
  dsimp only
  split
  · exact ⟨rfl, rfl, rfl⟩
  · exact ⟨rfl, rfl, (h1 _ _).trans (toggleHead_frame s.q).2.2.2.2.2.2.2⟩

/-- start of the queue -/
theorem RInv.start {v lvl D enc s acc} (h : RInv v lvl D enc s acc) (hD : ∀ u, D u (lvl u)) (hrun : s.q.running = false)
    (hpc : s.pc = .idle) (htog : Tog lvl s.q.dirLevel (s.q.pending .esp32) s.q.lastLvl) : RInv v lvl D enc (s.startQueue v) acc := by
  have htx : s.tx = false := by
    cases hx : s.tx with
    | false => rfl
    | true => rw [h.txrun hx] at hrun; cases hrun
  unfold Rmt.startQueue
  by_cases hemp : s.q.readIdx = s.q.nextWriteIdx
  · rw [if_pos hemp]
    by_cases hv : v.isIdf5 = true
    · rw [if_pos hv]; exact h
    · rw [if_neg hv]
      exact { idx := h.idx, ign := h.ign, pin := h.pin, lv := h.lv, norep := h.norep, good := h.good, goodP := h.goodP, prep := h.prep
              dir := Or.inr htog, txrun := (fun hx => absurd (htx.symm.trans hx) (by decide)), stop := (fun hx => absurd (htx.symm.trans hx) (by decide))
              cur := (fun hx => absurd (htx.symm.trans hx) (by decide)), steady := h.steady, dirs := h.dirs, play := h.play }
  rw [if_neg hemp]
  have hn : s.q.queueEntries ≠ 0 := fun h0 => hemp ((Queue.empty_iff .esp32 s.q h.idx).mpr h0)
  obtain ⟨hcons, _, _⟩ := Queue.pending_cons .esp32 s.q h.idx hn
  obtain ⟨t1, t2, t3, t4, t5, t6, t7⟩ := toggleHead_spec s.q lvl s.q.lastLvl h.idx hn htog
  obtain ⟨u1, u2, u3, u4, u5, u6, u7, u8⟩ := toggleHead_frame s.q
  have hundef : s.q.dirPin = pinUndefined → lvl (s.q.slot .esp32 s.q.readIdx).countUp = s.q.dirLevel := by
    intro hu
    rw [h.lv, if_pos hu]
  have key : ∀ (m1 m2 : List Nat) (x y : Bool),
      RInv v lvl D enc { s with q := { Rmt.toggleHead s.q with running := true }, stopped := false, tx := true, starting := true, partOne := true,
                                  mem1 := m1, mem2 := m2, lastSteps := x, prevSteps := y } acc := by
    intro m1 m2 x y
    refine { idx := t2, ign := u3.trans h.ign, pin := ?_, lv := ?_, norep := ?_, good := ?_, goodP := ?_, prep := ?_, dir := Or.inr ?_,
             txrun := (fun _ => rfl), stop := (fun _ hx => nomatch hx), cur := (fun _ hx => nomatch hx), steady := h.steady, dirs := h.dirs, play := ?_ }
    · change (Rmt.toggleHead s.q).dirPin = _ ∨ pinIsExternal (Rmt.toggleHead s.q).dirPin = false
      rw [u5]; exact h.pin
    · intro u
      change _ = if (Rmt.toggleHead s.q).dirPin = pinUndefined then (Rmt.toggleHead s.q).dirLevel else (u == (Rmt.toggleHead s.q).dirHighCountsUp)
      rw [u5, u6, t4, h.lv u]
      by_cases hu : s.q.dirPin = pinUndefined
      · rw [if_pos hu, if_pos hu, hundef hu]
      · rw [if_neg hu, if_neg hu]
    · change ∀ e ∈ (Rmt.toggleHead s.q).pending .esp32, _
      intro e he
      rw [t1] at he
      rcases List.mem_cons.mp he with he | he
      · rw [he]; exact h.norep (s.q.slot .esp32 s.q.readIdx) (by rw [hcons]; simp)
      · exact h.norep e (by rw [hcons]; exact List.mem_cons_of_mem _ he)
    · intro henc
      change ∀ e ∈ (Rmt.toggleHead s.q).pending .esp32, _
      intro e he
      rw [t1] at he
      rcases List.mem_cons.mp he with he | he
      · rw [he]; exact h.good henc (s.q.slot .esp32 s.q.readIdx) (by rw [hcons]; simp)
      · exact h.good henc e (by rw [hcons]; exact List.mem_cons_of_mem _ he)
    · change ∀ e ∈ (Rmt.toggleHead s.q).pending .esp32, _
      intro e he
      rw [t1] at he
      rcases List.mem_cons.mp he with he | he
      · rw [he]; exact h.goodP (s.q.slot .esp32 s.q.readIdx) (by rw [hcons]; simp)
      · exact h.goodP e (by rw [hcons]; exact List.mem_cons_of_mem _ he)
    · intro next c st hx
      have hx : s.pc = .prepared next c st := hx
      rw [hpc] at hx
      cases hx
    · change Tog lvl (Rmt.toggleHead s.q).dirLevel ((Rmt.toggleHead s.q).pending .esp32)
        (if (Rmt.toggleHead s.q).dirPin = pinUndefined then (Rmt.toggleHead s.q).dirLevel else (Rmt.toggleHead s.q).qend.dir)
      have hl : (if (Rmt.toggleHead s.q).dirPin = pinUndefined then (Rmt.toggleHead s.q).dirLevel else (Rmt.toggleHead s.q).qend.dir) =
          s.q.lastLvl := by
        unfold Queue.lastLvl
        rw [u5, u7, t4]
        by_cases hu : s.q.dirPin = pinUndefined
        · rw [if_pos hu, if_pos hu, hundef hu]
        · rw [if_neg hu, if_neg hu]
      rw [hl, t4, t1]
      exact ⟨by simp, t5⟩
    · intro henc
      change RPlay _ D lvl s.out (Rmt.toggleHead s.q).dirLevel (((Rmt.toggleHead s.q).pending .esp32).map Entry.asCmd) acc
      have hp := h.play henc
      rw [hcons, List.map_cons] at hp
      rw [t4, t1]
      exact hp.relevel
  by_cases hv : v.isIdf5 = true
  · rw [if_pos hv]
    exact key s.mem1 s.mem2 false s.prevSteps
  · rw [if_neg hv]
    have h1 := (key (Rmt.pattern v 0 s.mem1) (Rmt.pattern v v.part s.mem2) true true).fill hD rfl
    generalize hs2 : Rmt.fill v _ = s2 at h1 ⊢
    have htx2 : s2.tx = true := by rw [← hs2]; exact (Rmt.fill_tx v _).1
    have h2 := h1.fill hD htx2
    dsimp only
    generalize Rmt.fill v s2 = s3 at h2 ⊢
    refine { idx := h2.idx, ign := h2.ign, pin := h2.pin, lv := h2.lv, norep := h2.norep, good := h2.good, goodP := h2.goodP, prep := h2.prep, dir := h2.dir
             txrun := h2.txrun, stop := ?_, cur := h2.cur, steady := h2.steady, dirs := h2.dirs, play := h2.play }
    intro hx hy
    refine h2.stop hx ?_
    have hy : (decide (v = .idf4s) && s3.stopped) = true := hy
    rw [Bool.and_eq_true] at hy
    exact hy.2

theorem Rmt.step_ready (v : RmtVer) (s : Rmt) (ev : Rmt.Ev) : (s.step v ev).q.ready = (!(s.step v ev).q.running || !(s.step v ev).stopped) := rfl

/-- every event keeps the invariant -/
theorem RInv.step {v lvl D enc s acc} (h : RInv v lvl D enc s acc) (hD : ∀ u, D u (lvl u)) (hr : s.q.ready = (!s.q.running || !s.stopped))
    (ev : Rmt.Ev) (hp : ev.Basic) (hpe : enc → ev.Plain v) : RInv v lvl D enc (s.step v ev) (acc ++ s.accepts ev) := by
  have hstop : s.q.ready = true → s.tx = true → s.stopped = false := by
    intro h1 h2
    rw [h.txrun h2, h1] at hr
    cases hx : s.stopped with
    | false => rfl
    | true => rw [hx] at hr; cases hr
  unfold Rmt.step
  apply RInv.sync
  cases ev with
  | fill =>
    simp only [Rmt.accepts, List.append_nil]
    by_cases ht : s.tx = true
    · rw [if_pos ht]; exact h.fill hD ht
    · rw [if_neg ht]; exact h
  | txDone =>
    simp only [Rmt.accepts, List.append_nil]
    by_cases ht : (s.tx && s.stopped) = true
    · rw [if_pos ht]; exact h.txDone
    · rw [if_neg ht]; exact h
  | addBegin c st =>
    simp only [Rmt.accepts, List.append_nil]
    cases hpc : s.pc with
    | idle =>
      simp only
      by_cases h1 : (!s.q.ready) = true
      · rw [if_pos h1]; exact h
      rw [if_neg h1]
      by_cases h2 : s.q.isQueueFull .esp32 = true
      · rw [if_pos h2]; exact h
      rw [if_neg h2]
      by_cases h3 : Queue.commandRateTicks c < ArchId.esp32.minCmdTicks
      · rw [if_pos h3]; exact h
      rw [if_neg h3]
      refine h.prepare c st ?_ ⟨fun henc => v.good_of_encodable c (hpe henc).1 (hpe henc).2 h3, fun h0 => ?_⟩
      · have h4 := h.idx.2.2
        have h5 : s.q.queueEntries ≠ ArchId.esp32.queueLen := by
          intro hx
          apply h2
          unfold Queue.isQueueFull
          rw [hx]
          simp
        omega
      · have hv : c.Valid := hp
        have hmin : ArchId.esp32.minCmdTicks = 3200 := by decide
        unfold Queue.commandRateTicks at h3
        rw [hmin, if_neg (by omega)] at h3
        exact ⟨by omega, by have := hv.1; omega⟩
    | prepared n c' st' => exact h
    | committed st' => exact h
  | addCommit =>
    cases hpc : s.pc with
    | idle => simp only [Rmt.accepts, hpc, List.append_nil]; exact h
    | committed st => simp only [Rmt.accepts, hpc, List.append_nil]; exact h
    | prepared next c st =>
      simp only [Rmt.accepts, hpc, h.ign]
      by_cases hrd : s.q.ready = true
      · have e : (if (s.q.ready && !false) = true then [c] else []) = [c] := by rw [hrd]; rfl
        rw [e, commit_ok s.q next hrd h.ign]
        exact h.commit hpc (hstop hrd)
      · have hrd : s.q.ready = false := by simpa using hrd
        have hc : s.q.commit next = (s.q, false) := by simp [Queue.commit, h.ign, hrd]
        rw [hc, hrd]
        simp only [Bool.false_and, Bool.false_eq_true, if_false, List.append_nil]
        exact h.leave
  | addFinish =>
    simp only [Rmt.accepts, List.append_nil]
    cases hpc : s.pc with
    | idle => exact h
    | prepared n c st => exact h
    | committed st =>
      simp only
      by_cases hx : (!s.q.running && st) = true
      · rw [if_pos hx]
        rw [Bool.and_eq_true, Bool.not_eq_true'] at hx
        refine h.leave.start hD hx.1 rfl ?_
        rcases h.dir with hy | hy
        · rw [hy.2.2] at hpc; cases hpc
        · exact hy
      · rw [if_neg hx]; exact h.leave
  | startNull =>
    simp only [Rmt.accepts, List.append_nil]
    cases hpc : s.pc with
    | prepared n c st => exact h
    | committed st => exact h
    | idle =>
      simp only
      by_cases hx : (s.q.addNull true).start = true
      · rw [if_pos hx]
        have hx : s.q.running = false ∧ s.q.nextWriteIdx ≠ s.q.readIdx := by
          unfold Queue.addNull at hx
          split at hx
          · cases hx
          split at hx
          · next hy =>
            split at hx
            · cases hx
            · next hz => exact ⟨by simpa using hy, hz⟩
          · cases hx
        refine h.start hD hx.1 hpc ?_
        rcases h.dir with hy | hy
        · have := (Queue.pending_nil_iff _ _).mp hy.2.1
          exact absurd ((Queue.empty_iff .esp32 s.q h.idx).mpr this).symm hx.2
        · exact hy
      · rw [if_neg hx]; exact h
  | forceStop p => exact hp.elim
  | clearIgnore =>
    simp only [Rmt.accepts, List.append_nil]
    have : ({ s with q := { s.q with ignoreCommands := false } } : Rmt) = s := by rw [← h.ign]
    rw [this]
    exact h

/-- schedules keep the invariant -/
theorem RInv.run {v lvl D} {enc : Prop} (hD : ∀ u, D u (lvl u)) : ∀ (evs : List Rmt.Ev) {s acc}, RInv v lvl D enc s acc →
    s.q.ready = (!s.q.running || !s.stopped) → (∀ ev ∈ evs, ev.Basic) → (enc → ∀ ev ∈ evs, ev.Plain v) →
    RInv v lvl D enc (Rmt.track v s acc evs).1 (Rmt.track v s acc evs).2
  | [], _, _, h, _, _, _ => h
  | ev :: evs, s, acc, h, hr, hp, hpe =>
    RInv.run hD evs (h.step hD hr ev (hp ev (by simp)) (fun henc => hpe henc ev (by simp))) (Rmt.step_ready v s ev)
      (fun e he => hp e (List.mem_cons_of_mem _ he)) (fun henc e he => hpe henc e (List.mem_cons_of_mem _ he))

theorem RInv.idle {v : RmtVer} {enc : Prop} {s : Rmt} (h : s.Idle) :
    RInv v (fun u => if s.q.dirPin = pinUndefined then s.q.dirLevel else (u == s.q.dirHighCountsUp))
      (DirOK s.q.dirPin s.q.dirHighCountsUp) enc s [] := by
  have hn : s.q.queueEntries = 0 := by
    have := h.idx
    unfold Queue.queueEntries subU8
    omega
  have hpn : s.q.pending .esp32 = [] := (Queue.pending_nil_iff _ _).mpr hn
  refine { idx := ⟨h.idx.2, by have := h.idx; omega, by rw [hn]; omega⟩, ign := h.ign, pin := h.pin, lv := fun _ => rfl, norep := ?_, good := ?_, goodP := ?_,
           prep := ?_, dir := Or.inl ⟨h.run, hpn, h.pc⟩, txrun := ?_, stop := ?_, cur := ?_, steady := ?_, dirs := ?_, play := ?_ }
  · rw [hpn]; intro e he; cases he
  · rw [hpn]; intro _ e he; cases he
  · rw [hpn]; intro e he; cases he
  · intro n c st hx; rw [h.pc] at hx; cases hx
  · intro hx; rw [h.tx] at hx; cases hx
  · intro hx; rw [h.tx] at hx; cases hx
  · intro hx; rw [h.tx] at hx; cases hx
  · rw [h.out]; trivial
  · rw [h.out]; intro x hx; cases hx
  · intro _
    rw [hpn, h.out]
    exact ⟨[], [], 0, [], [], rfl, rfl, .nil, rfl, Or.inl ⟨rfl, rfl⟩⟩

theorem DirOK.of_lvl (pin : Nat) (hi lev : Bool) (u : Bool) : DirOK pin hi u (if pin = pinUndefined then lev else (u == hi)) := by
  intro hp
  rw [if_neg hp]

end FAS
