import Verif.Spec.RmtReg
import Verif.Lemmas.RmtRun
import Verif.Lemmas.AvrTimer

/-!
# Lemmas: the registers of an RMT channel of the ESP32 with IDF 4
-/

namespace FAS
namespace RmtReg

/-- The state as seen by Model/Rmt.lean. `one`: which part is filled next. -/
def abs (s : RmtReg) (one starting : Bool) (out : List Chunk) : Rmt where
  q := s.q
  stopped := s.stopped
  lastSteps := if one then s.has1 else s.has0
  prevSteps := if one then s.has0 else s.has1
  partOne := one
  mem1 := s.mem1
  mem2 := s.mem2
  pc := s.pc
  tx := s.ena
  starting := starting
  out := out

/-- The levels of the first part of the memory, and of the second one with the tick at the end. -/
def lev1 (s : RmtReg) : List Seg := s.mem1.flatMap rmtDecode
def lev2 (s : RmtReg) : List Seg := s.mem2.flatMap rmtDecode ++ [⟨false, 1⟩]

theorem over_length (v : RmtVer) (words old : List Nat) (h : old.length = v.part) : (over v words old).length = v.part := by
  unfold over
  rw [List.length_take, List.length_append, List.length_drop]
  omega

/-- applyCommand stops, or writes a part. -/
theorem apply_cases (v : RmtVer) (one : Bool) (s : RmtReg) : (one = false ∧ s.q.readIdx = s.q.nextWriteIdx ∧ applyCommand v one s = stopRmt v false s) ∨
    ∃ words has q', q'.running = s.q.running ∧ applyCommand v one s = put v one words has { s with q := q' } := by
  unfold applyCommand
  by_cases h1 : s.q.readIdx = s.q.nextWriteIdx
  · rw [if_pos h1]
    cases one
    · exact Or.inl ⟨rfl, h1, rfl⟩
    · exact Or.inr ⟨_, _, s.q, rfl, rfl⟩
  · rw [if_neg h1]
    refine Or.inr ?_
    by_cases h2 : ((s.q.slot .esp32 s.q.readIdx).toggleDir && (if one then s.has1 else s.has0)) = true
    · exact ⟨_, _, s.q, rfl, if_pos h2⟩
    · exact ⟨_, _, _, (finishHead_frame _ _).2.2.1.trans (toggleHead_frame s.q).2.2.2.1, if_neg h2⟩

/-- What applyCommand leaves unchanged. -/
theorem apply_frame (v : RmtVer) (one : Bool) (s : RmtReg) : let s' := applyCommand v one s
    s'.lim = s.lim ∧ s'.thr = s.thr ∧ s'.fin = s.fin ∧ s'.ena = s.ena ∧ s'.sending = s.sending ∧ s'.pos = s.pos ∧ s'.cnt = s.cnt ∧ s'.wire = s.wire ∧ s'.pc = s.pc ∧
      s'.q.running = s.q.running ∧ (one = true → s'.mem2 = s.mem2 ∧ s'.stopped = s.stopped ∧ s'.conti = s.conti) ∧ (one = false → s'.mem1 = s.mem1) ∧
      (s'.stopped = s.stopped ∧ s'.conti = s.conti ∨ s'.stopped = true ∧ s'.conti = false) ∧
      (s.mem1.length = v.part → s'.mem1.length = v.part) ∧ (s.mem2.length = v.part → s'.mem2.length = v.part) := by
  dsimp only
  rcases apply_cases v one s with ⟨h1, _, h2⟩ | ⟨words, has, q', h1, h2⟩
  · rw [h2, h1]
    unfold stopRmt
    simp +contextual [over_length]
  · rw [h2]
    unfold put
    cases one <;> simp +contextual [over_length, h1]

/-- One part is filled, ESP32: as in Model/Rmt.lean. -/
theorem fill_abs (s : RmtReg) (one starting : Bool) (out : List Chunk) (hs : s.stopped = false) :
    ∃ k, (s.abs one starting out).fill .idf4 = (applyCommand .idf4 one s).abs (!one) false (k :: out) ∧
      (k.segs = if one then (applyCommand .idf4 one s).lev1 else (applyCommand .idf4 one s).lev2) ∧ k.first = starting := by
  unfold Rmt.fill
  rw [if_neg (by rw [show (s.abs one starting out).stopped = false from hs]; simp)]
  unfold applyCommand
  by_cases h1 : s.q.readIdx = s.q.nextWriteIdx
  · rw [if_pos h1, if_pos (show (s.abs one starting out).q.readIdx = (s.abs one starting out).q.nextWriteIdx from h1)]
    cases one
    · refine ⟨⟨(over .idf4 (stopWords .idf4) s.mem2).flatMap rmtDecode ++ [⟨false, 1⟩], s.q.dirLevel, starting, none⟩, ?_, rfl, rfl⟩
      obtain ⟨q, stopped, has0, has1, mem1, mem2, pc, conti, lim, thr, fin, ena, sending, pos, cnt, wire⟩ := s
      subst hs
      rfl
    · refine ⟨⟨(over .idf4 (RmtVer.emptyPause .idf4 true) s.mem1).flatMap rmtDecode ++ [], s.q.dirLevel, starting, none⟩, ?_, List.append_nil _, rfl⟩
      obtain ⟨q, stopped, has0, has1, mem1, mem2, pc, conti, lim, thr, fin, ena, sending, pos, cnt, wire⟩ := s
      subst hs
      rfl
  · rw [if_neg h1, if_neg (show ¬ (s.abs one starting out).q.readIdx = (s.abs one starting out).q.nextWriteIdx from h1)]
    by_cases h2 : ((s.q.slot .esp32 s.q.readIdx).toggleDir && (if one then s.has1 else s.has0)) = true
    · dsimp only
      rw [if_pos h2, if_pos (show (((s.abs one starting out).q.slot .esp32 (s.abs one starting out).q.readIdx).toggleDir && (s.abs one starting out).lastSteps) = true from h2)]
      cases one
      · exact ⟨⟨(over .idf4 (RmtVer.dirPause .idf4) s.mem2).flatMap rmtDecode ++ [⟨false, 1⟩], s.q.dirLevel, starting, none⟩, rfl, rfl, rfl⟩
      · exact ⟨⟨(over .idf4 (RmtVer.dirPause .idf4) s.mem1).flatMap rmtDecode ++ [], s.q.dirLevel, starting, none⟩, rfl, List.append_nil _, rfl⟩
    · dsimp only
      rw [if_neg h2, if_neg (show ¬ (((s.abs one starting out).q.slot .esp32 (s.abs one starting out).q.readIdx).toggleDir && (s.abs one starting out).lastSteps) = true from h2)]
      cases one
      · exact ⟨⟨_ ++ [⟨false, 1⟩], (Rmt.toggleHead s.q).dirLevel, starting, some (s.q.slot .esp32 s.q.readIdx).countUp⟩, rfl, rfl, rfl⟩
      · exact ⟨⟨_ ++ [], (Rmt.toggleHead s.q).dirLevel, starting, some (s.q.slot .esp32 s.q.readIdx).countUp⟩, rfl, List.append_nil _, rfl⟩

/-- The levels of words with the direction. -/
def lw (l : List Nat) (b : Bool) : List (Seg × Bool) := (l.flatMap rmtDecode).map fun g => (g, b)

theorem SameOut.refl (a : List (Seg × Bool)) : SameOut a a := ⟨rfl, rfl⟩

theorem SameOut.append {a b c d : List (Seg × Bool)} (h1 : SameOut a b) (h2 : SameOut c d) : SameOut (a ++ c) (b ++ d) := by
  refine ⟨?_, ?_⟩
  · rw [List.map_append, List.map_append, h1.1, h2.1]
  · rw [List.filter_append, List.filter_append, h1.2, h2.2]

/-- Levels of a part, with the direction pin as it is: it is the one noted for the part if the part has pulses. -/
theorem SameOut.part (segs : List Seg) (d : Bool) (k : Chunk) (hs : ∀ g ∈ segs, g ∈ k.segs) (hd : ¬ Silent k.segs → d = k.level) :
    SameOut (segs.map fun g => (g, d)) (segs.map fun g => (g, k.level)) := by
  by_cases hk : Silent k.segs
  · refine ⟨by simp, ?_⟩
    rw [List.filter_eq_nil_iff.mpr, List.filter_eq_nil_iff.mpr]
    · intro x hx
      obtain ⟨g, hg, rfl⟩ := List.mem_map.mp hx
      simp [hk g (hs g hg)]
    · intro x hx
      obtain ⟨g, hg, rfl⟩ := List.mem_map.mp hx
      simp [hk g (hs g hg)]
  · rw [hd hk]
    exact .refl _

theorem lw_succ (l : List Nat) (i : Nat) (b : Bool) (h : i < l.length) : lw (l.take (i + 1)) b = lw (l.take i) b ++ (rmtDecode l[i]).map fun g => (g, b) := by
  unfold lw
  rw [List.take_succ_eq_append_getElem h, List.flatMap_append, List.map_append]
  simp

theorem lev1_mem (s : RmtReg) (i : Nat) (h : i < s.mem1.length) : ∀ g ∈ rmtDecode s.mem1[i], g ∈ s.lev1 := fun _ hg => List.mem_flatMap.mpr ⟨_, List.getElem_mem h, hg⟩

theorem lev2_mem (s : RmtReg) (i : Nat) (h : i < s.mem2.length) : ∀ g ∈ rmtDecode s.mem2[i], g ∈ s.lev2 :=
  fun _ hg => List.mem_append_left _ (List.mem_flatMap.mpr ⟨_, List.getElem_mem h, hg⟩)

/-- Where the transmission stands. `one`: which part is filled next, `out`: the parts filled up to now. -/
inductive Ph (s : RmtReg) (one : Bool) (out : List Chunk) : Prop
  /-- nothing is sent -/
  | idle (ena : s.ena = false) (sending : s.sending = false) (thr : s.thr = false) (fin : s.fin = false) (wire : SameOut s.wire.reverse (labs out.reverse))
  /-- the first part has to be filled next -/
  | partOne (k1 k2 : Chunk) (ks : List Chunk) (ena : s.ena = true) (run : s.q.running = true) (l1 : s.mem1.length = 31) (l2 : s.mem2.length = 31) (pos : s.pos ≤ 62)
    (eq : out = k1 :: k2 :: ks) (o : one = true) (st : s.stopped = false) (sending : s.sending = true) (conti : s.conti = true) (fin : s.fin = false)
    (thr : s.thr = decide (31 < s.pos)) (e1 : k1.segs = s.lev2) (e2 : k2.segs = s.lev1) (nf : k1.first = false) (wire : SameOut s.wire.reverse (labs ks.reverse ++ lw (s.mem1.take s.pos) k2.level ++ lw (s.mem2.take (s.pos - 31)) k1.level))
    (lo : s.pos ≤ 31 → s.cnt + 32 = s.lim + s.pos) (hi : 31 < s.pos → s.cnt + 32 = s.pos) (lim : s.lim = 32 ∨ s.lim = 63)
  /-- the second part has to be filled next, and is being sent -/
  | inTwo (k1 k2 : Chunk) (ks : List Chunk) (ena : s.ena = true) (run : s.q.running = true) (l1 : s.mem1.length = 31) (l2 : s.mem2.length = 31) (pos : 31 < s.pos ∧ s.pos ≤ 62)
    (eq : out = k1 :: k2 :: ks) (o : one = false) (st : s.stopped = false) (sending : s.sending = true) (conti : s.conti = true) (fin : s.fin = false)
    (thr : s.thr = false) (e1 : k1.segs = s.lev1) (e2 : k2.segs = s.lev2) (nf : k1.first = false) (wire : SameOut s.wire.reverse (labs ks.reverse ++ lw (s.mem2.take (s.pos - 31)) k2.level))
    (cnt : s.cnt + 32 = s.pos) (lim : s.lim = 63)
  /-- the second part has to be filled next, and has been sent -/
  | afterTwo (k1 k2 : Chunk) (ks : List Chunk) (ena : s.ena = true) (run : s.q.running = true) (l1 : s.mem1.length = 31) (l2 : s.mem2.length = 31) (pos : s.pos ≤ 31)
    (eq : out = k1 :: k2 :: ks) (o : one = false) (st : s.stopped = false) (sending : s.sending = true) (conti : s.conti = true) (fin : s.fin = true)
    (thr : s.thr = false) (e1 : k1.segs = s.lev1) (e2 : k2.segs = s.lev2) (nf : k1.first = false) (wire : SameOut s.wire.reverse (labs (k2 :: ks).reverse ++ lw (s.mem1.take s.pos) k1.level))
    (cnt : s.cnt = s.pos + 31) (lim : s.lim = 63)
  /-- the last two parts are sent -/
  | ending (k1 k2 : Chunk) (ks : List Chunk) (ena : s.ena = true) (run : s.q.running = true) (l1 : s.mem1.length = 31) (l2 : s.mem2.length = 31) (pos : s.pos ≤ 62)
    (eq : out = k1 :: k2 :: ks) (st : s.stopped = true) (sending : s.sending = true) (conti : s.conti = false) (fin : s.fin = false)
    (e1 : k1.segs = s.lev2) (e2 : k2.segs = s.lev1) (nf : k1.first = false) (wire : SameOut s.wire.reverse (labs ks.reverse ++ lw (s.mem1.take s.pos) k2.level ++ lw (s.mem2.take (s.pos - 31)) k1.level))
  /-- all has been sent, the interrupt is pending -/
  | ended (ena : s.ena = true) (run : s.q.running = true) (st : s.stopped = true) (sending : s.sending = false) (fin : s.fin = true) (wire : SameOut s.wire.reverse (labs out.reverse))

/-- The channel and Model/Rmt.lean agree. -/
def Rel (s : RmtReg) (t : Rmt) : Prop := s.sync = s ∧ ∃ one, t = s.abs one false t.out ∧ Ph s one t.out

/-- An event which concerns only the queue. -/
theorem Ph.congr {s s' : RmtReg} {one : Bool} {out : List Chunk} (h : Ph s one out) (h1 : s'.stopped = s.stopped) (h2 : s'.mem1 = s.mem1) (h3 : s'.mem2 = s.mem2) (h4 : s'.conti = s.conti)
    (h5 : s'.lim = s.lim) (h6 : s'.thr = s.thr) (h7 : s'.fin = s.fin) (h8 : s'.ena = s.ena) (h9 : s'.sending = s.sending) (h10 : s'.pos = s.pos) (h11 : s'.cnt = s.cnt) (h12 : s'.wire = s.wire)
    (h13 : s'.q.running = s.q.running) : Ph s' one out := by
  obtain ⟨q, stopped, has0, has1, mem1, mem2, pc, conti, lim, thr, fin, ena, sending, pos, cnt, wire⟩ := s
  obtain ⟨q', stopped', has0', has1', mem1', mem2', pc', conti', lim', thr', fin', ena', sending', pos', cnt', wire'⟩ := s'
  dsimp only at h1 h2 h3 h4 h5 h6 h7 h8 h9 h10 h11 h12 h13
  subst h1 h2 h3 h4 h5 h6 h7 h8 h9 h10 h11 h12
  cases h
  case idle ena sending thr fin wire => exact .idle ena sending thr fin wire
  case partOne k1 k2 ks ena run l1 l2 pos eq o st sending conti fin thr e1 e2 nf wire lo hi lim =>
    exact .partOne k1 k2 ks ena (h13.trans run) l1 l2 pos eq o st sending conti fin thr e1 e2 nf wire lo hi lim
  case inTwo k1 k2 ks ena run l1 l2 pos eq o st sending conti fin thr e1 e2 nf wire cnt lim =>
    exact .inTwo k1 k2 ks ena (h13.trans run) l1 l2 pos eq o st sending conti fin thr e1 e2 nf wire cnt lim
  case afterTwo k1 k2 ks ena run l1 l2 pos eq o st sending conti fin thr e1 e2 nf wire cnt lim =>
    exact .afterTwo k1 k2 ks ena (h13.trans run) l1 l2 pos eq o st sending conti fin thr e1 e2 nf wire cnt lim
  case ending k1 k2 ks ena run l1 l2 pos eq st sending conti fin e1 e2 nf wire =>
    exact .ending k1 k2 ks ena (h13.trans run) l1 l2 pos eq st sending conti fin e1 e2 nf wire
  case ended ena run st sending fin wire => exact .ended ena (h13.trans run) st sending fin wire

/-- What a word changes. -/
theorem word_frame (v : RmtVer) (s : RmtReg) : let s' := word v s
    s'.q = s.q ∧ s'.stopped = s.stopped ∧ s'.has0 = s.has0 ∧ s'.has1 = s.has1 ∧ s'.mem1 = s.mem1 ∧ s'.mem2 = s.mem2 ∧ s'.pc = s.pc ∧ s'.conti = s.conti ∧ s'.lim = s.lim ∧ s'.ena = s.ena := by
  unfold word
  dsimp only
  repeat' split
  all_goals exact ⟨rfl, rfl, rfl, rfl, rfl, rfl, rfl, rfl, rfl, rfl⟩

/-- A word of the first part is sent. -/
theorem word_one (s : RmtReg) (l1 : s.mem1.length = 31) (h : s.pos < 31) : let s' := word .idf4 s
    s'.pos = s.pos + 1 ∧ s'.fin = s.fin ∧ s'.sending = s.sending ∧ s'.wire.reverse = s.wire.reverse ++ (rmtDecode (s.mem1[s.pos]'(by omega))).map (fun g => (g, s.q.dirLevel)) ∧
      s'.cnt = (if s.cnt + 1 = s.lim then 0 else s.cnt + 1) ∧ s'.thr = (s.thr || decide (s.cnt + 1 = s.lim)) := by
  unfold word emit
  have hp : RmtVer.part .idf4 = 31 := rfl
  dsimp only
  rw [hp, if_pos h]
  have hg : s.mem1.getD s.pos 0 = s.mem1[s.pos]'(by omega) := by simp [List.getD, l1, h]
  rw [hg]
  by_cases h2 : s.cnt + 1 = s.lim <;> simp [h2]

/-- A word of the second part is sent. -/
theorem word_two (s : RmtReg) (l2 : s.mem2.length = 31) (h1 : 31 ≤ s.pos) (h : s.pos < 62) : let s' := word .idf4 s
    s'.pos = s.pos + 1 ∧ s'.fin = s.fin ∧ s'.sending = s.sending ∧ s'.wire.reverse = s.wire.reverse ++ (rmtDecode (s.mem2[s.pos - 31]'(by omega))).map (fun g => (g, s.q.dirLevel)) ∧
      s'.cnt = (if s.cnt + 1 = s.lim then 0 else s.cnt + 1) ∧ s'.thr = (s.thr || decide (s.cnt + 1 = s.lim)) := by
  unfold word emit
  have hp : RmtVer.part .idf4 = 31 := rfl
  dsimp only
  rw [hp, if_neg (show ¬ s.pos < 31 by omega), if_pos (show s.pos < 2 * 31 from h)]
  have h3 : s.pos - 31 < s.mem2.length := by omega
  have hg : s.mem2.getD (s.pos - 31) 0 = s.mem2[s.pos - 31] := by simp [List.getD, h3]
  rw [hg]
  by_cases h2 : s.cnt + 1 = s.lim <;> simp [h2]

/-- The end marker. -/
theorem word_end (s : RmtReg) (h : s.pos = 62) : let s' := word .idf4 s
    s'.pos = (if s.conti then 0 else s.pos) ∧ s'.fin = true ∧ s'.sending = (s.sending && s.conti) ∧ s'.wire.reverse = s.wire.reverse ++ [(⟨false, 1⟩, s.q.dirLevel)] ∧
      s'.cnt = (if s.cnt + 1 = s.lim then 0 else s.cnt + 1) ∧ s'.thr = (s.thr || decide (s.cnt + 1 = s.lim)) := by
  unfold word emit
  have hp : RmtVer.part .idf4 = 31 := rfl
  dsimp only
  rw [hp, if_neg (show ¬ s.pos < 31 by omega), if_neg (show ¬ s.pos < 2 * 31 by omega)]
  cases hc : s.conti
  · rw [if_neg (show ¬ (false = true) by simp)]
    by_cases h2 : s.cnt + 1 = s.lim <;> simp [h2]
  · rw [if_pos rfl]
    by_cases h2 : s.cnt + 1 = s.lim <;> simp [h2]

theorem labs_cons (k : Chunk) (ks : List Chunk) : labs (k :: ks).reverse = labs ks.reverse ++ k.segs.map fun g => (g, k.level) := by
  unfold labs
  rw [List.reverse_cons, List.flatMap_append]
  simp

theorem lev1_lw {s : RmtReg} {k : Chunk} (h : k.segs = s.lev1) : (k.segs.map fun g => (g, k.level)) = lw s.mem1 k.level := by rw [h]; rfl

theorem lev2_lw {s : RmtReg} {k : Chunk} (h : k.segs = s.lev2) : (k.segs.map fun g => (g, k.level)) = lw s.mem2 k.level ++ [(⟨false, 1⟩, k.level)] := by rw [h]; simp [lw, lev2]

theorem sameOut_end (d b : Bool) : SameOut [(⟨false, 1⟩, d)] [(⟨false, 1⟩, b)] := ⟨rfl, rfl⟩

/-- The parts sent and waiting, one word further. `hc`, `hst`: the direction pin, C51. -/
theorem both_next {s : RmtReg} {k1 k2 : Chunk} {ks : List Chunk} (l1 : s.mem1.length = 31) (l2 : s.mem2.length = 31) (hlt : s.pos < 62) (e1 : k1.segs = s.lev2) (e2 : k2.segs = s.lev1)
    (hc : k1.level = s.q.dirLevel) (hst : ¬ Silent k2.segs → k1.level = k2.level)
    (wire : SameOut s.wire.reverse (labs ks.reverse ++ lw (s.mem1.take s.pos) k2.level ++ lw (s.mem2.take (s.pos - 31)) k1.level)) : let s' := word .idf4 s
    s'.pos = s.pos + 1 ∧ s'.fin = s.fin ∧ s'.sending = s.sending ∧
      s'.cnt = (if s.cnt + 1 = s.lim then 0 else s.cnt + 1) ∧ s'.thr = (s.thr || decide (s.cnt + 1 = s.lim)) ∧
      SameOut s'.wire.reverse (labs ks.reverse ++ lw (s'.mem1.take s'.pos) k2.level ++ lw (s'.mem2.take (s'.pos - 31)) k1.level) := by
  obtain ⟨f1, f2, f3, f4, f5, f6, f7, f8, f9, f10⟩ := word_frame .idf4 s
  intro s'
  by_cases h : s.pos < 31
  · obtain ⟨g1, g2, g3, g4, g5, g6⟩ := word_one s l1 h
    refine ⟨g1, g2, g3, g5, g6, ?_⟩
    rw [g4, g1, f5, f6, lw_succ _ _ _ (by omega), show s.pos + 1 - 31 = 0 by omega]
    rw [show s.pos - 31 = 0 by omega] at wire
    have h0 : lw (s.mem2.take 0) k1.level = [] := rfl
    rw [h0, List.append_nil] at wire ⊢
    rw [← List.append_assoc]
    exact wire.append (.part _ _ k2 (by rw [e2]; exact lev1_mem s _ _) fun hn => by rw [← hc, hst hn])
  · obtain ⟨g1, g2, g3, g4, g5, g6⟩ := word_two s l2 (by omega) hlt
    refine ⟨g1, g2, g3, g5, g6, ?_⟩
    rw [g4, g1, f5, f6, show s.pos + 1 - 31 = s.pos - 31 + 1 by omega, lw_succ s.mem2 (s.pos - 31) _ (by omega), List.take_of_length_le (show s.mem1.length ≤ s.pos + 1 by omega)]
    rw [List.take_of_length_le (show s.mem1.length ≤ s.pos by omega)] at wire
    rw [← List.append_assoc]
    exact wire.append (.part _ _ k1 (by rw [e1]; exact lev2_mem s (s.pos - 31) (by omega)) fun _ => hc.symm)

theorem word_Ph {s : RmtReg} {one : Bool} {out : List Chunk} (h : Ph s one out) (hs : s.sending = true) (ht : s.pos = 31 ∨ s.pos = 62 → s.thr = false ∧ s.fin = false)
    (hc : s.ena = true → ∀ c cs, out = c :: cs → c.level = s.q.dirLevel) (hst : Steady out) :
    Ph (word .idf4 s) one out := by
  obtain ⟨f1, f2, f3, f4, f5, f6, f7, f8, f9, f10⟩ := word_frame .idf4 s
  have hl1 : (word .idf4 s).lev1 = s.lev1 := by unfold lev1; rw [f5]
  have hl2 : (word .idf4 s).lev2 = s.lev2 := by unfold lev2; rw [f6]
  cases h
  case idle ena sending thr fin wire => rw [hs] at sending; cases sending
  case ended ena run st sending fin wire => rw [hs] at sending; cases sending
  case partOne k1 k2 ks ena run l1 l2 pos eq o st sending conti fin thr e1 e2 nf wire lo hi lim =>
    have hlt : s.pos < 62 := by
      refine Nat.lt_of_le_of_ne pos fun h => ?_
      have := (ht (Or.inr h)).1
      rw [thr, h] at this
      cases this
    have hc := hc ena _ _ eq
    rw [eq] at hst
    obtain ⟨g1, g2, g3, g5, g6, g4⟩ := both_next l1 l2 hlt e1 e2 hc (fun hn => (hst.1 nf hn)) wire
    refine .partOne k1 k2 ks (by rw [f10, ena]) (by rw [f1, run]) (by rw [f5, l1]) (by rw [f6, l2]) (by omega) eq o (by rw [f2, st]) (by rw [g3, hs]) (by rw [f8, conti]) (by rw [g2, fin])
      ?_ (by rw [hl2, e1]) (by rw [hl1, e2]) nf g4 ?_ ?_ (by rw [f9]; exact lim)
    · rw [g6, thr, g1]
      by_cases hp : 31 < s.pos
      · simp [hp]; omega
      · have := lo (by omega)
        have h3 : decide (31 < s.pos) = false := by simp; omega
        rw [h3, Bool.false_or]
        congr 1
        apply propext
        omega
    · intro hp
      rw [g1] at hp
      have := lo (by omega)
      rw [g5, f9, g1, if_neg (by omega)]
      omega
    · intro hp
      rw [g1] at hp
      rw [g5, g1]
      by_cases h4 : 31 < s.pos
      · have := hi h4
        rw [if_neg (by omega)]
        omega
      · have := lo (by omega)
        rw [if_pos (by omega)]
        omega
  case inTwo k1 k2 ks ena run l1 l2 pos eq o st sending conti fin thr e1 e2 nf wire cnt lim =>
    have hc := hc ena _ _ eq
    rw [eq] at hst
    by_cases hlt : s.pos < 62
    · obtain ⟨g1, g2, g3, g4, g5, g6⟩ := word_two s l2 (by omega) hlt
      have hne : ¬ s.cnt + 1 = s.lim := by omega
      refine .inTwo k1 k2 ks (by rw [f10, ena]) (by rw [f1, run]) (by rw [f5, l1]) (by rw [f6, l2]) (by omega) eq o (by rw [f2, st]) (by rw [g3, hs]) (by rw [f8, conti]) (by rw [g2, fin])
        (by rw [g6, thr]; simp [hne]) (by rw [hl1, e1]) (by rw [hl2, e2]) nf ?_ (by rw [g5, if_neg hne, g1]; omega) (by rw [f9, lim])
      rw [g4, g1, f6, show s.pos + 1 - 31 = s.pos - 31 + 1 by omega, lw_succ _ _ _ (by omega), ← List.append_assoc]
      exact wire.append (.part _ _ k2 (by rw [e2]; exact lev2_mem s _ _) fun hn => by rw [← hc, hst.1 nf hn])
    · obtain ⟨g1, g2, g3, g4, g5, g6⟩ := word_end s (by omega)
      rw [conti, if_pos rfl] at g1
      have hne : ¬ s.cnt + 1 = s.lim := by omega
      refine .afterTwo k1 k2 ks (by rw [f10, ena]) (by rw [f1, run]) (by rw [f5, l1]) (by rw [f6, l2]) (by omega) eq o (by rw [f2, st]) (by rw [g3, hs, conti]; rfl) (by rw [f8, conti]) g2
        (by rw [g6, thr]; simp [hne]) (by rw [hl1, e1]) (by rw [hl2, e2]) nf ?_ (by rw [g5, if_neg hne, g1]; omega) (by rw [f9, lim])
      rw [List.take_of_length_le (by omega)] at wire
      rw [g4, g1, labs_cons, lev2_lw e2, ← List.append_assoc]
      have h0 : lw ((word .idf4 s).mem1.take 0) k1.level = [] := rfl
      rw [h0, List.append_nil]
      exact wire.append (sameOut_end _ _)
  case afterTwo k1 k2 ks ena run l1 l2 pos eq o st sending conti fin thr e1 e2 nf wire cnt lim =>
    have hc := hc ena _ _ eq
    have hlt : s.pos < 31 := by
      refine Nat.lt_of_le_of_ne pos fun h => ?_
      have := (ht (Or.inl h)).2
      rw [fin] at this
      cases this
    obtain ⟨g1, g2, g3, g4, g5, g6⟩ := word_one s l1 hlt
    have hne : ¬ s.cnt + 1 = s.lim := by omega
    refine .afterTwo k1 k2 ks (by rw [f10, ena]) (by rw [f1, run]) (by rw [f5, l1]) (by rw [f6, l2]) (by omega) eq o (by rw [f2, st]) (by rw [g3, hs]) (by rw [f8, conti]) (by rw [g2, fin])
      (by rw [g6, thr]; simp [hne]) (by rw [hl1, e1]) (by rw [hl2, e2]) nf ?_ (by rw [g5, if_neg hne, g1]; omega) (by rw [f9, lim])
    rw [g4, g1, f5, lw_succ _ _ _ (by omega), ← List.append_assoc]
    exact wire.append (.part _ _ k1 (by rw [e1]; exact lev1_mem s _ _) fun _ => hc.symm)
  case ending k1 k2 ks ena run l1 l2 pos eq st sending conti fin e1 e2 nf wire =>
    have hc := hc ena _ _ eq
    rw [eq] at hst
    by_cases hlt : s.pos < 62
    · obtain ⟨g1, g2, g3, g5, g6, g4⟩ := both_next l1 l2 hlt e1 e2 hc (fun hn => (hst.1 nf hn)) wire
      exact .ending k1 k2 ks (by rw [f10, ena]) (by rw [f1, run]) (by rw [f5, l1]) (by rw [f6, l2]) (by omega) eq (by rw [f2, st]) (by rw [g3, hs]) (by rw [f8, conti]) (by rw [g2, fin])
        (by rw [hl2, e1]) (by rw [hl1, e2]) nf g4
    · obtain ⟨g1, g2, g3, g4, g5, g6⟩ := word_end s (by omega)
      refine .ended (by rw [f10, ena]) (by rw [f1, run]) (by rw [f2, st]) (by rw [g3, conti]; simp) g2 ?_
      rw [List.take_of_length_le (by omega), List.take_of_length_le (by omega)] at wire
      rw [g4, eq, labs_cons, labs_cons, lev1_lw e2, lev2_lw e1, ← List.append_assoc]
      exact wire.append (sameOut_end _ _)

/-- An interrupt without a pending flag. -/
theorem isr_none (v : RmtVer) (s : RmtReg) (h1 : (s.fin && s.ena) = false) (h2 : (s.thr && s.ena) = false) : isr v s = s := by
  obtain ⟨q, stopped, has0, has1, mem1, mem2, pc, conti, lim, thr, fin, ena, sending, pos, cnt, wire⟩ := s
  unfold isr
  dsimp only at h1 h2 ⊢
  rw [h1, h2]
  simp

theorem step_none (s : RmtReg) {t : Rmt} (hr : Rel s t) {ev : Ev} (h1 : s.seen ev = []) (h2 : s.step .idf4 ev = s.sync) : Rel (s.step .idf4 ev) (Rmt.run .idf4 t (s.seen ev)) := by
  rw [h1, h2, hr.1]
  exact hr

/-- The relation after one event of Model/Rmt.lean. -/
theorem Rel.mk {s : RmtReg} {t : Rmt} {one : Bool} {out : List Chunk} (h1 : t = s.abs one false out) (h2 : Ph s one out) : Rel s.sync t.sync := by
  subst h1
  exact ⟨rfl, one, rfl, h2.congr rfl rfl rfl rfl rfl rfl rfl rfl rfl rfl rfl rfl rfl⟩

theorem Rel.keep {s : RmtReg} {t : Rmt} {one : Bool} {out : List Chunk} (h1 : s.sync = s) (h2 : t = s.abs one false out) : t.sync = t := by
  subst h2
  change s.sync.abs one false out = _
  rw [h1]

theorem isr_thr (s : RmtReg) (h1 : s.fin = false) (h2 : s.thr = true) (h3 : s.ena = true) :
    isr .idf4 s = if s.stopped then { s with thr := false } else { applyCommand .idf4 true { s with thr := false } with lim := 63 } := by
  obtain ⟨q, stopped, has0, has1, mem1, mem2, pc, conti, lim, thr, fin, ena, sending, pos, cnt, wire⟩ := s
  dsimp only at h1 h2 h3
  subst h1 h2 h3
  cases stopped <;> rfl

theorem isr_fin (s : RmtReg) (h1 : s.fin = true) (h2 : s.thr = false) (h3 : s.ena = true) (h4 : s.stopped = false) : isr .idf4 s = applyCommand .idf4 false { s with fin := false } := by
  obtain ⟨q, stopped, has0, has1, mem1, mem2, pc, conti, lim, thr, fin, ena, sending, pos, cnt, wire⟩ := s
  dsimp only at h1 h2 h3 h4
  subst h1 h2 h3 h4
  rfl

theorem isr_end (s : RmtReg) (h1 : s.fin = true) (h3 : s.ena = true) (h4 : s.stopped = true) :
    isr .idf4 s = { s with fin := false, thr := false, ena := false, q := { s.q with running := false } } := by
  obtain ⟨q, stopped, has0, has1, mem1, mem2, pc, conti, lim, thr, fin, ena, sending, pos, cnt, wire⟩ := s
  dsimp only at h1 h3 h4
  subst h1 h3 h4
  cases thr <;> rfl

theorem run_fill (s : RmtReg) (one : Bool) (out : List Chunk) (h : s.ena = true) : Rmt.run .idf4 (s.abs one false out) [.fill] = ((s.abs one false out).fill .idf4).sync := by
  change Rmt.sync (if s.ena then _ else _) = _
  rw [if_pos h]

theorem isr_Rel {s : RmtReg} {t : Rmt} (hr : Rel s t) : Rel (s.step .idf4 .isr) (Rmt.run .idf4 t (s.seen .isr)) := by
  obtain ⟨hsync, one, ht, hp⟩ := id hr
  generalize t.out = out at ht hp
  cases hp
  case idle ena sending thr fin wire =>
    exact step_none s hr (by simp [seen, thr, fin]) (by unfold step; dsimp only; rw [isr_none _ _ (by simp [fin]) (by simp [thr])])
  case partOne k1 k2 ks ena run l1 l2 pos eq o st sending conti fin thr e1 e2 nf wire lo hi lim =>
    by_cases hpos : 31 < s.pos
    · have hthr : s.thr = true := by rw [thr]; simp [hpos]
      subst o ht
      have hseen : s.seen .isr = [.fill] := by simp [seen, fin, hthr, ena, st]
      rw [hseen, run_fill s _ _ ena]
      unfold step
      dsimp only
      rw [isr_thr s fin hthr ena, if_neg (by simp [st])]
      obtain ⟨k, g1, g2, g3⟩ := fill_abs { s with thr := false } true false out st
      obtain ⟨f1, f2, f3, f4, f5, f6, f7, f8, f9, f10, f11, f12, f13, f14, f15⟩ := apply_frame .idf4 true { s with thr := false }
      obtain ⟨f11, f16, f17⟩ := f11 rfl
      change (s.abs true false out).fill .idf4 = _ at g1
      rw [g1]
      generalize applyCommand .idf4 true { s with thr := false } = a at *
      refine Rel.mk (s := { a with lim := 63 }) (one := false) rfl ?_
      refine .inTwo k k1 (k2 :: ks) (f4.trans ena) (f10.trans run) (f14 l1) (f15 l2) ⟨f6 ▸ hpos, f6 ▸ pos⟩ (by rw [eq]) rfl (f16.trans st) (f5.trans sending) (f17.trans conti) (f3.trans fin) f2
        (by rw [g2]; rfl) (by rw [e1]; unfold lev2; change _ = a.mem2.flatMap _ ++ _; rw [f11]) g3 ?_ ?_ rfl
      · change SameOut a.wire.reverse (_ ++ lw (a.mem2.take (a.pos - 31)) k1.level)
        rw [f8, f6, f11, labs_cons, lev1_lw e2]
        change SameOut s.wire.reverse (_ ++ lw (s.mem2.take (s.pos - 31)) k1.level)
        rw [List.take_of_length_le (show s.mem1.length ≤ s.pos by omega)] at wire
        exact wire
      · change a.cnt + 32 = a.pos
        rw [f7, f6]
        exact hi hpos
    · have hthr : s.thr = false := by rw [thr]; simp; omega
      exact step_none s hr (by simp [seen, hthr, fin]) (by unfold step; dsimp only; rw [isr_none _ _ (by simp [fin]) (by simp [hthr])])
  case inTwo k1 k2 ks ena run l1 l2 pos eq o st sending conti fin thr e1 e2 nf wire cnt lim =>
    exact step_none s hr (by simp [seen, thr, fin]) (by unfold step; dsimp only; rw [isr_none _ _ (by simp [fin]) (by simp [thr])])
  case afterTwo k1 k2 ks ena run l1 l2 pos eq o st sending conti fin thr e1 e2 nf wire cnt lim =>
    subst o ht
    have hseen : s.seen .isr = [.fill] := by simp [seen, fin, thr, ena, st]
    rw [hseen, run_fill s _ _ ena]
    unfold step
    dsimp only
    rw [isr_fin s fin thr ena st]
    obtain ⟨k, g1, g2, g3⟩ := fill_abs { s with fin := false } false false out st
    obtain ⟨f1, f2, f3, f4, f5, f6, f7, f8, f9, f10, f11, f12, f13, f14, f15⟩ := apply_frame .idf4 false { s with fin := false }
    have f12 := f12 rfl
    change (s.abs false false out).fill .idf4 = _ at g1
    rw [g1]
    generalize applyCommand .idf4 false { s with fin := false } = a at *
    refine Rel.mk (one := true) rfl ?_
    have hwire : SameOut a.wire.reverse (labs (k2 :: ks).reverse ++ lw (a.mem1.take a.pos) k1.level ++ lw (a.mem2.take (a.pos - 31)) k.level) := by
      rw [f8, f6, f12]
      change SameOut s.wire.reverse (_ ++ lw (s.mem1.take s.pos) k1.level ++ lw (a.mem2.take (s.pos - 31)) k.level)
      rw [show s.pos - 31 = 0 by omega]
      have h0 : lw (a.mem2.take 0) k.level = [] := rfl
      rw [h0, List.append_nil]
      exact wire
    have he1 : k1.segs = a.lev1 := by rw [e1]; unfold lev1; rw [f12]
    rcases f13 with ⟨b1, b2⟩ | ⟨b1, b2⟩
    · refine .partOne k k1 (k2 :: ks) (f4.trans ena) (f10.trans run) (f14 l1) (f15 l2) (by rw [f6]; change s.pos ≤ 62; omega) (by rw [eq]) rfl (b1.trans st) (f5.trans sending) (b2.trans conti) f3
        ?_ (by rw [g2]; rfl) he1 g3 hwire ?_ ?_ (Or.inr (f1.trans lim))
      · rw [f2, f6]
        change s.thr = decide (31 < s.pos)
        rw [thr]
        simp
        omega
      · intro _
        rw [f7, f1, f6]
        change s.cnt + 32 = s.lim + s.pos
        omega
      · intro h
        rw [f6] at h
        change 31 < s.pos at h
        omega
    · exact .ending k k1 (k2 :: ks) (f4.trans ena) (f10.trans run) (f14 l1) (f15 l2) (by rw [f6]; change s.pos ≤ 62; omega) (by rw [eq]) b1 (f5.trans sending) b2 f3 (by rw [g2]; rfl) he1 g3 hwire
  case ending k1 k2 ks ena run l1 l2 pos eq st sending conti fin e1 e2 nf wire =>
    have hseen : s.seen .isr = [] := by simp [seen, fin, st]
    rw [hseen]
    unfold step
    dsimp only
    cases hthr : s.thr
    · rw [isr_none _ _ (by simp [fin]) (by simp [hthr]), hsync]
      exact hr
    · rw [isr_thr s fin hthr ena, if_pos st]
      rw [← Rel.keep hsync ht]
      exact Rel.mk (s := { s with thr := false }) (one := one) (out := out) ht (.ending k1 k2 ks ena run l1 l2 pos eq st sending conti fin e1 e2 nf wire)
  case ended ena run st sending fin wire =>
    subst ht
    have hseen : s.seen .isr = [.txDone] := by simp [seen, fin, ena, st]
    rw [hseen]
    unfold step
    dsimp only
    rw [isr_end s fin ena st]
    have : Rmt.run .idf4 (s.abs one false out) [.txDone] = Rmt.sync { s.abs one false out with tx := false, q := { s.q with running := false } } := by
      change Rmt.sync (if s.ena && s.stopped then _ else _) = _
      rw [if_pos (by simp [ena, st])]
      rfl
    rw [this]
    exact Rel.mk (one := one) (out := out) rfl (.idle rfl sending rfl rfl wire)

theorem apply_ena (v : RmtVer) (one b : Bool) (s : RmtReg) : applyCommand v one { s with ena := b } = { applyCommand v one s with ena := b } := by
  unfold applyCommand
  by_cases h1 : s.q.readIdx = s.q.nextWriteIdx
  · rw [if_pos h1, if_pos (show ({ s with ena := b } : RmtReg).q.readIdx = ({ s with ena := b } : RmtReg).q.nextWriteIdx from h1)]
    cases one <;> rfl
  · rw [if_neg h1, if_neg (show ¬ ({ s with ena := b } : RmtReg).q.readIdx = ({ s with ena := b } : RmtReg).q.nextWriteIdx from h1)]
    by_cases h2 : ((s.q.slot .esp32 s.q.readIdx).toggleDir && (if one then s.has1 else s.has0)) = true
    · dsimp only
      rw [if_pos h2, if_pos h2]
      cases one <;> rfl
    · dsimp only
      rw [if_neg h2, if_neg h2]
      cases one <;> rfl

theorem toggleHead_run (q : Queue) (b : Bool) : Rmt.toggleHead { q with running := b } = { Rmt.toggleHead q with running := b } := by
  unfold Rmt.toggleHead
  dsimp only
  by_cases h : (q.entry (q.readIdx % ArchId.esp32.queueLen)).toggleDir = true
  · rw [if_pos h, if_pos h]
  · rw [if_neg h, if_neg h]

theorem pattern_length (start : Nat) (old : List Nat) : (Rmt.pattern .idf4 start old).length = 31 := by
  simp [Rmt.pattern, RmtVer.part]

theorem start_Rel {s : RmtReg} {t : Rmt} (hr : Rel s t) (hrun : s.q.running = false) (pc : AddPc) :
    Rel (startQueue .idf4 { s with pc := pc }).sync (Rmt.startQueue .idf4 { t with pc := pc }).sync := by
  obtain ⟨hsync, one, ht, hp⟩ := id hr
  generalize t.out = out at ht hp
  subst ht
  have hidle : s.ena = false ∧ s.sending = false ∧ s.thr = false ∧ s.fin = false ∧ SameOut s.wire.reverse (labs out.reverse) := by
    cases hp
    case idle ena sending thr fin wire => exact ⟨ena, sending, thr, fin, wire⟩
    all_goals simp_all
  obtain ⟨ena, sending, thr, fin, wire⟩ := hidle
  unfold startQueue Rmt.startQueue
  by_cases h1 : s.q.readIdx = s.q.nextWriteIdx
  · dsimp only
    rw [if_pos h1, if_pos (show (s.abs one false out).q.readIdx = (s.abs one false out).q.nextWriteIdx from h1), if_neg (by simp [RmtVer.isIdf5])]
    exact Rel.mk (one := one) (out := out) (by simp [abs, ena]) (.idle rfl rfl thr fin wire)
  · dsimp only
    rw [if_neg h1, if_neg (show ¬ (s.abs one false out).q.readIdx = (s.abs one false out).q.nextWriteIdx from h1), if_neg (show ¬ RmtVer.isIdf5 .idf4 = true by simp [RmtVer.isIdf5]), if_pos (show RmtVer.idf4 = .idf4 from rfl)]
    let s1 : RmtReg :=
      { s with
        pc := pc, sending := false, pos := 0, cnt := 0, ena := false, stopped := false, mem1 := Rmt.pattern .idf4 0 s.mem1, mem2 := Rmt.pattern .idf4 31 s.mem2, has0 := true, has1 := true
        q := Rmt.toggleHead { s.q with running := true } }
    change Rel (RmtReg.sync { applyCommand .idf4 false (applyCommand .idf4 true s1) with lim := 32, ena := true, stopped := false, conti := true, sending := true }) _
    have hstart : ({ s.abs one false out with
        q := { Rmt.toggleHead s.q with running := true }, stopped := false, tx := true, starting := true, partOne := true, mem1 := Rmt.pattern .idf4 0 s.mem1
        mem2 := Rmt.pattern .idf4 31 s.mem2, lastSteps := true, prevSteps := true, pc := pc } : Rmt) = ({ s1 with ena := true } : RmtReg).abs true true out := by
      rw [← toggleHead_run]
      rfl
    obtain ⟨k, g1, g2, _⟩ := fill_abs { s1 with ena := true } true true out rfl
    obtain ⟨f1, f2, f3, f4, f5, f6, f7, f8, f9, f10, f11, f12, f13, f14, f15⟩ := apply_frame .idf4 true { s1 with ena := true }
    rw [← hstart] at g1
    change Rel _ (Rmt.sync { Rmt.fill .idf4 (Rmt.fill .idf4 { s.abs one false out with
        q := { Rmt.toggleHead s.q with running := true }, stopped := false, tx := true, starting := true, partOne := true, mem1 := Rmt.pattern .idf4 0 s.mem1
        mem2 := Rmt.pattern .idf4 31 s.mem2, lastSteps := true, prevSteps := true, pc := pc }) with stopped := false })
    rw [g1]
    have he1 := apply_ena .idf4 true true s1
    obtain ⟨f11, f16, f17⟩ := f11 rfl
    have f14 := f14 (pattern_length 0 s.mem1)
    have f15 := f15 (pattern_length 31 s.mem2)
    obtain ⟨k', g1', g2', g3'⟩ := fill_abs (applyCommand .idf4 true { s1 with ena := true }) false false (k :: out) f16
    change Rmt.fill _ ((applyCommand .idf4 true { s1 with ena := true }).abs false false (k :: out)) = _ at g1'
    change Rel _ (Rmt.sync { Rmt.fill .idf4 ((applyCommand .idf4 true { s1 with ena := true }).abs false false (k :: out)) with stopped := false })
    rw [g1']
    obtain ⟨h1, h2, h3, h4, h5, h6, h7, h8, h9, h10, h11, h12, h13, h14, h15⟩ := apply_frame .idf4 false (applyCommand .idf4 true { s1 with ena := true })
    have he2 := apply_ena .idf4 false true (applyCommand .idf4 true s1)
    rw [← he1] at he2
    have h14 := h14 f14
    have h15 := h15 f15
    have h12 := h12 rfl
    have hrun : (applyCommand .idf4 false (applyCommand .idf4 true { s1 with ena := true })).q.running = true := by
      rw [h10, f10]
      exact (toggleHead_frame _).2.2.2.1
    have hfinal : ({ applyCommand .idf4 false (applyCommand .idf4 true s1) with lim := 32, ena := true, stopped := false, conti := true, sending := true } : RmtReg)
        = { applyCommand .idf4 false (applyCommand .idf4 true { s1 with ena := true }) with lim := 32, ena := true, stopped := false, conti := true, sending := true } := by
      rw [he2]
    rw [hfinal]
    generalize applyCommand .idf4 true { s1 with ena := true } = a at *
    generalize applyCommand .idf4 false a = b at *
    refine Rel.mk (one := true) (out := k' :: k :: out) ?_ ?_
    · change Rmt.mk _ _ _ _ _ _ _ _ _ _ _ = Rmt.mk _ _ _ _ _ _ _ _ _ _ _
      have : b.ena = true := h4.trans f4
      simp [abs, this]
    · refine .partOne k' k out rfl hrun h14 h15 (by change b.pos ≤ 62; rw [h6, f6]; simp [s1]) rfl rfl rfl rfl rfl (h3.trans (f3.trans fin)) ?_ (by rw [g2']; rfl) (by rw [g2]; simp [lev1, h12]) g3' ?_ ?_ ?_ (Or.inl rfl)
      · change b.thr = decide (31 < b.pos)
        rw [h2, f2, h6, f6]
        exact thr
      · change SameOut b.wire.reverse (labs out.reverse ++ lw (b.mem1.take b.pos) k.level ++ lw (b.mem2.take (b.pos - 31)) k'.level)
        rw [h8, f8, h6, f6]
        change SameOut s.wire.reverse (labs out.reverse ++ [] ++ [])
        rw [List.append_nil, List.append_nil]
        exact wire
      · intro _
        change b.cnt + 32 = 32 + b.pos
        rw [h7, f7, h6, f6]
        rfl
      · intro h
        change 31 < b.pos at h
        rw [h6, f6] at h
        simp [s1] at h

theorem Rel.tpc {s t} (h : Rel s t) : t.pc = s.pc ∧ t.q = s.q ∧ t.tx = s.ena ∧ t.stopped = s.stopped := by
  obtain ⟨_, one, ht, _⟩ := h
  rw [ht]
  exact ⟨rfl, rfl, rfl, rfl⟩

/-- An event which changes only the queue and the phase of addQueueEntry. -/
theorem Rel.queue {s t} (h : Rel s t) (q : Queue) (pc : AddPc) (hq : q.running = s.q.running) : Rel ({ s with q := q, pc := pc } : RmtReg).sync ({ t with q := q, pc := pc } : Rmt).sync := by
  obtain ⟨_, one, ht, hp⟩ := h
  generalize t.out = out at ht hp
  subst ht
  exact Rel.mk (one := one) (out := out) rfl (hp.congr rfl rfl rfl rfl rfl rfl rfl rfl rfl rfl rfl rfl hq)

theorem commit_running (q : Queue) (next : QueueEnd) : (q.commit next).1.running = q.running := by
  unfold Queue.commit
  repeat' split
  all_goals rfl

theorem Rel.self {s t} (h : Rel s t) : Rel s.sync t.sync := by
  obtain ⟨hs, one, ht, hp⟩ := id h
  rw [hs, Rel.keep hs ht]
  exact h

theorem step_Rel {s t} (h : Rel s t) (ev : Ev) (ht : Timely .idf4 s ev) (hc : t.tx = true → ∀ c cs, t.out = c :: cs → c.level = t.q.dirLevel) (hsteady : Steady t.out) : Rel (s.step .idf4 ev) (Rmt.run .idf4 t (s.seen ev)) := by
  obtain ⟨hpc, hq, htx, hst⟩ := h.tpc
  cases ev with
  | word =>
    by_cases hs : s.sending = true
    · change Rel (RmtReg.sync (if s.sending then _ else _)) t
      rw [if_pos hs]
      obtain ⟨hsync, one, hto, hp⟩ := h
      rw [← Rel.keep hsync hto]
      refine Rel.mk (one := one) (out := t.out) ?_ (word_Ph hp hs (ht hs) (by rw [← htx, ← hq]; exact hc) hsteady)
      obtain ⟨f1, f2, f3, f4, f5, f6, f7, f8, f9, f10⟩ := word_frame .idf4 s
      refine hto.trans ?_
      unfold abs
      rw [f1, f2, f3, f4, f5, f6, f7, f10]
    · exact step_none s h rfl (by change RmtReg.sync (if s.sending then _ else _) = _; rw [if_neg hs])
  | isr => exact isr_Rel h
  | addBegin c start =>
    change Rel (RmtReg.sync (match s.pc with | .idle => _ | _ => s)) (Rmt.sync (match t.pc with | .idle => _ | _ => t))
    rw [hpc]
    cases hp : s.pc with
    | idle =>
      dsimp only
      rw [hq]
      by_cases h1 : (!s.q.ready) = true
      · rw [if_pos h1, if_pos h1]; exact h.self
      rw [if_neg h1, if_neg h1]
      by_cases h2 : s.q.isQueueFull .esp32 = true
      · rw [if_pos h2, if_pos h2]; exact h.self
      rw [if_neg h2, if_neg h2]
      by_cases h3 : Queue.commandRateTicks c < ArchId.esp32.minCmdTicks
      · rw [if_pos h3, if_pos h3]; exact h.self
      rw [if_neg h3, if_neg h3]
      exact h.queue _ _ rfl
    | prepared _ _ _ => exact h.self
    | committed _ => exact h.self
  | addCommit =>
    change Rel (RmtReg.sync (match s.pc with | .prepared next _ start => _ | _ => s)) (Rmt.sync (match t.pc with | .prepared next _ start => _ | _ => t))
    rw [hpc]
    cases hp : s.pc with
    | prepared next _ start =>
      dsimp only
      rw [hq]
      exact h.queue _ _ (commit_running _ _)
    | idle => exact h.self
    | committed _ => exact h.self
  | addFinish =>
    change Rel (RmtReg.sync (match s.pc with | .committed start => _ | _ => s)) (Rmt.sync (match t.pc with | .committed start => _ | _ => t))
    rw [hpc]
    cases hp : s.pc with
    | committed start =>
      dsimp only
      rw [hq]
      by_cases h1 : (!s.q.running && start) = true
      · rw [if_pos h1, if_pos h1]
        have h2 := start_Rel h (by simp at h1; exact h1.1) .idle
        rw [hq] at h2
        exact h2
      · rw [if_neg h1, if_neg h1]
        exact h.queue s.q .idle rfl
    | idle => exact h.self
    | prepared _ _ _ => exact h.self
  | startNull =>
    change Rel (RmtReg.sync (match s.pc with | .idle => _ | _ => s)) (Rmt.sync (match t.pc with | .idle => _ | _ => t))
    rw [hpc]
    cases hp : s.pc with
    | idle =>
      dsimp only
      rw [hq]
      by_cases h1 : (s.q.addNull true).start = true
      · rw [if_pos h1, if_pos h1]
        have h2 := start_Rel h (AvrTimer.addNull_running h1) .idle
        have h3 : ({ s with pc := AddPc.idle } : RmtReg) = s := by rw [← hp]
        have h4 : ({ t with pc := AddPc.idle } : Rmt) = t := by rw [← hp, ← hpc]
        rw [h3, h4] at h2
        exact h2
      · rw [if_neg h1, if_neg h1]; exact h.self
    | committed _ => exact h.self
    | prepared _ _ _ => exact h.self
  | forceStop p => exact ht.elim
  | clearIgnore =>
    have h1 := h.queue { s.q with ignoreCommands := false } s.pc rfl
    change Rel _ (Rmt.sync { t with q := { t.q with ignoreCommands := false } })
    rw [hq]
    have h3 : ({ t with q := { s.q with ignoreCommands := false }, pc := s.pc } : Rmt) = { t with q := { s.q with ignoreCommands := false } } := by rw [← hpc]
    rw [h3] at h1
    exact h1
  | detach =>
    refine step_none s h rfl ?_
    change RmtReg.sync { s with ena := false } = _
    have h3 : ({ s with ena := false } : RmtReg) = s := by
      rw [← show s.ena = false from ht]
    rw [h3]

theorem run_append (v : RmtVer) (t : Rmt) (a b : List Rmt.Ev) : Rmt.run v t (a ++ b) = Rmt.run v (Rmt.run v t a) b := List.foldl_append ..

theorem fresh_Rel (pin : Nat) (hi : Bool) (m1 m2 : List Nat) : Rel (freshMem pin hi m1 m2) ((freshMem pin hi m1 m2).abs true false []) := by
  refine ⟨?_, true, ?_, .idle rfl rfl rfl rfl (.refl _)⟩
  · unfold sync freshMem fresh Queue.setDirPin
    rfl
  · rfl

/-- The events as seen by Model/Rmt.lean. -/
theorem seen_ok {s : RmtReg} {ev : Ev} (h : Timely .idf4 s ev) {enc : Prop} (hb : ev.Basic) (hp : enc → ev.Plain .idf4) : ∀ e ∈ s.seen ev, e.Basic ∧ (enc → e.Plain .idf4) := by
  intro e he
  cases ev with
  | word => cases he
  | isr =>
    rcases List.mem_append.mp he with he | he
    · split at he
      · split at he
        · simp at he; subst he; exact ⟨trivial, fun _ => trivial⟩
        · simp at he; subst he; exact ⟨trivial, fun _ => trivial⟩
      · cases he
    · split at he
      · simp at he; subst he; exact ⟨trivial, fun _ => trivial⟩
      · cases he
  | addBegin c start => simp [seen] at he; subst he; exact ⟨hb, hp⟩
  | addCommit => simp [seen] at he; subst he; exact ⟨trivial, fun _ => trivial⟩
  | addFinish => simp [seen] at he; subst he; exact ⟨trivial, fun _ => trivial⟩
  | startNull => simp [seen] at he; subst he; exact ⟨trivial, fun _ => trivial⟩
  | forceStop p => exact h.elim
  | clearIgnore => simp [seen] at he; subst he; exact ⟨trivial, fun _ => trivial⟩
  | detach => cases he

/-- The commands accepted are the same. -/
theorem seen_accepts {s t} (h : Rel s t) (ev : Ev) (acc : List Cmd) : (Rmt.track .idf4 t acc (s.seen ev)).2 = acc ++ s.accepts ev := by
  obtain ⟨hpc, hq, _, _⟩ := h.tpc
  cases ev with
  | addCommit =>
    change acc ++ t.accepts .addCommit = acc ++ s.accepts .addCommit
    unfold Rmt.accepts accepts
    rw [hpc, hq]
    cases s.pc <;> rfl
  | isr =>
    have : ∀ (l : List Rmt.Ev) (t : Rmt) (acc : List Cmd), (∀ e ∈ l, e = .fill ∨ e = .txDone) → (Rmt.track .idf4 t acc l).2 = acc := by
      intro l
      induction l with
      | nil => intro _ _ _; rfl
      | cons e l ih =>
        intro t acc hl
        change (Rmt.track .idf4 _ (acc ++ t.accepts e) l).2 = acc
        rw [ih _ _ fun e he => hl e (List.mem_cons_of_mem _ he)]
        rcases hl e (by simp) with rfl | rfl <;> exact List.append_nil _
    rw [this]
    · exact (List.append_nil _).symm
    · intro e he
      rcases List.mem_append.mp he with he | he
      · split at he
        · split at he <;> simp at he <;> simp [he]
        · cases he
      · split at he
        · simp at he; simp [he]
        · cases he
  | _ => exact (by first | rfl | simp [seen, Rmt.track, accepts])

/-- The relation holds along a schedule; the commands accepted are the same. -/
theorem track_Rel {lvl D} {enc : Prop} (hD : ∀ u, D u (lvl u)) : ∀ (evs : List Ev) {s t acc}, Rel s t → RInv .idf4 lvl D enc t acc → Along .idf4 (Timely .idf4) s evs →
    (∀ ev ∈ evs, ev.Basic) → (enc → ∀ ev ∈ evs, ev.Plain .idf4) →
    Rel (track .idf4 s acc evs).1 (Rmt.track .idf4 t acc (requests .idf4 s evs)).1 ∧ RInv .idf4 lvl D enc (Rmt.track .idf4 t acc (requests .idf4 s evs)).1 (track .idf4 s acc evs).2 ∧
      (track .idf4 s acc evs).2 = (Rmt.track .idf4 t acc (requests .idf4 s evs)).2
  | [], _, _, _, h, hi, _, _, _ => ⟨h, hi, rfl⟩
  | ev :: evs, s, t, acc, h, hi, ha, hb, hp => by
    unfold requests
    rw [Rmt.track_append]
    have hok := seen_ok ha.1 (enc := enc) (hb ev (by simp)) (fun he => hp he ev (by simp))
    have hready : t.q.ready = (!t.q.running || !t.stopped) := by
      obtain ⟨hpc, hq, _, hst⟩ := h.tpc
      have := congrArg (fun s => s.q.ready) h.1
      rw [hq, hst]
      exact this.symm
    have h1 := RInv.run hD (s.seen ev) hi hready (fun e he => (hok e he).1) (fun henc e he => (hok e he).2 henc)
    have h2 := step_Rel h ev ha.1 (fun htx c cs he => (hi.cur htx (by obtain ⟨_, one, ht, _⟩ := h; rw [ht]; rfl) c cs he).1) hi.steady
    rw [seen_accepts h] at h1 ⊢
    rw [Rmt.track_fst .idf4 (s.seen ev) t acc] at h1 ⊢
    exact track_Rel hD evs h2 h1 ha.2 (fun e he => hb e (List.mem_cons_of_mem _ he)) (fun henc e he => hp henc e (List.mem_cons_of_mem _ he))

/-- On the ESP32 the inserted pauses contain no level of duration 0. -/
theorem fill_pauses {t : Rmt} (h : ∀ k ∈ t.out, k.up = none → NoEnd k.segs) : ∀ k ∈ (t.fill .idf4).out, k.up = none → NoEnd k.segs := by
  have hsend : ∀ (t' : Rmt) (words : List Nat) (idle : Bool) (up : Option Bool), t'.out = t.out → words.length = 31 → (up = none → NoEnd (words.flatMap rmtDecode)) →
      ∀ k ∈ (t'.send .idf4 words idle up).out, k.up = none → NoEnd k.segs := by
    intro t' words idle up ho hl hn k hk hu
    obtain ⟨segs, e1, e2⟩ := send_out .idf4 t' words idle up
    rw [e1, ho] at hk
    rcases List.mem_cons.mp hk with hk | hk
    · subst hk
      rw [e2 hl]
      exact (hn hu).append (by cases idle <;> simp [NoEnd])
    · exact h k hk hu
  unfold Rmt.fill
  split
  · exact h
  · split
    · dsimp only
      refine hsend t _ _ _ rfl ?_ fun _ => ?_
      · cases t.partOne <;> rfl
      · cases t.partOne <;> (unfold NoEnd; decide +kernel)
    · dsimp only
      by_cases h2 : ((t.q.slot .esp32 t.q.readIdx).toggleDir && t.lastSteps) = true
      · rw [if_pos h2]
        exact hsend t _ _ _ rfl rfl fun _ => by unfold NoEnd; decide +kernel
      · rw [if_neg h2]
        intro k hk hu
        obtain ⟨segs, e1, e2⟩ := send_out .idf4 { t with q := Rmt.toggleHead t.q }
          (if (decide (RmtVer.idf4 = .idf4) && !t.partOne) = true then Rmt.decLast (if (t.q.slot .esp32 t.q.readIdx).steps = 0 then (RmtVer.pauseWords .idf4 (t.q.slot .esp32 t.q.readIdx).ticks, 0) else RmtVer.stepWords .idf4 (t.q.slot .esp32 t.q.readIdx).steps (t.q.slot .esp32 t.q.readIdx).ticks).1
            else (if (t.q.slot .esp32 t.q.readIdx).steps = 0 then (RmtVer.pauseWords .idf4 (t.q.slot .esp32 t.q.readIdx).ticks, 0) else RmtVer.stepWords .idf4 (t.q.slot .esp32 t.q.readIdx).steps (t.q.slot .esp32 t.q.readIdx).ticks).1)
          (decide (RmtVer.idf4 = .idf4) && !t.partOne) (some (t.q.slot .esp32 t.q.readIdx).countUp)
        rw [e1] at hk
        rcases List.mem_cons.mp hk with hk | hk
        · subst hk; cases hu
        · exact h k hk hu

theorem run_pauses : ∀ (evs : List Rmt.Ev) {t : Rmt}, (∀ k ∈ t.out, k.up = none → NoEnd k.segs) → ∀ k ∈ (Rmt.run .idf4 t evs).out, k.up = none → NoEnd k.segs
  | [], _, h => h
  | ev :: evs, t, h => by
    refine run_pauses evs (t := t.step .idf4 ev) ?_
    have hstart : ∀ t' : Rmt, t'.out = t.out → ∀ k ∈ (t'.startQueue .idf4).out, k.up = none → NoEnd k.segs := by
      intro t' ho
      unfold Rmt.startQueue
      split
      · split
        · rw [ho]; exact h
        · change ∀ k ∈ t'.out, _
          rw [ho]; exact h
      · dsimp only
        rw [if_neg (show ¬ RmtVer.isIdf5 .idf4 = true by simp [RmtVer.isIdf5])]
        refine fill_pauses (fill_pauses ?_)
        rw [← ho] at h
        exact h
    unfold Rmt.step
    cases ev with
    | fill =>
      change ∀ k ∈ (if t.tx then t.fill .idf4 else t).out, _
      split
      · exact fill_pauses h
      · exact h
    | txDone =>
      change ∀ k ∈ (if t.tx && t.stopped then _ else t).out, _
      split <;> exact h
    | addBegin c start =>
      dsimp only
      cases t.pc <;> try exact h
      dsimp only
      repeat' split
      all_goals exact h
    | addCommit =>
      dsimp only
      cases t.pc <;> exact h
    | addFinish =>
      dsimp only
      cases t.pc <;> try exact h
      dsimp only
      split
      · exact hstart _ rfl
      · exact h
    | startNull =>
      dsimp only
      cases t.pc <;> try exact h
      dsimp only
      split
      · exact hstart _ rfl
      · exact h
    | forceStop p =>
      dsimp only
      cases t.pc <;> exact h
    | clearIgnore => exact h

/-- All parts of Plays. -/
theorem plays_NoEnd {slack D} : ∀ {cs w}, Plays slack D cs w → (∀ k ∈ w, k.up = none → NoEnd k.segs) → ∀ k ∈ w, NoEnd k.segs := by
  intro cs w h
  induction h with
  | nil => intro _ k hk; cases hk
  | pause k h hk hu ih =>
    intro ha x hx
    rcases List.mem_append.mp hx with hx | hx
    · exact ih (fun y hy => ha y (List.mem_append_left _ hy)) x hx
    · simp at hx
      subst hx
      exact ha x (by simp) hu
  | cmd c r h hr hd ih =>
    intro ha x hx
    rcases List.mem_append.mp hx with hx | hx
    · exact ih (fun y hy => ha y (List.mem_append_left _ hy)) x hx
    · intro g hg
      exact hr.1 g (List.mem_flatMap.mpr ⟨x, hx, hg⟩)

theorem lw_prefix (l : List Nat) (n : Nat) (b : Bool) : lw (l.take n) b <+: lw l b := by
  have : lw l b = lw (l.take n) b ++ lw (l.drop n) b := by
    unfold lw
    rw [← List.map_append, ← List.flatMap_append, List.take_append_drop]
  rw [this]
  exact List.prefix_append _ _

theorem both_prefix {s : RmtReg} {k1 k2 : Chunk} {ks : List Chunk} (l1 : s.mem1.length = 31) (e1 : k1.segs = s.lev2) (e2 : k2.segs = s.lev1) :
    labs ks.reverse ++ lw (s.mem1.take s.pos) k2.level ++ lw (s.mem2.take (s.pos - 31)) k1.level <+: labs (k1 :: k2 :: ks).reverse := by
  rw [labs_cons, labs_cons, lev1_lw e2, lev2_lw e1]
  by_cases h : s.pos ≤ 31
  · rw [show s.pos - 31 = 0 by omega]
    change labs ks.reverse ++ lw (s.mem1.take s.pos) k2.level ++ [] <+: _
    rw [List.append_nil]
    exact ((List.prefix_append_right_inj _).mpr (lw_prefix _ _ _)).trans (List.prefix_append _ _)
  · rw [List.take_of_length_le (show s.mem1.length ≤ s.pos by omega)]
    exact (List.prefix_append_right_inj _).mpr ((lw_prefix _ _ _).trans (List.prefix_append _ _))

/-- What is on the wire. -/
theorem Ph.out {s : RmtReg} {one : Bool} {out : List Chunk} (h : Ph s one out) :
    ∃ a, SameOut s.wire.reverse a ∧ a <+: labs out.reverse ∧ labs (out.drop 2).reverse <+: a ∧ (s.sending = false → a = labs out.reverse) := by
  cases h
  case idle ena sending thr fin wire =>
    refine ⟨_, wire, List.prefix_rfl, ?_, fun _ => rfl⟩
    have : out.reverse = (out.drop 2).reverse ++ (out.take 2).reverse := by rw [← List.reverse_append, List.take_append_drop]
    rw [this]
    unfold labs
    rw [List.flatMap_append]
    exact List.prefix_append _ _
  case ended ena run st sending fin wire =>
    refine ⟨_, wire, List.prefix_rfl, ?_, fun _ => rfl⟩
    have : out.reverse = (out.drop 2).reverse ++ (out.take 2).reverse := by rw [← List.reverse_append, List.take_append_drop]
    rw [this]
    unfold labs
    rw [List.flatMap_append]
    exact List.prefix_append _ _
  case partOne k1 k2 ks ena run l1 l2 pos eq o st sending conti fin thr e1 e2 nf wire lo hi lim =>
    refine ⟨_, wire, ?_, ?_, fun h => by rw [sending] at h; cases h⟩
    · rw [eq]; exact both_prefix l1 e1 e2
    · rw [eq, List.append_assoc]; exact List.prefix_append _ _
  case inTwo k1 k2 ks ena run l1 l2 pos eq o st sending conti fin thr e1 e2 nf wire cnt lim =>
    refine ⟨_, wire, ?_, ?_, fun h => by rw [sending] at h; cases h⟩
    · rw [eq, labs_cons, labs_cons, lev2_lw e2]
      exact ((List.prefix_append_right_inj _).mpr ((lw_prefix _ _ _).trans (List.prefix_append _ _))).trans (List.prefix_append _ _)
    · rw [eq]; exact List.prefix_append _ _
  case afterTwo k1 k2 ks ena run l1 l2 pos eq o st sending conti fin thr e1 e2 nf wire cnt lim =>
    refine ⟨_, wire, ?_, ?_, fun h => by rw [sending] at h; cases h⟩
    · rw [eq, labs_cons k1, lev1_lw e1]
      exact (List.prefix_append_right_inj _).mpr (lw_prefix _ _ _)
    · rw [eq, labs_cons, List.append_assoc]; exact List.prefix_append _ _
  case ending k1 k2 ks ena run l1 l2 pos eq st sending conti fin e1 e2 nf wire =>
    refine ⟨_, wire, ?_, ?_, fun h => by rw [sending] at h; cases h⟩
    · rw [eq]; exact both_prefix l1 e1 e2
    · rw [eq, List.append_assoc]; exact List.prefix_append _ _

/-- The transmission will have ended after `N` more words: `f` more parts are needed until the peripheral is stopped. -/
inductive Left (N : Nat) (s : RmtReg) (t : Rmt) : Prop
  | over (h : s.sending = false) (he : s.ena = true ∨ (s.q.pending .esp32 = [] ∧ s.q.running = false))
  | ending (h : s.stopped = true) (he : s.ena = true) (hN : 63 ≤ N + s.pos)
  | more (f : Nat) (h : s.stopped = false) (he : s.ena = true) (hf : (Rmt.run .idf4 t (List.replicate f .fill)).stopped = true)
    (hN : 63 * f + (if t.partOne then 62 else if 31 < s.pos then 94 else 31) ≤ N + s.pos)

theorem Left.zero {s t} (h : Left 0 s t) (hr : Rel s t) : s.sending = false ∧ (s.ena = true ∨ (s.q.pending .esp32 = [] ∧ s.q.running = false)) := by
  obtain ⟨hsync, one, ht, hp⟩ := hr
  cases h with
  | over h he => exact ⟨h, he⟩
  | ending h he hN =>
    cases hp
    case idle ena sending thr fin wire => rw [he] at ena; cases ena
    case ended ena run st sending fin wire => exact ⟨sending, Or.inl he⟩
    all_goals omega
  | more f h he hf hN =>
    have hf0 : f ≠ 0 := by
      intro h0
      subst h0
      rw [ht] at hf
      change s.stopped = true at hf
      rw [h] at hf
      cases hf
    cases hp
    case idle ena sending thr fin wire => rw [he] at ena; cases ena
    case ended ena run st sending fin wire => exact ⟨sending, Or.inl he⟩
    all_goals
      exfalso
      repeat' split at hN
      all_goals omega

theorem Left.mono {N M s t} (h : Left N s t) (hNM : N ≤ M) : Left M s t := by
  cases h with
  | over h he => exact .over h he
  | ending h he hN => exact .ending h he (by omega)
  | more f h he hf hN => exact .more f h he hf (by omega)

theorem Left.word {N s t} (h : Left (N + 1) s t) (hr : Rel s t) (ht : Timely .idf4 s .word) : Left N (s.step .idf4 .word) t := by
  by_cases hs : s.sending = true
  rotate_left
  · have heq : s.step .idf4 .word = s := by
      change RmtReg.sync (if s.sending then _ else _) = _
      rw [if_neg hs, hr.1]
    rw [heq]
    cases h with
    | over h he => exact .over h he
    | ending h he hN =>
      exact .over (by simpa using hs) (Or.inl he)
    | more f h he hf hN => exact .over (by simpa using hs) (Or.inl he)
  have heq : s.step .idf4 .word = RmtReg.sync (RmtReg.word .idf4 s) := by
    change RmtReg.sync (if s.sending then _ else _) = _
    rw [if_pos hs]
  rw [heq]
  obtain ⟨f1, f2, f3, f4, f5, f6, f7, f8, f9, f10⟩ := word_frame .idf4 s
  obtain ⟨hsync, one, hta, hp⟩ := hr
  have hone : t.partOne = one := by rw [hta]; rfl
  have ht := ht hs
  change s.pos = 31 ∨ s.pos = 62 → _ at ht
  cases h with
  | over h he => rw [hs] at h; cases h
  | ending h he hN =>
    cases hp
    case ending k1 k2 ks ena run l1 l2 pos eq st sending conti fin e1 e2 nf wire =>
      by_cases hlt : s.pos < 62
      · refine .ending (f2.trans h) (f10.trans he) ?_
        change 63 ≤ N + (RmtReg.word .idf4 s).pos
        have : (RmtReg.word .idf4 s).pos = s.pos + 1 := by
          by_cases h1 : s.pos < 31
          · exact (word_one s l1 h1).1
          · exact (word_two s l2 (by omega) hlt).1
        omega
      · refine .over ?_ (Or.inl (f10.trans he))
        obtain ⟨g1, g2, g3, g4, g5, g6⟩ := word_end s (by omega)
        change (RmtReg.word .idf4 s).sending = false
        rw [g3, conti, Bool.and_false]
    case idle ena sending thr fin wire => rw [he] at ena; cases ena
    case ended ena run st sending fin wire => rw [hs] at sending; cases sending
    all_goals simp_all
  | more f h he hf hN =>
    have hpos : 1 + (if t.partOne then 62 else if 31 < s.pos then 94 else 31) + (RmtReg.word .idf4 s).pos ≥ (if t.partOne then 62 else if 31 < (RmtReg.word .idf4 s).pos then 94 else 31) + s.pos + 2 := by
      rw [hone]
      cases hp
      case idle ena sending thr fin wire => rw [he] at ena; cases ena
      case ended ena run st sending fin wire => rw [hs] at sending; cases sending
      case ending k1 k2 ks ena run l1 l2 pos eq st sending conti fin e1 e2 nf wire => rw [st] at h; cases h
      case partOne k1 k2 ks ena run l1 l2 pos eq o st sending conti fin thr e1 e2 nf wire lo hi lim =>
        have hlt : s.pos < 62 := by
          refine Nat.lt_of_le_of_ne pos fun h => ?_
          have := (ht (Or.inr h)).1
          rw [thr, h] at this
          cases this
        have : (RmtReg.word .idf4 s).pos = s.pos + 1 := by
          by_cases h1 : s.pos < 31
          · exact (word_one s l1 h1).1
          · exact (word_two s l2 (by omega) hlt).1
        rw [o, if_pos rfl, if_pos rfl]
        omega
      case inTwo k1 k2 ks ena run l1 l2 pos eq o st sending conti fin thr e1 e2 nf wire cnt lim =>
        rw [o, if_neg (show ¬ (false = true) by simp), if_neg (show ¬ (false = true) by simp), if_pos pos.1]
        by_cases hlt : s.pos < 62
        · have := (word_two s l2 (by omega) hlt).1
          rw [if_pos (by omega)]
          omega
        · have := (word_end s (by omega)).1
          rw [conti, if_pos rfl] at this
          rw [if_neg (by omega)]
          omega
      case afterTwo k1 k2 ks ena run l1 l2 pos eq o st sending conti fin thr e1 e2 nf wire cnt lim =>
        have hlt : s.pos < 31 := by
          refine Nat.lt_of_le_of_ne pos fun h => ?_
          have := (ht (Or.inl h)).2
          rw [fin] at this
          cases this
        have := (word_one s l1 hlt).1
        rw [o, if_neg (show ¬ (false = true) by simp), if_neg (show ¬ (false = true) by simp), if_neg (show ¬ 31 < s.pos by omega), if_neg (by omega)]
        omega
    refine .more f (f2.trans h) (f10.trans he) hf ?_
    change 63 * f + (if t.partOne then 62 else if 31 < (RmtReg.word .idf4 s).pos then 94 else 31) ≤ N + (RmtReg.word .idf4 s).pos
    omega

theorem isr_frame (s : RmtReg) (h : s.ena = true) (h2 : s.stopped = false → s.fin = false ∨ s.thr = false) : let s' := s.step .idf4 .isr
    s'.sending = s.sending ∧ s'.pos = s.pos ∧ (s.stopped = true → s'.stopped = true ∧ s'.q.pending .esp32 = s.q.pending .esp32) ∧ (s.stopped = false ∨ s.fin = false → s'.ena = true) := by
  intro s'
  have hs' : s' = (RmtReg.isr .idf4 s).sync := rfl
  by_cases h0 : s.fin = true
  · cases h1 : s.stopped
    · obtain ⟨f1, f2, f3, f4, f5, f6, f7, f8, f9, f10, f11, f12, f13, f14, f15⟩ := apply_frame .idf4 false { s with fin := false }
      rw [hs', isr_fin s h0 (by simpa [h0] using h2 h1) h h1]
      exact ⟨f5, f6, fun h => (by simp at h), fun _ => f4.trans h⟩
    · rw [hs', isr_end s h0 h h1]
      exact ⟨rfl, rfl, fun _ => ⟨h1, rfl⟩, fun hx => by rcases hx with hx | hx <;> simp_all⟩
  · have h0 : s.fin = false := by simpa using h0
    cases h3 : s.thr
    · rw [hs', isr_none _ _ (by simp [h0]) (by simp [h3])]
      exact ⟨rfl, rfl, fun hx => ⟨hx, rfl⟩, fun _ => h⟩
    · rw [hs', isr_thr s h0 h3 h]
      by_cases h1 : s.stopped = true
      · rw [if_pos h1]
        exact ⟨rfl, rfl, fun hx => ⟨hx, rfl⟩, fun _ => h⟩
      · rw [if_neg h1]
        obtain ⟨f1, f2, f3, f4, f5, f6, f7, f8, f9, f10, f11, f12, f13, f14, f15⟩ := apply_frame .idf4 true { s with thr := false }
        exact ⟨f5, f6, fun hx => absurd hx h1, fun _ => f4.trans h⟩

theorem run_fills_succ (t : Rmt) (f : Nat) : Rmt.run .idf4 t (List.replicate (f + 1) .fill) = Rmt.run .idf4 (Rmt.run .idf4 t [.fill]) (List.replicate f .fill) := rfl

theorem fill_partOne {s t} (hr : Rel s t) (h : s.stopped = false) (he : s.ena = true) : (Rmt.run .idf4 t [.fill]).partOne = !t.partOne := by
  obtain ⟨_, one, ht, _⟩ := hr
  rw [ht]
  obtain ⟨k, g1, _⟩ := fill_abs s one false t.out h
  rw [run_fill s one t.out he, g1]
  rfl

theorem Left.isr {N s t} (h : Left N s t) (hr : Rel s t) (hi : s.ena = true → s.stopped = true → s.q.pending .esp32 = []) :
    Left N (s.step .idf4 .isr) (Rmt.run .idf4 t (s.seen .isr)) := by
  have hr' := isr_Rel hr
  obtain ⟨hsync, one, hta, hp⟩ := id hr
  have hone : t.partOne = one := by rw [hta]; rfl
  have hnone : (s.fin && s.ena) = false → (s.thr && s.ena) = false → s.step .idf4 .isr = s := by
    intro h1 h2
    change RmtReg.sync (RmtReg.isr .idf4 s) = s
    rw [isr_none _ _ h1 h2, hsync]
  cases hp
  case idle ena sending thr fin wire =>
    rw [hnone (by simp [fin]) (by simp [thr])]
    cases h with
    | over h he => exact .over h he
    | ending h he hN => rw [ena] at he; cases he
    | more f h he hf hN => rw [ena] at he; cases he
  case ended ena run st sending fin wire =>
    obtain ⟨g1, g2, g3, g4⟩ := isr_frame s ena (fun hx => by rw [st] at hx; cases hx)
    refine .over (g1.trans sending) (Or.inr ⟨(g3 st).2.trans (hi ena st), ?_⟩)
    change (RmtReg.isr .idf4 s).sync.q.running = false
    rw [isr_end s fin ena st]
    rfl
  case ending k1 k2 ks ena run l1 l2 pos eq st sending conti fin e1 e2 nf wire =>
    obtain ⟨g1, g2, g3, g4⟩ := isr_frame s ena (fun hx => by rw [st] at hx; cases hx)
    cases h with
    | over h he => rw [sending] at h; cases h
    | ending h he hN => exact .ending (g3 st).1 (g4 (Or.inr fin)) (by rw [g2]; exact hN)
    | more f h he hf hN => rw [st] at h; cases h
  case inTwo k1 k2 ks ena run l1 l2 pos eq o st sending conti fin thr e1 e2 nf wire cnt lim =>
    have hseen : s.seen .isr = [] := by simp [seen, fin, thr]
    rw [hnone (by simp [fin]) (by simp [thr]), hseen]
    exact h
  case partOne k1 k2 ks ena run l1 l2 pos eq o st sending conti fin thr e1 e2 nf wire lo hi lim =>
    cases hthr : s.thr
    · have hseen : s.seen .isr = [] := by simp [seen, fin, hthr]
      rw [hnone (by simp [fin]) (by simp [hthr]), hseen]
      exact h
    · have hpos : 31 < s.pos := by rw [hthr] at thr; simpa using thr.symm
      have hseen : s.seen .isr = [.fill] := by simp [seen, fin, hthr, ena, st]
      obtain ⟨g1, g2, g3, g4⟩ := isr_frame s ena (fun _ => Or.inl fin)
      rw [hseen]
      cases h with
      | over h he => rw [sending] at h; cases h
      | ending h he hN => rw [st] at h; cases h
      | more f h he hf hN =>
        cases f with
        | zero => rw [hta] at hf; change s.stopped = true at hf; rw [h] at hf; cases hf
        | succ f =>
          have hst' : (s.step .idf4 .isr).stopped = false := by
            obtain ⟨f1, f2, f3, f4, f5, f6, f7, f8, f9, f10, f11, f12, f13, f14, f15⟩ := apply_frame .idf4 true { s with thr := false }
            change (RmtReg.isr .idf4 s).sync.stopped = false
            rw [isr_thr s fin hthr ena, if_neg (by simp [st])]
            exact (f11 rfl).2.1.trans st
          refine .more f hst' (g4 (Or.inl st)) (by rw [run_fills_succ] at hf; exact hf) ?_
          rw [fill_partOne hr st ena, hone, o, if_neg (by simp), g2, if_pos hpos]
          rw [hone, o, if_pos rfl] at hN
          omega
  case afterTwo k1 k2 ks ena run l1 l2 pos eq o st sending conti fin thr e1 e2 nf wire cnt lim =>
    have hseen : s.seen .isr = [.fill] := by simp [seen, fin, thr, ena, st]
    obtain ⟨g1, g2, g3, g4⟩ := isr_frame s ena (fun _ => Or.inr thr)
    have htpc := hr'.tpc
    rw [hseen] at htpc ⊢
    cases h with
    | over h he => rw [sending] at h; cases h
    | ending h he hN => rw [st] at h; cases h
    | more f h he hf hN =>
      rw [hone, o, if_neg (show ¬ (false = true) by simp), if_neg (show ¬ 31 < s.pos by omega)] at hN
      cases f with
      | zero => rw [hta] at hf; change s.stopped = true at hf; rw [h] at hf; cases hf
      | succ f =>
        cases hst' : (s.step .idf4 .isr).stopped
        · refine .more f hst' (g4 (Or.inl st)) (by rw [run_fills_succ] at hf; exact hf) ?_
          rw [fill_partOne hr st ena, hone, o, if_pos (by rfl), g2]
          omega
        · refine .ending hst' (g4 (Or.inl st)) ?_
          rw [g2]
          omega

/-- Words and interrupts until the end of the transmission. -/
theorem Left.run {lvl D} {enc : Prop} (hD : ∀ u, D u (lvl u)) : ∀ (evs : List Ev) {N s t acc}, Left N s t → Rel s t → RInv .idf4 lvl D enc t acc → Along .idf4 (Timely .idf4) s evs →
    (∀ ev ∈ evs, ev = .word ∨ ev = .isr) → Left (N - words evs) (track .idf4 s acc evs).1 (Rmt.track .idf4 t acc (requests .idf4 s evs)).1
  | [], _, _, _, _, h, _, _, _, _ => h
  | ev :: evs, N, s, t, acc, h, hr, hi, ha, hw => by
    have hb : ev.Basic := by rcases hw ev (by simp) with h | h <;> subst h <;> trivial
    have hp : ev.Plain .idf4 := by rcases hw ev (by simp) with h | h <;> subst h <;> trivial
    obtain ⟨h1, h2, h3⟩ := track_Rel hD [ev] hr hi ⟨ha.1, trivial⟩ (fun e he => by simp at he; rw [he]; exact hb) (fun _ e he => by simp at he; rw [he]; exact hp)
    have hreq : requests .idf4 s [ev] = s.seen ev := by unfold requests; exact List.append_nil _
    rw [hreq] at h1 h2 h3
    unfold requests
    rw [Rmt.track_append]
    have hacc : s.accepts ev = [] := by rcases hw ev (by simp) with h | h <;> subst h <;> rfl
    have hacc2 : (Rmt.track .idf4 t acc (s.seen ev)).2 = acc := by rw [seen_accepts hr, hacc, List.append_nil]
    change Rel (s.step .idf4 ev) _ at h1
    rw [hacc2]
    have htr : (track .idf4 s acc [ev]).2 = acc := by rw [h3, hacc2]
    rw [htr] at h2
    have hgoal : track .idf4 s acc (ev :: evs) = track .idf4 (s.step .idf4 ev) acc evs := by
      change track .idf4 (s.step .idf4 ev) (acc ++ s.accepts ev) evs = _
      rw [hacc, List.append_nil]
    rw [hgoal]
    have hstep : Left (N - words [ev]) (s.step .idf4 ev) (Rmt.track .idf4 t acc (s.seen ev)).1 := by
      rw [Rmt.track_fst]
      rcases hw ev (by simp) with he | he
      · subst he
        change Left (N - 1) _ t
        cases N with
        | zero =>
          have h0 := h.zero hr
          have heq : s.step .idf4 .word = s := by
            change RmtReg.sync (if s.sending then _ else _) = _
            rw [if_neg (by simp [h0.1]), hr.1]
          rw [heq]
          exact h
        | succ N => exact h.word hr ha.1
      · subst he
        refine h.isr hr fun h4 h5 => ?_
        obtain ⟨_, hq, htx, hst⟩ := hr.tpc
        rw [← hq]
        exact hi.stop (htx.trans h4) (hst.trans h5)
    have hsum : N - words (ev :: evs) = N - words [ev] - words evs := by
      have : words (ev :: evs) = words [ev] + words evs := by
        unfold words
        exact List.countP_append (l₁ := [ev]) (l₂ := evs) ..
      omega
    rw [hsum]
    exact Left.run hD evs hstep h1 h2 ha.2 (fun e he => hw e (List.mem_cons_of_mem _ he))

/-! ## Force stop -/

/-- Only pauses are in the memory, and the transmission will end. -/
structure Halted (s : RmtReg) : Prop where
  m1 : s.mem1 = stopWords .idf4
  m2 : s.mem2 = stopWords .idf4
  stopped : s.stopped = true
  conti : s.conti = false
  pc : s.pc = .idle
  sync : s.sync = s

theorem Halted.force {s : RmtReg} (h : s.pc = .idle) (p : Int) : Halted (s.step .idf4 (.forceStop p)) := by
  have : s.step .idf4 (.forceStop p) = (forceStopAndNewPosition .idf4 p s).sync := by
    unfold step
    dsimp only
    rw [h]
  have ho : ∀ m, over .idf4 (stopWords .idf4) m = stopWords .idf4 := by
    intro m
    unfold over
    rw [List.take_append_of_le_length (by decide)]
    decide
  rw [this]
  exact ⟨ho _, ho _, rfl, rfl, h, rfl⟩

theorem stopWords_silent (i : Nat) : (rmtDecode ((stopWords .idf4).getD i 0)).filter (fun g => g.high) = [] := by
  by_cases h : i < 31
  · revert h
    revert i
    decide +kernel
  · rw [List.getD_eq_getElem?_getD, List.getElem?_eq_none (by simp [stopWords, RmtVer.part]; omega)]
    decide

theorem emit_pulses (s : RmtReg) (segs : List Seg) (h : segs.filter (fun g => g.high) = []) : (s.emit segs).reverse.filter (fun x => x.1.high) = s.pulses := by
  unfold emit pulses
  rw [List.reverse_append, List.reverse_reverse, List.filter_append, List.filter_map]
  have : (List.filter ((fun x => x.1.high) ∘ fun g => (g, s.q.dirLevel)) segs) = [] := h
  rw [this]
  exact List.append_nil _

theorem Halted.word {s : RmtReg} (h : Halted s) : Halted (s.step .idf4 .word) ∧ (s.step .idf4 .word).pulses = s.pulses := by
  change Halted (RmtReg.sync (if s.sending then s.word .idf4 else s)) ∧ (RmtReg.sync (if s.sending then s.word .idf4 else s)).pulses = _
  cases hsend : s.sending
  · rw [if_neg (by simp)]
    rw [h.sync]
    exact ⟨h, rfl⟩
  · rw [if_pos rfl]
    have hw : ∃ x : RmtReg, s.word .idf4 = { s with pos := x.pos, sending := x.sending, fin := x.fin, wire := x.wire, cnt := x.cnt, thr := x.thr } ∧
        x.wire.reverse.filter (fun x => x.1.high) = s.pulses := by
      refine ⟨s.word .idf4, ?_, ?_⟩
      · unfold RmtReg.word
        dsimp only
        by_cases h1 : s.pos < RmtVer.idf4.part
        · simp only [if_pos h1]
          split <;> rfl
        · simp only [if_neg h1]
          by_cases h2 : s.pos < 2 * RmtVer.idf4.part
          · simp only [if_pos h2]
            split <;> rfl
          · simp only [if_neg h2, if_neg (show ¬ s.conti = true by rw [h.conti]; decide)]
            split <;> rfl
      · have h0 : ([⟨false, 1⟩] : List Seg).filter (fun g => g.high) = [] := rfl
        unfold RmtReg.word
        dsimp only
        by_cases h1 : s.pos < RmtVer.idf4.part
        · simp only [if_pos h1, h.m1]
          split <;> exact emit_pulses s _ (stopWords_silent _)
        · simp only [if_neg h1]
          by_cases h2 : s.pos < 2 * RmtVer.idf4.part
          · simp only [if_pos h2, h.m2]
            split <;> exact emit_pulses s _ (stopWords_silent _)
          · simp only [if_neg h2, if_neg (show ¬ s.conti = true by rw [h.conti]; decide)]
            split <;> exact emit_pulses s _ h0
    obtain ⟨x, hx, hp⟩ := hw
    rw [hx]
    exact ⟨⟨h.m1, h.m2, h.stopped, h.conti, h.pc, rfl⟩, hp⟩

theorem Halted.isr {s : RmtReg} (h : Halted s) : Halted (s.step .idf4 .isr) ∧ (s.step .idf4 .isr).pulses = s.pulses := by
  obtain ⟨m1, m2, hst, hc, hpc, _⟩ := h
  obtain ⟨q, stopped, has0, has1, mem1, mem2, pc, conti, lim, thr, fin, ena, sending, pos, cnt, wire⟩ := s
  dsimp only at m1 m2 hst hc hpc
  subst m1 m2 hst hc hpc
  cases fin <;> cases thr <;> cases ena <;> exact ⟨⟨rfl, rfl, rfl, rfl, rfl, rfl⟩, rfl⟩

/-- Whatever is called while the motor is running. -/
theorem Halted.step {s : RmtReg} (h : Halted s) (hr : s.q.running = true) (ev : Ev) : Halted (s.step .idf4 ev) ∧ (s.step .idf4 ev).pulses = s.pulses := by
  have hready : s.q.ready = false := by
    rw [← h.sync]
    change (!s.q.running || !s.stopped) = false
    rw [hr, h.stopped]
    rfl
  cases ev with
  | word => exact h.word
  | isr => exact h.isr
  | addBegin c start =>
    have : s.step .idf4 (.addBegin c start) = s.sync := by
      unfold RmtReg.step
      dsimp only
      rw [h.pc]
      dsimp only
      rw [if_pos (by rw [hready]; rfl)]
    rw [this, h.sync]
    exact ⟨h, rfl⟩
  | addCommit =>
    have : s.step .idf4 .addCommit = s.sync := by
      unfold RmtReg.step
      dsimp only
      rw [h.pc]
    rw [this, h.sync]
    exact ⟨h, rfl⟩
  | addFinish =>
    have : s.step .idf4 .addFinish = s.sync := by
      unfold RmtReg.step
      dsimp only
      rw [h.pc]
    rw [this, h.sync]
    exact ⟨h, rfl⟩
  | startNull =>
    have : s.step .idf4 .startNull = s.sync := by
      unfold RmtReg.step
      dsimp only
      rw [h.pc]
      dsimp only
      rw [if_neg fun hx => by rw [AvrTimer.addNull_running hx] at hr; cases hr]
    rw [this, h.sync]
    exact ⟨h, rfl⟩
  | forceStop p =>
    refine ⟨Halted.force h.pc p, ?_⟩
    unfold RmtReg.step
    dsimp only
    rw [h.pc]
    rfl
  | clearIgnore => exact ⟨⟨h.m1, h.m2, h.stopped, h.conti, h.pc, rfl⟩, rfl⟩
  | detach => exact ⟨⟨h.m1, h.m2, h.stopped, h.conti, h.pc, rfl⟩, rfl⟩

/-- At most `N` words remain after a force stop. -/
inductive Stopping (N : Nat) (s : RmtReg) : Prop
  | sending (hs : s.sending = true) (he : s.ena = true) (hf : s.fin = false) (hp : s.pos ≤ 62) (hN : 63 ≤ N + s.pos)
  | ended (hs : s.sending = false) (he : s.ena = true) (hf : s.fin = true)
  | over (hs : s.sending = false) (he : s.ena = false) (hf : s.fin = false) (ht : s.thr = false) (hr : s.q.running = false)

theorem Stopping.word {N s} (h : Stopping (N + 1) s) (hh : Halted s) : Stopping N (s.step .idf4 .word) := by
  cases h with
  | sending hs he hf hp hN =>
    have hstep : s.step .idf4 .word = (s.word .idf4).sync := by
      change RmtReg.sync (if s.sending then _ else _) = _
      rw [if_pos hs]
    rw [hstep]
    unfold RmtReg.word
    dsimp only
    by_cases h1 : s.pos < RmtVer.idf4.part
    · simp only [if_pos h1]
      split
      · refine .sending hs he hf (show s.pos + 1 ≤ 62 by simp [RmtVer.part] at *; omega) ?_
        change 63 ≤ N + (s.pos + 1)
        omega
      · refine .sending hs he hf (show s.pos + 1 ≤ 62 by simp [RmtVer.part] at *; omega) ?_
        change 63 ≤ N + (s.pos + 1)
        omega
    · simp only [if_neg h1]
      by_cases h2 : s.pos < 2 * RmtVer.idf4.part
      · simp only [if_pos h2]
        split
        · refine .sending hs he hf (show s.pos + 1 ≤ 62 by simp [RmtVer.part] at *; omega) ?_
          change 63 ≤ N + (s.pos + 1)
          omega
        · refine .sending hs he hf (show s.pos + 1 ≤ 62 by simp [RmtVer.part] at *; omega) ?_
          change 63 ≤ N + (s.pos + 1)
          omega
      · simp only [if_neg h2, if_neg (show ¬ s.conti = true by rw [hh.conti]; decide)]
        split
        · exact .ended rfl he rfl
        · exact .ended rfl he rfl
  | ended hs he hf =>
    have hstep : s.step .idf4 .word = s := by
      change RmtReg.sync (if s.sending then _ else _) = _
      rw [if_neg (by simp [hs]), hh.sync]
    rw [hstep]
    exact .ended hs he hf
  | over hs he hf ht hr =>
    have hstep : s.step .idf4 .word = s := by
      change RmtReg.sync (if s.sending then _ else _) = _
      rw [if_neg (by simp [hs]), hh.sync]
    rw [hstep]
    exact .over hs he hf ht hr

theorem Stopping.isr {N s} (h : Stopping N s) (hh : Halted s) : Stopping N (s.step .idf4 .isr) ∧ (s.sending = false → (s.step .idf4 .isr).ena = false) := by
  have hst := hh.stopped
  have hstep : s.step .idf4 .isr = (RmtReg.isr .idf4 s).sync := rfl
  cases h with
  | sending hs he hf hp hN =>
    rw [hstep]
    cases ht : s.thr
    · rw [isr_none _ _ (by rw [hf]; rfl) (by rw [ht]; rfl)]
      exact ⟨.sending hs he hf hp hN, fun hx => by rw [hs] at hx; cases hx⟩
    · rw [isr_thr s hf ht he, if_pos hst]
      exact ⟨.sending hs he hf hp hN, fun hx => by rw [hs] at hx; cases hx⟩
  | ended hs he hf =>
    rw [hstep, isr_end s hf he hst]
    exact ⟨.over hs rfl rfl rfl rfl, fun _ => rfl⟩
  | over hs he hf ht hr =>
    rw [hstep, isr_none _ _ (by rw [hf]; rfl) (by rw [ht]; rfl)]
    exact ⟨.over hs he hf ht hr, fun _ => he⟩

theorem Stopping.run : ∀ (evs : List Ev) {N s}, Stopping N s → Halted s → (∀ ev ∈ evs, ev = .word ∨ ev = .isr) → N ≤ words evs →
    Stopping 0 (run .idf4 s evs) ∧ Halted (run .idf4 s evs) ∧ (run .idf4 s evs).pulses = s.pulses := by
  intro evs
  induction evs with
  | nil =>
    intro N s h hh _ hN
    have : N = 0 := by unfold words at hN; simpa using hN
    subst this
    exact ⟨h, hh, rfl⟩
  | cons ev evs ih =>
    intro N s h hh hw hN
    have hw' : ∀ ev ∈ evs, ev = .word ∨ ev = .isr := fun e he => hw e (List.mem_cons_of_mem _ he)
    rcases hw ev (by simp) with rfl | rfl
    · have hcount : words (.word :: evs) = words evs + 1 := by
        unfold words
        exact List.countP_cons_of_pos (by decide)
      have hN1 : Stopping (words evs + 1) s := by
        cases h with
        | sending hs he hf hp h => exact .sending hs he hf hp (by omega)
        | ended hs he hf => exact .ended hs he hf
        | over hs he hf ht hr => exact .over hs he hf ht hr
      obtain ⟨h1, h2, h3⟩ := ih (hN1.word hh) hh.word.1 hw' (Nat.le_refl _)
      exact ⟨h1, h2, h3.trans hh.word.2⟩
    · have hcount : words (.isr :: evs) = words evs := by
        unfold words
        exact List.countP_cons_of_neg (by decide)
      obtain ⟨h1, h2, h3⟩ := ih (h.isr hh).1 hh.isr.1 hw' (by omega)
      exact ⟨h1, h2, h3.trans hh.isr.2⟩

theorem apply_pos (v : RmtVer) (one : Bool) (s : RmtReg) : (applyCommand v one s).pos = s.pos := (apply_frame v one s).2.2.2.2.2.1

theorem word_pos {s : RmtReg} (h : s.pos ≤ 62) : (s.word .idf4).pos ≤ 62 := by
  unfold word
  dsimp only
  by_cases h1 : s.pos < RmtVer.idf4.part
  · simp only [if_pos h1]
    have : s.pos + 1 ≤ 62 := by simp [RmtVer.part] at h1; omega
    split <;> exact this
  · simp only [if_neg h1]
    by_cases h2 : s.pos < 2 * RmtVer.idf4.part
    · simp only [if_pos h2]
      have : s.pos + 1 ≤ 62 := by simp [RmtVer.part] at h2; omega
      split <;> exact this
    · simp only [if_neg h2]
      by_cases h3 : s.conti = true
      · simp only [if_pos h3]
        split <;> exact Nat.zero_le _
      · simp only [if_neg h3]
        split <;> exact h

theorem isr_pos (s : RmtReg) : (isr .idf4 s).pos = s.pos := by
  have key : ∀ (b : Bool) (t : RmtReg), (if b && !t.stopped then { applyCommand .idf4 true t with lim := RmtVer.idf4.part * 2 + 1 } else t).pos = t.pos := by
    intro b t
    by_cases hb : (b && !t.stopped) = true
    · rw [if_pos hb]
      exact apply_pos _ _ _
    · rw [if_neg hb]
  unfold isr
  dsimp only
  rw [if_pos rfl, key]
  by_cases h1 : (s.fin && s.ena) = true
  · rw [if_pos h1]
    by_cases h2 : s.stopped = true
    · rw [if_pos h2]
    · rw [if_neg h2]
      exact apply_pos _ _ _
  · rw [if_neg h1]

theorem start_pos (s : RmtReg) : (startQueue .idf4 s).pos ≤ 62 := by
  unfold startQueue
  dsimp only
  split
  · exact Nat.zero_le _
  · rw [if_pos rfl]
    change (applyCommand _ _ _).pos ≤ 62
    rw [apply_pos, apply_pos]
    exact Nat.zero_le _

/-- The position in the memory in any schedule. -/
theorem step_pos {s : RmtReg} (ev : Ev) (h : s.pos ≤ 62) : (s.step .idf4 ev).pos ≤ 62 := by
  cases ev with
  | word =>
    change (RmtReg.sync (if s.sending then _ else _)).pos ≤ 62
    split
    · exact word_pos h
    · exact h
  | isr =>
    change (isr .idf4 s).pos ≤ 62
    rw [isr_pos]
    exact h
  | addBegin c start =>
    unfold step
    dsimp only
    split
    · split
      · exact h
      · split
        · exact h
        · split <;> exact h
    · exact h
  | addCommit =>
    unfold step
    dsimp only
    split <;> exact h
  | addFinish =>
    unfold step
    dsimp only
    split
    · split
      · exact start_pos _
      · exact h
    · exact h
  | startNull =>
    unfold step
    dsimp only
    split
    · split
      · exact start_pos _
      · exact h
    · exact h
  | forceStop p =>
    unfold step
    dsimp only
    split <;> exact h
  | clearIgnore => exact h
  | detach => exact h

theorem run_pos : ∀ (evs : List Ev) {s : RmtReg}, s.pos ≤ 62 → (run .idf4 s evs).pos ≤ 62
  | [], _, h => h
  | ev :: evs, _, h => run_pos evs (step_pos ev h)

/-! ## Without interrupts the memory is sent again and again -/

/-- The levels at one position of the memory. -/
def atPos (m1 m2 : List Nat) (p : Nat) : List Seg := if p < 31 then rmtDecode (m1.getD p 0) else if p < 62 then rmtDecode (m2.getD (p - 31) 0) else [⟨false, 1⟩]

/-- The pulses of `n` words. -/
def looped (m1 m2 : List Nat) (d : Bool) : Nat → Nat → List (Seg × Bool)
  | _, 0 => []
  | p, n + 1 => ((atPos m1 m2 p).map fun g => (g, d)).filter (fun x => x.1.high) ++ looped m1 m2 d ((p + 1) % 63) n

theorem looped_add (m1 m2 : List Nat) (d : Bool) : ∀ (a b p : Nat), p ≤ 62 → looped m1 m2 d p (a + b) = looped m1 m2 d p a ++ looped m1 m2 d ((p + a) % 63) b
  | 0, b, p, hp => by
    rw [Nat.zero_add, Nat.add_zero, Nat.mod_eq_of_lt (by omega)]
    rfl
  | a + 1, b, p, hp => by
    rw [show a + 1 + b = (a + b) + 1 by omega]
    change _ ++ looped m1 m2 d ((p + 1) % 63) (a + b) = (_ ++ _) ++ _
    rw [looped_add m1 m2 d a b _ (by omega), List.append_assoc]
    congr 3
    omega

/-- The interrupts are disabled while the peripheral sends in continuous mode. -/
structure Blind (s : RmtReg) (q : Queue) (m1 m2 : List Nat) : Prop where
  q : s.q = q
  m1 : s.mem1 = m1
  m2 : s.mem2 = m2
  conti : s.conti = true
  sending : s.sending = true
  ena : s.ena = false
  pos : s.pos ≤ 62
  sync : s.sync = s

theorem Blind.word {s q m1 m2} (h : Blind s q m1 m2) : Blind (s.step .idf4 .word) q m1 m2 ∧ (s.step .idf4 .word).pos = (s.pos + 1) % 63 ∧
    (s.step .idf4 .word).pulses = s.pulses ++ ((atPos m1 m2 s.pos).map fun g => (g, q.dirLevel)).filter (fun x => x.1.high) := by
  have hstep : s.step .idf4 .word = (s.word .idf4).sync := by
    change RmtReg.sync (if s.sending then _ else _) = _
    rw [if_pos h.sending]
  have hpul : ∀ (segs : List Seg), (s.emit segs).reverse.filter (fun x => x.1.high) = s.pulses ++ (segs.map fun g => (g, q.dirLevel)).filter (fun x => x.1.high) := by
    intro segs
    unfold emit pulses
    rw [List.reverse_append, List.reverse_reverse, List.filter_append, h.q]
  have hpos := h.pos
  have hsy : s.q.ready = (!s.q.running || !s.stopped) := by
    have := congrArg (fun x : RmtReg => x.q.ready) h.sync
    exact this.symm
  have hq : ∀ x : RmtReg, x.q = s.q → x.stopped = s.stopped → x.sync.q = s.q := by
    intro x h1 h2
    unfold RmtReg.sync
    dsimp only
    rw [h1, h2, ← hsy]
  have main : ∀ x : RmtReg, x.q = s.q → x.stopped = s.stopped → x.mem1 = s.mem1 → x.mem2 = s.mem2 → x.conti = s.conti → x.sending = s.sending → x.ena = s.ena → x.pos = (s.pos + 1) % 63 →
      x.wire = s.emit (atPos m1 m2 s.pos) → Blind x.sync q m1 m2 ∧ x.sync.pos = (s.pos + 1) % 63 ∧
      x.sync.pulses = s.pulses ++ ((atPos m1 m2 s.pos).map fun g => (g, q.dirLevel)).filter (fun x => x.1.high) := by
    intro x g1 g2 g3 g4 g5 g6 g7 g8 g9
    refine ⟨⟨(hq x g1 g2).trans h.q, g3.trans h.m1, g4.trans h.m2, g5.trans h.conti, g6.trans h.sending, g7.trans h.ena, ?_, rfl⟩, g8, ?_⟩
    · change x.pos ≤ 62
      omega
    · change x.wire.reverse.filter _ = _
      rw [g9]
      exact hpul _
  rw [hstep]
  unfold RmtReg.word
  dsimp only
  by_cases h1 : s.pos < RmtVer.idf4.part
  · have h1' : s.pos < 31 := h1
    simp only [if_pos h1]
    have hw : atPos m1 m2 s.pos = rmtDecode (s.mem1.getD s.pos 0) := by rw [atPos, if_pos h1', h.m1]
    have hp : s.pos + 1 = (s.pos + 1) % 63 := by omega
    split <;> exact main _ rfl rfl rfl rfl rfl rfl rfl hp (by rw [hw])
  · simp only [if_neg h1]
    have h1' : ¬ s.pos < 31 := h1
    by_cases h2 : s.pos < 2 * RmtVer.idf4.part
    · have h2' : s.pos < 62 := h2
      simp only [if_pos h2]
      have hw : atPos m1 m2 s.pos = rmtDecode (s.mem2.getD (s.pos - 31) 0) := by rw [atPos, if_neg h1', if_pos h2', h.m2]
      have hp : s.pos + 1 = (s.pos + 1) % 63 := by omega
      split <;> exact main _ rfl rfl rfl rfl rfl rfl rfl hp (by rw [hw]; rfl)
    · have h2' : ¬ s.pos < 62 := h2
      simp only [if_neg h2, if_pos h.conti]
      have hw : atPos m1 m2 s.pos = [⟨false, 1⟩] := by rw [atPos, if_neg h1', if_neg h2']
      have hp : 0 = (s.pos + 1) % 63 := by omega
      split <;> exact main _ rfl rfl rfl rfl rfl rfl rfl hp (by rw [hw]; rfl)

theorem Blind.isr {s q m1 m2} (h : Blind s q m1 m2) : s.step .idf4 .isr = s := by
  change (RmtReg.isr .idf4 s).sync = s
  rw [isr_none _ _ (by rw [h.ena]; simp) (by rw [h.ena]; simp), h.sync]

theorem Blind.run : ∀ (evs : List Ev) {s q m1 m2}, Blind s q m1 m2 → (∀ ev ∈ evs, ev = .word ∨ ev = .isr) →
    Blind (run .idf4 s evs) q m1 m2 ∧ (run .idf4 s evs).pulses = s.pulses ++ looped m1 m2 q.dirLevel s.pos (words evs) := by
  intro evs
  induction evs with
  | nil => intro s q m1 m2 h _; exact ⟨h, (List.append_nil _).symm⟩
  | cons ev evs ih =>
    intro s q m1 m2 h hw
    have hw' : ∀ ev ∈ evs, ev = .word ∨ ev = .isr := fun e he => hw e (List.mem_cons_of_mem _ he)
    rcases hw ev (by simp) with rfl | rfl
    · have hcount : words (.word :: evs) = words evs + 1 := by
        unfold words
        exact List.countP_cons_of_pos (by decide)
      obtain ⟨g1, g2, g3⟩ := h.word
      obtain ⟨k1, k2⟩ := ih g1 hw'
      refine ⟨k1, k2.trans ?_⟩
      rw [g2, g3, hcount, List.append_assoc]
      rfl
    · have hcount : words (.isr :: evs) = words evs := by
        unfold words
        exact List.countP_cons_of_neg (by decide)
      change Blind (RmtReg.run .idf4 (s.step .idf4 .isr) evs) q m1 m2 ∧ (RmtReg.run .idf4 (s.step .idf4 .isr) evs).pulses = _
      rw [h.isr, hcount]
      exact ih h hw'

end RmtReg
end FAS
