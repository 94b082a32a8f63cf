import Verif.Lemmas.RmtReg

/-!
# Lemmas: the registers of an RMT channel of the ESP32C3 and ESP32S3 with IDF 4

As in RmtReg.lean, with other limits. The interrupt calls `apply_command()` in stopped state, too: then the memory and the note about its steps differ from those of Model/Rmt.lean, but the first part is not sent any more.
-/

namespace FAS
namespace RmtReg

/-- One part is filled, C3: as in Model/Rmt.lean. -/
theorem fillS_abs (s : RmtReg) (one starting : Bool) (out : List Chunk) :
    ∃ k, (s.abs one starting out).fill .idf4s = (applyCommand .idf4s one s).abs (!one) false (k :: out) ∧
      (k.segs = if one then (applyCommand .idf4s one s).mem1.flatMap rmtDecode else (applyCommand .idf4s one s).mem2.flatMap rmtDecode) ∧ k.first = starting := by
  unfold Rmt.fill
  rw [if_neg (by simp)]
  unfold applyCommand
  by_cases h1 : s.q.readIdx = s.q.nextWriteIdx
  · rw [if_pos h1, if_pos (show (s.abs one starting out).q.readIdx = (s.abs one starting out).q.nextWriteIdx from h1)]
    cases one
    · refine ⟨⟨(over .idf4s (stopWords .idf4s) s.mem2).flatMap rmtDecode ++ [], s.q.dirLevel, starting, none⟩, ?_, List.append_nil _, rfl⟩
      obtain ⟨q, stopped, has0, has1, mem1, mem2, pc, conti, lim, thr, fin, ena, sending, pos, cnt, wire⟩ := s
      cases stopped <;> rfl
    · refine ⟨⟨(over .idf4s (RmtVer.emptyPause .idf4s true) s.mem1).flatMap rmtDecode ++ [], s.q.dirLevel, starting, none⟩, ?_, List.append_nil _, rfl⟩
      obtain ⟨q, stopped, has0, has1, mem1, mem2, pc, conti, lim, thr, fin, ena, sending, pos, cnt, wire⟩ := s
      cases stopped <;> rfl
  · rw [if_neg h1, if_neg (show ¬ (s.abs one starting out).q.readIdx = (s.abs one starting out).q.nextWriteIdx from h1)]
    by_cases h2 : ((s.q.slot .esp32 s.q.readIdx).toggleDir && (if one then s.has1 else s.has0)) = true
    · dsimp only
      rw [if_pos h2, if_pos (show (((s.abs one starting out).q.slot .esp32 (s.abs one starting out).q.readIdx).toggleDir && (s.abs one starting out).lastSteps) = true from h2)]
      cases one
      · exact ⟨⟨(over .idf4s (RmtVer.dirPause .idf4s) s.mem2).flatMap rmtDecode ++ [], s.q.dirLevel, starting, none⟩, rfl, List.append_nil _, rfl⟩
      · exact ⟨⟨(over .idf4s (RmtVer.dirPause .idf4s) s.mem1).flatMap rmtDecode ++ [], s.q.dirLevel, starting, none⟩, rfl, List.append_nil _, rfl⟩
    · dsimp only
      rw [if_neg h2, if_neg (show ¬ (((s.abs one starting out).q.slot .esp32 (s.abs one starting out).q.readIdx).toggleDir && (s.abs one starting out).lastSteps) = true from h2)]
      cases one
      · exact ⟨⟨_ ++ [], (Rmt.toggleHead s.q).dirLevel, starting, some (s.q.slot .esp32 s.q.readIdx).countUp⟩, rfl, List.append_nil _, rfl⟩
      · exact ⟨⟨_ ++ [], (Rmt.toggleHead s.q).dirLevel, starting, some (s.q.slot .esp32 s.q.readIdx).countUp⟩, rfl, List.append_nil _, rfl⟩

/-- Where the transmission stands. `t.out`: the parts filled up to now. -/
inductive PhS (s : RmtReg) (t : Rmt) : Prop
  /-- nothing is sent -/
  | idle (ena : s.ena = false) (sending : s.sending = false) (wire : SameOut s.wire.reverse (labs t.out.reverse))
  /-- the first part has to be filled next -/
  | partOne (k1 k2 : Chunk) (ks : List Chunk) (ab : t = s.abs true false t.out) (ena : s.ena = true) (run : s.q.running = true) (pos : s.pos ≤ 46)
    (eq : t.out = k1 :: k2 :: ks) (sending : s.sending = true) (conti : s.conti = true) (fin : s.fin = false)
    (thr : s.thr = decide (24 < s.pos)) (e1 : k1.segs = s.mem2.flatMap rmtDecode) (e2 : k2.segs = s.mem1.flatMap rmtDecode) (nf : k1.first = false)
    (wire : SameOut s.wire.reverse (labs ks.reverse ++ lw (s.mem1.take s.pos) k2.level ++ lw (s.mem2.take (s.pos - 23)) k1.level))
    (lo : s.pos ≤ 24 → s.cnt + 25 = s.lim + s.pos) (hi : 24 < s.pos → s.cnt + 25 = s.pos) (lim : s.lim = 25 ∨ s.lim = 23)
  /-- the second part has to be filled next, and is being sent -/
  | inTwo (k1 k2 : Chunk) (ks : List Chunk) (ab : t = s.abs false false t.out) (ena : s.ena = true) (run : s.q.running = true) (pos : 24 < s.pos ∧ s.pos ≤ 46)
    (eq : t.out = k1 :: k2 :: ks) (sending : s.sending = true) (conti : s.conti = true) (fin : s.fin = false)
    (thr : s.thr = false) (e1 : k1.segs = s.mem1.flatMap rmtDecode) (e2 : k2.segs = s.mem2.flatMap rmtDecode) (nf : k1.first = false)
    (wire : SameOut s.wire.reverse (labs ks.reverse ++ lw (s.mem2.take (s.pos - 23)) k2.level)) (cnt : s.cnt + 25 = s.pos) (lim : s.lim = 24)
  /-- the second part has to be filled next, and has been sent -/
  | afterTwo (k1 k2 : Chunk) (ks : List Chunk) (ab : t = s.abs false false t.out) (ena : s.ena = true) (run : s.q.running = true) (pos : s.pos ≤ 23)
    (eq : t.out = k1 :: k2 :: ks) (sending : s.sending = true) (conti : s.conti = true) (fin : s.fin = false)
    (thr : s.thr = decide (1 < s.pos)) (e1 : k1.segs = s.mem1.flatMap rmtDecode) (e2 : k2.segs = s.mem2.flatMap rmtDecode) (nf : k1.first = false)
    (wire : SameOut s.wire.reverse (labs (k2 :: ks).reverse ++ lw (s.mem1.take s.pos) k1.level))
    (lo : s.pos ≤ 1 → s.cnt = s.pos + 22) (hi : 1 < s.pos → s.cnt + 2 = s.pos) (lim : s.lim = 24)
  /-- the last two parts are sent, the interrupt for the first one is to come -/
  | ending1 (k1 k2 : Chunk) (ks : List Chunk) (ena : s.ena = true) (run : s.q.running = true) (pos : s.pos ≤ 46)
    (eq : t.out = k1 :: k2 :: ks) (st : s.stopped = true) (sending : s.sending = true) (conti : s.conti = false) (fin : s.fin = false)
    (thr : s.thr = decide (24 < s.pos)) (e1 : k1.segs = s.mem2.flatMap rmtDecode) (e2 : k2.segs = s.mem1.flatMap rmtDecode) (nf : k1.first = false)
    (wire : SameOut s.wire.reverse (labs ks.reverse ++ lw (s.mem1.take s.pos) k2.level ++ lw (s.mem2.take (s.pos - 23)) k1.level))
    (lo : s.pos ≤ 24 → s.cnt + 25 = s.lim + s.pos) (hi : 24 < s.pos → s.cnt + 25 = s.pos) (lim : s.lim = 23)
  /-- the last part is sent -/
  | ending2 (k1 : Chunk) (ks : List Chunk) (ena : s.ena = true) (run : s.q.running = true) (pos : 24 < s.pos ∧ s.pos ≤ 46)
    (eq : t.out = k1 :: ks) (st : s.stopped = true) (sending : s.sending = true) (conti : s.conti = false) (fin : s.fin = false)
    (thr : s.thr = false) (e1 : k1.segs = s.mem2.flatMap rmtDecode)
    (wire : SameOut s.wire.reverse (labs ks.reverse ++ lw (s.mem2.take (s.pos - 23)) k1.level)) (cnt : s.cnt + 25 = s.pos) (lim : s.lim = 24)
  /-- all has been sent, the interrupt is pending -/
  | ended (ena : s.ena = true) (run : s.q.running = true) (st : s.stopped = true) (sending : s.sending = false) (fin : s.fin = true) (thr : s.thr = false)
    (wire : SameOut s.wire.reverse (labs t.out.reverse))

/-- The channel and Model/Rmt.lean agree. -/
structure RelS (s : RmtReg) (t : Rmt) : Prop where
  sync : s.q.ready = (!s.q.running || !s.stopped)
  l1 : s.mem1.length = 23
  l2 : s.mem2.length = 23
  q : t.q = s.q
  pc : t.pc = s.pc
  tx : t.tx = s.ena
  st : t.stopped = s.stopped
  starting : t.starting = false
  ph : PhS s t

theorem sync_eq {s : RmtReg} (h : s.q.ready = (!s.q.running || !s.stopped)) : s.sync = s := by
  unfold sync
  rw [← h]

/-- A word of the first part is sent. -/
theorem wordS_one (s : RmtReg) (l1 : s.mem1.length = 23) (h : s.pos < 23) : let s' := word .idf4s s
    s'.pos = s.pos + 1 ∧ s'.fin = s.fin ∧ s'.sending = s.sending ∧ s'.wire.reverse = s.wire.reverse ++ (rmtDecode (s.mem1[s.pos]'(by omega))).map (fun g => (g, s.q.dirLevel)) ∧
      s'.cnt = (if s.cnt + 1 = s.lim then 0 else s.cnt + 1) ∧ s'.thr = (s.thr || decide (s.cnt + 1 = s.lim)) := by
  unfold word emit
  have hp : RmtVer.part .idf4s = 23 := rfl
  dsimp only
  rw [hp, if_pos h]
  have hg : s.mem1.getD s.pos 0 = s.mem1[s.pos]'(by omega) := by simp [List.getD, l1, h]
  rw [hg]
  by_cases h2 : s.cnt + 1 = s.lim <;> simp [h2]

/-- A word of the second part is sent. -/
theorem wordS_two (s : RmtReg) (l2 : s.mem2.length = 23) (h1 : 23 ≤ s.pos) (h : s.pos < 46) : let s' := word .idf4s s
    s'.pos = s.pos + 1 ∧ s'.fin = s.fin ∧ s'.sending = s.sending ∧ s'.wire.reverse = s.wire.reverse ++ (rmtDecode (s.mem2[s.pos - 23]'(by omega))).map (fun g => (g, s.q.dirLevel)) ∧
      s'.cnt = (if s.cnt + 1 = s.lim then 0 else s.cnt + 1) ∧ s'.thr = (s.thr || decide (s.cnt + 1 = s.lim)) := by
  unfold word emit
  have hp : RmtVer.part .idf4s = 23 := rfl
  dsimp only
  rw [hp, if_neg (show ¬ s.pos < 23 by omega), if_pos (show s.pos < 2 * 23 from h)]
  have h3 : s.pos - 23 < s.mem2.length := by omega
  have hg : s.mem2.getD (s.pos - 23) 0 = s.mem2[s.pos - 23] := by simp [List.getD, h3]
  rw [hg]
  by_cases h2 : s.cnt + 1 = s.lim <;> simp [h2]

/-- The end marker. -/
theorem wordS_end (s : RmtReg) (h : s.pos = 46) : let s' := word .idf4s s
    s'.pos = (if s.conti then 0 else s.pos) ∧ s'.fin = (s.fin || !s.conti) ∧ s'.sending = (s.sending && s.conti) ∧ s'.wire = s.wire ∧
      s'.cnt = (if s.cnt + 1 = s.lim then 0 else s.cnt + 1) ∧ s'.thr = (s.thr || decide (s.cnt + 1 = s.lim)) := by
  unfold word emit
  have hp : RmtVer.part .idf4s = 23 := rfl
  dsimp only
  rw [hp, if_neg (show ¬ s.pos < 23 by omega), if_neg (show ¬ s.pos < 2 * 23 by omega)]
  cases hc : s.conti
  · rw [if_neg (show ¬ (false = true) by simp)]
    by_cases h2 : s.cnt + 1 = s.lim <;> simp [h2]
  · rw [if_pos rfl]
    by_cases h2 : s.cnt + 1 = s.lim <;> simp [h2]

theorem seg_mem (m : List Nat) (i : Nat) (h : i < m.length) : ∀ g ∈ rmtDecode m[i], g ∈ m.flatMap rmtDecode := fun _ hg => List.mem_flatMap.mpr ⟨_, List.getElem_mem h, hg⟩

theorem seg_lw {m : List Nat} {k : Chunk} (h : k.segs = m.flatMap rmtDecode) : (k.segs.map fun g => (g, k.level)) = lw m k.level := by rw [h]; rfl

/-- The parts sent and waiting, one word further. `hc`, `hst`: the direction pin, C51. -/
theorem bothS_next {s : RmtReg} {k1 k2 : Chunk} {ks : List Chunk} (l1 : s.mem1.length = 23) (l2 : s.mem2.length = 23) (hlt : s.pos < 46) (e1 : k1.segs = s.mem2.flatMap rmtDecode)
    (e2 : k2.segs = s.mem1.flatMap rmtDecode) (hc : k1.level = s.q.dirLevel) (hst : ¬ Silent k2.segs → k1.level = k2.level)
    (wire : SameOut s.wire.reverse (labs ks.reverse ++ lw (s.mem1.take s.pos) k2.level ++ lw (s.mem2.take (s.pos - 23)) k1.level)) : let s' := word .idf4s s
    s'.pos = s.pos + 1 ∧ s'.fin = s.fin ∧ s'.sending = s.sending ∧
      s'.cnt = (if s.cnt + 1 = s.lim then 0 else s.cnt + 1) ∧ s'.thr = (s.thr || decide (s.cnt + 1 = s.lim)) ∧
      SameOut s'.wire.reverse (labs ks.reverse ++ lw (s'.mem1.take s'.pos) k2.level ++ lw (s'.mem2.take (s'.pos - 23)) k1.level) := by
  obtain ⟨f1, f2, f3, f4, f5, f6, f7, f8, f9, f10⟩ := word_frame .idf4s s
  intro s'
  by_cases h : s.pos < 23
  · obtain ⟨g1, g2, g3, g4, g5, g6⟩ := wordS_one s l1 h
    refine ⟨g1, g2, g3, g5, g6, ?_⟩
    rw [g4, g1, f5, f6, lw_succ _ _ _ (by omega), show s.pos + 1 - 23 = 0 by omega]
    rw [show s.pos - 23 = 0 by omega] at wire
    have h0 : lw (s.mem2.take 0) k1.level = [] := rfl
    rw [h0, List.append_nil] at wire ⊢
    rw [← List.append_assoc]
    exact wire.append (.part _ _ k2 (by rw [e2]; exact seg_mem s.mem1 _ _) fun hn => by rw [← hc, hst hn])
  · obtain ⟨g1, g2, g3, g4, g5, g6⟩ := wordS_two s l2 (by omega) hlt
    refine ⟨g1, g2, g3, g5, g6, ?_⟩
    rw [g4, g1, f5, f6, show s.pos + 1 - 23 = s.pos - 23 + 1 by omega, lw_succ s.mem2 (s.pos - 23) _ (by omega), List.take_of_length_le (show s.mem1.length ≤ s.pos + 1 by omega)]
    rw [List.take_of_length_le (show s.mem1.length ≤ s.pos by omega)] at wire
    rw [← List.append_assoc]
    exact wire.append (.part _ _ k1 (by rw [e1]; exact seg_mem s.mem2 (s.pos - 23) (by omega)) fun _ => hc.symm)

/-- The threshold in the first phases. -/
theorem thr_next {pos cnt lim : Nat} {thr : Bool} (ht : thr = decide (24 < pos)) (lo : pos ≤ 24 → cnt + 25 = lim + pos) (hi : 24 < pos → cnt + 25 = pos) (hlim : lim = 25 ∨ lim = 23) (hlt : pos < 46) :
    (thr || decide (cnt + 1 = lim)) = decide (24 < pos + 1) ∧ (pos + 1 ≤ 24 → (if cnt + 1 = lim then 0 else cnt + 1) + 25 = lim + (pos + 1)) ∧
      (24 < pos + 1 → (if cnt + 1 = lim then 0 else cnt + 1) + 25 = pos + 1) := by
  subst ht
  by_cases hp : 24 < pos
  · have h1 := hi hp
    rw [if_neg (by omega)]
    refine ⟨?_, by omega, by omega⟩
    simp [hp]
    omega
  · have h1 := lo (by omega)
    refine ⟨?_, ?_, ?_⟩
    · have h3 : decide (24 < pos) = false := by simp; omega
      rw [h3, Bool.false_or]
      congr 1
      apply propext
      omega
    · intro h; rw [if_neg (by omega)]; omega
    · intro h; rw [if_pos (by omega)]; omega

theorem word_PhS {s : RmtReg} {t : Rmt} (l1 : s.mem1.length = 23) (l2 : s.mem2.length = 23) (h : PhS s t) (hs : s.sending = true) (ht : s.pos = 23 ∨ s.pos = 46 → s.thr = false ∧ s.fin = false)
    (hc : s.ena = true → ∀ c cs, t.out = c :: cs → c.level = s.q.dirLevel) (hst : Steady t.out) :
    PhS (word .idf4s s) t := by
  obtain ⟨f1, f2, f3, f4, f5, f6, f7, f8, f9, f10⟩ := word_frame .idf4s s
  have hab : ∀ one, t = s.abs one false t.out → t = (word .idf4s s).abs one false t.out := by
    intro one h
    refine h.trans ?_
    unfold abs
    rw [f1, f2, f3, f4, f5, f6, f7, f10]
  cases h
  case idle ena sending wire => rw [hs] at sending; cases sending
  case ended ena run st sending fin thr wire => rw [hs] at sending; cases sending
  case partOne k1 k2 ks ab ena run pos eq sending conti fin thr e1 e2 nf wire lo hi lim =>
    have hlt : s.pos < 46 := by
      refine Nat.lt_of_le_of_ne pos fun h => ?_
      have := (ht (Or.inr h)).1
      rw [thr, h] at this
      cases this
    have hc := hc ena _ _ eq
    rw [eq] at hst
    obtain ⟨g1, g2, g3, g5, g6, g4⟩ := bothS_next l1 l2 hlt e1 e2 hc (fun hn => (hst.1 nf hn)) wire
    obtain ⟨t1, t2, t3⟩ := thr_next thr lo hi lim hlt
    exact .partOne k1 k2 ks (hab _ ab) (by rw [f10, ena]) (by rw [f1, run]) (by omega) eq (by rw [g3, hs]) (by rw [f8, conti]) (by rw [g2, fin])
      (by rw [g6, g1]; exact t1) (by rw [f6, e1]) (by rw [f5, e2]) nf g4 (by rw [g5, g1, f9]; exact t2) (by rw [g5, g1]; exact t3) (by rw [f9]; exact lim)
  case inTwo k1 k2 ks ab ena run pos eq sending conti fin thr e1 e2 nf wire cnt lim =>
    have hc := hc ena _ _ eq
    rw [eq] at hst
    by_cases hlt : s.pos < 46
    · obtain ⟨g1, g2, g3, g4, g5, g6⟩ := wordS_two s l2 (by omega) hlt
      have hne : ¬ s.cnt + 1 = s.lim := by omega
      refine .inTwo k1 k2 ks (hab _ ab) (by rw [f10, ena]) (by rw [f1, run]) (by omega) eq (by rw [g3, hs]) (by rw [f8, conti]) (by rw [g2, fin])
        (by rw [g6, thr]; simp [hne]) (by rw [f5, e1]) (by rw [f6, e2]) nf ?_ (by rw [g5, if_neg hne, g1]; omega) (by rw [f9, lim])
      rw [g4, g1, f6, show s.pos + 1 - 23 = s.pos - 23 + 1 by omega, lw_succ _ _ _ (by omega), ← List.append_assoc]
      exact wire.append (.part _ _ k2 (by rw [e2]; exact seg_mem s.mem2 _ _) fun hn => by rw [← hc, hst.1 nf hn])
    · obtain ⟨g1, g2, g3, g4, g5, g6⟩ := wordS_end s (by omega)
      rw [conti, if_pos rfl] at g1
      have hne : ¬ s.cnt + 1 = s.lim := by omega
      refine .afterTwo k1 k2 ks (hab _ ab) (by rw [f10, ena]) (by rw [f1, run]) (by omega) eq (by rw [g3, hs, conti]; rfl) (by rw [f8, conti]) (by rw [g2, fin, conti]; rfl)
        (by rw [g6, thr, g1]; simp [hne]) (by rw [f5, e1]) (by rw [f6, e2]) nf ?_ (by rw [g5, if_neg hne, g1]; omega) (by rw [g1]; omega) (by rw [f9, lim])
      rw [List.take_of_length_le (by omega)] at wire
      rw [g4, g1, labs_cons, seg_lw e2]
      have h0 : lw ((word .idf4s s).mem1.take 0) k1.level = [] := rfl
      rw [h0, List.append_nil]
      exact wire
  case afterTwo k1 k2 ks ab ena run pos eq sending conti fin thr e1 e2 nf wire lo hi lim =>
    have hc := hc ena _ _ eq
    have hlt : s.pos < 23 := by
      refine Nat.lt_of_le_of_ne pos fun h => ?_
      have := (ht (Or.inl h)).1
      rw [thr, h] at this
      cases this
    obtain ⟨g1, g2, g3, g4, g5, g6⟩ := wordS_one s l1 hlt
    refine .afterTwo k1 k2 ks (hab _ ab) (by rw [f10, ena]) (by rw [f1, run]) (by omega) eq (by rw [g3, hs]) (by rw [f8, conti]) (by rw [g2, fin])
      ?_ (by rw [f5, e1]) (by rw [f6, e2]) nf ?_ ?_ ?_ (by rw [f9, lim])
    · rw [g6, thr, g1]
      by_cases hp : 1 < s.pos
      · have := hi hp
        simp [hp]; omega
      · have := lo (by omega)
        have h3 : decide (1 < s.pos) = false := by simp; omega
        rw [h3, Bool.false_or]
        congr 1
        apply propext
        omega
    · rw [g4, g1, f5, lw_succ _ _ _ (by omega), ← List.append_assoc]
      exact wire.append (.part _ _ k1 (by rw [e1]; exact seg_mem s.mem1 _ _) fun _ => hc.symm)
    · intro h
      rw [g1] at h
      have := lo (by omega)
      rw [g5, if_neg (by omega), g1]
      omega
    · intro h
      rw [g1] at h
      rw [g5, g1]
      by_cases hp : 1 < s.pos
      · have := hi hp
        rw [if_neg (by omega)]; omega
      · have := lo (by omega)
        rw [if_pos (by omega)]; omega
  case ending1 k1 k2 ks ena run pos eq st sending conti fin thr e1 e2 nf wire lo hi lim =>
    have hlt : s.pos < 46 := by
      refine Nat.lt_of_le_of_ne pos fun h => ?_
      have := (ht (Or.inr h)).1
      rw [thr, h] at this
      cases this
    have hc := hc ena _ _ eq
    rw [eq] at hst
    obtain ⟨g1, g2, g3, g5, g6, g4⟩ := bothS_next l1 l2 hlt e1 e2 hc (fun hn => (hst.1 nf hn)) wire
    obtain ⟨t1, t2, t3⟩ := thr_next thr lo hi (Or.inr lim) hlt
    exact .ending1 k1 k2 ks (by rw [f10, ena]) (by rw [f1, run]) (by omega) eq (by rw [f2, st]) (by rw [g3, hs]) (by rw [f8, conti]) (by rw [g2, fin])
      (by rw [g6, g1]; exact t1) (by rw [f6, e1]) (by rw [f5, e2]) nf g4 (by rw [g5, g1, f9]; exact t2) (by rw [g5, g1]; exact t3) (by rw [f9]; exact lim)
  case ending2 k1 ks ena run pos eq st sending conti fin thr e1 wire cnt lim =>
    have hc := hc ena _ _ eq
    have hne : ¬ s.cnt + 1 = s.lim := by omega
    by_cases hlt : s.pos < 46
    · obtain ⟨g1, g2, g3, g4, g5, g6⟩ := wordS_two s l2 (by omega) hlt
      refine .ending2 k1 ks (by rw [f10, ena]) (by rw [f1, run]) (by omega) eq (by rw [f2, st]) (by rw [g3, hs]) (by rw [f8, conti]) (by rw [g2, fin])
        (by rw [g6, thr]; simp [hne]) (by rw [f6, e1]) ?_ (by rw [g5, if_neg hne, g1]; omega) (by rw [f9, lim])
      rw [g4, g1, f6, show s.pos + 1 - 23 = s.pos - 23 + 1 by omega, lw_succ _ _ _ (by omega), ← List.append_assoc]
      exact wire.append (.part _ _ k1 (by rw [e1]; exact seg_mem s.mem2 _ _) fun hn => hc.symm)
    · obtain ⟨g1, g2, g3, g4, g5, g6⟩ := wordS_end s (by omega)
      refine .ended (by rw [f10, ena]) (by rw [f1, run]) (by rw [f2, st]) (by rw [g3, conti]; simp) (by rw [g2, conti]; simp) (by rw [g6, thr]; simp [hne]) ?_
      rw [List.take_of_length_le (by omega)] at wire
      rw [g4, eq, labs_cons, seg_lw e1]
      exact wire

/-- An event which concerns only the queue. -/
theorem PhS.queue {s : RmtReg} {t : Rmt} (h : PhS s t) (q' : Queue) (pc' : AddPc) (hr : q'.running = s.q.running) : PhS { s with q := q', pc := pc' } { t with q := q', pc := pc' } := by
  have hab : ∀ one, t = s.abs one false t.out → ({ t with q := q', pc := pc' } : Rmt) = ({ s with q := q', pc := pc' } : RmtReg).abs one false t.out := by
    intro one h
    rw [h]
    rfl
  cases h
  case idle ena sending wire => exact .idle ena sending wire
  case ended ena run st sending fin thr wire => exact .ended ena (hr.trans run) st sending fin thr wire
  case partOne k1 k2 ks ab ena run pos eq sending conti fin thr e1 e2 nf wire lo hi lim =>
    exact .partOne k1 k2 ks (hab _ ab) ena (hr.trans run) pos eq sending conti fin thr e1 e2 nf wire lo hi lim
  case inTwo k1 k2 ks ab ena run pos eq sending conti fin thr e1 e2 nf wire cnt lim =>
    exact .inTwo k1 k2 ks (hab _ ab) ena (hr.trans run) pos eq sending conti fin thr e1 e2 nf wire cnt lim
  case afterTwo k1 k2 ks ab ena run pos eq sending conti fin thr e1 e2 nf wire lo hi lim =>
    exact .afterTwo k1 k2 ks (hab _ ab) ena (hr.trans run) pos eq sending conti fin thr e1 e2 nf wire lo hi lim
  case ending1 k1 k2 ks ena run pos eq st sending conti fin thr e1 e2 nf wire lo hi lim =>
    exact .ending1 k1 k2 ks ena (hr.trans run) pos eq st sending conti fin thr e1 e2 nf wire lo hi lim
  case ending2 k1 ks ena run pos eq st sending conti fin thr e1 wire cnt lim =>
    exact .ending2 k1 ks ena (hr.trans run) pos eq st sending conti fin thr e1 wire cnt lim

theorem RelS.queue {s : RmtReg} {t : Rmt} (h : RelS s t) (q' : Queue) (pc' : AddPc) (hr : q'.running = s.q.running) :
    RelS (RmtReg.sync { s with q := q', pc := pc' }) (Rmt.sync { t with q := q', pc := pc' }) where
  sync := rfl
  l1 := h.l1
  l2 := h.l2
  q := by
    change { q' with ready := !q'.running || !t.stopped } = { q' with ready := !q'.running || !s.stopped }
    rw [h.st]
  pc := rfl
  tx := h.tx
  st := h.st
  starting := h.starting
  ph := by
    have := (h.ph.queue q' pc' hr).queue { q' with ready := !q'.running || !s.stopped } pc' rfl
    unfold RmtReg.sync Rmt.sync
    dsimp only at this ⊢
    rw [h.st] at this ⊢
    exact this

theorem RelS.self {s : RmtReg} {t : Rmt} (h : RelS s t) : RelS s.sync t.sync := by
  have h1 := h.queue s.q s.pc rfl
  have h2 : ({ t with q := s.q, pc := s.pc } : Rmt) = t := by rw [← h.q, ← h.pc]
  rw [h2] at h1
  exact h1

theorem isrS_thr (s : RmtReg) (h1 : s.fin = false) (h2 : s.thr = true) (h3 : s.ena = true) :
    isr .idf4s s = if s.lim = 24 then { applyCommand .idf4s false { s with thr := false } with lim := 23 } else { applyCommand .idf4s true { s with thr := false } with lim := 24 } := by
  obtain ⟨q, stopped, has0, has1, mem1, mem2, pc, conti, lim, thr, fin, ena, sending, pos, cnt, wire⟩ := s
  dsimp only at h1 h2 h3
  subst h1 h2 h3
  rfl

theorem isrS_end (s : RmtReg) (h1 : s.fin = true) (h2 : s.thr = false) (h3 : s.ena = true) :
    isr .idf4s s = { s with fin := false, ena := false, q := { s.q with running := false } } := by
  obtain ⟨q, stopped, has0, has1, mem1, mem2, pc, conti, lim, thr, fin, ena, sending, pos, cnt, wire⟩ := s
  dsimp only at h1 h2 h3
  subst h1 h2 h3
  rfl

/-- The inserted pauses contain no level of duration 0. -/
theorem fillS_pauses {t : Rmt} (h : ∀ k ∈ t.out, k.up = none → NoEnd k.segs) : ∀ k ∈ (t.fill .idf4s).out, k.up = none → NoEnd k.segs := by
  have hsend : ∀ (t' : Rmt) (words : List Nat) (idle : Bool) (up : Option Bool), t'.out = t.out → words.length = 23 → (up = none → NoEnd (words.flatMap rmtDecode)) →
      ∀ k ∈ (t'.send .idf4s words idle up).out, k.up = none → NoEnd k.segs := by
    intro t' words idle up ho hl hn k hk hu
    obtain ⟨segs, e1, e2⟩ := send_out .idf4s t' words idle up
    rw [e1, ho] at hk
    rcases List.mem_cons.mp hk with hk | hk
    · subst hk
      rw [e2 hl]
      exact (hn hu).append (by cases idle <;> simp [NoEnd])
    · exact h k hk hu
  unfold Rmt.fill
  rw [if_neg (by simp)]
  split
  · dsimp only
    refine hsend t _ _ _ rfl ?_ fun _ => ?_
    · cases t.partOne <;> rfl
    · cases t.partOne <;> (unfold NoEnd; decide +kernel)
  · dsimp only
    by_cases h2 : ((t.q.slot .esp32 t.q.readIdx).toggleDir && t.lastSteps) = true
    · rw [if_pos h2]
      exact hsend t _ _ _ rfl rfl fun _ => by unfold NoEnd; decide +kernel
    · rw [if_neg h2]
      intro k hk hu
      rw [show (decide (RmtVer.idf4s = .idf4) && !t.partOne) = false by simp] at hk
      obtain ⟨segs, e1, e2⟩ := send_out .idf4s { t with q := Rmt.toggleHead t.q }
        (if (t.q.slot .esp32 t.q.readIdx).steps = 0 then (RmtVer.pauseWords .idf4s (t.q.slot .esp32 t.q.readIdx).ticks, 0) else RmtVer.stepWords .idf4s (t.q.slot .esp32 t.q.readIdx).steps (t.q.slot .esp32 t.q.readIdx).ticks).1
        false (some (t.q.slot .esp32 t.q.readIdx).countUp)
      rw [if_neg (show ¬ (false = true) by simp)] at hk
      rw [e1] at hk
      rcases List.mem_cons.mp hk with hk | hk
      · subst hk; cases hu
      · exact h k hk hu

/-- The invariant. -/
structure JS (lvl : Bool → Bool) (D : Bool → Bool → Prop) (enc : Prop) (s : RmtReg) (t : Rmt) (acc : List Cmd) : Prop where
  rel : RelS s t
  inv : RInv .idf4s lvl D enc t acc
  pau : ∀ k ∈ t.out, k.up = none → NoEnd k.segs

theorem RInv.mem {v lvl D enc} {t : Rmt} {acc} (h : RInv v lvl D enc t acc) (htx : t.tx = false) (ls ps po : Bool) (m1 m2 : List Nat) (st : Bool) :
    RInv v lvl D enc { t with lastSteps := ls, prevSteps := ps, partOne := po, mem1 := m1, mem2 := m2, starting := st } acc :=
  { idx := h.idx, ign := h.ign, pin := h.pin, lv := h.lv, norep := h.norep, good := h.good, goodP := h.goodP, prep := h.prep, dir := h.dir,
    txrun := h.txrun, stop := h.stop, cur := fun hx => absurd (htx.symm.trans hx) (by simp), steady := h.steady, dirs := h.dirs, play := h.play }

/-- What an interrupt does: nothing; a part is filled; the end. -/
def IsrS (s : RmtReg) (t : Rmt) (s' : RmtReg) (t' : Rmt) : Prop :=
  (t' = t ∧ s'.pos = s.pos ∧ s'.conti = s.conti ∧ s'.stopped = s.stopped ∧ s'.ena = s.ena ∧ s'.sending = s.sending ∧ s'.q = s.q) ∨
  (t' = (t.fill .idf4s).sync ∧ t'.partOne = !t.partOne ∧ s.conti = true ∧ s'.pos = s.pos ∧ s'.ena = s.ena ∧ s'.sending = s.sending ∧ s.sending = true ∧
    (t.partOne = true ∧ 24 < s.pos ∧ s'.conti = true ∧ s'.stopped = s.stopped ∨
      t.partOne = false ∧ s.pos ≤ 23 ∧ (s'.conti = true ∧ s'.stopped = false ∧ s.stopped = false ∨ s'.conti = false ∧ s'.stopped = true))) ∨
  (s.sending = false ∧ s'.sending = false ∧ s'.ena = false ∧ s'.q.running = false ∧ s'.q.pending .esp32 = [])

theorem isrS_J {lvl D enc s t acc} (hD : ∀ u, D u (lvl u)) (h : JS lvl D enc s t acc) : ∃ t', JS lvl D enc (s.step .idf4s .isr) t' acc ∧
    IsrS s t (s.step .idf4s .isr) t' := by
  obtain ⟨hr, hi, hp⟩ := h
  have hstep : s.step .idf4s .isr = (RmtReg.isr .idf4s s).sync := rfl
  have hnone : (s.fin && s.ena) = false → (s.thr && s.ena) = false → ∃ t', JS lvl D enc (s.step .idf4s .isr) t' acc ∧ IsrS s t (s.step .idf4s .isr) t' := by
    intro h1 h2
    rw [hstep, isr_none _ _ h1 h2, sync_eq hr.sync]
    exact ⟨t, ⟨hr, hi, hp⟩, Or.inl ⟨rfl, rfl, rfl, rfl, rfl, rfl, rfl⟩⟩
  rw [hstep] at hnone ⊢
  obtain ⟨hsync, l1, l2, hq, hpc, htx, hst, hsta, hph⟩ := hr
  cases hph
  case idle ena sending wire => exact hnone (by simp [ena]) (by simp [ena])
  case inTwo k1 k2 ks ab ena run pos eq sending conti fin thr e1 e2 nf wire cnt lim => exact hnone (by simp [fin]) (by simp [thr])
  case ending2 k1 ks ena run pos eq st sending conti fin thr e1 wire cnt lim => exact hnone (by simp [fin]) (by simp [thr])
  case partOne k1 k2 ks ab ena run pos eq sending conti fin thr e1 e2 nf wire lo hi' lim =>
    by_cases hpos : 24 < s.pos
    · have hthr : s.thr = true := by rw [thr]; simp [hpos]
      have hpone : t.partOne = true := by rw [ab]; rfl
      suffices hrel : RelS (RmtReg.isr .idf4s s).sync (t.fill .idf4s).sync ∧ (t.fill .idf4s).partOne = false ∧ (RmtReg.isr .idf4s s).pos = s.pos ∧ (RmtReg.isr .idf4s s).ena = s.ena ∧
          (RmtReg.isr .idf4s s).sending = s.sending ∧ (RmtReg.isr .idf4s s).conti = true ∧ (RmtReg.isr .idf4s s).stopped = s.stopped from
        ⟨(t.fill .idf4s).sync, ⟨hrel.1, (hi.fill hD (htx.trans ena)).sync, fillS_pauses hp⟩, Or.inr (Or.inl ⟨rfl, hrel.2.1.trans (by rw [hpone]; rfl), conti, hrel.2.2.1, hrel.2.2.2.1,
          hrel.2.2.2.2.1, sending, Or.inl ⟨hpone, hpos, hrel.2.2.2.2.2.1, hrel.2.2.2.2.2.2⟩⟩)⟩
      rw [isrS_thr s fin hthr ena, if_neg (show ¬ s.lim = 24 by omega)]
      obtain ⟨k, g1, g2, g3⟩ := fillS_abs { s with thr := false } true false t.out
      obtain ⟨f1, f2, f3, f4, f5, f6, f7, f8, f9, f10, f11, f12, f13, f14, f15⟩ := apply_frame .idf4s true { s with thr := false }
      obtain ⟨f11, f16, f17⟩ := f11 rfl
      change (s.abs true false t.out).fill .idf4s = _ at g1
      rw [← ab] at g1
      rw [g1]
      generalize applyCommand .idf4s true { s with thr := false } = a at *
      refine ⟨?_, rfl, f6, f4, f5, f17.trans conti, f16⟩
      refine ⟨rfl, f14 l1, f15 l2, rfl, rfl, rfl, rfl, rfl, ?_⟩
      refine .inTwo k k1 (k2 :: ks) rfl (f4.trans ena) (f10.trans run) ⟨f6 ▸ hpos, f6 ▸ pos⟩ (show k :: t.out = _ by rw [eq]) (f5.trans sending) (f17.trans conti) (f3.trans fin) f2
        (by rw [g2]; rfl) (by rw [e1]; change _ = a.mem2.flatMap _; rw [f11]) g3 ?_ ?_ rfl
      · change SameOut a.wire.reverse (_ ++ lw (a.mem2.take (a.pos - 23)) k1.level)
        rw [f8, f6, f11, labs_cons, seg_lw e2]
        change SameOut s.wire.reverse (_ ++ lw (s.mem2.take (s.pos - 23)) k1.level)
        rw [List.take_of_length_le (show s.mem1.length ≤ s.pos by omega)] at wire
        exact wire
      · change a.cnt + 25 = a.pos
        rw [f7, f6]
        exact hi' hpos
    · exact hnone (by simp [fin]) (by rw [thr]; simp; omega)
  case afterTwo k1 k2 ks ab ena run pos eq sending conti fin thr e1 e2 nf wire lo hi' lim =>
    by_cases hpos : 1 < s.pos
    · have hthr : s.thr = true := by rw [thr]; simp [hpos]
      have hpone : t.partOne = false := by rw [ab]; rfl
      suffices hrel : RelS (RmtReg.isr .idf4s s).sync (t.fill .idf4s).sync ∧ (t.fill .idf4s).partOne = true ∧ (RmtReg.isr .idf4s s).pos = s.pos ∧ (RmtReg.isr .idf4s s).ena = s.ena ∧
          (RmtReg.isr .idf4s s).sending = s.sending ∧ ((RmtReg.isr .idf4s s).conti = true ∧ (RmtReg.isr .idf4s s).stopped = false ∧ s.stopped = false ∨
            (RmtReg.isr .idf4s s).conti = false ∧ (RmtReg.isr .idf4s s).stopped = true) from
        ⟨(t.fill .idf4s).sync, ⟨hrel.1, (hi.fill hD (htx.trans ena)).sync, fillS_pauses hp⟩, Or.inr (Or.inl ⟨rfl, hrel.2.1.trans (by rw [hpone]; rfl), conti, hrel.2.2.1, hrel.2.2.2.1,
          hrel.2.2.2.2.1, sending, Or.inr ⟨hpone, pos, hrel.2.2.2.2.2⟩⟩)⟩
      have hstop : s.stopped = true → applyCommand .idf4s false { s with thr := false } = stopRmt .idf4s false { s with thr := false } := by
        intro st
        have hemp : s.q.readIdx = s.q.nextWriteIdx := by
          rw [← hq]
          exact (Queue.empty_iff .esp32 t.q hi.idx).mpr ((Queue.pending_nil_iff _ _).mp (hi.stop (htx.trans ena) (hst.trans st)))
        unfold applyCommand
        rw [if_pos hemp, if_neg (by simp)]
      rw [isrS_thr s fin hthr ena, if_pos lim]
      obtain ⟨k, g1, g2, g3⟩ := fillS_abs { s with thr := false } false false t.out
      obtain ⟨f1, f2, f3, f4, f5, f6, f7, f8, f9, f10, f11, f12, f13, f14, f15⟩ := apply_frame .idf4s false { s with thr := false }
      have f12 := f12 rfl
      change (s.abs false false t.out).fill .idf4s = _ at g1
      rw [← ab] at g1
      rw [g1]
      have hcs : (applyCommand .idf4s false { s with thr := false }).conti = true ∧ (applyCommand .idf4s false { s with thr := false }).stopped = false ∧ s.stopped = false ∨
          (applyCommand .idf4s false { s with thr := false }).conti = false ∧ (applyCommand .idf4s false { s with thr := false }).stopped = true := by
        by_cases hx : s.stopped = true
        rotate_left
        · have hx : s.stopped = false := by simpa using hx
          rcases f13 with ⟨b1, b2⟩ | ⟨b1, b2⟩
          · exact Or.inl ⟨b2.trans conti, b1.trans hx, hx⟩
          · exact Or.inr ⟨b2, b1⟩
        · rw [hstop hx]
          exact Or.inr ⟨rfl, rfl⟩
      clear hstop
      generalize applyCommand .idf4s false { s with thr := false } = a at *
      refine ⟨?_, rfl, f6, f4, f5, hcs⟩
      refine ⟨rfl, f14 l1, f15 l2, rfl, rfl, rfl, rfl, rfl, ?_⟩
      have hwire : SameOut a.wire.reverse (labs (k2 :: ks).reverse ++ lw (a.mem1.take a.pos) k1.level ++ lw (a.mem2.take (a.pos - 23)) k.level) := by
        rw [f8, f6, f12]
        change SameOut s.wire.reverse (_ ++ lw (s.mem1.take s.pos) k1.level ++ lw (a.mem2.take (s.pos - 23)) k.level)
        rw [show s.pos - 23 = 0 by omega]
        have h0 : lw (a.mem2.take 0) k.level = [] := rfl
        rw [h0, List.append_nil]
        exact wire
      have hpa : a.pos = s.pos := f6
      have hca : a.cnt = s.cnt := f7
      have hh := hi' hpos
      have hta : a.thr = decide (24 < a.pos) := by
        rw [f2, hpa]
        simp
        omega
      rcases f13 with ⟨b1, b2⟩ | ⟨b1, b2⟩
      · exact .partOne k k1 (k2 :: ks) rfl (f4.trans ena) (f10.trans run) (show a.pos ≤ 46 by omega) (show k :: t.out = _ by rw [eq]) (f5.trans sending) (b2.trans conti) (f3.trans fin)
          hta (by rw [g2]; rfl) (by rw [e1]; change _ = a.mem1.flatMap _; rw [f12]) g3 hwire (fun _ => by change a.cnt + 25 = 23 + a.pos; omega) (fun h => by change 24 < a.pos at h; omega) (Or.inr rfl)
      · exact .ending1 k k1 (k2 :: ks) (f4.trans ena) (f10.trans run) (show a.pos ≤ 46 by omega) (show k :: t.out = _ by rw [eq]) b1 (f5.trans sending) b2 (f3.trans fin)
          hta (by rw [g2]; rfl) (by rw [e1]; change _ = a.mem1.flatMap _; rw [f12]) g3 hwire (fun _ => by change a.cnt + 25 = 23 + a.pos; omega) (fun h => by change 24 < a.pos at h; omega) rfl
    · exact hnone (by simp [fin]) (by rw [thr]; simp; omega)
  case ending1 k1 k2 ks ena run pos eq st sending conti fin thr e1 e2 nf wire lo hi' lim =>
    by_cases hpos : 24 < s.pos
    · have hthr : s.thr = true := by rw [thr]; simp [hpos]
      have hemp : s.q.readIdx = s.q.nextWriteIdx := by
        rw [← hq]
        exact (Queue.empty_iff .esp32 t.q hi.idx).mpr ((Queue.pending_nil_iff _ _).mp (hi.stop (htx.trans ena) (hst.trans st)))
      rw [isrS_thr s fin hthr ena, if_neg (show ¬ s.lim = 24 by omega)]
      have happ : applyCommand .idf4s true { s with thr := false } = { s with thr := false, mem1 := over .idf4s (RmtVer.emptyPause .idf4s true) s.mem1, has0 := false } := by
        unfold applyCommand
        rw [if_pos hemp]
        rfl
      rw [happ]
      refine ⟨t, ⟨?_, hi, hp⟩, Or.inl ⟨rfl, rfl, rfl, rfl, rfl, rfl, ?_⟩⟩
      rotate_left
      · change s.sync.q = s.q
        rw [sync_eq hsync]
      refine ⟨rfl, over_length _ _ _ l1, l2, ?_, hpc, htx, hst, hsta, ?_⟩
      · rw [hq]
        change s.q = s.sync.q
        rw [sync_eq hsync]
      · refine .ending2 k1 (k2 :: ks) ena run ⟨hpos, pos⟩ eq st sending conti fin rfl e1 ?_ (hi' hpos) rfl
        rw [List.take_of_length_le (show s.mem1.length ≤ s.pos by omega)] at wire
        rw [labs_cons, seg_lw e2]
        exact wire
    · exact hnone (by simp [fin]) (by rw [thr]; simp; omega)
  case ended ena run st sending fin thr wire =>
    refine ⟨Rmt.sync { t with tx := false, q := { t.q with running := false } }, ⟨?_, hi.txDone.sync, hp⟩, Or.inr (Or.inr ⟨sending, ?_⟩)⟩
    rotate_left
    · rw [isrS_end s fin thr ena]
      refine ⟨sending, rfl, rfl, ?_⟩
      change s.q.pending .esp32 = []
      rw [← hq]
      exact hi.stop (htx.trans ena) (hst.trans st)
    rw [isrS_end s fin thr ena]
    refine ⟨rfl, l1, l2, ?_, hpc, rfl, hst, hsta, .idle rfl sending wire⟩
    change ({ t.q with running := false, ready := !false || !t.stopped } : Queue) = { s.q with running := false, ready := !false || !s.stopped }
    rw [hq, hst]

theorem startS_Rel {s : RmtReg} (out : List Chunk) (ena : s.ena = false) (l1 : s.mem1.length = 23) (l2 : s.mem2.length = 23) (wire : SameOut s.wire.reverse (labs out.reverse)) :
    RelS (startQueue .idf4s s).sync (Rmt.startQueue .idf4s (s.abs true false out)).sync := by
  unfold startQueue Rmt.startQueue
  by_cases h1 : s.q.readIdx = s.q.nextWriteIdx
  · dsimp only
    rw [if_pos h1, if_pos (show (s.abs true false out).q.readIdx = (s.abs true false out).q.nextWriteIdx from h1), if_neg (by simp [RmtVer.isIdf5])]
    exact ⟨rfl, l1, l2, rfl, rfl, ena, rfl, rfl, .idle rfl rfl wire⟩
  · dsimp only
    rw [if_neg h1, if_neg (show ¬ (s.abs true false out).q.readIdx = (s.abs true false out).q.nextWriteIdx from h1), if_neg (show ¬ RmtVer.isIdf5 .idf4s = true by simp [RmtVer.isIdf5]),
      if_neg (show ¬ RmtVer.idf4s = .idf4 by simp)]
    let s1 : RmtReg :=
      { s with
        sending := false, pos := 0, cnt := 0, ena := false, stopped := false, has0 := true, has1 := true
        q := Rmt.toggleHead { s.q with running := true } }
    change RelS (RmtReg.sync { applyCommand .idf4s false (applyCommand .idf4s true s1) with lim := 25, thr := false, fin := false, ena := true, conti := true, sending := true }) _
    have hstart : ({ s.abs true false out with
        q := { Rmt.toggleHead s.q with running := true }, stopped := false, tx := true, starting := true, partOne := true
        lastSteps := true, prevSteps := true } : Rmt) = ({ s1 with ena := true } : RmtReg).abs true true out := by
      rw [← toggleHead_run]
      rfl
    obtain ⟨k, g1, g2, _⟩ := fillS_abs { s1 with ena := true } true true out
    obtain ⟨f1, f2, f3, f4, f5, f6, f7, f8, f9, f10, f11, f12, f13, f14, f15⟩ := apply_frame .idf4s true { s1 with ena := true }
    rw [← hstart] at g1
    change RelS _ (Rmt.sync { Rmt.fill .idf4s (Rmt.fill .idf4s { s.abs true false out with
        q := { Rmt.toggleHead s.q with running := true }, stopped := false, tx := true, starting := true, partOne := true
        lastSteps := true, prevSteps := true }) with
        stopped := decide (RmtVer.idf4s = .idf4s) && (Rmt.fill .idf4s (Rmt.fill .idf4s { s.abs true false out with
          q := { Rmt.toggleHead s.q with running := true }, stopped := false, tx := true, starting := true, partOne := true
          lastSteps := true, prevSteps := true })).stopped })
    rw [g1]
    have he1 := apply_ena .idf4s true true s1
    obtain ⟨f11, f16, f17⟩ := f11 rfl
    have f14 := f14 l1
    have f15 := f15 l2
    obtain ⟨k', g1', g2', g3'⟩ := fillS_abs (applyCommand .idf4s true { s1 with ena := true }) false false (k :: out)
    change RelS _ (Rmt.sync { Rmt.fill .idf4s ((applyCommand .idf4s true { s1 with ena := true }).abs false false (k :: out)) with
      stopped := decide (RmtVer.idf4s = .idf4s) && (Rmt.fill .idf4s ((applyCommand .idf4s true { s1 with ena := true }).abs false false (k :: out))).stopped })
    rw [g1']
    obtain ⟨h1, h2, h3, h4, h5, h6, h7, h8, h9, h10, h11, h12, h13, h14, h15⟩ := apply_frame .idf4s false (applyCommand .idf4s true { s1 with ena := true })
    have he2 := apply_ena .idf4s false true (applyCommand .idf4s true s1)
    rw [← he1] at he2
    have h14 := h14 f14
    have h15 := h15 f15
    have h12 := h12 rfl
    have hrun : (applyCommand .idf4s false (applyCommand .idf4s true { s1 with ena := true })).q.running = true := by
      rw [h10, f10]
      exact (toggleHead_frame _).2.2.2.1
    have hfinal : ({ applyCommand .idf4s false (applyCommand .idf4s true s1) with lim := 25, thr := false, fin := false, ena := true, conti := true, sending := true } : RmtReg)
        = { applyCommand .idf4s false (applyCommand .idf4s true { s1 with ena := true }) with lim := 25, thr := false, fin := false, ena := true, conti := true, sending := true } := by
      rw [he2]
    rw [hfinal]
    generalize applyCommand .idf4s true { s1 with ena := true } = a at *
    generalize applyCommand .idf4s false a = b at *
    have hpos : b.pos = 0 := h6.trans f6
    have hcnt : b.cnt = 0 := h7.trans f7
    have hena : b.ena = true := h4.trans f4
    have hst : (decide (RmtVer.idf4s = .idf4s) && b.stopped) = b.stopped := by simp
    have hab : (Rmt.sync { b.abs (!false) false (k' :: k :: out) with stopped := decide (RmtVer.idf4s = .idf4s) && (b.abs (!false) false (k' :: k :: out)).stopped })
        = (RmtReg.sync { b with lim := 25, thr := false, fin := false, ena := true, conti := true, sending := true }).abs true false (k' :: k :: out) := by
      have : ({ b.abs (!false) false (k' :: k :: out) with stopped := decide (RmtVer.idf4s = .idf4s) && (b.abs (!false) false (k' :: k :: out)).stopped } : Rmt)
          = ({ b with lim := 25, thr := false, fin := false, ena := true, conti := true, sending := true } : RmtReg).abs true false (k' :: k :: out) := by
        change Rmt.mk _ _ _ _ _ _ _ _ _ _ _ = Rmt.mk _ _ _ _ _ _ _ _ _ _ _
        rw [show (b.abs (!false) false (k' :: k :: out)).stopped = b.stopped from rfl, hst, show (b.abs (!false) false (k' :: k :: out)).tx = true from hena]
        rfl
      rw [this]
      rfl
    rw [hab]
    refine ⟨rfl, h14, h15, rfl, rfl, rfl, rfl, rfl, ?_⟩
    refine .partOne k' k out rfl rfl hrun (by change b.pos ≤ 46; omega) rfl rfl rfl rfl ?_ (by rw [g2']; rfl) (by rw [g2]; change _ = b.mem1.flatMap _; rw [h12]; rfl) g3' ?_ ?_ ?_ (Or.inl rfl)
    · change false = decide (24 < b.pos)
      rw [hpos]
      rfl
    · change SameOut b.wire.reverse (labs out.reverse ++ lw (b.mem1.take b.pos) k.level ++ lw (b.mem2.take (b.pos - 23)) k'.level)
      rw [h8, f8, hpos]
      change SameOut s.wire.reverse (labs out.reverse ++ [] ++ [])
      rw [List.append_nil, List.append_nil]
      exact wire
    · intro _
      change b.cnt + 25 = 25 + b.pos
      omega
    · intro h
      change 24 < b.pos at h
      omega

theorem startS_pauses {t : Rmt} (h : ∀ k ∈ t.out, k.up = none → NoEnd k.segs) : ∀ k ∈ (t.startQueue .idf4s).out, k.up = none → NoEnd k.segs := by
  unfold Rmt.startQueue
  split
  · split <;> exact h
  · dsimp only
    rw [if_neg (show ¬ RmtVer.isIdf5 .idf4s = true by simp [RmtVer.isIdf5])]
    exact fillS_pauses (fillS_pauses h)

theorem JS.idle {lvl D enc s t acc} (h : JS lvl D enc s t acc) (hrun : s.q.running = false) :
    s.ena = false ∧ SameOut s.wire.reverse (labs t.out.reverse) ∧ JS lvl D enc s (s.abs true false t.out) acc := by
  obtain ⟨hr, hi, hp⟩ := h
  obtain ⟨hsync, l1, l2, hq, hpc, htx, hst, hsta, hph⟩ := hr
  have hi' : s.ena = false ∧ s.sending = false ∧ SameOut s.wire.reverse (labs t.out.reverse) := by
    cases hph
    case idle ena sending wire => exact ⟨ena, sending, wire⟩
    all_goals simp_all
  obtain ⟨ena, sending, wire⟩ := hi'
  refine ⟨ena, wire, ⟨hsync, l1, l2, rfl, rfl, rfl, rfl, rfl, .idle ena sending wire⟩, ?_, hp⟩
  have := RInv.mem hi (htx.trans ena) s.has1 s.has0 true s.mem1 s.mem2 false
  have he : s.abs true false t.out = { t with lastSteps := s.has1, prevSteps := s.has0, partOne := true, mem1 := s.mem1, mem2 := s.mem2, starting := false } := by
    unfold abs
    rw [← hq, ← hpc, ← htx, ← hst]
    rfl
  rw [he]
  exact this

/-- One event. -/
theorem stepS_J {lvl D} {enc : Prop} {s t acc} (hD : ∀ u, D u (lvl u)) (h : JS lvl D enc s t acc) (ev : Ev) (ht : Timely .idf4s s ev) (hb : ev.Basic) (hpl : enc → ev.Plain .idf4s) :
    ∃ t', JS lvl D enc (s.step .idf4s ev) t' (acc ++ s.accepts ev) := by
  have hready : ∀ t, RelS s t → t.q.ready = (!t.q.running || !t.stopped) := fun t hr => by rw [hr.q, hr.st]; exact hr.sync
  obtain ⟨hr, hi, hp⟩ := id h
  cases ev with
  | word =>
    rw [show s.accepts .word = [] from rfl, List.append_nil]
    refine ⟨t, ?_, hi, hp⟩
    change RelS (RmtReg.sync (if s.sending then _ else _)) t
    by_cases hs : s.sending = true
    · rw [if_pos hs]
      obtain ⟨f1, f2, f3, f4, f5, f6, f7, f8, f9, f10⟩ := word_frame .idf4s s
      have hsy : (word .idf4s s).q.ready = (!(word .idf4s s).q.running || !(word .idf4s s).stopped) := by rw [f1, f2]; exact hr.sync
      rw [sync_eq hsy]
      refine ⟨hsy, by rw [f5]; exact hr.l1, by rw [f6]; exact hr.l2, by rw [f1]; exact hr.q, by rw [f7]; exact hr.pc, by rw [f10]; exact hr.tx, by rw [f2]; exact hr.st, hr.starting, ?_⟩
      exact word_PhS hr.l1 hr.l2 hr.ph hs (ht hs) (fun he c cs hc => by rw [← hr.q]; exact (hi.cur (hr.tx.trans he) hr.starting c cs hc).1) hi.steady
    · rw [if_neg hs, sync_eq hr.sync]
      exact hr
  | isr =>
    rw [show s.accepts .isr = [] from rfl, List.append_nil]
    obtain ⟨t', h1, _⟩ := isrS_J hD h
    exact ⟨t', h1⟩
  | addBegin c start =>
    have h1 := hi.step hD (hready t hr) (.addBegin c start) hb hpl
    refine ⟨t.step .idf4s (.addBegin c start), ?_, by exact h1, ?_⟩
    · change RelS (RmtReg.sync (match s.pc with | .idle => _ | _ => s)) (Rmt.sync (match t.pc with | .idle => _ | _ => t))
      rw [hr.pc]
      cases hpc : s.pc with
      | idle =>
        dsimp only
        rw [hr.q]
        by_cases h1 : (!s.q.ready) = true
        · rw [if_pos h1, if_pos h1]; exact hr.self
        rw [if_neg h1, if_neg h1]
        by_cases h2 : s.q.isQueueFull .esp32 = true
        · rw [if_pos h2, if_pos h2]; exact hr.self
        rw [if_neg h2, if_neg h2]
        by_cases h3 : Queue.commandRateTicks c < ArchId.esp32.minCmdTicks
        · rw [if_pos h3, if_pos h3]; exact hr.self
        rw [if_neg h3, if_neg h3]
        exact hr.queue _ _ rfl
      | prepared _ _ _ => exact hr.self
      | committed _ => exact hr.self
    · unfold Rmt.step
      dsimp only
      repeat' split
      all_goals exact hp
  | addCommit =>
    have h1 := hi.step hD (hready t hr) .addCommit trivial (fun _ => trivial)
    have hacc : t.accepts .addCommit = s.accepts .addCommit := by
      unfold Rmt.accepts accepts
      rw [hr.pc, hr.q]
      cases s.pc <;> rfl
    rw [hacc] at h1
    refine ⟨t.step .idf4s .addCommit, ?_, h1, ?_⟩
    · change RelS (RmtReg.sync (match s.pc with | .prepared next _ start => _ | _ => s)) (Rmt.sync (match t.pc with | .prepared next _ start => _ | _ => t))
      rw [hr.pc]
      cases hpc : s.pc with
      | prepared next _ start =>
        dsimp only
        rw [hr.q]
        exact hr.queue _ _ (commit_running _ _)
      | idle => exact hr.self
      | committed _ => exact hr.self
    · unfold Rmt.step
      dsimp only
      repeat' split
      all_goals exact hp
  | addFinish =>
    rw [show s.accepts .addFinish = [] from rfl, List.append_nil]
    cases hpc : s.pc with
    | committed start =>
      by_cases h1 : (!s.q.running && start) = true
      · have hrun : s.q.running = false := by simp at h1; exact h1.1
        obtain ⟨ena, wire, hr', hi', hp'⟩ := h.idle hrun
        have h2 := hi'.step hD (hready _ hr') .addFinish trivial (fun _ => trivial)
        rw [show Rmt.accepts _ .addFinish = [] from rfl, List.append_nil] at h2
        have e1 : s.step .idf4s .addFinish = (startQueue .idf4s { s with pc := .idle }).sync := by
          unfold step
          dsimp only
          rw [hpc]
          dsimp only
          rw [if_pos h1]
        have e2 : (s.abs true false t.out).step .idf4s .addFinish = (Rmt.startQueue .idf4s (({ s with pc := .idle } : RmtReg).abs true false t.out)).sync := by
          unfold Rmt.step
          dsimp only
          rw [show (s.abs true false t.out).pc = s.pc from rfl, hpc]
          dsimp only
          rw [if_pos (show (!(s.abs true false t.out).q.running && start) = true from h1)]
          rfl
        rw [e1]
        rw [e2] at h2
        exact ⟨_, startS_Rel (s := { s with pc := .idle }) t.out ena hr.l1 hr.l2 wire, h2, startS_pauses hp⟩
      · have h2 := hi.step hD (hready t hr) .addFinish trivial (fun _ => trivial)
        rw [show Rmt.accepts _ .addFinish = [] from rfl, List.append_nil] at h2
        have e1 : s.step .idf4s .addFinish = RmtReg.sync { s with pc := .idle } := by
          unfold step
          dsimp only
          rw [hpc]
          dsimp only
          rw [if_neg h1]
        have e2 : t.step .idf4s .addFinish = Rmt.sync { t with q := s.q, pc := .idle } := by
          unfold Rmt.step
          dsimp only
          rw [hr.pc, hpc]
          dsimp only
          rw [hr.q, if_neg h1, ← hr.q]
        rw [e1]
        rw [e2] at h2
        exact ⟨_, hr.queue s.q .idle rfl, h2, hp⟩
    | idle =>
      refine ⟨t.sync, ?_, hi.sync, hp⟩
      unfold step
      dsimp only
      rw [hpc]
      exact hr.self
    | prepared _ _ _ =>
      refine ⟨t.sync, ?_, hi.sync, hp⟩
      unfold step
      dsimp only
      rw [hpc]
      exact hr.self
  | startNull =>
    rw [show s.accepts .startNull = [] from rfl, List.append_nil]
    have hkeep : s.step .idf4s .startNull = s.sync → ∃ t', JS lvl D enc (s.step .idf4s .startNull) t' acc := fun e => by
      rw [e]
      exact ⟨t.sync, hr.self, hi.sync, hp⟩
    cases hpc : s.pc with
    | idle =>
      by_cases h1 : (s.q.addNull true).start = true
      · have hrun : s.q.running = false := AvrTimer.addNull_running h1
        obtain ⟨ena, wire, hr', hi', hp'⟩ := h.idle hrun
        have h2 := hi'.step hD (hready _ hr') .startNull trivial (fun _ => trivial)
        rw [show Rmt.accepts _ .startNull = [] from rfl, List.append_nil] at h2
        have e1 : s.step .idf4s .startNull = (startQueue .idf4s s).sync := by
          unfold step
          dsimp only
          rw [hpc]
          dsimp only
          rw [if_pos h1]
        have e2 : (s.abs true false t.out).step .idf4s .startNull = (Rmt.startQueue .idf4s (s.abs true false t.out)).sync := by
          unfold Rmt.step
          dsimp only
          rw [show (s.abs true false t.out).pc = s.pc from rfl, hpc]
          dsimp only
          rw [if_pos (show ((s.abs true false t.out).q.addNull true).start = true from h1)]
        rw [e1]
        rw [e2] at h2
        exact ⟨_, startS_Rel t.out ena hr.l1 hr.l2 wire, h2, startS_pauses hp⟩
      · refine hkeep ?_
        unfold step
        dsimp only
        rw [hpc]
        dsimp only
        rw [if_neg h1]
    | committed _ => exact hkeep (by unfold step; dsimp only; rw [hpc])
    | prepared _ _ _ => exact hkeep (by unfold step; dsimp only; rw [hpc])
  | forceStop p => exact ht.elim
  | clearIgnore =>
    rw [show s.accepts .clearIgnore = [] from rfl, List.append_nil]
    have h2 := hi.step hD (hready t hr) .clearIgnore trivial (fun _ => trivial)
    rw [show Rmt.accepts _ .clearIgnore = [] from rfl, List.append_nil] at h2
    have e2 : t.step .idf4s .clearIgnore = Rmt.sync { t with q := { s.q with ignoreCommands := false }, pc := s.pc } := by
      rw [← hr.q, ← hr.pc]
      rfl
    rw [e2] at h2
    exact ⟨_, hr.queue { s.q with ignoreCommands := false } s.pc rfl, h2, hp⟩
  | detach =>
    rw [show s.accepts .detach = [] from rfl, List.append_nil]
    refine ⟨t.sync, ?_, hi.sync, hp⟩
    change RelS (RmtReg.sync { s with ena := false }) _
    have h3 : ({ s with ena := false } : RmtReg) = s := by
      rw [← show s.ena = false from ht]
    rw [h3]
    exact hr.self

theorem trackS_J {lvl D} {enc : Prop} (hD : ∀ u, D u (lvl u)) : ∀ (evs : List Ev) {s t acc}, JS lvl D enc s t acc → Along .idf4s (Timely .idf4s) s evs →
    (∀ ev ∈ evs, ev.Basic) → (enc → ∀ ev ∈ evs, ev.Plain .idf4s) → ∃ t', JS lvl D enc (track .idf4s s acc evs).1 t' (track .idf4s s acc evs).2
  | [], _, t, _, h, _, _, _ => ⟨t, h⟩
  | ev :: evs, s, t, acc, h, ha, hb, hp => by
    obtain ⟨t', h'⟩ := stepS_J hD h ev ha.1 (hb ev (by simp)) (fun he => hp he ev (by simp))
    exact trackS_J hD evs h' ha.2 (fun e he => hb e (List.mem_cons_of_mem _ he)) (fun henc e he => hp henc e (List.mem_cons_of_mem _ he))

theorem bothS_prefix {s : RmtReg} {k1 k2 : Chunk} {ks : List Chunk} (l1 : s.mem1.length = 23) (e1 : k1.segs = s.mem2.flatMap rmtDecode) (e2 : k2.segs = s.mem1.flatMap rmtDecode) :
    labs ks.reverse ++ lw (s.mem1.take s.pos) k2.level ++ lw (s.mem2.take (s.pos - 23)) k1.level <+: labs (k1 :: k2 :: ks).reverse := by
  rw [labs_cons, labs_cons, seg_lw e2, seg_lw e1]
  by_cases h : s.pos ≤ 23
  · rw [show s.pos - 23 = 0 by omega]
    change labs ks.reverse ++ lw (s.mem1.take s.pos) k2.level ++ [] <+: _
    rw [List.append_nil]
    exact ((List.prefix_append_right_inj _).mpr (lw_prefix _ _ _)).trans (List.prefix_append _ _)
  · rw [List.take_of_length_le (show s.mem1.length ≤ s.pos by omega)]
    exact (List.prefix_append_right_inj _).mpr (lw_prefix _ _ _)

/-- What is on the wire. -/
theorem PhS.out {s : RmtReg} {t : Rmt} (l1 : s.mem1.length = 23) (h : PhS s t) :
    ∃ a, SameOut s.wire.reverse a ∧ a <+: labs t.out.reverse ∧ labs (t.out.drop 2).reverse <+: a ∧ (s.sending = false → a = labs t.out.reverse) := by
  have hall : SameOut s.wire.reverse (labs t.out.reverse) → ∃ a, SameOut s.wire.reverse a ∧ a <+: labs t.out.reverse ∧ labs (t.out.drop 2).reverse <+: a ∧ (s.sending = false → a = labs t.out.reverse) := by
    intro wire
    refine ⟨_, wire, List.prefix_rfl, ?_, fun _ => rfl⟩
    have : t.out.reverse = (t.out.drop 2).reverse ++ (t.out.take 2).reverse := by rw [← List.reverse_append, List.take_append_drop]
    rw [this]
    unfold labs
    rw [List.flatMap_append]
    exact List.prefix_append _ _
  cases h
  case idle ena sending wire => exact hall wire
  case ended ena run st sending fin thr wire => exact hall wire
  case partOne k1 k2 ks ab ena run pos eq sending conti fin thr e1 e2 nf wire lo hi lim =>
    refine ⟨_, wire, ?_, ?_, fun h => by rw [sending] at h; cases h⟩
    · rw [eq]; exact bothS_prefix l1 e1 e2
    · rw [eq, List.append_assoc]; exact List.prefix_append _ _
  case inTwo k1 k2 ks ab ena run pos eq sending conti fin thr e1 e2 nf wire cnt lim =>
    refine ⟨_, wire, ?_, ?_, fun h => by rw [sending] at h; cases h⟩
    · rw [eq, labs_cons, labs_cons, seg_lw e2]
      exact ((List.prefix_append_right_inj _).mpr (lw_prefix _ _ _)).trans (List.prefix_append _ _)
    · rw [eq]; exact List.prefix_append _ _
  case afterTwo k1 k2 ks ab ena run pos eq sending conti fin thr e1 e2 nf wire lo hi lim =>
    refine ⟨_, wire, ?_, ?_, fun h => by rw [sending] at h; cases h⟩
    · rw [eq, labs_cons k1, seg_lw e1]
      exact (List.prefix_append_right_inj _).mpr (lw_prefix _ _ _)
    · rw [eq, labs_cons, List.append_assoc]; exact List.prefix_append _ _
  case ending1 k1 k2 ks ena run pos eq st sending conti fin thr e1 e2 nf wire lo hi lim =>
    refine ⟨_, wire, ?_, ?_, fun h => by rw [sending] at h; cases h⟩
    · rw [eq]; exact bothS_prefix l1 e1 e2
    · rw [eq, List.append_assoc]; exact List.prefix_append _ _
  case ending2 k1 ks ena run pos eq st sending conti fin thr e1 wire cnt lim =>
    refine ⟨_, wire, ?_, ?_, fun h => by rw [sending] at h; cases h⟩
    · rw [eq, labs_cons, seg_lw e1]
      exact (List.prefix_append_right_inj _).mpr (lw_prefix _ _ _)
    · rw [eq]
      change labs (ks.drop 1).reverse <+: _
      have : ks.reverse = (ks.drop 1).reverse ++ (ks.take 1).reverse := by rw [← List.reverse_append, List.take_append_drop]
      rw [this]
      unfold labs
      rw [List.flatMap_append, List.append_assoc]
      exact List.prefix_append _ _

/-- The transmission will have ended after `N` more words: at most `f` more parts are needed until the continuous mode is switched off. -/
inductive LeftS (N : Nat) (s : RmtReg) (t : Rmt) : Prop
  | over (h : s.sending = false) (he : s.ena = true ∨ (s.q.pending .esp32 = [] ∧ s.q.running = false))
  | ending (h : s.stopped = true) (hc : s.conti = false) (he : s.ena = true) (hN : 47 ≤ N + s.pos)
  | more (f : Nat) (hc : s.conti = true) (he : s.ena = true) (hf0 : s.stopped = true → (if t.partOne then 2 else 1) ≤ f)
    (hf : s.stopped = false → (Rmt.run .idf4s t (List.replicate f .fill)).stopped = true)
    (hN : 47 * f + (if t.partOne then 46 else if 24 < s.pos then 70 else 23) ≤ N + s.pos)

theorem LeftS.pos {s t f} (hr : RelS s t) (hf0 : s.stopped = true → (if t.partOne then 2 else 1) ≤ f)
    (hf : s.stopped = false → (Rmt.run .idf4s t (List.replicate f .fill)).stopped = true) : f ≠ 0 := by
  intro h0
  subst h0
  cases hx : s.stopped
  · have := hf hx
    change t.stopped = true at this
    rw [hr.st, hx] at this
    cases this
  · have := hf0 hx
    split at this <;> omega

theorem LeftS.zero {s t} (h : LeftS 0 s t) (hr : RelS s t) : s.sending = false ∧ (s.ena = true ∨ (s.q.pending .esp32 = [] ∧ s.q.running = false)) := by
  have hph := hr.ph
  cases id h with
  | over h he => exact ⟨h, he⟩
  | ending h1 hc he hN =>
    cases hph
    case idle ena sending wire => rw [he] at ena; cases ena
    case ended ena run st sending fin thr wire => exact ⟨sending, Or.inl he⟩
    all_goals omega
  | more f hc he hf0 hf hN =>
    have hp := LeftS.pos hr hf0 hf
    cases hph
    case idle ena sending wire => rw [he] at ena; cases ena
    case ended ena run st sending fin thr wire => exact ⟨sending, Or.inl he⟩
    all_goals
      exfalso
      repeat' split at hN
      all_goals omega

theorem LeftS.word {N s t} (h : LeftS (N + 1) s t) (hr : RelS s t) (ht : Timely .idf4s s .word) : LeftS N (s.step .idf4s .word) t := by
  by_cases hs : s.sending = true
  rotate_left
  · have heq : s.step .idf4s .word = s := by
      change RmtReg.sync (if s.sending then _ else _) = _
      rw [if_neg hs, sync_eq hr.sync]
    rw [heq]
    cases h with
    | over h he => exact .over h he
    | ending h hc he hN => exact .over (by simpa using hs) (Or.inl he)
    | more f hc he hf0 hf hN => exact .over (by simpa using hs) (Or.inl he)
  have heq : s.step .idf4s .word = RmtReg.sync (RmtReg.word .idf4s s) := by
    change RmtReg.sync (if s.sending then _ else _) = _
    rw [if_pos hs]
  rw [heq]
  obtain ⟨f1, f2, f3, f4, f5, f6, f7, f8, f9, f10⟩ := word_frame .idf4s s
  obtain ⟨hsync, l1, l2, hq, hpc, htx, hst, hsta, hph⟩ := hr
  have ht := ht hs
  change s.pos = 23 ∨ s.pos = 46 → _ at ht
  have hnext : s.pos < 46 → (RmtReg.word .idf4s s).pos = s.pos + 1 := by
    intro hlt
    by_cases h1 : s.pos < 23
    · exact (wordS_one s l1 h1).1
    · exact (wordS_two s l2 (by omega) hlt).1
  cases h with
  | over h he => rw [hs] at h; cases h
  | ending h hc he hN =>
    have hle : s.pos ≤ 46 := by
      cases hph
      case idle ena sending wire => rw [he] at ena; cases ena
      case ended ena run st sending fin thr wire => rw [hs] at sending; cases sending
      all_goals omega
    by_cases hlt : s.pos < 46
    · refine .ending (f2.trans h) (f8.trans hc) (f10.trans he) ?_
      change 47 ≤ N + (RmtReg.word .idf4s s).pos
      have := hnext hlt
      omega
    · refine .over ?_ (Or.inl (f10.trans he))
      obtain ⟨g1, g2, g3, g4, g5, g6⟩ := wordS_end s (by omega)
      change (RmtReg.word .idf4s s).sending = false
      rw [g3, hc, Bool.and_false]
  | more f hc he hf0 hf hN =>
    have hpos : 1 + (if t.partOne then 46 else if 24 < s.pos then 70 else 23) + (RmtReg.word .idf4s s).pos ≥
        (if t.partOne then 46 else if 24 < (RmtReg.word .idf4s s).pos then 70 else 23) + s.pos + 2 := by
      cases hph
      case idle ena sending wire => rw [he] at ena; cases ena
      case ended ena run st sending fin thr wire => rw [hs] at sending; cases sending
      case ending1 k1 k2 ks ena run pos eq st sending conti fin thr e1 e2 nf wire lo hi lim => rw [conti] at hc; cases hc
      case ending2 k1 ks ena run pos eq st sending conti fin thr e1 wire cnt lim => rw [conti] at hc; cases hc
      case partOne k1 k2 ks ab ena run pos eq sending conti fin thr e1 e2 nf wire lo hi lim =>
        have hlt : s.pos < 46 := by
          refine Nat.lt_of_le_of_ne pos fun h => ?_
          have := (ht (Or.inr h)).1
          rw [thr, h] at this
          cases this
        have := hnext hlt
        rw [show t.partOne = true by rw [ab]; rfl, if_pos rfl, if_pos rfl]
        omega
      case inTwo k1 k2 ks ab ena run pos eq sending conti fin thr e1 e2 nf wire cnt lim =>
        rw [show t.partOne = false by rw [ab]; rfl, if_neg (show ¬ (false = true) by simp), if_neg (show ¬ (false = true) by simp), if_pos pos.1]
        by_cases hlt : s.pos < 46
        · have := hnext hlt
          rw [if_pos (by omega)]
          omega
        · have := (wordS_end s (by omega)).1
          rw [conti, if_pos rfl] at this
          rw [if_neg (by omega)]
          omega
      case afterTwo k1 k2 ks ab ena run pos eq sending conti fin thr e1 e2 nf wire lo hi lim =>
        have hlt : s.pos < 23 := by
          refine Nat.lt_of_le_of_ne pos fun h => ?_
          have := (ht (Or.inl h)).1
          rw [thr, h] at this
          cases this
        have := hnext (by omega)
        rw [show t.partOne = false by rw [ab]; rfl, if_neg (show ¬ (false = true) by simp), if_neg (show ¬ (false = true) by simp), if_neg (show ¬ 24 < s.pos by omega), if_neg (by omega)]
        omega
    refine .more f (f8.trans hc) (f10.trans he) (by change (RmtReg.word .idf4s s).stopped = true → _; rw [f2]; exact hf0) (by change (RmtReg.word .idf4s s).stopped = false → _; rw [f2]; exact hf) ?_
    change 47 * f + (if t.partOne then 46 else if 24 < (RmtReg.word .idf4s s).pos then 70 else 23) ≤ N + (RmtReg.word .idf4s s).pos
    omega

theorem LeftS.isr {N s t s' t'} (h : LeftS N s t) (hr : RelS s t) (hi : IsrS s t s' t') : LeftS N s' t' := by
  rcases hi with ⟨i1, i2, i3, i4, i5, i6, i7⟩ | ⟨i1, i2, i3, i4, i5, i6, i7, i8⟩ | ⟨i1, i2, i3, i4, i5⟩
  · subst i1
    cases h with
    | over h he => exact .over (i6.trans h) (by rw [i5, i7]; exact he)
    | ending h hc he hN => exact .ending (i4.trans h) (i3.trans hc) (i5.trans he) (by omega)
    | more f hc he hf0 hf hN => exact .more f (i3.trans hc) (i5.trans he) (by rw [i4]; exact hf0) (by rw [i4]; exact hf) (by rw [i2]; exact hN)
  · cases id h with
    | over h he => rw [i7] at h; cases h
    | ending h hc he hN => rw [i3] at hc; cases hc
    | more f hc he hf0 hf hN =>
      have hp := LeftS.pos hr hf0 hf
      obtain ⟨f, rfl⟩ : ∃ g, f = g + 1 := ⟨f - 1, by omega⟩
      have hfill : ∀ g, Rmt.run .idf4s t (List.replicate (g + 1) .fill) = Rmt.run .idf4s t' (List.replicate g .fill) := by
        intro g
        change Rmt.run .idf4s (t.step .idf4s .fill) _ = _
        have : t.step .idf4s .fill = t' := by
          rw [i1]
          unfold Rmt.step
          dsimp only
          rw [if_pos (hr.tx.trans he)]
        rw [this]
      rw [hfill] at hf
      rcases i8 with ⟨j1, j2, j3, j4⟩ | ⟨j1, j2, j3⟩
      · rw [j1, if_pos rfl] at hN hf0
        rw [j1] at i2
        refine .more f j3 (i5.trans he) (fun hx => ?_) (by rw [j4]; exact hf) ?_
        · rw [i2, if_neg (by simp)]
          have := hf0 (j4.symm.trans hx)
          omega
        · rw [i2, if_neg (by simp), i4, if_pos j2]
          omega
      · rw [j1, if_neg (show ¬ (false = true) by simp)] at hN hf0
        rw [if_neg (show ¬ 24 < s.pos by omega)] at hN
        rw [j1] at i2
        rcases j3 with ⟨k1, k2, k3⟩ | ⟨k1, k2⟩
        · refine .more f k1 (i5.trans he) (fun hx => by rw [k2] at hx; cases hx) (fun _ => hf k3) ?_
          rw [i2, if_pos (by rfl)]
          omega
        · refine .ending k2 k1 (i5.trans he) ?_
          omega
  · exact .over i2 (Or.inr ⟨i5, i4⟩)

/-- Words and interrupts until the end of the transmission. -/
theorem LeftS.run {lvl D} {enc : Prop} (hD : ∀ u, D u (lvl u)) : ∀ (evs : List Ev) {N s t acc}, LeftS N s t → JS lvl D enc s t acc → Along .idf4s (Timely .idf4s) s evs →
    (∀ ev ∈ evs, ev = .word ∨ ev = .isr) → ∃ t', JS lvl D enc (RmtReg.run .idf4s s evs) t' acc ∧ LeftS (N - words evs) (RmtReg.run .idf4s s evs) t'
  | [], _, _, t, _, h, hj, _, _ => ⟨t, hj, h⟩
  | ev :: evs, N, s, t, acc, h, hj, ha, hw => by
    have hsum : N - words (ev :: evs) = N - words [ev] - words evs := by
      have : words (ev :: evs) = words [ev] + words evs := by
        unfold words
        exact List.countP_append (l₁ := [ev]) (l₂ := evs) ..
      omega
    have hone : ∃ t', JS lvl D enc (s.step .idf4s ev) t' acc ∧ LeftS (N - words [ev]) (s.step .idf4s ev) t' := by
      rcases hw ev (by simp) with he | he
      · subst he
        have hj' : JS lvl D enc (s.step .idf4s .word) t acc := by
          obtain ⟨hr, hi, hp⟩ := id hj
          refine ⟨?_, hi, hp⟩
          change RelS (RmtReg.sync (if s.sending then _ else _)) t
          by_cases hs : s.sending = true
          · rw [if_pos hs]
            obtain ⟨f1, f2, f3, f4, f5, f6, f7, f8, f9, f10⟩ := word_frame .idf4s s
            have hsy : (RmtReg.word .idf4s s).q.ready = (!(RmtReg.word .idf4s s).q.running || !(RmtReg.word .idf4s s).stopped) := by rw [f1, f2]; exact hr.sync
            rw [sync_eq hsy]
            refine ⟨hsy, by rw [f5]; exact hr.l1, by rw [f6]; exact hr.l2, by rw [f1]; exact hr.q, by rw [f7]; exact hr.pc, by rw [f10]; exact hr.tx, by rw [f2]; exact hr.st, hr.starting, ?_⟩
            exact word_PhS hr.l1 hr.l2 hr.ph hs (ha.1 hs) (fun he c cs hc => by rw [← hr.q]; exact (hi.cur (hr.tx.trans he) hr.starting c cs hc).1) hi.steady
          · rw [if_neg hs, sync_eq hr.sync]
            exact hr
        refine ⟨t, hj', ?_⟩
        change LeftS (N - 1) _ t
        cases N with
        | zero =>
          have h0 := h.zero hj.rel
          have heq : s.step .idf4s .word = s := by
            change RmtReg.sync (if s.sending then _ else _) = _
            rw [if_neg (by simp [h0.1]), sync_eq hj.rel.sync]
          rw [heq]
          exact h
        | succ N => exact h.word hj.rel ha.1
      · subst he
        obtain ⟨t', h1, h2⟩ := isrS_J hD hj
        exact ⟨t', h1, h.isr hj.rel h2⟩
    obtain ⟨t', h1, h2⟩ := hone
    rw [hsum]
    exact LeftS.run hD evs h2 h1 ha.2 (fun e he => hw e (List.mem_cons_of_mem _ he))

/-! ## Force stop -/

/-- Only pauses are in the memory, and the transmission will end. -/
structure HaltedS (s : RmtReg) : Prop where
  m1 : s.mem1 = stopWords .idf4s ∨ s.mem1 = RmtVer.emptyPause .idf4s true
  m2 : s.mem2 = stopWords .idf4s
  stopped : s.stopped = true
  conti : s.conti = false
  pc : s.pc = .idle
  q : s.q.readIdx = s.q.nextWriteIdx
  sync : s.sync = s

theorem overS_stop (m : List Nat) : over .idf4s (stopWords .idf4s) m = stopWords .idf4s := by
  unfold over
  rw [List.take_append_of_le_length (by decide)]
  decide

theorem overS_empty (m : List Nat) : over .idf4s (RmtVer.emptyPause .idf4s true) m = RmtVer.emptyPause .idf4s true := by
  unfold over
  rw [List.take_append_of_le_length (by decide)]
  decide

theorem HaltedS.force {s : RmtReg} (h : s.pc = .idle) (p : Int) : HaltedS (s.step .idf4s (.forceStop p)) := by
  have : s.step .idf4s (.forceStop p) = (forceStopAndNewPosition .idf4s p s).sync := by
    unfold step
    dsimp only
    rw [h]
  rw [this]
  exact ⟨Or.inl (overS_stop _), overS_stop _, rfl, rfl, h, rfl, rfl⟩

theorem stopWordsS_silent (i : Nat) : (rmtDecode ((stopWords .idf4s).getD i 0)).filter (fun g => g.high) = [] := by
  by_cases h : i < 23
  · revert h
    revert i
    decide +kernel
  · rw [List.getD_eq_getElem?_getD, List.getElem?_eq_none (by simp [stopWords, RmtVer.part]; omega)]
    decide

theorem emptyPauseS_silent (i : Nat) : (rmtDecode ((RmtVer.emptyPause .idf4s true).getD i 0)).filter (fun g => g.high) = [] := by
  by_cases h : i < 23
  · revert h
    revert i
    decide +kernel
  · rw [List.getD_eq_getElem?_getD, List.getElem?_eq_none (by simp [RmtVer.emptyPause, RmtVer.part]; omega)]
    decide

/-- The registers after a word, if the continuous mode is off. -/
theorem wordS_halted {s : RmtReg} (hc : s.conti = false) : ∃ x : RmtReg, s.word .idf4s = { s with pos := x.pos, sending := x.sending, fin := x.fin, wire := x.wire, cnt := x.cnt, thr := x.thr } ∧
    (s.pos < 46 → x.pos = s.pos + 1 ∧ x.sending = s.sending ∧ x.fin = s.fin) ∧ (¬ s.pos < 46 → x.pos = s.pos ∧ x.sending = false ∧ x.fin = true) := by
  refine ⟨s.word .idf4s, ?_⟩
  unfold RmtReg.word
  dsimp only
  rw [show RmtVer.part .idf4s = 23 from rfl]
  by_cases h1 : s.pos < 23
  · simp only [if_pos h1]
    split <;> exact ⟨rfl, fun _ => ⟨rfl, rfl, rfl⟩, fun h => by omega⟩
  · simp only [if_neg h1]
    by_cases h2 : s.pos < 2 * 23
    · simp only [if_pos h2]
      split <;> exact ⟨rfl, fun _ => ⟨rfl, rfl, rfl⟩, fun h => by omega⟩
    · simp only [if_neg h2, if_neg (show ¬ s.conti = true by rw [hc]; decide)]
      split <;> exact ⟨rfl, fun h => by omega, fun _ => ⟨rfl, rfl, rfl⟩⟩

theorem HaltedS.word {s : RmtReg} (h : HaltedS s) : HaltedS (s.step .idf4s .word) ∧ (s.step .idf4s .word).pulses = s.pulses := by
  change HaltedS (RmtReg.sync (if s.sending then s.word .idf4s else s)) ∧ (RmtReg.sync (if s.sending then s.word .idf4s else s)).pulses = _
  cases hsend : s.sending
  · rw [if_neg (by simp)]
    rw [h.sync]
    exact ⟨h, rfl⟩
  · rw [if_pos rfl]
    refine ⟨?_, ?_⟩
    · obtain ⟨x, hx, _⟩ := wordS_halted h.conti
      rw [hx]
      exact ⟨h.m1, h.m2, h.stopped, h.conti, h.pc, h.q, rfl⟩
    · change (s.word .idf4s).wire.reverse.filter _ = _
      have h0 : ([] : List Seg).filter (fun g => g.high) = [] := rfl
      have hm1 : (rmtDecode (s.mem1.getD s.pos 0)).filter (fun g => g.high) = [] := by
        rcases h.m1 with hm | hm
        · rw [hm]; exact stopWordsS_silent _
        · rw [hm]; exact emptyPauseS_silent _
      unfold RmtReg.word
      dsimp only
      by_cases h1 : s.pos < RmtVer.idf4s.part
      · simp only [if_pos h1]
        split <;> exact emit_pulses s _ hm1
      · simp only [if_neg h1]
        by_cases h2 : s.pos < 2 * RmtVer.idf4s.part
        · simp only [if_pos h2, h.m2]
          split <;> exact emit_pulses s _ (stopWordsS_silent _)
        · simp only [if_neg h2, if_neg (show ¬ s.conti = true by rw [h.conti]; decide)]
          split <;> exact emit_pulses s _ h0

/-- `apply_command()` in this state. -/
theorem HaltedS.apply {s : RmtReg} (h : HaltedS s) (one : Bool) : ∃ m1 has0, (m1 = stopWords .idf4s ∨ m1 = RmtVer.emptyPause .idf4s true) ∧
    applyCommand .idf4s one s = { s with mem1 := m1, has0 := has0 } := by
  unfold applyCommand
  rw [if_pos h.q]
  cases one
  · refine ⟨s.mem1, s.has0, h.m1, ?_⟩
    rw [if_neg (by simp)]
    unfold stopRmt
    rw [if_neg (by simp), overS_stop, ← h.m2, ← h.stopped, ← h.conti]
  · refine ⟨_, false, Or.inr (overS_empty s.mem1), ?_⟩
    rw [if_pos rfl]
    unfold put
    rw [if_pos rfl, overS_empty]

/-- The interrupt in this state. -/
theorem HaltedS.isr' {s : RmtReg} (h : HaltedS s) : ∃ m1 has0 lim, (m1 = stopWords .idf4s ∨ m1 = RmtVer.emptyPause .idf4s true) ∧
    RmtReg.isr .idf4s s = { s with
      mem1 := m1, has0 := has0, lim := lim, fin := s.fin && !s.ena, thr := s.thr && !s.ena, ena := s.ena && !s.fin, q := { s.q with running := s.q.running && !(s.fin && s.ena) } } := by
  have hthr : ∀ x : RmtReg, HaltedS { x with q := { x.q with ready := !x.q.running || !x.stopped } } → ∀ b : Bool, ∃ m1 has0 lim, (m1 = stopWords .idf4s ∨ m1 = RmtVer.emptyPause .idf4s true) ∧
      (if b then if x.lim = RmtVer.part .idf4s + 1 then { applyCommand .idf4s false x with lim := RmtVer.part .idf4s } else { applyCommand .idf4s true x with lim := RmtVer.part .idf4s + 1 } else x) =
        { x with mem1 := m1, has0 := has0, lim := lim } := by
    intro x hx b
    cases b
    · exact ⟨x.mem1, x.has0, x.lim, hx.m1, rfl⟩
    · rw [if_pos rfl]
      have key : ∀ one, ∃ m1 has0, (m1 = stopWords .idf4s ∨ m1 = RmtVer.emptyPause .idf4s true) ∧ applyCommand .idf4s one x = { x with mem1 := m1, has0 := has0 } := by
        intro one
        unfold applyCommand
        rw [if_pos hx.q]
        have hm2 : x.mem2 = stopWords .idf4s := hx.m2
        have hst : x.stopped = true := hx.stopped
        have hc : x.conti = false := hx.conti
        cases one
        · refine ⟨x.mem1, x.has0, hx.m1, ?_⟩
          rw [if_neg (by simp)]
          unfold stopRmt
          rw [if_neg (by simp), overS_stop, ← hm2, ← hst, ← hc]
        · refine ⟨_, false, Or.inr (overS_empty x.mem1), ?_⟩
          rw [if_pos rfl]
          unfold put
          rw [if_pos rfl, overS_empty]
      by_cases hl : x.lim = RmtVer.part .idf4s + 1
      · rw [if_pos hl]
        obtain ⟨m1, has0, k1, k2⟩ := key false
        rw [k2]
        exact ⟨m1, has0, _, k1, rfl⟩
      · rw [if_neg hl]
        obtain ⟨m1, has0, k1, k2⟩ := key true
        rw [k2]
        exact ⟨m1, has0, _, k1, rfl⟩
  unfold RmtReg.isr
  dsimp only
  rw [if_neg (show ¬ RmtVer.idf4s = .idf4 by simp)]
  obtain ⟨m1, m2, hst, hc, hpc, hq, hsy⟩ := h
  obtain ⟨q, stopped, has0, has1, mem1, mem2, pc, conti, lim, thr, fin, ena, sending, pos, cnt, wire⟩ := s
  dsimp only at *
  by_cases hf : (fin && ena) = true
  · rw [if_pos hf]
    obtain ⟨a, b, c, k1, k2⟩ := hthr ⟨{ q with running := false }, stopped, has0, has1, mem1, mem2, pc, conti, lim, thr && !(thr && ena), fin && !(fin && ena), false, sending, pos, cnt, wire⟩
      ⟨m1, m2, hst, hc, hpc, hq, rfl⟩ (thr && ena)
    refine ⟨a, b, c, k1, k2.trans ?_⟩
    rw [Bool.and_eq_true] at hf
    rw [hf.1, hf.2]
    simp
  · rw [if_neg hf]
    obtain ⟨a, b, c, k1, k2⟩ := hthr ⟨q, stopped, has0, has1, mem1, mem2, pc, conti, lim, thr && !(thr && ena), fin && !(fin && ena), ena, sending, pos, cnt, wire⟩
      ⟨m1, m2, hst, hc, hpc, hq, rfl⟩ (thr && ena)
    refine ⟨a, b, c, k1, k2.trans ?_⟩
    clear k2 hthr hsy m1 m2 hst hc hpc hq
    cases fin <;> cases ena <;> first | (simp at hf; done) | (cases thr <;> simp)

theorem HaltedS.isr {s : RmtReg} (h : HaltedS s) : HaltedS (s.step .idf4s .isr) ∧ (s.step .idf4s .isr).pulses = s.pulses := by
  obtain ⟨m1, has0, lim, k1, k2⟩ := h.isr'
  change HaltedS (RmtReg.isr .idf4s s).sync ∧ (RmtReg.isr .idf4s s).sync.pulses = s.pulses
  rw [k2]
  exact ⟨⟨k1, h.m2, h.stopped, h.conti, h.pc, h.q, rfl⟩, rfl⟩

/-- Whatever is called while the motor is running. -/
theorem HaltedS.step {s : RmtReg} (h : HaltedS s) (hr : s.q.running = true) (ev : Ev) : HaltedS (s.step .idf4s ev) ∧ (s.step .idf4s ev).pulses = s.pulses := by
  have hready : s.q.ready = false := by
    rw [← h.sync]
    change (!s.q.running || !s.stopped) = false
    rw [hr, h.stopped]
    rfl
  have hkeep : s.step .idf4s ev = s.sync → HaltedS (s.step .idf4s ev) ∧ (s.step .idf4s ev).pulses = s.pulses := fun e => by
    rw [e, h.sync]
    exact ⟨h, rfl⟩
  cases ev with
  | word => exact h.word
  | isr => exact h.isr
  | addBegin c start =>
    refine hkeep ?_
    unfold RmtReg.step
    dsimp only
    rw [h.pc]
    dsimp only
    rw [if_pos (by rw [hready]; rfl)]
  | addCommit =>
    refine hkeep ?_
    unfold RmtReg.step
    dsimp only
    rw [h.pc]
  | addFinish =>
    refine hkeep ?_
    unfold RmtReg.step
    dsimp only
    rw [h.pc]
  | startNull =>
    refine hkeep ?_
    unfold RmtReg.step
    dsimp only
    rw [h.pc]
    dsimp only
    rw [if_neg fun hx => by rw [AvrTimer.addNull_running hx] at hr; cases hr]
  | forceStop p =>
    refine ⟨HaltedS.force h.pc p, ?_⟩
    unfold RmtReg.step
    dsimp only
    rw [h.pc]
    rfl
  | clearIgnore => exact ⟨⟨h.m1, h.m2, h.stopped, h.conti, h.pc, h.q, rfl⟩, rfl⟩
  | detach => exact ⟨⟨h.m1, h.m2, h.stopped, h.conti, h.pc, h.q, rfl⟩, rfl⟩

/-- At most `N` words remain after a force stop. -/
inductive StoppingS (N : Nat) (s : RmtReg) : Prop
  | sending (hs : s.sending = true) (he : s.ena = true) (hf : s.fin = false) (hp : s.pos ≤ 46) (hN : 47 ≤ N + s.pos)
  | ended (hs : s.sending = false) (he : s.ena = true) (hf : s.fin = true)
  | over (hs : s.sending = false) (he : s.ena = false) (hf : s.fin = false) (ht : s.thr = false) (hr : s.q.running = false)

theorem StoppingS.word {N s} (h : StoppingS (N + 1) s) (hh : HaltedS s) : StoppingS N (s.step .idf4s .word) := by
  have hidle : s.sending = false → s.step .idf4s .word = s := by
    intro hs
    change RmtReg.sync (if s.sending then _ else _) = _
    rw [if_neg (by simp [hs]), hh.sync]
  cases h with
  | sending hs he hf hp hN =>
    have hstep : s.step .idf4s .word = (s.word .idf4s).sync := by
      change RmtReg.sync (if s.sending then _ else _) = _
      rw [if_pos hs]
    rw [hstep]
    obtain ⟨x, hx, h1, h2⟩ := wordS_halted hh.conti
    rw [hx]
    by_cases hlt : s.pos < 46
    · obtain ⟨a1, a2, a3⟩ := h1 hlt
      refine .sending (a2.trans hs) he (a3.trans hf) (show x.pos ≤ 46 by omega) (show 47 ≤ N + x.pos by omega)
    · obtain ⟨a1, a2, a3⟩ := h2 hlt
      exact .ended a2 he a3
  | ended hs he hf =>
    rw [hidle hs]
    exact .ended hs he hf
  | over hs he hf ht hr =>
    rw [hidle hs]
    exact .over hs he hf ht hr

theorem StoppingS.isr {N s} (h : StoppingS N s) (hh : HaltedS s) : StoppingS N (s.step .idf4s .isr) ∧ (s.sending = false → (s.step .idf4s .isr).ena = false) := by
  obtain ⟨m1, has0, lim, k1, k2⟩ := hh.isr'
  change StoppingS N (RmtReg.isr .idf4s s).sync ∧ (_ → (RmtReg.isr .idf4s s).sync.ena = false)
  rw [k2]
  cases h with
  | sending hs he hf hp hN => exact ⟨.sending hs (by change (s.ena && !s.fin) = true; rw [he, hf]; rfl) (by change (s.fin && !s.ena) = false; rw [hf]; rfl) hp hN, fun hx => by rw [hs] at hx; cases hx⟩
  | ended hs he hf =>
    exact ⟨.over hs (by change (s.ena && !s.fin) = false; rw [hf]; simp) (by change (s.fin && !s.ena) = false; rw [he]; simp) (by change (s.thr && !s.ena) = false; rw [he]; simp)
      (by change (s.q.running && !(s.fin && s.ena)) = false; rw [he, hf]; simp), fun _ => by change (s.ena && !s.fin) = false; rw [hf]; simp⟩
  | over hs he hf ht hr =>
    exact ⟨.over hs (by change (s.ena && !s.fin) = false; rw [he]; rfl) (by change (s.fin && !s.ena) = false; rw [hf]; rfl) (by change (s.thr && !s.ena) = false; rw [ht]; rfl)
      (by change (s.q.running && !(s.fin && s.ena)) = false; rw [hr]; rfl), fun _ => by change (s.ena && !s.fin) = false; rw [he]; rfl⟩

theorem StoppingS.run : ∀ (evs : List Ev) {N s}, StoppingS N s → HaltedS s → (∀ ev ∈ evs, ev = .word ∨ ev = .isr) → N ≤ words evs →
    StoppingS 0 (run .idf4s s evs) ∧ HaltedS (run .idf4s s evs) ∧ (run .idf4s s evs).pulses = s.pulses := by
  intro evs
  induction evs with
  | nil =>
    intro N s h hh _ hN
    have : N = 0 := by unfold words at hN; simpa using hN
    subst this
    exact ⟨h, hh, rfl⟩
  | cons ev evs ih =>
    intro N s h hh hw hN
    have hw' : ∀ ev ∈ evs, ev = .word ∨ ev = .isr := fun e he => hw e (List.mem_cons_of_mem _ he)
    rcases hw ev (by simp) with rfl | rfl
    · have hcount : words (.word :: evs) = words evs + 1 := by
        unfold words
        exact List.countP_cons_of_pos (by decide)
      have hN1 : StoppingS (words evs + 1) s := by
        cases h with
        | sending hs he hf hp h => exact .sending hs he hf hp (by omega)
        | ended hs he hf => exact .ended hs he hf
        | over hs he hf ht hr => exact .over hs he hf ht hr
      obtain ⟨h1, h2, h3⟩ := ih (hN1.word hh) hh.word.1 hw' (Nat.le_refl _)
      exact ⟨h1, h2, h3.trans hh.word.2⟩
    · have hcount : words (.isr :: evs) = words evs := by
        unfold words
        exact List.countP_cons_of_neg (by decide)
      obtain ⟨h1, h2, h3⟩ := ih (h.isr hh).1 hh.isr.1 hw' (by omega)
      exact ⟨h1, h2, h3.trans hh.isr.2⟩

/-- In any schedule: the position in the memory, and no end interrupt is pending during a transmission. -/
def SendOK (s : RmtReg) : Prop := s.pos ≤ 46 ∧ (s.sending = true → s.fin = false)

theorem SendOK.word {s : RmtReg} (h : SendOK s) : SendOK (s.word .idf4s) := by
  obtain ⟨hp, hf⟩ := h
  unfold RmtReg.word
  dsimp only
  rw [show RmtVer.part .idf4s = 23 from rfl]
  by_cases h1 : s.pos < 23
  · simp only [if_pos h1]
    split <;> exact ⟨show s.pos + 1 ≤ 46 by omega, hf⟩
  · simp only [if_neg h1]
    by_cases h2 : s.pos < 2 * 23
    · simp only [if_pos h2]
      split <;> exact ⟨show s.pos + 1 ≤ 46 by omega, hf⟩
    · simp only [if_neg h2]
      by_cases h3 : s.conti = true
      · simp only [if_pos h3]
        split <;> exact ⟨Nat.zero_le _, fun hx => by change (s.fin || _) = false; rw [hf hx]; rfl⟩
      · simp only [if_neg h3]
        split <;> exact ⟨hp, fun hx => by cases hx⟩

theorem SendOK.isr {s : RmtReg} (h : SendOK s) : SendOK (isr .idf4s s) := by
  obtain ⟨hp, hf⟩ := h
  have happ : ∀ (one : Bool) (x : RmtReg) (l : Nat), SendOK x → SendOK { applyCommand .idf4s one x with lim := l } := by
    intro one x l hx
    obtain ⟨f1, f2, f3, f4, f5, f6, f7, f8, f9, f10, f11, f12, f13, f14, f15⟩ := apply_frame .idf4s one x
    exact ⟨by change (applyCommand .idf4s one x).pos ≤ 46; rw [f6]; exact hx.1, by change (applyCommand .idf4s one x).sending = true → (applyCommand .idf4s one x).fin = false; rw [f5, f3]; exact hx.2⟩
  have key : ∀ (b : Bool) (x : RmtReg), SendOK x → SendOK (if b then if x.lim = RmtVer.part .idf4s + 1 then { applyCommand .idf4s false x with lim := RmtVer.part .idf4s } else
      { applyCommand .idf4s true x with lim := RmtVer.part .idf4s + 1 } else x) := by
    intro b x hx
    cases b
    · exact hx
    · rw [if_pos rfl]
      split
      · exact happ _ _ _ hx
      · exact happ _ _ _ hx
  unfold RmtReg.isr
  dsimp only
  rw [if_neg (show ¬ RmtVer.idf4s = .idf4 by simp)]
  apply key
  have hf' : s.sending = true → (s.fin && !(s.fin && s.ena)) = false := fun hx => by rw [hf hx]; rfl
  split
  · exact ⟨hp, hf'⟩
  · exact ⟨hp, hf'⟩

theorem SendOK.start (s : RmtReg) : SendOK (startQueue .idf4s s) := by
  unfold startQueue
  dsimp only
  split
  · exact ⟨Nat.zero_le _, fun hx => by cases hx⟩
  · rw [if_neg (show ¬ RmtVer.idf4s = .idf4 by simp)]
    refine ⟨?_, fun _ => rfl⟩
    change (applyCommand _ _ _).pos ≤ 46
    rw [apply_pos, apply_pos]
    exact Nat.zero_le _

theorem SendOK.step {s : RmtReg} (h : SendOK s) (ev : Ev) : SendOK (s.step .idf4s ev) := by
  cases ev with
  | word =>
    change SendOK (RmtReg.sync (if s.sending then _ else _))
    split
    · exact h.word
    · exact h
  | isr => exact h.isr
  | addBegin c start =>
    unfold RmtReg.step
    dsimp only
    repeat' split
    all_goals exact h
  | addCommit =>
    unfold RmtReg.step
    dsimp only
    split <;> exact h
  | addFinish =>
    unfold RmtReg.step
    dsimp only
    split
    · split
      · exact SendOK.start _
      · exact h
    · exact h
  | startNull =>
    unfold RmtReg.step
    dsimp only
    split
    · split
      · exact SendOK.start _
      · exact h
    · exact h
  | forceStop p =>
    unfold RmtReg.step
    dsimp only
    split <;> exact h
  | clearIgnore => exact h
  | detach => exact h

theorem SendOK.run : ∀ (evs : List Ev) {s : RmtReg}, SendOK s → SendOK (run .idf4s s evs)
  | [], _, h => h
  | ev :: evs, _, h => SendOK.run evs (h.step ev)

end RmtReg
end FAS
