import Verif.Lemmas.AvrInv

/-! Timing and direction part of the AVR invariant. -/

namespace FAS

theorem xor_toggle {x y t : Bool} (h : t = (x != y)) : xor t y = x := by
  subst h; cases x <;> cases y <;> rfl

theorem pulseDir_lvl {lvl : Bool → Bool} {hi : Bool} (h : ∀ u, lvl u = (u == hi)) (u : Bool) :
    (if lvl u == hi then (1 : Int) else -1) = if u then 1 else -1 := by
  rw [h]; cases u <;> cases hi <;> rfl

/-- a compare event preserves the timing invariant -/
theorem Tim.compare {a lvl base s t qs qs'} (h : Core a s t qs) (hT : Tim a lvl base s t qs) (hav : a.isAvr = true)
    (hrun : s.q.running = true)
    (hA : s.q.pending a = [] → s.compare a = { s with irq := false, one := false, q := { s.q with running := false }, noMore := false } ∧
        qs' = { qs with running := false } ∧ s.noMore = true ∧ s.one = false)
    (hB : s.noMore = false → qs' = qs.advance) : Tim a lvl base (s.compare a) t qs' := by
  have hexp := hT.exp
  cases hnm : s.noMore with
  | true =>
    obtain ⟨_, hpn⟩ := hT.empt hrun hnm
    obtain ⟨heq, hqs, _, hone⟩ := hA hpn
    have hpe := h.pending_nil.mp hpn
    rw [heq, hqs]
    refine { lv := hT.lv, empt := fun hx => ?_, dir1 := fun hx => ?_, dir2 := fun _ => ?_, prepDir := hT.prepDir,
             exp := ?_, dur := fun hx => ?_, pos := hT.pos }
    · cases hx
    · cases hx
    · rcases hT.dir2 (Or.inr hnm) with hh | hh
      · rw [hrun] at hh; cases hh.1
      · exact Or.inr hh
    · rw [hexp, hrun]
      simp [QSpec.remaining, hpe, specPulses]
    · cases hx
  | false =>
    obtain ⟨e0, es0, hpend, hdir, htog⟩ := hT.dir1 hrun hnm
    have hne : s.q.readIdx ≠ s.q.nextWriteIdx := by
      intro hx
      have := h.pending_nil.mpr (h.empty_iff.mp hx)
      rw [this] at hpend; cases hpend
    obtain ⟨c, cs, hp, hcons, htk, hst, hcu, hd, hn⟩ := h.heads hav hne
    rw [hcons] at hpend
    injection hpend with he0 hes0
    subst he0 hes0
    rw [hB hnm]
    have hmode := h.mode
    rw [hrun, hnm, hcons] at hmode
    obtain ⟨e', es', he', hone⟩ := hmode
    cases he'
    have hrem := QSpec.remaining_cons hp
    obtain ⟨t0, cs0, ps, hph, hdur⟩ := hT.dur hrun
    rw [hrun, hrem] at hexp
    simp only [if_true] at hexp
    rw [hrem] at hdur
    simp only [durationSum, Cmd.duration] at hdur
    have hpls : s.pulsed.pulses = (if c.steps - qs.done ≠ 0 then [⟨s.ocr, lvl c.countUp⟩] else []) ++ s.pulses := by
      rw [Avr.pulsed_pulses, hone, hst, hdir, hcu]
      by_cases h0 : c.steps - qs.done = 0 <;> simp [h0]
    have hlvb : s.q.dirPin ≠ pinUndefined → ∀ u, lvl u = (u == s.q.dirHighCountsUp) := by
      intro hx u; rw [hT.lv u, if_neg hx]
    by_cases hdec : (s.q.slot a s.q.readIdx).steps > 1
    · have heq := Avr.isr_dec a s.pulsed (by simpa using hne) (by simpa using hdec)
      rw [← Avr.compare_eq] at heq
      simp only [Avr.pulsed_q, Avr.pulsed_ocr] at heq
      have hpd := pending_decSteps (a := a) h.sim.idx hn
      have hr' : (Avr.decSteps a s.q).running = true := hrun
      have hadv := QSpec.advance_dec hp (by omega)
      have hrem' : qs.advance.remaining = { c with steps := c.steps - (qs.done + 1) } :: cs := by
        rw [hadv]; exact QSpec.remaining_cons rfl
      have hpls' : s.pulsed.pulses = ⟨s.ocr, lvl c.countUp⟩ :: s.pulses := by
        rw [hpls, if_pos (by omega)]; rfl
      rw [heq]
      refine { lv := hT.lv, empt := fun _ hx => ?_, dir1 := fun _ _ => ?_, dir2 := fun hx => ?_, prepDir := ?_,
               exp := ?_, dur := fun _ => ?_, pos := fun hx => ?_ }
      · simp only [Avr.pulsed_noMore, hnm] at hx; cases hx
      · exact ⟨_, _, hpd, hdir, htog⟩
      · rcases hx with hx | hx
        · rw [hr'] at hx; cases hx
        · simp only [Avr.pulsed_noMore, hnm] at hx; cases hx
      · intro next c' st hpc
        have hpc' := (Avr.pulsed_pc s).symm.trans hpc
        obtain ⟨p1, p2, p3, p4, p5⟩ := h.prep next c' st hpc'
        have hsl : (Avr.decSteps a s.q).slot a (Avr.decSteps a s.q).nextWriteIdx = s.q.slot a s.q.nextWriteIdx := by
          have := slot_write_ne (a := a) h.sim.idx hn p2
          simp only [Avr.decSteps, Queue.slot, this, if_false]
        simp only [hsl]
        exact hT.prepDir next c' st hpc'
      · rw [hexp]
        simp only [hr', if_true, hpls', hrem', List.reverse_cons, List.append_assoc, htk]
        congr 1
        have h1 : c.steps - qs.done = c.steps - (qs.done + 1) + 1 := by omega
        rw [h1]
        exact specPulses_more lvl s.ocr c.ticks _ c.countUp cs (by omega)
      · refine ⟨t0, cs0, ps, hph, ?_⟩
        simp only [hrem', durationSum, Cmd.duration, htk]
        rw [← hdur, Nat.max_eq_right (by omega), Nat.max_eq_right (by omega)]
        have h1 : c.steps - qs.done = c.steps - (qs.done + 1) + 1 := by omega
        rw [h1, Nat.mul_succ]
        omega
      · have hx : s.q.dirPin ≠ pinUndefined := hx
        have hk : qs.advance.pos = base + pulseSum s.q.dirHighCountsUp (⟨s.ocr, lvl c.countUp⟩ :: s.pulses) := by
          have := hT.pos hx
          rw [hadv]
          simp only [pulseSum]
          rw [pulseDir_lvl (hlvb hx), this]
          omega
        simp only [hpls']
        exact hk
    -- last step or pause
    have hfin : ¬ c.steps - qs.done > 1 := by omega
    have hadv := QSpec.advance_fin hp hfin hd
    have hrem' : qs.advance.remaining = cs := by rw [hadv]; exact QSpec.remaining_zero rfl
    have hrep : (s.q.slot a s.q.readIdx).repeatEntry = false := h.norep _ (by rw [hcons]; simp)
    have hexp' : t.expected lvl = s.pulsed.pulses.reverse ++ specPulses lvl (s.ocr + c.ticks) cs := by
      rw [hexp, hpls]
      by_cases h0 : c.steps - qs.done = 0
      · simp only [h0, ne_eq, not_true, if_false, List.nil_append]
        rw [specPulses_pause]
      · have h1 : c.steps - qs.done = 1 := by omega
        rw [h1]
        simp [specPulses_one]
    have hdur' : s.ocr + c.ticks + durationSum cs = t0 + durationSum cs0 := by
      have hm : max 1 (c.steps - qs.done) = 1 := Nat.max_eq_left (by omega)
      rw [← hdur, hm]
      omega
    have hpos' : s.q.dirPin ≠ pinUndefined → qs.advance.pos = base + pulseSum s.q.dirHighCountsUp s.pulsed.pulses := by
      intro hx
      rw [hadv, hpls]
      have := hT.pos hx
      by_cases h0 : c.steps = 0
      · simp [h0, this]
      · have h1 : c.steps - qs.done ≠ 0 := by omega
        rw [if_neg h0, if_pos h1]
        simp only [List.cons_append, List.nil_append, pulseSum]
        rw [pulseDir_lvl (hlvb hx), this]
        omega
    have hcr : s.q.complete.running = true := hrun
    have hprep' : ∀ next c' st, s.pulsed.pc = .prepared next c' st →
        (s.q.slot a s.q.nextWriteIdx).toggleDir = (lvl c'.countUp != s.q.lastLvl) ∧
        (s.q.dirPin ≠ pinUndefined → next.dir = lvl c'.countUp) := by
      intro next c' st hpc
      exact hT.prepDir next c' st ((Avr.pulsed_pc s).symm.trans hpc)
    by_cases hlast : s.q.complete.readIdx = s.q.complete.nextWriteIdx
    · have heq := Avr.isr_last a s.pulsed (by simpa using hne) (by simpa using hdec) (by simpa using hnm)
        (by simpa using hrep) (by simpa using hlast)
      rw [← Avr.compare_eq] at heq
      simp only [Avr.pulsed_q, Avr.pulsed_ocr] at heq
      have hidx' := (Queue.pending_cons a s.q h.sim.idx hn).2.1
      have hemp : s.q.complete.pending a = [] := by
        rw [Queue.pending_nil_iff]; exact (Queue.empty_iff a s.q.complete hidx').mp hlast
      rw [hemp] at htog
      rw [heq]
      refine { lv := hT.lv, empt := fun _ _ => ⟨rfl, hemp⟩, dir1 := fun _ hx => ?_, dir2 := fun _ => Or.inr ?_,
               prepDir := hprep', exp := ?_, dur := fun _ => ?_, pos := hpos' }
      · cases hx
      · simp only [hemp]; exact htog
      · rw [hexp']; simp only [hcr, if_true, hrem', htk]
      · exact ⟨t0, cs0, ps, hph, by simp only [hrem', htk]; exact hdur'⟩
    · have heq := Avr.isr_next a s.pulsed (by simpa using hne) (by simpa using hdec) (by simpa using hnm)
        (by simpa using hrep) (by simpa using hlast)
      rw [← Avr.compare_eq] at heq
      simp only [Avr.pulsed_q, Avr.pulsed_ocr, Avr.toggleFor_eq] at heq
      have hidx' := (Queue.pending_cons a s.q h.sim.idx hn).2.1
      have hn' : s.q.complete.queueEntries ≠ 0 := fun h0 => hlast ((Queue.empty_iff a s.q.complete hidx').mpr h0)
      have hcons' := (Queue.pending_cons a s.q.complete hidx' hn').1
      rw [hcons'] at htog
      obtain ⟨htg, htog'⟩ := htog
      rw [heq]
      have hxor : xor (s.q.complete.slot a s.q.complete.readIdx).toggleDir s.q.dirLevel =
          lvl (s.q.complete.slot a s.q.complete.readIdx).countUp := xor_toggle htg
      have hund : s.q.dirPin = pinUndefined → xor (s.q.complete.slot a s.q.complete.readIdx).toggleDir s.q.dirLevel
          = s.q.dirLevel := by
        intro hx; rw [hxor, hT.lv, if_pos hx]
      refine { lv := fun u => ?_, empt := fun _ hx => ?_, dir1 := fun _ _ => ?_, dir2 := fun hx => ?_, prepDir := ?_,
               exp := ?_, dur := fun _ => ?_, pos := hpos' }
      · change lvl u = if s.q.dirPin = pinUndefined then
            xor (s.q.complete.slot a s.q.complete.readIdx).toggleDir s.q.dirLevel else (u == s.q.dirHighCountsUp)
        rw [hT.lv u]
        by_cases hx : s.q.dirPin = pinUndefined
        · rw [if_pos hx, if_pos hx]; exact (hund hx).symm
        · rw [if_neg hx, if_neg hx]
      · simp only [Avr.pulsed_noMore, hnm] at hx; cases hx
      · refine ⟨_, _, hcons', hxor, ?_⟩
        have hl : Queue.lastLvl { s.q.complete with
            dirLevel := xor (s.q.complete.slot a s.q.complete.readIdx).toggleDir s.q.dirLevel } = s.q.lastLvl := by
          change (if s.q.dirPin = pinUndefined then
            xor (s.q.complete.slot a s.q.complete.readIdx).toggleDir s.q.dirLevel else s.q.qend.dir) = s.q.lastLvl
          unfold Queue.lastLvl
          by_cases hx : s.q.dirPin = pinUndefined
          · rw [if_pos hx, if_pos hx]; exact hund hx
          · rw [if_neg hx, if_neg hx]
        change Tog lvl (xor (s.q.complete.slot a s.q.complete.readIdx).toggleDir s.q.dirLevel) _ _
        rw [hxor]
        exact hl ▸ htog'
      · rcases hx with hx | hx
        · have hx : s.q.running = false := hx
          rw [hrun] at hx; cases hx
        · simp only [Avr.pulsed_noMore, hnm] at hx; cases hx
      · intro next c' st hpc
        have hl : Queue.lastLvl { s.q.complete with
            dirLevel := xor (s.q.complete.slot a s.q.complete.readIdx).toggleDir s.q.complete.dirLevel } = s.q.lastLvl := by
          change (if s.q.dirPin = pinUndefined then
            xor (s.q.complete.slot a s.q.complete.readIdx).toggleDir s.q.dirLevel else s.q.qend.dir) = s.q.lastLvl
          unfold Queue.lastLvl
          by_cases hx : s.q.dirPin = pinUndefined
          · rw [if_pos hx, if_pos hx]; exact hund hx
          · rw [if_neg hx, if_neg hx]
        rw [hl]
        exact hprep' next c' st hpc
      · rw [hexp']; simp only [hcr, if_true, hrem', htk]
      · exact ⟨t0, cs0, ps, hph, by simp only [hrem', htk]; exact hdur'⟩

end FAS
