import Verif.Spec.QueueReads
import Verif.Lemmas.Queue
import Verif.Lemmas.Avr

/-!
# The entries of the queue during a query
-/

namespace FAS

open Spec

/-- Ticks of an entry. -/
def entryTicks (e : Entry) : Nat := e.ticks * max 1 e.steps

/-- `f lo + f (lo + 1) + …`, `n` terms. -/
def sumFrom (f : Nat → Nat) : Nat → Nat → Nat
  | _, 0 => 0
  | lo, n + 1 => f lo + sumFrom f (lo + 1) n

theorem sumFrom_le {f g : Nat → Nat} : ∀ {n lo : Nat}, (∀ i, lo ≤ i → i < lo + n → f i ≤ g i) → sumFrom f lo n ≤ sumFrom g lo n
  | 0, _, _ => Nat.le_refl _
  | n + 1, lo, h => by
    have h1 := h lo (Nat.le_refl _) (by omega)
    have h2 := sumFrom_le (n := n) (lo := lo + 1) (fun i hi1 hi2 => h i (by omega) (by omega))
    simp only [sumFrom]; omega

theorem sumFrom_split (f : Nat → Nat) : ∀ (n m lo : Nat), sumFrom f lo (n + m) = sumFrom f lo n + sumFrom f (lo + n) m
  | 0, m, lo => by simp [sumFrom]
  | n + 1, m, lo => by
    have h := sumFrom_split f n m (lo + 1)
    rw [show n + 1 + m = (n + m) + 1 by omega]
    simp only [sumFrom]
    rw [h, show lo + 1 + n = lo + (n + 1) by omega]; omega

theorem sumFrom_le_mul {f : Nat → Nat} {K : Nat} (hf : ∀ i, f i ≤ K) : ∀ (n lo : Nat), sumFrom f lo n ≤ n * K
  | 0, _ => by simp [sumFrom]
  | n + 1, lo => by
    have h1 := hf lo
    have h2 := sumFrom_le_mul hf n (lo + 1)
    simp only [sumFrom]; rw [Nat.add_mul]; omega

/-- Entry number `i` counted from the entry in process at the begin of the query. -/
def entryNo (a : ArchId) (q0 q : Queue) (i : Nat) : Entry := q.entry ((q0.readIdx + i) % a.queueLen)

theorem slot_entryNo (a : ArchId) (q0 q : Queue) (i : Nat) : q.slot a (u8 (q0.readIdx + i)) = entryNo a q0 q i := by
  unfold Queue.slot entryNo u8
  rw [Nat.mod_mod_of_dvd]
  rcases a.queueLen_cases with h | h <;> rw [h] <;> decide

/-- The queue, `d` commands completed and `m` commands added after `q0`; `n` commands with `A` ticks have been offered. -/
structure Held (a : ArchId) (q0 q : Queue) (d m n A : Nat) : Prop where
  rd : q.readIdx = (q0.readIdx + d) % 256
  wr : q.nextWriteIdx = (q0.readIdx + q0.queueEntries + m) % 256
  dle : d ≤ q0.queueEntries + m
  mle : m ≤ n
  ticks : ∀ i, (q.entry i).ticks < 65536
  steps : ∀ i, (q.entry i).steps < 256
  same : ∀ k, k < q0.queueEntries → (entryNo a q0 q k).ticks = (entryNo a q0 q0 k).ticks ∧ (entryNo a q0 q k).countUp = (entryNo a q0 q0 k).countUp ∧
    (entryNo a q0 q k).hasSteps = (entryNo a q0 q0 k).hasSteps ∧ (entryNo a q0 q k).moreThanOneStep = (entryNo a q0 q0 k).moreThanOneStep ∧
    (entryNo a q0 q k).steps ≤ (entryNo a q0 q0 k).steps ∧ (d < k → (entryNo a q0 q k).steps = (entryNo a q0 q0 k).steps)
  new : sumFrom (fun i => entryTicks (entryNo a q0 q i)) q0.queueEntries m ≤ A

theorem Held.start {a : ArchId} {q : Queue} (h : SaneQueue a q) : Held a q q 0 0 0 0 := by
  have h1 := h.readIdx
  have h2 := h.writeIdx
  refine ⟨by omega, ?_, by omega, by omega, h.ticks, h.steps, fun k _ => ⟨rfl, rfl, rfl, rfl, Nat.le_refl _, fun _ => rfl⟩, Nat.le_refl _⟩
  unfold Queue.queueEntries subU8; omega

theorem Held.entries {a : ArchId} {q0 q : Queue} {d m n A : Nat} (h : Held a q0 q d m n A) (hn : n + q0.queueEntries ≤ a.queueLen) :
    q.queueEntries = q0.queueEntries + m - d := by
  have := h.dle
  have := h.mle
  have hl := a.queueLen_cases
  unfold Queue.queueEntries subU8
  rw [h.rd, h.wr]
  change _ = subU8 q0.nextWriteIdx q0.readIdx + m - d
  unfold Queue.queueEntries at *
  generalize subU8 q0.nextWriteIdx q0.readIdx = e at *
  omega

/-- Different entries with less than the length of the queue between them. -/
theorem entryIdx_inj {a : ArchId} {r i j : Nat} (h1 : i < j) (h2 : j < i + a.queueLen) : (r + i) % a.queueLen ≠ (r + j) % a.queueLen := by
  rcases a.queueLen_cases with h | h <;> rw [h] at h2 ⊢ <;> omega

theorem addCases (a : ArchId) (q : Queue) (c : Cmd) (st : Bool) :
    (q.add a c st).q = q ∨ ∃ e : Entry, e.ticks = c.ticks ∧ e.steps = c.steps ∧ q.queueEntries ≠ a.queueLen ∧
      (q.add a c st).q.entry = (fun i => if i = q.nextWriteIdx % a.queueLen then e else q.entry i) ∧ (q.add a c st).q.readIdx = q.readIdx ∧
      ((q.add a c st).q.nextWriteIdx = q.nextWriteIdx ∨ (q.add a c st).q.nextWriteIdx = u8 (q.nextWriteIdx + 1)) := by
  by_cases h1 : q.ready = true
  · by_cases h2 : q.queueEntries = a.queueLen
    · rw [Queue.add_full a q c st h1 h2]; exact Or.inl rfl
    · by_cases h3 : Queue.commandRateTicks c < a.minCmdTicks
      · rw [Queue.add_low a q c st h1 h2 h3]; exact Or.inl rfl
      · right
        by_cases h4 : q.ignoreCommands = true
        · rw [Queue.add_ignored a q c st h1 h2 h3 h4]
          exact ⟨_, rfl, rfl, h2, rfl, rfl, Or.inl rfl⟩
        · rw [Queue.add_ok a q c st h1 h2 h3 (by simpa using h4)]
          exact ⟨_, rfl, rfl, h2, rfl, rfl, Or.inr rfl⟩
  · rw [Queue.add_notReady a q c st (by simpa using h1)]; exact Or.inl rfl

theorem Held.offer {a : ArchId} {q0 q : Queue} {d m n A : Nat} (h : Held a q0 q d m n A) (c : Cmd) (st : Bool) (hc : c.Valid)
    (hn : n + 1 + q0.queueEntries ≤ a.queueLen) :
    ∃ m', Held a q0 (q.add a c st).q d m' (n + 1) (A + c.duration) := by
  have hle := h.mle
  rcases addCases a q c st with h1 | ⟨e, e1, e2, -, h3, h4, h5⟩
  · rw [h1]
    exact ⟨m, h.rd, h.wr, h.dle, by omega, h.ticks, h.steps, h.same, Nat.le_trans h.new (by omega)⟩
  · generalize (q.add a c st).q = q' at *
    have hpos : q.nextWriteIdx % a.queueLen = (q0.readIdx + (q0.queueEntries + m)) % a.queueLen := by
      rw [h.wr, Nat.mod_mod_of_dvd, Nat.add_assoc]
      rcases a.queueLen_cases with h | h <;> rw [h] <;> decide
    have hentry : ∀ i, entryNo a q0 q' i = if (q0.readIdx + i) % a.queueLen = (q0.readIdx + (q0.queueEntries + m)) % a.queueLen then e else entryNo a q0 q i := by
      intro i
      unfold entryNo
      rw [h3, hpos]
    have hold : ∀ i, i < q0.queueEntries + m → entryNo a q0 q' i = entryNo a q0 q i := by
      intro i hi
      rw [hentry, if_neg (entryIdx_inj hi (by omega))]
    have ht : ∀ i, (q'.entry i).ticks < 65536 := by
      intro i; rw [h3]; dsimp only; split
      · rw [e1]; exact hc.1
      · exact h.ticks i
    have hs : ∀ i, (q'.entry i).steps < 256 := by
      intro i; rw [h3]; dsimp only; split
      · rw [e2]; exact hc.2
      · exact h.steps i
    have hsame := h.same
    have hsum : sumFrom (fun i => entryTicks (entryNo a q0 q' i)) q0.queueEntries m ≤ sumFrom (fun i => entryTicks (entryNo a q0 q i)) q0.queueEntries m :=
      sumFrom_le fun i _ h2 => by rw [hold i h2]; exact Nat.le_refl _
    have hs' : ∀ k, k < q0.queueEntries → _ := fun k hk => by
      have := hsame k hk
      rw [← hold k (by omega)] at this
      exact this
    have hnew := h.new
    rcases h5 with h5 | h5
    · exact ⟨m, by rw [h4]; exact h.rd, by rw [h5]; exact h.wr, h.dle, by omega, ht, hs, hs', by omega⟩
    · refine ⟨m + 1, by rw [h4]; exact h.rd, ?_, by have := h.dle; omega, by omega, ht, hs, hs', ?_⟩
      · rw [h5, h.wr]; unfold u8; omega
      · rw [sumFrom_split]
        simp only [sumFrom]
        rw [hentry, if_pos rfl]
        have : entryTicks e = c.duration := by unfold entryTicks Cmd.duration; rw [e1, e2]
        omega

theorem Held.exec {a : ArchId} {q0 q : Queue} {d m n A : Nat} (h : Held a q0 q d m n A) (hn : n + q0.queueEntries ≤ a.queueLen) (ev : QueueEv)
    (hev : ∀ c st, ev ≠ .offer c st) : ∃ d', d ≤ d' ∧ Held a q0 (ev.exec a q) d' m n A := by
  have hent := h.entries hn
  have hl := a.queueLen_cases
  cases ev with
  | count k =>
    simp only [QueueEv.exec]
    split
    · exact ⟨d, Nat.le_refl _, h⟩
    · rename_i he
      have he : q.queueEntries ≠ 0 := by
        intro hx; apply he; unfold Queue.isQueueEmpty; rw [hx]; rfl
      refine ⟨d, Nat.le_refl _, h.rd, h.wr, h.dle, h.mle, ?_, ?_, ?_, ?_⟩
      · intro i; dsimp only; split <;> exact h.ticks i
      · intro i; dsimp only; split
        · exact Nat.lt_of_le_of_lt (Nat.min_le_right _ _) (h.steps i)
        · exact h.steps i
      · intro k' hk
        obtain ⟨s1, s2, s3, s4, s5, s6⟩ := h.same k' hk
        unfold entryNo at *
        dsimp only
        split
        · rename_i hi
          refine ⟨s1, s2, s3, s4, Nat.le_trans (Nat.min_le_right _ _) s5, fun hd => ?_⟩
          rw [h.rd] at hi
          have := h.mle
          exfalso
          generalize q0.queueEntries = e0 at *
          rcases hl with hl | hl <;> rw [hl] at hi hn <;> omega
        · exact ⟨s1, s2, s3, s4, s5, s6⟩
      · refine Nat.le_trans (sumFrom_le fun i _ _ => ?_) h.new
        unfold entryNo entryTicks
        dsimp only
        split
        · exact Nat.mul_le_mul_left _ (by simp only; omega)
        · exact Nat.le_refl _
  | complete =>
    simp only [QueueEv.exec]
    split
    · exact ⟨d, Nat.le_refl _, h⟩
    · rename_i he
      have he : q.queueEntries ≠ 0 := by
        intro hx; apply he; unfold Queue.isQueueEmpty; rw [hx]; rfl
      refine ⟨d + 1, Nat.le_succ _, ?_, h.wr, by omega, h.mle, h.ticks, h.steps, fun k hk => ?_, h.new⟩
      · unfold Queue.complete; dsimp only; rw [h.rd]; unfold u8; omega
      · obtain ⟨s1, s2, s3, s4, s5, s6⟩ := h.same k hk
        exact ⟨s1, s2, s3, s4, s5, fun hd => s6 (by omega)⟩
  | drop =>
    refine ⟨q0.queueEntries + m, h.dle, ?_, h.wr, Nat.le_refl _, h.mle, h.ticks, h.steps, fun k hk => ?_, h.new⟩
    · unfold QueueEv.exec Queue.drop; dsimp only; rw [h.wr, Nat.add_assoc]
    · obtain ⟨s1, s2, s3, s4, s5, s6⟩ := h.same k hk
      exact ⟨s1, s2, s3, s4, s5, fun hd => by omega⟩
  | offer c st => exact absurd rfl (hev c st)

theorem Held.events {a : ArchId} {q0 : Queue} : ∀ (evs : List QueueEv) {q : Queue} {d m n A : Nat}, Held a q0 q d m n A →
    (∀ c ∈ offeredBy evs, c.Valid) → n + (offeredBy evs).length + q0.queueEntries ≤ a.queueLen →
    ∃ d' m', d ≤ d' ∧ Held a q0 (afterEvents a q evs) d' m' (n + (offeredBy evs).length) (A + durationSum (offeredBy evs))
  | [], q, d, m, n, A, h, _, _ => ⟨d, m, Nat.le_refl _, h⟩
  | ev :: evs, q, d, m, n, A, h, hv, hn => by
    cases ev with
    | offer c st =>
      have hn' : n + ((offeredBy evs).length + 1) + q0.queueEntries ≤ a.queueLen := hn
      obtain ⟨m1, h1⟩ := h.offer c st (hv c (by simp [offeredBy])) (by omega)
      obtain ⟨d2, m2, h2, h3⟩ := Held.events evs h1 (fun x hx => hv x (by simp [offeredBy, hx])) (by omega)
      refine ⟨d2, m2, h2, ?_⟩
      simp only [offeredBy, List.length_cons, durationSum, afterEvents]
      rw [show n + ((offeredBy evs).length + 1) = n + 1 + (offeredBy evs).length by omega, ← Nat.add_assoc]
      exact h3
    | count k =>
      obtain ⟨d1, h1, h2⟩ := h.exec (by omega) (.count k) (by intro c st hx; cases hx)
      obtain ⟨d2, m2, h3, h4⟩ := Held.events evs h2 hv hn
      exact ⟨d2, m2, Nat.le_trans h1 h3, h4⟩
    | complete =>
      obtain ⟨d1, h1, h2⟩ := h.exec (by omega) .complete (by intro c st hx; cases hx)
      obtain ⟨d2, m2, h3, h4⟩ := Held.events evs h2 hv hn
      exact ⟨d2, m2, Nat.le_trans h1 h3, h4⟩
    | drop =>
      obtain ⟨d1, h1, h2⟩ := h.exec (by omega) .drop (by intro c st hx; cases hx)
      obtain ⟨d2, m2, h3, h4⟩ := Held.events evs h2 hv hn
      exact ⟨d2, m2, Nat.le_trans h1 h3, h4⟩

theorem offered_le (evs : Nat → List QueueEv) : ∀ {t u : Nat}, t ≤ u → (offered evs t).length ≤ (offered evs u).length ∧
    ∀ c ∈ offered evs t, c ∈ offered evs u
  | t, 0, h => by
    have : t = 0 := by omega
    subst this; exact ⟨Nat.le_refl _, fun _ h => h⟩
  | t, u + 1, h => by
    rcases Nat.lt_or_ge t (u + 1) with h1 | h1
    · obtain ⟨h2, h3⟩ := offered_le evs (t := t) (u := u) (by omega)
      refine ⟨?_, fun c hc => ?_⟩
      · simp only [offered, List.length_append]; omega
      · simp only [offered, List.mem_append]; exact Or.inl (h3 c hc)
    · have : t = u + 1 := by omega
      subst this; exact ⟨Nat.le_refl _, fun _ h => h⟩

/-- During the query: from access `t` to access `u`. -/
theorem Held.during {a : ArchId} {q : Queue} {evs : Nat → List QueueEv} {T : Nat} (hv : ∀ c ∈ offered evs T, c.Valid)
    (hn : (offered evs T).length + q.queueEntries ≤ a.queueLen) {t d m : Nat}
    (h : Held a q (duringQuery a q evs t) d m (offered evs t).length (durationSum (offered evs t))) :
    ∀ {u : Nat}, t ≤ u → u ≤ T → ∃ d' m', d ≤ d' ∧ Held a q (duringQuery a q evs u) d' m' (offered evs u).length (durationSum (offered evs u))
  | 0, h1, _ => by
    have : t = 0 := by omega
    subst this; exact ⟨d, m, Nat.le_refl _, h⟩
  | u + 1, h1, h2 => by
    rcases Nat.lt_or_ge t (u + 1) with h3 | h3
    · obtain ⟨d1, m1, h4, h5⟩ := Held.during hv hn h (u := u) (by omega) (by omega)
      have ho := offered_le evs h2
      simp only [offered, List.length_append, List.mem_append] at ho
      obtain ⟨d2, m2, h6, h7⟩ := Held.events (evs u) h5 (fun c hc => hv c (ho.2 c (Or.inr hc))) (by omega)
      refine ⟨d2, m2, Nat.le_trans h4 h6, ?_⟩
      simp only [offered, duringQuery, List.length_append]
      rw [durationSum_append]
      exact h7
    · have : t = u + 1 := by omega
      subst this; exact ⟨d, m, Nat.le_refl _, h⟩

theorem Held.unique {a : ArchId} {q0 q : Queue} {d d' m m' n A : Nat} (hn : n + q0.queueEntries ≤ a.queueLen)
    (h : Held a q0 q d m n A) (h' : Held a q0 q d' m' n A) : d = d' := by
  have h1 := h.rd
  have h2 := h'.rd
  have := h.dle
  have := h.mle
  have := h'.dle
  have := h'.mle
  have hl := a.queueLen_cases
  generalize q0.queueEntries = e0 at *
  omega

/-- The entries as they are read at access `t`, and at the end of the query. -/
theorem Held.reads {a : ArchId} {q : Queue} (hq : SaneQueue a q) {evs : Nat → List QueueEv} {T : Nat} (hv : ∀ c ∈ offered evs T, c.Valid)
    (hn : (offered evs T).length + q.queueEntries ≤ a.queueLen) :
    ∃ D M, Held a q (duringQuery a q evs T) D M (offered evs T).length (durationSum (offered evs T)) ∧
      ∀ t, t ≤ T → ∃ d m, d ≤ D ∧ Held a q (duringQuery a q evs t) d m (offered evs t).length (durationSum (offered evs t)) := by
  have h0 : Held a q (duringQuery a q evs 0) 0 0 (offered evs 0).length (durationSum (offered evs 0)) := Held.start hq
  obtain ⟨D, M, -, h1⟩ := Held.during hv hn h0 (Nat.zero_le T) (Nat.le_refl _)
  refine ⟨D, M, h1, fun t ht => ?_⟩
  obtain ⟨d, m, -, h2⟩ := Held.during hv hn h0 (Nat.zero_le t) ht
  obtain ⟨D', M', h3, h4⟩ := Held.during hv hn h2 ht (Nat.le_refl _)
  exact ⟨d, m, by rw [Held.unique hn h1 h4]; exact h3, h2⟩

end FAS
