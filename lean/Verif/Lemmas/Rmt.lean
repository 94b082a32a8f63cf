import Verif.Spec.Rmt
import Verif.Lemmas.AvrInv

/-! The words produced by the RMT encoders, as levels and durations. -/

namespace FAS

theorem segTime_append : ∀ a b : List Seg, segTime (a ++ b) = segTime a + segTime b
  | [], b => by simp [segTime]
  | s :: a, b => by simp only [List.cons_append, segTime, segTime_append a b]; omega

theorem Silent.append {a b : List Seg} (ha : Silent a) (hb : Silent b) : Silent (a ++ b) := by
  intro s hs
  rcases List.mem_append.mp hs with h | h
  · exact ha s h
  · exact hb s h

theorem NoEnd.append {a b : List Seg} (ha : NoEnd a) (hb : NoEnd b) : NoEnd (a ++ b) := by
  intro s hs
  rcases List.mem_append.mp hs with h | h
  · exact ha s h
  · exact hb s h

theorem NoEnd.nil : NoEnd [] := fun _ h => by cases h

theorem Silent.nil : Silent [] := fun _ h => by cases h

theorem Train.append {lo t : Nat} : ∀ {n m : Nat} {a b : List Seg}, Train lo t n a → Train lo t m b → Train lo t (n + m) (a ++ b)
  | _, m, _, b, .nil, hb => by simpa using hb
  | _, m, _, b, .step (n := n) (rest := rest) h low hlow hs h1 h2 ht, hb => by
    have := Train.step (n := n + m) h low hlow hs h1 h2 (Train.append ht hb)
    rw [show n + 1 + m = n + m + 1 from by omega]
    simpa [List.append_assoc] using this

theorem Train.one {lo t : Nat} (h : Nat) (low : List Seg) (hlow : low ≠ []) (hs : Silent low) (h1 : lo ≤ h + segTime low)
    (h2 : h + segTime low ≤ t) : Train lo t 1 (⟨true, h⟩ :: low) := by
  have := Train.step (n := 0) h low hlow hs h1 h2 (.nil (lo := lo) (t := t))
  simpa using this

theorem Train.silent_zero {lo t : Nat} {w : List Seg} (h : Train lo t n w) (hn : n ≠ 0) : ¬ Silent w := by
  cases h with
  | nil => exact absurd rfl hn
  | step h low _ _ _ _ _ => intro hs; exact absurd (hs ⟨true, h⟩ (by simp)) (by simp)

/-! ## decoding -/

theorem decode_stepWord {t : Nat} (h : t < 65535) :
    rmtDecode (RmtVer.stepWord t) = [⟨true, t - t / 2⟩, ⟨false, t / 2⟩] := by
  unfold rmtDecode RmtVer.stepWord
  dsimp only
  have h1 : (t / 2 * 65536 + ((t - t / 2) % 32768 + 32768)) / 32768 % 2 = 1 := by omega
  have h2 : (t / 2 * 65536 + ((t - t / 2) % 32768 + 32768)) % 32768 = t - t / 2 := by omega
  have h3 : ¬ (t / 2 * 65536 + ((t - t / 2) % 32768 + 32768)) / 2147483648 % 2 = 1 := by omega
  have h4 : (t / 2 * 65536 + ((t - t / 2) % 32768 + 32768)) / 65536 % 32768 = t / 2 := by omega
  rw [h2, h4, decide_eq_true h1, decide_eq_false h3]

/-- the word of the last step: the low half is shortened -/
theorem decode_stretched {t d : Nat} (h : t < 65535) (hd : d ≤ t / 2) :
    rmtDecode (subU32 (RmtVer.stepWord t) (d * 65536)) = [⟨true, t - t / 2⟩, ⟨false, t / 2 - d⟩] := by
  have e : subU32 (RmtVer.stepWord t) (d * 65536) = (t / 2 - d) * 65536 + ((t - t / 2) % 32768 + 32768) := by
    unfold subU32 RmtVer.stepWord
    dsimp only
    omega
  rw [e]
  unfold rmtDecode
  have h1 : ((t / 2 - d) * 65536 + ((t - t / 2) % 32768 + 32768)) / 32768 % 2 = 1 := by omega
  have h2 : ((t / 2 - d) * 65536 + ((t - t / 2) % 32768 + 32768)) % 32768 = t - t / 2 := by omega
  have h3 : ¬ ((t / 2 - d) * 65536 + ((t - t / 2) % 32768 + 32768)) / 2147483648 % 2 = 1 := by omega
  have h4 : ((t / 2 - d) * 65536 + ((t - t / 2) % 32768 + 32768)) / 65536 % 32768 = t / 2 - d := by omega
  rw [h2, h4, decide_eq_true h1, decide_eq_false h3]

/-- the word of a step in the last word of the second part on IDF 4 -/
theorem decode_dec {t : Nat} (h : t < 65535) (h2 : 2 ≤ t) :
    rmtDecode (subU32 (RmtVer.stepWord t) 1) = [⟨true, t - t / 2 - 1⟩, ⟨false, t / 2⟩] := by
  have e : subU32 (RmtVer.stepWord t) 1 = t / 2 * 65536 + ((t - t / 2) % 32768 + 32768) - 1 := by
    unfold subU32 RmtVer.stepWord
    dsimp only
    omega
  rw [e]
  unfold rmtDecode
  have h1 : (t / 2 * 65536 + ((t - t / 2) % 32768 + 32768) - 1) / 32768 % 2 = 1 := by omega
  have h2 : (t / 2 * 65536 + ((t - t / 2) % 32768 + 32768) - 1) % 32768 = t - t / 2 - 1 := by omega
  have h3 : ¬ (t / 2 * 65536 + ((t - t / 2) % 32768 + 32768) - 1) / 2147483648 % 2 = 1 := by omega
  have h4 : (t / 2 * 65536 + ((t - t / 2) % 32768 + 32768) - 1) / 65536 % 32768 = t / 2 := by omega
  rw [h2, h4, decide_eq_true h1, decide_eq_false h3]

/-- a word with two low halves -/
theorem decode_low {x y : Nat} (hx : x < 32768) (hy : y < 32768) : rmtDecode (x * 65536 + y) = [⟨false, y⟩, ⟨false, x⟩] := by
  unfold rmtDecode
  have h1 : ¬ (x * 65536 + y) / 32768 % 2 = 1 := by omega
  have h2 : (x * 65536 + y) % 32768 = y := by omega
  have h3 : ¬ (x * 65536 + y) / 2147483648 % 2 = 1 := by omega
  have h4 : (x * 65536 + y) / 65536 % 32768 = x := by omega
  rw [h2, h4, decide_eq_false h1, decide_eq_false h3]

theorem decode_replicate (n w : Nat) : (List.replicate n w).flatMap rmtDecode = (List.replicate n (rmtDecode w)).flatten := by
  rw [List.flatMap_def, List.map_replicate]

/-- a number of equal low words -/
theorem low_replicate (n w x y : Nat) (h : rmtDecode w = [⟨false, y⟩, ⟨false, x⟩]) (hx : 0 < x) (hy : 0 < y) :
    Silent ((List.replicate n w).flatMap rmtDecode) ∧ NoEnd ((List.replicate n w).flatMap rmtDecode) ∧
      segTime ((List.replicate n w).flatMap rmtDecode) = n * (x + y) := by
  rw [decode_replicate, h]
  induction n with
  | zero => exact ⟨Silent.nil, NoEnd.nil, by simp [segTime]⟩
  | succ n ih =>
    rw [List.replicate_succ, List.flatten_cons]
    refine ⟨Silent.append ?_ ih.1, NoEnd.append ?_ ih.2.1, ?_⟩
    · intro s hs; simp at hs; rcases hs with hs | hs <;> rw [hs]
    · intro s hs; simp at hs; rcases hs with hs | hs <;> rw [hs] <;> assumption
    · rw [segTime_append, ih.2.2, Nat.succ_mul]; simp only [segTime]; omega

/-- a number of equal steps -/
theorem train_replicate (n : Nat) (w : List Seg) (lo t : Nat) (h : Train lo t 1 w) (he : NoEnd w) :
    Train lo t n (List.replicate n w).flatten ∧ NoEnd (List.replicate n w).flatten := by
  induction n with
  | zero => exact ⟨.nil, NoEnd.nil⟩
  | succ n ih =>
    rw [List.replicate_succ, List.flatten_cons]
    refine ⟨?_, NoEnd.append he ih.2⟩
    rw [Nat.add_comm n 1]
    exact Train.append h ih.1

theorem train_steps (n t lo : Nat) (h : t < 65535) (h2 : 2 ≤ t) (hlo : lo ≤ t) :
    Train lo t n ((List.replicate n (RmtVer.stepWord t)).flatMap rmtDecode) ∧
      NoEnd ((List.replicate n (RmtVer.stepWord t)).flatMap rmtDecode) := by
  rw [decode_replicate, decode_stepWord h]
  apply train_replicate
  · apply Train.one
    · simp
    · intro s hs; simp at hs; rw [hs]
    · simp only [segTime]; omega
    · simp only [segTime]; omega
  · intro s hs
    simp at hs
    rcases hs with hs | hs <;> rw [hs] <;> dsimp only <;> omega

/-- a number of steps with the longest period -/
theorem train_long (n lo : Nat) (hlo : lo ≤ 65535) :
    Train lo 65535 n ((List.replicate n [0x4000ffff, 0x20002000]).flatten.flatMap rmtDecode) ∧
      NoEnd ((List.replicate n [0x4000ffff, 0x20002000]).flatten.flatMap rmtDecode) := by
  have e : ((List.replicate n [0x4000ffff, 0x20002000]).flatten.flatMap rmtDecode) =
      (List.replicate n [⟨true, 32767⟩, ⟨false, 16384⟩, ⟨false, 8192⟩, ⟨false, 8192⟩]).flatten := by
    induction n with
    | zero => rfl
    | succ n ih => rw [List.replicate_succ, List.flatten_cons, List.flatMap_append, ih, List.replicate_succ, List.flatten_cons]; rfl
  rw [e]
  apply train_replicate
  · apply Train.one
    · simp
    · intro s hs; simp at hs; rcases hs with hs | hs <;> rw [hs]
    · simp only [segTime]; omega
    · simp only [segTime]; omega
  · intro s hs
    simp at hs
    rcases hs with hs | hs | hs <;> rw [hs] <;> decide

/-- the last step of a part: one word with a pulse, followed by low words -/
theorem train_last (lo t h x : Nat) (low : List Seg) (hh : 0 < h) (hx : 0 < x) (hs : Silent low) (he : NoEnd low)
    (h1 : lo ≤ h + x + segTime low) (h2 : h + x + segTime low ≤ t) :
    Train lo t 1 ([⟨true, h⟩, ⟨false, x⟩] ++ low) ∧ NoEnd ([⟨true, h⟩, ⟨false, x⟩] ++ low) := by
  refine ⟨Train.one h (⟨false, x⟩ :: low) (by simp) ?_ (by simp only [segTime]; omega) (by simp only [segTime]; omega), ?_⟩
  · intro s hs'
    rcases List.mem_cons.mp hs' with h | h
    · rw [h]
    · exact hs s h
  · apply NoEnd.append _ he
    intro s hs'
    simp at hs'
    rcases hs' with h | h <;> rw [h] <;> assumption

/-! ## a part with steps -/

/-- The remaining steps of a command fit in the encoding. -/
def RmtVer.Fits (v : RmtVer) (k ticks : Nat) : Prop :=
  4 ≤ ticks ∧ ticks ≤ 65535 ∧ 1 ≤ k ∧ k ≤ 255 ∧
    (ticks = 65535 → v.isIdf5 = false → k < v.part / 2) ∧
    (ticks ≠ 65535 → (k < v.part ∧ v.stretch k + 1 ≤ ticks / 2) ∨ k = v.part ∨ (v.part < k ∧ v.fastLimit ≤ ticks))

theorem decLast_concat (ws : List Nat) (w : Nat) : Rmt.decLast (ws ++ [w]) = ws ++ [subU32 w 1] := by
  unfold Rmt.decLast
  rw [List.getLast?_concat, List.dropLast_concat]

/-- the pieces of a part with steps: full steps, a last step and low words -/
theorem train_part (ws : List Nat) (p n m t lo x y h l : Nat) (wl : Nat) (last : List Seg) (hw : Train lo t n (ws.flatMap rmtDecode))
    (he : NoEnd (ws.flatMap rmtDecode)) (hp : rmtDecode p = [⟨true, h⟩, ⟨false, l⟩]) (hh : 0 < h) (hl : 0 < l)
    (hx : rmtDecode wl = [⟨false, y⟩, ⟨false, x⟩]) (hx0 : 0 < x) (hy0 : 0 < y) (hs : Silent last) (hle : NoEnd last)
    (h1 : lo ≤ h + l + (m * (x + y) + segTime last)) (h2 : h + l + (m * (x + y) + segTime last) ≤ t) :
    Train lo t (n + 1) ((ws ++ [p] ++ List.replicate m wl).flatMap rmtDecode ++ last) ∧
      NoEnd ((ws ++ [p] ++ List.replicate m wl).flatMap rmtDecode ++ last) := by
  have hr := low_replicate m wl x y hx hx0 hy0
  have ht := train_last lo t h l ((List.replicate m wl).flatMap rmtDecode ++ last) hh hl (Silent.append hr.1 hs)
    (NoEnd.append hr.2.1 hle) (by rw [segTime_append, hr.2.2]; omega) (by rw [segTime_append, hr.2.2]; omega)
  have e : (ws ++ [p] ++ List.replicate m wl).flatMap rmtDecode ++ last =
      ws.flatMap rmtDecode ++ ([⟨true, h⟩, ⟨false, l⟩] ++ ((List.replicate m wl).flatMap rmtDecode ++ last)) := by
    rw [List.flatMap_append, List.flatMap_append, List.flatMap_cons, List.flatMap_nil, hp]
    simp [List.append_assoc]
  rw [e]
  exact ⟨Train.append hw ht.1, NoEnd.append he ht.2⟩

theorem lowPair (x y : Nat) (hx : 0 < x) (hy : 0 < y) :
    Silent [⟨false, x⟩, ⟨false, y⟩] ∧ NoEnd [⟨false, x⟩, ⟨false, y⟩] := by
  constructor
  · intro s hs; simp at hs; rcases hs with h | h <;> rw [h]
  · intro s hs; simp at hs; rcases hs with h | h <;> rw [h] <;> assumption

theorem lowTriple (x y z : Nat) (hx : 0 < x) (hy : 0 < y) (hz : 0 < z) :
    Silent [⟨false, x⟩, ⟨false, y⟩, ⟨false, z⟩] ∧ NoEnd [⟨false, x⟩, ⟨false, y⟩, ⟨false, z⟩] := by
  constructor
  · intro s hs; simp at hs; rcases hs with h | h | h <;> rw [h]
  · intro s hs; simp at hs; rcases hs with h | h | h <;> rw [h] <;> assumption

/-- Steps with the longest period, a part not completely used. -/
theorem stepWords_long_few (v : RmtVer) (k : Nat) (h1 : 1 ≤ k) (hk : k < v.part / 2) :
    ∃ ws, v.stepWords k 65535 = (ws ++ [0x00100010], 0) ∧ ws.length + 1 = v.part ∧
      ∀ last, Silent last → NoEnd last → segTime last = 32 →
        Train 65535 65535 k (ws.flatMap rmtDecode ++ last) ∧ NoEnd (ws.flatMap rmtDecode ++ last) := by
  have hv : v.part ≤ 32 := by cases v <;> decide
  refine ⟨(List.replicate (k - 1) [0x4000ffff, 0x20002000]).flatten ++
    [0x4000ffff, subU32 0x20002000 (u16 ((v.part - 2 * k) * 32))] ++ List.replicate (v.part - 1 - 2 * k) 0x00100010, ?_, ?_, ?_⟩
  · unfold RmtVer.stepWords
    rw [if_pos rfl, if_pos hk]
  · simp only [List.length_append, List.length_flatten, List.map_replicate, List.length_cons, List.length_nil,
      List.length_replicate, List.sum_replicate_nat]
    omega
  · intro last hs he ht
    have hl := train_long (k - 1) 65535 (Nat.le_refl _)
    have hr := low_replicate (v.part - 1 - 2 * k) 0x00100010 16 16 (by decide) (by decide) (by decide)
    have hd : rmtDecode (subU32 0x20002000 (u16 ((v.part - 2 * k) * 32))) =
        [⟨false, 8192 - (v.part - 2 * k) * 32⟩, ⟨false, 8192⟩] := by
      have : subU32 0x20002000 (u16 ((v.part - 2 * k) * 32)) = 8192 * 65536 + (8192 - (v.part - 2 * k) * 32) := by
        unfold subU32 u16; omega
      rw [this]
      exact decode_low (by omega) (by omega)
    have e : ((List.replicate (k - 1) [0x4000ffff, 0x20002000]).flatten ++
        [0x4000ffff, subU32 0x20002000 (u16 ((v.part - 2 * k) * 32))] ++
        List.replicate (v.part - 1 - 2 * k) 0x00100010).flatMap rmtDecode ++ last =
        (List.replicate (k - 1) [0x4000ffff, 0x20002000]).flatten.flatMap rmtDecode ++
        ([⟨true, 32767⟩, ⟨false, 16384⟩] ++ ([⟨false, 8192 - (v.part - 2 * k) * 32⟩, ⟨false, 8192⟩] ++
          ((List.replicate (v.part - 1 - 2 * k) 0x00100010).flatMap rmtDecode ++ last))) := by
      rw [List.flatMap_append, List.flatMap_append, List.flatMap_cons, List.flatMap_cons, List.flatMap_nil, hd]
      simp [List.append_assoc]
      rfl
    rw [e]
    have hp := lowPair (8192 - (v.part - 2 * k) * 32) 8192 (by omega) (by omega)
    have h3 : segTime ([⟨false, 8192 - (v.part - 2 * k) * 32⟩, ⟨false, 8192⟩] ++
          ((List.replicate (v.part - 1 - 2 * k) 0x00100010).flatMap rmtDecode ++ last)) = 16384 := by
      rw [segTime_append, segTime_append, hr.2.2, ht]
      simp only [segTime]
      omega
    have h4 := train_last 65535 65535 32767 16384 _ (by decide) (by decide) (Silent.append hp.1 (Silent.append hr.1 hs))
      (NoEnd.append hp.2 (NoEnd.append hr.2.1 he)) (by rw [h3]; decide) (by rw [h3]; decide)
    have h5 := Train.append hl.1 h4.1
    rw [show k - 1 + 1 = k from by omega] at h5
    exact ⟨h5, NoEnd.append hl.2 h4.2⟩

/-- Steps with the longest period, a completely used part. -/
theorem stepWords_long_full (v : RmtVer) (k : Nat) (hv : v.isIdf5 = true) (hk : v.part / 2 ≤ k) :
    (v.stepWords k 65535).2 = k - v.part / 2 ∧ (v.stepWords k 65535).1.length = v.part ∧
      Train 65535 65535 (v.part / 2) ((v.stepWords k 65535).1.flatMap rmtDecode) ∧
      NoEnd ((v.stepWords k 65535).1.flatMap rmtDecode) := by
  have e : v.stepWords k 65535 = ((List.replicate (v.part / 2) [0x4000ffff, 0x20002000]).flatten, k - v.part / 2) := by
    unfold RmtVer.stepWords
    rw [if_pos rfl, if_neg (by omega)]
    cases v <;> first | rfl | cases hv
  rw [e]
  have hl := train_long (v.part / 2) 65535 (Nat.le_refl _)
  refine ⟨rfl, ?_, hl⟩
  cases v <;> first | rfl | cases hv

/-- Steps, a part not completely used. -/
theorem stepWords_few (v : RmtVer) (k t : Nat) (ht : t < 65535) (hn : 1 ≤ k) (hk : k < v.part)
    (hs : v.stretch k + 1 ≤ t / 2) :
    ∃ ws, List.replicate (k - 1) (RmtVer.stepWord t) ++ [subU32 (RmtVer.stepWord t) (v.stretch k * 65536)] ++
        List.replicate (v.part - 1 - k) 0x00020002 = ws ∧ ws.length + 1 = v.part ∧
      ∀ last, Silent last → NoEnd last → segTime last = (if v = .idf4s then 8 else 4) →
        Train (t - v.slack) t k (ws.flatMap rmtDecode ++ last) ∧ NoEnd (ws.flatMap rmtDecode ++ last) := by
  refine ⟨_, rfl, ?_, ?_⟩
  · simp only [List.length_append, List.length_replicate, List.length_cons, List.length_nil]
    omega
  · intro last hl he htm
    have hst : v.stretch k ≤ t / 2 := by omega
    have hsteps := train_steps (k - 1) t (t - v.slack) ht (by omega) (by omega)
    have := train_part (List.replicate (k - 1) (RmtVer.stepWord t)) (subU32 (RmtVer.stepWord t) (v.stretch k * 65536)) (k - 1)
      (v.part - 1 - k) t (t - v.slack) 2 2 (t - t / 2) (t / 2 - v.stretch k) 0x00020002 last hsteps.1 hsteps.2
      (decode_stretched ht hst) (by omega) (by omega) (by decide) (by decide) (by decide) hl he
      (by rw [htm]; cases v <;> simp [RmtVer.part, RmtVer.stretch, RmtVer.slack] at * <;> omega)
      (by rw [htm]; cases v <;> simp [RmtVer.part, RmtVer.stretch, RmtVer.slack] at * <;> omega)
    rw [show k - 1 + 1 = k from by omega] at this
    exact this

/-- Steps, a completely used part. -/
theorem stepWords_full (v : RmtVer) (t : Nat) (ht : t < 65535) (h2 : 4 ≤ t) :
    ∃ ws, List.replicate (v.part - 1) (RmtVer.stepWord t) = ws ∧ ws.length + 1 = v.part ∧
      (Train t t v.part ((ws ++ [RmtVer.stepWord t]).flatMap rmtDecode) ∧ NoEnd ((ws ++ [RmtVer.stepWord t]).flatMap rmtDecode)) ∧
      (Train t t v.part ((ws ++ [subU32 (RmtVer.stepWord t) 1]).flatMap rmtDecode ++ [⟨false, 1⟩]) ∧
        NoEnd ((ws ++ [subU32 (RmtVer.stepWord t) 1]).flatMap rmtDecode ++ [⟨false, 1⟩])) := by
  have hv : 1 ≤ v.part := by cases v <;> decide
  refine ⟨_, rfl, by simp only [List.length_replicate]; omega, ?_, ?_⟩
  · have := train_steps v.part t t ht (by omega) (Nat.le_refl _)
    rw [← List.replicate_succ', show v.part - 1 + 1 = v.part from by omega]
    exact this
  · have hsteps := train_steps (v.part - 1) t t ht (by omega) (Nat.le_refl _)
    have hl := lowTriple 1 1 1 (by decide) (by decide) (by decide)
    have := train_last t t (t - t / 2 - 1) (t / 2) [⟨false, 1⟩] (by omega) (by omega)
      (by intro s hs; simp at hs; rw [hs]) (by intro s hs; simp at hs; rw [hs]; decide) (by simp only [segTime]; omega)
      (by simp only [segTime]; omega)
    rw [List.flatMap_append, List.flatMap_cons, List.flatMap_nil, decode_dec ht (by omega), List.append_nil, List.append_assoc]
    have h5 := Train.append hsteps.1 this.1
    rw [show v.part - 1 + 1 = v.part from by omega] at h5
    exact ⟨h5, NoEnd.append hsteps.2 this.2⟩

theorem RmtVer.stretch_mono (v : RmtVer) {a b : Nat} (h : a ≤ b) : v.stretch b ≤ v.stretch a := by
  cases v <;> simp [RmtVer.stretch, RmtVer.part] <;> omega

theorem Train.weaken {lo lo' t : Nat} (h : lo' ≤ lo) : ∀ {n : Nat} {w : List Seg}, Train lo t n w → Train lo' t n w
  | _, _, .nil => .nil
  | _, _, .step x low hl hs h1 h2 ht => .step x low hl hs (by omega) h2 (ht.weaken h)

/-- What the code stores for a command with steps: between one and all of them, the steps are correct, and the rest fits again. -/
theorem stepWords_ok (v : RmtVer) (k t : Nat) (h : v.Fits k t) :
    (v.stepWords k t).2 < k ∧ (v.stepWords k t).1.length = v.part ∧
      ((v.stepWords k t).2 ≠ 0 → v.Fits (v.stepWords k t).2 t) ∧
      (Train (t - v.slack) t (k - (v.stepWords k t).2) ((v.stepWords k t).1.flatMap rmtDecode) ∧
        NoEnd ((v.stepWords k t).1.flatMap rmtDecode)) ∧
      (v = .idf4 →
        Train (t - v.slack) t (k - (v.stepWords k t).2) ((Rmt.decLast (v.stepWords k t).1).flatMap rmtDecode ++ [⟨false, 1⟩]) ∧
        NoEnd ((Rmt.decLast (v.stepWords k t).1).flatMap rmtDecode ++ [⟨false, 1⟩])) := by
  obtain ⟨h2, h3, h4, h5, h6, h7⟩ := h
  have hpart : 1 ≤ v.part / 2 ∧ v.part ≤ 32 := by cases v <;> decide
  by_cases hl : t = 65535
  · subst hl
    by_cases hk : k < v.part / 2
    · obtain ⟨ws, e, hlen, hw⟩ := stepWords_long_few v k h4 hk
      rw [e]
      refine ⟨by dsimp only; omega, by simp; omega, fun h => absurd rfl h, ?_, ?_⟩
      · have hp := lowPair 16 16 (by decide) (by decide)
        have := hw _ hp.1 hp.2 rfl
        rw [List.flatMap_append, List.flatMap_cons, List.flatMap_nil, List.append_nil]
        exact ⟨this.1.weaken (by omega), this.2⟩
      · intro _
        have hp := lowTriple 15 16 1 (by decide) (by decide) (by decide)
        have := hw _ hp.1 hp.2 rfl
        dsimp only
        rw [decLast_concat, List.flatMap_append, List.flatMap_cons, List.flatMap_nil, List.append_nil, List.append_assoc]
        exact ⟨this.1.weaken (by omega), this.2⟩
    · have hv : v.isIdf5 = true := by
        cases hi : v.isIdf5 with
        | true => rfl
        | false => exact absurd (h6 rfl hi) hk
      obtain ⟨e1, e2, e3, e4⟩ := stepWords_long_full v k hv (by omega)
      rw [e1]
      refine ⟨by omega, e2, ?_, ?_, ?_⟩
      · intro hr
        exact ⟨h2, h3, by omega, by omega, fun _ hc => (by rw [hv] at hc; cases hc), fun hc => absurd rfl hc⟩
      · rw [show k - (k - v.part / 2) = v.part / 2 from by omega]
        exact ⟨e3.weaken (by omega), e4⟩
      · intro hc
        rw [hc] at hv
        cases hv
  · have ht : t < 65535 := by omega
    have hcase := h7 hl
    by_cases hb : k < 2 * v.part ∧ k ≠ v.part
    · have htodo : ∃ d, (if k > v.part then k / 2 else k) = d ∧ 1 ≤ d ∧ d ≤ k ∧ d < v.part ∧ v.stretch d + 1 ≤ t / 2 ∧
          (k - d ≠ 0 → v.Fits (k - d) t) := by
        by_cases hg : k > v.part
        · have hf : v.fastLimit ≤ t := by
            rcases hcase with h | h | h
            · omega
            · omega
            · exact h.2
          have hs : ∀ d, k / 2 ≤ d → v.stretch d + 1 ≤ t / 2 := by
            intro d hd
            have := v.stretch_mono hd
            have h8 : v.stretch (k / 2) + 1 ≤ t / 2 := by
              cases v <;> simp only [RmtVer.stretch, RmtVer.part, RmtVer.fastLimit] at * <;> omega
            omega
          refine ⟨k / 2, if_pos hg, by omega, by omega, by omega, hs _ (Nat.le_refl _), ?_⟩
          intro _
          refine ⟨h2, h3, by omega, by omega, fun h => absurd h hl, fun _ => ?_⟩
          by_cases he : k - k / 2 = v.part
          · exact Or.inr (Or.inl he)
          · exact Or.inl ⟨by omega, hs _ (by omega)⟩
        · refine ⟨k, if_neg hg, h4, Nat.le_refl _, by omega, ?_, fun h => absurd (Nat.sub_self k) h⟩
          rcases hcase with h | h | h
          · exact h.2
          · omega
          · omega
      obtain ⟨d, ed, hd1, hd2, hd3, hd4, hd5⟩ := htodo
      obtain ⟨ws, ew, hlen, hw⟩ := stepWords_few v d t ht hd1 hd3 hd4
      have e : v.stepWords k t = (ws ++ [v.lastShort], k - d) := by
        unfold RmtVer.stepWords
        rw [if_neg hl, if_pos hb]
        dsimp only
        rw [ed, ew]
      rw [e]
      refine ⟨by dsimp only; omega, by simp; omega, hd5, ?_, ?_⟩
      · dsimp only
        rw [show k - (k - d) = d from by omega, List.flatMap_append, List.flatMap_cons, List.flatMap_nil, List.append_nil]
        by_cases hv : v = .idf4s
        · subst hv
          have hp := lowPair 4 4 (by decide) (by decide)
          exact hw _ hp.1 hp.2 rfl
        · have hp := lowPair 2 2 (by decide) (by decide)
          have := hw _ hp.1 hp.2 (by rw [if_neg hv]; rfl)
          have hd : rmtDecode v.lastShort = [⟨false, 2⟩, ⟨false, 2⟩] := by
            cases v <;> first | rfl | exact absurd rfl hv
          rw [hd]
          exact this
      · intro hv
        subst hv
        have hp := lowTriple 1 2 1 (by decide) (by decide) (by decide)
        have := hw _ hp.1 hp.2 rfl
        dsimp only
        rw [decLast_concat, show k - (k - d) = d from by omega, List.flatMap_append, List.flatMap_cons, List.flatMap_nil,
          List.append_nil, List.append_assoc]
        exact this
    · obtain ⟨ws, ew, hlen, hw1, hw2⟩ := stepWords_full v t ht h2
      have e : v.stepWords k t = (ws ++ [RmtVer.stepWord t], k - v.part) := by
        unfold RmtVer.stepWords
        rw [if_neg hl, if_neg hb, ew]
      rw [e]
      refine ⟨by dsimp only; omega, by simp; omega, ?_, ?_, ?_⟩
      · dsimp only
        intro hr
        refine ⟨h2, h3, by omega, by omega, fun h => absurd h hl, fun _ => ?_⟩
        have hf : v.fastLimit ≤ t := by
          rcases hcase with h | h | h
          · omega
          · omega
          · exact h.2
        by_cases he : k - v.part = v.part
        · exact Or.inr (Or.inl he)
        · exact Or.inr (Or.inr ⟨by omega, hf⟩)
      · dsimp only
        rw [show k - (k - v.part) = v.part from by omega]
        exact ⟨hw1.1.weaken (by omega), hw1.2⟩
      · intro _
        dsimp only
        rw [decLast_concat, show k - (k - v.part) = v.part from by omega]
        exact ⟨hw2.1.weaken (by omega), hw2.2⟩

/-- The commands which can be queued: pauses, and steps which fit. -/
def RmtVer.Good (v : RmtVer) (steps ticks : Nat) : Prop :=
  if steps = 0 then 3200 ≤ ticks ∧ ticks ≤ 65535 else v.Fits steps ticks

theorem RmtVer.good_of_encodable (v : RmtVer) (c : Cmd) (hc : c.Valid) (he : v.Encodable c)
    (hr : ¬ Queue.commandRateTicks c < ArchId.esp32.minCmdTicks) : v.Good c.steps c.ticks := by
  obtain ⟨h1, h2⟩ := hc
  obtain ⟨h3, h4⟩ := he
  have hmin : ArchId.esp32.minCmdTicks = 3200 := by decide
  rw [hmin] at hr
  unfold RmtVer.Good
  by_cases h0 : c.steps = 0
  · rw [if_pos h0]
    unfold Queue.commandRateTicks at hr
    rw [if_neg (by omega)] at hr
    omega
  · rw [if_neg h0]
    have hrate : 3200 ≤ c.ticks * c.steps := by
      unfold Queue.commandRateTicks at hr
      by_cases h5 : c.steps > 1
      · rw [if_pos h5] at hr
        have : c.ticks * c.steps ≤ 65535 * 255 := Nat.mul_le_mul (by omega) (by omega)
        unfold u32 at hr
        omega
      · rw [if_neg h5] at hr
        have : c.steps = 1 := by omega
        rw [this]
        omega
    generalize c.ticks = t at *
    generalize c.steps = k at *
    have h4t : 4 ≤ t := by
      apply Classical.byContradiction
      intro hn
      have : t * k ≤ 3 * 255 := Nat.mul_le_mul (by omega) (by omega)
      omega
    refine ⟨h4t, by omega, by omega, by omega, fun h5 h6 => h4 h6 h5, fun h5 => ?_⟩
    by_cases hk : k = v.part
    · exact Or.inr (Or.inl hk)
    by_cases hk2 : k < v.part
    · refine Or.inl ⟨hk2, ?_⟩
      have key : (v.part * 4 + 9 - 4 * k) * 2 * k ≤ 2400 := by
        have hp : v.part ≤ 32 := by cases v <;> decide
        generalize v.part = p at *
        have : (p * 4 + 9 - 4 * k) ≤ 137 - 4 * k := by omega
        have h7 : (p * 4 + 9 - 4 * k) * 2 * k ≤ (137 - 4 * k) * 2 * k := Nat.mul_le_mul_right k (Nat.mul_le_mul_right 2 this)
        have h8 : k < 32 := by omega
        refine Nat.le_trans h7 ?_
        have h9 : ∀ j < 32, (137 - 4 * j) * 2 * j ≤ 2400 := by decide
        exact h9 k h8
      have hst : v.stretch k + 1 ≤ v.part * 4 + 9 - 4 * k := by
        cases v <;> simp only [RmtVer.stretch, RmtVer.part] at * <;> omega
      apply Classical.byContradiction
      intro hn
      have h9 : t ≤ (v.part * 4 + 9 - 4 * k) * 2 := by omega
      have h10 : t * k ≤ (v.part * 4 + 9 - 4 * k) * 2 * k := Nat.mul_le_mul_right k h9
      omega
    · exact Or.inr (Or.inr ⟨by omega, by omega⟩)

/-- a pause of `t` ticks -/
def IsPause (t : Nat) (w : List Seg) : Prop := Silent w ∧ NoEnd w ∧ segTime w = t

theorem IsPause.append {s t : Nat} {a b : List Seg} (ha : IsPause s a) (hb : IsPause t b) : IsPause (s + t) (a ++ b) :=
  ⟨Silent.append ha.1 hb.1, NoEnd.append ha.2.1 hb.2.1, by rw [segTime_append, ha.2.2, hb.2.2]⟩

theorem IsPause.low {x y : Nat} (hx : 0 < x) (hy : 0 < y) : IsPause (x + y) [⟨false, x⟩, ⟨false, y⟩] :=
  ⟨(lowPair x y hx hy).1, (lowPair x y hx hy).2, by simp only [segTime]; omega⟩

theorem IsPause.cast {s t : Nat} {w : List Seg} (h : IsPause s w) (e : s = t) : IsPause t w := e ▸ h

/-- What the code stores for a pause. -/
theorem pauseWords_ok (v : RmtVer) (t : Nat) (h1 : 3200 ≤ t) (h2 : t ≤ 65535) :
    (v.pauseWords t).length = v.part ∧ IsPause t ((v.pauseWords t).flatMap rmtDecode) ∧
      (v = .idf4 → IsPause t ((Rmt.decLast (v.pauseWords t)).flatMap rmtDecode ++ [⟨false, 1⟩])) := by
  have h5 : ∀ p, p = 32 ∨ p = 24 → ∀ half, half = t / (2 * p) → ∀ rem, rem = t - 2 * (p - 1) * half →
      ∀ w last, w = List.replicate (p - 1) (0x00010001 * half) → last = u32 (0x00010000 * (rem / 2) + (rem - rem / 2)) →
      IsPause t ((w ++ [last]).flatMap rmtDecode) := by
    intro p hp half hhalf rem hrem w last hw hl
    have hd : rmtDecode (0x00010001 * half) = [⟨false, half⟩, ⟨false, half⟩] := by
      rw [show 0x00010001 * half = half * 65536 + half from by omega]
      exact decode_low (by rcases hp with h | h <;> subst h <;> omega) (by rcases hp with h | h <;> subst h <;> omega)
    have hh : 0 < half := by rcases hp with h | h <;> subst h <;> omega
    have hlow : IsPause _ _ := low_replicate (p - 1) _ half half hd hh hh
    rw [← hw] at hlow
    have hrem2 : rem < 65535 ∧ 2 ≤ rem := by rcases hp with h | h <;> subst h <;> omega
    have hlast : last = rem / 2 * 65536 + (rem - rem / 2) := by rw [hl]; unfold u32; omega
    rw [List.flatMap_append, List.flatMap_cons, List.flatMap_nil, List.append_nil, hlast, decode_low (by omega) (by omega)]
    refine (hlow.append (IsPause.low (by omega) (by omega))).cast ?_
    rcases hp with h | h <;> subst h <;> omega
  cases v with
  | idf5 =>
    exact ⟨by simp [RmtVer.pauseWords, RmtVer.enterPause, RmtVer.part], h5 32 (Or.inl rfl) _ rfl _ rfl _ _ rfl rfl,
      fun h => nomatch h⟩
  | idf5s =>
    exact ⟨by simp [RmtVer.pauseWords, RmtVer.enterPause, RmtVer.part], h5 24 (Or.inr rfl) _ rfl _ rfl _ _ rfl rfl,
      fun h => nomatch h⟩
  | idf4 =>
    have hlow : IsPause _ _ := low_replicate 30 0x00010002 1 2 (by decide) (by decide) (by decide)
    have e : RmtVer.pauseWords .idf4 t = List.replicate 30 0x00010002 ++ [(t - 90) / 2 * 65536 + ((t - 90) - (t - 90) / 2)] := rfl
    rw [e]
    refine ⟨by simp [RmtVer.part], ?_, fun _ => ?_⟩
    · rw [List.flatMap_append, List.flatMap_cons, List.flatMap_nil, List.append_nil, decode_low (by omega) (by omega)]
      exact (hlow.append (IsPause.low (by omega) (by omega))).cast (by omega)
    · have hd : subU32 ((t - 90) / 2 * 65536 + ((t - 90) - (t - 90) / 2)) 1 =
          (t - 90) / 2 * 65536 + ((t - 90) - (t - 90) / 2 - 1) := by unfold subU32; omega
      rw [decLast_concat, hd, List.flatMap_append, List.flatMap_cons, List.flatMap_nil, List.append_nil,
        decode_low (by omega) (by omega)]
      refine ((hlow.append (IsPause.low (by omega) (by omega))).append (t := 1) ⟨?_, ?_, rfl⟩).cast (by omega)
      · intro s hs; simp at hs; rw [hs]
      · intro s hs; simp at hs; rw [hs]; decide
  | idf4s =>
    have hlow : IsPause _ _ := low_replicate 21 0x00020002 2 2 (by decide) (by decide) (by decide)
    have e : RmtVer.pauseWords .idf4s t =
        [(t - 92) / 2 * 65536 + ((t - 92) - (t - 92) / 2)] ++ List.replicate 21 0x00020002 ++ [0x00040004] := rfl
    rw [e]
    refine ⟨by simp [RmtVer.part], ?_, fun h => nomatch h⟩
    rw [List.flatMap_append, List.flatMap_append, List.flatMap_cons, List.flatMap_nil, List.append_nil, decode_low (by omega) (by omega)]
    exact (((IsPause.low (by omega) (by omega)).append hlow).append (IsPause.low (x := 4) (y := 4) (by omega) (by omega))).cast (by omega)

/-! ## other pauses -/

theorem dirPause_ok (v : RmtVer) : Silent (v.dirPause.flatMap rmtDecode) ∧ v.dirPause.length = v.part := by
  cases v <;> exact ⟨by unfold Silent; decide +kernel, by decide +kernel⟩

theorem emptyPause_ok (v : RmtVer) (b : Bool) : Silent ((v.emptyPause b).flatMap rmtDecode) ∧ (v.emptyPause b).length = v.part := by
  cases v <;> cases b <;> exact ⟨by unfold Silent; decide +kernel, by decide +kernel⟩

end FAS
