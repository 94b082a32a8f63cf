import Verif.Spec.AvrTimer
import Verif.Lemmas.AvrRun

/-!
# Steppers sharing an AVR timer: simulation of every single stepper
-/

namespace FAS
namespace AvrTimer

/-- The activities in progress for one stepper. -/
def jobsOn (i : Nat) : List (Option Job) → List Job
  | [] => []
  | none :: r => jobsOn i r
  | some j :: r => if j.chan = i then j :: jobsOn i r else jobsOn i r

theorem mem_jobsOn {i j} : ∀ {st}, j ∈ jobsOn i st ↔ some j ∈ st ∧ j.chan = i
  | [] => by simp [jobsOn]
  | none :: r => by
    have := mem_jobsOn (i := i) (j := j) (st := r)
    simp [jobsOn, this]
  | some k :: r => by
    have := mem_jobsOn (i := i) (j := j) (st := r)
    unfold jobsOn
    by_cases hk : k.chan = i
    · rw [if_pos hk]
      simp only [List.mem_cons, this, Option.some.injEq]
      constructor
      · rintro (rfl | ⟨h1, h2⟩)
        · exact ⟨Or.inl rfl, hk⟩
        · exact ⟨Or.inr h1, h2⟩
      · rintro ⟨rfl | h1, h2⟩
        · exact Or.inl rfl
        · exact Or.inr ⟨h1, h2⟩
    · rw [if_neg hk]
      simp only [List.mem_cons, this, Option.some.injEq]
      constructor
      · rintro ⟨h1, h2⟩
        exact ⟨Or.inr h1, h2⟩
      · rintro ⟨rfl | h1, h2⟩
        · exact absurd h2 hk
        · exact ⟨h1, h2⟩

theorem Free.jobs {m : AvrTimer} {i} (h : m.Free i) : jobsOn i m.stack = [] := by
  cases hj : jobsOn i m.stack with
  | nil => rfl
  | cons j r =>
    have := (mem_jobsOn (i := i) (j := j) (st := m.stack)).mp (by rw [hj]; simp)
    exact absurd this.2 (h j this.1)

theorem free_of_jobs {m : AvrTimer} {i} (h : jobsOn i m.stack = []) : m.Free i := by
  intro j hj hc
  have := mem_jobsOn.mpr ⟨hj, hc⟩
  rw [h] at this
  cases this

/-- A start in progress: the stepper is `c`, and has still been `s` before the start. -/
def Starting (a : ArchId) (j : Job) (s c : Avr) : Prop :=
  s.q.running = false ∧ ∃ t,
    (j.ops = startOps a s ∧ c = startBegin a t s) ∨
    (j.ops = [.mask true] ∧ c = { startBegin a t s with one := decide ((s.q.slot a s.q.readIdx).steps ≠ 0) }) ∨
    (j.ops = [] ∧
      c = { startBegin a t s with one := decide ((s.q.slot a s.q.readIdx).steps ≠ 0), irq := true })

/-- An activity in progress: the stepper is `c`, and would be `s`, if the activity took place when it ends. -/
def InFlight (a : ArchId) (i : Nat) (j : Job) (s c : Avr) : Prop :=
  match j.kind with
  | .addFinish => Starting a j s c ∧ s.pc = .committed true
  | .startNull => Starting a j s c ∧ s.pc = .idle ∧ (s.q.addNull true).start = true
  | .forceStop _ => s.pc = .idle ∧
      ((j.ops = stopOps ∧ c = s) ∨ (j.ops = [.mode false] ∧ c = { s with irq := false }) ∨
        (j.ops = [] ∧ c = { s with irq := false, one := false }))
  | .connect => c = s ∧ s.irq = false ∧ s.one = false ∧
      (j.ops = connectOps ∨ j.ops = [.mask false, .mode false, .ovf] ∨ j.ops = [.mode false, .ovf] ∨
        (j.ops = [.ovf] ∧ ∀ l, j.loaded = some l → l.bits i = false) ∨ j.ops = [])

/-- The stepper `i` of the system and the stepper alone. -/
structure Inv (a : ArchId) (i : Nat) (m : AvrTimer) (s : Avr) : Prop where
  irq : s.irq = s.q.running
  off : m.conn i = false → s.irq = false ∧ s.one = false ∧ ∀ j ∈ jobsOn i m.stack, j.kind = .connect
  rel : (jobsOn i m.stack = [] ∧ m.ch i = s) ∨ ∃ j, jobsOn i m.stack = [j] ∧ InFlight a i j s (m.ch i)

theorem setCh_same (m : AvrTimer) (i : Nat) (s : Avr) : (m.setCh i s).ch i = s := by simp [setCh]

theorem setCh_other (m : AvrTimer) {i k : Nat} (s : Avr) (h : i ≠ k) : (m.setCh k s).ch i = m.ch i := by
  simp [setCh, h]

theorem compare_pc (a : ArchId) (s : Avr) : (s.step a .compare).pc = s.pc := by
  simp only [Avr.step, Avr.compare, Avr.isrBody]
  repeat' split
  all_goals rfl

theorem Inv.compare {a i m s} (h : Inv a i m s) (k : Nat) (hg : m.Apart (.compare k)) :
    Inv a i (m.step a (.compare k)) (Avr.run a s (ownEv a i m (.compare k))) := by
  by_cases hk : k = i
  rotate_left
  · have hown : ownEv a i m (.compare k) = [] := by simp [ownEv, hk]
    rw [hown]
    have hch : (m.step a (.compare k)).ch i = m.ch i := setCh_other _ _ (Ne.symm hk)
    refine ⟨h.irq, h.off, ?_⟩
    rw [hch]
    exact h.rel
  subst hk
  cases hi : (m.ch k).irq
  · have hown : ownEv a k m (.compare k) = [] := by simp [ownEv, hi]
    rw [hown]
    have hch : (m.step a (.compare k)).ch k = m.ch k := by
      show (m.setCh k _).ch k = _
      rw [setCh_same]
      simp [Avr.step, hi]
    refine ⟨h.irq, h.off, ?_⟩
    rw [hch]
    exact h.rel
  · have hown : ownEv a k m (.compare k) = [.compare] := by simp [ownEv, hi]
    rw [hown]
    have hch : (m.step a (.compare k)).ch k = (m.ch k).step a .compare := setCh_same _ _ _
    have hconn : m.conn k ≠ false := by
      intro hc
      obtain ⟨o1, o2, o3⟩ := h.off hc
      rcases h.rel with ⟨-, he⟩ | ⟨j, hj, hf⟩
      · rw [he, o1] at hi; cases hi
      · have hkind := o3 j (by rw [hj]; simp)
        unfold InFlight at hf
        rw [hkind] at hf
        rw [hf.1, o1] at hi
        cases hi
    refine ⟨Avr.step_irq a s .compare h.irq, fun hc => absurd hc hconn, ?_⟩
    rw [hch]
    show _ ∧ _ = s.step a .compare ∨ _
    rcases h.rel with ⟨h1, he⟩ | ⟨j, hj, hf⟩
    · exact Or.inl ⟨h1, by rw [he]⟩
    · refine Or.inr ⟨j, hj, ?_⟩
      have hmem := mem_jobsOn.mp (show j ∈ jobsOn k m.stack by rw [hj]; simp)
      have hstart : ∀ {P : Prop}, Starting a j s (m.ch k) → j.ops ≠ [] → P := by
        rintro P ⟨hr, t, hc⟩ hne
        have hsi : s.irq = false := by rw [h.irq, hr]
        rcases hc with ⟨-, hc⟩ | ⟨-, hc⟩ | ⟨h0, -⟩
        · rw [hc] at hi
          exact absurd (hsi.symm.trans hi) (by simp)
        · rw [hc] at hi
          exact absurd (hsi.symm.trans hi) (by simp)
        · exact absurd h0 hne
      have hgd := hg j hmem.1 hmem.2
      unfold InFlight at hf ⊢
      cases hkd : j.kind with
      | addFinish =>
        rw [hkd] at hf
        exact hstart hf.1 (hgd (Or.inl hkd))
      | startNull =>
        rw [hkd] at hf
        exact hstart hf.1 (hgd (Or.inr hkd))
      | connect =>
        rw [hkd] at hf
        rw [hf.1, hf.2.1] at hi
        cases hi
      | forceStop p =>
        rw [hkd] at hf
        dsimp only at hf ⊢
        obtain ⟨hpc, hc⟩ := hf
        refine ⟨(compare_pc a s).trans hpc, ?_⟩
        rcases hc with ⟨ho, hc⟩ | ⟨-, hc⟩ | ⟨-, hc⟩
        · exact Or.inl ⟨ho, by rw [hc]; rfl⟩
        · rw [hc] at hi; cases hi
        · rw [hc] at hi; cases hi

theorem stack_of_head {st : List (Option Job)} {o} (h : st.head? = some o) : st = o :: st.tail := by
  cases st with
  | nil => cases h
  | cons x r => cases h; rfl

theorem jobsOn_none {i} {st : List (Option Job)} (h : st.head? = some none) : jobsOn i st = jobsOn i st.tail := by
  rw [stack_of_head h]; rfl

theorem jobsOn_top {i} {st : List (Option Job)} {j} (h : st.head? = some (some j)) :
    jobsOn i st = if j.chan = i then j :: jobsOn i st.tail else jobsOn i st.tail := by
  rw [stack_of_head h]; rfl

/-- The result of an API call: the step of the stepper alone, or the begin of an activity. -/
inductive ApiCases (a : ArchId) (m : AvrTimer) (k : Nat) (ev : Avr.Ev) : AvrTimer → Prop where
  | cmp (h : ev = .compare) : ApiCases a m k ev m
  | plain (h : ev ≠ .compare) : ApiCases a m k ev (m.setCh k ((m.ch k).step a ev))
  | addFinish (now : Nat) (h : ev = .addFinish now) (hr : (m.ch k).q.running = false)
      (hpc : (m.ch k).pc = .committed true) :
      ApiCases a m k ev ((m.setCh k (startBegin a now (m.ch k))).begin ⟨.addFinish, k, startOps a (m.ch k), none⟩)
  | startNull (now : Nat) (h : ev = .startNull now) (hpc : (m.ch k).pc = .idle)
      (hs : ((m.ch k).q.addNull true).start = true) :
      ApiCases a m k ev ((m.setCh k (startBegin a now (m.ch k))).begin ⟨.startNull, k, startOps a (m.ch k), none⟩)
  | forceStop (p : Int) (h : ev = .forceStop p) (hpc : (m.ch k).pc = .idle) :
      ApiCases a m k ev (m.begin ⟨.forceStop p, k, stopOps, none⟩)

theorem setCh_self (m : AvrTimer) (i : Nat) : m.setCh i (m.ch i) = m := by
  unfold setCh
  have : (fun j => if j = i then m.ch i else m.ch j) = m.ch := by
    funext j
    by_cases h : j = i
    · rw [if_pos h, h]
    · rw [if_neg h]
  rw [this]

theorem api_cases (a : ArchId) (m : AvrTimer) (k : Nat) (ev : Avr.Ev) : ApiCases a m k ev (api a m k ev) := by
  unfold api
  dsimp only
  split
  · exact .cmp rfl
  · rename_i now start hpc
    split
    · rename_i hc
      simp only [Bool.and_eq_true, Bool.not_eq_true'] at hc
      exact .addFinish now rfl hc.1 (by rw [hpc, hc.2])
    · exact .plain (by simp)
  · rename_i now hpc
    split
    · rename_i hc
      exact .startNull now rfl hpc hc
    · rename_i hc
      have : (m.ch k).step a (.startNull now) = m.ch k := by simp [Avr.step, hpc, hc]
      have h2 := ApiCases.plain (a := a) (m := m) (k := k) (ev := .startNull now) (by simp)
      rw [this, setCh_self] at h2
      exact h2
  · rename_i p hpc
    exact .forceStop p rfl hpc
  · rename_i h1 h2 h3 h4
    exact .plain h1

theorem addNull_running {q : Queue} (h : (q.addNull true).start = true) : q.running = false := by
  unfold Queue.addNull at h
  cases hr : q.running
  · rfl
  · simp only [hr] at h
    revert h
    cases q.ready <;> simp

theorem Inv.api {a i m s} (h : Inv a i m s) (k : Nat) (ev : Avr.Ev) (hg : m.Apart (.api k ev)) :
    Inv a i (m.step a (.api k ev)) (Avr.run a s (ownEv a i m (.api k ev))) := by
  by_cases hrun : m.stack.head? = some none ∧ m.conn k = true
  rotate_left
  · have hst : m.step a (.api k ev) = m := by
      simp only [step]
      cases hh : m.stack.head? with
      | none => rfl
      | some o =>
        cases o with
        | some j => rfl
        | none =>
          have : m.conn k = false := by
            cases hc : m.conn k
            · rfl
            · exact absurd ⟨hh, hc⟩ hrun
          simp [this]
    have hown : ownEv a i m (.api k ev) = [] := by
      have hcond : ¬ (k = i ∧ m.conn i = true ∧ m.stack.head?.map Option.isNone = some true ∧
          (m.step a (.api k ev)).stack.head?.map Option.isNone = some true) := by
        rintro ⟨rfl, hc, hn, -⟩
        apply hrun
        refine ⟨?_, hc⟩
        cases hh : m.stack.head? with
        | none => rw [hh] at hn; cases hn
        | some o =>
          cases o with
          | some j => rw [hh] at hn; cases hn
          | none => rfl
      cases ev <;> first | rfl | exact if_neg hcond
    rw [hst, hown]
    exact h
  obtain ⟨htop, hc⟩ := hrun
  have hst : m.step a (.api k ev) = AvrTimer.api a m k ev := by
    simp only [step, htop, hc, if_true]
  have hfree : jobsOn k m.stack = [] := Free.jobs hg
  have hownNot : k ≠ i → ownEv a i m (.api k ev) = [] := by
    intro hk
    have hcond : ¬ (k = i ∧ m.conn i = true ∧ m.stack.head?.map Option.isNone = some true ∧
        (m.step a (.api k ev)).stack.head?.map Option.isNone = some true) := fun hx => hk hx.1
    cases ev <;> first | rfl | exact if_neg hcond
  have hownYes : k = i → ev ≠ .compare → (AvrTimer.api a m k ev).stack.head? = some none →
      ownEv a i m (.api k ev) = [ev] := by
    rintro rfl hne hh
    have hcond : (k = k ∧ m.conn k = true ∧ m.stack.head?.map Option.isNone = some true ∧
        (m.step a (.api k ev)).stack.head?.map Option.isNone = some true) :=
      ⟨rfl, hc, by rw [htop]; rfl, by rw [hst, hh]; rfl⟩
    cases ev <;> first | exact absurd rfl hne | exact if_pos hcond
  have hownBegin : ∀ j : Job, (AvrTimer.api a m k ev).stack.head? = some (some j) → ownEv a i m (.api k ev) = [] := by
    intro j hh
    have hcond : ¬ (k = i ∧ m.conn i = true ∧ m.stack.head?.map Option.isNone = some true ∧
        (m.step a (.api k ev)).stack.head?.map Option.isNone = some true) := by
      rintro ⟨-, -, -, hx⟩
      rw [hst, hh] at hx
      cases hx
    cases ev <;> first | rfl | exact if_neg hcond
  rw [hst]
  -- an activity begins
  have begun : ∀ (j : Job) (x : Avr), j.chan = k → AvrTimer.api a m k ev = (m.setCh k x).begin j →
      (k = i → InFlight a i j s x) → Inv a i (AvrTimer.api a m k ev) (Avr.run a s (ownEv a i m (.api k ev))) := by
    intro j x hj he hin
    have hhead : (AvrTimer.api a m k ev).stack.head? = some (some j) := by rw [he]; rfl
    rw [hownBegin j hhead, he]
    have hjobs : jobsOn i ((m.setCh k x).begin j).stack = if k = i then j :: jobsOn i m.stack else jobsOn i m.stack := by
      show jobsOn i (some j :: m.stack.tail) = _
      rw [jobsOn_none htop]
      simp only [jobsOn, hj]
    refine ⟨h.irq, fun hcn => ?_, ?_⟩
    · have hcn' : m.conn i = false := hcn
      have hki : k ≠ i := by rintro rfl; rw [hc] at hcn'; cases hcn'
      rw [hjobs, if_neg hki]
      exact h.off hcn'
    · rw [hjobs]
      by_cases hki : k = i
      · subst hki
        rw [if_pos rfl, hfree]
        refine Or.inr ⟨j, rfl, ?_⟩
        show InFlight a k j s ((m.setCh k x).ch k)
        rw [setCh_same]
        exact hin rfl
      · rw [if_neg hki]
        show _ ∧ (m.setCh k x).ch i = s ∨ ∃ j, _ ∧ InFlight a i j s ((m.setCh k x).ch i)
        rw [setCh_other _ _ (Ne.symm hki)]
        exact h.rel
  have hcs : k = i → m.ch k = s := by
    rintro rfl
    rcases h.rel with ⟨-, he⟩ | ⟨j, hj, -⟩
    · exact he
    · rw [hfree] at hj; cases hj
  have hcases := api_cases a m k ev
  generalize hres : AvrTimer.api a m k ev = m' at hcases begun hownYes
  cases hcases with
  | cmp he =>
    subst he
    exact h
  | plain hne =>
    have hstk : (m.setCh k ((m.ch k).step a ev)).stack = m.stack := rfl
    by_cases hki : k = i
    · rw [hownYes hki hne (by rw [hstk]; exact htop)]
      subst hki
      have he := hcs rfl
      refine ⟨Avr.step_irq a s ev h.irq, fun hcn => ?_, Or.inl ⟨hfree, ?_⟩⟩
      · have : m.conn k = false := hcn
        rw [hc] at this
        cases this
      · rw [setCh_same, he]; rfl
    · rw [hownNot hki]
      refine ⟨h.irq, h.off, ?_⟩
      show _ ∧ (m.setCh k _).ch i = s ∨ ∃ j, _ ∧ InFlight a i j s ((m.setCh k _).ch i)
      rw [setCh_other _ _ (Ne.symm hki)]
      exact h.rel
  | addFinish now he hr hpc =>
    refine begun _ _ rfl rfl (fun hki => ?_)
    have he := hcs hki
    rw [he] at hr hpc ⊢
    exact ⟨⟨hr, now, Or.inl ⟨rfl, rfl⟩⟩, hpc⟩
  | startNull now he hpc hs =>
    refine begun _ _ rfl rfl (fun hki => ?_)
    have he := hcs hki
    rw [he] at hs hpc ⊢
    exact ⟨⟨addNull_running hs, now, Or.inl ⟨rfl, rfl⟩⟩, hpc, hs⟩
  | forceStop p he hpc =>
    refine begun ⟨.forceStop p, k, stopOps, none⟩ (m.ch k) rfl (by rw [setCh_self]) (fun hki => ?_)
    have he := hcs hki
    rw [he] at hpc ⊢
    exact ⟨hpc, Or.inl ⟨rfl, rfl⟩⟩

theorem Inv.connect {a i m s} (h : Inv a i m s) (k : Nat) :
    Inv a i (m.step a (.connect k)) s := by
  simp only [step]
  split
  rotate_left
  · exact h
  rename_i hstk
  by_cases hc : m.conn k = true
  · rw [if_pos hc]; exact h
  rw [if_neg hc]
  have hcf : m.conn k = false := by simpa using hc
  have hnil : jobsOn i m.stack = [] := by rw [hstk]; rfl
  have he : m.ch i = s := by
    rcases h.rel with ⟨-, he⟩ | ⟨j, hj, -⟩
    · exact he
    · rw [hnil] at hj; cases hj
  have hjobs : jobsOn i (m.begin ⟨.connect, k, connectOps, none⟩).stack =
      if k = i then [⟨.connect, k, connectOps, none⟩] else [] := by
    show jobsOn i (some _ :: m.stack.tail) = _
    rw [hstk]
    simp only [jobsOn, List.tail_cons]
  refine ⟨h.irq, fun hcn => ?_, ?_⟩
  · obtain ⟨o1, o2, -⟩ := h.off hcn
    refine ⟨o1, o2, ?_⟩
    rw [hjobs]
    intro j hj
    split at hj
    · rw [List.mem_singleton.mp hj]
    · cases hj
  · rw [hjobs]
    by_cases hki : k = i
    · subst hki
      rw [if_pos rfl]
      obtain ⟨o1, o2, -⟩ := h.off hcf
      exact Or.inr ⟨_, rfl, he, o1, o2, Or.inl rfl⟩
    · rw [if_neg hki]
      exact Or.inl ⟨rfl, he⟩

/-- Storing leaves the other steppers as they are, if their bits are stored as they are. -/
theorem store_other {m : AvrTimer} {k i l op} (hne : i ≠ k) (hb : l.bits i = (m.load op).bits i) :
    (m.store k l op).ch i = m.ch i := by
  cases op <;> simp only [store, load, if_neg hne] at hb ⊢ <;> rw [hb]

theorem Inv.proceed {a i m s} (h : Inv a i m s) (now : Nat) (hg : m.Apart (.proceed now)) :
    Inv a i (m.step a (.proceed now)) (Avr.run a s (ownEv a i m (.proceed now))) := by
  cases htop : m.stack.head? with
  | none => (simp only [step, ownEv, htop]; exact h)
  | some o =>
  cases o with
  | none => (simp only [step, ownEv, htop]; exact h)
  | some j =>
  have hst : m.step a (.proceed now) = m.proceed now j := by simp only [step, htop]
  have hown : ownEv a i m (.proceed now) = if j.chan = i ∧ j.ops = [] then JobKind.call now j.kind else [] := by
    simp only [ownEv, htop]
  have hjt := jobsOn_top (i := i) htop
  by_cases hji : j.chan = i
  rotate_left
  · -- an activity of another stepper
    rw [hown, if_neg (fun hx => hji hx.1), hst]
    rw [if_neg hji] at hjt
    have key : ∀ m' : AvrTimer, m'.ch i = m.ch i → m'.conn i = m.conn i → jobsOn i m'.stack = jobsOn i m.stack →
        Inv a i m' s := by
      intro m' h1 h2 h3
      refine ⟨h.irq, ?_, ?_⟩
      · rw [h2, h3]; exact h.off
      · rw [h1, h3]; exact h.rel
    unfold AvrTimer.proceed
    split
    · refine key _ rfl rfl ?_
      rw [hjt]
      show jobsOn i (some _ :: m.stack.tail) = _
      simp only [jobsOn, if_neg hji]
    · rename_i op ops l ho hl
      refine key _ (store_other (Ne.symm hji) (hg j l op ops htop hl ho i (Ne.symm hji))) ?_ ?_
      · cases op <;> rfl
      · rw [hjt]
        show jobsOn i (some _ :: m.stack.tail) = _
        simp only [jobsOn, if_neg hji]
    · refine key _ (setCh_other _ _ (Ne.symm hji)) ?_ ?_
      · dsimp only
        split
        · exact if_neg (Ne.symm hji)
        · rfl
      · rw [hjt]
        rfl
  · -- the own activity
    rw [if_pos hji] at hjt
    rcases h.rel with ⟨hnil, -⟩ | ⟨j', hj', hf⟩
    · rw [hjt] at hnil; cases hnil
    rw [hjt] at hj'
    have hjj : j = j' := (List.cons.inj hj').1
    have htl : jobsOn i m.stack.tail = [] := (List.cons.inj hj').2
    subst hjj
    rw [hst]
    have hoff : ∀ j2 : Job, m.conn i = false → j2.kind = j.kind → s.irq = false ∧ s.one = false ∧
        ∀ x ∈ [j2], x.kind = .connect := by
      intro j2 hcn hk
      obtain ⟨o1, o2, o3⟩ := h.off hcn
      refine ⟨o1, o2, fun x hx => ?_⟩
      rw [List.mem_singleton.mp hx, hk]
      exact o3 j (by rw [hjt]; simp)
    -- the next state of an unfinished activity
    have busy : ∀ (j2 : Job) (m' : AvrTimer), j2.kind = j.kind → j2.chan = i → m'.conn = m.conn →
        m'.stack = some j2 :: m.stack.tail → InFlight a i j2 s (m'.ch i) → Inv a i m' s := by
      intro j2 m' hk hc2 hcn hstk hin
      have hjb : jobsOn i m'.stack = [j2] := by
        rw [hstk]
        simp only [jobsOn, if_pos hc2, htl]
      refine ⟨h.irq, fun hx => ?_, Or.inr ⟨j2, hjb, hin⟩⟩
      rw [hjb]
      exact hoff j2 (by rw [← hcn]; exact hx) hk
    cases ho : j.ops with
    | cons op ops =>
      rw [hown, if_neg (fun hx => by rw [ho] at hx; cases hx.2)]
      cases hl : j.loaded with
      | none =>
        have he : m.proceed now j = { m with stack := some { j with loaded := some (m.load op) } :: m.stack.tail } := by
          unfold AvrTimer.proceed; rw [ho, hl]
        rw [he]
        refine busy { j with loaded := some (m.load op) } _ rfl hji rfl rfl ?_
        unfold InFlight at hf ⊢
        dsimp only
        cases hkd : j.kind with
        | addFinish => rw [hkd] at hf; exact hf
        | startNull => rw [hkd] at hf; exact hf
        | forceStop p => rw [hkd] at hf; exact hf
        | connect =>
          rw [hkd] at hf
          obtain ⟨h1, h2, h3, h4⟩ := hf
          refine ⟨h1, h2, h3, ?_⟩
          rcases h4 with h4 | h4 | h4 | ⟨h4, -⟩ | h4
          · exact Or.inl h4
          · exact Or.inr (Or.inl h4)
          · exact Or.inr (Or.inr (Or.inl h4))
          · refine Or.inr (Or.inr (Or.inr (Or.inl ⟨h4, fun l hx => ?_⟩)))
            have hop : op = .ovf := by rw [ho] at h4; exact (List.cons.inj h4).1
            cases hx
            rw [hop]
            show (m.ch i).irq = false
            rw [h1, h2]
          · exact Or.inr (Or.inr (Or.inr (Or.inr h4)))
      | some l =>
        have he : m.proceed now j =
            { m.store j.chan l op with stack := some { j with ops := ops, loaded := none } :: m.stack.tail } := by
          unfold AvrTimer.proceed; rw [ho, hl]
        rw [he]
        refine busy { j with ops := ops, loaded := none } _ rfl hji ?_ rfl ?_
        · cases op <;> rfl
        show InFlight a i _ s ((m.store j.chan l op).ch i)
        rw [hji]
        have start : Starting a j s (m.ch i) → Starting a { j with ops := ops, loaded := none } s
            ((m.store i l op).ch i) := by
          rintro ⟨hr, t, hc⟩
          refine ⟨hr, t, ?_⟩
          rcases hc with ⟨h1, h2⟩ | ⟨h1, h2⟩ | ⟨h1, h2⟩
          · rw [ho] at h1
            cases h1
            refine Or.inr (Or.inl ⟨rfl, ?_⟩)
            simp only [store, if_true, h2]
          · rw [ho] at h1
            cases h1
            refine Or.inr (Or.inr ⟨rfl, ?_⟩)
            simp only [store, if_true, h2]
          · rw [ho] at h1; cases h1
        unfold InFlight at hf ⊢
        dsimp only
        cases hkd : j.kind with
        | addFinish => rw [hkd] at hf; exact ⟨start hf.1, hf.2⟩
        | startNull => rw [hkd] at hf; exact ⟨start hf.1, hf.2⟩
        | forceStop p =>
          rw [hkd] at hf
          refine ⟨hf.1, ?_⟩
          rcases hf.2 with ⟨h1, h2⟩ | ⟨h1, h2⟩ | ⟨h1, h2⟩
          · rw [ho] at h1
            cases h1
            refine Or.inr (Or.inl ⟨rfl, ?_⟩)
            simp only [store, if_true, h2]
          · rw [ho] at h1
            cases h1
            refine Or.inr (Or.inr ⟨rfl, ?_⟩)
            simp only [store, if_true, h2]
          · rw [ho] at h1; cases h1
        | connect =>
          rw [hkd] at hf
          obtain ⟨h1, h2, h3, h4⟩ := hf
          have hsame : ∀ op', op' = .mode false ∨ op' = .mask false ∨ (op' = .ovf ∧ l.bits i = false) →
              (m.store i l op').ch i = s := by
            rintro op' (rfl | rfl | ⟨rfl, hb⟩)
            · simp only [store, if_true, h1]
              rw [← h3]
            · simp only [store, if_true, h1]
              rw [← h2]
            · simp only [store, h1, hb]
              rw [← h2]
          rcases h4 with h4 | h4 | h4 | ⟨h4, hb⟩ | h4
          · rw [ho] at h4
            cases h4
            exact ⟨hsame _ (Or.inl rfl), h2, h3, Or.inr (Or.inl rfl)⟩
          · rw [ho] at h4
            cases h4
            exact ⟨hsame _ (Or.inr (Or.inl rfl)), h2, h3, Or.inr (Or.inr (Or.inl rfl))⟩
          · rw [ho] at h4
            cases h4
            exact ⟨hsame _ (Or.inl rfl), h2, h3, Or.inr (Or.inr (Or.inr (Or.inl ⟨rfl, fun l' hx => nomatch hx⟩)))⟩
          · rw [ho] at h4
            cases h4
            exact ⟨hsame _ (Or.inr (Or.inr ⟨rfl, hb l hl⟩)), h2, h3, Or.inr (Or.inr (Or.inr (Or.inr rfl)))⟩
          · rw [ho] at h4; cases h4
    | nil =>
      rw [hown, if_pos ⟨hji, ho⟩]
      have he : m.proceed now j = { m.setCh j.chan (finish now j.kind (m.ch j.chan)) with
          stack := none :: m.stack.tail
          conn := if j.kind = .connect then fun i => if i = j.chan then true else m.conn i else m.conn } := by
        unfold AvrTimer.proceed; rw [ho]
      rw [he, hji]
      have hnil : jobsOn i (none :: m.stack.tail) = [] := htl
      have fin : ∀ s' : Avr, s'.irq = s'.q.running → finish now j.kind (m.ch i) = s' →
          (j.kind ≠ .connect → m.conn i = true) →
          Inv a i { m.setCh i (finish now j.kind (m.ch i)) with
            stack := none :: m.stack.tail
            conn := if j.kind = .connect then fun k => if k = i then true else m.conn k else m.conn } s' := by
        intro s' hirq hfin hcn
        refine ⟨hirq, fun hx => ?_, Or.inl ⟨hnil, ?_⟩⟩
        · dsimp only at hx
          by_cases hk : j.kind = .connect
          · rw [if_pos hk, if_pos rfl] at hx; cases hx
          · rw [if_neg hk, hcn hk] at hx; cases hx
        · show (m.setCh i _).ch i = s'
          rw [setCh_same, hfin]
      have hcn : j.kind ≠ .connect → m.conn i = true := by
        intro hk
        cases hc : m.conn i
        · exact absurd ((h.off hc).2.2 j (by rw [hjt]; simp)) hk
        · rfl
      refine fin _ ?_ ?_ hcn
      · exact Avr.run_irq a _ s h.irq
      · have starting : Starting a j s (m.ch i) → ∃ t, m.ch i =
            { startBegin a t s with one := decide ((s.q.slot a s.q.readIdx).steps ≠ 0), irq := true } := by
          rintro ⟨-, t, hc⟩
          rcases hc with ⟨h1, -⟩ | ⟨h1, -⟩ | ⟨-, h2⟩
          · rw [ho] at h1; cases h1
          · rw [ho] at h1; cases h1
          · exact ⟨t, h2⟩
        unfold InFlight at hf
        cases hkd : j.kind with
        | addFinish =>
          rw [hkd] at hf
          obtain ⟨hs, hpc⟩ := hf
          have hr := hs.1
          obtain ⟨t, ht⟩ := starting hs
          show _ = s.step a (.addFinish now)
          rw [ht]
          simp [finish, Avr.step, hpc, hr, Avr.startQueue, startBegin]
        | startNull =>
          rw [hkd] at hf
          obtain ⟨hs, hpc, hstart⟩ := hf
          obtain ⟨t, ht⟩ := starting hs
          show _ = s.step a (.startNull now)
          rw [ht]
          simp [finish, Avr.step, hpc, hstart, Avr.startQueue, startBegin]
        | forceStop p =>
          rw [hkd] at hf
          obtain ⟨hpc, hc⟩ := hf
          show _ = s.step a (.forceStop p)
          rcases hc with ⟨h1, -⟩ | ⟨h1, -⟩ | ⟨-, h2⟩
          · rw [ho] at h1; cases h1
          · rw [ho] at h1; cases h1
          · rw [h2]
            simp [finish, Avr.step, hpc, Avr.forceStopAndNewPosition, Avr.forceStop]
        | connect =>
          rw [hkd] at hf
          exact hf.1

theorem Inv.step {a i m s} (h : Inv a i m s) (ev : Ev) (hg : m.Apart ev) :
    Inv a i (m.step a ev) (Avr.run a s (ownEv a i m ev)) := by
  cases ev with
  | compare k => exact h.compare k hg
  | api k ev => exact h.api k ev hg
  | connect k => exact h.connect k
  | proceed now => exact h.proceed now hg
  | taskBegin =>
    simp only [AvrTimer.step]
    split
    · exact ⟨h.irq, h.off, h.rel⟩
    · exact h
  | taskEnd =>
    simp only [AvrTimer.step]
    split
    · rename_i c rest hstk
      have hj : jobsOn i m.stack = jobsOn i (c :: rest) := by rw [hstk]; rfl
      have h1 := h.off
      have h2 := h.rel
      rw [hj] at h1 h2
      exact ⟨h.irq, h1, h2⟩
    · exact h

theorem Inv.run {a i} : ∀ (evs : List Ev) {m s}, Inv a i m s → Along a Apart m evs →
    Inv a i (m.run a evs) (Avr.run a s (own a i m evs))
  | [], _, _, h, _ => h
  | ev :: evs, m, s, h, hg => by
    have h1 := Inv.run evs (h.step ev hg.1) hg.2
    have : Avr.run a s (own a i m (ev :: evs)) =
        Avr.run a (Avr.run a s (ownEv a i m ev)) (own a i (m.step a ev) evs) := by
      simp only [own, Avr.run, List.foldl_append]
    rw [this]
    exact h1

theorem Inv.fresh (a : ArchId) (pin : Nat → Nat) (hi : Nat → Bool) (i : Nat) :
    Inv a i (fresh a pin hi) (Avr.fresh a (pin i) (hi i)) :=
  ⟨rfl, fun _ => ⟨rfl, rfl, fun _ hj => nomatch hj⟩, Or.inl ⟨rfl, rfl⟩⟩

end AvrTimer
end FAS
