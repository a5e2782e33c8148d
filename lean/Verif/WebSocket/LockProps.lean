import Verif.WebSocket.Lock

/-!
# Properties of the socket lock (C53)
-/

namespace Verif.WebSocket.Lock

theorem run_append (st : St) (a b : List Step) :
    run st (a ++ b) = (run st a).bind (fun st' => run st' b) := by
  induction a generalizing st with
  | nil => rfl
  | cons s a ih =>
    simp only [List.cons_append, run]
    cases step st s with
    | none => rfl
    | some st' => simp [ih]

theorem run_cons_some {st st' : St} {s : Step} {ss : List Step} (h : run st (s :: ss) = some st') :
    ∃ mid, step st s = some mid ∧ run mid ss = some st' := by
  simp only [run] at h
  cases hs : step st s with
  | none => rw [hs] at h; simp at h
  | some mid => rw [hs] at h; exact ⟨mid, rfl, h⟩

/-! ## What is wrong -/

/-- C53 in full, first part: a message for an open connection gets written even if the client sends
nothing. -/
def FullIdle : Prop :=
  ∀ steps st, run init steps = some st → ∀ k, .writer k ∈ st.queue →
    ∃ ss st', .frame ∉ ss ∧ run st ss = some st' ∧ k ∈ st'.written

/-- While the loop waits for a message nothing can be written: this stays so under every schedule
without a message from the client. -/
theorem receiving_stuck (st : St) (hp : st.phase = .receiving) (hh : st.holder = some .loop)
    (ss : List Step) (hf : .frame ∉ ss) (st' : St) (h : run st ss = some st') :
    st'.phase = .receiving ∧ st'.holder = some .loop ∧ st'.written = st.written := by
  induction ss generalizing st with
  | nil => simp only [run, Option.some.injEq] at h; subst h; exact ⟨hp, hh, rfl⟩
  | cons s ss ih =>
    obtain ⟨mid, hs, hr⟩ := run_cons_some h
    simp only [List.mem_cons, not_or] at hf
    have hmid : mid.phase = .receiving ∧ mid.holder = some .loop ∧ mid.written = st.written := by
      cases s with
      | timer => simp [step, hp] at hs
      | grant => simp [step, hh] at hs
      | frame => exact absurd rfl hf.1
      | handlerDone => simp [step, hp] at hs
      | send k => simp [step] at hs; subst hs; exact ⟨hp, hh, rfl⟩
      | handlerSend k => simp [step, hp] at hs
      | write => simp [step, hh] at hs
    have := ih mid hmid.1 hmid.2.1 hf.2 hr
    exact ⟨this.1, this.2.1, this.2.2.trans hmid.2.2⟩

/-- **C53 fails.** A message for an idle connection is not written, under any schedule, before the
client sends something. -/
theorem idle_violated : ¬ FullIdle := by
  intro h
  obtain ⟨ss, st', hf, hr, hk⟩ := h [.timer, .grant, .send 1] _ rfl 1 (by decide)
  have := receiving_stuck _ rfl rfl ss hf st' hr
  rw [this.2.2] at hk
  simp [init] at hk

/-- C53 in full, second part: a handler may send to the connection whose message it handles. -/
def FullReply : Prop :=
  ∀ steps st, run init steps = some st → ∀ k, st.phase = .handlerWaits k →
    ∃ ss st', run st ss = some st' ∧ k ∈ st'.written

/-- A handler that waits for its own reply blocks the connection for ever, under every schedule. -/
theorem reply_deadlock (st : St) (k : Nat) (hp : st.phase = .handlerWaits k)
    (hh : st.holder = some .loop) (hk : k ∉ st.written) (ss : List Step) (st' : St)
    (h : run st ss = some st') :
    st'.phase = .handlerWaits k ∧ st'.holder = some .loop ∧ st'.written = st.written := by
  induction ss generalizing st with
  | nil => simp only [run, Option.some.injEq] at h; subst h; exact ⟨hp, hh, rfl⟩
  | cons s ss ih =>
    obtain ⟨mid, hs, hr⟩ := run_cons_some h
    have hmid : mid.phase = .handlerWaits k ∧ mid.holder = some .loop ∧
        mid.written = st.written := by
      cases s with
      | timer => simp [step, hp] at hs
      | grant => simp [step, hh] at hs
      | frame => simp [step, hp] at hs
      | handlerDone => simp [step, hp, hk] at hs
      | send k => simp [step] at hs; subst hs; exact ⟨hp, hh, rfl⟩
      | handlerSend k => simp [step, hp] at hs
      | write => simp [step, hh] at hs
    have := ih mid hmid.1 hmid.2.1 (by rw [hmid.2.2]; exact hk) hr
    exact ⟨this.1, this.2.1, this.2.2.trans hmid.2.2⟩

/-- **C53 fails.** A handler that replies on its own connection deadlocks. -/
theorem reply_violated : ¬ FullReply := by
  intro h
  obtain ⟨ss, st', hr, hk⟩ := h [.timer, .grant, .frame, .handlerSend 1] _ rfl 1 rfl
  have := reply_deadlock _ 1 rfl rfl (by decide) ss st' hr
  rw [this.2.2] at hk
  simp [init] at hk

/-! ## What holds -/

/-- The lock is held by the loop exactly while it receives or handles; the loop is in the queue,
once, exactly while it waits for the lock. -/
structure Inv (st : St) : Prop where
  holder : st.holder = some .loop ↔ (st.phase ≠ .sleeping ∧ st.phase ≠ .queued)
  queued : st.queue.count .loop = if st.phase = .queued then 1 else 0

theorem inv_step (st st' : St) (s : Step) (hi : Inv st) (h : step st s = some st') : Inv st' := by
  obtain ⟨h1, h2⟩ := hi
  obtain ⟨ph, ho, q, w⟩ := st
  cases s with
  | timer =>
    cases ph <;> simp [step] at h
    subst h
    constructor
    · simpa using h1
    · simp at h2 ⊢
      omega
  | grant =>
    cases ho with
    | some x => simp [step] at h
    | none =>
      cases q with
      | nil => simp [step] at h
      | cons x q =>
        cases x with
        | loop =>
          simp [step] at h
          subst h
          constructor
          · simp
          · simp only [List.count_cons_self] at h2
            split at h2
            · simp; omega
            · omega
        | writer k =>
          simp [step] at h
          subst h
          constructor
          · simp at h1 ⊢; exact h1
          · simpa using h2
  | frame =>
    cases ph <;> simp [step] at h
    subst h
    constructor
    · simp at h1 ⊢; exact h1
    · simpa using h2
  | handlerDone =>
    cases ph <;> simp [step] at h
    · subst h
      constructor
      · simp
      · simpa using h2
    · obtain ⟨_, h⟩ := h
      subst h
      constructor
      · simp
      · simpa using h2
  | send k =>
    simp [step] at h
    subst h
    constructor
    · simpa using h1
    · simpa using h2
  | handlerSend k =>
    cases ph <;> simp [step] at h
    subst h
    constructor
    · simp at h1 ⊢; exact h1
    · simpa using h2
  | write =>
    cases ho with
    | none => simp [step] at h
    | some x =>
      cases x with
      | loop => simp [step] at h
      | writer k =>
        simp [step] at h
        subst h
        constructor
        · simp at h1 ⊢; exact h1
        · simpa using h2

theorem inv_run (st st' : St) (ss : List Step) (hi : Inv st) (h : run st ss = some st') :
    Inv st' := by
  induction ss generalizing st with
  | nil => simp only [run, Option.some.injEq] at h; subst h; exact hi
  | cons s ss ih =>
    obtain ⟨mid, hs, hr⟩ := run_cons_some h
    exact ih mid (inv_step _ _ _ hi hs) hr

theorem inv_init : Inv init := by
  constructor <;> simp [init]

/-- How many messages of the client can still be handled before message `k`, queued, is written: the
loop counts if it is receiving, or if it is ahead of `k` in the queue. -/
def budget (k : Nat) (st : St) : Nat :=
  if st.holder = some (.writer k) then 0
  else if st.phase = .receiving then 1
  else if .loop ∈ st.queue.takeWhile (fun w => w != .writer k) then 1 else 0

/-- `k` waits for the lock or has it. -/
def Pending (k : Nat) (st : St) : Prop := .writer k ∈ st.queue ∨ st.holder = some (.writer k)

theorem takeWhile_append_of_mem (k : Nat) (q r : List Who) (h : .writer k ∈ q) :
    (q ++ r).takeWhile (fun w => w != .writer k) = q.takeWhile (fun w => w != .writer k) := by
  induction q with
  | nil => simp at h
  | cons x q ih =>
    by_cases hx : x = .writer k
    · subst hx; simp
    · have hx' : (x != .writer k) = true := by simpa using hx
      simp only [List.mem_cons] at h
      rcases h with h | h
      · exact absurd h.symm hx
      · simp only [List.cons_append, List.takeWhile_cons, hx', if_true, ih h]

theorem no_loop_ahead (k : Nat) (st : St) (hi : Inv st) (hq : st.phase ≠ .queued) :
    .loop ∉ st.queue.takeWhile (fun w => w != .writer k) := by
  intro hm
  have h2 := hi.queued
  rw [if_neg hq] at h2
  exact List.count_eq_zero.mp h2 ((List.takeWhile_sublist _).subset hm)

/-- Appending to the queue of a waiting message does not raise its budget. -/
theorem budget_append (k : Nat) (st : St) (hp : Pending k st) (x : Who) (ph : Phase)
    (hr : ph ≠ .receiving) :
    budget k { st with phase := ph, queue := st.queue ++ [x] } ≤
      budget k { st with phase := ph } := by
  simp only [budget]
  rcases hp with hp | hp
  · rw [takeWhile_append_of_mem k _ _ hp]
    exact Nat.le_refl _
  · simp [hp]

/-- One step: the message is written, or it still waits and the budget pays for the messages of the
client. -/
theorem budget_step (k : Nat) (st st' : St) (s : Step) (hi : Inv st) (hp : Pending k st)
    (h : step st s = some st') :
    k ∈ st'.written ∨
      (Pending k st' ∧ budget k st' + (if s = .frame then 1 else 0) ≤ budget k st) := by
  have hi' := inv_step _ _ _ hi h
  cases s with
  | timer =>
    simp only [step] at h
    split at h
    · rename_i hph
      simp only [Option.some.injEq] at h
      subst h
      refine Or.inr ⟨?_, ?_⟩
      · rcases hp with hp | hp
        · exact Or.inl (List.mem_append_left _ hp)
        · exact Or.inr hp
      · have := budget_append k st hp .loop .queued (by simp)
        simp only [budget, hph] at this ⊢
        simpa using this
    · simp at h
  | grant =>
    simp only [step] at h
    split at h
    · rename_i q hho hq
      simp only [Option.some.injEq] at h
      subst h
      refine Or.inr ⟨?_, ?_⟩
      · rcases hp with hp | hp
        · rw [hq] at hp
          simp at hp
          exact Or.inl hp
        · rw [hho] at hp; simp at hp
      · simp [budget, hho, hq]
    · rename_i j q hho hq
      simp only [Option.some.injEq] at h
      subst h
      have hph : st.phase ≠ .receiving := by
        intro hph
        have := hi.holder.mpr (by simp [hph])
        rw [hho] at this
        simp at this
      by_cases hj : j = k
      · subst hj
        exact Or.inr ⟨Or.inr rfl, by simp [budget]⟩
      · refine Or.inr ⟨?_, ?_⟩
        · rcases hp with hp | hp
          · rw [hq] at hp
            simp only [List.mem_cons, Who.writer.injEq] at hp
            rcases hp with hp | hp
            · exact absurd hp.symm hj
            · exact Or.inl hp
          · rw [hho] at hp; simp at hp
        · have hx : (Who.writer j != Who.writer k) = true := by simpa using hj
          simp [budget, hho, hq, hj, List.takeWhile_cons, hx, hph]
    · simp at h
  | frame =>
    simp only [step] at h
    split at h
    · rename_i hph
      simp only [Option.some.injEq] at h
      subst h
      have hl : st.holder = some .loop := hi.holder.mpr (by simp [hph])
      have hno := no_loop_ahead k st hi (by simp [hph])
      refine Or.inr ⟨?_, ?_⟩
      · rcases hp with hp | hp
        · exact Or.inl hp
        · rw [hl] at hp; simp at hp
      · simp [budget, hl, hph, hno]
    · simp at h
  | handlerDone =>
    have key : ∀ st2 : St, st2 = { st with phase := .sleeping, holder := none } → Inv st2 →
        st.holder = some .loop →
        Pending k st2 ∧ budget k st2 + 0 ≤ budget k st := by
      rintro st2 rfl hi2 hl
      constructor
      · rcases hp with hp | hp
        · exact Or.inl hp
        · rw [hl] at hp; simp at hp
      · have hno := no_loop_ahead k _ hi2 (by simp)
        simp only at hno
        simp [budget, hno]
    simp only [step] at h
    split at h
    · rename_i hph
      simp only [Option.some.injEq] at h
      have := key st' h.symm hi' (hi.holder.mpr (by simp [hph]))
      exact Or.inr (by simpa using this)
    · rename_i j hph
      split at h
      · simp only [Option.some.injEq] at h
        have := key st' h.symm hi' (hi.holder.mpr (by simp [hph]))
        exact Or.inr (by simpa using this)
      · simp at h
    · simp at h
  | send j =>
    simp only [step, Option.some.injEq] at h
    subst h
    refine Or.inr ⟨?_, ?_⟩
    · rcases hp with hp | hp
      · exact Or.inl (List.mem_append_left _ hp)
      · exact Or.inr hp
    · by_cases hr : st.phase = .receiving
      · simp [budget, hr]
      · simpa using budget_append k st hp (.writer j) st.phase hr
  | handlerSend j =>
    simp only [step] at h
    split at h
    · rename_i hph
      simp only [Option.some.injEq] at h
      subst h
      refine Or.inr ⟨?_, ?_⟩
      · rcases hp with hp | hp
        · exact Or.inl (List.mem_append_left _ hp)
        · exact Or.inr hp
      · have := budget_append k st hp (.writer j) (.handlerWaits j) (by simp)
        simp only [budget, hph] at this ⊢
        simpa using this
    · simp at h
  | write =>
    simp only [step] at h
    split at h
    · rename_i j hho
      simp only [Option.some.injEq] at h
      subst h
      by_cases hj : j = k
      · subst hj
        exact Or.inl (by simp)
      · refine Or.inr ⟨?_, ?_⟩
        · rcases hp with hp | hp
          · exact Or.inl hp
          · rw [hho] at hp
            simp at hp
            exact absurd hp hj
        · simp [budget, hho, hj]
    · simp at h

theorem written_mono (st st' : St) (s : Step) (h : step st s = some st') (k : Nat)
    (hk : k ∈ st.written) : k ∈ st'.written := by
  obtain ⟨ph, ho, q, w⟩ := st
  cases s with
  | timer => cases ph <;> simp [step] at h; subst h; exact hk
  | grant =>
    rcases ho with _ | x <;> rcases q with _ | ⟨y, q⟩ <;> simp [step] at h
    cases y <;> simp at h <;> subst h <;> exact hk
  | frame => cases ph <;> simp [step] at h; subst h; exact hk
  | handlerDone =>
    cases ph <;> simp [step] at h
    · subst h; exact hk
    · obtain ⟨_, h⟩ := h; subst h; exact hk
  | send j => simp [step] at h; subst h; exact hk
  | handlerSend j => cases ph <;> simp [step] at h; subst h; exact hk
  | write =>
    rcases ho with _ | x
    · simp [step] at h
    · cases x <;> simp [step] at h
      subst h
      exact List.mem_append_left _ hk

theorem written_mono_run (st st' : St) (ss : List Step) (h : run st ss = some st') (k : Nat)
    (hk : k ∈ st.written) : k ∈ st'.written := by
  induction ss generalizing st with
  | nil => simp only [run, Option.some.injEq] at h; subst h; exact hk
  | cons s ss ih =>
    obtain ⟨mid, hs, hr⟩ := run_cons_some h
    exact ih mid hr (written_mono _ _ _ hs k hk)

/-- **C53, the part that holds.** Writers are not overtaken: after a message has been requested to be
written, under every schedule at most one message of the client is handled before it is written. -/
theorem push_overtaken_once_partial (steps : List Step) (st : St)
    (hr : run init steps = some st) (k : Nat) (hk : Pending k st) (ss : List Step) (st' : St)
    (h : run st ss = some st') (hn : k ∉ st'.written) : ss.count .frame ≤ 1 := by
  have hb : budget k st ≤ 1 := by
    simp only [budget]
    split
    · omega
    · split
      · omega
      · split <;> omega
  have hi := inv_run _ _ _ inv_init hr
  have : ss.count .frame ≤ budget k st := by
    clear hr hb
    induction ss generalizing st with
    | nil => simp
    | cons s ss ih =>
      obtain ⟨mid, hs, hrest⟩ := run_cons_some h
      rcases budget_step k st mid s hi hk hs with hw | ⟨hp, hle⟩
      · exact absurd (written_mono_run _ _ _ hrest k hw) hn
      · have := ih mid hp hrest (inv_step _ _ _ hi hs)
        rw [List.count_cons]
        by_cases hf : s = .frame
        · subst hf
          simp at hle ⊢
          omega
        · have : (s == Step.frame) = false := by simpa using hf
          simp [hf, this] at hle ⊢
          omega
  omega

/-- With the lock free or held by a writer and no loop in the queue, granting and writing empties
the queue. -/
theorem drain (st : St) (hl : .loop ∉ st.queue) (hh : st.holder ≠ some .loop) :
    ∃ ss st', .frame ∉ ss ∧ run st ss = some st' ∧
      ∀ k, Pending k st → k ∈ st'.written := by
  obtain ⟨ph, ho, q, w⟩ := st
  induction q generalizing ho w with
  | nil =>
    cases ho with
    | none => exact ⟨[], _, by simp, rfl, by simp [Pending]⟩
    | some x =>
      cases x with
      | loop => simp at hh
      | writer j =>
        refine ⟨[.write], _, by simp, rfl, ?_⟩
        intro k hk
        simp [Pending] at hk
        simp [hk]
  | cons x q ih =>
    cases x with
    | loop => simp at hl
    | writer i =>
      have hl' : .loop ∉ q := fun hm => hl (List.mem_cons_of_mem _ hm)
      cases ho with
      | none =>
        obtain ⟨ss, st', hf, hr, hk⟩ := ih (some (.writer i)) w hl' (by simp)
        refine ⟨.grant :: ss, st', by simp [hf], by simp [run, step]; exact hr, ?_⟩
        intro k hp
        apply hk
        simp [Pending] at hp ⊢
        rcases hp with rfl | hp
        · exact Or.inr rfl
        · exact Or.inl hp
      | some y =>
        cases y with
        | loop => simp at hh
        | writer j =>
          obtain ⟨ss, st', hf, hr, hk⟩ := ih (some (.writer i)) (w ++ [j]) hl' (by simp)
          have hr' : run ⟨ph, some (.writer j), .writer i :: q, w⟩ (.write :: .grant :: ss) =
              some st' := by
            simp [run, step]; exact hr
          refine ⟨.write :: .grant :: ss, st', by simp [hf], hr', ?_⟩
          intro k hp
          simp [Pending] at hp
          rcases hp with (rfl | hp) | rfl
          · exact hk _ (Or.inr rfl)
          · exact hk _ (Or.inl hp)
          · exact written_mono_run _ _ _ hr _ (by simp)

/-- **C53, the part that holds.** Between two messages of the client, while the loop sleeps, every
waiting message can be written without the client sending anything.

Missing: pushing while the loop waits for a message (`idle_violated`) and replies from the handler
of a message on the same connection (`reply_violated`). -/
theorem push_while_sleeping_partial (steps : List Step) (st : St)
    (hr : run init steps = some st) (hp : st.phase = .sleeping) :
    ∃ ss st', .frame ∉ ss ∧ run st ss = some st' ∧ ∀ k, Pending k st → k ∈ st'.written := by
  have hi := inv_run _ _ _ inv_init hr
  apply drain
  · have := hi.queued
    rw [if_neg (by simp [hp])] at this
    exact List.count_eq_zero.mp this
  · intro hh
    exact (hi.holder.mp hh).1 hp

/-- The messages requested to be written, in order. -/
def requested : List Step → List Nat
  | [] => []
  | .send k :: ss => k :: requested ss
  | .handlerSend k :: ss => k :: requested ss
  | _ :: ss => requested ss

/-- The messages of the writers in a list of lock requests. -/
def writers : List Who → List Nat
  | [] => []
  | .loop :: q => writers q
  | .writer k :: q => k :: writers q

theorem writers_append (a b : List Who) : writers (a ++ b) = writers a ++ writers b := by
  induction a with
  | nil => rfl
  | cons x a ih => cases x <;> simp [writers, ih]

theorem pushes_in_order_from (st : St) (ss : List Step) (st' : St) (hi : Inv st)
    (h : run st ss = some st') :
    st'.written ++ writers st'.holder.toList ++ writers st'.queue =
      st.written ++ writers st.holder.toList ++ writers st.queue ++ requested ss := by
  induction ss generalizing st with
  | nil => simp only [run, Option.some.injEq] at h; subst h; simp [requested]
  | cons s ss ih =>
    obtain ⟨mid, hs, hr⟩ := run_cons_some h
    rw [ih mid (inv_step _ _ _ hi hs) hr]
    obtain ⟨ph, ho, q, w⟩ := st
    cases s with
    | timer =>
      cases ph <;> simp [step] at hs
      subst hs
      simp [requested, writers_append, writers]
    | grant =>
      rcases ho with _ | x <;> rcases q with _ | ⟨y, q⟩ <;> simp [step] at hs
      cases y <;> simp at hs <;> subst hs <;> simp [requested, writers]
    | frame => cases ph <;> simp [step] at hs; subst hs; simp [requested]
    | handlerDone =>
      have hho : ho = some .loop := by
        have := hi.holder
        cases ph <;> simp [step] at hs <;> simpa using this
      subst hho
      cases ph <;> simp [step] at hs
      · subst hs; simp [requested, writers]
      · obtain ⟨_, hs⟩ := hs; subst hs; simp [requested, writers]
    | send j => simp [step] at hs; subst hs; simp [requested, writers_append, writers]
    | handlerSend j =>
      cases ph <;> simp [step] at hs
      subst hs
      simp [requested, writers_append, writers]
    | write =>
      rcases ho with _ | x
      · simp [step] at hs
      · cases x <;> simp [step] at hs
        subst hs
        simp [requested, writers]

/-- **C53, the part that holds.** Messages are written in the order in which they were requested,
each once and none is lost: under every schedule, the messages written, the one whose writer has the
lock and those waiting are together the messages requested, in order. -/
theorem pushes_in_order_partial (ss : List Step) (st : St) (h : run init ss = some st) :
    st.written ++ writers st.holder.toList ++ writers st.queue = requested ss := by
  have key := pushes_in_order_from init ss st inv_init h
  simpa [init, writers] using key


/-- Message 1 is requested while the loop waits for the lock; the client is served once and then the
message is written. -/
example : ∃ st, run init [.timer, .send 1, .grant, .frame, .handlerDone, .timer] = some st ∧
    Pending 1 st ∧ run st [.grant, .write] =
      some ⟨.queued, none, [.loop], [1]⟩ := ⟨_, rfl, by simp [Pending], rfl⟩

example : ∃ st, run init [.timer, .grant, .send 1, .frame, .handlerDone] = some st ∧
    st.phase = .sleeping ∧ Pending 1 st := ⟨_, rfl, rfl, by simp [Pending]⟩

end Verif.WebSocket.Lock
