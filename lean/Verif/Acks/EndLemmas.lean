import Verif.Acks.WaitLemmas

namespace Verif.Acks.Wait

open Verif.Acks Spec

/-- A waiting call has its request in the channel, its task, or its reply; pending entries have a
time. -/
structure Served (st : Reg) : Prop where
  wait : ∀ (n : Nat) r, st.calls[n]? = some ⟨r, .waiting⟩ →
    ToWorker.wait r.id n ∈ st.chan ∨ (n, r.id) ∈ st.waiters ∨ ∃ s, (n, s) ∈ st.replies
  time : ∀ id e, st.worker.acks.lookup id = some e → (∃ m c, e.status = .pending m c) →
    ∃ l, e.last = some l

theorem served_init (conns : List String) : Served { installed := true, conns := conns } :=
  ⟨(fun n r h => by simp at h), (fun id e h => by simp [State.init] at h)⟩

theorem Served.tell {st : Reg} (h : Served st) (m : ToWorker) : Served (st.tell m) := by
  unfold Reg.tell
  split
  · refine ⟨fun n r hn => ?_, h.time⟩
    exact (h.wait n r hn).imp (List.mem_append_left _) (fun x => x)
  · exact h

/-- A call goes on to a stage other than waiting. -/
theorem Served.set {st : Reg} (h : Served st) (k : Nat) (r : Request) (g : Stage)
    (hg : g ≠ .waiting) (bs : List Broadcast) :
    Served { st with calls := st.calls.set k ⟨r, g⟩, broadcasts := bs } := by
  refine ⟨fun n r' hn => ?_, h.time⟩
  have hn : (st.calls.set k ⟨r, g⟩)[n]? = some ⟨r', .waiting⟩ := hn
  by_cases e : k = n
  · subst e
    by_cases hlt : k < st.calls.length
    · rw [List.getElem?_set_self hlt] at hn
      injection hn with hn
      injection hn with _ e
      exact (hg e).elim
    · rw [List.getElem?_eq_none_iff.mpr (by rw [List.length_set]; omega)] at hn
      cases hn
  · rw [List.getElem?_set_ne e] at hn
    exact h.wait n r' hn

theorem Served.add {st : Reg} (h : Served st) (r : Request) (g : Stage) (hg : g ≠ .waiting)
    (cs : List Call) (hc : cs = st.calls) (ws : List (String × String)) :
    Served { st with calls := cs ++ [⟨r, g⟩], writes := ws } := by
  subst hc
  refine ⟨fun n r' hn => ?_, h.time⟩
  have hn : (st.calls ++ [⟨r, g⟩])[n]? = some ⟨r', .waiting⟩ := hn
  rw [List.getElem?_append] at hn
  split at hn
  · exact h.wait n r' hn
  · have e := List.mem_singleton.mp (List.mem_of_getElem? hn)
    injection e with _ e
    exact (hg e.symm).elim

theorem Served.step {st : Reg} (h : Served st) (su : Setup) (op : Op) : Served (step su st op) := by
  cases op with
  | install =>
    simp only [Wait.step]
    split
    · exact ⟨h.wait, h.time⟩
    · exact h
  | connect c => exact ⟨h.wait, h.time⟩
  | disconnect c => exact ⟨h.wait, h.time⟩
  | call r ok =>
    simp only [Wait.step, Reg.call]
    split
    · exact h.add r (.done _) nofun _ rfl _
    · split
      · exact (h.tell _).add r .recorded nofun _ (tell_rest st _).2.2.symm _
      · exact h.add r (.done _) nofun _ rfl st.writes
  | publish n =>
    simp only [Wait.step, Reg.publish]
    split
    · exact h.set n _ _ (by split <;> nofun) _
    · exact h
  | await n =>
    simp only [Wait.step, Reg.await]
    split
    · rename_i r hn
      split
      · rename_i hi
        rw [tell_installed hi]
        refine ⟨fun k r' hk => ?_, h.time⟩
        have hk : (st.calls.set n ⟨r, .waiting⟩)[k]? = some ⟨r', .waiting⟩ := hk
        by_cases e : n = k
        · subst e
          rw [List.getElem?_set_self (List.getElem?_eq_some_iff.mp hn).1] at hk
          injection hk with hk
          injection hk with e _
          rw [← e]
          exact .inl (List.mem_append_right _ (List.mem_singleton.mpr rfl))
        · rw [List.getElem?_set_ne e] at hk
          exact (h.wait k r' hk).imp (List.mem_append_left _) (fun x => x)
      · exact h.set n _ (.done _) nofun st.broadcasts
    · exact h
  | resume n =>
    simp only [Wait.step, Reg.resume]
    split
    · split
      · exact h.set n _ (.done _) nofun st.broadcasts
      · exact h
    · exact h
  | ack id => exact h.tell _
  | work now =>
    simp only [Wait.step, Reg.work]
    split
    · exact h
    · rename_i id s rest he
      refine ⟨fun n r hn => ?_, ?_⟩
      · rcases h.wait n r hn with hw | hw
        · rw [he] at hw
          rcases List.mem_cons.mp hw with hw | hw
          · cases hw
          · exact .inl hw
        · exact .inr hw
      · intro i e hi ⟨m, c, hp⟩
        have hi : (recordAck st.worker.acks id s now).lookup i = some e := hi
        by_cases x : i = id
        · subst x
          obtain ⟨e0, h1, h2, h3⟩ := recordAck_lookup_self st.worker.acks i s now
          rw [h1] at hi
          injection hi with hi
          subst hi
          exact ⟨now, h3 m c (by rw [← h2, hp])⟩
        · rw [recordAck_lookup_ne _ _ _ _ _ x] at hi
          exact h.time i e hi ⟨m, c, hp⟩
    · rename_i id k rest he
      refine ⟨fun n r hn => ?_, h.time⟩
      rcases h.wait n r hn with hw | hw | hw
      · rw [he] at hw
        rcases List.mem_cons.mp hw with hw | hw
        · injection hw with e1 e2
          rw [e1, e2]
          exact .inr (.inl (List.mem_append_right _ (List.mem_singleton.mpr rfl)))
        · exact .inl hw
      · exact .inr (.inl (List.mem_append_left _ hw))
      · exact .inr (.inr hw)
  | check now =>
    simp only [Wait.step, Acks.step]
    split <;> exact ⟨h.wait, h.time⟩
  | emit =>
    simp only [Wait.step, Acks.step]
    split
    · exact h
    · rename_i a rest ht
      refine ⟨h.wait, ?_⟩
      cases a with
      | resend c i m l => exact h.time
      | lost j l =>
        intro i e hi
        have hi : (mapRemove j st.worker.acks).lookup i = some e := hi
        by_cases x : i = j
        · subst x; rw [lookup_remove_self] at hi; cases hi
        · rw [lookup_remove_ne _ _ _ x] at hi
          exact h.time i e hi
  | react b =>
    simp only [Wait.step, Reg.react]
    split
    · exact h
    · split
      · exact h
      · rename_i c id m inform he
        split
        · exact ⟨h.wait, h.time⟩
        · have := h.tell (.status id (.pending m inform))
          exact ⟨this.wait, this.time⟩
      · exact ⟨h.wait, h.time⟩
  | poll k =>
    have rep : ∀ s, Served { st with
        waiters := st.waiters.filter (fun w => w.1 != k), replies := st.replies ++ [(k, s)] } := by
      intro s
      refine ⟨fun n r hn => ?_, h.time⟩
      rcases h.wait n r hn with hw | hw | ⟨s', hw⟩
      · exact .inl hw
      · by_cases e : n = k
        · exact .inr (.inr ⟨s, List.mem_append_right _ (by rw [e]; exact List.mem_singleton.mpr rfl)⟩)
        · exact .inr (.inl (List.mem_filter.mpr ⟨hw, by simpa using e⟩))
      · exact .inr (.inr ⟨s', List.mem_append_left _ hw⟩)
    simp only [Wait.step, Reg.poll]
    split
    · exact h
    · split
      · split
        · exact h
        · exact rep _
      · exact rep _

theorem Served.run (su : Setup) (ops : List Op) : ∀ st, Served st → Served (run su st ops) := by
  induction ops with
  | nil => exact fun _ h => h
  | cons op ops ih => exact fun st h => ih _ (h.step su op)

/-! ## Draining -/

/-- Fields that the sending of actions, the reactions and the worker leave alone. -/
structure Same (st st' : Reg) : Prop where
  calls : st'.calls = st.calls
  conns : st'.conns = st.conns
  dead : st'.dead = st.dead
  installed : st'.installed = st.installed
  replies : st'.replies = st.replies

theorem Same.refl (st : Reg) : Same st st := ⟨rfl, rfl, rfl, rfl, rfl⟩

theorem Same.trans {a b c : Reg} (h : Same a b) (k : Same b c) : Same a c :=
  ⟨k.calls.trans h.calls, k.conns.trans h.conns, k.dead.trans h.dead,
    k.installed.trans h.installed, k.replies.trans h.replies⟩

theorem run_emits (su : Setup) (l : List Action) : ∀ st : Reg, st.worker.todo = l →
    ∃ st', run su st (List.replicate l.length .emit) = st' ∧ Same st st' ∧ st'.chan = st.chan ∧
      st'.handled = st.handled ∧ st'.worker.todo = [] ∧
      st'.worker.emitted = st.worker.emitted ++ l ∧
      (∀ id, (∀ cl, Action.lost id cl ∉ l) →
        st'.worker.acks.lookup id = st.worker.acks.lookup id) ∧
      (∀ id cl, Action.lost id cl ∈ l → st'.worker.acks.lookup id = none) := by
  induction l with
  | nil =>
    intro st ht
    exact ⟨st, rfl, .refl st, rfl, rfl, ht, (List.append_nil _).symm, fun _ _ => rfl, nofun⟩
  | cons a l ih =>
    intro st ht
    have hstep : step su st .emit = { st with worker :=
        ⟨(match a with | .lost i _ => mapRemove i st.worker.acks | .resend _ _ _ _ => st.worker.acks),
          l, st.worker.emitted ++ [a]⟩ } := by
      simp only [step, Acks.step, ht]
      cases a <;> rfl
    have hrun : run su st (List.replicate (a :: l).length .emit) =
        run su (step su st .emit) (List.replicate l.length .emit) := rfl
    rw [hrun]
    obtain ⟨st', h0, h1, h2, h3, h4, h5, h6, h7⟩ := ih (step su st .emit) (by rw [hstep])
    refine ⟨st', h0, Same.trans (b := step su st .emit) ⟨rfl, rfl, rfl, rfl, rfl⟩ h1, h2, h3, h4, ?_, ?_, ?_⟩
    · rw [h5, hstep, List.append_assoc]; rfl
    · intro id hl
      rw [h6 id (fun cl hc => hl cl (.tail _ hc)), hstep]
      cases a with
      | resend c i m l' => rfl
      | lost j l' =>
        refine lookup_remove_ne _ _ _ fun e => ?_
        exact hl l' (by rw [e]; exact .head _)
    · intro id cl hl
      by_cases hin : ∃ cl, Action.lost id cl ∈ l
      · obtain ⟨cl', hin⟩ := hin
        exact h7 id cl' hin
      · rw [h6 id (fun cl hc => hin ⟨cl, hc⟩), hstep]
        rcases List.mem_cons.mp hl with hl | hl
        · subst hl
          exact lookup_remove_self _ _
        · exact (hin ⟨cl, hl⟩).elim

/-- Statuses of pending messages only. -/
def AllPending (l : List ToWorker) : Prop :=
  ∀ x ∈ l, ∃ id m c, x = .status id (.pending m c)

theorem run_reacts (su : Setup) (k : Nat) : ∀ st : Reg, st.dead = false → st.installed = true →
    st.handled + k = st.worker.emitted.length →
    ∃ st' extra, run su st (List.replicate k (.react [])) = st' ∧ Same st st' ∧
      st'.worker = st.worker ∧ st'.handled = st'.worker.emitted.length ∧
      st'.chan = st.chan ++ extra ∧ AllPending extra ∧
      (∀ c id m l, Action.resend c id m l ∈ st.worker.emitted.drop st.handled →
        st.conns.contains c = false → ToWorker.status id (.pending m l) ∈ extra) := by
  induction k with
  | zero =>
    intro st hd hi hk
    refine ⟨st, [], rfl, .refl st, rfl, by omega, (List.append_nil _).symm, nofun, ?_⟩
    intro c id m l hm
    rw [List.drop_of_length_le (by omega)] at hm
    cases hm
  | succ k ih =>
    intro st hd hi hk
    have hrun : run su st (List.replicate (k + 1) (.react [])) =
        run su (st.react []) (List.replicate k (.react [])) := rfl
    rw [hrun]
    have hlt : st.handled < st.worker.emitted.length := by omega
    have he : st.worker.emitted[st.handled]? = some st.worker.emitted[st.handled] :=
      List.getElem?_eq_getElem hlt
    have hdrop : st.worker.emitted.drop st.handled =
        st.worker.emitted[st.handled] :: st.worker.emitted.drop (st.handled + 1) :=
      List.drop_eq_getElem_cons hlt
    have key : ∃ first, Same st (st.react []) ∧ (st.react []).worker = st.worker ∧
        (st.react []).handled = st.handled + 1 ∧ (st.react []).chan = st.chan ++ first ∧
        AllPending first ∧ (∀ c id m l, st.worker.emitted[st.handled] = .resend c id m l →
          st.conns.contains c = false → ToWorker.status id (.pending m l) ∈ first) := by
      unfold Reg.react
      rw [if_neg (by rw [hd]; nofun), he]
      cases ha : st.worker.emitted[st.handled] with
      | resend c id m l =>
        dsimp only
        split
        · rename_i hc
          refine ⟨[], ⟨rfl, rfl, rfl, rfl, rfl⟩, rfl, rfl, (List.append_nil _).symm, nofun, ?_⟩
          intro c' id' m' l' e hc'
          injection e with e1
          rw [← e1, hc] at hc'
          cases hc'
        · rw [tell_installed hi]
          refine ⟨[_], ⟨rfl, rfl, rfl, rfl, rfl⟩, rfl, rfl, rfl, ?_, ?_⟩
          · intro x hx
            exact ⟨_, _, _, List.mem_singleton.mp hx⟩
          · intro c' id' m' l' e _
            injection e with e1 e2 e3 e4
            rw [← e2, ← e3, ← e4]
            exact List.mem_singleton.mpr rfl
      | lost id cl =>
        refine ⟨[], ⟨rfl, rfl, ?_, rfl, rfl⟩, rfl, rfl, (List.append_nil _).symm, nofun, nofun⟩
        show (notify st.conns [] id cl).2 = st.dead
        rw [notify_healthy, hd]
    obtain ⟨first, s1, s2, s3, s4, s5, s6⟩ := key
    obtain ⟨st', extra, h0, h1, h2, h3, h4, h5, h6⟩ := ih (st.react []) (s1.dead.trans hd)
      (s1.installed.trans hi) (by rw [s3, s2]; omega)
    refine ⟨st', first ++ extra, h0, s1.trans h1, h2.trans s2, h3, by rw [h4, s4, List.append_assoc],
      ?_, ?_⟩
    · intro x hx
      rcases List.mem_append.mp hx with hx | hx
      · exact s5 x hx
      · exact h5 x hx
    · intro c id m l hm hc
      rw [hdrop] at hm
      rcases List.mem_cons.mp hm with hm | hm
      · exact List.mem_append_left _ (s6 c id m l hm.symm hc)
      · refine List.mem_append_right _ (h6 c id m l ?_ (by rw [s1.conns]; exact hc))
        rw [s2, s3]; exact hm

/-- Entry of a pending message with at least so many attempts. -/
def AtLeast (st : Reg) (id : String) (a : Nat) : Prop :=
  ∃ e, st.worker.acks.lookup id = some e ∧ (∃ m c, e.status = .pending m c) ∧ a ≤ e.attempts

theorem run_works (su : Setup) (t : Nat) (l : List ToWorker) : ∀ st : Reg, st.chan = l →
    ∃ st', run su st (List.replicate l.length (.work t)) = st' ∧ Same st st' ∧ st'.chan = [] ∧
      st'.handled = st.handled ∧ st'.worker.todo = st.worker.todo ∧
      st'.worker.emitted = st.worker.emitted ∧
      (AllPending l → ∀ id a, AtLeast st id a →
        AtLeast st' id (a + l.countP (isPending id))) := by
  induction l with
  | nil =>
    intro st hc
    exact ⟨st, rfl, .refl st, hc, rfl, rfl, rfl, fun _ _ _ h => h⟩
  | cons x l ih =>
    intro st hc
    have hrun : run su st (List.replicate (x :: l).length (.work t)) =
        run su (st.work su t) (List.replicate l.length (.work t)) := rfl
    rw [hrun]
    have key : Same st (st.work su t) ∧ (st.work su t).chan = l ∧
        (st.work su t).handled = st.handled ∧ (st.work su t).worker.todo = st.worker.todo ∧
        (st.work su t).worker.emitted = st.worker.emitted ∧
        ((∃ i m c, x = .status i (.pending m c)) → ∀ id a, AtLeast st id a →
          AtLeast (st.work su t) id (a + if isPending id x then 1 else 0)) := by
      unfold Reg.work
      rw [hc]
      cases x with
      | wait i n => exact ⟨⟨rfl, rfl, rfl, rfl, rfl⟩, rfl, rfl, rfl, rfl, nofun⟩
      | status i s =>
        refine ⟨⟨rfl, rfl, rfl, rfl, rfl⟩, rfl, rfl, rfl, rfl, ?_⟩
        intro ⟨i', m, c, e⟩ id a ⟨en, h1, h2, h3⟩
        injection e with e1 e2
        subst e1 e2
        by_cases hx : id = i
        · subst hx
          refine ⟨⟨.pending m c, attemptsOf st.worker.acks id + 1, some t⟩, ?_, ⟨m, c, rfl⟩, ?_⟩
          · show (recordAck st.worker.acks id (.pending m c) t).lookup id = _
            rw [recordAck_pending, lookup_insert_self]
          · simp only [attemptsOf, h1, isPending, beq_self_eq_true, if_true]
            omega
        · refine ⟨en, ?_, h2, ?_⟩
          · show (recordAck st.worker.acks i (.pending m c) t).lookup id = _
            rw [recordAck_lookup_ne _ _ _ _ _ hx, h1]
          · have : (i == id) = false := by simpa using fun e : i = id => hx e.symm
            simp only [isPending, this]
            simpa using h3
    obtain ⟨k1, k2, k3, k4, k5, k6⟩ := key
    obtain ⟨st', h0, h1, h2, h3, h4, h5, h6⟩ := ih (st.work su t) k2
    refine ⟨st', h0, k1.trans h1, h2, h3.trans k3, h4.trans k4, h5.trans k5, ?_⟩
    intro hp id a ha
    have := h6 (fun y hy => hp y (.tail _ hy)) id _ (k6 (hp x (.head _)) id a ha)
    rw [List.countP_cons, Nat.add_comm (l.countP _), ← Nat.add_assoc]
    exact this

/-- The call can return by what the tasks do by themselves. -/
def Ends (su : Setup) (st : Reg) (n : Nat) : Prop :=
  ∃ ops, (∀ op ∈ ops, Internal op) ∧ outcome (run su st ops) n ≠ none

theorem Ends.after {su : Setup} {st : Reg} {n : Nat} (ops : List Op) (hi : ∀ op ∈ ops, Internal op)
    (h : Ends su (run su st ops) n) : Ends su st n := by
  obtain ⟨more, h1, h2⟩ := h
  refine ⟨ops ++ more, ?_, by rw [run_append]; exact h2⟩
  intro op ho
  rcases List.mem_append.mp ho with ho | ho
  · exact hi op ho
  · exact h1 op ho

theorem internal_replicate {op : Op} (h : Internal op) (k : Nat) :
    ∀ o ∈ List.replicate k op, Internal o := by
  intro o ho
  rw [(List.mem_replicate.mp ho).2]
  exact h

theorem internal_silent {A : String → Prop} {op : Op} (h : Internal op) : ∀ id, op = .ack id → A id := by
  intro id e
  subst e
  exact h.elim

/-- What holds throughout. -/
structure Fine (A : String → Prop) (su : Setup) (n : Nat) (r : Request) (st : Reg) : Prop where
  inv : Inv A st
  counted : Counted su st
  served : Served st
  call : st.calls[n]? = some ⟨r, .waiting⟩
  alive : st.dead = false
  address : st.conns.contains r.id = false

theorem Fine.go {A : String → Prop} {su : Setup} (hb : su.broadcaster = true) {n : Nat} {r : Request}
    {st : Reg} (h : Fine A su n r st) (ops : List Op) (hi : ∀ op ∈ ops, Internal op) (st' : Reg)
    (e : run su st ops = st') (hs : Same st st') : Fine A su n r st' := by
  refine ⟨?_, ?_, ?_, by rw [hs.calls]; exact h.call, hs.dead.trans h.alive,
    by rw [hs.conns]; exact h.address⟩
  · rw [← e]
    exact Inv.run su hb ops _ h.inv (fun id ha => (hi _ ha).elim)
  · rw [← e]; exact Counted.run ops _ h.counted
  · rw [← e]; exact Served.run su ops _ h.served

/-- Nothing is under way. -/
structure Idle (st : Reg) : Prop where
  chan : st.chan = []
  todo : st.worker.todo = []
  handled : st.handled = st.worker.emitted.length

/-- Sending the actions computed, reacting to them and working off the channel. -/
theorem settle {A : String → Prop} {su : Setup} (hb : su.broadcaster = true) {n : Nat} {r : Request}
    {st : Reg} (h : Fine A su n r st) (hl : st.handled ≤ st.worker.emitted.length) :
    ∃ ops st', (∀ op ∈ ops, Internal op) ∧ run su st ops = st' ∧ Fine A su n r st' ∧ Idle st' ∧
      (∀ a m l, AtLeast st r.id a → st.chan = [] → (∀ cl, Action.lost r.id cl ∉ st.worker.todo) →
        Action.resend r.id r.id m l ∈ st.worker.todo → AtLeast st' r.id (a + 1)) := by
  obtain ⟨s1, e1, a1, a2, a3, a4, a5, a6, a7⟩ := run_emits su _ st rfl
  have f1 := h.go hb _ (internal_replicate (op := .emit) trivial _) s1 e1 a1
  obtain ⟨s2, extra, e2, b1, b2, b3, b4, b5, b6⟩ := run_reacts su
    (s1.worker.emitted.length - s1.handled) s1 f1.alive f1.inv.installed
    (by rw [a3, a5, List.length_append]; omega)
  have f2 := f1.go hb _ (internal_replicate (op := .react []) rfl _) s2 e2 b1
  obtain ⟨s3, e3, c1, c2, c3, c4, c5, c6⟩ := run_works su 0 _ s2 rfl
  have f3 := f2.go hb _ (internal_replicate (op := .work 0) trivial _) s3 e3 c1
  refine ⟨List.replicate st.worker.todo.length .emit ++
    (List.replicate (s1.worker.emitted.length - s1.handled) (.react []) ++
      List.replicate s2.chan.length (.work 0)), s3, ?_, ?_, f3, ?_, ?_⟩
  · intro op ho
    rcases List.mem_append.mp ho with ho | ho
    · exact internal_replicate (op := .emit) trivial _ op ho
    · rcases List.mem_append.mp ho with ho | ho
      · exact internal_replicate (op := .react []) rfl _ op ho
      · exact internal_replicate (op := .work 0) trivial _ op ho
  · rw [run_append, e1, run_append, e2, e3]
  · refine ⟨c2, ?_, ?_⟩
    · rw [c4, b2]; exact a4
    · rw [c3, b3, c5]
  · intro a m l ⟨e, h1, h2, h3⟩ hch hnl hre
    have hat : AtLeast s2 r.id a := by
      refine ⟨e, ?_, h2, h3⟩
      rw [b2, a6 r.id hnl]
      exact h1
    have hchan : s2.chan = extra := by rw [b4, a2, hch]; rfl
    have hmem := b6 r.id r.id m l
      (by
        rw [a5, a3, List.drop_append_of_le_length hl]
        exact List.mem_append_right _ hre)
      (by rw [a1.conns]; exact h.address)
    have := c6 (by rw [hchan]; exact b5) r.id a hat
    obtain ⟨e', g1, g2, g3⟩ := this
    refine ⟨e', g1, g2, ?_⟩
    have hpos : 0 < s2.chan.countP (isPending r.id) := by
      rw [hchan, List.countP_pos_iff]
      exact ⟨_, hmem, by simp [isPending]⟩
    omega

theorem lookup_isSome_of_mem {β : Type} {l : List (Nat × β)} {k : Nat} {v : β} (h : (k, v) ∈ l) :
    ∃ w, l.lookup k = some w := by
  induction l with
  | nil => cases h
  | cons x l ih =>
    obtain ⟨a, b⟩ := x
    rw [List.lookup_cons]
    cases e : k == a with
    | true => exact ⟨b, rfl⟩
    | false =>
      rcases List.mem_cons.mp h with h | h
      · injection h with h1 _
        rw [h1] at e
        simp at e
      · exact ih h

/-- Once the entry is gone or not pending any more, the call returns. -/
theorem ends_now {A : String → Prop} {su : Setup} {n : Nat} {r : Request} {st : Reg}
    (h : Fine A su n r st) (hc : st.chan = [])
    (hp : ∀ e, st.worker.acks.lookup r.id = some e → ∀ m c, e.status ≠ .pending m c) :
    Ends su st n := by
  have hn := (List.getElem?_eq_some_iff.mp h.call).1
  have fin : ∀ st' : Reg, st'.calls = st.calls → (∃ s, st'.replies.lookup n = some s) →
      outcome (st'.resume n) n ≠ none := by
    intro st' hcalls ⟨s, hs⟩
    unfold Reg.resume
    rw [hcalls, h.call]
    dsimp only
    rw [hs]
    unfold outcome
    dsimp only
    rw [List.getElem?_set_self hn]
    nofun
  rcases h.served.wait n r h.call with hw | hw | ⟨s, hw⟩
  · rw [hc] at hw; cases hw
  · refine ⟨[.poll n, .resume n], ?_, ?_⟩
    · intro op ho
      rcases List.mem_cons.mp ho with ho | ho
      · subst ho; trivial
      · rw [List.mem_singleton.mp ho]; trivial
    · show outcome ((st.poll n).resume n) n ≠ none
      obtain ⟨i, hi⟩ := lookup_isSome_of_mem hw
      obtain ⟨⟨c, g1, g2⟩, _⟩ := h.inv.waiters n i (mem_of_lookup hi)
      rw [h.call] at g1
      injection g1 with g1
      subst g1
      have g2 : r.id = i := g2
      subst g2
      have hrep : ∀ s, ∃ s', (st.replies ++ [(n, s)]).lookup n = some s' :=
        fun s => lookup_isSome_of_mem (List.mem_append_right _ (List.mem_singleton.mpr rfl))
      unfold Reg.poll
      rw [hi]
      dsimp only
      cases hl : st.worker.acks.lookup r.id with
      | none => exact fin _ rfl (hrep _)
      | some e =>
        dsimp only
        have := hp e hl
        split
        · rename_i m c hs
          exact (this m c hs).elim
        · exact fin _ rfl (hrep _)
  · refine ⟨[.resume n], ?_, ?_⟩
    · intro op ho
      rw [List.mem_singleton.mp ho]; trivial
    · exact fin st rfl (lookup_isSome_of_mem hw)

/-- The action of a check for the pending message. -/
theorem computed_action {cfg : Config} {now : Nat} {acks : List (String × Entry)} {id : String}
    {e : Entry} (hn : (acks.map (·.1)).Nodup) (hl : acks.lookup id = some e) :
    ∀ a, a.messageId = id →
      (a ∈ acks.filterMap (fun kv => actionFor cfg now kv.1 kv.2) ↔ actionFor cfg now id e = some a) := by
  intro a ha
  rw [List.mem_filterMap]
  constructor
  · rintro ⟨⟨k, e'⟩, hk, hact⟩
    have hid := actionFor_id _ _ _ _ _ hact
    rw [ha] at hid
    dsimp only at hid hact
    subst hid
    have := Assoc.lookup_of_mem _ _ _ hn hk
    rw [hl] at this
    injection this with this
    rw [this]
    exact hact
  · intro hact
    exact ⟨(id, e), Assoc.lookup_mem _ _ _ hl, hact⟩

/-- From an idle state the call can return, by induction on the attempts left. -/
theorem ends_idle {A : String → Prop} {su : Setup} (hb : su.broadcaster = true) {n : Nat}
    {r : Request} (k : Nat) : ∀ st, Fine A su n r st → Idle st →
    (∀ e, st.worker.acks.lookup r.id = some e → su.cfg.maxAttempts ≤ e.attempts + k) →
    Ends su st n := by
  induction k with
  | zero =>
    intro st h hi hk
    cases hl : st.worker.acks.lookup r.id with
    | none => exact ends_now h hi.chan (fun e he => by rw [hl] at he; cases he)
    | some e =>
      by_cases hp : ∃ m c, e.status = .pending m c
      · obtain ⟨m, c, hs⟩ := hp
        obtain ⟨l, hlast⟩ := h.served.time r.id e hl ⟨m, c, hs⟩
        let now := l + su.cfg.timeoutMs + 1
        have hst : step su st (.check now) = { st with worker := { st.worker with
            todo := st.worker.acks.filterMap (fun kv => actionFor su.cfg now kv.1 kv.2) } } := by
          simp only [step, Acks.step, hi.todo]
        have f1 := h.go hb [.check now] (by intro o ho; rw [List.mem_singleton.mp ho]; trivial)
          (step su st (.check now)) rfl (by rw [hst]; exact ⟨rfl, rfl, rfl, rfl, rfl⟩)
        have hact : actionFor su.cfg now r.id e = some (.lost r.id c) := by
          have h0 := hk e hl
          simp only [actionFor, hs, hlast]
          rw [if_pos (by show l + su.cfg.timeoutMs + 1 - l > _; omega), if_pos (by omega)]
        have hin := (computed_action (cfg := su.cfg) (now := now) h.counted.nodup hl
          (.lost r.id c) rfl).mpr hact
        obtain ⟨s1, e1, a1, a2, a3, a4, a5, a6, a7⟩ := run_emits su _ (step su st (.check now)) rfl
        have f2 := f1.go hb _ (internal_replicate (op := .emit) trivial _) s1 e1 a1
        refine Ends.after [.check now] (by intro o ho; rw [List.mem_singleton.mp ho]; trivial) ?_
        refine Ends.after (List.replicate (step su st (.check now)).worker.todo.length .emit)
          (internal_replicate (op := .emit) trivial _) ?_
        show Ends su (run su (step su st (.check now)) _) n
        rw [e1]
        refine ends_now f2 (a2.trans (by rw [hst]; exact hi.chan)) (fun e he => ?_)
        rw [a7 r.id c (by rw [hst]; exact hin)] at he
        cases he
      · exact ends_now h hi.chan (fun e' he m c hs => by
          rw [hl] at he
          injection he with he
          subst he
          exact hp ⟨m, c, hs⟩)
  | succ k ih =>
    intro st h hi hk
    cases hl : st.worker.acks.lookup r.id with
    | none => exact ends_now h hi.chan (fun e he => by rw [hl] at he; cases he)
    | some e =>
      by_cases hp : ∃ m c, e.status = .pending m c
      · obtain ⟨m, c, hs⟩ := hp
        by_cases hmax : su.cfg.maxAttempts ≤ e.attempts + k
        · exact ih st h hi (fun e' he => by
            rw [hl] at he
            injection he with he
            subst he
            exact hmax)
        · obtain ⟨l, hlast⟩ := h.served.time r.id e hl ⟨m, c, hs⟩
          let now := l + su.cfg.timeoutMs + 1
          have hst : step su st (.check now) = { st with worker := { st.worker with
              todo := st.worker.acks.filterMap (fun kv => actionFor su.cfg now kv.1 kv.2) } } := by
            simp only [step, Acks.step, hi.todo]
          have f1 := h.go hb [.check now] (by intro o ho; rw [List.mem_singleton.mp ho]; trivial)
            (step su st (.check now)) rfl (by rw [hst]; exact ⟨rfl, rfl, rfl, rfl, rfl⟩)
          have hact : actionFor su.cfg now r.id e = some (.resend r.id r.id m c) := by
            simp only [actionFor, hs, hlast]
            rw [if_pos (by show l + su.cfg.timeoutMs + 1 - l > _; omega), if_neg (by omega)]
          have hin := (computed_action (cfg := su.cfg) (now := now) h.counted.nodup hl
            (.resend r.id r.id m c) rfl).mpr hact
          have hnl : ∀ cl, Action.lost r.id cl ∉ (step su st (.check now)).worker.todo := by
            intro cl hcl
            rw [hst] at hcl
            have := (computed_action (cfg := su.cfg) (now := now) h.counted.nodup hl
              (.lost r.id cl) rfl).mp hcl
            rw [hact] at this
            cases this
          obtain ⟨ops, s1, o1, o2, f2, i2, hat⟩ := settle hb f1
            (by rw [hst]; exact Nat.le_of_eq hi.handled)
          have := hat e.attempts m c (by rw [hst]; exact ⟨e, hl, ⟨m, c, hs⟩, Nat.le_refl _⟩)
            (by rw [hst]; exact hi.chan) hnl (by rw [hst]; exact hin)
          refine Ends.after [.check now] (by intro o ho; rw [List.mem_singleton.mp ho]; trivial) ?_
          refine Ends.after ops o1 ?_
          show Ends su (run su (step su st (.check now)) ops) n
          rw [o2]
          refine ih s1 f2 i2 (fun e' he' => ?_)
          obtain ⟨e'', h1, _, h3⟩ := this
          rw [he'] at h1
          injection h1 with h1
          subst h1
          have := hk e hl
          omega
      · exact ends_now h hi.chan (fun e' he m c hs => by
          rw [hl] at he
          injection he with he
          subst he
          exact hp ⟨m, c, hs⟩)

/-- The reacting task has taken no more actions than were sent. -/
theorem handled_le (su : Setup) (ops : List Op) : ∀ st : Reg,
    st.handled ≤ st.worker.emitted.length →
      (run su st ops).handled ≤ (run su st ops).worker.emitted.length := by
  induction ops with
  | nil => exact fun _ h => h
  | cons op ops ih =>
    intro st h
    refine ih (step su st op) ?_
    by_cases hr : ∃ b, op = .react b
    · obtain ⟨b, e⟩ := hr
      subst e
      show (st.react b).handled ≤ (st.react b).worker.emitted.length
      rw [react_emitted]
      unfold Reg.react
      split
      · exact h
      · cases he : st.worker.emitted[st.handled]? with
        | none => exact h
        | some a =>
          have := (List.getElem?_eq_some_iff.mp he).1
          cases a with
          | lost id cl => exact this
          | resend c id m l =>
            dsimp only
            split
            · exact this
            · exact this
    · obtain ⟨_, _, h3, h4⟩ := reaction_only su st op (fun b e => hr ⟨b, e⟩)
      obtain ⟨more, h4⟩ := h4
      rw [h3, h4, List.length_append]
      omega

/-- From any state the call can return. -/
theorem ends_waiting {A : String → Prop} {su : Setup} (hb : su.broadcaster = true) {n : Nat}
    {r : Request} {st : Reg} (h : Fine A su n r st) (hl : st.handled ≤ st.worker.emitted.length) :
    Ends su st n := by
  obtain ⟨ops, s1, o1, o2, f2, i2, _⟩ := settle hb h hl
  refine Ends.after ops o1 ?_
  rw [o2]
  refine ends_idle hb su.cfg.maxAttempts s1 f2 i2 (fun e _ => by omega)

end Verif.Acks.Wait
