import Verif.Acks.WaitLemmas

namespace Verif.Acks.Wait

open Verif.Acks Spec

/-- The id occurs nowhere. -/
structure Unused (id : String) (st : Reg) : Prop where
  chan : ∀ s, ToWorker.status id s ∉ st.chan
  wait : ∀ n, ToWorker.wait id n ∉ st.chan
  acks : st.worker.acks.lookup id = none
  todo : ∀ a ∈ st.worker.todo, a.messageId ≠ id
  emitted : ∀ a ∈ st.worker.emitted, a.messageId ≠ id
  calls : ∀ c ∈ st.calls, c.req.id ≠ id
  waiters : ∀ n, (n, id) ∉ st.waiters
  broadcasts : ∀ b ∈ st.broadcasts, b.id ≠ id

/-- An operation that does not mention the id. -/
def Silent (id : String) (op : Op) : Prop :=
  op ≠ .ack id ∧ ∀ r ok, op = .call r ok → r.id ≠ id

theorem Unused.tell {id : String} {st : Reg} (h : Unused id st) (m : ToWorker)
    (h1 : ∀ s, m ≠ .status id s) (h2 : ∀ n, m ≠ .wait id n) : Unused id (st.tell m) := by
  unfold Reg.tell
  split
  · refine ⟨?_, ?_, h.acks, h.todo, h.emitted, h.calls, h.waiters, h.broadcasts⟩
    · intro s hs
      rcases List.mem_append.mp hs with hs | hs
      · exact h.chan s hs
      · exact h1 s (List.mem_singleton.mp hs).symm
    · intro n hs
      rcases List.mem_append.mp hs with hs | hs
      · exact h.wait n hs
      · exact h2 n (List.mem_singleton.mp hs).symm
  · exact h

theorem Unused.setCalls {id : String} {st : Reg} (h : Unused id st) (cs : List Call)
    (hc : ∀ c ∈ cs, c.req.id ≠ id) : Unused id { st with calls := cs } :=
  ⟨h.chan, h.wait, h.acks, h.todo, h.emitted, hc, h.waiters, h.broadcasts⟩

theorem Unused.step {id : String} {st : Reg} (h : Unused id st) (su : Setup) (op : Op)
    (hop : Silent id op) : Unused id (step su st op) := by
  have hset : ∀ (n : Nat) (r : Request) (g g' : Stage), st.calls[n]? = some ⟨r, g⟩ →
      ∀ c ∈ st.calls.set n ⟨r, g'⟩, c.req.id ≠ id := by
    intro n r g g' hn c hc
    rcases List.mem_or_eq_of_mem_set hc with hc | hc
    · exact h.calls c hc
    · rw [hc]
      exact h.calls ⟨r, g⟩ (List.mem_of_getElem? hn)
  have hid : ∀ (n : Nat) (r : Request) (g : Stage), st.calls[n]? = some ⟨r, g⟩ → r.id ≠ id :=
    fun n r g hn => h.calls ⟨r, g⟩ (List.mem_of_getElem? hn)
  cases op with
  | install =>
    simp only [Wait.step]
    split
    · exact ⟨h.chan, h.wait, h.acks, h.todo, h.emitted, h.calls, h.waiters, h.broadcasts⟩
    · exact h
  | connect c => exact ⟨h.chan, h.wait, h.acks, h.todo, h.emitted, h.calls, h.waiters, h.broadcasts⟩
  | disconnect c =>
    exact ⟨h.chan, h.wait, h.acks, h.todo, h.emitted, h.calls, h.waiters, h.broadcasts⟩
  | call r ok =>
    have hr := hop.2 r ok rfl
    have hc : ∀ g, ∀ c ∈ st.calls ++ [⟨r, g⟩], c.req.id ≠ id := by
      intro g c hc
      rcases List.mem_append.mp hc with hc | hc
      · exact h.calls c hc
      · rw [List.mem_singleton.mp hc]; exact hr
    simp only [Wait.step, Reg.call]
    split
    · exact ⟨h.chan, h.wait, h.acks, h.todo, h.emitted, hc _, h.waiters, h.broadcasts⟩
    · split
      · have h1 := h.tell (.status r.id (.pending r.message r.inform))
          (fun s e => by injection e with e _; exact hr e) nofun
        exact h1.setCalls _ (hc _)
      · exact h.setCalls _ (hc _)
  | publish n =>
    simp only [Wait.step, Reg.publish]
    split
    · rename_i r hn
      refine ⟨h.chan, h.wait, h.acks, h.todo, h.emitted, hset _ _ _ _ hn, h.waiters, ?_⟩
      intro b hb
      rcases List.mem_append.mp hb with hb | hb
      · exact h.broadcasts b hb
      · rw [List.mem_singleton.mp hb]
        exact hid _ _ _ hn
    · exact h
  | await n =>
    simp only [Wait.step, Reg.await]
    split
    · rename_i r hn
      split
      · exact (h.tell (.wait r.id n) nofun
          (fun k e => by injection e with e _; exact hid _ _ _ hn e)).setCalls _ (hset _ _ _ _ hn)
      · exact h.setCalls _ (hset _ _ _ _ hn)
    · exact h
  | resume n =>
    simp only [Wait.step, Reg.resume]
    split
    · rename_i r hn
      split
      · exact h.setCalls _ (hset _ _ _ _ hn)
      · exact h
    · exact h
  | ack i =>
    exact h.tell _ (fun s e => by injection e with e _; exact hop.1 (by rw [e])) nofun
  | work now =>
    simp only [Wait.step, Reg.work]
    split
    · exact h
    · rename_i i s rest he
      have hi : id ≠ i := fun e => h.chan s (by rw [he, e]; exact .head _)
      refine ⟨fun s hs => h.chan s (by rw [he]; exact .tail _ hs),
        fun n hs => h.wait n (by rw [he]; exact .tail _ hs), ?_, h.todo, h.emitted, h.calls,
        h.waiters, h.broadcasts⟩
      show (recordAck _ _ _ _).lookup id = none
      rw [recordAck_lookup_ne _ _ _ _ _ hi]
      exact h.acks
    · rename_i i n rest he
      refine ⟨fun s hs => h.chan s (by rw [he]; exact .tail _ hs),
        fun n hs => h.wait n (by rw [he]; exact .tail _ hs), h.acks, h.todo, h.emitted, h.calls, ?_,
        h.broadcasts⟩
      intro k hk
      rcases List.mem_append.mp hk with hk | hk
      · exact h.waiters k hk
      · have e := List.mem_singleton.mp hk
        injection e with e1 e2
        exact h.wait n (by rw [he, e2]; exact .head _)
  | check now =>
    simp only [Wait.step, Acks.step]
    split
    · refine ⟨h.chan, h.wait, h.acks, ?_, h.emitted, h.calls, h.waiters, h.broadcasts⟩
      intro a ha
      obtain ⟨⟨k, e⟩, hk, ha⟩ := List.mem_filterMap.mp ha
      have hid := actionFor_id _ _ _ _ _ ha
      rw [hid]
      intro e'
      have := (Assoc.lookup_eq_none id st.worker.acks).mp h.acks
      exact this (List.mem_map.mpr ⟨_, hk, e'⟩)
    · exact h
  | emit =>
    simp only [Wait.step, Acks.step]
    split
    · exact h
    · rename_i a rest ht
      refine ⟨h.chan, h.wait, ?_, fun x hx => h.todo x (by rw [ht]; exact .tail _ hx), ?_, h.calls,
        h.waiters, h.broadcasts⟩
      · cases a with
        | resend c i m l => exact h.acks
        | lost j l =>
          show (mapRemove j _).lookup id = none
          have hj : id ≠ j := fun e => h.todo (.lost j l) (by rw [ht]; exact .head _) e.symm
          rw [lookup_remove_ne _ _ _ hj]
          exact h.acks
      · intro x hx
        rcases List.mem_append.mp hx with hx | hx
        · exact h.emitted x hx
        · rw [List.mem_singleton.mp hx]
          exact h.todo a (by rw [ht]; exact .head _)
  | react b =>
    simp only [Wait.step, Reg.react]
    split
    · exact h
    · split
      · exact h
      · rename_i c i m inform he
        have hi : i ≠ id := h.emitted _ (List.mem_of_getElem? he)
        split
        · exact ⟨h.chan, h.wait, h.acks, h.todo, h.emitted, h.calls, h.waiters, h.broadcasts⟩
        · have h1 := h.tell (.status i (.pending m inform))
            (fun s e => by injection e with e _; exact hi e) nofun
          have hb : (st.tell (.status i (.pending m inform))).broadcasts = st.broadcasts :=
            (tell_rest st _).2.1
          refine ⟨h1.chan, h1.wait, h1.acks, h1.todo, h1.emitted, h1.calls, h1.waiters, ?_⟩
          intro x hx
          rcases List.mem_append.mp hx with hx | hx
          · exact h.broadcasts x hx
          · rw [List.mem_singleton.mp hx]; exact hi
      · exact ⟨h.chan, h.wait, h.acks, h.todo, h.emitted, h.calls, h.waiters, h.broadcasts⟩
  | poll n =>
    have hf : ∀ k, (k, id) ∉ st.waiters.filter (fun w => w.1 != n) :=
      fun k hk => h.waiters k (List.mem_filter.mp hk).1
    simp only [Wait.step, Reg.poll]
    split
    · exact h
    · split
      · split
        · exact h
        · exact ⟨h.chan, h.wait, h.acks, h.todo, h.emitted, h.calls, hf, h.broadcasts⟩
      · exact ⟨h.chan, h.wait, h.acks, h.todo, h.emitted, h.calls, hf, h.broadcasts⟩

theorem Unused.run {id : String} (su : Setup) (ops : List Op) (hops : ∀ op ∈ ops, Silent id op) :
    ∀ st, Unused id st → Unused id (run su st ops) := by
  induction ops with
  | nil => exact fun _ h => h
  | cons op ops ih =>
    exact fun st h => ih (fun o ho => hops o (.tail _ ho)) _ (h.step su op (hops op (.head _)))

theorem unused_init (id : String) (conns : List String) (i : Bool) :
    Unused id { installed := i, conns := conns } := by
  constructor <;> simp [State.init]

/-- A message sent when the reacting task is dead. -/
structure Stuck (id : String) (n : Nat) (st : Reg) : Prop where
  dead : st.dead = true
  installed : st.installed = true
  call : ∃ r g, st.calls[n]? = some ⟨r, g⟩ ∧ r.id = id ∧ r.wait = true ∧
    (g = .waiting ∨ g = .published ∨ g = .recorded) ∧
    broadcastsOf st id = if g = .recorded then 0 else 1
  others : ∀ (k : Nat) c, st.calls[k]? = some c → c.req.id = id → k = n
  chan : ∀ s, ToWorker.status id s ∈ st.chan → ∃ m c, s = .pending m c
  entry : ∀ e, st.worker.acks.lookup id = some e → ∃ m c, e.status = .pending m c
  count : attemptsOf st.worker.acks id + st.chan.countP (isPending id) ≤ 1
  present : (st.worker.acks.lookup id).isSome = true ∨ ∃ s, ToWorker.status id s ∈ st.chan
  order : ChanOk (fun i => i = id → (st.worker.acks.lookup id).isSome = true) st.chan
  todo : ∀ cl, Action.lost id cl ∉ st.worker.todo
  ticket : ∀ i, ToWorker.wait i n ∈ st.chan → i = id
  waiter : ∀ i, (n, i) ∈ st.waiters → i = id ∧ (st.worker.acks.lookup id).isSome = true
  replies : ∀ s, (n, s) ∉ st.replies
  nodup : (st.worker.acks.map (·.1)).Nodup

theorem Stuck.tell {id : String} {n : Nat} {st : Reg} (h : Stuck id n st) (m : ToWorker)
    (h1 : ∀ s, m ≠ .status id s) (h2 : ∀ i k, m = .wait i k → (i = id ↔ k = n)) :
    Stuck id n (st.tell m) := by
  rw [tell_installed h.installed]
  refine ⟨h.dead, h.installed, h.call, h.others, ?_, h.entry, ?_, ?_, ?_, h.todo, ?_, h.waiter,
    h.replies, h.nodup⟩
  · intro s hs
    rcases List.mem_append.mp hs with hs | hs
    · exact h.chan s hs
    · exact (h1 s (List.mem_singleton.mp hs).symm).elim
  · have : isPending id m = false := by
      cases m with
      | status i s =>
        cases s with
        | pending a b =>
          have : i ≠ id := fun e => h1 (.pending a b) (by rw [e])
          simpa [isPending] using this
        | received => rfl
        | lost => rfl
      | wait i k => rfl
    show attemptsOf _ _ + (st.chan ++ [m]).countP _ ≤ 1
    simp only [List.countP_append, List.countP_cons, List.countP_nil, this]
    simpa using h.count
  · rcases h.present with h | ⟨s, h⟩
    · exact .inl h
    · exact .inr ⟨s, List.mem_append_left _ h⟩
  · refine h.order.append m fun i k e => ?_
    by_cases hi : i = id
    · rcases h.present with hp | ⟨s, hp⟩
      · exact .inl fun _ => hp
      · rw [hi]; exact .inr ⟨s, hp⟩
    · exact .inl fun x => (hi x).elim
  · intro i hi
    rcases List.mem_append.mp hi with hi | hi
    · exact h.ticket i hi
    · exact (h2 i n (List.mem_singleton.mp hi).symm).mpr rfl

/-- Another call changes. -/
theorem Stuck.setOther {id : String} {n : Nat} {st : Reg} (h : Stuck id n st) (k : Nat) (r : Request)
    (g g' : Stage) (hk : st.calls[k]? = some ⟨r, g⟩) (hne : k ≠ n) :
    Stuck id n { st with calls := st.calls.set k ⟨r, g'⟩ } := by
  obtain ⟨r0, g0, h1, h2, h3, h4, h5⟩ := h.call
  refine ⟨h.dead, h.installed, ⟨r0, g0, ?_, h2, h3, h4, h5⟩, ?_, h.chan, h.entry, h.count, h.present,
    h.order, h.todo, h.ticket, h.waiter, h.replies, h.nodup⟩
  · show (st.calls.set k _)[n]? = _
    rw [List.getElem?_set_ne hne, h1]
  · intro j c hj hc
    have hj : (st.calls.set k ⟨r, g'⟩)[j]? = some c := hj
    by_cases e : k = j
    · subst e
      rw [List.getElem?_set_self (List.getElem?_eq_some_iff.mp hk).1] at hj
      injection hj with hj
      subst hj
      exact h.others k ⟨r, g⟩ hk hc
    · rw [List.getElem?_set_ne e] at hj
      exact h.others j c hj hc

/-- The stuck call changes. -/
theorem Stuck.others_set {id : String} {n : Nat} {st : Reg} (h : Stuck id n st) (r : Request)
    (g g' : Stage) (hk : st.calls[n]? = some ⟨r, g⟩) :
    ∀ (k : Nat) c, (st.calls.set n ⟨r, g'⟩)[k]? = some c → c.req.id = id → k = n := by
  intro j c hj hc
  by_cases e : n = j
  · exact e.symm
  · rw [List.getElem?_set_ne e] at hj
    exact h.others j c hj hc

/-- The worker does something that leaves the entry of the message. -/
theorem Stuck.worker {id : String} {n : Nat} {st : Reg} (h : Stuck id n st) (w : State)
    (hl : w.acks.lookup id = st.worker.acks.lookup id) (hn : (w.acks.map (·.1)).Nodup)
    (ht : ∀ cl, Action.lost id cl ∉ w.todo) : Stuck id n { st with worker := w } := by
  have ha : attemptsOf w.acks id = attemptsOf st.worker.acks id := by
    simp only [attemptsOf, hl]
  refine ⟨h.dead, h.installed, h.call, h.others, h.chan, ?_, ?_, ?_, ?_, ht, h.ticket, ?_,
    h.replies, hn⟩
  · exact fun e he => h.entry e (hl.symm.trans he)
  · show attemptsOf w.acks id + _ ≤ 1
    rw [ha]; exact h.count
  · show (w.acks.lookup id).isSome = true ∨ _
    rw [hl]; exact h.present
  · show ChanOk (fun i => i = id → (w.acks.lookup id).isSome = true) _
    rw [hl]; exact h.order
  · show ∀ i, _ → _ ∧ (w.acks.lookup id).isSome = true
    rw [hl]; exact h.waiter

theorem Stuck.step {id : String} {n : Nat} {st : Reg} (h : Stuck id n st) (su : Setup) (op : Op)
    (hm : 2 ≤ su.cfg.maxAttempts) (hop : Silent id op) : Stuck id n (step su st op) := by
  have hbad : ∀ (k : Nat) r g, st.calls[k]? = some ⟨r, g⟩ → k ≠ n → r.id ≠ id :=
    fun k r g hk hne e => hne (h.others k _ hk e)
  obtain ⟨r0, g0, c1, c2, c3, c4, c5⟩ := h.call
  have hn := (List.getElem?_eq_some_iff.mp c1).1
  cases op with
  | install =>
    simp only [Wait.step]
    split
    · exact ⟨h.dead, rfl, h.call, h.others, h.chan, h.entry, h.count, h.present, h.order, h.todo,
        h.ticket, h.waiter, h.replies, h.nodup⟩
    · exact h
  | connect c => exact ⟨h.dead, h.installed, h.call, h.others, h.chan, h.entry, h.count, h.present,
      h.order, h.todo, h.ticket, h.waiter, h.replies, h.nodup⟩
  | disconnect c => exact ⟨h.dead, h.installed, h.call, h.others, h.chan, h.entry, h.count, h.present,
      h.order, h.todo, h.ticket, h.waiter, h.replies, h.nodup⟩
  | call r ok =>
    have hr := hop.2 r ok rfl
    have add : ∀ st', Stuck id n st' → st'.calls = st.calls → ∀ g ws,
        Stuck id n { st' with calls := st.calls ++ [⟨r, g⟩], writes := ws } := by
      intro st' h' hc g ws
      obtain ⟨r1, g1, d1, d2, d3, d4, d5⟩ := h'.call
      rw [hc] at d1
      refine ⟨h'.dead, h'.installed, ⟨r1, g1, ?_, d2, d3, d4, d5⟩, ?_, h'.chan, h'.entry, h'.count,
        h'.present, h'.order, h'.todo, h'.ticket, h'.waiter, h'.replies, h'.nodup⟩
      · show (st.calls ++ _)[n]? = _
        rw [List.getElem?_append_left hn, d1]
      · intro k c hk hkid
        have hk : (st.calls ++ [⟨r, g⟩])[k]? = some c := hk
        rw [List.getElem?_append] at hk
        split at hk
        · exact h.others k c hk hkid
        · rw [List.mem_singleton.mp (List.mem_of_getElem? hk)] at hkid
          exact (hr hkid).elim
    simp only [Wait.step, Reg.call]
    split
    · exact add st h rfl _ _
    · split
      · exact add _ (h.tell (.status r.id (.pending r.message r.inform))
          (fun s e => by injection e with e _; exact hr e) nofun) (tell_rest st _).2.2 _
            (st.tell (.status r.id (.pending r.message r.inform))).writes
      · exact add st h rfl _ st.writes
  | publish k =>
    simp only [Wait.step, Reg.publish]
    split
    · rename_i r hk
      by_cases e : k = n
      · subst e
        rw [c1] at hk
        injection hk with hk
        injection hk with e1 e2
        subst e1 e2
        refine ⟨h.dead, h.installed, ⟨r0, .published, ?_, c2, c3, .inr (.inl rfl), ?_⟩,
          ?_, h.chan, h.entry, h.count, h.present, h.order, h.todo, h.ticket,
          h.waiter, h.replies, h.nodup⟩
        · show (st.calls.set k _)[k]? = _
          rw [List.getElem?_set_self hn, c3]; rfl
        · have c5 : st.broadcasts.countP (fun b : Broadcast => b.id == id) = 0 := c5
          show (st.broadcasts ++ [_]).countP (fun b : Broadcast => b.id == id) = 1
          rw [List.countP_append, c5]
          simp [c2]
        · rw [c3]
          exact h.others_set r0 .recorded .published c1
      · have hr := hbad k _ _ hk e
        have h1 := h.setOther k r .recorded (if r.wait then .published else .done .ok) hk e
        obtain ⟨r1, g1, d1, d2, d3, d4, d5⟩ := h1.call
        refine ⟨h.dead, h.installed, ⟨r1, g1, d1, d2, d3, d4, ?_⟩, h1.others, h1.chan, h1.entry,
          h1.count, h1.present, h1.order, h1.todo, h1.ticket, h1.waiter, h1.replies, h1.nodup⟩
        rw [← d5]
        show (st.broadcasts ++ [_]).countP (fun b : Broadcast => b.id == id) = st.broadcasts.countP _
        simp [List.countP_append, hr]
    · exact h
  | await k =>
    simp only [Wait.step, Reg.await]
    split
    · rename_i r hk
      rw [if_pos h.installed]
      by_cases e : k = n
      · subst e
        rw [c1] at hk
        injection hk with hk
        injection hk with e1 e2
        subst e1 e2
        have h1 := h.tell (.wait r0.id k) nofun
          (fun i j e => by injection e with e1 e2; rw [← e1, ← e2]; exact ⟨fun _ => rfl, fun _ => c2⟩)
        have hb := (tell_rest st (.wait r0.id k)).2.1
        refine ⟨h1.dead, h1.installed, ⟨r0, .waiting, ?_, c2, c3, .inl rfl, ?_⟩,
          h.others_set r0 .published .waiting c1, h1.chan, h1.entry,
          h1.count, h1.present, h1.order, h1.todo, h1.ticket, h1.waiter, h1.replies, h1.nodup⟩
        · show (st.calls.set k _)[k]? = _
          rw [List.getElem?_set_self hn]
        · have c5 : st.broadcasts.countP (fun b : Broadcast => b.id == id) = 1 := c5
          show (st.tell _).broadcasts.countP (fun b : Broadcast => b.id == id) = 1
          rw [hb, c5]
      · have hr := hbad k _ _ hk e
        have h1 := h.tell (.wait r.id k) nofun
          (fun i j e' => by
            injection e' with e1 e2
            rw [← e1, ← e2]
            exact ⟨fun x => (hr x).elim, fun x => (e x).elim⟩)
        have h2 := h1.setOther k r .published .waiting (by rw [(tell_rest st _).2.2]; exact hk) e
        rw [(tell_rest st _).2.2] at h2
        exact h2
    · exact h
  | resume k =>
    simp only [Wait.step, Reg.resume]
    split
    · rename_i r hk
      split
      · rename_i s hs
        by_cases e : k = n
        · subst e
          exact (h.replies s (mem_of_lookup hs)).elim
        · exact h.setOther k r .waiting _ hk e
      · exact h
    · exact h
  | ack i => exact h.tell _ (fun s e => by injection e with e _; exact hop.1 (by rw [e])) nofun
  | work now =>
    simp only [Wait.step, Reg.work]
    split
    · exact h
    · rename_i i s rest he
      have hord := h.order
      rw [he] at hord
      have hcnt := h.count
      rw [he, List.countP_cons] at hcnt
      by_cases hi : id = i
      · subst hi
        obtain ⟨m, c, e⟩ := h.chan s (by rw [he]; exact .head _)
        subst e
        have hl : (recordAck st.worker.acks id (.pending m c) now).lookup id =
            some ⟨.pending m c, attemptsOf st.worker.acks id + 1, some now⟩ := by
          rw [recordAck_pending, lookup_insert_self]
        have hsome : ((recordAck st.worker.acks id (.pending m c) now).lookup id).isSome = true := by
          rw [hl]; rfl
        refine ⟨h.dead, h.installed, h.call, h.others,
          fun s hs => h.chan s (by rw [he]; exact .tail _ hs), ?_, ?_, .inl hsome,
          ?_, h.todo,
          fun i hi => h.ticket i (by rw [he]; exact .tail _ hi),
          fun i hi => ⟨(h.waiter i hi).1, hsome⟩, h.replies, recordAck_nodup _ id (.pending m c) now h.nodup⟩
        · intro e hh
          have hh : (recordAck st.worker.acks id (.pending m c) now).lookup id = some e := hh
          rw [hl] at hh
          injection hh with hh
          exact ⟨m, c, by rw [← hh]⟩
        rotate_left
        · refine ChanOk.mono (K := fun j => j = id ∨ (j = id → (st.worker.acks.lookup id).isSome = true))
            ?_ hord
          exact fun _ _ _ => hsome
        · show attemptsOf (recordAck st.worker.acks id (.pending m c) now) id + rest.countP _ ≤ 1
          have e1 : attemptsOf (recordAck st.worker.acks id (.pending m c) now) id =
              attemptsOf st.worker.acks id + 1 := by
            simp only [attemptsOf, hl]
          rw [e1]
          simp [isPending] at hcnt
          omega
      · have hl := recordAck_lookup_ne st.worker.acks id i s now hi
        have ha : attemptsOf (recordAck st.worker.acks i s now) id = attemptsOf st.worker.acks id := by
          simp only [attemptsOf, hl]
        refine ⟨h.dead, h.installed, h.call, h.others,
          fun s hs => h.chan s (by rw [he]; exact .tail _ hs), ?_, ?_, ?_, ?_, h.todo,
          fun i hi => h.ticket i (by rw [he]; exact .tail _ hi), ?_, h.replies,
          recordAck_nodup _ _ _ _ h.nodup⟩
        · intro e hh
          have hh : (recordAck st.worker.acks i s now).lookup id = some e := hh
          rw [hl] at hh
          exact h.entry e hh
        · show attemptsOf (recordAck st.worker.acks i s now) id + rest.countP _ ≤ 1
          rw [ha]
          omega
        · show ((recordAck st.worker.acks i s now).lookup id).isSome = true ∨ _
          rw [hl]
          rcases h.present with hp | ⟨s', hp⟩
          · exact .inl hp
          · rw [he] at hp
            rcases List.mem_cons.mp hp with hp | hp
            · injection hp with e _; exact (hi e).elim
            · exact .inr ⟨s', hp⟩
        · refine ChanOk.mono (K := fun j => j = i ∨ (j = id → (st.worker.acks.lookup id).isSome = true))
            ?_ hord
          intro j hj e
          show ((recordAck st.worker.acks i s now).lookup id).isSome = true
          rw [hl]
          rcases hj with hj | hj
          · exact (hi (e.symm.trans hj)).elim
          · exact hj e
        · intro j hj
          show _ ∧ ((recordAck st.worker.acks i s now).lookup id).isSome = true
          rw [hl]
          exact h.waiter j hj
    · rename_i i k rest he
      have hord := h.order
      rw [he] at hord
      have hcnt := h.count
      rw [he, List.countP_cons] at hcnt
      refine ⟨h.dead, h.installed, h.call, h.others,
          fun s hs => h.chan s (by rw [he]; exact .tail _ hs), h.entry, ?_, ?_, hord.2, h.todo,
          fun i hi => h.ticket i (by rw [he]; exact .tail _ hi), ?_, h.replies, h.nodup⟩
      · show attemptsOf st.worker.acks id + rest.countP _ ≤ 1
        omega
      · rcases h.present with hp | ⟨s', hp⟩
        · exact .inl hp
        · rw [he] at hp
          rcases List.mem_cons.mp hp with hp | hp
          · cases hp
          · exact .inr ⟨s', hp⟩
      · intro j hj
        rcases List.mem_append.mp hj with hj | hj
        · exact h.waiter j hj
        · have e := List.mem_singleton.mp hj
          injection e with e1 e2
          subst e1 e2
          have := h.ticket j (by rw [he]; exact .head _)
          exact ⟨this, hord.1 this⟩
  | check now =>
    simp only [Wait.step, Acks.step]
    split
    · refine ⟨h.dead, h.installed, h.call, h.others, h.chan, h.entry, h.count, h.present, h.order, ?_,
        h.ticket, h.waiter, h.replies, h.nodup⟩
      intro cl ha
      obtain ⟨⟨k, e⟩, hk, ha⟩ := List.mem_filterMap.mp ha
      have hid := actionFor_id _ _ _ _ _ ha
      simp only [messageId_lost] at hid
      subst hid
      have hl := Assoc.lookup_of_mem _ _ _ h.nodup hk
      have hc := h.count
      simp only [attemptsOf, hl] at hc
      simp only [actionFor] at ha
      split at ha
      · split at ha
        · split at ha
          · split at ha
            · omega
            · cases ha
          · cases ha
        · cases ha
      · cases ha
    · exact h
  | emit =>
    simp only [Wait.step, Acks.step]
    split
    · exact h
    · rename_i a rest ht
      cases a with
      | resend c i m l =>
        exact h.worker _ rfl h.nodup (fun cl hc => h.todo cl (by rw [ht]; exact .tail _ hc))
      | lost j l =>
        refine h.worker ⟨mapRemove j st.worker.acks, rest, st.worker.emitted ++ [.lost j l]⟩
          (lookup_remove_ne _ _ _ fun e => ?_) (Assoc.nodup_filter _ _ h.nodup)
          (fun cl hc => h.todo cl (by rw [ht]; exact .tail _ hc))
        exact h.todo l (by rw [ht, e]; exact .head _)
  | react b =>
    simp only [Wait.step, Reg.react, h.dead, if_true]
    exact h
  | poll k =>
    have rep : ∀ s, k ≠ n → Stuck id n { st with
        waiters := st.waiters.filter (fun w => w.1 != k), replies := st.replies ++ [(k, s)] } := by
      intro s hne
      refine ⟨h.dead, h.installed, h.call, h.others, h.chan, h.entry, h.count, h.present, h.order,
        h.todo, h.ticket, fun i hi => h.waiter i (List.mem_filter.mp hi).1, ?_, h.nodup⟩
      intro s' hs
      rcases List.mem_append.mp hs with hs | hs
      · exact h.replies s' hs
      · have e := List.mem_singleton.mp hs
        injection e with e1 e2
        exact hne e1.symm
    simp only [Wait.step, Reg.poll]
    split
    · exact h
    · rename_i i hw
      have hne : (∀ e, st.worker.acks.lookup i = some e → ∀ m c, e.status ≠ .pending m c) → k ≠ n := by
        intro hall e
        subst e
        have := h.waiter i (mem_of_lookup hw)
        rw [this.1] at hall
        cases hl : st.worker.acks.lookup id with
        | none => rw [hl] at this; cases this.2
        | some e =>
          obtain ⟨m, c, he⟩ := h.entry e hl
          exact hall e hl m c he
      split
      · rename_i e he
        split
        · exact h
        · rename_i hp
          refine rep _ (hne fun e' he' m c => ?_)
          rw [he] at he'
          injection he' with he'
          subst he'
          exact hp m c
      · rename_i he
        exact rep _ (hne fun e' he' => by rw [he] at he'; cases he')

theorem Stuck.run {id : String} {n : Nat} (su : Setup) (hm : 2 ≤ su.cfg.maxAttempts) (ops : List Op)
    (hops : ∀ op ∈ ops, Silent id op) : ∀ st, Stuck id n st → Stuck id n (run su st ops) := by
  induction ops with
  | nil => exact fun _ h => h
  | cons op ops ih =>
    exact fun st h => ih (fun o ho => hops o (.tail _ ho)) _ (h.step su op hm (hops op (.head _)))

/-- Sending it. -/
theorem stuck_call {A : String → Prop} {su : Setup} (hb : su.broadcaster = true) {st : Reg}
    (hi : Inv A st) (hc : Counted su st) (hd : st.dead = true) (r : Request) (ok : Bool)
    (hu : Unused r.id st) (hw : r.wait = true) (hl : st.conns.contains r.conn = false) :
    Stuck r.id st.calls.length (st.call su r ok) := by
  unfold Reg.call
  rw [if_neg (by rw [hl]; nofun), if_pos hb, tell_installed hi.installed]
  have hcnt : attemptsOf st.worker.acks r.id = 0 := by simp only [attemptsOf, hu.acks]
  have hzero : st.chan.countP (isPending r.id) = 0 := by
    rw [List.countP_eq_zero]
    intro m hm
    cases m with
    | status i s =>
      cases s with
      | pending a b =>
        intro e
        have e : i = r.id := by simpa [isPending] using e
        rw [e] at hm
        exact hu.chan _ hm
      | received => nofun
      | lost => nofun
    | wait i k => nofun
  have hlt : ∀ (c : Call), st.calls[st.calls.length]? ≠ some c := by
    intro c e
    have := (List.getElem?_eq_some_iff.mp e).1
    omega
  refine ⟨hd, hi.installed, ⟨r, .recorded, ?_, rfl, hw, .inr (.inr rfl), ?_⟩, ?_, ?_, ?_, ?_, ?_, ?_,
    ?_, ?_, ?_, ?_, hc.nodup⟩
  · show (st.calls ++ [_])[st.calls.length]? = _
    simp
  · show st.broadcasts.countP (fun b : Broadcast => b.id == r.id) = 0
    rw [List.countP_eq_zero]
    intro b hb' e
    exact hu.broadcasts b hb' (by simpa using e)
  · intro k c hk hid
    have hk : (st.calls ++ [⟨r, .recorded⟩])[k]? = some c := hk
    rw [List.getElem?_append] at hk
    split at hk
    · exact (hu.calls c (List.mem_of_getElem? hk) hid).elim
    · have := (List.getElem?_eq_some_iff.mp hk).1
      simp at this
      omega
  · intro s hs
    rcases List.mem_append.mp hs with hs | hs
    · exact (hu.chan s hs).elim
    · have e := List.mem_singleton.mp hs
      injection e with _ e
      exact ⟨_, _, e⟩
  · intro e he
    have he : st.worker.acks.lookup r.id = some e := he
    rw [hu.acks] at he
    cases he
  · show attemptsOf st.worker.acks r.id + (st.chan ++ [_]).countP _ ≤ 1
    rw [List.countP_append, hcnt, hzero]
    simp [isPending]
  · exact .inr ⟨_, List.mem_append_right _ (List.mem_singleton.mpr rfl)⟩
  · refine ChanOk.append ?_ _ nofun
    have : ∀ l : List ToWorker, (∀ k, ToWorker.wait r.id k ∉ l) → ∀ K : String → Prop,
        (∀ i, i ≠ r.id → K i) → ChanOk K l := by
      intro l
      induction l with
      | nil => exact fun _ _ _ => trivial
      | cons x l ih =>
        intro hx K hK
        cases x with
        | status i s =>
          exact ih (fun k hk => hx k (.tail _ hk)) _ (fun j hj => .inr (hK j hj))
        | wait i k =>
          refine ⟨hK i fun e => hx k (by rw [e]; exact .head _), ih (fun k hk => hx k (.tail _ hk)) K hK⟩
    exact this st.chan hu.wait _ (fun i hne e => (hne e).elim)
  · exact fun cl h => hu.todo _ h rfl
  · intro i h
    rcases List.mem_append.mp h with h | h
    · obtain ⟨c, hc', _⟩ := hi.wait_chan i _ h
      exact (hlt c hc').elim
    · cases List.mem_singleton.mp h
  · intro i h
    obtain ⟨⟨c, hc', _⟩, _⟩ := hi.waiters _ i h
    exact (hlt c hc').elim
  · intro s h
    obtain ⟨r', g', hc', _⟩ := hi.replies _ s h
    exact (hlt _ hc').elim

end Verif.Acks.Wait
