import Verif.Acks.StuckLemmas
import Verif.Acks.EndLemmas
import Verif.Acks.NamedLemmas

/-!
# Sending and waiting for the acknowledgement

Every statement is about all interleavings of all tasks of the registry.
-/

namespace Verif.Acks.Wait

open Verif.Acks Spec

/-! ## C147: success means acknowledged -/

/-- C147 in full: a send that waits returns successfully only if the message was written to a
connection of this node or acknowledged by another node. -/
def FullSuccess : Prop :=
  ∀ (su : Setup) (ops : List Op) (n : Nat) (r : Request),
    outcome (run su {} ops) n = some (r, .ok) → r.wait = true →
      (r.conn, r.message) ∈ (run su {} ops).writes ∨ Op.ack r.id ∈ ops

def someRequest : Request := ⟨"bob", "m1", "hi", true, []⟩

/-- **C147 is false of the code.** `start_ack_worker` sets the sender in a task it spawns: a message
sent before that task has run is reported as delivered at once. -/
theorem early_success : outcome (run ⟨true, ⟨15000, 4⟩⟩ {}
    [.call someRequest true, .publish 0, .await 0, .install]) 0 = some (someRequest, .ok) := by decide

/-- Without other nodes a message to an unknown connection is dropped and reported as delivered. -/
theorem alone_success (cfg : Config) (r : Request) (ok : Bool) :
    outcome (run ⟨false, cfg⟩ {} [.call r ok]) 0 = some (r, .ok) ∧
      (run ⟨false, cfg⟩ {} [.call r ok]).writes = [] ∧
      (run ⟨false, cfg⟩ {} [.call r ok]).broadcasts = [] := by
  simp [run, step, Reg.call, outcome]

theorem success_violated : ¬ FullSuccess := by
  intro h
  have := h ⟨false, ⟨0, 0⟩⟩ [.call someRequest true] 0 someRequest (by decide) rfl
  revert this
  decide

/-- **C147, partial.** In a cluster, once the sender has been set, success means written here or
acknowledged, whatever the tasks do when. Missing: the time before the sender is set, and
deployments of one node. -/
theorem success_partial (su : Setup) (hb : su.broadcaster = true) (ops : List Op) (n : Nat)
    (r : Request) (h : outcome (run su {} (.install :: ops)) n = some (r, .ok)) (hw : r.wait = true) :
    (r.conn, r.message) ∈ (run su {} (.install :: ops)).writes ∨ Op.ack r.id ∈ ops := by
  have e : run su {} (.install :: ops) = run su { installed := true } ops := by
    simp [run, step, hb]
  rw [e] at h ⊢
  have hi := Inv.run (A := fun id => Op.ack id ∈ ops) su hb ops _ (inv_init _ []) (fun _ x => x)
  exact hi.calls n r _ (outcome_some h) hw

/-- A message acknowledged in time: success. -/
example : outcome (run ⟨true, ⟨10, 2⟩⟩ {} [.install, .call someRequest true, .publish 0, .await 0,
    .work 0, .ack "m1", .work 1, .work 2, .poll 0, .resume 0]) 0 = some (someRequest, .ok) := by decide

/-! ## C148: a loss is reported only for lost messages -/

/-- C148 in full: a waiting send reports the loss of its message only if the message was broadcast as
often as configured and never acknowledged. -/
def FullLoss : Prop :=
  ∀ (su : Setup) (ops : List Op) (n : Nat) (r : Request) (i : String), su.broadcaster = true →
    DistinctIds (run su {} ops) →
    outcome (run su {} ops) n = some (r, .messageLost i) →
      i = r.id ∧ Op.ack r.id ∉ ops ∧ entitled su ≤ broadcastsOf (run su {} ops) r.id

/-- The message is acknowledged, and recorded as such, between the computation of the losses and the
removal of the entry. -/
def ackedLate : List Op := [.install, .call someRequest true, .publish 0, .await 0, .work 0, .work 0,
  .check 20, .ack "m1", .work 21, .emit, .poll 0, .resume 0]

theorem acked_reported_lost :
    outcome (run ⟨true, ⟨10, 1⟩⟩ {} ackedLate) 0 = some (someRequest, .messageLost "m1") := by decide

/-- A message sent before the sender is set is not recorded; if the sender is there when the call
waits, the message counts as lost after a single broadcast. -/
theorem unrecorded_reported_lost :
    outcome (run ⟨true, ⟨15000, 4⟩⟩ {} [.call someRequest true, .install, .publish 0, .await 0,
      .work 0, .poll 0, .resume 0]) 0 = some (someRequest, .messageLost "m1") ∧
    broadcastsOf (run ⟨true, ⟨15000, 4⟩⟩ {} [.call someRequest true, .install, .publish 0, .await 0,
      .work 0, .poll 0, .resume 0]) "m1" = 1 := by decide

/-- **C148 is false of the code.** -/
theorem loss_violated : ¬ FullLoss := by
  intro h
  have := h ⟨true, ⟨10, 1⟩⟩ ackedLate 0 someRequest "m1" rfl
    (by
      intro i j c d hi hj _
      have e : (run ⟨true, ⟨10, 1⟩⟩ {} ackedLate).calls = [⟨someRequest, .done (.messageLost "m1")⟩] := by
        decide
      rw [e] at hi hj
      have hi := (List.getElem?_eq_some_iff.mp hi).1
      have hj := (List.getElem?_eq_some_iff.mp hj).1
      simp at hi hj
      omega)
    acked_reported_lost
  exact this.2.1 (by decide)

/-- **C148, partial.** Once the sender has been set, a reported loss names the message of the call,
the worker has declared that message lost, and it was broadcast as often as configured, whatever the
tasks do when. Missing: that it was not acknowledged at the last moment, and the time before the
sender is set. -/
theorem loss_partial (su : Setup) (hb : su.broadcaster = true) (ops : List Op) (n : Nat)
    (r : Request) (i : String) (hd : DistinctIds (run su {} (.install :: ops)))
    (h : outcome (run su {} (.install :: ops)) n = some (r, .messageLost i)) :
    i = r.id ∧ (∃ cl, Action.lost r.id cl ∈ (run su {} (.install :: ops)).worker.emitted) ∧
      entitled su ≤ broadcastsOf (run su {} (.install :: ops)) r.id := by
  have e : run su {} (.install :: ops) = run su { installed := true } ops := by
    simp [run, step, hb]
  rw [e] at h hd ⊢
  have hi := Inv.run (A := fun id => Op.ack id ∈ ops) su hb ops _ (inv_init _ []) (fun _ x => x)
  have hc := Counted.run (su := su) ops _ (counted_init su { installed := true } rfl rfl)
  have hn := outcome_some h
  obtain ⟨h1, cl, h2⟩ := hi.calls n r _ hn
  refine ⟨h1, ⟨cl, h2⟩, ?_⟩
  have := hc.emitted r.id cl h2
  have hz : (run su { installed := true } ops).calls.countP (isRecorded r.id) = 0 := by
    rw [List.countP_eq_zero]
    intro c hm hr
    obtain ⟨k, hk⟩ := List.mem_iff_getElem?.mp hm
    simp only [isRecorded, Bool.and_eq_true, beq_iff_eq] at hr
    have := hd k n c _ hk hn hr.1
    subst this
    rw [hn] at hk
    injection hk with hk
    rw [← hk] at hr
    cases hr.2
  simpa [made, hz] using this

/-- Two attempts without an answer: the message is lost. -/
def lostAfterTwo : List Op := [.install, .call someRequest true, .publish 0, .await 0, .work 0,
  .work 0, .poll 0, .check 20, .emit, .react [], .work 25, .check 30, .check 40, .emit, .poll 0,
  .resume 0]

example : outcome (run ⟨true, ⟨10, 2⟩⟩ {} lostAfterTwo) 0 = some (someRequest, .messageLost "m1") ∧
    broadcastsOf (run ⟨true, ⟨10, 2⟩⟩ {} lostAfterTwo) "m1" = 2 := by decide

/-! ## C149: clients are told of losses -/

/-- C149 in full: once the reacting task has had the time to react to everything, all connected
clients that were named with lost messages have been told of them, except those to which nothing can
be written. -/
def FullTold : Prop :=
  ∀ (su : Setup) (conns : List String) (ops : List Op) (broken : List String), Settled ops →
    (∀ b, Op.react b ∈ ops → b = broken) →
    (run su { conns := conns } ops).handled = (run su { conns := conns } ops).worker.emitted.length ∨
      (run su { conns := conns } ops).dead = true →
    ∀ id clients, Action.lost id clients ∈ (run su { conns := conns } ops).worker.emitted →
      ∀ c ∈ clients, c ∈ conns → c ∉ broken → (c, id) ∈ (run su { conns := conns } ops).notices

/-- "gone" has left, its socket is still registered. -/
def goneClient : List Op := [.install, .call ⟨"bob", "m1", "hi", false, ["gone", "eve"]⟩ true,
  .publish 0, .work 0, .check 20, .emit, .react ["gone"]]

/-- **C149 is false of the code.** A failing write panics: the clients named after it are not told. -/
theorem told_violated : ¬ FullTold := by
  intro h
  have := h ⟨true, ⟨10, 1⟩⟩ ["gone", "eve"] goneClient ["gone"]
    (fun c => by simp [goneClient]) (fun b => by simp [goneClient])
    (.inr (by decide)) "m1" ["gone", "eve"] (by decide) "eve" (by decide) (by decide) (by decide)
  revert this
  decide

/-- Nor is anybody told of any later loss, nor is any message sent again. -/
theorem told_never_again (su : Setup) (st : Reg) (ops : List Op) (h : st.dead = true) :
    (run su st ops).notices = st.notices ∧ (run su st ops).handled = st.handled := by
  induction ops generalizing st with
  | nil => exact ⟨rfl, rfl⟩
  | cons op ops ih =>
    obtain ⟨h1, h2, h3⟩ := dead_step su st op h
    have := ih _ h1
    exact ⟨this.1.trans h2, this.2.trans h3⟩

example : (run ⟨true, ⟨10, 1⟩⟩ { conns := ["gone", "eve"] } goneClient).dead = true := by decide

/-- **C149, partial.** While no write fails, the clients told are exactly those owed: for every loss
taken by the reacting task the clients named that are connected, in order and once each. -/
theorem told_partial (su : Setup) (conns : List String) (ops : List Op) (hs : Settled ops)
    (hh : Healthy ops) :
    (run su { conns := conns } ops).dead = false ∧
      (run su { conns := conns } ops).notices = owed conns
        ((run su { conns := conns } ops).worker.emitted.take (run su { conns := conns } ops).handled) := by
  have h := Told.run su ops hs hh { conns := conns } ⟨rfl, Nat.le_refl _, rfl⟩
  refine ⟨h.alive, ?_⟩
  have hc : ∀ (ops : List Op), Settled ops → ∀ st : Reg, (run su st ops).conns = st.conns := by
    intro ops
    induction ops with
    | nil => exact fun _ _ => rfl
    | cons op ops ih =>
      intro hs st
      refine (ih (fun c => ⟨fun x => (hs c).1 (.tail _ x), fun x => (hs c).2 (.tail _ x)⟩) _).trans
        (conns_step su st op fun c => ⟨fun e => (hs c).1 (by rw [e]; exact .head _),
          fun e => (hs c).2 (by rw [e]; exact .head _)⟩)
  rw [h.notices, hc ops hs]

/-- C149, everything is taken: as many reactions as there are actions left take them all. -/
theorem told_all (su : Setup) (conns : List String) (ops : List Op) (hs : Settled ops)
    (hh : Healthy ops) (k : Nat)
    (hk : (run su { conns := conns } ops).worker.emitted.length ≤ k) :
    (run su { conns := conns } (ops ++ List.replicate k (.react []))).notices = owed conns
      (run su { conns := conns } ops).worker.emitted := by
  have h := Told.run su ops hs hh { conns := conns } ⟨rfl, Nat.le_refl _, rfl⟩
  have key : ∀ (k : Nat) (st : Reg), Told st →
      (run su st (List.replicate k (.react []))).handled =
        min (st.handled + k) st.worker.emitted.length ∧
      (run su st (List.replicate k (.react []))).worker.emitted = st.worker.emitted := by
    intro k
    induction k with
    | zero => intro st h; exact ⟨by have := h.handled; show st.handled = _; omega, rfl⟩
    | succ k ih =>
      intro st h
      obtain ⟨h1, h2⟩ := h.react
      obtain ⟨i1, i2⟩ := ih _ h1
      rw [react_emitted, h2] at i1
      rw [react_emitted] at i2
      refine ⟨?_, i2⟩
      show (run su (st.react []) (List.replicate k (.react []))).handled = _
      rw [i1]
      omega
  obtain ⟨k1, k2⟩ := key k _ h
  have hp := told_partial su conns (ops ++ List.replicate k (.react []))
    (fun c => by
      refine ⟨fun x => ?_, fun x => ?_⟩ <;> rcases List.mem_append.mp x with x | x
      · exact (hs c).1 x
      · cases (List.mem_replicate.mp x).2
      · exact (hs c).2 x
      · cases (List.mem_replicate.mp x).2)
    (fun b x => by
      rcases List.mem_append.mp x with x | x
      · exact hh b x
      · have := (List.mem_replicate.mp x).2
        injection this)
  rw [hp.2, run_append, k1, k2]
  congr 1
  exact List.take_of_length_le (by omega)

/-- C149, who is told of what: whatever fails, a client is told only of messages with which it was
named, and the clients of a declared loss are those named with the message. -/
theorem told_named (su : Setup) (conns : List String) (ops : List Op) :
    (∀ c id, (c, id) ∈ (run su { conns := conns } ops).notices →
      ∃ k ∈ (run su { conns := conns } ops).calls, k.req.id = id ∧ c ∈ k.req.inform) ∧
    (DistinctIds (run su { conns := conns } ops) →
      ∀ id clients, Action.lost id clients ∈ (run su { conns := conns } ops).worker.emitted →
        ∀ k ∈ (run su { conns := conns } ops).calls, k.req.id = id → k.req.inform = clients) := by
  have h := Named.run su ops _ (named_init conns)
  refine ⟨?_, ?_⟩
  · intro c id hc
    obtain ⟨m, cl, ⟨k, h1, h2, h3, h4⟩, h5⟩ := h.notices _ hc
    exact ⟨k, h1, h2, by rw [h4]; exact h5⟩
  · intro hd id clients hl k hk hid
    obtain ⟨m, k', h1, h2, h3, h4⟩ := h.emitted _ hl
    obtain ⟨i, hi⟩ := List.mem_iff_getElem?.mp hk
    obtain ⟨j, hj⟩ := List.mem_iff_getElem?.mp h1
    have := hd i j k k' hi hj (by rw [hid, h2])
    subst this
    rw [hi] at hj
    injection hj with hj
    rw [hj, h4]

/-- Whatever is broadcast, at first or again, has the text and the clients of a call with its id. -/
theorem broadcast_content (su : Setup) (conns : List String) (ops : List Op) (b : Broadcast)
    (hb : b ∈ (run su { conns := conns } ops).broadcasts) :
    ∃ k ∈ (run su { conns := conns } ops).calls,
      k.req.id = b.id ∧ k.req.message = b.message ∧ k.req.inform = b.inform :=
  (Named.run su ops _ (named_init conns)).broadcasts b hb

example : (run ⟨true, ⟨10, 2⟩⟩ {} lostAfterTwo).broadcasts =
    [⟨"bob", "m1", "hi", []⟩, ⟨"m1", "m1", "hi", []⟩] := by decide

/-- One client is connected here, the other is not. -/
example : (run ⟨true, ⟨10, 1⟩⟩ { conns := ["eve"] } [.install,
    .call ⟨"bob", "m1", "hi", false, ["zoe", "eve"]⟩ true, .publish 0, .work 0, .check 20, .emit,
    .react []]).notices = [("eve", "m1")] := by decide

/-! ## C150: waiting ends -/

/-- C150 in full: whatever has happened, every call can return by what the tasks of the registry do by
themselves, with no acknowledgement ever arriving. -/
def FullEnds : Prop :=
  ∀ (su : Setup) (conns : List String) (ops : List Op) (n : Nat), su.broadcaster = true →
    n < (run su { conns := conns } (.install :: ops)).calls.length →
    ∃ more, (∀ op ∈ more, Internal op) ∧
      outcome (run su (run su { conns := conns } (.install :: ops)) more) n ≠ none

/-- **C150 is false of the code.** Once a write to a client has failed, a message of which no
acknowledgement arrives is broadcast once at most and the call that waits for it waits forever,
whatever happens. -/
theorem waits_forever (su : Setup) (hb : su.broadcaster = true) (hm : 2 ≤ su.cfg.maxAttempts)
    (conns : List String) (before after : List Op) (r : Request) (ok : Bool)
    (hd : (run su { installed := true, conns := conns } before).dead = true)
    (hu : ∀ op ∈ before, Silent r.id op) (hw : r.wait = true)
    (hl : r.conn ∉ (run su { installed := true, conns := conns } before).conns)
    (ha : ∀ op ∈ after, Silent r.id op) :
    outcome (run su { installed := true, conns := conns } (before ++ .call r ok :: after))
        (run su { installed := true, conns := conns } before).calls.length = none ∧
      broadcastsOf (run su { installed := true, conns := conns } (before ++ .call r ok :: after)) r.id
        ≤ 1 := by
  rw [run_append]
  have hi := Inv.run (A := fun id => Op.ack id ∈ before) su hb before _ (inv_init _ conns)
    (fun _ x => x)
  have hc := Counted.run (su := su) before _
    (counted_init su { installed := true, conns := conns } rfl rfl)
  have hun := Unused.run su before hu _ (unused_init r.id conns true)
  have hst := stuck_call hb hi hc hd r ok hun hw (by simpa using hl)
  have := Stuck.run su hm after ha _ hst
  obtain ⟨r', g, h1, _, _, h4, h5⟩ := this.call
  have h1 : (run su (run su { installed := true, conns := conns } before)
    (.call r ok :: after)).calls[_]? = _ := h1
  have h5 : broadcastsOf (run su (run su { installed := true, conns := conns } before)
    (.call r ok :: after)) r.id = _ := h5
  refine ⟨?_, ?_⟩
  · unfold outcome
    rw [h1]
    rcases h4 with h4 | h4 | h4 <;> rw [h4]
  · rw [h5]; split <;> omega

/-- The message to bob is lost after two attempts; telling "gone" of it fails. -/
def failedNotice : List Op := [.call ⟨"bob", "m0", "hi", false, ["gone"]⟩ true,
  .publish 0, .work 0, .check 20, .emit, .react [], .work 25, .check 40, .emit, .react ["gone"]]

theorem ends_violated : ¬ FullEnds := by
  intro h
  have e : ∀ l, run ⟨true, ⟨10, 2⟩⟩ { conns := ["gone"] } (.install :: l) =
      run ⟨true, ⟨10, 2⟩⟩ { installed := true, conns := ["gone"] } l := fun _ => rfl
  obtain ⟨more, h1, h2⟩ := h ⟨true, ⟨10, 2⟩⟩ ["gone"] (failedNotice ++ [.call someRequest true]) 1 rfl
    (by decide)
  rw [e, ← run_append, List.append_assoc] at h2
  have hd : (run ⟨true, ⟨10, 2⟩⟩ { installed := true, conns := ["gone"] } failedNotice).dead = true := by
    decide
  have := (waits_forever ⟨true, ⟨10, 2⟩⟩ rfl (Nat.le_refl _) ["gone"] failedNotice more someRequest
    true hd
    (by
      intro op ho
      refine ⟨fun e => ?_, fun r ok e => ?_⟩
      · subst e
        revert ho
        decide
      · subst e
        simp only [failedNotice, List.mem_cons, reduceCtorEq, List.not_mem_nil, or_false, Op.call.injEq]
          at ho
        rw [ho.1]
        decide)
    rfl (by decide)
    (by
      intro op ho
      have := h1 op ho
      refine ⟨fun e => ?_, fun r ok e => ?_⟩
      · subst e; exact this.elim
      · subst e; exact this.elim)).1
  exact h2 this

/-- **C150, partial.** As long as no write has failed in the reacting task, every call can return by
what the tasks do by themselves: the message is sent again until the attempts are used up, declared
lost, and the call returns. Resends are addressed to the id of the message, which must therefore not
be the id of a connection of this node. Missing: registries in which a write has failed, and messages
with the id of a connection. -/
theorem ends_partial (su : Setup) (hb : su.broadcaster = true) (conns : List String) (ops : List Op)
    (n : Nat) (hn : n < (run su { conns := conns } (.install :: ops)).calls.length)
    (hd : (run su { conns := conns } (.install :: ops)).dead = false)
    (hc : ∀ c, (run su { conns := conns } (.install :: ops)).calls[n]? = some c →
      c.req.id ∉ (run su { conns := conns } (.install :: ops)).conns) :
    ∃ more, (∀ op ∈ more, Internal op) ∧
      outcome (run su (run su { conns := conns } (.install :: ops)) more) n ≠ none := by
  have e : run su { conns := conns } (.install :: ops) =
      run su { installed := true, conns := conns } ops := by simp [run, step, hb]
  rw [e] at hn hd hc ⊢
  have fine : ∀ (l : List Op) (r : Request),
      (run su { installed := true, conns := conns } l).calls[n]? = some ⟨r, .waiting⟩ →
      (run su { installed := true, conns := conns } l).dead = false →
      r.id ∉ (run su { installed := true, conns := conns } l).conns →
      Ends su (run su { installed := true, conns := conns } l) n := by
    intro l r h1 h2 h3
    refine ends_waiting (A := fun id => Op.ack id ∈ l) (r := r) hb ?_
      (handled_le su l _ (Nat.le_refl _))
    exact ⟨Inv.run su hb l _ (inv_init _ conns) (fun _ x => x),
      Counted.run (su := su) l _ (counted_init su _ rfl rfl),
      Served.run su l _ (served_init conns), h1, h2, by simpa using h3⟩
  have published : ∀ (l : List Op) (r : Request),
      (run su { installed := true, conns := conns } l).calls[n]? = some ⟨r, .published⟩ →
      (run su { installed := true, conns := conns } l).dead = false →
      r.id ∉ (run su { installed := true, conns := conns } l).conns →
      Ends su (run su { installed := true, conns := conns } l) n := by
    intro l r h1 h2 h3
    refine Ends.after [.await n] (by intro o ho; rw [List.mem_singleton.mp ho]; trivial) ?_
    have hin := (Inv.run (A := fun id => Op.ack id ∈ l) su hb l _ (inv_init _ conns)
      (fun _ x => x)).installed
    have hl := (List.getElem?_eq_some_iff.mp h1).1
    have hst : run su (run su { installed := true, conns := conns } l) [.await n] =
        { (run su { installed := true, conns := conns } l).tell (.wait r.id n) with
          calls := (run su { installed := true, conns := conns } l).calls.set n ⟨r, .waiting⟩ } := by
      show Reg.await _ n = _
      unfold Reg.await
      rw [h1]
      simp only [hin, if_true]
    have := fine (l ++ [.await n]) r
      (by rw [run_append, hst]; exact List.getElem?_set_self hl)
      (by rw [run_append, hst]; show (Reg.tell _ _).dead = _; rw [tell_installed hin]; exact h2)
      (by rw [run_append, hst]; show _ ∉ (Reg.tell _ _).conns; rw [tell_installed hin]; exact h3)
    rw [run_append] at this
    exact this
  obtain ⟨⟨r, g⟩, hg⟩ : ∃ c, (run su { installed := true, conns := conns } ops).calls[n]? = some c :=
    ⟨_, List.getElem?_eq_getElem hn⟩
  have hid := hc _ hg
  show Ends su _ n
  cases g with
  | done res =>
    refine ⟨[], nofun, ?_⟩
    show outcome (run su { installed := true, conns := conns } ops) n ≠ none
    unfold outcome
    rw [hg]
    nofun
  | waiting => exact fine ops r hg hd hid
  | published => exact published ops r hg hd hid
  | recorded =>
    have hst : run su (run su { installed := true, conns := conns } ops) [.publish n] =
        { run su { installed := true, conns := conns } ops with
          broadcasts := (run su { installed := true, conns := conns } ops).broadcasts ++
            [⟨r.conn, r.id, r.message, r.inform⟩]
          calls := (run su { installed := true, conns := conns } ops).calls.set n
            ⟨r, if r.wait then .published else .done .ok⟩ } := by
      show Reg.publish _ n = _
      unfold Reg.publish
      rw [hg]
    refine Ends.after [.publish n] (by intro o ho; rw [List.mem_singleton.mp ho]; trivial) ?_
    cases hw : r.wait with
    | false =>
      refine ⟨[], nofun, ?_⟩
      show outcome (run su (run su { installed := true, conns := conns } ops) [.publish n]) n ≠ none
      rw [hst]
      unfold outcome
      dsimp only
      rw [List.getElem?_set_self hn, hw]
      nofun
    | true =>
      have := published (ops ++ [.publish n]) r
        (by
          rw [run_append, hst]
          show (List.set _ n _)[n]? = _
          rw [List.getElem?_set_self hn, hw]
          rfl)
        (by rw [run_append, hst]; exact hd)
        (by rw [run_append, hst]; exact hid)
      rw [run_append] at this
      exact this

/-- The hypotheses hold of a call that waits for a message nobody acknowledges. -/
example : (run ⟨true, ⟨10, 2⟩⟩ { conns := ["eve"] } [.install, .call someRequest true, .publish 0,
      .await 0]).dead = false ∧
    outcome (run ⟨true, ⟨10, 2⟩⟩ { conns := ["eve"] } [.install, .call someRequest true, .publish 0,
      .await 0]) 0 = none := by decide

end Verif.Acks.Wait
