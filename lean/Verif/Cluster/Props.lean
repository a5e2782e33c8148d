import Verif.Cluster.Lemmas

/-!
# Properties of message passing between nodes (C21, C22, C55)
-/

namespace Verif.Cluster

open Spec Verif.Assoc

/-! ## C21 -/

/-- A message to a connection of the sending node itself is written there once for each send; no
node is told about it and nothing is broadcast. -/
theorem local_writes (su : Setup) (i : Nat) (c id m : String) (ops : List Op)
    (hi : i < su.n) (hc : c ∈ su.conns i) (hs : OnlySentBy ops i c id m) :
    (∀ w ∈ writesOf id (run su ops), w.node = i ∧ w.connection = c ∧ w.message = m) ∧
    (writesOf id (run su ops)).length = sends id ops ∧
    (∀ k, told id (run su ops) k = 0) := by
  have key : (∀ k b, b ∈ (run su ops).outgoing k → isMsg id b = false ∧ isAck id b = false) ∧
      (∀ k w, w ∈ (run su ops).incoming k → isMsg id w.message = false ∧
        isAck id w.message = false) ∧
      (∀ k, id ∉ (run su ops).received k) ∧
      (∀ w ∈ writesOf id (run su ops), w.node = i ∧ w.connection = c ∧ w.message = m) ∧
      (writesOf id (run su ops)).length = sends id ops := by
    induction ops using snoc_induction with
    | nil => simp [run, State.init, writesOf, sends]
    | snoc ops op ih =>
      obtain ⟨h1, h2, h3, h4, h5⟩ := ih (fun k c' m' ok h => hs k c' m' ok (by simp [h]))
      rw [run_snoc, sends_append]
      generalize run su ops = st at *
      cases op with
      | send k c' id' m' ok =>
        by_cases hid : id' = id
        · subst hid
          obtain ⟨rfl, rfl, rfl⟩ := hs k c' m' ok (by simp)
          simp only [step, hi, if_true, send, List.contains_eq_mem, hc, decide_true, sends]
          refine ⟨h1, h2, h3, ?_, ?_⟩
          · intro w hw
            simp only [writesOf, List.filter_append, List.mem_append] at hw h4
            rcases hw with hw | hw
            · exact h4 w hw
            · simp at hw; subst hw; exact ⟨rfl, rfl, rfl⟩
          · simp only [writesOf, List.filter_append, List.length_append] at h5 ⊢
            simp
            omega
        · have hz : sends id [Op.send k c' id' m' ok] = 0 := by simp [sends, hid]
          rw [hz, Nat.add_zero]
          simp only [step]
          by_cases hk : k < su.n
          · simp only [hk, if_true, send]
            split
            · have hw : ∀ x : State, x.writes = st.writes ++ [⟨k, c', id', m', ok⟩] →
                  writesOf id x = writesOf id st := by
                intro x hx; simp [writesOf, hx, hid]
              refine ⟨h1, h2, h3, ?_, ?_⟩
              · rw [hw _ rfl]; exact h4
              · rw [hw _ rfl]; exact h5
            · refine ⟨?_, h2, h3, h4, h5⟩
              intro x b hb
              by_cases hx : x = k
              · subst hx
                simp only [upd_self, List.mem_append, List.mem_singleton] at hb
                rcases hb with hb | rfl
                · exact h1 _ b hb
                · simp [isMsg, isAck, hid]
              · simp only [upd_ne _ _ _ _ hx] at hb
                exact h1 x b hb
          · simp only [hk, if_false]; exact ⟨h1, h2, h3, h4, h5⟩
      | publish k =>
        simp only [sends, Nat.add_zero, step]
        by_cases hk : k < su.n
        · simp only [hk, if_true, publish]
          cases hout : st.outgoing k with
          | nil => exact ⟨h1, h2, h3, h4, h5⟩
          | cons b rest =>
            have hbk : b ∈ st.outgoing k := by rw [hout]; simp
            refine ⟨?_, ?_, h3, h4, h5⟩
            · intro x b' hb'
              by_cases hx : x = k
              · subst hx
                simp only [upd_self] at hb'
                exact h1 x b' (by rw [hout]; exact List.mem_cons_of_mem _ hb')
              · simp only [upd_ne _ _ _ _ hx] at hb'
                exact h1 x b' hb'
            · intro x w hw
              simp only at hw
              split at hw
              · simp only [List.mem_append, List.mem_singleton] at hw
                rcases hw with hw | rfl
                · exact h2 x w hw
                · exact h1 k b hbk
              · exact h2 x w hw
        · simp only [hk, if_false]; exact ⟨h1, h2, h3, h4, h5⟩
      | deliver k ok =>
        simp only [sends, Nat.add_zero, step]
        by_cases hk : k < su.n
        · simp only [hk, if_true, deliver]
          cases hinc : st.incoming k with
          | nil => exact ⟨h1, h2, h3, h4, h5⟩
          | cons w rest =>
            dsimp only
            have hwk := h2 k w (by rw [hinc]; simp)
            have h2' : ∀ x w', w' ∈ upd st.incoming k rest x →
                isMsg id w'.message = false ∧ isAck id w'.message = false := by
              intro x w' hw'
              by_cases hx : x = k
              · subst hx
                simp only [upd_self] at hw'
                exact h2 x w' (by rw [hinc]; exact List.mem_cons_of_mem _ hw')
              · simp only [upd_ne _ _ _ _ hx] at hw'
                exact h2 x w' hw'
            obtain ⟨src, body⟩ := w
            split
            · cases body with
              | webSocket c' id' s' m' =>
                have hid : id' ≠ id := by simpa [isMsg] using hwk.1
                simp only [handle]
                split
                · exact ⟨h1, h2', h3, h4, h5⟩
                · split
                  · have hw : ∀ x : State, x.writes = st.writes ++ [⟨k, c', id', m', ok⟩] →
                        writesOf id x = writesOf id st := by
                      intro x hx; simp [writesOf, hx, hid]
                    refine ⟨?_, h2', h3, ?_, ?_⟩
                    · intro x b hb
                      by_cases hx : x = k
                      · subst hx
                        simp only [upd_self, List.mem_append, List.mem_singleton] at hb
                        rcases hb with hb | rfl
                        · exact h1 _ b hb
                        · simp [isMsg, isAck, hid]
                      · simp only [upd_ne _ _ _ _ hx] at hb
                        exact h1 x b hb
                    · rw [hw _ rfl]; exact h4
                    · rw [hw _ rfl]; exact h5
                  · exact ⟨h1, h2', h3, h4, h5⟩
              | ack id' node =>
                have hid : id' ≠ id := by simpa [isAck] using hwk.2
                simp only [handle]
                refine ⟨h1, h2', ?_, h4, h5⟩
                intro x
                by_cases hx : x = k
                · subst hx
                  simp only [upd_self, List.mem_append, List.mem_singleton, not_or]
                  exact ⟨h3 x, Ne.symm hid⟩
                · simp only [upd_ne _ _ _ _ hx]; exact h3 x
            · exact ⟨h1, h2', h3, h4, h5⟩
        · simp only [hk, if_false]; exact ⟨h1, h2, h3, h4, h5⟩
  obtain ⟨_, _, h3, h4, h5⟩ := key
  exact ⟨h4, h5, fun k => List.count_eq_zero.mpr (h3 k)⟩

/-- **C21, always.** If node names are distinct, a connection is open on exactly one node `j`, and a
message is sent to it once, by node `i`, then at any moment, in whatever order messages are published
and handled and whatever else is sent, it has been written at most once, only by node `j`, to that
connection, with the text that was sent; and no other node than `i` is told it was received. -/
theorem at_most_once (su : Setup) (i j : Nat) (c id m : String) (ops : List Op)
    (hn : DistinctNames su) (ho : OpenOnlyOn su c j) (hi : i < su.n)
    (hs : OnlySentBy ops i c id m) (h1 : sends id ops = 1) :
    (writesOf id (run su ops)).length ≤ 1 ∧
    (∀ w ∈ writesOf id (run su ops), w.node = j ∧ w.connection = c ∧ w.message = m) ∧
    (∀ k, k < su.n → k ≠ i → told id (run su ops) k = 0) := by
  by_cases hij : i = j
  · subst hij
    obtain ⟨ha, hb, hc⟩ := local_writes su i c id m ops hi ho.2.1 hs
    exact ⟨by omega, ha, fun k _ _ => hc k⟩
  · have hinv := inv_run su i j c id m ops hn ho hi hij hs
    refine ⟨by have := hinv.msgs; omega, ?_, ?_⟩
    · intro w hw
      simp only [writesOf, List.mem_filter, beq_iff_eq] at hw
      exact hinv.wr w hw.1 hw.2
    · intro k hk hki
      exact List.count_eq_zero.mpr (hinv.recv k hk hki)

/-- **C21, eventually.** When all channels have been emptied, it has been written exactly once, and
the sender, if it is another node, has been told exactly once. -/
theorem exactly_once (su : Setup) (i j : Nat) (c id m : String) (ops : List Op)
    (hn : DistinctNames su) (ho : OpenOnlyOn su c j) (hi : i < su.n)
    (hs : OnlySentBy ops i c id m) (h1 : sends id ops = 1) (hset : Settled su (run su ops)) :
    (∃ ok, writesOf id (run su ops) = [⟨j, c, id, m, ok⟩]) ∧
    told id (run su ops) i = if i = j then 0 else 1 := by
  have hone : ∀ l : List Write, l.length = 1 →
      (∀ w ∈ l, w.node = j ∧ w.connection = c ∧ w.message = m) → (∀ w ∈ l, w.messageId = id) →
      ∃ ok, l = [⟨j, c, id, m, ok⟩] := by
    intro l hl ha hb
    match l, hl with
    | [w], _ =>
      obtain ⟨h1, h2, h3⟩ := ha w (by simp)
      have h4 := hb w (by simp)
      refine ⟨w.ok, ?_⟩
      cases w
      simp_all
  have hid : ∀ w ∈ writesOf id (run su ops), w.messageId = id := by
    intro w hw
    simp only [writesOf, List.mem_filter, beq_iff_eq] at hw
    exact hw.2
  by_cases hij : i = j
  · subst hij
    obtain ⟨ha, hb, hc⟩ := local_writes su i c id m ops hi ho.2.1 hs
    refine ⟨hone _ (by omega) ha hid, by simp [hc i]⟩
  · have hinv := inv_run su i j c id m ops hn ho hi hij hs
    have hm := hinv.msgs
    have hk := hinv.acks
    rw [(hset i hi).1, (hset j ho.1).2, h1] at hm
    rw [(hset j ho.1).1, (hset i hi).2] at hk
    simp only [List.countP_nil, Nat.zero_add] at hm hk
    refine ⟨hone _ hm ?_ hid, by simp [hij, hk, hm]⟩
    intro w hw
    simp only [writesOf, List.mem_filter, beq_iff_eq] at hw
    exact hinv.wr w hw.1 hw.2

/-- Three nodes; the connection `c` is open on the third. -/
def threeNodes : Setup :=
  ⟨3, fun i => if i = 0 then "n0" else if i = 1 then "n1" else "n2",
    fun i => if i = 1 then ["d"] else if i = 2 then ["c"] else []⟩

/-- Two messages, handled in an order that differs between nodes. -/
def exampleOps : List Op :=
  [.send 0 "c" "m1" "hello" true, .send 1 "c" "m2" "hi" true, .publish 1, .publish 0, .deliver 2 true,
    .deliver 1 true, .deliver 2 true, .publish 2, .deliver 0 true, .deliver 0 true, .publish 2,
    .deliver 0 true, .deliver 0 true, .deliver 1 true, .deliver 1 true, .deliver 1 true,
    .deliver 2 true, .deliver 2 true]

example : DistinctNames threeNodes ∧ OpenOnlyOn threeNodes "c" 2 := by
  constructor
  · intro i j hi hj
    have : threeNodes.n = 3 := rfl
    have hi' : i = 0 ∨ i = 1 ∨ i = 2 := by omega
    have hj' : j = 0 ∨ j = 1 ∨ j = 2 := by omega
    rcases hi' with rfl | rfl | rfl <;> rcases hj' with rfl | rfl | rfl <;> decide
  · refine ⟨by decide, by decide, ?_⟩
    intro k hk
    have : threeNodes.n = 3 := rfl
    have hk' : k = 0 ∨ k = 1 ∨ k = 2 := by omega
    rcases hk' with rfl | rfl | rfl <;> decide

example : sends "m1" exampleOps = 1 ∧
    (run threeNodes exampleOps).writes = [⟨2, "c", "m2", "hi", true⟩, ⟨2, "c", "m1", "hello", true⟩] ∧
    told "m1" (run threeNodes exampleOps) 0 = 1 ∧ told "m2" (run threeNodes exampleOps) 1 = 1 ∧
    told "m2" (run threeNodes exampleOps) 0 = 0 ∧
    (run threeNodes exampleOps).incoming 0 = [] ∧ (run threeNodes exampleOps).incoming 1 = [] ∧
    (run threeNodes exampleOps).incoming 2 = [] ∧ (run threeNodes exampleOps).outgoing 2 = [] := by
  decide

/-- Distinct names are needed: a message is never written on another node of the same name. (The
runtime gives every node the name "node1", application.rs 190-199.) -/
theorem same_name_never_written (su : Setup) (i : Nat) (c id m : String) (ops : List Op)
    (hsame : ∀ k, k < su.n → su.name k = su.name i) (hc : c ∉ su.conns i)
    (hs : OnlySentBy ops i c id m) : writesOf id (run su ops) = [] := by
  have key : (∀ k w, w ∈ (run su ops).incoming k → w.sourceNode = su.name i) ∧
      writesOf id (run su ops) = [] := by
    induction ops using snoc_induction with
    | nil => simp [run, State.init, writesOf]
    | snoc ops op ih =>
      obtain ⟨h1, h2⟩ := ih (fun k c' m' ok h => hs k c' m' ok (by simp [h]))
      rw [run_snoc]
      generalize run su ops = st at *
      cases op with
      | send k c' id' m' ok =>
        simp only [step]
        split
        · simp only [send]
          split
          · rename_i hcc
            refine ⟨h1, ?_⟩
            by_cases hid : id' = id
            · subst hid
              obtain ⟨rfl, rfl, rfl⟩ := hs k c' m' ok (by simp)
              simp [hc] at hcc
            · simp only [writesOf, List.filter_append] at h2 ⊢
              simp [h2, hid]
          · exact ⟨h1, h2⟩
        · exact ⟨h1, h2⟩
      | publish k =>
        simp only [step]
        split
        · rename_i hk
          simp only [publish]
          split
          · exact ⟨h1, h2⟩
          · refine ⟨?_, h2⟩
            intro x w hw
            simp only at hw
            split at hw
            · simp only [List.mem_append, List.mem_singleton] at hw
              rcases hw with hw | rfl
              · exact h1 x w hw
              · exact hsame k hk
            · exact h1 x w hw
        · exact ⟨h1, h2⟩
      | deliver k ok =>
        simp only [step]
        split
        · rename_i hk
          simp only [deliver]
          split
          · exact ⟨h1, h2⟩
          · rename_i w rest hinc
            have hw := h1 k w (by rw [hinc]; simp)
            have hacc : accepts (su.name k) w = false := by
              simp [accepts, hw, hsame k hk]
            simp only [hacc, Bool.false_eq_true, if_false]
            refine ⟨?_, h2⟩
            intro x w' hw'
            by_cases hx : x = k
            · subst hx
              simp only [upd_self] at hw'
              exact h1 x w' (by rw [hinc]; exact List.mem_cons_of_mem _ hw')
            · simp only [upd_ne _ _ _ _ hx] at hw'
              exact h1 x w' hw'
        · exact ⟨h1, h2⟩
  exact key.2

/-- The same three nodes, all with the name that the runtime uses. -/
def sameNames : Setup := { threeNodes with name := fun _ => "node1" }

example : (run sameNames [.send 0 "c" "m1" "hello" true, .publish 0, .deliver 2 true]).writes = [] := by
  decide

/-! ## C22 -/

/-- C22 in full: a node is told that a message was received only if it was written successfully. -/
def FullAckDelivered : Prop :=
  ∀ (su : Setup) (ops : List Op) (i : Nat) (id : String),
    told id (run su ops) i > 0 → ∃ w ∈ (run su ops).writes, w.messageId = id ∧ w.ok = true

/-- **C22 fails**: the acknowledgement is sent although the write to the socket failed. -/
theorem ack_delivered_violated : ¬ FullAckDelivered := by
  intro h
  obtain ⟨w, hw, _, hok⟩ := h threeNodes
    [.send 0 "c" "m" "x" true, .publish 0, .deliver 2 false, .publish 2, .deliver 0 true,
      .deliver 0 true] 0 "m" (by decide)
  have : w = ⟨2, "c", "m", "x", false⟩ := by simpa [run, step, send, publish, deliver, accepts,
    handle, threeNodes, State.init, upd] using hw
  subst this
  simp at hok

/-- Every acknowledgement, on its way or recorded, follows a write attempt. -/
theorem acks_follow_writes (su : Setup) (ops : List Op) (id : String) :
    let st := run su ops
    ((∃ k b, b ∈ st.outgoing k ∧ isAck id b = true) ∨
      (∃ k w, w ∈ st.incoming k ∧ isAck id w.message = true) ∨ (∃ k, id ∈ st.received k)) →
    ∃ w ∈ st.writes, w.messageId = id ∧ w.connection ∈ su.conns w.node := by
  intro st
  have mono : ∀ (ws ws' : List Write), (∃ w ∈ ws, w.messageId = id ∧ w.connection ∈ su.conns w.node) →
      ∃ w ∈ ws ++ ws', w.messageId = id ∧ w.connection ∈ su.conns w.node := by
    rintro ws ws' ⟨w, hw, h⟩
    exact ⟨w, by simp [hw], h⟩
  induction ops using snoc_induction with
  | nil =>
    rintro (⟨k, b, hb, _⟩ | ⟨k, w, hw, _⟩ | ⟨k, hk⟩)
    · simp [st, run, State.init] at hb
    · simp [st, run, State.init] at hw
    · simp [st, run, State.init] at hk
  | snoc ops op ih =>
    simp only at ih
    simp only [st]
    rw [run_snoc]
    generalize run su ops = s at *
    cases op with
    | send k c' id' m' ok =>
      simp only [step]
      split
      · simp only [send]
        split
        · intro h; exact mono _ _ (ih h)
        · intro h
          apply ih
          rcases h with ⟨x, b, hb, hm⟩ | h | h
          · left
            by_cases hx : x = k
            · subst hx
              simp only [upd_self, List.mem_append, List.mem_singleton] at hb
              rcases hb with hb | rfl
              · exact ⟨_, b, hb, hm⟩
              · simp [isAck] at hm
            · simp only [upd_ne _ _ _ _ hx] at hb
              exact ⟨x, b, hb, hm⟩
          · exact Or.inr (Or.inl h)
          · exact Or.inr (Or.inr h)
      · exact ih
    | publish k =>
      simp only [step]
      split
      · simp only [publish]
        split
        · exact ih
        · rename_i b rest hout
          intro h
          apply ih
          rcases h with ⟨x, b', hb', hm⟩ | ⟨x, w, hw, hm⟩ | h
          · left
            by_cases hx : x = k
            · subst hx
              simp only [upd_self] at hb'
              exact ⟨x, b', by rw [hout]; exact List.mem_cons_of_mem _ hb', hm⟩
            · simp only [upd_ne _ _ _ _ hx] at hb'
              exact ⟨x, b', hb', hm⟩
          · simp only at hw
            split at hw
            · simp only [List.mem_append, List.mem_singleton] at hw
              rcases hw with hw | rfl
              · exact Or.inr (Or.inl ⟨x, w, hw, hm⟩)
              · exact Or.inl ⟨k, b, by rw [hout]; simp, hm⟩
            · exact Or.inr (Or.inl ⟨x, w, hw, hm⟩)
          · exact Or.inr (Or.inr h)
      · exact ih
    | deliver k ok =>
      simp only [step]
      split
      · simp only [deliver]
        split
        · exact ih
        · rename_i w rest hinc
          have hsub : ∀ x w', w' ∈ upd s.incoming k rest x → w' ∈ s.incoming x := by
            intro x w' hw'
            by_cases hx : x = k
            · subst hx; rw [hinc]; simp only [upd_self] at hw'; exact List.mem_cons_of_mem _ hw'
            · rwa [upd_ne _ _ _ _ hx] at hw'
          have base : (∃ k b, b ∈ s.outgoing k ∧ isAck id b = true) ∨
              (∃ x w, w ∈ upd s.incoming k rest x ∧ isAck id w.message = true) ∨
              (∃ k, id ∈ s.received k) →
              ∃ w ∈ s.writes, w.messageId = id ∧ w.connection ∈ su.conns w.node := by
            intro h
            apply ih
            rcases h with h | ⟨x, w', hw', hm⟩ | h
            · exact Or.inl h
            · exact Or.inr (Or.inl ⟨x, w', hsub x w' hw', hm⟩)
            · exact Or.inr (Or.inr h)
          obtain ⟨src, body⟩ := w
          split
          · cases body with
            | webSocket c' id' s' m' =>
              simp only [handle]
              split
              · exact base
              · split
                · rename_i hc
                  intro h
                  by_cases hid : id' = id
                  · exact ⟨⟨k, c', id', m', ok⟩, by simp, hid, by simpa using hc⟩
                  · apply mono
                    apply base
                    rcases h with ⟨x, b, hb, hm⟩ | h | h
                    · left
                      by_cases hx : x = k
                      · subst hx
                        simp only [upd_self, List.mem_append, List.mem_singleton] at hb
                        rcases hb with hb | rfl
                        · exact ⟨_, b, hb, hm⟩
                        · simp [isAck, hid] at hm
                      · simp only [upd_ne _ _ _ _ hx] at hb
                        exact ⟨x, b, hb, hm⟩
                    · exact Or.inr (Or.inl h)
                    · exact Or.inr (Or.inr h)
                · exact base
            | ack id' node =>
              simp only [handle]
              intro h
              rcases h with h | h | ⟨x, hx⟩
              · exact base (Or.inl h)
              · exact base (Or.inr (Or.inl h))
              · by_cases hxk : x = k
                · subst hxk
                  simp only [upd_self, List.mem_append, List.mem_singleton] at hx
                  rcases hx with hx | rfl
                  · exact base (Or.inr (Or.inr ⟨x, hx⟩))
                  · apply ih
                    exact Or.inr (Or.inl ⟨x, _, by rw [hinc]; exact List.mem_cons_self, by simp [isAck]⟩)
                · simp only [upd_ne _ _ _ _ hxk] at hx
                  exact base (Or.inr (Or.inr ⟨x, hx⟩))
          · exact base
      · exact ih

/-- All writes that happen in these steps succeed. -/
def Spec.NoFailures (ops : List Op) : Prop :=
  (∀ k c id m ok, Op.send k c id m ok ∈ ops → ok = true) ∧ (∀ k ok, Op.deliver k ok ∈ ops → ok = true)

theorem writes_ok (su : Setup) (ops : List Op) (h : NoFailures ops) :
    ∀ w ∈ (run su ops).writes, w.ok = true := by
  induction ops using snoc_induction with
  | nil => simp [run, State.init]
  | snoc ops op ih =>
    have ih := ih ⟨fun k c id m ok hm => h.1 k c id m ok (by simp [hm]),
      fun k ok hm => h.2 k ok (by simp [hm])⟩
    rw [run_snoc]
    generalize run su ops = s at *
    cases op with
    | send k c' id' m' ok =>
      have hok := h.1 k c' id' m' ok (by simp)
      simp only [step, send]
      split
      · split
        · intro w hw
          simp only [List.mem_append, List.mem_singleton] at hw
          rcases hw with hw | rfl
          · exact ih w hw
          · exact hok
        · exact ih
      · exact ih
    | publish k =>
      simp only [step, publish]
      split
      · split <;> exact ih
      · exact ih
    | deliver k ok =>
      have hok := h.2 k ok (by simp)
      simp only [step, deliver]
      split
      · split
        · exact ih
        · split
          · rename_i w rest _ _
            cases w.message with
            | webSocket c' id' s' m' =>
              simp only [handle]
              split
              · exact ih
              · split
                · intro w hw
                  simp only [List.mem_append, List.mem_singleton] at hw
                  rcases hw with hw | rfl
                  · exact ih w hw
                  · exact hok
                · exact ih
            | ack id' node => exact ih
          · exact ih
      · exact ih

/-- **C22, the part that holds.** In every history, a node is told that a message was received only
after a node that hosts the recipient has tried to write it; if no write fails, it was written.

Missing: the result of the write is ignored. -/
theorem ack_delivered_partial (su : Setup) (ops : List Op) (i : Nat) (id : String)
    (h : told id (run su ops) i > 0) :
    ∃ w ∈ (run su ops).writes, w.messageId = id ∧ w.connection ∈ su.conns w.node ∧
      (NoFailures ops → w.ok = true) := by
  obtain ⟨w, hw, h1, h2⟩ := acks_follow_writes su ops id
    (Or.inr (Or.inr ⟨i, List.count_pos_iff.mp h⟩))
  exact ⟨w, hw, h1, h2, fun hf => writes_ok su ops hf w hw⟩

example : told "m1" (run threeNodes exampleOps) 0 > 0 := by decide

/-! ## C55 -/

/-- C55 in full: a message id that is broadcast again is not written a second time to a connection
to which it was written successfully before. -/
def FullNoDuplicates : Prop :=
  ∀ (su : Setup) (i j : Nat) (c id m : String) (ops : List Op), DistinctNames su →
    OpenOnlyOn su c j → i < su.n → i ≠ j → OnlySentBy ops i c id m → NoFailures ops →
    (writesOf id (run su ops)).length ≤ 1

/-- **What happens instead**: the recipient's node never suppresses anything, a message that is
broadcast `s` times is written `s` times. -/
theorem written_once_per_broadcast (su : Setup) (i j : Nat) (c id m : String) (ops : List Op)
    (hn : DistinctNames su) (ho : OpenOnlyOn su c j) (hi : i < su.n) (hij : i ≠ j)
    (hs : OnlySentBy ops i c id m) (hset : Settled su (run su ops)) :
    (writesOf id (run su ops)).length = sends id ops := by
  have hm := (inv_run su i j c id m ops hn ho hi hij hs).msgs
  rw [(hset i hi).1, (hset j ho.1).2] at hm
  simpa using hm

/-- Two nodes, the connection on the second. -/
def twoNodes : Setup :=
  ⟨2, fun i => if i = 0 then "n0" else "n1", fun i => if i = 1 then ["c"] else []⟩

theorem twoNodes_ok : DistinctNames twoNodes ∧ OpenOnlyOn twoNodes "c" 1 := by
  constructor
  · intro i j hi hj
    have : twoNodes.n = 2 := rfl
    have hi' : i = 0 ∨ i = 1 := by omega
    have hj' : j = 0 ∨ j = 1 := by omega
    rcases hi' with rfl | rfl <;> rcases hj' with rfl | rfl <;> decide
  · refine ⟨by decide, by decide, ?_⟩
    intro k hk
    have : twoNodes.n = 2 := rfl
    have hk' : k = 0 ∨ k = 1 := by omega
    rcases hk' with rfl | rfl <;> decide

/-- The first broadcast is acknowledged before the second is sent. -/
def repeated : List Op :=
  [.send 0 "c" "m" "x" true, .publish 0, .deliver 1 true, .publish 1, .deliver 0 true, .deliver 0 true,
    .send 0 "c" "m" "x" true, .publish 0, .deliver 1 true, .deliver 1 true]

/-- **C55 fails.** -/
theorem duplicates_violated : ¬ FullNoDuplicates := by
  intro h
  have := h twoNodes 0 1 "c" "m" "x" repeated twoNodes_ok.1 twoNodes_ok.2 (by decide) (by decide)
    (by
      intro k c' m' ok hm
      simp only [repeated, List.mem_cons, Op.send.injEq, List.not_mem_nil, or_false, reduceCtorEq,
        false_or, true_and, or_self] at hm
      exact ⟨hm.1, hm.2.1, hm.2.2.1⟩)
    ⟨by
      intro k c' id' m' ok hm
      simp only [repeated, List.mem_cons, Op.send.injEq, List.not_mem_nil, or_false, reduceCtorEq,
        false_or, or_self] at hm
      exact hm.2.2.2.2,
     by
      intro k ok hm
      simp only [repeated, List.mem_cons, Op.deliver.injEq, List.not_mem_nil, or_false, reduceCtorEq,
        false_or] at hm
      rcases hm with hm | hm | hm | hm | hm <;> exact hm.2⟩
  revert this
  decide

/-- **C55, the part that holds**: the message is written at most once per broadcast, and once in all
when it is broadcast once. -/
theorem duplicates_partial (su : Setup) (i j : Nat) (c id m : String) (ops : List Op)
    (hn : DistinctNames su) (ho : OpenOnlyOn su c j) (hi : i < su.n) (hij : i ≠ j)
    (hs : OnlySentBy ops i c id m) : (writesOf id (run su ops)).length ≤ sends id ops := by
  have hm := (inv_run su i j c id m ops hn ho hi hij hs).msgs
  omega

end Verif.Cluster
