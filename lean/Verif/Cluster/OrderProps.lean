import Verif.Cluster.Props

/-!
# C162: messages arrive in the order in which they were sent
-/

namespace Verif.Cluster

open Spec Verif.Assoc

namespace OrderSpec

/-- What a node sends to a connection, in order: ids and texts. -/
def stream (i : Nat) (c : String) : List Op → List (String × String)
  | [] => []
  | .send k c' id m _ :: ops => if k = i ∧ c' = c then (id, m) :: stream i c ops else stream i c ops
  | _ :: ops => stream i c ops

/-- The ids of these messages are used for nothing else; a message may be sent several times. -/
def Own (i : Nat) (c : String) (ops : List Op) : Prop :=
  ∀ id m, (id, m) ∈ stream i c ops → OnlySentBy ops i c id m

/-- What has been written to sockets of these messages, in order. -/
def written (i : Nat) (c : String) (ops : List Op) (st : State) : List (String × String) :=
  (st.writes.filter (fun w => ((stream i c ops).map Prod.fst).contains w.messageId)).map
    (fun w => (w.messageId, w.message))

end OrderSpec

open OrderSpec

theorem stream_append (i : Nat) (c : String) (a b : List Op) :
    stream i c (a ++ b) = stream i c a ++ stream i c b := by
  induction a with
  | nil => rfl
  | cons o a ih =>
    cases o with
    | send k c' id m ok =>
      simp only [List.cons_append, stream, ih]
      split <;> rfl
    | publish k => exact ih
    | deliver k ok => exact ih

/-- A broadcast of one of some messages. -/
def pick (ids : List String) : Body → Option (String × String)
  | .webSocket _ id _ m => if ids.contains id then some (id, m) else none
  | .ack _ _ => none

/-- The writes of some messages. -/
def writesIn (ids : List String) (st : State) : List (String × String) :=
  (st.writes.filter (fun w => ids.contains w.messageId)).map (fun w => (w.messageId, w.message))

/-- What is known of some messages that only node `i` sends, to a connection on node `j`. -/
structure Known (su : Setup) (i j : Nat) (c : String) (ids : List String) (st : State) : Prop where
  out : ∀ k b, b ∈ st.outgoing k → (pick ids b).isSome → k = i
  inc : ∀ k w, w ∈ st.incoming k → (pick ids w.message).isSome →
    ∃ id m, w = ⟨su.name i, .webSocket c id (su.name i) m⟩
  recv : ∀ k, k < su.n → k ≠ i → ∀ id ∈ ids, id ∉ st.received k

/-- The pipeline from the sender to the socket. -/
def pipe (i j : Nat) (ids : List String) (st : State) : List (String × String) :=
  writesIn ids st ++ ((st.incoming j).filterMap (fun w => pick ids w.message) ++
    (st.outgoing i).filterMap (pick ids))

theorem pipe_step (su : Setup) (i j : Nat) (c : String) (ids : List String) (st : State) (op : Op)
    (hn : DistinctNames su) (ho : OpenOnlyOn su c j) (hi : i < su.n) (hij : i ≠ j)
    (hs : ∀ k c' id m ok, op = .send k c' id m ok → (id ∈ ids ↔ k = i ∧ c' = c))
    (h : Known su i j c ids st) :
    pipe i j ids (step su st op) = pipe i j ids st ++ stream i c [op] := by
  obtain ⟨hj, hcj, honly⟩ := ho
  have hname : su.name i ≠ su.name j := fun e => hij (hn i j hi hj e)
  have hci : c ∉ su.conns i := fun e => hij (honly i hi e)
  cases op with
  | send k c' id m ok =>
    have hs := hs k c' id m ok rfl
    by_cases hp : k = i ∧ c' = c
    · obtain ⟨rfl, rfl⟩ := hp
      have hid : id ∈ ids := hs.2 ⟨rfl, rfl⟩
      simp [step, hi, send, hci, pipe, writesIn, upd_self, stream, pick, hid]
    · have hid : id ∉ ids := fun e => hp (hs.1 e)
      have hst : stream i c [.send k c' id m ok] = [] := by simp [stream, hp]
      rw [hst, List.append_nil]
      simp only [step]
      split
      · simp only [send]
        split
        · simp [pipe, writesIn, hid]
        · by_cases hk : k = i
          · subst hk
            simp [pipe, writesIn, upd_self, pick, hid]
          · simp [pipe, writesIn, upd_ne _ _ _ _ (Ne.symm hk)]
      · rfl
  | publish k =>
    have hst : stream i c [.publish k] = [] := rfl
    rw [hst, List.append_nil]
    simp only [step]
    split
    · simp only [publish]
      split
      · rfl
      · rename_i b rest hout
        by_cases hk : k = i
        · subst hk
          simp only [pipe, writesIn, upd_self, hj, if_true, hout, List.filterMap_append,
            List.filterMap_cons, List.filterMap_nil]
          cases pick ids b <;> simp
        · have hb : pick ids b = none := by
            cases hb : pick ids b with
            | none => rfl
            | some x => exact absurd (h.out k b (by rw [hout]; simp) (by simp [hb])) hk
          simp [pipe, writesIn, upd_ne _ _ _ _ (Ne.symm hk), hj, hb]
    · rfl
  | deliver k ok =>
    have hst : stream i c [.deliver k ok] = [] := rfl
    rw [hst, List.append_nil]
    simp only [step]
    split
    · rename_i hkn
      simp only [deliver]
      split
      · rfl
      · rename_i w rest hinc
        cases hb : pick ids w.message with
        | some x =>
          obtain ⟨id, m, rfl⟩ := h.inc k w (by rw [hinc]; simp) (by simp [hb])
          have hid : id ∈ ids := by
            simp only [pick] at hb
            split at hb
            · rename_i hh; simpa using hh
            · cases hb
          by_cases hk : k = j
          · subst hk
            have hacc : accepts (su.name k) ⟨su.name i, .webSocket c id (su.name i) m⟩ = true := by
              simp [accepts, hname]
            have hr := h.recv k hj (Ne.symm hij) id hid
            simp [hacc, handle, hr, hcj, pipe, writesIn, upd_self, hinc, hid, pick,
              upd_ne _ _ _ _ hij]
          · have hck : c ∉ su.conns k := fun e => hk (honly k hkn e)
            split
            · simp only [handle]
              split
              · simp [pipe, writesIn, upd_ne _ _ _ _ (Ne.symm hk)]
              · simp [hck, pipe, writesIn, upd_ne _ _ _ _ (Ne.symm hk)]
            · simp [pipe, writesIn, upd_ne _ _ _ _ (Ne.symm hk)]
        | none =>
          have hinj : (upd st.incoming k rest j).filterMap (fun w => pick ids w.message) =
              (st.incoming j).filterMap (fun w => pick ids w.message) := by
            by_cases hk : k = j
            · subst hk
              simp [upd_self, hinc, hb]
            · simp [upd_ne _ _ _ _ (Ne.symm hk)]
          obtain ⟨src, body⟩ := w
          split
          · cases body with
            | webSocket c' id m s =>
              have hid : id ∉ ids := by
                intro e
                simp [pick, e] at hb
              simp only [handle]
              split
              · simp only [pipe, writesIn, hinj]
              · split
                · by_cases hk : k = i
                  · subst hk
                    have hp : pick ids (.ack id m) = none := rfl
                    simp only [pipe, writesIn, hinj, upd_self, List.filterMap_append,
                      List.filterMap_cons, hp, List.filterMap_nil, List.append_nil,
                      List.filter_append]
                    simp [hid]
                  · simp [pipe, writesIn, hinj, upd_ne _ _ _ _ (Ne.symm hk), hid]
                · simp only [pipe, writesIn, hinj]
            | ack id node => simp only [handle, pipe, writesIn, hinj]
          · simp only [pipe, writesIn, hinj]
    · rfl

/-- The messages of a run. -/
theorem known (su : Setup) (i j : Nat) (c : String) (ids : List String) (ops : List Op)
    (hn : DistinctNames su) (ho : OpenOnlyOn su c j) (hi : i < su.n) (hij : i ≠ j)
    (hs : ∀ id ∈ ids, ∃ m, OnlySentBy ops i c id m) : Known su i j c ids (run su ops) := by
  have hmsg : ∀ b, (pick ids b).isSome → ∃ id ∈ ids, isMsg id b = true := by
    intro b hb
    cases b with
    | ack _ _ => exact absurd hb nofun
    | webSocket c' id s m =>
      simp only [pick] at hb
      split at hb
      · rename_i h
        exact ⟨id, by simpa using h, by simp [isMsg]⟩
      · exact absurd hb nofun
  refine ⟨?_, ?_, ?_⟩
  · intro k b hb hp
    obtain ⟨id, hid, hm⟩ := hmsg b hp
    obtain ⟨m, hsm⟩ := hs id hid
    exact ((inv_run su i j c id m ops hn ho hi hij hsm).outMsg k b hb hm).1
  · intro k w hw hp
    obtain ⟨id, hid, hm⟩ := hmsg _ hp
    obtain ⟨m, hsm⟩ := hs id hid
    exact ⟨id, m, (inv_run su i j c id m ops hn ho hi hij hsm).inMsg k w hw hm⟩
  · intro k hk hki id hid
    obtain ⟨m, hsm⟩ := hs id hid
    exact (inv_run su i j c id m ops hn ho hi hij hsm).recv k hk hki

theorem pipe_run (su : Setup) (i j : Nat) (c : String) (ids : List String) (ops : List Op)
    (hn : DistinctNames su) (ho : OpenOnlyOn su c j) (hi : i < su.n) (hij : i ≠ j)
    (hs : ∀ id ∈ ids, ∃ m, OnlySentBy ops i c id m)
    (hall : ∀ k c' id m ok, Op.send k c' id m ok ∈ ops → k = i ∧ c' = c → id ∈ ids) :
    pipe i j ids (run su ops) = stream i c ops := by
  induction ops using snoc_induction with
  | nil => rfl
  | snoc ops op ih =>
    have hs' : ∀ id ∈ ids, ∃ m, OnlySentBy ops i c id m := fun id hid =>
      (hs id hid).imp fun m h k c' m' ok hm => h k c' m' ok (List.mem_append_left _ hm)
    rw [run_snoc, stream_append, ← ih hs' (fun k c' id m ok hm => hall k c' id m ok
      (List.mem_append_left _ hm))]
    refine pipe_step su i j c ids _ op hn ho hi hij ?_ (known su i j c ids ops hn ho hi hij hs')
    rintro k c' id m ok rfl
    constructor
    · intro hid
      obtain ⟨m', hm'⟩ := hs id hid
      obtain ⟨h1, h2, _⟩ := hm' k c' m ok (by simp)
      exact ⟨h1, h2⟩
    · exact hall k c' id m ok (by simp)

/-- Messages to a connection of the sending node itself are written at once. -/
theorem local_run (su : Setup) (i : Nat) (c : String) (ids : List String) (ops : List Op)
    (hi : i < su.n) (hc : c ∈ su.conns i)
    (hs : ∀ k c' id m ok, Op.send k c' id m ok ∈ ops → (id ∈ ids ↔ k = i ∧ c' = c)) :
    (∀ k b, b ∈ (run su ops).outgoing k → pick ids b = none) ∧
    (∀ k w, w ∈ (run su ops).incoming k → pick ids w.message = none) ∧
    writesIn ids (run su ops) = stream i c ops := by
  induction ops using snoc_induction with
  | nil => exact ⟨nofun, nofun, rfl⟩
  | snoc ops op ih =>
    obtain ⟨h1, h2, h3⟩ := ih (fun k c' id m ok hm => hs k c' id m ok (List.mem_append_left _ hm))
    rw [run_snoc, stream_append, ← h3]
    generalize run su ops = st at h1 h2
    cases op with
    | send k c' id m ok =>
      have hs := hs k c' id m ok (by simp)
      by_cases hp : k = i ∧ c' = c
      · obtain ⟨rfl, rfl⟩ := hp
        have hid : id ∈ ids := hs.2 ⟨rfl, rfl⟩
        simp only [step, hi, if_true, send, List.contains_eq_mem, hc, decide_true]
        exact ⟨h1, h2, by simp [writesIn, hid, stream]⟩
      · have hid : id ∉ ids := fun e => hp (hs.1 e)
        have hst : stream i c [.send k c' id m ok] = [] := by simp [stream, hp]
        rw [hst, List.append_nil]
        simp only [step]
        split
        · simp only [send]
          split
          · exact ⟨h1, h2, by simp [writesIn, hid]⟩
          · refine ⟨?_, h2, rfl⟩
            intro x b hb
            by_cases hx : x = k
            · subst hx
              simp only [upd_self, List.mem_append, List.mem_singleton] at hb
              rcases hb with hb | rfl
              · exact h1 _ b hb
              · simp [pick, hid]
            · simp only [upd_ne _ _ _ _ hx] at hb
              exact h1 x b hb
        · exact ⟨h1, h2, rfl⟩
    | publish k =>
      have hst : stream i c [.publish k] = [] := rfl
      rw [hst, List.append_nil]
      simp only [step]
      split
      · simp only [publish]
        split
        · exact ⟨h1, h2, rfl⟩
        · rename_i b rest hout
          refine ⟨?_, ?_, rfl⟩
          · intro x b' hb'
            by_cases hx : x = k
            · subst hx
              simp only [upd_self] at hb'
              exact h1 x b' (by rw [hout]; exact List.mem_cons_of_mem _ hb')
            · simp only [upd_ne _ _ _ _ hx] at hb'
              exact h1 x b' hb'
          · intro x w hw
            simp only at hw
            split at hw
            · simp only [List.mem_append, List.mem_singleton] at hw
              rcases hw with hw | rfl
              · exact h2 x w hw
              · exact h1 k b (by rw [hout]; simp)
            · exact h2 x w hw
      · exact ⟨h1, h2, rfl⟩
    | deliver k ok =>
      have hst : stream i c [.deliver k ok] = [] := rfl
      rw [hst, List.append_nil]
      simp only [step]
      split
      · simp only [deliver]
        split
        · exact ⟨h1, h2, rfl⟩
        · rename_i w rest hinc
          have h2' : ∀ x w', w' ∈ upd st.incoming k rest x → pick ids w'.message = none := by
            intro x w' hw'
            by_cases hx : x = k
            · subst hx
              simp only [upd_self] at hw'
              exact h2 x w' (by rw [hinc]; exact List.mem_cons_of_mem _ hw')
            · simp only [upd_ne _ _ _ _ hx] at hw'
              exact h2 x w' hw'
          have hw := h2 k w (by rw [hinc]; simp)
          obtain ⟨src, body⟩ := w
          split
          · cases body with
            | webSocket c' id s m =>
              have hid : id ∉ ids := by
                intro e
                simp [pick, e] at hw
              simp only [handle]
              split
              · exact ⟨h1, h2', rfl⟩
              · split
                · refine ⟨?_, h2', by simp [writesIn, hid]⟩
                  intro x b hb
                  by_cases hx : x = k
                  · subst hx
                    simp only [upd_self, List.mem_append, List.mem_singleton] at hb
                    rcases hb with hb | rfl
                    · exact h1 _ b hb
                    · rfl
                  · simp only [upd_ne _ _ _ _ hx] at hb
                    exact h1 x b hb
                · exact ⟨h1, h2', rfl⟩
            | ack id node => exact ⟨h1, h2', rfl⟩
          · exact ⟨h1, h2', rfl⟩
      · exact ⟨h1, h2, rfl⟩

theorem mem_stream (i : Nat) (c id m : String) (ok : Bool) (ops : List Op)
    (h : Op.send i c id m ok ∈ ops) : (id, m) ∈ stream i c ops := by
  induction ops with
  | nil => exact absurd h nofun
  | cons o ops ih =>
    rcases List.mem_cons.1 h with rfl | h
    · simp [stream]
    · have := ih h
      cases o with
      | send k c' id' m' ok' =>
        simp only [stream]
        split
        · exact List.mem_cons_of_mem _ this
        · exact this
      | publish k => exact this
      | deliver k ok' => exact this

theorem ids_own (i : Nat) (c : String) (ops : List Op) (h : Own i c ops) (id : String)
    (hid : id ∈ (stream i c ops).map Prod.fst) : ∃ m, OnlySentBy ops i c id m := by
  obtain ⟨⟨id', m⟩, hm, rfl⟩ := List.mem_map.1 hid
  exact ⟨m, h id' m hm⟩

theorem ids_all (i : Nat) (c : String) (ops : List Op) (k : Nat) (c' id m : String) (ok : Bool)
    (hm : Op.send k c' id m ok ∈ ops) (h : k = i ∧ c' = c) :
    id ∈ (stream i c ops).map Prod.fst := by
  obtain ⟨rfl, rfl⟩ := h
  exact List.mem_map.2 ⟨(id, m), mem_stream k c' id m ok ops hm, rfl⟩

/-- **C162.** At any moment, in whatever order nodes publish and handle messages and whatever else is
sent, what has been written to a connection of the messages of a node is a beginning of what that node
has sent to it, in the same order and with no message left out; messages that were sent again included. -/
theorem in_order (su : Setup) (i j : Nat) (c : String) (ops : List Op) (hn : DistinctNames su)
    (ho : OpenOnlyOn su c j) (hi : i < su.n) (hown : Own i c ops) :
    written i c ops (run su ops) <+: stream i c ops := by
  by_cases hij : i = j
  · subst hij
    have := (local_run su i c _ ops hi ho.2.1 (fun k c' id m ok hm =>
      ⟨fun h => by
        obtain ⟨m', h'⟩ := ids_own i c ops hown id h
        obtain ⟨h1, h2, _⟩ := h' k c' m ok hm
        exact ⟨h1, h2⟩, ids_all i c ops k c' id m ok hm⟩)).2.2
    exact ⟨[], by rw [List.append_nil]; exact this⟩
  · exact ⟨_, pipe_run su i j c _ ops hn ho hi hij (ids_own i c ops hown) (ids_all i c ops)⟩

/-- **C162.** When all channels have been emptied, everything has been written, in order. -/
theorem all_in_order (su : Setup) (i j : Nat) (c : String) (ops : List Op) (hn : DistinctNames su)
    (ho : OpenOnlyOn su c j) (hi : i < su.n) (hown : Own i c ops)
    (hset : Settled su (run su ops)) : written i c ops (run su ops) = stream i c ops := by
  by_cases hij : i = j
  · subst hij
    exact (local_run su i c _ ops hi ho.2.1 (fun k c' id m ok hm =>
      ⟨fun h => by
        obtain ⟨m', h'⟩ := ids_own i c ops hown id h
        obtain ⟨h1, h2, _⟩ := h' k c' m ok hm
        exact ⟨h1, h2⟩, ids_all i c ops k c' id m ok hm⟩)).2.2
  · have := pipe_run su i j c _ ops hn ho hi hij (ids_own i c ops hown) (ids_all i c ops)
    unfold pipe at this
    rw [(hset i hi).1, (hset j ho.1).2] at this
    simp only [List.filterMap_nil, List.append_nil] at this
    exact this

/-- Two nodes that send to the same connection, one of them twice and one message again. -/
def mixed : List Op :=
  [.send 0 "c" "a" "1" true, .send 1 "c" "x" "5" true, .send 0 "c" "b" "2" true, .publish 0, .publish 1,
    .publish 0, .send 0 "c" "a" "1" true, .deliver 2 true, .deliver 2 false, .deliver 2 true]

example : Own 0 "c" mixed ∧ written 0 "c" mixed (run threeNodes mixed) = [("a", "1"), ("b", "2")] ∧
    stream 0 "c" mixed = [("a", "1"), ("b", "2"), ("a", "1")] := by
  refine ⟨?_, by decide, by decide⟩
  intro id m h k c' m' ok hm
  simp only [mixed, stream, List.mem_cons, List.not_mem_nil, or_false] at h hm
  simp at h hm
  rcases h with ⟨rfl, rfl⟩ | ⟨rfl, rfl⟩ | ⟨rfl, rfl⟩ <;> simp_all

end Verif.Cluster
