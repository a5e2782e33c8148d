import Verif.Sqs.Lemmas

/-!
# Properties of the SQS consumer (C23, C24, C56, C57, C58)
-/

namespace Verif.Sqs

open Spec

/-! ## C23: removed only after being handled -/

/-- All calls of a run. -/
def calls (c : Config) (registered : Bool) (rs : List Round) : List Call :=
  (run c registered rs).flatMap (·.2)

/-- **C23, full statement.** A message the queue had before a run and has no longer after it was
received in a round in which the handler succeeded. -/
def FullKept : Prop :=
  ∀ (c : Config) (registered : Bool) (owner : String → Option String) (rs : List Round)
    (s s' : List String) (i : String),
    (∀ r ∈ rs, ∀ m ∈ r.messages, Genuine owner m) →
    Serves owner (calls c registered rs) s s' → i ∈ s → i ∉ s' →
    ∃ r ∈ rs, Succeeded c registered r ∧ ∃ m ∈ r.messages, m.id = some i

/-- A configuration that leaves every optional setting at its default. -/
def defaults : Config where
  pollingWaitMs := 1000
  batchSize := none
  handlerTimeout := 60
  visibilityTimeout := none
  waitTimeSeconds := none
  authErrorTimeout := none
  terminateVisibility := true
  shouldDelete := true
  deleteOnFailure := none
  extenderVisibility := none
  heartbeatInterval := none

def exampleOwner : String → Option String := fun r => if r = "r1" then some "m1" else some "m2"

def m1 : Message := ⟨some "m1", some "r1", "hello"⟩
def m2 : Message := ⟨some "m2", some "r2", "world"⟩

/-- **C23 is false of the code.** With the default configuration a message whose handler failed is
deleted. -/
theorem kept_violated : ¬ FullKept := by
  intro h
  have hg : ∀ r ∈ [(⟨.ok (some [m1]), .after 10 false⟩ : Round)], ∀ m ∈ r.messages,
      Genuine exampleOwner m := by
    intro r hr m hm
    simp only [List.mem_singleton] at hr
    subst hr
    simp only [Round.messages, Option.getD_some, List.mem_singleton] at hm
    subst hm
    exact ⟨"m1", "r1", rfl, rfl, by simp [exampleOwner]⟩
  have hs : Serves exampleOwner (calls defaults true [⟨.ok (some [m1]), .after 10 false⟩])
      ["m1"] [] := by
    show Serves exampleOwner [.receive 1 20 30, .handle m1, .delete [("m1", "r1")],
      .changeVisibility [("m1", "r1")] 0, .sleep 1000] ["m1"] []
    refine ⟨["m1"], by simp, ["m1"], by simp, [], ?_, [], by simp, [], by simp, by simp [Serves]⟩
    intro i hi
    simp only [List.mem_singleton] at hi
    subst hi
    exact Or.inr ⟨("m1", "r1"), by simp, by simp [exampleOwner]⟩
  obtain ⟨r, hr, ⟨_, _, t, ht, _⟩, _⟩ := h defaults true exampleOwner _ ["m1"] [] "m1" hg hs
    (by simp) (by simp)
  simp only [List.mem_singleton] at hr
  subst hr
  simp at ht

/-- **C23, missing handler.** A consumer without a registered handler asks the queue to delete
every message it receives, in every configuration that deletes messages and does not disable
deletion on failure. -/
theorem missing_handler_deletes (c : Config) (owner : String → Option String) (r : Round)
    (ms : List Message) (hd : c.shouldDelete = true) (hf : c.deleteOnFailure ≠ some false)
    (ha : r.answer = .ok (some ms)) (hne : ms ≠ []) (hg : ∀ m ∈ ms, Genuine owner m) :
    ∃ es, deletes (iteration c false r).1 = [es] ∧
      es.map (fun e => (some e.1, some e.2)) = ms.map (fun m => (m.id, m.receipt)) := by
  obtain ⟨es, he, hm⟩ := buildEntries_genuine hg
  refine ⟨es, ?_, hm⟩
  rw [iteration_deletes, round_deletes_ok c false r _ ha, if_pos]
  · simp [he]
  · exact ⟨hd, Or.inr hf, by simpa using hne⟩

/-- **C23, partial.** With deletion on handler failure switched off, a message disappears from the
queue only if it was received in a round in which the handler succeeded: for every run, whatever
the polls answer, however long handlers take, and whichever delete requests fail. Missing: the same
for the default configuration, for which it is false. -/
theorem kept_partial (c : Config) (registered : Bool) (owner : String → Option String)
    (rs : List Round) (s s' : List String) (i : String) (hc : c.deleteOnFailure = some false)
    (hg : ∀ r ∈ rs, ∀ m ∈ r.messages, Genuine owner m)
    (hs : Serves owner (calls c registered rs) s s') (hi : i ∈ s) (hn : i ∉ s') :
    ∃ r ∈ rs, Succeeded c registered r ∧ ∃ m ∈ r.messages, m.id = some i := by
  obtain ⟨es, hes, e, he, ho⟩ := serves_lost hs hi hn
  obtain ⟨⟨r, cs⟩, hx, hd⟩ := deletes_flat hes
  obtain ⟨hr, rfl⟩ := run_mem hx
  simp only [iteration_deletes] at hd
  refine ⟨r, hr, ?_⟩
  cases ha : r.answer with
  | error err => rw [round_deletes_err c registered r err ha] at hd; simp at hd
  | ok ms? =>
    rw [round_deletes_ok c registered r ms? ha] at hd
    split at hd
    · rename_i hcond
      obtain ⟨_, hok, _⟩ := hcond
      have hok : (handlerRun (finalise c) registered (ms?.getD []) r.completion).2.1 = .ok () := by
        rcases hok with h | h
        · exact h
        · exact absurd hc h
      rw [handlerRun_ok_iff] at hok
      refine ⟨⟨hok.1, ⟨ms?, ha⟩, hok.2⟩, ?_⟩
      simp only [Option.mem_toList] at hd
      obtain ⟨m, hm, h1, h2⟩ := buildEntries_mem hd e he
      have hm' : m ∈ r.messages := by simp [Round.messages, ha, hm]
      obtain ⟨i', rc, g1, g2, g3⟩ := hg r hr m hm'
      refine ⟨m, hm', ?_⟩
      rw [h2] at g2
      injection g2 with g2
      rw [g2, g3] at ho
      rw [g1, ho]
    · simp at hd

/-- The hypotheses of `kept_partial` are met by a run in which one message fails and stays and a
second one is handled and goes. -/
example : ∃ rs : List Round,
    (∀ r ∈ rs, ∀ m ∈ r.messages, Genuine exampleOwner m) ∧
    Serves exampleOwner (calls { defaults with deleteOnFailure := some false } true rs)
      ["m1", "m2"] ["m1"] := by
  refine ⟨[⟨.ok (some [m1]), .never⟩, ⟨.ok (some [m2]), .after 10 true⟩], ?_, ?_⟩
  · intro r hr m hm
    simp only [List.mem_cons, List.not_mem_nil, or_false] at hr
    rcases hr with rfl | rfl <;>
      simp only [Round.messages, Option.getD_some, List.mem_singleton] at hm <;> subst hm
    · exact ⟨"m1", "r1", rfl, rfl, by simp [exampleOwner]⟩
    · exact ⟨"m2", "r2", rfl, rfl, by simp [exampleOwner]⟩
  · show Serves exampleOwner [.receive 1 20 30, .handle m1, .changeVisibility [("m1", "r1")] 0,
      .sleep 1000, .receive 1 20 30, .handle m2, .delete [("m2", "r2")], .sleep 1000]
      ["m1", "m2"] ["m1"]
    refine ⟨["m1", "m2"], by simp, ["m1", "m2"], by simp, ["m1", "m2"], by simp, ["m1", "m2"],
      by simp, ["m1", "m2"], by simp, ["m1", "m2"], by simp, ["m1"], ?_, ["m1"], by simp, by simp [Serves]⟩
    intro i hi
    simp only [List.mem_cons, List.not_mem_nil, or_false] at hi
    rcases hi with rfl | rfl
    · simp
    · exact Or.inr ⟨("m2", "r2"), by simp, by simp [exampleOwner]⟩

/-! ## C24: the messages of a successful batch and no others -/

/-- **C24.** After a successful batch there is exactly one delete request, and its entries are the
received messages, each once and in order. -/
theorem success_deletes_batch (c : Config) (registered : Bool) (owner : String → Option String)
    (r : Round) (hd : c.shouldDelete = true) (hok : Succeeded c registered r)
    (hne : r.messages ≠ []) (hg : ∀ m ∈ r.messages, Genuine owner m) :
    ∃ es, deletes (iteration c registered r).1 = [es] ∧
      es.map (fun e => (some e.1, some e.2)) = r.messages.map (fun m => (m.id, m.receipt)) := by
  obtain ⟨hreg, ⟨ms?, ha⟩, hk⟩ := hok
  have hms : r.messages = ms?.getD [] := by simp [Round.messages, ha]
  rw [hms] at hne hg ⊢
  obtain ⟨es, he, hm⟩ := buildEntries_genuine hg
  refine ⟨es, ?_, hm⟩
  rw [iteration_deletes, round_deletes_ok c registered r _ ha, if_pos]
  · simp [he]
  · exact ⟨hd, Or.inl ((handlerRun_ok_iff ..).mpr ⟨hreg, hk⟩), hne⟩

/-- **C24.** Whatever happens in a round, a delete request names only messages received in that
round, and there is at most one such request. -/
theorem deletes_only_received (c : Config) (registered : Bool) (r : Round) :
    (deletes (iteration c registered r).1).length ≤ 1 ∧
    ∀ es ∈ deletes (iteration c registered r).1, ∀ e ∈ es,
      ∃ m ∈ r.messages, m.id = some e.1 ∧ m.receipt = some e.2 := by
  rw [iteration_deletes]
  cases ha : r.answer with
  | error err => rw [round_deletes_err c registered r err ha]; simp
  | ok ms? =>
    rw [round_deletes_ok c registered r ms? ha]
    have hms : r.messages = ms?.getD [] := by simp [Round.messages, ha]
    rw [hms]
    split
    · cases hb : buildEntries (ms?.getD []) with
      | none => simp
      | some es =>
        refine ⟨by simp, fun es' h' => ?_⟩
        simp only [Option.toList_some, List.mem_singleton] at h'
        subst h'
        exact buildEntries_mem hb
    · simp

/-- **C24.** With deletion disabled no message ever disappears from the queue. -/
theorem disabled_keeps_all (c : Config) (registered : Bool) (owner : String → Option String)
    (rs : List Round) (s s' : List String) (hd : c.shouldDelete = false)
    (hs : Serves owner (calls c registered rs) s s') : ∀ i ∈ s, i ∈ s' := by
  intro i hi
  apply Classical.byContradiction
  intro hn
  obtain ⟨es, hes, _⟩ := serves_lost hs hi hn
  obtain ⟨⟨r, cs⟩, hx, hdel⟩ := deletes_flat hes
  obtain ⟨_, rfl⟩ := run_mem hx
  simp only [iteration_deletes] at hdel
  cases ha : r.answer with
  | error err => rw [round_deletes_err c registered r err ha] at hdel; simp at hdel
  | ok ms? =>
    rw [round_deletes_ok c registered r ms? ha, if_neg (by simp [hd])] at hdel
    simp at hdel

/-- The hypotheses of `success_deletes_batch` are met. -/
example : Succeeded defaults true ⟨.ok (some [m1, m2]), .after 60000 true⟩ ∧
    (iteration defaults true ⟨.ok (some [m1, m2]), .after 60000 true⟩).1 =
      [.receive 1 20 30, .handleBatch [m1, m2], .delete [("m1", "r1"), ("m2", "r2")],
        .sleep 1000] :=
  ⟨⟨rfl, ⟨_, rfl⟩, 60000, rfl, by decide⟩, rfl⟩

/-! ## C56: the handler is invoked for messages -/

/-- **C56, full statement.** The handler is invoked only with messages, and for every answered poll
with messages it is invoked once with exactly these. -/
def FullHanded : Prop :=
  ∀ (c : Config) (r : Round), handed (iteration c true r).1 =
    if r.messages = [] then [] else [r.messages]

/-- **C56 is false of the code.** A poll that finds nothing invokes the batch handler with an empty
batch. -/
theorem handed_violated : ¬ FullHanded := by
  intro h
  have h1 := h defaults ⟨.ok none, .after 0 true⟩
  have h2 : handed (iteration defaults true ⟨.ok none, .after 0 true⟩).1 = [[]] := rfl
  rw [h2] at h1
  simp [Round.messages] at h1

/-- What the handler is given in a round, in all cases. -/
theorem handed_exactly (c : Config) (registered : Bool) (r : Round) :
    handed (iteration c registered r).1 =
      match registered, r.answer with
      | true, .ok ms => [ms.getD []]
      | _, _ => [] := by
  have hi : handed (iteration c registered r).1 = handed (receiveMessages c registered r).1 := by
    rcases iteration_calls c registered r with h | ⟨d, h⟩ <;> rw [h]
    rw [handed_append]; simp [handed]
  rw [hi]
  cases ha : r.answer with
  | error err => cases registered <;> simp [receiveMessages, ha, handed]
  | ok ms? =>
    obtain ⟨rest, h1, h2, _⟩ := receiveMessages_ok c registered r ms? ha
    rw [h1, handed_append, handed_append, handed_heartbeats, h2]
    cases registered with
    | true => simp [handed, handlerRun_calls]
    | false => simp [handed, handlerRun]

/-- **C56, partial.** For a poll that found messages the handler is invoked once with exactly the
received messages, and a failed poll does not invoke it. Missing: polls that find nothing. -/
theorem handed_partial (c : Config) (r : Round) (h : r.messages ≠ [] ∨ ∃ e, r.answer = .error e) :
    handed (iteration c true r).1 = if r.messages = [] then [] else [r.messages] := by
  rw [handed_exactly]
  cases ha : r.answer with
  | error err => simp [Round.messages, ha]
  | ok ms? =>
    have hms : r.messages = ms?.getD [] := by simp [Round.messages, ha]
    rw [hms] at h ⊢
    rcases h with h | ⟨e, h⟩
    · simp [h]
    · rw [ha] at h; simp at h

example : (⟨.ok (some [m1]), .never⟩ : Round).messages ≠ [] := by simp [Round.messages]

/-! ## C57: hidden while being handled -/

/-- **C57.** With a heartbeat interval that is positive and not longer than the extender's
visibility timeout, every received message stays hidden from other consumers for as long as its
handler runs. -/
theorem heartbeat_keeps_hidden (c : Config) (owner : String → Option String) (r : Round)
    (h : Nat) (hh : c.heartbeatInterval = some h) (hpos : 0 < h)
    (hle : h ≤ c.extenderVisibility.getD 30)
    (hg : ∀ m ∈ r.messages, Genuine owner m) (m : Message) (hm : m ∈ r.messages)
    (i rc : String) (hid : m.id = some i) (hrc : m.receipt = some rc)
    (t : Nat) (ht : t < busy c r) :
    HiddenAt (hidings (i, rc) (iteration c true r).1) t := by
  cases ha : r.answer with
  | error err => simp [Round.messages, ha] at hm
  | ok ms? =>
    have hms : r.messages = ms?.getD [] := by simp [Round.messages, ha]
    rw [hms] at hg hm
    obtain ⟨rest, h1, _, _, h4, _⟩ := receiveMessages_ok c true r ms? ha
    have hi : hidings (i, rc) (iteration c true r).1 =
        hidings (i, rc) (receiveMessages c true r).1 := by
      rcases iteration_calls c true r with h | ⟨d, h⟩ <;> rw [h]
      rw [hidings_append]; simp [hidings]
    have hd : (handlerRun (finalise c) true (ms?.getD []) r.completion).2.2 = busy c r :=
      handlerRun_dur c _ r.answer r.completion
    rw [hi, h1, hidings_append, hidings_append, h4, hd]
    obtain ⟨es, he, hmap⟩ := buildEntries_genuine hg
    have hent : (i, rc) ∈ es := by
      have : (some i, some rc) ∈ es.map (fun e => (some e.1, some e.2)) := by
        rw [hmap, List.mem_map]
        exact ⟨m, hm, by rw [hid, hrc]⟩
      obtain ⟨e, hes, heq⟩ := List.mem_map.mp this
      simp only [Prod.mk.injEq, Option.some.injEq] at heq
      obtain ⟨h5, h6⟩ := heq
      rw [← h5, ← h6]; exact hes
    have hhb : hidings (i, rc) (heartbeats c (ms?.getD []) (busy c r)) =
        (ticks (h * 1000) (busy c r)).map fun t => (t, c.extenderVisibility.getD 30) := by
      simp only [heartbeats, hh, he]
      induction ticks (h * 1000) (busy c r) with
      | nil => rfl
      | cons x xs ih => simp only [List.map_cons, hidings, if_pos hent, ih]
    have hcall : hidings (i, rc) (.receive (c.batchSize.getD 1) (c.waitTimeSeconds.getD 20)
        (c.visibilityTimeout.getD 30) ::
          (handlerRun (finalise c) true (ms?.getD []) r.completion).1) =
        [(0, c.visibilityTimeout.getD 30)] := by
      simp only [hidings]
      rw [(handlerRun_no_delete _ _ _ _).2.2]
    rw [hcall, hhb]
    -- the last tick at or before `t`
    have hp : 0 < h * 1000 := by omega
    let s := t / (h * 1000) * (h * 1000)
    have hst : s ≤ t := Nat.div_mul_le_self t (h * 1000)
    have hts : t < s + h * 1000 := by
      have h7 := Nat.div_add_mod t (h * 1000)
      have h8 := Nat.mod_lt t hp
      have h9 : h * 1000 * (t / (h * 1000)) = s := Nat.mul_comm _ _
      omega
    have hmem : s ∈ ticks (h * 1000) (busy c r) :=
      (mem_ticks hp).mpr ⟨⟨t / (h * 1000), Nat.mul_comm _ _⟩, Or.inr (by omega)⟩
    have hlast : ∀ u ∈ ticks (h * 1000) (busy c r), u ≤ t → u ≤ s := by
      intro u hu hut
      obtain ⟨⟨k, rfl⟩, _⟩ := (mem_ticks hp).mp hu
      show h * 1000 * k ≤ t / (h * 1000) * (h * 1000)
      rw [Nat.mul_comm (t / (h * 1000))]
      apply Nat.mul_le_mul_left
      exact (Nat.le_div_iff_mul_le hp).mpr (by rw [Nat.mul_comm]; exact hut)
    obtain ⟨pre, post, hsplit, hpost⟩ := ticks_split (ticks_sorted _ _) t s hmem hlast
    refine ⟨(0, c.visibilityTimeout.getD 30) :: pre.map (fun t => (t, c.extenderVisibility.getD 30)),
      s, c.extenderVisibility.getD 30,
      post.map (fun t => (t, c.extenderVisibility.getD 30)), ?_, hst, ?_, ?_⟩
    · rw [hsplit]; simp
    · intro p hp'
      obtain ⟨u, hu, rfl⟩ := List.mem_map.mp hp'
      exact hpost u hu
    · have : h * 1000 ≤ c.extenderVisibility.getD 30 * 1000 := Nat.mul_le_mul_right _ hle
      exact Nat.lt_of_lt_of_le hts (Nat.add_le_add_left this s)

/-- **C57, without heartbeats.** A received message is hidden exactly while the visibility timeout
of the poll has not passed. -/
theorem hidden_without_heartbeat (c : Config) (r : Round) (e : String × String)
    (hh : c.heartbeatInterval = none) (t : Nat) :
    HiddenAt (hidings e (iteration c true r).1) t ↔ t < c.visibilityTimeout.getD 30 * 1000 := by
  have hi : hidings e (iteration c true r).1 = hidings e (receiveMessages c true r).1 := by
    rcases iteration_calls c true r with h | ⟨d, h⟩ <;> rw [h]
    rw [hidings_append]; simp [hidings]
  have h0 : hidings e (iteration c true r).1 = [(0, c.visibilityTimeout.getD 30)] := by
    rw [hi]
    cases ha : r.answer with
    | error err => simp [receiveMessages, ha, hidings, finalise]
    | ok ms? =>
      obtain ⟨rest, h1, _, _, h4, _⟩ := receiveMessages_ok c true r ms? ha
      rw [h1, hidings_append, hidings_append, h4]
      simp [hidings, (handlerRun_no_delete (finalise c) true (ms?.getD []) r.completion).2.2,
        heartbeats, hh]
  rw [h0]
  constructor
  · rintro ⟨pre, s, v, post, heq, hs, _, hlt⟩
    cases pre with
    | nil =>
      simp only [List.nil_append, List.cons.injEq, Prod.mk.injEq] at heq
      obtain ⟨⟨h1, h2⟩, _⟩ := heq
      subst h1; subst h2
      omega
    | cons p pre =>
      simp at heq
  · intro hlt
    exact ⟨[], 0, _, [], rfl, Nat.zero_le _, by simp, by omega⟩

/-- The hypotheses of `heartbeat_keeps_hidden` are met by a handler that runs for 45 seconds, longer
than the visibility timeout. -/
example : (45 * 1000 - 1) < busy { defaults with heartbeatInterval := some 20 }
      ⟨.ok (some [m1]), .after (45 * 1000) true⟩ ∧
    (iteration { defaults with heartbeatInterval := some 20 } true
      ⟨.ok (some [m1]), .after (45 * 1000) true⟩).1 =
      [.receive 1 20 30, .handle m1, .heartbeat 0 [("m1", "r1")] 30,
        .heartbeat 20000 [("m1", "r1")] 30, .heartbeat 40000 [("m1", "r1")] 30,
        .delete [("m1", "r1")], .sleep 1000] := by
  constructor
  · decide
  · decide

/-! ## C58: the pause after a rejected poll -/

/-- **C58, full statement.** After a poll that was rejected for authentication the consumer pauses
for the configured number of seconds (10 by default). -/
def FullPause : Prop :=
  ∀ (c : Config) (registered : Bool) (r : Round) (status : Nat) (code : Option String),
    r.answer = .error (.service status code) →
    (status = 403 ∨ code = some "CredentialsError" ∨ code = some "UnknownEndpoint") →
    pauses (iteration c registered r).1 = [c.authErrorTimeout.getD 10 * 1000]

/-- **C58 is false of the code.** The number is used as milliseconds. -/
theorem pause_violated : ¬ FullPause := by
  intro h
  have h1 := h defaults true ⟨.error (.service 403 none), .never⟩ 403 none rfl (Or.inl rfl)
  have h2 : pauses (iteration defaults true ⟨.error (.service 403 none), .never⟩).1 = [10] := by
    decide
  rw [h2] at h1
  simp [defaults] at h1

/-- **C58, partial.** Every iteration that does not panic pauses exactly once: for the configured
number, as milliseconds, after a rejected poll and for the polling wait time after every other
one. Missing: the unit of the pause. -/
theorem pause_partial (c : Config) (registered : Bool) (r : Round)
    (hok : (iteration c registered r).2 = true) :
    pauses (iteration c registered r).1 =
      match r.answer with
      | .error (.service status code) =>
        if status = 403 ∨ code = some "CredentialsError" ∨ code = some "UnknownEndpoint"
        then [c.authErrorTimeout.getD 10] else [c.pollingWaitMs]
      | _ => [c.pollingWaitMs] := by
  cases ha : r.answer with
  | error err =>
    cases err with
    | noAnswer => simp [iteration, receiveMessages, ha, pauses, finalise]
    | service status code =>
      have hc : isConnectionError status code = true ↔
          (status = 403 ∨ code = some "CredentialsError" ∨ code = some "UnknownEndpoint") := by
        cases code with
        | none => simp [isConnectionError]
        | some x => simp [isConnectionError]
      simp only [iteration, receiveMessages, ha, pauses, finalise, List.cons_append,
        List.nil_append, hc]
      split <;> rfl
  | ok ms? =>
    obtain ⟨rest, h1, _, h3, _⟩ := receiveMessages_ok c registered r ms? ha
    have hp : pauses (receiveMessages c registered r).1 = [] := by
      rw [h1, pauses_append, pauses_append, pauses_heartbeats, h3]
      simp [pauses, (handlerRun_no_delete (finalise c) registered (ms?.getD []) r.completion).2.1]
    have hne : ∀ e, (receiveMessages c registered r).2 ≠ .err e := by
      intro e he
      simp only [receiveMessages, ha] at he
      repeat' split at he
      all_goals simp at he
    simp only [iteration] at hok ⊢
    split <;> rename_i hr
    · rw [hr] at hp
      simp only at hp
      rw [pauses_append, hp]
      simp [pauses, finalise]
    · exact absurd (by rw [hr]) (hne _)
    · exact absurd (by rw [hr]) (hne _)
    · rw [hr] at hok; simp at hok

example : (iteration defaults true ⟨.error (.service 403 none), .never⟩).2 = true := by decide

end Verif.Sqs
