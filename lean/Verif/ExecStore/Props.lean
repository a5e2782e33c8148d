import Verif.ExecStore.Lemmas

/-!
# Properties of the store of workflow executions and its API (C32, C33, C66, C67, C68)
-/

namespace Verif.ExecStore

open Spec

variable {J D S : Type}

/-! ## C32: the store is a map with a log of creations -/

/-- **C32.** After any history of saves an id is found exactly if it was saved, and then the
execution shows the payload saved last. -/
theorem get_last_saved (h : History J D S) (id : String) :
    (∀ p, lastSaved h id = some p → ∃ e, (runHistory h).get id = some e ∧ Shows e id p) ∧
    (lastSaved h id = none ↔ (runHistory h).get id = none) ∧
    ((∃ p, (id, p) ∈ h) ↔ (runHistory h).get id ≠ none) := by
  rw [get_runHistory]
  refine ⟨?_, ?_, ?_⟩
  · intro p hp
    exact ⟨_, by rw [hp]; rfl, shows_record id p⟩
  · simp
  · rw [Ne, Option.map_eq_none_iff]
    unfold lastSaved
    rw [Option.map_eq_none_iff, List.find?_eq_none]
    simp only [List.mem_reverse, decide_eq_true_eq]
    constructor
    · rintro ⟨p, hp⟩ hn; exact hn _ hp rfl
    · intro hn
      apply Classical.byContradiction
      intro hne
      apply hn
      rintro ⟨k, p⟩ hm rfl
      exact hne ⟨p, hm⟩

/-- **C32.** Listing the latest `n` gives the `n` ids created last (all of them if there are fewer),
in the order of their creation and each with its last content. -/
theorem latest_created (h : History J D S) (n : Nat) :
    Corresponds (fun id e => ∃ p, lastSaved h id = some p ∧ Shows e id p)
      ((created (h.map (·.1))).drop ((created (h.map (·.1))).length - n))
      ((runHistory h).latest n) := by
  unfold Store.latest
  dsimp only
  rw [ids_runHistory, take_reverse_reverse]
  have hsize : (created (h.map (·.1))).length - (if n > (created (h.map (·.1))).length
      then (created (h.map (·.1))).length else n) = (created (h.map (·.1))).length - n := by
    split <;> omega
  rw [hsize]
  apply filterMap_corresponds
  intro id hid
  have hm : id ∈ h.map (·.1) := (mem_created _ _).mp (List.mem_of_mem_drop hid)
  obtain ⟨⟨k, p⟩, hk, rfl⟩ := List.mem_map.mp hm
  have hne := (get_last_saved h k).2.2.mp ⟨p, hk⟩
  cases hl : lastSaved h k with
  | none => exact absurd ((get_last_saved h k).2.1.mp hl) hne
  | some q =>
    refine ⟨record k q, ?_, q, rfl, shows_record k q⟩
    have := get_runHistory h k
    rw [hl] at this
    exact this

/-- **C32.** The order of creation lists every saved id exactly once. -/
theorem created_spec (xs : List String) : (created xs).Nodup ∧ ∀ x, x ∈ created xs ↔ x ∈ xs := by
  refine ⟨?_, mem_created xs⟩
  induction xs with
  | nil => simp [created]
  | cons x xs ih =>
    simp only [created, List.nodup_cons, List.mem_filter]
    exact ⟨by simp, ih.filter _⟩

/-- A step of concurrent callers: a save takes two locks one after the other. -/
inductive Step : Store J D S × List String → Store J D S × List String → Prop
  | insert (s pending id p) : Step (s, pending) (s.insert id p, id :: pending)
  | push (s pre post id) : Step (s, pre ++ id :: post) (s.push id, pre ++ post)

inductive Reach : Store J D S × List String → Prop
  | new : Reach (Store.new, [])
  | step {a b} : Reach a → Step a b → Reach b

/-- **C32, concurrent callers.** In every interleaving of saves, a listing at any moment has no
duplicates and no gaps: every id in the log has its execution. -/
theorem listing_complete {s : Store J D S} {pending : List String} (h : Reach (s, pending)) (n : Nat) :
    s.ids.Nodup ∧
    Corresponds (fun id e => s.get id = some e ∧ e.id = id) (s.ids.drop (s.ids.length - n)) (s.latest n) := by
  have inv : s.ids.Nodup ∧ (∀ id ∈ s.ids, s.get id ≠ none) ∧ (∀ id ∈ pending, s.get id ≠ none) ∧
      (∀ id e, s.get id = some e → e.id = id) := by
    generalize hx : (s, pending) = x at h
    induction h generalizing s pending with
    | new => injection hx with h1 h2; subst h1; subst h2; simp [Store.new, Store.get]
    | step _ hs ih =>
      cases hs with
      | insert s0 pd id p =>
        injection hx with h1 h2; subst h1; subst h2
        obtain ⟨i1, i2, i3, i4⟩ := ih rfl
        refine ⟨i1, ?_, ?_, ?_⟩
        · intro id' h'
          rw [insert_get]; split
          · simp
          · exact i2 id' h'
        · intro id' h'
          rw [insert_get]; split
          · simp
          · rename_i hne
            rcases List.mem_cons.mp h' with h' | h'
            · exact absurd h'.symm hne
            · exact i3 id' h'
        · intro id' e he
          rw [insert_get] at he; split at he
          · rename_i heq; injection he with he; rw [← he]; exact heq
          · exact i4 id' e he
      | push s0 pre post id =>
        injection hx with h1 h2; subst h1; subst h2
        obtain ⟨i1, i2, i3, i4⟩ := ih rfl
        refine ⟨?_, ?_, ?_, ?_⟩
        · unfold Store.push; split
          · exact i1
          · rename_i hnm
            simp only [List.nodup_append, List.nodup_cons, List.not_mem_nil, not_false_eq_true,
              List.nodup_nil, and_self, true_and, i1]
            intro a ha b hb
            simp at hb
            rintro rfl
            exact hnm (hb ▸ ha)
        · intro id' h'
          rw [push_get]
          unfold Store.push at h'; split at h'
          · exact i2 id' h'
          · rcases List.mem_append.mp h' with h' | h'
            · exact i2 id' h'
            · simp at h'; rw [h']; exact i3 id (by simp)
        · intro id' h'
          rw [push_get]
          refine i3 id' ?_
          rw [List.mem_append] at h' ⊢
          exact h'.imp (fun x => x) (List.mem_cons_of_mem _)
        · intro id' e he; rw [push_get] at he; exact i4 id' e he
  obtain ⟨i1, i2, _, i4⟩ := inv
  refine ⟨i1, ?_⟩
  unfold Store.latest
  dsimp only
  rw [take_reverse_reverse]
  have hsize : s.ids.length - (if n > s.ids.length then s.ids.length else n) = s.ids.length - n := by
    split <;> omega
  rw [hsize]
  apply filterMap_corresponds
  intro id hid
  cases hg : s.get id with
  | none => exact absurd hg (i2 id (List.mem_of_mem_drop hid))
  | some e => exact ⟨e, hg, rfl, i4 id e hg⟩

/-- A payload for examples. -/
def examplePayload (n : Nat) : Payload Nat Nat Nat :=
  ⟨n, 0, none, none, .preparing, "", none, []⟩

/-- A history with a repeated id. -/
example : ((runHistory [("a", examplePayload 1), ("b", examplePayload 2), ("a", examplePayload 3),
      ("c", examplePayload 4)]).latest 2).map (fun e => (e.id, e.input)) = [("b", 2), ("c", 4)] ∧
    ((runHistory [("a", examplePayload 1), ("b", examplePayload 2), ("a", examplePayload 3)]).get "a").map
      (·.input) = some 3 := by decide

/-! ## C33: starting an execution leaves the others alone -/

/-- **C33, full statement.** Executions that exist before a run is started are the same
afterwards. -/
def FullStart (J D S : Type) : Prop :=
  ∀ (s : Store J D S) (name : Option String) (uuid : String) (now : Nat) (input : J),
    s.get uuid = none → ∀ id e, s.get id = some e → (runHandler s name uuid now input).1.get id = some e

/-- **C33 is false of the code.** Starting a run under the name of an earlier one erases it. -/
theorem start_violated : ¬ FullStart Nat Nat Nat := by
  intro h
  have := h (runHistory [("nightly", { examplePayload 1 with status := .succeeded, completed := some 5 })])
    (some "nightly") "u" 9 2 (by decide) "nightly"
    (record "nightly" { examplePayload 1 with status := .succeeded, completed := some 5 }) (by decide)
  revert this
  decide

/-- What remains of an execution whose name is used again: nothing. -/
theorem reused_name_erases (s : Store J D S) (name uuid : String) (now : Nat) (input : J) :
    ∃ e, (runHandler s (some name) uuid now input).1.get name = some e ∧ e.status = .preparing ∧
      e.completed = none ∧ e.states = [] ∧ e.input = input := by
  refine ⟨record name ⟨input, now, none, none, .preparing,
    "The execution is currently being prepared", none, []⟩, ?_, rfl, rfl, rfl, rfl⟩
  simp only [runHandler, save_get, Option.getD_some, if_true]

/-- **C33, partial.** Starting a run under a name that is not in use, or without a name, leaves every
other execution alone, answers with the id of the new one and stores it. Missing: names in use. -/
theorem start_partial (s : Store J D S) (name : Option String) (uuid : String) (now : Nat) (input : J)
    (hu : s.get uuid = none) (hn : ∀ n, name = some n → s.get n = none) :
    (∀ id e, s.get id = some e → (runHandler s name uuid now input).1.get id = some e) ∧
    (∃ e, (runHandler s name uuid now input).1.get (runHandler s name uuid now input).2 = some e ∧
      e.input = input ∧ e.started = now ∧ e.status = .preparing) ∧
    (∀ n, name = some n → (runHandler s name uuid now input).2 = n) := by
  refine ⟨?_, ?_, ?_⟩
  · intro id e he
    simp only [runHandler, save_get]
    rw [if_neg]
    · exact he
    · intro hid
      cases name with
      | none => simp at hid; rw [hid, he] at hu; simp at hu
      | some n =>
        have := hn n rfl
        simp at hid
        rw [hid, he] at this; simp at this
  · simp only [runHandler, save_get, if_true]
    exact ⟨_, rfl, rfl, rfl, rfl⟩
  · rintro n rfl; rfl

example : ((runHandler (runHistory [("a", examplePayload 1)]) none "u" 9 2).1.get "a").isSome = true ∧
    (runHistory [("a", examplePayload 1)]).get "u" = none := by decide

/-! ## C66: the output of an execution -/

/-- **C66, full statement.** The output of a finished execution can be kept: for every value there is
something to save that makes it the output of the record. -/
def FullOutput (J D S : Type) : Prop :=
  ∀ (h : History J D S) (id : String) (v : J), ∃ p e,
    (runHistory (h ++ [(id, p)])).get id = some e ∧ e.output = some v

/-- **C66 is false of the code.** No history of saves ever records an output. -/
theorem output_never_recorded (h : History J D S) (id : String) (e : Execution J D S)
    (he : (runHistory h).get id = some e) : e.output = none := by
  rw [get_runHistory] at he
  obtain ⟨p, _, rfl⟩ := Option.map_eq_some_iff.mp he
  rfl

theorem output_violated : ¬ FullOutput Nat Nat Nat := by
  intro h
  obtain ⟨p, e, h1, h2⟩ := h [] "a" 1
  rw [output_never_recorded _ _ _ h1] at h2
  simp at h2

/-- **C66, partial.** Everything else that is saved can be read back. Missing: the output. -/
theorem saved_partial (h : History J D S) (id : String) (p : Payload J D S) :
    ∃ e, (runHistory (h ++ [(id, p)])).get id = some e ∧ Shows e id p ∧
      ((runHistory h).save id p).2 = e := by
  refine ⟨record id p, ?_, shows_record id p, rfl⟩
  rw [get_runHistory, lastSaved_append, if_pos rfl]; rfl

/-! ## C67: reading executions through the API -/

/-- **C67, full statement.** The API answers with the stored executions. -/
def FullApi (J D S : Type) : Prop :=
  ∀ (s : Store J D S), (∀ id, getExecutionHandler s id = s.get id) ∧
    ∃ l, getExecutionsHandler s = some l ∧ ∀ e, e ∈ l ↔ ∃ id, s.get id = some e

/-- **C67 is false of the code.** The answer is `null` for every store. -/
theorem api_null (s : Store J D S) (id : String) :
    getExecutionHandler s id = none ∧ getExecutionsHandler s = none := ⟨rfl, rfl⟩

theorem api_violated : ¬ FullApi Nat Nat Nat := by
  intro h
  have := (h (runHistory [("a", examplePayload 1)])).1 "a"
  revert this
  decide

/-- **C67, partial.** The answer for an id that was never saved is right. Missing: all others. -/
theorem api_partial (h : History J D S) (id : String) (hn : ∀ p, (id, p) ∉ h) :
    getExecutionHandler (runHistory h) id = (runHistory h).get id := by
  have := (get_last_saved h id).2.2
  cases hg : (runHistory h).get id with
  | none => rfl
  | some e =>
    obtain ⟨p, hp⟩ := this.mpr (by rw [hg]; simp)
    exact absurd hp (hn p)

example : ∀ p, ("b", p) ∉ [("a", examplePayload 1)] := by simp

/-! ## C68: the stream of an execution's events -/

/-- Something happening to a stream. -/
inductive Op (E : Type)
  | send (e : E)
  | recv

/-- A stream after some operations. -/
def runStream {E : Type} (cap : Nat) (s : Stream E) : List (Op E) → Stream E
  | [] => s
  | .send e :: ops => runStream cap (s.send e) ops
  | .recv :: ops => runStream cap (s.recv cap) ops

/-- The events sent by operations. -/
def sentBy {E : Type} : List (Op E) → List E
  | [] => []
  | .send e :: ops => e :: sentBy ops
  | .recv :: ops => sentBy ops

/-- **C68, full statement.** A subscriber to an execution gets the events of that execution sent
since, in order, and nothing else. An event is an execution's id and a value. -/
def FullStream : Prop :=
  ∀ (cap : Nat) (log : List (String × Nat)) (id : String) (ops : List (Op (String × Nat))), 0 < cap →
    ∃ l, (runStream cap (openStream log id) ops).out = l.map .event ∧
      l <+: (sentBy ops).filter fun e => e.1 = id

/-- **C68 is false of the code.** The subscriber gets the events of every execution. -/
theorem stream_violated : ¬ FullStream := by
  intro h
  obtain ⟨l, h1, h2⟩ := h 128 [] "mine" [.send ("other", 1), .recv] (by decide)
  have h3 : (runStream 128 (openStream [] "mine") [.send ("other", 1), .recv]).out =
      [.event ("other", 1)] := by decide
  rw [h3] at h1
  cases l with
  | nil => simp at h1
  | cons x xs =>
    have hf : (sentBy [Op.send ("other", 1), Op.recv]).filter (fun e => e.1 = "mine") = [] := by decide
    rw [hf] at h2
    simp at h2

/-- A subscriber that never falls more than `cap` events behind. -/
def KeepsUp {E : Type} (cap : Nat) (s : Stream E) : List (Op E) → Prop
  | [] => True
  | .send e :: ops => KeepsUp cap (s.send e) ops
  | .recv :: ops => s.log.length - s.pos ≤ cap ∧ KeepsUp cap (s.recv cap) ops

/-- **C68, partial.** A subscriber that keeps up gets a prefix of the events sent since it
subscribed, in order and without gaps. Missing: it gets them for all executions, and a slow one
loses events. -/
theorem stream_partial {E : Type} (cap : Nat) (log : List E) (id : String) (ops : List (Op E))
    (h : KeepsUp cap (openStream log id) ops) :
    ∃ l, (runStream cap (openStream log id) ops).out = l.map .event ∧ l <+: sentBy ops := by
  suffices key : ∀ (ops : List (Op E)) (s : Stream E) (l sent : List E), KeepsUp cap s ops →
      s.out = l.map .event → s.log = log ++ sent → s.pos = log.length + l.length → l <+: sent →
      ∃ l', (runStream cap s ops).out = l'.map .event ∧ l' <+: sent ++ sentBy ops by
    obtain ⟨l, h1, h2⟩ := key ops (openStream log id) [] [] h rfl (by simp [openStream])
      (by simp [openStream]) (by simp)
    exact ⟨l, h1, by simpa using h2⟩
  intro ops
  induction ops with
  | nil => intro s l sent _ h1 _ _ h4; exact ⟨l, h1, by simpa [sentBy] using h4⟩
  | cons op ops ih =>
    intro s l sent hk h1 h2 h3 h4
    cases op with
    | send e =>
      obtain ⟨l', g1, g2⟩ := ih (s.send e) l (sent ++ [e]) hk h1 (by simp [Stream.send, h2]) h3
        (h4.trans (List.prefix_append _ _))
      exact ⟨l', g1, by simpa [sentBy] using g2⟩
    | recv =>
      obtain ⟨hlag, hk⟩ := hk
      have hrecv : s.recv cap = match s.log[s.pos]? with
          | some e => { s with pos := s.pos + 1, out := s.out ++ [.event e] }
          | none => s := by
        unfold Stream.recv
        rw [if_neg (by omega)]
        rfl
      obtain ⟨rest, hrest⟩ := h4
      have hget : s.log[s.pos]? = rest[0]? := by
        rw [h2, h3, ← hrest]
        rw [List.getElem?_append_right (by omega)]
        rw [List.getElem?_append_right (by omega)]
        congr 1; omega
      cases rest with
      | nil =>
        rw [hget] at hrecv
        simp only [List.getElem?_nil] at hrecv
        simp only [runStream]
        rw [hrecv] at hk ⊢
        obtain ⟨l', g1, g2⟩ := ih s l sent hk h1 h2 h3 ⟨[], hrest⟩
        exact ⟨l', g1, by simpa [sentBy] using g2⟩
      | cons e rest =>
        rw [hget] at hrecv
        simp only [List.getElem?_cons_zero] at hrecv
        simp only [runStream]
        rw [hrecv] at hk ⊢
        obtain ⟨l', g1, g2⟩ := ih _ (l ++ [e]) sent hk (by simp [h1]) h2 (by simp [h3]; omega)
          ⟨rest, by simpa using hrest⟩
        exact ⟨l', g1, by simpa [sentBy] using g2⟩

/-- A run in which the subscriber keeps up. -/
example : KeepsUp 2 (openStream [7] "x") [.send 1, .send 2, .recv, .recv] := by
  refine ⟨by decide, by decide, trivial⟩

/-! ## C158: no gaps -/

/-- Items that tell all that was sent: each event in its place, and the number of those left out. -/
inductive Tells {E : Type} : List (Item E) → List E → Prop
  | nil : Tells [] []
  | event {items sent e} : Tells items sent → Tells (items ++ [.event e]) (sent ++ [e])
  | lagged {items sent missed n} : Tells items sent → missed.length = n → 0 < n →
      Tells (items ++ [.lagged n]) (sent ++ missed)

/-- The state of a stream, in terms of what was sent since it was opened: what was told, and what is
still to be read. -/
structure StreamInv {E : Type} (log sent : List E) (s : Stream E) : Prop where
  kept : s.log = log ++ sent
  pos : ∃ k, k ≤ sent.length ∧ s.pos = log.length + k ∧ Tells s.out (sent.take k)

theorem streamInv_run {E : Type} (cap : Nat) (log : List E) (ops : List (Op E)) (s : Stream E)
    (sent : List E) (h : StreamInv log sent s) :
    StreamInv log (sent ++ sentBy ops) (runStream cap s ops) := by
  induction ops generalizing s sent with
  | nil => simpa [sentBy, runStream] using h
  | cons op ops ih =>
    obtain ⟨hl, k, hk, hp, ht⟩ := h
    cases op with
    | send e =>
      have := ih (s.send e) (sent ++ [e]) ⟨by simp [Stream.send, hl], k, by simp; omega, hp, by
        rw [List.take_append_of_le_length hk]; exact ht⟩
      simpa [sentBy, runStream] using this
    | recv =>
      refine ih (s.recv cap) sent ?_
      have hlen : s.log.length = log.length + sent.length := by rw [hl]; simp
      unfold Stream.recv
      split
      next hg =>
        refine ⟨hl, sent.length - cap, by omega, by simp only; omega, ?_⟩
        have he : sent.take (sent.length - cap) =
            sent.take k ++ (sent.drop k).take (sent.length - cap - k) := by
          rw [← List.take_add]
          congr 1
          omega
        rw [he]
        refine .lagged ht ?_ (by omega)
        rw [List.length_take, List.length_drop]
        omega
      next =>
        split
        next e hg =>
          have hg' : sent[k]? = some e := by
            rw [hl, hp, List.getElem?_append_right (by omega)] at hg
            rwa [Nat.add_sub_cancel_left] at hg
          have hk' := (List.getElem?_eq_some_iff.1 hg').1
          refine ⟨hl, k + 1, hk', by simp only; omega, ?_⟩
          rw [List.take_add_one, hg']
          exact .event ht
        next => exact ⟨hl, k, hk, hp, ht⟩

/-- **C158, the channel.** A subscriber is told of everything sent since it subscribed, up to where it
has read: the events in order, and how many it has missed. -/
theorem stream_accounts {E : Type} (cap : Nat) (log : List E) (id : String) (ops : List (Op E)) :
    ∃ told, told <+: sentBy ops ∧ Tells (runStream cap (openStream log id) ops).out told := by
  have := streamInv_run cap log ops (openStream log id) [] ⟨by simp [openStream], 0, by simp,
    by simp [openStream], .nil⟩
  obtain ⟨_, k, hk, _, ht⟩ := this
  rw [List.nil_append] at ht
  exact ⟨_, List.take_prefix _ _, ht⟩

theorem clientSees_snoc {E : Type} (items : List (Item E)) (i : Item E) :
    clientSees (items ++ [i]) = clientSees items ∨
    ∃ e, i = .event e ∧ (∀ n, .lagged n ∉ items) ∧ clientSees (items ++ [i]) = clientSees items ++ [e] := by
  induction items with
  | nil =>
    cases i with
    | event e => exact .inr ⟨e, rfl, by simp, rfl⟩
    | lagged n => exact .inl rfl
  | cons x items ih =>
    cases x with
    | lagged n => exact .inl rfl
    | event y =>
      rcases ih with h | ⟨e, h1, h2, h3⟩
      · exact .inl (by simp [clientSees, h])
      · exact .inr ⟨e, h1, by simpa using h2, by simp [clientSees, h3]⟩

theorem tells_sees {E : Type} {items : List (Item E)} {told : List E} (h : Tells items told) :
    clientSees items <+: told ∧ ((∀ n, .lagged n ∉ items) → clientSees items = told) := by
  induction h with
  | nil => exact ⟨List.prefix_refl _, fun _ => rfl⟩
  | @event items sent e _ ih =>
    rcases clientSees_snoc items (.event e) with hs | ⟨e', he, hn, hs⟩
    · refine ⟨by rw [hs]; exact ih.1.trans (List.prefix_append _ _), fun hn => ?_⟩
      exfalso
      have hn : ∀ n, .lagged n ∉ items := fun n hm => hn n (by simp [hm])
      have : ∀ items : List (Item E), (∀ n, .lagged n ∉ items) →
          clientSees (items ++ [.event e]) = clientSees items ++ [e] := by
        intro items
        induction items with
        | nil => intro _; rfl
        | cons x items ih =>
          intro hn
          cases x with
          | lagged n => exact absurd (by simp) (hn n)
          | event y =>
            simp only [List.cons_append, clientSees, ih fun n hm => hn n (by simp [hm])]
      rw [this items hn] at hs
      have := congrArg List.length hs
      simp at this
    · cases he
      rw [hs, ih.2 hn]
      exact ⟨List.prefix_refl _, fun _ => rfl⟩
  | @lagged items sent missed n _ _ _ ih =>
    refine ⟨?_, fun hn => absurd (by simp) (hn n)⟩
    rcases clientSees_snoc items (.lagged n) with hs | ⟨e', he, _⟩
    · rw [hs]; exact ih.1.trans (List.prefix_append _ _)
    · cases he

/-- **C158.** What a client sees is always an initial part of the events sent since it subscribed: a
client that is too slow is cut off, and never sees a later event without the earlier ones. -/
theorem stream_no_gaps {E : Type} (cap : Nat) (log : List E) (id : String) (ops : List (Op E)) :
    clientSees (runStream cap (openStream log id) ops).out <+: sentBy ops := by
  obtain ⟨told, h1, h2⟩ := stream_accounts cap log id ops
  exact (tells_sees h2).1.trans h1

/-- A client that is too slow has seen the first event only, although it is told of two more. -/
example : (runStream 1 (openStream [] "x") [.send 1, .recv, .send 2, .send 3, .recv, .recv]).out =
      [.event 1, .lagged 1, .event 3] ∧
    clientSees (runStream 1 (openStream [] "x") [.send 1, .recv, .send 2, .send 3, .recv, .recv]).out =
      [1] := by decide

end Verif.ExecStore
