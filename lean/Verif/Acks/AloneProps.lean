import Verif.Acks.Lemmas

/-!
# Messages that wait for acknowledgements do not affect each other (C164)
-/

namespace Verif.Acks.Spec

/-- The operation is not about another message. -/
def concerns (id : String) : Op → Bool
  | .status i _ _ => i == id
  | .check _ => true
  | .emit => true

/-- The event is not about another message. -/
def concernsEvent (id : String) : Event → Bool
  | .send i _ _ _ => i == id
  | .ack i _ => i == id
  | .tick _ => true

/-- What is recorded of a message. -/
def statuses (id : String) (ops : List Op) : List (Status × Nat) :=
  ops.filterMap fun o => match o with
    | .status i s t => if i = id then some (s, t) else none
    | _ => none

/-- The actions about a message. -/
def about (id : String) (l : List Action) : List Action :=
  l.filter fun a => match a with
    | .resend _ m _ _ => m == id
    | .lost m _ => m == id

end Verif.Acks.Spec

namespace Verif.Acks

open Spec Verif.Assoc

theorem about_eq (id : String) (l : List Action) : about id l = l.filter fun a => a.messageId == id := by
  unfold about
  congr 1
  funext a
  cases a <;> rfl

/-- What a state has of one message. -/
def proj (id : String) (st : State) : State :=
  ⟨st.acks.filter fun kv => kv.1 == id, about id st.todo, about id st.emitted⟩

theorem lookup_only (id : String) (m : List (String × Entry)) :
    (m.filter fun kv => kv.1 == id).lookup id = m.lookup id := by
  induction m with
  | nil => rfl
  | cons kv m ih =>
    obtain ⟨k, v⟩ := kv
    by_cases h : k = id
    · subst h
      simp
    · have h1 : (k == id) = false := by simpa using h
      have h2 : (id == k) = false := by simpa using Ne.symm h
      rw [List.filter_cons, List.lookup_cons, h2]
      simp only [h1]
      exact ih

theorem only_insert_self (id : String) (v : Entry) (m : List (String × Entry)) :
    ((mapInsert id v m).filter fun kv => kv.1 == id) =
      mapInsert id v (m.filter fun kv => kv.1 == id) := by
  simp only [mapInsert, List.filter_cons, beq_self_eq_true, ↓reduceIte, List.filter_filter]
  congr 1
  apply List.filter_congr
  intro kv _
  rw [Bool.and_comm]

theorem only_insert_ne (id j : String) (v : Entry) (m : List (String × Entry)) (h : j ≠ id) :
    ((mapInsert j v m).filter fun kv => kv.1 == id) = m.filter fun kv => kv.1 == id := by
  have h1 : (j == id) = false := by simpa using h
  simp only [mapInsert, List.filter_cons, h1, List.filter_filter]
  apply List.filter_congr
  intro kv _
  by_cases hk : kv.1 = id
  · have : kv.1 ≠ j := fun he => h (he.symm.trans hk)
    simp [hk, Ne.symm h]
  · simp [hk]

theorem only_remove_self (id : String) (m : List (String × Entry)) :
    ((mapRemove id m).filter fun kv => kv.1 == id) = mapRemove id (m.filter fun kv => kv.1 == id) := by
  simp only [mapRemove, List.filter_filter]
  apply List.filter_congr
  intro kv _
  rw [Bool.and_comm]

theorem only_remove_ne (id j : String) (m : List (String × Entry)) (h : j ≠ id) :
    ((mapRemove j m).filter fun kv => kv.1 == id) = m.filter fun kv => kv.1 == id := by
  simp only [mapRemove, List.filter_filter]
  apply List.filter_congr
  intro kv _
  by_cases hk : kv.1 = id
  · simp [hk, Ne.symm h]
  · simp [hk]

theorem proj_status_self (cfg : Config) (id : String) (st : State) (s : Status) (now : Nat) :
    proj id (step cfg st (.status id s now)) = step cfg (proj id st) (.status id s now) := by
  simp only [proj, step, recordAck, lookup_only, only_insert_self]

theorem proj_status_ne (cfg : Config) (id j : String) (st : State) (s : Status) (now : Nat)
    (h : j ≠ id) : proj id (step cfg st (.status j s now)) = proj id st := by
  simp only [proj, step, recordAck, only_insert_ne _ _ _ _ h]

theorem computed_only (cfg : Config) (now : Nat) (id : String) (m : List (String × Entry)) :
    about id (m.filterMap fun kv => actionFor cfg now kv.1 kv.2) =
      (m.filter fun kv => kv.1 == id).filterMap fun kv => actionFor cfg now kv.1 kv.2 := by
  rw [about_eq]
  induction m with
  | nil => rfl
  | cons kv m ih =>
    rw [List.filterMap_cons, List.filter_cons]
    cases ha : actionFor cfg now kv.1 kv.2 with
    | none =>
      dsimp only
      rw [ih]
      split
      · rw [List.filterMap_cons, ha]
      · rfl
    | some a =>
      dsimp only
      rw [List.filter_cons, actionFor_id cfg now kv.1 kv.2 a ha]
      split
      · rw [List.filterMap_cons, ha, ih]
      · exact ih

theorem proj_check (cfg : Config) (id : String) (st : State) (now : Nat) (h : st.todo = []) :
    proj id (step cfg st (.check now)) = step cfg (proj id st) (.check now) := by
  simp only [step, h, proj, computed_only]
  rfl

theorem proj_emit_self (cfg : Config) (id : String) (st : State) (a : Action) (rest : List Action)
    (h : st.todo = a :: rest) (ha : a.messageId = id) :
    proj id (step cfg st .emit) = step cfg (proj id st) .emit := by
  have h1 : about id (a :: rest) = a :: about id rest := by
    rw [about_eq, about_eq, List.filter_cons, ha]
    simp
  have h2 : about id (st.emitted ++ [a]) = about id st.emitted ++ [a] := by
    rw [about_eq, about_eq, List.filter_append, List.filter_cons, ha]
    simp
  simp only [step, h, proj, h1, h2]
  cases a with
  | resend => rfl
  | lost m c =>
    have ha : m = id := ha
    subst ha
    simp only [only_remove_self]

theorem proj_emit_ne (cfg : Config) (id : String) (st : State) (a : Action) (rest : List Action)
    (h : st.todo = a :: rest) (ha : a.messageId ≠ id) :
    proj id (step cfg st .emit) = proj id st := by
  have hb : (a.messageId == id) = false := by simpa using ha
  have h1 : about id (a :: rest) = about id rest := by
    rw [about_eq, about_eq, List.filter_cons, hb]
    rfl
  have h2 : about id (st.emitted ++ [a]) = about id st.emitted := by
    rw [about_eq, about_eq, List.filter_append, List.filter_cons, hb]
    simp
  simp only [step, h, proj, h1, h2]
  cases a with
  | resend => rfl
  | lost m c =>
    have ha : m ≠ id := ha
    simp only [only_remove_ne _ _ _ ha]

/-- C164, all interleavings of the worker: what it does with a message it also does without all others.
There is a history with a part of the operations, with everything recorded of this message and nothing
of others, in which the actions are those about the message. -/
theorem alone (cfg : Config) (ops : List Op) (id : String) :
    ∃ part : List Op, part.Sublist ops ∧ (∀ o ∈ part, concerns id o = true) ∧
      statuses id part = statuses id ops ∧
      (run cfg part).emitted = about id (run cfg ops).emitted ∧
      (run cfg part).acks.lookup id = (run cfg ops).acks.lookup id := by
  suffices h : ∃ part : List Op, part.Sublist ops ∧ (∀ o ∈ part, concerns id o = true) ∧
      statuses id part = statuses id ops ∧ run cfg part = proj id (run cfg ops) by
    obtain ⟨part, h1, h2, h3, h4⟩ := h
    exact ⟨part, h1, h2, h3, by rw [h4]; rfl, by rw [h4]; exact lookup_only id _⟩
  have snoc : ∀ (l : List Op) (o : Op), run cfg (l ++ [o]) = step cfg (run cfg l) o := by
    intro l o
    simp [run, List.foldl_append]
  have stat : ∀ (l : List Op) (o : Op), statuses id (l ++ [o]) = statuses id l ++ statuses id [o] :=
    fun l o => List.filterMap_append
  induction ops using snoc_induction with
  | nil => exact ⟨[], .refl _, nofun, rfl, rfl⟩
  | snoc ops op ih =>
    obtain ⟨part, h1, h2, h3, h4⟩ := ih
    have keep : concerns id op = true → proj id (step cfg (run cfg ops) op) =
        step cfg (proj id (run cfg ops)) op →
        ∃ part : List Op, part.Sublist (ops ++ [op]) ∧ (∀ o ∈ part, concerns id o = true) ∧
          statuses id part = statuses id (ops ++ [op]) ∧
          run cfg part = proj id (run cfg (ops ++ [op])) := by
      intro hc hp
      refine ⟨part ++ [op], h1.append (.refl _), ?_, by rw [stat, stat, h3], by
        rw [snoc, snoc, h4, hp]⟩
      intro o ho
      rcases List.mem_append.1 ho with ho | ho
      · exact h2 o ho
      · rw [List.mem_singleton.1 ho]; exact hc
    have drop : statuses id [op] = [] → proj id (step cfg (run cfg ops) op) = proj id (run cfg ops) →
        ∃ part : List Op, part.Sublist (ops ++ [op]) ∧ (∀ o ∈ part, concerns id o = true) ∧
          statuses id part = statuses id (ops ++ [op]) ∧
          run cfg part = proj id (run cfg (ops ++ [op])) := by
      intro hs hp
      exact ⟨part, h1.trans (List.sublist_append_left _ _), h2, by rw [stat, h3, hs, List.append_nil], by
        rw [snoc, hp, h4]⟩
    cases op with
    | status j s now =>
      by_cases hj : j = id
      · subst hj
        exact keep (beq_self_eq_true j) (proj_status_self cfg j _ s now)
      · refine drop ?_ (proj_status_ne cfg id j _ s now hj)
        simp [statuses, hj]
    | check now =>
      cases ht : (run cfg ops).todo with
      | nil => exact keep rfl (proj_check cfg id _ now ht)
      | cons a rest =>
        refine drop rfl ?_
        simp only [step, ht]
    | emit =>
      cases ht : (run cfg ops).todo with
      | nil =>
        refine drop rfl ?_
        simp only [step, ht]
      | cons a rest =>
        by_cases ha : a.messageId = id
        · exact keep rfl (proj_emit_self cfg id _ a rest ht ha)
        · exact drop rfl (proj_emit_ne cfg id _ a rest ht ha)

/-- One action is sent and, if it is a resend, recorded. -/
def sent (cfg : Config) (now : Nat) (st : State) (a : Action) : State :=
  match a with
  | .resend _ m text clients =>
    step cfg (step cfg st .emit) (.status m (.pending text clients) now)
  | .lost _ _ => step cfg st .emit

theorem drain_cons (cfg : Config) (now n : Nat) (st : State) (a : Action) (l : List Action)
    (h : st.todo = a :: l) : drain cfg now (n + 1) st = drain cfg now n (sent cfg now st a) := by
  rw [drain]
  simp only [h]
  cases a <;> rfl

theorem proj_drain (cfg : Config) (now : Nat) (id : String) : ∀ (l : List Action) (st : State),
    st.todo = l →
    proj id (drain cfg now l.length st) = drain cfg now (about id l).length (proj id st) := by
  intro l
  induction l with
  | nil => intro st _; rfl
  | cons a l ih =>
    intro st h
    have he : (sent cfg now st a).todo = l := by
      cases a <;> simp only [sent, step, h]
    rw [List.length_cons, drain_cons cfg now _ st a l h, ih _ he]
    by_cases ha : a.messageId = id
    · have h1 : about id (a :: l) = a :: about id l := by
        rw [about_eq, about_eq, List.filter_cons, ha]
        simp
      have hp : (proj id st).todo = a :: about id l := by
        show about id st.todo = _
        rw [h, h1]
      rw [h1, List.length_cons, drain_cons cfg now _ _ a _ hp]
      congr 1
      cases a with
      | lost m c => exact proj_emit_self cfg id st _ l h ha
      | resend cl m t c =>
        have ha' : m = id := ha
        subst ha'
        rw [sent, sent, proj_status_self, proj_emit_self cfg m st _ l h ha]
    · have h1 : about id (a :: l) = about id l := by
        have hb : (a.messageId == id) = false := by simpa using ha
        rw [about_eq, about_eq, List.filter_cons, hb]
        rfl
      rw [h1]
      congr 1
      cases a with
      | lost m c => exact proj_emit_ne cfg id st _ l h ha
      | resend cl m t c =>
        have ha' : m ≠ id := ha
        rw [sent, proj_status_ne _ _ _ _ _ _ ha', proj_emit_ne cfg id st _ l h ha]

/-- C164, the worker together with the registry: what happens to a message is what happens when nothing
else is sent or acknowledged. -/
theorem loop_alone (cfg : Config) (es : List Event) (id : String) :
    (loop cfg (es.filter (concernsEvent id))).emitted = about id (loop cfg es).emitted ∧
    (loop cfg (es.filter (concernsEvent id))).acks.lookup id = (loop cfg es).acks.lookup id := by
  suffices h : ∀ st : State, Quiet st → (es.filter (concernsEvent id)).foldl (event cfg) (proj id st) =
      proj id (es.foldl (event cfg) st) by
    have := h .init quiet_init
    have h0 : proj id State.init = .init := rfl
    rw [h0] at this
    rw [loop, this]
    exact ⟨rfl, lookup_only id _⟩
  induction es with
  | nil => intro st _; rfl
  | cons e es ih =>
    intro st hq
    have hq' := event_quiet cfg st e hq
    rw [List.foldl_cons, ← ih _ hq', List.filter_cons]
    cases e with
    | send j t c now =>
      by_cases hj : j = id
      · subst hj
        rw [if_pos (show concernsEvent j (.send j t c now) = true from beq_self_eq_true j),
          List.foldl_cons]
        congr 1
        exact (proj_status_self cfg j st _ now).symm
      · rw [if_neg (by simpa [concernsEvent] using hj)]
        congr 1
        exact (proj_status_ne cfg id j st _ now hj).symm
    | ack j now =>
      by_cases hj : j = id
      · subst hj
        rw [if_pos (show concernsEvent j (.ack j now) = true from beq_self_eq_true j),
          List.foldl_cons]
        congr 1
        exact (proj_status_self cfg j st _ now).symm
      · rw [if_neg (by simpa [concernsEvent] using hj)]
        congr 1
        exact (proj_status_ne cfg id j st _ now hj).symm
    | tick now =>
      rw [if_pos (show concernsEvent id (.tick now) = true from rfl), List.foldl_cons]
      congr 1
      rw [event, event]
      rw [proj_drain cfg now id _ _ rfl, ← proj_check cfg id st now hq.todo]
      rfl

/-- Two messages of which one is acknowledged. -/
example : about "a" (loop ⟨10, 2⟩ [.send "a" "x" [] 0, .send "b" "y" [] 1, .ack "b" 5, .tick 20,
      .tick 40]).emitted = [.resend "a" "a" "x" [], .lost "a" []] ∧
    [Event.send "a" "x" [] 0, .send "b" "y" [] 1, .ack "b" 5, .tick 20, .tick 40].filter
      (concernsEvent "a") = [.send "a" "x" [] 0, .tick 20, .tick 40] := by decide

end Verif.Acks
