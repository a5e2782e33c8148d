import Verif.Sqs.Spec

/-!
# Lemmas about the SQS consumer
-/

namespace Verif.Sqs

open Spec

theorem buildEntries_mem {ms : List Message} {es : List (String × String)}
    (h : buildEntries ms = some es) :
    ∀ e ∈ es, ∃ m ∈ ms, m.id = some e.1 ∧ m.receipt = some e.2 := by
  induction ms generalizing es with
  | nil => simp only [buildEntries, Option.some.injEq] at h; subst h; simp
  | cons m ms ih =>
    unfold buildEntries at h
    split at h
    · rename_i i r hi hr
      cases hb : buildEntries ms with
      | none => simp [hb] at h
      | some es' =>
        simp only [hb, Option.map_some, Option.some.injEq] at h
        subst h
        intro e he
        rcases List.mem_cons.mp he with he | he
        · subst he; exact ⟨m, by simp, hi, hr⟩
        · obtain ⟨m', hm', h1⟩ := ih hb e he
          exact ⟨m', by simp [hm'], h1⟩
    · simp at h

theorem buildEntries_genuine {owner : String → Option String} {ms : List Message}
    (h : ∀ m ∈ ms, Genuine owner m) :
    ∃ es, buildEntries ms = some es ∧
      es.map (fun e => (some e.1, some e.2)) = ms.map (fun m => (m.id, m.receipt)) := by
  induction ms with
  | nil => exact ⟨[], rfl, rfl⟩
  | cons m ms ih =>
    obtain ⟨es, he, hm⟩ := ih fun m' h' => h m' (by simp [h'])
    obtain ⟨i, rc, hi, hr, _⟩ := h m (by simp)
    exact ⟨(i, rc) :: es, by simp [buildEntries, hi, hr, he], by simp [hm, hi, hr]⟩

theorem deletes_append (a b : List Call) : deletes (a ++ b) = deletes a ++ deletes b := by
  induction a with
  | nil => rfl
  | cons x a ih => cases x <;> simp [deletes, ih]

theorem handed_append (a b : List Call) : handed (a ++ b) = handed a ++ handed b := by
  induction a with
  | nil => rfl
  | cons x a ih => cases x <;> simp [handed, ih]

theorem pauses_append (a b : List Call) : pauses (a ++ b) = pauses a ++ pauses b := by
  induction a with
  | nil => rfl
  | cons x a ih => cases x <;> simp [pauses, ih]

theorem hidings_append (e : String × String) (a b : List Call) :
    hidings e (a ++ b) = hidings e a ++ hidings e b := by
  induction a with
  | nil => rfl
  | cons x a ih =>
    cases x <;> simp only [List.cons_append, hidings, ih]
    split <;> simp

theorem deletes_heartbeats (c : Config) (ms : List Message) (d : Nat) :
    deletes (heartbeats c ms d) = [] := by
  unfold heartbeats
  split
  · rename_i es _ _
    induction ticks _ d with
    | nil => rfl
    | cons t ts ih => simpa [deletes] using ih
  · rfl

theorem handed_heartbeats (c : Config) (ms : List Message) (d : Nat) :
    handed (heartbeats c ms d) = [] := by
  unfold heartbeats
  split
  · rename_i es _ _
    induction ticks _ d with
    | nil => rfl
    | cons t ts ih => simpa [handed] using ih
  · rfl

theorem pauses_heartbeats (c : Config) (ms : List Message) (d : Nat) :
    pauses (heartbeats c ms d) = [] := by
  unfold heartbeats
  split
  · rename_i es _ _
    induction ticks _ d with
    | nil => rfl
    | cons t ts ih => simpa [pauses] using ih
  · rfl

theorem handlerRun_ok_iff (c : Config) (registered : Bool) (ms : List Message) (k : Completion) :
    (handlerRun (finalise c) registered ms k).2.1 = .ok () ↔
      registered = true ∧ ∃ t, k = .after t true ∧ t ≤ c.handlerTimeout * 1000 := by
  unfold handlerRun
  cases registered with
  | false => simp
  | true =>
    cases k with
    | never => simp [runWithTimeout]
    | after t ok =>
      have hl : (finalise c).handlerTimeout = c.handlerTimeout := rfl
      rw [hl]
      generalize c.handlerTimeout * 1000 = l
      simp only [runWithTimeout, ↓reduceIte, Completion.after.injEq, true_and]
      by_cases ht : t ≤ l <;> cases ok <;> simp [ht]

theorem handlerRun_calls (f : Final) (ms : List Message) (k : Completion) :
    handed (handlerRun f true ms k).1 = [ms] := by
  unfold handlerRun
  simp only [↓reduceIte]
  split <;> simp [handed]

theorem handlerRun_no_delete (f : Final) (reg : Bool) (ms : List Message) (k : Completion) :
    deletes (handlerRun f reg ms k).1 = [] ∧ pauses (handlerRun f reg ms k).1 = [] ∧
    ∀ e, hidings e (handlerRun f reg ms k).1 = [] := by
  unfold handlerRun
  cases reg
  · simp [deletes, pauses, hidings]
  · simp only [↓reduceIte]
    split <;> simp [deletes, pauses, hidings]

theorem handlerRun_dur (c : Config) (ms : List Message) (a) (k : Completion) :
    (handlerRun (finalise c) true ms k).2.2 = busy c ⟨a, k⟩ := by
  unfold handlerRun busy
  cases k <;> simp [runDuration, finalise]

open Classical in
/-- The result of a round as one case distinction. -/
theorem receiveMessages_ok (c : Config) (reg : Bool) (r : Round) (ms? : Option (List Message))
    (h : r.answer = .ok ms?) :
    ∃ rest, (receiveMessages c reg r).1 =
        .receive (c.batchSize.getD 1) (c.waitTimeSeconds.getD 20) (c.visibilityTimeout.getD 30) ::
          (handlerRun (finalise c) reg (ms?.getD []) r.completion).1 ++
          heartbeats c (ms?.getD []) (handlerRun (finalise c) reg (ms?.getD []) r.completion).2.2 ++
          rest ∧
      handed rest = [] ∧ pauses rest = [] ∧ (∀ e, hidings e rest = []) ∧
      (deletes rest = if c.shouldDelete = true ∧
          ((handlerRun (finalise c) reg (ms?.getD []) r.completion).2.1 = .ok () ∨
            c.deleteOnFailure ≠ some false) ∧ ms?.getD [] ≠ []
        then (buildEntries (ms?.getD [])).toList else []) ∧
      (buildEntries (ms?.getD []) ≠ none → (receiveMessages c reg r).2 = .ok ()) := by
  simp only [receiveMessages, h]
  generalize hms : ms?.getD [] = ms
  obtain ⟨calls, result, d⟩ := handlerRun (finalise c) reg ms r.completion
  simp only [deleteMessages, terminateVisibility]
  cases result with
  | ok u =>
    cases u
    by_cases hs : c.shouldDelete = true
    · by_cases hm : ms = []
      · subst hm; exact ⟨[], by simp [finalise, hs, handed, pauses, hidings, deletes, buildEntries]⟩
      · cases hb : buildEntries ms with
        | none => exact ⟨[], by simp [finalise, hs, hm, handed, pauses, hidings, deletes]⟩
        | some es => exact ⟨[.delete es], by simp [finalise, hs, hm, handed, pauses, hidings, deletes]⟩
    · exact ⟨[], by simp [finalise, hs, handed, pauses, hidings, deletes]⟩
  | error e =>
    by_cases hs : c.shouldDelete = true
    · cases hd : c.deleteOnFailure with
      | none =>
        by_cases hm : ms = []
        · subst hm
          by_cases htv : c.terminateVisibility = true
          · exact ⟨[.changeVisibility [] 0], by
              simp [finalise, hs, hd, htv, handed, pauses, hidings, deletes, buildEntries]⟩
          · exact ⟨[], by
              simp [finalise, hs, hd, htv, handed, pauses, hidings, deletes, buildEntries]⟩
        · cases hb : buildEntries ms with
          | none => exact ⟨[], by simp [finalise, hs, hd, hm, handed, pauses, hidings, deletes]⟩
          | some es =>
            by_cases htv : c.terminateVisibility = true
            · exact ⟨[.delete es, .changeVisibility es 0], by
                simp [finalise, hs, hd, hm, htv, handed, pauses, hidings, deletes]⟩
            · exact ⟨[.delete es], by
                simp [finalise, hs, hd, hm, htv, handed, pauses, hidings, deletes]⟩
      | some b =>
        cases b with
        | true =>
          by_cases hm : ms = []
          · subst hm
            by_cases htv : c.terminateVisibility = true
            · exact ⟨[.changeVisibility [] 0], by
                simp [finalise, hs, hd, htv, handed, pauses, hidings, deletes, buildEntries]⟩
            · exact ⟨[], by
                simp [finalise, hs, hd, htv, handed, pauses, hidings, deletes, buildEntries]⟩
          · cases hb : buildEntries ms with
            | none => exact ⟨[], by simp [finalise, hs, hd, hm, handed, pauses, hidings, deletes]⟩
            | some es =>
              by_cases htv : c.terminateVisibility = true
              · exact ⟨[.delete es, .changeVisibility es 0], by
                  simp [finalise, hs, hd, hm, htv, handed, pauses, hidings, deletes]⟩
              · exact ⟨[.delete es], by
                  simp [finalise, hs, hd, hm, htv, handed, pauses, hidings, deletes]⟩
        | false =>
          by_cases htv : c.terminateVisibility = true
          · cases hb : buildEntries ms with
            | none => exact ⟨[], by simp [finalise, hd, htv, handed, pauses, hidings, deletes]⟩
            | some es => exact ⟨[.changeVisibility es 0], by
                simp [finalise, hd, htv, handed, pauses, hidings, deletes]⟩
          · exact ⟨[], by simp [finalise, hd, htv, handed, pauses, hidings, deletes]⟩
    · by_cases htv : c.terminateVisibility = true
      · cases hb : buildEntries ms with
        | none => exact ⟨[], by simp [finalise, hs, hb, htv, handed, pauses, hidings, deletes]⟩
        | some es => exact ⟨[.changeVisibility es 0], by
            simp [finalise, hs, hb, htv, handed, pauses, hidings, deletes]⟩
      · exact ⟨[], by simp [finalise, hs, htv, handed, pauses, hidings, deletes]⟩

/-- An iteration makes the calls of its round and then sleeps at most once. -/
theorem iteration_calls (c : Config) (reg : Bool) (r : Round) :
    (iteration c reg r).1 = (receiveMessages c reg r).1 ∨
    ∃ d, (iteration c reg r).1 = (receiveMessages c reg r).1 ++ [.sleep d] := by
  unfold iteration
  split <;> rename_i h <;> simp [h]

/-- The deletions of a round, whatever the answer. -/
theorem iteration_deletes (c : Config) (reg : Bool) (r : Round) :
    deletes (iteration c reg r).1 = deletes (receiveMessages c reg r).1 := by
  rcases iteration_calls c reg r with h | ⟨d, h⟩ <;> rw [h]
  rw [deletes_append]; simp [deletes]

open Classical in
theorem round_deletes_ok (c : Config) (reg : Bool) (r : Round) (ms? : Option (List Message))
    (h : r.answer = .ok ms?) :
    deletes (receiveMessages c reg r).1 = if c.shouldDelete = true ∧
          ((handlerRun (finalise c) reg (ms?.getD []) r.completion).2.1 = .ok () ∨
            c.deleteOnFailure ≠ some false) ∧ ms?.getD [] ≠ []
        then (buildEntries (ms?.getD [])).toList else [] := by
  obtain ⟨rest, h1, _, _, _, h5, _⟩ := receiveMessages_ok c reg r ms? h
  rw [h1, deletes_append, deletes_append, deletes_heartbeats, ← h5]
  simp [deletes, (handlerRun_no_delete (finalise c) reg (ms?.getD []) r.completion).1]

theorem round_deletes_err (c : Config) (reg : Bool) (r : Round) (e : RecvError)
    (h : r.answer = .error e) : deletes (receiveMessages c reg r).1 = [] := by
  simp [receiveMessages, h, deletes]

/-- A message can only disappear through a delete request carrying one of its receipts. -/
theorem serves_lost {owner : String → Option String} {cs : List Call} {s s' : List String}
    {i : String} (h : Serves owner cs s s') (hi : i ∈ s) (hn : i ∉ s') :
    ∃ es ∈ deletes cs, ∃ e ∈ es, owner e.2 = some i := by
  induction cs generalizing s with
  | nil => exact absurd (h i hi) hn
  | cons x cs ih =>
    cases x with
    | delete es =>
      obtain ⟨s1, h1, h2⟩ := h
      rcases h1 i hi with h1 | ⟨e, he, ho⟩
      · obtain ⟨es', h3, h4⟩ := ih h2 h1
        exact ⟨es', by simp [deletes, h3], h4⟩
      · exact ⟨es, by simp [deletes], e, he, ho⟩
    | _ =>
      obtain ⟨s1, h1, h2⟩ := h
      exact ih h2 (h1 i hi)

theorem run_mem {c : Config} {reg : Bool} {rs : List Round} {r : Round} {cs : List Call}
    (h : (r, cs) ∈ run c reg rs) : r ∈ rs ∧ cs = (iteration c reg r).1 := by
  induction rs with
  | nil => simp [run] at h
  | cons r' rs ih =>
    unfold run at h
    split at h
    · rename_i calls heq
      rcases List.mem_cons.mp h with h | h
      · injection h with h1 h2
        subst h1; subst h2
        simp [heq]
      · exact ⟨by simp [(ih h).1], (ih h).2⟩
    · rename_i calls heq
      simp only [List.mem_singleton, Prod.mk.injEq] at h
      obtain ⟨h1, h2⟩ := h
      subst h1; subst h2
      simp [heq]

theorem deletes_flat {xs : List (Round × List Call)} {es : List (String × String)}
    (h : es ∈ deletes (xs.flatMap (·.2))) : ∃ x ∈ xs, es ∈ deletes x.2 := by
  induction xs with
  | nil => simp [deletes] at h
  | cons x xs ih =>
    rw [List.flatMap_cons, deletes_append, List.mem_append] at h
    rcases h with h | h
    · exact ⟨x, by simp, h⟩
    · obtain ⟨y, hy, h⟩ := ih h
      exact ⟨y, by simp [hy], h⟩

/-- What a tick list looks like. -/
theorem mem_ticks {p d t : Nat} (hp : 0 < p) :
    t ∈ ticks p d ↔ p ∣ t ∧ (t = 0 ∨ t < d) := by
  unfold ticks
  rw [if_neg (by omega)]
  simp only [List.mem_filter, List.mem_map, List.mem_range, Bool.or_eq_true, decide_eq_true_eq]
  constructor
  · rintro ⟨⟨k, _, rfl⟩, h⟩
    exact ⟨⟨k, Nat.mul_comm _ _⟩, h⟩
  · rintro ⟨⟨k, rfl⟩, h⟩
    refine ⟨⟨k, ?_, Nat.mul_comm _ _⟩, h⟩
    rcases h with h | h
    · have : k = 0 := by
        rcases Nat.mul_eq_zero.mp h with h | h
        · omega
        · exact h
      subst this; exact Nat.succ_pos _
    · have : k ≤ d / p := (Nat.le_div_iff_mul_le hp).mpr (by rw [Nat.mul_comm]; omega)
      omega

theorem ticks_sorted (p d : Nat) : (ticks p d).Pairwise (· < ·) := by
  unfold ticks
  split
  · exact List.Pairwise.nil
  · rename_i hp
    apply List.Pairwise.filter
    rw [List.pairwise_map]
    exact List.Pairwise.imp (fun {a b} h => Nat.mul_lt_mul_of_pos_right h (by omega))
      List.pairwise_lt_range

/-- The last tick at or before a time splits the list. -/
theorem ticks_split {ts : List Nat} (hs : ts.Pairwise (· < ·)) (t : Nat) (s : Nat) (hm : s ∈ ts)
    (hlast : ∀ u ∈ ts, u ≤ t → u ≤ s) :
    ∃ pre post, ts = pre ++ s :: post ∧ ∀ u ∈ post, t < u := by
  obtain ⟨pre, post, rfl⟩ := List.append_of_mem hm
  refine ⟨pre, post, rfl, fun u hu => ?_⟩
  apply Classical.byContradiction
  intro hlt
  have h1 := hlast u (by simp [hu]) (by omega)
  have h2 := (List.pairwise_append.mp hs).2.1
  have h3 := (List.pairwise_cons.mp h2).1 u hu
  omega

end Verif.Sqs
