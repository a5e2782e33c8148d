import Verif.LocalApi.Lemmas

/-!
# Properties of the local runtime API (C13, C14)
-/

namespace Verif.LocalApi

open Spec

variable {P R : Type}

/-! ## C13 -/

/-- What holds of the processing map for an id that was submitted at most once. -/
theorem unique_processing (ops : List (Op P R)) (tx : Tx) (e : Event P)
    (hu : ((submitted ops).map (·.2.id)).count e.id ≤ 1) (hs : (tx, e) ∈ submitted ops)
    (hh : e.id ∈ (handedOut (run .init ops).2).map (·.id))
    (ha : e.id ∉ accepted (run .init ops).2) :
    (run .init ops).1.processing.lookup e.id = some (tx, e) := by
  have hany : ∃ x, (run .init ops).1.processing.lookup e.id = some x := by
    clear hs
    induction ops using snoc_induction with
    | nil => simp [run, handedOut] at hh
    | snoc ops op ih =>
      have hu' : ((submitted ops).map (·.2.id)).count e.id ≤ 1 := by
        rw [submitted_append, List.map_append, List.count_append] at hu
        omega
      have ih := ih hu'
      rw [run_snoc] at hh ha ⊢
      generalize (run State.init ops).1 = st at ih hh ha ⊢
      generalize (run State.init ops).2 = t at ih hh ha ⊢
      rw [accepted_append, List.mem_append, not_or] at ha
      rw [handedOut_append, List.map_append, List.mem_append] at hh
      cases op with
      | enqueue tx' e' =>
        simp only [step, handedOut, List.map_nil, List.not_mem_nil, or_false] at hh
        exact ih hh ha.1
      | disconnect tx' =>
        simp only [step, handedOut, List.map_nil, List.not_mem_nil, or_false] at hh
        exact ih hh ha.1
      | poll =>
        cases hq : st.queue with
        | nil =>
          simp only [step, nextEvent, hq, handedOut, List.map_nil, List.not_mem_nil, or_false] at hh
          simpa [step, nextEvent, hq] using ih hh ha.1
        | cons x rest =>
          obtain ⟨tx', e'⟩ := x
          simp only [step, nextEvent, hq, mapInsert]
          by_cases hk : e.id = e'.id
          · simp [List.lookup_cons, hk]
          · have hk' : (e.id == e'.id) = false := by simpa using hk
            rw [List.lookup_cons, hk']
            simp only
            rw [lookup_filter_ne _ _ _ hk]
            apply ih _ ha.1
            simpa [step, nextEvent, hq, handedOut, hk] using hh
      | result id r =>
        have hho : handedOut [(Op.result id r, (step st (.result id r)).2)] = [] := by
          simp only [step, eventResult]
          split
          · split <;> simp [handedOut]
          · simp [handedOut]
        rw [hho] at hh
        simp only [List.map_nil, List.not_mem_nil, or_false] at hh
        obtain ⟨x, hx⟩ := ih hh ha.1
        have hne : id ≠ e.id := by
          rintro rfl
          apply ha.2
          obtain ⟨tx', e'⟩ := x
          by_cases hdc : tx' ∈ st.disconnected <;>
            simp [step, eventResult, hx, hdc, accepted]
        refine ⟨x, ?_⟩
        simp only [step, eventResult]
        split
        · split
          · simp only [mapRemove]; rw [lookup_filter_ne _ _ _ (Ne.symm hne)]; exact hx
          · simp only [mapRemove]; rw [lookup_filter_ne _ _ _ (Ne.symm hne)]; exact hx
        · exact hx
  obtain ⟨⟨tx', e'⟩, hx⟩ := hany
  have hg := (invG_run ops).procs _ _ _ (lookup_mem _ _ _ hx)
  have hm := List.mem_of_mem_take hg.2
  rw [hx]
  -- two occurrences of the id would be counted twice
  apply Classical.byContradiction
  intro hne
  obtain ⟨l1, l2, hl⟩ := List.append_of_mem hs
  rw [hl] at hm hu
  simp only [List.map_append, List.map_cons, List.count_append, List.count_cons_self] at hu
  have hm' : (tx', e') ∈ l1 ++ l2 := by
    simp only [List.mem_append, List.mem_cons] at hm ⊢
    rcases hm with h | h | h
    · exact Or.inl h
    · exact absurd (by rw [h]) hne
    · exact Or.inr h
  have hc : 0 < ((l1 ++ l2).map (·.2.id)).count e.id := by
    rw [List.count_pos_iff]
    exact List.mem_map.mpr ⟨_, hm', hg.1.symm⟩
  rw [List.map_append, List.count_append] at hc
  omega


/-- **C13.** First-in first-out, each event at most once: whatever happened so far, the events
handed out are the first ones submitted, in order, and the next poll answers with the first one not
handed out yet, or nothing if all have been. Ids may repeat here. -/
theorem fifo_once (ops : List (Op P R)) :
    handedOut (run .init ops).2 <+: (submitted ops).map (·.2) ∧
    (step (run .init ops).1 .poll).2 =
      .next (((submitted ops).map (·.2))[(handedOut (run .init ops).2).length]?) := by
  have h := inv_run ops
  generalize (run State.init ops).1 = st at h ⊢
  generalize (run State.init ops).2 = t at h ⊢
  refine ⟨⟨_, h.fifo⟩, ?_⟩
  rw [← h.fifo]
  cases hq : st.queue with
  | nil => simp [step, nextEvent, hq]
  | cons x rest => simp [step, nextEvent, hq]

/-- **C13.** A result is answered 'not found' exactly when no event with that id is being
processed, that is, unless it was handed out and no result was accepted for it yet; and then nothing
changes. -/
theorem result_not_found (ops : List (Op P R)) (hd : ((submitted ops).map (·.2.id)).Nodup)
    (id : String) (r : R) :
    ((step (run .init ops).1 (.result id r)).2 = .notFound ↔
      ¬ (id ∈ (handedOut (run .init ops).2).map (·.id) ∧ id ∉ accepted (run .init ops).2)) ∧
    ((step (run .init ops).1 (.result id r)).2 = .notFound →
      (step (run .init ops).1 (.result id r)).1 = (run .init ops).1) := by
  have h1 := inv_run ops
  have hp := conserve_run ops hd
  generalize (run State.init ops).1 = st at h1 hp ⊢
  generalize (run State.init ops).2 = t at h1 hp ⊢
  have hnd : (st.processing.map (·.1) ++ accepted t).Nodup := by
    rw [hp.nodup_iff]
    have := handed_nodup h1 hd
    rw [List.nodup_append] at this
    exact this.1
  have hmem : id ∈ st.processing.map (·.1) ↔
      (id ∈ (handedOut t).map (·.id) ∧ id ∉ accepted t) := by
    rw [← hp.mem_iff, List.mem_append]
    rw [List.nodup_append] at hnd
    constructor
    · intro h
      exact ⟨Or.inl h, fun h' => hnd.2.2 _ h _ h' rfl⟩
    · rintro ⟨h | h, h'⟩
      · exact h
      · exact absurd h h'
  rw [← hmem, ← lookup_none]
  cases hl : st.processing.lookup id with
  | none => simp [step, eventResult, hl]
  | some x =>
    obtain ⟨tx, e⟩ := x
    by_cases hdc : tx ∈ st.disconnected <;> simp [step, eventResult, hl, hdc]

/-- **C13.** A result for an event that was handed out and has no accepted result yet is delivered
to the submitter of exactly that event, unless the submitter stopped waiting. -/
theorem result_delivered (ops : List (Op P R)) (hd : ((submitted ops).map (·.2.id)).Nodup)
    (tx : Tx) (e : Event P) (r : R) (hs : (tx, e) ∈ submitted ops)
    (hh : e.id ∈ (handedOut (run .init ops).2).map (·.id))
    (ha : e.id ∉ accepted (run .init ops).2) :
    (tx ∉ gone ops →
      (step (run .init ops).1 (.result e.id r)).2 = .processed ∧
      (step (run .init ops).1 (.result e.id r)).1.delivered =
        (run .init ops).1.delivered ++ [(tx, e, r)]) ∧
    (tx ∈ gone ops →
      (step (run .init ops).1 (.result e.id r)).2 = .unexpected ∧
      (step (run .init ops).1 (.result e.id r)).1.delivered = (run .init ops).1.delivered) := by
  have hl := unique_processing ops tx e (List.nodup_iff_count.mp hd _) hs hh ha
  have hdc := (inv_run ops).disc tx
  constructor
  · intro hgone
    have : tx ∉ (run .init ops).1.disconnected := by rwa [hdc]
    simp [step, eventResult, hl, this]
  · intro hgone
    have : tx ∈ (run .init ops).1.disconnected := by rwa [hdc]
    simp [step, eventResult, hl, this]

/-- **C13.** The results delivered are exactly those answered 'processed', in order and with the
data posted, each to the submitter of an event handed out before with that id. Ids may repeat
here. -/
theorem delivered_log (ops : List (Op P R)) :
    (run .init ops).1.delivered.map (fun d => (d.2.1.id, d.2.2)) = processed (run .init ops).2 ∧
    ∀ d ∈ (run .init ops).1.delivered,
      (d.1, d.2.1) ∈ (submitted ops).take (handedOut (run .init ops).2).length :=
  ⟨(invG_run ops).ids, (invG_run ops).owners⟩

theorem processed_sublist_accepted (t : Trace P R) :
    ((processed t).map (·.1)).Sublist (accepted t) := by
  induction t with
  | nil => exact List.Sublist.refl _
  | cons x t ih =>
    obtain ⟨o, r⟩ := x
    cases o <;> cases r <;> simp [processed, accepted, ih]

/-- **C13.** No event receives two results. -/
theorem delivered_once (ops : List (Op P R)) (hd : ((submitted ops).map (·.2.id)).Nodup) :
    ((run .init ops).1.delivered.map (·.2.1.id)).Nodup := by
  have h1 := inv_run ops
  have hp := conserve_run ops hd
  have hl := congrArg (List.map (·.1)) (delivered_log ops).1
  rw [List.map_map] at hl
  have : (run State.init ops).1.delivered.map (·.2.1.id) =
      (processed (run State.init ops).2).map (·.1) := hl
  rw [this]
  apply (processed_sublist_accepted _).nodup
  have hnd := handed_nodup h1 hd
  rw [List.nodup_append] at hnd
  have := hp.nodup_iff.mpr hnd.1
  rw [List.nodup_append] at this
  exact this.2.1

/-- **C13.** No event is lost: every submitted event is waiting, being processed or has been
answered, and only one of these. -/
theorem no_event_lost (ops : List (Op P R)) (hd : ((submitted ops).map (·.2.id)).Nodup) :
    ((run .init ops).1.queue.map (·.2.id) ++
      ((run .init ops).1.processing.map (·.1) ++ accepted (run .init ops).2)).Perm
      ((submitted ops).map (·.2.id)) := by
  have h1 := (inv_run ops).fifo
  have : (submitted ops).map (·.2.id) = ((submitted ops).map (·.2)).map (·.id) := by simp
  rw [this, ← h1, List.map_append, List.map_map]
  refine ((conserve_run ops hd).append_left _).trans ?_
  exact List.perm_append_comm

/-- A history in which the second event is answered before the first, whose submitter has left. -/
def exampleOps : List (Op Nat Nat) :=
  [.enqueue 1 ⟨"a", 10⟩, .enqueue 2 ⟨"b", 20⟩, .poll, .poll, .result "b" 7, .disconnect 1,
    .result "c" 8]

example : ((submitted exampleOps).map (·.2.id)).Nodup ∧
    handedOut (run .init exampleOps).2 = [⟨"a", 10⟩, ⟨"b", 20⟩] ∧
    accepted (run .init exampleOps).2 = ["b"] ∧
    (run .init exampleOps).1.delivered = [(2, ⟨"b", 20⟩, 7)] ∧
    (step (run .init exampleOps).1 (.result "b" 9)).2 = .notFound ∧
    (step (run .init exampleOps).1 (.result "a" 9)).2 = .unexpected := by decide

/-! ## C14 -/

/-- C14 in full: once a result has been posted for every event handed out, every submitter of a
handed out event that is still waiting has received a result for its own event. -/
def FullDuplicates : Prop :=
  ∀ (ops : List (Op Nat Nat)) (f : Event Nat → Nat), ((submitted ops).map (·.1)).Nodup →
    ∀ tx e, (tx, e) ∈ (submitted ops).take (handedOut (run .init ops).2).length → tx ∉ gone ops →
      ∃ r, (tx, e, r) ∈ (run .init (ops ++
        (handedOut (run .init ops).2).map (fun e => .result e.id (f e)))).1.delivered

/-- Two events with the same id, both handed out. -/
def dupOps : List (Op Nat Nat) :=
  [.enqueue 1 ⟨"a", 10⟩, .enqueue 2 ⟨"a", 20⟩, .poll, .poll]

/-- **C14 fails.** Two events with the same id are handed out; the first submitter never receives
anything. -/
theorem duplicates_violated : ¬ FullDuplicates := by
  intro h
  obtain ⟨r, hr⟩ := h dupOps (fun e => e.payload + 1) (by decide) 1 ⟨"a", 10⟩ (by decide)
    (by decide)
  have hd : (run State.init (dupOps ++ (handedOut (run State.init dupOps).2).map
      (fun e => .result e.id (e.payload + 1)))).1.delivered = [(2, ⟨"a", 20⟩, 11)] := by decide
  rw [hd] at hr
  simp at hr

/-- **C14, the part that holds.** An event whose own id is not repeated is not disturbed by others,
even if those repeat ids: a result for it goes to its submitter.

Missing: the event whose id is repeated while it is in flight (see `duplicates_violated`); for such
ids the only guarantee is `delivered_log`. -/
theorem duplicates_partial (ops : List (Op P R)) (tx : Tx) (e : Event P) (r : R)
    (hu : ((submitted ops).map (·.2.id)).count e.id ≤ 1) (hs : (tx, e) ∈ submitted ops)
    (hh : e.id ∈ (handedOut (run .init ops).2).map (·.id))
    (ha : e.id ∉ accepted (run .init ops).2) (hgone : tx ∉ gone ops) :
    (step (run .init ops).1 (.result e.id r)).2 = .processed ∧
    (step (run .init ops).1 (.result e.id r)).1.delivered =
      (run .init ops).1.delivered ++ [(tx, e, r)] := by
  have hl := unique_processing ops tx e hu hs hh ha
  have : tx ∉ (run .init ops).1.disconnected := by rwa [(inv_run ops).disc]
  simp [step, eventResult, hl, this]

/-- Others repeat the id `a`, `b` is undisturbed. -/
example : (step (run (.init : State Nat Nat) [.enqueue 1 ⟨"a", 10⟩, .enqueue 2 ⟨"b", 20⟩,
      .enqueue 3 ⟨"a", 30⟩, .poll, .poll, .poll, .result "a" 1, .result "a" 2]).1
      (.result "b" 5)).1.delivered =
    [(3, ⟨"a", 30⟩, 1), (2, ⟨"b", 20⟩, 5)] := by decide

end Verif.LocalApi
