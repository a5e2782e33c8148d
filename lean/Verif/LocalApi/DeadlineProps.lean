import Verif.LocalApi.Props

/-!
# C171: events whose deadline has passed are removed

The descriptions of `/events/next` (local-runtime-api-v1.yaml 32-34 and
workflow-local-runtime-api-v1.yaml 28-30): "If a deadline is exceeded while waiting for a result, a
timeout error will be returned to the caller of the runtime in the appropriate form and the event will
be removed." No clock is read in the code of the two APIs, so in the model the times of a history have
no effect.
-/

namespace Verif.LocalApi

open Spec

variable {P R : Type}

/-! ## Specification -/

namespace DeadlineSpec

/-- A history with the time of each operation. -/
abbrev Timed (P R : Type) := List (Nat × Op P R)

/-- Without the times. -/
def ops (h : Timed P R) : List (Op P R) := h.map (·.2)

/-- Time does not run backwards. -/
def Ordered (h : Timed P R) : Prop := (h.map (·.1)).Pairwise (· ≤ ·)

/-- The answer to an operation after a history. -/
def answer (h : Timed P R) (op : Op P R) : Response P := (step (run .init (ops h)).1 op).2

/-- A poll after `before` hands the event out. -/
def Handed (before : Timed P R) (e : Event P) : Prop := answer before .poll = .next (some e)

end DeadlineSpec

open DeadlineSpec

/-- C171 in full, for given timeouts: once the time for an event is over, it is removed, that is, a
result for it is answered with 'not found' as for events that do not exist. -/
def FullDeadline (timeout : Event Nat → Nat) : Prop :=
  ∀ (before after : Timed Nat Nat) (t now : Nat) (e : Event Nat) (r : Nat),
    Ordered (before ++ (t, .poll) :: after ++ [(now, .result e.id r)]) →
    ((submitted (ops (before ++ (t, .poll) :: after))).map (·.2.id)).Nodup →
    Handed before e → t + timeout e < now →
      answer (before ++ (t, .poll) :: after) (.result e.id r) = .notFound

/-! ## There is no deadline -/

theorem run_split (before after : List (Op P R)) (st : State P R) :
    (run st (before ++ after)).2 = (run st before).2 ++ (run (run st before).1 after).2 := by
  induction before generalizing st with
  | nil => rfl
  | cons op rest ih =>
    rw [List.cons_append, run, run, ih, List.cons_append]

/-- An event that is handed out is among those handed out, whatever follows. -/
theorem handed_mem (before after : Timed P R) (t : Nat) (e : Event P) (hh : Handed before e) :
    e ∈ handedOut (run .init (ops (before ++ (t, .poll) :: after))).2 := by
  have e1 : ops (before ++ (t, .poll) :: after) = ops before ++ .poll :: ops after := by
    simp [ops]
  rw [e1, run_split, handedOut_append, run]
  apply List.mem_append_right
  show e ∈ handedOut ((Op.poll, (step (run .init (ops before)).1 .poll).2) :: _)
  have h2 : (step (run .init (ops before)).1 .poll).2 = .next (some e) := hh
  rw [h2, handedOut]
  exact List.mem_cons_self

/-- A submitted event stays submitted. -/
theorem handed_submitted (before after : Timed P R) (t : Nat) (e : Event P) (hh : Handed before e) :
    ∃ tx, (tx, e) ∈ submitted (ops (before ++ (t, .poll) :: after)) := by
  have hm := handed_mem before after t e hh
  have hp := (fifo_once (ops (before ++ (t, .poll) :: after))).1.subset hm
  obtain ⟨⟨tx, e'⟩, h1, h2⟩ := List.mem_map.1 hp
  subst h2
  exact ⟨tx, h1⟩

/-- Results are taken at any time: an event that was handed out and whose id no other event has is being
processed until a result for it is accepted, however long that takes. Then the result goes to its
submitter, and if that has given up, the answer is an error other than 'not found'. -/
theorem whenever_partial (before after : Timed P R) (t : Nat) (tx : Tx) (e : Event P) (r : R)
    (hh : Handed before e) (hs : (tx, e) ∈ submitted (ops (before ++ (t, .poll) :: after)))
    (hu : ((submitted (ops (before ++ (t, .poll) :: after))).map (·.2.id)).count e.id ≤ 1)
    (ha : e.id ∉ accepted (run .init (ops (before ++ (t, .poll) :: after))).2) :
    answer (before ++ (t, .poll) :: after) (.result e.id r) =
        (if tx ∈ gone (ops (before ++ (t, .poll) :: after)) then .unexpected else .processed) ∧
      (step (run .init (ops (before ++ (t, .poll) :: after))).1 (.result e.id r)).1.delivered =
        (run .init (ops (before ++ (t, .poll) :: after))).1.delivered ++
          (if tx ∈ gone (ops (before ++ (t, .poll) :: after)) then [] else [(tx, e, r)]) := by
  have hm := handed_mem before after t e hh
  have hl := unique_processing _ tx e hu hs (List.mem_map_of_mem hm) ha
  have hd := (inv_run (ops (before ++ (t, .poll) :: after))).disc
  rw [answer]
  by_cases hg : tx ∈ gone (ops (before ++ (t, .poll) :: after))
  · rw [if_pos hg, if_pos hg]
    have : tx ∈ (run .init (ops (before ++ (t, .poll) :: after))).1.disconnected := by rwa [hd]
    simp [step, eventResult, hl, this]
  · rw [if_neg hg, if_neg hg]
    have : tx ∉ (run .init (ops (before ++ (t, .poll) :: after))).1.disconnected := by rwa [hd]
    simp [step, eventResult, hl, this]

/-- C171 is false whatever the timeouts are. -/
theorem deadline_violated (timeout : Event Nat → Nat) : ¬ FullDeadline timeout := by
  intro h
  have := h [(0, .enqueue 1 ⟨"a", 10⟩)] [] 0 (timeout ⟨"a", 10⟩ + 1) ⟨"a", 10⟩ 5
    (by simp [Ordered]) (by decide) (by unfold Handed answer; decide) (by omega)
  revert this
  unfold answer
  decide

/-- Also after the submitter has been told that it takes too long and is gone, at any time. -/
theorem given_up (t now : Nat) (h : t ≤ now) :
    Ordered [(0, (Op.enqueue 1 ⟨"a", 10⟩ : Op Nat Nat)), (t, .poll), (now, .disconnect 1)] ∧
    answer [(0, (Op.enqueue 1 ⟨"a", 10⟩ : Op Nat Nat)), (t, .poll), (now, .disconnect 1)]
      (.result "a" 5) = .unexpected ∧
    (run .init (ops [(0, (Op.enqueue 1 ⟨"a", 10⟩ : Op Nat Nat)), (t, .poll),
      (now, .disconnect 1)])).1.processing = [("a", (1, ⟨"a", 10⟩))] := by
  refine ⟨?_, ?_, ?_⟩
  · simp [Ordered, h]
  · show (step (run .init [Op.enqueue 1 ⟨"a", 10⟩, .poll, .disconnect 1]).1 (.result "a" (5 : Nat))).2 = _
    decide
  · show (run .init [(Op.enqueue 1 ⟨"a", 10⟩ : Op Nat Nat), .poll, .disconnect 1]).1.processing = _
    decide

/-! ## What removes an event -/

/-- An event is removed by the first result that is accepted for it: until the id is submitted again,
every other result for it is answered with 'not found'. -/
theorem removed_partial (h : Timed P R) (id : String) (r : R)
    (hd : ((submitted (ops h)).map (·.2.id)).Nodup) (ha : id ∈ accepted (run .init (ops h)).2) :
    answer h (.result id r) = .notFound ∧
      ∀ x ∈ (run .init (ops h)).1.processing, x.1 ≠ id := by
  obtain ⟨h1, -⟩ := result_not_found (ops h) hd id r
  have hn := h1.2 (fun hc => hc.2 ha)
  refine ⟨hn, fun x hx hid => ?_⟩
  rw [step, eventResult] at hn
  cases hl : (run .init (ops h)).1.processing.lookup id with
  | none =>
    have := (lookup_none id (run .init (ops h)).1.processing).1 hl
    exact this (hid ▸ List.mem_map_of_mem hx)
  | some v =>
    rw [hl] at hn
    dsimp only at hn
    split at hn <;> cases hn

/-- An event is handed out, a result arrives a day later, then another one. -/
example :
    answer [(0, (Op.enqueue 1 ⟨"a", 10⟩ : Op Nat Nat)), (1, .poll)] (.result "a" 5) = .processed ∧
    answer [(0, (Op.enqueue 1 ⟨"a", 10⟩ : Op Nat Nat)), (1, .poll), (86400, .result "a" 5)]
      (.result "a" 6) = .notFound := by
  unfold answer
  decide

end Verif.LocalApi
