import Verif.LocalApi.Spec

namespace Verif.LocalApi

open Spec

variable {P R : Type}

theorem run_snoc (st : State P R) (ops : List (Op P R)) (op : Op P R) :
    run st (ops ++ [op]) =
      ((step (run st ops).1 op).1, (run st ops).2 ++ [(op, (step (run st ops).1 op).2)]) := by
  induction ops generalizing st with
  | nil => simp [run]
  | cons o ops ih => simp [run, ih]

theorem handedOut_append (a b : Trace P R) : handedOut (a ++ b) = handedOut a ++ handedOut b := by
  induction a with
  | nil => rfl
  | cons x a ih =>
    obtain ⟨o, r⟩ := x
    cases r with
    | next e => cases e <;> simp [handedOut, ih]
    | _ => simp [handedOut, ih]

theorem accepted_append (a b : Trace P R) : accepted (a ++ b) = accepted a ++ accepted b := by
  induction a with
  | nil => rfl
  | cons x a ih =>
    obtain ⟨o, r⟩ := x
    cases o <;> cases r <;> simp [accepted, ih]

theorem processed_append (a b : Trace P R) : processed (a ++ b) = processed a ++ processed b := by
  induction a with
  | nil => rfl
  | cons x a ih =>
    obtain ⟨o, r⟩ := x
    cases o <;> cases r <;> simp [processed, ih]

theorem submitted_append (a b : List (Op P R)) :
    submitted (a ++ b) = submitted a ++ submitted b := by
  induction a with
  | nil => rfl
  | cons o a ih => cases o <;> simp [submitted, ih]

theorem gone_append (a b : List (Op P R)) : gone (a ++ b) = gone a ++ gone b := by
  induction a with
  | nil => rfl
  | cons o a ih => cases o <;> simp [gone, ih]

/-- Facts about every history. -/
structure Inv (ops : List (Op P R)) (t : Trace P R) (st : State P R) : Prop where
  fifo : handedOut t ++ st.queue.map (·.2) = (submitted ops).map (·.2)
  queue : st.queue = (submitted ops).drop (handedOut t).length
  disc : ∀ tx, tx ∈ st.disconnected ↔ tx ∈ gone ops
  delivered : st.delivered.map (fun d => d.2.2) = (processed t).map (·.2)

theorem snoc_induction {A : Type} {motive : List A → Prop} (nil : motive [])
    (snoc : ∀ l a, motive l → motive (l ++ [a])) (l : List A) : motive l := by
  have : ∀ n (l : List A), l.length = n → motive l := by
    intro n
    induction n with
    | zero => intro l hl; rw [List.length_eq_zero_iff] at hl; subst hl; exact nil
    | succ n ih =>
      intro l hl
      have hne : l ≠ [] := by rintro rfl; simp at hl
      rw [← List.dropLast_concat_getLast hne]
      apply snoc
      apply ih
      simp [hl]
  exact this _ l rfl

theorem inv_run (ops : List (Op P R)) :
    Inv ops (run .init ops).2 (run .init ops).1 := by
  induction ops using snoc_induction with
  | nil =>
    exact ⟨by simp [run, State.init, submitted, handedOut], by simp [run, State.init, submitted],
      by simp [run, State.init, gone], by simp [run, State.init, processed]⟩
  | snoc ops op ih =>
    rw [run_snoc]
    generalize (run State.init ops).1 = st at ih ⊢
    generalize (run State.init ops).2 = t at ih ⊢
    obtain ⟨h1, h2, h3, h4⟩ := ih
    have hlen : (handedOut t).length ≤ (submitted ops).length := by
      have := congrArg List.length h1
      simp at this
      omega
    cases op with
    | enqueue tx e =>
      constructor
      · simp [step, handedOut_append, submitted_append, submitted, handedOut, ← h1]
      · simp [step, handedOut_append, submitted_append, submitted, handedOut, h2,
          List.drop_append, Nat.sub_eq_zero_of_le hlen]
      · simpa [step, gone_append, gone] using h3
      · simpa [step, processed_append, processed] using h4
    | poll =>
      cases hq : st.queue with
      | nil =>
        rw [hq] at h1 h2
        constructor
        · simpa [step, nextEvent, hq, handedOut_append, submitted_append, submitted, handedOut]
            using h1
        · simpa [step, nextEvent, hq, handedOut_append, submitted_append, submitted, handedOut]
            using h2
        · simpa [step, nextEvent, hq, gone_append, gone] using h3
        · simpa [step, nextEvent, hq, processed_append, processed] using h4
      | cons x rest =>
        obtain ⟨tx, e⟩ := x
        rw [hq] at h1 h2
        constructor
        · simpa [step, nextEvent, hq, handedOut_append, submitted_append, submitted, handedOut]
            using h1
        · have : rest = ((tx, e) :: rest).drop 1 := rfl
          simp only [step, nextEvent, hq, handedOut_append, submitted_append, submitted, handedOut,
            List.append_nil, List.length_append, List.length_singleton]
          rw [this, h2, List.drop_drop]
        · simpa [step, nextEvent, hq, gone_append, gone] using h3
        · simpa [step, nextEvent, hq, processed_append, processed] using h4
    | result id r =>
      cases hl : st.processing.lookup id with
      | none =>
        constructor
        · simpa [step, eventResult, hl, handedOut_append, submitted_append, submitted, handedOut]
            using h1
        · simpa [step, eventResult, hl, handedOut_append, submitted_append, submitted, handedOut]
            using h2
        · simpa [step, eventResult, hl, gone_append, gone] using h3
        · simpa [step, eventResult, hl, processed_append, processed] using h4
      | some x =>
        obtain ⟨tx, e⟩ := x
        by_cases hd : tx ∈ st.disconnected
        · constructor
          · simpa [step, eventResult, hl, hd, handedOut_append, submitted_append, submitted,
              handedOut] using h1
          · simpa [step, eventResult, hl, hd, handedOut_append, submitted_append, submitted,
              handedOut] using h2
          · simpa [step, eventResult, hl, hd, gone_append, gone] using h3
          · simpa [step, eventResult, hl, hd, processed_append, processed] using h4
        · constructor
          · simpa [step, eventResult, hl, hd, handedOut_append, submitted_append, submitted,
              handedOut] using h1
          · simpa [step, eventResult, hl, hd, handedOut_append, submitted_append, submitted,
              handedOut] using h2
          · simpa [step, eventResult, hl, hd, gone_append, gone] using h3
          · simpa [step, eventResult, hl, hd, processed_append, processed] using h4
    | disconnect tx =>
      constructor
      · simpa [step, handedOut_append, submitted_append, submitted, handedOut] using h1
      · simpa [step, handedOut_append, submitted_append, submitted, handedOut] using h2
      · intro tx'
        simp only [step, gone_append, gone, List.mem_cons, List.mem_append, List.not_mem_nil,
          or_false, h3]
        exact Or.comm
      · simpa [step, processed_append, processed] using h4

theorem lookup_mem {V : Type} (k : String) (m : List (String × V)) (v : V)
    (h : m.lookup k = some v) : (k, v) ∈ m := by
  induction m with
  | nil => simp at h
  | cons kv m ih =>
    obtain ⟨k', v'⟩ := kv
    rw [List.lookup_cons] at h
    by_cases hk : k = k'
    · subst hk; simp at h; subst h; simp
    · have : (k == k') = false := by simpa using hk
      rw [this] at h
      exact List.mem_cons_of_mem _ (ih h)

theorem lookup_none {V : Type} (k : String) (m : List (String × V)) :
    m.lookup k = none ↔ k ∉ m.map (·.1) := by
  induction m with
  | nil => simp
  | cons kv m ih =>
    obtain ⟨k', v'⟩ := kv
    rw [List.lookup_cons]
    by_cases hk : k = k'
    · subst hk; simp
    · have : (k == k') = false := by simpa using hk
      simp [this, ih, hk]

theorem filter_ne_of_not_mem {V : Type} (k : String) (m : List (String × V))
    (h : k ∉ m.map (·.1)) : m.filter (fun kv => kv.1 != k) = m := by
  rw [List.filter_eq_self]
  intro a ha
  simp
  rintro rfl
  exact h (List.mem_map_of_mem ha)

theorem remove_perm {V : Type} (k : String) (m : List (String × V)) (hn : (m.map (·.1)).Nodup)
    (h : k ∈ m.map (·.1)) :
    (k :: (mapRemove k m).map (·.1)).Perm (m.map (·.1)) := by
  induction m with
  | nil => simp at h
  | cons kv m ih =>
    obtain ⟨k', v⟩ := kv
    simp only [List.map_cons, List.nodup_cons] at hn
    by_cases hk : k' = k
    · subst hk
      simp only [mapRemove, List.filter_cons, bne_self_eq_false, Bool.false_eq_true, if_false]
      rw [filter_ne_of_not_mem _ _ hn.1]
      simp
    · have hk' : (k' != k) = true := by simpa using hk
      simp only [List.map_cons, List.mem_cons] at h
      rcases h with h | h
      · exact absurd h.symm hk
      · have := ih hn.2 h
        simp only [mapRemove, List.filter_cons, hk', if_true, List.map_cons]
        exact (List.Perm.swap _ _ _).trans (this.cons _)

/-- What the processing map and the log of delivered results contain. -/
structure InvG (ops : List (Op P R)) (t : Trace P R) (st : State P R) : Prop where
  inv : Inv ops t st
  procs : ∀ k tx e, (k, (tx, e)) ∈ st.processing →
    k = e.id ∧ (tx, e) ∈ (submitted ops).take (handedOut t).length
  ids : st.delivered.map (fun d => (d.2.1.id, d.2.2)) = processed t
  owners : ∀ d ∈ st.delivered, (d.1, d.2.1) ∈ (submitted ops).take (handedOut t).length

theorem invG_run (ops : List (Op P R)) :
    InvG ops (run .init ops).2 (run .init ops).1 := by
  induction ops using snoc_induction with
  | nil =>
    exact ⟨inv_run [], by simp [run, State.init],
      by simp [run, State.init, processed], by simp [run, State.init]⟩
  | snoc ops op ih =>
    have hnew := inv_run (ops ++ [op])
    rw [run_snoc] at hnew ⊢
    generalize (run State.init ops).1 = st at ih hnew ⊢
    generalize (run State.init ops).2 = t at ih hnew ⊢
    obtain ⟨h1, h2, h4, h5⟩ := ih
    have hlen : (handedOut t).length ≤ (submitted ops).length := by
      have := congrArg List.length h1.fifo
      simp at this
      omega
    refine ⟨hnew, ?_, ?_, ?_⟩
    · -- entries of the processing map
      cases op with
      | enqueue tx e =>
        simpa [step, handedOut_append, submitted_append, submitted, handedOut,
          List.take_append, Nat.sub_eq_zero_of_le hlen] using h2
      | poll =>
        cases hq : st.queue with
        | nil =>
          simpa [step, nextEvent, hq, handedOut_append, submitted_append, submitted, handedOut]
            using h2
        | cons x rest =>
          obtain ⟨tx, e⟩ := x
          have hqe := h1.queue
          rw [hq] at hqe
          have htake : (submitted ops).take ((handedOut t).length + 1) =
              (submitted ops).take (handedOut t).length ++ [(tx, e)] := by
            rw [List.take_add, ← hqe]
            simp
          intro k tx' e' hm
          simp only [step, nextEvent, hq, mapInsert, List.mem_cons, List.mem_filter] at hm
          simp only [step, nextEvent, hq, handedOut_append, submitted_append, submitted, handedOut,
            List.append_nil, List.length_append, List.length_singleton, htake]
          rcases hm with hm | ⟨hm, _⟩
          · simp at hm
            obtain ⟨rfl, rfl, rfl⟩ := hm
            simp
          · have := h2 k tx' e' hm
            exact ⟨this.1, List.mem_append_left _ this.2⟩
      | result id r =>
        have hmono : ∀ x, x ∈ (step st (.result id r)).1.processing → x ∈ st.processing := by
          intro x hx
          simp only [step, eventResult] at hx
          split at hx
          · split at hx
            · simp [mapRemove] at hx; exact hx.1
            · simp [mapRemove] at hx; exact hx.1
          · exact hx
        have hho : handedOut (t ++ [(.result id r, (step st (.result id r)).2)]) = handedOut t := by
          rw [handedOut_append]
          simp only [step, eventResult]
          split
          · split <;> simp [handedOut]
          · simp [handedOut]
        intro k tx e hm
        have := h2 k tx e (hmono _ hm)
        rw [hho]
        simpa [submitted_append, submitted] using this
      | disconnect tx =>
        simpa [step, handedOut_append, submitted_append, submitted, handedOut] using h2
    · cases op with
      | enqueue tx e => simpa [step, processed_append, processed] using h4
      | poll =>
        cases hq : st.queue with
        | nil => simpa [step, nextEvent, hq, processed_append, processed] using h4
        | cons x rest => simpa [step, nextEvent, hq, processed_append, processed] using h4
      | result id r =>
        cases hl : st.processing.lookup id with
        | none => simpa [step, eventResult, hl, processed_append, processed] using h4
        | some x =>
          obtain ⟨tx, e⟩ := x
          have hid := (h2 id tx e (lookup_mem _ _ _ hl)).1
          by_cases hdc : tx ∈ st.disconnected
          · simpa [step, eventResult, hl, hdc, processed_append, processed] using h4
          · simp [step, eventResult, hl, hdc, processed_append, processed, h4, ← hid]
      | disconnect tx => simpa [step, processed_append, processed] using h4
    · cases op with
      | enqueue tx e =>
        simpa [step, handedOut_append, submitted_append, submitted, handedOut,
          List.take_append, Nat.sub_eq_zero_of_le hlen] using h5
      | poll =>
        cases hq : st.queue with
        | nil =>
          simpa [step, nextEvent, hq, handedOut_append, submitted_append, submitted, handedOut]
            using h5
        | cons x rest =>
          obtain ⟨tx, e⟩ := x
          intro d hdm
          simp only [step, nextEvent, hq] at hdm
          have := h5 d hdm
          simp only [step, nextEvent, hq, handedOut_append, submitted_append, submitted, handedOut,
            List.append_nil, List.length_append, List.length_singleton]
          rw [List.take_add]
          exact List.mem_append_left _ this
      | result id r =>
        cases hl : st.processing.lookup id with
        | none =>
          simpa [step, eventResult, hl, handedOut_append, submitted_append, submitted, handedOut]
            using h5
        | some x =>
          obtain ⟨tx, e⟩ := x
          have hid := (h2 id tx e (lookup_mem _ _ _ hl)).2
          by_cases hdc : tx ∈ st.disconnected
          · simpa [step, eventResult, hl, hdc, handedOut_append, submitted_append, submitted,
              handedOut] using h5
          · intro d hdm
            simp only [step, eventResult, hl, List.contains_iff_mem, hdc, if_false,
              List.mem_append, List.mem_singleton] at hdm
            have hho : handedOut (t ++ [(.result id r, (step st (.result id r)).2)]) = handedOut t := by
              rw [handedOut_append]
              simp [step, eventResult, hl, hdc, handedOut]
            rw [hho]
            simp only [submitted_append, submitted, List.append_nil]
            rcases hdm with hdm | hdm
            · exact h5 d hdm
            · subst hdm; exact hid
      | disconnect tx =>
        simpa [step, handedOut_append, submitted_append, submitted, handedOut] using h5

theorem handed_nodup {ops : List (Op P R)} {t : Trace P R} {st : State P R} (h : Inv ops t st)
    (hd : ((submitted ops).map (·.2.id)).Nodup) :
    ((handedOut t).map (·.id) ++ st.queue.map (·.2.id)).Nodup := by
  have : (submitted ops).map (·.2.id) = ((submitted ops).map (·.2)).map (·.id) := by simp
  rw [this, ← h.fifo] at hd
  simpa [Function.comp_def] using hd

/-- With different ids nothing is lost: what was handed out is being processed or accepted. -/
theorem conserve_run (ops : List (Op P R)) (hd : ((submitted ops).map (·.2.id)).Nodup) :
    ((run .init ops).1.processing.map (·.1) ++ accepted (run .init ops).2).Perm
      ((handedOut (run .init ops).2).map (·.id)) := by
  induction ops using snoc_induction with
  | nil => simp [run, State.init, accepted, handedOut]
  | snoc ops op ih =>
    have hd' : ((submitted ops).map (·.2.id)).Nodup := by
      rw [submitted_append, List.map_append, List.nodup_append] at hd
      exact hd.1
    have h3 := ih hd'
    have h1 := inv_run ops
    rw [run_snoc]
    generalize (run State.init ops).1 = st at h1 h3 ⊢
    generalize (run State.init ops).2 = t at h1 h3 ⊢
    have hnd := handed_nodup h1 hd'
    cases op with
    | enqueue tx e =>
      simpa [step, handedOut_append, accepted_append, handedOut, accepted] using h3
    | poll =>
      cases hq : st.queue with
      | nil => simpa [step, nextEvent, hq, handedOut_append, accepted_append, handedOut, accepted]
          using h3
      | cons x rest =>
        obtain ⟨tx, e⟩ := x
        have hnot : e.id ∉ st.processing.map (·.1) := by
          intro hm
          have h6 : e.id ∈ (handedOut t).map (·.id) :=
            h3.subset (List.mem_append_left _ hm)
          rw [hq, List.nodup_append] at hnd
          exact hnd.2.2 _ h6 _ (by simp) rfl
        simp only [step, nextEvent, hq, mapInsert, filter_ne_of_not_mem _ _ hnot,
          handedOut_append, accepted_append, handedOut, accepted, List.map_cons,
          List.append_nil, List.map_append, List.map_nil, List.cons_append]
        exact (h3.cons e.id).trans (List.perm_append_singleton _ _).symm
    | result id r =>
      cases hl : st.processing.lookup id with
      | none => simpa [step, eventResult, hl, handedOut_append, accepted_append, handedOut, accepted]
          using h3
      | some x =>
        obtain ⟨tx, e⟩ := x
        have hk : id ∈ st.processing.map (·.1) :=
          List.mem_map_of_mem (f := (·.1)) (lookup_mem _ _ _ hl)
        have hkn : (st.processing.map (·.1)).Nodup := by
          have : (st.processing.map (·.1) ++ accepted t).Nodup := by
            rw [h3.nodup_iff]
            rw [List.nodup_append] at hnd
            exact hnd.1
          rw [List.nodup_append] at this
          exact this.1
        have hp := remove_perm id st.processing hkn hk
        have hgoal : ((mapRemove id st.processing).map (·.1) ++ (accepted t ++ [id])).Perm
            ((handedOut t).map (·.id)) := by
          refine List.Perm.trans ?_ h3
          rw [← List.append_assoc]
          refine (List.perm_append_singleton _ _).trans ?_
          exact hp.append_right (accepted t)
        by_cases hdc : tx ∈ st.disconnected
        · simpa [step, eventResult, hl, hdc, handedOut_append, accepted_append, handedOut,
            accepted] using hgoal
        · simpa [step, eventResult, hl, hdc, handedOut_append, accepted_append, handedOut,
            accepted] using hgoal
    | disconnect tx =>
      simpa [step, handedOut_append, accepted_append, handedOut, accepted] using h3

theorem lookup_filter_ne {V : Type} (k j : String) (m : List (String × V)) (h : k ≠ j) :
    (m.filter (fun kv => kv.1 != j)).lookup k = m.lookup k := by
  induction m with
  | nil => rfl
  | cons kv m ih =>
    obtain ⟨k', v⟩ := kv
    by_cases hk : k' = j
    · subst hk
      have : (k == k') = false := by simpa using h
      simp [List.filter_cons, List.lookup_cons, this, ih]
    · have hk' : (k' != j) = true := by simpa using hk
      simp only [List.filter_cons, hk', if_true, List.lookup_cons, ih]

theorem lookup_filter_self {V : Type} (k : String) (m : List (String × V)) :
    (m.filter (fun kv => kv.1 != k)).lookup k = none := by
  rw [lookup_none]
  simp

end Verif.LocalApi
