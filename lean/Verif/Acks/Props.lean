import Verif.Acks.Lemmas

/-!
# Properties of the acknowledgement worker (C19, C20)
-/

namespace Verif.Acks

open Spec Verif.Assoc

/-! ## C19, all interleavings -/

/-- What the map says about a message is the last status recorded for it. -/
theorem entry_last_status (cfg : Config) (ops : List Op) (id : String) (e : Entry)
    (h : (run cfg ops).acks.lookup id = some e) :
    ∃ t, lastStatus id ops = some (e.status, t) ∧
      ∀ m c, e.status = .pending m c → e.last = some t := by
  have snoc_status : ∀ ops i s now, lastStatus id (ops ++ [.status i s now]) =
      if i = id then some (s, now) else lastStatus id ops := by
    intro ops i s now
    induction ops with
    | nil => simp [lastStatus]
    | cons o ops ih =>
      cases o with
      | status j s' n =>
        simp only [List.cons_append, lastStatus, ih]
        by_cases hi : i = id
        · simp [hi]
        · simp [hi]
      | check n => simpa [lastStatus] using ih
      | emit => simpa [lastStatus] using ih
  have snoc_check : ∀ ops n, lastStatus id (ops ++ [.check n]) = lastStatus id ops := by
    intro ops n
    induction ops with
    | nil => rfl
    | cons o ops ih => cases o <;> simp [lastStatus, ih]
  have snoc_emit : ∀ ops, lastStatus id (ops ++ [.emit]) = lastStatus id ops := by
    intro ops
    induction ops with
    | nil => rfl
    | cons o ops ih => cases o <;> simp [lastStatus, ih]
  induction ops using snoc_induction generalizing e with
  | nil => simp [run, State.init] at h
  | snoc ops op ih =>
    simp only [run, List.foldl_append, List.foldl_cons, List.foldl_nil] at h
    change (step cfg (run cfg ops) op).acks.lookup id = some e at h
    cases op with
    | status i s now =>
      rw [snoc_status]
      simp only [step] at h
      by_cases hi : i = id
      · subst hi
        obtain ⟨e', he', hs, hl⟩ := recordAck_lookup_self (run cfg ops).acks i s now
        rw [he'] at h
        simp only [Option.some.injEq] at h
        subst h
        refine ⟨now, by simp [hs], ?_⟩
        intro m c hp
        exact hl m c (hs ▸ hp)
      · rw [recordAck_lookup_ne _ _ _ _ _ (Ne.symm hi)] at h
        simpa [hi] using ih e h
    | check n =>
      rw [snoc_check]
      apply ih
      simp only [step] at h
      split at h <;> exact h
    | emit =>
      rw [snoc_emit]
      apply ih
      simp only [step] at h
      split at h
      · exact h
      · split at h
        · rename_i m _ _
          by_cases hm : id = m
          · subst hm; simp only at h; rw [lookup_remove_self] at h; simp at h
          · simp only at h; rwa [lookup_remove_ne _ _ _ hm] at h
        · exact h

/-- **C19, the part that holds under every interleaving.** A check decides to re-send or give up a
message only if the last thing recorded about it is that it was sent, and the timeout has elapsed
since then; a re-send carries the text and the clients to inform of that record. -/
theorem action_only_if_overdue_partial (cfg : Config) (ops : List Op) (now : Nat)
    (hidle : (run cfg ops).todo = []) (a : Action)
    (h : a ∈ (run cfg (ops ++ [.check now])).todo) :
    ∃ m c t, lastStatus a.messageId ops = some (.pending m c, t) ∧ now - t > cfg.timeoutMs ∧
      (a = .lost a.messageId c ∨ a = .resend a.messageId a.messageId m c) := by
  have hk : ((run cfg ops).acks.map (·.1)).Nodup := by
    clear h hidle
    induction ops using snoc_induction with
    | nil => simp [run, State.init]
    | snoc ops op ih =>
      simp only [run, List.foldl_append, List.foldl_cons, List.foldl_nil]
      change ((step cfg (run cfg ops) op).acks.map (·.1)).Nodup
      cases op with
      | status i s n => exact recordAck_nodup _ _ s n ih
      | check n => simp only [step]; split <;> exact ih
      | emit =>
        simp only [step]
        split
        · exact ih
        · split
          · exact nodup_filter _ _ ih
          · exact ih
  simp only [run, List.foldl_append, List.foldl_cons, List.foldl_nil] at h
  change a ∈ (step cfg (run cfg ops) (.check now)).todo at h
  simp only [step, hidle, List.mem_filterMap] at h
  obtain ⟨⟨k, e⟩, hm, ha⟩ := h
  simp only at ha
  have hid := actionFor_id _ _ _ _ _ ha
  subst hid
  obtain ⟨t, hl, hp⟩ := entry_last_status cfg ops a.messageId e (lookup_of_mem _ _ _ hk hm)
  unfold actionFor at ha
  cases hs : e.status with
  | pending m c =>
    rw [hs] at hl
    have hlast := hp m c hs
    simp only [hs, hlast] at ha
    refine ⟨m, c, t, hl, ?_⟩
    by_cases hto : now - t > cfg.timeoutMs
    · refine ⟨hto, ?_⟩
      simp only [hto, if_true] at ha
      split at ha
      · left; simpa using ha.symm
      · right; simpa using ha.symm
    · simp [hto] at ha
  | received => simp [hs] at ha
  | lost => simp [hs] at ha

/-- C19 in full, first part: once a message is acknowledged, and not sent again by the application,
it is neither re-sent nor reported lost. -/
def FullAcknowledged : Prop :=
  ∀ (cfg : Config) (ops later : List Op) (id : String) (t : Nat),
    lastStatus id ops = some (.received, t) → pendings id later = 0 →
    resends id (run cfg (ops ++ later)).emitted = resends id (run cfg ops).emitted ∧
    losses id (run cfg (ops ++ later)).emitted = losses id (run cfg ops).emitted

/-- **C19 fails** when an acknowledgement arrives between the check and the sending of its actions:
the message is reported lost although it was acknowledged. -/
theorem acknowledged_violated : ¬ FullAcknowledged := by
  intro h
  have := (h ⟨15000, 1⟩ [.status "m" (.pending "x" []) 0, .check 20000, .status "m" .received 20001]
    [.emit] "m" 20001 (by decide) (by decide)).2
  revert this
  decide

/-- C19 in full, second part: if the registry records a message as pending only when it sends it,
first for the application and then for each re-send, it is sent at most the allowed number of
times. -/
def FullBounded : Prop :=
  ∀ (cfg : Config) (ops : List Op) (id : String),
    (∀ n, pendings id (ops.take n) ≤ 1 + resends id (run cfg (ops.take n)).emitted) →
    1 + resends id (run cfg ops).emitted ≤ allowed cfg

/-- A second check happens before the first re-send has been recorded. -/
def doubleCheck : List Op :=
  [.status "m" (.pending "x" []) 0, .check 20000, .emit, .check 30000, .emit]

/-- **C19 fails** when the check runs again before the re-send has been recorded. -/
theorem bounded_violated : ¬ FullBounded := by
  intro h
  have := h ⟨15000, 2⟩ doubleCheck "m" (by
    intro n
    match n with
    | 0 => decide
    | 1 => decide
    | 2 => decide
    | 3 => decide
    | 4 => decide
    | n + 5 => simp [doubleCheck]; decide)
  revert this
  decide

/-! ## C19, closed loop -/

/-- The entry of an acknowledged message stays, and no action about it is computed. -/
theorem received_stable (cfg : Config) (es : List Event) (st : State) (hq : Quiet st) (id : String)
    (e : Entry) (hl : st.acks.lookup id = some e) (hs : e.status = .received)
    (hid : id ∉ sentIds es) :
    resends id (es.foldl (event cfg) st).emitted = resends id st.emitted ∧
    losses id (es.foldl (event cfg) st).emitted = losses id st.emitted := by
  induction es generalizing st e with
  | nil => exact ⟨rfl, rfl⟩
  | cons ev es ih =>
    have hq' := event_quiet cfg st ev hq
    cases ev with
    | send i t c now =>
      simp only [sentIds, List.mem_cons, not_or] at hid
      have hl' : (event cfg st (.send i t c now)).acks.lookup id = some e := by
        simp only [event, step]; rw [recordAck_lookup_ne _ _ _ _ _ hid.1]; exact hl
      exact ih _ hq' e hl' hs hid.2
    | ack i now =>
      have hid' : id ∉ sentIds es := by simpa [sentIds] using hid
      by_cases hi : id = i
      · subst hi
        obtain ⟨e', he', hs', _⟩ := recordAck_lookup_self st.acks id .received now
        exact ih _ hq' e' he' hs' hid'
      · have hl' : (event cfg st (.ack i now)).acks.lookup id = some e := by
          simp only [event, step]; rw [recordAck_lookup_ne _ _ _ _ _ hi]; exact hl
        exact ih _ hq' e hl' hs hid'
    | tick now =>
      have hid' : id ∉ sentIds es := by simpa [sentIds] using hid
      obtain ⟨_, hem, hlk⟩ := tick_spec cfg now st hq
      have hnone : (st.acks.lookup id).bind (actionFor cfg now id) = none := by
        simp [hl, actionFor, hs]
      have hcounts := tick_counts cfg now st.acks hq.keys id
      rw [hnone] at hcounts
      have hl' : (event cfg st (.tick now)).acks.lookup id = some e := by
        rw [hlk id, hnone]; exact hl
      have := ih _ hq' e hl' hs hid'
      rw [hem] at this
      simp only [resends_append, losses_append, hcounts.1, hcounts.2, Nat.add_zero] at this
      exact this

/-- **C19, the part that holds.** With nothing interleaving, a message that has been acknowledged is
never re-sent or reported lost after that. -/
theorem acknowledged_partial (cfg : Config) (es later : List Event) (id : String) (now : Nat)
    (h : id ∉ sentIds later) :
    resends id (loop cfg (es ++ .ack id now :: later)).emitted = resends id (loop cfg es).emitted ∧
    losses id (loop cfg (es ++ .ack id now :: later)).emitted = losses id (loop cfg es).emitted := by
  have hq : Quiet (loop cfg es) := foldl_quiet cfg es _ quiet_init
  obtain ⟨e, he, hs, _⟩ := recordAck_lookup_self (loop cfg es).acks id .received now
  have := received_stable cfg later (event cfg (loop cfg es) (.ack id now))
    (event_quiet _ _ _ hq) id e he hs h
  simp only [loop, List.foldl_append, List.foldl_cons]
  exact this

/-- A message without an entry, not sent, causes no action. -/
theorem absent_stable (cfg : Config) (es : List Event) (st : State) (hq : Quiet st) (id : String)
    (hl : st.acks.lookup id = none) (hid : id ∉ sentIds es) :
    resends id (es.foldl (event cfg) st).emitted = resends id st.emitted ∧
    losses id (es.foldl (event cfg) st).emitted = losses id st.emitted := by
  induction es generalizing st with
  | nil => exact ⟨rfl, rfl⟩
  | cons ev es ih =>
    have hq' := event_quiet cfg st ev hq
    cases ev with
    | send i t c now =>
      simp only [sentIds, List.mem_cons, not_or] at hid
      have hl' : (event cfg st (.send i t c now)).acks.lookup id = none := by
        simp only [event, step]; rw [recordAck_lookup_ne _ _ _ _ _ hid.1]; exact hl
      exact ih _ hq' hl' hid.2
    | ack i now =>
      have hid' : id ∉ sentIds es := by simpa [sentIds] using hid
      by_cases hi : id = i
      · subst hi
        obtain ⟨e', he', hs', _⟩ := recordAck_lookup_self st.acks id .received now
        exact received_stable cfg es _ hq' id e' he' hs' hid'
      · have hl' : (event cfg st (.ack i now)).acks.lookup id = none := by
          simp only [event, step]; rw [recordAck_lookup_ne _ _ _ _ _ hi]; exact hl
        exact ih _ hq' hl' hid'
    | tick now =>
      have hid' : id ∉ sentIds es := by simpa [sentIds] using hid
      obtain ⟨_, hem, hlk⟩ := tick_spec cfg now st hq
      have hcounts := tick_counts cfg now st.acks hq.keys id
      rw [hl] at hcounts
      have hl' : (event cfg st (.tick now)).acks.lookup id = none := by
        rw [hlk id, hl]; rfl
      have := ih _ hq' hl' hid'
      rw [hem] at this
      simp only [resends_append, losses_append, hcounts.1, hcounts.2, Option.bind_none,
        Nat.add_zero] at this
      exact this

/-- What happens to a pending message that is not acknowledged, exactly. -/
theorem pending_counts (cfg : Config) (es : List Event) (st : State) (hq : Quiet st)
    (id m : String) (c : List String) (a t : Nat)
    (hl : st.acks.lookup id = some ⟨.pending m c, a, some t⟩)
    (hid : id ∉ sentIds es) (hack : id ∉ ackedIds es) :
    resends id (es.foldl (event cfg) st).emitted =
      resends id st.emitted + min (dueCount cfg.timeoutMs t (tickTimes es)) (cfg.maxAttempts - a) ∧
    losses id (es.foldl (event cfg) st).emitted =
      losses id st.emitted +
        (if dueCount cfg.timeoutMs t (tickTimes es) > cfg.maxAttempts - a then 1 else 0) := by
  induction es generalizing st a t with
  | nil => simp [tickTimes, dueCount]
  | cons ev es ih =>
    have hq' := event_quiet cfg st ev hq
    cases ev with
    | send i t' c' now =>
      simp only [sentIds, List.mem_cons, not_or] at hid
      have hl' : (event cfg st (.send i t' c' now)).acks.lookup id =
          some ⟨.pending m c, a, some t⟩ := by
        simp only [event, step]; rw [recordAck_lookup_ne _ _ _ _ _ hid.1]; exact hl
      exact ih _ hq' a t hl' hid.2 (by simpa [ackedIds] using hack)
    | ack i now =>
      simp only [ackedIds, List.mem_cons, not_or] at hack
      have hl' : (event cfg st (.ack i now)).acks.lookup id = some ⟨.pending m c, a, some t⟩ := by
        simp only [event, step]; rw [recordAck_lookup_ne _ _ _ _ _ hack.1]; exact hl
      exact ih _ hq' a t hl' (by simpa [sentIds] using hid) hack.2
    | tick now =>
      have hid' : id ∉ sentIds es := by simpa [sentIds] using hid
      have hack' : id ∉ ackedIds es := by simpa [ackedIds] using hack
      obtain ⟨_, hem, hlk⟩ := tick_spec cfg now st hq
      have hcounts := tick_counts cfg now st.acks hq.keys id
      rw [hl] at hcounts
      simp only [Option.bind_some] at hcounts
      have hlid := hlk id
      rw [hl] at hlid
      simp only [Option.bind_some] at hlid
      simp only [List.foldl_cons, tickTimes, dueCount]
      by_cases hdue : now - t > cfg.timeoutMs
      · by_cases hmax : a ≥ cfg.maxAttempts
        · have hact : actionFor cfg now id ⟨.pending m c, a, some t⟩ = some (.lost id c) := by
            simp [actionFor, hdue, hmax]
          rw [hact] at hcounts hlid
          simp only at hcounts
          have hl' : (event cfg st (.tick now)).acks.lookup id = none := hlid
          have := absent_stable cfg es _ hq' id hl' hid'
          rw [hem] at this
          simp only [resends_append, losses_append, hcounts.1, hcounts.2] at this
          constructor
          · rw [this.1]; simp [hdue]; omega
          · rw [this.2]
            have : cfg.maxAttempts - a = 0 := by omega
            simp [hdue, this]
        · have hact : actionFor cfg now id ⟨.pending m c, a, some t⟩ =
              some (.resend id id m c) := by
            simp [actionFor, hdue, hmax]
          rw [hact] at hcounts hlid
          simp only at hcounts
          have hl' : (event cfg st (.tick now)).acks.lookup id =
              some ⟨.pending m c, a + 1, some now⟩ := hlid
          have := ih _ hq' (a + 1) now hl' hid' hack'
          rw [hem] at this
          simp only [resends_append, losses_append, hcounts.1, hcounts.2] at this
          constructor
          · rw [this.1]; simp [hdue]; omega
          · rw [this.2]; simp only [hdue, if_true]
            split <;> split <;> omega
      · have hact : actionFor cfg now id ⟨.pending m c, a, some t⟩ = none := by
          simp [actionFor, hdue]
        rw [hact] at hcounts hlid
        simp only at hcounts
        have hl' : (event cfg st (.tick now)).acks.lookup id =
            some ⟨.pending m c, a, some t⟩ := hlid
        have := ih _ hq' a t hl' hid' hack'
        rw [hem] at this
        simp only [resends_append, losses_append, hcounts.1, hcounts.2, Nat.add_zero] at this
        simp only [hdue, if_false]
        exact this

theorem sentIds_append (a b : List Event) : sentIds (a ++ b) = sentIds a ++ sentIds b := by
  induction a with
  | nil => rfl
  | cons e a ih => cases e <;> simp [sentIds, ih]

/-- A message never sent nor acknowledged has no entry and no actions. -/
theorem unsent_none (cfg : Config) (es : List Event) (id : String) (hid : id ∉ sentIds es)
    (hack : id ∉ ackedIds es) : (loop cfg es).acks.lookup id = none := by
  have : ∀ st : State, Quiet st → st.acks.lookup id = none →
      (es.foldl (event cfg) st).acks.lookup id = none := by
    induction es with
    | nil => intro st _ h; exact h
    | cons ev es ih =>
      intro st hq h
      have hq' := event_quiet cfg st ev hq
      cases ev with
      | send i t c now =>
        simp only [sentIds, List.mem_cons, not_or] at hid
        exact ih hid.2 (by simpa [ackedIds] using hack) _ hq' (by
          simp only [event, step]; rw [recordAck_lookup_ne _ _ _ _ _ hid.1]; exact h)
      | ack i now =>
        simp only [ackedIds, List.mem_cons, not_or] at hack
        exact ih (by simpa [sentIds] using hid) hack.2 _ hq' (by
          simp only [event, step]; rw [recordAck_lookup_ne _ _ _ _ _ hack.1]; exact h)
      | tick now =>
        exact ih (by simpa [sentIds] using hid) (by simpa [ackedIds] using hack) _ hq' (by
          rw [(tick_spec cfg now st hq).2.2 id, h]; rfl)
  exact this _ quiet_init rfl

/-- **C19, the part that holds.** With nothing interleaving, the fate of a message that is sent once
and never acknowledged is determined by the check times: it is re-sent at each check that finds it
overdue, until it has been sent the allowed number of times in all, and at the next such check it is
reported lost, once; then never again. Other messages do not matter. -/
theorem unacknowledged_fate_partial (cfg : Config) (before later : List Event) (id m : String)
    (c : List String) (t : Nat)
    (hb : id ∉ sentIds before ∧ id ∉ ackedIds before)
    (hl : id ∉ sentIds later ∧ id ∉ ackedIds later) :
    let due := dueCount cfg.timeoutMs t (tickTimes later)
    let final := (loop cfg (before ++ .send id m c t :: later)).emitted
    resends id final = min due (allowed cfg - 1) ∧
    losses id final = if due ≥ allowed cfg then 1 else 0 := by
  have hq : Quiet (loop cfg before) := foldl_quiet cfg before _ quiet_init
  have hnone := unsent_none cfg before id hb.1 hb.2
  have habs := absent_stable cfg before State.init quiet_init id rfl hb.1
  have hlk : (event cfg (loop cfg before) (.send id m c t)).acks.lookup id =
      some ⟨.pending m c, 1, some t⟩ := by
    simp only [event, step, recordAck_pending, lookup_insert_self, attemptsOf, hnone]
  have := pending_counts cfg later _ (event_quiet _ _ (.send id m c t) hq) id m c 1 t hlk hl.1 hl.2
  simp only [loop, List.foldl_append, List.foldl_cons]
  change resends id (later.foldl (event cfg) (event cfg (loop cfg before) (.send id m c t))).emitted =
      _ ∧ losses id (later.foldl (event cfg) (event cfg (loop cfg before) (.send id m c t))).emitted = _
  rw [this.1, this.2]
  have h1 : resends id (event cfg (loop cfg before) (.send id m c t)).emitted = 0 := habs.1
  have h2 : losses id (event cfg (loop cfg before) (.send id m c t)).emitted = 0 := habs.2
  rw [h1, h2]
  have hall : allowed cfg - 1 = cfg.maxAttempts - 1 := by simp only [allowed]; omega
  rw [hall]
  refine ⟨by omega, ?_⟩
  simp only [Nat.zero_add]
  have : dueCount cfg.timeoutMs t (tickTimes later) > cfg.maxAttempts - 1 ↔
      dueCount cfg.timeoutMs t (tickTimes later) ≥ allowed cfg := by simp only [allowed]; omega
  simp only [this]

/-- Splitting a history at the acknowledgement, if there is one. -/
theorem split_ack (es : List Event) (id : String) :
    id ∉ ackedIds es ∨ ∃ a n b, es = a ++ .ack id n :: b ∧ id ∉ ackedIds a := by
  induction es with
  | nil => left; simp [ackedIds]
  | cons e es ih =>
    cases e with
    | ack i n =>
      by_cases hi : i = id
      · subst hi; exact Or.inr ⟨[], n, es, rfl, by simp [ackedIds]⟩
      · rcases ih with h | ⟨a, n', b, h, h'⟩
        · left; simp [ackedIds, h, Ne.symm hi]
        · exact Or.inr ⟨.ack i n :: a, n', b, by simp [h], by simp [ackedIds, h', Ne.symm hi]⟩
    | send i t c n =>
      rcases ih with h | ⟨a, n', b, h, h'⟩
      · left; simpa [ackedIds] using h
      · exact Or.inr ⟨.send i t c n :: a, n', b, by simp [h], by simpa [ackedIds] using h'⟩
    | tick n =>
      rcases ih with h | ⟨a, n', b, h, h'⟩
      · left; simpa [ackedIds] using h
      · exact Or.inr ⟨.tick n :: a, n', b, by simp [h], by simpa [ackedIds] using h'⟩

/-- **C19, the part that holds.** With nothing interleaving, a message that the application sends
once is sent at most the allowed number of times in all and reported lost at most once, whatever is
acknowledged and whenever the checks run.

Missing: interleavings of the check with other steps (`acknowledged_violated`,
`bounded_violated`). -/
theorem bounded_partial (cfg : Config) (before later : List Event) (id m : String)
    (c : List String) (t : Nat)
    (hb : id ∉ sentIds before ∧ id ∉ ackedIds before) (hl : id ∉ sentIds later) :
    1 + resends id (loop cfg (before ++ .send id m c t :: later)).emitted ≤ allowed cfg ∧
    losses id (loop cfg (before ++ .send id m c t :: later)).emitted ≤ 1 := by
  have hpos : 1 ≤ allowed cfg := by simp only [allowed]; omega
  rcases split_ack later id with h | ⟨a, n, b, rfl, ha⟩
  · have := unacknowledged_fate_partial cfg before later id m c t hb ⟨hl, h⟩
    simp only at this
    rw [this.1, this.2]
    constructor
    · omega
    · split <;> omega
  · rw [sentIds_append, List.mem_append, not_or] at hl
    have h1 := acknowledged_partial cfg (before ++ .send id m c t :: a) b id n (by
      simpa [sentIds] using hl.2)
    have h2 := unacknowledged_fate_partial cfg before a id m c t hb ⟨hl.1, ha⟩
    simp only at h2
    have heq : before ++ Event.send id m c t :: (a ++ .ack id n :: b) =
        before ++ .send id m c t :: a ++ .ack id n :: b := by simp
    rw [heq, h1.1, h1.2, h2.1, h2.2]
    constructor
    · omega
    · split <;> omega

/-- Default configuration; checks every ten seconds; another message is acknowledged. -/
def exampleEvents : List Event :=
  [.send "m" "hello" ["c"] 0, .send "n" "other" [] 5, .tick 10000, .ack "n" 10001, .tick 20000,
    .tick 30000, .tick 40000, .tick 50000, .tick 60000, .tick 70000, .tick 80000, .tick 90000]

example : (loop ⟨15000, 4⟩ exampleEvents).emitted =
    [.resend "m" "m" "hello" ["c"], .resend "m" "m" "hello" ["c"], .resend "m" "m" "hello" ["c"],
      .lost "m" ["c"]] ∧
    dueCount 15000 0 (tickTimes exampleEvents) = 4 := by decide

example : lastStatus "m" [.status "m" (.pending "x" []) 0] = some (.pending "x" [], 0) ∧
    (run ⟨15000, 4⟩ ([.status "m" (.pending "x" []) 0] ++ [.check 20000])).todo =
      [.resend "m" "m" "x" []] := by decide

/-! ## C20 -/

/-- C20 in full: whichever connection `conn m` each message `m` was sent to, every re-send is
addressed to that connection. -/
def FullAddress : Prop :=
  ∀ (cfg : Config) (es : List Event) (conn : String → String) (cl m t : String)
    (c : List String), (sentIds es).Nodup →
    (Action.resend cl m t c) ∈ (loop cfg es).emitted → cl = conn m

/-- **C20 fails.** The message id is used as address. -/
theorem address_violated : ¬ FullAddress := by
  intro h
  have := h ⟨15000, 4⟩ [.send "m" "hello" ["c"] 0, .tick 20000] (fun _ => "connection")
    "m" "m" "hello" ["c"] (by decide) (by decide)
  revert this
  decide

/-- What was sent under an id. -/
def Spec.sentAs (id : String) : List Event → Option (String × List String)
  | [] => none
  | .send i t c _ :: es => if i = id then some (t, c) else Spec.sentAs id es
  | _ :: es => Spec.sentAs id es

theorem sentAs_append (id : String) (a b : List Event) :
    Spec.sentAs id (a ++ b) = (Spec.sentAs id a).or (Spec.sentAs id b) := by
  induction a with
  | nil => rfl
  | cons e a ih =>
    cases e with
    | send i t c n =>
      by_cases hi : i = id
      · simp [Spec.sentAs, hi]
      · simp [Spec.sentAs, hi, ih]
    | ack i n => simpa [Spec.sentAs] using ih
    | tick n => simpa [Spec.sentAs] using ih

theorem sentAs_none (id : String) (es : List Event) (h : id ∉ sentIds es) :
    Spec.sentAs id es = none := by
  induction es with
  | nil => rfl
  | cons e es ih =>
    cases e with
    | send i t c n =>
      simp only [sentIds, List.mem_cons, not_or] at h
      simp [Spec.sentAs, Ne.symm h.1, ih h.2]
    | ack i n => exact ih (by simpa [sentIds] using h)
    | tick n => exact ih (by simpa [sentIds] using h)

/-- **C20, the part that holds.** Every re-send carries the id, the text and the clients to inform of
a message that the application has sent; it is addressed to the message id, so it goes to the
original connection exactly when that connection's id happens to be the message id.

Missing: the address. -/
theorem resend_content_partial (cfg : Config) (es : List Event) (hn : (sentIds es).Nodup)
    (cl m t : String) (c : List String)
    (h : (Action.resend cl m t c) ∈ (loop cfg es).emitted) :
    Spec.sentAs m es = some (t, c) ∧ cl = m := by
  have key : ∀ es, (sentIds es).Nodup →
      (∀ id t c a l, (loop cfg es).acks.lookup id = some ⟨.pending t c, a, l⟩ →
        Spec.sentAs id es = some (t, c)) ∧
      (∀ cl m t c, (Action.resend cl m t c) ∈ (loop cfg es).emitted →
        Spec.sentAs m es = some (t, c) ∧ cl = m) := by
    intro es
    induction es using snoc_induction with
    | nil => intro _; simp [loop, State.init]
    | snoc es ev ih =>
      intro hn
      have hn' : (sentIds es).Nodup := by
        rw [sentIds_append, List.nodup_append] at hn
        exact hn.1
      obtain ⟨ih1, ih2⟩ := ih hn'
      have hq : Quiet (loop cfg es) := foldl_quiet cfg es _ quiet_init
      have hloop : loop cfg (es ++ [ev]) = event cfg (loop cfg es) ev := by simp [loop]
      rw [hloop]
      have keep : ∀ id x, Spec.sentAs id es = some x → Spec.sentAs id (es ++ [ev]) = some x := by
        intro id x h
        rw [sentAs_append, h]; rfl
      refine ⟨?_, ?_⟩
      · intro id t c a l hl
        cases ev with
        | send i t' c' n =>
          by_cases hi : id = i
          · subst hi
            simp only [event, step, recordAck_pending, lookup_insert_self, Option.some.injEq,
              Entry.mk.injEq, Status.pending.injEq] at hl
            obtain ⟨⟨rfl, rfl⟩, _⟩ := hl
            have : id ∉ sentIds es := by
              rw [sentIds_append, List.nodup_append] at hn
              intro hm
              exact hn.2.2 _ hm _ (by simp [sentIds]) rfl
            rw [sentAs_append, sentAs_none _ _ this]
            simp [Spec.sentAs]
          · apply keep
            apply ih1 id t c a l
            simp only [event, step] at hl
            rwa [recordAck_lookup_ne _ _ _ _ _ hi] at hl
        | ack i n =>
          by_cases hi : id = i
          · subst hi
            simp only [event, step, recordAck_received, lookup_insert_self, Option.some.injEq,
              Entry.mk.injEq] at hl
            simp at hl
          · apply keep
            apply ih1 id t c a l
            simp only [event, step] at hl
            rwa [recordAck_lookup_ne _ _ _ _ _ hi] at hl
        | tick n =>
          apply keep
          rw [(tick_spec cfg n _ hq).2.2 id] at hl
          cases hlk : (loop cfg es).acks.lookup id with
          | none => rw [hlk] at hl; simp [after] at hl
          | some e =>
            rw [hlk] at hl
            simp only [Option.bind_some] at hl
            cases ha : actionFor cfg n id e with
            | none =>
              rw [ha] at hl
              simp only [after, Option.some.injEq] at hl
              subst hl
              exact ih1 id t c a l hlk
            | some act =>
              rw [ha] at hl
              cases act with
              | lost _ _ => simp [after] at hl
              | resend cl' m' t' c' =>
                simp only [after, Option.some.injEq, Entry.mk.injEq, Status.pending.injEq] at hl
                obtain ⟨⟨rfl, rfl⟩, _⟩ := hl
                obtain ⟨s, at', la⟩ := e
                cases s with
                | pending m2 c2 =>
                  have := ih1 id m2 c2 at' la hlk
                  simp only [actionFor] at ha
                  split at ha
                  · split at ha
                    · split at ha
                      · simp at ha
                      · simp only [Option.some.injEq, Action.resend.injEq] at ha
                        rw [this, ha.2.2.1, ha.2.2.2]
                    · simp at ha
                  · simp at ha
                | received => simp [actionFor] at ha
                | lost => simp [actionFor] at ha
      · intro cl m t c h
        cases ev with
        | send i t' c' n =>
          have := ih2 cl m t c h
          exact ⟨keep _ _ this.1, this.2⟩
        | ack i n =>
          have := ih2 cl m t c h
          exact ⟨keep _ _ this.1, this.2⟩
        | tick n =>
          rw [(tick_spec cfg n _ hq).2.1, List.mem_append] at h
          rcases h with h | h
          · have := ih2 cl m t c h
            exact ⟨keep _ _ this.1, this.2⟩
          · simp only [computed, List.mem_filterMap] at h
            obtain ⟨⟨k, e⟩, hm, ha⟩ := h
            simp only at ha
            have hlk := lookup_of_mem _ _ _ hq.keys hm
            obtain ⟨s, at', la⟩ := e
            cases s with
            | pending m2 c2 =>
              have := ih1 k m2 c2 at' la hlk
              simp only [actionFor] at ha
              split at ha
              · split at ha
                · split at ha
                  · simp at ha
                  · simp only [Option.some.injEq, Action.resend.injEq] at ha
                    obtain ⟨rfl, rfl, rfl, rfl⟩ := ha
                    exact ⟨keep _ _ this, rfl⟩
                · simp at ha
              · simp at ha
            | received => simp [actionFor] at ha
            | lost => simp [actionFor] at ha
  exact (key es hn).2 cl m t c h

example : (sentIds exampleEvents).Nodup ∧
    Spec.sentAs "m" exampleEvents = some ("hello", ["c"]) := by decide

end Verif.Acks
