import Verif.Acks.Spec
import Verif.Assoc

namespace Verif.Acks

open Spec Verif.Assoc

theorem lookup_insert_self (k : String) (v : Entry) (m : List (String × Entry)) :
    (mapInsert k v m).lookup k = some v := by
  simp [mapInsert]

theorem lookup_insert_ne (k j : String) (v : Entry) (m : List (String × Entry)) (h : k ≠ j) :
    (mapInsert j v m).lookup k = m.lookup k := by
  have : (k == j) = false := by simpa using h
  simp only [mapInsert, List.lookup_cons, this]
  exact lookup_filter_ne _ _ _ h

theorem lookup_remove_self (k : String) (m : List (String × Entry)) :
    (mapRemove k m).lookup k = none := lookup_filter_self k m

theorem lookup_remove_ne (k j : String) (m : List (String × Entry)) (h : k ≠ j) :
    (mapRemove j m).lookup k = m.lookup k := lookup_filter_ne k j m h

theorem messageId_lost (m : String) (c : List String) : (Action.lost m c).messageId = m := rfl

theorem messageId_resend (cl m t : String) (c : List String) :
    (Action.resend cl m t c).messageId = m := rfl

/-- Attempts recorded for a message. -/
def attemptsOf (m : List (String × Entry)) (id : String) : Nat :=
  match m.lookup id with
  | some e => e.attempts
  | none => 0

theorem recordAck_pending (m : List (String × Entry)) (id t : String) (c : List String) (now : Nat) :
    recordAck m id (.pending t c) now =
      mapInsert id ⟨.pending t c, attemptsOf m id + 1, some now⟩ m := rfl

theorem recordAck_received (m : List (String × Entry)) (id : String) (now : Nat) :
    recordAck m id .received now =
      mapInsert id ⟨.received, attemptsOf m id, (m.lookup id).bind (·.last)⟩ m := rfl

theorem recordAck_lookup_self (m : List (String × Entry)) (id : String) (s : Status) (now : Nat) :
    ∃ e, (recordAck m id s now).lookup id = some e ∧ e.status = s ∧
      (∀ t c, s = .pending t c → e.last = some now) := by
  cases s with
  | pending t c => exact ⟨_, lookup_insert_self _ _ _, rfl, fun _ _ _ => rfl⟩
  | received => exact ⟨_, lookup_insert_self _ _ _, rfl, by simp⟩
  | lost => exact ⟨_, lookup_insert_self _ _ _, rfl, by simp⟩

theorem recordAck_lookup_ne (m : List (String × Entry)) (id j : String) (s : Status) (now : Nat)
    (h : id ≠ j) : (recordAck m j s now).lookup id = m.lookup id := by
  cases s <;> exact lookup_insert_ne _ _ _ _ h

theorem recordAck_nodup (m : List (String × Entry)) (id : String) (s : Status) (now : Nat)
    (h : (m.map (·.1)).Nodup) : ((recordAck m id s now).map (·.1)).Nodup := by
  cases s <;> exact nodup_insert _ _ _ h

theorem actionFor_id (cfg : Config) (now : Nat) (id : String) (e : Entry) (a : Action)
    (h : actionFor cfg now id e = some a) : a.messageId = id := by
  unfold actionFor at h
  split at h
  · split at h
    · split at h
      · split at h <;> (simp only [Option.some.injEq] at h; subst h; rfl)
      · simp at h
    · simp at h
  · simp at h

/-- The actions computed by a check. -/
def computed (cfg : Config) (now : Nat) (m : List (String × Entry)) : List Action :=
  m.filterMap (fun kv => actionFor cfg now kv.1 kv.2)

theorem computed_ids_sublist (cfg : Config) (now : Nat) (m : List (String × Entry)) :
    ((computed cfg now m).map Action.messageId).Sublist (m.map (·.1)) := by
  induction m with
  | nil => exact List.Sublist.refl _
  | cons kv m ih =>
    simp only [computed, List.filterMap_cons, List.map_cons] at ih ⊢
    cases h : actionFor cfg now kv.1 kv.2 with
    | none => exact ih.cons _
    | some a =>
      simp only [List.map_cons, actionFor_id _ _ _ _ _ h]
      exact ih.cons_cons _

theorem computed_nodup (cfg : Config) (now : Nat) (m : List (String × Entry))
    (h : (m.map (·.1)).Nodup) : ((computed cfg now m).map Action.messageId).Nodup :=
  (computed_ids_sublist cfg now m).nodup h

/-- The action computed for a message is that of its entry. -/
theorem computed_find (cfg : Config) (now : Nat) (m : List (String × Entry))
    (h : (m.map (·.1)).Nodup) (id : String) :
    (computed cfg now m).find? (fun a => a.messageId == id) =
      (m.lookup id).bind (actionFor cfg now id) := by
  induction m with
  | nil => rfl
  | cons kv m ih =>
    obtain ⟨k, e⟩ := kv
    simp only [List.map_cons, List.nodup_cons] at h
    simp only [computed, List.filterMap_cons, List.lookup_cons] at ih ⊢
    by_cases hk : id = k
    · subst hk
      simp only [beq_self_eq_true, Option.bind_some]
      cases ha : actionFor cfg now id e with
      | none =>
        simp only [ih h.2]
        rw [(lookup_eq_none id m).mpr h.1]
        rfl
      | some a =>
        simp [actionFor_id _ _ _ _ _ ha]
    · have hk' : (id == k) = false := by simpa using hk
      rw [hk']
      cases ha : actionFor cfg now k e with
      | none => exact ih h.2
      | some a =>
        have : (a.messageId == id) = false := by
          rw [actionFor_id _ _ _ _ _ ha]
          simpa using fun h => hk h.symm
        simp only [List.find?_cons, this]
        exact ih h.2

/-- The effect of an action on the entry of its message. -/
def after (now : Nat) (a : Option Action) (e : Option Entry) : Option Entry :=
  match a with
  | none => e
  | some (.lost _ _) => none
  | some (.resend _ _ t c) =>
    some ⟨.pending t c, (match e with | some e => e.attempts | none => 0) + 1, some now⟩

theorem drain_spec (cfg : Config) (now : Nat) (l : List Action) (st : State) (hl : st.todo = l)
    (hn : (l.map Action.messageId).Nodup) (hk : (st.acks.map (·.1)).Nodup) :
    (drain cfg now l.length st).todo = [] ∧
    (drain cfg now l.length st).emitted = st.emitted ++ l ∧
    ((drain cfg now l.length st).acks.map (·.1)).Nodup ∧
    ∀ id, (drain cfg now l.length st).acks.lookup id =
      after now (l.find? (fun a => a.messageId == id)) (st.acks.lookup id) := by
  induction l generalizing st with
  | nil => exact ⟨hl, by simp [drain], hk, fun id => by simp [drain, after]⟩
  | cons a l ih =>
    simp only [List.map_cons, List.nodup_cons] at hn
    simp only [List.length_cons, drain, hl]
    cases a with
    | lost m c =>
      simp only [step, hl]
      have := ih { acks := mapRemove m st.acks, todo := l, emitted := st.emitted ++ [.lost m c] }
        rfl hn.2 (nodup_filter _ _ hk)
      refine ⟨this.1, by rw [this.2.1]; simp, this.2.2.1, ?_⟩
      intro id
      rw [this.2.2.2 id]
      by_cases hid : id = m
      · subst hid
        have hnone : l.find? (fun a => a.messageId == id) = none := by
          rw [List.find?_eq_none]
          intro a ha hh
          simp only [beq_iff_eq] at hh
          exact hn.1 (List.mem_map.mpr ⟨a, ha, hh⟩)
        simp [hnone, after, messageId_lost, lookup_remove_self]
      · have hne : (Action.messageId (.lost m c) == id) = false := by
          simpa [Action.messageId] using fun h : m = id => hid h.symm
        simp only [List.find?_cons, hne]
        rw [lookup_remove_ne _ _ _ hid]
    | resend cl m t c =>
      simp only [step, hl]
      have := ih { acks := recordAck st.acks m (.pending t c) now, todo := l
                   emitted := st.emitted ++ [.resend cl m t c] }
        rfl hn.2 (recordAck_nodup _ _ (.pending t c) now hk)
      refine ⟨this.1, by rw [this.2.1]; simp, this.2.2.1, ?_⟩
      intro id
      rw [this.2.2.2 id]
      by_cases hid : id = m
      · subst hid
        have hnone : l.find? (fun a => a.messageId == id) = none := by
          rw [List.find?_eq_none]
          intro a ha hh
          simp only [beq_iff_eq] at hh
          exact hn.1 (List.mem_map.mpr ⟨a, ha, hh⟩)
        simp [hnone, after, messageId_resend, recordAck_pending, lookup_insert_self, attemptsOf]
      · have hne : (Action.messageId (.resend cl m t c) == id) = false := by
          simpa [Action.messageId] using fun h : m = id => hid h.symm
        simp only [List.find?_cons, hne]
        rw [recordAck_lookup_ne _ _ _ _ _ hid]

/-- Between events of the closed loop nothing is left to send, and the map is a map. -/
structure Quiet (st : State) : Prop where
  todo : st.todo = []
  keys : (st.acks.map (·.1)).Nodup

/-- The effect of a tick. -/
theorem tick_spec (cfg : Config) (now : Nat) (st : State) (hq : Quiet st) :
    Quiet (event cfg st (.tick now)) ∧
    (event cfg st (.tick now)).emitted = st.emitted ++ computed cfg now st.acks ∧
    ∀ id, (event cfg st (.tick now)).acks.lookup id =
      after now ((st.acks.lookup id).bind (actionFor cfg now id)) (st.acks.lookup id) := by
  have hs : step cfg st (.check now) = { st with todo := computed cfg now st.acks } := by
    simp [step, hq.todo, computed]
  simp only [event, hs]
  have := drain_spec cfg now (computed cfg now st.acks) { st with todo := computed cfg now st.acks }
    rfl (computed_nodup _ _ _ hq.keys) hq.keys
  refine ⟨⟨this.1, this.2.2.1⟩, this.2.1, ?_⟩
  intro id
  rw [this.2.2.2 id, computed_find _ _ _ hq.keys]

theorem event_quiet (cfg : Config) (st : State) (e : Event) (hq : Quiet st) :
    Quiet (event cfg st e) := by
  cases e with
  | send id t c now => exact ⟨hq.todo, recordAck_nodup _ _ (.pending t c) now hq.keys⟩
  | ack id now => exact ⟨hq.todo, recordAck_nodup _ _ .received now hq.keys⟩
  | tick now => exact (tick_spec cfg now st hq).1

theorem foldl_quiet (cfg : Config) (es : List Event) (st : State) (hq : Quiet st) :
    Quiet (es.foldl (event cfg) st) := by
  induction es generalizing st with
  | nil => exact hq
  | cons e es ih => exact ih _ (event_quiet cfg st e hq)

theorem quiet_init : Quiet State.init := ⟨rfl, by simp [State.init]⟩

theorem resends_append (id : String) (a b : List Action) :
    resends id (a ++ b) = resends id a + resends id b := List.countP_append

theorem losses_append (id : String) (a b : List Action) :
    losses id (a ++ b) = losses id a + losses id b := List.countP_append

theorem countP_unique (l : List Action) (hn : (l.map Action.messageId).Nodup) (id : String)
    (p : Action → Bool) (hp : ∀ a, p a = true → a.messageId = id) :
    l.countP p = match l.find? (fun a => a.messageId == id) with
      | some a => if p a then 1 else 0
      | none => 0 := by
  induction l with
  | nil => rfl
  | cons a l ih =>
    simp only [List.map_cons, List.nodup_cons] at hn
    by_cases hid : a.messageId = id
    · have hb : (a.messageId == id) = true := by simpa using hid
      have h0 : l.countP p = 0 := by
        rw [List.countP_eq_zero]
        intro b hb' hpb
        apply hn.1
        rw [hid, ← hp b hpb]
        exact List.mem_map_of_mem hb'
      simp only [List.countP_cons, h0, List.find?_cons, hb]
      simp
    · have hb : (a.messageId == id) = false := by simpa using hid
      have hpa : p a = false := by
        cases h : p a with
        | false => rfl
        | true => exact absurd (hp a h) hid
      simp only [List.countP_cons, hpa, List.find?_cons, hb]
      simpa using ih hn.2

/-- What a tick adds to the counts of a message. -/
theorem tick_counts (cfg : Config) (now : Nat) (m : List (String × Entry))
    (h : (m.map (·.1)).Nodup) (id : String) :
    resends id (computed cfg now m) =
      (match (m.lookup id).bind (actionFor cfg now id) with
        | some (.resend _ _ _ _) => 1
        | _ => 0) ∧
    losses id (computed cfg now m) =
      (match (m.lookup id).bind (actionFor cfg now id) with
        | some (.lost _ _) => 1
        | _ => 0) := by
  have hf := computed_find cfg now m h id
  have hn := computed_nodup cfg now m h
  constructor
  · rw [resends, countP_unique _ hn id _ (by
      intro a ha
      cases a <;> simp at ha
      exact ha), hf]
    cases ha : (m.lookup id).bind (actionFor cfg now id) with
    | none => rfl
    | some a =>
      have hid : a.messageId = id := by
        cases hl : m.lookup id with
        | none => rw [hl] at ha; simp at ha
        | some e => rw [hl] at ha; exact actionFor_id _ _ _ _ _ ha
      cases a with
      | lost m c => simp
      | resend cl m t c => simp [Action.messageId] at hid; simp [hid]
  · rw [losses, countP_unique _ hn id _ (by
      intro a ha
      cases a <;> simp at ha
      exact ha), hf]
    cases ha : (m.lookup id).bind (actionFor cfg now id) with
    | none => rfl
    | some a =>
      have hid : a.messageId = id := by
        cases hl : m.lookup id with
        | none => rw [hl] at ha; simp at ha
        | some e => rw [hl] at ha; exact actionFor_id _ _ _ _ _ ha
      cases a with
      | resend cl m t c => simp
      | lost m c => simp [Action.messageId] at hid; simp [hid]

end Verif.Acks
