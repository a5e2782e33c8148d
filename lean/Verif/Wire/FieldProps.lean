import Verif.Wire.RefuseProps

/-!
# Documents are read by the names of their fields (C159)
-/

namespace Verif.Wire.Spec

open Verif

/-- A reader that looks for named fields and for nothing else: not at the order or at other fields. A
field must not be given twice; a list with an element for each name is read as the object with these
fields; everything else is refused. -/
structure ByName {F A : Type} (names : List String) (d : Json F → Option A) : Prop where
  twice : ∀ m, ∀ k ∈ names, 2 ≤ (m.filter fun e => e.1 = k.toList).length → d (.obj m) = none
  others : ∀ a b k v, k ∉ names.map String.toList → d (.obj (a ++ (k, v) :: b)) = d (.obj (a ++ b))
  order : ∀ m m' : List (List Char × Json F), m.Perm m' → d (.obj m) = d (.obj m')
  list : ∀ l, l.length = names.length → d (.arr l) = d (.obj ((names.map String.toList).zip l))
  length : ∀ l, l.length ≠ names.length → d (.arr l) = none
  scalar : ∀ v, (∀ m, v ≠ .obj m) → (∀ l, v ≠ .arr l) → d v = none

end Verif.Wire.Spec

namespace Verif.Wire

open Verif Verif.Wire.Spec

variable {F : Type}

/-- The first value of a name, in terms of all entries with this name. -/
theorem lookup_filter (m : List (Str × Json F)) (k : Str) :
    m.lookup k = ((m.filter fun e => e.1 = k).head?).map (·.2) := by
  induction m with
  | nil => rfl
  | cons e m ih =>
    by_cases h : e.1 = k
    · subst h
      simp [List.lookup]
    · have h' : (k == e.1) = false := by simpa using fun hh => h hh.symm
      simp [List.lookup, h', ih, h]

theorem filter_others (a b : List (Str × Json F)) (k : Str) (v : Json F) (n : Str) (h : k ≠ n) :
    ((a ++ (k, v) :: b).filter fun e => e.1 = n) = ((a ++ b).filter fun e => e.1 = n) := by
  simp [h]

theorem filter_perm {m m' : List (Str × Json F)} (h : m.Perm m') (n : Str)
    (h1 : (m.filter fun e => e.1 = n).length ≤ 1) :
    (m.filter fun e => e.1 = n) = (m'.filter fun e => e.1 = n) := by
  have hp := h.filter fun e => e.1 = n
  generalize (m.filter fun e => e.1 = n) = x at h1 hp
  generalize (m'.filter fun e => e.1 = n) = y at hp
  match x, h1 with
  | [], _ => exact (List.nil_perm.1 hp).symm
  | [e], _ => exact (List.singleton_perm.1 hp)

theorem zip_once (names : List Str) (hn : names.Nodup) (l : List (Json F)) (k : Str) :
    ((names.zip l).filter fun e => e.1 = k).length ≤ 1 := by
  induction names generalizing l with
  | nil => simp
  | cons n names ih =>
    cases l with
    | nil => simp
    | cons v l =>
      rw [List.nodup_cons] at hn
      rw [List.zip_cons_cons, List.filter_cons]
      split
      next hk =>
        have hk : n = k := by simpa using hk
        subst hk
        have : ((names.zip l).filter fun e => e.1 = n) = [] := by
          rw [List.filter_eq_nil_iff]
          intro e he
          have := (List.of_mem_zip he).1
          simp only [decide_eq_true_eq]
          rintro rfl
          exact hn.1 this
        rw [this]
        simp
      next => exact ih hn.2 l

/-- Readers that get the fields and look them up. -/
theorem byName {A : Type} {names : List String} {d : Json F → Option A}
    {g : List (Str × Json F) → Option A}
    (hd : ∀ v, d v = (entries (names.map String.toList) v).bind g)
    (hg : ∀ m m', (∀ k ∈ names, m.lookup k.toList = m'.lookup k.toList) → g m = g m')
    (hn : (names.map String.toList).Nodup) : ByName names d where
  twice := by
    intro m k hk h2
    rw [hd, entries, if_neg]
    · rfl
    · intro h
      have := of_decide_eq_true (List.all_eq_true.1 h k.toList (List.mem_map.2 ⟨k, hk, rfl⟩))
      omega
  others := by
    intro a b k v hk
    have hne : ∀ n ∈ names.map String.toList, k ≠ n := fun n hn h => hk (h ▸ hn)
    rw [hd, hd, entries, entries]
    have e : (names.map String.toList).all (fun n =>
          decide (((a ++ (k, v) :: b).filter fun e => decide (e.1 = n)).length ≤ 1)) =
        (names.map String.toList).all (fun n =>
          decide (((a ++ b).filter fun e => decide (e.1 = n)).length ≤ 1)) := by
      rw [Bool.eq_iff_iff, List.all_eq_true, List.all_eq_true]
      constructor
      · intro h n hn
        rw [← filter_others a b k v n (hne n hn)]
        exact h n hn
      · intro h n hn
        rw [filter_others a b k v n (hne n hn)]
        exact h n hn
    rw [e]
    split
    · refine hg _ _ fun n hn => ?_
      have hn := hne n.toList (List.mem_map.2 ⟨n, hn, rfl⟩)
      rw [lookup_filter, lookup_filter, filter_others a b k v _ hn]
    · rfl
  order := by
    intro m m' h
    rw [hd, hd, entries, entries]
    have e : (names.map String.toList).all (fun n =>
          decide ((m.filter fun e => decide (e.1 = n)).length ≤ 1)) =
        (names.map String.toList).all (fun n =>
          decide ((m'.filter fun e => decide (e.1 = n)).length ≤ 1)) := by
      congr 1
      funext n
      rw [(h.filter _).length_eq]
    rw [← e]
    split
    next ha =>
      refine hg _ _ fun n hn => ?_
      have := of_decide_eq_true (List.all_eq_true.1 ha n.toList (List.mem_map.2 ⟨n, hn, rfl⟩))
      rw [lookup_filter, lookup_filter, filter_perm h _ this]
    next => rfl
  list := by
    intro l hl
    rw [hd, hd, entries, entries, if_pos (by rw [hl, List.length_map]), if_pos]
    rw [List.all_eq_true]
    intro n _
    exact decide_eq_true (zip_once _ hn l n)
  length := by
    intro l hl
    rw [hd, entries, if_neg (by rw [List.length_map]; exact hl)]
    rfl
  scalar := by
    intro v h1 h2
    rw [hd]
    cases v with
    | obj m => exact absurd rfl (h1 m)
    | arr l => exact absurd rfl (h2 l)
    | _ => rfl

theorem httpRequest_fields : ByName (F := F) ["method", "path", "route", "pathParams", "queryParams",
      "multiQueryParams", "headers", "multiHeaders", "body", "sourceIp", "requestId"] HttpRequest.decode :=
  byName (fun _ => rfl) (fun m m' h => by
    simp only [req, opt, h "method" (by decide),
      h "path" (by decide),
      h "route" (by decide),
      h "pathParams" (by decide),
      h "queryParams" (by decide),
      h "multiQueryParams" (by decide),
      h "headers" (by decide),
      h "multiHeaders" (by decide),
      h "body" (by decide),
      h "sourceIp" (by decide),
      h "requestId" (by decide)]) (by decide)

theorem wsMessage_fields : ByName (F := F) ["route", "connectionId", "sourceIp", "requestId", "message"] WsMessage.decode :=
  byName (fun _ => rfl) (fun m m' h => by
    simp only [req, opt, h "route" (by decide),
      h "connectionId" (by decide),
      h "sourceIp" (by decide),
      h "requestId" (by decide),
      h "message" (by decide)]) (by decide)

theorem consumerMessage_fields : ByName (F := F) ["messageId", "body", "source", "messageAttributes", "vendor"] ConsumerMessage.decode :=
  byName (fun _ => rfl) (fun m m' h => by
    simp only [req, h "messageId" (by decide),
      h "body" (by decide),
      h "source" (by decide),
      h "messageAttributes" (by decide),
      h "vendor" (by decide)]) (by decide)

theorem consumerEvent_fields : ByName (F := F) ["messages", "vendor"] ConsumerEvent.decode :=
  byName (fun _ => rfl) (fun m m' h => by
    simp only [req, h "messages" (by decide),
      h "vendor" (by decide)]) (by decide)

theorem scheduleEvent_fields : ByName (F := F) ["scheduleId", "messageId", "schedule", "vendor"] ScheduleEvent.decode :=
  byName (fun _ => rfl) (fun m m' h => by
    simp only [req, h "scheduleId" (by decide),
      h "messageId" (by decide),
      h "schedule" (by decide),
      h "vendor" (by decide)]) (by decide)

theorem eventMessage_fields : ByName (F := F) ["body", "source", "messageId", "messageAttributes", "vendor"] EventMessage.decode :=
  byName (fun _ => rfl) (fun m m' h => by
    simp only [req, opt, h "body" (by decide),
      h "source" (by decide),
      h "messageId" (by decide),
      h "messageAttributes" (by decide),
      h "vendor" (by decide)]) (by decide)

theorem event_fields : ByName (F := F) ["id", "eventType", "handlerTag", "timestamp", "data"] Event.decode :=
  byName (fun _ => rfl) (fun m m' h => by
    simp only [req, h "id" (by decide),
      h "eventType" (by decide),
      h "handlerTag" (by decide),
      h "timestamp" (by decide),
      h "data" (by decide)]) (by decide)

theorem httpResponse_fields : ByName (F := F) ["status", "headers", "body"] HttpResponse.decode :=
  byName (fun _ => rfl) (fun m m' h => by
    simp only [req, h "status" (by decide),
      h "headers" (by decide),
      h "body" (by decide)]) (by decide)

theorem simple_fields : ByName (F := F) ["success", "errorMessage"] Simple.decode :=
  byName (fun _ => rfl) (fun m m' h => by
    simp only [req, opt, h "success" (by decide),
      h "errorMessage" (by decide)]) (by decide)

theorem failure_fields : ByName (F := F) ["messageId", "errorMessage"] Failure.decode :=
  byName (fun _ => rfl) (fun m m' h => by
    simp only [req, opt, h "messageId" (by decide),
      h "errorMessage" (by decide)]) (by decide)

theorem processed_fields : ByName (F := F) ["success", "failues"] Processed.decode :=
  byName (fun _ => rfl) (fun m m' h => by
    simp only [req, opt, h "success" (by decide),
      h "failues" (by decide)]) (by decide)

theorem result_fields : ByName (F := F) ["eventId", "data", "context"] Result.decode :=
  byName (fun _ => rfl) (fun m m' h => by
    simp only [req, opt, h "eventId" (by decide),
      h "data" (by decide),
      h "context" (by decide)]) (by decide)

theorem wsSend_fields : ByName (F := F) ["connectionId", "sourceNode", "informClientsOnLoss",
      "messageId", "message"] WsSend.decode :=
  byName (fun _ => rfl) (fun m m' h => by
    simp only [req, opt, h "connectionId" (by decide),
      h "sourceNode" (by decide),
      h "informClientsOnLoss" (by decide),
      h "messageId" (by decide),
      h "message" (by decide)]) (by decide)

theorem ack_fields : ByName (F := F) ["message_node", "message_id"] Ack.decode :=
  byName (fun _ => rfl) (fun m m' h => by
    simp only [req, h "message_node" (by decide),
      h "message_id" (by decide)]) (by decide)

theorem wrapped_fields : ByName (F := F) ["source_node", "message"] Wrapped.decode :=
  byName (fun _ => rfl) (fun m m' h => by
    simp only [req, h "source_node" (by decide),
      h "message" (by decide)]) (by decide)

theorem messages_fields : ByName (F := F) ["messages"] decodeMessages :=
  byName (fun _ => rfl) (fun m m' h => by
    simp only [req, h "messages" (by decide)]) (by decide)

theorem stepResult_fields : ByName (F := F) ["eventId", "data", "context"] StepResult.decode :=
  byName (fun _ => rfl) (fun m m' h => by
    simp only [req, opt, h "eventId" (by decide),
      h "data" (by decide),
      h "context" (by decide)]) (by decide)

/-- **C159, events.** -/
theorem events_by_name (F : Type) :
    ByName (F := F) ["method", "path", "route", "pathParams", "queryParams",
      "multiQueryParams", "headers", "multiHeaders", "body", "sourceIp", "requestId"] HttpRequest.decode ∧
    ByName (F := F) ["route", "connectionId", "sourceIp", "requestId", "message"] WsMessage.decode ∧
    ByName (F := F) ["messageId", "body", "source", "messageAttributes",
      "vendor"] ConsumerMessage.decode ∧
    ByName (F := F) ["messages", "vendor"] ConsumerEvent.decode ∧
    ByName (F := F) ["scheduleId", "messageId", "schedule", "vendor"] ScheduleEvent.decode ∧
    ByName (F := F) ["body", "source", "messageId", "messageAttributes",
      "vendor"] EventMessage.decode ∧
    ByName (F := F) ["id", "eventType", "handlerTag", "timestamp", "data"] Event.decode :=
  ⟨httpRequest_fields, wsMessage_fields, consumerMessage_fields, consumerEvent_fields,
    scheduleEvent_fields, eventMessage_fields, event_fields⟩

/-- **C159, results.** -/
theorem results_by_name (F : Type) :
    ByName (F := F) ["status", "headers", "body"] HttpResponse.decode ∧
    ByName (F := F) ["success", "errorMessage"] Simple.decode ∧
    ByName (F := F) ["messageId", "errorMessage"] Failure.decode ∧
    ByName (F := F) ["success", "failues"] Processed.decode ∧
    ByName (F := F) ["eventId", "data", "context"] Result.decode ∧
    ByName (F := F) ["eventId", "data", "context"] StepResult.decode :=
  ⟨httpResponse_fields, simple_fields, failure_fields, processed_fields, result_fields,
    stepResult_fields⟩

/-- **C159, messages to connections and between nodes.** -/
theorem messages_by_name (F : Type) :
    ByName (F := F) ["connectionId", "sourceNode", "informClientsOnLoss", "messageId",
      "message"] WsSend.decode ∧
    ByName (F := F) ["message_node", "message_id"] Ack.decode ∧
    ByName (F := F) ["source_node", "message"] Wrapped.decode ∧
    ByName (F := F) ["messages"] decodeMessages :=
  ⟨wsSend_fields, ack_fields, wrapped_fields, messages_fields⟩

/-- For instance: the same acknowledgement in three ways, and one that is refused. -/
example (F : Type) :
    Ack.decode (F := F) (.obj [("message_id".toList, .str ['a']), ("x".toList, .null),
      ("message_node".toList, .str ['n'])]) = some ⟨['n'], ['a']⟩ ∧
    Ack.decode (F := F) (.obj [("message_node".toList, .str ['n']),
      ("message_id".toList, .str ['a'])]) = some ⟨['n'], ['a']⟩ ∧
    Ack.decode (F := F) (.arr [.str ['n'], .str ['a']]) = some ⟨['n'], ['a']⟩ ∧
    Ack.decode (F := F) (.obj [("message_node".toList, .str ['n']), ("message_id".toList, .str ['a']),
      ("message_id".toList, .str ['a'])]) = none :=
  ⟨rfl, rfl, rfl, rfl⟩

end Verif.Wire
