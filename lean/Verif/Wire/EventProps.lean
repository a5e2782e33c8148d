import Verif.Wire.SpecLemmas

/-!
# Property theorems about events and results on the wire (C97-C100, C109)
-/

namespace Verif.Wire

open Verif Spec

/-! ## C97: events follow the documented format -/

/-- The kind of the data of an event. -/
def Payload.kind {F : Type} : Payload F → Kind
  | .http _ => .http
  | .ws _ => .ws
  | .consumer _ => .consumer
  | .schedule _ => .schedule
  | .event _ => .event

/-- The name of the variant in the code. -/
def Payload.variantName {F : Type} : Payload F → String
  | .http _ => "HttpRequestEventData"
  | .ws _ => "WsMessageEventData"
  | .consumer _ => "ConsumerMessageEventData"
  | .schedule _ => "ScheduleMessageEventData"
  | .event _ => "EventMessageEventData"

/-- Data that can be presented as documented: no key of a map twice (the maps are `HashMap`s), a
request id for a WebSocket message, and objects where the document has objects. -/
def Payload.Presentable {F : Type} : Payload F → Prop
  | .http d => (d.pathParams.map (·.1)).Nodup ∧ (d.queryParams.map (·.1)).Nodup ∧
      (d.multiQueryParams.map (·.1)).Nodup ∧ (d.headers.map (·.1)).Nodup ∧
      (d.multiHeaders.map (·.1)).Nodup
  | .ws d => d.requestId.isSome
  | .consumer d => Anything d.vendor ∧
      ∀ m ∈ d.messages, Anything m.messageAttributes ∧ Anything m.vendor
  | .schedule d => Anything d.vendor
  | .event d => Anything d.vendor ∧ ∀ a, d.messageAttributes = some a → Anything a

/-- The kind of an event by its type. -/
def EventType.kind : EventType → Kind
  | .httpRequest => .http
  | .wsMessage => .ws
  | .consumerMessage => .consumer
  | .scheduleMessage => .schedule
  | .eventMessage => .event

/-- An event of one kind in all its parts. -/
def Event.Consistent {F : Type} (e : Event F) : Prop :=
  e.eventType.kind = e.data.kind ∧ e.data.Presentable

/-- Full statement of C97: what is handed out is an event as documented. -/
def FullEvents (F : Type) : Prop := ∀ e : Event F, e.Consistent → EventDoc e.data.kind e.encode

/-- An event with a message of a WebSocket connection. -/
def sampleEvent (F : Type) : Event F where
  id := "e-1".toList
  eventType := .wsMessage
  handlerTag := "action::hello".toList
  timestamp := 1715045992
  data := .ws ⟨"hello".toList, "c-1".toList, "192.168.72.0".toList, some "r-1".toList, "{}".toList⟩

example (F : Type) : (sampleEvent F).Consistent := ⟨rfl, rfl⟩

/-- C97 is false of the code: the data of an event is one level deeper than documented, in an object
with the name of a Rust type. -/
theorem events_violated (F : Type) : ¬ FullEvents F := by
  intro h
  obtain ⟨m, hm, _, hf⟩ := h (sampleEvent F) ⟨rfl, rfl⟩
  injection hm with hm
  subst hm
  obtain ⟨w, hw, hd⟩ := rec_req hf 4 rfl
  injection hw with hw
  subst hw
  obtain ⟨m, hm, _, hf⟩ := hd
  injection hm with hm
  subst hm
  obtain ⟨w, hw, _⟩ := rec_req hf 0 rfl
  cases hw

/-- The data of every event misses its documented place, not only in the example. -/
theorem events_never_documented {F : Type} (e : Event F) : ¬ EventDoc e.data.kind e.encode := by
  rintro ⟨m, hm, _, hf⟩
  injection hm with hm
  subst hm
  obtain ⟨w, hw, hd⟩ := rec_req hf 4 rfl
  injection hw with hw
  subst hw
  obtain ⟨id, ty, tag, ts, data⟩ := e
  cases data <;> (
    obtain ⟨m, hm, _, hf⟩ := hd
    injection hm with hm
    subst hm)
  · obtain ⟨w, hw, _⟩ := rec_req hf 2 rfl; cases hw
  · obtain ⟨w, hw, _⟩ := rec_req hf 0 rfl; cases hw
  · obtain ⟨w, hw, _⟩ := rec_req hf 1 rfl; cases hw
  · obtain ⟨w, hw, _⟩ := rec_req hf 3 rfl; cases hw
  · obtain ⟨w, hw, _⟩ := rec_req hf 4 rfl; cases hw

theorem payload_documented {F : Type} (p : Payload F) (h : p.Presentable) :
    ∃ v : Json F, p.encode = .obj [(p.variantName.toList, v)] ∧ p.kind.Data v := by
  cases p with
  | http d =>
    obtain ⟨h1, h2, h3, h4, h5⟩ := h
    refine ⟨_, rfl, ?_⟩
    obtain ⟨a, b, c, d, e, f, g, h, i, j, k⟩ := d
    cases i with
    | none =>
      refine ⟨_, rfl, of_decide_eq_true rfl, rec_some rfl ⟨_, rfl⟩ <| rec_some rfl ⟨_, rfl⟩ <|
        rec_some rfl ⟨_, rfl⟩ <| rec_some rfl (wMap_text _ h1) <| rec_some rfl (wMap_text _ h2) <|
        rec_some rfl (wMultiMap_text _ h3) <| rec_some rfl (wMap_text _ h4) <|
        rec_some rfl (wMultiMap_text _ h5) <| rec_none rfl <| rec_some rfl ⟨_, rfl⟩ <|
        rec_some rfl ⟨_, rfl⟩ rec_nil⟩
    | some b =>
      refine ⟨_, rfl, of_decide_eq_true rfl, rec_some rfl ⟨_, rfl⟩ <| rec_some rfl ⟨_, rfl⟩ <|
        rec_some rfl ⟨_, rfl⟩ <| rec_some rfl (wMap_text _ h1) <| rec_some rfl (wMap_text _ h2) <|
        rec_some rfl (wMultiMap_text _ h3) <| rec_some rfl (wMap_text _ h4) <|
        rec_some rfl (wMultiMap_text _ h5) <| rec_some rfl ⟨_, rfl⟩ <| rec_some rfl ⟨_, rfl⟩ <|
        rec_some rfl ⟨_, rfl⟩ rec_nil⟩
  | ws d =>
    refine ⟨_, rfl, ?_⟩
    obtain ⟨a, b, c, d, e⟩ := d
    cases d with
    | none => cases h
    | some d =>
      exact ⟨_, rfl, of_decide_eq_true rfl, rec_some rfl ⟨_, rfl⟩ <| rec_some rfl ⟨_, rfl⟩ <|
        rec_some rfl ⟨_, rfl⟩ <| rec_some rfl ⟨_, rfl⟩ <| rec_some rfl ⟨_, rfl⟩ rec_nil⟩
  | consumer d =>
    obtain ⟨hv, hm⟩ := h
    refine ⟨_, rfl, _, rfl, of_decide_eq_true rfl, rec_some rfl ⟨_, rfl, ?_⟩ <| rec_some rfl hv rec_nil⟩
    intro x hx
    obtain ⟨m, hmem, rfl⟩ := List.mem_map.mp hx
    obtain ⟨ha, hv⟩ := hm m hmem
    exact ⟨_, rfl, of_decide_eq_true rfl, rec_some rfl ⟨_, rfl⟩ <| rec_some rfl ⟨_, rfl⟩ <|
      rec_some rfl ⟨_, rfl⟩ <| rec_some rfl ha <| rec_some rfl hv rec_nil⟩
  | schedule d =>
    exact ⟨_, rfl, _, rfl, of_decide_eq_true rfl, rec_some rfl ⟨_, rfl⟩ <| rec_some rfl ⟨_, rfl⟩ <|
      rec_some rfl ⟨_, rfl⟩ <| rec_some rfl h rec_nil⟩
  | event d =>
    obtain ⟨hv, ha⟩ := h
    refine ⟨_, rfl, ?_⟩
    obtain ⟨a, b, c, d, e⟩ := d
    cases c with
    | none =>
      cases d with
      | none =>
        exact ⟨_, rfl, of_decide_eq_true rfl, rec_some rfl ⟨_, rfl⟩ <| rec_some rfl ⟨_, rfl⟩ <|
          rec_none rfl <| rec_none rfl <| rec_some rfl hv rec_nil⟩
      | some d =>
        exact ⟨_, rfl, of_decide_eq_true rfl, rec_some rfl ⟨_, rfl⟩ <| rec_some rfl ⟨_, rfl⟩ <|
          rec_none rfl <| rec_some rfl (ha d rfl) <| rec_some rfl hv rec_nil⟩
    | some c =>
      cases d with
      | none =>
        exact ⟨_, rfl, of_decide_eq_true rfl, rec_some rfl ⟨_, rfl⟩ <| rec_some rfl ⟨_, rfl⟩ <|
          rec_some rfl ⟨_, rfl⟩ <| rec_none rfl <| rec_some rfl hv rec_nil⟩
      | some d =>
        exact ⟨_, rfl, of_decide_eq_true rfl, rec_some rfl ⟨_, rfl⟩ <| rec_some rfl ⟨_, rfl⟩ <|
          rec_some rfl ⟨_, rfl⟩ <| rec_some rfl (ha d rfl) <| rec_some rfl hv rec_nil⟩

/-- C97, partial: all of the event is as documented but for the place of its data, which is found
under the name of the variant. -/
theorem events_partial {F : Type} (e : Event F) (h : e.Consistent) :
    Envelope [e.data.kind.name]
      (fun w => ∃ v, w = .obj [(e.data.variantName.toList, v)] ∧ e.data.kind.Data v) e.encode := by
  refine ⟨_, rfl, of_decide_eq_true rfl, rec_some rfl ⟨_, rfl⟩ <|
    rec_some rfl ⟨_, List.mem_singleton.mpr rfl, ?_⟩ <| rec_some rfl ⟨_, rfl⟩ <|
    rec_some rfl ⟨_, rfl⟩ <| rec_some rfl (payload_documented _ h.2) rec_nil⟩
  rw [← h.1]
  cases e.eventType <;> rfl

/-- What a reader finds in the data of an event under the documented names. -/
def Payload.ReadAs {F : Type} (v : Json F) : Payload F → Prop
  | .http d => get v "method" = some (.str d.method) ∧ get v "path" = some (.str d.path) ∧
      get v "route" = some (.str d.route) ∧
      get v "pathParams" = some (.obj (d.pathParams.map fun e => (e.1, .str e.2))) ∧
      get v "queryParams" = some (.obj (d.queryParams.map fun e => (e.1, .str e.2))) ∧
      get v "multiQueryParams" =
        some (.obj (d.multiQueryParams.map fun e => (e.1, .arr (e.2.map .str)))) ∧
      get v "headers" = some (.obj (d.headers.map fun e => (e.1, .str e.2))) ∧
      get v "multiHeaders" =
        some (.obj (d.multiHeaders.map fun e => (e.1, .arr (e.2.map .str)))) ∧
      get v "body" = d.body.map .str ∧ get v "sourceIp" = some (.str d.sourceIp) ∧
      get v "requestId" = some (.str d.requestId)
  | .ws d => get v "route" = some (.str d.route) ∧
      get v "connectionId" = some (.str d.connectionId) ∧
      get v "sourceIp" = some (.str d.sourceIp) ∧ get v "requestId" = d.requestId.map .str ∧
      get v "message" = some (.str d.message)
  | .consumer d => get v "vendor" = some d.vendor ∧
      ∃ l, get v "messages" = some (.arr l) ∧ l.length = d.messages.length ∧
        ∀ (i : Nat) (w : Json F) (m : ConsumerMessage F), l[i]? = some w → d.messages[i]? = some m →
          get w "messageId" = some (.str m.messageId) ∧ get w "body" = some (.str m.body) ∧
          get w "source" = some (.str m.source) ∧
          get w "messageAttributes" = some m.messageAttributes ∧ get w "vendor" = some m.vendor
  | .schedule d => get v "scheduleId" = some (.str d.scheduleId) ∧
      get v "messageId" = some (.str d.messageId) ∧ get v "schedule" = some (.str d.schedule) ∧
      get v "vendor" = some d.vendor
  | .event d => get v "body" = some (.str d.body) ∧ get v "source" = some (.str d.source) ∧
      get v "messageId" = d.messageId.map .str ∧
      get v "messageAttributes" = d.messageAttributes ∧ get v "vendor" = some d.vendor

theorem get_self {F : Type} (k : String) (v : Json F) : get (.obj [(k.toList, v)]) k = some v := by
  simp [Spec.get, List.lookup]

/-- Under the documented names a reader finds the values of the event, without any condition. -/
theorem event_values {F : Type} (e : Event F) :
    get e.encode "id" = some (.str e.id) ∧
    get e.encode "eventType" = some (.str e.eventType.kind.name.toList) ∧
    get e.encode "handlerTag" = some (.str e.handlerTag) ∧
    get e.encode "timestamp" = some (.int e.timestamp) ∧
    ∃ v, (get e.encode "data").bind (get · e.data.variantName) = some v ∧ e.data.ReadAs v := by
  obtain ⟨id, ty, tag, ts, data⟩ := e
  refine ⟨rfl, by cases ty <;> rfl, rfl, rfl, ?_⟩
  change ∃ v, Spec.get data.encode data.variantName = some v ∧ data.ReadAs v
  cases data with
  | http d =>
    refine ⟨d.encode, get_self _ _, rfl, rfl, rfl, rfl, rfl, rfl, rfl, rfl, ?_, ?_, ?_⟩ <;>
      (obtain ⟨a, b, c, d, e, f, g, h, i, j, k⟩ := d; cases i <;> rfl)
  | ws d =>
    refine ⟨d.encode, get_self _ _, rfl, rfl, rfl, ?_, ?_⟩ <;>
      (obtain ⟨a, b, c, d, e⟩ := d; cases d <;> rfl)
  | consumer d =>
    refine ⟨d.encode, get_self _ _, rfl, _, rfl, by simp, ?_⟩
    intro i w m hw hm
    rw [List.getElem?_map, hm] at hw
    injection hw with hw
    subst hw
    exact ⟨rfl, rfl, rfl, rfl, rfl⟩
  | schedule d => exact ⟨d.encode, get_self _ _, rfl, rfl, rfl, rfl⟩
  | event d =>
    refine ⟨d.encode, get_self _ _, rfl, rfl, ?_, ?_, ?_⟩ <;>
      (obtain ⟨a, b, c, d, e⟩ := d; cases c <;> cases d <;> rfl)

/-- The event of the example: its message is found. -/
example (F : Type) : ((get (sampleEvent F).encode "data").bind (get · "WsMessageEventData")).bind
    (get · "message") = some (.str "{}".toList) := rfl

/-! ## C98: documented results of HTTP handlers are understood -/

/-- An HTTP result, understood: no body is an empty body. -/
def ReadsHttp {F : Type} (v : Json F) (r : HttpResponse) : Prop :=
  get v "status" = some (.int r.status) ∧
  get v "headers" = some (.obj (r.headers.map fun e => (e.1, .str e.2))) ∧
  match get v "body" with
  | some (.str b) => r.body = b
  | _ => r.body = []

/-- A result, understood apart from its data. -/
def ReadsResult {F : Type} (v : Json F) (r : Result F) : Prop :=
  get v "eventId" = some (.str r.eventId) ∧ r.context = get v "context"

/-- Full statement of C98. -/
def FullHttpResult (F : Type) : Prop :=
  ∀ v : Json F, ResultDoc HttpPayload v →
    ∃ r h, Result.decode v = some r ∧ ReadsResult v r ∧ r.data = .http h ∧
      ∃ d, get v "data" = some d ∧ ReadsHttp d h

/-- A result without a body: a redirect, say. -/
def bodyless (F : Type) : Json F :=
  .obj [("eventId".toList, .str "e-1".toList),
    ("data".toList, .obj [("status".toList, .int 302),
      ("headers".toList, .obj [("location".toList, .str "/".toList)])])]

theorem bodyless_documented (F : Type) : ResultDoc HttpPayload (bodyless F) := by
  refine ⟨_, rfl, of_decide_eq_true rfl, rec_some rfl ⟨_, rfl⟩ <| rec_some rfl ?_ <| rec_none rfl rec_nil⟩
  refine ⟨_, rfl, of_decide_eq_true rfl, rec_some rfl ⟨302, by decide, by decide, rfl⟩ <| rec_some rfl ?_ <|
    rec_none rfl rec_nil⟩
  exact wMap_text [("location".toList, "/".toList)] (by decide)

/-- C98 is false of the code: a result without a body, which is documented to be optional, is refused
by the extractor. -/
theorem http_result_violated (F : Type) : ¬ FullHttpResult F := by
  intro h
  obtain ⟨r, _, hr, _⟩ := h (bodyless F) (bodyless_documented F)
  have : Result.decode (bodyless F) = none := by
    rw [Result.decode]
    have h0 : entries ["eventId".toList, "data".toList, "context".toList] (bodyless F) =
      some [("eventId".toList, .str "e-1".toList),
        ("data".toList, .obj [("status".toList, .int 302),
          ("headers".toList, .obj [("location".toList, .str "/".toList)])])] := rfl
    have h1 : ResultData.decode (F := F) (.obj [("status".toList, .int 302),
          ("headers".toList, .obj [("location".toList, .str "/".toList)])]) = none := rfl
    rw [h0, Option.bind_eq_bind, Option.bind_some]
    rw [req_at (v := .str "e-1".toList) _ rfl, req_at (k := "data") _ rfl, h1]
    rfl
  rw [this] at hr
  cases hr

theorem result_decode {F : Type} {P : Json F → Prop} {v : Json F} (h : ResultDoc P v) :
    ∃ d, get v "data" = some d ∧ P d ∧ ∀ data, ResultData.decode d = some data →
      ∃ r, Result.decode v = some r ∧ ReadsResult v r ∧ r.data = data := by
  obtain ⟨m, rfl, hn, hf⟩ := h
  obtain ⟨w1, h1, s, rfl⟩ := rec_req hf 0 rfl
  obtain ⟨d, h2, hd⟩ := rec_req hf 1 rfl
  refine ⟨d, h2, hd, fun data hdata => ?_⟩
  cases h3 : m.lookup "context".toList with
  | none =>
    refine ⟨⟨s, data, none⟩, ?_, ⟨h1, h3.symm⟩, rfl⟩
    rw [Result.decode, entries_obj _ m hn, Option.bind_eq_bind, Option.bind_some, req_at _ h1,
      req_at _ h2, opt_none _ h3, hdata]
    rfl
  | some c =>
    obtain ⟨mc, rfl⟩ := rec_opt hf 2 rfl h3
    refine ⟨⟨s, data, some (.obj mc)⟩, ?_, ⟨h1, h3.symm⟩, rfl⟩
    rw [Result.decode, entries_obj _ m hn, Option.bind_eq_bind, Option.bind_some, req_at _ h1,
      req_at _ h2, opt_at _ h3, hdata]
    rfl

/-- A payload with a body that is a string. -/
def HasBody {F : Type} (v : Json F) : Prop := HttpPayload v ∧ ∃ b, get v "body" = some (.str b)

/-- C98, partial: results of HTTP handlers are understood exactly if they have a body. -/
theorem http_result_partial {F : Type} (v : Json F) (hv : ResultDoc HasBody v) :
    ∃ r h, Result.decode v = some r ∧ ReadsResult v r ∧ r.data = .http h ∧
      ∃ d, get v "data" = some d ∧ ReadsHttp d h := by
  obtain ⟨d, hd, ⟨hp, b, hb⟩, hr⟩ := result_decode hv
  obtain ⟨m, rfl, hn, hf⟩ := hp
  obtain ⟨w1, h1, i, hi1, hi2, rfl⟩ := rec_req hf 0 rfl
  obtain ⟨w2, h2, hm⟩ := rec_req hf 1 rfl
  obtain ⟨l, rfl, hl⟩ := mapOf_text hm
  have hb' : m.lookup "body".toList = some (.str b) := hb
  have hi : i = (i.toNat : Int) := by omega
  have hu : uint (F := F) 16 (.int i) = some i.toNat := by
    rw [hi]
    exact uint_ofNat _ _ (by omega)
  have hdec : ResultData.decode (F := F) (.obj m) = some (.http ⟨i.toNat, l, b⟩) := by
    have : HttpResponse.decode (F := F) (.obj m) = some ⟨i.toNat, l, b⟩ := by
      rw [HttpResponse.decode, entries_obj _ m hn, Option.bind_eq_bind, Option.bind_some,
        req_at _ h1, req_at _ h2, req_at _ hb', hu, hl]
      rfl
    rw [ResultData.decode, this]
  obtain ⟨r, hr1, hr2, hr3⟩ := hr _ hdec
  refine ⟨r, _, hr1, hr2, hr3, .obj m, hd, ?_, h2, ?_⟩
  · rw [← hi]
    exact h1
  · rw [hb]

/-- A result with a body, as the handlers executable would write it. -/
example (F : Type) : ResultDoc (F := F) HasBody
    (.obj [("context".toList, .obj []), ("eventId".toList, .str "e-1".toList),
      ("data".toList, .obj [("body".toList, .str "{}".toList), ("headers".toList, .obj []),
        ("status".toList, .int 200)])]) := by
  refine ⟨_, rfl, of_decide_eq_true rfl, rec_some rfl ⟨_, rfl⟩ <| rec_some rfl ⟨?_, _, rfl⟩ <|
    rec_some rfl ⟨_, rfl⟩ rec_nil⟩
  exact ⟨_, rfl, of_decide_eq_true rfl, rec_some rfl ⟨200, by decide, by decide, rfl⟩ <|
    rec_some rfl (wMap_text [] (by decide)) <| rec_some rfl (.inr ⟨_, rfl⟩) rec_nil⟩

/-! ## C99: partial failures of a batch are understood -/

/-- The failures the runtime has got. -/
def ResultData.failed : ResultData → List Str
  | .processed r => (r.failures.getD []).map (·.messageId)
  | _ => []

/-- Whether processing has succeeded, for results that say so. -/
def ResultData.successful : ResultData → Option Bool
  | .http _ => none
  | .ws r => some r.success
  | .processed r => some r.success
  | .scheduled r => some r.success
  | .event r => some r.success

/-- The messages reported as failed. -/
def failedIn {F : Type} (v : Json F) : List (Json F) :=
  match get v "failures" with
  | some (.arr l) => l.filterMap (get · "messageId")
  | _ => []

/-- A result of processing a batch, with nothing that is not documented. -/
def Batch {F : Type} (v : Json F) : Prop :=
  ProcessingPayload v ∧ Only ["success", "failures"] v

/-- Full statement of C99: the messages reported as failed are known to have failed. -/
def FullFailures (F : Type) : Prop :=
  ∀ v : Json F, ResultDoc Batch v →
    ∃ r d, Result.decode v = some r ∧ get v "data" = some d ∧
      r.data.failed.map .str = failedIn d

/-- One message of a batch has failed. -/
def oneFailed (F : Type) : Json F :=
  .obj [("eventId".toList, .str "e-1".toList),
    ("data".toList, .obj [("success".toList, .bool false),
      ("failures".toList, .arr [.obj [("messageId".toList, .str "m-1".toList)]])])]

theorem oneFailed_documented (F : Type) : ResultDoc Batch (oneFailed F) := by
  refine ⟨_, rfl, of_decide_eq_true rfl, rec_some rfl ⟨_, rfl⟩ <| rec_some rfl ⟨?_, ?_⟩ <|
    rec_none rfl rec_nil⟩
  · refine ⟨_, rfl, of_decide_eq_true rfl, rec_some rfl ⟨_, rfl⟩ <| rec_some rfl ⟨_, rfl, ?_⟩ rec_nil⟩
    intro x hx
    rw [List.mem_singleton] at hx
    subst hx
    exact ⟨_, rfl, of_decide_eq_true rfl, rec_some rfl ⟨_, rfl⟩ <| rec_none rfl rec_nil⟩
  · intro m hm e he
    injection hm with hm
    subst hm
    simp only [List.mem_cons, List.not_mem_nil, or_false] at he
    rcases he with rfl | rfl
    · exact ⟨"success", by simp, rfl⟩
    · exact ⟨"failures", by simp, rfl⟩

/-- Every documented result of a batch is taken for the result of a WebSocket message. -/
theorem batch_decode {F : Type} {v : Json F} (h : Batch v) :
    ∃ b, get v "success" = some (.bool b) ∧
      ResultData.decode v = some (.ws ⟨b, none⟩) := by
  obtain ⟨⟨m, rfl, hn, hf⟩, ho⟩ := h
  obtain ⟨w, h1, b, rfl⟩ := rec_req hf 0 rfl
  refine ⟨b, h1, ?_⟩
  have h2 : m.lookup "status".toList = none := only_none ho (by decide)
  have h3 : m.lookup "errorMessage".toList = none := only_none ho (by decide)
  have hh : HttpResponse.decode (F := F) (.obj m) = none := by
    rw [HttpResponse.decode, entries_obj _ m hn, Option.bind_eq_bind, Option.bind_some,
      req_none _ h2]
    rfl
  have hs : Simple.decode (F := F) (.obj m) = some ⟨b, none⟩ := by
    rw [Simple.decode, entries_obj _ m hn, Option.bind_eq_bind, Option.bind_some,
      req_at _ h1, opt_none _ h3]
    rfl
  rw [ResultData.decode, hh, hs]

/-- C99, the failures are lost, whatever the batch: of no documented result does the runtime learn
which messages have failed. -/
theorem failures_always_lost {F : Type} (v : Json F) (h : ResultDoc Batch v) :
    ∃ r, Result.decode v = some r ∧ r.data.failed = [] := by
  obtain ⟨d, _, hb, hr⟩ := result_decode h
  obtain ⟨b, _, hdec⟩ := batch_decode hb
  obtain ⟨r, hr1, _, hr3⟩ := hr _ hdec
  exact ⟨r, hr1, by rw [hr3]; rfl⟩

/-- C99 is false of the code. -/
theorem failures_violated (F : Type) : ¬ FullFailures F := by
  intro h
  obtain ⟨r, d, hr, hd, hf⟩ := h _ (oneFailed_documented F)
  obtain ⟨r', hr', he⟩ := failures_always_lost _ (oneFailed_documented F)
  rw [hr] at hr'
  injection hr' with hr'
  subst hr'
  rw [he] at hf
  injection hd with hd
  subst hd
  cases hf

/-- C99, partial: whether the batch as a whole has been processed is known. -/
theorem failures_partial {F : Type} (v : Json F) (h : ResultDoc Batch v) :
    ∃ r d b, Result.decode v = some r ∧ ReadsResult v r ∧ get v "data" = some d ∧
      get d "success" = some (.bool b) ∧ r.data.successful = some b := by
  obtain ⟨d, hd, hb, hr⟩ := result_decode h
  obtain ⟨b, hs, hdec⟩ := batch_decode hb
  obtain ⟨r, hr1, hr2, hr3⟩ := hr _ hdec
  exact ⟨r, d, b, hr1, hr2, hd, hs, by rw [hr3]; rfl⟩

example (F : Type) : failedIn ((get (oneFailed F) "data").getD .null) = [.str "m-1".toList] := rfl

/-! ## C100: the outcome of other handlers is understood -/

/-- The message with the reason of a failure. -/
def ResultData.reason : ResultData → Option Str
  | .ws r => r.errorMessage
  | .scheduled r => r.errorMessage
  | .event r => r.errorMessage
  | _ => none

/-- A result of a WebSocket, schedule or event handler, with nothing that is not documented. -/
def Outcome {F : Type} (v : Json F) : Prop :=
  SimplePayload v ∧ Only ["success", "errorMessage"] v

/-- C100: of every documented result the runtime learns the event, whether it has been processed, the
reason if not, and the context. -/
theorem outcome_understood {F : Type} (v : Json F) (h : ResultDoc Outcome v) :
    ∃ r d b, Result.decode v = some r ∧ ReadsResult v r ∧ get v "data" = some d ∧
      get d "success" = some (.bool b) ∧ r.data.successful = some b ∧
      (∀ s, get d "errorMessage" = some (.str s) → r.data.reason = some s) ∧
      (∀ s, r.data.reason = some s → get d "errorMessage" = some (.str s)) := by
  obtain ⟨d, hd, ⟨⟨m, rfl, hn, hf⟩, ho⟩, hr⟩ := result_decode h
  obtain ⟨w, h1, b, rfl⟩ := rec_req hf 0 rfl
  have h2 : m.lookup "status".toList = none := only_none ho (by decide)
  have hh : HttpResponse.decode (F := F) (.obj m) = none := by
    rw [HttpResponse.decode, entries_obj _ m hn, Option.bind_eq_bind, Option.bind_some,
      req_none _ h2]
    rfl
  have hs : ∃ msg : Option Str, Simple.decode (F := F) (.obj m) = some ⟨b, msg⟩ ∧
      (∀ s, m.lookup "errorMessage".toList = some (.str s) → msg = some s) ∧
      (∀ s, msg = some s → m.lookup "errorMessage".toList = some (.str s)) := by
    cases h3 : m.lookup "errorMessage".toList with
    | none =>
      refine ⟨none, ?_, nofun, nofun⟩
      rw [Simple.decode, entries_obj _ m hn, Option.bind_eq_bind, Option.bind_some,
        req_at _ h1, opt_none _ h3]
      rfl
    | some w =>
      rcases rec_opt hf 1 rfl h3 with
        rfl | ⟨s, rfl⟩
      · refine ⟨none, ?_, nofun, nofun⟩
        rw [Simple.decode, entries_obj _ m hn, Option.bind_eq_bind, Option.bind_some,
          req_at _ h1, opt_at _ h3]
        rfl
      · refine ⟨some s, ?_, ?_, ?_⟩
        · rw [Simple.decode, entries_obj _ m hn, Option.bind_eq_bind, Option.bind_some,
            req_at _ h1, opt_at _ h3]
          rfl
        · intro s' hs'
          injection hs' with hs'
          injection hs' with hs'
          rw [hs']
        · intro s' hs'
          injection hs' with hs'
          rw [hs']
  obtain ⟨msg, hs, hm1, hm2⟩ := hs
  have hdec : ResultData.decode (F := F) (.obj m) = some (.ws ⟨b, msg⟩) := by
    rw [ResultData.decode, hh, hs]
  obtain ⟨r, hr1, hr2, hr3⟩ := hr _ hdec
  refine ⟨r, .obj m, b, hr1, hr2, hd, h1, ?_, ?_, ?_⟩ <;> rw [hr3]
  · rfl
  · exact hm1
  · exact hm2

/-- A failed scheduled task. -/
example (F : Type) : ResultDoc (F := F) Outcome
    (.obj [("eventId".toList, .str "e-1".toList),
      ("data".toList, .obj [("errorMessage".toList, .str "no disk".toList),
        ("success".toList, .bool false)])]) := by
  refine ⟨_, rfl, of_decide_eq_true rfl, rec_some rfl ⟨_, rfl⟩ <| rec_some rfl ⟨?_, ?_⟩ <| rec_none rfl rec_nil⟩
  · exact ⟨_, rfl, of_decide_eq_true rfl, rec_some rfl ⟨_, rfl⟩ <| rec_some rfl (.inr ⟨_, rfl⟩) rec_nil⟩
  · intro m hm e he
    injection hm with hm
    subst hm
    simp only [List.mem_cons, List.not_mem_nil, or_false] at he
    rcases he with rfl | rfl
    · exact ⟨"errorMessage", by simp, rfl⟩
    · exact ⟨"success", by simp, rfl⟩

/-! ## C109: both sides with the runtime's own types -/

/-- The maps of an event have distinct keys, as `HashMap`s do, and its timestamp is a `u64`. -/
def Event.Typed {F : Type} (e : Event F) : Prop :=
  e.timestamp < 2 ^ 64 ∧
  match e.data with
  | .http d => (d.pathParams.map (·.1)).Nodup ∧ (d.queryParams.map (·.1)).Nodup ∧
      (d.multiQueryParams.map (·.1)).Nodup ∧ (d.headers.map (·.1)).Nodup ∧
      (d.multiHeaders.map (·.1)).Nodup
  | _ => True

/-- A result has a `u16` for a status and distinct headers. -/
def Result.Typed {F : Type} (r : Result F) : Prop :=
  match r.data with
  | .http h => h.status < 2 ^ 16 ∧ (h.headers.map (·.1)).Nodup
  | _ => True

/-- Full statement of C109: what one side sends, the other side gets. -/
def FullSame (F : Type) : Prop :=
  (∀ e : Event F, e.Typed → Event.decode e.encode = some e) ∧
  (∀ r : Result F, r.Typed → Result.decode r.encode = some r)

/-- An event whose attributes are null rather than missing. -/
def nullAttributes (F : Type) : Event F :=
  ⟨[], .eventMessage, [], 0, .event ⟨[], [], none, some .null, .null⟩⟩

theorem same_violated_events (F : Type) :
    ¬ ∀ e : Event F, e.Typed → Event.decode e.encode = some e := by
  intro h
  have := h (nullAttributes F) ⟨Nat.two_pow_pos 64, trivial⟩
  rw [Event.decode_encode _ (Nat.two_pow_pos 64)] at this
  have he : Payload.decode (F := F) (nullAttributes F).data.encode =
      some (.event ⟨[], [], none, none, .null⟩) := rfl
  rw [he] at this
  injection this with this
  injection this with _ _ _ _ h5
  injection h5 with h5
  injection h5 with _ _ _ h4 _
  cases h4

theorem same_violated_results (F : Type) :
    ¬ ∀ r : Result F, r.Typed → Result.decode r.encode = some r := by
  intro h
  have := h ⟨[], .processed ⟨false, some [⟨"m-1".toList, none⟩]⟩, none⟩ trivial
  rw [Result.decode_encode] at this
  simp only [ResultData.encode, ResultData.decode_processed] at this
  injection this with this
  injection this with _ h2 _
  cases h2

/-- C109 is false of the code, for events and for results. -/
theorem same_violated (F : Type) : ¬ FullSame F := fun h => same_violated_events F h.1

/-- C109, partial, events: all of an event arrives but for attributes that are null. -/
theorem same_events_partial {F : Type} (e : Event F) (h : e.Typed)
    (hn : ∀ d, e.data = .event d → d.messageAttributes ≠ some .null) :
    Event.decode e.encode = some e := by
  obtain ⟨ht, hd⟩ := h
  rw [Event.decode_encode e ht]
  obtain ⟨id, ty, tag, ts, data⟩ := e
  cases data with
  | http d =>
    obtain ⟨h1, h2, h3, h4, h5⟩ := hd
    have : Payload.decode (F := F) (Payload.encode (.http d)) =
      (HttpRequest.decode (F := F) d.encode).map .http := rfl
    rw [this, HttpRequest.decode_encode d h1 h2 h3 h4 h5]
    rfl
  | ws d =>
    have : Payload.decode (F := F) (Payload.encode (.ws d)) =
      (WsMessage.decode (F := F) d.encode).map .ws := rfl
    rw [this, WsMessage.decode_encode]
    rfl
  | consumer d =>
    have : Payload.decode (F := F) (Payload.encode (.consumer d)) =
      (ConsumerEvent.decode (F := F) d.encode).map .consumer := rfl
    rw [this, ConsumerEvent.decode_encode]
    rfl
  | schedule d => rfl
  | event d =>
    have : Payload.decode (F := F) (Payload.encode (.event d)) =
      (EventMessage.decode (F := F) d.encode).map .event := rfl
    rw [this, EventMessage.decode_encode]
    obtain ⟨a, b, c, d, e⟩ := d
    have := hn _ rfl
    cases d with
    | none => rfl
    | some v => cases v <;> first | rfl | exact absurd rfl this

/-- C109, partial, results: results of HTTP and WebSocket handlers arrive as they are. -/
theorem same_results_partial {F : Type} (r : Result F) (h : r.Typed)
    (hc : r.context ≠ some .null)
    (hk : (∃ x, r.data = .http x) ∨ ∃ x, r.data = .ws x) : Result.decode r.encode = some r := by
  rw [Result.decode_encode]
  have hd : ResultData.decode (F := F) r.data.encode = some r.data := by
    rcases hk with ⟨x, hx⟩ | ⟨x, hx⟩
    · simp only [Result.Typed, hx] at h
      rw [hx, ResultData.decode_http x h.1 h.2]
    · rw [hx, ResultData.encode, ResultData.decode_simple]
  rw [hd]
  obtain ⟨a, b, c⟩ := r
  cases c with
  | none => rfl
  | some v => cases v <;> first | rfl | exact absurd rfl hc

/-- Of any other result arrive the event, the context, whether it has succeeded and the reason if
not. -/
theorem other_results {F : Type} (r : Result F) (hc : r.context ≠ some .null)
    (hk : ∀ x, r.data ≠ .http x) :
    ∃ r', Result.decode r.encode = some r' ∧ r'.eventId = r.eventId ∧ r'.context = r.context ∧
      r'.data.successful = r.data.successful ∧ r'.data.reason = r.data.reason := by
  rw [Result.decode_encode]
  have hd : ∃ d, ResultData.decode (F := F) r.data.encode = some d ∧
      d.successful = r.data.successful ∧ d.reason = r.data.reason := by
    cases hx : r.data with
    | http x => exact absurd hx (hk x)
    | ws x => exact ⟨.ws x, ResultData.decode_simple x, rfl, rfl⟩
    | processed x => exact ⟨.ws ⟨x.success, none⟩, ResultData.decode_processed x, rfl, rfl⟩
    | scheduled x => exact ⟨.ws x, ResultData.decode_simple x, rfl, rfl⟩
    | event x => exact ⟨.ws x, ResultData.decode_simple x, rfl, rfl⟩
  obtain ⟨d, hd, h1, h2⟩ := hd
  rw [hd]
  refine ⟨_, rfl, rfl, ?_, h1, h2⟩
  obtain ⟨a, b, c⟩ := r
  cases c with
  | none => rfl
  | some v => cases v <;> first | rfl | exact absurd rfl hc

example (F : Type) : (sampleEvent F).Typed := ⟨(by decide : 1715045992 < 2 ^ 64), trivial⟩

example (F : Type) : (⟨"e-1".toList, .scheduled ⟨false, some "no disk".toList⟩, none⟩ :
    Result F).data.reason = some "no disk".toList := rfl

end Verif.Wire
