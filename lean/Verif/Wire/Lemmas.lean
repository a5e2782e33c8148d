import Verif.Wire.Model

/-!
# Lemmas about the derived code
-/

namespace Verif.Wire

open Verif

variable {F : Type}

theorem all_map {A B : Type} (d : Json F → Option A) (w : B → Json F) (f : B → A)
    (l : List B) (h : ∀ b ∈ l, d (w b) = some (f b)) : all d (l.map w) = some (l.map f) := by
  induction l with
  | nil => rfl
  | cons b l ih =>
    rw [List.map_cons, all, h b (by simp), ih fun b' hb' => h b' (by simp [hb'])]
    rfl

theorem list_str (l : List Str) : list (F := F) str (wList l) = some l := by
  rw [wList, list, all_map str Json.str id l fun _ _ => rfl, List.map_id]

theorem fill_map {A : Type} (d : Json F → Option A) (w : A → Json F) (hw : ∀ a, d (w a) = some a)
    (l : List (Str × A)) : ∀ acc : List (Str × A), ((acc ++ l).map (·.1)).Nodup →
      fill d (l.map fun e => (e.1, w e.2)) acc = some (acc ++ l) := by
  induction l with
  | nil => intro acc _; simp [fill]
  | cons e l ih =>
    intro acc hn
    have hfil : acc.filter (fun x => decide (x.1 ≠ e.1)) = acc := by
      rw [List.filter_eq_self]
      intro x hx
      simp only [List.map_append, List.map_cons, List.nodup_append, List.mem_map] at hn
      have := hn.2.2 x.1 ⟨x, hx, rfl⟩ e.1 (by simp)
      simpa using this
    simp only [List.map_cons, fill, hw, Wire.insert, hfil]
    rw [ih (acc ++ [e]) (by simpa using hn)]
    simp

theorem map_str (l : List (Str × Str)) (h : (l.map (·.1)).Nodup) :
    map (F := F) str (wMap l) = some l := by
  rw [wMap, map, fill_map str Json.str (fun _ => rfl) l [] (by simpa using h)]
  rfl

theorem map_list (l : List (Str × List Str)) (h : (l.map (·.1)).Nodup) :
    map (F := F) (list str) (wMultiMap l) = some l := by
  rw [wMultiMap, map, fill_map (list str) wList list_str l [] (by simpa using h)]
  rfl

theorem uint_ofNat (n k : Nat) (h : k < 2 ^ n) : uint (F := F) n (.int k) = some k := by
  have h2 : (k : Int) < 2 ^ n := by exact_mod_cast h
  simp [uint, h2]

theorem HttpRequest.decode_encode (d : HttpRequest) (h1 : (d.pathParams.map (·.1)).Nodup)
    (h2 : (d.queryParams.map (·.1)).Nodup) (h3 : (d.multiQueryParams.map (·.1)).Nodup)
    (h4 : (d.headers.map (·.1)).Nodup) (h5 : (d.multiHeaders.map (·.1)).Nodup) :
    HttpRequest.decode (F := F) d.encode = some d := by
  have key : HttpRequest.decode (F := F) d.encode = (do
      let pathParams ← map (F := F) str (wMap d.pathParams)
      let queryParams ← map (F := F) str (wMap d.queryParams)
      let multiQueryParams ← map (F := F) (list str) (wMultiMap d.multiQueryParams)
      let headers ← map (F := F) str (wMap d.headers)
      let multiHeaders ← map (F := F) (list str) (wMultiMap d.multiHeaders)
      pure { d with pathParams, queryParams, multiQueryParams, headers, multiHeaders }) := by
    obtain ⟨a, b, c, d, e, f, g, h, i, j, k⟩ := d
    cases i <;> rfl
  rw [key, map_str _ h1, map_str _ h2, map_list _ h3, map_str _ h4, map_list _ h5]
  rfl

theorem WsMessage.decode_encode (d : WsMessage) : WsMessage.decode (F := F) d.encode = some d := by
  obtain ⟨a, b, c, d, e⟩ := d
  cases d <;> rfl

theorem ConsumerMessage.decode_encode (d : ConsumerMessage F) :
    ConsumerMessage.decode d.encode = some d := rfl

theorem ConsumerEvent.decode_encode (d : ConsumerEvent F) :
    ConsumerEvent.decode d.encode = some d := by
  have key : ConsumerEvent.decode d.encode = (do
      let messages ← list ConsumerMessage.decode (.arr (d.messages.map ConsumerMessage.encode))
      pure { d with messages }) := rfl
  rw [key, list, all_map _ _ id d.messages fun b _ => b.decode_encode, List.map_id]
  rfl

theorem ScheduleEvent.decode_encode (d : ScheduleEvent F) :
    ScheduleEvent.decode d.encode = some d := rfl

theorem EventMessage.decode_encode (d : EventMessage F) :
    EventMessage.decode d.encode = some { d with
      messageAttributes := d.messageAttributes.filter fun v => !(v matches .null) } := by
  obtain ⟨a, b, c, d, e⟩ := d
  cases c <;> cases d with
  | none => rfl
  | some v => cases v <;> rfl

theorem EventType.decode_name (t : EventType) : EventType.decode (F := F) (.str t.name) = some t := by
  cases t <;> rfl

theorem req_at {A : Type} {m : List (Str × Json F)} {k : String} {v : Json F}
    (d : Json F → Option A) (h : m.lookup k.toList = some v) : req m k d = d v := by
  rw [req, h]

theorem Event.decode_encode (e : Event F) (ht : e.timestamp < 2 ^ 64) :
    Event.decode e.encode = (Payload.decode e.data.encode).map fun data => { e with data } := by
  let m : List (Str × Json F) := [("id".toList, .str e.id),
    ("eventType".toList, .str e.eventType.name), ("handlerTag".toList, .str e.handlerTag),
    ("timestamp".toList, .int e.timestamp), ("data".toList, e.data.encode)]
  have h0 : entries ["id".toList, "eventType".toList, "handlerTag".toList, "timestamp".toList,
    "data".toList] e.encode = some m := rfl
  have h1 : m.lookup "id".toList = some (.str e.id) := rfl
  have h2 : m.lookup "eventType".toList = some (.str e.eventType.name) := rfl
  have h3 : m.lookup "handlerTag".toList = some (.str e.handlerTag) := rfl
  have h4 : m.lookup "timestamp".toList = some (.int e.timestamp) := rfl
  have h5 : m.lookup "data".toList = some e.data.encode := rfl
  rw [Event.decode, h0, Option.bind_eq_bind, Option.bind_some, req_at _ h1, req_at _ h2,
    req_at _ h3, req_at _ h4, req_at _ h5, EventType.decode_name, uint_ofNat _ _ ht]
  cases Payload.decode e.data.encode <;> rfl

/-! ## Results -/

theorem HttpResponse.decode_encode (r : HttpResponse) (hs : r.status < 2 ^ 16)
    (hh : (r.headers.map (·.1)).Nodup) : HttpResponse.decode (F := F) r.encode = some r := by
  let m : List (Str × Json F) := [("status".toList, .int r.status),
    ("headers".toList, wMap r.headers), ("body".toList, .str r.body)]
  have h0 : entries ["status".toList, "headers".toList, "body".toList] r.encode = some m := rfl
  have h1 : m.lookup "status".toList = some (.int r.status) := rfl
  have h2 : m.lookup "headers".toList = some (wMap r.headers) := rfl
  have h3 : m.lookup "body".toList = some (.str r.body) := rfl
  rw [HttpResponse.decode, h0, Option.bind_eq_bind, Option.bind_some, req_at _ h1, req_at _ h2,
    req_at _ h3, uint_ofNat _ _ hs, map_str _ hh]
  rfl

theorem Simple.decode_encode (r : Simple) : Simple.decode (F := F) r.encode = some r := by
  obtain ⟨a, b⟩ := r
  cases b <;> rfl

theorem Failure.decode_encode (r : Failure) : Failure.decode (F := F) r.encode = some r := by
  obtain ⟨a, b⟩ := r
  cases b <;> rfl

theorem Processed.decode_encode (r : Processed) : Processed.decode (F := F) r.encode = some r := by
  obtain ⟨a, b⟩ := r
  cases b with
  | none => rfl
  | some l =>
    have key : Processed.decode (F := F) (Processed.encode ⟨a, some l⟩) = (do
        let failures ← nullable (F := F) (list Failure.decode) (.arr (l.map Failure.encode))
        pure ⟨a, failures⟩) := rfl
    rw [key, nullable, list, all_map _ _ id l fun b _ => b.decode_encode, List.map_id]
    · rfl
    · nofun

theorem HttpResponse.decode_simple (r : Simple) :
    HttpResponse.decode (F := F) r.encode = none := by
  obtain ⟨a, b⟩ := r
  cases b <;> rfl

theorem HttpResponse.decode_processed (r : Processed) :
    HttpResponse.decode (F := F) r.encode = none := by
  obtain ⟨a, b⟩ := r
  cases b <;> rfl

theorem Simple.decode_processed (r : Processed) :
    Simple.decode (F := F) r.encode = some ⟨r.success, none⟩ := by
  obtain ⟨a, b⟩ := r
  cases b <;> rfl

theorem ResultData.decode_http (r : HttpResponse) (hs : r.status < 2 ^ 16)
    (hh : (r.headers.map (·.1)).Nodup) :
    ResultData.decode (F := F) (ResultData.encode (.http r)) = some (.http r) := by
  rw [ResultData.encode, ResultData.decode, HttpResponse.decode_encode r hs hh]

theorem ResultData.decode_simple (r : Simple) :
    ResultData.decode (F := F) r.encode = some (.ws r) := by
  rw [ResultData.decode, HttpResponse.decode_simple, Simple.decode_encode]

theorem ResultData.decode_processed (r : Processed) :
    ResultData.decode (F := F) r.encode = some (.ws ⟨r.success, none⟩) := by
  rw [ResultData.decode, HttpResponse.decode_processed, Simple.decode_processed]

theorem Result.decode_encode (r : Result F) :
    Result.decode r.encode = (ResultData.decode (F := F) r.data.encode).map fun data =>
      { r with data, context := r.context.filter fun v => !(v matches .null) } := by
  obtain ⟨a, b, c⟩ := r
  have key : ∀ c' : Option (Json F), Result.decode (Result.encode ⟨a, b, c'⟩) =
      (ResultData.decode (F := F) b.encode).bind fun data =>
        (match c' with | none => some none | some v => nullable any v).bind fun context =>
          some ⟨a, data, context⟩ := by
    intro c'
    cases c' <;> rfl
  rw [key]
  cases ResultData.decode (F := F) b.encode with
  | none => rfl
  | some d =>
    cases c with
    | none => rfl
    | some v => cases v <;> rfl

/-! ## Messages between nodes -/

theorem Message.decode_encode (m : Message) : Message.decode (F := F) m.encode = some m := by
  cases m with
  | ws m =>
    obtain ⟨a, b, c, d, e⟩ := m
    cases c with
    | none => rfl
    | some l =>
      have key : Message.decode (F := F) (Message.encode (.ws ⟨a, b, some l, d, e⟩)) =
          ((list (F := F) str (wList l)).map fun l' => .ws ⟨a, b, some l', d, e⟩) := by
        rw [list_str]
        have : Message.decode (F := F) (Message.encode (.ws ⟨a, b, some l, d, e⟩)) =
          (WsSend.decode (F := F) (.obj (WsSend.fields ⟨a, b, some l, d, e⟩))).map .ws := rfl
        rw [this]
        have : WsSend.decode (F := F) (.obj (WsSend.fields ⟨a, b, some l, d, e⟩)) =
          ((list (F := F) str (wList l)).map some).bind fun l' => some ⟨a, b, l', d, e⟩ := rfl
        rw [this, list_str]
        rfl
      rw [key, list_str]
      rfl
  | ack m => rfl

theorem Wrapped.decode_encode (w : Wrapped) : Wrapped.decode (F := F) w.encode = some w := by
  have key : Wrapped.decode (F := F) w.encode =
      (Message.decode (F := F) w.message.encode).bind fun message =>
        some { w with message } := rfl
  rw [key, Message.decode_encode]
  rfl

end Verif.Wire
