import Verif.Wire.SpecLemmas
import Verif.Transform.Props

/-!
# Property theorems about messages and the configuration on the wire (C101-C108)
-/

namespace Verif.Wire

open Verif Spec

/-! ## C101: documented messages to clients are accepted -/

/-- A message, understood. -/
def ReadsMessage {F : Type} (v : Json F) (m : WsSend) : Prop :=
  get v "connectionId" = some (.str m.connectionId) ∧
  get v "messageId" = some (.str m.messageId) ∧
  get v "message" = some (.str m.message) ∧
  get v "informClientsOnLoss" = m.informClientsOnLoss.map fun l => .arr (l.map .str)

/-- Two lists of the same length whose elements correspond one by one. -/
def Pairwise {A B : Type} (R : A → B → Prop) (as : List A) (bs : List B) : Prop :=
  as.length = bs.length ∧ ∀ (i : Nat) a b, as[i]? = some a → bs[i]? = some b → R a b

/-- Full statement of C101: all messages of a documented request are taken, in their order. -/
def FullMessages (F : Type) : Prop :=
  ∀ v : Json F, MessagesDoc MessageDoc v →
    ∃ l ms, get v "messages" = some (.arr l) ∧ decodeMessages v = some ms ∧
      Pairwise ReadsMessage l ms

/-- A request with one message. -/
def oneMessage (F : Type) : Json F :=
  .obj [("messages".toList, .arr [.obj [("connectionId".toList, .str "c-1".toList),
    ("messageId".toList, .str "m-1".toList), ("message".toList, .str "hello".toList)]])]

theorem oneMessage_documented (F : Type) : MessagesDoc MessageDoc (oneMessage F) := by
  refine ⟨_, rfl, of_decide_eq_true rfl, rec_some rfl ⟨_, rfl, ?_⟩ rec_nil⟩
  intro x hx
  rw [List.mem_singleton] at hx
  subst hx
  exact ⟨_, rfl, of_decide_eq_true rfl, rec_some rfl ⟨_, rfl⟩ <| rec_some rfl ⟨_, rfl⟩ <|
    rec_none rfl <| rec_some rfl ⟨_, rfl⟩ rec_nil⟩

/-- C101 is false of the code: the name of the sending node, which is no business of the handlers
executable and not in the document, must be there. -/
theorem messages_violated (F : Type) : ¬ FullMessages F := by
  intro h
  obtain ⟨l, ms, _, hd, _⟩ := h _ (oneMessage_documented F)
  have : decodeMessages (oneMessage F) = none := rfl
  rw [this] at hd
  cases hd

theorem send_refused {F : Type} {v : Json F} (h : get v "sourceNode" = none)
    (hv : MessageDoc v) : WsSend.decode v = none := by
  obtain ⟨m, rfl, hn, hf⟩ := hv
  obtain ⟨w1, h1, s1, rfl⟩ := rec_req hf 0 rfl
  rw [WsSend.decode, entries_obj _ m hn, Option.bind_eq_bind, Option.bind_some, req_at _ h1,
    req_none _ h]
  rfl

theorem all_none {F A : Type} (d : Json F → Option A) (l : List (Json F)) (v : Json F)
    (hv : v ∈ l) (h : d v = none) : all d l = none := by
  induction l with
  | nil => cases hv
  | cons x l ih =>
    rw [all]
    rcases List.mem_cons.mp hv with rfl | hv
    · rw [h]
    · rw [ih hv]
      cases d x <;> rfl

/-- Not one documented message without the undocumented name gets through, nor do the others with
it. -/
theorem messages_refused {F : Type} (v : Json F) (h : MessagesDoc MessageDoc v) (l : List (Json F))
    (hl : get v "messages" = some (.arr l)) (x : Json F) (hx : x ∈ l)
    (hs : get x "sourceNode" = none) : decodeMessages v = none := by
  obtain ⟨m, rfl, hn, hf⟩ := h
  obtain ⟨w, h1, l', rfl, hm⟩ := rec_req hf 0 rfl
  have : l' = l := by
    rw [show get (.obj m) "messages" = m.lookup "messages".toList from rfl, h1] at hl
    injection hl with hl
    injection hl
  subst this
  rw [decodeMessages, entries_obj _ m hn, Option.bind_eq_bind, Option.bind_some, req_at _ h1, list,
    all_none _ l' x hx (send_refused hs (hm x hx))]

/-- A message that also names a node. -/
def MessageWithNode {F : Type} (v : Json F) : Prop :=
  MessageDoc v ∧ ∃ n, get v "sourceNode" = some (.str n)

theorem send_accepted {F : Type} {v : Json F} (hv : MessageWithNode v) :
    ∃ m, WsSend.decode v = some m ∧ ReadsMessage v m := by
  obtain ⟨⟨m, rfl, hn, hf⟩, n, h5⟩ := hv
  obtain ⟨w1, h1, s1, rfl⟩ := rec_req hf 0 rfl
  obtain ⟨w2, h2, s2, rfl⟩ := rec_req hf 1 rfl
  obtain ⟨w3, h3, s3, rfl⟩ := rec_req hf 3 rfl
  have h5' : m.lookup "sourceNode".toList = some (.str n) := h5
  cases h4 : m.lookup "informClientsOnLoss".toList with
  | none =>
    refine ⟨⟨s1, n, none, s2, s3⟩, ?_, h1, h2, h3, h4⟩
    rw [WsSend.decode, entries_obj _ m hn, Option.bind_eq_bind, Option.bind_some, req_at _ h1,
      req_at _ h2, req_at _ h3, opt_none _ h4, req_at _ h5']
    rfl
  | some w4 =>
    obtain ⟨l, rfl, hl⟩ := items_text (rec_opt hf 2 rfl h4)
    refine ⟨⟨s1, n, some l, s2, s3⟩, ?_, h1, h2, h3, h4⟩
    have : nullable (list str) (wList (F := F) l) = some (some l) := by
      rw [wList, nullable]
      · rw [show list str (Json.arr (l.map Json.str)) = some l from hl]
        rfl
      · nofun
    rw [WsSend.decode, entries_obj _ m hn, Option.bind_eq_bind, Option.bind_some, req_at _ h1,
      req_at _ h2, req_at _ h3, opt_at _ h4, req_at _ h5', this]
    rfl

theorem all_accepted {F A : Type} (d : Json F → Option A) (R : Json F → A → Prop)
    (l : List (Json F)) (h : ∀ v ∈ l, ∃ a, d v = some a ∧ R v a) :
    ∃ as, all d l = some as ∧ Pairwise R l as := by
  induction l with
  | nil => exact ⟨[], rfl, rfl, nofun⟩
  | cons v l ih =>
    obtain ⟨a, ha, hr⟩ := h v (by simp)
    obtain ⟨as, has, hlen, hp⟩ := ih fun x hx => h x (by simp [hx])
    refine ⟨a :: as, by rw [all, ha, has], by simp [hlen], ?_⟩
    intro i x y hx hy
    cases i with
    | zero =>
      simp only [List.getElem?_cons_zero, Option.some.injEq] at hx hy
      subst hx hy
      exact hr
    | succ i =>
      simp only [List.getElem?_cons_succ] at hx hy
      exact hp i x y hx hy

/-- C101, partial: with the name of a node in every message they are all taken, in their order and
with their contents. -/
theorem messages_partial {F : Type} (v : Json F) (h : MessagesDoc MessageWithNode v) :
    ∃ l ms, get v "messages" = some (.arr l) ∧ decodeMessages v = some ms ∧
      Pairwise ReadsMessage l ms := by
  obtain ⟨m, rfl, hn, hf⟩ := h
  obtain ⟨w, h1, l, rfl, hm⟩ := rec_req hf 0 rfl
  obtain ⟨ms, hms, hp⟩ := all_accepted WsSend.decode ReadsMessage l fun x hx =>
    send_accepted (hm x hx)
  refine ⟨l, ms, h1, ?_, hp⟩
  rw [decodeMessages, entries_obj _ m hn, Option.bind_eq_bind, Option.bind_some, req_at _ h1, list,
    hms]

example (F : Type) : MessagesDoc (F := F) MessageWithNode
    (.obj [("messages".toList, .arr [.obj [("sourceNode".toList, .str "n-1".toList),
      ("connectionId".toList, .str "c-1".toList), ("messageId".toList, .str "m-1".toList),
      ("informClientsOnLoss".toList, .arr [.str "c-2".toList]),
      ("message".toList, .str "hello".toList)]])]) := by
  refine ⟨_, rfl, of_decide_eq_true rfl, rec_some rfl ⟨_, rfl, ?_⟩ rec_nil⟩
  intro x hx
  rw [List.mem_singleton] at hx
  subst hx
  exact ⟨⟨_, rfl, of_decide_eq_true rfl, rec_some rfl ⟨_, rfl⟩ <| rec_some rfl ⟨_, rfl⟩ <|
    rec_some rfl (wList_text ["c-2".toList]) <| rec_some rfl ⟨_, rfl⟩ rec_nil⟩, _, rfl⟩

/-! ## C102: the configuration lists the handlers as documented -/

/-- Full statement of C102: what is served for a blueprint is as documented. -/
def FullConfig : Prop :=
  ∀ (F G : Type) (showF : F → Str) (bp : Transform.Blueprint F) (n : Option Str)
    (cfg : Transform.ApiConfig), Transform.collectApiConfig showF bp n = .ok cfg →
    ConfigDoc (F := G) (localConfig (appConfig (some cfg))).encode

theorem wHandlers_doc {F A : Type} {P : Json F → Prop} (w : A → Json F) (l : List A)
    (h : ∀ a ∈ l, P (w a)) : Handlers P (wHandlers (l.map w)) := by
  refine ⟨_, rfl, of_decide_eq_true rfl, rec_some rfl ⟨_, rfl, ?_⟩ rec_nil⟩
  intro x hx
  obtain ⟨a, ha, rfl⟩ := List.mem_map.mp hx
  exact h a ha

theorem config_doc {F : Type} (c : LocalConfig)
    (h : ∀ x ∈ c.http, ∃ n ∈ methods, x.method = n.toList) : ConfigDoc (F := F) c.encode := by
  refine ⟨_, rfl, of_decide_eq_true rfl, rec_some rfl ⟨_, rfl, of_decide_eq_true rfl, ?_⟩ rec_nil⟩
  refine rec_some rfl ⟨_, rfl⟩ <| rec_some rfl (wHandlers_doc _ _ ?_) <|
    rec_some rfl (wHandlers_doc _ _ ?_) <| rec_some rfl (wHandlers_doc _ _ ?_) <|
    rec_some rfl (wHandlers_doc _ _ ?_) rec_nil
  · intro x hx
    obtain ⟨n, hn, hm⟩ := h x hx
    exact ⟨_, rfl, of_decide_eq_true rfl, rec_some rfl ⟨_, rfl⟩ <| rec_some rfl ⟨_, rfl⟩ <|
      rec_some rfl ⟨_, rfl⟩ <| rec_some rfl ⟨n, hn, by rw [hm]⟩ <| rec_some rfl ⟨_, rfl⟩ <|
      rec_some rfl ⟨_, rfl⟩ rec_nil⟩
  · intro x _
    exact ⟨_, rfl, of_decide_eq_true rfl, rec_some rfl ⟨_, rfl⟩ <| rec_some rfl ⟨_, rfl⟩ <|
      rec_some rfl ⟨_, rfl⟩ <| rec_some rfl ⟨_, rfl⟩ <| rec_some rfl ⟨_, rfl⟩ <|
      rec_some rfl ⟨_, rfl⟩ rec_nil⟩
  · intro x _
    exact ⟨_, rfl, of_decide_eq_true rfl, rec_some rfl ⟨_, rfl⟩ <| rec_some rfl ⟨_, rfl⟩ <|
      rec_some rfl ⟨_, rfl⟩ <| rec_some rfl ⟨_, rfl⟩ <| rec_some rfl ⟨_, rfl⟩ rec_nil⟩
  · intro x _
    exact ⟨_, rfl, of_decide_eq_true rfl, rec_some rfl ⟨_, rfl⟩ <| rec_some rfl ⟨_, rfl⟩ <|
      rec_some rfl ⟨_, rfl⟩ <| rec_some rfl ⟨_, rfl⟩ <| rec_some rfl ⟨_, rfl⟩ rec_nil⟩

/-- A blueprint with an API and a handler for HTTP requests that does not name a method. -/
def plainBlueprint : Transform.Blueprint Unit where
  resources := [("api".toList, ⟨.api, none, none, some [("app".toList, "o".toList)],
      .api ⟨[], none⟩⟩),
    ("h".toList, ⟨.handler, some [(Transform.httpKey, .bool true)],
      some [("app".toList, "o".toList)], none, .handler ⟨some "./h".toList, none, none⟩⟩)]
  metadata := none

/-- What is collected from it. -/
def plainConfig : Transform.ApiConfig where
  http := some [⟨"h".toList, "/".toList, "GET".toList, "./h".toList, 60, false⟩]
  websocket := none
  tracingEnabled := false

theorem plain_collected :
    Transform.collectApiConfig (fun _ => []) plainBlueprint none = .ok plainConfig := by rfl

/-- C102 is false of the code: a method is documented to be in small letters, the one used when none
is named is in capitals. -/
theorem config_violated : ¬ FullConfig := by
  intro h
  obtain ⟨m, hm, _, hf⟩ := h Unit Unit _ _ _ _ plain_collected
  injection hm with hm
  subst hm
  obtain ⟨w, hw, m, hm, _, hf⟩ := rec_req hf 0 rfl
  injection hw with hw
  subst hw
  injection hm with hm
  subst hm
  obtain ⟨m, hm, _, hf⟩ := rec_opt hf 1 rfl (w := wHandlers [LocalHttp.encode
    ⟨[], "GET::/".toList, "/".toList, "GET".toList, 60, false⟩]) rfl
  injection hm with hm
  subst hm
  obtain ⟨w, hw, l, hl, hf⟩ := rec_req hf 0 rfl
  injection hw with hw
  subst hw
  injection hl with hl
  subst hl
  obtain ⟨m, hm, _, hf⟩ := hf _ (List.mem_singleton.mpr rfl)
  injection hm with hm
  subst hm
  obtain ⟨w, hw, n, hn, hx⟩ := rec_req hf 3 rfl
  injection hw with hw
  subst hw
  injection hx with hx
  revert n
  decide

/-- C102, partial: with methods as documented all of the configuration is, whatever there is to be
configured. -/
theorem config_partial {F : Type} (c : AppConfig)
    (h : ∀ api hs, c.api = some api → api.http = some hs →
      ∀ x ∈ hs, ∃ n ∈ methods, x.method = n.toList) :
    ConfigDoc (F := F) (localConfig c).encode := by
  apply config_doc
  intro x hx
  simp only [localConfig, httpConfig] at hx
  split at hx
  · rename_i api ha
    split at hx
    · rename_i hs hh
      obtain ⟨y, hy, rfl⟩ := List.mem_map.mp hx
      exact h api hs ha hh y hy
    · cases hx
  · cases hx

/-- The handlers for HTTP requests. -/
def AppConfig.httpHandlers (c : AppConfig) : List HttpHandler := (c.api.bind (·.http)).getD []

/-- The handlers for WebSocket messages. -/
def AppConfig.wsHandlers (c : AppConfig) : List WsHandler := (c.api.bind (·.websocket)).getD []

/-- The handlers for messages, each with its source. -/
def AppConfig.consumerHandlers (c : AppConfig) : List (Consumer × EventHandler) :=
  (c.consumers.getD []).flatMap fun s => s.handlers.map fun h => (s, h)

/-- The handlers of schedules, each with its schedule. -/
def AppConfig.scheduleHandlers (c : AppConfig) : List (Schedule × EventHandler) :=
  (c.schedules.getD []).flatMap fun s => s.handlers.map fun h => (s, h)

/-- What all the handlers have in common. -/
def ReadsHandler {F : Type} (v : Json F) (name : Str) (timeout : Int) (tracing : Bool) : Prop :=
  get v "handlerName" = some (.str name) ∧ get v "timeout" = some (.int timeout) ∧
  get v "tracingEnabled" = some (.bool tracing)

theorem pairwise_map {A B : Type} (R : A → B → Prop) (w : B → A) (l : List B)
    (h : ∀ b, R (w b) b) : Pairwise R (l.map w) l := by
  refine ⟨by simp, ?_⟩
  intro i a b ha hb
  rw [List.getElem?_map, hb] at ha
  injection ha with ha
  subst ha
  exact h b

/-- C102, the other half: the configuration has exactly the handlers of the application, in their
order, under the documented names. -/
theorem config_lists {F : Type} (c : AppConfig) :
    ((get (F := F) (localConfig c).encode "appConfig").bind (get · "tracingEnabled") =
      some (.bool (match c.api with | some a => a.tracingEnabled | none => false))) ∧
    (∃ l, handlers (F := F) (localConfig c).encode "http" = some l ∧
      Pairwise (fun v h => ReadsHandler v h.name h.timeout h.tracingEnabled ∧
        get v "path" = some (.str h.path) ∧ get v "method" = some (.str h.method) ∧
        get v "handlerTag" = some (.str (h.method ++ "::".toList ++ h.path))) l c.httpHandlers) ∧
    (∃ l, handlers (F := F) (localConfig c).encode "websocket" = some l ∧
      Pairwise (fun v h => ReadsHandler v h.name h.timeout h.tracingEnabled ∧
        get v "routeKey" = some (.str h.routeKey) ∧ get v "route" = some (.str h.route) ∧
        get v "handlerTag" = some (.str (h.routeKey ++ "::".toList ++ h.route))) l c.wsHandlers) ∧
    (∃ l, handlers (F := F) (localConfig c).encode "consumer" = some l ∧
      Pairwise (fun v h => ReadsHandler v h.2.name h.2.timeout h.2.tracingEnabled ∧
        get v "sourceId" = some (.str h.1.sourceId) ∧ get v "handlerTag" =
          some (.str ("source::".toList ++ h.1.sourceId ++ "::".toList ++ h.2.name))) l
        c.consumerHandlers) ∧
    (∃ l, handlers (F := F) (localConfig c).encode "schedule" = some l ∧
      Pairwise (fun v h => ReadsHandler v h.2.name h.2.timeout h.2.tracingEnabled ∧
        get v "schedule" = some (.str h.1.scheduleValue) ∧ get v "handlerTag" =
          some (.str ("source::".toList ++ h.1.scheduleId ++ "::".toList ++ h.2.name))) l
        c.scheduleHandlers) := by
  obtain ⟨api, consumers, schedules⟩ := c
  refine ⟨?_, ⟨_, rfl, ?_⟩, ⟨_, rfl, ?_⟩, ⟨_, rfl, ?_⟩, ⟨_, rfl, ?_⟩⟩
  · cases api <;> rfl
  · cases api with
    | none => exact ⟨rfl, nofun⟩
    | some a =>
      obtain ⟨http, ws, t⟩ := a
      cases http with
      | none => exact ⟨rfl, nofun⟩
      | some hs =>
        simp only [localConfig, httpConfig, AppConfig.httpHandlers, Option.bind_some,
          Option.getD_some, List.map_map]
        exact pairwise_map _ _ hs fun h => ⟨⟨rfl, rfl, rfl⟩, rfl, rfl, rfl⟩
  · cases api with
    | none => exact ⟨rfl, nofun⟩
    | some a =>
      obtain ⟨http, ws, t⟩ := a
      cases ws with
      | none => exact ⟨rfl, nofun⟩
      | some hs =>
        simp only [localConfig, wsConfig, AppConfig.wsHandlers, Option.bind_some,
          Option.getD_some, List.map_map]
        exact pairwise_map _ _ hs fun h => ⟨⟨rfl, rfl, rfl⟩, rfl, rfl, rfl⟩
  · cases consumers with
    | none => exact ⟨rfl, nofun⟩
    | some cs =>
      have : (consumerConfig ⟨api, some cs, schedules⟩).map (LocalConsumer.encode (F := F)) =
          (AppConfig.consumerHandlers ⟨api, some cs, schedules⟩).map fun p =>
            LocalConsumer.encode ⟨p.2.name,
              "source".toList ++ sep ++ p.1.sourceId ++ sep ++ p.2.name, p.1.sourceId,
              p.2.timeout, p.2.tracingEnabled⟩ := by
        simp only [consumerConfig, AppConfig.consumerHandlers, Option.getD_some, List.map_flatMap,
          List.map_map]
        rfl
      simp only [localConfig, this]
      exact pairwise_map _ _ _ fun h => ⟨⟨rfl, rfl, rfl⟩, rfl, rfl⟩
  · cases schedules with
    | none => exact ⟨rfl, nofun⟩
    | some cs =>
      have : (scheduleConfig ⟨api, consumers, some cs⟩).map (LocalSchedule.encode (F := F)) =
          (AppConfig.scheduleHandlers ⟨api, consumers, some cs⟩).map fun p =>
            LocalSchedule.encode ⟨p.2.name,
              "source".toList ++ sep ++ p.1.scheduleId ++ sep ++ p.2.name, p.1.scheduleValue,
              p.2.timeout, p.2.tracingEnabled⟩ := by
        simp only [scheduleConfig, AppConfig.scheduleHandlers, Option.getD_some, List.map_flatMap,
          List.map_map]
        rfl
      simp only [localConfig, this]
      exact pairwise_map _ _ _ fun h => ⟨⟨rfl, rfl, rfl⟩, rfl, rfl⟩

theorem pairwise_of_map {A B C : Type} (R : A → C → Prop) (w : B → C) (as : List A) (l : List B)
    (h : Pairwise R as (l.map w)) : Pairwise (fun a b => R a (w b)) as l := by
  refine ⟨by simpa using h.1, ?_⟩
  intro i a b ha hb
  exact h.2 i a (w b) ha (by rw [List.getElem?_map, hb]; rfl)

/-- C102, from the blueprint: the handlers served are those collected from the blueprint (what these
are is the subject of C12), in their order. -/
theorem config_serves {F : Type} (a : Transform.ApiConfig) :
    (get (F := F) (localConfig (appConfig (some a))).encode "appConfig").bind
      (get · "tracingEnabled") = some (.bool a.tracingEnabled) ∧
    (∃ l, handlers (F := F) (localConfig (appConfig (some a))).encode "http" = some l ∧
      Pairwise (fun v h => get v "path" = some (.str h.path) ∧
        get v "method" = some (.str h.method) ∧ get v "timeout" = some (.int h.timeout) ∧
        get v "tracingEnabled" = some (.bool h.tracingEnabled)) l (a.http.getD [])) ∧
    (∃ l, handlers (F := F) (localConfig (appConfig (some a))).encode "websocket" = some l ∧
      Pairwise (fun v h => get v "route" = some (.str h.route) ∧
        get v "routeKey" = some (.str h.routeKey) ∧ get v "timeout" = some (.int h.timeout) ∧
        get v "tracingEnabled" = some (.bool h.tracingEnabled)) l
        (match a.websocket with | some w => w.1 | none => [])) ∧
    handlers (F := F) (localConfig (appConfig (some a))).encode "consumer" = some [] ∧
    handlers (F := F) (localConfig (appConfig (some a))).encode "schedule" = some [] := by
  obtain ⟨h1, ⟨l, hl, hp⟩, ⟨l', hl', hp'⟩, -, -⟩ := config_lists (F := F) (appConfig (some a))
  refine ⟨h1, ⟨l, hl, ?_⟩, ⟨l', hl', ?_⟩, rfl, rfl⟩
  · obtain ⟨http, ws, t⟩ := a
    cases http with
    | none => exact ⟨hp.1, fun i x y _ hy => by cases hy⟩
    | some hs =>
      have := pairwise_of_map _ _ _ hs hp
      refine ⟨this.1, fun i x y hx hy => ?_⟩
      obtain ⟨⟨_, r2, r3⟩, r4, r5, _⟩ := this.2 i x y hx hy
      exact ⟨r4, r5, r2, r3⟩
  · obtain ⟨http, ws, t⟩ := a
    cases ws with
    | none => exact ⟨hp'.1, fun i x y _ hy => by cases hy⟩
    | some hs =>
      have := pairwise_of_map _ _ _ hs.1 hp'
      refine ⟨this.1, fun i x y hx hy => ?_⟩
      obtain ⟨⟨_, r2, r3⟩, r4, r5, _⟩ := this.2 i x y hx hy
      exact ⟨r5, r4, r2, r3⟩

/-- An application with a handler for messages. -/
def sampleApp : AppConfig where
  api := some ⟨some [⟨"o".toList, "/orders".toList, "get".toList, [], [], 30, true⟩], none, true⟩
  consumers := some [⟨"queue1".toList, [⟨"p".toList, [], [], 30, false⟩]⟩]
  schedules := none

example : ∀ api hs, sampleApp.api = some api → api.http = some hs →
    ∀ x ∈ hs, ∃ n ∈ methods, x.method = n.toList := by
  intro api hs h1 h2 x hx
  injection h1 with h1
  subst h1
  injection h2 with h2
  subst h2
  rw [List.mem_singleton] at hx
  subst hx
  exact ⟨"get", by decide, rfl⟩

example : (localConfig sampleApp).tags =
    ["get::/orders".toList, "source::queue1::p".toList] := by decide

/-! ## C103: the configuration names the handlers -/

/-- Full statement of C103: of the handlers of an application no two have the same name. -/
def FullNames : Prop :=
  ∀ (F : Type) (showF : F → Str) (bp : Transform.Blueprint F) (n : Option Str)
    (cfg : Transform.ApiConfig), Transform.collectApiConfig showF bp n = .ok cfg →
    ((httpConfig (appConfig (some cfg))).map (·.handlerName) ++
      (wsConfig (appConfig (some cfg))).map (·.handlerName)).Nodup

/-- None of the handlers of an application set up from a blueprint has a name. -/
theorem names_always_empty (api : Option Transform.ApiConfig) :
    (∀ h ∈ httpConfig (appConfig api), h.handlerName = []) ∧
    (∀ h ∈ wsConfig (appConfig api), h.handlerName = []) := by
  cases api with
  | none => exact ⟨nofun, nofun⟩
  | some a =>
    obtain ⟨http, ws, t⟩ := a
    constructor
    · cases http with
      | none => nofun
      | some hs =>
        intro h hh
        simp only [appConfig, httpConfig, Option.map_some, List.map_map] at hh
        obtain ⟨x, _, rfl⟩ := List.mem_map.mp hh
        rfl
    · cases ws with
      | none => nofun
      | some hs =>
        intro h hh
        simp only [appConfig, wsConfig, Option.map_some, List.map_map] at hh
        obtain ⟨x, _, rfl⟩ := List.mem_map.mp hh
        rfl

/-- C103 is false of the code: of any two handlers of an application both names are empty. -/
theorem names_violated : ¬ FullNames := by
  intro h
  have hc : ∃ cfg, Transform.collectApiConfig (fun _ => []) Transform.exampleBlueprint none =
      .ok cfg ∧ (httpConfig (appConfig (some cfg))).map (·.handlerName) = [[], []] ∧
      (wsConfig (appConfig (some cfg))).map (·.handlerName) = [] := ⟨_, rfl, rfl, rfl⟩
  obtain ⟨cfg, h1, h2, h3⟩ := hc
  have := h Unit _ _ _ _ h1
  rw [h2, h3] at this
  revert this
  decide

/-- C103, partial: the names of an application whose configuration has names are all there, and
distinct when they are. -/
theorem names_partial (c : AppConfig)
    (h : (c.httpHandlers.map (·.name) ++ c.wsHandlers.map (·.name)).Nodup) :
    ((httpConfig c).map (·.handlerName) ++ (wsConfig c).map (·.handlerName)).Nodup := by
  have h1 : (httpConfig c).map (·.handlerName) = c.httpHandlers.map (·.name) := by
    obtain ⟨api, _, _⟩ := c
    cases api with
    | none => rfl
    | some a =>
      obtain ⟨http, _, _⟩ := a
      cases http with
      | none => rfl
      | some hs => simp [httpConfig, AppConfig.httpHandlers]
  have h2 : (wsConfig c).map (·.handlerName) = c.wsHandlers.map (·.name) := by
    obtain ⟨api, _, _⟩ := c
    cases api with
    | none => rfl
    | some a =>
      obtain ⟨_, ws, _⟩ := a
      cases ws with
      | none => rfl
      | some hs => simp [wsConfig, AppConfig.wsHandlers]
  rwa [h1, h2]

example : sampleApp.httpHandlers.map (·.name) ++ sampleApp.wsHandlers.map (·.name) =
    ["o".toList] := rfl

/-! ## C104: tags tell handlers apart -/

/-- Handlers differ in what triggers them: for each kind, no two have the same trigger. -/
structure Distinct (c : AppConfig) : Prop where
  http : (c.httpHandlers.map fun h => (h.method, h.path)).Nodup
  ws : (c.wsHandlers.map fun h => (h.routeKey, h.route)).Nodup
  consumer : (c.consumerHandlers.map fun h => (h.1.sourceId, h.2.name)).Nodup
  schedule : (c.scheduleHandlers.map fun h => (h.1.scheduleId, h.2.name)).Nodup

/-- Full statement of C104: different handlers have different tags. -/
def FullTags : Prop := ∀ c : AppConfig, Distinct c → (localConfig c).tags.Nodup

/-- A queue and a schedule with the same identifier, and a handler of the same name for each. -/
def clash : AppConfig where
  api := none
  consumers := some [⟨"orders".toList, [⟨"process".toList, [], [], 30, false⟩]⟩]
  schedules := some [⟨"orders".toList, "rate(1h)".toList, [⟨"process".toList, [], [], 30, false⟩]⟩]

example : Distinct clash := ⟨by decide, by decide, by decide, by decide⟩

/-- C104 is false of the code: queues and schedules share their tags. -/
theorem tags_violated : ¬ FullTags := fun h =>
  absurd (h clash ⟨by decide, by decide, by decide, by decide⟩) (by decide)

/-- Nor are the tags of the queues alone all different. -/
theorem tags_violated_queues : ∃ c : AppConfig, Distinct c ∧ c.api = none ∧ c.schedules = none ∧
    ¬ (localConfig c).tags.Nodup :=
  ⟨⟨none, some [⟨"a::b".toList, [⟨"c".toList, [], [], 30, false⟩]⟩,
      ⟨"a".toList, [⟨"b::c".toList, [], [], 30, false⟩]⟩], none⟩,
    ⟨by decide, by decide, by decide, by decide⟩, rfl, rfl, by decide⟩

theorem sep_left {a b c d : Str} (ha : ':' ∉ a) (hc : ':' ∉ c)
    (h : a ++ sep ++ b = c ++ sep ++ d) : a = c ∧ b = d := by
  have hs : sep = [':', ':'] := by decide
  rw [hs] at h
  induction a generalizing c with
  | nil =>
    cases c with
    | nil => exact ⟨rfl, by simpa using h⟩
    | cons x c =>
      injection h with h
      exact absurd (by simp [← h]) hc
  | cons x a ih =>
    cases c with
    | nil =>
      injection h with h
      exact absurd (by simp [h]) ha
    | cons y c =>
      injection h with h1 h2
      obtain ⟨h3, h4⟩ := ih (fun hm => ha (List.mem_cons_of_mem _ hm))
        (fun hm => hc (List.mem_cons_of_mem _ hm)) h2
      exact ⟨by rw [h1, h3], h4⟩

theorem sep_right {a b c d : Str} (hb : ':' ∉ b) (hd : ':' ∉ d)
    (h : a ++ sep ++ b = c ++ sep ++ d) : a = c ∧ b = d := by
  have h' := congrArg List.reverse h
  simp only [List.reverse_append] at h'
  have hs : sep.reverse = sep := by decide
  rw [hs, ← List.append_assoc, ← List.append_assoc] at h'
  obtain ⟨h1, h2⟩ := sep_left (by simpa using hb) (by simpa using hd) h'
  exact ⟨List.reverse_inj.mp h2, List.reverse_inj.mp h1⟩

theorem nodup_map_of_inj {A B C : Type} (f : A → B) (g : A → C) (l : List A)
    (h : (l.map f).Nodup) (hi : ∀ a ∈ l, ∀ b ∈ l, g a = g b → f a = f b) : (l.map g).Nodup := by
  induction l with
  | nil => exact List.nodup_nil
  | cons x l ih =>
    simp only [List.map_cons, List.nodup_cons, List.mem_map, not_exists, not_and] at h ⊢
    refine ⟨fun a ha hg => h.1 a ha (hi a (by simp [ha]) x (by simp) hg), ih h.2 ?_⟩
    exact fun a ha b hb => hi a (by simp [ha]) b (by simp [hb])

/-- C104, partial: within each kind tags tell the handlers apart, when methods, route keys and the
names of handlers have no colon in them. -/
theorem tags_partial (c : AppConfig) (h : Distinct c)
    (hm : ∀ x ∈ c.httpHandlers, ':' ∉ x.method) (hk : ∀ x ∈ c.wsHandlers, ':' ∉ x.routeKey)
    (hc : ∀ x ∈ c.consumerHandlers, ':' ∉ x.2.name)
    (hs : ∀ x ∈ c.scheduleHandlers, ':' ∉ x.2.name) :
    ((httpConfig c).map (·.handlerTag)).Nodup ∧ ((wsConfig c).map (·.handlerTag)).Nodup ∧
    ((consumerConfig c).map (·.handlerTag)).Nodup ∧
    ((scheduleConfig c).map (·.handlerTag)).Nodup := by
  have e1 : (httpConfig c).map (·.handlerTag) =
      c.httpHandlers.map fun x => x.method ++ sep ++ x.path := by
    obtain ⟨api, _, _⟩ := c
    cases api with
    | none => rfl
    | some a =>
      obtain ⟨http, _, _⟩ := a
      cases http with
      | none => rfl
      | some hs => simp [httpConfig, AppConfig.httpHandlers]
  have e2 : (wsConfig c).map (·.handlerTag) =
      c.wsHandlers.map fun x => x.routeKey ++ sep ++ x.route := by
    obtain ⟨api, _, _⟩ := c
    cases api with
    | none => rfl
    | some a =>
      obtain ⟨_, ws, _⟩ := a
      cases ws with
      | none => rfl
      | some hs => simp [wsConfig, AppConfig.wsHandlers]
  have e3 : (consumerConfig c).map (·.handlerTag) =
      c.consumerHandlers.map fun x => "source".toList ++ sep ++ x.1.sourceId ++ sep ++ x.2.name := by
    obtain ⟨_, consumers, _⟩ := c
    cases consumers with
    | none => rfl
    | some cs =>
      simp only [consumerConfig, AppConfig.consumerHandlers, Option.getD_some, List.map_flatMap,
        List.map_map]
      rfl
  have e4 : (scheduleConfig c).map (·.handlerTag) =
      c.scheduleHandlers.map fun x =>
        "source".toList ++ sep ++ x.1.scheduleId ++ sep ++ x.2.name := by
    obtain ⟨_, _, schedules⟩ := c
    cases schedules with
    | none => rfl
    | some cs =>
      simp only [scheduleConfig, AppConfig.scheduleHandlers, Option.getD_some, List.map_flatMap,
        List.map_map]
      rfl
  rw [e1, e2, e3, e4]
  refine ⟨nodup_map_of_inj _ _ _ h.http ?_, nodup_map_of_inj _ _ _ h.ws ?_,
    nodup_map_of_inj _ _ _ h.consumer ?_, nodup_map_of_inj _ _ _ h.schedule ?_⟩
  · intro a ha b hb hab
    obtain ⟨h1, h2⟩ := sep_left (hm a ha) (hm b hb) hab
    rw [h1, h2]
  · intro a ha b hb hab
    obtain ⟨h1, h2⟩ := sep_left (hk a ha) (hk b hb) hab
    rw [h1, h2]
  · intro a ha b hb hab
    obtain ⟨h1, h2⟩ := sep_right (hc a ha) (hc b hb) hab
    rw [List.append_cancel_left h1, h2]
  · intro a ha b hb hab
    obtain ⟨h1, h2⟩ := sep_right (hs a ha) (hs b hb) hab
    rw [List.append_cancel_left h1, h2]

example : Distinct sampleApp ∧ (∀ x ∈ sampleApp.httpHandlers, ':' ∉ x.method) ∧
    (∀ x ∈ sampleApp.consumerHandlers, ':' ∉ x.2.name) :=
  ⟨⟨by decide, by decide, by decide, by decide⟩, by decide, by decide⟩

/-! ## C105: the workflow that runs is the one of the blueprint -/

/-- Full statement of C105: the workflow collected is one of those in the blueprint. -/
def FullWorkflow (F : Type) : Prop :=
  ∀ (b : Blueprint.ResConfig F) (c : WorkflowConfig F), collectWorkflow b = some c →
    ∃ r ∈ b.resources, r.2.spec = some (.workflow c.workflow)

/-- A blueprint with a workflow of one state. -/
def workflowBlueprint (F : Type) : Blueprint.ResConfig F where
  resources := [("flow".toList, ⟨.workflow, ⟨[], none, none⟩, none, none,
    some (.workflow ⟨"end".toList, []⟩)⟩)]

/-- C105 is false of the code. -/
theorem workflow_violated (F : Type) : ¬ FullWorkflow F := by
  intro h
  obtain ⟨r, hr, hs⟩ := h (workflowBlueprint F) _ rfl
  rw [workflowBlueprint, List.mem_singleton] at hr
  subst hr
  injection hs with hs
  injection hs with hs
  injection hs with hs
  cases hs

/-- The workflow collected never has a state, nor a handler. -/
theorem workflow_always_empty {F : Type} (b : Blueprint.ResConfig F) (c : WorkflowConfig F)
    (h : collectWorkflow b = some c) :
    c.workflow.states = [] ∧ c.workflow.startAt = [] ∧ c.stateHandlers = none := by
  unfold collectWorkflow at h
  split at h
  · cases h
  · injection h with h
    subst h
    exact ⟨rfl, rfl, rfl⟩

/-- C105, partial: a workflow is collected exactly for blueprints with a workflow. -/
theorem workflow_partial {F : Type} (b : Blueprint.ResConfig F) :
    (collectWorkflow b).isSome ↔ ∃ r ∈ b.resources, r.2.type = .workflow := by
  unfold collectWorkflow
  split
  · rename_i h
    rw [List.find?_eq_none] at h
    constructor
    · nofun
    · rintro ⟨r, hr, ht⟩
      exact absurd (decide_eq_true ht) (h r hr)
  · rename_i r h
    exact ⟨fun _ => ⟨r, List.mem_of_find?_eq_some h, by simpa using List.find?_some h⟩,
      fun _ => rfl⟩

example (F : Type) : (collectWorkflow (workflowBlueprint F)).isSome := rfl

/-! ## C106: the configuration of the workflow runtime lists the handlers -/

/-- A handler for a state, as read from the configuration. -/
def ReadsState {F : Type} (v : Json F) (h : StateHandler) : Prop :=
  ReadsHandler v h.name h.timeout h.tracingEnabled ∧ get v "state" = some (.str h.state) ∧
  get v "handlerTag" = some (.str ("state::".toList ++ h.state))

/-- Full statement of C106: the handlers are found where the document has them. -/
def FullStateHandlers (F : Type) : Prop :=
  ∀ hs : List StateHandler, ∃ l, handlers (F := F) (workflowConfigJson (some hs)) "workflow" =
    some l ∧ Pairwise ReadsState l hs

/-- C106 is false of the code, for any handlers. -/
theorem state_handlers_violated (F : Type) : ¬ FullStateHandlers F := by
  intro h
  obtain ⟨l, hl, _⟩ := h []
  cases hl

/-- C106, partial: the handlers are all there, in their order and as documented, but elsewhere; and
their tags tell them apart when their states do. Tracing is said to be on, as it always is for
workflows, and without handlers there is an empty list. -/
theorem state_handlers_partial {F : Type} (hs : List StateHandler) :
    (∀ o, (get (F := F) (workflowConfigJson o) "appConfig").bind (get · "tracingEnabled") =
      some (.bool true)) ∧
    ((get (F := F) (workflowConfigJson none) "appConfig").bind (get · "state_handlers") =
      some (.arr [])) ∧
    (∃ l, (get (F := F) (workflowConfigJson (some hs)) "appConfig").bind (get · "state_handlers") =
      some (.arr l) ∧ Pairwise ReadsState l hs ∧ ∀ v ∈ l, StateHandlerDoc v) ∧
    ((hs.map (·.state)).Nodup → ((stateConfig (some hs)).map (·.handlerTag)).Nodup) := by
  refine ⟨fun _ => rfl, rfl, ?_, ?_⟩
  · refine ⟨_, rfl, ?_, ?_⟩
    · simp only [stateConfig, List.map_map]
      exact pairwise_map _ _ hs fun h => ⟨⟨rfl, rfl, rfl⟩, rfl, rfl⟩
    · intro v hv
      obtain ⟨x, _, rfl⟩ := List.mem_map.mp hv
      exact ⟨_, rfl, of_decide_eq_true rfl, rec_some rfl ⟨_, rfl⟩ <| rec_some rfl ⟨_, rfl⟩ <|
        rec_some rfl ⟨_, rfl⟩ <| rec_some rfl ⟨_, rfl⟩ <| rec_some rfl ⟨_, rfl⟩ rec_nil⟩
  · intro h
    simp only [stateConfig, List.map_map]
    exact nodup_map_of_inj _ _ hs h fun a _ b _ hab => List.append_cancel_left hab

example : ((stateConfig (some [⟨"a".toList, [], [], [], 5, true⟩, ⟨"b".toList, [], [], [], 5, true⟩])).map
    (·.handlerTag)) = ["state::a".toList, "state::b".toList] := by decide

/-! ## C107: steps of a workflow -/

/-- C107, first half: the event for a step is as documented when its input is an object, and has the
values of the step in any case. -/
theorem step_event {F : Type} (e : StepEvent F) :
    (Anything e.data → StepEventDoc e.encode) ∧
    get e.encode "id" = some (.str e.id) ∧ get e.encode "handlerTag" = some (.str e.handlerTag) ∧
    get e.encode "timestamp" = some (.int e.timestamp) ∧ get e.encode "data" = some e.data := by
  refine ⟨fun h => ?_, rfl, rfl, rfl, rfl⟩
  exact ⟨_, rfl, of_decide_eq_true rfl, rec_some rfl ⟨_, rfl⟩ <|
    rec_some rfl ⟨_, List.mem_singleton.mpr rfl, rfl⟩ <| rec_some rfl ⟨_, rfl⟩ <|
    rec_some rfl ⟨_, rfl⟩ <| rec_some rfl h rec_nil⟩

/-- C107, second half: every documented result of a step is understood exactly, whatever its
output. -/
theorem step_result {F : Type} (v : Json F) (h : ResultDoc (fun _ => True) v) :
    ∃ r, StepResult.decode v = some r ∧ get v "eventId" = some (.str r.eventId) ∧
      get v "data" = some r.data ∧ r.context = get v "context" := by
  obtain ⟨m, rfl, hn, hf⟩ := h
  obtain ⟨w1, h1, s, rfl⟩ := rec_req hf 0 rfl
  obtain ⟨d, h2, hd⟩ := rec_req hf 1 rfl
  cases h3 : m.lookup "context".toList with
  | none =>
    refine ⟨⟨s, d, none⟩, ?_, h1, h2, h3.symm⟩
    rw [StepResult.decode, entries_obj _ m hn, Option.bind_eq_bind, Option.bind_some, req_at _ h1,
      req_at _ h2, opt_none _ h3]
    rfl
  | some c =>
    obtain ⟨mc, rfl⟩ := rec_opt hf 2 rfl h3
    refine ⟨⟨s, d, some (.obj mc)⟩, ?_, h1, h2, h3.symm⟩
    rw [StepResult.decode, entries_obj _ m hn, Option.bind_eq_bind, Option.bind_some, req_at _ h1,
      req_at _ h2, opt_at _ h3]
    rfl

example (F : Type) : ResultDoc (F := F) (fun _ => True)
    (.obj [("data".toList, .arr [.int 1]), ("eventId".toList, .str "e-1".toList)]) :=
  ⟨_, rfl, of_decide_eq_true rfl, rec_some rfl ⟨_, rfl⟩ <| rec_some rfl trivial <|
    rec_none rfl rec_nil⟩

/-! ## C108: messages between nodes -/

/-- C108: what one node publishes, another node gets. -/
theorem cluster_message {F : Type} (w : Wrapped) : Wrapped.decode (F := F) w.encode = some w :=
  w.decode_encode

/-- C108: a message for a client and an acknowledgement are never mistaken for each other, nor are
two different messages. -/
theorem cluster_message_injective {F : Type} (w w' : Wrapped)
    (h : w.encode (F := F) = w'.encode) : w = w' := by
  have := cluster_message (F := F) w
  rw [h, cluster_message] at this
  injection this with this
  exact this.symm

example (F : Type) : Wrapped.decode (F := F) (Wrapped.encode
    ⟨"node-1".toList, .ws ⟨"c-1".toList, "node-1".toList, some ["c-2".toList], "m-1".toList,
      "hello".toList⟩⟩) = some ⟨"node-1".toList, .ws ⟨"c-1".toList, "node-1".toList,
        some ["c-2".toList], "m-1".toList, "hello".toList⟩⟩ := cluster_message _

end Verif.Wire
