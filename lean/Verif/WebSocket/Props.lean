import Verif.WebSocket.Lemmas

/-!
# Properties of the WebSocket endpoint (C15 - C18, C52, C54)
-/

namespace Verif.WebSocket

open Spec

variable {H : Type}

/-! ## C15 -/

/-- **C15.** A text message never ends the connection, is dispatched at most once, and exactly to the
handler registered for the string found under the route key of the JSON object, with the complete
message as data. -/
theorem text_routed (e : Endpoint H) (id text : String)
    (hk : ∀ v, e.parse text = some v → KeysDistinct v) :
    ∃ ds, processMessage e id (.text text) = .ok (.cont (), ds) ∧ ds.length ≤ 1 ∧
      ∀ d, d ∈ ds ↔ ∃ v route h, e.parse text = some v ∧ Names e.routeKey v route ∧
        e.routes route = some h ∧ d = ⟨h, id, .json v⟩ := by
  cases hp : e.parse text with
  | none => exact ⟨[], by simp [processMessage, resolveRoute, hp]⟩
  | some v =>
    have hkv := hk v hp
    have none_case : (∀ route, ¬ Names e.routeKey v route) →
        resolveRoute e text = .cont none →
        ∃ ds, processMessage e id (.text text) = .ok (.cont (), ds) ∧ ds.length ≤ 1 ∧
          ∀ d, d ∈ ds ↔ ∃ v' route h, some v = some v' ∧ Names e.routeKey v' route ∧
            e.routes route = some h ∧ d = ⟨h, id, .json v'⟩ := by
      intro hno hr
      refine ⟨[], by simp [processMessage, hr], by simp, ?_⟩
      intro d
      simp only [List.not_mem_nil, false_iff]
      rintro ⟨v', route, h, hv, hn, _⟩
      simp only [Option.some.injEq] at hv
      subst hv
      exact hno route hn
    cases v with
    | obj fields =>
      simp only [KeysDistinct] at hkv
      cases hl : fields.lookup e.routeKey with
      | none =>
        apply none_case
        · rintro route ⟨fs, hfs, hm⟩
          simp only [Json.obj.injEq] at hfs
          subst hfs
          rw [lookup_of_mem _ _ _ hkv hm] at hl
          simp at hl
        · simp [resolveRoute, hp, hl]
      | some x =>
        cases x with
        | str route =>
          have hr : resolveRoute e text = .cont (some (route, .obj fields)) := by
            simp [resolveRoute, hp, hl]
          have huniq : ∀ r, Names e.routeKey (.obj fields) r → r = route := by
            rintro r ⟨fs, hfs, hm⟩
            simp only [Json.obj.injEq] at hfs
            subst hfs
            rw [lookup_of_mem _ _ _ hkv hm] at hl
            simpa using hl
          have hname : Names e.routeKey (.obj fields) route :=
            ⟨fields, rfl, lookup_mem _ _ _ hl⟩
          cases hroute : e.routes route with
          | none =>
            refine ⟨[], by simp [processMessage, hr, hroute], by simp, ?_⟩
            intro d
            simp only [List.not_mem_nil, false_iff]
            rintro ⟨v', r, h, hv, hn, hh, _⟩
            simp only [Option.some.injEq] at hv
            subst hv
            rw [huniq r hn, hroute] at hh
            simp at hh
          | some h =>
            refine ⟨[⟨h, id, .json (.obj fields)⟩], by simp [processMessage, hr, hroute], by simp, ?_⟩
            intro d
            simp only [List.mem_singleton]
            constructor
            · rintro rfl
              exact ⟨_, route, h, rfl, hname, hroute, rfl⟩
            · rintro ⟨v', r, h', hv, hn, hh, rfl⟩
              simp only [Option.some.injEq] at hv
              subst hv
              rw [huniq r hn, hroute] at hh
              simp only [Option.some.injEq] at hh
              rw [hh]
        | _ =>
          apply none_case
          · rintro route ⟨fs, hfs, hm⟩
            simp only [Json.obj.injEq] at hfs
            subst hfs
            rw [lookup_of_mem _ _ _ hkv hm] at hl
            simp at hl
          · simp [resolveRoute, hp, hl]
    | _ =>
      apply none_case
      · rintro route ⟨fs, hfs, _⟩
        simp at hfs
      · simp [resolveRoute, hp]

/-- An endpoint with one route `hello`, routing by `event`. -/
def exampleEndpoint : Endpoint Nat where
  parse t := if t = "m" then some (.obj [("x", .null), ("event", .str "hello")]) else none
  utf8 b := if b = [104, 105] then some "hi" else none
  routes r := if r = "hello" then some 7 else if r = "hi" then some 8 else none
  routeKey := "event"

example : ∃ v, exampleEndpoint.parse "m" = some v ∧ KeysDistinct v ∧
    Names "event" v "hello" ∧ exampleEndpoint.routes "hello" = some 7 := by
  refine ⟨_, rfl, ?_, ⟨_, rfl, ?_⟩, rfl⟩
  · simp [KeysDistinct]
  · simp

/-! ## C16 -/

/-- **C16.** A frame built from a route of at most 255 bytes and a payload is decoded to exactly
that route and payload and dispatched to the handler of the route. -/
theorem binary_roundtrip (e : Endpoint H) (id : String) (routeBytes payload : Bytes)
    (route : String) (hlen : routeBytes.length ≤ 255) (hu : e.utf8 routeBytes = some route) :
    resolveBinaryRoute e (frame routeBytes payload) = .ok (.cont (some (route, payload))) ∧
    processMessage e id (.binary (frame routeBytes payload)) =
      .ok (.cont (), (match e.routes route with
        | some h => [⟨h, id, .binary payload⟩]
        | none => [])) := by
  have hn : (UInt8.ofNat routeBytes.length).toNat = routeBytes.length := by
    simp only [UInt8.toNat_ofNat']
    omega
  have hr : resolveBinaryRoute e (frame routeBytes payload) =
      .ok (.cont (some (route, payload))) := by
    show resolveBinaryRoute e (UInt8.ofNat routeBytes.length :: (routeBytes ++ payload)) = _
    rw [resolveBinaryRoute_cons, hn]
    simp [hu]
  refine ⟨hr, ?_⟩
  simp only [processMessage, hr, Outcome.bind_ok]
  cases e.routes route <;> simp

/-- **C16.** A frame whose declared route length exceeds the frame is ignored, as is a route that is
not UTF-8. -/
theorem binary_ignored (e : Endpoint H) (id : String) (n : UInt8) (rest : Bytes)
    (h : rest.length < n.toNat ∨ e.utf8 (rest.take n.toNat) = none) :
    processMessage e id (.binary (n :: rest)) = .ok (.cont (), []) := by
  simp only [processMessage, resolveBinaryRoute_cons]
  split
  · simp
  · rename_i h1
    rcases h with h | h
    · exact absurd h h1
    · simp [h]

/-- C16 in full: decoding never crashes the connection task. -/
def FullBinaryTotal : Prop :=
  ∀ (e : Endpoint Nat) (id : String) (b : Bytes), processMessage e id (.binary b) ≠ .panic

/-- **C16 fails** for the empty frame, whatever the configuration. -/
theorem binary_total_violated : ¬ FullBinaryTotal :=
  fun h => h exampleEndpoint "c" [] rfl

/-- **C16, the part that holds:** every frame except the empty one is decoded without a crash and
without ending the connection. Missing: the empty frame. -/
theorem binary_total_partial (e : Endpoint H) (id : String) (b : Bytes) (h : b ≠ []) :
    ∃ ds, processMessage e id (.binary b) = .ok (.cont (), ds) ∧ ds.length ≤ 1 := by
  obtain ⟨n, rest, rfl⟩ := List.exists_cons_of_ne_nil h
  simp only [processMessage, resolveBinaryRoute_cons]
  split
  · exact ⟨[], by simp⟩
  · cases e.utf8 (rest.take n.toNat) with
    | none => exact ⟨[], by simp⟩
    | some route =>
      simp only [Outcome.bind_ok]
      cases e.routes route with
      | none => exact ⟨[], by simp⟩
      | some h => exact ⟨[⟨h, id, .binary (rest.drop n.toNat)⟩], by simp⟩

example : resolveBinaryRoute exampleEndpoint (frame [104, 105] [1, 2, 3]) =
    .ok (.cont (some ("hi", [1, 2, 3]))) :=
  (binary_roundtrip exampleEndpoint "c" [104, 105] [1, 2, 3] "hi" (by decide) rfl).1

/-! ## C17 -/

/-- C17 in full: when ids are not shared, the registry holds exactly the open connections. -/
def FullRegistered : Prop :=
  ∀ (e : Endpoint Nat) (ops : List Op), FreshSockets ops → FreshIds ops →
    ∀ id s, (run e ops).registry.lookup id = some s ↔ (s, id) ∈ opens ops

/-- A client connects, sends an empty binary frame and leaves. -/
def emptyFrameOps : List Op :=
  [.connect 1 none "c1", .recv 1 (.msg (.binary [])), .recv 1 .ended]

/-- **C17 fails.** After an empty binary frame the connection task is gone but its registration
stays for ever, also when the socket has been closed. -/
theorem registered_violated : ¬ FullRegistered := by
  intro h
  have := (h exampleEndpoint emptyFrameOps
    (freshSockets_of_check _ (by decide)) (freshIds_of_check _ (by decide)) "c1" 1).mp (by decide)
  revert this
  decide

/-- **C17, the part that holds.** If no client sends an empty binary frame and no id is given to two
open connections, then after every history of connects and received messages the registry maps an
id to a socket exactly when that socket is open and its client was given that id.

Missing: empty binary frames (`registered_violated`) and shared ids (C18). -/
theorem registered_partial (e : Endpoint H) (ops : List Op) (hs : FreshSockets ops)
    (hi : FreshIds ops) (hn : NoEmptyFrame ops) (id : String) (s : Sock) :
    (run e ops).registry.lookup id = some s ↔ (s, id) ∈ opens ops := by
  induction ops using snoc_induction generalizing id s with
  | nil => simp [run, Server.init, opens]
  | snoc ops op ih =>
    have hs' := freshSockets_prefix hs
    have hi' := freshIds_prefix hi
    have hn' : NoEmptyFrame ops := fun s hm => hn s (List.mem_append_left _ hm)
    have ih := ih hs' hi' hn'
    have htasks := tasks_eq e ops hs' hn'
    have hids := opens_ids_nodup ops hi'
    have hsocks := opens_nodup ops hs'
    rw [run_snoc, opens_snoc]
    cases op with
    | connect s' hd g =>
      have hfresh := hi ops s' hd g [] rfl
      simp only [step, requestId_given, List.mem_cons, Prod.mk.injEq]
      by_cases hid : id = givenId hd g
      · subst hid
        rw [lookup_insert_self]
        constructor
        · intro h; simp at h; exact Or.inl ⟨h.symm, rfl⟩
        · rintro (⟨h, _⟩ | h)
          · rw [h]
          · exact absurd (List.mem_map_of_mem (f := (·.2)) h) hfresh
      · rw [lookup_insert_ne _ _ _ _ hid, ih]
        simp [hid]
    | recv s' i =>
      have remove_case : ∀ id', (s', id') ∈ opens ops →
          ((mapRemove id' (run e ops).registry).lookup id = some s ↔
            (s, id) ∈ (opens ops).filter (fun o => o.1 != s')) := by
        intro id' hm
        simp only [mapRemove, List.mem_filter, bne_iff_ne, ne_eq]
        by_cases hid : id = id'
        · subst hid
          rw [lookup_filter_self]
          constructor
          · intro h; simp at h
          · rintro ⟨h, hne⟩
            -- two open sockets with the same id
            exfalso
            apply hne
            have h1 := (ih id s).mpr h
            have h2 := (ih id s').mpr hm
            rw [h1] at h2
            simpa using h2
        · rw [lookup_filter_ne _ _ _ hid, ih]
          constructor
          · intro h
            refine ⟨h, ?_⟩
            rintro rfl
            have h1 := lookup_of_mem _ _ _ hsocks h
            rw [lookup_of_mem _ _ _ hsocks hm] at h1
            simp at h1
            exact hid h1.symm
          · exact fun h => h.1
      simp only [step, htasks]
      cases hl : (opens ops).lookup s' with
      | none =>
        have : (opens ops).filter (fun o => o.1 != s') = opens ops := by
          rw [List.filter_eq_self]
          intro a ha
          simp only [bne_iff_ne, ne_eq]
          rintro rfl
          rw [lookup_of_mem a.1 _ a.2 hsocks ha] at hl
          simp at hl
        simp [this, ih]
      | some id' =>
        have hm := lookup_mem _ _ _ hl
        cases i with
        | msg m =>
          have hne : m ≠ .binary [] := by
            rintro rfl
            exact hn s' (by simp)
          obtain ⟨ds, hds⟩ := processMessage_flow e id' m hne
          simp only [hds]
          by_cases hc : m = .close
          · subst hc
            simpa [closes] using remove_case id' hm
          · have hcl : closes (.msg m) = false := by
              cases m <;> first | rfl | exact absurd rfl hc
            simp [hc, hcl, ih]
        | failed => simpa [closes] using remove_case id' hm
        | ended => simpa [closes] using remove_case id' hm

/-- Two clients; the first one leaves after a message. -/
def exampleOps : List Op :=
  [.connect 1 none "c1", .connect 2 (some "mine") "c2", .recv 1 (.msg (.text "m")),
    .recv 2 (.msg (.binary [9])), .recv 1 (.msg .close)]

example : FreshSockets exampleOps ∧ FreshIds exampleOps ∧
    opens exampleOps = [(2, "mine")] ∧ NoEmptyFrame exampleOps ∧
    (run exampleEndpoint exampleOps).registry = [("mine", 2)] ∧
    (run exampleEndpoint exampleOps).dispatched.length = 1 := by
  refine ⟨freshSockets_of_check _ (by decide), freshIds_of_check _ (by decide), by decide, ?_,
    by decide, by decide⟩
  intro s
  simp [exampleOps]

/-! ## C18 -/

/-- C18 in full: messages addressed to the id given to an open connection go to that connection. -/
def FullOwnConnection : Prop :=
  ∀ (e : Endpoint Nat) (ops : List Op), FreshSockets ops → NoEmptyFrame ops →
    ∀ s id, (s, id) ∈ opens ops → (run e ops).registry.lookup id = some s

/-- The second client asks for the id of the first one in its `x-request-id` header. -/
def takeoverOps : List Op := [.connect 1 none "victim", .connect 2 (some "victim") "g2"]

/-- **C18 fails.** A client can take over the connection of another one by asking for its id. -/
theorem own_connection_violated : ¬ FullOwnConnection := by
  intro h
  have := h exampleEndpoint takeoverOps (freshSockets_of_check _ (by decide)) (by intro s; simp [takeoverOps]) 1 "victim"
    (by decide)
  revert this
  decide

/-- The takeover is final: when the intruder leaves, messages to the first client, still connected,
go nowhere. -/
theorem takeover_disconnects_victim :
    (1, "victim") ∈ opens (takeoverOps ++ [.recv 2 .ended]) ∧
    (run exampleEndpoint (takeoverOps ++ [.recv 2 .ended])).registry.lookup "victim" = none := by
  decide

/-- **C18, the part that holds.** Whatever state the server is in, an operation of another client
does not change where messages for `id` go, unless that client has the same id: it asks for it when
connecting, or its running task already has it. -/
theorem own_connection_partial (e : Endpoint H) (st : Server H) (op : Op) (id : String)
    (h : match op with
      | .connect _ hd g => givenId hd g ≠ id
      | .recv s _ => st.tasks.lookup s ≠ some id) :
    (step e st op).registry.lookup id = st.registry.lookup id := by
  cases op with
  | connect s hd g =>
    simp only at h
    simp only [step, requestId_given]
    exact lookup_insert_ne _ _ _ _ (Ne.symm h)
  | recv s i =>
    simp only at h
    simp only [step]
    cases hl : st.tasks.lookup s with
    | none => rfl
    | some id' =>
      have hne : id ≠ id' := by
        rintro rfl
        exact h hl
      cases i with
      | msg m =>
        simp only
        split
        · rfl
        · exact lookup_filter_ne _ _ _ hne
        · rfl
        · rfl
      | failed => exact lookup_filter_ne _ _ _ hne
      | ended => exact lookup_filter_ne _ _ _ hne

/-- **C18, the part that holds.** If no two open connections share an id, in particular when clients
do not choose ids and generated ids do not repeat, every message goes to the client given the
id. -/
theorem own_connection_unique_partial (e : Endpoint H) (ops : List Op) (hs : FreshSockets ops)
    (hi : FreshIds ops) (hn : NoEmptyFrame ops) (s : Sock) (id : String)
    (h : (s, id) ∈ opens ops) : (run e ops).registry.lookup id = some s :=
  (registered_partial e ops hs hi hn id s).mpr h

example : (step exampleEndpoint (run exampleEndpoint takeoverOps) (.connect 3 none "c3")).registry.lookup
    "victim" = some 2 := by decide

/-! ## C52: the batch endpoint -/

/-- C52 in full: when the batch endpoint answers with success, every message has been written to its
connection, in order. -/
def FullBatch : Prop :=
  ∀ (registry : List (String × Sock)) (writable : Sock → Bool) (ms : List OutMsg),
    (sendBatch registry writable ms).2 = true →
      ∀ m ∈ ms, ∃ s, registry.lookup m.connectionId = some s ∧
        (s, m.message) ∈ (sendBatch registry writable ms).1

/-- **C52 fails.** A message for an unknown connection is dropped and reported as sent. -/
theorem batch_violated : ¬ FullBatch := by
  intro h
  obtain ⟨s, hs, _⟩ := h [] (fun _ => true) [⟨"gone", "hi"⟩] rfl ⟨"gone", "hi"⟩ (by simp)
  simp at hs

/-- Where a message should be written, if its connection is registered. -/
def Spec.target (registry : List (String × Sock)) (m : OutMsg) : Option (Sock × String) :=
  (registry.lookup m.connectionId).map (fun s => (s, m.message))

/-- **C52, the part that holds.** The writes are, in order, those of the messages of registered
connections before the first failing write; the answer is success exactly when no write failed, and
then all of them have been performed.

Missing: messages for unknown connections are dropped silently. -/
theorem batch_partial (registry : List (String × Sock)) (writable : Sock → Bool)
    (ms : List OutMsg) :
    (sendBatch registry writable ms).1 =
      ((ms.filterMap (Spec.target registry)).takeWhile (fun w => writable w.1)) ∧
    ((sendBatch registry writable ms).2 = true ↔
      ∀ w ∈ ms.filterMap (Spec.target registry), writable w.1 = true) ∧
    ((sendBatch registry writable ms).2 = true →
      (sendBatch registry writable ms).1 = ms.filterMap (Spec.target registry)) := by
  induction ms with
  | nil => simp [sendBatch]
  | cons m ms ih =>
    obtain ⟨h1, h2, h3⟩ := ih
    cases hl : registry.lookup m.connectionId with
    | none =>
      simp [sendBatch, sendMessage, Spec.target, hl] at *
      exact ⟨h1, h2, h3⟩
    | some s =>
      cases hw : writable s with
      | true =>
        simp [sendBatch, sendMessage, Spec.target, hl, hw] at *
        exact ⟨h1, h2, h3⟩
      | false =>
        simp [sendBatch, sendMessage, Spec.target, hl, hw]

example : sendBatch [("a", 1), ("b", 2)] (fun s => s != 2)
    [⟨"a", "x"⟩, ⟨"zz", "lost"⟩, ⟨"b", "y"⟩, ⟨"a", "z"⟩] = ([(1, "x")], false) := by decide

/-! ## C54: configured handlers -/

/-- C54 in full: in the running server a message naming the route of a configured handler is
dispatched to it. -/
def FullConfigured : Prop :=
  ∀ (parse : String → Option Json) (utf8 : Bytes → Option String) (key : String)
    (configured : List (String × Nat)) (text : String) (v : Json) (route : String) (h : Nat)
    (id : String), (configured.map (·.1)).Nodup → (route, h) ∈ configured →
    parse text = some v → KeysDistinct v → Names key v route →
    ∃ ds, processMessage (serverEndpoint parse utf8 key configured) id (.text text) =
      .ok (.cont (), ds) ∧ ∃ d ∈ ds, d.handler = h

/-- In the running server no message is ever dispatched to any handler. -/
theorem server_never_dispatches (parse : String → Option Json) (utf8 : Bytes → Option String)
    (key : String) (configured : List (String × H)) (ops : List Op) :
    (run (serverEndpoint parse utf8 key configured) ops).dispatched = [] := by
  induction ops using snoc_induction with
  | nil => rfl
  | snoc ops op ih =>
    rw [run_snoc]
    have hds : ∀ id m f ds, processMessage (serverEndpoint parse utf8 key configured) id m =
        .ok (f, ds) → ds = [] := by
      intro id m f ds h
      have hroutes : ∀ r, (serverEndpoint parse utf8 key configured).routes r = none := fun _ => rfl
      cases m with
      | text t =>
        simp only [processMessage, hroutes] at h
        split at h <;> simp at h <;> exact h.2
      | binary b =>
        cases b with
        | nil => simp [processMessage, resolveBinaryRoute, byteAt] at h
        | cons n rest =>
          simp only [processMessage, resolveBinaryRoute_cons, hroutes] at h
          split at h
          · simp at h; exact h.2
          · split at h <;> simp at h <;> exact h.2
      | close => simp [processMessage] at h; exact h.2
      | ping => simp [processMessage] at h; exact h.2
      | pong => simp [processMessage] at h; exact h.2
    cases op with
    | connect s hd g => simpa [step] using ih
    | recv s i =>
      simp only [step]
      split
      · exact ih
      · split
        · split
          · rename_i heq; simp [ih, hds _ _ _ _ heq]
          · rename_i heq; simp [ih, hds _ _ _ _ heq]
          · exact ih
          · exact ih
        · exact ih
        · exact ih

/-- **C54 fails.** -/
theorem configured_violated : ¬ FullConfigured := by
  intro h
  obtain ⟨ds, hds, d, hd, _⟩ := h exampleEndpoint.parse exampleEndpoint.utf8 "event"
    [("hello", 7)] "m" _ "hello" 7 "c" (by decide) (by decide) rfl (by simp [KeysDistinct])
    ⟨_, rfl, by simp⟩
  have := hds.symm.trans (show processMessage (serverEndpoint exampleEndpoint.parse
    exampleEndpoint.utf8 "event" [("hello", 7)]) "c" (.text "m") = .ok (.cont (), []) from rfl)
  simp only [Outcome.ok.injEq, Prod.mk.injEq, true_and] at this
  rw [this] at hd
  simp at hd

/-- With the configured handlers as route table the same message is dispatched: what C54 asks for is
what `text_routed` gives for a filled table. -/
example : ∃ ds, processMessage { serverEndpoint exampleEndpoint.parse exampleEndpoint.utf8 "event"
      [("hello", 7)] with routes := fun r => [("hello", 7)].lookup r } "c" (.text "m") =
      .ok (.cont (), ds) ∧ ds.length = 1 := ⟨_, rfl, rfl⟩

end Verif.WebSocket
