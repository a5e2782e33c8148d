import Verif.Trace.Lemmas

/-!
# Property theorems about trace ids and the layers of the server (C134-C136)
-/

namespace Verif.Trace

open Spec

/-! ## C134: X-Ray trace ids -/

/-- The X-Ray id of a trace has the documented format and names the trace. -/
theorem xray_format {id : Nat} (h : id < 2 ^ 128) : Xray id (toXray id) := by
  refine ⟨hex 8 (id / 16 ^ 24), hex 24 id, ?_, ?_, ?_⟩
  · rw [toXray_parts]
    generalize hex 8 (id / 16 ^ 24) = t
    generalize hex 24 id = r
    have : "1-".toList = ['1', '-'] := rfl
    simp only [this, List.cons_append, List.nil_append, List.append_assoc]
  · have hp : (16 : Nat) ^ 24 = 2 ^ 96 := by decide
    have := digits_hex 8 (id / 16 ^ 24)
    rw [Nat.mod_eq_of_lt (by omega), hp] at this
    rw [hp]
    exact this
  · have hp : (16 : Nat) ^ 24 = 2 ^ 96 := by decide
    have := digits_hex 24 id
    rw [hp] at this
    exact this

/-- A text is the X-Ray id of at most one trace. -/
theorem xray_names {a b : Nat} {s : Str} (ha : Xray a s) (hb : Xray b s) : a = b := by
  obtain ⟨t, r, e, ⟨tl, _, tv⟩, ⟨rl, _, rv⟩⟩ := ha
  obtain ⟨t', r', e', ⟨tl', _, tv'⟩, ⟨rl', _, rv'⟩⟩ := hb
  rw [e, List.append_assoc, List.append_assoc, List.append_assoc, List.append_assoc] at e'
  have e' := List.append_cancel_left e'
  obtain ⟨h1, h2⟩ := List.append_inj e' (by rw [tl, tl'])
  have h2 := List.append_cancel_left h2
  subst h1 h2
  rw [tv] at tv'
  rw [rv] at rv'
  omega

/-- Reading the X-Ray id of a trace gives the trace. -/
theorem xray_roundtrip {id : Nat} (h0 : 0 < id) (h : id < 2 ^ 128) : ofXray (toXray id) = some id := by
  have hx : hex 8 (id / 16 ^ 24) ++ hex 24 id = hex 32 id := (hex_append 8 24 id).symm
  rw [ofXray, splitTerminator_toXray]
  dsimp only
  rw [hx, fromHex_hex 32 id (by decide) h h]
  dsimp only
  rw [if_neg (by omega)]

/-- The id that is not valid is refused. -/
theorem xray_zero : ofXray (toXray 0) = none := by decide +kernel

/-- Whatever is read is a valid trace id. -/
theorem xray_valid {s : Str} {id : Nat} (h : ofXray s = some id) : 0 < id ∧ id < 2 ^ 128 := by
  rw [ofXray] at h
  split at h
  next a b =>
    split at h
    next n hn =>
      split at h
      · cases h
      · cases h
        refine ⟨by omega, ?_⟩
        rw [fromHex] at hn
        split at hn
        · cases hn
        · split at hn
          · split at hn
            next hlt => cases hn; exact hlt
            next => cases hn
          · cases hn
    next => cases h
  next => cases h

/-- Reading accepts more than what is written: here another version, and too few digits. The field of
`XrayTraceId` is private, so that only texts that were written can be read. -/
theorem xray_lenient : ∃ s id, ofXray s = some id ∧ ¬ Xray id s := by
  refine ⟨"2-a-1".toList, 161, by decide +kernel, ?_⟩
  intro ⟨t, r, e, _⟩
  cases e

/-- The example of `aws_telemetry.rs` 11. -/
example : toXray 0x58406520a006649127e371903a2de979 = "1-58406520-a006649127e371903a2de979".toList := by
  decide +kernel

example : ofXray "1-58406520-a006649127e371903a2de979".toList =
    some 0x58406520a006649127e371903a2de979 :=
  xray_roundtrip (id := 0x58406520a006649127e371903a2de979) (by decide) (by decide)

/-! ## C135: what is recorded about requests -/

theorem id_is (visible : String → Bool) (a : Arrival) :
    IsId visible a.request a.fresh
      (WebSocket.requestId ((a.request.header "x-request-id").filter visible) a.fresh) := by
  rw [Incoming.header]
  cases h : a.request.headers.lookup "x-request-id" with
  | none => exact .inr ⟨fun v hv => (by rw [h] at hv; cases hv), rfl⟩
  | some v =>
    cases hv : visible v with
    | true =>
      refine .inl ⟨v, h, hv, ?_⟩
      rw [Option.filter_some, if_pos hv]
      rfl
    | false =>
      refine .inr ⟨fun v' hv' => ?_, ?_⟩
      · rw [h] at hv'
        cases hv'
        exact hv
      · rw [Option.filter_some, if_neg (by rw [hv]; decide)]
        rfl

/-- One request. -/
theorem server_one {visible : String → Bool} {aws tracing : Bool} {app : Service} (hq : Quiet app)
    (a : Arrival) (hb : a.trace < 2 ^ 128) (w : World) :
    ∃ ss, server visible a.fresh aws tracing a.trace app { toIncoming := a.request } w =
        (answer app a.request, ⟨w.spans ++ ss, w.log ++
          lines (if tracing then some w.spans.length else none) (answer app a.request)⟩) ∧
      (tracing = false → ss = []) ∧
      (tracing = true → ∃ s, ss = [s] ∧ Describes visible aws a s) := by
  have ha : ∀ r w, r.toIncoming = a.request → (app r w).1 = answer app a.request :=
    fun r w h => hq.2 _ _ _ _ h
  cases tracing with
  | false =>
    refine ⟨[], ?_, fun _ => rfl, nofun⟩
    refine Prod.ext ?_ ?_
    · exact ha _ _ rfl
    · show World.mk _ _ = _
      simp only [hq.1, List.append_nil, lines, List.append_assoc, Bool.false_eq_true, if_false]
      rw [ha _ _ rfl]
      rfl
  | true =>
    let id := WebSocket.requestId ((a.request.header "x-request-id").filter visible) a.fresh
    let agent := (a.request.header "user-agent").getD "Unknown User Agent"
    let s0 : Span := { trace := a.trace, method := a.request.method, path := a.request.path }
    let s : Span := enrich aws id a.request.peer agent s0
    have hm : (w.spans ++ [s0]).modify w.spans.length (enrich aws id a.request.peer agent) =
        w.spans ++ [s] := by
      rw [List.modify_eq_take_cons_drop (by simp)]
      simp [s]
    refine ⟨[s], ?_, nofun, fun _ => ⟨s, rfl, ?_⟩⟩
    · refine Prod.ext ?_ ?_
      · exact ha _ _ rfl
      · show World.mk _ _ = _
        simp only [hq.1, lines, List.append_assoc, if_true]
        rw [ha _ _ rfl]
        exact congrArg (World.mk · _) hm
    · refine ⟨rfl, rfl, rfl, rfl, ⟨id, id_is visible a, rfl, rfl⟩, rfl, ⟨_, rfl, ?_⟩, ?_, ?_⟩
      · have := digits_hex 32 a.trace
        rw [Nat.mod_eq_of_lt hb] at this
        exact this
      · rintro rfl
        exact ⟨_, rfl, xray_format hb⟩
      · rintro rfl
        rfl

/-- Requests that are served one after the other are answered as the router answers them. With tracing
each has a span that describes it, in order, and no other span is made; without tracing there are
no spans. Each leaves two lines in the log, in its span, with the status of its answer. -/
theorem recorded {visible : String → Bool} {aws tracing : Bool} {app : Service} (hq : Quiet app)
    (as : List Arrival) (hb : ∀ a ∈ as, a.trace < 2 ^ 128) (w : World) :
    (serveAll visible aws tracing app as w).1 = as.map (fun a => answer app a.request) ∧
    (∃ ss, (serveAll visible aws tracing app as w).2.spans = w.spans ++ ss ∧
      (tracing = false → ss = []) ∧ (tracing = true → AllDescribe visible aws as ss)) ∧
    (serveAll visible aws tracing app as w).2.log = w.log ++
      allLines tracing w.spans.length (serveAll visible aws tracing app as w).1 := by
  induction as generalizing w with
  | nil =>
    exact ⟨rfl, ⟨[], (List.append_nil _).symm, fun _ => rfl, fun _ => .nil⟩,
      (List.append_nil _).symm⟩
  | cons a as ih =>
    obtain ⟨ss, h, h1, h2⟩ := server_one (visible := visible) (aws := aws) (tracing := tracing) hq a
      (hb a (List.mem_cons_self ..)) w
    obtain ⟨i1, ⟨ss', i2, i3, i4⟩, i5⟩ := ih (fun b hb' => hb b (List.mem_cons_of_mem _ hb'))
      ⟨w.spans ++ ss, w.log ++ lines (if tracing then some w.spans.length else none)
        (answer app a.request)⟩
    simp only [serveAll, h]
    refine ⟨?_, ⟨ss ++ ss', ?_, ?_, ?_⟩, ?_⟩
    · rw [i1, List.map_cons]
    · rw [i2, List.append_assoc]
    · intro ht
      rw [h1 ht, i3 ht]
      rfl
    · intro ht
      obtain ⟨s, rfl, hs⟩ := h2 ht
      exact .cons hs (i4 ht)
    · rw [i5, allLines, List.append_assoc]
      cases tracing with
      | false =>
        congr 2
        generalize (serveAll visible aws false app as _).1 = l
        have : ∀ (l : List Nat) m n, allLines false m l = allLines false n l := by
          intro l
          induction l with
          | nil => intro _ _; rfl
          | cons s l ih => intro m n; rw [allLines, allLines, ih (m + 1) (n + 1)]; rfl
        exact this l _ _
      | true =>
        obtain ⟨s, rfl, _⟩ := h2 rfl
        rw [List.length_append]
        rfl

/-- A router that is quiet, and a request on AWS. -/
def demoApp : Service := fun r w => (if r.path = "/" then 200 else 404, w)

theorem demoApp_quiet : Quiet demoApp := by
  refine ⟨fun _ _ => rfl, ?_⟩
  intro r r' w w' h
  show (if r.toIncoming.path = "/" then 200 else 404) = (if r'.toIncoming.path = "/" then 200 else 404)
  rw [h]

/-- A request that comes with an id and with a trace. -/
def demoArrival : Arrival where
  request := {
    method := "GET", path := "/", peer := "1.2.3.4"
    headers := [("x-request-id", "r1"),
      ("x-amzn-trace-id", "Root=1-58406520-a006649127e371903a2de979")] }
  fresh := "n1"
  trace := 7

example : ((serveAll (fun _ => true) true true demoApp [demoArrival] ⟨[], []⟩).2.spans.map
    fun s => (s.requestId, s.xrayTraceId)) =
    [(some "r1", some "1-00000000-000000000000000000000007".toList)] := by decide +kernel

/-! ## C136: traces that go on -/

/-- C136 as stated: on AWS, a request that names the trace it belongs to is recorded in that trace. -/
def FullPropagation : Prop :=
  ∀ (visible : String → Bool) (app : Service), Quiet app → ∀ (a : Arrival) (id : Nat) (s : Str),
    0 < id → id < 2 ^ 128 → Xray id s →
    a.request.headers.lookup "x-amzn-trace-id" = some (String.ofList ("Root=".toList ++ s)) →
    ∀ w, ∃ span, (serveAll visible true true app [a] w).2.spans = w.spans ++ [span] ∧ span.trace = id

/-- The trace is always a new one, whatever the request says. -/
theorem propagation_never {visible : String → Bool} {aws : Bool} {app : Service} (hq : Quiet app)
    (a : Arrival) (hb : a.trace < 2 ^ 128) (w : World) :
    ∃ span, (serveAll visible aws true app [a] w).2.spans = w.spans ++ [span] ∧
      span.trace = a.trace := by
  obtain ⟨_, ⟨ss, h1, _, h2⟩, _⟩ := recorded (visible := visible) (aws := aws) (tracing := true) hq [a]
    (by intro b hb'; rw [List.mem_singleton.1 hb']; exact hb) w
  cases h2 rfl with
  | cons h hn =>
    cases hn
    exact ⟨_, h1, h.trace⟩

theorem propagation_violated : ¬ FullPropagation := by
  intro h
  obtain ⟨span, h1, h2⟩ := h (fun _ => true) demoApp demoApp_quiet demoArrival
    0x58406520a006649127e371903a2de979 (toXray 0x58406520a006649127e371903a2de979) (by decide)
    (by decide) (xray_format (by decide)) (by decide +kernel) ⟨[], []⟩
  obtain ⟨span', h3, h4⟩ := propagation_never (visible := fun _ => true) (aws := true) demoApp_quiet
    demoArrival (by decide) ⟨[], []⟩
  rw [h1] at h3
  injection h3 with h3
  rw [← h3, h2] at h4
  exact absurd h4 (by decide)

end Verif.Trace
