import Verif.RtConfig.Lemmas
import Verif.Sdk.Lemmas

/-!
# Properties of the runtime SDKs

C111 to C119.
-/

namespace Verif.Sdk

open Verif.Sdk.Spec Verif.Sdk.Lemmas Verif.RtConfig
open Verif.RtConfig.Spec (NamesMethod)

/-! ## C111: handlers see the request -/

/-- The bytes of an ASCII text. -/
def ascii (s : String) : List UInt8 := s.toList.map fun c => c.toNat.toUInt8

/-- A decoder for the examples: ASCII only. -/
def asciiText (b : List UInt8) : Option String := toStr b

/-- **C111, full statement.** The handler of a request sees its method, address, version, headers and
body. -/
def FullSees : Prop := ∀ (utf8 : List UInt8 → Option String) (q : Request), Sees utf8 q (fromAxum q)

/-- A request whose body is sent in chunks, without an announced length. -/
def chunked : Request :=
  ⟨"POST", "/orders", "HTTP/1.1", [("transfer-encoding", ascii "chunked")], .ok (ascii "{}")⟩

/-- **C111 is false of the code.** The body of a request without a `content-length` is lost: the
handler is told there is none. -/
theorem sees_violated : ¬ FullSees := by
  intro h
  have hb := (h asciiText chunked).2.2.2.2
  have h1 : (readBody asciiText (fromAxum chunked)).1 = .ok none := by
    have : contentLength chunked.headers = 0 :=
      contentLength_silent chunked (by
        intro b hb
        simp only [chunked, List.mem_singleton, Prod.mk.injEq] at hb
        exact absurd hb.1 (by decide))
    simp only [fromAxum, this, readBody]
    rfl
  rw [h1] at hb
  revert hb
  simp only [BodySeen, chunked]
  have : ascii "{}" = [123, 125] := by decide
  rw [this]
  dsimp only
  cases asciiText [123, 125] <;> simp

/-- Every request without an announced length loses its body. -/
theorem body_lost (utf8 : List UInt8 → Option String) (q : Request)
    (h : ∀ b, ("content-length", b) ∉ q.headers) : (readBody utf8 (fromAxum q)).1 = .ok none := by
  simp only [fromAxum, contentLength_silent q h, readBody]
  rfl

/-- A header with other bytes than visible ASCII makes asking for the headers panic. -/
theorem headers_panic (q : Request) (h : ∃ x ∈ q.headers, ¬ Visible x.2) :
    jsHeaders (fromAxum q) = .panic := collectHeaders_panic _ _ h

/-- Of two headers with the same name the handler sees the last only. -/
theorem headers_collapse (q : Request) (k : String) (b c : List UInt8) (hb : Visible b)
    (hc : Visible c) (hq : q.headers = [(k, b), (k, c)]) :
    ∃ s, jsHeaders (fromAxum q) = .ok [(k, s)] ∧ Shows c s := by
  have h1 := (toStr_iff b _).mpr ⟨hb, shows_ofNat b⟩
  have h2 := (toStr_iff c _).mpr ⟨hc, shows_ofNat c⟩
  refine ⟨_, ?_, shows_ofNat c⟩
  simp only [jsHeaders, fromAxum, hq, collectHeaders, h1, h2, insert]
  simp

/-- **C111, partial.** The handler of the Node.js SDK sees the whole request when its header names
are distinct, their values visible ASCII, and the length of its body is announced (or there is no
body). Missing: bodies without an announced length, repeated headers, other header values. -/
theorem sees_partial (utf8 : List UInt8 → Option String) (q : Request)
    (hd : (q.headers.map (·.1)).Nodup) (hv : ∀ h ∈ q.headers, Visible h.2)
    (hb : (∃ n, n < 2 ^ 64 ∧ Announces q n ∧ Framed q n) ∨
      ((∀ b, ("content-length", b) ∉ q.headers) ∧ q.body = .ok [])) :
    Sees utf8 q (fromAxum q) := by
  refine ⟨rfl, rfl, rfl, ?_, ?_⟩
  · obtain ⟨m, h1, h2⟩ := collectHeaders_ok q.headers [] hd hv (by simp)
    exact ⟨m, h1, fun k s => by rw [h2]; simp⟩
  · rcases hb with ⟨n, hn, ha, hf⟩ | ⟨hs, he⟩
    · have hl := contentLength_announced q n hn hd hv ha
      unfold BodySeen
      simp only [fromAxum, hl, readBody]
      by_cases h0 : 0 < n
      · rw [if_pos h0]
        cases hq : q.body with
        | error e => rfl
        | ok b =>
          cases b with
          | nil =>
            have := hf.1 [] hq
            simp at this
            omega
          | cons x b =>
            dsimp only
            unfold decodeBody
            cases utf8 (x :: b) with
            | some s => rfl
            | none => exact ⟨_, rfl⟩
      · rw [if_neg h0, hf.2 (by omega)]
    · rw [BodySeen, he]
      dsimp only
      exact body_lost utf8 q hs

/-- The hypotheses of `sees_partial` are met by a request with a body. -/
example : ∃ q : Request, q.body = .ok (ascii "{}") ∧ (q.headers.map (·.1)).Nodup ∧
    (∀ h ∈ q.headers, Visible h.2) ∧ Announces q 2 ∧ Framed q 2 := by
  refine ⟨⟨"POST", "/orders", "HTTP/1.1",
    [("content-length", ascii "2"), ("host", ascii "localhost")], .ok (ascii "{}")⟩, rfl, by decide, ?_,
    ⟨ascii "2", "2", by simp, by unfold Shows; decide, by decide⟩, ?_, by simp⟩
  · intro h hh
    rw [← visible_iff]
    simp only [List.mem_cons, List.not_mem_nil, or_false] at hh
    rcases hh with rfl | rfl <;> decide
  · intro b hb
    simp only [Except.ok.injEq] at hb
    subst hb
    decide

/-- **C111, full statement for the other SDKs.** What a handler does can depend on the request. -/
def FullGiven (invoke : (Option Request → String) → Request → String) : Prop :=
  ∀ h q, invoke h q = h (some q)

/-- **C111 is false of the Python SDK.** Handlers are called without arguments. -/
theorem python_given_violated : ¬ FullGiven pyInvoke := by
  intro h
  have := h (fun o => match o with | some _ => "request" | none => "nothing") chunked
  exact absurd this (by decide)

/-- **C111 is false of the FFI.** Handlers are given the response to write to only. -/
theorem ffi_given_violated : ¬ FullGiven ffiInvoke := by
  intro h
  have := h (fun o => match o with | some _ => "request" | none => "nothing") chunked
  exact absurd this (by decide)

/-- The Node.js SDK gives its handlers the wrapped request. -/
theorem node_given {α : Type} (h : Option JsRequest → α) (q : Request) :
    ∃ v, nodeInvoke h q = h (some v) ∧ v.method = q.method ∧ v.uri = q.uri :=
  ⟨fromAxum q, rfl, rfl, rfl⟩

/-! ## C112: asking for the body again -/

/-- **C112, full statement.** Asking for the body of a request any number of times gives the same
result each time. -/
def FullReread : Prop := ∀ (utf8 : List UInt8 → Option String) (q : Request) (n : Nat),
  ∀ o ∈ readTimes utf8 n (fromAxum q), o = (readBody utf8 (fromAxum q)).1

/-- A request whose body cannot be read. -/
def broken : Request :=
  ⟨"POST", "/orders", "HTTP/1.1", [("content-length", ascii "2")], .error "connection reset"⟩

/-- Asking again after a failure to read panics. -/
theorem reread_panics (utf8 : List UInt8 → Option String) (q : Request) (e : String)
    (hl : contentLength q.headers > 0) (he : q.body = .error e) :
    readTimes utf8 2 (fromAxum q) = [.err e, .panic] := by
  simp only [readTimes, fromAxum, if_pos hl, he, readBody]

/-- **C112 is false of the code.** -/
theorem reread_violated : ¬ FullReread := by
  intro h
  have hl : contentLength broken.headers > 0 := by decide
  have h1 := reread_panics asciiText broken "connection reset" hl rfl
  have h2 := h asciiText broken 2 .panic (by rw [h1]; simp)
  have h3 : (readBody asciiText (fromAxum broken)).1 = .err "connection reset" := by
    simp only [readTimes, List.cons.injEq] at h1
    exact h1.1
  rw [h3] at h2
  exact absurd h2 (by simp)

/-- Reading again from a request that holds the bytes or has no body. -/
theorem readTimes_stable (utf8 : List UInt8 → Option String) (v : JsRequest)
    (h : (readBody utf8 v).2 = v) : ∀ n, ∀ o ∈ readTimes utf8 n v, o = (readBody utf8 v).1
  | 0 => by simp [readTimes]
  | n + 1 => by
    intro o ho
    simp only [readTimes, List.mem_cons] at ho
    rcases ho with ho | ho
    · exact ho
    · rw [h] at ho; exact readTimes_stable utf8 v h n o ho

/-- **C112, partial.** A body that could be read is given again each time. Missing: bodies whose
reading failed. -/
theorem reread_partial (utf8 : List UInt8 → Option String) (q : Request) (b : List UInt8)
    (hb : q.body = .ok b) (n : Nat) :
    ∀ o ∈ readTimes utf8 n (fromAxum q), o = (readBody utf8 (fromAxum q)).1 := by
  by_cases hl : contentLength q.headers > 0
  · cases n with
    | zero => simp [readTimes]
    | succ n =>
      intro o ho
      simp only [readTimes, List.mem_cons] at ho
      rcases ho with ho | ho
      · exact ho
      · have hv : (readBody utf8 (fromAxum q)).2 = { fromAxum q with body := .bytes b } := by
          simp only [fromAxum, if_pos hl, hb, readBody]
        rw [hv] at ho
        rw [readTimes_stable utf8 { fromAxum q with body := .bytes b } rfl n o ho]
        simp only [fromAxum, if_pos hl, hb, readBody]
  · exact readTimes_stable utf8 (fromAxum q) (by simp only [fromAxum, if_neg hl, readBody]) n

/-- The hypothesis of `reread_partial` is met by a request with a body. -/
example : readTimes asciiText 2 (fromAxum { broken with body := .ok (ascii "{}") }) =
    [.ok (some "{}"), .ok (some "{}")] := by
  have hl : contentLength broken.headers > 0 := by decide
  have hd : asciiText (ascii "{}") = some "{}" := by decide
  simp only [readTimes, fromAxum, if_pos hl, readBody, decodeBody, hd]

/-! ## C113: clients get the response of the handler -/

/-- **C113, full statement.** Whatever a handler responds, the client gets an answer, and it is the
response if HTTP can carry it. -/
def FullDelivered : Prop :=
  ∀ r : Response, ∃ a, intoResponse r = .ok a ∧ (Sendable r → Delivered r a)

/-- **C113 is false of the code.** A response with the status 0 panics, as does one with a line break
in a header. -/
theorem delivered_violated : ¬ FullDelivered := by
  intro h
  obtain ⟨a, ha, _⟩ := h ⟨0, none, none⟩
  have hp : intoResponse ⟨0, none, none⟩ = .panic := by decide
  rw [hp] at ha
  exact absurd ha (by simp)

/-- **C113, partial.** A response HTTP can carry is delivered with its status, headers and body; any
other panics. Missing: an answer in the second case. -/
theorem delivered_partial (r : Response) :
    (Sendable r → ∃ a, intoResponse r = .ok a ∧ Delivered r a) ∧
    (¬ Sendable r → intoResponse r = .panic) := by
  constructor
  · rintro ⟨hst, hh⟩
    obtain ⟨out, ho⟩ := buildHeaders_some _ hh
    have hs : statusCode r.status = some r.status := by
      unfold statusCode
      rw [if_pos ⟨hst.1, by omega⟩]
    refine ⟨⟨r.status, out, .text (r.body.getD "")⟩, ?_, rfl, ((buildHeaders_iff _ _).mp ho).2, rfl⟩
    rw [intoResponse, ho, hs]
  · intro hn
    unfold intoResponse
    cases hb : buildHeaders (r.headers.getD []) with
    | none => rfl
    | some out =>
      cases hs : statusCode r.status with
      | none => rfl
      | some st =>
        exfalso
        apply hn
        unfold statusCode at hs
        split at hs
        · rename_i hst
          exact ⟨⟨hst.1, by omega⟩, ((buildHeaders_iff _ _).mp hb).1⟩
        · simp at hs

/-- Both cases of `delivered_partial` occur. -/
example : intoResponse ⟨201, some [("Content-Type", "application/json")], some "{}"⟩ =
    .ok ⟨201, [("content-type", "application/json")], .text "{}"⟩ ∧
    intoResponse ⟨200, some [("X-Note", "a\nb")], none⟩ = .panic := by decide

/-! ## C114: failures are reported as failures -/

/-- **C114, full statement.** The answer to a request whose handler failed has an error status. -/
def FullErrorStatus : Prop :=
  ∀ e a, answer (.error e) = .ok a → 400 ≤ a.status

/-- **C114 is false of the code**: the status of every failure is 200. -/
theorem error_status_violated : ¬ FullErrorStatus := by
  intro h
  exact absurd (h "boom" _ rfl) (by decide)

/-- **C114, partial.** A failure of a handler — a call that fails, a rejected promise, a handler that
takes too long — is answered with the message of the failure and the status 200. Missing: an error
status. -/
theorem error_answer_partial (h : JsRequest → JsCall) (q : Request) (t : Nat) (e : String)
    (hr : (t, .error e) ∈ nodeServe h q) :
    (∃ a, answer (.error e) = .ok a ∧ a.content = .error e ∧ a.status = 200) ∧
    (h (fromAxum q) = .fails e ∨ (∃ t', h (fromAxum q) = .promises (.rejects t' e)) ∨
      e = "handler timed out") := by
  refine ⟨⟨errorResponse e, rfl, rfl, rfl⟩, ?_⟩
  unfold nodeServe at hr
  cases hc : h (fromAxum q) with
  | fails e' =>
    rw [hc] at hr
    simp only [List.mem_singleton, Prod.mk.injEq, Except.error.injEq] at hr
    rw [hr.2]; exact Or.inl rfl
  | promises p =>
    rw [hc] at hr
    dsimp only at hr
    unfold nodeSelect at hr
    cases p with
    | resolves t' r =>
      simp only [settled] at hr
      rw [List.mem_append] at hr
      rcases hr with hr | hr
      · split at hr
        · simp at hr
        · simp at hr
      · split at hr
        · simp only [List.mem_singleton, Prod.mk.injEq, Except.error.injEq] at hr
          exact Or.inr (Or.inr hr.2)
        · simp at hr
    | rejects t' e' =>
      simp only [settled] at hr
      rw [List.mem_append] at hr
      rcases hr with hr | hr
      · split at hr
        · simp only [List.mem_singleton, Prod.mk.injEq, Except.error.injEq] at hr
          exact Or.inr (Or.inl ⟨t', by rw [hr.2]⟩)
        · simp at hr
      · split at hr
        · simp only [List.mem_singleton, Prod.mk.injEq, Except.error.injEq] at hr
          exact Or.inr (Or.inr hr.2)
        · simp at hr
    | pending =>
      simp only [settled, List.nil_append, List.mem_singleton, Prod.mk.injEq,
        Except.error.injEq] at hr
      exact Or.inr (Or.inr hr.2)

/-- The hypothesis of `error_answer_partial` is met. -/
example : (5, .error "boom") ∈ nodeServe (fun _ => .promises (.rejects 5 "boom")) chunked := by
  simp [nodeServe, nodeSelect, settled, timeout]

/-! ## C115: time limits -/

/-- **C115, full statement.** A handler with a configured timeout is given that time. -/
def FullTimeout : Prop :=
  ∀ (d : HandlerDef) (h : JsRequest → JsCall) (q : Request) (p : Promise) (t : Nat)
    (r : Except String Response), 0 < d.timeout → h (fromAxum q) = .promises p →
    ((t, r) ∈ nodeServe h q ↔ Limited (d.timeout.toNat * 1000) p t r)

/-- **C115, partial.** A request to a handler of the Node.js SDK is answered within 30 seconds after
the handler gave its promise, with the result of the handler or, if that is not there yet, with an
error. Missing: the configured timeout, and the time before there is a promise. -/
theorem timeout_partial (h : JsRequest → JsCall) (q : Request) (p : Promise)
    (hp : h (fromAxum q) = .promises p) :
    (∀ t r, (t, r) ∈ nodeServe h q ↔ Limited 30000 p t r) ∧ nodeServe h q ≠ [] := by
  have hto : timeout = 30000 := rfl
  unfold nodeServe
  rw [hp]
  dsimp only
  have key : ∀ (t' : Nat) (x : Except String Response) (p : Promise), settled p = some (t', x) →
      (∀ t r, Settles p t r ↔ t = t' ∧ r = x) →
      (∀ t r, (t, r) ∈ nodeSelect p ↔ Limited 30000 p t r) ∧ nodeSelect p ≠ [] := by
    intro t' x p hs hset
    unfold nodeSelect Limited
    rw [hs]
    simp only [hto, hset]
    constructor
    · intro t r
      rw [List.mem_append]
      constructor
      · rintro (h | h)
        · split at h
          · rename_i hle
            simp only [List.mem_singleton, Prod.mk.injEq] at h
            exact Or.inl ⟨by omega, h⟩
          · simp at h
        · split at h
          · rename_i hle
            simp only [List.mem_singleton, Prod.mk.injEq] at h
            exact Or.inr ⟨h.1, h.2, fun t'' r'' hh => by omega⟩
          · simp at h
      · rintro (⟨hle, h1, h2⟩ | ⟨h1, h2, h3⟩)
        · left
          rw [if_pos (by omega), h1, h2]
          simp
        · right
          rw [if_pos (h3 t' x ⟨rfl, rfl⟩), h1, h2]
          simp
    · by_cases hle : t' ≤ 30000
      · rw [if_pos hle]; simp
      · rw [if_neg hle, if_pos (by omega)]; simp
  cases p with
  | resolves t' x =>
    refine key t' (.ok x) _ rfl ?_
    intro t r
    constructor
    · intro h; cases h; exact ⟨rfl, rfl⟩
    · rintro ⟨rfl, rfl⟩; exact .resolves _ _
  | rejects t' e =>
    refine key t' (.error e) _ rfl ?_
    intro t r
    constructor
    · intro h; cases h; exact ⟨rfl, rfl⟩
    · rintro ⟨rfl, rfl⟩; exact .rejects _ _
  | pending =>
    have hno : ∀ t r, ¬ Settles .pending t r := by intro t r h; cases h
    unfold nodeSelect Limited settled
    constructor
    · intro t r
      simp only [List.nil_append, List.mem_singleton, Prod.mk.injEq, hno, and_false, false_or, hto]
      constructor
      · rintro ⟨h1, h2⟩; exact ⟨h1, h2, fun _ _ h => h.elim⟩
      · rintro ⟨h1, h2, _⟩; exact ⟨h1, h2⟩
    · simp

/-- Every request to a handler of the Node.js SDK is answered, also when the call fails, within 30
seconds after the call returned. -/
theorem node_answered (h : JsRequest → JsCall) (q : Request) :
    nodeServe h q ≠ [] ∧ ∀ t r, (t, r) ∈ nodeServe h q → t ≤ 30000 := by
  cases hc : h (fromAxum q) with
  | fails e =>
    simp only [nodeServe, hc]
    refine ⟨by simp, fun t r hm => ?_⟩
    simp only [List.mem_singleton, Prod.mk.injEq] at hm
    omega
  | promises p =>
    obtain ⟨h1, h2⟩ := timeout_partial h q p hc
    refine ⟨h2, fun t r hm => ?_⟩
    rcases (h1 t r).mp hm with ⟨h, _⟩ | ⟨h, _⟩ <;> omega

/-- A handler definition with a timeout of a minute. -/
def slowDef : HandlerDef := ⟨"h", "/orders", "POST", "./app", "app.handler", 60, false⟩

/-- **C115 is false of the code.** A handler with a timeout of 60 seconds that takes 40 is given
up. -/
theorem timeout_violated : ¬ FullTimeout := by
  intro h
  let r : Response := ⟨200, none, none⟩
  have h1 := (h slowDef (fun _ => .promises (.resolves 40000 r)) chunked (.resolves 40000 r) 40000
    (.ok r) (by decide) rfl).mpr (Or.inl ⟨by decide, .resolves _ _⟩)
  have h2 := ((timeout_partial (fun _ => .promises (.resolves 40000 r)) chunked (.resolves 40000 r)
    rfl).1 _ _).mp h1
  rcases h2 with ⟨hle, _⟩ | ⟨_, he, _⟩
  · omega
  · simp at he

/-- The hypothesis of `timeout_partial` is met by a handler that never answers. -/
example : nodeServe (fun _ => .promises .pending) chunked = [(30000, .error "handler timed out")] :=
  rfl

/-- **C115, full statement for Python.** A waiting request can be answered although the handler that
is running now never finishes. -/
def FullIndependent : Prop :=
  ∀ (registry : List (String × Unit)) (steps : List PyStep) (c : Call),
    c ∈ (pyRun (pyInit registry) steps).queue →
    ∃ more, (pyRun (pyInit registry) (steps ++ more)).busy.map (·.1.ticket) =
        (pyRun (pyInit registry) steps).busy.map (·.1.ticket) ∧
      c.ticket ∈ (pyRun (pyInit registry) (steps ++ more)).answers.map (·.1)

/-- A handler that does not finish keeps every other request waiting: as long as the worker is at the
same request, nothing is answered. -/
theorem python_blocked {H : Type} (registry : List (String × H)) (steps more : List PyStep)
    (c d : Call) (h h' : H) (hb : (pyRun (pyInit registry) steps).busy = some (c, h))
    (hb' : (pyRun (pyInit registry) (steps ++ more)).busy = some (d, h')) (ht : d.ticket = c.ticket) :
    (pyRun (pyInit registry) (steps ++ more)).answers = (pyRun (pyInit registry) steps).answers := by
  have h1 := busy_ticket (inv_run registry steps) c h hb
  have h2 := busy_ticket (inv_run registry (steps ++ more)) d h' hb'
  have h3 : pyRun (pyInit registry) (steps ++ more) = pyRun (pyRun (pyInit registry) steps) more := by
    simp [pyRun, List.foldl_append]
  have h4 := answers_prefix (pyRun (pyInit registry) steps) more
  rw [← h3] at h4
  exact (h4.eq_of_length (by omega)).symm

/-- **C115 is false of the Python SDK.** There is no timeout, and a handler that does not finish
blocks the worker for all requests. -/
theorem independent_violated : ¬ FullIndependent := by
  intro h
  let reg : List (String × Unit) := [("/a::GET", ())]
  let steps : List PyStep := [.arrive "/a::GET", .take, .arrive "/a::GET"]
  have hs : (pyRun (pyInit reg) steps).busy = some (⟨"/a::GET", 0⟩, ()) := rfl
  obtain ⟨more, h1, h2⟩ := h reg steps ⟨"/a::GET", 1⟩ (by
    have : (pyRun (pyInit reg) steps).queue = [⟨"/a::GET", 1⟩] := rfl
    rw [this]; simp)
  rw [hs] at h1
  cases hb : (pyRun (pyInit reg) (steps ++ more)).busy with
  | none => rw [hb] at h1; simp at h1
  | some x =>
    obtain ⟨d, u⟩ := x
    rw [hb] at h1
    simp only [Option.map_some, Option.some.injEq] at h1
    have := python_blocked reg steps more _ d () u hs hb h1
    rw [this] at h2
    have : (pyRun (pyInit reg) steps).answers = [] := rfl
    rw [this] at h2
    simp at h2

/-! ## C116: answers of the Python worker -/

/-- What a request is told about the result of its handler. -/
def Reported : Except String Response → Except String Response → Prop
  | .ok r, x => x = .ok r
  | .error e, x => x = .error ("Python error: " ++ e)

/-- **C116.** Whatever requests arrive and handlers do: the requests are answered in the order in
which they arrived and at most once, each with the result of a run, for this very request, of the
handler registered under its own identifier, or with an error if there is none; and every request is
answered, being served or waiting. -/
theorem python_answers {H : Type} (registry : List (String × H)) (steps : List PyStep) :
    let s := pyRun (pyInit registry) steps
    (∀ n x, s.answers[n]? = some x → x.1 = n ∧ ∃ id, (arrivals steps)[n]? = some id ∧
      ((∃ h r, registry.lookup id = some h ∧ (n, h, r) ∈ finished (pyInit registry) steps ∧
          Reported r x.2) ∨
        (registry.lookup id = none ∧ ∃ e, x.2 = .error e))) ∧
    (arrivals steps).length = s.answers.length + s.busy.toList.length + s.queue.length := by
  refine ⟨?_, ?_⟩
  · induction steps using Assoc.snoc_induction with
    | nil => simp [pyRun, pyInit]
    | snoc steps x ih =>
      have hinv := inv_run registry steps
      have hold : ∀ n y, (pyRun (pyInit registry) steps).answers[n]? = some y →
          y.1 = n ∧ ∃ id, (arrivals (steps ++ [x]))[n]? = some id ∧
            ((∃ h r, registry.lookup id = some h ∧
              (n, h, r) ∈ finished (pyInit registry) (steps ++ [x]) ∧ Reported r y.2) ∨
            (registry.lookup id = none ∧ ∃ e, y.2 = .error e)) := by
        intro n y hy
        obtain ⟨h1, id, h2, h3⟩ := ih n y hy
        refine ⟨h1, id, ?_, ?_⟩
        · rw [arrivals_append, List.getElem?_append_left (List.getElem?_eq_some_iff.mp h2).1]
          exact h2
        · rcases h3 with ⟨h, r, h4, h5, h6⟩ | h3
          · exact Or.inl ⟨h, r, h4, by rw [finished_append]; exact List.mem_append_left _ h5, h6⟩
          · exact Or.inr h3
      have hrun : pyRun (pyInit registry) (steps ++ [x]) =
          pyStep (pyRun (pyInit registry) steps) x := by simp [pyRun, List.foldl_append]
      rw [hrun]
      generalize hs : pyRun (pyInit registry) steps = s at *
      intro n y hy
      cases x with
      | arrive id => exact hold n y hy
      | take =>
        simp only [pyStep] at hy
        split at hy
        · rename_i c rest hb hq
          split at hy
          · exact hold n y hy
          · rename_i hl
            simp only at hy
            by_cases hn : n < s.answers.length
            · rw [List.getElem?_append_left hn] at hy
              exact hold n y hy
            · rw [List.getElem?_append_right (by omega)] at hy
              have hn' : n = s.answers.length := by
                have := (List.getElem?_eq_some_iff.mp hy).1
                simp at this
                omega
              have ht := queue_ticket hinv c rest hb hq
              rw [hn', Nat.sub_self, List.getElem?_cons_zero] at hy
              injection hy with hy
              subst hy
              have hname := hinv.names c (by rw [hb, hq]; simp)
              refine ⟨by rw [hn']; exact ht, c.handlerId, ?_, Or.inr ⟨?_, _, rfl⟩⟩
              · rw [hn', ← ht, arrivals_append,
                  List.getElem?_append_left (List.getElem?_eq_some_iff.mp hname).1]
                exact hname
              · rw [← hinv.reg]; exact hl
        · exact hold n y hy
      | finish r =>
        simp only [pyStep] at hy
        split at hy
        · rename_i c hd hb
          simp only at hy
          by_cases hn : n < s.answers.length
          · rw [List.getElem?_append_left hn] at hy
            exact hold n y hy
          · rw [List.getElem?_append_right (by omega)] at hy
            have hn' : n = s.answers.length := by
              have := (List.getElem?_eq_some_iff.mp hy).1
              simp at this
              omega
            have ht := busy_ticket hinv c hd hb
            rw [hn', Nat.sub_self, List.getElem?_cons_zero] at hy
            injection hy with hy
            subst hy
            have hname := hinv.names c (by rw [hb]; simp)
            refine ⟨by rw [hn']; exact ht, c.handlerId, ?_, Or.inl ⟨hd, r, ?_, ?_, ?_⟩⟩
            · rw [hn', ← ht, arrivals_append,
                List.getElem?_append_left (List.getElem?_eq_some_iff.mp hname).1]
              exact hname
            · exact hinv.handler c hd hb
            · rw [finished_append, hs]
              apply List.mem_append_right
              simp only [finished, hb, hn', ← ht]
              simp
            · cases r <;> rfl
        · exact hold n y hy
  · have h := congrArg List.length (inv_run registry steps).tickets
    simp only [List.length_append, List.length_map, List.length_range] at h
    omega

/-- A run in which two requests for two handlers are answered. -/
example : (pyRun (pyInit [("/a::GET", 1), ("/b::GET", 2)])
    [.arrive "/a::GET", .arrive "/b::GET", .take, .finish (.ok ⟨200, none, some "a"⟩), .take,
      .finish (.error "ValueError")]).answers =
    [(0, .ok ⟨200, none, some "a"⟩), (1, .error "Python error: ValueError")] := rfl

/-! ## C117: registered handlers are the ones that are called -/

/-- **C117, full statement for Python.** After registrations that succeeded, a request for a
registered path and known method is served by the handler registered for it. -/
def FullPythonRegistered : Prop :=
  ∀ (a a' : PyApp) (r : Router) (hs : List (String × String × String)), a.inner.http = some r →
    pyRegisterAll a hs = .ok a' → ∀ x ∈ hs, ∀ m, NamesMethod x.2.1 m →
      pyHandlerFor a' x.1 m = some x.2.2

/-- An application of the Python SDK after `setup`. -/
def pyExample : PyApp :=
  ⟨⟨runtimeConfig ⟨"app.blueprint.yaml", 8080, none⟩, some [], [], false⟩, [], true⟩

/-- **C117 is false of the Python SDK.** A registration with an unknown method, which is ignored
otherwise, can take over the identifier of another handler. -/
theorem python_registered_violated : ¬ FullPythonRegistered := by
  intro h
  let hs := [("/a::x", "GET", "mine"), ("/a", "x::GET", "other")]
  have hr : pyRegisterAll pyExample hs = .ok
      ⟨{ pyExample.inner with http := some [(("/a::x", .get), .handler "/a::x::GET")] },
        [("/a::x::GET", "other")], true⟩ := by decide
  have := h pyExample _ [] hs rfl hr ("/a::x", "GET", "mine") (by simp [hs]) .get
    ((Verif.RtConfig.methodOf_iff _ _).mp (by decide))
  exact absurd this (by decide)

/-- **C117, partial, for Python.** If all methods are known, each request is served by the handler
registered for its path and method. Missing: registrations with unknown methods. -/
theorem python_registered_partial (a a' : PyApp) (r : Router)
    (hs : List (String × String × String)) (ha : a.inner.http = some r)
    (hm : ∀ x ∈ hs, ∃ m, NamesMethod x.2.1 m) (h : pyRegisterAll a hs = .ok a') :
    ∀ x ∈ hs, ∀ m, NamesMethod x.2.1 m → pyHandlerFor a' x.1 m = some x.2.2 := by
  obtain ⟨r', h1, _, _, _, h5⟩ := pyRegisterAll_ok hs a a' r ha (by
    intro x hx hn
    obtain ⟨m, hm⟩ := hm x hx
    rw [(Verif.RtConfig.methodOf_iff _ _).mpr hm] at hn
    simp at hn) h
  intro x hx m hxm
  obtain ⟨h6, h7⟩ := h5 x hx m ((Verif.RtConfig.methodOf_iff _ _).mpr hxm)
  unfold pyHandlerFor dispatch
  rw [h1]
  dsimp only
  rw [h6]
  exact h7

/-- The hypotheses of `python_registered_partial` are met. -/
example : pyRegisterAll pyExample [("/a", "GET", "list"), ("/a", "POST", "create")] = .ok
    ⟨{ pyExample.inner with http := some [(("/a", .post), .handler "/a::POST"),
        (("/a", .get), .handler "/a::GET")] },
      [("/a::POST", "create"), ("/a::GET", "list")], true⟩ := by decide

/-- Registering a handler of the Python SDK before `setup` panics. -/
theorem python_before_setup (a : PyApp) (path method h : String) (hc : a.channel = false) :
    pyRegister a path method h = .panic := by
  simp [pyRegister, hc]

/-- Handlers that are registered stay, and each is registered for its path and method. -/
theorem nodeRegisterAll_ok : ∀ (hs : List (String × String × String)) (a a' : App) (r : Router),
    a.http = some r → nodeRegisterAll a hs = .ok a' →
    ∃ r', a'.http = some r' ∧ (∀ k t, r.lookup k = some t → r'.lookup k = some t) ∧
      ∀ x ∈ hs, ∀ m, methodOf x.2.1 = some m → r'.lookup (x.1, m) = some (.handler x.2.2)
  | [], a, a', r, ha, h => by
    simp only [nodeRegisterAll, Outcome.ok.injEq] at h
    subst h
    exact ⟨r, ha, fun _ _ h => h, by simp⟩
  | (path, method, hd) :: hs, a, a', r, ha, h => by
    rw [nodeRegisterAll] at h
    cases hr : nodeRegister a path method hd with
    | err e => rw [hr] at h; simp [Outcome.bind] at h
    | panic => rw [hr] at h; simp [Outcome.bind] at h
    | ok b =>
      rw [hr] at h
      simp only [Outcome.bind] at h
      cases hmm : methodOf method with
      | none =>
        have hb : b = a := by
          unfold nodeRegister register at hr
          rw [ha, hmm] at hr
          injection hr with hr
          exact hr.symm
        subst hb
        obtain ⟨r', h1, h2, h3⟩ := nodeRegisterAll_ok hs b a' r ha h
        refine ⟨r', h1, h2, ?_⟩
        intro x hx m hm
        rcases List.mem_cons.1 hx with rfl | hx
        · rw [hmm] at hm; cases hm
        · exact h3 x hx m hm
      | some m =>
        obtain ⟨hn, hb⟩ := register_ok a b r path method hd m ha hmm hr
        obtain ⟨r', h1, h2, h3⟩ := nodeRegisterAll_ok hs b a' _ hb h
        refine ⟨r', h1, ?_, ?_⟩
        · intro k t hk
          refine h2 k t ?_
          rw [List.lookup_cons]
          split
          next he => rw [beq_iff_eq] at he; subst he; rw [hn] at hk; cases hk
          · exact hk
        · intro x hx m' hm
          rcases List.mem_cons.1 hx with rfl | hx
          · rw [hmm] at hm
            injection hm with hm
            subst hm
            exact h2 _ _ List.lookup_cons_self
          · exact h3 x hx m' hm

/-- **C117 for Node.js.** Each request is served by the handler registered for its path and method;
registrations with unknown methods change nothing. -/
theorem node_registered (a a' : App) (r : Router) (hs : List (String × String × String))
    (ha : a.http = some r) (h : nodeRegisterAll a hs = .ok a') :
    ∃ r', a'.http = some r' ∧ ∀ x ∈ hs, ∀ m, NamesMethod x.2.1 m →
      dispatch r' x.1 m = some (.handler x.2.2) := by
  obtain ⟨r', h1, _, h3⟩ := nodeRegisterAll_ok hs a a' r ha h
  refine ⟨r', h1, ?_⟩
  intro x hx m hm
  unfold dispatch
  rw [h3 x hx m ((Verif.RtConfig.methodOf_iff _ _).mpr hm)]

/-- The hypotheses of `node_registered` are met. -/
example : nodeRegisterAll pyExample.inner [("/a", "GET", "list"), ("/a", "x", "none"),
    ("/a", "post", "create")] = .ok
    { pyExample.inner with http := some [(("/a", .post), .handler "create"),
        (("/a", .get), .handler "list")] } := by decide

/-- **C117, full statement for the FFI.** The handler of a definition is called for its path and
method. -/
def FullFfiRegistered : Prop :=
  ∀ (c : SdkConfig) (a : App) (path method h : String) (m : Method),
    setup (ffiRuntimeConfig c) (some none) = .ok a → NamesMethod method m → path ≠ healthPath →
    ∃ a' r, ffiRegister a h = .ok a' ∧ a'.http = some r ∧ dispatch r path m = some (.handler h)

/-- **C117 is false of the FFI.** Every handler is registered for `POST /orders/:orderId`. -/
theorem ffi_registered_violated : ¬ FullFfiRegistered := by
  intro h
  let c : SdkConfig := ⟨"app.blueprint.yaml", 8080, some true⟩
  let a : App := ⟨ffiRuntimeConfig c, some [((healthPath, .get), .health)], [], false⟩
  obtain ⟨a', r, h1, h2, h3⟩ := h c a "/items" "GET" "items" .get (by decide)
    ((Verif.RtConfig.methodOf_iff _ _).mp (by decide)) (by decide)
  have hreg : ffiRegister a "items" = .ok { a with
      http := some [(("/orders/:orderId", .post), .handler "items"),
        ((healthPath, .get), .health)] } := by decide
  rw [hreg] at h1
  injection h1 with h1
  rw [← h1] at h2
  injection h2 with h2
  rw [← h2] at h3
  exact absurd h3 (by decide)

/-- Registering a second handler with the FFI panics. -/
theorem ffi_second_panics (a a' : App) (r : Router) (h h' : String) (ha : a.http = some r)
    (hr : ffiRegister a h = .ok a') : ffiRegister a' h' = .panic := by
  have hm : methodOf "POST" = some .post := by decide
  obtain ⟨_, h2⟩ := register_ok a a' r _ _ _ _ ha hm hr
  unfold ffiRegister register
  rw [h2, hm]
  simp [addRoute, Outcome.bind]

/-- **C117, full statement for the address.** The server listens where the configuration of the SDK
says: on all interfaces exactly when the loopback flag is off. -/
def FullAddress (cfg : SdkConfig → Config) : Prop :=
  ∀ (c : SdkConfig) (a : App) (b : Bool), c.loopbackOnly = some b →
    setup (cfg c) (some none) = .ok a →
    listeners a = [⟨if b then "127.0.0.1" else "0.0.0.0", c.serverPort⟩]

/-- What `setup` gives for an API without a WebSocket part. -/
theorem setup_plain (c : Config) (a : App) (hm : c.callMode = .ffi)
    (h : setup c (some none) = .ok a) : a.config = c ∧ a.http ≠ none ∧ a.localApi = false := by
  unfold setup setupHttp at h
  simp only [hm] at h
  cases hr : healthRouter c with
  | ok r =>
    rw [hr] at h
    simp only [Outcome.bind_ok, Outcome.pure_eq, Outcome.ok.injEq] at h
    rw [← h]
    exact ⟨rfl, by simp, rfl⟩
  | err e => rw [hr] at h; simp at h
  | panic => rw [hr] at h; simp at h

/-- **C117, the address, Node.js and Python**: it holds. -/
theorem address : FullAddress runtimeConfig := by
  intro c a b hb h
  obtain ⟨h1, h2, h3⟩ := setup_plain _ a rfl h
  cases hh : a.http with
  | none => exact absurd hh h2
  | some r =>
    unfold listeners
    simp only [hh, h1, h3, runtimeConfig, hb]
    cases b <;> rfl

/-- The hypotheses of `address` are met. -/
example : setup (runtimeConfig ⟨"app.yaml", 8080, some false⟩) (some none) =
    .ok ⟨runtimeConfig ⟨"app.yaml", 8080, some false⟩, some [((healthPath, .get), .health)], [],
      false⟩ := by decide

/-- **C117, the address, is false of the FFI**: the flag is ignored. -/
theorem ffi_address_violated : ¬ FullAddress ffiRuntimeConfig := by
  intro h
  have := h ⟨"app.yaml", 8080, some false⟩
    ⟨ffiRuntimeConfig ⟨"app.yaml", 8080, some false⟩, some [((healthPath, .get), .health)], [],
      false⟩ false rfl (by decide)
  exact absurd this (by decide)

/-! ## C118: `setup` lists the handlers -/

/-- **C118, full statement.** The configuration a caller gets lists the HTTP handlers of the
application in their order with path, method, location and handler. -/
def FullListed : Prop :=
  (∀ c : Option CoreApi, (∀ a, c = some a → ∃ s, fromConfig c = some s ∧ s.websocket = a.websocket ∧
      match a.http with
      | none => s.http = none
      | some ds => ∃ hs, s.http = some hs ∧ Matches ShowsDef ds hs) ∧
    (c = none → fromConfig c = none)) ∧
  (∀ c : Option CoreApi, ∃ hs, ffiCollect ((ffiIter c).length + 1) (ffiIter c) = .ok hs ∧
    Matches ShowsDef (ffiIter c) hs)

theorem matches_map {A B : Type} (R : A → B → Prop) (f : A → B) (h : ∀ a, R a (f a)) :
    ∀ l : List A, Matches R l (l.map f)
  | [] => trivial
  | a :: l => ⟨h a, matches_map R f h l⟩

/-- **C118, partial.** The Node.js and Python SDKs list exactly the handlers; the iterator of the FFI
does when no text has a NUL character. Missing: texts with NUL characters in the FFI. -/
theorem listed_partial :
    (∀ c : Option CoreApi, (∀ a, c = some a → ∃ s, fromConfig c = some s ∧
        s.websocket = a.websocket ∧
        match a.http with
        | none => s.http = none
        | some ds => ∃ hs, s.http = some hs ∧ Matches ShowsDef ds hs) ∧
      (c = none → fromConfig c = none)) ∧
    (∀ (api : CoreApi) (ds : List HandlerDef), api.http = some ds → (∀ d ∈ ds, NoNul d) →
      ∃ hs, ffiCollect ((ffiIter (some api)).length + 1) (ffiIter (some api)) = .ok hs ∧
        Matches ShowsDef ds hs) ∧
    (ffiCollect ((ffiIter none).length + 1) (ffiIter none) = .ok []) := by
  refine ⟨?_, ?_, rfl⟩
  · intro c
    refine ⟨?_, fun h => by rw [h]; rfl⟩
    rintro a rfl
    refine ⟨fromApi a, rfl, rfl, ?_⟩
    cases hh : a.http with
    | none => simp [fromApi, hh]
    | some ds =>
      exact ⟨ds.map fromDef, by simp [fromApi, hh],
        matches_map _ _ (fun d => ⟨rfl, rfl, rfl, rfl⟩) ds⟩
  · intro api ds hh hn
    have hi : ffiIter (some api) = ds := by simp [ffiIter, hh]
    rw [hi]
    exact ffiCollect_ok ds _ hn (by omega)

/-- **C118 is false of the FFI** for a path with a NUL character, which a JSON or YAML document can
have: the iterator panics. -/
theorem listed_violated : ¬ FullListed := by
  intro h
  let d : HandlerDef := ⟨"h", String.ofList ['/', Char.ofNat 0], "GET", "./app", "app.handler", 60, false⟩
  obtain ⟨hs, h1, _⟩ := h.2 (some ⟨some [d], false⟩)
  have : ffiCollect ((ffiIter (some ⟨some [d], false⟩)).length + 1)
      (ffiIter (some ⟨some [d], false⟩)) = .panic := by decide
  rw [this] at h1
  exact absurd h1 (by simp)

/-- The hypotheses of `listed_partial` are met by two handlers, listed in order. -/
example : ffiCollect 3 (ffiIter (some ⟨some [slowDef, { slowDef with method := "GET" }], false⟩)) =
    .ok [⟨"/orders", "POST", "./app", "app.handler"⟩, ⟨"/orders", "GET", "./app", "app.handler"⟩] := by
  decide

/-! ## C119: responses and counters of the FFI -/

/-- **C119, full statement.** The client gets the status, headers and body a handler of the FFI set
before it first sent its response in time. -/
def FullFfiResponse : Prop :=
  ∀ (pre post : FfiRun) (t st : Nat) (b : String), Silent pre → t ≤ 30000 →
    lastStatus pre = some st →
    ffiServe (pre ++ (t, .send b) :: post) = (t, .ok ⟨st, lastHeaders pre, some b⟩)

/-- **C119, partial.** The response holds the status that was set last before it was first sent — 0 if
none was — and the body it was sent with; what the handler does afterwards has no effect. A handler
that does not send in 30 seconds is answered for with an error. Missing: the headers. -/
theorem ffi_response_partial (pre post : FfiRun) (t : Nat) (b : String) (hs : Silent pre) :
    (t ≤ 30000 → ffiServe (pre ++ (t, .send b) :: post) =
      (t, .ok ⟨(lastStatus pre).getD 0, none, some b⟩)) ∧
    (30000 < t → ffiServe (pre ++ (t, .send b) :: post) = (30000, .error "Handler timed out")) ∧
    ffiServe pre = (30000, .error "Handler timed out") := by
  have hto : timeout = 30000 := rfl
  have h1 : ffiFirst ffiInitial (pre ++ (t, .send b) :: post) =
      some (t, ⟨(lastStatus pre).getD 0, none, some b⟩) := by
    rw [ffiFirst_silent pre _ ffiInitial hs rfl]
    rfl
  have h2 : ffiFirst ffiInitial pre = none := by
    have := ffiFirst_silent pre [] ffiInitial hs rfl
    rw [List.append_nil] at this
    rw [this]; rfl
  unfold ffiServe
  rw [h1, h2, hto]
  refine ⟨fun h => ?_, fun h => ?_, rfl⟩
  · dsimp only; rw [if_pos h]
  · dsimp only; rw [if_neg (by omega)]

/-- A response is sent at most once: whatever a handler does after it sent something, the channel holds
what it sent first. -/
theorem ffi_sent_once (ops : List FfiOp) (r : FfiResponse) (x : Response)
    (hr : ∃ pre : List FfiOp, r = pre.foldl ffiStep ffiInitial) (hs : r.sent = some x) :
    (ops.foldl ffiStep r).sent = some x := by
  have inv : ∀ (l : List FfiOp) (r : FfiResponse), (r.open' = true ↔ r.sent = none) →
      ((l.foldl ffiStep r).open' = true ↔ (l.foldl ffiStep r).sent = none) := by
    intro l
    induction l with
    | nil => intro r h; exact h
    | cons op l ih =>
      intro r h
      apply ih
      cases op with
      | setStatus n => exact h
      | setHeaders hs => exact h
      | send b =>
        simp only [ffiStep]
        split
        · simp
        · exact h
  obtain ⟨pre, hp⟩ := hr
  have hopen : r.open' = false := by
    have := inv pre ffiInitial (by decide)
    rw [← hp, hs] at this
    simpa using this
  clear hp inv
  induction ops generalizing r with
  | nil => exact hs
  | cons op ops ih =>
    refine ih (ffiStep r op) ?_ ?_
    · cases op <;> simp [ffiStep, hs, hopen]
    · cases op <;> simp [ffiStep, hopen]

/-- The hypotheses of `ffi_sent_once` are met. -/
example : ([FfiOp.setStatus 201, .send "a"].foldl ffiStep ffiInitial).sent = some ⟨201, none, some "a"⟩ :=
  rfl

/-- **C119 is false of the code.** Headers are dropped. -/
theorem ffi_response_violated : ¬ FullFfiResponse := by
  intro h
  have h1 := h [(0, .setStatus 200), (0, .setHeaders [("content-type", "text/plain")])] [] 1 200 "hi"
    (by intro x hx b; simp only [List.mem_cons, List.not_mem_nil, or_false] at hx
        rcases hx with rfl | rfl <;> simp) (by decide) rfl
  have h2 := (ffi_response_partial
    [(0, .setStatus 200), (0, .setHeaders [("content-type", "text/plain")])] [] 1 "hi"
    (by intro x hx b; simp only [List.mem_cons, List.not_mem_nil, or_false] at hx
        rcases hx with rfl | rfl <;> simp)).1 (by decide)
  rw [h2] at h1
  have h3 : lastHeaders [(0, .setStatus 200), (0, .setHeaders [("content-type", "text/plain")])] =
    some [("content-type", "text/plain")] := rfl
  rw [h3] at h1
  simp at h1

/-- A handler that sends without setting a status makes the server panic. -/
theorem ffi_status_forgotten (pre post : FfiRun) (t : Nat) (b : String) (hs : Silent pre)
    (ht : t ≤ 30000) (hn : lastStatus pre = none) :
    answer (ffiServe (pre ++ (t, .send b) :: post)).2 = .panic := by
  rw [(ffi_response_partial pre post t b hs).1 ht, hn]
  rfl

/-- The hypotheses of `ffi_response_partial` are met. -/
example : ffiServe [(0, .setStatus 500), (3, .setStatus 201), (4, .send "a"), (5, .setStatus 200),
    (6, .send "b")] = (4, .ok ⟨201, none, some "a"⟩) := rfl

/-- **C119, full statement for the counter.** `construction_counter` is the number of calls of the
constructor, as its documentation says. -/
def FullCounter : Prop := ∀ ops n, Sane ops → counterRun 0 ops = .ok n → n = created ops

/-- **C119 is false of the counter**: destroying an application lowers it. -/
theorem counter_violated : ¬ FullCounter := by
  intro h
  have hs : Sane [.create, .destroy true] := by
    rintro pre ⟨post, hp⟩
    match pre, hp with
    | [], _ => decide
    | [x], hp => simp only [List.cons_append, List.cons.injEq] at hp; rw [hp.1]; decide
    | [x, y], hp => simp only [List.cons_append, List.cons.injEq] at hp; rw [hp.1, hp.2.1]; decide
    | _ :: _ :: _ :: _, hp => simp at hp
  exact absurd (h _ 0 hs rfl) (by decide)

theorem counterRun_alive : ∀ (ops : List CounterOp) (n : Nat), (∀ x ∈ ops, x ≠ .destroy false) →
    (∀ pre, pre <+: ops → 0 ≤ n + alive pre) →
    ∃ k, counterRun n ops = .ok k ∧ (k : Int) = n + alive ops
  | [], n, _, _ => ⟨n, rfl, by simp [alive]⟩
  | op :: ops, n, hd, hs => by
    have hd' : ∀ x ∈ ops, x ≠ .destroy false := fun x hx => hd x (by simp [hx])
    match op, hd op (by simp) with
    | .create, _ =>
      have e : ∀ l, alive (.create :: l) = 1 + alive l := by
        intro l
        have h1 : (CounterOp.create :: l).count .create = l.count .create + 1 := by simp
        have h2 : (CounterOp.create :: l).count (.destroy true) = l.count (.destroy true) := by simp
        unfold alive
        rw [h1, h2]; omega
      obtain ⟨k, h1, h2⟩ := counterRun_alive ops (n + 1) hd' (by
        intro pre hp
        have := hs (.create :: pre) (List.prefix_cons_inj _ |>.mpr hp)
        rw [e] at this; omega)
      exact ⟨k, by simpa [counterRun, counterStep, Outcome.bind] using h1, by rw [e]; omega⟩
    | .destroy true, _ =>
      have e : ∀ l, alive (.destroy true :: l) = alive l - 1 := by
        intro l
        have h1 : (CounterOp.destroy true :: l).count .create = l.count .create := by simp
        have h2 : (CounterOp.destroy true :: l).count (.destroy true) = l.count (.destroy true) + 1 := by
          simp
        unfold alive
        rw [h1, h2]; omega
      have h0 : 0 < n := by
        have := hs [.destroy true] ⟨ops, rfl⟩
        rw [e] at this
        have h0 : alive [] = 0 := rfl
        omega
      obtain ⟨k, h1, h2⟩ := counterRun_alive ops (n - 1) hd' (by
        intro pre hp
        have := hs (.destroy true :: pre) (List.prefix_cons_inj _ |>.mpr hp)
        rw [e] at this; omega)
      refine ⟨k, ?_, by rw [e]; omega⟩
      rw [counterRun, counterStep, if_neg (by omega)]
      exact h1

/-- **C119, partial, the counter.** As long as the null pointer is not destroyed, the counter is the
number of applications that are alive. Missing: the number of constructor calls. -/
theorem counter_partial (ops : List CounterOp) (hd : ∀ x ∈ ops, x ≠ .destroy false) (hs : Sane ops) :
    ∃ n, counterRun 0 ops = .ok n ∧ (n : Int) = alive ops := by
  obtain ⟨k, h1, h2⟩ := counterRun_alive ops 0 hd (fun pre hp => by have := hs pre hp; omega)
  exact ⟨k, h1, by omega⟩

/-- Destroying the null pointer, which is allowed, lowers the counter too, or panics. -/
theorem counter_null (n : Nat) : counterRun n [.destroy false] =
    if n = 0 then .panic else .ok (n - 1) := by
  by_cases h : n = 0 <;> simp [counterRun, counterStep, h, Outcome.bind]

/-- The hypotheses of `counter_partial` are met. -/
example : counterRun 0 [.create, .create, .destroy true] = .ok 1 ∧
    alive [.create, .create, .destroy true] = 1 := by decide

end Verif.Sdk
