import Verif.Sdk.Model

/-!
# Specification of the runtime SDKs

What handlers and clients rely on, stated without the functions of the model that compute it.
-/

namespace Verif.Sdk.Spec

open Verif.Sdk Verif.RtConfig

/-- Two lists have the same length and related elements. -/
def Matches {A B : Type} (R : A → B → Prop) : List A → List B → Prop
  | [], [] => True
  | a :: as, b :: bs => R a b ∧ Matches R as bs
  | _, _ => False

/-! ## Requests -/

/-- A text shows bytes: its characters have the codes of the bytes. -/
def Shows (b : List UInt8) (s : String) : Prop := s.toList.map Char.toNat = b.map UInt8.toNat

/-- Bytes that can be shown: visible ASCII, spaces and tabs. -/
def Visible (b : List UInt8) : Prop := ∀ x ∈ b, (32 ≤ x.toNat ∧ x.toNat ≤ 126) ∨ x.toNat = 9

/-- The handler is shown exactly the headers of the request. -/
def HeadersSeen (q : Request) (seen : Outcome String (List (String × String))) : Prop :=
  ∃ m, seen = .ok m ∧ ∀ k s, m.lookup k = some s ↔ ∃ b, (k, b) ∈ q.headers ∧ Shows b s

/-- What asking for the body must give: nothing for an empty body, the text of the bytes, an error
when they are no text or could not be read. -/
def BodySeen (utf8 : List UInt8 → Option String) (q : Request)
    (seen : Outcome String (Option String)) : Prop :=
  match q.body with
  | .error e => seen = .err e
  | .ok [] => seen = .ok none
  | .ok (x :: b) =>
    match utf8 (x :: b) with
    | some s => seen = .ok (some s)
    | none => ∃ e, seen = .err e

/-- A handler that is given `v` sees the request `q`. -/
def Sees (utf8 : List UInt8 → Option String) (q : Request) (v : JsRequest) : Prop :=
  v.method = q.method ∧ v.uri = q.uri ∧ v.version = q.version ∧ HeadersSeen q (jsHeaders v) ∧
    BodySeen utf8 q (readBody utf8 v).1

/-- The request announces the length of its body. -/
def Announces (q : Request) (n : Nat) : Prop :=
  ∃ b s, ("content-length", b) ∈ q.headers ∧ Shows b s ∧ s.toList = Text.digits n

/-- The body is the one that was announced: the HTTP library reads that many bytes or fails, and has
nothing to read when the length is 0. -/
def Framed (q : Request) (n : Nat) : Prop :=
  (∀ b, q.body = .ok b → b.length = n) ∧ (n = 0 → q.body = .ok [])

/-! ## Answers -/

/-- The characters of a token (RFC 9110, section 5.6.2). -/
def Tchar (c : Char) : Prop :=
  ('a' ≤ c ∧ c ≤ 'z') ∨ ('A' ≤ c ∧ c ≤ 'Z') ∨ ('0' ≤ c ∧ c ≤ '9') ∨
    c ∈ ['!', '#', '$', '%', '&', '\'', '*', '+', '-', '.', '^', '_', '`', '|', '~']

/-- A response HTTP can carry: a three-digit status, header names that are tokens, header values
without control characters. -/
def Sendable (r : Response) : Prop :=
  (100 ≤ r.status ∧ r.status ≤ 999) ∧ ∀ h ∈ r.headers.getD [],
    (h.1 ≠ "" ∧ ∀ c ∈ h.1.toList, Tchar c) ∧
    ∀ c ∈ h.2.toList, c = '\t' ∨ (' '.toNat ≤ c.toNat ∧ c.toNat ≠ 127)

/-- A header is sent as the handler gave it; names are written in lower case. -/
def SameHeader (given sent : String × String) : Prop :=
  sent.1.toList = given.1.toList.map Char.toLower ∧ sent.2 = given.2

/-- The client gets the response of the handler. -/
def Delivered (r : Response) (a : Answer) : Prop :=
  a.status = r.status ∧ Matches SameHeader (r.headers.getD []) a.headers ∧
    a.content = .text (r.body.getD "")

/-! ## Times -/

/-- The promise is settled at a time with a result. -/
inductive Settles : Promise → Nat → Except String Response → Prop
  | resolves (t : Nat) (r : Response) : Settles (.resolves t r) t (.ok r)
  | rejects (t : Nat) (e : String) : Settles (.rejects t e) t (.error e)

/-- A handler with a time limit: its own result if it comes in time, otherwise the error at the
limit. -/
def Limited (limit : Nat) (p : Promise) (t : Nat) (r : Except String Response) : Prop :=
  (t ≤ limit ∧ Settles p t r) ∨
  (t = limit ∧ r = .error "handler timed out" ∧ ∀ t' r', Settles p t' r' → limit ≤ t')

/-! ## The Python worker -/

/-- The identifiers of the requests that arrived, in order. -/
def arrivals : List PyStep → List String
  | [] => []
  | .arrive id :: rest => id :: arrivals rest
  | _ :: rest => arrivals rest

/-- The handlers that finished, in order, with the request they were called for and their result. -/
def finished {H : Type} (s : Py H) : List PyStep → List (Nat × H × Except String Response)
  | [] => []
  | .finish r :: rest =>
    (match s.busy with
      | some (c, h) => [(c.ticket, h, r)]
      | none => []) ++ finished (pyStep s (.finish r)) rest
  | x :: rest => finished (pyStep s x) rest

/-! ## Responses of the FFI -/

/-- The status a handler set last. -/
def lastStatus (run : FfiRun) : Option Nat :=
  (run.filterMap fun x => match x.2 with | .setStatus n => some n | _ => none).getLast?

/-- The headers a handler set last. -/
def lastHeaders (run : FfiRun) : Option (List (String × String)) :=
  (run.filterMap fun x => match x.2 with | .setHeaders h => some h | _ => none).getLast?

/-- The run has not sent anything. -/
def Silent (run : FfiRun) : Prop := ∀ x ∈ run, ∀ b, x.2 ≠ .send b

/-! ## Configuration -/

/-- A handler definition as the SDK shows it. -/
def ShowsDef (d : HandlerDef) (h : SdkHandler) : Prop :=
  h.path = d.path ∧ h.method = d.method ∧ h.location = d.location ∧ h.handler = d.handler

/-- A definition without NUL characters. -/
def NoNul (d : HandlerDef) : Prop :=
  ∀ s ∈ [d.path, d.method, d.handler, d.location], ∀ c ∈ s.toList, c.toNat ≠ 0

/-- The constructor calls. -/
def created (ops : List CounterOp) : Nat := ops.count .create

/-- The applications that are alive: created and not destroyed. -/
def alive (ops : List CounterOp) : Int := (ops.count .create : Int) - ops.count (.destroy true)

/-- Only applications that exist are destroyed. -/
def Sane (ops : List CounterOp) : Prop := ∀ pre, pre <+: ops → 0 ≤ alive pre

end Verif.Sdk.Spec
