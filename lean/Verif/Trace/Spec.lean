import Verif.Trace.Model

/-!
# What trace ids mean and what is said about requests

Independent of the functions of the model: the format of X-Ray trace ids is that of the comment in
`aws_telemetry.rs` 7-21.
-/

namespace Verif.Trace.Spec

/-- The hexadecimal digits in the order of their values. -/
def alphabet : List Char := "0123456789abcdef".toList

/-- The number that digits stand for. -/
def value (s : List Char) : Nat := s.foldl (fun n c => n * 16 + alphabet.idxOf c) 0

/-- `k` hexadecimal digits that stand for `n`. -/
def Digits (k n : Nat) (s : List Char) : Prop :=
  s.length = k ∧ (∀ c ∈ s, c ∈ alphabet) ∧ value s = n

/-- The X-Ray id of a trace: version 1, the upper 32 bits in 8 digits, the other 96 bits in 24. -/
def Xray (id : Nat) (s : List Char) : Prop :=
  ∃ t r, s = "1-".toList ++ t ++ ['-'] ++ r ∧ Digits 8 (id / 2 ^ 96) t ∧ Digits 24 (id % 2 ^ 96) r

/-- The id of a request: that of the client, if it can be read, or the generated one. -/
def IsId (visible : String → Bool) (r : Incoming) (fresh id : String) : Prop :=
  (∃ v, r.headers.lookup "x-request-id" = some v ∧ visible v = true ∧ id = v) ∨
  ((∀ v, r.headers.lookup "x-request-id" = some v → visible v = false) ∧ id = fresh)

/-- The span of a request says what the request was and who sent it. -/
structure Describes (visible : String → Bool) (aws : Bool) (a : Arrival) (s : Span) : Prop where
  trace : s.trace = a.trace
  method : s.method = a.request.method
  path : s.path = a.request.path
  ip : s.clientIp = some a.request.peer
  id : ∃ id, IsId visible a.request a.fresh id ∧ s.requestId = some id ∧ s.connectionId = some id
  agent : s.userAgent = some ((a.request.headers.lookup "user-agent").getD "Unknown User Agent")
  traceId : ∃ t, s.traceId = some t ∧ Digits 32 a.trace t
  xray : aws = true → ∃ t, s.xrayTraceId = some t ∧ Xray a.trace t
  noXray : aws = false → s.xrayTraceId = none

/-- The router does not write spans or lines itself and knows nothing of the spans. -/
def Quiet (app : Service) : Prop :=
  (∀ r w, (app r w).2 = w) ∧
  ∀ r r' w w', r.toIncoming = r'.toIncoming → (app r w).1 = (app r' w').1

/-- The answer of a router that is quiet. -/
def answer (app : Service) (r : Incoming) : Nat := (app { toIncoming := r } ⟨[], []⟩).1

/-- The lines of a request. -/
def lines (span : Option Nat) (status : Nat) : List Line := [.received span, .processed span status]

/-- The lines of requests with the given answers, the first of which has span number `n`. -/
def allLines (tracing : Bool) : Nat → List Nat → List Line
  | _, [] => []
  | n, s :: rest => lines (if tracing then some n else none) s ++ allLines tracing (n + 1) rest

/-- The first span describes the first request, and so on. -/
inductive AllDescribe (visible : String → Bool) (aws : Bool) : List Arrival → List Span → Prop
  | nil : AllDescribe visible aws [] []
  | cons {a s as ss} : Describes visible aws a s → AllDescribe visible aws as ss →
      AllDescribe visible aws (a :: as) (s :: ss)

end Verif.Trace.Spec
