import Verif.Transform.Model

/-!
# Specification of the configuration transformation
-/

namespace Verif.Transform.Spec

open Verif Verif.Subst Verif.Transform

/-- The resource carries one of the selected labels with the selected value. -/
def HasLabel {F : Type} (byLabel : List (Str × Str)) (r : Resource F) : Prop :=
  ∃ labels k v, r.labels = some labels ∧ (k, v) ∈ byLabel ∧ labels.lookup k = some v

/-- The resource carries a label with one of the selected keys. -/
def HasLabelKey {F : Type} (byLabel : List (Str × Str)) (r : Resource F) : Prop :=
  ∃ labels k v w, r.labels = some labels ∧ (k, v) ∈ byLabel ∧ labels.lookup k = some w

/-- The first setting that is present, from the most specific level to the least specific. -/
def mostSpecific {A : Type} : List (Option A) → Option A
  | [] => none
  | some a :: _ => some a
  | none :: rest => mostSpecific rest

/-- The documented effective timeout: the most specific setting, 60 seconds if there is none, at
most 3600 seconds. -/
def effectiveTimeout (own linked shared : Option Int) : Int :=
  min ((mostSpecific [own, linked, shared]).getD 60) 3600

/-- Segments of a path. -/
inductive Segment where
  | text (s : Str)
  | param (name : Str)
  | catchAll (name : Str)
  deriving Repr, DecidableEq

/-- The way a segment is written in a blueprint. -/
def Segment.blueprint : Segment → Str
  | .text s => s
  | .param n => '{' :: (n ++ ['}'])
  | .catchAll n => '{' :: (n ++ ['+', '}'])

/-- The way a segment is written for the router. -/
def Segment.router : Segment → Str
  | .text s => s
  | .param n => ':' :: n
  | .catchAll n => '*' :: n

/-- Segments contain no separator; a text segment is not written in braces and the name of a
parameter does not end in the catch-all marker. -/
def Segment.WF : Segment → Prop
  | .text s => '/' ∉ s ∧ ¬ ∃ m, s = '{' :: (m ++ ['}'])
  | .param n => '/' ∉ n ∧ ¬ ∃ m, n = m ++ ['+']
  | .catchAll n => '/' ∉ n

/-- A text segment that could be mistaken for router syntax. -/
def Segment.RouterSyntax : Segment → Prop
  | .text (c :: _) => c = ':' ∨ c = '*'
  | _ => False

/-- Segments put together. -/
def path (write : Segment → Str) : List Segment → Str
  | [] => []
  | [s] => write s
  | s :: t :: rest => write s ++ '/' :: path write (t :: rest)

/-- The annotation `key` is the boolean `true`. -/
def isEnabled {F : Type} (key : Str) (r : Resource F) : Bool :=
  match r.annotations with
  | none => false
  | some a =>
    match a.lookup key with
    | some (.bool b) => b
    | _ => false

/-- The text of a scalar: numbers in decimal, booleans as `true` and `false`. -/
def scalarText {F : Type} (showF : F → Str) (v : Scalar F) : Str :=
  match v with
  | .str s => s
  | .int n => (toString n).toList
  | .float f => showF f
  | .bool b => if b = true then ['t', 'r', 'u', 'e'] else ['f', 'a', 'l', 's', 'e']

/-- The text of an annotation, or a default. -/
def annotationOr {F : Type} (showF : F → Str) (key default : Str) (r : Resource F) : Str :=
  match r.annotations with
  | none => default
  | some a =>
    match a.lookup key with
    | none => default
    | some v => scalarText showF v

/-- Pairwise correspondence of two lists. -/
inductive Pairwise2 {A B : Type} (R : A → B → Prop) : List A → List B → Prop where
  | nil : Pairwise2 R [] []
  | cons {a b as bs} : R a b → Pairwise2 R as bs → Pairwise2 R (a :: as) (b :: bs)

/-- The first handler configuration linked to a handler. -/
def firstConfig {F : Type} (bp : Blueprint F) (r : Resource F) : Option (Str × Resource F) :=
  (selectResources r.linkSelector bp .handlerConfig).head?

/-- What the HTTP definition of a handler must be. -/
structure HttpDef {F : Type} (showF : F → Str) (bp : Blueprint F) (h : Str × Resource F)
    (d : HttpHandler) : Prop where
  name : d.handler = h.1
  method : d.method = annotationOr showF "celerity.handler.http.method".toList "GET".toList h.2
  path : d.path =
    toAxumPath (annotationOr showF "celerity.handler.http.path".toList "/".toList h.2)
  spec : ∃ s, h.2.spec = .handler s ∧
    resolveLocation h.1 s (firstConfig bp h.2) bp.metadata = .ok d.location ∧
    d.timeout = resolveTimeout s (firstConfig bp h.2) bp.metadata ∧
    d.tracingEnabled = resolveTracing s (firstConfig bp h.2) bp.metadata

/-- What the WebSocket definition of a handler must be. -/
structure WsDef {F : Type} (showF : F → Str) (bp : Blueprint F) (routeKey : Str)
    (h : Str × Resource F) (d : WsHandler) : Prop where
  name : d.handler = h.1
  route : d.route =
    annotationOr showF "celerity.handler.websocket.route".toList "$default".toList h.2
  routeKey : d.routeKey = routeKey
  spec : ∃ s, h.2.spec = .handler s ∧
    resolveLocation h.1 s (firstConfig bp h.2) bp.metadata = .ok d.location ∧
    d.timeout = resolveTimeout s (firstConfig bp h.2) bp.metadata ∧
    d.tracingEnabled = resolveTracing s (firstConfig bp h.2) bp.metadata

end Verif.Transform.Spec
