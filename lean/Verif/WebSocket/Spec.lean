import Verif.WebSocket.Model

/-!
# Specification of the WebSocket endpoint
-/

namespace Verif.WebSocket.Spec

open Verif.WebSocket

/-- The route named by a message: the string under the route key of a JSON object. -/
def Names (key : String) (v : Json) (route : String) : Prop :=
  ∃ fields, v = .obj fields ∧ (key, .str route) ∈ fields

/-- Objects have no repeated keys. -/
def KeysDistinct : Json → Prop
  | .obj fields => (fields.map (·.1)).Nodup
  | _ => True

/-- The documented frame layout: one byte of length, the route, the payload. -/
def frame (route payload : Bytes) : Bytes := UInt8.ofNat route.length :: route ++ payload

/-- Inputs that close a socket. -/
def closes : Input → Bool
  | .msg .close => true
  | .failed => true
  | .ended => true
  | _ => false

/-- The id given to a client: the one it asked for, else the generated one. -/
def givenId (header : Option String) (generated : String) : String := header.getD generated

/-- The sockets open after a history, with the ids given to their clients, newest first. -/
def opens : List Op → List (Sock × String) :=
  List.foldl (fun os op =>
    match op with
    | .connect s h g => (s, givenId h g) :: os
    | .recv s i => if closes i then os.filter (fun o => o.1 != s) else os) []

/-- Sockets are new when accepted. -/
def FreshSockets (ops : List Op) : Prop :=
  ∀ pre s h g post, ops = pre ++ .connect s h g :: post → s ∉ (opens pre).map (·.1)

/-- No client is given an id that belongs to an open connection. -/
def FreshIds (ops : List Op) : Prop :=
  ∀ pre s h g post, ops = pre ++ .connect s h g :: post → givenId h g ∉ (opens pre).map (·.2)

/-- No client sends an empty binary frame. -/
def NoEmptyFrame (ops : List Op) : Prop := ∀ s, .recv s (.msg (.binary [])) ∉ ops

end Verif.WebSocket.Spec
