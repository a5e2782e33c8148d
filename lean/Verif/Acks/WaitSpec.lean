import Verif.Acks.Wait

/-!
# Specification of sending with acknowledgements
-/

namespace Verif.Acks.Wait.Spec

open Verif.Acks

/-- What call number `n` was asked and what it returned, if it has returned. -/
def outcome (st : Reg) (n : Nat) : Option (Request × Result) :=
  match st.calls[n]? with
  | some ⟨r, .done res⟩ => some (r, res)
  | _ => none

/-- How often a message was broadcast. -/
def broadcastsOf (st : Reg) (id : String) : Nat := st.broadcasts.countP (fun b => b.id == id)

/-- The number of attempts to which a message is entitled. -/
def entitled (su : Setup) : Nat := max 1 su.cfg.maxAttempts

/-- Connections neither come nor go. -/
def Settled (ops : List Op) : Prop := ∀ c, Op.connect c ∉ ops ∧ Op.disconnect c ∉ ops

/-- No write to a connection fails. -/
def Healthy (ops : List Op) : Prop := ∀ b, Op.react b ∈ ops → b = []

/-- Who is to be told about what: for every loss the clients named that are connected. -/
def owed (conns : List String) : List Action → List (String × String)
  | [] => []
  | .lost id clients :: as =>
    (clients.filter (fun c => conns.contains c)).map (fun c => (c, id)) ++ owed conns as
  | .resend _ _ _ _ :: as => owed conns as

/-- No two calls use the same message id. -/
def DistinctIds (st : Reg) : Prop :=
  ∀ (i j : Nat) c d, st.calls[i]? = some c → st.calls[j]? = some d → c.req.id = d.req.id → i = j

end Verif.Acks.Wait.Spec

namespace Verif.Acks.Wait.Spec

/-- What the tasks of the registry do by themselves: no new calls, no acknowledgements, no changes of
the connections, no failing writes. -/
def Internal : Op → Prop
  | .publish _ | .await _ | .resume _ | .work _ | .check _ | .emit | .poll _ => True
  | .react broken => broken = []
  | _ => False

end Verif.Acks.Wait.Spec
