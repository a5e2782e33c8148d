import Verif.Cluster.Model

/-! # Specification vocabulary for the cluster properties -/

namespace Verif.Cluster.Spec

open Verif.Cluster

/-- Node names are distinct. -/
def DistinctNames (su : Setup) : Prop :=
  ∀ i j, i < su.n → j < su.n → su.name i = su.name j → i = j

/-- The connection is open on node `j` and on no other node. -/
def OpenOnlyOn (su : Setup) (c : String) (j : Nat) : Prop :=
  j < su.n ∧ c ∈ su.conns j ∧ ∀ k, k < su.n → c ∈ su.conns k → k = j

/-- Every send with this message id is of message `m`, by node `i`, to connection `c`. -/
def OnlySentBy (ops : List Op) (i : Nat) (c id m : String) : Prop :=
  ∀ k c' m' ok, Op.send k c' id m' ok ∈ ops → k = i ∧ c' = c ∧ m' = m

/-- How often a message was sent. -/
def sends (id : String) : List Op → Nat
  | [] => 0
  | .send _ _ id' _ _ :: ops => (if id' = id then 1 else 0) + sends id ops
  | _ :: ops => sends id ops

/-- All channels have been emptied. -/
def Settled (su : Setup) (st : State) : Prop :=
  ∀ k, k < su.n → st.outgoing k = [] ∧ st.incoming k = []

/-- The writes of a message. -/
def writesOf (id : String) (st : State) : List Write := st.writes.filter (fun w => w.messageId == id)

/-- How often a node was told that a message was received. -/
def told (id : String) (st : State) (k : Nat) : Nat := (st.received k).count id

end Verif.Cluster.Spec
