import Verif.Acks.Model

/-!
# Model of sending with acknowledgements, every task interleaving

`libs/runtime/ws-registry/src/registry.rs`: `start_ack_worker` (99-163), `send_message` (346-387),
`record_pending_ack` (281-296), `wait_for_ack` (298-326), `record_received_ack` (272-279) and the
branch of `listen` for acknowledgements (218-221); `acks.rs`: the loop of the worker (142-179), the
periodic check (210-270) and `handle_ack_wait` (272-310).

The tasks are the callers of `send_message`, the worker, the periodic check, one task for each
waiting call and the task that reacts to the actions of the check. A step is what one of them does
between two of its awaits. Channels are not bounded and do not close; locks are held during a step
only. The reaction to a resend is one step: recording it and broadcasting it.

Messages that arrive for connections of this node are left out here (`Verif.Cluster`).
-/

namespace Verif.Acks.Wait

open Verif.Acks

/-- `AckWorkerMessage` (`acks.rs` 56-60) without `Check`, which changes nothing. `ticket` stands for
the sender of the oneshot channel. -/
inductive ToWorker where
  | status (id : String) (s : Status)
  | wait (id : String) (ticket : Nat)
  deriving Repr, DecidableEq

/-- The arguments of `send_message`, with the default context if there is none. -/
structure Request where
  conn : String
  id : String
  message : String
  wait : Bool
  inform : List String
  deriving Repr, DecidableEq

/-- `Result<(), WebSocketConnError>`. -/
inductive Result where
  | ok
  | sendError
  | messageLost (id : String)
  deriving Repr, DecidableEq

/-- How far a call of `send_message` has come: before the broadcast (`registry.rs` 372), before
`wait_for_ack` (383), waiting for the oneshot channel (316), returned. -/
inductive Stage where
  | recorded
  | published
  | waiting
  | done (r : Result)
  deriving Repr, DecidableEq

/-- A call of `send_message`. -/
structure Call where
  req : Request
  stage : Stage
  deriving Repr, DecidableEq

/-- A message given to the broadcaster (`registry.rs` 372-380), without the source node. -/
structure Broadcast where
  conn : String
  id : String
  message : String
  inform : List String
  deriving Repr, DecidableEq

/-- Whether there is a broadcaster, and the configuration of the worker. -/
structure Setup where
  broadcaster : Bool
  cfg : Config
  deriving Repr, DecidableEq

/-- The registry, its worker and all tasks. -/
structure Reg where
  /-- Whether `ack_sender` has been set (113-116). -/
  installed : Bool := false
  /-- The channel to the worker. -/
  chan : List ToWorker := []
  /-- The statuses, the actions of a check not sent yet, and all actions sent. -/
  worker : State := .init
  /-- How many of the actions sent the reacting task has taken from their channel. -/
  handled : Nat := 0
  /-- Whether the reacting task has panicked. -/
  dead : Bool := false
  /-- Connections of this node. -/
  conns : List String := []
  /-- Messages written to connections of this node. -/
  writes : List (String × String) := []
  /-- Lost message events: to which client, about which message. -/
  notices : List (String × String) := []
  /-- Messages broadcast to the other nodes. -/
  broadcasts : List Broadcast := []
  calls : List Call := []
  /-- Running `handle_ack_wait` tasks. -/
  waiters : List (Nat × String) := []
  /-- What has been sent on oneshot channels. -/
  replies : List (Nat × Status) := []
  deriving Repr, DecidableEq

/-- Sending to the worker, if the sender has been set (`registry.rs` 273, 287, 305). -/
def Reg.tell (st : Reg) (m : ToWorker) : Reg :=
  if st.installed then { st with chan := st.chan ++ [m] } else st

/-- The start of `send_message`: a local write (353-361), or `record_pending_ack` (362-370), or
nothing if there is no broadcaster. `ok` is the result of the write. -/
def Reg.call (su : Setup) (st : Reg) (r : Request) (ok : Bool) : Reg :=
  if st.conns.contains r.conn then
    { st with
      writes := if ok then st.writes ++ [(r.conn, r.message)] else st.writes
      calls := st.calls ++ [⟨r, .done (if ok then .ok else .sendError)⟩] }
  else if su.broadcaster then
    { st.tell (.status r.id (.pending r.message r.inform)) with
      calls := st.calls ++ [⟨r, .recorded⟩] }
  else { st with calls := st.calls ++ [⟨r, .done .ok⟩] }

/-- The broadcast (372-380) and the test of `wait_for_ack` (382). -/
def Reg.publish (st : Reg) (n : Nat) : Reg :=
  match st.calls[n]? with
  | some ⟨r, .recorded⟩ =>
    { st with
      broadcasts := st.broadcasts ++ [⟨r.conn, r.id, r.message, r.inform⟩]
      calls := st.calls.set n ⟨r, if r.wait then .published else .done .ok⟩ }
  | _ => st

/-- The start of `wait_for_ack` (298-313). -/
def Reg.await (st : Reg) (n : Nat) : Reg :=
  match st.calls[n]? with
  | some ⟨r, .published⟩ =>
    if st.installed then
      { st.tell (.wait r.id n) with calls := st.calls.set n ⟨r, .waiting⟩ }
    else { st with calls := st.calls.set n ⟨r, .done .ok⟩ }
  | _ => st

/-- The end of `wait_for_ack` (315-325). -/
def Reg.resume (st : Reg) (n : Nat) : Reg :=
  match st.calls[n]? with
  | some ⟨r, .waiting⟩ =>
    match st.replies.lookup n with
    | some s =>
      { st with calls := st.calls.set n ⟨r, .done (if s = .received then .ok else .messageLost r.id)⟩ }
    | none => st
  | _ => st

/-- One message in the loop of the worker (`acks.rs` 143-173). -/
def Reg.work (su : Setup) (st : Reg) (now : Nat) : Reg :=
  match st.chan with
  | [] => st
  | .status id s :: rest =>
    { st with chan := rest, worker := step su.cfg st.worker (.status id s now) }
  | .wait id n :: rest => { st with chan := rest, waiters := st.waiters ++ [(n, id)] }

/-- One turn of `handle_ack_wait` (`acks.rs` 281-308). -/
def Reg.poll (st : Reg) (n : Nat) : Reg :=
  match st.waiters.lookup n with
  | none => st
  | some id =>
    let answer (s : Status) : Reg :=
      { st with
        waiters := st.waiters.filter (fun w => w.1 != n)
        replies := st.replies ++ [(n, s)] }
    match st.worker.acks.lookup id with
    | some e =>
      match e.status with
      | .pending _ _ => st
      | s => answer s
    | none => answer .lost

/-- Informing the clients (`registry.rs` 140-158). A failing write panics (`unwrap`, 156), which ends
the task. -/
def notify (conns broken : List String) (id : String) :
    List String → List (String × String) × Bool
  | [] => ([], false)
  | c :: cs =>
    if conns.contains c then
      if broken.contains c then ([], true)
      else let (ns, d) := notify conns broken id cs; ((c, id) :: ns, d)
    else notify conns broken id cs

/-- One action in the reacting task (`registry.rs` 118-161). `broken` are the connections whose
writes fail. -/
def Reg.react (st : Reg) (broken : List String) : Reg :=
  if st.dead then st
  else
    match st.worker.emitted[st.handled]? with
    | none => st
    | some (.resend c id m inform) =>
      if st.conns.contains c then
        { st with
          handled := st.handled + 1
          writes := if broken.contains c then st.writes else st.writes ++ [(c, m)] }
      else
        { st.tell (.status id (.pending m inform)) with
          handled := st.handled + 1
          broadcasts := st.broadcasts ++ [⟨c, id, m, inform⟩] }
    | some (.lost id clients) =>
      { st with
        handled := st.handled + 1
        notices := st.notices ++ (notify st.conns broken id clients).1
        dead := (notify st.conns broken id clients).2 }

/-- The steps of the tasks, and what happens outside: connections come and go, acknowledgements
arrive. -/
inductive Op where
  | install
  | connect (c : String)
  | disconnect (c : String)
  | call (r : Request) (ok : Bool)
  | publish (n : Nat)
  | await (n : Nat)
  | resume (n : Nat)
  | ack (id : String)
  | work (now : Nat)
  | check (now : Nat)
  | emit
  | react (broken : List String)
  | poll (n : Nat)
  deriving Repr, DecidableEq

/-- One step. -/
def step (su : Setup) (st : Reg) : Op → Reg
  | .install => if su.broadcaster then { st with installed := true } else st
  | .connect c => { st with conns := c :: st.conns.filter (fun x => x != c) }
  | .disconnect c => { st with conns := st.conns.filter (fun x => x != c) }
  | .call r ok => st.call su r ok
  | .publish n => st.publish n
  | .await n => st.await n
  | .resume n => st.resume n
  | .ack id => st.tell (.status id .received)
  | .work now => st.work su now
  | .check now => { st with worker := Acks.step su.cfg st.worker (.check now) }
  | .emit => { st with worker := Acks.step su.cfg st.worker .emit }
  | .react broken => st.react broken
  | .poll n => st.poll n

/-- A history. -/
def run (su : Setup) (st : Reg) (ops : List Op) : Reg := ops.foldl (step su) st

end Verif.Acks.Wait
