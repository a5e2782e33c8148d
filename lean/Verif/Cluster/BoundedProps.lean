import Verif.Cluster.Bounded

/-!
# C167: a node keeps passing messages on
-/

namespace Verif.Cluster.Bounded

open Verif.Cluster

/-! ## Specification -/

namespace Spec

/-- Something is under way. -/
def Busy (n : Node) : Prop :=
  n.redis ≠ [] ∨ n.task.isSome ∨ n.incoming ≠ [] ∨ n.listener.isSome ∨ n.outgoing ≠ [] ∨ n.waiting ≠ []

/-- The node can do something by itself. -/
def Alive (cfg : Cfg) (n : Node) : Prop := ∃ a n', a.own = true ∧ step cfg n a = some n'

/-- Both tasks wait for each other. -/
def Stuck (cfg : Cfg) (n : Node) : Prop :=
  n.task.isSome ∧ cfg.cap ≤ n.incoming.length ∧ n.listener.isSome ∧ cfg.cap ≤ n.outgoing.length

/-- What a node can come to. -/
def Reach (cfg : Cfg) (n : Node) : Prop := ∃ acts, run cfg acts .init = some n

/-- The number of messages that arrive. -/
def arrivals (acts : List Act) : Nat :=
  acts.countP fun a => match a with | .arrive _ => true | _ => false

/-- The messages that the node is asked to send: connection, id and text. -/
def asked (acts : List Act) : List (String × String × String) :=
  acts.filterMap fun a => match a with | .call c id m => some (c, id, m) | _ => none

/-- The messages among what is sent, without acknowledgements. -/
def messages (l : List Body) : List (String × String × String) :=
  l.filterMap fun b => match b with | .webSocket c id _ m => some (c, id, m) | .ack _ _ => none

/-- What arrives. -/
def wires (acts : List Act) : List Wire :=
  acts.filterMap fun a => match a with | .arrive w => some w | _ => none

/-- The messages that are to be written to connections of the node, with the node they come from: those
of other nodes for one of its connections, unless an acknowledgement with their id that was meant for
the node arrived before. -/
def due (cfg : Cfg) : List String → List Wire → List (String × String × String × String)
  | _, [] => []
  | acked, ⟨sender, .ack id node⟩ :: rest =>
    if sender ≠ cfg.name ∧ node = cfg.name then due cfg (id :: acked) rest else due cfg acked rest
  | acked, ⟨sender, .webSocket c id source m⟩ :: rest =>
    if sender ≠ cfg.name ∧ id ∉ acked ∧ c ∈ cfg.conns then (c, id, source, m) :: due cfg acked rest
    else due cfg acked rest

/-- The acknowledgements among what is sent: id and node. -/
def acks (l : List Body) : List (String × String) :=
  l.filterMap fun b => match b with | .ack id node => some (id, node) | .webSocket _ _ _ _ => none

end Spec

open Spec

/-- C167 in full: as long as something is under way, the node can do something. -/
def FullAlive (cfg : Cfg) : Prop := ∀ n, Reach cfg n → Busy n → Alive cfg n

/-! ## The node can stop for good -/

theorem run_append (cfg : Cfg) (as bs : List Act) (n : Node) :
    run cfg (as ++ bs) n = (run cfg as n).bind (run cfg bs) := by
  induction as generalizing n with
  | nil => rfl
  | cons a as ih =>
    rw [List.cons_append, run, run, Option.bind_assoc]
    congr 1
    funext m
    exact ih m

theorem reach_init (cfg : Cfg) : Reach cfg .init := ⟨[], rfl⟩

theorem reach_step {cfg : Cfg} {n n' : Node} (a : Act) (h : Reach cfg n)
    (hs : step cfg n a = some n') : Reach cfg n' := by
  obtain ⟨acts, h⟩ := h
  exact ⟨acts ++ [a], by rw [run_append, h]; simp [run, hs]⟩

/-- Once the tasks wait for each other, the node writes and publishes nothing any more, whatever else
happens. -/
theorem stuck_forever (cfg : Cfg) (acts : List Act) (n n' : Node) (h : Stuck cfg n)
    (hr : run cfg acts n = some n') :
    Stuck cfg n' ∧ n'.writes = n.writes ∧ n'.published = n.published ∧ ¬ Alive cfg n' := by
  have dead : ∀ n, Stuck cfg n → ∀ a, a.own = true → step cfg n a = none := by
    rintro n ⟨h1, h2, h3, h4⟩ a ha
    obtain ⟨t, ht⟩ := Option.isSome_iff_exists.1 h1
    obtain ⟨l, hl⟩ := Option.isSome_iff_exists.1 h3
    cases a with
    | arrive w => cases ha
    | call c id m => cases ha
    | enter =>
      rw [step]
      split
      · rw [if_neg (by omega)]
      · rfl
    | take => rw [step, ht]
    | handOver => rw [step, ht]; dsimp only; rw [if_neg (by omega)]
    | publish => rw [step, ht]
    | listen => rw [step, hl]
    | ack => rw [step, hl]; dsimp only; rw [if_neg (by omega)]
  have alive : ∀ n, Stuck cfg n → ¬ Alive cfg n := by
    rintro n h ⟨a, m, ha, hm⟩
    rw [dead n h a ha] at hm
    cases hm
  induction acts generalizing n with
  | nil =>
    injection hr with hr
    subst hr
    exact ⟨h, rfl, rfl, alive n h⟩
  | cons a as ih =>
    rw [run] at hr
    by_cases ha : a.own = true
    · rw [dead n h a ha] at hr
      cases hr
    · cases a with
      | arrive w => exact ih { n with redis := n.redis ++ [w] } h hr
      | call c id m =>
        exact ih { n with waiting := n.waiting ++ [.webSocket c id cfg.name m] } h hr
      | enter => exact absurd rfl ha
      | take => exact absurd rfl ha
      | handOver => exact absurd rfl ha
      | publish => exact absurd rfl ha
      | listen => exact absurd rfl ha
      | ack => exact absurd rfl ha

/-- A node with at least one connection can come to that, however much room the channels have, if
another node sends it `cap + 2` messages while it sends `cap` itself. -/
theorem stops (cfg : Cfg) (h0 : 0 < cfg.cap) (c : String) (hc : c ∈ cfg.conns) :
    ∃ acts n, run cfg acts .init = some n ∧ Stuck cfg n ∧ arrivals acts = cfg.cap + 2 ∧
      (asked acts).length = cfg.cap := by
  obtain ⟨other, ho⟩ : ∃ other : String, (other != cfg.name) = true := by
    refine ⟨cfg.name ++ "x", ?_⟩
    rw [bne_iff_ne]
    intro h
    have := congrArg String.length h
    rw [String.length_append] at this
    have hx : "x".length = 1 := by decide
    omega
  let b : Body := .webSocket "far" "i" cfg.name "m"
  let m : Body := .webSocket c "j" other "m"
  let w : Wire := ⟨other, m⟩
  have hacc : accepts cfg.name w = true := by
    show (other != cfg.name && true) = true
    rw [ho]
    rfl
  let At (acts : List Act) (n : Node) (x y : Nat) : Prop :=
    run cfg acts .init = some n ∧ arrivals acts = x ∧ (asked acts).length = y
  have go : ∀ {acts n x y} (a : Act) {n'}, At acts n x y → step cfg n a = some n' →
      At (acts ++ [a]) n' (x + arrivals [a]) (y + (asked [a]).length) := by
    rintro acts n x y a n' ⟨h1, h2, h3⟩ hs
    refine ⟨by rw [run_append, h1]; simp [run, hs], ?_, ?_⟩
    · rw [arrivals, List.countP_append, ← h2]; rfl
    · rw [asked, List.filterMap_append, List.length_append, ← h3]; rfl
  -- the outgoing channel is filled
  have s1 : ∀ k, k ≤ cfg.cap → ∃ acts,
      At acts ⟨[], none, [], none, List.replicate k b, [], [], [], []⟩ 0 k := by
    intro k hk
    induction k with
    | zero => exact ⟨[], rfl, rfl, rfl⟩
    | succ k ih =>
      obtain ⟨acts, h⟩ := ih (by omega)
      have h1 := go (.call "far" "i" "m") h (n' := ⟨[], none, [], none, List.replicate k b, [b], [], [], []⟩)
        rfl
      have h2 := go .enter h1
        (n' := ⟨[], none, [], none, List.replicate (k + 1) b, [], [], [], []⟩) (by
          rw [step]
          dsimp only
          rw [List.length_replicate, if_pos (by omega), List.replicate_succ'])
      exact ⟨_, h2⟩
  -- messages arrive
  have s2 : ∀ k, ∃ acts,
      At acts ⟨List.replicate k w, none, [], none, List.replicate cfg.cap b, [], [], [], []⟩ k cfg.cap := by
    intro k
    induction k with
    | zero => exact s1 cfg.cap (Nat.le_refl _)
    | succ k ih =>
      obtain ⟨acts, h⟩ := ih
      have h1 := go (.arrive w) h
        (n' := ⟨List.replicate (k + 1) w, none, [], none, List.replicate cfg.cap b, [], [], [], []⟩) (by
          rw [step, List.replicate_succ'])
      exact ⟨_, h1⟩
  -- `listen` takes the first and waits with its acknowledgement
  have s3 : ∃ acts,
      At acts ⟨List.replicate (cfg.cap + 1) w, none, [], some (.ack "j" other),
        List.replicate cfg.cap b, [], [], [(c, "j", "m")], []⟩ (cfg.cap + 2) cfg.cap := by
    obtain ⟨acts, h⟩ := s2 (cfg.cap + 2)
    have h1 := go .take h
      (n' := ⟨List.replicate (cfg.cap + 1) w, some m, [], none, List.replicate cfg.cap b, [], [], [], []⟩) (by
        rw [step]
        show (if accepts cfg.name w = true then _ else _) = _
        rw [if_pos hacc])
    have h2 := go .handOver h1
      (n' := ⟨List.replicate (cfg.cap + 1) w, none, [m], none, List.replicate cfg.cap b, [], [], [], []⟩) (by
        rw [step]
        exact if_pos h0)
    have h3 := go .listen h2
      (n' := ⟨List.replicate (cfg.cap + 1) w, none, [], some (.ack "j" other),
        List.replicate cfg.cap b, [], [], [(c, "j", "m")], []⟩) (by
        show some (listen cfg _ (.webSocket c "j" other "m")) = _
        rw [listen, if_neg (by simp), if_pos (by simpa using hc)]
        rfl)
    exact ⟨_, h3⟩
  -- the incoming channel is filled
  have s4 : ∀ k, k ≤ cfg.cap → ∃ acts,
      At acts ⟨List.replicate (cfg.cap + 1 - k) w, none, List.replicate k m, some (.ack "j" other),
        List.replicate cfg.cap b, [], [], [(c, "j", "m")], []⟩ (cfg.cap + 2) cfg.cap := by
    intro k hk
    induction k with
    | zero => exact s3
    | succ k ih =>
      obtain ⟨acts, h⟩ := ih (by omega)
      have e : cfg.cap + 1 - k = cfg.cap + 1 - (k + 1) + 1 := by omega
      rw [e] at h
      generalize cfg.cap + 1 - (k + 1) = r at h ⊢
      have h1 := go .take h
        (n' := ⟨List.replicate r w, some m, List.replicate k m, some (.ack "j" other),
          List.replicate cfg.cap b, [], [], [(c, "j", "m")], []⟩) (by
          rw [step]
          show (if accepts cfg.name w = true then _ else _) = _
          rw [if_pos hacc])
      have h2 := go .handOver h1
        (n' := ⟨List.replicate r w, none, List.replicate (k + 1) m, some (.ack "j" other),
          List.replicate cfg.cap b, [], [], [(c, "j", "m")], []⟩) (by
          rw [step]
          dsimp only
          rw [List.length_replicate, if_pos (by omega), List.replicate_succ'])
      exact ⟨_, h2⟩
  obtain ⟨acts, h⟩ := s4 cfg.cap (Nat.le_refl _)
  rw [Nat.add_sub_cancel_left] at h
  have h1 := go .take h
    (n' := ⟨[], some m, List.replicate cfg.cap m, some (.ack "j" other),
      List.replicate cfg.cap b, [], [], [(c, "j", "m")], []⟩) (by
      rw [step]
      show (if accepts cfg.name w = true then _ else _) = _
      rw [if_pos hacc]
      rfl)
  obtain ⟨r1, r2, r3⟩ := h1
  exact ⟨_, _, r1, ⟨rfl, by simp, rfl, by simp⟩, r2, r3⟩

/-- C167 is false of every node with a connection, with channels of any size. -/
theorem alive_violated (cfg : Cfg) (h0 : 0 < cfg.cap) (c : String) (hc : c ∈ cfg.conns) :
    ¬ FullAlive cfg := by
  intro full
  obtain ⟨acts, n, hr, hs, -, -⟩ := stops cfg h0 c hc
  exact (stuck_forever cfg [] n n hs rfl).2.2.2 (full n ⟨acts, hr⟩ (.inr (.inl hs.1)))

/-- The channels of the code. -/
example : ¬ FullAlive ⟨1024, "a", ["c"]⟩ := alive_violated _ (by decide) "c" (by decide)

/-! ## There is no other way to stop -/

/-- A node where something is under way can do something, unless both tasks wait for each other. -/
theorem alive_iff_partial (cfg : Cfg) (h0 : 0 < cfg.cap) (n : Node) (hb : Busy n) :
    Alive cfg n ↔ ¬ Stuck cfg n := by
  constructor
  · intro ha hs
    exact (stuck_forever cfg [] n n hs rfl).2.2.2 ha
  · intro hs
    obtain ⟨redis, task, incoming, listener, outgoing, waiting, received, writes, published⟩ := n
    cases task with
    | none =>
      cases redis with
      | cons w rest =>
        by_cases hw : accepts cfg.name w = true
        · exact ⟨.take, _, rfl, by rw [step]; dsimp only; rw [if_pos hw]⟩
        · exact ⟨.take, _, rfl, by rw [step]; dsimp only; rw [if_neg hw]⟩
      | nil =>
        cases outgoing with
        | cons b rest => exact ⟨.publish, _, rfl, rfl⟩
        | nil =>
          cases listener with
          | some b => exact ⟨.ack, _, rfl, if_pos h0⟩
          | none =>
            cases incoming with
            | cons b rest => exact ⟨.listen, _, rfl, rfl⟩
            | nil =>
              cases waiting with
              | cons b rest => exact ⟨.enter, _, rfl, if_pos h0⟩
              | nil => simp [Busy] at hb
    | some t =>
      by_cases h1 : incoming.length < cfg.cap
      · exact ⟨.handOver, _, rfl, if_pos h1⟩
      · cases incoming with
        | nil => exact absurd h0 h1
        | cons b rest =>
          cases listener with
          | none => exact ⟨.listen, _, rfl, rfl⟩
          | some a =>
            by_cases h2 : outgoing.length < cfg.cap
            · exact ⟨.ack, _, rfl, if_pos h2⟩
            · exact absurd ⟨rfl, Nat.le_of_not_lt h1, rfl, Nat.le_of_not_lt h2⟩ hs

/-- How many messages from elsewhere are under way. -/
def load (n : Node) : Nat :=
  n.redis.length + n.task.toList.length + n.incoming.length + n.listener.toList.length

theorem listen_load (cfg : Cfg) (n : Node) (hl : n.listener = none) (b : Body) :
    load (listen cfg n b) ≤ load n + 1 := by
  cases b with
  | webSocket c id source m =>
    rw [listen]
    split
    · omega
    · split
      · simp [load, hl]
      · omega
  | ack id node => simp [listen, load]

theorem step_load (cfg : Cfg) (n n' : Node) (a : Act) (h : step cfg n a = some n') :
    load n' ≤ load n + arrivals [a] := by
  cases a with
  | arrive w =>
    injection h with h
    subst h
    simp [load, arrivals]
    omega
  | call c id m =>
    injection h with h
    subst h
    simp [load]
  | enter =>
    rw [step] at h
    split at h
    · split at h
      · injection h with h
        subst h
        simp [load]
      · cases h
    · cases h
  | take =>
    rw [step] at h
    split at h
    · rename_i h1 h2
      split at h <;>
      · injection h with h
        subst h
        simp [load, h1, h2]
        try omega
    · cases h
  | handOver =>
    rw [step] at h
    split at h
    · rename_i b h1
      split at h
      · injection h with h
        subst h
        simp [load, h1]
        omega
      · cases h
    · cases h
  | publish =>
    rw [step] at h
    split at h
    · injection h with h
      subst h
      simp [load]
    · cases h
  | listen =>
    rw [step] at h
    split at h
    · rename_i b rest h1 h2
      injection h with h
      subst h
      have := listen_load cfg { n with incoming := rest } h1 b
      refine Nat.le_trans this ?_
      simp [load, h1, h2]
      omega
    · cases h
  | ack =>
    rw [step] at h
    split at h
    · rename_i b h1
      split at h
      · injection h with h
        subst h
        simp [load, h1]
        omega
      · cases h
    · cases h

theorem run_load (cfg : Cfg) (acts : List Act) (n n' : Node) (h : run cfg acts n = some n') :
    load n' ≤ load n + arrivals acts := by
  induction acts generalizing n with
  | nil =>
    injection h with h
    subst h
    omega
  | cons a as ih =>
    rw [run] at h
    obtain ⟨m, h1, h2⟩ := Option.bind_eq_some_iff.1 h
    have e : arrivals (a :: as) = arrivals [a] + arrivals as := by
      rw [arrivals, ← List.singleton_append, List.countP_append]
      rfl
    have := step_load cfg n m a h1
    have := ih m h2
    omega

/-- Up to `cap + 1` messages from other nodes, that cannot happen; with `cap + 2` it can, see
`stops`. -/
theorem few_partial (cfg : Cfg) (h0 : 0 < cfg.cap) (acts : List Act) (n : Node)
    (hr : run cfg acts .init = some n) (hf : arrivals acts ≤ cfg.cap + 1) (hb : Busy n) : Alive cfg n := by
  rw [alive_iff_partial cfg h0 n hb]
  rintro ⟨h1, h2, h3, -⟩
  have := run_load cfg acts .init n hr
  obtain ⟨t, ht⟩ := Option.isSome_iff_exists.1 h1
  obtain ⟨l, hl⟩ := Option.isSome_iff_exists.1 h3
  simp [load, ht, hl, Node.init] at this
  omega

/-! ## Otherwise everything is sent -/

/-- How much is left to do. -/
def work (n : Node) : Nat :=
  5 * n.redis.length + 4 * n.task.toList.length + 3 * n.incoming.length + 2 * n.listener.toList.length +
    n.outgoing.length + 2 * n.waiting.length

theorem listen_work (cfg : Cfg) (n : Node) (hl : n.listener = none) (b : Body) :
    work (listen cfg n b) ≤ work n + 2 := by
  cases b with
  | webSocket c id source m =>
    rw [listen]
    split
    · omega
    · split
      · simp [work, hl]
        omega
      · omega
  | ack id node => simp [listen, work]

/-- Everything that the node does by itself leaves less to do. -/
theorem step_work (cfg : Cfg) (n n' : Node) (a : Act) (ho : a.own = true) (h : step cfg n a = some n') :
    work n' < work n := by
  cases a with
  | arrive w => cases ho
  | call c id m => cases ho
  | enter =>
    rw [step] at h
    split at h
    · rename_i h1
      split at h
      · injection h with h
        subst h
        simp [work, h1]
        omega
      · cases h
    · cases h
  | take =>
    rw [step] at h
    split at h
    · rename_i h1 h2
      split at h <;>
      · injection h with h
        subst h
        simp [work, h1, h2]
        try omega
    · cases h
  | handOver =>
    rw [step] at h
    split at h
    · rename_i b h1
      split at h
      · injection h with h
        subst h
        simp [work, h1]
        omega
      · cases h
    · cases h
  | publish =>
    rw [step] at h
    split at h
    · rename_i h1 h2
      injection h with h
      subst h
      simp [work, h1, h2]
    · cases h
  | listen =>
    rw [step] at h
    split at h
    · rename_i b rest h1 h2
      injection h with h
      subst h
      have := listen_work cfg { n with incoming := rest } h1 b
      refine Nat.lt_of_le_of_lt this ?_
      simp [work, h1, h2]
      omega
    · cases h
  | ack =>
    rw [step] at h
    split at h
    · rename_i b h1
      split at h
      · injection h with h
        subst h
        simp [work, h1]
        omega
      · cases h
    · cases h

/-- The node cannot go on by itself for ever. -/
theorem run_work (cfg : Cfg) (acts : List Act) (n n' : Node) (ho : ∀ a ∈ acts, a.own = true)
    (h : run cfg acts n = some n') : work n' + acts.length ≤ work n := by
  induction acts generalizing n with
  | nil =>
    injection h with h
    subst h
    exact Nat.le_refl _
  | cons a as ih =>
    rw [run] at h
    obtain ⟨m, h1, h2⟩ := Option.bind_eq_some_iff.1 h
    have := step_work cfg n m a (ho a (by simp)) h1
    have := ih m (fun x hx => ho x (by simp [hx])) h2
    rw [List.length_cons]
    omega

theorem listen_sent (cfg : Cfg) (n : Node) (b : Body) :
    (listen cfg n b).published = n.published ∧ (listen cfg n b).outgoing = n.outgoing ∧
      (listen cfg n b).waiting = n.waiting := by
  cases b with
  | webSocket c id source m =>
    rw [listen]
    split
    · exact ⟨rfl, rfl, rfl⟩
    · split <;> exact ⟨rfl, rfl, rfl⟩
  | ack id node => exact ⟨rfl, rfl, rfl⟩

/-- An acknowledgement, not a message. -/
def IsAck : Option Body → Prop
  | some (.webSocket _ _ _ _) => False
  | _ => True

theorem step_sent (cfg : Cfg) (n n' : Node) (a : Act) (hi : IsAck n.listener)
    (h : step cfg n a = some n') :
    IsAck n'.listener ∧
      messages n'.published ++ messages n'.outgoing ++ messages n'.waiting =
        messages n.published ++ messages n.outgoing ++ messages n.waiting ++ asked [a] := by
  cases a with
  | arrive w =>
    injection h with h
    subst h
    exact ⟨hi, by simp [asked]⟩
  | call c id m =>
    injection h with h
    subst h
    exact ⟨hi, by simp [asked, messages]⟩
  | enter =>
    rw [step] at h
    split at h
    · rename_i h1
      split at h
      · injection h with h
        subst h
        refine ⟨hi, ?_⟩
        rw [h1]
        rename_i b rest _
        cases b <;> simp [messages, asked]
      · cases h
    · cases h
  | take =>
    rw [step] at h
    split at h
    · split at h <;>
      · injection h with h
        subst h
        exact ⟨hi, by simp [asked]⟩
    · cases h
  | handOver =>
    rw [step] at h
    split at h
    · split at h
      · injection h with h
        subst h
        exact ⟨hi, by simp [asked]⟩
      · cases h
    · cases h
  | publish =>
    rw [step] at h
    split at h
    · rename_i b rest h1 h2
      injection h with h
      subst h
      refine ⟨hi, ?_⟩
      rw [h2]
      cases b <;> simp [messages, asked]
    · cases h
  | listen =>
    rw [step] at h
    split at h
    · rename_i b rest h1 h2
      injection h with h
      subst h
      obtain ⟨e1, e2, e3⟩ := listen_sent cfg { n with incoming := rest } b
      refine ⟨?_, by rw [e1, e2, e3]; simp [asked]⟩
      cases b with
      | webSocket c id source m =>
        rw [listen]
        split
        · exact hi
        · split
          · trivial
          · exact hi
      | ack id node => exact hi
    · cases h
  | ack =>
    rw [step] at h
    split at h
    · rename_i b h1
      split at h
      · injection h with h
        subst h
        refine ⟨trivial, ?_⟩
        cases b with
        | webSocket c id source m => rw [h1] at hi; exact hi.elim
        | ack id node => simp [messages, asked]
      · cases h
    · cases h

/-- Whatever happens, the messages that the node was asked to send are those it published, then those in
the channel, then those waiting for room, in the order of the calls. -/
theorem kept (cfg : Cfg) (acts : List Act) (n : Node) (h : run cfg acts .init = some n) :
    messages n.published ++ messages n.outgoing ++ messages n.waiting = asked acts := by
  have gen : ∀ (acts : List Act) (n n' : Node), IsAck n.listener → run cfg acts n = some n' →
      messages n'.published ++ messages n'.outgoing ++ messages n'.waiting =
        messages n.published ++ messages n.outgoing ++ messages n.waiting ++ asked acts := by
    intro acts
    induction acts with
    | nil =>
      intro n n' _ h
      injection h with h
      subst h
      simp [asked]
    | cons a as ih =>
      intro n n' hi h
      rw [run] at h
      obtain ⟨m, h1, h2⟩ := Option.bind_eq_some_iff.1 h
      obtain ⟨hj, e⟩ := step_sent cfg n m a hi h1
      have e' : asked (a :: as) = asked [a] ++ asked as := by
        rw [asked, ← List.singleton_append, List.filterMap_append]
        rfl
      rw [ih m n' hj h2, e, e', List.append_assoc]
  simpa [messages, Node.init] using gen acts .init n trivial h

/-- `due` for what the task has let through. -/
def dueB (cfg : Cfg) : List String → List Body → List (String × String × String × String)
  | _, [] => []
  | acked, .ack id _ :: rest => dueB cfg (id :: acked) rest
  | acked, .webSocket c id source m :: rest =>
    if id ∉ acked ∧ c ∈ cfg.conns then (c, id, source, m) :: dueB cfg acked rest else dueB cfg acked rest

theorem dueB_congr (cfg : Cfg) (l : List Body) (p q : List String) (h : ∀ x, x ∈ p ↔ x ∈ q) :
    dueB cfg p l = dueB cfg q l := by
  induction l generalizing p q with
  | nil => rfl
  | cons b rest ih =>
    cases b with
    | ack id node => exact ih _ _ fun x => by simp only [List.mem_cons, h x]
    | webSocket c id source m => simp only [dueB, h id, ih p q h]

/-- What the task lets through. -/
def passing (cfg : Cfg) (l : List Wire) : List Body := (l.filter (accepts cfg.name)).map (·.message)

theorem due_dueB (cfg : Cfg) (acked : List String) (l : List Wire) :
    due cfg acked l = dueB cfg acked (passing cfg l) := by
  induction l generalizing acked with
  | nil => rfl
  | cons w rest ih =>
    obtain ⟨sender, b⟩ := w
    cases b with
    | ack id node =>
      by_cases h : sender ≠ cfg.name ∧ node = cfg.name
      · have : accepts cfg.name ⟨sender, .ack id node⟩ = true := by simp [accepts, h]
        rw [due, if_pos h, ih, passing, passing, List.filter_cons, if_pos this]
        rfl
      · have : accepts cfg.name ⟨sender, .ack id node⟩ ≠ true := by
          intro hc
          exact h (by simpa [accepts] using hc)
        rw [due, if_neg h, ih, passing, passing, List.filter_cons, if_neg this]
    | webSocket c id source m =>
      by_cases hs : sender = cfg.name
      · have : accepts cfg.name ⟨sender, .webSocket c id source m⟩ ≠ true := by simp [accepts, hs]
        rw [due, if_neg (fun h => h.1 hs), ih, passing, passing, List.filter_cons, if_neg this]
      · have : accepts cfg.name ⟨sender, .webSocket c id source m⟩ = true := by simp [accepts, hs]
        rw [due, passing, List.filter_cons, if_pos this, List.map_cons, dueB, ih]
        simp only [passing, ne_eq, hs, not_false_eq_true, true_and]

/-- What was let through, or will be, and is not yet seen by `listen`. -/
def ahead (cfg : Cfg) (n : Node) : List Body := n.incoming ++ n.task.toList ++ passing cfg n.redis

/-- `written` is what `listen` has passed on so far, `future` what will arrive, `total` what is to be
passed on in all. -/
structure Ledger (cfg : Cfg) (n : Node) (written : List (String × String × String × String))
    (future : List Wire) (total : List (String × String × String × String)) : Prop where
  writes : n.writes = written.map fun x => (x.1, x.2.1, x.2.2.2)
  sent : acks n.published ++ acks n.outgoing ++ acks n.listener.toList =
    written.map fun x => (x.2.1, x.2.2.1)
  calls : acks n.waiting = []
  rest : written ++ dueB cfg n.received (ahead cfg n ++ passing cfg future) = total

theorem acks_append (l k : List Body) : acks (l ++ k) = acks l ++ acks k := List.filterMap_append

theorem passing_append (cfg : Cfg) (l k : List Wire) :
    passing cfg (l ++ k) = passing cfg l ++ passing cfg k := by
  simp [passing]

theorem ledger_step (cfg : Cfg) (n n' : Node) (a : Act) (future : List Wire)
    (written total : List (String × String × String × String))
    (hl : Ledger cfg n written (wires [a] ++ future) total) (h : step cfg n a = some n') :
    ∃ written', Ledger cfg n' written' future total := by
  obtain ⟨h1, h2, h3, h4⟩ := hl
  cases a with
  | arrive w =>
    injection h with h
    subst h
    refine ⟨written, h1, h2, h3, ?_⟩
    have : wires [Act.arrive w] = [w] := rfl
    rw [this, passing_append, ← List.append_assoc] at h4
    rw [← h4]
    simp [ahead, passing_append]
  | call c id m =>
    injection h with h
    subst h
    exact ⟨written, h1, h2, by rw [acks_append, h3]; rfl, h4⟩
  | enter =>
    rw [step] at h
    split at h
    · rename_i b rest hw
      split at h
      · injection h with h
        subst h
        rw [hw] at h3
        cases b with
        | ack id node => cases h3
        | webSocket c id source m =>
          refine ⟨written, h1, ?_, h3, h4⟩
          rw [← h2, acks_append]
          simp [acks]
      · cases h
    · cases h
  | take =>
    rw [step] at h
    split at h
    · rename_i w rest ht hr
      split at h
      · rename_i ha
        injection h with h
        subst h
        refine ⟨written, h1, h2, h3, ?_⟩
        rw [← h4]
        simp [ahead, ht, hr, passing, ha, wires]
      · rename_i ha
        injection h with h
        subst h
        refine ⟨written, h1, h2, h3, ?_⟩
        rw [← h4]
        simp [ahead, ht, hr, passing, ha, wires]
    · cases h
  | handOver =>
    rw [step] at h
    split at h
    · rename_i b ht
      split at h
      · injection h with h
        subst h
        refine ⟨written, h1, h2, h3, ?_⟩
        rw [← h4]
        simp [ahead, ht, wires]
      · cases h
    · cases h
  | publish =>
    rw [step] at h
    split at h
    · rename_i b rest _ ho
      injection h with h
      subst h
      refine ⟨written, h1, ?_, h3, h4⟩
      rw [← h2, ho, acks_append, ← List.singleton_append (l := rest), acks_append]
      simp
    · cases h
  | listen =>
    rw [step] at h
    split at h
    · rename_i b rest hi hn
      injection h with h
      subst h
      have hw : ahead cfg n = b :: ahead cfg { n with incoming := rest } := by
        simp [ahead, hn]
      rw [hw, List.cons_append] at h4
      cases b with
      | ack id node =>
        refine ⟨written, h1, h2, h3, ?_⟩
        rw [← h4]
        exact congrArg _ (dueB_congr cfg _ (n.received ++ [id]) (id :: n.received) fun x => by simp [or_comm])
      | webSocket c id source m =>
        rw [dueB] at h4
        rw [listen]
        split
        · rename_i hc
          rw [if_neg (by simp_all)] at h4
          exact ⟨written, h1, h2, h3, h4⟩
        · rename_i hc
          split
          · rename_i hd
            rw [if_pos (by simp_all)] at h4
            refine ⟨written ++ [(c, id, source, m)], ?_, ?_, h3, ?_⟩
            · simp [h1]
            · rw [List.map_append, ← h2, hi]
              simp [acks]
            · rw [List.append_assoc]
              exact h4
          · rename_i hd
            rw [if_neg (by simp_all)] at h4
            exact ⟨written, h1, h2, h3, h4⟩
    · cases h
  | ack =>
    rw [step] at h
    split at h
    · rename_i b hi
      split at h
      · injection h with h
        subst h
        refine ⟨written, h1, ?_, h3, h4⟩
        rw [← h2, hi, acks_append]
        simp [acks]
      · cases h
    · cases h

theorem ledger (cfg : Cfg) (acts : List Act) (n : Node) (h : run cfg acts .init = some n) :
    ∃ written, Ledger cfg n written [] (due cfg [] (wires acts)) := by
  have gen : ∀ (acts : List Act) (n n' : Node) (written total : List (String × String × String × String)),
      Ledger cfg n written (wires acts) total → run cfg acts n = some n' →
        ∃ written', Ledger cfg n' written' [] total := by
    intro acts
    induction acts with
    | nil =>
      intro n n' written total hl h
      injection h with h
      subst h
      exact ⟨written, hl⟩
    | cons a as ih =>
      intro n n' written total hl h
      rw [run] at h
      obtain ⟨m, hs, hr⟩ := Option.bind_eq_some_iff.1 h
      have e : wires (a :: as) = wires [a] ++ wires as := by
        rw [wires, ← List.singleton_append, List.filterMap_append]
        rfl
      rw [e] at hl
      obtain ⟨written', hl'⟩ := ledger_step cfg n m a (wires as) written total hl hs
      exact ih m n' written' total hl' hr
  exact gen acts .init n [] _ ⟨rfl, rfl, rfl, by rw [due_dueB]; rfl⟩ h

/-- Whatever happens, what the node has written to its connections is the beginning of what it is to
pass on, in the order of arrival, and it acknowledges just that, to the nodes it came from. -/
theorem passed_on (cfg : Cfg) (acts : List Act) (n : Node) (h : run cfg acts .init = some n) :
    ∃ written, written <+: due cfg [] (wires acts) ∧
      n.writes = written.map (fun x => (x.1, x.2.1, x.2.2.2)) ∧
      acks n.published ++ acks n.outgoing ++ acks n.listener.toList =
        written.map fun x => (x.2.1, x.2.2.1) := by
  obtain ⟨written, h1, h2, -, h4⟩ := ledger cfg acts n h
  exact ⟨written, ⟨_, h4⟩, h1, h2⟩

/-- Left to itself after any history, the node comes to an end after a bounded number of steps, whatever
their order. Then either both tasks wait for each other, or every message it was asked to send has been
published, in the order of the calls, and every message it is to pass on has been written and
acknowledged, in the order of arrival. -/
theorem settles_partial (cfg : Cfg) (h0 : 0 < cfg.cap) (acts more : List Act) (n n' : Node)
    (hr : run cfg acts .init = some n) (ho : ∀ a ∈ more, a.own = true) (hm : run cfg more n = some n') :
    more.length ≤ work n ∧
      (¬ Alive cfg n' → Stuck cfg n' ∨
        (messages n'.published = asked acts ∧
          n'.writes = (due cfg [] (wires acts)).map (fun x => (x.1, x.2.1, x.2.2.2)) ∧
          acks n'.published = (due cfg [] (wires acts)).map fun x => (x.2.1, x.2.2.1))) := by
  refine ⟨by have := run_work cfg more n n' ho hm; omega, fun ha => ?_⟩
  by_cases hb : Busy n'
  · rw [alive_iff_partial cfg h0 n' hb] at ha
    exact .inl (Classical.not_not.1 ha)
  · right
    have hrun : run cfg (acts ++ more) .init = some n' := by rw [run_append, hr]; exact hm
    have hk := kept cfg (acts ++ more) n' hrun
    have hnone : asked more = [] := by
      rw [asked, List.filterMap_eq_nil_iff]
      intro a hmem
      have := ho a hmem
      cases a <;> first | rfl | cases this
    have hnone' : wires more = [] := by
      rw [wires, List.filterMap_eq_nil_iff]
      intro a hmem
      have := ho a hmem
      cases a <;> first | rfl | cases this
    have hwires : wires (acts ++ more) = wires acts := by
      rw [wires, List.filterMap_append]
      exact (congrArg _ hnone').trans (List.append_nil _)
    rw [asked, List.filterMap_append] at hk
    simp only [Busy, not_or] at hb
    obtain ⟨g1, g2, g3, g4, g5, g6⟩ := hb
    have e1 := Classical.not_not.1 g1
    have e2 : n'.task = none := by simpa using g2
    have e3 := Classical.not_not.1 g3
    have e4 : n'.listener = none := by simpa using g4
    have e5 := Classical.not_not.1 g5
    rw [e5, Classical.not_not.1 g6] at hk
    have hk' : messages n'.published ++ [] ++ [] = asked acts ++ asked more := hk
    rw [hnone] at hk'
    obtain ⟨written, h1, h2, -, h4⟩ := ledger cfg (acts ++ more) n' hrun
    rw [hwires] at h4
    have hd : written = due cfg [] (wires acts) := by
      rw [← h4, ahead, e1, e2, e3]
      simp [passing, dueB]
    rw [← hd]
    refine ⟨by simpa using hk', h1, ?_⟩
    rw [← h2, e4, e5]
    simp [acks]

/-- Of four messages, one is of the node itself, one is for a connection elsewhere and one has been
acknowledged; one is due. -/
example : due ⟨1, "a", ["c"]⟩ []
    [⟨"a", .webSocket "c" "1" "a" "x"⟩, ⟨"b", .webSocket "d" "2" "b" "x"⟩, ⟨"b", .ack "3" "a"⟩,
      ⟨"b", .ack "4" "b"⟩, ⟨"b", .webSocket "c" "3" "b" "x"⟩, ⟨"b", .webSocket "c" "4" "b" "x"⟩] =
    [("c", "4", "b", "x")] := by decide

/-- A node that sends one message and passes one on. -/
example : ∃ n, run ⟨1, "a", ["c"]⟩
    [.call "far" "i" "m", .arrive ⟨"b", .webSocket "c" "j" "b" "hello"⟩, .enter, .publish, .take, .handOver,
      .listen, .ack, .publish] .init = some n ∧
    n.writes = [("c", "j", "hello")] ∧
    n.published = [.webSocket "far" "i" "a" "m", .ack "j" "b"] ∧ n.waiting = [] :=
  ⟨_, rfl, by decide, by decide, by decide⟩

/-- With room for one message, three from elsewhere and one of its own are enough. -/
example : ∃ n, run ⟨1, "a", ["c"]⟩
    [.call "far" "i" "m", .enter,
      .arrive ⟨"b", .webSocket "c" "1" "b" "x"⟩, .take, .handOver, .listen,
      .arrive ⟨"b", .webSocket "c" "2" "b" "x"⟩, .take, .handOver,
      .arrive ⟨"b", .webSocket "c" "3" "b" "x"⟩, .take] .init = some n ∧ Stuck ⟨1, "a", ["c"]⟩ n :=
  ⟨_, rfl, by decide, by decide, by decide, by decide⟩

end Verif.Cluster.Bounded
