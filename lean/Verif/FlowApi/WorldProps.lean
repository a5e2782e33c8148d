import Verif.FlowApi.World
import Verif.FlowApi.HistoryProps
import Verif.ExecStore.Lemmas
import Verif.Workflow.Lemmas
import Verif.Workflow.LatestProps

/-!
# Executions of one server (C163)
-/

namespace Verif.FlowApi.Spec

open Verif

variable {G F : Type}

/-- The stored execution `x` is `e`, as far as it is stored. -/
structure IsStored (id : String) (started : Nat) (x : ExecStore.Execution (Json F) F (State F))
    (e : Execution F) : Prop where
  id : x.id = id ∧ e.id = id.toList
  input : x.input = e.input
  started : x.started = started ∧ e.started = started
  completed : x.completed = e.completed
  duration : x.duration = e.duration
  status : (storedName x.status).toList = statusName e.status
  detail : x.statusDetail.toList = e.statusDetail
  current : x.currentState.map String.toList = e.currentState
  states : x.states = e.states

end Verif.FlowApi.Spec

namespace Verif.FlowApi

open Verif Spec
open Verif.Workflow.Spec (saves announced)

variable {G F : Type}

/-- The record that the store has of an execution: what was saved last, at first what it was started
with. -/
def Machine.latest (m : Machine G F) : Workflow.Exec F :=
  (saves m.conf.1.log).headD (Workflow.initial m.input)

theorem payload_stored (m : Machine G F) (e : Workflow.Exec F) (hi : m.rest.id = m.id.toList) :
    IsStored m.id m.rest.started (ExecStore.record m.id (m.payload e)) (toExecution m.env m.rest e) where
  id := ⟨rfl, hi⟩
  input := rfl
  started := ⟨rfl, rfl⟩
  completed := rfl
  duration := rfl
  status := by
    show (storedName (storeStatus e.status)).toList = statusName e.status
    cases e.status <;> rfl
  detail := by
    show (String.ofList _).toList = _
    rw [String.toList_ofList]
    rfl
  current := by
    show (e.current.map String.ofList).map String.toList = e.current
    cases e.current with
    | none => rfl
    | some n => simp
  states := rfl

/-- What an action does to the store, seen through one id. -/
theorem effects_get (m : Machine G F) (id : String) : ∀ (new : List (Workflow.Entry F)) (w : World G F),
    (new.foldr (World.effect m) w).store.get id =
      if id = m.id then
        match (saves new).head? with
        | some e => some (ExecStore.record m.id (m.payload e))
        | none => w.store.get id
      else w.store.get id := by
  intro new
  induction new with
  | nil => intro w; simp [saves]
  | cons x new ih =>
    intro w
    rw [List.foldr_cons]
    cases x with
    | saved e =>
      rw [World.effect, ExecStore.save_get]
      split
      · next he =>
        rw [if_pos he.symm]
        rfl
      · next hn => rw [ih, if_neg (fun he => hn he.symm), if_neg (fun he => hn he.symm)]
    | event ev => exact ih w
    | called => exact ih w
    | notSaved => exact ih w
    | slept => exact ih w

theorem effects_ids (m : Machine G F) : ∀ (new : List (Workflow.Entry F)) (w : World G F),
    m.id ∈ w.store.ids → (new.foldr (World.effect m) w).store.ids = w.store.ids := by
  intro new
  induction new with
  | nil => intro w _; rfl
  | cons x new ih =>
    intro w hm
    rw [List.foldr_cons]
    cases x with
    | saved e =>
      rw [World.effect, ExecStore.Store.save, ExecStore.Store.push]
      have : ((new.foldr (World.effect m) w).store.insert m.id (m.payload e)).ids = w.store.ids :=
        ih w hm
      rw [if_pos (this ▸ hm)]
      exact this
    | event ev => exact ih w hm
    | called => exact ih w hm
    | notSaved => exact ih w hm
    | slept => exact ih w hm

theorem effects_sent (m : Machine G F) : ∀ (new : List (Workflow.Entry F)) (w : World G F),
    (new.foldr (World.effect m) w).sent =
      w.sent ++ ((announced new).reverse.map fun e => (m.id, toEvent m.env m.rest e)) := by
  intro new
  induction new with
  | nil => intro w; simp [announced]
  | cons x new ih =>
    intro w
    rw [List.foldr_cons]
    cases x with
    | event ev =>
      rw [World.effect]
      dsimp only
      rw [ih]
      simp [announced, List.filterMap_cons]
    | saved e => exact ih w
    | called => exact ih w
    | notSaved => exact ih w
    | slept => exact ih w

theorem announced_append (a b : List (Workflow.Entry F)) :
    announced (a ++ b) = announced a ++ announced b := List.filterMap_append

theorem saves_append (a b : List (Workflow.Entry F)) : saves (a ++ b) = saves a ++ saves b :=
  List.filterMap_append

variable [DecidableEq F]

/-- What is known of a state machine. -/
structure Kept (w : World G F) (m : Machine G F) : Prop where
  reach : Workflow.Reach m.env m.input m.conf
  id : m.rest.id = m.id.toList
  stored : w.store.get m.id = some (ExecStore.record m.id (m.payload m.latest))
  sent : (w.sent.filter fun x => decide (x.1 = m.id)).map (·.2) =
    (announced m.conf.1.log).reverse.map (toEvent m.env m.rest)

theorem kept_start (w : World G F) (name : Option String) (uuid : String) (now : Nat) (input : Json F)
    (env : Workflow.Env G F) (x : Rest F) (hids : w.store.ids = w.machines.map (·.id))
    (hsent : ∀ y ∈ w.sent, y.1 ∈ w.machines.map (·.id))
    (hnew : name.getD uuid ∉ w.machines.map (·.id))
    (h : ∀ m ∈ w.machines, Kept w m) :
    ∀ m ∈ (w.start name uuid now input env x).machines, Kept (w.start name uuid now input env x) m := by
  intro m hm
  rw [World.start, ExecStore.runHandler] at hm ⊢
  dsimp only at hm ⊢
  rcases List.mem_append.1 hm with hm | hm
  · have k := h m hm
    refine ⟨k.reach, k.id, ?_, k.sent⟩
    show ((w.store.save _ _).1).get m.id = _
    rw [ExecStore.save_get, if_neg]
    · exact k.stored
    · intro he
      exact hnew (he ▸ List.mem_map_of_mem hm)
  · rw [List.mem_singleton] at hm
    subst hm
    refine ⟨.start, rfl, ?_, ?_⟩
    · show ((w.store.save _ _).1).get (name.getD uuid) = _
      rw [ExecStore.save_get, if_pos rfl]
      rfl
    · show (w.sent.filter _).map _ = _
      rw [List.filter_eq_nil_iff.2]
      · rfl
      · intro y hy he
        have he : y.1 = name.getD uuid := of_decide_eq_true he
        exact hnew (he ▸ hsent y hy)

theorem kept_machine (w : World G F) (before after : List (Machine G F)) (m : Machine G F)
    (c : Workflow.S F × Workflow.Proc G F) (new : List (Workflow.Entry F))
    (hm : w.machines = before ++ m :: after) (hs : Workflow.Step m.env m.conf c)
    (hl : c.1.log = new ++ m.conf.1.log) (hd : (w.machines.map (·.id)).Nodup)
    (h : ∀ m ∈ w.machines, Kept w m) :
    ∀ m' ∈ before ++ { m with conf := c } :: after,
      Kept { new.foldr (World.effect m) w with machines := before ++ { m with conf := c } :: after } m' := by
  have other : ∀ m' ∈ w.machines, m'.id ≠ m.id →
      Kept { new.foldr (World.effect m) w with machines := before ++ { m with conf := c } :: after } m' := by
    intro m' hm' hne
    have k := h m' hm'
    refine ⟨k.reach, k.id, ?_, ?_⟩
    · show (new.foldr (World.effect m) w).store.get m'.id = _
      rw [effects_get, if_neg hne]
      exact k.stored
    · show ((new.foldr (World.effect m) w).sent.filter _).map _ = _
      rw [effects_sent, List.filter_append, List.map_append, k.sent, List.filter_eq_nil_iff.2]
      · simp
      · intro y hy he
        obtain ⟨_, _, rfl⟩ := List.mem_map.1 hy
        exact hne (of_decide_eq_true he).symm
  have hd' : (before.map (·.id) ++ m.id :: after.map (·.id)).Nodup := by
    rw [hm, List.map_append, List.map_cons] at hd
    exact hd
  have hd'' := List.nodup_append.1 hd'
  intro m' hm'
  rcases List.mem_append.1 hm' with hb | hb
  · exact other m' (hm ▸ List.mem_append_left _ hb)
      (fun he => hd''.2.2 m'.id (List.mem_map_of_mem hb) m.id (List.mem_cons_self ..) he)
  · rcases List.mem_cons.1 hb with rfl | hb
    · have k := h m (hm ▸ List.mem_append_right _ (List.mem_cons_self ..))
      refine ⟨.step _ _ k.reach hs, k.id, ?_, ?_⟩
      · show (new.foldr (World.effect m) w).store.get m.id = _
        rw [effects_get, if_pos rfl, k.stored]
        have : Machine.latest { m with conf := c } = (saves new).headD m.latest := by
          rw [Machine.latest, Machine.latest]
          dsimp only
          rw [hl, saves_append]
          cases saves new <;> rfl
        rw [this]
        cases saves new <;> rfl
      · show ((new.foldr (World.effect m) w).sent.filter _).map _ = _
        rw [effects_sent, List.filter_append, List.map_append, k.sent, List.filter_eq_self.2]
        · dsimp only
          rw [hl, announced_append, List.reverse_append, List.map_append, List.map_map]
          rfl
        · intro y hy
          obtain ⟨_, _, rfl⟩ := List.mem_map.1 hy
          exact decide_eq_true rfl
    · refine other m' (hm ▸ List.mem_append_right _ (List.mem_cons_of_mem _ hb)) ?_
      intro he
      exact (List.nodup_cons.1 hd''.2.1).1 (he ▸ List.mem_map_of_mem hb)

/-- What is known of the server. -/
theorem kept (w : World G F) (h : World.Reach w) (hd : (w.machines.map (·.id)).Nodup) :
    w.store.ids = w.machines.map (·.id) ∧ (∀ y ∈ w.sent, y.1 ∈ w.machines.map (·.id)) ∧
      ∀ m ∈ w.machines, Kept w m := by
  induction h with
  | new => exact ⟨rfl, fun y hy => absurd hy List.not_mem_nil, fun m hm => absurd hm List.not_mem_nil⟩
  | step w w' _ hs ih =>
    cases hs with
    | start name uuid now input env x =>
      have hd' : (w.machines.map (·.id) ++ [name.getD uuid]).Nodup := by
        rw [World.start, ExecStore.runHandler] at hd
        simpa using hd
      have hn := List.nodup_append.1 hd'
      have hnew : name.getD uuid ∉ w.machines.map (·.id) :=
        fun hm => hn.2.2 _ hm _ (List.mem_singleton.2 rfl) rfl
      obtain ⟨h1, h2, h3⟩ := ih hn.1
      refine ⟨?_, ?_, kept_start w name uuid now input env x h1 h2 hnew h3⟩
      · rw [World.start, ExecStore.runHandler]
        dsimp only
        rw [ExecStore.Store.save, ExecStore.Store.push]
        have : (w.store.insert (name.getD uuid) ⟨input, now, none, none, .preparing,
          "The execution is currently being prepared", none, []⟩).ids = w.store.ids := rfl
        rw [this, if_neg (h1 ▸ hnew)]
        show w.store.ids ++ _ = _
        rw [h1, List.map_append]
        rfl
      · intro y hy
        rw [World.start, ExecStore.runHandler]
        dsimp only
        rw [List.map_append]
        exact List.mem_append_left _ (h2 y hy)
    | machine before after m c new hm hs hl =>
      have hids : ((before ++ { m with conf := c } :: after).map (·.id)) = w.machines.map (·.id) := by
        rw [hm, List.map_append, List.map_append]
        rfl
      have hd' : (w.machines.map (·.id)).Nodup := hids ▸ hd
      obtain ⟨h1, h2, h3⟩ := ih hd'
      have hin : m.id ∈ w.machines.map (·.id) := by
        rw [hm]
        exact List.mem_map_of_mem (List.mem_append_right _ (List.mem_cons_self ..))
      refine ⟨?_, ?_, kept_machine w before after m c new hm hs hl hd' h3⟩
      · show (new.foldr (World.effect m) w).store.ids = _
        rw [effects_ids m new w (h1 ▸ hin), h1, ← hids]
      · intro y hy
        show y.1 ∈ (before ++ { m with conf := c } :: after).map (·.id)
        rw [hids]
        have hy : y ∈ (new.foldr (World.effect m) w).sent := hy
        rw [effects_sent, List.mem_append] at hy
        rcases hy with hy | hy
        · exact h2 y hy
        · obtain ⟨_, _, rfl⟩ := List.mem_map.1 hy
          exact hin

/-- C163: as long as no name is used twice, every execution does what it could do alone; the store has
exactly the executions that were started, in this order, each as it was saved last; and the events of
an execution are sent in the order in which it announces them. -/
theorem isolated (w : World G F) (h : World.Reach w) (hd : (w.machines.map (·.id)).Nodup) :
    w.store.ids = w.machines.map (·.id) ∧ ∀ m ∈ w.machines,
      Workflow.Reach m.env m.input m.conf ∧
      (∃ x, w.store.get m.id = some x ∧
        IsStored m.id m.rest.started x
          (toExecution m.env m.rest ((saves m.conf.1.log).headD (Workflow.initial m.input)))) ∧
      (w.sent.filter fun x => decide (x.1 = m.id)).map (·.2) =
        (announced m.conf.1.log).reverse.map (toEvent m.env m.rest) := by
  obtain ⟨h1, _, h3⟩ := kept w h hd
  refine ⟨h1, fun m hm => ⟨(h3 m hm).reach, ⟨_, (h3 m hm).stored, payload_stored m _ (h3 m hm).id⟩,
    (h3 m hm).sent⟩⟩

theorem mem_announced {log : List (Workflow.Entry F)} {ev : Workflow.Event F} :
    ev ∈ announced log ↔ .event ev ∈ log := by
  rw [announced, List.mem_filterMap]
  constructor
  · rintro ⟨x, hx, h⟩
    cases x with
    | event e => injection h with h; exact h ▸ hx
    | called => cases h
    | saved => cases h
    | notSaved => cases h
    | slept => cases h
  · exact fun h => ⟨_, h, rfl⟩

/-- C163, the end: what the last event of an execution says is what the store has of it, from then on and
whatever the other executions do. This is for executions without branches and rules for errors to be
caught (see C28 for what happens with them) whose progress can be saved. -/
theorem finished (w : World G F) (h : World.Reach w) (hd : (w.machines.map (·.id)).Nodup)
    (m : Machine G F) (hm : m ∈ w.machines) (hs : Workflow.Sequential m.env)
    (hc : Workflow.NoCatch m.env) (hsave : ∀ log e, m.env.save log e = true) (c : Complete F)
    (hsent : (m.id, .executionComplete c) ∈ w.sent) :
    ∃ x, w.store.get m.id = some x ∧ IsStored m.id m.rest.started x c.completeExecution := by
  have k := (kept w h hd).2.2 m hm
  have hev : Event.executionComplete c ∈
      (announced m.conf.1.log).reverse.map (toEvent m.env m.rest) := by
    rw [← k.sent, List.mem_map]
    exact ⟨_, List.mem_filter.2 ⟨hsent, decide_eq_true rfl⟩, rfl⟩
  obtain ⟨ev, hev, he⟩ := List.mem_map.1 hev
  rw [List.mem_reverse, mem_announced] at hev
  cases ev with
  | transition => cases he
  | failure => cases he
  | complete e =>
    injection he with he
    obtain ⟨later, before, hl⟩ := List.append_of_mem hev
    have hr : Workflow.Reach m.env m.input (m.conf.1, m.conf.2) := k.reach
    have h0 := (Workflow.once_partial hs hc hr).2 later e before hl
    have h1 := Workflow.latest_saved hs hsave hr later (.complete e) before hl
    subst h0
    have h2 : m.latest = e := by
      rw [Machine.latest, hl]
      show (saves before).headD _ = e
      have h1 : (saves before).head? = some e := h1
      cases hb : saves before with
      | nil => rw [hb] at h1; cases h1
      | cons y l => rw [hb] at h1; injection h1
    refine ⟨_, k.stored, ?_⟩
    rw [h2, ← he]
    exact payload_stored m e k.id

/-- C163, the other direction: whatever an execution can do alone, it can do on the server at any time. -/
theorem unhindered (w : World G F) (before after : List (Machine G F)) (m : Machine G F)
    (c : Workflow.S F × Workflow.Proc G F) (hm : w.machines = before ++ m :: after)
    (hs : Workflow.Step m.env m.conf c) :
    ∃ w', World.Step w w' ∧ w'.machines = before ++ { m with conf := c } :: after := by
  obtain ⟨new, hn⟩ := Workflow.log_grows hs
  exact ⟨_, .machine w before after m c new hm hs hn, rfl⟩

/-- Two executions of a workflow, one of which was named. -/
example : ∃ w : World (Option Int) Int, World.Reach w ∧ (w.machines.map (·.id)) = ["a", "b"] ∧
    (w.machines.map (·.id)).Nodup ∧ ∀ m ∈ w.machines, Workflow.Sequential m.env :=
  let x : Rest Int := ⟨[], 0, fun _ => none, fun n => n⟩
  ⟨_, .step _ _ (.step _ _ .new (.start _ (some "a") "u" 1 .null Workflow.flakyEnv x))
    (.start _ none "b" 2 .null Workflow.flakyEnv x), rfl, by decide, by
      intro m hm
      simp only [World.start, World.new, ExecStore.runHandler, List.nil_append, List.cons_append,
        List.mem_cons, List.not_mem_nil, or_false] at hm
      rcases hm with rfl | rfl <;> exact Workflow.flaky_sequential⟩

end Verif.FlowApi
