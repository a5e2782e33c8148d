import Verif.Workflow.FollowProps
import Verif.Workflow.EndProps
import Verif.LocalApi.Model

/-!
# C174: steps whose handlers are in another process

In the call mode `http` the handlers executable is a process of its own, which asks the local API for
events and posts their results. An event is meant to be the execution of a step (types.rs 9-17 and
`EventTuple`, 21).
-/

namespace Verif.Workflow

/-! ## Model -/

/-- The process of the runtime: an execution, and the queue and the map that
`setup_runtime_local_api` makes, workflow/src/application.rs 146-154. -/
structure RemoteProc (G F P R : Type) where
  machine : S F × Proc G F
  events : LocalApi.State P R

/-- What others ask of the local API that concerns events, workflow_runtime_local_api.rs 42-71. -/
inductive RemoteAsk (R : Type) where
  | next
  | result (id : String) (r : R)

/-- One question and its answer, workflow_runtime_local_api.rs 42-71. -/
def remoteAsk {G F P R : Type} (p : RemoteProc G F P R) :
    RemoteAsk R → RemoteProc G F P R × LocalApi.Response P
  | .next =>
    let r := LocalApi.step p.events .poll
    ({ p with events := r.1 }, r.2)
  | .result id x =>
    let r := LocalApi.step p.events (.result id x)
    ({ p with events := r.1 }, r.2)

/-- What can happen after the start of an execution. The state machine does not have the queue: nothing
in state_machine.rs and nothing but tests in `workflow/src` pushes to it (types.rs 55-63 has no queue
either). -/
inductive RemoteReach {G F P R : Type} [DecidableEq F] (env : Env G F) (input : Json F) :
    RemoteProc G F P R → Prop
  | start : RemoteReach env input ⟨start env input, .init⟩
  | machine {m m' e} : RemoteReach env input ⟨m, e⟩ → Step env m m' → RemoteReach env input ⟨m', e⟩
  | asked {p : RemoteProc G F P R} (q) : RemoteReach env input p → RemoteReach env input (remoteAsk p q).1

/-! ## Specification -/

namespace RemoteSpec

open FollowSpec

variable {G F : Type}

/-- The first state of the workflow is a step that can be executed but for its handler, which is not in
this process. -/
structure Remote [DecidableEq F] (env : Env G F) (input : Json F) : Prop where
  step : ∃ c x, env.states.lookup env.startAt = some c ∧ c.kind = .executeStep ∧ Reads env c input ∧
    Renders env c input x
  absent : ∀ n, env.hasHandler n = false
  saves : ∀ log e, env.save log e = true

end RemoteSpec

open RemoteSpec FollowSpec

/-- **C174, full statement**: when the handlers are in another process, that process is given an event
for the first step of an execution. -/
def FullRemote : Prop :=
  ∀ (env : Env (Option Int) Int) (input : Json Int), Remote env input →
    ∃ (p : RemoteProc (Option Int) Int (Json Int) (Json Int)) (e : LocalApi.Event (Json Int)),
      RemoteReach env input p ∧ (remoteAsk p .next).2 = .next (some e)

variable {G F P R : Type} [DecidableEq F]

/-! ## It is false -/

theorem remote_init {env : Env G F} {input : Json F} {p : RemoteProc G F P R}
    (h : RemoteReach env input p) : p.events = .init := by
  induction h with
  | start => rfl
  | machine _ _ ih => exact ih
  | asked q _ ih =>
    cases q with
    | next => simp only [remoteAsk]; rw [ih]; rfl
    | result id x => simp only [remoteAsk]; rw [ih]; rfl

/-- Whatever an execution does, the other process is told that there is no event, and its results are
not found. -/
theorem idle {env : Env G F} {input : Json F} {p : RemoteProc G F P R}
    (h : RemoteReach env input p) :
    (remoteAsk p .next).2 = .next none ∧ ∀ id x, (remoteAsk p (.result id x)).2 = .notFound := by
  have := remote_init h
  constructor
  · simp only [remoteAsk]; rw [this]; rfl
  · intro id x; simp only [remoteAsk]; rw [this]; rfl

/-- A workflow of one step, whose handler is not in this process. -/
def remoteEnv : Env (Option Int) Int :=
  { demoEnv [(['a'], { kind := .executeStep, isEnd := some true })] (fun _ _ v => .ok v) with
    hasHandler := fun _ => false }

theorem remoteEnv_remote : Remote remoteEnv .null :=
  ⟨⟨_, .null, rfl, rfl, nofun, rfl⟩, fun _ => rfl, fun _ _ => rfl⟩

/-- C174 is false: there never is an event. -/
theorem remote_violated : ¬ FullRemote := by
  intro full
  obtain ⟨p, e, h, he⟩ := full remoteEnv .null remoteEnv_remote
  rw [(idle h).1] at he
  cases he

/-! ## What happens instead -/

theorem calls_absent (env : Env G F) (name : Name) (hn : env.hasHandler name = false) (s : S F)
    (ret : Option (Option (Json F))) (t : Task G F) :
    calls name (step env s ret t).1.log = calls name s.log := by
  have hsave : ∀ (s s' : S F) e b, S.save env s e = (b, s') → calls name s'.log = calls name s.log := by
    intro s s' e b h
    have := calls_save env s e name
    rwa [h] at this
  have hslept : ∀ ms log, calls name (.slept ms :: log : List (Entry F)) = calls name log :=
    fun _ _ => by simp [calls]
  cases t with
  | run n input prev parent =>
    simp only [step, stepRun]
    repeat' split
    all_goals first
      | rfl
      | (rename_i h; simp only [calls_send]; rw [hsave _ _ _ _ h])
      | (rename_i h; simp only; rw [hsave _ _ _ _ h])
  | exec n r c input parent =>
    simp only [step, stepExec]
    split
    · unfold stepStep
      split
      · rename_i hh
        have hne : n ≠ name := fun e => by rw [e, hn] at hh; cases hh
        have hcall : ∀ v log, calls name (.called n v :: log : List (Entry F)) = calls name log :=
          fun _ _ => by simp [calls, hne]
        repeat' split
        all_goals first
          | rfl
          | exact hcall _ _
      · rfl
    · unfold stepParallel
      repeat' split
      all_goals rfl
    · unfold stepWait
      repeat' split
      all_goals first
        | rfl
        | exact hslept _ _
    all_goals rfl
  | finish n parent c r input output =>
    simp only [step, stepFinish]
    repeat' split
    all_goals first
      | rfl
      | (rename_i h _ _ ; simp only; rw [hsave _ _ _ _ h]; done)
      | (rename_i h _ ; simp only; rw [hsave _ _ _ _ h]; done)
      | (rename_i h _ _ _; simp only; rw [hsave _ _ _ _ h]; done)
      | (rename_i h; simp only; rw [hsave _ _ _ _ h]; done)
  | complete input final =>
    simp only [step, stepComplete]
    split
    · rename_i h; simp only [calls_send]; rw [hsave _ _ _ _ h]
    · rename_i h; simp only; rw [hsave _ _ _ _ h]
  | fail e input => rfl
  | record info n persist continues after =>
    simp only [step, stepRecord]
    repeat' split
    all_goals rfl
  | persist e r persist continues after =>
    simp only [step, stepPersist]
    split
    · rw [calls_save]
    · rfl
  | announce e r continues after =>
    simp only [step, stepAnnounce]
    split <;> simp only [calls_send]
  | next after =>
    simp only [step, stepNext]
    repeat' split
    all_goals first
      | rfl
      | exact hslept _ _

theorem calls_absent_step (env : Env G F) (name : Name) (hn : env.hasHandler name = false)
    {c c' : S F × Proc G F} (h : Step env c c') : calls name c'.1.log = calls name c.1.log := by
  induction h with
  | task s t ret => exact calls_absent env name hn s ret t
  | branch s s' j before after p p' _ ih => exact ih
  | joined s j bs rs _ => rfl

/-- Only handlers of this process are called, in all interleavings, with branches or without. -/
theorem only_registered {env : Env G F} {input : Json F} {s : S F} {p : Proc G F}
    (h : Reach env input (s, p)) (n : Name) (v : Json F) (hc : .called n v ∈ s.log) :
    env.hasHandler n = true := by
  cases hn : env.hasHandler n with
  | true => rfl
  | false =>
    have h0 : ∀ c, Reach env input c → calls n c.1.log = 0 := by
      intro c h
      induction h with
      | start => rfl
      | step c c' _ hs ih => rw [calls_absent_step env n hn hs]; exact ih
    have h0 := h0 _ h
    unfold calls at h0
    rw [List.countP_eq_zero] at h0
    exact absurd (h0 _ hc) (by simp)

theorem remote_path {env : Env G F} {input : Json F} (hr : Remote env input)
    {cs : List (Call F)} {pos : Pos F} (h : Path env input cs pos) :
    cs = [] ∧ (pos = .at env.startAt input ∨ pos = .failed) := by
  obtain ⟨c0, x, hl0, hk0, hr0, hx0⟩ := hr.step
  have at_start : ∀ {n v}, (Pos.at n v = .at env.startAt input ∨ Pos.at n v = .failed) →
      n = env.startAt ∧ v = input := by
    rintro n v (h | h)
    · injection h with h1 h2; exact ⟨h1, h2⟩
    · cases h
  have tried_no : ∀ {n v r} {α : Prop},
      (Pos.tried n v r = .at env.startAt input ∨ Pos.tried n v r = .failed) → α := by
    rintro n v r α (h | h) <;> cases h
  induction h with
  | start => exact ⟨rfl, .inl rfl⟩
  | missing _ _ ih => exact ⟨ih.1, .inr rfl⟩
  | invalid _ _ _ _ ih => exact ⟨ih.1, .inr rfl⟩
  | unread _ hl hu ih =>
    obtain ⟨rfl, rfl⟩ := at_start ih.2
    rw [hl0] at hl
    injection hl with hl
    exact absurd (hl ▸ hr0) hu
  | unrendered _ _ _ _ hh => rw [hr.absent] at hh; cases hh
  | answered _ _ _ _ hh => rw [hr.absent] at hh; cases hh
  | refused _ _ _ _ hh => rw [hr.absent] at hh; cases hh
  | panicked _ _ _ _ hh => rw [hr.absent] at hh; cases hh
  | waited _ hl _ hk _ ih =>
    obtain ⟨rfl, rfl⟩ := at_start ih.2
    rw [hl0] at hl
    injection hl with hl
    rw [← hl, hk0] at hk
    cases hk
  | notWaited _ hl _ hk _ ih =>
    obtain ⟨rfl, rfl⟩ := at_start ih.2
    rw [hl0] at hl
    injection hl with hl
    rw [← hl, hk0] at hk
    cases hk
  | next _ _ _ ih => exact tried_no ih.2
  | last _ _ _ _ ih => exact tried_no ih.2
  | dangling _ _ _ _ ih => exact tried_no ih.2
  | retry _ _ _ ih => exact tried_no ih.2
  | caught _ _ _ _ _ ih => exact tried_no ih.2
  | notHanded _ _ _ _ _ ih => exact tried_no ih.2
  | uncaught _ _ _ _ ih => exact tried_no ih.2

/-- Nothing is executed and the execution does not succeed, whatever rules for retries and catches the
step has. -/
theorem remote_fails {env : Env G F} {input : Json F} (hs : Sequential env) (hr : Remote env input)
    {s : S F} {p : Proc G F} (h : Reach env input (s, p)) :
    (∀ n v, .called n v ∉ s.log) ∧ ∀ v, p = .done v → s.exec.status ≠ .succeeded := by
  constructor
  · intro n v hc
    have := only_registered h n v hc
    rw [hr.absent] at this
    cases this
  · intro v hv hsucc
    obtain ⟨pos, hp, hd⟩ := follows_partial hs h
    rcases hd v hv with (⟨out, rfl, _⟩ | ⟨h, _⟩) | ⟨_, h⟩
    · rcases (remote_path hr hp).2 with h | h <;> cases h
    · exact h hsucc
    · exact h hsucc

/-- What holds of steps: one whose handler is in this process is executed first of all, by a call of the
handler with its payload. -/
theorem local_partial {env : Env G F} {input : Json F} {c : State G} {x : Json F}
    (hl : env.states.lookup env.startAt = some c) (hk : c.kind = .executeStep)
    (hread : Reads env c input) (hx : Renders env c input x) (hh : env.hasHandler env.startAt = true)
    (hv : ∀ log e, env.save log e = true) :
    ∃ s p, Reach env input (s, p) ∧ .called env.startAt x ∈ s.log := by
  have h1 : Reach env input (step env _ _ _) :=
    reach_step (t := .run env.startAt input none none) (ret := none) .start
  obtain ⟨w, hw⟩ : ∃ w, stateInput env env.startAt none c input = .ok w := by
    cases hi : stateInput env env.startAt none c input with
    | ok w => exact ⟨w, rfl⟩
    | error e => exact absurd hread (stateInput_unread hi).1
  have hp : payload env c input = .ok x := by
    unfold Renders at hx
    unfold payload
    split at hx
    · rename_i ht; rw [ht, hx]
    · rename_i t ht; rw [ht]; exact hx
  simp only [step, stepRun, config, hl, hw, S.save, hv, if_true] at h1
  have h2 := reach_step h1
  simp only [step, stepExec, hk, stepStep, hh, if_true, hp] at h2
  exact ⟨_, _, h2, List.mem_cons_self ..⟩

/-! ## Examples -/

/-- The execution of the workflow fails at once, though the handlers executable may have the handler. -/
example : ∃ s v, Reach remoteEnv .null (s, .done v) ∧ s.exec.status = .failed :=
  ⟨_, _, reach_start remoteEnv .null 7, by decide⟩

/-- The hypotheses of `remote_fails` hold of it. -/
example : Sequential remoteEnv ∧ Remote remoteEnv .null := by
  refine ⟨?_, remoteEnv_remote⟩
  intro n c hm
  simp only [remoteEnv, demoEnv, List.mem_singleton, Prod.mk.injEq] at hm
  rw [hm.2]
  nofun

/-- The same workflow with its handler in this process succeeds. -/
example : ∃ s v, Reach { remoteEnv with hasHandler := fun _ => true } .null (s, .done v) ∧
    s.exec.status = .succeeded :=
  ⟨_, _, reach_start { remoteEnv with hasHandler := fun _ => true } .null 4, by decide⟩

end Verif.Workflow
