import Verif.FlowApi.Lemmas
import Verif.Workflow.AttemptProps
import Verif.ExecStore.Props

/-!
# The API of workflows

C130-C133.
-/

namespace Verif.FlowApi

open Verif Wire
open Verif.Workflow (Kind Status)

variable {G F : Type}

/-! ## C130: the format of the stream -/

/-- C130 as stated: every event sent is as documented. -/
def FullFormat : Prop :=
  ∀ (env : Workflow.Env (Option Int) Int) (input : Json Int) (s : Workflow.S Int)
    (p : Workflow.Proc (Option Int) Int) (x : Rest Int),
    Workflow.Reach env input (s, p) → ∀ ev, .event ev ∈ s.log →
      IsEvent documented (toEvent env x ev).encode

/-- No event at all has the documented format, not even with everything else allowed. -/
theorem format_never (fm : Format F) (e : Event F) : ¬ IsEvent fm e.encode := by
  have key : ∀ (k : String) (v : Json F), "event".toList ≠ k.toList →
      ¬ IsEvent fm (.obj [(k.toList, v)]) := by
    intro k v hk ⟨m, hm, h⟩
    injection hm with hm
    subst hm
    have hn : ∀ names, ¬ Has [(k.toList, v)] "event" (OneOf names) := by
      intro names ⟨w, hw, _⟩
      rw [List.lookup_cons, beq_eq_false_iff_ne.2 hk] at hw
      cases hw
    rcases h with h | h | h | h
    · exact hn _ h.1
    · exact hn _ h.1
    · exact hn _ h.1
    · exact hn _ h.1
  cases e with
  | stateTransition e => exact key "StateTransition" _ (by decide)
  | stateFailure e => exact key "StateFailure" _ (by decide)
  | stateRetry e => exact key "StateRetry" _ (by decide)
  | executionComplete e => exact key "ExecutionComplete" _ (by decide)

/-- What is left out, for examples. -/
def demoRest : Rest Int := ⟨['i'], 0, fun _ => none, fun n => n⟩

/-- The first event of every execution is an example. -/
theorem format_violated : ¬ FullFormat := by
  intro h
  exact format_never _ _ (h Workflow.twoEnv (.int 1) _ _ demoRest (Workflow.reach_start _ _ 1) _
    (List.mem_cons_self ..))

/-- The name under which the event is found. -/
def wrapper : Workflow.Event F → String
  | .transition .. => "StateTransition"
  | .failure .. => "StateFailure"
  | .complete .. => "ExecutionComplete"

/-- The event is found under the name of its variant, as documented except for booleans, missing
errors and states of unknown type. -/
theorem format_partial (env : Workflow.Env G F) (x : Rest F) (ev : Workflow.Event F) :
    ∃ payload, (toEvent env x ev).encode = .obj [((wrapper ev).toList, payload)] ∧
      IsEvent relaxed payload := by
  have hs : ∀ s : State F, IsState relaxed s.encode := fun s => state_format _ _ (meets_relaxed s)
  cases ev with
  | transition prev r =>
    refine ⟨_, rfl, _, rfl, Or.inl ⟨⟨_, rfl, _, List.mem_singleton_self _, rfl⟩,
      ⟨_, rfl, orNull_is hs _⟩, ⟨_, rfl, hs _⟩⟩⟩
  | failure r =>
    exact ⟨_, rfl, _, rfl, Or.inr (Or.inr (Or.inl ⟨⟨_, rfl, _, List.mem_singleton_self _, rfl⟩,
      ⟨_, rfl, hs _⟩⟩))⟩
  | complete e =>
    exact ⟨_, rfl, _, rfl, Or.inr (Or.inr (Or.inr ⟨⟨_, rfl, _, List.mem_singleton_self _, rfl⟩,
      ⟨_, rfl, execution_relaxed _⟩⟩))⟩

/-- A state as the documentation allows it. -/
def DocState (s : State F) : Prop :=
  s.kind ≠ .unknown ∧ s.error ≠ none ∧ DocValue s.input ∧
    (∀ v, s.rawOutput = some v → DocValue v) ∧ ∀ v, s.output = some v → DocValue v

/-- States that failed, without booleans, are exactly as documented. -/
theorem format_failed (s : State F) (h : Within DocState s) : IsState documented s.encode := by
  refine state_format _ _ ?_
  induction h with
  | mk s h _ ih =>
    refine .mk s ?_ ih
    obtain ⟨h1, h2, h3, h4, h5⟩ := h
    have hv : ∀ o : Option (Json F), (∀ v, o = some v → DocValue v) →
        DocValue (orNull (fun v => v) o) := by
      intro o ho
      cases o with
      | none => exact nofun
      | some v => exact ho v rfl
    refine ⟨?_, h3, ?_, hv _ h4, hv _ h5⟩
    · cases hk : s.kind
      · exact ⟨"executeStep", by simp [documented], rfl⟩
      · exact ⟨"pass", by simp [documented], rfl⟩
      · exact ⟨"parallel", by simp [documented], rfl⟩
      · exact ⟨"wait", by simp [documented], rfl⟩
      · exact ⟨"decision", by simp [documented], rfl⟩
      · exact ⟨"failure", by simp [documented], rfl⟩
      · exact ⟨"success", by simp [documented], rfl⟩
      · exact absurd hk h1
    · cases he : s.error with
      | none => exact absurd he h2
      | some t => exact ⟨t, rfl⟩

/-- States without an error, that is all that succeed, are not. -/
theorem format_succeeded (s : State F) (h : s.error = none) : ¬ IsState documented s.encode := by
  intro hs
  rw [State.encode_fields] at hs
  cases hs with
  | mk _ bs _ _ _ _ _ _ _ _ _ he =>
    obtain ⟨t, ht⟩ := he (orNull .str s.error) rfl
    rw [h] at ht
    cases ht

/-- A step that failed. -/
def demoState : State Int :=
  ⟨['a'], .executeStep, none, .obj [], 1, some 2, some 1, .failed, 1, some ['e'], [], none, none⟩

theorem demoState_within {P : State Int → Prop} (h : P demoState) : Within P demoState :=
  .mk _ h (by intro b hb; cases hb)

example : Within DocState demoState :=
  demoState_within ⟨nofun, nofun, nofun, nofun, nofun⟩

/-! ## C131: what is written is read back -/

/-- C131 as stated. -/
def FullExecutions : Prop :=
  ∀ (ofInt : Int → Int) (e : Execution Int), ExecFits e →
    Execution.decode ofInt e.encode = some e

/-- An output `null` is read back as none. -/
theorem executions_violated : ¬ FullExecutions := by
  intro h
  have := h id ⟨[], .null, some .null, 0, none, none, .succeeded, [], none, []⟩
    ⟨Nat.two_pow_pos 64, nofun, nofun⟩
  rw [show Execution.decode id (Execution.encode ⟨[], .null, some .null, 0, none, none, .succeeded,
    [], none, []⟩) = some ⟨[], .null, none, 0, none, none, .succeeded, [], none, []⟩ from rfl] at this
  injection this with this
  injection this with _ _ this
  cases this

/-- Without outputs that are `null`, executions are read back as they were. -/
theorem executions_partial (ofInt : Int → F) (e : Execution F) (hf : ExecFits e)
    (hn : ExecNoNull e) : Execution.decode ofInt e.encode = some e :=
  Execution.decode_encode ofInt e hf hn

/-- A state may also be given as the sequence of its fields, in order and all of them. -/
theorem sequences_partial (ofInt : Int → F) (s : State F) (hf : Within Fits s) (hn : Within NoNull s) :
    ∃ m, s.encode = .obj m ∧ State.decode ofInt (.arr (m.map (·.2))) = some s ∧
      ∀ k, k ≠ 13 → State.decode ofInt (.arr ((m ++ m).map (·.2) |>.take k)) = none := by
  refine ⟨s.fields, State.encode_fields s, ?_, ?_⟩
  · rw [← State.decode_encode ofInt s hf hn, State.encode_fields, State.decode, State.decode,
      if_pos (show (s.fields.map (·.2)).length = stateFields.length from rfl)]
    have h0 : (stateFields.all fun k =>
        decide ((s.fields.filter fun e => decide (e.1 = k)).length ≤ 1)) = true := by
      have hk : ∀ k : Str, (s.fields.filter fun e => decide (e.1 = k)).length =
          (stateFields.filter fun e => decide (e = k)).length := by
        intro k
        rw [← show s.fields.map (·.1) = stateFields from rfl, List.filter_map, List.length_map]
        rfl
      simp only [hk]
      decide
    rw [if_pos h0, parallelIn_lookup]
    show State.build ofInt s.fields (parallelAt ofInt 10 (s.fields.map (·.2))) = _
    rw [show s.fields.lookup parallelName = some (.arr (encodeBranches s.parallel)) from rfl]
    simp only [State.fields, List.map, parallelAt]
    rfl
  · intro k hk
    rw [State.decode, if_neg]
    rw [show stateFields.length = 13 from rfl, List.length_take]
    have : ((s.fields ++ s.fields).map (·.2)).length = 26 := rfl
    rw [this]
    omega

/-- So are transitions. -/
theorem transitions_partial (ofInt : Int → F) (e : Transition F)
    (hf : ∀ s, e.prevState = some s ∨ s = e.newState → Within Fits s ∧ Within NoNull s) :
    Transition.decode ofInt e.encode = some e := by
  obtain ⟨event, prev, new⟩ := e
  have hn := State.decode_encode ofInt new (hf new (Or.inr rfl)).1 (hf new (Or.inr rfl)).2
  have hp : nullable (State.decode ofInt) (orNull State.encode prev) = some prev := by
    cases prev with
    | none => rfl
    | some p =>
      have := State.decode_encode ofInt p (hf p (Or.inl rfl)).1 (hf p (Or.inl rfl)).2
      rw [orNull, State.encode_fields, nullable, ← State.encode_fields, this]
      · rfl
      · nofun
  let m : List (Str × Json F) := [("event".toList, .str event),
    ("prevState".toList, orNull State.encode prev), ("newState".toList, new.encode)]
  have h0 : entries ["event".toList, "prevState".toList, "newState".toList]
    (Transition.encode ⟨event, prev, new⟩) = some m := rfl
  have h1 : m.lookup "event".toList = some (.str event) := rfl
  have h2 : m.lookup "prevState".toList = some (orNull State.encode prev) := rfl
  have h3 : m.lookup "newState".toList = some new.encode := rfl
  rw [Transition.decode, h0, Option.bind_eq_bind, Option.bind_some, req_at _ h1, opt_at _ h2,
    req_at _ h3, hp, hn]
  rfl

/-- So are failures. -/
theorem failures_partial (ofInt : Int → F) (e : Failure F) (hf : Within Fits e.failedState)
    (hn : Within NoNull e.failedState) : Failure.decode ofInt e.encode = some e := by
  obtain ⟨event, failed⟩ := e
  let m : List (Str × Json F) := [("event".toList, .str event), ("failedState".toList, failed.encode)]
  have h0 : entries ["event".toList, "failedState".toList] (Failure.encode ⟨event, failed⟩) = some m :=
    rfl
  have h1 : m.lookup "event".toList = some (.str event) := rfl
  have h2 : m.lookup "failedState".toList = some failed.encode := rfl
  rw [Failure.decode, h0, Option.bind_eq_bind, Option.bind_some, req_at _ h1, req_at _ h2,
    State.decode_encode ofInt failed hf hn]
  rfl

/-- So are retries, were they sent. -/
theorem retries_partial (ofInt : Int → F) (e : Retry F) (hf : Within Fits e.retryState)
    (hn : Within NoNull e.retryState) (hf' : ∀ s ∈ e.prevAttemptStates, Within Fits s)
    (hn' : ∀ s ∈ e.prevAttemptStates, Within NoNull s) : Retry.decode ofInt e.encode = some e := by
  obtain ⟨event, retry, prev⟩ := e
  let m : List (Str × Json F) := [("event".toList, .str event), ("retryState".toList, retry.encode),
    ("prevAttemptStates".toList, .arr (encodeStates prev))]
  have h0 : entries ["event".toList, "retryState".toList, "prevAttemptStates".toList]
    (Retry.encode ⟨event, retry, prev⟩) = some m := rfl
  have h1 : m.lookup "event".toList = some (.str event) := rfl
  have h2 : m.lookup "retryState".toList = some retry.encode := rfl
  have h3 : m.lookup "prevAttemptStates".toList = some (.arr (encodeStates prev)) := rfl
  rw [Retry.decode, h0, Option.bind_eq_bind, Option.bind_some, req_at _ h1, req_at _ h2,
    req_at _ h3, State.decode_encode ofInt retry hf hn, states_decode ofInt prev hf' hn']
  rfl

/-- So are completions. -/
theorem completions_partial (ofInt : Int → F) (e : Complete F) (hf : ExecFits e.completeExecution)
    (hn : ExecNoNull e.completeExecution) : Complete.decode ofInt e.encode = some e := by
  obtain ⟨event, exec⟩ := e
  let m : List (Str × Json F) := [("event".toList, .str event),
    ("completeExecution".toList, exec.encode)]
  have h0 : entries ["event".toList, "completeExecution".toList] (Complete.encode ⟨event, exec⟩) =
    some m := rfl
  have h1 : m.lookup "event".toList = some (.str event) := rfl
  have h2 : m.lookup "completeExecution".toList = some exec.encode := rfl
  rw [Complete.decode, h0, Option.bind_eq_bind, Option.bind_some, req_at _ h1, req_at _ h2,
    Execution.decode_encode ofInt exec hf hn]
  rfl

/-- A parallel state with a step in a branch. -/
example : ExecFits (F := Int) ⟨['i'], .null, none, 1, some 2, none, .failed, ['d'], none,
      [⟨['p'], .parallel, none, .null, 1, none, none, .failed, 1, none, [[demoState]], none, none⟩]⟩ ∧
    ExecNoNull (F := Int) ⟨['i'], .null, none, 1, some 2, none, .failed, ['d'], none,
      [⟨['p'], .parallel, none, .null, 1, none, none, .failed, 1, none, [[demoState]], none, none⟩]⟩ := by
  have hf : Fits demoState := by
    refine ⟨by decide, ?_, by decide⟩
    intro t ht
    injection ht with ht
    rw [← ht]
    decide
  have hn : NoNull demoState := ⟨nofun, nofun⟩
  refine ⟨⟨by decide, by intro t ht; injection ht with ht; rw [← ht]; decide, ?_⟩, nofun, ?_⟩
  · intro s hs
    rw [List.mem_singleton.1 hs]
    refine .mk _ ⟨by show 1 < 2 ^ 64; decide, nofun, by show 1 < 2 ^ 32; decide⟩ ?_
    intro b hb c hc
    rw [List.mem_singleton.1 hb] at hc
    rw [List.mem_singleton.1 hc]
    exact demoState_within hf
  · intro s hs
    rw [List.mem_singleton.1 hs]
    refine .mk _ ⟨nofun, nofun⟩ ?_
    intro b hb c hc
    rw [List.mem_singleton.1 hb] at hc
    rw [List.mem_singleton.1 hc]
    exact demoState_within hn

/-! ## C132: retries are announced -/

variable [DecidableEq F]

/-- C132 as stated: of every state that is tried again, a retry is announced. -/
def FullRetries : Prop :=
  ∀ (env : Workflow.Env (Option Int) Int) (input : Json Int) (s : Workflow.S Int)
    (p : Workflow.Proc (Option Int) Int) (x : Rest Int),
    Workflow.Reach env input (s, p) → ∀ q r, .event (.transition q r) ∈ s.log → 1 < r.attempt →
      ∃ ev e, .event ev ∈ s.log ∧ toEvent env x ev = .stateRetry e ∧ e.retryState.name = r.name

omit [DecidableEq F] in
/-- No retry is ever announced. -/
theorem retry_never (env : Workflow.Env G F) (x : Rest F) (ev : Workflow.Event F) (e : Retry F) :
    toEvent env x ev ≠ .stateRetry e := by
  cases ev <;> nofun

/-- The second attempt of a failing step is an example. -/
theorem retries_violated : ¬ FullRetries := by
  intro h
  obtain ⟨ev, e, _, he, _⟩ := h Workflow.failingEnv .null _ _ demoRest (Workflow.reach_start _ _ 8)
    (some ⟨['a'], .executeStep, none, .null, .failed, 1,
        some (['a'], ['E'], .handler ['E'] ['m']), [], none, none, 0, some 0⟩)
    ⟨['a'], .executeStep, none, .null, .inProgress, 2, none, [], none, none, 0, none⟩
    (List.mem_cons_self ..) (by decide)
  exact retry_never _ _ _ _ he

/-- That a state is entered again is announced by a transition between states of the same name, the
second with the next number. -/
theorem retries_seen_partial {env : Workflow.Env G F} {input : Json F} {s : Workflow.S F}
    {p : Workflow.Proc G F} (x : Rest F) (h : Workflow.Reach env input (s, p)) (ev : Workflow.Event F)
    (hx : .event ev ∈ s.log) (t : Transition F) (ht : toEvent env x ev = .stateTransition t) :
    1 < t.newState.attempt ↔ ∃ q, t.prevState = some q ∧ q.name = t.newState.name ∧
      t.newState.attempt = q.attempt + 1 := by
  have hn : ∀ r : Workflow.Rec F, (toState env x r).name = r.name ∧
      (toState env x r).attempt = r.attempt := by
    intro r
    cases r
    rw [toState]
    exact ⟨rfl, rfl⟩
  cases ev with
  | failure => cases ht
  | complete => cases ht
  | transition prev r =>
    injection ht with ht
    subst ht
    dsimp only
    rw [(hn r).1, (hn r).2]
    obtain ⟨hm, _⟩ := Workflow.numbers_partial h prev r hx
    constructor
    · intro h1
      rcases hm with ⟨hm, _⟩ | ⟨q, hq, hqn, _, ha⟩
      · omega
      · exact ⟨toState env x q, by rw [hq]; rfl, by rw [(hn q).1, hqn], by rw [(hn q).2, ha]⟩
    · intro ⟨q, hq, hqn, ha⟩
      cases prev with
      | none => cases hq
      | some q' =>
        injection hq with hq
        subst hq
        rw [(hn q').1] at hqn
        rw [(hn q').2] at ha
        rcases hm with ⟨_, hm⟩ | ⟨q, hq, _, h1, _⟩
        · exact absurd hqn (hm q' rfl)
        · injection hq with hq
          rw [← hq] at h1
          omega

/-! ## C133: starting executions -/

/-- C133 as stated: a documented request is answered as documented. -/
def FullRun : Prop :=
  ∀ (s : ExecStore.Store (Json Int) Nat Nat) (saves : Bool) (uuid : String) (now : Nat) (v : Json Int)
    (name : Option Str) (input : Json Int), IsRunRequest v name input →
    IsRunAnswer (run s saves uuid now (some v)).2 (name.getD uuid.toList)

/-- No request is answered as documented: 200 instead of 201, and 500 with a text that is not JSON. -/
theorem run_never {D S : Type} (s : ExecStore.Store (Json F) D S) (saves : Bool) (uuid : String)
    (now : Nat) (body : Option (Json F)) (id : Str) :
    ¬ IsRunAnswer (run s saves uuid now body).2 id := by
  intro h
  rw [run.eq_def] at h
  split at h
  · rcases h with ⟨h, _⟩ | ⟨h, _⟩ <;> cases h
  · split at h
    · rcases h with ⟨h, _⟩ | ⟨h, _⟩ <;> cases h
    · cases saves with
      | true => rcases h with ⟨h, _⟩ | ⟨h, _⟩ <;> cases h
      | false =>
        rcases h with ⟨h, _⟩ | ⟨_, _, h, _⟩
        · cases h
        · cases h

/-- A request with a name. -/
def demoRequest : Json Int := .obj [("executionName".toList, .str ['n']), ("input".toList, .obj [])]

theorem demoRequest_is : IsRunRequest demoRequest (some ['n']) (.obj []) :=
  ⟨_, rfl, by decide, rfl, ⟨_, rfl⟩, rfl⟩

theorem run_violated : ¬ FullRun := by
  intro h
  exact run_never _ _ _ _ _ _ (h .new true "u" 0 demoRequest _ _ demoRequest_is)

omit [DecidableEq F] in
theorem filter_nodup {m : List (Str × Json F)} (h : (m.map (·.1)).Nodup) (k : Str) :
    (m.filter fun e => decide (e.1 = k)).length ≤ 1 := by
  induction m with
  | nil => simp
  | cons e m ih =>
    rw [List.map_cons, List.nodup_cons] at h
    rw [List.filter_cons]
    split
    next he =>
      have : m.filter (fun e => decide (e.1 = k)) = [] := by
        rw [List.filter_eq_nil_iff]
        intro a ha hk
        refine h.1 ?_
        rw [of_decide_eq_true he, ← of_decide_eq_true hk]
        exact List.mem_map_of_mem ha
      rw [this]
      simp
    · exact ih h.2

omit [DecidableEq F] in
/-- Every documented request is accepted. If the execution can be saved, the answer has the given or
generated id, under which the new execution is found, and no other execution has changed. -/
theorem run_partial {D S : Type} (s : ExecStore.Store (Json F) D S) (uuid : String) (now : Nat)
    {v : Json F} {name : Option Str} {input : Json F} (h : IsRunRequest v name input) :
    ∃ m, (run s true uuid now (some v)).2 = ⟨200, .inl (.obj m)⟩ ∧
      m.lookup "id".toList = some (.str (name.getD uuid.toList)) ∧
      (∃ e, (run s true uuid now (some v)).1.get (String.ofList (name.getD uuid.toList)) = some e ∧
        e.input = input ∧ e.started = now ∧ e.status = .preparing ∧ e.states = []) ∧
      ∀ id, id ≠ String.ofList (name.getD uuid.toList) →
        (run s true uuid now (some v)).1.get id = s.get id := by
  obtain ⟨m, rfl, hd, hi, _, hn⟩ := h
  have hdec : RunRequest.decode (.obj m) = some ⟨name, input⟩ := by
    have h0 : entries ["executionName".toList, "input".toList] (.obj m) = some m := by
      rw [entries, if_pos]
      rw [List.all_eq_true]
      intro k _
      exact decide_eq_true (filter_nodup hd k)
    have ho : opt m "executionName" str = some name := by
      rw [opt, hn]
      cases name <;> rfl
    rw [RunRequest.decode, h0, Option.bind_eq_bind, Option.bind_some, ho, req_at _ hi]
    rfl
  have hid : (name.map String.ofList).getD uuid = String.ofList (name.getD uuid.toList) := by
    cases name with
    | none => exact String.ofList_toList.symm
    | some n => rfl
  have hr : run s true uuid now (some (.obj m)) =
      ((s.save (String.ofList (name.getD uuid.toList)) ⟨input, now, none, none, .preparing,
        "The execution is currently being prepared", none, []⟩).1,
        ⟨200, .inl (.obj [("id".toList, .str (name.getD uuid.toList))])⟩) := by
    rw [run, hdec]
    simp only [if_true, ExecStore.runHandler, hid, String.toList_ofList]
  rw [hr]
  refine ⟨_, rfl, rfl, ?_, ?_⟩
  · rw [ExecStore.save_get, if_pos rfl]
    exact ⟨_, rfl, rfl, rfl, rfl, rfl⟩
  · intro id hne
    rw [ExecStore.save_get, if_neg]
    exact fun h => hne h.symm

example : IsRunRequest demoRequest (some ['n']) (.obj []) := demoRequest_is

/-- The JSON value cannot be a request to start an execution: it is neither an object nor an array,
or an object without input or whose name is neither a text nor null. -/
inductive Unfit : Json F → Prop where
  | null : Unfit .null
  | bool (b : Bool) : Unfit (.bool b)
  | int (n : Int) : Unfit (.int n)
  | float (x : F) : Unfit (.float x)
  | str (t : Str) : Unfit (.str t)
  | noInput (m : List (Str × Json F)) : m.lookup "input".toList = none → Unfit (.obj m)
  | name (m : List (Str × Json F)) (w : Json F) : m.lookup "executionName".toList = some w →
      w ≠ .null → (∀ n, w ≠ .str n) → Unfit (.obj m)

omit [DecidableEq F] in
/-- C133: a request that cannot be understood, or whose execution cannot be saved, is answered with
an error and starts nothing. -/
theorem run_refused {D S : Type} (s : ExecStore.Store (Json F) D S) (uuid : String) (now : Nat) :
    (∀ saves, (run s saves uuid now none).1 = s ∧ (run s saves uuid now none).2.status = 400) ∧
    (∀ saves v, Unfit v →
      (run s saves uuid now (some v)).1 = s ∧ (run s saves uuid now (some v)).2.status = 422) ∧
    ∀ v name input, IsRunRequest v name input →
      (run s false uuid now (some v)).1 = s ∧ (run s false uuid now (some v)).2.status = 500 := by
  refine ⟨fun saves => ⟨rfl, rfl⟩, fun saves v hv => ?_, fun v name input h => ?_⟩
  · have hd : RunRequest.decode v = none := by
      cases hv with
      | null => rfl
      | bool b => rfl
      | int n => rfl
      | float x => rfl
      | str t => rfl
      | noInput m h =>
        unfold RunRequest.decode
        cases he : entries ["executionName".toList, "input".toList] (.obj m) with
        | none => rfl
        | some m' =>
          have : m' = m := by
            simp only [entries] at he
            by_cases hc : (["executionName".toList, "input".toList].all fun k =>
                decide ((m.filter fun e => decide (e.1 = k)).length ≤ 1)) = true
            · rw [if_pos hc] at he; injection he with he; exact he.symm
            · rw [if_neg hc] at he; cases he
          subst this
          simp only [Option.bind_eq_bind, Option.bind_some]
          cases opt m' "executionName" str with
          | none => rfl
          | some o =>
            have hq : req m' "input" any = none := by rw [req, h]
            simp only [Option.bind_some, hq, Option.bind_none]
      | name m w h h1 h2 =>
        unfold RunRequest.decode
        cases he : entries ["executionName".toList, "input".toList] (.obj m) with
        | none => rfl
        | some m' =>
          have : m' = m := by
            simp only [entries] at he
            by_cases hc : (["executionName".toList, "input".toList].all fun k =>
                decide ((m.filter fun e => decide (e.1 = k)).length ≤ 1)) = true
            · rw [if_pos hc] at he; injection he with he; exact he.symm
            · rw [if_neg hc] at he; cases he
          subst this
          have ho : opt m' "executionName" str = none := by
            rw [opt, h]
            cases w with
            | null => exact absurd rfl h1
            | str n => exact absurd rfl (h2 n)
            | bool b => rfl
            | int n => rfl
            | float x => rfl
            | obj o => rfl
            | arr l => rfl
          simp only [Option.bind_eq_bind, Option.bind_some, ho, Option.bind_none]
    rw [run.eq_def]
    simp only [hd]
    exact ⟨trivial, trivial⟩
  · obtain ⟨m, h1, _⟩ := run_partial s uuid now h
    cases hd : RunRequest.decode v with
    | none =>
      have : (run s true uuid now (some v)).2.status = 422 := by
        rw [run.eq_def]
        simp only [hd]
      rw [h1] at this
      cases this
    | some r =>
      rw [run.eq_def]
      simp only [hd]
      exact ⟨rfl, rfl⟩

example : Unfit (F := Int) (.obj [("executionName".toList, .int 3), ("input".toList, .obj [])]) :=
  .name _ (.int 3) rfl nofun nofun

end Verif.FlowApi
