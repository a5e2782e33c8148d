import Verif.Workflow.Props

/-!
# Properties of whole runs of workflows

C26 to C29, C83 and C84.
-/

namespace Verif.Workflow

variable {G F : Type} [DecidableEq F]

/-! ## C26: linear workflows -/

theorem Succeeds.stateInput {env : Env G F} {c : State G} {v : Json F} {x : Visit F}
    (h : Succeeds env c v x) : ∃ w, Workflow.stateInput env x.name none c v = .ok w := by
  have := h.input
  rw [Workflow.stateInput]
  split
  · exact ⟨_, rfl⟩
  next path hp =>
    obtain ⟨w, hw⟩ := this path hp
    rw [hw]
    exact ⟨w, rfl⟩

theorem Succeeds.payload_ok {env : Env G F} {c : State G} {v : Json F} {x : Visit F}
    (h : Succeeds env c v x) : Workflow.payload env c v = .ok x.payload := by
  have := h.payload
  rw [Workflow.payload]
  split
  next t ht => rw [ht] at this; exact this
  next ht => rw [ht] at this; rw [this]

theorem Succeeds.stateOutput {env : Env G F} {c : State G} {v : Json F} {x : Visit F}
    (h : Succeeds env c v x) : Workflow.stateOutput env x.name none c v x.result = .ok x.output := by
  have := h.output
  rw [Workflow.stateOutput]
  split
  next p hp => rw [hp] at this; dsimp only at this; rw [this]
  next hp =>
    rw [hp] at this
    split
    next p hp => rw [hp] at this; dsimp only at this; rw [this]
    next hp => rw [hp] at this; dsimp only at this; rw [this]

/-- What is recorded of a step. -/
def summary (r : Rec F) : Name × Status × Option (Json F) := (r.name, r.status, r.output)

/-- A step that succeeds, up to the record of its success. -/
theorem visit_run {env : Env G F} {c : State G} {v : Json F} {x : Visit F}
    (hl : env.states.lookup x.name = some c) (hx : Succeeds env c v x)
    (hs : ∀ log e, env.save log e = true) (s : S F) (prev : Option (Rec F))
    (ret : Option (Option (Json F))) (hn : ∀ q ∈ s.exec.states, q.name ≠ x.name) :
    ∃ r s', runN env 3 (s, .task (.run x.name v prev none) ret) =
        (match c.next with
          | some n => (s', .task (.run n x.output (some r) none) (some (ret.getD (some x.output))))
          | none =>
            if c.isEnd.getD false then (s', .task (.complete v x.output) ret)
            else (s', failWith ⟨.invalidState, x.name, none, none, .text ['k']⟩ v ret)) ∧
      calledWith s'.log = (x.name, x.payload) :: calledWith s.log ∧
      entered s'.log = x.name :: entered s.log ∧ completions s'.log = completions s.log ∧
      s'.exec.states.map summary = s.exec.states.map summary ++ [(x.name, .succeeded, some x.output)] := by
  obtain ⟨w, hw⟩ := hx.stateInput
  have he : ∃ e : Exec F, e = ⟨s.exec.input, s.exec.output, .inProgress, .executing x.name,
    some x.name, s.exec.states ++ [Rec.complete (env.now (.called x.name x.payload ::
      .event (.transition prev (newRec x.name c w prev (env.now s.log))) ::
      .saved (s.exec.enter (newRec x.name c w prev (env.now s.log))) :: s.log)) x.result x.output
      (newRec x.name c w prev (env.now s.log))], s.exec.completed, s.exec.duration⟩ := ⟨_, rfl⟩
  obtain ⟨e, he⟩ := he
  refine ⟨newRec x.name c w prev (env.now s.log), ⟨e, .saved e :: .called x.name x.payload ::
    .event (.transition prev (newRec x.name c w prev (env.now s.log))) ::
    .saved (s.exec.enter (newRec x.name c w prev (env.now s.log))) :: s.log⟩,
    ?_, ?_⟩
  subst he
  · rw [runN, step, stepRun.eq_def, config, hl]
    dsimp only
    rw [hw]
    dsimp only
    rw [save_true (hs _ _)]
    dsimp only
    rw [runN, step, stepExec, hx.kind]
    dsimp only
    rw [stepStep, if_pos hx.handled, hx.payload_ok]
    dsimp only
    rw [hx.result]
    dsimp only
    rw [runN, step, stepFinish, hx.stateOutput]
    dsimp only [S.send]
    rw [updRec, Exec.enter]
    dsimp only
    rw [updFirst_split hn rfl]
    dsimp only
    rw [save_true (hs _ _)]
    dsimp only
    rw [runN]
    cases c.next with
    | some n => rfl
    | none => rfl
  · subst he
    refine ⟨by simp [calledWith], by simp [entered, newRec], by simp [completions], ?_⟩
    simp [summary, Rec.complete, newRec]

theorem chain_run {env : Env G F} (hs : ∀ log e, env.save log e = true) {n : Name} {v : Json F}
    {xs : List (Visit F)} {out : Json F} (h : Chain env n v xs out) :
    (xs.map Visit.name).Nodup → ∀ (s : S F) (prev : Option (Rec F)) (ret : Option (Option (Json F))),
    (∀ q ∈ s.exec.states, q.name ∉ xs.map Visit.name) →
    ∃ k s' y rest, runN env k (s, .task (.run n v prev none) ret) = (s', .done y) ∧
      s'.exec.status = .succeeded ∧
      calledWith s'.log = (xs.map (fun x => (x.name, x.payload))).reverse ++ calledWith s.log ∧
      entered s'.log = (xs.map Visit.name).reverse ++ entered s.log ∧
      s'.log = .event (.complete s'.exec) :: rest ∧ completions rest = completions s.log ∧
      s'.exec.states.map summary = s.exec.states.map summary ++
        xs.map (fun x => (x.name, .succeeded, some x.output)) := by
  induction h with
  | last c v x hl hx hnext hend =>
    intro _ s prev ret hfresh
    obtain ⟨r, s', hr, h1, h2, h3, h4⟩ := visit_run hl hx hs s prev ret
      (fun q hq he => hfresh q hq (by simp [he]))
    rw [hnext] at hr
    dsimp only at hr
    rw [hend, Option.getD_some, if_pos rfl] at hr
    refine ⟨3 + 1, ⟨s'.succeeded env, .event (.complete
      (s'.succeeded env)) :: .saved (s'.succeeded env) :: s'.log⟩,
      ret.getD (some x.output), .saved (s'.succeeded env) :: s'.log,
      ?_, rfl, ?_, ?_, rfl, ?_, ?_⟩
    · rw [runN_add, hr, runN, step, stepComplete]
      rw [save_true (hs _ _)]
      rfl
    · simpa [calledWith] using h1
    · simpa [entered] using h2
    · simpa [completions] using h3
    · simpa [S.succeeded] using h4
  | next c v x n rest out hl hx hnext _ ih =>
    intro hnd s prev ret hfresh
    rw [List.map_cons, List.nodup_cons] at hnd
    obtain ⟨r, s', hr, h1, h2, h3, h4⟩ := visit_run hl hx hs s prev ret
      (fun q hq he => hfresh q hq (by simp [he]))
    rw [hnext] at hr
    dsimp only at hr
    have hnames : s'.exec.states.map Rec.name = s.exec.states.map Rec.name ++ [x.name] := by
      have := congrArg (List.map (fun y : Name × Status × Option (Json F) => y.1)) h4
      simpa [summary, Function.comp_def] using this
    obtain ⟨k, s'', y, log, hk, i1, i2, i3, i4, i5, i6⟩ := ih hnd.2 s' (some r)
      (some (ret.getD (some x.output))) (by
        intro q hq hmem
        have : q.name ∈ s'.exec.states.map Rec.name := List.mem_map.2 ⟨q, hq, rfl⟩
        rw [hnames, List.mem_append, List.mem_singleton] at this
        rcases this with hm | hm
        · obtain ⟨q', hq', he⟩ := List.mem_map.1 hm
          exact hfresh q' hq' (by rw [he]; simp only [List.map_cons, List.mem_cons]; exact Or.inr hmem)
        · rw [hm] at hmem
          exact hnd.1 hmem)
    refine ⟨3 + k, s'', y, log, ?_, i1, ?_, ?_, i4, ?_, ?_⟩
    · rw [runN_add, hr, hk]
    · rw [i2, h1]; simp
    · rw [i3, h2]; simp
    · rw [i5, h3]
    · rw [i6, h4]; simp

theorem Chain.output {env : Env G F} {n : Name} {v : Json F} {xs : List (Visit F)} {out : Json F}
    (h : Chain env n v xs out) : ∃ before x, xs = before ++ [x] ∧ x.output = out := by
  induction h with
  | last c v x => exact ⟨[], x, rfl, rfl⟩
  | next c v x n rest out _ _ _ _ ih =>
    obtain ⟨before, y, h1, h2⟩ := ih
    exact ⟨x :: before, y, by rw [h1]; rfl, h2⟩

/-- An execution that ends without waiting for branches is the only one. -/
theorem deterministic {env : Env G F} {input : Json F} {k : Nat} {s : S F} {y : Option (Json F)}
    (h : runN env k (start env input) = (s, .done y)) {c : S F × Proc G F} (hc : Reach env input c) :
    ∃ j, j ≤ k ∧ c = runN env j (start env input) := by
  have stuck : ∀ m (a : S F) (p : Proc G F), (∀ t ret, p ≠ .task t ret) → runN env m (a, p) = (a, p) := by
    intro m a p hp
    cases m with
    | zero => rfl
    | succ m =>
      cases p with
      | task t ret => exact absurd rfl (hp t ret)
      | join => rfl
      | done => rfl
      | crashed => rfl
  induction hc with
  | start => exact ⟨0, Nat.zero_le _, rfl⟩
  | step c c' _ hst ih =>
    obtain ⟨j, hj, he⟩ := ih
    obtain ⟨d, rfl⟩ := Nat.exists_eq_add_of_le hj
    rw [runN_add, ← he] at h
    cases hst with
    | task s t ret =>
      cases d with
      | zero => injection h with _ h; cases h
      | succ d => exact ⟨j + 1, by omega, by rw [runN_add, ← he]; rfl⟩
    | branch =>
      rw [stuck _ _ _ (by intro t ret h; cases h)] at h
      injection h with _ h
      cases h
    | joined =>
      rw [stuck _ _ _ (by intro t ret h; cases h)] at h
      injection h with _ h
      cases h

/-- A chain of distinct steps that succeed runs to its end, and this is the only execution: every
handler is called once, in order, with the payload made from the output before; every state is
announced once, in order, and then the completion; the records have the outputs, the last one the
last output. -/
theorem linear_chain {env : Env G F} (hs : ∀ log e, env.save log e = true) {input : Json F}
    {xs : List (Visit F)} {out : Json F} (h : Chain env env.startAt input xs out)
    (hd : (xs.map Visit.name).Nodup) :
    ∃ k s y rest, runN env k (start env input) = (s, .done y) ∧
      (∀ c, Reach env input c → ∃ j, j ≤ k ∧ c = runN env j (start env input)) ∧
      s.exec.status = .succeeded ∧
      (calledWith s.log).reverse = xs.map (fun x => (x.name, x.payload)) ∧
      (entered s.log).reverse = xs.map Visit.name ∧
      s.log = .event (.complete s.exec) :: rest ∧ completions rest = [] ∧
      s.exec.states.map (fun r => (r.name, r.status, r.output)) =
        xs.map (fun x => (x.name, .succeeded, some x.output)) ∧
      ∃ before x, xs = before ++ [x] ∧ x.output = out := by
  obtain ⟨k, s, y, rest, h1, h2, h3, h4, h5, h6, h7⟩ := chain_run hs h hd ⟨initial input, []⟩ none none
    (by simp [initial])
  refine ⟨k, s, y, rest, h1, fun c hc => deterministic h1 hc, h2, ?_, ?_, h5, ?_, ?_, h.output⟩
  · rw [h3]; simp [calledWith]
  · rw [h4]; simp [entered]
  · rw [h6]; simp [completions]
  · rw [show s.exec.states.map (fun r => (r.name, r.status, r.output)) = s.exec.states.map summary from rfl,
      h7]
    rfl

/-- Two steps; the handlers add 1. -/
def twoEnv : Env (Option Int) Int :=
  demoEnv [(['a'], { kind := .executeStep, next := some ['b'] }), (['b'], single)]
    (fun _ _ v => match v with
      | .int i => .ok (.int (i + 1))
      | v => .ok v)

example : Chain twoEnv twoEnv.startAt (.int 1)
    [⟨['a'], .int 1, .int 2, .int 2⟩, ⟨['b'], .int 2, .int 3, .int 3⟩] (.int 3) :=
  .next { kind := .executeStep, next := some ['b'] } (.int 1) ⟨['a'], .int 1, .int 2, .int 2⟩ ['b']
    [⟨['b'], .int 2, .int 3, .int 3⟩] _ rfl
    ⟨rfl, rfl, by simp, rfl, fun _ => rfl, rfl⟩ rfl
    (.last single (.int 2) ⟨['b'], .int 2, .int 3, .int 3⟩ rfl
      ⟨rfl, rfl, by simp [single], rfl, fun _ => rfl, rfl⟩ rfl rfl)

/-! ## C27: saved before announced -/

/-- C27 as stated. -/
def FullSaved : Prop :=
  ∀ (env : Env (Option Int) Int) (input : Json Int) (s : S Int) (p : Proc (Option Int) Int),
    Reach env input (s, p) → Events SavedBefore s.log

/-- Nothing can be saved. -/
def unsavedEnv : Env (Option Int) Int :=
  { demoEnv [(['a'], single)] (fun _ _ v => .ok v) with save := fun _ _ => false }

/-- The failure of the execution is announced although it was not saved. -/
theorem saved_violated : ¬ FullSaved := by
  intro h
  have := h unsavedEnv .null _ _ (reach_start _ _ 5) [] (.complete
    ⟨.null, none, .failed, .error ['a'] "PersistFailed".toList (.text ['w']), some ['a'],
      [⟨['a'], .executeStep, none, .null, .failed, 1, some (['a'], "PersistFailed".toList, .text ['w']),
        [], none, none, 0, some 0⟩], none, some 0⟩)
    [.event (.failure ⟨['a'], .executeStep, none, .null, .failed, 1,
        some (['a'], "PersistFailed".toList, .text ['w']), [], none, none, 0, some 0⟩),
      .notSaved ⟨.null, none, .inProgress, .executing ['a'], some ['a'],
        [⟨['a'], .executeStep, none, .null, .inProgress, 1, none, [], none, none, 0, none⟩],
        none, none⟩] rfl
  simp only [SavedBefore, List.mem_cons, List.not_mem_nil, or_false, reduceCtorEq] at this

/-- What is announced, except for failures, was saved before. -/
def ProgressSaved (ev : Event F) (before : List (Entry F)) : Prop :=
  match ev with
  | .transition _ r => ∃ e, .saved e ∈ before ∧ r ∈ e.states
  | .failure _ => True
  | .complete e => e.status = .failed ∨ .saved e ∈ before

omit [DecidableEq F] in
theorem Events.cons {P : Event F → List (Entry F) → Prop} {x : Entry F} {log : List (Entry F)}
    (h : Events P log) (hx : ∀ ev, x = .event ev → P ev log) : Events P (x :: log) := by
  intro later ev before he
  cases later with
  | nil =>
    injection he with h1 h2
    rw [← h2]
    exact hx ev h1
  | cons a later =>
    injection he with h1 h2
    exact h later ev before h2

/-- What tasks that record errors know. -/
def Announces (env : Env G F) (s : S F) : Task G F → Option (Option (Json F)) → Prop
  | .fail e _, _ => (∀ log x, env.save log x = true) → e.kind ≠ .persistFailed
  | .record _ _ persist _ _, _ => (∀ log x, env.save log x = true) → persist = true
  | .persist e r persist continues _, _ => (continues = false → e.status = .failed) ∧
    ((∀ log x, env.save log x = true) → persist = true ∧ r ∈ e.states)
  | .announce e r continues _, _ => (continues = false → e.status = .failed) ∧
    ((∀ log x, env.save log x = true) → .saved e ∈ s.log ∧ r ∈ e.states)
  | _, _ => True

/-- The log only gets longer. -/
def Longer (s s' : S F) : Prop := ∀ x, x ∈ s.log → x ∈ s'.log

/-- What is known of events. -/
def Announced (env : Env G F) (s : S F) : Prop :=
  Events ProgressSaved s.log ∧ ((∀ log x, env.save log x = true) → Events SavedBefore s.log)

omit [DecidableEq F] in
theorem Announced.silent {env : Env G F} {s : S F} {x : Entry F} (h : Announced env s)
    (hx : ∀ ev, x ≠ .event ev) (e : Exec F) : Announced env ⟨e, x :: s.log⟩ :=
  ⟨h.1.cons (fun ev he => absurd he (hx ev)), fun hs => (h.2 hs).cons (fun ev he => absurd he (hx ev))⟩

omit [DecidableEq F] in
theorem Announced.send {env : Env G F} {s : S F} {ev : Event F} (h : Announced env s)
    (h1 : ProgressSaved ev s.log) (h2 : (∀ log x, env.save log x = true) → SavedBefore ev s.log)
    (e : Exec F) : Announced env ⟨e, .event ev :: s.log⟩ :=
  ⟨h.1.cons (fun ev' he => by injection he with he; rw [← he]; exact h1),
    fun hs => (h.2 hs).cons (fun ev' he => by injection he with he; rw [← he]; exact h2 hs)⟩

omit [DecidableEq F] in
theorem Longer.cons {s : S F} (e : Exec F) (x : Entry F) : Longer s ⟨e, x :: s.log⟩ :=
  fun _ h => List.mem_cons_of_mem _ h

omit [DecidableEq F] in
theorem longer_cons2 {s : S F} (e : Exec F) (x y : Entry F) : Longer s ⟨e, x :: y :: s.log⟩ :=
  fun _ h => List.mem_cons_of_mem _ (List.mem_cons_of_mem _ h)

omit [DecidableEq F] in
theorem waitTime_kind {env : Env G F} {name : Name} {w : Wait} {input : Json F} {now : Int}
    {e : Fail} (h : waitTime env name w input now = .error e) : e.kind ≠ .persistFailed := by
  obtain ⟨_, ⟨_, h | h⟩ | ⟨_, h, _⟩⟩ := waitTime_error h <;> rw [h] <;> simp

omit [DecidableEq F] in
theorem record_states (s : S F) (info : Info) (name : Name) (continues : Bool) :
    (if continues = true then s.exec else
      s.failed env (.error info.state name info.msg)).states =
      s.exec.states := by
  split <;> rfl

theorem announced_step (env : Env G F) (s : S F) (t : Task G F) (ret : Option (Option (Json F)))
    (hf : FirstAttempts s) (hi : Announced env s) (ht : Announces env s t ret) :
    Announced env (step env s ret t).1 ∧ Longer s (step env s ret t).1 ∧
      All (Announces env (step env s ret t).1) (fun _ => True) (step env s ret t).2 := by
  have stay : ∀ (e : Exec F) (p : Proc G F), All (Announces env (⟨e, s.log⟩ : S F)) (fun _ => True) p →
      Announced env (⟨e, s.log⟩ : S F) ∧ Longer s ⟨e, s.log⟩ ∧
        All (Announces env (⟨e, s.log⟩ : S F)) (fun _ => True) p :=
    fun e p hp => ⟨hi, fun _ h => h, hp⟩
  have failed : ∀ (s' : S F) (e : Fail) (v : Json F) (ret : Option (Option (Json F))),
      e.kind ≠ .persistFailed → All (Announces env s') (fun _ => True) (failWith e v ret : Proc G F) :=
    fun s' e v ret h => .task _ _ (fun _ => h)
  cases t with
  | run name v prev parent =>
    rw [step, stepRun.eq_def]
    split
    next e he =>
      refine stay s.exec _ (failed _ _ _ _ ?_)
      cases parent with
      | none => rw [(config_error he).2.2.resolve_left (by simp)]; simp
      | some q =>
        rw [config] at he
        split at he
        · rw [childConfig] at he
          split at he
          · split at he
            · split at he
              · cases he
              · injection he with he; subst he; simp
            · injection he with he; subst he; simp
          · injection he with he; subst he; simp
        · injection he with he; subst he; simp
    next c _ =>
      split
      next e he => exact stay s.exec _ (failed _ _ _ _ (by rw [(stateInput_error he).1]; simp))
      next w _ =>
        dsimp only
        by_cases hsv : env.save s.log (s.exec.enter (newRec name c w prev (env.now s.log))) = true
        · rw [save_true (s := ⟨s.exec.enter (newRec name c w prev (env.now s.log)), s.log⟩) hsv]
          dsimp only [S.send]
          refine ⟨?_, longer_cons2 _ _ _, .task _ _ trivial⟩
          have h1 := hi.silent (x := .saved (s.exec.enter (newRec name c w prev (env.now s.log)))) (by simp)
            (s.exec.enter (newRec name c w prev (env.now s.log)))
          have h2 : ∃ e, Entry.saved e ∈ Entry.saved (s.exec.enter (newRec name c w prev (env.now s.log))) :: s.log ∧
              newRec name c w prev (env.now s.log) ∈ e.states :=
            ⟨s.exec.enter (newRec name c w prev (env.now s.log)), by simp, by simp [Exec.enter]⟩
          exact h1.send (ev := .transition prev (newRec name c w prev (env.now s.log))) h2 (fun _ => h2) _
        · rw [save_false (s := ⟨s.exec.enter (newRec name c w prev (env.now s.log)), s.log⟩) hsv]
          exact ⟨hi.silent (by simp) _, .cons _ _, .task _ _ (fun hs => absurd (hs _ _) hsv)⟩
  | exec name r c v parent =>
    rw [step, stepExec]
    split
    · rw [stepStep]
      split
      · split
        next e _ =>
          refine stay s.exec _ (failed _ _ _ _ ?_)
          rcases (templateErr_info name parent e).2.2.2 with h | h <;> rw [h] <;> simp
        · exact stay s.exec _ .crashed
        · refine ⟨hi.silent (by simp) _, .cons _ _, ?_⟩
          dsimp only
          split
          · exact .task _ _ trivial
          · exact failed _ _ _ _ (by simp)
          · exact .crashed
      · exact stay s.exec _ (failed _ _ _ _ (by simp))
    · rw [stepParallel]
      split
      · exact stay s.exec _ (failed _ _ _ _ (by simp))
      · exact stay s.exec _ (failed _ _ _ _ (by simp))
      · refine stay s.exec _ (.join _ _ trivial ?_)
        intro p hp
        rw [List.mem_map] at hp
        obtain ⟨b, _, hb⟩ := hp
        subst hb
        split
        · exact .task _ _ trivial
        · exact .done _
    · rw [stepWait]
      split
      · exact stay s.exec _ (failed _ _ _ _ (by simp))
      · split
        next e he => exact stay s.exec _ (failed _ _ _ _ (waitTime_kind he))
        · exact ⟨hi.silent (by simp) _, .cons _ _, .task _ _ trivial⟩
    · exact stay s.exec _ (.done _)
    · exact stay s.exec _ (.done _)
    · exact stay s.exec _ (.done _)
    · exact stay s.exec _ (.done _)
    · exact stay s.exec _ (failed _ _ _ _ (by simp))
  | finish name parent c r v o =>
    rw [step, stepFinish]
    split
    next e he =>
      refine stay s.exec _ (failed _ _ _ _ ?_)
      rcases (stateOutput_error he).1 with h | h <;> rw [h] <;> simp
    next final _ =>
      split
      · exact stay s.exec _ .crashed
      next q states hu =>
        by_cases hsv : env.save s.log { s.exec with states := states } = true
        · rw [save_true (s := ⟨{ s.exec with states := states }, s.log⟩) hsv]
          dsimp only
          split
          · exact ⟨hi.silent (by simp) _, .cons _ _, .task _ _ trivial⟩
          · split
            · exact ⟨hi.silent (by simp) _, .cons _ _, .task _ _ trivial⟩
            · exact ⟨hi.silent (by simp) _, .cons _ _, failed _ _ _ _ (by simp)⟩
        · rw [save_false (s := ⟨{ s.exec with states := states }, s.log⟩) hsv]
          exact ⟨hi.silent (by simp) _, .cons _ _, .task _ _ (fun hs => absurd (hs _ _) hsv)⟩
  | complete v final =>
    rw [step, stepComplete]
    by_cases hsv : env.save s.log (s.succeeded env) = true
    · rw [save_true (s := ⟨s.succeeded env, s.log⟩) hsv]
      dsimp only [S.send]
      refine ⟨?_, longer_cons2 _ _ _, .done _⟩
      have h1 := hi.silent (x := .saved (s.succeeded env)) (by simp)
        (s.succeeded env)
      exact h1.send (ev := .complete (s.succeeded env)) (Or.inr (by simp))
        (fun _ => by simp [SavedBefore]) _
    · rw [save_false (s := ⟨s.succeeded env, s.log⟩) hsv]
      exact ⟨hi.silent (by simp) _, .cons _ _, .task _ _ (fun hs => absurd (hs _ _) hsv)⟩
  | fail e v =>
    rw [step]
    refine stay s.exec _ (.task _ _ ?_)
    rw [onError]
    split
    next h => exact fun hs => absurd h (ht hs)
    · exact fun _ => rfl
    · exact fun _ => rfl
    · trivial
    · trivial
    · trivial
    all_goals exact fun _ => rfl
  | record info name persist continues after =>
    rw [step, stepRecord]
    dsimp only
    split
    · exact stay _ _ .crashed
    next q states hu =>
      refine stay _ _ (.task _ _ ⟨?_, ?_⟩)
      · intro hc
        subst hc
        rfl
      · intro hs
        refine ⟨ht hs, ?_⟩
        rw [record_states] at hu
        obtain ⟨_, before, old, after', _, _, _, h4, h5⟩ := updRec_some hf.2 hu
        dsimp only
        rw [h4, h5]
        simp
  | persist e r persist continues after =>
    rw [step, stepPersist]
    by_cases hp : persist = true
    · rw [if_pos hp]
      by_cases hsv : env.save s.log e = true
      · rw [save_true hsv]
        exact ⟨hi.silent (by simp) _, .cons _ _, .task _ _ ⟨ht.1, fun hs => ⟨by simp, (ht.2 hs).2⟩⟩⟩
      · rw [save_false hsv]
        exact ⟨hi.silent (by simp) _, .cons _ _, .task _ _ ⟨ht.1, fun hs => absurd (hs _ _) hsv⟩⟩
    · rw [if_neg hp]
      exact stay s.exec _ (.task _ _ ⟨ht.1, fun hs => absurd (ht.2 hs).1 hp⟩)
  | announce e r continues after =>
    rw [step, stepAnnounce]
    dsimp only [S.send]
    have h1 : Announced env (⟨s.exec, .event (.failure r) :: s.log⟩ : S F) :=
      hi.send (ev := .failure r) trivial (fun hs => ⟨e, ht.2 hs⟩) _
    cases continues with
    | true => exact ⟨h1, .cons _ _, .task _ _ trivial⟩
    | false =>
      refine ⟨h1.send (ev := .complete e) (Or.inl (ht.1 rfl)) (fun hs => ?_) _, longer_cons2 _ _ _, .task _ _ trivial⟩
      exact List.mem_cons_of_mem _ (ht.2 hs).1
  | next after =>
    rw [step, stepNext.eq_def]
    split
    · exact stay s.exec _ (.done _)
    · split
      · exact stay s.exec _ .crashed
      · exact ⟨hi.silent (by simp) _, .cons _ _, .task _ _ trivial⟩
    · split
      · exact stay s.exec _ (.done _)
      · split
        · exact stay s.exec _ (.task _ _ trivial)
        · exact stay s.exec _ (.task _ _ (fun _ => rfl))

theorem reach_announces {env : Env G F} {input : Json F} {s : S F} {p : Proc G F}
    (h : Reach env input (s, p)) : Announced env s ∧ All (Announces env s) (fun _ => True) p := by
  have := invariant env input (fun s => FirstAttempts s ∧ Announced env s)
    (fun s t ret => Known s t ret ∧ Announces env s t ret) KnownJ (fun s s' => Grows s s' ∧ Longer s s')
    (by
      intro s s' t ret hl ht
      refine ⟨ht.1.grow s s' t ret hl.1, ?_⟩
      have h2 := ht.2
      cases t with
      | announce e r continues after =>
        exact ⟨h2.1, fun hs => ⟨hl.2 _ (h2.2 hs).1, (h2.2 hs).2⟩⟩
      | run => trivial
      | exec => trivial
      | finish => trivial
      | complete => trivial
      | fail => exact h2
      | record => exact h2
      | persist => exact h2
      | next => trivial)
    (fun s s' j hg hj => ⟨hj.1, hg.1 _ hj.2⟩)
    ⟨⟨(reach_first (.start : Reach env input _)).1, by
        refine ⟨?_, fun _ => ?_⟩ <;> intro later ev before he <;> cases later <;> cases he⟩,
      ⟨fun p hp => (by cases hp), trivial⟩⟩
    (by
      intro s t ret hi ht
      obtain ⟨h1, h2, h3⟩ := first_step env s t ret hi.1 ht.1
      obtain ⟨h4, h5, h6⟩ := announced_step env s t ret hi.1 hi.2 ht.2
      exact ⟨⟨h1, h4⟩, ⟨h2, h5⟩, All.and h3 h6⟩)
    (by
      intro s j results _ hj
      rw [joined]
      split
      · exact .task _ _ ⟨hj, trivial⟩
      · exact .task _ _ ⟨Or.inl hj.2, fun _ => by simp⟩) h
  exact ⟨this.1.2, this.2.mono (fun _ _ h => h.2) (fun _ _ => trivial)⟩

theorem reach_announced {env : Env G F} {input : Json F} {s : S F} {p : Proc G F}
    (h : Reach env input (s, p)) : Announced env s := (reach_announces h).1

/-- In every execution, whatever fails, transitions and successful completions are saved before they
are announced. -/
theorem progress_saved_partial {env : Env G F} {input : Json F} {s : S F} {p : Proc G F}
    (h : Reach env input (s, p)) : Events ProgressSaved s.log := (reach_announced h).1

/-- As long as saving succeeds, everything is saved before it is announced, failures too. -/
theorem all_saved_partial {env : Env G F} (hs : ∀ log e, env.save log e = true) {input : Json F}
    {s : S F} {p : Proc G F} (h : Reach env input (s, p)) : Events SavedBefore s.log :=
  (reach_announced h).2 hs

/-- An execution with a failure and a completion, where saving succeeds. -/
example : (∀ log e, failingEnv.save log e = true) ∧ ∃ s p r later before,
    Reach failingEnv .null (s, p) ∧ s.log = later ++ .event (.failure r) :: before :=
  ⟨fun _ _ => rfl, _, _, _, [], _, reach_start failingEnv .null 6, rfl⟩

/-! ## C28: at most one completion -/

/-- There is at most one completion, and no transition after it. -/
def Once (log : List (Entry F)) : Prop :=
  (completions log).length ≤ 1 ∧
    ∀ later e before, log = later ++ .event (.complete e) :: before → entered later = []

/-- C28 as stated. -/
def FullOnce : Prop :=
  ∀ (env : Env (Option Int) Int) (input : Json Int) (s : S Int) (p : Proc (Option Int) Int),
    Reach env input (s, p) → Once s.log

/-- An error of the first state is caught by the second. -/
def recoveringEnv : Env (Option Int) Int :=
  demoEnv [(['a'], { kind := .executeStep, catchers := some [⟨[['*']], ['b'], none⟩] }), (['b'], single)]
    (fun _ n v => if n = ['a'] then .err boom else .ok v)

theorem recovering_run :
    (completions (runN recoveringEnv 11 (start recoveringEnv .null)).1.log).map Exec.status =
      [.succeeded, .failed] := by
  decide +kernel

/-- An error that is caught is announced as the completion of the execution, and later there is
another completion. -/
theorem once_violated : ¬ FullOnce := by
  intro h
  have h1 := fun s p hr => (h recoveringEnv .null s p hr).1
  have h2 := h1 (runN recoveringEnv 11 (start recoveringEnv .null)).1 _ (reach_start _ _ 11)
  have h3 := congrArg List.length recovering_run
  rw [List.length_map] at h3
  rw [h3] at h2
  exact absurd h2 (by decide)

/-- The last entry is the only completion. -/
def Over (log : List (Entry F)) : Prop :=
  ∃ e rest, log = .event (.complete e) :: rest ∧ completions rest = []

/-- Nothing follows. -/
def Final : After F → Prop
  | .stop => True
  | .retry _ _ _ _ => False
  | .catchErr _ _ rules => rules = none

/-- What is left to do after a completion. -/
def OnceP (s : S F) : Proc G F → Prop
  | .task (.next after) _ => completions s.log = [] ∨ Over s.log ∧ Final after
  | .task (.record _ _ _ continues after) _ =>
    completions s.log = [] ∧ (continues = false → Final after)
  | .task (.persist _ _ _ continues after) _ =>
    completions s.log = [] ∧ (continues = false → Final after)
  | .task (.announce _ _ continues after) _ =>
    completions s.log = [] ∧ (continues = false → Final after)
  | .task _ _ => completions s.log = []
  | .join _ _ => completions s.log = []
  | .done _ => completions s.log = [] ∨ Over s.log
  | .crashed => completions s.log = [] ∨ Over s.log

/-- No state has catch rules. -/
def NoCatch (env : Env G F) : Prop := ∀ n c, (n, c) ∈ env.states → c.catchers = none

omit [DecidableEq F] in
theorem NoCatch.catchersOf {env : Env G F} (h : NoCatch env) {i : Info} (hp : i.parent = none) :
    Workflow.catchersOf env i = none := by
  rw [Workflow.catchersOf, hp, config]
  cases hl : env.states.lookup i.state with
  | none => rfl
  | some c => exact h _ _ (lookup_mem hl)

theorem once_invariant {env : Env G F} (hs : Sequential env) (hc : NoCatch env) {input : Json F}
    {s : S F} {p : Proc G F} (h : Reach env input (s, p)) : OnceP s p := by
  refine (seq_invariant hs input OnceP rfl ?_ h).1
  intro s t ret _ ht hP
  have more : ∀ x : Entry F, (∀ e, x ≠ .event (.complete e)) → completions s.log = [] →
      completions (x :: s.log) = [] := by
    intro x hx h
    rw [completions, List.filterMap_cons]
    cases x with
    | event ev =>
      cases ev with
      | complete e => exact absurd rfl (hx e)
      | transition => exact h
      | failure => exact h
    | called => exact h
    | saved => exact h
    | notSaved => exact h
    | slept => exact h
  cases t with
  | run name v prev parent =>
    rw [step, stepRun.eq_def]
    split
    · exact hP
    next c _ =>
      split
      · exact hP
      next w _ =>
        dsimp only
        by_cases hsv : env.save s.log (s.exec.enter (newRec name c w prev (env.now s.log))) = true
        · rw [save_true (s := ⟨s.exec.enter (newRec name c w prev (env.now s.log)), s.log⟩) hsv]
          exact more (.saved (s.exec.enter (newRec name c w prev (env.now s.log)))) (by simp) hP
        · rw [save_false (s := ⟨s.exec.enter (newRec name c w prev (env.now s.log)), s.log⟩) hsv]
          exact hP
  | exec name r c v parent =>
    rw [step, stepExec]
    split
    · rw [stepStep]
      split
      · split
        · exact hP
        · exact Or.inl hP
        · dsimp only
          split
          · exact hP
          · exact hP
          · exact Or.inl hP
      · exact hP
    next hk => exact absurd hk (hs _ _ (lookup_mem ht.2))
    · rw [stepWait]
      split
      · exact hP
      · split
        · exact hP
        · exact hP
    · exact Or.inl hP
    · exact Or.inl hP
    · exact Or.inl hP
    · exact Or.inl hP
    · exact hP
  | finish name parent c r v o =>
    rw [step, stepFinish]
    split
    · exact hP
    next final _ =>
      split
      · exact Or.inl hP
      next q states hu =>
        by_cases hsv : env.save s.log { s.exec with states := states } = true
        · rw [save_true (s := ⟨{ s.exec with states := states }, s.log⟩) hsv]
          dsimp only
          split
          · exact hP
          · split <;> exact hP
        · rw [save_false (s := ⟨{ s.exec with states := states }, s.log⟩) hsv]
          exact hP
  | complete v final =>
    rw [step, stepComplete]
    by_cases hsv : env.save s.log (s.succeeded env) = true
    · rw [save_true (s := ⟨s.succeeded env, s.log⟩) hsv]
      exact Or.inr ⟨_, _, rfl, hP⟩
    · rw [save_false (s := ⟨s.succeeded env, s.log⟩) hsv]
      exact hP
  | fail e v =>
    have hr : ∀ fallback, OnceP s (.task (retryable env s e.info v fallback : Task G F)
        (some (ret.getD none))) := by
      intro fallback
      rw [retryable]
      refine ⟨hP, ?_⟩
      intro hcont
      generalize retryRule env e.info _ = ru at hcont
      split
      next h2 =>
        rw [h2] at hcont
        cases hcont
      next => exact hc.catchersOf ht
    rw [step, onError]
    split
    · exact ⟨hP, fun _ => trivial⟩
    · exact ⟨hP, fun _ => trivial⟩
    · exact ⟨hP, fun _ => trivial⟩
    · exact Or.inl hP
    · exact Or.inl hP
    · exact Or.inl hP
    · exact hr _
    · exact hr _
    · exact hr _
    · exact hr _
  | record info name persist continues after =>
    rw [step, stepRecord]
    dsimp only
    split
    · exact Or.inl hP.1
    · exact hP
  | persist e r persist continues after =>
    rw [step, stepPersist]
    refine ⟨?_, hP.2⟩
    dsimp only
    split
    · rw [S.save]
      split <;> exact hP.1
    · exact hP.1
  | announce e r continues after =>
    rw [step, stepAnnounce]
    dsimp only [S.send]
    cases continues with
    | true => exact Or.inl hP.1
    | false => exact Or.inr ⟨⟨_, _, rfl, hP.1⟩, hP.2 rfl⟩
  | next after =>
    rw [step, stepNext.eq_def]
    split
    · rcases hP with hP | hP
      · exact Or.inl hP
      · exact Or.inr hP.1
    · have hP : completions s.log = [] := hP.resolve_right (fun h => h.2)
      split
      · exact Or.inl hP
      · exact hP
    next info v rules _ =>
      have hrules : rules = none := ht.2.trans (hc.catchersOf ht.1)
      subst hrules
      dsimp only [Option.getD_none, List.find?_nil]
      rcases hP with hP | hP
      · exact Or.inl hP
      · exact Or.inr hP.1

omit [DecidableEq F] in
theorem completions_nil {log : List (Entry F)} (h : completions log = []) (later : List (Entry F))
    (e : Exec F) (before : List (Entry F)) : log ≠ later ++ .event (.complete e) :: before := by
  rintro rfl
  simp [completions] at h

/-- Without catch rules and branches, there is at most one completion, and nothing at all happens
after it. -/
theorem once_partial {env : Env G F} (hs : Sequential env) (hc : NoCatch env) {input : Json F}
    {s : S F} {p : Proc G F} (h : Reach env input (s, p)) : Once s.log ∧
      ∀ later e before, s.log = later ++ .event (.complete e) :: before → later = [] := by
  have key : completions s.log = [] ∨ Over s.log := by
    have h := once_invariant hs hc h
    cases p with
    | task t ret =>
      cases t with
      | next after => exact h.imp id And.left
      | record => exact Or.inl h.1
      | persist => exact Or.inl h.1
      | announce => exact Or.inl h.1
      | run => exact Or.inl h
      | exec => exact Or.inl h
      | finish => exact Or.inl h
      | complete => exact Or.inl h
      | fail => exact Or.inl h
    | join => exact Or.inl h
    | done => exact h
    | crashed => exact h
  have last : ∀ later e before, s.log = later ++ .event (.complete e) :: before → later = [] := by
    intro later e before he
    rcases key with key | ⟨e', rest, h1, h2⟩
    · exact absurd he (completions_nil key _ _ _)
    · rw [h1] at he
      cases later with
      | nil => rfl
      | cons x later =>
        injection he with _ he
        exact absurd he (completions_nil h2 _ _ _)
  refine ⟨⟨?_, ?_⟩, last⟩
  · rcases key with key | ⟨e', rest, h1, h2⟩
    · rw [key]; simp
    · rw [h1, completions, List.filterMap_cons]
      rw [completions] at h2
      dsimp only
      rw [h2]
      simp
  · intro later e before he
    rw [last later e before he]
    rfl

/-- A workflow with retries that ends. -/
example : Sequential flakyEnv ∧ NoCatch flakyEnv ∧
    (completions (runN flakyEnv 11 (start flakyEnv .null)).1.log).length = 1 := by
  refine ⟨flaky_sequential, ?_, by decide +kernel⟩
  intro n c h
  simp only [flakyEnv, demoEnv, List.mem_cons, List.not_mem_nil, or_false, Prod.mk.injEq] at h
  rw [h.2]
  rfl

/-! ## C29: uncaught failures end the execution -/

/-- The execution is over and this is the last thing announced. -/
def Ended (s : S F) : Prop :=
  ∃ rest, s.log = .event (.complete s.exec) :: rest ∧
    (s.exec.status = .succeeded ∨ s.exec.status = .failed)

/-- C29 as stated, for workflows whose states are all steps: when nothing is left to do, the
execution is over, and that was announced. -/
def FullEnds : Prop :=
  ∀ (env : Env (Option Int) Int) (input : Json Int) (s : S Int) (v : Option (Json Int)),
    (∀ n c, (n, c) ∈ env.states → c.kind = .executeStep) → Reach env input (s, .done v) → Ended s

/-- An error of a template ends the execution silently. -/
theorem ends_violated : ¬ FullEnds := by
  intro h
  have hr : ∃ s ret, Reach brokenEnv .null (s, .task (.fail unreadable .null) ret) ∧
      s.exec.status = .inProgress := ⟨_, _, reach_start brokenEnv .null 2, rfl⟩
  obtain ⟨s, ret, hr, hp⟩ := hr
  have h1 := reach_step hr
  rw [brokenEnv_fail] at h1
  have h2 := reach_step h1
  rw [brokenEnv_next] at h2
  obtain ⟨rest, _, hl⟩ := h brokenEnv .null s _ (by
    intro n c hc
    simp only [brokenEnv, demoEnv, List.mem_cons, List.not_mem_nil, or_false, Prod.mk.injEq] at hc
    rw [hc.2]
    rfl) h2
  rw [hp] at hl
  rcases hl with hl | hl <;> cases hl

/-- Errors of templates and input paths that no catch rule matches leave the execution as it is,
without an event. -/
theorem catchable_silent {env : Env G F} (s : S F) {e : Fail} (v : Json F)
    (ret : Option (Option (Json F))) (hk : Catchable e.kind) (hp : e.info.parent = none) {c : State G}
    (hl : env.states.lookup e.info.state = some c)
    (hn : NoMatch Catch.matchErrors (e.info.name.getD []) (c.catchers.getD [])) :
    ∃ x, runN env 2 (s, .task (.fail e v) ret) = (s, .done x) := by
  have hc : catchersOf env e.info = c.catchers := by rw [catchersOf, hp, config, hl]
  refine ⟨ret.getD none, ?_⟩
  rw [runN, step, onError_catchable env s e v hk, hc, runN, step, stepNext.eq_def]
  dsimp only
  rw [find_none.2 hn]
  rfl

/-- Steps and waits whose input paths, templates and paths of wait times never fail. -/
structure Regular (env : Env G F) : Prop where
  kind : ∀ n c, (n, c) ∈ env.states → c.kind = .executeStep ∨ c.kind = .wait
  input : ∀ n c, (n, c) ∈ env.states → ∀ path, c.inputPath = some path →
    ∀ v, ∃ w, Payload.extract env.template v path = .ok w
  template : ∀ n c, (n, c) ∈ env.states → ∀ t, c.template = some t →
    ∀ v e, Payload.render env.template t v ≠ .err e
  wait : ∀ n c, (n, c) ∈ env.states → ∀ w path, c.waitConfig = some w →
    (w.seconds = some path ∨ w.timestamp = some path) → path.head? = some '$' →
    env.template.parser.path path ≠ none

omit [DecidableEq F] in
theorem Regular.stateInput {env : Env G F} [DecidableEq F] (h : Regular env) {n : Name} {c : State G}
    (hc : env.states.lookup n = some c) (parent : Option Name) (v : Json F) :
    ∃ w, Workflow.stateInput env n parent c v = .ok w := by
  rw [Workflow.stateInput]
  split
  · exact ⟨_, rfl⟩
  next path hp =>
    obtain ⟨w, hw⟩ := h.input n c (lookup_mem hc) path hp v
    rw [hw]
    exact ⟨w, rfl⟩

theorem Regular.waitTime {env : Env G F} (h : Regular env) {n : Name} {c : State G}
    (hc : env.states.lookup n = some c) {w : Wait} (hw : c.waitConfig = some w) {v : Json F}
    {now : Int} {e : Fail} (he : Workflow.waitTime env n w v now = .error e) :
    e.kind = .invalidState := by
  have hx := h.wait n c (lookup_mem hc) w
  have until_ : ∀ t, waitUntil env now t = .error e → e.kind = .invalidState :=
    fun t ht => (waitUntil_error ht).1
  rw [Workflow.waitTime.eq_def] at he
  split at he
  next secs hs =>
    rw [waitSeconds] at he
    split at he
    next hd =>
      split at he
      next hp => exact absurd hp (hx secs hw (Or.inl hs) hd)
      next =>
        split at he
        · cases he
        · injection he with he; rw [← he]
    next =>
      split at he
      · cases he
      · injection he with he; rw [← he]
  next =>
    split at he
    next t ht =>
      rw [waitTimestamp] at he
      split at he
      next hd =>
        split at he
        next hp => exact absurd hp (hx t hw (Or.inr ht) hd)
        next =>
          split at he
          · exact until_ _ he
          · injection he with he; rw [← he]
      next => exact until_ _ he
    next => injection he with he; rw [← he]

/-- A retry follows. -/
def Retries : After F → Prop
  | .retry _ _ _ _ => True
  | _ => False

/-- What is known of the end of an execution. -/
def EndsP (s : S F) : Proc G F → Prop
  | .task (.fail e _) _ => ¬ Catchable e.kind
  | .task (.record _ _ _ continues after) _ => continues = true → Retries after
  | .task (.persist e _ _ continues after) _ =>
    e = s.exec ∧ (continues = false → e.status = .failed) ∧ (continues = true → Retries after)
  | .task (.announce e _ continues after) _ =>
    e = s.exec ∧ (continues = false → e.status = .failed) ∧ (continues = true → Retries after)
  | .task (.next after) _ => Retries after ∨ Ended s
  | .task _ _ => True
  | .join _ _ => True
  | .done _ => Ended s
  | .crashed => True

/-- If the states are steps and waits whose input paths and templates do not fail, and saves and
handlers do what they want, then an execution in which nothing is left to do has succeeded or failed,
and that was announced last. -/
theorem ends_partial {env : Env G F} (hr : Regular env) {input : Json F} {s : S F}
    {v : Option (Json F)} (h : Reach env input (s, .done v)) : Ended s := by
  have hs : Sequential env := by
    intro n c hc hk
    rcases hr.kind n c hc with h | h <;> rw [h] at hk <;> cases hk
  refine (seq_invariant hs input EndsP trivial ?_ h).1
  intro s t ret _ ht hP
  cases t with
  | run name v prev parent =>
    obtain rfl : parent = none := ht
    rw [step, stepRun.eq_def]
    split
    next e he =>
      show ¬ Catchable e.kind
      rw [(config_error he).2.2.resolve_left (by simp)]
      simp [Catchable]
    next c hc =>
      have hc : env.states.lookup name = some c := by
        rw [config] at hc
        split at hc
        next h => injection hc with hc; rw [h, hc]
        next => cases hc
      obtain ⟨w, hw⟩ := hr.stateInput hc none v
      rw [hw]
      dsimp only
      by_cases hsv : env.save s.log (s.exec.enter (newRec name c w prev (env.now s.log))) = true
      · rw [save_true (s := ⟨s.exec.enter (newRec name c w prev (env.now s.log)), s.log⟩) hsv]
        trivial
      · rw [save_false (s := ⟨s.exec.enter (newRec name c w prev (env.now s.log)), s.log⟩) hsv]
        exact fun h => by simp [Catchable] at h
  | exec name r c v parent =>
    obtain ⟨rfl, hc⟩ := ht
    rw [step, stepExec]
    rcases hr.kind _ _ (lookup_mem hc) with hk | hk
    · rw [hk]
      dsimp only
      rw [stepStep]
      split
      · split
        next e he =>
          rw [payload] at he
          split at he
          next t ht => exact absurd he (hr.template _ _ (lookup_mem hc) t ht v e)
          next => cases he
        · trivial
        · dsimp only
          split
          · trivial
          · exact fun h => by simp [Catchable] at h
          · trivial
      · exact fun h => by simp [Catchable] at h
    · rw [hk]
      dsimp only
      rw [stepWait]
      split
      · exact fun h => by simp [Catchable] at h
      next w hw =>
        split
        next e he =>
          intro h
          rw [Catchable, hr.waitTime hc hw he] at h
          simp at h
        · trivial
  | finish name parent c r v o =>
    rw [step, stepFinish]
    split
    next e he =>
      intro h
      rcases (stateOutput_error he).1 with h' | h' <;> rw [Catchable, h'] at h <;> simp at h
    next final _ =>
      split
      · trivial
      next q states hu =>
        by_cases hsv : env.save s.log { s.exec with states := states } = true
        · rw [save_true (s := ⟨{ s.exec with states := states }, s.log⟩) hsv]
          dsimp only
          split
          · trivial
          · split
            · trivial
            · exact fun h => by simp [Catchable] at h
        · rw [save_false (s := ⟨{ s.exec with states := states }, s.log⟩) hsv]
          exact fun h => by simp [Catchable] at h
  | complete v final =>
    rw [step, stepComplete]
    by_cases hsv : env.save s.log (s.succeeded env) = true
    · rw [save_true (s := ⟨s.succeeded env, s.log⟩) hsv]
      exact ⟨_, rfl, Or.inl rfl⟩
    · rw [save_false (s := ⟨s.succeeded env, s.log⟩) hsv]
      exact fun h => by simp [Catchable] at h
  | fail e v =>
    have hret : ∀ fallback, EndsP s (.task (retryable env s e.info v fallback : Task G F)
        (some (ret.getD none))) := by
      intro fallback
      rw [retryable]
      intro hcont
      split
      · trivial
      next hne =>
        generalize retryRule env e.info _ = ru at hne hcont
        cases ru with
        | none => cases hcont
        | some c =>
          cases hx : (exceeded s e.info (some c)).2 with
          | true => rw [hx] at hcont; cases hcont
          | false => exact absurd hx (hne c rfl)
    rw [step, onError]
    split
    · exact fun h => by cases h
    · exact fun h => by cases h
    · exact fun h => by cases h
    next h => exact absurd (by rw [h]; simp [Catchable]) hP
    next h => exact absurd (by rw [h]; simp [Catchable]) hP
    next h => exact absurd (by rw [h]; simp [Catchable]) hP
    · exact hret _
    · exact hret _
    · exact hret _
    · exact hret _
  | record info name persist continues after =>
    rw [step, stepRecord]
    dsimp only
    split
    · trivial
    · refine ⟨rfl, ?_, hP⟩
      intro hc
      subst hc
      rfl
  | persist e r persist continues after =>
    rw [step, stepPersist]
    refine ⟨?_, hP.2⟩
    dsimp only
    split
    · rw [save_exec]
      exact hP.1
    · exact hP.1
  | announce e r continues after =>
    rw [step, stepAnnounce]
    dsimp only [S.send]
    cases continues with
    | true => exact Or.inl (hP.2.2 rfl)
    | false =>
      refine Or.inr ⟨.event (.failure r) :: s.log, ?_, Or.inr ?_⟩
      · rw [hP.1]; rfl
      · rw [← hP.2.1 rfl, hP.1]; rfl
  | next after =>
    rw [step, stepNext.eq_def]
    split
    · exact hP.resolve_left (fun h => h)
    · split <;> trivial
    · split
      · exact hP.resolve_left (fun h => h)
      · split
        · trivial
        · exact fun h => by cases h

/-- A workflow that fails, because no rule matches the error. -/
example : Regular (demoEnv [(['a'], single)] (fun _ _ _ => .err boom)) ∧
    isDone (runN (demoEnv [(['a'], single)] (fun _ _ _ => .err boom)) 7
      (start (demoEnv [(['a'], single)] (fun _ _ _ => .err boom)) .null)).2 = true := by
  refine ⟨?_, by decide +kernel⟩
  have : ∀ n c, (n, c) ∈ (demoEnv [(['a'], single)] (fun _ _ _ => .err boom)).states → c = single := by
    intro n c h
    simp only [demoEnv, List.mem_cons, List.not_mem_nil, or_false, Prod.mk.injEq] at h
    exact h.2
  constructor <;> intro n c h <;> rw [this n c h] <;> simp [single]

/-! ## C84: executions do not crash -/

/-- C84 as stated: as long as there are no templates, handlers do not panic and saving succeeds, no
execution panics. -/
def FullSafe : Prop :=
  ∀ (env : Env (Option Int) Int) (input : Json Int) (s : S Int),
    (∀ log n v, env.handler log n v ≠ .panic) → (∀ n c, (n, c) ∈ env.states → c.template = none) →
    (∀ log e, env.save log e = true) → ¬ Reach env input (s, .crashed)

/-- A step with a next state that does not exist. -/
def danglingEnv : Env (Option Int) Int :=
  demoEnv [(['a'], { kind := .executeStep, next := some ['b'] })] (fun _ _ v => .ok v)

/-- A reference to a state that does not exist makes the execution panic. -/
theorem safe_violated : ¬ FullSafe := by
  intro h
  have hr : ∃ s, Reach danglingEnv .null (s, .crashed) := ⟨_, reach_start danglingEnv .null 6⟩
  obtain ⟨s, hr⟩ := hr
  exact h danglingEnv .null s (fun _ _ _ h => by cases h) (by
    intro n c h
    simp only [danglingEnv, demoEnv, List.mem_cons, List.not_mem_nil, or_false, Prod.mk.injEq] at h
    rw [h.2]) (fun _ _ => rfl) hr

omit [DecidableEq F] in
theorem updFirst_absent {f : Rec F → Rec F} {s : S F} {name : Name} (h : ¬ Named s name) :
    updFirst f name s.exec.states = none := by
  rw [updFirst_none]
  intro q hq hn
  exact h ⟨q, hq, hn⟩

/-- An error of a state without a record, and one of the state `unknown`, make the execution panic.
The latter are reported if a timestamp to wait for is in the past or cannot be read. -/
theorem unrecorded_crashes {env : Env G F} {s : S F} {e : Fail} {v : Json F}
    {ret : Option (Option (Json F))} (hk : e.kind = .stateNotFound ∨ e.kind = .invalidState ∨
      e.kind = .persistFailed) (hp : e.info.parent = none) (hn : ¬ Named s e.info.state) :
    (runN env 2 (s, .task (.fail e v) ret)).2 = .crashed := by
  rcases hk with hk | hk | hk <;>
  · rw [runN, step, onError, hk]
    dsimp only
    rw [runN, step, stepRecord]
    dsimp only
    rw [if_neg (by simp), hp, updRec, S.failed, updFirst_absent hn]
    rfl

/-- If the success of an execution cannot be saved, it panics, unless there is a state called
`unknown`. -/
theorem unsaved_crashes {env : Env G F} {s : S F} {v w : Json F} {ret : Option (Option (Json F))}
    (hs : env.save s.log (s.succeeded env) = false) (hn : ¬ Named s unknown) :
    (runN env 3 (s, .task (.complete v w) ret)).2 = .crashed := by
  rw [runN, step, stepComplete]
  rw [save_false (s := ⟨s.succeeded env, s.log⟩) (by
    dsimp only; rw [hs]; simp)]
  exact unrecorded_crashes (Or.inr (Or.inr rfl)) rfl hn

example : ∃ s, Reach unsavedEnv .null (s, .task (.fail ⟨.persistFailed, ['a'], none, none, .text ['w']⟩
    .null) none) ∧ ¬ Named s unknown :=
  ⟨_, reach_start unsavedEnv .null 1, by rintro ⟨r, hr, hn⟩; cases hr with
    | head => cases hn
    | tail _ h => cases h⟩

/-- A workflow without the causes of panics. -/
structure Sound (env : Env G F) : Prop where
  sequential : Sequential env
  start : env.states.lookup env.startAt ≠ none
  next : ∀ n c, (n, c) ∈ env.states → ∀ m, c.next = some m → env.states.lookup m ≠ none
  catchNext : ∀ n c, (n, c) ∈ env.states → ∀ r ∈ c.catchers.getD [],
    env.states.lookup r.next ≠ none
  handler : ∀ log n v, env.handler log n v ≠ .panic
  template : ∀ n c, (n, c) ∈ env.states → ∀ t, c.template = some t →
    ∀ v, Payload.render env.template t v ≠ .panic
  jitter : ∀ n c, (n, c) ∈ env.states → ∀ r ∈ c.retry.getD [], r.jitter = some true →
    r.backoffRate.getD 2 ≠ 0 ∧
      0 < capped r.maxDelay (((r.interval.getD 3 : Int) : Rat) * 1000 / r.backoffRate.getD 2)
  save : ∀ log e, e.status = .succeeded → env.save log e = true
  timestamp : ∀ n c, (n, c) ∈ env.states → ∀ w, c.waitConfig = some w → w.timestamp = none
  input : ∀ n c, (n, c) ∈ env.states → c.inputPath = none ∨
    ∀ r ∈ c.catchers.getD [], r.resultPath = none

/-- What is known of what follows after an error. -/
def SafeAfter (env : Env G F) (s : S F) : After F → Prop
  | .stop => True
  | .retry info _ rule _ => env.states.lookup info.state ≠ none ∧
    ∀ rand, waitMs rand rule (-1) ≠ none
  | .catchErr info _ rules => (∀ r ∈ rules.getD [], env.states.lookup r.next ≠ none) ∧
    (Named s info.state ∨ ∀ r ∈ rules.getD [], r.resultPath = none)

/-- What is known of tasks. -/
def SafeP (env : Env G F) (s : S F) : Proc G F → Prop
  | .task (.run name _ _ _) _ => env.states.lookup name ≠ none
  | .task (.fail e _) _ => Named s e.info.state ∨
    e.kind = .inputPath ∧ ∀ r ∈ (catchersOf env e.info).getD [], r.resultPath = none
  | .task (.record info _ _ _ after) _ => Named s info.state ∧ SafeAfter env s after
  | .task (.persist _ _ _ _ after) _ => SafeAfter env s after
  | .task (.announce _ _ _ after) _ => SafeAfter env s after
  | .task (.next after) _ => SafeAfter env s after
  | .task _ _ => True
  | .join _ _ => True
  | .done _ => True
  | .crashed => False

omit [DecidableEq F] in
theorem SafeAfter.grow {env : Env G F} {s s' : S F} (hg : Grows s s') {after : After F}
    (h : SafeAfter env s after) : SafeAfter env s' after := by
  cases after with
  | stop => trivial
  | retry => exact h
  | catchErr => exact ⟨h.1, h.2.imp (hg _) id⟩

omit [DecidableEq F] in
theorem catchersOf_mem {env : Env G F} {i : Info} (hp : i.parent = none) {r : Catch}
    (h : r ∈ (catchersOf env i).getD []) :
    ∃ c, env.states.lookup i.state = some c ∧ r ∈ c.catchers.getD [] := by
  rw [catchersOf, hp, config] at h
  cases hl : env.states.lookup i.state with
  | none => rw [hl] at h; cases h
  | some c => rw [hl] at h; exact ⟨c, rfl, h⟩

omit [DecidableEq F] in
theorem waitMs_jitter {rule : Retry} (h : rule.jitter = some true → rule.backoffRate.getD 2 ≠ 0 ∧
      0 < capped rule.maxDelay (((rule.interval.getD 3 : Int) : Rat) * 1000 / rule.backoffRate.getD 2))
    (rand : Rat → Rat) : waitMs rand rule (-1) ≠ none := by
  rw [waitMs]
  split
  next hj =>
    have hj : rule.jitter = some true := by
      cases hx : rule.jitter with
      | none => rw [hx] at hj; cases hj
      | some b => rw [hx] at hj; simp at hj; rw [hj]
    obtain ⟨h1, h2⟩ := h hj
    have hb : backoff (rule.interval.getD 3 * 1000) (rule.backoffRate.getD 2) (-1) =
        .fin (((rule.interval.getD 3 : Int) : Rat) * 1000 / rule.backoffRate.getD 2) := by
      rw [backoff, if_neg (by simp [h1]), show (-1 : Int) = -(1 : Int) from rfl, Rat.zpow_neg,
        Rat.zpow_one, Rat.intCast_mul, ← Rat.div_def]
      rfl
    rw [hb, min_capped]
    dsimp only
    rw [if_pos h2]
    simp
  next => simp

omit [DecidableEq F] in
theorem updRec_named {f : Rec F → Rec F} {s : S F} {name : Name} {rs : List (Rec F)}
    (hs : rs = s.exec.states) (h : Named s name) : updRec f name none rs ≠ none := by
  intro hu
  rw [hs, updRec, updFirst_none] at hu
  obtain ⟨q, hq, hn⟩ := h
  exact hu q hq hn

theorem retryable_safe {env : Env G F} (hw : Sound env) {s : S F} {i : Info} (hp : i.parent = none)
    (hn : Named s i.state) (v : Json F) (fallback : Name) (ret : Option (Option (Json F))) :
    SafeP env s (.task (retryable env s i v fallback : Task G F) ret) := by
  rw [retryable]
  refine ⟨hn, ?_⟩
  generalize hr : retryRule env i _ = ru
  split
  next c h1 =>
    rw [retryRule, hp, config] at hr
    cases hl : env.states.lookup i.state with
    | none => rw [hl] at hr; cases hr
    | some st =>
      rw [hl] at hr
      refine ⟨by rw [hl]; simp, ?_⟩
      exact waitMs_jitter (hw.jitter _ _ (lookup_mem hl) c (List.mem_of_find?_eq_some hr))
  next =>
    refine ⟨?_, Or.inl hn⟩
    intro r hr
    obtain ⟨c, hl, hm⟩ := catchersOf_mem hp hr
    exact hw.catchNext _ _ (lookup_mem hl) r hm

theorem safe_step {env : Env G F} (hw : Sound env) {input : Json F} {s : S F} {t : Task G F}
    {ret : Option (Option (Json F))} (hr : Reach env input (s, .task t ret)) (ht : SeqTask env t)
    (hP : SafeP env s (.task t ret)) : SafeP env (step env s ret t).1 (step env s ret t).2 := by
  obtain ⟨hfirst, hknown⟩ := reach_first hr
  have hknown : Known s t ret := by cases hknown with
    | task _ _ h => exact h
  have hgrow := (first_step env s t ret hfirst hknown).2.1
  cases t with
  | run name v prev parent =>
    obtain rfl : parent = none := ht
    rw [step, stepRun.eq_def, config]
    cases hl : env.states.lookup name with
    | none => exact absurd hl hP
    | some c =>
      dsimp only
      split
      next e he =>
        obtain ⟨h1, h2, h3, _, h5⟩ := stateInput_error he
        refine Or.inr ⟨h1, ?_⟩
        intro r hr
        obtain ⟨c', hl', hm⟩ := catchersOf_mem h3 hr
        rw [h2, hl] at hl'
        injection hl' with hl'
        subst hl'
        exact (hw.input _ _ (lookup_mem hl)).resolve_left h5 r hm
      next w _ =>
        by_cases hsv : env.save s.log (s.exec.enter (newRec name c w prev (env.now s.log))) = true
        · rw [save_true (s := ⟨s.exec.enter (newRec name c w prev (env.now s.log)), s.log⟩) hsv]
          trivial
        · rw [save_false (s := ⟨s.exec.enter (newRec name c w prev (env.now s.log)), s.log⟩) hsv]
          exact Or.inl ⟨newRec name c w prev (env.now s.log), by simp [Exec.enter], rfl⟩
  | exec name r c v parent =>
    obtain ⟨rfl, hl⟩ := ht
    have hn : Named s name := hknown.2
    rw [step, stepExec]
    split
    · rw [stepStep]
      split
      · split
        next e _ =>
          refine Or.inl ?_
          rw [(templateErr_info name none e).1]
          exact hn
        next he =>
          rw [payload] at he
          split at he
          next t ht => exact absurd he (hw.template _ _ (lookup_mem hl) t ht v)
          next => cases he
        · dsimp only
          split
          · trivial
          · exact Or.inl hn
          next he => exact absurd he (hw.handler _ _ _)
      · exact Or.inl hn
    next hk => exact absurd hk (hw.sequential _ _ (lookup_mem hl))
    · rw [stepWait]
      split
      · exact Or.inl hn
      next w hwc =>
        split
        next e he =>
          obtain ⟨_, h | h⟩ := waitTime_error he
          · exact Or.inl (by rw [h.1]; exact hn)
          · exact absurd (hw.timestamp _ _ (lookup_mem hl) w hwc) h.2.2
        · trivial
    · trivial
    · trivial
    · trivial
    · trivial
    · exact Or.inl hn
  | finish name parent c r v o =>
    obtain ⟨rfl, hl⟩ := ht
    have hn : Named s name := hknown.2
    rw [step, stepFinish]
    split
    next e he => exact Or.inl (by rw [(stateOutput_error he).2.1]; exact hn)
    next final _ =>
      split
      next hu => exact absurd hu (updRec_named rfl hn)
      next q states hu =>
        obtain ⟨h1, h2⟩ := updRec_first (f := Rec.complete (env.now s.log) o final) (by intro _; rfl) (by intro _; rfl)
          (by intro _; rfl) hfirst hu { s.exec with states := states } s.log rfl
        by_cases hsv : env.save s.log { s.exec with states := states } = true
        · rw [save_true (s := ⟨{ s.exec with states := states }, s.log⟩) hsv]
          dsimp only
          split
          next m hm => exact hw.next _ _ (lookup_mem hl) m hm
          · split
            · trivial
            · exact Or.inl (h2 _ hn)
        · rw [save_false (s := ⟨{ s.exec with states := states }, s.log⟩) hsv]
          exact Or.inl (h2 _ hn)
  | complete v final =>
    rw [step, stepComplete]
    rw [save_true (s := ⟨s.succeeded env, s.log⟩) (hw.save _ _ rfl)]
    trivial
  | fail e v =>
    have hp : e.info.parent = none := ht
    have hnamed : e.kind ≠ .inputPath → Named s e.info.state := fun h =>
      hP.resolve_right (fun h' => h h'.1)
    have hcatch : SafeAfter env s (.catchErr e.info v (catchersOf env e.info)) := by
      refine ⟨?_, hP.imp id And.right⟩
      intro r hr
      obtain ⟨c, hl, hm⟩ := catchersOf_mem hp hr
      exact hw.catchNext _ _ (lookup_mem hl) r hm
    rw [step, onError]
    split
    next hk => exact ⟨hnamed (by rw [hk]; simp), trivial⟩
    next hk => exact ⟨hnamed (by rw [hk]; simp), trivial⟩
    next hk => exact ⟨hnamed (by rw [hk]; simp), trivial⟩
    · exact hcatch
    · exact hcatch
    · exact hcatch
    next hk => exact retryable_safe hw hp (hnamed (by rw [hk]; simp)) _ _ _
    next hk => exact retryable_safe hw hp (hnamed (by rw [hk]; simp)) _ _ _
    next hk => exact retryable_safe hw hp (hnamed (by rw [hk]; simp)) _ _ _
    next hk => exact retryable_safe hw hp (hnamed (by rw [hk]; simp)) _ _ _
  | record info name persist continues after =>
    revert hgrow
    rw [step, stepRecord]
    dsimp only
    split
    next hu =>
      rw [ht.1] at hu
      exact absurd hu (updRec_named (record_states s info name continues) hP.1)
    · intro hgrow
      exact hP.2.grow hgrow
  | persist e r persist continues after => exact SafeAfter.grow hgrow hP
  | announce e r continues after => exact SafeAfter.grow hgrow hP
  | next after =>
    rw [step, stepNext.eq_def]
    split
    · trivial
    · have ha := hknown.1
      split
      next hx =>
        rw [ha, show (0 - 1 : Int) = -1 from rfl] at hx
        exact absurd hx (hP.2 _)
      · exact hP.1
    · split
      · trivial
      next r hr =>
        have hm := List.mem_of_find?_eq_some hr
        split
        · exact hP.1 r hm
        next i hi =>
          rw [catchInput] at hi
          split at hi
          · cases hi
          next path hpath =>
            split at hi
            · cases hi
            · injection hi with hi
              rcases hP.2 with h | h
              · refine ⟨?_, trivial⟩
                rw [← hi]
                exact h
              · rw [h r hm] at hpath
                cases hpath

/-- An execution of a workflow without the causes of panics does not panic. -/
theorem safe_partial {env : Env G F} (hw : Sound env) {input : Json F} {s : S F} :
    ¬ Reach env input (s, .crashed) := by
  intro h
  exact (seq_invariant hw.sequential input (SafeP env) hw.start
    (fun s t ret hr ht hP => safe_step hw hr ht hP) h).1

/-- Handlers that fail, with retries and a catch rule. -/
example : Sound recoveringEnv := by
  have hm : ∀ n c, (n, c) ∈ recoveringEnv.states →
      c = { kind := .executeStep, catchers := some [⟨[['*']], ['b'], none⟩] } ∨ c = single := by
    intro n c h
    simp only [recoveringEnv, demoEnv, List.mem_cons, List.not_mem_nil, or_false, Prod.mk.injEq] at h
    rcases h with h | h
    · exact Or.inl h.2
    · exact Or.inr h.2
  refine ⟨?_, ?_, ?_, ?_, ?_, ?_, ?_, fun _ _ _ => rfl, ?_, ?_⟩
  · intro n c h
    rcases hm n c h with h | h <;> rw [h] <;> simp [single]
  · simp [recoveringEnv, demoEnv]
  · intro n c h
    rcases hm n c h with h | h <;> rw [h] <;> simp [single]
  · intro n c h
    rcases hm n c h with h | h <;> rw [h] <;> simp [single, recoveringEnv, demoEnv]
  · intro log n v
    simp only [recoveringEnv, demoEnv]
    split <;> simp
  · intro n c h
    rcases hm n c h with h | h <;> rw [h] <;> simp [single]
  · intro n c h
    rcases hm n c h with h | h <;> rw [h] <;> simp [single]
  · intro n c h
    rcases hm n c h with h | h <;> rw [h] <;> simp [single]
  · intro n c h
    rcases hm n c h with h | h <;> rw [h] <;> simp [single]

end Verif.Workflow
