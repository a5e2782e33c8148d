import Verif.Workflow.Props

/-!
# More properties of workflow executions

C25 for rules that allow no retry, C82 for the recorded input, C87 for timestamps.
-/

namespace Verif.Workflow

variable {G F : Type} [DecidableEq F]

/-! ## C25: rules that allow no retry -/

/-- No rule allows a retry. -/
def NoRetry (env : Env G F) : Prop :=
  ∀ n c, (n, c) ∈ env.states → ∀ r ∈ c.retry.getD [], ∃ m, r.maxAttempts = some m ∧ m ≤ 0

/-- No state waits. -/
def NoWait (env : Env G F) : Prop := ∀ n c, (n, c) ∈ env.states → c.kind ≠ .wait

/-- What follows is not a retry. -/
def After.NotRetry : After F → Prop
  | .retry .. => False
  | _ => True

/-- No retry is coming up. -/
def Unretried : Proc G F → Prop
  | .task (.record _ _ _ _ a) _ => a.NotRetry
  | .task (.persist _ _ _ _ a) _ => a.NotRetry
  | .task (.announce _ _ _ a) _ => a.NotRetry
  | .task (.next a) _ => a.NotRetry
  | _ => True

/-- Where no rule allows a retry and no state waits, nothing ever sleeps: there is no retry. -/
theorem unretried_partial {env : Env G F} (hs : Sequential env) (hn : NoRetry env) (hw : NoWait env)
    {input : Json F} {s : S F} {p : Proc G F} (h : Reach env input (s, p)) : sleeps s.log = [] := by
  refine (seq_invariant hs input (fun s p => sleeps s.log = [] ∧ Unretried p) ⟨rfl, trivial⟩ ?_ h).1.1
  intro s t ret hr ht hP
  obtain ⟨hP, hF⟩ := hP
  cases t with
  | run name v prev parent =>
    rw [step, stepRun.eq_def]
    split
    · exact ⟨hP, trivial⟩
    next c _ =>
      split
      · exact ⟨hP, trivial⟩
      next w _ =>
        dsimp only
        by_cases hsv : env.save s.log (s.exec.enter (newRec name c w prev (env.now s.log))) = true
        · rw [save_true (s := ⟨s.exec.enter (newRec name c w prev (env.now s.log)), s.log⟩) hsv]
          exact ⟨hP, trivial⟩
        · rw [save_false (s := ⟨s.exec.enter (newRec name c w prev (env.now s.log)), s.log⟩) hsv]
          exact ⟨hP, trivial⟩
  | exec name r c v parent =>
    obtain ⟨_, hl⟩ := ht
    rw [step, stepExec]
    split
    · rw [stepStep]
      split
      · split
        · exact ⟨hP, trivial⟩
        · exact ⟨hP, trivial⟩
        · refine ⟨hP, ?_⟩
          dsimp only
          split <;> exact trivial
      · exact ⟨hP, trivial⟩
    next hk => exact absurd hk (hs _ _ (lookup_mem hl))
    next hk => exact absurd hk (hw _ _ (lookup_mem hl))
    all_goals exact ⟨hP, trivial⟩
  | finish name parent c r v o =>
    rw [step, stepFinish]
    split
    · exact ⟨hP, trivial⟩
    · split
      · exact ⟨hP, trivial⟩
      next q states hu =>
        by_cases hsv : env.save s.log { s.exec with states := states } = true
        · rw [save_true (s := ⟨{ s.exec with states := states }, s.log⟩) hsv]
          dsimp only
          split
          · exact ⟨hP, trivial⟩
          · split <;> exact ⟨hP, trivial⟩
        · rw [save_false (s := ⟨{ s.exec with states := states }, s.log⟩) hsv]
          exact ⟨hP, trivial⟩
  | complete v final =>
    rw [step, stepComplete]
    by_cases hsv : env.save s.log (s.succeeded env) = true
    · rw [save_true (s := ⟨s.succeeded env, s.log⟩) hsv]
      exact ⟨hP, trivial⟩
    · rw [save_false (s := ⟨s.succeeded env, s.log⟩) hsv]
      exact ⟨hP, trivial⟩
  | fail e v =>
    refine ⟨hP, ?_⟩
    rw [step]
    dsimp only
    by_cases hk : Retryable e.kind
    · rw [onError_retryable env s e v hk, retryable]
      cases hru : retryRule env e.info (finalName e.info (kindName e.kind)) with
      | none => exact trivial
      | some rule =>
        have hp : e.info.parent = none := ht
        obtain ⟨hi, ha⟩ := reach_first hr
        have hnm := Located.named (All.running ha .here) hk hp
        rw [retryRule, hp, config] at hru
        revert hru
        cases hc : env.states.lookup e.info.state with
        | none => intro hru; cases hru
        | some c =>
          intro hru
          obtain ⟨m, hm, hm0⟩ := hn _ _ (lookup_mem hc) rule (List.mem_of_find?_eq_some hru)
          rcases exceeded_first hi (rule := rule) hnm hp with ⟨_, hx⟩ | ⟨hx, _⟩
          · have := hx m hm; omega
          · rw [hx]; exact trivial
    · rw [onError]
      revert hk
      cases e.kind <;> intro hk <;> first | exact trivial | exact absurd (by simp [Retryable]) hk
  | record info name persist continues after =>
    rw [step, stepRecord]
    dsimp only
    split
    · exact ⟨hP, trivial⟩
    · exact ⟨hP, hF⟩
  | persist e r persist continues after =>
    rw [step, stepPersist]
    refine ⟨?_, hF⟩
    dsimp only
    split
    · rw [S.save]
      split <;> exact hP
    · exact hP
  | announce e r continues after =>
    rw [step, stepAnnounce]
    refine ⟨?_, hF⟩
    dsimp only
    split <;> exact hP
  | next after =>
    rw [step, stepNext.eq_def]
    split
    · exact ⟨hP, trivial⟩
    · exact absurd hF (by intro h; exact h)
    · split
      · exact ⟨hP, trivial⟩
      · split <;> exact ⟨hP, trivial⟩

/-- A state whose handler fails, with a rule that allows no retry. -/
def unretried : State (Option Int) :=
  { kind := .executeStep, isEnd := some true,
    retry := some [{ matchErrors := [['*']], maxAttempts := some 0 }] }

/-- The hypotheses are met by a workflow whose handler is called and fails. -/
example : Sequential (demoEnv [(['a'], unretried)] (fun _ _ _ => .err boom)) ∧
    NoRetry (demoEnv [(['a'], unretried)] (fun _ _ _ => .err boom)) ∧
    NoWait (demoEnv [(['a'], unretried)] (fun _ _ _ => .err boom)) ∧
    ∃ s p, Reach (demoEnv [(['a'], unretried)] (fun _ _ _ => .err boom)) (.int 7) (s, p) ∧
      .called ['a'] (.int 7) ∈ s.log := by
  refine ⟨?_, ?_, ?_, _, _, reach_start _ _ 2, List.mem_cons_self ..⟩ <;>
  · intro n c h
    simp only [demoEnv, List.mem_cons, List.not_mem_nil, or_false, Prod.mk.injEq] at h
    rw [h.2]
    simp [unretried]

/-! ## C82: the recorded input -/

/-- The record of a state that is entered shows what the input path selects, and the handler is
going to get the whole input. -/
theorem recorded_partial {env : Env G F} {s : S F} {name : Name} {v w : Json F}
    {prev : Option (Rec F)} {ret : Option (Option (Json F))} {c : State G} {path : Name}
    (hl : env.states.lookup name = some c) (hp : c.inputPath = some path)
    (he : Payload.extract env.template v path = .ok w) (hs : ∀ log e, env.save log e = true) :
    ∃ s' r, step env s ret (.run name v prev none) = (s', .task (.exec name r c v none) ret) ∧
      s'.exec.states = s.exec.states ++ [r] ∧ r.name = name ∧ r.input = w ∧ r.status = .inProgress ∧
      entered s'.log = name :: entered s.log := by
  rw [step, stepRun.eq_def, config, hl]
  dsimp only
  rw [stateInput, hp]
  dsimp only
  rw [he]
  dsimp only
  rw [save_true (hs _ _)]
  exact ⟨_, _, rfl, rfl, rfl, rfl, rfl, rfl⟩

/-- A path that selects something. -/
example : (demoEnv [(['a'], selecting)] (fun _ _ v => .ok v)).states.lookup ['a'] = some selecting ∧
    selecting.inputPath = some ['$', '.', 'x'] ∧
    Payload.extract Payload.demo (.obj [(['x'], .int 1)]) ['$', '.', 'x'] = .ok (.int 1) := ⟨rfl, rfl, rfl⟩

/-! ## C87: timestamps -/

/-- A wait for a timestamp that is not past waits until then, in whole seconds, and the input is the
output. Times are in nanoseconds, those of the clock in milliseconds. -/
theorem wait_until_partial {env : Env G F} {s : S F} {name : Name} {r : Rec F} {c : State G}
    {v : Json F} {parent : Option Name} {ret : Option (Option (Json F))} {w : Wait} {t : Name} {ns : Int}
    (hk : c.kind = .wait) (hw : c.waitConfig = some w) (hs : w.seconds = none)
    (ht : w.timestamp = some t) (hd : t.head? ≠ some '$') (hn : env.timestamp t = some ns)
    (hb : env.now s.log * 1000000 ≤ ns) :
    ∃ n : Nat, step env s ret (.exec name r c v parent) =
        (⟨s.exec, .slept (n * 1000) :: s.log⟩, .task (.finish name parent c r v v) ret) ∧
      env.now s.log * 1000000 + n * 1000000000 ≤ ns ∧
      ns < env.now s.log * 1000000 + (n + 1) * 1000000000 := by
  generalize hx : ns - env.now s.log * 1000000 = x
  have hx0 : 0 ≤ x := by omega
  have hq : 0 ≤ x.tdiv 1000000000 := Int.tdiv_nonneg hx0 (by decide)
  have hq' : x.tdiv 1000000000 = x / 1000000000 := Int.tdiv_eq_ediv_of_nonneg hx0
  refine ⟨(x.tdiv 1000000000).toNat, ?_, ?_, ?_⟩
  · rw [step, stepExec, hk]
    dsimp only
    rw [stepWait, hw]
    dsimp only
    rw [waitTime.eq_def, hs, ht]
    dsimp only
    rw [waitTimestamp, if_neg hd, waitUntil, hn]
    dsimp only
    rw [hx, if_neg (by omega)]
  · omega
  · omega

/-- A wait for a timestamp that is past by a second or more is an error that is attributed to a state
called `unknown`: if there is no such state, the execution panics. -/
theorem wait_past {env : Env G F} {s : S F} {name : Name} {r : Rec F} {c : State G}
    {v : Json F} {parent : Option Name} {ret : Option (Option (Json F))} {w : Wait} {t : Name} {ns : Int}
    (hk : c.kind = .wait) (hw : c.waitConfig = some w) (hs : w.seconds = none)
    (ht : w.timestamp = some t) (hd : t.head? ≠ some '$') (hn : env.timestamp t = some ns)
    (hb : ns + 1000000000 ≤ env.now s.log * 1000000)
    (hu : ∀ q ∈ s.exec.states, q.name ≠ ['u', 'n', 'k', 'n', 'o', 'w', 'n']) :
    (runN env 3 (s, .task (.exec name r c v parent) ret)).2 = .crashed := by
  have hlt : (ns - env.now s.log * 1000000).tdiv 1000000000 < 0 := by
    generalize hx : env.now s.log * 1000000 - ns = x
    rw [show ns - env.now s.log * 1000000 = -x by omega, Int.neg_tdiv,
      Int.tdiv_eq_ediv_of_nonneg (by omega)]
    omega
  rw [runN, step, stepExec, hk]
  dsimp only
  rw [stepWait, hw]
  dsimp only
  rw [waitTime.eq_def, hs, ht]
  dsimp only
  rw [waitTimestamp, if_neg hd, waitUntil, hn]
  dsimp only
  rw [if_pos hlt]
  dsimp only
  rw [failWith, runN, step, onError]
  dsimp only
  rw [runN, step, stepRecord]
  dsimp only
  rw [if_neg (by decide), updRec, S.failed]
  have : ∀ (f : Rec F → Rec F) (l : List (Rec F)),
      (∀ q ∈ l, q.name ≠ ['u', 'n', 'k', 'n', 'o', 'w', 'n']) →
      updFirst f ['u', 'n', 'k', 'n', 'o', 'w', 'n'] l = none := by
    intro f l
    induction l with
    | nil => intro _; rfl
    | cons q l ih =>
      intro h
      rw [updFirst, if_neg (h q (List.mem_cons_self ..)), ih (fun q hq => h q (List.mem_cons_of_mem _ hq))]
      rfl
  rw [this _ _ hu]
  rfl

/-- A state that waits for a time. -/
def waiting : State (Option Int) :=
  { kind := .wait, waitConfig := some { timestamp := some ['T'] }, isEnd := some true }

/-- The hypotheses are met: at 1000 ms, for the time 3.5 s, which is two whole seconds away, and for
the time 0, which is past. -/
example : waiting.kind = .wait ∧ (['T'] : Name).head? ≠ some '$' ∧
    (1000 : Int) * 1000000 ≤ 3500000000 ∧ (0 : Int) + 1000000000 ≤ 1000 * 1000000 := by
  refine ⟨rfl, ?_, ?_, ?_⟩ <;> decide

end Verif.Workflow
