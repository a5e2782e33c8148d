import Verif.Workflow.Lemmas
import Verif.Payload.Props

/-!
# Properties of retries, catch rules, waits and records of workflow executions

C25, C30, C31, C82 and C85 to C88. The properties of whole runs are in `RunProps.lean`.
-/

namespace Verif.Workflow

variable {G F : Type} [DecidableEq F]

/-- A workflow for the examples: all saves succeed, times are 0. -/
def demoEnv (states : List (Name × State (Option Int)))
    (handler : List (Entry Int) → Name → Json Int → Outcome HandlerErr (Json Int)) :
    Env (Option Int) Int where
  startAt := ['a']
  states := states
  hasHandler _ := true
  handler := handler
  save _ _ := true
  template := Payload.demo
  now _ := 0
  elapsed _ := 0
  timestamp _ := none
  rand _ _ := 0
  text _ := []

/-! ## C25: bounded retries -/

/-- The state `name` runs a handler that always fails, under a retry rule for all errors that
allows a retry. -/
structure Failing (env : Env G F) (name : Name) (input : Json F) (rule : Retry) : Prop where
  state : ∃ c rest v, env.states.lookup name = some c ∧ c.kind = .executeStep ∧
    (∃ w, stateInput env name none c input = .ok w) ∧ payload env c input = .ok v ∧
    c.retry = some (rule :: rest) ∧ ∀ log, ∃ e, env.handler log name v = .err e
  wildcard : ['*'] ∈ rule.matchErrors
  handler : env.hasHandler name = true
  saves : ∀ log e, env.save log e = true
  allowed : ∀ m, rule.maxAttempts = some m → 1 ≤ m
  waits : ∀ log, ∃ ms, waitMs (env.rand log) rule (-1) = some ms

theorem reach_step {env : Env G F} {i : Json F} {s : S F} {t : Task G F}
    {ret : Option (Option (Json F))} (h : Reach env i (s, .task t ret)) :
    Reach env i (step env s ret t) := .step _ _ h (.task s t ret)

/-- A failed attempt is followed by another one. -/
theorem failing_round {env : Env G F} {name : Name} {input : Json F} {rule : Retry}
    (hf : Failing env name input rule) {i : Json F} {s : S F} {prev : Option (Rec F)}
    {ret : Option (Option (Json F))} (h : Reach env i (s, .task (.run name input prev none) ret)) :
    ∃ s' prev' ret' log ms, Reach env i (s', .task (.run name input prev' none) ret') ∧
      calls name s'.log = calls name s.log + 1 ∧ waitMs (env.rand log) rule (-1) = some ms ∧
      sleeps s'.log = ms :: sleeps s.log := by
  obtain ⟨c, rest, v, hl, hk, ⟨w, hw⟩, hp, hr, hh⟩ := hf.state
  have hc : config env name none = .ok c := by rw [config, hl]
  have h1 := reach_step h
  rw [step, stepRun.eq_def, hc] at h1
  dsimp only at h1
  rw [hw] at h1
  dsimp only at h1
  rw [save_true (hf.saves _ _)] at h1
  dsimp only [S.send] at h1
  have h2 := reach_step h1
  rw [step, stepExec, hk] at h2
  dsimp only at h2
  rw [stepStep, if_pos hf.handler, hp] at h2
  dsimp only at h2
  obtain ⟨e, he⟩ := hh (.event (.transition prev (newRec name c w prev (env.now s.log))) ::
    .saved (s.exec.enter (newRec name c w prev (env.now s.log))) :: s.log)
  rw [he] at h2
  dsimp only [failWith] at h2
  have h3 := reach_step h2
  obtain ⟨hi, ha⟩ := reach_first h2
  cases ha with
  | task _ _ ha =>
  have hnamed := Located.named ha (by simp [Retryable]) rfl
  rw [step, onError] at h3
  dsimp only at h3
  rw [retryable] at h3
  have hrule : retryRule env ⟨name, none, some e.name, .handler e.name e.message⟩
      (finalName ⟨name, none, some e.name, .handler e.name e.message⟩ "HandlerFailed".toList) =
      some rule := by
    rw [retryRule]
    dsimp only
    rw [hc]
    dsimp only
    rw [hr, Option.getD_some, List.find?_cons_of_pos]
    rw [errorMatches]
    simp [hf.wildcard]
  rw [hrule] at h3
  rcases exceeded_first hi (rule := rule) (info := ⟨name, none, some e.name,
    .handler e.name e.message⟩) hnamed rfl with ⟨hx, _⟩ | ⟨_, m, hm, hm'⟩
  · rw [hx] at h3
    dsimp only [Option.isSome_some] at h3
    rw [show (true && !false) = true from rfl] at h3
    have h4 := reach_step h3
    rw [step, stepRecord] at h4
    dsimp only at h4
    rw [if_pos rfl] at h4
    generalize hnow : env.now (Entry.called _ _ :: _) = now at h4
    obtain ⟨q, rs, hu⟩ : ∃ q rs, updRec (Rec.fail now (name, finalName ⟨name, none, some e.name,
        .handler e.name e.message⟩ "HandlerFailed".toList, .handler e.name e.message)) name none
        (s.exec.enter (newRec name c w prev (env.now s.log))).states = some (q, rs) := by
      rw [updRec]
      cases hu : updFirst (Rec.fail now (name, finalName ⟨name, none, some e.name,
        .handler e.name e.message⟩ "HandlerFailed".toList, .handler e.name e.message)) name
        (s.exec.enter (newRec name c w prev (env.now s.log))).states with
      | none =>
        obtain ⟨q, hq, hn⟩ := hnamed
        exact absurd hn (updFirst_none.1 hu q hq)
      | some x => exact ⟨x.1, x.2, rfl⟩
    rw [hu] at h4
    dsimp only at h4
    have h5 := reach_step h4
    rw [step, stepPersist, if_pos rfl, save_true (hf.saves _ _)] at h5
    dsimp only at h5
    have h6 := reach_step h5
    rw [step, stepAnnounce] at h6
    dsimp only [S.send] at h6
    rw [if_pos rfl] at h6
    have h7 := reach_step h6
    rw [step, stepNext.eq_def] at h7
    dsimp only at h7
    obtain ⟨ms, hms⟩ := hf.waits (.event (.failure q) :: .saved
      { s.exec.enter (newRec name c w prev (env.now s.log)) with states := rs } :: .called name v ::
      .event (.transition prev (newRec name c w prev (env.now s.log))) ::
      .saved (s.exec.enter (newRec name c w prev (env.now s.log))) :: s.log)
    rw [show (0 - 1 : Int) = -1 from rfl, hms] at h7
    dsimp only at h7
    refine ⟨_, _, _, _, ms, h7, ?_, hms, ?_⟩
    · simp [calls]
    · simp [sleeps]
  · have := hf.allowed m hm
    omega

/-- There is no bound on the number of attempts: whatever the maximum is, as long as it is at least
1, the handler is called any number of times. -/
theorem retries_unbounded {env : Env G F} {input : Json F} {rule : Retry}
    (hf : Failing env env.startAt input rule) (n : Nat) :
    ∃ s p, Reach env input (s, p) ∧ calls env.startAt s.log = n := by
  have : ∃ s prev ret, Reach env input (s, .task (.run env.startAt input prev none) ret) ∧
      calls env.startAt s.log = n := by
    induction n with
    | zero => exact ⟨⟨initial input, []⟩, none, none, .start, rfl⟩
    | succ n ih =>
      obtain ⟨s, prev, ret, h, hn⟩ := ih
      obtain ⟨s', prev', ret', _, _, h', hc, _⟩ := failing_round hf h
      exact ⟨s', prev', ret', h', by rw [hc, hn]⟩
  obtain ⟨s, prev, ret, h, hn⟩ := this
  exact ⟨s, _, h, hn⟩

/-- C25 as stated: a step whose handler always fails is called at most once more than the maximum of
the only rule, which matches all errors. -/
def FullBounded : Prop :=
  ∀ (env : Env (Option Int) Int) (input : Json Int) (rule : Retry) (m : Nat) (c : State (Option Int)),
    env.states = [(env.startAt, c)] → c.kind = .executeStep → c.retry = some [rule] →
    c.catchers = none → ['*'] ∈ rule.matchErrors → rule.maxAttempts = some (m : Int) →
    (∀ log name v, ∃ e, env.handler log name v = .err e) →
    ∀ s p, Reach env input (s, p) → calls env.startAt s.log ≤ 1 + m

/-- A state whose handler fails, with at most two retries. -/
def failing : State (Option Int) :=
  { kind := .executeStep, retry := some [⟨[['*']], some 3, some 2, none, none, none⟩] }

/-- The error of the examples. -/
def boom : HandlerErr := ⟨['E'], ['m']⟩

/-- Every call fails. -/
def failingEnv : Env (Option Int) Int := demoEnv [(['a'], failing)] (fun _ _ _ => .err boom)

theorem failing_wait (rand : Rat → Rat) :
    waitMs rand ⟨[['*']], some 3, some 2, none, none, none⟩ (-1) = some 1500 := by
  rw [show waitMs rand ⟨[['*']], some 3, some 2, none, none, none⟩ (-1) =
    waitMs (fun _ => 0) ⟨[['*']], some 3, some 2, none, none, none⟩ (-1) from rfl]
  decide +kernel

theorem failingEnv_failing (input : Json Int) : Failing failingEnv ['a'] input
    ⟨[['*']], some 3, some 2, none, none, none⟩ where
  state := ⟨failing, [], input, rfl, rfl, ⟨input, rfl⟩, rfl, rfl, fun _ => ⟨boom, rfl⟩⟩
  wildcard := by simp
  handler := rfl
  saves _ _ := rfl
  allowed m h := by injection h with h; omega
  waits log := ⟨1500, failing_wait _⟩

/-- The maximum is not respected. -/
theorem bounded_violated : ¬ FullBounded := by
  intro h
  obtain ⟨s, p, hr, hn⟩ := retries_unbounded (failingEnv_failing .null) 4
  have := h failingEnv .null _ 2 failing rfl rfl rfl rfl (by simp) rfl
    (fun _ _ _ => ⟨boom, rfl⟩) s p hr
  rw [hn] at this
  omega

omit [DecidableEq F] in
theorem errorMatches_iff {error : Name} {names : List Name} :
    errorMatches error names = true ↔ Matches error names := by
  simp [errorMatches, Matches]

omit [DecidableEq F] in
/-- `find` finds the first rule that matches. -/
theorem find_first {R : Type} {me : R → List Name} {error : Name} {rules : List R} {r : R} :
    rules.find? (fun q => errorMatches error (me q)) = some r ↔ FirstMatch me error rules r := by
  rw [List.find?_eq_some_iff_append]
  constructor
  · rintro ⟨h1, before, after, h2, h3⟩
    refine ⟨before, after, h2, errorMatches_iff.1 h1, ?_⟩
    intro q hq hm
    have := h3 q hq
    rw [errorMatches_iff.2 hm] at this
    cases this
  · rintro ⟨before, after, h1, h2, h3⟩
    refine ⟨errorMatches_iff.2 h2, before, after, h1, ?_⟩
    intro q hq
    cases hb : errorMatches error (me q) with
    | false => rfl
    | true => exact absurd (errorMatches_iff.1 hb) (h3 q hq)

omit [DecidableEq F] in
theorem find_none {R : Type} {me : R → List Name} {error : Name} {rules : List R} :
    rules.find? (fun q => errorMatches error (me q)) = none ↔ NoMatch me error rules := by
  rw [List.find?_eq_none]
  constructor
  · intro h q hq hm; exact h q hq (errorMatches_iff.2 hm)
  · intro h q hq hm; exact h q hq (errorMatches_iff.1 hm)

omit [DecidableEq F] in
theorem finalName_reported (e : Fail) : finalName e.info (kindName e.kind) = reported e := by
  rw [finalName, reported]
  cases e.info.name with
  | none => rfl
  | some n => cases n <;> simp

omit [DecidableEq F] in
theorem onError_retryable (env : Env G F) (s : S F) (e : Fail) (v : Json F) (hk : Retryable e.kind) :
    onError env s e v = retryable env s e.info v (kindName e.kind) := by
  rw [onError]
  rcases hk with h | h | h | h <;> rw [h] <;> rfl

omit [DecidableEq F] in
theorem onError_catchable (env : Env G F) (s : S F) (e : Fail) (v : Json F) (hk : Catchable e.kind) :
    onError env s e v = .next (.catchErr e.info v (catchersOf env e.info)) := by
  rw [onError]
  rcases hk with h | h | h <;> rw [h]

omit [DecidableEq F] in
theorem retryRule_find {env : Env G F} {e : Fail} {c : State G} (hp : e.info.parent = none)
    (hl : env.states.lookup e.info.state = some c) (name : Name) :
    retryRule env e.info name =
      (c.retry.getD []).find? (fun r => errorMatches name r.matchErrors) := by
  rw [retryRule, hp, config, hl]

/-- A failed attempt is retried exactly if the first rule that matches has no maximum or one of at
least 1. This is what is left of C25: the number of attempts so far does not matter. -/
theorem retried_partial {env : Env G F} {i : Json F} {s : S F} {p : Proc G F}
    (h : Reach env i (s, p)) {e : Fail} {v : Json F} {ret : Option (Option (Json F))}
    (hr : Running (.fail e v) ret p) (hk : Retryable e.kind) (hp : e.info.parent = none)
    {c : State G} (hl : env.states.lookup e.info.state = some c) :
    (∀ rule, FirstMatch Retry.matchErrors (reported e) (c.retry.getD []) rule →
      (∀ m, rule.maxAttempts = some m → 1 ≤ m) →
      step env s ret (.fail e v) = (s, .task (.record e.info (reported e) true true
        (.retry e.info v rule 0)) (some (ret.getD none)))) ∧
    (∀ rule m, FirstMatch Retry.matchErrors (reported e) (c.retry.getD []) rule →
      rule.maxAttempts = some m → m ≤ 0 →
      step env s ret (.fail e v) = (s, .task (.record e.info (reported e) true false
        (.catchErr e.info v c.catchers)) (some (ret.getD none)))) ∧
    (NoMatch Retry.matchErrors (reported e) (c.retry.getD []) →
      step env s ret (.fail e v) = (s, .task (.record e.info (reported e) true false
        (.catchErr e.info v c.catchers)) (some (ret.getD none)))) := by
  obtain ⟨hi, ha⟩ := reach_first h
  have hn := Located.named (All.running ha hr) hk hp
  have hc : catchersOf env e.info = c.catchers := by rw [catchersOf, hp, config, hl]
  rw [step, onError_retryable env s e v hk, retryable, finalName_reported, retryRule_find hp hl, hc]
  refine ⟨?_, ?_, ?_⟩
  · intro rule hf hm
    rw [find_first.2 hf]
    rcases exceeded_first hi (rule := rule) hn hp with ⟨hx, _⟩ | ⟨_, m, h1, h2⟩
    · rw [hx]; rfl
    · have := hm m h1; omega
  · intro rule m hf hm hm0
    rw [find_first.2 hf]
    rcases exceeded_first hi (rule := rule) hn hp with ⟨_, hx⟩ | ⟨hx, _⟩
    · have := hx m hm; omega
    · rw [hx]; rfl
  · intro hf
    rw [find_none.2 hf]
    rfl

/-- The example of `bounded_violated` meets the hypotheses: the first attempt fails. -/
example : ∃ s ret, Reach failingEnv (.int 1) (s, .task (.fail ⟨.handlerFailed, ['a'], none, some ['E'],
    .handler ['E'] ['m']⟩ (.int 1)) ret) :=
  ⟨_, _, reach_start failingEnv (.int 1) 2⟩

/-! ## C31: delays of retries -/

theorem toU64_rounded {q : Rat} (h0 : 0 ≤ q) (h1 : q < 2 ^ 64) : Rounded (toU64 q) q := by
  have hf : 0 ≤ q.floor := Rat.le_floor_iff.2 (by simpa using h0)
  have hl : q.floor < 2 ^ 64 := Rat.floor_lt_iff.2 (by
    have : ((2 ^ 64 : Int) : Rat) = 2 ^ 64 := by decide +kernel
    rw [this]; exact h1)
  have hn : toU64 q = q.floor.toNat := by
    rw [toU64, if_neg (by grind)]
    show min _ _ = _
    omega
  have hc : ((q.floor.toNat : Nat) : Rat) = (q.floor : Rat) := by
    rw [← Rat.intCast_natCast, Int.toNat_of_nonneg hf]
  rw [hn, Rounded, hc]
  refine ⟨Rat.floor_le q, ?_⟩
  have := Rat.lt_floor_add_one q
  rwa [Rat.intCast_add] at this

theorem toU64_le {q : Rat} (h0 : 0 ≤ q) : (toU64 q : Rat) ≤ q := by
  have hf : 0 ≤ q.floor := Rat.le_floor_iff.2 (by simpa using h0)
  have hn : toU64 q ≤ q.floor.toNat := by
    rw [toU64, if_neg (by grind)]
    show min _ _ ≤ _
    omega
  have hc : ((q.floor.toNat : Nat) : Rat) = (q.floor : Rat) := by
    rw [← Rat.intCast_natCast, Int.toNat_of_nonneg hf]
  have h1 : ((toU64 q : Nat) : Rat) ≤ ((q.floor.toNat : Nat) : Rat) := by
    rw [Rat.natCast_le_natCast]; exact hn
  have h2 := Rat.floor_le q
  rw [hc] at h1
  grind

theorem toU64_mono {a b : Rat} (h : a ≤ b) : toU64 a ≤ toU64 b := by
  rw [toU64, toU64]
  have := Rat.floor_monotone h
  split
  · omega
  · rw [if_neg (by grind)]
    show min _ _ ≤ min _ _
    omega

theorem delay_pow (interval rate : Rat) (k : Nat) : delay interval rate k = interval * 1000 * rate ^ k := by
  induction k with
  | zero => rw [delay]; simp
  | succ k ih => rw [delay, ih, Rat.pow_succ]; grind

/-- What the delay is before it is rounded. -/
theorem backoff_delay (interval : Int) (rate : Rat) (k : Nat) :
    backoff (interval * 1000) rate k = .fin (delay interval rate k) := by
  rw [backoff, if_neg (by omega), Rat.zpow_natCast, delay_pow, Rat.intCast_mul]
  rfl

theorem min_capped (maxDelay : Option Int) (q : Rat) :
    (Delay.fin q).cap maxDelay = .fin (capped maxDelay q) := by
  cases maxDelay with
  | none => rfl
  | some m => rw [Delay.cap, Delay.min, capped]; split <;> rfl

/-- The helper computes the delay that is wanted for a retry counted from 0: without jitter, it is
the delay rounded down to milliseconds, with jitter it is at most that. -/
theorem wait_helper_partial (rand : Rat → Rat) (rule : Retry) (k : Nat) {q : Rat}
    (hq : capped rule.maxDelay (delay (rule.interval.getD 3 : Int) (rule.backoffRate.getD 2) k) = q) :
    (rule.jitter.getD false = false → 0 ≤ q → q < 2 ^ 64 →
      ∃ n, waitMs rand rule k = some n ∧ Rounded n q) ∧
    (rule.jitter.getD false = true → 0 < q → 0 ≤ rand q → rand q < q →
      ∃ n : Nat, waitMs rand rule k = some n ∧ (n : Rat) < q) ∧
    (rule.jitter.getD false = true → q ≤ 0 → waitMs rand rule k = none) := by
  rw [waitMs]
  rw [backoff_delay, min_capped, hq]
  refine ⟨?_, ?_, ?_⟩
  · intro hj h0 h1
    rw [hj, if_neg (by simp)]
    exact ⟨_, rfl, toU64_rounded h0 h1⟩
  · intro hj h0 h1 h2
    rw [hj, if_pos rfl]
    dsimp only
    rw [if_pos h0]
    refine ⟨_, rfl, ?_⟩
    have := toU64_le h1
    grind
  · intro hj h0
    rw [hj, if_pos rfl]
    dsimp only
    rw [if_neg (by grind)]

/-- The delays of the helper do not decrease and do not exceed the maximum. -/
theorem wait_monotone (rand : Rat → Rat) (rule : Retry) (k : Nat) (hj : rule.jitter.getD false = false)
    (hi : 0 ≤ rule.interval.getD 3) (hr : 1 ≤ rule.backoffRate.getD 2)
    (hm : ∀ m, rule.maxDelay = some m → 0 ≤ m) :
    ∃ n n', waitMs rand rule k = some n ∧ waitMs rand rule (k + 1 : Nat) = some n' ∧ n ≤ n' ∧
      ∀ m, rule.maxDelay = some m → (n' : Rat) ≤ (m : Rat) * 1000 := by
  have hi' : (0 : Rat) ≤ (rule.interval.getD 3 : Int) := by
    have : ((0 : Int) : Rat) ≤ ((rule.interval.getD 3 : Int) : Rat) := Rat.intCast_le_intCast.2 hi
    simpa using this
  have pos : ∀ j, 0 ≤ delay (rule.interval.getD 3 : Int) (rule.backoffRate.getD 2) j := by
    intro j
    induction j with
    | zero => rw [delay]; grind
    | succ j ih => rw [delay]; exact Rat.mul_nonneg ih (by grind)
  rw [waitMs, waitMs]
  rw [backoff_delay, backoff_delay, min_capped, min_capped, hj, if_neg (by simp), if_neg (by simp)]
  generalize hq : delay (rule.interval.getD 3 : Int) (rule.backoffRate.getD 2) k = q
  generalize hq' : delay (rule.interval.getD 3 : Int) (rule.backoffRate.getD 2) (k + 1) = q'
  have hle : q ≤ q' := by
    rw [← hq', delay, hq]
    have h0 := pos k
    rw [hq] at h0
    have := Rat.mul_le_mul_of_nonneg_left hr h0
    grind
  have h0 : 0 ≤ q' := by rw [← hq']; exact pos _
  refine ⟨_, _, rfl, rfl, toU64_mono ?_, ?_⟩
  · rw [capped.eq_def, capped.eq_def]
    split <;> grind
  · intro m h
    have h1 := hm m h
    have h1' : (0 : Rat) ≤ (m : Rat) := by
      have : ((0 : Int) : Rat) ≤ (m : Rat) := Rat.intCast_le_intCast.2 h1
      simpa using this
    have h2 : 0 ≤ capped rule.maxDelay q' ∧ capped rule.maxDelay q' ≤ (m : Rat) * 1000 := by
      rw [capped.eq_def, h]
      dsimp only
      grind
    have := toU64_le h2.1
    show ((toU64 (capped rule.maxDelay q') : Nat) : Rat) ≤ _
    grind

/-- Three seconds, doubled each time. -/
example : waitMs (fun _ => 0) ⟨[], some 3, none, some 10, none, some 2⟩ 0 = some 3000 ∧
    waitMs (fun _ => 0) ⟨[], some 3, none, some 10, none, some 2⟩ 1 = some 6000 ∧
    waitMs (fun _ => 0) ⟨[], some 3, none, some 10, none, some 2⟩ 2 = some 10000 := by decide +kernel

/-- C31 as stated for executions: a step that always fails waits before its retries as long as the
helper says for retries counted from 0. -/
def FullBackoff : Prop :=
  ∀ (env : Env (Option Int) Int) (input : Json Int) (rule : Retry) (c : State (Option Int)),
    env.states = [(env.startAt, c)] → c.kind = .executeStep → c.retry = some [rule] →
    ['*'] ∈ rule.matchErrors → rule.jitter = none →
    (∀ log name v, ∃ e, env.handler log name v = .err e) →
    ∀ s p, Reach env input (s, p) → ∀ (k ms : Nat), (sleeps s.log).reverse[k]? = some ms →
      waitMs (fun _ => 0) rule k = some ms

/-- The delays do not start with the interval and do not grow. -/
theorem backoff_violated : ¬ FullBackoff := by
  intro h
  obtain ⟨s, prev, ret, log, ms, hr, _, hms, hs⟩ :=
    failing_round (failingEnv_failing .null) (i := .null) .start
  rw [failing_wait] at hms
  injection hms with hms
  have := h failingEnv .null ⟨[['*']], some 3, some 2, none, none, none⟩ failing rfl rfl rfl (by simp)
    rfl (fun _ _ _ => ⟨boom, rfl⟩) s _ hr 0 1500 (by rw [hs, ← hms]; rfl)
  revert this
  decide +kernel

theorem constant_step {env : Env G F} {i : Json F} {s : S F} {p : Proc G F}
    (h : Reach env i (s, p)) {info : Info} {v : Json F} {rule : Retry} {a : Int}
    {ret : Option (Option (Json F))} (hr : Running (.next (.retry info v rule a)) ret p)
    (hj : rule.jitter.getD false = false) (hrate : rule.backoffRate.getD 2 ≠ 0) {q : Rat}
    (hq : capped rule.maxDelay
      (((rule.interval.getD 3 : Int) : Rat) * 1000 / rule.backoffRate.getD 2) = q) :
    (step env s ret (.next (.retry info v rule a))).1.log = .slept (toU64 q) :: s.log := by
  obtain ⟨ha, _⟩ : Planned (.retry info v rule a) := All.running (reach_first h).2 hr
  have hw : waitMs (env.rand s.log) rule (a - 1) = some (toU64 q) := by
    rw [ha, show (0 - 1 : Int) = -1 from rfl, waitMs]
    have hb : backoff (rule.interval.getD 3 * 1000) (rule.backoffRate.getD 2) (-1) =
        .fin (((rule.interval.getD 3 : Int) : Rat) * 1000 / rule.backoffRate.getD 2) := by
      rw [backoff, if_neg (by simp [hrate]), show (-1 : Int) = -(1 : Int) from rfl, Rat.zpow_neg,
        Rat.zpow_one, Rat.intCast_mul, ← Rat.div_def]
      rfl
    rw [hb, min_capped, hq, hj, if_neg (by simp)]
    rfl
  rw [step, stepNext.eq_def]
  dsimp only
  rw [hw]

/-- Every retry, whatever its number is, waits for the interval divided by the backoff rate, at most
the maximum. -/
theorem constant_delay_partial {env : Env G F} {i : Json F} {s : S F} {p : Proc G F}
    (h : Reach env i (s, p)) {info : Info} {v : Json F} {rule : Retry} {a : Int}
    {ret : Option (Option (Json F))} (hr : Running (.next (.retry info v rule a)) ret p)
    (hj : rule.jitter.getD false = false) (hrate : rule.backoffRate.getD 2 ≠ 0) {q : Rat}
    (hq : capped rule.maxDelay
      (((rule.interval.getD 3 : Int) : Rat) * 1000 / rule.backoffRate.getD 2) = q)
    (h0 : 0 ≤ q) (h1 : q < 2 ^ 64) :
    ∃ n, (step env s ret (.next (.retry info v rule a))).1.log = .slept n :: s.log ∧
      Rounded n q :=
  ⟨_, constant_step h hr hj hrate hq, toU64_rounded h0 h1⟩

/-- Where that is negative, retries do not wait. -/
theorem negative_delay {env : Env G F} {i : Json F} {s : S F} {p : Proc G F}
    (h : Reach env i (s, p)) {info : Info} {v : Json F} {rule : Retry} {a : Int}
    {ret : Option (Option (Json F))} (hr : Running (.next (.retry info v rule a)) ret p)
    (hj : rule.jitter.getD false = false) (hrate : rule.backoffRate.getD 2 ≠ 0) {q : Rat}
    (hq : capped rule.maxDelay
      (((rule.interval.getD 3 : Int) : Rat) * 1000 / rule.backoffRate.getD 2) = q)
    (h0 : q < 0) :
    (step env s ret (.next (.retry info v rule a))).1.log = .slept 0 :: s.log := by
  rw [constant_step h hr hj hrate hq, toU64, if_pos h0]

theorem max_exact {m : Int} (h0 : 0 ≤ m) (h1 : m < 2 ^ 54) :
    ((toU64 ((m : Rat) * 1000) : Nat) : Int) = m * 1000 := by
  have hc : ((m : Rat) * 1000) = ((m * 1000 : Int) : Rat) := by
    rw [Rat.intCast_mul]
    rfl
  have hf : ((m * 1000 : Int) : Rat).floor = m * 1000 := Rat.floor_intCast _
  have h2 : ¬ ((m * 1000 : Int) : Rat) < 0 := by
    intro hh
    have : (m * 1000 : Int) < 0 := Rat.intCast_neg_iff.1 hh
    omega
  rw [hc, toU64, if_neg h2, hf]
  show ((min (m * 1000).toNat (2 ^ 64 - 1) : Nat) : Int) = _
  omega

theorem zero_rate_step {env : Env G F} {i : Json F} {s : S F} {p : Proc G F}
    (h : Reach env i (s, p)) {info : Info} {v : Json F} {rule : Retry} {a : Int}
    {ret : Option (Option (Json F))} (hr : Running (.next (.retry info v rule a)) ret p)
    (hj : rule.jitter.getD false = false) (hrate : rule.backoffRate = some 0) :
    (step env s ret (.next (.retry info v rule a))).1.log =
      .slept (((if rule.interval.getD 3 * 1000 = 0 then Delay.nan
        else if rule.interval.getD 3 * 1000 < 0 then .negInf else .inf).cap rule.maxDelay).toU64) ::
        s.log := by
  obtain ⟨ha, _⟩ : Planned (.retry info v rule a) := All.running (reach_first h).2 hr
  have hw : waitMs (env.rand s.log) rule (a - 1) =
      some (((if rule.interval.getD 3 * 1000 = 0 then Delay.nan
        else if rule.interval.getD 3 * 1000 < 0 then .negInf else .inf).cap rule.maxDelay).toU64) := by
    rw [ha, show (0 - 1 : Int) = -1 from rfl, waitMs, hrate]
    have hb : backoff (rule.interval.getD 3 * 1000) ((some (0 : Rat)).getD 2) (-1) =
        if rule.interval.getD 3 * 1000 = 0 then Delay.nan
        else if rule.interval.getD 3 * 1000 < 0 then .negInf else .inf := by
      rw [backoff, if_pos (by simp)]
    rw [hb, hj, if_neg (by simp)]
  rw [step, stepNext.eq_def]
  dsimp only
  rw [hw]

/-- A rate of 0, which means that later retries do not wait, makes every retry wait for ever (more
than 500 million years) or, if there is a maximum, for the maximum. -/
theorem zero_rate_waits {env : Env G F} {i : Json F} {s : S F} {p : Proc G F}
    (h : Reach env i (s, p)) {info : Info} {v : Json F} {rule : Retry} {a : Int}
    {ret : Option (Option (Json F))} (hr : Running (.next (.retry info v rule a)) ret p)
    (hj : rule.jitter.getD false = false) (hrate : rule.backoffRate = some 0)
    (hi : 0 < rule.interval.getD 3) :
    ∃ n, (step env s ret (.next (.retry info v rule a))).1.log = .slept n :: s.log ∧
      (rule.maxDelay = none → n = 18446744073709551615) ∧
      (∀ m, rule.maxDelay = some m → 0 ≤ m → m < 2 ^ 54 → n = m * 1000) := by
  refine ⟨_, zero_rate_step h hr hj hrate, ?_⟩
  rw [if_neg (by omega), if_neg (by omega)]
  constructor
  · intro hm
    rw [hm]
    rfl
  · intro m hm h0 h1
    rw [hm]
    exact max_exact h0 h1

/-- With a rate of 0 and without an interval retries do not wait, but if there is a maximum each waits
for the maximum; a negative interval is no wait. -/
theorem zero_rate_zero_interval {env : Env G F} {i : Json F} {s : S F} {p : Proc G F}
    (h : Reach env i (s, p)) {info : Info} {v : Json F} {rule : Retry} {a : Int}
    {ret : Option (Option (Json F))} (hr : Running (.next (.retry info v rule a)) ret p)
    (hj : rule.jitter.getD false = false) (hrate : rule.backoffRate = some 0)
    (hi : rule.interval.getD 3 ≤ 0) :
    ∃ n, (step env s ret (.next (.retry info v rule a))).1.log = .slept n :: s.log ∧
      (rule.maxDelay = none → n = 0) ∧ (rule.interval.getD 3 < 0 → n = 0) ∧
      (rule.interval.getD 3 = 0 → ∀ m, rule.maxDelay = some m → 0 ≤ m → m < 2 ^ 54 →
        n = m * 1000) := by
  refine ⟨_, zero_rate_step h hr hj hrate, ?_⟩
  by_cases h0 : rule.interval.getD 3 = 0
  · rw [if_pos (by omega)]
    refine ⟨fun hm => ?_, fun hn => by omega, fun _ m hm h0 h1 => ?_⟩
    · rw [hm]
      rfl
    · rw [hm]
      exact max_exact h0 h1
  · rw [if_neg (by omega), if_pos (by omega)]
    refine ⟨fun hm => ?_, fun _ => ?_, fun h => absurd h h0⟩
    · rw [hm]
      rfl
    · cases rule.maxDelay <;> rfl

/-! ## C30: catch rules -/

/-- An error that is not retried is recorded before the catch rules are looked at. -/
theorem record_run {env : Env G F} {s : S F} {info : Info} {name : Name} {after : After F}
    {ret : Option (Option (Json F))} (hp : info.parent = none) (hn : Named s info.state) :
    ∃ s', runN env 3 (s, .task (.record info name true false after) ret) =
        (s', .task (.next after) ret) ∧ (∀ n, calls n s'.log = calls n s.log) ∧
      entered s'.log = entered s.log := by
  obtain ⟨q, rs, hu⟩ : ∃ q rs, updRec (Rec.fail (env.now s.log) (info.state, name, info.msg))
      info.state info.parent (s.failed env (.error info.state name info.msg)).states = some (q, rs) := by
    rw [hp, updRec]
    cases hu : updFirst (Rec.fail (env.now s.log) (info.state, name, info.msg)) info.state
      (s.failed env (.error info.state name info.msg)).states with
    | none =>
      obtain ⟨q, hq, hn⟩ := hn
      exact absurd hn (updFirst_none.1 hu q hq)
    | some x => exact ⟨x.1, x.2, rfl⟩
  rw [runN, step, stepRecord]
  dsimp only
  rw [if_neg (by simp), hu]
  dsimp only
  rw [runN, step, stepPersist, if_pos rfl]
  generalize he : S.save env _ _ = x
  have hx : (∀ n, calls n x.2.log = calls n s.log) ∧ entered x.2.log = entered s.log := by
    rw [← he, S.save]
    split
    · exact ⟨fun n => by simp [calls], by simp [entered]⟩
    · exact ⟨fun n => by simp [calls], by simp [entered]⟩
  rw [runN, step, stepAnnounce]
  rw [if_neg (by simp), runN]
  refine ⟨_, rfl, ?_, ?_⟩
  · intro n
    rw [← hx.1 n]
    simp [S.send, calls]
  · rw [← hx.2]
    simp [S.send, entered]

/-- The state ahead if a rule catches an error. -/
def Caught (env : Env G F) (r : Catch) (e : Fail) (v w : Json F) : Prop :=
  r.resultPath = none ∧ w = v ∨ ∃ path, r.resultPath = some path ∧
    Payload.inject env.template v path (.obj [("cause".toList, .str (env.text e.info.msg)),
      ("error".toList, match e.info.name with
        | some n => .str n
        | none => .null)]) = .ok w

omit [DecidableEq F] in
theorem catchInput_caught {env : Env G F} {r : Catch} {e : Fail} {v w : Json F}
    (h : Caught env r e v w) : catchInput env r e.info v = .ok w := by
  rw [catchInput]
  rcases h with ⟨h1, h2⟩ | ⟨path, h1, h2⟩
  · rw [h1, h2]
  · rw [h1]
    dsimp only
    rw [show errorValue env e.info = .obj [("cause".toList, .str (env.text e.info.msg)),
      ("error".toList, match e.info.name with
        | some n => .str n
        | none => .null)] from rfl, h2]

/-- Errors for which the catch rules are looked at. -/
def Caughtable (c : State G) (e : Fail) : Prop :=
  Catchable e.kind ∨ Retryable e.kind ∧
    (NoMatch Retry.matchErrors (reported e) (c.retry.getD []) ∨
      ∃ rule m, FirstMatch Retry.matchErrors (reported e) (c.retry.getD []) rule ∧
        rule.maxAttempts = some m ∧ m ≤ 0)

/-- The error is routed by the rules for the name `n`. -/
def Routed (env : Env G F) (c : State G) (n : Name) (s : S F) (e : Fail) (v : Json F)
    (ret : Option (Option (Json F))) : Prop :=
  (∀ r w, FirstMatch Catch.matchErrors n (c.catchers.getD []) r → Caught env r e v w →
    ∃ k s' prev ret', runN env k (s, .task (.fail e v) ret) =
      (s', .task (.run r.next w prev none) ret') ∧ entered s'.log = entered s.log) ∧
  (NoMatch Catch.matchErrors n (c.catchers.getD []) →
    ∃ k s' x, runN env k (s, .task (.fail e v) ret) = (s', .done x) ∧
      entered s'.log = entered s.log)

theorem runN_add (env : Env G F) (k m : Nat) (a : S F × Proc G F) :
    runN env (k + m) a = runN env m (runN env k a) := by
  induction k generalizing a with
  | zero => rw [Nat.zero_add]; rfl
  | succ k ih =>
    obtain ⟨s, p⟩ := a
    rw [Nat.add_right_comm]
    cases p with
    | task t ret => rw [runN, ih]; rfl
    | join => cases m <;> rfl
    | done => cases m <;> rfl
    | crashed => cases m <;> rfl

/-- The rules that are looked at are those for the name that the error carries, which may be
empty. -/
theorem routed_name {env : Env G F} {i : Json F} {s : S F} {e : Fail} {v : Json F}
    {ret : Option (Option (Json F))} (h : Reach env i (s, .task (.fail e v) ret))
    (hp : e.info.parent = none) {c : State G} (hl : env.states.lookup e.info.state = some c)
    (hk : Caughtable c e) : Routed env c (e.info.name.getD []) s e v ret := by
  have hc : catchersOf env e.info = c.catchers := by rw [catchersOf, hp, config, hl]
  obtain ⟨k, s', hrun, hent⟩ : ∃ k s', runN env k (s, .task (.fail e v) ret) =
      (s', .task (.next (.catchErr e.info v c.catchers)) (some (ret.getD none))) ∧
      entered s'.log = entered s.log := by
    rcases hk with hk | ⟨hk, hm⟩
    · refine ⟨1, s, ?_, rfl⟩
      rw [runN, step, onError_catchable env s e v hk, hc]
      rfl
    · obtain ⟨_, h2, h3⟩ := retried_partial h (.here) hk hp hl
      have hs : step env s ret (.fail e v) = (s, .task (.record e.info (reported e) true false
          (.catchErr e.info v c.catchers)) (some (ret.getD none))) := by
        rcases hm with hm | ⟨rule, m, h4, h5, h6⟩
        · exact h3 hm
        · exact h2 rule m h4 h5 h6
      have ha := (reach_first h).2
      cases ha with
      | task _ _ ha =>
      obtain ⟨s', hr, _, he⟩ := record_run (env := env) (name := reported e)
        (after := .catchErr e.info v c.catchers) (ret := some (ret.getD none)) hp
        (Located.named ha hk hp)
      refine ⟨4, s', ?_, he⟩
      rw [runN, hs]
      exact hr
  constructor
  · intro r w hf hw
    refine ⟨k + 1, s', findRec r.next none s'.exec.states, some (ret.getD none), ?_, hent⟩
    rw [runN_add, hrun, runN, step, stepNext.eq_def]
    dsimp only
    rw [find_first.2 hf]
    dsimp only
    rw [catchInput_caught hw, hp]
    rfl
  · intro hf
    refine ⟨k + 1, s', ret.getD none, ?_, hent⟩
    rw [runN_add, hrun, runN, step, stepNext.eq_def]
    dsimp only
    rw [find_none.2 hf]
    rfl

/-- C30 as stated, for the name under which an error is reported. -/
def FullCatch : Prop :=
  ∀ (env : Env (Option Int) Int) (i : Json Int) (s : S Int) (e : Fail) (v : Json Int)
    (ret : Option (Option (Json Int))), Reach env i (s, .task (.fail e v) ret) →
    e.info.parent = none → ∀ c, env.states.lookup e.info.state = some c → Caughtable c e →
    Routed env c (reported e) s e v ret

/-- Errors that have a name of their own are routed to the first rule that matches. -/
theorem catch_partial {env : Env G F} {i : Json F} {s : S F} {e : Fail} {v : Json F}
    {ret : Option (Option (Json F))} (h : Reach env i (s, .task (.fail e v) ret))
    (hp : e.info.parent = none) {c : State G} (hl : env.states.lookup e.info.state = some c)
    (hk : Caughtable c e) {n : Name} (hn : e.info.name = some n) (hne : n ≠ []) :
    Routed env c (reported e) s e v ret := by
  have : reported e = e.info.name.getD [] := by
    rw [reported, hn]
    cases n with
    | nil => exact absurd rfl hne
    | cons => rfl
  rw [this]
  exact routed_name h hp hl hk

/-- A state whose errors are caught by two rules. -/
def catching : State (Option Int) :=
  { kind := .executeStep, catchers := some [⟨[['X']], ['b'], none⟩, ⟨[['*']], ['c'], some ['$', '.', 'e']⟩] }

/-- The hypotheses are met by an error of the handler, which is routed to the second rule. -/
example : ∃ s e v ret, Reach (demoEnv [(['a'], catching)] (fun _ _ _ => .err boom)) (.obj [])
      (s, .task (.fail e v) ret) ∧ e.info.parent = none ∧ Caughtable catching e ∧
      e.info.name = some ['E'] ∧ FirstMatch Catch.matchErrors (reported e) (catching.catchers.getD [])
        ⟨[['*']], ['c'], some ['$', '.', 'e']⟩ ∧
      ∃ w, Caught (demoEnv [(['a'], catching)] (fun _ _ _ => .err boom))
        ⟨[['*']], ['c'], some ['$', '.', 'e']⟩ e v w :=
  ⟨_, _, _, _, reach_start _ _ 2, rfl, Or.inr ⟨by simp [Retryable], Or.inl (by intro q hq; cases hq)⟩,
    rfl, ⟨[_], [], rfl, Or.inl (by simp), by simp [Matches, reported, boom]⟩, _,
    Or.inr ⟨_, rfl, rfl⟩⟩

/-- A state whose template cannot be read, with a rule for such errors. -/
def broken : State (Option Int) :=
  { kind := .executeStep, template := some [(['k'], .scalar (.str ['$']))],
    catchers := some [⟨["InvalidPayloadTemplate".toList], ['b'], none⟩] }

/-- No path can be read. -/
def brokenEnv : Env (Option Int) Int :=
  { demoEnv [(['a'], broken)] (fun _ _ v => .ok v) with
    template := { Payload.demo with parser := { Payload.demo.parser with path := fun _ => none } } }

/-- The error of reading the template. -/
abbrev unreadable : Fail := ⟨.templateInvalid, ['a'], none, none, .text ['J']⟩

theorem brokenEnv_fail (s : S Int) (ret : Option (Option (Json Int))) :
    step brokenEnv s ret (.fail unreadable .null) =
      (s, .task (.next (.catchErr unreadable.info .null broken.catchers)) (some (ret.getD none))) := rfl

theorem brokenEnv_next (s : S Int) (ret : Option (Option (Json Int))) :
    step brokenEnv s ret (.next (.catchErr unreadable.info .null broken.catchers)) =
      (s, .done (ret.getD none)) := by
  rw [step, stepNext.eq_def]
  dsimp only
  rw [find_none (me := Catch.matchErrors).2]
  intro q hq hm
  simp only [broken, Option.getD_some, List.mem_cons, List.not_mem_nil, or_false] at hq
  subst hq
  revert hm
  simp [Matches]

theorem brokenEnv_reach : ∃ s ret, Reach brokenEnv .null (s, .task (.fail unreadable .null) ret) :=
  ⟨_, _, reach_start brokenEnv .null 2⟩

/-- An error without a name of its own is not routed to the rule for its kind. -/
theorem catch_violated : ¬ FullCatch := by
  intro h
  obtain ⟨s, ret, hr⟩ := brokenEnv_reach
  have hc : Caughtable broken unreadable :=
    Or.inl (by simp [Catchable])
  have hf : FirstMatch Catch.matchErrors (reported unreadable) (broken.catchers.getD [])
      ⟨["InvalidPayloadTemplate".toList], ['b'], none⟩ :=
    ⟨[], [], rfl, Or.inr (List.mem_singleton.2 rfl), fun q hq => absurd hq List.not_mem_nil⟩
  obtain ⟨k, s', prev, ret', hrun, _⟩ := (h brokenEnv .null s unreadable .null ret hr rfl broken rfl
    hc).1 _ .null hf (Or.inl ⟨rfl, rfl⟩)
  match k with
  | 0 => injection hrun with _ hrun; cases hrun
  | 1 => rw [runN, brokenEnv_fail] at hrun; injection hrun with _ hrun; cases hrun
  | k + 2 =>
    rw [runN, brokenEnv_fail, runN, brokenEnv_next] at hrun
    cases k <;> (injection hrun with _ hrun; cases hrun)

/-! ## C82: input paths -/

/-- C82 as stated, for a single state without a template: the handler gets what the input path
selects. -/
def FullInputPath : Prop :=
  ∀ (env : Env (Option Int) Int) (input : Json Int) (c : State (Option Int)) (path : Name),
    env.states = [(env.startAt, c)] → c.inputPath = some path → c.template = none →
    c.catchers = none → c.next = none →
    ∀ s p v, Reach env input (s, p) → .called env.startAt v ∈ s.log →
      Payload.extract env.template input path = .ok v

/-- A state that selects the field `x`. -/
def selecting : State (Option Int) :=
  { kind := .executeStep, inputPath := some ['$', '.', 'x'], isEnd := some true }

/-- The handler gets the whole input. -/
theorem inputPath_violated : ¬ FullInputPath := by
  intro h
  have := h (demoEnv [(['a'], selecting)] (fun _ _ v => .ok v)) (.obj [(['x'], .int 1)]) selecting
    ['$', '.', 'x'] rfl rfl rfl rfl rfl _ _ (.obj [(['x'], .int 1)]) (reach_start _ _ 2)
    (List.mem_cons_self ..)
  have he : Payload.extract Payload.demo (.obj [(['x'], .int 1)]) ['$', '.', 'x'] = .ok (.int 1) := rfl
  rw [show (demoEnv [(['a'], selecting)] (fun _ _ v => .ok v)).template = Payload.demo from rfl, he]
    at this
  injection this with this
  cases this

/-- The input that the record of a state has. -/
def Recorded (s : S F) (n : Name) (v : Json F) : Prop := ∃ r ∈ s.exec.states, r.name = n ∧ r.input = v

omit [DecidableEq F] in
theorem Recorded.map {s s' : S F} {n : Name} {v : Json F}
    (h : s'.exec.states.map (fun r => (r.name, r.input)) = s.exec.states.map (fun r => (r.name, r.input)))
    (hr : Recorded s n v) : Recorded s' n v := by
  obtain ⟨r, hr, h1, h2⟩ := hr
  have : (r.name, r.input) ∈ s'.exec.states.map (fun r => (r.name, r.input)) := by
    rw [h]
    exact List.mem_map.2 ⟨r, hr, rfl⟩
  obtain ⟨q, hq, he⟩ := List.mem_map.1 this
  injection he with h3 h4
  exact ⟨q, hq, by rw [h3, h1], by rw [h4, h2]⟩

/-- A handler was called with the payload for a recorded input. -/
def CallsRecorded (env : Env G F) (s : S F) : Prop :=
  ∀ n v, .called n v ∈ s.log → ∀ c, env.states.lookup n = some c → c.inputPath = none →
    ∃ w, Recorded s n w ∧ payload env c w = .ok v

theorem CallsRecorded.mono {env : Env G F} {s s' : S F}
    (hl : ∀ n v, .called n v ∈ s'.log → .called n v ∈ s.log)
    (hr : ∀ n v, Recorded s n v → Recorded s' n v) (h : CallsRecorded env s) : CallsRecorded env s' := by
  intro n v hv c hc hp
  obtain ⟨w, h1, h2⟩ := h n v (hl n v hv) c hc hp
  exact ⟨w, hr n w h1, h2⟩

/-- Without an input path, a handler is called with the input that is recorded for its state, or
with what the template makes of it. -/
theorem payload_partial {env : Env G F} (hs : Sequential env) {input : Json F} {s : S F}
    {p : Proc G F} (h : Reach env input (s, p)) : CallsRecorded env s := by
  refine (seq_invariant hs input (fun s p => CallsRecorded env s ∧
    ∀ name r c v parent ret, p = .task (.exec name r c v parent) ret → c.inputPath = none →
      Recorded s name v) ⟨?_, ?_⟩ ?_ h).1.1
  · intro n v hv
    simp at hv
  · intro name r c v parent ret he
    cases he
  · intro s t ret _ ht hP
    obtain ⟨hP, hE⟩ := hP
    have same : ∀ (s' : S F), s'.exec.states = s.exec.states →
        (∀ n v, .called n v ∈ s'.log → .called n v ∈ s.log) → CallsRecorded env s' := by
      intro s' h1 h2
      exact hP.mono h2 (fun n v hr => hr.map (by rw [h1]))
    cases t with
    | run name v prev parent =>
      rw [step, stepRun.eq_def]
      split
      · exact ⟨hP, by intro _ _ _ _ _ _ he; cases he⟩
      next c hc =>
        split
        · exact ⟨hP, by intro _ _ _ _ _ _ he; cases he⟩
        next w hw =>
          dsimp only
          have hrec : ∀ log n x, Recorded s n x →
              Recorded ⟨s.exec.enter (newRec name c w prev (env.now s.log)), log⟩ n x := by
            rintro log n x ⟨r, hr, h1, h2⟩
            exact ⟨r, by simp [Exec.enter, hr], h1, h2⟩
          by_cases hsv : env.save s.log (s.exec.enter (newRec name c w prev (env.now s.log))) = true
          · rw [save_true (s := ⟨s.exec.enter (newRec name c w prev (env.now s.log)), s.log⟩) hsv]
            refine ⟨hP.mono (by simp [S.send]) (hrec _), ?_⟩
            intro name' r c' v' parent' ret' he hip
            injection he with he
            injection he with h1 h2 h3 h4
            subst h1 h3 h4
            refine ⟨newRec name c w prev (env.now s.log), by simp [S.send, Exec.enter], rfl, ?_⟩
            rw [stateInput, hip] at hw
            injection hw with hw
            exact hw.symm
          · rw [save_false (s := ⟨s.exec.enter (newRec name c w prev (env.now s.log)), s.log⟩) hsv]
            exact ⟨hP.mono (by simp) (hrec _), by intro _ _ _ _ _ _ he; cases he⟩
    | exec name r c v parent =>
      obtain ⟨_, hl⟩ := ht
      refine ⟨?_, ?_⟩
      · rw [step, stepExec]
        split
        · rw [stepStep]
          split
          · split
            · exact hP
            · exact hP
            next x hx =>
              intro n u hu c' hc' hp'
              rcases List.mem_cons.1 hu with hu | hu
              · injection hu with h1 h2
                subst h1 h2
                rw [hl] at hc'
                injection hc' with hc'
                subst hc'
                exact ⟨v, hE _ _ _ _ _ _ rfl hp', hx⟩
              · exact hP n u hu c' hc' hp'
          · exact hP
        next hk => exact absurd hk (hs _ _ (lookup_mem hl))
        · rw [stepWait]
          split
          · exact hP
          · split
            · exact hP
            · exact same _ rfl (by simp)
        · exact hP
        · exact hP
        · exact hP
        · exact hP
        · exact hP
      · intro name' r' c' v' parent' ret' he
        have : ∀ q : S F × Proc G F, stepExec env s name r c v parent ret = q →
            q.2 ≠ .task (.exec name' r' c' v' parent') ret' := by
          rintro q rfl
          rw [stepExec]
          split
          · rw [stepStep]
            split
            · split
              · simp [failWith]
              · simp
              · dsimp only; split <;> simp [failWith]
            · simp [failWith]
          · rw [stepParallel]; split <;> simp [failWith]
          · rw [stepWait]
            split
            · simp [failWith]
            · split <;> simp [failWith]
          all_goals simp [failWith]
        exact absurd he (this _ rfl)
    | finish name parent c r v o =>
      obtain ⟨rfl, _⟩ := ht
      rw [step, stepFinish]
      split
      · exact ⟨hP, by intro _ _ _ _ _ _ he; cases he⟩
      · rw [updRec]
        split
        · exact ⟨hP, by intro _ _ _ _ _ _ he; cases he⟩
        next q states hu =>
          have hm := updFirst_map (g := fun r => (r.name, r.input)) (by intro _; rfl) hu
          by_cases hsv : env.save s.log { s.exec with states := states } = true
          · rw [save_true (s := ⟨{ s.exec with states := states }, s.log⟩) hsv]
            dsimp only
            split
            · exact ⟨hP.mono (by simp) (fun n x hr => hr.map hm), by intro _ _ _ _ _ _ he; cases he⟩
            · split
              · exact ⟨hP.mono (by simp) (fun n x hr => hr.map hm), by intro _ _ _ _ _ _ he; cases he⟩
              · exact ⟨hP.mono (by simp) (fun n x hr => hr.map hm), by intro _ _ _ _ _ _ he; cases he⟩
          · rw [save_false (s := ⟨{ s.exec with states := states }, s.log⟩) hsv]
            exact ⟨hP.mono (by simp) (fun n x hr => hr.map hm), by intro _ _ _ _ _ _ he; cases he⟩
    | complete v final =>
      rw [step, stepComplete]
      by_cases hsv : env.save s.log (s.succeeded env) = true
      · rw [save_true (s := ⟨s.succeeded env, s.log⟩) hsv]
        exact ⟨same _ rfl (by simp [S.send]), by intro _ _ _ _ _ _ he; cases he⟩
      · rw [save_false (s := ⟨s.succeeded env, s.log⟩) hsv]
        exact ⟨same _ rfl (by simp), by intro _ _ _ _ _ _ he; cases he⟩
    | fail e v =>
      refine ⟨hP, ?_⟩
      intro name' r' c' v' parent' ret' he
      injection he with he
      revert he
      rw [onError]
      split <;> simp [retryable]
    | record info name persist continues after =>
      rw [step, stepRecord]
      dsimp only
      generalize he : (if continues = true then s.exec else
        s.failed env (.error info.state name info.msg)) = e
      have hst : e.states = s.exec.states := by rw [← he]; split <;> rfl
      rw [ht.1, updRec]
      split
      · exact ⟨same _ hst (by simp), by intro _ _ _ _ _ _ he; cases he⟩
      next q states hu =>
        have hm := updFirst_map (g := fun r => (r.name, r.input)) (by intro _; rfl) hu
        rw [hst] at hm
        exact ⟨hP.mono (by simp) (fun n x hr => hr.map hm), by intro _ _ _ _ _ _ he; cases he⟩
    | persist e r persist continues after =>
      rw [step, stepPersist]
      refine ⟨?_, by intro _ _ _ _ _ _ he; cases he⟩
      dsimp only
      split
      · refine same _ (by rw [save_exec]) ?_
        rw [S.save]
        split <;> simp
      · exact hP
    | announce e r continues after =>
      rw [step, stepAnnounce]
      refine ⟨?_, by intro _ _ _ _ _ _ he; cases he⟩
      dsimp only
      split
      · exact same _ rfl (by simp [S.send])
      · exact same _ rfl (by simp [S.send])
    | next after =>
      rw [step, stepNext.eq_def]
      split
      · exact ⟨hP, by intro _ _ _ _ _ _ he; cases he⟩
      · split
        · exact ⟨hP, by intro _ _ _ _ _ _ he; cases he⟩
        · exact ⟨same _ rfl (by simp), by intro _ _ _ _ _ _ he; cases he⟩
      · split
        · exact ⟨hP, by intro _ _ _ _ _ _ he; cases he⟩
        · split <;> exact ⟨hP, by intro _ _ _ _ _ _ he; cases he⟩

/-- The hypothesis is met by a workflow whose handler is called. -/
example : Sequential (demoEnv [(['a'], failing)] (fun _ _ v => .ok v)) ∧
    ∃ s p, Reach (demoEnv [(['a'], failing)] (fun _ _ v => .ok v)) (.int 7) (s, p) ∧
      .called ['a'] (.int 7) ∈ s.log := by
  refine ⟨?_, _, _, reach_start _ _ 2, List.mem_cons_self ..⟩
  intro n c h
  simp only [demoEnv, List.mem_cons, List.not_mem_nil, or_false, Prod.mk.injEq] at h
  rw [h.2]
  simp [failing]

/-! ## C85: the output of an execution -/

/-- C85 as stated: the completion of an execution that succeeded reports an output. -/
def FullOutput : Prop :=
  ∀ (env : Env (Option Int) Int) (input : Json Int) (s : S Int) (p : Proc (Option Int) Int),
    Reach env input (s, p) → ∀ e ∈ completions s.log, e.status = .succeeded → ∃ v, e.output = some v

/-- A single step at the end of a workflow. -/
def single : State (Option Int) := { kind := .executeStep, isEnd := some true }

/-- The output is missing. -/
theorem output_violated : ¬ FullOutput := by
  intro h
  obtain ⟨v, hv⟩ := h (demoEnv [(['a'], single)] (fun _ _ v => .ok v)) .null _ _ (reach_start _ _ 4)
    ⟨.null, none, .succeeded, .executing ['a'], some ['a'],
      [⟨['a'], .executeStep, none, .null, .succeeded, 1, none, [], some .null, some .null, 0, some 0⟩],
      some 0, some 0⟩
    (List.mem_cons_self ..) rfl
  cases hv

/-- No execution ever has an output. -/
def Outputless (s : S F) : Prop :=
  s.exec.output = none ∧ ∀ e, .event (.complete e) ∈ s.log → e.output = none

/-- Nor have the copies that are going to be announced. -/
def OutputlessT : Task G F → Prop
  | .persist e _ _ _ _ => e.output = none
  | .announce e _ _ _ => e.output = none
  | _ => True

/-- In no execution an output is recorded or announced. -/
theorem output_never {env : Env G F} {input : Json F} {s : S F} {p : Proc G F}
    (h : Reach env input (s, p)) :
    s.exec.output = none ∧ ∀ e ∈ completions s.log, e.output = none := by
  have hmem : ∀ (log : List (Entry F)) e, e ∈ completions log → .event (.complete e) ∈ log := by
    intro log e he
    rw [completions, List.mem_filterMap] at he
    obtain ⟨x, hx, h⟩ := he
    cases x with
    | event ev =>
      cases ev with
      | complete e' => injection h with h; rw [← h]; exact hx
      | transition => cases h
      | failure => cases h
    | called => cases h
    | saved => cases h
    | notSaved => cases h
    | slept => cases h
  suffices hs : Outputless s from ⟨hs.1, fun e he => hs.2 e (hmem _ e he)⟩
  refine (invariant env input Outputless (fun _ t _ => OutputlessT t) (fun _ _ => True)
    (fun _ _ => True) (fun _ _ _ _ _ h => h) (fun _ _ _ _ _ => trivial)
    ⟨⟨rfl, by simp⟩, trivial⟩ ?_ ?_ h).1
  · intro s t ret hi ht
    cases t with
    | run name v prev parent =>
      rw [step, stepRun.eq_def]
      split
      · exact ⟨hi, trivial, .task _ _ trivial⟩
      next c _ =>
        split
        · exact ⟨hi, trivial, .task _ _ trivial⟩
        next w _ =>
          dsimp only
          by_cases hsv : env.save s.log (s.exec.enter (newRec name c w prev (env.now s.log))) = true
          · rw [save_true (s := ⟨s.exec.enter (newRec name c w prev (env.now s.log)), s.log⟩) hsv]
            exact ⟨⟨hi.1, by simpa [S.send] using hi.2⟩, trivial, .task _ _ trivial⟩
          · rw [save_false (s := ⟨s.exec.enter (newRec name c w prev (env.now s.log)), s.log⟩) hsv]
            exact ⟨⟨hi.1, by simpa using hi.2⟩, trivial, .task _ _ trivial⟩
    | exec name r c v parent =>
      rw [step, stepExec]
      split
      · rw [stepStep]
        split
        · split
          · exact ⟨hi, trivial, .task _ _ trivial⟩
          · exact ⟨hi, trivial, .crashed⟩
          · refine ⟨⟨hi.1, by simpa using hi.2⟩, trivial, ?_⟩
            dsimp only
            split
            · exact .task _ _ trivial
            · exact .task _ _ trivial
            · exact .crashed
        · exact ⟨hi, trivial, .task _ _ trivial⟩
      · rw [stepParallel]
        split
        · exact ⟨hi, trivial, .task _ _ trivial⟩
        · exact ⟨hi, trivial, .task _ _ trivial⟩
        · refine ⟨hi, trivial, .join _ _ trivial ?_⟩
          intro p hp
          rw [List.mem_map] at hp
          obtain ⟨b, _, hb⟩ := hp
          subst hb
          split
          · exact .task _ _ trivial
          · exact .done _
      · rw [stepWait]
        split
        · exact ⟨hi, trivial, .task _ _ trivial⟩
        · split
          · exact ⟨hi, trivial, .task _ _ trivial⟩
          · exact ⟨⟨hi.1, by simpa using hi.2⟩, trivial, .task _ _ trivial⟩
      · exact ⟨hi, trivial, .done _⟩
      · exact ⟨hi, trivial, .done _⟩
      · exact ⟨hi, trivial, .done _⟩
      · exact ⟨hi, trivial, .done _⟩
      · exact ⟨hi, trivial, .task _ _ trivial⟩
    | finish name parent c r v o =>
      rw [step, stepFinish]
      split
      · exact ⟨hi, trivial, .task _ _ trivial⟩
      · split
        · exact ⟨hi, trivial, .crashed⟩
        next q states hu =>
          by_cases hsv : env.save s.log { s.exec with states := states } = true
          · rw [save_true (s := ⟨{ s.exec with states := states }, s.log⟩) hsv]
            have hi' : ∀ x, Outputless (⟨{ s.exec with states := states }, .saved x :: s.log⟩ : S F) :=
              fun x => ⟨hi.1, by simpa using hi.2⟩
            dsimp only
            split
            · exact ⟨hi' _, trivial, .task _ _ trivial⟩
            · split <;> exact ⟨hi' _, trivial, .task _ _ trivial⟩
          · rw [save_false (s := ⟨{ s.exec with states := states }, s.log⟩) hsv]
            exact ⟨⟨hi.1, by simpa using hi.2⟩, trivial, .task _ _ trivial⟩
    | complete v final =>
      rw [step, stepComplete]
      by_cases hsv : env.save s.log (s.succeeded env) = true
      · rw [save_true (s := ⟨s.succeeded env, s.log⟩) hsv]
        refine ⟨⟨hi.1, ?_⟩, trivial, .done _⟩
        intro e he
        simp only [S.send, List.mem_cons, Entry.event.injEq, Event.complete.injEq, reduceCtorEq,
          false_or] at he
        rcases he with he | he
        · rw [he]; exact hi.1
        · exact hi.2 e he
      · rw [save_false (s := ⟨s.succeeded env, s.log⟩) hsv]
        exact ⟨⟨hi.1, by simpa using hi.2⟩, trivial, .task _ _ trivial⟩
    | fail e v =>
      rw [step]
      refine ⟨hi, trivial, .task _ _ ?_⟩
      rw [onError]
      split <;> trivial
    | record info name persist continues after =>
      rw [step, stepRecord]
      dsimp only
      have ho : ∀ d, (if continues = true then s.exec else
          s.failed env d).output = none := by
        intro d
        split <;> exact hi.1
      split
      · exact ⟨⟨ho _, hi.2⟩, trivial, .crashed⟩
      · exact ⟨⟨ho _, hi.2⟩, trivial, .task _ _ (ho _)⟩
    | persist e r persist continues after =>
      rw [step, stepPersist]
      refine ⟨?_, trivial, .task _ _ ht⟩
      dsimp only
      split
      · rw [S.save]
        split
        · exact ⟨hi.1, by simpa using hi.2⟩
        · exact ⟨hi.1, by simpa using hi.2⟩
      · exact hi
    | announce e r continues after =>
      rw [step, stepAnnounce]
      refine ⟨?_, trivial, .task _ _ trivial⟩
      dsimp only
      split
      · exact ⟨hi.1, by simpa [S.send] using hi.2⟩
      · refine ⟨hi.1, ?_⟩
        intro e' he
        simp only [S.send, List.mem_cons, Entry.event.injEq, Event.complete.injEq, reduceCtorEq,
          false_or] at he
        rcases he with he | he
        · rw [he]; exact ht
        · exact hi.2 e' he
    | next after =>
      rw [step, stepNext.eq_def]
      split
      · exact ⟨hi, trivial, .done _⟩
      · split
        · exact ⟨hi, trivial, .crashed⟩
        · exact ⟨⟨hi.1, by simpa using hi.2⟩, trivial, .task _ _ trivial⟩
      · split
        · exact ⟨hi, trivial, .done _⟩
        · split <;> exact ⟨hi, trivial, .task _ _ trivial⟩
  · intro s j results _ _
    rw [joined]
    split <;> exact .task _ _ trivial

/-! ## C86: the record of an attempt that succeeded -/

/-- C86 as stated: when an execution of steps has succeeded, so has the latest attempt of every
step. -/
def FullLatest : Prop :=
  ∀ (env : Env (Option Int) Int) (input : Json Int) (s : S Int) (v : Option (Json Int)),
    Sequential env → Reach env input (s, .done v) → s.exec.status = .succeeded →
    ∀ before r, s.exec.states = before ++ [r] → r.status = .succeeded

/-- The handler fails the first time. -/
def flakyEnv : Env (Option Int) Int :=
  demoEnv [(['a'], { failing with isEnd := some true })]
    (fun log _ v => if calls ['a'] log = 0 then .err boom else .ok v)

/-- Whether nothing is left to do. -/
def isDone : Proc (Option Int) Int → Bool
  | .done _ => true
  | _ => false

theorem flaky_sequential : Sequential flakyEnv := by
  intro n c h
  simp only [flakyEnv, demoEnv, List.mem_cons, List.not_mem_nil, or_false, Prod.mk.injEq] at h
  rw [h.2]
  simp [failing]

theorem flaky_run : isDone (runN flakyEnv 11 (start flakyEnv .null)).2 = true ∧
    (runN flakyEnv 11 (start flakyEnv .null)).1.exec.status = .succeeded ∧
    (runN flakyEnv 11 (start flakyEnv .null)).1.exec.states.map (fun r => (r.attempt, r.status)) =
      [(1, .succeeded), (2, .inProgress)] := by
  decide +kernel

/-- The success of the second attempt is recorded for the first one, and the second one stays in
progress. -/
theorem latest_violated : ¬ FullLatest := by
  intro h
  obtain ⟨h1, h2, h3⟩ := flaky_run
  generalize hx : runN flakyEnv 11 (start flakyEnv .null) = x at h1 h2 h3
  obtain ⟨s, p⟩ := x
  have hr : Reach flakyEnv .null (s, p) := by rw [← hx]; exact reach_start _ _ 11
  cases p with
  | done v =>
    dsimp only at h2 h3
    rw [List.map_eq_cons_iff] at h3
    obtain ⟨a, rest, hs, _, h3⟩ := h3
    rw [List.map_eq_cons_iff] at h3
    obtain ⟨b, rest', hs', hb, h3⟩ := h3
    rw [List.map_eq_nil_iff] at h3
    rw [hs', h3] at hs
    have := h flakyEnv .null s v flaky_sequential hr h2 [a] b hs
    injection hb with _ hb
    rw [this] at hb
    cases hb
  | task => cases h1
  | join => cases h1
  | crashed => cases h1

/-- The success of a step is recorded for its first attempt: for the latest one if there is only
one. -/
theorem latest_partial {env : Env G F} {s : S F} {name : Name} {c : State G} {r q : Rec F}
    {v o final : Json F} {ret : Option (Option (Json F))} {before after : List (Rec F)}
    (hs : s.exec.states = before ++ q :: after) (hq : q.name = name)
    (hb : ∀ x ∈ before, x.name ≠ name) (ho : stateOutput env name none c v o = .ok final) :
    (step env s ret (.finish name none c r v o)).1.exec.states =
      before ++ { q with
        status := .succeeded, rawOutput := some o, output := some final
        completed := some (env.now s.log) } :: after := by
  rw [step, stepFinish, ho]
  dsimp only
  rw [updRec, hs, updFirst_split hb hq]
  dsimp only
  generalize hst : before ++ Rec.complete (env.now s.log) o final q :: after = states
  by_cases hsv : env.save s.log { s.exec with states := states } = true
  · rw [save_true (s := ⟨{ s.exec with states := states }, s.log⟩) hsv]
    dsimp only
    split
    · exact hst.symm
    · split <;> exact hst.symm
  · rw [save_false (s := ⟨{ s.exec with states := states }, s.log⟩) hsv]
    exact hst.symm

/-- A record of another state before, and one attempt. -/
example : ∃ (s : S Int) (before after : List (Rec Int)) (q : Rec Int),
    s.exec.states = before ++ q :: after ∧ q.name = ['b'] ∧ (∀ x ∈ before, x.name ≠ ['b']) ∧
    before ≠ [] :=
  ⟨⟨⟨.null, none, .inProgress, .preparing, none,
    [⟨['a'], .executeStep, none, .null, .succeeded, 1, none, [], none, none, 0, some 0⟩,
      ⟨['b'], .executeStep, none, .null, .inProgress, 1, none, [], none, none, 0, none⟩],
    none, none⟩, []⟩,
    [_], [], _, rfl, rfl, by simp, by simp⟩

/-! ## C87: waits -/

/-- The JSON path library gives a list of matches or `null`: payload_template.rs lines 260-261. -/
def Lists (find : Payload.Path → Json F → Json F) : Prop :=
  ∀ p v, find p v = .null ∨ ∃ l, find p v = .arr l

/-- C87 as stated: a wait state waits for as many seconds as the number in the input that a path
selects. -/
def FullWait : Prop :=
  ∀ (env : Env (Option Int) Int) (name : Name) (w : Wait) (path : Name) (input : Json Int) (now : Int)
    (n : Nat), Lists env.template.find → n < 2 ^ 64 → w.seconds = some path → path.head? = some '$' →
    Payload.extract env.template input path = .ok (.int n) →
    waitTime env name w input now = .ok n

omit [DecidableEq F] in
/-- With a library that returns lists, a path is never accepted. -/
theorem wait_path_refused {env : Env G F} (hl : Lists env.template.find) (name : Name) (w : Wait)
    (path : Name) (input : Json F) (now : Int) (hp : path.head? = some '$')
    (hw : w.seconds = some path ∨ w.seconds = none ∧ w.timestamp = some path) :
    ∃ e, waitTime env name w input now = .error e := by
  rw [waitTime.eq_def]
  rcases hw with hw | ⟨hw, ht⟩
  · rw [hw]
    dsimp only
    rw [waitSeconds, if_pos hp]
    split
    · exact ⟨_, rfl⟩
    next p _ =>
      rcases hl p input with h | ⟨l, h⟩ <;> rw [h] <;> exact ⟨_, rfl⟩
  · rw [hw, ht]
    dsimp only
    rw [waitTimestamp, if_pos hp]
    split
    · exact ⟨_, rfl⟩
    next p _ =>
      rcases hl p input with h | ⟨l, h⟩ <;> rw [h] <;> exact ⟨_, rfl⟩

theorem demo_lists : Lists Payload.demo.find := by
  intro p v
  simp only [Payload.demo]
  split
  · split
    · exact Or.inr ⟨_, rfl⟩
    · exact Or.inl rfl
  · exact Or.inr ⟨_, rfl⟩

/-- The number in the field `x` is not found. -/
theorem wait_violated : ¬ FullWait := by
  intro h
  have h1 := h (demoEnv [] (fun _ _ v => .ok v)) ['a'] ⟨some ['$', '.', 'x'], none⟩ ['$', '.', 'x']
    (.obj [(['x'], .int 5)]) 0 5 demo_lists (by omega) rfl rfl rfl
  obtain ⟨e, he⟩ := wait_path_refused (env := demoEnv [] (fun _ _ v => .ok v)) demo_lists ['a']
    ⟨some ['$', '.', 'x'], none⟩ ['$', '.', 'x'] (.obj [(['x'], .int 5)]) 0 rfl (Or.inl rfl)
  rw [he] at h1
  cases h1

/-- A wait for a constant number of seconds, written in decimal, waits for that long, and then the
input is the output. -/
theorem wait_partial {env : Env G F} {s : S F} {name : Name} {r : Rec F} {c : State G} {v : Json F}
    {parent : Option Name} {ret : Option (Option (Json F))} {w : Wait} {secs : Name} {n : Nat}
    (hk : c.kind = .wait) (hw : c.waitConfig = some w) (hs : w.seconds = some secs)
    (hd : secs.head? ≠ some '$') (hn : Text.UnsignedText secs n) (hb : n < 2 ^ 64) :
    step env s ret (.exec name r c v parent) =
      (⟨s.exec, .slept (n * 1000) :: s.log⟩, .task (.finish name parent c r v v) ret) := by
  rw [step, stepExec, hk]
  dsimp only
  rw [stepWait, hw]
  dsimp only
  rw [waitTime.eq_def, hs]
  dsimp only
  rw [waitSeconds, if_neg hd, (Text.parseUnsigned_iff _ _ _).2 ⟨hn, hb⟩]

/-- Five seconds. -/
example : (['5'] : Name).head? ≠ some '$' ∧ Text.UnsignedText ['5'] 5 ∧ 5 < 2 ^ 64 := by
  refine ⟨by decide, ?_, by decide⟩
  have : Text.parseUnsigned (2 ^ 64) ['5'] = some 5 := by decide +kernel
  exact ((Text.parseUnsigned_iff _ _ _).1 this).1

/-! ## C88: the other types of states -/

/-- C88 as stated, for a workflow that starts with such a state: a success state ends the execution
as succeeded, a failure state as failed, a pass state goes on with the next state. -/
def FullStates : Prop :=
  ∀ (env : Env (Option Int) Int) (input : Json Int) (c : State (Option Int)),
    env.states.lookup env.startAt = some c → c.inputPath = none → (∀ log e, env.save log e = true) →
    ∀ s v, Reach env input (s, .done v) →
      (c.kind = .success → s.exec.status = .succeeded) ∧
      (c.kind = .failure → s.exec.status = .failed) ∧
      (c.kind = .pass → ∀ n, c.next = some n → n ∈ entered s.log)

/-- Whenever a state of one of these types is entered, nothing happens any more: the execution stays
in progress, without a completion. -/
theorem stubs_halt {env : Env G F} {s : S F} {name : Name} {v : Json F} {prev : Option (Rec F)}
    {ret : Option (Option (Json F))} {c : State G} (hl : env.states.lookup name = some c)
    (hp : c.inputPath = none) (hs : ∀ log e, env.save log e = true)
    (hk : c.kind = .pass ∨ c.kind = .decision ∨ c.kind = .success ∨ c.kind = .failure) :
    ∃ s' x, runN env 2 (s, .task (.run name v prev none) ret) = (s', .done x) ∧
      s'.exec.status = .inProgress ∧ entered s'.log = name :: entered s.log ∧
      completions s'.log = completions s.log := by
  rw [runN, step, stepRun.eq_def, config, hl]
  dsimp only
  rw [stateInput, hp]
  dsimp only
  rw [save_true (hs _ _)]
  dsimp only
  rw [runN, step, stepExec]
  rcases hk with hk | hk | hk | hk <;> rw [hk] <;> dsimp only <;> rw [runN] <;>
    exact ⟨_, _, rfl, rfl, by simp [S.send, entered, newRec], by simp [S.send, completions]⟩

theorem states_violated : ¬ FullStates := by
  intro h
  have := (h (demoEnv [(['a'], { kind := .success })] (fun _ _ v => .ok v)) .null
    { kind := .success } rfl rfl (fun _ _ => rfl) _ _ (reach_start _ _ 2)).1 rfl
  cases this

end Verif.Workflow
