import Verif.Workflow.RunProps

/-!
# Properties of parallel states

C83.
-/

namespace Verif.Workflow

variable {G F : Type} [DecidableEq F]

/-! ## C83: parallel states -/

/-- The states of branches are steps and waits. -/
def PlainBranches (env : Env G F) : Prop :=
  ∀ n c, (n, c) ∈ env.states → ∀ b ∈ c.branches.getD [], ∀ m d, (m, d) ∈ b.2 →
    d.kind = .executeStep ∨ d.kind = .wait

/-- What tasks know of configurations. -/
def Configured (env : Env G F) : Task G F → Prop
  | .exec name _ c _ parent => config env name parent = .ok c
  | .finish name parent c _ _ _ => parent = none → env.states.lookup name = some c ∧ c.kind ≠ .parallel
  | _ => True

/-- Tasks of a branch in which there was no error so far. -/
def Early : Task G F → Prop
  | .run _ _ _ parent => parent ≠ none
  | .exec _ _ _ _ parent => parent ≠ none
  | .finish _ parent _ _ _ _ => parent ≠ none
  | .fail _ _ => True
  | _ => False

/-- Concurrent tasks, where those of branches (`b = true`) are going to return `None`. -/
inductive Fruitless (env : Env G F) : Bool → Proc G F → Prop
  | task (b : Bool) (t : Task G F) (ret : Option (Option (Json F))) : Configured env t →
    (b = true → ret = some none ∨ ret = none ∧ Early t) → Fruitless env b (.task t ret)
  | join (b : Bool) (j : Joining G F) (bs : List (Proc G F)) : (b = true → j.ret = some none) →
    bs ≠ [] → (∀ p ∈ bs, Fruitless env true p) → Fruitless env b (.join j bs)
  | done (b : Bool) (v : Option (Json F)) : (b = true → v = none) → Fruitless env b (.done v)
  | crashed (b : Bool) : Fruitless env b .crashed

/-- Parallel states have not succeeded. -/
def NoneSucceeded (env : Env G F) (s : S F) : Prop :=
  ∀ r ∈ s.exec.states, r.kind = .parallel → r.status ≠ .succeeded ∧
    ∃ c, env.states.lookup r.name = some c ∧ c.kind = .parallel

omit [DecidableEq F] in
theorem config_child {env : Env G F} (hb : PlainBranches env) {name p : Name} {c : State G}
    (h : config env name (some p) = .ok c) : c.kind = .executeStep ∨ c.kind = .wait := by
  rw [config] at h
  split at h
  next pc hl =>
    rw [childConfig] at h
    split at h
    · split at h
      next bs hbs =>
        split at h
        next d hd =>
          injection h with h
          subst h
          obtain ⟨b, hmem, hlook⟩ := List.exists_of_findSome?_eq_some hd
          exact hb _ _ (lookup_mem hl) b (by rw [hbs]; exact hmem) _ _ (lookup_mem hlook)
        · cases h
      · cases h
    · cases h
  · cases h

omit [DecidableEq F] in
theorem config_top {env : Env G F} {name : Name} {c : State G}
    (h : config env name none = .ok c) : env.states.lookup name = some c := by
  rw [config] at h
  split at h
  next hl => injection h with h; rw [hl, h]
  next => cases h

omit [DecidableEq F] in
theorem NoneSucceeded.same {env : Env G F} {s s' : S F} (h : NoneSucceeded env s)
    (hs : s'.exec.states = s.exec.states) : NoneSucceeded env s' := by
  rw [NoneSucceeded, hs]
  exact h

omit [DecidableEq F] in
theorem NoneSucceeded.update {env : Env G F} {s : S F} (h : NoneSucceeded env s)
    {f : Rec F → Rec F} {name : Name} {rs : List (Rec F)} {r : Rec F}
    (hf : Flat s.exec.states) {parent : Option Name}
    (hu : updRec f name parent s.exec.states = some (r, rs))
    (hkeep : parent = none → ∀ q : Rec F, q.name = name → (f q).name = q.name ∧ (f q).kind = q.kind ∧
      (q.kind = .parallel → (∃ c, env.states.lookup q.name = some c ∧ c.kind = .parallel) →
        (f q).status ≠ .succeeded))
    (e : Exec F) (log : List (Entry F)) (he : e.states = rs) : NoneSucceeded env ⟨e, log⟩ := by
  obtain ⟨hp, before, old, after, h1, h2, _, _, h5⟩ := updRec_some hf hu
  intro q hq hk
  dsimp only at hq
  rw [he, h5] at hq
  simp only [List.mem_append, List.mem_cons] at hq
  rcases hq with hq | rfl | hq
  · exact h q (by rw [h1]; simp [hq]) hk
  · obtain ⟨h6, h7, h8⟩ := hkeep hp old h2
    rw [h7] at hk
    have := h old (by rw [h1]; simp) hk
    exact ⟨h8 hk this.2, by rw [h6]; exact this.2⟩
  · exact h q (by rw [h1]; simp [hq]) hk

omit [DecidableEq F] in
theorem retryable_configured (env : Env G F) (s : S F) (i : Info) (v : Json F) (n : Name) :
    Configured env (retryable env s i v n : Task G F) := by
  rw [retryable]
  trivial

omit [DecidableEq F] in
theorem onError_configured (env : Env G F) (s : S F) (e : Fail) (v : Json F) :
    Configured env (onError env s e v : Task G F) := by
  rw [onError]
  split <;> first | trivial | exact retryable_configured env s _ _ _

theorem fruitless_step {env : Env G F} (hb : PlainBranches env) {s : S F} (hf : FirstAttempts s)
    (hi : NoneSucceeded env s) {b : Bool} {t : Task G F} {ret : Option (Option (Json F))}
    (hc : Configured env t) (hr : b = true → ret = some none ∨ ret = none ∧ Early t) :
    NoneSucceeded env (step env s ret t).1 ∧ Fruitless env b (step env s ret t).2 := by
  have failed : ∀ (e : Fail) (v : Json F), Fruitless env b (failWith e v ret : Proc G F) := by
    intro e v
    refine .task b _ ret trivial (fun h => ?_)
    rcases hr h with h | h
    · exact Or.inl h
    · exact Or.inr ⟨h.1, trivial⟩
  cases t with
  | run name v prev parent =>
    rw [step, stepRun.eq_def]
    split
    · exact ⟨hi, failed _ _⟩
    next c hcf =>
      split
      · exact ⟨hi, failed _ _⟩
      next w _ =>
        dsimp only
        have hnew : ∀ log, NoneSucceeded env ⟨s.exec.enter (newRec name c w prev (env.now s.log)), log⟩ := by
          intro log r hr hk
          simp only [Exec.enter, List.mem_append, List.mem_singleton] at hr
          rcases hr with hr | rfl
          · exact hi r hr hk
          · refine ⟨by simp [newRec], ?_⟩
            cases parent with
            | none => exact ⟨c, config_top hcf, hk⟩
            | some p =>
              have hk : c.kind = .parallel := hk
              rcases config_child hb hcf with h | h <;> rw [h] at hk <;> cases hk
        by_cases hsv : env.save s.log (s.exec.enter (newRec name c w prev (env.now s.log))) = true
        · rw [save_true (s := ⟨s.exec.enter (newRec name c w prev (env.now s.log)), s.log⟩) hsv]
          exact ⟨hnew _, .task b _ ret hcf hr⟩
        · rw [save_false (s := ⟨s.exec.enter (newRec name c w prev (env.now s.log)), s.log⟩) hsv]
          exact ⟨hnew _, failed _ _⟩
  | exec name r c v parent =>
    have finish : ∀ o, c.kind ≠ .parallel →
        Fruitless env b (.task (.finish name parent c r v o) ret : Proc G F) := by
      intro o hk
      refine .task b _ ret ?_ hr
      rintro rfl
      exact ⟨config_top hc, hk⟩
    have stub : ∀ k, c.kind = k → k ≠ .executeStep → k ≠ .wait → b = true →
        ret.getD (some (Json.obj [])) = none := by
      intro k hk h1 h2 h
      rcases hr h with h | h
      · rw [h]; rfl
      · exfalso
        cases parent with
        | none => exact h.2 rfl
        | some p =>
          rcases config_child hb hc with h' | h'
          · exact h1 (hk.symm.trans h')
          · exact h2 (hk.symm.trans h')
    rw [step, stepExec]
    split
    next hk =>
      have hk' : c.kind ≠ .parallel := by rw [hk]; simp
      rw [stepStep]
      split
      · split
        · exact ⟨hi, failed _ _⟩
        · exact ⟨hi, .crashed b⟩
        · refine ⟨hi.same rfl, ?_⟩
          dsimp only
          split
          · exact finish _ hk'
          · exact failed _ _
          · exact .crashed b
      · exact ⟨hi, failed _ _⟩
    next hk =>
      rw [stepParallel]
      split
      · exact ⟨hi, failed _ _⟩
      · exact ⟨hi, failed _ _⟩
      next bs hne _ =>
        refine ⟨hi, .join b _ _ ?_ ?_ ?_⟩
        · intro h
          rcases hr h with h | h
          · exact h
          · exfalso
            cases parent with
            | none => exact h.2 rfl
            | some p =>
              rcases config_child hb hc with h' | h' <;> rw [h'] at hk <;> cases hk
        · intro h
          rw [List.map_eq_nil_iff] at h
          exact hne h
        · intro p hp
          rw [List.mem_map] at hp
          obtain ⟨br, _, he⟩ := hp
          subst he
          split
          · exact .task true _ none trivial (fun _ => Or.inr ⟨rfl, by simp [Early]⟩)
          · exact .done true _ (fun _ => rfl)
    next hk =>
      have hk' : c.kind ≠ .parallel := by rw [hk]; simp
      rw [stepWait]
      split
      · exact ⟨hi, failed _ _⟩
      · split
        · exact ⟨hi, failed _ _⟩
        · exact ⟨hi.same rfl, finish _ hk'⟩
    next hk => exact ⟨hi, .done b _ (stub _ hk (by simp) (by simp))⟩
    next hk => exact ⟨hi, .done b _ (stub _ hk (by simp) (by simp))⟩
    next hk => exact ⟨hi, .done b _ (stub _ hk (by simp) (by simp))⟩
    next hk => exact ⟨hi, .done b _ (stub _ hk (by simp) (by simp))⟩
    · exact ⟨hi, failed _ _⟩
  | finish name parent c r v o =>
    rw [step, stepFinish]
    split
    · exact ⟨hi, failed _ _⟩
    next final _ =>
      split
      · exact ⟨hi, .crashed b⟩
      next q states hu =>
        have hp := (updRec_some hf.2 hu).1
        have hnew := fun e log he => hi.update hf.2 hu (by
          intro hp q hq
          refine ⟨rfl, rfl, ?_⟩
          rintro _ ⟨c', hl, hk⟩
          obtain ⟨h1, h2⟩ := hc hp
          rw [hq, h1] at hl
          injection hl with hl
          rw [← hl] at hk
          exact absurd hk h2) e log he
        have hlate : b = true → ret = some none := by
          intro h
          rcases hr h with h | h
          · exact h
          · exact absurd hp h.2
        by_cases hsv : env.save s.log { s.exec with states := states } = true
        · rw [save_true (s := ⟨{ s.exec with states := states }, s.log⟩) hsv]
          dsimp only
          split
          · refine ⟨hnew _ _ rfl, .task b _ _ trivial (fun h => Or.inl ?_)⟩
            rw [hlate h]
            rfl
          · split
            · exact ⟨hnew _ _ rfl, .task b _ _ trivial (fun h => Or.inl (hlate h))⟩
            · exact ⟨hnew _ _ rfl, failed _ _⟩
        · rw [save_false (s := ⟨{ s.exec with states := states }, s.log⟩) hsv]
          exact ⟨hnew _ _ rfl, failed _ _⟩
  | complete v final =>
    have hlate : b = true → ret = some none := fun h => (hr h).resolve_right (fun h => h.2)
    rw [step, stepComplete]
    by_cases hsv : env.save s.log (s.succeeded env) = true
    · rw [save_true (s := ⟨s.succeeded env, s.log⟩) hsv]
      refine ⟨hi.same rfl, .done b _ (fun h => ?_)⟩
      rw [hlate h]
      rfl
    · rw [save_false (s := ⟨s.succeeded env, s.log⟩) hsv]
      exact ⟨hi.same rfl, failed _ _⟩
  | fail e v =>
    rw [step]
    refine ⟨hi, .task b _ _ (onError_configured env s e v) (fun h => Or.inl ?_)⟩
    rcases hr h with h | h
    · rw [h]; rfl
    · rw [h.1]; rfl
  | record info name persist continues after =>
    have hlate : b = true → ret = some none := fun h => (hr h).resolve_right (fun h => h.2)
    rw [step, stepRecord]
    dsimp only
    split
    · refine ⟨hi.same ?_, .crashed b⟩
      exact record_states s info name continues
    next q states hu =>
      rw [record_states] at hu
      refine ⟨hi.update hf.2 hu ?_ _ _ rfl, .task b _ _ trivial (fun h => Or.inl (hlate h))⟩
      intro _ q _
      exact ⟨rfl, rfl, fun _ _ => by simp [Rec.fail]⟩
  | persist e r persist continues after =>
    have hlate : b = true → ret = some none := fun h => (hr h).resolve_right (fun h => h.2)
    rw [step, stepPersist]
    refine ⟨hi.same ?_, .task b _ _ trivial (fun h => Or.inl (hlate h))⟩
    dsimp only
    split
    · rw [save_exec]
    · rfl
  | announce e r continues after =>
    have hlate : b = true → ret = some none := fun h => (hr h).resolve_right (fun h => h.2)
    rw [step, stepAnnounce]
    refine ⟨hi.same ?_, .task b _ _ trivial (fun h => Or.inl (hlate h))⟩
    dsimp only
    split <;> rfl
  | next after =>
    have hlate : b = true → ret = some none := fun h => (hr h).resolve_right (fun h => h.2)
    have hdone : b = true → ret.getD none = none := fun h => by rw [hlate h]; rfl
    rw [step, stepNext.eq_def]
    split
    · exact ⟨hi, .done b _ hdone⟩
    · split
      · exact ⟨hi, .crashed b⟩
      · exact ⟨hi.same rfl, .task b _ _ trivial (fun h => Or.inl (hlate h))⟩
    · split
      · exact ⟨hi, .done b _ hdone⟩
      · split
        · exact ⟨hi, .task b _ _ trivial (fun h => Or.inl (hlate h))⟩
        · exact ⟨hi, .task b _ _ trivial (fun h => Or.inl (hlate h))⟩

theorem reach_fruitless {env : Env G F} (hb : PlainBranches env) {input : Json F} {c : S F × Proc G F}
    (h : Reach env input c) : NoneSucceeded env c.1 ∧ Fruitless env false c.2 := by
  have key : ∀ c c', Step env c c' → ∀ b, FirstAttempts c.1 → NoneSucceeded env c.1 →
      Fruitless env b c.2 → NoneSucceeded env c'.1 ∧ Fruitless env b c'.2 := by
    intro c c' hs
    induction hs with
    | task s t ret =>
      intro b hf hi hp
      cases hp with
      | task _ _ _ hc hr => exact fruitless_step hb hf hi hc hr
    | branch s s' j before after p p' _ ih =>
      intro b hf hi hp
      cases hp with
      | join _ _ _ hj hne hbs =>
        obtain ⟨h1, h2⟩ := ih true hf hi (hbs p (by simp))
        refine ⟨h1, .join b j _ hj (by simp) ?_⟩
        intro q hq
        simp only [List.mem_append, List.mem_cons] at hq
        rcases hq with hq | rfl | hq
        · exact hbs q (by simp [hq])
        · exact h2
        · exact hbs q (by simp [hq])
    | joined s j branches results hres =>
      intro b hf hi hp
      refine ⟨hi, ?_⟩
      cases hp with
      | join _ _ _ hj hne hbs =>
        cases branches with
        | nil => exact absurd rfl hne
        | cons p rest =>
          cases results with
          | nil => cases hres
          | cons x xs =>
            injection hres with hx _
            have hnone : x = none := by
              have hp := hbs p (by simp)
              cases hp with
              | task => cases hx
              | join => cases hx
              | done _ v hv => rw [result, hv rfl] at hx; injection hx with hx; exact hx.symm
              | crashed => injection hx with hx; exact hx.symm
            dsimp only
            rw [joined, hnone, if_neg (by simp)]
            exact .task b _ _ trivial (fun h => Or.inl (hj h))
  induction h with
  | start => exact ⟨by intro r hr; simp [initial, Workflow.start] at hr,
      .task false _ _ trivial (fun h => by cases h)⟩
  | step c c' hr hs ih => exact key c c' hs false (reach_first (s := c.1) (p := c.2) hr).1 ih.1 ih.2

/-- A parallel state whose branches consist of steps and waits never succeeds, whatever the handlers
do. -/
theorem parallel_never_succeeds {env : Env G F} (hb : PlainBranches env) {input : Json F} {s : S F}
    {p : Proc G F} (h : Reach env input (s, p)) :
    ∀ r ∈ s.exec.states, r.kind = .parallel → r.status ≠ .succeeded := by
  intro r hr hk
  exact ((reach_fruitless hb h).1 r hr hk).1

/-- C83 as stated, for a workflow of a single parallel state with branches of a single step each: if
the handlers succeed, the state succeeds. -/
def FullParallel : Prop :=
  ∀ (env : Env (Option Int) Int) (input : Json Int) (bs : List (Name × List (Name × State (Option Int)))),
    bs ≠ [] → env.states = [(env.startAt, { kind := .parallel, branches := some bs, isEnd := some true })] →
    (∀ b ∈ bs, b.2 = [(b.1, { kind := .executeStep, isEnd := some true })]) →
    (∀ n, env.hasHandler n = true) → (∀ log n v, ∃ w, env.handler log n v = .ok w) →
    (∀ log e, env.save log e = true) →
    ∀ s v, Reach env input (s, .done v) →
      ∃ r ∈ s.exec.states, r.kind = .parallel ∧ r.status = .succeeded

/-- A parallel state with one branch. -/
def forking : State (Option Int) :=
  { kind := .parallel, branches := some [(['b'], [(['b'], single)])], isEnd := some true }

/-- A workflow of that state. -/
def parallelEnv : Env (Option Int) Int := demoEnv [(['a'], forking)] (fun _ _ v => .ok v)

theorem parallel_plain : PlainBranches parallelEnv := by
  intro n c h b hb m d hd
  simp only [parallelEnv, demoEnv, List.mem_cons, List.not_mem_nil, or_false, Prod.mk.injEq] at h
  rw [h.2] at hb
  simp only [forking, Option.getD_some, List.mem_cons, List.not_mem_nil, or_false] at hb
  rw [hb] at hd
  simp only [List.mem_cons, List.not_mem_nil, or_false, Prod.mk.injEq] at hd
  rw [hd.2]
  exact Or.inl rfl

theorem parallel_ends : ∃ s v, Reach parallelEnv .null (s, .done v) := by
  have h0 : ∃ s j, Reach parallelEnv .null
      (s, .join j [.task (.run ['b'] .null none (some ['a'])) none]) ∧
      j = ⟨['a'], ⟨['a'], .parallel, none, .null, .inProgress, 1, none, [], none, none, 0, none⟩,
        forking, .null, none⟩ ∧ ∃ log, s = ⟨(initial .null).enter
          ⟨['a'], .parallel, none, .null, .inProgress, 1, none, [], none, none, 0, none⟩, log⟩ :=
    ⟨_, _, reach_start parallelEnv .null 2, rfl, _, rfl⟩
  obtain ⟨s, j, h, hj, log, hs⟩ := h0
  subst hs hj
  have h1 := Reach.step _ _ h (.branch _ _ _ [] [] _ _ (.task _ _ _))
  have h2 := Reach.step _ _ h1 (.branch _ _ _ [] [] _ _ (.task _ _ _))
  have h3 := Reach.step _ _ h2 (.branch _ _ _ [] [] _ _ (.task _ _ _))
  have h4 := Reach.step _ _ h3 (.joined _ _ _ [none] rfl)
  exact ⟨_, _, reach_runN _ _ 5 _ h4⟩

/-- A parallel state does not succeed although its branches do. -/
theorem parallel_violated : ¬ FullParallel := by
  intro h
  obtain ⟨s, v, hr⟩ := parallel_ends
  obtain ⟨r, h1, h2, h3⟩ := h parallelEnv .null [(['b'], [(['b'], single)])] (by simp) rfl
    (by
      intro b hb
      simp only [List.mem_cons, List.not_mem_nil, or_false] at hb
      rw [hb]
      rfl)
    (fun _ => rfl) (fun _ _ v => ⟨v, rfl⟩) (fun _ _ => rfl) s v hr
  exact parallel_never_succeeds parallel_plain hr r h1 h2 h3

/-- A parallel state goes on only when all its branches have ended; if all of them returned a value,
it goes on with the list of the values in the order of the branches, and otherwise it fails. -/
theorem join_partial {env : Env G F} {s s' : S F} {j : Joining G F} {bs : List (Proc G F)}
    {p : Proc G F} (h : Step env (s, .join j bs) (s', p)) :
    (∃ bs', p = .join j bs' ∧ bs'.length = bs.length) ∨
    s' = s ∧ (∀ q ∈ bs, q = .crashed ∨ ∃ v, q = .done v) ∧
      ((∃ vs, bs = vs.map (fun v => .done (some v)) ∧
        p = .task (.finish j.name none j.c j.r j.input (.arr vs)) j.ret) ∨
      (∃ q ∈ bs, q = .crashed ∨ q = .done none) ∧ ∃ e, p = .task (.fail e j.input) j.ret ∧
        e.kind = .branchesFailed ∧ e.info.state = j.name) := by
  cases h with
  | branch _ _ _ before after q q' _ => exact Or.inl ⟨_, rfl, by simp⟩
  | joined _ _ _ results hres =>
    refine Or.inr ⟨rfl, ?_, ?_⟩
    · intro q hq
      have : result q ∈ results.map some := by rw [← hres]; exact List.mem_map.2 ⟨q, hq, rfl⟩
      obtain ⟨v, _, hv⟩ := List.mem_map.1 this
      cases q with
      | task => cases hv
      | join => cases hv
      | done v => exact Or.inr ⟨v, rfl⟩
      | crashed => exact Or.inl rfl
    · rw [joined]
      by_cases hall : results.all Option.isSome = true
      · rw [if_pos hall]
        refine Or.inl ⟨results.filterMap id, ?_, rfl⟩
        induction bs generalizing results with
        | nil =>
          cases results with
          | nil => rfl
          | cons => cases hres
        | cons q bs ih =>
          cases results with
          | nil => cases hres
          | cons x xs =>
            injection hres with h1 h2
            simp only [List.all_cons, Bool.and_eq_true] at hall
            cases x with
            | none => cases hall.1
            | some v =>
              have hq : q = .done (some v) := by
                cases q with
                | task => cases h1
                | join => cases h1
                | done w => injection h1 with h1; rw [h1]
                | crashed => injection h1 with h1; cases h1
              rw [ih xs h2 hall.2, hq]
              simp
      · rw [if_neg hall]
        refine Or.inr ⟨?_, _, rfl, rfl, rfl⟩
        have : ∃ x ∈ results, x = none := by
          apply Classical.byContradiction
          intro hn
          apply hall
          rw [List.all_eq_true]
          intro x hx
          cases x with
          | none => exact absurd ⟨none, hx, rfl⟩ hn
          | some => rfl
        obtain ⟨x, hx, hn⟩ := this
        have : some x ∈ bs.map result := by rw [hres]; exact List.mem_map.2 ⟨x, hx, rfl⟩
        obtain ⟨q, hq, hr⟩ := List.mem_map.1 this
        refine ⟨q, hq, ?_⟩
        rw [hn] at hr
        cases q with
        | task => cases hr
        | join => cases hr
        | done w => injection hr with hr; rw [hr]; exact Or.inr rfl
        | crashed => exact Or.inl rfl

/-- Two branches that returned values. -/
example (j : Joining (Option Int) Int) (s : S Int) :
    Step parallelEnv (s, .join j [.done (some (.int 1)), .done (some (.int 2))])
      (s, .task (.finish j.name none j.c j.r j.input (.arr [.int 1, .int 2])) j.ret) :=
  .joined s j _ [some (.int 1), some (.int 2)] rfl

end Verif.Workflow
