import Verif.Workflow.RunProps

/-!
# When states and executions ended, and what transitions show of the past

C127 and C128.
-/

namespace Verif.Workflow

variable {G F : Type} [DecidableEq F]

/-! ## C127: times of completion -/

/-- C127 as stated: all states and all executions that ended say when. -/
def FullTimes : Prop :=
  ∀ (env : Env (Option Int) Int) (input : Json Int) (s : S Int) (p : Proc (Option Int) Int),
    Clock env → Reach env input (s, p) →
    (∀ x ∈ s.log, ∀ r ∈ shown x, SaysWhen r) ∧ ∀ e ∈ completions s.log, EndsAfter e

/-- A single step that fails. -/
def failedEnv : Env (Option Int) Int := demoEnv [(['a'], single)] (fun _ _ _ => .err boom)

/-- An execution that failed does not say when. -/
theorem times_violated : ¬ FullTimes := by
  intro h
  obtain ⟨_, t, ht, _⟩ := (h failedEnv .null _ _ (fun _ _ => Int.le_refl _)
    (reach_start _ _ 6)).2
    ⟨.null, none, .failed, .error ['a'] ['E'] (.handler ['E'] ['m']), some ['a'],
      [⟨['a'], .executeStep, none, .null, .failed, 1, some (['a'], ['E'], .handler ['E'] ['m']), [],
        none, none, 0, some 0⟩], none, some 0⟩
    (List.mem_cons_self ..)
  cases ht

/-- A record is in order at a time. -/
def Timed (now : Int) (r : Rec F) : Prop :=
  r.started ≤ now ∧ SaysWhen r ∧ ∀ u, r.completed = some u → u ≤ now

/-- Execution that ended, one way or the other. -/
def Finished (e : Exec F) : Prop :=
  e.duration.isSome ∧ (e.status = .failed ∨ e.status = .succeeded ∧ EndsAfter e)

/-- An entry of the log is in order at a time. -/
def TimedEntry (now : Int) (x : Entry F) : Prop :=
  (∀ r ∈ shown x, Timed now r) ∧ ∀ e, x = .event (.complete e) → Finished e

/-- The execution and the log are in order. -/
def TimedS (env : Env G F) (s : S F) : Prop :=
  Flat s.exec.states ∧ (∀ r ∈ s.exec.states, Timed (env.now s.log) r) ∧
    ∀ x ∈ s.log, TimedEntry (env.now s.log) x

/-- A copy of an execution that is going to be announced is in order. -/
def TimedCopy (now : Int) (e : Exec F) (r : Rec F) (continues : Bool) : Prop :=
  (∀ q ∈ e.states, Timed now q) ∧ Timed now r ∧
    (continues = false → e.duration.isSome ∧ e.status = .failed)

/-- What tasks know. -/
def TimedT (now : Int) : Task G F → Prop
  | .run _ _ prev _ => ∀ q, prev = some q → Timed now q
  | .exec _ r _ _ _ => Timed now r
  | .finish _ _ _ r _ _ => Timed now r
  | .persist e r _ continues _ => TimedCopy now e r continues
  | .announce e r continues _ => TimedCopy now e r continues
  | _ => True

section
omit [DecidableEq F]

theorem Timed.mono {now now' : Int} (h : now ≤ now') {r : Rec F} (hr : Timed now r) :
    Timed now' r :=
  ⟨Int.le_trans hr.1 h, hr.2.1, fun u hu => Int.le_trans (hr.2.2 u hu) h⟩

theorem TimedEntry.mono {now now' : Int} (h : now ≤ now') {x : Entry F} (hx : TimedEntry now x) :
    TimedEntry now' x := ⟨fun r hr => (hx.1 r hr).mono h, hx.2⟩

theorem TimedT.mono {now now' : Int} (h : now ≤ now') {t : Task G F} (ht : TimedT now t) :
    TimedT now' t := by
  cases t with
  | run => exact fun q hq => (ht q hq).mono h
  | exec => exact Timed.mono h ht
  | finish => exact Timed.mono h ht
  | persist => exact ⟨fun q hq => (ht.1 q hq).mono h, ht.2.1.mono h, ht.2.2⟩
  | announce => exact ⟨fun q hq => (ht.1 q hq).mono h, ht.2.1.mono h, ht.2.2⟩
  | _ => trivial

/-- A log that gets another entry. -/
theorem TimedS.cons {env : Env G F} (hc : Clock env) {s : S F} (h : TimedS env s) {e : Exec F}
    {x : Entry F} (hf : Flat e.states) (he : ∀ r ∈ e.states, Timed (env.now s.log) r)
    (hx : TimedEntry (env.now s.log) x) : TimedS env ⟨e, x :: s.log⟩ := by
  refine ⟨hf, fun r hr => (he r hr).mono (hc _ _), ?_⟩
  intro y hy
  rcases List.mem_cons.1 hy with hy | hy
  · rw [hy]; exact hx.mono (hc _ _)
  · exact (h.2.2 y hy).mono (hc _ _)

theorem timedEntry_plain {now : Int} {x : Entry F} (h : shown x = [])
    (hx : ∀ e, x ≠ .event (.complete e)) : TimedEntry now x :=
  ⟨by rw [h]; simp, fun e he => absurd he (hx e)⟩

theorem timed_update {now : Int} {f : Rec F → Rec F} (hp : ∀ r : Rec F, (f r).parallel = r.parallel)
    (hf : ∀ r, Timed now r → Timed now (f r)) {name : Name} {parent : Option Name}
    {rs rs' : List (Rec F)} {r : Rec F} (hfl : Flat rs) (h : ∀ r ∈ rs, Timed now r)
    (hu : updRec f name parent rs = some (r, rs')) :
    Timed now r ∧ Flat rs' ∧ ∀ r ∈ rs', Timed now r := by
  obtain ⟨_, before, old, after, h1, _, _, h2, h3⟩ := updRec_some hfl hu
  subst h1 h2 h3
  have ho := hf old (h old (by simp))
  refine ⟨ho, ?_, ?_⟩
  · intro q hq
    simp only [List.mem_append, List.mem_cons] at hq
    rcases hq with hq | rfl | hq
    · exact hfl q (by simp [hq])
    · rw [hp]; exact hfl old (by simp)
    · exact hfl q (by simp [hq])
  · intro q hq
    simp only [List.mem_append, List.mem_cons] at hq
    rcases hq with hq | rfl | hq
    · exact h q (by simp [hq])
    · exact ho
    · exact h q (by simp [hq])

theorem flat_update {f : Rec F → Rec F} {name : Name} {parent : Option Name}
    {rs rs' : List (Rec F)} {r : Rec F} (hfl : Flat rs)
    (hu : updRec f name parent rs = some (r, rs')) (hp : ∀ r : Rec F, (f r).parallel = r.parallel) :
    Flat rs' := by
  obtain ⟨_, before, old, after, h1, _, _, h2, h3⟩ := updRec_some hfl hu
  subst h1 h2 h3
  intro q hq
  simp only [List.mem_append, List.mem_cons] at hq
  rcases hq with hq | rfl | hq
  · exact hfl q (by simp [hq])
  · rw [hp]; exact hfl old (by simp)
  · exact hfl q (by simp [hq])

theorem findRec_name {name : Name} {parent : Option Name} {rs : List (Rec F)} (hf : Flat rs)
    {r : Rec F} (h : findRec name parent rs = some r) : r.name = name := by
  cases parent with
  | some p => rw [findRec_child hf] at h; cases h
  | none => exact (findRec_none h).2

theorem findRec_mem {name : Name} {parent : Option Name} {rs : List (Rec F)} (hf : Flat rs)
    {r : Rec F} (h : findRec name parent rs = some r) : r ∈ rs := by
  cases parent with
  | some p => rw [findRec_child hf] at h; cases h
  | none => exact (findRec_none h).1

end


/-- All states that ended say when, and so do all executions that succeeded. Executions that failed say
at least how long they took. -/
theorem times_partial {env : Env G F} (hc : Clock env) {input : Json F} {s : S F} {p : Proc G F}
    (h : Reach env input (s, p)) :
    (∀ x ∈ s.log, ∀ r ∈ shown x, SaysWhen r) ∧ ∀ e ∈ completions s.log, e.duration.isSome ∧
      (e.status = .failed ∨ e.status = .succeeded ∧ EndsAfter e) := by
  suffices hs : TimedS env s by
    refine ⟨fun x hx r hr => ((hs.2.2 x hx).1 r hr).2.1, ?_⟩
    intro e he
    rw [completions, List.mem_filterMap] at he
    obtain ⟨x, hx, h⟩ := he
    cases x with
    | event ev =>
      cases ev with
      | complete e' => injection h with h; rw [← h]; exact (hs.2.2 _ hx).2 _ rfl
      | transition => cases h
      | failure => cases h
    | called => cases h
    | saved => cases h
    | notSaved => cases h
    | slept => cases h
  refine (invariant env input (TimedS env) (fun s t _ => TimedT (env.now s.log) t)
    (fun s j => Timed (env.now s.log) j.r)
    (fun s s' => env.now s.log ≤ env.now s'.log) (fun _ _ _ _ hl h => h.mono hl)
    (fun _ _ _ hl h => Timed.mono hl h)
    ⟨⟨by intro r hr; simp [initial] at hr, by intro r hr; simp [initial] at hr, by simp⟩,
      by intro q hq; cases hq⟩ ?_ ?_ h).1
  · intro s t ret hi ht
    have plain : ∀ x : Entry F, shown x = [] → (∀ e, x ≠ .event (.complete e)) →
        TimedS env ⟨s.exec, x :: s.log⟩ := fun x h1 h2 =>
      hi.cons hc hi.1 hi.2.1 (timedEntry_plain h1 h2)
    have le := Int.le_refl (env.now s.log)
    cases t with
    | run name v prev parent =>
      rw [step, stepRun.eq_def]
      split
      · exact ⟨hi, le, .task _ _ trivial⟩
      next c _ =>
        split
        · exact ⟨hi, le, .task _ _ trivial⟩
        next w _ =>
          dsimp only
          have hr : Timed (env.now s.log) (newRec name c w prev (env.now s.log)) :=
            ⟨Int.le_refl _, rfl, by intro u hu; cases hu⟩
          have he : ∀ r ∈ (s.exec.enter (newRec name c w prev (env.now s.log))).states,
              Timed (env.now s.log) r := by
            intro r hr'
            rcases List.mem_append.1 hr' with hr' | hr'
            · exact hi.2.1 r hr'
            · rw [List.mem_singleton.1 hr']; exact hr
          have hf : Flat (s.exec.enter (newRec name c w prev (env.now s.log))).states := by
            intro r hr'
            rcases List.mem_append.1 hr' with hr' | hr'
            · exact hi.1 r hr'
            · rw [List.mem_singleton.1 hr']; rfl
          by_cases hsv : env.save s.log (s.exec.enter (newRec name c w prev (env.now s.log))) = true
          · rw [save_true (s := ⟨s.exec.enter (newRec name c w prev (env.now s.log)), s.log⟩) hsv]
            have h1 := hi.cons hc (x := .saved (s.exec.enter (newRec name c w prev (env.now s.log))))
              hf he ⟨he, by intro e h; cases h⟩
            have h2 := h1.cons hc
              (x := .event (.transition prev (newRec name c w prev (env.now s.log)))) h1.1 h1.2.1
              ⟨by
                intro r hr'
                rcases List.mem_append.1 hr' with hr' | hr'
                · exact (ht r (Option.mem_toList.1 hr')).mono (hc _ _)
                · rw [List.mem_singleton.1 hr']; exact hr.mono (hc _ _),
              by intro e h; cases h⟩
            have hle := Int.le_trans (hc s.log (.saved
              (s.exec.enter (newRec name c w prev (env.now s.log))))) (hc _ (.event (.transition prev
                (newRec name c w prev (env.now s.log)))))
            exact ⟨h2, hle, .task _ _ (Timed.mono hle hr)⟩
          · rw [save_false (s := ⟨s.exec.enter (newRec name c w prev (env.now s.log)), s.log⟩) hsv]
            exact ⟨hi.cons hc hf he ⟨he, by intro e h; cases h⟩, hc _ _, .task _ _ trivial⟩
    | exec name r c v parent =>
      have ht : Timed (env.now s.log) r := ht
      rw [step, stepExec]
      split
      · rw [stepStep]
        split
        · split
          · exact ⟨hi, le, .task _ _ trivial⟩
          · exact ⟨hi, le, .crashed⟩
          · refine ⟨plain _ rfl nofun, hc _ _, ?_⟩
            dsimp only
            split
            · exact .task _ _ (ht.mono (hc _ _))
            · exact .task _ _ trivial
            · exact .crashed
        · exact ⟨hi, le, .task _ _ trivial⟩
      · rw [stepParallel]
        split
        · exact ⟨hi, le, .task _ _ trivial⟩
        · exact ⟨hi, le, .task _ _ trivial⟩
        · refine ⟨hi, le, .join _ _ ht ?_⟩
          intro p hp
          rw [List.mem_map] at hp
          obtain ⟨b, _, hb⟩ := hp
          subst hb
          split
          · exact .task _ _ nofun
          · exact .done _
      · rw [stepWait]
        split
        · exact ⟨hi, le, .task _ _ trivial⟩
        · split
          next e he => exact ⟨hi, le, .task _ _ trivial⟩
          next n hn => exact ⟨plain _ rfl nofun, hc _ _, .task _ _ (ht.mono (hc _ _))⟩
      · exact ⟨hi, le, .done _⟩
      · exact ⟨hi, le, .done _⟩
      · exact ⟨hi, le, .done _⟩
      · exact ⟨hi, le, .done _⟩
      · exact ⟨hi, le, .task _ _ trivial⟩
    | finish name parent c r v o =>
      have ht : Timed (env.now s.log) r := ht
      rw [step, stepFinish]
      split
      · exact ⟨hi, le, .task _ _ trivial⟩
      next final _ =>
        split
        · exact ⟨hi, le, .crashed⟩
        next q states hu =>
          obtain ⟨_, hf, he⟩ := timed_update (f := Rec.complete (env.now s.log) o final)
            (fun _ => rfl) (fun r hr => ⟨hr.1, ⟨_, rfl, hr.1⟩, by
              intro u hu; injection hu with hu; rw [← hu]; exact Int.le_refl _⟩) hi.1 hi.2.1 hu
          by_cases hsv : env.save s.log { s.exec with states := states } = true
          · rw [save_true (s := ⟨{ s.exec with states := states }, s.log⟩) hsv]
            have hi' : TimedS env (⟨{ s.exec with states := states },
                .saved { s.exec with states := states } :: s.log⟩ : S F) :=
              hi.cons hc hf he ⟨he, by intro e h; cases h⟩
            dsimp only
            split
            · refine ⟨hi', hc _ _, .task _ _ ?_⟩
              intro q hq
              injection hq with hq
              rw [← hq]
              exact ht.mono (hc _ _)
            · split <;> exact ⟨hi', hc _ _, .task _ _ trivial⟩
          · rw [save_false (s := ⟨{ s.exec with states := states }, s.log⟩) hsv]
            exact ⟨hi.cons hc hf he ⟨he, by intro e h; cases h⟩, hc _ _, .task _ _ trivial⟩
    | complete v final =>
      rw [step, stepComplete]
      by_cases hsv : env.save s.log (s.succeeded env) = true
      · rw [save_true (s := ⟨s.succeeded env, s.log⟩) hsv]
        have h1 := hi.cons hc (e := s.succeeded env) (x := .saved (s.succeeded env)) hi.1 hi.2.1
          ⟨hi.2.1, by intro e h; cases h⟩
        refine ⟨h1.cons hc (x := .event (.complete (s.succeeded env))) h1.1 h1.2.1 ⟨h1.2.1, ?_⟩,
          Int.le_trans (hc s.log (.saved (s.succeeded env))) (hc _ _), .done _⟩
        intro e he
        injection he with he
        injection he with he
        rw [← he]
        refine ⟨rfl, Or.inr ⟨rfl, rfl, _, rfl, ?_⟩⟩
        intro r hr
        exact ⟨(hi.2.1 r hr).1, (hi.2.1 r hr).2.2⟩
      · rw [save_false (s := ⟨s.succeeded env, s.log⟩) hsv]
        exact ⟨hi.cons hc hi.1 hi.2.1 ⟨hi.2.1, by intro e h; cases h⟩, hc _ _, .task _ _ trivial⟩
    | fail e v =>
      rw [step]
      refine ⟨hi, le, .task _ _ ?_⟩
      rw [onError]
      split <;> trivial
    | record info name persist continues after =>
      rw [step, stepRecord]
      dsimp only
      have hst : ∀ d, (if continues = true then s.exec else s.failed env d).states =
          s.exec.states := by
        intro d
        split <;> rfl
      rw [hst]
      split
      · exact ⟨⟨by rw [Flat, hst]; exact hi.1, by rw [hst]; exact hi.2.1, hi.2.2⟩, le, .crashed⟩
      next r states hu =>
        obtain ⟨hr, hf, he⟩ := timed_update
          (f := Rec.fail (env.now s.log) (info.state, name, info.msg)) (fun _ => rfl)
          (fun r hr => ⟨hr.1, ⟨_, rfl, hr.1⟩, by
            intro u hu; injection hu with hu; rw [← hu]; exact Int.le_refl _⟩) hi.1 hi.2.1 hu
        refine ⟨⟨hf, he, hi.2.2⟩, le, .task _ _ ⟨he, hr, ?_⟩⟩
        intro hcont
        rw [hcont]
        exact ⟨rfl, rfl⟩
    | persist e r persist continues after =>
      have ht : TimedCopy (env.now s.log) e r continues := ht
      rw [step, stepPersist]
      dsimp only
      split
      · rw [S.save]
        split
        · exact ⟨hi.cons hc hi.1 hi.2.1 ⟨ht.1, by intro e h; cases h⟩, hc _ _, .task _ _
            (TimedT.mono (t := .announce e r continues after) (hc _ _) ht)⟩
        · exact ⟨hi.cons hc hi.1 hi.2.1 ⟨ht.1, by intro e h; cases h⟩, hc _ _, .task _ _
            (TimedT.mono (t := .announce e r continues after) (hc _ _) ht)⟩
      · exact ⟨hi, le, .task _ _ ht⟩
    | announce e r continues after =>
      have ht : TimedCopy (env.now s.log) e r continues := ht
      rw [step, stepAnnounce]
      dsimp only
      have h1 : TimedS env (s.send (.failure r)) := hi.cons hc hi.1 hi.2.1
        ⟨by intro q hq; rw [List.mem_singleton.1 hq]; exact ht.2.1, by intro e h; cases h⟩
      split
      · exact ⟨h1, hc _ _, .task _ _ trivial⟩
      next hcont =>
        refine ⟨h1.cons hc h1.1 h1.2.1 ⟨fun q hq => (ht.1 q hq).mono (hc _ _), ?_⟩,
          Int.le_trans (hc s.log (.event (.failure r))) (hc _ _), .task _ _ trivial⟩
        intro e' he
        injection he with he
        injection he with he
        rw [← he]
        obtain ⟨h2, h3⟩ := ht.2.2 (by simpa using hcont)
        exact ⟨h2, Or.inl h3⟩
    | next after =>
      rw [step, stepNext.eq_def]
      split
      · exact ⟨hi, le, .done _⟩
      · split
        · exact ⟨hi, le, .crashed⟩
        · refine ⟨plain _ rfl nofun, hc _ _, .task _ _ ?_⟩
          intro q hq
          exact (hi.2.1 q (findRec_mem hi.1 hq)).mono (hc _ _)
      · split
        · exact ⟨hi, le, .done _⟩
        · split
          · refine ⟨hi, le, .task _ _ ?_⟩
            intro q hq
            exact hi.2.1 q (findRec_mem hi.1 hq)
          · exact ⟨hi, le, .task _ _ trivial⟩
  · intro s j results _ hj
    rw [joined]
    split
    · exact .task _ _ hj
    · exact .task _ _ trivial

/-- No time of completion is recorded, or the execution was the last to do so. -/
def Untimed (s : S F) (p : Proc G F) : Prop :=
  (∀ e ∈ completions s.log, e.status = .failed → e.completed = none) ∧
    match p with
    | .task (.persist e _ _ _ _) _ => e.completed = none ∧ s.exec.completed = none
    | .task (.announce e _ _ _) _ => e.completed = none ∧ s.exec.completed = none
    | .task _ _ => s.exec.completed = none
    | _ => True

/-- If everything can be saved, no execution that fails says when. -/
theorem failed_untimed {env : Env G F} (hs : Sequential env)
    (hsv : ∀ log e, env.save log e = true) {input : Json F} {s : S F} {p : Proc G F}
    (h : Reach env input (s, p)) :
    ∀ e ∈ completions s.log, e.status = .failed → e.completed = none := by
  suffices hu : Untimed s p from hu.1
  have more : ∀ (x : Entry F) (log : List (Entry F)), (∀ e, x ≠ .event (.complete e)) →
      completions (x :: log) = completions log := by
    intro x log hx
    rw [completions, List.filterMap_cons]
    cases x with
    | event ev =>
      cases ev with
      | complete e => exact absurd rfl (hx e)
      | transition => rfl
      | failure => rfl
    | called => rfl
    | saved => rfl
    | notSaved => rfl
    | slept => rfl
  refine (seq_invariant hs input Untimed ⟨by simp [completions], rfl⟩ ?_ h).1
  intro s t ret _ hseq hP
  obtain ⟨hl, hP⟩ := hP
  have keep : ∀ x : Entry F, (∀ e, x ≠ .event (.complete e)) →
      ∀ e ∈ completions (x :: s.log), e.status = .failed → e.completed = none := by
    intro x hx
    rw [more x _ hx]
    exact hl
  cases t with
  | run name v prev parent =>
    rw [step, stepRun.eq_def]
    split
    · exact ⟨hl, hP⟩
    · split
      · exact ⟨hl, hP⟩
      · dsimp only
        rw [save_true (hsv _ _)]
        refine ⟨?_, hP⟩
        intro e he hf
        exact hl e he hf
  | exec name r c v parent =>
    rw [step, stepExec]
    split
    · rw [stepStep]
      split
      · split
        · exact ⟨hl, hP⟩
        · exact ⟨hl, trivial⟩
        · refine ⟨keep _ nofun, ?_⟩
          dsimp only
          split
          next he => split at he <;> cases he
          next he => split at he <;> cases he
          next => exact hP
          next => trivial
      · exact ⟨hl, hP⟩
    next hk => exact absurd hk (hs _ _ (lookup_mem hseq.2))
    · rw [stepWait]
      split
      · exact ⟨hl, hP⟩
      · split
        · exact ⟨hl, hP⟩
        · exact ⟨keep _ nofun, hP⟩
    · exact ⟨hl, trivial⟩
    · exact ⟨hl, trivial⟩
    · exact ⟨hl, trivial⟩
    · exact ⟨hl, trivial⟩
    · exact ⟨hl, hP⟩
  | finish name parent c r v o =>
    rw [step, stepFinish]
    split
    · exact ⟨hl, hP⟩
    · split
      · exact ⟨hl, trivial⟩
      next q states hu =>
        rw [save_true (hsv _ _)]
        dsimp only
        split
        · exact ⟨keep _ nofun, hP⟩
        · split <;> exact ⟨keep _ nofun, hP⟩
  | complete v final =>
    rw [step, stepComplete]
    rw [save_true (hsv _ _)]
    refine ⟨?_, trivial⟩
    intro e he hf
    rcases List.mem_cons.1 he with he | he
    · rw [he] at hf; cases hf
    · exact keep (.saved (s.succeeded env)) nofun e he hf
  | fail e v =>
    rw [step]
    refine ⟨hl, ?_⟩
    cases hk : e.kind <;> simp only [onError, hk, retryable] <;> exact hP
  | record info name persist continues after =>
    rw [step, stepRecord]
    dsimp only
    have hn : ∀ d, (if continues = true then s.exec else s.failed env d).completed = none := by
      intro d
      split <;> exact hP
    split
    · exact ⟨hl, trivial⟩
    · exact ⟨hl, hn _, hn _⟩
  | persist e r persist continues after =>
    rw [step, stepPersist]
    dsimp only
    split
    · rw [save_true (hsv _ _)]
      exact ⟨keep _ nofun, hP⟩
    · exact ⟨hl, hP⟩
  | announce e r continues after =>
    rw [step, stepAnnounce]
    dsimp only
    split
    · exact ⟨keep _ nofun, hP.2⟩
    · refine ⟨?_, hP.2⟩
      intro e' he hf
      rcases List.mem_cons.1 he with he | he
      · rw [he]; exact hP.1
      · exact keep (.event (.failure r)) nofun e' he hf
  | next after =>
    rw [step, stepNext.eq_def]
    split
    · exact ⟨hl, trivial⟩
    · split
      · exact ⟨hl, trivial⟩
      · exact ⟨keep _ nofun, hP⟩
    · split
      · exact ⟨hl, trivial⟩
      · split <;> exact ⟨hl, hP⟩

/-! ## C128: what transitions show of the past -/

/-- C128 as stated. -/
def FullPrevious : Prop :=
  ∀ (env : Env (Option Int) Int) (input : Json Int) (s : S Int) (p : Proc (Option Int) Int),
    Sequential env → Reach env input (s, p) → Events ShowsPrevious s.log

/-- Of an ordinary step the transition to the next shows that it is in progress. -/
theorem previous_violated : ¬ FullPrevious := by
  intro h
  have := h twoEnv (.int 1) _ _ (by
    intro n c hc
    simp only [twoEnv, demoEnv, List.mem_cons, List.not_mem_nil, or_false, Prod.mk.injEq] at hc
    rcases hc with hc | hc
    · rw [hc.2]; nofun
    · rw [hc.2]; nofun) (reach_start _ _ 4) [] (.transition
      (some ⟨['a'], .executeStep, none, .int 1, .inProgress, 1, none, [], none, none, 0, none⟩)
      ⟨['b'], .executeStep, none, .int 2, .inProgress, 1, none, [], none, none, 0, none⟩) _ rfl
  exact this.2 _ rfl rfl

/-- As recorded when the state was entered. -/
def Fresh (r : Rec F) : Prop :=
  r.status = .inProgress ∧ r.output = none ∧ r.rawOutput = none ∧ r.completed = none

/-- Of a state that is not tried again, the transition to another shows nothing of how it ended. -/
theorem previous_fresh {env : Env G F} {input : Json F} {s : S F} {p : Proc G F}
    (h : Reach env input (s, p)) (q r : Rec F)
    (hx : .event (.transition (some q) r) ∈ s.log) (hn : q.name ≠ r.name) :
    q.status = .inProgress ∧ q.output = none ∧ q.rawOutput = none ∧ q.completed = none := by
  suffices hs : Flat s.exec.states ∧ ∀ q r, .event (.transition (some q) r) ∈ s.log →
      q.name ≠ r.name → Fresh q from hs.2 q r hx hn
  clear hx hn q r
  refine (invariant env input
    (fun s => Flat s.exec.states ∧ ∀ q r, .event (.transition (some q) r) ∈ s.log →
      q.name ≠ r.name → Fresh q)
    (fun _ t _ => match t with
      | .run name _ prev _ => ∀ q, prev = some q → q.name ≠ name → Fresh q
      | .exec _ r _ _ _ => Fresh r
      | .finish _ _ _ r _ _ => Fresh r
      | _ => True) (fun _ j => Fresh j.r)
    (fun _ _ => True) (fun _ _ _ _ _ h => h) (fun _ _ _ _ h => h)
    ⟨⟨by intro r hr; simp [initial] at hr, by simp⟩, by intro q hq; cases hq⟩ ?_ ?_ h).1
  · intro s t ret hi ht
    have keep : ∀ x : Entry F, (∀ q r, x ≠ .event (.transition (some q) r)) →
        ∀ q r, .event (.transition (some q) r) ∈ x :: s.log → q.name ≠ r.name → Fresh q := by
      intro x hx q r hm
      rcases List.mem_cons.1 hm with hm | hm
      · exact absurd hm.symm (hx q r)
      · exact hi.2 q r hm
    cases t with
    | run name v prev parent =>
      rw [step, stepRun.eq_def]
      split
      · exact ⟨hi, trivial, .task _ _ trivial⟩
      next c _ =>
        split
        · exact ⟨hi, trivial, .task _ _ trivial⟩
        next w _ =>
          dsimp only
          have hf : Flat (s.exec.enter (newRec name c w prev (env.now s.log))).states := by
            intro r hr'
            rcases List.mem_append.1 hr' with hr' | hr'
            · exact hi.1 r hr'
            · rw [List.mem_singleton.1 hr']; rfl
          by_cases hsv : env.save s.log (s.exec.enter (newRec name c w prev (env.now s.log))) = true
          · rw [save_true (s := ⟨s.exec.enter (newRec name c w prev (env.now s.log)), s.log⟩) hsv]
            refine ⟨⟨hf, ?_⟩, trivial, .task _ _ ⟨rfl, rfl, rfl, rfl⟩⟩
            intro q r hm hn
            rcases List.mem_cons.1 hm with hm | hm
            · injection hm with hm
              injection hm with hm1 hm2
              rw [hm2] at hn
              exact ht q hm1.symm hn
            · exact keep (.saved _) nofun q r hm hn
          · rw [save_false (s := ⟨s.exec.enter (newRec name c w prev (env.now s.log)), s.log⟩) hsv]
            exact ⟨⟨hf, keep _ nofun⟩, trivial, .task _ _ trivial⟩
    | exec name r c v parent =>
      rw [step, stepExec]
      split
      · rw [stepStep]
        split
        · split
          · exact ⟨hi, trivial, .task _ _ trivial⟩
          · exact ⟨hi, trivial, .crashed⟩
          · refine ⟨⟨hi.1, keep _ nofun⟩, trivial, ?_⟩
            dsimp only
            split
            · exact .task _ _ ht
            · exact .task _ _ trivial
            · exact .crashed
        · exact ⟨hi, trivial, .task _ _ trivial⟩
      · rw [stepParallel]
        split
        · exact ⟨hi, trivial, .task _ _ trivial⟩
        · exact ⟨hi, trivial, .task _ _ trivial⟩
        · refine ⟨hi, trivial, .join _ _ ht ?_⟩
          intro p hp
          rw [List.mem_map] at hp
          obtain ⟨b, _, hb⟩ := hp
          subst hb
          split
          · exact .task _ _ nofun
          · exact .done _
      · rw [stepWait]
        split
        · exact ⟨hi, trivial, .task _ _ trivial⟩
        · split
          · exact ⟨hi, trivial, .task _ _ trivial⟩
          · exact ⟨⟨hi.1, keep _ nofun⟩, trivial, .task _ _ ht⟩
      · exact ⟨hi, trivial, .done _⟩
      · exact ⟨hi, trivial, .done _⟩
      · exact ⟨hi, trivial, .done _⟩
      · exact ⟨hi, trivial, .done _⟩
      · exact ⟨hi, trivial, .task _ _ trivial⟩
    | finish name parent c r v o =>
      have ht : Fresh r := ht
      rw [step, stepFinish]
      split
      · exact ⟨hi, trivial, .task _ _ trivial⟩
      · split
        · exact ⟨hi, trivial, .crashed⟩
        next q states hu =>
          have hf := flat_update hi.1 hu (fun _ => rfl)
          by_cases hsv : env.save s.log { s.exec with states := states } = true
          · rw [save_true (s := ⟨{ s.exec with states := states }, s.log⟩) hsv]
            dsimp only
            split
            · refine ⟨⟨hf, keep _ nofun⟩, trivial, .task _ _ ?_⟩
              intro q hq _
              injection hq with hq
              rw [← hq]
              exact ht
            · split <;> exact ⟨⟨hf, keep _ nofun⟩, trivial, .task _ _ trivial⟩
          · rw [save_false (s := ⟨{ s.exec with states := states }, s.log⟩) hsv]
            exact ⟨⟨hf, keep _ nofun⟩, trivial, .task _ _ trivial⟩
    | complete v final =>
      rw [step, stepComplete]
      by_cases hsv : env.save s.log (s.succeeded env) = true
      · rw [save_true (s := ⟨s.succeeded env, s.log⟩) hsv]
        refine ⟨⟨hi.1, ?_⟩, trivial, .done _⟩
        intro q r hm
        rcases List.mem_cons.1 hm with hm | hm
        · cases hm
        · exact keep (.saved (s.succeeded env)) nofun q r hm
      · rw [save_false (s := ⟨s.succeeded env, s.log⟩) hsv]
        exact ⟨⟨hi.1, keep _ nofun⟩, trivial, .task _ _ trivial⟩
    | fail e v =>
      rw [step]
      refine ⟨hi, trivial, .task _ _ ?_⟩
      cases hk : e.kind <;> simp only [onError, hk, retryable]
    | record info name persist continues after =>
      rw [step, stepRecord]
      dsimp only
      have hst : ∀ d, (if continues = true then s.exec else s.failed env d).states =
          s.exec.states := by
        intro d
        split <;> rfl
      rw [hst]
      split
      · exact ⟨⟨by rw [Flat, hst]; exact hi.1, hi.2⟩, trivial, .crashed⟩
      next r states hu => exact ⟨⟨flat_update hi.1 hu (fun _ => rfl), hi.2⟩, trivial, .task _ _ trivial⟩
    | persist e r persist continues after =>
      rw [step, stepPersist]
      refine ⟨?_, trivial, .task _ _ trivial⟩
      dsimp only
      split
      · rw [S.save]
        split <;> exact ⟨hi.1, keep _ nofun⟩
      · exact hi
    | announce e r continues after =>
      rw [step, stepAnnounce]
      refine ⟨?_, trivial, .task _ _ trivial⟩
      dsimp only
      split
      · exact ⟨hi.1, keep _ nofun⟩
      · refine ⟨hi.1, ?_⟩
        intro q r' hm
        rcases List.mem_cons.1 hm with hm | hm
        · cases hm
        · exact keep (.event (.failure r)) nofun q r' hm
    | next after =>
      rw [step, stepNext.eq_def]
      split
      · exact ⟨hi, trivial, .done _⟩
      · split
        · exact ⟨hi, trivial, .crashed⟩
        next info _ _ _ _ _ _ =>
          refine ⟨⟨hi.1, keep _ nofun⟩, trivial, .task _ _ ?_⟩
          intro q hq hn
          exact absurd (findRec_name hi.1 hq) hn
      · split
        · exact ⟨hi, trivial, .done _⟩
        · split
          · refine ⟨hi, trivial, .task _ _ ?_⟩
            intro q hq hn
            exact absurd (findRec_name hi.1 hq) hn
          · exact ⟨hi, trivial, .task _ _ trivial⟩
  · intro s j results _ hj
    rw [joined]
    split
    · exact .task _ _ hj
    · exact .task _ _ trivial

/-- The state that was entered last is recorded. -/
def Left (s : S F) (n : Name) : Prop :=
  Named s n ∧ (lastEntered s.log).map (·.name) = some n

/-- What follows after an error goes on with the state that was entered last. -/
def LeftAfter (s : S F) : After F → Prop
  | .retry i _ _ _ => Left s i.state
  | .catchErr _ _ rules => rules.getD [] = []
  | .stop => True

/-- What tasks know about the state that was entered last. -/
def LeftP (s : S F) : Proc G F → Prop
  | .task (.run _ _ prev _) _ => prev.map (·.name) = (lastEntered s.log).map (·.name)
  | .task (.exec name r _ _ _) _ => r.name = name ∧ Left s name
  | .task (.finish name _ _ r _ _) _ => r.name = name ∧ Left s name
  | .task (.fail e _) _ => Retryable e.kind → Left s e.info.state
  | .task (.record _ _ _ _ after) _ => LeftAfter s after
  | .task (.persist _ _ _ _ after) _ => LeftAfter s after
  | .task (.announce _ _ _ after) _ => LeftAfter s after
  | .task (.next after) _ => LeftAfter s after
  | _ => True

omit [DecidableEq F] in
theorem LeftAfter.same {s s' : S F} {a : After F} (h : LeftAfter s a)
    (hn : ∀ n, Named s n → Named s' n)
    (hl : (lastEntered s'.log).map (·.name) = (lastEntered s.log).map (·.name)) :
    LeftAfter s' a := by
  cases a with
  | stop => trivial
  | retry => exact ⟨hn _ h.1, hl ▸ h.2⟩
  | catchErr => exact h

omit [DecidableEq F] in
theorem named_update {f : Rec F → Rec F} {name : Name} {rs rs' : List (Rec F)} {r : Rec F}
    (hu : updRec f name none rs = some (r, rs')) (n : Name) (h : ∃ q ∈ rs, q.name = n)
    (hf : ∀ r : Rec F, (f r).name = r.name) : ∃ q ∈ rs', q.name = n := by
  rw [updRec] at hu
  obtain ⟨before, old, after, h1, _, _, h2, h3⟩ := updFirst_some hu
  subst h1 h2 h3
  obtain ⟨q, hq, hn⟩ := h
  simp only [List.mem_append, List.mem_cons] at hq
  rcases hq with hq | rfl | hq
  · exact ⟨q, by simp [hq], hn⟩
  · exact ⟨f q, by simp, by rw [hf]; exact hn⟩
  · exact ⟨q, by simp [hq], hn⟩

/-- Without parallel states and rules for errors to be caught, transitions name the state left. -/
theorem previous_partial {env : Env G F} (hs : Sequential env) (hc : NoCatch env) {input : Json F}
    {s : S F} {p : Proc G F} (h : Reach env input (s, p)) : Events NamesPrevious s.log := by
  have keep : ∀ (s : S F) (x : Entry F), (∀ q r, x ≠ .event (.transition q r)) →
      Events NamesPrevious s.log → Events NamesPrevious (x :: s.log) := by
    intro s x hx h
    refine h.cons ?_
    intro ev he
    cases ev with
    | transition q r => exact absurd he (hx q r)
    | failure => trivial
    | complete => trivial
  have none_after : ∀ (s : S F) (i : Info) (v : Json F), i.parent = none →
      LeftAfter s (.catchErr i v (catchersOf env i)) := by
    intro s i v hp
    rw [LeftAfter, hc.catchersOf hp]
    rfl
  refine (seq_invariant hs input (fun s p => Events NamesPrevious s.log ∧ LeftP s p)
    ⟨fun a b c h => (by cases a with
      | nil => cases h
      | cons => cases h), rfl⟩ ?_ h).1.1
  intro s t ret _ hseq ⟨hi, ht⟩
  cases t with
  | run name v prev parent =>
    obtain rfl : parent = none := hseq
    have ht : prev.map (·.name) = (lastEntered s.log).map (·.name) := ht
    rw [step, stepRun.eq_def]
    split
    next e he =>
      refine ⟨hi, ?_⟩
      intro hk
      rcases (config_error he).2.2 with h | h
      · exact absurd rfl h
      · rw [h] at hk; simp [Retryable] at hk
    next c _ =>
      split
      next e he =>
        refine ⟨hi, ?_⟩
        intro hk
        rw [(stateInput_error he).1] at hk
        simp [Retryable] at hk
      next w _ =>
        dsimp only
        by_cases hsv : env.save s.log (s.exec.enter (newRec name c w prev (env.now s.log))) = true
        · rw [save_true (s := ⟨s.exec.enter (newRec name c w prev (env.now s.log)), s.log⟩) hsv]
          refine ⟨?_, rfl, ⟨newRec name c w prev (env.now s.log), ?_, rfl⟩, rfl⟩
          · refine Events.cons (keep s _ nofun hi) ?_
            intro ev he
            injection he with he
            rw [← he]
            exact ht
          · simp [S.send, Exec.enter]
        · rw [save_false (s := ⟨s.exec.enter (newRec name c w prev (env.now s.log)), s.log⟩) hsv]
          refine ⟨keep s _ nofun hi, ?_⟩
          intro hk
          simp [Retryable] at hk
  | exec name r c v parent =>
    have ht : r.name = name ∧ Left s name := ht
    rw [step, stepExec]
    split
    · rw [stepStep]
      split
      · split
        next e he =>
          refine ⟨hi, ?_⟩
          intro hk
          rw [(templateErr_info _ _ _).1]
          exact ht.2
        · exact ⟨hi, trivial⟩
        · refine ⟨keep s _ nofun hi, ?_⟩
          dsimp only
          split
          · exact ht
          · exact fun _ => ht.2
          · trivial
      · exact ⟨hi, fun _ => ht.2⟩
    next hk => exact absurd hk (hs _ _ (lookup_mem hseq.2))
    · rw [stepWait]
      split
      · exact ⟨hi, fun _ => ht.2⟩
      · split
        next e he =>
          refine ⟨hi, ?_⟩
          intro hk
          rcases (waitTime_error he).2 with ⟨_, h | h⟩ | ⟨_, h, _⟩ <;> rw [h] at hk <;>
            simp [Retryable] at hk
        · exact ⟨keep s _ nofun hi, ht⟩
    · exact ⟨hi, trivial⟩
    · exact ⟨hi, trivial⟩
    · exact ⟨hi, trivial⟩
    · exact ⟨hi, trivial⟩
    · exact ⟨hi, fun _ => ht.2⟩
  | finish name parent c r v o =>
    obtain ⟨rfl, hl⟩ := hseq
    have ht : r.name = name ∧ Left s name := ht
    rw [step, stepFinish]
    split
    next e he =>
      refine ⟨hi, fun _ => ?_⟩
      rw [(stateOutput_error he).2.1]
      exact ht.2
    · split
      · exact ⟨hi, trivial⟩
      next q states hu =>
        have hl : Left (⟨{ s.exec with states := states }, s.log⟩ : S F) name :=
          ⟨named_update hu _ ht.2.1 (fun _ => rfl), ht.2.2⟩
        by_cases hsv : env.save s.log { s.exec with states := states } = true
        · rw [save_true (s := ⟨{ s.exec with states := states }, s.log⟩) hsv]
          dsimp only
          split
          · refine ⟨keep s _ nofun hi, ?_⟩
            show some r.name = _
            rw [ht.1]
            exact ht.2.2.symm
          · split
            · exact ⟨keep s _ nofun hi, trivial⟩
            · exact ⟨keep s _ nofun hi, fun _ => hl⟩
        · rw [save_false (s := ⟨{ s.exec with states := states }, s.log⟩) hsv]
          exact ⟨keep s _ nofun hi, fun _ => hl⟩
  | complete v final =>
    rw [step, stepComplete]
    by_cases hsv : env.save s.log (s.succeeded env) = true
    · rw [save_true (s := ⟨s.succeeded env, s.log⟩) hsv]
      refine ⟨Events.cons (keep s _ nofun hi) ?_, trivial⟩
      intro ev he
      injection he with he
      rw [← he]
      trivial
    · rw [save_false (s := ⟨s.succeeded env, s.log⟩) hsv]
      refine ⟨keep s _ nofun hi, ?_⟩
      intro hk
      simp [Retryable] at hk
  | fail e v =>
    have hp : e.info.parent = none := hseq
    have hr : ∀ fb, Retryable e.kind →
        LeftP s (.task (retryable env s e.info v fb) (some (ret.getD none))) := by
      intro fb hk
      rw [retryable]
      show LeftAfter s _
      split
      · exact ht hk
      · exact none_after s _ _ hp
    rw [step]
    refine ⟨hi, ?_⟩
    cases hk : e.kind <;> simp only [onError, hk]
    all_goals first
      | exact hr _ (by simp [Retryable, hk])
      | exact none_after s e.info v hp
      | trivial
  | record info name persist continues after =>
    obtain ⟨hp, _⟩ := hseq
    have ht : LeftAfter s after := ht
    rw [step, stepRecord, hp]
    dsimp only
    have hst : ∀ d, (if continues = true then s.exec else s.failed env d).states =
        s.exec.states := by
      intro d
      split <;> rfl
    rw [hst]
    split
    · exact ⟨hi, trivial⟩
    next r states hu =>
      exact ⟨hi, ht.same (fun n hn => named_update hu n hn (fun _ => rfl)) rfl⟩
  | persist e r persist continues after =>
    have ht : LeftAfter s after := ht
    rw [step, stepPersist]
    dsimp only
    split
    · rw [S.save]
      split <;> exact ⟨keep s _ nofun hi, ht.same (fun _ h => h) rfl⟩
    · exact ⟨hi, ht⟩
  | announce e r continues after =>
    have ht : LeftAfter s after := ht
    rw [step, stepAnnounce]
    dsimp only
    split
    · exact ⟨keep s _ nofun hi, ht.same (fun _ h => h) rfl⟩
    · refine ⟨Events.cons (keep s _ nofun hi) ?_, ht.same (fun _ h => h) rfl⟩
      intro ev he
      injection he with he
      rw [← he]
      trivial
  | next after =>
    rw [step, stepNext.eq_def]
    split
    · exact ⟨hi, trivial⟩
    next info v rule a _ =>
      have ht : Left s info.state := ht
      have hp : info.parent = none := hseq
      split
      · exact ⟨hi, trivial⟩
      · refine ⟨keep s _ nofun hi, ?_⟩
        show _ = (lastEntered s.log).map (·.name)
        rw [ht.2, hp]
        obtain ⟨q, hq⟩ := findRec_some_iff.2 ht.1
        rw [hq, Option.map_some, (findRec_none hq).2]
    next info v rules _ =>
      have ht : rules.getD [] = [] := ht
      rw [ht]
      exact ⟨hi, trivial⟩

example : Sequential flakyEnv ∧ NoCatch flakyEnv := ⟨flaky_sequential, by
  intro n c h
  simp only [flakyEnv, demoEnv, List.mem_cons, List.not_mem_nil, or_false, Prod.mk.injEq] at h
  rw [h.2]
  rfl⟩

end Verif.Workflow
