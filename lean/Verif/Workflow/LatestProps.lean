import Verif.Workflow.RunProps

/-!
# What was saved when an execution is announced to be over (C163)
-/

namespace Verif.Workflow.Spec

variable {F : Type}

/-- What was saved, the most recent first. -/
def saves (log : List (Entry F)) : List (Exec F) :=
  log.filterMap fun x => match x with
    | .saved e => some e
    | _ => none

/-- What was announced, the most recent first. -/
def announced (log : List (Entry F)) : List (Event F) :=
  log.filterMap fun x => match x with
    | .event e => some e
    | _ => none

end Verif.Workflow.Spec

namespace Verif.Workflow

open Verif Spec

variable {G F : Type}

/-- The log only gets longer, at its front. -/
theorem log_step [DecidableEq F] (env : Env G F) (s : S F) (ret : Option (Option (Json F)))
    (t : Task G F) : ∃ new, (step env s ret t).1.log = new ++ s.log := by
  have hsave : ∀ (s s' : S F) e b, S.save env s e = (b, s') → ∃ x, s'.log = x :: s.log := by
    intro s s' e b h
    unfold S.save at h
    split at h <;> (injection h with _ h; subst h; exact ⟨_, rfl⟩)
  cases t with
  | run n input prev parent =>
    simp only [step, stepRun]
    repeat' split
    all_goals first
      | exact ⟨[], rfl⟩
      | (rename_i h
         obtain ⟨x, hx⟩ := hsave _ _ _ _ h
         first
           | exact ⟨[x], hx⟩
           | exact ⟨[_, x], by rw [S.send]; dsimp only; rw [hx]; rfl⟩)
  | exec n r c input parent =>
    simp only [step, stepExec]
    split
    · unfold stepStep
      repeat' split
      all_goals first
        | exact ⟨[], rfl⟩
        | exact ⟨[_], rfl⟩
    · unfold stepParallel
      repeat' split
      all_goals exact ⟨[], rfl⟩
    · unfold stepWait
      repeat' split
      all_goals first
        | exact ⟨[], rfl⟩
        | exact ⟨[_], rfl⟩
    all_goals exact ⟨[], rfl⟩
  | finish n parent c r input output =>
    rw [step, stepFinish]
    split
    · exact ⟨[], rfl⟩
    · split
      · exact ⟨[], rfl⟩
      next q states _ =>
        dsimp only
        generalize hS : S.save env _ _ = b
        obtain ⟨b, s'⟩ := b
        obtain ⟨x, hx⟩ := hsave _ _ _ _ hS
        cases b with
        | false => exact ⟨[x], hx⟩
        | true =>
          dsimp only
          repeat' split
          all_goals exact ⟨[x], hx⟩
  | complete input final =>
    simp only [step, stepComplete]
    split
    · rename_i h
      obtain ⟨x, hx⟩ := hsave _ _ _ _ h
      exact ⟨[_, x], by rw [S.send]; dsimp only; rw [hx]; rfl⟩
    · rename_i h
      obtain ⟨x, hx⟩ := hsave _ _ _ _ h
      exact ⟨[x], hx⟩
  | fail e input => exact ⟨[], rfl⟩
  | record info n persist continues after =>
    simp only [step, stepRecord]
    repeat' split
    all_goals exact ⟨[], rfl⟩
  | persist e r persist continues after =>
    simp only [step, stepPersist]
    split
    · obtain ⟨x, hx⟩ := hsave s _ e _ rfl
      exact ⟨[x], hx⟩
    · exact ⟨[], rfl⟩
  | announce e r continues after =>
    simp only [step, stepAnnounce]
    split
    · exact ⟨[_], rfl⟩
    · exact ⟨[_, _], rfl⟩
  | next after =>
    simp only [step, stepNext]
    repeat' split
    all_goals first
      | exact ⟨[], rfl⟩
      | exact ⟨[_], rfl⟩

/-- So for all tasks. -/
theorem log_grows [DecidableEq F] {env : Env G F} {c c' : S F × Proc G F} (h : Step env c c') :
    ∃ new, c'.1.log = new ++ c.1.log := by
  induction h with
  | task s t ret => exact log_step env s ret t
  | branch s s' j before after p p' _ ih => exact ih
  | joined => exact ⟨[], rfl⟩

variable [DecidableEq F]

/-- The execution that is announced to be over is what was saved last. -/
def Latest (ev : Event F) (before : List (Entry F)) : Prop :=
  match ev with
  | .complete e => (saves before).head? = some e
  | _ => True

/-- What is announced next is what was saved last. -/
def LatestP (s : S F) : Proc G F → Prop
  | .task (.announce e _ _ _) _ => (saves s.log).head? = some e
  | _ => True

/-- As long as saving succeeds, an execution without branches is over as it was saved last. -/
theorem latest_saved {env : Env G F} (hs : Sequential env) (hsave : ∀ log e, env.save log e = true)
    {input : Json F} {s : S F} {p : Proc G F} (h : Reach env input (s, p)) : Events Latest s.log := by
  refine (seq_invariant hs input (fun s p => Events Latest s.log ∧ LatestP s p) ?_ ?_ h).1.1
  · refine ⟨?_, trivial⟩
    intro later ev before he
    cases later <;> cases he
  · intro s t ret hr hq hP
    obtain ⟨hi, ht⟩ := hP
    have hk : Announces env s t ret := by
      have := (reach_announces hr).2
      cases this
      assumption
    have quiet : ∀ x : Entry F, (∀ e, x ≠ .event (.complete e)) → Events Latest (x :: s.log) := by
      intro x hx
      refine hi.cons ?_
      intro ev hev
      cases ev with
      | complete e => exact absurd hev (hx e)
      | transition => trivial
      | failure => trivial
    cases t with
    | run name v prev parent =>
      rw [step, stepRun.eq_def]
      split
      · exact ⟨hi, trivial⟩
      next c _ =>
        split
        · exact ⟨hi, trivial⟩
        next w _ =>
          dsimp only
          rw [save_true (s := ⟨s.exec.enter (newRec name c w prev (env.now s.log)), s.log⟩) (hsave _ _)]
          exact ⟨(quiet (.saved _) nofun).cons (fun ev hev => by injection hev with hev; rw [← hev]; trivial),
            trivial⟩
    | exec name r c v parent =>
      obtain ⟨rfl, hc⟩ : parent = none ∧ env.states.lookup name = some c := hq
      rw [step, stepExec]
      split
      · rw [stepStep]
        split
        · split
          · exact ⟨hi, trivial⟩
          · exact ⟨hi, trivial⟩
          · refine ⟨quiet _ nofun, ?_⟩
            dsimp only
            split <;> trivial
        · exact ⟨hi, trivial⟩
      next hk => exact absurd hk (hs _ _ (lookup_mem hc))
      · rw [stepWait]
        split
        · exact ⟨hi, trivial⟩
        · split
          · exact ⟨hi, trivial⟩
          · exact ⟨quiet _ nofun, trivial⟩
      · exact ⟨hi, trivial⟩
      · exact ⟨hi, trivial⟩
      · exact ⟨hi, trivial⟩
      · exact ⟨hi, trivial⟩
      · exact ⟨hi, trivial⟩
    | finish name parent c r v o =>
      rw [step, stepFinish]
      split
      · exact ⟨hi, trivial⟩
      next final _ =>
        split
        · exact ⟨hi, trivial⟩
        next q states hu =>
          rw [save_true (s := ⟨{ s.exec with states := states }, s.log⟩) (hsave _ _)]
          dsimp only
          split
          · exact ⟨quiet _ nofun, trivial⟩
          · split
            · exact ⟨quiet _ nofun, trivial⟩
            · exact ⟨quiet _ nofun, trivial⟩
    | complete v final =>
      rw [step, stepComplete]
      rw [save_true (s := ⟨s.succeeded env, s.log⟩) (hsave _ _)]
      refine ⟨(quiet (.saved _) nofun).cons ?_, trivial⟩
      intro ev hev
      injection hev with hev
      rw [← hev]
      rfl
    | fail e v =>
      rw [step]
      refine ⟨hi, ?_⟩
      show LatestP s (.task (onError env s e v) _)
      rw [onError]
      split <;> trivial
    | record info name persist continues after =>
      rw [step, stepRecord]
      dsimp only
      split
      · exact ⟨hi, trivial⟩
      · exact ⟨hi, trivial⟩
    | persist e r persist continues after =>
      rw [step, stepPersist]
      dsimp only
      rw [if_pos (hk.2 hsave).1, S.save, if_pos (hsave _ _)]
      exact ⟨quiet _ nofun, rfl⟩
    | announce e r continues after =>
      have ht : (saves s.log).head? = some e := ht
      rw [step, stepAnnounce]
      dsimp only
      split
      · exact ⟨quiet _ nofun, trivial⟩
      · refine ⟨(quiet (.event (.failure r)) nofun).cons ?_, trivial⟩
        intro ev hev
        injection hev with hev
        rw [← hev]
        exact ht
    | next after =>
      rw [step, stepNext.eq_def]
      split
      · exact ⟨hi, trivial⟩
      · split
        · exact ⟨hi, trivial⟩
        · exact ⟨quiet _ nofun, trivial⟩
      · split
        · exact ⟨hi, trivial⟩
        · split
          · exact ⟨hi, trivial⟩
          · exact ⟨hi, trivial⟩

end Verif.Workflow
