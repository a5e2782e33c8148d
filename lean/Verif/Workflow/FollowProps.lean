import Verif.Workflow.Props

/-!
# C168: an execution follows its workflow
-/

namespace Verif.Workflow

/-! ## Specification

What a workflow says: where an execution is, after the handlers have answered in a certain way. -/

namespace FollowSpec

variable {G F : Type}

/-- A call of a handler with its answer. -/
structure Call (F : Type) where
  state : Name
  payload : Json F
  answer : Outcome HandlerErr (Json F)

/-- An error: the name it carries itself, if any, and the name for which it may be retried, if it may. -/
structure Error where
  own : Option Name
  retry : Option Name

/-- Where an execution is: about to execute a state with some input, having tried that, at its end, or
stopped by a panic of a handler. -/
inductive Pos (F : Type)
  | at (state : Name) (input : Json F)
  | tried (state : Name) (input : Json F) (result : Except Error (Json F))
  | succeeded (output : Json F)
  | failed
  | panicked

/-- The input path of a state selects something. -/
def Reads (env : Env G F) (c : State G) (v : Json F) : Prop :=
  ∀ path, c.inputPath = some path → ∃ w, Payload.extract env.template v path = .ok w

/-- What comes out of a state, given its input and its result. -/
inductive Shaped (env : Env G F) (c : State G) (v r : Json F) : Except Error (Json F) → Prop
  | same : c.resultPath = none → c.outputPath = none → Shaped env c v r (.ok r)
  | injected {path w} : c.resultPath = some path → Payload.inject env.template v path r = .ok w →
      Shaped env c v r (.ok w)
  | notInjected {path} : c.resultPath = some path →
      (∀ w, Payload.inject env.template v path r ≠ .ok w) →
      Shaped env c v r (.error ⟨some "InvalidResultPath".toList, some "InvalidResultPath".toList⟩)
  | extracted {path w} : c.resultPath = none → c.outputPath = some path →
      Payload.extract env.template r path = .ok w → Shaped env c v r (.ok w)
  | notExtracted {path} : c.resultPath = none → c.outputPath = some path →
      (∀ w, Payload.extract env.template r path ≠ .ok w) →
      Shaped env c v r (.error ⟨some "InvalidOutputPath".toList, some "InvalidOutputPath".toList⟩)

/-- The payload of a handler. -/
def Renders [DecidableEq F] (env : Env G F) (c : State G) (v x : Json F) : Prop :=
  match c.template with
  | none => x = v
  | some t => Payload.render env.template t v = .ok x

/-- The error of a handler. -/
def ofHandler (e : HandlerErr) : Error :=
  ⟨some e.name, some (if e.name = [] then "HandlerFailed".toList else e.name)⟩

/-- A wait for a number of seconds that is written in the workflow. -/
def Seconds (c : State G) : Prop :=
  ∃ w secs n, c.waitConfig = some w ∧ w.seconds = some secs ∧ secs.head? ≠ some '$' ∧
    Text.UnsignedText secs n ∧ n < 2 ^ 64

/-- A state that cannot be executed. -/
def Invalid (env : Env G F) (n : Name) (c : State G) : Prop :=
  c.kind = .unknown ∨ c.kind = .executeStep ∧ env.hasHandler n = false ∨ c.kind = .wait ∧ ¬ Seconds c

/-- The error is retried: the first rule that matches allows retries. -/
def Retried (c : State G) (e : Error) : Prop :=
  ∃ name rule, e.retry = some name ∧ FirstMatch Retry.matchErrors name (c.retry.getD []) rule ∧
    ∀ m, rule.maxAttempts = some m → 1 ≤ m

/-- What the state that catches an error gets. -/
def Handed (env : Env G F) (r : Catch) (e : Error) (v w : Json F) : Prop :=
  r.resultPath = none ∧ w = v ∨ ∃ path text, r.resultPath = some path ∧
    Payload.inject env.template v path (.obj [("cause".toList, .str text),
      ("error".toList, match e.own with
        | some n => .str n
        | none => .null)]) = .ok w

/-- The state that catches an error cannot be given it. -/
def NotHanded (env : Env G F) (r : Catch) (e : Error) (v : Json F) : Prop :=
  ∃ path text, r.resultPath = some path ∧
    ∀ w, Payload.inject env.template v path (.obj [("cause".toList, .str text),
      ("error".toList, match e.own with
        | some n => .str n
        | none => .null)]) ≠ .ok w

/-- Where an execution may be, given the calls of handlers, the first one first. -/
inductive Path [DecidableEq F] (env : Env G F) (input : Json F) : List (Call F) → Pos F → Prop
  | start : Path env input [] (.at env.startAt input)
  | missing {cs n v} : Path env input cs (.at n v) → env.states.lookup n = none →
      Path env input cs .failed
  | invalid {cs n v c} : Path env input cs (.at n v) → env.states.lookup n = some c → Reads env c v →
      Invalid env n c → Path env input cs .failed
  | unread {cs n v c} : Path env input cs (.at n v) → env.states.lookup n = some c → ¬ Reads env c v →
      Path env input cs (.tried n v (.error ⟨some "InvalidInputPath".toList, none⟩))
  | unrendered {cs n v c} : Path env input cs (.at n v) → env.states.lookup n = some c →
      Reads env c v → c.kind = .executeStep → env.hasHandler n = true → (∀ x, ¬ Renders env c v x) →
      Path env input cs (.tried n v (.error ⟨none, none⟩))
  | answered {cs n v c x r res} : Path env input cs (.at n v) → env.states.lookup n = some c →
      Reads env c v → c.kind = .executeStep → env.hasHandler n = true → Renders env c v x →
      Shaped env c v r res → Path env input (cs ++ [⟨n, x, .ok r⟩]) (.tried n v res)
  | refused {cs n v c x e} : Path env input cs (.at n v) → env.states.lookup n = some c →
      Reads env c v → c.kind = .executeStep → env.hasHandler n = true → Renders env c v x →
      Path env input (cs ++ [⟨n, x, .err e⟩]) (.tried n v (.error (ofHandler e)))
  | panicked {cs n v c x} : Path env input cs (.at n v) → env.states.lookup n = some c →
      Reads env c v → c.kind = .executeStep → env.hasHandler n = true → Renders env c v x →
      Path env input (cs ++ [⟨n, x, .panic⟩]) .panicked
  | waited {cs n v c res} : Path env input cs (.at n v) → env.states.lookup n = some c →
      Reads env c v → c.kind = .wait → Shaped env c v v res → Path env input cs (.tried n v res)
  | notWaited {cs n v c} : Path env input cs (.at n v) → env.states.lookup n = some c →
      Reads env c v → c.kind = .wait → ¬ Seconds c →
      Path env input cs (.tried n v (.error ⟨none, none⟩))
  | next {cs n v c out m} : Path env input cs (.tried n v (.ok out)) → env.states.lookup n = some c →
      c.next = some m → Path env input cs (.at m out)
  | last {cs n v c out} : Path env input cs (.tried n v (.ok out)) → env.states.lookup n = some c →
      c.next = none → c.isEnd = some true → Path env input cs (.succeeded out)
  | dangling {cs n v c out} : Path env input cs (.tried n v (.ok out)) → env.states.lookup n = some c →
      c.next = none → c.isEnd ≠ some true → Path env input cs .failed
  | retry {cs n v c e} : Path env input cs (.tried n v (.error e)) → env.states.lookup n = some c →
      Retried c e → Path env input cs (.at n v)
  | caught {cs n v c e r w} : Path env input cs (.tried n v (.error e)) →
      env.states.lookup n = some c → ¬ Retried c e →
      FirstMatch Catch.matchErrors (e.own.getD []) (c.catchers.getD []) r → Handed env r e v w →
      Path env input cs (.at r.next w)
  | notHanded {cs n v c e r} : Path env input cs (.tried n v (.error e)) →
      env.states.lookup n = some c → ¬ Retried c e →
      FirstMatch Catch.matchErrors (e.own.getD []) (c.catchers.getD []) r →
      NotHanded env r e v → Path env input cs .failed
  | uncaught {cs n v c e} : Path env input cs (.tried n v (.error e)) →
      env.states.lookup n = some c → ¬ Retried c e →
      NoMatch Catch.matchErrors (e.own.getD []) (c.catchers.getD []) → Path env input cs .failed

/-- The calls in a log, the first one first, with their answers. -/
def made (env : Env G F) : List (Entry F) → List (Call F)
  | [] => []
  | .called n v :: log => made env log ++ [⟨n, v, env.handler log n v⟩]
  | _ :: log => made env log

/-- A state of a type that is not implemented. -/
def Stub (env : Env G F) (n : Name) : Prop :=
  ∃ c, env.states.lookup n = some c ∧
    (c.kind = .pass ∨ c.kind = .decision ∨ c.kind = .success ∨ c.kind = .failure)

/-- The position at the end. -/
def AtEnd (env : Env G F) (s : S F) (pos : Pos F) : Prop :=
  (∃ out, pos = .succeeded out ∧ s.exec.status = .succeeded) ∨
    s.exec.status ≠ .succeeded ∧ (pos = .failed ∨ ∃ n v, pos = .at n v ∧ Stub env n)

/-- Something could not be saved. -/
def Unsaved (log : List (Entry F)) : Prop := ∃ e, .notSaved e ∈ log

end FollowSpec

open FollowSpec

variable {G F : Type} [DecidableEq F]

/-- **C168, full statement**: an execution follows its workflow to an end. -/
def FullFollows : Prop :=
  ∀ (env : Env (Option Int) Int) (input : Json Int) (s : S Int) (p : Proc (Option Int) Int),
    Sequential env → (∀ log e, env.save log e = true) → Reach env input (s, p) →
    ∃ pos, Path env input (made env s.log) pos ∧
      ∀ v, p = .done v → (∃ out, pos = .succeeded out) ∨ pos = .failed

/-! ## The position of every task -/

/-- The name for which an error may be retried. -/
def retryName (e : Fail) : Option Name :=
  match e.kind with
  | .resultPath => some (reported e)
  | .outputPath => some (reported e)
  | .handlerFailed => some (reported e)
  | .branchesFailed => some (reported e)
  | _ => none

/-- An error of the model. -/
def ofFail (e : Fail) : FollowSpec.Error := ⟨e.info.name, retryName e⟩

/-- The position after an error was recorded. -/
def SimAfter (env : Env G F) (input : Json F) (log : List (Entry F)) : After F → Prop
  | .stop => Path env input (made env log) .failed ∨
      Unsaved log ∧ ∃ pos, Path env input (made env log) pos
  | .retry info v _ _ => Path env input (made env log) (.at info.state v)
  | .catchErr info v rules => ∃ c e, env.states.lookup info.state = some c ∧ rules = c.catchers ∧
      e.own = info.name ∧ ¬ Retried c e ∧ Path env input (made env log) (.tried info.state v (.error e))

/-- The position of an error. -/
def SimFail (env : Env G F) (input : Json F) (log : List (Entry F)) (e : Fail) (v : Json F) : Prop :=
  match e.kind with
  | .persistFailed => Unsaved log ∧ ∃ pos, Path env input (made env log) pos
  | .stateNotFound => Path env input (made env log) .failed
  | .invalidState => Path env input (made env log) .failed
  | _ => (∃ c, env.states.lookup e.info.state = some c) ∧
      Path env input (made env log) (.tried e.info.state v (.error (ofFail e)))

/-- The position of a task. -/
def SimTask (env : Env G F) (input : Json F) (log : List (Entry F)) : Task G F → Prop
  | .run n v _ _ => Path env input (made env log) (.at n v)
  | .exec n _ c v _ => Reads env c v ∧ Path env input (made env log) (.at n v)
  | .finish n _ c _ v o => ∀ res, Shaped env c v o res → Path env input (made env log) (.tried n v res)
  | .complete _ out => Path env input (made env log) (.succeeded out)
  | .fail e v => SimFail env input log e v
  | .record _ _ _ _ after => SimAfter env input log after
  | .persist _ _ _ _ after => SimAfter env input log after
  | .announce _ _ _ after => SimAfter env input log after
  | .next after => SimAfter env input log after

/-- The execution has not succeeded, except while an error is handled that makes it fail. -/
def Going (x : Exec F) : Task G F → Prop
  | .fail e _ => e.kind ≠ .persistFailed → x.status ≠ .succeeded
  | .record _ _ _ continues _ => continues = true → x.status ≠ .succeeded
  | _ => x.status ≠ .succeeded

/-- The position of an execution. -/
def Sim (env : Env G F) (input : Json F) (s : S F) : Proc G F → Prop
  | .task t _ => Going s.exec t ∧ SimTask env input s.log t
  | .join _ _ => False
  | .done _ => ∃ pos, Path env input (made env s.log) pos ∧
      (AtEnd env s pos ∨ Unsaved s.log ∧ s.exec.status ≠ .succeeded)
  | .crashed => ∃ pos, Path env input (made env s.log) pos

/-- What follows an error stays the same with more in the log that is not a call. -/
theorem SimAfter.cons {env : Env G F} {input : Json F} {log : List (Entry F)} {after : After F}
    (x : Entry F) (hx : made env (x :: log) = made env log) (h : SimAfter env input log after) :
    SimAfter env input (x :: log) after := by
  cases after with
  | stop =>
    rw [SimAfter, hx]
    exact h.imp id fun ⟨⟨e, he⟩, hp⟩ => ⟨⟨e, List.mem_cons_of_mem _ he⟩, hp⟩
  | retry => rw [SimAfter, hx]; exact h
  | catchErr => rw [SimAfter, hx]; exact h

omit [DecidableEq F] in
theorem stateInput_reads {env : Env G F} {n : Name} {c : State G} {v w : Json F}
    (h : stateInput env n none c v = .ok w) : Reads env c v := by
  intro path hp
  rw [stateInput, hp] at h
  dsimp only at h
  split at h
  · rename_i x hx
    exact ⟨x, hx⟩
  · cases h

omit [DecidableEq F] in
theorem stateInput_unread {env : Env G F} {n : Name} {c : State G} {v : Json F} {e : Fail}
    (h : stateInput env n none c v = .error e) :
    ¬ Reads env c v ∧ e.kind = .inputPath ∧ e.info.state = n ∧
      e.info.name = some "InvalidInputPath".toList := by
  rw [stateInput.eq_def] at h
  split at h
  · cases h
  · rename_i p hp
    split at h
    · cases h
    · rename_i hx
      injection h with h
      subst h
      refine ⟨?_, rfl, rfl, rfl⟩
      intro hr
      obtain ⟨w, hw⟩ := hr p hp
      exact hx w hw

omit [DecidableEq F] in
theorem output_shaped {env : Env G F} {n : Name} {c : State G} {v o w : Json F}
    (h : stateOutput env n none c v o = .ok w) : Shaped env c v o (.ok w) := by
  rw [stateOutput.eq_def] at h
  split at h
  · rename_i p hp
    split at h
    · rename_i x hx
      injection h with h
      subst h
      exact .injected hp hx
    · cases h
  · rename_i hr
    split at h
    · rename_i p hp
      split at h
      · rename_i x hx
        injection h with h
        subst h
        exact .extracted hr hp hx
      · cases h
    · rename_i hp
      injection h with h
      subst h
      exact .same hr hp

omit [DecidableEq F] in
theorem output_refused {env : Env G F} {n : Name} {c : State G} {v o : Json F} {e : Fail}
    (h : stateOutput env n none c v o = .error e) :
    Shaped env c v o (.error (ofFail e)) ∧ e.info.state = n ∧
      (e.kind = .resultPath ∨ e.kind = .outputPath) := by
  rw [stateOutput.eq_def] at h
  split at h
  · rename_i p hp
    split at h
    · cases h
    · rename_i hx
      injection h with h
      subst h
      exact ⟨.notInjected hp hx, rfl, .inl rfl⟩
  · rename_i hr
    split at h
    · rename_i p hp
      split at h
      · cases h
      · rename_i hx
        injection h with h
        subst h
        exact ⟨.notExtracted hr hp hx, rfl, .inr rfl⟩
    · cases h

omit [DecidableEq F] in
/-- How a wait can fail. -/
theorem wait_refused {env : Env G F} {n : Name} {c : State G} {w : Wait} {v : Json F} {now : Int}
    {e : Fail} (hw : c.waitConfig = some w) (h : waitTime env n w v now = .error e) :
    ¬ Seconds c ∧ (e.kind = .invalidState ∨
      e.kind = .templateInvalid ∧ e.info.state = n ∧ e.info.name = none) := by
  constructor
  · rintro ⟨w', secs, k, h1, h2, h3, h4, h5⟩
    rw [hw] at h1
    injection h1 with h1
    subst h1
    rw [waitTime, h2] at h
    dsimp only at h
    rw [waitSeconds, if_neg h3, (Text.parseUnsigned_iff _ _ _).2 ⟨h4, h5⟩] at h
    cases h
  · have hu : ∀ t, waitUntil env now t = .error e → e.kind = .invalidState := by
      intro t ht
      rw [waitUntil.eq_def] at ht
      split at ht
      · injection ht with ht
        rw [← ht]
      · split at ht
        · injection ht with ht
          rw [← ht]
        · cases ht
    rw [waitTime.eq_def] at h
    split at h
    · rw [waitSeconds.eq_def] at h
      split at h
      · split at h
        · injection h with h
          rw [← h]
          exact .inr ⟨rfl, rfl, rfl⟩
        · split at h
          · cases h
          · injection h with h
            rw [← h]
            exact .inl rfl
      · split at h
        · cases h
        · injection h with h
          rw [← h]
          exact .inl rfl
    · split at h
      · rw [waitTimestamp.eq_def] at h
        split at h
        · split at h
          · injection h with h
            rw [← h]
            exact .inr ⟨rfl, rfl, rfl⟩
          · split at h
            · exact .inl (hu _ h)
            · injection h with h
              rw [← h]
              exact .inl rfl
        · exact .inl (hu _ h)
      · injection h with h
        rw [← h]
        exact .inl rfl

theorem payload_renders {env : Env G F} {c : State G} {v x : Json F} :
    payload env c v = .ok x ↔ Renders env c v x := by
  rw [payload.eq_def, Renders.eq_def]
  cases c.template with
  | none =>
    constructor
    · intro h
      injection h with h
      exact h.symm
    · intro h
      rw [h]
  | some t => exact Iff.rfl

/-- In every execution without parallel states. -/
theorem sim {env : Env G F} (hs : Sequential env)
    {input : Json F} {s : S F} {p : Proc G F} (h : Reach env input (s, p)) : Sim env input s p := by
  refine (seq_invariant hs input (Sim env input) ⟨(by nofun : Status.preparing ≠ .succeeded), .start⟩ ?_ h).1
  intro s t ret hr ht hP
  obtain ⟨hst, hP⟩ := hP
  cases t with
  | run name v prev parent =>
    have hp : parent = none := ht
    subst hp
    have hst : s.exec.status ≠ .succeeded := hst
    have hP : Path env input (made env s.log) (.at name v) := hP
    rw [step, stepRun.eq_def]
    split
    · rename_i e he
      rw [config.eq_def] at he
      dsimp only at he
      split at he
      · cases he
      · rename_i hl
        injection he with he
        subst he
        exact ⟨fun _ => hst, .missing hP hl⟩
    · rename_i c hc
      have hl : env.states.lookup name = some c := by
        rw [config.eq_def] at hc
        dsimp only at hc
        split at hc
        · rename_i hl
          injection hc with hc
          rw [hl, hc]
        · cases hc
      split
      · rename_i e he
        obtain ⟨h1, h2, h3, h4⟩ := stateInput_unread he
        refine ⟨fun _ => hst, ?_⟩
        show SimFail env input _ e v
        rw [SimFail, h2]
        refine ⟨⟨c, by rw [h3]; exact hl⟩, ?_⟩
        have : ofFail e = ⟨some "InvalidInputPath".toList, none⟩ := by
          rw [ofFail, h4, retryName, h2]
        rw [this, h3]
        exact .unread hP hl h1
      · rename_i w hw
        dsimp only
        by_cases hv : env.save s.log (s.exec.enter (newRec name c w prev (env.now s.log))) = true
        · rw [save_true (s := ⟨s.exec.enter (newRec name c w prev (env.now s.log)), s.log⟩) hv]
          refine ⟨?_, stateInput_reads hw, hP⟩
          show Status.inProgress ≠ .succeeded
          nofun
        · rw [save_false (s := ⟨s.exec.enter (newRec name c w prev (env.now s.log)), s.log⟩) hv]
          exact ⟨fun h => absurd rfl h, ⟨_, List.mem_cons_self ..⟩, _, hP⟩
  | exec name r c v parent =>
    obtain ⟨hp, hl⟩ := ht
    subst hp
    obtain ⟨hrd, hP⟩ := hP
    have hst : s.exec.status ≠ .succeeded := hst
    rw [step, stepExec.eq_def]
    split
    · rename_i hk
      rw [stepStep]
      split
      · rename_i hh
        split
        · rename_i e he
          refine ⟨fun _ => hst, ?_⟩
          show SimFail env input _ (templateErr name none e) v
          have hno : ∀ x, ¬ Renders env c v x := by
            intro x hx
            rw [payload_renders.2 hx] at he
            cases he
          have key := Path.unrendered hP hl hrd hk hh hno
          cases e <;> exact ⟨⟨c, hl⟩, key⟩
        · exact ⟨_, hP⟩
        · rename_i x hx
          have hx' := payload_renders.1 hx
          have hm : made env (.called name x :: s.log) =
              made env s.log ++ [⟨name, x, env.handler s.log name x⟩] := rfl
          dsimp only
          split
          · rename_i o ho
            refine ⟨hst, ?_⟩
            intro res hres
            show Path env input (made env (.called name x :: s.log)) _
            rw [hm, ho]
            exact .answered hP hl hrd hk hh hx' hres
          · rename_i e he
            refine ⟨fun _ => hst, ⟨c, hl⟩, ?_⟩
            show Path env input (made env (.called name x :: s.log)) _
            rw [hm, he]
            have : ofFail ⟨.handlerFailed, name, none, some e.name, .handler e.name e.message⟩ =
                ofHandler e := by
              rw [ofFail, ofHandler, retryName, reported]
              dsimp only
              cases e.name with
              | nil => rfl
              | cons a b => simp
            rw [this]
            exact .refused hP hl hrd hk hh hx'
          · rename_i he
            refine ⟨.panicked, ?_⟩
            show Path env input (made env (.called name x :: s.log)) _
            rw [hm, he]
            exact .panicked hP hl hrd hk hh hx'
      · rename_i hh
        exact ⟨fun _ => hst, Path.invalid hP hl hrd (.inr (.inl ⟨hk, by simpa using hh⟩))⟩
    · rename_i hk
      exact absurd hk (hs _ _ (lookup_mem hl))
    · rename_i hk
      rw [stepWait]
      split
      · rename_i hw
        refine ⟨fun _ => hst, Path.invalid hP hl hrd (.inr (.inr ⟨hk, ?_⟩))⟩
        rintro ⟨w, _, _, h1, _⟩
        rw [hw] at h1
        cases h1
      · rename_i w hw
        split
        · rename_i e he
          obtain ⟨h1, h2⟩ := wait_refused hw he
          refine ⟨fun _ => hst, ?_⟩
          show SimFail env input _ e v
          rcases h2 with h2 | ⟨h2, h3, h4⟩
          · rw [SimFail, h2]
            exact .invalid hP hl hrd (.inr (.inr ⟨hk, h1⟩))
          · rw [SimFail, h2]
            refine ⟨⟨c, by rw [h3]; exact hl⟩, ?_⟩
            have : ofFail e = ⟨none, none⟩ := by rw [ofFail, h4, retryName, h2]
            rw [this, h3]
            exact .notWaited hP hl hrd hk h1
        · exact ⟨hst, fun res hres => .waited hP hl hrd hk hres⟩
    · rename_i hk; exact ⟨_, hP, .inl (.inr ⟨hst, .inr ⟨_, _, rfl, c, hl, by simp [hk]⟩⟩)⟩
    · rename_i hk; exact ⟨_, hP, .inl (.inr ⟨hst, .inr ⟨_, _, rfl, c, hl, by simp [hk]⟩⟩)⟩
    · rename_i hk; exact ⟨_, hP, .inl (.inr ⟨hst, .inr ⟨_, _, rfl, c, hl, by simp [hk]⟩⟩)⟩
    · rename_i hk; exact ⟨_, hP, .inl (.inr ⟨hst, .inr ⟨_, _, rfl, c, hl, by simp [hk]⟩⟩)⟩
    · rename_i hk
      exact ⟨fun _ => hst, Path.invalid hP hl hrd (.inl hk)⟩
  | finish name parent c r v o =>
    obtain ⟨hp, hl⟩ := ht
    subst hp
    have hP : ∀ res, Shaped env c v o res → Path env input (made env s.log) (.tried name v res) := hP
    have hst : s.exec.status ≠ .succeeded := hst
    rw [step, stepFinish]
    split
    · rename_i e he
      obtain ⟨h1, h2, h3⟩ := output_refused he
      refine ⟨fun _ => hst, ?_⟩
      show SimFail env input _ e v
      have key := hP _ h1
      rcases h3 with h3 | h3 <;>
      · rw [SimFail, h3]
        dsimp only
        rw [h2]
        exact ⟨⟨c, hl⟩, key⟩
    · rename_i final hf
      have key := hP _ (output_shaped hf)
      split
      · exact ⟨_, key⟩
      · rename_i q states hu
        by_cases hv : env.save s.log { s.exec with states := states } = true
        · rw [save_true (s := ⟨{ s.exec with states := states }, s.log⟩) hv]
          dsimp only
          split
          · rename_i n hn
            exact ⟨hst, Path.next key hl hn⟩
          · rename_i hn
            split
            · rename_i he
              refine ⟨hst, Path.last key hl hn ?_⟩
              revert he
              cases c.isEnd with
              | none => simp
              | some b => simp
            · rename_i he
              refine ⟨fun _ => hst, Path.dangling key hl hn ?_⟩
              intro h'
              rw [h'] at he
              exact he rfl
        · rw [save_false (s := ⟨{ s.exec with states := states }, s.log⟩) hv]
          exact ⟨fun h => absurd rfl h, ⟨_, List.mem_cons_self ..⟩, _, key⟩
  | complete v final =>
    rw [step, stepComplete]
    by_cases hv : env.save s.log (s.succeeded env) = true
    · rw [save_true (s := ⟨s.succeeded env, s.log⟩) hv]
      exact ⟨_, hP, .inl (.inl ⟨_, rfl, rfl⟩)⟩
    · rw [save_false (s := ⟨s.succeeded env, s.log⟩) hv]
      exact ⟨fun h => absurd rfl h, ⟨_, List.mem_cons_self ..⟩, _, hP⟩
  | fail e v =>
    have hp : e.info.parent = none := ht
    have hP : SimFail env input s.log e v := hP
    have hst : e.kind ≠ .persistFailed → s.exec.status ≠ .succeeded := hst
    rw [step]
    refine ⟨?_, ?_⟩
    · show Going s.exec (onError env s e v)
      rw [onError.eq_def]
      cases hk : e.kind with
      | persistFailed => exact nofun
      | stateNotFound => exact nofun
      | invalidState => exact nofun
      | templateInvalid => exact hst (by rw [hk]; nofun)
      | templateFailure => exact hst (by rw [hk]; nofun)
      | inputPath => exact hst (by rw [hk]; nofun)
      | resultPath => exact fun _ => hst (by rw [hk]; nofun)
      | outputPath => exact fun _ => hst (by rw [hk]; nofun)
      | handlerFailed => exact fun _ => hst (by rw [hk]; nofun)
      | branchesFailed => exact fun _ => hst (by rw [hk]; nofun)
    by_cases hk : Retryable e.kind
    · obtain ⟨⟨c, hl⟩, hP⟩ : (∃ c, env.states.lookup e.info.state = some c) ∧
          Path env input (made env s.log) (.tried e.info.state v (.error (ofFail e))) := by
        rw [SimFail] at hP
        rcases hk with h | h | h | h <;> rw [h] at hP <;> exact hP
      have hret : (ofFail e).retry = some (reported e) := by
        rw [ofFail, retryName]
        rcases hk with h | h | h | h <;> rw [h]
      have hc : catchersOf env e.info = c.catchers := by rw [catchersOf, hp, config, hl]
      rw [onError_retryable env s e v hk, retryable, finalName_reported, retryRule_find hp hl, hc]
      obtain ⟨hi, ha⟩ := reach_first hr
      have hnm := Located.named (All.running ha .here) hk hp
      cases hru : (c.retry.getD []).find? (fun r => errorMatches (reported e) r.matchErrors) with
      | none =>
        refine ⟨c, ofFail e, hl, rfl, rfl, ?_, hP⟩
        rintro ⟨name, rule, h1, ⟨b, a, h2, h3, _⟩, _⟩
        rw [hret] at h1
        injection h1 with h1
        subst h1
        exact find_none.1 hru rule (by rw [h2]; simp) h3
      | some rule =>
        have hfm := find_first.1 hru
        rcases exceeded_first hi (rule := rule) hnm hp with ⟨hx, hm⟩ | ⟨hx, m, hm, hm0⟩
        · rw [hx]
          exact Path.retry hP hl ⟨_, rule, hret, hfm, hm⟩
        · rw [hx]
          refine ⟨c, ofFail e, hl, rfl, rfl, ?_, hP⟩
          rintro ⟨name, rule', h1, h2, h3⟩
          rw [hret] at h1
          injection h1 with h1
          subst h1
          have := find_first.2 h2
          rw [hru] at this
          injection this with this
          subst this
          have := h3 m hm
          omega
    · by_cases hc : Catchable e.kind
      · obtain ⟨⟨c, hl⟩, hP⟩ : (∃ c, env.states.lookup e.info.state = some c) ∧
            Path env input (made env s.log) (.tried e.info.state v (.error (ofFail e))) := by
          rw [SimFail] at hP
          rcases hc with h | h | h <;> rw [h] at hP <;> exact hP
        have hcc : catchersOf env e.info = c.catchers := by rw [catchersOf, hp, config, hl]
        rw [onError_catchable env s e v hc, hcc]
        refine ⟨c, ofFail e, hl, rfl, rfl, ?_, hP⟩
        rintro ⟨name, _, h1, _⟩
        rw [ofFail, retryName] at h1
        rcases hc with h | h | h <;> rw [h] at h1 <;> cases h1
      · show SimTask env input s.log (onError env s e v)
        rw [onError]
        rw [SimFail] at hP
        cases hkd : e.kind with
        | persistFailed => rw [hkd] at hP; exact .inr hP
        | stateNotFound => rw [hkd] at hP; exact .inl hP
        | invalidState => rw [hkd] at hP; exact .inl hP
        | handlerFailed => exact (hk (.inr (.inr (.inl hkd)))).elim
        | branchesFailed => exact (hk (.inr (.inr (.inr hkd)))).elim
        | inputPath => exact (hc (.inl hkd)).elim
        | resultPath => exact (hk (.inl hkd)).elim
        | outputPath => exact (hk (.inr (.inl hkd))).elim
        | templateFailure => exact (hc (.inr (.inl hkd))).elim
        | templateInvalid => exact (hc (.inr (.inr hkd))).elim
  | record info name persist continues after =>
    rw [step, stepRecord]
    dsimp only
    split
    · cases after with
      | stop => exact hP.elim (fun h => ⟨_, h⟩) (·.2)
      | retry i v rule a => exact ⟨_, hP⟩
      | catchErr i v rules =>
        obtain ⟨_, _, _, _, _, _, hP⟩ := hP
        exact ⟨_, hP⟩
    · refine ⟨?_, hP⟩
      dsimp only
      split
      · rename_i hc; exact hst hc
      · show Status.failed ≠ .succeeded
        nofun
  | persist e r persist continues after =>
    have hst : s.exec.status ≠ .succeeded := hst
    rw [step, stepPersist]
    dsimp only
    split
    · by_cases hv : env.save s.log e = true
      · rw [save_true hv]
        exact ⟨hst, SimAfter.cons _ rfl hP⟩
      · rw [save_false hv]
        exact ⟨hst, SimAfter.cons _ rfl hP⟩
    · exact ⟨hst, hP⟩
  | announce e r continues after =>
    have hst : s.exec.status ≠ .succeeded := hst
    rw [step, stepAnnounce]
    dsimp only
    split
    · exact ⟨hst, SimAfter.cons _ rfl hP⟩
    · exact ⟨hst, SimAfter.cons _ rfl (SimAfter.cons _ rfl hP)⟩
  | next after =>
    have hst : s.exec.status ≠ .succeeded := hst
    rw [step, stepNext.eq_def]
    split
    · rcases hP with hP | ⟨hu, pos, hP⟩
      · exact ⟨_, hP, .inl (.inr ⟨hst, .inl rfl⟩)⟩
      · exact ⟨pos, hP, .inr ⟨hu, hst⟩⟩
    · split
      · exact ⟨_, hP⟩
      · exact ⟨hst, hP⟩
    · rename_i info v rules
      obtain ⟨c, e, hl, rfl, ho, hnr, hP⟩ := hP
      rw [← ho]
      split
      · rename_i hf
        exact ⟨_, Path.uncaught hP hl hnr (find_none.1 hf), .inl (.inr ⟨hst, .inl rfl⟩)⟩
      · rename_i k hf
        have hfm := find_first.1 hf
        split
        · rename_i w hw
          refine ⟨hst, Path.caught hP hl hnr hfm ?_⟩
          rw [catchInput.eq_def] at hw
          split at hw
          · rename_i hr
            injection hw with hw
            exact .inl ⟨hr, hw.symm⟩
          · rename_i path hr
            split at hw
            · rename_i x hx
              injection hw with hw
              subst hw
              refine .inr ⟨path, env.text info.msg, hr, ?_⟩
              rw [ho]
              exact hx
            · cases hw
        · rename_i i hi
          refine ⟨fun _ => hst, .inl (Path.notHanded hP hl hnr hfm ?_)⟩
          rw [catchInput.eq_def] at hi
          split at hi
          · cases hi
          · rename_i path hr
            split at hi
            · cases hi
            · rename_i hx
              refine ⟨path, env.text info.msg, hr, ?_⟩
              rw [ho]
              exact hx

/-- An execution of a workflow without parallel states follows the workflow: the handlers called, their
order and their payloads are those that the workflow says for the answers so far, and so is the end. The
exceptions are states of the types that are not implemented, where it stops, and executions that
cannot be saved, which may end early, but then do not succeed. -/
theorem follows_partial {env : Env G F} (hs : Sequential env)
    {input : Json F} {s : S F} {p : Proc G F} (h : Reach env input (s, p)) :
    ∃ pos, Path env input (made env s.log) pos ∧
      ∀ v, p = .done v → AtEnd env s pos ∨ Unsaved s.log ∧ s.exec.status ≠ .succeeded := by
  have hS := sim hs h
  cases p with
  | join j bs => exact hS.elim
  | done v =>
    obtain ⟨pos, h1, h2⟩ := hS
    exact ⟨pos, h1, fun _ _ => h2⟩
  | crashed =>
    obtain ⟨pos, h1⟩ := hS
    exact ⟨pos, h1, nofun⟩
  | task t ret =>
    refine (?_ : ∃ pos, Path env input (made env s.log) pos).imp fun pos h => ⟨h, nofun⟩
    have hA : ∀ after, SimAfter env input s.log after →
        ∃ pos, Path env input (made env s.log) pos := by
      intro after h
      cases after with
      | stop => exact h.elim (fun h => ⟨_, h⟩) (·.2)
      | retry i v rule a => exact ⟨_, h⟩
      | catchErr i v rules =>
        obtain ⟨_, _, _, _, _, _, h⟩ := h
        exact ⟨_, h⟩
    obtain ⟨_, hS⟩ := hS
    cases t with
    | run n v prev parent => exact ⟨_, hS⟩
    | exec n r c v parent => exact ⟨_, hS.2⟩
    | finish n parent c r v o =>
      have hS : ∀ res, Shaped env c v o res → Path env input (made env s.log) (.tried n v res) := hS
      cases ho : stateOutput env n none c v o with
      | ok w => exact ⟨_, hS _ (output_shaped ho)⟩
      | error e => exact ⟨_, hS _ (output_refused ho).1⟩
    | complete v out => exact ⟨_, hS⟩
    | fail e v =>
      have hS : SimFail env input s.log e v := hS
      rw [SimFail] at hS
      split at hS
      · exact hS.2
      · exact ⟨_, hS⟩
      · exact ⟨_, hS⟩
      · exact ⟨_, hS.2⟩
    | record i n b c after => exact hA _ hS
    | persist e r b c after => exact hA _ hS
    | announce e r c after => exact hA _ hS
    | next after => exact hA _ hS

/-- The handler that a path calls next is that of the state where the execution is. -/
theorem call_at {env : Env G F} {input : Json F} {cs : List (Call F)} {a : Call F} {pos : Pos F}
    (h : Path env input (cs ++ [a]) pos) :
    ∃ v c, Path env input cs (.at a.state v) ∧ env.states.lookup a.state = some c ∧
      c.kind = .executeStep ∧ Renders env c v a.payload := by
  generalize hx : cs ++ [a] = xs at h
  have last : ∀ {cs' : List (Call F)} {b : Call F}, cs ++ [a] = cs' ++ [b] → cs = cs' ∧ a = b := by
    intro cs' b h
    obtain ⟨h1, h2⟩ := List.append_inj' h rfl
    injection h2 with h2
    exact ⟨h1, h2⟩
  induction h with
  | start => simp at hx
  | missing _ _ ih => exact ih hx
  | invalid _ _ _ _ ih => exact ih hx
  | unread _ _ _ ih => exact ih hx
  | unrendered _ _ _ _ _ _ ih => exact ih hx
  | answered hp hl _ hk _ hr _ _ =>
    obtain ⟨rfl, rfl⟩ := last hx
    exact ⟨_, _, hp, hl, hk, hr⟩
  | refused hp hl _ hk _ hr _ =>
    obtain ⟨rfl, rfl⟩ := last hx
    exact ⟨_, _, hp, hl, hk, hr⟩
  | panicked hp hl _ hk _ hr _ =>
    obtain ⟨rfl, rfl⟩ := last hx
    exact ⟨_, _, hp, hl, hk, hr⟩
  | waited _ _ _ _ _ ih => exact ih hx
  | notWaited _ _ _ _ _ ih => exact ih hx
  | next _ _ _ ih => exact ih hx
  | last _ _ _ _ ih => exact ih hx
  | dangling _ _ _ _ ih => exact ih hx
  | retry _ _ _ ih => exact ih hx
  | caught _ _ _ _ _ ih => exact ih hx
  | notHanded _ _ _ _ _ ih => exact ih hx
  | uncaught _ _ _ _ ih => exact ih hx

/-! ## Not to an end -/

/-- A workflow that consists of a pass state. -/
def passEnv : Env (Option Int) Int :=
  demoEnv [(['a'], { kind := .pass, isEnd := some true })] (fun _ _ v => .ok v)

theorem pass_stays {cs : List (Call Int)} {pos : Pos Int} (h : Path passEnv .null cs pos) :
    cs = [] ∧ pos = .at ['a'] .null := by
  have hk : ∀ {n c}, passEnv.states.lookup n = some c → c.kind = .pass ∧ c.inputPath = none := by
    intro n c hl
    have hm := lookup_mem hl
    simp only [passEnv, demoEnv, List.mem_singleton, Prod.mk.injEq] at hm
    rw [hm.2]
    exact ⟨rfl, rfl⟩
  induction h with
  | start => exact ⟨rfl, rfl⟩
  | missing _ hl ih =>
    obtain ⟨_, ih⟩ := ih
    injection ih with h1 h2
    subst h1
    cases hl
  | invalid _ hl _ hi ih =>
    rw [Invalid, (hk hl).1] at hi
    rcases hi with hi | hi | hi
    · cases hi
    · cases hi.1
    · cases hi.1
  | unread _ hl hr ih =>
    refine (hr ?_).elim
    intro p hp
    rw [(hk hl).2] at hp
    cases hp
  | unrendered _ hl _ h _ _ ih => rw [(hk hl).1] at h; cases h
  | answered _ hl _ h _ _ _ ih => rw [(hk hl).1] at h; cases h
  | refused _ hl _ h _ _ ih => rw [(hk hl).1] at h; cases h
  | panicked _ hl _ h _ _ ih => rw [(hk hl).1] at h; cases h
  | waited _ hl _ h _ ih => rw [(hk hl).1] at h; cases h
  | notWaited _ hl _ h _ ih => rw [(hk hl).1] at h; cases h
  | next _ _ _ ih => cases ih.2
  | last _ _ _ _ ih => cases ih.2
  | dangling _ _ _ _ ih => cases ih.2
  | retry _ _ _ ih => cases ih.2
  | caught _ _ _ _ _ ih => cases ih.2
  | notHanded _ _ _ _ _ ih => cases ih.2
  | uncaught _ _ _ _ ih => cases ih.2

/-- C168 is false: an execution stops at a pass state, which is neither the end of the workflow nor a
failure. -/
theorem follows_violated : ¬ FullFollows := by
  intro full
  have hr : Reach passEnv .null (step passEnv _ _ _) :=
    reach_step (reach_step (t := .run ['a'] .null none none) (ret := none) .start)
  obtain ⟨pos, h1, h2⟩ := full passEnv .null _ _ (by
    intro n c hm
    simp only [passEnv, demoEnv, List.mem_singleton, Prod.mk.injEq] at hm
    rw [hm.2]
    nofun) (fun _ _ => rfl) hr
  obtain ⟨_, rfl⟩ := pass_stays h1
  rcases h2 _ rfl with ⟨_, h⟩ | h <;> cases h

/-! ## An example -/

/-- A state whose errors are caught, and the state that catches them. -/
def caughtEnv : Env (Option Int) Int :=
  demoEnv [(['a'], { kind := .executeStep, isEnd := some true, catchers := some [⟨[['*']], ['b'], none⟩] }),
      (['b'], { kind := .executeStep, isEnd := some true })]
    (fun _ n _ => if n = ['a'] then .err ⟨['E'], ['m']⟩ else .ok (.int 7))

/-- The second state is executed after the first has failed, and the execution succeeds. -/
example : ∃ s v, Reach caughtEnv .null (s, .done v) ∧ s.exec.status = .succeeded ∧
    (made caughtEnv s.log).map (fun c => (c.state, c.payload)) = [(['a'], .null), (['b'], .null)] :=
  ⟨_, _, reach_start caughtEnv .null 11, by decide, by decide⟩

/-- The hypotheses of `follows_partial` hold of it. -/
example : Sequential caughtEnv := by
  intro n c hm
  simp only [caughtEnv, demoEnv, List.mem_cons, List.not_mem_nil, or_false, Prod.mk.injEq] at hm
  rcases hm with ⟨_, rfl⟩ | ⟨_, rfl⟩ <;> nofun

/-- The same workflow when nothing can be saved: the execution ends before the first step. -/
example : ∃ s v, Reach { caughtEnv with save := fun _ _ => false } .null (s, .done v) ∧
    s.exec.status = .failed ∧ made caughtEnv s.log = [] ∧ Unsaved s.log := by
  refine ⟨_, _, reach_start { caughtEnv with save := fun _ _ => false } .null 6, by decide, by decide,
    ⟨_, .tail _ (.tail _ (.head _))⟩⟩

end Verif.Workflow
