import Verif.Workflow.TimeProps
import Verif.Workflow.ParProps

/-!
# What executions that are announced say of their history

For C145, C146.
-/

namespace Verif.Workflow

variable {G F : Type} [DecidableEq F]

/-- The execution says how it ended: it succeeded, with a detail that names the last state entered, or it
failed, with the error of one of its states. -/
def SaysHow (e : Exec F) : Prop :=
  (e.status = .succeeded ∧ ∃ n, e.current = some n ∧ e.detail = .executing n) ∨
  (e.status = .failed ∧ ∃ r ∈ e.states, r.status = .failed ∧ ∃ n m, r.error = some (r.name, n, m) ∧
    e.detail = .error r.name n m)

/-- The execution says what it got and which states were entered. -/
def SaysWhat (input : Json F) (e : Exec F) (names : List Name) : Prop :=
  e.input = input ∧ e.states.map (·.name) = names ∧ e.current = names.getLast?

/-- What is announced at the end. -/
def Told (input : Json F) (ev : Event F) (before : List (Entry F)) : Prop :=
  match ev with
  | .complete e => SaysWhat input e (entered before).reverse ∧ SaysHow e
  | _ => True

/-- What the running task knows. -/
def ToldT (s : S F) : Task G F → Prop
  | .exec .. => ∃ n, s.exec.current = some n ∧ s.exec.detail = .executing n
  | .finish .. => ∃ n, s.exec.current = some n ∧ s.exec.detail = .executing n
  | .complete .. => ∃ n, s.exec.current = some n ∧ s.exec.detail = .executing n
  | .persist e _ _ continues _ => e = s.exec ∧ (continues = false → SaysHow e)
  | .announce e _ continues _ => e = s.exec ∧ (continues = false → SaysHow e)
  | _ => True

/-- What the running task knows, if there is one. -/
def ToldP (s : S F) : Proc G F → Prop
  | .task t _ => ToldT s t
  | _ => True

/-- What is known at any time. -/
def ToldS (input : Json F) (s : S F) : Prop :=
  SaysWhat input s.exec (entered s.log).reverse ∧ Flat s.exec.states ∧ Events (Told input) s.log

omit [DecidableEq F] in
theorem update_names {f : Rec F → Rec F} (hn : ∀ r, (f r).name = r.name) {name : Name}
    {parent : Option Name} {rs rs' : List (Rec F)} {r : Rec F} (hfl : Flat rs)
    (hu : updRec f name parent rs = some (r, rs')) :
    rs'.map (·.name) = rs.map (·.name) := by
  obtain ⟨_, before, old, after, h1, _, _, _, h3⟩ := updRec_some hfl hu
  subst h1 h3
  simp [hn]

omit [DecidableEq F] in
theorem ToldS.silent {input : Json F} {s : S F} (h : ToldS input s) {x : Entry F}
    (hx : ∀ ev, x ≠ .event ev) {e : Exec F} (hw : SaysWhat input e (entered s.log).reverse)
    (hf : Flat e.states) : ToldS input ⟨e, x :: s.log⟩ := by
  have he : entered (x :: s.log) = entered s.log := by
    cases x <;> first | rfl | exact absurd rfl (hx _)
  refine ⟨?_, hf, h.2.2.cons (fun ev hev => absurd hev (hx ev))⟩
  dsimp only
  rw [he]
  exact hw

theorem told_step {env : Env G F} (hsave : ∀ log e, env.save log e = true) {input : Json F} {s : S F}
    {t : Task G F} {ret : Option (Option (Json F))} (hq : SeqTask env t) (hs : Sequential env)
    (hi : ToldS input s) (ht : ToldT s t) :
    ToldS input (step env s ret t).1 ∧ ToldP (step env s ret t).1 (step env s ret t).2 := by
  have quiet : ∀ x : Entry F, (∀ ev, x ≠ .event ev) → ToldS input ⟨s.exec, x :: s.log⟩ :=
    fun x hx => hi.silent hx hi.1 hi.2.1
  cases t with
  | run name v prev parent =>
    rw [step, stepRun.eq_def]
    split
    · exact ⟨hi, trivial⟩
    next c _ =>
      split
      · exact ⟨hi, trivial⟩
      next w _ =>
        dsimp only
        generalize hr : newRec name c w prev (env.now s.log) = r
        have hn : r.name = name := by rw [← hr]; rfl
        have hp : r.parallel = [] := by rw [← hr]; rfl
        rw [save_true (s := ⟨s.exec.enter r, s.log⟩) (hsave _ _)]
        refine ⟨⟨⟨hi.1.1, ?_, ?_⟩, ?_, ?_⟩, ?_⟩
        · show (s.exec.states ++ [r]).map (·.name) = _
          rw [List.map_append, hi.1.2.1]
          simp [S.send, entered]
        · show some r.name = _
          simp [S.send, entered]
        · intro q hq
          rcases List.mem_append.1 hq with hq | hq
          · exact hi.2.1 q hq
          · rw [List.mem_singleton.1 hq]; exact hp
        · exact (hi.2.2.cons (fun ev hev => by cases hev)).cons (fun ev hev => by
            injection hev with hev; rw [← hev]; trivial)
        · exact ⟨r.name, rfl, rfl⟩
  | exec name r c v parent =>
    obtain ⟨rfl, hc⟩ : parent = none ∧ env.states.lookup name = some c := hq
    rw [step, stepExec]
    split
    · rw [stepStep]
      split
      · split
        · exact ⟨hi, trivial⟩
        · exact ⟨hi, trivial⟩
        · refine ⟨quiet _ nofun, ?_⟩
          dsimp only
          split
          · exact ht
          · trivial
          · trivial
      · exact ⟨hi, trivial⟩
    next hk => exact absurd hk (hs _ _ (lookup_mem hc))
    · rw [stepWait]
      split
      · exact ⟨hi, trivial⟩
      · split
        · exact ⟨hi, trivial⟩
        · exact ⟨quiet _ nofun, ht⟩
    · exact ⟨hi, trivial⟩
    · exact ⟨hi, trivial⟩
    · exact ⟨hi, trivial⟩
    · exact ⟨hi, trivial⟩
    · exact ⟨hi, trivial⟩
  | finish name parent c r v o =>
    rw [step, stepFinish]
    split
    · exact ⟨hi, trivial⟩
    next final _ =>
      split
      · exact ⟨hi, trivial⟩
      next q states hu =>
        have hn := update_names (f := Rec.complete (env.now s.log) o final) (fun _ => rfl) hi.2.1 hu
        have hf := flat_update hi.2.1 hu (fun _ => rfl)
        rw [save_true (s := ⟨{ s.exec with states := states }, s.log⟩) (hsave _ _)]
        have hi' : ToldS input (⟨{ s.exec with states := states },
            .saved { s.exec with states := states } :: s.log⟩ : S F) :=
          hi.silent (x := .saved { s.exec with states := states }) nofun
            ⟨hi.1.1, by rw [← hi.1.2.1, ← hn], hi.1.2.2⟩ hf
        dsimp only
        split
        · exact ⟨hi', trivial⟩
        · split
          · exact ⟨hi', ht⟩
          · exact ⟨hi', trivial⟩
  | complete v final =>
    rw [step, stepComplete]
    rw [save_true (s := ⟨s.succeeded env, s.log⟩) (hsave _ _)]
    have h1 : ToldS input (⟨s.succeeded env, .saved (s.succeeded env) :: s.log⟩ : S F) :=
      hi.silent (x := .saved (s.succeeded env)) nofun hi.1 hi.2.1
    refine ⟨⟨h1.1, h1.2.1, h1.2.2.cons ?_⟩, trivial⟩
    intro ev hev
    injection hev with hev
    rw [← hev]
    exact ⟨h1.1, Or.inl ⟨rfl, ht⟩⟩
  | fail e v =>
    rw [step]
    refine ⟨hi, ?_⟩
    show ToldT _ _
    rw [onError]
    split <;> trivial
  | record info name persist continues after =>
    rw [step, stepRecord]
    dsimp only
    have hst : ∀ d, (if continues = true then s.exec else s.failed env d).states =
        s.exec.states := by
      intro d
      split <;> rfl
    have hsw : ∀ d, SaysWhat input (if continues = true then s.exec else s.failed env d)
        (entered s.log).reverse := by
      intro d
      split
      · exact hi.1
      · exact hi.1
    rw [hst]
    split
    · exact ⟨⟨hsw _, by rw [hst]; exact hi.2.1, hi.2.2⟩, trivial⟩
    next r states hu =>
      have hn := update_names (f := Rec.fail (env.now s.log) (info.state, name, info.msg))
        (fun _ => rfl) hi.2.1 hu
      have hf := flat_update hi.2.1 hu (fun _ => rfl)
      obtain ⟨_, before, old, aft, h1, h2, _, h3, h4⟩ := updRec_some hi.2.1 hu
      have h5 := hsw (.error info.state name info.msg)
      refine ⟨⟨⟨h5.1, by rw [← hi.1.2.1, ← hn], h5.2.2⟩, hf, hi.2.2⟩, rfl, ?_⟩
      intro hcont
      subst hcont
      refine Or.inr ⟨rfl, r, ?_, ?_, ?_⟩
      · show r ∈ states
        rw [h4, h3]
        simp
      · rw [h3]; rfl
      · rw [h3]
        refine ⟨name, info.msg, ?_, ?_⟩
        · show some (info.state, name, info.msg) = some (old.name, name, info.msg)
          rw [h2]
        · show Detail.error info.state name info.msg = .error old.name name info.msg
          rw [h2]
  | persist e r persist continues after =>
    rw [step, stepPersist]
    dsimp only
    split
    · rw [S.save, if_pos (hsave _ _)]
      exact ⟨quiet _ nofun, ht⟩
    · exact ⟨hi, ht⟩
  | announce e r continues after =>
    obtain ⟨he, ht⟩ : e = s.exec ∧ (continues = false → SaysHow e) := ht
    rw [step, stepAnnounce]
    dsimp only
    have h1 : ToldS input (s.send (.failure r)) := ⟨hi.1, hi.2.1, hi.2.2.cons (fun ev hev => by
      injection hev with hev; rw [← hev]; trivial)⟩
    split
    · exact ⟨h1, trivial⟩
    next hcont =>
      refine ⟨⟨h1.1, h1.2.1, h1.2.2.cons ?_⟩, trivial⟩
      intro ev hev
      injection hev with hev
      rw [← hev]
      exact ⟨by rw [he]; exact h1.1, ht (by simpa using hcont)⟩
  | next after =>
    rw [step, stepNext.eq_def]
    split
    · exact ⟨hi, trivial⟩
    · split
      · exact ⟨hi, trivial⟩
      · exact ⟨quiet _ nofun, trivial⟩
    · split
      · exact ⟨hi, trivial⟩
      · split
        · exact ⟨hi, trivial⟩
        · exact ⟨hi, trivial⟩

/-- What sequential executions announce at the end, if everything can be saved. -/
theorem told {env : Env G F} (hs : Sequential env) (hsave : ∀ log e, env.save log e = true)
    {input : Json F} {s : S F} {p : Proc G F} (h : Reach env input (s, p)) :
    Events (Told input) s.log := by
  refine (seq_invariant hs input (fun s p => ToldS input s ∧ ToldP s p) ?_ ?_ h).1.1.2.2
  · refine ⟨⟨⟨rfl, rfl, rfl⟩, fun r hr => (List.not_mem_nil hr).elim, ?_⟩, trivial⟩
    intro later ev before he
    cases later <;> cases he
  · intro s t ret _ hq hP
    exact told_step hsave hq hs hP.1 hP.2

/-! ## C146: branches -/

/-- What is shown is flat, and what was entered is shown. -/
def FlatS (s : S F) : Prop :=
  Flat s.exec.states ∧ (∀ x ∈ s.log, ∀ r ∈ shown x, r.parallel = []) ∧
    ∀ n ∈ entered s.log, ∃ r ∈ s.exec.states, r.name = n

/-- What tasks know of records. -/
def FlatT : Task G F → Prop
  | .run _ _ prev _ => ∀ q, prev = some q → q.parallel = []
  | .exec _ r _ _ _ => r.parallel = []
  | .finish _ _ _ r _ _ => r.parallel = []
  | .persist e r _ _ _ => Flat e.states ∧ r.parallel = []
  | .announce e r _ _ => Flat e.states ∧ r.parallel = []
  | _ => True

omit [DecidableEq F] in
theorem FlatS.silent {s : S F} (h : FlatS s) {e : Exec F} {x : Entry F} (hf : Flat e.states)
    (hx : ∀ r ∈ shown x, r.parallel = []) (he : entered [x] = [])
    (hn : ∀ n, (∃ r ∈ s.exec.states, r.name = n) → ∃ r ∈ e.states, r.name = n) :
    FlatS ⟨e, x :: s.log⟩ := by
  refine ⟨hf, ?_, ?_⟩
  · intro y hy
    rcases List.mem_cons.1 hy with rfl | hy
    · exact hx
    · exact h.2.1 y hy
  · intro n hn'
    have : entered (x :: s.log) = entered s.log := by
      cases x with
      | event ev =>
        cases ev with
        | transition => cases he
        | failure => rfl
        | complete => rfl
      | called => rfl
      | saved => rfl
      | notSaved => rfl
      | slept => rfl
    rw [this] at hn'
    exact hn n (h.2.2 n hn')

omit [DecidableEq F] in
theorem update_keeps {f : Rec F → Rec F} (hn : ∀ r, (f r).name = r.name) {name : Name}
    {parent : Option Name} {rs rs' : List (Rec F)} {r : Rec F} (hfl : Flat rs)
    (hu : updRec f name parent rs = some (r, rs')) :
    ∀ n, (∃ r ∈ rs, r.name = n) → ∃ r ∈ rs', r.name = n := by
  intro n h
  have : n ∈ rs.map (·.name) := List.mem_map.2 h
  rw [← update_names hn hfl hu] at this
  exact List.mem_map.1 this

/-- No record ever has anything in the place for branches; all states entered are recorded in the list of
the execution. -/
theorem flat_shown {env : Env G F} {input : Json F} {s : S F} {p : Proc G F}
    (h : Reach env input (s, p)) : FlatS s := by
  refine (invariant env input FlatS (fun _ t _ => FlatT t) (fun _ j => j.r.parallel = [])
    (fun _ _ => True) (fun _ _ _ _ _ h => h) (fun _ _ _ _ h => h)
    ⟨⟨fun r hr => (List.not_mem_nil hr).elim, fun x hx => (List.not_mem_nil hx).elim,
      fun n hn => (List.not_mem_nil hn).elim⟩, nofun⟩ ?_ ?_ h).1
  · intro s t ret hi ht
    have quiet : ∀ x : Entry F, shown x = [] → entered [x] = [] → FlatS ⟨s.exec, x :: s.log⟩ :=
      fun x h1 h2 => hi.silent hi.1 (by rw [h1]; exact fun r hr => (List.not_mem_nil hr).elim) h2
        (fun _ h => h)
    cases t with
    | run name v prev parent =>
      rw [step, stepRun.eq_def]
      split
      · exact ⟨hi, trivial, .task _ _ trivial⟩
      next c _ =>
        split
        · exact ⟨hi, trivial, .task _ _ trivial⟩
        next w _ =>
          dsimp only
          generalize hr : newRec name c w prev (env.now s.log) = r
          have hp : r.parallel = [] := by rw [← hr]; rfl
          have hf : Flat (s.exec.enter r).states := by
            intro q hq
            rcases List.mem_append.1 hq with hq | hq
            · exact hi.1 q hq
            · rw [List.mem_singleton.1 hq]; exact hp
          have hk : ∀ n, (∃ r ∈ s.exec.states, r.name = n) →
              ∃ q ∈ (s.exec.enter r).states, q.name = n := by
            rintro n ⟨q, hq, hn⟩
            exact ⟨q, List.mem_append_left _ hq, hn⟩
          by_cases hsv : env.save s.log (s.exec.enter r) = true
          · rw [save_true (s := ⟨s.exec.enter r, s.log⟩) hsv]
            have h1 : FlatS (⟨s.exec.enter r, .saved (s.exec.enter r) :: s.log⟩ : S F) :=
              hi.silent (x := .saved (s.exec.enter r)) hf hf rfl hk
            refine ⟨⟨h1.1, ?_, ?_⟩, trivial, .task _ _ hp⟩
            · intro y hy
              rcases List.mem_cons.1 hy with rfl | hy
              · intro q hq
                rcases List.mem_append.1 hq with hq | hq
                · exact ht q (Option.mem_toList.1 hq)
                · rw [List.mem_singleton.1 hq]; exact hp
              · exact h1.2.1 y hy
            · intro n hn
              rcases List.mem_cons.1 (show n ∈ r.name :: entered s.log from hn) with rfl | hn
              · exact ⟨r, by simp [S.send, Exec.enter], rfl⟩
              · exact hk n (hi.2.2 n hn)
          · rw [save_false (s := ⟨s.exec.enter r, s.log⟩) hsv]
            exact ⟨hi.silent (x := .notSaved (s.exec.enter r)) hf hf rfl hk, trivial,
              .task _ _ trivial⟩
    | exec name r c v parent =>
      have ht : r.parallel = [] := ht
      rw [step, stepExec]
      split
      · rw [stepStep]
        split
        · split
          · exact ⟨hi, trivial, .task _ _ trivial⟩
          · exact ⟨hi, trivial, .crashed⟩
          · refine ⟨quiet _ rfl rfl, trivial, ?_⟩
            dsimp only
            split
            · exact .task _ _ ht
            · exact .task _ _ trivial
            · exact .crashed
        · exact ⟨hi, trivial, .task _ _ trivial⟩
      · rw [stepParallel]
        split
        · exact ⟨hi, trivial, .task _ _ trivial⟩
        · exact ⟨hi, trivial, .task _ _ trivial⟩
        · refine ⟨hi, trivial, .join _ _ ht ?_⟩
          intro p hp
          rw [List.mem_map] at hp
          obtain ⟨b, _, hb⟩ := hp
          subst hb
          split
          · exact .task _ _ nofun
          · exact .done _
      · rw [stepWait]
        split
        · exact ⟨hi, trivial, .task _ _ trivial⟩
        · split
          · exact ⟨hi, trivial, .task _ _ trivial⟩
          · exact ⟨quiet _ rfl rfl, trivial, .task _ _ ht⟩
      · exact ⟨hi, trivial, .done _⟩
      · exact ⟨hi, trivial, .done _⟩
      · exact ⟨hi, trivial, .done _⟩
      · exact ⟨hi, trivial, .done _⟩
      · exact ⟨hi, trivial, .task _ _ trivial⟩
    | finish name parent c r v o =>
      have ht : r.parallel = [] := ht
      rw [step, stepFinish]
      split
      · exact ⟨hi, trivial, .task _ _ trivial⟩
      next final _ =>
        split
        · exact ⟨hi, trivial, .crashed⟩
        next q states hu =>
          have hk := update_keeps (f := Rec.complete (env.now s.log) o final) (fun _ => rfl) hi.1 hu
          have hf := flat_update hi.1 hu (fun _ => rfl)
          by_cases hsv : env.save s.log { s.exec with states := states } = true
          · rw [save_true (s := ⟨{ s.exec with states := states }, s.log⟩) hsv]
            have hi' : FlatS (⟨{ s.exec with states := states },
                .saved { s.exec with states := states } :: s.log⟩ : S F) :=
              hi.silent (x := .saved { s.exec with states := states }) hf hf rfl hk
            dsimp only
            split
            · refine ⟨hi', trivial, .task _ _ ?_⟩
              intro q hq
              injection hq with hq
              rw [← hq]
              exact ht
            · split <;> exact ⟨hi', trivial, .task _ _ trivial⟩
          · rw [save_false (s := ⟨{ s.exec with states := states }, s.log⟩) hsv]
            exact ⟨hi.silent (x := .notSaved { s.exec with states := states }) hf hf rfl hk, trivial,
              .task _ _ trivial⟩
    | complete v final =>
      rw [step, stepComplete]
      by_cases hsv : env.save s.log (s.succeeded env) = true
      · rw [save_true (s := ⟨s.succeeded env, s.log⟩) hsv]
        have h1 : FlatS (⟨s.succeeded env, .saved (s.succeeded env) :: s.log⟩ : S F) :=
          hi.silent (x := .saved (s.succeeded env)) hi.1 hi.1 rfl (fun _ h => h)
        exact ⟨h1.silent (x := .event (.complete (s.succeeded env))) hi.1 hi.1 rfl (fun _ h => h),
          trivial, .done _⟩
      · rw [save_false (s := ⟨s.succeeded env, s.log⟩) hsv]
        exact ⟨hi.silent (x := .notSaved (s.succeeded env)) hi.1 hi.1 rfl (fun _ h => h), trivial,
          .task _ _ trivial⟩
    | fail e v =>
      rw [step]
      refine ⟨hi, trivial, .task _ _ ?_⟩
      rw [onError]
      split <;> trivial
    | record info name persist continues after =>
      rw [step, stepRecord]
      dsimp only
      have hst : ∀ d, (if continues = true then s.exec else s.failed env d).states =
          s.exec.states := by
        intro d
        split <;> rfl
      rw [hst]
      split
      · exact ⟨⟨by rw [Flat, hst]; exact hi.1, hi.2.1, by rw [hst]; exact hi.2.2⟩, trivial, .crashed⟩
      next r states hu =>
        have hk := update_keeps (f := Rec.fail (env.now s.log) (info.state, name, info.msg))
          (fun _ => rfl) hi.1 hu
        have hf := flat_update hi.1 hu (fun _ => rfl)
        obtain ⟨_, before, old, aft, h1, _, _, h3, h4⟩ := updRec_some hi.1 hu
        refine ⟨⟨hf, hi.2.1, fun n hn => hk n (hi.2.2 n hn)⟩, trivial, .task _ _ ⟨hf, ?_⟩⟩
        exact hf r (by rw [h4, h3]; simp)
    | persist e r persist continues after =>
      have ht : Flat e.states ∧ r.parallel = [] := ht
      rw [step, stepPersist]
      dsimp only
      split
      · rw [S.save]
        split
        · exact ⟨hi.silent (x := .saved e) hi.1 ht.1 rfl (fun _ h => h), trivial, .task _ _ ht⟩
        · exact ⟨hi.silent (x := .notSaved e) hi.1 ht.1 rfl (fun _ h => h), trivial, .task _ _ ht⟩
      · exact ⟨hi, trivial, .task _ _ ht⟩
    | announce e r continues after =>
      have ht : Flat e.states ∧ r.parallel = [] := ht
      rw [step, stepAnnounce]
      dsimp only
      have h1 : FlatS (s.send (.failure r)) := hi.silent (x := .event (.failure r)) hi.1
        (by intro q hq; rw [List.mem_singleton.1 hq]; exact ht.2) rfl (fun _ h => h)
      split
      · exact ⟨h1, trivial, .task _ _ trivial⟩
      · exact ⟨h1.silent (x := .event (.complete e)) hi.1 ht.1 rfl (fun _ h => h), trivial,
          .task _ _ trivial⟩
    | next after =>
      rw [step, stepNext.eq_def]
      split
      · exact ⟨hi, trivial, .done _⟩
      · split
        · exact ⟨hi, trivial, .crashed⟩
        · refine ⟨quiet _ rfl rfl, trivial, .task _ _ ?_⟩
          intro q hq
          exact hi.1 q (findRec_mem hi.1 hq)
      · split
        · exact ⟨hi, trivial, .done _⟩
        · split
          · refine ⟨hi, trivial, .task _ _ ?_⟩
            intro q hq
            exact hi.1 q (findRec_mem hi.1 hq)
          · exact ⟨hi, trivial, .task _ _ trivial⟩
  · intro s j results _ hj
    rw [joined]
    split
    · exact .task _ _ hj
    · exact .task _ _ trivial

/-- **C146, full statement.** A state of a branch that was entered is shown in the record of the parallel
state, and only there. -/
def FullBranches : Prop :=
  ∀ (env : Env (Option Int) Int) (input : Json Int) (s : S Int) (p : Proc (Option Int) Int),
    (∀ log e, env.save log e = true) → Reach env input (s, p) →
    ∀ n ∈ entered s.log, env.states.lookup n = none →
      (∃ r ∈ s.exec.states, r.kind = .parallel ∧ ∃ b ∈ r.parallel, ∃ q ∈ b, q.name = n) ∧
      ∀ r ∈ s.exec.states, r.name ≠ n

/-- A state of a branch has been entered. -/
theorem branch_entered : ∃ s p, Reach parallelEnv .null (s, p) ∧ ['b'] ∈ entered s.log := by
  have h0 : ∃ s j, Reach parallelEnv .null
      (s, .join j [.task (.run ['b'] .null none (some ['a'])) none]) ∧
      ∃ log, s = ⟨(initial .null).enter
          ⟨['a'], .parallel, none, .null, .inProgress, 1, none, [], none, none, 0, none⟩, log⟩ :=
    ⟨_, _, reach_start parallelEnv .null 2, _, rfl⟩
  obtain ⟨s, j, h, log, hs⟩ := h0
  subst hs
  have h1 := Reach.step _ _ h (.branch _ _ _ [] [] _ _ (.task _ _ _))
  exact ⟨_, _, h1, List.mem_cons_self⟩

/-- **C146 is false of the code**: no record ever shows the states of branches. -/
theorem branches_violated : ¬ FullBranches := by
  intro h
  obtain ⟨s, p, hr, hb⟩ := branch_entered
  obtain ⟨⟨r, h1, _, b, h2, _⟩, _⟩ := h parallelEnv .null s p (fun _ _ => rfl) hr _ hb rfl
  rw [(flat_shown hr).1 r h1] at h2
  cases h2

/-- Whatever is saved or announced by whatever execution: the place for branches is empty. -/
theorem branches_never {env : Env G F} {input : Json F} {s : S F} {p : Proc G F}
    (h : Reach env input (s, p)) : ∀ x ∈ s.log, ∀ r ∈ shown x, r.parallel = [] := (flat_shown h).2.1

/-- The states entered, those of branches too, are shown in the list of the states of the execution. -/
theorem branches_partial {env : Env G F} {input : Json F} {s : S F} {p : Proc G F}
    (h : Reach env input (s, p)) : ∀ n ∈ entered s.log, ∃ r ∈ s.exec.states, r.name = n :=
  (flat_shown h).2.2

example : ∃ s p, Reach parallelEnv .null (s, p) ∧ ∃ r ∈ s.exec.states, r.name = ['b'] := by
  obtain ⟨s, p, hr, hb⟩ := branch_entered
  exact ⟨s, p, hr, branches_partial hr _ hb⟩

end Verif.Workflow
