import Verif.Workflow.Spec

/-! # Lemmas about the workflow state machine -/

namespace Verif.Workflow

variable {G F : Type} [DecidableEq F]

/-! ## Executions -/

omit [DecidableEq F] in
theorem All.mono {T T' : Task G F → Option (Option (Json F)) → Prop} {J J' : Joining G F → Prop}
    (hT : ∀ t ret, T t ret → T' t ret) (hJ : ∀ j, J j → J' j) {p : Proc G F} (h : All T J p) :
    All T' J' p := by
  induction h with
  | task t ret h => exact .task t ret (hT t ret h)
  | join j bs h _ ih => exact .join j bs (hJ j h) ih
  | done v => exact .done v
  | crashed => exact .crashed

omit [DecidableEq F] in
theorem All.and {T T' : Task G F → Option (Option (Json F)) → Prop} {J J' : Joining G F → Prop}
    {p : Proc G F} (h : All T J p) (h' : All T' J' p) :
    All (fun t ret => T t ret ∧ T' t ret) J p := by
  induction h with
  | task t ret h => cases h' with
    | task _ _ h' => exact .task t ret ⟨h, h'⟩
  | join j bs h _ ih => cases h' with
    | join _ _ _ h' => exact .join j bs h (fun p hp => ih p hp (h' p hp))
  | done v => exact .done v
  | crashed => exact .crashed

omit [DecidableEq F] in
theorem All.running {T : Task G F → Option (Option (Json F)) → Prop} {J : Joining G F → Prop}
    {p : Proc G F} (h : All T J p) {t : Task G F} {ret : Option (Option (Json F))}
    (hr : Running t ret p) : T t ret := by
  induction hr with
  | here => cases h with
    | task _ _ h => exact h
  | branch j bs p hp _ ih => cases h with
    | join _ _ _ h => exact ih (h p hp)

/-- Invariants of concurrent executions: a property `I` of the execution and the log, one `T` of the
tasks and one `J` of the waiting parallel states, where `Le` is how a step of one task may change
the execution under the feet of the others. -/
theorem invariant (env : Env G F) (input : Json F) (I : S F → Prop)
    (T : S F → Task G F → Option (Option (Json F)) → Prop) (J : S F → Joining G F → Prop)
    (Le : S F → S F → Prop)
    (hT : ∀ s s' t ret, Le s s' → T s t ret → T s' t ret)
    (hJ : ∀ s s' j, Le s s' → J s j → J s' j)
    (hstart : I ⟨initial input, []⟩ ∧
      T ⟨initial input, []⟩ (.run env.startAt input none none) none)
    (hstep : ∀ s t ret, I s → T s t ret → I (step env s ret t).1 ∧ Le s (step env s ret t).1 ∧
      All (T (step env s ret t).1) (J (step env s ret t).1) (step env s ret t).2)
    (hjoined : ∀ s j results, I s → J s j → All (T s) (J s) (joined j results))
    {s : S F} {p : Proc G F} (h : Reach env input (s, p)) : I s ∧ All (T s) (J s) p := by
  have key : ∀ c c', Step env c c' → I c.1 → All (T c.1) (J c.1) c.2 →
      I c'.1 ∧ (Le c.1 c'.1 ∨ c'.1 = c.1) ∧ All (T c'.1) (J c'.1) c'.2 := by
    intro c c' hs
    induction hs with
    | task s t ret =>
      intro hi ha
      cases ha with
      | task _ _ ha =>
        obtain ⟨h1, h2, h3⟩ := hstep s t ret hi ha
        exact ⟨h1, Or.inl h2, h3⟩
    | branch s s' j before after p p' _ ih =>
      intro hi ha
      cases ha with
      | join _ _ hj hb =>
        obtain ⟨h1, h2, h3⟩ := ih hi (hb p (by simp))
        refine ⟨h1, h2, ?_⟩
        have keep : ∀ q, All (T s) (J s) q → All (T s') (J s') q := by
          intro q hq
          rcases h2 with h2 | h2
          · exact hq.mono (fun t ret => hT _ _ t ret h2) (fun j => hJ _ _ j h2)
          · dsimp only at h2; rw [h2]; exact hq
        refine .join j _ ?_ ?_
        · rcases h2 with h2 | h2
          · exact hJ _ _ j h2 hj
          · dsimp only at h2 ⊢; rw [h2]; exact hj
        · intro q hq
          simp only [List.mem_append, List.mem_cons] at hq
          rcases hq with hq | rfl | hq
          · exact keep q (hb q (by simp [hq]))
          · exact h3
          · exact keep q (hb q (by simp [hq]))
    | joined s j branches results _ =>
      intro hi ha
      cases ha with
      | join _ _ hj _ => exact ⟨hi, Or.inr rfl, hjoined s j results hi hj⟩
  generalize hc : (s, p) = c at h
  have : I c.1 ∧ All (T c.1) (J c.1) c.2 := by
    clear hc
    induction h with
    | start => exact ⟨hstart.1, .task _ _ hstart.2⟩
    | step c c' _ hs ih =>
      obtain ⟨h1, _, h3⟩ := key c c' hs ih.1 ih.2
      exact ⟨h1, h3⟩
  rw [← hc] at this
  exact this

/-- What a sequential execution reaches. -/
theorem reach_runN (env : Env G F) (input : Json F) : ∀ (n : Nat) (c : S F × Proc G F),
    Reach env input c → Reach env input (runN env n c)
  | 0, _, h => h
  | n + 1, (s, .task t ret), h => by
    rw [runN]
    exact reach_runN env input n _ (.step _ _ h (.task s t ret))
  | _ + 1, (_, .join _ _), h => h
  | _ + 1, (_, .done _), h => h
  | _ + 1, (_, .crashed), h => h

theorem reach_start (env : Env G F) (input : Json F) (n : Nat) :
    Reach env input (runN env n (start env input)) := reach_runN env input n _ .start

/-! ## Records -/

omit [DecidableEq F]

/-- There is a record of the state. -/
def Named (s : S F) (n : Name) : Prop := ∃ r ∈ s.exec.states, r.name = n

/-- The record has no records of branches. -/
def Flat (rs : List (Rec F)) : Prop := ∀ r ∈ rs, r.parallel = []

theorem findRec_none {name : Name} {rs : List (Rec F)} {r : Rec F}
    (h : findRec name none rs = some r) : r ∈ rs ∧ r.name = name := by
  induction rs with
  | nil => simp [findRec] at h
  | cons a rs ih =>
    rw [findRec] at h
    split at h
    next hn => injection h with h; subst h; exact ⟨by simp, hn⟩
    next => exact ⟨List.mem_cons_of_mem _ (ih h).1, (ih h).2⟩

theorem findRec_some_iff {name : Name} {rs : List (Rec F)} :
    (∃ r, findRec name none rs = some r) ↔ ∃ r ∈ rs, r.name = name := by
  induction rs with
  | nil => simp [findRec]
  | cons a rs ih =>
    rw [findRec]
    split
    next hn => simp [hn]
    next hn => rw [ih]; simp [hn]

theorem findRec_append {name : Name} {rs : List (Rec F)} {r : Rec F} :
    findRec name none (rs ++ [r]) =
      (findRec name none rs).or (if r.name = name then some r else none) := by
  induction rs with
  | nil => simp [findRec]
  | cons a rs ih =>
    rw [List.cons_append, findRec, findRec]
    split
    · rfl
    · exact ih

/-- Records of branches are never found. -/
theorem findRec_child {name p : Name} {rs : List (Rec F)} (h : Flat rs) :
    findRec name (some p) rs = none := by
  induction rs with
  | nil => rfl
  | cons a rs ih =>
    rw [findRec]
    split
    · rw [findChild]
      split
      · rw [h a (by simp)]; rfl
      · rfl
    · exact ih (fun r hr => h r (List.mem_cons_of_mem _ hr))

theorem updRec_child {f : Rec F → Rec F} {name p : Name} {rs : List (Rec F)} (h : Flat rs) :
    updRec f name (some p) rs = none := by
  induction rs with
  | nil => rfl
  | cons a rs ih =>
    rw [updRec]
    split
    · rw [updChild]
      split
      · rw [h a (by simp)]; rfl
      · rfl
    · rw [ih (fun r hr => h r (List.mem_cons_of_mem _ hr))]; rfl

/-- The first record with the name is changed. -/
theorem updFirst_some {f : Rec F → Rec F} {name : Name} {rs rs' : List (Rec F)} {r : Rec F}
    (h : updFirst f name rs = some (r, rs')) : ∃ before old after, rs = before ++ old :: after ∧
      old.name = name ∧ (∀ q ∈ before, q.name ≠ name) ∧ r = f old ∧
      rs' = before ++ f old :: after := by
  induction rs generalizing rs' with
  | nil => simp [updFirst] at h
  | cons a rs ih =>
    rw [updFirst] at h
    split at h
    next hn =>
      injection h with h
      injection h with h1 h2
      exact ⟨[], a, rs, rfl, hn, by simp, h1.symm, h2.symm⟩
    next hn =>
      rw [Option.map_eq_some_iff] at h
      obtain ⟨⟨q, qs⟩, h1, h2⟩ := h
      injection h2 with h2 h3
      dsimp only at h2 h3
      subst h2 h3
      obtain ⟨b, old, after, h4, h5, h6, h7, h8⟩ := ih h1
      refine ⟨a :: b, old, after, by rw [h4]; rfl, h5, ?_, h7, by rw [h8]; rfl⟩
      intro q hq
      rcases List.mem_cons.1 hq with hq | hq
      · rw [hq]; exact hn
      · exact h6 q hq

theorem updFirst_none {f : Rec F → Rec F} {name : Name} {rs : List (Rec F)} :
    updFirst f name rs = none ↔ ∀ q ∈ rs, q.name ≠ name := by
  induction rs with
  | nil => simp [updFirst]
  | cons a rs ih =>
    rw [updFirst]
    split
    next hn => simp [hn]
    next hn => rw [Option.map_eq_none_iff, ih]; simp [hn]

/-- How a change of a record changes the records, if those of branches do not exist. -/
theorem updRec_some {f : Rec F → Rec F} {name : Name} {parent : Option Name} {rs rs' : List (Rec F)}
    {r : Rec F} (hf : Flat rs) (h : updRec f name parent rs = some (r, rs')) :
    parent = none ∧ ∃ before old after, rs = before ++ old :: after ∧ old.name = name ∧
      (∀ q ∈ before, q.name ≠ name) ∧ r = f old ∧ rs' = before ++ f old :: after := by
  cases parent with
  | none => rw [updRec] at h; exact ⟨rfl, updFirst_some h⟩
  | some p => rw [updRec_child hf] at h; cases h

theorem findRec_split {name : Name} {before after : List (Rec F)} {r : Rec F}
    (hb : ∀ q ∈ before, q.name ≠ name) (hr : r.name = name) :
    findRec name none (before ++ r :: after) = some r := by
  induction before with
  | nil => rw [List.nil_append, findRec, if_pos hr]
  | cons a b ih =>
    rw [List.cons_append, findRec, if_neg (hb a (by simp))]
    exact ih (fun q hq => hb q (List.mem_cons_of_mem _ hq))

/-- A change of records that keeps names changes at most what is found. -/
theorem findRec_update {name : Name} {before after : List (Rec F)} {old new : Rec F}
    (hn : new.name = old.name) {r : Rec F}
    (h : findRec name none (before ++ new :: after) = some r) :
    findRec name none (before ++ old :: after) = some r ∨
      r = new ∧ findRec name none (before ++ old :: after) = some old := by
  induction before with
  | nil =>
    rw [List.nil_append, findRec] at h ⊢
    rw [hn] at h
    split at h
    next h' => injection h with h; rw [if_pos h']; exact Or.inr ⟨h.symm, rfl⟩
    next h' => rw [if_neg h']; exact Or.inl h
  | cons a b ih =>
    rw [List.cons_append, findRec] at h ⊢
    split at h
    next h' => rw [if_pos h']; exact Or.inl h
    next h' => rw [if_neg h']; exact ih h

/-! ## The first record of a state is its first attempt -/

/-- The first record of every state is its first attempt, and there are no records of branches. -/
def FirstAttempts (s : S F) : Prop :=
  (∀ n r, findRec n none s.exec.states = some r → r.attempt = 1) ∧ Flat s.exec.states

/-- The text `unknown`. -/
abbrev unknown : Name := ['u', 'n', 'k', 'n', 'o', 'w', 'n']

/-- Errors of recorded states, and the others. -/
def Located (s : S F) (e : Fail) : Prop :=
  Named s e.info.state ∨ e.info.parent ≠ none ∨ e.kind = .stateNotFound ∨ e.kind = .inputPath ∨
    e.info.state = unknown ∧ (e.kind = .invalidState ∨ e.kind = .persistFailed)

/-- Retries are planned with the attempt number 0 and only with rules that allow some. -/
def Planned : After F → Prop
  | .retry i _ rule a => a = 0 ∧ i.parent = none ∧ ∀ m, rule.maxAttempts = some m → 1 ≤ m
  | _ => True

/-- What tasks know about the records. -/
def Known (s : S F) : Task G F → Option (Option (Json F)) → Prop
  | .run _ _ prev _, _ => ∀ p, prev = some p → Named s p.name
  | .exec name r _ _ _, _ => r.name = name ∧ Named s name
  | .finish name _ _ r _ _, _ => r.name = name ∧ Named s name
  | .complete _ _, _ => True
  | .fail e _, _ => Located s e
  | .record info _ _ _ after, _ => ∀ i v rule a, after = .retry i v rule a → a = 0 ∧ i = info ∧
      (info.parent = none → ∀ m, rule.maxAttempts = some m → 1 ≤ m)
  | .persist _ _ _ _ after, _ => Planned after
  | .announce _ _ _ after, _ => Planned after
  | .next after, _ => Planned after

/-- What waiting parallel states know about the records. -/
def KnownJ (s : S F) (j : Joining G F) : Prop := j.r.name = j.name ∧ Named s j.name

/-- Recorded states stay recorded. -/
def Grows (s s' : S F) : Prop := ∀ n, Named s n → Named s' n

theorem Located.grow {s s' : S F} {e : Fail} (h : Grows s s') (hl : Located s e) : Located s' e := by
  rcases hl with hl | hl
  · exact Or.inl (h _ hl)
  · exact Or.inr hl

theorem Known.grow (s s' : S F) (t : Task G F) (ret : Option (Option (Json F))) (h : Grows s s')
    (hk : Known s t ret) : Known s' t ret := by
  cases t with
  | run _ _ prev _ => intro p hp; exact h _ (hk p hp)
  | exec => exact ⟨hk.1, h _ hk.2⟩
  | finish => exact ⟨hk.1, h _ hk.2⟩
  | fail => exact Located.grow h hk
  | complete => trivial
  | record => exact hk
  | persist => exact hk
  | announce => exact hk
  | next => exact hk

theorem save_true {env : Env G F} {s : S F} {e : Exec F} (h : env.save s.log e = true) :
    S.save env s e = (true, ⟨s.exec, .saved e :: s.log⟩) := by
  rw [S.save, if_pos h]

theorem save_false {env : Env G F} {s : S F} {e : Exec F} (h : ¬ env.save s.log e = true) :
    S.save env s e = (false, ⟨s.exec, .notSaved e :: s.log⟩) := by
  rw [S.save, if_neg h]

theorem save_exec (env : Env G F) (s : S F) (e : Exec F) : (S.save env s e).2.exec = s.exec := by
  rw [S.save]; split <;> rfl

/-- Changing a record keeps the invariant. -/
theorem updRec_first {f : Rec F → Rec F} (hfn : ∀ r, (f r).name = r.name)
    (hfa : ∀ r, (f r).attempt = r.attempt) (hfp : ∀ r, (f r).parallel = r.parallel) {name : Name}
    {parent : Option Name} {s : S F} {r : Rec F} {rs : List (Rec F)} (hi : FirstAttempts s)
    (h : updRec f name parent s.exec.states = some (r, rs)) (e : Exec F) (log : List (Entry F))
    (he : e.states = rs) : FirstAttempts ⟨e, log⟩ ∧ Grows s ⟨e, log⟩ := by
  obtain ⟨_, before, old, after, h1, _, _, _, h5⟩ := updRec_some hi.2 h
  refine ⟨⟨?_, ?_⟩, ?_⟩
  · intro n q hq
    dsimp only at hq
    rw [he, h5] at hq
    rcases findRec_update (hfn old) hq with h | ⟨h, h'⟩
    · rw [← h1] at h; exact hi.1 n q h
    · rw [h, hfa]; rw [← h1] at h'; exact hi.1 n old h'
  · intro q hq
    dsimp only at hq
    rw [he, h5] at hq
    simp only [List.mem_append, List.mem_cons] at hq
    rcases hq with hq | rfl | hq
    · exact hi.2 q (by rw [h1]; simp [hq])
    · rw [hfp]; exact hi.2 old (by rw [h1]; simp)
    · exact hi.2 q (by rw [h1]; simp [hq])
  · rintro n ⟨q, hq, hn⟩
    rw [h1] at hq
    simp only [List.mem_append, List.mem_cons] at hq
    rcases hq with hq | rfl | hq
    · exact ⟨q, by dsimp only; rw [he, h5]; simp [hq], hn⟩
    · exact ⟨f q, by dsimp only; rw [he, h5]; simp, by rw [hfn]; exact hn⟩
    · exact ⟨q, by dsimp only; rw [he, h5]; simp [hq], hn⟩

theorem FirstAttempts.same {s s' : S F} (h : s'.exec.states = s.exec.states)
    (hi : FirstAttempts s) : FirstAttempts s' := by
  rw [FirstAttempts, h]; exact hi

theorem Grows.same {s s' : S F} (h : s'.exec.states = s.exec.states) : Grows s s' := by
  intro n hn
  rw [Named, h]
  exact hn

/-- A step without effect on the records. -/
theorem first_same {s s' : S F} {p : Proc G F} (h : s'.exec.states = s.exec.states)
    (hi : FirstAttempts s) (hp : All (Known s') (KnownJ s') p) :
    FirstAttempts s' ∧ Grows s s' ∧ All (Known s') (KnownJ s') p :=
  ⟨hi.same h, .same h, hp⟩

/-- Which errors there are if the configuration of a state is not found. -/
theorem config_error {env : Env G F} {name : Name} {parent : Option Name} {e : Fail}
    (h : config env name parent = .error e) : e.info.state = name ∧ e.info.parent = parent ∧
      (parent ≠ none ∨ e.kind = .stateNotFound) := by
  cases parent with
  | none =>
    rw [config] at h
    split at h
    · cases h
    · injection h with h; subst h; exact ⟨rfl, rfl, Or.inr rfl⟩
  | some q =>
    rw [config] at h
    split at h
    · rw [childConfig] at h
      split at h
      · split at h
        · split at h
          · cases h
          · injection h with h; subst h; exact ⟨rfl, rfl, Or.inr rfl⟩
        · injection h with h; subst h; exact ⟨rfl, rfl, Or.inr rfl⟩
      · injection h with h; subst h; exact ⟨rfl, rfl, Or.inl (by simp)⟩
    · injection h with h; subst h; exact ⟨rfl, rfl, Or.inr rfl⟩

theorem stateInput_error {env : Env G F} {name : Name} {parent : Option Name} {c : State G}
    {input : Json F} {e : Fail} (h : stateInput env name parent c input = .error e) :
    e.kind = .inputPath ∧ e.info.state = name ∧ e.info.parent = parent ∧
      e.info.name = some "InvalidInputPath".toList ∧ c.inputPath ≠ none := by
  rw [stateInput] at h
  split at h
  · cases h
  next hc =>
    split at h
    · cases h
    · injection h with h; subst h; exact ⟨rfl, rfl, rfl, rfl, by rw [hc]; simp⟩

theorem stateOutput_error {env : Env G F} {name : Name} {parent : Option Name} {c : State G}
    {input output : Json F} {e : Fail} (h : stateOutput env name parent c input output = .error e) :
    (e.kind = .resultPath ∨ e.kind = .outputPath) ∧ e.info.state = name ∧ e.info.parent = parent := by
  rw [stateOutput] at h
  split at h
  · split at h
    · cases h
    · injection h with h; subst h; exact ⟨Or.inl rfl, rfl, rfl⟩
  · split at h
    · split at h
      · cases h
      · injection h with h; subst h; exact ⟨Or.inr rfl, rfl, rfl⟩
    · cases h

theorem waitUntil_error {env : Env G F} {now : Int} {t : List Char} {e : Fail}
    (h : waitUntil env now t = .error e) :
    e.kind = .invalidState ∧ e.info.state = unknown ∧ e.info.parent = none := by
  rw [waitUntil] at h
  split at h
  · injection h with h; subst h; exact ⟨rfl, rfl, rfl⟩
  · split at h
    · injection h with h; subst h; exact ⟨rfl, rfl, rfl⟩
    · cases h

/-- Which errors a wait can end with. -/
theorem waitTime_error {env : Env G F} {name : Name} {w : Wait} {input : Json F} {now : Int}
    {e : Fail} (h : waitTime env name w input now = .error e) : e.info.parent = none ∧
      (e.info.state = name ∧ (e.kind = .templateInvalid ∨ e.kind = .invalidState) ∨
        e.info.state = unknown ∧ e.kind = .invalidState ∧ w.timestamp ≠ none) := by
  rw [waitTime] at h
  split at h
  · rw [waitSeconds] at h
    split at h
    · split at h
      · injection h with h; subst h; exact ⟨rfl, Or.inl ⟨rfl, Or.inl rfl⟩⟩
      · split at h
        · cases h
        · injection h with h; subst h; exact ⟨rfl, Or.inl ⟨rfl, Or.inr rfl⟩⟩
    · split at h
      · cases h
      · injection h with h; subst h; exact ⟨rfl, Or.inl ⟨rfl, Or.inr rfl⟩⟩
  · split at h
    next ht =>
      rw [waitTimestamp] at h
      split at h
      · split at h
        · injection h with h; subst h; exact ⟨rfl, Or.inl ⟨rfl, Or.inl rfl⟩⟩
        · split at h
          · obtain ⟨h1, h2, h3⟩ := waitUntil_error h
            exact ⟨h3, Or.inr ⟨h2, h1, by rw [ht]; simp⟩⟩
          · injection h with h; subst h; exact ⟨rfl, Or.inl ⟨rfl, Or.inr rfl⟩⟩
      · obtain ⟨h1, h2, h3⟩ := waitUntil_error h
        exact ⟨h3, Or.inr ⟨h2, h1, by rw [ht]; simp⟩⟩
    · injection h with h; subst h; exact ⟨rfl, Or.inl ⟨rfl, Or.inr rfl⟩⟩

theorem templateErr_info (name : Name) (parent : Option Name) (e : Payload.Err) :
    (templateErr name parent e).info.state = name ∧
      (templateErr name parent e).info.parent = parent ∧
      (templateErr name parent e).info.name = none ∧
      ((templateErr name parent e).kind = .templateFailure ∨
        (templateErr name parent e).kind = .templateInvalid) := by
  cases e <;> simp [templateErr]

theorem first_run (env : Env G F) (s : S F) (name : Name) (input : Json F) (prev : Option (Rec F))
    (parent : Option Name) (ret : Option (Option (Json F))) (hi : FirstAttempts s)
    (hk : ∀ p, prev = some p → Named s p.name) {c : S F × Proc G F}
    (hc : stepRun env s name input prev parent ret = c) :
    FirstAttempts c.1 ∧ Grows s c.1 ∧ All (Known c.1) (KnownJ c.1) c.2 := by
  subst hc
  rw [stepRun.eq_def]
  split
  next e he =>
    refine first_same rfl hi (.task _ _ ?_)
    obtain ⟨_, h2, h3⟩ := config_error he
    rcases h3 with h3 | h3
    · exact Or.inr (Or.inl (by rw [h2]; exact h3))
    · exact Or.inr (Or.inr (Or.inl h3))
  next cf _ =>
    split
    next e he =>
      exact first_same rfl hi (.task _ _ (Or.inr (Or.inr (Or.inr (Or.inl (stateInput_error he).1)))))
    next recorded _ =>
      dsimp only
      generalize hr : newRec name cf recorded prev (env.now s.log) = r
      generalize he : s.exec.enter r = e
      have hst : e.states = s.exec.states ++ [r] := by rw [← he, Exec.enter]
      have hrn : r.name = name := by rw [← hr]; rfl
      have hfirst : FirstAttempts ⟨e, s.log⟩ := by
        constructor
        · intro n q hq
          dsimp only at hq
          rw [hst, findRec_append] at hq
          cases hf : findRec n none s.exec.states with
          | some q' => rw [hf] at hq; injection hq with hq; rw [← hq]; exact hi.1 n q' hf
          | none =>
            rw [hf, Option.none_or] at hq
            split at hq
            next hn =>
              injection hq with hq
              have : ¬ Named s name := by
                rintro ⟨q', hq', hn'⟩
                obtain ⟨x, hx⟩ := findRec_some_iff.2 ⟨q', hq', hn'⟩
                rw [← hrn, hn, hf] at hx
                cases hx
              rw [← hq, ← hr, newRec]
              dsimp only
              cases prev with
              | none => rfl
              | some p =>
                rw [attemptOf, if_neg]
                intro hp
                exact this (by rw [← hp]; exact hk p rfl)
            next => cases hq
        · intro q hq
          dsimp only at hq
          rw [hst] at hq
          simp only [List.mem_append, List.mem_cons, List.not_mem_nil, or_false] at hq
          rcases hq with hq | rfl
          · exact hi.2 q hq
          · rw [← hr, newRec]
      have hgrow : Grows s ⟨e, s.log⟩ := by
        rintro n ⟨q, hq, hn⟩
        exact ⟨q, by dsimp only; rw [hst]; simp [hq], hn⟩
      have hname : Named (⟨e, s.log⟩ : S F) name := ⟨r, by dsimp only; rw [hst]; simp, hrn⟩
      by_cases hs : env.save s.log e = true
      · rw [save_true (s := ⟨e, s.log⟩) hs]
        exact ⟨hfirst.same rfl, fun n hn => hgrow n hn, .task _ _ ⟨hrn, hname⟩⟩
      · rw [save_false (s := ⟨e, s.log⟩) hs]
        exact ⟨hfirst.same rfl, fun n hn => hgrow n hn, .task _ _ (Or.inl hname)⟩

theorem first_exec [DecidableEq F] (env : Env G F) (s : S F) (name : Name) (r : Rec F) (cf : State G)
    (input : Json F) (parent : Option Name) (ret : Option (Option (Json F)))
    (hi : FirstAttempts s) (hk : r.name = name ∧ Named s name) {c : S F × Proc G F}
    (hc : stepExec env s name r cf input parent ret = c) :
    FirstAttempts c.1 ∧ Grows s c.1 ∧ All (Known c.1) (KnownJ c.1) c.2 := by
  subst hc
  rw [stepExec]
  split
  · rw [stepStep]
    split
    · split
      next e _ =>
        refine first_same rfl hi (.task _ _ (Or.inl ?_))
        rw [(templateErr_info name parent e).1]
        exact hk.2
      · exact first_same rfl hi .crashed
      · refine first_same rfl hi ?_
        dsimp only
        split
        · exact .task _ _ hk
        · exact .task _ _ (Or.inl hk.2)
        · exact .crashed
    · exact first_same rfl hi (.task _ _ (Or.inl hk.2))
  · rw [stepParallel]
    split
    · exact first_same rfl hi (.task _ _ (Or.inl hk.2))
    · exact first_same rfl hi (.task _ _ (Or.inl hk.2))
    · refine first_same rfl hi (.join _ _ hk ?_)
      intro p hp
      rw [List.mem_map] at hp
      obtain ⟨b, _, hb⟩ := hp
      subst hb
      split
      · exact .task _ _ (by intro p hp; cases hp)
      · exact .done _
  · rw [stepWait]
    split
    · exact first_same rfl hi (.task _ _ (Or.inl hk.2))
    · split
      next e he =>
        refine first_same rfl hi (.task _ _ ?_)
        obtain ⟨_, h | h⟩ := waitTime_error he
        · exact Or.inl (by rw [h.1]; exact hk.2)
        · exact Or.inr (Or.inr (Or.inr (Or.inr ⟨h.1, Or.inl h.2.1⟩)))
      · exact first_same rfl hi (.task _ _ hk)
  · exact first_same rfl hi (.done _)
  · exact first_same rfl hi (.done _)
  · exact first_same rfl hi (.done _)
  · exact first_same rfl hi (.done _)
  · exact first_same rfl hi (.task _ _ (Or.inl hk.2))

theorem first_finish (env : Env G F) (s : S F) (name : Name) (parent : Option Name) (cf : State G)
    (r : Rec F) (input output : Json F) (ret : Option (Option (Json F)))
    (hi : FirstAttempts s) (hk : r.name = name ∧ Named s name) {c : S F × Proc G F}
    (hc : stepFinish env s name parent cf r input output ret = c) :
    FirstAttempts c.1 ∧ Grows s c.1 ∧ All (Known c.1) (KnownJ c.1) c.2 := by
  subst hc
  rw [stepFinish]
  split
  next e he =>
    exact first_same rfl hi (.task _ _ (Or.inl (by rw [(stateOutput_error he).2.1]; exact hk.2)))
  next final _ =>
    split
    · exact first_same rfl hi .crashed
    next q states hu =>
      have hu' := fun e log he => updRec_first (f := Rec.complete (env.now s.log) output final) (fun _ => rfl)
        (fun _ => rfl) (fun _ => rfl) hi hu e log he
      obtain ⟨h3, h4⟩ := hu' { s.exec with states := states } s.log rfl
      by_cases hs : env.save s.log { s.exec with states := states } = true
      · rw [save_true (s := ⟨{ s.exec with states := states }, s.log⟩) hs]
        dsimp only
        split
        · refine ⟨h3.same rfl, fun n hn => h4 n hn, .task _ _ ?_⟩
          intro p hp
          injection hp with hp
          rw [← hp, hk.1]
          exact h4 _ hk.2
        · split
          · exact ⟨h3.same rfl, fun n hn => h4 n hn, .task _ _ trivial⟩
          · exact ⟨h3.same rfl, fun n hn => h4 n hn, .task _ _ (Or.inl (h4 _ hk.2))⟩
      · rw [save_false (s := ⟨{ s.exec with states := states }, s.log⟩) hs]
        exact ⟨h3.same rfl, fun n hn => h4 n hn, .task _ _ (Or.inl (h4 _ hk.2))⟩

theorem Located.named {s : S F} {e : Fail} (h : Located s e) (hr : Retryable e.kind)
    (hp : e.info.parent = none) : Named s e.info.state := by
  rcases h with h | h | h | h | ⟨_, h | h⟩
  · exact h
  · exact absurd hp h
  all_goals exact absurd hr (by rw [h]; simp [Retryable])

/-- The number of attempts is never found exceeded, except if no retries are allowed. -/
theorem exceeded_first {s : S F} (hi : FirstAttempts s) {info : Info} {rule : Retry}
    (hn : Named s info.state) (hp : info.parent = none) :
    exceeded s info (some rule) = (0, false) ∧ (∀ m, rule.maxAttempts = some m → 1 ≤ m) ∨
      exceeded s info (some rule) = (1, true) ∧ ∃ m, rule.maxAttempts = some m ∧ m ≤ 0 := by
  obtain ⟨r, hr⟩ := findRec_some_iff.2 hn
  have ha := hi.1 _ _ hr
  rw [exceeded.eq_def, hp, hr]
  dsimp only
  cases hm : rule.maxAttempts with
  | none => exact Or.inl ⟨rfl, by simp⟩
  | some m =>
    dsimp only
    rw [ha]
    by_cases h : m ≤ 0
    · exact Or.inr ⟨by rw [if_pos (by simpa using h)]; rfl, m, rfl, h⟩
    · refine Or.inl ⟨by rw [if_neg (by simpa using h)], ?_⟩
      intro m' hm'
      injection hm' with hm'
      omega

theorem exceeded_false {s : S F} {info : Info} {rule : Option Retry}
    (h : (exceeded s info rule).2 = false) : (exceeded s info rule).1 = 0 := by
  revert h
  rw [exceeded.eq_def]
  split
  · split
    · split <;> simp
    · simp
  · simp

theorem retryable_known (env : Env G F) (s : S F) (e : Fail) (input : Json F) (fallback : Name)
    (hi : FirstAttempts s) (hl : Located s e) (hr : Retryable e.kind)
    (ret : Option (Option (Json F))) : Known s (retryable env s e.info input fallback) ret := by
  rw [retryable]
  intro i v rule a ha
  generalize hru : retryRule env e.info (finalName e.info fallback) = ru at ha
  split at ha
  next c h2 =>
    injection ha with h3 h4 h5 h6
    subst h3 h5
    refine ⟨by rw [← h6]; exact exceeded_false h2, rfl, ?_⟩
    intro hp
    rcases exceeded_first hi (rule := c) (hl.named hr hp) hp with h | h
    · exact h.2
    · rw [h.1] at h2; cases h2
  next => cases ha

theorem first_step [DecidableEq F] (env : Env G F) (s : S F) (t : Task G F)
    (ret : Option (Option (Json F))) (hi : FirstAttempts s) (hk : Known s t ret) :
    FirstAttempts (step env s ret t).1 ∧ Grows s (step env s ret t).1 ∧
      All (Known (step env s ret t).1) (KnownJ (step env s ret t).1) (step env s ret t).2 := by
  cases t with
  | run name input prev parent => exact first_run env s name input prev parent ret hi hk rfl
  | exec name r c input parent => exact first_exec env s name r c input parent ret hi hk rfl
  | finish name parent c r input output =>
    exact first_finish env s name parent c r input output ret hi hk rfl
  | complete input final =>
    rw [step, stepComplete]
    by_cases hs : env.save s.log (s.succeeded env) = true
    · rw [save_true (s := ⟨s.succeeded env, s.log⟩) hs]
      exact first_same rfl hi (.done _)
    · rw [save_false (s := ⟨s.succeeded env, s.log⟩) hs]
      exact first_same rfl hi (.task _ _ (Or.inr (Or.inr (Or.inr (Or.inr ⟨rfl, Or.inr rfl⟩)))))
  | fail e input =>
    rw [step]
    refine first_same rfl hi (.task _ _ ?_)
    dsimp only
    rw [onError]
    split
    · intro i v rule a ha; cases ha
    · intro i v rule a ha; cases ha
    · intro i v rule a ha; cases ha
    · trivial
    · trivial
    · trivial
    next h => exact retryable_known env s e input _ hi hk (by rw [h]; simp [Retryable]) _
    next h => exact retryable_known env s e input _ hi hk (by rw [h]; simp [Retryable]) _
    next h => exact retryable_known env s e input _ hi hk (by rw [h]; simp [Retryable]) _
    next h => exact retryable_known env s e input _ hi hk (by rw [h]; simp [Retryable]) _
  | record info name persist continues after =>
    rw [step, stepRecord]
    dsimp only
    generalize he : (if continues = true then s.exec else
      s.failed env (.error info.state name info.msg)) = e
    have hs : e.states = s.exec.states := by rw [← he]; split <;> rfl
    split
    · exact first_same hs hi .crashed
    next q states hu =>
      rw [hs] at hu
      obtain ⟨h1, h2⟩ := updRec_first (f := Rec.fail (env.now s.log) (info.state, name, info.msg)) (fun _ => rfl)
        (fun _ => rfl) (fun _ => rfl) hi hu { e with states := states } s.log rfl
      refine ⟨h1, h2, .task _ _ ?_⟩
      have hp := (updRec_some hi.2 hu).1
      cases after with
      | retry i v rule a =>
        obtain ⟨h3, h4, h5⟩ := hk i v rule a rfl
        subst h4
        exact ⟨h3, hp, h5 hp⟩
      | stop => trivial
      | catchErr => trivial
  | persist e r persist continues after =>
    rw [step, stepPersist]
    dsimp only
    refine first_same ?_ hi (.task _ _ hk)
    split
    · rw [save_exec]
    · rfl
  | announce e r continues after =>
    rw [step, stepAnnounce]
    dsimp only
    refine first_same ?_ hi (.task _ _ hk)
    split <;> rfl
  | next after =>
    rw [step, stepNext.eq_def]
    split
    · exact first_same rfl hi (.done _)
    next info input rule attempts =>
      split
      · exact first_same rfl hi .crashed
      · refine first_same rfl hi (.task _ _ ?_)
        intro p hp
        cases hpar : info.parent with
        | none =>
          rw [hpar] at hp
          exact ⟨p, (findRec_none hp).1, rfl⟩
        | some q => rw [hpar, findRec_child hi.2] at hp; cases hp
    next info input rules =>
      split
      · exact first_same rfl hi (.done _)
      next cr _ =>
        split
        · refine first_same rfl hi (.task _ _ ?_)
          intro p hp
          cases hpar : info.parent with
          | none =>
            rw [hpar] at hp
            exact ⟨p, (findRec_none hp).1, rfl⟩
          | some q => rw [hpar, findRec_child hi.2] at hp; cases hp
        · exact first_same rfl hi (.task _ _ (by intro i v rule a ha; cases ha))

/-- In every execution, the first record of every state is its first attempt and records of branches
do not exist. -/
theorem reach_first [DecidableEq F] {env : Env G F} {input : Json F} {s : S F} {p : Proc G F}
    (h : Reach env input (s, p)) : FirstAttempts s ∧ All (Known s) (KnownJ s) p := by
  refine invariant env input FirstAttempts Known KnownJ Grows Known.grow
    (fun s s' j hg hj => ⟨hj.1, hg _ hj.2⟩) ⟨⟨?_, ?_⟩, ?_⟩ (first_step env) ?_ h
  · intro n r hr
    simp [initial, findRec] at hr
  · intro r hr
    simp [initial] at hr
  · intro p hp
    cases hp
  · intro s j results _ hj
    rw [joined]
    split
    · exact .task _ _ hj
    · exact .task _ _ (Or.inl hj.2)

/-- A change of records keeps what the change keeps of one. -/
theorem updFirst_map {α : Type} {f : Rec F → Rec F} {g : Rec F → α} (hg : ∀ r, g (f r) = g r)
    {name : Name} {rs rs' : List (Rec F)} {r : Rec F} (h : updFirst f name rs = some (r, rs')) :
    rs'.map g = rs.map g := by
  obtain ⟨before, old, after, h1, _, _, _, h5⟩ := updFirst_some h
  rw [h5, h1]
  simp [hg]

/-- The first record with the name is changed. -/
theorem updFirst_split {f : Rec F → Rec F} {name : Name} {before after : List (Rec F)} {r : Rec F}
    (hb : ∀ q ∈ before, q.name ≠ name) (hr : r.name = name) :
    updFirst f name (before ++ r :: after) = some (f r, before ++ f r :: after) := by
  induction before with
  | nil => rw [List.nil_append, updFirst, if_pos hr]; rfl
  | cons a b ih =>
    rw [List.cons_append, updFirst, if_neg (hb a (by simp)),
      ih (fun q hq => hb q (List.mem_cons_of_mem _ hq))]
    rfl

/-! ## Sequential executions -/

/-- What follows after an error is outside of branches. -/
def SeqAfter (env : Env G F) : After F → Prop
  | .stop => True
  | .retry i _ _ _ => i.parent = none
  | .catchErr i _ rules => i.parent = none ∧ rules = catchersOf env i

/-- The task is outside of branches. -/
def SeqTask (env : Env G F) : Task G F → Prop
  | .run _ _ _ parent => parent = none
  | .exec name _ c _ parent => parent = none ∧ env.states.lookup name = some c
  | .finish name parent c _ _ _ => parent = none ∧ env.states.lookup name = some c
  | .complete _ _ => True
  | .fail e _ => e.info.parent = none
  | .record info _ _ _ after => info.parent = none ∧ SeqAfter env after
  | .persist _ _ _ _ after => SeqAfter env after
  | .announce _ _ _ after => SeqAfter env after
  | .next after => SeqAfter env after

/-- No parallel state waits. -/
inductive SeqProc (env : Env G F) : Proc G F → Prop
  | task (t : Task G F) (ret : Option (Option (Json F))) : SeqTask env t → SeqProc env (.task t ret)
  | done (v : Option (Json F)) : SeqProc env (.done v)
  | crashed : SeqProc env .crashed

theorem retryable_seq (env : Env G F) (s : S F) (info : Info) (input : Json F) (fallback : Name)
    (h : info.parent = none) : SeqTask env (retryable env s info input fallback) := by
  rw [retryable]
  refine ⟨h, ?_⟩
  split
  · exact h
  · exact ⟨h, rfl⟩

theorem lookup_mem {β : Type} {k : Name} {l : List (Name × β)} {v : β} (h : l.lookup k = some v) :
    (k, v) ∈ l := by
  induction l with
  | nil => simp at h
  | cons a l ih =>
    obtain ⟨k', v'⟩ := a
    rw [List.lookup_cons] at h
    split at h
    next hk =>
      injection h with h
      have hk : k = k' := by simpa using hk
      rw [hk, h]
      simp
    next => exact List.mem_cons_of_mem _ (ih h)

theorem seq_step [DecidableEq F] {env : Env G F} (hs : Sequential env) (s : S F) (t : Task G F)
    (ret : Option (Option (Json F))) (ht : SeqTask env t) : SeqProc env (step env s ret t).2 := by
  cases t with
  | run name input prev parent =>
    obtain rfl : parent = none := ht
    rw [step, stepRun.eq_def]
    split
    next e he => exact .task _ _ (config_error he).2.1
    next c hc =>
      have hc : env.states.lookup name = some c := by
        rw [config] at hc
        split at hc
        next h => injection hc with hc; rw [h, hc]
        next => cases hc
      split
      next e he => exact .task _ _ (stateInput_error he).2.2.1
      · dsimp only
        split
        · exact .task _ _ ⟨rfl, hc⟩
        · exact .task _ _ rfl
  | exec name r c input parent =>
    obtain ⟨rfl, hc⟩ : parent = none ∧ env.states.lookup name = some c := ht
    rw [step, stepExec]
    split
    · rw [stepStep]
      split
      · split
        next e _ => exact .task _ _ (templateErr_info name none e).2.1
        · exact .crashed
        · dsimp only
          split
          · exact .task _ _ ⟨rfl, hc⟩
          · exact .task _ _ rfl
          · exact .crashed
      · exact .task _ _ rfl
    next hk => exact absurd hk (hs _ _ (lookup_mem hc))
    · rw [stepWait]
      split
      · exact .task _ _ rfl
      · split
        next e he => exact .task _ _ (waitTime_error he).1
        · exact .task _ _ ⟨rfl, hc⟩
    · exact .done _
    · exact .done _
    · exact .done _
    · exact .done _
    · exact .task _ _ rfl
  | finish name parent c r input output =>
    obtain ⟨rfl, hc⟩ : parent = none ∧ env.states.lookup name = some c := ht
    rw [step, stepFinish]
    split
    next e he => exact .task _ _ (stateOutput_error he).2.2
    · split
      · exact .crashed
      · split
        · exact .task _ _ rfl
        · split
          · exact .task _ _ rfl
          · split
            · exact .task _ _ trivial
            · exact .task _ _ rfl
  | complete input final =>
    rw [step, stepComplete]
    split
    · exact .done _
    · exact .task _ _ rfl
  | fail e input =>
    rw [step]
    refine .task _ _ ?_
    rw [onError]
    split
    · exact ⟨ht, trivial⟩
    · exact ⟨ht, trivial⟩
    · exact ⟨ht, trivial⟩
    · exact ⟨ht, rfl⟩
    · exact ⟨ht, rfl⟩
    · exact ⟨ht, rfl⟩
    · exact retryable_seq env s _ _ _ ht
    · exact retryable_seq env s _ _ _ ht
    · exact retryable_seq env s _ _ _ ht
    · exact retryable_seq env s _ _ _ ht
  | record info name persist continues after =>
    rw [step, stepRecord]
    dsimp only
    split
    · exact .crashed
    · exact .task _ _ ht.2
  | persist e r persist continues after => exact .task _ _ ht
  | announce e r continues after => exact .task _ _ ht
  | next after =>
    rw [step, stepNext.eq_def]
    split
    · exact .done _
    · split
      · exact .crashed
      · exact .task _ _ ht
    · split
      · exact .done _
      · split
        · exact .task _ _ ht.1
        next i hi =>
          refine .task _ _ ⟨?_, trivial⟩
          rw [catchInput] at hi
          split at hi
          · cases hi
          · split at hi
            · cases hi
            · injection hi with hi
              rw [← hi]
              exact ht.1

/-- Invariants of sequential executions. -/
theorem seq_invariant [DecidableEq F] {env : Env G F} (hs : Sequential env) (input : Json F)
    (P : S F → Proc G F → Prop)
    (h0 : P ⟨initial input, []⟩ (.task (.run env.startAt input none none) none))
    (hstep : ∀ s t ret, Reach env input (s, .task t ret) → SeqTask env t → P s (.task t ret) →
      P (step env s ret t).1 (step env s ret t).2)
    {s : S F} {p : Proc G F} (h : Reach env input (s, p)) : P s p ∧ SeqProc env p := by
  generalize hc : (s, p) = c at h
  have : P c.1 c.2 ∧ SeqProc env c.2 := by
    clear hc s p
    induction h with
    | start => exact ⟨h0, .task _ _ rfl⟩
    | step c c' hr hst ih =>
      obtain ⟨hP, hseq⟩ := ih
      cases hst with
      | task s t ret =>
        cases hseq with
        | task _ _ ht => exact ⟨hstep s t ret hr ht hP, seq_step hs s t ret ht⟩
      | branch => cases hseq
      | joined => cases hseq
  rw [← hc] at this
  exact this

/-- A sequential execution is determined by its environment. -/
theorem seq_runN [DecidableEq F] {env : Env G F} (hs : Sequential env) {input : Json F}
    {c : S F × Proc G F} (h : Reach env input c) : ∃ k, c = runN env k (start env input) := by
  have add : ∀ k (a : S F × Proc G F), runN env (k + 1) a = runN env 1 (runN env k a) := by
    intro k
    induction k with
    | zero => intro a; rfl
    | succ k ih =>
      rintro ⟨s, p⟩
      cases p with
      | task t ret =>
        rw [runN, ih]
        rfl
      | join => rfl
      | done => rfl
      | crashed => rfl
  induction h with
  | start => exact ⟨0, rfl⟩
  | step c c' hr hst ih =>
    obtain ⟨k, hk⟩ := ih
    refine ⟨k + 1, ?_⟩
    rw [add, ← hk]
    have hseq := (seq_invariant hs input (fun _ _ => True) trivial
      (fun _ _ _ _ _ _ => trivial) (s := c.1) (p := c.2) hr).2
    cases hst with
    | task s t ret => rfl
    | branch => cases hseq
    | joined => cases hseq

end Verif.Workflow
