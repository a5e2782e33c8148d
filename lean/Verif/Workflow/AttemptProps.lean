import Verif.Workflow.TimeProps

/-!
# The numbers of attempts

C129.
-/

namespace Verif.Workflow

variable {G F : Type} [DecidableEq F]

/-- C129 as stated. -/
def FullNumbers : Prop :=
  ∀ (env : Env (Option Int) Int) (input : Json Int) (s : S Int) (p : Proc (Option Int) Int),
    Sequential env → NoCatch env → NoLoop env → Reach env input (s, p) → Events Numbered s.log

/-- The third attempt is announced as the second. -/
theorem numbers_violated : ¬ FullNumbers := by
  intro h
  have hm : ∀ n c, (n, c) ∈ failingEnv.states → n = ['a'] ∧ c = failing := by
    intro n c hc
    simpa only [failingEnv, demoEnv, List.mem_cons, List.not_mem_nil, or_false, Prod.mk.injEq]
      using hc
  have := h failingEnv .null _ _ (by intro n c hc; rw [(hm n c hc).2]; nofun)
    (by intro n c hc; rw [(hm n c hc).2]; rfl)
    (by intro n c hc; rw [(hm n c hc).2]; exact ⟨nofun, nofun⟩)
    (reach_start _ _ 15) [] (.transition
      (some ⟨['a'], .executeStep, none, .null, .failed, 1,
        some (['a'], ['E'], .handler ['E'] ['m']), [], none, none, 0, some 0⟩)
      ⟨['a'], .executeStep, none, .null, .inProgress, 2, none, [], none, none, 0, none⟩) _ rfl
  have : (2 : Nat) = 3 := this
  cases this

section
omit [DecidableEq F]

/-- The first record of every state is of a first attempt. -/
def FirstIsOne (rs : List (Rec F)) : Prop :=
  ∀ before r after, rs = before ++ r :: after → (∀ q ∈ before, q.name ≠ r.name) → r.attempt = 1

theorem FirstIsOne.find {rs : List (Rec F)} (h : FirstIsOne rs) {n : Name} {r : Rec F}
    (hr : findRec n none rs = some r) : r.attempt = 1 := by
  suffices hs : ∃ before after, rs = before ++ r :: after ∧ ∀ q ∈ before, q.name ≠ r.name by
    obtain ⟨b, a, h1, h2⟩ := hs
    exact h b r a h1 h2
  clear h
  induction rs with
  | nil => simp [findRec] at hr
  | cons a rs ih =>
    have hn := (findRec_none hr).2
    rw [findRec] at hr
    split at hr
    · injection hr with hr
      exact ⟨[], rs, by rw [hr]; rfl, by simp⟩
    next hne =>
      obtain ⟨b, c, h1, h2⟩ := ih hr
      refine ⟨a :: b, c, by rw [h1]; rfl, ?_⟩
      intro q hq
      rcases List.mem_cons.1 hq with hq | hq
      · rw [hq, hn]; exact hne
      · exact h2 q hq

theorem FirstIsOne.append {rs : List (Rec F)} (h : FirstIsOne rs) {r : Rec F}
    (hr : r.attempt = 1 ∨ ∃ q ∈ rs, q.name = r.name) : FirstIsOne (rs ++ [r]) := by
  intro before q after he hn
  rcases List.append_eq_append_iff.1 he with ⟨l, h1, h2⟩ | ⟨l, h1, h2⟩
  · cases l with
    | nil =>
      injection h2 with h2 _
      rw [List.append_nil] at h1
      subst h1 h2
      rcases hr with hr | ⟨p, hp, hpn⟩
      · exact hr
      · exact absurd hpn (hn p hp)
    | cons a l =>
      injection h2 with _ h2
      cases l <;> cases h2
  · cases l with
    | nil =>
      injection h2 with h2 _
      rw [List.append_nil] at h1
      subst h1 h2
      rcases hr with hr | ⟨p, hp, hpn⟩
      · exact hr
      · exact absurd hpn (hn p hp)
    | cons a l =>
      injection h2 with h2 _
      rw [← h2] at h1
      exact h before q l h1 hn

theorem FirstIsOne.update {f : Rec F → Rec F} {name : Name} {parent : Option Name}
    {rs rs' : List (Rec F)} {r : Rec F} (h : FirstIsOne rs) (hfl : Flat rs)
    (hu : updRec f name parent rs = some (r, rs')) (hn : ∀ r : Rec F, (f r).name = r.name)
    (ha : ∀ r : Rec F, (f r).attempt = r.attempt) : FirstIsOne rs' := by
  obtain ⟨_, before, old, after, h1, _, _, h2, h3⟩ := updRec_some hfl hu
  have key : ∀ (rs rs' : List (Rec F)), rs'.map (fun r => (r.name, r.attempt)) =
      rs.map (fun r => (r.name, r.attempt)) → FirstIsOne rs → FirstIsOne rs' := by
    intro rs rs' he h b q a hq hb
    rw [hq, List.map_append, List.map_cons] at he
    obtain ⟨b', t, h1, h2, h3⟩ := List.map_eq_append_iff.1 he.symm
    obtain ⟨q', a', h4, h5, h6⟩ := List.map_eq_cons_iff.1 h3
    injection h5 with h5 h7
    rw [← h7]
    refine h b' q' a' (by rw [h1, h4]) ?_
    intro p hp
    have : (p.name, p.attempt) ∈ b.map (fun r => (r.name, r.attempt)) := by
      rw [← h2]; exact List.mem_map_of_mem hp
    obtain ⟨p', hp', hpe⟩ := List.mem_map.1 this
    injection hpe with hpe _
    rw [← hpe, h5]
    exact hb p' hp'
  refine key rs rs' ?_ h
  rw [h1, h3]
  simp [hn, ha]

theorem named_update' {f : Rec F → Rec F} {name : Name} {parent : Option Name}
    {rs rs' : List (Rec F)} {r : Rec F} (hfl : Flat rs)
    (hu : updRec f name parent rs = some (r, rs')) (hf : ∀ r : Rec F, (f r).name = r.name) (n : Name)
    (h : ∃ q ∈ rs, q.name = n) : ∃ q ∈ rs', q.name = n := by
  obtain ⟨hp, _⟩ := updRec_some hfl hu
  rw [hp] at hu
  exact named_update hu n h hf

theorem NoLoop.config {env : Env G F} (h : NoLoop env) {name : Name} {parent : Option Name}
    {c : State G} (hc : config env name parent = .ok c) : c.next ≠ some name := by
  cases parent with
  | none =>
    rw [Workflow.config] at hc
    split at hc
    next d hd => injection hc with hc; rw [← hc]; exact (h _ _ (lookup_mem hd)).1
    · cases hc
  | some p =>
    rw [Workflow.config] at hc
    split at hc
    next d hd =>
      rw [childConfig] at hc
      split at hc
      · split at hc
        next bs hbs =>
          split at hc
          next c' hc' =>
            injection hc with hc
            subst hc
            obtain ⟨b, hb, hl⟩ := List.exists_of_findSome?_eq_some hc'
            exact (h _ _ (lookup_mem hd)).2 bs hbs b hb _ _ (lookup_mem hl)
          · cases hc
        · cases hc
      · cases hc
    · cases hc

end

/-- The number says whether a state is entered again, and counts from the record shown. -/
def Marked (q : Option (Rec F)) (r : Rec F) : Prop :=
  r.attempt = 1 ∧ (∀ p, q = some p → p.name ≠ r.name) ∨
    ∃ p, q = some p ∧ p.name = r.name ∧ 1 ≤ p.attempt ∧ r.attempt = p.attempt + 1

/-- What is known of a state that is being executed. -/
def Tried (env : Env G F) (s : S F) (name : Name) (r : Rec F) (c : State G) : Prop :=
  r.name = name ∧ 1 ≤ r.attempt ∧ Named s name ∧ (NoLoop env → c.next ≠ some name)

/-- What is known of a state that was left. -/
def TriedPrev (env : Env G F) (s : S F) (name : Name) (prev : Option (Rec F)) : Prop :=
  ∀ q, prev = some q →
    1 ≤ q.attempt ∧ (q.name = name → Named s name ∧ (NoLoop env → q.attempt = 1))

/-- What tasks know about attempts. -/
def TriedT (env : Env G F) (s : S F) : Task G F → Prop
  | .run name _ prev _ => TriedPrev env s name prev
  | .exec name r c _ _ => Tried env s name r c
  | .finish name _ c r _ _ => Tried env s name r c
  | _ => True

/-- The records and what was announced of attempts. -/
def CountedS (env : Env G F) (s : S F) : Prop :=
  Flat s.exec.states ∧ (∀ r ∈ s.exec.states, 1 ≤ r.attempt) ∧ FirstIsOne s.exec.states ∧
    ∀ q r, .event (.transition q r) ∈ s.log → Marked q r ∧ (NoLoop env → r.attempt ≤ 2)

section
omit [DecidableEq F]

theorem Tried.mono {env : Env G F} {s s' : S F} {name : Name} {r : Rec F} {c : State G}
    (h : Tried env s name r c) (hl : ∀ n, Named s n → Named s' n) : Tried env s' name r c :=
  ⟨h.1, h.2.1, hl _ h.2.2.1, h.2.2.2⟩

theorem TriedPrev.mono {env : Env G F} {s s' : S F} {name : Name} {q : Option (Rec F)}
    (h : TriedPrev env s name q) (hl : ∀ n, Named s n → Named s' n) : TriedPrev env s' name q :=
  fun p hp => ⟨(h p hp).1, fun hn => ⟨hl _ ((h p hp).2 hn).1, ((h p hp).2 hn).2⟩⟩

theorem TriedT.mono {env : Env G F} {s s' : S F} {t : Task G F} (h : TriedT env s t)
    (hl : ∀ n, Named s n → Named s' n) : TriedT env s' t := by
  cases t with
  | run => exact TriedPrev.mono h hl
  | exec => exact Tried.mono h hl
  | finish => exact Tried.mono h hl
  | _ => trivial

theorem marked_new {env : Env G F} {s : S F} {name : Name} {prev : Option (Rec F)}
    (h : TriedPrev env s name prev) (c : State G) (w : Json F) (now : Int) :
    Marked prev (newRec name c w prev now) := by
  cases prev with
  | none => exact Or.inl ⟨rfl, nofun⟩
  | some p =>
    by_cases hp : p.name = name
    · refine Or.inr ⟨p, rfl, hp, (h p rfl).1, ?_⟩
      show attemptOf name (some p) = _
      rw [attemptOf, if_pos hp]
    · refine Or.inl ⟨?_, ?_⟩
      · show attemptOf name (some p) = _
        rw [attemptOf, if_neg hp]
      · intro q hq
        injection hq with hq
        rw [← hq]
        exact hp

theorem counted_find {env : Env G F} {s : S F} (h : CountedS env s) (name : Name)
    (parent : Option Name) : TriedPrev env s name (findRec name parent s.exec.states) := by
  intro q hq
  have hm := findRec_mem h.1 hq
  refine ⟨h.2.1 q hm, fun hn => ⟨⟨q, hm, hn⟩, fun _ => ?_⟩⟩
  cases parent with
  | none => exact h.2.2.1.find hq
  | some p => rw [findRec_child h.1] at hq; cases hq

theorem attempts_update {f : Rec F → Rec F} {name : Name} {parent : Option Name}
    {rs rs' : List (Rec F)} {r : Rec F} (hfl : Flat rs) (h : ∀ r ∈ rs, 1 ≤ r.attempt)
    (hu : updRec f name parent rs = some (r, rs')) (ha : ∀ r : Rec F, (f r).attempt = r.attempt) :
    ∀ r ∈ rs', 1 ≤ r.attempt := by
  obtain ⟨_, before, old, after, h1, _, _, h2, h3⟩ := updRec_some hfl hu
  subst h1 h2 h3
  intro q hq
  simp only [List.mem_append, List.mem_cons] at hq
  rcases hq with hq | rfl | hq
  · exact h q (by simp [hq])
  · rw [ha]; exact h old (by simp)
  · exact h q (by simp [hq])

end

/-- Whether a state is entered again is seen from the number, and the number counts from the record
shown. Unless a state is its own successor, the number is never more than 2. -/
theorem numbers_partial {env : Env G F} {input : Json F} {s : S F} {p : Proc G F}
    (h : Reach env input (s, p)) (q : Option (Rec F)) (r : Rec F)
    (hx : .event (.transition q r) ∈ s.log) :
    (r.attempt = 1 ∧ (∀ p, q = some p → p.name ≠ r.name) ∨
      ∃ p, q = some p ∧ p.name = r.name ∧ 1 ≤ p.attempt ∧ r.attempt = p.attempt + 1) ∧
    (NoLoop env → r.attempt ≤ 2) := by
  suffices hs : CountedS env s from hs.2.2.2 q r hx
  clear hx q r
  refine (invariant env input (CountedS env) (fun s t _ => TriedT env s t)
    (fun s j => Tried env s j.name j.r j.c) (fun s s' => ∀ n, Named s n → Named s' n)
    (fun _ _ _ _ hl h => h.mono hl) (fun _ _ _ hl h => h.mono hl)
    ⟨⟨by intro r hr; simp [initial] at hr, by intro r hr; simp [initial] at hr, by
      intro b r a hr; simp [initial] at hr, by simp⟩, by intro q hq; cases hq⟩ ?_ ?_ h).1
  · intro s t ret hi ht
    have keep : ∀ x : Entry F, (∀ q r, x ≠ .event (.transition q r)) →
        ∀ q r, .event (.transition q r) ∈ x :: s.log →
          Marked q r ∧ (NoLoop env → r.attempt ≤ 2) := by
      intro x hx q r hm
      rcases List.mem_cons.1 hm with hm | hm
      · exact absurd hm.symm (hx q r)
      · exact hi.2.2.2 q r hm
    have le : ∀ n, Named s n → Named s n := fun _ h => h
    cases t with
    | run name v prev parent =>
      rw [step, stepRun.eq_def]
      split
      · exact ⟨hi, le, .task _ _ trivial⟩
      next c hcfg =>
        split
        · exact ⟨hi, le, .task _ _ trivial⟩
        next w _ =>
          dsimp only
          have hf : Flat (s.exec.enter (newRec name c w prev (env.now s.log))).states := by
            intro r hr'
            rcases List.mem_append.1 hr' with hr' | hr'
            · exact hi.1 r hr'
            · rw [List.mem_singleton.1 hr']; rfl
          have ht : TriedPrev env s name prev := ht
          have hm := marked_new ht c w (env.now s.log)
          have hn : ∀ n, Named s n →
              ∃ r ∈ (s.exec.enter (newRec name c w prev (env.now s.log))).states, r.name = n := by
            intro n ⟨r, hr, hrn⟩
            exact ⟨r, List.mem_append_left _ hr, hrn⟩
          have h1 : ∀ r ∈ (s.exec.enter (newRec name c w prev (env.now s.log))).states,
              1 ≤ r.attempt := by
            intro r hr
            rcases List.mem_append.1 hr with hr | hr
            · exact hi.2.1 r hr
            · rw [List.mem_singleton.1 hr]
              rcases hm with ⟨hm, _⟩ | ⟨p, _, _, _, hm⟩ <;> omega
          have h2 : FirstIsOne (s.exec.enter (newRec name c w prev (env.now s.log))).states := by
            refine hi.2.2.1.append ?_
            rcases hm with ⟨hm, _⟩ | ⟨p, hp, hpn, _, _⟩
            · exact Or.inl hm
            · exact Or.inr ((ht p hp).2 hpn).1
          have h3 : NoLoop env → (newRec name c w prev (env.now s.log)).attempt ≤ 2 := by
            intro hl
            rcases hm with ⟨hm, _⟩ | ⟨p, hp, hpn, _, hm⟩
            · omega
            · have := ((ht p hp).2 hpn).2 hl
              omega
          by_cases hsv : env.save s.log (s.exec.enter (newRec name c w prev (env.now s.log))) = true
          · rw [save_true (s := ⟨s.exec.enter (newRec name c w prev (env.now s.log)), s.log⟩) hsv]
            refine ⟨⟨hf, h1, h2, ?_⟩, hn, .task _ _ ⟨rfl, ?_, ⟨_, List.mem_append_right _
              (List.mem_singleton_self _), rfl⟩, fun hl => hl.config hcfg⟩⟩
            · intro q r hx
              rcases List.mem_cons.1 hx with hx | hx
              · injection hx with hx
                injection hx with hx1 hx2
                rw [hx1, hx2]
                exact ⟨hm, h3⟩
              · exact keep (.saved (s.exec.enter (newRec name c w prev (env.now s.log)))) nofun q r hx
            · exact h1 _ (List.mem_append_right _ (List.mem_singleton_self _))
          · rw [save_false (s := ⟨s.exec.enter (newRec name c w prev (env.now s.log)), s.log⟩) hsv]
            exact ⟨⟨hf, h1, h2, keep _ nofun⟩, hn, .task _ _ trivial⟩
    | exec name r c v parent =>
      have ht : Tried env s name r c := ht
      rw [step, stepExec]
      split
      · rw [stepStep]
        split
        · split
          · exact ⟨hi, le, .task _ _ trivial⟩
          · exact ⟨hi, le, .crashed⟩
          · refine ⟨⟨hi.1, hi.2.1, hi.2.2.1, keep _ nofun⟩, le, ?_⟩
            dsimp only
            split
            · exact .task _ _ ht
            · exact .task _ _ trivial
            · exact .crashed
        · exact ⟨hi, le, .task _ _ trivial⟩
      · rw [stepParallel]
        split
        · exact ⟨hi, le, .task _ _ trivial⟩
        · exact ⟨hi, le, .task _ _ trivial⟩
        · refine ⟨hi, le, .join _ _ ht ?_⟩
          intro p hp
          rw [List.mem_map] at hp
          obtain ⟨b, _, hb⟩ := hp
          subst hb
          split
          · exact .task _ _ nofun
          · exact .done _
      · rw [stepWait]
        split
        · exact ⟨hi, le, .task _ _ trivial⟩
        · split
          · exact ⟨hi, le, .task _ _ trivial⟩
          · exact ⟨⟨hi.1, hi.2.1, hi.2.2.1, keep _ nofun⟩, le, .task _ _ ht⟩
      · exact ⟨hi, le, .done _⟩
      · exact ⟨hi, le, .done _⟩
      · exact ⟨hi, le, .done _⟩
      · exact ⟨hi, le, .done _⟩
      · exact ⟨hi, le, .task _ _ trivial⟩
    | finish name parent c r v o =>
      have ht : Tried env s name r c := ht
      rw [step, stepFinish]
      split
      · exact ⟨hi, le, .task _ _ trivial⟩
      · split
        · exact ⟨hi, le, .crashed⟩
        next q states hu =>
          have hf := flat_update hi.1 hu (fun _ => rfl)
          have h1 := attempts_update hi.1 hi.2.1 hu (fun _ => rfl)
          have h2 := hi.2.2.1.update hi.1 hu (fun _ => rfl) (fun _ => rfl)
          have hn : ∀ n, Named s n → ∃ r ∈ states, r.name = n :=
            named_update' hi.1 hu (fun _ => rfl)
          by_cases hsv : env.save s.log { s.exec with states := states } = true
          · rw [save_true (s := ⟨{ s.exec with states := states }, s.log⟩) hsv]
            dsimp only
            split
            next m hnext =>
              refine ⟨⟨hf, h1, h2, keep _ nofun⟩, hn, .task _ _ ?_⟩
              intro q hq
              injection hq with hq
              rw [← hq]
              refine ⟨ht.2.1, fun hqn => ⟨?_, fun hl => absurd hnext ?_⟩⟩
              · rw [← hqn, ht.1]
                exact hn _ ht.2.2.1
              · rw [← hqn, ht.1]
                exact ht.2.2.2 hl
            · split <;> exact ⟨⟨hf, h1, h2, keep _ nofun⟩, hn, .task _ _ trivial⟩
          · rw [save_false (s := ⟨{ s.exec with states := states }, s.log⟩) hsv]
            exact ⟨⟨hf, h1, h2, keep _ nofun⟩, hn, .task _ _ trivial⟩
    | complete v final =>
      rw [step, stepComplete]
      by_cases hsv : env.save s.log (s.succeeded env) = true
      · rw [save_true (s := ⟨s.succeeded env, s.log⟩) hsv]
        refine ⟨⟨hi.1, hi.2.1, hi.2.2.1, ?_⟩, le, .done _⟩
        intro q r hm
        rcases List.mem_cons.1 hm with hm | hm
        · cases hm
        · exact keep (.saved (s.succeeded env)) nofun q r hm
      · rw [save_false (s := ⟨s.succeeded env, s.log⟩) hsv]
        exact ⟨⟨hi.1, hi.2.1, hi.2.2.1, keep _ nofun⟩, le, .task _ _ trivial⟩
    | fail e v =>
      rw [step]
      refine ⟨hi, le, .task _ _ ?_⟩
      cases hk : e.kind <;> simp only [onError, hk, retryable, TriedT]
    | record info name persist continues after =>
      rw [step, stepRecord]
      dsimp only
      have hst : ∀ d, (if continues = true then s.exec else s.failed env d).states =
          s.exec.states := by
        intro d
        split <;> rfl
      rw [hst]
      split
      · exact ⟨⟨by rw [Flat, hst]; exact hi.1, by rw [hst]; exact hi.2.1, by rw [hst]; exact hi.2.2.1,
          hi.2.2.2⟩, fun n h => by rw [Named, hst]; exact h, .crashed⟩
      next r states hu =>
        exact ⟨⟨flat_update hi.1 hu (fun _ => rfl), attempts_update hi.1 hi.2.1 hu (fun _ => rfl),
          hi.2.2.1.update hi.1 hu (fun _ => rfl) (fun _ => rfl), hi.2.2.2⟩,
          named_update' hi.1 hu (fun _ => rfl), .task _ _ trivial⟩
    | persist e r persist continues after =>
      rw [step, stepPersist]
      dsimp only
      split
      · rw [S.save]
        split <;> exact ⟨⟨hi.1, hi.2.1, hi.2.2.1, keep _ nofun⟩, le, .task _ _ trivial⟩
      · exact ⟨hi, le, .task _ _ trivial⟩
    | announce e r continues after =>
      rw [step, stepAnnounce]
      dsimp only
      split
      · exact ⟨⟨hi.1, hi.2.1, hi.2.2.1, keep _ nofun⟩, le, .task _ _ trivial⟩
      · refine ⟨⟨hi.1, hi.2.1, hi.2.2.1, ?_⟩, le, .task _ _ trivial⟩
        intro q r' hm
        rcases List.mem_cons.1 hm with hm | hm
        · cases hm
        · exact keep (.event (.failure r)) nofun q r' hm
    | next after =>
      rw [step, stepNext.eq_def]
      split
      · exact ⟨hi, le, .done _⟩
      · split
        · exact ⟨hi, le, .crashed⟩
        · exact ⟨⟨hi.1, hi.2.1, hi.2.2.1, keep _ nofun⟩, le, .task _ _ (counted_find hi _ _)⟩
      · split
        · exact ⟨hi, le, .done _⟩
        · split
          · exact ⟨hi, le, .task _ _ (counted_find hi _ _)⟩
          · exact ⟨hi, le, .task _ _ trivial⟩
  · intro s j results _ hj
    rw [joined]
    split
    · exact .task _ _ hj
    · exact .task _ _ trivial

/-- The example of `numbers_violated`: the third time, the number is that of the second. -/
example : ∃ s p q r, Reach failingEnv .null (s, p) ∧ .event (.transition (some q) r) ∈ s.log ∧
    r.attempt = 2 ∧ tries r.name s.log = 3 :=
  ⟨_, _, _, _, reach_start _ _ 15, List.mem_cons_self .., rfl, rfl⟩

end Verif.Workflow
