import Verif.Workflow.Props

/-!
# C160: workflows without loops end
-/

namespace Verif.Workflow

/-! ## Specification -/

namespace EndSpec

variable {G F : Type}

/-- The states of a workflow, with those in branches of parallel states. -/
inductive Occurs (env : Env G F) : Name → State G → Prop
  | top {name c} : (name, c) ∈ env.states → Occurs env name c
  | branch {parent p bs b name c} : (parent, p) ∈ env.states → p.branches = some bs → b ∈ bs →
      (name, c) ∈ b.2 → Occurs env name c

/-- There are no loops: names can be ranked such that the ranks get smaller from a state to the next,
to the states in which its errors are caught, and to the first states of its branches. -/
structure Acyclic (env : Env G F) (rank : Name → Nat) : Prop where
  next : ∀ name c n, Occurs env name c → c.next = some n → rank n < rank name
  catches : ∀ name c ks k, Occurs env name c → c.catchers = some ks → k ∈ ks →
    rank k.next < rank name
  branches : ∀ name c bs b, Occurs env name c → c.branches = some bs → b ∈ bs → rank b.1 < rank name

/-- Every rule for retries has a maximum. -/
def Limited (env : Env G F) : Prop :=
  ∀ name c rs r, Occurs env name c → c.retry = some rs → r ∈ rs → ∃ m, r.maxAttempts = some m

/-- There are no rules for retries. -/
def Unretried (env : Env G F) : Prop := ∀ name c, Occurs env name c → c.retry.getD [] = []

/-- So many steps of the tasks of an execution, in any order. -/
inductive Steps [DecidableEq F] (env : Env G F) : Nat → S F × Proc G F → S F × Proc G F → Prop
  | refl (c) : Steps env 0 c c
  | step {n c c' c''} : Steps env n c c' → Step env c' c'' → Steps env (n + 1) c c''

/-- All ways in which the execution can go have an end, after a bounded number of steps. -/
def Ends [DecidableEq F] (env : Env G F) (input : Json F) : Prop :=
  ∃ bound, ∀ n c, Steps env n (start env input) c → n ≤ bound

/-- Nothing is left to do. -/
def Over : Proc G F → Prop
  | .done _ => True
  | .crashed => True
  | _ => False

end EndSpec

open EndSpec

variable {G F : Type}

/-- **C160, full statement.** -/
def FullLoopless : Prop :=
  ∀ (env : Env (Option Int) Int) (input : Json Int) (rank : Name → Nat),
    Acyclic env rank → Limited env → Ends env input

/-! ## It is false -/

theorem calls_cons (name : Name) (e : Entry F) (log : List (Entry F)) :
    calls name (e :: log) ≤ calls name log + 1 ∧ calls name log ≤ calls name (e :: log) := by
  unfold calls
  cases e with
  | called n v => by_cases h : n = name <;> simp [h]
  | _ => simp

theorem calls_save (env : Env G F) (s : S F) (e : Exec F) (name : Name) :
    calls name (S.save env s e).2.log = calls name s.log := by
  unfold S.save
  split <;> simp [calls]

theorem calls_send (s : S F) (e : Event F) (name : Name) :
    calls name (s.send e).log = calls name s.log := by
  simp [S.send, calls]

theorem calls_step [DecidableEq F] (env : Env G F) (name : Name) (s : S F)
    (ret : Option (Option (Json F))) (t : Task G F) :
    calls name (step env s ret t).1.log ≤ calls name s.log + 1 := by
  have hsave : ∀ (s s' : S F) e b, S.save env s e = (b, s') → calls name s'.log = calls name s.log := by
    intro s s' e b h
    have := calls_save env s e name
    rwa [h] at this
  cases t with
  | run n input prev parent =>
    simp only [step, stepRun]
    repeat' split
    all_goals first
      | (simp; done)
      | (rename_i h; simp only [calls_send]; rw [hsave _ _ _ _ h]; exact Nat.le_succ _)
      | (rename_i h; simp only; rw [hsave _ _ _ _ h]; exact Nat.le_succ _)
  | exec n r c input parent =>
    simp only [step, stepExec]
    split
    · unfold stepStep
      repeat' split
      all_goals first
        | (simp; done)
        | exact (calls_cons name _ _).1
    · unfold stepParallel
      repeat' split
      all_goals simp
    · unfold stepWait
      repeat' split
      all_goals first
        | (simp; done)
        | exact (calls_cons name _ _).1
    all_goals simp
  | finish n parent c r input output =>
    simp only [step, stepFinish]
    repeat' split
    all_goals first
      | (simp; done)
      | (rename_i h _ _ ; simp only; rw [hsave _ _ _ _ h]; exact Nat.le_succ _)
      | (rename_i h _ ; simp only; rw [hsave _ _ _ _ h]; exact Nat.le_succ _)
      | (rename_i h _ _ _; simp only; rw [hsave _ _ _ _ h]; exact Nat.le_succ _)
      | (rename_i h; simp only; rw [hsave _ _ _ _ h]; exact Nat.le_succ _)
  | complete input final =>
    simp only [step, stepComplete]
    split
    · rename_i h; simp only [calls_send]; rw [hsave _ _ _ _ h]; exact Nat.le_succ _
    · rename_i h; simp only; rw [hsave _ _ _ _ h]; exact Nat.le_succ _
  | fail e input => simp [step]
  | record info n persist continues after =>
    simp only [step, stepRecord]
    repeat' split
    all_goals simp
  | persist e r persist continues after =>
    simp only [step, stepPersist]
    split
    · rw [calls_save]; exact Nat.le_succ _
    · exact Nat.le_succ _
  | announce e r continues after =>
    simp only [step, stepAnnounce]
    split <;> simp only [calls_send] <;> exact Nat.le_succ _
  | next after =>
    simp only [step, stepNext]
    repeat' split
    all_goals first
      | (simp; done)
      | exact (calls_cons name _ _).1

theorem calls_of_step [DecidableEq F] (env : Env G F) (name : Name) {c c' : S F × Proc G F}
    (h : Step env c c') : calls name c'.1.log ≤ calls name c.1.log + 1 := by
  induction h with
  | task s t ret => exact calls_step env name s ret t
  | branch s s' j before after p p' _ ih => exact ih
  | joined => exact Nat.le_succ _

theorem calls_of_steps [DecidableEq F] (env : Env G F) (name : Name) {n : Nat}
    {c c' : S F × Proc G F} (h : Steps env n c c') :
    calls name c'.1.log ≤ calls name c.1.log + n := by
  induction h with
  | refl => simp
  | step _ hs ih =>
    have := calls_of_step env name hs
    omega

theorem steps_of_reach [DecidableEq F] {env : Env G F} {input : Json F} {c : S F × Proc G F}
    (h : Reach env input c) : ∃ n, Steps env n (start env input) c := by
  induction h with
  | start => exact ⟨0, .refl _⟩
  | step c c' _ hs ih =>
    obtain ⟨n, hn⟩ := ih
    exact ⟨n + 1, .step hn hs⟩

/-- A workflow of a single state without successor that is to be tried at most three times, and goes
on for ever. -/
theorem forever (bound : Nat) :
    ∃ n c, Steps failingEnv n (start failingEnv .null) c ∧ bound < n := by
  obtain ⟨s, p, hr, hn⟩ := retries_unbounded (failingEnv_failing .null) (bound + 1)
  obtain ⟨n, hs⟩ := steps_of_reach hr
  refine ⟨n, _, hs, ?_⟩
  have := calls_of_steps failingEnv failingEnv.startAt hs
  rw [hn] at this
  simp [start, calls] at this
  omega

theorem failingEnv_acyclic : Acyclic failingEnv (fun _ => 0) ∧ Limited failingEnv := by
  have hf : ∀ name c, Occurs failingEnv name c → c = failing := by
    intro name c h
    cases h with
    | top h =>
      simp [failingEnv, demoEnv] at h
      exact h.2
    | branch h hb =>
      simp [failingEnv, demoEnv] at h
      rw [h.2] at hb
      cases hb
  refine ⟨⟨?_, ?_, ?_⟩, ?_⟩
  · intro name c n ho h; rw [hf _ _ ho] at h; cases h
  · intro name c ks k ho h; rw [hf _ _ ho] at h; cases h
  · intro name c bs b ho h; rw [hf _ _ ho] at h; cases h
  · intro name c rs r ho h hr
    rw [hf _ _ ho] at h
    cases h
    simp at hr
    exact ⟨2, by rw [hr]⟩

/-- **C160 is false of the code**, because retries are not limited (C25). -/
theorem loopless_violated : ¬ FullLoopless := fun h => by
  obtain ⟨bound, hb⟩ := h failingEnv .null _ failingEnv_acyclic.1 failingEnv_acyclic.2
  obtain ⟨n, c, hs, hn⟩ := forever bound
  exact absurd (hb n c hs) (by omega)

/-! ## Without retries it is true -/

/-- Errors after which nothing is tried. -/
def ErrKind.stops : ErrKind → Bool
  | .persistFailed => true
  | .stateNotFound => true
  | .invalidState => true
  | _ => false

/-- A bound for what can follow from states of smaller rank, if no state has more than `b` branches. -/
def below (b : Nat) : Nat → Nat
  | 0 => 0
  | r + 1 => (b + 2) * below b r + 17

theorem below_succ (b r : Nat) : below b r ≤ below b (r + 1) := by
  have : 2 * below b r ≤ (b + 2) * below b r := Nat.mul_le_mul_right _ (by omega)
  rw [below]
  omega

theorem below_le (b : Nat) {r r' : Nat} (h : r ≤ r') : below b r ≤ below b r' := by
  induction h with
  | refl => exact Nat.le_refl _
  | step _ ih => exact Nat.le_trans ih (below_succ _ _)

theorem below_lt (b : Nat) {r r' : Nat} (h : r < r') : (b + 2) * below b r + 17 ≤ below b r' :=
  below_le b (r := r + 1) h

section measure

variable (b : Nat) (rank : Name → Nat)

/-- A bound for what is left to do after an error was recorded. -/
def After.left : After F → Nat
  | .stop => 1
  | .retry _ _ _ _ => 0
  | .catchErr info _ _ => below b (rank info.state) + 6

/-- A bound for what is left to do. -/
def Task.left : Task G F → Nat
  | .run name _ _ _ => (b + 2) * below b (rank name) + 17
  | .exec name _ _ _ _ => (b + 2) * below b (rank name) + 16
  | .finish name _ _ _ _ _ => below b (rank name) + 14
  | .complete _ _ => 13
  | .fail e _ => (if e.kind.stops then 0 else below b (rank e.info.state)) + 12
  | .record _ _ _ _ after => after.left b rank + 4
  | .persist _ _ _ _ after => after.left b rank + 3
  | .announce _ _ _ after => after.left b rank + 2
  | .next after => after.left b rank + 1

mutual
/-- A bound for what is left to do of a process. -/
def Proc.left : Proc G F → Nat
  | .task t _ => t.left b rank
  | .join j ps => leftAll ps + below b (rank j.name) + 15
  | .done _ => 0
  | .crashed => 0
/-- The sum for branches. -/
def leftAll : List (Proc G F) → Nat
  | [] => 0
  | p :: ps => p.left + leftAll ps
end

/-- States with small successors. -/
structure Small (name : Name) (c : State G) : Prop where
  next : ∀ n, c.next = some n → rank n < rank name
  branches : ∀ bs, c.branches = some bs → bs.length ≤ b ∧ ∀ x ∈ bs, rank x.1 < rank name

/-- What follows after an error goes to smaller states. -/
def After.Small : After F → Prop
  | .stop => True
  | .retry _ _ _ _ => False
  | .catchErr info _ rules => ∀ k ∈ rules.getD [], rank k.next < rank info.state

/-- A task goes to smaller states. -/
def Task.Small : Task G F → Prop
  | .exec name _ c _ _ => Workflow.Small b rank name c
  | .finish name _ c _ _ _ => Workflow.Small b rank name c
  | .record _ _ _ _ after => after.Small rank
  | .persist _ _ _ _ after => after.Small rank
  | .announce _ _ _ after => after.Small rank
  | .next after => after.Small rank
  | _ => True

mutual
/-- All tasks of a process go to smaller states. -/
def Proc.Small : Proc G F → Prop
  | .task t _ => t.Small b rank
  | .join j ps => Workflow.Small b rank j.name j.c ∧ smallAll ps
  | .done _ => True
  | .crashed => True
/-- The same for branches. -/
def smallAll : List (Proc G F) → Prop
  | [] => True
  | p :: ps => p.Small ∧ smallAll ps
end

end measure

theorem leftAll_append (b : Nat) (rank : Name → Nat) (ps qs : List (Proc G F)) :
    leftAll b rank (ps ++ qs) = leftAll b rank ps + leftAll b rank qs := by
  induction ps with
  | nil => simp [leftAll]
  | cons p ps ih => simp [leftAll, ih, Nat.add_assoc]

theorem smallAll_append (b : Nat) (rank : Name → Nat) (ps qs : List (Proc G F)) :
    smallAll b rank (ps ++ qs) ↔ smallAll b rank ps ∧ smallAll b rank qs := by
  induction ps with
  | nil => simp [smallAll]
  | cons p ps ih => simp [smallAll, ih, and_assoc]

/-- A configuration that is found occurs in the workflow. -/
theorem occurs_of_config {env : Env G F} {name : Name} {parent : Option Name} {c : State G}
    (h : config env name parent = .ok c) : Occurs env name c := by
  cases parent with
  | none =>
    simp only [config] at h
    split at h
    next hl =>
      cases h
      exact .top (Assoc.lookup_mem _ _ _ hl)
    next => cases h
  | some p =>
    simp only [config] at h
    split at h
    next q hl =>
      unfold childConfig at h
      split at h
      · split at h
        next bs hb =>
          split at h
          next hf =>
            cases h
            obtain ⟨x, hx, hl'⟩ := List.exists_of_findSome?_eq_some hf
            exact .branch (Assoc.lookup_mem _ _ _ hl) hb hx (Assoc.lookup_mem _ _ _ hl')
          next => cases h
        next => cases h
      · cases h
    next => cases h

/-- Errors of the configuration stop the execution. -/
theorem config_stops {env : Env G F} {name : Name} {parent : Option Name} {e : Fail}
    (h : config env name parent = .error e) : e.kind.stops = true := by
  cases parent with
  | none =>
    simp only [config] at h
    split at h <;> cases h
    rfl
  | some p =>
    simp only [config] at h
    split at h
    · unfold childConfig at h
      repeat' split at h
      all_goals cases h
      all_goals rfl
    · cases h; rfl

/-- The number of branches of states is bounded. -/
theorem branches_bounded (env : Env G F) :
    ∃ b, ∀ name c bs, Occurs env name c → c.branches = some bs → bs.length ≤ b := by
  have key : ∀ l : List (Name × State G), ∃ b, ∀ x ∈ l, ∀ bs, x.2.branches = some bs → bs.length ≤ b := by
    intro l
    induction l with
    | nil => exact ⟨0, nofun⟩
    | cons x l ih =>
      obtain ⟨b, hb⟩ := ih
      refine ⟨max b ((x.2.branches.getD []).length), ?_⟩
      intro y hy bs hbs
      rcases List.mem_cons.1 hy with rfl | hy
      · rw [hbs]; exact Nat.le_max_right _ _
      · exact Nat.le_trans (hb y hy bs hbs) (Nat.le_max_left _ _)
  obtain ⟨b, hb⟩ := key (env.states ++ env.states.flatMap fun p =>
    (p.2.branches.getD []).flatMap fun x => x.2)
  refine ⟨b, fun name c bs ho hbs => ?_⟩
  cases ho with
  | top h => exact hb (name, c) (List.mem_append_left _ h) bs hbs
  | branch h h1 h2 h3 =>
    refine hb (name, c) (List.mem_append_right _ ?_) bs hbs
    exact List.mem_flatMap.2 ⟨_, h, List.mem_flatMap.2 ⟨_, by rw [h1]; exact h2, h3⟩⟩

/-- Every step of a task leaves less to do. -/
theorem step_less [DecidableEq F] {env : Env G F} {rank : Name → Nat} {b : Nat} (ha : Acyclic env rank)
    (hr : Unretried env)
    (hb : ∀ name c bs, Occurs env name c → c.branches = some bs → bs.length ≤ b)
    (s : S F) (ret : Option (Option (Json F))) (t : Task G F) (ht : t.Small b rank) :
    (step env s ret t).2.Small b rank ∧ (step env s ret t).2.left b rank < t.left b rank := by
  have hsmall : ∀ {name parent c}, config env name parent = .ok c → Small b rank name c := by
    intro name parent c h
    have ho := occurs_of_config h
    exact ⟨fun n hn => ha.next _ _ _ ho hn, fun bs hbs => ⟨hb _ _ _ ho hbs, fun x hx =>
      ha.branches _ _ _ _ ho hbs hx⟩⟩
  have hcatch : ∀ info k, k ∈ (catchersOf env info).getD [] → rank k.next < rank info.state := by
    intro info k hk
    unfold catchersOf at hk
    split at hk
    next c hc =>
      cases hks : c.catchers with
      | none => rw [hks] at hk; cases hk
      | some ks => rw [hks] at hk; exact ha.catches _ _ _ _ (occurs_of_config hc) hks hk
    next => cases hk
  have hrule : ∀ info name, retryRule env info name = none := by
    intro info name
    unfold retryRule
    split
    next c hc => rw [hr _ _ (occurs_of_config hc)]; rfl
    next => rfl
  have hmul : ∀ r, 2 * below b r ≤ (b + 2) * below b r := fun r => Nat.mul_le_mul_right _ (by omega)
  cases t with
  | run name input prev parent =>
    have := hmul (rank name)
    simp only [step, stepRun]
    split
    next e he =>
      simp only [failWith, Proc.Small, Task.Small, Proc.left, Task.left, config_stops he, if_true,
        true_and]
      omega
    next c hc =>
      split
      next e he =>
        have : e.info.state = name ∧ e.kind = .inputPath := by
          unfold stateInput at he
          repeat' split at he
          all_goals cases he
          exact ⟨rfl, rfl⟩
        simp only [failWith, Proc.Small, Task.Small, Proc.left, Task.left, this.1, this.2,
          ErrKind.stops, true_and]
        simp only [Bool.false_eq_true, if_false]
        omega
      next =>
        split
        · exact ⟨hsmall hc, Nat.lt_succ_self _⟩
        · simp only [failWith, Proc.Small, Task.Small, Proc.left, Task.left, ErrKind.stops, if_true,
            true_and]
          omega
  | exec name r c input parent =>
    have := hmul (rank name)
    have ht : Small b rank name c := ht
    have hfail : ∀ e : Fail, (e.info.state = name ∨ e.kind.stops = true) →
        Proc.left b rank (failWith (G := G) e input ret) < (b + 2) * below b (rank name) + 16 := by
      intro e he
      simp only [failWith, Proc.left, Task.left]
      rcases he with he | he
      · rw [he]; split <;> omega
      · rw [he, if_pos rfl]; omega
    simp only [step, stepExec]
    split
    · unfold stepStep
      split
      · split
        next e _ =>
          refine ⟨trivial, hfail _ ?_⟩
          left
          cases e <;> rfl
        next => exact ⟨trivial, by simp only [Proc.left, Task.left]; omega⟩
        next =>
          dsimp only
          split
          · exact ⟨ht, by simp only [Proc.left, Task.left]; omega⟩
          · exact ⟨trivial, hfail _ (.inl rfl)⟩
          · exact ⟨trivial, by simp only [Proc.left, Task.left]; omega⟩
      · exact ⟨trivial, hfail _ (.inr rfl)⟩
    · unfold stepParallel
      split
      · exact ⟨trivial, hfail _ (.inr rfl)⟩
      · exact ⟨trivial, hfail _ (.inr rfl)⟩
      next bs hne hbs =>
        obtain ⟨hlen, hbs⟩ := ht.branches bs hbs
        have key : ∀ l : List (Name × List (Name × State G)), (∀ x ∈ l, rank x.1 < rank name) →
            smallAll b rank (l.map fun x => match x.2.lookup x.1 with
              | some _ => (Proc.task (.run x.1 input none (some name)) none : Proc G F)
              | none => .done none) ∧
            leftAll b rank (l.map fun x => match x.2.lookup x.1 with
              | some _ => (Proc.task (.run x.1 input none (some name)) none : Proc G F)
              | none => .done none) ≤ l.length * below b (rank name) := by
          intro l hl
          induction l with
          | nil => exact ⟨trivial, Nat.zero_le _⟩
          | cons x l ih =>
            obtain ⟨h1, h2⟩ := ih fun y hy => hl y (List.mem_cons_of_mem _ hy)
            have hx := below_lt b (hl x (List.mem_cons_self ..))
            rw [List.map_cons, smallAll, leftAll, List.length_cons, Nat.succ_mul]
            refine ⟨⟨?_, h1⟩, ?_⟩
            · split <;> trivial
            · have : Proc.left b rank (match x.2.lookup x.1 with
                  | some _ => (Proc.task (.run x.1 input none (some name)) none : Proc G F)
                  | none => .done none) ≤ below b (rank name) := by
                split
                · exact hx
                · exact Nat.zero_le _
              omega
        obtain ⟨h1, h2⟩ := key bs hbs
        refine ⟨⟨ht, h1⟩, ?_⟩
        have h3 : bs.length * below b (rank name) ≤ b * below b (rank name) :=
          Nat.mul_le_mul_right _ hlen
        refine Nat.lt_of_le_of_lt (Nat.add_le_add_right (Nat.add_le_add_right h2 _) _) ?_
        simp only [Task.left]
        rw [Nat.add_mul]
        omega
    · unfold stepWait
      split
      · exact ⟨trivial, hfail _ (.inr rfl)⟩
      next w _ =>
        split
        next e he =>
          refine ⟨trivial, hfail _ ?_⟩
          unfold waitTime waitSeconds waitTimestamp waitUntil at he
          repeat' split at he
          all_goals first | (cases he; done) | (cases he; exact .inr rfl) | (cases he; exact .inl rfl)
        next => exact ⟨ht, by simp only [Proc.left, Task.left]; omega⟩
    all_goals first
      | exact ⟨trivial, by simp only [Proc.left, Task.left]; omega⟩
      | exact ⟨trivial, hfail _ (.inr rfl)⟩
  | finish name parent c r input output =>
    have ht : Small b rank name c := ht
    simp only [step, stepFinish]
    split
    next e he =>
      have : e.info.state = name := by
        unfold stateOutput at he
        repeat' split at he
        all_goals cases he
        all_goals rfl
      simp only [failWith, Proc.Small, Task.Small, Proc.left, Task.left, this, true_and]
      split <;> omega
    next =>
      split
      · exact ⟨trivial, by simp only [Proc.left, Task.left]; omega⟩
      · split
        · simp only [failWith, Proc.Small, Task.Small, Proc.left, Task.left, ErrKind.stops, if_true,
            true_and]
          omega
        · split
          next n hn =>
            have := below_lt b (ht.next n hn)
            refine ⟨trivial, ?_⟩
            simp only [Proc.left, Task.left]
            omega
          next =>
            split
            · exact ⟨trivial, by simp only [Proc.left, Task.left]; omega⟩
            · simp only [failWith, Proc.Small, Task.Small, Proc.left, Task.left, ErrKind.stops,
                if_true, true_and]
              omega
  | complete input final =>
    simp only [step, stepComplete]
    split
    · exact ⟨trivial, by simp only [Proc.left, Task.left]; omega⟩
    · simp only [failWith, Proc.Small, Task.Small, Proc.left, Task.left, ErrKind.stops, if_true,
        true_and]
      omega
  | fail e input =>
    have hret : ∀ fb, (retryable env s e.info input fb).Small (G := G) b rank ∧
        (retryable (G := G) env s e.info input fb).left b rank = below b (rank e.info.state) + 10 := by
      intro fb
      simp only [retryable, hrule]
      exact ⟨hcatch e.info, rfl⟩
    have hl : (Task.fail e input : Task G F).left b rank =
        (if e.kind.stops then 0 else below b (rank e.info.state)) + 12 := rfl
    simp only [step, Proc.Small, Proc.left]
    rw [hl]
    unfold onError
    split
    all_goals rename_i hk
    all_goals rw [hk]
    all_goals simp only [ErrKind.stops, Bool.false_eq_true, if_true, if_false]
    all_goals first
      | exact ⟨trivial, by simp only [Task.left, After.left]; omega⟩
      | exact ⟨hcatch e.info, by simp only [Task.left, After.left]; omega⟩
      | exact ⟨(hret _).1, by rw [(hret _).2]; omega⟩
  | record info name persist continues after =>
    simp only [step, stepRecord]
    split
    · exact ⟨trivial, by simp only [Proc.left, Task.left]; omega⟩
    · exact ⟨ht, by simp only [Proc.left, Task.left]; omega⟩
  | persist e r persist continues after =>
    exact ⟨ht, by simp only [step, stepPersist, Proc.left, Task.left]; omega⟩
  | announce e r continues after =>
    exact ⟨ht, by simp only [step, stepAnnounce, Proc.left, Task.left]; omega⟩
  | next after =>
    cases after with
    | stop => exact ⟨trivial, by simp [step, stepNext, Proc.left, Task.left, After.left]⟩
    | retry => exact absurd ht id
    | catchErr info input rules =>
      simp only [step, stepNext]
      split
      · exact ⟨trivial, by simp only [Proc.left, Task.left]; omega⟩
      next k hk =>
        have := below_lt b (ht k (List.mem_of_find?_eq_some hk))
        split
        · refine ⟨trivial, ?_⟩
          simp only [Proc.left, Task.left, After.left]
          omega
        · exact ⟨trivial, by simp only [Proc.left, Task.left, After.left]; omega⟩

theorem joined_less (b : Nat) (rank : Name → Nat) (j : Joining G F)
    (hj : Small b rank j.name j.c) (results : List (Option (Json F))) :
    (joined j results).Small b rank ∧ (joined j results).left b rank < below b (rank j.name) + 15 := by
  unfold joined
  split
  · exact ⟨hj, by simp only [Proc.left, Task.left]; omega⟩
  · exact ⟨trivial, by
      simp only [failWith, Proc.left, Task.left]
      split <;> omega⟩

/-- Every step of concurrent tasks leaves less to do. -/
theorem steps_less [DecidableEq F] {env : Env G F} {rank : Name → Nat} {b : Nat} (ha : Acyclic env rank)
    (hr : Unretried env)
    (hb : ∀ name c bs, Occurs env name c → c.branches = some bs → bs.length ≤ b)
    {c c' : S F × Proc G F} (h : Step env c c') (hc : c.2.Small b rank) :
    c'.2.Small b rank ∧ c'.2.left b rank < c.2.left b rank := by
  induction h with
  | task s t ret => exact step_less ha hr hb s ret t hc
  | branch s s' j before after p p' _ ih =>
    obtain ⟨hj, hc⟩ : Small b rank j.name j.c ∧ smallAll b rank (before ++ p :: after) := hc
    rw [smallAll_append] at hc
    obtain ⟨h1, h2, h3⟩ : _ ∧ Proc.Small b rank p ∧ smallAll b rank after := hc
    obtain ⟨i1, i2⟩ := ih h2
    refine ⟨⟨hj, (smallAll_append ..).2 ⟨h1, i1, h3⟩⟩, ?_⟩
    simp only [Proc.left, leftAll_append, leftAll] at i2 ⊢
    omega
  | joined s j branches results _ =>
    obtain ⟨h1, h2⟩ := joined_less b rank j hc.1 results
    refine ⟨h1, ?_⟩
    simp only [Proc.left] at h2 ⊢
    omega

mutual
/-- What is not over can go on. -/
theorem goes_on [DecidableEq F] (env : Env G F) :
    ∀ p : Proc G F, Over p ∨ ∀ s, ∃ c', Step env (s, p) c'
  | .done _ => .inl trivial
  | .crashed => .inl trivial
  | .task t ret => .inr fun s => ⟨_, .task s t ret⟩
  | .join j ps => .inr fun s => by
    rcases goes_on_all env ps with ⟨results, h⟩ | h
    · exact ⟨_, .joined s j ps results h⟩
    · obtain ⟨before, p, after, s', p', rfl, hs⟩ := h s
      exact ⟨_, .branch s s' j before after p p' hs⟩
theorem goes_on_all [DecidableEq F] (env : Env G F) : ∀ ps : List (Proc G F),
    (∃ results : List (Option (Json F)), ps.map result = results.map some) ∨
    ∀ s, ∃ before p after s' p', ps = before ++ p :: after ∧ Step env (s, p) (s', p')
  | [] => .inl ⟨[], rfl⟩
  | p :: ps => by
    rcases goes_on_all env ps with ⟨results, h⟩ | h
    · rcases goes_on env p with ho | hp
      · cases p with
        | done v => exact .inl ⟨v :: results, by simp [result, h]⟩
        | crashed => exact .inl ⟨none :: results, by simp [result, h]⟩
        | task => exact ho.elim
        | join => exact ho.elim
      · refine .inr fun s => ?_
        obtain ⟨⟨s', p'⟩, hs⟩ := hp s
        exact ⟨[], p, ps, s', p', rfl, hs⟩
    · refine .inr fun s => ?_
      obtain ⟨before, q, after, s', p', rfl, hs⟩ := h s
      exact ⟨p :: before, q, after, s', p', rfl, hs⟩
end

/-- **C160, partial.** A workflow without loops and without retries ends: whatever handlers answer,
whether or not progress can be saved, and in whatever order the branches of its parallel states run,
the number of steps is bounded; and until there is nothing left to do, it can go on. -/
theorem loopless_partial [DecidableEq F] (env : Env G F) (input : Json F) (rank : Name → Nat)
    (ha : Acyclic env rank) (hr : Unretried env) :
    Ends env input ∧ ∀ n c, Steps env n (start env input) c →
      ∃ m c', Steps env (n + m) (start env input) c' ∧ Steps env m c c' ∧ Over c'.2 := by
  obtain ⟨b, hb⟩ := branches_bounded env
  have key : ∀ n c, Steps env n (start env input) c → c.2.Small b rank ∧
      n + c.2.left b rank ≤ (start env input).2.left b rank := by
    intro n c h
    generalize hs : start env input = c0 at h
    induction h with
    | refl => exact ⟨by subst hs; trivial, by omega⟩
    | step _ hstep ih =>
      obtain ⟨h1, h2⟩ := ih hs
      obtain ⟨h3, h4⟩ := steps_less ha hr hb hstep h1
      exact ⟨h3, by omega⟩
  refine ⟨⟨_, fun n c h => Nat.le_trans (Nat.le_add_right _ _) (key n c h).2⟩, ?_⟩
  intro n c h
  generalize hk : c.2.left b rank = k
  induction k using Nat.strongRecOn generalizing n c with
  | ind k ih =>
    rcases goes_on env c.2 with ho | hg
    · exact ⟨0, c, h, .refl c, ho⟩
    · obtain ⟨c', hs⟩ := hg c.1
      obtain ⟨m, c'', h1, h2, h3⟩ := ih _ (hk ▸ (steps_less ha hr hb hs (key n c h).1).2) (n + 1) c'
        (.step h hs) rfl
      refine ⟨m + 1, c'', by rw [show n + (m + 1) = n + 1 + m by omega]; exact h1, ?_, h3⟩
      clear h1 h3 ih
      generalize hc : c' = d at h2
      induction h2 with
      | refl => subst hc; exact .step (.refl _) hs
      | step _ hx ih => exact .step (ih hc) hx

/-- A step at the end of a branch or of the workflow. -/
def lastStep : State (Option Int) := { kind := .executeStep, isEnd := some true }

/-- A step whose errors are caught. -/
def firstStep : State (Option Int) :=
  { kind := .executeStep, next := some ['p'], catchers := some [⟨[['*']], ['z'], none⟩] }

/-- Two branches. -/
def twoBranches : State (Option Int) :=
  { kind := .parallel, next := some ['z'],
    branches := some [(['x'], [(['x'], lastStep)]), (['y'], [(['y'], lastStep)])] }

/-- A workflow of these. -/
def looplessEnv : Env (Option Int) Int :=
  demoEnv [(['a'], firstStep), (['p'], twoBranches), (['z'], lastStep)] (fun _ _ v => .ok v)

def looplessRank (n : Name) : Nat :=
  if n = ['a'] then 3 else if n = ['p'] then 2 else if n = ['z'] then 1 else 0

/-- Its hypotheses are met. -/
example : Acyclic looplessEnv looplessRank ∧ Unretried looplessEnv := by
  have hf : ∀ name c, Occurs looplessEnv name c →
      (name, c) ∈ looplessEnv.states ∨ ((name = ['x'] ∨ name = ['y']) ∧
        c = lastStep) := by
    intro name c h
    cases h with
    | top h => exact .inl h
    | branch h hb hm hn =>
      simp only [looplessEnv, demoEnv, List.mem_cons, List.not_mem_nil, or_false, Prod.mk.injEq] at h
      rcases h with ⟨_, rfl⟩ | ⟨_, rfl⟩ | ⟨_, rfl⟩
      · cases hb
      · cases hb
        simp only [List.mem_cons, List.not_mem_nil, or_false] at hm
        rcases hm with rfl | rfl <;>
          · simp only [List.mem_cons, List.not_mem_nil, or_false, Prod.mk.injEq] at hn
            exact .inr ⟨by simp [hn.1], hn.2⟩
      · cases hb
  have hall : ∀ name c, Occurs looplessEnv name c → c.retry.getD [] = [] ∧
      (∀ n, c.next = some n → looplessRank n < looplessRank name) ∧
      (∀ ks, c.catchers = some ks → ∀ k ∈ ks, looplessRank k.next < looplessRank name) ∧
      (∀ bs, c.branches = some bs → ∀ b ∈ bs, looplessRank b.1 < looplessRank name) := by
    intro name c h
    rcases hf name c h with h | ⟨_, rfl⟩
    · simp only [looplessEnv, demoEnv, List.mem_cons, List.not_mem_nil, or_false, Prod.mk.injEq] at h
      rcases h with ⟨rfl, rfl⟩ | ⟨rfl, rfl⟩ | ⟨rfl, rfl⟩ 
      · simp [firstStep]; decide
      · simp only [twoBranches, Option.some.injEq, forall_eq', List.mem_cons, List.not_mem_nil, or_false,
          forall_eq_or_imp, forall_eq]
        simp
        decide
      · simp [lastStep]
    · simp [lastStep]
  exact ⟨⟨fun _ _ _ h hn => (hall _ _ h).2.1 _ hn, fun _ _ _ _ h hk hm => (hall _ _ h).2.2.1 _ hk _ hm,
    fun _ _ _ _ h hb hm => (hall _ _ h).2.2.2 _ hb _ hm⟩, fun _ _ h => (hall _ _ h).1⟩

end Verif.Workflow
