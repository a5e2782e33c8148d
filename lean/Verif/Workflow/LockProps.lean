import Verif.Workflow.Lock

/-!
# Property C161: handlers can be registered while executions run

The full statement (`FullServed`) is that whatever executions and registrations of handlers run, in
whatever order, all of them come to their end. It is false of the code: every execution in which a step
follows a successful step stops for good if a registration asks for the lock between the two
(`nested_stops`), since the second step waits for the registration and the registration for the first
step. What holds: executions without such steps and registrations always end, as do executions without
registrations (`served_partial`, `undisturbed_partial`), no schedule goes on forever (`bounded`), and
the table is never changed while somebody reads it (`exclusive`).
-/

namespace Verif.Workflow.Lock

/-! ## Specification -/

/-- Everything has ended. -/
def Done (c : Conf) : Prop := ∀ t ∈ c.threads, t.todo = []

/-- Nothing can happen. -/
def Stuck (c : Conf) : Prop := ∀ c', ¬Step c c'

/-- Whatever runs comes to its end: nothing stops before. -/
def FullServed : Prop :=
  ∀ (runs : List Run) (registrations : Nat) (c : Conf), Reach runs registrations c → Stuck c → Done c

/-- Some handler is called. -/
def Run.calls : Run → Prop
  | .stop => False
  | .step _ => True
  | .failed _ => True
  | .other rest => rest.calls

/-- A handler is called after a step that succeeded. -/
def Run.follows : Run → Prop
  | .stop => False
  | .step rest => rest.calls
  | .failed rest => rest.follows
  | .other rest => rest.follows

/-! ## Lemmas -/

/-- The read lock is asked for while it is held. -/
def nests : List Act → Nat → Bool
  | [], _ => false
  | .read :: l, k => decide (0 < k) || nests l (k + 1)
  | .dropRead :: l, k => nests l (k - 1)
  | _ :: l, k => nests l k

/-- The lock is taken only when nothing is held, and everything is given back. -/
def flat : List Act → Nat → Bool → Prop
  | [], k, w => k = 0 ∧ w = false
  | .read :: l, k, w => k = 0 ∧ w = false ∧ flat l 1 false
  | .write :: l, k, w => k = 0 ∧ w = false ∧ flat l 0 true
  | .work :: l, k, w => flat l k w
  | .dropRead :: l, k, w => k = 1 ∧ flat l 0 w
  | .dropWrite :: l, k, w => w = true ∧ flat l k false

theorem quiet (r : Run) (h : ¬r.calls) (l : List Act) (k : Nat) (w : Bool) (hl : flat l k w) :
    flat (script r ++ l) k w := by
  induction r with
  | stop => exact hl
  | step rest ih => exact absurd trivial h
  | failed rest ih => exact absurd trivial h
  | other rest ih => exact ih h

theorem flat_script (r : Run) (h : ¬r.follows) : flat (script r) 0 false := by
  induction r with
  | stop => exact ⟨rfl, rfl⟩
  | step rest ih => exact ⟨rfl, rfl, quiet rest h [.dropRead] 1 false ⟨rfl, rfl, rfl⟩⟩
  | failed rest ih => exact ⟨rfl, rfl, rfl, ih h⟩
  | other rest ih => exact ih h

theorem nests_calls (r : Run) (h : r.calls) (l : List Act) (k : Nat) (hk : 0 < k) :
    nests (script r ++ l) k = true := by
  induction r with
  | stop => exact absurd h id
  | step rest ih => simp [script, nests, hk]
  | failed rest ih => simp [script, nests, hk]
  | other rest ih => exact ih h

theorem nests_script (r : Run) (h : r.follows) (l : List Act) : nests (script r ++ l) 0 = true := by
  induction r with
  | stop => exact absurd h id
  | step rest ih =>
    have := nests_calls rest h (.dropRead :: l) 1 (by decide)
    simp [script, nests, this]
  | failed rest ih => simpa [script, nests] using ih h
  | other rest ih => exact ih h

/-- What is left to do, counted. -/
def Thread.left (t : Thread) : Nat := 2 * t.todo.length + (if t.waiting then 0 else 1)

/-- What is left to do. -/
def Conf.left (c : Conf) : Nat := (c.threads.map Thread.left).sum

theorem sum_set (l : List Thread) (i : Nat) (t u : Thread) (h : l[i]? = some t)
    (hlt : u.left < t.left) :
    ((l.set i u).map Thread.left).sum < (l.map Thread.left).sum := by
  induction l generalizing i with
  | nil => simp at h
  | cons x l ih =>
    cases i with
    | zero =>
      simp only [List.getElem?_cons_zero, Option.some.injEq] at h
      subst h
      simp only [List.set_cons_zero, List.map_cons, List.sum_cons]
      omega
    | succ i =>
      simp only [List.getElem?_cons_succ] at h
      have := ih i h
      simp only [List.set_cons_succ, List.map_cons, List.sum_cons]
      omega

theorem did_todo (t : Thread) (a : Act) (rest : List Act) : (t.did a rest).todo = rest := by
  cases a <;> rfl

theorem did_waiting (t : Thread) (a : Act) (rest : List Act) : (t.did a rest).waiting = false := by
  cases a <;> rfl

theorem did_left (t : Thread) (a : Act) (rest : List Act) (h : t.todo = a :: rest) :
    (t.did a rest).left < t.left := by
  simp only [Thread.left, did_todo, did_waiting, h, List.length_cons]
  have : (if false = true then 0 else 1) = 1 := rfl
  split <;> omega

theorem step_left (c c' : Conf) (h : Step c c') : c'.left < c.left := by
  cases h with
  | act i t a rest hi hw ht ha => exact sum_set _ i t _ hi (did_left t a rest ht)
  | take i t a rest hi hw ht ha hq hf => exact sum_set _ i t _ hi (did_left t a rest ht)
  | wait i t a rest hi hw ht ha hf =>
    refine sum_set _ i t _ hi ?_
    simp [Thread.left, hw]
  | grant i queue t a rest hq hi ht hf => exact sum_set _ i t _ hi (did_left t a rest ht)

/-- The state of a set list. -/
theorem get_set (l : List Thread) (i j : Nat) (t u x : Thread) (hi : l[i]? = some t)
    (h : (l.set i u)[j]? = some x) : (j = i ∧ x = u) ∨ (j ≠ i ∧ l[j]? = some x) := by
  rw [List.getElem?_set] at h
  by_cases hij : i = j
  · subst hij
    have : i < l.length := (List.getElem?_eq_some_iff.1 hi).1
    simp [this] at h
    exact .inl ⟨rfl, h.symm⟩
  · rw [if_neg hij] at h
    exact .inr ⟨fun e => hij e.symm, h⟩

theorem set_get (l : List Thread) (i j : Nat) (t u x : Thread) (_ : l[i]? = some t)
    (hj : l[j]? = some x) (hne : j ≠ i) : (l.set i u)[j]? = some x := by
  rw [List.getElem?_set, if_neg (fun e => hne e.symm)]
  exact hj

theorem set_self (l : List Thread) (i : Nat) (t u : Thread) (hi : l[i]? = some t) :
    (l.set i u)[i]? = some u := by
  have : i < l.length := (List.getElem?_eq_some_iff.1 hi).1
  rw [List.getElem?_set, if_pos rfl, if_pos this]

/-- The queue has those that wait, each once, and all of them want the lock. -/
structure Lined (c : Conf) : Prop where
  nodup : c.queue.Nodup
  waits : ∀ i t, c.threads[i]? = some t → (t.waiting = true ↔ i ∈ c.queue)
  range : ∀ i ∈ c.queue, ∃ t a rest, c.threads[i]? = some t ∧ t.todo = a :: rest ∧ a.takes = true

theorem lined_step (c c' : Conf) (hl : Lined c) (h : Step c c') : Lined c' := by
  cases h with
  | act i t a rest hi hw ht ha =>
    have hni : i ∉ c.queue := fun hm => by
      have := (hl.waits i t hi).2 hm
      rw [hw] at this
      exact absurd this nofun
    refine ⟨hl.nodup, ?_, ?_⟩
    · intro j x hj
      rcases get_set _ i j t _ x hi hj with ⟨rfl, rfl⟩ | ⟨hne, hj⟩
      · simp [did_waiting, hni]
      · exact hl.waits j x hj
    · intro j hj
      obtain ⟨x, b, r, hx, hb, hbt⟩ := hl.range j hj
      exact ⟨x, b, r, set_get _ i j t _ x hi hx (fun e => hni (e ▸ hj)), hb, hbt⟩
  | take i t a rest hi hw ht ha hq hf =>
    refine ⟨List.nodup_nil, ?_, nofun⟩
    intro j x hj
    rcases get_set _ i j t _ x hi hj with ⟨rfl, rfl⟩ | ⟨hne, hj⟩
    · simp [did_waiting]
    · have := hl.waits j x hj
      rw [hq] at this
      exact this
  | wait i t a rest hi hw ht ha hf =>
    have hni : i ∉ c.queue := fun hm => by
      have := (hl.waits i t hi).2 hm
      rw [hw] at this
      exact absurd this nofun
    refine ⟨?_, ?_, ?_⟩
    · refine List.nodup_append.2 ⟨hl.nodup, by simp, ?_⟩
      intro x hx y hy
      simp only [List.mem_singleton] at hy
      subst hy
      exact fun e => hni (e ▸ hx)
    · intro j x hj
      rcases get_set _ i j t _ x hi hj with ⟨rfl, rfl⟩ | ⟨hne, hj⟩
      · simp
      · rw [hl.waits j x hj]
        simp [hne]
    · intro j hj
      rcases List.mem_append.1 hj with hj | hj
      · obtain ⟨x, b, r, hx, hb, hbt⟩ := hl.range j hj
        exact ⟨x, b, r, set_get _ i j t _ x hi hx (fun e => hni (e ▸ hj)), hb, hbt⟩
      · simp only [List.mem_singleton] at hj
        subst hj
        exact ⟨_, a, rest, set_self _ _ t _ hi, ht, ha⟩
  | grant i queue t a rest hq hi ht hf =>
    have hnd := hl.nodup
    rw [hq, List.nodup_cons] at hnd
    refine ⟨hnd.2, ?_, ?_⟩
    · intro j x hj
      rcases get_set _ i j t _ x hi hj with ⟨rfl, rfl⟩ | ⟨hne, hj⟩
      · simp [did_waiting, hnd.1]
      · rw [hl.waits j x hj, hq]
        simp [hne]
    · intro j hj
      obtain ⟨x, b, r, hx, hb, hbt⟩ := hl.range j (by rw [hq]; exact List.mem_cons_of_mem _ hj)
      exact ⟨x, b, r, set_get _ i j t _ x hi hx (fun e => hnd.1 (e ▸ hj)), hb, hbt⟩

/-- Threads at the beginning. -/
theorem start_thread (runs : List Run) (n i : Nat) (t : Thread)
    (h : (start runs n).threads[i]? = some t) :
    (∃ r ∈ runs, t = .new (script r)) ∨ (0 < n ∧ t = .new registration) := by
  have hm := List.mem_of_getElem? h
  rcases List.mem_append.1 hm with hm | hm
  · obtain ⟨r, hr, e⟩ := List.mem_map.1 hm
    exact .inl ⟨r, hr, e.symm⟩
  · obtain ⟨hn, e⟩ := List.mem_replicate.1 hm
    exact .inr ⟨by omega, e⟩

theorem lined (runs : List Run) (n : Nat) (c : Conf) (h : Reach runs n c) : Lined c := by
  induction h with
  | start =>
    refine ⟨List.nodup_nil, ?_, nofun⟩
    intro i t ht
    rcases start_thread runs n i t ht with ⟨r, _, e⟩ | ⟨_, e⟩ <;> simp [e, Thread.new, start]
  | step c c' _ hs ih => exact lined_step c c' ih hs

/-- A property of threads that their actions keep, whether they wait or not. -/
theorem keeps (P : Thread → Prop) (hwait : ∀ t, P t → P { t with waiting := true })
    (hdid : ∀ t a rest, P t → t.todo = a :: rest → P (t.did a rest)) (runs : List Run) (n : Nat)
    (h0 : ∀ t ∈ (start runs n).threads, P t) (c : Conf) (h : Reach runs n c) :
    ∀ t ∈ c.threads, P t := by
  induction h with
  | start => exact h0
  | step c c' _ hs ih =>
    cases hs with
    | act i t a rest hi hw ht ha =>
      intro x hx
      rcases List.mem_or_eq_of_mem_set hx with hx | rfl
      · exact ih x hx
      · exact hdid t a rest (ih t (List.mem_of_getElem? hi)) ht
    | take i t a rest hi hw ht ha hq hf =>
      intro x hx
      rcases List.mem_or_eq_of_mem_set hx with hx | rfl
      · exact ih x hx
      · exact hdid t a rest (ih t (List.mem_of_getElem? hi)) ht
    | wait i t a rest hi hw ht ha hf =>
      intro x hx
      rcases List.mem_or_eq_of_mem_set hx with hx | rfl
      · exact ih x hx
      · exact hwait t (ih t (List.mem_of_getElem? hi))
    | grant i queue t a rest hq hi ht hf =>
      intro x hx
      rcases List.mem_or_eq_of_mem_set hx with hx | rfl
      · exact ih x hx
      · exact hdid t a rest (ih t (List.mem_of_getElem? hi)) ht

/-- Somebody who does not wait and has something to do can do something. -/
theorem goes (c : Conf) (i : Nat) (t : Thread) (hi : c.threads[i]? = some t)
    (hw : t.waiting = false) (ht : t.todo ≠ []) : ¬Stuck c := by
  intro hs
  cases htd : t.todo with
  | nil => exact ht htd
  | cons a rest =>
    cases ha : a.takes with
    | false => exact hs _ (.act c i t a rest hi hw htd ha)
    | true =>
      by_cases hf : c.queue = [] ∧ c.free a = true
      · exact hs _ (.take c i t a rest hi hw htd ha hf.1 hf.2)
      · exact hs _ (.wait c i t a rest hi hw htd ha hf)

theorem flat_did (t : Thread) (a : Act) (rest : List Act) (h : flat t.todo t.held t.writing)
    (ht : t.todo = a :: rest) :
    flat (t.did a rest).todo (t.did a rest).held (t.did a rest).writing := by
  rw [ht] at h
  cases a with
  | read =>
    obtain ⟨h1, h2, h3⟩ := h
    simp only [Thread.did, h1, h2]
    exact h3
  | write =>
    obtain ⟨h1, h2, h3⟩ := h
    simp only [Thread.did, h1]
    exact h3
  | work => exact h
  | dropRead =>
    obtain ⟨h1, h2⟩ := h
    simp only [Thread.did, h1]
    exact h2
  | dropWrite => exact h.2

/-- Threads that take the lock only when they hold nothing do not stop each other. -/
theorem flat_done (c : Conf) (hl : Lined c)
    (hf : ∀ t ∈ c.threads, flat t.todo t.held t.writing) (hs : Stuck c) : Done c := by
  have hwait : ∀ (i : Nat) (t : Thread), c.threads[i]? = some t → t.todo ≠ [] → t.waiting = true := by
    intro i t hi ht
    cases hw : t.waiting with
    | true => rfl
    | false => exact absurd hs (goes c i t hi hw ht)
  have hfree : ∀ t ∈ c.threads, t.held = 0 ∧ t.writing = false := by
    intro t hm
    obtain ⟨i, hi⟩ := List.mem_iff_getElem?.1 hm
    have hft := hf t hm
    cases htd : t.todo with
    | nil =>
      rw [htd] at hft
      exact hft
    | cons a rest =>
      have hw := hwait i t hi (by rw [htd]; exact nofun)
      obtain ⟨x, b, r, hx, hb, hbt⟩ := hl.range i ((hl.waits i t hi).1 hw)
      rw [hi] at hx
      cases hx
      rw [hb] at hft
      cases b with
      | read => exact ⟨hft.1, hft.2.1⟩
      | write => exact ⟨hft.1, hft.2.1⟩
      | work => exact absurd hbt nofun
      | dropRead => exact absurd hbt nofun
      | dropWrite => exact absurd hbt nofun
  intro t hm
  obtain ⟨i, hi⟩ := List.mem_iff_getElem?.1 hm
  cases htd : t.todo with
  | nil => rfl
  | cons a rest =>
    have hw := hwait i t hi (by rw [htd]; exact nofun)
    have hq := (hl.waits i t hi).1 hw
    cases hqq : c.queue with
    | nil => rw [hqq] at hq; exact absurd hq nofun
    | cons j queue =>
      obtain ⟨x, b, r, hx, hb, hbt⟩ := hl.range j (by rw [hqq]; exact List.mem_cons_self)
      refine absurd (Step.grant c j queue x b r hqq hx hb ?_) (hs _)
      cases b with
      | read => exact List.all_eq_true.2 (fun t ht => by simp [(hfree t ht).2])
      | write => exact List.all_eq_true.2 (fun t ht => by simp [hfree t ht])
      | work => rfl
      | dropRead => rfl
      | dropWrite => rfl

/-! ## The properties -/

/-- A number of steps. -/
inductive Steps : Nat → Conf → Conf → Prop
  | refl (c : Conf) : Steps 0 c c
  | step (n : Nat) (c d e : Conf) : Step c d → Steps n d e → Steps (n + 1) c e

/-- C161: no schedule goes on forever. There is a number of steps after which nothing goes on. -/
theorem bounded (runs : List Run) (registrations : Nat) :
    ∃ limit, ∀ n c, Steps n (start runs registrations) c → n ≤ limit := by
  have key : ∀ n c d, Steps n c d → n ≤ c.left := by
    intro n c d h
    induction h with
    | refl c => exact Nat.zero_le _
    | step n c d e hs _ ih =>
      have := step_left c d hs
      omega
  exact ⟨_, fun n c h => key n _ c h⟩

/-- C161: executions in which no handler is called after a step that succeeded end, and so do the
registrations of handlers meanwhile: where nothing can happen, everything has ended. What is missing is
the case of two successive steps (`nested_stops`). -/
theorem served_partial (runs : List Run) (registrations : Nat) (hr : ∀ r ∈ runs, ¬r.follows)
    (c : Conf) (h : Reach runs registrations c) (hs : Stuck c) : Done c := by
  refine flat_done c (lined _ _ c h) ?_ hs
  refine keeps (fun t => flat t.todo t.held t.writing) (fun t ht => ht)
    (fun t a rest ht e => flat_did t a rest ht e) runs registrations ?_ c h
  intro t hm
  obtain ⟨i, hi⟩ := List.mem_iff_getElem?.1 hm
  rcases start_thread runs registrations i t hi with ⟨r, hmr, e⟩ | ⟨_, e⟩
  · subst e
    exact flat_script r (hr r hmr)
  · subst e
    exact ⟨rfl, rfl, rfl, rfl, rfl⟩

/-- The premises of `served_partial` are met: a step that is retried twice, a wait, a last step. -/
example : ∀ r ∈ [Run.failed (.failed (.other (.step .stop))), .other (.step (.other .stop))],
    ¬r.follows := by
  intro r hr
  simp only [List.mem_cons, List.not_mem_nil, or_false] at hr
  rcases hr with rfl | rfl <;> exact id

theorem no_write (r : Run) (l : List Act) (hl : .write ∉ l) : .write ∉ script r ++ l := by
  induction r generalizing l with
  | stop => exact hl
  | step rest ih =>
    have := ih (.dropRead :: l) (by simp [hl])
    simp only [script, List.cons_append, List.append_assoc, List.mem_cons, not_or]
    exact ⟨nofun, nofun, this⟩
  | failed rest ih =>
    simp only [script, List.cons_append, List.mem_cons, not_or]
    exact ⟨nofun, nofun, nofun, ih l hl⟩
  | other rest ih =>
    simp only [script, List.cons_append, List.mem_cons, not_or]
    exact ⟨nofun, ih l hl⟩

/-- C161: without registrations all executions end, whatever steps they have. -/
theorem undisturbed_partial (runs : List Run) (c : Conf) (h : Reach runs 0 c) (hs : Stuck c) :
    Done c := by
  have hno : ∀ t ∈ c.threads, .write ∉ t.todo ∧ t.writing = false := by
    refine keeps (fun t => .write ∉ t.todo ∧ t.writing = false) (fun t ht => ht) ?_ runs 0 ?_ c h
    · intro t a rest ht e
      rw [e] at ht
      cases a with
      | write => exact absurd List.mem_cons_self ht.1
      | read => exact ⟨fun hm => ht.1 (List.mem_cons_of_mem _ hm), ht.2⟩
      | work => exact ⟨fun hm => ht.1 (List.mem_cons_of_mem _ hm), ht.2⟩
      | dropRead => exact ⟨fun hm => ht.1 (List.mem_cons_of_mem _ hm), ht.2⟩
      | dropWrite => exact ⟨fun hm => ht.1 (List.mem_cons_of_mem _ hm), rfl⟩
    · intro t hm
      obtain ⟨i, hi⟩ := List.mem_iff_getElem?.1 hm
      rcases start_thread runs 0 i t hi with ⟨r, _, e⟩ | ⟨h0, _⟩
      · subst e
        refine ⟨?_, rfl⟩
        have := no_write r [] nofun
        rwa [List.append_nil] at this
      · exact absurd h0 (Nat.lt_irrefl 0)
  have hl := lined _ _ c h
  intro t hm
  obtain ⟨i, hi⟩ := List.mem_iff_getElem?.1 hm
  cases htd : t.todo with
  | nil => rfl
  | cons a rest =>
    exfalso
    cases hw : t.waiting with
    | false => exact goes c i t hi hw (by rw [htd]; exact nofun) hs
    | true =>
      have hq := (hl.waits i t hi).1 hw
      cases hqq : c.queue with
      | nil => rw [hqq] at hq; exact absurd hq nofun
      | cons j queue =>
        obtain ⟨x, b, r, hx, hb, hbt⟩ := hl.range j (by rw [hqq]; exact List.mem_cons_self)
        refine hs _ (Step.grant c j queue x b r hqq hx hb ?_)
        cases b with
        | read => exact List.all_eq_true.2 (fun t ht => by simp [(hno t ht).2])
        | write =>
          have := (hno x (List.mem_of_getElem? hx)).1
          rw [hb] at this
          exact absurd List.mem_cons_self this
        | work => rfl
        | dropRead => rfl
        | dropWrite => rfl

/-- What stands still: an execution that wants to read again and a registration in front of it. -/
theorem stands (rest : List Act) (k : Nat) (hk : 0 < k) :
    Stuck ⟨[⟨.read :: rest, k, false, true⟩, ⟨registration, 0, false, true⟩], [1, 0]⟩ := by
  intro c' h
  generalize hc : Conf.mk _ _ = c at h
  cases h with
  | act i t a r hi hw ht ha =>
    subst hc
    match i with
    | 0 => cases hi; cases hw
    | 1 => cases hi; cases hw
    | i + 2 => simp at hi
  | take i t a r hi hw ht ha hq hf =>
    subst hc
    exact absurd hq nofun
  | wait i t a r hi hw ht ha hf =>
    subst hc
    match i with
    | 0 => cases hi; cases hw
    | 1 => cases hi; cases hw
    | i + 2 => simp at hi
  | grant i queue t a r hq hi ht hf =>
    subst hc
    cases hq
    cases hi
    cases ht
    simp [Conf.free] at hf
    omega

/-- An execution that has some guards and a registration that has not begun. -/
def two (todo : List Act) (k : Nat) : Conf :=
  ⟨[⟨todo, k, false, false⟩, .new registration], []⟩

/-- An execution that asks for the lock while it has it comes to stand still. -/
theorem nested (runs : List Run) (todo : List Act) (k : Nat) (hw : .write ∉ todo)
    (hn : nests todo k = true)
    (h : Reach runs 1 (two todo k)) :
    ∃ c, Reach runs 1 c ∧ Stuck c ∧ ¬Done c := by
  induction todo generalizing k with
  | nil => exact absurd hn nofun
  | cons a rest ih =>
    have hw' : .write ∉ rest := fun hm => hw (List.mem_cons_of_mem _ hm)
    cases a with
    | write => exact absurd List.mem_cons_self hw
    | work =>
      exact ih k hw' hn (.step _ _ h (Step.act (two (.work :: rest) k) 0
        ⟨.work :: rest, k, false, false⟩ .work rest rfl rfl rfl rfl))
    | dropRead =>
      exact ih (k - 1) hw' hn (.step _ _ h (Step.act (two (.dropRead :: rest) k) 0
        ⟨.dropRead :: rest, k, false, false⟩ .dropRead rest rfl rfl rfl rfl))
    | dropWrite =>
      exact ih k hw' hn (.step _ _ h (Step.act (two (.dropWrite :: rest) k) 0
        ⟨.dropWrite :: rest, k, false, false⟩ .dropWrite rest rfl rfl rfl rfl))
    | read =>
      by_cases hk : 0 < k
      · refine ⟨_, .step _ _ (.step _ _ h (.wait _ 1 _ .write [.work, .dropWrite] rfl rfl rfl rfl ?_))
          (.wait _ 0 _ .read rest rfl rfl rfl rfl ?_), stands rest k hk, ?_⟩
        · intro hf
          have := hf.2
          simp [Conf.free, two] at this
          omega
        · intro hf
          exact absurd hf.1 nofun
        · intro hd
          exact absurd (hd _ List.mem_cons_self) nofun
      · have hk0 : k = 0 := by omega
        subst hk0
        refine ih 1 hw' ?_ (.step _ _ h (Step.take (two (.read :: rest) 0) 0
          ⟨.read :: rest, 0, false, false⟩ .read rest rfl rfl rfl rfl rfl rfl))
        simpa [nests] using hn

/-- C161: every execution in which a handler is called after a step that succeeded can be stopped for
good by one registration of a handler. -/
theorem nested_stops (r : Run) (hr : r.follows) :
    ∃ c, Reach [r] 1 c ∧ Stuck c ∧ ¬Done c := by
  have hn := nests_script r hr []
  have hw := no_write r [] nofun
  rw [List.append_nil] at hn hw
  exact nested [r] (script r) 0 hw hn .start

/-- The premise of `nested_stops` is met by two steps, one after the other. -/
example : (Run.step (.step .stop)).follows := trivial

/-- C161 is false of the code: two steps and a registration in between. -/
theorem served_violated : ¬FullServed := by
  intro h
  obtain ⟨c, hc, hs, hd⟩ := nested_stops (.step (.step .stop)) trivial
  exact hd (h _ _ c hc hs)

/-- C161: the table of handlers is never changed while it is read, nor by two at once. -/
theorem exclusive (runs : List Run) (registrations : Nat) (c : Conf)
    (h : Reach runs registrations c) (i j : Nat) (t u : Thread) (hi : c.threads[i]? = some t)
    (hj : c.threads[j]? = some u) (hw : t.writing = true) (hne : i ≠ j) :
    u.held = 0 ∧ u.writing = false := by
  induction h generalizing i j t u with
  | start =>
    rcases start_thread runs registrations i t hi with ⟨r, _, e⟩ | ⟨_, e⟩ <;>
      (subst e; exact absurd hw nofun)
  | step c c' hc hs ih =>
    have main : ∀ (k : Nat) (x : Thread) (a : Act) (rest : List Act) (q : List Nat),
        c.threads[k]? = some x → (a.takes = true → c.free a = true) →
        c' = ⟨c.threads.set k (x.did a rest), q⟩ → u.held = 0 ∧ u.writing = false := by
      intro k x a rest q hk hf e
      subst e
      rcases get_set _ k i x _ t hk hi with ⟨rfl, rfl⟩ | ⟨hik, hi'⟩
      · rcases get_set _ i j x _ u hk hj with ⟨e, _⟩ | ⟨_, hj'⟩
        · exact absurd e.symm hne
        · cases a with
          | write =>
            have := List.all_eq_true.1 (hf rfl) u (List.mem_of_getElem? hj')
            simpa [and_comm] using this
          | read => exact ih i j x u hk hj' hw hne
          | work => exact ih i j x u hk hj' hw hne
          | dropRead => exact ih i j x u hk hj' hw hne
          | dropWrite => exact absurd hw nofun
      · rcases get_set _ k j x _ u hk hj with ⟨rfl, rfl⟩ | ⟨_, hj'⟩
        · have hx := ih i j t x hi' hk hw hne
          cases a with
          | write =>
            have := List.all_eq_true.1 (hf rfl) t (List.mem_of_getElem? hi')
            simp [hw] at this
          | read =>
            have := List.all_eq_true.1 (hf rfl) t (List.mem_of_getElem? hi')
            simp [hw] at this
          | work => exact hx
          | dropRead => exact ⟨by simp [Thread.did, hx.1], hx.2⟩
          | dropWrite => exact ⟨hx.1, rfl⟩
        · exact ih i j t u hi' hj' hw hne
    cases hs with
    | act k x a rest hk hxw hx ha =>
      exact main k x a rest _ hk (fun e => by rw [ha] at e; exact absurd e nofun) rfl
    | take k x a rest hk hxw hx ha hq hf => exact main k x a rest _ hk (fun _ => hf) rfl
    | grant k queue x a rest hq hk hx hf => exact main k x a rest _ hk (fun _ => hf) rfl
    | wait k x a rest hk hxw hx ha hf =>
      have back : ∀ (m : Nat) (y : Thread),
          (c.threads.set k { x with waiting := true })[m]? = some y →
          ∃ z, c.threads[m]? = some z ∧ z.held = y.held ∧ z.writing = y.writing := by
        intro m y hm
        rcases get_set _ k m x _ y hk hm with ⟨rfl, rfl⟩ | ⟨_, hm'⟩
        · exact ⟨x, hk, rfl, rfl⟩
        · exact ⟨y, hm', rfl, rfl⟩
      obtain ⟨t', ht', _, htw⟩ := back i t hi
      obtain ⟨u', hu', huh, huw⟩ := back j u hj
      rw [← huh, ← huw]
      exact ih i j t' u' ht' hu' (by rw [htw]; exact hw) hne

/-- A registration does get its turn. -/
example : ∃ c, Reach [.step .stop] 1 c ∧ ∃ t, c.threads[1]? = some t ∧ t.writing = true :=
  ⟨_, .step _ _ .start (.take _ 1 _ .write [.work, .dropWrite] rfl rfl rfl rfl rfl rfl), _, rfl, rfl⟩

end Verif.Workflow.Lock
