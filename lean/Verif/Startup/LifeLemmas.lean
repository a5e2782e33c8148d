import Verif.Startup.Spec
import Verif.Assoc

/-!
# Lemmas about running and shutting down
-/

namespace Verif.Startup

/-- Every server that accepts connections can be told to stop. -/
structure Inv (s : Life) : Prop where
  http : ∀ i, s.httpSignal = some i → i < s.servers.length
  loc : ∀ i, s.localSignal = some i → i < s.servers.length
  apart : ∀ i, s.httpSignal = some i → s.localSignal ≠ some i
  held : ∀ i, s.servers[i]? = some .serving → s.httpSignal = some i ∨ s.localSignal = some i
  httpOnly : s.http = false → s.httpSignal = none
  localOnly : s.localApi = false → s.localSignal = none

theorem stop_get (l : List Status) (i j : Nat) :
    (stop l i)[j]? = if i = j ∧ l[i]? = some .serving then some .stopping else l[j]? := by
  unfold stop
  cases h : l[i]? with
  | none => simp
  | some t =>
    have hi : i < l.length := by
      rcases List.getElem?_eq_some_iff.1 h with ⟨hi, _⟩
      exact hi
    cases t with
    | serving =>
      by_cases hij : i = j
      · subst hij; simp [hi]
      · simp [hij]
    | stopping => simp
    | gone => simp

theorem stop_length (l : List Status) (i : Nat) : (stop l i).length = l.length := by
  unfold stop
  cases h : l[i]? with
  | none => rfl
  | some t => cases t <;> simp

theorem dropSender_length (l : List Status) (o : Option Nat) :
    (dropSender l o).length = l.length := by
  cases o with
  | none => rfl
  | some i => exact stop_length l i

theorem dropSender_serving (l : List Status) (o : Option Nat) (j : Nat) :
    (dropSender l o)[j]? = some .serving ↔ l[j]? = some .serving ∧ o ≠ some j := by
  cases o with
  | none => simp [dropSender]
  | some i =>
    rw [dropSender, stop_get]
    by_cases hij : i = j
    · subst hij
      by_cases h : l[i]? = some .serving <;> simp [h]
    · simp [hij]

theorem fresh_inv (a b c d e : Bool) : Inv (fresh a b c d e) := by
  constructor <;> simp [fresh]

theorem setupTracing_inv {s : Life} (h : Inv s) (o : Outside) : Inv (setupTracing o s).1 := by
  unfold setupTracing
  split
  · split
    · split
      · exact h
      · split
        · exact h
        · exact ⟨h.http, h.loc, h.apart, h.held, h.httpOnly, h.localOnly⟩
    · exact h
  · exact h

theorem append_serving (l : List Status) (j : Nat) :
    (l ++ [Status.serving])[j]? = some .serving ↔ l[j]? = some .serving ∨ j = l.length := by
  by_cases hj : j < l.length
  · rw [List.getElem?_append_left hj]
    constructor
    · exact .inl
    · rintro (h | h)
      · exact h
      · omega
  · rw [List.getElem?_append_right (by omega), List.getElem?_eq_none (by omega : l.length ≤ j)]
    constructor
    · intro h
      right
      have := (List.getElem?_eq_some_iff.1 h).1
      simp at this
      omega
    · rintro (h | h)
      · cases h
      · simp [h]

theorem runHttp_inv {s : Life} (h : Inv s) (o : Outside) : Inv (runHttp o s).1 := by
  unfold runHttp
  split
  · split
    · constructor
      · intro i hi
        dsimp only at hi ⊢
        injection hi with hi
        rw [dropSender_length, List.length_append, List.length_singleton]
        omega
      · intro i hi
        dsimp only at hi ⊢
        rw [dropSender_length, List.length_append]
        have := h.loc i hi
        omega
      · intro i hi hi'
        dsimp only at hi hi'
        injection hi with hi
        have := h.loc i hi'
        omega
      · intro i hi
        dsimp only at hi ⊢
        rw [dropSender_serving, append_serving] at hi
        obtain ⟨h1 | h1, h2⟩ := hi
        · rcases h.held i h1 with h3 | h3
          · exact absurd h3 h2
          · exact .inr h3
        · exact .inl (by rw [h1])
      · rename_i hh _
        intro hf
        rw [show s.http = false from hf] at hh
        cases hh
      · exact h.localOnly
    · exact h
  · exact h

theorem runLocal_inv {s : Life} (h : Inv s) (o : Outside) : Inv (runLocal o s).1 := by
  unfold runLocal
  split
  · split
    · constructor
      · intro i hi
        dsimp only at hi ⊢
        rw [dropSender_length, List.length_append]
        have := h.http i hi
        omega
      · intro i hi
        dsimp only at hi ⊢
        injection hi with hi
        rw [dropSender_length, List.length_append, List.length_singleton]
        omega
      · intro i hi hi'
        dsimp only at hi hi'
        injection hi' with hi'
        have := h.http i hi
        omega
      · intro i hi
        dsimp only at hi ⊢
        rw [dropSender_serving, append_serving] at hi
        obtain ⟨h1 | h1, h2⟩ := hi
        · rcases h.held i h1 with h3 | h3
          · exact .inl h3
          · exact absurd h3 h2
        · exact .inr (by rw [h1])
      · exact h.httpOnly
      · rename_i hh _
        intro hf
        rw [show s.localApi = false from hf] at hh
        cases hh
    · exact h
  · exact h

theorem run_inv {s : Life} (h : Inv s) (o : Outside) : Inv (run o s).1 := by
  unfold run
  have h1 := setupTracing_inv h o
  revert h1
  cases setupTracing o s with
  | mk s1 r1 =>
    intro h1
    cases r1 with
    | ok =>
      dsimp only at h1 ⊢
      have h2 := runHttp_inv h1 o
      revert h2
      cases runHttp o s1 with
      | mk s2 r2 =>
        intro h2
        cases r2 with
        | ok => exact runLocal_inv h2 o
        | _ => exact h2
    | _ => exact h1

theorem send_some {l l' : List Status} {i : Nat} (h : send l i = some l') : l' = stop l i := by
  unfold send at h
  split at h
  · cases h
  · injection h with h
    exact h.symm

theorem send_none {l : List Status} {i : Nat} (h : send l i = none) : l[i]? = some .gone := by
  unfold send at h
  split at h
  · assumption
  · cases h

theorem stop_serving (l : List Status) (i j : Nat) :
    (stop l i)[j]? = some .serving ↔ l[j]? = some .serving ∧ i ≠ j := by
  have := dropSender_serving l (some i) j
  rw [dropSender] at this
  rw [this]
  simp

theorem shutdownHttp_inv {s : Life} (h : Inv s) {i : Nat} (hi : s.httpSignal = some i) :
    (∀ l, send s.servers i = some l → Inv { s with servers := l, httpSignal := none }) ∧
    (send s.servers i = none → Inv { s with httpSignal := none }) := by
  constructor
  · intro l hl
    rw [send_some hl]
    refine ⟨by simp, ?_, by simp, ?_, fun _ => rfl, h.localOnly⟩
    · intro j hj
      dsimp only at hj ⊢
      rw [stop_length]
      exact h.loc j hj
    · intro j hj
      dsimp only at hj ⊢
      rw [stop_serving] at hj
      rcases h.held j hj.1 with h3 | h3
      · rw [hi] at h3
        injection h3 with h3
        exact absurd h3 hj.2
      · exact .inr h3
  · intro hn
    refine ⟨by simp, h.loc, by simp, ?_, fun _ => rfl, h.localOnly⟩
    intro j hj
    dsimp only at hj ⊢
    rcases h.held j hj with h3 | h3
    · rw [hi] at h3
      injection h3 with h3
      rw [← h3, send_none hn] at hj
      cases hj
    · exact .inr h3

theorem shutdownLocal_inv {s : Life} (h : Inv s) {i : Nat} (hi : s.localSignal = some i) :
    (∀ l, send s.servers i = some l → Inv { s with servers := l, localSignal := none }) ∧
    (send s.servers i = none → Inv { s with localSignal := none }) := by
  constructor
  · intro l hl
    rw [send_some hl]
    refine ⟨?_, by simp, by simp, ?_, h.httpOnly, fun _ => rfl⟩
    · intro j hj
      dsimp only at hj ⊢
      rw [stop_length]
      exact h.http j hj
    · intro j hj
      dsimp only at hj ⊢
      rw [stop_serving] at hj
      rcases h.held j hj.1 with h3 | h3
      · exact .inl h3
      · rw [hi] at h3
        injection h3 with h3
        exact absurd h3 hj.2
  · intro hn
    refine ⟨h.http, by simp, by simp, ?_, h.httpOnly, fun _ => rfl⟩
    intro j hj
    dsimp only at hj ⊢
    rcases h.held j hj with h3 | h3
    · exact .inl h3
    · rw [hi] at h3
      injection h3 with h3
      rw [← h3, send_none hn] at hj
      cases hj

/-- What shutting down does to an application whose servers can be told to stop. -/
theorem shutdown_spec {s : Life} (h : Inv s) :
    Inv (shutdown s).1 ∧
    ((shutdown s).2 = .ok →
      (shutdown s).1.httpSignal = none ∧ (shutdown s).1.localSignal = none) ∧
    ((∀ t ∈ s.servers, t ≠ .gone) → (shutdown s).2 = .ok ∧
      ∀ t ∈ (shutdown s).1.servers, t ≠ .gone) := by
  have goneLeft : ∀ l l' : List Status, ∀ i, (∀ t ∈ l, t ≠ .gone) → send l i = some l' →
      ∀ t ∈ l', t ≠ .gone := by
    intro l l' i hl hs t ht
    rw [send_some hs] at ht
    obtain ⟨j, hj⟩ := List.mem_iff_getElem?.1 ht
    rw [stop_get] at hj
    split at hj
    · injection hj with hj
      rw [← hj]
      nofun
    · exact hl t (List.mem_iff_getElem?.2 ⟨j, hj⟩)
  have goneNot : ∀ l : List Status, ∀ i, (∀ t ∈ l, t ≠ .gone) → send l i ≠ none := by
    intro l i hl hn
    exact hl _ (List.mem_iff_getElem?.2 ⟨i, send_none hn⟩) rfl
  have second : ∀ s : Life, Inv s → s.httpSignal = none →
      let r := match s.localSignal with
        | none => (s, Result.ok)
        | some i =>
          match send s.servers i with
          | none => ({ s with localSignal := none }, .panic)
          | some l => ({ s with servers := l, localSignal := none }, .ok)
      Inv r.1 ∧ (r.2 = .ok → r.1.httpSignal = none ∧ r.1.localSignal = none) ∧
      ((∀ t ∈ s.servers, t ≠ .gone) → r.2 = .ok ∧ ∀ t ∈ r.1.servers, t ≠ .gone) := by
    intro s h hs
    cases hl : s.localSignal with
    | none => exact ⟨h, fun _ => ⟨hs, hl⟩, fun hg => ⟨rfl, hg⟩⟩
    | some j =>
      dsimp only
      cases hsend : send s.servers j with
      | none =>
        exact ⟨(shutdownLocal_inv h hl).2 hsend, nofun, fun hg => absurd hsend (goneNot _ _ hg)⟩
      | some l =>
        exact ⟨(shutdownLocal_inv h hl).1 l hsend, fun _ => ⟨hs, rfl⟩,
          fun hg => ⟨rfl, goneLeft _ _ _ hg hsend⟩⟩
  unfold shutdown
  cases hh : s.httpSignal with
  | none => exact second s h hh
  | some i =>
    dsimp only
    cases hsend : send s.servers i with
    | none =>
      exact ⟨(shutdownHttp_inv h hh).2 hsend, nofun, fun hg => absurd hsend (goneNot _ _ hg)⟩
    | some l =>
      obtain ⟨a, b, c⟩ := second _ ((shutdownHttp_inv h hh).1 l hsend) rfl
      exact ⟨a, b, fun hg => c (goneLeft _ _ _ hg hsend)⟩

theorem step_inv {s : Life} (h : Inv s) (op : Op) : Inv (step s op) := by
  cases op with
  | run o => exact run_inv h o
  | shutdown => exact (shutdown_spec h).1
  | endRuntime =>
    refine ⟨?_, ?_, h.apart, ?_, h.httpOnly, h.localOnly⟩
    · intro i hi
      simp only [step, List.length_map]
      exact h.http i hi
    · intro i hi
      simp only [step, List.length_map]
      exact h.loc i hi
    · intro i hi
      simp only [step, List.getElem?_map, Option.map_eq_some_iff] at hi
      obtain ⟨t, _, ht⟩ := hi
      split at ht
      · cases ht
      · contradiction

theorem steps_snoc (s : Life) (ops : List Op) (op : Op) :
    steps s (ops ++ [op]) = step (steps s ops) op := by
  simp [steps]

theorem steps_inv {s : Life} (h : Inv s) (ops : List Op) : Inv (steps s ops) := by
  induction ops generalizing s with
  | nil => exact h
  | cons op ops ih => exact ih (step_inv h op)

/-- No server is gone: the servers before and those started. -/
theorem started_not_gone (l : List Status) (o : Option Nat) (h : ∀ t ∈ l, t ≠ .gone) :
    ∀ t ∈ dropSender (l ++ [.serving]) o, t ≠ .gone := by
  intro t ht
  have h' : ∀ t ∈ l ++ [Status.serving], t ≠ .gone := by
    intro t ht
    rcases List.mem_append.1 ht with ht | ht
    · exact h t ht
    · rw [List.mem_singleton.1 ht]; nofun
  cases o with
  | none => exact h' t ht
  | some i =>
    obtain ⟨j, hj⟩ := List.mem_iff_getElem?.1 ht
    rw [dropSender, stop_get] at hj
    split at hj
    · injection hj with hj
      rw [← hj]
      nofun
    · exact h' t (List.mem_iff_getElem?.2 ⟨j, hj⟩)

theorem setupTracing_servers (o : Outside) (s : Life) :
    (setupTracing o s).1.servers = s.servers ∧ (setupTracing o s).1.http = s.http ∧
      (setupTracing o s).1.localApi = s.localApi := by
  unfold setupTracing
  split
  · split
    · split
      · exact ⟨rfl, rfl, rfl⟩
      · split <;> exact ⟨rfl, rfl, rfl⟩
    · exact ⟨rfl, rfl, rfl⟩
  · exact ⟨rfl, rfl, rfl⟩

theorem runHttp_not_gone {s : Life} (h : ∀ t ∈ s.servers, t ≠ .gone) (o : Outside) :
    ∀ t ∈ (runHttp o s).1.servers, t ≠ .gone := by
  unfold runHttp
  split
  · split
    · exact started_not_gone _ _ h
    · exact h
  · exact h

theorem runLocal_not_gone {s : Life} (h : ∀ t ∈ s.servers, t ≠ .gone) (o : Outside) :
    ∀ t ∈ (runLocal o s).1.servers, t ≠ .gone := by
  unfold runLocal
  split
  · split
    · exact started_not_gone _ _ h
    · exact h
  · exact h

theorem run_not_gone {s : Life} (h : ∀ t ∈ s.servers, t ≠ .gone) (o : Outside) :
    ∀ t ∈ (run o s).1.servers, t ≠ .gone := by
  unfold run
  have h1 : ∀ t ∈ (setupTracing o s).1.servers, t ≠ .gone := by
    rw [(setupTracing_servers o s).1]; exact h
  revert h1
  cases setupTracing o s with
  | mk s1 r1 =>
    intro h1
    cases r1 with
    | ok =>
      dsimp only at h1 ⊢
      have h2 := runHttp_not_gone h1 o
      revert h2
      cases runHttp o s1 with
      | mk s2 r2 =>
        intro h2
        cases r2 with
        | ok => exact runLocal_not_gone h2 o
        | _ => exact h2
    | _ => exact h1

theorem steps_not_gone {s : Life} (hi : Inv s) (h : ∀ t ∈ s.servers, t ≠ .gone) (ops : List Op)
    (hops : .endRuntime ∉ ops) : ∀ t ∈ (steps s ops).servers, t ≠ .gone := by
  induction ops generalizing s with
  | nil => exact h
  | cons op ops ih =>
    have hops' : Op.endRuntime ∉ ops := fun hm => hops (List.mem_cons_of_mem _ hm)
    refine ih (step_inv hi op) ?_ hops'
    cases op with
    | run o => exact run_not_gone h o
    | shutdown => exact ((shutdown_spec hi).2.2 h).2
    | endRuntime => exact absurd (List.mem_cons_self ..) hops

/-- Without signals nothing is serving. -/
theorem serving_zero {s : Life} (h : Inv s) (h1 : s.httpSignal = none) (h2 : s.localSignal = none) :
    ∀ t ∈ s.servers, t ≠ .serving := by
  rintro t ht rfl
  obtain ⟨j, hj⟩ := List.mem_iff_getElem?.1 ht
  rcases h.held j hj with h3 | h3
  · rw [h1] at h3; cases h3
  · rw [h2] at h3; cases h3

/-- Shutting down again changes nothing. -/
theorem shutdown_none {s : Life} (h1 : s.httpSignal = none) (h2 : s.localSignal = none) :
    shutdown s = (s, .ok) := by
  unfold shutdown
  rw [h1]
  dsimp only
  rw [h2]

/-! ## How many servers there are -/

theorem count_range (l : List Status) :
    l.count .serving =
      ((List.range l.length).filter fun i => decide (l[i]? = some .serving)).length := by
  induction l using Assoc.snoc_induction with
  | nil => rfl
  | snoc l t ih =>
    rw [List.count_append, List.length_append, List.length_singleton, List.range_succ,
      List.filter_append, List.length_append, ih]
    congr 1
    · congr 1
      apply List.filter_congr
      intro i hi
      rw [List.getElem?_append_left (List.mem_range.1 hi)]
    · rw [List.filter_cons, List.filter_nil]
      simp only [List.getElem?_append_right (Nat.le_refl _), Nat.sub_self,
        List.getElem?_cons_zero, Option.some.injEq]
      cases t <;> simp

theorem count_indices {l : List Status} {is : List Nat} (hn : is.Nodup)
    (h : ∀ i, l[i]? = some .serving ↔ i ∈ is) : l.count .serving = is.length := by
  rw [count_range]
  apply List.Perm.length_eq
  rw [List.perm_ext_iff_of_nodup (List.nodup_range.filter _) hn]
  intro i
  rw [List.mem_filter, List.mem_range, decide_eq_true_iff, h i]
  refine ⟨fun h => h.2, fun hi => ⟨?_, hi⟩⟩
  have := (h i).2 hi
  exact (List.getElem?_eq_some_iff.1 this).1

/-- What `run` leaves when it succeeds. -/
theorem run_ok {s : Life} (h : Inv s) (o : Outside) (hr : (run o s).2 = .ok) :
    (run o s).1.http = s.http ∧ (run o s).1.localApi = s.localApi ∧
    (s.http = true → ∃ i, (run o s).1.httpSignal = some i ∧
      (run o s).1.servers[i]? = some .serving) ∧
    (s.localApi = true → ∃ i, (run o s).1.localSignal = some i ∧
      (run o s).1.servers[i]? = some .serving) := by
  have h1 := setupTracing_inv h o
  obtain ⟨-, eh, el⟩ := setupTracing_servers o s
  unfold run at hr ⊢
  revert hr h1 eh el
  cases setupTracing o s with
  | mk s1 r1 =>
    intro hr h1 eh el
    dsimp only at h1 eh el
    cases r1 with
    | ok =>
      dsimp only at hr ⊢
      have h2 := runHttp_inv h1 o
      have e2 : (runHttp o s1).2 = .ok → (runHttp o s1).1.http = s1.http ∧
          (runHttp o s1).1.localApi = s1.localApi ∧ (s1.http = true → ∃ i,
            (runHttp o s1).1.httpSignal = some i ∧
            (runHttp o s1).1.servers[i]? = some .serving) := by
        unfold runHttp
        split
        · split
          · intro _
            refine ⟨rfl, rfl, fun _ => ⟨_, rfl, ?_⟩⟩
            dsimp only
            rw [dropSender_serving, append_serving]
            refine ⟨.inr rfl, fun e => ?_⟩
            have := h1.http _ e
            omega
          · nofun
        · rename_i hn
          exact fun _ => ⟨rfl, rfl, fun ht => absurd ht hn⟩
      revert hr h2 e2
      cases runHttp o s1 with
      | mk s2 r2 =>
        intro hr h2 e2
        cases r2 with
        | ok =>
          dsimp only at hr h2 e2 ⊢
          obtain ⟨a1, a2, a3⟩ := e2 rfl
          revert hr
          unfold runLocal
          split
          · split
            · intro _
              refine ⟨a1.trans eh, a2.trans el, ?_, fun _ => ⟨_, rfl, ?_⟩⟩
              · intro ht
                obtain ⟨i, i1, i2⟩ := a3 (eh.trans ht)
                refine ⟨i, i1, ?_⟩
                dsimp only
                rw [dropSender_serving, append_serving]
                exact ⟨.inl i2, h2.apart i i1⟩
              · dsimp only
                rw [dropSender_serving, append_serving]
                refine ⟨.inr rfl, fun e => ?_⟩
                have := h2.loc _ e
                omega
            · nofun
          · rename_i hn
            intro _
            refine ⟨a1.trans eh, a2.trans el, fun ht => a3 (eh.trans ht), fun ht => ?_⟩
            exact absurd (a2.trans (el.trans ht)) hn
        | _ => cases hr
    | _ => cases hr

/-- As many servers as the application has routers. -/
theorem run_serving {s : Life} (h : Inv s) (o : Outside) (hr : (run o s).2 = .ok) :
    Spec.serving (run o s).1 = s.http.toNat + s.localApi.toNat := by
  obtain ⟨e1, e2, e3, e4⟩ := run_ok h o hr
  have hi := run_inv h o
  unfold Spec.serving
  cases hh : s.http with
  | true =>
    obtain ⟨i, i1, i2⟩ := e3 hh
    cases hl : s.localApi with
    | true =>
      obtain ⟨j, j1, j2⟩ := e4 hl
      rw [count_indices (is := [i, j])]
      · rfl
      · have : i ≠ j := by
          rintro rfl
          exact hi.apart i i1 j1
        simp [this]
      · intro k
        constructor
        · intro hk
          rcases hi.held k hk with h3 | h3
          · rw [i1] at h3; injection h3 with h3; simp [h3]
          · rw [j1] at h3; injection h3 with h3; simp [h3]
        · intro hk
          simp only [List.mem_cons, List.not_mem_nil, or_false] at hk
          rcases hk with rfl | rfl
          · exact i2
          · exact j2
    | false =>
      have j1 := hi.localOnly (e2.trans hl)
      rw [count_indices (is := [i])]
      · rfl
      · simp
      · intro k
        constructor
        · intro hk
          rcases hi.held k hk with h3 | h3
          · rw [i1] at h3; injection h3 with h3; simp [h3]
          · rw [j1] at h3; cases h3
        · intro hk
          rw [List.mem_singleton.1 hk]
          exact i2
  | false =>
    have i1 := hi.httpOnly (e1.trans hh)
    cases hl : s.localApi with
    | true =>
      obtain ⟨j, j1, j2⟩ := e4 hl
      rw [count_indices (is := [j])]
      · rfl
      · simp
      · intro k
        constructor
        · intro hk
          rcases hi.held k hk with h3 | h3
          · rw [i1] at h3; cases h3
          · rw [j1] at h3; injection h3 with h3; simp [h3]
        · intro hk
          rw [List.mem_singleton.1 hk]
          exact j2
    | false =>
      have j1 := hi.localOnly (e2.trans hl)
      rw [count_indices (is := [])]
      · rfl
      · simp
      · intro k
        constructor
        · intro hk
          rcases hi.held k hk with h3 | h3
          · rw [i1] at h3; cases h3
          · rw [j1] at h3; cases h3
        · intro hk; cases hk

/-- At most two servers accept connections. -/
theorem serving_le_two {s : Life} (h : Inv s) : Spec.serving s ≤ 2 := by
  unfold Spec.serving
  rw [count_range]
  have : ((List.range s.servers.length).filter
      fun i => decide (s.servers[i]? = some .serving)) ⊆
      s.httpSignal.toList ++ s.localSignal.toList := by
    intro i hi
    rw [List.mem_filter, decide_eq_true_iff] at hi
    rcases h.held i hi.2 with h3 | h3
    · simp [h3]
    · simp [h3]
  have := List.Nodup.length_le_of_subset (List.nodup_range.filter _) this
  rw [List.length_append] at this
  have a : s.httpSignal.toList.length ≤ 1 := by cases s.httpSignal <;> simp
  have b : s.localSignal.toList.length ≤ 1 := by cases s.localSignal <;> simp
  omega

/-- The routers, and whether the application traces, do not change. -/
theorem shutdown_same (s : Life) : (shutdown s).1.http = s.http ∧
    (shutdown s).1.localApi = s.localApi ∧ (shutdown s).1.tracing = s.tracing ∧
    (shutdown s).1.testMode = s.testMode ∧ (shutdown s).1.subscriber = s.subscriber := by
  unfold shutdown
  cases s.httpSignal with
  | none =>
    dsimp only
    cases s.localSignal with
    | none => exact ⟨rfl, rfl, rfl, rfl, rfl⟩
    | some j =>
      dsimp only
      cases send s.servers j <;> exact ⟨rfl, rfl, rfl, rfl, rfl⟩
  | some i =>
    dsimp only
    cases send s.servers i with
    | none => exact ⟨rfl, rfl, rfl, rfl, rfl⟩
    | some l =>
      dsimp only
      cases s.localSignal with
      | none => exact ⟨rfl, rfl, rfl, rfl, rfl⟩
      | some j =>
        dsimp only
        cases send l j <;> exact ⟨rfl, rfl, rfl, rfl, rfl⟩

theorem runHttp_same (o : Outside) (s : Life) : (runHttp o s).1.http = s.http ∧
    (runHttp o s).1.localApi = s.localApi ∧ (runHttp o s).1.tracing = s.tracing ∧
    (runHttp o s).1.testMode = s.testMode ∧ (runHttp o s).1.subscriber = s.subscriber := by
  unfold runHttp
  split
  · split <;> exact ⟨rfl, rfl, rfl, rfl, rfl⟩
  · exact ⟨rfl, rfl, rfl, rfl, rfl⟩

theorem runLocal_same (o : Outside) (s : Life) : (runLocal o s).1.http = s.http ∧
    (runLocal o s).1.localApi = s.localApi ∧ (runLocal o s).1.tracing = s.tracing ∧
    (runLocal o s).1.testMode = s.testMode ∧ (runLocal o s).1.subscriber = s.subscriber := by
  unfold runLocal
  split
  · split <;> exact ⟨rfl, rfl, rfl, rfl, rfl⟩
  · exact ⟨rfl, rfl, rfl, rfl, rfl⟩

theorem setupTracing_same (o : Outside) (s : Life) : (setupTracing o s).1.http = s.http ∧
    (setupTracing o s).1.localApi = s.localApi ∧ (setupTracing o s).1.tracing = s.tracing ∧
    (setupTracing o s).1.testMode = s.testMode ∧ (s.tracing = false ∨ s.testMode = true →
      (setupTracing o s).1.subscriber = s.subscriber) := by
  unfold setupTracing
  split
  · rename_i ht
    split
    · split
      · exact ⟨rfl, rfl, rfl, rfl, fun _ => rfl⟩
      · rename_i hm
        split
        · exact ⟨rfl, rfl, rfl, rfl, fun _ => rfl⟩
        · refine ⟨rfl, rfl, rfl, rfl, ?_⟩
          rintro (h | h)
          · rw [h] at ht; cases ht
          · exact absurd h hm
    · exact ⟨rfl, rfl, rfl, rfl, fun _ => rfl⟩
  · exact ⟨rfl, rfl, rfl, rfl, fun _ => rfl⟩

theorem run_same (o : Outside) (s : Life) : (run o s).1.http = s.http ∧
    (run o s).1.localApi = s.localApi ∧ (run o s).1.tracing = s.tracing ∧
    (run o s).1.testMode = s.testMode := by
  obtain ⟨a1, a2, a3, a4, -⟩ := setupTracing_same o s
  unfold run
  revert a1 a2 a3 a4
  cases setupTracing o s with
  | mk s1 r1 =>
    intro a1 a2 a3 a4
    dsimp only at a1 a2 a3 a4
    cases r1 with
    | ok =>
      dsimp only
      obtain ⟨b1, b2, b3, b4, -⟩ := runHttp_same o s1
      revert b1 b2 b3 b4
      cases runHttp o s1 with
      | mk s2 r2 =>
        intro b1 b2 b3 b4
        dsimp only at b1 b2 b3 b4
        cases r2 with
        | ok =>
          obtain ⟨c1, c2, c3, c4, -⟩ := runLocal_same o s2
          exact ⟨c1.trans (b1.trans a1), c2.trans (b2.trans a2), c3.trans (b3.trans a3),
            c4.trans (b4.trans a4)⟩
        | _ => exact ⟨b1.trans a1, b2.trans a2, b3.trans a3, b4.trans a4⟩
    | _ => exact ⟨a1, a2, a3, a4⟩

theorem steps_same (s : Life) (ops : List Op) : (steps s ops).http = s.http ∧
    (steps s ops).localApi = s.localApi ∧ (steps s ops).tracing = s.tracing ∧
    (steps s ops).testMode = s.testMode := by
  induction ops generalizing s with
  | nil => exact ⟨rfl, rfl, rfl, rfl⟩
  | cons op ops ih =>
    obtain ⟨a1, a2, a3, a4⟩ := ih (step s op)
    have b : (step s op).http = s.http ∧ (step s op).localApi = s.localApi ∧
        (step s op).tracing = s.tracing ∧ (step s op).testMode = s.testMode := by
      cases op with
      | run o => exact run_same o s
      | shutdown =>
        obtain ⟨b1, b2, b3, b4, -⟩ := shutdown_same s
        exact ⟨b1, b2, b3, b4⟩
      | endRuntime => exact ⟨rfl, rfl, rfl, rfl⟩
    exact ⟨a1.trans b.1, a2.trans b.2.1, a3.trans b.2.2.1, a4.trans b.2.2.2⟩

/-- The outside does what it is asked for: `run` succeeds but for the trace subscriber. -/
theorem run_fine (s : Life) (h : s.tracing = false ∨ s.testMode = true ∨ s.subscriber = false) :
    (run Spec.Outside.fine s).2 = .ok := by
  have h1 : (setupTracing Spec.Outside.fine s).2 = .ok := by
    unfold setupTracing Spec.Outside.fine
    cases ht : s.tracing <;> cases hm : s.testMode <;> cases hs : s.subscriber <;> simp_all
  have h2 : ∀ s, (runHttp Spec.Outside.fine s).2 = .ok := by
    intro s
    unfold runHttp Spec.Outside.fine
    cases s.http <;> rfl
  have h3 : ∀ s, (runLocal Spec.Outside.fine s).2 = .ok := by
    intro s
    unfold runLocal Spec.Outside.fine
    cases s.localApi <;> rfl
  unfold run
  revert h1
  cases setupTracing Spec.Outside.fine s with
  | mk s1 r1 =>
    intro h1
    dsimp only at h1
    subst h1
    dsimp only
    have h2 := h2 s1
    revert h2
    cases runHttp Spec.Outside.fine s1 with
    | mk s2 r2 =>
      intro h2
      dsimp only at h2
      subst h2
      exact h3 s2

end Verif.Startup
