import Verif.Sdk.BackModel

/-!
# Lemmas about applications that the FFI runs in the background
-/

namespace Verif.Sdk.Back

/-- What holds as long as the application was not shut down. -/
structure Before (http localApi : Bool) (s : State) : Prop where
  hasHttp : s.http = http
  hasLocal : s.localApi = localApi
  freed : s.freed = false
  wild : s.wild = 0
  httpSignal : s.httpServer = some .serving → s.httpSignal = true
  localSignal : s.localServer = some .serving → s.localSignal = true
  httpUp : s.httpServer ≠ none ↔ http = true ∧ s.phase ≠ .spawned ∧ s.phase ≠ .bindHttp
  localUp : s.localServer ≠ none ↔
    localApi = true ∧ s.phase ≠ .spawned ∧ s.phase ≠ .bindHttp ∧ s.phase ≠ .bindLocal
  bindHttp : s.phase = .bindHttp → http = true
  bindLocal : s.phase = .bindLocal → localApi = true
  waitHttp : s.phase = .waitHttp → http = true
  waitLocal : s.phase = .waitLocal → localApi = true
  httpOn : s.httpServer = none ∨ s.httpServer = some .serving
  localOn : s.localServer = none ∨ s.localServer = some .serving
  idle : s.phase = .done → http = false ∧ localApi = false
  alone : s.phase = .waitLocal → http = false

theorem before_step (http localApi : Bool) (s : State) (e : Event) (he : e ≠ .shutdown)
    (h : Before http localApi s) : Before http localApi (s.step e) := by
  obtain ⟨a, b, ph, hs, ls, h1, l1, fr, wi⟩ := s
  obtain ⟨p1, p2, p3, p4, p5, p6, p7, p8, p9, p10, p11, p12, p13, p14, p15, p16⟩ := h
  dsimp only at p1 p2 p3 p4 p5 p6 p7 p8 p9 p10 p11 p12 p13 p14 p15 p16
  subst p1 p2 p3 p4
  cases e with
  | shutdown => exact absurd rfl he
  | httpEnds =>
    have e : finish hs = hs := by rcases p13 with rfl | rfl <;> rfl
    dsimp only [State.step]
    rw [e]
    exact ⟨rfl, rfl, rfl, rfl, p5, p6, p7, p8, p9, p10, p11, p12, p13, p14, p15, p16⟩
  | localEnds =>
    have e : finish ls = ls := by rcases p14 with rfl | rfl <;> rfl
    dsimp only [State.step]
    rw [e]
    exact ⟨rfl, rfl, rfl, rfl, p5, p6, p7, p8, p9, p10, p11, p12, p13, p14, p15, p16⟩
  | poll =>
    rcases p13 with rfl | rfl <;> rcases p14 with rfl | rfl <;> cases ph <;> cases a <;> cases b <;>
      first
      | (exfalso; simp at p7 p8 p9 p10 p11 p12 p15 p16; done)
      | (constructor <;> simp_all [State.step, State.poll, State.use])

theorem before_history (http localApi : Bool) (events : List Event) (h : .shutdown ∉ events) :
    Before http localApi (history http localApi events) := by
  have key : ∀ (events : List Event) (s : State), .shutdown ∉ events → Before http localApi s →
      Before http localApi (events.foldl State.step s) := by
    intro events
    induction events with
    | nil => exact fun _ _ h => h
    | cons e events ih =>
      intro s hn hs
      exact ih _ (fun h => hn (List.mem_cons_of_mem _ h))
        (before_step _ _ _ _ (fun h => hn (h ▸ List.mem_cons_self ..)) hs)
  exact key events _ h
    ⟨rfl, rfl, rfl, rfl, nofun, nofun, by simp, by simp, nofun, nofun, nofun, nofun, .inl rfl, .inl rfl, nofun, nofun⟩

/-- What holds after a shutdown that came when the servers had been started. -/
structure After (s : State) : Prop where
  wild : s.wild = 0
  http : s.httpServer ≠ some .serving
  localApi : s.localServer ≠ some .serving
  phase : s.phase = .waitHttp ∨ s.phase = .waitLocal ∨ s.phase = .done
  httpThere : s.phase = .waitHttp → s.httpServer ≠ none
  localThere : s.localApi = true → s.localServer ≠ none
  waitLocal : s.phase = .waitLocal → s.localApi = true
  httpOver : s.phase = .waitLocal ∨ s.phase = .done → s.httpServer = none ∨ s.httpServer = some .ended
  localOver : s.phase = .done → s.localServer = none ∨ s.localServer = some .ended
  localNone : s.localApi = false → s.localServer = none

theorem finish_over (o : Option Server) (h : o = none ∨ o = some .ended) :
    finish o = none ∨ finish o = some .ended := by
  rcases h with rfl | rfl
  · exact .inl rfl
  · exact .inr rfl

theorem finish_none (o : Option Server) (h : o ≠ none) : finish o ≠ none := by
  cases o with
  | none => exact absurd rfl h
  | some s => cases s <;> nofun

theorem finish_quiet (o : Option Server) (h : o ≠ some .serving) : finish o ≠ some .serving := by
  cases o with
  | none => nofun
  | some s => cases s <;> first | exact absurd rfl h | nofun

theorem finish_ended (o : Option Server) (h : o ≠ some .serving) (hn : o ≠ none) :
    finish o = some .ended := by
  cases o with
  | none => exact absurd rfl hn
  | some s => cases s <;> first | rfl | exact absurd rfl h

theorem after_step (s : State) (e : Event) (he : e ≠ .shutdown) (h : After s) : After (s.step e) := by
  obtain ⟨a, b, ph, hs, ls, h1, l1, fr, wi⟩ := s
  obtain ⟨p1, p2, p3, p4, p5, p6, p7, p8, p9, p10⟩ := h
  dsimp only at p1 p2 p3 p4 p5 p6 p7 p8 p9 p10
  subst p1
  cases e with
  | shutdown => exact absurd rfl he
  | httpEnds =>
    exact ⟨rfl, finish_quiet _ p2, p3, p4, fun g => finish_none _ (p5 g), p6, p7,
      fun g => finish_over _ (p8 g), p9, p10⟩
  | localEnds =>
    refine ⟨rfl, p2, finish_quiet _ p3, p4, p5, fun g => finish_none _ (p6 g), p7, p8,
      fun g => finish_over _ (p9 g), fun g => ?_⟩
    dsimp only [State.step]
    rw [p10 g]
    rfl
  | poll =>
    rcases p4 with rfl | rfl | rfl
    · dsimp only [State.step, State.poll]
      split
      · rename_i hh
        cases b
        · exact ⟨rfl, p2, p3, .inr (.inr rfl), nofun, p6, nofun, fun _ => .inr hh,
            fun _ => .inl (p10 rfl), p10⟩
        · exact ⟨rfl, p2, p3, .inr (.inl rfl), nofun, p6, fun _ => rfl, fun _ => .inr hh, nofun, p10⟩
      · exact ⟨rfl, p2, p3, .inl rfl, p5, p6, p7, p8, p9, p10⟩
    · dsimp only [State.step, State.poll]
      split
      · rename_i hl
        exact ⟨rfl, p2, p3, .inr (.inr rfl), nofun, p6, nofun, fun _ => p8 (.inl rfl),
          fun _ => .inr hl, p10⟩
      · exact ⟨rfl, p2, p3, .inr (.inl rfl), p5, p6, p7, p8, p9, p10⟩
    · exact ⟨rfl, p2, p3, .inr (.inr rfl), p5, p6, p7, p8, p9, p10⟩

theorem after_fold (events : List Event) (s : State) (hn : .shutdown ∉ events) (h : After s) :
    After (events.foldl State.step s) := by
  induction events generalizing s with
  | nil => exact h
  | cons e events ih =>
    exact ih _ (fun h => hn (List.mem_cons_of_mem _ h))
      (after_step _ _ (fun h => hn (h ▸ List.mem_cons_self ..)) h)

theorem tell_quiet (o : Option Server) : tell o ≠ some .serving := by
  cases o with
  | none => nofun
  | some s => cases s <;> nofun

theorem tell_none (o : Option Server) (h : o ≠ none) : tell o ≠ none := by
  cases o with
  | none => exact absurd rfl h
  | some s => cases s <;> nofun

theorem after_shutdown {http localApi : Bool} {s : State} (h : Before http localApi s)
    (hp : s.phase = .waitHttp ∨ s.phase = .waitLocal ∨ s.phase = .done) : After s.shutdown := by
  have hph : s.shutdown.phase = s.phase := by simp [State.shutdown, State.use, h.freed]
  have hlo : s.shutdown.localApi = localApi := by
    simp [State.shutdown, State.use, h.freed, h.hasLocal]
  have httpNone : http = false → s.httpServer = none := by
    intro g
    cases e : s.httpServer with
    | none => rfl
    | some x =>
      have := (h.httpUp.1 (by rw [e]; nofun)).1
      rw [g] at this
      cases this
  have localNone : localApi = false → s.localServer = none := by
    intro g
    cases e : s.localServer with
    | none => rfl
    | some x =>
      have := (h.localUp.1 (by rw [e]; nofun)).1
      rw [g] at this
      cases this
  have httpKept : s.httpServer = none → s.shutdown.httpServer = none := by
    intro g
    dsimp only [State.shutdown]
    rw [g]
    split <;> rfl
  have localKept : s.localServer = none → s.shutdown.localServer = none := by
    intro g
    dsimp only [State.shutdown]
    rw [g]
    split <;> rfl
  refine ⟨?_, ?_, ?_, ?_, ?_, ?_, ?_, ?_, ?_, ?_⟩
  · simp [State.shutdown, State.use, h.freed, h.wild]
  · dsimp only [State.shutdown]
    by_cases g : s.httpSignal = true
    · rw [if_pos g]
      exact tell_quiet _
    · rw [if_neg g]
      exact fun e => g (h.httpSignal e)
  · dsimp only [State.shutdown]
    by_cases g : s.localSignal = true
    · rw [if_pos g]
      exact tell_quiet _
    · rw [if_neg g]
      exact fun e => g (h.localSignal e)
  · rw [hph]
    exact hp
  · intro g
    rw [hph] at g
    have u := h.httpUp.2 ⟨h.waitHttp g, by rw [g]; nofun, by rw [g]; nofun⟩
    dsimp only [State.shutdown]
    split
    · exact tell_none _ u
    · exact u
  · intro g
    rw [hlo] at g
    have u : s.localServer ≠ none := by
      refine h.localUp.2 ⟨g, ?_, ?_, ?_⟩ <;> intro e <;> rw [e] at hp <;> simp at hp
    dsimp only [State.shutdown]
    split
    · exact tell_none _ u
    · exact u
  · intro g
    rw [hph] at g
    rw [hlo]
    exact h.waitLocal g
  · intro g
    rw [hph] at g
    rcases g with g | g
    · exact .inl (httpKept (httpNone (h.alone g)))
    · exact .inl (httpKept (httpNone (h.idle g).1))
  · intro g
    rw [hph] at g
    exact .inl (localKept (localNone (h.idle g).2))
  · intro g
    rw [hlo] at g
    exact localKept (localNone g)

/-- Once the servers have ended, the task is done after two polls. -/
theorem ends (s : State) (h : After s) :
    ([Event.httpEnds, .localEnds, .poll, .poll].foldl State.step s).phase = .done := by
  obtain ⟨a, b, ph, hs, ls, h1, l1, fr, wi⟩ := s
  obtain ⟨p1, p2, p3, p4, p5, p6, p7, p8, p9, p10⟩ := h
  dsimp only at p1 p2 p3 p4 p5 p6 p7 p8 p9 p10
  rcases p4 with rfl | rfl | rfl
  · have e := finish_ended _ p2 (p5 rfl)
    cases b with
    | false => simp [State.step, State.poll, e]
    | true =>
      have e' := finish_ended _ p3 (p6 rfl)
      simp [State.step, State.poll, e, e']
  · have e' := finish_ended _ p3 (p6 (p7 rfl))
    simp [State.step, State.poll, e']
  · rfl

/-- Servers that were started are not forgotten. -/
theorem kept_fold {http localApi : Bool} (events : List Event) (s : State) (hn : .shutdown ∉ events)
    (h : After s ∧ (http = true → s.httpServer ≠ none) ∧ (localApi = true → s.localServer ≠ none)) :
    (http = true → (events.foldl State.step s).httpServer ≠ none) ∧
    (localApi = true → (events.foldl State.step s).localServer ≠ none) := by
  induction events generalizing s with
  | nil => exact h.2
  | cons e events ih =>
    have he : e ≠ .shutdown := fun h => hn (h ▸ List.mem_cons_self ..)
    refine ih _ (fun h => hn (List.mem_cons_of_mem _ h)) ⟨after_step _ _ he h.1, ?_⟩
    obtain ⟨ha, h1, h2⟩ := h
    cases e with
    | shutdown => exact absurd rfl he
    | httpEnds => exact ⟨fun g => finish_none _ (h1 g), h2⟩
    | localEnds => exact ⟨h1, fun g => finish_none _ (h2 g)⟩
    | poll =>
      have e1 : s.poll.httpServer = s.httpServer ∧ s.poll.localServer = s.localServer := by
        unfold State.poll
        rcases ha.phase with e | e | e <;> rw [e] <;> dsimp only
        · split <;> exact ⟨rfl, rfl⟩
        · split <;> exact ⟨rfl, rfl⟩
        · exact ⟨rfl, rfl⟩
      dsimp only [State.step]
      rw [e1.1, e1.2]
      exact ⟨h1, h2⟩

theorem kept_shutdown {http localApi : Bool} {s : State} (h : Before http localApi s)
    (hp : s.phase = .waitHttp ∨ s.phase = .waitLocal ∨ s.phase = .done)
    (h1 : s.http = true → s.httpServer ≠ none) (h2 : s.localApi = true → s.localServer ≠ none) :
    After s.shutdown ∧ (http = true → s.shutdown.httpServer ≠ none) ∧
      (localApi = true → s.shutdown.localServer ≠ none) := by
  refine ⟨after_shutdown h hp, fun g => ?_, fun g => ?_⟩
  · have u := h1 (h.hasHttp.trans g)
    dsimp only [State.shutdown]
    split
    · exact tell_none _ u
    · exact u
  · have u := h2 (h.hasLocal.trans g)
    dsimp only [State.shutdown]
    split
    · exact tell_none _ u
    · exact u

/-- The phases in which the task has nothing left to start. -/
theorem settled {http localApi : Bool} {s : State} (h : Before http localApi s) :
    (s.phase ≠ .spawned ∧ (s.http = true → s.httpServer ≠ none) ∧
      (s.localApi = true → s.localServer ≠ none)) ↔
    (s.phase = .waitHttp ∨ s.phase = .waitLocal ∨ s.phase = .done) := by
  rw [h.hasHttp, h.hasLocal, h.httpUp, h.localUp]
  constructor
  · rintro ⟨g1, g2, g3⟩
    cases e : s.phase with
    | spawned => exact absurd e g1
    | bindHttp => exact absurd e (g2 (h.bindHttp e)).2.2
    | bindLocal => exact absurd e (g3 (h.bindLocal e)).2.2.2
    | waitHttp => exact .inl rfl
    | waitLocal => exact .inr (.inl rfl)
    | done => exact .inr (.inr rfl)
  · intro g
    rcases g with g | g | g <;> rw [g] <;> simp

/-- How often the task is still to be polled until it has nothing left to start. -/
def need (http localApi : Bool) : Phase → Nat
  | .spawned => 1 + http.toNat + localApi.toNat
  | .bindHttp => 1 + localApi.toNat
  | .bindLocal => 1
  | _ => 0

theorem need_step (http localApi : Bool) (s : State) (e : Event) (he : e ≠ .shutdown)
    (h : Before http localApi s) :
    need http localApi (s.step e).phase = need http localApi s.phase - [e].count .poll := by
  cases e with
  | shutdown => exact absurd rfl he
  | httpEnds => rfl
  | localEnds => rfl
  | poll =>
    have a := h.hasHttp
    have b := h.hasLocal
    by_cases g : s.httpServer = some .ended <;> by_cases g' : s.localServer = some .ended <;>
      cases e : s.phase <;> cases http <;> cases localApi <;>
      simp [State.step, State.poll, e, a, b, g, g', need]

theorem need_fold (http localApi : Bool) (events : List Event) (s : State) (hn : .shutdown ∉ events)
    (h : Before http localApi s) :
    need http localApi (events.foldl State.step s).phase =
      need http localApi s.phase - events.count .poll := by
  induction events generalizing s with
  | nil => rfl
  | cons e events ih =>
    have he : e ≠ .shutdown := fun h => hn (h ▸ List.mem_cons_self ..)
    rw [List.foldl_cons, ih _ (fun h => hn (List.mem_cons_of_mem _ h)) (before_step _ _ _ _ he h),
      need_step _ _ _ _ he h, show e :: events = [e] ++ events from rfl, List.count_append]
    omega

theorem need_history (http localApi : Bool) (events : List Event) (hn : .shutdown ∉ events) :
    need http localApi (history http localApi events).phase =
      1 + http.toNat + localApi.toNat - events.count .poll :=
  need_fold http localApi events _ hn (before_history http localApi [] nofun)

theorem need_zero (http localApi : Bool) (p : Phase) :
    need http localApi p = 0 ↔ p = .waitHttp ∨ p = .waitLocal ∨ p = .done := by
  cases p <;> simp [need] <;> omega

/-- The uses after the application was freed are only counted up. -/
theorem wild_mono (events : List Event) (s : State) : s.wild ≤ (events.foldl State.step s).wild := by
  induction events generalizing s with
  | nil => exact Nat.le_refl _
  | cons e events ih =>
    refine Nat.le_trans ?_ (ih _)
    obtain ⟨a, b, ph, hs, ls, h1, l1, fr, wi⟩ := s
    cases e <;> cases ph <;> cases fr <;>
      simp [State.step, State.poll, State.shutdown, State.use] <;> split <;> simp

/-- A task that has to start something uses the application at the next poll. -/
theorem early_wild (events : List Event) (s : State) (hf : s.freed = true)
    (hp : s.phase = .spawned ∨ s.phase = .bindHttp ∨ s.phase = .bindLocal) (hm : .poll ∈ events)
    (hn : .shutdown ∉ events) : 0 < (events.foldl State.step s).wild := by
  induction events generalizing s with
  | nil => cases hm
  | cons e events ih =>
    have hn' : Event.shutdown ∉ events := fun h => hn (List.mem_cons_of_mem _ h)
    cases e with
    | shutdown => exact absurd (List.mem_cons_self ..) hn
    | poll =>
      refine Nat.lt_of_lt_of_le ?_ (wild_mono events (s.step .poll))
      rcases hp with hp | hp | hp <;> simp [State.step, State.poll, State.use, hp, hf]
    | httpEnds =>
      exact ih _ hf hp ((List.mem_cons.1 hm).resolve_left nofun) hn'
    | localEnds =>
      exact ih _ hf hp ((List.mem_cons.1 hm).resolve_left nofun) hn'

end Verif.Sdk.Back
