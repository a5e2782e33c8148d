import Verif.Sdk.BackLemmas

/-!
# Property theorems about applications that the FFI runs in the background (C179)
-/

namespace Verif.Sdk.Back

/-- Nothing is served. -/
def Quiet (s : State) : Prop := s.httpServer ≠ some .serving ∧ s.localServer ≠ some .serving

/-- The servers of the application have been started, and the task was polled. -/
def Up (s : State) : Prop :=
  s.phase ≠ .spawned ∧ (s.http = true → s.httpServer ≠ none) ∧ (s.localApi = true → s.localServer ≠ none)

/-- C179: an application that the FFI runs in the background is not used after it was shut down, and nothing is
served after it was shut down. -/
def FullLife : Prop :=
  ∀ (http localApi : Bool) (before after : List Event), .shutdown ∉ before → .shutdown ∉ after →
    (history http localApi (before ++ .shutdown :: after)).wild = 0 ∧
    Quiet (history http localApi (before ++ .shutdown :: after))

/-- C179 is false of the code: the task may be polled first after the shutdown. -/
theorem life_violated : ¬ FullLife := by
  intro full
  have h := (full true false [] [.poll] (by decide) (by decide)).1
  exact absurd h (by decide)

/-- And then the application is started, so that it serves for ever. -/
theorem quiet_violated :
    ¬ Quiet (history true false ([] ++ .shutdown :: [.poll, .poll])) ∧
    (∀ after, .shutdown ∉ after →
      (history true false ([] ++ .shutdown :: .poll :: .poll :: after)).httpServer = some .serving) := by
  refine ⟨fun h => h.1 rfl, fun after h => ?_⟩
  have key : ∀ (after : List Event) (s : State), .shutdown ∉ after → s.httpServer = some .serving →
      s.phase = .waitHttp → (after.foldl State.step s).httpServer = some .serving := by
    intro after
    induction after with
    | nil => exact fun s _ h _ => h
    | cons e after ih =>
      intro s hn hs hp
      refine ih _ (fun h => hn (List.mem_cons_of_mem _ h)) ?_ ?_ <;> cases e with
      | poll => simp [State.step, State.poll, hp, hs]
      | shutdown => exact absurd (List.mem_cons_self ..) hn
      | httpEnds => simp [State.step, hs, hp, finish]
      | localEnds => simp [State.step, hs, hp]
  exact key after _ h rfl rfl

/-- When the servers of an application have been started: when its task was polled once, and once more for every
server that it has. -/
theorem up_iff (http localApi : Bool) (before : List Event) (hb : .shutdown ∉ before) :
    Up (history http localApi before) ↔ 1 + http.toNat + localApi.toNat ≤ before.count .poll := by
  refine (settled (before_history http localApi before hb)).trans ?_
  rw [← need_zero http localApi, need_history http localApi before hb]
  omega

/-- What the code does: as long as it is not shut down, an application is not used after it was freed. When
it is shut down after its servers were started, it is never used again, nothing is served from then on, and the task
ends once the servers have, and not before. -/
theorem life_partial (http localApi : Bool) (before after : List Event) (hb : .shutdown ∉ before)
    (ha : .shutdown ∉ after) :
    (history http localApi before).wild = 0 ∧
    (Up (history http localApi before) →
      (history http localApi (before ++ .shutdown :: after)).wild = 0 ∧
      Quiet (history http localApi (before ++ .shutdown :: after)) ∧
      (history http localApi
        (before ++ .shutdown :: after ++ [.httpEnds, .localEnds, .poll, .poll])).phase = .done ∧
      ((history http localApi (before ++ .shutdown :: after)).phase = .done →
        (http = true →
          (history http localApi (before ++ .shutdown :: after)).httpServer = some .ended) ∧
        (localApi = true →
          (history http localApi (before ++ .shutdown :: after)).localServer = some .ended))) := by
  have h := before_history http localApi before hb
  refine ⟨h.wild, fun up => ?_⟩
  have hp := (settled h).1 up
  have hf := after_fold after _ ha (after_shutdown h hp)
  have e : history http localApi (before ++ .shutdown :: after) =
      after.foldl State.step (history http localApi before).shutdown := by
    unfold history
    rw [List.foldl_append]
    rfl
  refine ⟨e ▸ hf.wild, e ▸ ⟨hf.http, hf.localApi⟩, ?_, ?_⟩
  rotate_left
  · rw [e]
    intro hd
    have k := kept_fold after _ ha (kept_shutdown h hp up.2.1 up.2.2)
    exact ⟨fun g => (hf.httpOver (.inr hd)).resolve_left (k.1 g),
      fun g => (hf.localOver hd).resolve_left (k.2 g)⟩
  have e' : history http localApi
      (before ++ .shutdown :: after ++ [.httpEnds, .localEnds, .poll, .poll]) =
      [Event.httpEnds, .localEnds, .poll, .poll].foldl State.step
        (history http localApi (before ++ .shutdown :: after)) := by
    unfold history
    rw [List.foldl_append]
  rw [e', e]
  exact ends _ hf

/-- The exact extent of the failure: when it is shut down before its servers were started, the next poll of the task
uses the application, which is gone. -/
theorem early_always (http localApi : Bool) (before after : List Event) (hb : .shutdown ∉ before)
    (ha : .shutdown ∉ after) (early : ¬ Up (history http localApi before)) (polled : .poll ∈ after) :
    0 < (history http localApi (before ++ .shutdown :: after)).wild := by
  have h := before_history http localApi before hb
  have e : history http localApi (before ++ .shutdown :: after) =
      after.foldl State.step (history http localApi before).shutdown := by
    unfold history
    rw [List.foldl_append]
    rfl
  rw [e]
  refine early_wild after _ rfl ?_ polled ha
  have hp : (history http localApi before).shutdown.phase = (history http localApi before).phase := by
    simp [State.shutdown, State.use, h.freed]
  rw [hp]
  have ns := fun g => early ((settled h).2 g)
  cases e : (history http localApi before).phase with
  | spawned => exact .inl rfl
  | bindHttp => exact .inr (.inl rfl)
  | bindLocal => exact .inr (.inr rfl)
  | waitHttp => exact absurd (.inl e) ns
  | waitLocal => exact absurd (.inr (.inl e)) ns
  | done => exact absurd (.inr (.inr e)) ns

/-- Without a shutdown, servers that were started serve for ever, and the task waits for them. -/
theorem serves (http localApi : Bool) (before : List Event) (hb : .shutdown ∉ before) :
    ((history http localApi before).httpServer = none ∨
      (history http localApi before).httpServer = some .serving) ∧
    ((history http localApi before).localServer = none ∨
      (history http localApi before).localServer = some .serving) ∧
    (1 + http.toNat + localApi.toNat ≤ before.count .poll →
      (http = true → (history http localApi before).httpServer = some .serving) ∧
      (localApi = true → (history http localApi before).localServer = some .serving)) ∧
    (http = true ∨ localApi = true → (history http localApi before).phase ≠ .done) := by
  have h := before_history http localApi before hb
  refine ⟨h.httpOn, h.localOn, fun hc => ?_, fun g e => ?_⟩
  rotate_left
  · obtain ⟨rfl, rfl⟩ := h.idle e
    rcases g with g | g <;> cases g
  have up := (up_iff http localApi before hb).2 hc
  exact ⟨fun e => h.httpOn.resolve_left (up.2.1 (h.hasHttp.trans e)),
    fun e => h.localOn.resolve_left (up.2.2 (h.hasLocal.trans e))⟩

/-- The hypotheses can be met: an application with both servers is shut down after three polls, and after two. -/
example :
    Up (history true true [.poll, .poll, .poll]) ∧
    (history true true ([.poll, .poll, .poll] ++ .shutdown :: [.poll, .httpEnds])).phase = .waitHttp ∧
    ¬ Up (history true true [.poll, .poll]) ∧
    (history true true ([.poll, .poll] ++ .shutdown :: [.poll])).wild = 1 := by
  refine ⟨⟨by decide, by decide, by decide⟩, by decide, fun h => h.2.2 rfl rfl, by decide⟩

end Verif.Sdk.Back
