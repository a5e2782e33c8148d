import Verif.Sdk.RunModel

/-!
# Property theorems about running an application through an SDK (C178)
-/

namespace Verif.Sdk.LaunchSpec

open Verif Startup

/-- What the application needs is there. -/
structure CanStart (o : Outside) (s : Life) : Prop where
  tracing : s.tracing = true → o.pipeline = true ∧ (s.testMode = true ∨ s.subscriber = false)
  http : s.http = true → o.bindHttp = true
  localApi : s.localApi = true → o.bindLocal = true

/-- The caller learns that something went wrong. -/
def Told : Launch.Caller → Prop
  | .returned => False
  | .waiting => False
  | _ => True

/-- A call of `run` in an SDK, of an application that was set up and with a runtime that can be used: what it
leaves. -/
inductive Calls (o : Outside) (s : Life) : Life → Launch.Caller → Prop
  | node (block : Bool) : Calls o s (Launch.node o block s).1 (Launch.node o block s).2
  | python : Calls o s (Launch.python o true s).1 (Launch.python o true s).2
  | ffi (block : Bool) (s' : Life) (c : Launch.Caller) :
    Launch.ffi o block (some s) (some .alive) = (some s', c) → Calls o s s' c

/-- There is one server more that serves than before, for each part that the application has. -/
def Serves (s s' : Life) : Prop :=
  (s.http = true → ∃ i, s'.httpSignal = some i ∧ s.servers.length ≤ i ∧ s'.servers[i]? = some .serving) ∧
  (s.localApi = true → ∃ i, s'.localSignal = some i ∧ s.servers.length ≤ i ∧ s'.servers[i]? = some .serving)

/-- The signals belong to servers. -/
def Sound (s : Life) : Prop :=
  (∀ i, s.httpSignal = some i → i < s.servers.length) ∧
  (∀ i, s.localSignal = some i → i < s.servers.length)

end Verif.Sdk.LaunchSpec

namespace Verif.Sdk.Launch

open Verif Startup LaunchSpec

/-- C178: whoever runs an application through an SDK learns when it could not be started. -/
def FullTold : Prop :=
  ∀ (o : Outside) (s s' : Life) (c : Caller), Calls o s s' c → ¬ CanStart o s → Told c

/-! ## The core -/

theorem run_ok (o : Outside) (s : Life) : (run o s).2 = .ok ↔ CanStart o s := by
  obtain ⟨h, l, t, m, b, sv, hs, ls⟩ := s
  obtain ⟨p, bh, bl⟩ := o
  constructor
  · intro e
    cases h <;> cases l <;> cases t <;> cases m <;> cases b <;> cases p <;> cases bh <;> cases bl <;>
      first
      | (cases e; done)
      | exact ⟨by simp, by simp, by simp⟩
  · rintro ⟨h1, h2, h3⟩
    dsimp only at h1 h2 h3
    cases h <;> cases l <;> cases t <;> cases m <;> cases b <;> cases p <;> cases bh <;> cases bl <;>
      first
      | rfl
      | (exact absurd (h2 rfl) (by decide); done)
      | (exact absurd (h3 rfl) (by decide); done)
      | (exact absurd (h1 rfl) (by decide); done)

/-- A panic is about a socket. -/
theorem run_panic (o : Outside) (s : Life) (e : (run o s).2 = .panic) :
    (s.http = true ∧ o.bindHttp = false) ∨ (s.localApi = true ∧ o.bindLocal = false) := by
  obtain ⟨h, l, t, m, b, sv, hs, ls⟩ := s
  obtain ⟨p, bh, bl⟩ := o
  cases h <;> cases l <;> cases t <;> cases m <;> cases b <;> cases p <;> cases bh <;> cases bl <;>
    first
    | (cases e; done)
    | exact .inl ⟨rfl, rfl⟩
    | exact .inr ⟨rfl, rfl⟩

theorem stop_length (l : List Status) (i : Nat) : (stop l i).length = l.length := by
  unfold stop
  split
  · exact List.length_set
  · rfl

theorem stop_get (l : List Status) (i j : Nat) (h : i ≠ j) : (stop l i)[j]? = l[j]? := by
  unfold stop
  split
  · exact List.getElem?_set_ne h
  · rfl

theorem drop_length (l : List Status) (i : Option Nat) : (dropSender l i).length = l.length := by
  cases i with
  | none => rfl
  | some i => exact stop_length l i

theorem drop_get (l : List Status) (i : Option Nat) (j : Nat) (h : ∀ k, i = some k → k ≠ j) :
    (dropSender l i)[j]? = l[j]? := by
  cases i with
  | none => rfl
  | some i => exact stop_get l i j (h i rfl)

/-- A server that was just started serves. -/
theorem new_serves (l : List Status) (i : Option Nat) (h : ∀ k, i = some k → k < l.length) :
    (dropSender (l ++ [.serving]) i)[l.length]? = some .serving := by
  rw [drop_get _ _ _ fun k hk => Nat.ne_of_lt (h k hk), List.getElem?_append_right (Nat.le_refl _)]
  simp

theorem tracing_same (o : Outside) (s : Life) :
    (setupTracing o s).1.http = s.http ∧ (setupTracing o s).1.localApi = s.localApi ∧
    (setupTracing o s).1.servers = s.servers ∧ (setupTracing o s).1.httpSignal = s.httpSignal ∧
    (setupTracing o s).1.localSignal = s.localSignal := by
  unfold setupTracing
  repeat' split
  all_goals exact ⟨rfl, rfl, rfl, rfl, rfl⟩

theorem run_serves (o : Outside) (s : Life) (hs : Sound s) (h : (run o s).2 = .ok) :
    Serves s (run o s).1 := by
  obtain ⟨t1, t2, t3, t4, t5⟩ := tracing_same o s
  unfold run at h ⊢
  generalize setupTracing o s = r at *
  obtain ⟨r, res⟩ := r
  dsimp only at t1 t2 t3 t4 t5
  cases res with
  | ok =>
    dsimp only at h ⊢
    obtain ⟨hh, hl⟩ := hs
    rw [← t3, ← t4] at hh
    rw [← t3, ← t5] at hl
    unfold Serves
    rw [← t1, ← t2, ← t3]
    clear t1 t2 t3 t4 t5
    by_cases hhttp : r.http = true
    · by_cases hb : o.bindHttp = true
      · have e1 : runHttp o r = ({ r with servers := dropSender (r.servers ++ [.serving]) r.httpSignal,
                                           httpSignal := some r.servers.length }, .ok) := by
          unfold runHttp
          rw [if_pos hhttp, if_pos hb]
        rw [e1] at h ⊢
        dsimp only at h ⊢
        have hlen : (dropSender (r.servers ++ [.serving]) r.httpSignal).length = r.servers.length + 1 := by
          rw [drop_length]; simp
        have hn := new_serves r.servers r.httpSignal hh
        by_cases hloc : r.localApi = true
        · by_cases hb2 : o.bindLocal = true
          · unfold runLocal
            dsimp only
            rw [if_pos hloc, if_pos hb2]
            dsimp only
            refine ⟨fun _ => ⟨_, rfl, Nat.le_refl _, ?_⟩, fun _ => ⟨_, rfl, by omega, ?_⟩⟩
            · rw [drop_get _ _ _ fun k hk => Nat.ne_of_lt (hl k hk), List.getElem?_append_left (by omega)]
              exact hn
            · exact new_serves _ _ fun k hk => by have := hl k hk; omega
          · unfold runLocal at h
            dsimp only at h
            rw [if_pos hloc, if_neg hb2] at h
            cases h
        · unfold runLocal
          dsimp only
          rw [if_neg hloc]
          exact ⟨fun _ => ⟨_, rfl, Nat.le_refl _, hn⟩, fun h => absurd h hloc⟩
      · unfold runHttp at h
        rw [if_pos hhttp, if_neg hb] at h
        cases h
    · have e1 : runHttp o r = (r, .ok) := by
        unfold runHttp
        rw [if_neg hhttp]
      rw [e1] at h ⊢
      dsimp only at h ⊢
      refine ⟨fun h => absurd h hhttp, fun hloc => ?_⟩
      by_cases hb2 : o.bindLocal = true
      · unfold runLocal
        rw [if_pos hloc, if_pos hb2]
        exact ⟨_, rfl, Nat.le_refl _, new_serves _ _ hl⟩
      · unfold runLocal at h
        rw [if_pos hloc, if_neg hb2] at h
        cases h
  | tracerTryInit => cases h
  | openTelemetryTrace => cases h
  | panic => cases h

/-! ## The SDKs -/

/-- Every call runs the core. -/
theorem calls_life (o : Outside) (s s' : Life) (c : Caller) (h : Calls o s s' c) :
    s' = (run o s).1 := by
  cases h with
  | node block =>
    unfold node
    split <;> simp only [*]
  | python =>
    unfold python pythonThread
    rw [if_pos rfl]
    split <;> rename_i h <;> split at h <;> injection h with h1 h2 <;> simp only [*] <;> exact h1.symm
  | ffi block s' c h =>
    unfold ffi at h
    cases block with
    | false =>
      injection h with h _
      injection h with h
      exact h.symm
    | true =>
      dsimp only at h
      split at h
      · injection h with h _
        injection h with h
        simp only [*]
      · split at h <;> (injection h with h _; injection h with h; simp only [*])

/-- C178: an application that has what it needs is started by all SDKs: every part of it is served, and the
caller gets no error. -/
theorem started (o : Outside) (s s' : Life) (c : Caller) (hs : Sound s) (h : Calls o s s' c)
    (hc : CanStart o s) : Serves s s' ∧ ¬ Told c := by
  have hr := (run_ok o s).2 hc
  refine ⟨calls_life o s s' c h ▸ run_serves o s hs hr, ?_⟩
  have he : run o s = ((run o s).1, .ok) := by rw [← hr]
  cases h with
  | node block =>
    unfold node
    rw [he]
    dsimp only
    split <;> exact id
  | python =>
    unfold python pythonThread
    rw [he]
    exact id
  | ffi block s' c h =>
    unfold ffi at h
    cases block with
    | false => injection h with _ h; subst h; exact id
    | true =>
      dsimp only at h
      rw [he] at h
      dsimp only [general] at h
      injection h with _ h
      subst h
      split <;> exact id

/-- C178, partial: the caller learns it in Node, when the FFI is told to block, and in Python unless a socket is
the reason. -/
theorem told_partial (o : Outside) (s : Life) (hc : ¬ CanStart o s) :
    (∀ block, Told (node o block s).2) ∧
    (∀ s' c, ffi o true (some s) (some .alive) = (s', c) → Told c) ∧
    ((s.http = true → o.bindHttp = true) → (s.localApi = true → o.bindLocal = true) →
      (python o true s).2 = .aborted) := by
  have hr := fun h => hc ((run_ok o s).1 h)
  have hp := run_panic o s
  generalize he : run o s = r at hr hp
  obtain ⟨t, res⟩ := r
  refine ⟨fun block => ?_, fun s' c h => ?_, fun h1 h2 => ?_⟩
  · unfold node
    rw [he]
    cases res with
    | ok => exact absurd rfl hr
    | _ => trivial
  · unfold ffi at h
    dsimp only at h
    rw [he] at h
    cases res with
    | ok => exact absurd rfl hr
    | _ => injection h with _ h; subst h; trivial
  · unfold python pythonThread
    rw [he]
    cases res with
    | ok => exact absurd rfl hr
    | panic => rcases hp rfl with ⟨a, b⟩ | ⟨a, b⟩ <;> simp_all
    | _ => rfl

/-- C178: and the error says what the reason is, in Node and in the FFI. -/
theorem reason (o : Outside) (s : Life) (ht : s.tracing = true) :
    (o.pipeline = false → (∀ block, (node o block s).2 = .raised .openTelemetryTrace) ∧
      (ffi o true (some s) (some .alive)).2 = .failed .openTelemetryTrace) ∧
    (o.pipeline = true → s.testMode = false → s.subscriber = true →
      (∀ block, (node o block s).2 = .raised .tracerTryInit) ∧
      (ffi o true (some s) (some .alive)).2 = .failed .tracerTryInit) := by
  refine ⟨fun hp => ?_, fun hp hm hsub => ?_⟩
  · have he : run o s = (s, .openTelemetryTrace) := by simp [run, setupTracing, ht, hp]
    constructor
    · intro block; unfold node; rw [he]
    · unfold ffi; dsimp only; rw [he]; rfl
  · have he : run o s = (s, .tracerTryInit) := by simp [run, setupTracing, ht, hp, hm, hsub]
    constructor
    · intro block; unfold node; rw [he]
    · unfold ffi; dsimp only; rw [he]; rfl

/-- What happens instead: a call of the FFI that does not block never fails. -/
theorem spawn_silent (o : Outside) (s : Life) (r : Handle) (h : r ≠ .destroyed) :
    (ffi o false (some s) (some r)).2 = .returned := by
  cases r with
  | destroyed => exact absurd rfl h
  | _ => rfl

/-- What happens instead: a Python program whose port is taken waits, and nothing is served. -/
theorem python_silent (o : Outside) (s : Life) (ht : s.tracing = false) (hh : s.http = true)
    (hb : o.bindHttp = false) : python o true s = (s, .waiting) := by
  have he : run o s = (s, .panic) := by simp [run, setupTracing, runHttp, ht, hh, hb]
  unfold python pythonThread
  rw [he]
  rfl

/-- C178 is false of the code: the port may be taken. -/
theorem told_violated : ¬ FullTold := by
  intro full
  have h := full ⟨true, false, true⟩ (fresh true false false false false) _ _ .python
    fun h => nomatch h.http rfl
  rw [python_silent _ _ rfl rfl rfl] at h
  exact h

/-- An application with both parts that can be started, and the same when a port is taken. -/
example : CanStart ⟨true, true, true⟩ (fresh true true true false false) ∧
    Sound (fresh true true true false false) ∧
    (node ⟨true, true, true⟩ false (fresh true true true false false)).1.servers = [.serving, .serving] ∧
    (node ⟨true, true, true⟩ false (fresh true true true false false)).2 = .returned ∧
    (ffi ⟨true, true, true⟩ true (some (fresh true true true false false)) (some .alive)).2 = .waiting ∧
    ¬ CanStart ⟨true, true, false⟩ (fresh true true true false false) ∧
    (node ⟨true, true, false⟩ false (fresh true true true false false)).2 = .panicked :=
  ⟨⟨fun _ => ⟨rfl, .inr rfl⟩, fun _ => rfl, fun _ => rfl⟩, ⟨nofun, nofun⟩, rfl, rfl, rfl,
    fun h => (nomatch h.localApi rfl), rfl⟩

end Verif.Sdk.Launch
