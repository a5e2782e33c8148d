import Verif.Sdk.FfiLife
import Verif.Sdk.Props

/-!
# C156: responses of the FFI are used only while they are there
-/

namespace Verif.Sdk

namespace LifeSpec

/-- The operations of a handler in a run. -/
def ops : List LifeEvent → List FfiOp
  | [] => []
  | .op o :: es => o :: ops es
  | _ :: es => ops es

/-- An operation that sends. -/
def Sends : FfiOp → Prop
  | .send _ => True
  | _ => False

/-- The handler does as documented (`bindgen-schema/src/response.rs` 29, 35, 41): status and headers are
set before the response is sent, which is done at most once. -/
def Documented (os : List FfiOp) : Prop :=
  ∀ pre o post, os = pre ++ o :: post → Sends o → post = []

/-- The time that passes. -/
def elapsed : List LifeEvent → Nat
  | [] => 0
  | .pass ms :: es => ms + elapsed es
  | _ :: es => elapsed es

/-- The handler acts before thirty seconds have passed. -/
def InTime (es : List LifeEvent) : Prop :=
  ∀ pre o post, es = pre ++ .op o :: post → elapsed pre < 30000

/-- The client stays. -/
def Stays (es : List LifeEvent) : Prop := LifeEvent.disconnect ∉ es

/-- The handler acts in the callback only. -/
def Synchronous (es : List LifeEvent) : Prop :=
  ∀ pre o post, es = pre ++ .op o :: post → LifeEvent.ret ∉ pre

end LifeSpec

open LifeSpec

/-- **C156, full statement.** A handler that does as documented never uses a response that is gone. -/
def FullAlive : Prop :=
  ∀ es : List LifeEvent, Documented (ops es) → (Life.run {} es).wild = []

theorem run_snoc (l : Life) (es : List LifeEvent) (e : LifeEvent) :
    l.run (es ++ [e]) = (l.run es).step e := by
  simp [Life.run]

/-- A late answer. -/
def lateRun : List LifeEvent := [.ret, .pass 30000, .poll, .op (.send "done")]

/-- An answer to a client that has gone. -/
def goneRun : List LifeEvent := [.ret, .pass 5, .disconnect, .op (.setStatus 200), .op (.send "done")]

theorem documented_late : Documented (ops lateRun) := by
  intro pre o post h _
  match pre, h with
  | [], h => cases h; rfl
  | _ :: _, h => simp [ops, lateRun] at h

/-- **C156 is false of the code:** the closure gives up after thirty seconds, and an answer that is given
later is written to a variable that is no longer there. -/
theorem alive_violated : ¬ FullAlive := fun h => by
  have := h lateRun documented_late
  revert this
  decide

/-- The same for clients that do not wait: here after five milliseconds. -/
theorem gone_violated : Documented (ops goneRun) ∧
    (Life.run {} goneRun).wild = [.setStatus 200, .send "done"] := by
  refine ⟨?_, by decide⟩
  intro pre o post h ho
  match pre, h with
  | [], h => cases h; exact absurd ho id
  | [_], h => cases h; rfl
  | _ :: _ :: _, h => simp [ops, goneRun] at h

/-- In general: whatever is called once the response is gone is called on what is gone. -/
theorem wild_of_gone (es : List LifeEvent) (o : FfiOp) (h : (Life.run {} es).alive = false) :
    o ∈ (Life.run {} (es ++ [.op o])).wild := by
  rw [run_snoc, Life.step, h]
  simp

/-! ## What holds -/

theorem ops_append (a b : List LifeEvent) : ops (a ++ b) = ops a ++ ops b := by
  induction a with
  | nil => rfl
  | cons e a ih => cases e <;> simp [ops, ih]

theorem elapsed_append (a b : List LifeEvent) : elapsed (a ++ b) = elapsed a + elapsed b := by
  induction a with
  | nil => simp [elapsed]
  | cons e a ih => cases e <;> simp [elapsed, ih, Nat.add_assoc]

/-- The state of a run in which nothing has gone wrong so far. -/
structure LifeInv (es : List LifeEvent) (l : Life) : Prop where
  wild : l.wild = []
  clock : l.clock ≤ elapsed es
  sent : l.response.sent = none ∨ ∃ o ∈ ops es, Sends o
  gone : l.alive = true ∨ 30000 ≤ elapsed es ∨ ∃ o ∈ ops es, Sends o
  closed : l.response.open' = false → ∃ o ∈ ops es, Sends o

theorem life_inv (es : List LifeEvent) (hd : Documented (ops es)) (ht : InTime es) (hs : Stays es) :
    LifeInv es (Life.run {} es) := by
  generalize hn : es.length = n
  induction n generalizing es with
  | zero =>
    cases List.length_eq_zero_iff.1 hn
    exact ⟨rfl, Nat.le_refl _, .inl rfl, .inl rfl, nofun⟩
  | succ n ih =>
    have hne : es ≠ [] := by rintro rfl; cases hn
    obtain ⟨es', e, rfl⟩ : ∃ es' e, es = es' ++ [e] :=
      ⟨es.dropLast, es.getLast hne, (List.dropLast_concat_getLast hne).symm⟩
    have hd' : Documented (ops es') := by
      intro pre o post h ho
      have := hd pre o (post ++ ops [e]) (by rw [ops_append, h]; simp) ho
      exact (List.append_eq_nil_iff.1 this).1
    have ht' : InTime es' := fun pre o post h => ht pre o (post ++ [e]) (by rw [h]; simp)
    have hs' : Stays es' := fun h => hs (List.mem_append_left _ h)
    have inv := ih es' hd' ht' hs' (by simpa using hn)
    have up : (∃ o ∈ ops es', Sends o) → ∃ o ∈ ops (es' ++ [e]), Sends o := fun ⟨o, h, hh⟩ =>
      ⟨o, by rw [ops_append]; exact List.mem_append_left _ h, hh⟩
    have upt : elapsed es' ≤ elapsed (es' ++ [e]) := by rw [elapsed_append]; omega
    rw [run_snoc]
    generalize Life.run {} es' = l at inv
    have base : LifeInv (es' ++ [e]) l := ⟨inv.wild, Nat.le_trans inv.clock upt, inv.sent.imp id up,
      inv.gone.imp id (Or.imp (fun h => Nat.le_trans h upt) up), fun h => up (inv.closed h)⟩
    cases e with
    | ret => exact ⟨base.wild, base.clock, base.sent, base.gone, base.closed⟩
    | disconnect => exact absurd (by simp) hs
    | pass ms =>
      rw [Life.step]
      split
      · exact base
      · refine ⟨base.wild, ?_, base.sent, base.gone, base.closed⟩
        have := inv.clock
        simp only [elapsed_append, elapsed]
        omega
    | poll =>
      rw [Life.step]
      split
      · exact base
      · split
        · split
          next r hr =>
            refine ⟨base.wild, base.clock, base.sent, ?_, base.closed⟩
            rw [Life.polled] at hr
            split at hr
            next x hx =>
              rcases base.sent with h | h
              · rw [h] at hx; cases hx
              · exact .inr (.inr h)
            next =>
              split at hr
              next hc =>
                have := base.clock
                rw [timeout] at hc
                exact .inr (.inl (by omega))
              next => cases hr
          next => exact base
        · exact base
    | op o =>
      have nosend : ¬ ∃ o' ∈ ops es', Sends o' := by
        rintro ⟨o', h, hh⟩
        obtain ⟨pre, post, he⟩ := List.append_of_mem h
        have := hd pre o' (post ++ [o]) (by rw [ops_append, he]; simp [ops]) hh
        simp at this
      have halive : l.alive = true := by
        rcases inv.gone with h | h | h
        · exact h
        · have := ht es' o [] rfl
          omega
        · exact absurd h nosend
      rw [Life.step, if_pos halive]
      have hopen : l.response.open' = true := by
        cases h : l.response.open' with
        | true => rfl
        | false => exact absurd (inv.closed h) nosend
      have hsent : l.response.sent = none := inv.sent.resolve_right nosend
      cases o with
      | send b =>
        have hm : ∃ o ∈ ops (es' ++ [.op (.send b)]), Sends o :=
          ⟨.send b, by rw [ops_append]; simp [ops], trivial⟩
        exact ⟨base.wild, base.clock, .inr hm, .inl halive, fun _ => hm⟩
      | setStatus n =>
        exact ⟨base.wild, base.clock, .inl hsent, .inl halive, base.closed⟩
      | setHeaders hs => exact ⟨base.wild, base.clock, .inl hsent, .inl halive, base.closed⟩

/-- **C156, partial.** A handler that does as documented, in less than thirty seconds and while the
client is there, uses the response only while it is there. -/
theorem alive_partial (es : List LifeEvent) (hd : Documented (ops es)) (ht : InTime es)
    (hs : Stays es) : (Life.run {} es).wild = [] := (life_inv es hd ht hs).wild

/-- So does a handler that acts in the callback only, whatever it does and however long it takes. -/
theorem alive_in_callback (es : List LifeEvent) (h : Synchronous es) : (Life.run {} es).wild = [] := by
  have key : ∀ es : List LifeEvent, Synchronous es → (Life.run {} es).wild = [] ∧
      (LifeEvent.ret ∉ es → (Life.run {} es).alive = true ∧ (Life.run {} es).inCallback = true) := by
    intro es h
    generalize hn : es.length = n
    induction n generalizing es with
    | zero =>
      cases List.length_eq_zero_iff.1 hn
      exact ⟨rfl, fun _ => ⟨rfl, rfl⟩⟩
    | succ n ih =>
      have hne : es ≠ [] := by rintro rfl; cases hn
      obtain ⟨es', e, rfl⟩ : ∃ es' e, es = es' ++ [e] :=
        ⟨es.dropLast, es.getLast hne, (List.dropLast_concat_getLast hne).symm⟩
      obtain ⟨hw, ha⟩ := ih es' (fun pre o post he => h pre o (post ++ [e]) (by rw [he]; simp))
        (by simpa using hn)
      rw [run_snoc]
      have hr : LifeEvent.ret ∉ es' ++ [e] → LifeEvent.ret ∉ es' := fun hh he =>
        hh (List.mem_append_left _ he)
      cases e with
      | op o =>
        obtain ⟨h1, h2⟩ := ha (h es' o [] rfl)
        rw [Life.step, if_pos h1]
        exact ⟨hw, fun _ => ⟨h1, h2⟩⟩
      | ret => exact ⟨hw, fun hh => absurd (by simp) hh⟩
      | pass ms =>
        rw [Life.step]
        split
        · exact ⟨hw, fun hh => ha (hr hh)⟩
        next hc => exact ⟨hw, fun hh => absurd (ha (hr hh)).2 hc⟩
      | poll =>
        rw [Life.step]
        split
        · exact ⟨hw, fun hh => ha (hr hh)⟩
        next hc =>
          refine ⟨?_, fun hh => absurd (ha (hr hh)).2 hc⟩
          split
          · split
            · exact hw
            · exact hw
          · exact hw
      | disconnect =>
        rw [Life.step]
        split
        · exact ⟨hw, fun hh => ha (hr hh)⟩
        next hc => exact ⟨hw, fun hh => absurd (ha (hr hh)).2 hc⟩
  exact (key es h).1

/-- What is known in every run. -/
structure LifeFacts (es : List LifeEvent) (l : Life) : Prop where
  clock : l.clock ≤ elapsed es
  sent : ∀ r, l.response.sent = some r → ∃ b, FfiOp.send b ∈ ops es ∧ r.body = some b
  error : ∀ e, l.result = some (.error e) → e = "Handler timed out" ∧ 30000 ≤ elapsed es
  ok : ∀ r, l.result = some (.ok r) → ∃ b, FfiOp.send b ∈ ops es ∧ r.body = some b

/-- In every run, whatever the handler does: a request is answered with what the handler sent, or with
the message that it was too slow, after thirty seconds. -/
theorem life_facts (es : List LifeEvent) : LifeFacts es (Life.run {} es) := by
  generalize hn : es.length = n
  induction n generalizing es with
  | zero =>
    cases List.length_eq_zero_iff.1 hn
    exact ⟨Nat.le_refl _, nofun, nofun, nofun⟩
  | succ n ih =>
    have hne : es ≠ [] := by rintro rfl; cases hn
    obtain ⟨es', e, rfl⟩ : ∃ es' e, es = es' ++ [e] :=
      ⟨es.dropLast, es.getLast hne, (List.dropLast_concat_getLast hne).symm⟩
    have inv := ih es' (by simpa using hn)
    rw [run_snoc]
    generalize Life.run {} es' = l at inv
    have upt : elapsed es' ≤ elapsed (es' ++ [e]) := by rw [elapsed_append]; omega
    have up : ∀ r : Response, (∃ b, FfiOp.send b ∈ ops es' ∧ r.body = some b) →
        ∃ b, FfiOp.send b ∈ ops (es' ++ [e]) ∧ r.body = some b := fun r ⟨b, h, hh⟩ =>
      ⟨b, by rw [ops_append]; exact List.mem_append_left _ h, hh⟩
    have base : LifeFacts (es' ++ [e]) l := ⟨Nat.le_trans inv.clock upt,
      fun r h => up r (inv.sent r h),
      fun x h => ⟨(inv.error x h).1, Nat.le_trans (inv.error x h).2 upt⟩,
      fun r h => up r (inv.ok r h)⟩
    cases e with
    | ret => exact ⟨base.clock, base.sent, base.error, base.ok⟩
    | disconnect =>
      rw [Life.step]
      split
      · exact base
      · exact ⟨base.clock, base.sent, base.error, base.ok⟩
    | pass ms =>
      rw [Life.step]
      split
      · exact base
      · refine ⟨?_, base.sent, base.error, base.ok⟩
        have := inv.clock
        simp only [elapsed_append, elapsed]
        omega
    | poll =>
      rw [Life.step]
      split
      · exact base
      · split
        · split
          next r hr =>
            rw [Life.polled] at hr
            split at hr
            next x hx =>
              cases hr
              refine ⟨base.clock, base.sent, nofun, ?_⟩
              intro r h
              cases h
              exact base.sent x hx
            next =>
              split at hr
              next hc =>
                cases hr
                refine ⟨base.clock, base.sent, ?_, nofun⟩
                intro x h
                cases h
                have := base.clock
                rw [timeout] at hc
                exact ⟨rfl, by omega⟩
              next => cases hr
          next => exact base
        · exact base
    | op o =>
      rw [Life.step]
      split
      · cases o with
        | setStatus n => exact ⟨base.clock, base.sent, base.error, base.ok⟩
        | setHeaders hs => exact ⟨base.clock, base.sent, base.error, base.ok⟩
        | send b =>
          refine ⟨base.clock, ?_, base.error, base.ok⟩
          intro r h
          simp only [ffiStep] at h
          split at h
          · cases h
            exact ⟨b, by rw [ops_append]; simp [ops], rfl⟩
          · exact base.sent r h
      · exact ⟨base.clock, base.sent, base.error, base.ok⟩

/-- **C156.** What a client gets is what the handler sent, or, not before thirty seconds have passed, the
message that it was too slow. -/
theorem life_outcome (es : List LifeEvent) :
    (∀ r, (Life.run {} es).result = some (.ok r) → ∃ b, FfiOp.send b ∈ ops es ∧ r.body = some b) ∧
    ∀ e, (Life.run {} es).result = some (.error e) →
      e = "Handler timed out" ∧ 30000 ≤ elapsed es :=
  ⟨(life_facts es).ok, (life_facts es).error⟩

/-- A handler that answers from another thread after two seconds meets the hypotheses. -/
example : (Life.run {} [.ret, .pass 2000, .op (.setStatus 201), .op (.send "a"), .poll]).result =
    some (.ok ⟨201, none, some "a"⟩) := by rfl

example : Documented (ops [.ret, .pass 2000, .op (.setStatus 201), .op (.send "a"), .poll]) := by
  intro pre o post h ho
  match pre, h with
  | [], h => cases h; exact absurd ho id
  | [_], h => cases h; rfl
  | _ :: _ :: _, h => simp [ops] at h

example : Synchronous [.op (.send "a"), .op (.setStatus 7), .ret, .poll, .disconnect] := by
  intro pre o post h
  match pre, h with
  | [], h => simp
  | [_], h => cases h; simp
  | [_, _], h => cases h
  | [_, _, _], h => cases h
  | [_, _, _, _], h => cases h
  | _ :: _ :: _ :: _ :: _ :: _, h => simp at h

end Verif.Sdk
