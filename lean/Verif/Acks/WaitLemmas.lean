import Verif.Acks.WaitSpec
import Verif.Acks.Lemmas

namespace Verif.Acks.Wait

open Verif.Acks

/-- Every request to wait in the channel is behind a status of the same message, or the message is
known already. -/
def ChanOk (K : String → Prop) : List ToWorker → Prop
  | [] => True
  | .status id _ :: rest => ChanOk (fun i => i = id ∨ K i) rest
  | .wait id _ :: rest => K id ∧ ChanOk K rest

theorem ChanOk.mono {K L : String → Prop} (h : ∀ i, K i → L i) {l : List ToWorker}
    (hl : ChanOk K l) : ChanOk L l := by
  induction l generalizing K L with
  | nil => trivial
  | cons m l ih =>
    cases m with
    | status id s => exact ih (fun i => Or.imp_right (h i)) hl
    | wait id n => exact ⟨h _ hl.1, ih h hl.2⟩

theorem ChanOk.append {K : String → Prop} {l : List ToWorker} (hl : ChanOk K l) (m : ToWorker)
    (h : ∀ id n, m = .wait id n → K id ∨ ∃ s, ToWorker.status id s ∈ l) : ChanOk K (l ++ [m]) := by
  induction l generalizing K with
  | nil =>
    cases m with
    | status id s => trivial
    | wait id n =>
      rcases h id n rfl with h | ⟨s, hs⟩
      · exact ⟨h, trivial⟩
      · cases hs
  | cons x l ih =>
    cases x with
    | status i s =>
      refine ih (K := fun j => j = i ∨ K j) hl fun id n e => ?_
      rcases h id n e with h | ⟨s', hs⟩
      · exact .inl (.inr h)
      · rcases List.mem_cons.mp hs with hs | hs
        · injection hs with h1 _; exact .inl (.inl h1)
        · exact .inr ⟨s', hs⟩
    | wait i k =>
      refine ⟨hl.1, ih hl.2 fun id n e => ?_⟩
      rcases h id n e with h | ⟨s', hs⟩
      · exact .inl h
      · rcases List.mem_cons.mp hs with hs | hs
        · cases hs
        · exact .inr ⟨s', hs⟩

/-- The message has been reported lost. -/
def Lost (st : Reg) (id : String) : Prop := ∃ cl, Action.lost id cl ∈ st.worker.emitted

/-- The worker has a status for the message, or has reported it lost. -/
def Known (st : Reg) (id : String) : Prop := (st.worker.acks.lookup id).isSome = true ∨ Lost st id

/-- What holds of a call. -/
def CallOk (A : String → Prop) (st : Reg) (r : Request) : Stage → Prop
  | .recorded => Known st r.id ∨ ∃ s, ToWorker.status r.id s ∈ st.chan
  | .published => Known st r.id ∨ ∃ s, ToWorker.status r.id s ∈ st.chan
  | .waiting => True
  | .done .ok => r.wait = true → (r.conn, r.message) ∈ st.writes ∨ A r.id
  | .done .sendError => True
  | .done (.messageLost i) => i = r.id ∧ Lost st r.id

/-- Invariant once the sender has been set; `A` are the messages acknowledged. -/
structure Inv (A : String → Prop) (st : Reg) : Prop where
  installed : st.installed = true
  received_chan : ∀ id, ToWorker.status id .received ∈ st.chan → A id
  received_acks : ∀ id e, st.worker.acks.lookup id = some e → e.status = .received → A id
  lost_chan : ∀ id, ToWorker.status id .lost ∉ st.chan
  lost_acks : ∀ id e, st.worker.acks.lookup id = some e → e.status ≠ .lost
  chan : ChanOk (Known st) st.chan
  wait_chan : ∀ id n, ToWorker.wait id n ∈ st.chan →
    ∃ c, st.calls[n]? = some c ∧ c.req.id = id
  waiters : ∀ n id, (n, id) ∈ st.waiters →
    (∃ c, st.calls[n]? = some c ∧ c.req.id = id) ∧ Known st id
  replies : ∀ n s, (n, s) ∈ st.replies → ∃ (r : Request) (g : Stage), st.calls[n]? = some ⟨r, g⟩ ∧
    ((s = .received ∧ A r.id) ∨ (s = .lost ∧ Lost st r.id))
  calls : ∀ (n : Nat) r g, st.calls[n]? = some ⟨r, g⟩ → CallOk A st r g

theorem tell_installed {st : Reg} (h : st.installed = true) (m : ToWorker) :
    st.tell m = { st with chan := st.chan ++ [m] } := by
  simp [Reg.tell, h]

/-- What is known stays known. -/
theorem CallOk.mono {A : String → Prop} {st st' : Reg} (hk : ∀ i, Known st i → Known st' i)
    (hl : ∀ i, Lost st i → Lost st' i)
    (hc : ∀ i s, ToWorker.status i s ∈ st.chan → Known st' i ∨ ∃ s, ToWorker.status i s ∈ st'.chan)
    (hw : ∀ x, x ∈ st.writes → x ∈ st'.writes) {r : Request} {g : Stage} (h : CallOk A st r g) :
    CallOk A st' r g := by
  match g with
  | .recorded | .published =>
    rcases h with h | ⟨s, h⟩
    · exact .inl (hk _ h)
    · exact hc _ _ h
  | .waiting => trivial
  | .done .ok => exact fun w => (h w).imp (hw _) id
  | .done .sendError => trivial
  | .done (.messageLost i) => exact ⟨h.1, hl _ h.2⟩

theorem inv_init (A : String → Prop) (conns : List String) :
    Inv A { installed := true, conns := conns } := by
  constructor <;> simp [ChanOk, State.init]

theorem Inv.tell {A : String → Prop} {st : Reg} (h : Inv A st) (id : String) (s : Status)
    (hr : s = .received → A id) (hl : s ≠ .lost) :
    Inv A { st with chan := st.chan ++ [.status id s] } := by
  refine ⟨h.installed, ?_, h.received_acks, ?_, h.lost_acks, ?_, ?_, h.waiters, h.replies, ?_⟩
  · intro i hi
    rcases List.mem_append.mp hi with hi | hi
    · exact h.received_chan i hi
    · have e := List.mem_singleton.mp hi
      injection e with e1 e2
      rw [e1]
      exact hr e2.symm
  · intro i hi
    rcases List.mem_append.mp hi with hi | hi
    · exact h.lost_chan i hi
    · have e := List.mem_singleton.mp hi
      injection e with e1 e2
      exact hl e2.symm
  · exact h.chan.append _ (fun _ _ e => by cases e)
  · intro i n hi
    rcases List.mem_append.mp hi with hi | hi
    · exact h.wait_chan i n hi
    · cases List.mem_singleton.mp hi
  · intro n r g hg
    refine CallOk.mono (st := st) ?_ ?_ ?_ ?_ (h.calls n r g hg)
    · exact fun _ x => x
    · exact fun _ x => x
    · exact fun i s hi => .inr ⟨s, List.mem_append_left _ hi⟩
    · exact fun _ x => x

/-- A new call. -/
theorem Inv.newCall {A : String → Prop} {st : Reg} (h : Inv A st) (r : Request) (g : Stage)
    (hc : CallOk A st r g) : Inv A { st with calls := st.calls ++ [⟨r, g⟩] } := by
  have old : ∀ (n : Nat) c, st.calls[n]? = some c → (st.calls ++ [⟨r, g⟩])[n]? = some c := by
    intro n c hn
    rw [List.getElem?_append_left (List.getElem?_eq_some_iff.mp hn).1, hn]
  refine ⟨h.installed, h.received_chan, h.received_acks, h.lost_chan, h.lost_acks, h.chan,
    ?_, ?_, ?_, ?_⟩
  · intro i n hi
    obtain ⟨r', h1, h2⟩ := h.wait_chan i n hi
    exact ⟨r', old _ _ h1, h2⟩
  · intro n i hi
    obtain ⟨⟨r', h1, h2⟩, h3⟩ := h.waiters n i hi
    exact ⟨⟨r', old _ _ h1, h2⟩, h3⟩
  · intro n s hi
    obtain ⟨r', g', h1, h2⟩ := h.replies n s hi
    exact ⟨r', g', old _ _ h1, h2⟩
  · intro n r' g' hn
    have hn : (st.calls ++ [⟨r, g⟩])[n]? = some ⟨r', g'⟩ := hn
    rw [List.getElem?_append] at hn
    split at hn
    · exact h.calls n r' g' hn
    · have e := List.mem_singleton.mp (List.mem_of_getElem? hn)
      injection e with e1 e2
      rw [e1, e2]
      exact hc

/-- A call goes on. -/
theorem Inv.setCall {A : String → Prop} {st : Reg} (h : Inv A st) (n : Nat) (r : Request)
    (g g' : Stage) (hn : st.calls[n]? = some ⟨r, g⟩) (hc : CallOk A st r g') :
    Inv A { st with calls := st.calls.set n ⟨r, g'⟩ } := by
  have other : ∀ (k : Nat) (i : String), (∃ c, st.calls[k]? = some c ∧ c.req.id = i) →
      ∃ c, (st.calls.set n ⟨r, g'⟩)[k]? = some c ∧ c.req.id = i := by
    intro k i ⟨c, hk, hi⟩
    by_cases e : n = k
    · subst e
      rw [hn] at hk
      injection hk with hk
      subst hk
      exact ⟨_, List.getElem?_set_self (List.getElem?_eq_some_iff.mp hn).1, hi⟩
    · exact ⟨c, by rw [List.getElem?_set_ne e, hk], hi⟩
  refine ⟨h.installed, h.received_chan, h.received_acks, h.lost_chan, h.lost_acks, h.chan,
    fun i k hi => other _ _ (h.wait_chan i k hi),
    fun k i hi => ⟨other _ _ (h.waiters k i hi).1, (h.waiters k i hi).2⟩, ?_, ?_⟩
  · intro k s hi
    obtain ⟨r', g'', h1, h2⟩ := h.replies k s hi
    by_cases e : n = k
    · subst e
      rw [hn] at h1
      injection h1 with h1
      injection h1 with e1 e2
      subst e1
      refine ⟨r, g', ?_, h2⟩
      show (st.calls.set n _)[n]? = _
      rw [List.getElem?_set_self (List.getElem?_eq_some_iff.mp hn).1]
    · refine ⟨r', g'', ?_, h2⟩
      show (st.calls.set n _)[k]? = _
      rw [List.getElem?_set_ne e, h1]
  · intro k r' g'' hk
    have hk : (st.calls.set n ⟨r, g'⟩)[k]? = some ⟨r', g''⟩ := hk
    by_cases e : n = k
    · subst e
      rw [List.getElem?_set_self (List.getElem?_eq_some_iff.mp hn).1] at hk
      injection hk with hk
      injection hk with e1 e2
      subst e1 e2
      exact hc
    · rw [List.getElem?_set_ne e] at hk
      exact h.calls k r' g'' hk

/-- Known messages stay known when the worker does something. -/
theorem Inv.worker {A : String → Prop} {st : Reg} (h : Inv A st) (w : State)
    (ha : ∀ id e, w.acks.lookup id = some e → e.status = .received → A id)
    (hn : ∀ id e, w.acks.lookup id = some e → e.status ≠ .lost)
    (hk : ∀ id, Known st id → Known { st with worker := w } id)
    (hl : ∀ id, Lost st id → Lost { st with worker := w } id) : Inv A { st with worker := w } := by
  refine ⟨h.installed, h.received_chan, ha, h.lost_chan, hn, h.chan.mono hk, h.wait_chan,
    fun n id hi => ⟨(h.waiters n id hi).1, hk _ (h.waiters n id hi).2⟩, ?_, ?_⟩
  · intro n s hi
    obtain ⟨r, g, h1, h2⟩ := h.replies n s hi
    exact ⟨r, g, h1, h2.imp (fun x => x) (fun x => ⟨x.1, hl _ x.2⟩)⟩
  · intro n r g hg
    refine CallOk.mono (st := st) hk hl ?_ ?_ (h.calls n r g hg)
    · exact fun i s hi => .inr ⟨s, hi⟩
    · exact fun _ x => x

theorem Inv.writes {A : String → Prop} {st : Reg} (h : Inv A st) (ws : List (String × String))
    (hw : ∀ x ∈ st.writes, x ∈ ws) : Inv A { st with writes := ws } := by
  refine ⟨h.installed, h.received_chan, h.received_acks, h.lost_chan, h.lost_acks, h.chan,
    h.wait_chan, h.waiters, h.replies, fun n r g hg => ?_⟩
  refine CallOk.mono (st := st) ?_ ?_ ?_ hw (h.calls n r g hg)
  · exact fun _ x => x
  · exact fun _ x => x
  · exact fun i s hi => .inr ⟨s, hi⟩

theorem Inv.call {A : String → Prop} {st : Reg} (h : Inv A st) (su : Setup)
    (hb : su.broadcaster = true) (r : Request) (ok : Bool) : Inv A (st.call su r ok) := by
  unfold Reg.call
  split
  · cases ok with
    | true =>
      exact (h.writes (st.writes ++ [(r.conn, r.message)])
        (fun _ x => List.mem_append_left _ x)).newCall r _
        (fun _ => .inl (List.mem_append_right _ (List.mem_singleton.mpr rfl)))
    | false => exact h.newCall r (.done .sendError) trivial
  · simp only [hb, if_true, tell_installed h.installed]
    exact (h.tell r.id (.pending r.message r.inform) nofun nofun).newCall r .recorded
      (.inr ⟨_, List.mem_append_right _ (List.mem_singleton.mpr rfl)⟩)

theorem Inv.publish {A : String → Prop} {st : Reg} (h : Inv A st) (n : Nat) :
    Inv A (st.publish n) := by
  unfold Reg.publish
  split
  · rename_i r hn
    have hc := h.calls n _ _ hn
    have h' : Inv A { st with broadcasts := st.broadcasts ++ [⟨r.conn, r.id, r.message, r.inform⟩] } :=
      ⟨h.installed, h.received_chan, h.received_acks, h.lost_chan, h.lost_acks, h.chan, h.wait_chan,
        h.waiters, h.replies, h.calls⟩
    refine h'.setCall n r .recorded _ hn ?_
    cases hw : r.wait with
    | true => exact hc
    | false => exact fun e => by rw [hw] at e; cases e
  · exact h

theorem Inv.await {A : String → Prop} {st : Reg} (h : Inv A st) (n : Nat) :
    Inv A (st.await n) := by
  unfold Reg.await
  split
  · rename_i r hn
    have hc := h.calls n _ _ hn
    rw [if_pos h.installed, tell_installed h.installed]
    have h1 := h.setCall n r .published .waiting hn trivial
    refine ⟨h1.installed, ?_, h1.received_acks, ?_, h1.lost_acks, ?_, ?_, h1.waiters, h1.replies, ?_⟩
    · intro i hi
      rcases List.mem_append.mp hi with hi | hi
      · exact h.received_chan i hi
      · cases List.mem_singleton.mp hi
    · intro i hi
      rcases List.mem_append.mp hi with hi | hi
      · exact h.lost_chan i hi
      · cases List.mem_singleton.mp hi
    · refine h1.chan.append _ fun id k e => ?_
      injection e with e1 e2
      subst e1
      exact hc
    · intro i k hi
      rcases List.mem_append.mp hi with hi | hi
      · exact h1.wait_chan i k hi
      · have e := List.mem_singleton.mp hi
        injection e with e1 e2
        subst e1 e2
        exact ⟨_, List.getElem?_set_self (List.getElem?_eq_some_iff.mp hn).1, rfl⟩
    · intro k r' g' hk
      refine CallOk.mono ?_ ?_ ?_ ?_ (h1.calls k r' g' hk)
      · exact fun _ x => x
      · exact fun _ x => x
      · exact fun _ s hi => .inr ⟨s, List.mem_append_left _ hi⟩
      · exact fun _ x => x
  · exact h

theorem mem_of_lookup {α β : Type} [BEq α] [LawfulBEq α] {l : List (α × β)} {k : α} {v : β}
    (h : l.lookup k = some v) : (k, v) ∈ l := by
  induction l with
  | nil => cases h
  | cons x l ih =>
    obtain ⟨a, b⟩ := x
    rw [List.lookup_cons] at h
    cases e : k == a with
    | true =>
      rw [e] at h
      injection h with h
      rw [eq_of_beq e, h]
      exact .head _
    | false =>
      rw [e] at h
      exact .tail _ (ih h)

theorem Inv.resume {A : String → Prop} {st : Reg} (h : Inv A st) (n : Nat) :
    Inv A (st.resume n) := by
  unfold Reg.resume
  split
  · rename_i r hn
    split
    · rename_i s hs
      obtain ⟨r', g', h1, h2⟩ := h.replies n s (mem_of_lookup hs)
      rw [hn] at h1
      injection h1 with h1
      injection h1 with e1 _
      subst e1
      refine h.setCall n r .waiting _ hn ?_
      rcases h2 with ⟨e, ha⟩ | ⟨e, hl⟩
      · subst e
        exact fun _ => .inr ha
      · subst e
        exact ⟨rfl, hl⟩
    · exact h
  · exact h

theorem Inv.work {A : String → Prop} {st : Reg} (h : Inv A st) (su : Setup) (now : Nat) :
    Inv A (st.work su now) := by
  unfold Reg.work
  split
  · exact h
  · rename_i id s rest he
    have hself := recordAck_lookup_self st.worker.acks id s now
    obtain ⟨e0, he0, hs0, _⟩ := hself
    have hc : ToWorker.status id s ∈ st.chan := by rw [he]; exact .head _
    have hk : ∀ i, Known st i →
        Known { st with chan := rest, worker := Acks.step su.cfg st.worker (.status id s now) } i := by
      intro i hi
      rcases hi with hi | hi
      · left
        by_cases e : i = id
        · subst e
          show ((recordAck st.worker.acks i s now).lookup i).isSome = true
          rw [he0]; rfl
        · show ((recordAck st.worker.acks id s now).lookup i).isSome = true
          rw [recordAck_lookup_ne _ _ _ _ _ e]; exact hi
      · exact .inr hi
    have hid :
        Known { st with chan := rest, worker := Acks.step su.cfg st.worker (.status id s now) } id := by
      left
      show ((recordAck st.worker.acks id s now).lookup id).isSome = true
      rw [he0]; rfl
    have hch := h.chan
    rw [he] at hch
    refine ⟨h.installed, ?_, ?_, ?_, ?_, ?_, ?_,
      fun n i hi => ⟨(h.waiters n i hi).1, hk _ (h.waiters n i hi).2⟩, h.replies, ?_⟩
    · exact fun i hi => h.received_chan i (by rw [he]; exact .tail _ hi)
    · intro i e hi hr
      have hi : (recordAck st.worker.acks id s now).lookup i = some e := hi
      by_cases x : i = id
      · subst x
        rw [he0] at hi
        injection hi with hi
        subst hi
        exact h.received_chan i (by rw [he, ← hr, hs0]; exact .head _)
      · rw [recordAck_lookup_ne _ _ _ _ _ x] at hi
        exact h.received_acks i e hi hr
    · exact fun i hi => h.lost_chan i (by rw [he]; exact .tail _ hi)
    · intro i e hi hr
      have hi : (recordAck st.worker.acks id s now).lookup i = some e := hi
      by_cases x : i = id
      · subst x
        rw [he0] at hi
        injection hi with hi
        subst hi
        exact h.lost_chan i (by rw [he, ← hr, hs0]; exact .head _)
      · rw [recordAck_lookup_ne _ _ _ _ _ x] at hi
        exact h.lost_acks i e hi hr
    · refine ChanOk.mono (K := fun i => i = id ∨ Known st i) ?_ hch
      intro i hi
      rcases hi with hi | hi
      · rw [hi]; exact hid
      · exact hk i hi
    · exact fun i n hi => h.wait_chan i n (by rw [he]; exact .tail _ hi)
    · intro n r g hg
      refine CallOk.mono (st := st) hk (fun _ x => x) ?_ (fun _ x => x) (h.calls n r g hg)
      intro i s' hi
      rw [he] at hi
      rcases List.mem_cons.mp hi with hi | hi
      · injection hi with e1 e2
        rw [e1]
        exact .inl hid
      · exact .inr ⟨s', hi⟩
  · rename_i id n rest he
    have hch := h.chan
    rw [he] at hch
    refine ⟨h.installed, fun i hi => h.received_chan i (by rw [he]; exact .tail _ hi),
      h.received_acks, fun i hi => h.lost_chan i (by rw [he]; exact .tail _ hi), h.lost_acks,
      hch.2, fun i n hi => h.wait_chan i n (by rw [he]; exact .tail _ hi), ?_, h.replies, ?_⟩
    · intro k i hi
      rcases List.mem_append.mp hi with hi | hi
      · exact h.waiters k i hi
      · have e := List.mem_singleton.mp hi
        injection e with e1 e2
        subst e1 e2
        exact ⟨h.wait_chan _ _ (by rw [he]; exact .head _), hch.1⟩
    · intro k r g hg
      refine CallOk.mono (st := st) ?_ ?_ ?_ ?_ (h.calls k r g hg)
      · exact fun _ x => x
      · exact fun _ x => x
      rotate_left
      · exact fun _ x => x
      intro i s' hi
      rw [he] at hi
      rcases List.mem_cons.mp hi with hi | hi
      · cases hi
      · exact .inr ⟨s', hi⟩

theorem Inv.reply {A : String → Prop} {st : Reg} (h : Inv A st) (n : Nat) (id : String) (s : Status)
    (hw : st.waiters.lookup n = some id) (hs : (s = .received ∧ A id) ∨ (s = .lost ∧ Lost st id)) :
    Inv A { st with
      waiters := st.waiters.filter (fun w => w.1 != n), replies := st.replies ++ [(n, s)] } := by
  refine ⟨h.installed, h.received_chan, h.received_acks, h.lost_chan, h.lost_acks, h.chan,
    h.wait_chan, fun k i hi => h.waiters k i (List.mem_filter.mp hi).1, ?_, h.calls⟩
  intro k s' hk
  rcases List.mem_append.mp hk with hk | hk
  · exact h.replies k s' hk
  · have e := List.mem_singleton.mp hk
    injection e with e1 e2
    subst e1 e2
    obtain ⟨⟨⟨r, g⟩, h1, h2⟩, _⟩ := h.waiters k id (mem_of_lookup hw)
    refine ⟨r, g, h1, ?_⟩
    have h2 : r.id = id := h2
    rw [h2]
    exact hs

theorem Inv.poll {A : String → Prop} {st : Reg} (h : Inv A st) (n : Nat) : Inv A (st.poll n) := by
  unfold Reg.poll
  split
  · exact h
  · rename_i id hw
    have hk := (h.waiters n id (mem_of_lookup hw)).2
    dsimp only
    split
    · rename_i e he
      split
      · exact h
      · rename_i hp
        refine h.reply n id _ hw ?_
        have hn := h.lost_acks id e he
        cases hst : e.status with
        | pending m c => exact (hp m c hst).elim
        | received => exact .inl ⟨rfl, h.received_acks id e he hst⟩
        | lost => exact (hn hst).elim
    · rename_i he
      refine h.reply n id _ hw (.inr ⟨rfl, ?_⟩)
      rcases hk with hk | hk
      · rw [he] at hk; cases hk
      · exact hk

theorem Inv.emit {A : String → Prop} {st : Reg} (h : Inv A st) (cfg : Config) :
    Inv A { st with worker := Acks.step cfg st.worker .emit } := by
  refine h.worker _ ?_ ?_ ?_ ?_ <;> (simp only [Acks.step]; split)
  · exact h.received_acks
  · rename_i a rest ht
    cases a with
    | resend c i m l => exact h.received_acks
    | lost j l =>
      intro i e hi
      by_cases x : i = j
      · subst x; rw [lookup_remove_self] at hi; cases hi
      · exact h.received_acks i e (by rw [← lookup_remove_ne _ _ _ x]; exact hi)
  · exact h.lost_acks
  · rename_i a rest ht
    cases a with
    | resend c i m l => exact h.lost_acks
    | lost j l =>
      intro i e hi
      by_cases x : i = j
      · subst x; rw [lookup_remove_self] at hi; cases hi
      · exact h.lost_acks i e (by rw [← lookup_remove_ne _ _ _ x]; exact hi)
  · exact fun _ x => x
  · rename_i a rest ht
    intro i hi
    rcases hi with hi | ⟨cl, hi⟩
    · cases a with
      | resend c k m l => exact .inl hi
      | lost j l =>
        by_cases x : i = j
        · subst x; exact .inr ⟨l, List.mem_append_right _ (List.mem_singleton.mpr rfl)⟩
        · left
          show ((mapRemove j st.worker.acks).lookup i).isSome = true
          rw [lookup_remove_ne _ _ _ x]; exact hi
    · exact .inr ⟨cl, List.mem_append_left _ hi⟩
  · exact fun _ x => x
  · exact fun i ⟨cl, hi⟩ => ⟨cl, List.mem_append_left _ hi⟩

theorem Inv.check {A : String → Prop} {st : Reg} (h : Inv A st) (cfg : Config) (now : Nat) :
    Inv A { st with worker := Acks.step cfg st.worker (.check now) } := by
  refine h.worker _ ?_ ?_ ?_ ?_ <;> (simp only [Acks.step]; split)
  · exact h.received_acks
  · exact h.received_acks
  · exact h.lost_acks
  · exact h.lost_acks
  all_goals exact fun _ x => x

theorem Inv.react {A : String → Prop} {st : Reg} (h : Inv A st) (broken : List String) :
    Inv A (st.react broken) := by
  unfold Reg.react
  split
  · exact h
  · split
    · exact h
    · rename_i c id m inform he
      split
      · have h1 := h.writes (if broken.contains c then st.writes else st.writes ++ [(c, m)])
          (fun x hx => by split <;> first | exact hx | exact List.mem_append_left _ hx)
        exact ⟨h1.installed, h1.received_chan, h1.received_acks, h1.lost_chan, h1.lost_acks, h1.chan,
          h1.wait_chan, h1.waiters, h1.replies, h1.calls⟩
      · rw [tell_installed h.installed]
        have h1 := h.tell id (.pending m inform) nofun nofun
        exact ⟨h1.installed, h1.received_chan, h1.received_acks, h1.lost_chan, h1.lost_acks, h1.chan,
          h1.wait_chan, h1.waiters, h1.replies, h1.calls⟩
    · exact ⟨h.installed, h.received_chan, h.received_acks, h.lost_chan, h.lost_acks, h.chan,
        h.wait_chan, h.waiters, h.replies, h.calls⟩

theorem Inv.step {A : String → Prop} {st : Reg} (h : Inv A st) (su : Setup)
    (hb : su.broadcaster = true) (op : Op) (ha : ∀ id, op = .ack id → A id) :
    Inv A (step su st op) := by
  cases op with
  | install =>
    simp only [Wait.step, if_pos hb]
    exact ⟨rfl, h.received_chan, h.received_acks, h.lost_chan, h.lost_acks, h.chan,
        h.wait_chan, h.waiters, h.replies, h.calls⟩
  | connect c => exact ⟨h.installed, h.received_chan, h.received_acks, h.lost_chan, h.lost_acks,
      h.chan, h.wait_chan, h.waiters, h.replies, h.calls⟩
  | disconnect c => exact ⟨h.installed, h.received_chan, h.received_acks, h.lost_chan, h.lost_acks,
      h.chan, h.wait_chan, h.waiters, h.replies, h.calls⟩
  | call r ok => exact h.call su hb r ok
  | publish n => exact h.publish n
  | await n => exact h.await n
  | resume n => exact h.resume n
  | ack id =>
    simp only [Wait.step, tell_installed h.installed]
    exact h.tell id .received (fun _ => ha id rfl) nofun
  | work now => exact h.work su now
  | check now => exact h.check su.cfg now
  | emit => exact h.emit su.cfg
  | react broken => exact h.react broken
  | poll n => exact h.poll n

theorem Inv.run {A : String → Prop} (su : Setup) (hb : su.broadcaster = true) (ops : List Op) :
    ∀ st, Inv A st → (∀ id, Op.ack id ∈ ops → A id) → Inv A (run su st ops) := by
  induction ops with
  | nil => exact fun _ h _ => h
  | cons op ops ih =>
    intro st h ha
    exact ih _ (h.step su hb op (fun id e => ha id (by rw [e]; exact .head _)))
      (fun id hi => ha id (.tail _ hi))

end Verif.Acks.Wait

namespace Verif.Acks.Wait

open Verif.Acks Spec

/-! ## Attempts -/

def isPending (id : String) : ToWorker → Bool
  | .status i (.pending _ _) => i == id
  | _ => false

def isRecorded (id : String) (c : Call) : Bool := c.req.id == id && c.stage == .recorded

/-- Attempts made or about to be made. -/
def made (st : Reg) (id : String) : Nat := broadcastsOf st id + st.calls.countP (isRecorded id)

structure Counted (su : Setup) (st : Reg) : Prop where
  counted : ∀ id, attemptsOf st.worker.acks id + st.chan.countP (isPending id) ≤ made st id
  pending : ∀ id e, st.worker.acks.lookup id = some e →
    (∃ m c, e.status = .pending m c) → 1 ≤ e.attempts
  todo : ∀ id cl, Action.lost id cl ∈ st.worker.todo → entitled su ≤ made st id
  emitted : ∀ id cl, Action.lost id cl ∈ st.worker.emitted → entitled su ≤ made st id
  nodup : (st.worker.acks.map (·.1)).Nodup

theorem counted_init (su : Setup) (st : Reg) (h1 : st.chan = []) (h2 : st.worker = .init) :
    Counted su st := by
  constructor <;> simp [h1, h2, State.init, attemptsOf]

/-- Steps that do not touch the worker. -/
theorem Counted.frame {su : Setup} {st st' : Reg} (h : Counted su st) (hw : st'.worker = st.worker)
    (hc : ∀ id, st'.chan.countP (isPending id) + made st id ≤
      st.chan.countP (isPending id) + made st' id)
    (hm : ∀ id, made st id ≤ made st' id) : Counted su st' := by
  refine ⟨fun id => ?_, ?_, ?_, ?_, by rw [hw]; exact h.nodup⟩
  · rw [hw]
    have := h.counted id
    have := hc id
    omega
  · rw [hw]; exact h.pending
  · rw [hw]; exact fun id cl hi => Nat.le_trans (h.todo id cl hi) (hm id)
  · rw [hw]; exact fun id cl hi => Nat.le_trans (h.emitted id cl hi) (hm id)

theorem Counted.same {su : Setup} {st st' : Reg} (h : Counted su st) (hw : st'.worker = st.worker)
    (hc : st'.chan = st.chan) (hb : st'.broadcasts = st.broadcasts)
    (hr : ∀ id, st'.calls.countP (isRecorded id) = st.calls.countP (isRecorded id)) :
    Counted su st' := by
  have hm : ∀ id, made st' id = made st id := by
    intro id
    simp only [made, broadcastsOf, hb, hr]
  exact h.frame hw (fun id => by rw [hc, hm]; exact Nat.le_refl _) (fun id => by rw [hm]; exact Nat.le_refl _)

theorem countP_set {α : Type} (p : α → Bool) (l : List α) (n : Nat) (a b : α) (h : l[n]? = some a) :
    (l.set n b).countP p + (if p a then 1 else 0) = l.countP p + (if p b then 1 else 0) := by
  induction l generalizing n with
  | nil => simp at h
  | cons x l ih =>
    cases n with
    | zero =>
      simp only [List.getElem?_cons_zero, Option.some.injEq] at h
      subst h
      simp only [List.set_cons_zero, List.countP_cons]
      omega
    | succ n =>
      simp only [List.getElem?_cons_succ] at h
      have := ih n h
      simp only [List.set_cons_succ, List.countP_cons]
      omega

theorem tell_chan (st : Reg) (m : ToWorker) (id : String) :
    (st.tell m).chan.countP (isPending id) ≤
      st.chan.countP (isPending id) + (if isPending id m then 1 else 0) := by
  unfold Reg.tell
  split
  · simp [List.countP_append, List.countP_cons]
  · omega

theorem tell_rest (st : Reg) (m : ToWorker) : (st.tell m).worker = st.worker ∧
    (st.tell m).broadcasts = st.broadcasts ∧ (st.tell m).calls = st.calls := by
  unfold Reg.tell
  split <;> exact ⟨rfl, rfl, rfl⟩

theorem Counted.step {su : Setup} {st : Reg} (h : Counted su st) (op : Op) :
    Counted su (step su st op) := by
  cases op with
  | install =>
    simp only [Wait.step]
    split
    · exact h.same rfl rfl rfl (fun _ => rfl)
    · exact h
  | connect c => exact h.same rfl rfl rfl (fun _ => rfl)
  | disconnect c => exact h.same rfl rfl rfl (fun _ => rfl)
  | call r ok =>
    simp only [Wait.step, Reg.call]
    split
    · refine h.same rfl rfl rfl fun id => ?_
      simp [List.countP_append, isRecorded]
    · split
      · obtain ⟨t1, t2, t3⟩ := tell_rest st (.status r.id (.pending r.message r.inform))
        have hm : ∀ id, made { st.tell (.status r.id (.pending r.message r.inform)) with
            calls := st.calls ++ [⟨r, .recorded⟩] } id = made st id + (if r.id == id then 1 else 0) := by
          intro id
          simp only [made, broadcastsOf, t2, List.countP_append, List.countP_cons, List.countP_nil,
            isRecorded]
          simp; omega
        refine h.frame t1 (fun id => ?_) (fun id => ?_)
        · have h1 := tell_chan st (.status r.id (.pending r.message r.inform)) id
          rw [hm]
          show (st.tell _).chan.countP _ + _ ≤ _
          cases hx : (r.id == id) <;> simp only [isPending, hx] at h1 ⊢ <;> simp at h1 ⊢ <;> omega
        · rw [hm]; omega
      · refine h.same rfl rfl rfl fun id => ?_
        simp [List.countP_append, isRecorded]
  | publish n =>
    simp only [Wait.step, Reg.publish]
    split
    · rename_i r hn
      have hm : ∀ id, made { st with
          broadcasts := st.broadcasts ++ [⟨r.conn, r.id, r.message, r.inform⟩]
          calls := st.calls.set n ⟨r, if r.wait then .published else .done .ok⟩ } id = made st id := by
        intro id
        have := countP_set (isRecorded id) st.calls n _
          ⟨r, if r.wait then .published else .done .ok⟩ hn
        have e : isRecorded id ⟨r, if r.wait then .published else .done .ok⟩ = false := by
          cases r.wait <;> simp [isRecorded]
        rw [e] at this
        have e2 : isRecorded id ⟨r, .recorded⟩ = (r.id == id) := by simp [isRecorded]
        rw [e2] at this
        simp only [made, broadcastsOf, List.countP_append, List.countP_cons, List.countP_nil]
        simp at this ⊢
        omega
      exact h.frame rfl (fun id => by rw [hm]; exact Nat.le_refl _)
        (fun id => by rw [hm]; exact Nat.le_refl _)
    · exact h
  | await n =>
    simp only [Wait.step, Reg.await]
    split
    · rename_i r hn
      have hr : ∀ id g, g ≠ .recorded → (st.calls.set n ⟨r, g⟩).countP (isRecorded id) =
          st.calls.countP (isRecorded id) := by
        intro id g hg
        have := countP_set (isRecorded id) st.calls n _ ⟨r, g⟩ hn
        have e : isRecorded id ⟨r, .published⟩ = false := by simp [isRecorded]
        have e2 : isRecorded id ⟨r, g⟩ = false := by simp [isRecorded, hg]
        rw [e, e2] at this
        simpa using this
      split
      · obtain ⟨t1, t2, t3⟩ := tell_rest st (.wait r.id n)
        have hm : ∀ id, made { st.tell (.wait r.id n) with calls := st.calls.set n ⟨r, .waiting⟩ } id =
            made st id := by
          intro id
          simp only [made, broadcastsOf, t2, hr id .waiting (by nofun)]
        refine h.frame t1 (fun id => ?_) (fun id => by rw [hm]; exact Nat.le_refl _)
        rw [hm]
        have := tell_chan st (.wait r.id n) id
        simp only [isPending] at this
        show (st.tell _).chan.countP _ + _ ≤ _
        simp at this
        omega
      · exact h.same rfl rfl rfl (fun id => hr id _ (by nofun))
    · exact h
  | resume n =>
    simp only [Wait.step, Reg.resume]
    split
    · rename_i r hn
      split
      · rename_i s hs
        refine h.same rfl rfl rfl fun id => ?_
        have := countP_set (isRecorded id) st.calls n _
          ⟨r, .done (if s = .received then .ok else .messageLost r.id)⟩ hn
        simpa [isRecorded] using this
      · exact h
    · exact h
  | ack id =>
    obtain ⟨t1, t2, t3⟩ := tell_rest st (.status id .received)
    have hm : ∀ i, made (st.tell (.status id .received)) i = made st i := by
      intro i; simp only [made, broadcastsOf, t2, t3]
    refine h.frame t1 (fun i => ?_) (fun i => Nat.le_of_eq (hm i).symm)
    have := tell_chan st (.status id .received) i
    have := hm i
    simp only [isPending] at *
    simp only [Wait.step]
    simp at *
    omega
  | work now =>
    simp only [Wait.step, Reg.work]
    split
    · exact h
    · rename_i id s rest he
      have hc : ∀ i, attemptsOf (recordAck st.worker.acks id s now) i + rest.countP (isPending i) ≤
          made st i := by
        intro i
        have := h.counted i
        rw [he, List.countP_cons] at this
        by_cases x : i = id
        · subst x
          cases s with
          | pending m c =>
            rw [recordAck_pending]
            simp only [attemptsOf, lookup_insert_self]
            simp [isPending] at this
            simp only [attemptsOf] at this ⊢
            omega
          | received =>
            rw [recordAck_received]
            simp only [attemptsOf, lookup_insert_self]
            simp [isPending] at this
            simp only [attemptsOf] at this ⊢
            omega
          | lost =>
            have e : attemptsOf (recordAck st.worker.acks i .lost now) i =
                attemptsOf st.worker.acks i := by
              simp only [attemptsOf, recordAck, lookup_insert_self]
              cases st.worker.acks.lookup i <;> rfl
            rw [e]
            simp [isPending] at this
            omega
        · simp only [attemptsOf, recordAck_lookup_ne _ _ _ _ _ x] at this ⊢
          omega
      refine ⟨hc, ?_, h.todo, h.emitted, recordAck_nodup _ _ _ _ h.nodup⟩
      intro i e hi ⟨m, c, hp⟩
      have hi : (recordAck st.worker.acks id s now).lookup i = some e := hi
      by_cases x : i = id
      · subst x
        cases s with
        | pending m' c' =>
          rw [recordAck_pending, lookup_insert_self] at hi
          injection hi with hi
          rw [← hi]
          exact Nat.succ_le_succ (Nat.zero_le _)
        | received =>
          rw [recordAck_received, lookup_insert_self] at hi
          injection hi with hi
          rw [← hi] at hp
          cases hp
        | lost =>
          simp only [recordAck, lookup_insert_self] at hi
          injection hi with hi
          rw [← hi] at hp
          cases hp
      · rw [recordAck_lookup_ne _ _ _ _ _ x] at hi
        exact h.pending i e hi ⟨m, c, hp⟩
    · rename_i id n rest he
      refine h.frame rfl (fun i => ?_) (fun i => Nat.le_refl _)
      rw [he, List.countP_cons]
      show rest.countP (isPending i) + made st i ≤ _ + made st i
      omega
  | check now =>
    simp only [Wait.step, Acks.step]
    split
    · refine ⟨h.counted, h.pending, ?_, h.emitted, h.nodup⟩
      intro id cl hi
      obtain ⟨⟨k, e⟩, hk, ha⟩ := List.mem_filterMap.mp hi
      have hid := actionFor_id _ _ _ _ _ ha
      simp only [messageId_lost] at hid
      subst hid
      have hl := Assoc.lookup_of_mem _ _ _ h.nodup hk
      simp only [actionFor] at ha
      split at ha
      · rename_i m c hs
        split at ha
        · split at ha
          · split at ha
            · rename_i hmax
              have h1 := h.pending id e hl ⟨m, c, hs⟩
              have h2 := h.counted id
              simp only [attemptsOf, hl] at h2
              show entitled su ≤ made st id
              simp only [entitled]
              omega
            · cases ha
          · cases ha
        · cases ha
      · cases ha
    · exact h
  | emit =>
    simp only [Wait.step, Acks.step]
    split
    · exact h
    · rename_i a rest ht
      refine ⟨?_, ?_, ?_, ?_, ?_⟩
      · intro i
        have := h.counted i
        cases a with
        | resend c k m l => exact this
        | lost j l =>
          show attemptsOf (mapRemove j st.worker.acks) i + st.chan.countP (isPending i) ≤ made st i
          by_cases x : i = j
          · subst x
            simp only [attemptsOf, lookup_remove_self]
            omega
          · simp only [attemptsOf, lookup_remove_ne _ _ _ x] at this ⊢
            exact this
      · intro i e hi
        cases a with
        | resend c k m l => exact h.pending i e hi
        | lost j l =>
          have hi : (mapRemove j st.worker.acks).lookup i = some e := hi
          by_cases x : i = j
          · subst x; rw [lookup_remove_self] at hi; cases hi
          · rw [lookup_remove_ne _ _ _ x] at hi
            exact h.pending i e hi
      · intro i cl hi
        exact h.todo i cl (by rw [ht]; exact .tail _ hi)
      · intro i cl hi
        rcases List.mem_append.mp hi with hi | hi
        · exact h.emitted i cl hi
        · exact h.todo i cl (by rw [ht, List.mem_singleton.mp hi]; exact .head _)
      · cases a with
        | resend c k m l => exact h.nodup
        | lost j l => exact Assoc.nodup_filter _ _ h.nodup
  | react broken =>
    simp only [Wait.step, Reg.react]
    split
    · exact h
    · split
      · exact h
      · rename_i c id m inform he
        split
        · exact h.same rfl rfl rfl (fun _ => rfl)
        · obtain ⟨t1, t2, t3⟩ := tell_rest st (.status id (.pending m inform))
          have hm : ∀ i, made { st.tell (.status id (.pending m inform)) with
              handled := st.handled + 1
              broadcasts := st.broadcasts ++ [⟨c, id, m, inform⟩] } i =
              made st i + (if id == i then 1 else 0) := by
            intro i
            simp only [made, broadcastsOf, t3, List.countP_append, List.countP_cons, List.countP_nil]
            omega
          refine h.frame t1 (fun i => ?_) (fun i => ?_)
          · have h1 := tell_chan st (.status id (.pending m inform)) i
            rw [hm]
            show (st.tell _).chan.countP _ + _ ≤ _
            cases hx : (id == i) <;> simp only [isPending, hx] at h1 ⊢ <;> simp at h1 ⊢ <;> omega
          · rw [hm]; omega
      · exact h.same rfl rfl rfl (fun _ => rfl)
  | poll n =>
    simp only [Wait.step, Reg.poll]
    split
    · exact h
    · split
      · split
        · exact h
        · exact h.same rfl rfl rfl (fun _ => rfl)
      · exact h.same rfl rfl rfl (fun _ => rfl)

end Verif.Acks.Wait

namespace Verif.Acks.Wait

open Verif.Acks Spec

theorem Counted.run {su : Setup} (ops : List Op) :
    ∀ st, Counted su st → Counted su (run su st ops) := by
  induction ops with
  | nil => exact fun _ h => h
  | cons op ops ih => exact fun st h => ih _ (h.step op)

theorem outcome_some {st : Reg} {n : Nat} {r : Request} {res : Result}
    (h : outcome st n = some (r, res)) : st.calls[n]? = some ⟨r, .done res⟩ := by
  unfold outcome at h
  split at h
  · rename_i r' res' he
    injection h with h
    injection h with h1 h2
    rw [he, h1, h2]
  · cases h

theorem run_append (su : Setup) (st : Reg) (a b : List Op) :
    run su st (a ++ b) = run su (run su st a) b := List.foldl_append

/-! ## The reacting task -/

theorem notify_healthy (conns : List String) (id : String) (cs : List String) :
    notify conns [] id cs = ((cs.filter (fun c => conns.contains c)).map (fun c => (c, id)), false) := by
  induction cs with
  | nil => rfl
  | cons c cs ih =>
    unfold notify
    cases h : conns.contains c with
    | true => simp only [List.filter_cons, h, if_true, ih]; rfl
    | false => simp only [List.filter_cons, h, ih]; rfl

theorem owed_append (conns : List String) (a b : List Action) :
    owed conns (a ++ b) = owed conns a ++ owed conns b := by
  induction a with
  | nil => rfl
  | cons x a ih =>
    cases x with
    | resend c i m l => exact ih
    | lost i l => simp only [List.cons_append, owed, ih, List.append_assoc]

/-- Only reactions touch the notices and the number of handled actions; what was sent stays. -/
theorem reaction_only (su : Setup) (st : Reg) (op : Op) (h : ∀ b, op ≠ .react b) :
    (step su st op).notices = st.notices ∧ (step su st op).dead = st.dead ∧
      (step su st op).handled = st.handled ∧
      ∃ l, (step su st op).worker.emitted = st.worker.emitted ++ l := by
  have tell : ∀ m, (st.tell m).notices = st.notices ∧ (st.tell m).dead = st.dead ∧
      (st.tell m).handled = st.handled ∧
      ∃ l, (st.tell m).worker.emitted = st.worker.emitted ++ l := by
    intro m
    unfold Reg.tell
    split <;> exact ⟨rfl, rfl, rfl, [], (List.append_nil _).symm⟩
  cases op with
  | install => simp only [step]; split <;> exact ⟨rfl, rfl, rfl, [], (List.append_nil _).symm⟩
  | connect c => exact ⟨rfl, rfl, rfl, [], (List.append_nil _).symm⟩
  | disconnect c => exact ⟨rfl, rfl, rfl, [], (List.append_nil _).symm⟩
  | call r ok =>
    simp only [step, Reg.call]
    split
    · exact ⟨rfl, rfl, rfl, [], (List.append_nil _).symm⟩
    · split
      · exact tell _
      · exact ⟨rfl, rfl, rfl, [], (List.append_nil _).symm⟩
  | publish n =>
    simp only [step, Reg.publish]
    split <;> exact ⟨rfl, rfl, rfl, [], (List.append_nil _).symm⟩
  | await n =>
    simp only [step, Reg.await]
    split
    · split
      · exact tell _
      · exact ⟨rfl, rfl, rfl, [], (List.append_nil _).symm⟩
    · exact ⟨rfl, rfl, rfl, [], (List.append_nil _).symm⟩
  | resume n =>
    simp only [step, Reg.resume]
    split
    · split <;> exact ⟨rfl, rfl, rfl, [], (List.append_nil _).symm⟩
    · exact ⟨rfl, rfl, rfl, [], (List.append_nil _).symm⟩
  | ack id => exact tell _
  | work now =>
    simp only [step, Reg.work]
    split <;> exact ⟨rfl, rfl, rfl, [], (List.append_nil _).symm⟩
  | check now =>
    refine ⟨rfl, rfl, rfl, ?_⟩
    show ∃ l, (Acks.step su.cfg st.worker (.check now)).emitted = _
    simp only [Acks.step]
    split <;> exact ⟨[], (List.append_nil _).symm⟩
  | emit =>
    refine ⟨rfl, rfl, rfl, ?_⟩
    show ∃ l, (Acks.step su.cfg st.worker .emit).emitted = _
    simp only [Acks.step]
    split
    · exact ⟨[], (List.append_nil _).symm⟩
    · exact ⟨[_], rfl⟩
  | react b => exact (h b rfl).elim
  | poll n =>
    simp only [step, Reg.poll]
    split
    · exact ⟨rfl, rfl, rfl, [], (List.append_nil _).symm⟩
    · split
      · split <;> exact ⟨rfl, rfl, rfl, [], (List.append_nil _).symm⟩
      · exact ⟨rfl, rfl, rfl, [], (List.append_nil _).symm⟩

theorem conns_step (su : Setup) (st : Reg) (op : Op) (h : ∀ c, op ≠ .connect c ∧ op ≠ .disconnect c) :
    (step su st op).conns = st.conns := by
  have tell : ∀ m, (st.tell m).conns = st.conns := by
    intro m
    unfold Reg.tell
    split <;> rfl
  cases op with
  | install => simp only [step]; split <;> rfl
  | connect c => exact ((h c).1 rfl).elim
  | disconnect c => exact ((h c).2 rfl).elim
  | call r ok =>
    simp only [step, Reg.call]
    split
    · rfl
    · split
      · exact tell _
      · rfl
  | publish n => simp only [step, Reg.publish]; split <;> rfl
  | await n =>
    simp only [step, Reg.await]
    split
    · split
      · exact tell _
      · rfl
    · rfl
  | resume n =>
    simp only [step, Reg.resume]
    split
    · split <;> rfl
    · rfl
  | ack id => exact tell _
  | work now => simp only [step, Reg.work]; split <;> rfl
  | check now => rfl
  | emit => rfl
  | react b =>
    simp only [step, Reg.react]
    split
    · rfl
    · split
      · rfl
      · split
        · rfl
        · exact tell _
      · rfl
  | poll n =>
    simp only [step, Reg.poll]
    split
    · rfl
    · split
      · split <;> rfl
      · rfl

/-- Everything taken by the reacting task has been told. -/
structure Told (st : Reg) : Prop where
  alive : st.dead = false
  handled : st.handled ≤ st.worker.emitted.length
  notices : st.notices = owed st.conns (st.worker.emitted.take st.handled)

theorem react_emitted (st : Reg) (b : List String) :
    (st.react b).worker = st.worker := by
  unfold Reg.react
  split
  · rfl
  · split
    · rfl
    · split
      · rfl
      · exact (tell_rest st _).1
    · rfl

theorem Told.react {st : Reg} (h : Told st) : Told (st.react []) ∧
    (st.react []).handled = min (st.handled + 1) st.worker.emitted.length := by
  unfold Reg.react
  rw [if_neg (by rw [h.alive]; nofun)]
  split
  · rename_i he
    have := List.getElem?_eq_none_iff.mp he
    have := h.handled
    exact ⟨h, by omega⟩
  · rename_i c id m inform he
    have hlt := (List.getElem?_eq_some_iff.mp he).1
    have htake : st.worker.emitted.take (st.handled + 1) =
        st.worker.emitted.take st.handled ++ [.resend c id m inform] := by
      rw [List.take_add_one, he]; rfl
    split
    · refine ⟨⟨h.alive, hlt, ?_⟩, by show st.handled + 1 = _; omega⟩
      show st.notices = owed st.conns (st.worker.emitted.take (st.handled + 1))
      rw [htake, owed_append, ← h.notices]
      exact (List.append_nil _).symm
    · have tell : (st.tell (.status id (.pending m inform))).notices = st.notices ∧
          (st.tell (.status id (.pending m inform))).dead = st.dead ∧
          (st.tell (.status id (.pending m inform))).worker = st.worker ∧
          (st.tell (.status id (.pending m inform))).conns = st.conns := by
        unfold Reg.tell
        split <;> exact ⟨rfl, rfl, rfl, rfl⟩
      refine ⟨⟨tell.2.1.trans h.alive, ?_, ?_⟩, by show st.handled + 1 = _; omega⟩
      · show st.handled + 1 ≤ (st.tell _).worker.emitted.length
        rw [tell.2.2.1]; exact hlt
      · show (st.tell _).notices = owed (st.tell _).conns ((st.tell _).worker.emitted.take (st.handled + 1))
        rw [tell.1, tell.2.2.1, tell.2.2.2, htake, owed_append, ← h.notices]
        exact (List.append_nil _).symm
  · rename_i id clients he
    have hlt := (List.getElem?_eq_some_iff.mp he).1
    have htake : st.worker.emitted.take (st.handled + 1) =
        st.worker.emitted.take st.handled ++ [.lost id clients] := by
      rw [List.take_add_one, he]; rfl
    refine ⟨⟨?_, hlt, ?_⟩, by show st.handled + 1 = _; omega⟩
    · show (notify st.conns [] id clients).2 = false
      rw [notify_healthy]
    · show st.notices ++ (notify st.conns [] id clients).1 =
        owed st.conns (st.worker.emitted.take (st.handled + 1))
      rw [htake, owed_append, ← h.notices, notify_healthy]
      simp [owed]

theorem Told.step {st : Reg} (h : Told st) (su : Setup) (op : Op)
    (hs : ∀ c, op ≠ .connect c ∧ op ≠ .disconnect c) (hh : ∀ b, op = .react b → b = []) :
    Told (step su st op) := by
  by_cases hr : ∃ b, op = .react b
  · obtain ⟨b, e⟩ := hr
    subst e
    rw [hh b rfl]
    exact h.react.1
  · obtain ⟨h1, h2, h3, l, h4⟩ := reaction_only su st op (fun b e => hr ⟨b, e⟩)
    refine ⟨h2.trans h.alive, ?_, ?_⟩
    · rw [h3, h4, List.length_append]
      exact Nat.le_trans h.handled (Nat.le_add_right _ _)
    · rw [h1, h3, h4, conns_step su st op hs, h.notices, List.take_append_of_le_length h.handled]

theorem Told.run (su : Setup) (ops : List Op) (hs : Settled ops) (hh : Healthy ops) :
    ∀ st, Told st → Told (run su st ops) := by
  induction ops with
  | nil => exact fun _ h => h
  | cons op ops ih =>
    intro st h
    refine ih (fun c => ⟨fun x => (hs c).1 (.tail _ x), fun x => (hs c).2 (.tail _ x)⟩)
      (fun b x => hh b (.tail _ x)) _ (h.step su op ?_ ?_)
    · exact fun c => ⟨fun e => (hs c).1 (by rw [e]; exact .head _),
        fun e => (hs c).2 (by rw [e]; exact .head _)⟩
    · exact fun b e => hh b (by rw [e]; exact .head _)

/-- A dead task does nothing any more. -/
theorem dead_step (su : Setup) (st : Reg) (op : Op) (h : st.dead = true) :
    (step su st op).dead = true ∧ (step su st op).notices = st.notices ∧
      (step su st op).handled = st.handled := by
  by_cases hr : ∃ b, op = .react b
  · obtain ⟨b, e⟩ := hr
    subst e
    simp only [step, Reg.react, h, if_true]
    exact ⟨trivial, trivial, trivial⟩
  · obtain ⟨h1, h2, h3, _⟩ := reaction_only su st op (fun b e => hr ⟨b, e⟩)
    exact ⟨h2.trans h, h1, h3⟩

end Verif.Acks.Wait
