import Verif.Acks.WaitLemmas

namespace Verif.Acks.Wait

open Verif.Acks Spec

/-- Some call has sent this. -/
def From (st : Reg) (id m : String) (cl : List String) : Prop :=
  ∃ c ∈ st.calls, c.req.id = id ∧ c.req.message = m ∧ c.req.inform = cl

/-- An action about a message that some call has sent. -/
def Act (st : Reg) : Action → Prop
  | .resend _ id m cl => From st id m cl
  | .lost id cl => ∃ m, From st id m cl

/-- Everything under way comes from calls. -/
structure Named (st : Reg) : Prop where
  chan : ∀ id m cl, ToWorker.status id (.pending m cl) ∈ st.chan → From st id m cl
  acks : ∀ id e, (id, e) ∈ st.worker.acks → ∀ m cl, e.status = .pending m cl → From st id m cl
  todo : ∀ a ∈ st.worker.todo, Act st a
  emitted : ∀ a ∈ st.worker.emitted, Act st a
  broadcasts : ∀ b ∈ st.broadcasts, From st b.id b.message b.inform
  notices : ∀ x ∈ st.notices, ∃ m cl, From st x.2 m cl ∧ x.1 ∈ cl

/-- Calls keep their requests. -/
def Keeps (st st' : Reg) : Prop := ∀ c ∈ st.calls, ∃ c' ∈ st'.calls, c'.req = c.req

theorem From.mono {st st' : Reg} (k : Keeps st st') {id m : String} {cl : List String}
    (h : From st id m cl) : From st' id m cl := by
  obtain ⟨c, h1, h2⟩ := h
  obtain ⟨c', h3, h4⟩ := k c h1
  exact ⟨c', h3, by rw [h4]; exact h2⟩

theorem Act.mono {st st' : Reg} (k : Keeps st st') {a : Action} (h : Act st a) : Act st' a := by
  cases a with
  | resend c id m cl => exact From.mono k h
  | lost id cl => obtain ⟨m, h⟩ := h; exact ⟨m, h.mono k⟩

theorem Keeps.refl (st : Reg) : Keeps st st := fun c h => ⟨c, h, rfl⟩

theorem keeps_set {cs : List Call} {n : Nat} {r : Request} {g g' : Stage}
    (h : cs[n]? = some ⟨r, g⟩) : ∀ c ∈ cs, ∃ c' ∈ cs.set n ⟨r, g'⟩, c'.req = c.req := by
  intro c hc
  obtain ⟨k, hk⟩ := List.mem_iff_getElem?.mp hc
  by_cases e : k = n
  · subst e
    rw [h] at hk
    injection hk with hk
    exact ⟨⟨r, g'⟩, List.mem_of_getElem?
      (List.getElem?_set_self (List.getElem?_eq_some_iff.mp h).1), by rw [← hk]⟩
  · exact ⟨c, List.mem_of_getElem? (i := k) (by rw [List.getElem?_set_ne (Ne.symm e)]; exact hk), rfl⟩

theorem keeps_add {cs : List Call} (x : Call) : ∀ c ∈ cs, ∃ c' ∈ cs ++ [x], c'.req = c.req :=
  fun c h => ⟨c, List.mem_append_left _ h, rfl⟩

/-- From one state to the next with a longer channel, more broadcasts and more calls. -/
theorem Named.grow {st st' : Reg} (h : Named st) (k : Keeps st st') (hw : st'.worker = st.worker)
    (hc : ∀ id m cl, ToWorker.status id (.pending m cl) ∈ st'.chan →
      ToWorker.status id (.pending m cl) ∈ st.chan ∨ From st' id m cl)
    (hb : ∀ b ∈ st'.broadcasts, b ∈ st.broadcasts ∨ From st' b.id b.message b.inform)
    (hn : ∀ x ∈ st'.notices, x ∈ st.notices ∨ ∃ m cl, From st' x.2 m cl ∧ x.1 ∈ cl) : Named st' := by
  refine ⟨?_, ?_, ?_, ?_, ?_, ?_⟩
  · intro id m cl hi
    rcases hc id m cl hi with hi | hi
    · exact (h.chan _ _ _ hi).mono k
    · exact hi
  · intro id e he m cl hs
    rw [hw] at he
    exact (h.acks id e he m cl hs).mono k
  · intro a ha
    rw [hw] at ha
    exact (h.todo a ha).mono k
  · intro a ha
    rw [hw] at ha
    exact (h.emitted a ha).mono k
  · intro b hi
    rcases hb b hi with hi | hi
    · exact (h.broadcasts b hi).mono k
    · exact hi
  · intro x hi
    rcases hn x hi with hi | hi
    · obtain ⟨m, cl, h1, h2⟩ := h.notices x hi
      exact ⟨m, cl, h1.mono k, h2⟩
    · exact hi

theorem mem_notify {conns broken : List String} {id : String} {x : String × String} :
    ∀ cl, x ∈ (notify conns broken id cl).1 → x.2 = id ∧ x.1 ∈ cl
  | [], h => by simp [notify] at h
  | c :: cs, h => by
    unfold notify at h
    split at h
    · split at h
      · simp at h
      · dsimp only at h
        rcases List.mem_cons.mp h with h | h
        · rw [h]; exact ⟨rfl, .head _⟩
        · have := mem_notify cs h
          exact ⟨this.1, .tail _ this.2⟩
    · have := mem_notify cs h
      exact ⟨this.1, .tail _ this.2⟩

theorem mem_tell {st : Reg} {x m : ToWorker} (h : x ∈ (st.tell m).chan) : x ∈ st.chan ∨ x = m := by
  unfold Reg.tell at h
  split at h
  · rcases List.mem_append.mp h with h | h
    · exact .inl h
    · exact .inr (List.mem_singleton.mp h)
  · exact .inl h

theorem tell_same (st : Reg) (m : ToWorker) : (st.tell m).worker = st.worker ∧
    (st.tell m).broadcasts = st.broadcasts ∧ (st.tell m).calls = st.calls ∧
    (st.tell m).notices = st.notices := by
  unfold Reg.tell
  split <;> exact ⟨rfl, rfl, rfl, rfl⟩

theorem Named.worker {st : Reg} (h : Named st) (cfg : Config) (op : Acks.Op) (st' : Reg)
    (hw : st'.worker = Acks.step cfg st.worker op) (k : Keeps st st')
    (hc : ∀ x ∈ st'.chan, x ∈ st.chan) (hb : st'.broadcasts = st.broadcasts)
    (hn : st'.notices = st.notices)
    (ho : ∀ id m cl now, op = .status id (.pending m cl) now → From st id m cl) : Named st' := by
  have hacks : ∀ id e, (id, e) ∈ st'.worker.acks → ∀ m cl, e.status = .pending m cl →
      From st' id m cl := by
    intro id e he m cl hs
    rw [hw] at he
    cases op with
    | check now =>
      refine (h.acks id e ?_ m cl hs).mono k
      simp only [Acks.step] at he
      split at he <;> exact he
    | emit =>
      refine (h.acks id e ?_ m cl hs).mono k
      simp only [Acks.step] at he
      split at he
      · exact he
      · rename_i a rest _
        cases a with
        | lost i c => exact (List.mem_filter.mp he).1
        | resend c i x l => exact he
    | status i s now =>
      simp only [Acks.step, recordAck, mapInsert] at he
      rcases List.mem_cons.mp he with he | he
      · injection he with h1 h2
        subst h1
        have hst : s = .pending m cl := by
          rw [h2] at hs
          cases s with
          | pending a b => simpa using hs
          | received => simp at hs
          | lost => simp at hs
        exact (ho _ _ _ now (by rw [hst])).mono k
      · exact (h.acks id e (List.mem_filter.mp he).1 m cl hs).mono k
  refine ⟨fun id m cl hi => (h.chan _ _ _ (hc _ hi)).mono k, hacks, ?_, ?_,
    fun b hi => (h.broadcasts b (hb ▸ hi)).mono k, fun x hx => by
      obtain ⟨m, cl, h1, h2⟩ := h.notices x (hn ▸ hx)
      exact ⟨m, cl, h1.mono k, h2⟩⟩
  · intro a ha
    rw [hw] at ha
    cases op with
    | status i s now => exact (h.todo a ha).mono k
    | emit =>
      simp only [Acks.step] at ha
      split at ha
      · exact (h.todo a ha).mono k
      · rename_i x rest hx
        exact (h.todo a (by rw [hx]; exact .tail _ ha)).mono k
    | check now =>
      simp only [Acks.step] at ha
      split at ha
      · obtain ⟨⟨i, e⟩, he, hact⟩ := List.mem_filterMap.mp ha
        unfold actionFor at hact
        dsimp only at hact
        split at hact
        · rename_i m cl hs
          have hf := (h.acks i e he m cl hs).mono k
          split at hact
          · split at hact
            · split at hact
              · injection hact with hact
                subst hact
                exact ⟨m, hf⟩
              · injection hact with hact
                subst hact
                exact hf
            · cases hact
          · cases hact
        · cases hact
      · exact (h.todo a ha).mono k
  · intro a ha
    rw [hw] at ha
    cases op with
    | status i s now => exact (h.emitted a ha).mono k
    | check now =>
      simp only [Acks.step] at ha
      split at ha <;> exact (h.emitted a ha).mono k
    | emit =>
      simp only [Acks.step] at ha
      split at ha
      · exact (h.emitted a ha).mono k
      · rename_i x rest hx
        rcases List.mem_append.mp ha with ha | ha
        · exact (h.emitted a ha).mono k
        · rw [List.mem_singleton.mp ha]
          exact (h.todo x (by rw [hx]; exact .head _)).mono k

theorem Named.step {st : Reg} (h : Named st) (su : Setup) (op : Op) : Named (step su st op) := by
  cases op with
  | install =>
    simp only [Wait.step]
    split <;> exact h.grow (Keeps.refl _) rfl (fun _ _ _ x => .inl x) (fun _ x => .inl x) (fun _ x => .inl x)
  | connect c => exact h.grow (Keeps.refl _) rfl (fun _ _ _ x => .inl x) (fun _ x => .inl x) (fun _ x => .inl x)
  | disconnect c => exact h.grow (Keeps.refl _) rfl (fun _ _ _ x => .inl x) (fun _ x => .inl x) (fun _ x => .inl x)
  | call r ok =>
    simp only [Wait.step, Reg.call]
    split
    · exact h.grow (keeps_add _) rfl (fun _ _ _ x => .inl x) (fun _ x => .inl x) (fun _ x => .inl x)
    · split
      · obtain ⟨t1, t2, t3, t4⟩ := tell_same st (.status r.id (.pending r.message r.inform))
        refine h.grow (keeps_add _) t1 ?_ ?_ (fun x hx => .inl (t4 ▸ hx))
        · intro id m cl hi
          rcases mem_tell hi with hi | hi
          · exact .inl hi
          · injection hi with e1 e2
            injection e2 with e2 e3
            exact .inr ⟨⟨r, .recorded⟩, List.mem_append_right _ (.head _), e1.symm, e2.symm, e3.symm⟩
        · intro b hb
          exact .inl (t2 ▸ hb)
      · exact h.grow (keeps_add _) rfl (fun _ _ _ x => .inl x) (fun _ x => .inl x) (fun _ x => .inl x)
  | publish n =>
    simp only [Wait.step, Reg.publish]
    split
    · rename_i r hn
      have k := keeps_set (g' := if r.wait then .published else .done .ok) hn
      refine h.grow k rfl (fun _ _ _ x => .inl x) ?_ (fun _ x => .inl x)
      intro b hb
      rcases List.mem_append.mp hb with hb | hb
      · exact .inl hb
      · rw [List.mem_singleton.mp hb]
        obtain ⟨c', h1, h2⟩ := k _ (List.mem_of_getElem? hn)
        exact .inr ⟨c', h1, by rw [h2]; exact ⟨rfl, rfl, rfl⟩⟩
    · exact h
  | await n =>
    simp only [Wait.step, Reg.await]
    split
    · rename_i r hn
      split
      · obtain ⟨t1, t2, t3, t4⟩ := tell_same st (.wait r.id n)
        refine h.grow (keeps_set hn) t1 ?_ (fun b hb => .inl (t2 ▸ hb)) (fun x hx => .inl (t4 ▸ hx))
        intro id m cl hi
        rcases mem_tell hi with hi | hi
        · exact .inl hi
        · cases hi
      · exact h.grow (keeps_set hn) rfl (fun _ _ _ x => .inl x) (fun _ x => .inl x) (fun _ x => .inl x)
    · exact h
  | resume n =>
    simp only [Wait.step, Reg.resume]
    split
    · rename_i r hn
      split
      · exact h.grow (keeps_set hn) rfl (fun _ _ _ x => .inl x) (fun _ x => .inl x) (fun _ x => .inl x)
      · exact h
    · exact h
  | ack id =>
    obtain ⟨t1, t2, t3, t4⟩ := tell_same st (.status id .received)
    refine h.grow (by rw [Keeps, show (Wait.step su st (.ack id)).calls = st.calls from t3]; exact Keeps.refl st)
      t1 ?_ (fun b hb => .inl (t2 ▸ hb)) (fun x hx => .inl (t4 ▸ hx))
    intro id m cl hi
    rcases mem_tell hi with hi | hi
    · exact .inl hi
    · cases hi
  | work now =>
    simp only [Wait.step, Reg.work]
    split
    · exact h
    · rename_i id s rest hc
      refine h.worker su.cfg (.status id s now) _ rfl (Keeps.refl _)
        (fun x hx => by rw [hc]; exact .tail _ hx) rfl rfl ?_
      intro i m cl t e
      injection e with e1 e2 _
      subst e1 e2
      exact h.chan _ _ _ (by rw [hc]; exact .head _)
    · rename_i id n rest hc
      exact h.grow (Keeps.refl _) rfl (fun _ _ _ x => .inl (by rw [hc]; exact .tail _ x))
        (fun _ x => .inl x) (fun _ x => .inl x)
  | check now =>
    exact h.worker su.cfg (.check now) _ rfl (Keeps.refl _) (fun _ x => x) rfl rfl nofun
  | emit => exact h.worker su.cfg .emit _ rfl (Keeps.refl _) (fun _ x => x) rfl rfl nofun
  | react broken =>
    simp only [Wait.step, Reg.react]
    split
    · exact h
    · split
      · exact h
      · rename_i c id m inform he
        split
        · exact h.grow (Keeps.refl _) rfl (fun _ _ _ x => .inl x) (fun _ x => .inl x) (fun _ x => .inl x)
        · obtain ⟨t1, t2, t3, t4⟩ := tell_same st (.status id (.pending m inform))
          have hf : From st id m inform := h.emitted _ (List.mem_of_getElem? he)
          have k : Keeps st { st.tell (.status id (.pending m inform)) with
              handled := st.handled + 1
              broadcasts := st.broadcasts ++ [⟨c, id, m, inform⟩] } := by
            intro x hx
            exact ⟨x, by show x ∈ (st.tell _).calls; rw [t3]; exact hx, rfl⟩
          refine h.grow k t1 ?_ ?_ (fun x hx => .inl (t4 ▸ hx))
          · intro i m' cl hi
            rcases mem_tell hi with hi | hi
            · exact .inl hi
            · injection hi with e1 e2
              injection e2 with e2 e3
              subst e1 e2 e3
              exact .inr (hf.mono k)
          · intro b hb
            rcases List.mem_append.mp hb with hb | hb
            · exact .inl hb
            · rw [List.mem_singleton.mp hb]
              exact .inr (hf.mono k)
      · rename_i id clients he
        obtain ⟨m, hf⟩ : Act st (.lost id clients) := h.emitted _ (List.mem_of_getElem? he)
        refine h.grow (Keeps.refl _) rfl (fun _ _ _ x => .inl x) (fun _ x => .inl x) ?_
        intro x hx
        rcases List.mem_append.mp hx with hx | hx
        · exact .inl hx
        · obtain ⟨h1, h2⟩ := mem_notify _ hx
          exact .inr ⟨m, clients, by rw [h1]; exact hf, h2⟩
  | poll n =>
    simp only [Wait.step, Reg.poll]
    split
    · exact h
    · split
      · split
        · exact h
        · exact h.grow (Keeps.refl _) rfl (fun _ _ _ x => .inl x) (fun _ x => .inl x) (fun _ x => .inl x)
      · exact h.grow (Keeps.refl _) rfl (fun _ _ _ x => .inl x) (fun _ x => .inl x) (fun _ x => .inl x)

theorem Named.run (su : Setup) (ops : List Op) : ∀ st, Named st → Named (run su st ops) := by
  induction ops with
  | nil => exact fun _ h => h
  | cons op ops ih => exact fun st h => ih _ (h.step su op)

theorem named_init (conns : List String) : Named { conns := conns } := by
  refine ⟨?_, ?_, ?_, ?_, ?_, ?_⟩ <;> simp [State.init]

end Verif.Acks.Wait
