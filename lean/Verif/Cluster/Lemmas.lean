import Verif.Cluster.Spec
import Verif.Assoc

/-! # Lemmas for the cluster properties -/

namespace Verif.Cluster

open Spec Verif.Assoc

@[simp] theorem upd_self {α : Type} (f : Nat → α) (i : Nat) (v : α) : upd f i v i = v := by
  simp [upd]

theorem upd_ne {α : Type} (f : Nat → α) (i k : Nat) (v : α) (h : k ≠ i) : upd f i v k = f k := by
  simp [upd, h]

/-- Is this a broadcast of the message? -/
def isMsg (id : String) : Body → Bool
  | .webSocket _ id' _ _ => id' == id
  | .ack _ _ => false

/-- Is this an acknowledgement of the message? -/
def isAck (id : String) : Body → Bool
  | .webSocket _ _ _ _ => false
  | .ack id' _ => id' == id

theorem run_snoc (su : Setup) (ops : List Op) (op : Op) :
    run su (ops ++ [op]) = step su (run su ops) op := by simp [run]

theorem sends_append (id : String) (a b : List Op) : sends id (a ++ b) = sends id a + sends id b := by
  induction a with
  | nil => simp [sends]
  | cons o a ih => cases o <;> simp [sends, ih, Nat.add_assoc]

/-- The invariant for one message sent by node `i` to a connection that is open only on another
node `j`. `s` is the number of times it has been sent. -/
structure Inv (su : Setup) (i j : Nat) (c id m : String) (s : Nat) (st : State) : Prop where
  outMsg : ∀ k b, b ∈ st.outgoing k → isMsg id b = true →
    k = i ∧ b = .webSocket c id (su.name i) m
  outAck : ∀ k b, b ∈ st.outgoing k → isAck id b = true → k = j ∧ b = .ack id (su.name i)
  inMsg : ∀ k w, w ∈ st.incoming k → isMsg id w.message = true →
    w = ⟨su.name i, .webSocket c id (su.name i) m⟩
  inAck : ∀ k w, w ∈ st.incoming k → isAck id w.message = true →
    w = ⟨su.name j, .ack id (su.name i)⟩
  wr : ∀ w, w ∈ st.writes → w.messageId = id → w.node = j ∧ w.connection = c ∧ w.message = m
  recv : ∀ k, k < su.n → k ≠ i → id ∉ st.received k
  msgs : (st.outgoing i).countP (isMsg id) + (st.incoming j).countP (fun w => isMsg id w.message) +
    (writesOf id st).length = s
  acks : (st.outgoing j).countP (isAck id) + (st.incoming i).countP (fun w => isAck id w.message) +
    told id st i = (writesOf id st).length

theorem inv_init (su : Setup) (i j : Nat) (c id m : String) : Inv su i j c id m 0 .init := by
  constructor <;> simp [State.init, writesOf, told]

theorem inv_step (su : Setup) (i j : Nat) (c id m : String) (s : Nat) (st : State) (op : Op)
    (hn : DistinctNames su) (ho : OpenOnlyOn su c j) (hi : i < su.n) (hij : i ≠ j)
    (hs : ∀ k c' m' ok, op = .send k c' id m' ok → k = i ∧ c' = c ∧ m' = m)
    (h : Inv su i j c id m s st) : Inv su i j c id m (s + sends id [op]) (step su st op) := by
  obtain ⟨hj, hcj, honly⟩ := ho
  have hname : su.name i ≠ su.name j := fun e => hij (hn i j hi hj e)
  have hci : c ∉ su.conns i := fun e => hij (honly i hi e)
  cases op with
  | send k c' id' m' ok =>
    by_cases hid : id' = id
    · subst hid
      obtain ⟨rfl, rfl, rfl⟩ := hs k c' m' ok rfl
      simp only [step, hi, if_true, send, List.contains_eq_mem, hci, decide_false,
        Bool.false_eq_true, if_false, sends]
      obtain ⟨h1, h2, h3, h4, h5, h6, h7, h8⟩ := h
      constructor
      · intro k' b hb hm
        by_cases hk : k' = k
        · subst hk
          simp only [upd_self, List.mem_append, List.mem_singleton] at hb
          rcases hb with hb | hb
          · exact h1 _ b hb hm
          · exact ⟨rfl, hb⟩
        · simp only [upd_ne _ _ _ _ hk] at hb
          exact h1 k' b hb hm
      · intro k' b hb hm
        by_cases hk : k' = k
        · subst hk
          simp only [upd_self, List.mem_append, List.mem_singleton] at hb
          rcases hb with hb | hb
          · exact h2 _ b hb hm
          · subst hb; simp [isAck] at hm
        · simp only [upd_ne _ _ _ _ hk] at hb
          exact h2 k' b hb hm
      · exact h3
      · exact h4
      · exact h5
      · exact h6
      · simp only [upd_self, List.countP_append, List.countP_singleton, isMsg, writesOf] at h7 ⊢
        simp
        omega
      · simp only [upd_ne _ _ _ _ (Ne.symm hij)]
        exact h8
    · have hz : sends id [Op.send k c' id' m' ok] = 0 := by simp [sends, hid]
      rw [hz, Nat.add_zero]
      simp only [step]
      by_cases hk : k < su.n
      · simp only [hk, if_true, send]
        by_cases hc : (su.conns k).contains c' = true
        · simp only [hc, if_true]
          obtain ⟨h1, h2, h3, h4, h5, h6, h7, h8⟩ := h
          have hw : ∀ x : State, x.writes = st.writes ++ [⟨k, c', id', m', ok⟩] →
              writesOf id x = writesOf id st := by
            intro x hx; simp [writesOf, hx, hid]
          constructor
          · exact h1
          · exact h2
          · exact h3
          · exact h4
          · intro w hw hwid
            simp only [List.mem_append, List.mem_singleton] at hw
            rcases hw with hw | hw
            · exact h5 w hw hwid
            · subst hw; exact absurd hwid hid
          · exact h6
          · rw [hw _ rfl]; exact h7
          · rw [hw _ rfl]; exact h8
        · have hc' : (su.conns k).contains c' = false := by simpa using hc
          simp only [hc', Bool.false_eq_true, if_false]
          obtain ⟨h1, h2, h3, h4, h5, h6, h7, h8⟩ := h
          have hcount : ∀ x (p : Body → Bool),
              p (.webSocket c' id' (su.name k) m') = false →
              (upd st.outgoing k (st.outgoing k ++ [.webSocket c' id' (su.name k) m']) x).countP p =
                (st.outgoing x).countP p := by
            intro x p hp
            by_cases hx : x = k
            · subst hx; simp [hp]
            · rw [upd_ne _ _ _ _ hx]
          have hmem : ∀ x b (p : Body → Bool),
              p (.webSocket c' id' (su.name k) m') = false →
              b ∈ upd st.outgoing k (st.outgoing k ++ [.webSocket c' id' (su.name k) m']) x →
              p b = true → b ∈ st.outgoing x := by
            intro x b p hp hb hpb
            by_cases hx : x = k
            · subst hx
              simp only [upd_self, List.mem_append, List.mem_singleton] at hb
              rcases hb with hb | hb
              · exact hb
              · subst hb; rw [hp] at hpb; simp at hpb
            · rwa [upd_ne _ _ _ _ hx] at hb
          have hp1 : isMsg id (.webSocket c' id' (su.name k) m') = false := by simp [isMsg, hid]
          have hp2 : isAck id (.webSocket c' id' (su.name k) m') = false := rfl
          constructor
          · intro x b hb hm; exact h1 x b (hmem x b _ hp1 hb hm) hm
          · intro x b hb hm; exact h2 x b (hmem x b _ hp2 hb hm) hm
          · exact h3
          · exact h4
          · exact h5
          · exact h6
          · simp only [hcount _ _ hp1]; exact h7
          · simp only [hcount _ _ hp2]; exact h8
      · simp only [hk, if_false]; exact h
  | publish k =>
    simp only [sends, Nat.add_zero, step]
    by_cases hk : k < su.n
    · simp only [hk, if_true, publish]
      cases hout : st.outgoing k with
      | nil => exact h
      | cons b rest =>
        obtain ⟨h1, h2, h3, h4, h5, h6, h7, h8⟩ := h
        have hsub : ∀ x b', b' ∈ upd st.outgoing k rest x → b' ∈ st.outgoing x := by
          intro x b' hb'
          by_cases hx : x = k
          · subst hx; rw [hout]; simp only [upd_self] at hb'; exact List.mem_cons_of_mem _ hb'
          · rwa [upd_ne _ _ _ _ hx] at hb'
        have hin : ∀ x w, w ∈ (if x < su.n then st.incoming x ++ [⟨su.name k, b⟩]
            else st.incoming x) → w ∈ st.incoming x ∨ w = ⟨su.name k, b⟩ := by
          intro x w hw
          split at hw
          · simpa using hw
          · exact Or.inl hw
        have hbk : b ∈ st.outgoing k := by rw [hout]; simp
        constructor
        · intro x b' hb' hm; exact h1 x b' (hsub x b' hb') hm
        · intro x b' hb' hm; exact h2 x b' (hsub x b' hb') hm
        · intro x w hw hm
          rcases hin x w hw with hw | rfl
          · exact h3 x w hw hm
          · obtain ⟨rfl, hb⟩ := h1 k b hbk hm
            simp [hb]
        · intro x w hw hm
          rcases hin x w hw with hw | rfl
          · exact h4 x w hw hm
          · obtain ⟨rfl, hb⟩ := h2 k b hbk hm
            simp [hb]
        · exact h5
        · exact h6
        · simp only [hj, if_true, List.countP_append, List.countP_singleton]
          change _ + _ + (writesOf id st).length = s
          cases hb : isMsg id b with
          | true =>
            obtain ⟨rfl, _⟩ := h1 k b hbk hb
            rw [hout, List.countP_cons] at h7
            simp only [hb, if_true] at h7
            simp only [upd_self, if_true]
            omega
          | false =>
            have : (upd st.outgoing k rest i).countP (isMsg id) =
                (st.outgoing i).countP (isMsg id) := by
              by_cases hx : i = k
              · subst hx; rw [upd_self, hout, List.countP_cons]; simp [hb]
              · rw [upd_ne _ _ _ _ hx]
            rw [this]; simpa using h7
        · simp only [hi, if_true, List.countP_append, List.countP_singleton]
          change _ + _ + told id st i = (writesOf id st).length
          cases hb : isAck id b with
          | true =>
            obtain ⟨rfl, _⟩ := h2 k b hbk hb
            rw [hout, List.countP_cons] at h8
            simp only [hb, if_true] at h8
            simp only [upd_self, if_true]
            omega
          | false =>
            have : (upd st.outgoing k rest j).countP (isAck id) =
                (st.outgoing j).countP (isAck id) := by
              by_cases hx : j = k
              · subst hx; rw [upd_self, hout, List.countP_cons]; simp [hb]
              · rw [upd_ne _ _ _ _ hx]
            rw [this]; simpa using h8
    · simp only [hk, if_false]; exact h
  | deliver k ok =>
    simp only [sends, Nat.add_zero, step]
    by_cases hk : k < su.n
    · simp only [hk, if_true, deliver]
      cases hinc : st.incoming k with
      | nil => exact h
      | cons w rest =>
        dsimp only
        obtain ⟨h1, h2, h3, h4, h5, h6, h7, h8⟩ := h
        have hwk : w ∈ st.incoming k := by rw [hinc]; simp
        have hsub : ∀ x w', w' ∈ upd st.incoming k rest x → w' ∈ st.incoming x := by
          intro x w' hw'
          by_cases hx : x = k
          · subst hx; rw [hinc]; simp only [upd_self] at hw'; exact List.mem_cons_of_mem _ hw'
          · rwa [upd_ne _ _ _ _ hx] at hw'
        have hcnt : ∀ x (p : Wire → Bool), (x = k → p w = false) →
            (upd st.incoming k rest x).countP p = (st.incoming x).countP p := by
          intro x p hp
          by_cases hx : x = k
          · rw [hx, upd_self, hinc, List.countP_cons, hp hx]; simp
          · rw [upd_ne _ _ _ _ hx]
        -- a message that changes nothing for this id
        have dropped : (isMsg id w.message = true → k ≠ j) → (isAck id w.message = true → k ≠ i) →
            Inv su i j c id m s { st with incoming := upd st.incoming k rest } := by
          intro hd1 hd2
          have e1 : (upd st.incoming k rest j).countP (fun w => isMsg id w.message) =
              (st.incoming j).countP (fun w => isMsg id w.message) := by
            apply hcnt
            intro hx
            cases hmm : isMsg id w.message with
            | false => rfl
            | true => exact absurd hx.symm (hd1 hmm)
          have e2 : (upd st.incoming k rest i).countP (fun w => isAck id w.message) =
              (st.incoming i).countP (fun w => isAck id w.message) := by
            apply hcnt
            intro hx
            cases hmm : isAck id w.message with
            | false => rfl
            | true => exact absurd hx.symm (hd2 hmm)
          constructor
          · exact h1
          · exact h2
          · intro x w' hw' hm; exact h3 x w' (hsub x w' hw') hm
          · intro x w' hw' hm; exact h4 x w' (hsub x w' hw') hm
          · exact h5
          · exact h6
          · simp only [e1]; exact h7
          · simp only [e2]; exact h8
        obtain ⟨src, body⟩ := w
        cases body with
        | webSocket c' id' s' m' =>
          by_cases hid : id' = id
          · subst hid
            have hw := h3 k _ hwk (by simp [isMsg])
            simp only [Wire.mk.injEq, Body.webSocket.injEq] at hw
            obtain ⟨rfl, rfl, _, rfl, rfl⟩ := hw
            by_cases hkj : k = j
            · subst hkj
              have hacc : accepts (su.name k) ⟨su.name i, .webSocket c' id' (su.name i) m'⟩ = true := by
                simp [accepts, hname]
              have hrec : id' ∉ st.received k := h6 k hj (Ne.symm hij)
              simp only [hacc, if_true, handle, List.contains_eq_mem, hrec, decide_false,
                Bool.false_eq_true, if_false, hcj, decide_true]
              constructor
              · intro x b hb hm
                apply h1 x b _ hm
                by_cases hx : x = k
                · subst hx
                  simp only [upd_self, List.mem_append, List.mem_singleton] at hb
                  rcases hb with hb | hb
                  · exact hb
                  · subst hb; simp [isMsg] at hm
                · simp only [upd_ne _ _ _ _ hx] at hb; exact hb
              · intro x b hb hm
                by_cases hx : x = k
                · subst hx
                  simp only [upd_self, List.mem_append, List.mem_singleton] at hb
                  rcases hb with hb | hb
                  · exact h2 _ b hb hm
                  · exact ⟨rfl, hb⟩
                · simp only [upd_ne _ _ _ _ hx] at hb
                  exact h2 x b hb hm
              · intro x w' hw' hm; exact h3 x w' (hsub x w' hw') hm
              · intro x w' hw' hm; exact h4 x w' (hsub x w' hw') hm
              · intro w hw hwid
                simp only [List.mem_append, List.mem_singleton] at hw
                rcases hw with hw | hw
                · exact h5 w hw hwid
                · subst hw; exact ⟨rfl, rfl, rfl⟩
              · exact h6
              · have e : (st.incoming k).countP (fun w => isMsg id' w.message) =
                    rest.countP (fun w => isMsg id' w.message) + 1 := by
                  rw [hinc, List.countP_cons]; simp [isMsg]
                simp only [upd_self, upd_ne _ _ _ _ hij, writesOf, List.filter_append,
                  List.length_append]
                simp only [writesOf] at h7
                simp
                omega
              · have e2 : (upd st.incoming k rest i).countP (fun w => isAck id' w.message) =
                    (st.incoming i).countP (fun w => isAck id' w.message) :=
                  hcnt i _ (fun hx => absurd hx hij)
                have e3 : [Body.ack id' (su.name i)].countP (isAck id') = 1 := by simp [isAck]
                have e4 : ([⟨k, c', id', m', ok⟩] : List Write).filter
                    (fun w => w.messageId == id') = [⟨k, c', id', m', ok⟩] := by simp
                simp only [upd_self, List.countP_append, e2, e3, e4, writesOf, List.filter_append,
                  List.length_append, told, List.length_singleton]
                simp only [writesOf, told] at h8
                omega
            · -- another node: filtered, skipped or not hosting
              have hck : c' ∉ su.conns k := fun e => hkj (honly k hk e)
              have : (if accepts (su.name k) ⟨su.name i, .webSocket c' id' (su.name i) m'⟩ = true then
                  handle su { st with incoming := upd st.incoming k rest } k ok
                    (.webSocket c' id' (su.name i) m')
                  else { st with incoming := upd st.incoming k rest }) =
                  { st with incoming := upd st.incoming k rest } := by
                split
                · simp only [handle, List.contains_eq_mem, hck, decide_false, Bool.false_eq_true,
                    if_false]
                  split <;> rfl
                · rfl
              simp only [this]
              exact dropped (fun _ => hkj) (by simp [isAck])
          · have hd := dropped (by simp [isMsg, hid]) (by simp [isAck])
            split
            · simp only [handle]
              split
              · exact hd
              · split
                · obtain ⟨g1, g2, g3, g4, g5, g6, g7, g8⟩ := hd
                  have hpm : isMsg id (.ack id' s') = false := rfl
                  have hpa : isAck id (.ack id' s') = false := by simp [isAck, hid]
                  have hcount : ∀ x (p : Body → Bool), p (.ack id' s') = false →
                      (upd st.outgoing k (st.outgoing k ++ [.ack id' s']) x).countP p =
                        (st.outgoing x).countP p := by
                    intro x p hp
                    by_cases hx : x = k
                    · subst hx; simp [hp]
                    · rw [upd_ne _ _ _ _ hx]
                  have hmem : ∀ x b (p : Body → Bool), p (.ack id' s') = false →
                      b ∈ upd st.outgoing k (st.outgoing k ++ [.ack id' s']) x →
                      p b = true → b ∈ st.outgoing x := by
                    intro x b p hp hb hpb
                    by_cases hx : x = k
                    · subst hx
                      simp only [upd_self, List.mem_append, List.mem_singleton] at hb
                      rcases hb with hb | hb
                      · exact hb
                      · subst hb; rw [hp] at hpb; simp at hpb
                    · rwa [upd_ne _ _ _ _ hx] at hb
                  have hwr : ∀ x : State, x.writes = st.writes ++ [⟨k, c', id', m', ok⟩] →
                      writesOf id x = writesOf id st := by
                    intro x hx; simp [writesOf, hx, hid]
                  constructor
                  · intro x b hb hm; exact g1 x b (hmem x b _ hpm hb hm) hm
                  · intro x b hb hm; exact g2 x b (hmem x b _ hpa hb hm) hm
                  · exact g3
                  · exact g4
                  · intro w hw hwid
                    simp only [List.mem_append, List.mem_singleton] at hw
                    rcases hw with hw | hw
                    · exact h5 w hw hwid
                    · subst hw; exact absurd hwid hid
                  · exact g6
                  · rw [hwr _ rfl]; simp only [hcount _ _ hpm]; exact g7
                  · rw [hwr _ rfl]; simp only [hcount _ _ hpa]; exact g8
                · exact hd
            · exact hd
        | ack id' node =>
          by_cases hid : id' = id
          · subst hid
            have hw := h4 k _ hwk (by simp [isAck])
            simp only [Wire.mk.injEq, Body.ack.injEq, true_and] at hw
            obtain ⟨rfl, rfl⟩ := hw
            by_cases hki : k = i
            · subst hki
              have hacc : accepts (su.name k) ⟨su.name j, .ack id' (su.name k)⟩ = true := by
                simp [accepts, Ne.symm hname]
              simp only [hacc, if_true, handle]
              constructor
              · exact h1
              · exact h2
              · intro x w' hw' hm; exact h3 x w' (hsub x w' hw') hm
              · intro x w' hw' hm; exact h4 x w' (hsub x w' hw') hm
              · exact h5
              · intro x hx hxk
                simp only [upd_ne _ _ _ _ hxk]
                exact h6 x hx hxk
              · have e1 : (upd st.incoming k rest j).countP (fun w => isMsg id' w.message) =
                    (st.incoming j).countP (fun w => isMsg id' w.message) :=
                  hcnt j _ (fun hx => absurd hx.symm hij)
                simp only [e1]
                exact h7
              · have e : (st.incoming k).countP (fun w => isAck id' w.message) =
                    rest.countP (fun w => isAck id' w.message) + 1 := by
                  rw [hinc, List.countP_cons]; simp [isAck]
                simp only [upd_self, told, List.count_append, List.count_singleton]
                simp only [told] at h8
                change _ = (writesOf id' st).length
                simp
                omega
            · have hacc : accepts (su.name k) ⟨su.name j, .ack id' (su.name i)⟩ = false := by
                have : su.name i ≠ su.name k := fun e => hki (hn k i hk hi e.symm)
                simp [accepts, this]
              simp only [hacc, Bool.false_eq_true, if_false]
              exact dropped (by simp [isMsg]) (fun _ => hki)
          · have hd := dropped (by simp [isMsg]) (by simp [isAck, hid])
            split
            · simp only [handle]
              obtain ⟨g1, g2, g3, g4, g5, g6, g7, g8⟩ := hd
              constructor
              · exact g1
              · exact g2
              · exact g3
              · exact g4
              · exact g5
              · intro x hx hxi
                by_cases hxk : x = k
                · subst hxk
                  simp only [upd_self, List.mem_append, List.mem_singleton, not_or]
                  exact ⟨h6 x hx hxi, Ne.symm hid⟩
                · simp only [upd_ne _ _ _ _ hxk]
                  exact h6 x hx hxi
              · exact g7
              · have : told id
                    { st with
                      incoming := upd st.incoming k rest
                      received := upd st.received k (st.received k ++ [id']) } i = told id st i := by
                  simp only [told]
                  by_cases hxk : i = k
                  · subst hxk; simp [hid]
                  · rw [upd_ne _ _ _ _ hxk]
                rw [this]
                exact g8
            · exact hd
    · simp only [hk, if_false]; exact h

theorem inv_run (su : Setup) (i j : Nat) (c id m : String) (ops : List Op)
    (hn : DistinctNames su) (ho : OpenOnlyOn su c j) (hi : i < su.n) (hij : i ≠ j)
    (hs : OnlySentBy ops i c id m) : Inv su i j c id m (sends id ops) (run su ops) := by
  induction ops using snoc_induction with
  | nil => exact inv_init su i j c id m
  | snoc ops op ih =>
    rw [run_snoc, sends_append]
    apply inv_step su i j c id m _ _ op hn ho hi hij
    · intro k c' m' ok h
      exact hs k c' m' ok (by simp [h])
    · apply ih
      intro k c' m' ok h
      exact hs k c' m' ok (by simp [h])

end Verif.Cluster
