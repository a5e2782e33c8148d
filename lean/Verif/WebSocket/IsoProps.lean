import Verif.WebSocket.Props

/-!
# Connections of clients do not affect each other (C170)
-/

namespace Verif.WebSocket

open Verif Verif.WebSocket.Spec

variable {H : Type}

/-! ## Specification -/

/-- What ends the task of a connection: that the socket is closed, and an empty binary frame, for
which the task panics (C16). -/
def IsoSpec.Stops : Input → Prop
  | .msg m => m = .close ∨ m = .binary []
  | .failed => True
  | .ended => True

/-- After a history the connection of a socket is being served, with an id: the socket was accepted,
and nothing was received on it since that ends the connection. -/
def IsoSpec.Open (ops : List Op) (s : Sock) (id : String) : Prop :=
  ∃ before h g after, ops = before ++ .connect s h g :: after ∧ givenId h g = id ∧
    (∀ h' g', .connect s h' g' ∉ after) ∧ ∀ i, .recv s i ∈ after → ¬ IsoSpec.Stops i

/-- The handler calls that a message means. -/
inductive IsoSpec.Meant (e : Endpoint H) (id : String) : Message → List (Dispatch H) → Prop
  | text {t v route h} : e.parse t = some v → Names e.routeKey v route → e.routes route = some h →
      IsoSpec.Meant e id (.text t) [⟨h, id, .json v⟩]
  | noText {t} : (¬ ∃ v route h, e.parse t = some v ∧ Names e.routeKey v route ∧
      e.routes route = some h) → IsoSpec.Meant e id (.text t) []
  | binary {r payload route h} : r.length ≤ 255 → e.utf8 r = some route → e.routes route = some h →
      IsoSpec.Meant e id (.binary (frame r payload)) [⟨h, id, .binary payload⟩]
  | noBinary {b} : (¬ ∃ r payload route h, b = frame r payload ∧ r.length ≤ 255 ∧
      e.utf8 r = some route ∧ e.routes route = some h) → IsoSpec.Meant e id (.binary b) []
  | close : IsoSpec.Meant e id .close []
  | ping : IsoSpec.Meant e id .ping []
  | pong : IsoSpec.Meant e id .pong []

/-- What happens on a socket. -/
def IsoSpec.on (s : Sock) : Op → Bool
  | .connect t _ _ => t == s
  | .recv t _ => t == s

/-! ## Lemmas -/

theorem snoc_cases {A : Type} {motive : List A → Prop} (nil : motive [])
    (snoc : ∀ l a, motive (l ++ [a])) (l : List A) : motive l :=
  snoc_induction nil (fun l a _ => snoc l a) l

theorem nodup_lookup {A : Type} {k : String} {v : A} : ∀ {l : List (String × A)},
    (l.map (·.1)).Nodup → (k, v) ∈ l → l.lookup k = some v
  | (k', v') :: l, hn, hm => by
    rw [List.map_cons, List.nodup_cons] at hn
    rw [List.lookup_cons]
    rcases List.mem_cons.1 hm with h | h
    · injection h with h1 h2
      rw [h1, h2, show (k' == k') = true from beq_self_eq_true k']
    · have : k ≠ k' := fun c => hn.1 (c ▸ List.mem_map_of_mem (f := (·.1)) h)
      rw [show (k == k') = false from beq_eq_false_iff_ne.2 this]
      exact nodup_lookup hn.2 h

/-- A frame is taken apart in one way. -/
theorem frame_cons (n : UInt8) (rest r payload : Bytes) (hr : r.length ≤ 255) :
    n :: rest = frame r payload ↔ n.toNat = r.length ∧ rest = r ++ payload := by
  have hn : (UInt8.ofNat r.length).toNat = r.length := by
    simp only [UInt8.toNat_ofNat']
    omega
  constructor
  · intro h
    have h : n :: rest = UInt8.ofNat r.length :: (r ++ payload) := h
    injection h with h1 h2
    exact ⟨by rw [h1, hn], h2⟩
  · rintro ⟨h1, h2⟩
    show _ = UInt8.ofNat r.length :: (r ++ payload)
    rw [h2, ← h1]
    congr 1
    exact (UInt8.ofNat_toNat).symm

/-- What `process_message` does: it panics for the empty frame, breaks for a close, and otherwise
makes the calls that the message means. -/
theorem processMessage_meant (e : Endpoint H) (hk : ∀ t v, e.parse t = some v → KeysDistinct v)
    (id : String) (m : Message) :
    (m = .binary [] ∧ processMessage e id m = .panic ∧ IsoSpec.Meant e id m []) ∨
    (m = .close ∧ processMessage e id m = .ok (.brk, []) ∧ IsoSpec.Meant e id m []) ∨
    (¬ IsoSpec.Stops (.msg m) ∧ ∃ ds, processMessage e id m = .ok (.cont (), ds) ∧
      IsoSpec.Meant e id m ds) := by
  cases m with
  | close => exact .inr (.inl ⟨rfl, rfl, .close⟩)
  | ping => exact .inr (.inr ⟨(by rintro (h | h) <;> cases h), [], rfl, .ping⟩)
  | pong => exact .inr (.inr ⟨(by rintro (h | h) <;> cases h), [], rfl, .pong⟩)
  | text t =>
    refine .inr (.inr ⟨(by rintro (h | h) <;> cases h), ?_⟩)
    obtain ⟨ds, h1, h2, h3⟩ := text_routed e id t (hk t)
    refine ⟨ds, h1, ?_⟩
    match ds, h2, h3 with
    | [], _, h3 =>
      refine .noText fun ⟨v, route, h, a, b, c⟩ => ?_
      exact absurd ((h3 ⟨h, id, .json v⟩).2 ⟨v, route, h, a, b, c, rfl⟩) (List.not_mem_nil)
    | [d], _, h3 =>
      obtain ⟨v, route, h, a, b, c, rfl⟩ := (h3 d).1 (List.mem_cons_self ..)
      exact .text a b c
    | _ :: _ :: _, h2, _ => exact absurd h2 (by simp)
  | binary b =>
    cases b with
    | nil =>
      refine .inl ⟨rfl, rfl, .noBinary ?_⟩
      rintro ⟨r, payload, route, h, hb, _⟩
      cases hb
    | cons n rest =>
      refine .inr (.inr ⟨(by rintro (h | h) <;> cases h), ?_⟩)
      by_cases hl : rest.length < n.toNat
      · refine ⟨[], binary_ignored e id n rest (.inl hl), .noBinary ?_⟩
        rintro ⟨r, payload, route, h, hb, hr, _⟩
        obtain ⟨h1, h2⟩ := (frame_cons n rest r payload hr).1 hb
        rw [h2, List.length_append] at hl
        omega
      · cases hu : e.utf8 (rest.take n.toNat) with
        | none =>
          refine ⟨[], binary_ignored e id n rest (.inr hu), .noBinary ?_⟩
          rintro ⟨r, payload, route, h, hb, hr, hu', _⟩
          obtain ⟨h1, h2⟩ := (frame_cons n rest r payload hr).1 hb
          rw [h2, h1, List.take_left'] at hu
          · rw [hu'] at hu; cases hu
          · rfl
        | some route =>
          have hlen : (rest.take n.toNat).length ≤ 255 := by
            have := n.toNat_lt
            rw [List.length_take]
            omega
          have hf : n :: rest = frame (rest.take n.toNat) (rest.drop n.toNat) :=
            (frame_cons _ _ _ _ hlen).2 ⟨by rw [List.length_take]; omega,
              (List.take_append_drop ..).symm⟩
          have hp := (binary_roundtrip e id _ (rest.drop n.toNat) route hlen hu).2
          rw [← hf] at hp
          cases hh : e.routes route with
          | some h =>
            rw [hh] at hp
            refine ⟨_, hp, ?_⟩
            rw [hf]
            exact .binary hlen hu hh
          | none =>
            rw [hh] at hp
            refine ⟨_, hp, .noBinary ?_⟩
            rintro ⟨r, payload, route', h, hb, hr, hu', hh'⟩
            obtain ⟨h1, h2⟩ := (frame_cons n rest r payload hr).1 hb
            rw [h2, h1, List.take_left'] at hu
            · rw [hu'] at hu
              injection hu with hu
              rw [hu, hh] at hh'
              cases hh'
            · rfl

theorem lookup_filter_other {A : Type} {s t : Sock} (h : t ≠ s) :
    ∀ l : List (Sock × A), (l.filter fun x => x.1 != s).lookup t = l.lookup t
  | [] => rfl
  | (u, a) :: l => by
    rw [List.filter_cons]
    split
    · rw [List.lookup_cons, List.lookup_cons, lookup_filter_other h l]
    · rename_i hu
      have : u = s := by simpa using hu
      rw [List.lookup_cons, this, show (t == s) = false from beq_eq_false_iff_ne.2 h,
        lookup_filter_other h l]

theorem lookup_filter_same {A : Type} (s : Sock) :
    ∀ l : List (Sock × A), (l.filter fun x => x.1 != s).lookup s = none
  | [] => rfl
  | (u, a) :: l => by
    rw [List.filter_cons]
    split
    · rename_i hu
      have : u ≠ s := by simpa using hu
      rw [List.lookup_cons, show (s == u) = false from beq_eq_false_iff_ne.2 (Ne.symm this),
        lookup_filter_same s l]
    · exact lookup_filter_same s l

theorem open_connect {ops : List Op} {s t : Sock} {h : Option String} {g id : String} :
    IsoSpec.Open (ops ++ [.connect t h g]) s id ↔
      (t = s ∧ givenId h g = id) ∨ (t ≠ s ∧ IsoSpec.Open ops s id) := by
  constructor
  · rintro ⟨before, h', g', after, e, hi, hc, hr⟩
    by_cases hts : t = s
    · subst hts
      cases after using snoc_cases with
      | nil =>
        have := List.append_inj' e rfl
        injection this.2 with this
        injection this with _ e1 e2
        rw [e1, e2]
        exact .inl ⟨rfl, hi⟩
      | snoc after o =>
        rw [← List.cons_append, ← List.append_assoc] at e
        have := (List.append_inj' e rfl).2
        injection this with this
        exact absurd (by rw [← this]; simp) (hc h g)
    · refine .inr ⟨hts, ?_⟩
      cases after using snoc_cases with
      | nil =>
        have := (List.append_inj' e rfl).2
        injection this with this
        injection this with this _ _
        exact absurd this hts
      | snoc after o =>
        rw [← List.cons_append, ← List.append_assoc] at e
        obtain ⟨e, _⟩ := List.append_inj' e rfl
        exact ⟨before, h', g', after, e, hi, fun a b hm => hc a b (List.mem_append_left _ hm),
          fun i hm => hr i (List.mem_append_left _ hm)⟩
  · rintro (⟨rfl, hi⟩ | ⟨hts, before, h', g', after, e, hi, hc, hr⟩)
    · exact ⟨ops, h, g, [], rfl, hi, nofun, nofun⟩
    · refine ⟨before, h', g', after ++ [.connect t h g], by rw [e]; simp, hi, ?_, ?_⟩
      · intro a b hm
        rcases List.mem_append.1 hm with hm | hm
        · exact hc a b hm
        · have := List.mem_singleton.1 hm
          injection this with this _ _
          exact hts this.symm
      · intro i hm
        rcases List.mem_append.1 hm with hm | hm
        · exact hr i hm
        · cases List.mem_singleton.1 hm

theorem open_recv {ops : List Op} {s t : Sock} {i : Input} {id : String} :
    IsoSpec.Open (ops ++ [.recv t i]) s id ↔
      IsoSpec.Open ops s id ∧ (t = s → ¬ IsoSpec.Stops i) := by
  constructor
  · rintro ⟨before, h', g', after, e, hi, hc, hr⟩
    cases after using snoc_cases with
    | nil =>
      have := (List.append_inj' e rfl).2
      injection this with this
      cases this
    | snoc after o =>
      rw [← List.cons_append, ← List.append_assoc] at e
      obtain ⟨e, e'⟩ := List.append_inj' e rfl
      injection e' with e'
      refine ⟨⟨before, h', g', after, e, hi, fun a b hm => hc a b (List.mem_append_left _ hm),
          fun i hm => hr i (List.mem_append_left _ hm)⟩, ?_⟩
      rintro rfl
      exact hr i (by rw [← e']; simp)
  · rintro ⟨⟨before, h', g', after, e, hi, hc, hr⟩, hn⟩
    refine ⟨before, h', g', after ++ [.recv t i], by rw [e]; simp, hi, ?_, ?_⟩
    · intro a b hm
      rcases List.mem_append.1 hm with hm | hm
      · exact hc a b hm
      · cases List.mem_singleton.1 hm
    · intro j hm
      rcases List.mem_append.1 hm with hm | hm
      · exact hr j hm
      · have := List.mem_singleton.1 hm
        injection this with e1 e2
        rw [e2]
        exact hn e1.symm

/-- The tasks that run are those of the connections that are served. -/
theorem tasks_open (e : Endpoint H) (hk : ∀ t v, e.parse t = some v → KeysDistinct v)
    (ops : List Op) (s : Sock) (id : String) :
    (run e ops).tasks.lookup s = some id ↔ IsoSpec.Open ops s id := by
  induction ops using snoc_induction generalizing s id with
  | nil =>
    refine ⟨nofun, ?_⟩
    rintro ⟨before, h, g, after, e, _⟩
    cases before <;> cases e
  | snoc ops op ih =>
    rw [run_snoc]
    cases op with
    | connect t h g =>
      rw [open_connect]
      show ((t, requestId h g) :: (run e ops).tasks).lookup s = some id ↔ _
      rw [List.lookup_cons, requestId_given]
      by_cases hts : t = s
      · subst hts
        rw [show (t == t) = true from beq_self_eq_true t]
        constructor
        · intro hh
          injection hh with hh
          exact .inl ⟨rfl, hh⟩
        · rintro (⟨_, hh⟩ | ⟨hh, _⟩)
          · rw [hh]
          · exact absurd rfl hh
      · rw [show (s == t) = false from beq_eq_false_iff_ne.2 (Ne.symm hts)]
        constructor
        · intro hh
          exact .inr ⟨hts, (ih s id).1 hh⟩
        · rintro (⟨hh, _⟩ | ⟨_, hh⟩)
          · exact absurd hh hts
          · exact (ih s id).2 hh
    | recv t i =>
      rw [open_recv, ← ih s id]
      cases hl : (run e ops).tasks.lookup t with
      | none =>
        rw [show step e (run e ops) (.recv t i) = run e ops by simp [step, hl]]
        refine ⟨fun hh => ⟨hh, ?_⟩, fun hh => hh.1⟩
        rintro rfl
        rw [hh] at hl
        cases hl
      | some id' =>
        have stop : ∀ st : Server H, st.tasks = (run e ops).tasks.filter (fun x => x.1 != t) →
            IsoSpec.Stops i → (st.tasks.lookup s = some id ↔
              (run e ops).tasks.lookup s = some id ∧ (t = s → ¬ IsoSpec.Stops i)) := by
          intro st h1 h2
          rw [h1]
          by_cases hts : t = s
          · subst hts
            rw [lookup_filter_same]
            exact ⟨nofun, fun hh => absurd h2 (hh.2 rfl)⟩
          · rw [lookup_filter_other (Ne.symm hts)]
            exact ⟨fun hh => ⟨hh, fun h => absurd h hts⟩, fun hh => hh.1⟩
        cases i with
        | failed => exact stop _ (by simp [step, hl]) trivial
        | ended => exact stop _ (by simp [step, hl]) trivial
        | msg m =>
          rcases processMessage_meant e hk id' m with ⟨h1, h2, _⟩ | ⟨h1, h2, _⟩ | ⟨h1, ds, h2, _⟩
          · exact stop _ (by simp [step, hl, h2]) (.inr h1)
          · exact stop _ (by simp [step, hl, h2]) (.inl h1)
          · rw [show (step e (run e ops) (.recv t (.msg m))).tasks = (run e ops).tasks by
              simp [step, hl, h2]]
            exact ⟨fun hh => ⟨hh, fun _ => h1⟩, fun hh => hh.1⟩

/-! ## C170 -/

/-- C170, each step: a message that is received on a connection that is being served leads to the
calls that it means, with the id of that connection; nothing else leads to a call. -/
theorem calls_step (e : Endpoint H) (hk : ∀ t v, e.parse t = some v → KeysDistinct v)
    (ops : List Op) (op : Op) :
    ∃ ds, (run e (ops ++ [op])).dispatched = (run e ops).dispatched ++ ds ∧
      ((∃ s m id, op = .recv s (.msg m) ∧ IsoSpec.Open ops s id ∧ IsoSpec.Meant e id m ds) ∨
        ((¬ ∃ s m id, op = .recv s (.msg m) ∧ IsoSpec.Open ops s id) ∧ ds = [])) := by
  rw [run_snoc]
  cases op with
  | connect t h g =>
    refine ⟨[], (List.append_nil _).symm, .inr ⟨?_, rfl⟩⟩
    rintro ⟨s, m, id, hh, _⟩
    cases hh
  | recv t i =>
    cases hl : (run e ops).tasks.lookup t with
    | none =>
      refine ⟨[], by simp [step, hl], .inr ⟨?_, rfl⟩⟩
      rintro ⟨s, m, id, hh, ho⟩
      injection hh with hh _
      subst hh
      rw [(tasks_open e hk ops t id).2 ho] at hl
      cases hl
    | some id =>
      have ho := (tasks_open e hk ops t id).1 hl
      cases i with
      | failed =>
        refine ⟨[], by simp [step, hl], .inr ⟨?_, rfl⟩⟩
        rintro ⟨s, m, id, hh, _⟩
        cases hh
      | ended =>
        refine ⟨[], by simp [step, hl], .inr ⟨?_, rfl⟩⟩
        rintro ⟨s, m, id, hh, _⟩
        cases hh
      | msg m =>
        rcases processMessage_meant e hk id m with ⟨h1, h2, h3⟩ | ⟨h1, h2, h3⟩ | ⟨h1, ds, h2, h3⟩
        · exact ⟨[], by simp [step, hl, h2], .inl ⟨t, m, id, rfl, ho, h3⟩⟩
        · exact ⟨[], by simp [step, hl, h2], .inl ⟨t, m, id, rfl, ho, h3⟩⟩
        · exact ⟨ds, by simp [step, hl, h2], .inl ⟨t, m, id, rfl, ho, h3⟩⟩

/-- A message means one thing. -/
theorem meant_unique (e : Endpoint H) (hk : ∀ t v, e.parse t = some v → KeysDistinct v) {id : String}
    {m : Message} {ds ds' : List (Dispatch H)} (h : IsoSpec.Meant e id m ds)
    (h' : IsoSpec.Meant e id m ds') : ds = ds' := by
  have frames : ∀ {r p r' p' : Bytes}, r.length ≤ 255 → r'.length ≤ 255 →
      frame r p = frame r' p' → r = r' ∧ p = p' := by
    intro r p r' p' h1 h2 hf
    have hf' : UInt8.ofNat r.length :: (r ++ p) = frame r' p' := hf
    obtain ⟨a, b⟩ := (frame_cons _ _ _ _ h2).1 hf'
    have : r.length = r'.length := by
      rw [← a]
      simp only [UInt8.toNat_ofNat']
      omega
    exact List.append_inj b this
  cases h with
  | text a b c =>
    cases h' with
    | noText n => exact absurd ⟨_, _, _, a, b, c⟩ n
    | text a' b' c' =>
      rw [a] at a'
      injection a' with a'
      subst a'
      obtain ⟨f, rfl, hm⟩ := b
      obtain ⟨f', hf, hm'⟩ := b'
      injection hf with hf
      subst hf
      have hd : (f.map (·.1)).Nodup := hk _ _ a
      have := nodup_lookup hd hm
      rw [nodup_lookup hd hm'] at this
      injection this with this
      injection this with this
      subst this
      rw [c] at c'
      injection c' with c'
      rw [c']
  | noText n =>
    cases h' with
    | noText _ => rfl
    | text a b c => exact absurd ⟨_, _, _, a, b, c⟩ n
  | close => cases h'; rfl
  | ping => cases h'; rfl
  | pong => cases h'; rfl
  | noBinary n =>
    generalize hm : Message.binary _ = m at h'
    cases h' with
    | noBinary _ => rfl
    | binary a b c =>
      injection hm with hm
      exact absurd ⟨_, _, _, _, hm, a, b, c⟩ n
    | _ => cases hm
  | binary a b c =>
    generalize hm : Message.binary _ = m at h'
    cases h' with
    | noBinary n =>
      injection hm with hm
      exact absurd ⟨_, _, _, _, hm.symm, a, b, c⟩ n
    | binary a' b' c' =>
      injection hm with hm
      obtain ⟨rfl, rfl⟩ := frames a a' hm
      rw [b] at b'
      injection b' with b'
      subst b'
      rw [c] at c'
      injection c' with c'
      rw [c']
    | _ => cases hm

/-- The calls that a message means are for its connection. -/
theorem meant_id {e : Endpoint H} {id : String} {m : Message} {ds : List (Dispatch H)}
    (h : IsoSpec.Meant e id m ds) : ∀ d ∈ ds, d.connectionId = id := by
  cases h <;> intro d hd <;>
    first
    | (cases hd; done)
    | (rw [List.mem_singleton.1 hd])

/-- Whether a connection is being served depends on what happens on its socket only. -/
theorem open_own (s : Sock) (id : String) (ops : List Op) :
    IsoSpec.Open (ops.filter (IsoSpec.on s)) s id ↔ IsoSpec.Open ops s id := by
  induction ops using snoc_induction generalizing id with
  | nil => exact Iff.rfl
  | snoc ops op ih =>
    rw [List.filter_append]
    cases op with
    | connect t h g =>
      rw [open_connect]
      by_cases hts : t = s
      · subst hts
        rw [show [Op.connect t h g].filter (IsoSpec.on t) = [Op.connect t h g] by
          simp [IsoSpec.on], open_connect, ih]
      · rw [show [Op.connect t h g].filter (IsoSpec.on s) = [] by simp [IsoSpec.on, hts],
          List.append_nil, ih]
        exact ⟨fun hh => .inr ⟨hts, hh⟩, fun hh => (hh.resolve_left fun c => hts c.1).2⟩
    | recv t i =>
      rw [open_recv]
      by_cases hts : t = s
      · subst hts
        rw [show [Op.recv t i].filter (IsoSpec.on t) = [Op.recv t i] by
          simp [IsoSpec.on], open_recv, ih]
      · rw [show [Op.recv t i].filter (IsoSpec.on s) = [] by simp [IsoSpec.on, hts],
          List.append_nil, ih]
        exact ⟨fun hh => ⟨hh, fun c => absurd c hts⟩, fun hh => hh.1⟩

/-- C170: if no other client is given the id of a connection, the handler calls with that id, and
their order, are those that there would be without the other clients. -/
theorem isolated (e : Endpoint H) (hk : ∀ t v, e.parse t = some v → KeysDistinct v) (s : Sock)
    (id : String) (ops : List Op)
    (hown : ∀ t h g, .connect t h g ∈ ops → (givenId h g = id ↔ t = s)) :
    (run e ops).dispatched.filter (fun d => d.connectionId == id) =
      (run e (ops.filter (IsoSpec.on s))).dispatched := by
  induction ops using snoc_induction with
  | nil => rfl
  | snoc ops op ih =>
    have ih := ih fun t h g hm => hown t h g (List.mem_append_left _ hm)
    have own : ∀ {t id'}, IsoSpec.Open ops t id' → (id' = id ↔ t = s) := by
      rintro t id' ⟨b, h, g, a, e, hi, _⟩
      rw [← hi]
      exact hown t h g (by rw [e]; simp)
    obtain ⟨ds, h1, h2⟩ := calls_step e hk ops op
    rw [h1, List.filter_append, ih, List.filter_append]
    by_cases hop : IsoSpec.on s op = true
    · rw [show [op].filter (IsoSpec.on s) = [op] by simp [hop]]
      obtain ⟨ds', h1', h2'⟩ := calls_step e hk (ops.filter (IsoSpec.on s)) op
      rw [h1']
      congr 1
      rcases h2 with ⟨t, m, id', rfl, ho, hm⟩ | ⟨hn, rfl⟩
      · have hts : t = s := by simpa [IsoSpec.on] using hop
        subst hts
        have hid := (own ho).2 rfl
        subst hid
        rcases h2' with ⟨t', m', id'', e', ho', hm'⟩ | ⟨hn', _⟩
        · injection e' with e1 e2
          subst e1
          injection e2 with e2
          subst e2
          have := (own ((open_own t id'' ops).1 ho')).2 rfl
          subst this
          rw [meant_unique e hk hm hm', List.filter_eq_self]
          intro d hd
          exact beq_iff_eq.2 (meant_id hm' d hd)
        · exact absurd ⟨t, m, id', rfl, (open_own t id' ops).2 ho⟩ hn'
      · rcases h2' with ⟨t', m', id'', rfl, ho', hm'⟩ | ⟨_, rfl⟩
        · have hts : t' = s := by simpa [IsoSpec.on] using hop
          subst hts
          exact absurd ⟨t', m', id'', rfl, (open_own t' id'' ops).1 ho'⟩ hn
        · rfl
    · rw [show [op].filter (IsoSpec.on s) = [] by simp [hop], List.append_nil]
      have : ds.filter (fun d => d.connectionId == id) = [] := by
        rcases h2 with ⟨t, m, id', rfl, ho, hm⟩ | ⟨_, rfl⟩
        · rw [List.filter_eq_nil_iff]
          intro d hd hc
          have h3 := (own ho).1 ((meant_id hm d hd).symm.trans (beq_iff_eq.1 hc))
          exact hop (by simp [IsoSpec.on, h3])
        · rfl
      rw [this, List.append_nil]

/-- A history with two clients, the second of which makes its task panic. -/
def isoOps : List Op :=
  [.connect 1 none "a", .connect 2 none "b", .recv 1 (.msg (.text "m")), .recv 2 (.msg (.binary [])),
    .recv 1 (.msg (.binary [2, 104, 105, 0])), .recv 2 (.msg (.text "m"))]

/-- `isolated` of the example: both messages of the first client are handled. -/
example : ((run exampleEndpoint isoOps).dispatched.filter (fun d => d.connectionId == "a")).map
      (fun d => (d.handler, d.connectionId)) = [(7, "a"), (8, "a")] ∧
    (run exampleEndpoint isoOps).dispatched.filter (fun d => d.connectionId == "a") =
      (run exampleEndpoint (isoOps.filter (IsoSpec.on 1))).dispatched := by
  refine ⟨by decide, isolated exampleEndpoint ?_ 1 "a" isoOps ?_⟩
  · intro t v h
    unfold exampleEndpoint at h
    simp only at h
    split at h
    · injection h with h
      subst h
      show List.Nodup ["x", "event"]
      decide
    · cases h
  · intro t h g hm
    rcases List.mem_cons.1 hm with hm | hm
    · injection hm with h1 h2 h3
      subst h1; subst h2; subst h3
      decide
    · rcases List.mem_cons.1 hm with hm | hm
      · injection hm with h1 h2 h3
        subst h1; subst h2; subst h3
        decide
      · simp at hm

/-- The second client is not served any more, the first one is. -/
example : (run exampleEndpoint isoOps).tasks = [(1, "a")] := by decide

end Verif.WebSocket
