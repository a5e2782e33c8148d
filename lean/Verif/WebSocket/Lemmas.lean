import Verif.WebSocket.Spec
import Verif.WebSocket.Lock

namespace Verif.WebSocket

open Spec

variable {H : Type}

theorem lookup_mem {K V : Type} [BEq K] [LawfulBEq K] (k : K) (m : List (K × V)) (v : V)
    (h : m.lookup k = some v) : (k, v) ∈ m := by
  induction m with
  | nil => simp at h
  | cons kv m ih =>
    obtain ⟨k', v'⟩ := kv
    rw [List.lookup_cons] at h
    cases hk : k == k' with
    | true => rw [hk] at h; simp at h hk; simp [h, hk]
    | false => rw [hk] at h; exact List.mem_cons_of_mem _ (ih h)

theorem lookup_of_mem {K V : Type} [BEq K] [LawfulBEq K] (k : K) (m : List (K × V)) (v : V)
    (hn : (m.map (·.1)).Nodup) (h : (k, v) ∈ m) : m.lookup k = some v := by
  induction m with
  | nil => simp at h
  | cons kv m ih =>
    obtain ⟨k', v'⟩ := kv
    simp only [List.map_cons, List.nodup_cons] at hn
    rw [List.lookup_cons]
    simp only [List.mem_cons, Prod.mk.injEq] at h
    rcases h with ⟨rfl, rfl⟩ | h
    · simp
    · have hk : (k == k') = false := by
        rw [beq_eq_false_iff_ne]
        rintro rfl
        exact hn.1 (List.mem_map_of_mem (f := (·.1)) h)
      rw [hk]
      exact ih hn.2 h

theorem lookup_filter_ne {K V : Type} [BEq K] [LawfulBEq K] (k j : K) (m : List (K × V))
    (h : k ≠ j) : (m.filter (fun kv => kv.1 != j)).lookup k = m.lookup k := by
  induction m with
  | nil => rfl
  | cons kv m ih =>
    obtain ⟨k', v⟩ := kv
    cases hk : k' != j with
    | false =>
      have hkj : k' = j := by simpa using hk
      have : (k == k') = false := by rw [hkj]; simpa using h
      simp [List.filter_cons, List.lookup_cons, hk, this, ih]
    | true => simp only [List.filter_cons, hk, if_true, List.lookup_cons, ih]

theorem lookup_none_of_not_mem {K V : Type} [BEq K] [LawfulBEq K] (k : K) (m : List (K × V))
    (h : k ∉ m.map (·.1)) : m.lookup k = none := by
  cases hl : m.lookup k with
  | none => rfl
  | some v => exact absurd (List.mem_map_of_mem (f := (·.1)) (lookup_mem _ _ _ hl)) h

theorem lookup_filter_self {K V : Type} [BEq K] [LawfulBEq K] (k : K) (m : List (K × V)) :
    (m.filter (fun kv => kv.1 != k)).lookup k = none := by
  apply lookup_none_of_not_mem
  simp

theorem lookup_insert_self {V : Type} (k : String) (v : V) (m : List (String × V)) :
    (mapInsert k v m).lookup k = some v := by
  simp [mapInsert]

theorem lookup_insert_ne {V : Type} (k j : String) (v : V) (m : List (String × V)) (h : k ≠ j) :
    (mapInsert j v m).lookup k = m.lookup k := by
  have : (k == j) = false := by simpa using h
  simp only [mapInsert, List.lookup_cons, this]
  exact lookup_filter_ne _ _ _ h

theorem opens_snoc (ops : List Op) (op : Op) :
    opens (ops ++ [op]) =
      match op with
      | .connect s h g => (s, givenId h g) :: opens ops
      | .recv s i => if closes i then (opens ops).filter (fun o => o.1 != s) else opens ops := by
  simp only [opens, List.foldl_append, List.foldl_cons, List.foldl_nil]
  cases op <;> rfl

theorem run_snoc (e : Endpoint H) (ops : List Op) (op : Op) :
    run e (ops ++ [op]) = step e (run e ops) op := by
  simp [run]

theorem snoc_induction {A : Type} {motive : List A → Prop} (nil : motive [])
    (snoc : ∀ l a, motive l → motive (l ++ [a])) (l : List A) : motive l := by
  have : ∀ n (l : List A), l.length = n → motive l := by
    intro n
    induction n with
    | zero => intro l hl; rw [List.length_eq_zero_iff] at hl; subst hl; exact nil
    | succ n ih =>
      intro l hl
      have hne : l ≠ [] := by rintro rfl; simp at hl
      rw [← List.dropLast_concat_getLast hne]
      exact snoc _ _ (ih _ (by simp [hl]))
  exact this _ l rfl

theorem slice_ok (b : Bytes) (lo hi : Nat) (h : lo ≤ hi) (h' : hi ≤ b.length) :
    slice b lo hi = .ok ((b.take hi).drop lo) := by
  simp [slice, h, h']

/-- The outcome of decoding a frame. -/
theorem resolveBinaryRoute_cons (e : Endpoint H) (n : UInt8) (rest : Bytes) :
    resolveBinaryRoute e (n :: rest) =
      if n.toNat > rest.length then .ok (.cont none)
      else
        match e.utf8 (rest.take n.toNat) with
        | none => .ok (.cont none)
        | some route => .ok (.cont (some (route, rest.drop n.toNat))) := by
  by_cases h : n.toNat > rest.length
  · simp [resolveBinaryRoute, byteAt, h]
  · have h1 : n.toNat + 1 ≤ (n :: rest).length := by simp; omega
    simp only [resolveBinaryRoute, byteAt, List.getElem?_cons_zero, Outcome.bind_ok,
      List.length_cons, Nat.add_sub_cancel, h, if_false]
    rw [slice_ok _ _ _ (by omega) h1]
    simp only [Outcome.bind_ok, List.take_succ_cons, List.drop_succ_cons, List.drop_zero]
    cases e.utf8 (rest.take n.toNat) with
    | none => simp
    | some route =>
      simp only
      rw [slice_ok _ _ _ (by simp; omega) (by simp)]
      simp

/-- A message other than an empty binary frame is processed, and ends the connection exactly when it
is a close message. -/
theorem processMessage_flow (e : Endpoint H) (id : String) (m : Message)
    (h : m ≠ .binary []) :
    ∃ ds, processMessage e id m = .ok (if m = .close then .brk else .cont (), ds) := by
  cases m with
  | text t =>
    have hr : ∃ o, resolveRoute e t = .cont o := by
      unfold resolveRoute
      split
      · exact ⟨_, rfl⟩
      · split
        · split <;> exact ⟨_, rfl⟩
        · exact ⟨_, rfl⟩
    obtain ⟨o, ho⟩ := hr
    simp only [processMessage, ho]
    cases o with
    | none => exact ⟨[], by simp⟩
    | some x =>
      simp only
      cases e.routes x.1 with
      | none => exact ⟨[], by simp⟩
      | some h => exact ⟨_, by simp; rfl⟩
  | binary b =>
    cases b with
    | nil => exact absurd rfl h
    | cons n rest =>
      simp only [processMessage, resolveBinaryRoute_cons]
      split
      · exact ⟨[], by simp⟩
      · cases e.utf8 (rest.take n.toNat) with
        | none => exact ⟨[], by simp⟩
        | some route =>
          simp only [Outcome.bind_ok]
          cases e.routes route with
          | none => exact ⟨[], by simp⟩
          | some h => exact ⟨_, by simp; rfl⟩
  | close => exact ⟨[], by simp [processMessage]⟩
  | ping => exact ⟨[], by simp [processMessage]⟩
  | pong => exact ⟨[], by simp [processMessage]⟩

theorem freshSockets_prefix {ops : List Op} {op : Op} (h : FreshSockets (ops ++ [op])) :
    FreshSockets ops := by
  intro pre s hd g post heq
  exact h pre s hd g (post ++ [op]) (by simp [heq])

theorem freshIds_prefix {ops : List Op} {op : Op} (h : FreshIds (ops ++ [op])) :
    FreshIds ops := by
  intro pre s hd g post heq
  exact h pre s hd g (post ++ [op]) (by simp [heq])

theorem opens_nodup (ops : List Op) (h : FreshSockets ops) : ((opens ops).map (·.1)).Nodup := by
  induction ops using snoc_induction with
  | nil => simp [opens]
  | snoc ops op ih =>
    have ih := ih (freshSockets_prefix h)
    rw [opens_snoc]
    cases op with
    | connect s hd g =>
      simp only [List.map_cons, List.nodup_cons]
      exact ⟨h ops s hd g [] rfl, ih⟩
    | recv s i =>
      simp only
      split
      · exact (List.filter_sublist.map _).nodup ih
      · exact ih

theorem opens_ids_nodup (ops : List Op) (h : FreshIds ops) : ((opens ops).map (·.2)).Nodup := by
  induction ops using snoc_induction with
  | nil => simp [opens]
  | snoc ops op ih =>
    have ih := ih (freshIds_prefix h)
    rw [opens_snoc]
    cases op with
    | connect s hd g =>
      simp only [List.map_cons, List.nodup_cons]
      exact ⟨h ops s hd g [] rfl, ih⟩
    | recv s i =>
      simp only
      split
      · exact (List.filter_sublist.map _).nodup ih
      · exact ih

theorem requestId_given (h : Option String) (g : String) : requestId h g = givenId h g := by
  cases h <;> rfl

/-- Without empty binary frames the running tasks are those of the open sockets. -/
theorem tasks_eq (e : Endpoint H) (ops : List Op) (hs : FreshSockets ops)
    (hn : NoEmptyFrame ops) : (run e ops).tasks = opens ops := by
  induction ops using snoc_induction with
  | nil => rfl
  | snoc ops op ih =>
    have ih := ih (freshSockets_prefix hs) (fun s hm => hn s (List.mem_append_left _ hm))
    rw [run_snoc, opens_snoc]
    cases op with
    | connect s hd g => simp [step, ih, requestId_given]
    | recv s i =>
      simp only [step, ih]
      cases hl : (opens ops).lookup s with
      | none =>
        have : (opens ops).filter (fun o => o.1 != s) = opens ops := by
          rw [List.filter_eq_self]
          intro a ha
          simp only [bne_iff_ne, ne_eq]
          rintro rfl
          rw [lookup_of_mem a.1 _ a.2 (opens_nodup ops (freshSockets_prefix hs)) ha] at hl
          simp at hl
        simp [this, ih]
      | some id =>
        cases i with
        | msg m =>
          have hm : m ≠ .binary [] := by
            rintro rfl
            exact hn s (by simp)
          obtain ⟨ds, hds⟩ := processMessage_flow e id m hm
          simp only [hds]
          by_cases hc : m = .close
          · subst hc; simp [closes]
          · have hcl : closes (.msg m) = false := by
              cases m <;> first | rfl | exact absurd rfl hc
            simp [hc, hcl]
        | failed => simp [closes]
        | ended => simp [closes]

/-- A decidable form of freshness. -/
def freshCheck (f : Sock → String → List (Sock × String) → Bool) (ops : List Op) : Bool :=
  (List.range ops.length).all (fun i =>
    match ops[i]? with
    | some (.connect s h g) => f s (givenId h g) (opens (ops.take i))
    | _ => true)

theorem check_split (f : Sock → String → List (Sock × String) → Bool) (ops : List Op)
    (h : freshCheck f ops = true) (pre : List Op) (s : Sock) (hd : Option String) (g : String)
    (post : List Op) (heq : ops = pre ++ .connect s hd g :: post) :
    f s (givenId hd g) (opens pre) = true := by
  subst heq
  have := List.all_eq_true.mp h pre.length (by simp)
  simpa using this

theorem freshSockets_of_check (ops : List Op)
    (h : freshCheck (fun s _ os => !(os.map (·.1)).contains s) ops = true) : FreshSockets ops := by
  intro pre s hd g post heq
  have := check_split _ ops h pre s hd g post heq
  simpa using this

theorem freshIds_of_check (ops : List Op)
    (h : freshCheck (fun _ id os => !(os.map (·.2)).contains id) ops = true) : FreshIds ops := by
  intro pre s hd g post heq
  have := check_split _ ops h pre s hd g post heq
  simpa using this

end Verif.WebSocket
