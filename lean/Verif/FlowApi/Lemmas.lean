import Verif.FlowApi.Spec
import Verif.Wire.Lemmas

/-!
# Lemmas about the derived code of executions
-/

namespace Verif.FlowApi

open Verif Wire
open Verif.Workflow (Kind Status)

variable {F : Type}

/-- Induction over the states inside states. -/
theorem state_induction {P : State F → Prop}
    (h : ∀ s, (∀ b ∈ s.parallel, ∀ c ∈ b, P c) → P s) (s : State F) : P s := by
  have key : ∀ n (s : State F), sizeOf s ≤ n → P s := by
    intro n
    induction n with
    | zero => intro s hs; cases s; simp at hs
    | succ n ih =>
      intro s hs
      refine h s fun b hb c hc => ih c ?_
      have h1 := List.sizeOf_lt_of_mem hb
      have h2 := List.sizeOf_lt_of_mem hc
      have h3 : sizeOf s.parallel < sizeOf s := by
        cases s
        simp
        omega
      omega
  exact key _ s (Nat.le_refl _)

theorem encodeStates_map (l : List (State F)) : encodeStates l = l.map State.encode := by
  induction l with
  | nil => rw [encodeStates]; rfl
  | cons s l ih => rw [encodeStates, ih]; rfl

theorem encodeBranches_map (l : List (List (State F))) :
    encodeBranches l = (l.map fun b => b.map State.encode).map .arr := by
  induction l with
  | nil => rw [encodeBranches]; rfl
  | cons b l ih => rw [encodeBranches, ih, encodeStates_map]; rfl

/-- The fields of a state, written. -/
def State.fields (s : State F) : List (Str × Json F) :=
  [("name".toList, .str s.name), ("type".toList, .str (kindName s.kind)),
    ("parent".toList, orNull .str s.parent), ("input".toList, s.input),
    ("started".toList, nat s.started), ("completed".toList, orNull nat s.completed),
    ("duration".toList, orNull .float s.duration), ("status".toList, .str (statusName s.status)),
    ("attempt".toList, nat s.attempt), ("error".toList, orNull .str s.error),
    ("parallel".toList, .arr (encodeBranches s.parallel)),
    ("rawOutput".toList, orNull (fun v => v) s.rawOutput),
    ("output".toList, orNull (fun v => v) s.output)]

theorem State.encode_fields (s : State F) : s.encode = .obj s.fields := by
  cases s
  rw [State.encode]
  rfl

theorem decodeStates_all (ofInt : Int → F) (l : List (Json F)) :
    decodeStates ofInt l = all (State.decode ofInt) l := by
  induction l with
  | nil => rw [decodeStates, all]
  | cons v l ih =>
    rw [decodeStates, all, ih]
    cases State.decode ofInt v <;> cases all (State.decode ofInt) l <;> rfl

theorem decodeStates_list (ofInt : Int → F) (l : List (Json F)) :
    decodeStates ofInt l = list (State.decode ofInt) (.arr l) := decodeStates_all ofInt l

theorem decodeBranches_list (ofInt : Int → F) (v : Json F) :
    decodeBranches ofInt v = list (list (State.decode ofInt)) v := by
  cases v with
  | arr l =>
    rw [decodeBranches, list]
    induction l with
    | nil => rw [decodeBranchList, all]
    | cons x l ih =>
      rw [all]
      cases x with
      | arr b =>
        rw [decodeBranchList, ih, list, decodeStates_all]
        cases all (State.decode ofInt) b <;> cases all (list (State.decode ofInt)) l <;> rfl
      | _ => rw [decodeBranchList] <;> first | rfl | nofun
  | _ => rw [decodeBranches] <;> first | rfl | nofun

theorem parallelIn_lookup (ofInt : Int → F) (m : List (Str × Json F)) :
    parallelIn ofInt m = (m.lookup parallelName).bind (decodeBranches ofInt) := by
  induction m with
  | nil => rw [parallelIn]; rfl
  | cons e m ih =>
    obtain ⟨k, v⟩ := e
    rw [parallelIn, List.lookup_cons]
    by_cases h : parallelName = k
    · rw [if_pos h, beq_iff_eq.2 h]
      rfl
    · rw [if_neg h, beq_eq_false_iff_ne.2 h, ih]

theorem decodeKind_name (k : Kind) : decodeKind (F := F) (.str (kindName k)) = some k := by
  cases k <;> rfl

theorem decodeStatus_name (t : Status) : decodeStatus (F := F) (.str (statusName t)) = some t := by
  cases t <;> rfl

theorem nullable_str (o : Option Str) : nullable (F := F) str (orNull .str o) = some o := by
  cases o <;> rfl

theorem nullable_nat (n : Nat) (o : Option Nat) (h : ∀ t, o = some t → t < 2 ^ n) :
    nullable (F := F) (uint n) (orNull nat o) = some o := by
  cases o with
  | none => rfl
  | some t =>
    rw [orNull, nullable, nat, uint_ofNat n t (h t rfl)]
    · rfl
    · nofun

theorem nullable_float (ofInt : Int → F) (o : Option F) :
    nullable (float ofInt) (orNull .float o) = some o := by
  cases o <;> rfl

theorem nullable_any (o : Option (Json F)) (h : o ≠ some .null) :
    nullable any (orNull (fun v => v) o) = some o := by
  cases o with
  | none => rfl
  | some v => cases v <;> first | rfl | exact absurd rfl h

theorem opt_at {A : Type} {m : List (Str × Json F)} {k : String} {v : Json F}
    (d : Json F → Option A) (h : m.lookup k.toList = some v) : opt m k d = nullable d v := by
  rw [opt, h]

theorem State.decode_encode (ofInt : Int → F) (s : State F) :
    Within Fits s → Within NoNull s → State.decode ofInt s.encode = some s := by
  induction s using state_induction with
  | h s ih =>
    intro hf hn
    cases hf with
    | mk _ hf hf' =>
      cases hn with
      | mk _ hn hn' =>
        have hb : decodeBranches ofInt (.arr (encodeBranches s.parallel)) = some s.parallel := by
          rw [decodeBranches_list, encodeBranches_map, list, List.map_map, all_map _ _ id]
          · rw [List.map_id]
          · intro b hb
            show list (State.decode ofInt) (.arr (b.map State.encode)) = _
            rw [list, all_map _ _ id]
            · rw [List.map_id]; rfl
            · intro c hc
              exact ih b hb c hc (hf' b hb c hc) (hn' b hb c hc)
        have h0 : (stateFields.all fun k =>
            decide ((s.fields.filter fun e => decide (e.1 = k)).length ≤ 1)) = true := by
          have hk : ∀ k : Str, (s.fields.filter fun e => decide (e.1 = k)).length =
              (stateFields.filter fun e => decide (e = k)).length := by
            intro k
            rw [← show s.fields.map (·.1) = stateFields from rfl, List.filter_map, List.length_map]
            rfl
          simp only [hk]
          decide
        rw [State.encode_fields, State.decode, if_pos h0]
        have hp : parallelIn ofInt s.fields = some s.parallel := by
          rw [parallelIn_lookup, show s.fields.lookup parallelName =
            some (.arr (encodeBranches s.parallel)) from rfl]
          exact hb
        have h1 : s.fields.lookup "name".toList = some (.str s.name) := rfl
        have h2 : s.fields.lookup "type".toList = some (.str (kindName s.kind)) := rfl
        have h3 : s.fields.lookup "parent".toList = some (orNull .str s.parent) := rfl
        have h4 : s.fields.lookup "input".toList = some s.input := rfl
        have h5 : s.fields.lookup "started".toList = some (nat s.started) := rfl
        have h6 : s.fields.lookup "completed".toList = some (orNull nat s.completed) := rfl
        have h7 : s.fields.lookup "duration".toList = some (orNull .float s.duration) := rfl
        have h8 : s.fields.lookup "status".toList = some (.str (statusName s.status)) := rfl
        have h9 : s.fields.lookup "attempt".toList = some (nat s.attempt) := rfl
        have h10 : s.fields.lookup "error".toList = some (orNull .str s.error) := rfl
        have h11 : s.fields.lookup "rawOutput".toList =
          some (orNull (fun v => v) s.rawOutput) := rfl
        have h12 : s.fields.lookup "output".toList = some (orNull (fun v => v) s.output) := rfl
        rw [State.build, req_at _ h1, req_at _ h2, opt_at _ h3, req_at _ h4, req_at _ h5, opt_at _ h6,
          opt_at _ h7, req_at _ h8, req_at _ h9, opt_at _ h10, opt_at _ h11, opt_at _ h12,
          decodeKind_name, nullable_str, nat, uint_ofNat _ _ hf.1, nullable_nat _ _ hf.2.1,
          nullable_float, decodeStatus_name, nat, uint_ofNat _ _ hf.2.2, nullable_str, hp,
          nullable_any _ hn.1, nullable_any _ hn.2]
        cases s
        rfl

theorem states_decode (ofInt : Int → F) (l : List (State F)) (hf : ∀ s ∈ l, Within Fits s)
    (hn : ∀ s ∈ l, Within NoNull s) :
    list (State.decode ofInt) (.arr (encodeStates l)) = some l := by
  rw [encodeStates_map, list, all_map _ _ id]
  · rw [List.map_id]
  · intro s hs
    exact State.decode_encode ofInt s (hf s hs) (hn s hs)

theorem Execution.decode_encode (ofInt : Int → F) (e : Execution F) (hf : ExecFits e)
    (hn : ExecNoNull e) : Execution.decode ofInt e.encode = some e := by
  let m : List (Str × Json F) := [("id".toList, .str e.id), ("input".toList, e.input),
    ("output".toList, orNull (fun v => v) e.output), ("started".toList, nat e.started),
    ("completed".toList, orNull nat e.completed), ("duration".toList, orNull .float e.duration),
    ("status".toList, .str (statusName e.status)), ("statusDetail".toList, .str e.statusDetail),
    ("currentState".toList, orNull .str e.currentState),
    ("states".toList, .arr (encodeStates e.states))]
  have h0 : entries ["id".toList, "input".toList, "output".toList, "started".toList,
    "completed".toList, "duration".toList, "status".toList, "statusDetail".toList,
    "currentState".toList, "states".toList] e.encode = some m := rfl
  have h1 : m.lookup "id".toList = some (.str e.id) := rfl
  have h2 : m.lookup "input".toList = some e.input := rfl
  have h3 : m.lookup "output".toList = some (orNull (fun v => v) e.output) := rfl
  have h4 : m.lookup "started".toList = some (nat e.started) := rfl
  have h5 : m.lookup "completed".toList = some (orNull nat e.completed) := rfl
  have h6 : m.lookup "duration".toList = some (orNull .float e.duration) := rfl
  have h7 : m.lookup "status".toList = some (.str (statusName e.status)) := rfl
  have h8 : m.lookup "statusDetail".toList = some (.str e.statusDetail) := rfl
  have h9 : m.lookup "currentState".toList = some (orNull .str e.currentState) := rfl
  have h10 : m.lookup "states".toList = some (.arr (encodeStates e.states)) := rfl
  rw [Execution.decode, h0, Option.bind_eq_bind, Option.bind_some, req_at _ h1, req_at _ h2,
    opt_at _ h3, req_at _ h4, opt_at _ h5, opt_at _ h6, req_at _ h7, req_at _ h8, opt_at _ h9,
    req_at _ h10, nullable_any _ hn.1, nat, uint_ofNat _ _ hf.1, nullable_nat _ _ hf.2.1,
    nullable_float, decodeStatus_name, nullable_str, states_decode ofInt _ hf.2.2 hn.2]
  rfl

/-! ## The format -/

theorem isNum_nat (n : Nat) : IsNum (nat n : Json F) := Or.inl ⟨n, rfl⟩

theorem orNull_is {A : Type} {w : A → Json F} {P : Json F → Prop} (h : ∀ a, P (w a))
    (o : Option A) : OrNull P (orNull w o) := by
  cases o with
  | none => exact Or.inl rfl
  | some a => exact Or.inr (h a)

theorem status_is (t : Status) : OneOf statuses (.str (statusName t) : Json F) := by
  cases t
  · exact ⟨"PREPARING", by simp [statuses], rfl⟩
  · exact ⟨"IN_PROGRESS", by simp [statuses], rfl⟩
  · exact ⟨"FAILED", by simp [statuses], rfl⟩
  · exact ⟨"SUCCEEDED", by simp [statuses], rfl⟩

/-- What a state must satisfy for a format. -/
def Meets (fm : Format F) (s : State F) : Prop :=
  OneOf fm.types (.str (kindName s.kind) : Json F) ∧ fm.value s.input ∧
    fm.error (orNull .str s.error) ∧ fm.value (orNull (fun v => v) s.rawOutput) ∧
    fm.value (orNull (fun v => v) s.output)

theorem state_format (fm : Format F) (s : State F) : Within (Meets fm) s → IsState fm s.encode := by
  induction s using state_induction with
  | h s ih =>
    intro h
    cases h with
    | mk _ h h' =>
      rw [State.encode_fields]
      refine .mk _ (s.parallel.map fun b => b.map State.encode) ⟨_, rfl, _, rfl⟩ ⟨_, rfl, h.1⟩ ?_
        ⟨_, rfl, h.2.1⟩ ⟨_, rfl, isNum_nat _⟩ ⟨_, rfl, orNull_is isNum_nat _⟩
        ⟨_, rfl, orNull_is (fun f => Or.inr ⟨f, rfl⟩) _⟩ ⟨_, rfl, status_is _⟩
        ⟨_, rfl, isNum_nat _⟩ ?_ (Or.inr ?_) ?_ ⟨_, rfl, h.2.2.2.1⟩ ⟨_, rfl, h.2.2.2.2⟩
      · intro v hv
        injection hv with hv
        rw [← hv]
        exact orNull_is (fun t => ⟨t, rfl⟩) _
      · intro v hv
        injection hv with hv
        rw [← hv]
        exact h.2.2.1
      · rw [← encodeBranches_map]
        rfl
      · intro b hb v hv
        obtain ⟨b', hb', rfl⟩ := List.mem_map.1 hb
        obtain ⟨c, hc, rfl⟩ := List.mem_map.1 hv
        exact ih b' hb' c hc (h' b' hb' c hc)

theorem meets_relaxed (s : State F) : Within (Meets relaxed) s := by
  induction s using state_induction with
  | h s ih =>
    refine .mk s ⟨?_, trivial, orNull_is (fun t => ⟨t, rfl⟩) _, trivial, trivial⟩ ih
    cases s.kind
    · exact ⟨"executeStep", by simp [relaxed], rfl⟩
    · exact ⟨"pass", by simp [relaxed], rfl⟩
    · exact ⟨"parallel", by simp [relaxed], rfl⟩
    · exact ⟨"wait", by simp [relaxed], rfl⟩
    · exact ⟨"decision", by simp [relaxed], rfl⟩
    · exact ⟨"failure", by simp [relaxed], rfl⟩
    · exact ⟨"success", by simp [relaxed], rfl⟩
    · exact ⟨"Unknown", by simp [relaxed], rfl⟩

theorem execution_relaxed (e : Execution F) : IsExecution relaxed e.encode := by
  refine ⟨_, rfl, ⟨_, rfl, _, rfl⟩, ⟨_, rfl, trivial⟩, ⟨_, rfl, isNum_nat _⟩,
    ⟨_, rfl, orNull_is isNum_nat _⟩, ⟨_, rfl, orNull_is (fun f => Or.inr ⟨f, rfl⟩) _⟩,
    ⟨_, rfl, status_is _⟩, ⟨_, rfl, _, rfl⟩, ⟨_, rfl, orNull_is (fun t => ⟨t, rfl⟩) _⟩,
    ⟨_, rfl, _, rfl, ?_⟩, fun _ _ => trivial⟩
  intro v hv
  rw [encodeStates_map] at hv
  obtain ⟨s, _, rfl⟩ := List.mem_map.1 hv
  exact state_format _ _ (meets_relaxed s)

end Verif.FlowApi
