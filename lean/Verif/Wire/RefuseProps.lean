import Verif.Wire.ConfigProps

/-!
# What is not in the documented format is refused (C144)
-/

namespace Verif.Wire.Spec

open Verif

variable {F : Type}

/-- A part of a document: the entry of an object, or the element of a list of the right length at the
position of the name. -/
def part (names : List String) (v : Json F) (k : String) : Option (Json F) :=
  match v with
  | .obj m => m.lookup k.toList
  | .arr l => if l.length = names.length then ((names.map String.toList).zip l).lookup k.toList else none
  | _ => none

/-- The documented results of any kind. -/
def AnyPayload (v : Json F) : Prop := HttpPayload v ∨ SimplePayload v ∨ ProcessingPayload v

end Verif.Wire.Spec

namespace Verif.Wire

open Verif Verif.Wire.Spec

variable {F : Type}

theorem entries_part {names : List String} {v : Json F} {m : List (Str × Json F)}
    (h : entries (names.map String.toList) v = some m) (k : String) :
    m.lookup k.toList = part names v k := by
  unfold entries at h
  unfold part
  split at h
  · split at h
    · injection h with h; subst h; rfl
    · cases h
  · split at h
    · rename_i hl
      rw [List.length_map] at hl
      injection h with h
      subst h
      dsimp only
      rw [if_pos hl]
    · cases h
  · cases h

theorem req_some {A : Type} {m : List (Str × Json F)} {k : String} {d : Json F → Option A} {a : A}
    (h : req m k d = some a) : ∃ w, m.lookup k.toList = some w ∧ d w = some a := by
  unfold req at h
  split at h
  · rename_i w hw; exact ⟨w, hw, h⟩
  · cases h

theorem str_some {v : Json F} {s : Str} (h : str v = some s) : v = .str s := by
  unfold str at h
  split at h
  · injection h with h; rw [h]
  · cases h

theorem bool_some {v : Json F} {b : Bool} (h : bool v = some b) : v = .bool b := by
  unfold bool at h
  split at h
  · injection h with h; rw [h]
  · cases h

theorem uint_some {n k : Nat} {v : Json F} (h : uint n v = some k) : v = .int k ∧ k < 2 ^ n := by
  unfold uint at h
  split at h
  · rename_i i
    split at h
    · rename_i hi
      injection h with h
      subst h
      refine ⟨by rw [Int.toNat_of_nonneg hi.1], ?_⟩
      have h1 := hi.2
      have h2 := Int.toNat_of_nonneg hi.1
      have : ((i.toNat : Nat) : Int) < ((2 ^ n : Nat) : Int) := by
        rw [h2]; simpa using h1
      exact Int.ofNat_lt.1 this
    · cases h
  · cases h

theorem fill_some {A : Type} {d : Json F → Option A} {P : Json F → Prop}
    (hd : ∀ v a, d v = some a → P v) : ∀ (m : List (Str × Json F)) (acc r : List (Str × A)),
    fill d m acc = some r → ∀ e ∈ m, P e.2 := by
  intro m
  induction m with
  | nil => intro acc r _ e he; cases he
  | cons x m ih =>
    intro acc r h e he
    obtain ⟨k, v⟩ := x
    rw [fill] at h
    split at h
    · rename_i a ha
      rcases List.mem_cons.1 he with rfl | he
      · exact hd _ a ha
      · exact ih _ _ h e he
    · cases h

theorem map_some {v : Json F} {l : List (Str × Str)} (h : map str v = some l) :
    ∃ m, v = .obj m ∧ ∀ e ∈ m, Text e.2 := by
  unfold map at h
  split at h
  · rename_i m
    exact ⟨m, rfl, fill_some (fun v a ha => ⟨a, str_some ha⟩) m [] l h⟩
  · cases h

theorem http_some {v : Json F} {r : HttpResponse} (h : HttpResponse.decode v = some r) :
    part ["status", "headers", "body"] v "status" = some (.int r.status) ∧ r.status < 65536 ∧
    (∃ m, part ["status", "headers", "body"] v "headers" = some (.obj m) ∧ (∀ e ∈ m, Text e.2)) ∧
    part ["status", "headers", "body"] v "body" = some (.str r.body) := by
  simp only [HttpResponse.decode, Option.bind_eq_bind, Option.bind_eq_some_iff] at h
  obtain ⟨m, hm, status, hs, headers, hh, body, hb, h⟩ := h
  have hp := entries_part (names := ["status", "headers", "body"]) hm
  injection h with h
  subst h
  obtain ⟨w1, h1, h1'⟩ := req_some hs
  obtain ⟨w2, h2, h2'⟩ := req_some hh
  obtain ⟨w3, h3, h3'⟩ := req_some hb
  obtain ⟨rfl, hlt⟩ := uint_some h1'
  obtain ⟨mh, rfl, hmh⟩ := map_some h2'
  rw [str_some h3'] at h3
  refine ⟨by rw [← hp, h1], hlt, ⟨mh, by rw [← hp, h2], hmh⟩, by rw [← hp, h3]⟩

theorem success_some {v : Json F} {names : List String} {m : List (Str × Json F)} {b : Bool}
    (hm : entries (names.map String.toList) v = some m) (h : req m "success" bool = some b) :
    part names v "success" = some (.bool b) := by
  obtain ⟨w, h1, h2⟩ := req_some h
  rw [← entries_part hm, h1, bool_some h2]

/-- Whether the result says that the event has been processed. -/
def ResultData.success? : ResultData → Option Bool
  | .http _ => none
  | .ws r => some r.success
  | .processed r => some r.success
  | .scheduled r => some r.success
  | .event r => some r.success

theorem simple_some {v : Json F} {r : Simple} (h : Simple.decode v = some r) :
    part ["success", "errorMessage"] v "success" = some (.bool r.success) := by
  simp only [Simple.decode, Option.bind_eq_bind, Option.bind_eq_some_iff] at h
  obtain ⟨m, hm, s, hs, e, he, h⟩ := h
  injection h with h
  subst h
  exact success_some (names := ["success", "errorMessage"]) hm hs

theorem processed_some {v : Json F} {r : Processed} (h : Processed.decode v = some r) :
    part ["success", "failues"] v "success" = some (.bool r.success) := by
  simp only [Processed.decode, Option.bind_eq_bind, Option.bind_eq_some_iff] at h
  obtain ⟨m, hm, s, hs, e, he, h⟩ := h
  injection h with h
  subst h
  exact success_some (names := ["success", "failues"]) hm hs

/-! ## C144 -/

/-- **C144, full statement.** Only documented results and documented requests to send messages are
accepted. -/
def FullRefused (F : Type) : Prop :=
  (∀ v : Json F, Result.decode v ≠ none → ResultDoc AnyPayload v) ∧
  ∀ v : Json F, decodeMessages v ≠ none → MessagesDoc MessageDoc v

/-- **C144 is false of the code.** A list is accepted in place of an object. -/
theorem refused_violated (F : Type) : ¬ FullRefused F := by
  intro h
  have hd : Result.decode (F := F) (.arr [.str ['e'], .arr [.bool true, .null], .null]) ≠ none := by
    have : Result.decode (F := F) (.arr [.str ['e'], .arr [.bool true, .null], .null]) =
      some ⟨['e'], .ws ⟨true, none⟩, none⟩ := rfl
    rw [this]
    exact nofun
  obtain ⟨m, hm, _⟩ := h.1 _ hd
  cases hm

/-- Neither are numbers that are no status codes refused. -/
theorem status_unchecked (k : Nat) (hk : k < 65536) :
    ∃ v : Json F, (∃ r, Result.decode v = some r) ∧
      ∃ d, get v "data" = some d ∧ get d "status" = some (.int k) := by
  have hd : ResultData.decode (F := F) (.obj [("status".toList, .int k), ("headers".toList, wMap []),
      ("body".toList, .str [])]) = some (.http ⟨k, [], []⟩) :=
    ResultData.decode_http ⟨k, [], []⟩ hk .nil
  exact ⟨Result.encode ⟨[], .http ⟨k, [], []⟩, none⟩, ⟨_, by
    rw [Result.decode]
    have h0 : entries (F := F) ["eventId".toList, "data".toList, "context".toList]
        (Result.encode ⟨[], .http ⟨k, [], []⟩, none⟩) =
        some [("eventId".toList, .str []), ("data".toList,
          .obj [("status".toList, .int k), ("headers".toList, wMap []), ("body".toList, .str [])])] := rfl
    rw [h0, Option.bind_eq_bind, Option.bind_some, req_at (v := .str []) _ rfl,
      req_at (k := "data") _ rfl, hd]
    rfl⟩, _, rfl, rfl⟩

/-- **C144, partial.** What is accepted as a result has the name of the event, and either a status of 16
bits, headers with texts and a body with a text, or a boolean that says whether the event has been
processed; these are understood as they are. Missing: that they are in objects, that there are only
documented statuses, and the types of the other parts. -/
theorem refused_partial (v : Json F) (r : Result F) (h : Result.decode v = some r) :
    part ["eventId", "data", "context"] v "eventId" = some (.str r.eventId) ∧
    ∃ d, part ["eventId", "data", "context"] v "data" = some d ∧
      ((∃ a, r.data = .http a ∧
          part ["status", "headers", "body"] d "status" = some (.int a.status) ∧ a.status < 65536 ∧
          (∃ m, part ["status", "headers", "body"] d "headers" = some (.obj m) ∧
            ∀ e ∈ m, Text e.2) ∧
          part ["status", "headers", "body"] d "body" = some (.str a.body)) ∨
       (∃ b, r.data.success? = some b ∧
          part ["success", ""] d "success" = some (.bool b))) := by
  simp only [Result.decode, Option.bind_eq_bind, Option.bind_eq_some_iff] at h
  obtain ⟨m, hm, id, hid, data, hdata, ctx, _, h⟩ := h
  injection h with h
  subst h
  have hp := entries_part (names := ["eventId", "data", "context"]) hm
  obtain ⟨w1, h1, h1'⟩ := req_some hid
  obtain ⟨w2, h2, h2'⟩ := req_some hdata
  rw [str_some h1'] at h1
  refine ⟨by rw [← hp, h1], w2, by rw [← hp, h2], ?_⟩
  have hany : ∀ (n : String) (b : Bool), part ["success", n] w2 "success" = some (.bool b) →
      part ["success", ""] w2 "success" = some (.bool b) := by
    intro n b hb
    unfold part at hb ⊢
    cases w2 with
    | obj m => exact hb
    | arr l =>
      dsimp only at hb ⊢
      split at hb
      · rename_i hl
        rw [if_pos (by exact hl)]
        cases l with
        | nil => cases hb
        | cons x l =>
          rw [List.map_cons, List.zip_cons_cons, List.lookup_cons_self] at hb ⊢
          exact hb
      · cases hb
    | _ => cases hb
  unfold ResultData.decode at h2'
  split at h2'
  · rename_i a ha
    injection h2' with h2'
    subst h2'
    exact Or.inl ⟨a, rfl, http_some ha⟩
  · split at h2'
    · rename_i a ha
      injection h2' with h2'
      subst h2'
      exact Or.inr ⟨a.success, rfl, hany _ _ (simple_some ha)⟩
    · split at h2'
      · rename_i a ha
        injection h2' with h2'
        subst h2'
        exact Or.inr ⟨a.success, rfl, hany _ _ (processed_some ha)⟩
      · split at h2'
        · rename_i a ha
          cases ha
        · split at h2'
          · rename_i a ha
            cases ha
          · cases h2'

theorem all_some {A : Type} {d : Json F → Option A} : ∀ (l : List (Json F)) (as : List A),
    all d l = some as → as.length = l.length ∧
      ∀ (i : Nat) a, as[i]? = some a → ∃ v, l[i]? = some v ∧ d v = some a := by
  intro l
  induction l with
  | nil => intro as h; injection h with h; subst h; exact ⟨rfl, nofun⟩
  | cons v l ih =>
    intro as h
    rw [all] at h
    split at h
    · rename_i a as' ha has
      injection h with h
      subst h
      obtain ⟨h1, h2⟩ := ih as' has
      refine ⟨by simp [h1], fun i b hb => ?_⟩
      cases i with
      | zero =>
        rw [List.getElem?_cons_zero] at hb ⊢
        injection hb with hb
        subst hb
        exact ⟨v, rfl, ha⟩
      | succ i =>
        rw [List.getElem?_cons_succ] at hb ⊢
        exact h2 i b hb
    · cases h

/-- The names of the parts of a message. -/
def messageParts : List String :=
  ["connectionId", "sourceNode", "informClientsOnLoss", "messageId", "message"]

theorem send_some {v : Json F} {m : WsSend} (h : WsSend.decode v = some m) :
    part messageParts v "connectionId" = some (.str m.connectionId) ∧
    part messageParts v "sourceNode" = some (.str m.sourceNode) ∧
    part messageParts v "messageId" = some (.str m.messageId) ∧
    part messageParts v "message" = some (.str m.message) := by
  simp only [WsSend.decode, Option.bind_eq_bind, Option.bind_eq_some_iff] at h
  obtain ⟨es, hm, c, hc, n, hn, i, _, mi, hmi, t, ht, h⟩ := h
  injection h with h
  subst h
  have hp := entries_part (names := messageParts) hm
  obtain ⟨w1, h1, h1'⟩ := req_some hc
  obtain ⟨w2, h2, h2'⟩ := req_some hn
  obtain ⟨w3, h3, h3'⟩ := req_some hmi
  obtain ⟨w4, h4, h4'⟩ := req_some ht
  rw [str_some h1'] at h1
  rw [str_some h2'] at h2
  rw [str_some h3'] at h3
  rw [str_some h4'] at h4
  exact ⟨by rw [← hp, h1], by rw [← hp, h2], by rw [← hp, h3], by rw [← hp, h4]⟩

/-- **C144, partial, for messages.** What is accepted as a request to send messages is a list of them,
each with texts for the connection, the node, the id and the message, and all are understood as they are,
in order. -/
theorem messages_refused_partial (v : Json F) (ms : List WsSend) (h : decodeMessages v = some ms) :
    ∃ l, part ["messages"] v "messages" = some (.arr l) ∧ ms.length = l.length ∧
      ∀ (i : Nat) (m : WsSend), ms[i]? = some m → ∃ w, l[i]? = some w ∧
        part messageParts w "connectionId" = some (.str m.connectionId) ∧
        part messageParts w "sourceNode" = some (.str m.sourceNode) ∧
        part messageParts w "messageId" = some (.str m.messageId) ∧
        part messageParts w "message" = some (.str m.message) := by
  simp only [decodeMessages, Option.bind_eq_bind, Option.bind_eq_some_iff] at h
  obtain ⟨es, hm, h⟩ := h
  obtain ⟨w, h1, h2⟩ := req_some h
  unfold list at h2
  split at h2
  · rename_i l
    obtain ⟨h3, h4⟩ := all_some l ms h2
    refine ⟨l, by rw [← entries_part (names := ["messages"]) hm, h1], h3, fun i m hi => ?_⟩
    obtain ⟨w, hw, hd⟩ := h4 i m hi
    exact ⟨w, hw, send_some hd⟩
  · cases h2

example : Result.decode (F := Nat) (.obj [("eventId".toList, .str ['e']),
    ("data".toList, .obj [("success".toList, .bool false)])]) = some ⟨['e'], .ws ⟨false, none⟩, none⟩ := rfl

example : Result.decode (F := Nat) (.obj [("eventId".toList, .str ['e']),
    ("data".toList, .obj [("success".toList, .str ['n', 'o'])])]) = none := rfl

example : decodeMessages (F := Nat) (.obj [("messages".toList, .arr [.obj [
    ("connectionId".toList, .str ['c']), ("sourceNode".toList, .str ['n']),
    ("messageId".toList, .str ['m']), ("message".toList, .str ['t'])]])]) =
    some [⟨['c'], ['n'], none, ['m'], ['t']⟩] := rfl

end Verif.Wire
