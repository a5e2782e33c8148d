import Verif.ExecStore.Spec

/-!
# Lemmas about the store of workflow executions
-/

namespace Verif.ExecStore

open Spec

variable {J D S : Type}

theorem shows_record (id : String) (p : Payload J D S) : Shows (record id p) id p :=
  ⟨rfl, rfl, rfl, rfl, rfl, rfl, rfl, rfl, rfl⟩

/-- The store after a history. -/
def runHistory (h : History J D S) : Store J D S :=
  h.foldl (fun s kv => (s.save kv.1 kv.2).1) Store.new

theorem runHistory_append (h : History J D S) (id : String) (p : Payload J D S) :
    runHistory (h ++ [(id, p)]) = ((runHistory h).save id p).1 := by
  simp [runHistory]

theorem lastSaved_append (h : History J D S) (id : String) (p : Payload J D S) (id' : String) :
    lastSaved (h ++ [(id, p)]) id' = if id = id' then some p else lastSaved h id' := by
  unfold lastSaved
  rw [List.reverse_append]
  simp only [List.reverse_singleton, List.singleton_append, List.find?_cons]
  by_cases h' : id = id' <;> simp [h']

theorem created_append (xs : List String) (x : String) :
    created (xs ++ [x]) = if x ∈ xs then created xs else created xs ++ [x] := by
  induction xs with
  | nil => simp [created]
  | cons y ys ih =>
    simp only [List.cons_append, created, ih, List.mem_cons]
    by_cases hy : x = y
    · subst hy
      by_cases hm : x ∈ ys <;> simp [hm, List.filter_append]
    · by_cases hm : x ∈ ys
      · simp [hm]
      · simp [hm, hy, List.filter_append]

theorem mem_created (xs : List String) (x : String) : x ∈ created xs ↔ x ∈ xs := by
  induction xs with
  | nil => simp [created]
  | cons y ys ih =>
    simp only [created, List.mem_cons, List.mem_filter, ih, decide_eq_true_eq]
    constructor
    · rintro (h | h)
      · exact .inl h
      · exact .inr h.1
    · rintro (h | h)
      · exact .inl h
      · by_cases hxy : x = y
        · exact .inl hxy
        · exact .inr ⟨h, hxy⟩

theorem insert_get (s : Store J D S) (id : String) (p : Payload J D S) (id' : String) :
    (s.insert id p).get id' = if id = id' then some (record id p) else s.get id' := by
  unfold Store.get Store.insert
  simp only
  rw [List.lookup_cons]
  by_cases h : id = id'
  · subst h; simp
  · have : (id' == id) = false := by simpa using fun hh => h hh.symm
    rw [this]
    simp only [if_neg h]
    exact Assoc.lookup_filter_ne id' id s.executions (fun hh => h hh.symm)

theorem push_get (s : Store J D S) (id id' : String) : (s.push id).get id' = s.get id' := by
  unfold Store.push Store.get
  split <;> rfl

theorem save_get (s : Store J D S) (id : String) (p : Payload J D S) (id' : String) :
    (s.save id p).1.get id' = if id = id' then some (record id p) else s.get id' := by
  simp only [Store.save, push_get, insert_get]

theorem get_runHistory (h : History J D S) (id : String) :
    (runHistory h).get id = (lastSaved h id).map (record id) := by
  have key : ∀ (h : History J D S),
      (∀ id, (runHistory h.reverse).get id = (lastSaved h.reverse id).map (record id)) := by
    intro h
    induction h with
    | nil => intro id; rfl
    | cons kv h ih =>
      intro id
      obtain ⟨k, p⟩ := kv
      rw [List.reverse_cons, runHistory_append, save_get, lastSaved_append]
      by_cases hk : k = id
      · subst hk; simp
      · rw [if_neg hk, if_neg hk, ih]
  have := key h.reverse id
  rwa [List.reverse_reverse] at this

theorem ids_runHistory (h : History J D S) : (runHistory h).ids = created (h.map (·.1)) := by
  have key : ∀ (h : History J D S), (runHistory h.reverse).ids = created (h.reverse.map (·.1)) := by
    intro h
    induction h with
    | nil => rfl
    | cons kv h ih =>
      obtain ⟨k, p⟩ := kv
      rw [List.reverse_cons, runHistory_append, List.map_append, List.map_singleton, created_append]
      have hids : ((runHistory h.reverse).insert k p).ids = (runHistory h.reverse).ids := rfl
      simp only [Store.save, Store.push, hids]
      rw [ih]
      have hm := mem_created (h.reverse.map (·.1)) k
      by_cases hk : k ∈ h.reverse.map (·.1)
      · rw [if_pos hk, if_pos (hm.mpr hk)]
        rw [hids, ih]
      · rw [if_neg hk, if_neg (fun hh => hk (hm.mp hh))]
  have := key h.reverse
  rwa [List.reverse_reverse] at this

theorem take_reverse_reverse {α : Type} (l : List α) (n : Nat) :
    (l.reverse.take n).reverse = l.drop (l.length - n) := by
  rw [List.take_reverse, List.reverse_reverse]

/-- A lookup that always succeeds gives a list of the same length. -/
theorem filterMap_corresponds {α β : Type} (R : α → β → Prop) (f : α → Option β) (l : List α)
    (h : ∀ a ∈ l, ∃ b, f a = some b ∧ R a b) : Corresponds R l (l.filterMap f) := by
  induction l with
  | nil => exact .nil
  | cons a l ih =>
    obtain ⟨b, h1, h2⟩ := h a (by simp)
    rw [List.filterMap_cons, h1]
    exact .cons h2 (ih fun a' h' => h a' (by simp [h']))

theorem corresponds_length {α β : Type} {R : α → β → Prop} {l : List α} {l' : List β}
    (h : Corresponds R l l') : l.length = l'.length := by
  induction h with
  | nil => rfl
  | cons _ _ ih => simp [ih]

end Verif.ExecStore
