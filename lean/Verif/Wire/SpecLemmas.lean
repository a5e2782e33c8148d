import Verif.Assoc
import Verif.Wire.Lemmas
import Verif.Wire.Spec

/-!
# Lemmas that connect the documented schemas with the derived code
-/

namespace Verif.Wire

open Verif Spec

variable {F : Type}

/-- What a schema asks of one entry. -/
abbrev Meets (m : List (Str × Json F)) (e : Entry F) : Prop :=
  match m.lookup e.name.toList with
  | some w => e.shape w
  | none => e.required = false

theorem rec_nil {m : List (Str × Json F)} : ∀ e ∈ ([] : List (Entry F)), Meets m e := nofun

theorem rec_some {m : List (Str × Json F)} {k : String} {r : Bool} {P : Json F → Prop}
    {es : List (Entry F)} {w : Json F} (h : m.lookup k.toList = some w) (hw : P w)
    (rest : ∀ e ∈ es, Meets m e) : ∀ e ∈ (⟨k, r, P⟩ :: es), Meets m e := by
  intro e he
  rcases List.mem_cons.mp he with rfl | he
  · simp only [Meets, h, hw]
  · exact rest e he

theorem rec_none {m : List (Str × Json F)} {k : String} {P : Json F → Prop}
    {es : List (Entry F)} (h : m.lookup k.toList = none)
    (rest : ∀ e ∈ es, Meets m e) : ∀ e ∈ (⟨k, false, P⟩ :: es), Meets m e := by
  intro e he
  rcases List.mem_cons.mp he with rfl | he
  · simp only [Meets, h]
  · exact rest e he

/-- A required entry is there. -/
theorem rec_req {es : List (Entry F)} {m : List (Str × Json F)}
    (h : ∀ e ∈ es, Meets m e) (i : Nat) {k : String} {P : Json F → Prop}
    (he : es[i]? = some ⟨k, true, P⟩) : ∃ w, m.lookup k.toList = some w ∧ P w := by
  have := h _ (List.mem_of_getElem? he)
  simp only [Meets] at this
  split at this
  · rename_i w hw
    exact ⟨w, hw, this⟩
  · cases this

/-- An optional entry, if there, has its shape. -/
theorem rec_opt {es : List (Entry F)} {m : List (Str × Json F)}
    (h : ∀ e ∈ es, Meets m e) (i : Nat) {k : String} {P : Json F → Prop} {r : Bool}
    (he : es[i]? = some ⟨k, r, P⟩) {w : Json F} (hw : m.lookup k.toList = some w) : P w := by
  have := h _ (List.mem_of_getElem? he)
  simp only [Meets, hw] at this
  exact this

theorem filter_key_le_one {A : Type} (m : List (Str × A)) (h : (m.map (·.1)).Nodup) (k : Str) :
    (m.filter fun e => decide (e.1 = k)).length ≤ 1 := by
  induction m with
  | nil => simp
  | cons e m ih =>
    simp only [List.map_cons, List.nodup_cons] at h
    by_cases hk : e.1 = k
    · rw [List.filter_cons_of_pos (by simpa using hk)]
      have : m.filter (fun e => decide (e.1 = k)) = [] := by
        rw [List.filter_eq_nil_iff]
        intro x hx hxk
        exact h.1 (List.mem_map.mpr ⟨x, hx, by rw [of_decide_eq_true hxk, hk]⟩)
      simp [this]
    · rw [List.filter_cons_of_neg (by simpa using hk)]
      exact ih h.2

theorem entries_obj (names : List Str) (m : List (Str × Json F)) (h : (m.map (·.1)).Nodup) :
    entries names (.obj m) = some m := by
  rw [entries, if_pos]
  rw [List.all_eq_true]
  intro k _
  exact decide_eq_true (filter_key_le_one m h k)

theorem texts_wMap (m : List (Str × Json F)) (h : ∀ e ∈ m, Text e.2) :
    ∃ l : List (Str × Str), m = l.map fun e => (e.1, .str e.2) := by
  induction m with
  | nil => exact ⟨[], rfl⟩
  | cons e m ih =>
    obtain ⟨l, rfl⟩ := ih fun x hx => h x (by simp [hx])
    obtain ⟨s, hs⟩ := h e (by simp)
    exact ⟨(e.1, s) :: l, by rw [List.map_cons, ← hs]⟩

theorem mapOf_text {v : Json F} (h : MapOf Text v) :
    ∃ l : List (Str × Str), v = wMap l ∧ map str v = some l := by
  obtain ⟨m, rfl, hn, ht⟩ := h
  obtain ⟨l, rfl⟩ := texts_wMap m ht
  refine ⟨l, rfl, map_str l ?_⟩
  rwa [List.map_map] at hn

theorem wMap_text (l : List (Str × Str)) (h : (l.map (·.1)).Nodup) :
    MapOf (F := F) Text (wMap l) := by
  refine ⟨_, rfl, ?_, ?_⟩
  · rwa [List.map_map]
  · intro e he
    obtain ⟨x, _, rfl⟩ := List.mem_map.mp he
    exact ⟨_, rfl⟩

theorem wList_text (l : List Str) : Items (F := F) Text (wList l) := by
  refine ⟨_, rfl, ?_⟩
  intro x hx
  obtain ⟨s, _, rfl⟩ := List.mem_map.mp hx
  exact ⟨s, rfl⟩

theorem wMultiMap_text (l : List (Str × List Str)) (h : (l.map (·.1)).Nodup) :
    MapOf (F := F) (Items Text) (wMultiMap l) := by
  refine ⟨_, rfl, ?_, ?_⟩
  · rwa [List.map_map]
  · intro e he
    obtain ⟨x, _, rfl⟩ := List.mem_map.mp he
    exact wList_text _

theorem items_text {v : Json F} (h : Items Text v) :
    ∃ l : List Str, v = wList l ∧ list str v = some l := by
  obtain ⟨l, rfl, hl⟩ := h
  have : ∃ l' : List Str, l = l'.map Json.str := by
    induction l with
    | nil => exact ⟨[], rfl⟩
    | cons x l ih =>
      obtain ⟨l', rfl⟩ := ih fun y hy => hl y (by simp [hy])
      obtain ⟨s, rfl⟩ := hl x (by simp)
      exact ⟨s :: l', rfl⟩
  obtain ⟨l', rfl⟩ := this
  exact ⟨l', rfl, list_str l'⟩

theorem opt_none {A : Type} {m : List (Str × Json F)} {k : String} (d : Json F → Option A)
    (h : m.lookup k.toList = none) : opt m k d = some none := by
  rw [opt, h]

theorem opt_at {A : Type} {m : List (Str × Json F)} {k : String} {v : Json F}
    (d : Json F → Option A) (h : m.lookup k.toList = some v) : opt m k d = nullable d v := by
  rw [opt, h]

theorem req_none {A : Type} {m : List (Str × Json F)} {k : String} (d : Json F → Option A)
    (h : m.lookup k.toList = none) : req m k d = none := by
  rw [req, h]

/-- An entry whose name is not among those allowed is not there. -/
theorem only_none {names : List String} {m : List (Str × Json F)}
    (h : Only names (.obj m)) {k : String} (hk : ∀ n ∈ names, n.toList ≠ k.toList) :
    m.lookup k.toList = none := by
  cases hl : m.lookup k.toList with
  | none => rfl
  | some w =>
    obtain ⟨n, hn, he⟩ := h m rfl _ (Assoc.lookup_mem _ _ _ hl)
    exact absurd he.symm (hk n hn)

end Verif.Wire
