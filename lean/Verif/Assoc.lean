/-!
# Lemmas about association lists

Hash maps are modelled as association lists with `List.lookup`; these lemmas are shared by several
models.
-/

namespace Verif.Assoc

variable {K V : Type} [BEq K] [LawfulBEq K]

theorem lookup_mem (k : K) (m : List (K × V)) (v : V) (h : m.lookup k = some v) : (k, v) ∈ m := by
  induction m with
  | nil => simp at h
  | cons kv m ih =>
    obtain ⟨k', v'⟩ := kv
    rw [List.lookup_cons] at h
    cases hk : k == k' with
    | true => rw [hk] at h; simp at h hk; simp [h, hk]
    | false => rw [hk] at h; exact List.mem_cons_of_mem _ (ih h)

theorem lookup_of_mem (k : K) (m : List (K × V)) (v : V)
    (hn : (m.map (·.1)).Nodup) (h : (k, v) ∈ m) : m.lookup k = some v := by
  induction m with
  | nil => simp at h
  | cons kv m ih =>
    obtain ⟨k', v'⟩ := kv
    simp only [List.map_cons, List.nodup_cons] at hn
    rw [List.lookup_cons]
    simp only [List.mem_cons, Prod.mk.injEq] at h
    rcases h with ⟨rfl, rfl⟩ | h
    · simp
    · have hk : (k == k') = false := by
        rw [beq_eq_false_iff_ne]
        rintro rfl
        exact hn.1 (List.mem_map_of_mem (f := (·.1)) h)
      rw [hk]
      exact ih hn.2 h

theorem lookup_eq_none (k : K) (m : List (K × V)) : m.lookup k = none ↔ k ∉ m.map (·.1) := by
  constructor
  · intro h hm
    induction m with
    | nil => simp at hm
    | cons kv m ih =>
      obtain ⟨k', v⟩ := kv
      rw [List.lookup_cons] at h
      cases hk : k == k' with
      | true => rw [hk] at h; simp at h
      | false =>
        rw [hk] at h
        simp only [List.map_cons, List.mem_cons] at hm
        rcases hm with hm | hm
        · simp [hm] at hk
        · exact ih h hm
  · intro h
    cases hl : m.lookup k with
    | none => rfl
    | some v => exact absurd (List.mem_map_of_mem (f := (·.1)) (lookup_mem _ _ _ hl)) h

theorem lookup_filter_ne (k j : K) (m : List (K × V)) (h : k ≠ j) :
    (m.filter (fun kv => kv.1 != j)).lookup k = m.lookup k := by
  induction m with
  | nil => rfl
  | cons kv m ih =>
    obtain ⟨k', v⟩ := kv
    cases hk : k' != j with
    | false =>
      have hkj : k' = j := by simpa using hk
      have : (k == k') = false := by rw [hkj]; simpa using h
      simp [List.filter_cons, List.lookup_cons, hk, this, ih]
    | true => simp only [List.filter_cons, hk, if_true, List.lookup_cons, ih]

theorem lookup_filter_self (k : K) (m : List (K × V)) :
    (m.filter (fun kv => kv.1 != k)).lookup k = none := by
  rw [lookup_eq_none]
  simp

theorem nodup_filter (p : K × V → Bool) (m : List (K × V)) (h : (m.map (·.1)).Nodup) :
    ((m.filter p).map (·.1)).Nodup :=
  (List.filter_sublist.map _).nodup h

theorem nodup_insert (k : K) (v : V) (m : List (K × V)) (h : (m.map (·.1)).Nodup) :
    (((k, v) :: m.filter (fun kv => kv.1 != k)).map (·.1)).Nodup := by
  rw [List.map_cons, List.nodup_cons]
  refine ⟨?_, nodup_filter _ m h⟩
  rw [← lookup_eq_none]
  exact lookup_filter_self k m

theorem snoc_induction {A : Type} {motive : List A → Prop} (nil : motive [])
    (snoc : ∀ l a, motive l → motive (l ++ [a])) (l : List A) : motive l := by
  have : ∀ n (l : List A), l.length = n → motive l := by
    intro n
    induction n with
    | zero => intro l hl; rw [List.length_eq_zero_iff] at hl; subst hl; exact nil
    | succ n ih =>
      intro l hl
      have hne : l ≠ [] := by rintro rfl; simp at hl
      rw [← List.dropLast_concat_getLast hne]
      exact snoc _ _ (ih _ (by simp [hl]))
  exact this _ l rfl

end Verif.Assoc
