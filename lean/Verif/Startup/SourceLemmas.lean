import Verif.Startup.Spec
import Verif.Blueprint.SourceProps

/-!
# Lemmas about the blueprints that documents mean
-/

namespace Verif.Startup

open Verif Verif.Subst Verif.Subst.Spec Verif.Blueprint Verif.Blueprint.Source

variable {F : Type} {cls : CharClass} {cx : Ctx F} {env : Env} {f : Format}

theorem resourcesM_mem {xs : List (Str × SResource cls F)} {ys : List (Str × ResResource F)}
    (h : ResourcesM cx env f xs ys) {e : Str × ResResource F} (he : e ∈ ys) :
    ∃ x, (e.1, x) ∈ xs ∧ x.spec ≠ none ∧ ResourceM cx env f x e.2 := by
  induction h with
  | nil => cases he
  | keep _ hs hr _ ih =>
    rcases List.mem_cons.1 he with rfl | he
    · exact ⟨_, List.mem_cons_self .., hs, hr⟩
    · obtain ⟨x, h1, h2⟩ := ih he
      exact ⟨x, List.mem_cons_of_mem _ h1, h2⟩
  | unsupported _ _ ih =>
    obtain ⟨x, h1, h2⟩ := ih he
    exact ⟨x, List.mem_cons_of_mem _ h1, h2⟩
  | noSpec _ _ _ _ ih =>
    obtain ⟨x, h1, h2⟩ := ih he
    exact ⟨x, List.mem_cons_of_mem _ h1, h2⟩

theorem resourcesM_names {xs : List (Str × SResource cls F)} {ys : List (Str × ResResource F)}
    (h : ResourcesM cx env f xs ys) : (ys.map (·.1)).Sublist (xs.map (·.1)) := by
  induction h with
  | nil => exact .slnil
  | keep _ _ _ _ ih => exact ih.cons_cons _
  | unsupported _ _ ih => exact ih.cons _
  | noSpec _ _ _ _ ih => exact ih.cons _

/-- A field of a document without a key twice has no key twice. -/
theorem distinct_field {m : List (Str × Doc F)} (h : Distinct (.obj m)) {e : Str × Doc F}
    (he : e ∈ m) : Distinct e.2 := by
  cases h with
  | obj _ _ h => exact h e he

theorem distinct_map {A : Type} {w : A → Doc F} {m : List (Str × A)} (h : Distinct (wMap w m)) :
    (m.map (·.1)).Nodup ∧ ∀ e ∈ m, Distinct (w e.2) := by
  unfold wMap at h
  cases h with
  | obj _ h1 h2 =>
    rw [List.map_map] at h1
    exact ⟨h1, fun e he => h2 (e.1, w e.2) (List.mem_map.2 ⟨e, he, rfl⟩)⟩

theorem mem_opt {k : String} {v : Doc F} : (k.toList, v) ∈ opt k (some v) :=
  List.mem_cons_self ..

theorem good_resources {x : Source.Blueprint cls F} (g : Good x) :
    (x.resources.map (·.1)).Nodup ∧ ∀ e ∈ x.resources, Distinct (wResource e.2) := by
  have := g.distinct
  unfold write at this
  exact distinct_map (distinct_field this (e := ("resources".toList, wMap wResource x.resources))
    (by simp [req]))

theorem good_annotations {r : SResource cls F} (h : Distinct (wResource r)) {a}
    (ha : r.metadata.annotations = some a) : (a.map (·.1)).Nodup := by
  unfold wResource at h
  have h2 := distinct_field h (e := ("metadata".toList, wMeta r.metadata)) (by simp [req])
  unfold wMeta at h2
  rw [ha] at h2
  exact (distinct_map (distinct_field h2 (e := ("annotations".toList, wMap wLeaf a))
    (by simp [req, opt]))).1

theorem good_labels {r : SResource cls F} (h : Distinct (wResource r)) {a}
    (ha : r.metadata.labels = some a) : (a.map (·.1)).Nodup := by
  unfold wResource at h
  have h2 := distinct_field h (e := ("metadata".toList, wMeta r.metadata)) (by simp [req])
  unfold wMeta at h2
  rw [ha] at h2
  exact (distinct_map (distinct_field h2 (e := ("labels".toList, wMap .str a))
    (by simp [req, opt]))).1

theorem good_selector {r : SResource cls F} (h : Distinct (wResource r)) {a}
    (ha : r.linkSelector = some a) : (a.map (·.1)).Nodup := by
  unfold wResource at h
  rw [ha] at h
  have h2 := distinct_field h (e := ("linkSelector".toList, wLinkSelector a)) (by simp [req, opt])
  unfold wLinkSelector at h2
  exact (distinct_map (distinct_field h2 (e := ("byLabel".toList, wMap .str a))
    (by simp [req]))).1

/-- What a document without a key twice means has no key twice. -/
theorem maps_of_source {x : Source.Blueprint cls F} (g : Good x) {y : ResConfig F}
    (h : BlueprintM cx env f x y) : Startup.Spec.Maps y := by
  obtain ⟨h1, h2⟩ := good_resources g
  refine ⟨?_, ?_, ?_, (resourcesM_names h.resources).nodup h1⟩
  · intro e he a ha
    obtain ⟨r, hr, _, hm⟩ := resourcesM_mem h.resources he
    have := hm.metadata.annotations
    rw [ha] at this
    cases hx : r.metadata.annotations with
    | none => rw [hx] at this; cases this
    | some b =>
      rw [hx] at this
      rw [← MRel.keys this]
      exact good_annotations (h2 _ hr) hx
  · intro e he a ha
    obtain ⟨r, hr, _, hm⟩ := resourcesM_mem h.resources he
    exact good_labels (h2 _ hr) (hm.metadata.labels ▸ ha)
  · intro e he a ha
    obtain ⟨r, hr, _, hm⟩ := resourcesM_mem h.resources he
    exact good_selector (h2 _ hr) (hm.linkSelector ▸ ha)

/-- The type of a resource is that of its specification. -/
theorem typed_of_source {x : Source.Blueprint cls F} (g : Good x) {y : ResConfig F}
    (h : BlueprintM cx env f x y) : Startup.Spec.Typed y := by
  intro e he
  obtain ⟨r, hr, hs, hm⟩ := resourcesM_mem h.resources he
  have ht := g.types _ hr
  have hsp := hm.spec
  rw [hm.type]
  cases hx : r.spec with
  | none => exact absurd hx hs
  | some s =>
    rw [hx] at hsp
    cases hy : e.2.spec with
    | none => rw [hy] at hsp; cases hsp
    | some s' =>
      rw [hy] at hsp
      have hsp : SpecM cx env f s s' := hsp
      rw [← ht s hx]
      cases hsp <;> simp [specType]

end Verif.Startup
