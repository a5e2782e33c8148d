import Verif.Blueprint.AgreeRes

/-!
# The two readers agree on portable documents: blueprints, and what holds of loaded blueprints
-/

namespace Verif.Blueprint

open Verif Verif.Subst Spec

variable {F : Type} (cx : Ctx F) (env : Env)

/-! ## Invariants -/

theorem hmInsert_all {A : Type} {P : Str → A → Prop} {m : List (Str × A)} {k : Str} {a : A}
    (h : ∀ e ∈ m, P e.1 e.2) (ha : P k a) : ∀ e ∈ hmInsert m k a, P e.1 e.2 := by
  intro e he
  simp only [hmInsert, List.mem_append, List.mem_filter, List.mem_singleton] at he
  rcases he with ⟨he, _⟩ | rfl
  · exact h e he
  · exact ha

theorem fillMap_all {A : Type} {P : A → Prop} {r : Doc F → Outcome Err (Option A)}
    (hr : ∀ v a, r v = .ok (some a) → P a) {m : List (Str × Doc F)} {acc res : List (Str × A)}
    (hacc : ∀ e ∈ acc, P e.2) (h : fillMap r m acc = .ok res) : ∀ e ∈ res, P e.2 := by
  induction m generalizing acc with
  | nil => cases h; exact hacc
  | cons e m ih =>
    simp only [fillMap] at h
    obtain ⟨o, ho, h⟩ := bind_eq_ok h
    cases o with
    | none => exact ih hacc h
    | some a => exact ih (hmInsert_all (P := fun _ a => P a) hacc (hr _ a ho)) h

/-- An invariant of filling a struct: every field keeps it. -/
theorem fill_inv {S : Type} {P : S → Prop} {T : List (Field F S)}
    (hT : ∀ f ∈ T, ∀ v s s', P s → f.2 v s = .ok s' → P s') {st : Bool}
    {m : List (Str × Doc F)} {s s' : S} (hs : P s) (h : fill st T m s = .ok s') : P s' := by
  induction m generalizing s with
  | nil => cases h; exact hs
  | cons e m ih =>
    simp only [fill] at h
    cases hf : get? T e.1 with
    | none =>
      rw [hf] at h
      cases st
      · exact ih hs h
      · cases h
    | some f =>
      rw [hf] at h
      obtain ⟨s1, h1, h⟩ := bind_eq_ok h
      exact ih (hT _ (get?_mem hf) _ _ _ hs h1) h

theorem require_ok {b : Bool} {u : Unit} (h : require b = .ok u) : b = true := by
  cases b
  · cases h
  · rfl

/-- What the YAML reader guarantees. -/
structure YamlInv (b : RawConfig F) : Prop where
  version : b.version = supportedVersion ∨ b.version = []
  specs : ∀ e ∈ b.resources, e.2.spec.isSome = true
  types : ∀ vs, b.variables = some vs → ∀ e ∈ vs, e.2.type.isEmpty = false

theorem yamlResourceEntry_spec {v : Doc F} {r : RawResource F}
    (h : yamlResourceEntry cx v = .ok (some r)) : r.spec.isSome = true := by
  cases v with
  | obj m =>
    simp only [yamlResourceEntry] at h
    cases hr : yamlResource cx m with
    | ok r' =>
      rw [hr] at h
      cases h
      unfold yamlResource at hr
      split at hr
      · cases hr
      · obtain ⟨_, _, hr⟩ := bind_eq_ok hr
        obtain ⟨_, _, hr⟩ := bind_eq_ok hr
        obtain ⟨r1, _, hr⟩ := bind_eq_ok hr
        obtain ⟨_, h1, hr⟩ := bind_eq_ok hr
        cases hr
        exact require_ok h1
    | err e =>
      rw [hr] at h
      cases e <;> cases h
    | panic =>
      rw [hr] at h
      cases h
  | _ => cases h

theorem yamlVariable_type {m : List (Str × Doc F)} {x : Variable F}
    (h : yamlVariable cx m = .ok x) : x.type.isEmpty = false := by
  unfold yamlVariable at h
  obtain ⟨_, _, h⟩ := bind_eq_ok h
  obtain ⟨_, h1, h⟩ := bind_eq_ok h
  cases h
  simpa using require_ok h1

theorem yamlTop_inv : ∀ f ∈ yamlTop cx, ∀ v s s', YamlInv s → f.2 v s = .ok s' →
    YamlInv s' := by
  intro f hf v s s' hs h
  simp only [yamlTop, List.mem_cons, List.not_mem_nil, or_false] at hf
  rcases hf with rfl | rfl | rfl | rfl | rfl
  · cases v with
    | str t =>
      simp only at h
      split at h
      · next ht => cases h; exact ⟨.inl ht, hs.specs, hs.types⟩
      · cases h
    | _ => cases h; exact hs
  · cases v with
    | str t => cases h; exact ⟨hs.version, hs.specs, hs.types⟩
    | _ => cases h; exact hs
  · cases v with
    | obj m =>
      obtain ⟨a, ha, h⟩ := bind_eq_ok h
      cases h
      refine ⟨hs.version, hs.specs, fun vs hvs => ?_⟩
      cases hvs
      refine fillMap_all (P := fun x => x.type.isEmpty = false) (fun v x hx => ?_) (by simp) ha
      cases v with
      | obj m =>
        obtain ⟨y, hy, hx⟩ := bind_eq_ok hx
        cases hx
        exact yamlVariable_type cx hy
      | _ => cases hx
    | _ => cases h; exact hs
  · cases v with
    | obj m =>
      obtain ⟨a, ha, h⟩ := bind_eq_ok h
      cases h
      exact ⟨hs.version, fillMap_all (P := fun r => r.spec.isSome = true)
        (fun v r hr => yamlResourceEntry_spec cx hr) (by simp) ha, hs.types⟩
    | _ => cases h; exact hs
  · cases v with
    | obj m =>
      refine fill_inv (P := YamlInv) ?_ hs h
      intro f hf v s s' hs h
      simp only [List.mem_singleton] at hf
      subst hf
      cases v with
      | obj m =>
        obtain ⟨a, ha, h⟩ := bind_eq_ok h
        cases h
        exact ⟨hs.version, hs.specs, hs.types⟩
      | _ => cases h; exact hs
    | _ => cases h; exact hs

theorem yamlBlueprint_inv {d : Doc F} {b : RawConfig F} (h : yamlBlueprint cx d = .ok b) :
    b.version = supportedVersion ∧ b.resources ≠ [] ∧
      (∀ e ∈ b.resources, e.2.spec.isSome = true) ∧
      ∀ vs, b.variables = some vs → ∀ e ∈ vs, e.2.type.isEmpty = false := by
  cases d with
  | obj m =>
    obtain ⟨b', hb, h⟩ := bind_eq_ok h
    obtain ⟨_, h1, h⟩ := bind_eq_ok h
    obtain ⟨_, h2, h⟩ := bind_eq_ok h
    cases h
    have hi := fill_inv (yamlTop_inv cx) (s := {}) ⟨.inr rfl, by simp, by simp⟩ hb
    have h1 := require_ok h1
    have h2 := require_ok h2
    refine ⟨?_, ?_, hi.specs, hi.types⟩
    · rcases hi.version with h | h
      · exact h
      · rw [h] at h1; cases h1
    · intro h
      rw [h] at h2
      cases h2
  | _ => cases h

theorem jsonStruct_obj_ok {S : Type} {T : List (Field F S)} {rq : List Str} {s s' : S} {d : Doc F}
    (h : jsonStruct T rq s d = .ok s') : ∃ m, (rq.all fun k => decide (countKey m k = 1)) = true ∧
      fill false T m s = .ok s' := by
  unfold jsonStruct at h
  obtain ⟨m, _, h⟩ := bind_eq_ok h
  obtain ⟨_, _, h⟩ := bind_eq_ok h
  obtain ⟨_, h1, h⟩ := bind_eq_ok h
  exact ⟨m, require_ok h1, h⟩

theorem countKey_one {m : List (Str × Doc F)} {k : Str} (h : countKey m k = 1) :
    ∃ e ∈ m, e.1 = k := by
  unfold countKey at h
  cases hf : m.filter (fun e => decide (e.1 = k)) with
  | nil => rw [hf] at h; cases h
  | cons e l =>
    have : e ∈ m.filter (fun e => decide (e.1 = k)) := hf ▸ List.mem_cons_self ..
    rw [List.mem_filter] at this
    exact ⟨e, this.1, by simpa using this.2⟩

theorem jsonBlueprint_version {d : Doc F} {b : RawConfig F} (h : jsonBlueprint cx d = .ok b) :
    b.version = supportedVersion := by
  obtain ⟨m, hm, h⟩ := jsonStruct_obj_ok h
  simp only [List.all_cons, Bool.and_eq_true, decide_eq_true_eq] at hm
  obtain ⟨e, he, hk⟩ := countKey_one hm.1
  refine fill_sets (k := "version".toList) (P := fun b => b.version = supportedVersion)
    (fs := [opt "version" fun _ => True, opt "transform" fun _ => True,
      opt "variables" fun _ => True, opt "resources" fun _ => True, opt "metadata" fun _ => True])
    ?_ (.here ?_) ?_ ⟨e, he, hk⟩ h
  · refine Keeps.fld ?_ (Keeps.fld (fun _ _ _ _ _ h => h) (Keeps.fld (fun _ _ _ _ _ h => h)
      (Keeps.fld (fun _ _ _ _ _ h => h) (Keeps.fld (fun _ _ _ _ _ h => h) .nil))))
    intro v s a _ ha _
    cases v with
    | str t =>
      simp only [jsonVersion] at ha
      split at ha
      · next ht => cases ha; exact ht
      · cases ha
    | _ => cases ha
  · intro v s s' _ h
    obtain ⟨a, ha, h⟩ := bind_eq_ok h
    cases h
    cases v with
    | str t =>
      simp only [jsonVersion] at ha
      split at ha
      · next ht => cases ha; exact ht
      · cases ha
    | _ => cases ha
  · intro e he f hf _
    simp only [List.mem_cons, List.not_mem_nil, or_false] at hf
    rcases hf with rfl | rfl | rfl | rfl | rfl <;> trivial

/-! ## Agreement -/

/-- The fields of the top level of a portable blueprint. -/
abbrev topFields : List (FieldSpec F) :=
  [req "version" text, req "transform" text, opt "variables" (mapOf (object variableFields)),
    req "resources" (mapOf Spec.Resource),
    opt "metadata" (object [req "sharedHandlerConfig" (object sharedFields)])]

theorem top_agree {m : List (Str × Doc F)} (hm : Fits topFields m) :
    Rel (ConfigRel cx) (fill false (yamlTop cx) m {}) (jsonBlueprint cx (.obj m)) := by
  unfold jsonBlueprint
  rw [jsonStruct_obj (fs := topFields) (rq := ["version".toList, "transform".toList,
    "resources".toList]) rfl hm]
  refine fill_agree (fs := topFields) (.cons ?_ (.cons ?_ (.cons ?_ (.cons ?_ (.cons ?_ .nil)))))
    hm.shapes (.inl rfl) (by initial)
  · rintro _ s s' ⟨t, rfl⟩ hs
    simp only [jsonVersion]
    split
    · exact { hs with version := rfl }
    · trivial
  · rintro _ s s' ⟨t, rfl⟩ hs
    exact { hs with transform := rfl }
  · intro v s s' hv hs
    have h := mapSkip_agree object_obj (variable_agree cx) v hv
    rw [jsonOpt_nonNull _ hv]
    obtain ⟨m, rfl, _⟩ := hv
    simp only [readObj] at h
    dsimp only [keep]
    rcases Rel.cases h with ⟨a, b, ha, hb, hab⟩ | ⟨ha, hb⟩
    · rw [ha, hb, MRel.eq hab]
      exact { hs with variables := rfl }
    · rw [ha, hb]
      trivial
  · rintro _ s s' ⟨m, rfl, hm⟩ hs
    have h := fillMap_rel m (fun e he => resource_agree cx e.2 (hm e he)) .nil
    dsimp only [readObj]
    rcases Rel.cases h with ⟨a, b, ha, hb, hab⟩ | ⟨ha, hb⟩
    · rw [ha, hb]
      exact { hs with resources := hab }
    · rw [ha, hb]
      trivial
  · intro v s s' hv hs
    rw [jsonOpt_nonNull _ hv]
    obtain ⟨m, rfl, hm⟩ := hv
    obtain ⟨w, hw, hsw⟩ := Fits.get hm (p := req "sharedHandlerConfig" (object sharedFields))
      (List.mem_cons_self ..) rfl
    have hw' : get? m "sharedHandlerConfig".toList = some w := hw
    have hsw : object sharedFields w := hsw
    have h := shared_agree cx w hsw
    have hm' : Fits [opt "sharedHandlerConfig" (object (F := F) sharedFields)] m := by
      refine ⟨hm.nodup, fun e he f hf hk => ?_, fun f hf hr => ?_⟩
      · simp only [List.mem_singleton] at hf
        subst hf
        exact hm.shapes e he (req "sharedHandlerConfig" (object sharedFields))
          (List.mem_singleton.2 rfl) hk
      · simp only [List.mem_singleton] at hf
        subst hf
        cases hr
    dsimp only [keep]
    unfold jsonBlueprintMeta
    rw [jsonStruct_obj (fs := [opt "sharedHandlerConfig" (object sharedFields)]) (rq := []) rfl hm',
      fill_one hm.nodup hw', jsonOpt_nonNull _ hsw]
    rw [fill_extract rfl (by simp) hm.nodup, hw']
    obtain ⟨m', rfl, _⟩ := hsw
    dsimp only [keep, readObj] at h ⊢
    rcases Rel.cases h with ⟨a, b, ha, hb, hab⟩ | ⟨ha, hb⟩
    · rw [ha, hb]
      simp only [Outcome.bind_ok, Outcome.pure_eq, fill_nil]
      exact { hs with metadata := hab }
    · rw [ha, hb]
      trivial

theorem resResources_specs {m : List (Str × RawResource F)} {r : List (Str × ResResource F)}
    (hs : ∀ e ∈ m, e.2.spec.isSome = true) (h : resResources cx env m = .ok r) :
    r.isEmpty = m.isEmpty := by
  cases m with
  | nil => cases h; rfl
  | cons e m =>
    obtain ⟨k, x⟩ := e
    simp only [resResources] at h
    obtain ⟨y, hy, h⟩ := bind_eq_ok h
    obtain ⟨ys, _, h⟩ := bind_eq_ok h
    have hx := hs (k, x) (List.mem_cons_self ..)
    unfold resResource at hy
    obtain ⟨_, _, hy⟩ := bind_eq_ok hy
    obtain ⟨sp, hsp, hy⟩ := bind_eq_ok hy
    cases hy
    have : sp.isSome = true := by
      dsimp only at hx
      cases hc : x.spec with
      | none => rw [hc] at hx; cases hx
      | some z =>
        rw [hc] at hsp
        obtain ⟨_, _, hsp⟩ := bind_eq_ok hsp
        cases hsp
        rfl
    dsimp only at h
    rw [if_pos this] at h
    cases h
    rfl

theorem liftResolve_ok {A : Type} {x : Res A} {a : A} (h : liftResolve x = .ok a) : x = .ok a := by
  cases x with
  | ok b => cases h; rfl
  | err => cases h
  | panic => cases h

/-- Resolving a blueprint that satisfies what the YAML reader guarantees gives a valid one. -/
theorem validate_ok {b : RawConfig F} {c : ResConfig F} (hr : b.resources ≠ [])
    (hs : ∀ e ∈ b.resources, e.2.spec.isSome = true)
    (ht : ∀ vs, b.variables = some vs → ∀ e ∈ vs, e.2.type.isEmpty = false)
    (h : resBlueprint cx env b = .ok c) : validate c = .ok () := by
  unfold resBlueprint at h
  obtain ⟨rs, hrs, h⟩ := bind_eq_ok h
  obtain ⟨md, _, h⟩ := bind_eq_ok h
  cases h
  have h1 := resResources_specs cx env hs hrs
  have h2 : b.resources.isEmpty = false := by
    cases h : b.resources with
    | nil => exact absurd h hr
    | cons => rfl
  unfold validate
  dsimp only
  rw [h1, h2]
  cases hv : b.variables with
  | none => rfl
  | some vs =>
    have : (vs.all fun e => !e.2.type.isEmpty) = true := by
      rw [List.all_eq_true]
      intro e he
      simp [ht vs hv e he]
    dsimp only
    rw [this]
    rfl

/-- On portable documents the two loaders give the same blueprint, or both fail. -/
theorem load_agree {d : Doc F} (h : Portable d) (c : ResConfig F) (rest : List (Doc F)) :
    fromYaml cx env (d :: rest) = .ok c ↔ fromJson cx env d = .ok c := by
  obtain ⟨m, rfl, hm⟩ := h
  unfold fromYaml fromJson yamlBlueprint
  dsimp only
  rcases Rel.cases (top_agree cx hm) with ⟨a, b, ha, hb, hab⟩ | ⟨ha, hb⟩
  · have hver := (jsonBlueprint_version cx hb)
    have hsame := (resBlueprint_same cx env hab).1
    rw [ha, hb]
    simp only [Outcome.bind_ok, ← hsame]
    have hv : (!a.version.isEmpty) = true := by
      rw [hab.version, hver]
      rfl
    rw [hv]
    cases hr : a.resources.isEmpty with
    | true =>
      have hl : a.resources = [] := by simpa using hr
      simp only [Blueprint.require, if_true, Outcome.bind_ok, Bool.not_true, Bool.false_eq_true,
        if_false, Outcome.bind_err]
      refine ⟨nofun, fun h => ?_⟩
      obtain ⟨x, hx, h⟩ := bind_eq_ok h
      obtain ⟨_, hval, h⟩ := bind_eq_ok h
      have hx := liftResolve_ok hx
      unfold resBlueprint at hx
      obtain ⟨rs, hrs, hx⟩ := bind_eq_ok hx
      obtain ⟨md, _, hx⟩ := bind_eq_ok hx
      cases hx
      rw [hl] at hrs
      cases hrs
      unfold validate at hval
      obtain ⟨_, hval, _⟩ := bind_eq_ok hval
      cases hval
    | false =>
      have hy : yamlBlueprint cx (.obj m) = .ok a := by
        unfold yamlBlueprint
        dsimp only
        rw [ha]
        simp only [Outcome.bind_ok, hv, hr]
        rfl
      obtain ⟨_, h2, h3, h4⟩ := yamlBlueprint_inv cx hy
      simp only [Blueprint.require, if_true, Outcome.bind_ok, Bool.not_false, Outcome.pure_eq]
      constructor
      · intro h
        rw [h]
        simp only [Outcome.bind_ok, validate_ok cx env h2 h3 h4 (liftResolve_ok h)]
      · intro h
        obtain ⟨x, hx, h⟩ := bind_eq_ok h
        obtain ⟨_, _, h⟩ := bind_eq_ok h
        cases h
        exact hx
  · rw [ha, hb]
    simp only [Outcome.bind_err]

end Verif.Blueprint
