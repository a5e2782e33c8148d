import Verif.Blueprint.AgreeFlow

/-!
# The two readers agree on portable documents: resources
-/

namespace Verif.Blueprint

open Verif Verif.Subst Spec

variable {F : Type} (cx : Ctx F)

/-! ## Metadata, link selectors, variables -/

theorem readStrMap_agree (v : Doc F) (h : mapOf text v) :
    ∃ m, v = .obj m ∧ ∃ a, fillMap (keep (readStr (F := F))) m [] = .ok a ∧
      fillMap yamlLabel m [] = .ok a := by
  obtain ⟨m, rfl, hm⟩ := h
  refine ⟨m, rfl, ?_⟩
  suffices h : ∀ acc, ∃ a, fillMap (keep (readStr (F := F))) m acc = .ok a ∧
      fillMap yamlLabel m acc = .ok a from h []
  induction m with
  | nil => exact fun acc => ⟨acc, rfl, rfl⟩
  | cons e m ih =>
    intro acc
    obtain ⟨k, v⟩ := e
    obtain ⟨s, hs⟩ := hm (k, v) (List.mem_cons_self ..)
    dsimp only at hs
    subst hs
    simp only [fillMap, keep, readStr, yamlLabel, Outcome.bind_ok, Outcome.pure_eq]
    exact ih (fun e he => hm e (List.mem_cons_of_mem _ he)) _

theorem meta_agree : ∀ v : Doc F, object metaFields v →
    Rel (MetaRel cx) (readObj (yamlMeta cx) v) (jsonMeta cx v) := by
  refine object_check (fs := metaFields) ?_ rfl (by initial) ?_
  · unfold metaFields
    refine Agree.req (by agrees) (by setter) (.cons ?_ (.cons ?_ .nil))
    · intro v s s' hv hs
      rw [jsonOpt_nonNull _ hv]
      have h := plainMap_agree cx v hv
      obtain ⟨m, rfl, _⟩ := hv
      dsimp only [keep, readObj] at h ⊢
      rcases Rel.cases h with ⟨a, b, ha, hb, hab⟩ | ⟨ha, hb⟩
      · rw [ha, hb]
        exact { hs with annotations := hab }
      · rw [ha, hb]
        trivial
    · intro v s s' hv hs
      rw [jsonOpt_nonNull _ hv]
      obtain ⟨m, rfl, a, ha, _⟩ := readStrMap_agree v hv
      dsimp only [keep, readMap]
      rw [show fillMap (keep readStr) m [] = .ok a from ha]
      exact { hs with labels := rfl }
  · intro m hm d hd
    have h1 := fill_sets (P := fun d => sosEmpty d.displayName = false) (fs := metaFields)
      (by
        unfold metaFields
        refine Keeps.fld (fun _ _ _ hv ha _ => sos_not_empty cx hv ha) (.cons ?_ (.cons ?_ .nil))
        · intro v s s' hv hs h
          obtain ⟨m, rfl, _⟩ := hv
          obtain ⟨a, _, h⟩ := bind_eq_ok h
          cases h
          exact hs
        · intro v s s' hv hs h
          obtain ⟨m, rfl, _⟩ := hv
          obtain ⟨a, _, h⟩ := bind_eq_ok h
          cases h
          exact hs)
      (by unfold metaFields; brought sos_not_empty cx) hm.shapes
      (fits_in hm "displayName" (ns := ["displayName".toList]) rfl (by decide)) hd
    rw [h1]
    rfl

theorem linkSelector_agree (v : Doc F) (h : object [req "byLabel" (mapOf text)] v) :
    Rel Eq (readObj yamlLinkSelector v) (jsonLinkSelector v) := by
  obtain ⟨m, rfl, hm⟩ := h
  obtain ⟨v, hv, hsv⟩ := Fits.get hm (p := req "byLabel" (mapOf text)) (List.mem_cons_self ..) rfl
  obtain ⟨l, rfl, a, ha, ha'⟩ := readStrMap_agree v hsv
  have hv' : get? m "byLabel".toList = some (.obj l) := hv
  unfold jsonLinkSelector
  rw [jsonStruct_obj (rq := ["byLabel".toList]) (fs := [req "byLabel" (mapOf text)]) rfl hm,
    fill_one hm.nodup hv']
  show Rel _ (yamlLinkSelector m) _
  unfold yamlLinkSelector
  rw [hv']
  dsimp only [readMap]
  rw [ha, ha']
  exact rfl

theorem scalar_eq : yamlScalar cx = jsonScalar cx := by
  funext v
  cases v <;> rfl

theorem scalar_self (v : Doc F) : Rel Eq (jsonScalar cx v) (jsonScalar cx v) := by
  cases v <;> first | trivial | exact rfl

theorem readStr_some {v : Doc F} (hv : someText v) {a : Str} (h : readStr v = .ok a) :
    a.isEmpty = false := by
  obtain ⟨s, hs, rfl⟩ := hv
  cases h
  cases a with
  | nil => exact absurd rfl hs
  | cons => rfl

theorem str_agree (sh : Shape F) (v : Doc F) (_ : sh v) : Rel Eq (readStr v) (readStr v) :=
  readStr_self v

theorem variable_agree : ∀ v : Doc F, object variableFields v →
    Rel Eq (readObj (yamlVariable cx) v) (jsonVariable cx v) := by
  refine object_check (fs := variableFields) ?_ rfl rfl ?_
  · unfold variableFields
    refine Agree.req (str_agree _) (by setter) (.cons ?_ (Agree.opt (Q := Eq) ?_ (by setter)
      (.cons ?_ (Agree.opt (str_agree _) (by setter) .nil))))
    · rintro v s _ hv rfl
      rw [jsonOpt_nonNull _ hv]
      obtain ⟨l, rfl, _⟩ := hv
      dsimp only [keep, readVec]
      rw [scalar_eq]
      rcases Tame.of (readVec_self (scalar_self cx)) (.arr l) with ⟨a, ha⟩ | ha
      · rw [show fillVec (keep (jsonScalar cx)) l = .ok a from ha]
        exact rfl
      · rw [show fillVec (keep (jsonScalar cx)) l = .err .format from ha]
        trivial
    · intro v _
      rw [scalar_eq]
      exact scalar_self cx v
    · rintro v s _ hv rfl
      obtain ⟨b, rfl⟩ := hv
      exact rfl
  · intro m hm d hd
    have h1 := fill_sets (P := fun d => d.type.isEmpty = false) (fs := variableFields)
      (by
        unfold variableFields
        refine Keeps.fld (fun _ _ _ hv ha _ => readStr_some hv ha) (.cons ?_
          (Keeps.fld (fun _ _ _ _ _ h => h) (.cons ?_ (Keeps.fld (fun _ _ _ _ _ h => h) .nil))))
        · intro v s s' hv hs h
          obtain ⟨m, rfl, _⟩ := hv
          obtain ⟨a, _, h⟩ := bind_eq_ok h
          cases h
          exact hs
        · intro v s s' hv hs h
          obtain ⟨b, rfl⟩ := hv
          cases h
          exact hs)
      (by unfold variableFields; brought readStr_some) hm.shapes
      (fits_in hm "type" (ns := ["type".toList]) rfl (by decide)) hd
    rw [h1]
    rfl

/-! ## Resources -/

theorem spec_agree {t : String} {sh : Shape F} (h : (t, sh) ∈ specOf) :
    ∃ rt : RType, yamlType t.toList = .ok rt ∧ typeOfName t.toList = some rt ∧
      ∀ v, sh v → Rel (SpecRel cx) (readObj (yamlSpec cx rt) v) (jsonSpec cx rt v) := by
  have lift : ∀ {A : Type} {R : A → A → Prop} {f : A → RawSpec F}
      {r : List (Str × Doc F) → Outcome Err A} {r' : Doc F → Outcome Err A} {v : Doc F},
      (∀ a b, R a b → SpecRel cx (f a) (f b)) → Rel R (readObj r v) (r' v) →
      Rel (SpecRel cx) (readObj (fun m => r m >>= fun a => Pure.pure (f a)) v)
        (r' v >>= fun a => Pure.pure (f a)) := by
    intro A R f r r' v hf h
    cases v with
    | obj m => exact Rel.map h hf
    | _ =>
      rcases Rel.cases h with ⟨_, _, h, _⟩ | ⟨_, hb⟩
      · cases h
      · rw [hb]; trivial
  simp only [specOf, List.mem_cons, List.not_mem_nil, or_false, Prod.mk.injEq] at h
  rcases h with ⟨rfl, rfl⟩ | ⟨rfl, rfl⟩ | ⟨rfl, rfl⟩ | ⟨rfl, rfl⟩ | ⟨rfl, rfl⟩ | ⟨rfl, rfl⟩
  · exact ⟨.handler, rfl, rfl, fun v h => lift (fun _ _ h => h) (handler_agree cx v h)⟩
  · exact ⟨.api, rfl, rfl, fun v h => lift (fun _ _ h => h) (api_agree cx v h)⟩
  · exact ⟨.consumer, rfl, rfl, fun v h => lift (fun _ _ h => h) (consumer_agree cx v h)⟩
  · exact ⟨.schedule, rfl, rfl, fun v h => lift (fun _ _ h => h) (schedule_agree cx v h)⟩
  · exact ⟨.handlerConfig, rfl, rfl, fun v h => lift (fun _ _ h => h) (shared_agree cx v h)⟩
  · exact ⟨.workflow, rfl, rfl, fun v h => lift (fun _ _ h => h) (workflow_agree cx v h)⟩

/-- The two resources being filled correspond, and the slots of the fields still to come are
free. -/
structure ResStep (m : List (Str × Doc F)) (r : RawResource F) (s : JRes F) : Prop where
  type : s.type = some r.type
  supported : s.unsupported = false
  metadata : MetaRel cx r.metadata s.metadata
  spec : ORel (SpecRel cx) r.spec s.spec
  description : r.description = s.description
  linkSelector : r.linkSelector = s.linkSelector
  freeSpec : (∃ e ∈ m, e.1 = "spec".toList) → s.spec = none
  freeDescription : (∃ e ∈ m, e.1 = "description".toList) → s.description = none
  freeLinkSelector : (∃ e ∈ m, e.1 = "linkSelector".toList) → s.linkSelector = none

theorem yamlRes_get_metadata (t : RType) : get? (yamlResTable cx t) "metadata".toList =
    some (fun v s => readObj (yamlMeta cx) v >>= fun a => Pure.pure { s with metadata := a }) := rfl

theorem yamlRes_get_spec (t : RType) : get? (yamlResTable cx t) "spec".toList =
    some (fun v s => readObj (yamlSpec cx t) v >>= fun a => Pure.pure { s with spec := some a }) :=
  rfl

theorem yamlRes_get_description (t : RType) : get? (yamlResTable cx t) "description".toList =
    some (fun v s => readStr v >>= fun a => Pure.pure { s with description := some a }) := rfl

theorem yamlRes_get_linkSelector (t : RType) : get? (yamlResTable cx t) "linkSelector".toList =
    some (fun v s => readObj yamlLinkSelector v >>= fun a =>
      Pure.pure { s with linkSelector := some a }) := rfl

theorem resource_fill {sh : Shape F} {rt : RType}
    (hspec : ∀ v, sh v → Rel (SpecRel cx) (readObj (yamlSpec cx rt) v) (jsonSpec cx rt v))
    (m : List (Str × Doc F)) (hn : (m.map (·.1)).Nodup) (hsh : Shapes (resourceFields sh) m)
    (ho : OnlyFields (resourceFields sh) m) (r : RawResource F) (s : JRes F) (hr : r.type = rt)
    (h : ResStep cx m r s) :
    Rel (ResStep cx [])
      (fill false (yamlResTable cx rt) m r)
      (fill true (skipFields (jsonResTable cx)) m s) := by
  induction m generalizing r s with
  | nil => exact h
  | cons e m ih =>
    have ih := ih (nodup_tail hn) hsh.tail (fun e he => ho e (List.mem_cons_of_mem _ he))
    obtain ⟨k, v⟩ := e
    have hno : ∀ e ∈ m, e.1 ≠ k := by
      rw [List.map_cons, List.nodup_cons] at hn
      exact fun e he hk => hn.1 (List.mem_map.2 ⟨e, he, hk⟩)
    have tl : ∀ {n : Str}, (∃ e ∈ m, e.1 = n) → ∃ e ∈ (k, v) :: m, e.1 = n :=
      fun ⟨e, he, hn⟩ => ⟨e, List.mem_cons_of_mem _ he, hn⟩
    obtain ⟨f, hf, hk⟩ := ho (k, v) (List.mem_cons_self ..)
    have hv := hsh (k, v) (List.mem_cons_self ..) f hf hk
    simp only [resourceFields, List.mem_cons, List.not_mem_nil, or_false] at hf
    dsimp only at hk
    rcases hf with rfl | rfl | rfl | rfl
    · have hk : k = "metadata".toList := hk.symm
      subst hk
      simp only [fill]
      rw [show get? (skipFields (jsonResTable cx)) "metadata".toList = some (fun v s =>
        if s.unsupported then .ok s else jsonMeta cx v >>= fun a =>
          Pure.pure { s with metadata := a }) from rfl, yamlRes_get_metadata]
      simp only [h.supported, Bool.false_eq_true, if_false]
      rcases Rel.cases (meta_agree cx v hv) with ⟨a, b, ha, hb, hab⟩ | ⟨ha, hb⟩
      · rw [ha, hb]
        exact ih _ _ hr
          { h with
            supported := rfl
            metadata := hab
            freeSpec := fun h' => h.freeSpec (tl h')
            freeDescription := fun h' => h.freeDescription (tl h')
            freeLinkSelector := fun h' => h.freeLinkSelector (tl h') }
      · rw [ha, hb]
        trivial
    · have hk : k = "spec".toList := hk.symm
      subst hk
      have hfree := h.freeSpec ⟨_, List.mem_cons_self .., rfl⟩
      have hj : jsonResSpec cx v s = (jsonSpec cx rt v >>= fun a =>
          Pure.pure { s with spec := some a }) := by
        unfold jsonResSpec
        rw [hfree, h.type, hr]
        rfl
      simp only [fill]
      rw [show get? (skipFields (jsonResTable cx)) "spec".toList = some (fun v s =>
        if s.unsupported then .ok s else jsonResSpec cx v s) from rfl, yamlRes_get_spec]
      simp only [h.supported, hj, Bool.false_eq_true, if_false]
      rcases Rel.cases (hspec v hv) with ⟨a, b, ha, hb, hab⟩ | ⟨ha, hb⟩
      · rw [ha, hb]
        exact ih _ _ hr
          { h with
            supported := rfl
            spec := hab
            freeSpec := fun ⟨e, he, hn⟩ => absurd hn (hno e he)
            freeDescription := fun h' => h.freeDescription (tl h')
            freeLinkSelector := fun h' => h.freeLinkSelector (tl h') }
      · rw [ha, hb]
        trivial
    · have hk : k = "description".toList := hk.symm
      subst hk
      have hfree := h.freeDescription ⟨_, List.mem_cons_self .., rfl⟩
      simp only [fill]
      rw [show get? (skipFields (jsonResTable cx)) "description".toList = some (fun v s =>
        if s.unsupported then .ok s else if s.description.isSome then .err .format
          else readStr v >>= fun a => Pure.pure { s with description := some a }) from rfl,
        yamlRes_get_description]
      simp only [h.supported, hfree, Option.isSome_none, Bool.false_eq_true, if_false]
      obtain ⟨t, rfl⟩ := hv
      exact ih _ _ hr
        { h with
          supported := rfl
          description := rfl
          freeSpec := fun h' => h.freeSpec (tl h')
          freeDescription := fun ⟨e, he, hn⟩ => absurd hn (hno e he)
          freeLinkSelector := fun h' => h.freeLinkSelector (tl h') }
    · have hk : k = "linkSelector".toList := hk.symm
      subst hk
      have hfree := h.freeLinkSelector ⟨_, List.mem_cons_self .., rfl⟩
      simp only [fill]
      rw [show get? (skipFields (jsonResTable cx)) "linkSelector".toList = some (fun v s =>
        if s.unsupported then .ok s else if s.linkSelector.isSome then .err .format
          else jsonLinkSelector v >>= fun a => Pure.pure { s with linkSelector := some a }) from rfl,
        yamlRes_get_linkSelector]
      simp only [h.supported, hfree, Option.isSome_none, Bool.false_eq_true, if_false]
      rcases Rel.cases (linkSelector_agree v hv) with ⟨a, b, ha, hb, hab⟩ | ⟨ha, hb⟩
      · rw [ha, hb]
        exact ih _ _ hr
          { h with
            supported := rfl
            linkSelector := congrArg some hab
            freeSpec := fun h' => h.freeSpec (tl h')
            freeDescription := fun h' => h.freeDescription (tl h')
            freeLinkSelector := fun ⟨e, he, hn⟩ => absurd hn (hno e he) }
      · rw [ha, hb]
        trivial

theorem fits_spec {m : List (Str × Doc F)} {sh : Shape F} (h : Fits (resourceFields sh) m) :
    ∃ e ∈ m, e.1 = "spec".toList :=
  fits_in h "spec" (ns := ["spec".toList]) rfl (by decide)

/-- Once a specification is stored it stays. -/
theorem yamlRes_spec (t : RType) {m : List (Str × Doc F)} {s s' : RawResource F}
    (hin : s.spec.isSome = true ∨ ∃ e ∈ m, e.1 = "spec".toList)
    (h : fill false (yamlResTable cx t) m s = .ok s') : s'.spec.isSome = true := by
  induction m generalizing s with
  | nil =>
    cases h
    rcases hin with h | ⟨e, he, _⟩
    · exact h
    · cases he
  | cons e m ih =>
    obtain ⟨k, v⟩ := e
    have next : k ≠ "spec".toList → ∀ {s1 : RawResource F}, s1.spec = s.spec →
        s1.spec.isSome = true ∨ ∃ e ∈ m, e.1 = "spec".toList := by
      intro hk s1 h1
      rcases hin with h | ⟨e, he, hn⟩
      · exact .inl (h1 ▸ h)
      · rcases List.mem_cons.1 he with rfl | he
        · exact absurd hn hk
        · exact .inr ⟨e, he, hn⟩
    simp only [fill] at h
    split at h
    · next f hf =>
      obtain ⟨s1, h1, h2⟩ := bind_eq_ok h
      have hm := get?_mem hf
      simp only [yamlResTable, fld, List.mem_cons, List.not_mem_nil, or_false,
        Prod.mk.injEq] at hm
      rcases hm with ⟨rfl, rfl⟩ | ⟨rfl, rfl⟩ | ⟨rfl, rfl⟩ | ⟨rfl, rfl⟩ <;>
        obtain ⟨a, _, h1⟩ := bind_eq_ok h1 <;> cases h1
      · exact ih (s := _) (by exact next (by decide) rfl) h2
      · exact ih (.inl rfl) h2
      · exact ih (s := _) (by exact next (by decide) rfl) h2
      · exact ih (s := _) (by exact next (by decide) rfl) h2
    · next hf =>
      refine ih (next ?_ rfl) h
      rintro rfl
      cases hf

theorem yamlType_unknown {t : Str} (h : ∀ n ∈ typeNames, t ≠ n.toList) :
    yamlType t = .err .unsupportedType ∧ typeOfName t = none := by
  have hne : ∀ x : RType, t ≠ x.name := by
    have h : ∀ n ∈ ["celerity/handler", "celerity/api", "celerity/consumer", "celerity/schedule",
        "celerity/handlerConfig", "celerity/workflow", "celerity/config", "celerity/bucket",
        "celerity/topic", "celerity/queue"], t ≠ n.toList := h
    intro x
    cases x <;> exact h _ (by decide)
  constructor
  · unfold yamlType
    (repeat' rw [if_neg (hne _)])
  · unfold typeOfName
    rw [List.find?_eq_none]
    intro x _
    simpa using fun h => hne x h.symm

theorem resource_agree (v : Doc F) (h : Spec.Resource v) :
    Rel (ORel (ResourceRel cx)) (yamlResourceEntry cx v) (jsonResourceEntry cx v) := by
  cases h with
  | known t sh m ht hm ho =>
    obtain ⟨rt, hy, hj, hspec⟩ := spec_agree cx ht
    have hget : get? (("type".toList, Doc.str t.toList) :: m) "type".toList = some (.str t.toList) :=
      by rw [get?_cons, if_pos rfl]
    have hfill : ∀ s, fill false (yamlResTable cx rt) (("type".toList, .str t.toList) :: m) s =
        fill false (yamlResTable cx rt) m s := fun s => rfl
    have hjfill : fill true (skipFields (jsonResTable cx)) (("type".toList, .str t.toList) :: m) {} =
        fill true (skipFields (jsonResTable cx)) m { type := some rt } := by
      simp only [fill]
      rw [show get? (skipFields (jsonResTable cx)) "type".toList = some (fun v s =>
        if s.unsupported then .ok s else jsonResType v s) from rfl]
      simp only [jsonResType, hj, Option.isSome_none, Bool.false_eq_true, if_false, Outcome.bind_ok]
    have h := resource_fill cx hspec m hm.nodup hm.shapes ho
      { type := rt, metadata := { displayName := [] } } { type := some rt } rfl
      ⟨rfl, rfl, by initial, trivial, rfl, rfl, fun _ => rfl, fun _ => rfl, fun _ => rfl⟩
    simp only [yamlResourceEntry, jsonResourceEntry, yamlResource, jsonResource, hget, readStr, hy,
      Outcome.bind_ok, hfill, hjfill]
    rcases Rel.cases h with ⟨a, b, ha, hb, hab⟩ | ⟨ha, hb⟩
    · have hsome := yamlRes_spec cx rt (.inr (fits_spec hm)) ha
      rw [ha, hb]
      simp only [Outcome.bind_ok, hsome, Blueprint.require, if_true, hab.supported, hab.type,
        Bool.false_eq_true, if_false, Outcome.pure_eq]
      exact ⟨rfl, hab.metadata, hab.linkSelector, hab.description, hab.spec⟩
    · rw [ha, hb]
      trivial
  | foreign t m ht ho =>
    obtain ⟨hy, hj⟩ := yamlType_unknown ht
    have hget : get? (("type".toList, Doc.str t) :: m) "type".toList = some (.str t) :=
      by rw [get?_cons, if_pos rfl]
    have hskip : ∀ m : List (Str × Doc F), OnlyFields (resourceFields fun _ => True) m →
        fill true (skipFields (jsonResTable cx)) m { unsupported := true } =
          .ok { unsupported := true } := by
      intro m ho
      induction m with
      | nil => rfl
      | cons e m ih =>
        have ih := ih fun e he => ho e (List.mem_cons_of_mem _ he)
        obtain ⟨f, hf, hk⟩ := ho e (List.mem_cons_self ..)
        simp only [resourceFields, List.mem_cons, List.not_mem_nil, or_false] at hf
        obtain ⟨k, v⟩ := e
        dsimp only at hk
        subst hk
        rcases hf with rfl | rfl | rfl | rfl <;> exact ih
    have hjfill : fill true (skipFields (jsonResTable cx)) (("type".toList, .str t) :: m) {} =
        .ok { unsupported := true } := by
      simp only [fill]
      rw [show get? (skipFields (jsonResTable cx)) "type".toList = some (fun v s =>
        if s.unsupported then .ok s else jsonResType v s) from rfl]
      simp only [jsonResType, hj, Option.isSome_none, Bool.false_eq_true, if_false, Outcome.bind_ok]
      exact hskip m ho
    simp only [yamlResourceEntry, jsonResourceEntry, yamlResource, jsonResource, hget, readStr, hy,
      Outcome.bind_ok, Outcome.bind_err, hjfill, if_true]
    trivial

end Verif.Blueprint
