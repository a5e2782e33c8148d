import Verif.Startup.Spec
import Verif.Transform.Props
import Verif.Assoc

/-!
# Lemmas about the routes of an application
-/

namespace Verif.Startup

open Verif Verif.Subst Verif.Blueprint

variable {F : Type}

theorem typeView_inj {a b : RType} (h : typeView a = typeView b) : a = b := by
  cases a <;> cases b <;> first | rfl | cases h

theorem mem_view {y : ResConfig F} {k : Str} {r' : Transform.Resource F} :
    (k, r') ∈ (view y).resources ↔ ∃ r, (k, r) ∈ y.resources ∧ r' = resourceView r := by
  simp only [view, List.mem_map, Prod.mk.injEq]
  constructor
  · rintro ⟨⟨k', r⟩, h1, rfl, rfl⟩
    exact ⟨r, h1, rfl⟩
  · rintro ⟨r, h1, rfl⟩
    exact ⟨(k, r), h1, rfl, rfl⟩

theorem lookup_iff {A : Type} (m : List (Str × A)) (hn : (m.map (·.1)).Nodup) (k : Str) (v : A) :
    m.lookup k = some v ↔ (k, v) ∈ m :=
  ⟨Assoc.lookup_mem k m v, Assoc.lookup_of_mem k m v hn⟩

/-- What is selected is what is linked. -/
theorem mem_select {y : ResConfig F} (hm : Spec.Maps y)
    (hv : ∀ a ∈ y.resources, ∀ b ∈ y.resources, ∀ sel labels k v w, a.2.linkSelector = some sel →
      b.2.metadata.labels = some labels → (k, v) ∈ sel → (k, w) ∈ labels → v = w)
    {kr : Str} {r : ResResource F} (hr : (kr, r) ∈ y.resources) (ty : RType) (k : Str)
    (b' : Transform.Resource F) :
    (k, b') ∈ Transform.selectResources r.linkSelector (view y) (typeView ty) ↔
      ∃ b, (k, b) ∈ y.resources ∧ b' = resourceView b ∧ b.type = ty ∧ Spec.Linked r b := by
  cases hs : r.linkSelector with
  | none =>
    simp only [Transform.selectResources, List.not_mem_nil, false_iff]
    rintro ⟨b, _, _, _, sel, labels, _, _, h, _⟩
    rw [hs] at h
    cases h
  | some sel =>
    rw [Transform.mem_selectResources, mem_view]
    constructor
    · rintro ⟨⟨b, h1, rfl⟩, h2, labels, k', v, w, h3, h4, h5⟩
      have h6 := Assoc.lookup_mem _ _ _ h5
      have := hv _ hr _ h1 sel labels k' v w hs h3 h4 h6
      subst this
      exact ⟨b, h1, rfl, typeView_inj h2, sel, labels, k', v, hs, h3, h4, h6⟩
    · rintro ⟨b, h1, rfl, rfl, sel', labels, k', v, h2, h3, h4, h5⟩
      rw [hs] at h2
      cases h2
      exact ⟨⟨b, h1, rfl⟩, rfl, labels, k', v, v, h3, h4,
        Assoc.lookup_of_mem _ _ _ (hm.labels _ h1 _ h3) h5⟩

theorem annotated_lookup {y : ResConfig F} (hm : Spec.Maps y) {k : Str} {r : ResResource F}
    (hr : (k, r) ∈ y.resources) {a : List (Str × Scalar F)} (ha : r.metadata.annotations = some a)
    (key : String) (v : Scalar F) : a.lookup key.toList = some v ↔ Spec.Annotated r key v := by
  rw [lookup_iff _ (hm.annotations _ hr _ ha)]
  constructor
  · intro h
    exact ⟨a, ha, h⟩
  · rintro ⟨a', h1, h2⟩
    rw [ha] at h1
    cases h1
    exact h2

theorem isEnabled_iff {y : ResConfig F} (hm : Spec.Maps y) {k : Str} {r : ResResource F}
    (hr : (k, r) ∈ y.resources) (key : String) :
    Transform.Spec.isEnabled key.toList (resourceView r) = true ↔
      Spec.Annotated r key (.bool true) := by
  unfold Transform.Spec.isEnabled
  cases ha : r.metadata.annotations with
  | none =>
    have e : (resourceView r).annotations = none := ha
    rw [e]
    constructor
    · intro h; cases h
    · rintro ⟨a, h, _⟩
      rw [ha] at h
      cases h
  | some a =>
    have e : (resourceView r).annotations = some a := ha
    rw [e, ← annotated_lookup hm hr ha]
    dsimp only
    cases hl : a.lookup key.toList with
    | none => simp
    | some v =>
      cases v with
      | bool b => cases b <;> simp
      | _ => simp

theorem annotationOr_iff {y : ResConfig F} (hm : Spec.Maps y) {k : Str} {r : ResResource F}
    (hr : (k, r) ∈ y.resources) (showF : F → Str) (key default : String) (t : Str) :
    t = Transform.Spec.annotationOr showF key.toList default.toList (resourceView r) ↔
      Spec.AnnotationText showF r key default t := by
  unfold Transform.Spec.annotationOr Spec.AnnotationText
  cases ha : r.metadata.annotations with
  | none =>
    have e : (resourceView r).annotations = none := ha
    have hn : ∀ v, ¬ Spec.Annotated r key v := by
      rintro v ⟨a, h, _⟩
      rw [ha] at h
      cases h
    rw [e]
    dsimp only
    constructor
    · intro h
      exact .inr ⟨hn, h⟩
    · rintro (⟨v, h, _⟩ | ⟨_, h⟩)
      · exact absurd h (hn v)
      · exact h
  | some a =>
    have e : (resourceView r).annotations = some a := ha
    rw [e]
    dsimp only
    cases hl : a.lookup key.toList with
    | none =>
      have hn : ∀ v, ¬ Spec.Annotated r key v := by
        intro v hv
        rw [← annotated_lookup hm hr ha, hl] at hv
        cases hv
      dsimp only
      constructor
      · intro h
        exact .inr ⟨hn, h⟩
      · rintro (⟨v, h, _⟩ | ⟨_, h⟩)
        · exact absurd h (hn v)
        · exact h
    | some v =>
      have hv := (annotated_lookup hm hr ha key v).1 hl
      dsimp only
      constructor
      · intro h
        exact .inl ⟨v, hv, h⟩
      · rintro (⟨w, h, h'⟩ | ⟨h, _⟩)
        · rw [← annotated_lookup hm hr ha, hl] at h
          cases h
          exact h'
        · exact absurd hv (h v)

/-- The configuration found first is the one that the handler is linked to. -/
theorem linkedConfig_iff {y : ResConfig F} {wanted : Option Str} (hm : Spec.Maps y)
    (ht : Spec.Typed y) (hc : Spec.Clear y wanted) {k : Str} {r : ResResource F}
    (hr : (k, r) ∈ y.resources) (hty : r.type = .handler) (c : Transform.SharedConfig) :
    Transform.linkedConfig (Transform.Spec.firstConfig (view y) (resourceView r)) = some c ↔
      ∃ s, Spec.ConfigOf y r s ∧ c = sharedView s := by
  have hsel := mem_select hm hc.values hr .handlerConfig
  have e : (resourceView r).linkSelector = r.linkSelector := rfl
  unfold Transform.Spec.firstConfig
  rw [e]
  have e2 : Transform.ResourceType.handlerConfig = typeView .handlerConfig := rfl
  rw [e2]
  constructor
  · intro h
    cases hh : (Transform.selectResources r.linkSelector (view y)
        (typeView .handlerConfig)).head? with
    | none => rw [hh] at h; cases h
    | some nr =>
      obtain ⟨n, b'⟩ := nr
      obtain ⟨b, h1, rfl, h2, h3⟩ := (hsel n b').1 (List.mem_of_mem_head? hh)
      obtain ⟨s, hs⟩ := (ht _ h1).2.2.1 h2
      refine ⟨s, ⟨n, b, h1, h2, h3, hs⟩, ?_⟩
      rw [hh] at h
      simp only [Transform.linkedConfig, resourceView] at h
      have hs' : b.spec = some (.handlerConfig s) := hs
      rw [hs'] at h
      simp only [specView] at h
      cases h
      rfl
  · rintro ⟨s, ⟨n, b, h1, h2, h3, hs⟩, rfl⟩
    have hmem := (hsel n (resourceView b)).2 ⟨b, h1, rfl, h2, h3⟩
    cases hh : (Transform.selectResources r.linkSelector (view y)
        (typeView .handlerConfig)).head? with
    | none =>
      rw [List.head?_eq_none_iff] at hh
      rw [hh] at hmem
      cases hmem
    | some nr =>
      obtain ⟨n', b'⟩ := nr
      obtain ⟨b2, h1', rfl, h2', h3'⟩ := (hsel n' b').1 (List.mem_of_mem_head? hh)
      have := hc.configs _ hr hty _ h1 _ h1' h2 h2' h3 h3'
      cases this
      simp only [Transform.linkedConfig, resourceView, hs, specView]

/-- The most specific setting is the setting. -/
theorem setting_iff {A : Type} {y : ResConfig F} {wanted : Option Str} (hm : Spec.Maps y)
    (ht : Spec.Typed y) (hc : Spec.Clear y wanted) {k : Str} {r : ResResource F}
    (hr : (k, r) ∈ y.resources) (hty : r.type = .handler)
    (own : HandlerSpec Str Int Bool → Option A) (other : Shared Str Int Bool → Option A)
    (get1 : Transform.HandlerSpec → Option A) (get2 : Transform.SharedConfig → Option A)
    (h1 : ∀ h : HandlerSpec Str Int Bool,
      get1 ⟨h.codeLocation, h.timeout, h.tracingEnabled⟩ = own h)
    (h2 : ∀ s, get2 (sharedView s) = other s)
    (h : HandlerSpec Str Int Bool) (hh : r.spec = some (.handler h)) (a : A) :
    Transform.Spec.mostSpecific (Transform.levels get1 get2
        ⟨h.codeLocation, h.timeout, h.tracingEnabled⟩
        (Transform.Spec.firstConfig (view y) (resourceView r)) (view y).metadata) = some a ↔
      Spec.Setting own other y r a := by
  rw [Transform.levels_eq, h1]
  have hl := linkedConfig_iff hm ht hc hr hty
  generalize Transform.linkedConfig (Transform.Spec.firstConfig (view y) (resourceView r)) = lc at hl
  have hsh : ∀ c, Transform.sharedConfig (view y).metadata = some c ↔
      ∃ s, y.metadata = some (some s) ∧ c = sharedView s := by
    intro c
    simp only [view]
    cases y.metadata with
    | none => simp [Transform.sharedConfig]
    | some m =>
      cases m with
      | none => simp [Transform.sharedConfig]
      | some s =>
        simp only [Option.map_some, Transform.sharedConfig, Option.some.injEq, exists_eq_left']
        exact eq_comm
  generalize Transform.sharedConfig (view y).metadata = sc at hsh
  have hspec : ∀ h', r.spec = some (.handler h') → h' = h := by
    intro h' e
    rw [hh] at e
    cases e
    rfl
  cases ho : own h with
  | some b =>
    simp only [Transform.Spec.mostSpecific, Option.some.injEq]
    constructor
    · rintro rfl
      exact .own hh ho
    · intro hset
      cases hset with
      | own e e' => cases hspec _ e; rw [ho] at e'; cases e'; rfl
      | linked e e' _ _ => cases hspec _ e; rw [ho] at e'; cases e'
      | shared e e' _ _ _ => cases hspec _ e; rw [ho] at e'; cases e'
  | none =>
    simp only [Transform.Spec.mostSpecific]
    cases hlc : lc.bind get2 with
    | some b =>
      obtain ⟨c, hc1, hc2⟩ := Option.bind_eq_some_iff.1 hlc
      obtain ⟨s, hs1, rfl⟩ := (hl c).1 hc1
      rw [h2] at hc2
      simp only [Transform.Spec.mostSpecific, Option.some.injEq]
      constructor
      · rintro rfl
        exact .linked hh ho hs1 hc2
      · intro hset
        cases hset with
        | own e e' => cases hspec _ e; rw [ho] at e'; cases e'
        | linked e e' e'' e3 =>
          have := (hl _).2 ⟨_, e'', rfl⟩
          rw [hc1] at this
          injection this with this
          rw [← h2, ← this, h2, hc2] at e3
          injection e3
        | shared e e' e'' _ _ =>
          rw [e'' s hs1] at hc2
          cases hc2
    | none =>
      have hno : ∀ s', Spec.ConfigOf y r s' → other s' = none := by
        intro s' hs'
        have := (hl _).2 ⟨_, hs', rfl⟩
        rw [this] at hlc
        simp only [Option.bind_some] at hlc
        rw [h2] at hlc
        exact hlc
      cases hsc : sc.bind get2 with
      | some b =>
        obtain ⟨c, hc1, hc2⟩ := Option.bind_eq_some_iff.1 hsc
        obtain ⟨s, hs1, rfl⟩ := (hsh c).1 hc1
        rw [h2] at hc2
        simp only [Transform.Spec.mostSpecific, Option.some.injEq]
        constructor
        · rintro rfl
          exact .shared hh ho hno hs1 hc2
        · intro hset
          cases hset with
          | own e e' => cases hspec _ e; rw [ho] at e'; cases e'
          | linked e e' e'' e3 => rw [hno _ e''] at e3; cases e3
          | shared e e' _ e3 e4 =>
            rw [hs1] at e3
            cases e3
            rw [hc2] at e4
            injection e4
      | none =>
        simp only [Transform.Spec.mostSpecific, reduceCtorEq, false_iff]
        intro hset
        cases hset with
        | own e e' => cases hspec _ e; rw [ho] at e'; cases e'
        | linked e e' e'' e3 => rw [hno _ e''] at e3; cases e3
        | shared e e' _ e3 e4 =>
          have := (hsh _).2 ⟨_, e3, rfl⟩
          rw [this] at hsc
          simp only [Option.bind_some] at hsc
          rw [h2, e4] at hsc
          cases hsc

/-- The settings that are resolved are the settings. -/
theorem settings_iff {y : ResConfig F} {wanted : Option Str} (hm : Spec.Maps y)
    (ht : Spec.Typed y) (hc : Spec.Clear y wanted) {k : Str} {r : ResResource F}
    (hr : (k, r) ∈ y.resources) (hty : r.type = .handler) (l : Str) (t : Int) (b : Bool) :
    (∃ s, (resourceView r).spec = .handler s ∧
      Transform.resolveLocation k s (Transform.Spec.firstConfig (view y) (resourceView r))
        (view y).metadata = .ok l ∧
      t = Transform.resolveTimeout s (Transform.Spec.firstConfig (view y) (resourceView r))
        (view y).metadata ∧
      b = Transform.resolveTracing s (Transform.Spec.firstConfig (view y) (resourceView r))
        (view y).metadata) ↔ Spec.Settings y r l t b := by
  obtain ⟨h, hh⟩ := (ht _ hr).2.1.1 hty
  have hh : r.spec = some (.handler h) := hh
  have hv : (resourceView r).spec = .handler ⟨h.codeLocation, h.timeout, h.tracingEnabled⟩ := by
    simp only [resourceView, hh, specView]
  rw [hv]
  have s1 := setting_iff hm ht hc hr hty (·.codeLocation) (·.codeLocation) (·.codeLocation)
    (·.codeLocation) (fun _ => rfl) (fun _ => rfl) h hh
  have s2 := setting_iff hm ht hc hr hty (·.timeout) (·.timeout) (·.timeout)
    (·.timeout) (fun _ => rfl) (fun _ => rfl) h hh
  have s3 := setting_iff hm ht hc hr hty (·.tracingEnabled) (·.tracingEnabled) (·.tracingEnabled)
    (·.tracingEnabled) (fun _ => rfl) (fun _ => rfl) h hh
  have htime : Transform.resolveTimeout ⟨h.codeLocation, h.timeout, h.tracingEnabled⟩
      (Transform.Spec.firstConfig (view y) (resourceView r)) (view y).metadata =
      min ((Transform.Spec.mostSpecific (Transform.levels (·.timeout) (·.timeout)
        ⟨h.codeLocation, h.timeout, h.tracingEnabled⟩
        (Transform.Spec.firstConfig (view y) (resourceView r)) (view y).metadata)).getD 60) 3600 := by
    refine (Transform.timeout_partial _ _ _).2.2.2 ?_
    rw [Transform.levels_eq]
    dsimp only
    cases ho : h.timeout with
    | some t => exact hc.handlerTimeouts _ hr h t hh ho
    | none =>
      cases hlc : (Transform.linkedConfig (Transform.Spec.firstConfig (view y)
          (resourceView r))).bind (·.timeout) with
      | some t =>
        obtain ⟨c, hc1, hc2⟩ := Option.bind_eq_some_iff.1 hlc
        obtain ⟨s, ⟨n, cr, m1, _, _, m2⟩, rfl⟩ := (linkedConfig_iff hm ht hc hr hty c).1 hc1
        exact hc.configTimeouts _ m1 s t m2 hc2
      | none =>
        try dsimp only
        cases hsc : (Transform.sharedConfig (view y).metadata).bind (·.timeout) with
        | none => trivial
        | some t =>
          dsimp only
          simp only [view] at hsc
          cases hmd : y.metadata with
          | none => rw [hmd] at hsc; cases hsc
          | some m =>
            cases m with
            | none => rw [hmd] at hsc; cases hsc
            | some s => rw [hmd] at hsc; exact hc.sharedTimeout s t hmd hsc
  have hloc : ∀ l, Transform.resolveLocation k ⟨h.codeLocation, h.timeout, h.tracingEnabled⟩
      (Transform.Spec.firstConfig (view y) (resourceView r)) (view y).metadata = .ok l ↔
      Spec.Setting (·.codeLocation) (·.codeLocation) y r l := by
    intro l
    rw [Transform.location_precedence, ← s1 l]
    split
    · rename_i e; rw [e]; simp
    · rename_i e; rw [e]; simp
  constructor
  · rintro ⟨s, e, h1, h2, h3⟩
    cases e
    refine ⟨(hloc l).1 h1, ?_, ?_⟩
    · rw [htime] at h2
      cases hms : Transform.Spec.mostSpecific (Transform.levels (·.timeout) (·.timeout)
          ⟨h.codeLocation, h.timeout, h.tracingEnabled⟩
          (Transform.Spec.firstConfig (view y) (resourceView r)) (view y).metadata) with
      | some t' =>
        rw [hms] at h2
        exact .inl ⟨t', (s2 t').1 hms, h2⟩
      | none =>
        rw [hms] at h2
        refine .inr ⟨fun t' ht' => ?_, by rw [h2]; rfl⟩
        have := (s2 t').2 ht'
        rw [hms] at this
        cases this
    · rw [Transform.tracing_precedence] at h3
      cases hms : Transform.Spec.mostSpecific (Transform.levels (·.tracingEnabled)
          (·.tracingEnabled) ⟨h.codeLocation, h.timeout, h.tracingEnabled⟩
          (Transform.Spec.firstConfig (view y) (resourceView r)) (view y).metadata) with
      | some t' =>
        rw [hms] at h3
        simp only [Option.getD_some] at h3
        subst h3
        exact .inl ((s3 b).1 hms)
      | none =>
        rw [hms] at h3
        refine .inr ⟨fun t' ht' => ?_, h3⟩
        have := (s3 t').2 ht'
        rw [hms] at this
        cases this
  · rintro ⟨h1, h2, h3⟩
    refine ⟨_, rfl, (hloc l).2 h1, ?_, ?_⟩
    · rw [htime]
      rcases h2 with ⟨t', h2, rfl⟩ | ⟨h2, rfl⟩
      · rw [(s2 t').2 h2]
        rfl
      · cases hms : Transform.Spec.mostSpecific (Transform.levels (·.timeout) (·.timeout)
            ⟨h.codeLocation, h.timeout, h.tracingEnabled⟩
            (Transform.Spec.firstConfig (view y) (resourceView r)) (view y).metadata) with
        | none => rfl
        | some t' => exact absurd ((s2 t').1 hms) (h2 t')
    · rw [Transform.tracing_precedence]
      rcases h3 with h3 | ⟨h3, rfl⟩
      · rw [(s3 b).2 h3]
        rfl
      · cases hms : Transform.Spec.mostSpecific (Transform.levels (·.tracingEnabled)
            (·.tracingEnabled) ⟨h.codeLocation, h.timeout, h.tracingEnabled⟩
            (Transform.Spec.firstConfig (view y) (resourceView r)) (view y).metadata) with
        | none => rfl
        | some t' => exact absurd ((s3 t').1 hms) (h3 t')

/-- There are settings when there is a location. -/
theorem settings_exist {y : ResConfig F} {wanted : Option Str} (hm : Spec.Maps y)
    (ht : Spec.Typed y) (hc : Spec.Clear y wanted) {k : Str} {r : ResResource F}
    (hr : (k, r) ∈ y.resources) (hty : r.type = .handler) {l : Str}
    (hl : Spec.Setting (·.codeLocation) (·.codeLocation) y r l) :
    ∃ t b, Spec.Settings y r l t b := by
  obtain ⟨h, hh⟩ := (ht _ hr).2.1.1 hty
  have hh : r.spec = some (.handler h) := hh
  have hv : (resourceView r).spec = .handler ⟨h.codeLocation, h.timeout, h.tracingEnabled⟩ := by
    simp only [resourceView, hh, specView]
  have s1 := setting_iff hm ht hc hr hty (·.codeLocation) (·.codeLocation) (·.codeLocation)
    (·.codeLocation) (fun _ => rfl) (fun _ => rfl) h hh
  refine ⟨_, _, (settings_iff hm ht hc hr hty l _ _).1 ⟨_, hv, ?_, rfl, rfl⟩⟩
  rw [Transform.location_precedence, (s1 l).2 hl]

/-- The definition of a handler is what the blueprint says. -/
theorem httpDef_iff {y : ResConfig F} {wanted : Option Str} (hm : Spec.Maps y)
    (ht : Spec.Typed y) (hc : Spec.Clear y wanted) (showF : F → Str) {k : Str} {r : ResResource F}
    (hr : (k, r) ∈ y.resources) (hty : r.type = .handler)
    (hen : Spec.Annotated r "celerity.handler.http" (.bool true)) (d : Transform.HttpHandler) :
    Transform.Spec.HttpDef showF (view y) (k, resourceView r) d ↔ Spec.Http showF y k r d := by
  have hset := settings_iff hm ht hc hr hty d.location d.timeout d.tracingEnabled
  have hmeth := annotationOr_iff hm hr showF "celerity.handler.http.method" "GET" d.method
  have hpath := annotationOr_iff hm hr showF "celerity.handler.http.path" "/"
  constructor
  · rintro ⟨h1, h2, h3, h4⟩
    refine ⟨hty, hen, h1, hmeth.1 h2, ?_, hset.1 h4⟩
    obtain ⟨ss, n1, n2, n3⟩ := Transform.path_has_segments
      (Transform.Spec.annotationOr showF "celerity.handler.http.path".toList "/".toList
        (resourceView r))
    refine ⟨ss, n1, n2, (hpath _).1 n3, ?_⟩
    rw [h3, ← Transform.axum_path_segments ss n1 n2, n3]
  · rintro ⟨_, _, h1, h2, ⟨ss, n1, n2, n3, n4⟩, h4⟩
    refine ⟨h1, hmeth.2 h2, ?_, hset.2 h4⟩
    rw [n4, ← Transform.axum_path_segments ss n1 n2, (hpath _).2 n3]

theorem wsDef_iff {y : ResConfig F} {wanted : Option Str} (hm : Spec.Maps y)
    (ht : Spec.Typed y) (hc : Spec.Clear y wanted) (showF : F → Str) {k : Str} {r : ResResource F}
    (hr : (k, r) ∈ y.resources) (hty : r.type = .handler)
    (hen : Spec.Annotated r "celerity.handler.websocket" (.bool true)) (key : Str)
    (d : Transform.WsHandler) :
    Transform.Spec.WsDef showF (view y) key (k, resourceView r) d ↔
      Spec.Ws showF y k r d ∧ d.routeKey = key := by
  have hset := settings_iff hm ht hc hr hty d.location d.timeout d.tracingEnabled
  have hroute := annotationOr_iff hm hr showF "celerity.handler.websocket.route" "$default" d.route
  constructor
  · rintro ⟨h1, h2, h3, h4⟩
    exact ⟨⟨hty, hen, h1, hroute.1 h2, hset.1 h4⟩, h3⟩
  · rintro ⟨⟨_, _, h1, h2, h4⟩, h3⟩
    exact ⟨h1, hroute.2 h2, h3, hset.2 h4⟩

/-- The API found is the one wanted. -/
theorem getApi {y : ResConfig F} {wanted : Option Str}
    (h1 : ∀ r r', Spec.IsApi y wanted r → Spec.IsApi y wanted r' → r = r') {api : ResResource F}
    (ha : Spec.IsApi y wanted api) :
    Transform.getApiResource (view y) wanted = .ok (resourceView api) := by
  unfold Transform.getApiResource
  split
  · rename_i nr hf
    have hp := List.find?_some hf
    obtain ⟨k, b'⟩ := nr
    obtain ⟨b, hb, rfl⟩ := mem_view.1 (List.mem_of_find?_eq_some hf)
    have hb2 : Spec.IsApi y wanted b := by
      refine ⟨k, hb, ?_⟩
      have htv : ∀ {b : ResResource F}, (resourceView b).resourceType = .api → b.type = .api :=
        fun h => typeView_inj h
      cases wanted with
      | none => exact ⟨htv (by simpa using hp), nofun⟩
      | some w =>
        have hp : k = w ∧ (resourceView b).resourceType = .api := by simpa using hp
        exact ⟨htv hp.2, fun w' e => by cases e; exact hp.1.symm⟩
    rw [h1 _ _ ha hb2]
  · rename_i hf
    rw [List.find?_eq_none] at hf
    obtain ⟨k, hk, hty, hw⟩ := ha
    have hv : (resourceView api).resourceType = .api := by simp only [resourceView, hty, typeView]
    have := hf (k, resourceView api) (mem_view.2 ⟨api, hk, rfl⟩)
    cases wanted with
    | none => simp [hv] at this
    | some w => simp [hv, hw w rfl] at this

theorem getApi_none {y : ResConfig F} {wanted : Option Str}
    (ha : ∀ r, ¬ Spec.IsApi y wanted r) :
    Transform.getApiResource (view y) wanted = .error .apiMissing := by
  unfold Transform.getApiResource
  split
  · rename_i nr hf
    exfalso
    have hp := List.find?_some hf
    obtain ⟨k, b'⟩ := nr
    obtain ⟨b, hb, rfl⟩ := mem_view.1 (List.mem_of_find?_eq_some hf)
    refine ha b ⟨k, hb, ?_⟩
    have htv : ∀ {b : ResResource F}, (resourceView b).resourceType = .api → b.type = .api :=
      fun h => typeView_inj h
    cases wanted with
    | none => exact ⟨htv (by simpa using hp), nofun⟩
    | some w =>
      have hp : k = w ∧ (resourceView b).resourceType = .api := by simpa using hp
      exact ⟨htv hp.2, fun w' e => by cases e; exact hp.1.symm⟩
  · rfl

theorem pairwise2_left {A B : Type} {R : A → B → Prop} {as : List A} {bs : List B}
    (h : Transform.Spec.Pairwise2 R as bs) {b : B} (hb : b ∈ bs) : ∃ a ∈ as, R a b := by
  induction h with
  | nil => cases hb
  | cons h1 _ ih =>
    rcases List.mem_cons.1 hb with rfl | hb
    · exact ⟨_, List.mem_cons_self .., h1⟩
    · obtain ⟨a, ha, hr⟩ := ih hb
      exact ⟨a, List.mem_cons_of_mem _ ha, hr⟩

theorem pairwise2_right {A B : Type} {R : A → B → Prop} {as : List A} {bs : List B}
    (h : Transform.Spec.Pairwise2 R as bs) {a : A} (ha : a ∈ as) : ∃ b ∈ bs, R a b := by
  induction h with
  | nil => cases ha
  | cons h1 _ ih =>
    rcases List.mem_cons.1 ha with rfl | ha
    · exact ⟨_, List.mem_cons_self .., h1⟩
    · obtain ⟨b, hb, hr⟩ := ih ha
      exact ⟨b, List.mem_cons_of_mem _ hb, hr⟩

theorem pairwise2_exists {A B : Type} {R : A → B → Prop} {as : List A}
    (h : ∀ a ∈ as, ∃ b, R a b) : ∃ bs, Transform.Spec.Pairwise2 R as bs := by
  induction as with
  | nil => exact ⟨[], .nil⟩
  | cons a as ih =>
    obtain ⟨b, hb⟩ := h a (List.mem_cons_self ..)
    obtain ⟨bs, hbs⟩ := ih fun a ha => h a (List.mem_cons_of_mem _ ha)
    exact ⟨b :: bs, .cons hb hbs⟩

theorem httpDef_unique {showF : F → Str} {bp : Transform.Blueprint F}
    {h : Str × Transform.Resource F} {d d' : Transform.HttpHandler}
    (h1 : Transform.Spec.HttpDef showF bp h d) (h2 : Transform.Spec.HttpDef showF bp h d') :
    d = d' := by
  obtain ⟨a1, a2, a3, s, a4, a5, a6, a7⟩ := h1
  obtain ⟨b1, b2, b3, s', b4, b5, b6, b7⟩ := h2
  rw [a4] at b4
  cases b4
  rw [a5] at b5
  cases d
  cases d'
  simp_all

theorem wsDef_unique {showF : F → Str} {bp : Transform.Blueprint F} {key : Str}
    {h : Str × Transform.Resource F} {d d' : Transform.WsHandler}
    (h1 : Transform.Spec.WsDef showF bp key h d) (h2 : Transform.Spec.WsDef showF bp key h d') :
    d = d' := by
  obtain ⟨a1, a2, a3, s, a4, a5, a6, a7⟩ := h1
  obtain ⟨b1, b2, b3, s', b4, b5, b6, b7⟩ := h2
  rw [a4] at b4
  cases b4
  rw [a5] at b5
  cases d
  cases d'
  simp_all

end Verif.Startup
