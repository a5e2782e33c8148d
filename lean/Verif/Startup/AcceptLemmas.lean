import Verif.Startup.RouteLemmas

/-!
# Lemmas about the applications that start
-/

namespace Verif.Startup

open Verif Verif.Subst Verif.Blueprint

variable {F : Type}

theorem pairwise_mem {A : Type} {R : A → A → Prop} (hsym : ∀ a b, R a b → R b a) {l : List A}
    (h : l.Pairwise R) {a b : A} (ha : a ∈ l) (hb : b ∈ l) (hab : a ≠ b) : R a b := by
  induction h with
  | nil => cases ha
  | cons h1 _ ih =>
    rcases List.mem_cons.1 ha with rfl | ha'
    · rcases List.mem_cons.1 hb with rfl | hb'
      · exact absurd rfl hab
      · exact h1 _ hb'
    · rcases List.mem_cons.1 hb with rfl | hb'
      · exact hsym _ _ (h1 _ ha')
      · exact ih ha' hb'

/-- Selecting by each label in turn selects nothing twice when nothing matches two labels. -/
theorem nodup_select {A K : Type} (sel : List K) (l : List (Str × A)) (hl : (l.map (·.1)).Nodup)
    (p : K → Str × A → Bool) (q : Str × A → Bool) :
    (((sel.flatMap fun kv => l.filter (p kv)).filter q).map (·.1)).Nodup ↔
      sel.Pairwise fun a b => ∀ e ∈ l, q e = true → ¬ (p a e = true ∧ p b e = true) := by
  rw [List.filter_flatMap, List.map_flatMap]
  unfold List.Nodup
  rw [List.pairwise_flatMap]
  have hinner : ∀ a ∈ sel, List.Pairwise (· ≠ ·) (((l.filter (p a)).filter q).map (·.1)) := by
    intro a _
    have := ((List.filter_sublist (p := q)).trans (List.filter_sublist (p := p a) (l := l))).map (·.1)
    exact this.nodup hl
  have hiff : ∀ a b, (∀ x ∈ ((l.filter (p a)).filter q).map (·.1),
      ∀ y ∈ ((l.filter (p b)).filter q).map (·.1), x ≠ y) ↔
      ∀ e ∈ l, q e = true → ¬ (p a e = true ∧ p b e = true) := by
    intro a b
    constructor
    · rintro h e he hq ⟨h1, h2⟩
      exact h e.1 (List.mem_map.2 ⟨e, by simp [he, h1, hq], rfl⟩) e.1
        (List.mem_map.2 ⟨e, by simp [he, h2, hq], rfl⟩) rfl
    · rintro h x hx y hy rfl
      obtain ⟨e, he, rfl⟩ := List.mem_map.1 hx
      obtain ⟨e', he', hee⟩ := List.mem_map.1 hy
      simp only [List.mem_filter] at he he'
      have : e = e' := by
        obtain ⟨k, v⟩ := e
        obtain ⟨k', v'⟩ := e'
        dsimp only at hee
        subst hee
        have h1 := Assoc.lookup_of_mem _ _ _ hl he.1.1
        have h2 := Assoc.lookup_of_mem _ _ _ hl he'.1.1
        rw [h1] at h2
        injection h2 with h2
        rw [h2]
      subst this
      exact h e he.1.1 he.2 ⟨he.1.2, he'.1.2⟩
  constructor
  · rintro ⟨_, h⟩
    exact h.imp fun {a b} => (hiff a b).1
  · intro h
    exact ⟨hinner, h.imp fun {a b} => (hiff a b).2⟩

theorem view_names (y : ResConfig F) :
    (view y).resources.map (·.1) = y.resources.map (·.1) := by
  simp only [view, List.map_map]
  rfl

/-- The label filter is the link by one label. -/
theorem labelFilter_view {y : ResConfig F} (hm : Spec.Maps y)
    (hv : ∀ a ∈ y.resources, ∀ b ∈ y.resources, ∀ sel labels k v w, a.2.linkSelector = some sel →
      b.2.metadata.labels = some labels → (k, v) ∈ sel → (k, w) ∈ labels → v = w)
    {ka : Str} {a : ResResource F} (ha : (ka, a) ∈ y.resources) {sel : List (Str × Str)}
    (hs : a.linkSelector = some sel) {kv : Str × Str} (hkv : kv ∈ sel) {kb : Str}
    {b : ResResource F} (hb : (kb, b) ∈ y.resources) (ty : RType) :
    Transform.labelFilter (typeView ty) kv.1 kv.2 (resourceView b) = true ↔
      b.type = ty ∧ ∃ labels, b.metadata.labels = some labels ∧ kv ∈ labels := by
  unfold Transform.labelFilter
  have e : (resourceView b).labels = b.metadata.labels := rfl
  have e2 : (resourceView b).resourceType = typeView b.type := rfl
  rw [e, e2]
  cases hl : b.metadata.labels with
  | none =>
    dsimp only
    constructor
    · intro h; cases h
    · rintro ⟨_, labels, h, _⟩; cases h
  | some labels =>
    dsimp only
    have ht : (typeView b.type == typeView ty) = true ↔ b.type = ty := by
      rw [beq_iff_eq]
      exact ⟨typeView_inj, fun h => by rw [h]⟩
    rw [Bool.and_eq_true, ht]
    constructor
    · rintro ⟨h1, h2⟩
      refine ⟨h2, labels, rfl, ?_⟩
      cases hlk : labels.lookup kv.1 with
      | none => rw [hlk] at h1; cases h1
      | some w =>
        have hw := Assoc.lookup_mem _ _ _ hlk
        have := hv _ ha _ hb sel labels kv.1 kv.2 w hs hl hkv hw
        rw [← this] at hw
        exact hw
    · rintro ⟨h1, labels', h2, h3⟩
      cases h2
      refine ⟨?_, h1⟩
      rw [Assoc.lookup_of_mem kv.1 labels kv.2 (hm.labels _ hb _ hl) h3]
      rfl

/-- Nothing selected twice: every handler that counts is linked by one label. -/
theorem select_nodup {y : ResConfig F} (hm : Spec.Maps y)
    (hv : ∀ a ∈ y.resources, ∀ b ∈ y.resources, ∀ sel labels k v w, a.2.linkSelector = some sel →
      b.2.metadata.labels = some labels → (k, v) ∈ sel → (k, w) ∈ labels → v = w)
    {ka : Str} {a : ResResource F} (ha : (ka, a) ∈ y.resources)
    (q : Str × Transform.Resource F → Bool) :
    (((Transform.selectResources a.linkSelector (view y) .handler).filter q).map (·.1)).Nodup ↔
      ∀ k r, (k, r) ∈ y.resources → r.type = .handler → q (k, resourceView r) = true →
        Spec.LinkedOnce a r := by
  cases hs : a.linkSelector with
  | none =>
    simp only [Transform.selectResources, List.filter_nil, List.map_nil, List.nodup_nil, true_iff]
    intro k r _ _ _ sel labels l1 l2 h
    rw [hs] at h
    cases h
  | some sel =>
    have hl : ((view y).resources.map (·.1)).Nodup := by rw [view_names]; exact hm.names
    have := nodup_select sel (view y).resources hl
      (fun kv nr => Transform.labelFilter (typeView .handler) kv.1 kv.2 nr.2) q
    rw [show Transform.selectResources (some sel) (view y) .handler = sel.flatMap fun kv =>
      (view y).resources.filter fun nr =>
        Transform.labelFilter (typeView .handler) kv.1 kv.2 nr.2 from rfl, this]
    have hkeys : sel.Pairwise fun a b => a.1 ≠ b.1 := by
      have := hm.selectors _ ha _ hs
      unfold List.Nodup at this
      rw [List.pairwise_map] at this
      exact this
    constructor
    · intro h k r hr hty hq sel' labels l1 l2 e1 e2 m1 m2 m3 m4
      rw [hs] at e1
      cases e1
      by_cases hne : l1 = l2
      · rw [hne]
      · exfalso
        have hfl : ∀ kv ∈ sel, kv ∈ labels →
            Transform.labelFilter (typeView .handler) kv.1 kv.2 (resourceView r) = true :=
          fun kv h1 h2 => (labelFilter_view hm hv ha hs h1 hr .handler).2 ⟨hty, labels, e2, h2⟩
        refine pairwise_mem ?_ h m1 m3 hne (k, resourceView r) (mem_view.2 ⟨r, hr, rfl⟩) hq
          ⟨hfl _ m1 m2, hfl _ m3 m4⟩
        intro x z hxz e he hqe hh
        exact hxz e he hqe ⟨hh.2, hh.1⟩
    · intro h
      refine List.Pairwise.imp_of_mem (R := fun a b : Str × Str => a.1 ≠ b.1) ?_ hkeys
      rintro l1 l2 m1 m2 hne ⟨k, b'⟩ he hq ⟨f1, f2⟩
      obtain ⟨r, hr, rfl⟩ := mem_view.1 he
      obtain ⟨hty, labels, e2, n1⟩ := (labelFilter_view hm hv ha hs m1 hr .handler).1 f1
      obtain ⟨_, labels', e2', n2⟩ := (labelFilter_view hm hv ha hs m2 hr .handler).1 f2
      rw [e2] at e2'
      cases e2'
      exact hne (h k r hr hty hq sel labels l1 l2 hs e2 m1 n1 m2 n2 ▸ rfl)

/-- When the configuration can be collected. -/
theorem collect_accepts {y : ResConfig F} {wanted : Option Str} (hm : Spec.Maps y)
    (ht : Spec.Typed y) (hc : Spec.Clear y wanted) (showF : F → Str) {api : ResResource F}
    (ha : Spec.IsApi y wanted api) :
    (∃ cfg, Transform.collectApiConfig showF (view y) wanted = .ok cfg) ↔
      ∀ k r, (k, r) ∈ y.resources → r.type = .handler → Spec.Linked api r → Spec.Serves r →
        (∃ l, Spec.Setting (·.codeLocation) (·.codeLocation) y r l) ∧
        ¬ (Spec.Annotated r "celerity.handler.http" (.bool true) ∧
            Spec.Annotated r "celerity.handler.websocket" (.bool true)) ∧
        Spec.LinkedOnce api r := by
  have hg := getApi hc.api ha
  obtain ⟨ka, hka, hty, hw⟩ := ha
  obtain ⟨sp, hsp⟩ := (ht _ hka).1.1 hty
  have hsp : api.spec = some (.api sp) := hsp
  have hv : (resourceView api).spec = .api ⟨sp.protocols.map protocolView, sp.tracingEnabled⟩ := by
    simp only [resourceView, hsp, specView]
  obtain ⟨key, hkey⟩ := Transform.resolveRouteKey_total (resourceView api).spec ⟨_, hv⟩
  have hiff := Transform.collectApiConfig_iff showF (view y) wanted (resourceView api) hg _ hv key hkey
  have hls : (resourceView api).linkSelector = api.linkSelector := rfl
  rw [hls] at hiff
  have hsel := mem_select hm hc.values hka .handler
  have hen : ∀ k r, (k, r) ∈ y.resources → ∀ key : String,
      Transform.Spec.isEnabled key.toList (resourceView r) = true ↔
      Spec.Annotated r key (.bool true) := fun k r h key => isEnabled_iff hm h key
  have hk1 : Transform.httpKey = "celerity.handler.http".toList := rfl
  have hk2 : Transform.wsKey = "celerity.handler.websocket".toList := rfl
  have hmemH : ∀ k b', (k, b') ∈ (Transform.selectResources api.linkSelector (view y)
      .handler).filter (fun h => Transform.Spec.isEnabled Transform.httpKey h.2) ↔
      ∃ r, (k, r) ∈ y.resources ∧ b' = resourceView r ∧ r.type = .handler ∧ Spec.Linked api r ∧
        Spec.Annotated r "celerity.handler.http" (.bool true) := by
    intro k b'
    rw [List.mem_filter]
    constructor
    · rintro ⟨h1, h2⟩
      obtain ⟨r, h3, rfl, h4, h5⟩ := (hsel k b').1 h1
      exact ⟨r, h3, rfl, h4, h5, (hen k r h3 _).1 h2⟩
    · rintro ⟨r, h3, rfl, h4, h5, h6⟩
      exact ⟨(hsel k _).2 ⟨r, h3, rfl, h4, h5⟩, (hen k r h3 _).2 h6⟩
  have hmemW : ∀ k b', (k, b') ∈ (Transform.selectResources api.linkSelector (view y)
      .handler).filter (fun h => Transform.Spec.isEnabled Transform.wsKey h.2) ↔
      ∃ r, (k, r) ∈ y.resources ∧ b' = resourceView r ∧ r.type = .handler ∧ Spec.Linked api r ∧
        Spec.Annotated r "celerity.handler.websocket" (.bool true) := by
    intro k b'
    rw [List.mem_filter]
    constructor
    · rintro ⟨h1, h2⟩
      obtain ⟨r, h3, rfl, h4, h5⟩ := (hsel k b').1 h1
      exact ⟨r, h3, rfl, h4, h5, (hen k r h3 _).1 h2⟩
    · rintro ⟨r, h3, rfl, h4, h5, h6⟩
      exact ⟨(hsel k _).2 ⟨r, h3, rfl, h4, h5⟩, (hen k r h3 _).2 h6⟩
  have hnodH := select_nodup hm hc.values hka
    (fun h => Transform.Spec.isEnabled Transform.httpKey h.2)
  have hnodW := select_nodup hm hc.values hka
    (fun h => Transform.Spec.isEnabled Transform.wsKey h.2)
  have hOnce : ∀ r, ¬ Spec.Linked api r → Spec.LinkedOnce api r := by
    intro r hn sel labels l1 l2 e1 e2 m1 m2 _ _
    exact absurd ⟨sel, labels, l1.1, l1.2, e1, e2, m1, m2⟩ hn
  constructor
  · rintro ⟨cfg, hcfg⟩ k r hr hrt hl hserves
    obtain ⟨hs, ws, p1, p2, p3, -⟩ := (hiff cfg).1 hcfg
    rw [List.nodup_append] at p3
    obtain ⟨p3, p4, p5⟩ := p3
    rw [Transform.pairwise2_names _ _ _ _ p1] at p3
    rw [Transform.pairwise2_ws_names _ _ _ _ _ p2] at p4
    rw [Transform.pairwise2_names _ _ _ _ p1, Transform.pairwise2_ws_names _ _ _ _ _ p2] at p5
    refine ⟨?_, ?_, ?_⟩
    · rcases hserves with h | h
      · obtain ⟨d, _, hd⟩ := pairwise2_right p1 ((hmemH k _).2 ⟨r, hr, rfl, hrt, hl, h⟩)
        exact ⟨d.location, ((httpDef_iff hm ht hc showF hr hrt h d).1 hd).settings.location⟩
      · obtain ⟨d, _, hd⟩ := pairwise2_right p2 ((hmemW k _).2 ⟨r, hr, rfl, hrt, hl, h⟩)
        exact ⟨d.location, ((wsDef_iff hm ht hc showF hr hrt h key d).1 hd).1.settings.location⟩
    · rintro ⟨h1, h2⟩
      exact p5 k (List.mem_map.2 ⟨(k, resourceView r), (hmemH k _).2 ⟨r, hr, rfl, hrt, hl, h1⟩, rfl⟩)
        k (List.mem_map.2 ⟨(k, resourceView r), (hmemW k _).2 ⟨r, hr, rfl, hrt, hl, h2⟩, rfl⟩) rfl
    · rcases hserves with h | h
      · exact hnodH.1 p3 k r hr hrt ((hen k r hr _).2 h)
      · exact hnodW.1 p4 k r hr hrt ((hen k r hr _).2 h)
  · intro h
    obtain ⟨hs, p1⟩ := pairwise2_exists (R := Transform.Spec.HttpDef showF (view y))
      (as := (Transform.selectResources api.linkSelector (view y)
        .handler).filter (fun h => Transform.Spec.isEnabled Transform.httpKey h.2)) (by
      rintro ⟨k, b'⟩ hb
      obtain ⟨r, hr, rfl, hrt, hl, hann⟩ := (hmemH k b').1 hb
      obtain ⟨⟨l, hloc⟩, -, -⟩ := h k r hr hrt hl (.inl hann)
      obtain ⟨t, b, hset⟩ := settings_exist hm ht hc hr hrt hloc
      obtain ⟨ss, n1, n2, n3⟩ := Transform.path_has_segments
        (Transform.Spec.annotationOr showF "celerity.handler.http.path".toList "/".toList
          (resourceView r))
      exact ⟨⟨k, Transform.Spec.path Transform.Spec.Segment.router ss,
        Transform.Spec.annotationOr showF "celerity.handler.http.method".toList "GET".toList
          (resourceView r), l, t, b⟩, (httpDef_iff hm ht hc showF hr hrt hann _).2
        ⟨hrt, hann, rfl, (annotationOr_iff hm hr showF _ _ _).1 rfl,
          ⟨ss, n1, n2, (annotationOr_iff hm hr showF _ _ _).1 n3, rfl⟩, hset⟩⟩)
    obtain ⟨ws, p2⟩ := pairwise2_exists (R := Transform.Spec.WsDef showF (view y) key)
      (as := (Transform.selectResources api.linkSelector (view y)
        .handler).filter (fun h => Transform.Spec.isEnabled Transform.wsKey h.2)) (by
      rintro ⟨k, b'⟩ hb
      obtain ⟨r, hr, rfl, hrt, hl, hann⟩ := (hmemW k b').1 hb
      obtain ⟨⟨l, hloc⟩, -, -⟩ := h k r hr hrt hl (.inr hann)
      obtain ⟨t, b, hset⟩ := settings_exist hm ht hc hr hrt hloc
      exact ⟨⟨k, key, Transform.Spec.annotationOr showF
          "celerity.handler.websocket.route".toList "$default".toList (resourceView r), l, t, b⟩,
        (wsDef_iff hm ht hc showF hr hrt hann key _).2
        ⟨⟨hrt, hann, rfl, (annotationOr_iff hm hr showF _ _ _).1 rfl, hset⟩, rfl⟩⟩)
    refine ⟨⟨if hs = [] then none else some hs, if ws = [] then none else some (ws, "event".toList),
      sp.tracingEnabled.getD false⟩, (hiff _).2 ⟨hs, ws, p1, p2, ?_, rfl, rfl, rfl⟩⟩
    rw [List.nodup_append, Transform.pairwise2_names _ _ _ _ p1,
      Transform.pairwise2_ws_names _ _ _ _ _ p2]
    refine ⟨hnodH.2 ?_, hnodW.2 ?_, ?_⟩
    · intro k r hr hrt hq
      by_cases hl : Spec.Linked api r
      · exact (h k r hr hrt hl (.inl ((hen k r hr _).1 hq))).2.2
      · exact hOnce r hl
    · intro k r hr hrt hq
      by_cases hl : Spec.Linked api r
      · exact (h k r hr hrt hl (.inr ((hen k r hr _).1 hq))).2.2
      · exact hOnce r hl
    · rintro n hn n' hn' rfl
      obtain ⟨⟨k, b⟩, hb, rfl⟩ := List.mem_map.1 hn
      obtain ⟨⟨k', b'⟩, hb', hkk⟩ := List.mem_map.1 hn'
      dsimp only at hkk
      subst hkk
      obtain ⟨r, hr, rfl, hrt, hl, hann⟩ := (hmemH _ _).1 hb
      obtain ⟨r', hr', rfl, _, _, hann'⟩ := (hmemW _ _).1 hb'
      have e1 := Assoc.lookup_of_mem _ _ _ hm.names hr
      have e2 := Assoc.lookup_of_mem _ _ _ hm.names hr'
      rw [e1] at e2
      cases e2
      exact (h _ r hr hrt hl (.inl hann)).2.1 ⟨hann, hann'⟩

end Verif.Startup
