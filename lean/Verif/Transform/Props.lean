import Verif.Transform.Lemmas

/-!
# Property theorems about the configuration transformation (C08-C12, C49-C51)
-/

namespace Verif.Transform

open Verif Verif.Subst

/-! ## C08 -/

/-- C08, full statement: exactly the resources of the type that carry a selected label with the
selected value. -/
def FullSelect : Prop :=
  ∀ (F : Type) (byLabel : List (Str × Str)) (bp : Blueprint F) (ty : ResourceType)
    (nr : Str × Resource F),
    nr ∈ selectResources (some byLabel) bp ty ↔
      nr ∈ bp.resources ∧ nr.2.resourceType = ty ∧ Spec.HasLabel byLabel nr.2

/-- A handler with one label. -/
def labelledHandler (k v : Str) : Resource Unit :=
  { resourceType := .handler, annotations := none, labels := some [(k, v)], linkSelector := none,
    spec := .handler ⟨none, none, none⟩ }

/-- C08 is false: a handler labelled `app: other` is selected by `app: orders`. -/
theorem select_violated : ¬ FullSelect := by
  intro h
  have := (h Unit [("app".toList, "orders".toList)]
    ⟨[("h".toList, labelledHandler "app".toList "other".toList)], none⟩ .handler
    ("h".toList, labelledHandler "app".toList "other".toList)).mp (by decide)
  obtain ⟨_, _, labels, k, v, h1, h2, h3⟩ := this
  simp [labelledHandler] at h1
  subst h1
  simp at h2
  obtain ⟨rfl, rfl⟩ := h2
  revert h3
  decide

/-- C08, what holds: every resource that should be selected is; a selected resource is of the
type and carries a selected label key; and when no resource of the type carries a selected key with
another value, the selection is exact. Missing: the value of the label is not compared. -/
theorem select_partial {F : Type} (byLabel : List (Str × Str)) (bp : Blueprint F)
    (ty : ResourceType) (nr : Str × Resource F) :
    (nr ∈ bp.resources → nr.2.resourceType = ty → Spec.HasLabel byLabel nr.2 →
      nr ∈ selectResources (some byLabel) bp ty) ∧
    (nr ∈ selectResources (some byLabel) bp ty ↔
      nr ∈ bp.resources ∧ nr.2.resourceType = ty ∧ Spec.HasLabelKey byLabel nr.2) ∧
    ((∀ labels k v w, nr.2.labels = some labels → (k, v) ∈ byLabel →
        labels.lookup k = some w → w = v) →
      (nr ∈ selectResources (some byLabel) bp ty ↔
        nr ∈ bp.resources ∧ nr.2.resourceType = ty ∧ Spec.HasLabel byLabel nr.2)) := by
  refine ⟨?_, mem_selectResources byLabel bp ty nr, ?_⟩
  · rintro h1 h2 ⟨labels, k, v, h3, h4, h5⟩
    exact (mem_selectResources byLabel bp ty nr).mpr ⟨h1, h2, labels, k, v, v, h3, h4, h5⟩
  · intro hv
    rw [mem_selectResources]
    constructor
    · rintro ⟨h1, h2, labels, k, v, w, h3, h4, h5⟩
      have := hv labels k v w h3 h4 h5
      subst this
      exact ⟨h1, h2, labels, k, w, h3, h4, h5⟩
    · rintro ⟨h1, h2, labels, k, v, h3, h4, h5⟩
      exact ⟨h1, h2, labels, k, v, v, h3, h4, h5⟩

/-- No selector selects nothing. -/
theorem select_none {F : Type} (bp : Blueprint F) (ty : ResourceType) :
    selectResources none bp ty = [] := rfl

example : ("h".toList, labelledHandler "app".toList "orders".toList) ∈
    selectResources (some [("app".toList, "orders".toList)])
      ⟨[("g".toList, labelledHandler "x".toList "y".toList),
        ("h".toList, labelledHandler "app".toList "orders".toList)], none⟩ .handler := by decide

/-! ## C09 -/

/-- The three levels of a setting. -/
def levels {F : Type} {A : Type} (get1 : HandlerSpec → Option A) (get2 : SharedConfig → Option A)
    (spec : HandlerSpec) (config : Option (Str × Resource F)) (md : Option (Option SharedConfig)) :
    List (Option A) :=
  [get1 spec,
   match config with
   | some (_, { spec := .handlerConfig c, .. }) => get2 c
   | _ => none,
   match md with
   | some (some c) => get2 c
   | _ => none]

/-- C09, full statement. -/
def FullTimeout : Prop :=
  ∀ (F : Type) (spec : HandlerSpec) (config : Option (Str × Resource F))
    (md : Option (Option SharedConfig)),
    resolveTimeout spec config md =
      min ((Spec.mostSpecific (levels (·.timeout) (·.timeout) spec config md)).getD 60) 3600

/-- C09 is false: a handler timeout of 30 seconds becomes 3600. -/
theorem timeout_violated : ¬ FullTimeout := by
  intro h
  have := h Unit ⟨none, some 30, none⟩ none none
  revert this
  decide

theorem levels_eq {F : Type} {A : Type} (get1 : HandlerSpec → Option A)
    (get2 : SharedConfig → Option A) (spec : HandlerSpec) (config : Option (Str × Resource F))
    (md : Option (Option SharedConfig)) :
    levels get1 get2 spec config md =
      [get1 spec, (linkedConfig config).bind get2, (sharedConfig md).bind get2] := by
  unfold levels linkedConfig sharedConfig
  congr 1
  congr 1
  · match config with
    | none => rfl
    | some (n, r) =>
      obtain ⟨ty, an, lb, ls, sp⟩ := r
      cases sp <;> rfl
  · congr 1
    match md with
    | none => rfl
    | some none => rfl
    | some (some c) => rfl

/-- C09, what holds: with no setting the timeout is 60 seconds; the most specific level that has a
setting alone decides; and the documented value is obtained exactly when nothing is set, when only
the shared configuration is set with at most 3600, or when the deciding setting is 3600 itself.
Missing: settings of the handler or of its linked configuration below 3600 are raised to 3600,
those above are not capped, and the shared setting is not capped. -/
theorem timeout_partial {F : Type} (spec : HandlerSpec) (config : Option (Str × Resource F))
    (md : Option (Option SharedConfig)) :
    (Spec.mostSpecific (levels (·.timeout) (·.timeout) spec config md) = none →
      resolveTimeout spec config md = 60) ∧
    (∀ (spec' : HandlerSpec) (config' : Option (Str × Resource F)) (md' : Option (Option SharedConfig)),
      (∀ t, spec.timeout = some t → spec'.timeout = some t →
        resolveTimeout spec config md = resolveTimeout spec' config' md')) ∧
    (resolveTimeout spec config md =
        min ((Spec.mostSpecific (levels (·.timeout) (·.timeout) spec config md)).getD 60) 3600 ↔
      match levels (·.timeout) (·.timeout) spec config md with
      | [some t, _, _] => t = 3600
      | [none, some t, _] => t = 3600
      | [none, none, some t] => t ≤ 3600
      | _ => True) := by
  rw [levels_eq]
  unfold resolveTimeout
  refine ⟨?_, ?_, ?_⟩
  · cases spec.timeout with
    | some t => simp [Spec.mostSpecific]
    | none =>
      cases (linkedConfig config).bind (·.timeout) with
      | some t => simp [Spec.mostSpecific]
      | none =>
        cases (sharedConfig md).bind (·.timeout) <;> simp [Spec.mostSpecific, defaultHandlerTimeout]
  · intro spec' config' md' t h1 h2
    rw [h1, h2]
    simp
  · cases spec.timeout with
    | some t => simp [Spec.mostSpecific, maxHandlerTimeout]; omega
    | none =>
      cases (linkedConfig config).bind (·.timeout) with
      | some t => simp [Spec.mostSpecific, maxHandlerTimeout]; omega
      | none =>
        cases (sharedConfig md).bind (·.timeout) with
        | some t => simp [Spec.mostSpecific]; omega
        | none => simp [Spec.mostSpecific, defaultHandlerTimeout]; omega

example : resolveTimeout (F := Unit) ⟨none, none, none⟩ none (some (some ⟨none, some 20, none⟩)) = 20 := by
  decide

/-! ## C10 -/

/-- C10: the code location is that of the most specific level; if no level has one, an error. -/
theorem location_precedence {F : Type} (name : Str) (spec : HandlerSpec)
    (config : Option (Str × Resource F)) (md : Option (Option SharedConfig)) :
    resolveLocation name spec config md =
      match Spec.mostSpecific (levels (·.codeLocation) (·.codeLocation) spec config md) with
      | some l => .ok l
      | none => .error (.missingLocation name) := by
  rw [levels_eq]
  unfold resolveLocation
  cases spec.codeLocation with
  | some l => rfl
  | none =>
    cases h1 : (linkedConfig config).bind (·.codeLocation) with
    | some l => simp [Spec.mostSpecific]
    | none =>
      cases h2 : (sharedConfig md).bind (·.codeLocation) <;> simp [Spec.mostSpecific]

/-- C10: tracing follows the most specific level and is off when no level sets it. -/
theorem tracing_precedence {F : Type} (spec : HandlerSpec) (config : Option (Str × Resource F))
    (md : Option (Option SharedConfig)) :
    resolveTracing spec config md =
      (Spec.mostSpecific (levels (·.tracingEnabled) (·.tracingEnabled) spec config md)).getD
        false := by
  rw [levels_eq]
  unfold resolveTracing
  cases spec.tracingEnabled with
  | some l => rfl
  | none =>
    cases h1 : (linkedConfig config).bind (·.tracingEnabled) with
    | some l => simp [Spec.mostSpecific]
    | none =>
      cases h2 : (sharedConfig md).bind (·.tracingEnabled) <;>
        simp [Spec.mostSpecific, defaultTracingEnabled]

example : resolveLocation (F := Unit) "h".toList ⟨none, none, none⟩
    (some ("c".toList, ⟨.handlerConfig, none, none, none,
      .handlerConfig ⟨some "./linked".toList, none, some true⟩⟩))
    (some (some ⟨some "./shared".toList, none, none⟩)) = .ok "./linked".toList := by rfl

/-! ## C11 -/

/-- C11: converting a path keeps its segments and rewrites each of them. -/
theorem axum_path_segments (ss : List Spec.Segment) (hne : ss ≠ []) (h : ∀ s ∈ ss, s.WF) :
    toAxumPath (Spec.path Spec.Segment.blueprint ss) = Spec.path Spec.Segment.router ss := by
  rw [path_eq_join, path_eq_join]
  unfold toAxumPath
  rw [splitSlash_joinSlash]
  · rw [List.map_map]
    congr 1
    apply List.map_congr_left
    intro s hs
    exact axumPart_segment s (h s hs)
  · simpa using hne
  · intro p hp
    rw [List.mem_map] at hp
    obtain ⟨s, hs, rfl⟩ := hp
    exact segment_no_slash s (h s hs)

/-- C11: every path is made of such segments, so the conversion is defined segment by segment on
every string. -/
theorem path_has_segments (p : Str) :
    ∃ ss : List Spec.Segment, ss ≠ [] ∧ (∀ s ∈ ss, s.WF) ∧
      Spec.path Spec.Segment.blueprint ss = p := by
  obtain ⟨ss, h1, h2⟩ := segments_exist (splitSlash p) (splitSlash_no_slash p)
  refine ⟨ss, ?_, h1, ?_⟩
  · rintro rfl
    exact splitSlash_ne_nil p h2.symm
  · rw [path_eq_join, h2, joinSlash_splitSlash]

/-- C11: two different paths give different router paths, unless a literal segment already uses
router syntax. -/
theorem axum_path_injective (ss ts : List Spec.Segment) (hs : ss ≠ []) (ht : ts ≠ [])
    (h1 : ∀ s ∈ ss, s.WF ∧ ¬ s.RouterSyntax) (h2 : ∀ s ∈ ts, s.WF ∧ ¬ s.RouterSyntax)
    (h : toAxumPath (Spec.path Spec.Segment.blueprint ss) =
      toAxumPath (Spec.path Spec.Segment.blueprint ts)) : ss = ts := by
  rw [axum_path_segments ss hs (fun s hm => (h1 s hm).1),
    axum_path_segments ts ht (fun s hm => (h2 s hm).1), path_eq_join, path_eq_join] at h
  have := congrArg splitSlash h
  rw [splitSlash_joinSlash _ (by simpa using hs), splitSlash_joinSlash _ (by simpa using ht)] at this
  · exact map_router_injective ss ts h1 h2 this
  · intro p hp
    rw [List.mem_map] at hp
    obtain ⟨s, hm, rfl⟩ := hp
    exact segment_router_no_slash s (h2 s hm).1
  · intro p hp
    rw [List.mem_map] at hp
    obtain ⟨s, hm, rfl⟩ := hp
    exact segment_router_no_slash s (h1 s hm).1

example : toAxumPath "/orders/{id}/files/{rest+}".toList = "/orders/:id/files/*rest".toList := by
  decide
example : ∀ s ∈ ([.text [], .text "orders".toList, .param "id".toList,
    .catchAll "rest".toList] : List Spec.Segment), s.WF ∧ ¬ s.RouterSyntax := by
  have hp : ¬ ∃ m : Str, ['i', 'd'] = m ++ ['+'] := by
    rintro ⟨m, hm⟩
    have := congrArg List.getLast? hm
    simp at this
  intro s hs
  simp at hs
  rcases hs with rfl | rfl | rfl | rfl
  · simp [Spec.Segment.WF, Spec.Segment.RouterSyntax]
  · simp [Spec.Segment.WF, Spec.Segment.RouterSyntax]
  · exact ⟨⟨by decide, hp⟩, by simp [Spec.Segment.RouterSyntax]⟩
  · simp [Spec.Segment.WF, Spec.Segment.RouterSyntax]

/-! ## C12 -/

/-- The annotation that makes a handler an HTTP handler. -/
def Spec.httpAnnotation : Str := "celerity.handler.http".toList

/-- C12: collection succeeds exactly when the annotated handlers are distinct and each has a
definition, and then yields one definition per annotated handler, in order. -/
theorem http_handlers_collected_once {F : Type} (showF : F → Str) (bp : Blueprint F)
    (targets : List (Str × Resource F)) (defs : List HttpHandler) (names : List Str) :
    collectHttp showF bp [] [] targets = .ok (defs, names) ↔
      names = (targets.filter (fun h => Spec.isEnabled Spec.httpAnnotation h.2)).map (·.1) ∧
      names.Nodup ∧
      Spec.Pairwise2 (Spec.HttpDef showF bp)
        (targets.filter (fun h => Spec.isEnabled Spec.httpAnnotation h.2)) defs := by
  have e : Spec.httpAnnotation = httpKey := rfl
  rw [e, collectHttp_iff]
  generalize targets.filter (fun h => Spec.isEnabled httpKey h.2) = ts
  simp only [List.nil_append]
  constructor
  · rintro ⟨ds, h1, h2, h3, _, h5⟩
    subst h1 h2
    exact ⟨rfl, h3, h5⟩
  · rintro ⟨h2, h3, h5⟩
    subst h2
    exact ⟨defs, rfl, rfl, h3, by simp, h5⟩

/-- The annotation that makes a handler a WebSocket handler. -/
def Spec.wsAnnotation : Str := "celerity.handler.websocket".toList

/-- C12 for WebSocket handlers: `key` is the route key of the API. -/
theorem ws_handlers_collected_once {F : Type} (showF : F → Str) (bp : Blueprint F)
    (apiSpec : ResourceSpec) (key : Str) (hk : resolveRouteKey apiSpec = .ok key) (others : List Str)
    (targets : List (Str × Resource F)) (defs : List WsHandler) (names : List Str) :
    collectWs showF bp apiSpec others [] targets = .ok (defs, names) ↔
      names = others ++
        (targets.filter (fun h => Spec.isEnabled Spec.wsAnnotation h.2)).map (·.1) ∧
      ((targets.filter (fun h => Spec.isEnabled Spec.wsAnnotation h.2)).map (·.1)).Nodup ∧
      (∀ n ∈ (targets.filter (fun h => Spec.isEnabled Spec.wsAnnotation h.2)).map (·.1), n ∉ others) ∧
      Spec.Pairwise2 (Spec.WsDef showF bp key)
        (targets.filter (fun h => Spec.isEnabled Spec.wsAnnotation h.2)) defs := by
  have e : Spec.wsAnnotation = wsKey := rfl
  rw [e, collectWs_iff showF bp apiSpec key hk]
  simp only [List.nil_append]
  constructor
  · rintro ⟨ds, h1, h2, h3, h4, h5⟩
    subst h1
    exact ⟨h2, h3, h4, h5⟩
  · rintro ⟨h2, h3, h4, h5⟩
    exact ⟨defs, rfl, h2, h3, h4, h5⟩

/-- C12: a handler is never collected for both protocols, and never twice for one. -/
theorem api_handlers_distinct {F : Type} (showF : F → Str) (bp : Blueprint F) (n : Option Str)
    (cfg : ApiConfig) (h : collectApiConfig showF bp n = .ok cfg)
    (hapi : ∀ nr ∈ bp.resources, nr.2.resourceType = .api → ∃ s, nr.2.spec = .api s) :
    ((cfg.http.getD []).map (·.handler) ++
      ((cfg.websocket.map (·.1)).getD []).map (·.handler)).Nodup := by
  have h' := h
  unfold collectApiConfig at h'
  cases hg : getApiResource bp n with
  | error e => rw [hg] at h'; simp at h'
  | ok api =>
    have hm : ∃ s, api.spec = .api s := by
      unfold getApiResource at hg
      split at hg
      · rename_i nr hf
        simp at hg
        subst hg
        have := List.find?_some hf
        refine hapi nr (List.mem_of_find?_eq_some hf) ?_
        cases n <;> simp at this <;> simp [this]
      · simp at hg
    obtain ⟨s, hs⟩ := hm
    obtain ⟨k, hk⟩ := resolveRouteKey_total api.spec ⟨s, hs⟩
    rw [collectApiConfig_iff showF bp n api hg s hs k hk] at h
    obtain ⟨hs', ws', h1, h2, h3, h4, h5, h6⟩ := h
    rw [h4, h5]
    have e1 : ((if hs' = [] then none else some hs').getD []) = hs' := by
      by_cases he : hs' = [] <;> simp [he]
    have e2 : (((if ws' = [] then none else some (ws', "event".toList)).map (·.1)).getD []) = ws' := by
      by_cases he : ws' = [] <;> simp [he]
    rw [e1, e2]
    exact h3

/-- A blueprint with an API and two linked handlers. -/
def exampleBlueprint : Blueprint Unit :=
  { resources :=
      [("api".toList,
        ⟨.api, none, none, some [("app".toList, "o".toList)],
          .api ⟨[.http, .webSocketConfig (some "action".toList)], some true⟩⟩),
       ("save".toList,
        ⟨.handler,
          some [(httpKey, .bool true), (httpPathKey, .str "/orders/{id}".toList),
            (httpMethodKey, .str "POST".toList)],
          some [("app".toList, "o".toList)], none,
          .handler ⟨some "./save".toList, none, none⟩⟩),
       ("list".toList,
        ⟨.handler, some [(httpKey, .bool true)], some [("app".toList, "o".toList)], none,
          .handler ⟨none, none, some true⟩⟩)]
    metadata := some (some ⟨some "./shared".toList, some 20, none⟩) }

example : collectApiConfig (fun _ => []) exampleBlueprint none = .ok
    { http := some
        [⟨"save".toList, "/orders/:id".toList, "POST".toList, "./save".toList, 20, false⟩,
         ⟨"list".toList, "/".toList, "GET".toList, "./shared".toList, 20, true⟩]
      websocket := none
      tracingEnabled := true } := by rfl

/-! ## C49 -/

/-- Two blueprints that differ only in the order in which the resource map is iterated. -/
structure SameUpToOrder {F : Type} (bp bp' : Blueprint F) : Prop where
  resources : bp.resources.Perm bp'.resources
  metadata : bp.metadata = bp'.metadata

/-- Two API configurations with the same definitions, in any order. -/
structure SameConfig (c c' : ApiConfig) : Prop where
  http : (c.http.getD []).Perm (c'.http.getD [])
  websocket : ((c.websocket.map (·.1)).getD []).Perm ((c'.websocket.map (·.1)).getD [])
  tracing : c.tracingEnabled = c'.tracingEnabled

/-- C49, full statement: the iteration order of the resource map (which differs from run to run)
has no effect on the configuration. -/
def FullOrderIndependent : Prop :=
  ∀ (F : Type) (showF : F → Str) (bp bp' : Blueprint F) (n : Option Str) (c : ApiConfig),
    SameUpToOrder bp bp' → (bp.resources.map (·.1)).Nodup → collectApiConfig showF bp n = .ok c →
    ∃ c', collectApiConfig showF bp' n = .ok c' ∧ SameConfig c c'

/-- A blueprint with one handler linked to two handler configurations. -/
def twoConfigs : Blueprint Unit :=
  { resources :=
      [("api".toList, ⟨.api, none, none, some [("app".toList, "o".toList)], .api ⟨[.http], none⟩⟩),
       ("h".toList,
        ⟨.handler, some [(httpKey, .bool true)], some [("app".toList, "o".toList)],
          some [("cfg".toList, "x".toList)], .handler ⟨none, none, none⟩⟩),
       ("c1".toList, ⟨.handlerConfig, none, some [("cfg".toList, "x".toList)], none,
          .handlerConfig ⟨some "./one".toList, none, none⟩⟩),
       ("c2".toList, ⟨.handlerConfig, none, some [("cfg".toList, "x".toList)], none,
          .handlerConfig ⟨some "./two".toList, none, none⟩⟩)]
    metadata := none }

/-- C49 is false: with two linked handler configurations, which of them is used depends on the
iteration order. -/
theorem order_independent_violated : ¬ FullOrderIndependent := by
  intro h
  let bp' : Blueprint Unit :=
    { twoConfigs with resources := twoConfigs.resources.reverse }
  obtain ⟨c', h1, h2⟩ := h Unit (fun _ => []) twoConfigs bp' none
    ⟨some [⟨"h".toList, "/".toList, "GET".toList, "./one".toList, 60, false⟩], none, false⟩
    ⟨(List.reverse_perm _).symm, rfl⟩ (by decide) (by rfl)
  have h3 : collectApiConfig (fun _ => []) bp' none = .ok
      ⟨some [⟨"h".toList, "/".toList, "GET".toList, "./two".toList, 60, false⟩], none, false⟩ := by
    rfl
  rw [h3] at h1
  simp only [Except.ok.injEq] at h1
  subst h1
  have := h2.http
  simp at this

/-- C49, what holds: if at most one resource can be the API and every handler is linked to at most
one handler configuration, the iteration order has no effect (beyond the order of the
definitions). Missing: several candidates for the API or for the linked configuration. -/
theorem order_independent_partial {F : Type} (showF : F → Str) (bp bp' : Blueprint F)
    (n : Option Str) (c : ApiConfig) (hsame : SameUpToOrder bp bp')
    (hapi : ∀ a ∈ bp.resources, ∀ b ∈ bp.resources,
      a.2.resourceType = .api → b.2.resourceType = .api → a = b)
    (hspec : ∀ nr ∈ bp.resources, nr.2.resourceType = .api → ∃ s, nr.2.spec = .api s)
    (hcfg : ∀ h ∈ bp.resources, h.2.resourceType = .handler →
      ∀ a ∈ selectResources h.2.linkSelector bp .handlerConfig,
      ∀ b ∈ selectResources h.2.linkSelector bp .handlerConfig, a = b)
    (h : collectApiConfig showF bp n = .ok c) :
    ∃ c', collectApiConfig showF bp' n = .ok c' ∧ SameConfig c c' := by
  have h' := h
  unfold collectApiConfig at h'
  cases hg : getApiResource bp n with
  | error e => rw [hg] at h'; simp at h'
  | ok api =>
    have hg' : getApiResource bp' n = .ok api := by
      rw [← hg]
      unfold getApiResource
      rw [find_perm _ _ _ hsame.resources]
      intro a ha b hb h1 h2
      apply hapi a ha b hb
      · cases n <;> simp at h1 <;> simp [h1]
      · cases n <;> simp at h2 <;> simp [h2]
    have hm : ∃ s, api.spec = .api s := by
      unfold getApiResource at hg
      split at hg
      · rename_i nr hf
        simp at hg
        subst hg
        have := List.find?_some hf
        refine hspec nr (List.mem_of_find?_eq_some hf) ?_
        cases n <;> simp at this <;> simp [this]
      · simp at hg
    obtain ⟨s, hs⟩ := hm
    obtain ⟨k, hk⟩ := resolveRouteKey_total api.spec ⟨s, hs⟩
    rw [collectApiConfig_iff showF bp n api hg s hs k hk] at h
    obtain ⟨hs1, ws1, h1, h2, h3, h4, h5, h6⟩ := h
    have hfirst : ∀ t ∈ selectResources api.linkSelector bp .handler,
        Spec.firstConfig bp t.2 = Spec.firstConfig bp' t.2 := by
      intro t ht
      have htm : t ∈ bp.resources ∧ t.2.resourceType = .handler := by
        cases hl : api.linkSelector with
        | none => rw [hl] at ht; simp [selectResources] at ht
        | some l =>
          rw [hl, mem_selectResources] at ht
          exact ⟨ht.1, ht.2.1⟩
      exact head_of_perm _ _ (selectResources_perm _ _ _ hsame.resources _)
        (hcfg t htm.1 htm.2)
    have hperm := selectResources_perm api.linkSelector bp bp' hsame.resources .handler
    have i1 := pairwise2_imp _ (Spec.HttpDef showF bp') _ _ (by
      intro t ht d hd
      have hf := hfirst t (List.mem_filter.mp ht).1
      refine ⟨hd.name, hd.method, hd.path, ?_⟩
      rw [← hf, ← hsame.metadata]
      exact hd.spec) h1
    have i2 := pairwise2_imp _ (Spec.WsDef showF bp' k) _ _ (by
      intro t ht d hd
      have hf := hfirst t (List.mem_filter.mp ht).1
      refine ⟨hd.name, hd.route, hd.routeKey, ?_⟩
      rw [← hf, ← hsame.metadata]
      exact hd.spec) h2
    obtain ⟨hs2, p1, q1⟩ := pairwise2_perm _ _ _ (hperm.filter _) _ i1
    obtain ⟨ws2, p2, q2⟩ := pairwise2_perm _ _ _ (hperm.filter _) _ i2
    have hne : (hs1 = [] ↔ hs2 = []) :=
      ⟨fun e => by subst e; exact p1.nil_eq.symm, fun e => by subst e; exact p1.eq_nil⟩
    have hne2 : (ws1 = [] ↔ ws2 = []) :=
      ⟨fun e => by subst e; exact p2.nil_eq.symm, fun e => by subst e; exact p2.eq_nil⟩
    refine ⟨⟨if hs2 = [] then none else some hs2, if ws2 = [] then none else some (ws2, "event".toList),
      s.tracingEnabled.getD false⟩, ?_, ?_⟩
    · rw [collectApiConfig_iff showF bp' n api hg' s hs k hk]
      refine ⟨hs2, ws2, q1, q2, ?_, rfl, rfl, rfl⟩
      exact ((p1.map _).append (p2.map _)).nodup_iff.mp h3
    · constructor
      · rw [h4]
        by_cases he : hs1 = []
        · have := hne.mp he; subst he; subst this; simp
        · have : ¬ hs2 = [] := fun e => he (hne.mpr e)
          simp only [he, this, if_false, Option.getD_some]
          exact p1
      · rw [h5]
        by_cases he : ws1 = []
        · have := hne2.mp he; subst he; subst this; simp
        · have : ¬ ws2 = [] := fun e => he (hne2.mpr e)
          simp only [he, this, if_false, Option.map_some, Option.getD_some]
          exact p2
      · exact h6

/-- The hypotheses of `order_independent_partial` hold of the example blueprint. -/
example : (∀ a ∈ exampleBlueprint.resources, ∀ b ∈ exampleBlueprint.resources,
      a.2.resourceType = .api → b.2.resourceType = .api → a = b) ∧
    (∀ h ∈ exampleBlueprint.resources, h.2.resourceType = .handler →
      selectResources h.2.linkSelector exampleBlueprint .handlerConfig = []) := by
  decide

/-! ## C50 -/

/-- C50, full statement: the WebSocket endpoint routes by the key configured on the API. -/
def FullRouteKey : Prop :=
  ∀ (F : Type) (showF : F → Str) (bp : Blueprint F) (n : Option Str) (api : Resource F)
    (s : ApiSpec) (k : Str) (path key : Str),
    getApiResource bp n = .ok api → api.spec = .api s → s.protocols = [.webSocketConfig (some k)] →
    startApi showF bp n = .ok (some (path, key)) → key = k

/-- A WebSocket API with route key `action`. -/
def wsBlueprint : Blueprint Unit :=
  { resources :=
      [("api".toList, ⟨.api, none, none, some [("app".toList, "o".toList)],
          .api ⟨[.webSocketConfig (some "action".toList)], none⟩⟩),
       ("h".toList,
        ⟨.handler, some [(wsKey, .bool true), (wsRouteKey, .str "hello".toList)],
          some [("app".toList, "o".toList)], none, .handler ⟨some "./h".toList, none, none⟩⟩)]
    metadata := none }

/-- C50 is false: the endpoint uses `event` although `action` is configured. -/
theorem route_key_violated : ¬ FullRouteKey := by
  intro h
  have := h Unit (fun _ => []) wsBlueprint none _ _ "action".toList "/".toList "event".toList
    rfl rfl rfl (by rfl)
  revert this
  decide

/-- C50, what holds: every handler definition carries the configured key, and the endpoint uses
`event`, which is the configured key when none or `event` is configured. Missing: any other
configured key is ignored by the endpoint. -/
theorem route_key_partial {F : Type} (showF : F → Str) (bp : Blueprint F) (n : Option Str)
    (api : Resource F) (s : ApiSpec) (rk : Option Str) (cfg : ApiConfig)
    (hg : getApiResource bp n = .ok api) (hs : api.spec = .api s)
    (hp : s.protocols = [.webSocketConfig rk]) (h : collectApiConfig showF bp n = .ok cfg) :
    (∀ ws key, cfg.websocket = some (ws, key) →
      (∀ d ∈ ws, d.routeKey = rk.getD "event".toList) ∧ key = "event".toList) ∧
    ((rk = none ∨ rk = some "event".toList) → ∀ path key,
      startApi showF bp n = .ok (some (path, key)) → key = rk.getD "event".toList) := by
  have hk : resolveRouteKey api.spec = .ok (rk.getD "event".toList) := by
    rw [hs]
    simp [resolveRouteKey, hp, defaultRouteKey]
  have hc := h
  rw [collectApiConfig_iff showF bp n api hg s hs _ hk] at h
  obtain ⟨hs1, ws1, h1, h2, h3, h4, h5, h6⟩ := h
  refine ⟨?_, ?_⟩
  · intro ws key hw
    rw [h5] at hw
    by_cases he : ws1 = []
    · simp [he] at hw
    · simp only [he, if_false, Option.some.injEq, Prod.mk.injEq] at hw
      obtain ⟨rfl, rfl⟩ := hw
      exact ⟨pairwise2_ws_key showF bp _ _ _ h2, rfl⟩
  · intro hrk path key hst
    unfold startApi at hst
    rw [hc] at hst
    simp only [setupWebsocket, h5] at hst
    by_cases he : ws1 = []
    · simp [he] at hst
    · simp only [he, if_false] at hst
      split at hst
      · simp at hst
      · simp at hst
        rw [← hst.2]
        rcases hrk with rfl | rfl <;> rfl

example : startApi (fun _ => []) wsBlueprint none = .ok (some ("/".toList, "event".toList)) := by rfl

/-! ## C51 -/

/-- C51, full statement: an API that serves both HTTP and WebSocket handlers can be started. -/
def FullHybridStarts : Prop :=
  ∀ (F : Type) (showF : F → Str) (bp : Blueprint F) (n : Option Str) (cfg : ApiConfig),
    collectApiConfig showF bp n = .ok cfg → ∃ r, startApi showF bp n = .ok r

/-- A blueprint with an HTTP and a WebSocket handler. -/
def hybridBlueprint : Blueprint Unit :=
  { exampleBlueprint with
    resources := exampleBlueprint.resources ++
      [("ws".toList,
        ⟨.handler, some [(wsKey, .bool true)], some [("app".toList, "o".toList)], none,
          .handler ⟨none, none, none⟩⟩)] }

/-- C51 is false, and not only for one blueprint: whenever the transformation finds handlers of
both kinds, starting fails. -/
theorem hybrid_never_starts {F : Type} (showF : F → Str) (bp : Blueprint F) (n : Option Str)
    (cfg : ApiConfig) (h : collectApiConfig showF bp n = .ok cfg)
    (h1 : cfg.http ≠ none) (h2 : cfg.websocket ≠ none) :
    startApi showF bp n = .error .hybridNeedsBasePath := by
  unfold startApi
  rw [h]
  simp only [setupWebsocket]
  cases hw : cfg.websocket with
  | none => exact absurd hw h2
  | some w =>
    cases hh : cfg.http with
    | none => exact absurd hh h1
    | some x => simp [resolveWebsocketBasePath]

theorem hybrid_starts_violated : ¬ FullHybridStarts := by
  intro h
  have hc : ∃ cfg, collectApiConfig (fun _ => []) hybridBlueprint none = .ok cfg ∧
      cfg.http ≠ none ∧ cfg.websocket ≠ none := ⟨_, rfl, by simp, by simp⟩
  obtain ⟨cfg, h1, h2, h3⟩ := hc
  obtain ⟨r, hr⟩ := h Unit _ _ _ _ h1
  rw [hybrid_never_starts _ _ _ _ h1 h2 h3] at hr
  simp at hr

/-- C51, what holds: an API with handlers of one kind starts, with its WebSocket endpoint (if any)
at `/`. Missing: APIs with handlers of both kinds. -/
theorem hybrid_starts_partial {F : Type} (showF : F → Str) (bp : Blueprint F) (n : Option Str)
    (cfg : ApiConfig) (h : collectApiConfig showF bp n = .ok cfg)
    (h1 : cfg.http = none ∨ cfg.websocket = none) :
    ∃ r, startApi showF bp n = .ok r ∧
      (r.isSome ↔ cfg.websocket.isSome) ∧ (∀ p k, r = some (p, k) → p = "/".toList) := by
  unfold startApi
  rw [h]
  simp only [setupWebsocket]
  cases hw : cfg.websocket with
  | none => exact ⟨none, rfl, by simp, by simp⟩
  | some w =>
    have hh : cfg.http = none := by
      rcases h1 with h1 | h1
      · exact h1
      · rw [hw] at h1; simp at h1
    rw [hh]
    exact ⟨some ("/".toList, w.2), by simp [resolveWebsocketBasePath], by simp, by simp⟩

/-- C51, conversely: an API starts only if its configuration was found, without handlers of both kinds,
and then serves the endpoint exactly if there are WebSocket handlers. -/
theorem started_configured {F : Type} (showF : F → Str) (bp : Blueprint F) (n : Option Str)
    (r : Option (Str × Str)) (h : startApi showF bp n = .ok r) :
    ∃ cfg, collectApiConfig showF bp n = .ok cfg ∧ (cfg.http = none ∨ cfg.websocket = none) ∧
      (r.isSome ↔ cfg.websocket.isSome) := by
  cases hc : collectApiConfig showF bp n with
  | error e => unfold startApi at h; rw [hc] at h; cases h
  | ok cfg =>
    have h1 : cfg.http = none ∨ cfg.websocket = none := by
      cases hh : cfg.http with
      | none => exact Or.inl rfl
      | some a =>
        cases hw : cfg.websocket with
        | none => exact Or.inr rfl
        | some b =>
          rw [hybrid_never_starts showF bp n cfg hc (by rw [hh]; simp) (by rw [hw]; simp)] at h
          cases h
    obtain ⟨r', h2, h3, _⟩ := hybrid_starts_partial showF bp n cfg hc h1
    rw [h] at h2
    injection h2 with h2
    subst h2
    exact ⟨cfg, rfl, h1, h3⟩

end Verif.Transform
