import Verif.Transform.Props

/-!
# C172: resources that are not linked to an API do not change it
-/

namespace Verif.Transform

open Verif Verif.Subst

/-! ## Specification -/

namespace IndepSpec

variable {F : Type}

/-- A resource that can be the API of an application that is given this name, or none. -/
def IsApi (name : Option Str) (nr : Str × Resource F) : Prop :=
  nr.2.resourceType = .api ∧ ∀ m, name = some m → nr.1 = m

/-- `source` has a link selector that `target` meets, in the sense of `meets`. -/
def Linked (meets : List (Str × Str) → Resource F → Prop) (source target : Resource F) : Prop :=
  ∃ sel, source.linkSelector = some sel ∧ meets sel target

/-- The resource plays a part in the application: it can be the API, it is a handler linked to that, or
a configuration linked to such a handler. -/
def Concerns (meets : List (Str × Str) → Resource F → Prop) (bp : Blueprint F) (name : Option Str)
    (nr : Str × Resource F) : Prop :=
  IsApi name nr ∨
  (nr.2.resourceType = .handler ∧
    ∃ api ∈ bp.resources, IsApi name api ∧ Linked meets api.2 nr.2) ∨
  (nr.2.resourceType = .handlerConfig ∧
    ∃ api ∈ bp.resources, ∃ h ∈ bp.resources, IsApi name api ∧ h.2.resourceType = .handler ∧
      Linked meets api.2 h.2 ∧ Linked meets h.2 nr.2)

end IndepSpec

open IndepSpec

/-- C172 in full: a resource that plays no part in the application does not change its API, wherever it
is in the blueprint. -/
def FullIndep : Prop :=
  ∀ (F : Type) (showF : F → Str) (before after : List (Str × Resource F))
    (md : Option (Option SharedConfig)) (name : Option Str) (nr : Str × Resource F),
    ¬ Concerns Spec.HasLabel ⟨before ++ after, md⟩ name nr →
      collectApiConfig showF ⟨before ++ nr :: after, md⟩ name =
        collectApiConfig showF ⟨before ++ after, md⟩ name

/-! ## Applications in one blueprint are mixed up -/

/-- An API for handlers labelled `app: orders`, with one. -/
def ordersBlueprint : List (Str × Resource Unit) :=
  [("ordersApi".toList, ⟨.api, none, none, some [("app".toList, "orders".toList)], .api ⟨[.http], none⟩⟩),
   ("getOrders".toList,
    ⟨.handler, some [("celerity.handler.http".toList, .bool true)],
      some [("app".toList, "orders".toList)], none, .handler ⟨some "./orders".toList, none, none⟩⟩)]

/-- A handler of another application. -/
def invoicesHandler : Str × Resource Unit :=
  ("getInvoices".toList,
    ⟨.handler, some [("celerity.handler.http".toList, .bool true)],
      some [("app".toList, "invoices".toList)], none, .handler ⟨some "./invoices".toList, none, none⟩⟩)

/-- C172 is false: a handler labelled `app: invoices` becomes part of the API whose handlers are labelled
`app: orders`. -/
theorem indep_violated : ¬ FullIndep := by
  intro h
  have hc : ¬ Concerns Spec.HasLabel (⟨ordersBlueprint ++ [], none⟩ : Blueprint Unit)
      (some "ordersApi".toList) invoicesHandler := by
    rintro (⟨h1, -⟩ | ⟨-, api, ha, ⟨hi, -⟩, sel, hs, labels, k, v, h3, h4, h5⟩ | ⟨h1, -⟩)
    · cases h1
    · have hm : api ∈ ordersBlueprint := by simpa using ha
      simp only [ordersBlueprint, List.mem_cons, List.not_mem_nil, or_false] at hm
      rcases hm with rfl | rfl
      · injection hs with hs
        subst hs
        injection h3 with h3
        subst h3
        have : (k, v) = ("app".toList, "orders".toList) := List.mem_singleton.1 h4
        injection this with e1 e2
        subst e1 e2
        revert h5
        decide
      · cases hi
    · cases h1
  have := h Unit (fun _ => []) ordersBlueprint [] none (some "ordersApi".toList) invoicesHandler hc
  have h1 : collectApiConfig (fun _ => [])
      (⟨ordersBlueprint ++ [invoicesHandler], none⟩ : Blueprint Unit) (some "ordersApi".toList) = .ok
      ⟨some [⟨"getOrders".toList, "/".toList, "GET".toList, "./orders".toList, 60, false⟩,
        ⟨"getInvoices".toList, "/".toList, "GET".toList, "./invoices".toList, 60, false⟩], none, false⟩ := by
    rfl
  have h2 : collectApiConfig (fun _ => [])
      (⟨ordersBlueprint ++ [], none⟩ : Blueprint Unit) (some "ordersApi".toList) = .ok
      ⟨some [⟨"getOrders".toList, "/".toList, "GET".toList, "./orders".toList, 60, false⟩], none, false⟩ := by
    rfl
  rw [h1, h2] at this
  injection this with this
  injection this with this
  injection this with this
  injection this with _ this
  cases this

/-! ## Resources with other labels do not matter -/

theorem labelFilter_false {F : Type} (ty : ResourceType) (byLabel : List (Str × Str)) (r : Resource F)
    (h : r.resourceType = ty → ¬ Spec.HasLabelKey byLabel r) (kv : Str × Str) (hk : kv ∈ byLabel) :
    labelFilter ty kv.1 kv.2 r = false := by
  rw [labelFilter]
  cases hl : r.labels with
  | none => rfl
  | some labels =>
    by_cases ht : r.resourceType = ty
    · cases hv : labels.lookup kv.1 with
      | none => simp [hv]
      | some w => exact (h ht ⟨labels, kv.1, kv.2, w, hl, hk, hv⟩).elim
    · simp [ht]

theorem select_insert {F : Type} (selector : Option (List (Str × Str)))
    (before after : List (Str × Resource F)) (md : Option (Option SharedConfig)) (ty : ResourceType)
    (nr : Str × Resource F)
    (h : nr.2.resourceType = ty → ∀ byLabel, selector = some byLabel → ¬ Spec.HasLabelKey byLabel nr.2) :
    selectResources selector ⟨before ++ nr :: after, md⟩ ty =
      selectResources selector ⟨before ++ after, md⟩ ty := by
  cases selector with
  | none => rfl
  | some byLabel =>
    rw [selectResources, selectResources]
    suffices hs : ∀ l : List (Str × Str), (∀ x ∈ l, x ∈ byLabel) →
        l.flatMap (fun kv => (before ++ nr :: after).filter fun nr => labelFilter ty kv.1 kv.2 nr.2) =
        l.flatMap (fun kv => (before ++ after).filter fun nr => labelFilter ty kv.1 kv.2 nr.2) from
      hs byLabel fun _ hx => hx
    intro l hl
    induction l with
    | nil => rfl
    | cons kv rest ih =>
      rw [List.flatMap_cons, List.flatMap_cons, ih fun x hx => hl x (List.mem_cons_of_mem _ hx)]
      congr 1
      have hf := labelFilter_false ty byLabel nr.2 (fun ht => h ht byLabel rfl) kv
        (hl kv List.mem_cons_self)
      rw [List.filter_append, List.filter_append, List.filter_cons, hf]
      rfl

theorem collectHttp_congr {F : Type} (showF : F → Str) (bp bp' : Blueprint F)
    (hm : bp.metadata = bp'.metadata) (l : List (Str × Resource F))
    (h : ∀ x ∈ l, selectResources x.2.linkSelector bp .handlerConfig =
      selectResources x.2.linkSelector bp' .handlerConfig) (collected : List Str)
    (acc : List HttpHandler) :
    collectHttp showF bp collected acc l = collectHttp showF bp' collected acc l := by
  induction l generalizing collected acc with
  | nil => rfl
  | cons x rest ih =>
    have hd : ∀ method path, httpDefinition bp x method path = httpDefinition bp' x method path := by
      intro method path
      rw [httpDefinition, httpDefinition, h x List.mem_cons_self, hm]
    have ih := ih fun y hy => h y (List.mem_cons_of_mem _ hy)
    simp only [collectHttp, hd, ih]

theorem collectWs_congr {F : Type} (showF : F → Str) (bp bp' : Blueprint F)
    (hm : bp.metadata = bp'.metadata) (spec : ResourceSpec) (l : List (Str × Resource F))
    (h : ∀ x ∈ l, selectResources x.2.linkSelector bp .handlerConfig =
      selectResources x.2.linkSelector bp' .handlerConfig) (collected : List Str)
    (acc : List WsHandler) :
    collectWs showF bp spec collected acc l = collectWs showF bp' spec collected acc l := by
  induction l generalizing collected acc with
  | nil => rfl
  | cons x rest ih =>
    have hd : ∀ route key, wsDefinition bp x route key = wsDefinition bp' x route key := by
      intro route key
      rw [wsDefinition, wsDefinition, h x List.mem_cons_self, hm]
    have ih := ih fun y hy => h y (List.mem_cons_of_mem _ hy)
    simp only [collectWs, hd, ih]

/-- C172, what holds: a resource that plays no part in the application even if only the keys of labels
are compared does not change its API. Missing: resources with a label of the same key and another
value. -/
theorem indep_partial {F : Type} (showF : F → Str) (before after : List (Str × Resource F))
    (md : Option (Option SharedConfig)) (name : Option Str) (nr : Str × Resource F)
    (h : ¬ Concerns Spec.HasLabelKey ⟨before ++ after, md⟩ name nr) :
    collectApiConfig showF ⟨before ++ nr :: after, md⟩ name =
      collectApiConfig showF ⟨before ++ after, md⟩ name := by
  simp only [Concerns, not_or] at h
  obtain ⟨h1, h2, h3⟩ := h
  have hg : getApiResource (⟨before ++ nr :: after, md⟩ : Blueprint F) name =
      getApiResource ⟨before ++ after, md⟩ name := by
    rw [getApiResource, getApiResource]
    cases name with
    | none =>
      have hf : (nr.2.resourceType == ResourceType.api) = false := by
        by_cases ht : nr.2.resourceType = .api
        · exact (h1 ⟨ht, fun m hm => by cases hm⟩).elim
        · simp [ht]
      simp only [List.find?_append, List.find?_cons, hf]
    | some n =>
      have hf : (nr.1 == n && nr.2.resourceType == ResourceType.api) = false := by
        by_cases ht : nr.2.resourceType = .api
        · by_cases hn : nr.1 = n
          · exact (h1 ⟨ht, fun m hm => by injection hm with hm; exact hn.trans hm⟩).elim
          · simp [hn]
        · simp [ht]
      simp only [List.find?_append, List.find?_cons, hf]
  rw [collectApiConfig, collectApiConfig, hg]
  cases ha : getApiResource (⟨before ++ after, md⟩ : Blueprint F) name with
  | error e => rfl
  | ok api =>
    dsimp only
    have hapi : ∃ x ∈ before ++ after, IsApi name x ∧ x.2 = api := by
      rw [getApiResource] at ha
      split at ha
      · rename_i x hx
        injection ha with ha
        refine ⟨x, List.mem_of_find?_eq_some hx, ?_, ha⟩
        have hp := List.find?_some hx
        cases name with
        | none =>
          have hp : (x.2.resourceType == ResourceType.api) = true := hp
          exact ⟨by simpa using hp, fun m hm => by cases hm⟩
        | some n =>
          have hp : (x.1 == n && x.2.resourceType == ResourceType.api) = true := hp
          rw [Bool.and_eq_true] at hp
          exact ⟨by simpa using hp.2, fun m hm => by injection hm with hm; rw [← hm]; simpa using hp.1⟩
      · cases ha
    obtain ⟨x, hx, hxa, hxe⟩ := hapi
    subst hxe
    have hs : selectResources x.2.linkSelector ⟨before ++ nr :: after, md⟩ .handler =
        selectResources x.2.linkSelector ⟨before ++ after, md⟩ .handler :=
      select_insert _ _ _ _ _ _ fun ht byLabel hb hk => h2 ⟨ht, x, hx, hxa, byLabel, hb, hk⟩
    have hc : ∀ y ∈ selectResources x.2.linkSelector ⟨before ++ after, md⟩ .handler,
        selectResources y.2.linkSelector ⟨before ++ nr :: after, md⟩ .handlerConfig =
          selectResources y.2.linkSelector ⟨before ++ after, md⟩ .handlerConfig := by
      intro y hy
      refine select_insert _ _ _ _ _ _ fun ht byLabel hb hk => h3 ⟨ht, x, hx, ?_⟩
      cases hl : x.2.linkSelector with
      | none => rw [hl] at hy; cases hy
      | some sel =>
        rw [hl] at hy
        obtain ⟨m1, m2, m3⟩ := (mem_selectResources sel _ _ y).1 hy
        exact ⟨y, m1, hxa, m2, ⟨sel, hl, m3⟩, byLabel, hb, hk⟩
    rw [hs, collectHttp_congr showF ⟨before ++ nr :: after, md⟩ ⟨before ++ after, md⟩ rfl _ hc]
    simp only [collectWs_congr showF ⟨before ++ nr :: after, md⟩ ⟨before ++ after, md⟩ rfl _ _ hc]

/-- A queue, or a handler with other labels, changes nothing. -/
example :
    collectApiConfig (fun _ => []) (⟨ordersBlueprint ++ [("q".toList, ⟨.queue, none,
      some [("app".toList, "orders".toList)], none, .other⟩),
      ("h".toList, ⟨.handler, some [("celerity.handler.http".toList, .bool true)],
        some [("service".toList, "orders".toList)], none, .handler ⟨none, none, none⟩⟩)], none⟩ :
          Blueprint Unit) none =
      .ok ⟨some [⟨"getOrders".toList, "/".toList, "GET".toList, "./orders".toList, 60, false⟩], none,
        false⟩ := by rfl

/-- The hypothesis can be met. -/
example : ¬ Concerns Spec.HasLabelKey (⟨ordersBlueprint ++ [], none⟩ : Blueprint Unit) none
    ("q".toList, ⟨.queue, none, some [("app".toList, "orders".toList)], none, .other⟩) := by
  rintro (⟨h, -⟩ | ⟨h, -⟩ | ⟨h, -⟩) <;> cases h

end Verif.Transform
