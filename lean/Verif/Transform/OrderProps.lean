import Verif.Transform.Props
import Verif.Assoc

/-!
# C49: the order of the maps inside resources

The resource map is not the only hash map of a blueprint: annotations, labels and link selectors are
hash maps too, and are iterated or looked up when the configuration is collected.
-/

namespace Verif.Transform

open Verif Verif.Subst

/-! ## Specification -/

namespace OrderSpec

/-- Two hash maps with the same entries, or none. -/
inductive SameMap {A : Type} : Option (List (Str × A)) → Option (List (Str × A)) → Prop where
  | none : SameMap none none
  | some {m m' : List (Str × A)} (keys : (m.map (·.1)).Nodup) (entries : m.Perm m') :
      SameMap (some m) (some m')

/-- Two named resources that differ only in the order in which their maps are iterated. -/
structure SameResource {F : Type} (a b : Str × Resource F) : Prop where
  name : a.1 = b.1
  type : a.2.resourceType = b.2.resourceType
  annotations : SameMap a.2.annotations b.2.annotations
  labels : SameMap a.2.labels b.2.labels
  linkSelector : SameMap a.2.linkSelector b.2.linkSelector
  spec : a.2.spec = b.2.spec

/-- Two blueprints that differ only in the order in which any of their maps is iterated. -/
structure SameBlueprint {F : Type} (bp bp' : Blueprint F) : Prop where
  resources : ∃ rs, bp.resources.Perm rs ∧ Spec.Pairwise2 SameResource rs bp'.resources
  metadata : bp.metadata = bp'.metadata

end OrderSpec

open OrderSpec

/-! ## Lemmas -/

section lemmas
variable {F : Type}

theorem sameMap_lookup {A : Type} (m m' : List (Str × A)) (h : SameMap (some m) (some m'))
    (k : Str) : m.lookup k = m'.lookup k := by
  cases h with
  | some keys entries =>
    cases hl : m'.lookup k with
    | some v =>
      exact Assoc.lookup_of_mem k m v keys (entries.symm.subset (Assoc.lookup_mem k m' v hl))
    | none =>
      rw [Assoc.lookup_eq_none] at hl ⊢
      exact fun hk => hl ((entries.map _).subset hk)

theorem same_labelFilter (ty : ResourceType) (k v : Str) (a b : Str × Resource F)
    (h : SameResource a b) : labelFilter ty k v a.2 = labelFilter ty k v b.2 := by
  have hl := h.labels
  unfold labelFilter
  cases ha : a.2.labels with
  | none => rw [ha] at hl; cases hb : b.2.labels with
    | none => rfl
    | some m => rw [hb] at hl; cases hl
  | some m => rw [ha] at hl; cases hb : b.2.labels with
    | none => rw [hb] at hl; cases hl
    | some m' =>
      rw [hb] at hl
      simp only [sameMap_lookup m m' hl k, h.type]

theorem same_isEnabled (k : Str) (a b : Str × Resource F) (h : SameResource a b) :
    Spec.isEnabled k a.2 = Spec.isEnabled k b.2 := by
  have hl := h.annotations
  unfold Spec.isEnabled
  cases ha : a.2.annotations with
  | none => rw [ha] at hl; cases hb : b.2.annotations with
    | none => rfl
    | some m => rw [hb] at hl; cases hl
  | some m => rw [ha] at hl; cases hb : b.2.annotations with
    | none => rw [hb] at hl; cases hl
    | some m' =>
      rw [hb] at hl
      simp only [sameMap_lookup m m' hl k]

theorem same_annotationOr (showF : F → Str) (k d : Str) (a b : Str × Resource F)
    (h : SameResource a b) : Spec.annotationOr showF k d a.2 = Spec.annotationOr showF k d b.2 := by
  have hl := h.annotations
  unfold Spec.annotationOr
  cases ha : a.2.annotations with
  | none => rw [ha] at hl; cases hb : b.2.annotations with
    | none => rfl
    | some m => rw [hb] at hl; cases hl
  | some m => rw [ha] at hl; cases hb : b.2.annotations with
    | none => rw [hb] at hl; cases hl
    | some m' =>
      rw [hb] at hl
      simp only [sameMap_lookup m m' hl k]

theorem pairwise2_filter {A B : Type} (R : A → B → Prop) (p : A → Bool) (q : B → Bool)
    (hpq : ∀ a b, R a b → p a = q b) (as : List A) (bs : List B) (h : Spec.Pairwise2 R as bs) :
    Spec.Pairwise2 R (as.filter p) (bs.filter q) := by
  induction h with
  | nil => exact .nil
  | @cons a b as bs h1 _ ih =>
    cases hp : p a with
    | true =>
      rw [List.filter_cons_of_pos hp, List.filter_cons_of_pos (hpq a b h1 ▸ hp)]
      exact .cons h1 ih
    | false =>
      have hq : q b = false := hpq a b h1 ▸ hp
      rw [List.filter_cons_of_neg (by simp [hp]), List.filter_cons_of_neg (by simp [hq])]
      exact ih

theorem pairwise2_append {A B : Type} (R : A → B → Prop) (as cs : List A) (bs ds : List B)
    (h : Spec.Pairwise2 R as bs) (h' : Spec.Pairwise2 R cs ds) :
    Spec.Pairwise2 R (as ++ cs) (bs ++ ds) := by
  induction h with
  | nil => exact h'
  | cons h1 _ ih => exact .cons h1 ih

/-- The other way round: a permutation on the right can be made on the left. -/
theorem pairwise2_perm_right {A B : Type} (R : A → B → Prop) (as : List A) (bs bs' : List B)
    (hp : bs.Perm bs') (h : Spec.Pairwise2 R as bs) :
    ∃ as', as.Perm as' ∧ Spec.Pairwise2 R as' bs' := by
  induction hp generalizing as with
  | nil => exact ⟨as, .refl _, h⟩
  | cons a _ ih =>
    cases h with
    | cons h1 h2 =>
      obtain ⟨as', h3, h4⟩ := ih _ h2
      exact ⟨_, h3.cons _, .cons h1 h4⟩
  | swap a b l =>
    cases h with
    | cons h1 h2 =>
      cases h2 with
      | cons h3 h4 => exact ⟨_, .swap _ _ _, .cons h3 (.cons h1 h4)⟩
  | trans _ _ ih1 ih2 =>
    obtain ⟨b1, h1, h2⟩ := ih1 _ h
    obtain ⟨b2, h3, h4⟩ := ih2 _ h2
    exact ⟨b2, h1.trans h3, h4⟩

theorem pairwise2_mem_right {A B : Type} (R : A → B → Prop) (as : List A) (bs : List B)
    (h : Spec.Pairwise2 R as bs) : ∀ b ∈ bs, ∃ a ∈ as, R a b := by
  induction h with
  | nil => simp
  | cons h1 _ ih =>
    intro b hb
    rcases List.mem_cons.mp hb with rfl | hb
    · exact ⟨_, by simp, h1⟩
    · obtain ⟨a, ha, hr⟩ := ih b hb
      exact ⟨a, by simp [ha], hr⟩

theorem pairwise2_mem_left {A B : Type} (R : A → B → Prop) (as : List A) (bs : List B)
    (h : Spec.Pairwise2 R as bs) : ∀ a ∈ as, ∃ b ∈ bs, R a b := by
  induction h with
  | nil => simp
  | cons h1 _ ih =>
    intro b hb
    rcases List.mem_cons.mp hb with rfl | hb
    · exact ⟨_, by simp, h1⟩
    · obtain ⟨a, ha, hr⟩ := ih b hb
      exact ⟨a, by simp [ha], hr⟩

/-- From resources and their definitions to redrawn resources and the same definitions. -/
theorem pairwise2_transport {A B C : Type} (R : A → B → Prop) (S : A → C → Prop) (T : B → C → Prop)
    (as : List A) (bs : List B) (cs : List C) (hT : ∀ a ∈ as, ∀ b c, R a b → S a c → T b c)
    (hr : Spec.Pairwise2 R as bs) (hs : Spec.Pairwise2 S as cs) : Spec.Pairwise2 T bs cs := by
  induction hr generalizing cs with
  | nil => cases hs; exact .nil
  | cons h1 _ ih =>
    cases hs with
    | cons h2 h3 =>
      exact .cons (hT _ (by simp) _ _ h1 h2)
        (ih _ (fun a ha => hT a (by simp [ha])) h3)

/-- What is selected in two blueprints that differ in the order of their maps. -/
theorem same_select (sel sel' : Option (List (Str × Str))) (bp bp' : Blueprint F)
    (hs : SameMap sel sel') (hb : SameBlueprint bp bp') (ty : ResourceType) :
    ∃ l, (selectResources sel bp ty).Perm l ∧
      Spec.Pairwise2 SameResource l (selectResources sel' bp' ty) := by
  obtain ⟨rs, hp, h2⟩ := hb.resources
  cases hs with
  | none => exact ⟨[], by simp [selectResources], .nil⟩
  | @some m m' keys entries =>
    have hflat : ∀ l : List (Str × Str), Spec.Pairwise2 SameResource
        (l.flatMap (fun kv => rs.filter (fun nr => labelFilter ty kv.1 kv.2 nr.2)))
        (l.flatMap (fun kv => bp'.resources.filter (fun nr => labelFilter ty kv.1 kv.2 nr.2))) := by
      intro l
      induction l with
      | nil => exact .nil
      | cons kv l ih =>
        simp only [List.flatMap_cons]
        exact pairwise2_append _ _ _ _ _
          (pairwise2_filter _ _ _ (fun a b h => same_labelFilter ty kv.1 kv.2 a b h) _ _ h2) ih
    refine ⟨_, ?_, hflat m'⟩
    exact (perm_flatMap m _ _ fun kv _ => hp.filter _).trans
      (entries.flatMap_right _)

theorem linkedConfig_spec (a b : Str × Resource F) (h : a.2.spec = b.2.spec) :
    linkedConfig (some a) = linkedConfig (some b) := by
  obtain ⟨n, r⟩ := a
  obtain ⟨n', r'⟩ := b
  simp only at h
  simp only [linkedConfig, h]

/-- The linked configuration does not depend on the order if all candidates say the same. -/
theorem same_linkedConfig (l l' l'' : List (Str × Resource F)) (hp : l.Perm l')
    (h2 : Spec.Pairwise2 SameResource l' l'')
    (hu : ∀ a ∈ l, ∀ b ∈ l, a.2.spec = b.2.spec) : linkedConfig l.head? = linkedConfig l''.head? := by
  cases h2 with
  | nil => rw [hp.eq_nil]
  | @cons a b as bs h1 h3 =>
    cases l with
    | nil => exact absurd hp.nil_eq (by simp)
    | cons x xs =>
      have := hu x (by simp) a (hp.symm.subset (by simp))
      exact linkedConfig_spec x b (this.trans h1.spec)

theorem resolve_congr (name : Str) (s : HandlerSpec) (c c' : Option (Str × Resource F))
    (md : Option (Option SharedConfig)) (h : linkedConfig c = linkedConfig c') :
    resolveLocation name s c md = resolveLocation name s c' md ∧
    resolveTimeout s c md = resolveTimeout s c' md ∧
    resolveTracing s c md = resolveTracing s c' md := by
  unfold resolveLocation resolveTimeout resolveTracing
  rw [h]
  exact ⟨rfl, rfl, rfl⟩

end lemmas

/-! ## The property -/

/-- C49, the maps inside resources as well: if at most one resource can be the API and all
configurations linked to a handler have the same contents, then neither the order of the resource map
nor that of the annotations, labels and link selectors has an effect beyond the order of the
definitions. Missing: several candidates for the API, or linked configurations that differ
(`order_independent_violated`). -/
theorem all_orders_partial {F : Type} (showF : F → Str) (bp bp' : Blueprint F)
    (n : Option Str) (c : ApiConfig) (hsame : SameBlueprint bp bp')
    (hapi : ∀ a ∈ bp.resources, ∀ b ∈ bp.resources,
      a.2.resourceType = .api → b.2.resourceType = .api → a = b)
    (hspec : ∀ nr ∈ bp.resources, nr.2.resourceType = .api → ∃ s, nr.2.spec = .api s)
    (hcfg : ∀ h ∈ bp.resources, ∀ sel, h.2.resourceType = .handler → h.2.linkSelector = some sel →
      ∀ a ∈ bp.resources, ∀ b ∈ bp.resources,
        a.2.resourceType = .handlerConfig → b.2.resourceType = .handlerConfig →
        Spec.HasLabelKey sel a.2 → Spec.HasLabelKey sel b.2 → a.2.spec = b.2.spec)
    (h : collectApiConfig showF bp n = .ok c) :
    ∃ c', collectApiConfig showF bp' n = .ok c' ∧ SameConfig c c' := by
  obtain ⟨rs, hrs, hr2⟩ := hsame.resources
  have h' := h
  unfold collectApiConfig at h'
  cases hg : getApiResource bp n with
  | error e => rw [hg] at h'; simp at h'
  | ok api =>
    -- the API resource and its counterpart
    obtain ⟨nm, hmem, hty, hpn⟩ : ∃ nm, (nm, api) ∈ bp.resources ∧ api.resourceType = .api ∧
        ∀ m, n = some m → nm = m := by
      unfold getApiResource at hg
      split at hg
      · rename_i nr hf
        simp only [Except.ok.injEq] at hg
        subst hg
        have := List.find?_some hf
        refine ⟨nr.1, List.mem_of_find?_eq_some hf, ?_, ?_⟩
        · cases n <;> simp at this <;> simp [this]
        · rintro m rfl
          simp at this
          exact this.1
      · simp at hg
    obtain ⟨nr', hg', hR⟩ : ∃ nr', getApiResource bp' n = .ok nr'.2 ∧ SameResource (nm, api) nr' := by
      obtain ⟨b, hb, hab⟩ := pairwise2_mem_left _ _ _ hr2 (nm, api) (hrs.subset hmem)
      unfold getApiResource
      split
      · rename_i x hf
        have hx := List.find?_some hf
        obtain ⟨a, ha, hax⟩ := pairwise2_mem_right _ _ _ hr2 x (List.mem_of_find?_eq_some hf)
        have hat : a.2.resourceType = .api := by
          rw [hax.type]
          cases n <;> simp at hx <;> simp [hx]
        have := hapi a (hrs.symm.subset ha) (nm, api) hmem hat hty
        subst this
        exact ⟨x, rfl, hax⟩
      · rename_i hf
        rw [List.find?_eq_none] at hf
        have := hf b hb
        have ht : b.2.resourceType = .api := hab.type ▸ hty
        have hn : b.1 = nm := hab.name.symm
        cases n with
        | none => simp [ht] at this
        | some m => simp [ht, hn, hpn m rfl] at this
    obtain ⟨s, hs⟩ := hspec _ hmem hty
    have hs' : nr'.2.spec = .api s := hR.spec ▸ hs
    obtain ⟨k, hk⟩ := resolveRouteKey_total api.spec ⟨s, hs⟩
    have hk' : resolveRouteKey nr'.2.spec = .ok k := by rw [hs', ← hs]; exact hk
    rw [collectApiConfig_iff showF bp n api hg s hs k hk] at h
    obtain ⟨hs1, ws1, h1, h2, h3, h4, h5, h6⟩ := h
    obtain ⟨l, hl, hl2⟩ := same_select _ _ bp bp' hR.linkSelector hsame .handler
    -- the configuration linked to a handler is the same
    have hfirst : ∀ t ∈ l, ∀ t', SameResource t t' →
        linkedConfig (Spec.firstConfig bp t.2) = linkedConfig (Spec.firstConfig bp' t'.2) := by
      intro t ht t' htt
      have htm : t ∈ bp.resources ∧ t.2.resourceType = .handler := by
        have ht' := hl.symm.subset ht
        cases hsel : api.linkSelector with
        | none => rw [show (nm, api).2.linkSelector = none from hsel] at ht'; simp [selectResources] at ht'
        | some sel =>
          rw [show (nm, api).2.linkSelector = some sel from hsel, mem_selectResources] at ht'
          exact ⟨ht'.1, ht'.2.1⟩
      obtain ⟨l2, hp2, hq2⟩ := same_select _ _ bp bp' htt.linkSelector hsame .handlerConfig
      refine same_linkedConfig _ _ _ hp2 hq2 ?_
      intro a ha b hb
      cases hsel : t.2.linkSelector with
      | none => rw [hsel] at ha; simp [selectResources] at ha
      | some sel =>
        rw [hsel, mem_selectResources] at ha hb
        exact hcfg t htm.1 sel htm.2 hsel a ha.1 b hb.1 ha.2.1 hb.2.1 ha.2.2 hb.2.2
    obtain ⟨hs2, p1, q1⟩ := pairwise2_perm _ _ _ (hl.filter _) _ h1
    obtain ⟨ws2, p2, q2⟩ := pairwise2_perm _ _ _ (hl.filter _) _ h2
    have i1 := pairwise2_transport SameResource _ (Spec.HttpDef showF bp') _ _ _ (by
      intro t ht t' d htt hd
      have hf := hfirst t (List.mem_filter.mp ht).1 t' htt
      obtain ⟨s', e1, e2, e3, e4⟩ := hd.spec
      obtain ⟨g1, g2, g3⟩ := resolve_congr t.1 s' _ _ bp.metadata hf
      refine ⟨hd.name.trans htt.name, hd.method.trans (same_annotationOr showF _ _ t t' htt),
        hd.path.trans (congrArg toAxumPath (same_annotationOr showF _ _ t t' htt)),
        s', htt.spec ▸ e1, ?_, ?_, ?_⟩
      · rw [← hsame.metadata, ← htt.name, ← g1]; exact e2
      · rw [← hsame.metadata, ← g2]; exact e3
      · rw [← hsame.metadata, ← g3]; exact e4)
      (pairwise2_filter _ _ _ (fun a b hab => same_isEnabled httpKey a b hab) _ _ hl2) q1
    have i2 := pairwise2_transport SameResource _ (Spec.WsDef showF bp' k) _ _ _ (by
      intro t ht t' d htt hd
      have hf := hfirst t (List.mem_filter.mp ht).1 t' htt
      obtain ⟨s', e1, e2, e3, e4⟩ := hd.spec
      obtain ⟨g1, g2, g3⟩ := resolve_congr t.1 s' _ _ bp.metadata hf
      refine ⟨hd.name.trans htt.name, hd.route.trans (same_annotationOr showF _ _ t t' htt),
        hd.routeKey, s', htt.spec ▸ e1, ?_, ?_, ?_⟩
      · rw [← hsame.metadata, ← htt.name, ← g1]; exact e2
      · rw [← hsame.metadata, ← g2]; exact e3
      · rw [← hsame.metadata, ← g3]; exact e4)
      (pairwise2_filter _ _ _ (fun a b hab => same_isEnabled wsKey a b hab) _ _ hl2) q2
    have hne : (hs1 = [] ↔ hs2 = []) :=
      ⟨fun e => by subst e; exact p1.nil_eq.symm, fun e => by subst e; exact p1.eq_nil⟩
    have hne2 : (ws1 = [] ↔ ws2 = []) :=
      ⟨fun e => by subst e; exact p2.nil_eq.symm, fun e => by subst e; exact p2.eq_nil⟩
    refine ⟨⟨if hs2 = [] then none else some hs2,
      if ws2 = [] then none else some (ws2, "event".toList), s.tracingEnabled.getD false⟩, ?_, ?_⟩
    · rw [collectApiConfig_iff showF bp' n nr'.2 hg' s hs' k hk']
      refine ⟨hs2, ws2, i1, i2, ?_, rfl, rfl, rfl⟩
      exact ((p1.map _).append (p2.map _)).nodup_iff.mp h3
    · constructor
      · rw [h4]
        by_cases he : hs1 = []
        · have := hne.mp he; subst he; subst this; simp
        · have : ¬ hs2 = [] := fun e => he (hne.mpr e)
          simp only [he, this, if_false, Option.getD_some]
          exact p1
      · rw [h5]
        by_cases he : ws1 = []
        · have := hne2.mp he; subst he; subst this; simp
        · have : ¬ ws2 = [] := fun e => he (hne2.mpr e)
          simp only [he, this, if_false, Option.map_some, Option.getD_some]
          exact p2
      · exact h6

/-- A blueprint whose handler is selected by two labels of its API's selector and configured by two
configurations that say the same, with the maps in one order. -/
def drawn : Blueprint Unit :=
  { resources :=
      [("api".toList, ⟨.api, none, none,
          some [("app".toList, "o".toList), ("tier".toList, "web".toList)], .api ⟨[.http], none⟩⟩),
       ("h".toList,
        ⟨.handler, some [("celerity.handler.http".toList, .bool true),
            ("celerity.handler.http.method".toList, .str "PUT".toList)],
          some [("app".toList, "o".toList), ("zone".toList, "b".toList)],
          some [("cfg".toList, "x".toList), ("more".toList, "y".toList)],
          .handler ⟨none, none, none⟩⟩),
       ("c1".toList, ⟨.handlerConfig, none, some [("cfg".toList, "x".toList)], none,
          .handlerConfig ⟨some "./one".toList, none, none⟩⟩),
       ("c2".toList, ⟨.handlerConfig, none, some [("more".toList, "y".toList)], none,
          .handlerConfig ⟨some "./one".toList, none, none⟩⟩)]
    metadata := none }

/-- The same with all maps in another order. -/
def redrawn : Blueprint Unit :=
  { resources :=
      [("c2".toList, ⟨.handlerConfig, none, some [("more".toList, "y".toList)], none,
          .handlerConfig ⟨some "./one".toList, none, none⟩⟩),
       ("c1".toList, ⟨.handlerConfig, none, some [("cfg".toList, "x".toList)], none,
          .handlerConfig ⟨some "./one".toList, none, none⟩⟩),
       ("h".toList,
        ⟨.handler, some [("celerity.handler.http.method".toList, .str "PUT".toList),
            ("celerity.handler.http".toList, .bool true)],
          some [("zone".toList, "b".toList), ("app".toList, "o".toList)],
          some [("more".toList, "y".toList), ("cfg".toList, "x".toList)],
          .handler ⟨none, none, none⟩⟩),
       ("api".toList, ⟨.api, none, none,
          some [("tier".toList, "web".toList), ("app".toList, "o".toList)], .api ⟨[.http], none⟩⟩)]
    metadata := none }

example : SameBlueprint drawn redrawn ∧
    ∃ c', collectApiConfig (fun _ => []) redrawn none = .ok c' ∧
      SameConfig ⟨some [⟨"h".toList, "/".toList, "PUT".toList, "./one".toList, 60, false⟩], none, false⟩
        c' := by
  have hs : SameBlueprint drawn redrawn :=
    ⟨⟨drawn.resources.reverse, (List.reverse_perm _).symm,
      .cons ⟨rfl, rfl, .none, .some (by decide) (.refl _), .none, rfl⟩
      (.cons ⟨rfl, rfl, .none, .some (by decide) (.refl _), .none, rfl⟩
      (.cons ⟨rfl, rfl, .some (by decide) (.swap _ _ _), .some (by decide) (.swap _ _ _),
        .some (by decide) (.swap _ _ _), rfl⟩
      (.cons ⟨rfl, rfl, .none, .none, .some (by decide) (.swap _ _ _), rfl⟩ .nil)))⟩, rfl⟩
  refine ⟨hs, all_orders_partial (fun _ => []) drawn redrawn none _ hs ?_ ?_ ?_ (by rfl)⟩
  · decide
  · intro nr hnr ht
    simp only [drawn, List.mem_cons, List.not_mem_nil, or_false] at hnr
    rcases hnr with rfl | rfl | rfl | rfl <;> first | exact ⟨_, rfl⟩ | cases ht
  · intro h _ sel _ _ a ha b hb h1 h2 _ _
    simp only [drawn, List.mem_cons, List.not_mem_nil, or_false] at ha hb
    rcases ha with rfl | rfl | rfl | rfl <;> rcases hb with rfl | rfl | rfl | rfl <;>
      first | rfl | (cases h1; done) | (cases h2; done)

/-- `drawn` with two configurations that differ, with the selector of the handler in the given order. -/
def twoDrawn (sel : List (Str × Str)) : Blueprint Unit :=
  { resources :=
      [("api".toList, ⟨.api, none, none, some [("app".toList, "o".toList)], .api ⟨[.http], none⟩⟩),
       ("h".toList,
        ⟨.handler, some [("celerity.handler.http".toList, .bool true)],
          some [("app".toList, "o".toList)], some sel, .handler ⟨none, none, none⟩⟩),
       ("c1".toList, ⟨.handlerConfig, none, some [("cfg".toList, "x".toList)], none,
          .handlerConfig ⟨some "./one".toList, none, none⟩⟩),
       ("c2".toList, ⟨.handlerConfig, none, some [("more".toList, "y".toList)], none,
          .handlerConfig ⟨some "./two".toList, none, none⟩⟩)]
    metadata := none }

/-- C49 fails also when the resource map is iterated in the same order: which of two linked
configurations is used depends on the order of the link selector. -/
theorem selector_order_matters :
    SameBlueprint (twoDrawn [("cfg".toList, "x".toList), ("more".toList, "y".toList)])
      (twoDrawn [("more".toList, "y".toList), ("cfg".toList, "x".toList)]) ∧
    collectApiConfig (fun _ => [])
      (twoDrawn [("cfg".toList, "x".toList), ("more".toList, "y".toList)]) none =
      .ok ⟨some [⟨"h".toList, "/".toList, "GET".toList, "./one".toList, 60, false⟩], none, false⟩ ∧
    collectApiConfig (fun _ => [])
      (twoDrawn [("more".toList, "y".toList), ("cfg".toList, "x".toList)]) none =
      .ok ⟨some [⟨"h".toList, "/".toList, "GET".toList, "./two".toList, 60, false⟩], none, false⟩ := by
  refine ⟨⟨⟨_, .refl _,
    .cons ⟨rfl, rfl, .none, .none, .some (by decide) (.refl _), rfl⟩
    (.cons ⟨rfl, rfl, .some (by decide) (.refl _), .some (by decide) (.refl _),
      .some (by decide) (.swap _ _ _), rfl⟩
    (.cons ⟨rfl, rfl, .none, .some (by decide) (.refl _), .none, rfl⟩
    (.cons ⟨rfl, rfl, .none, .some (by decide) (.refl _), .none, rfl⟩ .nil)))⟩, rfl⟩, by rfl, by rfl⟩

end Verif.Transform
