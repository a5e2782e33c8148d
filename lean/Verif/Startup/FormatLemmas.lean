import Verif.Startup.SourceLemmas
import Verif.Transform.Lemmas

/-!
# Lemmas about the same blueprint in the two formats
-/

namespace Verif.Startup

open Verif Verif.Subst Verif.Subst.Spec Verif.Blueprint Verif.Blueprint.Source
open Verif.Startup.Spec (Literal Plain)

variable {F : Type}

/-! ## The transformation uses three types of resource -/

/-- The types the transformation looks for. -/
def used : Transform.ResourceType → Bool
  | .api | .handler | .handlerConfig => true
  | _ => false

/-- The part of a blueprint that the transformation uses. -/
def usedPart (b : Transform.Blueprint F) : Transform.Blueprint F :=
  { resources := b.resources.filter fun e => used e.2.resourceType
    metadata := (Transform.sharedConfig b.metadata).map some }

theorem filter_used {A : Type} (l : List A) (p q : A → Bool) (h : ∀ a, q a = true → p a = true) :
    (l.filter p).filter q = l.filter q := by
  rw [List.filter_filter]
  apply List.filter_congr
  intro a _
  cases hq : q a with
  | false => rfl
  | true => rw [h a hq]; rfl

theorem find_used {A : Type} (l : List A) (p q : A → Bool) (h : ∀ a, q a = true → p a = true) :
    (l.filter p).find? q = l.find? q := by
  rw [← List.head?_filter, ← List.head?_filter, filter_used l p q h]

theorem selectResources_used (s : Option (List (Str × Str))) (b : Transform.Blueprint F)
    (t : Transform.ResourceType) (ht : used t = true) :
    Transform.selectResources s (usedPart b) t = Transform.selectResources s b t := by
  cases s with
  | none => rfl
  | some sel =>
    unfold Transform.selectResources usedPart
    dsimp only
    congr 1
    funext kv
    apply filter_used
    rintro ⟨k, r⟩ h
    unfold Transform.labelFilter at h
    dsimp only at h ⊢
    cases hl : r.labels with
    | none => rw [hl] at h; cases h
    | some l =>
      rw [hl] at h
      simp only [Bool.and_eq_true, beq_iff_eq] at h
      rw [h.2]
      exact ht

theorem sharedConfig_used (md : Option (Option Transform.SharedConfig)) :
    Transform.sharedConfig ((Transform.sharedConfig md).map some) = Transform.sharedConfig md := by
  cases md with
  | none => rfl
  | some m => cases m <;> rfl

theorem httpDefinition_used (b : Transform.Blueprint F) (h : Str × Transform.Resource F)
    (m p : Str) : Transform.httpDefinition (usedPart b) h m p = Transform.httpDefinition b h m p := by
  unfold Transform.httpDefinition
  cases h.2.spec with
  | handler s =>
    dsimp only
    rw [selectResources_used _ _ _ rfl]
    unfold Transform.applyHttp Transform.resolveLocation Transform.resolveTimeout
      Transform.resolveTracing usedPart
    dsimp only
    rw [sharedConfig_used]
  | _ => rfl

theorem wsDefinition_used (b : Transform.Blueprint F) (h : Str × Transform.Resource F)
    (m p : Str) : Transform.wsDefinition (usedPart b) h m p = Transform.wsDefinition b h m p := by
  unfold Transform.wsDefinition
  cases h.2.spec with
  | handler s =>
    dsimp only
    rw [selectResources_used _ _ _ rfl]
    unfold Transform.applyWs Transform.resolveLocation Transform.resolveTimeout
      Transform.resolveTracing usedPart
    dsimp only
    rw [sharedConfig_used]
  | _ => rfl

theorem collectHttp_used (showF : F → Str) (b : Transform.Blueprint F)
    (l : List (Str × Transform.Resource F)) (collected : List Str)
    (acc : List Transform.HttpHandler) :
    Transform.collectHttp showF (usedPart b) collected acc l =
      Transform.collectHttp showF b collected acc l := by
  induction l generalizing collected acc with
  | nil => rfl
  | cons h l ih =>
    unfold Transform.collectHttp
    simp only [httpDefinition_used, ih]

theorem collectWs_used (showF : F → Str) (b : Transform.Blueprint F) (s : Transform.ResourceSpec)
    (l : List (Str × Transform.Resource F)) (collected : List Str)
    (acc : List Transform.WsHandler) :
    Transform.collectWs showF (usedPart b) s collected acc l =
      Transform.collectWs showF b s collected acc l := by
  induction l generalizing collected acc with
  | nil => rfl
  | cons h l ih =>
    unfold Transform.collectWs
    simp only [wsDefinition_used, ih]

theorem getApiResource_used (b : Transform.Blueprint F) (n : Option Str) :
    Transform.getApiResource (usedPart b) n = Transform.getApiResource b n := by
  unfold Transform.getApiResource usedPart
  dsimp only
  rw [find_used]
  rintro ⟨k, r⟩ h
  cases n with
  | none =>
    simp only [beq_iff_eq] at h
    simp only [h, used]
  | some n =>
    simp only [Bool.and_eq_true, beq_iff_eq] at h
    simp only [h.2, used]

/-- What the transformation does depends on the part it uses. -/
theorem collectApiConfig_used (showF : F → Str) (b : Transform.Blueprint F) (n : Option Str) :
    Transform.collectApiConfig showF (usedPart b) n = Transform.collectApiConfig showF b n := by
  unfold Transform.collectApiConfig
  rw [getApiResource_used]
  cases Transform.getApiResource b n with
  | error e => rfl
  | ok api =>
    dsimp only
    rw [selectResources_used _ _ _ rfl, collectHttp_used]
    simp only [collectWs_used]

/-! ## The same part in both formats -/

variable {cls : CharClass} {cx : Ctx F} {env : Env}

theorem freeM_literal {t : FreeText cls} (ht : Literal t.1) {v w : Scalar F}
    (h1 : FreeM cx env .json t v) (h2 : FreeM cx env .yaml t w) : v = w := by
  unfold FreeM at h1 h2
  dsimp only at h1 h2
  have : expected t.1 = [.str (render t.1)] := if_pos ht
  rw [this] at h2
  cases h2 with
  | lit => exact h1

theorem leafM_literal {l : Leaf cls F} (hl : ∀ t, l = .text t → Literal t.1) {v w : Scalar F}
    (h1 : LeafM cx env .json l v) (h2 : LeafM cx env .yaml l w) : v = w := by
  cases l with
  | bool b => exact (show v = _ from h1).trans (show w = _ from h2).symm
  | int b => exact (show v = _ from h1).trans (show w = _ from h2).symm
  | float b => exact (show v = _ from h1).trans (show w = _ from h2).symm
  | text t => exact freeM_literal (hl t rfl) h1 h2

theorem mrel_unique {A B : Type} {R S : A → B → Prop} {l : List (Str × A)} {m m' : List (Str × B)}
    (hu : ∀ e ∈ l, ∀ b b', R e.2 b → S e.2 b' → b = b') (h1 : MRel R l m) (h2 : MRel S l m') :
    m = m' := by
  induction h1 generalizing m' with
  | nil => cases h2; rfl
  | @cons a b l m h _ ih =>
    cases h2 with
    | @cons _ b' _ m'' h' h'' =>
      rw [ih (fun e he => hu e (List.mem_cons_of_mem _ he)) h'']
      obtain ⟨k, x⟩ := b
      obtain ⟨k', x'⟩ := b'
      have e1 : a.1 = k := h.1
      have e2 : a.1 = k' := h'.1
      have e3 : x = x' := hu a (List.mem_cons_self ..) _ _ h.2 h'.2
      rw [← e1, ← e2, e3]

theorem orel_unique {A B : Type} {R S : A → B → Prop} {o : Option A} {p q : Option B}
    (hu : ∀ a, o = some a → ∀ b b', R a b → S a b' → b = b') (h1 : ORel R o p) (h2 : ORel S o q) :
    p = q := by
  cases o with
  | none =>
    cases p with
    | none => cases q with
      | none => rfl
      | some _ => cases h2
    | some _ => cases h1
  | some a =>
    cases p with
    | none => cases h1
    | some b => cases q with
      | none => cases h2
      | some b' => rw [hu a rfl b b' h1 h2]

theorem textM_unique {t : Text cls} {v w : Str} (h1 : TextM env t v) (h2 : TextM env t w) :
    v = w := by
  unfold TextM at h1 h2
  rw [h1] at h2
  injection h2

theorem intM_unique {t : Val cls I64} {v w : Int} (h1 : IntM cx env .json t v)
    (h2 : IntM cx env .yaml t w) : v = w := by
  cases t with
  | lit a => exact (show v = _ from h1).trans (show w = _ from h2).symm
  | ref n => exact nomatch h1.1

theorem boolM_unique {t : Val cls Bool} {v w : Bool} (h1 : BoolM cx env .json t v)
    (h2 : BoolM cx env .yaml t w) : v = w := by
  cases t with
  | lit a => exact (show v = _ from h1).trans (show w = _ from h2).symm
  | ref n => exact nomatch h1.1

theorem otextM_unique {o : Option (Text cls)} {v w : Option Str} (h1 : ORel (TextM env) o v)
    (h2 : ORel (TextM env) o w) : v = w := by
  refine orel_unique ?_ h1 h2
  intro _ _ _ _ a b
  exact textM_unique a b

theorem ointM_unique {o : Option (Val cls I64)} {v w : Option Int}
    (h1 : ORel (IntM cx env .json) o v) (h2 : ORel (IntM cx env .yaml) o w) : v = w := by
  refine orel_unique ?_ h1 h2
  intro _ _ _ _ a b
  exact intM_unique a b

theorem oboolM_unique {o : Option (Val cls Bool)} {v w : Option Bool}
    (h1 : ORel (BoolM cx env .json) o v) (h2 : ORel (BoolM cx env .yaml) o w) : v = w := by
  refine orel_unique ?_ h1 h2
  intro _ _ _ _ a b
  exact boolM_unique a b

theorem sharedView_same {x : Shared (Text cls) (Val cls I64) (Val cls Bool)}
    {y z : Shared Str Int Bool} (h1 : SharedM cx env .json x y) (h2 : SharedM cx env .yaml x z) :
    sharedView y = sharedView z := by
  unfold sharedView
  rw [otextM_unique h1.codeLocation h2.codeLocation,
    ointM_unique h1.timeout h2.timeout,
    oboolM_unique h1.tracingEnabled h2.tracingEnabled]

theorem protocols_same {l : List (Proto cls)} {m m' : List Protocol}
    (hp : ∀ k a, Proto.config (some k) a ∈ l → Literal k.1)
    (h1 : LRel (ProtoM cx env .json) l m) (h2 : LRel (ProtoM cx env .yaml) l m') :
    m.map protocolView = m'.map protocolView := by
  induction h1 generalizing m' with
  | nil => cases h2; rfl
  | @cons a b l m h _ ih =>
    cases h2 with
    | cons h' h'' =>
      rw [List.map_cons, List.map_cons,
        ih (fun k a hk => hp k a (List.mem_cons_of_mem _ hk)) h'']
      congr 1
      cases h with
      | http => cases h'; rfl
      | websocket => cases h'; rfl
      | @config r a r' a' hr _ =>
        cases h' with
        | @config _ _ r'' a'' hr' _ =>
          unfold protocolView
          dsimp only
          congr 1
          refine orel_unique ?_ hr hr'
          rintro k rfl b b' e1 e2
          have := freeM_literal (hp k a (List.mem_cons_self ..)) e1 e2
          injection this

theorem resourceView_same {x : SResource cls F} {y z : ResResource F}
    (ha : ∀ a, x.metadata.annotations = some a → ∀ k t, (k, Leaf.text t) ∈ a → Literal t.1)
    (hp : ∀ s, x.spec = some (.api s) → ∀ k a, Proto.config (some k) a ∈ s.protocols →
      Literal k.1)
    (h1 : ResourceM cx env .json x y) (h2 : ResourceM cx env .yaml x z) :
    resourceView y = resourceView z := by
  unfold resourceView
  rw [h1.type, h2.type, h1.linkSelector, h2.linkSelector, h1.metadata.labels, h2.metadata.labels]
  have e1 : y.metadata.annotations = z.metadata.annotations := by
    refine orel_unique ?_ h1.metadata.annotations h2.metadata.annotations
    intro a hx b b' m1 m2
    refine mrel_unique ?_ m1 m2
    rintro ⟨k, l⟩ hl v w l1 l2
    exact leafM_literal (fun t ht => ha a hx k t (ht ▸ hl)) l1 l2
  have e2 : specView y.spec = specView z.spec := by
    have s1 := h1.spec
    have s2 := h2.spec
    cases hx : x.spec with
    | none =>
      rw [hx] at s1 s2
      cases hy : y.spec with
      | some _ => rw [hy] at s1; cases s1
      | none => cases hz : z.spec with
        | some _ => rw [hz] at s2; cases s2
        | none => rfl
    | some s =>
      rw [hx] at s1 s2
      cases hy : y.spec with
      | none => rw [hy] at s1; cases s1
      | some sy => cases hz : z.spec with
        | none => rw [hz] at s2; cases s2
        | some sz =>
          rw [hy] at s1
          rw [hz] at s2
          have s1 : SpecM cx env .json s sy := s1
          have s2 : SpecM cx env .yaml s sz := s2
          cases s1 with
          | handler m1 =>
            cases s2 with
            | handler m2 =>
              unfold specView
              dsimp only
              rw [otextM_unique m1.codeLocation m2.codeLocation,
                ointM_unique m1.timeout m2.timeout,
                oboolM_unique m1.tracingEnabled m2.tracingEnabled]
          | api m1 =>
            cases s2 with
            | api m2 =>
              unfold specView
              dsimp only
              rw [protocols_same (hp _ hx) m1.protocols m2.protocols,
                oboolM_unique m1.tracingEnabled m2.tracingEnabled]
          | handlerConfig m1 =>
            cases s2 with
            | handlerConfig m2 =>
              unfold specView
              dsimp only
              rw [sharedView_same m1 m2]
          | _ => cases s2; rfl
  rw [e1, e2]

theorem resources_same {xs : List (Str × SResource cls F)} {ys zs : List (Str × ResResource F)}
    (ha : ∀ e ∈ xs, ∀ a, e.2.metadata.annotations = some a →
      ∀ k t, (k, Leaf.text t) ∈ a → Literal t.1)
    (hp : ∀ e ∈ xs, ∀ s, e.2.spec = some (.api s) → ∀ k a, Proto.config (some k) a ∈ s.protocols →
      Literal k.1)
    (h1 : ResourcesM cx env .json xs ys) (h2 : ResourcesM cx env .yaml xs zs) :
    (ys.map fun e => (e.1, resourceView e.2)).filter (fun e => used e.2.resourceType) =
      (zs.map fun e => (e.1, resourceView e.2)).filter (fun e => used e.2.resourceType) := by
  induction h1 generalizing zs with
  | nil => cases h2; rfl
  | @keep k x y m m' hs hn hr _ ih =>
    have ih := @ih (ha := fun e he => ha e (List.mem_cons_of_mem _ he))
      (hp := fun e he => hp e (List.mem_cons_of_mem _ he))
    cases h2 with
    | keep hs' hn' hr' h2 =>
      rw [List.map_cons, List.map_cons, List.filter_cons, List.filter_cons, ih _ h2]
      dsimp only
      rw [resourceView_same (ha _ (List.mem_cons_self ..)) (hp _ (List.mem_cons_self ..)) hr hr']
    | unsupported hs' h2 =>
      rw [List.map_cons, List.filter_cons, ih _ h2, if_neg]
      have : (resourceView y).resourceType = typeView x.type := by
        rw [← hr.type]
        rfl
      dsimp only
      rw [this]
      intro hu
      apply hs'
      unfold Supported
      dsimp only
      revert hu
      cases x.type <;> simp [typeView, used]
    | noSpec hf => cases hf
  | unsupported hs => exact absurd trivial hs
  | @noSpec k x y m m' _ hn hr _ ih =>
    have ih := @ih (ha := fun e he => ha e (List.mem_cons_of_mem _ he))
      (hp := fun e he => hp e (List.mem_cons_of_mem _ he))
    cases h2 with
    | keep hs' hn' hr' h2 => exact absurd hn hn'
    | unsupported hs' h2 => exact ih _ h2
    | noSpec hf => cases hf

/-- The part that the transformation uses is the same in both formats. -/
theorem usedPart_same {x : Source.Blueprint cls F} (hp : Plain x) {y z : ResConfig F}
    (h1 : BlueprintM cx env .json x y) (h2 : BlueprintM cx env .yaml x z) :
    usedPart (view y) = usedPart (view z) := by
  unfold usedPart view
  dsimp only
  rw [resources_same hp.annotations hp.routeKeys h1.resources h2.resources]
  congr 2
  have m1 := h1.metadata
  have m2 := h2.metadata
  unfold MetadataM at m1 m2
  dsimp only at m1 m2
  cases hx : x.metadata with
  | none =>
    rw [hx] at m1 m2
    dsimp only at m2
    rw [m2]
    cases hy : y.metadata with
    | none => rfl
    | some _ => rw [hy] at m1; cases m1
  | some o =>
    rw [hx] at m1 m2
    cases hy : y.metadata with
    | none => rw [hy] at m1; cases m1
    | some o' =>
      rw [hy] at m1
      cases o with
      | none =>
        dsimp only at m2
        rw [m2]
        cases o' with
        | none => rfl
        | some _ => exact False.elim m1
      | some s =>
        dsimp only at m2
        obtain ⟨s', hs', e⟩ := m2
        rw [e]
        cases o' with
        | none => exact False.elim m1
        | some s'' =>
          have hs'' : SharedM cx env .json s s'' := m1
          simp only [Option.map_some, sharedView_same hs'' hs']

/-- The same API from both formats. -/
theorem collect_same {x : Source.Blueprint cls F} (hp : Plain x) {y z : ResConfig F}
    (h1 : BlueprintM cx env .json x y) (h2 : BlueprintM cx env .yaml x z) (showF : F → Str)
    (n : Option Str) :
    Transform.collectApiConfig showF (view y) n = Transform.collectApiConfig showF (view z) n := by
  rw [← collectApiConfig_used showF (view y), ← collectApiConfig_used showF (view z),
    usedPart_same hp h1 h2]

end Verif.Startup
