import Verif.Blueprint.SourceFlow
import Verif.Blueprint.SelfLemmas

/-!
# Reading back what was written: resources and the blueprint
-/

namespace Verif.Blueprint.Source

open Verif Verif.Subst Verif.Subst.Spec

variable {F : Type} (cx : Ctx F) (env : Env)

/-! ## Values that are kept as they are -/

theorem orel_eq {A : Type} {r : A → Outcome Err A} {o o' : Option A}
    (h : ∀ a, o = some a → ∀ c, r a = .ok c ↔ c = a) :
    ORel (fun a c => r a = .ok c) o o' ↔ o' = o := by
  cases o with
  | none => cases o' <;> simp [ORel]
  | some a =>
    cases o' with
    | none => simp [ORel]
    | some c => simp only [ORel, h a rfl, Option.some.injEq]

theorem mrel_eq {A : Type} {r : A → Outcome Err A} {m m' : List (Str × A)}
    (h : ∀ a c, r a = .ok c ↔ c = a) : MRel (fun a c => r a = .ok c) m m' ↔ m' = m := by
  constructor
  · intro hm
    unfold MRel at hm
    induction hm with
    | nil => rfl
    | @cons a b _ _ h1 _ ih =>
      obtain ⟨k, a⟩ := a
      obtain ⟨k', b⟩ := b
      obtain ⟨h1, h2⟩ := h1
      cases (h a b).1 h2
      simp only at h1
      rw [h1, ih]
  · intro e
    rw [e]
    exact LRel.refl (fun e => ⟨rfl, (h _ _).2 rfl⟩) _

theorem readStr_str (a c : Str) : readStr (F := F) (.str a) = .ok c ↔ c = a := by
  simp only [readStr, Outcome.ok.injEq]
  exact eq_comm

theorem strMap {r : Doc F → Outcome Err (Option Str)} (hr : ∀ s : Str, r (.str s) = keep (F := F) readStr (.str s))
    {m : List (Str × Str)} (hd : Distinct (F := F) (wMap .str m)) {m' : List (Str × Str)} :
    fillMap r (m.map fun e => (e.1, .str e.2)) [] = .ok m' ↔ m' = m := by
  rw [fillMap_acc (r' := readStr) (w := .str) (fun e _ => hr e.2) hd.mapNodup (by simp)]
  simp only [List.nil_append, exists_eq_right', mrel_eq (readStr_str (F := F))]

theorem link_json (m : List (Str × Str)) (hd : Distinct (F := F) (wLinkSelector m))
    (c : List (Str × Str)) : jsonLinkSelector (wLinkSelector (F := F) m) = .ok c ↔ c = m := by
  unfold wLinkSelector at hd ⊢
  unfold jsonLinkSelector
  have d0 : DV _ := hd.value
  rw [jsonStruct_obj hd (List.forall_mem_cons.2 ⟨key_req, List.forall_mem_nil _⟩)]
  have h : ∀ {c}, _ := fun {c} => strMap (r := keep readStr) (fun _ => rfl) (DV.req d0) (m' := c)
  constructor
  · intro hr
    obtain ⟨w, a, hr⟩ := (reqF rfl).1 hr
    cases fill_done hr
    exact h.1 a
  · rintro rfl
    exact (reqF rfl).2 ⟨_, h.2 rfl, rfl⟩

theorem link_yaml (m : List (Str × Str)) (hd : Distinct (F := F) (wLinkSelector m))
    (c : List (Str × Str)) :
    readObj yamlLinkSelector (wLinkSelector (F := F) m) = .ok c ↔ c = m := by
  unfold wLinkSelector at hd ⊢
  have d0 : DV _ := hd.value
  rw [readObj, yamlLinkSelector, get?_here]
  exact strMap (r := yamlLabel) (fun _ => rfl) (DV.req d0)

/-! ## Metadata of a resource -/

theorem meta_json (x : Meta (Text cx.cls) (Leaf cx.cls F)) (hd : Distinct (F := F) (wMeta x))
    (y : Meta Str (Scalar F)) :
    Ld (jsonMeta cx (wMeta x)) (resMeta cx env) y ↔ MetaM cx env .json x y := by
  unfold wMeta at hd ⊢
  unfold jsonMeta resMeta
  have d0 : DV _ := hd.value
  have hl : ∀ {w}, ORel (fun a c => readMap (readStr (F := F)) (wMap .str a) = .ok c) x.labels w ↔
      w = x.labels := orel_eq fun a ha c => strMap (r := keep readStr) (fun _ => rfl)
        (DV.opt (DV.rest (DV.rest d0)) a ha)
  constructor
  · rintro ⟨raw, hr, hs⟩
    rw [jsonStruct_obj hd (List.forall_mem_cons.2 ⟨key_req, List.forall_mem_nil _⟩)] at hr
    obtain ⟨w0, a0, hr⟩ := (reqF rfl).1 hr
    obtain ⟨w1, a1, hr⟩ := (optJ rfl (fun _ => nn rfl) rfl).1 hr
    obtain ⟨w2, a2, hr⟩ := (optJ rfl (fun _ => nn rfl) rfl).1 hr
    cases fill_done hr
    obtain ⟨v0, b0, hs⟩ := bind_eq_ok hs
    obtain ⟨v1, b1, hs⟩ := bind_eq_ok hs
    cases hs
    exact ⟨(text_json cx env _ _).1 ⟨_, a0, b0⟩,
      (ld_opt fun a h => annotations_json cx env a (DV.opt (DV.rest d0) a h)).1 ⟨_, a1, b1⟩,
      hl.1 a2, nofun⟩
  · rintro ⟨h0, h1, h2, hf⟩
    obtain ⟨w0, a0, b0⟩ := (text_json cx env _ _).2 h0
    obtain ⟨w1, a1, b1⟩ :=
      (ld_opt fun a h => annotations_json cx env a (DV.opt (DV.rest d0) a h)).2 h1
    refine ⟨_, (jsonStruct_obj hd (List.forall_mem_cons.2 ⟨key_req, List.forall_mem_nil _⟩)).trans
      ((reqF rfl).2 ⟨_, a0, (optJ rfl (fun _ => nn rfl) rfl).2 ⟨_, a1,
        (optJ rfl (fun _ => nn rfl) rfl).2 ⟨_, hl.2 rfl, rfl⟩⟩⟩),
      (bind_ok b0 _).trans ((bind_ok b1 _).trans ?_)⟩
    rw [← h2]
    rfl

theorem meta_yaml (x : Meta (Text cx.cls) (Leaf cx.cls F)) (hd : Distinct (F := F) (wMeta x))
    (y : Meta Str (Scalar F)) :
    Ld (readObj (yamlMeta cx) (wMeta x)) (resMeta cx env) y ↔ MetaM cx env .yaml x y := by
  unfold wMeta at hd ⊢
  simp only [readObj]
  unfold yamlMeta resMeta
  have d0 : DV _ := hd.value
  have hl : ∀ {w}, ORel (fun a c => readMap (readStr (F := F)) (wMap .str a) = .ok c) x.labels w ↔
      w = x.labels := orel_eq fun a ha c => strMap (r := keep readStr) (fun _ => rfl)
        (DV.opt (DV.rest (DV.rest d0)) a ha)
  constructor
  · rintro ⟨raw, hr, hs⟩
    obtain ⟨_, hr, hq⟩ := bind_eq_ok hr
    obtain ⟨_, hq, hz⟩ := bind_eq_ok hq
    cases hz
    obtain ⟨w0, a0, hr⟩ := (reqF rfl).1 hr
    obtain ⟨w1, a1, hr⟩ := (optA rfl
      (r := fun a => readObj (fun m => yamlNodeEntries cx m []) (wMap wLeaf a))
      (set := fun s o => { s with annotations := o }) (fun _ => rfl) rfl).1 hr
    obtain ⟨w2, a2, hr⟩ := (optA rfl (r := fun a => readMap (readStr (F := F)) (wMap .str a))
      (set := fun s o => { s with labels := o }) (fun _ => rfl) rfl).1 hr
    cases fill_done hr
    obtain ⟨v0, b0, hs⟩ := bind_eq_ok hs
    obtain ⟨v1, b1, hs⟩ := bind_eq_ok hs
    cases hs
    exact ⟨(text_yaml cx env _ _).1 ⟨_, a0, b0⟩,
      (ld_opt fun a h => annotations_yaml cx env a (DV.opt (DV.rest d0) a h)).1 ⟨_, a1, b1⟩,
      hl.1 a2, fun _ => (filled_text cx a0).1 (require_iff.1 hq)⟩
  · rintro ⟨h0, h1, h2, hf⟩
    obtain ⟨w0, a0, b0⟩ := (text_yaml cx env _ _).2 h0
    obtain ⟨w1, a1, b1⟩ :=
      (ld_opt fun a h => annotations_yaml cx env a (DV.opt (DV.rest d0) a h)).2 h1
    refine ⟨_, (bind_ok ((reqF rfl).2 ⟨_, a0, (optA rfl
      (r := fun a => readObj (fun m => yamlNodeEntries cx m []) (wMap wLeaf a))
      (set := fun s o => { s with annotations := o }) (fun _ => rfl) rfl).2 ⟨_, a1,
        (optA rfl (r := fun a => readMap (readStr (F := F)) (wMap .str a))
      (set := fun s o => { s with labels := o }) (fun _ => rfl) rfl).2 ⟨_, hl.2 rfl, rfl⟩⟩⟩) _).trans
        ((bind_ok (require_iff.2 ((filled_text cx a0).2 (hf rfl))) _).trans rfl),
      (bind_ok b0 _).trans ((bind_ok b1 _).trans ?_)⟩
    rw [← h2]
    rfl

/-! ## Specifications -/

theorem spec_json (x : SSpec cx.cls F) (hd : Distinct (F := F) (wSpec x)) (y : ResSpec F) :
    Ld (jsonSpec cx (specType x) (wSpec x)) (resSpec cx env) y ↔ SpecM cx env .json x y := by
  cases x with
  | handler x =>
    refine (ld_wrap (h := resHandler cx env) (mk' := .handler) fun _ => rfl).trans ?_
    simp only [wSpec, handler_json cx env x hd]
    exact ⟨fun ⟨_, h, e⟩ => e ▸ .handler h, fun h => by cases h with | handler h => exact ⟨_, h, rfl⟩⟩
  | api x =>
    refine (ld_wrap (h := resApi cx env) (mk' := .api) fun _ => rfl).trans ?_
    simp only [wSpec, api_json cx env x hd]
    exact ⟨fun ⟨_, h, e⟩ => e ▸ .api h, fun h => by cases h with | api h => exact ⟨_, h, rfl⟩⟩
  | consumer x =>
    refine (ld_wrap (h := resConsumer cx env) (mk' := .consumer) fun _ => rfl).trans ?_
    simp only [wSpec, consumer_json cx env x hd]
    exact ⟨fun ⟨_, h, e⟩ => e ▸ .consumer h,
      fun h => by cases h with | consumer h => exact ⟨_, h, rfl⟩⟩
  | schedule x =>
    refine (ld_wrap (h := resStr env) (mk' := .schedule) fun _ => rfl).trans ?_
    simp only [wSpec, schedule_json cx env x hd]
    exact ⟨fun ⟨_, h, e⟩ => e ▸ .schedule h,
      fun h => by cases h with | schedule h => exact ⟨_, h, rfl⟩⟩
  | handlerConfig x =>
    refine (ld_wrap (h := resShared cx env) (mk' := .handlerConfig) fun _ => rfl).trans ?_
    simp only [wSpec, shared_json cx env x hd]
    exact ⟨fun ⟨_, h, e⟩ => e ▸ .handlerConfig h,
      fun h => by cases h with | handlerConfig h => exact ⟨_, h, rfl⟩⟩
  | workflow x =>
    refine (ld_wrap (h := resWorkflow cx env) (mk' := .workflow) fun _ => rfl).trans ?_
    simp only [wSpec, workflow_json cx env x hd]
    exact ⟨fun ⟨_, h, e⟩ => e ▸ .workflow h,
      fun h => by cases h with | workflow h => exact ⟨_, h, rfl⟩⟩
  | config x =>
    refine (ld_wrap (h := resConfigSpec env) (mk' := .config) fun _ => rfl).trans ?_
    simp only [wSpec, configSpec_json cx env x hd]
    exact ⟨fun ⟨_, h, e⟩ => e ▸ .config h, fun h => by cases h with | config h => exact ⟨_, h, rfl⟩⟩
  | bucket x =>
    refine (ld_wrap (h := resOptStr env) (mk' := .bucket) fun _ => rfl).trans ?_
    simp only [wSpec, bucket_json cx env x hd]
    exact ⟨fun ⟨_, h, e⟩ => e ▸ .bucket h, fun h => by cases h with | bucket h => exact ⟨_, h, rfl⟩⟩
  | topic x =>
    refine (ld_wrap (h := resTopic cx env) (mk' := .topic) fun _ => rfl).trans ?_
    simp only [wSpec, topic_json cx env x hd]
    exact ⟨fun ⟨_, h, e⟩ => e ▸ .topic h, fun h => by cases h with | topic h => exact ⟨_, h, rfl⟩⟩
  | queue x =>
    refine (ld_wrap (h := resQueue cx env) (mk' := .queue) fun _ => rfl).trans ?_
    simp only [wSpec, queue_json cx env x hd]
    exact ⟨fun ⟨_, h, e⟩ => e ▸ .queue h, fun h => by cases h with | queue h => exact ⟨_, h, rfl⟩⟩

theorem spec_yaml (x : SSpec cx.cls F) (hs : Supported .yaml (specType x))
    (hd : Distinct (F := F) (wSpec x)) (y : ResSpec F) :
    Ld (readObj (yamlSpec cx (specType x)) (wSpec x)) (resSpec cx env) y ↔
      SpecM cx env .yaml x y := by
  cases x with
  | handler x =>
    refine (ld_wrap (a := readObj (yamlHandler cx) (wHandler x)) (h := resHandler cx env)
      (mk' := .handler) fun _ => rfl).trans ?_
    simp only [handler_yaml cx env x hd]
    exact ⟨fun ⟨_, h, e⟩ => e ▸ .handler h, fun h => by cases h with | handler h => exact ⟨_, h, rfl⟩⟩
  | api x =>
    refine (ld_wrap (a := readObj (yamlApi cx) (wApi x)) (h := resApi cx env)
      (mk' := .api) fun _ => rfl).trans ?_
    simp only [api_yaml cx env x hd]
    exact ⟨fun ⟨_, h, e⟩ => e ▸ .api h, fun h => by cases h with | api h => exact ⟨_, h, rfl⟩⟩
  | consumer x =>
    refine (ld_wrap (a := readObj (yamlConsumer cx) (wConsumer x)) (h := resConsumer cx env)
      (mk' := .consumer) fun _ => rfl).trans ?_
    simp only [consumer_yaml cx env x hd]
    exact ⟨fun ⟨_, h, e⟩ => e ▸ .consumer h,
      fun h => by cases h with | consumer h => exact ⟨_, h, rfl⟩⟩
  | schedule x =>
    refine (ld_wrap (a := readObj (yamlSchedule cx) (wSchedule x)) (h := resStr env)
      (mk' := .schedule) fun _ => rfl).trans ?_
    simp only [schedule_yaml cx env x]
    exact ⟨fun ⟨_, h, e⟩ => e ▸ .schedule h,
      fun h => by cases h with | schedule h => exact ⟨_, h, rfl⟩⟩
  | handlerConfig x =>
    refine (ld_wrap (a := readObj (yamlShared cx) (wShared x)) (h := resShared cx env)
      (mk' := .handlerConfig) fun _ => rfl).trans ?_
    simp only [shared_yaml cx env x hd]
    exact ⟨fun ⟨_, h, e⟩ => e ▸ .handlerConfig h,
      fun h => by cases h with | handlerConfig h => exact ⟨_, h, rfl⟩⟩
  | workflow x =>
    have hw : readObj (yamlSpec cx .workflow) (wWorkflow x) =
        readObj (yamlWorkflow cx) (wWorkflow x) >>= fun s => pure (.workflow s) := by
      rw [wWorkflow, wBranch, readObj, readObj, yamlSpec]
    simp only [specType, wSpec] at hd ⊢
    rw [hw]
    refine (ld_wrap (h := resWorkflow cx env) (mk' := .workflow) fun _ => rfl).trans ?_
    simp only [workflow_yaml cx env x hd]
    exact ⟨fun ⟨_, h, e⟩ => e ▸ .workflow h,
      fun h => by cases h with | workflow h => exact ⟨_, h, rfl⟩⟩
  | config x => rcases hs with h | h | h | h | h | h <;> cases h
  | bucket x => rcases hs with h | h | h | h | h | h <;> cases h
  | topic x => rcases hs with h | h | h | h | h | h <;> cases h
  | queue x => rcases hs with h | h | h | h | h | h <;> cases h

/-! ## Resources -/

theorem spec_nn (x : SSpec cx.cls F) : wSpec (F := F) x ≠ .null := by
  cases x with
  | workflow x => exact nn (by simp only [wSpec, wWorkflow, wBranch]; rfl)
  | _ => exact nn rfl

theorem type_json (t : RType) :
    jsonResType (F := F) (.str (typeName t)) {} = .ok { type := some t } := by
  cases t <;> rfl

theorem resource_fill (x : SResource cx.cls F)
    (ht : ∀ s, x.spec = some s → specType s = x.type) (hd : Distinct (F := F) (wResource x))
    (s : JRes F) :
    (∃ m, wResource (F := F) x = .obj m ∧ fill true (skipFields (jsonResTable cx)) m {} = .ok s) ↔
      ∃ mt sp, jsonMeta cx (wMeta x.metadata) = .ok mt ∧
        ORel (fun a c => jsonSpec cx (specType a) (wSpec a) = .ok c) x.spec sp ∧
        s = { type := some x.type, metadata := mt, linkSelector := x.linkSelector,
              description := x.description, spec := sp } := by
  unfold wResource at hd ⊢
  have d0 : DV _ := hd.value
  have hk : ∀ {w}, ORel (fun a c => jsonLinkSelector (wLinkSelector (F := F) a) = .ok c)
      x.linkSelector w ↔ w = x.linkSelector := orel_eq fun a ha c => link_json a
        (DV.opt (DV.rest (DV.rest d0)) a ha) c
  have hs : ∀ {w}, ORel (fun a c => readStr (F := F) (.str a) = .ok c)
      x.description w ↔ w = x.description := orel_eq fun a _ c => readStr_str a c
  have hp : ∀ {w}, ORel (fun a c => jsonSpec cx x.type (wSpec a) = .ok c) x.spec w ↔
      ORel (fun a c => jsonSpec cx (specType a) (wSpec a) = .ok c) x.spec w :=
    ORel.iff fun a ha c => by rw [ht a ha]
  simp only [Doc.obj.injEq, exists_eq_left']
  constructor
  · intro hr
    obtain ⟨w0, a0, hr⟩ := (reqA rfl (A := RType) (w := fun t => .str (typeName t))
      (r := fun t => .ok t) (set := fun s t => { s with type := some t })
      (type_json x.type)).1 hr
    cases a0
    obtain ⟨w1, a1, hr⟩ := (reqA rfl (w := wMeta) (r := fun a => jsonMeta cx (wMeta a))
      (set := fun s t => { s with metadata := t }) rfl).1 hr
    obtain ⟨w2, a2, hr⟩ := (optA rfl (w := wLinkSelector)
      (r := fun a => jsonLinkSelector (wLinkSelector (F := F) a))
      (set := fun s t => { s with linkSelector := t }) (fun _ => rfl) rfl).1 hr
    obtain ⟨w3, a3, hr⟩ := (optA rfl (w := .str) (r := fun a => readStr (F := F) (.str a))
      (set := fun s t => { s with description := t }) (fun _ => rfl) rfl).1 hr
    obtain ⟨w4, a4, hr⟩ := (optA rfl (w := wSpec) (r := fun a => jsonSpec cx x.type (wSpec a))
      (set := fun s t => { s with spec := t }) (fun _ => rfl) rfl).1 hr
    cases fill_done hr
    exact ⟨w1, w4, a1, hp.1 a4, by rw [hk.1 a2, hs.1 a3]⟩
  · rintro ⟨mt, sp, a1, a4, rfl⟩
    exact (reqA rfl (A := RType) (w := fun t => .str (typeName t))
      (r := fun t => .ok t) (set := fun s t => { s with type := some t })
      (type_json x.type)).2 ⟨_, rfl,
      (reqA rfl (w := wMeta) (r := fun a => jsonMeta cx (wMeta a))
      (set := fun s t => { s with metadata := t }) rfl).2 ⟨_, a1,
      (optA rfl (w := wLinkSelector)
      (r := fun a => jsonLinkSelector (wLinkSelector (F := F) a))
      (set := fun s t => { s with linkSelector := t }) (fun _ => rfl) rfl).2 ⟨_, hk.2 rfl,
      (optA rfl (w := .str) (r := fun a => readStr (F := F) (.str a))
      (set := fun s t => { s with description := t }) (fun _ => rfl) rfl).2 ⟨_, hs.2 rfl,
      (optA rfl (w := wSpec) (r := fun a => jsonSpec cx x.type (wSpec a))
      (set := fun s t => { s with spec := t }) (fun _ => rfl) rfl).2 ⟨_, hp.2 a4, rfl⟩⟩⟩⟩⟩

theorem resource_json (x : SResource cx.cls F)
    (ht : ∀ s, x.spec = some s → specType s = x.type) (hd : Distinct (F := F) (wResource x))
    (y : ResResource F) :
    Ld (jsonResource cx (wResource x)) (resResource cx env) y ↔ ResourceM cx env .json x y := by
  have hf := resource_fill cx x ht hd
  have hd' := hd
  unfold wResource at hd hf ⊢
  have d0 : DV _ := hd.value
  have hm := meta_json cx env x.metadata (DV.req (DV.rest d0))
  have hp : ∀ {w}, (∃ u, ORel (fun a c => jsonSpec cx (specType a) (wSpec a) = .ok c) x.spec u ∧
      optM (resSpec cx env) u = .ok w) ↔ ORel (SpecM cx env .json) x.spec w :=
    ld_opt fun a h => spec_json cx env a (DV.opt (DV.rest (DV.rest (DV.rest (DV.rest d0)))) a h)
  simp only [Doc.obj.injEq, exists_eq_left'] at hf
  rw [jsonResource]
  constructor
  · rintro ⟨raw, hr, hs⟩
    obtain ⟨s, hr, h⟩ := bind_eq_ok hr
    obtain ⟨mt, sp, a1, a4, rfl⟩ := (hf s).1 hr
    cases h
    obtain ⟨v1, b1, hs⟩ := bind_eq_ok hs
    obtain ⟨v4, b4, hs⟩ := bind_eq_ok hs
    cases hs
    exact ⟨rfl, (hm _).1 ⟨_, a1, b1⟩, rfl, rfl, hp.1 ⟨_, a4, b4⟩⟩
  · rintro ⟨h0, h1, h2, h3, h4⟩
    obtain ⟨mt, a1, b1⟩ := (hm _).2 h1
    obtain ⟨sp, a4, b4⟩ := hp.2 h4
    refine ⟨_, (bind_ok ((hf _).2 ⟨mt, sp, a1, a4, rfl⟩) _).trans rfl,
      (bind_ok b1 _).trans ((bind_ok b4 _).trans ?_)⟩
    rw [← h0, ← h2, ← h3]
    rfl

theorem entry_json (x : SResource cx.cls F)
    (ht : ∀ s, x.spec = some s → specType s = x.type) (hd : Distinct (F := F) (wResource x)) :
    jsonResourceEntry cx (wResource x) = keep (jsonResource cx) (wResource x) := by
  have hf := resource_fill cx x ht hd
  unfold wResource at hf ⊢
  simp only [Doc.obj.injEq, exists_eq_left'] at hf
  generalize (req "type" (.str (typeName x.type)) ++ (req "metadata" (wMeta x.metadata) ++
    (opt "linkSelector" (x.linkSelector.map wLinkSelector) ++
    (opt "description" (x.description.map .str) ++ (opt "spec" (x.spec.map wSpec) ++ [])))) :
    List (Str × Doc F)) = m at hf ⊢
  have h : Rel (JResRel cx) (fill true (skipFields (jsonResTable cx)) m {})
      (fill true (skipFields (jsonResTable cx)) m {}) :=
    fill_self (skipFields_self cx (jsonResTable_self cx)) _ _
      ⟨rfl, by initial, trivial, rfl, rfl, rfl⟩
  simp only [jsonResourceEntry, keep, jsonResource]
  generalize hg : fill true (skipFields (jsonResTable cx)) m {} = r at h
  match r, h with
  | .err .format, _ => rfl
  | .ok s, _ =>
    obtain ⟨mt, sp, _, _, rfl⟩ := (hf s).1 hg
    rfl

theorem type_yaml {t : RType} (h : Supported .yaml t) : yamlType (typeName t) = .ok t := by
  rcases h with h | h | h | h | h | h <;> subst h <;> rfl

theorem type_yaml_not {t : RType} (h : ¬ Supported .yaml t) :
    yamlType (typeName t) = .err .unsupportedType := by
  cases t <;> first | rfl | exact absurd (by simp [Supported]) h

theorem entry_yaml_not (x : SResource cx.cls F) (h : ¬ Supported .yaml x.type) :
    yamlResourceEntry cx (wResource x) = .ok none := by
  simp only [wResource, yamlResourceEntry]
  rw [yamlResource, get?_here]
  simp only [readStr, Outcome.bind_ok, type_yaml_not h, Outcome.bind_err]

theorem entry_yaml (x : SResource cx.cls F) (h : Supported .yaml x.type) :
    yamlResourceEntry cx (wResource x) = keep (readObj (yamlResource cx)) (wResource x) := by
  simp only [wResource, yamlResourceEntry, keep, readObj]
  rw [yamlResource, get?_here]
  simp only [readStr, Outcome.bind_ok, type_yaml h]
  generalize (req "type" (.str (typeName x.type)) ++ (req "metadata" (wMeta x.metadata) ++
    (opt "linkSelector" (x.linkSelector.map wLinkSelector) ++
    (opt "description" (x.description.map .str) ++ (opt "spec" (x.spec.map wSpec) ++ [])))) :
    List (Str × Doc F)) = m
  have h : Rel (ResourceRel cx) (fill false (yamlResTable cx x.type) m
      { type := x.type, metadata := { displayName := [] } })
      (fill false (yamlResTable cx x.type) m
      { type := x.type, metadata := { displayName := [] } }) :=
    fill_self (by table) _ _ ⟨rfl, by initial, rfl, rfl, trivial⟩
  generalize fill false (yamlResTable cx x.type) m
      { type := x.type, metadata := { displayName := [] } } = r at h ⊢
  match r, h with
  | .err .format, _ => rfl
  | .ok s, _ =>
    simp only [Outcome.bind_ok]
    cases s.spec.isSome <;> rfl

theorem resource_yaml (x : SResource cx.cls F)
    (ht : ∀ s, x.spec = some s → specType s = x.type) (h : Supported .yaml x.type)
    (hd : Distinct (F := F) (wResource x)) (y : ResResource F) :
    Ld (readObj (yamlResource cx) (wResource x)) (resResource cx env) y ↔
      x.spec ≠ none ∧ ResourceM cx env .yaml x y := by
  unfold wResource at hd ⊢
  simp only [readObj]
  rw [yamlResource, get?_here]
  simp only [readStr, Outcome.bind_ok, type_yaml h]
  have d0 : DV _ := hd.value
  have hm := meta_yaml cx env x.metadata (DV.req (DV.rest d0))
  have hk : ∀ {w}, ORel (fun a c => readObj yamlLinkSelector (wLinkSelector (F := F) a) = .ok c)
      x.linkSelector w ↔ w = x.linkSelector := orel_eq fun a ha c => link_yaml a
        (DV.opt (DV.rest (DV.rest d0)) a ha) c
  have hs' : ∀ {w}, ORel (fun a c => readStr (F := F) (.str a) = .ok c)
      x.description w ↔ w = x.description := orel_eq fun a _ c => readStr_str a c
  have hp : ∀ {w}, (∃ u, ORel (fun a c => readObj (yamlSpec cx x.type) (wSpec a) = .ok c) x.spec u ∧
      optM (resSpec cx env) u = .ok w) ↔ ORel (SpecM cx env .yaml) x.spec w :=
    ld_opt fun a h' => by
      have := spec_yaml cx env a (by rw [ht a h']; exact h)
        (DV.opt (DV.rest (DV.rest (DV.rest (DV.rest d0)))) a h')
      rwa [ht a h'] at this
  constructor
  · rintro ⟨raw, hr, hs⟩
    obtain ⟨_, hr, hq⟩ := bind_eq_ok hr
    obtain ⟨_, hq, hz⟩ := bind_eq_ok hq
    cases hz
    rw [req, List.singleton_append, fill_skip rfl] at hr
    obtain ⟨w1, a1, hr⟩ := (reqF rfl).1 hr
    obtain ⟨w2, a2, hr⟩ := (optY rfl (fun s o => { s with linkSelector := o }) (fun _ => rfl) rfl).1 hr
    obtain ⟨w3, a3, hr⟩ := (optY rfl (fun s o => { s with description := o }) (fun _ => rfl) rfl).1 hr
    obtain ⟨w4, a4, hr⟩ := (optY rfl (fun s o => { s with spec := o }) (fun _ => rfl) rfl).1 hr
    cases fill_done hr
    obtain ⟨v1, b1, hs⟩ := bind_eq_ok hs
    obtain ⟨v4, b4, hs⟩ := bind_eq_ok hs
    cases hs
    refine ⟨?_, ⟨rfl, (hm _).1 ⟨_, a1, b1⟩, hk.1 a2, hs'.1 a3, hp.1 ⟨_, a4, b4⟩⟩⟩
    intro e
    rw [e] at a4
    cases w4 with
    | none => cases require_iff.1 hq
    | some _ => exact a4.elim
  · rintro ⟨hne, h0, h1, h2, h3, h4⟩
    obtain ⟨mt, a1, b1⟩ := (hm _).2 h1
    obtain ⟨sp, a4, b4⟩ := hp.2 h4
    refine ⟨_, (bind_ok ((congrArg (· = Outcome.ok _) (fill_skip rfl _ _ _)).mpr
      ((reqF rfl).2 ⟨_, a1, (optY rfl (fun s o => { s with linkSelector := o })
      (fun _ => rfl) rfl).2 ⟨_, hk.2 rfl, (optY rfl (fun s o => { s with description := o })
      (fun _ => rfl) rfl).2 ⟨_, hs'.2 rfl, (optY rfl (fun s o => { s with spec := o })
      (fun _ => rfl) rfl).2 ⟨_, a4, rfl⟩⟩⟩⟩)) _).trans
      ((bind_ok (require_iff.2 ?_) _).trans rfl), (bind_ok b1 _).trans ((bind_ok b4 _).trans ?_)⟩
    · cases sp with
      | some _ => rfl
      | none =>
        cases hx : x.spec with
        | none => exact absurd hx hne
        | some _ => rw [hx] at a4; exact a4.elim
    · rw [← h0, ← h2, ← h3]
      rfl

/-- What the loop over the resources makes of them. -/
inductive FRel {A W : Type} (e : A → Outcome Err (Option W)) : List (Str × A) → List (Str × W) → Prop
  | nil : FRel e [] []
  | keep {k a c m m'} : e a = .ok (some c) → FRel e m m' → FRel e ((k, a) :: m) ((k, c) :: m')
  | skip {k a m m'} : e a = .ok none → FRel e m m' → FRel e ((k, a) :: m) m'

theorem fillMap_frel {A W : Type} {r : Doc F → Outcome Err (Option W)} {w : A → Doc F}
    {m : List (Str × A)} (hn : (m.map (·.1)).Nodup)
    {acc : List (Str × W)} (ha : ∀ k ∈ m.map (·.1), k ∉ acc.map (·.1)) {res : List (Str × W)} :
    fillMap r (m.map fun e => (e.1, w e.2)) acc = .ok res ↔
      ∃ m', FRel (fun a => r (w a)) m m' ∧ res = acc ++ m' := by
  induction m generalizing acc with
  | nil =>
    simp only [List.map_nil, fillMap, Outcome.ok.injEq]
    constructor
    · rintro rfl; exact ⟨[], .nil, by simp⟩
    · rintro ⟨m', h, rfl⟩; cases h; simp
  | cons e m ih =>
    obtain ⟨k, a⟩ := e
    rw [List.map_cons, List.nodup_cons] at hn
    have hk : k ∉ acc.map (·.1) := ha k (List.mem_cons_self ..)
    have ih0 := ih hn.2 (acc := acc) fun j hj => ha j (List.mem_cons_of_mem _ hj)
    have ih' : ∀ c : W, _ := fun c => ih hn.2
      (acc := acc ++ [(k, c)]) (by
        intro j hj
        simp only [List.map_append, List.map_cons, List.map_nil, List.mem_append,
          List.mem_singleton, not_or]
        exact ⟨ha j (List.mem_cons_of_mem _ hj), fun h => hn.1 (h ▸ hj)⟩)
    simp only [List.map_cons, fillMap]
    constructor
    · intro h
      obtain ⟨o, hc, h⟩ := bind_eq_ok h
      cases o with
      | none =>
        obtain ⟨m', h2, rfl⟩ := ih0.1 h
        exact ⟨m', .skip hc h2, rfl⟩
      | some c =>
        simp only [hmInsert_new hk] at h
        obtain ⟨m', h2, rfl⟩ := (ih' c).1 h
        exact ⟨(k, c) :: m', .keep hc h2, by simp⟩
    · rintro ⟨m', h, rfl⟩
      cases h with
      | skip hc h2 => rw [hc, Outcome.bind_ok]; exact ih0.2 ⟨_, h2, rfl⟩
      | keep hc h2 =>
        rw [hc, Outcome.bind_ok]
        simp only [hmInsert_new hk]
        exact (ih' _).2 ⟨_, h2, by simp⟩

/-- The two ways of an entry. -/
structure EntryOk (f : Format) (e : SResource cx.cls F → Outcome Err (Option (RawResource F)))
    (x : SResource cx.cls F) : Prop where
  none : e x = .ok none ↔ ¬ Supported f x.type
  some : ∀ y, (∃ raw, e x = .ok (some raw) ∧ resResource cx env raw = .ok y) ↔
    Supported f x.type ∧ (f = .yaml → x.spec ≠ .none) ∧ ResourceM cx env f x y

theorem orel_none {A B : Type} {R : A → B → Prop} {o : Option A} {o' : Option B} (h : ORel R o o') :
    o'.isSome = true ↔ o ≠ none := by
  cases o <;> cases o' <;> simp_all [ORel]

theorem resources_frel {f : Format} {e : SResource cx.cls F → Outcome Err (Option (RawResource F))}
    {m : List (Str × SResource cx.cls F)} (he : ∀ x ∈ m, EntryOk cx env f e x.2)
    {y : List (Str × ResResource F)} :
    (∃ raw, FRel e m raw ∧ resResources cx env raw = .ok y) ↔ ResourcesM cx env f m y := by
  induction m generalizing y with
  | nil =>
    constructor
    · rintro ⟨raw, h, hs⟩
      cases h; cases hs; exact .nil
    · intro h; cases h; exact ⟨[], .nil, rfl⟩
  | cons x m ih =>
    obtain ⟨k, x⟩ := x
    have h0 := he _ (List.mem_cons_self ..)
    have ih' : ∀ {y}, _ := fun {y} => ih (fun z hz => he z (List.mem_cons_of_mem _ hz)) (y := y)
    constructor
    · rintro ⟨raw, h, hs⟩
      cases h with
      | skip hc h => exact .unsupported (h0.none.1 hc) (ih'.1 ⟨_, h, hs⟩)
      | keep hc h =>
        rw [resResources] at hs
        obtain ⟨r, hr, hs⟩ := bind_eq_ok hs
        obtain ⟨rs, hrs, hs⟩ := bind_eq_ok hs
        obtain ⟨h1, h2, h3⟩ := (h0.some r).1 ⟨_, hc, hr⟩
        have h4 := ih'.1 ⟨_, h, hrs⟩
        have h5 := orel_none h3.spec
        by_cases hx : x.spec = none
        · have : r.spec.isSome = false := by
            rw [Bool.eq_false_iff]; exact fun e => h5.1 e hx
          rw [this] at hs
          cases hs
          refine .noSpec ?_ hx h3 h4
          cases f with
          | json => rfl
          | yaml => exact absurd hx (h2 rfl)
        · rw [h5.2 hx] at hs
          cases hs
          exact .keep h1 hx h3 h4
    · intro h
      cases h with
      | keep h1 hx h3 h4 =>
        obtain ⟨raw, hc, hr⟩ := (h0.some _).2 ⟨h1, fun _ => hx, h3⟩
        obtain ⟨raws, h, hrs⟩ := ih'.2 h4
        refine ⟨_, .keep hc h, ?_⟩
        rw [resResources]
        refine (bind_ok hr _).trans ((bind_ok hrs _).trans ?_)
        rw [(orel_none h3.spec).2 hx]
        rfl
      | unsupported h1 h4 =>
        obtain ⟨raws, h, hrs⟩ := ih'.2 h4
        exact ⟨_, .skip (h0.none.2 h1) h, hrs⟩
      | noSpec hf hx h3 h4 =>
        subst hf
        obtain ⟨raw, hc, hr⟩ := (h0.some _).2 ⟨trivial, nofun, h3⟩
        obtain ⟨raws, h, hrs⟩ := ih'.2 h4
        refine ⟨_, .keep hc h, ?_⟩
        rw [resResources]
        refine (bind_ok hr _).trans ((bind_ok hrs _).trans ?_)
        rw [Bool.eq_false_iff.2 fun e => (orel_none h3.spec).1 e hx]
        rfl

theorem keep_none {A : Type} {r : Doc F → Outcome Err A} {v : Doc F} : keep r v ≠ .ok none := by
  unfold keep
  cases r v <;> nofun

theorem keep_some {A : Type} {r : Doc F → Outcome Err A} {v : Doc F} {a : A} :
    keep r v = .ok (some a) ↔ r v = .ok a := by
  unfold keep
  cases h : r v with
  | ok b => exact ⟨fun h => by cases h; rfl, fun h => by cases h; rfl⟩
  | err _ => exact ⟨nofun, nofun⟩
  | panic => exact ⟨nofun, nofun⟩

theorem entryOk_json (x : SResource cx.cls F)
    (ht : ∀ s, x.spec = some s → specType s = x.type) (hd : Distinct (F := F) (wResource x)) :
    EntryOk cx env .json (fun x => jsonResourceEntry cx (wResource x)) x where
  none := by
    rw [entry_json cx x ht hd]
    exact ⟨fun h => absurd h keep_none, fun h => absurd trivial h⟩
  some y := by
    simp only [entry_json cx x ht hd, keep_some]
    exact (resource_json cx env x ht hd y).trans
      ⟨fun h => ⟨trivial, nofun, h⟩, fun h => h.2.2⟩

theorem entryOk_yaml (x : SResource cx.cls F)
    (ht : ∀ s, x.spec = some s → specType s = x.type) (hd : Distinct (F := F) (wResource x)) :
    EntryOk cx env .yaml (fun x => yamlResourceEntry cx (wResource x)) x := by
  by_cases h : Supported .yaml x.type
  · refine ⟨?_, fun y => ?_⟩
    · rw [entry_yaml cx x h]
      exact ⟨fun h => absurd h keep_none, fun h' => absurd h h'⟩
    · simp only [entry_yaml cx x h, keep_some]
      exact (resource_yaml cx env x ht h hd y).trans
        ⟨fun h' => ⟨h, fun _ => h'.1, h'.2⟩, fun h' => ⟨h'.2.1 trivial, h'.2.2⟩⟩
  · refine ⟨?_, fun y => ?_⟩
    · rw [entry_yaml_not cx x h]
      exact ⟨fun _ => h, fun _ => rfl⟩
    · simp only [entry_yaml_not cx x h]
      exact ⟨fun ⟨_, h, _⟩ => (nomatch h), fun h' => absurd h'.1 h⟩

theorem resources_json (m : List (Str × SResource cx.cls F))
    (ht : ∀ e ∈ m, ∀ s, e.2.spec = some s → specType s = e.2.type)
    (hd : Distinct (F := F) (wMap wResource m)) (y : List (Str × ResResource F)) :
    Ld (readObj (fun m => fillMap (jsonResourceEntry cx) m []) (wMap wResource m))
      (resResources cx env) y ↔ ResourcesM cx env .json m y := by
  simp only [Ld, readObj, wMap]
  simp only [fillMap_frel hd.mapNodup (acc := []) (by simp), List.nil_append, exists_eq_right']
  exact resources_frel cx env fun x hx => entryOk_json cx env x.2 (ht x hx) (hd.map x hx)

theorem resources_yaml (m : List (Str × SResource cx.cls F))
    (ht : ∀ e ∈ m, ∀ s, e.2.spec = some s → specType s = e.2.type)
    (hd : Distinct (F := F) (wMap wResource m)) (y : List (Str × ResResource F)) :
    Ld (readObj (fun m => fillMap (yamlResourceEntry cx) m []) (wMap wResource m))
      (resResources cx env) y ↔ ResourcesM cx env .yaml m y := by
  simp only [Ld, readObj, wMap]
  simp only [fillMap_frel hd.mapNodup (acc := []) (by simp), List.nil_append, exists_eq_right']
  exact resources_frel cx env fun x hx => entryOk_yaml cx env x.2 (ht x hx) (hd.map x hx)

/-! ## Variables -/

theorem scalar_json (x y : Scalar F) : jsonScalar cx (wScalar x) = .ok y ↔ ScalarM cx x y := by
  cases x with
  | int n =>
    simp only [wScalar, jsonScalar, ScalarM, Outcome.ok.injEq, inI64, Bool.and_eq_true,
      decide_eq_true_eq]
    exact eq_comm
  | _ => simp only [wScalar, jsonScalar, ScalarM, Outcome.ok.injEq]; exact eq_comm

theorem scalar_yaml (x y : Scalar F) : yamlScalar cx (wScalar x) = .ok y ↔ ScalarM cx x y := by
  rw [← scalar_json]
  cases x <;> rfl

theorem scalar_nn (x : Scalar F) : wScalar x ≠ .null := by cases x <;> exact nn rfl

theorem scalars {r : Doc F → Outcome Err (Scalar F)}
    (hr : ∀ x y, r (wScalar x) = .ok y ↔ ScalarM cx x y) {l l' : List (Scalar F)} :
    fillVec (keep r) (l.map wScalar) = .ok l' ↔ LRel (ScalarM cx) l l' := by
  simp only [fillVec_keep, hr]

theorem variable_json (x : Variable F) (hd : Distinct (wVariable x)) (y : Variable F) :
    jsonVariable cx (wVariable x) = .ok y ∧ y.type ≠ [] ↔ VariableM cx x y := by
  unfold wVariable at hd ⊢
  unfold jsonVariable
  have hl : ∀ {w}, ORel (fun a c => readVec (jsonScalar cx) (wList wScalar a) = .ok c)
      x.allowedValues w ↔ ORel (LRel (ScalarM cx)) x.allowedValues w :=
    ORel.iff fun a _ c => scalars cx (scalar_json cx)
  have hv : ∀ {w}, ORel (fun a c => jsonScalar cx (wScalar a) = .ok c)
      x.default w ↔ ORel (ScalarM cx) x.default w :=
    ORel.iff fun a _ c => scalar_json cx a c
  have hb : ∀ {w}, ORel (fun a c => jsonBool (F := F) (.bool a) = .ok c) x.secret w ↔
      w = x.secret := orel_eq fun a _ c => by simp only [jsonBool, Outcome.ok.injEq]; exact eq_comm
  have hs : ∀ {w}, ORel (fun a c => readStr (F := F) (.str a) = .ok c)
      x.description w ↔ w = x.description := orel_eq fun a _ c => readStr_str a c
  rw [jsonStruct_obj hd (List.forall_mem_cons.2 ⟨key_req, List.forall_mem_nil _⟩)]
  constructor
  · rintro ⟨hr, hq⟩
    obtain ⟨w0, a0, hr⟩ := (reqF rfl).1 hr
    obtain ⟨w1, a1, hr⟩ := (optJ rfl (fun _ => nn rfl) rfl).1 hr
    obtain ⟨w2, a2, hr⟩ := (optJ rfl scalar_nn rfl).1 hr
    obtain ⟨w3, a3, hr⟩ := (optJ rfl (fun _ => nn rfl) rfl).1 hr
    obtain ⟨w4, a4, hr⟩ := (optJ rfl (fun _ => nn rfl) rfl).1 hr
    cases fill_done hr
    have a0 := (readStr_str _ _).1 a0
    exact ⟨a0, hl.1 a1, hv.1 a2, hb.1 a3, hs.1 a4, a0 ▸ hq⟩
  · rintro ⟨h0, h1, h2, h3, h4, hf⟩
    refine ⟨(reqF rfl).2 ⟨_, (readStr_str _ _).2 rfl, (optJ rfl (fun _ => nn rfl) rfl).2
      ⟨_, hl.2 h1, (optJ rfl scalar_nn rfl).2 ⟨_, hv.2 h2, (optJ rfl (fun _ => nn rfl) rfl).2
      ⟨_, hb.2 rfl, (optJ rfl (fun _ => nn rfl) rfl).2 ⟨_, hs.2 rfl, ?_⟩⟩⟩⟩⟩, h0 ▸ hf⟩
    rw [← h0, ← h3, ← h4]
    rfl

theorem variable_yaml (x : Variable F) (y : Variable F) :
    readObj (yamlVariable cx) (wVariable x) = .ok y ↔ VariableM cx x y := by
  unfold wVariable
  simp only [readObj]
  unfold yamlVariable
  have hl : ∀ {w}, ORel (fun a c => readVec (yamlScalar cx) (wList wScalar a) = .ok c)
      x.allowedValues w ↔ ORel (LRel (ScalarM cx)) x.allowedValues w :=
    ORel.iff fun a _ c => scalars cx (scalar_yaml cx)
  have hv : ∀ {w}, ORel (fun a c => yamlScalar cx (wScalar a) = .ok c)
      x.default w ↔ ORel (ScalarM cx) x.default w :=
    ORel.iff fun a _ c => scalar_yaml cx a c
  have hb : ∀ {w}, ORel (fun a c => jsonBool (F := F) (.bool a) = .ok c) x.secret w ↔
      w = x.secret := orel_eq fun a _ c => by simp only [jsonBool, Outcome.ok.injEq]; exact eq_comm
  have hs : ∀ {w}, ORel (fun a c => readStr (F := F) (.str a) = .ok c)
      x.description w ↔ w = x.description := orel_eq fun a _ c => readStr_str a c
  constructor
  · intro hr
    obtain ⟨_, hr, hq⟩ := bind_eq_ok hr
    obtain ⟨_, hq, hz⟩ := bind_eq_ok hq
    cases hz
    obtain ⟨w0, a0, hr⟩ := (reqF rfl).1 hr
    obtain ⟨w1, a1, hr⟩ := (optA rfl (w := wList wScalar)
      (r := fun a => readVec (yamlScalar cx) (wList wScalar a))
      (set := fun s o => { s with allowedValues := o }) (fun _ => rfl) rfl).1 hr
    obtain ⟨w2, a2, hr⟩ := (optY rfl (fun s o => { s with default := o }) (fun _ => rfl) rfl).1 hr
    obtain ⟨w3, a3, hr⟩ := (optA rfl (w := .bool) (r := fun a => jsonBool (F := F) (.bool a))
      (set := fun s o => { s with secret := o }) (fun _ => rfl) rfl).1 hr
    obtain ⟨w4, a4, hr⟩ := (optY rfl (fun s o => { s with description := o })
      (fun _ => rfl) rfl).1 hr
    cases fill_done hr
    have a0 := (readStr_str _ _).1 a0
    refine ⟨a0, hl.1 a1, hv.1 a2, hb.1 a3, hs.1 a4, ?_⟩
    have := require_iff.1 hq
    intro e
    rw [a0, e] at this
    cases this
  · rintro ⟨h0, h1, h2, h3, h4, hf⟩
    refine (bind_ok ((reqF rfl).2 ⟨_, (readStr_str _ _).2 rfl, (optA rfl (w := wList wScalar)
      (r := fun a => readVec (yamlScalar cx) (wList wScalar a))
      (set := fun s o => { s with allowedValues := o }) (fun _ => rfl) rfl).2 ⟨_, hl.2 h1,
      (optY rfl (fun s o => { s with default := o }) (fun _ => rfl) rfl).2 ⟨_, hv.2 h2,
      (optA rfl (w := .bool) (r := fun a => jsonBool (F := F) (.bool a))
      (set := fun s o => { s with secret := o }) (fun _ => rfl) rfl).2 ⟨_, hb.2 rfl,
      (optY rfl (fun s o => { s with description := o })
      (fun _ => rfl) rfl).2 ⟨_, hs.2 rfl, rfl⟩⟩⟩⟩⟩) _).trans
      ((bind_ok (require_iff.2 ?_) _).trans ?_)
    · cases hx : x.type with
      | nil => exact absurd hx hf
      | cons _ _ => rfl
    · rw [← h0, ← h3, ← h4]
      rfl

theorem variables_json (m : List (Str × Variable F)) (hd : Distinct (wMap wVariable m))
    (m' : List (Str × Variable F)) :
    (readMap (jsonVariable cx) (wMap wVariable m) = .ok m' ∧ ∀ e ∈ m', e.2.type ≠ []) ↔
      MRel (VariableM cx) m m' := by
  simp only [readMap, wMap]
  rw [fillMap_acc (r' := jsonVariable cx) (w := wVariable) (fun _ _ => rfl) hd.mapNodup (by simp)]
  simp only [List.nil_append, exists_eq_right']
  have hv : ∀ e ∈ m, ∀ y, jsonVariable cx (wVariable e.2) = .ok y ∧ y.type ≠ [] ↔
      VariableM cx e.2 y := fun e he => variable_json cx e.2 (hd.map e he)
  clear hd
  constructor
  · rintro ⟨h, hq⟩
    unfold MRel at h ⊢
    induction h with
    | nil => exact .nil
    | cons h _ ih =>
      exact .cons ⟨h.1, (hv _ (List.mem_cons_self ..) _).1 ⟨h.2, hq _ (List.mem_cons_self ..)⟩⟩
        (ih (fun e he => hv e (List.mem_cons_of_mem _ he))
          fun e he => hq e (List.mem_cons_of_mem _ he))
  · intro h
    unfold MRel at h ⊢
    induction h with
    | nil => exact ⟨.nil, nofun⟩
    | cons h _ ih =>
      obtain ⟨h1, h2⟩ := (hv _ (List.mem_cons_self ..) _).2 h.2
      obtain ⟨h3, h4⟩ := ih fun e he => hv e (List.mem_cons_of_mem _ he)
      exact ⟨.cons ⟨h.1, h1⟩ h3, List.forall_mem_cons.2 ⟨h2, h4⟩⟩

theorem variables_yaml (m : List (Str × Variable F)) (hd : Distinct (wMap wVariable m))
    (m' : List (Str × Variable F)) :
    readObj (fun m => fillMap (skipNonObj (yamlVariable cx)) m []) (wMap wVariable m) = .ok m' ↔
      MRel (VariableM cx) m m' := by
  simp only [readObj, wMap]
  rw [fillMap_acc (r := skipNonObj (yamlVariable cx)) (r' := readObj (yamlVariable cx))
    (w := wVariable) (fun _ _ => rfl) hd.mapNodup (by simp)]
  simp only [List.nil_append, exists_eq_right', variable_yaml]

/-! ## The blueprint -/

theorem liftResolve_ok {A : Type} {r : Res A} {a : A} : liftResolve r = .ok a ↔ r = .ok a := by
  cases r <;> simp [liftResolve]

theorem version_json (s c : Str) : jsonVersion (F := F) (.str s) = .ok c ↔
    s = supportedVersion ∧ c = s := by
  rw [jsonVersion]
  split
  · next h => exact ⟨fun e => by cases e; exact ⟨h, rfl⟩, fun e => by rw [e.2]⟩
  · next h => exact ⟨nofun, fun e => absurd e.1 h⟩

theorem transform_json (ts c : List Str) : jsonTransform (F := F) (wTransform ts) = .ok c ↔
    c = ts := by
  have h : ∀ l l' : List Str, fillVec (keep (readStr (F := F))) (l.map .str) = .ok l' ↔ l' = l := by
    intro l l'
    rw [fillVec_keep]
    simp only [readStr_str]
    constructor
    · intro h
      induction h with
      | nil => rfl
      | cons h _ ih => rw [h, ih]
    · rintro rfl; exact LRel.refl (R := fun a c => c = a) (fun _ => rfl) _
  match ts with
  | [t] => simp only [wTransform, jsonTransform, Outcome.ok.injEq]; exact eq_comm
  | [] => exact h [] c
  | a :: b :: l => exact h (a :: b :: l) c

theorem metadata_json (x : Option (Shared (Text cx.cls) (Val cx.cls I64) (Val cx.cls Bool)))
    (hd : Distinct (F := F) (wMetadata x)) (y : Option (Shared Str Int Bool)) :
    Ld (jsonBlueprintMeta cx (wMetadata x)) (optM (resShared cx env)) y ↔
      ORel (SharedM cx env .json) x y := by
  unfold wMetadata at hd ⊢
  have d0 : DV _ := hd.value
  unfold jsonBlueprintMeta
  rw [jsonStruct_obj hd (List.forall_mem_nil _)]
  refine Iff.trans ?_ (ld_opt fun a h => shared_json cx env a (DV.opt d0 a h))
  constructor
  · rintro ⟨raw, hr, hs⟩
    obtain ⟨w0, a0, hr⟩ := (optJ rfl (fun _ => nn rfl) rfl).1 hr
    cases fill_done hr
    exact ⟨_, a0, hs⟩
  · rintro ⟨w, a0, hs⟩
    exact ⟨_, (optJ rfl (fun _ => nn rfl) rfl).2 ⟨_, a0, rfl⟩, hs⟩

theorem validate_ok {b : ResConfig F} : validate b = .ok () ↔
    b.resources ≠ [] ∧ ∀ vs, b.variables = some vs → ∀ e ∈ vs, e.2.type ≠ [] := by
  unfold validate
  constructor
  · intro h
    obtain ⟨_, h1, h2⟩ := bind_eq_ok h
    have h1 := require_iff.1 h1
    have h2 := require_iff.1 h2
    refine ⟨fun e => ?_, fun vs hv e he => ?_⟩
    · rw [e] at h1; cases h1
    rw [hv] at h2
    simpa using List.all_eq_true.1 h2 e he
  · rintro ⟨h1, h2⟩
    refine (bind_ok (require_iff.2 ?_) _).trans (require_iff.2 ?_)
    · simpa using h1
    · cases hv : b.variables with
      | none => rfl
      | some vs => exact List.all_eq_true.2 fun e he => by simpa using h2 vs hv e he

theorem json_fill (x : Blueprint cx.cls F) (g : Good x) (y : RawConfig F) :
    jsonBlueprint cx (write x) = .ok y ↔ x.version = supportedVersion ∧ x.transform ≠ none ∧
      ∃ vs rs md, ORel (fun a c => readMap (jsonVariable cx) (wMap wVariable a) = .ok c)
          x.variables vs ∧
        readObj (fun m => fillMap (jsonResourceEntry cx) m []) (wMap wResource x.resources) = .ok rs ∧
        ORel (fun a c => jsonBlueprintMeta cx (wMetadata a) = .ok c) x.metadata md ∧
        y = { version := x.version, transform := x.transform, variables := vs, resources := rs,
              metadata := md } := by
  have hd := g.distinct
  unfold write at hd ⊢
  unfold jsonBlueprint
  cases ht : x.transform with
  | none =>
    rw [jsonStruct_missing (k := "transform".toList) (by decide)]
    · exact ⟨nofun, fun h => absurd rfl h.2.1⟩
    · refine nokey_req (by decide) ?_
      show _ ∉ List.map _ (opt "variables" _ ++ _)
      exact nokey_opt (by decide) (nokey_req (by decide) (nokey_opt (by decide) (by simp)))
  | some ts =>
    rw [ht] at hd
    have ho : opt "transform" ((some ts).map wTransform) =
      (req "transform" (wTransform ts) : List (Str × Doc F)) := rfl
    rw [ho] at hd ⊢
    rw [jsonStruct_obj hd (List.forall_mem_cons.2 ⟨key_req, List.forall_mem_cons.2
      ⟨key_skip key_req, List.forall_mem_cons.2
        ⟨key_skip (key_skip (key_skip key_req)), List.forall_mem_nil _⟩⟩⟩)]
    constructor
    · intro hr
      obtain ⟨w0, a0, hr⟩ := (reqF rfl).1 hr
      obtain ⟨w1, a1, hr⟩ := (reqF rfl).1 hr
      obtain ⟨w2, a2, hr⟩ := (optJ rfl (fun _ => nn rfl) rfl).1 hr
      obtain ⟨w3, a3, hr⟩ := (reqF rfl).1 hr
      obtain ⟨w4, a4, hr⟩ := (optJ rfl (fun _ => nn rfl) rfl).1 hr
      cases fill_done hr
      obtain ⟨h0, rfl⟩ := (version_json _ _).1 a0
      cases (transform_json _ _).1 a1
      exact ⟨h0, nofun, _, _, _, a2, a3, a4, rfl⟩
    · rintro ⟨h0, -, vs, rs, md, a2, a3, a4, rfl⟩
      exact (reqF rfl).2 ⟨_, (version_json _ _).2 ⟨h0, rfl⟩, (reqF rfl).2 ⟨_,
        (transform_json _ _).2 rfl, (optJ rfl (fun _ => nn rfl) rfl).2 ⟨_, a2, (reqF rfl).2 ⟨_, a3,
        (optJ rfl (fun _ => nn rfl) rfl).2 ⟨_, a4, rfl⟩⟩⟩⟩⟩

theorem good_values {x : Blueprint cx.cls F} (g : Good x) :
    (∀ m, x.variables = some m → Distinct (F := F) (wMap wVariable m)) ∧
    Distinct (F := F) (wMap wResource x.resources) ∧
    (∀ m, x.metadata = some m → Distinct (F := F) (wMetadata m)) := by
  have hd := g.distinct
  unfold write at hd
  have d0 : DV _ := hd.value
  exact ⟨DV.opt (DV.rest (DV.rest d0)), DV.req (DV.rest (DV.rest (DV.rest d0))),
    DV.opt (DV.rest (DV.rest (DV.rest (DV.rest d0))))⟩

theorem blueprint_json (x : Blueprint cx.cls F) (g : Good x) (y : ResConfig F) :
    fromJson cx env (write x) = .ok y ↔ BlueprintM cx env .json x y := by
  obtain ⟨dv, dr, dm⟩ := good_values cx g
  have hr := resources_json cx env x.resources g.types dr
  have hm : ∀ {w}, (∃ u, ORel (fun a c => jsonBlueprintMeta cx (wMetadata a) = .ok c) x.metadata u ∧
      optM (optM (resShared cx env)) u = .ok w) ↔ ORel (ORel (SharedM cx env .json)) x.metadata w :=
    ld_opt fun a h => metadata_json cx env a (dm a h)
  have hv : ∀ {w}, (ORel (fun a c => readMap (jsonVariable cx) (wMap wVariable a) = .ok c)
      x.variables w ∧ ∀ vs, w = some vs → ∀ e ∈ vs, e.2.type ≠ []) ↔
      ORel (MRel (VariableM cx)) x.variables w := by
    intro w
    cases hx : x.variables with
    | none => cases w <;> simp [ORel]
    | some m =>
      cases w with
      | none => simp [ORel]
      | some m' =>
        simp only [ORel, Option.some.injEq, forall_eq']
        exact variables_json cx m (dv m hx) m'
  unfold fromJson
  constructor
  · intro h
    obtain ⟨raw, h1, h⟩ := bind_eq_ok h
    obtain ⟨b, h2, h⟩ := bind_eq_ok h
    obtain ⟨_, h3, h⟩ := bind_eq_ok h
    cases h
    obtain ⟨k0, k1, vs, rs, md, a2, a3, a4, rfl⟩ := (json_fill cx x g raw).1 h1
    have h2 := liftResolve_ok.1 h2
    rw [resBlueprint] at h2
    obtain ⟨v3, b3, h2⟩ := bind_eq_ok h2
    obtain ⟨v4, b4, h2⟩ := bind_eq_ok h2
    cases h2
    obtain ⟨h3, h5⟩ := validate_ok.1 h3
    exact ⟨k0, rfl, ⟨k1, rfl⟩, hv.1 ⟨a2, h5⟩, (hr _).1 ⟨_, a3, b3⟩, hm.1 ⟨_, a4, b4⟩, h3⟩
  · rintro ⟨k0, h0, ⟨k1, h1⟩, h2, h3, h4, hf⟩
    obtain ⟨a2, h5⟩ := hv.2 h2
    obtain ⟨rs, a3, b3⟩ := (hr _).2 h3
    obtain ⟨md, a4, b4⟩ := hm.2 h4
    refine (bind_ok ((json_fill cx x g _).2 ⟨k0, k1, _, _, _, a2, a3, a4, rfl⟩) _).trans
      ((bind_ok (liftResolve_ok.2 ((bind_ok b3 _).trans ((bind_ok b4 _).trans rfl))) _).trans ?_)
    have : ({ version := x.version, transform := x.transform, variables := y.variables,
              resources := y.resources, metadata := y.metadata } : ResConfig F) = y := by
      rw [← h0, ← h1]
    rw [this]
    exact (bind_ok (validate_ok.2 ⟨hf, h5⟩) _).trans rfl

/-- The transform in YAML. -/
def yamlTransform : List Str → Option (List Str)
  | [t] => some [t]
  | _ => none

theorem metadata_yaml {s : RawConfig F} (hs : s.metadata = none)
    (x : Option (Option (Shared (Text cx.cls) (Val cx.cls I64) (Val cx.cls Bool))))
    (y : RawConfig F) :
    fill false (yamlTop cx) (opt "metadata" (x.map wMetadata) ++ []) s = .ok y ↔
      match x with
      | some (some a) => ∃ c, readObj (yamlShared cx) (wShared a) = .ok c ∧
          y = { s with metadata := some (some c) }
      | _ => y = s := by
  match x with
  | none => exact ⟨fun h => by cases h; rfl, fun h => by rw [h]; rfl⟩
  | some none =>
    exact ⟨fun h => by cases h; rfl, fun h => by rw [h]; rfl⟩
  | some (some a) =>
    have h : fill false (yamlTop cx) (opt "metadata" ((some (some a)).map wMetadata) ++ []) s =
        readObj (yamlShared cx) (wShared a) >>= fun c =>
          pure { s with metadata := some (some c) } := by
      show (((readObj (yamlShared cx) (wShared a) >>= fun c =>
        pure { s with metadata := some (some c) }) >>= fun s => fill false _ [] s) >>=
        fun s => fill false (yamlTop cx) [] s) = _
      cases readObj (yamlShared cx) (wShared a) <;> rfl
    rw [h]
    constructor
    · intro h
      obtain ⟨c, h1, h⟩ := bind_eq_ok h
      cases h
      exact ⟨c, h1, rfl⟩
    · rintro ⟨c, h1, rfl⟩
      exact bind_ok h1 _

theorem yaml_fill (x : Blueprint cx.cls F) (y : RawConfig F) :
    yamlBlueprint cx (write x) = .ok y ↔ x.version = supportedVersion ∧
      ∃ vs rs, ORel (fun a c => readObj (fun m => fillMap (skipNonObj (yamlVariable cx)) m [])
          (wMap wVariable a) = .ok c) x.variables vs ∧
        readObj (fun m => fillMap (yamlResourceEntry cx) m []) (wMap wResource x.resources) = .ok rs ∧
        rs ≠ [] ∧
        match x.metadata with
        | some (some a) => ∃ c, readObj (yamlShared cx) (wShared a) = .ok c ∧
            y = { version := x.version, transform := x.transform.bind yamlTransform,
                  variables := vs, resources := rs, metadata := some (some c) }
        | _ => y = { version := x.version, transform := x.transform.bind yamlTransform,
                     variables := vs, resources := rs, metadata := none } := by
  unfold write
  simp only [yamlBlueprint]
  have ht : ∀ {rest : List (Str × Doc F)} {s : RawConfig F}, s.transform = none →
      fill false (yamlTop cx) (opt "transform" (x.transform.map wTransform) ++ rest) s =
      fill false (yamlTop cx) rest { s with transform := x.transform.bind yamlTransform } := by
    intro rest s hs
    have hs' : { s with transform := none } = s := by rw [← hs]
    match x.transform with
    | none => simp only [Option.bind_none, hs']; rfl
    | some [t] => rfl
    | some [] => simp only [Option.bind_some, yamlTransform, hs']; rfl
    | some (_ :: _ :: _) => simp only [Option.bind_some, yamlTransform, hs']; rfl
  have hv : ∀ c, (if x.version = supportedVersion then Outcome.ok x.version else
      (.err .format : Outcome Err Str)) = .ok c ↔ x.version = supportedVersion ∧ c = x.version := by
    intro c
    split
    · next h => exact ⟨fun e => by cases e; exact ⟨h, rfl⟩, fun e => by rw [e.2]⟩
    · next h => exact ⟨nofun, fun e => absurd e.1 h⟩
  constructor
  · intro hr
    obtain ⟨z, hr, hq⟩ := bind_eq_ok hr
    obtain ⟨_, hq0, hq⟩ := bind_eq_ok hq
    obtain ⟨_, hq, hz⟩ := bind_eq_ok hq
    cases hz
    obtain ⟨w0, a0, hr⟩ := (reqA rfl (w := .str)
      (r := fun t => if t = supportedVersion then .ok t else .err .format)
      (set := fun s t => { s with version := t }) (by
        show (if _ then _ else _) = _
        split <;> rfl)).1 hr
    obtain ⟨k0, rfl⟩ := (hv _).1 a0
    rw [ht rfl] at hr
    obtain ⟨w2, a2, hr⟩ := (optA rfl (w := wMap wVariable)
      (r := fun a => readObj (fun m => fillMap (skipNonObj (yamlVariable cx)) m [])
          (wMap wVariable a))
      (set := fun s o => { s with variables := o }) (fun _ => rfl) rfl).1 hr
    obtain ⟨w3, a3, hr⟩ := (reqA rfl (w := wMap wResource)
      (r := fun a => readObj (fun m => fillMap (yamlResourceEntry cx) m []) (wMap wResource a))
      (set := fun s o => { s with resources := o }) rfl).1 hr
    have hr := (metadata_yaml cx rfl x.metadata _).1 hr
    refine ⟨k0, w2, w3, a2, a3, ?_, ?_⟩
    · have := require_iff.1 hq
      rintro rfl
      split at hr
      · obtain ⟨c, _, rfl⟩ := hr; cases this
      · rw [hr] at this; cases this
    · split at hr
      · obtain ⟨c, h, rfl⟩ := hr; exact ⟨c, h, rfl⟩
      · exact hr
  · rintro ⟨k0, w2, w3, a2, a3, hne, h⟩
    refine (bind_ok (x := y) ((reqA rfl (w := .str)
      (r := fun t => if t = supportedVersion then .ok t else .err .format)
      (set := fun s t => { s with version := t }) (by
        show (if _ then _ else _) = _
        split <;> rfl)).2 ⟨_, (hv _).2 ⟨k0, rfl⟩, ?_⟩) _).trans ?_
    · rw [ht rfl]
      exact (optA rfl (w := wMap wVariable)
      (r := fun a => readObj (fun m => fillMap (skipNonObj (yamlVariable cx)) m [])
          (wMap wVariable a))
      (set := fun s o => { s with variables := o }) (fun _ => rfl) rfl).2 ⟨_, a2,
        (reqA rfl (w := wMap wResource)
      (r := fun a => readObj (fun m => fillMap (yamlResourceEntry cx) m []) (wMap wResource a))
      (set := fun s o => { s with resources := o }) rfl).2 ⟨_, a3,
        (metadata_yaml cx rfl x.metadata _).2 (by
          split at h
          · exact h
          · exact h)⟩⟩
    · have hy : y.version = x.version ∧ y.resources = w3 := by
        split at h
        · obtain ⟨c, _, rfl⟩ := h; exact ⟨rfl, rfl⟩
        · rw [h]; exact ⟨rfl, rfl⟩
      refine (bind_ok (require_iff.2 ?_) _).trans ((bind_ok (require_iff.2 ?_) _).trans rfl)
      · rw [hy.1, k0]; rfl
      · rw [hy.2]; simpa using hne

theorem FRel.mem {A W : Type} {e : A → Outcome Err (Option W)} {m : List (Str × A)}
    {m' : List (Str × W)} (h : FRel e m m') {c : Str × W} (hc : c ∈ m') :
    ∃ x ∈ m, e x.2 = .ok (some c.2) := by
  induction h with
  | nil => cases hc
  | keep h _ ih =>
    rcases List.mem_cons.1 hc with rfl | hc
    · exact ⟨_, List.mem_cons_self .., h⟩
    · obtain ⟨x, hx, h⟩ := ih hc
      exact ⟨x, List.mem_cons_of_mem _ hx, h⟩
  | skip _ _ ih =>
    obtain ⟨x, hx, h⟩ := ih hc
    exact ⟨x, List.mem_cons_of_mem _ hx, h⟩

/-- In YAML no resource is dropped while resolving. -/
theorem resolved_empty {e : SResource cx.cls F → Outcome Err (Option (RawResource F))}
    {m : List (Str × SResource cx.cls F)} (he : ∀ x ∈ m, EntryOk cx env .yaml e x.2)
    {raw : List (Str × RawResource F)} (h : FRel e m raw) {y : List (Str × ResResource F)}
    (hs : resResources cx env raw = .ok y) : y = [] ↔ raw = [] := by
  cases raw with
  | nil => cases hs; simp
  | cons c raw =>
    obtain ⟨x, hx, hc⟩ := h.mem (List.mem_cons_self ..)
    obtain ⟨k, r⟩ := c
    rw [resResources] at hs
    obtain ⟨a, ha, hs⟩ := bind_eq_ok hs
    obtain ⟨as, has, hs⟩ := bind_eq_ok hs
    obtain ⟨_, h2, h3⟩ := ((he x hx).some a).1 ⟨_, hc, ha⟩
    rw [(orel_none h3.spec).2 (h2 rfl)] at hs
    cases hs
    simp

theorem blueprint_yaml (x : Blueprint cx.cls F) (g : Good x) (rest : List (Doc F))
    (y : ResConfig F) :
    fromYaml cx env (write x :: rest) = .ok y ↔ BlueprintM cx env .yaml x y := by
  obtain ⟨dv, dr, dm⟩ := good_values cx g
  have hr := resources_yaml cx env x.resources g.types dr
  have he : ∀ {rs ys}, readObj (fun m => fillMap (yamlResourceEntry cx) m [])
      (wMap wResource x.resources) = .ok rs → resResources cx env rs = .ok ys →
      (ys = [] ↔ rs = []) := by
    intro rs ys h hs
    simp only [readObj, wMap] at h
    obtain ⟨m', h, rfl⟩ := (fillMap_frel dr.mapNodup (by simp)).1 h
    exact resolved_empty cx env
      (fun z hz => entryOk_yaml cx env z.2 (g.types z hz) (dr.map z hz)) h hs
  have hv : ∀ {w}, ORel (fun a c => readObj (fun m => fillMap (skipNonObj (yamlVariable cx)) m [])
      (wMap wVariable a) = .ok c) x.variables w ↔ ORel (MRel (VariableM cx)) x.variables w :=
    ORel.iff fun a h c => variables_yaml cx a (dv a h) c
  have ht : ∀ {w}, TransformM .yaml x.transform w ↔ w = x.transform.bind yamlTransform := by
    intro w
    simp only [TransformM]
    match x.transform with
    | none => rfl
    | some [t] => rfl
    | some [] => rfl
    | some (_ :: _ :: _) => rfl
  have hd : ∀ a, x.metadata = some (some a) → Distinct (F := F) (wShared a) := fun a h =>
    DV.opt (dm _ h).value a rfl
  unfold fromYaml
  constructor
  · intro h
    obtain ⟨raw, h1, h2⟩ := bind_eq_ok h
    clear h
    obtain ⟨k0, vs, rs, a2, a3, hne, h⟩ := (yaml_fill cx x raw).1 h1
    have h2 := liftResolve_ok.1 h2
    rw [resBlueprint] at h2
    obtain ⟨v3, b3, h2⟩ := bind_eq_ok h2
    obtain ⟨v4, b4, h2⟩ := bind_eq_ok h2
    cases h2
    split at h
    · next s hx =>
      obtain ⟨c, hc, rfl⟩ := h
      obtain ⟨w, hw, b4⟩ := bind_eq_ok b4
      obtain ⟨w', hw', hw⟩ := bind_eq_ok hw
      cases hw
      cases b4
      refine ⟨k0, rfl, ht.2 rfl, hv.1 a2, (hr _).1 ⟨_, a3, b3⟩, ?_,
        fun e => hne ((he a3 b3).1 e)⟩
      rw [hx]
      exact ⟨_, (shared_yaml cx env s (hd s hx) _).1 ⟨_, hc, hw'⟩, rfl⟩
    · next hx =>
      subst h
      cases b4
      refine ⟨k0, rfl, ht.2 rfl, hv.1 a2, (hr _).1 ⟨_, a3, b3⟩, ?_,
        fun e => hne ((he a3 b3).1 e)⟩
      match hm : x.metadata with
      | none => rfl
      | some none => rfl
      | some (some a) => exact absurd hm (hx a)
  · rintro ⟨k0, h0, h1, h2, h3, h4, hf⟩
    obtain ⟨rs, a3, b3⟩ := (hr _).2 h3
    have hne : rs ≠ [] := fun e => hf ((he a3 b3).2 e)
    have h1 := ht.1 h1
    by_cases hx : ∃ a, x.metadata = some (some a)
    · obtain ⟨a, hx⟩ := hx
      rw [hx] at h4
      obtain ⟨s', hs', hy⟩ := h4
      obtain ⟨c, hc, hs'⟩ := (shared_yaml cx env a (hd a hx) _).2 hs'
      refine (bind_ok ((yaml_fill cx x _).2 ⟨k0, _, _, hv.2 h2, a3, hne, by
        rw [hx]; exact ⟨c, hc, rfl⟩⟩) _).trans (liftResolve_ok.2 ?_)
      have hmd : optM (optM (resShared cx env)) (some (some c)) = .ok (some (some s')) :=
        optM_iff.2 (optM_iff.2 hs')
      refine (bind_ok b3 _).trans ((bind_ok hmd _).trans ?_)
      show Outcome.ok _ = _
      rw [← h0, ← h1, ← hy]
    · have hy : y.metadata = none := by
        match hm : x.metadata with
        | none => rw [hm] at h4; exact h4
        | some none => rw [hm] at h4; exact h4
        | some (some a) => exact absurd ⟨a, hm⟩ hx
      refine (bind_ok ((yaml_fill cx x _).2 ⟨k0, _, _, hv.2 h2, a3, hne, by
        match hm : x.metadata with
        | none => rfl
        | some none => rfl
        | some (some a) => exact absurd ⟨a, hm⟩ hx⟩) _).trans (liftResolve_ok.2 ?_)
      refine (bind_ok b3 _).trans ?_
      show Outcome.ok _ = _
      rw [← h0, ← h1, ← hy]

end Verif.Blueprint.Source
