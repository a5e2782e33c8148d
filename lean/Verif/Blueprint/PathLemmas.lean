import Verif.Blueprint.PropLemmas

/-!
# Lemmas for the property theorems: from a place in the document to a place in the result
-/

namespace Verif.Blueprint

open Verif Verif.Subst Spec

variable {F : Type} (cx : Ctx F) (env : Env)

theorem hmInsert_keeps {A : Type} {m : List (Str × A)} {k k' : Str} {a a' : A} (hne : k ≠ k')
    (h : (k, a) ∈ m) : (k, a) ∈ hmInsert m k' a' :=
  List.mem_append_left _ (List.mem_filter.2 ⟨h, by simpa using hne⟩)

theorem fillMap_keeps {A : Type} {r : Doc F → Outcome Err (Option A)} {m : List (Str × Doc F)}
    {acc res : List (Str × A)} {k : Str} {a : A} (hk : k ∉ m.map (·.1)) (ha : (k, a) ∈ acc)
    (h : fillMap r m acc = .ok res) : (k, a) ∈ res := by
  induction m generalizing acc with
  | nil => cases h; exact ha
  | cons e m ih =>
    obtain ⟨k', v⟩ := e
    rw [List.map_cons, List.mem_cons, not_or] at hk
    simp only [fillMap] at h
    obtain ⟨o, _, h⟩ := bind_eq_ok h
    cases o with
    | none => exact ih hk.2 ha h
    | some x => exact ih hk.2 (hmInsert_keeps hk.1 ha) h

/-- The entry of the result for an entry of a mapping. -/
theorem fillMap_entry {A : Type} {r : Doc F → Outcome Err (Option A)} {m : List (Str × Doc F)}
    (hn : (m.map (·.1)).Nodup) {k : Str} {v : Doc F} (hm : (k, v) ∈ m) {acc res : List (Str × A)}
    (h : fillMap r m acc = .ok res) : ∃ o, r v = .ok o ∧ ∀ a, o = some a → (k, a) ∈ res := by
  induction m generalizing acc with
  | nil => cases hm
  | cons e m ih =>
    obtain ⟨k', w⟩ := e
    rw [List.map_cons, List.nodup_cons] at hn
    simp only [fillMap] at h
    obtain ⟨o, ho, h⟩ := bind_eq_ok h
    rcases List.mem_cons.1 hm with he | hm
    · cases he
      refine ⟨o, ho, fun a ha => ?_⟩
      subst ha
      exact fillMap_keeps hn.1 (List.mem_append_right _ (List.mem_singleton.2 rfl)) h
    · cases o with
      | none => exact ih hn.2 hm h
      | some x => exact ih hn.2 hm h

theorem resResources_entry {m : List (Str × RawResource F)} {r : List (Str × ResResource F)}
    (h : resResources cx env m = .ok r) {k : Str} {x : RawResource F} (hm : (k, x) ∈ m) :
    ∃ y, resResource cx env x = .ok y ∧ (y.spec.isSome = true → (k, y) ∈ r) := by
  induction m generalizing r with
  | nil => cases hm
  | cons e m ih =>
    obtain ⟨k', x'⟩ := e
    simp only [resResources] at h
    obtain ⟨y, hy, h⟩ := bind_eq_ok h
    obtain ⟨rs, hrs, h⟩ := bind_eq_ok h
    cases h
    rcases List.mem_cons.1 hm with he | hm
    · cases he
      exact ⟨y, hy, fun hs => by rw [if_pos hs]; exact List.mem_cons_self ..⟩
    · obtain ⟨y', hy', h'⟩ := ih hrs hm
      refine ⟨y', hy', fun hs => ?_⟩
      split
      · exact List.mem_cons_of_mem _ (h' hs)
      · exact h' hs

theorem mapM_entry {A B : Type} {f : A → Res B} {m : List (Str × A)} {r : List (Str × B)}
    (h : mapM f m = .ok r) {k : Str} {x : A} (hm : (k, x) ∈ m) :
    ∃ y, f x = .ok y ∧ (k, y) ∈ r := by
  induction m generalizing r with
  | nil => cases hm
  | cons e m ih =>
    obtain ⟨k', x'⟩ := e
    simp only [mapM] at h
    obtain ⟨y, hy, h⟩ := bind_eq_ok h
    obtain ⟨rs, hrs, h⟩ := bind_eq_ok h
    cases h
    rcases List.mem_cons.1 hm with he | hm
    · cases he
      exact ⟨y, hy, List.mem_cons_self ..⟩
    · obtain ⟨y', hy', h'⟩ := ih hrs hm
      exact ⟨y', hy', List.mem_cons_of_mem _ h'⟩

theorem jsonBlueprint_fill {m : List (Str × Doc F)} (hn : (m.map (·.1)).Nodup)
    {rs : List (Str × Doc F)} (hm : ("resources".toList, .obj rs) ∈ m) {b : RawConfig F}
    (h : jsonBlueprint cx (.obj m) = .ok b) :
    fillMap (jsonResourceEntry cx) rs [] = .ok b.resources := by
  refine jsonBlueprint_slot (P := fun b => fillMap (jsonResourceEntry cx) rs [] = .ok b.resources)
    cx h hn hm rfl ?_ ?_ ?_ ?_ ?_ ?_
  · intro s s' h
    obtain ⟨a, ha, h⟩ := bind_eq_ok h
    cases h
    exact ha
  · exact fun _ _ h _ => h
  · exact fun _ _ h _ => h
  · exact fun _ _ h _ => h
  · exact fun _ _ _ hk => absurd rfl hk
  · exact fun _ _ h _ => h

/-! ## Integers of handlers -/

/-- The handler has the integers of the document, as scalars. -/
def RawInts (read : Int → Node F) (sm : List (Str × Doc F))
    (h : HandlerSpec Sos (Node F) (Node F)) : Prop :=
  (∀ n, ("memory".toList, .int n) ∈ sm → h.memory = some (read n)) ∧
    ∀ n, ("timeout".toList, .int n) ∈ sm → h.timeout = some (read n)

theorem yamlHandler_ints {sm : List (Str × Doc F)} (hn : (sm.map (·.1)).Nodup)
    {h : HandlerSpec Sos (Node F) (Node F)} (hh : yamlHandler cx sm = .ok h) :
    RawInts (fun n => .scalar (.int n)) sm h := by
  unfold yamlHandler at hh
  constructor
  · intro n hm
    refine fill_slot (P := fun s : HandlerSpec Sos (Node F) (Node F) =>
      s.memory = some (.scalar (.int n))) rfl ?_ ?_ (nodup_unique hn hm) (.inr ⟨_, hm, rfl⟩) hh
    · intro s s' h
      obtain ⟨a, ha, h⟩ := bind_eq_ok h
      cases h
      simp only [yamlInt] at ha
      split at ha
      · cases ha; rfl
      · cases ha
    · intro g hg hk v s s' hs h
      simp only [List.mem_cons, List.not_mem_nil, or_false] at hg
      rcases hg with rfl | rfl | rfl | rfl | rfl | rfl | rfl | rfl <;>
        obtain ⟨a, _, h⟩ := bind_eq_ok h <;> cases h <;> first | exact hs | exact absurd rfl hk
  · intro n hm
    refine fill_slot (P := fun s : HandlerSpec Sos (Node F) (Node F) =>
      s.timeout = some (.scalar (.int n))) rfl ?_ ?_ (nodup_unique hn hm) (.inr ⟨_, hm, rfl⟩) hh
    · intro s s' h
      obtain ⟨a, ha, h⟩ := bind_eq_ok h
      cases h
      simp only [yamlInt] at ha
      split at ha
      · cases ha; rfl
      · cases ha
    · intro g hg hk v s s' hs h
      simp only [List.mem_cons, List.not_mem_nil, or_false] at hg
      rcases hg with rfl | rfl | rfl | rfl | rfl | rfl | rfl | rfl <;>
        obtain ⟨a, _, h⟩ := bind_eq_ok h <;> cases h <;> first | exact hs | exact absurd rfl hk

theorem jsonHandler_ints {sm : List (Str × Doc F)} (hn : (sm.map (·.1)).Nodup)
    {h : HandlerSpec Sos (Node F) (Node F)} (hh : jsonHandler cx (.obj sm) = .ok h) :
    RawInts (fun n => .scalar (jsonIntNode cx n)) sm h := by
  unfold jsonHandler jsonStruct at hh
  simp only [structEntries, Outcome.bind_ok] at hh
  obtain ⟨_, _, hh⟩ := bind_eq_ok hh
  obtain ⟨_, _, hh⟩ := bind_eq_ok hh
  constructor
  · intro n hm
    refine fill_slot (P := fun s : HandlerSpec Sos (Node F) (Node F) =>
      s.memory = some (.scalar (jsonIntNode cx n))) rfl ?_ ?_ (nodup_unique hn hm)
      (.inr ⟨_, hm, rfl⟩) hh
    · intro s s' h
      obtain ⟨a, ha, h⟩ := bind_eq_ok h
      cases h
      cases ha
      rfl
    · intro g hg hk v s s' hs h
      simp only [List.mem_cons, List.not_mem_nil, or_false] at hg
      rcases hg with rfl | rfl | rfl | rfl | rfl | rfl | rfl | rfl <;>
        obtain ⟨a, _, h⟩ := bind_eq_ok h <;> cases h <;> first | exact hs | exact absurd rfl hk
  · intro n hm
    refine fill_slot (P := fun s : HandlerSpec Sos (Node F) (Node F) =>
      s.timeout = some (.scalar (jsonIntNode cx n))) rfl ?_ ?_ (nodup_unique hn hm)
      (.inr ⟨_, hm, rfl⟩) hh
    · intro s s' h
      obtain ⟨a, ha, h⟩ := bind_eq_ok h
      cases h
      cases ha
      rfl
    · intro g hg hk v s s' hs h
      simp only [List.mem_cons, List.not_mem_nil, or_false] at hg
      rcases hg with rfl | rfl | rfl | rfl | rfl | rfl | rfl | rfl <;>
        obtain ⟨a, _, h⟩ := bind_eq_ok h <;> cases h <;> first | exact hs | exact absurd rfl hk

theorem resInt_scalar {n i : Int} {s : Scalar F} (hs : s = .int i) (hi : i = n) {o : Option Int}
    (h : resInt cx env (some (.scalar s)) = .ok o) : o = some n := by
  subst hs hi
  cases h
  rfl

theorem resHandler_ints {s : HandlerSpec Sos (Node F) (Node F)} {r : HandlerSpec Str Int Bool}
    (h : resHandler cx env s = .ok r) : resInt cx env s.memory = .ok r.memory ∧
      resInt cx env s.timeout = .ok r.timeout := by
  unfold resHandler at h
  obtain ⟨_, _, h⟩ := bind_eq_ok h
  obtain ⟨_, _, h⟩ := bind_eq_ok h
  obtain ⟨_, _, h⟩ := bind_eq_ok h
  obtain ⟨_, _, h⟩ := bind_eq_ok h
  obtain ⟨_, h1, h⟩ := bind_eq_ok h
  obtain ⟨_, h2, h⟩ := bind_eq_ok h
  obtain ⟨_, _, h⟩ := bind_eq_ok h
  obtain ⟨_, _, h⟩ := bind_eq_ok h
  cases h
  exact ⟨h1, h2⟩

theorem resResource_parts {x : RawResource F} {y : ResResource F}
    (h : resResource cx env x = .ok y) : resMeta cx env x.metadata = .ok y.metadata ∧
      optM (resSpec cx env) x.spec = .ok y.spec := by
  obtain ⟨_, h1, h⟩ := bind_eq_ok h
  obtain ⟨_, h2, h⟩ := bind_eq_ok h
  cases h
  exact ⟨h1, h2⟩

theorem optM_some {A B : Type} {f : A → Res B} {a : A} {o : Option B}
    (h : optM f (some a) = .ok o) : ∃ b, f a = .ok b ∧ o = some b := by
  obtain ⟨b, hb, h⟩ := bind_eq_ok h
  cases h
  exact ⟨b, hb, rfl⟩

/-! ## The specification and metadata of a resource -/

/-- Of a resource as read: its type is that of the document, its specification and metadata are
read from the fields of the document. -/
theorem yamlResource_parts {rm : List (Str × Doc F)} (hn : (rm.map (·.1)).Nodup)
    {x : RawResource F} (h : yamlResource cx rm = .ok x) :
    (∀ t, ("type".toList, .str t) ∈ rm → x.type.name = t) ∧
      (∀ w, ("spec".toList, .obj w) ∈ rm → ∃ sp, x.spec = some sp ∧ yamlSpec cx x.type w = .ok sp) ∧
      (∀ w, ("metadata".toList, .obj w) ∈ rm → yamlMeta cx w = .ok x.metadata) ∧
      x.spec.isSome = true := by
  have h0 := h
  unfold yamlResource at h
  cases hg : get? rm "type".toList with
  | none => rw [hg] at h; cases h
  | some tv =>
    rw [hg] at h
    dsimp only at h
    obtain ⟨ts, hts, h⟩ := bind_eq_ok h
    obtain ⟨rt, hrt, h⟩ := bind_eq_ok h
    obtain ⟨r, hr, h⟩ := bind_eq_ok h
    obtain ⟨_, hs, h⟩ := bind_eq_ok h
    cases h
    have htype : x.type = rt := by
      refine fill_inv (P := fun s : RawResource F => s.type = rt) ?_ rfl hr
      intro f hf v s s' hs h
      simp only [yamlResTable, List.mem_cons, List.not_mem_nil, or_false] at hf
      rcases hf with rfl | rfl | rfl | rfl <;> obtain ⟨a, _, h⟩ := bind_eq_ok h <;> cases h <;>
        exact hs
    refine ⟨fun t ht => ?_, fun w hw => ?_, fun w hw => ?_, require_ok hs⟩
    · rw [get?_unique hn ht] at hg
      cases hg
      cases hts
      rw [htype]
      unfold yamlType at hrt
      (repeat' split at hrt) <;> cases hrt <;> simp_all
    · rw [htype]
      refine fill_slot (P := fun s : RawResource F => ∃ sp, s.spec = some sp ∧
        yamlSpec cx rt w = .ok sp) rfl ?_ ?_ (nodup_unique hn hw) (.inr ⟨_, hw, rfl⟩) hr
      · intro s s' h
        obtain ⟨a, ha, h⟩ := bind_eq_ok h
        cases h
        exact ⟨a, rfl, ha⟩
      · intro g hg hk v s s' hs h
        simp only [yamlResTable, List.mem_cons, List.not_mem_nil, or_false] at hg
        rcases hg with rfl | rfl | rfl | rfl <;> obtain ⟨a, _, h⟩ := bind_eq_ok h <;> cases h <;>
          first | exact hs | exact absurd rfl hk
    · refine fill_slot (P := fun s : RawResource F => yamlMeta cx w = .ok s.metadata) rfl ?_ ?_
        (nodup_unique hn hw) (.inr ⟨_, hw, rfl⟩) hr
      · intro s s' h
        obtain ⟨a, ha, h⟩ := bind_eq_ok h
        cases h
        exact ha
      · intro g hg hk v s s' hs h
        simp only [yamlResTable, List.mem_cons, List.not_mem_nil, or_false] at hg
        rcases hg with rfl | rfl | rfl | rfl <;> obtain ⟨a, _, h⟩ := bind_eq_ok h <;> cases h <;>
          first | exact hs | exact absurd rfl hk

/-- What the action of a field other than the type does. -/
theorem Slot.ok {f : Doc F → JRes F → Outcome Err (JRes F)} {A : Type}
    {free : JRes F → Bool} {r : Option RType → Doc F → Outcome Err A} {set : JRes F → A → JRes F}
    (hf : Slot f free r set) {v : Doc F} {s s' : JRes F} (h : skipField f v s = .ok s') :
    (s.unsupported = true ∧ s' = s) ∨
      s.unsupported = false ∧ free s = true ∧ ∃ a, r s.type v = .ok a ∧ s' = set s a := by
  unfold skipField at h
  cases hu : s.unsupported with
  | true => rw [hu] at h; cases h; exact .inl ⟨rfl, rfl⟩
  | false =>
    rw [hu, if_neg (by decide), hf.eq] at h
    split at h
    · next hfree =>
      obtain ⟨a, ha, h⟩ := bind_eq_ok h
      cases h
      exact .inr ⟨rfl, hfree, a, ha, rfl⟩
    · cases h

/-- What the action of the type does. -/
theorem jsonResType_ok {v : Doc F} {s s' : JRes F} (h : skipField jsonResType v s = .ok s') :
    (s.unsupported = true ∧ s' = s) ∨ s.unsupported = false ∧ s.type = none ∧
      ((∃ t, s' = { s with type := some t }) ∨ s' = { s with unsupported := true }) := by
  unfold skipField at h
  by_cases hu : s.unsupported = true
  · rw [hu] at h; cases h; exact .inl ⟨hu, rfl⟩
  · rw [if_neg hu] at h
    unfold jsonResType at h
    by_cases ht : s.type.isSome = true
    · rw [if_pos ht] at h; cases h
    · rw [if_neg ht] at h
      refine .inr ⟨by simpa using hu, by simpa using ht, ?_⟩
      (repeat' split at h) <;> cases h <;> first
        | exact .inl ⟨_, rfl⟩
        | exact .inr rfl

/-- The JSON counterpart of `yamlResource_parts`. -/
theorem jsonResource_parts {rm : List (Str × Doc F)} (hn : (rm.map (·.1)).Nodup)
    {x : RawResource F} (h : jsonResource cx (.obj rm) = .ok x) :
    (∀ t, ("type".toList, .str t) ∈ rm → x.type.name = t) ∧
      (∀ w, ("spec".toList, w) ∈ rm → ∃ sp, x.spec = some sp ∧ jsonSpec cx x.type w = .ok sp) ∧
      (∀ w, ("metadata".toList, w) ∈ rm → jsonMeta cx w = .ok x.metadata) := by
  obtain ⟨r, hr, h⟩ := bind_eq_ok h
  cases hu : r.unsupported with
  | true => rw [hu] at h; cases h
  | false =>
    rw [hu, if_neg (by decide)] at h
    cases ht : r.type with
    | none => rw [ht] at h; cases h
    | some rt =>
      rw [ht] at h
      cases h
      dsimp only
      refine ⟨fun t hm => ?_, fun w hw => ?_, fun w hw => ?_⟩
      · rcases jsonRes_fill cx hn hm rfl rfl hr with ⟨_, h⟩ | ⟨rt', h1, h2, _⟩
        · rw [hu] at h; cases h
        · rw [ht] at h2
          cases h2
          exact typeOfName_some h1
      · have key : r.unsupported = false → ∃ t sp, r.type = some t ∧ r.spec = some sp ∧
            jsonSpec cx t w = .ok sp := by
          refine fill_slot (P := fun s : JRes F => s.unsupported = false → ∃ t sp,
            s.type = some t ∧ s.spec = some sp ∧ jsonSpec cx t w = .ok sp)
            (T := skipFields (jsonResTable cx)) (k := "spec".toList) rfl ?_ ?_
            (nodup_unique hn hw) (.inr ⟨_, hw, rfl⟩) hr
          · intro s s' h hu'
            rcases (slot_spec cx).ok h with ⟨hu, rfl⟩ | ⟨_, _, a, ha, rfl⟩
            · rw [hu] at hu'; cases hu'
            · cases hty : s.type with
              | none => rw [hty] at ha; cases ha
              | some t =>
                rw [hty] at ha
                exact ⟨t, a, rfl, rfl, ha⟩
          · intro g hg hk v s s' hs h hu'
            rw [skipFields_eq] at hg
            simp only [List.mem_cons, List.not_mem_nil, or_false] at hg
            rcases hg with rfl | rfl | rfl | rfl | rfl
            · rcases jsonResType_ok h with ⟨_, rfl⟩ | ⟨hu, hty, hs'⟩
              · exact hs hu'
              · obtain ⟨t, sp, h1, _⟩ := hs hu
                rw [hty] at h1
                cases h1
            · rcases (slot_metadata cx).ok h with ⟨_, rfl⟩ | ⟨hu, _, a, _, rfl⟩
              · exact hs hu'
              · exact hs hu
            · exact absurd rfl hk
            · rcases slot_description.ok h with ⟨_, rfl⟩ | ⟨hu, _, a, _, rfl⟩
              · exact hs hu'
              · exact hs hu
            · rcases slot_linkSelector.ok h with ⟨_, rfl⟩ | ⟨hu, _, a, _, rfl⟩
              · exact hs hu'
              · exact hs hu
        obtain ⟨t, sp, h1, h2, h3⟩ := key hu
        rw [ht] at h1
        cases h1
        exact ⟨sp, h2, h3⟩
      · have key : r.unsupported = false → jsonMeta cx w = .ok r.metadata := by
          refine fill_slot (P := fun s : JRes F => s.unsupported = false →
            jsonMeta cx w = .ok s.metadata)
            (T := skipFields (jsonResTable cx)) (k := "metadata".toList) rfl ?_ ?_
            (nodup_unique hn hw) (.inr ⟨_, hw, rfl⟩) hr
          · intro s s' h hu'
            rcases (slot_metadata cx).ok h with ⟨hu, rfl⟩ | ⟨_, _, a, ha, rfl⟩
            · rw [hu] at hu'; cases hu'
            · exact ha
          · intro g hg hk v s s' hs h hu'
            rw [skipFields_eq] at hg
            simp only [List.mem_cons, List.not_mem_nil, or_false] at hg
            rcases hg with rfl | rfl | rfl | rfl | rfl
            · rcases jsonResType_ok h with ⟨_, rfl⟩ | ⟨hu, hty, ⟨t, rfl⟩ | rfl⟩
              · exact hs hu'
              · exact hs hu
              · cases hu'
            · exact absurd rfl hk
            · rcases (slot_spec cx).ok h with ⟨_, rfl⟩ | ⟨hu, _, a, _, rfl⟩
              · exact hs hu'
              · exact hs hu
            · rcases slot_description.ok h with ⟨_, rfl⟩ | ⟨hu, _, a, _, rfl⟩
              · exact hs hu'
              · exact hs hu
            · rcases slot_linkSelector.ok h with ⟨_, rfl⟩ | ⟨hu, _, a, _, rfl⟩
              · exact hs hu'
              · exact hs hu
        exact key hu

/-! ## Annotations -/

theorem yamlNodeEntries_fillMap (m : List (Str × Doc F)) (acc : List (Str × Node F)) :
    yamlNodeEntries cx m acc = fillMap (keep (yamlNode cx)) m acc := by
  induction m generalizing acc with
  | nil => simp only [yamlNodeEntries, fillMap]
  | cons e m ih =>
    obtain ⟨k, v⟩ := e
    simp only [yamlNodeEntries, fillMap, keep, ih]
    cases yamlNode cx v <;> rfl

theorem jsonNodeEntries_fillMap (m : List (Str × Doc F)) (acc : List (Str × Node F)) :
    jsonNodeEntries cx m acc = fillMap (keep (jsonNode cx)) m acc := by
  induction m generalizing acc with
  | nil => simp only [jsonNodeEntries, fillMap]
  | cons e m ih =>
    obtain ⟨k, v⟩ := e
    simp only [jsonNodeEntries, fillMap, keep, ih]
    cases jsonNode cx v <;> rfl

theorem keep_ok {A : Type} {r : Doc F → Outcome Err A} {v : Doc F} {o : Option A}
    (h : keep r v = .ok o) : ∃ a, r v = .ok a ∧ o = some a := by
  obtain ⟨a, ha, h⟩ := bind_eq_ok h
  cases h
  exact ⟨a, ha, rfl⟩

theorem yamlMeta_annotation {mm am : List (Str × Doc F)} (hn : (mm.map (·.1)).Nodup)
    (ha : ("annotations".toList, .obj am) ∈ mm) (hna : (am.map (·.1)).Nodup) {k : Str} {v : Doc F}
    (hk : (k, v) ∈ am) {x : Meta Sos (Node F)} (h : yamlMeta cx mm = .ok x) :
    ∃ l n, x.annotations = some l ∧ (k, n) ∈ l ∧ yamlNode cx v = .ok n := by
  obtain ⟨r, hr, h⟩ := bind_eq_ok h
  obtain ⟨_, _, h⟩ := bind_eq_ok h
  cases h
  refine fill_slot (P := fun x : Meta Sos (Node F) => ∃ l n, x.annotations = some l ∧ (k, n) ∈ l ∧
    yamlNode cx v = .ok n) (k := "annotations".toList) rfl ?_ ?_ (nodup_unique hn ha)
    (.inr ⟨_, ha, rfl⟩) hr
  · intro s s' h
    dsimp only at h
    obtain ⟨l, hl, h⟩ := bind_eq_ok h
    cases h
    rw [yamlNodeEntries_fillMap] at hl
    obtain ⟨o, ho, hin⟩ := fillMap_entry hna hk hl
    obtain ⟨n, hv, rfl⟩ := keep_ok ho
    exact ⟨l, n, rfl, hin n rfl, hv⟩
  · intro g hg hk v s s' hs h
    simp only [List.mem_cons, List.not_mem_nil, or_false] at hg
    rcases hg with rfl | rfl | rfl
    · obtain ⟨a, _, h⟩ := bind_eq_ok h
      cases h
      exact hs
    · exact absurd rfl hk
    · cases v with
      | obj m =>
        obtain ⟨a, _, h⟩ := bind_eq_ok h
        cases h
        exact hs
      | _ => cases h; exact hs

theorem jsonMeta_annotation {mm am : List (Str × Doc F)} (hn : (mm.map (·.1)).Nodup)
    (ha : ("annotations".toList, .obj am) ∈ mm) (hna : (am.map (·.1)).Nodup) {k : Str} {v : Doc F}
    (hk : (k, v) ∈ am) {x : Meta Sos (Node F)} (h : jsonMeta cx (.obj mm) = .ok x) :
    ∃ l n, x.annotations = some l ∧ (k, n) ∈ l ∧ jsonNode cx v = .ok n := by
  unfold jsonMeta jsonStruct at h
  simp only [structEntries, Outcome.bind_ok] at h
  obtain ⟨_, _, h⟩ := bind_eq_ok h
  obtain ⟨_, _, h⟩ := bind_eq_ok h
  refine fill_slot (P := fun x : Meta Sos (Node F) => ∃ l n, x.annotations = some l ∧ (k, n) ∈ l ∧
    jsonNode cx v = .ok n) (k := "annotations".toList) rfl ?_ ?_ (nodup_unique hn ha)
    (.inr ⟨_, ha, rfl⟩) h
  · intro s s' h
    obtain ⟨l, hl, h⟩ := bind_eq_ok h
    cases h
    obtain ⟨l', hl', rfl⟩ := keep_ok hl
    have hl' : jsonNodeEntries cx am [] = .ok l' := hl'
    rw [jsonNodeEntries_fillMap] at hl'
    obtain ⟨o, ho, hin⟩ := fillMap_entry hna hk hl'
    obtain ⟨n, hv, rfl⟩ := keep_ok ho
    exact ⟨l', n, rfl, hin n rfl, hv⟩
  · intro g hg hk v s s' hs h
    simp only [List.mem_cons, List.not_mem_nil, or_false] at hg
    rcases hg with rfl | rfl | rfl
    · obtain ⟨a, _, h⟩ := bind_eq_ok h
      cases h
      exact hs
    · exact absurd rfl hk
    · obtain ⟨a, _, h⟩ := bind_eq_ok h
      cases h
      exact hs

theorem resMeta_annotation {s : Meta Sos (Node F)} {r : Meta Str (Scalar F)}
    (h : resMeta cx env s = .ok r) {l : List (Str × Node F)} (hl : s.annotations = some l)
    {k : Str} {n : Node F} (hn : (k, n) ∈ l) : ∃ l' x, r.annotations = some l' ∧ (k, x) ∈ l' ∧
      resolveNodeToScalar cx.parseF env n = .ok x := by
  obtain ⟨_, _, h⟩ := bind_eq_ok h
  obtain ⟨a, ha, h⟩ := bind_eq_ok h
  cases h
  rw [hl] at ha
  obtain ⟨l', hl', rfl⟩ := optM_some ha
  obtain ⟨x, hx, hin⟩ := mapM_entry hl' hn
  exact ⟨l', x, rfl, hin, hx⟩

/-! ## From a declared resource to the loaded one -/

theorem kindOf_known {names : List String} {fields : List (Str × Doc F)} (hf : Distinct fields)
    {t : String} (ht : ("type".toList, .str t.toList) ∈ fields) (hk : t ∈ names) :
    kindOf names (.obj fields) = some t.toList := by
  unfold kindOf
  dsimp only
  rw [← get?_lookup, get?_unique hf ht]
  exact if_pos (List.mem_map.2 ⟨t, hk, rfl⟩)

/-- A resource of a type that the YAML loader knows is read, resolved and loaded. -/
theorem fromYaml_resource {d : Doc F} {rest : List (Doc F)} {c : ResConfig F}
    (h : fromYaml cx env (d :: rest) = .ok c) {k : Str} {fields : List (Str × Doc F)}
    (hd : Declares d k fields) {t : String} (ht : ("type".toList, .str t.toList) ∈ fields)
    (hk : t ∈ ["celerity/handler", "celerity/api", "celerity/consumer", "celerity/schedule",
        "celerity/handlerConfig", "celerity/workflow"]) :
    ∃ x y, yamlResource cx fields = .ok x ∧ resResource cx env x = .ok y ∧ (k, y) ∈ c.resources := by
  obtain ⟨rs, ⟨m, rfl, hn, hm, hr⟩, hin, hf⟩ := hd
  obtain ⟨b, hb, hc⟩ := fromYaml_parts cx env h
  obtain ⟨o, ho, hb'⟩ := fillMap_entry hr hin (yamlBlueprint_fill cx hn hm hb)
  have hkind := yamlResourceEntry_kind cx ho
  rw [kindOf_known hf ht hk] at hkind
  simp only [yamlResourceEntry] at ho
  cases hx : yamlResource cx fields with
  | panic => rw [hx] at ho; cases ho
  | err e =>
    rw [hx] at ho
    cases e <;> cases ho
    cases hkind
  | ok x =>
    rw [hx] at ho
    cases ho
    obtain ⟨y, hy, hyin⟩ := resResources_entry cx env (resBlueprint_parts cx env hc).2.2.2
      (hb' x rfl)
    refine ⟨x, y, rfl, hy, hyin ?_⟩
    obtain ⟨_, _, _, p4⟩ := yamlResource_parts cx hf hx
    obtain ⟨_, q⟩ := resResource_parts cx env hy
    cases hs : x.spec with
    | none => rw [hs] at p4; cases p4
    | some sp =>
      rw [hs] at q
      obtain ⟨_, _, hz⟩ := optM_some q
      rw [hz]; rfl

/-- A resource of a known type with a specification is read, resolved and loaded from JSON. -/
theorem fromJson_resource {d : Doc F} {c : ResConfig F}
    (h : fromJson cx env d = .ok c) {k : Str} {fields : List (Str × Doc F)}
    (hd : Declares d k fields) {t : String} (ht : ("type".toList, .str t.toList) ∈ fields)
    (hk : t ∈ typeNames) {w : Doc F} (hw : ("spec".toList, w) ∈ fields) :
    ∃ x y, jsonResource cx (.obj fields) = .ok x ∧ resResource cx env x = .ok y ∧
      (k, y) ∈ c.resources := by
  obtain ⟨rs, ⟨m, rfl, hn, hm, hr⟩, hin, hf⟩ := hd
  obtain ⟨b, hb, hc, _⟩ := fromJson_parts cx env h
  obtain ⟨o, ho, hb'⟩ := fillMap_entry hr hin (jsonBlueprint_fill cx hn hm hb)
  have hkind := jsonResourceEntry_kind cx (v := .obj fields)
    ⟨hf, fun v hv => ⟨_, nodup_unique hf ht _ hv rfl⟩⟩ ho
  rw [kindOf_known hf ht hk] at hkind
  simp only [jsonResourceEntry] at ho
  cases hx : jsonResource cx (.obj fields) with
  | panic => rw [hx] at ho; cases ho
  | err e =>
    rw [hx] at ho
    cases e <;> cases ho
    cases hkind
  | ok x =>
    rw [hx] at ho
    cases ho
    obtain ⟨y, hy, hyin⟩ := resResources_entry cx env (resBlueprint_parts cx env hc).2.2.2
      (hb' x rfl)
    refine ⟨x, y, rfl, hy, hyin ?_⟩
    obtain ⟨_, p2, _⟩ := jsonResource_parts cx hf hx
    obtain ⟨sp, hs, _⟩ := p2 w hw
    obtain ⟨_, q⟩ := resResource_parts cx env hy
    rw [hs] at q
    obtain ⟨_, _, hz⟩ := optM_some q
    rw [hz]; rfl

theorem handler_of_name {t : RType} (h : t.name = "celerity/handler".toList) : t = .handler := by
  revert h
  cases t <;> intro h <;> first | rfl | exact absurd h (by decide)

/-- The integers of a handler after resolution. -/
theorem resResource_ints {x : RawResource F} {y : ResResource F}
    (h : resResource cx env x = .ok y) {s : HandlerSpec Sos (Node F) (Node F)}
    (hs : x.spec = some (.handler s)) {spec : List (Str × Doc F)} {read : Int → Node F}
    (hi : RawInts read spec s) : ∃ r, y.spec = some (.handler r) ∧
      (∀ n, ("memory".toList, .int n) ∈ spec → resInt cx env (some (read n)) = .ok r.memory) ∧
      ∀ n, ("timeout".toList, .int n) ∈ spec → resInt cx env (some (read n)) = .ok r.timeout := by
  obtain ⟨_, q2⟩ := resResource_parts cx env h
  rw [hs] at q2
  obtain ⟨z, hz, hz'⟩ := optM_some q2
  obtain ⟨w, hw, hz⟩ := bind_eq_ok hz
  cases hz
  obtain ⟨i1, i2⟩ := resHandler_ints cx env hw
  exact ⟨w, hz', fun n hn => hi.1 n hn ▸ i1, fun n hn => hi.2 n hn ▸ i2⟩

/-! ## The other fields of a blueprint -/

/-- A field of the YAML blueprint and what it is read as. -/
theorem yamlBlueprint_slot {P : RawConfig F → Prop} {m : List (Str × Doc F)}
    {b : RawConfig F} (h : yamlBlueprint cx (.obj m) = .ok b) {k : Str} {w : Doc F}
    (hn : (m.map (·.1)).Nodup) (hm : (k, w) ∈ m)
    {f : Doc F → RawConfig F → Outcome Err (RawConfig F)} (hget : get? (yamlTop cx) k = some f)
    (hf : ∀ s s', f w s = .ok s' → P s')
    (hv : ∀ s a, P s → "version".toList ≠ k → P { s with version := a })
    (ht : ∀ s a, P s → "transform".toList ≠ k → P { s with transform := a })
    (hva : ∀ s a, P s → "variables".toList ≠ k → P { s with variables := a })
    (hr : ∀ s a, P s → "resources".toList ≠ k → P { s with resources := a })
    (hme : ∀ s a, P s → "metadata".toList ≠ k → P { s with metadata := a }) : P b := by
  obtain ⟨b', hb, h⟩ := bind_eq_ok h
  obtain ⟨_, _, h⟩ := bind_eq_ok h
  obtain ⟨_, _, h⟩ := bind_eq_ok h
  cases h
  refine fill_slot (P := P) hget hf ?_ (nodup_unique hn hm) (.inr ⟨_, hm, rfl⟩) hb
  intro g hg hk v s s' hs h
  simp only [yamlTop, List.mem_cons, List.not_mem_nil, or_false] at hg
  rcases hg with rfl | rfl | rfl | rfl | rfl
  · cases v with
    | str t =>
      dsimp only at h
      split at h
      · cases h; exact hv _ _ hs hk
      · cases h
    | _ => cases h; exact hs
  · cases v with
    | str t => cases h; exact ht _ _ hs hk
    | _ => cases h; exact hs
  · cases v with
    | obj m =>
      obtain ⟨a, _, h⟩ := bind_eq_ok h
      cases h
      exact hva _ _ hs hk
    | _ => cases h; exact hs
  · cases v with
    | obj m =>
      obtain ⟨a, _, h⟩ := bind_eq_ok h
      cases h
      exact hr _ _ hs hk
    | _ => cases h; exact hs
  · cases v with
    | obj m =>
      refine fill_inv (P := P) ?_ hs h
      intro f hf v s s' hs h
      simp only [List.mem_singleton] at hf
      subst hf
      cases v with
      | obj m =>
        obtain ⟨a, _, h⟩ := bind_eq_ok h
        cases h
        exact hme _ _ hs hk
      | _ => cases h; exact hs
    | _ => cases h; exact hs

theorem readVec_strs (l : List Str) : readVec (F := F) readStr (.arr (l.map .str)) = .ok l := by
  unfold readVec
  dsimp only
  induction l with
  | nil => rfl
  | cons s l ih => simp only [List.map_cons, fillVec, ih, keep, readStr, Outcome.bind_ok,
      Outcome.pure_eq, Option.toList_some, List.singleton_append]

theorem jsonTransform_texts {d : Doc F} {l : List Str} (h : Transforms d l) :
    jsonTransform d = .ok l := by
  cases h with
  | one s => rfl
  | many l => exact readVec_strs l

/-- The names of a mapping all of whose entries are kept. -/
theorem fillMap_names {A : Type} {r : Doc F → Outcome Err (Option A)} {m : List (Str × Doc F)}
    (hn : (m.map (·.1)).Nodup) (hr : ∀ e ∈ m, ∀ o, r e.2 = .ok o → o.isSome = true)
    {res : List (Str × A)} (h : fillMap r m [] = .ok res) :
    res.map (·.1) = m.map (·.1) := by
  have hk := fillMap_kinds (r := r) (kind := fun _ => some ()) (proj := fun _ : A => ())
    (fun e he o ho => by
      have := hr e he o ho
      cases o with
      | none => cases this
      | some a => rfl) hn (List.forall_mem_nil _) h
  have hk := congrArg (List.map (·.1)) hk
  simpa [List.map_map, List.filterMap_eq_map, Function.comp_def] using hk

theorem keep_isSome {A : Type} {r : Doc F → Outcome Err A} {v : Doc F} {o : Option A}
    (h : keep r v = .ok o) : o.isSome = true := by
  obtain ⟨a, _, rfl⟩ := keep_ok h
  rfl

end Verif.Blueprint
