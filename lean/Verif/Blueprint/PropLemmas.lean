import Verif.Blueprint.AgreeTop

/-!
# Lemmas for the property theorems: no panics, skipped entries, order of fields
-/

namespace Verif.Blueprint

open Verif Verif.Subst Spec

variable {F : Type} (cx : Ctx F) (env : Env)

/-! ## Panics -/

theorem liftResolve_no_panic {A : Type} {x : Res A} (h : x ≠ .panic) : liftResolve x ≠ .panic := by
  cases x with
  | panic => exact absurd rfl h
  | _ => simp [liftResolve]

theorem bind_no_panic {E A B : Type} {a : Outcome E A} {f : A → Outcome E B} (ha : a ≠ .panic)
    (hf : ∀ x, a = .ok x → f x ≠ .panic) : (a >>= f) ≠ .panic := by
  cases a with
  | ok x => exact hf x rfl
  | err e => simp [Outcome.bind_err]
  | panic => exact absurd rfl ha

theorem rel_no_panic {A : Type} {R : A → A → Prop} {a : Outcome Err A} (h : Rel R a a) :
    a ≠ .panic := by
  rcases Rel.cases h with ⟨x, _, hx, _⟩ | ⟨hx, _⟩ <;> simp [hx]

theorem require_no_panic (b : Bool) : require b ≠ .panic := by cases b <;> simp [require]

theorem resBlueprint_no_panic {a : Outcome Err (RawConfig F)} (h : Rel (ConfigRel cx) a a)
    {b : RawConfig F} (hb : a = .ok b) : resBlueprint cx env b ≠ .panic := by
  subst hb
  exact (resBlueprint_same cx env (s := b) (t := b) h).2

/-! ## Values that make no difference -/

theorem fill_value {S : Type} {T : List (Field F S)} {k : Str} {v w : Doc F}
    (h : ∀ f, get? T k = some f → f v = f w) (st : Bool) (pre post : List (Str × Doc F)) (s : S) :
    fill st T (pre ++ (k, v) :: post) s = fill st T (pre ++ (k, w) :: post) s := by
  induction pre generalizing s with
  | nil =>
    simp only [List.nil_append, fill]
    cases hf : get? T k with
    | none => rfl
    | some f => dsimp only; rw [h f hf]
  | cons e pre ih => simp only [List.cons_append, fill, ih]

theorem fillMap_none {A : Type} {r : Doc F → Outcome Err (Option A)} {v : Doc F}
    (h : r v = .ok none) (k : Str) (pre post : List (Str × Doc F)) (acc : List (Str × A)) :
    fillMap r (pre ++ (k, v) :: post) acc = fillMap r (pre ++ post) acc := by
  induction pre generalizing acc with
  | nil => simp only [List.nil_append, fillMap, h, Outcome.bind_ok]
  | cons e pre ih => simp only [List.cons_append, fillMap, ih]

theorem fillMap_value {A : Type} {r : Doc F → Outcome Err (Option A)} {v w : Doc F}
    (h : r v = r w) (k : Str) (pre post : List (Str × Doc F)) (acc : List (Str × A)) :
    fillMap r (pre ++ (k, v) :: post) acc = fillMap r (pre ++ (k, w) :: post) acc := by
  induction pre generalizing acc with
  | nil => simp only [List.nil_append, fillMap, h]
  | cons e pre ih => simp only [List.cons_append, fillMap, ih]

theorem countKey_value (k : Str) (v w : Doc F) (pre post : List (Str × Doc F)) (j : Str) :
    countKey (pre ++ (k, v) :: post) j = countKey (pre ++ (k, w) :: post) j := by
  simp only [countKey, List.filter_append, List.filter_cons, List.length_append]
  split <;> simp

theorem jsonStruct_value {S : Type} {T : List (Field F S)} {rq : List Str} {k : Str} {v w : Doc F}
    (h : ∀ f, get? T k = some f → f v = f w) (pre post : List (Str × Doc F)) (s : S) :
    jsonStruct T rq s (.obj (pre ++ (k, v) :: post)) =
      jsonStruct T rq s (.obj (pre ++ (k, w) :: post)) := by
  unfold jsonStruct
  simp only [structEntries, Outcome.bind_ok, countKey_value k v w, fill_value h]

theorem yamlTop_resources : get? (yamlTop cx) "resources".toList = some (fun v s =>
    match v with
    | .obj m => do
      let a ← fillMap (yamlResourceEntry cx) m []
      pure { s with resources := a }
    | _ => .ok s) := rfl

/-- The YAML reader only looks at what the entries of the resources are read as. -/
theorem yamlBlueprint_resources {r r' : List (Str × Doc F)}
    (h : fillMap (yamlResourceEntry cx) r [] = fillMap (yamlResourceEntry cx) r' [])
    (pre post : List (Str × Doc F)) :
    yamlBlueprint cx (.obj (pre ++ ("resources".toList, .obj r) :: post)) =
      yamlBlueprint cx (.obj (pre ++ ("resources".toList, .obj r') :: post)) := by
  unfold yamlBlueprint
  dsimp only
  rw [fill_value (w := .obj r')]
  intro f hf
  rw [yamlTop_resources] at hf
  cases hf
  funext s
  dsimp only
  rw [h]

/-- The JSON reader only looks at what the entries of the resources are read as. -/
theorem jsonBlueprint_resources {r r' : List (Str × Doc F)}
    (h : fillMap (jsonResourceEntry cx) r [] = fillMap (jsonResourceEntry cx) r' [])
    (pre post : List (Str × Doc F)) :
    jsonBlueprint cx (.obj (pre ++ ("resources".toList, .obj r) :: post)) =
      jsonBlueprint cx (.obj (pre ++ ("resources".toList, .obj r') :: post)) := by
  unfold jsonBlueprint
  refine jsonStruct_value (fun f hf => ?_) pre post _
  have hf' : some (fun (v : Doc F) (s : RawConfig F) =>
      readObj (fun m => fillMap (jsonResourceEntry cx) m []) v >>= fun a =>
        Pure.pure { s with resources := a }) = some f := hf
  cases hf'
  funext s
  simp only [readObj, h]

/-! ## Order of fields -/

theorem get?_perm {A : Type} {m m' : List (Str × A)} (hp : m.Perm m') (hn : (m.map (·.1)).Nodup)
    (k : Str) : get? m k = get? m' k := by
  induction hp with
  | nil => rfl
  | cons e _ ih =>
    rw [show e = (e.1, e.2) from rfl, get?_cons, get?_cons,
      ih (by rw [List.map_cons, List.nodup_cons] at hn; exact hn.2)]
  | swap a b l =>
    rw [List.map_cons, List.nodup_cons] at hn
    have : b.1 ≠ a.1 := fun h => hn.1 (by rw [h]; simp)
    exact get?_swap this ..
  | trans h1 _ ih1 ih2 => rw [ih1 hn, ih2 ((h1.map _).nodup_iff.1 hn)]

/-- An action without panics and with one error only. -/
def TameField {S : Type} (f : Doc F → S → Outcome Err S) : Prop :=
  ∀ v s, (∃ s', f v s = .ok s') ∨ f v s = .err .format

theorem Tame.field {S A : Type} {r : Doc F → Outcome Err A} (h : Tame r) (set : S → A → S) :
    TameField (fun v s => r v >>= fun a => Pure.pure (set s a)) := by
  intro v s
  rcases h v with ⟨a, ha⟩ | ha
  · exact .inl ⟨set s a, by simp only [ha, Outcome.bind_ok, Outcome.pure_eq]⟩
  · exact .inr (by simp only [ha, Outcome.bind_err])

/-- The order of entries does not matter when the actions commute. -/
theorem fill_perm {S : Type} {T : List (Field F S)} {st : Bool} {m m' : List (Str × Doc F)}
    (hp : m.Perm m') (hn : (m.map (·.1)).Nodup)
    (ht : ∀ e ∈ m, ∀ f, get? T e.1 = some f → TameField f)
    (hc : ∀ e ∈ m, ∀ e' ∈ m, e.1 ≠ e'.1 → ∀ f g, get? T e.1 = some f → get? T e'.1 = some g →
      Comm f g) (s : S) : fill st T m s = fill st T m' s := by
  induction hp generalizing s with
  | nil => rfl
  | @cons e m m' _ ih =>
    have ih := fun s => ih (nodup_tail hn) (fun e he => ht e (List.mem_cons_of_mem _ he))
      (fun e he e' he' => hc e (List.mem_cons_of_mem _ he) e' (List.mem_cons_of_mem _ he')) s
    simp only [fill, ih]
  | swap a b l =>
    have hne : b.1 ≠ a.1 := by
      rw [List.map_cons, List.nodup_cons] at hn
      exact fun h => hn.1 (by rw [h]; simp)
    have hb : b ∈ b :: a :: l := List.mem_cons_self ..
    have ha : a ∈ b :: a :: l := List.mem_cons_of_mem _ (List.mem_cons_self ..)
    simp only [fill]
    cases hg : get? T b.1 with
    | none =>
      cases hf : get? T a.1 with
      | none => rfl
      | some f =>
        cases st with
        | false => rfl
        | true =>
          simp only [if_true]
          rcases ht a ha f hf a.2 s with ⟨x, hx⟩ | hx
          · rw [hx]; rfl
          · rw [hx]; rfl
    | some g =>
      cases hf : get? T a.1 with
      | none =>
        cases st with
        | false => rfl
        | true =>
          simp only [if_true]
          rcases ht b hb g hg b.2 s with ⟨x, hx⟩ | hx
          · rw [hx]; rfl
          · rw [hx]; rfl
      | some f =>
        dsimp only
        have := hc b hb a ha hne g f hg hf b.2 a.2 s
        calc _ = ((g b.2 s >>= f a.2) >>= fill st T l) := by cases g b.2 s <;> rfl
          _ = ((f a.2 s >>= g b.2) >>= fill st T l) := by rw [this]
          _ = _ := by cases f a.2 s <;> rfl
  | trans h1 _ ih1 ih2 =>
    rw [ih1 hn ht hc]
    exact ih2 ((h1.map _).nodup_iff.1 hn) (fun e he => ht e (h1.mem_iff.2 he))
      (fun e he e' he' => hc e (h1.mem_iff.2 he) e' (h1.mem_iff.2 he')) s

/-- Fields that are read and stored, and do so in different places. -/
theorem comm_pairs {S : Type} {T : List (Field F S)}
    (h : T.Pairwise fun a b => Comm a.2 b.2) {k k' : Str} (hne : k ≠ k')
    {f g : Doc F → S → Outcome Err S} (hf : get? T k = some f) (hg : get? T k' = some g) :
    Comm f g := by
  have sym : ∀ {f g : Doc F → S → Outcome Err S}, Comm f g → Comm g f :=
    fun h v w s => (h w v s).symm
  induction T with
  | nil => cases hf
  | cons a T ih =>
    rw [List.pairwise_cons] at h
    obtain ⟨n, x⟩ := a
    rw [get?_cons] at hf hg
    by_cases h1 : n = k
    · rw [if_pos h1] at hf
      rw [if_neg (by rw [h1]; exact hne)] at hg
      cases hf
      exact h.1 _ (get?_mem hg)
    · rw [if_neg h1] at hf
      by_cases h2 : n = k'
      · rw [if_pos h2] at hg
        cases hg
        exact sym (h.1 _ (get?_mem hf))
      · rw [if_neg h2] at hg
        exact ih h.2 hf hg

theorem yamlResTable_comm (t : RType) :
    (yamlResTable cx t).Pairwise fun a b => Comm a.2 b.2 := by
  have h1 := Tame.of (readObj_self (yamlMeta_self cx))
  have h2 := Tame.of (readObj_self (yamlSpec_self cx t))
  have h3 := Tame.of (readStr_self (F := F))
  have h4 := Tame.of (readObj_self (yamlLinkSelector_self (F := F)))
  simp only [yamlResTable, fld, List.pairwise_cons, List.forall_mem_cons, List.not_mem_nil,
    false_imp_iff, implies_true, and_true, List.Pairwise.nil]
  exact ⟨⟨comm_fld h1 h2 fun _ _ _ => rfl, comm_fld h1 h3 fun _ _ _ => rfl,
    comm_fld h1 h4 fun _ _ _ => rfl⟩, ⟨comm_fld h2 h3 fun _ _ _ => rfl,
    comm_fld h2 h4 fun _ _ _ => rfl⟩, comm_fld h3 h4 fun _ _ _ => rfl⟩

theorem yamlResTable_tame (t : RType) : ∀ f ∈ yamlResTable cx t, TameField f.2 := by
  have h1 := Tame.of (readObj_self (yamlMeta_self cx))
  have h2 := Tame.of (readObj_self (yamlSpec_self cx t))
  have h3 := Tame.of (readStr_self (F := F))
  have h4 := Tame.of (readObj_self (yamlLinkSelector_self (F := F)))
  simp only [yamlResTable, fld, List.forall_mem_cons, List.not_mem_nil,
    false_imp_iff, implies_true, and_true]
  exact ⟨h1.field _, h2.field _, h3.field _, h4.field _⟩

theorem yamlResourceEntry_perm {m m' : List (Str × Doc F)} (hp : m.Perm m')
    (hn : (m.map (·.1)).Nodup) : yamlResourceEntry cx (.obj m) = yamlResourceEntry cx (.obj m') := by
  have h : yamlResource cx m = yamlResource cx m' := by
    unfold yamlResource
    rw [get?_perm hp hn]
    cases get? m' "type".toList with
    | none => rfl
    | some tv =>
      dsimp only
      congr 1
      funext ts
      congr 1
      funext t
      rw [fill_perm hp hn (fun e _ f hf => yamlResTable_tame cx t _ (get?_mem hf))
        (fun e _ e' _ hne f g hf hg => comm_pairs (yamlResTable_comm cx t) hne hf hg)]
  simp only [yamlResourceEntry, h]

/-! ## Order of fields in JSON -/

/-- A field of a resource read by `r`, which may look at the type, and stored in a slot that must
still be free. -/
structure Slot (f : Doc F → JRes F → Outcome Err (JRes F)) {A : Type}
    (free : JRes F → Bool) (r : Option RType → Doc F → Outcome Err A)
    (set : JRes F → A → JRes F) : Prop where
  eq : ∀ v s, f v s = if free s then r s.type v >>= fun a => Pure.pure (set s a) else .err .format
  tame : ∀ t, Tame (r t)
  type : ∀ s a, (set s a).type = s.type
  unsupported : ∀ s a, (set s a).unsupported = s.unsupported

/-- The action of a field that is skipped for unsupported types. -/
def skipField (f : Doc F → JRes F → Outcome Err (JRes F)) :
    Doc F → JRes F → Outcome Err (JRes F) :=
  fun v s => if s.unsupported then .ok s else f v s

theorem Slot.tameField {f : Doc F → JRes F → Outcome Err (JRes F)} {A : Type}
    {free : JRes F → Bool} {r : Option RType → Doc F → Outcome Err A} {set : JRes F → A → JRes F}
    (h : Slot f free r set) : TameField (skipField f) := by
  intro v s
  unfold skipField
  split
  · exact .inl ⟨s, rfl⟩
  · rw [h.eq]
    split
    · rcases h.tame s.type v with ⟨a, ha⟩ | ha
      · exact .inl ⟨set s a, by rw [ha]; rfl⟩
      · exact .inr (by rw [ha]; rfl)
    · exact .inr rfl

theorem Slot.comm {f g : Doc F → JRes F → Outcome Err (JRes F)} {A B : Type}
    {free free' : JRes F → Bool} {r : Option RType → Doc F → Outcome Err A}
    {r' : Option RType → Doc F → Outcome Err B} {set : JRes F → A → JRes F}
    {set' : JRes F → B → JRes F} (hf : Slot f free r set) (hg : Slot g free' r' set')
    (h1 : ∀ s b, free (set' s b) = free s) (h2 : ∀ s a, free' (set s a) = free' s)
    (h3 : ∀ s a b, set' (set s a) b = set (set' s b) a) : Comm (skipField f) (skipField g) := by
  intro v w s
  unfold skipField
  cases hu : s.unsupported with
  | true => simp only [if_true, Outcome.bind_ok, hu]
  | false =>
    simp only [Bool.false_eq_true, if_false, hf.eq, hg.eq]
    rcases hf.tame s.type v with ⟨a, ha⟩ | ha <;> rcases hg.tame s.type w with ⟨b, hb⟩ | hb <;>
      cases hfr : free s <;> cases hfr' : free' s <;>
      simp [ha, hb, hfr, hfr', h1, h2, h3, hf.type, hg.type, hf.unsupported, hg.unsupported, hu,
        Outcome.bind_ok, Outcome.bind_err, Outcome.pure_eq]

theorem slot_metadata : Slot (F := F)
    (fun v s => jsonMeta cx v >>= fun a => Pure.pure { s with metadata := a })
    (fun _ => true) (fun _ => jsonMeta cx) (fun s a => { s with metadata := a }) :=
  ⟨fun _ _ => rfl, fun _ => Tame.of (jsonMeta_self cx), fun _ _ => rfl, fun _ _ => rfl⟩

theorem slot_spec : Slot (F := F) (jsonResSpec cx) (fun s => s.spec.isNone)
    (fun t v => match t with
      | some t => jsonSpec cx t v
      | none => .err .format) (fun s a => { s with spec := some a }) := by
  refine ⟨fun v s => ?_, fun t => ?_, fun _ _ => rfl, fun _ _ => rfl⟩
  · unfold jsonResSpec
    cases s.spec with
    | some => rfl
    | none => cases s.type <;> rfl
  · cases t with
    | none => exact fun _ => .inr rfl
    | some t => exact Tame.of (jsonSpec_self cx t)

theorem slot_description : Slot (F := F)
    (fun v s => if s.description.isSome then .err .format
      else readStr v >>= fun a => Pure.pure { s with description := some a })
    (fun s => s.description.isNone) (fun _ => readStr)
    (fun s a => { s with description := some a }) := by
  refine ⟨fun v s => ?_, fun _ => Tame.of readStr_self, fun _ _ => rfl, fun _ _ => rfl⟩
  cases s.description <;> rfl

theorem slot_linkSelector : Slot (F := F)
    (fun v s => if s.linkSelector.isSome then .err .format
      else jsonLinkSelector v >>= fun a => Pure.pure { s with linkSelector := some a })
    (fun s => s.linkSelector.isNone) (fun _ => jsonLinkSelector)
    (fun s a => { s with linkSelector := some a }) := by
  refine ⟨fun v s => ?_, fun _ => Tame.of jsonLinkSelector_self, fun _ _ => rfl, fun _ _ => rfl⟩
  cases s.linkSelector <;> rfl

/-- The fields of a resource but for its type. -/
abbrev jsonResRest : List (Field F (JRes F)) :=
  [("metadata".toList, skipField fun v s =>
      jsonMeta cx v >>= fun a => Pure.pure { s with metadata := a }),
   ("spec".toList, skipField (jsonResSpec cx)),
   ("description".toList, skipField fun v s => if s.description.isSome then .err .format
      else readStr v >>= fun a => Pure.pure { s with description := some a }),
   ("linkSelector".toList, skipField fun v s => if s.linkSelector.isSome then .err .format
      else jsonLinkSelector v >>= fun a => Pure.pure { s with linkSelector := some a })]

theorem skipFields_eq : skipFields (jsonResTable cx) =
    ("type".toList, skipField jsonResType) :: jsonResRest cx := rfl

theorem jsonResRest_comm : (jsonResRest cx).Pairwise fun a b => Comm a.2 b.2 := by
  simp only [jsonResRest, List.pairwise_cons, List.forall_mem_cons, List.not_mem_nil,
    false_imp_iff, implies_true, and_true, List.Pairwise.nil]
  exact ⟨⟨(slot_metadata cx).comm (slot_spec cx) (fun _ _ => rfl) (fun _ _ => rfl) (fun _ _ _ => rfl),
    (slot_metadata cx).comm slot_description (fun _ _ => rfl) (fun _ _ => rfl) (fun _ _ _ => rfl),
    (slot_metadata cx).comm slot_linkSelector (fun _ _ => rfl) (fun _ _ => rfl) (fun _ _ _ => rfl)⟩,
    ⟨(slot_spec cx).comm slot_description (fun _ _ => rfl) (fun _ _ => rfl) (fun _ _ _ => rfl),
    (slot_spec cx).comm slot_linkSelector (fun _ _ => rfl) (fun _ _ => rfl) (fun _ _ _ => rfl)⟩,
    slot_description.comm slot_linkSelector (fun _ _ => rfl) (fun _ _ => rfl) (fun _ _ _ => rfl)⟩

theorem jsonResRest_tame : ∀ f ∈ jsonResRest cx, TameField f.2 := by
  simp only [jsonResRest, List.forall_mem_cons, List.not_mem_nil,
    false_imp_iff, implies_true, and_true]
  exact ⟨(slot_metadata cx).tameField, (slot_spec cx).tameField, slot_description.tameField,
    slot_linkSelector.tameField⟩

/-- When the type comes first the order of the other fields does not matter. -/
theorem jsonResourceEntry_perm {t : Doc F} {m m' : List (Str × Doc F)} (hp : m.Perm m')
    (hn : ((("type".toList, t) :: m).map (·.1)).Nodup) :
    jsonResourceEntry cx (.obj (("type".toList, t) :: m)) =
      jsonResourceEntry cx (.obj (("type".toList, t) :: m')) := by
  rw [List.map_cons, List.nodup_cons] at hn
  have hne : ∀ e ∈ m, "type".toList ≠ e.1 := fun e he h => hn.1 (h ▸ List.mem_map.2 ⟨e, he, rfl⟩)
  have hget : ∀ e ∈ m, ∀ f, get? (skipFields (jsonResTable cx)) e.1 = some f →
      get? (jsonResRest cx) e.1 = some f := by
    intro e he f hf
    rw [skipFields_eq, get?_cons, if_neg (hne e he)] at hf
    exact hf
  have h : ∀ s, fill true (skipFields (jsonResTable cx)) m s =
      fill true (skipFields (jsonResTable cx)) m' s :=
    fill_perm hp hn.2 (fun e he f hf => jsonResRest_tame cx _ (get?_mem (hget e he f hf)))
      (fun e he e' he' hne f g hf hg =>
        comm_pairs (jsonResRest_comm cx) hne (hget e he f hf) (hget e' he' g hg))
  simp only [jsonResourceEntry, jsonResource, fill, h]

/-! ## What becomes of one field -/

theorem fill_slot {S : Type} {P : S → Prop} {T : List (Field F S)} {k : Str} {w : Doc F}
    {f : Doc F → S → Outcome Err S} (hget : get? T k = some f)
    (hf : ∀ s s', f w s = .ok s' → P s')
    (hothers : ∀ g ∈ T, g.1 ≠ k → ∀ v s s', P s → g.2 v s = .ok s' → P s') {st : Bool}
    {m : List (Str × Doc F)} (hu : ∀ e ∈ m, e.1 = k → e.2 = w) {s s' : S}
    (hin : P s ∨ ∃ e ∈ m, e.1 = k) (h : fill st T m s = .ok s') : P s' := by
  induction m generalizing s with
  | nil =>
    cases h
    rcases hin with h | ⟨e, he, _⟩
    · exact h
    · cases he
  | cons e m ih =>
    have hu' : ∀ e ∈ m, e.1 = k → e.2 = w := fun e he => hu e (List.mem_cons_of_mem _ he)
    have later : e.1 ≠ k → P s ∨ ∃ e ∈ m, e.1 = k := by
      intro hk
      rcases hin with h | ⟨x, hx, hxk⟩
      · exact .inl h
      · rcases List.mem_cons.1 hx with rfl | hx
        · exact absurd hxk hk
        · exact .inr ⟨x, hx, hxk⟩
    simp only [fill] at h
    by_cases hk : e.1 = k
    · rw [hk, hget, hu e (List.mem_cons_self ..) hk] at h
      obtain ⟨s1, h1, h⟩ := bind_eq_ok h
      exact ih hu' (.inl (hf _ _ h1)) h
    · cases hg : get? T e.1 with
      | none =>
        rw [hg] at h
        cases st
        · exact ih hu' (later hk) h
        · cases h
      | some g =>
        rw [hg] at h
        obtain ⟨s1, h1, h⟩ := bind_eq_ok h
        refine ih hu' ?_ h
        rcases later hk with hp | hx
        · exact .inl (hothers _ (get?_mem hg) hk _ _ _ hp h1)
        · exact .inr hx

theorem nodup_unique {m : List (Str × Doc F)} (hn : (m.map (·.1)).Nodup) {k : Str} {w : Doc F}
    (hw : (k, w) ∈ m) : ∀ e ∈ m, e.1 = k → e.2 = w := by
  induction m with
  | nil => cases hw
  | cons x m ih =>
    rw [List.map_cons, List.nodup_cons] at hn
    intro e he hk
    rcases List.mem_cons.1 hw with rfl | hw' <;> rcases List.mem_cons.1 he with rfl | he'
    · rfl
    · exact absurd (List.mem_map.2 ⟨e, he', hk⟩) hn.1
    · exact absurd (List.mem_map.2 ⟨_, hw', hk.symm⟩) hn.1
    · exact ih hn.2 hw' e he' hk

theorem get?_lookup {A : Type} (m : List (Str × A)) (k : Str) : get? m k = m.lookup k := by
  induction m with
  | nil => rfl
  | cons e m ih =>
    obtain ⟨k', a⟩ := e
    rw [get?_cons, List.lookup_cons, ih]
    by_cases h : k' = k
    · subst h; simp
    · have : (k == k') = false := by simpa using fun h' => h h'.symm
      rw [if_neg h, this]

theorem get?_unique {m : List (Str × Doc F)} (hn : (m.map (·.1)).Nodup) {k : Str} {w : Doc F}
    (hw : (k, w) ∈ m) : get? m k = some w := by
  obtain ⟨a, ha, hm⟩ := get?_some (k := k) ⟨_, hw, rfl⟩
  have h : a = w := nodup_unique hn hw _ hm rfl
  rw [ha, h]

theorem hmInsert_new {A : Type} {m : List (Str × A)} {k : Str} (h : ∀ e ∈ m, e.1 ≠ k) (a : A) :
    hmInsert m k a = m ++ [(k, a)] := by
  unfold hmInsert
  rw [List.filter_eq_self.2 fun e he => by simp [h e he]]

/-- What a mapping is read as, entry by entry. -/
theorem fillMap_kinds {A K : Type} {r : Doc F → Outcome Err (Option A)} {kind : Doc F → Option K}
    {proj : A → K} {m : List (Str × Doc F)}
    (hr : ∀ e ∈ m, ∀ o, r e.2 = .ok o → o.map proj = kind e.2)
    (hn : (m.map (·.1)).Nodup) {acc res : List (Str × A)}
    (hd : ∀ e ∈ acc, e.1 ∉ m.map (·.1)) (h : fillMap r m acc = .ok res) :
    res.map (fun e => (e.1, proj e.2)) = acc.map (fun e => (e.1, proj e.2)) ++
      m.filterMap fun e => (kind e.2).map fun t => (e.1, t) := by
  induction m generalizing acc with
  | nil => cases h; simp
  | cons e m ih =>
    obtain ⟨k, v⟩ := e
    rw [List.map_cons, List.nodup_cons] at hn
    have ih := fun {acc} => @ih (fun e he => hr e (List.mem_cons_of_mem _ he)) hn.2 acc
    simp only [fillMap] at h
    obtain ⟨o, ho, h⟩ := bind_eq_ok h
    have hk := hr _ (List.mem_cons_self ..) o ho
    dsimp only at hk
    have hd' : ∀ e ∈ acc, e.1 ∉ m.map (·.1) := fun e he hm =>
      hd e he (by rw [List.map_cons]; exact List.mem_cons_of_mem _ hm)
    cases o with
    | none =>
      rw [ih hd' h, List.filterMap_cons]
      simp [← hk]
    | some a =>
      have hnew : ∀ e ∈ acc, e.1 ≠ k := fun e he hek => hd e he (by simp [hek])
      dsimp only at h
      rw [hmInsert_new hnew] at h
      rw [ih ?_ h, List.filterMap_cons]
      · simp [← hk]
      · intro e he
        rcases List.mem_append.1 he with he | he
        · exact hd' e he
        · rw [List.mem_singleton] at he
          subst he
          exact hn.1

/-! ## The types of loaded resources -/

theorem yamlResource_fill_self (rt : RType) (m : List (Str × Doc F)) :
    Rel (ResourceRel cx)
      (fill false (yamlResTable cx rt) m { type := rt, metadata := { displayName := [] } })
      (fill false (yamlResTable cx rt) m { type := rt, metadata := { displayName := [] } }) :=
  fill_self (by unfold yamlResTable; table) _ _ ⟨rfl, by initial, rfl, rfl, trivial⟩

theorem yamlResourceEntry_kind {v : Doc F} {o : Option (RawResource F)}
    (h : yamlResourceEntry cx v = .ok o) : o.map (fun r => r.type.name) =
      kindOf ["celerity/handler", "celerity/api", "celerity/consumer", "celerity/schedule",
        "celerity/handlerConfig", "celerity/workflow"] v := by
  cases v with
  | obj m =>
    simp only [yamlResourceEntry, yamlResource] at h
    unfold kindOf
    dsimp only
    rw [← get?_lookup]
    cases ht : get? m "type".toList with
    | none => rw [ht] at h; cases h
    | some tv =>
      rw [ht] at h
      cases tv with
      | str t =>
        simp only [readStr, Outcome.bind_ok] at h ⊢
        have hnames : (["celerity/handler", "celerity/api", "celerity/consumer",
            "celerity/schedule", "celerity/handlerConfig", "celerity/workflow"].map (·.toList)) =
            [RType.handler.name, RType.api.name, RType.consumer.name, RType.schedule.name,
              RType.handlerConfig.name, RType.workflow.name] := rfl
        rw [hnames]
        have hty : (t ∈ [RType.handler.name, RType.api.name, RType.consumer.name,
            RType.schedule.name, RType.handlerConfig.name, RType.workflow.name] ∧
              ∃ rt, yamlType t = .ok rt ∧ rt.name = t) ∨
            (t ∉ [RType.handler.name, RType.api.name, RType.consumer.name,
            RType.schedule.name, RType.handlerConfig.name, RType.workflow.name] ∧
              yamlType t = .err .unsupportedType) := by
          simp only [List.mem_cons, List.not_mem_nil, or_false, not_or]
          unfold yamlType
          by_cases h1 : t = RType.api.name
          · exact .inl ⟨.inr (.inl h1), _, if_pos h1, h1.symm⟩
          rw [if_neg h1]
          by_cases h2 : t = RType.consumer.name
          · exact .inl ⟨.inr (.inr (.inl h2)), _, if_pos h2, h2.symm⟩
          rw [if_neg h2]
          by_cases h3 : t = RType.schedule.name
          · exact .inl ⟨.inr (.inr (.inr (.inl h3))), _, if_pos h3, h3.symm⟩
          rw [if_neg h3]
          by_cases h4 : t = RType.handler.name
          · exact .inl ⟨.inl h4, _, if_pos h4, h4.symm⟩
          rw [if_neg h4]
          by_cases h5 : t = RType.handlerConfig.name
          · exact .inl ⟨.inr (.inr (.inr (.inr (.inl h5)))), _, if_pos h5, h5.symm⟩
          rw [if_neg h5]
          by_cases h6 : t = RType.workflow.name
          · exact .inl ⟨.inr (.inr (.inr (.inr (.inr h6)))), _, if_pos h6, h6.symm⟩
          rw [if_neg h6]
          exact .inr ⟨⟨h4, h1, h2, h3, h5, h6⟩, rfl⟩
        rcases hty with ⟨hin, rt, hrt, hname⟩ | ⟨hout, hun⟩
        · rw [if_pos hin]
          rw [hrt] at h
          simp only [Outcome.bind_ok] at h
          cases hfill : fill false (yamlResTable cx rt) m
              { type := rt, metadata := { displayName := [] } } with
          | ok r =>
            rw [hfill] at h
            have hr : r.type = rt := by
              refine fill_inv (P := fun r : RawResource F => r.type = rt) ?_ rfl hfill
              intro f hf v s s' hs h
              simp only [yamlResTable, List.mem_cons, List.not_mem_nil, or_false] at hf
              rcases hf with rfl | rfl | rfl | rfl <;> obtain ⟨a, _, h⟩ := bind_eq_ok h <;>
                cases h <;> exact hs
            simp only [Outcome.bind_ok] at h
            cases hq : r.spec.isSome with
            | true =>
              rw [hq] at h
              cases h
              simp [hr, hname]
            | false =>
              rw [hq] at h
              cases h
          | err e =>
            rw [hfill] at h
            rcases Rel.cases (yamlResource_fill_self cx rt m) with ⟨_, _, hx, _⟩ | ⟨hx, _⟩
            · rw [hfill] at hx; cases hx
            · rw [hfill] at hx
              cases hx
              cases h
          | panic =>
            rw [hfill] at h
            cases h
        · rw [if_neg hout]
          rw [hun] at h
          cases h
          rfl
      | _ => cases h
  | _ => cases h; rfl

/-- What the fields of a resource other than its type leave alone. -/
theorem jsonResRest_keeps {f : Field F (JRes F)} (hf : f ∈ jsonResRest cx) {v : Doc F}
    {s s' : JRes F} (h : f.2 v s = .ok s') : s'.type = s.type ∧ s'.unsupported = s.unsupported ∧
      (s.unsupported = false →
        s'.spec.isSome = (s.spec.isSome || decide (f.1 = "spec".toList))) := by
  have key : ∀ {A : Type} {g : Doc F → JRes F → Outcome Err (JRes F)} {free : JRes F → Bool}
      {r : Option RType → Doc F → Outcome Err A} {set : JRes F → A → JRes F},
      Slot g free r set → skipField g v s = .ok s' →
      (s.unsupported = true ∧ s' = s) ∨ ∃ a, s' = set s a := by
    intro A g free r set hs h
    unfold skipField at h
    split at h
    · next hu => cases h; exact .inl ⟨hu, rfl⟩
    · rw [hs.eq] at h
      split at h
      · obtain ⟨a, _, h⟩ := bind_eq_ok h
        cases h
        exact .inr ⟨a, rfl⟩
      · cases h
  have skipped : (s.unsupported = true ∧ s' = s) → s'.type = s.type ∧
      s'.unsupported = s.unsupported ∧ (s.unsupported = false →
        s'.spec.isSome = (s.spec.isSome || decide (f.1 = "spec".toList))) := by
    rintro ⟨hu, rfl⟩
    exact ⟨rfl, rfl, fun h => by rw [hu] at h; cases h⟩
  simp only [jsonResRest, List.mem_cons, List.not_mem_nil, or_false] at hf
  rcases hf with rfl | rfl | rfl | rfl
  · rcases key (slot_metadata cx) h with h | ⟨a, rfl⟩
    · exact skipped h
    · exact ⟨rfl, rfl, fun _ => (Bool.or_false _).symm⟩
  · rcases key (slot_spec cx) h with h | ⟨a, rfl⟩
    · exact skipped h
    · exact ⟨rfl, rfl, fun _ => (Bool.or_true _).symm⟩
  · rcases key slot_description h with h | ⟨a, rfl⟩
    · exact skipped h
    · exact ⟨rfl, rfl, fun _ => (Bool.or_false _).symm⟩
  · rcases key slot_linkSelector h with h | ⟨a, rfl⟩
    · exact skipped h
    · exact ⟨rfl, rfl, fun _ => (Bool.or_false _).symm⟩

/-- Fields without the type. -/
theorem jsonRes_fill_rest {m : List (Str × Doc F)} (hm : ∀ e ∈ m, e.1 ≠ "type".toList)
    {s s' : JRes F} (h : fill true (skipFields (jsonResTable cx)) m s = .ok s') :
    s'.type = s.type ∧ s'.unsupported = s.unsupported ∧ (s.unsupported = false →
        s'.spec.isSome = (s.spec.isSome || m.any fun e => decide (e.1 = "spec".toList))) := by
  induction m generalizing s with
  | nil => cases h; exact ⟨rfl, rfl, fun _ => (Bool.or_false _).symm⟩
  | cons e m ih =>
    simp only [fill] at h
    rw [skipFields_eq, get?_cons, if_neg (fun hk => hm e (List.mem_cons_self ..) hk.symm)] at h
    cases hf : get? (jsonResRest cx) e.1 with
    | none => rw [hf] at h; cases h
    | some f =>
      rw [hf] at h
      obtain ⟨s1, h1, h⟩ := bind_eq_ok h
      obtain ⟨a1, a2, a3⟩ := jsonResRest_keeps cx (get?_mem hf) h1
      obtain ⟨b1, b2, b3⟩ := ih (fun e he => hm e (List.mem_cons_of_mem _ he)) h
      refine ⟨b1.trans a1, b2.trans a2, fun hu => ?_⟩
      rw [b3 (a2.trans hu), a3 hu, List.any_cons, Bool.or_assoc]

/-- What is read of a resource whose type is a text. -/
theorem jsonRes_fill {m : List (Str × Doc F)} (hn : (m.map (·.1)).Nodup) {t : Str}
    (ht : ("type".toList, .str t) ∈ m) {s s' : JRes F} (hs : s.type = none)
    (hu : s.unsupported = false)
    (h : fill true (skipFields (jsonResTable cx)) m s = .ok s') :
    (typeOfName t = none ∧ s'.unsupported = true) ∨
      ∃ rt, typeOfName t = some rt ∧ s'.type = some rt ∧ s'.unsupported = false ∧
        s'.spec.isSome = (s.spec.isSome || m.any fun e => decide (e.1 = "spec".toList)) := by
  induction m generalizing s with
  | nil => cases ht
  | cons e m ih =>
    have hn' := hn
    rw [List.map_cons, List.nodup_cons] at hn'
    simp only [fill] at h
    by_cases hk : e.1 = "type".toList
    · have he : e.2 = .str t := nodup_unique hn ht e (List.mem_cons_self ..) hk
      have hrest : ∀ e' ∈ m, e'.1 ≠ "type".toList := fun e' he' hk' =>
        hn'.1 (hk ▸ hk' ▸ List.mem_map.2 ⟨e', he', rfl⟩)
      rw [skipFields_eq, get?_cons, if_pos hk.symm, he, ← skipFields_eq] at h
      obtain ⟨s1, h1, h⟩ := bind_eq_ok h
      simp only [skipField, jsonResType, hu, hs, Option.isSome_none, Bool.false_eq_true,
        if_false] at h1
      obtain ⟨b1, b2, b3⟩ := jsonRes_fill_rest cx hrest h
      cases hty : typeOfName t with
      | none =>
        rw [hty] at h1
        cases h1
        exact .inl ⟨rfl, b2⟩
      | some rt =>
        rw [hty] at h1
        cases h1
        refine .inr ⟨rt, rfl, b1, b2, ?_⟩
        rw [b3 rfl, List.any_cons, hk]
        rfl
    · have ht' : ("type".toList, .str t) ∈ m := by
        rcases List.mem_cons.1 ht with h' | h'
        · exact absurd (h' ▸ rfl) hk
        · exact h'
      rw [skipFields_eq, get?_cons, if_neg (fun h' => hk h'.symm), ← skipFields_eq] at h
      cases hf : get? (jsonResRest cx) e.1 with
      | none => rw [hf] at h; cases h
      | some f =>
        rw [hf] at h
        obtain ⟨s1, h1, h⟩ := bind_eq_ok h
        obtain ⟨a1, a2, a3⟩ := jsonResRest_keeps cx (get?_mem hf) h1
        rcases ih hn'.2 ht' (a1.trans hs) (a2.trans hu) h with h | ⟨rt, h1, h2, h3, h4⟩
        · exact .inl h
        · refine .inr ⟨rt, h1, h2, h3, ?_⟩
          rw [h4, a3 hu, List.any_cons, Bool.or_assoc]

theorem typeOfName_some {t : Str} {rt : RType} (h : typeOfName t = some rt) : rt.name = t := by
  have := List.find?_some h
  simpa using this

theorem typeOfName_mem {t : Str} : (typeOfName t).isSome = true ↔ t ∈ typeNames.map (·.toList) := by
  have : typeNames.map (·.toList) = allTypes.map RType.name := rfl
  rw [this, List.mem_map]
  constructor
  · intro h
    cases ht : typeOfName t with
    | none => rw [ht] at h; cases h
    | some rt => exact ⟨rt, List.mem_of_find?_eq_some ht, typeOfName_some ht⟩
  · rintro ⟨rt, hm, rfl⟩
    unfold typeOfName
    rw [List.find?_isSome]
    exact ⟨rt, hm, by simp⟩

theorem jsonRes_fill_self (m : List (Str × Doc F)) :
    Rel (JResRel cx) (fill true (skipFields (jsonResTable cx)) m {})
      (fill true (skipFields (jsonResTable cx)) m {}) :=
  fill_self (skipFields_self cx (jsonResTable_self cx)) _ _ ⟨rfl, by initial, trivial, rfl, rfl, rfl⟩

theorem jsonResourceEntry_kind {v : Doc F} (hv : TextType v) {o : Option (RawResource F)}
    (h : jsonResourceEntry cx v = .ok o) :
    o.map (fun r => (r.type.name, r.spec.isSome)) =
      (kindOf typeNames v).map (fun t => (t, hasSpec v)) := by
  cases v with
  | null => cases h; rfl
  | obj m =>
    simp only [jsonResourceEntry] at h
    obtain ⟨hn, htext⟩ := hv
    unfold kindOf
    dsimp only
    rw [← get?_lookup]
    unfold jsonResource at h
    dsimp only at h
    have hself := jsonRes_fill_self cx m
    cases hfill : fill true (skipFields (jsonResTable cx)) m {} with
    | ok s =>
      rw [hfill] at h
      simp only [Outcome.bind_ok] at h
      by_cases hin : ∃ e ∈ m, e.1 = "type".toList
      · obtain ⟨w, hw, hmem⟩ := get?_some hin
        obtain ⟨t, rfl⟩ := htext w hmem
        rw [hw]
        dsimp only
        rcases jsonRes_fill cx hn hmem rfl rfl hfill with ⟨h1, h2⟩ | ⟨rt, h1, h2, h3, h4⟩
        · rw [h2] at h
          cases h
          rw [if_neg fun hc => by have := typeOfName_mem.2 hc; rw [h1] at this; cases this]
          rfl
        · rw [h3, h2] at h
          cases h
          rw [if_pos (typeOfName_mem.1 (by rw [h1]; rfl))]
          simp only [Option.map_some, typeOfName_some h1, h4, hasSpec]
          rfl
      · have hrest : ∀ e ∈ m, e.1 ≠ "type".toList := fun e he hk => hin ⟨e, he, hk⟩
        obtain ⟨b1, b2, _⟩ := jsonRes_fill_rest cx hrest hfill
        rw [b1, b2] at h
        cases h
    | err e =>
      rw [hfill] at h hself
      cases e <;> first | exact hself.elim | cases h
    | panic =>
      rw [hfill] at h
      cases h
  | _ => cases h

/-! ## Resolved resources -/

/-- Resolving keeps names and types, and drops what has no specification. -/
theorem resResources_kinds {m : List (Str × RawResource F)} {r : List (Str × ResResource F)}
    (h : resResources cx env m = .ok r) : r.map (fun e => (e.1, e.2.type.name)) =
      (m.filter fun e => e.2.spec.isSome).map fun e => (e.1, e.2.type.name) := by
  induction m generalizing r with
  | nil => cases h; rfl
  | cons e m ih =>
    obtain ⟨k, x⟩ := e
    simp only [resResources] at h
    obtain ⟨y, hy, h⟩ := bind_eq_ok h
    obtain ⟨ys, hys, h⟩ := bind_eq_ok h
    unfold resResource at hy
    obtain ⟨_, _, hy⟩ := bind_eq_ok hy
    obtain ⟨sp, hsp, hy⟩ := bind_eq_ok hy
    cases hy
    have hq : sp.isSome = x.spec.isSome := by
      cases hc : x.spec with
      | none => rw [hc] at hsp; cases hsp; rfl
      | some z =>
        rw [hc] at hsp
        obtain ⟨_, _, hsp⟩ := bind_eq_ok hsp
        cases hsp
        rfl
    dsimp only at h
    cases h
    rw [List.filter_cons, hq]
    dsimp only
    cases x.spec.isSome with
    | true => simp only [if_true, List.map_cons, ih hys]
    | false => simp only [Bool.false_eq_true, if_false, ih hys]

theorem resBlueprint_parts {b : RawConfig F} {c : ResConfig F} (h : resBlueprint cx env b = .ok c) :
    c.version = b.version ∧ c.transform = b.transform ∧ c.variables = b.variables ∧
      resResources cx env b.resources = .ok c.resources := by
  unfold resBlueprint at h
  obtain ⟨rs, hrs, h⟩ := bind_eq_ok h
  obtain ⟨md, _, h⟩ := bind_eq_ok h
  cases h
  exact ⟨rfl, rfl, rfl, hrs⟩

theorem fromYaml_parts {d : Doc F} {rest : List (Doc F)} {c : ResConfig F}
    (h : fromYaml cx env (d :: rest) = .ok c) :
    ∃ b, yamlBlueprint cx d = .ok b ∧ resBlueprint cx env b = .ok c := by
  obtain ⟨b, hb, h⟩ := bind_eq_ok h
  exact ⟨b, hb, liftResolve_ok h⟩

theorem fromJson_parts {d : Doc F} {c : ResConfig F} (h : fromJson cx env d = .ok c) :
    ∃ b, jsonBlueprint cx d = .ok b ∧ resBlueprint cx env b = .ok c ∧ validate c = .ok () := by
  obtain ⟨b, hb, h⟩ := bind_eq_ok h
  obtain ⟨x, hx, h⟩ := bind_eq_ok h
  obtain ⟨_, hv, h⟩ := bind_eq_ok h
  cases h
  exact ⟨b, hb, liftResolve_ok hx, hv⟩

theorem validate_parts {c : ResConfig F} (h : validate c = .ok ()) : c.resources ≠ [] ∧
    ∀ vs, c.variables = some vs → ∀ e ∈ vs, e.2.type ≠ [] := by
  unfold validate at h
  obtain ⟨_, h1, h2⟩ := bind_eq_ok h
  have h1 := require_ok h1
  have h2 := require_ok h2
  constructor
  · intro h; rw [h] at h1; cases h1
  · intro vs hvs e he ht
    rw [hvs] at h2
    have := List.all_eq_true.1 h2 e he
    rw [ht] at this
    cases this

/-- The resources read by the YAML reader. -/
theorem yamlBlueprint_fill {m : List (Str × Doc F)} (hn : (m.map (·.1)).Nodup)
    {rs : List (Str × Doc F)} (hm : ("resources".toList, .obj rs) ∈ m) {b : RawConfig F}
    (h : yamlBlueprint cx (.obj m) = .ok b) :
    fillMap (yamlResourceEntry cx) rs [] = .ok b.resources := by
  obtain ⟨b', hb, h⟩ := bind_eq_ok h
  obtain ⟨_, _, h⟩ := bind_eq_ok h
  obtain ⟨_, _, h⟩ := bind_eq_ok h
  cases h
  refine fill_slot (P := fun b : RawConfig F =>
    fillMap (yamlResourceEntry cx) rs [] = .ok b.resources) (yamlTop_resources cx) ?_ ?_
    (nodup_unique hn hm) (.inr ⟨_, hm, rfl⟩) hb
  · intro s s' h
    obtain ⟨a, ha, h⟩ := bind_eq_ok h
    cases h
    exact ha
  · intro g hg hk v s s' hs h
    simp only [yamlTop, List.mem_cons, List.not_mem_nil, or_false] at hg
    rcases hg with rfl | rfl | rfl | rfl | rfl
    · cases v with
      | str t =>
        dsimp only at h
        split at h
        · cases h; exact hs
        · cases h
      | _ => cases h; exact hs
    · cases v with
      | str t => cases h; exact hs
      | _ => cases h; exact hs
    · cases v with
      | obj m =>
        obtain ⟨a, _, h⟩ := bind_eq_ok h
        cases h
        exact hs
      | _ => cases h; exact hs
    · exact absurd rfl hk
    · cases v with
      | obj m =>
        refine fill_inv (P := fun b : RawConfig F =>
          fillMap (yamlResourceEntry cx) rs [] = .ok b.resources) ?_ hs h
        intro f hf v s s' hs h
        simp only [List.mem_singleton] at hf
        subst hf
        cases v with
        | obj m =>
          obtain ⟨a, _, h⟩ := bind_eq_ok h
          cases h
          exact hs
        | _ => cases h; exact hs
      | _ => cases h; exact hs

/-- A field of the JSON blueprint and what it is read as. -/
theorem jsonBlueprint_slot {P : RawConfig F → Prop} {m : List (Str × Doc F)}
    {b : RawConfig F} (h : jsonBlueprint cx (.obj m) = .ok b) {k : Str} {w : Doc F}
    (hn : (m.map (·.1)).Nodup) (hm : (k, w) ∈ m)
    {f : Doc F → RawConfig F → Outcome Err (RawConfig F)}
    (hget : get? [fld "version" jsonVersion (fun (s : RawConfig F) a => { s with version := a }),
     fld "transform" jsonTransform (fun s a => { s with transform := some a }),
     fld "variables" (jsonOpt (readMap (jsonVariable cx))) (fun s a => { s with variables := a }),
     fld "resources" (readObj (fun m => fillMap (jsonResourceEntry cx) m []))
       (fun s a => { s with resources := a }),
     fld "metadata" (jsonOpt (jsonBlueprintMeta cx)) (fun s a => { s with metadata := a })] k
      = some f)
    (hf : ∀ s s', f w s = .ok s' → P s')
    (hv : ∀ s a, P s → "version".toList ≠ k → P { s with version := a })
    (ht : ∀ s a, P s → "transform".toList ≠ k → P { s with transform := a })
    (hva : ∀ s a, P s → "variables".toList ≠ k → P { s with variables := a })
    (hr : ∀ s a, P s → "resources".toList ≠ k → P { s with resources := a })
    (hme : ∀ s a, P s → "metadata".toList ≠ k → P { s with metadata := a }) : P b := by
  unfold jsonBlueprint jsonStruct at h
  simp only [structEntries, Outcome.bind_ok] at h
  obtain ⟨_, _, h⟩ := bind_eq_ok h
  obtain ⟨_, _, h⟩ := bind_eq_ok h
  refine fill_slot hget hf ?_ (nodup_unique hn hm) (.inr ⟨_, hm, rfl⟩) h
  intro g hg hk v s s' hs h
  simp only [List.mem_cons, List.not_mem_nil, or_false] at hg
  rcases hg with rfl | rfl | rfl | rfl | rfl <;> obtain ⟨a, _, h⟩ := bind_eq_ok h <;> cases h
  · exact hv _ _ hs hk
  · exact ht _ _ hs hk
  · exact hva _ _ hs hk
  · exact hr _ _ hs hk
  · exact hme _ _ hs hk

/-! ## Lemmas for single properties -/

theorem jsonResourceEntry_foreign {t : Str} (ht : ∀ n ∈ typeNames, t ≠ n.toList)
    {m : List (Str × Doc F)} (hm : OnlyFields (resourceFields fun _ => True) m) :
    jsonResourceEntry cx (.obj (("type".toList, .str t) :: m)) = .ok none := by
  obtain ⟨_, hj⟩ := yamlType_unknown ht
  have hskip : ∀ m : List (Str × Doc F), OnlyFields (resourceFields fun _ => True) m →
      fill true (skipFields (jsonResTable cx)) m { unsupported := true } =
        .ok { unsupported := true } := by
    intro m ho
    induction m with
    | nil => rfl
    | cons e m ih =>
      have ih := ih fun e he => ho e (List.mem_cons_of_mem _ he)
      obtain ⟨f, hf, hk⟩ := ho e (List.mem_cons_self ..)
      simp only [resourceFields, List.mem_cons, List.not_mem_nil, or_false] at hf
      obtain ⟨k, v⟩ := e
      dsimp only at hk
      subst hk
      rcases hf with rfl | rfl | rfl | rfl <;> exact ih
  have hjfill : fill true (skipFields (jsonResTable cx)) (("type".toList, .str t) :: m) {} =
      .ok { unsupported := true } := by
    simp only [fill]
    rw [show get? (skipFields (jsonResTable cx)) "type".toList = some (fun v s =>
      if s.unsupported then .ok s else jsonResType v s) from rfl]
    simp only [jsonResType, hj, Option.isSome_none, Bool.false_eq_true, if_false, Outcome.bind_ok]
    exact hskip m hm
  simp only [jsonResourceEntry, jsonResource, hjfill, Outcome.bind_ok, if_true]

theorem resResources_all_specs {m : List (Str × RawResource F)} {r : List (Str × ResResource F)}
    (h : resResources cx env m = .ok r) : ∀ e ∈ r, e.2.spec.isSome = true := by
  induction m generalizing r with
  | nil => cases h; exact List.forall_mem_nil _
  | cons e m ih =>
    obtain ⟨k, x⟩ := e
    simp only [resResources] at h
    obtain ⟨y, _, h⟩ := bind_eq_ok h
    obtain ⟨rs, hrs, h⟩ := bind_eq_ok h
    cases h
    intro e he
    split at he
    · next hs =>
      rcases List.mem_cons.1 he with rfl | he
      · exact hs
      · exact ih hrs e he
    · exact ih hrs e he

end Verif.Blueprint
