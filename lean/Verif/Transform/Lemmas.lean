import Verif.Transform.Spec

namespace Verif.Transform

open Verif Verif.Subst

/-! ## Label selection -/

theorem labelFilter_iff {F : Type} (ty : ResourceType) (k v : Str) (r : Resource F) :
    labelFilter ty k v r = true ↔
      (∃ labels w, r.labels = some labels ∧ labels.lookup k = some w) ∧ r.resourceType = ty := by
  unfold labelFilter
  cases hl : r.labels with
  | none => simp
  | some labels =>
    cases hw : labels.lookup k <;> simp [hw]

theorem mem_selectResources {F : Type} (byLabel : List (Str × Str)) (bp : Blueprint F)
    (ty : ResourceType) (nr : Str × Resource F) :
    nr ∈ selectResources (some byLabel) bp ty ↔
      nr ∈ bp.resources ∧ nr.2.resourceType = ty ∧ Spec.HasLabelKey byLabel nr.2 := by
  simp only [selectResources, List.mem_flatMap, List.mem_filter, labelFilter_iff,
    Spec.HasLabelKey]
  constructor
  · rintro ⟨⟨k, v⟩, h1, h2, ⟨labels, w, h3, h4⟩, h5⟩
    exact ⟨h2, h5, labels, k, v, w, h3, h1, h4⟩
  · rintro ⟨h2, h5, labels, k, v, w, h3, h1, h4⟩
    exact ⟨(k, v), h1, h2, ⟨labels, w, h3, h4⟩, h5⟩

/-! ## Paths -/

theorem splitSlash_ne_nil (s : Str) : splitSlash s ≠ [] := by
  cases s with
  | nil => simp [splitSlash]
  | cons c cs =>
    simp only [splitSlash]
    split
    · simp
    · split <;> simp

theorem joinSlash_splitSlash (s : Str) : joinSlash (splitSlash s) = s := by
  induction s with
  | nil => rfl
  | cons c cs ih =>
    simp only [splitSlash]
    split
    · rename_i h
      subst h
      cases hs : splitSlash cs with
      | nil => exact absurd hs (splitSlash_ne_nil cs)
      | cons p ps =>
        rw [hs] at ih
        simp [joinSlash, ih]
    · cases hs : splitSlash cs with
      | nil => exact absurd hs (splitSlash_ne_nil cs)
      | cons p ps =>
        rw [hs] at ih
        cases ps with
        | nil => simp only [joinSlash] at ih ⊢; rw [ih]
        | cons q qs => simp only [joinSlash, List.cons_append] at ih ⊢; rw [ih]

theorem splitSlash_no_slash (s : Str) : ∀ p ∈ splitSlash s, '/' ∉ p := by
  induction s with
  | nil => simp [splitSlash]
  | cons c cs ih =>
    simp only [splitSlash]
    split
    · simpa using ih
    · rename_i hc
      cases hs : splitSlash cs with
      | nil => exact absurd hs (splitSlash_ne_nil cs)
      | cons p ps =>
        rw [hs] at ih
        intro q hq
        simp at hq ih
        rcases hq with rfl | hq
        · simp; exact ⟨fun h => hc h.symm, ih.1⟩
        · exact ih.2 q hq

theorem splitSlash_append (p : Str) (h : '/' ∉ p) (rest : Str) :
    splitSlash (p ++ '/' :: rest) = p :: splitSlash rest := by
  induction p with
  | nil => simp [splitSlash]
  | cons c p ih =>
    simp at h
    simp only [List.cons_append, splitSlash, ih h.2, if_neg (fun e => h.1 (Eq.symm e))]

theorem splitSlash_single (p : Str) (h : '/' ∉ p) : splitSlash p = [p] := by
  induction p with
  | nil => rfl
  | cons c p ih =>
    simp at h
    simp only [splitSlash, ih h.2, if_neg (fun e => h.1 (Eq.symm e))]

theorem splitSlash_joinSlash (ps : List Str) (hne : ps ≠ []) (h : ∀ p ∈ ps, '/' ∉ p) :
    splitSlash (joinSlash ps) = ps := by
  induction ps with
  | nil => exact absurd rfl hne
  | cons p ps ih =>
    cases ps with
    | nil => exact splitSlash_single p (h p (by simp))
    | cons q qs =>
      simp only [joinSlash]
      rw [splitSlash_append p (h p (by simp)), ih (by simp) (fun r hr => h r (by simp [hr]))]

theorem path_eq_join (write : Spec.Segment → Str) (ss : List Spec.Segment) :
    Spec.path write ss = joinSlash (ss.map write) := by
  induction ss with
  | nil => rfl
  | cons s ss ih =>
    cases ss with
    | nil => rfl
    | cons t ts => simp only [Spec.path, ih]; rfl

theorem axumPart_segment (s : Spec.Segment) (h : s.WF) : axumPart s.blueprint = s.router := by
  cases s with
  | text p =>
    simp only [Spec.Segment.WF] at h
    show axumPart p = p
    unfold axumPart
    rw [if_neg]
    rintro ⟨h1, h2⟩
    apply h.2
    cases p with
    | nil => simp at h1
    | cons c cs =>
      simp at h1
      subst h1
      cases hcs : cs.getLast? with
      | none =>
        rw [List.getLast?_eq_none_iff] at hcs
        subst hcs
        simp at h2
      | some l =>
        rw [List.getLast?_cons, hcs] at h2
        simp at h2
        subst h2
        obtain ⟨m, hm⟩ := List.getLast?_eq_some_iff.mp hcs
        exact ⟨m, by rw [hm]⟩
  | param n =>
    simp only [Spec.Segment.WF] at h
    have hl : ('{' :: (n ++ ['}'])).getLast? = some '}' := by
      rw [List.getLast?_cons]; simp
    simp only [Spec.Segment.blueprint, Spec.Segment.router, axumPart, hl]
    simp
    intro hn
    obtain ⟨m, hm⟩ := List.getLast?_eq_some_iff.mp hn
    exact absurd ⟨m, hm⟩ h.2
  | catchAll n =>
    have hl : ('{' :: (n ++ ['+', '}'])).getLast? = some '}' := by
      rw [List.getLast?_cons]; simp
    simp only [Spec.Segment.blueprint, Spec.Segment.router, axumPart, hl]
    have e : (n ++ ['+', '}']).dropLast = n ++ ['+'] := by
      rw [show n ++ ['+', '}'] = (n ++ ['+']) ++ ['}'] by simp, List.dropLast_concat]
    simp [e]

theorem segment_exists (p : Str) (h : '/' ∉ p) :
    ∃ s : Spec.Segment, s.WF ∧ s.blueprint = p := by
  by_cases hb : ∃ m, p = '{' :: (m ++ ['}'])
  · obtain ⟨m, rfl⟩ := hb
    simp at h
    by_cases hp : ∃ k, m = k ++ ['+']
    · obtain ⟨k, rfl⟩ := hp
      simp at h
      exact ⟨.catchAll k, h, by simp [Spec.Segment.blueprint]⟩
    · exact ⟨.param m, ⟨h, hp⟩, rfl⟩
  · exact ⟨.text p, ⟨h, hb⟩, rfl⟩

theorem segments_exist (ps : List Str) (h : ∀ p ∈ ps, '/' ∉ p) :
    ∃ ss : List Spec.Segment, (∀ s ∈ ss, s.WF) ∧ ss.map Spec.Segment.blueprint = ps := by
  induction ps with
  | nil => exact ⟨[], by simp, rfl⟩
  | cons p ps ih =>
    obtain ⟨ss, h1, h2⟩ := ih (fun q hq => h q (by simp [hq]))
    obtain ⟨s, h3, h4⟩ := segment_exists p (h p (by simp))
    exact ⟨s :: ss, by simpa using ⟨h3, h1⟩, by simp [h2, h4]⟩

theorem segment_no_slash (s : Spec.Segment) (h : s.WF) : '/' ∉ s.blueprint := by
  cases s <;> simp [Spec.Segment.WF, Spec.Segment.blueprint] at * <;> simp [h]

theorem segment_router_no_slash (s : Spec.Segment) (h : s.WF) : '/' ∉ s.router := by
  cases s <;> simp [Spec.Segment.WF, Spec.Segment.router] at * <;> simp [h]

theorem router_injective (s t : Spec.Segment) (_hs : s.WF) (_ht : t.WF) (hs' : ¬ s.RouterSyntax)
    (ht' : ¬ t.RouterSyntax) (h : s.router = t.router) : s = t := by
  cases s with
  | text a =>
    cases t with
    | text b => simp [Spec.Segment.router] at h; rw [h]
    | param b => simp [Spec.Segment.router] at h; subst h; simp [Spec.Segment.RouterSyntax] at hs'
    | catchAll b =>
      simp [Spec.Segment.router] at h; subst h; simp [Spec.Segment.RouterSyntax] at hs'
  | param a =>
    cases t with
    | text b => simp [Spec.Segment.router] at h; subst h; simp [Spec.Segment.RouterSyntax] at ht'
    | param b => simp [Spec.Segment.router] at h; rw [h]
    | catchAll b => simp [Spec.Segment.router] at h
  | catchAll a =>
    cases t with
    | text b => simp [Spec.Segment.router] at h; subst h; simp [Spec.Segment.RouterSyntax] at ht'
    | param b => simp [Spec.Segment.router] at h
    | catchAll b => simp [Spec.Segment.router] at h; rw [h]

theorem map_router_injective (ss ts : List Spec.Segment) (hs : ∀ s ∈ ss, s.WF ∧ ¬ s.RouterSyntax)
    (ht : ∀ s ∈ ts, s.WF ∧ ¬ s.RouterSyntax)
    (h : ss.map Spec.Segment.router = ts.map Spec.Segment.router) : ss = ts := by
  induction ss generalizing ts with
  | nil => cases ts with
    | nil => rfl
    | cons t ts => simp at h
  | cons s ss ih =>
    cases ts with
    | nil => simp at h
    | cons t ts =>
      simp only [List.map_cons, List.cons.injEq] at h
      have h1 := hs s (by simp)
      have h2 := ht t (by simp)
      rw [router_injective s t h1.1 h2.1 h1.2 h2.2 h.1,
        ih ts (fun x hx => hs x (by simp [hx])) (fun x hx => ht x (by simp [hx])) h.2]

/-! ## Collection -/

theorem enabledFor_isEnabled {F : Type} (key : Str) (r : Resource F) :
    (enabledFor key r).isSome = Spec.isEnabled key r := by
  unfold enabledFor Spec.isEnabled
  cases r.annotations with
  | none => rfl
  | some a =>
    cases h : a.lookup key with
    | none => simp [h]
    | some v =>
      cases v with
      | bool b => cases b <;> simp [h]
      | _ => simp [h]

theorem enabledFor_some {F : Type} (key : Str) (r : Resource F) (a : List (Str × Scalar F))
    (h : enabledFor key r = some a) : r.annotations = some a := by
  unfold enabledFor at h
  split at h
  · split at h
    · simp at h; subst h; assumption
    · simp at h
  · simp at h

theorem display_eq {F : Type} (showF : F → Str) (v : Scalar F) :
    display showF v = Spec.scalarText showF v := by
  cases v with
  | bool b => cases b <;> rfl
  | _ => rfl

theorem httpDefinition_iff {F : Type} (showF : F → Str) (bp : Blueprint F) (h : Str × Resource F)
    (a : List (Str × Scalar F)) (ha : enabledFor httpKey h.2 = some a) (d : HttpHandler) :
    httpDefinition bp h
      (((a.lookup httpMethodKey).map (display showF)).getD "GET".toList)
      (((a.lookup httpPathKey).map (display showF)).getD "/".toList) = .ok d ↔
    Spec.HttpDef showF bp h d := by
  have hann := enabledFor_some _ _ _ ha
  have hm : ((a.lookup httpMethodKey).map (display showF)).getD "GET".toList =
      Spec.annotationOr showF "celerity.handler.http.method".toList "GET".toList h.2 := by
    unfold Spec.annotationOr
    rw [hann]
    show _ = match a.lookup httpMethodKey with | none => _ | some v => _
    cases a.lookup httpMethodKey <;> first | rfl | exact display_eq showF _
  have hp : ((a.lookup httpPathKey).map (display showF)).getD "/".toList =
      Spec.annotationOr showF "celerity.handler.http.path".toList "/".toList h.2 := by
    unfold Spec.annotationOr
    rw [hann]
    show _ = match a.lookup httpPathKey with | none => _ | some v => _
    cases a.lookup httpPathKey <;> first | rfl | exact display_eq showF _
  rw [hm, hp]
  unfold httpDefinition applyHttp
  constructor
  · intro hd
    split at hd
    · rename_i s hs
      split at hd
      · simp at hd
      · rename_i loc hloc
        simp only [Except.ok.injEq] at hd
        subst hd
        exact ⟨rfl, rfl, rfl, s, hs, hloc, rfl, rfl⟩
    · simp at hd
  · rintro ⟨h1, h2, h3, s, h4, h5, h6, h7⟩
    rw [h4]
    simp only [Spec.firstConfig] at h5 h6 h7
    simp only [h5]
    rw [← h2, ← h3, ← h6, ← h7, ← h1]

theorem wsDefinition_iff {F : Type} (showF : F → Str) (bp : Blueprint F) (key : Str)
    (h : Str × Resource F)
    (a : List (Str × Scalar F)) (ha : enabledFor wsKey h.2 = some a) (d : WsHandler) :
    wsDefinition bp h (((a.lookup wsRouteKey).map (display showF)).getD "$default".toList) key =
      .ok d ↔ Spec.WsDef showF bp key h d := by
  have hann := enabledFor_some _ _ _ ha
  have hm : ((a.lookup wsRouteKey).map (display showF)).getD "$default".toList =
      Spec.annotationOr showF "celerity.handler.websocket.route".toList "$default".toList h.2 := by
    unfold Spec.annotationOr
    rw [hann]
    show _ = match a.lookup wsRouteKey with | none => _ | some v => _
    cases a.lookup wsRouteKey <;> first | rfl | exact display_eq showF _
  rw [hm]
  unfold wsDefinition applyWs
  constructor
  · intro hd
    split at hd
    · rename_i s hs
      split at hd
      · simp at hd
      · rename_i loc hloc
        simp only [Except.ok.injEq] at hd
        subst hd
        exact ⟨rfl, rfl, rfl, s, hs, hloc, rfl, rfl⟩
    · simp at hd
  · rintro ⟨h1, h2, h3, s, h4, h5, h6, h7⟩
    rw [h4]
    simp only [Spec.firstConfig] at h5 h6 h7
    simp only [h5]
    rw [← h2, ← h3, ← h6, ← h7, ← h1]

theorem checkCollected_iff (n : Str) (c : List Str) : checkCollected n c = .ok () ↔ n ∉ c := by
  unfold checkCollected
  split <;> simp_all

theorem collectHttp_iff {F : Type} (showF : F → Str) (bp : Blueprint F)
    (targets : List (Str × Resource F)) (collected : List Str) (acc defs : List HttpHandler)
    (names : List Str) :
    collectHttp showF bp collected acc targets = .ok (defs, names) ↔
      ∃ ds, defs = acc ++ ds ∧
        names = collected ++ (targets.filter (fun h => Spec.isEnabled httpKey h.2)).map (·.1) ∧
        ((targets.filter (fun h => Spec.isEnabled httpKey h.2)).map (·.1)).Nodup ∧
        (∀ n ∈ (targets.filter (fun h => Spec.isEnabled httpKey h.2)).map (·.1), n ∉ collected) ∧
        Spec.Pairwise2 (Spec.HttpDef showF bp)
          (targets.filter (fun h => Spec.isEnabled httpKey h.2)) ds := by
  induction targets generalizing collected acc with
  | nil =>
    simp only [collectHttp, Except.ok.injEq, Prod.mk.injEq, List.filter_nil, List.map_nil,
      List.append_nil]
    constructor
    · rintro ⟨rfl, rfl⟩; exact ⟨[], by simp, rfl, by simp, by simp, .nil⟩
    · rintro ⟨ds, h1, h2, _, _, h3⟩
      cases h3
      simp_all
  | cons h targets ih =>
    simp only [collectHttp]
    have he := enabledFor_isEnabled httpKey h.2
    cases ha : enabledFor httpKey h.2 with
    | none =>
      rw [ha] at he
      simp only [Option.isSome_none] at he
      simp only [List.filter_cons, ← he, Bool.false_eq_true, if_false]
      exact ih collected acc
    | some a =>
      rw [ha] at he
      simp only [Option.isSome_some] at he
      simp only [List.filter_cons, ← he, if_true, List.map_cons]
      have hc := checkCollected_iff h.1 collected
      cases hck : checkCollected h.1 collected with
      | error e =>
        rw [hck] at hc
        simp at hc
        simp [hc]
      | ok u =>
        rw [hck] at hc
        simp only [true_iff] at hc
        simp only
        have hd := httpDefinition_iff showF bp h a ha
        cases hdef : httpDefinition bp h
            (((a.lookup httpMethodKey).map (display showF)).getD "GET".toList)
            (((a.lookup httpPathKey).map (display showF)).getD "/".toList) with
        | error e =>
          rw [hdef] at hd
          simp only [reduceCtorEq, false_iff] at hd ⊢
          rintro ⟨ds, _, _, _, _, hp⟩
          cases hp with
          | cons h1 _ => exact hd _ h1
        | ok d =>
          rw [hdef] at hd
          simp only [Except.ok.injEq] at hd ⊢
          rw [ih]
          constructor
          · rintro ⟨ds, h1, h2, h3, h4, h5⟩
            refine ⟨d :: ds, by simp [h1], by simp [h2], ?_, ?_, .cons ((hd d).mp rfl) h5⟩
            · rw [List.nodup_cons]
              refine ⟨fun hm => ?_, h3⟩
              have := h4 _ hm
              simp at this
            · intro n hn
              rcases List.mem_cons.mp hn with rfl | hn
              · exact hc
              · have := h4 n hn; simp at this; exact this.1
          · rintro ⟨ds, h1, h2, h3, h4, h5⟩
            cases h5 with
            | cons h6 h7 =>
              rename_i d' ds'
              have hdd : d = d' := (hd d').mpr h6
              subst hdd
              rw [List.nodup_cons] at h3
              refine ⟨ds', by simp [h1], by simp [h2], h3.2, ?_, h7⟩
              intro n hn
              simp only [List.mem_append, List.mem_singleton, not_or]
              refine ⟨h4 n (List.mem_cons_of_mem _ hn), ?_⟩
              rintro rfl
              exact h3.1 hn

theorem collectWs_iff {F : Type} (showF : F → Str) (bp : Blueprint F) (api : ResourceSpec)
    (key : Str) (hk : resolveRouteKey api = .ok key)
    (targets : List (Str × Resource F)) (collected : List Str) (acc defs : List WsHandler)
    (names : List Str) :
    collectWs showF bp api collected acc targets = .ok (defs, names) ↔
      ∃ ds, defs = acc ++ ds ∧
        names = collected ++ (targets.filter (fun h => Spec.isEnabled wsKey h.2)).map (·.1) ∧
        ((targets.filter (fun h => Spec.isEnabled wsKey h.2)).map (·.1)).Nodup ∧
        (∀ n ∈ (targets.filter (fun h => Spec.isEnabled wsKey h.2)).map (·.1), n ∉ collected) ∧
        Spec.Pairwise2 (Spec.WsDef showF bp key)
          (targets.filter (fun h => Spec.isEnabled wsKey h.2)) ds := by
  induction targets generalizing collected acc with
  | nil =>
    simp only [collectWs, Except.ok.injEq, Prod.mk.injEq, List.filter_nil, List.map_nil,
      List.append_nil]
    constructor
    · rintro ⟨rfl, rfl⟩; exact ⟨[], by simp, rfl, by simp, by simp, .nil⟩
    · rintro ⟨ds, h1, h2, _, _, h3⟩
      cases h3
      simp_all
  | cons h targets ih =>
    simp only [collectWs]
    have he := enabledFor_isEnabled wsKey h.2
    cases ha : enabledFor wsKey h.2 with
    | none =>
      rw [ha] at he
      simp only [Option.isSome_none] at he
      simp only [List.filter_cons, ← he, Bool.false_eq_true, if_false]
      exact ih collected acc
    | some a =>
      rw [ha] at he
      simp only [Option.isSome_some] at he
      simp only [List.filter_cons, ← he, if_true, List.map_cons, hk]
      have hc := checkCollected_iff h.1 collected
      cases hck : checkCollected h.1 collected with
      | error e =>
        rw [hck] at hc
        simp at hc
        simp [hc]
      | ok u =>
        rw [hck] at hc
        simp only [true_iff] at hc
        simp only
        have hd := wsDefinition_iff showF bp key h a ha
        cases hdef : wsDefinition bp h
            (((a.lookup wsRouteKey).map (display showF)).getD "$default".toList) key with
        | error e =>
          rw [hdef] at hd
          simp only [reduceCtorEq, false_iff] at hd ⊢
          rintro ⟨ds, _, _, _, _, hp⟩
          cases hp with
          | cons h1 _ => exact hd _ h1
        | ok d =>
          rw [hdef] at hd
          simp only [Except.ok.injEq] at hd ⊢
          rw [ih]
          constructor
          · rintro ⟨ds, h1, h2, h3, h4, h5⟩
            refine ⟨d :: ds, by simp [h1], by simp [h2], ?_, ?_, .cons ((hd d).mp rfl) h5⟩
            · rw [List.nodup_cons]
              refine ⟨fun hm => ?_, h3⟩
              have := h4 _ hm
              simp at this
            · intro n hn
              rcases List.mem_cons.mp hn with rfl | hn
              · exact hc
              · have := h4 n hn; simp at this; exact this.1
          · rintro ⟨ds, h1, h2, h3, h4, h5⟩
            cases h5 with
            | cons h6 h7 =>
              rename_i d' ds'
              have hdd : d = d' := (hd d').mpr h6
              subst hdd
              rw [List.nodup_cons] at h3
              refine ⟨ds', by simp [h1], by simp [h2], h3.2, ?_, h7⟩
              intro n hn
              simp only [List.mem_append, List.mem_singleton, not_or]
              refine ⟨h4 n (List.mem_cons_of_mem _ hn), ?_⟩
              rintro rfl
              exact h3.1 hn

/-! ## Independence of the order of the resource map -/

theorem perm_flatMap {A B : Type} (l : List A) (f g : A → List B)
    (h : ∀ a ∈ l, (f a).Perm (g a)) : (l.flatMap f).Perm (l.flatMap g) := by
  induction l with
  | nil => simp
  | cons a l ih =>
    simp only [List.flatMap_cons]
    exact (h a (by simp)).append (ih (fun b hb => h b (by simp [hb])))

theorem selectResources_perm {F : Type} (sel : Option (List (Str × Str))) (bp bp' : Blueprint F)
    (hp : bp.resources.Perm bp'.resources) (ty : ResourceType) :
    (selectResources sel bp ty).Perm (selectResources sel bp' ty) := by
  cases sel with
  | none => simp [selectResources]
  | some l =>
    exact perm_flatMap _ _ _ (fun kv _ => hp.filter _)

theorem head_of_perm {A : Type} (l l' : List A) (hp : l.Perm l')
    (h : ∀ a ∈ l, ∀ b ∈ l, a = b) : l.head? = l'.head? := by
  cases l with
  | nil => have := hp.nil_eq; subst this; rfl
  | cons a l =>
    cases l' with
    | nil => have := hp.eq_nil; simp at this
    | cons b l' =>
      have hb : b ∈ a :: l := hp.symm.subset (by simp)
      have := h a (by simp) b hb
      simp [this]

theorem find_perm {A : Type} (p : A → Bool) (l l' : List A) (hp : l.Perm l')
    (h : ∀ a ∈ l, ∀ b ∈ l, p a = true → p b = true → a = b) : l.find? p = l'.find? p := by
  cases h1 : l.find? p with
  | none =>
    symm
    rw [List.find?_eq_none] at h1 ⊢
    exact fun x hx => h1 x (hp.symm.subset hx)
  | some a =>
    have ha := List.find?_some h1
    have ham := List.mem_of_find?_eq_some h1
    cases h2 : l'.find? p with
    | none =>
      rw [List.find?_eq_none] at h2
      exact absurd ha (h2 a (hp.subset ham))
    | some b =>
      rw [h a ham b (hp.symm.subset (List.mem_of_find?_eq_some h2)) ha (List.find?_some h2)]

theorem pairwise2_perm {A B : Type} (R : A → B → Prop) (as as' : List A) (hp : as.Perm as')
    (bs : List B) (h : Spec.Pairwise2 R as bs) :
    ∃ bs', bs.Perm bs' ∧ Spec.Pairwise2 R as' bs' := by
  induction hp generalizing bs with
  | nil => exact ⟨bs, .refl _, h⟩
  | cons a _ ih =>
    cases h with
    | cons h1 h2 =>
      obtain ⟨bs', h3, h4⟩ := ih _ h2
      exact ⟨_, h3.cons _, .cons h1 h4⟩
  | swap a b l =>
    cases h with
    | cons h1 h2 =>
      cases h2 with
      | cons h3 h4 => exact ⟨_, .swap _ _ _, .cons h3 (.cons h1 h4)⟩
  | trans _ _ ih1 ih2 =>
    obtain ⟨b1, h1, h2⟩ := ih1 _ h
    obtain ⟨b2, h3, h4⟩ := ih2 _ h2
    exact ⟨b2, h1.trans h3, h4⟩

theorem pairwise2_imp {A B : Type} (R S : A → B → Prop) (as : List A) (bs : List B)
    (himp : ∀ a ∈ as, ∀ b, R a b → S a b) (h : Spec.Pairwise2 R as bs) :
    Spec.Pairwise2 S as bs := by
  induction h with
  | nil => exact .nil
  | cons h1 _ ih =>
    exact .cons (himp _ (by simp) _ h1) (ih (fun a ha => himp a (by simp [ha])))

theorem resolveRouteKey_total (api : ResourceSpec) (h : ∃ s, api = .api s) :
    ∃ k, resolveRouteKey api = .ok k := by
  obtain ⟨s, rfl⟩ := h
  unfold resolveRouteKey
  simp only
  split <;> exact ⟨_, rfl⟩

theorem pairwise2_names {F : Type} (showF : F → Str) (bp : Blueprint F)
    (ts : List (Str × Resource F)) (ds : List HttpHandler)
    (h : Spec.Pairwise2 (Spec.HttpDef showF bp) ts ds) :
    ds.map (·.handler) = ts.map (·.1) := by
  induction h with
  | nil => rfl
  | cons h1 _ ih => simp [h1.name, ih]

theorem pairwise2_ws_names {F : Type} (showF : F → Str) (bp : Blueprint F) (key : Str)
    (ts : List (Str × Resource F)) (ds : List WsHandler)
    (h : Spec.Pairwise2 (Spec.WsDef showF bp key) ts ds) :
    ds.map (·.handler) = ts.map (·.1) := by
  induction h with
  | nil => rfl
  | cons h1 _ ih => simp [h1.name, ih]

theorem pairwise2_ws_key {F : Type} (showF : F → Str) (bp : Blueprint F) (key : Str)
    (ts : List (Str × Resource F)) (ds : List WsHandler)
    (h : Spec.Pairwise2 (Spec.WsDef showF bp key) ts ds) :
    ∀ d ∈ ds, d.routeKey = key := by
  induction h with
  | nil => simp
  | cons h1 _ ih =>
    intro d hd
    rcases List.mem_cons.mp hd with rfl | hd
    · exact h1.routeKey
    · exact ih d hd

/-- Full characterisation of a successful transformation, for an API resource with an API
specification. -/
theorem collectApiConfig_iff {F : Type} (showF : F → Str) (bp : Blueprint F) (n : Option Str)
    (api : Resource F) (hapi : getApiResource bp n = .ok api) (s : ApiSpec) (hs : api.spec = .api s)
    (key : Str) (hk : resolveRouteKey api.spec = .ok key) (cfg : ApiConfig) :
    collectApiConfig showF bp n = .ok cfg ↔
      ∃ hs ws,
        Spec.Pairwise2 (Spec.HttpDef showF bp)
          ((selectResources api.linkSelector bp .handler).filter
            (fun h => Spec.isEnabled httpKey h.2)) hs ∧
        Spec.Pairwise2 (Spec.WsDef showF bp key)
          ((selectResources api.linkSelector bp .handler).filter
            (fun h => Spec.isEnabled wsKey h.2)) ws ∧
        (hs.map (·.handler) ++ ws.map (·.handler)).Nodup ∧
        cfg.http = (if hs = [] then none else some hs) ∧
        cfg.websocket = (if ws = [] then none else some (ws, "event".toList)) ∧
        cfg.tracingEnabled = s.tracingEnabled.getD false := by
  unfold collectApiConfig
  rw [hapi]
  simp only
  have htr : resolveApiTracing api.spec = s.tracingEnabled.getD false := by rw [hs]; rfl
  constructor
  · intro h
    split at h
    · simp at h
    · rename_i https collected hh
      split at h
      · simp at h
      · rename_i wss coll hw
        rw [collectHttp_iff] at hh
        rw [collectWs_iff showF bp _ key hk] at hw
        obtain ⟨hs', h1, h2, h3, h4, h5⟩ := hh
        obtain ⟨ws', w1, w2, w3, w4, w5⟩ := hw
        simp only [List.nil_append] at h1 h2 w1
        subst h1 w1 h2
        refine ⟨https, wss, h5, w5, ?_, ?_, ?_, ?_⟩
        · rw [pairwise2_names _ _ _ _ h5, pairwise2_ws_names _ _ _ _ _ w5, List.nodup_append]
          refine ⟨h3, w3, ?_⟩
          intro a ha b hb hab
          subst hab
          exact w4 a hb ha
        · simp only [Except.ok.injEq] at h; subst h; simp
        · simp only [Except.ok.injEq] at h; subst h; simp [defaultRouteKey]
        · simp only [Except.ok.injEq] at h; subst h; simp [htr]
  · rintro ⟨hs', ws', h1, h2, h3, h4, h5, h6⟩
    rw [pairwise2_names _ _ _ _ h1, pairwise2_ws_names _ _ _ _ _ h2, List.nodup_append] at h3
    have hh := (collectHttp_iff showF bp (selectResources api.linkSelector bp .handler) [] [] hs'
      _).mpr ⟨hs', rfl, rfl, h3.1, by simp, h1⟩
    rw [hh]
    simp only [List.nil_append]
    have hw := (collectWs_iff showF bp api.spec key hk
      (selectResources api.linkSelector bp .handler)
      (((selectResources api.linkSelector bp .handler).filter
        (fun h => Spec.isEnabled httpKey h.2)).map (·.1)) [] ws' _).mpr
      ⟨ws', rfl, rfl, h3.2.1, fun a hb ha => h3.2.2 a ha a hb rfl, h2⟩
    rw [hw]
    simp only [Except.ok.injEq]
    cases cfg
    simp only at h4 h5 h6
    simp only [ApiConfig.mk.injEq]
    refine ⟨?_, ?_, ?_⟩
    · rw [h4]; simp
    · rw [h5]; simp [defaultRouteKey]
    · rw [h6, htr]

end Verif.Transform
