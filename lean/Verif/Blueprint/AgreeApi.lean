import Verif.Blueprint.AgreeStructs

/-!
# The two readers agree on portable documents: APIs
-/

namespace Verif.Blueprint

open Verif Verif.Subst Spec

variable {F : Type} (cx : Ctx F)

/-! ## Texts that are not empty -/

theorem concat_no_empty (last : Str) (ps : List Piece) : Piece.str [] ∉ concatAdjacent last ps := by
  induction ps generalizing last with
  | nil => cases last <;> simp [concatAdjacent]
  | cons p ps ih =>
    cases p with
    | str s => simp only [concatAdjacent]; exact ih _
    | sub r => cases last <;> simp [concatAdjacent, ih]

theorem parse_not_empty (cls : CharClass) {s : Str} (hs : s ≠ []) {ps : List Piece}
    (h : parseSubstitutions cls s = .ok ps) : sosEmpty ps = false := by
  have hne : ps ≠ [] := by
    rintro rfl
    exact (parse_never_empty cls s).2 h
  have hno : ps ≠ [.str []] := by
    rintro rfl
    unfold parseSubstitutions at h
    split at h
    · cases h; exact hs rfl
    · obtain ⟨st, _, h⟩ := bind_eq_ok h
      have h : finish st = [.str []] := by injection h
      exact concat_no_empty [] _ (by rw [← finish.eq_def, h]; simp)
  unfold sosEmpty
  split
  · exact absurd rfl hne
  · next t =>
    cases t with
    | nil => exact absurd rfl hno
    | cons => rfl
  · rfl

theorem sos_not_empty {v : Doc F} (hv : someText v) {a : Sos} (h : yamlSos cx v = .ok a) :
    sosEmpty a = false := by
  obtain ⟨s, hs, rfl⟩ := hv
  simp only [yamlSos] at h
  cases hp : parseSubstitutions cx.cls s with
  | ok ps =>
    rw [hp] at h
    cases h
    exact parse_not_empty cx.cls hs hp
  | err e => rw [hp] at h; cases h
  | panic => rw [hp] at h; cases h

theorem Keeps.fld {S A : Type} {P : S → Prop} {n : String} {b : Bool} {sh : Shape F}
    {r : Doc F → Outcome Err A} {set : S → A → S} {fs : List (FieldSpec F)} {T : List (Field F S)}
    (h : ∀ v s a, sh v → r v = .ok a → P s → P (set s a)) (hk : Keeps P fs T) :
    Keeps P (⟨n.toList, b, sh⟩ :: fs) (fld n r set :: T) :=
  .cons (fun v s s' hv hs hf => by
    obtain ⟨a, ha, hf⟩ := bind_eq_ok hf
    injection hf with hf
    exact hf ▸ h v s a hv ha hs) hk

theorem Sets.fld {S A : Type} {P : S → Prop} {n : String} {b : Bool} {sh : Shape F}
    {r : Doc F → Outcome Err A} {set : S → A → S} {fs : List (FieldSpec F)} {T : List (Field F S)}
    (h : ∀ v s a, sh v → r v = .ok a → P (set s a)) :
    Sets P n.toList (⟨n.toList, b, sh⟩ :: fs) (fld n r set :: T) :=
  .here fun v s s' hv hf => by
    obtain ⟨a, ha, hf⟩ := bind_eq_ok hf
    injection hf with hf
    exact hf ▸ h v s a hv ha

/-- Closes the goal that a table keeps what one of its fields brings about, which is proved by the
given term. -/
syntax "kept" term : tactic
macro_rules
  | `(tactic| kept $t) => `(tactic| repeat' first
    | exact Keeps.nil
    | refine Keeps.fld (fun _ _ _ _ _ h => h) ?_
    | refine Keeps.fld (fun _ _ _ hv ha _ => $t hv ha) ?_)

/-- Closes the goal that a table has a field that brings about what is proved by the given term. -/
syntax "brought" term : tactic
macro_rules
  | `(tactic| brought $t) => `(tactic| repeat' first
    | exact Sets.fld (fun _ _ _ hv ha => $t hv ha)
    | refine Sets.there (by decide) ?_)

theorem fits_in {fs : List (FieldSpec F)} {m : List (Str × Doc F)} (h : Fits fs m) (n : String)
    {ns : List Str} (hn : (fs.filter (·.required)).map (·.name) = ns) (hi : n.toList ∈ ns) :
    ∃ e ∈ m, e.1 = n.toList := by
  rw [← hn] at hi
  obtain ⟨f, hf, hfn⟩ := List.mem_map.1 hi
  rw [List.mem_filter] at hf
  rw [← hfn]
  exact h.required f hf.1 hf.2

/-! ## Protocols -/

theorem protocolName_agree (v : Doc F) (h : oneOf ["http", "websocket"] v) :
    Rel (NR cx) (yamlProtocolName v) (jsonNode cx v) := by
  obtain ⟨s, hs, rfl⟩ := h
  simp only [List.mem_cons, List.not_mem_nil, or_false] at hs
  rcases hs with rfl | rfl
  · simp only [jsonNode]
    rw [jsonStrNode_plain cx (by decide)]
    exact NR.ofScalar cx _
  · simp only [jsonNode]
    rw [jsonStrNode_plain cx (by decide)]
    exact NR.ofScalar cx _

theorem wsEntries_agree (m : List (Str × Doc F))
    (hs : Shapes [opt "routeKey" plainText, opt "authStrategy" plainText] m)
    (ho : OnlyFields [opt "routeKey" plainText, opt "authStrategy" plainText] m)
    {acc acc' : List (Str × Node F)} (h : MRel (NR cx) acc acc') :
    Rel (MRel (NR cx))
      (fill false
        [fld "routeKey" (yamlSos cx) (fun s a => hmInsert s "routeKey".toList (.subst a)),
         fld "authStrategy" (yamlSos cx) (fun s a => hmInsert s "authStrategy".toList (.subst a))]
        m acc)
      (jsonNodeEntries cx m acc') := by
  induction m generalizing acc acc' with
  | nil => simp only [fill, jsonNodeEntries]; exact h
  | cons e m ih =>
    have ih := fun {acc acc' : List (Str × Node F)} (h : MRel (NR cx) acc acc') =>
      ih hs.tail (fun e he => ho e (List.mem_cons_of_mem _ he)) h
    obtain ⟨f, hf, hk⟩ := ho e (List.mem_cons_self ..)
    have hsh := hs e (List.mem_cons_self ..) f hf hk
    have hpt : plainText e.2 := by
      simp only [List.mem_cons, List.not_mem_nil, or_false] at hf
      rcases hf with rfl | rfl <;> exact hsh
    obtain ⟨k, v⟩ := e
    obtain ⟨⟨s, hv⟩, hp⟩ := hpt
    dsimp only at hv hp hk
    subst hv
    cases hp with
    | str _ h1 h2 =>
      have hy : yamlSos cx (.str s) = .ok [.str s] := by
        simp only [yamlSos, parse_plain cx h2, liftParse]
      simp only [fill, jsonNodeEntries, jsonNode, jsonStrNode_plain cx h1, Outcome.bind_ok]
      simp only [List.mem_cons, List.not_mem_nil, or_false] at hf
      rcases hf with rfl | rfl
      · simp only [opt] at hk
        subst hk
        rw [fld, get?_cons, if_pos rfl]
        simp only [hy, Outcome.bind_ok, Outcome.pure_eq]
        exact ih (hmInsert_rel h _ (NR.ofLiteral cx s))
      · simp only [opt] at hk
        subst hk
        rw [fld, get?_cons, if_neg (by decide), fld, get?_cons, if_pos rfl]
        simp only [hy, Outcome.bind_ok, Outcome.pure_eq]
        exact ih (hmInsert_rel h _ (NR.ofLiteral cx s))

theorem closed_one {k : String} {sh : Shape F} {m : List (Str × Doc F)} (hm : Fits [req k sh] m)
    (ho : OnlyFields [req k sh] m) : ∃ c, m = [(k.toList, c)] ∧ sh c := by
  have hkey : ∀ e ∈ m, e.1 = k.toList := by
    intro e he
    obtain ⟨f, hf, hk⟩ := ho e he
    rw [List.mem_singleton] at hf
    subst hf
    exact hk.symm
  obtain ⟨c, hc, hsc⟩ := Fits.get hm (p := req k sh) (by simp) rfl
  match m, hm.nodup, hkey, hc with
  | [(k', v)], _, hkey, hc =>
    have : k' = k.toList := hkey (k', v) (by simp)
    subst this
    rw [show (req k sh).name = k.toList from rfl, get?_cons, if_pos rfl] at hc
    cases hc
    exact ⟨c, rfl, hsc⟩
  | e :: f :: _, hn, hkey, _ =>
    have h1 := hkey e (by simp)
    have h2 := hkey f (by simp)
    simp only [List.map_cons, List.nodup_cons, h1, h2] at hn
    exact absurd (List.mem_cons_self ..) hn.1

theorem protocol_agree (v : Doc F) (h : protocol v) :
    Rel (NR cx) (yamlProtocol cx v) (jsonNode cx v) := by
  rcases h with h | ⟨m, rfl, hm, ho⟩
  · have := protocolName_agree cx v h
    obtain ⟨s, _, rfl⟩ := h
    exact this
  · obtain ⟨c, rfl, hc⟩ := closed_one hm ho
    obtain ⟨m, rfl, hm, ho⟩ := hc
    simp only [yamlProtocol, jsonNode, jsonNodeEntries, get?_cons, if_true, readObj]
    have h := wsEntries_agree cx m hm.shapes ho .nil
    unfold yamlWsConfig
    generalize fill false _ m _ = x at h ⊢
    generalize jsonNodeEntries cx m [] = y at h ⊢
    match x, y, h with
    | .ok _, .ok _, h => exact NR.ofMapping cx (.cons ⟨rfl, NR.ofMapping cx h⟩ .nil)
    | .err .format, .err .format, _ => trivial

/-! ## Cross-origin requests -/

theorem cors_agree (v : Doc F) (h : either text (object corsFields) v) :
    Rel (fun o o' => ∃ a b, o = some a ∧ o' = some b ∧ CorsRel cx a b) (yamlCors cx v)
      (keep (jsonCors cx) v) := by
  rcases h with ⟨s, rfl⟩ | ⟨m, rfl, hm⟩
  · have h := jsonSos_self cx (.str s)
    have hc : jsonCorsConfig cx (.str s) = .err .format := rfl
    simp only [yamlCors, keep, jsonCors, hc, jsonSos] at h ⊢
    generalize liftParse (parseSubstitutions cx.cls s) = x at h ⊢
    match x, h with
    | .ok _, _ => exact ⟨_, _, rfl, rfl, rfl⟩
    | .err .format, _ => trivial
  · have h : Rel (CorsConfigRel cx) (yamlCorsConfig cx m) (jsonCorsConfig cx (.obj m)) :=
      corsConfig_agree cx _ ⟨m, rfl, hm⟩
    simp only [yamlCors, keep, jsonCors, jsonSos, orElse, Outcome.bind_err]
    generalize yamlCorsConfig cx m = x at h ⊢
    generalize jsonCorsConfig cx (.obj m) = y at h ⊢
    match x, y, h with
    | .ok _, .ok _, h => exact ⟨_, _, rfl, rfl, h⟩
    | .err .format, .err .format, _ => trivial

/-! ## Domains -/

theorem protocolAnd_agree (key : String) : ∀ v : Doc F,
    object [req "protocol" (oneOf ["http", "websocket"]), req key text] v →
    Rel (ProtocolAndRel cx) (readObj (yamlProtocolAnd cx key) v) (jsonProtocolAnd cx key v) :=
  object_agree (Agree.req (protocolName_agree cx) (by setter) (Agree.req (by agrees) (by setter) .nil))
    rfl (by initial)

theorem strOrConfig_agree (key : String) (v : Doc F) (h : strOrConfig key v) :
    Rel (StrOrConfigRel cx) (yamlStrOrConfig cx key v) (jsonStrOrConfig cx key v) := by
  rcases h with ⟨s, rfl⟩ | ⟨m, rfl, hm⟩
  · have h := jsonSos_self cx (.str s)
    have hc : jsonProtocolAnd cx key (.str s) = .err .format := rfl
    simp only [yamlStrOrConfig, jsonStrOrConfig, hc, jsonSos] at h ⊢
    generalize liftParse (parseSubstitutions cx.cls s) = x at h ⊢
    match x, h with
    | .ok _, _ => exact rfl
    | .err .format, _ => trivial
  · have h : Rel (ProtocolAndRel cx) (yamlProtocolAnd cx key m) (jsonProtocolAnd cx key (.obj m)) :=
      protocolAnd_agree cx key _ ⟨m, rfl, hm⟩
    simp only [yamlStrOrConfig, jsonStrOrConfig, jsonSos, orElse, Outcome.bind_err]
    exact Rel.map h fun _ _ h => h

theorem fillVec_nonempty {A : Type} {r : Doc F → Outcome Err A} {l : List (Doc F)} (hl : l ≠ [])
    {a : List A} (h : fillVec (keep r) l = .ok a) : a.isEmpty = false := by
  cases l with
  | nil => exact absurd rfl hl
  | cons v l =>
    simp only [fillVec, keep] at h
    obtain ⟨x, hx, h⟩ := bind_eq_ok h
    obtain ⟨y, _, hx⟩ := bind_eq_ok hx
    obtain ⟨z, _, h⟩ := bind_eq_ok h
    cases hx
    injection h with h
    subst h
    rfl

theorem vec_nonempty {A : Type} {sh : Shape F} {r : Doc F → Outcome Err A} {v : Doc F}
    (hv : someOf sh v) {a : List A} (h : readVec r v = .ok a) : a.isEmpty = false := by
  obtain ⟨l, hl, rfl, _⟩ := hv
  exact fillVec_nonempty hl h

/-- As `object_agree`, with a check afterwards that always passes. -/
theorem object_check {S S' : Type} {R : S → S' → Prop} {fs : List (FieldSpec F)}
    {T : List (Field F S)} {U : List (Field F S')} {rq : List Str} {s : S} {s' : S'} {c : S → Bool}
    (h : Agree R fs T U) (hrq : rq = (fs.filter (·.required)).map (·.name)) (hs : R s s')
    (hc : ∀ m, Fits fs m → ∀ x, fill false T m s = .ok x → c x = true) (v : Doc F)
    (hv : object fs v) :
    Rel R (readObj (fun m => fill false T m s >>= fun x => Blueprint.require (c x) >>= fun _ =>
      Pure.pure x) v) (jsonStruct U rq s' v) := by
  obtain ⟨m, rfl, hm⟩ := hv
  exact rel_check (object_agree h hrq hs _ ⟨m, rfl, hm⟩) (hc m hm)

theorem domain_agree : ∀ v : Doc F, object domainFields v →
    Rel (DomainRel cx) (readObj (yamlDomain cx) v) (jsonDomain cx v) := by
  refine object_check (fs := domainFields) ?_ rfl (by initial) ?_
  · unfold domainFields
    exact Agree.req (by agrees) (by setter) <|
      Agree.req (fun v hv => readVec_agree (strOrConfig_agree cx "basePath") v (someOf_listOf hv))
        (by setter) <|
      Agree.opt (by agrees) (by setter) <| Agree.req (by agrees) (by setter) <|
      Agree.opt (by agrees) (by setter) .nil
  · intro m hm d hd
    have hin := fun n => fits_in hm n
      (ns := ["domainName".toList, "basePaths".toList, "certificateId".toList]) rfl
    have h1 := fill_sets (P := fun d => sosEmpty d.domainName = false) (fs := domainFields)
      (by unfold domainFields; kept sos_not_empty cx)
      (by unfold domainFields; brought sos_not_empty cx) hm.shapes (hin "domainName" (by decide)) hd
    have h2 := fill_sets (P := fun d => d.basePaths.isEmpty = false) (fs := domainFields)
      (by unfold domainFields; kept vec_nonempty)
      (by unfold domainFields; brought vec_nonempty) hm.shapes (hin "basePaths" (by decide)) hd
    have h3 := fill_sets (P := fun d => sosEmpty d.certificateId = false) (fs := domainFields)
      (by unfold domainFields; kept sos_not_empty cx)
      (by unfold domainFields; brought sos_not_empty cx) hm.shapes (hin "certificateId" (by decide)) hd
    rw [h1, h2, h3]
    rfl

/-! ## Guards -/

theorem guardType_agree (v : Doc F) (h : oneOf ["jwt", "custom"] v) :
    Rel Eq (yamlGuardType v) (jsonSos cx v) := by
  obtain ⟨s, hs, rfl⟩ := h
  have hp : ∀ s : Str, (∀ a b, s ≠ a ++ '$' :: '{' :: b) → jsonSos cx (.str s) = .ok [.str s] := by
    intro s hs
    simp only [jsonSos, parse_plain cx hs, liftParse]
  have hno : ∀ s : Str, '$' ∉ s → ∀ a b, s ≠ a ++ '$' :: '{' :: b := by
    rintro _ hs a b rfl
    exact hs (by simp)
  simp only [List.mem_cons, List.not_mem_nil, or_false] at hs
  rcases hs with rfl | rfl
  · rw [hp _ (hno _ (by decide))]; exact rfl
  · rw [hp _ (hno _ (by decide))]; exact rfl

theorem guardType_some {v : Doc F} (_ : oneOf ["jwt", "custom"] v) {a : Sos}
    (h : yamlGuardType v = .ok a) : sosEmpty a = false := by
  unfold yamlGuardType at h
  split at h
  · split at h
    · cases h; rfl
    · split at h <;> cases h; rfl
  · cases h

instance (key : String) : NonNull (F := F) (strOrConfig key) := ⟨by
  unfold strOrConfig
  exact (inferInstance : NonNull (F := F) (either text (object _))).out⟩

theorem guard_agree : ∀ v : Doc F, object guardFields v →
    Rel (GuardRel cx) (readObj (yamlGuard cx) v) (jsonGuard cx v) := by
  refine object_check (fs := guardFields) ?_ rfl (by initial) ?_
  · unfold guardFields
    exact Agree.req (guardType_agree cx) (by setter) <| Agree.opt (by agrees) (by setter) <|
      Agree.opt (strOrConfig_agree cx "source") (by setter) <|
      Agree.opt (by agrees) (by setter) .nil
  · intro m hm d hd
    have h1 := fill_sets (P := fun d => sosEmpty d.guardType = false) (fs := guardFields)
      (by unfold guardFields; kept guardType_some)
      (by unfold guardFields; brought guardType_some) hm.shapes
      (fits_in hm "type" (ns := ["type".toList]) rfl (by decide)) hd
    rw [h1]
    rfl

theorem auth_agree (v : Doc F) (h : object authFields v) :
    Rel (AuthRel cx) (readObj (yamlAuth cx) v) (jsonAuth cx v) := by
  obtain ⟨m, rfl, hm⟩ := h
  obtain ⟨g, hg, hsg⟩ := Fits.get hm (p := req "guards" (mapOf (object guardFields)))
    (by simp [authFields]) rfl
  have hg : get? m "guards".toList = some g := hg
  have hgs := mapSkip_agree object_obj (guard_agree cx) g hsg
  unfold jsonAuth
  rw [jsonStruct_obj (rq := ["guards".toList]) (fs := authFields) rfl hm]
  unfold fld
  rw [fill_congr (get?_swap (by decide) _ _ _), fill_extract rfl ?_ hm.nodup, hg]
  · show Rel _ (yamlAuth cx m) _
    unfold yamlAuth
    rw [hg]
    dsimp only
    generalize readObj (fun m => fillMap (skipNonObj (yamlGuard cx)) m []) g = x at hgs ⊢
    generalize readMap (jsonGuard cx) g = y at hgs ⊢
    match x, y, hgs with
    | .err .format, .err .format, _ => trivial
    | .ok a, .ok b, hab =>
      simp only [Outcome.bind_ok, Outcome.pure_eq]
      cases hd : get? m "defaultGuard".toList with
      | none =>
        rw [fill_none hd]
        exact ⟨rfl, hab⟩
      | some d =>
        have hsd : text d := Fits.get_opt hm (p := opt "defaultGuard" text) (by simp [authFields]) hd
        have := fill_one (r := jsonOpt (jsonSos cx)) hm.nodup hd ({ guards := b } : Auth Sos (Node F) Sos)
          (set := fun s a => { s with defaultGuard := a })
        unfold fld at this
        simp only [Outcome.pure_eq] at this
        rw [this, jsonOpt_nonNull _ hsd, keep, sos_eq]
        dsimp only
        rcases tame_sos cx d with ⟨s, hs⟩ | hs
        · rw [hs]; exact ⟨rfl, hab⟩
        · rw [hs]; trivial
  · simp only [List.forall_mem_cons]
    exact ⟨comm_fld (.of (readMap_self (jsonGuard_self cx))) (.of (jsonOpt_eq (jsonSos_self cx)))
      (by intros; rfl), by simp⟩

theorem api_agree : ∀ v : Doc F, object apiFields v →
    Rel (ApiRel cx) (readObj (yamlApi cx) v) (jsonApi cx v) := by
  refine object_check (fs := apiFields) ?_ rfl (by initial) ?_
  · unfold apiFields
    refine Agree.req (fun v hv => readVec_agree (protocol_agree cx) v (someOf_listOf hv))
        (by setter) <| Agree.cons ?_ <|
      Agree.opt (domain_agree cx) (by setter) <|
      Agree.opt (auth_agree cx) (by setter) <|
      Agree.opt (by agrees) (by setter) .nil
    intro v s s' hv hs
    rw [jsonOpt_nonNull _ hv]
    refine Rel.bind (cors_agree cx v hv) fun o o' ho => ?_
    obtain ⟨a, b, rfl, rfl, ho⟩ := ho
    exact { hs with cors := ho }
  · intro m hm d hd
    have h1 := fill_sets (P := fun d => d.protocols.isEmpty = false) (fs := apiFields)
      (by
        unfold apiFields
        refine Keeps.fld (fun _ _ _ hv ha _ => vec_nonempty hv ha) (Keeps.cons ?_ (by kept vec_nonempty))
        intro v s s' _ hs h
        obtain ⟨o, _, h⟩ := bind_eq_ok h
        cases o <;> (cases h; exact hs))
      (by unfold apiFields; brought vec_nonempty) hm.shapes
      (fits_in hm "protocols" (ns := ["protocols".toList]) rfl (by decide)) hd
    rw [h1]
    rfl

end Verif.Blueprint
