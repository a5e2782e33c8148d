import Verif.Blueprint.FieldLemmas

/-!
# Lemmas: paths do not matter to what is resolved, names do not matter to what is referred to
-/

namespace Verif.Blueprint.Field

open Verif Verif.Subst Verif.Blueprint Verif.Blueprint.Field.Spec

/-! ## Forgetting the paths -/

/-- The result without the field in its error. -/
def erase {A : Type} : PRes A → Res A
  | .ok a => .ok a
  | .err e => .err e.1
  | .panic => .panic

section
variable {A B : Type}

@[simp] theorem erase_ok (a : A) : erase (.ok a) = .ok a := rfl
@[simp] theorem erase_pure (a : A) : erase (Pure.pure a) = Pure.pure a := rfl
@[simp] theorem erase_err (e : Fault) : erase (.err e : PRes A) = .err e.1 := rfl

@[simp] theorem erase_bind (x : PRes A) (f : A → PRes B) :
    erase (x >>= f) = erase x >>= fun a => erase (f a) := by cases x <;> rfl

@[simp] theorem erase_at (field : Str) (r : Res A) : erase (atField field r) = r := by
  cases r with
  | ok a => rfl
  | panic => rfl
  | err e => cases e <;> rfl

theorem erase_opt {f : A → PRes B} {g : A → Res B} (h : ∀ a, erase (f a) = g a) (o : Option A) :
    erase (pOpt f o) = optM g o := by cases o <;> simp [pOpt, optM, h]

theorem erase_list {f : A → PRes B} {g : A → Res B} (h : ∀ a, erase (f a) = g a) (l : List A) :
    erase (pList f l) = listM g l := by induction l <;> simp [pList, listM, h, *]

theorem erase_map {f : Str → A → PRes B} {g : A → Res B} (h : ∀ k a, erase (f k a) = g a)
    (l : List (Str × A)) : erase (pMap f l) = mapM g l := by
  induction l with
  | nil => rfl
  | cons e l ih => obtain ⟨k, a⟩ := e; simp [pMap, mapM, h, ih]

theorem erase_optList {f : A → PRes B} {g : A → Res B} (h : ∀ a, erase (f a) = g a)
    (o : Option (List A)) : erase (pOpt (pList f) o) = optM (listM g) o :=
  erase_opt (erase_list h) o

theorem erase_optMap {f : Str → A → PRes B} {g : A → Res B} (h : ∀ k a, erase (f k a) = g a)
    (o : Option (List (Str × A))) : erase (pOpt (pMap f) o) = optM (mapM g) o :=
  erase_opt (erase_map h) o

variable {F : Type} (cx : Ctx F) (env : Env)

theorem erase_strMap (field : Str) (s : Option (List (Str × Sos))) :
    erase (atStrMap env field s) = optM (mapM (resStr env)) s :=
  erase_optMap (g := resStr env) (fun _ _ => erase_at _ _) s

theorem erase_shared (field : Str) (s : Shared Sos (Node F) (Node F)) :
    erase (atShared cx env field s) = resShared cx env s := by
  simp [atShared, resShared, erase_strMap]

theorem erase_handler (name : Str) (s : HandlerSpec Sos (Node F) (Node F)) :
    erase (atHandler cx env name s) = resHandler cx env s := by
  simp [atHandler, resHandler, erase_strMap]

theorem erase_stream (field : Str) (id : String) (s : Stream Sos (Node F) (Node F)) :
    erase (atStream cx env field id s) = resStream cx env s := by simp [atStream, resStream]

theorem erase_evConfig (field : Str) (s : EvConfig Sos (Node F) (Node F) Sos) :
    erase (atEvConfig cx env field s) = resEvConfig cx env s := by
  cases s <;> simp [atEvConfig, resEvConfig, erase_stream]

theorem erase_event (field : Str) (s : ExternalEvent Sos (Node F) (Node F) Sos) :
    erase (atEvent cx env field s) = resEvent cx env s := by
  simp [atEvent, resEvent, erase_evConfig]

theorem erase_consumer (name : Str) (s : ConsumerSpec Sos (Node F) (Node F) Sos) :
    erase (atConsumer cx env name s) = resConsumer cx env s := by
  simp only [atConsumer, resConsumer, erase_bind, erase_at, erase_pure,
    erase_optMap (fun k a => erase_event cx env _ a)]

theorem erase_wsConfig (field : Str) (n : Node F) :
    erase (atWsConfig cx env field n) = resWsConfig cx env n := by
  cases n <;> simp [atWsConfig, resWsConfig]

theorem erase_protocol (field : Str) (n : Node F) :
    erase (atProtocol cx env field n) = resProtocol cx env n := by
  match n with
  | .scalar (.str s) => simp [atProtocol, resProtocol]
  | .scalar (.int s) => simp [atProtocol, resProtocol]
  | .scalar (.float s) => simp [atProtocol, resProtocol]
  | .scalar (.bool s) => simp [atProtocol, resProtocol]
  | .subst v => simp [atProtocol, resProtocol]
  | .sequence v => simp [atProtocol, resProtocol]
  | .null => simp [atProtocol, resProtocol]
  | .mapping m =>
    simp only [atProtocol, resProtocol]
    cases get? m "websocketConfig".toList <;> simp [erase_wsConfig]

theorem erase_cors (field : Str) (s : Cors Sos (Node F) (Node F)) :
    erase (atCors cx env field s) = resCors cx env s := by
  cases s <;> simp [atCors, resCors, atCorsConfig, resCorsConfig]

theorem erase_strOrConfig (field : Str) (k : String) (s : StrOrConfig Sos (Node F)) :
    erase (atStrOrConfig cx env field k s) = resStrOrConfig cx env s := by
  cases s <;> simp [atStrOrConfig, resStrOrConfig, erase_protocol]

theorem erase_domain (field : Str) (s : Domain Sos (Node F) (Node F) Sos) :
    erase (atDomain cx env field s) = resDomain cx env s := by
  simp [atDomain, resDomain, erase_list (erase_strOrConfig cx env _ _)]

theorem erase_guard (field : Str) (s : Guard Sos (Node F) Sos) :
    erase (atGuard cx env field s) = resGuard cx env s := by
  simp [atGuard, resGuard, erase_opt (erase_strOrConfig cx env _ _)]

theorem erase_auth (field : Str) (s : Auth Sos (Node F) Sos) :
    erase (atAuth cx env field s) = resAuth cx env s := by
  simp [atAuth, resAuth, erase_map (fun _ => erase_guard cx env _)]

theorem erase_api (name : Str) (s : ApiSpec Sos (Node F) (Node F) (Node F) Sos Sos) :
    erase (atApi cx env name s) = resApi cx env s := by
  simp only [atApi, resApi, erase_bind, erase_at, erase_pure, erase_list (erase_protocol cx env _),
    erase_opt (erase_cors cx env _), erase_opt (erase_domain cx env _),
    erase_opt (erase_auth cx env _)]

theorem erase_cond (field : Str) (s : Cond Sos (Node F)) :
    erase (atCond cx env field s) = resCond cx env s := by simp [atCond, resCond]

theorem erase_rule (field : Str) (s : Rule Sos (Node F)) :
    erase (atRule cx env field s) = resRule cx env s := by
  simp only [atRule, resRule, erase_bind, erase_at, erase_pure, erase_opt (erase_cond cx env _),
    erase_optList (erase_cond cx env _)]

theorem erase_wait (field : Str) (s : WaitConfig Sos) :
    erase (atWait env field s) = resWait env s := by simp [atWait, resWait]

theorem erase_failure (field : Str) (s : FailureConfig Sos) :
    erase (atFailure env field s) = resFailure env s := by simp [atFailure, resFailure]

theorem erase_retry (field : Str) (s : Retry Sos (Node F) (Node F) (Node F)) :
    erase (atRetry cx env field s) = resRetry cx env s := by simp [atRetry, resRetry]

theorem erase_catch (field : Str) (s : Catch Sos) :
    erase (atCatch env field s) = resCatch env s := by simp [atCatch, resCatch]

theorem erase_stateFields (field : Str) (s : RawFields F) :
    erase (atStateFields cx env field s) = resStateFields cx env s := by
  simp only [atStateFields, resStateFields, erase_bind, erase_at, erase_pure,
    erase_optList (erase_rule cx env _), erase_opt (erase_wait env _),
    erase_opt (erase_failure env _), erase_optList (erase_retry cx env _),
    erase_optList (erase_catch env _)]

mutual
theorem erase_state (field : Str) (s : RawState F) :
    erase (atState cx env field s) = resState cx env s := by
  obtain ⟨f, b⟩ := s
  simp only [atState, resState, erase_bind, erase_pure, erase_stateFields, erase_branches _ b]
theorem erase_branches (field : Str) (b : Option (List (Sos × List (Str × RawState F)))) :
    erase (atBranches cx env field b) = resBranches cx env b := by
  match b with
  | none => simp only [atBranches, resBranches, erase_ok]
  | some l => simp only [atBranches, resBranches, erase_bind, erase_pure, erase_branchList _ l]
theorem erase_branchList (field : Str) (l : List (Sos × List (Str × RawState F))) :
    erase (atBranchList cx env field l) = resBranchList cx env l := by
  match l with
  | [] => simp only [atBranchList, resBranchList, erase_ok]
  | b :: rest =>
    simp only [atBranchList, resBranchList, erase_bind, erase_pure, erase_branch _ b,
      erase_branchList _ rest]
theorem erase_branch (field : Str) (b : Sos × List (Str × RawState F)) :
    erase (atBranch cx env field b) = resBranch cx env b := by
  obtain ⟨a, l⟩ := b
  simp only [atBranch, resBranch, erase_bind, erase_pure, erase_at, erase_states _ l]
theorem erase_states (field : Str) (l : List (Str × RawState F)) :
    erase (atStates cx env field l) = resStates cx env l := by
  match l with
  | [] => simp only [atStates, resStates, erase_ok]
  | b :: rest =>
    simp only [atStates, resStates, erase_bind, erase_pure, erase_stateEntry _ b,
      erase_states _ rest]
theorem erase_stateEntry (field : Str) (b : Str × RawState F) :
    erase (atStateEntry cx env field b) = resStateEntry cx env b := by
  obtain ⟨k, s⟩ := b
  simp only [atStateEntry, resStateEntry, erase_bind, erase_pure, erase_state _ s]
end

theorem erase_spec (name : Str) (s : RawSpec F) :
    erase (atSpec cx env name s) = resSpec cx env s := by
  cases s <;> simp [atSpec, resSpec, erase_handler, erase_api, erase_consumer, erase_shared,
    atWorkflow, resWorkflow, erase_states, atConfigSpec, resConfigSpec, atTopic, resTopic, atQueue,
    resQueue]

theorem erase_meta (name : Str) (s : Meta Sos (Node F)) :
    erase (atMeta cx env name s) = resMeta cx env s := by
  simp only [atMeta, resMeta, erase_bind, erase_at, erase_pure,
    erase_optMap (g := resolveNodeToScalar cx.parseF env) (fun _ _ => erase_at _ _)]

theorem erase_resource (name : Str) (s : RawResource F) :
    erase (atResource cx env name s) = resResource cx env s := by
  simp only [atResource, resResource, erase_bind, erase_pure, erase_meta,
    erase_opt (erase_spec cx env name)]

theorem erase_resources (l : List (Str × RawResource F)) :
    erase (atResources cx env l) = resResources cx env l := by
  induction l with
  | nil => rfl
  | cons e l ih =>
    obtain ⟨k, r⟩ := e
    simp only [atResources, resResources, erase_bind, erase_pure, erase_resource, ih]

theorem erase_blueprint (b : RawConfig F) :
    erase (atBlueprint cx env b) = resBlueprint cx env b := by
  simp only [atBlueprint, resBlueprint, erase_bind, erase_pure, erase_resources,
    erase_opt (erase_opt (erase_shared cx env _))]

end

/-! ## What is referred to does not depend on the names -/

section
variable {F : Type}

/-- The variables of some fields. -/
def vars (l : List Leaf) : List Str := l.flatMap (·.2)

@[simp] theorem vars_nil : vars [] = [] := rfl
@[simp] theorem vars_cons (x : Leaf) (l : List Leaf) : vars (x :: l) = x.2 ++ vars l := by simp [vars]
@[simp] theorem vars_append (l l' : List Leaf) : vars (l ++ l') = vars l ++ vars l' := by simp [vars]
@[simp] theorem vars_text (ks k s) : vars (text ks k s) = refs s := by simp [text]
@[simp] theorem vars_optText (ks k s) : vars (optText ks k s) = (s.map refs).getD [] := by
  simp [optText]
@[simp] theorem vars_optTexts (ks k s) : vars (optTexts ks k s) = (s.getD []).flatMap refs := by
  simp [optTexts]
@[simp] theorem vars_single (ks k) (s : Option (Node F)) :
    vars (single ks k s) = (s.map scalarRefs).getD [] := by simp [single]

theorem vars_flatMap {A : Type} {f g : A → List Leaf} (h : ∀ a, vars (f a) = vars (g a))
    (l : List A) : vars (l.flatMap f) = vars (l.flatMap g) := by
  induction l with
  | nil => rfl
  | cons a l ih => simp [h, ih]

theorem vars_opt {A : Type} {f g : A → List Leaf} (h : ∀ a, vars (f a) = vars (g a))
    (o : Option A) : vars ((o.map f).getD []) = vars ((o.map g).getD []) := by
  cases o with
  | none => rfl
  | some a => exact h a

theorem vars_protocol (ks ks' : List Str) (n : Node F) :
    vars (ofProtocol ks n) = vars (ofProtocol ks' n) := by
  simp only [ofProtocol, vars_cons]
  cases valueOf n "websocketConfig" <;> simp

theorem vars_strOrConfig (ks ks' : List Str) (k : String) (s : StrOrConfig Sos (Node F)) :
    vars (ofStrOrConfig ks k s) = vars (ofStrOrConfig ks' k s) := by
  cases s with
  | str s => simp [ofStrOrConfig]
  | config c =>
    simp only [ofStrOrConfig, vars_append, vars_text]
    rw [vars_protocol (ks ++ ["protocol".toList]) (ks' ++ ["protocol".toList])]

theorem vars_domain (nm nm' : Naming) (ks : List Str) (s : Domain Sos (Node F) (Node F) Sos) :
    vars (ofDomain nm ks s) = vars (ofDomain nm' ks s) := by simp [ofDomain]

theorem vars_guard (nm nm' : Naming) (ks ks' : List Str) (s : Guard Sos (Node F) Sos) :
    vars (ofGuard nm ks s) = vars (ofGuard nm' ks' s) := by
  simp only [ofGuard, vars_append, vars_optText, vars_optTexts, vars_cons, vars_nil]
  rw [vars_opt (vars_strOrConfig (F := F) (ks ++ ["tokenSource".toList])
    (ks' ++ ["tokenSource".toList]) "source") s.tokenSource]

theorem vars_auth (nm nm' : Naming) (ks : List Str) (s : Auth Sos (Node F) Sos) :
    vars (ofAuth nm ks s) = vars (ofAuth nm' ks s) := by
  simp only [ofAuth, vars_append, vars_optText]
  rw [vars_flatMap (f := fun e : Str × Guard Sos (Node F) Sos =>
      ofGuard nm (ks ++ ["guards".toList] ++ nm.guard e.1) e.2)
    (g := fun e => ofGuard nm' (ks ++ ["guards".toList] ++ nm'.guard e.1) e.2)
    fun e => vars_guard nm nm' _ _ e.2]

theorem vars_api (nm nm' : Naming) (ks : List Str)
    (s : ApiSpec Sos (Node F) (Node F) (Node F) Sos Sos) :
    vars (ofApi nm ks s) = vars (ofApi nm' ks s) := by
  simp only [ofApi, vars_append]
  rw [vars_opt (vars_domain nm nm' (ks ++ ["domain".toList])) s.domain,
    vars_opt (vars_auth nm nm' (ks ++ ["auth".toList])) s.auth]

theorem vars_cond (ks ks' : List Str) (s : Cond Sos (Node F)) :
    vars (ofCond ks s) = vars (ofCond ks' s) := by simp [ofCond]

theorem vars_rule (nm nm' : Naming) (ks : List Str) (s : Rule Sos (Node F)) :
    vars (ofRule nm ks s) = vars (ofRule nm' ks s) := by
  simp only [ofRule, vars_append]
  rw [vars_opt (vars_cond (ks ++ nm.condition) (ks ++ nm'.condition)) s.condition]

theorem vars_stateFields (nm nm' : Naming) (ks : List Str) (s : RawFields F) :
    vars (ofStateFields nm ks s) = vars (ofStateFields nm' ks s) := by
  simp only [ofStateFields, vars_append]
  rw [vars_flatMap (vars_rule nm nm' (ks ++ ["decisions".toList])) (s.decisions.getD [])]

mutual
theorem vars_state (nm nm' : Naming) (ks : List Str) (s : RawState F) :
    vars (ofState nm ks s) = vars (ofState nm' ks s) := by
  obtain ⟨f, b⟩ := s
  simp only [ofState, vars_append, vars_stateFields nm nm' ks f, vars_branches nm nm' _ b]
theorem vars_branches (nm nm' : Naming) (ks : List Str)
    (b : Option (List (Sos × List (Str × RawState F)))) :
    vars (ofBranches nm ks b) = vars (ofBranches nm' ks b) := by
  match b with
  | none => simp only [ofBranches]
  | some l => simp only [ofBranches, vars_branchList nm nm' ks l]
theorem vars_branchList (nm nm' : Naming) (ks : List Str)
    (l : List (Sos × List (Str × RawState F))) :
    vars (ofBranchList nm ks l) = vars (ofBranchList nm' ks l) := by
  match l with
  | [] => simp only [ofBranchList]
  | b :: rest =>
    simp only [ofBranchList, vars_append, vars_branch nm nm' ks b, vars_branchList nm nm' ks rest]
theorem vars_branch (nm nm' : Naming) (ks : List Str) (b : Sos × List (Str × RawState F)) :
    vars (ofBranch nm ks b) = vars (ofBranch nm' ks b) := by
  obtain ⟨a, l⟩ := b
  simp only [ofBranch, vars_append, vars_text, vars_states nm nm' _ l]
theorem vars_states (nm nm' : Naming) (ks : List Str) (l : List (Str × RawState F)) :
    vars (ofStates nm ks l) = vars (ofStates nm' ks l) := by
  match l with
  | [] => simp only [ofStates]
  | b :: rest =>
    simp only [ofStates, vars_append, vars_stateEntry nm nm' ks b, vars_states nm nm' ks rest]
theorem vars_stateEntry (nm nm' : Naming) (ks : List Str) (b : Str × RawState F) :
    vars (ofStateEntry nm ks b) = vars (ofStateEntry nm' ks b) := by
  obtain ⟨k, s⟩ := b
  simp only [ofStateEntry, vars_state nm nm' _ s]
end

theorem vars_spec (nm nm' : Naming) (ks : List Str) (s : RawSpec F) :
    vars (ofSpec nm ks s) = vars (ofSpec nm' ks s) := by
  cases s with
  | api s => exact vars_api nm nm' ks s
  | schedule s => simp [ofSpec]
  | workflow s => simp only [ofSpec, vars_append, vars_states nm nm']
  | _ => rfl

theorem vars_fields (nm nm' : Naming) (b : RawConfig F) :
    vars (fields nm b) = vars (fields nm' b) := by
  simp only [fields, vars_append]
  rw [vars_flatMap (g := fun e => ofResource nm' e.1 e.2) (fun e => by
    simp only [ofResource, vars_append]
    rw [vars_opt (vars_spec nm nm' _) e.2.spec]) b.resources]

theorem referred_iff (nm : Naming) (b : RawConfig F) (n : Str) :
    n ∈ referred b ↔ ∃ x ∈ fields nm b, n ∈ x.2 := by
  have : referred b = vars (fields nm b) := vars_fields documented nm b
  rw [this]
  simp [vars]

/-! ## Blueprints whose fields are all called by their names -/

theorem plain_flatMap {A : Type} {f g : A → List Leaf} {l : List A} (h : ∀ a ∈ l, f a = g a) :
    l.flatMap f = l.flatMap g := by
  induction l with
  | nil => rfl
  | cons a l ih =>
    simp only [List.flatMap_cons]
    rw [h a (by simp), ih fun b hb => h b (by simp [hb])]

theorem plain_rule {nm nm' : Naming} (ks : List Str) {s : Rule Sos (Node F)}
    (h : s.condition = none) : ofRule nm ks s = ofRule nm' ks s := by simp [ofRule, h]

theorem plain_stateFields {nm nm' : Naming} (ks : List Str) {s : RawFields F}
    (h : ∀ r ∈ s.decisions.getD [], r.condition = none) :
    ofStateFields nm ks s = ofStateFields nm' ks s := by
  unfold ofStateFields
  rw [plain_flatMap fun r hr => plain_rule (nm := nm) (nm' := nm') _ (h r hr)]

mutual
theorem plain_state {nm nm' : Naming} (ks : List Str) (s : RawState F) (h : PlainState s) :
    ofState nm ks s = ofState nm' ks s := by
  obtain ⟨f, b⟩ := s
  simp only [PlainState] at h
  simp only [ofState]
  rw [plain_stateFields (nm := nm) (nm' := nm') ks h.1,
    plain_branches (nm := nm) (nm' := nm') _ b h.2]
theorem plain_branches {nm nm' : Naming} (ks : List Str)
    (b : Option (List (Sos × List (Str × RawState F)))) (h : PlainBranches b) :
    ofBranches nm ks b = ofBranches nm' ks b := by
  match b with
  | none => simp only [ofBranches]
  | some l =>
    simp only [PlainBranches] at h
    simp only [ofBranches]
    exact plain_branchList ks l h
theorem plain_branchList {nm nm' : Naming} (ks : List Str)
    (l : List (Sos × List (Str × RawState F))) (h : PlainBranchList l) :
    ofBranchList nm ks l = ofBranchList nm' ks l := by
  match l with
  | [] => simp only [ofBranchList]
  | b :: rest =>
    simp only [PlainBranchList] at h
    simp only [ofBranchList]
    rw [plain_branch (nm := nm) (nm' := nm') ks b h.1,
      plain_branchList (nm := nm) (nm' := nm') ks rest h.2]
theorem plain_branch {nm nm' : Naming} (ks : List Str) (b : Sos × List (Str × RawState F))
    (h : PlainBranch b) : ofBranch nm ks b = ofBranch nm' ks b := by
  obtain ⟨a, l⟩ := b
  simp only [PlainBranch] at h
  simp only [ofBranch]
  rw [plain_states (nm := nm) (nm' := nm') _ l h]
theorem plain_states {nm nm' : Naming} (ks : List Str) (l : List (Str × RawState F))
    (h : PlainStates l) : ofStates nm ks l = ofStates nm' ks l := by
  match l with
  | [] => simp only [ofStates]
  | b :: rest =>
    simp only [PlainStates] at h
    simp only [ofStates]
    rw [plain_stateEntry (nm := nm) (nm' := nm') ks b h.1,
      plain_states (nm := nm) (nm' := nm') ks rest h.2]
theorem plain_stateEntry {nm nm' : Naming} (ks : List Str) (b : Str × RawState F)
    (h : PlainStateEntry b) : ofStateEntry nm ks b = ofStateEntry nm' ks b := by
  obtain ⟨k, s⟩ := b
  simp only [PlainStateEntry] at h
  simp only [ofStateEntry]
  exact plain_state _ s h
end

theorem plain_spec {nm nm' : Naming} (ks : List Str) (s : RawSpec F) (h : PlainSpec s) :
    ofSpec nm ks s = ofSpec nm' ks s := by
  cases s with
  | api s =>
    obtain ⟨h1, h2⟩ := h
    have : (s.auth.map (ofAuth nm (ks ++ ["auth".toList]))) =
        (s.auth.map (ofAuth nm' (ks ++ ["auth".toList]))) := by
      cases ha : s.auth with
      | none => rfl
      | some a =>
        have := h2 a ha
        simp only [Option.map_some, ofAuth, this, List.flatMap_nil]
    simp only [ofSpec, ofApi, h1, this, Option.map_none]
  | schedule s => exact absurd h id
  | workflow s => simp only [ofSpec]; rw [plain_states (nm := nm) (nm' := nm') _ s.states h]
  | _ => rfl

theorem plain_fields {nm nm' : Naming} (b : RawConfig F) (h : PlainBlueprint b) :
    fields nm b = fields nm' b := by
  unfold fields
  rw [plain_flatMap (f := fun e => ofResource nm e.1 e.2) (g := fun e => ofResource nm' e.1 e.2)
    (l := b.resources) fun e he => by
      cases hs : e.2.spec with
      | none => simp [ofResource, hs]
      | some s =>
        simp only [ofResource, hs, Option.map_some, Option.getD_some]
        rw [plain_spec (nm := nm) (nm' := nm') _ s (h e he s hs)]]

end

end Verif.Blueprint.Field
