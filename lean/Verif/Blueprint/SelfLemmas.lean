import Verif.Blueprint.Lemmas

/-!
# What the readers return never makes resolution panic

Each reader, run on any document whatever, gives a format error or a value related to itself.
-/

namespace Verif.Blueprint

open Verif Verif.Subst

variable {F : Type} (cx : Ctx F)

theorem TableSelf.nil {S S' : Type} {R : S → S' → Prop} :
    TableSelf R ([] : List (Field F S)) ([] : List (Field F S')) := trivial

theorem TableSelf.fld {S S' A B : Type} {R : S → S' → Prop} {Q : A → B → Prop} {n : String}
    {r : Doc F → Outcome Err A} {r' : Doc F → Outcome Err B} {set : S → A → S}
    {set' : S' → B → S'} {T : List (Field F S)} {U : List (Field F S')}
    (hr : ∀ v, Rel Q (r v) (r' v)) (hset : ∀ s s' a b, R s s' → Q a b → R (set s a) (set' s' b))
    (h : TableSelf R T U) :
    TableSelf R (Blueprint.fld n r set :: T) (Blueprint.fld n r' set' :: U) :=
  ⟨rfl, fld_self hr hset, h⟩

theorem TableSelf.raw {S S' : Type} {R : S → S' → Prop} {n : Str}
    {f : Doc F → S → Outcome Err S} {g : Doc F → S' → Outcome Err S'} {T : List (Field F S)}
    {U : List (Field F S')} (hf : ∀ v s s', R s s' → Rel R (f v s) (g v s'))
    (h : TableSelf R T U) : TableSelf R ((n, f) :: T) ((n, g) :: U) := ⟨rfl, hf, h⟩

/-- Closes the goal that a setter keeps a relation. -/
macro "setter" : tactic => `(tactic| (
  intro s s' a b hs hab
  first
    | (subst hs; subst hab; rfl)
    | (cases hs; constructor <;> first | assumption | exact hab | exact congrArg some hab)))

/-- Closes the goal that a reader gives values related to themselves. -/
syntax "reader" : tactic
macro_rules | `(tactic| reader) => `(tactic| exact sos_self _)
macro_rules | `(tactic| reader) => `(tactic| exact jsonSos_self _)
macro_rules | `(tactic| reader) => `(tactic| exact jsonOpt_eq (jsonSos_self _))
macro_rules | `(tactic| reader) => `(tactic| exact yamlSosVec_self _)
macro_rules | `(tactic| reader) => `(tactic| exact yamlSosMap_self _)
macro_rules | `(tactic| reader) => `(tactic| exact jsonSosVec_self _)
macro_rules | `(tactic| reader) => `(tactic| exact jsonOpt_eq (jsonSosVec_self _))
macro_rules | `(tactic| reader) => `(tactic| exact jsonOpt_eq (jsonSosMap_self _))
macro_rules | `(tactic| reader) => `(tactic| exact yamlInt_self _)
macro_rules | `(tactic| reader) => `(tactic| exact yamlBool_self _)
macro_rules | `(tactic| reader) => `(tactic| exact yamlFloat_self _)
macro_rules | `(tactic| reader) => `(tactic| exact yamlNode_self _)
macro_rules | `(tactic| reader) => `(tactic| exact jsonOpt_self (jsonNode_self _))
macro_rules | `(tactic| reader) => `(tactic| exact jsonNode_self _)
macro_rules | `(tactic| reader) => `(tactic| exact readVec_self (jsonNode_self _))

/-- Closes the goal that a table keeps a relation, the readers of all fields being known. -/
macro "table" : tactic => `(tactic| repeat' first
  | exact TableSelf.nil
  | refine TableSelf.fld (by reader) (by setter) ?_)

/-- Closes the goal that an initial value is related to itself. -/
macro "initial" : tactic => `(tactic| (constructor <;> first
  | rfl | trivial | exact LRel.nil | exact NR.ofNull _))

theorem yamlShared_self (m : List (Str × Doc F)) :
    Rel (SharedRel cx) (yamlShared cx m) (yamlShared cx m) :=
  fill_self (by table) _ _ (by initial)

theorem jsonShared_self (v : Doc F) : Rel (SharedRel cx) (jsonShared cx v) (jsonShared cx v) :=
  jsonStruct_self rfl (by table) _ (by initial) v

theorem yamlHandler_self (m : List (Str × Doc F)) :
    Rel (HandlerRel cx) (yamlHandler cx m) (yamlHandler cx m) :=
  fill_self (by table) _ _ (by initial)

theorem jsonHandler_self (v : Doc F) : Rel (HandlerRel cx) (jsonHandler cx v) (jsonHandler cx v) :=
  jsonStruct_self rfl (by table) _ (by initial) v

theorem yamlSchedule_self (m : List (Str × Doc F)) :
    Rel Eq (yamlSchedule cx m) (yamlSchedule cx m) := by
  unfold yamlSchedule
  cases get? m "schedule".toList with
  | none => trivial
  | some v => exact sos_self cx v

theorem jsonSchedule_self (v : Doc F) : Rel Eq (jsonSchedule cx v) (jsonSchedule cx v) :=
  jsonStruct_self rfl (by table) _ rfl v

theorem yamlEvType_self (v : Doc F) : Rel Eq (yamlEvType v) (yamlEvType v) := by
  cases v <;> first
    | trivial
    | (simp only [yamlEvType]; (repeat' split) <;> first | trivial | rfl)

theorem evTypeOfName_self (s : Str) :
    Rel Eq (match evTypeOfName s with | some t => .ok t | none => .err .format)
      (match evTypeOfName s with | some t => .ok t | none => .err .format) := by
  cases evTypeOfName s <;> first | trivial | rfl

theorem jsonEvType_self (v : Doc F) : Rel Eq (jsonEvType v) (jsonEvType v) := by
  unfold jsonEvType
  split <;> first | trivial | exact evTypeOfName_self _

theorem yamlStreamFields_self (m : List (Str × Doc F)) (id : Sos) :
    Rel (StreamRel cx) (yamlStreamFields cx m id) (yamlStreamFields cx m id) :=
  fill_self (by table) _ _ (by initial)

theorem yamlStream_self (k : Str) (m : List (Str × Doc F)) :
    Rel (StreamRel cx) (yamlStream cx k m) (yamlStream cx k m) := by
  unfold yamlStream
  cases get? m k with
  | none => trivial
  | some v =>
    refine Rel.bind (sos_self cx v) fun a b h => ?_
    subst h
    exact yamlStreamFields_self cx m a

theorem jsonStream_self (k : String) (v : Doc F) :
    Rel (StreamRel cx) (jsonStream cx k v) (jsonStream cx k v) :=
  jsonStruct_self rfl (by table) _ (by initial) v

theorem yamlObjectStorage_self (m : List (Str × Doc F)) :
    Rel (EvConfigRel cx) (yamlObjectStorage cx m) (yamlObjectStorage cx m) := by
  unfold yamlObjectStorage
  cases get? m "bucket".toList with
  | none => trivial
  | some v =>
    refine Rel.bind (sos_self cx v) fun a b h => ?_
    subst h
    cases get? m "events".toList with
    | none => exact ⟨rfl, rfl⟩
    | some e => exact Rel.bind (yamlSosVec_self cx e) fun c d h => ⟨rfl, h⟩

theorem jsonObjectStorage_self (v : Doc F) :
    Rel Eq (jsonObjectStorage cx v) (jsonObjectStorage cx v) :=
  jsonStruct_self rfl (by table) _ rfl v

theorem yamlEvConfig_self (t : EvType) (m : List (Str × Doc F)) :
    Rel (EvConfigRel cx) (yamlEvConfig cx t m) (yamlEvConfig cx t m) := by
  cases t with
  | objectStorage => exact yamlObjectStorage_self cx m
  | dbStream => exact Rel.bind (yamlStream_self cx _ m) fun _ _ h => h
  | dataStream => exact Rel.bind (yamlStream_self cx _ m) fun _ _ h => h

theorem jsonEvConfig_self (v : Doc F) :
    Rel (EvConfigRel cx) (jsonEvConfig cx v) (jsonEvConfig cx v) := by
  refine orElse_self (Rel.bind (jsonObjectStorage_self cx v) fun a b h => ?_)
    (orElse_self (Rel.bind (jsonStream_self cx _ v) fun _ _ h => h)
      (Rel.bind (jsonStream_self cx _ v) fun _ _ h => h))
  subst h
  exact ⟨rfl, rfl⟩

theorem yamlEvent_self (m : List (Str × Doc F)) :
    Rel (EventRel cx) (yamlEvent cx m) (yamlEvent cx m) := by
  unfold yamlEvent
  cases get? m "sourceType".toList with
  | none => trivial
  | some tv =>
    refine Rel.bind (yamlEvType_self tv) fun t t' ht => ?_
    subst ht
    cases get? m "sourceConfiguration".toList with
    | none => trivial
    | some c =>
      exact Rel.bind (readObj_self (yamlEvConfig_self cx t) c) fun _ _ h => ⟨rfl, h⟩

macro_rules | `(tactic| reader) => `(tactic| exact jsonEvType_self)
macro_rules | `(tactic| reader) => `(tactic| exact jsonEvConfig_self _)

theorem jsonEvent_self (v : Doc F) : Rel (EventRel cx) (jsonEvent cx v) (jsonEvent cx v) :=
  jsonStruct_self rfl (by table) _ ⟨rfl, rfl, rfl⟩ v

theorem yamlEvents_self (v : Doc F) :
    Rel (MRel (EventRel cx)) (readObj (fun m => fillMap (skipNonObj (yamlEvent cx)) m []) v)
      (readObj (fun m => fillMap (skipNonObj (yamlEvent cx)) m []) v) :=
  readObj_self (fun m => fillMap_rel m (fun e _ => skipNonObj_self (yamlEvent_self cx) e.2) .nil) v

macro_rules | `(tactic| reader) => `(tactic| exact yamlEvents_self _)
macro_rules | `(tactic| reader) => `(tactic| exact jsonOpt_self (readMap_self (jsonEvent_self _)))

theorem yamlConsumer_self (m : List (Str × Doc F)) :
    Rel (ConsumerRel cx) (yamlConsumer cx m) (yamlConsumer cx m) :=
  fill_self (by table) _ _ (by initial)

theorem jsonConsumer_self (v : Doc F) :
    Rel (ConsumerRel cx) (jsonConsumer cx v) (jsonConsumer cx v) :=
  jsonStruct_self rfl (by table) _ (by initial) v

theorem yamlProtocolName_self (v : Doc F) :
    Rel (NR cx) (yamlProtocolName v) (yamlProtocolName v) := by
  cases v <;> first
    | trivial
    | (simp only [yamlProtocolName]; (repeat' split) <;> first | trivial | exact NR.ofScalar cx _)

theorem sosNE_self (v : Doc F) :
    Rel (fun a b => a = b ∧ a ≠ []) (yamlSos cx v) (yamlSos cx v) := by
  cases v <;> first | trivial | exact parse_self cx _

theorem yamlWsConfig_self (m : List (Str × Doc F)) :
    Rel (MRel (NR cx)) (yamlWsConfig cx m) (yamlWsConfig cx m) := by
  refine fill_self (.fld (sosNE_self cx) ?_ (.fld (sosNE_self cx) ?_ .nil)) _ _ .nil
  all_goals
    intro s s' a b hs hab
    obtain ⟨rfl, hne⟩ := hab
    exact hmInsert_rel hs _ (NR.ofSubst cx a hne)

theorem yamlProtocol_self (v : Doc F) : Rel (NR cx) (yamlProtocol cx v) (yamlProtocol cx v) := by
  cases v with
  | obj m =>
    simp only [yamlProtocol]
    cases get? m "websocketConfig".toList with
    | none => trivial
    | some c =>
      refine Rel.bind (readObj_self (yamlWsConfig_self cx) c) fun a b h => ?_
      exact NR.ofMapping cx (.cons ⟨rfl, NR.ofMapping cx h⟩ .nil)
  | _ => simp only [yamlProtocol]; exact yamlProtocolName_self cx _

theorem yamlCorsConfig_self (m : List (Str × Doc F)) :
    Rel (CorsConfigRel cx) (yamlCorsConfig cx m) (yamlCorsConfig cx m) :=
  fill_self (by table) _ _ (by initial)

theorem jsonCorsConfig_self (v : Doc F) :
    Rel (CorsConfigRel cx) (jsonCorsConfig cx v) (jsonCorsConfig cx v) :=
  jsonStruct_self rfl (by table) _ (by initial) v

theorem yamlCors_self (v : Doc F) : Rel (ORel (CorsRel cx)) (yamlCors cx v) (yamlCors cx v) := by
  cases v with
  | str s => exact Rel.bind (parse_self cx s) fun _ _ h => h.1
  | obj m => exact Rel.bind (yamlCorsConfig_self cx m) fun _ _ h => h
  | _ => trivial

theorem jsonCors_self (v : Doc F) : Rel (CorsRel cx) (jsonCors cx v) (jsonCors cx v) :=
  orElse_self (Rel.bind (jsonSos_self cx v) fun _ _ h => h)
    (Rel.bind (jsonCorsConfig_self cx v) fun _ _ h => h)

theorem yamlProtocolAnd_self (k : String) (m : List (Str × Doc F)) :
    Rel (ProtocolAndRel cx) (yamlProtocolAnd cx k m) (yamlProtocolAnd cx k m) :=
  fill_self (.fld (yamlProtocolName_self cx) (by setter) (by table)) _ _ (by initial)

theorem jsonProtocolAnd_self (k : String) (v : Doc F) :
    Rel (ProtocolAndRel cx) (jsonProtocolAnd cx k v) (jsonProtocolAnd cx k v) :=
  jsonStruct_self rfl (by table) _ (by initial) v

theorem yamlStrOrConfig_self (k : String) (v : Doc F) :
    Rel (StrOrConfigRel cx) (yamlStrOrConfig cx k v) (yamlStrOrConfig cx k v) := by
  cases v with
  | str s => exact Rel.bind (parse_self cx s) fun _ _ h => h.1
  | obj m => exact Rel.bind (yamlProtocolAnd_self cx k m) fun _ _ h => h
  | _ => trivial

theorem jsonStrOrConfig_self (k : String) (v : Doc F) :
    Rel (StrOrConfigRel cx) (jsonStrOrConfig cx k v) (jsonStrOrConfig cx k v) :=
  orElse_self (Rel.bind (jsonSos_self cx v) fun _ _ h => h)
    (Rel.bind (jsonProtocolAnd_self cx k v) fun _ _ h => h)

macro_rules | `(tactic| reader) => `(tactic| exact readVec_self (yamlStrOrConfig_self _ _))
macro_rules | `(tactic| reader) => `(tactic| exact readVec_self (jsonStrOrConfig_self _ _))
macro_rules | `(tactic| reader) => `(tactic| exact yamlStrOrConfig_self _ _)
macro_rules | `(tactic| reader) => `(tactic| exact jsonOpt_self (jsonStrOrConfig_self _ _))

theorem yamlDomain_self (m : List (Str × Doc F)) :
    Rel (DomainRel cx) (yamlDomain cx m) (yamlDomain cx m) := by
  unfold yamlDomain
  refine Rel.bind (R := DomainRel cx) (fill_self (by table) _ _ (by initial)) fun a b h => ?_
  rw [h.domainName, h.basePaths.isEmpty, h.certificateId]
  exact Rel.bind (Rel.require _) fun _ _ _ => h

theorem jsonDomain_self (v : Doc F) : Rel (DomainRel cx) (jsonDomain cx v) (jsonDomain cx v) :=
  jsonStruct_self rfl (by table) _ (by initial) v

theorem yamlGuardType_self (v : Doc F) : Rel Eq (yamlGuardType v) (yamlGuardType v) := by
  cases v <;> first
    | trivial
    | (simp only [yamlGuardType]; (repeat' split) <;> first | trivial | rfl)

macro_rules | `(tactic| reader) => `(tactic| exact yamlGuardType_self)

theorem yamlGuard_self (m : List (Str × Doc F)) :
    Rel (GuardRel cx) (yamlGuard cx m) (yamlGuard cx m) := by
  unfold yamlGuard
  refine Rel.bind (R := GuardRel cx) (fill_self (by table) _ _ (by initial)) fun a b h => ?_
  rw [h.guardType]
  exact Rel.bind (Rel.require _) fun _ _ _ => h

theorem jsonGuard_self (v : Doc F) : Rel (GuardRel cx) (jsonGuard cx v) (jsonGuard cx v) :=
  jsonStruct_self rfl (by table) _ (by initial) v

theorem yamlAuth_self (m : List (Str × Doc F)) :
    Rel (AuthRel cx) (yamlAuth cx m) (yamlAuth cx m) := by
  unfold yamlAuth
  cases get? m "guards".toList with
  | none => trivial
  | some gs =>
    refine Rel.bind (R := MRel (GuardRel cx)) (readObj_self (fun m => fillMap_rel m
      (fun e _ => skipNonObj_self (yamlGuard_self cx) e.2) .nil) gs) fun a b h => ?_
    cases get? m "defaultGuard".toList with
    | none => exact ⟨rfl, h⟩
    | some d => exact Rel.bind (sos_self cx d) fun _ _ hd => ⟨congrArg some hd, h⟩

macro_rules | `(tactic| reader) => `(tactic| exact readMap_self (jsonGuard_self _))

theorem jsonAuth_self (v : Doc F) : Rel (AuthRel cx) (jsonAuth cx v) (jsonAuth cx v) :=
  jsonStruct_self rfl (by table) _ (by initial) v

macro_rules | `(tactic| reader) => `(tactic| exact readVec_self (yamlProtocol_self _))
macro_rules | `(tactic| reader) => `(tactic| exact readObj_self (yamlDomain_self _))
macro_rules | `(tactic| reader) => `(tactic| exact readObj_self (yamlAuth_self _))
macro_rules | `(tactic| reader) => `(tactic| exact jsonOpt_self (jsonCors_self _))
macro_rules | `(tactic| reader) => `(tactic| exact jsonOpt_self (jsonDomain_self _))
macro_rules | `(tactic| reader) => `(tactic| exact jsonOpt_self (jsonAuth_self _))

theorem yamlApi_self (m : List (Str × Doc F)) : Rel (ApiRel cx) (yamlApi cx m) (yamlApi cx m) := by
  unfold yamlApi
  refine Rel.bind (R := ApiRel cx) (fill_self (.fld (by reader) (by setter) (.raw ?_ (by table)))
    _ _ (by initial)) fun a b h => ?_
  · intro v s s' hs
    refine Rel.bind (yamlCors_self cx v) fun o o' ho => ?_
    match o, o', ho with
    | none, none, _ => exact hs
    | some a, some b, ho => exact { hs with cors := ho }
  · rw [h.protocols.isEmpty]
    exact Rel.bind (Rel.require _) fun _ _ _ => h

theorem jsonApi_self (v : Doc F) : Rel (ApiRel cx) (jsonApi cx v) (jsonApi cx v) :=
  jsonStruct_self rfl (by table) _ (by initial) v

theorem yamlCond_self (m : List (Str × Doc F)) :
    Rel (CondRel cx) (yamlCond cx m) (yamlCond cx m) := by
  unfold yamlCond
  split
  · refine Rel.bind (yamlNodes_self cx _) fun a b h => ?_
    cases get? m "function".toList with
    | none => trivial
    | some f => exact Rel.bind (sos_self cx f) fun _ _ hf => ⟨h, hf⟩
  · trivial

theorem jsonCond_self (v : Doc F) : Rel (CondRel cx) (jsonCond cx v) (jsonCond cx v) :=
  jsonStruct_self rfl (by table) _ (by initial) v

theorem yamlConds_self (v : Doc F) :
    Rel (LRel (CondRel cx)) (yamlConds cx v) (yamlConds cx v) := by
  cases v <;> first | trivial | exact fillVec_rel _ fun v _ => skipNonObj_self (yamlCond_self cx) v

macro_rules | `(tactic| reader) => `(tactic| exact yamlConds_self _)
macro_rules | `(tactic| reader) => `(tactic| exact readObj_self (yamlCond_self _))
macro_rules | `(tactic| reader) => `(tactic| exact jsonOpt_self (readVec_self (jsonCond_self _)))
macro_rules | `(tactic| reader) => `(tactic| exact jsonOpt_self (jsonCond_self _))

theorem yamlRule_self (m : List (Str × Doc F)) :
    Rel (RuleRel cx) (yamlRule cx m) (yamlRule cx m) := by
  unfold yamlRule
  refine Rel.bind (R := RuleRel cx) (fill_self (by table) _ _ (by initial)) fun a b h => ?_
  rw [h.next]
  exact Rel.bind (Rel.require _) fun _ _ _ => h

theorem jsonRule_self (v : Doc F) : Rel (RuleRel cx) (jsonRule cx v) (jsonRule cx v) :=
  jsonStruct_self rfl (by table) _ (by initial) v

theorem yamlRetry_self (m : List (Str × Doc F)) :
    Rel (RetryRel cx) (yamlRetry cx m) (yamlRetry cx m) :=
  fill_self (by table) _ _ (by initial)

theorem jsonRetry_self (v : Doc F) : Rel (RetryRel cx) (jsonRetry cx v) (jsonRetry cx v) :=
  jsonStruct_self rfl (by table) _ (by initial) v

theorem yamlCatch_self (m : List (Str × Doc F)) : Rel Eq (yamlCatch cx m) (yamlCatch cx m) :=
  fill_self (by table) _ _ rfl

theorem jsonCatch_self (v : Doc F) : Rel Eq (jsonCatch cx v) (jsonCatch cx v) :=
  jsonStruct_self rfl (by table) _ rfl v

theorem yamlWait_self (m : List (Str × Doc F)) : Rel Eq (yamlWait cx m) (yamlWait cx m) :=
  fill_self (by table) _ _ rfl

theorem jsonWait_self (v : Doc F) : Rel Eq (jsonWait cx v) (jsonWait cx v) :=
  jsonStruct_self rfl (by table) _ rfl v

theorem yamlFailure_self (m : List (Str × Doc F)) : Rel Eq (yamlFailure cx m) (yamlFailure cx m) :=
  fill_self (by table) _ _ rfl

theorem jsonFailure_self (v : Doc F) : Rel Eq (jsonFailure cx v) (jsonFailure cx v) :=
  jsonStruct_self rfl (by table) _ rfl v

theorem yamlNodeMap_self (v : Doc F) :
    Rel (MRel (NR cx)) (readObj (fun m => yamlNodeEntries cx m []) v)
      (readObj (fun m => yamlNodeEntries cx m []) v) :=
  readObj_self (fun m => yamlNodeEntries_self cx m .nil) v

theorem jsonNodeMap_self (v : Doc F) :
    Rel (MRel (NR cx)) (jsonNodeMap cx v) (jsonNodeMap cx v) :=
  readObj_self (fun m => jsonNodeEntries_self cx m .nil) v

theorem yamlCatches_self (v : Doc F) :
    Rel Eq (yamlVecSkip (yamlCatch cx) v) (yamlVecSkip (yamlCatch cx) v) :=
  Rel.mono (yamlVecSkip_self (yamlCatch_self cx) v) fun _ _ h => LRel.eq h

theorem jsonCatches_self (v : Doc F) :
    Rel Eq (readVec (jsonCatch cx) v) (readVec (jsonCatch cx) v) :=
  Rel.mono (readVec_self (jsonCatch_self cx) v) fun _ _ h => LRel.eq h

macro_rules | `(tactic| reader) => `(tactic| exact yamlNodeMap_self _)
macro_rules | `(tactic| reader) => `(tactic| exact jsonOpt_self (jsonNodeMap_self _))
macro_rules | `(tactic| reader) => `(tactic| exact yamlVecSkip_self (yamlRule_self _))
macro_rules | `(tactic| reader) => `(tactic| exact yamlVecSkip_self (yamlRetry_self _))
macro_rules | `(tactic| reader) => `(tactic| exact yamlCatches_self _)
macro_rules | `(tactic| reader) => `(tactic| exact readObj_self (yamlWait_self _))
macro_rules | `(tactic| reader) => `(tactic| exact readObj_self (yamlFailure_self _))
macro_rules | `(tactic| reader) => `(tactic| exact jsonOpt_self (readVec_self (jsonRule_self _)))
macro_rules | `(tactic| reader) => `(tactic| exact jsonOpt_self (readVec_self (jsonRetry_self _)))
macro_rules | `(tactic| reader) => `(tactic| exact jsonOpt_eq (jsonCatches_self _))
macro_rules | `(tactic| reader) => `(tactic| exact jsonOpt_eq (jsonWait_self _))
macro_rules | `(tactic| reader) => `(tactic| exact jsonOpt_eq (jsonFailure_self _))

theorem yamlStateFields_self (m : List (Str × Doc F)) :
    Rel (FieldsRel cx) (yamlStateFields cx m) (yamlStateFields cx m) := by
  unfold yamlStateFields
  refine fill_self ?_ _ _ (by initial)
  iterate 13 refine TableSelf.fld (by reader) (by setter) ?_
  exact .raw (fun _ _ _ h => h) (by table)

theorem jsonStateFields_self (v : Doc F) :
    Rel (FieldsRel cx) (jsonStateFields cx v) (jsonStateFields cx v) := by
  unfold jsonStateFields
  refine jsonStruct_self rfl ?_ _ (by initial) v
  iterate 13 refine TableSelf.fld (by reader) (by setter) ?_
  exact .raw (fun _ _ _ h => h) (by table)

theorem yamlStartAt_self (m : List (Str × Doc F)) :
    Rel Eq (yamlStartAt cx m) (yamlStartAt cx m) :=
  fill_self (by table) _ _ rfl

theorem jsonStartAt_self (v : Doc F) : Rel Eq (jsonStartAt cx v) (jsonStartAt cx v) :=
  jsonStruct_self rfl (.fld (by reader) (by setter) (.raw (fun _ _ _ h => h) .nil)) _ rfl v

mutual
theorem yamlState_self : ∀ v : Doc F, Rel (StateRel cx) (yamlState cx v) (yamlState cx v)
  | .obj m => by
    simp only [yamlState]
    refine Rel.bind (yamlStateFields_self cx m) fun f f' hf =>
      Rel.bind (yamlBranchesOf_self m (acc := none) (acc' := none) trivial) fun b b' hb => ?_
    rw [hf.stateType]
    exact Rel.bind (Rel.require _) fun _ _ _ => StateRel.mk cx hf hb
  | .null => by simp only [yamlState]; trivial
  | .bool _ => by simp only [yamlState]; trivial
  | .int _ => by simp only [yamlState]; trivial
  | .float _ => by simp only [yamlState]; trivial
  | .str _ => by simp only [yamlState]; trivial
  | .arr _ => by simp only [yamlState]; trivial
theorem yamlBranchesOf_self : ∀ (m : List (Str × Doc F))
    {acc acc' : Option (List (Sos × List (Str × RawState F)))}, ORel (LRel (BranchRel cx)) acc acc' →
    Rel (ORel (LRel (BranchRel cx))) (yamlBranchesOf cx m acc) (yamlBranchesOf cx m acc')
  | [], _, _, h => by simp only [yamlBranchesOf]; exact h
  | (k, v) :: rest, _, _, h => by
    simp only [yamlBranchesOf]
    split
    · exact Rel.bind (yamlBranchList_self v) fun b b' hb =>
        yamlBranchesOf_self rest (acc := some b) (acc' := some b') hb
    · exact yamlBranchesOf_self rest h
theorem yamlBranchList_self : ∀ v : Doc F,
    Rel (LRel (BranchRel cx)) (yamlBranchList cx v) (yamlBranchList cx v)
  | .arr l => by simp only [yamlBranchList]; exact yamlBranches_self l
  | .null => by simp only [yamlBranchList]; trivial
  | .bool _ => by simp only [yamlBranchList]; trivial
  | .int _ => by simp only [yamlBranchList]; trivial
  | .float _ => by simp only [yamlBranchList]; trivial
  | .str _ => by simp only [yamlBranchList]; trivial
  | .obj _ => by simp only [yamlBranchList]; trivial
theorem yamlBranches_self : ∀ l : List (Doc F),
    Rel (LRel (BranchRel cx)) (yamlBranches cx l) (yamlBranches cx l)
  | [] => by simp only [yamlBranches]; exact .nil
  | v :: rest => by
    simp only [yamlBranches]
    refine Rel.bind (yamlBranch_self v) fun b b' hb =>
      Rel.bind (yamlBranches_self rest) fun bs bs' hbs => ?_
    match b, b', hb with
    | none, none, _ => exact hbs
    | some a, some a', ha => exact .cons ha hbs
theorem yamlBranch_self : ∀ v : Doc F,
    Rel (ORel (BranchRel cx)) (yamlBranch cx v) (yamlBranch cx v)
  | .obj m => by
    simp only [yamlBranch]
    exact Rel.bind (yamlStartAt_self cx m) fun st st' hst =>
      Rel.bind (yamlStatesOf_self m .nil) fun ss ss' hss => ⟨hst, hss⟩
  | .null => by simp only [yamlBranch]; trivial
  | .bool _ => by simp only [yamlBranch]; trivial
  | .int _ => by simp only [yamlBranch]; trivial
  | .float _ => by simp only [yamlBranch]; trivial
  | .str _ => by simp only [yamlBranch]; trivial
  | .arr _ => by simp only [yamlBranch]; trivial
theorem yamlStatesOf_self : ∀ (m : List (Str × Doc F)) {acc acc' : List (Str × RawState F)},
    MRel (StateRel cx) acc acc' →
    Rel (MRel (StateRel cx)) (yamlStatesOf cx m acc) (yamlStatesOf cx m acc')
  | [], _, _, h => by simp only [yamlStatesOf]; exact h
  | (k, v) :: rest, _, _, h => by
    simp only [yamlStatesOf]
    split
    · exact Rel.bind (yamlStateMap_self v) fun b b' hb => yamlStatesOf_self rest hb
    · exact yamlStatesOf_self rest h
theorem yamlStateMap_self : ∀ v : Doc F,
    Rel (MRel (StateRel cx)) (yamlStateMap cx v) (yamlStateMap cx v)
  | .obj m => by simp only [yamlStateMap]; exact yamlStates_self m .nil
  | .null => by simp only [yamlStateMap]; trivial
  | .bool _ => by simp only [yamlStateMap]; trivial
  | .int _ => by simp only [yamlStateMap]; trivial
  | .float _ => by simp only [yamlStateMap]; trivial
  | .str _ => by simp only [yamlStateMap]; trivial
  | .arr _ => by simp only [yamlStateMap]; trivial
theorem yamlStates_self : ∀ (m : List (Str × Doc F)) {acc acc' : List (Str × RawState F)},
    MRel (StateRel cx) acc acc' →
    Rel (MRel (StateRel cx)) (yamlStates cx m acc) (yamlStates cx m acc')
  | [], _, _, h => by simp only [yamlStates]; exact h
  | (k, v) :: rest, _, _, h => by
    simp only [yamlStates]
    exact Rel.bind (yamlState_self v) fun s s' hs => yamlStates_self rest (hmInsert_rel h k hs)
end

mutual
theorem jsonState_self : ∀ v : Doc F, Rel (StateRel cx) (jsonState cx v) (jsonState cx v)
  | .obj m => by
    simp only [jsonState]
    exact Rel.bind (jsonStateFields_self cx _) fun f f' hf =>
      Rel.bind (jsonBranchesOf_self m) fun b b' hb => StateRel.mk cx hf hb
  | .arr l => by
    simp only [jsonState]
    exact Rel.bind (jsonStateFields_self cx _) fun f f' hf =>
      Rel.bind (jsonBranchesAt_self l 13) fun b b' hb => StateRel.mk cx hf hb
  | .null => by simp only [jsonState]; trivial
  | .bool _ => by simp only [jsonState]; trivial
  | .int _ => by simp only [jsonState]; trivial
  | .float _ => by simp only [jsonState]; trivial
  | .str _ => by simp only [jsonState]; trivial
theorem jsonBranchesOf_self : ∀ m : List (Str × Doc F),
    Rel (ORel (LRel (BranchRel cx))) (jsonBranchesOf cx m) (jsonBranchesOf cx m)
  | [] => by simp only [jsonBranchesOf]; trivial
  | (k, v) :: rest => by
    simp only [jsonBranchesOf]
    split
    · exact jsonBranchOpt_self v
    · exact jsonBranchesOf_self rest
theorem jsonBranchesAt_self : ∀ (l : List (Doc F)) (n : Nat),
    Rel (ORel (LRel (BranchRel cx))) (jsonBranchesAt cx n l) (jsonBranchesAt cx n l)
  | [], n => by cases n <;> simp only [jsonBranchesAt] <;> trivial
  | v :: rest, 0 => by simp only [jsonBranchesAt]; exact jsonBranchOpt_self v
  | v :: rest, n + 1 => by simp only [jsonBranchesAt]; exact jsonBranchesAt_self rest n
theorem jsonBranchOpt_self : ∀ v : Doc F,
    Rel (ORel (LRel (BranchRel cx))) (jsonBranchOpt cx v) (jsonBranchOpt cx v)
  | .arr l => by
    simp only [jsonBranchOpt]
    exact Rel.bind (jsonBranches_self l) fun _ _ h => h
  | .null => by simp only [jsonBranchOpt]; trivial
  | .bool _ => by simp only [jsonBranchOpt]; trivial
  | .int _ => by simp only [jsonBranchOpt]; trivial
  | .float _ => by simp only [jsonBranchOpt]; trivial
  | .str _ => by simp only [jsonBranchOpt]; trivial
  | .obj _ => by simp only [jsonBranchOpt]; trivial
theorem jsonBranches_self : ∀ l : List (Doc F),
    Rel (LRel (BranchRel cx)) (jsonBranches cx l) (jsonBranches cx l)
  | [] => by simp only [jsonBranches]; exact .nil
  | v :: rest => by
    simp only [jsonBranches]
    exact Rel.bind (jsonBranch_self v) fun b b' hb =>
      Rel.bind (jsonBranches_self rest) fun bs bs' hbs => .cons hb hbs
theorem jsonBranch_self : ∀ v : Doc F,
    Rel (BranchRel cx) (jsonBranch cx v) (jsonBranch cx v)
  | .obj m => by
    simp only [jsonBranch]
    exact Rel.bind (jsonStartAt_self cx _) fun st st' hst =>
      Rel.bind (jsonStatesOf_self m) fun ss ss' hss => ⟨hst, hss⟩
  | .arr l => by
    simp only [jsonBranch]
    exact Rel.bind (jsonStartAt_self cx _) fun st st' hst =>
      Rel.bind (jsonStatesAt_self l 1) fun ss ss' hss => ⟨hst, hss⟩
  | .null => by simp only [jsonBranch]; trivial
  | .bool _ => by simp only [jsonBranch]; trivial
  | .int _ => by simp only [jsonBranch]; trivial
  | .float _ => by simp only [jsonBranch]; trivial
  | .str _ => by simp only [jsonBranch]; trivial
theorem jsonStatesOf_self : ∀ m : List (Str × Doc F),
    Rel (MRel (StateRel cx)) (jsonStatesOf cx m) (jsonStatesOf cx m)
  | [] => by simp only [jsonStatesOf]; exact .nil
  | (k, v) :: rest => by
    simp only [jsonStatesOf]
    split
    · exact jsonStateMap_self v
    · exact jsonStatesOf_self rest
theorem jsonStatesAt_self : ∀ (l : List (Doc F)) (n : Nat),
    Rel (MRel (StateRel cx)) (jsonStatesAt cx n l) (jsonStatesAt cx n l)
  | [], n => by cases n <;> simp only [jsonStatesAt] <;> exact .nil
  | v :: rest, 0 => by simp only [jsonStatesAt]; exact jsonStateMap_self v
  | v :: rest, n + 1 => by simp only [jsonStatesAt]; exact jsonStatesAt_self rest n
theorem jsonStateMap_self : ∀ v : Doc F,
    Rel (MRel (StateRel cx)) (jsonStateMap cx v) (jsonStateMap cx v)
  | .obj m => by simp only [jsonStateMap]; exact jsonStates_self m .nil
  | .null => by simp only [jsonStateMap]; trivial
  | .bool _ => by simp only [jsonStateMap]; trivial
  | .int _ => by simp only [jsonStateMap]; trivial
  | .float _ => by simp only [jsonStateMap]; trivial
  | .str _ => by simp only [jsonStateMap]; trivial
  | .arr _ => by simp only [jsonStateMap]; trivial
theorem jsonStates_self : ∀ (m : List (Str × Doc F)) {acc acc' : List (Str × RawState F)},
    MRel (StateRel cx) acc acc' →
    Rel (MRel (StateRel cx)) (jsonStates cx m acc) (jsonStates cx m acc')
  | [], _, _, h => by simp only [jsonStates]; exact h
  | (k, v) :: rest, _, _, h => by
    simp only [jsonStates]
    exact Rel.bind (jsonState_self v) fun s s' hs => jsonStates_self rest (hmInsert_rel h k hs)
end

theorem yamlWorkflow_self (m : List (Str × Doc F)) :
    Rel (WorkflowRel cx) (yamlWorkflow cx m) (yamlWorkflow cx m) :=
  Rel.bind (Rel.require _) fun _ _ _ => Rel.bind (yamlStartAt_self cx m) fun _ _ hst =>
    Rel.bind (yamlStatesOf_self cx m .nil) fun _ _ hss => ⟨hst, hss⟩

theorem jsonWorkflow_self (v : Doc F) :
    Rel (WorkflowRel cx) (jsonWorkflow cx v) (jsonWorkflow cx v) :=
  Rel.bind (jsonBranch_self cx v) fun _ _ h => ⟨h.1, h.2⟩

theorem yamlConfigSpec_self (m : List (Str × Doc F)) :
    Rel Eq (yamlConfigSpec cx m) (yamlConfigSpec cx m) := fill_self (by table) _ _ rfl

theorem jsonConfigSpec_self (v : Doc F) :
    Rel Eq (jsonConfigSpec cx v) (jsonConfigSpec cx v) := jsonStruct_self rfl (by table) _ rfl v

theorem yamlBucket_self (m : List (Str × Doc F)) :
    Rel Eq (yamlBucket cx m) (yamlBucket cx m) := fill_self (by table) _ _ rfl

theorem jsonBucket_self (v : Doc F) :
    Rel Eq (jsonBucket cx v) (jsonBucket cx v) := jsonStruct_self rfl (by table) _ rfl v

theorem yamlTopic_self (m : List (Str × Doc F)) :
    Rel (TopicRel cx) (yamlTopic cx m) (yamlTopic cx m) :=
  fill_self (by table) _ _ ⟨rfl, NR.ofScalar cx _⟩

theorem jsonTopic_self (v : Doc F) : Rel (TopicRel cx) (jsonTopic cx v) (jsonTopic cx v) :=
  jsonStruct_self rfl (by table) _ (by initial) v

theorem yamlQueue_self (m : List (Str × Doc F)) :
    Rel (QueueRel cx) (yamlQueue cx m) (yamlQueue cx m) :=
  fill_self (by table) _ _ ⟨rfl, NR.ofScalar cx _, trivial⟩

theorem jsonQueue_self (v : Doc F) : Rel (QueueRel cx) (jsonQueue cx v) (jsonQueue cx v) :=
  jsonStruct_self rfl (by table) _ (by initial) v

theorem yamlSpec_self (t : RType) (m : List (Str × Doc F)) :
    Rel (SpecRel cx) (yamlSpec cx t m) (yamlSpec cx t m) := by
  cases t with
  | handler => exact Rel.bind (yamlHandler_self cx m) fun _ _ h => h
  | api => exact Rel.bind (yamlApi_self cx m) fun _ _ h => h
  | consumer => exact Rel.bind (yamlConsumer_self cx m) fun _ _ h => h
  | schedule => exact Rel.bind (yamlSchedule_self cx m) fun _ _ h => h
  | handlerConfig => exact Rel.bind (yamlShared_self cx m) fun _ _ h => h
  | workflow => exact Rel.bind (yamlWorkflow_self cx m) fun _ _ h => h
  | config => exact Rel.bind (yamlConfigSpec_self cx m) fun _ _ h => h
  | bucket => exact Rel.bind (yamlBucket_self cx m) fun _ _ h => h
  | topic => exact Rel.bind (yamlTopic_self cx m) fun _ _ h => h
  | queue => exact Rel.bind (yamlQueue_self cx m) fun _ _ h => h

theorem jsonSpec_self (t : RType) (v : Doc F) :
    Rel (SpecRel cx) (jsonSpec cx t v) (jsonSpec cx t v) := by
  cases t with
  | handler => exact Rel.bind (jsonHandler_self cx v) fun _ _ h => h
  | api => exact Rel.bind (jsonApi_self cx v) fun _ _ h => h
  | consumer => exact Rel.bind (jsonConsumer_self cx v) fun _ _ h => h
  | schedule => exact Rel.bind (jsonSchedule_self cx v) fun _ _ h => h
  | handlerConfig => exact Rel.bind (jsonShared_self cx v) fun _ _ h => h
  | workflow => exact Rel.bind (jsonWorkflow_self cx v) fun _ _ h => h
  | config => exact Rel.bind (jsonConfigSpec_self cx v) fun _ _ h => h
  | bucket => exact Rel.bind (jsonBucket_self cx v) fun _ _ h => h
  | topic => exact Rel.bind (jsonTopic_self cx v) fun _ _ h => h
  | queue => exact Rel.bind (jsonQueue_self cx v) fun _ _ h => h

theorem yamlMeta_self (m : List (Str × Doc F)) :
    Rel (MetaRel cx) (yamlMeta cx m) (yamlMeta cx m) := by
  unfold yamlMeta
  refine Rel.bind (R := MetaRel cx) (fill_self (.fld (by reader) (by setter)
    (.raw ?_ (.raw ?_ .nil))) _ _ (by initial)) fun a b h => ?_
  · intro v s s' hs
    cases v with
    | obj m => exact Rel.bind (yamlNodeEntries_self cx m .nil) fun _ _ h =>
        { hs with annotations := h }
    | _ => exact hs
  · intro v s s' hs
    cases v with
    | obj m => exact Rel.bind (readStrMap_self (.obj m)) fun _ _ h =>
        { hs with labels := congrArg some h }
    | _ => exact hs
  · rw [h.displayName]
    exact Rel.bind (Rel.require _) fun _ _ _ => h

macro_rules | `(tactic| reader) => `(tactic| exact jsonOpt_eq readStrMap_self)
macro_rules | `(tactic| reader) => `(tactic| exact readStrMap_self)

theorem jsonMeta_self (v : Doc F) : Rel (MetaRel cx) (jsonMeta cx v) (jsonMeta cx v) :=
  jsonStruct_self rfl (by table) _ (by initial) v

theorem yamlLabel_self (v : Doc F) : Rel (ORel Eq) (yamlLabel v) (yamlLabel v) := by
  cases v <;> first | trivial | rfl

theorem yamlLinkSelector_self (m : List (Str × Doc F)) :
    Rel Eq (yamlLinkSelector m) (yamlLinkSelector m) := by
  unfold yamlLinkSelector
  split
  · exact Rel.mono (fillMap_rel (Q := Eq) _ (fun e _ => yamlLabel_self e.2) .nil)
      fun _ _ h => MRel.eq h
  · trivial

theorem jsonLinkSelector_self (v : Doc F) :
    Rel Eq (jsonLinkSelector v) (jsonLinkSelector v) := jsonStruct_self rfl (by table) _ rfl v

theorem yamlType_cases (s : Str) :
    (∃ t, yamlType s = .ok t ∧ t.name = s) ∨ yamlType s = .err .unsupportedType := by
  unfold yamlType
  split
  · next h => exact .inl ⟨_, rfl, h.symm⟩
  split
  · next h => exact .inl ⟨_, rfl, h.symm⟩
  split
  · next h => exact .inl ⟨_, rfl, h.symm⟩
  split
  · next h => exact .inl ⟨_, rfl, h.symm⟩
  split
  · next h => exact .inl ⟨_, rfl, h.symm⟩
  split
  · next h => exact .inl ⟨_, rfl, h.symm⟩
  · exact .inr rfl

macro_rules | `(tactic| reader) => `(tactic| exact readObj_self (yamlMeta_self _))
macro_rules | `(tactic| reader) => `(tactic| exact readObj_self yamlLinkSelector_self)
macro_rules | `(tactic| reader) => `(tactic| exact readObj_self (yamlSpec_self _ _))
macro_rules | `(tactic| reader) => `(tactic| exact readStr_self)

theorem yamlResource_self (m : List (Str × Doc F)) :
    yamlResource cx m = .err .unsupportedType ∨
      Rel (ResourceRel cx) (yamlResource cx m) (yamlResource cx m) := by
  unfold yamlResource
  cases get? m "type".toList with
  | none => exact .inr trivial
  | some tv =>
    cases tv with
    | str ts =>
      rcases yamlType_cases ts with ⟨t, ht, _⟩ | ht
      · refine .inr ?_
        simp only [readStr, Outcome.bind_ok, ht]
        refine Rel.bind (R := ResourceRel cx) (fill_self (by table) _ _
          ⟨rfl, by initial, rfl, rfl, trivial⟩) fun a b h => ?_
        rw [show a.spec.isSome = b.spec.isSome from by
          have := h.spec
          cases ha : a.spec <;> cases hb : b.spec <;> simp_all [ORel]]
        exact Rel.bind (Rel.require _) fun _ _ _ => h
      · exact .inl (by simp only [readStr, Outcome.bind_ok, ht, Outcome.bind_err])
    | _ => exact .inr trivial

theorem yamlResourceEntry_self (v : Doc F) :
    Rel (ORel (ResourceRel cx)) (yamlResourceEntry cx v) (yamlResourceEntry cx v) := by
  cases v with
  | obj m =>
    simp only [yamlResourceEntry]
    rcases yamlResource_self cx m with h | h
    · rw [h]; trivial
    · generalize yamlResource cx m = r at h
      match r, h with
      | .ok a, h => exact h
      | .err .format, _ => trivial
  | _ => trivial

/-- The lifting of `NR`. -/
structure JResRel (s t : JRes F) : Prop where
  type : s.type = t.type
  metadata : MetaRel cx s.metadata t.metadata
  spec : ORel (SpecRel cx) s.spec t.spec
  description : s.description = t.description
  linkSelector : s.linkSelector = t.linkSelector
  unsupported : s.unsupported = t.unsupported

theorem ORel.isSome {A B : Type} {R : A → B → Prop} {a : Option A} {b : Option B} (h : ORel R a b) :
    a.isSome = b.isSome := by
  match a, b, h with
  | none, none, _ => rfl
  | some _, some _, _ => rfl

theorem skipFields_self {T U : List (Field F (JRes F))} (h : TableSelf (JResRel cx) T U) :
    TableSelf (JResRel cx) (skipFields T) (skipFields U) := by
  induction T generalizing U with
  | nil => cases U with
    | nil => trivial
    | cons => exact h.elim
  | cons f T ih => cases U with
    | nil => exact h.elim
    | cons g U =>
      obtain ⟨h1, h2, h3⟩ := h
      refine ⟨h1, fun v s s' hs => ?_, ih h3⟩
      dsimp only
      rw [hs.unsupported]
      split
      · exact hs
      · exact h2 v s s' hs

theorem jsonResType_self (v : Doc F) (s s' : JRes F) (hs : JResRel cx s s') :
    Rel (JResRel cx) (jsonResType v s) (jsonResType v s') := by
  unfold jsonResType
  rw [hs.type]
  split
  · trivial
  · split
    · cases typeOfName _ with
      | none => exact { hs with type := rfl, unsupported := rfl }
      | some t => exact { hs with type := rfl }
    · cases typeOfName _ with
      | none => trivial
      | some t => exact { hs with type := rfl }
    · trivial

theorem jsonResSpec_self (v : Doc F) (s s' : JRes F) (hs : JResRel cx s s') :
    Rel (JResRel cx) (jsonResSpec cx v s) (jsonResSpec cx v s') := by
  unfold jsonResSpec
  rw [hs.spec.isSome, hs.type]
  split
  · trivial
  · cases s'.type with
    | none => trivial
    | some t => exact Rel.bind (jsonSpec_self cx t v) fun _ _ h =>
        { hs with type := rfl, spec := h }

theorem jsonResTable_self : TableSelf (JResRel cx) (jsonResTable cx) (jsonResTable cx) := by
  refine .raw (jsonResType_self cx) (.fld (jsonMeta_self cx) (by setter)
    (.raw (jsonResSpec_self cx) (.raw ?_ (.raw ?_ .nil))))
  · intro v s s' hs
    rw [hs.description]
    split
    · trivial
    · exact Rel.bind (readStr_self v) fun _ _ h => { hs with description := congrArg some h }
  · intro v s s' hs
    rw [hs.linkSelector]
    split
    · trivial
    · exact Rel.bind (jsonLinkSelector_self v) fun _ _ h =>
        { hs with linkSelector := congrArg some h }

theorem jsonResource_self (v : Doc F) :
    jsonResource cx v = .err .unsupportedType ∨
      Rel (ResourceRel cx) (jsonResource cx v) (jsonResource cx v) := by
  cases v with
  | obj m =>
    simp only [jsonResource]
    have h : Rel (JResRel cx) (fill true (skipFields (jsonResTable cx)) m {})
        (fill true (skipFields (jsonResTable cx)) m {}) :=
      fill_self (skipFields_self cx (jsonResTable_self cx)) _ _
        ⟨rfl, by initial, trivial, rfl, rfl, rfl⟩
    generalize fill true (skipFields (jsonResTable cx)) m {} = r at h
    match r, h with
    | .ok s, hs =>
      simp only [Outcome.bind_ok]
      cases s.unsupported with
      | true => exact .inl rfl
      | false =>
        refine .inr ?_
        cases s.type with
        | none => trivial
        | some t => exact ⟨rfl, hs.metadata, rfl, rfl, hs.spec⟩
    | .err .format, _ => exact .inr trivial
  | _ => exact .inr trivial

theorem jsonResourceEntry_self (v : Doc F) :
    Rel (ORel (ResourceRel cx)) (jsonResourceEntry cx v) (jsonResourceEntry cx v) := by
  have key : Rel (ORel (ResourceRel cx))
      (match jsonResource cx v with
        | .ok r => .ok (some r)
        | .err .unsupportedType => .ok none
        | .err e => .err e
        | .panic => .panic)
      (match jsonResource cx v with
        | .ok r => .ok (some r)
        | .err .unsupportedType => .ok none
        | .err e => .err e
        | .panic => .panic) := by
    rcases jsonResource_self cx v with h | h
    · rw [h]; trivial
    · generalize jsonResource cx v = r at h
      match r, h with
      | .ok a, h => exact h
      | .err .format, _ => trivial
  cases v with
  | null => trivial
  | _ => exact key

theorem yamlScalar_self (v : Doc F) : Rel Eq (yamlScalar cx v) (yamlScalar cx v) := by
  cases v <;> first | trivial | rfl

theorem jsonScalar_self (v : Doc F) : Rel Eq (jsonScalar cx v) (jsonScalar cx v) := by
  cases v <;> first | trivial | rfl

theorem jsonBool_self (v : Doc F) : Rel Eq (jsonBool v) (jsonBool v) := by
  cases v <;> first | trivial | rfl

macro_rules | `(tactic| reader) => `(tactic| exact yamlScalar_self _)
macro_rules | `(tactic| reader) => `(tactic| exact jsonOpt_eq readStr_self)
macro_rules | `(tactic| reader) => `(tactic| exact jsonOpt_eq jsonBool_self)
macro_rules | `(tactic| reader) => `(tactic| exact jsonOpt_eq (jsonScalar_self _))

theorem yamlVariable_self (m : List (Str × Doc F)) :
    Rel Eq (yamlVariable cx m) (yamlVariable cx m) := by
  unfold yamlVariable
  refine Rel.bind (R := Eq) (fill_self (.fld (by reader) (by setter) (.raw ?_
    (.fld (by reader) (by setter) (.raw ?_ (.fld (by reader) (by setter) .nil))))) _ _ rfl)
    fun a b h => ?_
  · rintro v s _ rfl
    cases v with
    | arr l =>
      refine Rel.bind (Rel.mono (fillVec_rel (Q := Eq) l fun v _ => keep_rel (yamlScalar_self cx v))
        fun _ _ h => LRel.eq h) fun a b h => ?_
      subst h
      rfl
    | _ => rfl
  · rintro v s _ rfl
    cases v <;> first | trivial | rfl
  · subst h
    exact Rel.bind (Rel.require _) fun _ _ _ => rfl

theorem jsonScalars_self (v : Doc F) :
    Rel Eq (readVec (jsonScalar cx) v) (readVec (jsonScalar cx) v) :=
  Rel.mono (readVec_self (jsonScalar_self cx) v) fun _ _ h => LRel.eq h

macro_rules | `(tactic| reader) => `(tactic| exact jsonOpt_eq (jsonScalars_self _))

theorem jsonVariable_self (v : Doc F) : Rel Eq (jsonVariable cx v) (jsonVariable cx v) :=
  jsonStruct_self rfl (by table) _ rfl v

theorem yamlBlueprint_self (v : Doc F) :
    Rel (ConfigRel cx) (yamlBlueprint cx v) (yamlBlueprint cx v) := by
  cases v with
  | obj m =>
    refine Rel.bind (R := ConfigRel cx) (fill_self (.raw ?_ (.raw ?_ (.raw ?_ (.raw ?_
      (.raw ?_ .nil))))) _ _ (by initial)) fun a b h => ?_
    · intro v s s' hs
      cases v with
      | str t =>
        dsimp only
        split
        · exact { hs with version := rfl }
        · trivial
      | _ => exact hs
    · intro v s s' hs
      cases v with
      | str t => exact { hs with transform := rfl }
      | _ => exact hs
    · intro v s s' hs
      cases v with
      | obj m =>
        refine Rel.bind (Rel.mono (fillMap_rel (Q := Eq) m
          (fun e _ => skipNonObj_self (yamlVariable_self cx) e.2) .nil) fun _ _ h => MRel.eq h)
          fun a b h => ?_
        exact { hs with variables := congrArg some h }
      | _ => exact hs
    · intro v s s' hs
      cases v with
      | obj m =>
        exact Rel.bind (fillMap_rel m (fun e _ => yamlResourceEntry_self cx e.2) .nil)
          fun a b h => { hs with resources := h }
      | _ => exact hs
    · intro v s s' hs
      cases v with
      | obj m =>
        refine fill_self (.raw ?_ .nil) _ _ hs
        intro v s s' hs
        cases v with
        | obj m => exact Rel.bind (yamlShared_self cx m) fun a b h => { hs with metadata := h }
        | _ => exact hs
      | _ => exact hs
    · rw [h.version, h.resources.isEmpty]
      exact Rel.bind (Rel.require _) fun _ _ _ => Rel.bind (Rel.require _) fun _ _ _ => h
  | _ => trivial

theorem jsonVersion_self (v : Doc F) : Rel Eq (jsonVersion v) (jsonVersion v) := by
  cases v <;> first
    | trivial
    | (simp only [jsonVersion]; split <;> first | trivial | rfl)

theorem readStrs_self (v : Doc F) : Rel Eq (readVec readStr v) (readVec readStr v) :=
  Rel.mono (readVec_self readStr_self v) fun _ _ h => LRel.eq h

theorem jsonTransform_self (v : Doc F) : Rel Eq (jsonTransform v) (jsonTransform v) := by
  cases v with
  | str s => rfl
  | _ => simp only [jsonTransform]; exact readStrs_self _

theorem jsonVariables_self (v : Doc F) :
    Rel Eq (readMap (jsonVariable cx) v) (readMap (jsonVariable cx) v) :=
  Rel.mono (readMap_self (jsonVariable_self cx) v) fun _ _ h => MRel.eq h

theorem jsonResources_self (v : Doc F) :
    Rel (MRel (ResourceRel cx)) (readObj (fun m => fillMap (jsonResourceEntry cx) m []) v)
      (readObj (fun m => fillMap (jsonResourceEntry cx) m []) v) :=
  readObj_self (fun m => fillMap_rel m (fun e _ => jsonResourceEntry_self cx e.2) .nil) v

theorem jsonBlueprintMeta_self (v : Doc F) :
    Rel (ORel (SharedRel cx)) (jsonBlueprintMeta cx v) (jsonBlueprintMeta cx v) :=
  jsonStruct_self rfl (.fld (jsonOpt_self (jsonShared_self cx)) (fun _ _ _ _ _ h => h) .nil) _
    (show ORel (SharedRel cx) none none from trivial) v

theorem jsonBlueprint_self (v : Doc F) :
    Rel (ConfigRel cx) (jsonBlueprint cx v) (jsonBlueprint cx v) :=
  jsonStruct_self rfl (.fld jsonVersion_self (by setter) (.fld jsonTransform_self (by setter)
    (.fld (jsonOpt_eq (jsonVariables_self cx)) (by setter) (.fld (jsonResources_self cx) (by setter)
    (.fld (jsonOpt_self (jsonBlueprintMeta_self cx)) (by setter) .nil))))) _ (by initial) v

end Verif.Blueprint
