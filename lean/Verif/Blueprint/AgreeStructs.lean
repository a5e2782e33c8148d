import Verif.Blueprint.AgreeLemmas

/-!
# The two readers agree on portable documents: specifications of resources
-/

namespace Verif.Blueprint

open Verif Verif.Subst Spec

variable {F : Type} (cx : Ctx F)

/-- Closes the goal that two readers agree on values of a shape. -/
syntax "agrees" : tactic
macro_rules | `(tactic| agrees) => `(tactic| exact text_agree _ _)
macro_rules | `(tactic| agrees) => `(tactic| exact texts_agree _ _)
macro_rules | `(tactic| agrees) => `(tactic| exact textMap_agree _ _)
macro_rules | `(tactic| agrees) => `(tactic| exact integer_agree _)
macro_rules | `(tactic| agrees) => `(tactic| exact boolean_agree _)
macro_rules | `(tactic| agrees) => `(tactic| exact real_agree _)
macro_rules | `(tactic| agrees) => `(tactic| exact yamlNode_agree _)
macro_rules | `(tactic| agrees) => `(tactic| exact plainMap_agree _)

/-- Closes the goal that two tables agree, the readers of all fields being known. -/
macro "columns" : tactic => `(tactic| repeat' first
  | exact Agree.nil
  | refine Agree.opt (by agrees) (by setter) ?_
  | refine Agree.req (by agrees) (by setter) ?_)

theorem shared_agree : ∀ v : Doc F, object sharedFields v →
    Rel (SharedRel cx) (readObj (yamlShared cx) v) (jsonShared cx v) :=
  object_agree (fs := sharedFields) (by unfold sharedFields; columns) rfl (by initial)

theorem handler_agree : ∀ v : Doc F, object handlerFields v →
    Rel (HandlerRel cx) (readObj (yamlHandler cx) v) (jsonHandler cx v) :=
  object_agree (fs := handlerFields) (by unfold handlerFields; columns) rfl (by initial)

theorem corsConfig_agree : ∀ v : Doc F, object corsFields v →
    Rel (CorsConfigRel cx) (readObj (yamlCorsConfig cx) v) (jsonCorsConfig cx v) :=
  object_agree (fs := corsFields) (by unfold corsFields; columns) rfl (by initial)

theorem retry_agree : ∀ v : Doc F, object retryFields v →
    Rel (RetryRel cx) (readObj (yamlRetry cx) v) (jsonRetry cx v) :=
  object_agree (fs := retryFields) (by unfold retryFields; columns) rfl (by initial)

theorem catch_agree : ∀ v : Doc F, object catchFields v →
    Rel Eq (readObj (yamlCatch cx) v) (jsonCatch cx v) :=
  object_agree (fs := catchFields) (by unfold catchFields; columns) rfl rfl

theorem wait_agree : ∀ v : Doc F, object waitFields v →
    Rel Eq (readObj (yamlWait cx) v) (jsonWait cx v) :=
  object_agree (fs := waitFields) (by unfold waitFields; columns) rfl rfl

theorem failure_agree : ∀ v : Doc F, object failureFields v →
    Rel Eq (readObj (yamlFailure cx) v) (jsonFailure cx v) :=
  object_agree (fs := failureFields) (by unfold failureFields; columns) rfl rfl

theorem tame_sos : Tame (jsonSos cx) := .of (jsonSos_self cx)

theorem schedule_agree (v : Doc F) (h : object scheduleFields v) :
    Rel Eq (readObj (yamlSchedule cx) v) (jsonSchedule cx v) := by
  obtain ⟨m, rfl, hm⟩ := h
  obtain ⟨v, hv, _⟩ := Fits.get hm (p := req "schedule" text) (List.mem_cons_self ..) rfl
  have hv : get? m "schedule".toList = some v := hv
  unfold jsonSchedule
  rw [jsonStruct_obj (rq := ["schedule".toList]) (fs := scheduleFields) rfl hm, fill_one hm.nodup hv]
  simp only [readObj, yamlSchedule, hv, sos_eq]
  have := jsonSos_self cx v
  rcases tame_sos cx v with ⟨a, ha⟩ | ha
  · rw [ha]; exact rfl
  · rw [ha]; trivial

/-! ## Consumers -/

/-- A key of one of the fields given is one of their names. -/
theorem only_missing {fs : List (FieldSpec F)} {m : List (Str × Doc F)} (h : OnlyFields fs m)
    {ns : List Str} (hn : fs.map (·.name) = ns) {k : Str} (hk : k ∉ ns) : ∀ e ∈ m, e.1 ≠ k := by
  intro e he hek
  obtain ⟨f, hf, hfk⟩ := h e he
  apply hk
  rw [← hn, ← hek, ← hfk]
  exact List.mem_map.2 ⟨f, hf, rfl⟩

theorem jsonStream_missing {fs : List (FieldSpec F)} {m : List (Str × Doc F)}
    (h : OnlyFields fs m) {ns : List Str} (hn : fs.map (·.name) = ns) {k : String}
    (hk : k.toList ∉ ns) :
    jsonStream cx k (.obj m) = .err .format :=
  jsonStruct_missing (k := k.toList) (by simp) (only_missing h hn hk) _

theorem jsonObjectStorage_missing {fs : List (FieldSpec F)} {m : List (Str × Doc F)}
    (h : OnlyFields fs m) {ns : List Str} (hn : fs.map (·.name) = ns) (hk : "bucket".toList ∉ ns) :
    jsonObjectStorage cx (.obj m) = .err .format :=
  jsonStruct_missing (k := "bucket".toList) (by simp) (only_missing h hn hk) _

theorem objectStorage_agree (v : Doc F) (h : closedObject objectStorageFields v) :
    Rel (EvConfigRel cx) (readObj (yamlEvConfig cx .objectStorage) v) (jsonEvConfig cx v) := by
  obtain ⟨m, rfl, hm, honly⟩ := h
  obtain ⟨b, hb, _⟩ := Fits.get hm (p := req "bucket" text) (by simp [objectStorageFields]) rfl
  obtain ⟨e, he, _⟩ := Fits.get hm (p := req "events" (listOf text))
    (by simp [objectStorageFields]) rfl
  have hb : get? m "bucket".toList = some b := hb
  have he : get? m "events".toList = some e := he
  have hj : jsonObjectStorage cx (.obj m) = (jsonSos cx b >>= fun a => jsonSosVec cx e >>= fun l =>
      Pure.pure (a, l)) := by
    unfold jsonObjectStorage
    rw [jsonStruct_obj (rq := ["bucket".toList, "events".toList]) (fs := objectStorageFields) rfl hm,
      fill_two (tame_sos cx) (.of (jsonSosVec_self cx)) (by intros; rfl) (by decide) hm.nodup hb he]
  have h1 := jsonStream_missing cx honly (k := "dbStreamId") (ns := ["bucket".toList, "events".toList])
    rfl (by decide)
  have h2 := jsonStream_missing cx honly (k := "dataStreamId") (ns := ["bucket".toList, "events".toList])
    rfl (by decide)
  have hv : yamlSosVec cx e = jsonSosVec cx e := by unfold yamlSosVec jsonSosVec; rw [sos_eq]
  simp only [readObj, yamlEvConfig, yamlObjectStorage, hb, he, jsonEvConfig, hj, h1, h2, sos_eq, hv]
  rcases tame_sos cx b with ⟨a, ha⟩ | ha
  · rcases (Tame.of (jsonSosVec_self cx)) e with ⟨l, hl⟩ | hl
    · simp only [ha, hl, Outcome.bind_ok, Outcome.pure_eq, orElse]
      exact ⟨rfl, rfl⟩
    · simp only [ha, hl, Outcome.bind_ok, Outcome.bind_err, orElse]
      trivial
  · simp only [ha, Outcome.bind_err, orElse]
    trivial

theorem tame_optNode : Tame (jsonOpt (jsonNode cx)) := .of (jsonOpt_self (jsonNode_self cx))

theorem stream_agree (key : String) (h1 : "batchSize".toList ≠ key.toList)
    (h2 : "partialFailures".toList ≠ key.toList) (h3 : "startFromBeginning".toList ≠ key.toList)
    (m : List (Str × Doc F)) (hm : Fits (streamFields key) m) :
    Rel (StreamRel cx) (yamlStream cx key.toList m) (jsonStream cx key (.obj m)) := by
  obtain ⟨v, hv, _⟩ := Fits.get hm (p := req key text) (by simp [streamFields]) rfl
  have hv : get? m key.toList = some v := hv
  unfold jsonStream
  rw [jsonStruct_obj (rq := [key.toList]) (fs := streamFields key) rfl hm]
  unfold fld
  rw [fill_congr (get?_swap h1 _ _ _), fill_extract ?_ ?_ hm.nodup, hv]
  · simp only [yamlStream, hv, sos_eq]
    refine Rel.bind (R := fun id s => s = { streamId := id }) ?_ ?_
    · rcases tame_sos cx v with ⟨a, ha⟩ | ha
      · rw [ha]; exact rfl
      · rw [ha]; trivial
    · rintro id _ rfl
      refine fill_agree (fs := [opt "batchSize" integer, opt "partialFailures" boolean,
        opt "startFromBeginning" boolean]) ?_ ?_ (.inl rfl) (by initial)
      · refine Agree.opt (by agrees) (by setter) (Agree.opt (by agrees) (by setter)
          (Agree.opt (by agrees) (by setter) .nil))
      · intro e he f hf
        refine hm.shapes e he f ?_
        simp only [List.mem_cons, List.not_mem_nil, or_false, streamFields] at hf ⊢
        rcases hf with rfl | rfl | rfl <;> simp
  · simp only [get?_cons, if_neg h1, if_neg h2, if_neg h3]
    rfl
  · simp only [List.forall_mem_cons]
    exact ⟨comm_fld (tame_sos cx) (tame_optNode cx) (by intros; rfl),
      comm_fld (tame_sos cx) (tame_optNode cx) (by intros; rfl),
      comm_fld (tame_sos cx) (tame_optNode cx) (by intros; rfl), by simp⟩

theorem dbStream_agree (v : Doc F) (h : closedObject (streamFields "dbStreamId") v) :
    Rel (EvConfigRel cx) (readObj (yamlEvConfig cx .dbStream) v) (jsonEvConfig cx v) := by
  obtain ⟨m, rfl, hm, honly⟩ := h
  have h1 := jsonObjectStorage_missing cx honly (ns := [
    "batchSize".toList, "dbStreamId".toList, "partialFailures".toList, "startFromBeginning".toList])
    rfl (by decide)
  have h2 := jsonStream_missing cx honly (k := "dataStreamId") (ns := [
    "batchSize".toList, "dbStreamId".toList, "partialFailures".toList, "startFromBeginning".toList])
    rfl (by decide)
  have h := stream_agree cx "dbStreamId" (by decide) (by decide) (by decide) m hm
  simp only [readObj, yamlEvConfig, jsonEvConfig, h1, h2]
  generalize yamlStream cx "dbStreamId".toList m = x at h ⊢
  generalize jsonStream cx "dbStreamId" (.obj m) = y at h ⊢
  match x, y, h with
  | .ok _, .ok _, h => exact h
  | .err .format, .err .format, _ => trivial

theorem dataStream_agree (v : Doc F) (h : closedObject (streamFields "dataStreamId") v) :
    Rel (EvConfigRel cx) (readObj (yamlEvConfig cx .dataStream) v) (jsonEvConfig cx v) := by
  obtain ⟨m, rfl, hm, honly⟩ := h
  have h1 := jsonObjectStorage_missing cx honly (ns := [
    "batchSize".toList, "dataStreamId".toList, "partialFailures".toList, "startFromBeginning".toList])
    rfl (by decide)
  have h2 := jsonStream_missing cx honly (k := "dbStreamId") (ns := [
    "batchSize".toList, "dataStreamId".toList, "partialFailures".toList, "startFromBeginning".toList])
    rfl (by decide)
  have h := stream_agree cx "dataStreamId" (by decide) (by decide) (by decide) m hm
  simp only [readObj, yamlEvConfig, jsonEvConfig, h1, h2]
  generalize yamlStream cx "dataStreamId".toList m = x at h ⊢
  generalize jsonStream cx "dataStreamId" (.obj m) = y at h ⊢
  match x, y, h with
  | .ok _, .ok _, h => exact h
  | .err .format, .err .format, _ => trivial

theorem event_agree_of {name : String} {t : EvType} {sh : Shape F}
    (hy : yamlEvType (F := F) (.str name.toList) = .ok t) (hj : jsonEvType (F := F) (.str name.toList) = .ok t)
    (hc : ∀ v, sh v → Rel (EvConfigRel cx) (readObj (yamlEvConfig cx t) v) (jsonEvConfig cx v))
    (v : Doc F) (h : object [req "sourceType" (oneOf [name]), req "sourceConfiguration" sh] v) :
    Rel (EventRel cx) (readObj (yamlEvent cx) v) (jsonEvent cx v) := by
  obtain ⟨m, rfl, hm⟩ := h
  obtain ⟨a, ha, hna⟩ := Fits.get hm (p := req "sourceType" (oneOf [name])) (by simp) rfl
  obtain ⟨c, hcv, hsc⟩ := Fits.get hm (p := req "sourceConfiguration" sh) (by simp) rfl
  have ha' : get? m "sourceType".toList = some a := ha
  have hcv : get? m "sourceConfiguration".toList = some c := hcv
  obtain ⟨n, hn, rfl⟩ := hna
  obtain rfl : n = name := by simpa using hn
  unfold jsonEvent
  rw [jsonStruct_obj (rq := ["sourceType".toList, "sourceConfiguration".toList])
    (fs := [req "sourceType" (oneOf [n]), req "sourceConfiguration" sh]) rfl hm,
    fill_two (.of jsonEvType_self) (.of (jsonEvConfig_self cx)) (by intros; rfl) (by decide)
      hm.nodup ha' hcv]
  rw [hj]
  show Rel _ (yamlEvent cx m) _
  unfold yamlEvent
  rw [ha']
  dsimp only
  rw [hy, hcv]
  exact Rel.map (Q := EventRel cx) (hc c hsc) fun _ _ h => ⟨rfl, h⟩

theorem event_agree (v : Doc F) (h : event v) :
    Rel (EventRel cx) (readObj (yamlEvent cx) v) (jsonEvent cx v) := by
  rcases h with h | h | h
  · exact event_agree_of cx rfl rfl (objectStorage_agree cx) v h
  · exact event_agree_of cx rfl rfl (dbStream_agree cx) v h
  · exact event_agree_of cx rfl rfl (dataStream_agree cx) v h

theorem event_obj (v : Doc F) (h : event v) : ∃ m, v = .obj m := by
  rcases h with h | h | h <;> exact object_obj v h

theorem consumer_agree : ∀ v : Doc F, object consumerFields v →
    Rel (ConsumerRel cx) (readObj (yamlConsumer cx) v) (jsonConsumer cx v) :=
  object_agree (fs := consumerFields) (by
    unfold consumerFields
    iterate 6 refine Agree.opt (by agrees) (by setter) ?_
    exact Agree.opt (mapSkip_agree event_obj (event_agree cx)) (by setter) .nil) rfl (by initial)

end Verif.Blueprint
