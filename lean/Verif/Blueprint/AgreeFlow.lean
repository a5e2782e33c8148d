import Verif.Blueprint.AgreeApi

/-!
# The two readers agree on portable documents: workflows
-/

namespace Verif.Blueprint

open Verif Verif.Subst Spec

variable {F : Type} (cx : Ctx F)

theorem cond_agree (v : Doc F) (h : object condFields v) :
    Rel (CondRel cx) (readObj (yamlCond cx) v) (jsonCond cx v) := by
  obtain ⟨m, rfl, hm⟩ := h
  obtain ⟨i, hi, hsi⟩ := Fits.get hm (p := req "inputs" (listOf Plain)) (by simp [condFields]) rfl
  obtain ⟨f, hf, _⟩ := Fits.get hm (p := req "function" text) (by simp [condFields]) rfl
  have hf : get? m "function".toList = some f := hf
  obtain ⟨l, rfl, hl⟩ := hsi
  have hi' : get? m "inputs".toList = some (.arr l) := hi
  unfold jsonCond
  rw [jsonStruct_obj (rq := ["inputs".toList, "function".toList]) (fs := condFields) rfl hm,
    fill_two (.of (readVec_self (jsonNode_self cx))) (tame_sos cx) (by intros; rfl) (by decide)
      hm.nodup hi' hf]
  show Rel _ (yamlCond cx m) _
  unfold yamlCond
  rw [hi', hf, sos_eq]
  dsimp only
  rw [show readVec (jsonNode cx) (.arr l) = jsonNodes cx l from nodes_eq cx l]
  refine Rel.bind (yamlNodes_agree cx l hl) fun a b hab => ?_
  exact Rel.bind (jsonSos_self cx f) fun _ _ h => ⟨hab, h⟩

theorem conds_agree (v : Doc F) (h : listOf (object condFields) v) :
    Rel (LRel (CondRel cx)) (yamlConds cx v) (readVec (jsonCond cx) v) := by
  have := vecSkip_agree (cond_agree cx) v h
  obtain ⟨l, rfl, _⟩ := h
  exact this

theorem rule_agree : ∀ v : Doc F, object ruleFields v →
    Rel (RuleRel cx) (readObj (yamlRule cx) v) (jsonRule cx v) := by
  refine object_check (fs := ruleFields) ?_ rfl (by initial) ?_
  · unfold ruleFields
    exact Agree.opt (conds_agree cx) (by setter) <| Agree.opt (conds_agree cx) (by setter) <|
      Agree.opt (cond_agree cx) (by setter) <| Agree.opt (cond_agree cx) (by setter) <|
      Agree.req (by agrees) (by setter) .nil
  · intro m hm d hd
    have h1 := fill_sets (P := fun d => sosEmpty d.next = false) (fs := ruleFields)
      (by unfold ruleFields; kept sos_not_empty cx)
      (by unfold ruleFields; brought sos_not_empty cx) hm.shapes
      (fits_in hm "next" (ns := ["next".toList]) rfl (by decide)) hd
    rw [h1]
    rfl

theorem stateFields_agree {m : List (Str × Doc F)} (hm : Fits (stateFields fun _ => True) m)
    (ho : OnlyFields (stateFields fun _ => True) m) :
    Rel (FieldsRel cx) (yamlStateFields cx m) (jsonStateFields cx (.obj m)) := by
  unfold yamlStateFields jsonStateFields
  rw [jsonStruct_obj (rq := ["type".toList]) (fs := stateFields fun _ => True) rfl hm]
  refine fill_agree ?_ hm.shapes (.inr ho) (by initial)
  unfold stateFields
  exact Agree.req (by agrees) (by setter) <| Agree.opt (by agrees) (by setter) <|
    Agree.opt (by agrees) (by setter) <| Agree.opt (by agrees) (by setter) <|
    Agree.opt (by agrees) (by setter) <| Agree.opt (plainMap_agree cx) (by setter) <|
    Agree.opt (by agrees) (by setter) <| Agree.opt (by agrees) (by setter) <|
    Agree.opt (vecSkip_agree (rule_agree cx)) (by setter) <|
    Agree.opt (by agrees) (by setter) <|
    Agree.opt (by agrees) (by setter) <| Agree.opt (wait_agree cx) (by setter) <|
    Agree.opt (failure_agree cx) (by setter) <| Agree.cons (fun _ _ _ _ hs => hs) <|
    Agree.opt (vecSkip_agree (retry_agree cx)) (by setter) <|
    Agree.opt (fun v hv => (vecSkip_agree (catch_agree cx) v hv).mono fun _ _ h => h.eq)
      (by setter) .nil

theorem stateType_some {m : List (Str × Doc F)} (hm : Fits (stateFields fun _ => True) m)
    {f : RawFields F} (h : yamlStateFields cx m = .ok f) : sosEmpty f.stateType = false := by
  refine fill_sets (P := fun d => sosEmpty d.stateType = false) (fs := stateFields fun _ => True)
    ?_ (by unfold stateFields; brought sos_not_empty cx) hm.shapes
    (fits_in hm "type" (ns := ["type".toList]) rfl (by decide)) h
  unfold stateFields
  refine Keeps.fld (fun _ _ _ hv ha _ => sos_not_empty cx hv ha) ?_
  iterate 12 refine Keeps.fld (fun _ _ _ _ _ h => h) ?_
  refine Keeps.cons (fun _ _ _ _ hs h => by cases h; exact hs) ?_
  iterate 2 refine Keeps.fld (fun _ _ _ _ _ h => h) ?_
  exact .nil

theorem startAt_agree {m : List (Str × Doc F)} (hm : Fits (workflowFields fun _ => True) m) :
    Rel Eq (yamlStartAt cx m) (jsonStartAt cx (.obj m)) := by
  obtain ⟨v, hv, _⟩ := Fits.get hm (p := req "startAt" text) (by simp [workflowFields]) rfl
  unfold yamlStartAt jsonStartAt
  rw [jsonStruct_obj (rq := ["startAt".toList, "states".toList])
    (fs := workflowFields fun _ => True) rfl hm, fill_one hm.nodup hv]
  unfold fld
  rw [fill_extract rfl (fun g hg => ?_) hm.nodup, show get? m "startAt".toList = some v from hv, sos_eq]
  · dsimp only
    rcases tame_sos cx v with ⟨s, hs⟩ | hs
    · simp only [hs, Outcome.bind_ok, Outcome.pure_eq]
      have : ∀ m : List (Str × Doc F),
          fill false [("states".toList, fun _ s => .ok s)] m s = .ok s := by
        intro m
        induction m with
        | nil => rfl
        | cons e m ih =>
          simp only [fill, get?_cons]
          by_cases h : "states".toList = e.1
          · rw [if_pos h]; exact ih
          · rw [if_neg h]; exact ih
      rw [this]
      exact rfl
    · rw [hs]; trivial
  · rw [List.mem_singleton] at hg
    subst hg
    intro v w s
    dsimp only
    rcases tame_sos cx v with ⟨a, ha⟩ | ha <;> rw [ha] <;> rfl

theorem nodup_tail {e : Str × Doc F} {m : List (Str × Doc F)}
    (h : ((e :: m).map (·.1)).Nodup) : (m.map (·.1)).Nodup := by
  rw [List.map_cons, List.nodup_cons] at h
  exact h.2

theorem nodup_head {k : Str} {v : Doc F} {m : List (Str × Doc F)}
    (h : (((k, v) :: m).map (·.1)).Nodup) : get? m k = none := by
  rw [List.map_cons, List.nodup_cons] at h
  exact get?_none fun e he hk => h.1 (List.mem_map.2 ⟨e, he, hk⟩)

theorem yamlBranchesOf_get {m : List (Str × Doc F)} (hm : (m.map (·.1)).Nodup)
    (acc : Option (List (Sos × List (Str × RawState F)))) :
    yamlBranchesOf cx m acc = match get? m "parallelBranches".toList with
      | some v => yamlBranchList cx v >>= fun b => .ok (some b)
      | none => .ok acc := by
  induction m generalizing acc with
  | nil => simp only [yamlBranchesOf]; rfl
  | cons e m ih =>
    obtain ⟨k, v⟩ := e
    simp only [yamlBranchesOf, get?_cons]
    by_cases hk : k = "parallelBranches".toList
    · simp only [if_pos hk]
      have hno := nodup_head hm
      rw [hk] at hno
      simp only [ih (nodup_tail hm), hno]
    · simp only [if_neg hk]
      exact ih (nodup_tail hm) acc

theorem jsonBranchesOf_get (m : List (Str × Doc F)) :
    jsonBranchesOf cx m = match get? m "parallelBranches".toList with
      | some v => jsonBranchOpt cx v
      | none => .ok none := by
  induction m with
  | nil => simp only [jsonBranchesOf]; rfl
  | cons e m ih =>
    obtain ⟨k, v⟩ := e
    simp only [jsonBranchesOf, get?_cons]
    by_cases hk : k = "parallelBranches".toList
    · simp only [if_pos hk]
    · simp only [if_neg hk]; exact ih

theorem yamlStatesOf_get {m : List (Str × Doc F)} (hm : (m.map (·.1)).Nodup)
    (acc : List (Str × RawState F)) :
    yamlStatesOf cx m acc = match get? m "states".toList with
      | some v => yamlStateMap cx v
      | none => .ok acc := by
  induction m generalizing acc with
  | nil => simp only [yamlStatesOf]; rfl
  | cons e m ih =>
    obtain ⟨k, v⟩ := e
    simp only [yamlStatesOf, get?_cons]
    by_cases hk : k = "states".toList
    · simp only [if_pos hk]
      have hno := nodup_head hm
      rw [hk] at hno
      simp only [ih (nodup_tail hm), hno]
      exact bind_ok_id _
    · simp only [if_neg hk]
      exact ih (nodup_tail hm) acc

theorem jsonStatesOf_get (m : List (Str × Doc F)) :
    jsonStatesOf cx m = match get? m "states".toList with
      | some v => jsonStateMap cx v
      | none => .ok [] := by
  induction m with
  | nil => simp only [jsonStatesOf]; rfl
  | cons e m ih =>
    obtain ⟨k, v⟩ := e
    simp only [jsonStatesOf, get?_cons]
    by_cases hk : k = "states".toList
    · simp only [if_pos hk]
    · simp only [if_neg hk]; exact ih

theorem branches_agree (l : List (Doc F))
    (h : ∀ b ∈ l, Rel (fun o b => ∃ a, o = some a ∧ BranchRel cx a b) (yamlBranch cx b)
      (jsonBranch cx b)) :
    Rel (LRel (BranchRel cx)) (yamlBranches cx l) (jsonBranches cx l) := by
  induction l with
  | nil => simp only [yamlBranches, jsonBranches]; exact .nil
  | cons v l ih =>
    simp only [yamlBranches, jsonBranches]
    refine Rel.bind (h v (List.mem_cons_self ..)) fun o b ho => ?_
    obtain ⟨a, rfl, hab⟩ := ho
    exact Rel.bind (ih fun b hb => h b (List.mem_cons_of_mem _ hb)) fun _ _ hr => .cons hab hr

theorem states_agree (m : List (Str × Doc F))
    (h : ∀ e ∈ m, Rel (StateRel cx) (yamlState cx e.2) (jsonState cx e.2))
    {acc acc' : List (Str × RawState F)} (ha : MRel (StateRel cx) acc acc') :
    Rel (MRel (StateRel cx)) (yamlStates cx m acc) (jsonStates cx m acc') := by
  induction m generalizing acc acc' with
  | nil => simp only [yamlStates, jsonStates]; exact ha
  | cons e m ih =>
    simp only [yamlStates, jsonStates]
    exact Rel.bind (h e (List.mem_cons_self ..)) fun _ _ hs =>
      ih (fun e he => h e (List.mem_cons_of_mem _ he)) (hmInsert_rel ha _ hs)

/-- The claim for branches. -/
def BranchesAgree (v : Doc F) : Prop :=
  Rel (ORel (LRel (BranchRel cx))) (yamlBranchList cx v >>= fun b => .ok (some b))
    (jsonBranchOpt cx v)

/-- The claim for a branch. -/
def BranchAgree (v : Doc F) : Prop :=
  Rel (fun o b => ∃ a, o = some a ∧ BranchRel cx a b) (yamlBranch cx v) (jsonBranch cx v)

theorem state_step (m : List (Str × Doc F)) (hm : Fits (stateFields fun _ => True) m)
    (ho : OnlyFields (stateFields fun _ => True) m)
    (hb : ∀ v, ("parallelBranches".toList, v) ∈ m → BranchesAgree cx v) :
    Rel (StateRel cx) (yamlState cx (.obj m)) (jsonState cx (.obj m)) := by
  simp only [yamlState, jsonState]
  rw [yamlBranchesOf_get cx hm.nodup, jsonBranchesOf_get]
  have hbr : Rel (ORel (LRel (BranchRel cx)))
      (match get? m "parallelBranches".toList with
        | some v => yamlBranchList cx v >>= fun b => .ok (some b)
        | none => .ok none)
      (match get? m "parallelBranches".toList with
        | some v => jsonBranchOpt cx v
        | none => .ok none) := by
    cases hg : get? m "parallelBranches".toList with
    | none => exact trivial
    | some v => exact hb v (get?_mem hg)
  rcases Rel.cases (stateFields_agree cx hm ho) with ⟨f, f', hy, hj, hf⟩ | ⟨hy, hj⟩
  · have ht := stateType_some cx hm hy
    rw [hy, hj]
    simp only [Outcome.bind_ok]
    refine Rel.bind hbr fun b b' hbb => ?_
    simp only [ht, Blueprint.require, Bool.not_false, if_true, Outcome.bind_ok]
    exact StateRel.mk cx hf hbb
  · rw [hy, hj]
    trivial

theorem branch_step (m : List (Str × Doc F)) (hm : Fits (workflowFields fun _ => True) m)
    (hs : ∀ v, ("states".toList, v) ∈ m →
      Rel (MRel (StateRel cx)) (yamlStateMap cx v) (jsonStateMap cx v)) :
    BranchAgree cx (.obj m) := by
  obtain ⟨v, hv, _⟩ := Fits.get hm (p := req "states" fun _ => True) (by simp [workflowFields]) rfl
  have hv : get? m "states".toList = some v := hv
  unfold BranchAgree
  simp only [yamlBranch, jsonBranch]
  rw [yamlStatesOf_get cx hm.nodup, jsonStatesOf_get, hv]
  refine Rel.bind (startAt_agree cx hm) fun _ _ h1 => ?_
  exact Rel.bind (hs v (get?_mem hv)) fun _ _ h2 => ⟨_, rfl, h1, h2⟩

theorem branch_agree {v : Doc F} (h : Branch v) : BranchAgree cx v :=
  Branch.rec (motive_1 := fun v _ => Rel (StateRel cx) (yamlState cx v) (jsonState cx v))
    (motive_2 := fun v _ => BranchesAgree cx v) (motive_3 := fun v _ => BranchAgree cx v)
    (motive_4 := fun v _ => Rel (MRel (StateRel cx)) (yamlStateMap cx v) (jsonStateMap cx v))
    (fun m hm ho _ hb => state_step cx m hm ho hb)
    (fun l _ hl => by
      unfold BranchesAgree
      simp only [yamlBranchList, jsonBranchOpt]
      exact Rel.map (branches_agree cx l hl) fun _ _ h => h)
    (fun m hm _ _ hs => branch_step cx m hm hs)
    (fun m _ hm => by
      simp only [yamlStateMap, jsonStateMap]
      exact states_agree cx m hm .nil) h

theorem workflow_agree (v : Doc F) (h : Branch v) :
    Rel (WorkflowRel cx) (readObj (yamlWorkflow cx) v) (jsonWorkflow cx v) := by
  have hb := branch_agree cx h
  cases h with
  | mk m hm ho hs =>
    have hall : (m.all fun e => decide (e.1 = "startAt".toList ∨ e.1 = "states".toList)) = true := by
      rw [List.all_eq_true]
      intro e he
      obtain ⟨f, hf, hk⟩ := ho e he
      simp only [workflowFields, List.mem_cons, List.not_mem_nil, or_false] at hf
      rcases hf with rfl | rfl
      · exact decide_eq_true (.inl hk.symm)
      · exact decide_eq_true (.inr hk.symm)
    simp only [readObj, yamlWorkflow, jsonWorkflow, hall, Blueprint.require, if_true,
      Outcome.bind_ok, BranchAgree, yamlBranch] at hb ⊢
    generalize yamlStartAt cx m = x at hb ⊢
    generalize yamlStatesOf cx m [] = y at hb ⊢
    generalize jsonBranch cx (.obj m) = z at hb ⊢
    match x, y, z, hb with
    | .ok _, .ok _, .ok _, ⟨_, rfl, h1, h2⟩ => exact ⟨h1, h2⟩
    | .err .format, _, .err .format, _ => trivial
    | .ok _, .err .format, .err .format, _ => trivial

end Verif.Blueprint
