import Verif.Blueprint.FieldErase
import Verif.Blueprint.Props

/-!
# C151, C152: what a loaded blueprint depends on, and the fields named by errors
-/

namespace Verif.Blueprint.Field

open Verif Verif.Subst Verif.Blueprint Verif.Blueprint.Field.Spec

variable {F : Type} (cx : Ctx F)

/-- Two environments give the variables a blueprint refers to the same values. -/
def AgreeOn (env env' : Env) (b : RawConfig F) : Prop :=
  ∀ n ∈ referred b, env (variableOf n) = env' (variableOf n)

/-! ## C151 -/

/-- Resolution depends only on the variables referred to. -/
theorem resolve_same {env env' : Env} {b : RawConfig F} (h : AgreeOn env env' b) :
    resBlueprint cx env b = resBlueprint cx env' b := by
  rw [← erase_blueprint, ← erase_blueprint]
  refine congrArg erase ((g_blueprint cx b).same env env' fun x hx n hn => h n ?_)
  exact (referred_iff reported b n).2 ⟨x, hx, hn⟩

/-- Resolution succeeds only when all variables referred to are set. -/
theorem resolve_needs {env : Env} {b : RawConfig F} {c : ResConfig F}
    (h : resBlueprint cx env b = .ok c) : ∀ n ∈ referred b, env (variableOf n) ≠ none := by
  intro n hn
  obtain ⟨x, hx, hn⟩ := (referred_iff reported b n).1 hn
  rw [← erase_blueprint] at h
  cases ha : atBlueprint cx env b with
  | ok a => exact (g_blueprint cx b).set env a ha x hx n hn
  | err e => rw [ha] at h; cases h
  | panic => rw [ha] at h; cases h

/-- What is loaded from a JSON document depends on the document and on the variables it refers to:
two environments that give those the same values give the same blueprint, or the same error. -/
theorem json_same (d : Doc F) (env env' : Env)
    (h : ∀ b, jsonBlueprint cx d = .ok b → AgreeOn env env' b) :
    fromJson cx env d = fromJson cx env' d := by
  simp only [fromJson]
  cases hb : jsonBlueprint cx d with
  | ok b => simp only [Outcome.bind_ok]; rw [resolve_same cx (h b hb)]
  | err e => rfl
  | panic => rfl

/-- The same for YAML. -/
theorem yaml_same (d : Doc F) (rest : List (Doc F)) (env env' : Env)
    (h : ∀ b, yamlBlueprint cx d = .ok b → AgreeOn env env' b) :
    fromYaml cx env (d :: rest) = fromYaml cx env' (d :: rest) := by
  simp only [fromYaml]
  cases hb : yamlBlueprint cx d with
  | ok b => simp only [Outcome.bind_ok]; rw [resolve_same cx (h b hb)]
  | err e => rfl
  | panic => rfl

/-- A blueprint is loaded only when every variable it refers to, anywhere, is set: also in resources
that are dropped for want of a specification. -/
theorem json_needs (d : Doc F) (env : Env) (c : ResConfig F) (h : fromJson cx env d = .ok c) :
    ∃ b, jsonBlueprint cx d = .ok b ∧ ∀ n ∈ referred b, env (variableOf n) ≠ none := by
  simp only [fromJson] at h
  cases hb : jsonBlueprint cx d with
  | ok b =>
    rw [hb, Outcome.bind_ok] at h
    refine ⟨b, rfl, ?_⟩
    cases hr : resBlueprint cx env b with
    | ok c' => exact resolve_needs cx hr
    | err e => rw [hr] at h; cases h
    | panic => rw [hr] at h; cases h
  | err e => rw [hb] at h; cases h
  | panic => rw [hb] at h; cases h

/-- The same for YAML. -/
theorem yaml_needs (d : Doc F) (rest : List (Doc F)) (env : Env) (c : ResConfig F)
    (h : fromYaml cx env (d :: rest) = .ok c) :
    ∃ b, yamlBlueprint cx d = .ok b ∧ ∀ n ∈ referred b, env (variableOf n) ≠ none := by
  simp only [fromYaml] at h
  cases hb : yamlBlueprint cx d with
  | ok b =>
    rw [hb, Outcome.bind_ok] at h
    refine ⟨b, rfl, ?_⟩
    cases hr : resBlueprint cx env b with
    | ok c' => exact resolve_needs cx hr
    | err e => rw [hr] at h; cases h
    | panic => rw [hr] at h; cases h
  | err e => rw [hb] at h; cases h
  | panic => rw [hb] at h; cases h

/-- A text that is one variable. -/
def ref (name : String) : Sos := [.sub ⟨name.toList⟩]

/-- A text without variables. -/
def plain (s : String) : Sos := [.str s.toList]

/-- A blueprint with one resource. -/
def single1 (name : String) (type : RType) (spec : RawSpec F) : RawConfig F :=
  { version := [], transform := none, variables := none, metadata := none,
    resources := [(name.toList,
      { type, metadata := { displayName := plain "R" }, spec := some spec })] }

/-- A handler whose code location is a variable. -/
def handlerCase : RawConfig Unit :=
  single1 "h" .handler (.handler { handler := plain "main", codeLocation := ref "where" })

/-- The blueprint refers to one variable. -/
example : referred handlerCase = ["where".toList] := by decide

/-- Any two environments that agree on it give the same result, whatever else they hold. -/
example (env env' : Env)
    (h : env "CELERITY_VARIABLE_where".toList = env' "CELERITY_VARIABLE_where".toList) :
    resBlueprint exampleCtx env handlerCase = resBlueprint exampleCtx env' handlerCase :=
  resolve_same exampleCtx fun n hn => by
    have : n = "where".toList := by
      have hr : referred handlerCase = ["where".toList] := by decide
      rw [hr] at hn
      exact List.mem_singleton.1 hn
    subst this
    exact h

/-! ## C152 -/

/-- C152, in full: an error names the field in which it arose, as it is called in the document, and
for a variable that is not set, a field that refers to such a variable. -/
def FullFault : Prop :=
  ∀ (env : Env) (b : RawConfig F) (e : Fault), atBlueprint cx env b = .err e →
    ∃ x ∈ fields documented b, e.2 = some (joined x.1) ∧
      (e.1 = .missingVariable → ∃ n ∈ x.2, env (variableOf n) = none)

/-- The errors are those of loading. -/
theorem fault_iff (env : Env) (b : RawConfig F) (e : ResolveError) :
    resBlueprint cx env b = .err e ↔ ∃ p, atBlueprint cx env b = .err (e, p) := by
  rw [← erase_blueprint]
  cases ha : atBlueprint cx env b with
  | ok a => exact ⟨nofun, fun ⟨_, h⟩ => by cases h⟩
  | panic => exact ⟨nofun, fun ⟨_, h⟩ => by cases h⟩
  | err f =>
    constructor
    · intro h; cases h; exact ⟨f.2, rfl⟩
    · rintro ⟨p, h⟩; cases h; rfl

/-- What the errors of a blueprint without schedules, domains, guards and single conditions name:
the field in which they arose. Only the error for values nested too deeply names no field. -/
theorem fault_partial (env : Env) (b : RawConfig F) (hb : PlainBlueprint b) (e : Fault)
    (h : atBlueprint cx env b = .err e) :
    (e.2 = none ∧ ∃ d, e.1 = .maxResolveDepthExceeded d) ∨
    ∃ x ∈ fields documented b, e.2 = some (joined x.1) ∧
      (e.1 = .missingVariable → ∃ n ∈ x.2, env (variableOf n) = none) := by
  have := (g_blueprint cx b).fault env e h
  rw [plain_fields (nm' := documented) b hb] at this
  rcases this with h | ⟨_, h⟩
  · exact .inl h
  · exact .inr h

/-- Every error but that one names some field. -/
theorem fault_named_partial (env : Env) (b : RawConfig F) (e : Fault)
    (h : atBlueprint cx env b = .err e) (hd : ∀ d, e.1 ≠ .maxResolveDepthExceeded d) :
    ∃ p, e.2 = some p := by
  rcases (g_blueprint cx b).fault env e h with ⟨_, d, h⟩ | ⟨_, x, _, h, _⟩
  · exact absurd h (hd d)
  · exact ⟨_, h⟩

/-- A handler whose code location is a variable that is not set. -/
example : atBlueprint exampleCtx (fun _ => none) handlerCase =
    .err (.missingVariable, some "resources.h.spec.codeLocation".toList) := by rfl

example : PlainBlueprint handlerCase := by
  intro e he s hs
  simp only [handlerCase, single1, List.mem_singleton] at he
  subst he
  cases hs
  trivial

/-- A schedule. -/
def scheduleCase : RawConfig F := single1 "s" .schedule (.schedule (ref "x"))

/-- A domain. -/
def domainCase : RawConfig F := single1 "a" .api (.api
  { protocols := [],
    domain := some { domainName := ref "x", basePaths := [], certificateId := plain "c" } })

/-- Two guards, one of which has a variable as its issuer. -/
def guardCase (first second : Sos) : RawConfig F := single1 "a" .api (.api
  { protocols := [], auth := some { guards := [
      ("one".toList, { guardType := plain "jwt", issuer := some first }),
      ("two".toList, { guardType := plain "jwt", issuer := some second })] } })

/-- A guard whose type is a variable. -/
def guardTypeCase : RawConfig F := single1 "a" .api (.api
  { protocols := [], auth := some { guards := [("one".toList, { guardType := ref "x" })] } })

/-- A rule with a single condition. -/
def conditionRule : Rule Sos (Node F) :=
  { condition := some { inputs := [], function := ref "x" }, next := plain "n" }

/-- A workflow with it. -/
def conditionCase : RawConfig F := single1 "w" .workflow (.workflow
  { startAt := plain "d",
    states := [("d".toList,
      .mk { stateType := plain "decision", decisions := some [conditionRule] } none)] })

/-- The field `schedule` is called `scheduleName`. -/
theorem schedule_violated : atBlueprint cx (fun _ => none) scheduleCase =
      .err (.missingVariable, some "resources.s.spec.scheduleName".toList) ∧
    ∀ x ∈ fields documented (scheduleCase (F := F)),
      joined x.1 ≠ "resources.s.spec.scheduleName".toList :=
  ⟨rfl, by
    rw [show fields documented (scheduleCase (F := F)) = fields documented (scheduleCase (F := Unit))
      from rfl]
    decide⟩

/-- The field `domainName` is called `domain_name`. -/
theorem domain_violated : atBlueprint cx (fun _ => none) domainCase =
      .err (.missingVariable, some "resources.a.spec.domain.domain_name".toList) ∧
    ∀ x ∈ fields documented (domainCase (F := F)),
      joined x.1 ≠ "resources.a.spec.domain.domain_name".toList :=
  ⟨rfl, by
    rw [show fields documented (domainCase (F := F)) = fields documented (domainCase (F := Unit))
      from rfl]
    decide⟩

/-- Guards are not told apart: the error is the same whichever guard it is about. -/
theorem guard_violated : atBlueprint cx (fun _ => none) (guardCase (ref "x") (plain "i")) =
      .err (.missingVariable, some "resources.a.spec.auth.guards.issuer".toList) ∧
    atBlueprint cx (fun _ => none) (guardCase (plain "i") (ref "x")) =
      .err (.missingVariable, some "resources.a.spec.auth.guards.issuer".toList) ∧
    ∀ x ∈ fields documented (guardCase (F := F) (ref "x") (plain "i")),
      joined x.1 ≠ "resources.a.spec.auth.guards.issuer".toList :=
  ⟨rfl, rfl, by
    rw [show fields documented (guardCase (F := F) (ref "x") (plain "i")) = fields documented (guardCase (F := Unit) (ref "x") (plain "i"))
      from rfl]
    decide⟩

/-- For the type of a guard, the error names the guards. -/
theorem guardType_violated : atBlueprint cx (fun _ => none) guardTypeCase =
      .err (.missingVariable, some "resources.a.spec.auth.guards".toList) ∧
    ∀ x ∈ fields documented (guardTypeCase (F := F)),
      joined x.1 ≠ "resources.a.spec.auth.guards".toList :=
  ⟨rfl, by
    rw [show fields documented (guardTypeCase (F := F)) = fields documented (guardTypeCase (F := Unit))
      from rfl]
    decide⟩

/-- For a single condition, the error leaves out `condition`. -/
theorem condition_violated : atBlueprint cx (fun _ => none) conditionCase =
      .err (.missingVariable, some "resources.w.spec.states.d.decisions.function".toList) ∧
    ∀ x ∈ fields documented (conditionCase (F := F)),
      joined x.1 ≠ "resources.w.spec.states.d.decisions.function".toList :=
  ⟨rfl, by
    rw [show fields documented (conditionCase (F := F)) = fields documented (conditionCase (F := Unit))
      from rfl]
    decide⟩

/-- So the claim in full is false. -/
theorem fault_violated : ¬ FullFault cx := fun h => by
  obtain ⟨x, hx, he, _⟩ := h _ _ _ (schedule_violated cx).1
  exact (schedule_violated cx).2 x hx (Option.some.inj he).symm

end Verif.Blueprint.Field
