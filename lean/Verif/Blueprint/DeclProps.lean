import Verif.Blueprint.FieldProps

/-!
# C153: declarations of variables
-/

namespace Verif.Blueprint.Field

open Verif Verif.Subst Verif.Blueprint Verif.Blueprint.Field.Spec

variable {F : Type} (cx : Ctx F)

/-- The declaration of a variable in a blueprint. -/
def declaration (b : RawConfig F) (n : Str) : Option (Variable F) := (b.variables.getD []).lookup n

/-- The text of a scalar value; integers and floats are written by `showI` and `showF`. -/
def scalarText (showI : Int → Str) (showF : F → Str) : Scalar F → Str
  | .str s => s
  | .int i => showI i
  | .float f => showF f
  | .bool true => "true".toList
  | .bool false => "false".toList

/-- C153, in full: a blueprint is not refused for want of a variable that has a default; and when it
is loaded, the variables it refers to are declared and have allowed values. -/
structure FullDeclared (showI : Int → Str) (showF : F → Str) : Prop where
  default : ∀ (env : Env) (b : RawConfig F),
    (∀ n ∈ referred b, env (variableOf n) = none →
      ∃ v, declaration b n = some v ∧ v.default.isSome) →
    resBlueprint cx env b ≠ .err .missingVariable
  allowed : ∀ (env : Env) (b : RawConfig F) (c : ResConfig F), resBlueprint cx env b = .ok c →
    ∀ n ∈ referred b, ∀ v l t, declaration b n = some v → v.allowedValues = some l →
      env (variableOf n) = some t → t ∈ l.map (scalarText showI showF)
  declared : ∀ (env : Env) (b : RawConfig F) (c : ResConfig F), resBlueprint cx env b = .ok c →
    ∀ n ∈ referred b, (declaration b n).isSome

/-- Declarations do not matter: with other ones, the resources and the metadata are resolved in the
same way, or there is the same error. -/
theorem declarations_ignored (env : Env) (b : RawConfig F) (vs : Option (List (Str × Variable F))) :
    resBlueprint cx env { b with variables := vs } =
      resBlueprint cx env b >>= fun c => pure { c with variables := vs } := by
  simp only [resBlueprint]
  cases resResources cx env b.resources with
  | err e => rfl
  | panic => rfl
  | ok r =>
    cases h : optM (optM (resShared cx env)) b.metadata with
    | err e => simp only [Outcome.bind_ok, h]; rfl
    | panic => simp only [Outcome.bind_ok, h]; rfl
    | ok m => simp only [Outcome.bind_ok, h]; rfl

/-- A blueprint that refers to a variable that is not set is never loaded, whatever its default. -/
theorem default_never (env : Env) (b : RawConfig F) (n : Str) (hn : n ∈ referred b)
    (he : env (variableOf n) = none) (vs : Option (List (Str × Variable F))) (c : ResConfig F) :
    resBlueprint cx env { b with variables := vs } ≠ .ok c := fun h =>
  resolve_needs cx (b := { b with variables := vs }) h n hn he

/-- The declaration of `x` as a text with a default and allowed values. -/
def declareX : List (Str × Variable F) :=
  [("x".toList, { type := "string".toList, default := some (.str "a".toList),
                  allowedValues := some [.str "a".toList, .str "b".toList] })]

/-- A schedule given by `x`, with declarations. -/
def declaredCase (vs : Option (List (Str × Variable F))) : RawConfig F :=
  { scheduleCase with variables := vs }

/-- The variable `x` is set. -/
def xEnv (value : String) : Env := fun k =>
  if k = "CELERITY_VARIABLE_x".toList then some value.toList else none

theorem declared_refers (vs : Option (List (Str × Variable F))) :
    referred (declaredCase vs) = ["x".toList] := rfl

/-- All three parts are false: a default is not used, values that are not allowed are accepted, and
so are variables that are not declared. -/
theorem default_violated (showI : Int → Str) (showF : F → Str) : ¬ FullDeclared cx showI showF :=
  fun h => h.default (fun _ => none) (declaredCase (some declareX))
    (fun n hn _ => by
      rw [declared_refers, List.mem_singleton] at hn
      subst hn
      exact ⟨_, rfl, rfl⟩) rfl

/-- A value that is not allowed. -/
theorem allowed_violated : ∃ c, resBlueprint cx (xEnv "c") (declaredCase (some declareX)) = .ok c ∧
    (declaration (declaredCase (some (declareX (F := F)))) "x".toList).bind (·.allowedValues) =
      some [.str "a".toList, .str "b".toList] :=
  ⟨_, rfl, rfl⟩

/-- A variable that is not declared. -/
theorem undeclared_violated : ∃ c, resBlueprint cx (xEnv "c") (declaredCase none) = .ok c ∧
    declaration (declaredCase (F := F) none) "x".toList = none :=
  ⟨_, rfl, rfl⟩

/-- What holds: a blueprint is refused for want of a variable only if one it refers to is not
set. -/
theorem missing_partial (env : Env) (b : RawConfig F)
    (h : resBlueprint cx env b = .err .missingVariable) :
    ∃ n ∈ referred b, env (variableOf n) = none := by
  obtain ⟨p, h⟩ := (fault_iff cx env b _).1 h
  rcases (g_blueprint cx b).fault env _ h with ⟨_, d, h⟩ | ⟨_, x, hx, _, h⟩
  · cases h
  · obtain ⟨n, hn, h⟩ := h rfl
    exact ⟨n, (referred_iff reported b n).2 ⟨x, hx, hn⟩, h⟩

/-- With the variable set, the example is loaded. -/
example (s : String) : ∃ c, resBlueprint cx (xEnv s) (declaredCase none) = .ok c := ⟨_, rfl⟩

end Verif.Blueprint.Field
