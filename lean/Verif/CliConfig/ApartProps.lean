import Verif.CliConfig.Props

/-!
# C157: settings do not interfere with each other
-/

namespace Verif.CliConfig

open Spec

/-- An invocation of the CLI: the flags given, the environment and the entries of the config file. -/
structure Invocation where
  flags : String → Option String
  env : String → Option String
  file : List (String × String)

/-- The provider of an invocation. -/
def Invocation.provider (i : Invocation) : Provider := { cliProvider i.flags with config := i.file }

/-- The two invocations are the same for a setting. -/
structure SameFor (s : Setting) (i j : Invocation) : Prop where
  flag : i.flags s.flag = j.flags s.flag
  env : i.env s.envVar = j.env s.envVar
  file : i.file.lookup s.name = j.file.lookup s.name

theorem bound_flag (flags : String → Option String) (s : Setting) (hs : s ∈ settings) :
    (cliProvider flags).pFlags.lookup s.name = some (flagOf s (flags s.flag)) := by
  simp only [settings, List.mem_cons, List.not_mem_nil, or_false] at hs
  rcases hs with rfl | rfl | rfl | rfl | rfl | rfl <;>
    · dsimp only
      generalize hv : flags _ = o
      cases o <;> simp [cliProvider, bindEnvVar, bindPFlag, newProvider, List.lookup, flagOf, hv]

theorem bound_env (flags : String → Option String) (s : Setting) (hs : s ∈ settings) :
    (cliProvider flags).envVars.lookup s.name = some s.envVar := by
  simp only [settings, List.mem_cons, List.not_mem_nil, or_false] at hs
  rcases hs with rfl | rfl | rfl | rfl | rfl | rfl <;> rfl

/-- What a setting is, in terms of its own sources. -/
theorem getString_own (i : Invocation) (s : Setting) (hs : s ∈ settings) :
    getString i.provider i.env s.name =
      match flagOf s (i.flags s.flag), i.env s.envVar, i.file.lookup s.name with
      | f, e, c =>
        if f.changed && nonBlank f.value then (f.value, false)
        else match e.filter nonBlank with
          | some v => (v, false)
          | none => match c with
            | some v => (v, false)
            | none => (if nonBlank f.value then f.value else "", true) := by
  have hf : i.provider.pFlags.lookup s.name = some (flagOf s (i.flags s.flag)) :=
    bound_flag i.flags s hs
  have he : i.provider.envVars.lookup s.name = some s.envVar := bound_env i.flags s hs
  have hd : i.provider.defaults = none := rfl
  have hc : i.provider.config = i.file := rfl
  simp only [getString, flagPart, envPart, hf, he, hd, hc]
  have hne : nonBlank "" = false := by decide
  generalize flagOf s (i.flags s.flag) = f
  cases hb : nonBlank f.value <;> cases f.changed <;> cases hv : i.env s.envVar <;>
    simp [Option.filter]
  all_goals
    first
      | (rename_i v; cases hn : nonBlank v <;> simp [hn] <;>
          cases i.file.lookup s.name <;> simp <;> (intro h; rw [h, hne] at hb; cases hb))
      | (cases i.file.lookup s.name <;> simp <;> (intro h; rw [h, hne] at hb; cases hb))

/-- **C157.** A setting depends on nothing but its own flag, environment variable and entry: in two
invocations in which these are the same, it is the same, as a text and as a value of any type. -/
theorem settings_apart (s : Setting) (hs : s ∈ settings) (i j : Invocation) (h : SameFor s i j) :
    getString i.provider i.env s.name = getString j.provider j.env s.name := by
  rw [getString_own i s hs, getString_own j s hs, h.flag, h.env, h.file]

theorem values_apart (s : Setting) (hs : s ∈ settings) (i j : Invocation) (h : SameFor s i j)
    (bits : Nat) : getInt bits i.provider i.env s.name = getInt bits j.provider j.env s.name ∧
    getUint bits i.provider i.env s.name = getUint bits j.provider j.env s.name ∧
    getBool i.provider i.env s.name = getBool j.provider j.env s.name ∧
    ∀ (F : Type) (parse : Nat → String → Option F) (zero : F),
      getFloat parse zero bits i.provider i.env s.name =
        getFloat parse zero bits j.provider j.env s.name := by
  have h := settings_apart s hs i j h
  simp only [getInt, getUint, getBool, getFloat, h, implies_true, and_self]

/-- Choosing by the flag of a setting, by its variable, or by its name in the file. -/
def choose (value : Setting → String) (key : Setting → String) (k : String) : Option String :=
  (settings.find? fun s => key s = k).map value

theorem choose_self (value : Setting → String) (s : Setting) (hs : s ∈ settings) :
    choose value (·.flag) s.flag = some (value s) ∧ choose value (·.envVar) s.envVar = some (value s) ∧
    (settings.map fun s => (s.name, value s)).lookup s.name = some (value s) := by
  simp only [settings, List.mem_cons, List.not_mem_nil, or_false] at hs
  rcases hs with rfl | rfl | rfl | rfl | rfl | rfl <;> exact ⟨rfl, rfl, rfl⟩

/-- The settings can be chosen independently of each other: whatever values are wanted, there are flags
that give all of them at once, and variables, and entries of the file. -/
theorem settings_independent (value : Setting → String) (hv : ∀ s ∈ settings, ¬ Blank (value s)) :
    ∀ s ∈ settings,
      (∀ env file, getString (Invocation.provider ⟨choose value (·.flag), env, file⟩) env s.name =
        (value s, false)) ∧
      (∀ file, getString (Invocation.provider ⟨fun _ => none, choose value (·.envVar), file⟩)
        (choose value (·.envVar)) s.name = (value s, false)) ∧
      getString (Invocation.provider ⟨fun _ => none, fun _ => none,
        settings.map fun s => (s.name, value s)⟩) (fun _ => none) s.name = (value s, false) := by
  intro s hs
  obtain ⟨h1, h2, h3⟩ := choose_self value s hs
  have hb : nonBlank (value s) = true := by
    cases h : nonBlank (value s) with
    | true => rfl
    | false => exact absurd ((nonBlank_false _).1 h) (hv s hs)
  refine ⟨fun env file => ?_, fun file => ?_, ?_⟩
  · rw [getString_own ⟨_, env, file⟩ s hs]
    simp [h1, flagOf, hb]
  · rw [getString_own ⟨fun _ => none, _, file⟩ s hs]
    simp [h2, flagOf, hb, Option.filter]
  · rw [getString_own ⟨fun _ => none, fun _ => none, _⟩ s hs]
    simp only [h3]
    simp [flagOf, Option.filter]

/-- Another flag, another variable and another entry make no difference here. -/
example : SameFor ⟨"connectProtocol", "connect-protocol", "unix", "CELERITY_CLI_CONNECT_PROTOCOL"⟩
    ⟨fun _ => none, fun _ => none, [("connectProtocol", "tcp")]⟩
    ⟨fun f => if f = "language" then some "go" else none,
      fun v => if v = "CELERITY_CLI_ENGINE_ENDPOINT" then some "x" else none,
      [("deployConfigFile", "d"), ("connectProtocol", "tcp")]⟩ := ⟨by decide, by decide, by decide⟩

example : ∀ s ∈ settings, ¬ Blank ((fun s : Setting => s.name) s) := by
  unfold Blank
  decide

end Verif.CliConfig
