import Verif.CliConfig.Props
import Verif.CliConfig.LineSpec

/-!
# Properties of the command line of the CLI (C141)
-/

namespace Verif.CliConfig

open Spec

theorem lookup_none_of_not_mem {l : List (String × String)} {name : String}
    (h : ∀ v, (name, v) ∉ l) : l.lookup name = none := by
  rw [List.lookup_eq_none_iff]
  intro p hp
  rw [bne_iff_ne]
  intro he
  have : (name, p.2) = p := by rw [he]
  exact h p.2 (this ▸ hp)

theorem given_last {flags : List (String × String)} {name value : String}
    (h : LastValue flags name value) : given flags name = some (shownValue name value) := by
  obtain ⟨before, after, rfl, ha⟩ := h
  unfold given
  rw [List.reverse_append, List.reverse_cons, List.append_assoc, List.lookup_append,
    lookup_none_of_not_mem (l := after.reverse) (by intro v; rw [List.mem_reverse]; exact ha v),
    Option.none_or, List.singleton_append, List.lookup_cons_self]
  rfl

theorem given_none {flags : List (String × String)} {name : String} (h : NotGiven flags name) :
    given flags name = none := by
  unfold given
  rw [lookup_none_of_not_mem (by intro v; rw [List.mem_reverse]; exact h v)]
  rfl

/-- **C141, full statement.** A command with documented flags reads the config file that the command line
names, and does what it does with that file. -/
def FullConfigFile : Prop :=
  ∀ (w : World) (l : Line) (c : Cmd) (path : String), l.command = some c →
    (∀ f ∈ l.flags, f.1 ∈ documentedFlags c) → ConfigFile l path →
    runLine w l = .result (runCmd w (cliProvider (given l.flags)) path c)

/-- The flag for the config file is unknown to every command. -/
theorem config_flag_never (w : World) (l : Line) (c : Cmd) (path : String) (hc : l.command = some c)
    (h : ("config", path) ∈ l.flags) : runLine w l = .unknownFlag := by
  unfold runLine
  rw [if_neg]
  intro ha
  have := List.all_eq_true.1 ha _ h
  rw [hc] at this
  dsimp only at this
  cases c <;> exact absurd this (by decide)

/-- **C141 is false of the code.** -/
theorem config_file_violated : ¬ FullConfigFile := by
  intro h
  have h1 := h ⟨fun _ => some "", fun _ _ c => some c, fun _ => none, "linux"⟩
    ⟨[("config", "other.toml")], some .version⟩ .version "other.toml" rfl
    (by intro f hf; rw [List.mem_singleton.1 hf]; decide) (Or.inl ⟨[], [], rfl, by simp⟩)
  rw [config_flag_never _ _ .version "other.toml" rfl (List.mem_singleton_self _)] at h1
  cases h1

/-- The flag is known only without a command, where nothing is done but to show the help text. -/
theorem config_flag_alone (w : World) (files : List String) :
    runLine w ⟨files.map (fun f => ("config", f)), none⟩ = .help := by
  unfold runLine
  rw [if_pos, if_pos]
  · split <;> rfl
  · rw [List.all_eq_true]
    intro f hf
    obtain ⟨x, _, rfl⟩ := List.mem_map.1 hf
    rfl
  · rw [List.all_eq_true]
    intro f hf
    obtain ⟨x, _, rfl⟩ := List.mem_map.1 hf
    rfl

/-- Whatever a command line that runs a command says, the config file is the one in the working
directory. -/
theorem config_file_fixed (w : World) (l : Line) (r : Except CliError Effect)
    (h : runLine w l = .result r) :
    ∃ c, l.command = some c ∧ r = runCmd w (cliProvider (given l.flags)) "celerity.config.toml" c := by
  cases hc : l.command with
  | none =>
    unfold runLine at h
    rw [hc] at h
    split at h
    · split at h
      · split at h <;> cases h
      · cases h
    · cases h
  | some c =>
    refine ⟨c, rfl, ?_⟩
    have hn : NotGiven l.flags "config" := by
      intro v hv
      rw [config_flag_never w l c v hc hv] at h
      cases h
    unfold runLine at h
    rw [hc, given_none hn] at h
    split at h
    · split at h
      · split at h
        · cases h
        · injection h with h; exact h.symm
      · cases h
    · cases h

/-- So nothing works in a directory without that file. -/
theorem config_file_needed (w : World) (l : Line) (hw : w.file "celerity.config.toml" = none)
    (e : Effect) : runLine w l ≠ .result (.ok e) := by
  intro h
  obtain ⟨c, _, hr⟩ := config_file_fixed w l _ h
  obtain ⟨_, _, _, h1, _⟩ := (command_runs_iff w _ _ c).1 ⟨e, hr.symm⟩
  rw [hw] at h1
  cases h1

/-- **C141, partial.** A command line without that flag is executed with its flags as documented, and the
last value of a flag counts. Missing: command lines that name a config file. -/
theorem config_file_partial (w : World) (l : Line) (c : Cmd) (hc : l.command = some c)
    (hd : ∀ f ∈ l.flags, f.1 ∈ documentedFlags c) (hn : NotGiven l.flags "config") :
    runLine w l =
        .result (runCmd w (cliProvider (given l.flags)) "celerity.config.toml" c) ∧
      (∀ name value, LastValue l.flags name value → given l.flags name = some value) ∧
      ∀ name, NotGiven l.flags name → given l.flags name = none := by
  have hne : ∀ f ∈ l.flags, f.1 ≠ "config" := by
    intro f hf he
    exact hn f.2 (by rw [← he]; exact hf)
  have hk : ∀ f ∈ l.flags, f.1 ∈ knownFlags (some c) ∧ f.1 ≠ "skip-plugin-config-validation" ∧
      f.1 ≠ "help" := by
    intro f hf
    have h1 := hd f hf
    have h2 := hne f hf
    generalize f.1 = x at h1 h2
    cases c <;>
      simp only [documentedFlags, List.mem_cons, List.not_mem_nil, or_false] at h1
    · rcases h1 with rfl | rfl | rfl | rfl <;> first | exact absurd rfl h2 | decide
    · rcases h1 with rfl | rfl | rfl | rfl | rfl <;> first | exact absurd rfl h2 | decide
    · rcases h1 with rfl | rfl | rfl | rfl | rfl <;> first | exact absurd rfl h2 | decide
  refine ⟨?_, ?_, fun name h => given_none h⟩
  · unfold runLine
    rw [if_pos, if_pos, hc, given_none hn, given_none (name := "help")]
    · rfl
    · intro v hv; exact (hk _ hv).2.2 rfl
    · rw [List.all_eq_true]
      intro f hf
      unfold valueOk
      rw [if_neg (hk f hf).2.1]
    · rw [List.all_eq_true]
      intro f hf
      rw [hc, List.contains_iff_mem]
      exact (hk f hf).1
  · intro name value h
    rw [given_last h]
    obtain ⟨b, a, hl, _⟩ := h
    have := (hk (name, value) (by rw [hl]; simp)).2.1
    unfold shownValue
    rw [if_neg this]

example : runLine ⟨fun _ => some "", fun _ _ c => some c, fun _ => none, "linux"⟩
    ⟨[("language", "go"), ("language", "rust")], some .init⟩ = .result (.ok (.initScreen "rust")) := rfl

end Verif.CliConfig
