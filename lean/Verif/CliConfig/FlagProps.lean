import Verif.CliConfig.ApartProps
import Verif.CliConfig.LineProps

/-!
# C42: values given on the command line
-/

namespace Verif.CliConfig

open Spec

theorem own_of_flag (i : Invocation) (s : Setting) (hs : s ∈ settings) (v : String)
    (h : i.flags s.flag = some v) (hb : ¬ Blank v) :
    getString i.provider i.env s.name = (v, false) := by
  have hn : nonBlank v = true := by
    cases hn : nonBlank v with
    | true => rfl
    | false => exact absurd ((nonBlank_false _).1 hn) hb
  rw [getString_own i s hs, h]
  simp [flagOf, hn]

/-- **C42, command lines.** The value of a setting is what its flag was last given on the command line, as
it was written, whatever the environment and the config file say. -/
theorem line_text (l : Line) (env : String → Option String) (file : List (String × String))
    (s : Setting) (hs : s ∈ settings) (ht : s.flag ≠ "skip-plugin-config-validation") (v : String)
    (h : LastValue l.flags s.flag v) (hb : ¬ Blank v) :
    getString { cliProvider (given l.flags) with config := file } env s.name = (v, false) := by
  refine own_of_flag ⟨given l.flags, env, file⟩ s hs v ?_ hb
  show given l.flags s.flag = some v
  rw [given_last h, shownValue, if_neg ht]

/-- **C42, command lines.** The same for the one flag that is not a text. A command line with another value
than the twelve that stand for truth values is refused. -/
theorem line_bool (l : Line) (env : String → Option String) (file : List (String × String)) (v : String)
    (h : LastValue l.flags "skip-plugin-config-validation" v) :
    (v ∈ ["1", "t", "T", "TRUE", "true", "True"] →
      getBool { cliProvider (given l.flags) with config := file } env "skipPluginConfigValidation" =
        (true, false)) ∧
    (v ∈ ["0", "f", "F", "FALSE", "false", "False"] →
      getBool { cliProvider (given l.flags) with config := file } env "skipPluginConfigValidation" =
        (false, false)) ∧
    (v ∉ ["1", "t", "T", "TRUE", "true", "True"] → v ∉ ["0", "f", "F", "FALSE", "false", "False"] →
      ∀ w, runLine w l = .badValue ∨ runLine w l = .unknownFlag) := by
  have key : ∀ b : Bool, parseBool v = some b →
      getBool { cliProvider (given l.flags) with config := file } env "skipPluginConfigValidation" =
        (b, false) := by
    intro b hb
    have h1 := own_of_flag ⟨given l.flags, env, file⟩
      ⟨"skipPluginConfigValidation", "skip-plugin-config-validation", "false",
        "CELERITY_CLI_SKIP_PLUGIN_CONFIG_VALIDATION"⟩ (by simp [settings])
      (if b then "true" else "false") (by
        simp only
        rw [given_last h, shownValue, if_pos rfl, hb]
        cases b <;> rfl) (by cases b <;> (unfold Blank; decide))
    unfold getBool
    have h1 : getString { cliProvider (given l.flags) with config := file } env
        "skipPluginConfigValidation" = (if b then "true" else "false", false) := h1
    rw [h1]
    cases b <;> decide
  refine ⟨fun hv => key true ?_, fun hv => key false ?_, fun h1 h2 w => ?_⟩
  · rw [parseBool, if_pos hv]
  · rw [parseBool, if_neg, if_pos hv]
    simp only [List.mem_cons, List.not_mem_nil, or_false] at hv
    rcases hv with rfl | rfl | rfl | rfl | rfl | rfl <;> decide
  · obtain ⟨before, after, he, _⟩ := h
    unfold runLine
    split
    · left
      rw [if_neg]
      intro ha
      have := List.all_eq_true.1 ha ("skip-plugin-config-validation", v) (by rw [he]; simp)
      simp only [valueOk, if_true] at this
      rw [parseBool, if_neg h1, if_neg h2] at this
      cases this
    · exact .inr rfl

/-- Both are met by a command line that gives flags more than once. -/
example : LastValue (Line.flags ⟨[("engine-endpoint", "a"), ("engine-endpoint", "b"),
      ("skip-plugin-config-validation", "F")], some .version⟩) "engine-endpoint" "b" ∧ ¬ Blank "b" ∧
    LastValue (Line.flags ⟨[("engine-endpoint", "a"), ("engine-endpoint", "b"),
      ("skip-plugin-config-validation", "F")], some .version⟩) "skip-plugin-config-validation" "F" :=
  ⟨⟨[_], [_], rfl, by simp⟩, by unfold Blank; decide, ⟨[_, _], [], rfl, by simp⟩⟩

end Verif.CliConfig
