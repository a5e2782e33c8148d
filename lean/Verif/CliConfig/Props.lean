import Verif.CliConfig.Lemmas

/-!
# Properties of the CLI's configuration (C42, C43, C44, C59, C60)
-/

namespace Verif.CliConfig

open Spec Verif.Text

/-! ## C42: precedence -/

/-- The specification determines the value and its source. -/
theorem effective_unique (flag : Option Flag) (env file : Option String) (v v' : String)
    (s s' : Source) (h : Effective flag env file v s) (h' : Effective flag env file v' s') :
    v = v' ∧ s = s' := by
  cases h <;> cases h'
  case flag.flag f h1 _ _ f' h1' _ _ => rw [h1] at h1'; injection h1' with h; subst h; simp
  case flag.environment f h1 h2 h3 h4 h5 h6 => exact absurd (h4 f h1 h2) h3
  case flag.file f h1 h2 h3 h4 h5 h6 => exact absurd (h4 f h1 h2) h3
  case flag.default f h1 h2 h3 h4 h5 h6 h7 => exact absurd (h4 f h1 h2) h3
  case environment.flag h4 h5 h6 f h1 h2 h3 => exact absurd (h4 f h1 h2) h3
  case environment.environment h1 h2 h3 h1' h2' h3' =>
    rw [h2] at h2'; injection h2' with h; subst h; simp
  case environment.file h1 h2 h3 h4 h5 h6 => exact absurd (h5 _ h2) h3
  case environment.default h1 h2 h3 h4 h5 h6 h7 => exact absurd (h5 _ h2) h3
  case file.flag h4 h5 h6 f h1 h2 h3 => exact absurd (h4 f h1 h2) h3
  case file.environment h4 h5 h6 h1 h2 h3 => exact absurd (h5 _ h2) h3
  case file.file h1 h2 h3 h1' h2' h3' => rw [h3] at h3'; injection h3' with h; subst h; simp
  case file.default h1 h2 h3 h4 h5 h6 h7 => rw [h3] at h6; simp at h6
  case default.flag h4 h5 h6 h7 f h1 h2 h3 => exact absurd (h4 f h1 h2) h3
  case default.environment h4 h5 h6 h7 h1 h2 h3 => exact absurd (h5 _ h2) h3
  case default.file h4 h5 h6 h7 h1 h2 h3 => rw [h6] at h3; simp at h3
  case default.default h1 h2 h3 h4 h1' h2' h3' h4' =>
    cases flag with
    | none => exact ⟨h4.trans h4'.symm, rfl⟩
    | some f => exact ⟨h4.trans h4'.symm, rfl⟩

/-- **C42, full statement.** The value of a setting is the one the precedence order gives, and it is
reported as a default exactly when it is one. -/
def FullPrecedence : Prop :=
  ∀ (p : Provider) (env : String → Option String) (name : String),
    p.defaults = none → (∀ f, p.pFlags.lookup name = some f → f.WellFormed) →
    ∃ src, Effective (p.pFlags.lookup name) ((p.envVars.lookup name).bind env)
        (p.config.lookup name) (getString p env name).1 src ∧
      ((getString p env name).2 = true ↔ src = .default)

/-- **C42 is false of the code.** A flag that is given with a blank value switches its own default
off: `--connect-protocol ""` yields the empty protocol instead of `unix`. -/
theorem precedence_violated : ¬ FullPrecedence := by
  intro h
  have hv : (getString (cliProvider fun n => if n = "connect-protocol" then some "" else none)
      (fun _ => none) "connectProtocol") = ("", true) := by decide
  obtain ⟨src, h1, h2⟩ := h (cliProvider fun n => if n = "connect-protocol" then some "" else none)
    (fun _ => none) "connectProtocol" rfl (by
      intro f hf
      have : f = ⟨"", "unix", true⟩ := by
        have h3 : (cliProvider fun n => if n = "connect-protocol" then some "" else none).pFlags.lookup
          "connectProtocol" = some ⟨"", "unix", true⟩ := by decide
        rw [h3] at hf; injection hf with hf; exact hf.symm
      subst this
      intro hc; simp at hc)
  have h3 : (cliProvider fun n => if n = "connect-protocol" then some "" else none).pFlags.lookup
      "connectProtocol" = some ⟨"", "unix", true⟩ := by decide
  rw [hv] at h1 h2
  have hsrc : src = .default := h2.mp rfl
  subst hsrc
  rw [h3] at h1
  have h7 : ∀ v, Effective (some ⟨"", "unix", true⟩) (((cliProvider fun n =>
      if n = "connect-protocol" then some "" else none).envVars.lookup "connectProtocol").bind
      fun _ => none) ((cliProvider fun n =>
      if n = "connect-protocol" then some "" else none).config.lookup "connectProtocol") v
      .default → v = "unix" := by
    intro v hv; cases hv; assumption
  exact absurd (h7 _ h1) (by decide)

/-- **C42, partial.** The precedence order holds for every setting whose flag was not given as
blank text (or has no default to lose) and whose flag default is empty or not blank. Missing:
blank flags. -/
theorem precedence_partial (p : Provider) (env : String → Option String) (name : String)
    (hd : p.defaults = none) (hw : ∀ f, p.pFlags.lookup name = some f → f.WellFormed)
    (hb : ∀ f, p.pFlags.lookup name = some f → f.changed = true → Blank f.value → f.defValue = "")
    (hdef : ∀ f, p.pFlags.lookup name = some f → f.defValue = "" ∨ ¬ Blank f.defValue) :
    ∃ src, Effective (p.pFlags.lookup name) ((p.envVars.lookup name).bind env)
        (p.config.lookup name) (getString p env name).1 src ∧
      ((getString p env name).2 = true ↔ src = .default) := by
  have henv1 : ∀ v, envPart p env name = some v →
      (p.envVars.lookup name).bind env = some v ∧ ¬ Blank v := by
    intro v hv
    unfold envPart at hv
    split at hv
    · simp at hv
    · rename_i var h1
      split at hv
      · simp at hv
      · rename_i w h2
        split at hv
        · rename_i h3
          injection hv with hv
          subst hv
          exact ⟨by simp [h1, h2], (nonBlank_iff _).mp h3⟩
        · simp at hv
  have henv2 : envPart p env name = none →
      ∀ v, (p.envVars.lookup name).bind env = some v → Blank v := by
    intro hv v hv'
    unfold envPart at hv
    split at hv
    · rename_i h1; simp [h1] at hv'
    · rename_i var h1
      simp only [h1, Option.bind_some] at hv'
      rw [hv'] at hv
      simp only at hv
      split at hv
      · simp at hv
      · rename_i h3; exact (nonBlank_false v).mp (by simpa using h3)
  have hrest : ∀ dv, (∀ f, p.pFlags.lookup name = some f → f.changed = true → Blank f.value) →
      (match p.pFlags.lookup name with | some f => dv = f.defValue | none => dv = "") →
      ∃ src, Effective (p.pFlags.lookup name) ((p.envVars.lookup name).bind env)
        (p.config.lookup name)
        (match envPart p env name with
          | some v => (v, false)
          | none =>
            match p.config.lookup name with
            | some v => (v, false)
            | none =>
              if dv ≠ "" then (dv, true)
              else (((p.defaults.getD []).lookup name).getD "", true)).1 src ∧
        ((match envPart p env name with
          | some v => (v, false)
          | none =>
            match p.config.lookup name with
            | some v => (v, false)
            | none =>
              if dv ≠ "" then (dv, true)
              else (((p.defaults.getD []).lookup name).getD "", true)).2 = true ↔
          src = .default) := by
    intro dv hno hdv
    cases he : envPart p env name with
    | some v => exact ⟨.environment, .environment v hno (henv1 v he).1 (henv1 v he).2, by simp⟩
    | none =>
      cases hf : p.config.lookup name with
      | some v => exact ⟨.file, .file v hno (henv2 he) rfl, by simp⟩
      | none =>
        refine ⟨.default, ?_, ?_⟩
        · by_cases hdv0 : dv = ""
          · simp only [hdv0, ne_eq, not_true_eq_false, if_false, hd, Option.getD_none,
              List.lookup_nil]
            refine .default _ hno (henv2 he) rfl ?_
            rw [hdv0] at hdv
            exact hdv
          · simp only [ne_eq, hdv0, not_false_eq_true, if_true]
            exact .default _ hno (henv2 he) rfl hdv
        · by_cases hdv0 : dv = "" <;> simp [hdv0]
  unfold getString flagPart
  cases hfl : p.pFlags.lookup name with
  | none =>
    simp only
    have := hrest "" (by simp [hfl]) (by simp [hfl])
    rw [hfl] at this
    exact this
  | some f =>
    by_cases hnb : nonBlank f.value = true
    · by_cases hch : f.changed = true
      · simp only [hnb, hch, if_true]
        exact ⟨.flag, .flag f rfl hch ((nonBlank_iff _).mp hnb), by simp⟩
      · simp only [hnb, hch, if_true, if_false]
        have hv : f.value = f.defValue := hw f hfl (by simpa using hch)
        have := hrest f.value (by
          intro f' hf' hc'
          rw [hfl] at hf'; injection hf' with hf'; subst hf'
          exact absurd hc' hch) (by simp [hfl, hv])
        rw [hfl] at this
        exact this
    · simp only [hnb, if_false]
      have hbl : Blank f.value := (nonBlank_false _).mp (by simpa using hnb)
      have hdv : f.defValue = "" := by
        cases hch : f.changed with
        | true => exact hb f hfl hch hbl
        | false =>
          rcases hdef f hfl with h | h
          · exact h
          · rw [← hw f hfl hch] at h; exact absurd hbl h
      have := hrest "" (by
          intro f' hf' _
          rw [hfl] at hf'; injection hf' with hf'; subst hf'
          exact hbl) (by simp [hfl, hdv])
      rw [hfl] at this
      exact this

/-- The hypotheses of `precedence_partial` are met by the CLI's own bindings: here the environment
wins over the flag's default and the file. -/
example : getString { cliProvider (fun _ => none) with config := [("connectProtocol", "unix")] }
    (fun v => if v = "CELERITY_CLI_CONNECT_PROTOCOL" then some "tcp" else none) "connectProtocol" =
    ("tcp", false) := by decide

/-- **C42, partial.** The six settings of the CLI, by their names: each comes from its flag, its
environment variable, its entry in the config file or its default, in this order. Missing: flags given
with a blank value. -/
theorem settings_partial (flags env : String → Option String) (cfg : List (String × String))
    (s : Setting) (hs : s ∈ settings)
    (hb : ∀ v, flags s.flag = some v → Blank v → s.dflt = "") :
    ∃ src, Effective (some (flagOf s (flags s.flag))) (env s.envVar) (cfg.lookup s.name)
        (getString { cliProvider flags with config := cfg } env s.name).1 src ∧
      ((getString { cliProvider flags with config := cfg } env s.name).2 = true ↔
        src = .default) := by
  have hf : (cliProvider flags).pFlags.lookup s.name = some (flagOf s (flags s.flag)) := by
    simp only [settings, List.mem_cons, List.not_mem_nil, or_false] at hs
    rcases hs with rfl | rfl | rfl | rfl | rfl | rfl <;>
      · dsimp only
        generalize hv : flags _ = o
        cases o <;> simp [cliProvider, bindEnvVar, bindPFlag, newProvider, List.lookup, flagOf, hv]
  have he : (cliProvider flags).envVars.lookup s.name = some s.envVar := by
    simp only [settings, List.mem_cons, List.not_mem_nil, or_false] at hs
    rcases hs with rfl | rfl | rfl | rfl | rfl | rfl <;> rfl
  have hdef : s.dflt = "" ∨ ¬ Blank s.dflt := by
    simp only [settings, List.mem_cons, List.not_mem_nil, or_false] at hs
    rcases hs with rfl | rfl | rfl | rfl | rfl | rfl
    · right; unfold Blank; decide
    · right; unfold Blank; decide
    · right; unfold Blank; decide
    · right; unfold Blank; decide
    · left; rfl
    · right; unfold Blank; decide
  have h := precedence_partial { cliProvider flags with config := cfg } env s.name rfl
    (by
      intro f h
      rw [show ({ cliProvider flags with config := cfg } : Provider).pFlags = _ from rfl, hf] at h
      injection h with h
      subst h
      cases flags s.flag with
      | none => intro _; rfl
      | some v => nofun)
    (by
      intro f h hc hbl
      rw [show ({ cliProvider flags with config := cfg } : Provider).pFlags = _ from rfl, hf] at h
      injection h with h
      subst h
      cases hv : flags s.flag with
      | none => rw [hv] at hc; cases hc
      | some v => rw [hv] at hbl; exact hb v hv hbl)
    (by
      intro f h
      rw [show ({ cliProvider flags with config := cfg } : Provider).pFlags = _ from rfl, hf] at h
      injection h with h
      subst h
      cases flags s.flag <;> exact hdef)
  rw [show ({ cliProvider flags with config := cfg } : Provider).pFlags = _ from rfl, hf,
    show ({ cliProvider flags with config := cfg } : Provider).envVars = _ from rfl, he] at h
  exact h

/-- The endpoint from the environment, when the config file has another one. -/
example : getString { cliProvider (fun _ => none) with config := [("engineEndpoint", "http://a")] }
    (fun v => if v = "CELERITY_CLI_ENGINE_ENDPOINT" then some "http://b" else none) "engineEndpoint" =
      ("http://b", false) := by decide

/-! ## C43: numbers -/

/-- **C43, signed types.** The setting is the number its text denotes if that is in range of the
type, and zero otherwise. -/
theorem int_exact (bits : Nat) (hbits : 0 < bits) (p : Provider) (env : String → Option String)
    (name : String) :
    (∀ n, IntText (getString p env name).1 n → -(2 ^ (bits - 1) : Nat) ≤ n →
      n < (2 ^ (bits - 1) : Nat) → (getInt bits p env name).1 = n) ∧
    ((¬ ∃ n, IntText (getString p env name).1 n ∧ -(2 ^ (bits - 1) : Nat) ≤ n ∧
      n < (2 ^ (bits - 1) : Nat)) → (getInt bits p env name).1 = 0) ∧
    (getInt bits p env name).2 = (getString p env name).2 := by
  unfold getInt
  generalize getString p env name = r
  obtain ⟨s, d⟩ := r
  simp only
  refine ⟨?_, ?_, ?_⟩
  · intro n hn h1 h2
    have hne : s ≠ "" := by
      rintro rfl
      obtain ⟨sign, ds, h0, h3, _⟩ := hn
      have : sign ++ ds = [] := by rw [← h0]; rfl
      simp at this
      exact h3 this.2
    rw [if_neg hne, (parseInt_iff bits s n).mpr ⟨hn, h1, h2⟩]
    simp only [toSigned]
    have hpow : (2 ^ bits : Nat) = 2 * 2 ^ (bits - 1) := by
      obtain ⟨k, rfl⟩ : ∃ k, bits = k + 1 := ⟨bits - 1, by omega⟩
      rw [Nat.add_sub_cancel, Nat.pow_succ, Nat.mul_comm]
    rw [hpow]
    generalize 2 ^ (bits - 1) = b at h1 h2
    exact Int.bmod_eq_of_le (by omega) (by omega)
  · intro h
    split
    · rfl
    · split
      · rfl
      · rename_i v hv
        exact absurd ⟨v, (parseInt_iff bits s v).mp hv⟩ h
  · split
    · rfl
    · split <;> rfl

/-- **C43, unsigned types.** As for signed types; the text carries no sign. -/
theorem uint_exact (bits : Nat) (p : Provider) (env : String → Option String)
    (name : String) :
    (∀ n, NatText (getString p env name).1 n → n < 2 ^ bits → (getUint bits p env name).1 = n) ∧
    ((¬ ∃ n, NatText (getString p env name).1 n ∧ n < 2 ^ bits) →
      (getUint bits p env name).1 = 0) ∧
    (getUint bits p env name).2 = (getString p env name).2 := by
  unfold getUint
  generalize getString p env name = r
  obtain ⟨s, d⟩ := r
  simp only
  refine ⟨?_, ?_, ?_⟩
  · intro n hn h1
    have hne : s ≠ "" := by
      rintro rfl
      exact hn.1 rfl
    rw [if_neg hne, (parseUint_iff bits s n).mpr ⟨hn, h1⟩]
    exact Nat.mod_eq_of_lt h1
  · intro h
    split
    · rfl
    · split
      · rfl
      · rename_i v hv
        exact absurd ⟨v, (parseUint_iff bits s v).mp hv⟩ h
  · split
    · rfl
    · split <;> rfl

/-- **C43, booleans.** The setting is true exactly for the texts Go accepts as true; every other
text, also a malformed one, is false. -/
theorem bool_exact (p : Provider) (env : String → Option String) (name : String) :
    ((getBool p env name).1 = true ↔
      (getString p env name).1 ∈ ["1", "t", "T", "TRUE", "true", "True"]) ∧
    (getBool p env name).2 = (getString p env name).2 := by
  unfold getBool
  generalize getString p env name = r
  obtain ⟨s, d⟩ := r
  simp only
  constructor
  · by_cases hs : s = ""
    · subst hs; simp
    · rw [if_neg hs]
      unfold parseBool
      by_cases h1 : s ∈ ["1", "t", "T", "TRUE", "true", "True"]
      · simp only [h1, if_true]
      · rw [if_neg h1]
        by_cases h2 : s ∈ ["0", "f", "F", "FALSE", "false", "False"]
        · simp only [h2, if_true, h1, iff_false, Bool.false_eq_true, not_false_eq_true]
        · simp only [h2, if_false, h1, iff_false, Bool.false_eq_true, not_false_eq_true]
  · split
    · rfl
    · split <;> rfl

/-- **C43, floating-point types.** The setting is what the text is parsed as with the width of the type,
and zero if there is none. -/
theorem float_exact {F : Type} (parse : Nat → String → Option F) (zero : F) (bits : Nat)
    (p : Provider) (env : String → Option String) (name : String) (he : parse bits "" = none) :
    (getFloat parse zero bits p env name).1 = (parse bits (getString p env name).1).getD zero ∧
    (getFloat parse zero bits p env name).2 = (getString p env name).2 := by
  unfold getFloat
  generalize getString p env name = r
  obtain ⟨s, d⟩ := r
  dsimp only
  split
  next h => subst h; rw [he]; exact ⟨rfl, rfl⟩
  next => cases parse bits s <;> exact ⟨rfl, rfl⟩

/-- Numbers at the borders of the types. -/
example : IntText "-2147483648" (-2147483648) ∧
    getInt 32 { newProvider with config := [("n", "-2147483648")] } (fun _ => none) "n" =
      (-2147483648, false) ∧
    getInt 32 { newProvider with config := [("n", "2147483648")] } (fun _ => none) "n" =
      (0, false) := by
  refine ⟨⟨['-'], ['2', '1', '4', '7', '4', '8', '3', '6', '4', '8'], rfl, by simp, by decide,
    .inr ⟨rfl, by decide⟩⟩, by decide, by decide⟩

/-! ## C44: refusing unusable settings -/

/-- The extension that selects a format. -/
def extensions : Format → List String
  | .yaml => [".yaml", ".yml"]
  | .json => [".json"]
  | .toml => [".toml"]

theorem suffix_apart {s a b : String} (ha : hasSuffix s a = true) (hb : hasSuffix s b = true)
    (h1 : ¬ a.toList <:+ b.toList) (h2 : ¬ b.toList <:+ a.toList) : False := by
  unfold hasSuffix at ha hb
  rw [List.isSuffixOf_iff_suffix] at ha hb
  rcases Nat.le_total a.toList.length b.toList.length with h | h
  · exact h1 (List.suffix_of_suffix_length_le ha hb h)
  · exact h2 (List.suffix_of_suffix_length_le hb ha h)

/-- Loading succeeds exactly for a readable file with a supported extension that decodes. -/
theorem load_iff (w : World) (p p' : Provider) (path : String) :
    loadConfigFile w p path = .ok p' ↔
      ∃ text fmt c, w.file path = some text ∧ HasExt path (extensions fmt) ∧
        w.decode fmt text p.config = some c ∧ p' = { p with config := c } := by
  have hext : ∀ fmt, HasExt path (extensions fmt) ↔
      (match fmt with
        | .yaml => hasSuffix path ".yaml" = true ∨ hasSuffix path ".yml" = true
        | .json => hasSuffix path ".json" = true
        | .toml => hasSuffix path ".toml" = true) := by
    intro fmt
    cases fmt <;> simp only [HasExt, extensions, hasSuffix_iff]
    · constructor
      · rintro ⟨b, e, he, h⟩
        simp only [List.mem_cons, List.not_mem_nil, or_false] at he
        rcases he with rfl | rfl
        · exact .inl ⟨b, h⟩
        · exact .inr ⟨b, h⟩
      · rintro (⟨b, h⟩ | ⟨b, h⟩)
        · exact ⟨b, _, by simp, h⟩
        · exact ⟨b, ".yml", by simp, h⟩
    · constructor
      · rintro ⟨b, e, he, h⟩
        simp only [List.mem_singleton] at he; subst he
        exact ⟨b, h⟩
      · rintro ⟨b, h⟩; exact ⟨b, _, by simp, h⟩
    · constructor
      · rintro ⟨b, e, he, h⟩
        simp only [List.mem_singleton] at he; subst he
        exact ⟨b, h⟩
      · rintro ⟨b, h⟩; exact ⟨b, _, by simp, h⟩
  have hdec : ∀ fmt text, (match w.decode fmt text p.config with
      | some c => (Except.ok { p with config := c } : Except CliError Provider)
      | none => .error .decode) = .ok p' ↔
      ∃ c, w.decode fmt text p.config = some c ∧ p' = { p with config := c } := by
    intro fmt text
    cases hd : w.decode fmt text p.config with
    | none => simp
    | some c => simp [eq_comm]
  unfold loadConfigFile
  cases hf : w.file path with
  | none => simp
  | some text =>
    simp only [Option.some.injEq]
    by_cases hy : (hasSuffix path ".yaml" || hasSuffix path ".yml") = true
    · rw [if_pos hy]
      refine (hdec .yaml text).trans ?_
      simp only [Bool.or_eq_true] at hy
      constructor
      · rintro ⟨c, h⟩; exact ⟨text, .yaml, c, rfl, (hext .yaml).mpr hy, h⟩
      · rintro ⟨text', fmt, c, rfl, he, h⟩
        rw [hext] at he
        cases fmt
        · exact ⟨c, h⟩
        · rcases hy with hy | hy
          · exact (suffix_apart hy he (by decide) (by decide)).elim
          · exact (suffix_apart hy he (by decide) (by decide)).elim
        · rcases hy with hy | hy
          · exact (suffix_apart hy he (by decide) (by decide)).elim
          · exact (suffix_apart hy he (by decide) (by decide)).elim
    · rw [if_neg hy]
      simp only [Bool.or_eq_true] at hy
      by_cases hj : hasSuffix path ".json" = true
      · rw [if_pos hj]
        refine (hdec .json text).trans ?_
        constructor
        · rintro ⟨c, h⟩; exact ⟨text, .json, c, rfl, (hext .json).mpr hj, h⟩
        · rintro ⟨text', fmt, c, rfl, he, h⟩
          rw [hext] at he
          cases fmt
          · exact absurd he hy
          · exact ⟨c, h⟩
          · exact (suffix_apart hj he (by decide) (by decide)).elim
      · rw [if_neg hj]
        by_cases ht : hasSuffix path ".toml" = true
        · rw [if_pos ht]
          refine (hdec .toml text).trans ?_
          constructor
          · rintro ⟨c, h⟩; exact ⟨text, .toml, c, rfl, (hext .toml).mpr ht, h⟩
          · rintro ⟨text', fmt, c, rfl, he, h⟩
            rw [hext] at he
            cases fmt
            · exact absurd he hy
            · exact absurd he hj
            · exact ⟨c, h⟩
        · rw [if_neg ht]
          constructor
          · intro h; simp at h
          · rintro ⟨text', fmt, c, rfl, he, h⟩
            rw [hext] at he
            cases fmt
            · exact absurd he hy
            · exact absurd he hj
            · exact absurd he ht

theorem protocol_iff (goos proto : String) :
    validateConnectProtocol goos proto = .ok () ↔ Usable goos proto := by
  unfold validateConnectProtocol Usable
  by_cases h1 : proto = "tcp"
  · simp [h1]
  · by_cases h2 : proto = "unix"
    · by_cases h3 : goos = "windows" <;> simp [h2, h3]
    · simp [h1, h2]

theorem language_iff (lang : String) :
    validateLanguage lang = .ok () ↔
      lang ∈ ["", "nodejs", "python", "java", "dotnet", "go", "rust"] := by
  unfold validateLanguage supportedLanguages
  by_cases h : lang = ""
  · simp [h]
  · by_cases h2 : lang ∈ ["nodejs", "python", "java", "dotnet", "go", "rust"]
    · simp [h, h2]
    · rw [if_neg h, if_neg h2]
      simp only [List.mem_cons, h, false_or]
      simpa using h2

/-- **C44.** A command does anything at all exactly when the config file could be read, has a
supported extension and decodes, the connect protocol then configured is usable on the platform
and, for `init`, the configured language is empty or one of the six. -/
theorem command_runs_iff (w : World) (p : Provider) (path : String) (c : Cmd) :
    (∃ e, runCmd w p path c = .ok e) ↔
      ∃ text fmt cfg, w.file path = some text ∧ HasExt path (extensions fmt) ∧
        w.decode fmt text p.config = some cfg ∧
        Usable w.goos (getString { p with config := cfg } w.env "connectProtocol").1 ∧
        (c = .init → (getString { p with config := cfg } w.env "initLanguage").1 ∈
          ["", "nodejs", "python", "java", "dotnet", "go", "rust"]) := by
  unfold runCmd preRun
  cases hl : loadConfigFile w p path with
  | error e =>
    simp only
    constructor
    · rintro ⟨_, h⟩; simp at h
    · rintro ⟨text, fmt, cfg, h1, h2, h3, _⟩
      have := (load_iff w p { p with config := cfg } path).mpr ⟨text, fmt, cfg, h1, h2, h3, rfl⟩
      rw [hl] at this; simp at this
  | ok p' =>
    obtain ⟨text, fmt, cfg, h1, h2, h3, rfl⟩ := (load_iff w p p' path).mp hl
    have huniq : ∀ text' fmt' cfg', w.file path = some text' → HasExt path (extensions fmt') →
        w.decode fmt' text' p.config = some cfg' → cfg' = cfg := by
      intro text' fmt' cfg' h1' h2' h3'
      have := (load_iff w p { p with config := cfg' } path).mpr ⟨text', fmt', cfg', h1', h2', h3', rfl⟩
      rw [hl] at this
      injection this with this
      injection this with this
      exact this.symm
    have hreduce : (∃ text fmt cfg', w.file path = some text ∧ HasExt path (extensions fmt) ∧
        w.decode fmt text p.config = some cfg' ∧
        Usable w.goos (getString { p with config := cfg' } w.env "connectProtocol").1 ∧
        (c = .init → (getString { p with config := cfg' } w.env "initLanguage").1 ∈
          ["", "nodejs", "python", "java", "dotnet", "go", "rust"])) ↔
        Usable w.goos (getString { p with config := cfg } w.env "connectProtocol").1 ∧
        (c = .init → (getString { p with config := cfg } w.env "initLanguage").1 ∈
          ["", "nodejs", "python", "java", "dotnet", "go", "rust"]) := by
      constructor
      · rintro ⟨t, f, c', g1, g2, g3, g4⟩
        rw [huniq t f c' g1 g2 g3] at g4
        exact g4
      · intro g; exact ⟨text, fmt, cfg, h1, h2, h3, g⟩
    rw [hreduce, ← protocol_iff]
    dsimp only
    cases hp : validateConnectProtocol w.goos
        (getString { p with config := cfg } w.env "connectProtocol").1 with
    | error e => simp
    | ok u =>
      cases u
      simp only [true_and]
      cases c with
      | version => simp
      | validate => simp
      | init =>
        rw [← language_iff]
        simp only [forall_const]
        cases hv : validateLanguage (getString { p with config := cfg } w.env "initLanguage").1 with
        | error e => simp
        | ok u => cases u; simp

/-- **C44.** What a command then does: `version` prints the version, `init` shows its screen for the
configured language, `validate` validates the configured file. -/
theorem command_does (w : World) (p : Provider) (path : String) (c : Cmd) (e : Effect)
    (h : runCmd w p path c = .ok e) :
    ∃ text fmt cfg, w.file path = some text ∧ w.decode fmt text p.config = some cfg ∧
      match c with
      | .version => e = .printVersion
      | .init => e = .initScreen (getString { p with config := cfg } w.env "initLanguage").1
      | .validate => ∃ client, e = .validate client
          (getString { p with config := cfg } w.env "validateBlueprintFile").1
          (getString { p with config := cfg } w.env "validateBlueprintFile").2 := by
  unfold runCmd preRun at h
  cases hl : loadConfigFile w p path with
  | error e => rw [hl] at h; simp at h
  | ok p' =>
    obtain ⟨text, fmt, cfg, h1, _, h3, rfl⟩ := (load_iff w p p' path).mp hl
    refine ⟨text, fmt, cfg, h1, h3, ?_⟩
    rw [hl] at h
    dsimp only at h
    cases hp : validateConnectProtocol w.goos
        (getString { p with config := cfg } w.env "connectProtocol").1 with
    | error e => rw [hp] at h; simp at h
    | ok u =>
      rw [hp] at h
      cases c with
      | version => injection h with h; exact h.symm
      | validate => injection h with h; exact ⟨_, h.symm⟩
      | init =>
        dsimp only at h
        cases hv : validateLanguage (getString { p with config := cfg } w.env "initLanguage").1 with
        | error e => rw [hv] at h; simp at h
        | ok u => rw [hv] at h; injection h with h; exact h.symm

/-- The hypotheses of `command_runs_iff` are met: an empty TOML file and the protocol from the
flag's default on Linux. -/
example : ∃ e, runCmd ⟨fun _ => some "", fun _ _ c => some c, fun _ => none, "linux"⟩
    (cliProvider fun _ => none) "celerity.config.toml" .init = .ok e :=
  ⟨.initScreen "", rfl⟩

/-! ## C59: the configured engine -/

/-- **C59, full statement.** The validate command talks to the engine that is configured: over the
configured protocol, and for `tcp` at the configured endpoint. -/
def FullEngine : Prop :=
  ∀ (w : World) (p : Provider) (path : String) (client : EngineClient) (file : String) (d : Bool),
    runCmd w p path .validate = .ok (.validate client file d) →
    ∃ cfg, preRun w p path = .ok cfg ∧
      client.protocol = (getString cfg w.env "connectProtocol").1 ∧
      (client.protocol = "tcp" → client.endpoint = (getString cfg w.env "engineEndpoint").1)

/-- **C59 is false of the code.** With the settings the CLI has by default the client uses TCP
instead of a unix socket. -/
theorem engine_violated : ¬ FullEngine := by
  intro h
  obtain ⟨cfg, h1, h2, _⟩ := h ⟨fun _ => some "", fun _ _ c => some c, fun _ => none, "linux"⟩
    (cliProvider fun _ => none) "celerity.config.toml" ⟨"tcp", "http://localhost:8325"⟩
    "app.blueprint.yaml" true rfl
  have h3 : preRun ⟨fun _ => some "", fun _ _ c => some c, fun _ => none, "linux"⟩
    (cliProvider fun _ => none) "celerity.config.toml" = .ok (cliProvider fun _ => none) := rfl
  rw [h3] at h1
  injection h1 with h1
  subst h1
  revert h2
  decide

/-- The endpoint setting has no effect either: whatever is configured, the client is the same. -/
theorem engine_ignores_settings (w : World) (p : Provider) (path : String) (client : EngineClient)
    (file : String) (d : Bool) (h : runCmd w p path .validate = .ok (.validate client file d)) :
    client = ⟨"tcp", "http://localhost:8325"⟩ := by
  unfold runCmd at h
  split at h
  · simp at h
  · simp only [Except.ok.injEq, Effect.validate.injEq] at h
    exact h.1.symm

/-- **C59, partial.** The client is the configured one when the configuration asks for TCP at the
default endpoint. Missing: every other configuration. -/
theorem engine_partial (w : World) (p cfg : Provider) (path : String) (client : EngineClient)
    (file : String) (d : Bool) (h : runCmd w p path .validate = .ok (.validate client file d))
    (hp : preRun w p path = .ok cfg)
    (h1 : (getString cfg w.env "connectProtocol").1 = "tcp")
    (h2 : (getString cfg w.env "engineEndpoint").1 = "http://localhost:8325") :
    client.protocol = (getString cfg w.env "connectProtocol").1 ∧
      client.endpoint = (getString cfg w.env "engineEndpoint").1 ∧
      (file, d) = getString cfg w.env "validateBlueprintFile" := by
  have h3 := engine_ignores_settings w p path client file d h
  subst h3
  refine ⟨h1.symm, h2.symm, ?_⟩
  unfold runCmd at h
  rw [hp] at h
  simp only [Except.ok.injEq, Effect.validate.injEq] at h
  rw [← h.2.1, ← h.2.2]

/-- The hypotheses of `engine_partial` are met. -/
example : runCmd ⟨fun _ => some "", fun _ _ c => some c, fun _ => none, "linux"⟩
    (cliProvider fun n => if n = "connect-protocol" then some "tcp" else none)
    "celerity.config.toml" .validate =
    .ok (.validate ⟨"tcp", "http://localhost:8325"⟩ "app.blueprint.yaml" true) := rfl

/-! ## C60: defaults registered with the provider -/

/-- The ways to build up a provider. -/
inductive Op
  | bindEnvVar (name env : String)
  | bindPFlag (name : String) (f : Flag)
  | setDefault (name value : String)
  | load (c : List (String × String))

/-- One building step. -/
def stepOp (p : Provider) : Op → Outcome String Provider
  | .bindEnvVar n e => .ok (bindEnvVar p n e)
  | .bindPFlag n f => .ok (bindPFlag p n f)
  | .setDefault n v => setDefault p n v
  | .load c => .ok { p with config := c }

/-- Building a provider from a new one. -/
def build : List Op → Outcome String Provider
  | ops => ops.foldl (fun r op => match r with | .ok p => stepOp p op | o => o) (.ok newProvider)

/-- **C60, full statement.** A default registered with the provider is the value of the setting when
nothing else provides one. -/
def FullDefaults : Prop :=
  ∀ (ops : List Op) (name value : String) (env : String → Option String),
    ∃ p, build (ops ++ [.setDefault name value]) = .ok p ∧
      (p.pFlags.lookup name = none → p.envVars.lookup name = none → p.config.lookup name = none →
        getString p env name = (value, true))

/-- **C60 is false of the code.** Registering a default panics, whatever was done before. -/
theorem set_default_panics (ops : List Op) (name value : String) :
    build (ops ++ [.setDefault name value]) = .panic := by
  have key : ∀ (ops : List Op) (r : Outcome String Provider),
      (r = .panic ∨ ∃ p, r = .ok p ∧ p.defaults = none) →
      (ops.foldl (fun r op => match r with | .ok p => stepOp p op | o => o) r = .panic ∨
        ∃ p, ops.foldl (fun r op => match r with | .ok p => stepOp p op | o => o) r = .ok p ∧
          p.defaults = none) := by
    intro ops
    induction ops with
    | nil => intro r h; exact h
    | cons op ops ih =>
      intro r h
      rw [List.foldl_cons]
      apply ih
      rcases h with rfl | ⟨p, rfl, hp⟩
      · exact .inl rfl
      · cases op with
        | bindEnvVar n e => exact .inr ⟨_, rfl, hp⟩
        | bindPFlag n f => exact .inr ⟨_, rfl, hp⟩
        | setDefault n v => left; simp [stepOp, setDefault, hp]
        | load c => exact .inr ⟨_, rfl, hp⟩
  unfold build
  rw [List.foldl_append, List.foldl_cons, List.foldl_nil]
  rcases key ops (.ok newProvider) (.inr ⟨_, rfl, rfl⟩) with h | ⟨p, h, hp⟩
  · rw [h]
  · rw [h]; simp [stepOp, setDefault, hp]

theorem defaults_violated : ¬ FullDefaults := by
  intro h
  obtain ⟨p, h1, _⟩ := h [] "a" "b" (fun _ => none)
  rw [set_default_panics] at h1
  simp at h1

/-- **C60, partial.** On a provider whose defaults map exists, registering a default gives the
setting that value when nothing else does. Missing: a way to get such a provider, since the
constructor does not create the map. -/
theorem defaults_partial (p : Provider) (ds : List (String × String)) (name value : String)
    (env : String → Option String) (hd : p.defaults = some ds)
    (h1 : p.pFlags.lookup name = none) (h2 : p.envVars.lookup name = none)
    (h3 : p.config.lookup name = none) :
    ∃ p', setDefault p name value = .ok p' ∧ getString p' env name = (value, true) := by
  refine ⟨{ p with defaults := some ((name, value) :: ds) }, by simp [setDefault, hd], ?_⟩
  simp [getString, flagPart, envPart, h1, h2, h3]

example : ∃ p : Provider, ∃ ds, p.defaults = some ds ∧ p.pFlags.lookup "a" = none :=
  ⟨⟨[], [], [], some []⟩, [], rfl, rfl⟩

end Verif.CliConfig
