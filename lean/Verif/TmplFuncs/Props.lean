import Verif.TmplFuncs.Lemmas

/-! # Properties of the functions of payload templates (C36, C37, C69-C74) -/

namespace Verif.TmplFuncs

variable {F : Type}

/-- Libraries for examples: floating point numbers are integers up to 1000. -/
def demo : Ext Int where
  ofInt i := i
  add a b := if a + b ≤ 1000 then some (a + b) else none
  sub a b := some (a - b)
  mult a b := if a * b ≤ 1000 then some (a * b) else none
  div a b := some (a / b)
  isZero a := decide (a = 0)
  floatText _ := ['f']
  decode _ := none
  encode _ := none
  b64encode s := s
  b64decode s := some s
  sha256 s := s
  sha384 s := s
  sha512 s := s
  rand min _ := min
  uuid := ['u']
  nanoid := ['n']

/-! ## C36: list functions -/

/-- C36, `list`: the arguments, in order, are the elements. -/
theorem list_collects [DecidableEq F] (x : Ext F) (args : List (Json F)) :
    call x args .list = .ok (.arr args) := rfl

/-- C36, the full claim about `chunk_list` and `list_elem`: whatever the list and the number, pieces
or an element come out, or an error is reported. -/
def FullListFunctions : Prop :=
  ∀ (F : Type) (l : List (Json F)) (n : Int),
    (0 < n → ∃ ps, chunkList [.arr l, .int n] = .ok (.arr (ps.map .arr)) ∧ Pieces n.toNat l ps) ∧
    (n ≤ 0 → ∃ e, chunkList [.arr l, .int n] = .err e) ∧
    (∀ v, listElem [.arr l, .int n] = .ok v ↔ 0 ≤ n ∧ l[n.toNat]? = some v) ∧
    ((∀ v, ¬ (0 ≤ n ∧ l[n.toNat]? = some v)) → ∃ e, listElem [.arr l, .int n] = .err e)

/-- C36 is false as stated: a chunk size of 0 and a negative position crash. -/
theorem list_functions_violated : ¬ FullListFunctions := by
  intro h
  obtain ⟨e, he⟩ := (h Nat [.null] 0).2.1 (by decide)
  have : (chunkList [.arr [.null], .int 0] : Result Nat) = .panic := by rfl
  rw [this] at he
  cases he

/-- The same for `list_elem`. -/
theorem list_elem_violated (l : List (Json F)) (n : Int) (h : n < 0) :
    listElem [.arr l, .int n] = .panic := by
  simp only [listElem, isNumber, if_true, asU64]
  rw [if_neg (by omega)]

/-- C36 for positive sizes: consecutive pieces of the size that was asked for. Missing: sizes that
are not positive integers. -/
theorem chunk_list_partial (l : List (Json F)) (n : Int) (h1 : 0 < n) (h2 : n < 2 ^ 64) :
    ∃ ps, chunkList [.arr l, .int n] = .ok (.arr (ps.map .arr)) ∧ Pieces n.toNat l ps := by
  obtain ⟨ps, hps, hp⟩ := chunks_pieces n.toNat (by omega) l
  refine ⟨ps, ?_, hp⟩
  simp only [chunkList, isNumber, if_true, asU64]
  rw [if_pos ⟨by omega, h2⟩]
  dsimp only
  rw [hps]

example : (chunkList [.arr [.int 1, .int 2, .int 3], .int 2] : Result Nat)
    = .ok (.arr [.arr [.int 1, .int 2], .arr [.int 3]]) := by rfl

/-- C36 for positions: the element at the position, or an error if there is none. Missing: negative
positions. -/
theorem list_elem_partial (l : List (Json F)) (n : Int) (h1 : 0 ≤ n) (h2 : n < 2 ^ 64) :
    (∀ v, listElem [.arr l, .int n] = .ok v ↔ l[n.toNat]? = some v) ∧
    (l.length ≤ n.toNat → listElem [.arr l, .int n] = .err .invalidInput) := by
  have e : listElem [.arr l, .int n] =
      match l[n.toNat]? with
      | some v => Outcome.ok v
      | none => .err .invalidInput := by
    simp only [listElem, isNumber, if_true, asU64]
    rw [if_pos ⟨h1, h2⟩]
    rfl
  constructor
  · intro v
    rw [e]
    cases l[n.toNat]? <;> simp
  · intro h
    rw [e, List.getElem?_eq_none h]

example : (listElem [.arr [.int 5, .null], .int 1] : Result Nat) = .ok .null
    ∧ (listElem [.arr [.int 5, .null], .int 2] : Result Nat) = .err .invalidInput := ⟨rfl, rfl⟩

/-- C36: `remove_duplicates` keeps the first occurrence of each value, in order. -/
theorem remove_duplicates_keeps_first [DecidableEq F] (l : List (Json F)) :
    ∃ out, removeDuplicates [.arr l] = .ok (.arr out) ∧ FirstKept l out := by
  refine ⟨uniqueLoop l [], rfl, ?_⟩
  have := uniqueLoop_firstKept l [] [] ⟨by simp, by simp, by simp⟩
  simpa using this

example : (removeDuplicates [.arr [.int 2, .null, .int 2, .float 2]] : Result Nat)
    = .ok (.arr [.int 2, .null, .float 2]) := by decide

/-- C36: `contains` agrees with membership and with being a part of a text. -/
theorem contains_agrees [DecidableEq F] :
    (∀ (l : List (Json F)) (v : Json F), ∃ b, contains [.arr l, v] = .ok (.bool b) ∧
      (b = true ↔ v ∈ l)) ∧
    (∀ s needle : List Char, ∃ b, (contains [.str s, .str needle] : Result F) = .ok (.bool b) ∧
      (b = true ↔ ∃ u v, s = u ++ needle ++ v)) := by
  constructor
  · intro l v
    refine ⟨_, rfl, ?_⟩
    simp [List.any_eq_true]
  · intro s needle
    refine ⟨_, rfl, ?_⟩
    rw [hasSub_iff]
    exact ⟨fun ⟨u, v, h⟩ => ⟨u, v, h.symm⟩, fun ⟨u, v, h⟩ => ⟨u, v, h.symm⟩⟩

example : (contains [.str ['a', 'b', 'c'], .str ['b', 'c']] : Result Nat) = .ok (.bool true)
    ∧ (contains [.arr [.int 1], .float 1] : Result Nat) = .ok (.bool false) := by decide

/-- C36: `split` cuts at every occurrence of the separator, from left to right, and joining the
pieces with the separator restores the text. The empty separator is found at the ends and between
all characters. -/
theorem split_join (s sep : List Char) :
    ∃ ps, (split [.str s, .str sep] : Result F) = .ok (.arr (ps.map .str)) ∧
      sep.intercalate ps = s ∧ (sep ≠ [] → Splits sep s ps) ∧
      (sep = [] → ∃ cs, ps = [] :: cs ++ [[]] ∧ cs.flatten = s ∧ ∀ c ∈ cs, c.length = 1) := by
  refine ⟨splitText sep s, rfl, ?_, splitText_splits sep s, ?_⟩
  rotate_left
  · intro h
    rw [splitText, if_pos h]
    refine ⟨s.map fun c => [c], rfl, ?_, by simp⟩
    induction s with
    | nil => rfl
    | cons c s ih => rw [List.map_cons, List.flatten_cons, ih]; rfl
  by_cases h : sep = []
  · subst h; exact splitText_empty_join s
  · exact (splits_join (splitText_splits sep s h)).1

example : (split [.str ['a', 'x', 'x', 'x', 'b'], .str ['x', 'x']] : Result Nat)
    = .ok (.arr [.str ['a'], .str ['x', 'b']]) := by rfl

/-! ## C37: format -/

/-- C37, the full claim: the i-th placeholder is replaced by the i-th argument. -/
def FullFormat : Prop :=
  ∀ (F : Type) (x : Ext F) (s : List Char) (args : List (Json F)) (pieces texts : List (List Char)),
    Splits placeholder s pieces → AllWritten x.floatText args texts →
    pieces.length = texts.length + 1 →
    format x (.str s :: args) = .ok (.str (interleave pieces texts))

/-- C37 is false: a placeholder in an argument takes the next argument. `format("{}-{}", "{}", "b")`
gives `b-{}` rather than `{}-b`. -/
theorem format_violated : ¬ FullFormat := by
  intro h
  have hs : Splits placeholder ['{', '}', '-', '{', '}'] [[], ['-'], []] := by
    have := splitText_splits placeholder ['{', '}', '-', '{', '}'] (by simp [placeholder])
    exact this
  have := h Int demo ['{', '}', '-', '{', '}'] [.str ['{', '}'], .str ['b']] [[], ['-'], []]
    [['{', '}'], ['b']] hs
    (.cons (.str _) (.cons (.str _) .nil)) rfl
  have e : format demo [.str ['{', '}', '-', '{', '}'], .str ['{', '}'], .str ['b']]
      = .ok (.str ['b', '-', '{', '}']) := by rfl
  rw [e] at this
  cases this

/-- Even an argument without braces can do it: `format("{{}}{}", "", "x")` gives `x{}` rather than
`{}x`. -/
theorem format_empty_argument_violated :
    format demo [.str ['{', '{', '}', '}', '{', '}'], .str [], .str ['x']]
      = .ok (.str ['x', '{', '}']) ∧
    Splits placeholder ['{', '{', '}', '}', '{', '}'] [['{'], ['}'], []] ∧
    interleave [['{'], ['}'], []] [[], ['x']] = ['{', '}', 'x'] :=
  ⟨by rfl, splitText_splits placeholder ['{', '{', '}', '}', '{', '}'] (by simp [placeholder]),
    by rfl⟩

/-- C37 for arguments without braces, when no argument is empty or the template has no braces but
its placeholders. Missing: other arguments. -/
theorem format_partial (x : Ext F) (s : List Char) (args : List (Json F))
    (pieces texts : List (List Char)) (hs : Splits placeholder s pieces)
    (hw : AllWritten x.floatText args texts) (hl : pieces.length = texts.length + 1)
    (hfree : ∀ t ∈ texts, BraceFree t)
    (hsafe : (∀ t ∈ texts, t ≠ []) ∨ ∀ p ∈ pieces, BraceFree p) :
    format x (.str s :: args) = .ok (.str (interleave pieces texts)) := by
  have hc := count_splits hs
  have ha := allWritten_length hw
  rw [format, if_neg (by omega)]
  have := fillLoop_ok x hs [] args texts hw hl ⟨hfree, hsafe⟩ (by simp [placeholder]) (by simp)
    (by
      intro p hp
      rw [List.nil_append]
      exact splits_pieces hs p (List.mem_of_mem_head? (by rw [hp]; exact rfl)))
  simpa using this

example : format demo [.str ['{', '{', '}', '=', '{', '}'], .int 12, .bool true]
    = .ok (.str ['{', '1', '2', '=', 't', 'r', 'u', 'e'])
    ∧ Splits placeholder ['{', '{', '}', '=', '{', '}'] [['{'], ['='], []] :=
  ⟨by decide, splitText_splits placeholder ['{', '{', '}', '=', '{', '}'] (by simp [placeholder])⟩

/-- C37: as many arguments as placeholders are required, whatever the arguments are; lists and
objects are refused. -/
theorem format_checks (x : Ext F) (s : List Char) (args : List (Json F))
    (pieces : List (List Char)) (hs : Splits placeholder s pieces) :
    (pieces.length ≠ args.length + 1 → format x (.str s :: args) = .err .arity) ∧
    (pieces.length = args.length + 1 → (∃ v ∈ args, ∀ t, ¬ Written x.floatText v t) →
      format x (.str s :: args) = .err .invalidArgument) := by
  have hc := count_splits hs
  constructor
  · intro h
    rw [format, if_pos (by omega)]
  · rintro h ⟨v, hv, hn⟩
    rw [format, if_neg (by omega)]
    exact fillLoop_err x hn args s hv

example : format demo [.str ['{', '}'], .arr []] = .err .invalidArgument
    ∧ format demo [.str ['{', '}']] = .err .arity := ⟨rfl, rfl⟩

/-! ## C69: crashes -/

/-- The calls that crash. -/
inductive Crashes (x : Ext F) : Fn → List (Json F) → Prop
  | chunkZero (l : List (Json F)) : Crashes x .chunkList [.arr l, .int 0]
  | chunkSize (l : List (Json F)) (n : Json F) : IsNum n → ¬ IsU64 n →
    Crashes x .chunkList [.arr l, n]
  | elem (l : List (Json F)) (n : Json F) : IsNum n → ¬ IsU64 n → Crashes x .listElem [.arr l, n]
  | randMin (a b : Json F) : IsNum a → ¬ IsI64 a → Crashes x .mathRand [a, b]
  | randMax (a b : Json F) : IsI64 a → IsNum b → ¬ IsI64 b → Crashes x .mathRand [a, b]
  | add (a b : Json F) (f g : F) : FloatOf x.ofInt a f → FloatOf x.ofInt b g → x.add f g = none →
    Crashes x .mathAdd [a, b]
  | sub (a b : Json F) (f g : F) : FloatOf x.ofInt a f → FloatOf x.ofInt b g → x.sub f g = none →
    Crashes x .mathSub [a, b]
  | mult (a b : Json F) (f g : F) : FloatOf x.ofInt a f → FloatOf x.ofInt b g →
    x.mult f g = none → Crashes x .mathMult [a, b]
  | div (a b : Json F) (f g : F) : FloatOf x.ofInt a f → FloatOf x.ofInt b g →
    x.isZero g = false → x.div f g = none → Crashes x .mathDiv [a, b]

/-- C69, the full claim: whatever the arguments, a function gives a value or an error. -/
def FullNoCrash : Prop :=
  ∀ (F : Type) [DecidableEq F] (x : Ext F) (f : Fn) (args : List (Json F)), call x args f ≠ .panic

/-- C69 is false. -/
theorem no_crash_violated : ¬ FullNoCrash := by
  intro h
  exact h Int demo .mathAdd [.int 600, .int 700] (by rfl)

theorem math_panic_iff (x : Ext F) (op : F → F → Option F) (a b : Json F) :
    (match asF64 x a, asF64 x b with
      | some f, some g => fromF64 (op f g)
      | _, _ => (.err .invalidArgument : Result F)) = .panic ↔
    ∃ f g, FloatOf x.ofInt a f ∧ FloatOf x.ofInt b g ∧ op f g = none := by
  constructor
  · intro h
    split at h
    next f g hf hg =>
      exact ⟨f, g, (asF64_iff x a f).1 hf, (asF64_iff x b g).1 hg, fromF64_panic.1 h⟩
    next => cases h
  · rintro ⟨f, g, hf, hg, ho⟩
    rw [(asF64_iff x a f).2 hf, (asF64_iff x b g).2 hg]
    dsimp only
    rw [ho]; rfl

/-- C69: the calls that crash are exactly these: numbers that are not integers of the expected range
as sizes, positions and bounds, the chunk size 0, and arithmetic whose result is not finite.
Missing: that those are reported as errors. -/
theorem no_crash_partial [DecidableEq F] (x : Ext F) (f : Fn) (args : List (Json F)) :
    call x args f = .panic ↔ Crashes x f args := by
  constructor
  · intro h
    cases f <;> simp only [call] at h
    case format =>
      exfalso
      revert h
      unfold format
      split
      · simp
      · split
        · simp
        · exact fillLoop_no_panic x _ _
      · simp
    case jsondecode => unfold jsondecode at h; repeat' split at h <;> try cases h
    case jsonencode => unfold jsonencode at h; repeat' split at h <;> try cases h
    case jsonmerge => unfold jsonmerge at h; repeat' split at h <;> try cases h
    case b64encode => unfold b64encode at h; repeat' split at h <;> try cases h
    case b64decode => unfold b64decode at h; repeat' split at h <;> try cases h
    case hash => unfold hash at h; repeat' split at h <;> try cases h
    case list => cases h
    case removeDuplicates => unfold removeDuplicates at h; repeat' split at h <;> try cases h
    case contains => unfold contains at h; repeat' split at h <;> try cases h
    case split => unfold split at h; repeat' split at h <;> try cases h
    case len => unfold len at h; repeat' split at h <;> try cases h
    case uuid => unfold uuid at h; repeat' split at h <;> try cases h
    case nanoid => unfold nanoid at h; repeat' split at h <;> try cases h
    case chunkList =>
      unfold chunkList at h
      split at h
      next l n =>
        split at h
        next hn =>
          split at h
          next hu => exact .chunkSize l n ((isNumber_iff n).1 hn) ((asU64_none_iff n).1 hu)
          next size hu =>
            split at h
            next hc =>
              have : size = 0 := by
                unfold chunks at hc
                split at hc
                next h0 => exact h0
                next => cases hc
              subst this
              cases n with
              | int i =>
                rw [asU64] at hu
                split at hu
                next hi =>
                  have : i = 0 := by
                    simp only [Option.some.injEq] at hu
                    omega
                  subst this
                  exact .chunkZero l
                next => cases hu
              | _ => cases hu
            next => cases h
        next => cases h
      next => cases h
      next => cases h
    case listElem =>
      unfold listElem at h
      split at h
      next l n =>
        split at h
        next hn =>
          split at h
          next hu => exact .elem l n ((isNumber_iff n).1 hn) ((asU64_none_iff n).1 hu)
          next size hu => split at h <;> cases h
        next => cases h
      next => cases h
      next => cases h
    case mathRand =>
      unfold mathRand at h
      split at h
      next a b =>
        split at h
        next ha =>
          split at h
          next hu => exact .randMin a b ((isNumber_iff a).1 ha) ((asI64_none_iff a).1 hu)
          next min hu =>
            have hi : IsI64 a := by
              apply Classical.byContradiction
              intro hc
              rw [(asI64_none_iff a).2 hc] at hu
              cases hu
            split at h
            next hb =>
              split at h
              next hv => exact .randMax a b hi ((isNumber_iff b).1 hb) ((asI64_none_iff b).1 hv)
              next => split at h <;> cases h
            next => cases h
        next => cases h
      next => cases h
    case mathAdd =>
      unfold mathAdd at h
      split at h
      next a b =>
        obtain ⟨f, g, h1, h2, h3⟩ := (math_panic_iff x x.add a b).1 h
        exact .add a b f g h1 h2 h3
      next => cases h
    case mathSub =>
      unfold mathSub at h
      split at h
      next a b =>
        obtain ⟨f, g, h1, h2, h3⟩ := (math_panic_iff x x.sub a b).1 h
        exact .sub a b f g h1 h2 h3
      next => cases h
    case mathMult =>
      unfold mathMult at h
      split at h
      next a b =>
        obtain ⟨f, g, h1, h2, h3⟩ := (math_panic_iff x x.mult a b).1 h
        exact .mult a b f g h1 h2 h3
      next => cases h
    case mathDiv =>
      unfold mathDiv at h
      split at h
      next a b =>
        split at h
        next f g hf hg =>
          split at h
          next => cases h
          next hz =>
            exact .div a b f g ((asF64_iff x a f).1 hf) ((asF64_iff x b g).1 hg)
              (by simpa using hz) (fromF64_panic.1 h)
        next => cases h
      next => cases h
  · intro h
    cases h with
    | chunkZero l => rfl
    | chunkSize l n h1 h2 =>
      simp only [call, chunkList]
      rw [if_pos ((isNumber_iff n).2 h1), (asU64_none_iff n).2 h2]
    | elem l n h1 h2 =>
      simp only [call, listElem]
      rw [if_pos ((isNumber_iff n).2 h1), (asU64_none_iff n).2 h2]
    | randMin a b h1 h2 =>
      simp only [call, mathRand]
      rw [if_pos ((isNumber_iff a).2 h1), (asI64_none_iff a).2 h2]
    | randMax a b h1 h2 h3 =>
      simp only [call, mathRand]
      obtain ⟨i, hi, h4, h5⟩ := h1
      subst hi
      have : asI64 (.int i : Json F) = some i := by rw [asI64, if_pos ⟨h4, h5⟩]
      rw [if_pos (by rfl), this]
      dsimp only
      rw [if_pos ((isNumber_iff b).2 h2), (asI64_none_iff b).2 h3]
    | add a b f g h1 h2 h3 => exact (math_panic_iff x x.add a b).2 ⟨f, g, h1, h2, h3⟩
    | sub a b f g h1 h2 h3 => exact (math_panic_iff x x.sub a b).2 ⟨f, g, h1, h2, h3⟩
    | mult a b f g h1 h2 h3 => exact (math_panic_iff x x.mult a b).2 ⟨f, g, h1, h2, h3⟩
    | div a b f g h1 h2 h3 h4 =>
      simp only [call, mathDiv]
      rw [(asF64_iff x a f).2 h1, (asF64_iff x b g).2 h2]
      dsimp only
      rw [h3, h4]; rfl

example : Crashes demo .listElem [.arr [.null], .float 0] :=
  .elem _ _ (Or.inr ⟨_, rfl⟩) (by rintro ⟨i, h, _⟩; cases h)

/-! ## C70: computed numbers as positions -/

/-- The arithmetic functions. -/
inductive IsMath : Fn → Prop
  | add : IsMath .mathAdd
  | sub : IsMath .mathSub
  | mult : IsMath .mathMult
  | div : IsMath .mathDiv

/-- C70, the full claim: a number that a function computed from two integers can be used as a
position in a list. -/
def FullComputedPosition : Prop :=
  ∀ (F : Type) [DecidableEq F] (x : Ext F) (f : Fn) (i j : Int) (v : Json F) (l : List (Json F)),
    call x [.int i, .int j] f = .ok v → IsMath f → listElem [.arr l, v] ≠ .panic

/-- C70 is false. -/
theorem computed_position_violated : ¬ FullComputedPosition := by
  intro h
  exact h Int demo .mathAdd 0 1 (.float 1) [.null, .int 7] (by rfl) .add (by rfl)

/-- It is false for every computed number: the arithmetic functions always give a floating point
number, which is never accepted as a position or a size. -/
theorem computed_position_always_violated [DecidableEq F] (x : Ext F) (f : Fn)
    (args : List (Json F)) (v : Json F) (l : List (Json F)) (hf : IsMath f)
    (h : call x args f = .ok v) :
    listElem [.arr l, v] = .panic ∧ chunkList [.arr l, v] = .panic := by
  have hm : ∀ o : Option F, fromF64 o = .ok v → ∃ g, v = .float g := by
    intro o ho
    cases o with
    | none => cases ho
    | some g => cases ho; exact ⟨g, rfl⟩
  have key : ∃ g, v = .float g := by
    cases hf <;> simp only [call] at h
    case add =>
      unfold mathAdd at h
      split at h
      · split at h
        · exact hm _ h
        · cases h
      · cases h
    case sub =>
      unfold mathSub at h
      split at h
      · split at h
        · exact hm _ h
        · cases h
      · cases h
    case mult =>
      unfold mathMult at h
      split at h
      · split at h
        · exact hm _ h
        · cases h
      · cases h
    case div =>
      unfold mathDiv at h
      split at h
      · split at h
        · split at h
          · cases h
          · exact hm _ h
        · cases h
      · cases h
  obtain ⟨g, hg⟩ := key
  subst hg
  exact ⟨rfl, rfl⟩

/-- C70 for lengths and random numbers: what `len` and, for bounds that are not negative, `math_rand`
give is accepted as a position. Missing: arithmetic. -/
theorem computed_position_partial (x : Ext F) (l : List (Json F)) (v : Json F)
    (hr : ∀ min max, min < max → min ≤ x.rand min max ∧ x.rand min max < max) :
    (∀ a, len [a] = .ok v → (∀ i, v = .int i → i < 2 ^ 64) → listElem [.arr l, v] ≠ .panic) ∧
    (∀ i j, 0 ≤ i → mathRand x [.int i, .int j] = .ok v → listElem [.arr l, v] ≠ .panic) := by
  have key : ∀ i : Int, 0 ≤ i → i < 2 ^ 64 → listElem [.arr l, .int i] ≠ .panic := by
    intro i h1 h2
    simp only [listElem, isNumber, if_true, asU64]
    rw [if_pos ⟨h1, h2⟩]
    dsimp only
    split <;> simp
  constructor
  · intro a h hb
    have : ∃ n : Nat, v = .int n := by
      unfold len at h
      split at h
      all_goals first | cases h; exact ⟨_, rfl⟩ | cases h
    obtain ⟨n, hn⟩ := this
    have := hb n hn
    subst hn
    exact key n (by omega) this
  · intro i j h0 h
    simp only [mathRand, isNumber, if_true] at h
    split at h
    next => cases h
    next min hmin =>
      split at h
      next => cases h
      next max hmax =>
        split at h
        next => cases h
        next hlt =>
          cases h
          have h1 := hr min max (by omega)
          rw [asI64] at hmin hmax
          split at hmin
          next hi =>
            split at hmax
            next hj =>
              simp only [Option.some.injEq] at hmin hmax
              subst hmin hmax
              exact key _ (by omega) (by omega)
            next => cases hmax
          next => cases hmin

example : len [(.str ['a', 'b'] : Json Int)] = .ok (.int 2) := by rfl

/-! ## C71: merged objects -/

/-- C71: the merged object has the fields of both objects; where both have a field, the value comes
from the second one. The result is again an object with its keys in order. -/
theorem jsonmerge_fields (m n : List (List Char × Json F)) (hm : SortedKeys m)
    (hn : SortedKeys n) :
    ∃ r, jsonmerge [.obj m, .obj n] = .ok (.obj r) ∧ SortedKeys r ∧
      (∀ k v, n.lookup k = some v → r.lookup k = some v) ∧
      (∀ k, n.lookup k = none → r.lookup k = m.lookup k) := by
  refine ⟨extend m n, rfl, extend_sorted n m hm, ?_, ?_⟩
  · intro k v h
    rw [extend_lookup k n m hn, h]; rfl
  · intro k h
    rw [extend_lookup k n m hn, h]; rfl

example : (jsonmerge [.obj [(['a'], .int 1), (['c'], .int 2)], .obj [(['b'], .null), (['c'], .int 3)]]
      : Result Nat)
    = .ok (.obj [(['a'], .int 1), (['b'], .null), (['c'], .int 3)]) := by decide

/-- C71: anything but two objects is refused. -/
theorem jsonmerge_refuses (a b : Json F) (h : (∀ m, a ≠ .obj m) ∨ ∀ n, b ≠ .obj n) :
    jsonmerge [a, b] = .err .invalidArgument := by
  rcases h with h | h
  · cases a <;> first | rfl | exact absurd rfl (h _)
  · cases a <;> cases b <;> first | rfl | exact absurd rfl (h _)

example : (jsonmerge [.obj [], .arr []] : Result Nat) = .err .invalidArgument :=
  jsonmerge_refuses _ _ (Or.inr (by simp))

/-! ## C72: lengths -/

/-- C72, the full claim: the length of a text is the number of its characters. -/
def FullLen : Prop :=
  ∀ (F : Type) (s : List Char), (len [.str s] : Result F) = .ok (.int s.length)

/-- C72 is false: `len` counts bytes. -/
theorem len_violated : ¬ FullLen := by
  intro h
  have := h Nat ['é']
  simp only [len, Outcome.ok.injEq, Json.int.injEq] at this
  exact absurd this (by decide)

/-- C72 for lists, and for texts of ASCII characters; for other texts the number is larger, never
smaller. Missing: the number of characters of other texts. -/
theorem len_partial :
    (∀ l : List (Json F), len [.arr l] = .ok (.int l.length)) ∧
    (∀ s : List Char, (∀ c ∈ s, c.val < 128) → (len [.str s] : Result F) = .ok (.int s.length)) ∧
    (∀ s : List Char, ∃ n : Nat, (len [.str s] : Result F) = .ok (.int n) ∧ s.length ≤ n) := by
  refine ⟨fun _ => rfl, ?_, ?_⟩
  · intro s h
    have : utf8Len s = s.length := by
      induction s with
      | nil => rfl
      | cons c s ih =>
        have h1 : c.utf8Size = 1 := by
          have h2 := h c (by simp)
          rw [Char.utf8Size_eq_one_iff]
          have h3 : c.val.toNat < 128 := by simpa [UInt32.lt_iff_toNat_lt] using h2
          rw [UInt32.le_iff_toNat_le]
          have : (127 : UInt32).toNat = 127 := rfl
          omega
        have h2 := ih (fun d hd => h d (List.mem_cons_of_mem _ hd))
        simp only [utf8Len, List.map_cons, List.sum_cons, List.length_cons] at h2 ⊢
        omega
    rw [len, this]
  · intro s
    refine ⟨utf8Len s, rfl, ?_⟩
    induction s with
    | nil => exact Nat.zero_le _
    | cons c s ih =>
      have h1 := c.utf8Size_pos
      simp only [utf8Len, List.map_cons, List.sum_cons, List.length_cons] at ih ⊢
      omega

example : (len [.str ['a', 'b', 'c']] : Result Nat) = .ok (.int 3) := by rfl

/-! ## C73: number of arguments -/

/-- The numbers of arguments a function takes, `format` and `list` aside. -/
inductive Takes : Fn → Nat → Prop
  | jsondecode : Takes .jsondecode 1
  | jsonencode : Takes .jsonencode 1
  | jsonmerge : Takes .jsonmerge 2
  | b64encode : Takes .b64encode 1
  | b64decode : Takes .b64decode 1
  | hash : Takes .hash 2
  | chunkList : Takes .chunkList 2
  | listElem : Takes .listElem 2
  | removeDuplicates : Takes .removeDuplicates 1
  | contains : Takes .contains 2
  | split : Takes .split 2
  | mathRand : Takes .mathRand 2
  | mathAdd : Takes .mathAdd 2
  | mathSub : Takes .mathSub 2
  | mathMult : Takes .mathMult 2
  | mathDiv : Takes .mathDiv 2
  | len : Takes .len 1
  | uuid : Takes .uuid 0
  | nanoid : Takes .nanoid 0

/-- C73: a function reports a wrong number of arguments if and only if the number is wrong. -/
theorem arity_checked [DecidableEq F] (x : Ext F) (f : Fn) (n : Nat) (h : Takes f n)
    (args : List (Json F)) : call x args f = .err .arity ↔ args.length ≠ n := by
  have hm : ∀ (op : F → F → Option F) (a b : Json F),
      (match asF64 x a, asF64 x b with
        | some f, some g => fromF64 (op f g)
        | _, _ => (.err .invalidArgument : Result F)) ≠ .err .arity := by
    intro op a b
    split
    · cases op _ _ <;> simp [fromF64]
    · simp
  rcases args with _ | ⟨a, _ | ⟨b, _ | ⟨c, rest⟩⟩⟩ <;> cases h <;>
    simp only [call, List.length_nil, List.length_cons, ne_eq]
  all_goals first
    | (simp [uuid, nanoid, jsondecode, jsonencode, jsonmerge, b64encode, b64decode, hash, chunkList,
        listElem, removeDuplicates, contains, split, mathRand, mathAdd, mathSub, mathMult, mathDiv,
        len]; done)
    | skip
  case cons.nil.jsondecode => cases a <;> simp [jsondecode]; split <;> simp
  case cons.nil.jsonencode => simp [jsonencode]; split <;> simp
  case cons.nil.b64encode => cases a <;> simp [b64encode]
  case cons.nil.b64decode => cases a <;> simp [b64decode]; split <;> simp
  case cons.nil.removeDuplicates => cases a <;> simp [removeDuplicates]
  case cons.nil.len => cases a <;> simp [len]
  case cons.cons.nil.jsonmerge => cases a <;> cases b <;> simp [jsonmerge]
  case cons.cons.nil.hash =>
    cases a <;> cases b <;> simp [hash]
    repeat' split
    all_goals simp
  case cons.cons.nil.chunkList =>
    cases a <;> simp [chunkList]
    repeat' split
    all_goals simp
  case cons.cons.nil.listElem =>
    cases a <;> simp [listElem]
    repeat' split
    all_goals simp
  case cons.cons.nil.contains => cases a <;> cases b <;> simp [contains]
  case cons.cons.nil.split => cases a <;> cases b <;> simp [split]
  case cons.cons.nil.mathRand =>
    simp [mathRand]
    repeat' split
    all_goals simp
  case cons.cons.nil.mathAdd => exact ⟨fun h => absurd h (hm x.add a b), fun h => absurd trivial h⟩
  case cons.cons.nil.mathSub => exact ⟨fun h => absurd h (hm x.sub a b), fun h => absurd trivial h⟩
  case cons.cons.nil.mathMult => exact ⟨fun h => absurd h (hm x.mult a b), fun h => absurd trivial h⟩
  case cons.cons.nil.mathDiv =>
    simp only [mathDiv]
    split
    · split
      · simp
      · cases x.div _ _ <;> simp [fromF64]
    · simp

example : call demo [.int 1] .mathDiv = .err .arity ∧ call demo [.int 1, .int 0] .mathDiv
    = .err .invalidInput := ⟨rfl, rfl⟩

/-! ## C74: arithmetic, coding and hashing -/

/-- C74: arithmetic on two numbers gives the result of the operation on their floating point values;
division by zero is an invalid input, and anything but numbers an invalid argument. -/
theorem arithmetic (x : Ext F) (a b : Json F) :
    (∀ f g, FloatOf x.ofInt a f → FloatOf x.ofInt b g →
      (∀ r, x.add f g = some r → mathAdd x [a, b] = .ok (.float r)) ∧
      (∀ r, x.sub f g = some r → mathSub x [a, b] = .ok (.float r)) ∧
      (∀ r, x.mult f g = some r → mathMult x [a, b] = .ok (.float r)) ∧
      (x.isZero g = true → mathDiv x [a, b] = .err .invalidInput) ∧
      (∀ r, x.isZero g = false → x.div f g = some r → mathDiv x [a, b] = .ok (.float r))) ∧
    (¬ IsNum a ∨ ¬ IsNum b →
      mathAdd x [a, b] = .err .invalidArgument ∧ mathSub x [a, b] = .err .invalidArgument ∧
      mathMult x [a, b] = .err .invalidArgument ∧ mathDiv x [a, b] = .err .invalidArgument) := by
  constructor
  · intro f g hf hg
    have h1 := (asF64_iff x a f).2 hf
    have h2 := (asF64_iff x b g).2 hg
    refine ⟨?_, ?_, ?_, ?_, ?_⟩
    · intro r hr; simp only [mathAdd, h1, h2, hr, fromF64]
    · intro r hr; simp only [mathSub, h1, h2, hr, fromF64]
    · intro r hr; simp only [mathMult, h1, h2, hr, fromF64]
    · intro hz; simp only [mathDiv, h1, h2, hz, if_true]
    · intro r hz hr; simp [mathDiv, h1, h2, hz, hr, fromF64]
  · intro h
    have key : ∀ v : Json F, ¬ IsNum v → asF64 x v = none := by
      intro v hv
      cases v with
      | int i => exact absurd (Or.inl ⟨i, rfl⟩) hv
      | float f => exact absurd (Or.inr ⟨f, rfl⟩) hv
      | _ => rfl
    rcases h with h | h
    · have h1 := key a h
      simp only [mathAdd, mathSub, mathMult, mathDiv, h1, and_self]
    · have h1 := key b h
      cases h2 : asF64 x a <;>
        simp only [mathAdd, mathSub, mathMult, mathDiv, h1, h2, and_self]

example : mathDiv demo [.int 7, .float 2] = .ok (.float 3) := by rfl

/-- C74: a random number is at least the first bound and below the second one, for a generator that
keeps to the range it is given. -/
theorem random_in_range (x : Ext F) (i j : Int) (v : Json F)
    (hr : ∀ min max, min < max → min ≤ x.rand min max ∧ x.rand min max < max)
    (h : mathRand x [.int i, .int j] = .ok v) : ∃ r, v = .int r ∧ i ≤ r ∧ r < j := by
  simp only [mathRand, isNumber, if_true] at h
  split at h
  next => cases h
  next min hmin =>
    split at h
    next => cases h
    next max hmax =>
      split at h
      next => cases h
      next hlt =>
        cases h
        have h1 := hr min max (by omega)
        rw [asI64] at hmin hmax
        split at hmin
        next hi =>
          split at hmax
          next hj =>
            simp only [Option.some.injEq] at hmin hmax
            subst hmin hmax
            exact ⟨_, rfl, h1⟩
          next => cases hmax
        next => cases hmin

example : mathRand demo [.int 3, .int 9] = .ok (.int 3) := by rfl

/-- C74: decoding what was encoded gives the value back, for libraries that do so. -/
theorem coding_inverse (x : Ext F) :
    (∀ s t, x.b64decode (x.b64encode s) = some s → b64encode x [.str s] = .ok t →
      b64decode x [t] = .ok (.str s)) ∧
    (∀ v t, (∀ s, x.encode v = some s → x.decode s = some v) → jsonencode x [v] = .ok t →
      jsondecode x [t] = .ok v) := by
  constructor
  · intro s t h h1
    cases h1
    simp only [b64decode, h]
  · intro v t h h1
    simp only [jsonencode] at h1
    split at h1
    next s hs => cases h1; simp only [jsondecode, h s hs]
    next => cases h1

example : b64encode demo [.str ['a']] = .ok (.str ['a']) := by rfl

/-- C74: the named algorithm is used; unknown names are refused. -/
theorem hash_algorithm (x : Ext F) (a s : List Char) :
    hash x [.str "SHA256".toList, .str s] = .ok (.str (x.sha256 s)) ∧
    hash x [.str "SHA384".toList, .str s] = .ok (.str (x.sha384 s)) ∧
    hash x [.str "SHA512".toList, .str s] = .ok (.str (x.sha512 s)) ∧
    (a ∉ ["SHA256".toList, "SHA384".toList, "SHA512".toList] →
      hash x [.str a, .str s] = .err .invalidArgument) := by
  refine ⟨by rfl, by rfl, by rfl, ?_⟩
  intro h
  have e1 : "SHA256".toList = ['S', 'H', 'A', '2', '5', '6'] := by rfl
  have e2 : "SHA384".toList = ['S', 'H', 'A', '3', '8', '4'] := by rfl
  have e3 : "SHA512".toList = ['S', 'H', 'A', '5', '1', '2'] := by rfl
  rw [e1, e2, e3] at h
  simp only [List.mem_cons, List.not_mem_nil, or_false, not_or] at h
  simp only [hash]
  rw [if_neg h.1, if_neg h.2.1, if_neg h.2.2]

example : hash demo [.str ['M', 'D', '5'], .str []] = .err .invalidArgument := by rfl

/-- C74, generated identifiers: without arguments `uuid` and `nanoid` give the text that the library
generated. -/
theorem generated_ids [DecidableEq F] (x : Ext F) :
    call x [] .uuid = .ok (.str x.uuid) ∧ call x [] .nanoid = .ok (.str x.nanoid) := ⟨rfl, rfl⟩

end Verif.TmplFuncs
