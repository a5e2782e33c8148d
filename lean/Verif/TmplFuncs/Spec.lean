import Verif.Base
import Verif.Json

/-!
# Specification of the functions of payload templates

Nothing here refers to how the functions are computed.
-/

namespace Verif.TmplFuncs

variable {α F : Type}

/-- The list is cut into consecutive pieces of the given size; only the last may be shorter, and it
is not empty. -/
structure Pieces (size : Nat) (l : List α) (ps : List (List α)) : Prop where
  joined : ps.flatten = l
  full : ∀ p ∈ ps.dropLast, p.length = size
  last : ∀ p, ps.getLast? = some p → 0 < p.length ∧ p.length ≤ size

/-- `out` has the values of `l`, each once, in the order in which they first occur in `l`. -/
structure FirstKept [DecidableEq α] (l out : List α) : Prop where
  once : out.Nodup
  sameValues : ∀ v, v ∈ out ↔ v ∈ l
  ordered : ∀ a b, a ∈ l → b ∈ l → (out.idxOf a < out.idxOf b ↔ l.idxOf a < l.idxOf b)

/-- The text `s` cut at each place where the separator is found, from left to right. -/
inductive Splits (sep : List Char) : List Char → List (List Char) → Prop
  | last (p : List Char) : ¬ sep <:+: p → Splits sep p [p]
  | cons (p t : List Char) (ps : List (List Char)) :
    (∀ u v, p ++ sep = u ++ sep ++ v → v = []) → Splits sep t ps →
    Splits sep (p ++ sep ++ t) (p :: ps)

/-- The pieces with the given texts between them. -/
def interleave : List (List Char) → List (List Char) → List Char
  | p :: ps, t :: ts => p ++ t ++ interleave ps ts
  | ps, [] => ps.flatten
  | [], _ => []

/-- The placeholder of `format`. -/
def placeholder : List Char := ['{', '}']

/-- How a scalar argument of `format` is written. -/
inductive Written (floatText : F → List Char) : Json F → List Char → Prop
  | str (s : List Char) : Written floatText (.str s) s
  | int (i : Int) : Written floatText (.int i) (toString i).toList
  | float (f : F) : Written floatText (.float f) (floatText f)
  | true : Written floatText (.bool true) ['t', 'r', 'u', 'e']
  | false : Written floatText (.bool false) ['f', 'a', 'l', 's', 'e']
  | null : Written floatText .null ['n', 'u', 'l', 'l']

/-- How the arguments of `format` are written. -/
inductive AllWritten (floatText : F → List Char) : List (Json F) → List (List Char) → Prop
  | nil : AllWritten floatText [] []
  | cons {a : Json F} {t : List Char} {as : List (Json F)} {ts : List (List Char)} :
    Written floatText a t → AllWritten floatText as ts → AllWritten floatText (a :: as) (t :: ts)

/-- No brace in the text. -/
def BraceFree (s : List Char) : Prop := '{' ∉ s ∧ '}' ∉ s

/-- An integer in the range of `u64`. -/
def IsU64 (v : Json F) : Prop := ∃ i : Int, v = .int i ∧ 0 ≤ i ∧ i < 2 ^ 64

/-- An integer in the range of `i64`. -/
def IsI64 (v : Json F) : Prop := ∃ i : Int, v = .int i ∧ -2 ^ 63 ≤ i ∧ i < 2 ^ 63

/-- A number. -/
def IsNum (v : Json F) : Prop := (∃ i : Int, v = .int i) ∨ ∃ f : F, v = .float f

/-- The value of a number as a floating point number. -/
inductive FloatOf (ofInt : Int → F) : Json F → F → Prop
  | int (i : Int) : FloatOf ofInt (.int i) (ofInt i)
  | float (f : F) : FloatOf ofInt (.float f) f

/-- The keys are in increasing order, as in a `BTreeMap`. -/
def SortedKeys (m : List (List Char × Json F)) : Prop := m.Pairwise fun a b => a.1 < b.1

end Verif.TmplFuncs
