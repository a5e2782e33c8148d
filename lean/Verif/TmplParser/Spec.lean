import Verif.TmplParser.Model

/-!
# Specification: how template function calls are written

The grammar of calls. Only the type of expressions and the parameters are taken from the model.
-/

namespace Verif.TmplParser

variable {P F : Type}

/-- What is assumed of the libraries: the classes of ASCII characters, no character is both white
space and a letter, and every JSON path starts with `$`. -/
structure Sane (x : Ext P F) : Prop where
  alphaAscii : ∀ c : Char, c.toNat < 128 → x.alpha c = c.isAlpha
  whiteAscii : ∀ c : Char, c.toNat < 128 →
    x.white c = decide (c = ' ' ∨ (9 ≤ c.toNat ∧ c.toNat ≤ 13))
  apart : ∀ c, x.white c = true → x.alpha c = false
  dollar : ∀ t p, x.path t = some p → t.head? = some '$'

/-- White space. -/
def Blank (x : Ext P F) (w : List Char) : Prop := ∀ c ∈ w, x.white c = true

/-- Names of functions. -/
def Name (x : Ext P F) (n : List Char) : Prop :=
  ∃ c cs, n = c :: cs ∧ (x.alpha c = true ∨ c = '_') ∧
    ∀ d ∈ cs, x.alpha d = true ∨ d.isDigit = true ∨ d = '_'

/-- The written form of a text between quotes: quotes are escaped, nothing else. -/
def escape : List Char → List Char
  | [] => []
  | c :: r => if c = '"' then '\\' :: '"' :: escape r else c :: escape r

/-- Texts in which JSON paths can be recognised as a whole: commas and closing parentheses only in
quotes or brackets, brackets not nested. The flag says that a bracket is open. -/
inductive PathText : Bool → List Char → Prop
  | nil : PathText false []
  | plain {b : Bool} {c : Char} {t : List Char} : c ∉ [',', ')', '\'', '[', ']'] →
    PathText b t → PathText b (c :: t)
  | inner {c : Char} {t : List Char} : c ∈ [',', ')'] → PathText true t → PathText true (c :: t)
  | quoted {b : Bool} {q t : List Char} : (∀ c ∈ q, c ∉ ['\'', '[', ']']) → PathText b t →
    PathText b ('\'' :: q ++ '\'' :: t)
  | opened {t : List Char} : PathText true t → PathText false ('[' :: t)
  | closed {t : List Char} : PathText false t → PathText true (']' :: t)

/-- Decimal texts of integers. -/
def IntText (t : List Char) (i : Int) : Prop :=
  ∃ ds, ds ≠ [] ∧ (∀ d ∈ ds, d.isDigit = true) ∧
    (t = ds ∧ i = (Nat.ofDigitChars 10 ds 0 : Nat) ∨
      t = '-' :: ds ∧ i = -((Nat.ofDigitChars 10 ds 0 : Nat) : Int))

/-- Decimal texts of floating point numbers: an optional minus sign, digits, a point, digits. -/
def FloatText (t : List Char) : Prop :=
  ∃ sign a b, t = sign ++ a ++ '.' :: b ∧ (sign = [] ∨ sign = ['-']) ∧
    (∀ d ∈ a, d.isDigit = true) ∧ ∀ d ∈ b, d.isDigit = true

/-- JSON paths. White space after a path is part of its text. -/
def Expr.isPath : Expr P F → Prop
  | .path _ => True
  | _ => False

mutual
/-- An argument and a way to write it. -/
inductive Written (x : Ext P F) : Expr P F → List Char → Prop
  | str (s : List Char) : s.getLast? ≠ some '\\' →
    Written x (.str s) ('"' :: escape s ++ ['"'])
  | int (i : Int) (t : List Char) : IntText t i → -2 ^ 63 ≤ i → i < 2 ^ 63 → Written x (.int i) t
  | float (f : F) (t : List Char) : FloatText t → x.float t = some f → Written x (.float f) t
  | true : Written x (.bool true) ['t', 'r', 'u', 'e']
  | false : Written x (.bool false) ['f', 'a', 'l', 's', 'e']
  | null : Written x .null ['n', 'u', 'l', 'l']
  | path (p : P) (t : List Char) : PathText false t → x.path t = some p → Written x (.path p) t
  | call (name w t : List Char) (args : List (Expr P F)) : Name x name → Blank x w →
    WrittenArgs x args t → Written x (.call name args) (name ++ w ++ '(' :: t)

/-- The arguments of a call and a way to write them, with the closing parenthesis. -/
inductive WrittenArgs (x : Ext P F) : List (Expr P F) → List Char → Prop
  | none (w : List Char) : Blank x w → WrittenArgs x [] (w ++ [')'])
  | last (w t v : List Char) (e : Expr P F) : Blank x w → Written x e t → Blank x v →
    (e.isPath → v = []) → WrittenArgs x [e] (w ++ t ++ v ++ [')'])
  | more (w t v u : List Char) (e f : Expr P F) (es : List (Expr P F)) : Blank x w →
    Written x e t → Blank x v → (e.isPath → v = []) → WrittenArgs x (f :: es) u →
    WrittenArgs x (e :: f :: es) (w ++ t ++ v ++ ',' :: u)
end

/-- Arguments each of which is followed by a comma. -/
inductive Started (x : Ext P F) : List (Expr P F) → List Char → Prop
  | none : Started x [] []
  | more (w t v u : List Char) (e : Expr P F) (es : List (Expr P F)) : Blank x w → Written x e t →
    Blank x v → (e.isPath → v = []) → Started x es u → Started x (e :: es) (w ++ t ++ v ++ ',' :: u)

/-- The trees that a template should be able to express: names are names of functions, integers fit
64 bits, floating point numbers and paths have a text; `good` are the strings allowed. -/
inductive Tree (x : Ext P F) (good : List Char → Prop) : Expr P F → Prop
  | str (s : List Char) : good s → Tree x good (.str s)
  | int (i : Int) : -2 ^ 63 ≤ i → i < 2 ^ 63 → Tree x good (.int i)
  | float (f : F) (t : List Char) : FloatText t → x.float t = some f → Tree x good (.float f)
  | bool (b : Bool) : Tree x good (.bool b)
  | null : Tree x good .null
  | path (p : P) (t : List Char) : PathText false t → x.path t = some p → Tree x good (.path p)
  | call (name : List Char) (args : List (Expr P F)) : Name x name →
    (∀ a ∈ args, Tree x good a) → Tree x good (.call name args)

/-- Libraries that know ASCII only, for the examples. Every text that starts with `$` is a path,
every floating point number is read as 0. -/
def ascii : Ext (List Char) Nat where
  white c := decide (c = ' ' ∨ (9 ≤ c.toNat ∧ c.toNat ≤ 13))
  alpha c := c.isAlpha
  path t := if t.head? = some '$' then some t else none
  float _ := some 0

end Verif.TmplParser
