import Verif.Subst.Model

/-!
# Specification of substitutions (independent of the parser's helpers)
-/

namespace Verif.Subst.Spec

open Verif.Subst

/-- What a blueprint author writes: text, `${variables.name}` or `${variables["name"]}`. -/
inductive Tmpl where
  | lit (s : Str)
  | dot (name : Str)
  | idx (name : Str)
  deriving Repr, DecidableEq

/-- The written form of one template element. -/
def Tmpl.text : Tmpl → Str
  | .lit s => s
  | .dot n => "${variables.".toList ++ n ++ "}".toList
  | .idx n => "${variables[\"".toList ++ n ++ "\"]}".toList

/-- The written form of a template. -/
def render (t : List Tmpl) : Str := (t.map Tmpl.text).flatten

/-- The text contains the two characters that open a substitution. -/
def HasOpener (s : Str) : Prop := ∃ a b, s = a ++ '$' :: '{' :: b

def Tmpl.isLit : Tmpl → Bool
  | .lit _ => true
  | _ => false

/-- Names usable after the dot. -/
def DotName (cls : CharClass) (n : Str) : Prop :=
  ∃ c cs, n = c :: cs ∧ (cls.alphabetic c = true ∨ c = '_') ∧
    ∀ d ∈ cs, cls.alphanumeric d = true ∨ d = '_' ∨ d = '-'

/-- Names usable between brackets. -/
def IdxName (cls : CharClass) (n : Str) : Prop :=
  ∀ d ∈ n, cls.alphanumeric d = true ∨ d = '_' ∨ d = '-' ∨ d = '.'

/-- A template is well formed when its names are and when no run of adjacent literal elements
contains the opener. -/
structure WF (cls : CharClass) (t : List Tmpl) : Prop where
  dots : ∀ n, .dot n ∈ t → DotName cls n
  idxs : ∀ n, .idx n ∈ t → IdxName cls n
  lits : ∀ pre mid post, t = pre ++ mid ++ post → (∀ x ∈ mid, Tmpl.isLit x = true) →
    ¬ HasOpener (render mid)

/-- The meaning of a template: adjacent literals merged, empty ones dropped. `acc` is the literal
text met since the last reference. -/
def pieces (acc : Str) : List Tmpl → List Piece
  | [] => if acc = [] then [] else [.str acc]
  | .lit s :: t => pieces (acc ++ s) t
  | .dot n :: t => (if acc = [] then [] else [.str acc]) ++ .sub ⟨n⟩ :: pieces [] t
  | .idx n :: t => (if acc = [] then [] else [.str acc]) ++ .sub ⟨n⟩ :: pieces [] t

/-- The expected result of parsing: a template without references is one literal (possibly
empty). -/
def expected (t : List Tmpl) : List Piece :=
  if ∀ x ∈ t, Tmpl.isLit x = true then [.str (render t)] else pieces [] t

/-- The environment variable that holds a blueprint variable. -/
def varEnvName (n : Str) : Str := "CELERITY_VARIABLE_".toList ++ n

/-- The text of a template under an environment; `none` when a variable is not set. -/
def expand (env : Env) : List Tmpl → Option Str
  | [] => some []
  | .lit s :: t => (expand env t).map (s ++ ·)
  | .dot n :: t =>
    match env (varEnvName n), expand env t with
    | some v, some r => some (v ++ r)
    | _, _ => none
  | .idx n :: t =>
    match env (varEnvName n), expand env t with
    | some v, some r => some (v ++ r)
    | _, _ => none

/-- `v` is a decimal text of the 64-bit signed integer `n`. -/
def I64Text (v : Str) (n : Int) : Prop :=
  ∃ sign digits, v = sign ++ digits ∧ digits ≠ [] ∧ (∀ d ∈ digits, d.isDigit = true) ∧
    ((sign = ['-'] ∧ n = -(Nat.ofDigitChars 10 digits 0 : Int)) ∨
     ((sign = ['+'] ∨ sign = []) ∧ n = (Nat.ofDigitChars 10 digits 0 : Int))) ∧
    -9223372036854775808 ≤ n ∧ n ≤ 9223372036854775807

/-- The documented typing ladder for a value given by a single variable reference. -/
inductive Typed {F : Type} (parseF : Str → Option F) (v : Str) : Scalar F → Prop where
  | int (n : Int) : I64Text v n → Typed parseF v (.int n)
  | float (f : F) : (∀ n, ¬ I64Text v n) → parseF v = some f → Typed parseF v (.float f)
  | bool (b : Bool) : (∀ n, ¬ I64Text v n) → parseF v = none →
      v = (if b then "true" else "false").toList → Typed parseF v (.bool b)
  | str : (∀ n, ¬ I64Text v n) → parseF v = none → v ≠ "true".toList → v ≠ "false".toList →
      Typed parseF v (.str v)

/-- The value of one piece. -/
def PieceText (env : Env) : Piece → Str → Prop
  | .str s, t => t = s
  | .sub r, t => env (varEnvName r.name) = some t

/-- A list of pieces and their texts. -/
inductive PiecesText (env : Env) : List Piece → List Str → Prop where
  | nil : PiecesText env [] []
  | cons {p t ps ts} : PieceText env p t → PiecesText env ps ts →
      PiecesText env (p :: ps) (t :: ts)

/-- What a scalar written as a list of pieces stands for. -/
inductive ScalarOf {F : Type} (parseF : Str → Option F) (env : Env) :
    List Piece → Scalar F → Prop where
  | lit (s : Str) : ScalarOf parseF env [.str s] (.str s)
  | ref (r : VarRef) (v : Str) (x : Scalar F) :
      env (varEnvName r.name) = some v → Typed parseF v x →
      ScalarOf parseF env [.sub r] x
  | mixed (p q : Piece) (ps : List Piece) (ts : List Str) :
      PiecesText env (p :: q :: ps) ts → ScalarOf parseF env (p :: q :: ps) (.str ts.flatten)

mutual
/-- `Corr n r`: `r` has the same structure as `n`, with substitutions replaced by values. -/
inductive Corr {F : Type} (parseF : Str → Option F) (env : Env) : Node F → RNode F → Prop where
  | scalar (s : Scalar F) : Corr parseF env (.scalar s) (.scalar s)
  | null : Corr parseF env .null .null
  | subst (ps : List Piece) (s : Scalar F) : ScalarOf parseF env ps s →
      Corr parseF env (.subst ps) (.scalar s)
  | mapping (m : List (Str × Node F)) (m' : List (Str × RNode F)) : CorrEntries parseF env m m' →
      Corr parseF env (.mapping m) (.mapping m')
  | sequence (l : List (Node F)) (l' : List (RNode F)) : CorrList parseF env l l' →
      Corr parseF env (.sequence l) (.sequence l')
/-- Same keys, in the same order, corresponding values. -/
inductive CorrEntries {F : Type} (parseF : Str → Option F) (env : Env) :
    List (Str × Node F) → List (Str × RNode F) → Prop where
  | nil : CorrEntries parseF env [] []
  | cons (k : Str) (n : Node F) (r : RNode F) (m : List (Str × Node F))
      (m' : List (Str × RNode F)) : Corr parseF env n r → CorrEntries parseF env m m' →
      CorrEntries parseF env ((k, n) :: m) ((k, r) :: m')
/-- Corresponding elements, in the same order. -/
inductive CorrList {F : Type} (parseF : Str → Option F) (env : Env) :
    List (Node F) → List (RNode F) → Prop where
  | nil : CorrList parseF env [] []
  | cons (n : Node F) (r : RNode F) (l : List (Node F)) (l' : List (RNode F)) :
      Corr parseF env n r → CorrList parseF env l l' → CorrList parseF env (n :: l) (r :: l')
end

mutual
/-- Nesting height: scalars, nulls and empty containers have height 0. -/
def height {F : Type} : Node F → Nat
  | .scalar _ => 0
  | .null => 0
  | .subst _ => 0
  | .mapping m => heightEntries m
  | .sequence l => heightList l
def heightEntries {F : Type} : List (Str × Node F) → Nat
  | [] => 0
  | (_, n) :: m => max (height n + 1) (heightEntries m)
def heightList {F : Type} : List (Node F) → Nat
  | [] => 0
  | n :: l => max (height n + 1) (heightList l)
end

mutual
/-- Every substitution in the tree has at least one piece and every variable it names is set. -/
def Resolvable {F : Type} (env : Env) : Node F → Prop
  | .scalar _ => True
  | .null => True
  | .subst ps => ps ≠ [] ∧ ∀ r, .sub r ∈ ps → env (varEnvName r.name) ≠ none
  | .mapping m => ResolvableEntries env m
  | .sequence l => ResolvableList env l
def ResolvableEntries {F : Type} (env : Env) : List (Str × Node F) → Prop
  | [] => True
  | (_, n) :: m => Resolvable env n ∧ ResolvableEntries env m
def ResolvableList {F : Type} (env : Env) : List (Node F) → Prop
  | [] => True
  | n :: l => Resolvable env n ∧ ResolvableList env l
end

/-- The variable names a template mentions. -/
def names : List Tmpl → List Str
  | [] => []
  | .lit _ :: t => names t
  | .dot n :: t => n :: names t
  | .idx n :: t => n :: names t

end Verif.Subst.Spec
