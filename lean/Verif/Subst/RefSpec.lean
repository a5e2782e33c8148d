import Verif.Subst.Spec

/-! # Specification of what counts as a reference -/

namespace Verif.Subst.Spec

open Verif.Subst

/-- How a variable is named after the word `variables`. -/
def Access (cls : CharClass) (name : Str) (acc : Str) : Prop :=
  (acc = '.' :: name ∧ DotName cls name) ∨ (acc = '[' :: '"' :: name ++ ['"', ']'] ∧ IdxName cls name)

/-- A reference to the variable is written in the text. -/
def Written (cls : CharClass) (s name : Str) : Prop :=
  ∃ before acc after, Access cls name acc ∧ s = before ++ "${variables".toList ++ acc ++ '}' :: after

/-- A reference to the variable is written in the text, possibly with something between the name and the
closing brace. -/
def WrittenLoosely (cls : CharClass) (s name : Str) : Prop :=
  ∃ before acc junk after, Access cls name acc ∧
    s = before ++ "${variables".toList ++ acc ++ junk ++ '}' :: after

end Verif.Subst.Spec
