import Verif.Blueprint.Types

/-!
# Building blocks shared by the two loaders
-/

namespace Verif.Blueprint

open Verif Verif.Subst

variable {F : Type}

/-- Forget which parse error it was. -/
def liftParse {A : Type} : Outcome ParseError A → Outcome Err A
  | .ok a => .ok a
  | .err _ => .err .format
  | .panic => .panic

/-- `HashMap::insert`. -/
def hmInsert {A : Type} (m : List (Str × A)) (k : Str) (a : A) : List (Str × A) :=
  m.filter (fun e => decide (e.1 ≠ k)) ++ [(k, a)]

/-- The value of a key, `yaml::Hash::get`. -/
def get? {A : Type} (m : List (Str × A)) (k : Str) : Option A :=
  (m.find? (fun e => decide (e.1 = k))).map (·.2)

/-- One field of a struct being filled from a mapping: its key, and what is done with its value. -/
abbrev Field (F S : Type) := Str × (Doc F → S → Outcome Err S)

/-- A field whose value is read by `r` and stored by `set`. -/
def fld {S A : Type} (name : String) (r : Doc F → Outcome Err A) (set : S → A → S) : Field F S :=
  (name.toList, fun v s => do
    let a ← r v
    pure (set s a))

/-- The loop `for (key, value) in map { match key { .. } }` by which both loaders fill a struct.
The fields of the struct are a table; keys that are not in the table are an error when `strict`
(`_ => return Err(..)`) and ignored otherwise (`_ => ()`). -/
def fill {S : Type} (strict : Bool) (table : List (Field F S)) :
    List (Str × Doc F) → S → Outcome Err S
  | [], s => .ok s
  | (k, v) :: rest, s =>
    match get? table k with
    | some f => do
      let s ← f v s
      fill strict table rest s
    | none => if strict then .err .format else fill strict table rest s

/-- A loop filling a `HashMap` from a mapping; `r` may skip an entry. -/
def fillMap {A : Type} (r : Doc F → Outcome Err (Option A)) :
    List (Str × Doc F) → List (Str × A) → Outcome Err (List (Str × A))
  | [], acc => .ok acc
  | (k, v) :: rest, acc => do
    match ← r v with
    | some a => fillMap r rest (hmInsert acc k a)
    | none => fillMap r rest acc

/-- A loop filling a `Vec` from a sequence; `r` may skip an element. -/
def fillVec {A : Type} (r : Doc F → Outcome Err (Option A)) :
    List (Doc F) → Outcome Err (List A)
  | [] => .ok []
  | v :: rest => do
    let a ← r v
    let as ← fillVec r rest
    pure (a.toList ++ as)

/-- An entry that is always kept. -/
def keep {A : Type} (r : Doc F → Outcome Err A) (v : Doc F) : Outcome Err (Option A) := do
  let a ← r v
  pure (some a)

/-- `if let Yaml::Hash(..)` without an `else`: anything but a mapping is skipped. -/
def skipNonObj {A : Type} (r : List (Str × Doc F) → Outcome Err A) :
    Doc F → Outcome Err (Option A)
  | .obj m => do
    let a ← r m
    pure (some a)
  | _ => .ok none

/-- A string, exactly. -/
def readStr : Doc F → Outcome Err Str
  | .str s => .ok s
  | _ => .err .format

/-- A sequence of values read by `r`. -/
def readVec {A : Type} (r : Doc F → Outcome Err A) : Doc F → Outcome Err (List A)
  | .arr l => fillVec (keep r) l
  | _ => .err .format

/-- A mapping to values read by `r`. -/
def readMap {A : Type} (r : Doc F → Outcome Err A) : Doc F → Outcome Err (List (Str × A))
  | .obj m => fillMap (keep r) m []
  | _ => .err .format

/-- A mapping, read by `r`. -/
def readObj {A : Type} (r : List (Str × Doc F) → Outcome Err A) : Doc F → Outcome Err A
  | .obj m => r m
  | _ => .err .format

/-- The range of `i64`. -/
def inI64 (n : Int) : Bool := decide (-(2 ^ 63 : Int) ≤ n) && decide (n < (2 ^ 63 : Int))

/-- `is_string_with_substitutions_empty`, blueprint_with_subs.rs 523-527. -/
def sosEmpty (s : Sos) : Bool :=
  match s with
  | [] => true
  | [.str t] => t.isEmpty
  | _ => false

/-- Stop with a format error unless the condition holds. -/
def require (b : Bool) : Outcome Err Unit := if b then .ok () else .err .format

end Verif.Blueprint
