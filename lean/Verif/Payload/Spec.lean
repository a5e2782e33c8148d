import Verif.Payload.Model
import Verif.TmplFuncs.Props

/-!
# Specification: what a payload template means

Relations that say what value a path, a function call and a template have. The templates are taken
as sets of entries: nothing depends on an order of the keys.
-/

namespace Verif.Payload

open TmplFuncs (Fn SortedKeys Crashes)
open TmplParser (Expr)

variable {G F : Type}

/-- The names by which templates call the functions. -/
def nameOf : Fn → String
  | .format => "format"
  | .jsondecode => "jsondecode"
  | .jsonencode => "jsonencode"
  | .jsonmerge => "jsonmerge"
  | .b64encode => "b64encode"
  | .b64decode => "b64decode"
  | .hash => "hash"
  | .list => "list"
  | .chunkList => "chunk_list"
  | .listElem => "list_elem"
  | .removeDuplicates => "remove_duplicates"
  | .contains => "contains"
  | .split => "split"
  | .mathRand => "math_rand"
  | .mathAdd => "math_add"
  | .mathSub => "math_sub"
  | .mathMult => "math_mult"
  | .mathDiv => "math_div"
  | .len => "len"
  | .uuid => "uuid"
  | .nanoid => "nanoid"

/-- The value of a path, given what the library found: a single match, or everything. -/
def Selected (found v : Json F) : Prop :=
  found = .arr [v] ∨ (∀ w, found ≠ .arr [w]) ∧ v = found

mutual
/-- The value of an argument. -/
inductive Eval [DecidableEq F] (x : Ext G F) (input : Json F) : Expr Path G → Json F → Prop
  | str (s : List Char) : Eval x input (.str s) (.str s)
  | int (i : Int) : Eval x input (.int i) (.int i)
  | float (g : G) (f : F) : x.fin g = some f → Eval x input (.float g) (.float f)
  | bool (b : Bool) : Eval x input (.bool b) (.bool b)
  | null : Eval x input .null .null
  | path (p : Path) (v : Json F) : Selected (x.find p input) v → Eval x input (.path p) v
  | call (f : Fn) (args : List (Expr Path G)) (vs : List (Json F)) (v : Json F) :
    EvalArgs x input args vs → TmplFuncs.call x.funcs vs f = .ok v →
    Eval x input (.call (nameOf f).toList args) v

/-- The values of the arguments of a call, in their order. -/
inductive EvalArgs [DecidableEq F] (x : Ext G F) (input : Json F) :
    List (Expr Path G) → List (Json F) → Prop
  | nil : EvalArgs x input [] []
  | cons (e : Expr Path G) (v : Json F) (es : List (Expr Path G)) (vs : List (Json F)) :
    Eval x input e v → EvalArgs x input es vs → EvalArgs x input (e :: es) (v :: vs)
end

/-- Evaluating an argument crashes: a floating point number that is not finite, or a call of a
function that crashes, reached after the arguments before it were evaluated. -/
inductive Crash [DecidableEq F] (x : Ext G F) (input : Json F) : Expr Path G → Prop
  | float (g : G) : x.fin g = none → Crash x input (.float g)
  | arg (name : List Char) (before : List (Expr Path G)) (vs : List (Json F)) (e : Expr Path G)
    (after : List (Expr Path G)) : EvalArgs x input before vs → Crash x input e →
    Crash x input (.call name (before ++ e :: after))
  | call (f : Fn) (args : List (Expr Path G)) (vs : List (Json F)) : EvalArgs x input args vs →
    Crashes x.funcs f vs → Crash x input (.call (nameOf f).toList args)

/-- `func:` -/
def funcPrefix : List Char := ['f', 'u', 'n', 'c', ':']

/-- The text stands for itself. -/
def Literal (s : List Char) : Prop := ¬ funcPrefix <+: s ∧ s.head? ≠ some '$'

/-- The value of a part of a template. -/
inductive Renders [DecidableEq F] (x : Ext G F) (input : Json F) : Node G → Json F → Prop
  | literal (s : List Char) : Literal s → Renders x input (.scalar (.str s)) (.str s)
  | path (s : List Char) (p : Path) (v : Json F) : s.head? = some '$' →
    x.parser.path s = some p → Selected (x.find p input) v → Renders x input (.scalar (.str s)) v
  | call (s : List Char) (e : Expr Path G) (v : Json F) :
    TmplParser.parseFunc x.parser s = some (.ok e) → Eval x input e v →
    Renders x input (.scalar (.str (funcPrefix ++ s))) v
  | int (i : Int) : Renders x input (.scalar (.int i)) (.int i)
  | float (g : G) (f : F) : x.fin g = some f → Renders x input (.scalar (.float g)) (.float f)
  | bool (b : Bool) : Renders x input (.scalar (.bool b)) (.bool b)
  | null : Renders x input .null .null
  | seq (l : List (Node G)) (f : Nat → Json F) :
    (∀ i n, l[i]? = some n → Renders x input n (f i)) →
    Renders x input (.seq l) (.arr ((List.range l.length).map f))
  | mapping (m : List (List Char × Node G)) (o : List (List Char × Json F))
    (f : List Char → Json F) : (∀ k n, (k, n) ∈ m → Renders x input n (f k)) → SortedKeys o →
    (∀ k v, (k, v) ∈ o ↔ (∃ n, (k, n) ∈ m) ∧ v = f k) → Renders x input (.mapping m) (.obj o)

/-- Keys are distinct at every level, as in hash maps. -/
inductive Distinct : Node G → Prop
  | scalar (s : Scalar G) : Distinct (.scalar s)
  | null : Distinct .null
  | seq (l : List (Node G)) : (∀ n ∈ l, Distinct n) → Distinct (.seq l)
  | mapping (m : List (List Char × Node G)) : (m.map (·.1)).Nodup →
    (∀ k n, (k, n) ∈ m → Distinct n) → Distinct (.mapping m)

/-- `s` is a scalar somewhere in the template. -/
inductive Leaf (s : Scalar G) : Node G → Prop
  | here : Leaf s (.scalar s)
  | seq (l : List (Node G)) (n : Node G) : n ∈ l → Leaf s n → Leaf s (.seq l)
  | mapping (m : List (List Char × Node G)) (k : List Char) (n : Node G) : (k, n) ∈ m →
    Leaf s n → Leaf s (.mapping m)

mutual
/-- A JSON value as a template. -/
def ofJson (inj : F → G) : Json F → Node G
  | .null => .null
  | .bool b => .scalar (.bool b)
  | .int i => .scalar (.int i)
  | .float f => .scalar (.float (inj f))
  | .str s => .scalar (.str s)
  | .arr l => .seq (ofList inj l)
  | .obj m => .mapping (ofMap inj m)

/-- The elements of a list as templates. -/
def ofList (inj : F → G) : List (Json F) → List (Node G)
  | [] => []
  | v :: vs => ofJson inj v :: ofList inj vs

/-- The entries of an object as templates. -/
def ofMap (inj : F → G) : List (List Char × Json F) → List (List Char × Node G)
  | [] => []
  | (k, v) :: m => (k, ofJson inj v) :: ofMap inj m
end

/-- A JSON value with sorted keys whose texts stand for themselves. -/
inductive Verbatim : Json F → Prop
  | null : Verbatim .null
  | bool (b : Bool) : Verbatim (.bool b)
  | int (i : Int) : Verbatim (.int i)
  | float (f : F) : Verbatim (.float f)
  | str (s : List Char) : Literal s → Verbatim (.str s)
  | arr (l : List (Json F)) : (∀ v ∈ l, Verbatim v) → Verbatim (.arr l)
  | obj (m : List (List Char × Json F)) : SortedKeys m → (∀ k v, (k, v) ∈ m → Verbatim v) →
    Verbatim (.obj m)

end Verif.Payload
