import Verif.Base
import Verif.Json
import Verif.TmplFuncs.Model
import Verif.TmplParser.Model

/-!
# Model of the payload template engine

`libs/runtime/workflow/src/payload_template.rs` lines 99-339 and
`libs/runtime/helpers/src/jsonpath.rs` lines 40-81. The parser of function calls is the model of
`Verif.TmplParser`, the functions are the model of `Verif.TmplFuncs`.

The JSON path library is a parameter; of a parsed path only the parts that `jsonpath.rs` looks at
are represented. The generators of random values are constants for the duration of a rendering.
Keys are used in messages only, which are left out.
-/

namespace Verif.Payload

open TmplFuncs (Fn)
open TmplParser (Expr)

/-- `JsonPath`: the cases that `jsonpath_get_root_object_field` distinguishes. -/
inductive Path
  | root
  | field (key : List Char)
  | chain (segments : List Path)
  | other (tag : Nat)

/-- `BlueprintScalarValue`: blueprint.rs lines 104-109; `G` is `f64`. -/
inductive Scalar (G : Type)
  | str (s : List Char)
  | int (i : Int)
  | float (g : G)
  | bool (b : Bool)

/-- `ResolvedMappingNode`: blueprint.rs lines 982-987. A `HashMap` is the list of its entries in the
order in which it happens to iterate. -/
inductive Node (G : Type)
  | scalar (s : Scalar G)
  | mapping (m : List (List Char × Node G))
  | seq (l : List (Node G))
  | null

/-- Libraries. `G` is `f64`, `F` are its finite numbers. -/
structure Ext (G F : Type) where
  parser : TmplParser.Ext Path G
  funcs : TmplFuncs.Ext F
  /-- `Number::from_f64`. -/
  fin : G → Option F
  /-- `JsonPath::find`. -/
  find : Path → Json F → Json F

/-- `PayloadTemplateEngineError`: lines 51-57, without the messages. -/
inductive Err
  | jsonPath
  | notFound (name : List Char)
  | parse (e : TmplParser.PErr)
  | func (e : TmplFuncs.Err)
  deriving DecidableEq

variable {G F : Type}

/-- The names of the functions: lines 176-199. -/
def fnNames : List (List Char × Fn) := [
  (['f', 'o', 'r', 'm', 'a', 't'], .format),
  (['j', 's', 'o', 'n', 'd', 'e', 'c', 'o', 'd', 'e'], .jsondecode),
  (['j', 's', 'o', 'n', 'e', 'n', 'c', 'o', 'd', 'e'], .jsonencode),
  (['j', 's', 'o', 'n', 'm', 'e', 'r', 'g', 'e'], .jsonmerge),
  (['b', '6', '4', 'e', 'n', 'c', 'o', 'd', 'e'], .b64encode),
  (['b', '6', '4', 'd', 'e', 'c', 'o', 'd', 'e'], .b64decode),
  (['h', 'a', 's', 'h'], .hash),
  (['l', 'i', 's', 't'], .list),
  (['c', 'h', 'u', 'n', 'k', '_', 'l', 'i', 's', 't'], .chunkList),
  (['l', 'i', 's', 't', '_', 'e', 'l', 'e', 'm'], .listElem),
  (['r', 'e', 'm', 'o', 'v', 'e', '_', 'd', 'u', 'p', 'l', 'i', 'c', 'a', 't', 'e', 's'],
    .removeDuplicates),
  (['c', 'o', 'n', 't', 'a', 'i', 'n', 's'], .contains),
  (['s', 'p', 'l', 'i', 't'], .split),
  (['m', 'a', 't', 'h', '_', 'r', 'a', 'n', 'd'], .mathRand),
  (['m', 'a', 't', 'h', '_', 'a', 'd', 'd'], .mathAdd),
  (['m', 'a', 't', 'h', '_', 's', 'u', 'b'], .mathSub),
  (['m', 'a', 't', 'h', '_', 'm', 'u', 'l', 't'], .mathMult),
  (['m', 'a', 't', 'h', '_', 'd', 'i', 'v'], .mathDiv),
  (['l', 'e', 'n'], .len),
  (['u', 'u', 'i', 'd'], .uuid),
  (['n', 'a', 'n', 'o', 'i', 'd'], .nanoid)]

/-- `extract_json_path_value`: lines 257-276. -/
def extractValue (x : Ext G F) (p : Path) (input : Json F) : Json F :=
  match x.find p input with
  | .arr [v] => v
  | v => v

/-- `Number::from_f64(..).expect(..)`: lines 128-131 and 220-223. -/
def floatValue (x : Ext G F) (g : G) : Outcome Err (Json F) :=
  match x.fin g with
  | some f => .ok (.float f)
  | none => .panic

/-- The `match` of `compute_func_call` and `map_err(Into::into)`: lines 176-203. -/
def callFn [DecidableEq F] (x : Ext G F) (name : List Char) (args : List (Json F)) :
    Outcome Err (Json F) :=
  match fnNames.lookup name with
  | none => .err (.notFound name)
  | some f =>
    match TmplFuncs.call x.funcs args f with
    | .ok v => .ok v
    | .err e => .err (.func e)
    | .panic => .panic

mutual
/-- The loop body of `compute_args` (lines 214-233) with `compute_func_call` (lines 169-204). -/
def compute [DecidableEq F] (x : Ext G F) (input : Json F) : Expr Path G → Outcome Err (Json F)
  | .str s => .ok (.str s)
  | .int i => .ok (.int i)
  | .float g => floatValue x g
  | .bool b => .ok (.bool b)
  | .null => .ok .null
  | .path p => .ok (extractValue x p input)
  | .call name args =>
    match computeArgs x input args with
    | .ok vs => callFn x name vs
    | .err e => .err e
    | .panic => .panic

/-- `compute_args`: lines 206-236. -/
def computeArgs [DecidableEq F] (x : Ext G F) (input : Json F) :
    List (Expr Path G) → Outcome Err (List (Json F))
  | [] => .ok []
  | e :: es =>
    match compute x input e with
    | .ok v =>
      match computeArgs x input es with
      | .ok vs => .ok (v :: vs)
      | .err e => .err e
      | .panic => .panic
    | .err e => .err e
    | .panic => .panic
end

/-- `string.strip_prefix("func:")`: line 120. -/
def stripFunc : List Char → Option (List Char)
  | 'f' :: 'u' :: 'n' :: 'c' :: ':' :: r => some r
  | _ => none

/-- `render_func_call`: lines 158-167. -/
def renderCall [DecidableEq F] (x : Ext G F) (input : Json F) (text : List Char) :
    Outcome Err (Json F) :=
  match TmplParser.parseFunc x.parser text with
  | some (.ok e) => compute x input e
  | some (.error e) => .err (.parse e)
  | none => .panic

/-- `render_json_path_query`: lines 238-255. -/
def renderPath (x : Ext G F) (input : Json F) (text : List Char) : Outcome Err (Json F) :=
  match x.parser.path text with
  | some p => .ok (extractValue x p input)
  | none => .err .jsonPath

/-- `render_scalar`: lines 112-135. -/
def renderScalar [DecidableEq F] (x : Ext G F) (input : Json F) :
    Scalar G → Outcome Err (Json F)
  | .str s =>
    match stripFunc s with
    | some call => renderCall x input call
    | none => if s.head? = some '$' then renderPath x input s else .ok (.str s)
  | .int i => .ok (.int i)
  | .float g => floatValue x g
  | .bool b => .ok (.bool b)

mutual
/-- The `match` on a node in `render` and `render_sequence`: lines 146-153 and 287-292. -/
def renderNode [DecidableEq F] (x : Ext G F) (input : Json F) : Node G → Outcome Err (Json F)
  | .scalar s => renderScalar x input s
  | .mapping m =>
    match renderMap x input m [] with
    | .ok o => .ok (.obj o)
    | .err e => .err e
    | .panic => .panic
  | .seq l =>
    match renderSeq x input l with
    | .ok vs => .ok (.arr vs)
    | .err e => .err e
    | .panic => .panic
  | .null => .ok .null

/-- `render_sequence`: lines 137-156. -/
def renderSeq [DecidableEq F] (x : Ext G F) (input : Json F) :
    List (Node G) → Outcome Err (List (Json F))
  | [] => .ok []
  | n :: ns =>
    match renderNode x input n with
    | .ok v =>
      match renderSeq x input ns with
      | .ok vs => .ok (v :: vs)
      | .err e => .err e
      | .panic => .panic
    | .err e => .err e
    | .panic => .panic

/-- The loop of `render`: lines 285-294; `o` is the map rendered so far. -/
def renderMap [DecidableEq F] (x : Ext G F) (input : Json F) :
    List (List Char × Node G) → List (List Char × Json F) →
    Outcome Err (List (List Char × Json F))
  | [], o => .ok o
  | (k, n) :: m, o =>
    match renderNode x input n with
    | .ok v => renderMap x input m (TmplFuncs.insertKey k v o)
    | .err e => .err e
    | .panic => .panic
end

/-- `render`: lines 280-296. -/
def render [DecidableEq F] (x : Ext G F) (template : List (List Char × Node G)) (input : Json F) :
    Outcome Err (Json F) := renderNode x input (.mapping template)

/-! ## Injection and extraction -/

/-- The loop of `jsonpath_get_root_object_field`: jsonpath.rs lines 55-81. The outer `none` is the
early `return None`. -/
def fieldGo : List Path → Option (Option (List Char))
  | [] => some none
  | .root :: rest => fieldGo rest
  | .field k :: _ => some (some k)
  | _ :: _ => none

/-- `jsonpath_get_root_object_field`: jsonpath.rs lines 55-81. -/
def rootField : Path → Option (List Char)
  | .chain l => if l = [] ∨ l.length > 2 then none else (fieldGo l).getD none
  | _ => none

/-- `jsonpath_inject_root`: jsonpath.rs lines 40-53. -/
def injectRoot (p : Path) (value : Json F) : Json F → Option (Json F)
  | .obj m =>
    match rootField p with
    | some k => some (.obj (TmplFuncs.insertKey k value m))
    | none => none
  | _ => none

/-- `inject`: lines 298-321. -/
def inject (x : Ext G F) (input : Json F) (path : List Char) (value : Json F) :
    Outcome Err (Json F) :=
  match x.parser.path path with
  | none => .err .jsonPath
  | some p =>
    match injectRoot p value input with
    | some v => .ok v
    | none => .err .jsonPath

/-- `extract`: lines 323-338. -/
def extract (x : Ext G F) (input : Json F) (path : List Char) : Outcome Err (Json F) :=
  match x.parser.path path with
  | none => .err .jsonPath
  | some p => .ok (extractValue x p input)

end Verif.Payload
