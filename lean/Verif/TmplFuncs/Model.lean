import Verif.Base
import Verif.Json

/-!
# Model of the functions of workflow payload templates

`libs/runtime/workflow/src/template_functions_v1.rs`, every public function. An `expect` on `None`,
an empty range and a chunk size of zero panic; the panic is an outcome.

External code is a parameter (`Ext`): floating point arithmetic, JSON and base64 coding, the hash
functions, the random number generator and the identifier generators. Texts are lists of characters;
`str::len` counts the bytes of the UTF-8 form (`utf8Len`).
-/

namespace Verif.TmplFuncs

/-- `FunctionCallError`: lines 11-15, without the messages. -/
inductive Err
  | invalidArgument
  | arity
  | invalidInput
  deriving Repr, DecidableEq

/-- The libraries the functions call. The result of an arithmetic operation is `none` when it is
infinite or not a number (`serde_json::Number::from_f64` is `None` for it). -/
structure Ext (F : Type) where
  /-- `Number::as_f64` of an integer. -/
  ofInt : Int → F
  add : F → F → Option F
  sub : F → F → Option F
  mult : F → F → Option F
  div : F → F → Option F
  /-- `x == 0.0`. -/
  isZero : F → Bool
  /-- `Number::to_string` of a floating point number. -/
  floatText : F → List Char
  /-- `serde_json::from_str`. -/
  decode : List Char → Option (Json F)
  /-- `serde_json::to_string`. -/
  encode : Json F → Option (List Char)
  b64encode : List Char → List Char
  /-- Decoding and `String::from_utf8_lossy`. -/
  b64decode : List Char → Option (List Char)
  sha256 : List Char → List Char
  sha384 : List Char → List Char
  sha512 : List Char → List Char
  /-- `rand::thread_rng().gen_range(min..max)`. -/
  rand : Int → Int → Int
  uuid : List Char
  nanoid : List Char

variable {F : Type}

/-- What a template function gives. -/
abbrev Result (F : Type) := Outcome Err (Json F)

/-! ## Texts -/

/-- `str.matches("{}").count()`. -/
def countPlaceholders : List Char → Nat
  | '{' :: '}' :: rest => countPlaceholders rest + 1
  | _ :: rest => countPlaceholders rest
  | [] => 0

/-- `str.replacen("{}", by, 1)`. -/
def replaceFirst (new : List Char) : List Char → List Char
  | '{' :: '}' :: rest => new ++ rest
  | c :: rest => c :: replaceFirst new rest
  | [] => []

/-- `str.contains(needle)`. -/
def hasSub (needle : List Char) : List Char → Bool
  | [] => needle.isPrefixOf []
  | c :: rest => needle.isPrefixOf (c :: rest) || hasSub needle rest

/-- `str.split(sep)` for a separator that is not empty: `skip` counts the characters of a separator
that was found which are still to be passed over, `cur` is the current piece, reversed. -/
def splitGo (sep : List Char) : List Char → Nat → List Char → List (List Char)
  | [], _, cur => [cur.reverse]
  | _ :: rest, skip + 1, cur => splitGo sep rest skip cur
  | c :: rest, 0, cur =>
    if sep.isPrefixOf (c :: rest) then cur.reverse :: splitGo sep rest (sep.length - 1) []
    else splitGo sep rest 0 (c :: cur)

/-- `str.split(sep)`. An empty separator is found before every character and at the end. -/
def splitText (sep s : List Char) : List (List Char) :=
  if sep = [] then [] :: s.map (fun c => [c]) ++ [[]] else splitGo sep s 0 []

/-- Number of bytes of the UTF-8 form. -/
def utf8Len (s : List Char) : Nat := (s.map Char.utf8Size).sum

/-- `Value::to_string` of the scalars `format` accepts: lines 69-81. -/
def scalarText (x : Ext F) : Json F → Option (List Char)
  | .str s => some s
  | .int i => some (toString i).toList
  | .float f => some (x.floatText f)
  | .bool b => some (if b then ['t', 'r', 'u', 'e'] else ['f', 'a', 'l', 's', 'e'])
  | .null => some ['n', 'u', 'l', 'l']
  | .arr _ => none
  | .obj _ => none

/-- The loop of `format`: lines 68-88. -/
def fillLoop (x : Ext F) : List (Json F) → List Char → Result F
  | [], s => .ok (.str s)
  | a :: rest, s =>
    match scalarText x a with
    | some t => fillLoop x rest (replaceFirst t s)
    | none => .err .invalidArgument

/-- `format`: lines 43-90. -/
def format (x : Ext F) : List (Json F) → Result F
  | [] => .err .arity
  | .str s :: args =>
    if args.length ≠ countPlaceholders s then .err .arity else fillLoop x args s
  | _ :: _ => .err .invalidArgument

/-! ## JSON, base64 and hashes -/

/-- `jsondecode`: lines 97-119. -/
def jsondecode (x : Ext F) : List (Json F) → Result F
  | [.str s] =>
    match x.decode s with
    | some v => .ok v
    | none => .err .invalidInput
  | [_] => .err .invalidArgument
  | _ => .err .arity

/-- `jsonencode`: lines 126-139. -/
def jsonencode (x : Ext F) : List (Json F) → Result F
  | [v] =>
    match x.encode v with
    | some s => .ok (.str s)
    | none => .err .invalidInput
  | _ => .err .arity

/-- `BTreeMap::insert`, which keeps the entries in the order of their keys. -/
def insertKey (k : List Char) (v : Json F) :
    List (List Char × Json F) → List (List Char × Json F)
  | [] => [(k, v)]
  | (l, w) :: rest =>
    if k = l then (k, v) :: rest
    else if k < l then (k, v) :: (l, w) :: rest
    else (l, w) :: insertKey k v rest

/-- `BTreeMap::extend`. -/
def extend (m n : List (List Char × Json F)) : List (List Char × Json F) :=
  n.foldl (fun m e => insertKey e.1 e.2 m) m

/-- `jsonmerge`: lines 146-164. -/
def jsonmerge : List (Json F) → Result F
  | [.obj m, .obj n] => .ok (.obj (extend m n))
  | [_, _] => .err .invalidArgument
  | _ => .err .arity

/-- `b64encode`: lines 171-188. -/
def b64encode (x : Ext F) : List (Json F) → Result F
  | [.str s] => .ok (.str (x.b64encode s))
  | [_] => .err .invalidArgument
  | _ => .err .arity

/-- `b64decode`: lines 195-217. -/
def b64decode (x : Ext F) : List (Json F) → Result F
  | [.str s] =>
    match x.b64decode s with
    | some t => .ok (.str t)
    | none => .err .invalidInput
  | [_] => .err .invalidArgument
  | _ => .err .arity

/-- `hash`: lines 233-283. -/
def hash (x : Ext F) : List (Json F) → Result F
  | [.str a, .str s] =>
    if a = ['S', 'H', 'A', '2', '5', '6'] then .ok (.str (x.sha256 s))
    else if a = ['S', 'H', 'A', '3', '8', '4'] then .ok (.str (x.sha384 s))
    else if a = ['S', 'H', 'A', '5', '1', '2'] then .ok (.str (x.sha512 s))
    else .err .invalidArgument
  | [_, _] => .err .invalidArgument
  | _ => .err .arity

/-! ## Lists -/

/-- `list`: lines 290-292. -/
def list (args : List (Json F)) : Result F := .ok (.arr args)

/-- `slice.chunks(size)` for a size that is not zero: `cur` is the current piece, reversed. -/
def chunksGo {α : Type} (size : Nat) : List α → List α → List (List α)
  | [], [] => []
  | [], cur => [cur.reverse]
  | a :: rest, cur =>
    if (a :: cur).length = size then (a :: cur).reverse :: chunksGo size rest []
    else chunksGo size rest (a :: cur)

/-- `slice.chunks(size)`, which panics for the size 0. -/
def chunks {α : Type} (size : Nat) (l : List α) : Option (List (List α)) :=
  if size = 0 then none else some (chunksGo size l [])

/-- `Number::as_u64`. -/
def asU64 : Json F → Option Nat
  | .int i => if 0 ≤ i ∧ i < 2 ^ 64 then some i.toNat else none
  | _ => none

/-- `Number::as_i64`. -/
def asI64 : Json F → Option Int
  | .int i => if -2 ^ 63 ≤ i ∧ i < 2 ^ 63 then some i else none
  | _ => none

/-- `Value::Number(_)`. -/
def isNumber : Json F → Bool
  | .int _ => true
  | .float _ => true
  | _ => false

/-- `chunk_list`: lines 299-331. -/
def chunkList : List (Json F) → Result F
  | [.arr l, n] =>
    if isNumber n then
      match asU64 n with
      | none => .panic
      | some size =>
        match chunks size l with
        | none => .panic
        | some pieces => .ok (.arr (pieces.map .arr))
    else .err .invalidArgument
  | [_, _] => .err .invalidArgument
  | _ => .err .arity

/-- `list_elem`: lines 338-372. -/
def listElem : List (Json F) → Result F
  | [.arr l, n] =>
    if isNumber n then
      match asU64 n with
      | none => .panic
      | some i =>
        match l[i]? with
        | some v => .ok v
        | none => .err .invalidInput
    else .err .invalidArgument
  | [_, _] => .err .invalidArgument
  | _ => .err .arity

/-- The loop of `remove_duplicates`: lines 397-402; `unique` is the list built so far. -/
def uniqueLoop [DecidableEq F] : List (Json F) → List (Json F) → List (Json F)
  | [], unique => unique
  | a :: rest, unique =>
    if a ∈ unique then uniqueLoop rest unique else uniqueLoop rest (unique ++ [a])

/-- `remove_duplicates`: lines 381-405. -/
def removeDuplicates [DecidableEq F] : List (Json F) → Result F
  | [.arr l] => .ok (.arr (uniqueLoop l []))
  | [_] => .err .invalidArgument
  | _ => .err .arity

/-- `contains`: lines 413-442. -/
def contains [DecidableEq F] : List (Json F) → Result F
  | [.arr l, v] => .ok (.bool (l.any fun e => decide (e = v)))
  | [.str s, .str needle] => .ok (.bool (hasSub needle s))
  | [_, _] => .err .invalidArgument
  | _ => .err .arity

/-- `split`: lines 449-481. -/
def split : List (Json F) → Result F
  | [.str s, .str sep] => .ok (.arr ((splitText sep s).map .str))
  | [_, _] => .err .invalidArgument
  | _ => .err .arity

/-! ## Numbers -/

/-- `math_rand`: lines 489-523. -/
def mathRand (x : Ext F) : List (Json F) → Result F
  | [a, b] =>
    if isNumber a then
      match asI64 a with
      | none => .panic
      | some min =>
        if isNumber b then
          match asI64 b with
          | none => .panic
          | some max => if min ≥ max then .err .invalidArgument else .ok (.int (x.rand min max))
        else .err .invalidArgument
    else .err .invalidArgument
  | _ => .err .arity

/-- `Number::as_f64`. -/
def asF64 (x : Ext F) : Json F → Option F
  | .int i => some (x.ofInt i)
  | .float f => some f
  | _ => none

/-- `Number::from_f64(…).expect(…)`. -/
def fromF64 : Option F → Result F
  | some f => .ok (.float f)
  | none => .panic

/-- `math_add`: lines 530-558. -/
def mathAdd (x : Ext F) : List (Json F) → Result F
  | [a, b] =>
    match asF64 x a, asF64 x b with
    | some f, some g => fromF64 (x.add f g)
    | _, _ => .err .invalidArgument
  | _ => .err .arity

/-- `math_sub`: lines 565-593. -/
def mathSub (x : Ext F) : List (Json F) → Result F
  | [a, b] =>
    match asF64 x a, asF64 x b with
    | some f, some g => fromF64 (x.sub f g)
    | _, _ => .err .invalidArgument
  | _ => .err .arity

/-- `math_mult`: lines 600-628. -/
def mathMult (x : Ext F) : List (Json F) → Result F
  | [a, b] =>
    match asF64 x a, asF64 x b with
    | some f, some g => fromF64 (x.mult f g)
    | _, _ => .err .invalidArgument
  | _ => .err .arity

/-- `math_div`: lines 635-669. -/
def mathDiv (x : Ext F) : List (Json F) → Result F
  | [a, b] =>
    match asF64 x a, asF64 x b with
    | some f, some g => if x.isZero g then .err .invalidInput else fromF64 (x.div f g)
    | _, _ => .err .invalidArgument
  | _ => .err .arity

/-- `len`: lines 676-691. -/
def len : List (Json F) → Result F
  | [.str s] => .ok (.int (utf8Len s))
  | [.arr l] => .ok (.int l.length)
  | [_] => .err .invalidArgument
  | _ => .err .arity

/-- `uuid`: lines 698-706. -/
def uuid (x : Ext F) : List (Json F) → Result F
  | [] => .ok (.str x.uuid)
  | _ => .err .arity

/-- `nanoid`: lines 714-722. -/
def nanoid (x : Ext F) : List (Json F) → Result F
  | [] => .ok (.str x.nanoid)
  | _ => .err .arity

/-! ## The table of functions -/

/-- The names `compute_func_call` knows: `payload_template.rs` lines 176-203. -/
inductive Fn
  | format | jsondecode | jsonencode | jsonmerge | b64encode | b64decode | hash | list | chunkList
  | listElem | removeDuplicates | contains | split | mathRand | mathAdd | mathSub | mathMult
  | mathDiv | len | uuid | nanoid
  deriving Repr, DecidableEq

/-- The function of a name: `payload_template.rs` lines 176-203. -/
def call [DecidableEq F] (x : Ext F) (args : List (Json F)) : Fn → Result F
  | .format => format x args
  | .jsondecode => jsondecode x args
  | .jsonencode => jsonencode x args
  | .jsonmerge => jsonmerge args
  | .b64encode => b64encode x args
  | .b64decode => b64decode x args
  | .hash => hash x args
  | .list => list args
  | .chunkList => chunkList args
  | .listElem => listElem args
  | .removeDuplicates => removeDuplicates args
  | .contains => contains args
  | .split => split args
  | .mathRand => mathRand x args
  | .mathAdd => mathAdd x args
  | .mathSub => mathSub x args
  | .mathMult => mathMult x args
  | .mathDiv => mathDiv x args
  | .len => len args
  | .uuid => uuid x args
  | .nanoid => nanoid x args

end Verif.TmplFuncs
