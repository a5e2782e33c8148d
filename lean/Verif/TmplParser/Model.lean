import Verif.Base
import Verif.Text

/-!
# Model of the parser of template function calls

`libs/runtime/workflow/src/template_func_parser.rs`, all of it. The scanner
(`libs/runtime/helpers/src/scanner.rs`, modelled with positions in `Verif.Scanner`) is represented
by the text still to be read and the stack of saved positions, each saved position by the text that
was still to be read there. Positions in error values are left out.

The parser is recursive; the model carries a bound on the depth (`fuel`) and answers `none` when it
is used up. `terminates` in `Props.lean` shows that the bound used by `parseFunc` is never reached.

The Unicode classes of characters, the JSON path library and `str::parse::<f64>` are parameters.
-/

namespace Verif.TmplParser

/-- Libraries: Unicode classes, `JsonPath::from_str` and `str::parse::<f64>`. -/
structure Ext (P F : Type) where
  /-- `char::is_whitespace`. -/
  white : Char → Bool
  /-- `char::is_alphabetic`. -/
  alpha : Char → Bool
  path : List Char → Option P
  float : List Char → Option F

/-- `TemplateFunctionExpr` with `TemplateFunctionCall` in its last case: lines 6-21. -/
inductive Expr (P F : Type)
  | str (s : List Char)
  | int (i : Int)
  | float (f : F)
  | bool (b : Bool)
  | null
  | path (p : P)
  | call (name : List Char) (args : List (Expr P F))

/-- `ParseError`: lines 23-28, without positions. -/
inductive PErr
  | character
  | jsonPath
  | endOfInput
  deriving Repr, DecidableEq

/-- The scanner: what is left to read, and the same at each saved position (innermost first). -/
structure S where
  rest : List Char
  stack : List (List Char)
  deriving Repr, DecidableEq

/-- `save_pos`. -/
def S.save (s : S) : S := ⟨s.rest, s.rest :: s.stack⟩

/-- `pop_pos`. -/
def S.popPos (s : S) : S := ⟨s.rest, s.stack.tail⟩

/-- `backtrack`. -/
def S.backtrack (s : S) : S :=
  match s.stack with
  | [] => s
  | p :: st => ⟨p, st⟩

variable {P F : Type}

/-! ## Names -/

/-- The loop of `func_name`: lines 111-130. `none` is the error of lines 119-122. -/
def nameGo (x : Ext P F) : List Char → List Char → Option (List Char) × List Char
  | [], name => (some name, [])
  | c :: r, [] =>
    if x.white c then nameGo x r []
    else if x.alpha c || c == '_' then nameGo x r [c]
    else (none, c :: r)
  | c :: r, name =>
    if x.alpha c || c.isDigit || c == '_' then nameGo x r (name ++ [c])
    else (some name, c :: r)

/-- `func_name`: lines 108-140. -/
def funcName (x : Ext P F) (rest : List Char) : Except PErr (List Char) × List Char :=
  match nameGo x rest [] with
  | (some [], r) => (.error .character, r)
  | (some name, r) => (.ok name, r)
  | (none, r) => (.error .character, r)

/-- `consume_whitespace`: lines 466-474. -/
def skipWhite (x : Ext P F) (rest : List Char) : List Char := rest.dropWhile x.white

/-! ## Arguments other than calls -/

/-- The loop of `json_path_expr`: lines 253-267. -/
def pathGo : List Char → Bool → Bool → List Char × List Char
  | [], _, _ => ([], [])
  | c :: r, inStr, inBr =>
    if c = '\'' then
      let t := pathGo r (!inStr) inBr
      (c :: t.1, t.2)
    else if c = '[' then
      let t := pathGo r inStr true
      (c :: t.1, t.2)
    else if c = ']' then
      let t := pathGo r inStr false
      (c :: t.1, t.2)
    else if (c = ',' ∨ c = ')') ∧ inStr = false ∧ inBr = false then ([], c :: r)
    else
      let t := pathGo r inStr inBr
      (c :: t.1, t.2)

/-- `json_path_expr`: lines 244-284. -/
def jsonPathExpr (x : Ext P F) (s : S) : Except PErr (Expr P F) × S :=
  let s1 := s.save
  let t := pathGo s1.rest false false
  let s2 : S := ⟨t.2, s1.stack⟩
  match x.path t.1 with
  | some p => (.ok (.path p), s2.popPos)
  | none => (.error .jsonPath, s2.backtrack)

/-- `ScannerAction`: scanner.rs lines 18-29. -/
inductive Action (T : Type)
  | request (t : T)
  | require
  | ret (t : T)

/-- `Scanner::scan`: scanner.rs lines 125-171; `seq`, `require` and `request` are its variables. -/
def scanGo {T : Type} (cb : List Char → Option (Action T)) :
    List Char → List Char → Bool → Option T → Except PErr (Option T) × List Char
  | [], _, require, request =>
    if require then (.error .endOfInput, []) else (.ok request, [])
  | c :: r, seq, require, request =>
    match cb (seq ++ [c]) with
    | some (.ret t) => (.ok (some t), r)
    | some (.request t) => scanGo cb r (seq ++ [c]) false (some t)
    | some .require => scanGo cb r (seq ++ [c]) true request
    | none => if require then (.error .character, c :: r) else (.ok request, c :: r)

/-- The callback of `bool_literal`: lines 288-299. -/
def boolCb : List Char → Option (Action (Expr P F))
  | ['t'] => some .require
  | ['t', 'r'] => some .require
  | ['t', 'r', 'u'] => some .require
  | ['t', 'r', 'u', 'e'] => some (.ret (.bool true))
  | ['f'] => some .require
  | ['f', 'a'] => some .require
  | ['f', 'a', 'l'] => some .require
  | ['f', 'a', 'l', 's'] => some .require
  | ['f', 'a', 'l', 's', 'e'] => some (.ret (.bool false))
  | _ => none

/-- The callback of `null_literal`: lines 319-325. -/
def nullCb : List Char → Option (Action (Expr P F))
  | ['n'] => some .require
  | ['n', 'u'] => some .require
  | ['n', 'u', 'l'] => some .require
  | ['n', 'u', 'l', 'l'] => some (.ret .null)
  | _ => none

/-- `bool_literal` (lines 286-315) and `null_literal` (lines 317-341). When the scan gives an error
the position is neither restored nor removed from the stack: lines 313 and 339. -/
def literal (cb : List Char → Option (Action (Expr P F))) (s : S) : Except PErr (Expr P F) × S :=
  let s1 := s.save
  match scanGo cb s1.rest [] false none with
  | (.ok (some e), r) => (.ok e, S.popPos ⟨r, s1.stack⟩)
  | (.ok none, r) => (.error .character, S.backtrack ⟨r, s1.stack⟩)
  | (.error e, r) => (.error e, ⟨r, s1.stack⟩)

/-- The loop of `float_literal`: lines 349-363. -/
def floatGo : List Char → List Char → Bool → (List Char × Bool) × List Char
  | [], seq, passed => ((seq, passed), [])
  | c :: r, seq, passed =>
    if c = '-' ∧ seq = [] then floatGo r (seq ++ [c]) passed
    else if c = '.' ∧ passed = false then floatGo r (seq ++ [c]) true
    else if c.isDigit then floatGo r (seq ++ [c]) passed
    else ((seq, passed), c :: r)

/-- `float_literal`: lines 343-388. -/
def floatLiteral (x : Ext P F) (s : S) : Except PErr (Expr P F) × S :=
  let s1 := s.save
  match floatGo s1.rest [] false with
  | ((seq, passed), r) =>
    if seq = [] ∨ passed = false then (.error .character, S.backtrack ⟨r, s1.stack⟩)
    else
      match x.float seq with
      | some f => (.ok (.float f), S.popPos ⟨r, s1.stack⟩)
      | none => (.error .character, S.backtrack ⟨r, s1.stack⟩)

/-- The loop of `int_literal`: lines 395-402. -/
def intGo : List Char → List Char → List Char × List Char
  | [], seq => (seq, [])
  | c :: r, seq =>
    if (c = '-' ∧ seq = []) ∨ c.isDigit = true then intGo r (seq ++ [c]) else (seq, c :: r)

/-- `int_literal`: lines 390-427. -/
def intLiteral (s : S) : Except PErr (Expr P F) × S :=
  let s1 := s.save
  match intGo s1.rest [] with
  | (seq, r) =>
    if seq = [] then (.error .character, S.backtrack ⟨r, s1.stack⟩)
    else
      match Text.parseSigned 64 seq with
      | some i => (.ok (.int i), S.popPos ⟨r, s1.stack⟩)
      | none => (.error .character, S.backtrack ⟨r, s1.stack⟩)

/-- The loop of `string_literal`: lines 443-455; `none` when there is no closing quote. -/
def strGo : List Char → Char → Option (List Char × List Char)
  | [], _ => none
  | c :: r, prev =>
    if c = '"' ∧ prev ≠ '\\' then some ([], r)
    else
      match strGo r c with
      | some (t, r') => some (c :: t, r')
      | none => none

/-- `string.replace("\\\"", "\"")`: line 463. -/
def unescape : List Char → List Char
  | '\\' :: '"' :: r => '"' :: unescape r
  | c :: r => c :: unescape r
  | [] => []

/-- `string_literal`: lines 429-464. -/
def stringLiteral (s : S) : Except PErr (Expr P F) × S :=
  let s1 := s.save
  match s1.rest with
  | '"' :: r =>
    match strGo r ' ' with
    | some (t, r') => (.ok (.str (unescape t)), S.popPos ⟨r', s1.stack⟩)
    | none => (.error .endOfInput, S.backtrack ⟨[], s1.stack⟩)
  | r => (.error .character, S.backtrack ⟨r, s1.stack⟩)

/-- `func_arg` after the attempt at a function call: lines 192-241. -/
def simpleArg (x : Ext P F) (s : S) : Except PErr (Expr P F) × S :=
  match jsonPathExpr x s with
  | (.ok e, s1) => (.ok e, s1)
  | (.error e, s1) =>
    if s1.rest.head? = some '$' then (.error e, s1)
    else
      match literal boolCb s1 with
      | (.ok e, s2) => (.ok e, s2)
      | (.error _, s2) =>
        match literal nullCb s2 with
        | (.ok e, s3) => (.ok e, s3)
        | (.error _, s3) =>
          match floatLiteral x s3 with
          | (.ok e, s4) => (.ok e, s4)
          | (.error _, s4) =>
            match intLiteral s4 with
            | (.ok e, s5) => (.ok e, s5)
            | (.error _, s5) =>
              match stringLiteral s5 with
              | (.ok e, s6) => (.ok e, s6)
              | (.error e, s6) =>
                match s6.rest with
                | [] => (.error e, s6)
                | c :: _ => if c ≠ '"' then (.error .character, s6) else (.error e, s6)

/-! ## Calls -/

mutual
/-- `func_call`: lines 83-106, with `func_args` (lines 142-154) up to its loop. -/
def funcCall (x : Ext P F) : Nat → S → Option (Except PErr (Expr P F) × S)
  | 0, _ => none
  | fuel + 1, s =>
    let s1 := s.save
    match funcName x s1.rest with
    | (.error e, r) => some (.error e, S.backtrack ⟨r, s1.stack⟩)
    | (.ok name, r) =>
      match skipWhite x r with
      | '(' :: r1 =>
        match argsLoop x fuel ⟨r1, s1.stack⟩ [] with
        | none => none
        | some (.ok args, s2) => some (.ok (.call name args), s2.popPos)
        | some (.error e, s2) => some (.error e, s2.backtrack)
      | r1 => some (.error .character, S.backtrack ⟨r1, s1.stack⟩)

/-- The loop of `func_args`: lines 156-183. The end of the text ends the arguments. -/
def argsLoop (x : Ext P F) :
    Nat → S → List (Expr P F) → Option (Except PErr (List (Expr P F)) × S)
  | 0, _, _ => none
  | fuel + 1, s, args =>
    match s.rest with
    | [] => some (.ok args, s)
    | c :: r =>
      if x.white c then argsLoop x fuel ⟨r, s.stack⟩ args
      else if c = ')' then some (.ok args, ⟨r, s.stack⟩)
      else
        match funcArg x fuel s with
        | none => none
        | some (.error e, s1) => some (.error e, s1)
        | some (.ok a, s1) =>
          match skipWhite x s1.rest with
          | [] => argsLoop x fuel ⟨[], s1.stack⟩ (args ++ [a])
          | d :: r1 =>
            if d = ',' then argsLoop x fuel ⟨r1, s1.stack⟩ (args ++ [a])
            else if d = ')' then argsLoop x fuel ⟨d :: r1, s1.stack⟩ (args ++ [a])
            else some (.error .character, ⟨d :: r1, s1.stack⟩)

/-- `func_arg`: lines 186-242. -/
def funcArg (x : Ext P F) : Nat → S → Option (Except PErr (Expr P F) × S)
  | 0, _ => none
  | fuel + 1, s =>
    match funcCall x fuel s with
    | none => none
    | some (.ok e, s1) => some (.ok e, s1)
    | some (.error _, s1) => some (simpleArg x s1)
end

/-- `parse_func` on a new scanner: lines 79-81 and payload_template.rs lines 164-165. -/
def parseFunc (x : Ext P F) (text : List Char) : Option (Except PErr (Expr P F)) :=
  (funcCall x (3 * text.length + 3) ⟨text, []⟩).map (·.1)

end Verif.TmplParser
