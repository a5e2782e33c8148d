import Verif.Scanner.Model

/-!
# Model of `${..}` substitutions in blueprints

Parsing: `libs/runtime/blueprint-config-parser/src/parse_substitutions.rs`.
Resolving: `libs/runtime/blueprint-config-parser/src/resolve_substitutions.rs` 1637-1919.

Rust strings are lists of characters. The Unicode predicates `char::is_alphabetic`,
`char::is_alphanumeric` and `char::is_whitespace` are parameters (`CharClass`): only the facts
listed as fields of that structure are assumed of them.
-/

namespace Verif.Subst

open Verif Verif.Scanner

abbrev Str := List Char

/-- The Unicode character classes of the Rust standard library, with the facts about them that
are used. -/
structure CharClass where
  alphabetic : Char → Bool
  alphanumeric : Char → Bool
  whitespace : Char → Bool
  alphabetic_alphanumeric : ∀ c, alphabetic c = true → alphanumeric c = true
  quote_not : alphanumeric '"' = false
  backslash_not : alphanumeric '\\' = false
  close_not : alphanumeric '}' = false
  open_not : alphanumeric '{' = false
  v_not_space : whitespace 'v' = false

/-- `Substitution::VariableReference(SubstitutionVariableReference { variable_name })`,
blueprint_with_subs.rs 535-542: the only supported substitution. -/
structure VarRef where
  name : Str
  deriving Repr, DecidableEq

/-- `enum StringOrSubstitution`, blueprint_with_subs.rs 516-519. -/
inductive Piece where
  | str (s : Str)
  | sub (r : VarRef)
  deriving Repr, DecidableEq

/-- `enum ParseError`, parse_substitutions.rs 211-215; the human readable `expected` text is not
modelled. -/
inductive ParseError where
  | character (pos : Nat)
  | endOfInput
  deriving Repr, DecidableEq

/-- `impl From<ScannerError> for ParseError`, parse_substitutions.rs 254-264. -/
def ParseError.ofScanner : ScannerError → ParseError
  | .character p => .character p
  | .endOfInput => .endOfInput

section parser
variable (cls : CharClass)

/-- `is_identifier_start_char`, parse_substitutions.rs 382-384. -/
def isIdentStart (ch : Char) : Bool := cls.alphabetic ch || ch == '_'

/-- `is_identifier_char`, parse_substitutions.rs 386-388. -/
def isIdentChar (ch : Char) : Bool := cls.alphanumeric ch || ch == '_' || ch == '-'

/-- `is_string_literal_ident_char`, parse_substitutions.rs 432-434. -/
def isLitIdentChar (ch : Char) : Bool := isIdentChar cls ch || ch == '.'

/-- `consume_whitespace`, parse_substitutions.rs 436-444. -/
def consumeWhitespace (s : Scanner) : Scanner := (popWhile cls.whitespace s).2

/-- The callback of `variables_keyword`, parse_substitutions.rs 293-304. -/
def variablesKeywordCb (input : Str) : Option (ScannerAction Unit) :=
  if input = "v".toList then some .require
  else if input = "va".toList then some .require
  else if input = "var".toList then some .require
  else if input = "vari".toList then some .require
  else if input = "varia".toList then some .require
  else if input = "variab".toList then some .require
  else if input = "variabl".toList then some .require
  else if input = "variable".toList then some .require
  else if input = "variables".toList then some (.ret ())
  else none

/-- `variables_keyword`, parse_substitutions.rs 291-320. -/
def variablesKeyword (s : Scanner) : Except ParseError Unit × Scanner :=
  let s := savePos s
  match scan s variablesKeywordCb with
  | (.ok (some _), s) => (.ok (), popPos s)
  | (.ok none, s) => (.error (.character (s.pos + 1)), backtrack s)
  | (.error e, s) => (.error (.ofScanner e), s)

/-- `identifier`, parse_substitutions.rs 352-380. -/
def identifier (s : Scanner) : Except ParseError Str × Scanner :=
  match peek s with
  | some ch =>
    if isIdentStart cls ch then
      let r := popWhile (isIdentChar cls) (pop s).2
      (.ok (ch :: r.1), r.2)
    else (.error (.character s.pos), s)
  | none => (.error (.character s.pos), s)

/-- `string_literal_identifier`, parse_substitutions.rs 390-430. -/
def stringLiteralIdentifier (s : Scanner) : Except ParseError Str × Scanner :=
  match take s '[' with
  | (false, s) => (.error (.character s.pos), s)
  | (true, s) =>
  match take s '"' with
  | (false, s) => (.error (.character s.pos), s)
  | (true, s) =>
  match popWhile (isLitIdentChar cls) s with
  | (name, s) =>
  match take s '"' with
  | (false, s) => (.error (.character s.pos), s)
  | (true, s) =>
  match take s ']' with
  | (false, s) => (.error (.character s.pos), s)
  | (true, s) => (.ok name, s)

/-- `variable_name_accessor`, parse_substitutions.rs 322-350. -/
def variableNameAccessor (s : Scanner) : Except ParseError Str × Scanner :=
  let s := savePos s
  match take s '.' with
  | (true, s) =>
    match identifier cls s with
    | (.ok n, s) => (.ok n, s)
    | (.error e, s) => (.error e, backtrack s)
  | (false, s) =>
    if peek s = some '[' then
      match stringLiteralIdentifier cls s with
      | (.ok n, s) => (.ok n, s)
      | (.error e, s) => (.error e, backtrack s)
    else (.error (.character s.pos), s)

/-- `parse_substitution` / `substitution`, parse_substitutions.rs 266-289. Text after the accessor
is ignored, as in the code. -/
def parseSubstitution (s : Scanner) : Except ParseError VarRef :=
  let s := consumeWhitespace cls s
  match variablesKeyword s with
  | (.error e, _) => .error e
  | (.ok (), s) =>
    match variableNameAccessor cls s with
    | (.ok n, _) => .ok { name := n }
    | (.error e, _) => .error e

/-- `struct InterpolationParseState`, parse_substitutions.rs 46-53. -/
structure State where
  parsed : List Piece
  inPossibleSub : Bool
  inStringLiteral : Bool
  potentialSub : Str
  potentialNonSubStr : Str
  prevChar : Char
  deriving Repr, DecidableEq

/-- Initial state, parse_substitutions.rs 68-75. -/
def State.init : State :=
  { parsed := [], inPossibleSub := false, inStringLiteral := false,
    potentialSub := [], potentialNonSubStr := [], prevChar := ' ' }

/-- `check_open_sub_bracket`, parse_substitutions.rs 151-164. The slice
`potential_non_sub_str[0..len - 1]` panics when the buffer is empty. -/
def checkOpenSubBracket (st : State) (ch : Char) : Outcome ParseError (Bool × State) :=
  if st.prevChar == '$' && ch == '{' && !st.inStringLiteral then
    if st.potentialNonSubStr.isEmpty then .panic
    else
      let st := { st with inPossibleSub := true }
      let nonSub := st.potentialNonSubStr.dropLast
      if nonSub.isEmpty then .ok (true, st)
      else .ok (true, { st with parsed := st.parsed ++ [.str nonSub] })
  else .ok (false, st)

/-- `check_string_literal`, parse_substitutions.rs 166-170. -/
def checkStringLiteral (st : State) (ch : Char) : State :=
  if ch == '"' && st.prevChar != '\\' && st.inPossibleSub then
    { st with inStringLiteral := !st.inStringLiteral }
  else st

/-- `enum CheckCloseSubBracketResult`, parse_substitutions.rs 172-176. -/
inductive CloseCheck where
  | supported
  | unsupported
  | not
  deriving Repr, DecidableEq

/-- `check_close_sub_bracket`, parse_substitutions.rs 178-209. -/
def checkCloseSubBracket (st : State) (ch : Char) : Outcome ParseError (CloseCheck × State) :=
  let isClose := ch == '}' && st.inPossibleSub && !st.inStringLiteral
  if isClose && "variables".toList.isPrefixOf st.potentialSub then
    match parseSubstitution cls (Scanner.new st.potentialSub) with
    | .error e => .err e
    | .ok r =>
      .ok (.supported,
        { st with
          parsed := st.parsed ++ [.sub r]
          potentialSub := []
          potentialNonSubStr := []
          inPossibleSub := false })
  else if isClose then .ok (.unsupported, st)
  else .ok (.not, st)

/-- The `match close_check_result` of the loop body, parse_substitutions.rs 83-104. -/
def afterClose (r : CloseCheck) (st : State) (ch : Char) : State :=
  match r with
  | .supported => st
  | .unsupported =>
    let st := { st with potentialNonSubStr := st.potentialNonSubStr ++ [ch] }
    match st.parsed.getLast? with
    | some (.str _) =>
      { st with
        parsed := st.parsed.dropLast ++ [.str st.potentialNonSubStr]
        potentialNonSubStr := [] }
    | _ => st
  | .not => { st with potentialNonSubStr := st.potentialNonSubStr ++ [ch] }

/-- One iteration of the loop, parse_substitutions.rs 77-108. -/
def step (st : State) (ch : Char) : Outcome ParseError State := do
  let (isOpen, st) ← checkOpenSubBracket st ch
  let st := checkStringLiteral st ch
  let (r, st) ← checkCloseSubBracket cls st ch
  let st := { st with prevChar := ch }
  let st := afterClose r st ch
  if st.inPossibleSub && !isOpen then
    pure { st with potentialSub := st.potentialSub ++ [ch] }
  else pure st

/-- The `for ch in value.chars()` loop, parse_substitutions.rs 77-108. -/
def run (st : State) : Str → Outcome ParseError State
  | [] => pure st
  | ch :: rest => do
    let st ← step cls st ch
    run st rest

/-- `concat_adjacent_string_values`, parse_substitutions.rs 126-149; `last` is
`last_string_value`. -/
def concatAdjacent (last : Str) : List Piece → List Piece
  | [] => if last.isEmpty then [] else [.str last]
  | .str s :: rest => concatAdjacent (last ++ s) rest
  | .sub r :: rest =>
    (if last.isEmpty then [] else [.str last]) ++ .sub r :: concatAdjacent [] rest

/-- `value.contains("${")`. -/
def containsOpener : Str → Bool
  | [] => false
  | c :: rest => (c == '$' && rest.head? == some '{') || containsOpener rest

/-- The end of `parse_substitutions`, parse_substitutions.rs 110-120. -/
def finish (st : State) : List Piece :=
  concatAdjacent []
    (if st.potentialNonSubStr.isEmpty then st.parsed
     else st.parsed ++ [.str st.potentialNonSubStr])

/-- `parse_substitutions`, parse_substitutions.rs 55-121. -/
def parseSubstitutions (value : Str) : Outcome ParseError (List Piece) :=
  if !containsOpener value then .ok [.str value]
  else do
    let st ← run cls State.init value
    pure (finish st)

end parser

/-! ## Resolution -/

/-- The process environment, `EnvVars::var` (helpers/src/env.rs 5-15): `none` is the `VarError`. -/
abbrev Env := Str → Option Str

/-- `enum ResolveError`, resolve_substitutions.rs 44-53: the cases reachable here. The `field` text
carried by the errors is not modelled. -/
inductive ResolveError where
  | missingVariable
  | parseError
  | maxResolveDepthExceeded (depth : Nat)
  | valueMustBeInt
  | valueMustBeFloat
  | valueMustBeBool
  | valueMustBeScalar
  deriving Repr, DecidableEq

/-- `format!("CELERITY_VARIABLE_{}", variable_name)`, resolve_substitutions.rs 1909. -/
def envVarName (name : Str) : Str := "CELERITY_VARIABLE_".toList ++ name

/-- `resolve_substitution::<Target>`, resolve_substitutions.rs 1898-1919; `parse` is
`str::parse::<Target>`. -/
def resolveSubstitution {T : Type} (parse : Str → Option T) (env : Env) (r : VarRef) :
    Outcome ResolveError T :=
  match env (envVarName r.name) with
  | none => .err .missingVariable
  | some v =>
    match parse v with
    | some t => .ok t
    | none => .err .parseError

/-- `resolve_string_or_substitution_to_string`, resolve_substitutions.rs 1885-1896
(`String::from_str` never fails). -/
def resolvePiece (env : Env) : Piece → Outcome ResolveError Str
  | .str s => .ok s
  | .sub r => resolveSubstitution some env r

/-- `resolve_string_or_substitutions_to_string`, resolve_substitutions.rs 1869-1883; `acc` is
`resolved_string`. -/
def resolveToString (env : Env) (acc : Str) : List Piece → Outcome ResolveError Str
  | [] => .ok acc
  | p :: rest => do
    let s ← resolvePiece env p
    resolveToString env (acc ++ s) rest

/-- Decimal digit value. -/
def digitVal (c : Char) : Option Nat :=
  if '0'.toNat ≤ c.toNat ∧ c.toNat ≤ '9'.toNat then some (c.toNat - '0'.toNat) else none

/-- Digits of an unsigned decimal number, most significant first; `none` for a non-digit. -/
def digitsVal (acc : Nat) : Str → Option Nat
  | [] => some acc
  | c :: rest =>
    match digitVal c with
    | some d => digitsVal (acc * 10 + d) rest
    | none => none

/-- The digits of a 64-bit signed number after its sign: at least one digit, only digits, value in
range. -/
def i64OfDigits (neg : Bool) (ds : Str) : Option Int :=
  if ds.isEmpty then none
  else
    match digitsVal 0 ds with
    | none => none
    | some n =>
      let v : Int := if neg then -(n : Int) else n
      if -(2 ^ 63 : Int) ≤ v ∧ v < (2 ^ 63 : Int) then some v else none

/-- `str::parse::<i64>` of the Rust standard library: an optional sign followed by digits. -/
def parseI64 (s : Str) : Option Int :=
  match s with
  | '-' :: ds => i64OfDigits true ds
  | '+' :: ds => i64OfDigits false ds
  | ds => i64OfDigits false ds

/-- `str::parse::<bool>` of the Rust standard library. -/
def parseBool (s : Str) : Option Bool :=
  if s = "true".toList then some true
  else if s = "false".toList then some false
  else none

/-- `enum BlueprintScalarValue`, blueprint.rs 104-109; floats are of an abstract type `F`. -/
inductive Scalar (F : Type) where
  | str (s : Str)
  | int (n : Int)
  | float (f : F)
  | bool (b : Bool)
  deriving Repr, DecidableEq

/-- `resolve_scalar_value_from_string_or_substitutions`, resolve_substitutions.rs 1792-1828.
`parseF` is `str::parse::<f64>`. `values[0]` panics on an empty list. -/
def resolveScalar {F : Type} (parseF : Str → Option F) (env : Env) (values : List Piece) :
    Outcome ResolveError (Scalar F) :=
  match values with
  | [] => .panic
  | [.str s] => .ok (.str s)
  | [.sub r] =>
    match resolveSubstitution parseI64 env r with
    | .ok n => .ok (.int n)
    | .panic => .panic
    | .err _ =>
      match resolveSubstitution parseF env r with
      | .ok f => .ok (.float f)
      | .panic => .panic
      | .err _ =>
        match resolveSubstitution parseBool env r with
        | .ok b => .ok (.bool b)
        | .panic => .panic
        | .err _ => do
          let s ← resolveSubstitution some env r
          pure (.str s)
  | values => do
    let s ← resolveToString env [] values
    pure (.str s)

/-- `enum MappingNode`, blueprint_with_subs.rs 499-506. A `HashMap` is an association list in the order
in which the map happens to be iterated. -/
inductive Node (F : Type) where
  | scalar (s : Scalar F)
  | mapping (m : List (Str × Node F))
  | sequence (l : List (Node F))
  | subst (values : List Piece)
  | null

/-- `enum ResolvedMappingNode`, blueprint.rs 982-987. -/
inductive RNode (F : Type) where
  | scalar (s : Scalar F)
  | mapping (m : List (Str × RNode F))
  | sequence (l : List (RNode F))
  | null

/-- `MAX_RESOLVE_DEPTH`, resolve_substitutions.rs 1741. -/
def maxResolveDepth : Nat := 20

/-- The depth check at the start of `resolve_mapping_node`, resolve_substitutions.rs 1749-1751. -/
def guardDepth {A : Type} (depth : Nat) (k : Outcome ResolveError A) : Outcome ResolveError A :=
  if depth > maxResolveDepth then .err (.maxResolveDepthExceeded depth) else k

mutual
/-- `resolve_mapping_node`, resolve_substitutions.rs 1743-1778. -/
def resolveNode {F : Type} (parseF : Str → Option F) (env : Env) (depth : Nat) :
    Node F → Outcome ResolveError (RNode F)
  | .scalar s => guardDepth depth (.ok (.scalar s))
  | .mapping m => guardDepth depth do
    let m ← resolveEntries parseF env (depth + 1) m
    pure (.mapping m)
  | .sequence l => guardDepth depth do
    let l ← resolveList parseF env (depth + 1) l
    pure (.sequence l)
  | .subst values => guardDepth depth do
    let s ← resolveScalar parseF env values
    pure (.scalar s)
  | .null => guardDepth depth (.ok .null)
/-- The loop over mapping entries, resolve_substitutions.rs 1757-1762. -/
def resolveEntries {F : Type} (parseF : Str → Option F) (env : Env) (depth : Nat) :
    List (Str × Node F) → Outcome ResolveError (List (Str × RNode F))
  | [] => .ok []
  | (k, v) :: rest => do
    let v ← resolveNode parseF env depth v
    let rest ← resolveEntries parseF env depth rest
    pure ((k, v) :: rest)
/-- The loop over sequence elements, resolve_substitutions.rs 1767-1769. -/
def resolveList {F : Type} (parseF : Str → Option F) (env : Env) (depth : Nat) :
    List (Node F) → Outcome ResolveError (List (RNode F))
  | [] => .ok []
  | v :: rest => do
    let v ← resolveNode parseF env depth v
    let rest ← resolveList parseF env depth rest
    pure (v :: rest)
end

/-- `resolve_mapping_node_to_scalar_value`, resolve_substitutions.rs 1688-1707. -/
def resolveNodeToScalar {F : Type} (parseF : Str → Option F) (env : Env) :
    Node F → Outcome ResolveError (Scalar F)
  | .scalar s => .ok s
  | .subst values => resolveScalar parseF env values
  | _ => .err .valueMustBeScalar

/-- `resolve_optional_mapping_node_to_int`, resolve_substitutions.rs 1637-1652. -/
def resolveOptInt {F : Type} (parseF : Str → Option F) (env : Env) :
    Option (Node F) → Outcome ResolveError (Option Int)
  | none => .ok none
  | some n => do
    match ← resolveNodeToScalar parseF env n with
    | .int i => pure (some i)
    | _ => .err .valueMustBeInt

/-- `resolve_optional_mapping_node_to_float`, resolve_substitutions.rs 1654-1669. -/
def resolveOptFloat {F : Type} (parseF : Str → Option F) (env : Env) :
    Option (Node F) → Outcome ResolveError (Option F)
  | none => .ok none
  | some n => do
    match ← resolveNodeToScalar parseF env n with
    | .float f => pure (some f)
    | _ => .err .valueMustBeFloat

/-- `resolve_optional_mapping_node_to_bool`, resolve_substitutions.rs 1671-1686. -/
def resolveOptBool {F : Type} (parseF : Str → Option F) (env : Env) :
    Option (Node F) → Outcome ResolveError (Option Bool)
  | none => .ok none
  | some n => do
    match ← resolveNodeToScalar parseF env n with
    | .bool b => pure (some b)
    | _ => .err .valueMustBeBool

end Verif.Subst
