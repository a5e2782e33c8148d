import Verif.Base

/-!
# Model of `libs/runtime/helpers/src/scanner.rs`

Rust `Vec<char>` is a `List Char`; `&mut self` methods return the new scanner.
-/

namespace Verif.Scanner

/-- `struct Scanner`, scanner.rs 3-11. -/
structure Scanner where
  pos : Nat
  chars : List Char
  startPosStack : List Nat
  deriving Repr, DecidableEq

/-- `enum ScannerError`, scanner.rs 13-16. -/
inductive ScannerError where
  | character (pos : Nat)
  | endOfInput
  deriving Repr, DecidableEq

/-- `enum ScannerAction<T>`, scanner.rs 18-29. -/
inductive ScannerAction (T : Type) where
  | request (t : T)
  | require
  | ret (t : T)

/-- `Scanner::new`, scanner.rs 32-38. -/
def new (input : List Char) : Scanner := { pos := 0, chars := input, startPosStack := [] }

/-- `Scanner::save_pos`, scanner.rs 48-50 (the top of the stack is the head). -/
def savePos (s : Scanner) : Scanner := { s with startPosStack := s.pos :: s.startPosStack }

/-- `Scanner::pop_pos`, scanner.rs 55-57. -/
def popPos (s : Scanner) : Scanner := { s with startPosStack := s.startPosStack.tail }

/-- `Scanner::backtrack`, scanner.rs 61-65. -/
def backtrack (s : Scanner) : Scanner :=
  match s.startPosStack with
  | [] => s
  | p :: rest => { s with pos := p, startPosStack := rest }

/-- `Scanner::peek`, scanner.rs 70-72. -/
def peek (s : Scanner) : Option Char := s.chars[s.pos]?

/-- `Scanner::is_end`, scanner.rs 75-77. -/
def isEnd (s : Scanner) : Bool := s.pos == s.chars.length

/-- `Scanner::pop`, scanner.rs 81-90. -/
def pop (s : Scanner) : Option Char × Scanner :=
  match s.chars[s.pos]? with
  | some ch => (some ch, { s with pos := s.pos + 1 })
  | none => (none, s)

/-- `Scanner::take`, scanner.rs 95-107. -/
def take (s : Scanner) (target : Char) : Bool × Scanner :=
  match s.chars[s.pos]? with
  | some ch => if target == ch then (true, { s with pos := s.pos + 1 }) else (false, s)
  | none => (false, s)

/-- `Scanner::transform`, scanner.rs 112-123. -/
def transform {T : Type} (s : Scanner) (cb : Char → Option T) : Option T × Scanner :=
  match s.chars[s.pos]? with
  | some ch =>
    match cb ch with
    | some t => (some t, { s with pos := s.pos + 1 })
    | none => (none, s)
  | none => (none, s)

/-- The `loop` of `Scanner::scan`, scanner.rs 133-170, with its local variables
`sequence`, `require` and `request`. -/
def scanLoop {T : Type} (cb : List Char → Option (ScannerAction T)) (s : Scanner)
    (sequence : List Char) (require : Bool) (request : Option T) :
    Except ScannerError (Option T) × Scanner :=
  match _h : s.chars[s.pos]? with
  | some target =>
    let sequence := sequence ++ [target]
    match cb sequence with
    | some (.ret r) => (.ok (some r), { s with pos := s.pos + 1 })
    | some (.request r) => scanLoop cb { s with pos := s.pos + 1 } sequence false (some r)
    | some .require => scanLoop cb { s with pos := s.pos + 1 } sequence true request
    | none => if require then (.error (.character s.pos), s) else (.ok request, s)
  | none => if require then (.error .endOfInput, s) else (.ok request, s)
termination_by s.chars.length - s.pos
decreasing_by
  all_goals
    have := (List.getElem?_eq_some_iff.mp _h).1
    omega

/-- `Scanner::scan`, scanner.rs 125-171. -/
def scan {T : Type} (s : Scanner) (cb : List Char → Option (ScannerAction T)) :
    Except ScannerError (Option T) × Scanner :=
  scanLoop cb s [] false none

/-- The idiom `while let Some(ch) = scanner.peek() { if p(ch) { v.push(*ch); scanner.pop(); }
else { break } }` used by all the parsers (parse_substitutions.rs 358-365, 406-413, 437-443,
template_func_parser.rs throughout): returns the characters pushed. -/
def popWhile (p : Char → Bool) (s : Scanner) : List Char × Scanner :=
  match _h : peek s with
  | some ch =>
    if p ch then
      let r := popWhile p (pop s).2
      (ch :: r.1, r.2)
    else ([], s)
  | none => ([], s)
termination_by s.chars.length - s.pos
decreasing_by
  have h' : s.chars[s.pos]? = some ch := _h
  have := (List.getElem?_eq_some_iff.mp h').1
  simp only [pop, h']
  omega

/-- One call on a scanner by a parser; callbacks are arbitrary. -/
inductive Op where
  | savePos
  | popPos
  | backtrack
  | peek
  | pop
  | take (c : Char)
  | transform (cb : Char → Option Unit)
  | scan (cb : List Char → Option (ScannerAction Unit))

/-- Effect of a call on the scanner. -/
def Op.run (s : Scanner) : Op → Scanner
  | .savePos => Scanner.savePos s
  | .popPos => Scanner.popPos s
  | .backtrack => Scanner.backtrack s
  | .peek => s
  | .pop => (Scanner.pop s).2
  | .take c => (Scanner.take s c).2
  | .transform cb => (Scanner.transform s cb).2
  | .scan cb => (Scanner.scan s cb).2

end Verif.Scanner
