import Verif.Base
import Verif.Text

/-!
# Model of Bluelink Signature v1

`libs/runtime/signature/src/sigv1.rs` 44-297.

HMAC and base64 are parameters (`Crypto`). Header values are lists of characters; `to_str` accepts
only visible ASCII and tabs, so slicing by bytes is slicing by characters. Strings passed to the MAC
are not converted to UTF-8 bytes (the conversion is injective).
-/

namespace Verif.Sig

open Verif Verif.Text

/-- A text. -/
abbrev Str := List Char

/-- The MAC and the base64 encoding of its result. -/
structure Crypto where
  Bytes : Type
  [dec : DecidableEq Bytes]
  mac : Str → Str → Bytes
  encode : Bytes → Str
  decode : Str → Option Bytes

attribute [instance] Crypto.dec

/-- `KeyPair`, types.rs 1-8. -/
structure KeyPair where
  keyId : Str
  secret : Str
  deriving Repr, DecidableEq

/-- `SignatureParts`, types.rs 10-18. -/
structure Parts where
  keyId : Str
  headers : List Str
  signature : Str
  deriving Repr, DecidableEq

/-- The errors of verification and of the creation of messages, errors.rs 7-21 and 88-103; message
texts are left out, and `InvalidDateHeader`, which nothing returns. -/
inductive Err where
  | invalidSignature
  | signatureMissing
  | dateMissing
  | invalidCustomHeader
  | customHeadersMissing (name : Str)
  | unknown
  deriving Repr, DecidableEq

/-- An error of verification as one of the creation of messages, errors.rs 146-163. -/
def Err.creation : Err → Err
  | .invalidSignature => .unknown
  | .signatureMissing => .dateMissing
  | e => e

/-- An error of the creation of messages as one of verification, errors.rs 63-83. -/
def Err.verification : Err → Err
  | .invalidCustomHeader => .invalidSignature
  | .unknown => .invalidSignature
  | e => e

/-- `SIGNATURE_HEADER_NAME`, sigv1.rs 15, as stored in a header map. -/
def sigName : Str :=
  ['b', 'l', 'u', 'e', 'l', 'i', 'n', 'k', '-', 's', 'i', 'g', 'n', 'a', 't', 'u', 'r', 'e', '-', 'v', '1']

/-- `DATE_HEADER_NAME.to_lowercase()`, sigv1.rs 18. -/
def dateName : Str := ['b', 'l', 'u', 'e', 'l', 'i', 'n', 'k', '-', 'd', 'a', 't', 'e']

/-- `"keyId"`, `"headers"` and `"signature"`, sigv1.rs 144, 177, 197, 219. -/
def keyIdWord : Str := ['k', 'e', 'y', 'I', 'd']
def headersWord : Str := ['h', 'e', 'a', 'd', 'e', 'r', 's']
def signatureWord : Str := ['s', 'i', 'g', 'n', 'a', 't', 'u', 'r', 'e']

/-- `DEFAULT_CLOCK_SKEW`, sigv1.rs 21. -/
def defaultSkew : Nat := 300

/-- Number of values of `u64`. -/
def u64 : Nat := 2 ^ 64

/-- `http::HeaderMap`: names are stored in lower case; the first value of a name counts. -/
abbrev Headers := List (Str × Str)

/-- `to_lowercase` for header names (which are ASCII). -/
def lower (s : Str) : Str := s.map Char.toLower

/-- `HeaderMap::get`: the name is looked up in lower case. -/
def get (hs : Headers) (name : Str) : Option Str := hs.lookup (lower name)

/-- `HeaderMap::insert` of a name in lower case. -/
def insert (hs : Headers) (name value : Str) : Headers :=
  (name, value) :: hs.filter (fun kv => kv.1 != name)

/-- Characters that `HeaderValue::to_str` accepts. -/
def visible (c : Char) : Bool := (32 ≤ c.toNat && c.toNat < 127) || c == '\t'

/-- `HeaderValue::to_str`. -/
def toStr (v : Str) : Option Str := if v.all visible then some v else none

/-- `extract_date_from_header`, sigv1.rs 285-297. -/
def extractDate (hs : Headers) : Outcome Err Nat :=
  match get hs dateName with
  | some v =>
    match toStr v with
    | none => .err .invalidSignature
    | some s =>
      match parseUnsigned u64 s with
      | some d => .ok d
      | none => .err .invalidSignature
  | none => .err .dateMissing

/-- The closure of `create_message` for one header, sigv1.rs 238-252. -/
def field (hs : Headers) (name : Str) : Outcome Err Str :=
  match get hs name with
  | some v =>
    match toStr v with
    | none => .err .invalidCustomHeader
    | some s => .ok (',' :: lower name ++ '=' :: s)
  | none => .err (.customHeadersMissing name)

/-- Collecting the fields into one string, stopping at the first error, sigv1.rs 235-253. -/
def fields (hs : Headers) : List Str → Outcome Err Str
  | [] => .ok []
  | n :: ns =>
    match field hs n with
    | .ok s =>
      match fields hs ns with
      | .ok t => .ok (s ++ t)
      | .err e => .err e
      | .panic => .panic
    | .err e => .err e
    | .panic => .panic

/-- `create_message`, sigv1.rs 229-257. -/
def createMessage (kp : KeyPair) (hs : Headers) (names : List Str) : Outcome Err Str :=
  match extractDate hs with
  | .ok date =>
    match fields hs (names.filter (fun n => n != dateName)) with
    | .ok custom => .ok (kp.keyId ++ ',' :: dateName ++ '=' :: digits date ++ custom)
    | .err e => .err e
    | .panic => .panic
  | .err e => .err e.creation
  | .panic => .panic

/-- `sign_message`, sigv1.rs 259-266. -/
def signMessage (c : Crypto) (kp : KeyPair) (message : Str) : Str := c.encode (c.mac kp.secret message)

/-- The value of the signature header, sigv1.rs 135-146. -/
def headerText (kp : KeyPair) (names : List Str) (signature : Str) : Str :=
  keyIdWord ++ '=' :: '"' :: kp.keyId ++ '"' :: ',' :: ' ' ::
    (headersWord ++ '=' :: '"' :: joinC ' ' (dateName :: names.map lower) ++ '"' :: ',' :: ' ' ::
      (signatureWord ++ '=' :: '"' :: signature ++ ['"']))

/-- The date header is added if it is not there, sigv1.rs 125-133. -/
def withDate (hs : Headers) (now : Nat) : Headers :=
  match get hs dateName with
  | none => insert hs dateName (digits now)
  | some _ => hs

/-- `create_signature_header`, sigv1.rs 119-147: the headers afterwards and the header value. -/
def create (c : Crypto) (kp : KeyPair) (hs : Headers) (names : List Str) (now : Nat) :
    Outcome Err (Headers × Str) :=
  let hs := withDate hs now
  match createMessage kp hs names with
  | .ok message => .ok (hs, headerText kp names (signMessage c kp message))
  | .err e => .err e
  | .panic => .panic

/-- `str::trim`; the text contains no other white space than blanks and tabs. -/
def trim (s : Str) : Str :=
  let ws := fun c : Char => c == ' ' || c == '\t'
  ((s.dropWhile ws).reverse.dropWhile ws).reverse

/-- `&s[1..s.len() - 1]`: panics if there are fewer than two characters (with overflow checks when
computing the end, otherwise when slicing). -/
def unquote (s : Str) : Outcome Err Str :=
  if s.length < 2 then .panic else .ok (s.drop 1).dropLast

/-- `unpack_key_id` and `unpack_signature_value`, sigv1.rs 169-186 and 210-227, which differ only in
the expected word. -/
def unpackValue (word part : Str) : Outcome Err Str :=
  match splitC '=' part with
  | [name, value] => if trim name = word then unquote value else .err .invalidSignature
  | _ => .err .invalidSignature

/-- `unpack_headers`, sigv1.rs 188-208. -/
def unpackHeaders (part : Str) : Outcome Err (List Str) :=
  match unpackValue headersWord part with
  | .ok s => .ok (splitC ' ' s)
  | .err e => .err e
  | .panic => .panic

/-- `unpack_signature`, sigv1.rs 149-167. -/
def unpack (s : Str) : Outcome Err Parts :=
  match splitC ',' s with
  | [a, b, c] =>
    match unpackValue keyIdWord a with
    | .ok keyId =>
      match unpackHeaders b with
      | .ok headers =>
        match unpackValue signatureWord c with
        | .ok signature => .ok ⟨keyId, headers, signature⟩
        | .err e => .err e
        | .panic => .panic
      | .err e => .err e
      | .panic => .panic
    | .err e => .err e
    | .panic => .panic
  | _ => .err .invalidSignature

/-- `verify_message`, sigv1.rs 268-283. -/
def verifyMessage (c : Crypto) (kp : KeyPair) (message signature : Str) : Bool :=
  match c.decode signature with
  | none => false
  | some b => b = c.mac kp.secret message

/-- Addition of `u64`: panics on overflow when overflow checks are compiled in, wraps otherwise. -/
def addU64 (checked : Bool) (a b : Nat) : Option Nat :=
  if a + b < u64 then some (a + b) else if checked then none else some (a + b - u64)

/-- Subtraction of `u64`. -/
def subU64 (checked : Bool) (a b : Nat) : Option Nat :=
  if b ≤ a then some (a - b) else if checked then none else some (a + u64 - b)

/-- The check of the date, sigv1.rs 66-76; the right operand of `||` is evaluated only if needed. -/
def checkDate (checked : Bool) (now date skew : Nat) : Outcome Err Unit :=
  match addU64 checked date skew with
  | none => .panic
  | some hi =>
    if now > hi then .err .invalidSignature
    else
      match subU64 checked date skew with
      | none => .panic
      | some lo => if now < lo then .err .invalidSignature else .ok ()

/-- `verify_signature`, sigv1.rs 44-82. -/
def verify (c : Crypto) (checked : Bool) (store : List (Str × KeyPair)) (hs : Headers) (now : Nat)
    (skew : Option Nat) : Outcome Err Unit :=
  match get hs sigName with
  | none => .err .signatureMissing
  | some v =>
    match toStr v with
    | none => .err .invalidSignature
    | some s =>
      match unpack s with
      | .ok parts =>
        match store.lookup parts.keyId with
        | none => .err .invalidSignature
        | some kp =>
          match createMessage kp hs parts.headers with
          | .ok message =>
            if verifyMessage c kp message parts.signature then
              match extractDate hs with
              | .ok date => checkDate checked now date (skew.getD defaultSkew)
              | .err e => .err e
              | .panic => .panic
            else .err .invalidSignature
          | .err e => .err e.verification
          | .panic => .panic
      | .err e => .err e
      | .panic => .panic

end Verif.Sig
