import Verif.Sig.Model

/-! # Specification vocabulary for request signatures -/

namespace Verif.Sig.Spec

open Verif Verif.Sig Verif.Text

/-- What is known about base64: decoding inverts encoding, and the text consists of letters, digits,
minus and underscore. -/
structure Lawful (c : Crypto) : Prop where
  roundtrip : ∀ b, c.decode (c.encode b) = some b
  alphabet : ∀ b, ∀ ch ∈ c.encode b, ch.isAlphanum = true ∨ ch = '-' ∨ ch = '_'

/-- An ideal MAC: under one key, different messages have different codes. -/
def Ideal (c : Crypto) : Prop := ∀ k m m', c.mac k m = c.mac k m' → m = m'

/-- Characters allowed in header names by HTTP, without upper case letters. -/
def nameChar (ch : Char) : Bool :=
  ch.isLower || ch.isDigit ||
    ['!', '#', '$', '%', '&', '\'', '*', '+', '-', '.', '^', '_', '`', '|', '~'].contains ch

/-- A header map as `http::HeaderMap` stores it. -/
def WellFormed (hs : Headers) : Prop := ∀ n v, (n, v) ∈ hs → ∀ ch ∈ n, nameChar ch = true

/-- The message that is authenticated: key id, date and the listed headers. -/
def message (keyId : Str) (date : Nat) (listed : List (Str × Str)) : Str :=
  keyId ++ (',' :: dateName) ++ ('=' :: digits date) ++
    listed.flatMap (fun kv => (',' :: kv.1) ++ ('=' :: kv.2))

/-- `listed` are the (lower case) names with the values the request has for them. -/
def Listed (hs : Headers) : List Str → List (Str × Str) → Prop
  | [], [] => True
  | n :: ns, (k, v) :: rest => k = lower n ∧ hs.lookup k = some v ∧ Listed hs ns rest
  | _, _ => False

/-- The form of a signature header: three parts separated by commas, `word=QvalueQ` where the
characters `Q` are not looked at; the header names are separated by blanks. -/
def HeaderForm (s keyId : Str) (names : List Str) (signature : Str) : Prop :=
  ∃ w1 q1 q2 w2 q3 q4 w3 q5 q6 list,
    s = w1 ++ '=' :: q1 :: keyId ++ q2 :: ',' :: (w2 ++ '=' :: q3 :: list ++ q4 :: ',' ::
      (w3 ++ '=' :: q5 :: signature ++ [q6])) ∧
    trim w1 = keyIdWord ∧ trim w2 = headersWord ∧ trim w3 = signatureWord ∧
    joinC ' ' names = list ∧ (∀ n ∈ names, ' ' ∉ n) ∧ names ≠ []

/-- The date of a request. -/
def DateIs (hs : Headers) (d : Nat) : Prop :=
  ∃ v, hs.lookup dateName = some v ∧ UnsignedText v d ∧ d < 2 ^ 64

/-- Current time and date differ by at most the skew. -/
def Within (now date skew : Nat) : Prop := now ≤ date + skew ∧ date ≤ now + skew

/-- Every equals sign is followed by at least two characters other than commas and equals signs. -/
def ValuesQuoted (s : Str) : Prop :=
  ∀ pre post, s = pre ++ '=' :: post →
    ∃ x y rest, post = x :: y :: rest ∧ x ≠ ',' ∧ x ≠ '=' ∧ y ≠ ',' ∧ y ≠ '='

end Verif.Sig.Spec
