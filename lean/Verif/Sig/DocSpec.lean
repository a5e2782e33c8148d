import Verif.Sig.Spec

/-!
# The names and texts of signatures, spelled out

Nothing here refers to the constants of the model.
-/

namespace Verif.Sig.Spec

open Verif Verif.Sig Verif.Text

/-- What the implementation writes: the parts are separated by commas. -/
def bluelinkText (keyId : Str) (names : List Str) (signature : Str) : Str :=
  "keyId=\"".toList ++ keyId ++ "\", headers=\"bluelink-date".toList ++
    names.flatMap (fun n => ' ' :: n.map Char.toLower) ++
    "\", signature=\"".toList ++ signature ++ "\"".toList

/-- What is documented: the parts are separated by blanks. `workflow-api-v1.yaml` 26. -/
def documentedText (keyId : Str) (names : List Str) (signature : Str) : Str :=
  "keyId=\"".toList ++ keyId ++ "\" headers=\"Celerity-Date".toList ++
    names.flatMap (fun n => ' ' :: n) ++
    "\" signature=\"".toList ++ signature ++ "\"".toList

/-- A request signed as documented (`workflow-api-v1.yaml` 17-26): it has the header
`Celerity-Signature-V1` with the documented text, and a header `Celerity-Date`. How the signature is
computed is not said there. The names are in lower case as in every header map. -/
def SignedAsDocumented (hs : Headers) (keyId : Str) (names : List Str) (signature date : Str) : Prop :=
  hs.lookup "celerity-signature-v1".toList = some (documentedText keyId names signature) ∧
    hs.lookup "celerity-date".toList = some date

/-- Characters that a header value may have so that it can be signed. -/
def Printable (ch : Char) : Prop := ch = '\t' ∨ (' '.toNat ≤ ch.toNat ∧ ch.toNat ≤ '~'.toNat)

/-- The date that a signature is made with: that of the request, or else the current time. -/
def DateUsed (hs : Headers) (now d : Nat) : Prop :=
  match hs.lookup "bluelink-date".toList with
  | some v => UnsignedText v d ∧ d < 2 ^ 64
  | none => d = now

end Verif.Sig.Spec
