import Verif.Sig.Props
import Verif.Sig.DocSpec

/-!
# Names and texts of signatures (C38, C39, C142)
-/

namespace Verif.Sig

open Verif Verif.Text Spec

theorem sigName_eq : sigName = "bluelink-signature-v1".toList := by decide
theorem dateName_eq : dateName = "bluelink-date".toList := by decide
theorem keyIdWord_eq : keyIdWord = "keyId".toList := by decide
theorem headersWord_eq : headersWord = "headers".toList := by decide
theorem signatureWord_eq : signatureWord = "signature".toList := by decide

theorem visible_iff (ch : Char) : visible ch = true ↔ Printable ch := by
  unfold visible Printable
  rw [show ' '.toNat = 32 from rfl, show '~'.toNat = 126 from rfl]
  simp only [Bool.or_eq_true, Bool.and_eq_true, decide_eq_true_eq, beq_iff_eq]
  constructor
  · rintro (⟨h1, h2⟩ | h)
    · right; omega
    · left; exact h
  · rintro (h | ⟨h1, h2⟩)
    · right; exact h
    · left; omega

theorem joinC_flatMap (a : Str) (ns : List Str) :
    joinC ' ' (a :: ns) = a ++ ns.flatMap (fun n => ' ' :: n) := by
  induction ns generalizing a with
  | nil => simp [joinC]
  | cons n ns ih => rw [joinC, ih, List.flatMap_cons, List.cons_append]

theorem headerText_eq (kp : KeyPair) (names : List Str) (sg : Str) :
    headerText kp names sg = bluelinkText kp.keyId names sg := by
  unfold headerText bluelinkText
  rw [joinC_flatMap, List.flatMap_map, keyIdWord_eq, headersWord_eq, signatureWord_eq, dateName_eq]
  simp [lower]

theorem unsigned_printable {v : Str} {d : Nat} (h : UnsignedText v d) : v.all visible = true := by
  obtain ⟨sign, ds, rfl, hs, _, hd, _⟩ := h
  rw [List.all_append, Bool.and_eq_true]
  constructor
  · rcases hs with rfl | rfl <;> decide
  · rw [List.all_eq_true]
    intro ch hch
    refine (alnum_visible ch (Or.inl ?_)).1
    simp [Char.isAlphanum, hd ch hch]

theorem extractDate_iff (hs : Headers) (d : Nat) : extractDate hs = .ok d ↔ DateIs hs d := by
  refine ⟨extractDate_ok hs d, ?_⟩
  rintro ⟨v, hv, ht, hb⟩
  unfold extractDate
  rw [get_eq, lower_dateName, hv]
  simp only [toStr, unsigned_printable ht, if_true, (parseUnsigned_iff u64 v d).2 ⟨ht, hb⟩]

theorem fields_ok_iff (hs : Headers) (names : List Str) :
    (∃ s, fields hs names = .ok s) ↔
      ∀ n ∈ names, ∃ v, hs.lookup (lower n) = some v ∧ v.all visible = true := by
  induction names with
  | nil => simp [fields]
  | cons n ns ih =>
    rw [List.forall_mem_cons, ← ih, fields]
    constructor
    · rintro ⟨s, h⟩
      cases hf : field hs n with
      | ok a =>
        rw [hf] at h
        obtain ⟨v, h1, h2, _⟩ := (field_ok hs n a).1 hf
        refine ⟨⟨v, h1, h2⟩, ?_⟩
        cases hr : fields hs ns with
        | ok t => exact ⟨t, rfl⟩
        | err e => rw [hr] at h; cases h
        | panic => rw [hr] at h; cases h
      | err e => rw [hf] at h; cases h
      | panic => rw [hf] at h; cases h
    · rintro ⟨⟨v, h1, h2⟩, t, ht⟩
      rw [(field_ok hs n _).2 ⟨v, h1, h2, rfl⟩, ht]
      exact ⟨_, rfl⟩

/-- **C38, when a request can be signed.** Signing succeeds exactly if the date of the request, when it
has one, is a number of 64 bits, and every listed header other than the date is there with a printable
value. -/
theorem signing_iff (c : Crypto) (kp : KeyPair) (hs : Headers) (names : List Str) (now : Nat)
    (hnow : now < 2 ^ 64) :
    (∃ r, create c kp hs names now = .ok r) ↔
      (∃ d, DateUsed hs now d) ∧
      ∀ n ∈ names, n.map Char.toLower ≠ "bluelink-date".toList →
        ∃ v, hs.lookup (n.map Char.toLower) = some v ∧ ∀ ch ∈ v, Printable ch := by
  have hd : ∀ d, DateUsed hs now d ↔ DateIs (withDate hs now) d := by
    intro d
    unfold DateUsed DateIs withDate
    rw [get_eq, lower_dateName, ← dateName_eq]
    cases h : hs.lookup dateName with
    | some v => simp [h]
    | none =>
      dsimp only
      rw [insert_lookup_self]
      constructor
      · rintro rfl
        exact ⟨_, rfl, ((parseUnsigned_iff u64 _ _).1 (parseUnsigned_digits u64 d hnow)).1, hnow⟩
      · rintro ⟨v, hv, ht, hb⟩
        injection hv with hv
        subst hv
        have h1 := (parseUnsigned_iff u64 _ _).2 ⟨ht, hb⟩
        rw [parseUnsigned_digits u64 now hnow] at h1
        injection h1 with h1
        exact h1.symm
  have hl : ∀ k, k ≠ dateName → (withDate hs now).lookup k = hs.lookup k := by
    intro k hk
    unfold withDate
    split
    · exact insert_lookup_ne _ _ _ _ hk
    · rfl
  have hc : (∃ r, create c kp hs names now = .ok r) ↔
      (∃ d, extractDate (withDate hs now) = .ok d) ∧
      ∃ s, fields (withDate hs now) (names.filter (fun n => n != dateName)) = .ok s := by
    unfold create createMessage
    dsimp only
    cases extractDate (withDate hs now) with
    | ok d =>
      dsimp only
      cases fields (withDate hs now) (names.filter (fun n => n != dateName)) <;> simp
    | err e => simp
    | panic => simp
  rw [hc, fields_ok_iff]
  simp only [extractDate_iff, hd]
  refine and_congr_right ?_
  rintro ⟨d, v, hv, ht, _⟩
  simp only [List.mem_filter, bne_iff_ne, and_imp, List.all_eq_true, visible_iff, ← dateName_eq]
  constructor
  · intro h n hn hne
    have hnd : n ≠ dateName := by
      rintro rfl
      exact hne lower_dateName
    obtain ⟨w, h1, h2⟩ := h n hn hnd
    exact ⟨w, (hl _ hne).symm.trans h1, h2⟩
  · intro h n hn _
    by_cases hne : lower n = dateName
    · rw [hne]
      exact ⟨v, hv, fun ch hch => (visible_iff ch).1 (List.all_eq_true.1 (unsigned_printable ht) ch hch)⟩
    · obtain ⟨w, h1, h2⟩ := h n hn hne
      exact ⟨w, (hl _ hne).trans h1, h2⟩

/-- **C38, the texts.** A signed request has the date it was signed with, its other headers are as
before, and the text of the signature is literally as in the specification with the MAC of the message. -/
theorem signed_text (c : Crypto) (kp : KeyPair) (hs hs' : Headers) (names : List Str) (now : Nat)
    (sig : Str) (h : create c kp hs names now = .ok (hs', sig)) :
    (∀ k, k ≠ "bluelink-date".toList → hs'.lookup k = hs.lookup k) ∧
    (hs'.lookup "bluelink-date".toList =
      some ((hs.lookup "bluelink-date".toList).getD (digits now))) ∧
    ∃ d listed, DateIs hs' d ∧
      Listed hs' (names.filter (fun n => n != "bluelink-date".toList)) listed ∧
      sig = bluelinkText kp.keyId names (c.encode (c.mac kp.secret
        (kp.keyId ++ ",bluelink-date=".toList ++ digits d ++
          listed.flatMap (fun kv => ',' :: kv.1 ++ '=' :: kv.2)))) := by
  unfold create at h
  dsimp only at h
  split at h
  · rename_i m hm
    injection h with h
    injection h with h1 h2
    subst h1 h2
    refine ⟨?_, ?_, ?_⟩
    · intro k hk
      rw [← dateName_eq] at hk
      unfold withDate
      split
      · exact insert_lookup_ne _ _ _ _ hk
      · rfl
    · rw [← dateName_eq]
      unfold withDate
      rw [get_eq, lower_dateName]
      cases h : hs.lookup dateName with
      | none => dsimp only; rw [insert_lookup_self]; rfl
      | some v => dsimp only; rw [h]; rfl
    · obtain ⟨d, listed, hd, hl, hmm⟩ := createMessage_ok kp _ names m hm
      refine ⟨d, listed, extractDate_ok _ d hd, by rw [← dateName_eq]; exact hl, ?_⟩
      rw [headerText_eq, hmm]
      unfold signMessage message
      rw [dateName_eq]
      congr 3
      simp
  · cases h
  · cases h

/-- **C39, the names.** An accepted request has the header `bluelink-signature-v1`, with the words
`keyId`, `headers` and `signature` in its three parts, and a date in `bluelink-date`. -/
theorem accepted_text (c : Crypto) (checked : Bool) (store : List (Str × KeyPair)) (hs : Headers)
    (now : Nat) (skew : Option Nat) (h : verify c checked store hs now skew = .ok ()) :
    (∃ d v, hs.lookup "bluelink-date".toList = some v ∧ UnsignedText v d) ∧
    ∃ w1 v1 w2 v2 w3 v3,
      hs.lookup "bluelink-signature-v1".toList =
        some (w1 ++ '=' :: v1 ++ ',' :: w2 ++ '=' :: v2 ++ ',' :: w3 ++ '=' :: v3) ∧
      trim w1 = "keyId".toList ∧ trim w2 = "headers".toList ∧ trim w3 = "signature".toList := by
  obtain ⟨s, keyId, names, sg, kp, d, listed, h1, h2, _, ⟨v, hv, ht, _⟩, _⟩ :=
    accepted_authentic _ _ _ _ _ _ h
  rw [sigName_eq] at h1
  rw [dateName_eq] at hv
  refine ⟨⟨d, v, hv, ht⟩, ?_⟩
  obtain ⟨w1, q1, q2, w2, q3, q4, w3, q5, q6, list, hs', t1, t2, t3, _⟩ := h2
  refine ⟨w1, q1 :: keyId ++ [q2], w2, q3 :: list ++ [q4], w3, q5 :: sg ++ [q6], ?_, ?_, ?_, ?_⟩
  · rw [h1, hs']; simp
  · rw [t1, keyIdWord_eq]
  · rw [t2, headersWord_eq]
  · rw [t3, signatureWord_eq]

/-! ## C142 -/

/-- **C142, full statement.** There is a way to compute signatures with which all requests signed as
documented, with the current time and a key that the verifier knows, are accepted. -/
def FullDocumented (c : Crypto) : Prop :=
  ∃ sign : KeyPair → Str → List (Str × Option Str) → Str,
    ∀ (checked : Bool) (store : List (Str × KeyPair)) (hs : Headers) (kp : KeyPair) (names : List Str)
      (now : Nat), WellFormed hs → now < 2 ^ 64 → store.lookup kp.keyId = some kp →
      (∀ n ∈ names, ∃ v, hs.lookup (lower n) = some v ∧ ∀ ch ∈ v, Printable ch) →
      SignedAsDocumented hs kp.keyId names
        (sign kp (digits now) (names.map (fun n => (n, hs.lookup (lower n))))) (digits now) →
      verify c checked store hs now none = .ok ()

/-- A request without the header `bluelink-signature-v1` is refused, whatever else it has. -/
theorem documented_never (c : Crypto) (checked : Bool) (store : List (Str × KeyPair)) (hs : Headers)
    (now : Nat) (skew : Option Nat) (h : hs.lookup "bluelink-signature-v1".toList = none) :
    verify c checked store hs now skew = .err .signatureMissing := by
  unfold verify
  rw [get_eq, lower_sigName, sigName_eq, h]

/-- The documented text is not accepted under the other name either: it is not split at blanks. -/
theorem documented_text_never (c : Crypto) (checked : Bool) (store : List (Str × KeyPair)) (hs : Headers)
    (now : Nat) (skew : Option Nat) (keyId : Str) (names : List Str) (signature : Str)
    (hk : ',' ∉ keyId) (hn : ∀ n ∈ names, ',' ∉ n) (hg : ',' ∉ signature)
    (h : hs.lookup "bluelink-signature-v1".toList = some (documentedText keyId names signature)) :
    verify c checked store hs now skew = .err .invalidSignature := by
  unfold verify
  rw [get_eq, lower_sigName, sigName_eq, h]
  dsimp only
  cases ht : toStr (documentedText keyId names signature) with
  | none => rfl
  | some s =>
    dsimp only
    unfold toStr at ht
    split at ht
    · injection ht with ht
      subst ht
      unfold unpack
      rw [splitC_none]
      unfold documentedText
      simp only [List.mem_append, not_or, List.mem_flatMap, not_exists, not_and, List.mem_cons]
      refine ⟨⟨⟨⟨⟨⟨by decide, hk⟩, by decide⟩, ?_⟩, by decide⟩, hg⟩, by decide⟩
      intro n hn'
      exact ⟨by decide, hn n hn'⟩
    · cases ht

/-- **C142 is false of the code.** -/
theorem documented_violated (c : Crypto) : ¬ FullDocumented c := by
  rintro ⟨sign, h⟩
  let kp : KeyPair := ⟨['k'], ['s']⟩
  let hs : Headers :=
    [("celerity-signature-v1".toList, documentedText ['k'] [] (sign kp (digits 1000) [])),
     ("celerity-date".toList, digits 1000)]
  have h1 := h true [(['k'], kp)] hs kp [] 1000
    (by
      intro n v hm
      have : n = "celerity-signature-v1".toList ∨ n = "celerity-date".toList := by
        simp only [hs, List.mem_cons, Prod.mk.injEq, List.not_mem_nil, or_false] at hm
        rcases hm with hm | hm
        · exact Or.inl hm.1
        · exact Or.inr hm.1
      rcases this with rfl | rfl <;> decide)
    (by decide) rfl (by intro n hn; cases hn) ⟨rfl, rfl⟩
  rw [documented_never c true _ hs 1000 none rfl] at h1
  cases h1

/-- **C142, partial.** With the names and the text that the code uses instead, a request signed as the
specification says is accepted. Missing: the documented names and text. -/
theorem documented_partial (c : Crypto) (hc : Lawful c) (checked : Bool) (kp : KeyPair)
    (hs hs' : Headers) (names : List Str) (now : Nat) (sig : Str) (store : List (Str × KeyPair))
    (hwf : WellFormed hs) (hstore : store.lookup kp.keyId = some kp)
    (hk : ',' ∉ kp.keyId ∧ '=' ∉ kp.keyId ∧ ∀ ch ∈ kp.keyId, Printable ch)
    (hnow : now < 2 ^ 64 - 300) (hnow' : 300 ≤ now)
    (hfresh : hs.lookup "bluelink-date".toList = none)
    (hn : ∀ n ∈ names, lower n ≠ "bluelink-signature-v1".toList ∧
      (lower n = "bluelink-date".toList → n = "bluelink-date".toList))
    (h : create c kp hs names now = .ok (hs', sig)) :
    verify c checked store (("bluelink-signature-v1".toList, sig) :: hs'.filter
      (fun kv => kv.1 != "bluelink-signature-v1".toList)) now none = .ok () := by
  rw [← sigName_eq] at hn ⊢
  rw [← dateName_eq] at hn
  have hd : DateIs hs' now := by
    obtain ⟨_, h2, _⟩ := signed_text c kp hs hs' names now sig h
    rw [hfresh, ← dateName_eq] at h2
    refine ⟨_, h2, ((parseUnsigned_iff u64 _ _).1 (parseUnsigned_digits u64 now ?_)).1, by omega⟩
    exact Nat.lt_of_lt_of_le hnow (Nat.sub_le _ _)
  have h1 := roundtrip_partial c hc checked kp store hs hs' names now now now 300 sig hwf hstore h hd
    ⟨by omega, by omega⟩
    ⟨hk.1, hk.2.1, List.all_eq_true.2 fun ch hch => (visible_iff ch).2 (hk.2.2 ch hch)⟩ hn
    ⟨hnow', show now + 300 < 2 ^ 64 by omega⟩
  exact h1

example : createMessage exampleKey (withDate exampleHeaders 1700000000) exampleNames =
    .ok "k1,bluelink-date=1700000000,x-b=text,x-a=1 2".toList := by decide

example : ∃ r, create toy exampleKey exampleHeaders exampleNames 1700000000 = .ok r := ⟨_, rfl⟩

example : SignedAsDocumented
    [("celerity-signature-v1".toList,
      "keyId=\"test-key-id\" headers=\"Celerity-Date X-Custom-Header\" signature=\"abc\"".toList),
     ("celerity-date".toList, ['1'])]
    "test-key-id".toList ["X-Custom-Header".toList] ['a', 'b', 'c'] ['1'] := by
  constructor <;> decide

end Verif.Sig
