import Verif.Sig.Lemmas

/-!
# Properties of request signatures (C38 - C41)
-/

namespace Verif.Sig

open Verif Verif.Text Spec Verif.Assoc

/-- A computable instance of the cryptography parameter, used in examples: the code is the text
itself, written in unary. -/
def toyEncode : List Nat → Str
  | [] => []
  | n :: ns => List.replicate n 'A' ++ 'B' :: toyEncode ns

def toyDecode (acc : Nat) : Str → Option (List Nat)
  | [] => if acc = 0 then some [] else none
  | c :: cs =>
    if c = 'A' then toyDecode (acc + 1) cs
    else if c = 'B' then (toyDecode 0 cs).map (acc :: ·)
    else none

def toy : Crypto := ⟨List Nat, fun k m => (k ++ m).map Char.toNat, toyEncode, toyDecode 0⟩

theorem toyDecode_replicate (n acc : Nat) (r : Str) :
    toyDecode acc (List.replicate n 'A' ++ r) = toyDecode (acc + n) r := by
  induction n generalizing acc with
  | zero => rfl
  | succ n ih =>
    simp only [List.replicate_succ, List.cons_append, toyDecode, if_true]
    rw [ih]; congr 1; omega

theorem toy_lawful : Lawful toy := by
  constructor
  · intro b
    induction b with
    | nil => rfl
    | cons n ns ih =>
      show toyDecode 0 (List.replicate n 'A' ++ 'B' :: toyEncode ns) = _
      rw [toyDecode_replicate]
      have : toyDecode 0 (toyEncode ns) = some ns := ih
      simp [toyDecode, this]
      rfl
  · intro b
    induction b with
    | nil => intro ch hch; simp [toy, toyEncode] at hch
    | cons n ns ih =>
      intro ch hch
      have hch' : ch ∈ List.replicate n 'A' ++ 'B' :: toyEncode ns := hch
      simp only [List.mem_append, List.mem_replicate, List.mem_cons] at hch'
      rcases hch' with ⟨_, rfl⟩ | rfl | h
      · left; decide
      · left; decide
      · exact ih ch h

theorem toy_ideal : Ideal toy := by
  intro k m m' h
  have h' : (k ++ m).map Char.toNat = (k ++ m').map Char.toNat := h
  have inj : ∀ a b : List Char, a.map Char.toNat = b.map Char.toNat → a = b := by
    intro a
    induction a with
    | nil => intro b hb; cases b with
      | nil => rfl
      | cons _ _ => simp at hb
    | cons x a ih =>
      intro b hb
      cases b with
      | nil => simp at hb
      | cons y b =>
        simp only [List.map_cons, List.cons.injEq] at hb
        rw [ih b hb.2]
        have : x = y := Char.ext (UInt32.toNat_inj.mp hb.1)
        rw [this]
  exact List.append_cancel_left (inj _ _ h')

/-! ## C38 -/

/-- C38 in full. -/
def FullRoundtrip (c : Crypto) : Prop :=
  ∀ (checked : Bool) (kp : KeyPair) (store : List (Str × KeyPair)) (hs hs' : Headers)
    (names : List Str) (signedAt now d skew : Nat) (sig : Str),
    WellFormed hs → signedAt < u64 → store.lookup kp.keyId = some kp →
    create c kp hs names signedAt = .ok (hs', sig) → sig.all visible = true → DateIs hs' d →
    Within now d skew →
    verify c checked store (insert hs' sigName sig) now (some skew) = .ok ()

/-- A key id with a comma. -/
def commaKey : KeyPair := ⟨['a', ',', 'b'], ['s']⟩

theorem dateIs_1000 (hs : Headers) (h : hs.lookup dateName = some ['1', '0', '0', '0']) :
    DateIs hs 1000 :=
  ⟨_, h, ((parseUnsigned_iff u64 ['1', '0', '0', '0'] 1000).mp (by decide)).1, by decide⟩

theorem alnum_visible (ch : Char) (h : ch.isAlphanum = true ∨ ch = '-' ∨ ch = '_') :
    visible ch = true ∧ ch ≠ ',' ∧ ch ≠ '=' := by
  rcases h with h | rfl | rfl
  · refine ⟨?_, ?_, ?_⟩
    · simp only [Char.isAlphanum, Char.isAlpha, Char.isUpper, Char.isLower, Char.isDigit,
        Bool.or_eq_true, Bool.and_eq_true, decide_eq_true_eq, UInt32.le_iff_toNat_le, ge_iff_le] at h
      have e : ch.val.toNat = ch.toNat := rfl
      simp only [e] at h
      have : (65 ≤ ch.toNat ∧ ch.toNat ≤ 90) ∨ (97 ≤ ch.toNat ∧ ch.toNat ≤ 122) ∨
          (48 ≤ ch.toNat ∧ ch.toNat ≤ 57) := by
        rcases h with (h | h) | h
        · exact Or.inl ⟨h.1, h.2⟩
        · exact Or.inr (Or.inl ⟨h.1, h.2⟩)
        · exact Or.inr (Or.inr ⟨h.1, h.2⟩)
      simp only [visible, Bool.or_eq_true, Bool.and_eq_true, decide_eq_true_eq]
      left; omega
    · rintro rfl; revert h; decide
    · rintro rfl; revert h; decide
  · decide
  · decide

/-- **C38 fails** for a key id that contains a comma, whatever the cryptography. -/
theorem roundtrip_violated (c : Crypto) (hc : Lawful c) : ¬ FullRoundtrip c := by
  intro h
  have hm : ∃ m, createMessage commaKey [(dateName, ['1', '0', '0', '0'])] [] = .ok m := ⟨_, rfl⟩
  obtain ⟨m, hm⟩ := hm
  have hcr : create c commaKey [(dateName, ['1', '0', '0', '0'])] [] 1000 =
      .ok ([(dateName, ['1', '0', '0', '0'])],
        headerText commaKey [] (signMessage c commaKey m)) := by
    have hw : withDate [(dateName, ['1', '0', '0', '0'])] 1000 = [(dateName, ['1', '0', '0', '0'])] :=
      rfl
    simp only [create, hw, hm]
  have hvis : (headerText commaKey [] (signMessage c commaKey m)).all visible = true := by
    have h1 : ∀ ch ∈ signMessage c commaKey m, visible ch = true :=
      fun ch hch => (alnum_visible ch (hc.alphabet _ ch hch)).1
    have h2 : (signMessage c commaKey m).all visible = true := List.all_eq_true.mpr h1
    simp only [headerText, List.all_append, List.all_cons, h2]
    decide
  have hver := h true commaKey [(commaKey.keyId, commaKey)] _ _ [] 1000 1000 1000 300 _
    (by
      intro n v hnv
      simp only [List.mem_singleton, Prod.mk.injEq] at hnv
      rw [hnv.1]; exact dateName_chars)
    (by decide) (by decide) hcr hvis (dateIs_1000 _ (by decide)) (by constructor <;> decide)
  obtain ⟨s, p, kp, m', d, hs, hp, _⟩ := verify_ok _ _ _ _ _ _ hver
  rw [insert_lookup_self] at hs
  simp only [Option.some.injEq] at hs
  subst hs
  have hun : unpack (headerText commaKey [] (signMessage c commaKey m)) = .err .invalidSignature := by
    have h4 : headerText commaKey [] (signMessage c commaKey m) =
        (keyIdWord ++ ['=', '"', 'a']) ++ ',' :: (['b', '"'] ++ ',' ::
          ((' ' :: headersWord ++ '=' :: '"' :: dateName ++ ['"']) ++ ',' ::
            (' ' :: signatureWord ++ '=' :: '"' :: signMessage c commaKey m ++ ['"']))) := by
      simp [headerText, commaKey, joinC]
    have hsp : ∃ a b c' d' r, splitC ',' (headerText commaKey [] (signMessage c commaKey m)) =
        a :: b :: c' :: d' :: r := by
      rw [h4, splitC_append _ _ _ (by decide), splitC_append _ _ _ (by decide),
        splitC_append _ _ _ (by decide)]
      cases hr : splitC ',' (' ' :: signatureWord ++ '=' :: '"' :: signMessage c commaKey m ++ ['"']) with
      | nil => exact absurd hr (splitC_ne_nil _ _)
      | cons x r => exact ⟨_, _, _, _, _, rfl⟩
    obtain ⟨a, b, c', d', r, hsp⟩ := hsp
    simp only [unpack, hsp]
  rw [hun] at hp
  simp at hp

/-- The date header as it is usually written. -/
def mixedDateName : Str := ['B', 'l', 'u', 'e', 'l', 'i', 'n', 'k', '-', 'D', 'a', 't', 'e']

/-- The condition on the date header in `roundtrip_partial` is needed: listed as `Bluelink-Date`, it
is signed twice but verified once, so that the request is never accepted. -/
theorem mixed_case_date_rejected (c : Crypto) (hc : Lawful c) (hi : Ideal c) (checked : Bool)
    (now : Nat) (skew : Option Nat) :
    ∃ hs' sig, create c ⟨['k'], ['s']⟩ [(dateName, ['1', '0', '0', '0'])] [mixedDateName] 1000 =
        .ok (hs', sig) ∧
      verify c checked [(['k'], ⟨['k'], ['s']⟩)] (insert hs' sigName sig) now skew ≠ .ok () := by
  obtain ⟨m, hm⟩ : ∃ m, createMessage ⟨['k'], ['s']⟩ [(dateName, ['1', '0', '0', '0'])]
      [mixedDateName] = .ok m := ⟨_, rfl⟩
  obtain ⟨m0, hm0⟩ : ∃ m, createMessage ⟨['k'], ['s']⟩ [(dateName, ['1', '0', '0', '0'])]
      [] = .ok m := ⟨_, rfl⟩
  have hne : m ≠ m0 := by
    have h1 : createMessage ⟨['k'], ['s']⟩ [(dateName, ['1', '0', '0', '0'])] [mixedDateName] ≠
        createMessage ⟨['k'], ['s']⟩ [(dateName, ['1', '0', '0', '0'])] [] := by decide
    intro e
    exact h1 (by rw [hm, hm0, e])
  refine ⟨[(dateName, ['1', '0', '0', '0'])],
    headerText ⟨['k'], ['s']⟩ [mixedDateName] (signMessage c ⟨['k'], ['s']⟩ m), ?_, ?_⟩
  · have hw : withDate [(dateName, ['1', '0', '0', '0'])] 1000 = [(dateName, ['1', '0', '0', '0'])] :=
      rfl
    simp only [create, hw, hm]
  · intro hv
    obtain ⟨s, p, kp, m', d, h1, h2, h3, h4, h5, _⟩ := verify_ok _ _ _ _ _ _ hv
    rw [insert_lookup_self] at h1
    simp only [Option.some.injEq] at h1
    subst h1
    rw [unpack_headerText ⟨['k'], ['s']⟩ [mixedDateName] (signMessage c ⟨['k'], ['s']⟩ m) (by decide)
      (by decide)
      ⟨fun e => (alnum_visible _ (hc.alphabet _ _ e)).2.1 rfl,
        fun e => (alnum_visible _ (hc.alphabet _ _ e)).2.2 rfl⟩] at h2
    simp only [Outcome.ok.injEq] at h2
    subst h2
    have hkp : kp = ⟨['k'], ['s']⟩ := by simpa using h3.symm
    subst hkp
    have hmsg : createMessage ⟨['k'], ['s']⟩ (insert [(dateName, ['1', '0', '0', '0'])] sigName
        (headerText ⟨['k'], ['s']⟩ [mixedDateName] (signMessage c ⟨['k'], ['s']⟩ m)))
        (dateName :: [mixedDateName].map lower) = .ok m0 := by
      have hf : (dateName :: [mixedDateName].map lower).filter (fun n => n != dateName) = [] := by
        decide
      have hd : ∀ x, extractDate (insert [(dateName, ['1', '0', '0', '0'])] sigName x) =
          extractDate [(dateName, ['1', '0', '0', '0'])] := by
        intro x
        unfold extractDate
        rw [get_eq, get_eq, lower_dateName, insert_lookup_ne _ _ _ _ (by decide)]
      unfold createMessage at hm0 ⊢
      rw [hd, hf]
      exact hm0
    have h4' : createMessage ⟨['k'], ['s']⟩ (insert [(dateName, ['1', '0', '0', '0'])] sigName
        (headerText ⟨['k'], ['s']⟩ [mixedDateName] (signMessage c ⟨['k'], ['s']⟩ m)))
        (dateName :: [mixedDateName].map lower) = .ok m' := h4
    rw [hmsg] at h4'
    simp only [Outcome.ok.injEq] at h4'
    subst h4'
    have h5' : c.decode (signMessage c ⟨['k'], ['s']⟩ m) = some (c.mac ['s'] m0) := h5
    unfold signMessage at h5'
    rw [hc.roundtrip] at h5'
    simp only [Option.some.injEq] at h5'
    exact hne (hi _ _ _ h5')

/-- **C38, the part that holds.** A request signed with a key pair is accepted by every verifier that
knows the key pair, at every time within the allowed skew of the date, provided that the key id
contains no comma or equals sign and is visible text, that the signature header itself is not among
the signed headers, that the date header, if it is listed, is listed in lower case, and that date and
skew do not overflow 64 bits.

Missing: the excluded key ids (`roundtrip_violated`), names and numbers. -/
theorem roundtrip_partial (c : Crypto) (hc : Lawful c) (checked : Bool) (kp : KeyPair)
    (store : List (Str × KeyPair)) (hs hs' : Headers) (names : List Str)
    (signedAt now d skew : Nat) (sig : Str)
    (hwf : WellFormed hs) (hstore : store.lookup kp.keyId = some kp)
    (hcr : create c kp hs names signedAt = .ok (hs', sig)) (hd : DateIs hs' d)
    (hw : Within now d skew)
    (hk : ',' ∉ kp.keyId ∧ '=' ∉ kp.keyId ∧ kp.keyId.all visible = true)
    (hn : ∀ n ∈ names, lower n ≠ sigName ∧ (lower n = dateName → n = dateName))
    (ho : skew ≤ d ∧ d + skew < u64) :
    verify c checked store (insert hs' sigName sig) now (some skew) = .ok () := by
  have hwf' : WellFormed hs' := by
    unfold create at hcr
    simp only at hcr
    split at hcr
    · simp only [Outcome.ok.injEq, Prod.mk.injEq] at hcr
      rw [← hcr.1]
      unfold withDate
      split
      · intro n v hnv
        simp only [insert, List.mem_cons, Prod.mk.injEq, List.mem_filter] at hnv
        rcases hnv with ⟨rfl, _⟩ | ⟨hnv, _⟩
        · exact dateName_chars
        · exact hwf n v hnv
      · exact hwf
    · simp at hcr
    · simp at hcr
  have hcr' : ∃ m, createMessage kp hs' names = .ok m ∧ sig = headerText kp names (signMessage c kp m) := by
    unfold create at hcr
    simp only at hcr
    split at hcr
    · rename_i m hm
      simp only [Outcome.ok.injEq, Prod.mk.injEq] at hcr
      exact ⟨m, by rw [← hcr.1]; exact hm, hcr.2.symm⟩
    · simp at hcr
    · simp at hcr
  obtain ⟨m, hm, hsig⟩ := hcr'
  -- the signed names are proper names
  have hnames : ∀ n ∈ names, ∀ ch ∈ lower n, nameChar ch = true := by
    obtain ⟨_, listed, _, hl, _⟩ := createMessage_ok kp hs' names m hm
    intro n hnn
    by_cases hdn : n = dateName
    · subst hdn; rw [lower_dateName]; exact dateName_chars
    · obtain ⟨v, hv⟩ := listed_names hs' _ listed hl n (by simp [hnn, hdn])
      exact hwf' _ v (lookup_mem _ _ _ (listed_mem hs' _ listed hl _ hv))
  have henc : ∀ ch ∈ signMessage c kp m, visible ch = true ∧ ch ≠ ',' ∧ ch ≠ '=' :=
    fun ch hch => alnum_visible ch (hc.alphabet _ ch hch)
  have hup := unpack_headerText kp names (signMessage c kp m) ⟨hk.1, hk.2.1⟩ hnames
    ⟨fun h => (henc _ h).2.1 rfl, fun h => (henc _ h).2.2 rfl⟩
  -- the text is visible
  have hjoin : ∀ ps : List Str, (∀ p ∈ ps, ∀ ch ∈ p, nameChar ch = true) →
      (joinC ' ' ps).all visible = true := by
    intro ps
    induction ps with
    | nil => intro _; rfl
    | cons p ps ih =>
      intro hp
      have h1 : p.all visible = true :=
        List.all_eq_true.mpr (fun ch hch => nameChar_visible ch (hp p (by simp) ch hch))
      have hsp : visible ' ' = true := by decide
      cases ps with
      | nil => simpa [joinC] using h1
      | cons q ps =>
        have h2 := ih (fun r hr => hp r (by simp [hr]))
        simp only [joinC, List.all_append, List.all_cons, h1, h2, hsp, Bool.and_self]
  have hvis : sig.all visible = true := by
    rw [hsig]
    have h1 : (signMessage c kp m).all visible = true :=
      List.all_eq_true.mpr (fun ch hch => (henc ch hch).1)
    have h2 : (joinC ' ' (dateName :: names.map lower)).all visible = true := by
      apply hjoin
      intro p hp
      simp only [List.mem_cons, List.mem_map] at hp
      rcases hp with rfl | ⟨n, hnn, rfl⟩
      · exact dateName_chars
      · exact hnames n hnn
    simp only [headerText, List.all_append, List.all_cons, h1, h2, hk.2.2]
    decide
  -- the date is found again
  have hdate : ∀ k, k ≠ sigName → (insert hs' sigName sig).lookup k = hs'.lookup k :=
    fun k hkk => insert_lookup_ne hs' sigName k sig hkk
  have hext : extractDate (insert hs' sigName sig) = extractDate hs' := by
    unfold extractDate
    rw [get_eq, get_eq, lower_dateName, hdate dateName (by decide)]
  have hextok : extractDate hs' = .ok d := by
    obtain ⟨d', _, hd', _, _⟩ := createMessage_ok kp hs' names m hm
    rw [hd', dateIs_unique hs' d' d (extractDate_ok hs' d' hd') hd]
  -- the message is built again
  have hfields : fields (insert hs' sigName sig)
      ((dateName :: names.map lower).filter (fun n => n != dateName)) =
      fields hs' (names.filter (fun n => n != dateName)) ∨
      ∃ e, fields hs' (names.filter (fun n => n != dateName)) = .err e := by
    have : ∀ ns : List Str, (∀ n ∈ ns, n ∈ names) →
        fields (insert hs' sigName sig) ((ns.map lower).filter (fun n => n != dateName)) =
          fields hs' (ns.filter (fun n => n != dateName)) ∨
        ∃ e, fields hs' (ns.filter (fun n => n != dateName)) = .err e := by
      intro ns
      induction ns with
      | nil => intro _; left; rfl
      | cons n ns ih =>
        intro hsub
        have ih' := ih (fun x hx => hsub x (by simp [hx]))
        have hnn := hn n (hsub n (by simp))
        by_cases hdn : n = dateName
        · subst hdn
          simpa [lower_dateName] using ih'
        · have hld : lower n ≠ dateName := fun e => hdn (hnn.2 e)
          have e1 : ((n :: ns).map lower).filter (fun n => n != dateName) =
              lower n :: (ns.map lower).filter (fun n => n != dateName) := by
            simp [hld]
          have e2 : (n :: ns).filter (fun n => n != dateName) =
              n :: ns.filter (fun n => n != dateName) := by
            simp [hdn]
          rw [e1, e2]
          simp only [fields]
          have hll : lower (lower n) = lower n := lower_of_nameChars _ (hnames n (hsub n (by simp)))
          have hget : get (insert hs' sigName sig) (lower n) = get hs' n := by
            rw [get_eq, get_eq, hll, hdate _ hnn.1]
          cases hg : get hs' n with
          | none => right; exact ⟨.customHeadersMissing n, by simp [field, hg]⟩
          | some v =>
            have hf : field (insert hs' sigName sig) (lower n) = field hs' n := by
              simp only [field, hget, hg, hll]
            rw [hf]
            rcases ih' with ih' | ⟨e, ih'⟩
            · rw [ih']; left; rfl
            · right
              rw [ih']
              cases hfn : field hs' n with
              | ok s => exact ⟨e, rfl⟩
              | err e' => exact ⟨e', rfl⟩
              | panic => exact absurd hfn (field_no_panic hs' n)
    simpa using this names (fun n hn => hn)
  have hmsg : createMessage kp (insert hs' sigName sig) (dateName :: names.map lower) = .ok m := by
    rcases hfields with hf | ⟨e, hf⟩
    · unfold createMessage at hm ⊢
      rw [hext, hf]
      exact hm
    · unfold createMessage at hm
      rw [hextok, hf] at hm
      simp at hm
  unfold verify
  have hgs : get (insert hs' sigName sig) sigName = some sig := by
    rw [get_eq, lower_sigName, insert_lookup_self]
  simp only [hgs, toStr, hvis, if_true]
  rw [← hsig] at hup
  rw [hup]
  simp only [hstore, hmsg]
  have hv : verifyMessage c kp m (signMessage c kp m) = true := by
    unfold verifyMessage signMessage
    rw [hc.roundtrip]
    simp
  rw [hv]
  simp only [if_true, hext, hextok, Option.getD_some]
  obtain ⟨h1, h2⟩ := hw
  simp only [checkDate, addU64, subU64, ho.1, ho.2, if_true]
  rw [if_neg (by omega), if_neg (by omega)]

/-- A request with two custom headers, one of them listed in upper case. -/
def exampleHeaders : Headers :=
  [(['x', '-', 'a'], ['1', ' ', '2']), (['x', '-', 'b'], ['t', 'e', 'x', 't'])]

def exampleKey : KeyPair := ⟨['k', '1'], ['s']⟩

def exampleNames : List Str := [['X', '-', 'B'], ['x', '-', 'a']]

example : WellFormed exampleHeaders := by
  intro n v h
  simp only [exampleHeaders, List.mem_cons, Prod.mk.injEq, List.not_mem_nil, or_false] at h
  rcases h with ⟨rfl, _⟩ | ⟨rfl, _⟩ <;> decide

example : ∃ hs' sig, create toy exampleKey exampleHeaders exampleNames 1700000000 = .ok (hs', sig) ∧
    hs'.lookup dateName = some (digits 1700000000) ∧
    (∀ n ∈ exampleNames, lower n ≠ sigName ∧ (lower n = dateName → n = dateName)) :=
  ⟨_, _, rfl, by decide, by decide⟩

/-! ## C39 -/

/-- **C39, authenticity.** If a request is accepted then its signature is the MAC, under the secret
of the key that the request names, of the message made of the key id, the date of the request and
the values it has for all listed headers. -/
theorem accepted_authentic (c : Crypto) (checked : Bool) (store : List (Str × KeyPair))
    (hs : Headers) (now : Nat) (skew : Option Nat)
    (h : verify c checked store hs now skew = .ok ()) :
    ∃ s keyId names sg kp d listed, hs.lookup sigName = some s ∧ HeaderForm s keyId names sg ∧
      store.lookup keyId = some kp ∧ DateIs hs d ∧
      Listed hs (names.filter (fun n => n != dateName)) listed ∧
      c.decode sg = some (c.mac kp.secret (message kp.keyId d listed)) := by
  obtain ⟨s, p, kp, m, d, h1, h2, h3, h4, h5, h6, h7⟩ := verify_ok _ _ _ _ _ _ h
  obtain ⟨d', listed, hd', hl, hm⟩ := createMessage_ok kp hs _ m h4
  exact ⟨s, p.keyId, p.headers, p.signature, kp, d', listed, h1, unpack_ok s p h2, h3,
    extractDate_ok hs d' hd', hl, by rw [h5, hm]⟩

/-- C39 in full, second part: two accepted requests with the same signature header have the same
values for all headers that the signature header lists. -/
def FullTamper (c : Crypto) : Prop :=
  ∀ (checked : Bool) (store : List (Str × KeyPair)) (hs hs' : Headers) (now : Nat) (s : Str)
    (p : Parts), WellFormed hs → WellFormed hs' →
    verify c checked store hs now none = .ok () → verify c checked store hs' now none = .ok () →
    hs.lookup sigName = some s → hs'.lookup sigName = some s → unpack s = .ok p →
    ∀ n ∈ p.headers, get hs n = get hs' n

/-- Two requests with the same message: `x: 1,y=2` and `y: 3`, against `x: 1` and `y: 2,y=3`. -/
def tamper1 : Headers :=
  [(dateName, ['1', '0', '0', '0']), (['x'], ['1', ',', 'y', '=', '2']), (['y'], ['3'])]
def tamper2 : Headers :=
  [(dateName, ['1', '0', '0', '0']), (['x'], ['1']), (['y'], ['2', ',', 'y', '=', '3'])]

/-- **C39 fails**: header values may contain commas, so different requests have the same signature,
whatever the cryptography. -/
theorem tamper_violated (c : Crypto) (hc : Lawful c) : ¬ FullTamper c := by
  intro h
  obtain ⟨m, hm1, hm2⟩ : ∃ m, createMessage exampleKey tamper1 [['x'], ['y']] = .ok m ∧
      createMessage exampleKey tamper2 [['x'], ['y']] = .ok m := ⟨_, rfl, rfl⟩
  let sig := headerText exampleKey [['x'], ['y']] (signMessage c exampleKey m)
  have hcr1 : create c exampleKey tamper1 [['x'], ['y']] 1000 = .ok (tamper1, sig) := by
    have hw : withDate tamper1 1000 = tamper1 := rfl
    simp only [create, hw, hm1, sig]
  have hcr2 : create c exampleKey tamper2 [['x'], ['y']] 1000 = .ok (tamper2, sig) := by
    have hw : withDate tamper2 1000 = tamper2 := rfl
    simp only [create, hw, hm2, sig]
  have wf1 : WellFormed tamper1 := by
    intro n v hnv
    simp only [tamper1, List.mem_cons, Prod.mk.injEq, List.not_mem_nil, or_false] at hnv
    rcases hnv with ⟨rfl, _⟩ | ⟨rfl, _⟩ | ⟨rfl, _⟩ <;> decide
  have wf2 : WellFormed tamper2 := by
    intro n v hnv
    simp only [tamper2, List.mem_cons, Prod.mk.injEq, List.not_mem_nil, or_false] at hnv
    rcases hnv with ⟨rfl, _⟩ | ⟨rfl, _⟩ | ⟨rfl, _⟩ <;> decide
  have wfi : ∀ hs : Headers, WellFormed hs → WellFormed (insert hs sigName sig) := by
    intro hs hwf n v hnv
    simp only [insert, List.mem_cons, Prod.mk.injEq, List.mem_filter] at hnv
    rcases hnv with ⟨rfl, _⟩ | ⟨hnv, _⟩
    · decide
    · exact hwf n v hnv
  have ok1 := roundtrip_partial c hc true exampleKey [(exampleKey.keyId, exampleKey)] tamper1 tamper1
    [['x'], ['y']] 1000 1000 1000 300 sig wf1 (by decide) hcr1 (dateIs_1000 _ (by decide))
    (by constructor <;> decide) (by decide) (by decide) (by decide)
  have ok2 := roundtrip_partial c hc true exampleKey [(exampleKey.keyId, exampleKey)] tamper2 tamper2
    [['x'], ['y']] 1000 1000 1000 300 sig wf2 (by decide) hcr2 (dateIs_1000 _ (by decide))
    (by constructor <;> decide) (by decide) (by decide) (by decide)
  have hup := unpack_headerText exampleKey [['x'], ['y']] (signMessage c exampleKey m) (by decide)
    (by decide)
    ⟨fun e => (alnum_visible _ (hc.alphabet _ _ e)).2.1 rfl,
      fun e => (alnum_visible _ (hc.alphabet _ _ e)).2.2 rfl⟩
  have heq := h true [(exampleKey.keyId, exampleKey)] (insert tamper1 sigName sig)
    (insert tamper2 sigName sig) 1000 sig _ (wfi _ wf1) (wfi _ wf2) ok1 ok2
    (insert_lookup_self _ _ _) (insert_lookup_self _ _ _) hup ['x'] (by
      show ['x'] ∈ dateName :: List.map lower [['x'], ['y']]
      decide)
  rw [get_eq, get_eq, insert_lookup_ne _ _ _ _ (by decide), insert_lookup_ne _ _ _ _ (by decide)]
    at heq
  revert heq
  decide

/-- **C39, the part that holds**: for an ideal MAC, two accepted requests with the same signature
header have the same date and the same values for all listed headers, provided that no header value
other than the signature contains a comma.

Missing: values with commas (`tamper_violated`). -/
theorem tamper_partial (c : Crypto) (hi : Ideal c) (checked checked' : Bool)
    (store : List (Str × KeyPair)) (hs hs' : Headers) (now now' : Nat) (skew skew' : Option Nat)
    (s : Str) (p : Parts) (hwf : WellFormed hs) (hwf' : WellFormed hs')
    (hv : verify c checked store hs now skew = .ok ())
    (hv' : verify c checked' store hs' now' skew' = .ok ())
    (hsig : hs.lookup sigName = some s) (hsig' : hs'.lookup sigName = some s)
    (hp : unpack s = .ok p)
    (hcomma : ∀ n v, hs.lookup n = some v → lower n ∈ p.headers.map lower → ',' ∉ v)
    (hcomma' : ∀ n v, hs'.lookup n = some v → lower n ∈ p.headers.map lower → ',' ∉ v) :
    (∀ d d', DateIs hs d → DateIs hs' d' → d = d') ∧
    ∀ n ∈ p.headers, n ≠ dateName → get hs n = get hs' n := by
  obtain ⟨s1, p1, kp1, m1, d1, a1, a2, a3, a4, a5, a6, _⟩ := verify_ok _ _ _ _ _ _ hv
  obtain ⟨s2, p2, kp2, m2, d2, b1, b2, b3, b4, b5, b6, _⟩ := verify_ok _ _ _ _ _ _ hv'
  rw [hsig] at a1
  rw [hsig'] at b1
  simp only [Option.some.injEq] at a1 b1
  subst a1 b1
  rw [hp] at a2 b2
  simp only [Outcome.ok.injEq] at a2 b2
  subst a2 b2
  rw [a3] at b3
  simp only [Option.some.injEq] at b3
  subst b3
  rw [a5] at b5
  simp only [Option.some.injEq] at b5
  have hmm := hi _ _ _ b5
  subst hmm
  obtain ⟨e1, l1, x1, y1, z1⟩ := createMessage_ok kp1 hs _ m1 a4
  obtain ⟨e2, l2, x2, y2, z2⟩ := createMessage_ok kp1 hs' _ m1 b4
  -- names and values
  have clean : ∀ (h : Headers) (l : List (Str × Str)), WellFormed h →
      Listed h (p.headers.filter (fun n => n != dateName)) l →
      (∀ n v, h.lookup n = some v → lower n ∈ p.headers.map lower → ',' ∉ v) →
      ∀ kv ∈ l, ',' ∉ kv.1 ∧ '=' ∉ kv.1 ∧ ',' ∉ kv.2 := by
    intro h l hw hl hc kv hkv
    have hlk := listed_mem h _ l hl kv hkv
    have hnc := hw _ _ (lookup_mem _ _ _ hlk)
    refine ⟨fun hm => ?_, fun hm => ?_, ?_⟩
    · have := hnc ',' hm; revert this; decide
    · have := hnc '=' hm; revert this; decide
    · apply hc kv.1 kv.2 hlk
      rw [lower_of_nameChars _ hnc]
      have : ∀ (ns : List Str) (l : List (Str × Str)), Listed h ns l → ∀ kv ∈ l, kv.1 ∈ ns.map lower := by
        intro ns
        induction ns with
        | nil => intro l hl kv hkv; cases l with
          | nil => simp at hkv
          | cons _ _ => exact absurd hl id
        | cons n ns ih =>
          intro l hl kv hkv
          match l, hl with
          | (k, v) :: rest, ⟨h1, _, h3⟩ =>
            simp only [List.mem_cons] at hkv
            rcases hkv with rfl | hkv
            · simp [h1]
            · have := ih rest h3 kv hkv
              simp only [List.map_cons, List.mem_cons]
              exact Or.inr this
      have := this _ l hl kv hkv
      simp only [List.mem_map, List.mem_filter] at this ⊢
      obtain ⟨n, ⟨hn, _⟩, he⟩ := this
      exact ⟨n, hn, he⟩
  have c1 := clean hs l1 hwf y1 hcomma
  have c2 := clean hs' l2 hwf' y2 hcomma'
  -- same message
  rw [z1] at z2
  simp only [message, List.append_assoc] at z2
  have z3 := List.append_cancel_left (List.append_cancel_left z2)
  simp only [List.cons_append, List.cons.injEq, true_and] at z3
  have hdig : ∀ d, ',' ∉ digits d := fun d hm => by
    have := digits_isDigit d ',' hm
    revert this; decide
  have split1 : ∀ (d : Nat) (l : List (Str × Str)), (digits d ++ l.flatMap
      (fun kv => (',' :: kv.1) ++ ('=' :: kv.2))).takeWhile (· != ',') = digits d := by
    intro d l
    have : ∀ (a : Str), ',' ∉ a → ∀ b : Str, (b = [] ∨ ∃ t, b = ',' :: t) →
        (a ++ b).takeWhile (· != ',') = a := by
      intro a ha b hb
      induction a with
      | nil => rcases hb with rfl | ⟨t, rfl⟩ <;> simp
      | cons x a ih =>
        simp only [List.mem_cons, not_or] at ha
        simp [Ne.symm ha.1, ih ha.2]
    apply this _ (hdig d)
    cases l with
    | nil => left; rfl
    | cons kv l => right; exact ⟨_, rfl⟩
  have hde : digits e1 = digits e2 := by
    rw [← split1 e1 l1, ← split1 e2 l2]
    simp only [List.cons_append]
    rw [z3]
  have hee := digits_inj _ _ hde
  subst hee
  have hl := flatMap_inj l1 l2 c1 c2 (List.append_cancel_left z3)
  subst hl
  refine ⟨?_, ?_⟩
  · intro d d' h1 h2
    rw [dateIs_unique hs d e1 h1 (extractDate_ok _ _ x1),
      dateIs_unique hs' d' e1 h2 (extractDate_ok _ _ x2)]
  · intro n hn hnd
    obtain ⟨v, hv⟩ := listed_names hs _ l1 y1 n (by simp [hn, hnd])
    rw [get_eq, get_eq, listed_mem hs _ l1 y1 _ hv, listed_mem hs' _ l1 y2 _ hv]

/-- A request that is accepted: the date, two custom headers and their signature. -/
def signedExample : Headers :=
  match create toy exampleKey exampleHeaders exampleNames 1700000000 with
  | .ok (hs, sig) => insert hs sigName sig
  | _ => []

example : verify toy true [(exampleKey.keyId, exampleKey)] signedExample 1700000300 none = .ok () := by
  have hcr : ∃ hs' sig, create toy exampleKey exampleHeaders exampleNames 1700000000 = .ok (hs', sig) ∧
      hs'.lookup dateName = some (digits 1700000000) := ⟨_, _, rfl, by decide⟩
  obtain ⟨hs', sig, hcr, hd⟩ := hcr
  have := roundtrip_partial toy toy_lawful true exampleKey [(exampleKey.keyId, exampleKey)]
    exampleHeaders hs' exampleNames 1700000000 1700000300 1700000000 300 sig
    (by
      intro n v h
      simp only [exampleHeaders, List.mem_cons, Prod.mk.injEq, List.not_mem_nil, or_false] at h
      rcases h with ⟨rfl, _⟩ | ⟨rfl, _⟩ <;> decide)
    (by decide) hcr
    ⟨_, hd, ((parseUnsigned_iff u64 _ _).mp (parseUnsigned_digits u64 1700000000 (by decide))).1,
      by decide⟩
    (by constructor <;> decide) (by decide) (by decide) (by decide)
  simp only [signedExample, hcr]
  exact this

/-! ## C40 -/

/-- **C40.** A request is accepted only if it has a date, the date is a number, and the current time
differs from it by at most the configured skew (five minutes by default); with and without overflow
checks. The accepted date is the one that was signed. -/
theorem accepted_in_window (c : Crypto) (checked : Bool) (store : List (Str × KeyPair))
    (hs : Headers) (now : Nat) (skew : Option Nat) (hnow : now < 2 ^ 64)
    (hskew : ∀ k, skew = some k → k < 2 ^ 64) (h : verify c checked store hs now skew = .ok ()) :
    ∃ d, DateIs hs d ∧ Within now d (skew.getD 300) ∧
      ∃ keyId kp sg listed, store.lookup keyId = some kp ∧
        c.decode sg = some (c.mac kp.secret (message kp.keyId d listed)) := by
  obtain ⟨s, p, kp, m, d, h1, h2, h3, h4, h5, h6, h7⟩ := verify_ok _ _ _ _ _ _ h
  have hdate := extractDate_ok hs d h6
  obtain ⟨d', listed, hd', _, hm⟩ := createMessage_ok kp hs _ m h4
  have hdd : d' = d := by rw [h6] at hd'; simpa using hd'.symm
  subst hdd
  refine ⟨d', hdate, ?_, p.keyId, kp, p.signature, listed, h3, by rw [h5, hm]⟩
  obtain ⟨v, _, _, hb⟩ := hdate
  refine checkDate_ok checked now d' _ hnow hb ?_ h7
  cases skew with
  | none => decide
  | some k => exact hskew k rfl

/-- Consequence: a request whose date is absent or not a number is not accepted. -/
theorem bad_date_rejected (c : Crypto) (checked : Bool) (store : List (Str × KeyPair))
    (hs : Headers) (now : Nat) (skew : Option Nat) (h : ∀ d, ¬ DateIs hs d) :
    verify c checked store hs now skew ≠ .ok () := by
  intro hv
  obtain ⟨_, _, _, _, d, _, _, _, _, _, h6, _⟩ := verify_ok _ _ _ _ _ _ hv
  exact h d (extractDate_ok hs d h6)

example : ∀ d, ¬ DateIs [(dateName, ['1', '2', 'x'])] d := by
  rintro d ⟨v, hv, ht, hb⟩
  simp only [List.lookup_cons, beq_self_eq_true, Option.some.injEq] at hv
  subst hv
  have h1 := (parseUnsigned_iff u64 ['1', '2', 'x'] d).mpr ⟨ht, hb⟩
  have h2 : parseUnsigned u64 ['1', '2', 'x'] = none := by decide
  rw [h2] at h1
  simp at h1

/-- One second too late. -/
example : checkDate true 1301 1000 300 = .err .invalidSignature ∧
    checkDate true 1300 1000 300 = .ok () ∧ checkDate true 700 1000 300 = .ok () ∧
    checkDate true 699 1000 300 = .err .invalidSignature := by decide

/-! ## C41 -/

/-- C41 in full: verification never panics. -/
def FullNoPanic : Prop :=
  ∀ (c : Crypto) (checked : Bool) (store : List (Str × KeyPair)) (hs : Headers) (now : Nat)
    (skew : Option Nat), verify c checked store hs now skew ≠ .panic

/-- `keyId=,headers=,signature=`. -/
def emptyValues : Str :=
  keyIdWord ++ '=' :: ',' :: (headersWord ++ '=' :: ',' :: (signatureWord ++ ['=']))

/-- **C41 fails**: without knowing any key, anybody can make the verifier panic, whatever its keys,
clock, settings and the other headers. -/
theorem anybody_can_crash (c : Crypto) (checked : Bool) (store : List (Str × KeyPair))
    (hs : Headers) (now : Nat) (skew : Option Nat) (h : hs.lookup sigName = some emptyValues) :
    verify c checked store hs now skew = .panic := by
  have h1 : get hs sigName = some emptyValues := by rw [get_eq, lower_sigName, h]
  have h2 : toStr emptyValues = some emptyValues := by decide
  have h3 : unpack emptyValues = .panic := by decide
  simp only [verify, h1, h2, h3]

theorem no_panic_violated : ¬ FullNoPanic := by
  intro h
  exact h toy false [] [(sigName, emptyValues)] 0 none (anybody_can_crash _ _ _ _ _ _ (by decide))

theorem unpackValue_no_panic (word part : Str)
    (h : ∀ pre post, part = pre ++ '=' :: post → 2 ≤ post.length) :
    unpackValue word part ≠ .panic := by
  unfold unpackValue
  split
  · rename_i name value hsp
    split
    · have := h _ _ (splitC_two '=' part name value hsp).1
      unfold unquote
      rw [if_neg (by omega)]
      simp
    · simp
  · simp

/-- **C41, the part that holds**: verification does not panic if in the signature header every equals
sign is followed by at least two characters before the next comma or equals sign, and, when
overflow checks are compiled in, date and skew do not overflow.

Missing: short values (`anybody_can_crash`). -/
theorem no_panic_partial (c : Crypto) (checked : Bool) (store : List (Str × KeyPair))
    (hs : Headers) (now : Nat) (skew : Option Nat)
    (hq : ∀ s, hs.lookup sigName = some s → ValuesQuoted s)
    (ho : checked = true → ∀ d, DateIs hs d → skew.getD 300 ≤ d ∧ d + skew.getD 300 < 2 ^ 64) :
    verify c checked store hs now skew ≠ .panic := by
  intro h
  unfold verify at h
  rw [get_eq, lower_sigName] at h
  split at h
  · simp at h
  · rename_i s hsig
    have hvq := hq s hsig
    simp only [toStr] at h
    split at h
    · simp at h
    · rename_i s' hs'
      split at hs'
      · simp only [Option.some.injEq] at hs'
        subst hs'
        split at h
        · split at h
          · simp at h
          · split at h
            · split at h
              · split at h
                · rename_i d hd
                  cases checked with
                  | true =>
                    have := ho rfl d (extractDate_ok hs d hd)
                    have hsk : skew.getD defaultSkew = skew.getD 300 := rfl
                    rw [hsk] at h
                    have hlt : d + skew.getD 300 < u64 := this.2
                    simp only [checkDate, addU64, subU64, this.1, hlt, if_true] at h
                    split at h
                    · simp at h
                    · split at h <;> simp at h
                  | false =>
                    simp only [checkDate, addU64, subU64, Bool.false_eq_true, if_false] at h
                    split at h
                    · rename_i hx; split at hx <;> simp at hx
                    · split at h
                      · simp at h
                      · split at h
                        · rename_i hx; split at hx <;> simp at hx
                        · split at h <;> simp at h
                · simp at h
                · rename_i hx; exact extractDate_no_panic hs hx
              · simp at h
            · simp at h
            · rename_i hx; exact createMessage_no_panic _ _ _ hx
        · simp at h
        · rename_i hx
          unfold unpack at hx
          split at hx
          · rename_i a b c' hsp
            obtain ⟨hs3, na, nb, nc⟩ := splitC_three ',' s a b c' hsp
            have two : ∀ (pre part suf : Str), s = pre ++ part ++ suf → ',' ∉ part →
                (suf = [] ∨ ∃ t, suf = ',' :: t) →
                ∀ x y, part = x ++ '=' :: y → 2 ≤ y.length := by
              intro pre part suf hsx hn hsuf x y hxy
              obtain ⟨u, v, rest, hr, hu, _, hv, _⟩ := hvq (pre ++ x) (y ++ suf) (by
                rw [hsx, hxy]; simp)
              match y with
              | [] =>
                rcases hsuf with rfl | ⟨t, rfl⟩
                · simp at hr
                · simp at hr; exact absurd hr.1.symm hu
              | [y0] =>
                rcases hsuf with rfl | ⟨t, rfl⟩
                · simp at hr
                · simp at hr; exact absurd hr.2.1.symm hv
              | _ :: _ :: _ => simp
            have ha := unpackValue_no_panic keyIdWord a
              (two [] a (',' :: (b ++ ',' :: c')) (by rw [hs3]; simp) na (Or.inr ⟨_, rfl⟩))
            have hb := unpackValue_no_panic headersWord b
              (two (a ++ [',']) b (',' :: c') (by rw [hs3]; simp) nb (Or.inr ⟨_, rfl⟩))
            have hc := unpackValue_no_panic signatureWord c'
              (two (a ++ ',' :: b ++ [',']) c' [] (by rw [hs3]; simp) nc (Or.inl rfl))
            split at hx
            · split at hx
              · split at hx
                · simp at hx
                · simp at hx
                · rename_i hy; exact hc hy
              · simp at hx
              · rename_i hy
                unfold unpackHeaders at hy
                split at hy
                · simp at hy
                · simp at hy
                · rename_i hz; exact hb hz
            · simp at hx
            · rename_i hy; exact ha hy
          · simp at hx
      · simp at hs'

example : ValuesQuoted ['a', '=', '"', '"'] := by
  intro pre post h
  match pre, h with
  | [], h => simp at h
  | [_], h => simp at h; obtain ⟨_, rfl⟩ := h; exact ⟨'"', '"', [], rfl, by decide⟩
  | [_, _], h => simp at h
  | [_, _, _], h => simp at h
  | _ :: _ :: _ :: _ :: p, h => simp at h

end Verif.Sig
