import Verif.Sig.DocProps

/-!
# C166: a refused request is told what is missing
-/

namespace Verif.Sig.Spec

open Verif Verif.Sig Verif.Text

/-- The word with blanks and tabs around it. -/
def Padded (word w : Str) : Prop :=
  ∃ a b, w = a ++ word ++ b ∧ ∀ ch ∈ a ++ b, ch = ' ' ∨ ch = '\t'

/-- The text of a signature: `keyId="…",headers="…",signature="…"`, with blanks and tabs around the three
words, any characters in place of the quotes, and no other commas and equals signs. -/
def Form (s keyId : Str) (names : List Str) (signature : Str) : Prop :=
  (∃ w1 q1 q2 w2 q3 q4 w3 q5 q6,
    s = w1 ++ '=' :: q1 :: keyId ++ q2 :: ',' :: (w2 ++ '=' :: q3 :: joinC ' ' names ++ q4 :: ',' ::
      (w3 ++ '=' :: q5 :: signature ++ [q6])) ∧
    Padded "keyId".toList w1 ∧ Padded "headers".toList w2 ∧ Padded "signature".toList w3) ∧
  names ≠ [] ∧ (∀ n ∈ names, ' ' ∉ n) ∧ s.count ',' = 2 ∧ s.count '=' = 3

/-- The request has a signature of a known key. -/
def Signed (store : List (Str × KeyPair)) (hs : Headers) (kp : KeyPair) (names : List Str)
    (signature : Str) : Prop :=
  ∃ s keyId, hs.lookup "bluelink-signature-v1".toList = some s ∧ (∀ ch ∈ s, Printable ch) ∧
    Form s keyId names signature ∧ store.lookup keyId = some kp

/-- The request has the header, with a value that can be signed. -/
def Has (hs : Headers) (n : Str) : Prop :=
  n = "bluelink-date".toList ∨
    ∃ v, hs.lookup (n.map Char.toLower) = some v ∧ ∀ ch ∈ v, Printable ch

end Verif.Sig.Spec

namespace Verif.Sig

open Verif Verif.Text Spec

/-! ## Taking the text apart -/

theorem dropWhile_pad (p : Char → Bool) (a w : Str) (ha : ∀ ch ∈ a, p ch = true)
    (hw : ∀ ch, w.head? = some ch → p ch = false) : (a ++ w).dropWhile p = w := by
  induction a with
  | nil =>
    cases w with
    | nil => rfl
    | cons ch w => rw [List.nil_append, List.dropWhile_cons_of_neg (by simp [hw ch rfl])]
  | cons ch a ih =>
    rw [List.cons_append, List.dropWhile_cons_of_pos (ha ch (.head _))]
    exact ih fun c hc => ha c (.tail _ hc)

theorem dropWhile_split (p : Char → Bool) (w : Str) :
    ∃ a, w = a ++ w.dropWhile p ∧ ∀ ch ∈ a, p ch = true := by
  refine ⟨w.takeWhile p, List.takeWhile_append_dropWhile.symm, ?_⟩
  intro ch h
  exact List.all_eq_true.1 (List.all_takeWhile (p := p) (l := w)) ch h

def blank (ch : Char) : Bool := ch == ' ' || ch == '\t'

theorem blank_iff (ch : Char) : blank ch = true ↔ ch = ' ' ∨ ch = '\t' := by simp [blank]

theorem trim_iff (word w : Str) (hne : word ≠ []) (hb : ∀ ch ∈ word, blank ch = false) :
    trim w = word ↔ Padded word w := by
  have ht : trim w = ((w.dropWhile blank).reverse.dropWhile blank).reverse := rfl
  rw [ht]
  constructor
  · intro h
    obtain ⟨a, h1, h2⟩ := dropWhile_split blank w
    obtain ⟨b, h3, h4⟩ := dropWhile_split blank (w.dropWhile blank).reverse
    refine ⟨a, b.reverse, ?_, ?_⟩
    · have h5 := congrArg List.reverse h3
      rw [List.reverse_reverse, List.reverse_append, h] at h5
      rw [List.append_assoc, ← h5]
      exact h1
    · intro ch hch
      rw [List.mem_append, List.mem_reverse] at hch
      rw [← blank_iff]
      exact hch.elim (h2 ch) (h4 ch)
  · rintro ⟨a, b, rfl, h⟩
    have ha : ∀ ch ∈ a, blank ch = true := fun ch hc => (blank_iff ch).2 (h ch (by simp [hc]))
    have hb' : ∀ ch ∈ b.reverse, blank ch = true := fun ch hc =>
      (blank_iff ch).2 (h ch (by simp at hc; simp [hc]))
    rw [List.append_assoc, dropWhile_pad blank a (word ++ b) ha, List.reverse_append,
      dropWhile_pad blank b.reverse word.reverse hb', List.reverse_reverse]
    · intro ch hc
      exact hb ch (List.mem_reverse.1 (List.mem_of_head? hc))
    · intro ch hc
      cases word with
      | nil => exact absurd rfl hne
      | cons c r => cases hc; exact hb _ (.head _)

theorem unpackValue_iff (word part v : Str) (hw : word ≠ []) (hb : ∀ ch ∈ word, blank ch = false) :
    unpackValue word part = .ok v ↔ part.count '=' = 1 ∧
      ∃ w q q', part = w ++ '=' :: q :: v ++ [q'] ∧ Padded word w := by
  constructor
  · intro h
    obtain ⟨w, q, q', h1, h2⟩ := unpackValue_ok word part v h
    refine ⟨?_, w, q, q', h1, (trim_iff word w hw hb).1 h2⟩
    unfold unpackValue at h
    split at h
    · rename_i name value hsp
      obtain ⟨h3, h4, h5⟩ := splitC_two '=' part name value hsp
      rw [h3, List.count_append, List.count_cons_self, List.count_eq_zero.2 h4,
        List.count_eq_zero.2 h5]
    · cases h
  · rintro ⟨hc, w, q, q', rfl, hp⟩
    have hsp : splitC '=' (w ++ '=' :: q :: v ++ [q']) = [w, q :: v ++ [q']] := by
      have h1 : (w ++ '=' :: q :: v ++ [q']) = w ++ '=' :: (q :: v ++ [q']) := by simp
      rw [h1] at hc ⊢
      rw [List.count_append, List.count_cons_self] at hc
      rw [splitC_append '=' w _ (List.count_eq_zero.1 (by omega)),
        splitC_none '=' _ (List.count_eq_zero.1 (by omega))]
    unfold unpackValue
    rw [hsp]
    dsimp only
    rw [if_pos ((trim_iff word w hw hb).2 hp), unquote_quoted]

theorem unpack_iff (s keyId : Str) (names : List Str) (sg : Str) :
    unpack s = .ok ⟨keyId, names, sg⟩ ↔ Form s keyId names sg := by
  have hk := fun part v => unpackValue_iff keyIdWord part v (by decide) (by decide)
  have hh := fun part v => unpackValue_iff headersWord part v (by decide) (by decide)
  have hg := fun part v => unpackValue_iff signatureWord part v (by decide) (by decide)
  rw [keyIdWord_eq] at hk
  rw [headersWord_eq] at hh
  rw [signatureWord_eq] at hg
  unfold Form
  constructor
  · intro h
    obtain ⟨_, _, _, _, _, _, _, _, _, t, _, _, _, _, ht, hn, hne⟩ := unpack_ok s _ h
    dsimp only at ht hn hne
    unfold unpack at h
    rw [keyIdWord_eq, signatureWord_eq] at h
    split at h
    · rename_i a b c hsp
      obtain ⟨hs, na, nb, nc⟩ := splitC_three ',' s a b c hsp
      cases h1 : unpackValue "keyId".toList a with
      | err e => rw [h1] at h; cases h
      | panic => rw [h1] at h; cases h
      | ok k =>
        rw [h1] at h
        cases h2 : unpackHeaders b with
        | err e => rw [h2] at h; cases h
        | panic => rw [h2] at h; cases h
        | ok ns =>
          rw [h2] at h
          cases h3 : unpackValue "signature".toList c with
          | err e => rw [h3] at h; cases h
          | panic => rw [h3] at h; cases h
          | ok g =>
            rw [h3] at h
            cases h
            unfold unpackHeaders at h2
            rw [headersWord_eq] at h2
            cases h4 : unpackValue "headers".toList b with
            | err e => rw [h4] at h2; cases h2
            | panic => rw [h4] at h2; cases h2
            | ok l =>
              rw [h4] at h2
              injection h2 with h2
              obtain ⟨c1, w1, q1, q2, e1, p1⟩ := (hk _ _).1 h1
              obtain ⟨c2, w2, q3, q4, e2, p2⟩ := (hh _ _).1 h4
              obtain ⟨c3, w3, q5, q6, e3, p3⟩ := (hg _ _).1 h3
              refine ⟨⟨w1, q1, q2, w2, q3, q4, w3, q5, q6, ?_, p1, p2, p3⟩, hne, hn, ?_, ?_⟩
              · rw [hs, e1, e2, e3, ← h2, joinC_splitC]
                simp
              · rw [hs]
                simp [List.count_append, List.count_eq_zero.2 na, List.count_eq_zero.2 nb,
                  List.count_eq_zero.2 nc]
              · rw [hs]
                simp [List.count_append, c1, c2, c3]
    · cases h
  · rintro ⟨⟨w1, q1, q2, w2, q3, q4, w3, q5, q6, hs, p1, p2, p3⟩, hne, hn, hc, he⟩
    have hs' : s = (w1 ++ '=' :: q1 :: keyId ++ [q2]) ++ ',' ::
        ((w2 ++ '=' :: q3 :: joinC ' ' names ++ [q4]) ++ ',' :: (w3 ++ '=' :: q5 :: sg ++ [q6])) := by
      rw [hs]
      simp
    have count_part : ∀ (w : Str) (q : Char) (v : Str) (q' : Char),
        1 ≤ (w ++ '=' :: q :: v ++ [q']).count '=' := by
      intro w q v q'
      rw [List.append_assoc, List.count_append, List.cons_append, List.count_cons_self]
      omega
    have k1 := count_part w1 q1 keyId q2
    have k2 := count_part w2 q3 (joinC ' ' names) q4
    have k3 := count_part w3 q5 sg q6
    generalize ha : w1 ++ '=' :: q1 :: keyId ++ [q2] = a at hs' k1
    generalize hb : w2 ++ '=' :: q3 :: joinC ' ' names ++ [q4] = b at hs' k2
    generalize hd : w3 ++ '=' :: q5 :: sg ++ [q6] = d at hs' k3
    have x1 := List.count_append (a := ',') (l₁ := a) (l₂ := ',' :: (b ++ ',' :: d))
    have x2 := List.count_append (a := ',') (l₁ := b) (l₂ := ',' :: d)
    have y1 := List.count_append (a := '=') (l₁ := a) (l₂ := ',' :: (b ++ ',' :: d))
    have y2 := List.count_append (a := '=') (l₁ := b) (l₂ := ',' :: d)
    rw [List.count_cons_self] at x1 x2
    rw [List.count_cons_of_ne (by decide)] at y1 y2
    rw [hs'] at hc he
    have ca : a.count ',' = 0 := by omega
    have cb : b.count ',' = 0 := by omega
    have cd : d.count ',' = 0 := by omega
    have u1 := (hk a keyId).2 ⟨by omega, w1, q1, q2, ha.symm, p1⟩
    have u2 := (hh b (joinC ' ' names)).2 ⟨by omega, w2, q3, q4, hb.symm, p2⟩
    have u3 := (hg d sg).2 ⟨by omega, w3, q5, q6, hd.symm, p3⟩
    unfold unpack
    rw [hs', splitC_append ',' a _ (List.count_eq_zero.1 ca),
      splitC_append ',' b _ (List.count_eq_zero.1 cb), splitC_none ',' d (List.count_eq_zero.1 cd)]
    dsimp only
    rw [keyIdWord_eq, u1]
    dsimp only
    unfold unpackHeaders
    rw [headersWord_eq, u2]
    dsimp only
    rw [signatureWord_eq, u3, splitC_joinC ' ' names hne hn]

/-! ## Missing headers -/

theorem fields_missing (hs : Headers) (names : List Str) (n : Str) :
    fields hs names = .err (.customHeadersMissing n) ↔
      ∃ pre post, names = pre ++ n :: post ∧ hs.lookup (lower n) = none ∧
        ∀ k ∈ pre, ∃ v, hs.lookup (lower k) = some v ∧ v.all visible = true := by
  induction names with
  | nil => simp [fields]
  | cons k ns ih =>
    rw [fields]
    cases hl : hs.lookup (lower k) with
    | none =>
      have hf : field hs k = .err (.customHeadersMissing k) := by
        simp only [field, get_eq, hl]
      rw [hf]
      constructor
      · intro h
        injection h with h
        injection h with h
        subst h
        exact ⟨[], ns, rfl, hl, by simp⟩
      · rintro ⟨pre, post, h1, h2, h3⟩
        cases pre with
        | nil => injection h1 with h1 _; rw [h1]
        | cons a pre =>
          injection h1 with h1 _
          obtain ⟨v, hv, _⟩ := h3 a (.head _)
          rw [← h1, hl] at hv
          cases hv
    | some v =>
      by_cases hv : v.all visible = true
      · have hf : field hs k = .ok (',' :: lower k ++ '=' :: v) := (field_ok hs k _).2 ⟨v, hl, hv, rfl⟩
        rw [hf]
        dsimp only
        have hm : (∃ pre post, k :: ns = pre ++ n :: post ∧ hs.lookup (lower n) = none ∧
            ∀ k ∈ pre, ∃ v, hs.lookup (lower k) = some v ∧ v.all visible = true) ↔
            ∃ pre post, ns = pre ++ n :: post ∧ hs.lookup (lower n) = none ∧
            ∀ k ∈ pre, ∃ v, hs.lookup (lower k) = some v ∧ v.all visible = true := by
          constructor
          · rintro ⟨pre, post, h1, h2, h3⟩
            cases pre with
            | nil => injection h1 with h1 _; rw [← h1, hl] at h2; cases h2
            | cons a pre =>
              injection h1 with _ h1
              exact ⟨pre, post, h1, h2, fun x hx => h3 x (.tail _ hx)⟩
          · rintro ⟨pre, post, h1, h2, h3⟩
            refine ⟨k :: pre, post, by rw [h1]; rfl, h2, ?_⟩
            intro x hx
            rcases List.mem_cons.1 hx with rfl | hx
            · exact ⟨v, hl, hv⟩
            · exact h3 x hx
        rw [hm, ← ih]
        cases fields hs ns <;> simp
      · have hf : field hs k = .err .invalidCustomHeader := by
          simp only [field, get_eq, hl, toStr, if_neg hv]
        rw [hf]
        constructor
        · intro h
          injection h with h
          cases h
        · rintro ⟨pre, post, h1, h2, h3⟩
          cases pre with
          | nil => injection h1 with h1 _; rw [← h1, hl] at h2; cases h2
          | cons a pre =>
            injection h1 with h1 _
            obtain ⟨w, hw, hv'⟩ := h3 a (.head _)
            rw [← h1, hl] at hw
            cases hw
            exact absurd hv' hv

theorem filter_first {p : Str → Bool} {n : Str} (P : Str → Prop) (names : List Str) :
    (∃ pre post, names.filter p = pre ++ n :: post ∧ ∀ k ∈ pre, P k) ↔
      ∃ pre post, names = pre ++ n :: post ∧ p n = true ∧ ∀ k ∈ pre, p k = true → P k := by
  induction names with
  | nil => simp
  | cons k ns ih =>
    by_cases hk : p k = true
    · rw [List.filter_cons_of_pos hk]
      constructor
      · rintro ⟨pre, post, h1, h2⟩
        cases pre with
        | nil =>
          injection h1 with h1 _
          exact ⟨[], ns, by rw [h1]; rfl, h1 ▸ hk, by simp⟩
        | cons a pre =>
          injection h1 with h1 h1'
          obtain ⟨pre', post', e1, e2, e3⟩ := ih.1 ⟨pre, post, h1', fun x hx => h2 x (.tail _ hx)⟩
          refine ⟨k :: pre', post', by rw [e1]; rfl, e2, ?_⟩
          intro x hx hp
          rcases List.mem_cons.1 hx with rfl | hx
          · exact h1 ▸ h2 a (.head _)
          · exact e3 x hx hp
      · rintro ⟨pre, post, h1, h2, h3⟩
        cases pre with
        | nil =>
          injection h1 with h1 h1'
          exact ⟨[], ns.filter p, by rw [h1]; rfl, by simp⟩
        | cons a pre =>
          injection h1 with h1 h1'
          obtain ⟨pre', post', e1, e2⟩ := ih.2 ⟨pre, post, h1', h2, fun x hx => h3 x (.tail _ hx)⟩
          refine ⟨k :: pre', post', by rw [e1]; rfl, ?_⟩
          intro x hx
          rcases List.mem_cons.1 hx with rfl | hx
          · exact h3 x (h1 ▸ .head _) hk
          · exact e2 x hx
    · rw [List.filter_cons_of_neg hk, ih]
      constructor
      · rintro ⟨pre, post, h1, h2, h3⟩
        refine ⟨k :: pre, post, by rw [h1]; rfl, h2, ?_⟩
        intro x hx hp
        rcases List.mem_cons.1 hx with rfl | hx
        · exact absurd hp hk
        · exact h3 x hx hp
      · rintro ⟨pre, post, h1, h2, h3⟩
        cases pre with
        | nil => injection h1 with h1 _; exact absurd h2 (h1 ▸ hk)
        | cons a pre =>
          injection h1 with _ h1
          exact ⟨pre, post, h1, h2, fun x hx => h3 x (.tail _ hx)⟩

/-! ## Theorems -/

theorem printable_all (v : Str) : v.all visible = true ↔ ∀ ch ∈ v, Printable ch := by
  simp only [List.all_eq_true, visible_iff]

theorem extractDate_missing (hs : Headers) :
    extractDate hs = .err .dateMissing ↔ hs.lookup "bluelink-date".toList = none := by
  rw [← dateName_eq]
  unfold extractDate
  rw [get_eq, lower_dateName]
  cases hs.lookup dateName with
  | none => simp
  | some v =>
    simp only [toStr]
    by_cases h : v.all visible = true
    · rw [if_pos h]
      dsimp only
      cases parseUnsigned u64 v <;> simp
    · rw [if_neg h]
      simp

theorem extractDate_err (hs : Headers) (e : Err) (h : extractDate hs = .err e) :
    e = .dateMissing ∨ e = .invalidSignature := by
  unfold extractDate at h
  (repeat' split at h) <;> simp_all

theorem fields_err (hs : Headers) (names : List Str) (e : Err) (h : fields hs names = .err e) :
    e = .invalidCustomHeader ∨ ∃ n, e = .customHeadersMissing n := by
  induction names with
  | nil => cases h
  | cons k ns ih =>
    rw [fields] at h
    cases hf : field hs k with
    | ok a =>
      rw [hf] at h
      dsimp only at h
      cases hr : fields hs ns with
      | ok t => rw [hr] at h; cases h
      | err e' => rw [hr] at h; injection h with h; exact ih (h ▸ hr)
      | panic => rw [hr] at h; cases h
    | err e' =>
      rw [hf] at h
      injection h with h
      subst h
      unfold field at hf
      split at hf
      · split at hf
        · injection hf with hf; exact .inl hf.symm
        · cases hf
      · injection hf with hf; exact .inr ⟨k, hf.symm⟩
    | panic => rw [hf] at h; cases h

/-- What verification comes to when the request has a signature of a known key. -/
def afterwards (c : Crypto) (checked : Bool) (hs : Headers) (now : Nat) (skew : Option Nat)
    (kp : KeyPair) (names : List Str) (sg : Str) : Outcome Err Unit :=
  match createMessage kp hs names with
  | .ok message =>
    if verifyMessage c kp message sg then
      match extractDate hs with
      | .ok date => checkDate checked now date (skew.getD defaultSkew)
      | .err e => .err e
      | .panic => .panic
    else .err .invalidSignature
  | .err e => .err e.verification
  | .panic => .panic

theorem verify_cases (c : Crypto) (checked : Bool) (store : List (Str × KeyPair)) (hs : Headers)
    (now : Nat) (skew : Option Nat) :
    (hs.lookup "bluelink-signature-v1".toList = none ∧
      verify c checked store hs now skew = .err .signatureMissing) ∨
    (hs.lookup "bluelink-signature-v1".toList ≠ none ∧ (∀ kp names sg, ¬ Signed store hs kp names sg) ∧
      (verify c checked store hs now skew = .err .invalidSignature ∨
        verify c checked store hs now skew = .panic)) ∨
    (hs.lookup "bluelink-signature-v1".toList ≠ none ∧ ∃ kp names sg,
      Signed store hs kp names sg ∧
      (∀ kp' names' sg', Signed store hs kp' names' sg' → kp' = kp ∧ names' = names ∧ sg' = sg) ∧
      verify c checked store hs now skew = afterwards c checked hs now skew kp names sg) := by
  unfold Signed
  rw [← sigName_eq]
  unfold verify afterwards
  rw [get_eq, lower_sigName]
  cases hs.lookup sigName with
  | none => exact .inl ⟨rfl, rfl⟩
  | some s =>
    refine .inr ?_
    simp only [toStr]
    by_cases hp : s.all visible = true
    · rw [if_pos hp]
      dsimp only
      cases hu : unpack s with
      | ok p =>
        have hform := (unpack_iff s p.keyId p.headers p.signature).1 hu
        dsimp only
        cases hk : store.lookup p.keyId with
        | none =>
          refine .inl ⟨nofun, ?_, .inl rfl⟩
          rintro kp names sg ⟨s', keyId, h1, _, h2, h3⟩
          injection h1 with h1
          subst h1
          have h4 := (unpack_iff s keyId names sg).2 h2
          rw [hu] at h4
          injection h4 with h4
          rw [h4] at hk
          rw [hk] at h3
          cases h3
        | some kp =>
          refine .inr ⟨nofun, kp, p.headers, p.signature,
            ⟨s, p.keyId, rfl, (printable_all s).1 hp, hform, hk⟩, ?_, rfl⟩
          rintro kp' names sg ⟨s', keyId, h1, _, h2, h3⟩
          injection h1 with h1
          subst h1
          have h4 := (unpack_iff s keyId names sg).2 h2
          rw [hu] at h4
          injection h4 with h4
          subst h4
          rw [hk] at h3
          injection h3 with h3
          exact ⟨h3.symm, rfl, rfl⟩
      | err e =>
        have he : e = .invalidSignature := by
          have uv : ∀ w q x, unpackValue w q = .err x → x = .invalidSignature := by
            intro w q x hx
            unfold unpackValue unquote at hx
            (repeat' split at hx) <;> simp_all
          have uh : ∀ q x, unpackHeaders q = .err x → x = .invalidSignature := by
            intro q x hx
            unfold unpackHeaders at hx
            split at hx
            · cases hx
            · rename_i y hy; injection hx with hx; exact hx ▸ uv _ _ _ hy
            · cases hx
          unfold unpack at hu
          split at hu
          · split at hu
            · split at hu
              · split at hu
                · cases hu
                · rename_i y hy; injection hu with hu; exact hu ▸ uv _ _ _ hy
                · cases hu
              · rename_i y hy; injection hu with hu; exact hu ▸ uh _ _ hy
              · cases hu
            · rename_i y hy; injection hu with hu; exact hu ▸ uv _ _ _ hy
            · cases hu
          · injection hu with hu; exact hu.symm
        refine .inl ⟨nofun, ?_, .inl (by rw [he])⟩
        rintro kp names sg ⟨s', keyId, h1, _, h2, _⟩
        injection h1 with h1
        subst h1
        rw [(unpack_iff s keyId names sg).2 h2] at hu
        cases hu
      | panic =>
        refine .inl ⟨nofun, ?_, .inr rfl⟩
        rintro kp names sg ⟨s', keyId, h1, _, h2, _⟩
        injection h1 with h1
        subst h1
        rw [(unpack_iff s keyId names sg).2 h2] at hu
        cases hu
    · rw [if_neg hp]
      refine .inl ⟨nofun, ?_, .inl rfl⟩
      rintro kp names sg ⟨s', keyId, h1, h2, _, _⟩
      injection h1 with h1
      subst h1
      exact hp ((printable_all s).2 h2)

theorem checkDate_err (checked : Bool) (now d skew : Nat) (e : Err)
    (h : checkDate checked now d skew = .err e) : e = .invalidSignature := by
  unfold checkDate at h
  (repeat' split at h) <;> simp_all

theorem missing_iff (hs : Headers) (names : List Str) (n : Str) :
    fields hs (names.filter fun k => k != dateName) = .err (.customHeadersMissing n) ↔
      ∃ pre post, names = pre ++ n :: post ∧ n ≠ "bluelink-date".toList ∧
        hs.lookup (n.map Char.toLower) = none ∧ ∀ k ∈ pre, Has hs k := by
  rw [fields_missing]
  have h := filter_first (p := fun k => k != dateName) (n := n)
    (fun k => ∃ v, hs.lookup (lower k) = some v ∧ v.all visible = true) names
  have hh : ∀ k, Has hs k ↔ ((k != dateName) = true →
      ∃ v, hs.lookup (lower k) = some v ∧ v.all visible = true) := by
    intro k
    unfold Has
    rw [← dateName_eq]
    simp only [bne_iff_ne, ne_eq, printable_all]
    by_cases hk : k = dateName
    · simp [hk]
    · simp only [hk, false_or, not_false_eq_true, true_implies]
      exact Iff.rfl
  simp only [hh, ← dateName_eq]
  constructor
  · rintro ⟨pre, post, h1, h2, h3⟩
    obtain ⟨pre', post', e1, e2, e3⟩ := h.1 ⟨pre, post, h1, h3⟩
    exact ⟨pre', post', e1, by simpa using e2, h2, e3⟩
  · rintro ⟨pre, post, h1, h2, h3, h4⟩
    obtain ⟨pre', post', e1, e2⟩ := h.2 ⟨pre, post, h1, by simpa using h2, h4⟩
    exact ⟨pre', post', e1, h3, e2⟩

theorem createMessage_err (kp : KeyPair) (hs : Headers) (names : List Str) (e : Err)
    (h : createMessage kp hs names = .err e) :
    (e = .dateMissing ∧ extractDate hs = .err .dateMissing) ∨ e = .unknown ∨
      e = .invalidCustomHeader ∨ ∃ n, e = .customHeadersMissing n ∧ (∃ d, extractDate hs = .ok d) ∧
        fields hs (names.filter fun k => k != dateName) = .err (.customHeadersMissing n) := by
  unfold createMessage at h
  cases hd : extractDate hs with
  | ok d =>
    rw [hd] at h
    dsimp only at h
    cases hf : fields hs (names.filter fun k => k != dateName) with
    | ok t => rw [hf] at h; cases h
    | err e' =>
      rw [hf] at h
      injection h with h
      subst h
      rcases fields_err _ _ _ hf with rfl | ⟨n, rfl⟩
      · exact .inr (.inr (.inl rfl))
      · exact .inr (.inr (.inr ⟨n, rfl, ⟨d, rfl⟩, rfl⟩))
    | panic => rw [hf] at h; cases h
  | err e' =>
    rw [hd] at h
    injection h with h
    subst h
    rcases extractDate_err _ _ hd with rfl | rfl
    · exact .inl ⟨rfl, rfl⟩
    · exact .inr (.inl rfl)
  | panic => rw [hd] at h; cases h

theorem afterwards_err (c : Crypto) (checked : Bool) (hs : Headers) (now : Nat) (skew : Option Nat)
    (kp : KeyPair) (names : List Str) (sg : Str) (e : Err)
    (h : afterwards c checked hs now skew kp names sg = .err e) :
    (e = .dateMissing ∧ extractDate hs = .err .dateMissing) ∨ e = .invalidSignature ∨
      ∃ n, e = .customHeadersMissing n ∧ (∃ d, extractDate hs = .ok d) ∧
        fields hs (names.filter fun k => k != dateName) = .err (.customHeadersMissing n) := by
  unfold afterwards at h
  cases hm : createMessage kp hs names with
  | ok m =>
    rw [hm] at h
    dsimp only at h
    split at h
    · cases hd : extractDate hs with
      | ok d => rw [hd] at h; exact .inr (.inl (checkDate_err _ _ _ _ _ h))
      | err e' =>
        rw [hd] at h
        injection h with h
        subst h
        rcases extractDate_err _ _ hd with rfl | rfl
        · exact .inl ⟨rfl, rfl⟩
        · exact .inr (.inl rfl)
      | panic => rw [hd] at h; cases h
    · injection h with h; exact .inr (.inl h.symm)
  | err e' =>
    rw [hm] at h
    injection h with h
    subst h
    rcases createMessage_err _ _ _ _ hm with ⟨rfl, h⟩ | rfl | rfl | ⟨n, rfl, h⟩
    · exact .inl ⟨rfl, h⟩
    · exact .inr (.inl rfl)
    · exact .inr (.inl rfl)
    · exact .inr (.inr ⟨n, rfl, h⟩)
  | panic => rw [hm] at h; cases h

/-- C166: the errors that name something missing are given exactly when that is missing, in the order
signature, date and the signed headers one by one; all other refusals are for an invalid signature. -/
theorem refusals (c : Crypto) (checked : Bool) (store : List (Str × KeyPair)) (hs : Headers)
    (now : Nat) (skew : Option Nat) :
    (verify c checked store hs now skew = .err .signatureMissing ↔
      hs.lookup "bluelink-signature-v1".toList = none) ∧
    (verify c checked store hs now skew = .err .dateMissing ↔
      (∃ kp names sg, Signed store hs kp names sg) ∧ hs.lookup "bluelink-date".toList = none) ∧
    (∀ n, verify c checked store hs now skew = .err (.customHeadersMissing n) ↔
      ∃ kp names sg d pre post, Signed store hs kp names sg ∧ DateIs hs d ∧
        names = pre ++ n :: post ∧ n ≠ "bluelink-date".toList ∧
        hs.lookup (n.map Char.toLower) = none ∧ ∀ k ∈ pre, Has hs k) ∧
    (∀ e, verify c checked store hs now skew = .err e →
      e = .signatureMissing ∨ e = .dateMissing ∨ (∃ n, e = .customHeadersMissing n) ∨
        e = .invalidSignature) := by
  rcases verify_cases c checked store hs now skew with ⟨hn, hv⟩ | ⟨hn, hns, hv⟩ |
    ⟨hn, kp, names, sg, hsig, huniq, hv⟩
  · have no : ∀ kp names sg, ¬ Signed store hs kp names sg := by
      rintro kp names sg ⟨s, keyId, h1, _⟩
      rw [hn] at h1
      cases h1
    rw [hv]
    refine ⟨⟨fun _ => hn, fun _ => rfl⟩, ?_, ?_, ?_⟩
    · constructor
      · intro h; injection h with h; cases h
      · rintro ⟨⟨kp, names, sg, h⟩, _⟩; exact absurd h (no _ _ _)
    · intro n
      constructor
      · intro h; injection h with h; cases h
      · rintro ⟨kp, names, sg, _, _, _, h, _⟩; exact absurd h (no _ _ _)
    · intro e h; injection h with h; exact .inl h.symm
  · refine ⟨?_, ?_, ?_, ?_⟩
    · constructor
      · intro h; rcases hv with hv | hv <;> rw [hv] at h <;> cases h
      · intro h; exact absurd h hn
    · constructor
      · intro h; rcases hv with hv | hv <;> rw [hv] at h <;> cases h
      · rintro ⟨⟨kp, names, sg, h⟩, _⟩; exact absurd h (hns _ _ _)
    · intro n
      constructor
      · intro h; rcases hv with hv | hv <;> rw [hv] at h <;> cases h
      · rintro ⟨kp, names, sg, _, _, _, h, _⟩; exact absurd h (hns _ _ _)
    · intro e h
      rcases hv with hv | hv <;> rw [hv] at h
      · injection h with h; exact .inr (.inr (.inr h.symm))
      · cases h
  · rw [hv]
    refine ⟨?_, ?_, ?_, ?_⟩
    · constructor
      · intro h
        rcases afterwards_err _ _ _ _ _ _ _ _ _ h with ⟨h, _⟩ | h | ⟨n, h, _⟩ <;> cases h
      · intro h; exact absurd h hn
    · constructor
      · intro h
        rcases afterwards_err _ _ _ _ _ _ _ _ _ h with ⟨_, h⟩ | h | ⟨n, h, _⟩
        · exact ⟨⟨kp, names, sg, hsig⟩, (extractDate_missing hs).1 h⟩
        · cases h
        · cases h
      · rintro ⟨_, h⟩
        have hd := (extractDate_missing hs).2 h
        simp only [afterwards, createMessage, hd, Err.creation, Err.verification]
    · intro n
      constructor
      · intro h
        rcases afterwards_err _ _ _ _ _ _ _ _ _ h with ⟨h, _⟩ | h | ⟨n', h, ⟨d, hd⟩, hf⟩
        · cases h
        · cases h
        · injection h with h
          subst h
          obtain ⟨pre, post, h1, h2, h3, h4⟩ := (missing_iff hs names n).1 hf
          exact ⟨kp, names, sg, d, pre, post, hsig, (extractDate_iff hs d).1 hd, h1, h2, h3, h4⟩
      · rintro ⟨kp', names', sg', d, pre, post, hs', hd, h⟩
        obtain ⟨rfl, rfl, rfl⟩ := huniq _ _ _ hs'
        have hf := (missing_iff hs names' n).2 ⟨pre, post, h⟩
        simp only [afterwards, createMessage, (extractDate_iff hs d).2 hd, hf, Err.verification]
    · intro e h
      rcases afterwards_err _ _ _ _ _ _ _ _ _ h with ⟨h, _⟩ | h | ⟨n, h, _⟩
      · exact .inr (.inl h)
      · exact .inr (.inr (.inr h))
      · exact .inr (.inr (.inl ⟨n, h⟩))

/-- When a request is accepted, whatever the check of the date is. -/
theorem accepted_gen (c : Crypto) (checked : Bool) (store : List (Str × KeyPair)) (hs : Headers)
    (now : Nat) (skew : Option Nat) (P : Nat → Prop)
    (hwin : ∀ d, DateIs hs d → (checkDate checked now d (skew.getD 300) = .ok () ↔ P d)) :
    verify c checked store hs now skew = .ok () ↔
      ∃ kp names sg d listed, Signed store hs kp names sg ∧ DateIs hs d ∧ (∀ n ∈ names, Has hs n) ∧
        Listed hs (names.filter fun n => n != "bluelink-date".toList) listed ∧
        c.decode sg = some (c.mac kp.secret (message kp.keyId d listed)) ∧ P d := by
  have hskew : skew.getD defaultSkew = skew.getD 300 := rfl
  have hhas : ∀ names : List Str, (∀ n ∈ names, Has hs n) ↔
      ∃ t, fields hs (names.filter fun n => n != dateName) = .ok t := by
    intro names
    rw [fields_ok_iff]
    unfold Has
    rw [← dateName_eq]
    simp only [List.mem_filter, bne_iff_ne, ne_eq, printable_all]
    constructor
    · intro h n hn
      exact (h n hn.1).resolve_left hn.2
    · intro h n hn
      by_cases hk : n = dateName
      · exact .inl hk
      · exact .inr (h n ⟨hn, hk⟩)
  rw [← dateName_eq]
  rcases verify_cases c checked store hs now skew with ⟨hn, hv⟩ | ⟨hn, hns, hv⟩ |
    ⟨hn, kp, names, sg, hsig, huniq, hv⟩
  · rw [hv]
    constructor
    · nofun
    · rintro ⟨kp, names, sg, _, _, ⟨s, keyId, h1, _⟩, _⟩
      rw [hn] at h1
      cases h1
  · constructor
    · intro h
      rcases hv with hv | hv <;> rw [hv] at h <;> cases h
    · rintro ⟨kp, names, sg, _, _, h, _⟩
      exact absurd h (hns _ _ _)
  · rw [hv]
    constructor
    · intro h
      unfold afterwards at h
      rw [hskew] at h
      cases hm : createMessage kp hs names with
      | ok m =>
        rw [hm] at h
        dsimp only at h
        split at h
        · rename_i hver
          obtain ⟨d, listed, hd, hl, hmm⟩ := createMessage_ok kp hs names m hm
          rw [hd] at h
          have hdi := (extractDate_iff hs d).1 hd
          refine ⟨kp, names, sg, d, listed, hsig, hdi, ?_, hl, ?_, (hwin d hdi).1 h⟩
          · rw [hhas]
            unfold createMessage at hm
            rw [hd] at hm
            dsimp only at hm
            cases hf : fields hs (names.filter fun n => n != dateName) with
            | ok t => exact ⟨t, rfl⟩
            | err e => rw [hf] at hm; cases hm
            | panic => rw [hf] at hm; cases hm
          · unfold verifyMessage at hver
            split at hver
            · cases hver
            · rename_i b hb
              rw [hb, ← hmm]
              simpa using hver
        · cases h
      | err e => rw [hm] at h; cases h
      | panic => rw [hm] at h; cases h
    · rintro ⟨kp', names', sg', d, listed, hs', hd, hh, hl, hdec, hw⟩
      obtain ⟨rfl, rfl, rfl⟩ := huniq _ _ _ hs'
      obtain ⟨t, ht⟩ := (hhas names').1 hh
      have hdx := (extractDate_iff hs d).2 hd
      have hm : createMessage kp' hs names' = .ok (kp'.keyId ++ ',' :: dateName ++ '=' :: digits d ++ t) := by
        simp only [createMessage, hdx, ht]
      obtain ⟨d', listed', hd', hl', hmm⟩ := createMessage_ok kp' hs names' _ hm
      rw [hdx] at hd'
      injection hd' with hd'
      subst hd'
      have hll : listed' = listed := by
        have key : ∀ (ns : List Str) (a b : List (Str × Str)), Listed hs ns a → Listed hs ns b → a = b := by
          intro ns
          induction ns with
          | nil =>
            intro a b ha hb
            cases a with
            | nil => cases b with
              | nil => rfl
              | cons _ _ => exact hb.elim
            | cons _ _ => exact ha.elim
          | cons n ns ih =>
            intro a b ha hb
            cases a with
            | nil => exact ha.elim
            | cons x a => cases b with
              | nil => exact hb.elim
              | cons y b =>
                obtain ⟨k1, v1⟩ := x
                obtain ⟨k2, v2⟩ := y
                obtain ⟨p1, p2, p3⟩ := ha
                obtain ⟨r1, r2, r3⟩ := hb
                subst p1
                subst r1
                rw [p2] at r2
                injection r2 with r2
                rw [r2, ih a b p3 r3]
        exact key _ _ _ hl' hl
      unfold afterwards
      rw [hm, hskew]
      dsimp only
      rw [hdx, if_pos (by rw [hmm, hll]; simp [verifyMessage, hdec])]
      exact (hwin d hd).2 hw

/-- When a request is accepted, without any gap: it has the signature of a known key, a date, all signed
headers, the signature is right, and the date is in the window. The date must be later than the skew and
such that adding the skew does not overflow. -/
theorem accepted_iff (c : Crypto) (checked : Bool) (store : List (Str × KeyPair)) (hs : Headers)
    (now : Nat) (skew : Option Nat)
    (ho : ∀ d, DateIs hs d → skew.getD 300 ≤ d ∧ d + skew.getD 300 < 2 ^ 64) :
    verify c checked store hs now skew = .ok () ↔
      ∃ kp names sg d listed, Signed store hs kp names sg ∧ DateIs hs d ∧ (∀ n ∈ names, Has hs n) ∧
        Listed hs (names.filter fun n => n != "bluelink-date".toList) listed ∧
        c.decode sg = some (c.mac kp.secret (message kp.keyId d listed)) ∧
        Within now d (skew.getD 300) := by
  refine accepted_gen c checked store hs now skew _ fun d hd => ?_
  obtain ⟨h1, h2⟩ := ho d hd
  have h2' : d + skew.getD 300 < u64 := h2
  unfold checkDate addU64 subU64 Within
  rw [if_pos h2', if_pos h1]
  dsimp only
  by_cases ha : now > d + skew.getD 300
  · rw [if_pos ha]
    constructor
    · nofun
    · omega
  · rw [if_neg ha]
    by_cases hb : now < d - skew.getD 300
    · rw [if_pos hb]
      constructor
      · nofun
      · omega
    · rw [if_neg hb]
      simp only [true_iff]
      omega

/-- The same for all dates: built with overflow checks, dates next to the ends of the range are never
accepted. -/
theorem accepted_checked_iff (c : Crypto) (store : List (Str × KeyPair)) (hs : Headers) (now : Nat)
    (skew : Option Nat) :
    verify c true store hs now skew = .ok () ↔
      ∃ kp names sg d listed, Signed store hs kp names sg ∧ DateIs hs d ∧ (∀ n ∈ names, Has hs n) ∧
        Listed hs (names.filter fun n => n != "bluelink-date".toList) listed ∧
        c.decode sg = some (c.mac kp.secret (message kp.keyId d listed)) ∧
        (skew.getD 300 ≤ d ∧ d + skew.getD 300 < 2 ^ 64 ∧ Within now d (skew.getD 300)) := by
  refine accepted_gen c true store hs now skew _ fun d _ => ?_
  generalize skew.getD 300 = k
  unfold checkDate addU64 subU64 Within
  have e : u64 = 2 ^ 64 := rfl
  rw [e]
  by_cases h1 : d + k < 2 ^ 64
  · rw [if_pos h1]
    dsimp only
    by_cases ha : now > d + k
    · rw [if_pos ha]
      constructor
      · nofun
      · omega
    · rw [if_neg ha]
      by_cases h2 : k ≤ d
      · rw [if_pos h2]
        dsimp only
        by_cases hb : now < d - k
        · rw [if_pos hb]
          constructor
          · nofun
          · omega
        · rw [if_neg hb]
          simp only [true_iff]
          omega
      · rw [if_neg h2]
        simp only [if_true]
        constructor
        · nofun
        · omega
  · rw [if_neg h1]
    simp only [if_true]
    constructor
    · nofun
    · omega

/-- The same for all dates: built without overflow checks, the window is computed modulo `2 ^ 64`. -/
theorem accepted_wrapping_iff (c : Crypto) (store : List (Str × KeyPair)) (hs : Headers) (now : Nat)
    (skew : Option Nat) (hk : skew.getD 300 < 2 ^ 64) :
    verify c false store hs now skew = .ok () ↔
      ∃ kp names sg d listed, Signed store hs kp names sg ∧ DateIs hs d ∧ (∀ n ∈ names, Has hs n) ∧
        Listed hs (names.filter fun n => n != "bluelink-date".toList) listed ∧
        c.decode sg = some (c.mac kp.secret (message kp.keyId d listed)) ∧
        (now ≤ (d + skew.getD 300) % 2 ^ 64 ∧ (d + 2 ^ 64 - skew.getD 300) % 2 ^ 64 ≤ now) := by
  refine accepted_gen c false store hs now skew _ fun d hd => ?_
  obtain ⟨_, _, _, hdb⟩ := hd
  generalize skew.getD 300 = k at hk ⊢
  unfold checkDate addU64 subU64
  have e : u64 = 2 ^ 64 := rfl
  rw [e]
  have h3 : (if d + k < 2 ^ 64 then some (d + k) else if false = true then none else some (d + k - 2 ^ 64)) =
      some ((d + k) % 2 ^ 64) := by
    by_cases h : d + k < 2 ^ 64
    · rw [if_pos h, Nat.mod_eq_of_lt h]
    · rw [if_neg h, if_neg (by decide)]
      exact congrArg some (by omega)
  have h4 : (if k ≤ d then some (d - k) else if false = true then none else some (d + 2 ^ 64 - k)) =
      some ((d + 2 ^ 64 - k) % 2 ^ 64) := by
    by_cases h : k ≤ d
    · rw [if_pos h]
      exact congrArg some (by omega)
    · rw [if_neg h, if_neg (by decide)]
      exact congrArg some (by omega)
  rw [h3, h4]
  dsimp only
  generalize (d + k) % 2 ^ 64 = hi
  generalize (d + 2 ^ 64 - k) % 2 ^ 64 = lo
  by_cases ha : now > hi
  · rw [if_pos ha]
    constructor
    · nofun
    · omega
  · rw [if_neg ha]
    by_cases hb : now < lo
    · rw [if_pos hb]
      constructor
      · nofun
      · omega
    · rw [if_neg hb]
      simp only [true_iff]
      omega

/-- Requests that are signed with a key `k` for the headers `x` and `y`. -/
def signedText : Str := "keyId=\"k\", headers=\"bluelink-date x y\", signature=\"\"".toList

def signedStore : List (Str × KeyPair) := [(['k'], ⟨['k'], ['s']⟩)]

/-- Without a date, without `x` and `y`, and without `y`. -/
example :
    verify toy true signedStore [(sigName, signedText), (['x'], ['1'])] 1000 none =
      .err .dateMissing ∧
    verify toy true signedStore [(sigName, signedText), (dateName, ['9', '9', '9'])] 1000 none =
      .err (.customHeadersMissing ['x']) ∧
    verify toy true signedStore
      [(sigName, signedText), (dateName, ['9', '9', '9']), (['x'], ['1'])] 1000 none =
      .err (.customHeadersMissing ['y']) := by decide

/-- The request of the example is signed. -/
example : Signed signedStore [(sigName, signedText)] ⟨['k'], ['s']⟩
    ["bluelink-date".toList, ['x'], ['y']] [] :=
  ⟨signedText, ['k'], by decide, (printable_all _).1 (by decide), (unpack_iff _ _ _ _).1 (by decide), rfl⟩

end Verif.Sig
