import Verif.Sig.Spec
import Verif.Assoc

/-! # Lemmas for request signatures -/

namespace Verif.Sig

open Verif Verif.Text Spec Verif.Assoc

theorem get_eq (hs : Headers) (n : Str) : get hs n = hs.lookup (lower n) := rfl

theorem lower_dateName : lower dateName = dateName := by decide
theorem lower_sigName : lower sigName = sigName := by decide

theorem insert_lookup_self (hs : Headers) (n v : Str) : (insert hs n v).lookup n = some v := by
  simp [insert]

theorem insert_lookup_ne (hs : Headers) (n k v : Str) (h : k ≠ n) :
    (insert hs n v).lookup k = hs.lookup k := by
  have hb : (k == n) = false := by simp [h]
  simp only [insert, List.lookup_cons, hb]
  exact lookup_filter_ne k n hs h

theorem nameChar_toLower (ch : Char) (h : nameChar ch = true) : ch.toLower = ch := by
  simp only [nameChar, Bool.or_eq_true, List.contains_eq_mem, decide_eq_true_eq] at h
  have hup : ¬ (65 ≤ ch.toNat ∧ ch.toNat ≤ 90) := by
    rcases h with (h | h) | h
    · simp only [Char.isLower, Bool.and_eq_true, decide_eq_true_eq, UInt32.le_iff_toNat_le,
        ge_iff_le] at h
      have : 97 ≤ ch.toNat := h.1
      omega
    · simp only [Char.isDigit, Bool.and_eq_true, decide_eq_true_eq, UInt32.le_iff_toNat_le,
        ge_iff_le] at h
      have : ch.toNat ≤ 57 := h.2
      omega
    · revert ch
      decide
  unfold Char.toLower
  split
  · rename_i hc
    simp only [ge_iff_le, UInt32.le_iff_toNat_le] at hc
    exact absurd ⟨hc.1, hc.2⟩ hup
  · rfl

theorem nameChar_visible (ch : Char) (h : nameChar ch = true) : visible ch = true := by
  simp only [nameChar, Bool.or_eq_true, List.contains_eq_mem, decide_eq_true_eq] at h
  rcases h with (h | h) | h
  · simp only [Char.isLower, Bool.and_eq_true, decide_eq_true_eq, UInt32.le_iff_toNat_le,
      ge_iff_le] at h
    have h1 : 97 ≤ ch.toNat := h.1
    have h2 : ch.toNat ≤ 122 := h.2
    simp only [visible, Bool.or_eq_true, Bool.and_eq_true, decide_eq_true_eq]
    left; omega
  · simp only [Char.isDigit, Bool.and_eq_true, decide_eq_true_eq, UInt32.le_iff_toNat_le,
      ge_iff_le] at h
    have h1 : 48 ≤ ch.toNat := h.1
    have h2 : ch.toNat ≤ 57 := h.2
    simp only [visible, Bool.or_eq_true, Bool.and_eq_true, decide_eq_true_eq]
    left; omega
  · revert ch
    decide

theorem lower_of_nameChars (n : Str) (h : ∀ ch ∈ n, nameChar ch = true) : lower n = n := by
  unfold lower
  rw [List.map_congr_left (g := id)]
  · simp
  · intro ch hch; exact nameChar_toLower ch (h ch hch)

/-- A header that is found has a proper name. -/
theorem get_some_name (hs : Headers) (hwf : WellFormed hs) (n v : Str) (h : get hs n = some v) :
    ∀ ch ∈ lower n, nameChar ch = true := hwf _ _ (lookup_mem _ _ _ h)

theorem dateName_chars : ∀ ch ∈ dateName, nameChar ch = true := by decide

/-! ## Fields -/

theorem field_ok (hs : Headers) (n s : Str) :
    field hs n = .ok s ↔ ∃ v, hs.lookup (lower n) = some v ∧ v.all visible = true ∧
      s = ',' :: lower n ++ '=' :: v := by
  unfold field
  rw [get_eq]
  cases hs.lookup (lower n) with
  | none => simp
  | some v =>
    simp only [toStr, Option.some.injEq]
    by_cases hv : v.all visible = true
    · rw [if_pos hv]
      constructor
      · intro h
        simp only [Outcome.ok.injEq] at h
        exact ⟨v, rfl, hv, h.symm⟩
      · rintro ⟨_, rfl, _, rfl⟩
        rfl
    · rw [if_neg hv]
      constructor
      · intro h; simp at h
      · rintro ⟨_, rfl, h, _⟩
        exact absurd h hv

theorem fields_ok (hs : Headers) (names : List Str) (s : Str) :
    fields hs names = .ok s → ∃ listed, Listed hs names listed ∧
      s = listed.flatMap (fun kv => (',' :: kv.1) ++ ('=' :: kv.2)) ∧
      (∀ kv ∈ listed, kv.2.all visible = true) := by
  induction names generalizing s with
  | nil => intro h; simp only [fields, Outcome.ok.injEq] at h; exact ⟨[], trivial, by simp [← h], by simp⟩
  | cons n ns ih =>
    intro h
    simp only [fields] at h
    cases hf : field hs n with
    | ok a =>
      rw [hf] at h
      simp only at h
      cases hr : fields hs ns with
      | ok t =>
        rw [hr] at h
        simp only [Outcome.ok.injEq] at h
        obtain ⟨listed, hl, ht, hv⟩ := ih t hr
        obtain ⟨v, h1, h2, h3⟩ := (field_ok hs n a).mp hf
        refine ⟨(lower n, v) :: listed, ⟨rfl, h1, hl⟩, ?_, ?_⟩
        · rw [← h, h3, ht]; simp
        · intro kv hkv
          simp only [List.mem_cons] at hkv
          rcases hkv with rfl | hkv
          · exact h2
          · exact hv kv hkv
      | err e => rw [hr] at h; simp at h
      | panic => rw [hr] at h; simp at h
    | err e => rw [hf] at h; simp at h
    | panic => rw [hf] at h; simp at h

theorem field_no_panic (hs : Headers) (n : Str) : field hs n ≠ .panic := by
  unfold field
  split
  · split <;> simp
  · simp

theorem fields_no_panic (hs : Headers) (names : List Str) : fields hs names ≠ .panic := by
  induction names with
  | nil => simp [fields]
  | cons n ns ih =>
    simp only [fields]
    cases hf : field hs n with
    | ok a =>
      simp only
      cases hr : fields hs ns with
      | ok t => simp
      | err e => simp
      | panic => exact absurd hr ih
    | err e => simp
    | panic => exact absurd hf (field_no_panic hs n)

theorem extractDate_no_panic (hs : Headers) : extractDate hs ≠ .panic := by
  unfold extractDate
  split
  · split
    · simp
    · split <;> simp
  · simp

theorem createMessage_no_panic (kp : KeyPair) (hs : Headers) (names : List Str) :
    createMessage kp hs names ≠ .panic := by
  unfold createMessage
  split
  · split
    · simp
    · simp
    · rename_i h; exact absurd h (fields_no_panic hs _)
  · simp
  · rename_i h; exact absurd h (extractDate_no_panic hs)

theorem extractDate_ok (hs : Headers) (d : Nat) (h : extractDate hs = .ok d) : DateIs hs d := by
  unfold extractDate at h
  rw [get_eq, lower_dateName] at h
  split at h
  · rename_i v hv
    simp only [toStr] at h
    split at h
    · simp at h
    · rename_i s hs'
      split at hs'
      · simp only [Option.some.injEq] at hs'
        subst hs'
        split at h
        · rename_i d' hd
          simp only [Outcome.ok.injEq] at h
          subst h
          rw [parseUnsigned_iff] at hd
          exact ⟨v, hv, hd.1, hd.2⟩
        · simp at h
      · simp at hs'
  · simp at h

theorem dateIs_unique (hs : Headers) (d d' : Nat) (h : DateIs hs d) (h' : DateIs hs d') : d = d' := by
  obtain ⟨v, hv, ht, hb⟩ := h
  obtain ⟨v', hv', ht', hb'⟩ := h'
  rw [hv] at hv'
  simp only [Option.some.injEq] at hv'
  subst hv'
  have h1 := (parseUnsigned_iff u64 v d).mpr ⟨ht, hb⟩
  have h2 := (parseUnsigned_iff u64 v d').mpr ⟨ht', hb'⟩
  rw [h1] at h2
  simpa using h2

theorem createMessage_ok (kp : KeyPair) (hs : Headers) (names : List Str) (m : Str)
    (h : createMessage kp hs names = .ok m) :
    ∃ d listed, extractDate hs = .ok d ∧
      Listed hs (names.filter (fun n => n != dateName)) listed ∧
      m = message kp.keyId d listed := by
  unfold createMessage at h
  split at h
  · rename_i d hd
    split at h
    · rename_i t ht
      simp only [Outcome.ok.injEq] at h
      obtain ⟨listed, hl, hs', _⟩ := fields_ok hs _ t ht
      refine ⟨d, listed, hd, hl, ?_⟩
      rw [← h, hs']
      simp [message]
    · simp at h
    · simp at h
  · simp at h
  · simp at h

/-! ## Taking the header apart -/

theorem unquote_ok (s v : Str) (h : unquote s = .ok v) : ∃ q q', s = q :: v ++ [q'] := by
  unfold unquote at h
  split at h
  · simp at h
  · rename_i hl
    simp only [Outcome.ok.injEq] at h
    match s, hl with
    | q :: r, hl =>
      simp only [List.length_cons, Nat.not_lt] at hl
      have hr : r ≠ [] := by intro e; subst e; simp at hl
      refine ⟨q, r.getLast hr, ?_⟩
      subst h
      simp [List.dropLast_concat_getLast]

theorem unquote_quoted (q q' : Char) (v : Str) : unquote (q :: v ++ [q']) = .ok v := by
  simp [unquote]

theorem unpackValue_ok (word part v : Str) (h : unpackValue word part = .ok v) :
    ∃ w q q', part = w ++ '=' :: q :: v ++ [q'] ∧ trim w = word := by
  unfold unpackValue at h
  split at h
  · rename_i name value hsp
    split at h
    · rename_i ht
      obtain ⟨q, q', hq⟩ := unquote_ok value v h
      obtain ⟨h1, _, _⟩ := splitC_two '=' part name value hsp
      exact ⟨name, q, q', by rw [h1, hq]; simp, ht⟩
    · simp at h
  · simp at h

theorem unpack_ok (s : Str) (p : Parts) (h : unpack s = .ok p) :
    HeaderForm s p.keyId p.headers p.signature := by
  unfold unpack at h
  split at h
  · rename_i a b c hsp
    obtain ⟨hs, _, _, _⟩ := splitC_three ',' s a b c hsp
    split at h
    · rename_i kid hk
      split at h
      · rename_i hd hh
        split at h
        · rename_i sg hg
          simp only [Outcome.ok.injEq] at h
          subst h
          unfold unpackHeaders at hh
          split at hh
          · rename_i t ht
            simp only [Outcome.ok.injEq] at hh
            obtain ⟨w1, q1, q2, e1, t1⟩ := unpackValue_ok _ _ _ hk
            obtain ⟨w2, q3, q4, e2, t2⟩ := unpackValue_ok _ _ _ ht
            obtain ⟨w3, q5, q6, e3, t3⟩ := unpackValue_ok _ _ _ hg
            refine ⟨w1, q1, q2, w2, q3, q4, w3, q5, q6, t, ?_, t1, t2, t3, ?_, ?_, ?_⟩
            · rw [hs, e1, e2, e3]; simp
            · rw [← hh]; exact joinC_splitC ' ' t
            · rw [← hh]; exact fun n hn => splitC_pieces ' ' t n hn
            · rw [← hh]; exact splitC_ne_nil ' ' t
          · simp at hh
          · simp at hh
        · simp at h
        · simp at h
      · simp at h
      · simp at h
    · simp at h
    · simp at h
  · simp at h

/-- A well-formed header text is taken apart as it was put together. -/
theorem unpack_headerText (kp : KeyPair) (names : List Str) (sg : Str)
    (hk : ',' ∉ kp.keyId ∧ '=' ∉ kp.keyId)
    (hn : ∀ n ∈ names, ∀ ch ∈ lower n, nameChar ch = true)
    (hg : ',' ∉ sg ∧ '=' ∉ sg) :
    unpack (headerText kp names sg) = .ok ⟨kp.keyId, dateName :: names.map lower, sg⟩ := by
  have hall : ∀ p ∈ dateName :: names.map lower, ∀ ch ∈ p, nameChar ch = true := by
    intro p hp ch hch
    simp only [List.mem_cons, List.mem_map] at hp
    rcases hp with rfl | ⟨n, hn', rfl⟩
    · exact dateName_chars ch hch
    · exact hn n hn' ch hch
  have hnot : ∀ x : Char, nameChar x = false → x ≠ ' ' → x ∉ joinC ' ' (dateName :: names.map lower) := by
    intro x hx hsp
    generalize dateName :: names.map lower = ps at hall
    induction ps with
    | nil => simp [joinC]
    | cons p ps ih =>
      have hp : x ∉ p := fun hm => by
        have := hall p (by simp) x hm
        rw [hx] at this; simp at this
      cases ps with
      | nil => simpa [joinC] using hp
      | cons q ps =>
        simp only [joinC, List.mem_append, List.mem_cons, not_or]
        exact ⟨hp, hsp, ih (fun r hr => hall r (by simp [hr]))⟩
  have hjc : ',' ∉ joinC ' ' (dateName :: names.map lower) := hnot ',' (by decide) (by decide)
  have hje : '=' ∉ joinC ' ' (dateName :: names.map lower) := hnot '=' (by decide) (by decide)
  have hjs : splitC ' ' (joinC ' ' (dateName :: names.map lower)) = dateName :: names.map lower := by
    apply splitC_joinC
    · simp
    · intro p hp hm
      have := hall p hp ' ' hm
      revert this; decide
  generalize joinC ' ' (dateName :: names.map lower) = list at hjc hje hjs
  have value : ∀ (w word v : Str), '=' ∉ w → trim w = word → '=' ∉ v →
      unpackValue word (w ++ '=' :: '"' :: v ++ ['"']) = .ok v := by
    intro w word v hw ht hv
    have hsp : splitC '=' (w ++ '=' :: '"' :: v ++ ['"']) = [w, '"' :: v ++ ['"']] := by
      rw [List.append_assoc, List.cons_append, splitC_append '=' w _ hw]
      rw [splitC_none]
      simp [hv]
    simp only [unpackValue, hsp, ht, if_true]
    exact unquote_quoted _ _ _
  have hsplit : splitC ',' (headerText kp names sg) =
      [keyIdWord ++ '=' :: '"' :: kp.keyId ++ ['"'],
        (' ' :: headersWord) ++ '=' :: '"' :: joinC ' ' (dateName :: names.map lower) ++ ['"'],
        (' ' :: signatureWord) ++ '=' :: '"' :: sg ++ ['"']] := by
    have h1 : headerText kp names sg =
        (keyIdWord ++ '=' :: '"' :: kp.keyId ++ ['"']) ++ ',' ::
        (((' ' :: headersWord) ++ '=' :: '"' :: joinC ' ' (dateName :: names.map lower) ++ ['"']) ++
          ',' :: ((' ' :: signatureWord) ++ '=' :: '"' :: sg ++ ['"'])) := by
      simp [headerText]
    rw [h1, splitC_append, splitC_append, splitC_none]
    · have : ',' ∉ signatureWord := by decide
      simp [this, hg.1]
    · have : ',' ∉ headersWord := by decide
      simp only [List.mem_append, List.mem_cons, not_or, List.not_mem_nil, not_false_eq_true,
        and_true]
      exact ⟨⟨⟨by decide, this⟩, by decide, by decide, hnot ',' (by decide) (by decide)⟩, by decide⟩
    · have : ',' ∉ keyIdWord := by decide
      simp [this, hk.1]
  simp only [unpack, hsplit]
  rw [value keyIdWord keyIdWord kp.keyId (by decide) (by decide) hk.2]
  simp only [unpackHeaders]
  rw [value (' ' :: headersWord) headersWord _ (by decide) (by decide)
    (hnot '=' (by decide) (by decide))]
  simp only
  rw [value (' ' :: signatureWord) signatureWord sg (by decide) (by decide) hg.2]
  simp only
  rw [splitC_joinC]
  · simp
  · intro p hp hm
    have := hall p hp ' ' hm
    revert this; decide

/-! ## Messages -/

theorem flatMap_inj (f g : List (Str × Str))
    (hf : ∀ kv ∈ f, ',' ∉ kv.1 ∧ '=' ∉ kv.1 ∧ ',' ∉ kv.2)
    (hg : ∀ kv ∈ g, ',' ∉ kv.1 ∧ '=' ∉ kv.1 ∧ ',' ∉ kv.2)
    (h : f.flatMap (fun kv => (',' :: kv.1) ++ ('=' :: kv.2)) =
      g.flatMap (fun kv => (',' :: kv.1) ++ ('=' :: kv.2))) : f = g := by
  have pieces : ∀ (l : List (Str × Str)) (a : Str), ',' ∉ a →
      (∀ kv ∈ l, ',' ∉ kv.1 ∧ '=' ∉ kv.1 ∧ ',' ∉ kv.2) →
      splitC ',' (a ++ l.flatMap (fun kv => (',' :: kv.1) ++ ('=' :: kv.2))) =
        a :: l.map (fun kv => kv.1 ++ '=' :: kv.2) := by
    intro l
    induction l with
    | nil => intro a ha _; simp [splitC_none ',' a ha]
    | cons kv l ih =>
      intro a ha hl
      have hkv := hl kv (by simp)
      have e : a ++ (kv :: l).flatMap (fun kv => (',' :: kv.1) ++ ('=' :: kv.2)) =
          a ++ ',' :: ((kv.1 ++ '=' :: kv.2) ++
            l.flatMap (fun kv => (',' :: kv.1) ++ ('=' :: kv.2))) := by simp
      rw [e, splitC_append ',' a _ ha, ih _ _ (fun x hx => hl x (by simp [hx]))]
      · simp
      · simp [hkv.1, hkv.2.2]
  have h1 := pieces f [] (by simp) hf
  have h2 := pieces g [] (by simp) hg
  rw [h] at h1
  rw [h1] at h2
  simp only [List.cons.injEq, true_and] at h2
  clear h h1 pieces
  induction f generalizing g with
  | nil => cases g with
    | nil => rfl
    | cons _ _ => simp at h2
  | cons kv f ih =>
    cases g with
    | nil => simp at h2
    | cons kv' g =>
      simp only [List.map_cons, List.cons.injEq] at h2
      have ih' := ih g (fun x hx => hf x (by simp [hx])) (fun x hx => hg x (by simp [hx])) h2.2
      have e1 := splitC_append '=' kv.1 kv.2 (hf kv (by simp)).2.1
      have e2 := splitC_append '=' kv'.1 kv'.2 (hg kv' (by simp)).2.1
      rw [h2.1, e2] at e1
      simp only [List.cons.injEq] at e1
      have e3 : kv.2 = kv'.2 := by
        rw [← joinC_splitC '=' kv.2, ← joinC_splitC '=' kv'.2, e1.2]
      have : kv = kv' := Prod.ext e1.1.symm e3
      rw [this, ih']

theorem listed_mem (hs : Headers) (names : List Str) (listed : List (Str × Str))
    (h : Listed hs names listed) : ∀ kv ∈ listed, hs.lookup kv.1 = some kv.2 := by
  induction names generalizing listed with
  | nil => cases listed with
    | nil => simp
    | cons _ _ => exact absurd h id
  | cons n ns ih =>
    match listed, h with
    | (k, v) :: rest, ⟨_, h2, h3⟩ =>
      intro kv hkv
      simp only [List.mem_cons] at hkv
      rcases hkv with rfl | hkv
      · exact h2
      · exact ih rest h3 kv hkv

theorem listed_names (hs : Headers) (names : List Str) (listed : List (Str × Str))
    (h : Listed hs names listed) : ∀ n ∈ names, ∃ v, (lower n, v) ∈ listed := by
  induction names generalizing listed with
  | nil => simp
  | cons m ns ih =>
    match listed, h with
    | (k, v) :: rest, ⟨h1, _, h3⟩ =>
      intro n hn
      simp only [List.mem_cons] at hn
      rcases hn with rfl | hn
      · exact ⟨v, by simp [h1]⟩
      · obtain ⟨v', hv'⟩ := ih rest h3 n hn
        exact ⟨v', by simp [hv']⟩

theorem checkDate_ok (checked : Bool) (now date skew : Nat) (hn : now < u64) (hd : date < u64)
    (hs : skew < u64) (h : checkDate checked now date skew = .ok ()) : Within now date skew := by
  unfold checkDate addU64 subU64 at h
  unfold Within
  cases checked with
  | true =>
    split at h
    · simp at h
    · rename_i hi hhi
      split at hhi
      · simp only [Option.some.injEq] at hhi
        split at h
        · simp at h
        · split at h
          · simp at h
          · rename_i lo hlo
            split at hlo
            · simp only [Option.some.injEq] at hlo
              split at h
              · simp at h
              · omega
            · simp at hlo
      · simp at hhi
  | false =>
    simp only [Bool.false_eq_true, if_false] at h
    by_cases h1 : date + skew < u64
    · simp only [h1, if_true] at h
      by_cases h2 : skew ≤ date
      · simp only [h2, if_true] at h
        split at h
        · simp at h
        · split at h
          · simp at h
          · omega
      · simp only [h2, if_false] at h
        split at h
        · simp at h
        · split at h
          · simp at h
          · omega
    · simp only [h1, if_false] at h
      by_cases h2 : skew ≤ date
      · simp only [h2, if_true] at h
        split at h
        · simp at h
        · split at h
          · simp at h
          · omega
      · simp only [h2, if_false] at h
        split at h
        · simp at h
        · split at h
          · simp at h
          · omega

/-- Everything that is known when a request is accepted. -/
theorem verify_ok (c : Crypto) (checked : Bool) (store : List (Str × KeyPair)) (hs : Headers)
    (now : Nat) (skew : Option Nat) (h : verify c checked store hs now skew = .ok ()) :
    ∃ s p kp m d, hs.lookup sigName = some s ∧ unpack s = .ok p ∧
      store.lookup p.keyId = some kp ∧ createMessage kp hs p.headers = .ok m ∧
      c.decode p.signature = some (c.mac kp.secret m) ∧ extractDate hs = .ok d ∧
      checkDate checked now d (skew.getD defaultSkew) = .ok () := by
  unfold verify at h
  rw [get_eq, lower_sigName] at h
  split at h
  · simp at h
  · rename_i s hsig
    simp only [toStr] at h
    split at h
    · simp at h
    · rename_i s' hs'
      split at hs'
      · simp only [Option.some.injEq] at hs'
        subst hs'
        split at h
        · rename_i p hp
          split at h
          · simp at h
          · rename_i kp hkp
            split at h
            · rename_i m hm
              split at h
              · rename_i hv
                split at h
                · rename_i d hd
                  refine ⟨s, p, kp, m, d, hsig, hp, hkp, hm, ?_, hd, h⟩
                  unfold verifyMessage at hv
                  split at hv
                  · simp at hv
                  · rename_i b hb
                    simp only [decide_eq_true_eq] at hv
                    rw [hb, hv]
                · simp at h
                · simp at h
              · simp at h
            · simp at h
            · simp at h
        · simp at h
        · simp at h
      · simp at hs'

end Verif.Sig
