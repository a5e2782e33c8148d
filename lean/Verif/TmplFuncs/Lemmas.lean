import Verif.TmplFuncs.Model
import Verif.TmplFuncs.Spec

/-! # Lemmas about the functions of payload templates -/

namespace Verif.TmplFuncs

variable {α F : Type}

/-! ## Pieces of a list -/

theorem chunksGo_pieces (size : Nat) (hs : 0 < size) : ∀ (l cur : List α), cur.length < size →
    Pieces size (cur.reverse ++ l) (chunksGo size l cur) := by
  intro l
  induction l with
  | nil =>
    intro cur hc
    cases cur with
    | nil => exact ⟨rfl, by simp [chunksGo], by simp [chunksGo]⟩
    | cons a t =>
      refine ⟨by simp [chunksGo], by simp [chunksGo], ?_⟩
      intro p hp
      simp only [chunksGo, List.getLast?_singleton, Option.some.injEq] at hp
      subst hp
      simp only [List.length_reverse]
      simp only [List.length_cons] at hc ⊢
      omega
  | cons a rest ih =>
    intro cur hc
    rw [chunksGo]
    by_cases hl : (a :: cur).length = size
    · rw [if_pos hl]
      have h := ih [] hs
      refine ⟨?_, ?_, ?_⟩
      · rw [List.flatten_cons, h.joined]; simp
      · intro p hp
        cases hq : chunksGo size rest [] with
        | nil => rw [hq] at hp; simp at hp
        | cons q qs =>
          rw [hq] at hp
          rw [List.dropLast_cons_of_ne_nil (by simp)] at hp
          rcases List.mem_cons.1 hp with hp | hp
          · subst hp; rw [List.length_reverse]; exact hl
          · exact h.full p (by rw [hq]; exact hp)
      · intro p hp
        cases hq : chunksGo size rest [] with
        | nil =>
          rw [hq, List.getLast?_singleton] at hp
          cases hp
          rw [List.length_reverse]; omega
        | cons q qs =>
          rw [hq, List.getLast?_cons_cons, ← hq] at hp
          exact h.last p hp
    · rw [if_neg hl]
      have h := ih (a :: cur) (by simp only [List.length_cons] at hl ⊢; omega)
      have e : (a :: cur).reverse ++ rest = cur.reverse ++ a :: rest := by simp
      rw [e] at h
      exact h

theorem chunks_pieces (size : Nat) (hs : 0 < size) (l : List α) :
    ∃ ps, chunks size l = some ps ∧ Pieces size l ps :=
  ⟨chunksGo size l [], by rw [chunks, if_neg (by omega)], chunksGo_pieces size hs l [] hs⟩

/-! ## First occurrences -/

theorem idxOf_append_left [DecidableEq α] {l m : List α} {a : α} (h : a ∈ l) :
    (l ++ m).idxOf a = l.idxOf a := by
  rw [List.idxOf_append, if_pos h]

theorem idxOf_append_right [DecidableEq α] {l m : List α} {a : α} (h : a ∉ l) :
    (l ++ m).idxOf a = l.length + m.idxOf a := by
  rw [List.idxOf_append, if_neg h]; omega

theorem firstKept_fresh [DecidableEq α] {l out : List α} {v : α} (h : FirstKept l out)
    (hv : v ∉ out) : FirstKept (l ++ [v]) (out ++ [v]) := by
  have hl : v ∉ l := fun h1 => hv ((h.sameValues v).2 h1)
  refine ⟨?_, ?_, ?_⟩
  · rw [List.nodup_append]
    refine ⟨h.once, by simp, ?_⟩
    intro a ha b hb hab
    simp only [List.mem_singleton] at hb
    subst hab hb
    exact hv ha
  · intro w
    simp [h.sameValues w]
  · intro a b ha hb
    have key : ∀ c, c ∈ l ++ [v] → (c ∈ l ∧ c ∈ out) ∨ (c = v ∧ c ∉ l ∧ c ∉ out) := by
      intro c hc
      by_cases hcl : c ∈ l
      · exact Or.inl ⟨hcl, (h.sameValues c).2 hcl⟩
      · rcases List.mem_append.1 hc with h1 | h1
        · exact absurd h1 hcl
        · simp only [List.mem_singleton] at h1
          subst h1
          exact Or.inr ⟨rfl, hl, hv⟩
    rcases key a ha with ⟨ha1, ha2⟩ | ⟨ha1, ha2, ha3⟩ <;>
      rcases key b hb with ⟨hb1, hb2⟩ | ⟨hb1, hb2, hb3⟩
    · rw [idxOf_append_left ha1, idxOf_append_left ha2, idxOf_append_left hb1,
        idxOf_append_left hb2]
      exact h.ordered a b ha1 hb1
    · rw [idxOf_append_left ha1, idxOf_append_left ha2, idxOf_append_right hb2,
        idxOf_append_right hb3]
      have h1 := List.idxOf_lt_length_of_mem ha1
      have h2 := List.idxOf_lt_length_of_mem ha2
      constructor <;> intro <;> omega
    · rw [idxOf_append_left hb1, idxOf_append_left hb2, idxOf_append_right ha2,
        idxOf_append_right ha3]
      have h1 := List.idxOf_lt_length_of_mem hb1
      have h2 := List.idxOf_lt_length_of_mem hb2
      constructor <;> intro <;> omega
    · subst ha1 hb1
      simp

theorem firstKept_seen [DecidableEq α] {l out : List α} {v : α} (h : FirstKept l out)
    (hv : v ∈ out) : FirstKept (l ++ [v]) out := by
  have hl : v ∈ l := (h.sameValues v).1 hv
  have key : ∀ c, c ∈ l ++ [v] → c ∈ l := by
    intro c hc
    rcases List.mem_append.1 hc with h1 | h1
    · exact h1
    · simp only [List.mem_singleton] at h1
      subst h1; exact hl
  refine ⟨h.once, ?_, ?_⟩
  · intro w
    rw [h.sameValues w]
    exact ⟨fun h1 => List.mem_append_left _ h1, key w⟩
  · intro a b ha hb
    rw [idxOf_append_left (key a ha), idxOf_append_left (key b hb)]
    exact h.ordered a b (key a ha) (key b hb)

theorem uniqueLoop_firstKept [DecidableEq F] : ∀ (rest done unique : List (Json F)),
    FirstKept done unique → FirstKept (done ++ rest) (uniqueLoop rest unique) := by
  intro rest
  induction rest with
  | nil => intro done unique h; rw [List.append_nil]; exact h
  | cons a rest ih =>
    intro done unique h
    rw [uniqueLoop]
    have e : done ++ a :: rest = (done ++ [a]) ++ rest := by simp
    rw [e]
    by_cases ha : a ∈ unique
    · rw [if_pos ha]; exact ih _ _ (firstKept_seen h ha)
    · rw [if_neg ha]; exact ih _ _ (firstKept_fresh h ha)

/-! ## Texts -/

theorem hasSub_iff (needle : List Char) : ∀ s, hasSub needle s = true ↔ needle <:+: s := by
  intro s
  induction s with
  | nil => simp [hasSub]
  | cons c rest ih =>
    rw [hasSub, Bool.or_eq_true, ih, List.isPrefixOf_iff_prefix, List.infix_cons_iff]

/-- Skipping characters. -/
theorem splitGo_skip (sep : List Char) : ∀ (pre rest cur : List Char),
    splitGo sep (pre ++ rest) pre.length cur = splitGo sep rest 0 cur := by
  intro pre
  induction pre with
  | nil => intro rest cur; rfl
  | cons a t ih => intro rest cur; rw [List.length_cons, List.cons_append, splitGo, ih]

/-- In `cur ++ c :: rest` the separator is found first at the end of `cur`, if it was not found
before. -/
theorem splitGo_splits (sep : List Char) (hsep : sep ≠ []) : ∀ (n : Nat) (s cur : List Char),
    s.length ≤ n →
    (∀ u v, cur.reverse ++ s = u ++ sep ++ v → cur.length ≤ u.length) →
    Splits sep (cur.reverse ++ s) (splitGo sep s 0 cur) := by
  have hlen : 0 < sep.length := List.length_pos_iff.2 hsep
  intro n
  induction n with
  | zero =>
    intro s cur hn h
    have : s = [] := List.length_eq_zero_iff.1 (by omega)
    subst this
    rw [splitGo, List.append_nil]
    apply Splits.last
    rintro ⟨u, v, e⟩
    have h1 := h u v (by rw [List.append_nil]; exact e.symm)
    have h2 := congrArg List.length e
    simp only [List.length_append, List.length_reverse] at h2
    omega
  | succ n ih =>
    intro s cur hn h
    cases s with
    | nil => exact ih [] cur (Nat.zero_le _) h
    | cons c rest =>
      rw [splitGo]
      by_cases hp : sep.isPrefixOf (c :: rest) = true
      · rw [if_pos hp]
        obtain ⟨t, ht⟩ := List.isPrefixOf_iff_prefix.1 hp
        have hskip : splitGo sep rest (sep.length - 1) [] = splitGo sep t 0 [] := by
          cases sep with
          | nil => exact absurd rfl hsep
          | cons d ds =>
            simp only [List.cons_append, List.cons.injEq] at ht
            rw [← ht.2, List.length_cons, Nat.add_sub_cancel]
            exact splitGo_skip (d :: ds) ds t []
        rw [hskip, ← ht, ← List.append_assoc]
        apply Splits.cons
        · intro u v e
          have e2 : cur.reverse ++ c :: rest = u ++ sep ++ (v ++ t) := by
            rw [← ht, ← List.append_assoc, e]; simp
          have h1 := h u (v ++ t) e2
          have h2 := congrArg List.length e
          simp only [List.length_append, List.length_reverse] at h2
          exact List.length_eq_zero_iff.1 (by omega)
        · have h3 := congrArg List.length ht
          simp only [List.length_append, List.length_cons] at h3 hn
          have := ih t [] (by omega) (by intro u v _; exact Nat.zero_le _)
          simpa using this
      · rw [if_neg hp]
        have e : cur.reverse ++ c :: rest = (c :: cur).reverse ++ rest := by simp
        rw [e]
        apply ih rest (c :: cur) (by simp only [List.length_cons] at hn; omega)
        intro u v e2
        rw [← e] at e2
        have h1 := h u v e2
        rw [List.length_cons]
        refine Nat.lt_of_le_of_ne h1 ?_
        intro h2
        apply hp
        rw [List.isPrefixOf_iff_prefix]
        refine ⟨v, ?_⟩
        rw [List.append_assoc] at e2
        exact ((List.append_inj e2 (by rw [List.length_reverse]; exact h2)).2).symm

theorem splitText_splits (sep s : List Char) (h : sep ≠ []) : Splits sep s (splitText sep s) := by
  rw [splitText, if_neg h]
  have := splitGo_splits sep h s.length s [] (Nat.le_refl _) (by intro u v _; exact Nat.zero_le _)
  simpa using this

theorem splits_join {sep s : List Char} {ps : List (List Char)} (h : Splits sep s ps) :
    sep.intercalate ps = s ∧ ps ≠ [] := by
  induction h with
  | last p _ => exact ⟨by simp [List.intercalate], by simp⟩
  | cons p t ps _ _ ih =>
    refine ⟨?_, by simp⟩
    obtain ⟨ih1, ih2⟩ := ih
    cases ps with
    | nil => exact absurd rfl ih2
    | cons q qs =>
      have : sep.intercalate (p :: q :: qs) = p ++ (sep ++ sep.intercalate (q :: qs)) := by
        simp [List.intercalate, List.intersperse]
      rw [this, ih1, List.append_assoc]

theorem splitText_empty_join (s : List Char) :
    ([] : List Char).intercalate (splitText [] s) = s := by
  have h : ∀ l : List (List Char), ([] : List Char).intercalate l = l.flatten := by
    intro l
    induction l with
    | nil => rfl
    | cons a t ih =>
      cases t with
      | nil => simp [List.intercalate]
      | cons b u =>
        have : ([] : List Char).intercalate (a :: b :: u)
            = a ++ ([] ++ ([] : List Char).intercalate (b :: u)) := by
          simp [List.intercalate, List.intersperse]
        rw [this, ih]; simp
  rw [h, splitText, if_pos rfl]
  have h2 : ∀ l : List Char, (l.map fun c => [c]).flatten = l := by
    intro l
    induction l with
    | nil => rfl
    | cons a t ih => rw [List.map_cons, List.flatten_cons, ih]; rfl
  simp [h2]

/-! ## Placeholders -/

/-- A text before which nothing can become a placeholder. -/
theorem replaceFirst_append (new t : List Char) : ∀ (p : List Char),
    (∀ u v, p ++ placeholder = u ++ placeholder ++ v → v = []) →
    replaceFirst new (p ++ placeholder ++ t) = p ++ new ++ t := by
  intro p
  induction p with
  | nil => intro _; rfl
  | cons c p ih =>
    intro h
    have hp : ∀ u v, p ++ placeholder = u ++ placeholder ++ v → v = [] := by
      intro u v e
      exact h (c :: u) v (by rw [List.cons_append, e]; rfl)
    have hne : ¬ ∃ r, c :: (p ++ placeholder ++ t) = '{' :: '}' :: r := by
      rintro ⟨r, e⟩
      simp only [List.cons.injEq] at e
      obtain ⟨e1, e2⟩ := e
      cases p with
      | nil => simp [placeholder] at e2
      | cons d q =>
        simp only [List.cons_append, List.cons.injEq] at e2
        have := h [] (q ++ placeholder) (by rw [e1, e2.1]; rfl)
        simp [placeholder] at this
    rw [List.cons_append, List.cons_append]
    rw [replaceFirst.eq_2]
    · rw [ih hp]; rfl
    · intro r hc e
      exact hne ⟨r, by rw [hc, e]⟩

theorem countPlaceholders_append (t : List Char) : ∀ (p : List Char),
    (∀ u v, p ++ placeholder = u ++ placeholder ++ v → v = []) →
    countPlaceholders (p ++ placeholder ++ t) = countPlaceholders t + 1 := by
  intro p
  induction p with
  | nil => intro _; rfl
  | cons c p ih =>
    intro h
    have hp : ∀ u v, p ++ placeholder = u ++ placeholder ++ v → v = [] := by
      intro u v e
      exact h (c :: u) v (by rw [List.cons_append, e]; rfl)
    have hne : ¬ ∃ r, c :: (p ++ placeholder ++ t) = '{' :: '}' :: r := by
      rintro ⟨r, e⟩
      simp only [List.cons.injEq] at e
      obtain ⟨e1, e2⟩ := e
      cases p with
      | nil => simp [placeholder] at e2
      | cons d q =>
        simp only [List.cons_append, List.cons.injEq] at e2
        have := h [] (q ++ placeholder) (by rw [e1, e2.1]; rfl)
        simp [placeholder] at this
    rw [List.cons_append, List.cons_append]
    rw [countPlaceholders.eq_2]
    · rw [ih hp]
    · intro r hc e
      exact hne ⟨r, by rw [hc, e]⟩

theorem countPlaceholders_none : ∀ (p : List Char), ¬ placeholder <:+: p →
    countPlaceholders p = 0 := by
  intro p
  induction p with
  | nil => intro _; rfl
  | cons c p ih =>
    intro h
    have hp : ¬ placeholder <:+: p := fun h1 => h (List.infix_cons_iff.2 (Or.inr h1))
    rw [countPlaceholders.eq_2]
    · exact ih hp
    · intro r hc e
      exact h ⟨[], r, by rw [hc, e]; rfl⟩

theorem count_splits {s : List Char} {ps : List (List Char)} (h : Splits placeholder s ps) :
    countPlaceholders s + 1 = ps.length := by
  induction h with
  | last p hp => rw [countPlaceholders_none p hp]; rfl
  | cons p t ps hp _ ih => rw [countPlaceholders_append t p hp, List.length_cons]; omega

/-- Every text can be cut at its placeholders. -/
theorem splits_exists (s : List Char) : ∃ ps, Splits placeholder s ps :=
  ⟨_, splitText_splits placeholder s (by simp [placeholder])⟩

theorem scalarText_of_written (x : Ext F) {v : Json F} {t : List Char}
    (h : Written x.floatText v t) : scalarText x v = some t := by
  cases h <;> rfl

theorem allWritten_length {ft : F → List Char} {as : List (Json F)} {ts : List (List Char)}
    (h : AllWritten ft as ts) : as.length = ts.length := by
  induction h with
  | nil => rfl
  | cons _ _ ih => rw [List.length_cons, List.length_cons, ih]

/-- What was filled so far cannot be the beginning of a new placeholder: it ends with a character
that is not a brace, or the texts have no braces at all. -/
theorem no_placeholder_across {pre p : List Char}
    (hpre : ∀ u v, pre ≠ u ++ placeholder ++ v)
    (hlast : pre = [] ∨ ∃ q c, pre = q ++ [c] ∧ c ≠ '{' )
    (hp : ∀ u v, p ++ placeholder = u ++ placeholder ++ v → v = []) :
    ∀ u v, (pre ++ p) ++ placeholder = u ++ placeholder ++ v → v = [] := by
  intro u v e
  rw [List.append_assoc, List.append_assoc] at e
  rcases List.append_eq_append_iff.1 e with ⟨w, h1, h2⟩ | ⟨w, h1, h2⟩
  · -- the occurrence starts after `pre`
    exact hp w v (by rw [h2, List.append_assoc])
  · -- the occurrence starts within `pre`
    cases w with
    | nil => exact hp [] v (by simpa using h2.symm)
    | cons a w =>
      cases w with
      | nil =>
        exfalso
        simp only [placeholder, List.cons_append, List.nil_append, List.cons.injEq] at h2
        rcases hlast with h3 | ⟨q, c, h3, h4⟩
        · rw [h3] at h1; simp at h1
        · rw [h3] at h1
          have := List.append_inj_right' h1 rfl
          simp only [List.cons.injEq, and_true] at this
          rw [this, ← h2.1] at h4
          exact h4 rfl
      | cons b w =>
        exfalso
        simp only [placeholder, List.cons_append, List.nil_append, List.cons.injEq] at h2
        exact hpre u w (by rw [h1, ← h2.1, ← h2.2.1]; simp [placeholder])

/-- A text followed by another has a placeholder only within one of them or across. -/
theorem no_placeholder_append {a b : List Char}
    (ha : ∀ u v, a ≠ u ++ placeholder ++ v) (hb : ∀ u v, b ≠ u ++ placeholder ++ v)
    (hlast : ∀ q, a ≠ q ++ ['{']) : ∀ u v, a ++ b ≠ u ++ placeholder ++ v := by
  intro u v e
  rw [List.append_assoc] at e
  rcases List.append_eq_append_iff.1 e with ⟨w, h1, h2⟩ | ⟨w, h1, h2⟩
  · exact hb w v (by rw [h2, List.append_assoc])
  · cases w with
    | nil => exact hb [] v (by simpa using h2.symm)
    | cons c w =>
      cases w with
      | nil =>
        simp only [placeholder, List.cons_append, List.nil_append, List.cons.injEq] at h2
        exact hlast u (by rw [h1, h2.1])
      | cons d w =>
        simp only [placeholder, List.cons_append, List.nil_append, List.cons.injEq] at h2
        exact ha u w (by rw [h1, ← h2.1, ← h2.2.1]; simp [placeholder])

theorem braceFree_no_placeholder {s : List Char} (h : BraceFree s) :
    ∀ u v, s ≠ u ++ placeholder ++ v := by
  intro u v e
  apply h.1
  rw [e]; simp [placeholder]

/-- A piece in front of a placeholder has none itself. -/
theorem piece_no_placeholder {p : List Char}
    (hp : ∀ u v, p ++ placeholder = u ++ placeholder ++ v → v = []) :
    ∀ u v, p ≠ u ++ placeholder ++ v := by
  intro u v e
  have := hp u (v ++ placeholder) (by rw [e]; simp)
  simp [placeholder] at this

theorem splits_pieces {s : List Char} {ps : List (List Char)} (h : Splits placeholder s ps) :
    ∀ q ∈ ps, ∀ u v, q ≠ u ++ placeholder ++ v := by
  intro q hq
  induction h with
  | last p hp =>
    simp only [List.mem_singleton] at hq
    subst hq
    intro u v e
    exact hp ⟨u, v, e.symm⟩
  | cons p t ps hp _ ih =>
    rcases List.mem_cons.1 hq with h1 | h1
    · subst h1; exact piece_no_placeholder hp
    · exact ih h1

/-- The texts that can be filled in safely after `pre`: braces can only come from the template, and
then only if every argument has a character. -/
def SafeTexts (ps ts : List (List Char)) : Prop :=
  (∀ t ∈ ts, BraceFree t) ∧ ((∀ t ∈ ts, t ≠ []) ∨ ∀ p ∈ ps, BraceFree p)

theorem fillLoop_ok (x : Ext F) {s : List Char} {ps : List (List Char)}
    (h : Splits placeholder s ps) : ∀ (pre : List Char) (as : List (Json F))
    (ts : List (List Char)), AllWritten x.floatText as ts → ps.length = ts.length + 1 →
    SafeTexts ps ts → (∀ u v, pre ≠ u ++ placeholder ++ v) → (∀ q, pre ≠ q ++ ['{']) →
    (∀ p, ps.head? = some p → ∀ u v, pre ++ p ≠ u ++ placeholder ++ v) →
    fillLoop x as (pre ++ s) = .ok (.str (pre ++ interleave ps ts)) := by
  induction h with
  | last p hp =>
    intro pre as ts hw hl _ _ _ _
    cases ts with
    | nil => cases hw; simp [fillLoop, interleave]
    | cons t ts => simp at hl
  | cons p t ps hp hs ih =>
    intro pre as ts hw hl hsafe hpre hlast hhead
    cases hw with
    | nil =>
      cases hs <;> simp at hl
    | @cons a w as ts ha hw =>
      rw [fillLoop, scalarText_of_written x ha]
      dsimp only
      have hacross : ∀ u v, (pre ++ p) ++ placeholder = u ++ placeholder ++ v → v = [] := by
        apply no_placeholder_across hpre _ hp
        cases hq : pre.reverse with
        | nil => left; simpa using hq
        | cons c q =>
          right
          refine ⟨q.reverse, c, ?_, ?_⟩
          · have := congrArg List.reverse hq; simpa using this
          · intro hc
            apply hlast q.reverse
            have := congrArg List.reverse hq
            simpa [hc] using this
      have e : pre ++ (p ++ placeholder ++ t) = (pre ++ p) ++ placeholder ++ t := by simp
      rw [e, replaceFirst_append w t (pre ++ p) hacross]
      have hwf := hsafe.1 w (by simp)
      have hnp := piece_no_placeholder hacross
      -- the text filled so far ends well
      have hend : ∀ q, pre ++ p ++ w ≠ q ++ ['{'] := by
        intro q e2
        cases hr : w.reverse with
        | cons c r =>
          have hw2 : w = r.reverse ++ [c] := by
            have := congrArg List.reverse hr; simpa using this
          rw [hw2, ← List.append_assoc] at e2
          have := List.append_inj_right' e2 rfl
          simp only [List.cons.injEq, and_true] at this
          apply hwf.1
          rw [hw2, this]; simp
        | nil =>
          have hw2 : w = [] := by simpa using hr
          rcases hsafe.2 with h1 | h1
          · exact h1 w (by simp) hw2
          · rw [hw2, List.append_nil] at e2
            have hpf := h1 p (by simp)
            cases hr2 : p.reverse with
            | nil =>
              have hp2 : p = [] := by simpa using hr2
              rw [hp2, List.append_nil] at e2
              exact hlast q e2
            | cons c r =>
              have hp2 : p = r.reverse ++ [c] := by
                have := congrArg List.reverse hr2; simpa using this
              rw [hp2, ← List.append_assoc] at e2
              have := List.append_inj_right' e2 rfl
              simp only [List.cons.injEq, and_true] at this
              apply hpf.1
              rw [hp2, this]; simp
      have hnone : ∀ u v, pre ++ p ++ w ≠ u ++ placeholder ++ v := by
        intro u v e2
        rw [List.append_assoc (u) placeholder v] at e2
        rcases List.append_eq_append_iff.1 e2 with ⟨z, h1, h2⟩ | ⟨z, h1, h2⟩
        · exact braceFree_no_placeholder hwf z v (by rw [h2, List.append_assoc])
        · cases z with
          | nil => exact braceFree_no_placeholder hwf [] v (by simpa using h2.symm)
          | cons c z =>
            cases z with
            | nil =>
              simp only [placeholder, List.cons_append, List.nil_append, List.cons.injEq] at h2
              apply hwf.2
              rw [← h2.2]; simp
            | cons d z =>
              simp only [placeholder, List.cons_append, List.nil_append, List.cons.injEq] at h2
              exact hnp u z (by rw [h1, ← h2.1, ← h2.2.1]; simp [placeholder])
      have hps := splits_pieces hs
      have := ih (pre ++ p ++ w) as ts hw (by simp only [List.length_cons] at hl; omega)
        ⟨fun t ht => hsafe.1 t (List.mem_cons_of_mem _ ht),
          hsafe.2.imp (fun h1 t ht => h1 t (List.mem_cons_of_mem _ ht))
            (fun h1 q hq => h1 q (List.mem_cons_of_mem _ hq))⟩ hnone hend
        (fun q hq => no_placeholder_append hnone
          (hps q (List.mem_of_mem_head? (by rw [hq]; exact rfl))) hend)
      rw [this]
      simp [interleave]

/-! ## Objects -/

theorem insertKey_lookup (k : List Char) (v : Json F) (l : List Char) :
    ∀ m : List (List Char × Json F),
    (insertKey k v m).lookup l = if l = k then some v else m.lookup l := by
  intro m
  induction m with
  | nil =>
    rw [insertKey, List.lookup_cons]
    by_cases h : l = k
    · subst h; simp
    · have hb : (l == k) = false := by simpa using h
      simp [h, hb]
  | cons e m ih =>
    obtain ⟨j, w⟩ := e
    rw [insertKey]
    by_cases h1 : k = j
    · subst h1
      rw [if_pos rfl, List.lookup_cons, List.lookup_cons]
      by_cases h : l = k
      · subst h; simp
      · have hb : (l == k) = false := by simpa using h
        simp [h, hb]
    · rw [if_neg h1]
      by_cases h2 : k < j
      · rw [if_pos h2, List.lookup_cons]
        by_cases h : l = k
        · subst h; simp
        · have hb : (l == k) = false := by simpa using h
          simp [h, hb]
      · rw [if_neg h2, List.lookup_cons, ih, List.lookup_cons]
        by_cases h : l = k
        · subst h
          have : (l == j) = false := by simpa using h1
          simp [this]
        · simp [h]

theorem extend_lookup (l : List Char) : ∀ (n m : List (List Char × Json F)), SortedKeys n →
    (extend m n).lookup l = (n.lookup l).or (m.lookup l) := by
  intro n
  induction n with
  | nil => intro m _; simp [extend]
  | cons e n ih =>
    intro m hs
    obtain ⟨k, v⟩ := e
    have hs' := List.pairwise_cons.1 hs
    have : extend m ((k, v) :: n) = extend (insertKey k v m) n := rfl
    rw [this, ih _ hs'.2, insertKey_lookup, List.lookup_cons]
    by_cases h : l = k
    · subst h
      have : n.lookup l = none := by
        rw [List.lookup_eq_none_iff]
        intro p hp
        have := hs'.1 p hp
        rw [bne_iff_ne]
        intro hc
        dsimp only at this
        rw [← hc] at this
        exact List.lt_irrefl _ this
      simp [this]
    · have : (l == k) = false := by simpa using h
      simp [this, h]

theorem insertKey_mem {k : List Char} {v : Json F} {m : List (List Char × Json F)}
    {e : List Char × Json F} (h : e ∈ insertKey k v m) : e.1 = k ∨ e ∈ m := by
  induction m with
  | nil => simp [insertKey] at h; left; rw [h]
  | cons d m ih =>
    obtain ⟨j, w⟩ := d
    rw [insertKey] at h
    split at h
    · rcases List.mem_cons.1 h with h | h
      · left; rw [h]
      · right; exact List.mem_cons_of_mem _ h
    · split at h
      · rcases List.mem_cons.1 h with h | h
        · left; rw [h]
        · right; exact h
      · rcases List.mem_cons.1 h with h | h
        · right; rw [h]; exact List.mem_cons_self
        · exact (ih h).imp (fun x => x) (List.mem_cons_of_mem _)

theorem insertKey_sorted (k : List Char) (v : Json F) : ∀ m : List (List Char × Json F),
    SortedKeys m → SortedKeys (insertKey k v m) := by
  intro m
  induction m with
  | nil => intro _; simp [insertKey, SortedKeys]
  | cons e m ih =>
    obtain ⟨j, w⟩ := e
    intro h
    have h' := List.pairwise_cons.1 h
    rw [insertKey]
    by_cases h1 : k = j
    · subst h1
      rw [if_pos rfl]
      exact List.pairwise_cons.2 ⟨fun a ha => h'.1 a ha, h'.2⟩
    · rw [if_neg h1]
      by_cases h2 : k < j
      · rw [if_pos h2]
        refine List.pairwise_cons.2 ⟨?_, h⟩
        intro a ha
        rcases List.mem_cons.1 ha with ha | ha
        · subst ha; exact h2
        · exact List.lt_trans h2 (h'.1 a ha)
      · rw [if_neg h2]
        refine List.pairwise_cons.2 ⟨?_, ih h'.2⟩
        intro a ha
        rcases insertKey_mem ha with ha | ha
        · rw [ha]
          rcases Std.lt_trichotomy k j with h3 | h3 | h3
          · exact absurd h3 h2
          · exact absurd h3 h1
          · exact h3
        · exact h'.1 a ha

theorem extend_sorted : ∀ (n m : List (List Char × Json F)), SortedKeys m →
    SortedKeys (extend m n) := by
  intro n
  induction n with
  | nil => intro m h; exact h
  | cons e n ih => intro m h; exact ih _ (insertKey_sorted _ _ _ h)

/-! ## Numbers -/

theorem isNumber_iff (v : Json F) : isNumber v = true ↔ IsNum v := by
  cases v <;> simp [isNumber, IsNum]

theorem asU64_none_iff (v : Json F) : asU64 v = none ↔ ¬ IsU64 v := by
  cases v with
  | int i =>
    rw [asU64]
    by_cases h : 0 ≤ i ∧ i < 2 ^ 64
    · rw [if_pos h]
      simp only [reduceCtorEq, false_iff, Classical.not_not]
      exact ⟨i, rfl, h.1, h.2⟩
    · rw [if_neg h]
      simp only [true_iff]
      rintro ⟨j, hj, h1, h2⟩
      cases hj
      exact h ⟨h1, h2⟩
  | _ => simp [asU64, IsU64]

theorem asI64_none_iff (v : Json F) : asI64 v = none ↔ ¬ IsI64 v := by
  cases v with
  | int i =>
    rw [asI64]
    by_cases h : -2 ^ 63 ≤ i ∧ i < 2 ^ 63
    · rw [if_pos h]
      simp only [reduceCtorEq, false_iff, Classical.not_not]
      exact ⟨i, rfl, h.1, h.2⟩
    · rw [if_neg h]
      simp only [true_iff]
      rintro ⟨j, hj, h1, h2⟩
      cases hj
      exact h ⟨h1, h2⟩
  | _ => simp [asI64, IsI64]

theorem asF64_iff (x : Ext F) (v : Json F) (f : F) :
    asF64 x v = some f ↔ FloatOf x.ofInt v f := by
  cases v with
  | int i =>
    simp only [asF64, Option.some.injEq]
    exact ⟨fun h => h ▸ FloatOf.int i, fun h => by cases h; rfl⟩
  | float g =>
    simp only [asF64, Option.some.injEq]
    exact ⟨fun h => h ▸ FloatOf.float g, fun h => by cases h; rfl⟩
  | _ =>
    simp only [asF64, reduceCtorEq, false_iff]
    intro h; cases h

theorem fromF64_panic {o : Option F} : fromF64 o = .panic ↔ o = none := by
  cases o <;> simp [fromF64]

theorem fillLoop_no_panic (x : Ext F) : ∀ (as : List (Json F)) (s : List Char),
    fillLoop x as s ≠ .panic := by
  intro as
  induction as with
  | nil => intro s; simp [fillLoop]
  | cons a as ih =>
    intro s
    rw [fillLoop]
    split
    · exact ih _
    · simp

theorem fillLoop_no_arity (x : Ext F) : ∀ (as : List (Json F)) (s : List Char),
    fillLoop x as s ≠ .err .arity := by
  intro as
  induction as with
  | nil => intro s; simp [fillLoop]
  | cons a as ih =>
    intro s
    rw [fillLoop]
    split
    · exact ih _
    · simp

theorem fillLoop_err (x : Ext F) {v : Json F} (hv : ∀ t, ¬ Written x.floatText v t) :
    ∀ (as : List (Json F)) (s : List Char), v ∈ as → fillLoop x as s = .err .invalidArgument := by
  intro as
  induction as with
  | nil => intro s h; simp at h
  | cons a as ih =>
    intro s h
    rw [fillLoop]
    rcases List.mem_cons.1 h with h | h
    · subst h
      have : scalarText x v = none := by
        cases v with
        | arr l => rfl
        | obj m => rfl
        | bool b => cases b with
          | true => exact absurd Written.true (hv _)
          | false => exact absurd Written.false (hv _)
        | null => exact absurd Written.null (hv _)
        | int i => exact absurd (Written.int i) (hv _)
        | float f => exact absurd (Written.float f) (hv _)
        | str s => exact absurd (Written.str s) (hv _)
      rw [this]
    · split
      · exact ih _ h
      · rfl

end Verif.TmplFuncs
