import Verif.Subst.Props
import Verif.Subst.RefSpec

/-!
# Only references are replaced (C143)
-/

namespace Verif.Subst

open Verif Verif.Scanner

variable (cls : CharClass)

/-! ## One reference -/

theorem take_true {s s' : Scanner} {c : Char} (h : take s c = (true, s')) : rest s = c :: rest s' := by
  unfold take at h
  split at h
  · rename_i ch hch
    split at h
    · rename_i he
      injection h with _ h
      subst h
      rw [beq_iff_eq] at he
      subst he
      obtain ⟨hl, hv⟩ := List.getElem?_eq_some_iff.1 hch
      unfold rest
      rw [List.drop_eq_getElem_cons hl, hv]
    · cases h
  · cases h

theorem take_false {s s' : Scanner} {c : Char} (h : take s c = (false, s')) : s' = s := by
  unfold take at h
  split at h
  · split at h
    · cases h
    · injection h with _ h; exact h.symm
  · injection h with _ h; exact h.symm

theorem popWhile_split {p : Char → Bool} {s s' : Scanner} {w : Str} (h : popWhile p s = (w, s')) :
    rest s = w ++ rest s' ∧ ∀ c ∈ w, p c = true := by
  rw [popWhile_eq] at h
  injection h with h1 h2
  subst h1 h2
  refine ⟨?_, fun c hc => ?_⟩
  · have : rest { s with pos := s.pos + ((rest s).takeWhile p).length } =
        (rest s).drop ((rest s).takeWhile p).length := by
      unfold rest
      rw [List.drop_drop]
    rw [this]
    conv => lhs; rw [← List.takeWhile_append_dropWhile (p := p) (l := rest s)]
    congr 1
    conv => rhs; rw [← List.takeWhile_append_dropWhile (p := p) (l := rest s)]
    generalize hw : (rest s).takeWhile p = w
    have : ((w ++ (rest s).dropWhile p).takeWhile p) = w := by
      rw [← hw, List.takeWhile_append_dropWhile]
    rw [this, List.drop_left]
  · exact List.all_eq_true.1 (List.all_takeWhile (l := rest s) (p := p)) c hc

theorem accessor_sound {s s' : Scanner} {n : Str} (h : variableNameAccessor cls s = (.ok n, s')) :
    ∃ acc r, Spec.Access cls n acc ∧ rest s = acc ++ r := by
  unfold variableNameAccessor at h
  dsimp only at h
  have hs : rest (savePos s) = rest s := rfl
  split at h
  · rename_i s1 h1
    have hr := take_true h1
    split at h
    · rename_i n' s2 h2
      injection h with h3 _
      injection h3 with h3
      subst h3
      unfold identifier at h2
      split at h2
      · rename_i ch hch
        split at h2
        · rename_i hst
          dsimp only at h2
          injection h2 with h3 _
          injection h3 with h3
          subst h3
          have hp : (pop s1).1 = some ch ∧ rest s1 = ch :: rest (pop s1).2 := by
            unfold peek at hch
            unfold pop
            rw [hch]
            refine ⟨rfl, ?_⟩
            obtain ⟨hl, hv⟩ := List.getElem?_eq_some_iff.1 hch
            unfold rest
            rw [List.drop_eq_getElem_cons hl, hv]
          obtain ⟨h4, h5⟩ := popWhile_split (p := isIdentChar cls) (s := (pop s1).2) rfl
          refine ⟨_, rest (popWhile (isIdentChar cls) (pop s1).2).2,
            Or.inl ⟨rfl, ch, _, rfl, ?_, ?_⟩, ?_⟩
          · unfold isIdentStart at hst
            simpa using hst
          · intro d hd
            have := h5 d hd
            unfold isIdentChar at this
            simpa [or_assoc] using this
          · rw [← hs, hr, hp.2, h4]
            simp
        · cases h2
      · cases h2
    · cases h
  · rename_i s1 h1
    have he := take_false h1
    subst he
    split at h
    · split at h
      · rename_i n' s2 h2
        injection h with h3 _
        injection h3 with h3
        subst h3
        unfold stringLiteralIdentifier at h2
        split at h2
        · cases h2
        · rename_i t1 h3
          split at h2
          · cases h2
          · rename_i t2 h4
            split at h2
            rename_i w t3 h5
            split at h2
            · cases h2
            · rename_i t4 h6
              split at h2
              · cases h2
              · rename_i t5 h7
                injection h2 with h8 _
                injection h8 with h8
                subst h8
                obtain ⟨h9, h10⟩ := popWhile_split h5
                refine ⟨_, rest t5, Or.inr ⟨rfl, ?_⟩, ?_⟩
                · intro d hd
                  have := h10 d hd
                  unfold isLitIdentChar isIdentChar at this
                  simpa [or_assoc] using this
                · rw [← hs, take_true h3, take_true h4, h9, take_true h6, take_true h7]
                  simp
      · cases h
    · cases h

theorem parse_sound {t : Str} {n : Str}
    (h : parseSubstitution cls (Scanner.new ("variables".toList ++ t)) = .ok ⟨n⟩) :
    ∃ acc r, Spec.Access cls n acc ∧ t = acc ++ r := by
  unfold parseSubstitution at h
  have e : "variables".toList ++ t = 'v' :: ("ariables".toList ++ t) := rfl
  dsimp only at h
  rw [e, consumeWhitespace_v, ← e, keyword_ok] at h
  dsimp only at h
  split at h
  · rename_i n' s2 h2
    injection h with h
    injection h with h
    subst h
    obtain ⟨acc, r, h3, h4⟩ := accessor_sound cls h2
    exact ⟨acc, r, h3, h4⟩
  · cases h

/-! ## The loop -/

/-- The text between the last opener and the current position agrees with what has been collected as a
possible reference, at least up to the first dollar sign. -/
def Collected (w sub : Str) : Prop := w = sub ∨ ∃ p w' sub', w = p ++ '$' :: w' ∧ sub = p ++ '$' :: sub'

/-- What is known after the text `done`. -/
structure Inv (done : Str) (st : State) : Prop where
  prev : done = [] ∧ st.prevChar = ' ' ∨ ∃ d, done = d ++ [st.prevChar]
  refs : ∀ r, Piece.sub r ∈ st.parsed → Spec.WrittenLoosely cls done r.name
  out : st.inPossibleSub = false → st.potentialSub = []
  inside : st.inPossibleSub = true → ∃ a w, done = a ++ "${".toList ++ w ∧ Collected w st.potentialSub

theorem written_append {s name : Str} (t : Str) (h : Spec.WrittenLoosely cls s name) :
    Spec.WrittenLoosely cls (s ++ t) name := by
  obtain ⟨b, acc, j, a, h1, h2⟩ := h
  exact ⟨b, acc, j, a ++ t, h1, by rw [h2]; simp⟩

theorem collected_snoc {w sub : Str} (c : Char) (h : Collected w sub) :
    Collected (w ++ [c]) (sub ++ [c]) := by
  rcases h with rfl | ⟨p, w', s', rfl, rfl⟩
  · exact Or.inl rfl
  · exact Or.inr ⟨p, w' ++ [c], s' ++ [c], by simp, by simp⟩

/-- A prefix without dollar signs of what was collected is in the text. -/
theorem collected_prefix {w sub x y : Str} (h : Collected w sub) (hs : sub = x ++ y) (hx : '$' ∉ x) :
    ∃ z, w = x ++ z := by
  rcases h with rfl | ⟨p, w', s', rfl, rfl⟩
  · exact ⟨y, hs⟩
  · rcases List.append_eq_append_iff.1 hs with ⟨a, h1, h2⟩ | ⟨a, h1, h2⟩
    · cases a with
      | nil =>
        refine ⟨'$' :: w', ?_⟩
        rw [h1]; simp
      | cons c a =>
        injection h2 with h3 _
        subst h3
        exact absurd (by rw [h1]; simp) hx
    · exact ⟨a ++ '$' :: w', by rw [h1]; simp⟩

theorem access_no_dollar (hd : cls.alphanumeric '$' = false) {n acc : Str} (h : Spec.Access cls n acc) :
    '$' ∉ acc := by
  have hne : ∀ d, cls.alphanumeric d = true ∨ d = '_' ∨ d = '-' ∨ d = '.' → '$' ≠ d := by
    rintro d (h | rfl | rfl | rfl)
    · rintro rfl; rw [hd] at h; cases h
    · decide
    · decide
    · decide
  rcases h with ⟨rfl, c, cs, rfl, hc, hcs⟩ | ⟨rfl, hn⟩
  · rw [List.mem_cons, List.mem_cons, not_or, not_or]
    refine ⟨by decide, ?_, fun hm => ?_⟩
    · rcases hc with hc | rfl
      · exact hne c (Or.inl (cls.alphabetic_alphanumeric c hc))
      · decide
    · refine hne '$' ?_ rfl
      rcases hcs _ hm with h | h | h
      · exact Or.inl h
      · exact Or.inr (Or.inl h)
      · exact Or.inr (Or.inr (Or.inl h))
  · simp only [List.mem_append, List.mem_cons, List.cons_append, not_or, List.not_mem_nil,
      not_false_eq_true, and_true]
    refine ⟨by decide, by decide, fun hm => hne '$' (hn _ hm) rfl, by decide, by decide⟩

theorem step_inv (hd : cls.alphanumeric '$' = false) {done : Str} {st st' : State} {c : Char}
    (hi : Inv cls done st) (h : step cls st c = .ok st') : Inv cls (done ++ [c]) st' := by
  unfold step at h
  -- after the check for an opener
  have hopen : ∀ b st1, checkOpenSubBracket st c = .ok (b, st1) →
      st1.prevChar = st.prevChar ∧ st1.potentialSub = st.potentialSub ∧
      (∀ r, Piece.sub r ∈ st1.parsed → Piece.sub r ∈ st.parsed) ∧
      (b = false → st1.inPossibleSub = st.inPossibleSub) ∧
      (b = true → st1.inPossibleSub = true ∧ st.prevChar = '$' ∧ c = '{') := by
    intro b st1 h1
    unfold checkOpenSubBracket at h1
    split at h1
    · rename_i hc
      simp only [Bool.and_eq_true, beq_iff_eq] at hc
      split at h1
      · cases h1
      · dsimp only at h1
        split at h1
        · injection h1 with h1; injection h1 with h1 h2; subst h1 h2
          exact ⟨rfl, rfl, fun r hr => hr, nofun, fun _ => ⟨rfl, hc.1.1, hc.1.2⟩⟩
        · injection h1 with h1; injection h1 with h1 h2; subst h1 h2
          refine ⟨rfl, rfl, fun r hr => ?_, nofun, fun _ => ⟨rfl, hc.1.1, hc.1.2⟩⟩
          simpa using hr
    · injection h1 with h1; injection h1 with h1 h2; subst h1 h2
      exact ⟨rfl, rfl, fun r hr => hr, fun _ => rfl, nofun⟩
  cases ho : checkOpenSubBracket st c with
  | err e => rw [ho] at h; cases h
  | panic => rw [ho] at h; cases h
  | ok r0 =>
    obtain ⟨b, st1⟩ := r0
    obtain ⟨hp, hsub, hpar, hb0, hb1⟩ := hopen b st1 ho
    rw [ho] at h
    simp only [Outcome.bind_ok] at h
    have hlit : (checkStringLiteral st1 c).prevChar = st1.prevChar ∧
        (checkStringLiteral st1 c).potentialSub = st1.potentialSub ∧
        (checkStringLiteral st1 c).parsed = st1.parsed ∧
        (checkStringLiteral st1 c).inPossibleSub = st1.inPossibleSub := by
      unfold checkStringLiteral
      split <;> exact ⟨rfl, rfl, rfl, rfl⟩
    revert h hlit
    generalize checkStringLiteral st1 c = st2
    intro h ⟨hp2, hsub2, hpar2, hin2⟩
    -- what has been collected, with the new character
    have hcol : st2.inPossibleSub = true → ∃ a w, done ++ [c] = a ++ "${".toList ++ w ∧
        Collected w (if b then st2.potentialSub else st2.potentialSub ++ [c]) ∧
        (b = false → ∃ w0, done = a ++ "${".toList ++ w0 ∧ Collected w0 st2.potentialSub ∧
          w = w0 ++ [c]) := by
      intro hin
      rw [hin2] at hin
      rw [hsub2, hsub]
      cases b with
      | false =>
        rw [hb0 rfl] at hin
        obtain ⟨a, w, h1, h2⟩ := hi.inside hin
        exact ⟨a, w ++ [c], by rw [h1]; simp, collected_snoc c h2, fun _ => ⟨w, h1, h2, rfl⟩⟩
      | true =>
        obtain ⟨_, hp', hc⟩ := hb1 rfl
        subst hc
        have hdone : ∃ d, done = d ++ ['$'] := by
          rcases hi.prev with ⟨_, h2⟩ | ⟨d, h1⟩
          · rw [hp'] at h2; exact absurd h2 (by decide)
          · rw [hp'] at h1; exact ⟨d, h1⟩
        obtain ⟨d, hdd⟩ := hdone
        cases hst : st.inPossibleSub with
        | false =>
          refine ⟨d, [], by rw [hdd]; simp, ?_, nofun⟩
          rw [if_pos rfl, hi.out hst]
          exact Or.inl rfl
        | true =>
          obtain ⟨a, w, h1, h2⟩ := hi.inside hst
          refine ⟨a, w ++ ['{'], by rw [h1]; simp, ?_, nofun⟩
          rw [if_pos rfl]
          have hw : ∃ w0, w = w0 ++ ['$'] := by
            rcases List.eq_nil_or_concat w with rfl | ⟨w0, x, rfl⟩
            · rw [hdd] at h1
              have := congrArg List.getLast? h1
              simp at this
            · refine ⟨w0, ?_⟩
              rw [hdd, List.concat_eq_append, ← List.append_assoc] at h1
              have := List.append_inj' h1 rfl
              rw [List.concat_eq_append, this.2]
          obtain ⟨w0, rfl⟩ := hw
          rcases h2 with h2 | ⟨p, w', s', h2, h3⟩
          · exact Or.inr ⟨w0, ['{'], [], by simp, by rw [← h2]⟩
          · exact Or.inr ⟨p, w' ++ ['{'], s', by rw [h2]; simp, h3⟩
    have hrefs : ∀ r, Piece.sub r ∈ st2.parsed → Spec.WrittenLoosely cls (done ++ [c]) r.name := by
      intro r hr
      rw [hpar2] at hr
      exact written_append cls [c] (hi.refs r (hpar r hr))
    have hout : st2.inPossibleSub = false → st2.potentialSub = [] := by
      intro hin
      rw [hsub2, hsub]
      apply hi.out
      cases b with
      | false => rw [← hb0 rfl, ← hin2]; exact hin
      | true => rw [hin2, (hb1 rfl).1] at hin; cases hin
    -- the end of the step, for states that keep what was collected
    have fin : ∀ st3 : State, st3.prevChar = c → st3.potentialSub = st2.potentialSub →
        st3.inPossibleSub = st2.inPossibleSub →
        (∀ r, Piece.sub r ∈ st3.parsed → Piece.sub r ∈ st2.parsed) →
        (if (st3.inPossibleSub && !b) = true then
          (pure { st3 with potentialSub := st3.potentialSub ++ [c] } : Outcome ParseError State)
        else pure st3) = .ok st' → Inv cls (done ++ [c]) st' := by
      intro st3 h1 h2 h3 h4 h5
      split at h5
      · rename_i hc
        rw [Bool.and_eq_true] at hc
        injection h5 with h5
        subst h5
        refine ⟨Or.inr ⟨done, by rw [← h1]⟩, fun r hr => hrefs r (h4 r hr), ?_, ?_⟩
        · intro hf
          rw [hc.1] at hf
          cases hf
        · intro _
          obtain ⟨a, w, h6, h7, _⟩ := hcol (by rw [← h3]; exact hc.1)
          have hb : b = false := by simpa using hc.2
          rw [hb, if_neg (by decide)] at h7
          exact ⟨a, w, h6, by rw [h2]; exact h7⟩
      · rename_i hc
        injection h5 with h5
        subst h5
        refine ⟨Or.inr ⟨done, by rw [← h1]⟩, fun r hr => hrefs r (h4 r hr), ?_, ?_⟩
        · intro hf
          rw [h2]
          exact hout (by rw [← h3]; exact hf)
        · intro hin
          obtain ⟨a, w, h6, h7, _⟩ := hcol (by rw [← h3]; exact hin)
          have hb : b = true := by
            rw [hin] at hc
            simpa using hc
          rw [hb, if_pos rfl] at h7
          exact ⟨a, w, h6, by rw [h2]; exact h7⟩
    unfold checkCloseSubBracket at h
    dsimp only at h
    by_cases hcl1 : (c == '}' && st2.inPossibleSub && !st2.inStringLiteral &&
        "variables".toList.isPrefixOf st2.potentialSub) = true
    · rw [if_pos hcl1] at h
      simp only [Bool.and_eq_true, beq_iff_eq] at hcl1
      cases hps : parseSubstitution cls (Scanner.new st2.potentialSub) with
      | error e => rw [hps] at h; cases h
      | ok r =>
        rw [hps] at h
        simp only [Outcome.bind_ok, afterClose, Bool.false_and] at h
        injection h with h
        subst h
        have hc : c = '}' := hcl1.1.1.1
        have hb : b = false := by
          cases b with
          | false => rfl
          | true =>
            have := (hb1 rfl).2.2
            rw [hc] at this
            exact absurd this (by decide)
        obtain ⟨a, w, h6, _, h8⟩ := hcol hcl1.1.1.2
        obtain ⟨w0, h9, h10, _⟩ := h8 hb
        obtain ⟨t, ht⟩ := List.isPrefixOf_iff_prefix.1 hcl1.2
        rw [← ht] at hps
        obtain ⟨acc, r', h11, h12⟩ := parse_sound cls hps
        obtain ⟨z, hz⟩ := collected_prefix (x := "variables".toList ++ acc) (y := r') h10
          (by rw [← ht, h12]; simp) (by
            rw [List.mem_append, not_or]
            exact ⟨by decide, access_no_dollar cls hd h11⟩)
        refine ⟨Or.inr ⟨done, rfl⟩, ?_, fun _ => rfl, nofun⟩
        intro r0 hr0
        dsimp only at hr0
        rw [List.mem_append, List.mem_singleton] at hr0
        rcases hr0 with hr0 | hr0
        · exact hrefs r0 hr0
        · injection hr0 with hr0
          subst hr0
          refine ⟨a, acc, z, [], h11, ?_⟩
          rw [h9, hz, hc]
          simp
    · rw [if_neg hcl1] at h
      by_cases hcl : (c == '}' && st2.inPossibleSub && !st2.inStringLiteral) = true
      · rw [if_pos hcl] at h
        simp only [Outcome.bind_ok] at h
        refine fin _ ?_ ?_ ?_ ?_ h
        all_goals
          unfold afterClose
          dsimp only
          split
        · rfl
        · rfl
        · rfl
        · rfl
        · rfl
        · rfl
        · intro r hr
          dsimp only at hr
          rw [List.mem_append, List.mem_singleton] at hr
          rcases hr with hr | hr
          · exact List.dropLast_subset _ hr
          · cases hr
        · exact fun r hr => hr
      · rw [if_neg hcl] at h
        simp only [Outcome.bind_ok] at h
        exact fin (afterClose .not { st2 with prevChar := c } c) rfl rfl rfl (fun r hr => hr) h

theorem run_inv (hd : cls.alphanumeric '$' = false) (s : Str) : ∀ {done : Str} {st st' : State},
    Inv cls done st → run cls st s = .ok st' → Inv cls (done ++ s) st' := by
  induction s with
  | nil =>
    intro done st st' hi h
    injection h with h
    subst h
    rw [List.append_nil]
    exact hi
  | cons c s ih =>
    intro done st st' hi h
    rw [run] at h
    cases hs : step cls st c with
    | ok st1 =>
      rw [hs, Outcome.bind_ok] at h
      have := ih (step_inv cls hd hi hs) h
      rw [List.append_assoc] at this
      exact this
    | err e => rw [hs] at h; cases h
    | panic => rw [hs] at h; cases h

theorem concat_subs (ps : List Piece) : ∀ (last : Str) (r : VarRef),
    Piece.sub r ∈ concatAdjacent last ps → Piece.sub r ∈ ps := by
  induction ps with
  | nil =>
    intro last r h
    unfold concatAdjacent at h
    split at h
    · cases h
    · simp at h
  | cons p ps ih =>
    intro last r h
    cases p with
    | str s => exact List.mem_cons_of_mem _ (ih _ r h)
    | sub q =>
      rw [concatAdjacent, List.mem_append, List.mem_cons] at h
      rcases h with h | h | h
      · split at h
        · cases h
        · simp at h
      · rw [h]; exact List.mem_cons_self
      · exact List.mem_cons_of_mem _ (ih _ r h)

/-! ## C143 -/

/-- **C143, full statement.** A reference is found in a text only if it is written there. -/
def FullOnlyReferences : Prop :=
  ∀ (cls : CharClass) (s : Str) (ps : List Piece) (r : VarRef), cls.alphanumeric '$' = false →
    parseSubstitutions cls s = .ok ps → Piece.sub r ∈ ps → Spec.Written cls s r.name

/-- **C143, partial.** A reference is found in a text only if it is written there, possibly with
something between the name and the closing brace, which is then ignored. Missing: that there is nothing
between them. -/
theorem only_references_partial (cls : CharClass) (s : Str) (ps : List Piece) (r : VarRef)
    (hd : cls.alphanumeric '$' = false) (h : parseSubstitutions cls s = .ok ps)
    (hr : Piece.sub r ∈ ps) : Spec.WrittenLoosely cls s r.name := by
  unfold parseSubstitutions at h
  split at h
  · injection h with h
    subst h
    simp at hr
  · cases hrun : run cls State.init s with
    | err e => rw [hrun] at h; cases h
    | panic => rw [hrun] at h; cases h
    | ok st =>
      rw [hrun, Outcome.bind_ok] at h
      injection h with h
      subst h
      have hi := run_inv cls hd s (done := [])
        ⟨Or.inl ⟨rfl, rfl⟩, fun r hr => (List.not_mem_nil hr).elim, fun _ => rfl,
          fun hf => Bool.noConfusion hf⟩ hrun
      apply hi.refs
      unfold finish at hr
      have := concat_subs _ _ _ hr
      split at this
      · exact this
      · simpa using this

/-- What follows the name of a variable, up to the closing brace, is dropped. -/
theorem junk_dropped (cls : CharClass) (n : Str) (c : Char) (junk : Str) (hn : Spec.DotName cls n)
    (hc : isIdentChar cls c = false) (hj : ∀ d ∈ c :: junk, d ≠ '{' ∧ d ≠ '"' ∧ d ≠ '}') :
    parseSubstitutions cls ("${variables.".toList ++ n ++ (c :: junk) ++ ['}']) = .ok [.sub ⟨n⟩] := by
  have hchars := dot_chars cls n hn
  have hparse : parseSubstitution cls (Scanner.new ("variables".toList ++ '.' :: (n ++ c :: junk))) =
      .ok ⟨n⟩ := by
    obtain ⟨c0, cs, rfl, hc0, hcs⟩ := hn
    have hc' : isIdentStart cls c0 = true := by
      unfold isIdentStart; rcases hc0 with h | h <;> simp [h]
    have hw := takeWhile_stop (isIdentChar cls) cs c junk (fun d hd => identChar_of cls (hcs d hd)) hc
    have e : "variables".toList ++ '.' :: (c0 :: cs ++ c :: junk) =
      'v' :: ("ariables".toList ++ '.' :: (c0 :: cs ++ c :: junk)) := rfl
    unfold parseSubstitution
    simp only
    rw [e, consumeWhitespace_v, ← e, keyword_ok]
    simp only
    unfold variableNameAccessor
    simp [savePos, take, identifier, peek, pop, popWhile_eq, rest, hc', hw]
  have e : "${variables.".toList ++ n ++ (c :: junk) ++ ['}'] =
      '$' :: '{' :: (("variables".toList ++ '.' :: (n ++ c :: junk)) ++ ['}']) := by
    have : "${variables.".toList = '$' :: '{' :: ("variables".toList ++ ['.']) := by decide
    rw [this]
    simp only [List.cons_append, List.append_assoc, List.nil_append]
  rw [e]
  have ho : containsOpener
      ('$' :: '{' :: (("variables".toList ++ '.' :: (n ++ c :: junk)) ++ ['}'])) = true :=
    (containsOpener_iff _).2 ⟨[], _, rfl⟩
  have hrun : run cls State.init
      ('$' :: '{' :: (("variables".toList ++ '.' :: (n ++ c :: junk)) ++ ['}'])) =
      .ok (outer [.sub ⟨n⟩] [] '}') := by
    rw [init_eq]
    simp only [run]
    rw [step_outer cls [] [] ' ' '$' (by simp)]
    simp only [Outcome.bind_ok]
    rw [step_open]
    simp only [Outcome.bind_ok]
    rw [run_append, run_inner]
    · simp only [Outcome.bind, run]
      rw [List.nil_append (as := "variables".toList ++ '.' :: (n ++ c :: junk)),
        step_close cls _ ("variables".toList ++ '.' :: (n ++ c :: junk)) _ _ n
        (by simp) hparse]
      simp
    · intro d hd
      rw [List.mem_append, List.mem_cons, List.mem_append] at hd
      rcases hd with hd | rfl | hd | hd
      · have : ∀ d ∈ "variables".toList, d ≠ '{' ∧ d ≠ '"' ∧ d ≠ '}' := by decide
        exact this d hd
      · decide
      · have := hchars d hd
        exact ⟨this.1, this.2.1, this.2.2.1⟩
      · exact hj d hd
  unfold parseSubstitutions
  rw [ho, hrun]
  rfl

/-- **C143 is false of the code.** -/
theorem only_references_violated : ¬ FullOnlyReferences := by
  intro h
  have hp : parseSubstitutions asciiClass "${variables.a.b + 1}".toList = .ok [.sub ⟨['a']⟩] := by
    exact junk_dropped asciiClass ['a'] '.' ['b', ' ', '+', ' ', '1'] ⟨'a', [], rfl, by decide, by simp⟩
      (by decide) (by decide)
  obtain ⟨b, acc, a, hacc, hs⟩ := h asciiClass _ _ ⟨['a']⟩ (by decide) hp (by simp)
  have hsuf : acc ++ ['}'] = ".a}".toList ∨ acc ++ ['}'] = "[\"a\"]}".toList := by
    rcases hacc with ⟨rfl, _⟩ | ⟨rfl, _⟩
    · exact Or.inl rfl
    · exact Or.inr rfl
  have hin : ∃ u v, "${variables.a.b + 1}".toList = u ++ (acc ++ ['}']) ++ v :=
    ⟨b ++ "${variables".toList, a, by rw [hs]; simp⟩
  obtain ⟨u, v, hu⟩ := hin
  have hlen := congrArg List.length hu
  have hul : u.length ≤ 20 := by
    simp only [List.length_append] at hlen
    have : "${variables.a.b + 1}".toList.length = 20 := by decide
    omega
  have hkey : ∀ k < 21, (".a}".toList.isPrefixOf ("${variables.a.b + 1}".toList.drop k) = false) ∧
      ("[\"a\"]}".toList.isPrefixOf ("${variables.a.b + 1}".toList.drop k) = false) := by decide
  have hdrop : "${variables.a.b + 1}".toList.drop u.length = (acc ++ ['}']) ++ v := by
    rw [hu, List.append_assoc, List.drop_left]
  have hk := hkey u.length (by omega)
  rw [hdrop] at hk
  rcases hsuf with hsuf | hsuf
  · rw [hsuf] at hk
    exact absurd hk.1 (by
      rw [Bool.not_eq_false]
      exact List.isPrefixOf_iff_prefix.2 (List.prefix_append _ _))
  · rw [hsuf] at hk
    exact absurd hk.2 (by
      rw [Bool.not_eq_false]
      exact List.isPrefixOf_iff_prefix.2 (List.prefix_append _ _))

example : ∃ r, Piece.sub r ∈ Spec.expected exampleTemplate ∧
    parseSubstitutions asciiClass (Spec.render exampleTemplate) = .ok (Spec.expected exampleTemplate) :=
  ⟨⟨"a_1".toList⟩, by decide, parse_render asciiClass _ exampleTemplate_wf⟩

end Verif.Subst
