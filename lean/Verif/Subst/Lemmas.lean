import Verif.Subst.Spec
import Verif.Scanner.Lemmas

namespace Verif.Subst

open Verif Verif.Scanner

variable (cls : CharClass)

/-! ## Parsing one reference -/

theorem keyword_scan (tail : Str) :
    scan (savePos (Scanner.new ("variables".toList ++ tail))) variablesKeywordCb =
      (.ok (some ()), { pos := 9, chars := "variables".toList ++ tail, startPosStack := [0] }) := by
  have e : "variables".toList ++ tail =
      'v' :: 'a' :: 'r' :: 'i' :: 'a' :: 'b' :: 'l' :: 'e' :: 's' :: tail := by simp
  rw [e]
  simp only [scan, savePos, Scanner.new]
  rw [scanLoop_some _ _ _ _ _ 'v' (by simp)]; simp [variablesKeywordCb]
  rw [scanLoop_some _ _ _ _ _ 'a' (by simp)]; simp [variablesKeywordCb]
  rw [scanLoop_some _ _ _ _ _ 'r' (by simp)]; simp [variablesKeywordCb]
  rw [scanLoop_some _ _ _ _ _ 'i' (by simp)]; simp [variablesKeywordCb]
  rw [scanLoop_some _ _ _ _ _ 'a' (by simp)]; simp [variablesKeywordCb]
  rw [scanLoop_some _ _ _ _ _ 'b' (by simp)]; simp [variablesKeywordCb]
  rw [scanLoop_some _ _ _ _ _ 'l' (by simp)]; simp [variablesKeywordCb]
  rw [scanLoop_some _ _ _ _ _ 'e' (by simp)]; simp [variablesKeywordCb]
  rw [scanLoop_some _ _ _ _ _ 's' (by simp)]; simp [variablesKeywordCb]

theorem keyword_ok (tail : Str) :
    variablesKeyword (Scanner.new ("variables".toList ++ tail)) =
      (.ok (), { pos := 9, chars := "variables".toList ++ tail, startPosStack := [] }) := by
  simp only [variablesKeyword, keyword_scan, popPos, List.tail_cons]

theorem consumeWhitespace_v (s : Str) :
    consumeWhitespace cls (Scanner.new ('v' :: s)) = Scanner.new ('v' :: s) := by
  unfold consumeWhitespace
  rw [popWhile_eq]
  simp [Scanner.new, rest, cls.v_not_space]

theorem takeWhile_all {α : Type} (p : α → Bool) (l : List α) (h : ∀ x ∈ l, p x = true) :
    l.takeWhile p = l := by
  induction l with
  | nil => rfl
  | cons a l ih => simp [h a, ih (fun x hx => h x (by simp [hx]))]

theorem takeWhile_stop {α : Type} (p : α → Bool) (l : List α) (a : α) (m : List α)
    (h : ∀ x ∈ l, p x = true) (ha : p a = false) : (l ++ a :: m).takeWhile p = l := by
  induction l with
  | nil => simp [ha]
  | cons b l ih => simp [h b, ih (fun x hx => h x (by simp [hx]))]

theorem identChar_of {d : Char} (h : cls.alphanumeric d = true ∨ d = '_' ∨ d = '-') :
    isIdentChar cls d = true := by
  unfold isIdentChar
  rcases h with h | h | h <;> simp [h]

theorem litIdentChar_of {d : Char}
    (h : cls.alphanumeric d = true ∨ d = '_' ∨ d = '-' ∨ d = '.') :
    isLitIdentChar cls d = true := by
  unfold isLitIdentChar isIdentChar
  rcases h with h | h | h | h <;> simp [h]

theorem parse_dot (n : Str) (h : Spec.DotName cls n) :
    parseSubstitution cls (Scanner.new ("variables".toList ++ '.' :: n)) = .ok ⟨n⟩ := by
  obtain ⟨c, cs, rfl, hc, hcs⟩ := h
  have hc' : isIdentStart cls c = true := by
    unfold isIdentStart; rcases hc with h | h <;> simp [h]
  have hw := takeWhile_all (isIdentChar cls) cs (fun d hd => identChar_of cls (hcs d hd))
  have e : "variables".toList ++ '.' :: c :: cs = 'v' :: ("ariables".toList ++ '.' :: c :: cs) := rfl
  unfold parseSubstitution
  simp only
  rw [e, consumeWhitespace_v, ← e, keyword_ok]
  simp only
  unfold variableNameAccessor
  simp [savePos, take, identifier, peek, pop, popWhile_eq, rest, hc', hw]

theorem quote_not_lit : isLitIdentChar cls '"' = false := by
  simp [isLitIdentChar, isIdentChar, cls.quote_not]

theorem parse_idx (n : Str) (h : Spec.IdxName cls n) :
    parseSubstitution cls (Scanner.new ("variables".toList ++ '[' :: '"' :: n ++ ['"', ']'])) =
      .ok ⟨n⟩ := by
  have hw : (n ++ ['"', ']']).takeWhile (isLitIdentChar cls) = n :=
    takeWhile_stop _ n '"' [']'] (fun d hd => litIdentChar_of cls (h d hd)) (quote_not_lit cls)
  have e : "variables".toList ++ '[' :: '"' :: n ++ ['"', ']'] =
    'v' :: ("ariables".toList ++ '[' :: '"' :: (n ++ ['"', ']'])) := rfl
  unfold parseSubstitution
  simp only
  rw [e, consumeWhitespace_v, ← e]
  rw [show "variables".toList ++ '[' :: '"' :: n ++ ['"', ']'] =
    "variables".toList ++ ('[' :: '"' :: (n ++ ['"', ']'])) from rfl, keyword_ok]
  simp only
  unfold variableNameAccessor
  have h1 : (n ++ ['"', ']'])[n.length]? = some '"' := by simp
  have h2 : (n ++ ['"', ']'])[n.length + 1]? = some ']' := by simp
  have h3 : ∀ k, ("variables".toList ++ '[' :: '"' :: (n ++ ['"', ']']))[11 + k]? =
      (n ++ ['"', ']'])[k]? := by
    intro k
    rw [show 11 + k = k + 11 by omega]
    rfl
  have h4 := h3 n.length
  have h5 := h3 (n.length + 1)
  rw [h1] at h4
  rw [h2] at h5
  simp [savePos, take, stringLiteralIdentifier, peek, popWhile_eq, rest, hw] at h4 h5 ⊢
  simp [Nat.add_assoc, h4] at h5 ⊢
  simp [h5]

/-! ## The character loop -/

/-- State between template elements. -/
def outer (parsed : List Piece) (buf : Str) (prev : Char) : State :=
  { parsed := parsed, inPossibleSub := false, inStringLiteral := false,
    potentialSub := [], potentialNonSubStr := buf, prevChar := prev }

/-- State inside `${ … }`. -/
def inner (parsed : List Piece) (sub buf : Str) (lit : Bool) (prev : Char) : State :=
  { parsed := parsed, inPossibleSub := true, inStringLiteral := lit,
    potentialSub := sub, potentialNonSubStr := buf, prevChar := prev }

theorem run_append (st : State) (a b : Str) :
    run cls st (a ++ b) = (run cls st a).bind (fun st => run cls st b) := by
  induction a generalizing st with
  | nil => rfl
  | cons c a ih =>
    simp only [List.cons_append, run]
    cases step cls st c with
    | ok s => simp [ih]
    | err e => rfl
    | panic => rfl

theorem step_outer (parsed : List Piece) (buf : Str) (prev c : Char)
    (h : ¬ (prev = '$' ∧ c = '{')) :
    step cls (outer parsed buf prev) c = .ok (outer parsed (buf ++ [c]) c) := by
  have h1 : (prev == '$' && c == '{') = false := by
    simp; intro a b; exact h ⟨a, b⟩
  simp [step, outer, checkOpenSubBracket, h1, checkStringLiteral, checkCloseSubBracket, afterClose]

/-- Literal text without the opener goes to the buffer. -/
theorem run_lit (parsed : List Piece) (buf : Str) (prev : Char) (s : Str)
    (h : ¬ Spec.HasOpener (prev :: s)) :
    ∃ prev', (s = [] → prev' = prev) ∧ (s ≠ [] → s.getLast? = some prev') ∧
      run cls (outer parsed buf prev) s = .ok (outer parsed (buf ++ s) prev') := by
  induction s generalizing buf prev with
  | nil => exact ⟨prev, by simp, by simp, by simp [run]⟩
  | cons c s ih =>
    have h1 : ¬ (prev = '$' ∧ c = '{') := by
      rintro ⟨rfl, rfl⟩
      exact h ⟨[], s, rfl⟩
    have h2 : ¬ Spec.HasOpener (c :: s) := by
      rintro ⟨a, b, hab⟩
      exact h ⟨prev :: a, b, by simp [hab]⟩
    obtain ⟨p, hp1, hp2, hp3⟩ := ih (buf ++ [c]) c h2
    refine ⟨p, by simp, ?_, ?_⟩
    · intro _
      by_cases hs : s = []
      · subst hs; simp [hp1 rfl]
      · rw [List.getLast?_cons, hp2 hs]; rfl
    · simp [run, step_outer cls parsed buf prev c h1, hp3]

theorem step_open (parsed : List Piece) (buf : Str) :
    step cls (outer parsed (buf ++ ['$']) '$') '{' =
      .ok (inner (parsed ++ if buf = [] then [] else [.str buf]) [] (buf ++ ['$', '{']) false
        '{') := by
  by_cases hb : buf = []
  · subst hb
    simp [step, outer, inner, checkOpenSubBracket, checkStringLiteral, checkCloseSubBracket,
      afterClose]
  · simp [step, outer, inner, checkOpenSubBracket, checkStringLiteral, checkCloseSubBracket,
      afterClose, hb]

/-- Inside a substitution an ordinary character is appended to both buffers. -/
theorem step_inner (parsed : List Piece) (sub buf : Str) (lit : Bool) (prev c : Char)
    (h1 : c ≠ '{') (h2 : c ≠ '"') (h3 : c ≠ '}' ∨ lit = true) :
    step cls (inner parsed sub buf lit prev) c =
      .ok (inner parsed (sub ++ [c]) (buf ++ [c]) lit c) := by
  rcases h3 with h3 | h3
  · simp [step, inner, checkOpenSubBracket, checkStringLiteral, checkCloseSubBracket, afterClose,
      h1, h2, h3]
  · subst h3
    simp [step, inner, checkOpenSubBracket, checkStringLiteral, checkCloseSubBracket, afterClose,
      h2]

/-- An unescaped double quote toggles the string literal flag. -/
theorem step_quote (parsed : List Piece) (sub buf : Str) (lit : Bool) (prev : Char)
    (h : prev ≠ '\\') :
    step cls (inner parsed sub buf lit prev) '"' =
      .ok (inner parsed (sub ++ ['"']) (buf ++ ['"']) (!lit) '"') := by
  simp [step, inner, checkOpenSubBracket, checkStringLiteral, checkCloseSubBracket, afterClose, h]

theorem run_inner (parsed : List Piece) (sub buf : Str) (lit : Bool) (prev : Char) (s : Str)
    (h : ∀ c ∈ s, c ≠ '{' ∧ c ≠ '"' ∧ c ≠ '}') :
    run cls (inner parsed sub buf lit prev) s =
      .ok (inner parsed (sub ++ s) (buf ++ s) lit (s.getLast?.getD prev)) := by
  induction s generalizing sub buf prev with
  | nil => simp [run]
  | cons c s ih =>
    have ⟨h1, h2, h3⟩ := h c (by simp)
    simp only [run, step_inner cls parsed sub buf lit prev c h1 h2 (.inl h3), Outcome.bind_ok]
    rw [ih (sub ++ [c]) (buf ++ [c]) c (fun d hd => h d (by simp [hd]))]
    simp [List.getLast?_cons]

theorem step_close (parsed : List Piece) (sub buf : Str) (prev : Char) (n : Str)
    (hp : "variables".toList.isPrefixOf sub = true)
    (h : parseSubstitution cls (Scanner.new sub) = .ok ⟨n⟩) :
    step cls (inner parsed sub buf false prev) '}' =
      .ok (outer (parsed ++ [.sub ⟨n⟩]) [] '}') := by
  simp [step, inner, outer, checkOpenSubBracket, checkStringLiteral, checkCloseSubBracket,
    afterClose, h] at hp ⊢
  simp [hp]

theorem name_chars {d : Char} (h : cls.alphanumeric d = true ∨ d = '_' ∨ d = '-' ∨ d = '.') :
    d ≠ '{' ∧ d ≠ '"' ∧ d ≠ '}' ∧ d ≠ '\\' := by
  refine ⟨?_, ?_, ?_, ?_⟩ <;> rintro rfl
  · simp [cls.open_not] at h
  · simp [cls.quote_not] at h
  · simp [cls.close_not] at h
  · simp [cls.backslash_not] at h

theorem dot_chars (n : Str) (h : Spec.DotName cls n) :
    ∀ c ∈ n, c ≠ '{' ∧ c ≠ '"' ∧ c ≠ '}' ∧ c ≠ '\\' := by
  obtain ⟨c, cs, rfl, hc, hcs⟩ := h
  intro d hd
  simp at hd
  apply name_chars cls
  rcases hd with rfl | hd
  · rcases hc with h | h
    · exact .inl (cls.alphabetic_alphanumeric _ h)
    · exact .inr (.inl h)
  · rcases hcs d hd with h | h | h <;> simp [h]

@[simp] theorem lit_text (s : Str) : (Spec.Tmpl.lit s).text = s := rfl

theorem dot_text (n : Str) : (Spec.Tmpl.dot n).text =
    '$' :: '{' :: (("variables".toList ++ '.' :: n) ++ ['}']) := by
  have e : "${variables.".toList = '$' :: '{' :: ("variables".toList ++ ['.']) := by decide
  unfold Spec.Tmpl.text
  rw [e]
  simp only [List.cons_append, List.append_assoc, List.nil_append]
  exact rfl

theorem idx_text (n : Str) : (Spec.Tmpl.idx n).text =
    '$' :: '{' :: ("variables[".toList ++ ('"' :: (n ++ ('"' :: ']' :: ['}'])))) := by
  have e : "${variables[\"".toList = '$' :: '{' :: ("variables[".toList ++ ['"']) := by decide
  unfold Spec.Tmpl.text
  rw [e]
  simp only [List.cons_append, List.append_assoc, List.nil_append]
  exact rfl

theorem run_dot (parsed : List Piece) (buf : Str) (prev : Char) (n : Str)
    (h : Spec.DotName cls n) :
    run cls (outer parsed buf prev) (Spec.Tmpl.dot n).text =
      .ok (outer (parsed ++ (if buf = [] then [] else [.str buf]) ++ [.sub ⟨n⟩]) [] '}') := by
  have hc := dot_chars cls n h
  have e := dot_text n
  rw [e]
  simp only [run]
  rw [step_outer cls parsed buf prev '$' (by simp)]
  simp only [Outcome.bind_ok]
  rw [step_open]
  simp only [Outcome.bind_ok]
  rw [run_append, run_inner]
  · simp only [Outcome.bind, run]
    rw [List.nil_append, step_close cls _ ("variables".toList ++ '.' :: n) _ _ n (by simp)
      (parse_dot cls n h)]
    simp
  · intro c hcm
    simp at hcm
    rcases hcm with h | h | h | h | h | h | h | h | h | h | h <;>
      first
        | (subst h; decide)
        | (have := hc c h; exact ⟨this.1, this.2.1, this.2.2.1⟩)

theorem run_idx (parsed : List Piece) (buf : Str) (prev : Char) (n : Str)
    (h : Spec.IdxName cls n) :
    run cls (outer parsed buf prev) (Spec.Tmpl.idx n).text =
      .ok (outer (parsed ++ (if buf = [] then [] else [.str buf]) ++ [.sub ⟨n⟩]) [] '}') := by
  have hc : ∀ c ∈ n, c ≠ '{' ∧ c ≠ '"' ∧ c ≠ '}' ∧ c ≠ '\\' := fun c hcm => name_chars cls (h c hcm)
  have e := idx_text n
  rw [e]
  simp only [run]
  rw [step_outer cls parsed buf prev '$' (by simp)]
  simp only [Outcome.bind_ok]
  rw [step_open]
  simp only [Outcome.bind_ok]
  rw [run_append, run_inner cls _ _ _ _ _ _ (by simp)]
  simp only [Outcome.bind, run]
  rw [step_quote cls _ _ _ _ _ (by simp)]
  simp only [Outcome.bind_ok]
  rw [run_append, run_inner cls _ _ _ _ _ _ (fun c hcm => ⟨(hc c hcm).1, (hc c hcm).2.1,
    (hc c hcm).2.2.1⟩)]
  simp only [Outcome.bind, run]
  rw [step_quote]
  · simp only [Outcome.bind_ok]
    rw [step_inner cls _ _ _ _ _ _ (by decide) (by decide) (.inl (by decide))]
    simp only [Outcome.bind_ok]
    rw [Bool.not_not, step_close cls _ _ _ _ n]
    · simp
    · simp
    · have := parse_idx cls n h
      simpa using this
  · by_cases hn : n = []
    · subst hn; decide
    · rw [List.getLast?_eq_some_getLast hn]
      exact (hc _ (List.getLast_mem hn)).2.2.2

theorem containsOpener_iff (s : Str) : containsOpener s = true ↔ Spec.HasOpener s := by
  induction s with
  | nil =>
    simp only [containsOpener, Bool.false_eq_true, false_iff]
    rintro ⟨a, b, h⟩
    simp at h
  | cons c s ih =>
    simp only [containsOpener, Bool.or_eq_true, Bool.and_eq_true, beq_iff_eq, ih]
    constructor
    · rintro (⟨rfl, h⟩ | ⟨a, b, rfl⟩)
      · cases s with
        | nil => simp at h
        | cons d s => simp at h; subst h; exact ⟨[], s, rfl⟩
      · exact ⟨c :: a, b, rfl⟩
    · rintro ⟨a, b, h⟩
      cases a with
      | nil =>
        simp only [List.nil_append, List.cons.injEq] at h
        exact .inl ⟨h.1, by simp [h.2]⟩
      | cons d a =>
        simp only [List.cons_append, List.cons.injEq] at h
        exact .inr ⟨a, b, h.2⟩

theorem hasOpener_append_left {a b : Str} (h : Spec.HasOpener a) : Spec.HasOpener (a ++ b) := by
  obtain ⟨x, y, rfl⟩ := h
  exact ⟨x, y ++ b, by simp⟩

theorem hasOpener_append_right {a b : Str} (h : Spec.HasOpener b) : Spec.HasOpener (a ++ b) := by
  obtain ⟨x, y, rfl⟩ := h
  exact ⟨a ++ x, y, by simp⟩

theorem no_opener_prev (buf s : Str) (prev : Char)
    (h1 : buf ≠ [] → buf.getLast? = some prev) (h2 : buf = [] → prev ≠ '$')
    (h : ¬ Spec.HasOpener (buf ++ s)) : ¬ Spec.HasOpener (prev :: s) := by
  by_cases hb : buf = []
  · subst hb
    rintro ⟨a, b, hab⟩
    cases a with
    | nil =>
      simp only [List.nil_append, List.cons.injEq] at hab
      exact h2 rfl hab.1
    | cons d a =>
      simp only [List.cons_append, List.cons.injEq] at hab
      exact h ⟨a, b, by simp [hab.2]⟩
  · intro ho
    apply h
    have h3 := h1 hb
    obtain ⟨l, rfl⟩ : ∃ l, buf = l ++ [prev] := by
      rw [List.getLast?_eq_some_iff] at h3
      exact h3
    rw [List.append_assoc]
    exact hasOpener_append_right ho

theorem concat_pieces (t : List Spec.Tmpl) (acc : Str) :
    concatAdjacent [] (Spec.pieces acc t) = Spec.pieces acc t := by
  induction t generalizing acc with
  | nil =>
    by_cases h : acc = [] <;> simp [Spec.pieces, concatAdjacent, h]
  | cons x t ih =>
    cases x with
    | lit s => simp [Spec.pieces, ih]
    | dot n => by_cases h : acc = [] <;> simp [Spec.pieces, concatAdjacent, h, ih]
    | idx n => by_cases h : acc = [] <;> simp [Spec.pieces, concatAdjacent, h, ih]

theorem run_template (t : List Spec.Tmpl) (parsed : List Piece) (buf : Str) (prev : Char)
    (hp1 : buf ≠ [] → buf.getLast? = some prev) (hp2 : buf = [] → prev ≠ '$')
    (dots : ∀ n, .dot n ∈ t → Spec.DotName cls n)
    (idxs : ∀ n, .idx n ∈ t → Spec.IdxName cls n)
    (l1 : ∀ mid post, t = mid ++ post → (∀ x ∈ mid, Spec.Tmpl.isLit x = true) →
      ¬ Spec.HasOpener (buf ++ Spec.render mid))
    (l2 : ∀ pre mid post, t = pre ++ mid ++ post → (∀ x ∈ mid, Spec.Tmpl.isLit x = true) →
      ¬ Spec.HasOpener (Spec.render mid)) :
    ∃ out buf' prev', run cls (outer parsed buf prev) (Spec.render t) =
        .ok (outer (parsed ++ out) buf' prev') ∧
      (∀ t2, Spec.pieces buf (t ++ t2) = out ++ Spec.pieces buf' t2) ∧
      (out = [] ∨ ∃ r, out.getLast? = some (.sub r)) ∧
      (buf' ≠ [] → buf'.getLast? = some prev') ∧ (buf' = [] → prev' ≠ '$') := by
  induction t generalizing parsed buf prev with
  | nil => exact ⟨[], buf, prev, by simp [Spec.render, run], by simp, .inl rfl, hp1, hp2⟩
  | cons x t ih =>
    have dots' : ∀ n, .dot n ∈ t → Spec.DotName cls n := fun n hn => dots n (by simp [hn])
    have idxs' : ∀ n, .idx n ∈ t → Spec.IdxName cls n := fun n hn => idxs n (by simp [hn])
    have l2' : ∀ pre mid post, t = pre ++ mid ++ post →
        (∀ x ∈ mid, Spec.Tmpl.isLit x = true) → ¬ Spec.HasOpener (Spec.render mid) := by
      intro pre mid post h hm
      exact l2 (x :: pre) mid post (by simp [h]) hm
    have l1' : ∀ mid post, t = mid ++ post → (∀ x ∈ mid, Spec.Tmpl.isLit x = true) →
        ¬ Spec.HasOpener ([] ++ Spec.render mid) := by
      intro mid post h hm
      exact l2' [] mid post (by simp [h]) hm
    have hr : Spec.render (x :: t) = x.text ++ Spec.render t := by simp [Spec.render]
    rw [hr, run_append]
    cases x with
    | lit s =>
      have hs : ¬ Spec.HasOpener (buf ++ s) := by
        have := l1 [.lit s] t (by simp) (by simp [Spec.Tmpl.isLit])
        simpa [Spec.render] using this
      obtain ⟨p, h1, h2, h3⟩ := run_lit cls parsed buf prev s (no_opener_prev buf s prev hp1 hp2 hs)
      have htext : (Spec.Tmpl.lit s).text = s := rfl
      rw [htext, h3]
      simp only [Outcome.bind]
      obtain ⟨q, b, pr, r1, r2, r4, r3⟩ := ih parsed (buf ++ s) p
        (by
          intro hne
          by_cases hs0 : s = []
          · subst hs0
            simp at hne ⊢
            rw [h1 rfl]; exact hp1 hne
          · rw [List.getLast?_append, h2 hs0]; rfl)
        (by
          intro he
          simp at he
          rw [h1 he.2]; exact hp2 he.1)
        dots' idxs'
        (by
          intro mid post h hm
          have := l1 (.lit s :: mid) post (by simp [h]) (by
            intro y hy
            simp at hy
            rcases hy with rfl | hy
            · rfl
            · exact hm y hy)
          simpa [Spec.render] using this)
        l2'
      exact ⟨q, b, pr, r1, fun t2 => by rw [← r2]; rfl, r4, r3⟩
    | dot n =>
      rw [run_dot cls parsed buf prev n (dots n (by simp))]
      simp only [Outcome.bind]
      obtain ⟨q, b, pr, r1, r2, r4, r3⟩ := ih _ [] '}' (by simp) (by simp) dots' idxs' l1' l2'
      refine ⟨(if buf = [] then [] else [.str buf]) ++ .sub ⟨n⟩ :: q, b, pr, ?_,
        fun t2 => ?_, .inr ?_, r3⟩
      · rw [r1]; simp
      · simp [Spec.pieces, r2]
      · rcases r4 with rfl | ⟨r, hr⟩
        · exact ⟨⟨n⟩, by simp⟩
        · exact ⟨r, by simp [List.getLast?_append, List.getLast?_cons, hr]⟩
    | idx n =>
      rw [run_idx cls parsed buf prev n (idxs n (by simp))]
      simp only [Outcome.bind]
      obtain ⟨q, b, pr, r1, r2, r4, r3⟩ := ih _ [] '}' (by simp) (by simp) dots' idxs' l1' l2'
      refine ⟨(if buf = [] then [] else [.str buf]) ++ .sub ⟨n⟩ :: q, b, pr, ?_,
        fun t2 => ?_, .inr ?_, r3⟩
      · rw [r1]; simp
      · simp [Spec.pieces, r2]
      · rcases r4 with rfl | ⟨r, hr⟩
        · exact ⟨⟨n⟩, by simp⟩
        · exact ⟨r, by simp [List.getLast?_append, List.getLast?_cons, hr]⟩

theorem finish_outer (parsed : List Piece) (buf : Str) (prev : Char) :
    finish (outer parsed buf prev) =
      concatAdjacent [] (parsed ++ (if buf = [] then [] else [.str buf])) := by
  by_cases h : buf = [] <;> simp [finish, outer, h]

theorem render_has_opener (t : List Spec.Tmpl) (h : ∃ x ∈ t, Spec.Tmpl.isLit x = false) :
    Spec.HasOpener (Spec.render t) := by
  obtain ⟨x, hx, hl⟩ := h
  have ht : Spec.HasOpener x.text := by
    cases x with
    | lit s => simp [Spec.Tmpl.isLit] at hl
    | dot n => rw [dot_text]; exact ⟨[], _, rfl⟩
    | idx n => rw [idx_text]; exact ⟨[], _, rfl⟩
  obtain ⟨a, b, rfl⟩ := List.append_of_mem hx
  simp only [Spec.render, List.map_append, List.map_cons, List.flatten_append, List.flatten_cons]
  exact hasOpener_append_right (hasOpener_append_left ht)

theorem init_eq : State.init = outer [] [] ' ' := rfl

/-- Parsing the written form of a well-formed template. -/
theorem parse_render (t : List Spec.Tmpl) (h : Spec.WF cls t) :
    parseSubstitutions cls (Spec.render t) = .ok (Spec.expected t) := by
  unfold Spec.expected
  by_cases hall : ∀ x ∈ t, Spec.Tmpl.isLit x = true
  · rw [if_pos hall]
    have := h.lits [] t [] (by simp) hall
    rw [← containsOpener_iff] at this
    simp [parseSubstitutions, this]
  · rw [if_neg hall]
    have hex : ∃ x ∈ t, Spec.Tmpl.isLit x = false := by
      apply Classical.byContradiction
      intro hn
      apply hall
      intro x hx
      cases hl : Spec.Tmpl.isLit x with
      | true => rfl
      | false => exact absurd ⟨x, hx, hl⟩ hn
    have ho := render_has_opener t hex
    rw [← containsOpener_iff] at ho
    obtain ⟨q, b, pr, r1, r2, _⟩ := run_template cls t [] [] ' ' (by simp) (by simp) h.dots h.idxs
      (fun mid post he hm => h.lits [] mid post (by simp [he]) hm) h.lits
    have r3 := r2 []
    have r4 : q ++ (if b = [] then [] else [.str b]) = Spec.pieces [] t := by
      simp [Spec.pieces] at r3
      exact r3.symm
    simp only [parseSubstitutions, ho, init_eq, r1, Outcome.bind_ok, Outcome.pure_eq,
      finish_outer, List.nil_append, r4]
    simp [concat_pieces]

/-! ## One unsupported reference after a well-formed template -/

theorem step_unsupported (parsed : List Piece) (sub buf : Str) (prev : Char)
    (hp : "variables".toList.isPrefixOf sub = false) :
    step cls (inner parsed sub buf false prev) '}' =
      .ok (match parsed.getLast? with
        | some (.str _) =>
          inner (parsed.dropLast ++ [.str (buf ++ ['}'])]) (sub ++ ['}']) [] false '}'
        | _ => inner parsed (sub ++ ['}']) (buf ++ ['}']) false '}') := by
  have hc : checkCloseSubBracket cls (inner parsed sub buf false prev) '}' =
      .ok (.unsupported, inner parsed sub buf false prev) := by
    have hp' : "variables".toList.isPrefixOf (inner parsed sub buf false prev).potentialSub = false := hp
    unfold checkCloseSubBracket
    rw [hp']
    simp [inner]
  have ho : checkOpenSubBracket (inner parsed sub buf false prev) '}' =
      .ok (false, inner parsed sub buf false prev) := by
    simp [checkOpenSubBracket, inner]
  have hs : checkStringLiteral (inner parsed sub buf false prev) '}' =
      inner parsed sub buf false prev := by
    simp [checkStringLiteral, inner]
  have ha : afterClose .unsupported { inner parsed sub buf false prev with prevChar := '}' } '}' =
      (match parsed.getLast? with
        | some (.str _) =>
          inner (parsed.dropLast ++ [.str (buf ++ ['}'])]) sub [] false '}'
        | _ => inner parsed sub (buf ++ ['}']) false '}') := rfl
  simp only [step, ho, Outcome.bind_ok, hs, hc]
  rw [ha]
  cases hl : parsed.getLast? with
  | none => simp [inner]
  | some p => cases p <;> simp [inner]

theorem concat_split (last : Str) (ps : List Piece) (a b : Str) :
    concatAdjacent last (ps ++ [.str a, .str b]) = concatAdjacent last (ps ++ [.str (a ++ b)]) := by
  induction ps generalizing last with
  | nil => simp [concatAdjacent]
  | cons p ps ih =>
    cases p with
    | str s => simp only [List.cons_append, concatAdjacent, ih]
    | sub r => simp only [List.cons_append, concatAdjacent, ih]

theorem parse_unsupported (t : List Spec.Tmpl) (body tail : Str) (h : Spec.WF cls t)
    (hb : ∀ c ∈ body, c ≠ '{' ∧ c ≠ '"' ∧ c ≠ '}')
    (hv : "variables".toList.isPrefixOf body = false)
    (ht : ∀ c ∈ tail, c ≠ '{' ∧ c ≠ '"' ∧ c ≠ '}') :
    parseSubstitutions cls (Spec.render t ++ ('$' :: '{' :: body ++ '}' :: tail)) =
      .ok (Spec.pieces [] (t ++ [.lit ('$' :: '{' :: body ++ '}' :: tail)])) := by
  have ho : containsOpener (Spec.render t ++ ('$' :: '{' :: body ++ '}' :: tail)) = true := by
    rw [containsOpener_iff]
    exact ⟨Spec.render t, body ++ '}' :: tail, by simp⟩
  obtain ⟨q, b, pr, r1, r2, r3, _⟩ := run_template cls t [] [] ' ' (by simp) (by simp) h.dots h.idxs
    (fun mid post he hm => h.lits [] mid post (by simp [he]) hm) h.lits
  rw [r2]
  simp only [parseSubstitutions, ho, init_eq, Bool.not_true, Bool.false_eq_true, if_false]
  rw [run_append, r1]
  simp only [Outcome.bind, List.nil_append]
  rw [show ('$' :: '{' :: body ++ '}' :: tail) = '$' :: '{' :: (body ++ '}' :: tail) from rfl]
  simp only [run]
  rw [step_outer cls _ _ _ _ (by simp)]
  simp only [Outcome.bind_ok]
  rw [step_open]
  simp only [Outcome.bind_ok]
  rw [run_append, run_inner cls _ _ _ _ _ body hb]
  simp only [Outcome.bind, run, List.nil_append]
  rw [step_unsupported cls _ _ _ _ hv]
  simp only [Outcome.bind_ok]
  have hfin : ∀ (P : List Piece) (sb bf : Str) (pv : Char),
      (run cls (inner P sb bf false pv) tail >>= fun st => pure (finish st)) =
      .ok (concatAdjacent [] (P ++ (if bf ++ tail = [] then [] else [.str (bf ++ tail)]))) := by
    intro P sb bf pv
    rw [run_inner cls _ _ _ _ _ tail ht]
    simp only [Outcome.bind_ok, Outcome.pure_eq, finish, inner]
    by_cases hbt : bf ++ tail = []
    · simp [hbt]
    · simp [hbt]
  have key : concatAdjacent [] (q ++ Spec.pieces b [.lit ('$' :: '{' :: (body ++ '}' :: tail))]) =
      q ++ Spec.pieces b [.lit ('$' :: '{' :: (body ++ '}' :: tail))] := by
    rw [← r2]; exact concat_pieces _ _
  by_cases hbe : b = []
  · subst hbe
    simp only [if_true, List.append_nil]
    have hl : ∀ s, q.getLast? ≠ some (.str s) := by
      rcases r3 with rfl | ⟨r, hr⟩
      · simp
      · rw [hr]; simp
    split
    · rename_i s hs; exact absurd hs (hl s)
    · have := hfin q (body ++ ['}']) ('$' :: '{' :: body ++ ['}']) '}'
      simp only [Spec.pieces, List.nil_append] at key ⊢
      simp only [List.append_assoc, List.cons_append, List.nil_append] at this key ⊢
      refine this.trans ?_
      simp at key ⊢
      exact key
  · simp only [hbe, if_false]
    split
    · have := hfin (q ++ [.str (b ++ ['$', '{'] ++ body ++ ['}'])]) (body ++ ['}']) [] '}'
      simp only [List.dropLast_concat]
      refine this.trans ?_
      simp only [Spec.pieces] at key ⊢
      by_cases htl : tail = []
      · subst htl
        simp at key ⊢
        exact key
      · have hc := concat_split [] q (b ++ ['$', '{'] ++ body ++ ['}']) tail
        simp [htl] at key hc ⊢
        rw [hc]
        exact key
    · rename_i hno
      simp at hno

/-! ## Every input -/

/-- Invariant of the loop: after a dollar sign the buffer is not empty. -/
def Safe (st : State) : Prop := st.prevChar = '$' → st.potentialNonSubStr ≠ []

/-- Some text or reference has been recorded. -/
def Recorded (st : State) : Prop :=
  st.potentialNonSubStr ≠ [] ∨ (∃ r, .sub r ∈ st.parsed) ∨ (∃ s, s ≠ [] ∧ .str s ∈ st.parsed)

theorem step_safe (st : State) (c : Char) (h : Safe st) :
    (∃ e, step cls st c = .err e) ∨
    ∃ st', step cls st c = .ok st' ∧ Safe st' ∧ Recorded st' := by
  unfold step
  have hopen : ∃ b st1, checkOpenSubBracket st c = .ok (b, st1) := by
    unfold checkOpenSubBracket
    by_cases hc : (st.prevChar == '$' && c == '{' && !st.inStringLiteral) = true
    · rw [if_pos hc]
      simp at hc
      have := h hc.1.1
      by_cases hd : st.potentialNonSubStr.dropLast.isEmpty = true
      · exact ⟨_, _, by simp only [List.isEmpty_iff, this, if_false, hd, if_true]; rfl⟩
      · exact ⟨_, _, by simp only [List.isEmpty_iff, this, if_false, hd]; rfl⟩
    · rw [if_neg hc]; exact ⟨_, _, rfl⟩
  obtain ⟨b, st1, h1⟩ := hopen
  rw [h1]
  simp only [Outcome.bind_ok]
  generalize checkStringLiteral st1 c = st2
  have fin : ∀ st3 : State, Safe st3 → Recorded st3 →
      ∃ st', (if (st3.inPossibleSub && !b) = true then
          (pure { st3 with potentialSub := st3.potentialSub ++ [c] } : Outcome ParseError State)
        else pure st3) = .ok st' ∧ Safe st' ∧ Recorded st' := by
    intro st3 hs hr
    by_cases hc : (st3.inPossibleSub && !b) = true
    · rw [if_pos hc]; exact ⟨_, rfl, hs, hr⟩
    · rw [if_neg hc]; exact ⟨_, rfl, hs, hr⟩
  unfold checkCloseSubBracket
  simp only
  by_cases hcl1 : (c == '}' && st2.inPossibleSub && !st2.inStringLiteral &&
      "variables".toList.isPrefixOf st2.potentialSub) = true
  · rw [if_pos hcl1]
    cases hp : parseSubstitution cls (Scanner.new st2.potentialSub) with
    | error e => left; exact ⟨_, rfl⟩
    | ok r =>
      right
      simp only [Bool.and_eq_true, beq_iff_eq] at hcl1
      have hc : c = '}' := hcl1.1.1.1
      simp only [Outcome.bind_ok]
      apply fin
      · simp [Safe, afterClose, hc]
      · exact .inr (.inl ⟨r, by simp [afterClose]⟩)
  · rw [if_neg hcl1]
    by_cases hcl : (c == '}' && st2.inPossibleSub && !st2.inStringLiteral) = true
    · rw [if_pos hcl]
      right
      simp only [Bool.and_eq_true, beq_iff_eq] at hcl
      have hc : c = '}' := hcl.1.1
      simp only [Outcome.bind_ok]
      apply fin
      · simp only [Safe, afterClose]
        split <;> simp [hc]
      · simp only [Recorded, afterClose]
        split
        · exact .inr (.inr ⟨st2.potentialNonSubStr ++ [c], by simp, by simp⟩)
        · exact .inl (by simp)
    · rw [if_neg hcl]
      right
      simp only [Outcome.bind_ok]
      apply fin
      · simp [Safe, afterClose]
      · exact .inl (by simp [afterClose])

theorem run_safe (st : State) (s : Str) (h : Safe st) :
    (∃ e, run cls st s = .err e) ∨
    ∃ st', run cls st s = .ok st' ∧ (s ≠ [] → Recorded st') := by
  induction s generalizing st with
  | nil => right; exact ⟨st, rfl, by simp⟩
  | cons c s ih =>
    rcases step_safe cls st c h with ⟨e, he⟩ | ⟨st1, h1, h2, h3⟩
    · left; exact ⟨e, by simp [run, he]⟩
    · rcases ih st1 h2 with ⟨e, he⟩ | ⟨st2, h4, h5⟩
      · left; exact ⟨e, by simp [run, h1, he]⟩
      · right
        refine ⟨st2, by simp [run, h1, h4], fun _ => ?_⟩
        by_cases hs : s = []
        · subst hs; simp [run] at h4; subst h4; exact h3
        · exact h5 hs

/-! ## Numbers -/

theorem digitVal_eq (c : Char) :
    digitVal c = if c.isDigit = true then some (c.toNat - '0'.toNat) else none := by
  unfold digitVal
  have : ('0'.toNat ≤ c.toNat ∧ c.toNat ≤ '9'.toNat) ↔ c.isDigit = true := by
    simp [Char.isDigit, UInt32.le_iff_toNat_le]
  simp only [this]

theorem digitsVal_eq (acc : Nat) (ds : Str) :
    digitsVal acc ds =
      if (∀ d ∈ ds, d.isDigit = true) then some (Nat.ofDigitChars 10 ds acc) else none := by
  induction ds generalizing acc with
  | nil => simp [digitsVal]
  | cons c ds ih =>
    simp only [digitsVal, digitVal_eq]
    by_cases hc : c.isDigit = true
    · simp only [hc, if_true, ih, Nat.ofDigitChars_cons, List.mem_cons, forall_eq_or_imp, true_and]
      rw [Nat.mul_comm]
    · simp [hc]

theorem i64OfDigits_iff (neg : Bool) (ds : Str) (n : Int) : i64OfDigits neg ds = some n ↔
    (ds ≠ [] ∧ (∀ d ∈ ds, d.isDigit = true) ∧
      n = (if neg = true then -(Nat.ofDigitChars 10 ds 0 : Int) else Nat.ofDigitChars 10 ds 0) ∧
      -9223372036854775808 ≤ n ∧ n ≤ 9223372036854775807) := by
  unfold i64OfDigits
  rw [digitsVal_eq]
  by_cases hds : ds = []
  · simp [hds]
  · by_cases hall : ∀ d ∈ ds, d.isDigit = true
    · have hne : ds.isEmpty = false := by simp [hds]
      rw [hne]
      simp only [hds, Bool.false_eq_true, if_false, if_pos hall, ne_eq, not_false_eq_true,
        true_and]
      generalize (if neg = true then -(Nat.ofDigitChars 10 ds 0 : Int)
        else (Nat.ofDigitChars 10 ds 0 : Int)) = w
      constructor
      · intro h
        split at h
        · rename_i hw
          simp only [Option.some.injEq] at h
          subst h
          exact ⟨hall, rfl, by omega, by omega⟩
        · simp at h
      · rintro ⟨_, rfl, h1, h2⟩
        rw [if_pos (by omega)]
    · rw [if_neg hall]
      constructor
      · intro h; simp at h
      · rintro ⟨_, h, _⟩; exact absurd h hall

theorem parseI64_iff (v : Str) (n : Int) : parseI64 v = some n ↔ Spec.I64Text v n := by
  unfold parseI64 Spec.I64Text
  split
  · rename_i ds
    rw [i64OfDigits_iff]
    constructor
    · rintro ⟨h1, h2, h3, h4⟩
      exact ⟨['-'], ds, rfl, h1, h2, .inl ⟨rfl, by simpa using h3⟩, h4⟩
    · rintro ⟨sg, dg, h0, h1, h2, h3, h4⟩
      rcases h3 with ⟨rfl, h3⟩ | ⟨rfl | rfl, h3⟩
      · simp at h0; subst h0
        exact ⟨h1, h2, by simpa using h3, h4⟩
      · simp at h0
      · simp at h0; subst h0
        exact absurd (h2 '-' (by simp)) (by decide)
  · rename_i ds
    rw [i64OfDigits_iff]
    constructor
    · rintro ⟨h1, h2, h3, h4⟩
      exact ⟨['+'], ds, rfl, h1, h2, .inr ⟨.inl rfl, by simpa using h3⟩, h4⟩
    · rintro ⟨sg, dg, h0, h1, h2, h3, h4⟩
      rcases h3 with ⟨rfl, h3⟩ | ⟨rfl | rfl, h3⟩
      · simp at h0
      · simp at h0; subst h0
        exact ⟨h1, h2, by simpa using h3, h4⟩
      · simp at h0; subst h0
        exact absurd (h2 '+' (by simp)) (by decide)
  · rename_i hm hp
    rw [i64OfDigits_iff]
    constructor
    · rintro ⟨h1, h2, h3, h4⟩
      exact ⟨[], v, rfl, h1, h2, .inr ⟨.inr rfl, by simpa using h3⟩, h4⟩
    · rintro ⟨sg, dg, h0, h1, h2, h3, h4⟩
      rcases h3 with ⟨rfl, h3⟩ | ⟨rfl | rfl, h3⟩
      · exact absurd h0 (hm dg)
      · exact absurd h0 (hp dg)
      · simp at h0; subst h0
        exact ⟨h1, h2, by simpa using h3, h4⟩

theorem envVarName_eq (n : Str) : envVarName n = Spec.varEnvName n := rfl

theorem i64_text_of_int (n : Int) (h1 : -9223372036854775808 ≤ n) (h2 : n ≤ 9223372036854775807) :
    Spec.I64Text (toString n).toList n := by
  cases n with
  | ofNat m =>
    refine ⟨[], Nat.toDigits 10 m, ?_, Nat.toDigits_ne_nil, ?_, ?_, h1, h2⟩
    · show (Nat.repr m).toList = _
      exact Nat.toList_repr
    · intro d hd
      exact Nat.isDigit_of_mem_toDigits (by omega) (by omega) hd
    · right
      exact ⟨.inr rfl, by rw [Nat.ofDigitChars_ten_toDigits]; rfl⟩
  | negSucc m =>
    refine ⟨['-'], Nat.toDigits 10 (m + 1), ?_, Nat.toDigits_ne_nil, ?_, ?_, h1, h2⟩
    · show (toString (Int.negSucc m)).toList = _
      simp [toString, Int.repr]
      try rfl
    · intro d hd
      exact Nat.isDigit_of_mem_toDigits (by omega) (by omega) hd
    · left
      exact ⟨rfl, by rw [Nat.ofDigitChars_ten_toDigits]; rfl⟩

/-! ## Resolution -/

theorem parseBool_iff (v : Str) (b : Bool) :
    parseBool v = some b ↔ v = (if b then "true" else "false").toList := by
  unfold parseBool
  cases b with
  | true =>
    by_cases h : v = "true".toList
    · simp [h]
    · by_cases h2 : v = "false".toList
      · rw [h2]; decide
      · rw [if_neg h, if_neg h2]; simp only [reduceCtorEq, if_true, false_iff]; exact h
  | false =>
    by_cases h : v = "true".toList
    · rw [h]; decide
    · by_cases h2 : v = "false".toList
      · rw [h2]; decide
      · rw [if_neg h, if_neg h2]; simp only [reduceCtorEq, false_iff]; exact h2

theorem resolveToString_eq (env : Env) (acc : Str) (ps : List Piece) (s : Str) :
    resolveToString env acc ps = .ok s ↔
      ∃ ts, Spec.PiecesText env ps ts ∧ s = acc ++ ts.flatten := by
  induction ps generalizing acc with
  | nil =>
    simp only [resolveToString, Outcome.ok.injEq]
    constructor
    · rintro rfl; exact ⟨[], .nil, by simp⟩
    · rintro ⟨ts, h, rfl⟩; cases h; simp
  | cons p ps ih =>
    simp only [resolveToString]
    constructor
    · intro h
      cases hp : resolvePiece env p with
      | ok t =>
        rw [hp] at h
        simp only [Outcome.bind_ok] at h
        obtain ⟨ts, h1, h2⟩ := (ih _).mp h
        refine ⟨t :: ts, .cons ?_ h1, by simp [h2]⟩
        cases p with
        | str s' => simp [resolvePiece] at hp; exact hp.symm
        | sub r =>
          simp only [resolvePiece, resolveSubstitution, envVarName_eq] at hp
          simp only [Spec.PieceText]
          cases he : env (Spec.varEnvName r.name) with
          | none => rw [he] at hp; simp at hp
          | some v => rw [he] at hp; simp at hp; simp [hp]
      | err e => rw [hp] at h; simp at h
      | panic => rw [hp] at h; simp at h
    · rintro ⟨ts, h1, h2⟩
      cases h1 with
      | @cons _ t _ ts h3 h4 =>
        have hp : resolvePiece env p = .ok t := by
          cases p with
          | str s' => simp [Spec.PieceText] at h3; simp [resolvePiece, h3]
          | sub r =>
            simp only [Spec.PieceText] at h3
            simp only [resolvePiece, resolveSubstitution, envVarName_eq, h3]
        rw [hp]
        simp only [Outcome.bind_ok]
        exact (ih _).mpr ⟨ts, h4, by simp [h2]⟩

theorem resolveToString_no_panic (env : Env) (acc : Str) (ps : List Piece) :
    (∃ s, resolveToString env acc ps = .ok s) ∨
    resolveToString env acc ps = .err .missingVariable := by
  induction ps generalizing acc with
  | nil => exact .inl ⟨acc, rfl⟩
  | cons p ps ih =>
    simp only [resolveToString]
    cases p with
    | str s => simpa [resolvePiece] using ih (acc ++ s)
    | sub r =>
      simp only [resolvePiece, resolveSubstitution]
      cases env (envVarName r.name) with
      | none => right; rfl
      | some v => exact ih _

theorem typed_iff {F : Type} (parseF : Str → Option F) (v : Str) (x : Scalar F) :
    (match parseI64 v with
     | some n => (Scalar.int n : Scalar F)
     | none =>
       match parseF v with
       | some f => .float f
       | none =>
         match parseBool v with
         | some b => .bool b
         | none => .str v) = x ↔ Spec.Typed parseF v x := by
  cases hi : parseI64 v with
  | some n =>
    have hn := (parseI64_iff v n).mp hi
    have huniq : ∀ m, Spec.I64Text v m → m = n := by
      intro m hm
      have := (parseI64_iff v m).mpr hm
      rw [hi] at this
      simpa using this.symm
    constructor
    · rintro rfl; exact .int n hn
    · intro h
      cases h with
      | int m hm => rw [huniq m hm]
      | float f h => exact absurd hn (h n)
      | bool b h => exact absurd hn (h n)
      | str h => exact absurd hn (h n)
  | none =>
    have hno : ∀ m, ¬ Spec.I64Text v m := by
      intro m hm
      have := (parseI64_iff v m).mpr hm
      rw [hi] at this
      simp at this
    cases hf : parseF v with
    | some f =>
      constructor
      · rintro rfl; exact .float f hno hf
      · intro h
        cases h with
        | int m hm => exact absurd hm (hno m)
        | float g _ h => rw [hf] at h; simp at h; simp [h]
        | bool b _ h => rw [hf] at h; simp at h
        | str _ h => rw [hf] at h; simp at h
    | none =>
      cases hb : parseBool v with
      | some b =>
        have hv := (parseBool_iff v b).mp hb
        constructor
        · rintro rfl; exact .bool b hno hf hv
        · intro h
          cases h with
          | int m hm => exact absurd hm (hno m)
          | float g _ h => rw [hf] at h; simp at h
          | bool b' _ _ h =>
            have := (parseBool_iff v b').mpr h
            rw [hb] at this
            simp at this
            simp [this]
          | str _ _ h1 h2 =>
            cases b with
            | true => exact absurd hv h1
            | false => exact absurd hv h2
      | none =>
        have h1 : v ≠ "true".toList := by
          intro h
          have := (parseBool_iff v true).mpr h
          rw [hb] at this; simp at this
        have h2 : v ≠ "false".toList := by
          intro h
          have := (parseBool_iff v false).mpr h
          rw [hb] at this; simp at this
        constructor
        · rintro rfl; exact .str hno hf h1 h2
        · intro h
          cases h with
          | int m hm => exact absurd hm (hno m)
          | float g _ h => rw [hf] at h; simp at h
          | bool b' _ _ h =>
            have := (parseBool_iff v b').mpr h
            rw [hb] at this; simp at this
          | str => rfl

theorem resolveScalar_ref {F : Type} (parseF : Str → Option F) (env : Env) (r : VarRef) :
    resolveScalar parseF env [.sub r] =
      match env (envVarName r.name) with
      | none => .err .missingVariable
      | some v => .ok (match parseI64 v with
         | some n => (Scalar.int n : Scalar F)
         | none =>
           match parseF v with
           | some f => .float f
           | none =>
             match parseBool v with
             | some b => .bool b
             | none => .str v) := by
  simp only [resolveScalar, resolveSubstitution]
  cases env (envVarName r.name) with
  | none => rfl
  | some v =>
    simp only
    cases parseI64 v with
    | some n => rfl
    | none =>
      simp only
      cases parseF v with
      | some f => rfl
      | none =>
        simp only
        cases parseBool v <;> rfl

theorem resolveScalar_iff {F : Type} (parseF : Str → Option F) (env : Env) (ps : List Piece)
    (x : Scalar F) :
    resolveScalar parseF env ps = .ok x ↔ Spec.ScalarOf parseF env ps x := by
  match ps with
  | [] =>
    constructor
    · intro h; simp [resolveScalar] at h
    · intro h; cases h
  | [.str s] =>
    constructor
    · intro h; simp [resolveScalar] at h; subst h; exact .lit s
    · intro h; cases h; rfl
  | [.sub r] =>
    rw [resolveScalar_ref]
    constructor
    · intro h
      cases he : env (envVarName r.name) with
      | none => rw [he] at h; simp at h
      | some v =>
        rw [he] at h
        simp only [Outcome.ok.injEq] at h
        exact .ref r v x he ((typed_iff parseF v x).mp h)
    · intro h
      cases h with
      | ref r v x he ht =>
        have he' : env (envVarName r.name) = some v := he
        rw [he']
        simp only [Outcome.ok.injEq]
        exact (typed_iff parseF v x).mpr ht
  | p :: q :: ps =>
    have e : resolveScalar parseF env (p :: q :: ps) =
        (resolveToString env [] (p :: q :: ps)).bind (fun s => .ok (.str s)) := by
      cases p <;> rfl
    rw [e]
    constructor
    · intro h
      cases hr : resolveToString env [] (p :: q :: ps) with
      | ok s =>
        rw [hr] at h
        simp only [Outcome.bind, Outcome.ok.injEq] at h
        subst h
        obtain ⟨ts, h1, h2⟩ := (resolveToString_eq env [] _ s).mp hr
        rw [h2]
        exact .mixed p q ps ts h1
      | err e => rw [hr] at h; simp [Outcome.bind] at h
      | panic => rw [hr] at h; simp [Outcome.bind] at h
    · intro h
      cases h with
      | mixed _ _ _ ts h1 =>
        have := (resolveToString_eq env [] _ ts.flatten).mpr ⟨ts, h1, by simp⟩
        rw [this]; rfl

mutual
theorem resolveNode_iff {F : Type} (parseF : Str → Option F) (env : Env) (d : Nat) (n : Node F)
    (r : RNode F) (hd : d ≤ 20) :
    resolveNode parseF env d n = .ok r ↔
      (Spec.Corr parseF env n r ∧ d + Spec.height n ≤ 20) := by
  have hg : ∀ {A : Type} (k : Outcome ResolveError A), guardDepth d k = k := by
    intro A k
    unfold guardDepth maxResolveDepth
    rw [if_neg (by omega)]
  match n with
  | .scalar s =>
    simp only [resolveNode, hg, Outcome.ok.injEq, Spec.height]
    constructor
    · rintro rfl; exact ⟨.scalar s, by omega⟩
    · rintro ⟨h, _⟩; cases h; rfl
  | .null =>
    simp only [resolveNode, hg, Outcome.ok.injEq, Spec.height]
    constructor
    · rintro rfl; exact ⟨.null, by omega⟩
    · rintro ⟨h, _⟩; cases h; rfl
  | .subst ps =>
    simp only [resolveNode, hg, Spec.height]
    constructor
    · intro h
      cases hs : resolveScalar parseF env ps with
      | ok x =>
        rw [hs] at h
        simp at h
        subst h
        exact ⟨.subst ps x ((resolveScalar_iff parseF env ps x).mp hs), by omega⟩
      | err e => rw [hs] at h; simp at h
      | panic => rw [hs] at h; simp at h
    · rintro ⟨h, _⟩
      cases h with
      | subst _ s hs => rw [(resolveScalar_iff parseF env ps s).mpr hs]; rfl
  | .mapping m =>
    simp only [resolveNode, hg, Spec.height]
    constructor
    · intro h
      cases hs : resolveEntries parseF env (d + 1) m with
      | ok m' =>
        rw [hs] at h
        simp at h
        subst h
        have := (resolveEntries_iff parseF env d m m' hd).mp hs
        exact ⟨.mapping m m' this.1, this.2⟩
      | err e => rw [hs] at h; simp at h
      | panic => rw [hs] at h; simp at h
    · rintro ⟨h, hh⟩
      cases h with
      | mapping _ m' hm => rw [(resolveEntries_iff parseF env d m m' hd).mpr ⟨hm, hh⟩]; rfl
  | .sequence l =>
    simp only [resolveNode, hg, Spec.height]
    constructor
    · intro h
      cases hs : resolveList parseF env (d + 1) l with
      | ok l' =>
        rw [hs] at h
        simp at h
        subst h
        have := (resolveList_iff parseF env d l l' hd).mp hs
        exact ⟨.sequence l l' this.1, this.2⟩
      | err e => rw [hs] at h; simp at h
      | panic => rw [hs] at h; simp at h
    · rintro ⟨h, hh⟩
      cases h with
      | sequence _ l' hm => rw [(resolveList_iff parseF env d l l' hd).mpr ⟨hm, hh⟩]; rfl
theorem resolveEntries_iff {F : Type} (parseF : Str → Option F) (env : Env) (d : Nat)
    (m : List (Str × Node F)) (m' : List (Str × RNode F)) (hd : d ≤ 20) :
    resolveEntries parseF env (d + 1) m = .ok m' ↔
      (Spec.CorrEntries parseF env m m' ∧ d + Spec.heightEntries m ≤ 20) := by
  match m with
  | [] =>
    simp only [resolveEntries, Outcome.ok.injEq, Spec.heightEntries]
    constructor
    · rintro rfl; exact ⟨.nil, by omega⟩
    · rintro ⟨h, _⟩; cases h; rfl
  | (k, n) :: rest =>
    simp only [resolveEntries, Spec.heightEntries]
    by_cases hd' : d + 1 ≤ 20
    · constructor
      · intro h
        cases hn : resolveNode parseF env (d + 1) n with
        | ok r =>
          rw [hn] at h
          cases hr : resolveEntries parseF env (d + 1) rest with
          | ok rest' =>
            rw [hr] at h
            simp at h
            subst h
            have h1 := (resolveNode_iff parseF env (d + 1) n r hd').mp hn
            have h2 := (resolveEntries_iff parseF env d rest rest' hd).mp hr
            exact ⟨.cons k n r rest rest' h1.1 h2.1, by omega⟩
          | err e => rw [hr] at h; simp at h
          | panic => rw [hr] at h; simp at h
        | err e => rw [hn] at h; simp at h
        | panic => rw [hn] at h; simp at h
      · rintro ⟨h, hh⟩
        cases h with
        | cons _ _ r _ rest' h1 h2 =>
          rw [(resolveNode_iff parseF env (d + 1) n r hd').mpr ⟨h1, by omega⟩,
            (resolveEntries_iff parseF env d rest rest' hd).mpr ⟨h2, by omega⟩]
          rfl
    · have : ∀ n, ∃ e, resolveNode parseF env (d + 1) n = .err e := by
        intro n
        have hg : ∀ {A : Type} (k : Outcome ResolveError A),
            guardDepth (d + 1) k = .err (.maxResolveDepthExceeded (d + 1)) := by
          intro A k
          unfold guardDepth maxResolveDepth
          rw [if_pos (by omega)]
        cases n <;> exact ⟨_, by simp only [resolveNode, hg]; rfl⟩
      obtain ⟨e, he⟩ := this n
      rw [he]
      constructor
      · intro h; simp at h
      · rintro ⟨_, h⟩; omega
theorem resolveList_iff {F : Type} (parseF : Str → Option F) (env : Env) (d : Nat)
    (l : List (Node F)) (l' : List (RNode F)) (hd : d ≤ 20) :
    resolveList parseF env (d + 1) l = .ok l' ↔
      (Spec.CorrList parseF env l l' ∧ d + Spec.heightList l ≤ 20) := by
  match l with
  | [] =>
    simp only [resolveList, Outcome.ok.injEq, Spec.heightList]
    constructor
    · rintro rfl; exact ⟨.nil, by omega⟩
    · rintro ⟨h, _⟩; cases h; rfl
  | n :: rest =>
    simp only [resolveList, Spec.heightList]
    by_cases hd' : d + 1 ≤ 20
    · constructor
      · intro h
        cases hn : resolveNode parseF env (d + 1) n with
        | ok r =>
          rw [hn] at h
          cases hr : resolveList parseF env (d + 1) rest with
          | ok rest' =>
            rw [hr] at h
            simp at h
            subst h
            have h1 := (resolveNode_iff parseF env (d + 1) n r hd').mp hn
            have h2 := (resolveList_iff parseF env d rest rest' hd).mp hr
            exact ⟨.cons n r rest rest' h1.1 h2.1, by omega⟩
          | err e => rw [hr] at h; simp at h
          | panic => rw [hr] at h; simp at h
        | err e => rw [hn] at h; simp at h
        | panic => rw [hn] at h; simp at h
      · rintro ⟨h, hh⟩
        cases h with
        | cons _ r _ rest' h1 h2 =>
          rw [(resolveNode_iff parseF env (d + 1) n r hd').mpr ⟨h1, by omega⟩,
            (resolveList_iff parseF env d rest rest' hd).mpr ⟨h2, by omega⟩]
          rfl
    · have : ∀ n, ∃ e, resolveNode parseF env (d + 1) n = .err e := by
        intro n
        have hg : ∀ {A : Type} (k : Outcome ResolveError A),
            guardDepth (d + 1) k = .err (.maxResolveDepthExceeded (d + 1)) := by
          intro A k
          unfold guardDepth maxResolveDepth
          rw [if_pos (by omega)]
        cases n <;> exact ⟨_, by simp only [resolveNode, hg]; rfl⟩
      obtain ⟨e, he⟩ := this n
      rw [he]
      constructor
      · intro h; simp at h
      · rintro ⟨_, h⟩; omega
end

theorem concat_ne_nil (last : Str) (ps : List Piece)
    (h : last ≠ [] ∨ (∃ r, .sub r ∈ ps) ∨ (∃ s, s ≠ [] ∧ .str s ∈ ps)) :
    concatAdjacent last ps ≠ [] := by
  induction ps generalizing last with
  | nil =>
    simp at h
    simp [concatAdjacent, h]
  | cons p ps ih =>
    cases p with
    | str s =>
      simp only [concatAdjacent]
      apply ih
      rcases h with h | ⟨r, hr⟩ | ⟨s', h1, h2⟩
      · left; simp [h]
      · simp at hr; exact .inr (.inl ⟨r, hr⟩)
      · simp at h2
        rcases h2 with rfl | h2
        · left; simp [h1]
        · exact .inr (.inr ⟨s', h1, h2⟩)
    | sub r => simp [concatAdjacent]


/-! ## Totality of resolution -/

theorem piecesText_exists (env : Env) (ps : List Piece) :
    (∃ ts, Spec.PiecesText env ps ts) ↔
      ∀ r, .sub r ∈ ps → env (Spec.varEnvName r.name) ≠ none := by
  induction ps with
  | nil => exact ⟨fun _ => by simp, fun _ => ⟨[], .nil⟩⟩
  | cons p ps ih =>
    constructor
    · rintro ⟨ts, h⟩
      cases h with
      | cons hp hps =>
        intro r hr
        rcases List.mem_cons.mp hr with rfl | hr
        · simp only [Spec.PieceText] at hp; rw [hp]; simp
        · exact ih.mp ⟨_, hps⟩ r hr
    · intro h
      obtain ⟨ts, hts⟩ := ih.mpr (fun r hr => h r (List.mem_cons_of_mem _ hr))
      cases p with
      | str s => exact ⟨s :: ts, .cons rfl hts⟩
      | sub r =>
        have := h r (by simp)
        cases hv : env (Spec.varEnvName r.name) with
        | none => exact absurd hv this
        | some v => exact ⟨v :: ts, .cons hv hts⟩

theorem typed_exists {F : Type} (parseF : Str → Option F) (v : Str) :
    ∃ x, Spec.Typed parseF v x := ⟨_, (typed_iff parseF v _).mp rfl⟩

theorem scalarOf_exists {F : Type} (parseF : Str → Option F) (env : Env) (ps : List Piece) :
    (∃ x, Spec.ScalarOf parseF env ps x) ↔
      (ps ≠ [] ∧ ∀ r, .sub r ∈ ps → env (Spec.varEnvName r.name) ≠ none) := by
  match ps with
  | [] =>
    constructor
    · rintro ⟨x, h⟩; cases h
    · rintro ⟨h, _⟩; exact absurd rfl h
  | [.str s] => exact ⟨fun _ => by simp, fun _ => ⟨_, .lit s⟩⟩
  | [.sub r] =>
    constructor
    · rintro ⟨x, h⟩
      cases h with
      | ref _ v x h1 h2 => exact ⟨by simp, fun r' hr' => by simp at hr'; subst hr'; rw [h1]; simp⟩
    · rintro ⟨_, h⟩
      have := h r (by simp)
      cases hv : env (Spec.varEnvName r.name) with
      | none => exact absurd hv this
      | some v =>
        obtain ⟨x, hx⟩ := typed_exists parseF v
        exact ⟨x, .ref r v x hv hx⟩
  | p :: q :: rest =>
    rw [← piecesText_exists]
    constructor
    · rintro ⟨x, h⟩
      cases h with
      | mixed _ _ _ ts h => exact ⟨by simp, ts, h⟩
    · rintro ⟨_, ts, h⟩
      exact ⟨_, .mixed p q rest ts h⟩

mutual
theorem corr_exists {F : Type} (parseF : Str → Option F) (env : Env) (n : Node F) :
    (∃ r, Spec.Corr parseF env n r) ↔ Spec.Resolvable env n := by
  match n with
  | .scalar s => exact ⟨fun _ => by simp [Spec.Resolvable], fun _ => ⟨_, .scalar s⟩⟩
  | .null => exact ⟨fun _ => by simp [Spec.Resolvable], fun _ => ⟨_, .null⟩⟩
  | .subst ps =>
    simp only [Spec.Resolvable]
    rw [← scalarOf_exists parseF]
    constructor
    · rintro ⟨r, h⟩
      cases h with
      | subst _ s h => exact ⟨s, h⟩
    · rintro ⟨s, h⟩; exact ⟨_, .subst ps s h⟩
  | .mapping m =>
    simp only [Spec.Resolvable]
    rw [← corrEntries_exists parseF env m]
    constructor
    · rintro ⟨r, h⟩
      cases h with
      | mapping _ m' h => exact ⟨m', h⟩
    · rintro ⟨m', h⟩; exact ⟨_, .mapping m m' h⟩
  | .sequence l =>
    simp only [Spec.Resolvable]
    rw [← corrList_exists parseF env l]
    constructor
    · rintro ⟨r, h⟩
      cases h with
      | sequence _ m' h => exact ⟨m', h⟩
    · rintro ⟨m', h⟩; exact ⟨_, .sequence l m' h⟩
theorem corrEntries_exists {F : Type} (parseF : Str → Option F) (env : Env)
    (m : List (Str × Node F)) :
    (∃ r, Spec.CorrEntries parseF env m r) ↔ Spec.ResolvableEntries env m := by
  match m with
  | [] => exact ⟨fun _ => by simp [Spec.ResolvableEntries], fun _ => ⟨_, .nil⟩⟩
  | (k, n) :: m =>
    simp only [Spec.ResolvableEntries]
    rw [← corr_exists parseF env n, ← corrEntries_exists parseF env m]
    constructor
    · rintro ⟨r, h⟩
      cases h with
      | cons _ _ r _ m' h1 h2 => exact ⟨⟨r, h1⟩, ⟨m', h2⟩⟩
    · rintro ⟨⟨r, h1⟩, ⟨m', h2⟩⟩; exact ⟨_, .cons k n r m m' h1 h2⟩
theorem corrList_exists {F : Type} (parseF : Str → Option F) (env : Env) (l : List (Node F)) :
    (∃ r, Spec.CorrList parseF env l r) ↔ Spec.ResolvableList env l := by
  match l with
  | [] => exact ⟨fun _ => by simp [Spec.ResolvableList], fun _ => ⟨_, .nil⟩⟩
  | n :: l =>
    simp only [Spec.ResolvableList]
    rw [← corr_exists parseF env n, ← corrList_exists parseF env l]
    constructor
    · rintro ⟨r, h⟩
      cases h with
      | cons _ r _ m' h1 h2 => exact ⟨⟨r, h1⟩, ⟨m', h2⟩⟩
    · rintro ⟨⟨r, h1⟩, ⟨m', h2⟩⟩; exact ⟨_, .cons n r l m' h1 h2⟩
end

/-! ## Resolution of templates -/

theorem resolveToString_acc (env : Env) (acc : Str) (ps : List Piece) :
    resolveToString env acc ps =
      (resolveToString env [] ps).bind (fun s => .ok (acc ++ s)) := by
  induction ps generalizing acc with
  | nil => simp [resolveToString, Outcome.bind]
  | cons p ps ih =>
    simp only [resolveToString]
    cases hp : resolvePiece env p with
    | ok s =>
      simp only [Outcome.bind_ok]
      rw [ih (acc ++ s), ih ([] ++ s)]
      cases resolveToString env [] ps <;> simp [Outcome.bind]
    | err e => simp [Outcome.bind]
    | panic => simp [Outcome.bind]

theorem resolve_pieces (env : Env) (t : List Spec.Tmpl) (acc : Str) :
    resolveToString env [] (Spec.pieces acc t) =
      match Spec.expand env t with
      | some s => .ok (acc ++ s)
      | none => .err .missingVariable := by
  have hopt : ∀ (a : Str) (ps : List Piece),
      resolveToString env [] ((if a = [] then [] else [Piece.str a]) ++ ps) =
        resolveToString env a ps := by
    intro a ps
    by_cases ha : a = []
    · subst ha; simp
    · simp [ha, resolveToString, resolvePiece]
  have href : ∀ (n acc : Str) (t : List Spec.Tmpl),
      resolveToString env [] (Spec.pieces [] t) =
        (match Spec.expand env t with
        | some s => .ok ([] ++ s)
        | none => .err .missingVariable) →
      resolveToString env acc (.sub ⟨n⟩ :: Spec.pieces [] t) =
        (match (match env (Spec.varEnvName n), Spec.expand env t with
          | some v, some r => some (v ++ r)
          | _, _ => none) with
        | some s => Outcome.ok (acc ++ s)
        | none => .err .missingVariable) := by
    intro n acc t ih
    simp only [resolveToString, resolvePiece, resolveSubstitution, envVarName_eq]
    cases hv : env (Spec.varEnvName n) with
    | none => simp
    | some v =>
      simp only [Outcome.bind_ok]
      rw [resolveToString_acc, ih]
      cases Spec.expand env t <;> simp [Outcome.bind]
  induction t generalizing acc with
  | nil =>
    have := hopt acc []
    simp only [List.append_nil] at this
    simp [Spec.pieces, Spec.expand, this, resolveToString]
  | cons x t ih =>
    cases x with
    | lit s =>
      simp only [Spec.pieces, Spec.expand, ih]
      cases Spec.expand env t <;> simp
    | dot n =>
      simp only [Spec.pieces, Spec.expand]
      rw [hopt]
      exact href n acc t (ih [])
    | idx n =>
      simp only [Spec.pieces, Spec.expand]
      rw [hopt]
      exact href n acc t (ih [])

theorem expand_lits (env : Env) (t : List Spec.Tmpl) (h : ∀ x ∈ t, Spec.Tmpl.isLit x = true) :
    Spec.expand env t = some (Spec.render t) := by
  induction t with
  | nil => rfl
  | cons x t ih =>
    cases x with
    | lit s =>
      simp only [Spec.expand, ih (fun y hy => h y (List.mem_cons_of_mem _ hy))]
      simp [Spec.render, lit_text]
    | dot n => have := h (.dot n) (by simp); simp [Spec.Tmpl.isLit] at this
    | idx n => have := h (.idx n) (by simp); simp [Spec.Tmpl.isLit] at this

theorem resolve_expected (env : Env) (t : List Spec.Tmpl) :
    resolveToString env [] (Spec.expected t) =
      match Spec.expand env t with
      | some s => .ok s
      | none => .err .missingVariable := by
  unfold Spec.expected
  by_cases h : ∀ x ∈ t, Spec.Tmpl.isLit x = true
  · rw [if_pos h, expand_lits env t h]
    simp [resolveToString, resolvePiece]
  · rw [if_neg h]
    have := resolve_pieces env t []
    simpa using this

theorem expand_none (env : Env) (t : List Spec.Tmpl) :
    Spec.expand env t = none ↔ ∃ n ∈ Spec.names t, env (Spec.varEnvName n) = none := by
  have href : ∀ (n : Str) (t : List Spec.Tmpl),
      (Spec.expand env t = none ↔ ∃ m ∈ Spec.names t, env (Spec.varEnvName m) = none) →
      ((match env (Spec.varEnvName n), Spec.expand env t with
        | some v, some r => some (v ++ r)
        | _, _ => none) = none ↔ ∃ m ∈ n :: Spec.names t, env (Spec.varEnvName m) = none) := by
    intro n t ih
    cases hv : env (Spec.varEnvName n) with
    | none => simp [hv]
    | some v =>
      cases he : Spec.expand env t with
      | none => simp [hv, ih.mp he]
      | some r =>
        have hh : ¬ ∃ m ∈ Spec.names t, env (Spec.varEnvName m) = none := by
          rw [← ih, he]; simp
        simp only [reduceCtorEq, List.mem_cons, exists_eq_or_imp, hv, false_or, false_iff]
        exact hh
  induction t with
  | nil => simp [Spec.expand, Spec.names]
  | cons x t ih =>
    cases x with
    | lit s => simp only [Spec.expand, Spec.names, Option.map_eq_none_iff, ih]
    | dot n => simp only [Spec.expand, Spec.names]; exact href n t ih
    | idx n => simp only [Spec.expand, Spec.names]; exact href n t ih

/-- Every parse ends in an error or in a non-empty list of pieces. -/
theorem parse_total (s : Str) :
    (∃ e, parseSubstitutions cls s = .err e) ∨
    ∃ ps, parseSubstitutions cls s = .ok ps ∧ ps ≠ [] := by
  unfold parseSubstitutions
  by_cases h : containsOpener s = true
  · simp only [h, Bool.not_true, Bool.false_eq_true, if_false]
    rcases run_safe cls State.init s (by simp [Safe, State.init]) with ⟨e, he⟩ | ⟨st, h1, h2⟩
    · left; exact ⟨e, by rw [he]; rfl⟩
    · right
      have hs : s ≠ [] := by rintro rfl; simp [containsOpener] at h
      refine ⟨finish st, by rw [h1]; rfl, ?_⟩
      apply concat_ne_nil
      right
      rcases h2 hs with h | ⟨r, h⟩ | ⟨s, h1, h2⟩
      · right
        exact ⟨st.potentialNonSubStr, h, by simp [h]⟩
      · left
        refine ⟨r, ?_⟩
        split <;> simp [h]
      · right
        refine ⟨s, h1, ?_⟩
        split <;> simp [h2]
  · right
    exact ⟨[.str s], by simp [h], by simp⟩

theorem resolveScalar_no_panic {F : Type} (parseF : Str → Option F) (env : Env) (ps : List Piece)
    (h : ps ≠ []) : resolveScalar parseF env ps ≠ .panic := by
  match ps with
  | [] => exact absurd rfl h
  | [.str s] => simp [resolveScalar]
  | [.sub r] =>
    rw [resolveScalar_ref]
    cases env (envVarName r.name) <;> simp
  | p :: q :: rest =>
    have e : resolveScalar parseF env (p :: q :: rest) = (do
        let s ← resolveToString env [] (p :: q :: rest)
        pure (.str s)) := by
      simp [resolveScalar]
    rw [e]
    rcases resolveToString_no_panic env [] (p :: q :: rest) with ⟨s, hs⟩ | hs
    · rw [hs]; simp
    · rw [hs]; simp

end Verif.Subst
