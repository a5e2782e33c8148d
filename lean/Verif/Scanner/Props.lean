import Verif.Scanner.Lemmas

/-!
# C48: the scanner only moves forward and backtracks exactly
-/

namespace Verif.Scanner

/-- How many saved positions of an enclosing attempt remain below: `some n` if the calls never
discard more positions than they saved (starting with `n` own ones), `none` otherwise. This is a
property of the sequence of calls only. -/
def ownSaved : Nat → List Op → Option Nat
  | n, [] => some n
  | n, .savePos :: ops => ownSaved (n + 1) ops
  | 0, .popPos :: _ => none
  | 0, .backtrack :: _ => none
  | n + 1, .popPos :: ops => ownSaved n ops
  | n + 1, .backtrack :: ops => ownSaved n ops
  | n, _ :: ops => ownSaved n ops

/-- Running a sequence of calls. -/
def runOps (s : Scanner) (ops : List Op) : Scanner := ops.foldl Op.run s

/-- One call keeps the input, keeps the position and all saved positions within the input, and
does not move backwards unless it is a backtrack. -/
theorem step_ok (s : Scanner) (op : Op) (h : s.pos ≤ s.chars.length)
    (hs : ∀ p ∈ s.startPosStack, p ≤ s.chars.length) :
    (op.run s).chars = s.chars ∧ (op.run s).pos ≤ s.chars.length ∧
    (∀ p ∈ (op.run s).startPosStack, p ≤ s.chars.length) := by
  cases op with
  | savePos => simp [Op.run, savePos, h]; exact hs
  | popPos =>
    refine ⟨rfl, h, ?_⟩
    intro p hp
    exact hs p (List.mem_of_mem_tail hp)
  | backtrack =>
    simp only [Op.run, backtrack]
    split
    · exact ⟨rfl, h, hs⟩
    · rename_i p r heq
      rw [heq] at hs
      exact ⟨rfl, hs p (by simp), fun q hq => hs q (by simp [hq])⟩
  | peek => exact ⟨rfl, h, hs⟩
  | pop =>
    simp only [Op.run, pop]
    split
    · rename_i c hc
      have := (List.getElem?_eq_some_iff.mp hc).1
      exact ⟨rfl, by simp; omega, hs⟩
    · exact ⟨rfl, h, hs⟩
  | take c =>
    simp only [Op.run, take]
    split
    · rename_i d hc
      have := (List.getElem?_eq_some_iff.mp hc).1
      split
      · exact ⟨rfl, by simp; omega, hs⟩
      · exact ⟨rfl, h, hs⟩
    · exact ⟨rfl, h, hs⟩
  | transform cb =>
    simp only [Op.run, transform]
    split
    · rename_i d hc
      have := (List.getElem?_eq_some_iff.mp hc).1
      split
      · exact ⟨rfl, by simp; omega, hs⟩
      · exact ⟨rfl, h, hs⟩
    · exact ⟨rfl, h, hs⟩
  | scan cb =>
    have ⟨_, h2, h3, h4⟩ := scanLoop_pos cb s [] false none
    refine ⟨h3, h2 h, ?_⟩
    show ∀ p ∈ (scanLoop cb s [] false none).2.startPosStack, _
    rw [h4]; exact hs

theorem runOps_ok (s : Scanner) (ops : List Op) (h : s.pos ≤ s.chars.length)
    (hs : ∀ p ∈ s.startPosStack, p ≤ s.chars.length) :
    (runOps s ops).chars = s.chars ∧ (runOps s ops).pos ≤ s.chars.length ∧
    (∀ p ∈ (runOps s ops).startPosStack, p ≤ s.chars.length) := by
  induction ops generalizing s with
  | nil => exact ⟨rfl, h, hs⟩
  | cons op ops ih =>
    have ⟨h1, h2, h3⟩ := step_ok s op h hs
    have := ih (op.run s) (by rw [h1]; exact h2) (by rw [h1]; exact h3)
    rw [h1] at this
    exact this

/-- C48 (bounds): whatever calls a parser makes on a fresh scanner, the input is unchanged and the
position stays within it. -/
theorem scanner_in_bounds (input : List Char) (ops : List Op) :
    (runOps (new input) ops).chars = input ∧ (runOps (new input) ops).pos ≤ input.length := by
  have := runOps_ok (new input) ops (by simp [new]) (by simp [new])
  exact ⟨this.1, this.2.1⟩

/-- C48 (progress): no call other than `backtrack` moves the scanner backwards. -/
theorem scanner_forward (s : Scanner) (op : Op) (h : op ≠ .backtrack) :
    s.pos ≤ (op.run s).pos := by
  cases op with
  | savePos => simp [Op.run, savePos]
  | popPos => simp [Op.run, popPos]
  | backtrack => exact absurd rfl h
  | peek => exact Nat.le_refl _
  | pop => simp only [Op.run, pop]; split <;> simp
  | take c => simp only [Op.run, take]; split <;> (try split) <;> simp
  | transform cb => simp only [Op.run, transform]; split <;> (try split) <;> simp
  | scan cb => exact (scanLoop_pos cb s [] false none).1

/-- C48 (reading): after any calls on a fresh scanner, looking ahead shows the character at the
position, `pop` takes that one, and the end is reported exactly when there is none. -/
theorem scanner_reads (input : List Char) (ops : List Op) :
    let s := runOps (new input) ops
    peek s = input[s.pos]? ∧
    (pop s = match input[s.pos]? with
      | some c => (some c, { s with pos := s.pos + 1 })
      | none => (none, s)) ∧
    (isEnd s = true ↔ input[s.pos]? = none) := by
  intro s
  obtain ⟨h1, h2⟩ := scanner_in_bounds input ops
  have h1 : s.chars = input := h1
  have h2 : s.pos ≤ input.length := h2
  refine ⟨by rw [peek, h1], by rw [pop, h1]; rfl, ?_⟩
  rw [isEnd, h1, beq_iff_eq, List.getElem?_eq_none_iff]
  omega

theorem stack_suffix (s : Scanner) (base own : List Nat) (ops : List Op) (k : Nat)
    (hst : s.startPosStack = own ++ base) (hb : ownSaved own.length ops = some k) :
    ∃ own', own'.length = k ∧ (runOps s ops).startPosStack = own' ++ base := by
  induction ops generalizing s own with
  | nil => simp [ownSaved] at hb; exact ⟨own, hb, hst⟩
  | cons op ops ih =>
    have same : ∀ s', s'.startPosStack = s.startPosStack → op.run s = s' →
        ownSaved own.length ops = some k →
        ∃ own', own'.length = k ∧ (runOps s (op :: ops)).startPosStack = own' ++ base := by
      intro s' h1 h2 h3
      have := ih s' own (by rw [h1, hst]) h3
      simpa [runOps, h2] using this
    cases op with
    | savePos =>
      exact ih (savePos s) (s.pos :: own) (by simp [savePos, hst]) (by simpa [ownSaved] using hb)
    | popPos =>
      cases own with
      | nil => simp [ownSaved] at hb
      | cons p own =>
        exact ih (popPos s) own (by simp [popPos, hst]) (by simpa [ownSaved] using hb)
    | backtrack =>
      cases own with
      | nil => simp [ownSaved] at hb
      | cons p own =>
        refine ih (backtrack s) own ?_ (by simpa [ownSaved] using hb)
        simp only [List.cons_append] at hst
        simp [backtrack, hst]
    | peek => exact same s rfl rfl (by cases own <;> simpa [ownSaved] using hb)
    | pop =>
      refine same _ ?_ rfl (by cases own <;> simpa [ownSaved] using hb)
      simp only [Op.run, pop]; split <;> rfl
    | take c =>
      refine same _ ?_ rfl (by cases own <;> simpa [ownSaved] using hb)
      simp only [Op.run, take]; split <;> (try split) <;> rfl
    | transform cb =>
      refine same _ ?_ rfl (by cases own <;> simpa [ownSaved] using hb)
      simp only [Op.run, transform]; split <;> (try split) <;> rfl
    | scan cb =>
      refine same _ ?_ rfl (by cases own <;> simpa [ownSaved] using hb)
      exact (scanLoop_pos cb s [] false none).2.2.2

/-- C48 (backtracking): saving the position, making any calls which do not discard more saved
positions than they saved and settle their own ones, and backtracking leaves the scanner exactly
as it was. -/
theorem scanner_backtrack_exact (s : Scanner) (ops : List Op)
    (hpos : s.pos ≤ s.chars.length) (hstack : ∀ p ∈ s.startPosStack, p ≤ s.chars.length)
    (hb : ownSaved 0 ops = some 0) :
    backtrack (runOps (savePos s) ops) = s := by
  obtain ⟨own', h1, h2⟩ := stack_suffix (savePos s) (s.pos :: s.startPosStack) [] ops 0 rfl hb
  have h0 : own' = [] := List.length_eq_zero_iff.mp h1
  subst h0
  have h3 := (runOps_ok (savePos s) ops hpos (by
    intro p hp
    simp [savePos] at hp
    rcases hp with rfl | hp
    · exact hpos
    · exact hstack p hp)).1
  simp only [List.nil_append] at h2
  have h4 : (runOps (savePos s) ops).chars = s.chars := h3
  unfold backtrack
  rw [h2]
  cases s
  simp_all [savePos]

/-- The hypotheses of `scanner_backtrack_exact` are met by a non-trivial sequence of calls which
actually moves the scanner. -/
example :
    let s := (pop (new "abc".toList)).2
    let ops : List Op := [.pop, .savePos, .take 'c', .backtrack, .savePos, .pop, .popPos]
    s.pos ≤ s.chars.length ∧ ownSaved 0 ops = some 0 ∧ (runOps (savePos s) ops).pos = 3 := by
  decide

end Verif.Scanner
