import Verif.Scanner.Model

namespace Verif.Scanner

/-- The unread input. -/
def rest (s : Scanner) : List Char := s.chars.drop s.pos

theorem rest_eq_cons {s : Scanner} {c : Char} {cs : List Char} (h : rest s = c :: cs) :
    s.chars[s.pos]? = some c ∧ rest { s with pos := s.pos + 1 } = cs := by
  unfold rest at *
  constructor
  · have : (s.chars.drop s.pos)[0]? = some c := by rw [h]; rfl
    simpa using this
  · have h2 : (s.chars.drop s.pos).drop 1 = cs := by rw [h]; rfl
    simpa [List.drop_drop] using h2

theorem rest_eq_nil {s : Scanner} (h : rest s = []) : s.chars[s.pos]? = none := by
  unfold rest at h
  simpa using h

theorem getElem?_eq_head_rest (s : Scanner) : s.chars[s.pos]? = (rest s).head? := by
  unfold rest; simp

/-- The `while let` loop takes the longest prefix satisfying the predicate. -/
theorem popWhile_eq (p : Char → Bool) (s : Scanner) :
    popWhile p s =
      ((rest s).takeWhile p, { s with pos := s.pos + ((rest s).takeWhile p).length }) := by
  generalize hr : rest s = r
  induction r generalizing s with
  | nil =>
    have := rest_eq_nil hr
    rw [popWhile]
    split
    · rename_i ch h; simp [peek, this] at h
    · simp
  | cons c cs ih =>
    have ⟨h1, h2⟩ := rest_eq_cons hr
    rw [popWhile]
    split
    · rename_i ch h
      simp [peek, h1] at h
      subst h
      by_cases hp : p c
      · have := ih { s with pos := s.pos + 1 } h2
        simp [hp, pop, h1, this]
        omega
      · simp [hp]
    · rename_i h; simp [peek, h1] at h

/-- One round of the scan loop on a character. -/
theorem scanLoop_some {T : Type} (cb : List Char → Option (ScannerAction T)) (s : Scanner)
    (sq : List Char) (rq : Bool) (r : Option T) (c : Char) (h : s.chars[s.pos]? = some c) :
    scanLoop cb s sq rq r =
      match cb (sq ++ [c]) with
      | some (.ret r) => (.ok (some r), { s with pos := s.pos + 1 })
      | some (.request r) => scanLoop cb { s with pos := s.pos + 1 } (sq ++ [c]) false (some r)
      | some .require => scanLoop cb { s with pos := s.pos + 1 } (sq ++ [c]) true r
      | none => if rq then (.error (.character s.pos), s) else (.ok r, s) := by
  conv => lhs; unfold scanLoop
  split
  · rename_i t ht
    rw [h] at ht
    cases ht
    rfl
  · rename_i ht
    rw [h] at ht
    cases ht

/-- The scan loop at the end of the input. -/
theorem scanLoop_none {T : Type} (cb : List Char → Option (ScannerAction T)) (s : Scanner)
    (sq : List Char) (rq : Bool) (r : Option T) (h : s.chars[s.pos]? = none) :
    scanLoop cb s sq rq r = if rq then (.error .endOfInput, s) else (.ok r, s) := by
  conv => lhs; unfold scanLoop
  split
  · rename_i t ht
    rw [h] at ht
    cases ht
  · rfl

theorem scanLoop_pos {T : Type} (cb : List Char → Option (ScannerAction T)) (s : Scanner)
    (sq : List Char) (rq : Bool) (r : Option T) :
    s.pos ≤ (scanLoop cb s sq rq r).2.pos ∧
    (s.pos ≤ s.chars.length → (scanLoop cb s sq rq r).2.pos ≤ s.chars.length) ∧
    (scanLoop cb s sq rq r).2.chars = s.chars ∧
    (scanLoop cb s sq rq r).2.startPosStack = s.startPosStack := by
  fun_induction scanLoop cb s sq rq r with
  | case1 s sq rq rqst t ht sq' r h =>
    have := (List.getElem?_eq_some_iff.mp ht).1
    simp; omega
  | case2 s sq rq rqst t ht sq' r h ih =>
    have := (List.getElem?_eq_some_iff.mp ht).1
    obtain ⟨i1, i2, i3, i4⟩ := ih
    exact ⟨by simp at i1 ⊢; omega, fun _ => i2 (by simp; omega), i3, i4⟩
  | case3 s sq rq rqst t ht sq' h ih =>
    have := (List.getElem?_eq_some_iff.mp ht).1
    obtain ⟨i1, i2, i3, i4⟩ := ih
    exact ⟨by simp at i1 ⊢; omega, fun _ => i2 (by simp; omega), i3, i4⟩
  | case4 => simp
  | case5 => simp
  | case6 => simp
  | case7 => simp

end Verif.Scanner
