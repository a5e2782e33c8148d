import Verif.Sdk.HeapModel

/-!
# Lemmas about the objects of a configuration of the FFI, and what their callers see
-/

namespace Verif.Sdk.Objects

open Verif.RtConfig

/-- The handlers that an object has by its making, as the caller sees it: it was given by a setup, is
empty, or was got from another. -/
inductive Made (t : List (Call × Result)) : Nat → Kind → List HandlerDef → Prop
  | setup {i hs} (m : (Call.setup hs, Result.handle i) ∈ t) : Made t i .app hs
  | create {i k} (m : (Call.create k, Result.handle i) ∈ t) : Made t i k []
  | api {i j hs} (m : (Call.getApi j, Result.handle i) ∈ t) (f : Made t j .app hs) : Made t i .api hs
  | http {i j hs} (m : (Call.getHttp j, Result.handle i) ∈ t) (f : Made t j .api hs) : Made t i .http hs

/-- The caller destroyed the object. -/
def Gone (t : List (Call × Result)) (i : Nat) : Prop := ∃ k r, (Call.destroy k i, r) ∈ t

/-- A call of an object that the caller has, of the right kind. -/
def Fit (t : List (Call × Result)) : Call → Prop
  | .getApi i => (∃ hs, Made t i .app hs) ∧ ¬ Gone t i
  | .getHttp i => (∃ hs, Made t i .api hs) ∧ ¬ Gone t i
  | .receive i _ => (∃ hs, Made t i .http hs) ∧ ¬ Gone t i
  | .destroy k i => (∃ hs, Made t i k hs) ∧ ¬ Gone t i
  | _ => True

/-- A caller that uses objects only while it has them. -/
def Careful (calls : List Call) : Prop :=
  ∀ before c after, calls = before ++ c :: after → Fit (run before).2 c

/-- The object that a call uses. -/
def arg : Call → Option Nat
  | .getApi i | .getHttp i | .receive i _ | .destroy _ i => some i
  | _ => none

/-- The address that a call gave. -/
def given : Call × Result → Option Nat
  | (_, .handle i) => some i
  | _ => none

/-- What a call makes. -/
def New (t : List (Call × Result)) (c : Call) (k : Kind) (hs : List HandlerDef) : Prop :=
  match c with
  | .setup hs' => k = .app ∧ hs = hs'
  | .create k' => k = k' ∧ hs = []
  | .getApi j => k = .api ∧ Made t j .app hs
  | .getHttp j => k = .http ∧ Made t j .api hs
  | _ => False

theorem Made.mono {t u : List (Call × Result)} {i k hs} (h : Made t i k hs) (sub : ∀ x ∈ t, x ∈ u) :
    Made u i k hs := by
  induction h with
  | setup m => exact .setup (sub _ m)
  | create m => exact .create (sub _ m)
  | api m _ ih => exact .api (sub _ m) ih
  | http m _ ih => exact .http (sub _ m) ih

theorem made_snoc {t : List (Call × Result)} {c : Call} {r : Result} {n : Nat}
    (args : ∀ c' r' i, (c', r') ∈ t → arg c' = some i → i < n) (here : ∀ i, arg c = some i → i < n)
    (fresh : ∀ i, r = .handle i → i = n) {i k hs} (h : Made (t ++ [(c, r)]) i k hs) :
    Made t i k hs ∨ (i = n ∧ New t c k hs) := by
  have split : ∀ x, x ∈ t ++ [(c, r)] → x ∈ t ∨ x = (c, r) := by
    intro x hx
    rcases List.mem_append.1 hx with h | h
    · exact .inl h
    · exact .inr (List.mem_singleton.1 h)
  induction h with
  | setup m =>
    rcases split _ m with m | m
    · exact .inl (.setup m)
    · injection m with e1 e2
      subst e1
      exact .inr ⟨fresh _ e2.symm, rfl, rfl⟩
  | create m =>
    rcases split _ m with m | m
    · exact .inl (.create m)
    · injection m with e1 e2
      subst e1
      exact .inr ⟨fresh _ e2.symm, rfl, rfl⟩
  | api m _ ih =>
    rcases split _ m with m | m
    · rcases ih with g | g
      · exact .inl (.api m g)
      · have := args _ _ _ m rfl
        omega
    · injection m with e1 e2
      subst e1
      rcases ih with g | g
      · exact .inr ⟨fresh _ e2.symm, rfl, g⟩
      · have := here _ rfl
        omega
  | http m _ ih =>
    rcases split _ m with m | m
    · rcases ih with g | g
      · exact .inl (.http m g)
      · have := args _ _ _ m rfl
        omega
    · injection m with e1 e2
      subst e1
      rcases ih with g | g
      · exact .inr ⟨fresh _ e2.symm, rfl, g⟩
      · have := here _ rfl
        omega

/-- What holds after the calls of a careful caller. -/
structure Inv (m : Memory) (t : List (Call × Result)) : Prop where
  there : ∀ i k hs, Made t i k hs → ¬ Gone t i → m[i]? = some (some ⟨k, hs⟩)
  gone : ∀ i, Gone t i → m[i]? = some none
  small : ∀ i k hs, Made t i k hs → i < m.length
  one : ∀ i k hs k' hs', Made t i k hs → Made t i k' hs' → k = k' ∧ hs = hs'
  args : ∀ c r i, (c, r) ∈ t → arg c = some i → i < m.length
  got : ∀ i n r, (Call.receive i n, r) ∈ t → ∃ hs, Made t i .http hs ∧ r = .handlers (hs.take n)
  tame : ∀ c, (c, Result.wild) ∉ t
  all : ∀ i, i < m.length → ∃ k hs, Made t i k hs
  order : t.filterMap given = List.range m.length

theorem mem_snoc {α} {t : List α} {x y : α} (h : y ∈ t ++ [x]) : y ∈ t ∨ y = x := by
  rcases List.mem_append.1 h with h | h
  · exact .inl h
  · exact .inr (List.mem_singleton.1 h)

/-- A call that makes an object. -/
theorem inv_alloc {m : Memory} {t : List (Call × Result)} (h : Inv m t) (c : Call) (k : Kind)
    (hs : List HandlerDef) (here : ∀ i, arg c = some i → i < m.length)
    (nodestroy : ∀ k i, c ≠ .destroy k i) (noreceive : ∀ i n, c ≠ .receive i n)
    (new : Made (t ++ [(c, .handle m.length)]) m.length k hs)
    (only : ∀ k' hs', New t c k' hs' → k' = k ∧ hs' = hs) :
    Inv (m ++ [some ⟨k, hs⟩]) (t ++ [(c, .handle m.length)]) := by
  have snoc := fun {i k hs} => made_snoc (i := i) (k := k) (hs := hs) (r := .handle m.length) h.args here
    (fun i e => by injection e with e; exact e.symm)
  have up : ∀ {i k hs}, Made t i k hs → Made (t ++ [(c, .handle m.length)]) i k hs :=
    fun g => g.mono (fun _ hx => List.mem_append_left _ hx)
  have gone' : ∀ i, Gone (t ++ [(c, .handle m.length)]) i → Gone t i := by
    rintro i ⟨k', r, g⟩
    rcases mem_snoc g with g | g
    · exact ⟨k', r, g⟩
    · injection g with e _
      exact absurd e.symm (nodestroy _ _)
  have goneUp : ∀ i, Gone t i → Gone (t ++ [(c, .handle m.length)]) i :=
    fun i ⟨k', r, g⟩ => ⟨k', r, List.mem_append_left _ g⟩
  refine ⟨?_, ?_, ?_, ?_, ?_, ?_, ?_, ?_, ?_⟩
  · intro i k' hs' g ng
    rcases snoc g with g' | ⟨rfl, g'⟩
    · rw [List.getElem?_append_left (h.small _ _ _ g')]
      exact h.there _ _ _ g' (fun x => ng (goneUp _ x))
    · obtain ⟨rfl, rfl⟩ := only _ _ g'
      simp
  · intro i g
    have g' := h.gone i (gone' i g)
    have hl : i < m.length := by
      obtain ⟨k', r, x⟩ := gone' i g
      exact h.args _ _ _ x rfl
    rw [List.getElem?_append_left hl]
    exact g'
  · intro i k' hs' g
    rw [List.length_append]
    rcases snoc g with g | ⟨rfl, _⟩
    · exact Nat.lt_of_lt_of_le (h.small _ _ _ g) (Nat.le_add_right ..)
    · exact Nat.lt_succ_self _
  · intro i k1 hs1 k2 hs2 g1 g2
    rcases snoc g1 with g1 | ⟨e1, g1⟩ <;> rcases snoc g2 with g2 | ⟨e2, g2⟩
    · exact h.one _ _ _ _ _ g1 g2
    · have := h.small _ _ _ g1
      omega
    · have := h.small _ _ _ g2
      omega
    · obtain ⟨rfl, rfl⟩ := only _ _ g1
      obtain ⟨rfl, rfl⟩ := only _ _ g2
      exact ⟨rfl, rfl⟩
  · intro c' r i g ha
    rw [List.length_append]
    rcases mem_snoc g with g | g
    · exact Nat.lt_of_lt_of_le (h.args _ _ _ g ha) (Nat.le_add_right ..)
    · injection g with e _
      subst e
      exact Nat.lt_of_lt_of_le (here _ ha) (Nat.le_add_right ..)
  · intro i n r g
    rcases mem_snoc g with g | g
    · obtain ⟨hs', g1, g2⟩ := h.got _ _ _ g
      exact ⟨hs', up g1, g2⟩
    · injection g with e _
      exact absurd e.symm (noreceive _ _)
  · intro c' g
    rcases mem_snoc g with g | g
    · exact h.tame _ g
    · injection g with _ e
      cases e
  · intro i hi
    rw [List.length_append] at hi
    by_cases hl : i < m.length
    · obtain ⟨k', hs', g⟩ := h.all i hl
      exact ⟨k', hs', up g⟩
    · have : i = m.length := by
        have : i < m.length + 1 := hi
        omega
      subst this
      exact ⟨k, hs, new⟩
  · rw [List.filterMap_append, h.order, List.length_append]
    exact List.range_succ.symm

/-- A call that makes none: `m'` is the memory afterwards. -/
theorem inv_other {m m' : Memory} {t : List (Call × Result)} (h : Inv m t) (c : Call) (r : Result)
    (len : m'.length = m.length) (here : ∀ i, arg c = some i → i < m.length)
    (nohandle : ∀ i, r ≠ .handle i) (tame : r ≠ .wild)
    (got : ∀ i n, c = .receive i n → ∃ hs, Made t i .http hs ∧ r = .handlers (hs.take n))
    (kept : ∀ i, (∀ k, c ≠ .destroy k i) → m'[i]? = m[i]?)
    (freed : ∀ k i, c = .destroy k i → m'[i]? = some none) : Inv m' (t ++ [(c, r)]) := by
  have down : ∀ {i k hs}, Made (t ++ [(c, r)]) i k hs → Made t i k hs := by
    intro i k hs g
    induction g with
    | setup g =>
      rcases mem_snoc g with g | g
      · exact .setup g
      · injection g with _ e; exact absurd e.symm (nohandle _)
    | create g =>
      rcases mem_snoc g with g | g
      · exact .create g
      · injection g with _ e; exact absurd e.symm (nohandle _)
    | api g _ ih =>
      rcases mem_snoc g with g | g
      · exact .api g ih
      · injection g with _ e; exact absurd e.symm (nohandle _)
    | http g _ ih =>
      rcases mem_snoc g with g | g
      · exact .http g ih
      · injection g with _ e; exact absurd e.symm (nohandle _)
  have up : ∀ {i k hs}, Made t i k hs → Made (t ++ [(c, r)]) i k hs :=
    fun g => g.mono (fun _ hx => List.mem_append_left _ hx)
  refine ⟨?_, ?_, ?_, ?_, ?_, ?_, ?_, ?_, ?_⟩
  · intro i k hs g ng
    rw [kept i (fun k' e => ng ⟨k', r, by rw [e]; exact List.mem_append_right _ (List.mem_singleton_self _)⟩)]
    exact h.there _ _ _ (down g) (fun ⟨k', r', x⟩ => ng ⟨k', r', List.mem_append_left _ x⟩)
  · rintro i ⟨k, r', g⟩
    rcases mem_snoc g with g | g
    · by_cases e : ∃ k, c = .destroy k i
      · obtain ⟨k', e⟩ := e
        exact freed _ _ e
      · rw [kept i (fun k' x => e ⟨k', x⟩)]
        exact h.gone i ⟨k, r', g⟩
    · injection g with e _
      exact freed _ _ e.symm
  · intro i k hs g
    rw [len]
    exact h.small _ _ _ (down g)
  · intro i k1 hs1 k2 hs2 g1 g2
    exact h.one _ _ _ _ _ (down g1) (down g2)
  · intro c' r' i g ha
    rw [len]
    rcases mem_snoc g with g | g
    · exact h.args _ _ _ g ha
    · injection g with e _
      subst e
      exact here _ ha
  · intro i n r' g
    rcases mem_snoc g with g | g
    · obtain ⟨hs, g1, g2⟩ := h.got _ _ _ g
      exact ⟨hs, up g1, g2⟩
    · injection g with e1 e2
      obtain ⟨hs, g1, g2⟩ := got _ _ e1.symm
      exact ⟨hs, up g1, e2.trans g2⟩
  · intro c' g
    rcases mem_snoc g with g | g
    · exact h.tame _ g
    · injection g with _ e
      exact tame e.symm
  · intro i hi
    rw [len] at hi
    obtain ⟨k, hs, g⟩ := h.all i hi
    exact ⟨k, hs, up g⟩
  · rw [List.filterMap_append, h.order, len]
    have : given (c, r) = none := by
      cases r with
      | handle i => exact absurd rfl (nohandle i)
      | _ => rfl
    simp [this]

theorem inv_step {m : Memory} {t : List (Call × Result)} (h : Inv m t) (c : Call) (fit : Fit t c) :
    Inv (record (m, t) c).1 (record (m, t) c).2 := by
  unfold record
  dsimp only
  have last : ∀ {x : Call × Result}, x ∈ t ++ [x] := List.mem_append_right _ (List.mem_singleton_self _)
  cases c with
  | setup hs =>
    exact inv_alloc h _ .app hs nofun nofun nofun (.setup last) (fun _ _ g => g)
  | create k =>
    exact inv_alloc h _ k [] nofun nofun nofun (.create last) (fun _ _ g => g)
  | getApi i =>
    obtain ⟨⟨hs, g⟩, ng⟩ := fit
    have e := h.there _ _ _ g ng
    have es : step m (.getApi i) = alloc m .api hs := by
      dsimp only [step]
      rw [e]
    rw [es]
    refine inv_alloc h _ .api hs ?_ nofun nofun (.api last (g.mono fun _ hx => List.mem_append_left _ hx)) ?_
    · intro j hj
      injection hj with hj
      exact hj ▸ h.small _ _ _ g
    · rintro k' hs' ⟨rfl, g'⟩
      exact ⟨rfl, (h.one _ _ _ _ _ g' g).2⟩
  | getHttp i =>
    obtain ⟨⟨hs, g⟩, ng⟩ := fit
    have e := h.there _ _ _ g ng
    have es : step m (.getHttp i) = alloc m .http hs := by
      dsimp only [step]
      rw [e]
    rw [es]
    refine inv_alloc h _ .http hs ?_ nofun nofun (.http last (g.mono fun _ hx => List.mem_append_left _ hx)) ?_
    · intro j hj
      injection hj with hj
      exact hj ▸ h.small _ _ _ g
    · rintro k' hs' ⟨rfl, g'⟩
      exact ⟨rfl, (h.one _ _ _ _ _ g' g).2⟩
  | receive i n =>
    obtain ⟨⟨hs, g⟩, ng⟩ := fit
    have e := h.there _ _ _ g ng
    have es : step m (.receive i n) = (m, .handlers (hs.take n)) := by
      dsimp only [step]
      rw [e]
    rw [es]
    refine inv_other h _ _ rfl ?_ nofun nofun ?_ (fun _ _ => rfl) nofun
    · intro j hj
      injection hj with hj
      exact hj ▸ h.small _ _ _ g
    · intro j n' ej
      injection ej with e1 e2
      subst e1 e2
      exact ⟨hs, g, rfl⟩
  | destroy k i =>
    obtain ⟨⟨hs, g⟩, ng⟩ := fit
    have e := h.there _ _ _ g ng
    have es : step m (.destroy k i) = (m.set i none, .unit) := by
      dsimp only [step]
      rw [e]
      exact if_pos rfl
    rw [es]
    refine inv_other h _ _ (List.length_set ..) ?_ nofun nofun nofun ?_ ?_
    · intro j hj
      injection hj with hj
      exact hj ▸ h.small _ _ _ g
    · intro j hj
      refine List.getElem?_set_ne ?_
      exact fun e => hj k (e ▸ rfl)
    · intro k' j ej
      injection ej with _ e2
      subst e2
      exact List.getElem?_set_self (h.small _ _ _ g)
  | destroyNull k =>
    exact inv_other h _ _ rfl nofun nofun nofun nofun (fun _ _ => rfl) nofun

theorem run_snoc (calls : List Call) (c : Call) : run (calls ++ [c]) = record (run calls) c := by
  unfold run
  rw [List.foldl_append]
  rfl

theorem inv_run (calls : List Call) (careful : Careful calls) : Inv (run calls).1 (run calls).2 := by
  have key : ∀ (rest done : List Call), Careful (done ++ rest) → Inv (run done).1 (run done).2 →
      Inv (run (done ++ rest)).1 (run (done ++ rest)).2 := by
    intro rest
    induction rest with
    | nil =>
      intro done _ h
      rw [List.append_nil]
      exact h
    | cons c rest ih =>
      intro done hc h
      have e : done ++ c :: rest = (done ++ [c]) ++ rest := by simp
      rw [e] at hc ⊢
      refine ih _ hc ?_
      rw [run_snoc]
      exact inv_step h c (hc done c rest (by simp))
  refine key calls [] careful ⟨?_, ?_, ?_, ?_, ?_, ?_, ?_, ?_, rfl⟩
  · intro i k hs g
    cases g <;> contradiction
  · rintro i ⟨k, r, g⟩
    cases g
  · intro i k hs g
    cases g <;> contradiction
  · intro i k hs k' hs' g
    cases g <;> contradiction
  · exact fun c r i g => nomatch g
  · exact fun i n r g => nomatch g
  · exact fun c g => nomatch g
  · exact fun i hi => nomatch hi

/-- Careful callers go on being careful. -/
theorem careful_snoc {calls : List Call} {c : Call} (h : Careful calls) (fit : Fit (run calls).2 c) :
    Careful (calls ++ [c]) := by
  intro before c' after e
  rcases List.eq_nil_or_concat after with rfl | ⟨after', x, rfl⟩
  · have e' := List.append_inj' e rfl
    obtain ⟨rfl, e2⟩ := e'
    injection e2 with e2
    exact e2 ▸ fit
  · have e2 : calls ++ [c] = (before ++ c' :: after') ++ [x] := by simpa using e
    exact h before c' after' (List.append_inj' e2 rfl).1

end Verif.Sdk.Objects
