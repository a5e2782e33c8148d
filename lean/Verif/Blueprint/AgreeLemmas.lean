import Verif.Blueprint.SelfLemmas

/-!
# The two readers agree on portable documents: general part and values
-/

namespace Verif.Blueprint

open Verif Verif.Subst Spec

variable {F : Type} (cx : Ctx F)

theorem Rel.cases {A B : Type} {R : A → B → Prop} {a : Outcome Err A} {b : Outcome Err B}
    (h : Rel R a b) :
    (∃ x y, a = .ok x ∧ b = .ok y ∧ R x y) ∨ (a = .err .format ∧ b = .err .format) := by
  match a, b, h with
  | .ok x, .ok y, h => exact .inl ⟨x, y, rfl, rfl, h⟩
  | .err .format, .err .format, _ => exact .inr ⟨rfl, rfl⟩

/-! ## Filling structs -/

/-- Three aligned lists: the fields of the specification, those of the YAML reader and those of
the JSON reader; the two readers keep `R` on values of the right shape. -/
inductive Agree {S S' : Type} (R : S → S' → Prop) :
    List (FieldSpec F) → List (Field F S) → List (Field F S') → Prop
  | nil : Agree R [] [] []
  | cons {n : Str} {b : Bool} {sh : Shape F} {f : Doc F → S → Outcome Err S}
      {g : Doc F → S' → Outcome Err S'} {fs : List (FieldSpec F)} {T : List (Field F S)}
      {U : List (Field F S')} : (∀ v s s', sh v → R s s' → Rel R (f v s) (g v s')) →
      Agree R fs T U → Agree R (⟨n, b, sh⟩ :: fs) ((n, f) :: T) ((n, g) :: U)

theorem Agree.get {S S' : Type} {R : S → S' → Prop} {fs : List (FieldSpec F)}
    {T : List (Field F S)} {U : List (Field F S')} (h : Agree R fs T U) (k : Str) :
    (get? T k = none ∧ get? U k = none ∧ ∀ f ∈ fs, f.name ≠ k) ∨
      ∃ p ∈ fs, ∃ f g, p.name = k ∧ get? T k = some f ∧ get? U k = some g ∧
        ∀ v s s', p.shape v → R s s' → Rel R (f v s) (g v s') := by
  induction h with
  | nil => exact .inl ⟨rfl, rfl, by simp⟩
  | @cons n b sh f g fs T U hf _ ih =>
    rw [get?_cons, get?_cons]
    by_cases hk : n = k
    · rw [if_pos hk, if_pos hk]
      exact .inr ⟨_, List.mem_cons_self .., f, g, hk, rfl, rfl, hf⟩
    · rw [if_neg hk, if_neg hk]
      rcases ih with ⟨h1, h2, h3⟩ | ⟨p, hp, f', g', h⟩
      · exact .inl ⟨h1, h2, List.forall_mem_cons.2 ⟨hk, h3⟩⟩
      · exact .inr ⟨p, List.mem_cons_of_mem _ hp, f', g', h⟩

theorem Agree.names {S S' : Type} {R : S → S' → Prop} {fs : List (FieldSpec F)}
    {T : List (Field F S)} {U : List (Field F S')} (h : Agree R fs T U) :
    U.map (·.1) = fs.map (·.name) := by
  induction h with
  | nil => rfl
  | cons _ _ ih => simp only [List.map_cons, ih]

/-- The values of the entries have the shapes of the fields. -/
def Shapes (fs : List (FieldSpec F)) (m : List (Str × Doc F)) : Prop :=
  ∀ e ∈ m, ∀ f ∈ fs, f.name = e.1 → f.shape e.2

theorem Shapes.tail {fs : List (FieldSpec F)} {e : Str × Doc F} {m : List (Str × Doc F)}
    (h : Shapes fs (e :: m)) : Shapes fs m := fun e he => h e (List.mem_cons_of_mem _ he)

theorem fill_agree {S S' : Type} {R : S → S' → Prop} {fs : List (FieldSpec F)}
    {T : List (Field F S)} {U : List (Field F S')} (h : Agree R fs T U) {st st' : Bool}
    {m : List (Str × Doc F)} (hm : Shapes fs m) (hst : st = st' ∨ OnlyFields fs m) {s : S} {s' : S'}
    (hs : R s s') : Rel R (fill st T m s) (fill st' U m s') := by
  induction m generalizing s s' with
  | nil => exact hs
  | cons e m ih =>
    have hst' : st = st' ∨ OnlyFields fs m :=
      hst.imp id fun h e he => h e (List.mem_cons_of_mem _ he)
    simp only [fill]
    rcases h.get e.1 with ⟨hT, hU, hno⟩ | ⟨p, hp, f, g, hk, hT, hU, hf⟩
    · rw [hT, hU]
      rcases hst with rfl | hst
      · cases st
        · exact ih hm.tail hst' hs
        · trivial
      · obtain ⟨f, hf, hk⟩ := hst e (List.mem_cons_self ..)
        exact absurd hk (hno f hf)
    · rw [hT, hU]
      exact Rel.bind (hf _ s s' (hm e (List.mem_cons_self ..) p hp hk) hs) fun _ _ h =>
        ih hm.tail hst' h

theorem countKey_le {m : List (Str × Doc F)} (h : (m.map (·.1)).Nodup) (k : Str) :
    countKey m k ≤ 1 := by
  induction m with
  | nil => simp [countKey]
  | cons e m ih =>
    rw [List.map_cons, List.nodup_cons] at h
    have := ih h.2
    simp only [countKey, List.filter_cons] at this ⊢
    split
    · next hk =>
      have hk : e.1 = k := by simpa using hk
      have : m.filter (fun e => decide (e.1 = k)) = [] := by
        rw [List.filter_eq_nil_iff]
        intro x hx hxk
        apply h.1
        rw [hk, ← show x.1 = k by simpa using hxk]
        exact List.mem_map.2 ⟨x, hx, rfl⟩
      simp [this]
    · exact this

theorem countKey_pos {m : List (Str × Doc F)} {k : Str} (h : ∃ e ∈ m, e.1 = k) :
    1 ≤ countKey m k := by
  obtain ⟨e, he, hk⟩ := h
  have : e ∈ m.filter fun e => decide (e.1 = k) := by simp [he, hk]
  exact List.length_pos_of_mem this

theorem countKey_zero {m : List (Str × Doc F)} {k : Str} (h : ∀ e ∈ m, e.1 ≠ k) :
    countKey m k = 0 := by
  have : m.filter (fun e => decide (e.1 = k)) = [] := by
    rw [List.filter_eq_nil_iff]
    intro x hx
    simp [h x hx]
  simp [countKey, this]

/-- On a mapping that fits, a derived struct is filled without further ado. -/
theorem jsonStruct_obj {S : Type} {U : List (Field F S)} {fs : List (FieldSpec F)} {rq : List Str}
    (hrq : rq = (fs.filter (·.required)).map (·.name))
    {m : List (Str × Doc F)} (hm : Fits fs m) (s : S) :
    jsonStruct U rq s (.obj m) = fill false U m s := by
  unfold jsonStruct
  have h1 : ((U.map (·.1)).all fun k => decide (countKey m k ≤ 1)) = true := by
    rw [List.all_eq_true]
    intro k _
    simp [countKey_le hm.nodup k]
  have h2 : (rq.all fun k => decide (countKey m k = 1)) = true := by
    rw [List.all_eq_true, hrq]
    intro k hk
    obtain ⟨f, hf, rfl⟩ := List.mem_map.1 hk
    rw [List.mem_filter] at hf
    have h := hm.required f hf.1 hf.2
    have := countKey_le hm.nodup f.name
    have := countKey_pos h
    simp
    omega
  simp only [structEntries, Outcome.bind_ok, h1, h2, require, if_true]

/-- A missing required field. -/
theorem jsonStruct_missing {S : Type} {U : List (Field F S)} {rq : List Str} {k : Str} (hk : k ∈ rq)
    {m : List (Str × Doc F)} (hm : ∀ e ∈ m, e.1 ≠ k) (s : S) :
    jsonStruct U rq s (.obj m) = .err .format := by
  unfold jsonStruct
  have h2 : (rq.all fun k => decide (countKey m k = 1)) = false := by
    rw [List.all_eq_false]
    exact ⟨k, hk, by simp [countKey_zero hm]⟩
  simp only [structEntries, Outcome.bind_ok, h2, require]
  cases (U.map (·.1)).all fun k => decide (countKey m k ≤ 1) <;> rfl

theorem object_agree {S S' : Type} {R : S → S' → Prop} {fs : List (FieldSpec F)}
    {T : List (Field F S)} {U : List (Field F S')} (h : Agree R fs T U) {rq : List Str}
    (hrq : rq = (fs.filter (·.required)).map (·.name)) {s : S} {s' : S'} (hs : R s s') :
    ∀ v, object fs v → Rel R (readObj (fun m => fill false T m s) v) (jsonStruct U rq s' v) := by
  rintro _ ⟨m, rfl, hm⟩
  rw [jsonStruct_obj hrq hm]
  exact fill_agree h hm.shapes (.inl rfl) hs

/-! ## Fields that are set -/

/-- Storing values of the right shape keeps `P`. -/
inductive Keeps {S : Type} (P : S → Prop) : List (FieldSpec F) → List (Field F S) → Prop
  | nil : Keeps P [] []
  | cons {n : Str} {b : Bool} {sh : Shape F} {f : Doc F → S → Outcome Err S}
      {fs : List (FieldSpec F)} {T : List (Field F S)} :
      (∀ v s s', sh v → P s → f v s = .ok s' → P s') → Keeps P fs T →
      Keeps P (⟨n, b, sh⟩ :: fs) ((n, f) :: T)

theorem Keeps.get {S : Type} {P : S → Prop} {fs : List (FieldSpec F)} {T : List (Field F S)}
    (h : Keeps P fs T) (k : Str) : get? T k = none ∨ ∃ p ∈ fs, ∃ f, p.name = k ∧
      get? T k = some f ∧ ∀ v s s', p.shape v → P s → f v s = .ok s' → P s' := by
  induction h with
  | nil => exact .inl rfl
  | @cons n b sh f fs T hf _ ih =>
    rw [get?_cons]
    by_cases hk : n = k
    · rw [if_pos hk]
      exact .inr ⟨_, List.mem_cons_self .., f, hk, rfl, hf⟩
    · rw [if_neg hk]
      rcases ih with h1 | ⟨p, hp, f', h⟩
      · exact .inl h1
      · exact .inr ⟨p, List.mem_cons_of_mem _ hp, f', h⟩

/-- Field `k` brings about `P`. -/
inductive Sets {S : Type} (P : S → Prop) (k : Str) : List (FieldSpec F) → List (Field F S) → Prop
  | here {b : Bool} {sh : Shape F} {f : Doc F → S → Outcome Err S}
      {fs : List (FieldSpec F)} {T : List (Field F S)} :
      (∀ v s s', sh v → f v s = .ok s' → P s') → Sets P k (⟨k, b, sh⟩ :: fs) ((k, f) :: T)
  | there {n : Str} {p : FieldSpec F} {f : Doc F → S → Outcome Err S}
      {fs : List (FieldSpec F)} {T : List (Field F S)} : n ≠ k → Sets P k fs T →
      Sets P k (p :: fs) ((n, f) :: T)

theorem Sets.get {S : Type} {P : S → Prop} {k : Str} {fs : List (FieldSpec F)}
    {T : List (Field F S)} (h : Sets P k fs T) : ∃ p ∈ fs, ∃ f, p.name = k ∧
      get? T k = some f ∧ ∀ v s s', p.shape v → f v s = .ok s' → P s' := by
  induction h with
  | here hf =>
    rw [get?_cons, if_pos rfl]
    exact ⟨_, List.mem_cons_self .., _, rfl, rfl, hf⟩
  | there hn _ ih =>
    rw [get?_cons, if_neg hn]
    obtain ⟨p, hp, f, h⟩ := ih
    exact ⟨p, List.mem_cons_of_mem _ hp, f, h⟩

theorem bind_eq_ok {E A B : Type} {a : Outcome E A} {f : A → Outcome E B} {b : B}
    (h : (a >>= f) = .ok b) : ∃ x, a = .ok x ∧ f x = .ok b := by
  cases a with
  | ok x => exact ⟨x, rfl, h⟩
  | err e => cases h
  | panic => cases h

theorem fill_keeps {S : Type} {P : S → Prop} {fs : List (FieldSpec F)} {T : List (Field F S)}
    (h : Keeps P fs T) {st : Bool} {m : List (Str × Doc F)} (hm : Shapes fs m) {s s' : S}
    (hs : P s) (hf : fill st T m s = .ok s') : P s' := by
  induction m generalizing s with
  | nil => cases hf; exact hs
  | cons e m ih =>
    simp only [fill] at hf
    rcases h.get e.1 with hT | ⟨p, hp, f, hk, hT, hkeep⟩
    · rw [hT] at hf
      cases st
      · exact ih hm.tail hs hf
      · cases hf
    · rw [hT] at hf
      obtain ⟨x, hx, hf⟩ := bind_eq_ok hf
      exact ih hm.tail (hkeep _ _ _ (hm e (List.mem_cons_self ..) p hp hk) hs hx) hf

theorem fill_sets {S : Type} {P : S → Prop} {fs : List (FieldSpec F)} {T : List (Field F S)}
    (h : Keeps P fs T) {k : Str} (hk : Sets P k fs T) {st : Bool} {m : List (Str × Doc F)}
    (hm : Shapes fs m) (hin : ∃ e ∈ m, e.1 = k) {s s' : S} (hf : fill st T m s = .ok s') : P s' := by
  induction m generalizing s with
  | nil => obtain ⟨e, he, _⟩ := hin; cases he
  | cons e m ih =>
    simp only [fill] at hf
    by_cases hek : e.1 = k
    · obtain ⟨p, hp, f, hn, hT, hset⟩ := hk.get
      rw [hek, hT] at hf
      obtain ⟨x, hx, hf⟩ := bind_eq_ok hf
      exact fill_keeps h hm.tail
        (hset _ _ _ (hm e (List.mem_cons_self ..) p hp (hn.trans hek.symm)) hx) hf
    · have hin' : ∃ e ∈ m, e.1 = k := by
        obtain ⟨x, hx, hxk⟩ := hin
        rcases List.mem_cons.1 hx with rfl | hx
        · exact absurd hxk hek
        · exact ⟨x, hx, hxk⟩
      cases hT : get? T e.1 with
      | none =>
        rw [hT] at hf
        cases st
        · exact ih hm.tail hin' hf
        · cases hf
      | some f =>
        rw [hT] at hf
        obtain ⟨x, hx, hf⟩ := bind_eq_ok hf
        exact ih hm.tail hin' hf

/-- A successful reader may be followed by a check that its result passes. -/
theorem rel_check {A B : Type} {R : A → B → Prop} {a : Outcome Err A} {b : Outcome Err B}
    (h : Rel R a b) {c : A → Bool} (hc : ∀ x, a = .ok x → c x = true) :
    Rel R (a >>= fun x => Blueprint.require (c x) >>= fun _ => Pure.pure x) b := by
  match a, b, h with
  | .ok x, .ok y, h =>
    simp only [Outcome.bind_ok, hc x rfl, Blueprint.require, if_true]
    exact h
  | .err .format, .err .format, _ => trivial

/-! ## One field taken out -/

/-- The order of two actions does not matter. -/
def Comm {S : Type} (f g : Doc F → S → Outcome Err S) : Prop :=
  ∀ v w s, (f v s >>= g w) = (g w s >>= f v)

/-- A reader without panics and with one error only. -/
def Tame {A : Type} (r : Doc F → Outcome Err A) : Prop :=
  ∀ v, (∃ a, r v = .ok a) ∨ r v = .err .format

theorem Tame.of {A : Type} {Q : A → A → Prop} {r : Doc F → Outcome Err A}
    (h : ∀ v, Rel Q (r v) (r v)) : Tame r := by
  intro v
  have := h v
  generalize r v = x at this
  match x, this with
  | .ok a, _ => exact .inl ⟨a, rfl⟩
  | .err .format, _ => exact .inr rfl

theorem comm_fld {S A B : Type} {r : Doc F → Outcome Err A} {r' : Doc F → Outcome Err B}
    (hr : Tame r) (hr' : Tame r') {set : S → A → S} {set' : S → B → S}
    (h : ∀ s a b, set' (set s a) b = set (set' s b) a) :
    Comm (fun v s => r v >>= fun a => Pure.pure (set s a))
      (fun v s => r' v >>= fun a => Pure.pure (set' s a)) := by
  intro v w s
  dsimp only
  rcases hr v with ⟨a, ha⟩ | ha <;> rcases hr' w with ⟨b, hb⟩ | hb <;>
    simp [ha, hb, Outcome.bind_ok, Outcome.bind_err, Outcome.pure_eq, h]

theorem get?_none {A : Type} {m : List (Str × A)} {k : Str} (h : ∀ e ∈ m, e.1 ≠ k) :
    get? m k = none := by
  induction m with
  | nil => rfl
  | cons e m ih =>
    rw [show e = (e.1, e.2) from rfl, get?_cons, if_neg (h e (List.mem_cons_self ..))]
    exact ih fun e he => h e (List.mem_cons_of_mem _ he)

theorem fill_drop {S : Type} {k : Str} {f : Doc F → S → Outcome Err S} {T : List (Field F S)}
    {st : Bool} {m : List (Str × Doc F)} (h : ∀ e ∈ m, e.1 ≠ k) (s : S) :
    fill st ((k, f) :: T) m s = fill st T m s := by
  induction m generalizing s with
  | nil => rfl
  | cons e m ih =>
    have ih := fun s => ih (fun e he => h e (List.mem_cons_of_mem _ he)) s
    simp only [fill]
    rw [get?_cons, if_neg (fun hk => h e (List.mem_cons_self ..) hk.symm)]
    cases get? T e.1 with
    | none => simp only [ih]
    | some g => simp only [ih]

theorem fill_extract {S : Type} {k : Str} {f : Doc F → S → Outcome Err S} {T : List (Field F S)}
    (hk : get? T k = none) (hc : ∀ g ∈ T, Comm f g.2) {m : List (Str × Doc F)}
    (hm : (m.map (·.1)).Nodup) (s : S) :
    fill false ((k, f) :: T) m s =
      ((match get? m k with
        | some v => f v s
        | none => .ok s) >>= fill false T m) := by
  induction m generalizing s with
  | nil => rfl
  | cons e m ih =>
    obtain ⟨k', v⟩ := e
    rw [List.map_cons, List.nodup_cons] at hm
    dsimp only at hm
    by_cases h : k = k'
    · subst h
      have hno : ∀ e ∈ m, e.1 ≠ k := fun e he hek =>
        hm.1 (List.mem_map.2 ⟨e, he, hek⟩)
      simp only [fill, get?_cons, if_true, hk, Bool.false_eq_true, if_false]
      congr 1
      funext s
      exact fill_drop hno s
    · have hT : get? ((k, f) :: T) k' = get? T k' := by rw [get?_cons, if_neg h]
      have hm' : get? ((k', v) :: m) k = get? m k := by
        rw [get?_cons, if_neg (fun h' => h h'.symm)]
      rw [hm']
      simp only [fill, hT]
      cases hg : get? T k' with
      | none => simp only [Bool.false_eq_true, if_false]; exact ih hm.2 s
      | some g =>
        have hcomm : Comm f g := by
          simp only [get?, Option.map_eq_some_iff] at hg
          obtain ⟨x, hx, rfl⟩ := hg
          exact hc _ (List.mem_of_find?_eq_some hx)
        simp only [ih hm.2]
        cases get? m k with
        | none => simp only [Outcome.bind_ok]
        | some w =>
          dsimp only
          have := hcomm w v s
          calc _ = ((g v s >>= f w) >>= fill false T m) := by cases g v s <;> rfl
            _ = ((f w s >>= g v) >>= fill false T m) := by rw [this]
            _ = _ := by cases f w s <;> rfl

theorem fill_nil {S : Type} (m : List (Str × Doc F)) (s : S) : fill false [] m s = .ok s := by
  induction m with
  | nil => rfl
  | cons e m ih => simpa [fill, get?] using ih

theorem fill_congr {S : Type} {T U : List (Field F S)} (h : ∀ k, get? T k = get? U k) (st : Bool)
    (m : List (Str × Doc F)) (s : S) : fill st T m s = fill st U m s := by
  induction m generalizing s with
  | nil => rfl
  | cons e m ih => simp only [fill, h, ih]

theorem get?_swap {A : Type} {k k' : Str} (h : k ≠ k') (a b : A) (l : List (Str × A)) (j : Str) :
    get? ((k, a) :: (k', b) :: l) j = get? ((k', b) :: (k, a) :: l) j := by
  simp only [get?_cons]
  by_cases h1 : k = j
  · subst h1
    rw [if_pos rfl, if_neg (fun h' => h h'.symm), if_pos rfl]
  · rw [if_neg h1, if_neg h1]

theorem get?_mem {A : Type} {m : List (Str × A)} {k : Str} {a : A} (h : get? m k = some a) :
    (k, a) ∈ m := by
  simp only [get?, Option.map_eq_some_iff] at h
  obtain ⟨x, hx, rfl⟩ := h
  have h1 := List.find?_some hx
  have h2 := List.mem_of_find?_eq_some hx
  rw [← show x.1 = k by simpa using h1]
  exact h2

theorem get?_some {A : Type} {m : List (Str × A)} {k : Str} (h : ∃ e ∈ m, e.1 = k) :
    ∃ a, get? m k = some a ∧ (k, a) ∈ m := by
  induction m with
  | nil => obtain ⟨e, he, _⟩ := h; cases he
  | cons e m ih =>
    obtain ⟨k', b⟩ := e
    rw [get?_cons]
    by_cases hk : k' = k
    · subst hk
      exact ⟨b, by simp, List.mem_cons_self ..⟩
    · rw [if_neg hk]
      obtain ⟨x, hx, hxk⟩ := h
      rcases List.mem_cons.1 hx with rfl | hx
      · exact absurd hxk hk
      · obtain ⟨a, ha, hm⟩ := ih ⟨x, hx, hxk⟩
        exact ⟨a, ha, List.mem_cons_of_mem _ hm⟩

theorem bind_ok_id {E A : Type} (a : Outcome E A) : (a >>= fun x => .ok x) = a := by
  cases a <;> rfl

theorem fill_one {S A : Type} {k : String} {r : Doc F → Outcome Err A} {set : S → A → S}
    {m : List (Str × Doc F)} (hm : (m.map (·.1)).Nodup) {v : Doc F}
    (hv : get? m k.toList = some v) (s : S) :
    fill false [fld k r set] m s = (r v >>= fun a => Pure.pure (set s a)) := by
  unfold fld
  rw [fill_extract rfl (by simp) hm, hv]
  rw [show fill false ([] : List (Field F S)) m = fun s => .ok s from funext fun s => fill_nil ..]
  exact bind_ok_id _

theorem fill_none {S : Type} {k : Str} {f : Doc F → S → Outcome Err S}
    {m : List (Str × Doc F)} (hv : get? m k = none) (s : S) :
    fill false [(k, f)] m s = .ok s := by
  have hno : ∀ e ∈ m, e.1 ≠ k := by
    intro e he hk
    obtain ⟨a, ha, _⟩ := get?_some ⟨e, he, hk⟩
    rw [hv] at ha
    cases ha
  rw [fill_drop hno, fill_nil]

theorem fill_two {S A B : Type} {k k' : String} {r : Doc F → Outcome Err A}
    {r' : Doc F → Outcome Err B} {set : S → A → S} {set' : S → B → S} (hr : Tame r) (hr' : Tame r')
    (hset : ∀ s a b, set' (set s a) b = set (set' s b) a) (hk : k'.toList ≠ k.toList)
    {m : List (Str × Doc F)} (hm : (m.map (·.1)).Nodup) {v w : Doc F}
    (hv : get? m k.toList = some v) (hw : get? m k'.toList = some w) (s : S) :
    fill false [fld k r set, fld k' r' set'] m s =
      (r v >>= fun a => r' w >>= fun b => Pure.pure (set' (set s a) b)) := by
  have h : fill false [fld k r set, fld k' r' set'] m s = _ := fill_extract
    (f := fun v s => r v >>= fun a => Pure.pure (set s a)) (T := [fld k' r' set'])
    (by unfold fld; rw [get?_cons, if_neg hk]; rfl)
    (by
      intro g hg
      rw [List.mem_singleton] at hg
      subst hg
      exact comm_fld hr hr' hset) hm s
  rw [h, hv]
  dsimp only
  rcases hr v with ⟨a, ha⟩ | ha
  · simp only [ha, Outcome.bind_ok, Outcome.pure_eq]
    rw [fill_one hm hw]
    rfl
  · simp only [ha, Outcome.bind_err]

/-- The value of a required field. -/
theorem Fits.get {fs : List (FieldSpec F)} {m : List (Str × Doc F)} (h : Fits fs m)
    {p : FieldSpec F} (hp : p ∈ fs) (hr : p.required = true) :
    ∃ v, get? m p.name = some v ∧ p.shape v := by
  obtain ⟨v, hv, hm⟩ := get?_some (h.required p hp hr)
  exact ⟨v, hv, h.shapes _ hm p hp rfl⟩

/-- The value of an optional field. -/
theorem Fits.get_opt {fs : List (FieldSpec F)} {m : List (Str × Doc F)} (h : Fits fs m)
    {p : FieldSpec F} (hp : p ∈ fs) {v : Doc F} (hv : get? m p.name = some v) : p.shape v :=
  h.shapes _ (get?_mem hv) p hp rfl

/-! ## Values -/

/-- Null is not of this shape. -/
class NonNull (sh : Shape F) : Prop where
  out : ¬ sh .null

instance : NonNull (F := F) text := ⟨by rintro ⟨_, h⟩; cases h⟩
instance : NonNull (F := F) someText := ⟨by rintro ⟨_, _, h⟩; cases h⟩
instance (l : List String) : NonNull (F := F) (oneOf l) := ⟨by rintro ⟨_, _, h⟩; cases h⟩
instance : NonNull (F := F) boolean := ⟨by rintro ⟨_, h⟩; cases h⟩
instance : NonNull (F := F) integer := ⟨by rintro ⟨_, _, _, h⟩; cases h⟩
instance : NonNull (F := F) real := ⟨by rintro ⟨_, h⟩; cases h⟩
instance (a : Shape F) : NonNull (listOf a) := ⟨by rintro ⟨_, h, _⟩; cases h⟩
instance (a : Shape F) : NonNull (someOf a) := ⟨by rintro ⟨_, _, h, _⟩; cases h⟩
instance (a : Shape F) : NonNull (mapOf a) := ⟨by rintro ⟨_, h, _⟩; cases h⟩
instance (fs : List (FieldSpec F)) : NonNull (object fs) := ⟨by rintro ⟨_, h, _⟩; cases h⟩
instance (a b : Shape F) [ha : NonNull a] [hb : NonNull b] : NonNull (either a b) :=
  ⟨fun h => h.elim ha.out hb.out⟩
instance : NonNull (F := F) Plain := ⟨fun h => by cases h⟩
instance : NonNull (F := F) scalar := ⟨by
  unfold scalar
  exact (inferInstance : NonNull (F := F) (either text (either boolean (either integer real)))).out⟩

theorem jsonOpt_nonNull {A : Type} (r : Doc F → Outcome Err A) {sh : Shape F} [h : NonNull sh]
    {v : Doc F} (hv : sh v) : jsonOpt r v = keep r v := by
  cases v with
  | null => exact absurd hv h.out
  | _ => rfl

theorem Agree.opt {S S' A B : Type} {R : S → S' → Prop} {Q : A → B → Prop} {n : String}
    {sh : Shape F} [NonNull sh] {r : Doc F → Outcome Err A} {r' : Doc F → Outcome Err B}
    {set : S → A → S} {set' : S' → Option B → S'} {fs : List (FieldSpec F)} {T : List (Field F S)}
    {U : List (Field F S')} (hr : ∀ v, sh v → Rel Q (r v) (r' v))
    (hset : ∀ s s' a b, R s s' → Q a b → R (set s a) (set' s' (some b)))
    (h : Agree R fs T U) :
    Agree R (Spec.opt n sh :: fs) (fld n r set :: T) (fld n (jsonOpt r') set' :: U) := by
  refine .cons (fun v s s' hv hs => ?_) h
  rw [jsonOpt_nonNull r' hv]
  have h := hr v hv
  dsimp only [keep]
  generalize r v = x at h ⊢
  generalize r' v = y at h ⊢
  match x, y, h with
  | .ok a, .ok b, h => exact hset s s' a b hs h
  | .err .format, .err .format, _ => trivial

theorem Agree.req {S S' A B : Type} {R : S → S' → Prop} {Q : A → B → Prop} {n : String}
    {sh : Shape F} {r : Doc F → Outcome Err A} {r' : Doc F → Outcome Err B}
    {set : S → A → S} {set' : S' → B → S'} {fs : List (FieldSpec F)} {T : List (Field F S)}
    {U : List (Field F S')} (hr : ∀ v, sh v → Rel Q (r v) (r' v))
    (hset : ∀ s s' a b, R s s' → Q a b → R (set s a) (set' s' b))
    (h : Agree R fs T U) :
    Agree R (Spec.req n sh :: fs) (fld n r set :: T) (fld n r' set' :: U) :=
  .cons (fun v s s' hv hs => Rel.bind (hr v hv) fun a b hab => hset s s' a b hs hab) h

theorem text_agree (sh : Shape F) (v : Doc F) (_ : sh v) : Rel Eq (yamlSos cx v) (jsonSos cx v) := by
  have : yamlSos cx v = jsonSos cx v := by cases v <;> rfl
  rw [this]
  exact jsonSos_self cx v

theorem sos_eq : yamlSos cx = jsonSos cx := by
  funext v; cases v <;> rfl

theorem texts_agree (sh : Shape F) (v : Doc F) (_ : sh v) :
    Rel Eq (yamlSosVec cx v) (jsonSosVec cx v) := by
  unfold yamlSosVec jsonSosVec
  rw [sos_eq]
  exact jsonSosVec_self cx v

theorem textMap_agree (sh : Shape F) (v : Doc F) (_ : sh v) :
    Rel Eq (yamlSosMap cx v) (jsonSosMap cx v) := by
  unfold yamlSosMap jsonSosMap
  rw [sos_eq]
  exact jsonSosMap_self cx v

theorem jsonIntNode_in {n : Int} (h1 : -(2 ^ 63) ≤ n) (h2 : n < 2 ^ 63) :
    jsonIntNode cx n = .int n := by
  unfold jsonIntNode wrapI64
  by_cases h : 0 ≤ n
  · rw [if_pos ⟨h, by omega⟩, if_pos h2]
  · rw [if_neg (fun h' => h h'.1), if_pos ⟨h1, by omega⟩]

theorem inI64_in {n : Int} (h1 : -(2 ^ 63) ≤ n) (h2 : n < 2 ^ 63) : inI64 n = true := by
  unfold inI64
  rw [decide_eq_true h1, decide_eq_true h2]
  rfl

theorem integer_agree (v : Doc F) (h : integer v) : Rel (NR cx) (yamlInt cx v) (jsonNode cx v) := by
  obtain ⟨n, h1, h2, rfl⟩ := h
  simp only [yamlInt, jsonNode, inI64_in h1 h2, jsonIntNode_in cx h1 h2, if_true]
  exact NR.ofScalar cx _

theorem boolean_agree (v : Doc F) (h : boolean v) :
    Rel (NR cx) (yamlBool cx v) (jsonNode cx v) := by
  obtain ⟨b, rfl⟩ := h
  simp only [yamlBool, jsonNode]
  exact NR.ofScalar cx _

theorem real_agree (v : Doc F) (h : real v) : Rel (NR cx) (yamlFloat cx v) (jsonNode cx v) := by
  obtain ⟨x, rfl⟩ := h
  simp only [yamlFloat, jsonNode]
  exact NR.ofScalar cx _

theorem jsonStrNode_plain {s : Str} (h : '"' ∉ s) : jsonStrNode cx s = .scalar (.str s) := by
  unfold jsonStrNode
  cases hs : cx.jsonString s with
  | none => rfl
  | some t => exact absurd (cx.jsonString_quote s t hs) h

theorem parse_plain {s : Str} (h : ∀ a b, s ≠ a ++ '$' :: '{' :: b) :
    parseSubstitutions cx.cls s = .ok [.str s] := by
  apply parse_plain_text
  rintro ⟨a, b, rfl⟩
  exact h a b rfl

mutual
theorem yamlNode_agree : ∀ v : Doc F, Plain v → Rel (NR cx) (yamlNode cx v) (jsonNode cx v)
  | .null, h => by cases h
  | .bool b, _ => by simp only [yamlNode, jsonNode]; exact NR.ofScalar cx _
  | .int n, h => by
    cases h with
    | int _ h1 h2 =>
      simp only [yamlNode, jsonNode, inI64_in h1 h2, jsonIntNode_in cx h1 h2, if_true]
      exact NR.ofScalar cx _
  | .float x, _ => by simp only [yamlNode, jsonNode]; exact NR.ofScalar cx _
  | .str s, h => by
    cases h with
    | str _ h1 h2 =>
      simp only [yamlNode, jsonNode, parse_plain cx h2, jsonStrNode_plain cx h1, liftParse,
        Outcome.bind_ok]
      exact NR.ofLiteral cx s
  | .arr l, h => by
    cases h with
    | arr _ h =>
      simp only [yamlNode, jsonNode]
      exact Rel.bind (yamlNodes_agree l h) fun _ _ h => NR.ofSequence cx h
  | .obj m, h => by
    cases h with
    | obj _ h =>
      simp only [yamlNode, jsonNode]
      exact Rel.bind (yamlNodeEntries_agree m h .nil) fun _ _ h => NR.ofMapping cx h
theorem yamlNodeEntries_agree : ∀ (m : List (Str × Doc F)), (∀ e ∈ m, Plain e.2) →
    ∀ {acc acc' : List (Str × Node F)}, MRel (NR cx) acc acc' →
    Rel (MRel (NR cx)) (yamlNodeEntries cx m acc) (jsonNodeEntries cx m acc')
  | [], _, _, _, h => by simp only [yamlNodeEntries, jsonNodeEntries]; exact h
  | (k, v) :: rest, hp, _, _, h => by
    simp only [yamlNodeEntries, jsonNodeEntries]
    exact Rel.bind (yamlNode_agree v (hp (k, v) (List.mem_cons_self ..))) fun _ _ hn =>
      yamlNodeEntries_agree rest (fun e he => hp e (List.mem_cons_of_mem _ he)) (hmInsert_rel h k hn)
theorem yamlNodes_agree : ∀ l : List (Doc F), (∀ x ∈ l, Plain x) →
    Rel (LRel (NR cx)) (yamlNodes cx l) (jsonNodes cx l)
  | [], _ => by simp only [yamlNodes, jsonNodes]; exact .nil
  | v :: rest, hp => by
    simp only [yamlNodes, jsonNodes]
    exact Rel.bind (yamlNode_agree v (hp v (List.mem_cons_self ..))) fun _ _ hn =>
      Rel.bind (yamlNodes_agree rest fun e he => hp e (List.mem_cons_of_mem _ he)) fun _ _ hr =>
        .cons hn hr
end

theorem nodes_eq (l : List (Doc F)) : fillVec (keep (jsonNode cx)) l = jsonNodes cx l := by
  induction l with
  | nil => simp only [fillVec, jsonNodes]
  | cons v l ih =>
    simp only [fillVec, jsonNodes, keep, ih]
    cases jsonNode cx v <;> first | rfl | (cases jsonNodes cx l <;> rfl)

theorem plainMap_agree (v : Doc F) (h : mapOf Plain v) :
    Rel (MRel (NR cx)) (readObj (fun m => yamlNodeEntries cx m []) v) (jsonNodeMap cx v) := by
  obtain ⟨m, rfl, hm⟩ := h
  exact yamlNodeEntries_agree cx m hm .nil

theorem readVec_agree {A B : Type} {Q : A → B → Prop} {sh : Shape F} {r : Doc F → Outcome Err A}
    {r' : Doc F → Outcome Err B} (h : ∀ v, sh v → Rel Q (r v) (r' v)) (v : Doc F)
    (hv : listOf sh v) : Rel (LRel Q) (readVec r v) (readVec r' v) := by
  obtain ⟨l, rfl, hl⟩ := hv
  exact fillVec_rel l fun v hv => keep_rel (h v (hl v hv))

theorem someOf_listOf {sh : Shape F} {v : Doc F} (h : someOf sh v) : listOf sh v := by
  obtain ⟨l, _, h⟩ := h
  exact ⟨l, h⟩

/-- A sequence of mappings: none is skipped. -/
theorem vecSkip_agree {A B : Type} {Q : A → B → Prop} {fs : List (FieldSpec F)}
    {r : List (Str × Doc F) → Outcome Err A} {r' : Doc F → Outcome Err B}
    (h : ∀ v, object fs v → Rel Q (readObj r v) (r' v)) (v : Doc F)
    (hv : listOf (object fs) v) : Rel (LRel Q) (yamlVecSkip r v) (readVec r' v) := by
  obtain ⟨l, rfl, hl⟩ := hv
  refine fillVec_rel l fun v hv => ?_
  have h1 := hl v hv
  obtain ⟨m, rfl, hm⟩ := h1
  exact keep_rel (h _ ⟨m, rfl, hm⟩)

/-- A mapping to mappings: none is skipped. -/
theorem mapSkip_agree {A B : Type} {Q : A → B → Prop} {sh : Shape F}
    (hsh : ∀ v, sh v → ∃ m, v = .obj m)
    {r : List (Str × Doc F) → Outcome Err A} {r' : Doc F → Outcome Err B}
    (h : ∀ v, sh v → Rel Q (readObj r v) (r' v)) (v : Doc F) (hv : mapOf sh v) :
    Rel (MRel Q) (readObj (fun m => fillMap (skipNonObj r) m []) v) (readMap r' v) := by
  obtain ⟨m, rfl, hm⟩ := hv
  refine fillMap_rel m (fun e he => ?_) .nil
  have h1 := hm e he
  obtain ⟨k, v⟩ := e
  dsimp only at h1 ⊢
  obtain ⟨m', rfl⟩ := hsh v h1
  exact keep_rel (h _ h1)

theorem object_obj {fs : List (FieldSpec F)} (v : Doc F) (h : object fs v) : ∃ m, v = .obj m := by
  obtain ⟨m, rfl, _⟩ := h
  exact ⟨m, rfl⟩

end Verif.Blueprint
