import Verif.Blueprint.AgreeLemmas
import Verif.Blueprint.Source

/-!
# Reading back what was written: building blocks

`Ld a g b` says that reading succeeds (`a`), and resolving what was read (`g`) gives `b`.
-/

namespace Verif.Blueprint.Source

open Verif Verif.Subst Verif.Subst.Spec

variable {F : Type}

/-- Reading and then resolving. -/
def Ld {W B : Type} (a : Outcome Err W) (g : W → Res B) (b : B) : Prop :=
  ∃ w, a = .ok w ∧ g w = .ok b

theorem bind_ok {E A B : Type} {a : Outcome E A} {x : A} (h : a = .ok x) (f : A → Outcome E B) :
    (a >>= f) = f x := by rw [h]; rfl

/-! ## Options, lists, maps -/

theorem ORel.iff {A B : Type} {R Q : A → B → Prop} {o : Option A} {o' : Option B}
    (h : ∀ a, o = some a → ∀ b, R a b ↔ Q a b) : ORel R o o' ↔ ORel Q o o' := by
  cases o <;> cases o' <;> simp only [ORel]
  exact h _ rfl _

theorem optM_iff {A B : Type} {g : A → Res B} {o : Option A} {o' : Option B} :
    optM g o = .ok o' ↔ ORel (fun a b => g a = .ok b) o o' := by
  cases o with
  | none => cases o' <;> simp [optM, ORel]
  | some a =>
    simp only [optM]
    constructor
    · intro h
      obtain ⟨b, hb, h⟩ := bind_eq_ok h
      cases h
      exact hb
    · intro h
      cases o' with
      | none => exact h.elim
      | some b => rw [bind_ok h]; rfl

theorem ld_opt {A W B : Type} {r : A → Outcome Err W} {g : W → Res B} {M : A → B → Prop}
    {o : Option A} {o' : Option B} (h : ∀ a, o = some a → ∀ b, Ld (r a) g b ↔ M a b) :
    (∃ w, ORel (fun a c => r a = .ok c) o w ∧ optM g w = .ok o') ↔ ORel M o o' := by
  constructor
  · rintro ⟨w, h1, h2⟩
    rw [optM_iff] at h2
    match o, w, o', h1, h2 with
    | none, none, none, _, _ => trivial
    | some a, some c, some b, h1, h2 => exact (h a rfl b).1 ⟨c, h1, h2⟩
  · intro hm
    match o, o', hm with
    | none, none, _ => exact ⟨none, trivial, rfl⟩
    | some a, some b, hm =>
      obtain ⟨c, h1, h2⟩ := (h a rfl b).2 hm
      exact ⟨some c, h1, optM_iff.2 h2⟩

theorem fillVec_keep {A W : Type} {r : Doc F → Outcome Err W} {w : A → Doc F} {l : List A}
    {l' : List W} : fillVec (keep r) (l.map w) = .ok l' ↔ LRel (fun a c => r (w a) = .ok c) l l' := by
  induction l generalizing l' with
  | nil =>
    simp only [List.map_nil, fillVec, Outcome.ok.injEq]
    constructor
    · rintro rfl; exact .nil
    · intro h; cases h; rfl
  | cons a l ih =>
    simp only [List.map_cons, fillVec, keep]
    constructor
    · intro h
      obtain ⟨_, h1, h⟩ := bind_eq_ok h
      obtain ⟨c, hc, h1⟩ := bind_eq_ok h1
      cases h1
      obtain ⟨cs, h2, h⟩ := bind_eq_ok h
      cases h
      exact .cons hc (ih.1 h2)
    · intro h
      cases h with
      | cons h1 h2 => rw [h1]; simp only [Outcome.bind_ok, Outcome.pure_eq]; rw [ih.2 h2]; rfl

theorem listM_iff {A B : Type} {g : A → Res B} {l : List A} {l' : List B} :
    listM g l = .ok l' ↔ LRel (fun a b => g a = .ok b) l l' := by
  induction l generalizing l' with
  | nil =>
    simp only [listM, Outcome.ok.injEq]
    constructor
    · rintro rfl; exact .nil
    · intro h; cases h; rfl
  | cons a l ih =>
    simp only [listM]
    constructor
    · intro h
      obtain ⟨_, h1, h⟩ := bind_eq_ok h
      obtain ⟨_, h2, h⟩ := bind_eq_ok h
      cases h
      exact .cons h1 (ih.1 h2)
    · intro h
      cases h with
      | cons h1 h2 => rw [bind_ok h1, bind_ok (ih.2 h2)]; rfl

theorem mapM_iff {A B : Type} {g : A → Res B} {l : List (Str × A)} {l' : List (Str × B)} :
    mapM g l = .ok l' ↔ MRel (fun a b => g a = .ok b) l l' := by
  induction l generalizing l' with
  | nil =>
    simp only [mapM, Outcome.ok.injEq]
    constructor
    · rintro rfl; exact .nil
    · intro h; cases h; rfl
  | cons a l ih =>
    obtain ⟨k, a⟩ := a
    simp only [mapM]
    constructor
    · intro h
      obtain ⟨_, h1, h⟩ := bind_eq_ok h
      obtain ⟨_, h2, h⟩ := bind_eq_ok h
      cases h
      exact .cons ⟨rfl, h1⟩ (ih.1 h2)
    · intro h
      cases h with
      | @cons _ b _ _ h1 h2 =>
        obtain ⟨k', b⟩ := b
        obtain ⟨rfl, h1⟩ := h1
        rw [bind_ok h1, bind_ok (ih.2 h2)]; rfl

theorem LRel.comp {A W B : Type} {R : A → W → Prop} {Q : W → B → Prop} {M : A → B → Prop}
    {l : List A} {l' : List B} (h : ∀ a ∈ l, ∀ b, (∃ c, R a c ∧ Q c b) ↔ M a b) :
    (∃ w, LRel R l w ∧ LRel Q w l') ↔ LRel M l l' := by
  constructor
  · rintro ⟨w, h1, h2⟩
    induction h1 generalizing l' with
    | nil => cases h2; exact .nil
    | @cons a c l w hr _ ih =>
      cases h2 with
      | cons hq h2 =>
        exact .cons ((h a (List.mem_cons_self ..) _).1 ⟨c, hr, hq⟩)
          (ih (fun x hx => h x (List.mem_cons_of_mem _ hx)) h2)
  · intro hm
    induction hm with
    | nil => exact ⟨[], .nil, .nil⟩
    | @cons a b l l' hr _ ih =>
      obtain ⟨c, h1, h2⟩ := (h a (List.mem_cons_self ..) _).2 hr
      obtain ⟨w, h3, h4⟩ := ih (fun x hx => h x (List.mem_cons_of_mem _ hx))
      exact ⟨c :: w, .cons h1 h3, .cons h2 h4⟩

theorem ld_list {A W B : Type} {r : Doc F → Outcome Err W} {w : A → Doc F} {g : W → Res B}
    {M : A → B → Prop} {l : List A} {l' : List B}
    (h : ∀ a ∈ l, ∀ b, Ld (r (w a)) g b ↔ M a b) :
    Ld (readVec r (wList w l)) (listM g) l' ↔ LRel M l l' := by
  simp only [Ld, readVec, wList, fillVec_keep, listM_iff]
  exact LRel.comp h

theorem hmInsert_new {A : Type} {m : List (Str × A)} {k : Str} (h : k ∉ m.map (·.1)) (a : A) :
    hmInsert m k a = m ++ [(k, a)] := by
  unfold hmInsert
  rw [List.filter_eq_self.2]
  intro e he
  simp only [decide_eq_true_eq]
  rintro rfl
  exact h (List.mem_map_of_mem he)

theorem MRel.keys {A B : Type} {R : A → B → Prop} {l : List (Str × A)} {m : List (Str × B)}
    (h : MRel R l m) : l.map (·.1) = m.map (·.1) := by
  induction h with
  | nil => rfl
  | cons h _ ih => rw [List.map_cons, List.map_cons, h.1, ih]

theorem fillMap_acc {A W : Type} {r : Doc F → Outcome Err (Option W)} {w : A → Doc F}
    {r' : Doc F → Outcome Err W} {m : List (Str × A)}
    (hr : ∀ e ∈ m, r (w e.2) = keep r' (w e.2)) (hn : (m.map (·.1)).Nodup)
    {acc : List (Str × W)} (ha : ∀ k ∈ m.map (·.1), k ∉ acc.map (·.1)) {res : List (Str × W)} :
    fillMap r (m.map fun e => (e.1, w e.2)) acc = .ok res ↔
      ∃ m', MRel (fun a c => r' (w a) = .ok c) m m' ∧ res = acc ++ m' := by
  induction m generalizing acc with
  | nil =>
    simp only [List.map_nil, fillMap, Outcome.ok.injEq]
    constructor
    · rintro rfl; exact ⟨[], .nil, by simp⟩
    · rintro ⟨m', h, rfl⟩; cases h; simp
  | cons e m ih =>
    obtain ⟨k, a⟩ := e
    rw [List.map_cons, List.nodup_cons] at hn
    have hk : k ∉ acc.map (·.1) := ha k (List.mem_cons_self ..)
    have ih' : ∀ c : W, _ := fun c => ih (fun e he => hr e (List.mem_cons_of_mem _ he)) hn.2
      (acc := acc ++ [(k, c)]) (by
        intro j hj
        simp only [List.map_append, List.map_cons, List.map_nil, List.mem_append,
          List.mem_singleton, not_or]
        exact ⟨ha j (List.mem_cons_of_mem _ hj), fun h => hn.1 (h ▸ hj)⟩)
    simp only [List.map_cons, fillMap, hr _ (List.mem_cons_self ..), keep]
    constructor
    · intro h
      obtain ⟨_, h1, h⟩ := bind_eq_ok h
      obtain ⟨c, hc, h1⟩ := bind_eq_ok h1
      cases h1
      simp only [hmInsert_new hk] at h
      obtain ⟨m', h2, rfl⟩ := (ih' c).1 h
      exact ⟨(k, c) :: m', .cons ⟨rfl, hc⟩ h2, by simp⟩
    · rintro ⟨m', h, rfl⟩
      cases h with
      | @cons _ x _ m' h1 h2 =>
        obtain ⟨k', c⟩ := x
        obtain ⟨rfl, h1⟩ := h1
        simp only at h1
        rw [h1]
        simp only [Outcome.bind_ok, Outcome.pure_eq, hmInsert_new hk]
        exact (ih' c).2 ⟨m', h2, by simp⟩

theorem MRel.comp {A W B : Type} {R : A → W → Prop} {Q : W → B → Prop} {M : A → B → Prop}
    {l : List (Str × A)} {l' : List (Str × B)}
    (h : ∀ e ∈ l, ∀ b, (∃ c, R e.2 c ∧ Q c b) ↔ M e.2 b) :
    (∃ w, MRel R l w ∧ MRel Q w l') ↔ MRel M l l' := by
  apply LRel.comp
  intro e he b
  constructor
  · rintro ⟨⟨k, c⟩, ⟨h1, h2⟩, h3, h4⟩
    exact ⟨h1.trans h3, (h e he b.2).1 ⟨c, h2, h4⟩⟩
  · rintro ⟨h1, h2⟩
    obtain ⟨c, h3, h4⟩ := (h e he b.2).2 h2
    exact ⟨(e.1, c), ⟨rfl, h3⟩, h1, h4⟩

theorem keys_written {A : Type} (w : A → Doc F) (m : List (Str × A)) :
    (m.map fun e => (e.1, w e.2)).map (·.1) = m.map (·.1) := by
  rw [List.map_map]; rfl

theorem ld_fillMap {A W B : Type} {r : Doc F → Outcome Err (Option W)} {r' : Doc F → Outcome Err W}
    {w : A → Doc F} {g : W → Res B} {M : A → B → Prop} {m : List (Str × A)} {m' : List (Str × B)}
    (hr : ∀ e ∈ m, r (w e.2) = keep r' (w e.2)) (hn : (m.map (·.1)).Nodup)
    (h : ∀ e ∈ m, ∀ b, Ld (r' (w e.2)) g b ↔ M e.2 b) :
    Ld (fillMap r (m.map fun e => (e.1, w e.2)) []) (mapM g) m' ↔ MRel M m m' := by
  have : ∀ res, fillMap r (m.map fun e => (e.1, w e.2)) [] = .ok res ↔
      MRel (fun a c => r' (w a) = .ok c) m res := by
    intro res
    rw [fillMap_acc (r' := r') hr hn (by simp)]
    simp
  simp only [Ld, this, mapM_iff]
  exact MRel.comp h

theorem Distinct.nodup {m : List (Str × Doc F)} (h : Distinct (.obj m)) : (m.map (·.1)).Nodup := by
  cases h; assumption

theorem Distinct.value {m : List (Str × Doc F)} (h : Distinct (.obj m)) : ∀ e ∈ m, Distinct e.2 := by
  cases h; assumption

theorem Distinct.elem {l : List (Doc F)} (h : Distinct (.arr l)) : ∀ v ∈ l, Distinct v := by
  cases h; assumption

theorem Distinct.list {A : Type} {w : A → Doc F} {l : List A} (h : Distinct (wList w l)) :
    ∀ a ∈ l, Distinct (w a) := fun _ ha => h.elem _ (List.mem_map_of_mem ha)

theorem Distinct.map {A : Type} {w : A → Doc F} {m : List (Str × A)} (h : Distinct (wMap w m)) :
    ∀ e ∈ m, Distinct (w e.2) := fun e he =>
  h.value (e.1, w e.2) (List.mem_map_of_mem (f := fun e => (e.1, w e.2)) he)

theorem Distinct.mapNodup {A : Type} {w : A → Doc F} {m : List (Str × A)} (h : Distinct (wMap w m)) :
    (m.map (·.1)).Nodup := by
  have := h.nodup
  rwa [keys_written] at this

theorem ld_map {A W B : Type} {r : Doc F → Outcome Err W} {w : A → Doc F} {g : W → Res B}
    {M : A → B → Prop} {m : List (Str × A)} {m' : List (Str × B)} (hd : Distinct (wMap w m))
    (h : ∀ e ∈ m, ∀ b, Ld (r (w e.2)) g b ↔ M e.2 b) :
    Ld (readMap r (wMap w m)) (mapM g) m' ↔ MRel M m m' :=
  ld_fillMap (fun _ _ => rfl) hd.mapNodup h

/-! ## Fields -/

theorem fill_entry {S : Type} {st : Bool} {T : List (Field F S)} {k : Str}
    {act : Doc F → S → Outcome Err S} (hg : get? T k = some act) (v : Doc F)
    (rest : List (Str × Doc F)) (s : S) :
    fill st T ((k, v) :: rest) s = act v s >>= fill st T rest := by
  rw [fill, hg]

theorem fill_done {S : Type} {st : Bool} {T : List (Field F S)} {s y : S}
    (h : fill st T [] s = .ok y) : s = y := by
  simpa [fill] using h

theorem reqF {S W : Type} {st : Bool} {T : List (Field F S)} {k : String}
    {r : Doc F → Outcome Err W} {set : S → W → S}
    (hg : get? T k.toList = some (fld k r set).2) {v : Doc F} {rest : List (Str × Doc F)} {s y : S} :
    fill st T (req k v ++ rest) s = .ok y ↔
      ∃ b, r v = .ok b ∧ fill st T rest (set s b) = .ok y := by
  rw [req, List.singleton_append, fill_entry hg]
  constructor
  · intro h
    obtain ⟨_, h1, h⟩ := bind_eq_ok h
    obtain ⟨b, hb, h1⟩ := bind_eq_ok h1
    cases h1
    exact ⟨b, hb, h⟩
  · rintro ⟨b, hb, h⟩
    simp only [fld]
    rw [hb]
    exact h

theorem optY {A S W : Type} {st : Bool} {T : List (Field F S)} {k : String}
    {r : Doc F → Outcome Err W} {set : S → W → S}
    (hg : get? T k.toList = some (fld k r set).2) (set0 : S → Option W → S)
    {s : S} (hs : ∀ b, set s b = set0 s (some b)) (h0 : set0 s none = s) {w : A → Doc F}
    {o : Option A} {rest : List (Str × Doc F)} {y : S} :
    fill st T (opt k (o.map w) ++ rest) s = .ok y ↔
      ∃ o', ORel (fun a c => r (w a) = .ok c) o o' ∧ fill st T rest (set0 s o') = .ok y := by
  cases o with
  | none =>
    simp only [Option.map_none, opt, List.nil_append]
    constructor
    · intro h; exact ⟨none, trivial, by rwa [h0]⟩
    · rintro ⟨o', h1, h2⟩
      cases o' with
      | none => rwa [h0] at h2
      | some => exact h1.elim
  | some a =>
    simp only [Option.map_some, opt]
    refine (reqF (st := st) hg).trans ?_
    constructor
    · rintro ⟨b, hb, h⟩; exact ⟨some b, hb, by rwa [← hs]⟩
    · rintro ⟨o', h1, h2⟩
      cases o' with
      | none => exact h1.elim
      | some b => exact ⟨b, h1, by rwa [hs]⟩

theorem jsonOpt_iff {W : Type} {r : Doc F → Outcome Err W} {v : Doc F} (hv : v ≠ .null)
    {o : Option W} : jsonOpt r v = .ok o ↔ ∃ c, r v = .ok c ∧ o = some c := by
  have : jsonOpt r v = keep r v := by cases v <;> first | exact absurd rfl hv | rfl
  rw [this, keep]
  constructor
  · intro h
    obtain ⟨c, hc, h⟩ := bind_eq_ok h
    cases h
    exact ⟨c, hc, rfl⟩
  · rintro ⟨c, hc, rfl⟩; rw [hc]; rfl

theorem optJ {A S W : Type} {st : Bool} {T : List (Field F S)} {k : String}
    {r : Doc F → Outcome Err W} {set : S → Option W → S}
    (hg : get? T k.toList = some (fld k (jsonOpt r) set).2) {w : A → Doc F}
    (hw : ∀ a, w a ≠ .null) {s : S} (h0 : set s none = s)
    {o : Option A} {rest : List (Str × Doc F)} {y : S} :
    fill st T (opt k (o.map w) ++ rest) s = .ok y ↔
      ∃ o', ORel (fun a c => r (w a) = .ok c) o o' ∧ fill st T rest (set s o') = .ok y := by
  cases o with
  | none =>
    simp only [Option.map_none, opt, List.nil_append]
    constructor
    · intro h; exact ⟨none, trivial, by rwa [h0]⟩
    · rintro ⟨o', h1, h2⟩
      cases o' with
      | none => rwa [h0] at h2
      | some => exact h1.elim
  | some a =>
    simp only [Option.map_some, opt]
    refine (reqF (st := st) hg).trans ?_
    simp only [jsonOpt_iff (hw a)]
    constructor
    · rintro ⟨_, ⟨b, hb, rfl⟩, h⟩; exact ⟨some b, hb, h⟩
    · rintro ⟨o', h1, h2⟩
      cases o' with
      | none => exact h1.elim
      | some b => exact ⟨_, ⟨b, h1, rfl⟩, h2⟩

theorem countKey_cons (e : Str × Doc F) (m : List (Str × Doc F)) (k : Str) :
    countKey (e :: m) k = (if e.1 = k then 1 else 0) + countKey m k := by
  unfold countKey
  rw [List.filter_cons]
  by_cases h : e.1 = k <;> simp [h]
  omega

theorem countKey_zero {m : List (Str × Doc F)} {k : Str} (h : k ∉ m.map (·.1)) : countKey m k = 0 := by
  induction m with
  | nil => rfl
  | cons e m ih =>
    rw [List.map_cons, List.mem_cons, not_or] at h
    rw [countKey_cons, if_neg (Ne.symm h.1), ih h.2]

theorem countKey_nodup {m : List (Str × Doc F)} (h : (m.map (·.1)).Nodup) (k : Str) :
    countKey m k ≤ 1 ∧ (k ∈ m.map (·.1) → countKey m k = 1) := by
  induction m with
  | nil => simp [countKey]
  | cons e m ih =>
    rw [List.map_cons, List.nodup_cons] at h
    rw [countKey_cons]
    by_cases hk : e.1 = k
    · rw [if_pos hk, countKey_zero (hk ▸ h.1)]; simp
    · rw [if_neg hk]
      refine ⟨by have := (ih h.2).1; omega, fun hm => ?_⟩
      rcases List.mem_cons.1 hm with hm | hm
      · exact absurd hm.symm hk
      · have := (ih h.2).2 hm; omega

/-- A derived struct read from a mapping without a key twice that has the required keys. -/
theorem jsonStruct_obj {S : Type} {T : List (Field F S)} {rq : List Str} {s : S}
    {m : List (Str × Doc F)} (hd : Distinct (.obj m)) (hr : ∀ k ∈ rq, k ∈ m.map (·.1)) :
    jsonStruct T rq s (.obj m) = fill false T m s := by
  unfold jsonStruct
  simp only [structEntries, Outcome.bind_ok]
  have h1 : ((T.map (·.1)).all fun k => decide (countKey m k ≤ 1)) = true := by
    rw [List.all_eq_true]; intro k _; simpa using (countKey_nodup hd.nodup k).1
  have h2 : (rq.all fun k => decide (countKey m k = 1)) = true := by
    rw [List.all_eq_true]; intro k hk; simpa using (countKey_nodup hd.nodup k).2 (hr k hk)
  rw [h1, h2]
  rfl

theorem jsonStruct_missing {S : Type} {T : List (Field F S)} {rq : List Str} {s : S}
    {m : List (Str × Doc F)} {k : Str} (hk : k ∈ rq) (hm : k ∉ m.map (·.1)) :
    jsonStruct T rq s (.obj m) = .err .format := by
  unfold jsonStruct
  simp only [structEntries, Outcome.bind_ok]
  have h2 : (rq.all fun k => decide (countKey m k = 1)) = false := by
    rw [List.all_eq_false]
    exact ⟨k, hk, by rw [countKey_zero hm]; simp⟩
  rw [h2]
  cases h : ((T.map (·.1)).all fun k => decide (countKey m k ≤ 1)) <;> rfl

theorem key_req {k : String} {v : Doc F} {rest : List (Str × Doc F)} :
    k.toList ∈ (req k v ++ rest).map (·.1) := List.mem_cons_self ..

theorem key_skip {j : Str} {a rest : List (Str × Doc F)} (h : j ∈ rest.map (·.1)) :
    j ∈ (a ++ rest).map (·.1) := by
  rw [List.map_append]; exact List.mem_append_right _ h

/-- The values of the fields have no key twice. -/
def DV (m : List (Str × Doc F)) : Prop := ∀ e ∈ m, Distinct e.2

theorem DV.opt {A : Type} {k : String} {o : Option A} {w : A → Doc F} {rest : List (Str × Doc F)}
    (h : DV (opt k (o.map w) ++ rest)) : ∀ a, o = some a → Distinct (w a) := by
  rintro a rfl
  exact h (k.toList, w a) (List.mem_cons_self ..)

theorem DV.req {k : String} {v : Doc F} {rest : List (Str × Doc F)}
    (h : DV (req k v ++ rest)) : Distinct v := h (k.toList, v) (List.mem_cons_self ..)

theorem DV.rest {a rest : List (Str × Doc F)} (h : DV (a ++ rest)) : DV rest :=
  fun e he => h e (List.mem_append_right _ he)

/-! ## More ways of reading a field -/

/-- Not null. -/
def notNull : Doc F → Bool
  | .null => false
  | _ => true

theorem nn {v : Doc F} (h : notNull v = true) : v ≠ .null := by
  rintro rfl; cases h

theorem reqA {A S W : Type} {st : Bool} {T : List (Field F S)} {k : String}
    {act : Doc F → S → Outcome Err S} (hg : get? T k.toList = some act) {w : A → Doc F}
    {r : A → Outcome Err W} {set : S → W → S} {a : A} {s : S}
    (hact : act (w a) s = r a >>= fun b => pure (set s b)) {rest : List (Str × Doc F)} {y : S} :
    fill st T (req k (w a) ++ rest) s = .ok y ↔
      ∃ b, r a = .ok b ∧ fill st T rest (set s b) = .ok y := by
  rw [req, List.singleton_append, fill_entry hg, hact]
  constructor
  · intro h
    obtain ⟨_, h1, h⟩ := bind_eq_ok h
    obtain ⟨b, hb, h1⟩ := bind_eq_ok h1
    cases h1
    exact ⟨b, hb, h⟩
  · rintro ⟨b, hb, h⟩
    rw [hb]
    exact h

theorem optA {A S W : Type} {st : Bool} {T : List (Field F S)} {k : String}
    {act : Doc F → S → Outcome Err S} (hg : get? T k.toList = some act) {w : A → Doc F}
    {r : A → Outcome Err W} {set : S → Option W → S} {s : S}
    (hact : ∀ a, act (w a) s = r a >>= fun b => pure (set s (some b))) (h0 : set s none = s)
    {o : Option A} {rest : List (Str × Doc F)} {y : S} :
    fill st T (opt k (o.map w) ++ rest) s = .ok y ↔
      ∃ o', ORel (fun a c => r a = .ok c) o o' ∧ fill st T rest (set s o') = .ok y := by
  cases o with
  | none =>
    simp only [Option.map_none, opt, List.nil_append]
    constructor
    · intro h; exact ⟨none, trivial, by rwa [h0]⟩
    · rintro ⟨o', h1, h2⟩
      cases o' with
      | none => rwa [h0] at h2
      | some => exact h1.elim
  | some a =>
    simp only [Option.map_some, opt]
    refine (reqA (st := st) (w := w) (set := fun s b => set s (some b)) hg (hact a)).trans ?_
    constructor
    · rintro ⟨b, hb, h⟩; exact ⟨some b, hb, h⟩
    · rintro ⟨o', h1, h2⟩
      cases o' with
      | none => exact h1.elim
      | some b => exact ⟨b, h1, h2⟩

theorem fill_skip {S : Type} {T : List (Field F S)} {k : Str} (hg : get? T k = none) (v : Doc F)
    (rest : List (Str × Doc F)) (s : S) :
    fill false T ((k, v) :: rest) s = fill false T rest s := by
  rw [fill, hg]; rfl

theorem get?_opt {A : Type} {k : String} {j : Str} (h : k.toList ≠ j) {o : Option A} {w : A → Doc F}
    {rest : List (Str × Doc F)} : get? (opt k (o.map w) ++ rest) j = get? rest j := by
  cases o with
  | none => rfl
  | some a =>
    simp only [Option.map_some, opt, List.singleton_append, get?]
    rw [List.find?_cons_of_neg (by simpa using h)]

theorem get?_req {k : String} {j : Str} (h : k.toList ≠ j) {v : Doc F} {rest : List (Str × Doc F)} :
    get? (req k v ++ rest) j = get? rest j := by
  simp only [req, List.singleton_append, get?]
  rw [List.find?_cons_of_neg (by simpa using h)]

theorem get?_here {k : String} {v : Doc F} {rest : List (Str × Doc F)} :
    get? (req k v ++ rest) k.toList = some v := by
  simp only [req, List.singleton_append, get?]
  rw [List.find?_cons_of_pos (by simp)]
  rfl

theorem nokey_opt {A : Type} {k : String} {j : Str} (h : k.toList ≠ j) {o : Option A} {w : A → Doc F}
    {rest : List (Str × Doc F)} (hr : j ∉ rest.map (·.1)) :
    j ∉ (opt k (o.map w) ++ rest).map (·.1) := by
  cases o with
  | none => exact hr
  | some a =>
    simp only [Option.map_some, opt, List.singleton_append, List.map_cons, List.mem_cons, not_or]
    exact ⟨Ne.symm h, hr⟩

theorem nokey_req {k : String} {j : Str} (h : k.toList ≠ j) {v : Doc F} {rest : List (Str × Doc F)}
    (hr : j ∉ rest.map (·.1)) : j ∉ (req k v ++ rest).map (·.1) := by
  simp only [req, List.singleton_append, List.map_cons, List.mem_cons, not_or]
  exact ⟨Ne.symm h, hr⟩

theorem ld_wrap {V W B C : Type} {a : Outcome Err V} {mk : V → W} {g : W → Res B} {h : V → Res C}
    {mk' : C → B} (hg : ∀ c, g (mk c) = h c >>= fun d => pure (mk' d)) {b : B} :
    Ld (a >>= fun c => pure (mk c)) g b ↔ ∃ d, Ld a h d ∧ b = mk' d := by
  constructor
  · rintro ⟨w, h1, h2⟩
    obtain ⟨c, hc, h1⟩ := bind_eq_ok h1
    cases h1
    rw [hg] at h2
    obtain ⟨d, hd, h2⟩ := bind_eq_ok h2
    cases h2
    exact ⟨d, ⟨c, hc, hd⟩, rfl⟩
  · rintro ⟨d, ⟨c, hc, hd⟩, rfl⟩
    exact ⟨mk c, (bind_ok hc _).trans rfl, (hg c).trans ((bind_ok hd _).trans rfl)⟩

theorem fillVec_congr {A W : Type} {r r' : Doc F → Outcome Err (Option W)} {w : A → Doc F}
    {l : List A} (hr : ∀ a ∈ l, r (w a) = r' (w a)) : fillVec r (l.map w) = fillVec r' (l.map w) := by
  induction l with
  | nil => rfl
  | cons a l ih =>
    simp only [List.map_cons, fillVec, hr a (List.mem_cons_self ..),
      ih fun x hx => hr x (List.mem_cons_of_mem _ hx)]

/-- A list in whose reading some elements could be skipped, but are not. -/
theorem ld_listSkip {A W B : Type} {sk : Doc F → Outcome Err (Option W)} {r : Doc F → Outcome Err W}
    {w : A → Doc F} {g : W → Res B} {M : A → B → Prop} {l : List A} {l' : List B}
    (hr : ∀ a ∈ l, sk (w a) = keep r (w a)) (h : ∀ a ∈ l, ∀ b, Ld (r (w a)) g b ↔ M a b) :
    Ld (fillVec sk (l.map w)) (listM g) l' ↔ LRel M l l' := by
  rw [fillVec_congr hr]
  exact ld_list h

theorem orElse_err {A : Type} {a b : Outcome Err A} {e : Err} (h : a = .err e) : orElse a b = b := by
  rw [h]; rfl

theorem orElse_iff {A : Type} {a b : Outcome Err A} {e : Err} (h : b = .err e) {w : A} :
    orElse a b = .ok w ↔ a = .ok w := by
  rw [h]
  cases a <;> simp [orElse]

theorem bind_err {E A B : Type} {a : Outcome E A} {e : E} (h : a = .err e) (f : A → Outcome E B) :
    (a >>= f) = .err e := by rw [h]; rfl

end Verif.Blueprint.Source
