import Verif.Blueprint.Rel
import Verif.Blueprint.Spec

/-!
# Lemmas about the two readers: general part, and no panics
-/

namespace Verif.Blueprint

open Verif Verif.Subst

variable {F : Type} (cx : Ctx F)

/-! ## Filling structs -/

theorem get?_cons {A : Type} (k : Str) (a : A) (l : List (Str × A)) (j : Str) :
    get? ((k, a) :: l) j = if k = j then some a else get? l j := by
  simp only [get?, List.find?_cons]
  by_cases h : k = j <;> simp [h]

/-- A table every field of which keeps `R`. -/
def TableSelf {S S' : Type} (R : S → S' → Prop) : List (Field F S) → List (Field F S') → Prop
  | [], [] => True
  | f :: T, g :: U => f.1 = g.1 ∧ (∀ v s s', R s s' → Rel R (f.2 v s) (g.2 v s')) ∧ TableSelf R T U
  | _, _ => False

theorem TableSelf.get {S S' : Type} {R : S → S' → Prop} {T : List (Field F S)}
    {U : List (Field F S')} (h : TableSelf R T U) (k : Str) :
    (get? T k = none ∧ get? U k = none) ∨ ∃ f g, get? T k = some f ∧ get? U k = some g ∧
      ∀ v s s', R s s' → Rel R (f v s) (g v s') := by
  induction T generalizing U with
  | nil => cases U with
    | nil => exact .inl ⟨rfl, rfl⟩
    | cons => exact h.elim
  | cons f T ih => cases U with
    | nil => exact h.elim
    | cons g U =>
      obtain ⟨h1, h2, h3⟩ := h
      obtain ⟨n, f⟩ := f
      obtain ⟨n', g⟩ := g
      dsimp at h1 h2
      subst h1
      rw [get?_cons, get?_cons]
      by_cases hk : n = k
      · rw [if_pos hk, if_pos hk]
        exact .inr ⟨f, g, rfl, rfl, h2⟩
      · rw [if_neg hk, if_neg hk]
        exact ih h3

theorem fill_self {S S' : Type} {R : S → S' → Prop} {T : List (Field F S)} {U : List (Field F S')}
    (h : TableSelf R T U) (st : Bool) (m : List (Str × Doc F)) {s : S} {s' : S'} (hs : R s s') :
    Rel R (fill st T m s) (fill st U m s') := by
  induction m generalizing s s' with
  | nil => exact hs
  | cons e m ih =>
    obtain ⟨k, v⟩ := e
    simp only [fill]
    rcases h.get k with ⟨hT, hU⟩ | ⟨f, g, hT, hU, hf⟩
    · rw [hT, hU]
      cases st
      · exact ih hs
      · trivial
    · rw [hT, hU]
      exact Rel.bind (hf v s s' hs) fun _ _ h => ih h

theorem structEntries_self (names : List Str) (v : Doc F) :
    Rel Eq (structEntries names v) (structEntries names v) := by
  cases v <;> simp only [structEntries] <;> first | trivial | rfl | (split <;> first | trivial | rfl)

theorem jsonStruct_self {S S' : Type} {R : S → S' → Prop} {T : List (Field F S)}
    {U : List (Field F S')} (hn : T.map (·.1) = U.map (·.1)) (h : TableSelf R T U)
    (req : List Str) {s : S} {s' : S'} (hs : R s s') (v : Doc F) :
    Rel R (jsonStruct T req s v) (jsonStruct U req s' v) := by
  unfold jsonStruct
  rw [hn]
  refine Rel.bind (structEntries_self _ v) fun m m' hm => ?_
  subst hm
  exact Rel.bind (Rel.require _) fun _ _ _ => Rel.bind (Rel.require _) fun _ _ _ =>
    fill_self h false m hs

theorem fld_self {S S' A B : Type} {R : S → S' → Prop} {Q : A → B → Prop}
    {r : Doc F → Outcome Err A} {r' : Doc F → Outcome Err B} {set : S → A → S}
    {set' : S' → B → S'} (hr : ∀ v, Rel Q (r v) (r' v))
    (hset : ∀ s s' a b, R s s' → Q a b → R (set s a) (set' s' b)) :
    ∀ (v : Doc F) s s', R s s' →
      Rel R (r v >>= fun a => Pure.pure (set s a)) (r' v >>= fun a => Pure.pure (set' s' a)) :=
  fun v s s' hs => Rel.bind (hr v) fun a b hab => hset s s' a b hs hab

theorem jsonOpt_self {A B : Type} {Q : A → B → Prop} {r : Doc F → Outcome Err A}
    {r' : Doc F → Outcome Err B} (h : ∀ v, Rel Q (r v) (r' v)) (v : Doc F) :
    Rel (ORel Q) (jsonOpt r v) (jsonOpt r' v) := by
  cases v
  · trivial
  all_goals exact Rel.bind (h _) fun _ _ h => h

theorem jsonOpt_eq {A : Type} {r : Doc F → Outcome Err A} (h : ∀ v, Rel Eq (r v) (r v))
    (v : Doc F) : Rel Eq (jsonOpt r v) (jsonOpt r v) :=
  Rel.mono (jsonOpt_self h v) fun _ _ h => ORel.eq h

theorem keep_rel {A B : Type} {Q : A → B → Prop} {a : Outcome Err A} {b : Outcome Err B}
    (h : Rel Q a b) :
    Rel (ORel Q) (a >>= fun x => Pure.pure (some x)) (b >>= fun x => Pure.pure (some x)) :=
  Rel.bind h fun _ _ h => h

theorem fillMap_rel {A B : Type} {Q : A → B → Prop} {r : Doc F → Outcome Err (Option A)}
    {r' : Doc F → Outcome Err (Option B)} (m : List (Str × Doc F))
    (h : ∀ e ∈ m, Rel (ORel Q) (r e.2) (r' e.2)) {acc : List (Str × A)} {acc' : List (Str × B)}
    (hacc : MRel Q acc acc') : Rel (MRel Q) (fillMap r m acc) (fillMap r' m acc') := by
  induction m generalizing acc acc' with
  | nil => exact hacc
  | cons e m ih =>
    obtain ⟨k, v⟩ := e
    simp only [fillMap]
    refine Rel.bind (h _ (List.mem_cons_self ..)) fun o o' ho => ?_
    have h' : ∀ e ∈ m, Rel (ORel Q) (r e.2) (r' e.2) := fun e he => h e (List.mem_cons_of_mem _ he)
    match o, o', ho with
    | none, none, _ => exact ih h' hacc
    | some a, some b, ho => exact ih h' (hmInsert_rel hacc k ho)

theorem fillVec_rel {A B : Type} {Q : A → B → Prop} {r : Doc F → Outcome Err (Option A)}
    {r' : Doc F → Outcome Err (Option B)} (l : List (Doc F))
    (h : ∀ v ∈ l, Rel (ORel Q) (r v) (r' v)) : Rel (LRel Q) (fillVec r l) (fillVec r' l) := by
  induction l with
  | nil => exact .nil
  | cons v l ih =>
    simp only [fillVec]
    refine Rel.bind (h _ (List.mem_cons_self ..)) fun o o' ho =>
      Rel.bind (ih fun v hv => h v (List.mem_cons_of_mem _ hv)) fun as as' has => ?_
    match o, o', ho with
    | none, none, _ => exact has
    | some a, some b, ho => exact .cons ho has

theorem readMap_self {A B : Type} {Q : A → B → Prop} {r : Doc F → Outcome Err A}
    {r' : Doc F → Outcome Err B} (h : ∀ v, Rel Q (r v) (r' v)) (v : Doc F) :
    Rel (MRel Q) (readMap r v) (readMap r' v) := by
  cases v <;> first | trivial | exact fillMap_rel _ (fun e _ => keep_rel (h e.2)) .nil

theorem readVec_self {A B : Type} {Q : A → B → Prop} {r : Doc F → Outcome Err A}
    {r' : Doc F → Outcome Err B} (h : ∀ v, Rel Q (r v) (r' v)) (v : Doc F) :
    Rel (LRel Q) (readVec r v) (readVec r' v) := by
  cases v <;> first | trivial | exact fillVec_rel _ (fun v _ => keep_rel (h v))

theorem readObj_self {A B : Type} {Q : A → B → Prop} {r : List (Str × Doc F) → Outcome Err A}
    {r' : List (Str × Doc F) → Outcome Err B} (h : ∀ m, Rel Q (r m) (r' m)) (v : Doc F) :
    Rel Q (readObj r v) (readObj r' v) := by
  cases v <;> first | trivial | exact h _

theorem skipNonObj_self {A B : Type} {Q : A → B → Prop} {r : List (Str × Doc F) → Outcome Err A}
    {r' : List (Str × Doc F) → Outcome Err B} (h : ∀ m, Rel Q (r m) (r' m)) (v : Doc F) :
    Rel (ORel Q) (skipNonObj r v) (skipNonObj r' v) := by
  cases v <;> first | trivial | exact keep_rel (h _)

theorem yamlVecSkip_self {A B : Type} {Q : A → B → Prop} {r : List (Str × Doc F) → Outcome Err A}
    {r' : List (Str × Doc F) → Outcome Err B} (h : ∀ m, Rel Q (r m) (r' m)) (v : Doc F) :
    Rel (LRel Q) (yamlVecSkip r v) (yamlVecSkip r' v) := by
  cases v <;> first | trivial | exact fillVec_rel _ (fun v _ => skipNonObj_self h v)

theorem orElse_self {A B : Type} {Q : A → B → Prop} {a b : Outcome Err A} {a' b' : Outcome Err B}
    (h : Rel Q a a') (h' : Rel Q b b') : Rel Q (orElse a b) (orElse a' b') := by
  match a, a', h with
  | .ok x, .ok y, h => exact h
  | .err .format, .err .format, _ => exact h'

/-! ## Values -/

theorem parse_self (s : Str) : Rel (fun a b => a = b ∧ a ≠ [])
    (liftParse (parseSubstitutions cx.cls s)) (liftParse (parseSubstitutions cx.cls s)) := by
  rcases parse_total cx.cls s with ⟨e, h⟩ | ⟨ps, h, hne⟩
  · rw [h]; trivial
  · rw [h]; exact ⟨rfl, hne⟩

theorem sos_self (v : Doc F) : Rel Eq (yamlSos cx v) (yamlSos cx v) := by
  cases v <;> first | trivial | exact Rel.mono (parse_self cx _) fun _ _ h => h.1

theorem jsonSos_self (v : Doc F) : Rel Eq (jsonSos cx v) (jsonSos cx v) := by
  cases v <;> first | trivial | exact Rel.mono (parse_self cx _) fun _ _ h => h.1

theorem readStr_self (v : Doc F) : Rel Eq (readStr v) (readStr v) := by
  cases v <;> first | trivial | rfl

theorem yamlSosVec_self (v : Doc F) : Rel Eq (yamlSosVec cx v) (yamlSosVec cx v) :=
  Rel.mono (readVec_self (sos_self cx) v) fun _ _ h => LRel.eq h

theorem yamlSosMap_self (v : Doc F) : Rel Eq (yamlSosMap cx v) (yamlSosMap cx v) :=
  Rel.mono (readMap_self (sos_self cx) v) fun _ _ h => MRel.eq h

theorem jsonSosVec_self (v : Doc F) : Rel Eq (jsonSosVec cx v) (jsonSosVec cx v) :=
  Rel.mono (readVec_self (jsonSos_self cx) v) fun _ _ h => LRel.eq h

theorem jsonSosMap_self (v : Doc F) : Rel Eq (jsonSosMap cx v) (jsonSosMap cx v) :=
  Rel.mono (readMap_self (jsonSos_self cx) v) fun _ _ h => MRel.eq h

theorem readStrMap_self (v : Doc F) : Rel Eq (readMap readStr v) (readMap readStr v) :=
  Rel.mono (readMap_self readStr_self v) fun _ _ h => MRel.eq h

theorem yamlSingle_self (s : Str) :
    Rel (fun a b => a = b ∧ a ≠ []) (yamlSingle cx s) (yamlSingle cx s) := by
  refine Rel.bind (parse_self cx s) fun a b h => ?_
  obtain ⟨rfl, _⟩ := h
  match a with
  | [.sub r] => exact ⟨rfl, by simp⟩
  | [] => trivial
  | .str _ :: _ => trivial
  | .sub _ :: _ :: _ => trivial

theorem yamlSubst_self (s : Str) :
    Rel (NR cx) (yamlSingle cx s >>= fun v => Pure.pure (.subst v))
      (yamlSingle cx s >>= fun v => Pure.pure (.subst v)) :=
  Rel.bind (yamlSingle_self cx s) fun a b h => by
    obtain ⟨rfl, h⟩ := h
    exact NR.ofSubst cx a h

theorem yamlInt_self (v : Doc F) : Rel (NR cx) (yamlInt cx v) (yamlInt cx v) := by
  cases v <;> simp only [yamlInt] <;> first
    | trivial
    | exact yamlSubst_self cx _
    | (split <;> first | trivial | exact NR.ofScalar cx _)

theorem yamlBool_self (v : Doc F) : Rel (NR cx) (yamlBool cx v) (yamlBool cx v) := by
  cases v <;> simp only [yamlBool] <;> first
    | trivial
    | exact yamlSubst_self cx _
    | exact NR.ofScalar cx _

theorem yamlFloat_self (v : Doc F) : Rel (NR cx) (yamlFloat cx v) (yamlFloat cx v) := by
  cases v <;> simp only [yamlFloat] <;> first
    | trivial
    | exact yamlSubst_self cx _
    | exact NR.ofScalar cx _
    | (split <;> first | trivial | exact NR.ofScalar cx _)

mutual
theorem yamlNode_self : ∀ v : Doc F, Rel (NR cx) (yamlNode cx v) (yamlNode cx v)
  | .null => by simp only [yamlNode]; trivial
  | .bool b => by simp only [yamlNode]; exact NR.ofScalar cx _
  | .int n => by simp only [yamlNode]; exact NR.ofScalar cx _
  | .float x => by simp only [yamlNode]; exact NR.ofScalar cx _
  | .str s => by
    simp only [yamlNode]
    refine Rel.bind (parse_self cx s) fun a b h => ?_
    obtain ⟨rfl, h⟩ := h
    exact NR.ofSubst cx a h
  | .arr l => by
    simp only [yamlNode]
    exact Rel.bind (yamlNodes_self l) fun _ _ h => NR.ofSequence cx h
  | .obj m => by
    simp only [yamlNode]
    exact Rel.bind (yamlNodeEntries_self m .nil) fun _ _ h => NR.ofMapping cx h
theorem yamlNodeEntries_self : ∀ (m : List (Str × Doc F)) {acc acc' : List (Str × Node F)},
    MRel (NR cx) acc acc' →
    Rel (MRel (NR cx)) (yamlNodeEntries cx m acc) (yamlNodeEntries cx m acc')
  | [], _, _, h => by simp only [yamlNodeEntries]; exact h
  | (k, v) :: rest, _, _, h => by
    simp only [yamlNodeEntries]
    exact Rel.bind (yamlNode_self v) fun _ _ hn =>
      yamlNodeEntries_self rest (hmInsert_rel h k hn)
theorem yamlNodes_self : ∀ l : List (Doc F),
    Rel (LRel (NR cx)) (yamlNodes cx l) (yamlNodes cx l)
  | [] => by simp only [yamlNodes]; exact .nil
  | v :: rest => by
    simp only [yamlNodes]
    exact Rel.bind (yamlNode_self v) fun _ _ hn =>
      Rel.bind (yamlNodes_self rest) fun _ _ hr => .cons hn hr
end

theorem jsonStrNode_self (s : Str) : NR cx (jsonStrNode cx s) (jsonStrNode cx s) := by
  unfold jsonStrNode
  cases cx.jsonString s with
  | none => exact NR.ofScalar cx _
  | some t =>
    dsimp only
    rcases parse_total cx.cls t with ⟨e, h⟩ | ⟨ps, h, hne⟩
    · rw [h]; exact NR.ofScalar cx _
    · rw [h]; exact NR.ofSubst cx ps hne

mutual
theorem jsonNode_self : ∀ v : Doc F, Rel (NR cx) (jsonNode cx v) (jsonNode cx v)
  | .null => by simp only [jsonNode]; trivial
  | .bool b => by simp only [jsonNode]; exact NR.ofScalar cx _
  | .int n => by simp only [jsonNode]; exact NR.ofScalar cx _
  | .float x => by simp only [jsonNode]; exact NR.ofScalar cx _
  | .str s => by simp only [jsonNode]; exact jsonStrNode_self cx s
  | .arr l => by
    simp only [jsonNode]
    exact Rel.bind (jsonNodes_self l) fun _ _ h => NR.ofSequence cx h
  | .obj m => by
    simp only [jsonNode]
    exact Rel.bind (jsonNodeEntries_self m .nil) fun _ _ h => NR.ofMapping cx h
theorem jsonNodeEntries_self : ∀ (m : List (Str × Doc F)) {acc acc' : List (Str × Node F)},
    MRel (NR cx) acc acc' →
    Rel (MRel (NR cx)) (jsonNodeEntries cx m acc) (jsonNodeEntries cx m acc')
  | [], _, _, h => by simp only [jsonNodeEntries]; exact h
  | (k, v) :: rest, _, _, h => by
    simp only [jsonNodeEntries]
    exact Rel.bind (jsonNode_self v) fun _ _ hn =>
      jsonNodeEntries_self rest (hmInsert_rel h k hn)
theorem jsonNodes_self : ∀ l : List (Doc F),
    Rel (LRel (NR cx)) (jsonNodes cx l) (jsonNodes cx l)
  | [] => by simp only [jsonNodes]; exact .nil
  | v :: rest => by
    simp only [jsonNodes]
    exact Rel.bind (jsonNode_self v) fun _ _ hn =>
      Rel.bind (jsonNodes_self rest) fun _ _ hr => .cons hn hr
end

end Verif.Blueprint
