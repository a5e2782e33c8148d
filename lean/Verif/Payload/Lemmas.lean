import Verif.Payload.Spec
import Verif.TmplFuncs.Lemmas
import Verif.Assoc

/-!
# Lemmas about the payload template engine
-/

namespace Verif.Payload

open TmplFuncs (Fn SortedKeys Crashes insertKey)
open TmplParser (Expr)

variable {G F : Type} [DecidableEq F]

/-! ## Calls -/

theorem name_lookup (f : Fn) : fnNames.lookup (nameOf f).toList = some f := by
  cases f <;> rfl

theorem name_of_lookup {name : List Char} {f : Fn} (h : fnNames.lookup name = some f) :
    name = (nameOf f).toList := by
  have hm := Assoc.lookup_mem _ _ _ h
  have key : ∀ e ∈ fnNames, e.1 = (nameOf e.2).toList := by decide
  exact key _ hm

omit [DecidableEq F] in
theorem extract_iff (x : Ext G F) (p : Path) (input v : Json F) :
    extractValue x p input = v ↔ Selected (x.find p input) v := by
  unfold extractValue Selected
  split
  next w hw =>
    constructor
    · intro h; subst h; exact Or.inl hw
    · rintro (h | ⟨h, _⟩)
      · rw [hw] at h
        injection h with h
        injection h with h
      · exact absurd hw (h w)
  next hw =>
    constructor
    · intro h; subst h; exact Or.inr ⟨fun w hw' => hw w hw', rfl⟩
    · rintro (h | ⟨_, h⟩)
      · exact absurd h (hw v)
      · exact h.symm

theorem callFn_ok (x : Ext G F) (name : List Char) (vs : List (Json F)) (v : Json F) :
    callFn x name vs = .ok v ↔
      ∃ f, name = (nameOf f).toList ∧ TmplFuncs.call x.funcs vs f = .ok v := by
  unfold callFn
  constructor
  · intro h
    split at h
    next => cases h
    next f hf =>
      refine ⟨f, name_of_lookup hf, ?_⟩
      split at h
      next w hw => rw [hw]; injection h with h; rw [h]
      next => cases h
      next => cases h
  · rintro ⟨f, rfl, h⟩
    rw [name_lookup]
    dsimp only
    rw [h]

theorem callFn_panic (x : Ext G F) (name : List Char) (vs : List (Json F)) :
    callFn x name vs = .panic ↔ ∃ f, name = (nameOf f).toList ∧ Crashes x.funcs f vs := by
  unfold callFn
  constructor
  · intro h
    split at h
    next => cases h
    next f hf =>
      refine ⟨f, name_of_lookup hf, ?_⟩
      split at h
      next => cases h
      next => cases h
      next hp => exact (TmplFuncs.no_crash_partial _ _ _).1 hp
  · rintro ⟨f, rfl, h⟩
    rw [name_lookup]
    dsimp only
    rw [(TmplFuncs.no_crash_partial _ _ _).2 h]

mutual
theorem compute_ok (x : Ext G F) (input : Json F) : ∀ (e : Expr Path G) (v : Json F),
    compute x input e = .ok v ↔ Eval x input e v
  | .str s, v => by
    rw [compute]
    exact ⟨fun h => by injection h with h; subst h; exact .str s, fun h => by cases h; rfl⟩
  | .int i, v => by
    rw [compute]
    exact ⟨fun h => by injection h with h; subst h; exact .int i, fun h => by cases h; rfl⟩
  | .bool b, v => by
    rw [compute]
    exact ⟨fun h => by injection h with h; subst h; exact .bool b, fun h => by cases h; rfl⟩
  | .null, v => by
    rw [compute]
    exact ⟨fun h => by injection h with h; subst h; exact .null, fun h => by cases h; rfl⟩
  | .float g, v => by
    rw [compute, floatValue]
    constructor
    · intro h
      split at h
      next f hf => injection h with h; subst h; exact .float g f hf
      next => cases h
    · intro h
      cases h with
      | float _ f hf => rw [hf]
  | .path p, v => by
    rw [compute]
    constructor
    · intro h
      injection h with h
      exact .path p v ((extract_iff x p input v).1 h)
    · intro h
      cases h with
      | path _ _ hs => rw [(extract_iff x p input v).2 hs]
  | .call name args, v => by
    rw [compute]
    constructor
    · intro h
      split at h
      next vs hv =>
        obtain ⟨f, hn, hf⟩ := (callFn_ok x name vs v).1 h
        subst hn
        exact .call f args vs v ((computeArgs_ok x input args vs).1 hv) hf
      next => cases h
      next => cases h
    · intro h
      cases h with
      | call f _ vs _ ha hf =>
        rw [(computeArgs_ok x input args vs).2 ha]
        exact (callFn_ok x _ vs v).2 ⟨f, rfl, hf⟩

theorem computeArgs_ok (x : Ext G F) (input : Json F) : ∀ (es : List (Expr Path G))
    (vs : List (Json F)), computeArgs x input es = .ok vs ↔ EvalArgs x input es vs
  | [], vs => by
    rw [computeArgs]
    exact ⟨fun h => by injection h with h; subst h; exact .nil, fun h => by cases h; rfl⟩
  | e :: es, vs => by
    rw [computeArgs]
    constructor
    · intro h
      split at h
      next v hv =>
        split at h
        next ws hw =>
          injection h with h
          subst h
          exact .cons e v es ws ((compute_ok x input e v).1 hv) ((computeArgs_ok x input es ws).1 hw)
        next => cases h
        next => cases h
      next => cases h
      next => cases h
    · intro h
      cases h with
      | cons _ v _ ws he hs =>
        rw [(compute_ok x input e v).2 he]
        dsimp only
        rw [(computeArgs_ok x input es ws).2 hs]
end

mutual
theorem compute_panic (x : Ext G F) (input : Json F) : ∀ (e : Expr Path G),
    compute x input e = .panic ↔ Crash x input e
  | .str s => by
    rw [compute]
    constructor <;> intro h <;> cases h
  | .int i => by
    rw [compute]
    constructor <;> intro h <;> cases h
  | .bool b => by
    rw [compute]
    constructor <;> intro h <;> cases h
  | .null => by
    rw [compute]
    constructor <;> intro h <;> cases h
  | .path p => by
    rw [compute]
    constructor <;> intro h <;> cases h
  | .float g => by
    rw [compute, floatValue]
    constructor
    · intro h
      split at h
      next => cases h
      next hf => exact .float g hf
    · intro h
      cases h with
      | float _ hf => rw [hf]
  | .call name args => by
    rw [compute]
    constructor
    · intro h
      split at h
      next vs hv =>
        obtain ⟨f, hn, hf⟩ := (callFn_panic x name vs).1 h
        subst hn
        exact .call f args vs ((computeArgs_ok x input args vs).1 hv) hf
      next => cases h
      next hp =>
        obtain ⟨before, vs, e, after, h1, h2, h3⟩ := (computeArgs_panic x input args).1 hp
        rw [h1]
        exact .arg name before vs e after h2 h3
    · intro h
      cases h with
      | call f _ vs ha hf =>
        rw [(computeArgs_ok x input args vs).2 ha]
        exact (callFn_panic x _ vs).2 ⟨f, rfl, hf⟩
      | arg _ before vs e after h2 h3 =>
        rw [(computeArgs_panic x input _).2 ⟨before, vs, e, after, rfl, h2, h3⟩]

theorem computeArgs_panic (x : Ext G F) (input : Json F) : ∀ (es : List (Expr Path G)),
    computeArgs x input es = .panic ↔ ∃ before vs e after, es = before ++ e :: after ∧
      EvalArgs x input before vs ∧ Crash x input e
  | [] => by
    rw [computeArgs]
    constructor
    · intro h; cases h
    · rintro ⟨before, vs, e, after, h1, _⟩
      simp at h1
  | e :: es => by
    rw [computeArgs]
    constructor
    · intro h
      split at h
      next v hv =>
        split at h
        next => cases h
        next => cases h
        next hp =>
          obtain ⟨before, vs, e', after, h1, h2, h3⟩ := (computeArgs_panic x input es).1 hp
          exact ⟨e :: before, v :: vs, e', after, by rw [h1]; rfl,
            .cons e v before vs ((compute_ok x input e v).1 hv) h2, h3⟩
      next => cases h
      next hp => exact ⟨[], [], e, es, rfl, .nil, (compute_panic x input e).1 hp⟩
    · rintro ⟨before, vs, e', after, h1, h2, h3⟩
      cases before with
      | nil =>
        simp only [List.nil_append, List.cons.injEq] at h1
        obtain ⟨rfl, rfl⟩ := h1
        rw [(compute_panic x input e).2 h3]
      | cons b before =>
        simp only [List.cons_append, List.cons.injEq] at h1
        obtain ⟨rfl, h1⟩ := h1
        cases h2 with
        | cons _ v _ ws he hs =>
          rw [(compute_ok x input e v).2 he]
          dsimp only
          rw [(computeArgs_panic x input es).2 ⟨before, ws, e', after, h1, hs, h3⟩]
end

/-! ## Scalars -/

theorem stripFunc_some {s r : List Char} (h : stripFunc s = some r) : s = funcPrefix ++ r := by
  unfold stripFunc at h
  split at h
  · injection h with h; subst h; rfl
  · cases h

theorem stripFunc_prefix (r : List Char) : stripFunc (funcPrefix ++ r) = some r := rfl

theorem stripFunc_none {s : List Char} : stripFunc s = none ↔ ¬ funcPrefix <+: s := by
  constructor
  · rintro h ⟨r, rfl⟩
    rw [stripFunc_prefix] at h
    cases h
  · intro h
    cases hs : stripFunc s with
    | none => rfl
    | some r => exact absurd ⟨r, (stripFunc_some hs).symm⟩ h

theorem func_not_dollar (r : List Char) : (funcPrefix ++ r).head? ≠ some '$' := by
  simp [funcPrefix]

theorem scalar_ok (x : Ext G F) (input : Json F) (s : Scalar G) (v : Json F) :
    renderScalar x input s = .ok v ↔ Renders x input (.scalar s) v := by
  cases s with
  | int i =>
    exact ⟨fun h => by injection h with h; subst h; exact .int i, fun h => by cases h; rfl⟩
  | bool b =>
    exact ⟨fun h => by injection h with h; subst h; exact .bool b, fun h => by cases h; rfl⟩
  | float g =>
    rw [renderScalar, floatValue]
    constructor
    · intro h
      split at h
      next f hf => injection h with h; subst h; exact .float g f hf
      next => cases h
    · intro h
      cases h with
      | float _ f hf => rw [hf]
  | str s =>
    rw [renderScalar]
    cases hs : stripFunc s with
    | some r =>
      have := stripFunc_some hs
      subst this
      dsimp only
      rw [renderCall]
      constructor
      · intro h
        split at h
        next e he => exact .call r e v he ((compute_ok x input e v).1 h)
        next => cases h
        next => cases h
      · intro h
        generalize hq : funcPrefix ++ r = q at h
        cases h with
        | literal _ hl =>
          subst hq
          exact absurd ⟨r, rfl⟩ hl.1
        | path _ p _ hd _ _ =>
          subst hq
          exact absurd hd (func_not_dollar r)
        | call r' e _ he hv =>
          have hr : r = r' := by
            simpa [funcPrefix] using hq
          subst hr
          rw [he]
          exact (compute_ok x input e v).2 hv
    | none =>
      have hn := stripFunc_none.1 hs
      dsimp only
      by_cases hd : s.head? = some '$'
      · rw [if_pos hd, renderPath]
        constructor
        · intro h
          split at h
          next p hp =>
            injection h with h
            exact .path s p v hd hp ((extract_iff x p input v).1 h)
          next => cases h
        · intro h
          cases h with
          | literal _ hl => exact absurd hd hl.2
          | path _ p _ _ hp hv => rw [hp]; dsimp only; rw [(extract_iff x p input v).2 hv]
          | call r e _ _ _ => exact absurd ⟨r, rfl⟩ hn
      · rw [if_neg hd]
        constructor
        · intro h
          injection h with h
          subst h
          exact .literal s ⟨hn, hd⟩
        · intro h
          cases h with
          | literal _ _ => rfl
          | path _ _ _ hd' _ _ => exact absurd hd' hd
          | call r e _ _ _ => exact absurd ⟨r, rfl⟩ hn

/-! ## Objects -/

omit [DecidableEq F] in
theorem sorted_ext : ∀ a b : List (List Char × Json F), SortedKeys a → SortedKeys b →
    (∀ e, e ∈ a ↔ e ∈ b) → a = b := by
  intro a
  induction a with
  | nil =>
    intro b _ _ h
    cases b with
    | nil => rfl
    | cons f b => exact absurd ((h f).2 (by simp)) (by simp)
  | cons e a ih =>
    intro b ha hb h
    cases b with
    | nil => exact absurd ((h e).1 (by simp)) (by simp)
    | cons f b =>
      have ha' := List.pairwise_cons.1 ha
      have hb' := List.pairwise_cons.1 hb
      have hef : e = f := by
        rcases List.mem_cons.1 ((h e).1 (by simp)) with h1 | h1
        · exact h1
        · rcases List.mem_cons.1 ((h f).2 (by simp)) with h2 | h2
          · exact h2.symm
          · exact absurd (List.lt_trans (hb'.1 e h1) (ha'.1 f h2)) (List.lt_irrefl _)
      subst hef
      congr 1
      refine ih b ha'.2 hb'.2 ?_
      intro d
      have hd := h d
      simp only [List.mem_cons] at hd
      constructor
      · intro h1
        rcases hd.1 (Or.inr h1) with h2 | h2
        · subst h2
          exact absurd (ha'.1 d h1) (List.lt_irrefl _)
        · exact h2
      · intro h1
        rcases hd.2 (Or.inr h1) with h2 | h2
        · subst h2
          exact absurd (hb'.1 d h1) (List.lt_irrefl _)
        · exact h2

omit [DecidableEq F] in
theorem sorted_nodup {m : List (List Char × Json F)} (h : SortedKeys m) :
    (m.map (·.1)).Nodup := by
  rw [List.Nodup, List.pairwise_map]
  refine List.Pairwise.imp ?_ h
  intro a b hab he
  rw [he] at hab
  exact List.lt_irrefl _ hab

omit [DecidableEq F] in
theorem sorted_lookup {m : List (List Char × Json F)} (h : SortedKeys m) (k : List Char)
    (v : Json F) : m.lookup k = some v ↔ (k, v) ∈ m :=
  ⟨Assoc.lookup_mem _ _ _, Assoc.lookup_of_mem _ _ _ (sorted_nodup h)⟩

/-- The map that rendering builds when the nodes have these values. -/
def build (val : Node G → Json F) (m : List (List Char × Node G))
    (o : List (List Char × Json F)) : List (List Char × Json F) :=
  m.foldl (fun o e => insertKey e.1 (val e.2) o) o

omit [DecidableEq F] in
theorem build_sorted (val : Node G → Json F) : ∀ (m : List (List Char × Node G))
    (o : List (List Char × Json F)), SortedKeys o → SortedKeys (build val m o) := by
  intro m
  induction m with
  | nil => intro o h; exact h
  | cons e m ih => intro o h; exact ih _ (TmplFuncs.insertKey_sorted _ _ _ h)

omit [DecidableEq F] in
theorem build_lookup (val : Node G → Json F) (l : List Char) : ∀ (m : List (List Char × Node G))
    (o : List (List Char × Json F)), (m.map (·.1)).Nodup →
    (build val m o).lookup l = ((m.lookup l).map val).or (o.lookup l) := by
  intro m
  induction m with
  | nil => intro o _; simp [build]
  | cons e m ih =>
    obtain ⟨k, n⟩ := e
    intro o h
    simp only [List.map_cons, List.nodup_cons] at h
    have hb : build val ((k, n) :: m) o = build val m (insertKey k (val n) o) := rfl
    rw [hb, ih _ h.2, TmplFuncs.insertKey_lookup, List.lookup_cons]
    by_cases hl : l = k
    · subst hl
      have : m.lookup l = none := (Assoc.lookup_eq_none _ _).2 h.1
      simp [this]
    · have hb : (l == k) = false := by simpa using hl
      rw [hb, if_neg hl]

/-- The value of a node that has one. -/
def valOf (x : Ext G F) (input : Json F) (n : Node G) : Json F :=
  match renderNode x input n with
  | .ok v => v
  | _ => .null

theorem renderMap_iff (x : Ext G F) (input : Json F) : ∀ (m : List (List Char × Node G))
    (o o' : List (List Char × Json F)), renderMap x input m o = .ok o' ↔
      (∀ k n, (k, n) ∈ m → ∃ v, renderNode x input n = .ok v) ∧
        o' = build (valOf x input) m o := by
  intro m
  induction m with
  | nil =>
    intro o o'
    rw [renderMap]
    constructor
    · intro h; injection h with h; exact ⟨by simp, h.symm⟩
    · rintro ⟨_, rfl⟩; rfl
  | cons e m ih =>
    obtain ⟨k, n⟩ := e
    intro o o'
    rw [renderMap]
    cases hn : renderNode x input n with
    | ok v =>
      dsimp only
      rw [ih]
      have hv : valOf x input n = v := by rw [valOf, hn]
      have hb : build (valOf x input) ((k, n) :: m) o
          = build (valOf x input) m (insertKey k v o) := by
        rw [← hv]; rfl
      rw [hb]
      constructor
      · rintro ⟨h1, h2⟩
        refine ⟨?_, h2⟩
        intro k' n' h
        rcases List.mem_cons.1 h with h | h
        · injection h with h3 h4
          subst h4
          exact ⟨v, hn⟩
        · exact h1 k' n' h
      · rintro ⟨h1, h2⟩
        exact ⟨fun k' n' h => h1 k' n' (List.mem_cons_of_mem _ h), h2⟩
    | err e =>
      dsimp only
      constructor
      · intro h; cases h
      · rintro ⟨h1, _⟩
        obtain ⟨v, hv⟩ := h1 k n (by simp)
        rw [hn] at hv
        cases hv
    | panic =>
      dsimp only
      constructor
      · intro h; cases h
      · rintro ⟨h1, _⟩
        obtain ⟨v, hv⟩ := h1 k n (by simp)
        rw [hn] at hv
        cases hv

theorem renderSeq_iff (x : Ext G F) (input : Json F) : ∀ (l : List (Node G))
    (vs : List (Json F)), renderSeq x input l = .ok vs ↔
      (∀ n ∈ l, ∃ v, renderNode x input n = .ok v) ∧ vs = l.map (valOf x input) := by
  intro l
  induction l with
  | nil =>
    intro vs
    rw [renderSeq]
    constructor
    · intro h; injection h with h; exact ⟨by simp, h.symm⟩
    · rintro ⟨_, rfl⟩; rfl
  | cons n l ih =>
    intro vs
    rw [renderSeq]
    cases hn : renderNode x input n with
    | ok v =>
      have hv : valOf x input n = v := by rw [valOf, hn]
      dsimp only
      constructor
      · intro h
        split at h
        next ws hw =>
          injection h with h
          obtain ⟨h1, h2⟩ := (ih ws).1 hw
          refine ⟨?_, by rw [← h, h2, List.map_cons, hv]⟩
          intro n' hn'
          rcases List.mem_cons.1 hn' with hn' | hn'
          · subst hn'; exact ⟨v, hn⟩
          · exact h1 n' hn'
        next => cases h
        next => cases h
      · rintro ⟨h1, rfl⟩
        rw [(ih _).2 ⟨fun n' hn' => h1 n' (List.mem_cons_of_mem _ hn'), rfl⟩]
        dsimp only
        rw [List.map_cons, hv]
    | err e =>
      dsimp only
      constructor
      · intro h; cases h
      · rintro ⟨h1, _⟩
        obtain ⟨v, hv⟩ := h1 n (by simp)
        rw [hn] at hv
        cases hv
    | panic =>
      dsimp only
      constructor
      · intro h; cases h
      · rintro ⟨h1, _⟩
        obtain ⟨v, hv⟩ := h1 n (by simp)
        rw [hn] at hv
        cases hv

theorem node_seq_iff (x : Ext G F) (input : Json F) (l : List (Node G)) (v : Json F) :
    renderNode x input (.seq l) = .ok v ↔
      (∀ n ∈ l, ∃ v, renderNode x input n = .ok v) ∧ v = .arr (l.map (valOf x input)) := by
  rw [renderNode]
  constructor
  · intro h
    split at h
    next vs hv =>
      injection h with h
      obtain ⟨h1, h2⟩ := (renderSeq_iff x input l vs).1 hv
      exact ⟨h1, by rw [← h, h2]⟩
    next => cases h
    next => cases h
  · rintro ⟨h1, rfl⟩
    rw [(renderSeq_iff x input l _).2 ⟨h1, rfl⟩]

theorem node_mapping_iff (x : Ext G F) (input : Json F) (m : List (List Char × Node G))
    (v : Json F) : renderNode x input (.mapping m) = .ok v ↔
      (∀ k n, (k, n) ∈ m → ∃ v, renderNode x input n = .ok v) ∧
        v = .obj (build (valOf x input) m []) := by
  rw [renderNode]
  constructor
  · intro h
    split at h
    next vs hv =>
      injection h with h
      obtain ⟨h1, h2⟩ := (renderMap_iff x input m [] vs).1 hv
      exact ⟨h1, by rw [← h, h2]⟩
    next => cases h
    next => cases h
  · rintro ⟨h1, rfl⟩
    rw [(renderMap_iff x input m [] _).2 ⟨h1, rfl⟩]

theorem build_mem (x : Ext G F) (input : Json F) {m : List (List Char × Node G)}
    (hd : (m.map (·.1)).Nodup) (k : List Char) (v : Json F) :
    (k, v) ∈ build (valOf x input) m [] ↔ ∃ n, (k, n) ∈ m ∧ v = valOf x input n := by
  rw [← sorted_lookup (build_sorted _ m [] (by simp [SortedKeys])), build_lookup _ _ _ _ hd]
  simp only [List.lookup_nil, Option.or_none, Option.map_eq_some_iff]
  constructor
  · rintro ⟨n, h1, h2⟩
    exact ⟨n, Assoc.lookup_mem _ _ _ h1, h2.symm⟩
  · rintro ⟨n, h1, h2⟩
    exact ⟨n, Assoc.lookup_of_mem _ _ _ hd h1, h2.symm⟩

/-- A template that has a value renders to it. -/
theorem renders_sound (x : Ext G F) (input : Json F) {n : Node G} {v : Json F}
    (h : Renders x input n v) : Distinct n → renderNode x input n = .ok v := by
  induction h with
  | literal s h => intro _; exact (scalar_ok x input _ _).2 (.literal s h)
  | path s p v h1 h2 h3 => intro _; exact (scalar_ok x input _ _).2 (.path s p v h1 h2 h3)
  | call s e v h1 h2 => intro _; exact (scalar_ok x input _ _).2 (.call s e v h1 h2)
  | int i => intro _; rfl
  | bool b => intro _; rfl
  | null => intro _; rfl
  | float g f h => intro _; exact (scalar_ok x input _ _).2 (.float g f h)
  | seq l f _ ih =>
    intro hd
    cases hd with
    | seq _ hd =>
      have key : ∀ i n, l[i]? = some n → renderNode x input n = .ok (f i) :=
        fun i n hi => ih i n hi (hd n (List.mem_of_getElem? hi))
      rw [node_seq_iff]
      constructor
      · intro n hn
        obtain ⟨i, hi⟩ := List.getElem?_of_mem hn
        exact ⟨_, key i n hi⟩
      · congr 1
        apply List.ext_getElem?
        intro i
        rw [List.getElem?_map, List.getElem?_map]
        cases hi : l[i]? with
        | none =>
          have := List.getElem?_eq_none_iff.1 hi
          simp; omega
        | some n =>
          have hlt := (List.getElem?_eq_some_iff.1 hi).1
          simp [hlt, valOf, key i n hi]
  | mapping m o f _ hs ho ih =>
    intro hd
    cases hd with
    | mapping _ hn hd =>
      have key : ∀ k n, (k, n) ∈ m → renderNode x input n = .ok (f k) :=
        fun k n hm => ih k n hm (hd k n hm)
      rw [node_mapping_iff]
      refine ⟨fun k n hm => ⟨_, key k n hm⟩, ?_⟩
      congr 1
      refine sorted_ext _ _ hs (build_sorted _ m [] (by simp [SortedKeys])) ?_
      rintro ⟨k, v⟩
      rw [build_mem x input hn, ho]
      constructor
      · rintro ⟨⟨n, h1⟩, rfl⟩
        exact ⟨n, h1, by rw [valOf, key k n h1]⟩
      · rintro ⟨n, h1, h2⟩
        exact ⟨⟨n, h1⟩, by rw [h2, valOf, key k n h1]⟩

mutual
/-- What a template renders to is its value. -/
theorem renders_complete (x : Ext G F) (input : Json F) : ∀ (n : Node G) (v : Json F),
    Distinct n → renderNode x input n = .ok v → Renders x input n v
  | .scalar s, v, _, h => (scalar_ok x input s v).1 (by rwa [renderNode] at h)
  | .null, v, _, h => by
    rw [renderNode] at h
    injection h with h
    subst h
    exact .null
  | .seq l, v, hd, h => by
    obtain ⟨h1, h2⟩ := (node_seq_iff x input l v).1 h
    have hd' : ∀ n ∈ l, Distinct n := by cases hd; assumption
    have key := renders_complete_list x input l hd'
    have e : l.map (valOf x input)
        = (List.range l.length).map (fun i => valOf x input (l[i]?.getD .null)) := by
      apply List.ext_getElem?
      intro i
      rw [List.getElem?_map, List.getElem?_map]
      by_cases hi : i < l.length
      · simp [hi]
      · simp [hi]
    rw [h2, e]
    refine .seq l _ ?_
    intro i n hi
    have hm := List.mem_of_getElem? hi
    obtain ⟨w, hw⟩ := h1 n hm
    rw [hi]
    have hv : valOf x input n = w := by rw [valOf, hw]
    simp only [Option.getD_some, hv]
    exact key n hm w hw
  | .mapping m, v, hd, h => by
    obtain ⟨h1, h2⟩ := (node_mapping_iff x input m v).1 h
    have hd' : (m.map (·.1)).Nodup ∧ ∀ k n, (k, n) ∈ m → Distinct n := by
      cases hd; exact ⟨by assumption, by assumption⟩
    have key := renders_complete_map x input m hd'.2
    rw [h2]
    refine .mapping m _ (fun k => valOf x input ((m.lookup k).getD .null)) ?_
      (build_sorted _ m [] (by simp [SortedKeys])) ?_
    · intro k n hm
      rw [Assoc.lookup_of_mem _ _ _ hd'.1 hm]
      obtain ⟨w, hw⟩ := h1 k n hm
      have hv : valOf x input n = w := by rw [valOf, hw]
      simp only [Option.getD_some, hv]
      exact key k n hm w hw
    · intro k v
      rw [build_mem x input hd'.1]
      constructor
      · rintro ⟨n, h3, h4⟩
        refine ⟨⟨n, h3⟩, ?_⟩
        rw [Assoc.lookup_of_mem _ _ _ hd'.1 h3, h4]
        rfl
      · rintro ⟨⟨n, h3⟩, h4⟩
        refine ⟨n, h3, ?_⟩
        rw [Assoc.lookup_of_mem _ _ _ hd'.1 h3] at h4
        exact h4

theorem renders_complete_list (x : Ext G F) (input : Json F) : ∀ (l : List (Node G)),
    (∀ n ∈ l, Distinct n) → ∀ n ∈ l, ∀ v, renderNode x input n = .ok v → Renders x input n v
  | [], _, n, hn => by simp at hn
  | a :: l, hd, n, hn => by
    intro v hv
    rcases List.mem_cons.1 hn with h | h
    · rw [h] at hv ⊢
      exact renders_complete x input a v (hd a (by simp)) hv
    · exact renders_complete_list x input l (fun b hb => hd b (List.mem_cons_of_mem _ hb)) n h v hv

theorem renders_complete_map (x : Ext G F) (input : Json F) : ∀ (m : List (List Char × Node G)),
    (∀ k n, (k, n) ∈ m → Distinct n) → ∀ k n, (k, n) ∈ m → ∀ v, renderNode x input n = .ok v →
      Renders x input n v
  | [], _, k, n, hn => by simp at hn
  | (j, a) :: m, hd, k, n, hn => by
    intro v hv
    rcases List.mem_cons.1 hn with h | h
    · injection h with h1 h2
      rw [h2] at hv ⊢
      exact renders_complete x input a v (hd j a (by simp)) hv
    · exact renders_complete_map x input m (fun i b hb => hd i b (List.mem_cons_of_mem _ hb)) k n h
        v hv
end

end Verif.Payload
