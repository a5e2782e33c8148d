import Verif.Payload.Lemmas
import Verif.TmplParser.Props

/-!
# Properties of the payload template engine: C76 to C81
-/

namespace Verif.Payload

open TmplFuncs (Fn SortedKeys Crashes insertKey)
open TmplParser (Expr)

variable {G F : Type} [DecidableEq F]

/-! ## Libraries for the examples -/

/-- The path `$.items[*]`. -/
def itemsPath : Path := .chain [.root, .field ['i'], .other 0]

/-- The entries of the field `i`, if it is a list. -/
def items : Json Int → List (Json Int)
  | .obj m =>
    match m.lookup ['i'] with
    | some (.arr l) => l
    | _ => []
  | _ => []

/-- Texts of length 3 are the path `$.f` of a field, longer texts the path `$.i[*]`. Floating point
numbers of more than 5 characters are infinite. -/
def demo : Ext (Option Int) Int where
  parser :=
    { white := TmplParser.ascii.white, alpha := TmplParser.ascii.alpha,
      path := fun t => if t.head? = some '$' then
        match t with
        | [_, '.', c] => some (.chain [.root, .field [c]])
        | [_] => some (.chain [.root])
        | _ => some itemsPath
        else none,
      float := fun t => if t.length > 5 then some none else some (some 0) }
  funcs := TmplFuncs.demo
  fin g := g
  find p v :=
    match p, v with
    | .chain [.root, .field k], .obj m =>
      match m.lookup k with
      | some w => .arr [w]
      | none => .null
    | _, v => .arr (items v)

theorem demo_sane : TmplParser.Sane demo.parser where
  alphaAscii _ _ := rfl
  whiteAscii _ _ := rfl
  apart c h := TmplParser.ascii_sane.apart c h
  dollar t p h := by
    simp only [demo] at h
    split at h
    next h1 => exact h1
    next => cases h

/-! ## C76: templates render to what they mean -/

/-- C76. Rendering gives the value of the template: an object with the same keys, each with the value
of its node; a template without a value is not rendered. The value does not depend on the order in
which hash maps iterate. -/
theorem render_iff (x : Ext G F) (input : Json F) (m : List (List Char × Node G)) (v : Json F)
    (hd : Distinct (.mapping m)) : render x m input = .ok v ↔ Renders x input (.mapping m) v :=
  ⟨renders_complete x input _ v hd, fun h => renders_sound x input h hd⟩

/-- C76. A template has at most one value. -/
theorem renders_unique (x : Ext G F) (input : Json F) {n : Node G} {v w : Json F}
    (hd : Distinct n) (h : Renders x input n v) (h' : Renders x input n w) : v = w := by
  have e := renders_sound x input h hd
  rw [renders_sound x input h' hd] at e
  injection e with e
  exact e.symm

/-- C76. Templates with the same entries render alike. -/
theorem render_order (x : Ext G F) (input : Json F) (m m' : List (List Char × Node G)) (v : Json F)
    (hd : Distinct (.mapping m)) (hd' : Distinct (.mapping m')) (h : ∀ e, e ∈ m ↔ e ∈ m') :
    render x m input = .ok v ↔ render x m' input = .ok v := by
  rw [render_iff x input m v hd, render_iff x input m' v hd']
  constructor
  · intro hr
    cases hr with
    | mapping _ o f h1 h2 h3 =>
      refine .mapping m' o f (fun k n hm => h1 k n ((h _).2 hm)) h2 ?_
      intro k v
      rw [h3]
      simp only [h]
  · intro hr
    cases hr with
    | mapping _ o f h1 h2 h3 =>
      refine .mapping m o f (fun k n hm => h1 k n ((h _).1 hm)) h2 ?_
      intro k v
      rw [h3]
      simp only [h]

mutual
theorem node_leaves (x : Ext G F) (input : Json F) : ∀ n : Node G,
    (∃ v, renderNode x input n = .ok v) ↔ ∀ s, Leaf s n → ∃ v, renderScalar x input s = .ok v
  | .scalar s => by
    rw [renderNode]
    constructor
    · intro h s' hl; cases hl; exact h
    · intro h; exact h s .here
  | .null => by
    rw [renderNode]
    constructor
    · intro _ s hl; cases hl
    · intro _; exact ⟨_, rfl⟩
  | .seq l => by
    have key := list_leaves x input l
    constructor
    · rintro ⟨v, h⟩ s hl
      cases hl with
      | seq _ n hn hl => exact (key n hn).1 (((node_seq_iff x input l v).1 h).1 n hn) s hl
    · intro h
      exact ⟨_, (node_seq_iff x input l _).2 ⟨fun n hn => (key n hn).2
        (fun s hl => h s (.seq l n hn hl)), rfl⟩⟩
  | .mapping m => by
    have key := map_leaves x input m
    constructor
    · rintro ⟨v, h⟩ s hl
      cases hl with
      | mapping _ k n hn hl =>
        exact (key k n hn).1 (((node_mapping_iff x input m v).1 h).1 k n hn) s hl
    · intro h
      exact ⟨_, (node_mapping_iff x input m _).2 ⟨fun k n hn => (key k n hn).2
        (fun s hl => h s (.mapping m k n hn hl)), rfl⟩⟩

theorem list_leaves (x : Ext G F) (input : Json F) : ∀ (l : List (Node G)) (n : Node G), n ∈ l →
    ((∃ v, renderNode x input n = .ok v) ↔ ∀ s, Leaf s n → ∃ v, renderScalar x input s = .ok v)
  | [], n, hn => by simp at hn
  | a :: l, n, hn => by
    by_cases h : n ∈ l
    · exact list_leaves x input l n h
    · have : n = a := by
        rcases List.mem_cons.1 hn with h' | h'
        · exact h'
        · exact absurd h' h
      rw [this]
      exact node_leaves x input a

theorem map_leaves (x : Ext G F) (input : Json F) : ∀ (m : List (List Char × Node G))
    (k : List Char) (n : Node G), (k, n) ∈ m →
    ((∃ v, renderNode x input n = .ok v) ↔ ∀ s, Leaf s n → ∃ v, renderScalar x input s = .ok v)
  | [], k, n, hn => by simp at hn
  | (j, a) :: m, k, n, hn => by
    by_cases h : (k, n) ∈ m
    · exact map_leaves x input m k n h
    · have : n = a := by
        rcases List.mem_cons.1 hn with h' | h'
        · injection h'
        · exact absurd h' h
      rw [this]
      exact node_leaves x input a
end

/-- C76. A template can be rendered if and only if every text and number in it has a value. -/
theorem renders_iff_leaves (x : Ext G F) (input : Json F) (m : List (List Char × Node G)) :
    (∃ v, render x m input = .ok v) ↔
      ∀ s, Leaf s (.mapping m) → ∃ v, Renders x input (.scalar s) v := by
  rw [show render x m input = renderNode x input (.mapping m) from rfl, node_leaves]
  simp only [scalar_ok]

/-- `{"b": ["$.i[*]", null], "a": "func:len($.t)"}`, with the keys in this order. -/
def sample : List (List Char × Node (Option Int)) :=
  [(['b'], .seq [.scalar (.str ['$', '.', 'i', '[', '*', ']']), .null]),
   (['a'], .scalar (.str ['f', 'u', 'n', 'c', ':', 'l', 'e', 'n', '(', '$', '.', 't', ')']))]

/-- `{"i": [1, 2], "t": "xyz"}` -/
def sampleInput : Json Int :=
  .obj [(['i'], .arr [.int 1, .int 2]), (['t'], .str ['x', 'y', 'z'])]

example : Distinct (.mapping sample) := by
  refine .mapping _ (by decide) ?_
  intro k n h
  simp only [sample, List.mem_cons, Prod.mk.injEq, List.not_mem_nil, or_false] at h
  rcases h with ⟨_, rfl⟩ | ⟨_, rfl⟩
  · refine .seq _ ?_
    intro n h
    simp only [List.mem_cons, List.not_mem_nil, or_false] at h
    rcases h with rfl | rfl
    · exact .scalar _
    · exact .null
  · exact .scalar _

example : render demo sample sampleInput
    = .ok (.obj [(['a'], .int 3), (['b'], .arr [.arr [.int 1, .int 2], .null])]) := rfl
example : render demo sample.reverse sampleInput = render demo sample sampleInput := rfl

/-! ## C77: values that are neither paths nor calls are copied -/

omit [DecidableEq F] in
mutual
theorem ofJson_distinct (inj : F → G) : ∀ v : Json F, Verbatim v → Distinct (ofJson inj v)
  | .null, _ => by rw [ofJson]; exact .null
  | .bool b, _ => by rw [ofJson]; exact .scalar _
  | .int i, _ => by rw [ofJson]; exact .scalar _
  | .float f, _ => by rw [ofJson]; exact .scalar _
  | .str s, _ => by rw [ofJson]; exact .scalar _
  | .arr l, h => by
    rw [ofJson]
    have h' : ∀ v ∈ l, Verbatim v := by cases h; assumption
    exact .seq _ (ofList_distinct inj l h')
  | .obj m, h => by
    rw [ofJson]
    have h' : SortedKeys m ∧ ∀ k v, (k, v) ∈ m → Verbatim v := by
      cases h; exact ⟨by assumption, by assumption⟩
    obtain ⟨h1, h2⟩ := ofMap_distinct inj m h'.2
    exact .mapping _ (by rw [h1]; exact sorted_nodup h'.1) h2

theorem ofList_distinct (inj : F → G) : ∀ l : List (Json F), (∀ v ∈ l, Verbatim v) →
    ∀ n ∈ ofList inj l, Distinct n
  | [], _ => by rw [ofList]; simp
  | v :: vs, h => by
    rw [ofList]
    intro n hn
    rcases List.mem_cons.1 hn with hn | hn
    · rw [hn]; exact ofJson_distinct inj v (h v (by simp))
    · exact ofList_distinct inj vs (fun w hw => h w (List.mem_cons_of_mem _ hw)) n hn

theorem ofMap_distinct (inj : F → G) : ∀ m : List (List Char × Json F),
    (∀ k v, (k, v) ∈ m → Verbatim v) → (ofMap inj m).map (·.1) = m.map (·.1) ∧
      ∀ k n, (k, n) ∈ ofMap inj m → Distinct n
  | [], _ => by rw [ofMap]; simp
  | (j, v) :: m, h => by
    rw [ofMap]
    obtain ⟨h1, h2⟩ := ofMap_distinct inj m (fun k w hw => h k w (List.mem_cons_of_mem _ hw))
    constructor
    · rw [List.map_cons, List.map_cons, h1]
    · intro k n hn
      rcases List.mem_cons.1 hn with hn | hn
      · injection hn with _ hn
        rw [hn]
        exact ofJson_distinct inj v (h j v (by simp))
      · exact h2 k n hn
end

mutual
theorem verbatim_node (x : Ext G F) (input : Json F) (inj : F → G)
    (hf : ∀ f, x.fin (inj f) = some f) : ∀ v : Json F, Verbatim v →
    renderNode x input (ofJson inj v) = .ok v
  | .null, _ => by rw [ofJson]; rfl
  | .bool b, _ => by rw [ofJson]; rfl
  | .int i, _ => by rw [ofJson]; rfl
  | .float f, _ => by
    rw [ofJson, renderNode, renderScalar, floatValue, hf]
  | .str s, h => by
    rw [ofJson, renderNode, scalar_ok]
    cases h with
    | str _ h => exact .literal s h
  | .arr l, h => by
    have h' : ∀ v ∈ l, Verbatim v := by cases h; assumption
    rw [ofJson, renderNode, verbatim_list x input inj hf l h']
  | .obj m, h => by
    have h' : SortedKeys m ∧ ∀ k v, (k, v) ∈ m → Verbatim v := by
      cases h; exact ⟨by assumption, by assumption⟩
    obtain ⟨h1, h2⟩ := verbatim_map x input inj hf m h'.2
    rw [ofJson, node_mapping_iff]
    refine ⟨fun k n hn => ?_, ?_⟩
    · obtain ⟨v, hv, hm⟩ := (h1 k n).1 hn
      exact ⟨v, by rw [hv]; exact h2 k v hm⟩
    · congr 1
      refine sorted_ext _ _ h'.1 (build_sorted _ _ [] (by simp [SortedKeys])) ?_
      rintro ⟨k, v⟩
      have hd : ((ofMap inj m).map (·.1)).Nodup := by
        rw [(ofMap_distinct inj m h'.2).1]; exact sorted_nodup h'.1
      rw [build_mem x input hd]
      constructor
      · intro hv
        exact ⟨ofJson inj v, (h1 _ _).2 ⟨v, rfl, hv⟩, by rw [valOf, h2 k v hv]⟩
      · rintro ⟨n, hn, rfl⟩
        obtain ⟨v, rfl, hv⟩ := (h1 k n).1 hn
        rw [valOf, h2 k v hv]
        exact hv

theorem verbatim_list (x : Ext G F) (input : Json F) (inj : F → G)
    (hf : ∀ f, x.fin (inj f) = some f) : ∀ l : List (Json F), (∀ v ∈ l, Verbatim v) →
    renderSeq x input (ofList inj l) = .ok l
  | [], _ => by rw [ofList, renderSeq]
  | v :: vs, h => by
    rw [ofList, renderSeq, verbatim_node x input inj hf v (h v (by simp))]
    dsimp only
    rw [verbatim_list x input inj hf vs (fun w hw => h w (List.mem_cons_of_mem _ hw))]

theorem verbatim_map (x : Ext G F) (input : Json F) (inj : F → G)
    (hf : ∀ f, x.fin (inj f) = some f) : ∀ m : List (List Char × Json F),
    (∀ k v, (k, v) ∈ m → Verbatim v) →
    (∀ k n, (k, n) ∈ ofMap inj m ↔ ∃ v, n = ofJson inj v ∧ (k, v) ∈ m) ∧
      ∀ k v, (k, v) ∈ m → renderNode x input (ofJson inj v) = .ok v
  | [], _ => by rw [ofMap]; simp
  | (j, w) :: m, h => by
    obtain ⟨h1, h2⟩ := verbatim_map x input inj hf m
      (fun k v hv => h k v (List.mem_cons_of_mem _ hv))
    have hw := verbatim_node x input inj hf w (h j w (by simp))
    rw [ofMap]
    constructor
    · intro k n
      simp only [List.mem_cons, Prod.mk.injEq, h1]
      constructor
      · rintro (⟨rfl, rfl⟩ | ⟨v, h3, h4⟩)
        · exact ⟨w, rfl, Or.inl ⟨rfl, rfl⟩⟩
        · exact ⟨v, h3, Or.inr h4⟩
      · rintro ⟨v, rfl, (⟨rfl, rfl⟩ | h4)⟩
        · exact Or.inl ⟨rfl, rfl⟩
        · exact Or.inr ⟨v, rfl, h4⟩
    · intro k v hv
      rcases List.mem_cons.1 hv with hv | hv
      · injection hv with _ hv
        rw [hv]; exact hw
      · exact h2 k v hv
end

/-- C77. A template that is a JSON value without paths and calls renders to that value, whatever the
input is. -/
theorem verbatim (x : Ext G F) (input : Json F) (inj : F → G) (hf : ∀ f, x.fin (inj f) = some f)
    (m : List (List Char × Json F)) (h : Verbatim (.obj m)) :
    render x (ofMap inj m) input = .ok (.obj m) := by
  have := verbatim_node x input inj hf (.obj m) h
  rwa [ofJson] at this

example : Verbatim (.obj [(['a'], .str ['5', '$']), (['b'], .arr [.int 1, .float 2])] : Json Int) := by
  refine .obj _ (by simp [SortedKeys]; decide) ?_
  intro k v h
  simp only [List.mem_cons, Prod.mk.injEq, List.not_mem_nil, or_false] at h
  rcases h with ⟨_, rfl⟩ | ⟨_, rfl⟩
  · exact .str _ ⟨by decide, by decide⟩
  · refine .arr _ ?_
    intro v h
    simp only [List.mem_cons, List.not_mem_nil, or_false] at h
    rcases h with rfl | rfl
    · exact .int _
    · exact .float _

/-! ## C78: paths that can match several values -/

/-- C78, the full claim: a path that can match several values gives the list of all the values it
matches, however many there are. -/
def FullPathLists (x : Ext G F) (several : Path → Prop) : Prop :=
  ∀ (text : List Char) (p : Path) (input : Json F) (ws : List (Json F)), text.head? = some '$' →
    x.parser.path text = some p → several p → x.find p input = .arr ws →
    renderScalar x input (.str text) = .ok (.arr ws)

/-- C78 is false as stated: a single match is not put into a list. `$.i[*]` is 7 in `{"i": [7]}`. -/
theorem path_lists_violated : ¬ FullPathLists demo (· = itemsPath) := by
  intro h
  have := h ['$', '.', 'i', '[', '*', ']'] itemsPath (.obj [(['i'], .arr [.int 7])]) [.int 7] rfl rfl
    rfl rfl
  exact absurd this (by intro h; injection h with h; cases h)

/-- C78. What a path gives: the value, if there is exactly one match, and the list of the matches
otherwise. -/
theorem path_lists_partial (x : Ext G F) (text : List Char) (p : Path) (input : Json F)
    (ws : List (Json F)) (hd : text.head? = some '$') (hp : x.parser.path text = some p)
    (hf : x.find p input = .arr ws) :
    (∀ w, ws = [w] → renderScalar x input (.str text) = .ok w) ∧
      (ws.length ≠ 1 → renderScalar x input (.str text) = .ok (.arr ws)) := by
  constructor
  · intro w hw
    rw [scalar_ok]
    exact .path text p w hd hp (Or.inl (by rw [hf, hw]))
  · intro hl
    rw [scalar_ok]
    refine .path text p _ hd hp (Or.inr ⟨?_, hf.symm⟩)
    intro w h
    rw [hf] at h
    injection h with h
    exact hl (by rw [h]; rfl)

/-- C78. So different inputs cannot be told apart: the only match of a path may be a list. -/
theorem path_ambiguous (x : Ext G F) (text : List Char) (p : Path) (input input' : Json F)
    (ws : List (Json F)) (hd : text.head? = some '$') (hp : x.parser.path text = some p)
    (hl : ws.length ≠ 1) (h : x.find p input = .arr ws) (h' : x.find p input' = .arr [.arr ws]) :
    renderScalar x input (.str text) = renderScalar x input' (.str text) := by
  rw [(path_lists_partial x text p input ws hd hp h).2 hl,
    (path_lists_partial x text p input' _ hd hp h').1 _ rfl]

example : demo.find itemsPath (.obj [(['i'], .arr [.int 1, .int 2])]) = .arr [.int 1, .int 2] := rfl
example : demo.find itemsPath (.obj [(['i'], .arr [.arr [.int 1, .int 2]])])
    = .arr [.arr [.int 1, .int 2]] := rfl

/-- `func:len($.i[*])` -/
def lenItems : List Char :=
  funcPrefix ++ ['l', 'e', 'n', '(', '$', '.', 'i', '[', '*', ']', ')']

/-- `len($.i[*])` counts the items, except for a single one, which it fails on or measures itself. -/
example : renderScalar demo (.obj [(['i'], .arr [.int 4, .int 4])]) (.str lenItems) = .ok (.int 2) := rfl
example : ∃ e, renderScalar demo (.obj [(['i'], .arr [.int 4])]) (.str lenItems) = .err e := ⟨_, rfl⟩
example : renderScalar demo (.obj [(['i'], .arr [.str ['a', 'b', 'c']])]) (.str lenItems)
    = .ok (.int 3) := rfl

/-! ## C79: crashes -/

/-- C79, the full claim: rendering never crashes. -/
def FullNoCrash (x : Ext G F) : Prop := ∀ m input, render x m input ≠ .panic

/-- C79 is false as stated: a number in a call that is too big for a finite floating point number
crashes, here `list(123456.0)` where numbers of more than 5 characters are infinite. -/
theorem no_crash_violated : ¬ FullNoCrash demo := by
  intro h
  exact h [(['a'], .scalar (.str (funcPrefix ++
    ['l', 'i', 's', 't', '(', '1', '2', '3', '4', '5', '6', '.', '0', ')'])))] .null rfl

/-- A scalar crashes: a number that is not finite, or a call with a crashing part. -/
inductive ScalarCrash (x : Ext G F) (input : Json F) : Scalar G → Prop
  | float (g : G) : x.fin g = none → ScalarCrash x input (.float g)
  | call (s : List Char) (e : Expr Path G) : TmplParser.parseFunc x.parser s = some (.ok e) →
    Crash x input e → ScalarCrash x input (.str (funcPrefix ++ s))

theorem scalar_panic (x : Ext G F) (hx : TmplParser.Sane x.parser) (input : Json F) (s : Scalar G) :
    renderScalar x input s = .panic ↔ ScalarCrash x input s := by
  cases s with
  | str s =>
    rw [renderScalar]
    split
    next r hr =>
      have hs := stripFunc_some hr
      subst hs
      rw [renderCall]
      split
      next e he =>
        rw [compute_panic]
        constructor
        · exact fun h => .call r e he h
        · intro h
          generalize ht : (Scalar.str (funcPrefix ++ r) : Scalar G) = t at h
          cases h with
          | float g h => cases ht
          | call s e' h1 h2 =>
            injection ht with ht
            have := List.append_cancel_left ht
            subst this
            rw [he] at h1
            injection h1 with h1
            injection h1 with h1
            rw [h1]; exact h2
      next e he =>
        constructor
        · intro h; cases h
        · intro h
          generalize ht : (Scalar.str (funcPrefix ++ r) : Scalar G) = t at h
          cases h with
          | float g h => cases ht
          | call s e' h1 h2 =>
            injection ht with ht
            have := List.append_cancel_left ht
            subst this
            rw [he] at h1
            injection h1 with h1
            cases h1
      next he =>
        obtain ⟨r', hr'⟩ := TmplParser.terminates x.parser hx r
        rw [he] at hr'
        cases hr'
    next hn =>
      have hn' := stripFunc_none.1 hn
      constructor
      · intro h
        split at h
        · rw [renderPath] at h
          split at h <;> cases h
        · cases h
      · intro h
        generalize ht : (Scalar.str s : Scalar G) = t at h
        cases h with
        | float g h => cases ht
        | call s' e' h1 h2 =>
          injection ht with ht
          exact absurd ⟨s', ht.symm⟩ hn'
  | int i =>
    rw [renderScalar]
    constructor <;> intro h <;> cases h
  | bool i =>
    rw [renderScalar]
    constructor <;> intro h <;> cases h
  | float g =>
    rw [renderScalar, floatValue]
    cases hg : x.fin g with
    | none => exact ⟨fun _ => .float g hg, fun _ => rfl⟩
    | some f =>
      constructor
      · intro h; cases h
      · intro h
        cases h with
        | float _ h => rw [hg] at h; cases h

/-- Rendering stops at the first part that has no value. -/
theorem seq_panic (x : Ext G F) (input : Json F) : ∀ l : List (Node G),
    renderSeq x input l = .panic → ∃ n ∈ l, renderNode x input n = .panic
  | [], h => by rw [renderSeq] at h; cases h
  | n :: l, h => by
    rw [renderSeq] at h
    cases hn : renderNode x input n with
    | ok v =>
      rw [hn] at h
      dsimp only at h
      cases hl : renderSeq x input l with
      | ok vs => rw [hl] at h; cases h
      | err e => rw [hl] at h; cases h
      | panic =>
        obtain ⟨n', h1, h2⟩ := seq_panic x input l hl
        exact ⟨n', List.mem_cons_of_mem _ h1, h2⟩
    | err e => rw [hn] at h; cases h
    | panic => exact ⟨n, by simp, hn⟩

theorem map_panic (x : Ext G F) (input : Json F) : ∀ (m : List (List Char × Node G))
    (o : List (List Char × Json F)), renderMap x input m o = .panic →
    ∃ k n, (k, n) ∈ m ∧ renderNode x input n = .panic
  | [], _, h => by rw [renderMap] at h; cases h
  | (k, n) :: m, o, h => by
    rw [renderMap] at h
    cases hn : renderNode x input n with
    | ok v =>
      rw [hn] at h
      obtain ⟨k', n', h1, h2⟩ := map_panic x input m _ h
      exact ⟨k', n', List.mem_cons_of_mem _ h1, h2⟩
    | err e => rw [hn] at h; cases h
    | panic => exact ⟨k, n, by simp, hn⟩

theorem seq_err (x : Ext G F) (input : Json F) (e : Err) : ∀ l : List (Node G),
    renderSeq x input l = .err e → ∃ n ∈ l, renderNode x input n = .err e
  | [], h => by rw [renderSeq] at h; cases h
  | n :: l, h => by
    rw [renderSeq] at h
    cases hn : renderNode x input n with
    | ok v =>
      rw [hn] at h
      dsimp only at h
      cases hl : renderSeq x input l with
      | ok vs => rw [hl] at h; cases h
      | panic => rw [hl] at h; cases h
      | err e' =>
        rw [hl] at h
        injection h with h
        obtain ⟨n', h1, h2⟩ := seq_err x input e l (by rw [hl, h])
        exact ⟨n', List.mem_cons_of_mem _ h1, h2⟩
    | err e' => rw [hn] at h; injection h with h; exact ⟨n, by simp, by rw [hn, h]⟩
    | panic => rw [hn] at h; cases h

theorem map_err (x : Ext G F) (input : Json F) (e : Err) : ∀ (m : List (List Char × Node G))
    (o : List (List Char × Json F)), renderMap x input m o = .err e →
    ∃ k n, (k, n) ∈ m ∧ renderNode x input n = .err e
  | [], _, h => by rw [renderMap] at h; cases h
  | (k, n) :: m, o, h => by
    rw [renderMap] at h
    cases hn : renderNode x input n with
    | ok v =>
      rw [hn] at h
      obtain ⟨k', n', h1, h2⟩ := map_err x input e m _ h
      exact ⟨k', n', List.mem_cons_of_mem _ h1, h2⟩
    | err e' =>
      rw [hn] at h
      injection h with h
      exact ⟨k, n, by simp, by rw [hn, h]⟩
    | panic => rw [hn] at h; cases h

mutual
theorem node_panic (x : Ext G F) (hx : TmplParser.Sane x.parser) (input : Json F) : ∀ n : Node G,
    renderNode x input n = .panic → ∃ s, Leaf s n ∧ ScalarCrash x input s
  | .scalar s, h => by
    rw [renderNode] at h
    exact ⟨s, .here, (scalar_panic x hx input s).1 h⟩
  | .null, h => by rw [renderNode] at h; cases h
  | .seq l, h => by
    rw [renderNode] at h
    have h' : renderSeq x input l = .panic := by
      cases hl : renderSeq x input l with
      | panic => rfl
      | ok v => rw [hl] at h; cases h
      | err e => rw [hl] at h; cases h
    obtain ⟨n, hn, hp⟩ := seq_panic x input l h'
    obtain ⟨s, h1, h2⟩ := list_node_panic x hx input l n hn hp
    exact ⟨s, .seq l n hn h1, h2⟩
  | .mapping m, h => by
    rw [renderNode] at h
    have h' : renderMap x input m [] = .panic := by
      cases hl : renderMap x input m [] with
      | panic => rfl
      | ok v => rw [hl] at h; cases h
      | err e => rw [hl] at h; cases h
    obtain ⟨k, n, hn, hp⟩ := map_panic x input m [] h'
    obtain ⟨s, h1, h2⟩ := map_node_panic x hx input m k n hn hp
    exact ⟨s, .mapping m k n hn h1, h2⟩

theorem list_node_panic (x : Ext G F) (hx : TmplParser.Sane x.parser) (input : Json F) : ∀ (l : List (Node G)) (n : Node G), n ∈ l →
    renderNode x input n = .panic → ∃ s, Leaf s n ∧ ScalarCrash x input s
  | [], n, hn, _ => by simp at hn
  | a :: l, n, hn, h => by
    by_cases h' : n ∈ l
    · exact list_node_panic x hx input l n h' h
    · have : n = a := by
        rcases List.mem_cons.1 hn with h1 | h1
        · exact h1
        · exact absurd h1 h'
      rw [this] at h ⊢
      exact node_panic x hx input a h

theorem map_node_panic (x : Ext G F) (hx : TmplParser.Sane x.parser) (input : Json F) : ∀ (m : List (List Char × Node G))
    (k : List Char) (n : Node G), (k, n) ∈ m →
    renderNode x input n = .panic → ∃ s, Leaf s n ∧ ScalarCrash x input s
  | [], k, n, hn, _ => by simp at hn
  | (j, a) :: m, k, n, hn, h => by
    by_cases h' : (k, n) ∈ m
    · exact map_node_panic x hx input m k n h' h
    · have : n = a := by
        rcases List.mem_cons.1 hn with h1 | h1
        · injection h1
        · exact absurd h1 h'
      rw [this] at h ⊢
      exact node_panic x hx input a h
end

mutual
theorem node_err (x : Ext G F) (input : Json F) (e : Err) : ∀ n : Node G,
    renderNode x input n = .err e → ∃ s, Leaf s n ∧ renderScalar x input s = .err e
  | .scalar s, h => by
    rw [renderNode] at h
    exact ⟨s, .here, h⟩
  | .null, h => by rw [renderNode] at h; cases h
  | .seq l, h => by
    rw [renderNode] at h
    have h' : renderSeq x input l = .err e := by
      cases hl : renderSeq x input l with
      | panic => rw [hl] at h; cases h
      | ok v => rw [hl] at h; cases h
      | err e' => rw [hl] at h; injection h with h; rw [h]
    obtain ⟨n, hn, hp⟩ := seq_err x input e l h'
    obtain ⟨s, h1, h2⟩ := list_node_err x input e l n hn hp
    exact ⟨s, .seq l n hn h1, h2⟩
  | .mapping m, h => by
    rw [renderNode] at h
    have h' : renderMap x input m [] = .err e := by
      cases hl : renderMap x input m [] with
      | panic => rw [hl] at h; cases h
      | ok v => rw [hl] at h; cases h
      | err e' => rw [hl] at h; injection h with h; rw [h]
    obtain ⟨k, n, hn, hp⟩ := map_err x input e m [] h'
    obtain ⟨s, h1, h2⟩ := map_node_err x input e m k n hn hp
    exact ⟨s, .mapping m k n hn h1, h2⟩

theorem list_node_err (x : Ext G F) (input : Json F) (e : Err) : ∀ (l : List (Node G)) (n : Node G),
    n ∈ l → renderNode x input n = .err e → ∃ s, Leaf s n ∧ renderScalar x input s = .err e
  | [], n, hn, _ => by simp at hn
  | a :: l, n, hn, h => by
    by_cases h' : n ∈ l
    · exact list_node_err x input e l n h' h
    · have : n = a := by
        rcases List.mem_cons.1 hn with h1 | h1
        · exact h1
        · exact absurd h1 h'
      rw [this] at h ⊢
      exact node_err x input e a h

theorem map_node_err (x : Ext G F) (input : Json F) (e : Err) : ∀ (m : List (List Char × Node G))
    (k : List Char) (n : Node G), (k, n) ∈ m →
    renderNode x input n = .err e → ∃ s, Leaf s n ∧ renderScalar x input s = .err e
  | [], k, n, hn, _ => by simp at hn
  | (j, a) :: m, k, n, hn, h => by
    by_cases h' : (k, n) ∈ m
    · exact map_node_err x input e m k n h' h
    · have : n = a := by
        rcases List.mem_cons.1 hn with h1 | h1
        · injection h1
        · exact absurd h1 h'
      rw [this] at h ⊢
      exact node_err x input e a h
end

/-- C76. An error that is reported is the error of one of the texts of the template. -/
theorem error_of_leaf (x : Ext G F) (input : Json F) (m : List (List Char × Node G)) (e : Err)
    (h : render x m input = .err e) :
    ∃ s, Leaf s (.mapping m) ∧ renderScalar x input s = .err e := node_err x input e _ h

/-- C79. Rendering crashes only at a number that is not finite or at a call that crashes, and it does
crash there unless some other text of the template is in error. -/
theorem crash_partial (x : Ext G F) (hx : TmplParser.Sane x.parser) (input : Json F) (m : List (List Char × Node G)) :
    (render x m input = .panic → ∃ s, Leaf s (.mapping m) ∧ ScalarCrash x input s) ∧
      ((∃ s, Leaf s (.mapping m) ∧ ScalarCrash x input s) →
        render x m input = .panic ∨
          ∃ s e, Leaf s (.mapping m) ∧ renderScalar x input s = .err e) := by
  refine ⟨node_panic x hx input _, ?_⟩
  rintro ⟨s, hl, hc⟩
  cases hr : render x m input with
  | panic => exact Or.inl rfl
  | err e =>
    obtain ⟨s', h1, h2⟩ := error_of_leaf x input m e hr
    exact Or.inr ⟨s', e, h1, h2⟩
  | ok v =>
    obtain ⟨w, hw⟩ := (node_leaves x input (.mapping m)).1 ⟨v, hr⟩ s hl
    rw [(scalar_panic x hx input s).2 hc] at hw
    cases hw

/-- C79. A template without calls, with finite numbers, does not crash. -/
theorem no_crash_without_calls (x : Ext G F) (hx : TmplParser.Sane x.parser) (input : Json F) (m : List (List Char × Node G))
    (hc : ∀ s, Leaf (.str s) (.mapping m) → ¬ funcPrefix <+: s)
    (hf : ∀ g, Leaf (.float g) (.mapping m) → x.fin g ≠ none) : render x m input ≠ .panic := by
  intro h
  obtain ⟨s, hl, hs⟩ := node_panic x hx input _ h
  cases hs with
  | float g hg => exact hf g hl hg
  | call s e _ _ => exact hc _ hl ⟨s, rfl⟩

/-! ## C80: injection and extraction -/

/-- The paths at which a value can be injected and the field they name. -/
inductive Names : Path → List Char → Prop
  | root (k : List Char) : Names (.chain [.root, .field k]) k
  | one (k : List Char) : Names (.chain [.field k]) k
  | two (k : List Char) (p : Path) : Names (.chain [.field k, p]) k

theorem rootField_iff (p : Path) (k : List Char) : rootField p = some k ↔ Names p k := by
  constructor
  · intro h
    cases p with
    | chain l =>
      match l, h with
      | [.field j], h => simp [rootField, fieldGo] at h; subst h; exact .one j
      | [.root], h => simp [rootField, fieldGo] at h
      | [.chain _], h => simp [rootField, fieldGo] at h
      | [.other _], h => simp [rootField, fieldGo] at h
      | [], h => simp [rootField] at h
      | [.field j, q], h => simp [rootField, fieldGo] at h; subst h; exact .two j q
      | [.root, .field j], h => simp [rootField, fieldGo] at h; subst h; exact .root j
      | [.root, .root], h => simp [rootField, fieldGo] at h
      | [.root, .chain _], h => simp [rootField, fieldGo] at h
      | [.root, .other _], h => simp [rootField, fieldGo] at h
      | [.chain _, _], h => simp [rootField, fieldGo] at h
      | [.other _, _], h => simp [rootField, fieldGo] at h
      | _ :: _ :: _ :: _, h => simp [rootField] at h
    | root => simp [rootField] at h
    | field j => simp [rootField] at h
    | other t => simp [rootField] at h
  · intro h
    cases h with
    | root => simp [rootField, fieldGo]
    | one => simp [rootField, fieldGo]
    | two => simp [rootField, fieldGo]

/-- `o` is the object `m` with the field `k` set to `value`. -/
def SetField (m : List (List Char × Json F)) (k : List Char) (value : Json F)
    (o : List (List Char × Json F)) : Prop :=
  SortedKeys o ∧ ∀ l w, (l, w) ∈ o ↔ l = k ∧ w = value ∨ l ≠ k ∧ (l, w) ∈ m

omit [DecidableEq F] in
theorem insertKey_sets (m : List (List Char × Json F)) (k : List Char) (value : Json F)
    (h : SortedKeys m) : SetField m k value (insertKey k value m) := by
  have hs := TmplFuncs.insertKey_sorted k value m h
  refine ⟨hs, ?_⟩
  intro l w
  rw [← sorted_lookup hs, TmplFuncs.insertKey_lookup]
  by_cases hl : l = k
  · subst hl
    simp only [if_true, Option.some.injEq, true_and, ne_eq, not_true_eq_false, false_and, or_false]
    exact eq_comm
  · rw [if_neg hl, sorted_lookup h]
    simp [hl]

omit [DecidableEq F] in
/-- C80. Injection succeeds exactly for an object and a path to a field of it, and gives the object
with this field set and all others as they were. -/
theorem inject_ok (x : Ext G F) (input : Json F) (path : List Char) (value v : Json F)
    (hs : ∀ m, input = .obj m → SortedKeys m) :
    inject x input path value = .ok v ↔ ∃ m p k o, input = .obj m ∧ x.parser.path path = some p ∧
      Names p k ∧ SetField m k value o ∧ v = .obj o := by
  constructor
  · intro h
    rw [inject] at h
    split at h
    next => cases h
    next p hp =>
      split at h
      next w hw =>
        injection h with h
        subst h
        cases input with
        | obj m =>
          rw [injectRoot] at hw
          split at hw
          next k hk =>
            injection hw with hw
            exact ⟨m, p, k, _, rfl, hp, (rootField_iff p k).1 hk, insertKey_sets m k value (hs m rfl),
              hw.symm⟩
          next => cases hw
        | _ => simp [injectRoot] at hw
      next => cases h
  · rintro ⟨m, p, k, o, rfl, hp, hn, ho, rfl⟩
    rw [inject, hp]
    dsimp only
    rw [injectRoot, (rootField_iff p k).2 hn]
    dsimp only
    have hi := insertKey_sets m k value (hs m rfl)
    rw [sorted_ext _ _ hi.1 ho.1 (by rintro ⟨l, w⟩; rw [hi.2, ho.2])]

omit [DecidableEq F] in
/-- C80. Otherwise an error is reported; injection never crashes. -/
theorem inject_total (x : Ext G F) (input : Json F) (path : List Char) (value : Json F) :
    (∃ v, inject x input path value = .ok v) ∨ inject x input path value = .err .jsonPath := by
  rw [inject]
  split
  · exact Or.inr rfl
  · split
    · exact Or.inl ⟨_, rfl⟩
    · exact Or.inr rfl

/-- C80. What was injected is extracted again, and extraction at other fields is not affected, if the
library finds fields of objects. -/
theorem extract_inject (x : Ext G F) (input v value : Json F) (path : List Char) (k : List Char)
    (hs : ∀ m, input = .obj m → SortedKeys m)
    (hp : x.parser.path path = some (.chain [.root, .field k]))
    (hfind : ∀ m l w, (l, w) ∈ m → SortedKeys m →
      x.find (.chain [.root, .field l]) (.obj m) = .arr [w])
    (h : inject x input path value = .ok v) :
    extract x v path = .ok value ∧
      ∀ q l m w, x.parser.path q = some (.chain [.root, .field l]) → l ≠ k → input = .obj m →
        (l, w) ∈ m → extract x v q = .ok w := by
  obtain ⟨m, p, j, o, rfl, hp', hn, ho, rfl⟩ := (inject_ok x input path value v hs).1 h
  rw [hp] at hp'
  injection hp' with hp'
  subst hp'
  have hj : j = k := by cases hn; rfl
  subst hj
  constructor
  · rw [extract, hp]
    dsimp only
    rw [extractValue, hfind o j value ((ho.2 j value).2 (Or.inl ⟨rfl, rfl⟩)) ho.1]
  · intro q l m' w hq hl hm hw
    injection hm with hm
    subst hm
    rw [extract, hq]
    dsimp only
    rw [extractValue, hfind o l w ((ho.2 l w).2 (Or.inr ⟨hl, hw⟩)) ho.1]

example : inject demo sampleInput ['$', '.', 'j'] (.int 5) = .ok (.obj
    [(['i'], .arr [.int 1, .int 2]), (['j'], .int 5), (['t'], .str ['x', 'y', 'z'])]) := rfl
example : inject demo sampleInput ['$', '.', 't'] (.int 5)
    = .ok (.obj [(['i'], .arr [.int 1, .int 2]), (['t'], .int 5)]) := rfl
example : inject demo sampleInput ['$'] (.int 5) = .err .jsonPath := rfl
example : inject demo sampleInput ['$', '.', 'i', '[', '*', ']'] (.int 5) = .err .jsonPath := rfl
example : inject demo (.arr []) ['$', '.', 't'] (.int 5) = .err .jsonPath := rfl

/-! ## C81: calls -/

/-- C81. A call written according to the grammar, behind `func:`, has the value of the call. -/
theorem call_value (x : Ext G F) (hx : TmplParser.Sane x.parser) (input : Json F)
    {w t name : List Char} {args : List (Expr Path G)} (hw : TmplParser.Blank x.parser w)
    (h : TmplParser.Written x.parser (.call name args) t) (v : Json F) :
    renderScalar x input (.str (funcPrefix ++ (w ++ t))) = .ok v ↔ Eval x input (.call name args) v := by
  have hp := TmplParser.parse_written hx hw h []
  rw [List.append_nil] at hp
  rw [renderScalar, stripFunc_prefix]
  dsimp only
  rw [renderCall, hp]
  exact compute_ok x input _ v

/-- C81. A call of a function that does not exist, with arguments that have values, is reported as
such. -/
theorem unknown_function (x : Ext G F) (hx : TmplParser.Sane x.parser) (input : Json F)
    {w t name : List Char} {args : List (Expr Path G)} (hw : TmplParser.Blank x.parser w)
    (h : TmplParser.Written x.parser (.call name args) t) {vs : List (Json F)}
    (ha : EvalArgs x input args vs) (hn : ∀ f, name ≠ (nameOf f).toList) :
    renderScalar x input (.str (funcPrefix ++ (w ++ t))) = .err (.notFound name) := by
  have hp := TmplParser.parse_written hx hw h []
  rw [List.append_nil] at hp
  rw [renderScalar, stripFunc_prefix]
  dsimp only
  rw [renderCall, hp]
  dsimp only
  rw [compute, (computeArgs_ok x input args vs).2 ha]
  dsimp only
  rw [callFn]
  split
  · rfl
  next f hf => exact absurd (name_of_lookup hf) (hn f)

/-- C81. The error of a function is passed on. -/
theorem function_error (x : Ext G F) (hx : TmplParser.Sane x.parser) (input : Json F)
    {w t : List Char} {f : Fn} {args : List (Expr Path G)} (hw : TmplParser.Blank x.parser w)
    (h : TmplParser.Written x.parser (.call (nameOf f).toList args) t) {vs : List (Json F)}
    (ha : EvalArgs x input args vs) {e : TmplFuncs.Err} (he : TmplFuncs.call x.funcs vs f = .err e) :
    renderScalar x input (.str (funcPrefix ++ (w ++ t))) = .err (.func e) := by
  have hp := TmplParser.parse_written hx hw h []
  rw [List.append_nil] at hp
  rw [renderScalar, stripFunc_prefix]
  dsimp only
  rw [renderCall, hp]
  dsimp only
  rw [compute, (computeArgs_ok x input args vs).2 ha]
  dsimp only
  rw [callFn, name_lookup]
  dsimp only
  rw [he]

omit [DecidableEq F] in
/-- Every function can be called: the names of the functions are names in the grammar. -/
theorem names_callable (x : Ext G F) (hx : TmplParser.Sane x.parser) (f : Fn) :
    TmplParser.Name x.parser (nameOf f).toList := by
  have key : ∃ c cs, (nameOf f).toList = c :: cs ∧ (c.toNat < 128 ∧ c.isAlpha = true) ∧
      ∀ d ∈ cs, (d.toNat < 128 ∧ d.isAlpha = true) ∨ d.isDigit = true ∨ d = '_' := by
    cases f <;> exact ⟨_, _, rfl, by decide, by decide⟩
  obtain ⟨c, cs, h1, h2, h3⟩ := key
  refine ⟨c, cs, h1, Or.inl (by rw [hx.alphaAscii c h2.1]; exact h2.2), ?_⟩
  intro d hd
  rcases h3 d hd with h | h | h
  · exact Or.inl (by rw [hx.alphaAscii d h.1]; exact h.2)
  · exact Or.inr (Or.inl h)
  · exact Or.inr (Or.inr h)

/-- C81. Calls of different functions are different. -/
theorem names_distinct (f g : Fn) (h : (nameOf f).toList = (nameOf g).toList) : f = g := by
  have := name_lookup f
  rw [h, name_lookup g] at this
  injection this with this
  exact this.symm

/-- ` len( list(1, $.t) )` -/
def callText : List Char :=
  [' ', 'l', 'e', 'n', '(', ' ', 'l', 'i', 's', 't', '(', '1', ',', ' ', '$', '.', 't', ')', ' ', ')']

example : renderScalar demo sampleInput (.str (funcPrefix ++ callText)) = .ok (.int 2) := rfl
example : Eval demo sampleInput
    (.call (nameOf .len).toList [.call (nameOf .list).toList
      [.int 1, .path (.chain [.root, .field ['t']])]]) (.int 2) :=
  .call .len _ _ _ (.cons _ _ _ _ (.call .list _ _ _ (.cons _ _ _ _ (.int 1)
    (.cons _ _ _ _ (.path _ (.str ['x', 'y', 'z']) (Or.inl rfl)) .nil)) rfl) .nil) rfl
example : renderScalar demo sampleInput (.str (funcPrefix ++ ['g', '(', ')'])) = .err (.notFound ['g']) := rfl

end Verif.Payload
