import Verif.Payload.Props

/-!
# C165: payloads depend on what their paths select and on nothing else
-/

namespace Verif.Payload

open TmplParser (Expr)

variable {G F : Type} [DecidableEq F]

/-! ## Specification -/

namespace Spec

/-- The path is an argument of the call or of a call within it. -/
inductive Within (p : Path) : Expr Path G → Prop
  | here : Within p (.path p)
  | arg (name : List Char) (args : List (Expr Path G)) (e : Expr Path G) : e ∈ args →
    Within p e → Within p (.call name args)

/-- The text of a template refers to the path. -/
inductive Refers (x : Ext G F) (p : Path) : List Char → Prop
  | path (s : List Char) : s.head? = some '$' → x.parser.path s = some p → Refers x p s
  | call (s : List Char) (e : Expr Path G) : TmplParser.parseFunc x.parser s = some (.ok e) →
    Within p e → Refers x p (['f', 'u', 'n', 'c', ':'] ++ s)

/-- No path of the template tells the two inputs apart. -/
def Alike (x : Ext G F) (n : Node G) (a b : Json F) : Prop :=
  ∀ s p, Leaf (.str s) n → Refers x p s → x.find p a = x.find p b

end Spec

open Spec

/-! ## Theorems -/

mutual
theorem compute_local (x : Ext G F) (a b : Json F) : ∀ e : Expr Path G,
    (∀ p, Within p e → x.find p a = x.find p b) → compute x a e = compute x b e
  | .str _, _ | .int _, _ | .float _, _ | .bool _, _ | .null, _ => by simp only [compute]
  | .path p, h => by simp only [compute, extractValue, h p .here]
  | .call name args, h => by
    simp only [compute, computeArgs_local x a b args (fun e he p hp => h p (.arg name args e he hp))]

theorem computeArgs_local (x : Ext G F) (a b : Json F) : ∀ es : List (Expr Path G),
    (∀ e ∈ es, ∀ p, Within p e → x.find p a = x.find p b) → computeArgs x a es = computeArgs x b es
  | [], _ => by simp only [computeArgs]
  | e :: es, h => by
    simp only [computeArgs, compute_local x a b e (h e (.head _)),
      computeArgs_local x a b es (fun e he => h e (.tail _ he))]
end

theorem scalar_local (x : Ext G F) (a b : Json F) (s : Scalar G)
    (h : ∀ t, s = .str t → ∀ p, Refers x p t → x.find p a = x.find p b) :
    renderScalar x a s = renderScalar x b s := by
  cases s with
  | str t =>
    simp only [renderScalar]
    cases hc : stripFunc t with
    | some r =>
      simp only [renderCall]
      have ht := stripFunc_some hc
      cases hp : TmplParser.parseFunc x.parser r with
      | none => rfl
      | some q =>
        cases q with
        | error e => rfl
        | ok e =>
          refine compute_local x a b e (fun p hw => h t rfl p ?_)
          rw [ht]
          exact .call r e hp hw
    | none =>
      simp only
      split
      next hd =>
        simp only [renderPath]
        cases hp : x.parser.path t with
        | none => rfl
        | some p => simp only [extractValue, h t rfl p (.path t hd hp)]
      next => rfl
  | int i => rfl
  | float g => rfl
  | bool c => rfl

mutual
theorem node_local (x : Ext G F) (a b : Json F) : ∀ n : Node G, Alike x n a b →
    renderNode x a n = renderNode x b n
  | .scalar s, h => by
    simp only [renderNode]
    exact scalar_local x a b s (fun t ht p hp => h t p (ht ▸ .here) hp)
  | .mapping m, h => by
    simp only [renderNode,
      map_local x a b m (fun k n hn t p hl => h t p (.mapping m k n hn hl)) []]
  | .seq l, h => by
    simp only [renderNode, list_local x a b l (fun n hn t p hl => h t p (.seq l n hn hl))]
  | .null, _ => by simp only [renderNode]

theorem list_local (x : Ext G F) (a b : Json F) : ∀ l : List (Node G),
    (∀ n ∈ l, Alike x n a b) → renderSeq x a l = renderSeq x b l
  | [], _ => by simp only [renderSeq]
  | n :: l, h => by
    simp only [renderSeq, node_local x a b n (h n (.head _)),
      list_local x a b l (fun n hn => h n (.tail _ hn))]

theorem map_local (x : Ext G F) (a b : Json F) : ∀ m : List (List Char × Node G),
    (∀ k n, (k, n) ∈ m → Alike x n a b) → ∀ o, renderMap x a m o = renderMap x b m o
  | [], _, _ => by simp only [renderMap]
  | (k, n) :: m, h, o => by
    simp only [renderMap, node_local x a b n (h k n (.head _))]
    cases renderNode x b n with
    | ok v => exact map_local x a b m (fun k n hn => h k n (.tail _ hn)) _
    | err e => rfl
    | panic => rfl
end

/-- Inputs that no path of the template tells apart render to the same payload, fail with the same
error or crash alike. -/
theorem local_payload (x : Ext G F) (m : List (List Char × Node G)) (a b : Json F)
    (h : Alike x (.mapping m) a b) : render x m a = render x m b :=
  node_local x a b _ h

/-- A template without paths renders to the same payload whatever the input. -/
theorem constant_payload (x : Ext G F) (m : List (List Char × Node G))
    (h : ∀ s p, Leaf (.str s) (.mapping m) → ¬ Refers x p s) (a b : Json F) :
    render x m a = render x m b :=
  local_payload x m a b (fun s p hl hr => absurd hr (h s p hl))

/-- `{"a": "$.t", "b": 1}` -/
def localSample : List (List Char × Node (Option Int)) :=
  [(['a'], .scalar (.str ['$', '.', 't'])), (['b'], .scalar (.int 1))]

/-- Inputs that differ in a field that the template does not name. -/
example (v w : Json Int) :
    render demo localSample (.obj [(['t'], .str ['x']), (['u'], v)]) =
      render demo localSample (.obj [(['t'], .str ['x']), (['u'], w)]) := by
  refine local_payload _ _ _ _ ?_
  intro s p hl hr
  have hs : s = ['$', '.', 't'] := by
    cases hl with
    | mapping _ k n hm hl =>
      simp only [localSample, List.mem_cons, Prod.mk.injEq, List.not_mem_nil, or_false] at hm
      rcases hm with ⟨_, rfl⟩ | ⟨_, rfl⟩ <;> cases hl
      rfl
  subst hs
  generalize ht : (['$', '.', 't'] : List Char) = t at hr
  cases hr with
  | path _ _ hp =>
    subst ht
    simp only [demo] at hp
    cases hp
    rfl
  | call s e _ _ => cases ht

/-- The template does read the field that it names. -/
example : render demo localSample (.obj [(['t'], .str ['x'])]) ≠
    render demo localSample (.obj [(['t'], .str ['y'])]) := by decide +revert

end Verif.Payload
