import Verif.Blueprint.SourceBase

/-!
# Reading back what was written: leaves
-/

namespace Verif.Blueprint.Source

open Verif Verif.Subst Verif.Subst.Spec

variable {F : Type} (cx : Ctx F) (env : Env)

/-! ## Texts -/

theorem text_parse (t : Text cx.cls) :
    liftParse (parseSubstitutions cx.cls (render t.1)) = .ok (expected t.1) := by
  rw [parse_render cx.cls t.1 t.2]; rfl

theorem resStr_expected (t : List Tmpl) (s : Str) :
    resStr env (expected t) = .ok s ↔ expand env t = some s := by
  unfold resStr
  rw [resolve_expected]
  cases expand env t <;> simp

theorem text_json (t : Text cx.cls) (s : Str) :
    Ld (jsonSos cx (wText t)) (resStr env) s ↔ TextM env t s := by
  simp only [Ld, wText, jsonSos, text_parse, Outcome.ok.injEq, exists_eq_left', resStr_expected,
    TextM]

theorem text_yaml (t : Text cx.cls) (s : Str) :
    Ld (yamlSos cx (wText t)) (resStr env) s ↔ TextM env t s := text_json cx env t s

theorem texts_json (l : List (Text cx.cls)) (s : List Str) :
    Ld (jsonSosVec cx (wList wText l)) (resStrs env) s ↔ LRel (TextM env) l s :=
  ld_list fun t _ => text_json cx env t

theorem texts_yaml (l : List (Text cx.cls)) (s : List Str) :
    Ld (yamlSosVec cx (wList wText l)) (resStrs env) s ↔ LRel (TextM env) l s :=
  ld_list fun t _ => text_yaml cx env t

theorem textMap_json (m : List (Str × Text cx.cls)) (hd : Distinct (F := F) (wMap wText m))
    (s : List (Str × Str)) :
    Ld (jsonSosMap cx (wMap wText m)) (mapM (resStr env)) s ↔ MRel (TextM env) m s :=
  ld_map hd fun e _ => text_json cx env e.2

theorem textMap_yaml (m : List (Str × Text cx.cls)) (hd : Distinct (F := F) (wMap wText m))
    (s : List (Str × Str)) :
    Ld (yamlSosMap cx (wMap wText m)) (mapM (resStr env)) s ↔ MRel (TextM env) m s :=
  ld_map hd fun e _ => text_yaml cx env e.2

theorem sosEmpty_pieces (acc : Str) (t : List Tmpl) (h : ¬ ∀ x ∈ t, Tmpl.isLit x = true) :
    sosEmpty (pieces acc t) = false := by
  induction t generalizing acc with
  | nil => exact absurd (by simp) h
  | cons x t ih =>
    cases x with
    | lit s =>
      refine ih (acc ++ s) fun ht => h ?_
      intro x hx
      rcases List.mem_cons.1 hx with rfl | hx
      · rfl
      · exact ht x hx
    | dot n =>
      unfold pieces
      split
      · cases pieces [] t <;> rfl
      · rfl
    | idx n =>
      unfold pieces
      split
      · cases pieces [] t <;> rfl
      · rfl

theorem render_ne_nil {t : List Tmpl} (h : ¬ ∀ x ∈ t, Tmpl.isLit x = true) : render t ≠ [] := by
  intro hr
  refine h fun x hx => ?_
  have hx' : Tmpl.text x = [] := by
    have : ∀ y ∈ t.map Tmpl.text, y = [] := List.flatten_eq_nil_iff.1 hr
    exact this _ (List.mem_map_of_mem hx)
  cases x with
  | lit => rfl
  | dot n =>
    exact absurd (List.append_eq_nil_iff.1 (List.append_eq_nil_iff.1 hx').1).1 (by decide)
  | idx n =>
    exact absurd (List.append_eq_nil_iff.1 (List.append_eq_nil_iff.1 hx').1).1 (by decide)

theorem sosEmpty_expected (t : List Tmpl) : sosEmpty (expected t) = (render t).isEmpty := by
  unfold expected
  split
  · rfl
  · next h =>
    rw [sosEmpty_pieces [] t h]
    cases hr : render t with
    | nil => exact absurd hr (render_ne_nil h)
    | cons => rfl

theorem require_iff {b : Bool} : require b = .ok () ↔ b = true := by
  cases b <;> simp [require]

/-! ## Numbers and booleans -/

theorem dot_wf {cls : CharClass} (n : VarName cls) : WF cls [.dot n.1] := by
  refine ⟨fun m hm => ?_, fun m hm => ?_, fun pre mid post h hl => ?_⟩
  · rw [List.mem_singleton] at hm
    cases hm
    exact n.2
  · simp at hm
  · have : mid = [] := by
      cases mid with
      | nil => rfl
      | cons x mid =>
        have hx : x ∈ [Tmpl.dot n.1] := by rw [h]; simp
        rw [List.mem_singleton] at hx
        have := hl x (List.mem_cons_self ..)
        rw [hx] at this
        cases this
    rw [this]
    rintro ⟨a, b, hab⟩
    cases a <;> cases hab

theorem dot_not_quoted {cls : CharClass} (n : VarName cls) : ¬ Quoted (render [.dot n.1]) := by
  rintro ⟨b, r, h, hb⟩
  have : render [.dot n.1] = '$' :: ("{variables.".toList ++ n.1 ++ "}".toList) := by
    show ("${variables.".toList ++ n.1 ++ "}".toList) ++ [] = _
    rw [List.append_nil]; rfl
  rw [this] at h
  cases b with
  | nil => injection h with h; exact absurd h (by decide)
  | cons c b =>
    injection h with h
    have := hb c (List.mem_cons_self ..)
    rw [← h] at this
    exact absurd this (by decide)

theorem jsonStrNode_free {s : Str} (h : ¬ Quoted s) : jsonStrNode cx s = .scalar (.str s) := by
  unfold jsonStrNode
  cases hs : cx.jsonString s with
  | none => rfl
  | some t => exact absurd (cx.jsonString_start s t hs) h

theorem jsonIntNode_i64 (n : I64) : jsonIntNode cx n.1 = .int n.1 := by
  obtain ⟨n, h1, h2⟩ := n
  unfold jsonIntNode wrapI64
  simp only
  by_cases h0 : 0 ≤ n
  · rw [if_pos ⟨h0, by omega⟩, if_pos h2]
  · rw [if_neg (by omega), if_pos ⟨h1, by omega⟩]

theorem inI64_i64 (n : I64) : inI64 n.1 = true := by
  obtain ⟨n, h1, h2⟩ := n
  simp only [inI64, decide_eq_true_eq, Bool.and_eq_true]
  omega

theorem yamlSingle_dot (n : VarName cx.cls) :
    yamlSingle cx (render [.dot n.1]) = .ok [.sub ⟨n.1⟩] := by
  unfold yamlSingle
  rw [text_parse cx ⟨[.dot n.1], dot_wf n⟩]
  rfl

theorem scalarOf_dot (n : Str) (x : Scalar F) : resolveScalar cx.parseF env [.sub ⟨n⟩] = .ok x ↔
    ∃ v, env (varEnvName n) = some v ∧ Typed cx.parseF v x := by
  rw [resolveScalar_iff]
  constructor
  · intro h
    cases h with
    | ref r v x h1 h2 => exact ⟨v, h1, h2⟩
  · rintro ⟨v, h1, h2⟩
    exact .ref ⟨n⟩ v x h1 h2

/-- A node that must be an integer. -/
def resI (n : Node F) : Res Int := do
  match ← resolveNodeToScalar cx.parseF env n with
  | .int i => pure i
  | _ => .err .valueMustBeInt

/-- A node that must be a boolean. -/
def resB (n : Node F) : Res Bool := do
  match ← resolveNodeToScalar cx.parseF env n with
  | .bool i => pure i
  | _ => .err .valueMustBeBool

/-- A node that must be a float. -/
def resR (n : Node F) : Res F := do
  match ← resolveNodeToScalar cx.parseF env n with
  | .float i => pure i
  | _ => .err .valueMustBeFloat

theorem resInt_opt (o : Option (Node F)) : resInt cx env o = optM (resI cx env) o := by
  cases o with
  | none => rfl
  | some n =>
    simp only [resInt, resolveOptInt, optM, resI]
    cases resolveNodeToScalar cx.parseF env n with
    | ok x => cases x <;> rfl
    | err => rfl
    | panic => rfl

theorem resBool_opt (o : Option (Node F)) : resBool cx env o = optM (resB cx env) o := by
  cases o with
  | none => rfl
  | some n =>
    simp only [resBool, resolveOptBool, optM, resB]
    cases resolveNodeToScalar cx.parseF env n with
    | ok x => cases x <;> rfl
    | err => rfl
    | panic => rfl

theorem resFloat_opt (o : Option (Node F)) : resFloat cx env o = optM (resR cx env) o := by
  cases o with
  | none => rfl
  | some n =>
    simp only [resFloat, resolveOptFloat, optM, resR]
    cases resolveNodeToScalar cx.parseF env n with
    | ok x => cases x <;> rfl
    | err => rfl
    | panic => rfl

theorem resI_iff (n : Node F) (i : Int) :
    resI cx env n = .ok i ↔ resolveNodeToScalar cx.parseF env n = .ok (.int i) := by
  unfold resI
  cases resolveNodeToScalar cx.parseF env n with
  | ok x => cases x <;> simp
  | err => simp
  | panic => simp

theorem resB_iff (n : Node F) (i : Bool) :
    resB cx env n = .ok i ↔ resolveNodeToScalar cx.parseF env n = .ok (.bool i) := by
  unfold resB
  cases resolveNodeToScalar cx.parseF env n with
  | ok x => cases x <;> simp
  | err => simp
  | panic => simp

theorem resR_iff (n : Node F) (i : F) :
    resR cx env n = .ok i ↔ resolveNodeToScalar cx.parseF env n = .ok (.float i) := by
  unfold resR
  cases resolveNodeToScalar cx.parseF env n with
  | ok x => cases x <;> simp
  | err => simp
  | panic => simp

theorem int_json (x : Val cx.cls I64) (i : Int) :
    Ld (jsonNode cx (wInt x)) (resI cx env) i ↔ IntM cx env .json x i := by
  cases x with
  | lit n =>
    simp only [Ld, wInt, wVal, jsonNode, jsonIntNode_i64, Outcome.ok.injEq, exists_eq_left',
      resI_iff, resolveNodeToScalar, Scalar.int.injEq, IntM, ValM]
    exact eq_comm
  | ref n =>
    simp only [Ld, wInt, wVal, jsonNode, jsonStrNode_free cx (dot_not_quoted n), Outcome.ok.injEq,
      exists_eq_left', resI_iff, resolveNodeToScalar, reduceCtorEq, IntM, ValM, false_and]

theorem int_yaml (x : Val cx.cls I64) (i : Int) :
    Ld (yamlInt cx (wInt x)) (resI cx env) i ↔ IntM cx env .yaml x i := by
  cases x with
  | lit n =>
    simp only [Ld, wInt, wVal, yamlInt, inI64_i64, if_true, Outcome.ok.injEq, exists_eq_left',
      resI_iff, resolveNodeToScalar, Scalar.int.injEq, IntM, ValM]
    exact eq_comm
  | ref n =>
    simp only [Ld, wInt, wVal, yamlInt, yamlSingle_dot, Outcome.bind_ok, Outcome.pure_eq,
      Outcome.ok.injEq, exists_eq_left', resI_iff, resolveNodeToScalar, scalarOf_dot, IntM, ValM,
      true_and]

theorem bool_json (x : Val cx.cls Bool) (i : Bool) :
    Ld (jsonNode cx (wBool x)) (resB cx env) i ↔ BoolM cx env .json x i := by
  cases x with
  | lit n =>
    simp only [Ld, wBool, wVal, jsonNode, Outcome.ok.injEq, exists_eq_left',
      resB_iff, resolveNodeToScalar, Scalar.bool.injEq, BoolM, ValM]
    exact eq_comm
  | ref n =>
    simp only [Ld, wBool, wVal, jsonNode, jsonStrNode_free cx (dot_not_quoted n), Outcome.ok.injEq,
      exists_eq_left', resB_iff, resolveNodeToScalar, reduceCtorEq, BoolM, ValM, false_and]

theorem bool_yaml (x : Val cx.cls Bool) (i : Bool) :
    Ld (yamlBool cx (wBool x)) (resB cx env) i ↔ BoolM cx env .yaml x i := by
  cases x with
  | lit n =>
    simp only [Ld, wBool, wVal, yamlBool, Outcome.ok.injEq, exists_eq_left',
      resB_iff, resolveNodeToScalar, Scalar.bool.injEq, BoolM, ValM]
    exact eq_comm
  | ref n =>
    simp only [Ld, wBool, wVal, yamlBool, yamlSingle_dot, Outcome.bind_ok, Outcome.pure_eq,
      Outcome.ok.injEq, exists_eq_left', resB_iff, resolveNodeToScalar, scalarOf_dot, BoolM, ValM,
      true_and]

theorem float_json (x : Val cx.cls F) (i : F) :
    Ld (jsonNode cx (wFloat x)) (resR cx env) i ↔ FloatM cx env .json x i := by
  cases x with
  | lit n =>
    simp only [Ld, wFloat, wVal, jsonNode, Outcome.ok.injEq, exists_eq_left',
      resR_iff, resolveNodeToScalar, Scalar.float.injEq, FloatM, ValM]
    exact eq_comm
  | ref n =>
    simp only [Ld, wFloat, wVal, jsonNode, jsonStrNode_free cx (dot_not_quoted n), Outcome.ok.injEq,
      exists_eq_left', resR_iff, resolveNodeToScalar, reduceCtorEq, FloatM, ValM, false_and]

theorem float_yaml (x : Val cx.cls F) (i : F) :
    Ld (yamlFloat cx (wFloat x)) (resR cx env) i ↔ FloatM cx env .yaml x i := by
  cases x with
  | lit n =>
    simp only [Ld, wFloat, wVal, yamlFloat, Outcome.ok.injEq, exists_eq_left',
      resR_iff, resolveNodeToScalar, Scalar.float.injEq, FloatM, ValM]
    exact eq_comm
  | ref n =>
    simp only [Ld, wFloat, wVal, yamlFloat, yamlSingle_dot, Outcome.bind_ok, Outcome.pure_eq,
      Outcome.ok.injEq, exists_eq_left', resR_iff, resolveNodeToScalar, scalarOf_dot, FloatM, ValM,
      true_and]

/-- Optional integers, booleans and floats. -/
theorem ld_int {A : Type} {r : A → Outcome Err (Node F)} {M : A → Int → Prop} {o : Option A}
    {o' : Option Int} (h : ∀ a b, Ld (r a) (resI cx env) b ↔ M a b) :
    (∃ w, ORel (fun a c => r a = .ok c) o w ∧ resInt cx env w = .ok o') ↔ ORel M o o' := by
  simp only [resInt_opt]
  exact ld_opt fun a _ => h a

theorem ld_bool {A : Type} {r : A → Outcome Err (Node F)} {M : A → Bool → Prop} {o : Option A}
    {o' : Option Bool} (h : ∀ a b, Ld (r a) (resB cx env) b ↔ M a b) :
    (∃ w, ORel (fun a c => r a = .ok c) o w ∧ resBool cx env w = .ok o') ↔ ORel M o o' := by
  simp only [resBool_opt]
  exact ld_opt fun a _ => h a

theorem ld_float {A : Type} {r : A → Outcome Err (Node F)} {M : A → F → Prop} {o : Option A}
    {o' : Option F} (h : ∀ a b, Ld (r a) (resR cx env) b ↔ M a b) :
    (∃ w, ORel (fun a c => r a = .ok c) o w ∧ resFloat cx env w = .ok o') ↔ ORel M o o' := by
  simp only [resFloat_opt]
  exact ld_opt fun a _ => h a

/-! ## Free-form values -/

/-- What the JSON loader reads for a leaf. -/
def jLeaf {cls : CharClass} : Leaf cls F → Node F
  | .bool b => .scalar (.bool b)
  | .int n => .scalar (.int n.1)
  | .float x => .scalar (.float x)
  | .text t => .scalar (.str (render t.1))

/-- What the YAML loader reads for a leaf. -/
def yLeaf {cls : CharClass} : Leaf cls F → Node F
  | .bool b => .scalar (.bool b)
  | .int n => .scalar (.int n.1)
  | .float x => .scalar (.float x)
  | .text t => .subst (expected t.1)

theorem jsonNode_leaf (x : Leaf cx.cls F) : jsonNode cx (wLeaf x) = .ok (jLeaf x) := by
  cases x with
  | bool => simp [wLeaf, jsonNode, jLeaf]
  | int n => simp [wLeaf, jsonNode, jLeaf, jsonIntNode_i64]
  | float => simp [wLeaf, jsonNode, jLeaf]
  | text t => simp [wLeaf, wFree, jsonNode, jLeaf, jsonStrNode_free cx t.2.2]

theorem yamlNode_leaf (x : Leaf cx.cls F) : yamlNode cx (wLeaf x) = .ok (yLeaf x) := by
  cases x with
  | bool => simp [wLeaf, yamlNode, yLeaf]
  | int n => simp [wLeaf, yamlNode, yLeaf, inI64_i64]
  | float => simp [wLeaf, yamlNode, yLeaf]
  | text t =>
    simp only [wLeaf, wFree, yamlNode, yLeaf]
    rw [text_parse cx ⟨t.1, t.2.1⟩]
    rfl

theorem jLeaf_iff (x : Leaf cx.cls F) (s : Scalar F) :
    resolveNodeToScalar cx.parseF env (jLeaf x) = .ok s ↔ LeafM cx env .json x s := by
  cases x <;> simp [jLeaf, resolveNodeToScalar, LeafM, FreeM, eq_comm]

theorem yLeaf_iff (x : Leaf cx.cls F) (s : Scalar F) :
    resolveNodeToScalar cx.parseF env (yLeaf x) = .ok s ↔ LeafM cx env .yaml x s := by
  cases x with
  | text t => simp only [yLeaf, resolveNodeToScalar, LeafM, FreeM, resolveScalar_iff]
  | _ => simp [yLeaf, resolveNodeToScalar, LeafM, eq_comm]

mutual
/-- What is read for a tree, given what is read for a leaf. -/
def nTree {cls : CharClass} (lf : Leaf cls F → Node F) : Tree cls F → Node F
  | .leaf s => lf s
  | .list l => .sequence (nTrees lf l)
  | .map m => .mapping (nEntries lf m)
def nTrees {cls : CharClass} (lf : Leaf cls F → Node F) : List (Tree cls F) → List (Node F)
  | [] => []
  | n :: l => nTree lf n :: nTrees lf l
def nEntries {cls : CharClass} (lf : Leaf cls F → Node F) :
    List (Str × Tree cls F) → List (Str × Node F)
  | [] => []
  | e :: m => nEntry lf e :: nEntries lf m
def nEntry {cls : CharClass} (lf : Leaf cls F → Node F) : Str × Tree cls F → Str × Node F
  | (k, n) => (k, nTree lf n)
end

mutual
theorem wTree_json (n : Tree cx.cls F) (h : Distinct (wTree n)) :
    jsonNode cx (wTree n) = .ok (nTree jLeaf n) := by
  match n with
  | .leaf s => simp only [wTree, nTree, jsonNode_leaf]
  | .list l =>
    simp only [wTree] at h ⊢
    simp only [jsonNode, nTree]
    rw [wTrees_json l h.elem]; rfl
  | .map m =>
    simp only [wTree] at h ⊢
    simp only [jsonNode, nTree]
    rw [wEntries_json m h.value h.nodup [] (by simp)]; rfl
theorem wTrees_json (l : List (Tree cx.cls F)) (h : ∀ v ∈ wTrees l, Distinct v) :
    jsonNodes cx (wTrees l) = .ok (nTrees jLeaf l) := by
  match l with
  | [] => simp only [wTrees, jsonNodes, nTrees]
  | n :: l =>
    simp only [wTrees, jsonNodes, nTrees] at h ⊢
    rw [wTree_json n (h _ (List.mem_cons_self ..)),
      wTrees_json l fun v hv => h v (List.mem_cons_of_mem _ hv)]
    rfl
theorem wEntries_json (m : List (Str × Tree cx.cls F)) (h : ∀ e ∈ wEntries m, Distinct e.2)
    (hn : ((wEntries m).map (·.1)).Nodup) (acc : List (Str × Node F))
    (ha : ∀ k ∈ (wEntries m).map (·.1), k ∉ acc.map (·.1)) :
    jsonNodeEntries cx (wEntries m) acc = .ok (acc ++ nEntries jLeaf m) := by
  match m with
  | [] => simp only [wEntries, jsonNodeEntries, nEntries, List.append_nil]
  | (k, n) :: m =>
    simp only [wEntries, wEntry, jsonNodeEntries, nEntries, nEntry] at h hn ha ⊢
    rw [wTree_json n (h _ (List.mem_cons_self ..))]
    simp only [Outcome.bind_ok]
    rw [List.map_cons, List.nodup_cons] at hn
    rw [hmInsert_new (ha k (List.mem_cons_self ..)),
      wEntries_json m (fun e he => h e (List.mem_cons_of_mem _ he)) hn.2 _ ?_]
    · simp
    · intro j hj
      simp only [List.map_append, List.map_cons, List.map_nil, List.mem_append,
        List.mem_singleton, not_or]
      exact ⟨ha j (List.mem_cons_of_mem _ hj), fun h => hn.1 (h ▸ hj)⟩
end

mutual
theorem wTree_yaml (n : Tree cx.cls F) (h : Distinct (wTree n)) :
    yamlNode cx (wTree n) = .ok (nTree yLeaf n) := by
  match n with
  | .leaf s => simp only [wTree, nTree, yamlNode_leaf]
  | .list l =>
    simp only [wTree] at h ⊢
    simp only [yamlNode, nTree]
    rw [wTrees_yaml l h.elem]; rfl
  | .map m =>
    simp only [wTree] at h ⊢
    simp only [yamlNode, nTree]
    rw [wEntries_yaml m h.value h.nodup [] (by simp)]; rfl
theorem wTrees_yaml (l : List (Tree cx.cls F)) (h : ∀ v ∈ wTrees l, Distinct v) :
    yamlNodes cx (wTrees l) = .ok (nTrees yLeaf l) := by
  match l with
  | [] => simp only [wTrees, yamlNodes, nTrees]
  | n :: l =>
    simp only [wTrees, yamlNodes, nTrees] at h ⊢
    rw [wTree_yaml n (h _ (List.mem_cons_self ..)),
      wTrees_yaml l fun v hv => h v (List.mem_cons_of_mem _ hv)]
    rfl
theorem wEntries_yaml (m : List (Str × Tree cx.cls F)) (h : ∀ e ∈ wEntries m, Distinct e.2)
    (hn : ((wEntries m).map (·.1)).Nodup) (acc : List (Str × Node F))
    (ha : ∀ k ∈ (wEntries m).map (·.1), k ∉ acc.map (·.1)) :
    yamlNodeEntries cx (wEntries m) acc = .ok (acc ++ nEntries yLeaf m) := by
  match m with
  | [] => simp only [wEntries, yamlNodeEntries, nEntries, List.append_nil]
  | (k, n) :: m =>
    simp only [wEntries, wEntry, yamlNodeEntries, nEntries, nEntry] at h hn ha ⊢
    rw [wTree_yaml n (h _ (List.mem_cons_self ..))]
    simp only [Outcome.bind_ok]
    rw [List.map_cons, List.nodup_cons] at hn
    rw [hmInsert_new (ha k (List.mem_cons_self ..)),
      wEntries_yaml m (fun e he => h e (List.mem_cons_of_mem _ he)) hn.2 _ ?_]
    · simp
    · intro j hj
      simp only [List.map_append, List.map_cons, List.map_nil, List.mem_append,
        List.mem_singleton, not_or]
      exact ⟨ha j (List.mem_cons_of_mem _ hj), fun h => hn.1 (h ▸ hj)⟩
end

section
variable {lf : Leaf cx.cls F → Node F} {f : Format}
  (h0 : ∀ s, height (lf s) = 0)
  (hlf : ∀ s r, Corr cx.parseF env (lf s) r ↔ ∃ x, r = .scalar x ∧ LeafM cx env f s x)
include h0 hlf

mutual
theorem nTree_iff (n : Tree cx.cls F) (r : RNode F) :
    (Corr cx.parseF env (nTree lf n) r ↔ TreeM cx env f n r) ∧ height (nTree lf n) = depth n := by
  match n with
  | .leaf s =>
    simp only [nTree, depth, h0, and_true]
    rw [hlf]
    constructor
    · rintro ⟨x, rfl, h⟩; exact .leaf h
    · intro h; cases h with | leaf h => exact ⟨_, rfl, h⟩
  | .list l =>
    simp only [nTree, depth, height]
    refine ⟨⟨fun h => ?_, fun h => ?_⟩, (nTrees_iff l []).2⟩
    · cases h with | sequence _ l' h => exact .list ((nTrees_iff l l').1.1 h)
    · cases h with | list h => exact .sequence _ _ ((nTrees_iff l _).1.2 h)
  | .map m =>
    simp only [nTree, depth, height]
    refine ⟨⟨fun h => ?_, fun h => ?_⟩, (nEntries_iff m []).2⟩
    · cases h with | mapping _ l' h => exact .map ((nEntries_iff m l').1.1 h)
    · cases h with | map h => exact .mapping _ _ ((nEntries_iff m _).1.2 h)
theorem nTrees_iff (l : List (Tree cx.cls F)) (r : List (RNode F)) :
    (CorrList cx.parseF env (nTrees lf l) r ↔ TreesM cx env f l r) ∧
      heightList (nTrees lf l) = depths l := by
  match l with
  | [] =>
    simp only [nTrees, heightList, depths, and_true]
    exact ⟨fun h => by cases h; exact .nil, fun h => by cases h; exact .nil⟩
  | n :: l =>
    simp only [nTrees, heightList, depths]
    refine ⟨⟨fun h => ?_, fun h => ?_⟩, by rw [(nTree_iff n .null).2, (nTrees_iff l []).2]⟩
    · cases h with
      | cons _ r _ l' h1 h2 => exact .cons ((nTree_iff n r).1.1 h1) ((nTrees_iff l l').1.1 h2)
    · cases h with
      | cons h1 h2 => exact .cons _ _ _ _ ((nTree_iff n _).1.2 h1) ((nTrees_iff l _).1.2 h2)
theorem nEntries_iff (m : List (Str × Tree cx.cls F)) (r : List (Str × RNode F)) :
    (CorrEntries cx.parseF env (nEntries lf m) r ↔ EntriesM cx env f m r) ∧
      heightEntries (nEntries lf m) = depthEntries m := by
  match m with
  | [] =>
    simp only [nEntries, heightEntries, depthEntries, and_true]
    exact ⟨fun h => by cases h; exact .nil, fun h => by cases h; exact .nil⟩
  | (k, n) :: m =>
    simp only [nEntries, nEntry, heightEntries, depthEntries, depthEntry]
    refine ⟨⟨fun h => ?_, fun h => ?_⟩, by rw [(nTree_iff n .null).2, (nEntries_iff m []).2]⟩
    · cases h with
      | cons _ _ r _ l' h1 h2 => exact .cons ((nTree_iff n r).1.1 h1) ((nEntries_iff m l').1.1 h2)
    · cases h with
      | cons h1 h2 => exact .cons _ _ _ _ _ ((nTree_iff n _).1.2 h1) ((nEntries_iff m _).1.2 h2)
end
end

theorem jLeaf_corr (s : Leaf cx.cls F) (r : RNode F) :
    Corr cx.parseF env (jLeaf s) r ↔ ∃ x, r = .scalar x ∧ LeafM cx env .json s x := by
  constructor
  · intro h
    cases s <;> (simp only [jLeaf] at h; cases h; exact ⟨_, rfl, rfl⟩)
  · rintro ⟨x, rfl, h⟩
    cases s <;> (cases h; exact .scalar _)

theorem yLeaf_corr (s : Leaf cx.cls F) (r : RNode F) :
    Corr cx.parseF env (yLeaf s) r ↔ ∃ x, r = .scalar x ∧ LeafM cx env .yaml s x := by
  cases s with
  | text t =>
    simp only [yLeaf, LeafM, FreeM]
    constructor
    · intro h; cases h with | subst _ s h => exact ⟨s, rfl, h⟩
    · rintro ⟨x, rfl, h⟩; exact .subst _ _ h
  | bool b =>
    constructor
    · intro h; simp only [yLeaf] at h; cases h; exact ⟨_, rfl, rfl⟩
    · rintro ⟨x, rfl, h⟩; cases h; exact .scalar _
  | int b =>
    constructor
    · intro h; simp only [yLeaf] at h; cases h; exact ⟨_, rfl, rfl⟩
    · rintro ⟨x, rfl, h⟩; cases h; exact .scalar _
  | float b =>
    constructor
    · intro h; simp only [yLeaf] at h; cases h; exact ⟨_, rfl, rfl⟩
    · rintro ⟨x, rfl, h⟩; cases h; exact .scalar _

theorem jLeaf_height (s : Leaf cx.cls F) : height (jLeaf s) = 0 := by
  cases s <;> simp only [jLeaf, height]

theorem yLeaf_height (s : Leaf cx.cls F) : height (yLeaf s) = 0 := by
  cases s <;> simp only [yLeaf, height]

theorem tree_json (n : Tree cx.cls F) (h : Distinct (wTree n)) (d : Nat) (hd : d ≤ 20) (r : RNode F) :
    Ld (jsonNode cx (wTree n)) (resolveNode cx.parseF env d) r ↔
      TreeM cx env .json n r ∧ d + depth n ≤ 20 := by
  have hi := nTree_iff cx env (jLeaf_height cx) (jLeaf_corr cx env) n r
  simp only [Ld, wTree_json cx n h, Outcome.ok.injEq, exists_eq_left', resolveNode_iff _ _ _ _ _ hd,
    hi.1, hi.2]

theorem tree_yaml (n : Tree cx.cls F) (h : Distinct (wTree n)) (d : Nat) (hd : d ≤ 20) (r : RNode F) :
    Ld (yamlNode cx (wTree n)) (resolveNode cx.parseF env d) r ↔
      TreeM cx env .yaml n r ∧ d + depth n ≤ 20 := by
  have hi := nTree_iff cx env (yLeaf_height cx) (yLeaf_corr cx env) n r
  simp only [Ld, wTree_yaml cx n h, Outcome.ok.injEq, exists_eq_left', resolveNode_iff _ _ _ _ _ hd,
    hi.1, hi.2]

theorem entries_json (m : List (Str × Tree cx.cls F)) (h : Distinct (.obj (wEntries m)))
    (r : List (Str × RNode F)) :
    Ld (jsonNodeMap cx (.obj (wEntries m))) (resTemplate cx env) r ↔
      EntriesM cx env .json m r ∧ depthEntries m ≤ 20 := by
  have hi := nEntries_iff cx env (jLeaf_height cx) (jLeaf_corr cx env) m r
  have hr := resolveEntries_iff cx.parseF env 0 (nEntries jLeaf m) r (by omega)
  simp only [Ld, jsonNodeMap, readObj, wEntries_json cx m h.value h.nodup [] (by simp),
    List.nil_append, Outcome.ok.injEq, exists_eq_left', resTemplate]
  rw [hr, hi.1, hi.2, Nat.zero_add]

theorem entries_yaml (m : List (Str × Tree cx.cls F)) (h : Distinct (.obj (wEntries m)))
    (r : List (Str × RNode F)) :
    Ld (readObj (fun m => yamlNodeEntries cx m []) (.obj (wEntries m))) (resTemplate cx env) r ↔
      EntriesM cx env .yaml m r ∧ depthEntries m ≤ 20 := by
  have hi := nEntries_iff cx env (yLeaf_height cx) (yLeaf_corr cx env) m r
  have hr := resolveEntries_iff cx.parseF env 0 (nEntries yLeaf m) r (by omega)
  simp only [Ld, readObj, wEntries_yaml cx m h.value h.nodup [] (by simp),
    List.nil_append, Outcome.ok.injEq, exists_eq_left', resTemplate]
  rw [hr, hi.1, hi.2, Nat.zero_add]

theorem int_nn {cls : CharClass} (a : Val cls I64) : wInt (F := F) a ≠ .null := by
  cases a <;> exact nn rfl
theorem bool_nn {cls : CharClass} (a : Val cls Bool) : wBool (F := F) a ≠ .null := by
  cases a <;> exact nn rfl
theorem float_nn {cls : CharClass} (a : Val cls F) : wFloat a ≠ .null := by
  cases a <;> exact nn rfl
theorem leaf_nn {cls : CharClass} (a : Leaf cls F) : wLeaf a ≠ .null := by
  cases a <;> exact nn rfl
theorem tree_nn {cls : CharClass} (a : Tree cls F) : wTree a ≠ .null := by
  cases a with
  | leaf s => simpa only [wTree] using leaf_nn s
  | list => simp only [wTree]; exact nn rfl
  | map => simp only [wTree]; exact nn rfl

theorem filled_text {t : Text cx.cls} {w : Sos} (h : yamlSos cx (wText t) = .ok w) :
    (!sosEmpty w) = true ↔ Filled t := by
  simp only [yamlSos, wText, text_parse, Outcome.ok.injEq] at h
  rw [← h, sosEmpty_expected]
  cases hr : render t.1 <;> simp [Filled, hr]

/-! ## Names -/

theorem ld_name {E : Type} {g : Str → Res E} (t : Text cx.cls) (e : E) :
    Ld (jsonSos cx (wText t)) (fun s => resStr env s >>= g) e ↔
      ∃ n, expand env t.1 = some n ∧ g n = .ok e := by
  simp only [Ld, wText, jsonSos, text_parse, Outcome.ok.injEq, exists_eq_left']
  constructor
  · intro h
    obtain ⟨n, h1, h2⟩ := bind_eq_ok h
    exact ⟨n, (resStr_expected env _ _).1 h1, h2⟩
  · rintro ⟨n, h1, h2⟩
    exact (bind_ok ((resStr_expected env _ _).2 h1) _).trans h2

theorem ld_named {E : Type} {g : Str → Res E} {nm : E → Str} (hg : ∀ n e, g n = .ok e ↔ n = nm e)
    (t : Text cx.cls) (e : E) :
    Ld (jsonSos cx (wText t)) (fun s => resStr env s >>= g) e ↔ expand env t.1 = some (nm e) := by
  rw [ld_name]
  simp only [hg]
  constructor
  · rintro ⟨n, h, rfl⟩; exact h
  · intro h; exact ⟨_, h, rfl⟩

theorem objEvent_json (t : Text cx.cls) (e : ObjEvent) :
    Ld (jsonSos cx (wText t)) (resObjEvent env) e ↔ ObjEventM env t e := by
  refine ld_named cx env (fun n e => ?_) t e
  by_cases h1 : n = "created".toList
  · rw [if_pos h1, h1]; cases e <;> decide
  by_cases h2 : n = "deleted".toList
  · rw [if_neg h1, if_pos h2, h2]; cases e <;> decide
  by_cases h3 : n = "metadataUpdated".toList
  · rw [if_neg h1, if_neg h2, if_pos h3, h3]; cases e <;> decide
  rw [if_neg h1, if_neg h2, if_neg h3]
  cases e
  · exact ⟨nofun, fun h => absurd h h1⟩
  · exact ⟨nofun, fun h => absurd h h2⟩
  · exact ⟨nofun, fun h => absurd h h3⟩

theorem objEvent_yaml (t : Text cx.cls) (e : ObjEvent) :
    Ld (yamlSos cx (wText t)) (resObjEvent env) e ↔ ObjEventM env t e := objEvent_json cx env t e

theorem secPolicy_json (t : Text cx.cls) (e : SecPolicy) :
    Ld (jsonSos cx (wText t)) (resSecPolicy env) e ↔ SecPolicyM env t e := by
  refine ld_named cx env (fun n e => ?_) t e
  by_cases h1 : n = "TLS_1_0".toList
  · rw [if_pos h1, h1]; cases e <;> decide
  by_cases h2 : n = "TLS_1_2".toList
  · rw [if_neg h1, if_pos h2, h2]; cases e <;> decide
  rw [if_neg h1, if_neg h2]
  cases e
  · exact ⟨nofun, fun h => absurd h h1⟩
  · exact ⟨nofun, fun h => absurd h h2⟩

theorem secPolicy_yaml (t : Text cx.cls) (e : SecPolicy) :
    Ld (yamlSos cx (wText t)) (resSecPolicy env) e ↔ SecPolicyM env t e := secPolicy_json cx env t e

theorem guardType_json (t : Text cx.cls) (e : GuardType) :
    Ld (jsonSos cx (wText t)) (resGuardType env) e ↔ GuardTypeM env .json t e := by
  refine ld_named cx env (fun n e => ?_) t e
  by_cases h1 : n = "jwt".toList
  · rw [if_pos h1, h1]; cases e <;> decide
  by_cases h2 : n = "custom".toList
  · rw [if_neg h1, if_pos h2, h2]; cases e <;> decide
  rw [if_neg h1, if_neg h2]
  cases e
  · exact ⟨nofun, fun h => absurd h h1⟩
  · exact ⟨nofun, fun h => absurd h h2⟩

theorem guardType_yaml (t : Text cx.cls) (e : GuardType) :
    Ld (yamlGuardType (F := F) (wText t)) (resGuardType env) e ↔ GuardTypeM env .yaml t e := by
  simp only [GuardTypeM, wText, yamlGuardType, Ld]
  by_cases h1 : render t.1 = "jwt".toList
  · rw [if_pos h1, h1]
    simp only [Outcome.ok.injEq, exists_eq_left']
    show Outcome.ok GuardType.jwt = .ok e ↔ _
    cases e <;> decide
  by_cases h2 : render t.1 = "custom".toList
  · rw [if_neg h1, if_pos h2, h2]
    simp only [Outcome.ok.injEq, exists_eq_left']
    show Outcome.ok GuardType.custom = .ok e ↔ _
    cases e <;> decide
  rw [if_neg h1, if_neg h2]
  refine ⟨fun ⟨_, h, _⟩ => (nomatch h), fun h => ?_⟩
  cases e
  · exact absurd h h1
  · exact absurd h h2

theorem guardType_filled {t : Text cx.cls} {w : Sos} (h : yamlGuardType (F := F) (wText t) = .ok w) :
    (!sosEmpty w) = true := by
  simp only [wText, yamlGuardType] at h
  split at h
  · cases h; rfl
  · split at h
    · cases h; rfl
    · cases h

theorem stateType_json (t : Text cx.cls) (e : StateType) :
    Ld (jsonSos cx (wText t)) (resStateType env) e ↔ StateTypeM env t e := by
  refine (ld_name cx env t e).trans ?_
  unfold StateTypeM
  refine exists_congr fun n => and_congr_right fun _ => ?_
  simp only [Outcome.pure_eq, Outcome.ok.injEq]
  by_cases h1 : n = "executeStep".toList
  · rw [if_pos h1, h1]
    cases e <;> simp only [stateTypeName] <;>
      first | decide | exact ⟨nofun, fun h => absurd rfl (h .executeStep _ rfl)⟩
  by_cases h2 : n = "pass".toList
  · rw [if_neg h1, if_pos h2, h2]
    cases e <;> simp only [stateTypeName] <;>
      first | decide | exact ⟨nofun, fun h => absurd rfl (h .pass _ rfl)⟩
  by_cases h3 : n = "parallel".toList
  · rw [if_neg h1, if_neg h2, if_pos h3, h3]
    cases e <;> simp only [stateTypeName] <;>
      first | decide | exact ⟨nofun, fun h => absurd rfl (h .parallel _ rfl)⟩
  by_cases h4 : n = "wait".toList
  · rw [if_neg h1, if_neg h2, if_neg h3, if_pos h4, h4]
    cases e <;> simp only [stateTypeName] <;>
      first | decide | exact ⟨nofun, fun h => absurd rfl (h .wait _ rfl)⟩
  by_cases h5 : n = "decision".toList
  · rw [if_neg h1, if_neg h2, if_neg h3, if_neg h4, if_pos h5, h5]
    cases e <;> simp only [stateTypeName] <;>
      first | decide | exact ⟨nofun, fun h => absurd rfl (h .decision _ rfl)⟩
  by_cases h6 : n = "failure".toList
  · rw [if_neg h1, if_neg h2, if_neg h3, if_neg h4, if_neg h5, if_pos h6, h6]
    cases e <;> simp only [stateTypeName] <;>
      first | decide | exact ⟨nofun, fun h => absurd rfl (h .failure _ rfl)⟩
  by_cases h7 : n = "success".toList
  · rw [if_neg h1, if_neg h2, if_neg h3, if_neg h4, if_neg h5, if_neg h6, if_pos h7, h7]
    cases e <;> simp only [stateTypeName] <;>
      first | decide | exact ⟨nofun, fun h => absurd rfl (h .success _ rfl)⟩
  rw [if_neg h1, if_neg h2, if_neg h3, if_neg h4, if_neg h5, if_neg h6, if_neg h7]
  cases e with
  | executeStep => exact ⟨nofun, fun h => absurd h h1⟩
  | pass => exact ⟨nofun, fun h => absurd h h2⟩
  | parallel => exact ⟨nofun, fun h => absurd h h3⟩
  | wait => exact ⟨nofun, fun h => absurd h h4⟩
  | decision => exact ⟨nofun, fun h => absurd h h5⟩
  | failure => exact ⟨nofun, fun h => absurd h h6⟩
  | success => exact ⟨nofun, fun h => absurd h h7⟩
  | unknown =>
    refine ⟨fun _ s' m hm => ?_, fun _ => rfl⟩
    cases s' <;> first | (cases hm; assumption) | (cases hm; done)

theorem stateType_yaml (t : Text cx.cls) (e : StateType) :
    Ld (yamlSos cx (wText t)) (resStateType env) e ↔ StateTypeM env t e := stateType_json cx env t e

/-! ## Protocols -/

theorem wsAuthOfName_iff (s : Str) (a : WsAuth) : wsAuthOfName s = .ok a ↔ s = wsAuthName a := by
  unfold wsAuthOfName
  by_cases h1 : s = "authMessage".toList
  · rw [if_pos h1, h1]; cases a <;> decide
  by_cases h2 : s = "connect".toList
  · rw [if_neg h1, if_pos h2, h2]; cases a <;> decide
  rw [if_neg h1, if_neg h2]
  cases a
  · exact ⟨nofun, fun h => absurd h h1⟩
  · exact ⟨nofun, fun h => absurd h h2⟩

theorem resNodeStr_iff (n : Node F) (s : Str) :
    resNodeStr cx env n = .ok s ↔ resolveNodeToScalar cx.parseF env n = .ok (.str s) := by
  unfold resNodeStr
  cases resolveNodeToScalar cx.parseF env n with
  | ok x => cases x <;> simp
  | err => simp
  | panic => simp

/-- The entries of a WebSocket configuration, as nodes. -/
def wsNodes (nf : FreeText cx.cls → Node F) (r a : Option (FreeText cx.cls)) : List (Str × Node F) :=
  (r.map fun t => ("routeKey".toList, nf t)).toList ++
    (a.map fun t => ("authStrategy".toList, nf t)).toList

theorem wsNodes_iff {f : Format} {nf : FreeText cx.cls → Node F}
    (h1 : ∀ t s, resNodeStr cx env (nf t) = .ok s ↔ FreeM cx env f t (.str s))
    (h2 : ∀ t s, resWsAuth env (nf t) = .ok s ↔ WsAuthM env f t s)
    (r a : Option (FreeText cx.cls)) (y : Protocol) :
    resWsConfig cx env (.mapping (wsNodes cx nf r a)) = .ok y ↔ ProtoM cx env f (.config r a) y := by
  have g1 : get? (wsNodes cx nf r a) "routeKey".toList = r.map nf := by cases r <;> cases a <;> rfl
  have g2 : get? (wsNodes cx nf r a) "authStrategy".toList = a.map nf := by
    cases r <;> cases a <;> rfl
  simp only [resWsConfig]
  rw [g1, g2]
  constructor
  · intro h
    obtain ⟨r', hr, h⟩ := bind_eq_ok h
    obtain ⟨a', ha, h⟩ := bind_eq_ok h
    cases h
    rw [optM_iff] at hr ha
    refine .config ?_ ?_
    · cases r <;> cases r' <;> first | exact hr | exact (h1 _ _).1 hr
    · cases a <;> cases a' <;> first | exact ha | exact (h2 _ _).1 ha
  · intro h
    cases h with
    | @config _ _ r' a' hr ha =>
      refine (bind_ok ((optM_iff (o' := r')).2 ?_) _).trans
        ((bind_ok ((optM_iff (o' := a')).2 ?_) _).trans rfl)
      · cases r <;> cases r' <;> first | exact hr | exact (h1 _ _).2 hr
      · cases a <;> cases a' <;> first | exact ha | exact (h2 _ _).2 ha

/-- What the JSON loader reads for a text. -/
def jFree {cls : CharClass} (t : FreeText cls) : Node F := .scalar (.str (render t.1))
/-- What the YAML loader reads for a text. -/
def yFree {cls : CharClass} (t : FreeText cls) : Node F := .subst (expected t.1)

theorem jFree_iff (t : FreeText cx.cls) (s : Str) :
    resNodeStr cx env (jFree t) = .ok s ↔ FreeM cx env .json t (.str s) := by
  rw [resNodeStr_iff]
  simp [jFree, resolveNodeToScalar, FreeM, eq_comm]

theorem yFree_iff (t : FreeText cx.cls) (s : Str) :
    resNodeStr cx env (yFree t) = .ok s ↔ FreeM cx env .yaml t (.str s) := by
  rw [resNodeStr_iff]
  simp [yFree, resolveNodeToScalar, FreeM, resolveScalar_iff]

theorem jFree_auth (t : FreeText cx.cls) (a : WsAuth) :
    resWsAuth (F := F) env (jFree t) = .ok a ↔ WsAuthM env .json t a :=
  wsAuthOfName_iff _ _

theorem yFree_auth (t : FreeText cx.cls) (a : WsAuth) :
    resWsAuth (F := F) env (yFree t) = .ok a ↔ WsAuthM env .yaml t a := by
  simp only [yFree, resWsAuth, WsAuthM]
  constructor
  · intro h
    obtain ⟨n, h1, h2⟩ := bind_eq_ok h
    rw [wsAuthOfName_iff] at h2
    exact h2 ▸ (resStr_expected env _ _).1 h1
  · intro h
    exact (bind_ok ((resStr_expected env _ _).2 h) _).trans ((wsAuthOfName_iff _ _).2 rfl)

theorem wsNodes_json (r a : Option (FreeText cx.cls)) :
    jsonNode cx (wProto (.config r a)) =
      .ok (.mapping [("websocketConfig".toList, .mapping (wsNodes cx jFree r a))]) := by
  have hf : ∀ t : FreeText cx.cls, jsonNode cx (wFree t) = .ok (jFree t) := fun t => by
    simp only [wFree, jsonNode, jsonStrNode_free cx t.2.2, jFree]
  have h : jsonNodeEntries cx (opt "routeKey" (r.map wFree) ++ opt "authStrategy" (a.map wFree)) [] =
      .ok (wsNodes cx jFree r a) := by
    cases r <;> cases a <;>
      simp only [Option.map_none, Option.map_some, opt, List.nil_append, List.append_nil,
        List.singleton_append, jsonNodeEntries, hf, Outcome.bind_ok] <;> rfl
  simp only [wProto, req, jsonNode, jsonNodeEntries, h, Outcome.bind_ok, Outcome.pure_eq]
  rfl

theorem wsNodes_yaml (r a : Option (FreeText cx.cls)) :
    yamlProtocol cx (wProto (.config r a)) =
      .ok (.mapping [("websocketConfig".toList, .mapping (wsNodes cx yFree r a))]) := by
  have hf : ∀ t : FreeText cx.cls, yamlSos cx (wFree (F := F) t) = .ok (expected t.1) := fun t =>
    text_parse cx ⟨t.1, t.2.1⟩
  have h : yamlWsConfig cx (opt "routeKey" (r.map wFree) ++ opt "authStrategy" (a.map wFree)) =
      .ok (wsNodes cx yFree r a) := by
    unfold yamlWsConfig
    rw [← List.append_nil (opt "authStrategy" _)]
    cases r with
    | none =>
      cases a with
      | none => rfl
      | some a => exact (reqF rfl).2 ⟨_, hf a, rfl⟩
    | some r =>
      refine (reqF rfl).2 ⟨_, hf r, ?_⟩
      cases a with
      | none => rfl
      | some a => exact (reqF rfl).2 ⟨_, hf a, rfl⟩
  show (readObj (yamlWsConfig cx) (.obj _) >>= _) = _
  simp only [readObj]
  rw [h]
  rfl

theorem proto_json (p : Proto cx.cls) (y : Protocol) :
    Ld (jsonNode cx (wProto p)) (resProtocol cx env) y ↔ ProtoM cx env .json p y := by
  cases p with
  | http =>
    have h : jsonNode cx (wProto (cls := cx.cls) .http) = .ok (.scalar (.str "http".toList)) := by
      simp only [wProto, jsonNode]
      rw [jsonStrNode_free cx]
      rintro ⟨b, r, h, _⟩
      have : '"' ∈ "http".toList := by rw [h]; simp
      exact absurd this (by decide)
    simp only [Ld, h, Outcome.ok.injEq, exists_eq_left']
    constructor
    · intro h; cases h; exact .http
    · intro h; cases h; rfl
  | websocket =>
    have h : jsonNode cx (wProto (cls := cx.cls) .websocket) = .ok (.scalar (.str "websocket".toList)) := by
      simp only [wProto, jsonNode]
      rw [jsonStrNode_free cx]
      rintro ⟨b, r, h, _⟩
      have : '"' ∈ "websocket".toList := by rw [h]; simp
      exact absurd this (by decide)
    simp only [Ld, h, Outcome.ok.injEq, exists_eq_left']
    constructor
    · intro h; cases h; exact .websocket
    · intro h; cases h; rfl
  | config r a =>
    simp only [Ld, wsNodes_json, Outcome.ok.injEq, exists_eq_left']
    exact wsNodes_iff cx env (jFree_iff cx env) (jFree_auth cx env) r a y

theorem proto_yaml (p : Proto cx.cls) (y : Protocol) :
    Ld (yamlProtocol cx (wProto p)) (resProtocol cx env) y ↔ ProtoM cx env .yaml p y := by
  cases p with
  | http =>
    have h : yamlProtocol cx (wProto (cls := cx.cls) .http) = .ok (.scalar (.str "http".toList)) := rfl
    simp only [Ld, h, Outcome.ok.injEq, exists_eq_left']
    constructor
    · intro h; cases h; exact .http
    · intro h; cases h; rfl
  | websocket =>
    have h : yamlProtocol cx (wProto (cls := cx.cls) .websocket) = .ok (.scalar (.str "websocket".toList)) := rfl
    simp only [Ld, h, Outcome.ok.injEq, exists_eq_left']
    constructor
    · intro h; cases h; exact .websocket
    · intro h; cases h; rfl
  | config r a =>
    simp only [Ld, wsNodes_yaml, Outcome.ok.injEq, exists_eq_left']
    exact wsNodes_iff cx env (yFree_iff cx env) (yFree_auth cx env) r a y

theorem protoName_yaml (p : Proto cx.cls) (y : Protocol) :
    Ld (yamlProtocolName (wProto p)) (resProtocol cx env) y ↔
      ProtoM cx env .yaml p y ∧ (p = .http ∨ p = .websocket) := by
  cases p with
  | http =>
    rw [← proto_yaml]
    exact ⟨fun h => ⟨h, .inl rfl⟩, fun h => h.1⟩
  | websocket =>
    rw [← proto_yaml]
    exact ⟨fun h => ⟨h, .inr rfl⟩, fun h => h.1⟩
  | config r a =>
    refine ⟨fun ⟨_, h, _⟩ => (nomatch h), fun h => ?_⟩
    rcases h.2 with h | h <;> cases h

/-! ## Annotations -/

theorem leafEntries_json (m : List (Str × Leaf cx.cls F)) (hn : (m.map (·.1)).Nodup)
    (acc : List (Str × Node F)) (ha : ∀ k ∈ m.map (·.1), k ∉ acc.map (·.1)) :
    jsonNodeEntries cx (m.map fun e => (e.1, wLeaf e.2)) acc =
      .ok (acc ++ m.map fun e => (e.1, jLeaf e.2)) := by
  induction m generalizing acc with
  | nil => simp [jsonNodeEntries]
  | cons e m ih =>
    rw [List.map_cons, List.nodup_cons] at hn
    simp only [List.map_cons, jsonNodeEntries, jsonNode_leaf, Outcome.bind_ok]
    rw [hmInsert_new (ha _ (List.mem_cons_self ..)), ih hn.2 _ ?_]
    · simp
    · intro j hj
      simp only [List.map_append, List.map_cons, List.map_nil, List.mem_append,
        List.mem_singleton, not_or]
      exact ⟨ha j (List.mem_cons_of_mem _ hj), fun h => hn.1 (h ▸ hj)⟩

theorem leafEntries_yaml (m : List (Str × Leaf cx.cls F)) (hn : (m.map (·.1)).Nodup)
    (acc : List (Str × Node F)) (ha : ∀ k ∈ m.map (·.1), k ∉ acc.map (·.1)) :
    yamlNodeEntries cx (m.map fun e => (e.1, wLeaf e.2)) acc =
      .ok (acc ++ m.map fun e => (e.1, yLeaf e.2)) := by
  induction m generalizing acc with
  | nil => simp [yamlNodeEntries]
  | cons e m ih =>
    rw [List.map_cons, List.nodup_cons] at hn
    simp only [List.map_cons, yamlNodeEntries, yamlNode_leaf, Outcome.bind_ok]
    rw [hmInsert_new (ha _ (List.mem_cons_self ..)), ih hn.2 _ ?_]
    · simp
    · intro j hj
      simp only [List.map_append, List.map_cons, List.map_nil, List.mem_append,
        List.mem_singleton, not_or]
      exact ⟨ha j (List.mem_cons_of_mem _ hj), fun h => hn.1 (h ▸ hj)⟩

theorem leafMap_iff {f : Format} {nf : Leaf cx.cls F → Node F}
    (hf : ∀ x s, resolveNodeToScalar cx.parseF env (nf x) = .ok s ↔ LeafM cx env f x s)
    (m : List (Str × Leaf cx.cls F)) (m' : List (Str × Scalar F)) :
    mapM (resolveNodeToScalar cx.parseF env) (m.map fun e => (e.1, nf e.2)) = .ok m' ↔
      MRel (LeafM cx env f) m m' := by
  rw [mapM_iff]
  induction m generalizing m' with
  | nil => exact ⟨fun h => by cases h; exact .nil, fun h => by cases h; exact .nil⟩
  | cons e m ih =>
    constructor
    · intro h
      cases h with
      | cons h1 h2 => exact .cons ⟨h1.1, (hf _ _).1 h1.2⟩ ((ih _).1 h2)
    · intro h
      cases h with
      | cons h1 h2 => exact .cons ⟨h1.1, (hf _ _).2 h1.2⟩ ((ih _).2 h2)

theorem annotations_json (m : List (Str × Leaf cx.cls F)) (hd : Distinct (wMap wLeaf m))
    (y : List (Str × Scalar F)) :
    Ld (jsonNodeMap cx (wMap wLeaf m)) (mapM (resolveNodeToScalar cx.parseF env)) y ↔
      MRel (LeafM cx env .json) m y := by
  simp only [Ld, jsonNodeMap, readObj, wMap, leafEntries_json cx m hd.mapNodup [] (by simp),
    List.nil_append, Outcome.ok.injEq, exists_eq_left']
  exact leafMap_iff cx env (jLeaf_iff cx env) m y

theorem annotations_yaml (m : List (Str × Leaf cx.cls F)) (hd : Distinct (wMap wLeaf m))
    (y : List (Str × Scalar F)) :
    Ld (readObj (fun m => yamlNodeEntries cx m []) (wMap wLeaf m))
      (mapM (resolveNodeToScalar cx.parseF env)) y ↔ MRel (LeafM cx env .yaml) m y := by
  simp only [Ld, readObj, wMap, leafEntries_yaml cx m hd.mapNodup [] (by simp),
    List.nil_append, Outcome.ok.injEq, exists_eq_left']
  exact leafMap_iff cx env (yLeaf_iff cx env) m y

end Verif.Blueprint.Source
