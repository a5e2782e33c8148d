import Verif.Blueprint.Field
import Verif.Blueprint.FieldSpec

/-!
# Lemmas: fields named by errors, and what resolution depends on
-/

namespace Verif.Blueprint.Field

open Verif Verif.Subst Verif.Blueprint Verif.Blueprint.Field.Spec

/-! ## Paths -/

theorem joined_cons2 (a b : Str) (r : List Str) :
    joined (a :: b :: r) = a ++ '.' :: joined (b :: r) := by
  simp [joined, List.intercalate, List.intersperse, List.flatten]

theorem joined_one (a : Str) : joined [a] = a := by
  simp [joined, List.intercalate, List.intersperse, List.flatten]

theorem dotted_eq (ks : List Str) : dotted ks = joined ks := by
  induction ks with
  | nil => rfl
  | cons a r ih =>
    cases r with
    | nil => rw [joined_one]; rfl
    | cons b r => rw [joined_cons2, ← ih]; rfl

theorem joined_snoc {ks : List Str} (h : ks ≠ []) (k : Str) :
    joined (ks ++ [k]) = joined ks ++ '.' :: k := by
  induction ks with
  | nil => exact absurd rfl h
  | cons a r ih =>
    cases r with
    | nil => simp [joined_cons2, joined_one]
    | cons b r =>
      have := ih (by simp)
      simp only [List.cons_append] at this ⊢
      rw [joined_cons2, this, joined_cons2]; simp

theorem sub_joined {ks : List Str} (h : ks ≠ []) (k : String) :
    sub (joined ks) k = joined (ks ++ [k.toList]) := by
  rw [joined_snoc h]; rfl

theorem dotted_joined {ks : List Str} (h : ks ≠ []) (k : Str) :
    dotted [joined ks, k] = joined (ks ++ [k]) := by
  rw [joined_snoc h]; rfl

theorem resources_dot : "resources.".toList = "resources".toList ++ ['.'] := by decide
theorem dot_spec : ".spec".toList = '.' :: "spec".toList := by decide
theorem dot_spec_dot : ".spec.".toList = '.' :: "spec".toList ++ ['.'] := by decide
theorem dot_metadata_dot : ".metadata.".toList = '.' :: "metadata".toList ++ ['.'] := by decide

theorem specPath_nil (name : Str) :
    specPath name [] = joined ["resources".toList, name, "spec".toList] := by
  unfold specPath
  rw [joined_cons2, joined_cons2, joined_one, resources_dot, dot_spec]
  generalize "resources".toList = a
  generalize "spec".toList = b
  simp

theorem specPath_one (name : Str) (k : Str) :
    specPath name [k] = joined (["resources".toList, name, "spec".toList] ++ [k]) := by
  unfold specPath
  simp only [List.cons_append, List.nil_append]
  rw [joined_cons2, joined_cons2, joined_cons2, joined_one, resources_dot, dot_spec_dot]
  generalize "resources".toList = a
  generalize "spec".toList = b
  simp [dotted]

theorem metaPath_one (name : Str) (k : Str) :
    metaPath name [k] = joined (["resources".toList, name, "metadata".toList] ++ [k]) := by
  unfold metaPath
  simp only [List.cons_append, List.nil_append]
  rw [joined_cons2, joined_cons2, joined_cons2, joined_one, resources_dot, dot_metadata_dot]
  generalize "resources".toList = a
  generalize "metadata".toList = b
  simp [dotted]

theorem metaPath_two (name : Str) (k k' : Str) :
    metaPath name [k, k'] =
      joined (["resources".toList, name, "metadata".toList] ++ [k] ++ [k']) := by
  unfold metaPath
  simp only [List.cons_append, List.nil_append]
  rw [joined_cons2, joined_cons2, joined_cons2, joined_cons2, joined_one, resources_dot,
    dot_metadata_dot]
  generalize "resources".toList = a
  generalize "metadata".toList = b
  simp [dotted]

/-! ## Functions of the environment -/

/-- What a function of the environment without paths does, in terms of the variables `ns`. -/
structure Good0 {A : Type} (ns : List Str) (f : Env → Res A) : Prop where
  same : ∀ env env', (∀ n ∈ ns, env (variableOf n) = env' (variableOf n)) → f env = f env'
  set : ∀ env a, f env = .ok a → ∀ n ∈ ns, env (variableOf n) ≠ none
  miss : ∀ env, f env = .err .missingVariable → ∃ n ∈ ns, env (variableOf n) = none

/-- An error that names a field. -/
def FaultOk (env : Env) (l : List Leaf) (e : Fault) : Prop :=
  (e.2 = none ∧ ∃ d, e.1 = .maxResolveDepthExceeded d) ∨
  ((∀ d, e.1 ≠ .maxResolveDepthExceeded d) ∧ ∃ x ∈ l, e.2 = some (joined x.1) ∧
    (e.1 = .missingVariable → ∃ n ∈ x.2, env (variableOf n) = none))

/-- What a function of the environment does, in terms of fields. -/
structure Good {A : Type} (l : List Leaf) (f : Env → PRes A) : Prop where
  same : ∀ env env', (∀ x ∈ l, ∀ n ∈ x.2, env (variableOf n) = env' (variableOf n)) → f env = f env'
  set : ∀ env a, f env = .ok a → ∀ x ∈ l, ∀ n ∈ x.2, env (variableOf n) ≠ none
  fault : ∀ env e, f env = .err e → FaultOk env l e

theorem FaultOk.mono {env : Env} {l l' : List Leaf} {e : Fault} (h : FaultOk env l e)
    (hl : ∀ x ∈ l, x ∈ l') : FaultOk env l' e := by
  rcases h with h | ⟨h1, x, hx, h2⟩
  · exact .inl h
  · exact .inr ⟨h1, x, hl x hx, h2⟩

section
variable {A B : Type}

theorem Good.of_eq {l l' : List Leaf} {f : Env → PRes A} (e : l = l') (h : Good l f) : Good l' f :=
  e ▸ h

theorem Good.pure {a : A} : Good [] (fun _ => (Pure.pure a : PRes A)) :=
  ⟨fun _ _ _ => rfl, fun _ _ _ x hx => by simp at hx, fun _ _ h => by cases h⟩

theorem Good.ok {a : A} : Good [] (fun _ => (.ok a : PRes A)) := Good.pure

theorem Good.bind {l l' : List Leaf} {f : Env → PRes A} {g : A → Env → PRes B} (hf : Good l f)
    (hg : ∀ a, Good l' (g a)) : Good (l ++ l') (fun env => f env >>= fun a => g a env) where
  same := by
    intro env env' h
    rw [hf.same env env' fun x hx => h x (by simp [hx])]
    cases f env' with
    | ok a => exact (hg a).same env env' fun x hx => h x (by simp [hx])
    | err e => rfl
    | panic => rfl
  set := by
    intro env b h x hx
    cases hfe : f env with
    | err e => rw [hfe] at h; cases h
    | panic => rw [hfe] at h; cases h
    | ok a =>
      rw [hfe] at h
      rcases List.mem_append.1 hx with hx | hx
      · exact hf.set env a hfe x hx
      · exact (hg a).set env b h x hx
  fault := by
    intro env e h
    cases hfe : f env with
    | err e' =>
      rw [hfe] at h; cases h
      exact (hf.fault env _ hfe).mono (by simp +contextual)
    | panic => rw [hfe] at h; cases h
    | ok a => rw [hfe] at h; exact ((hg a).fault env e h).mono (by simp +contextual)

theorem Good0.pure {a : A} : Good0 [] (fun _ => (Pure.pure a : Res A)) :=
  ⟨fun _ _ _ => rfl, fun _ _ _ x hx => by simp at hx, fun _ h => by cases h⟩

theorem Good0.of_eq {l l' : List Str} {f : Env → Res A} (e : l = l') (h : Good0 l f) :
    Good0 l' f := e ▸ h

theorem Good0.bind {l l' : List Str} {f : Env → Res A} {g : A → Env → Res B} (hf : Good0 l f)
    (hg : ∀ a, Good0 l' (g a)) : Good0 (l ++ l') (fun env => f env >>= fun a => g a env) where
  same := by
    intro env env' h
    rw [hf.same env env' fun x hx => h x (by simp [hx])]
    cases f env' with
    | ok a => exact (hg a).same env env' fun x hx => h x (by simp [hx])
    | err e => rfl
    | panic => rfl
  set := by
    intro env b h x hx
    cases hfe : f env with
    | err e => rw [hfe] at h; cases h
    | panic => rw [hfe] at h; cases h
    | ok a =>
      rw [hfe] at h
      rcases List.mem_append.1 hx with hx | hx
      · exact hf.set env a hfe x hx
      · exact (hg a).set env b h x hx
  miss := by
    intro env h
    cases hfe : f env with
    | err e' =>
      rw [hfe] at h; cases h
      obtain ⟨n, hn, h⟩ := hf.miss env hfe
      exact ⟨n, by simp [hn], h⟩
    | panic => rw [hfe] at h; cases h
    | ok a =>
      rw [hfe] at h
      obtain ⟨n, hn, h⟩ := (hg a).miss env h
      exact ⟨n, by simp [hn], h⟩

/-- A function followed by a test of its result. -/
theorem Good0.check {l : List Str} {f : Env → Res A} {g : A → Res B} (hf : Good0 l f)
    (hg : ∀ a, g a ≠ .err .missingVariable) : Good0 l (fun env => f env >>= g) :=
  .of_eq (List.append_nil l) (hf.bind (l' := []) (g := fun a _ => g a) fun a =>
    ⟨fun _ _ _ => rfl, fun _ _ _ x hx => by simp at hx, fun _ h => absurd h (hg a)⟩)

theorem Good.at {ks : List Str} {ns : List Str} {f : Env → Res A} {field : Str} (h : Good0 ns f)
    (hk : field = joined ks) : Good [(ks, ns)] (fun env => atField field (f env)) where
  same := by
    intro env env' he
    rw [h.same env env' (he (ks, ns) (by simp))]
  set := by
    intro env a he x hx
    simp only [List.mem_singleton] at hx
    subst hx
    cases hfe : f env with
    | ok a => exact h.set env a hfe
    | err e => rw [hfe] at he; cases he
    | panic => rw [hfe] at he; cases he
  fault := by
    intro env e he
    cases hfe : f env with
    | ok a => rw [hfe] at he; cases he
    | panic => rw [hfe] at he; cases he
    | err e' =>
      rw [hfe] at he
      cases he
      cases e' <;> first
        | exact .inl ⟨rfl, _, rfl⟩
        | exact .inr ⟨fun _ => nofun, _, List.mem_singleton.2 rfl, by simp [withField, hk],
            fun hm => by first | (cases hm; done) | exact h.miss env hfe⟩

/-! ## Single values -/

theorem good_subst {T : Type} (parse : Str → Option T) (r : VarRef) :
    Good0 [r.name] (fun env => resolveSubstitution parse env r) where
  same := by
    intro env env' h
    have := h r.name (by simp)
    show resolveSubstitution parse env r = resolveSubstitution parse env' r
    unfold resolveSubstitution
    rw [show env (envVarName r.name) = env' (envVarName r.name) from this]
  set := by
    intro env a h n hn
    simp only [List.mem_singleton] at hn
    subst hn
    intro hv
    simp only [resolveSubstitution, show env (envVarName r.name) = none from hv] at h
    cases h
  miss := by
    intro env h
    refine ⟨r.name, by simp, ?_⟩
    show env (envVarName r.name) = none
    simp only [resolveSubstitution] at h
    cases hv : env (envVarName r.name) with
    | none => rfl
    | some v =>
      rw [hv] at h
      dsimp only at h
      cases hp : parse v <;> rw [hp] at h <;> cases h

theorem good_piece (p : Piece) : Good0 (refs [p]) (fun env => resolvePiece env p) := by
  cases p with
  | str s => exact Good0.pure
  | sub r => exact good_subst some r

theorem refs_cons (p : Piece) (s : Sos) : refs (p :: s) = refs [p] ++ refs s := by
  cases p <;> simp [refs]

theorem good_toString (s : Sos) : ∀ acc, Good0 (refs s) (fun env => resolveToString env acc s) := by
  induction s with
  | nil => intro acc; exact Good0.pure
  | cons p s ih =>
    intro acc
    rw [refs_cons]
    exact (good_piece p).bind fun t => ih (acc ++ t)

theorem good_str (s : Sos) : Good0 (refs s) (fun env => resStr env s) := good_toString s []

theorem good_scalar {F : Type} (parseF : Str → Option F) (s : Sos) :
    Good0 (refs s) (fun env => resolveScalar parseF env s) := by
  match s with
  | [] => exact ⟨fun _ _ _ => rfl, fun _ _ h => (by cases h), fun _ h => (by cases h)⟩
  | [.str t] => exact Good0.pure
  | p :: q :: s =>
    have : (fun env => resolveScalar parseF env (p :: q :: s)) =
        fun env => resolveToString env [] (p :: q :: s) >>= fun t => Pure.pure (.str t) := by
      funext env; cases p <;> rfl
    rw [this]
    exact (good_toString _ []).check fun _ => nofun
  | [.sub r] =>
    constructor
    · intro env env' h
      have h' : ∀ n ∈ [r.name], env (variableOf n) = env' (variableOf n) := h
      simp only [resolveScalar]
      rw [(good_subst parseI64 r).same _ _ h', (good_subst parseF r).same _ _ h',
        (good_subst parseBool r).same _ _ h', (good_subst some r).same _ _ h']
    · intro env a h n hn hv
      have hn : n = r.name := by simpa [refs] using hn
      subst hn
      have hv : env (envVarName r.name) = none := hv
      simp [resolveScalar, resolveSubstitution, hv] at h
    · intro env h
      refine ⟨r.name, by simp [refs], ?_⟩
      show env (envVarName r.name) = none
      cases hv : env (envVarName r.name) with
      | none => rfl
      | some v =>
        simp only [resolveScalar, resolveSubstitution, hv] at h
        cases h1 : parseI64 v <;> rw [h1] at h <;> dsimp only at h <;> try (cases h; done)
        cases h2 : parseF v <;> rw [h2] at h <;> dsimp only at h <;> try (cases h; done)
        cases h3 : parseBool v <;> rw [h3] at h <;> dsimp only at h <;> cases h

theorem good_guard {A : Type} {ns : List Str} {f : Env → Res A} (d : Nat) (h : Good0 ns f) :
    Good0 ns (fun env => if d > maxResolveDepth then .err (.maxResolveDepthExceeded d) else f env) := by
  by_cases hd : d > maxResolveDepth
  · simp only [hd, if_true]
    exact ⟨fun _ _ _ => rfl, fun _ _ h => (by cases h), fun _ h => (by cases h)⟩
  · simp only [hd, if_false]; exact h

mutual
theorem good_node {F : Type} (parseF : Str → Option F) (n : Node F) :
    ∀ d, Good0 (nodeRefs n) (fun env => resolveNode parseF env d n) := by
  intro d
  cases n with
  | scalar s => simp only [resolveNode, nodeRefs]; exact good_guard d Good0.pure
  | null => simp only [resolveNode, nodeRefs]; exact good_guard d Good0.pure
  | subst v =>
    simp only [resolveNode, nodeRefs]
    exact good_guard d ((good_scalar parseF v).check fun _ => nofun)
  | mapping m =>
    simp only [resolveNode, nodeRefs]
    exact good_guard d ((good_entries parseF m (d + 1)).check fun _ => nofun)
  | sequence l =>
    simp only [resolveNode, nodeRefs]
    exact good_guard d ((good_list parseF l (d + 1)).check fun _ => nofun)
theorem good_entries {F : Type} (parseF : Str → Option F) (m : List (Str × Node F)) :
    ∀ d, Good0 (entriesRefs m) (fun env => resolveEntries parseF env d m) := by
  intro d
  match m with
  | [] => simp only [resolveEntries, entriesRefs]; exact Good0.pure
  | (k, v) :: rest =>
    simp only [resolveEntries, entriesRefs]
    exact (good_node parseF v d).bind fun _ => (good_entries parseF rest d).check fun _ => nofun
theorem good_list {F : Type} (parseF : Str → Option F) (l : List (Node F)) :
    ∀ d, Good0 (listRefs l) (fun env => resolveList parseF env d l) := by
  intro d
  match l with
  | [] => simp only [resolveList, listRefs]; exact Good0.pure
  | v :: rest =>
    simp only [resolveList, listRefs]
    exact (good_node parseF v d).bind fun _ => (good_list parseF rest d).check fun _ => nofun
end

theorem good_nodeScalar {F : Type} (parseF : Str → Option F) (n : Node F) :
    Good0 (scalarRefs n) (fun env => resolveNodeToScalar parseF env n) := by
  cases n with
  | scalar s => exact Good0.pure
  | subst v => exact good_scalar parseF v
  | mapping m => exact ⟨fun _ _ _ => rfl, fun _ _ h => (by cases h), fun _ h => (by cases h)⟩
  | sequence m => exact ⟨fun _ _ _ => rfl, fun _ _ h => (by cases h), fun _ h => (by cases h)⟩
  | null => exact ⟨fun _ _ _ => rfl, fun _ _ h => (by cases h), fun _ h => (by cases h)⟩

theorem good0_opt {l : A → List Str} {f : A → Env → Res B} (h : ∀ a, Good0 (l a) (f a))
    (o : Option A) : Good0 ((o.map l).getD []) (fun env => optM (fun a => f a env) o) := by
  cases o with
  | none => exact Good0.pure
  | some a => exact (h a).check fun _ => nofun

theorem good0_list {l : A → List Str} {f : A → Env → Res B} (h : ∀ a, Good0 (l a) (f a))
    (as : List A) : Good0 (as.flatMap l) (fun env => listM (fun a => f a env) as) := by
  induction as with
  | nil => exact Good0.pure
  | cons a as ih =>
    rw [List.flatMap_cons]
    exact (h a).bind fun _ => ih.check fun _ => nofun

variable {F : Type} (cx : Ctx F)

theorem good_optStr (s : Option Sos) :
    Good0 ((s.map refs).getD []) (fun env => resOptStr env s) := good0_opt good_str s

theorem good_strs (s : List Sos) : Good0 (s.flatMap refs) (fun env => resStrs env s) :=
  good0_list good_str s

theorem good_optStrs (s : Option (List Sos)) :
    Good0 ((s.getD []).flatMap refs) (fun env => optM (resStrs env) s) := by
  cases s with
  | none => exact Good0.pure
  | some a => exact (good_strs a).check fun _ => nofun

theorem good_int (n : Option (Node F)) :
    Good0 ((n.map scalarRefs).getD []) (fun env => resInt cx env n) := by
  cases n with
  | none => exact Good0.pure
  | some n => exact (good_nodeScalar cx.parseF n).check fun a => by cases a <;> nofun

theorem good_bool (n : Option (Node F)) :
    Good0 ((n.map scalarRefs).getD []) (fun env => resBool cx env n) := by
  cases n with
  | none => exact Good0.pure
  | some n => exact (good_nodeScalar cx.parseF n).check fun a => by cases a <;> nofun

theorem good_float (n : Option (Node F)) :
    Good0 ((n.map scalarRefs).getD []) (fun env => resFloat cx env n) := by
  cases n with
  | none => exact Good0.pure
  | some n => exact (good_nodeScalar cx.parseF n).check fun a => by cases a <;> nofun

theorem good_nodeStr (n : Node F) : Good0 (scalarRefs n) (fun env => resNodeStr cx env n) :=
  (good_nodeScalar cx.parseF n).check fun a => by cases a <;> nofun

theorem good_objEvent (s : Sos) : Good0 (refs s) (fun env => resObjEvent env s) :=
  (good_str s).check fun a => by (repeat' split) <;> nofun

theorem good_secPolicy (s : Sos) : Good0 (refs s) (fun env => resSecPolicy env s) :=
  (good_str s).check fun a => by (repeat' split) <;> nofun

theorem good_guardType (s : Sos) : Good0 (refs s) (fun env => resGuardType env s) :=
  (good_str s).check fun a => by (repeat' split) <;> nofun

theorem good_stateType (s : Sos) : Good0 (refs s) (fun env => resStateType env s) :=
  (good_str s).check fun _ => nofun

theorem wsAuth_miss (t : Str) : wsAuthOfName t ≠ .err .missingVariable := by
  unfold wsAuthOfName; (repeat' split) <;> nofun

theorem protocol_miss (t : Str) : protocolOfName t ≠ .err .missingVariable := by
  unfold protocolOfName; (repeat' split) <;> nofun

theorem good0_const {r : Res A} (h : r ≠ .err .missingVariable) : Good0 [] (fun _ => r) :=
  ⟨fun _ _ _ => rfl, fun _ _ _ x hx => by simp at hx, fun _ hm => absurd hm h⟩

theorem good_wsAuth (n : Node F) : Good0 (scalarRefs n) (fun env => resWsAuth env n) := by
  match n with
  | .scalar (.str s) => exact good0_const (wsAuth_miss s)
  | .scalar (.int s) => exact good0_const nofun
  | .scalar (.float s) => exact good0_const nofun
  | .scalar (.bool s) => exact good0_const nofun
  | .mapping m => exact good0_const nofun
  | .sequence m => exact good0_const nofun
  | .null => exact good0_const nofun
  | .subst v => exact (good_str v).check wsAuth_miss

theorem good_template (m : Option (List (Str × Node F))) :
    Good0 (entriesRefs (m.getD [])) (fun env => optM (resTemplate cx env) m) := by
  cases m with
  | none => simp only [Option.getD, entriesRefs]; exact Good0.pure
  | some m => exact (good_entries cx.parseF m 1).check fun _ => nofun

theorem good_inputs (l : List (Node F)) :
    Good0 (listRefs l) (fun env => listM (resolveNode cx.parseF env 4) l) := by
  induction l with
  | nil => simp only [listRefs]; exact Good0.pure
  | cons a l ih =>
    simp only [listRefs]
    exact (good_node cx.parseF a 4).bind fun _ => ih.check fun _ => nofun

/-! ## Containers -/

theorem good_opt {l : A → List Leaf} {f : A → Env → PRes B} (h : ∀ a, Good (l a) (f a))
    (o : Option A) : Good ((o.map l).getD []) (fun env => pOpt (fun a => f a env) o) := by
  cases o with
  | none => exact Good.pure
  | some a => exact .of_eq (List.append_nil _) ((h a).bind fun _ => Good.pure)

theorem good_plist {l : A → List Leaf} {f : A → Env → PRes B} (h : ∀ a, Good (l a) (f a))
    (as : List A) : Good (as.flatMap l) (fun env => pList (fun a => f a env) as) := by
  induction as with
  | nil => exact Good.pure
  | cons a as ih =>
    rw [List.flatMap_cons]
    exact .of_eq (by simp) ((h a).bind fun _ => ih.bind fun _ => Good.pure)

theorem good_pmap {l : Str → A → List Leaf} {f : Str → A → Env → PRes B}
    (h : ∀ k a, Good (l k a) (f k a)) (as : List (Str × A)) :
    Good (as.flatMap fun e => l e.1 e.2) (fun env => pMap (fun k a => f k a env) as) := by
  induction as with
  | nil => exact Good.pure
  | cons a as ih =>
    rw [List.flatMap_cons]
    exact .of_eq (by simp) ((h a.1 a.2).bind fun _ => ih.bind fun _ => Good.pure)

theorem good_optList {l : A → List Leaf} {f : A → Env → PRes B} (h : ∀ a, Good (l a) (f a))
    (o : Option (List A)) :
    Good ((o.getD []).flatMap l) (fun env => pOpt (pList fun a => f a env) o) := by
  cases o with
  | none => exact Good.pure
  | some a => exact .of_eq (List.append_nil _) ((good_plist h a).bind fun _ => Good.pure)

theorem good_optMap {l : Str → A → List Leaf} {f : Str → A → Env → PRes B}
    (h : ∀ k a, Good (l k a) (f k a)) (o : Option (List (Str × A))) :
    Good ((o.getD []).flatMap fun e => l e.1 e.2) (fun env => pOpt (pMap fun k a => f k a env) o) := by
  cases o with
  | none => exact Good.pure
  | some a => exact .of_eq (List.append_nil _) ((good_pmap h a).bind fun _ => Good.pure)

theorem Good.parseErr {ks : List Str} {l : List Leaf} (hl : (ks, []) ∈ l) :
    Good l (fun _ => (.err (.parseError, some (joined ks)) : PRes A)) :=
  ⟨fun _ _ _ => rfl, fun _ _ h => (by cases h), fun _ _ h => by
    cases h; exact .inr ⟨nofun, _, hl, rfl, nofun⟩⟩

end

/-! ## Fields -/

section
variable {F : Type} (cx : Ctx F) {ks : List Str} {k : String} {field : Str}

theorem f_text (h : field = joined (ks ++ [k.toList])) {s : Sos} :
    Good (text ks k s) (fun env => atField field (resStr env s)) := .at (good_str s) h

theorem f_optText (h : field = joined (ks ++ [k.toList])) {s : Option Sos} :
    Good (optText ks k s) (fun env => atField field (resOptStr env s)) := .at (good_optStr s) h

theorem f_texts (h : field = joined (ks ++ [k.toList])) {s : List Sos} :
    Good (texts ks k s) (fun env => atField field (resStrs env s)) := .at (good_strs s) h

theorem f_optTexts (h : field = joined (ks ++ [k.toList])) {s : Option (List Sos)} :
    Good (optTexts ks k s) (fun env => atField field (optM (resStrs env) s)) :=
  .at (good_optStrs s) h

theorem f_int (h : field = joined (ks ++ [k.toList])) {s : Option (Node F)} :
    Good (single ks k s) (fun env => atField field (resInt cx env s)) := .at (good_int cx s) h

theorem f_bool (h : field = joined (ks ++ [k.toList])) {s : Option (Node F)} :
    Good (single ks k s) (fun env => atField field (resBool cx env s)) := .at (good_bool cx s) h

theorem f_float (h : field = joined (ks ++ [k.toList])) {s : Option (Node F)} :
    Good (single ks k s) (fun env => atField field (resFloat cx env s)) := .at (good_float cx s) h

theorem map_eq_flatMap {A B : Type} (f : A → B) (l : List A) :
    l.map f = l.flatMap fun a => [f a] := by induction l <;> simp_all

theorem f_textMap (h : field = joined (ks ++ [k.toList])) {s : Option (List (Str × Sos))} :
    Good (textMap ks k s) (fun env => atStrMap env field s) := by
  unfold textMap
  rw [map_eq_flatMap, h]
  exact good_optMap (l := fun k' s => [(ks ++ [k.toList] ++ [k'], refs s)]) (fun k' s =>
    .at (good_str s) (dotted_joined (by simp) k')) s

theorem g_shared (hk : ks ≠ []) (s : Shared Sos (Node F) (Node F)) :
    Good (ofShared ks s) (fun env => atShared cx env (joined ks) s) :=
  have h := fun k => sub_joined hk k
  .of_eq (by simp [ofShared]) <|
    (f_optText (h _)).bind fun _ => (f_optText (h _)).bind fun _ => (f_int cx (h _)).bind fun _ =>
    (f_int cx (h _)).bind fun _ => (f_bool cx (h _)).bind fun _ => (f_textMap (h _)).bind fun _ =>
    .pure

theorem g_handler (name : Str) (s : HandlerSpec Sos (Node F) (Node F)) :
    Good (ofHandler ["resources".toList, name, "spec".toList] s)
      (fun env => atHandler cx env name s) :=
  have h := fun k : String => specPath_one name k.toList
  .of_eq (by simp only [ofHandler, List.append_assoc, List.append_nil]) <|
    (f_optText (h _)).bind fun _ => (f_optText (h _)).bind fun _ => (f_text (h _)).bind fun _ =>
    (f_optText (h _)).bind fun _ => (f_int cx (h _)).bind fun _ => (f_int cx (h _)).bind fun _ =>
    (f_bool cx (h _)).bind fun _ => (f_textMap (h _)).bind fun _ => .pure

theorem g_stream (hk : ks ≠ []) (s : Stream Sos (Node F) (Node F)) :
    Good (ofStream ks k s) (fun env => atStream cx env (joined ks) k s) :=
  have h := fun k => sub_joined hk k
  .of_eq (by simp [ofStream]) <|
    (f_int cx (h _)).bind fun _ => (f_text (h _)).bind fun _ => (f_bool cx (h _)).bind fun _ =>
    (f_bool cx (h _)).bind fun _ => .pure

theorem g_evConfig (hk : ks ≠ []) (s : EvConfig Sos (Node F) (Node F) Sos) :
    Good (ofEvConfig ks s) (fun env => atEvConfig cx env (joined ks) s) := by
  have h := fun k => sub_joined hk k
  cases s with
  | objectStorage b e =>
    exact .of_eq (by simp [ofEvConfig, texts]) <|
      (f_text (h _)).bind fun _ => (Good.at (good0_list good_objEvent e) (h _)).bind fun _ => .pure
  | dbStream c => exact .of_eq (by simp [ofEvConfig]) <| (g_stream cx hk c).bind fun _ => .pure
  | dataStream c => exact .of_eq (by simp [ofEvConfig]) <| (g_stream cx hk c).bind fun _ => .pure

theorem g_event (hk : ks ≠ []) (s : ExternalEvent Sos (Node F) (Node F) Sos) :
    Good (ofEvent ks s) (fun env => atEvent cx env (joined ks) s) := by
  unfold atEvent
  rw [sub_joined hk]
  exact .of_eq (by simp [ofEvent]) <| (g_evConfig cx (by simp) s.config).bind fun _ => .pure

theorem g_consumer (name : Str) (s : ConsumerSpec Sos (Node F) (Node F) Sos) :
    Good (ofConsumer ["resources".toList, name, "spec".toList] s)
      (fun env => atConsumer cx env name s) := by
  have h := fun k : String => specPath_one name k.toList
  have he : Good ((s.externalEvents.getD []).flatMap (fun e => ofEvent
        (["resources".toList, name, "spec".toList] ++ ["externalEvents".toList] ++ [e.1]) e.2))
      (fun env => pOpt (pMap fun k e =>
        atEvent cx env (dotted [specPath name ["externalEvents".toList], k]) e) s.externalEvents) :=
    good_optMap (l := fun k e => ofEvent
      (["resources".toList, name, "spec".toList] ++ ["externalEvents".toList] ++ [k]) e)
      (f := fun k e env => atEvent cx env (dotted [specPath name ["externalEvents".toList], k]) e)
      (fun k e => by
      rw [h, dotted_joined (by simp)]
      exact g_event cx (by simp) e) s.externalEvents
  exact .of_eq (by simp only [ofConsumer, List.append_assoc, List.append_nil]) <|
    (f_optText (h _)).bind fun _ => (f_int cx (h _)).bind fun _ => (f_int cx (h _)).bind fun _ =>
    (f_int cx (h _)).bind fun _ => (f_bool cx (h _)).bind fun _ => (f_optText (h _)).bind fun _ =>
    he.bind fun _ => .pure

theorem g_configSpec (name : Str) (s : ConfigSpec Sos) :
    Good (ofConfigSpec ["resources".toList, name, "spec".toList] s)
      (fun env => atConfigSpec env name s) :=
  have h := fun k : String => specPath_one name k.toList
  .of_eq (by simp only [ofConfigSpec, List.append_nil]) <|
    (f_optText (h _)).bind fun _ => (f_optTexts (h _)).bind fun _ => .pure

theorem g_topic (name : Str) (s : TopicSpec Sos (Node F)) :
    Good (ofTopic ["resources".toList, name, "spec".toList] s) (fun env => atTopic cx env name s) :=
  have h := fun k : String => specPath_one name k.toList
  .of_eq (by simp only [ofTopic, List.append_nil]) <|
    (f_optText (h _)).bind fun _ => (f_bool cx (h _)).bind fun _ => .pure

theorem g_queue (name : Str) (s : QueueSpec Sos (Node F) (Node F)) :
    Good (ofQueue ["resources".toList, name, "spec".toList] s) (fun env => atQueue cx env name s) :=
  have h := fun k : String => specPath_one name k.toList
  .of_eq (by simp only [ofQueue, List.append_assoc, List.append_nil]) <|
    (f_optText (h _)).bind fun _ => (f_bool cx (h _)).bind fun _ => (f_int cx (h _)).bind fun _ =>
    .pure

/-! ## API -/

theorem get?_eq_lookup {A : Type} (m : List (Str × A)) (k : Str) : get? m k = m.lookup k := by
  induction m with
  | nil => rfl
  | cons e m ih =>
    obtain ⟨a, b⟩ := e
    by_cases h : a = k
    · subst h; simp [get?, List.lookup]
    · have h' : (k == a) = false := by simpa using fun e => h e.symm
      simp only [get?, List.find?_cons, decide_eq_false h, List.lookup, h']
      exact ih

/-- Fields without references may be added. -/
theorem Good.more {A : Type} {l l' : List Leaf} {f : Env → PRes A} (h : Good l f)
    (hs : ∀ x ∈ l, x ∈ l') (he : ∀ x ∈ l', x ∈ l ∨ x.2 = []) : Good l' f where
  same := fun env env' hn => h.same env env' fun x hx => hn x (hs x hx)
  set := by
    intro env a ha x hx n hn
    rcases he x hx with hx | hx
    · exact h.set env a ha x hx n hn
    · simp [hx] at hn
  fault := fun env e h' => (h.fault env e h').mono hs

theorem g_wsConfig (hk : ks ≠ []) (n : Node F) :
    Good ((ks, []) :: (single ks "routeKey" (valueOf n "routeKey") ++
      single ks "authStrategy" (valueOf n "authStrategy")))
      (fun env => atWsConfig cx env (joined ks) n) := by
  have h := fun k => sub_joined hk k
  cases n with
  | mapping m =>
    have e1 := get?_eq_lookup m "routeKey".toList
    have e2 := get?_eq_lookup m "authStrategy".toList
    simp only [atWsConfig, e1, e2, valueOf]
    refine Good.more (l := single ks "routeKey" (m.lookup "routeKey".toList) ++
      single ks "authStrategy" (m.lookup "authStrategy".toList)) ?_ (by simp +contextual) ?_
    · exact .of_eq (by simp [single]) <|
        (Good.at (good0_opt (good_nodeStr cx) _) (h _)).bind fun _ =>
        (Good.at (good0_opt good_wsAuth _) (h _)).bind fun _ => .pure
    · intro x hx
      rcases List.mem_cons.1 hx with rfl | hx
      · exact .inr rfl
      · exact .inl hx
  | scalar s => exact Good.parseErr (by simp)
  | sequence s => exact Good.parseErr (by simp)
  | subst s => exact Good.parseErr (by simp)
  | null => exact Good.parseErr (by simp)

theorem g_protocol (hk : ks ≠ []) (n : Node F) :
    Good (ofProtocol ks n) (fun env => atProtocol cx env (joined ks) n) := by
  match n with
  | .scalar (.str s) => exact Good.at (good0_const (protocol_miss s)) rfl
  | .subst v => exact Good.at ((good_str v).check protocol_miss) rfl
  | .scalar (.int s) => exact Good.parseErr (by simp [ofProtocol, scalarRefs])
  | .scalar (.float s) => exact Good.parseErr (by simp [ofProtocol, scalarRefs])
  | .scalar (.bool s) => exact Good.parseErr (by simp [ofProtocol, scalarRefs])
  | .sequence s => exact Good.parseErr (by simp [ofProtocol, scalarRefs])
  | .null => exact Good.parseErr (by simp [ofProtocol, scalarRefs])
  | .mapping m =>
    have e1 := get?_eq_lookup m "websocketConfig".toList
    simp only [atProtocol, e1, ofProtocol, valueOf]
    cases m.lookup "websocketConfig".toList with
    | none => exact Good.parseErr (by simp [scalarRefs])
    | some c =>
      rw [sub_joined hk]
      refine (g_wsConfig cx (by simp) c).more (fun x hx => List.mem_cons_of_mem _ hx) ?_
      intro x hx
      rcases List.mem_cons.1 hx with rfl | hx
      · exact .inr rfl
      · exact .inl hx

theorem g_cors (hk : ks ≠ []) (s : Cors Sos (Node F) (Node F)) :
    Good (ofCors ks s) (fun env => atCors cx env (joined ks) s) := by
  have h := fun k => sub_joined hk k
  cases s with
  | str s => exact .of_eq (by simp [ofCors]) <| (Good.at (good_str s) rfl).bind fun _ => .pure
  | config c =>
    have : Good (ofCors ks (.config c)) (fun env => atCorsConfig cx env (joined ks) c) :=
      .of_eq (by simp [ofCors]) <|
        (f_bool cx (h _)).bind fun _ => (f_optTexts (h _)).bind fun _ =>
        (f_optTexts (h _)).bind fun _ => (f_optTexts (h _)).bind fun _ =>
        (f_optTexts (h _)).bind fun _ => (f_int cx (h _)).bind fun _ => .pure
    exact .of_eq (by simp) <| this.bind fun _ => .pure

theorem g_strOrConfig (hk : ks ≠ []) (s : StrOrConfig Sos (Node F)) :
    Good (ofStrOrConfig ks k s) (fun env => atStrOrConfig cx env (joined ks) k s) := by
  cases s with
  | str s => exact .of_eq (by simp [ofStrOrConfig]) <| (Good.at (good_str s) rfl).bind fun _ => .pure
  | config c =>
    simp only [atStrOrConfig, sub_joined hk "protocol"]
    exact .of_eq (by simp [ofStrOrConfig]) <| (g_protocol cx (by simp) c.protocol).bind fun _ =>
      (f_text (sub_joined hk k)).bind fun _ => .pure

/-- The names in the errors. -/
def reported : Naming where
  schedule := "scheduleName"
  domainName := "domain_name"
  guard := fun _ => []
  guardType := []
  condition := []

theorem g_domain (hk : ks ≠ []) (s : Domain Sos (Node F) (Node F) Sos) :
    Good (ofDomain reported ks s) (fun env => atDomain cx env (joined ks) s) := by
  have h := fun k => sub_joined hk k
  have hb : Good (s.basePaths.flatMap (ofStrOrConfig (ks ++ ["basePaths".toList]) "basePath"))
      (fun env => pList (atStrOrConfig cx env (sub (joined ks) "basePaths") "basePath")
        s.basePaths) :=
    good_plist (fun a => by rw [h]; exact g_strOrConfig cx (by simp) a) _
  exact .of_eq (by simp only [ofDomain, List.append_assoc, List.append_nil, reported]; rfl) <|
    (f_text (h _)).bind fun _ => hb.bind fun _ => (f_bool cx (h _)).bind fun _ =>
    (f_text (h _)).bind fun _ => (Good.at (good0_opt good_secPolicy s.securityPolicy) (h _)).bind
    fun _ => .pure

theorem g_guard (hk : ks ≠ []) (s : Guard Sos (Node F) Sos) :
    Good (ofGuard reported ks s) (fun env => atGuard cx env (joined ks) s) := by
  have h := fun k => sub_joined hk k
  have ht : Good ((s.tokenSource.map (ofStrOrConfig (ks ++ ["tokenSource".toList]) "source")).getD [])
      (fun env => pOpt (atStrOrConfig cx env (sub (joined ks) "tokenSource") "source")
        s.tokenSource) :=
    good_opt (fun a => by rw [h]; exact g_strOrConfig cx (by simp) a) _
  exact .of_eq (by simp only [ofGuard, List.append_assoc, List.append_nil, reported]) <|
    (Good.at (good_guardType s.guardType) rfl).bind fun _ => (f_optText (h _)).bind fun _ =>
    ht.bind fun _ => (f_optTexts (h _)).bind fun _ => .pure

theorem g_auth (hk : ks ≠ []) (s : Auth Sos (Node F) Sos) :
    Good (ofAuth reported ks s) (fun env => atAuth cx env (joined ks) s) := by
  have h := fun k => sub_joined hk k
  have hg : Good (s.guards.flatMap fun e => ofGuard reported (ks ++ ["guards".toList] ++
        reported.guard e.1) e.2)
      (fun env => pMap (fun _ g => atGuard cx env (sub (joined ks) "guards") g) s.guards) :=
    good_pmap (l := fun n e => ofGuard reported (ks ++ ["guards".toList] ++ reported.guard n) e)
      (fun _ g => by
        rw [h]
        simp only [reported, List.append_nil]
        exact g_guard cx (by simp) g) _
  exact .of_eq (by simp only [ofAuth, List.append_nil]) <|
    (f_optText (h _)).bind fun _ => hg.bind fun _ => .pure

theorem g_api (name : Str) (s : ApiSpec Sos (Node F) (Node F) (Node F) Sos Sos) :
    Good (ofApi reported ["resources".toList, name, "spec".toList] s)
      (fun env => atApi cx env name s) := by
  have h := fun k : String => specPath_one name k.toList
  generalize hR : ["resources".toList, name, "spec".toList] = R at h
  have hp : Good (s.protocols.flatMap (ofProtocol (R ++ ["protocols".toList])))
      (fun env => pList (atProtocol cx env (specPath name ["protocols".toList])) s.protocols) :=
    good_plist (fun a => by rw [h]; exact g_protocol cx (by simp) a) _
  have hc : Good ((s.cors.map (ofCors (R ++ ["cors".toList]))).getD [])
      (fun env => pOpt (atCors cx env (specPath name ["cors".toList])) s.cors) :=
    good_opt (fun a => by rw [h]; exact g_cors cx (by simp) a) _
  have hd : Good ((s.domain.map (ofDomain reported (R ++ ["domain".toList]))).getD [])
      (fun env => pOpt (atDomain cx env (specPath name ["domain".toList])) s.domain) :=
    good_opt (fun a => by rw [h]; exact g_domain cx (by simp) a) _
  have ha : Good ((s.auth.map (ofAuth reported (R ++ ["auth".toList]))).getD [])
      (fun env => pOpt (atAuth cx env (specPath name ["auth".toList])) s.auth) :=
    good_opt (fun a => by rw [h]; exact g_auth cx (by simp) a) _
  exact .of_eq (by simp only [ofApi, List.append_assoc, List.append_nil]) <|
    hp.bind fun _ => hc.bind fun _ => hd.bind fun _ => ha.bind fun _ => (f_bool cx (h _)).bind
    fun _ => .pure

/-! ## Workflow -/

theorem g_cond (hk : ks ≠ []) (s : Cond Sos (Node F)) :
    Good (ofCond ks s) (fun env => atCond cx env (joined ks) s) := by
  have h := fun k => sub_joined hk k
  exact .of_eq (by simp only [ofCond, List.append_nil]) <|
    (Good.at (good_inputs cx s.inputs) (h _)).bind fun _ => (f_text (h _)).bind fun _ => .pure

theorem g_rule (hk : ks ≠ []) (s : Rule Sos (Node F)) :
    Good (ofRule reported ks s) (fun env => atRule cx env (joined ks) s) := by
  have h := fun k => sub_joined hk k
  have hc : Good ((s.condition.map (ofCond (ks ++ reported.condition))).getD [])
      (fun env => pOpt (atCond cx env (joined ks)) s.condition) := by
    simp only [reported, List.append_nil]
    exact good_opt (fun a => g_cond cx hk a) _
  have ha : Good ((s.and.getD []).flatMap (ofCond (ks ++ ["and".toList])))
      (fun env => pOpt (pList (atCond cx env (sub (joined ks) "and"))) s.and) :=
    good_optList (fun a => by rw [h]; exact g_cond cx (by simp) a) _
  have ho : Good ((s.or.getD []).flatMap (ofCond (ks ++ ["or".toList])))
      (fun env => pOpt (pList (atCond cx env (sub (joined ks) "or"))) s.or) :=
    good_optList (fun a => by rw [h]; exact g_cond cx (by simp) a) _
  have hn : Good ((s.not.map (ofCond (ks ++ ["not".toList]))).getD [])
      (fun env => pOpt (atCond cx env (sub (joined ks) "not")) s.not) :=
    good_opt (fun a => by rw [h]; exact g_cond cx (by simp) a) _
  exact .of_eq (by simp only [ofRule, List.append_assoc, List.append_nil]) <|
    hc.bind fun _ => ha.bind fun _ => ho.bind fun _ => hn.bind fun _ => (f_text (h _)).bind
    fun _ => .pure

theorem g_wait (hk : ks ≠ []) (s : WaitConfig Sos) :
    Good (ofWait ks s) (fun env => atWait env (joined ks) s) := by
  have h := fun k => sub_joined hk k
  exact .of_eq (by simp only [ofWait, List.append_nil]) <|
    (f_optText (h _)).bind fun _ => (f_optText (h _)).bind fun _ => .pure

theorem g_failure (hk : ks ≠ []) (s : FailureConfig Sos) :
    Good (ofFailure ks s) (fun env => atFailure env (joined ks) s) := by
  have h := fun k => sub_joined hk k
  exact .of_eq (by simp only [ofFailure, List.append_nil]) <|
    (f_optText (h _)).bind fun _ => (f_optText (h _)).bind fun _ => .pure

theorem g_retry (hk : ks ≠ []) (s : Retry Sos (Node F) (Node F) (Node F)) :
    Good (ofRetry ks s) (fun env => atRetry cx env (joined ks) s) := by
  have h := fun k => sub_joined hk k
  exact .of_eq (by simp only [ofRetry, List.append_assoc, List.append_nil]) <|
    (f_texts (h _)).bind fun _ => (f_int cx (h _)).bind fun _ => (f_int cx (h _)).bind fun _ =>
    (f_int cx (h _)).bind fun _ => (f_bool cx (h _)).bind fun _ => (f_float cx (h _)).bind fun _ =>
    .pure

theorem g_catch (hk : ks ≠ []) (s : Catch Sos) :
    Good (ofCatch ks s) (fun env => atCatch env (joined ks) s) := by
  have h := fun k => sub_joined hk k
  exact .of_eq (by simp only [ofCatch, List.append_assoc, List.append_nil]) <|
    (f_texts (h _)).bind fun _ => (f_text (h _)).bind fun _ => (f_optText (h _)).bind fun _ => .pure

theorem g_stateFields (hk : ks ≠ []) (s : RawFields F) :
    Good (ofStateFields reported ks s) (fun env => atStateFields cx env (joined ks) s) := by
  have h := fun k => sub_joined hk k
  have hd : Good ((s.decisions.getD []).flatMap (ofRule reported (ks ++ ["decisions".toList])))
      (fun env => pOpt (pList (atRule cx env (sub (joined ks) "decisions"))) s.decisions) :=
    good_optList (fun a => by rw [h]; exact g_rule cx (by simp) a) _
  have hw : Good ((s.waitConfig.map (ofWait (ks ++ ["waitConfig".toList]))).getD [])
      (fun env => pOpt (atWait env (sub (joined ks) "waitConfig")) s.waitConfig) :=
    good_opt (fun a => by rw [h]; exact g_wait (by simp) a) _
  have hf : Good ((s.failureConfig.map (ofFailure (ks ++ ["failureConfig".toList]))).getD [])
      (fun env => pOpt (atFailure env (sub (joined ks) "failureConfig")) s.failureConfig) :=
    good_opt (fun a => by rw [h]; exact g_failure (by simp) a) _
  have hr : Good ((s.retry.getD []).flatMap (ofRetry (ks ++ ["retry".toList])))
      (fun env => pOpt (pList (atRetry cx env (sub (joined ks) "retry"))) s.retry) :=
    good_optList (fun a => by rw [h]; exact g_retry cx (by simp) a) _
  have hc : Good ((s.catch_.getD []).flatMap (ofCatch (ks ++ ["catch".toList])))
      (fun env => pOpt (pList (atCatch env (sub (joined ks) "catch"))) s.catch_) :=
    good_optList (fun a => by rw [h]; exact g_catch (by simp) a) _
  exact .of_eq (by simp only [ofStateFields, text, List.append_assoc, List.append_nil]) <|
    (Good.at (good_stateType s.stateType) (h _)).bind fun _ => (f_optText (h _)).bind fun _ =>
    (f_optText (h _)).bind fun _ => (f_optText (h _)).bind fun _ =>
    (Good.at (good_template cx s.payloadTemplate) (h _)).bind fun _ =>
    (f_optText (h _)).bind fun _ => (f_bool cx (h _)).bind fun _ => hd.bind fun _ =>
    (f_optText (h _)).bind fun _ =>
    (Good.at (good0_opt (fun n => good_node cx.parseF n 0) s.result) (h _)).bind fun _ =>
    (f_int cx (h _)).bind fun _ => hw.bind fun _ => hf.bind fun _ => hr.bind fun _ =>
    hc.bind fun _ => .pure

mutual
theorem g_state (ks : List Str) (hk : ks ≠ []) (s : RawState F) :
    Good (ofState reported ks s) (fun env => atState cx env (joined ks) s) := by
  obtain ⟨f, b⟩ := s
  simp only [ofState, atState, sub_joined hk]
  exact .of_eq (by simp only [List.append_nil]) <|
    (g_stateFields cx hk f).bind fun _ => (g_branches _ (by simp) b).bind fun _ => .pure
theorem g_branches (ks : List Str) (hk : ks ≠ []) (b : Option (List (Sos × List (Str × RawState F)))) :
    Good (ofBranches reported ks b) (fun env => atBranches cx env (joined ks) b) := by
  match b with
  | none => simp only [ofBranches, atBranches]; exact .ok
  | some l =>
    simp only [ofBranches, atBranches]
    exact .of_eq (List.append_nil _) <| (g_branchList ks hk l).bind fun _ => .pure
theorem g_branchList (ks : List Str) (hk : ks ≠ []) (l : List (Sos × List (Str × RawState F))) :
    Good (ofBranchList reported ks l) (fun env => atBranchList cx env (joined ks) l) := by
  match l with
  | [] => simp only [ofBranchList, atBranchList]; exact .ok
  | b :: rest =>
    simp only [ofBranchList, atBranchList]
    exact .of_eq (by simp only [List.append_nil]) <|
      (g_branch ks hk b).bind fun _ => (g_branchList ks hk rest).bind fun _ => .pure
theorem g_branch (ks : List Str) (hk : ks ≠ []) (b : Sos × List (Str × RawState F)) :
    Good (ofBranch reported ks b) (fun env => atBranch cx env (joined ks) b) := by
  obtain ⟨a, states⟩ := b
  simp only [ofBranch, atBranch, sub_joined hk "states"]
  exact .of_eq (by simp only [List.append_nil]) <|
    (f_text (sub_joined hk _)).bind fun _ => (g_states _ (by simp) states).bind fun _ => .pure
theorem g_states (ks : List Str) (hk : ks ≠ []) (l : List (Str × RawState F)) :
    Good (ofStates reported ks l) (fun env => atStates cx env (joined ks) l) := by
  match l with
  | [] => simp only [ofStates, atStates]; exact .ok
  | b :: rest =>
    simp only [ofStates, atStates]
    exact .of_eq (by simp only [List.append_nil]) <|
      (g_stateEntry ks hk b).bind fun _ => (g_states ks hk rest).bind fun _ => .pure
theorem g_stateEntry (ks : List Str) (hk : ks ≠ []) (b : Str × RawState F) :
    Good (ofStateEntry reported ks b) (fun env => atStateEntry cx env (joined ks) b) := by
  obtain ⟨k, s⟩ := b
  simp only [ofStateEntry, atStateEntry, dotted_joined hk]
  exact .of_eq (by simp only [List.append_nil]) <|
    (g_state _ (by simp) s).bind fun _ => .pure
end

/-! ## The blueprint -/

theorem g_spec (name : Str) (s : RawSpec F) :
    Good (ofSpec reported ["resources".toList, name, "spec".toList] s)
      (fun env => atSpec cx env name s) := by
  have h := fun k : String => specPath_one name k.toList
  cases s with
  | handler s => exact .of_eq (List.append_nil _) <| (g_handler cx name s).bind fun _ => .pure
  | api s => exact .of_eq (List.append_nil _) <| (g_api cx name s).bind fun _ => .pure
  | consumer s => exact .of_eq (List.append_nil _) <| (g_consumer cx name s).bind fun _ => .pure
  | schedule s => exact .of_eq (List.append_nil _) <| (f_text (h _)).bind fun _ => .pure
  | handlerConfig s =>
    simp only [atSpec, specPath_nil]
    exact .of_eq (List.append_nil _) <| (g_shared cx (by simp) s).bind fun _ => .pure
  | workflow s =>
    have hs := g_states cx (["resources".toList, name, "spec".toList] ++ ["states".toList])
      (by simp) s.states
    rw [← h] at hs
    have : Good (ofSpec reported ["resources".toList, name, "spec".toList] (.workflow s))
        (fun env => atWorkflow cx env name s) :=
      .of_eq (by simp only [ofSpec, List.append_nil]) <|
        (f_text (h _)).bind fun _ => hs.bind fun _ => .pure
    exact .of_eq (List.append_nil _) <| this.bind fun _ => .pure
  | config s => exact .of_eq (List.append_nil _) <| (g_configSpec name s).bind fun _ => .pure
  | bucket s => exact .of_eq (List.append_nil _) <| (f_optText (h _)).bind fun _ => .pure
  | topic s => exact .of_eq (List.append_nil _) <| (g_topic cx name s).bind fun _ => .pure
  | queue s => exact .of_eq (List.append_nil _) <| (g_queue cx name s).bind fun _ => .pure

theorem g_meta (name : Str) (s : Meta Sos (Node F)) :
    Good (ofMeta ["resources".toList, name, "metadata".toList] s)
      (fun env => atMeta cx env name s) := by
  have ha : Good ((s.annotations.getD []).map (fun e =>
        ((["resources".toList, name, "metadata".toList] ++ ["annotations".toList] ++ [e.1],
          scalarRefs e.2) : Leaf)))
      (fun env => pOpt (pMap fun k n => atField (metaPath name ["annotations".toList, k])
        (resolveNodeToScalar cx.parseF env n)) s.annotations) := by
    rw [map_eq_flatMap]
    exact good_optMap (l := fun k n => [(["resources".toList, name, "metadata".toList] ++
      ["annotations".toList] ++ [k], scalarRefs n)]) (fun k n =>
      .at (good_nodeScalar cx.parseF n) (metaPath_two name _ k)) _
  exact .of_eq (by simp only [ofMeta, List.append_nil]) <|
    (f_text (metaPath_one name _)).bind fun _ => ha.bind fun _ => .pure

theorem g_resource (name : Str) (s : RawResource F) :
    Good (ofResource reported name s) (fun env => atResource cx env name s) :=
  .of_eq (by simp only [ofResource, List.append_nil]) <|
    (g_meta cx name s.metadata).bind fun _ => (good_opt (g_spec cx name) s.spec).bind fun _ => .pure

theorem g_resources (l : List (Str × RawResource F)) :
    Good (l.flatMap fun e => ofResource reported e.1 e.2) (fun env => atResources cx env l) := by
  induction l with
  | nil => exact .ok
  | cons e l ih =>
    rw [List.flatMap_cons]
    exact .of_eq (by simp only [List.append_nil]) <|
      (g_resource cx e.1 e.2).bind fun _ => ih.bind fun _ => .pure

theorem g_blueprint (b : RawConfig F) :
    Good (fields reported b) (fun env => atBlueprint cx env b) := by
  have hs : ∀ s, Good (ofShared ["metadata".toList, "sharedHandlerConfig".toList] s)
      (fun env => atShared cx env (dotted ["metadata".toList, "sharedHandlerConfig".toList]) s) :=
    fun s => by rw [dotted_eq]; exact g_shared cx (by simp) s
  have hm : Good (((b.metadata.bind id).map (ofShared
        ["metadata".toList, "sharedHandlerConfig".toList])).getD [])
      (fun env => pOpt (pOpt (atShared cx env
        (dotted ["metadata".toList, "sharedHandlerConfig".toList]))) b.metadata) := by
    cases b.metadata with
    | none => exact .pure
    | some o => exact .of_eq (List.append_nil _) <| (good_opt hs o).bind fun _ => .pure
  exact .of_eq (by simp only [fields, List.append_nil]) <|
    (g_resources cx b.resources).bind fun _ => hm.bind fun _ => .pure

end

end Verif.Blueprint.Field
