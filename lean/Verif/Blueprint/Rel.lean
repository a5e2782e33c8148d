import Verif.Blueprint.Resolve
import Verif.Subst.Props

/-!
# When two configurations, as read, resolve to the same

`NR n n'` says that two mapping nodes behave the same under every way of resolving them, and that
none of them panics. It is lifted to all structs; structs so related resolve to the same result,
and not to a panic. Used both ways: a reader whose result is related to itself cannot make resolution
panic, and two readers with related results agree.
-/

namespace Verif.Blueprint

open Verif Verif.Subst

/-! ## Outcomes -/

/-- The same outcome, not a panic. -/
def Same {E A : Type} (a b : Outcome E A) : Prop := a = b ∧ a ≠ .panic

theorem Same.ok {E A : Type} (a : A) : Same (E := E) (.ok a) (.ok a) := ⟨rfl, by simp⟩
theorem Same.err {E A : Type} (e : E) : Same (A := A) (.err e) (.err e) := ⟨rfl, by simp⟩

theorem Same.pure {E A : Type} (a : A) : Same (E := E) (Pure.pure a) (Pure.pure a) := Same.ok a

theorem Same.bind {E A B : Type} {a b : Outcome E A} {f g : A → Outcome E B} (h : Same a b)
    (hf : ∀ x, Same (f x) (g x)) : Same (a >>= f) (b >>= g) := by
  obtain ⟨rfl, hp⟩ := h
  cases a with
  | ok x => exact hf x
  | err e => exact Same.err e
  | panic => exact absurd rfl hp

/-- Both succeed with related values, or both fail with a format error. -/
def Rel {A B : Type} (R : A → B → Prop) : Outcome Err A → Outcome Err B → Prop
  | .ok a, .ok b => R a b
  | .err .format, .err .format => True
  | _, _ => False

theorem Rel.bind {A B C D : Type} {R : A → B → Prop} {Q : C → D → Prop} {a : Outcome Err A}
    {b : Outcome Err B} {f : A → Outcome Err C} {g : B → Outcome Err D} (h : Rel R a b)
    (hf : ∀ x y, R x y → Rel Q (f x) (g y)) : Rel Q (a >>= f) (b >>= g) := by
  match a, b, h with
  | .ok x, .ok y, h => exact hf x y h
  | .err .format, .err .format, _ => trivial

theorem Rel.map {A B C D : Type} {R : A → B → Prop} {Q : C → D → Prop} {a : Outcome Err A}
    {b : Outcome Err B} {f : A → C} {g : B → D} (h : Rel R a b)
    (hf : ∀ x y, R x y → Q (f x) (g y)) :
    Rel Q (a >>= fun x => Pure.pure (f x)) (b >>= fun y => Pure.pure (g y)) :=
  Rel.bind h hf

theorem Rel.mono {A B : Type} {R Q : A → B → Prop} {a : Outcome Err A}
    {b : Outcome Err B} (h : Rel R a b) (hf : ∀ x y, R x y → Q x y) : Rel Q a b := by
  match a, b, h with
  | .ok x, .ok y, h => exact hf x y h
  | .err .format, .err .format, _ => trivial

theorem Rel.require (b : Bool) : Rel (fun _ _ => True) (require b) (require b) := by
  cases b <;> simp [Blueprint.require, Rel]

theorem Rel.format {A B : Type} {R : A → B → Prop} : Rel R (.err .format) (.err .format) := trivial

/-! ## Lists, maps, options -/

/-- Element by element. -/
inductive LRel {A B : Type} (R : A → B → Prop) : List A → List B → Prop
  | nil : LRel R [] []
  | cons {a b l m} : R a b → LRel R l m → LRel R (a :: l) (b :: m)

/-- The same key and related values. -/
def ERel {A B : Type} (R : A → B → Prop) (e : Str × A) (f : Str × B) : Prop :=
  e.1 = f.1 ∧ R e.2 f.2

/-- Entry by entry. -/
abbrev MRel {A B : Type} (R : A → B → Prop) := LRel (ERel R)

/-- Both absent, or both present and related. -/
def ORel {A B : Type} (R : A → B → Prop) : Option A → Option B → Prop
  | none, none => True
  | some a, some b => R a b
  | _, _ => False

theorem LRel.append {A B : Type} {R : A → B → Prop} {l l' : List A} {m m' : List B}
    (h : LRel R l m) (h' : LRel R l' m') : LRel R (l ++ l') (m ++ m') := by
  induction h with
  | nil => exact h'
  | cons hr _ ih => exact .cons hr ih

theorem LRel.refl {A : Type} {R : A → A → Prop} (hR : ∀ a, R a a) (l : List A) : LRel R l l := by
  induction l with
  | nil => exact .nil
  | cons a l ih => exact .cons (hR a) ih

theorem LRel.eq {A : Type} {l m : List A} (h : LRel Eq l m) : l = m := by
  induction h with
  | nil => rfl
  | cons h _ ih => rw [h, ih]

theorem MRel.eq {A : Type} {l m : List (Str × A)} (h : MRel Eq l m) : l = m := by
  induction h with
  | nil => rfl
  | @cons a b l m h _ ih => rw [ih]; cases a; cases b; simp_all [ERel]

theorem ORel.eq {A : Type} {l m : Option A} (h : ORel Eq l m) : l = m := by
  cases l <;> cases m <;> simp_all [ORel]

theorem LRel.isEmpty {A B : Type} {R : A → B → Prop} {l : List A} {m : List B} (h : LRel R l m) :
    l.isEmpty = m.isEmpty := by cases h <;> rfl

theorem hmInsert_rel {A B : Type} {R : A → B → Prop} {l : List (Str × A)} {m : List (Str × B)}
    (h : MRel R l m) (k : Str) {a : A} {b : B} (hab : R a b) :
    MRel R (hmInsert l k a) (hmInsert m k b) := by
  refine LRel.append ?_ (.cons ⟨rfl, hab⟩ .nil)
  induction h with
  | nil => exact .nil
  | @cons x y l m hr _ ih =>
    have hk : decide (x.1 ≠ k) = decide (y.1 ≠ k) := by rw [hr.1]
    rw [List.filter_cons, List.filter_cons, hk]
    split
    · exact .cons hr ih
    · exact ih

theorem get?_rel {A B : Type} {R : A → B → Prop} {l : List (Str × A)} {m : List (Str × B)}
    (h : MRel R l m) (k : Str) : ORel R (get? l k) (get? m k) := by
  induction h with
  | nil => trivial
  | @cons x y l m hr _ ih =>
    simp only [get?, List.find?_cons] at ih ⊢
    rw [← hr.1]
    by_cases hk : x.1 = k
    · simpa [hk, ORel] using hr.2
    · simpa [hk] using ih

theorem optM_same {A B : Type} {R : A → A → Prop} {f : A → Res B} {o o' : Option A}
    (h : ORel R o o') (hf : ∀ a a', R a a' → Same (f a) (f a')) : Same (optM f o) (optM f o') := by
  match o, o', h with
  | none, none, _ => exact Same.ok _
  | some a, some a', h => exact Same.bind (hf a a' h) fun _ => Same.pure _

theorem listM_same {A B : Type} {R : A → A → Prop} {f : A → Res B} {l l' : List A}
    (h : LRel R l l') (hf : ∀ a a', R a a' → Same (f a) (f a')) :
    Same (listM f l) (listM f l') := by
  induction h with
  | nil => exact Same.ok _
  | cons hr _ ih => exact Same.bind (hf _ _ hr) fun _ => Same.bind ih fun _ => Same.pure _

theorem mapM_same {A B : Type} {R : A → A → Prop} {f : A → Res B} {l l' : List (Str × A)}
    (h : MRel R l l') (hf : ∀ a a', R a a' → Same (f a) (f a')) :
    Same (mapM f l) (mapM f l') := by
  induction h with
  | nil => exact Same.ok _
  | @cons x y l m hr _ ih =>
    obtain ⟨k, a⟩ := x
    obtain ⟨k', a'⟩ := y
    obtain ⟨hk, ha⟩ := hr
    dsimp at hk ha
    subst hk
    exact Same.bind (hf _ _ ha) fun _ => Same.bind ih fun _ => Same.pure _

/-! ## Strings -/

variable {F : Type} (cx : Ctx F)

theorem resStr_same (env : Env) (s : Sos) : Same (resStr env s) (resStr env s) :=
  ⟨rfl, by rcases resolveToString_no_panic env [] s with ⟨t, h⟩ | h <;> rw [resStr, h] <;> simp⟩

theorem optM_self {A B : Type} {f : A → Res B} (hf : ∀ a, Same (f a) (f a)) (o : Option A) :
    Same (optM f o) (optM f o) := by
  cases o with
  | none => exact Same.ok _
  | some a => exact Same.bind (hf a) fun _ => Same.pure _

theorem listM_self {A B : Type} {f : A → Res B} (hf : ∀ a, Same (f a) (f a)) (l : List A) :
    Same (listM f l) (listM f l) :=
  listM_same (R := Eq) (LRel.refl (fun _ => rfl) l) (by intro a a' h; subst h; exact hf a)

theorem mapM_self {A B : Type} {f : A → Res B} (hf : ∀ a, Same (f a) (f a)) (l : List (Str × A)) :
    Same (mapM f l) (mapM f l) :=
  mapM_same (R := Eq) (LRel.refl (fun _ => ⟨rfl, rfl⟩) l) (by intro a a' h; subst h; exact hf a)

theorem resOptStr_same (env : Env) (s : Option Sos) : Same (resOptStr env s) (resOptStr env s) :=
  optM_self (resStr_same env) s

theorem resStrs_same (env : Env) (s : List Sos) : Same (resStrs env s) (resStrs env s) :=
  listM_self (resStr_same env) s

theorem resOptStrs_same (env : Env) (s : Option (List Sos)) :
    Same (optM (resStrs env) s) (optM (resStrs env) s) :=
  optM_self (resStrs_same env) s

theorem resStrMap_same (env : Env) (s : Option (List (Str × Sos))) :
    Same (optM (mapM (resStr env)) s) (optM (mapM (resStr env)) s) :=
  optM_self (mapM_self (resStr_same env)) s

/-! ## Nodes -/

/-- Two nodes that cannot be told apart by resolving them, and do not panic. -/
structure NR (n n' : Node F) : Prop where
  node : ∀ env d, Same (resolveNode cx.parseF env d n) (resolveNode cx.parseF env d n')
  scalar : ∀ env, Same (resolveNodeToScalar cx.parseF env n) (resolveNodeToScalar cx.parseF env n')
  auth : ∀ env, Same (resWsAuth env n) (resWsAuth env n')
  ws : ∀ env, Same (resWsConfig cx env n) (resWsConfig cx env n')
  protocol : ∀ env, Same (resProtocol cx env n) (resProtocol cx env n')

theorem guardDepth_same {A : Type} (d : Nat) {a b : Res A} (h : Same a b) :
    Same (guardDepth d a) (guardDepth d b) := by
  unfold guardDepth; split
  · exact Same.err _
  · exact h

theorem wsAuthOfName_same (t : Str) : Same (wsAuthOfName t) (wsAuthOfName t) := by
  refine ⟨rfl, ?_⟩; unfold wsAuthOfName; split <;> (try split) <;> simp

theorem protocolOfName_same (t : Str) : Same (protocolOfName t) (protocolOfName t) := by
  refine ⟨rfl, ?_⟩; unfold protocolOfName; split <;> (try split) <;> simp

theorem NR.ofScalar (s : Scalar F) : NR cx (.scalar s) (.scalar s) := by
  constructor
  · intro env d; simp only [resolveNode]; exact guardDepth_same d (Same.ok _)
  · intro env; exact Same.ok _
  · intro env; cases s
    · exact wsAuthOfName_same _
    all_goals exact Same.err _
  · intro env; exact Same.err _
  · intro env; cases s
    · exact protocolOfName_same _
    all_goals exact Same.err _

theorem NR.ofNull : NR cx .null .null := by
  constructor
  · intro env d; simp only [resolveNode]; exact guardDepth_same d (Same.ok _)
  all_goals intro env; exact Same.err _

theorem NR.ofSubst (ps : Sos) (h : ps ≠ []) : NR cx (.subst ps) (.subst ps) := by
  have hs : ∀ env, Same (resolveScalar cx.parseF env ps) (resolveScalar cx.parseF env ps) :=
    fun env => ⟨rfl, resolveScalar_no_panic cx.parseF env ps h⟩
  constructor
  · intro env d
    simp only [resolveNode]
    exact guardDepth_same d (Same.bind (hs env) fun _ => Same.pure _)
  · exact hs
  · intro env; exact Same.bind (resStr_same env ps) fun _ => wsAuthOfName_same _
  · intro env; exact Same.err _
  · intro env; exact Same.bind (resStr_same env ps) fun _ => protocolOfName_same _

/-- A literal string may be kept as a string or as a template without substitutions. -/
theorem NR.ofLiteral (s : Str) : NR cx (.subst [.str s]) (.scalar (.str s)) := by
  have hb : ∀ {A : Type} (env : Env) (f : Str → Res A), (resStr env [.str s] >>= f) = f s := by
    intro A env f; rfl
  constructor
  · intro env d
    simp only [resolveNode]
    exact guardDepth_same d (Same.ok _)
  · intro env; exact Same.ok _
  · intro env
    show Same (resStr env [.str s] >>= _) (wsAuthOfName s)
    rw [hb]; exact wsAuthOfName_same _
  · intro env; exact Same.err _
  · intro env
    show Same (resStr env [.str s] >>= _) (protocolOfName s)
    rw [hb]; exact protocolOfName_same _

theorem resolveEntries_same (env : Env) (d : Nat) {m m' : List (Str × Node F)}
    (h : MRel (NR cx) m m') :
    Same (resolveEntries cx.parseF env d m) (resolveEntries cx.parseF env d m') := by
  induction h with
  | nil => exact Same.ok _
  | @cons x y l m hr _ ih =>
    obtain ⟨k, a⟩ := x
    obtain ⟨k', a'⟩ := y
    obtain ⟨hk, ha⟩ := hr
    dsimp at hk ha
    subst hk
    simp only [resolveEntries]
    exact Same.bind (ha.node env d) fun _ => Same.bind ih fun _ => Same.pure _

theorem resolveList_same (env : Env) (d : Nat) {m m' : List (Node F)} (h : LRel (NR cx) m m') :
    Same (resolveList cx.parseF env d m) (resolveList cx.parseF env d m') := by
  induction h with
  | nil => exact Same.ok _
  | cons hr _ ih =>
    simp only [resolveList]
    exact Same.bind (hr.node env d) fun _ => Same.bind ih fun _ => Same.pure _

theorem resNodeStr_same (env : Env) {n n' : Node F} (h : NR cx n n') :
    Same (resNodeStr cx env n) (resNodeStr cx env n') := by
  unfold resNodeStr
  refine Same.bind (h.scalar env) fun x => ?_
  cases x with
  | str s => exact Same.pure _
  | _ => exact Same.err _

theorem NR.ofMapping {m m' : List (Str × Node F)} (h : MRel (NR cx) m m') :
    NR cx (.mapping m) (.mapping m') := by
  constructor
  · intro env d
    simp only [resolveNode]
    exact guardDepth_same d (Same.bind (resolveEntries_same cx env (d + 1) h) fun _ => Same.pure _)
  · intro env; exact Same.err _
  · intro env; exact Same.err _
  · intro env
    exact Same.bind (optM_same (get?_rel h _) fun _ _ hn => resNodeStr_same cx env hn) fun _ =>
      Same.bind (optM_same (get?_rel h _) fun _ _ hn => hn.auth env) fun _ => Same.pure _
  · intro env
    have hg := get?_rel h "websocketConfig".toList
    simp only [resProtocol]
    match get? m "websocketConfig".toList, get? m' "websocketConfig".toList, hg with
    | none, none, _ => exact Same.err _
    | some n, some n', hg => exact hg.ws env

theorem NR.ofSequence {m m' : List (Node F)} (h : LRel (NR cx) m m') :
    NR cx (.sequence m) (.sequence m') := by
  constructor
  · intro env d
    simp only [resolveNode]
    exact guardDepth_same d (Same.bind (resolveList_same cx env (d + 1) h) fun _ => Same.pure _)
  all_goals intro env; exact Same.err _

theorem resInt_same (env : Env) {n n' : Option (Node F)} (h : ORel (NR cx) n n') :
    Same (resInt cx env n) (resInt cx env n') := by
  match n, n', h with
  | none, none, _ => exact Same.ok _
  | some n, some n', h =>
    refine Same.bind (h.scalar env) fun x => ?_
    cases x with
    | int s => exact Same.pure _
    | _ => exact Same.err _

theorem resBool_same (env : Env) {n n' : Option (Node F)} (h : ORel (NR cx) n n') :
    Same (resBool cx env n) (resBool cx env n') := by
  match n, n', h with
  | none, none, _ => exact Same.ok _
  | some n, some n', h =>
    refine Same.bind (h.scalar env) fun x => ?_
    cases x with
    | bool s => exact Same.pure _
    | _ => exact Same.err _

theorem resFloat_same (env : Env) {n n' : Option (Node F)} (h : ORel (NR cx) n n') :
    Same (resFloat cx env n) (resFloat cx env n') := by
  match n, n', h with
  | none, none, _ => exact Same.ok _
  | some n, some n', h =>
    refine Same.bind (h.scalar env) fun x => ?_
    cases x with
    | float s => exact Same.pure _
    | _ => exact Same.err _

/-! ## Structs -/

/-- The lifting of `NR`. -/
structure SharedRel (s t : Shared Sos (Node F) (Node F)) : Prop where
  codeLocation : s.codeLocation = t.codeLocation
  runtime : s.runtime = t.runtime
  memory : ORel (NR cx) s.memory t.memory
  timeout : ORel (NR cx) s.timeout t.timeout
  tracingEnabled : ORel (NR cx) s.tracingEnabled t.tracingEnabled
  environmentVariables : s.environmentVariables = t.environmentVariables

theorem resShared_same (env : Env) {s t : Shared Sos (Node F) (Node F)} (h : SharedRel cx s t) :
    Same (resShared cx env s) (resShared cx env t) := by
  obtain ⟨h1, h2, h3, h4, h5, h6⟩ := h
  unfold resShared
  rw [h1, h2, h6]
  exact Same.bind (resOptStr_same env _) fun _ => Same.bind (resOptStr_same env _) fun _ =>
    Same.bind (resInt_same cx env h3) fun _ => Same.bind (resInt_same cx env h4) fun _ =>
    Same.bind (resBool_same cx env h5) fun _ => Same.bind (resStrMap_same env _) fun _ =>
    Same.pure _

/-- The lifting of `NR`. -/
structure HandlerRel (s t : HandlerSpec Sos (Node F) (Node F)) : Prop where
  handlerName : s.handlerName = t.handlerName
  codeLocation : s.codeLocation = t.codeLocation
  handler : s.handler = t.handler
  runtime : s.runtime = t.runtime
  memory : ORel (NR cx) s.memory t.memory
  timeout : ORel (NR cx) s.timeout t.timeout
  tracingEnabled : ORel (NR cx) s.tracingEnabled t.tracingEnabled
  environmentVariables : s.environmentVariables = t.environmentVariables

theorem resHandler_same (env : Env) {s t : HandlerSpec Sos (Node F) (Node F)}
    (h : HandlerRel cx s t) : Same (resHandler cx env s) (resHandler cx env t) := by
  obtain ⟨h1, h2, h0, h7, h3, h4, h5, h6⟩ := h
  unfold resHandler
  rw [h1, h2, h0, h7, h6]
  exact Same.bind (resOptStr_same env _) fun _ => Same.bind (resOptStr_same env _) fun _ =>
    Same.bind (resStr_same env _) fun _ => Same.bind (resOptStr_same env _) fun _ =>
    Same.bind (resInt_same cx env h3) fun _ => Same.bind (resInt_same cx env h4) fun _ =>
    Same.bind (resBool_same cx env h5) fun _ => Same.bind (resStrMap_same env _) fun _ =>
    Same.pure _

/-- The lifting of `NR`. -/
structure StreamRel (s t : Stream Sos (Node F) (Node F)) : Prop where
  batchSize : ORel (NR cx) s.batchSize t.batchSize
  streamId : s.streamId = t.streamId
  partialFailures : ORel (NR cx) s.partialFailures t.partialFailures
  startFromBeginning : ORel (NR cx) s.startFromBeginning t.startFromBeginning

theorem resStream_same (env : Env) {s t : Stream Sos (Node F) (Node F)} (h : StreamRel cx s t) :
    Same (resStream cx env s) (resStream cx env t) := by
  obtain ⟨h1, h2, h3, h4⟩ := h
  unfold resStream
  rw [h2]
  exact Same.bind (resInt_same cx env h1) fun _ => Same.bind (resStr_same env _) fun _ =>
    Same.bind (resBool_same cx env h3) fun _ => Same.bind (resBool_same cx env h4) fun _ =>
    Same.pure _

/-- The lifting of `NR`. -/
def EvConfigRel : EvConfig Sos (Node F) (Node F) Sos → EvConfig Sos (Node F) (Node F) Sos → Prop
  | .objectStorage b e, .objectStorage b' e' => b = b' ∧ e = e'
  | .dbStream c, .dbStream c' => StreamRel cx c c'
  | .dataStream c, .dataStream c' => StreamRel cx c c'
  | _, _ => False

theorem resObjEvent_same (env : Env) (s : Sos) : Same (resObjEvent env s) (resObjEvent env s) := by
  refine Same.bind (resStr_same env s) fun t => ⟨rfl, ?_⟩
  split <;> (try split) <;> (try split) <;> simp

theorem resEvConfig_same (env : Env) {s t : EvConfig Sos (Node F) (Node F) Sos}
    (h : EvConfigRel cx s t) : Same (resEvConfig cx env s) (resEvConfig cx env t) := by
  match s, t, h with
  | .objectStorage b e, .objectStorage b' e', h =>
    obtain ⟨rfl, rfl⟩ := h
    exact Same.bind (resStr_same env _) fun _ =>
      Same.bind (listM_self (resObjEvent_same env) _) fun _ => Same.pure _
  | .dbStream c, .dbStream c', h =>
    exact Same.bind (resStream_same cx env h) fun _ => Same.pure _
  | .dataStream c, .dataStream c', h =>
    exact Same.bind (resStream_same cx env h) fun _ => Same.pure _

/-- The lifting of `NR`. -/
structure EventRel (s t : ExternalEvent Sos (Node F) (Node F) Sos) : Prop where
  sourceType : s.sourceType = t.sourceType
  config : EvConfigRel cx s.config t.config

theorem resEvent_same (env : Env) {s t : ExternalEvent Sos (Node F) (Node F) Sos}
    (h : EventRel cx s t) : Same (resEvent cx env s) (resEvent cx env t) := by
  obtain ⟨h1, h2⟩ := h
  unfold resEvent
  rw [h1]
  exact Same.bind (resEvConfig_same cx env h2) fun _ => Same.pure _

/-- The lifting of `NR`. -/
structure ConsumerRel (s t : ConsumerSpec Sos (Node F) (Node F) Sos) : Prop where
  sourceId : s.sourceId = t.sourceId
  batchSize : ORel (NR cx) s.batchSize t.batchSize
  visibilityTimeout : ORel (NR cx) s.visibilityTimeout t.visibilityTimeout
  waitTimeSeconds : ORel (NR cx) s.waitTimeSeconds t.waitTimeSeconds
  partialFailures : ORel (NR cx) s.partialFailures t.partialFailures
  routingKey : s.routingKey = t.routingKey
  externalEvents : ORel (MRel (EventRel cx)) s.externalEvents t.externalEvents

theorem resConsumer_same (env : Env) {s t : ConsumerSpec Sos (Node F) (Node F) Sos}
    (h : ConsumerRel cx s t) : Same (resConsumer cx env s) (resConsumer cx env t) := by
  obtain ⟨h1, h2, h3, h4, h5, h6, h7⟩ := h
  unfold resConsumer
  rw [h1, h6]
  exact Same.bind (resOptStr_same env _) fun _ => Same.bind (resInt_same cx env h2) fun _ =>
    Same.bind (resInt_same cx env h3) fun _ => Same.bind (resInt_same cx env h4) fun _ =>
    Same.bind (resBool_same cx env h5) fun _ => Same.bind (resOptStr_same env _) fun _ =>
    Same.bind (optM_same h7 fun _ _ h => mapM_same h fun _ _ h => resEvent_same cx env h) fun _ =>
    Same.pure _

theorem resConfigSpec_same (env : Env) (s : ConfigSpec Sos) :
    Same (resConfigSpec env s) (resConfigSpec env s) :=
  Same.bind (resOptStr_same env _) fun _ => Same.bind (resOptStrs_same env _) fun _ => Same.pure _

/-- The lifting of `NR`. -/
structure TopicRel (s t : TopicSpec Sos (Node F)) : Prop where
  name : s.name = t.name
  fifo : ORel (NR cx) s.fifo t.fifo

theorem resTopic_same (env : Env) {s t : TopicSpec Sos (Node F)} (h : TopicRel cx s t) :
    Same (resTopic cx env s) (resTopic cx env t) := by
  obtain ⟨h1, h2⟩ := h
  unfold resTopic
  rw [h1]
  exact Same.bind (resOptStr_same env _) fun _ => Same.bind (resBool_same cx env h2) fun _ =>
    Same.pure _

/-- The lifting of `NR`. -/
structure QueueRel (s t : QueueSpec Sos (Node F) (Node F)) : Prop where
  name : s.name = t.name
  fifo : ORel (NR cx) s.fifo t.fifo
  visibilityTimeout : ORel (NR cx) s.visibilityTimeout t.visibilityTimeout

theorem resQueue_same (env : Env) {s t : QueueSpec Sos (Node F) (Node F)} (h : QueueRel cx s t) :
    Same (resQueue cx env s) (resQueue cx env t) := by
  obtain ⟨h1, h2, h3⟩ := h
  unfold resQueue
  rw [h1]
  exact Same.bind (resOptStr_same env _) fun _ => Same.bind (resBool_same cx env h2) fun _ =>
    Same.bind (resInt_same cx env h3) fun _ => Same.pure _

/-- The lifting of `NR`. -/
structure CorsConfigRel (s t : CorsConfig Sos (Node F) (Node F)) : Prop where
  allowCredentials : ORel (NR cx) s.allowCredentials t.allowCredentials
  allowOrigins : s.allowOrigins = t.allowOrigins
  allowMethods : s.allowMethods = t.allowMethods
  allowHeaders : s.allowHeaders = t.allowHeaders
  exposeHeaders : s.exposeHeaders = t.exposeHeaders
  maxAge : ORel (NR cx) s.maxAge t.maxAge

/-- The lifting of `NR`. -/
def CorsRel : Cors Sos (Node F) (Node F) → Cors Sos (Node F) (Node F) → Prop
  | .str s, .str t => s = t
  | .config s, .config t => CorsConfigRel cx s t
  | _, _ => False

theorem resCors_same (env : Env) {s t : Cors Sos (Node F) (Node F)} (h : CorsRel cx s t) :
    Same (resCors cx env s) (resCors cx env t) := by
  match s, t, h with
  | .str s, .str t, h => subst h; exact Same.bind (resStr_same env _) fun _ => Same.pure _
  | .config s, .config t, h =>
    obtain ⟨h1, h2, h3, h4, h5, h6⟩ := h
    refine Same.bind ?_ fun _ => Same.pure _
    unfold resCorsConfig
    rw [h2, h3, h4, h5]
    exact Same.bind (resBool_same cx env h1) fun _ => Same.bind (resOptStrs_same env _) fun _ =>
      Same.bind (resOptStrs_same env _) fun _ => Same.bind (resOptStrs_same env _) fun _ =>
      Same.bind (resOptStrs_same env _) fun _ => Same.bind (resInt_same cx env h6) fun _ =>
      Same.pure _

/-- The lifting of `NR`. -/
structure ProtocolAndRel (s t : ProtocolAnd Sos (Node F)) : Prop where
  protocol : NR cx s.protocol t.protocol
  value : s.value = t.value

/-- The lifting of `NR`. -/
def StrOrConfigRel : StrOrConfig Sos (Node F) → StrOrConfig Sos (Node F) → Prop
  | .str s, .str t => s = t
  | .config s, .config t => ProtocolAndRel cx s t
  | _, _ => False

theorem resStrOrConfig_same (env : Env) {s t : StrOrConfig Sos (Node F)}
    (h : StrOrConfigRel cx s t) : Same (resStrOrConfig cx env s) (resStrOrConfig cx env t) := by
  match s, t, h with
  | .str s, .str t, h => subst h; exact Same.bind (resStr_same env _) fun _ => Same.pure _
  | .config s, .config t, h =>
    obtain ⟨h1, h2⟩ := h
    simp only [resStrOrConfig]
    rw [h2]
    exact Same.bind (h1.protocol env) fun _ => Same.bind (resStr_same env _) fun _ => Same.pure _

/-- The lifting of `NR`. -/
structure DomainRel (s t : Domain Sos (Node F) (Node F) Sos) : Prop where
  domainName : s.domainName = t.domainName
  basePaths : LRel (StrOrConfigRel cx) s.basePaths t.basePaths
  normalizeBasePath : ORel (NR cx) s.normalizeBasePath t.normalizeBasePath
  certificateId : s.certificateId = t.certificateId
  securityPolicy : s.securityPolicy = t.securityPolicy

theorem resSecPolicy_same (env : Env) (s : Sos) :
    Same (resSecPolicy env s) (resSecPolicy env s) := by
  refine Same.bind (resStr_same env s) fun t => ⟨rfl, ?_⟩
  split <;> (try split) <;> simp

theorem resDomain_same (env : Env) {s t : Domain Sos (Node F) (Node F) Sos} (h : DomainRel cx s t) :
    Same (resDomain cx env s) (resDomain cx env t) := by
  obtain ⟨h1, h2, h3, h4, h5⟩ := h
  unfold resDomain
  rw [h1, h4, h5]
  exact Same.bind (resStr_same env _) fun _ =>
    Same.bind (listM_same h2 fun _ _ h => resStrOrConfig_same cx env h) fun _ =>
    Same.bind (resBool_same cx env h3) fun _ => Same.bind (resStr_same env _) fun _ =>
    Same.bind (optM_self (resSecPolicy_same env) _) fun _ => Same.pure _

/-- The lifting of `NR`. -/
structure GuardRel (s t : Guard Sos (Node F) Sos) : Prop where
  guardType : s.guardType = t.guardType
  issuer : s.issuer = t.issuer
  tokenSource : ORel (StrOrConfigRel cx) s.tokenSource t.tokenSource
  audience : s.audience = t.audience

theorem resGuardType_same (env : Env) (s : Sos) :
    Same (resGuardType env s) (resGuardType env s) := by
  refine Same.bind (resStr_same env s) fun t => ⟨rfl, ?_⟩
  split <;> (try split) <;> simp

theorem resGuard_same (env : Env) {s t : Guard Sos (Node F) Sos} (h : GuardRel cx s t) :
    Same (resGuard cx env s) (resGuard cx env t) := by
  obtain ⟨h1, h2, h3, h4⟩ := h
  unfold resGuard
  rw [h1, h2, h4]
  exact Same.bind (resGuardType_same env _) fun _ => Same.bind (resOptStr_same env _) fun _ =>
    Same.bind (optM_same h3 fun _ _ h => resStrOrConfig_same cx env h) fun _ =>
    Same.bind (resOptStrs_same env _) fun _ => Same.pure _

/-- The lifting of `NR`. -/
structure AuthRel (s t : Auth Sos (Node F) Sos) : Prop where
  defaultGuard : s.defaultGuard = t.defaultGuard
  guards : MRel (GuardRel cx) s.guards t.guards

theorem resAuth_same (env : Env) {s t : Auth Sos (Node F) Sos} (h : AuthRel cx s t) :
    Same (resAuth cx env s) (resAuth cx env t) := by
  obtain ⟨h1, h2⟩ := h
  unfold resAuth
  rw [h1]
  exact Same.bind (resOptStr_same env _) fun _ =>
    Same.bind (mapM_same h2 fun _ _ h => resGuard_same cx env h) fun _ => Same.pure _

/-- The lifting of `NR`. -/
structure ApiRel (s t : ApiSpec Sos (Node F) (Node F) (Node F) Sos Sos) : Prop where
  protocols : LRel (NR cx) s.protocols t.protocols
  cors : ORel (CorsRel cx) s.cors t.cors
  domain : ORel (DomainRel cx) s.domain t.domain
  auth : ORel (AuthRel cx) s.auth t.auth
  tracingEnabled : ORel (NR cx) s.tracingEnabled t.tracingEnabled

theorem resApi_same (env : Env) {s t : ApiSpec Sos (Node F) (Node F) (Node F) Sos Sos}
    (h : ApiRel cx s t) : Same (resApi cx env s) (resApi cx env t) := by
  obtain ⟨h1, h2, h3, h4, h5⟩ := h
  unfold resApi
  exact Same.bind (listM_same h1 fun _ _ h => h.protocol env) fun _ =>
    Same.bind (optM_same h2 fun _ _ h => resCors_same cx env h) fun _ =>
    Same.bind (optM_same h3 fun _ _ h => resDomain_same cx env h) fun _ =>
    Same.bind (optM_same h4 fun _ _ h => resAuth_same cx env h) fun _ =>
    Same.bind (resBool_same cx env h5) fun _ => Same.pure _

/-- The lifting of `NR`. -/
structure CondRel (s t : Cond Sos (Node F)) : Prop where
  inputs : LRel (NR cx) s.inputs t.inputs
  function : s.function = t.function

theorem resCond_same (env : Env) {s t : Cond Sos (Node F)} (h : CondRel cx s t) :
    Same (resCond cx env s) (resCond cx env t) := by
  obtain ⟨h1, h2⟩ := h
  unfold resCond
  rw [h2]
  exact Same.bind (listM_same h1 fun _ _ h => h.node env 4) fun _ =>
    Same.bind (resStr_same env _) fun _ => Same.pure _

/-- The lifting of `NR`. -/
structure RuleRel (s t : Rule Sos (Node F)) : Prop where
  and : ORel (LRel (CondRel cx)) s.and t.and
  or : ORel (LRel (CondRel cx)) s.or t.or
  not : ORel (CondRel cx) s.not t.not
  condition : ORel (CondRel cx) s.condition t.condition
  next : s.next = t.next

theorem resRule_same (env : Env) {s t : Rule Sos (Node F)} (h : RuleRel cx s t) :
    Same (resRule cx env s) (resRule cx env t) := by
  obtain ⟨h1, h2, h3, h4, h5⟩ := h
  unfold resRule
  rw [h5]
  exact Same.bind (optM_same h4 fun _ _ h => resCond_same cx env h) fun _ =>
    Same.bind (optM_same h1 fun _ _ h => listM_same h fun _ _ h => resCond_same cx env h) fun _ =>
    Same.bind (optM_same h2 fun _ _ h => listM_same h fun _ _ h => resCond_same cx env h) fun _ =>
    Same.bind (optM_same h3 fun _ _ h => resCond_same cx env h) fun _ =>
    Same.bind (resStr_same env _) fun _ => Same.pure _

theorem resWait_same (env : Env) (s : WaitConfig Sos) : Same (resWait env s) (resWait env s) :=
  Same.bind (resOptStr_same env _) fun _ => Same.bind (resOptStr_same env _) fun _ => Same.pure _

theorem resFailure_same (env : Env) (s : FailureConfig Sos) :
    Same (resFailure env s) (resFailure env s) :=
  Same.bind (resOptStr_same env _) fun _ => Same.bind (resOptStr_same env _) fun _ => Same.pure _

/-- The lifting of `NR`. -/
structure RetryRel (s t : Retry Sos (Node F) (Node F) (Node F)) : Prop where
  matchErrors : s.matchErrors = t.matchErrors
  interval : ORel (NR cx) s.interval t.interval
  maxAttempts : ORel (NR cx) s.maxAttempts t.maxAttempts
  maxDelay : ORel (NR cx) s.maxDelay t.maxDelay
  jitter : ORel (NR cx) s.jitter t.jitter
  backoffRate : ORel (NR cx) s.backoffRate t.backoffRate

theorem resRetry_same (env : Env) {s t : Retry Sos (Node F) (Node F) (Node F)}
    (h : RetryRel cx s t) : Same (resRetry cx env s) (resRetry cx env t) := by
  obtain ⟨h1, h2, h3, h4, h5, h6⟩ := h
  unfold resRetry
  rw [h1]
  exact Same.bind (resStrs_same env _) fun _ => Same.bind (resInt_same cx env h2) fun _ =>
    Same.bind (resInt_same cx env h3) fun _ => Same.bind (resInt_same cx env h4) fun _ =>
    Same.bind (resBool_same cx env h5) fun _ => Same.bind (resFloat_same cx env h6) fun _ =>
    Same.pure _

theorem resCatch_same (env : Env) (s : Catch Sos) : Same (resCatch env s) (resCatch env s) :=
  Same.bind (resStrs_same env _) fun _ => Same.bind (resStr_same env _) fun _ =>
  Same.bind (resOptStr_same env _) fun _ => Same.pure _

/-- The lifting of `NR`. -/
structure FieldsRel (s t : RawFields F) : Prop where
  stateType : s.stateType = t.stateType
  description : s.description = t.description
  inputPath : s.inputPath = t.inputPath
  resultPath : s.resultPath = t.resultPath
  outputPath : s.outputPath = t.outputPath
  payloadTemplate : ORel (MRel (NR cx)) s.payloadTemplate t.payloadTemplate
  next : s.next = t.next
  end_ : ORel (NR cx) s.end_ t.end_
  decisions : ORel (LRel (RuleRel cx)) s.decisions t.decisions
  result : ORel (NR cx) s.result t.result
  timeout : ORel (NR cx) s.timeout t.timeout
  waitConfig : s.waitConfig = t.waitConfig
  failureConfig : s.failureConfig = t.failureConfig
  retry : ORel (LRel (RetryRel cx)) s.retry t.retry
  catch_ : s.catch_ = t.catch_

theorem resStateType_same (env : Env) (s : Sos) :
    Same (resStateType env s) (resStateType env s) :=
  Same.bind (resStr_same env s) fun _ => Same.pure _

theorem resStateFields_same (env : Env) {s t : RawFields F} (h : FieldsRel cx s t) :
    Same (resStateFields cx env s) (resStateFields cx env t) := by
  obtain ⟨h1, h2, h3, h4, h5, h6, h7, h8, h9, h10, h11, h12, h13, h14, h15⟩ := h
  unfold resStateFields
  rw [h1, h2, h3, h4, h5, h7, h12, h13, h15]
  exact Same.bind (resStateType_same env _) fun _ => Same.bind (resOptStr_same env _) fun _ =>
    Same.bind (resOptStr_same env _) fun _ => Same.bind (resOptStr_same env _) fun _ =>
    Same.bind (optM_same h6 fun _ _ h => resolveEntries_same cx env 1 h) fun _ =>
    Same.bind (resOptStr_same env _) fun _ => Same.bind (resBool_same cx env h8) fun _ =>
    Same.bind (optM_same h9 fun _ _ h => listM_same h fun _ _ h => resRule_same cx env h) fun _ =>
    Same.bind (resOptStr_same env _) fun _ =>
    Same.bind (optM_same h10 fun _ _ h => h.node env 0) fun _ =>
    Same.bind (resInt_same cx env h11) fun _ =>
    Same.bind (optM_self (resWait_same env) _) fun _ =>
    Same.bind (optM_self (resFailure_same env) _) fun _ =>
    Same.bind (optM_same h14 fun _ _ h => listM_same h fun _ _ h => resRetry_same cx env h) fun _ =>
    Same.bind (optM_self (listM_self (resCatch_same env)) _) fun _ => Same.pure _

/-- The lifting of `NR`: states that resolve to the same. -/
def StateRel (s t : RawState F) : Prop := ∀ env, Same (resState cx env s) (resState cx env t)

theorem resStates_same (env : Env) {s t : List (Str × RawState F)} (h : MRel (StateRel cx) s t) :
    Same (resStates cx env s) (resStates cx env t) := by
  induction h with
  | nil => simp only [resStates]; exact Same.ok _
  | @cons x y l m hr _ ih =>
    obtain ⟨k, a⟩ := x
    obtain ⟨k', a'⟩ := y
    obtain ⟨hk, ha⟩ := hr
    dsimp at hk ha
    subst hk
    simp only [resStates, resStateEntry]
    exact Same.bind (Same.bind (ha env) fun _ => Same.pure _) fun _ =>
      Same.bind ih fun _ => Same.pure _

/-- The lifting of `NR`. -/
def BranchRel (s t : Sos × List (Str × RawState F)) : Prop :=
  s.1 = t.1 ∧ MRel (StateRel cx) s.2 t.2

theorem resBranchList_same (env : Env) {s t : List (Sos × List (Str × RawState F))}
    (h : LRel (BranchRel cx) s t) :
    Same (resBranchList cx env s) (resBranchList cx env t) := by
  induction h with
  | nil => simp only [resBranchList]; exact Same.ok _
  | @cons x y l m hr _ ih =>
    obtain ⟨k, a⟩ := x
    obtain ⟨k', a'⟩ := y
    obtain ⟨hk, ha⟩ := hr
    dsimp at hk ha
    subst hk
    simp only [resBranchList, resBranch]
    exact Same.bind (Same.bind (resStr_same env _) fun _ =>
      Same.bind (resStates_same cx env ha) fun _ => Same.pure _) fun _ =>
      Same.bind ih fun _ => Same.pure _

theorem StateRel.mk {f f' : RawFields F} {b b' : Option (List (Sos × List (Str × RawState F)))}
    (hf : FieldsRel cx f f') (hb : ORel (LRel (BranchRel cx)) b b') :
    StateRel cx (.mk f b) (.mk f' b') := by
  intro env
  simp only [resState]
  refine Same.bind (resStateFields_same cx env hf) fun _ => Same.bind ?_ fun _ => Same.pure _
  match b, b', hb with
  | none, none, _ => simp only [resBranches]; exact Same.ok _
  | some l, some l', h =>
    simp only [resBranches]
    exact Same.bind (resBranchList_same cx env h) fun _ => Same.pure _

/-- The lifting of `NR`. -/
structure WorkflowRel (s t : WorkflowSpec Sos (Node F) (Node F) (Node F) (Node F) Sos) : Prop where
  startAt : s.startAt = t.startAt
  states : MRel (StateRel cx) s.states t.states

/-- The lifting of `NR`. -/
def SpecRel : RawSpec F → RawSpec F → Prop
  | .handler s, .handler t => HandlerRel cx s t
  | .api s, .api t => ApiRel cx s t
  | .consumer s, .consumer t => ConsumerRel cx s t
  | .schedule s, .schedule t => s = t
  | .handlerConfig s, .handlerConfig t => SharedRel cx s t
  | .workflow s, .workflow t => WorkflowRel cx s t
  | .config s, .config t => s = t
  | .bucket s, .bucket t => s = t
  | .topic s, .topic t => TopicRel cx s t
  | .queue s, .queue t => QueueRel cx s t
  | _, _ => False

theorem resSpec_same (env : Env) {s t : RawSpec F} (h : SpecRel cx s t) :
    Same (resSpec cx env s) (resSpec cx env t) := by
  cases s with
  | handler s =>
    cases t with
    | handler t => exact Same.bind (resHandler_same cx env h) fun _ => Same.pure _
    | _ => exact False.elim h
  | api s =>
    cases t with
    | api t => exact Same.bind (resApi_same cx env h) fun _ => Same.pure _
    | _ => exact False.elim h
  | consumer s =>
    cases t with
    | consumer t => exact Same.bind (resConsumer_same cx env h) fun _ => Same.pure _
    | _ => exact False.elim h
  | schedule s =>
    cases t with
    | schedule t => cases h; exact Same.bind (resStr_same env _) fun _ => Same.pure _
    | _ => exact False.elim h
  | handlerConfig s =>
    cases t with
    | handlerConfig t => exact Same.bind (resShared_same cx env h) fun _ => Same.pure _
    | _ => exact False.elim h
  | workflow s =>
    cases t with
    | workflow t =>
      refine Same.bind ?_ fun _ => Same.pure _
      unfold resWorkflow
      rw [WorkflowRel.startAt h]
      exact Same.bind (resStr_same env _) fun _ =>
        Same.bind (resStates_same cx env (WorkflowRel.states h)) fun _ => Same.pure _
    | _ => exact False.elim h
  | config s =>
    cases t with
    | config t => cases h; exact Same.bind (resConfigSpec_same env _) fun _ => Same.pure _
    | _ => exact False.elim h
  | bucket s =>
    cases t with
    | bucket t => cases h; exact Same.bind (resOptStr_same env _) fun _ => Same.pure _
    | _ => exact False.elim h
  | topic s =>
    cases t with
    | topic t => exact Same.bind (resTopic_same cx env h) fun _ => Same.pure _
    | _ => exact False.elim h
  | queue s =>
    cases t with
    | queue t => exact Same.bind (resQueue_same cx env h) fun _ => Same.pure _
    | _ => exact False.elim h

/-- The lifting of `NR`. -/
structure MetaRel (s t : Meta Sos (Node F)) : Prop where
  displayName : s.displayName = t.displayName
  annotations : ORel (MRel (NR cx)) s.annotations t.annotations
  labels : s.labels = t.labels

theorem resMeta_same (env : Env) {s t : Meta Sos (Node F)} (h : MetaRel cx s t) :
    Same (resMeta cx env s) (resMeta cx env t) := by
  obtain ⟨h1, h2, h3⟩ := h
  unfold resMeta
  rw [h1, h3]
  exact Same.bind (resStr_same env _) fun _ =>
    Same.bind (optM_same h2 fun _ _ h => mapM_same h fun _ _ h => h.scalar env) fun _ => Same.pure _

/-- The lifting of `NR`. -/
structure ResourceRel (s t : RawResource F) : Prop where
  type : s.type = t.type
  metadata : MetaRel cx s.metadata t.metadata
  linkSelector : s.linkSelector = t.linkSelector
  description : s.description = t.description
  spec : ORel (SpecRel cx) s.spec t.spec

theorem resResources_same (env : Env) {s t : List (Str × RawResource F)}
    (h : MRel (ResourceRel cx) s t) :
    Same (resResources cx env s) (resResources cx env t) := by
  induction h with
  | nil => exact Same.ok _
  | @cons x y l m hr _ ih =>
    obtain ⟨k, a⟩ := x
    obtain ⟨k', a'⟩ := y
    obtain ⟨hk, h1, h2, h3, h4, h5⟩ := hr
    dsimp at hk h1 h2 h3 h4 h5
    subst hk
    simp only [resResources]
    refine Same.bind ?_ fun _ => Same.bind ih fun _ => Same.pure _
    unfold resResource
    rw [h1, h3, h4]
    exact Same.bind (resMeta_same cx env h2) fun _ =>
      Same.bind (optM_same h5 fun _ _ h => resSpec_same cx env h) fun _ => Same.pure _

/-- The lifting of `NR`. -/
structure ConfigRel (s t : RawConfig F) : Prop where
  version : s.version = t.version
  transform : s.transform = t.transform
  variables : s.variables = t.variables
  resources : MRel (ResourceRel cx) s.resources t.resources
  metadata : ORel (ORel (SharedRel cx)) s.metadata t.metadata

theorem resBlueprint_same (env : Env) {s t : RawConfig F} (h : ConfigRel cx s t) :
    Same (resBlueprint cx env s) (resBlueprint cx env t) := by
  obtain ⟨h1, h2, h3, h4, h5⟩ := h
  have hm : Same (optM (optM (resShared cx env)) s.metadata)
      (optM (optM (resShared cx env)) t.metadata) :=
    optM_same h5 fun _ _ h => optM_same h fun _ _ h => resShared_same cx env h
  unfold resBlueprint
  rw [h1, h2, h3]
  refine Same.bind (resResources_same cx env h4) fun _ => ?_
  refine Same.bind hm fun _ => ?_
  exact Same.pure _

end Verif.Blueprint
