import Verif.FlowApi.RouteSpec

/-!
# Property theorems about the routes of the workflow API (C139, C140)
-/

namespace Verif.FlowApi

open Verif Verif.Wire RouteSpec

/-! ## C139: the documented operations are there -/

theorem splitPath_ne (s : Str) : splitPath s ≠ [] := by
  cases s with
  | nil => nofun
  | cons c cs =>
    rw [splitPath]
    split
    · nofun
    · split <;> nofun

theorem splitPath_plain {s : Str} (h : '/' ∉ s) : splitPath s = [s] := by
  induction s with
  | nil => rfl
  | cons c cs ih =>
    rw [List.mem_cons, not_or] at h
    rw [splitPath, if_neg (fun e => h.1 e.symm), ih h.2]

theorem splitPath_at {s t : Str} (h : '/' ∉ s) : splitPath (s ++ '/' :: t) = s :: splitPath t := by
  induction s with
  | nil => rw [List.nil_append, splitPath, if_pos rfl]
  | cons c cs ih =>
    rw [List.mem_cons, not_or] at h
    rw [List.cons_append, splitPath, if_neg (fun e => h.1 e.symm), ih h.2]

/-- The parts put together again. -/
theorem splitPath_join (s : Str) : ∀ p ps, splitPath s = p :: ps →
    s = p ++ (ps.map fun q => '/' :: q).flatten ∧ '/' ∉ p ∧ ∀ q ∈ ps, '/' ∉ q := by
  induction s with
  | nil =>
    intro p ps h
    cases h
    exact ⟨rfl, nofun, nofun⟩
  | cons c cs ih =>
    intro p ps h
    rw [splitPath] at h
    split at h
    next hc =>
      subst hc
      cases h
      cases hr : splitPath cs with
      | nil => exact absurd hr (splitPath_ne cs)
      | cons q qs =>
        obtain ⟨e, h1, h2⟩ := ih q qs hr
        refine ⟨?_, nofun, ?_⟩
        · rw [List.nil_append, List.map_cons, List.flatten_cons, List.cons_append, ← e]
        · intro x hx
          rcases List.mem_cons.1 hx with rfl | hx
          · exact h1
          · exact h2 x hx
    next hc =>
      split at h
      next hr => exact absurd hr (splitPath_ne cs)
      next q qs hr =>
        obtain ⟨e, h1, h2⟩ := ih q qs hr
        cases h
        refine ⟨?_, ?_, h2⟩
        · rw [List.cons_append, ← e]
        · rw [List.mem_cons, not_or]
          exact ⟨fun e => hc e.symm, h1⟩

/-- A path that a route matches. -/
theorem fits_path {r : Route} {path : Str} (h : r.fits path = true) :
    ∃ rest, path = '/' :: rest ∧ fitsAll r.segments (splitPath rest) = true := by
  unfold Route.fits at h
  split at h
  next rest => exact ⟨rest, rfl, h⟩
  next => cases h

theorem fits1 {a : Str} {ps : List Str} (h : fitsAll [.lit a] ps = true) : ps = [a] := by
  cases ps with
  | nil => cases h
  | cons p ps =>
    cases ps with
    | nil =>
      rw [fitsAll, Bool.and_eq_true] at h
      rw [← of_decide_eq_true h.1]
    | cons q qs =>
      rw [fitsAll, Bool.and_eq_true] at h
      cases h.2

theorem fits_cons {s : Seg} {ss : List Seg} {ps : List Str} (h : fitsAll (s :: ss) ps = true) :
    ∃ p qs, ps = p :: qs ∧ s.fits p = true ∧ fitsAll ss qs = true := by
  cases ps with
  | nil => cases h
  | cons p qs =>
    rw [fitsAll, Bool.and_eq_true] at h
    exact ⟨p, qs, rfl, h.1, h.2⟩

theorem fits_nil {ps : List Str} (h : fitsAll [] ps = true) : ps = [] := by
  cases ps with
  | nil => rfl
  | cons p ps => cases h

/-- The paths of the routes. -/
inductive Shape : Str → List Route → Prop
  | health : Shape healthCheck [⟨[.lit "runtime".toList, .lit "health".toList, .lit "check".toList],
      "GET", .health⟩]
  | run : Shape "/run".toList [⟨[.lit "run".toList], "POST", .run⟩]
  | execution {id} : IsId id → Shape ("/executions/".toList ++ id)
      [⟨[.lit "executions".toList, .param], "GET", .execution⟩]
  | stream {id} : IsId id → Shape ("/executions/".toList ++ id ++ "/stream".toList)
      [⟨[.lit "executions".toList, .param, .lit "stream".toList], "GET", .stream⟩]
  | executions : Shape "/executions".toList [⟨[.lit "executions".toList], "GET", .executions⟩]

theorem shape_routes {path : Str} {rs : List Route} (h : Shape path rs) :
    (routes.filter fun r => r.fits path) = rs := by
  cases h with
  | health => decide +kernel
  | run => decide +kernel
  | executions => decide +kernel
  | @execution id hid =>
    have hs : splitPath ("executions".toList ++ '/' :: id) = ["executions".toList, id] := by
      rw [splitPath_at (by decide), splitPath_plain hid.2]
    have hf : ∀ r : Route, r.fits ("/executions/".toList ++ id) =
        fitsAll r.segments ["executions".toList, id] := by
      intro r
      rw [← hs]
      rfl
    have hp : Seg.param.fits id = true := decide_eq_true hid.1
    unfold routes
    simp only [List.filter_cons, List.filter_nil, hf, fitsAll, hp, Bool.and_true, Bool.true_and,
      Bool.and_false]
    rfl
  | @stream id hid =>
    have hs : splitPath ("executions".toList ++ '/' :: (id ++ '/' :: "stream".toList)) =
        ["executions".toList, id, "stream".toList] := by
      rw [splitPath_at (by decide), splitPath_at hid.2, splitPath_plain (by decide)]
    have hf : ∀ r : Route, r.fits ("/executions/".toList ++ id ++ "/stream".toList) =
        fitsAll r.segments ["executions".toList, id, "stream".toList] := by
      intro r
      rw [← hs, List.append_assoc]
      rfl
    have hp : Seg.param.fits id = true := decide_eq_true hid.1
    unfold routes
    simp only [List.filter_cons, List.filter_nil, hf, fitsAll, hp, Bool.and_true, Bool.true_and,
      Bool.and_false]
    rfl

theorem fits_shape {path : Str} {r : Route} (hr : r ∈ routes) (h : r.fits path = true) :
    Shape path [r] := by
  obtain ⟨rest, rfl, hf⟩ := fits_path h
  cases hsp : splitPath rest with
  | nil => exact absurd hsp (splitPath_ne rest)
  | cons p ps =>
    obtain ⟨e, h1, h2⟩ := splitPath_join rest p ps hsp
    rw [hsp] at hf
    simp only [routes, List.mem_cons, List.not_mem_nil, or_false] at hr
    rcases hr with rfl | rfl | rfl | rfl | rfl
    · obtain ⟨_, qs, e1, f1, g1⟩ := fits_cons hf
      obtain ⟨_, qs', e2, f2, g2⟩ := fits_cons g1
      obtain ⟨_, qs'', e3, f3, g3⟩ := fits_cons g2
      cases e1
      rw [e2, e3, fits_nil g3, ← of_decide_eq_true f1, ← of_decide_eq_true f2,
        ← of_decide_eq_true f3] at e
      rw [e]
      exact .health
    · cases fits1 hf
      rw [e]
      exact .run
    · obtain ⟨_, qs, e1, f1, g1⟩ := fits_cons hf
      obtain ⟨id, qs', e2, f2, g2⟩ := fits_cons g1
      cases e1
      subst e2
      cases fits_nil g2
      rw [← of_decide_eq_true f1] at e
      have e : rest = "executions".toList ++ '/' :: id := by
        rw [e]
        simp
      rw [e]
      exact .execution ⟨of_decide_eq_true f2, h2 id (List.mem_cons_self ..)⟩
    · obtain ⟨_, qs, e1, f1, g1⟩ := fits_cons hf
      obtain ⟨id, qs', e2, f2, g2⟩ := fits_cons g1
      cases e1
      subst e2
      cases fits1 g2
      rw [← of_decide_eq_true f1] at e
      have e : '/' :: rest = "/executions/".toList ++ id ++ "/stream".toList := by
        rw [e]
        simp
      rw [e]
      exact .stream ⟨of_decide_eq_true f2, h2 id (List.mem_cons_self ..)⟩
    · cases fits1 hf
      rw [e]
      exact .executions

/-- Every documented request gets to the handler of its operation. -/
theorem operation_served {m : String} {path : Str} {op : Op} (h : Calls m path op) :
    routeTo m path = .to (handler op) := by
  cases h with
  | run => rw [routeTo, shape_routes .run]; rfl
  | execution hid => rw [routeTo, shape_routes (.execution hid)]; rfl
  | executions => rw [routeTo, shape_routes .executions]; rfl
  | stream hid => rw [routeTo, shape_routes (.stream hid)]; rfl

/-- The router in terms of the paths. -/
theorem routeTo_shape {m : String} {path : Str} {r : Route} (h : Shape path [r]) :
    routeTo m path = if serves r.method m then .to r.endpoint else .methodNotAllowed := by
  rw [routeTo, shape_routes h]
  simp only [List.find?_cons, List.find?_nil]
  cases serves r.method m <;> rfl

theorem route_cases (path : Str) : (∃ r, r ∈ routes ∧ Shape path [r]) ∨
    ((∀ r ∈ routes, r.fits path = false) ∧ ∀ m, routeTo m path = .notFound) := by
  by_cases h : ∃ r ∈ routes, r.fits path = true
  · obtain ⟨r, hr, hf⟩ := h
    exact .inl ⟨r, hr, fits_shape hr hf⟩
  · right
    have hn : ∀ r ∈ routes, r.fits path = false := by
      intro r hr
      cases hf : r.fits path with
      | false => rfl
      | true => exact absurd ⟨r, hr, hf⟩ h
    refine ⟨hn, fun m => ?_⟩
    rw [routeTo, List.filter_eq_nil_iff.2 fun r hr => by rw [hn r hr]; decide]

/-- Whatever gets to a handler other than that of the health check is a documented request, or one
that asks with `HEAD` for what `GET` returns. -/
theorem served_documented {m : String} {path : Str} {e : Endpoint} (h : routeTo m path = .to e)
    (he : e ≠ .health) :
    ∃ op, handler op = e ∧ (Calls m path op ∨ (m = "HEAD" ∧ Calls "GET" path op)) := by
  rcases route_cases path with ⟨r, _, hs⟩ | ⟨_, hn⟩
  · rw [routeTo_shape hs] at h
    split at h
    next hm =>
      injection h with h
      have hm : r.method = m ∨ (r.method = "GET" ∧ m = "HEAD") := by
        rw [serves, Bool.or_eq_true, Bool.and_eq_true] at hm
        rcases hm with hm | ⟨h1, h2⟩
        · exact .inl (of_decide_eq_true hm)
        · exact .inr ⟨of_decide_eq_true h1, of_decide_eq_true h2⟩
      cases hs with
      | health => exact absurd h.symm he
      | run =>
        rcases hm with hm | ⟨hm, _⟩
        · exact ⟨.runWorkflow, h, .inl (hm ▸ .run)⟩
        · exact absurd hm (by decide)
      | @execution id hid =>
        refine ⟨.getExecution id, h, ?_⟩
        rcases hm with hm | ⟨_, hm⟩
        · exact .inl (hm ▸ .execution hid)
        · exact .inr ⟨hm, .execution hid⟩
      | @stream id hid =>
        refine ⟨.streamEvents id, h, ?_⟩
        rcases hm with hm | ⟨_, hm⟩
        · exact .inl (hm ▸ .stream hid)
        · exact .inr ⟨hm, .stream hid⟩
      | executions =>
        refine ⟨.getExecutions, h, ?_⟩
        rcases hm with hm | ⟨_, hm⟩
        · exact .inl (hm ▸ .executions)
        · exact .inr ⟨hm, .executions⟩
    next => cases h
  · rw [hn m] at h
    cases h

/-- The health check is at its path. -/
theorem health_served (m : String) (path : Str) : routeTo m path = .to .health ↔
    path = healthCheck ∧ (m = "GET" ∨ m = "HEAD") := by
  constructor
  · intro h
    rcases route_cases path with ⟨r, _, hs⟩ | ⟨_, hn⟩
    · rw [routeTo_shape hs] at h
      split at h
      next hm =>
        injection h with h
        cases hs with
        | health =>
          refine ⟨rfl, ?_⟩
          rw [serves, Bool.or_eq_true, Bool.and_eq_true] at hm
          rcases hm with hm | ⟨_, hm⟩
          · exact .inl (of_decide_eq_true hm).symm
          · exact .inr (of_decide_eq_true hm)
        | _ => cases h
      next => cases h
    · rw [hn m] at h
      cases h
  · rintro ⟨rfl, rfl | rfl⟩ <;> rw [routeTo_shape .health] <;> rfl

/-- A path is not found exactly if no documented request and no health check has it, and a method is not
allowed only where another one is. -/
theorem not_found_iff (m : String) (path : Str) : routeTo m path = .notFound ↔
    path ≠ healthCheck ∧ ∀ m' op, ¬ Calls m' path op := by
  constructor
  · intro h
    refine ⟨?_, ?_⟩
    · rintro rfl
      rw [routeTo_shape .health] at h
      split at h <;> cases h
    · intro m' op hc
      have : ∃ r, Shape path [r] := by
        cases hc with
        | run => exact ⟨_, .run⟩
        | execution hid => exact ⟨_, .execution hid⟩
        | executions => exact ⟨_, .executions⟩
        | stream hid => exact ⟨_, .stream hid⟩
      obtain ⟨r, hs⟩ := this
      rw [routeTo_shape hs] at h
      split at h <;> cases h
  · intro ⟨h1, h2⟩
    rcases route_cases path with ⟨r, _, hs⟩ | ⟨_, hn⟩
    · exfalso
      cases hs with
      | health => exact h1 rfl
      | run => exact h2 _ _ .run
      | execution hid => exact h2 _ _ (.execution hid)
      | stream hid => exact h2 _ _ (.stream hid)
      | executions => exact h2 _ _ .executions
    · exact hn m

/-- What is answered where no operation is concerned: the health check tells the time, another path is
404, and another method 405. The store stays as it is. -/
theorem answered_elsewhere {F D S : Type} (s : ExecStore.Store (Json F) D S) (saves readable : Bool)
    (uuid : String) (now : Nat) (q : ApiRequest F) :
    ((q.path = healthCheck ∧ (q.method = "GET" ∨ q.method = "HEAD")) →
      api s saves readable uuid now q = (s, ⟨200, .inl (.obj [("timestamp".toList, .int now)])⟩)) ∧
    ((q.path ≠ healthCheck ∧ ∀ m op, ¬ Calls m q.path op) →
      api s saves readable uuid now q = (s, ⟨404, .inr []⟩)) ∧
    ((∃ m op, Calls m q.path op) → (∀ op, ¬ Calls q.method q.path op) → q.method ≠ "HEAD" →
      api s saves readable uuid now q = (s, ⟨405, .inr []⟩)) := by
  refine ⟨fun h => ?_, fun h => ?_, fun ⟨m, op, hc⟩ hn hh => ?_⟩
  · rw [api, (health_served _ _).2 h]
  · rw [api, (not_found_iff _ _).2 h]
  · have : routeTo q.method q.path = .methodNotAllowed := by
      cases hr : routeTo q.method q.path with
      | methodNotAllowed => rfl
      | notFound => exact absurd hc (((not_found_iff _ _).1 hr).2 m op)
      | to e =>
        exfalso
        by_cases he : e = .health
        · subst he
          have hp := ((health_served _ _).1 hr).1
          have h1 := operation_served hc
          rw [hp] at h1
          cases hc' : handler op with
          | health => cases op <;> cases hc'
          | _ =>
            rw [hc', routeTo_shape .health] at h1
            split at h1 <;> cases h1
        · obtain ⟨op', _, h | ⟨h, _⟩⟩ := served_documented hr he
          · exact hn op' h
          · exact hh h
    rw [api, this]

/-- The operations that read are answered with 200 and leave the store as it is, unless the id in the path
cannot be decoded, where `getExecution` is answered with 400. -/
theorem answered_reads {F D S : Type} (s : ExecStore.Store (Json F) D S) (saves readable : Bool)
    (uuid : String) (now : Nat) (q : ApiRequest F) (op : Op) (hc : Calls q.method q.path op)
    (hr : op ≠ .runWorkflow) :
    (api s saves readable uuid now q).1 = s ∧
    ((api s saves readable uuid now q).2.status = 200 ∨
      readable = false ∧ (∃ id, op = .getExecution id) ∧
        (api s saves readable uuid now q).2.status = 400) := by
  rw [api, operation_served hc]
  cases op with
  | runWorkflow => exact absurd rfl hr
  | getExecution id =>
    cases readable with
    | true => exact ⟨rfl, .inl rfl⟩
    | false => exact ⟨rfl, .inr ⟨rfl, ⟨id, rfl⟩, rfl⟩⟩
  | getExecutions => exact ⟨rfl, .inl rfl⟩
  | streamEvents id => exact ⟨rfl, .inl rfl⟩

example : routeTo "GET" "/executions/e-1/stream".toList = .to .stream :=
  operation_served (.stream (id := "e-1".toList) ⟨by decide, by decide⟩)

example : routeTo "DELETE" "/executions/e-1".toList = .methodNotAllowed ∧
    routeTo "GET" "/executions/".toList = .notFound ∧ routeTo "GET" "/runs".toList = .notFound := by
  decide +kernel

/-! ## C140: who may call them -/

/-- C140 as stated: a call without credentials is answered with 401, and changes nothing. -/
def FullAuthenticated : Prop :=
  ∀ (s : ExecStore.Store (Json Int) Nat Nat) (saves readable : Bool) (uuid : String) (now : Nat)
    (q : ApiRequest Int) (op : Op), Calls q.method q.path op → Anonymous q →
    (api s saves readable uuid now q).2.status = 401 ∧ (api s saves readable uuid now q).1 = s

variable {F D S : Type}

/-- No request is ever answered with 401, and none is answered differently because of its headers. -/
theorem authenticated_never (s : ExecStore.Store (Json F) D S) (saves readable : Bool)
    (uuid : String) (now : Nat) (q : ApiRequest F) :
    (api s saves readable uuid now q).2.status ≠ 401 ∧
    ∀ headers, api s saves readable uuid now { q with headers := headers } =
      api s saves readable uuid now q := by
  refine ⟨?_, fun _ => rfl⟩
  unfold api
  split
  · nofun
  · nofun
  · nofun
  · rw [run.eq_def]
    split
    · nofun
    · split
      · nofun
      · cases saves <;> nofun
  · cases readable <;> nofun
  · nofun
  · nofun

/-- A call without credentials. -/
def anonymousRun : ApiRequest Int :=
  ⟨"POST", "/run".toList, [("content-type", "application/json")],
    some (.obj [("executionName".toList, .str ['n']), ("input".toList, .obj [])])⟩

theorem authenticated_violated : ¬ FullAuthenticated := by
  intro h
  exact (authenticated_never _ _ _ _ _ _).1
    (h .new true true "u" 0 anonymousRun .runWorkflow .run ⟨rfl, rfl, rfl⟩).1

/-- What is left: only calls of `POST /run` change the store. -/
theorem authenticated_partial (s : ExecStore.Store (Json F) D S) (saves readable : Bool)
    (uuid : String) (now : Nat) (q : ApiRequest F)
    (h : ¬ (q.method = "POST" ∧ q.path = "/run".toList)) :
    (api s saves readable uuid now q).1 = s := by
  unfold api
  split
  · rfl
  · rfl
  · rfl
  next hr =>
    obtain ⟨op, ho, hc | ⟨_, hc⟩⟩ := served_documented hr nofun
    · generalize hm : q.method = m at hc
      generalize hp : q.path = p at hc
      cases hc with
      | run => exact absurd ⟨hm, hp⟩ h
      | _ => cases ho
    · generalize hm : "GET" = m at hc
      generalize q.path = p at hc
      cases hc with
      | run => exact absurd hm (by decide)
      | _ => cases ho
  · cases readable <;> rfl
  · rfl
  · rfl

/-- An anonymous caller starts an execution. -/
example : ((api (D := Nat) (S := Nat) .new true true "u" 0 anonymousRun).1.get "n").isSome = true := by
  decide +kernel

end Verif.FlowApi
