import Verif.Transform.RouteLemmas
import Verif.Transform.Props

/-!
# Property theorems about the requests that fit a path of a blueprint (C181)
-/

namespace Verif.Transform.Route

open Verif Verif.Subst Verif.Transform

/-- What the path of a blueprint means: the parts of the request that stand for its segments. A parameter stands for
one part and a catch-all for all that are left, neither of them empty. -/
inductive Fits : List Spec.Segment → List Str → List (Str × Str) → Prop
  | done : Fits [] [] []
  | text {s ss rs ps} (h : Fits ss rs ps) : Fits (.text s :: ss) (s :: rs) ps
  | param {n v ss rs ps} (hv : v ≠ []) (h : Fits ss rs ps) : Fits (.param n :: ss) (v :: rs) ((n, v) :: ps)
  | rest {n rs} (hr : joinSlash rs ≠ []) : Fits [.catchAll n] rs [(n, joinSlash rs)]

/-- A path that makes sense: its parameters have names, and a catch-all comes last. -/
def Sensible : List Spec.Segment → Prop
  | [] => True
  | .text _ :: ss => Sensible ss
  | .param n :: ss => n ≠ [] ∧ Sensible ss
  | .catchAll n :: ss => n ≠ [] ∧ ss = []

/-- C181: for every path of a blueprint that makes sense, the router takes the path that is made of it, and a request has
that path exactly when it fits the path of the blueprint, with the same parameters. -/
def FullPaths : Prop :=
  ∀ ss : List Spec.Segment, ss ≠ [] → (∀ s ∈ ss, s.WF) → Sensible ss →
    routerTakes (toAxumPath ('/' :: Spec.path Spec.Segment.blueprint ss)) = true ∧
    ∀ r ps, routerMatch (toAxumPath ('/' :: Spec.path Spec.Segment.blueprint ss)) ('/' :: r) = some ps ↔
      Fits ss (splitSlash r) ps

/-- C181 is false of the code: text with a colon becomes a parameter. -/
theorem paths_violated : ¬ FullPaths := by
  intro full
  have wf : ∀ s ∈ [Spec.Segment.text "v1:all".toList], s.WF := by
    intro s hs
    rw [List.mem_singleton.1 hs]
    refine ⟨by decide, ?_⟩
    rintro ⟨m, h⟩
    injection h with h _
    exact absurd h (by decide)
  have h := ((full [.text "v1:all".toList] (by simp) wf trivial).2 "v12".toList [("all".toList, "2".toList)]).1
    (by decide)
  cases h

/-- And with two colons the handler cannot be registered. -/
theorem paths_panic :
    routerTakes (toAxumPath ('/' :: Spec.path Spec.Segment.blueprint [.text "a:b:c".toList])) = false := by
  decide

/-- No segment has a character of the router's syntax. -/
def Plain : Spec.Segment → Prop
  | .text s | .param s | .catchAll s => ':' ∉ s ∧ '*' ∉ s

theorem noSyntax_of {s : Str} (h : ':' ∉ s ∧ '*' ∉ s) : noSyntax s = true := by
  unfold noSyntax
  rw [List.all_eq_true]
  intro c hc
  have h1 : c ≠ ':' := fun e => h.1 (e ▸ hc)
  have h2 : c ≠ '*' := fun e => h.2 (e ▸ hc)
  simp [h1, h2]

theorem fits_iff (ss : List Spec.Segment) (hne : ss ≠ []) (wf : ∀ s ∈ ss, s.WF) (se : Sensible ss)
    (pl : ∀ s ∈ ss, Plain s) (n : Nat) (hn : (Spec.path Spec.Segment.router ss).length < n) (r : Str)
    (ps : List (Str × Str)) :
    matchFrom n (Spec.path Spec.Segment.router ss) r = some ps ↔ Fits ss (splitSlash r) ps := by
  induction ss generalizing n r ps with
  | nil => exact absurd rfl hne
  | cons s ss ih =>
    have wf1 := wf s (List.mem_cons_self ..)
    have pl1 := pl s (List.mem_cons_self ..)
    have wf' : ∀ s ∈ ss, s.WF := fun x hx => wf x (List.mem_cons_of_mem _ hx)
    have pl' : ∀ s ∈ ss, Plain s := fun x hx => pl x (List.mem_cons_of_mem _ hx)
    cases ss with
    | nil =>
      unfold Spec.path at hn ⊢
      cases s with
      | text s =>
        have e : Spec.Segment.router (.text s) = s ++ [] := (List.append_nil s).symm
        have hn' : s.length < n := hn
        rw [e, matches_text s [] r n (noSyntax_of pl1) (Nat.le_of_lt hn')]
        obtain ⟨k, hk⟩ : ∃ k, n - s.length = k + 1 := ⟨n - s.length - 1, by omega⟩
        rw [hk]
        constructor
        · rintro ⟨r', rfl, h⟩
          obtain ⟨rfl, rfl⟩ := (matches_nil _ _ _).1 h
          rw [List.append_nil, splitSlash_single s wf1.1]
          exact .text .done
        · intro h
          have hr : splitSlash r = [s] ∧ ps = [] := by
            generalize splitSlash r = rs at h
            cases h with
            | text h => cases h; exact ⟨rfl, rfl⟩
          have := joinSlash_splitSlash r
          rw [hr.1] at this
          exact ⟨[], by rw [List.append_nil]; exact this.symm, (matches_nil _ _ _).2 ⟨rfl, hr.2⟩⟩
      | param m =>
        obtain ⟨k, rfl⟩ : ∃ k, n = k + 2 := ⟨n - 2, by
          have : (':' :: m).length < n := hn
          have hm : m ≠ [] := se.1
          have : 0 < m.length := List.length_pos_iff.2 hm
          simp at *
          omega⟩
        show matchFrom (k + 2) (':' :: m) r = some ps ↔ _
        rw [matches_param, (upTo_last m wf1.1).1, (upTo_last m wf1.1).2]
        constructor
        · rintro ⟨hv, ps', h, rfl⟩
          obtain ⟨hf, rfl⟩ := (matches_nil _ _ _).1 h
          rcases parts r with g | ⟨v, r', _, _, _, g, _⟩
          · rw [g.2.2.2, g.2.1]
            rw [g.2.1] at hv
            exact .param hv .done
          · rw [g] at hf
            cases hf
        · intro h
          rcases parts r with g | ⟨v, r', _, _, _, _, g⟩
          · rw [g.2.2.2] at h
            rw [g.2.1, g.2.2.1]
            cases h with
            | param hv h => cases h; exact ⟨hv, [], (matches_nil _ _ _).2 ⟨rfl, rfl⟩, rfl⟩
          · rw [g] at h
            cases h with
            | param hv h =>
              generalize e : splitSlash r' = rs at h
              cases h
              exact absurd e (splitSlash_ne_nil r')
      | catchAll m =>
        obtain ⟨k, rfl⟩ : ∃ k, n = k + 1 := ⟨n - 1, by omega⟩
        show matchFrom (k + 1) ('*' :: m) r = some ps ↔ _
        rw [matches_rest]
        constructor
        · rintro ⟨hr, rfl⟩
          have := Fits.rest (n := m) (rs := splitSlash r) (by rw [joinSlash_splitSlash]; exact hr)
          rw [joinSlash_splitSlash] at this
          exact this
        · intro h
          generalize e : splitSlash r = rs at h
          cases h with
          | rest hr =>
            rw [← e, joinSlash_splitSlash] at hr ⊢
            exact ⟨hr, rfl⟩
    | cons t rest =>
      have hp : Spec.path Spec.Segment.router (s :: t :: rest) =
          s.router ++ '/' :: Spec.path Spec.Segment.router (t :: rest) := rfl
      rw [hp, List.length_append, List.length_cons] at hn
      rw [hp]
      have fitsNe : ∀ {rs qs}, Fits (t :: rest) rs qs → rs = [] → False := by
        intro rs qs h e
        subst e
        cases h with
        | rest hr => exact hr rfl
      cases s with
      | catchAll m => exact absurd se.2 nofun
      | text s =>
        have hn' : s.length + ((Spec.path Spec.Segment.router (t :: rest)).length + 1) < n := hn
        rw [show Spec.Segment.router (.text s) = s from rfl,
          matches_text s _ r n (noSyntax_of pl1) (by omega)]
        obtain ⟨k, hk⟩ : ∃ k, n - s.length = k + 1 := ⟨n - s.length - 1, by omega⟩
        rw [hk]
        have ih' := fun r ps => ih (by simp) wf' se pl' k (by omega) r ps
        constructor
        · rintro ⟨r', rfl, h⟩
          obtain ⟨r2, rfl, h2⟩ := (matches_sep _ _ _ _).1 h
          rw [splitSlash_append s wf1.1]
          exact .text ((ih' _ _).1 h2)
        · intro h
          rcases parts r with g | ⟨v, r', g0, _, _, _, g⟩
          · rw [g.2.2.2] at h
            cases h with
            | text h => exact (fitsNe h rfl).elim
          · rw [g] at h
            cases h with
            | text h => exact ⟨'/' :: r', g0, (matches_sep _ _ _ _).2 ⟨r', rfl, (ih' _ _).2 h⟩⟩
      | param m =>
        have hn' : (m.length + 1) + ((Spec.path Spec.Segment.router (t :: rest)).length + 1) < n := hn
        obtain ⟨k, rfl⟩ : ∃ k, n = k + 2 := ⟨n - 2, by omega⟩
        have ih' := fun r ps => ih (by simp) wf' se.2 pl' k (by omega) r ps
        show matchFrom (k + 2) (':' :: (m ++ '/' :: Spec.path Spec.Segment.router (t :: rest))) r = some ps ↔ _
        rw [matches_param, (upTo_name m _ wf1.1).1, (upTo_name m _ wf1.1).2]
        constructor
        · rintro ⟨hv, ps', h, rfl⟩
          obtain ⟨r2, hf, h2⟩ := (matches_sep _ _ _ _).1 h
          rcases parts r with g | ⟨v, r', _, _, g1, g2, g3⟩
          · rw [g.2.2.1] at hf
            cases hf
          · rw [g2] at hf
            injection hf with _ hf
            subst hf
            rw [g3, g1]
            rw [g1] at hv
            exact .param hv ((ih' _ _).1 h2)
        · intro h
          rcases parts r with g | ⟨v, r', _, _, g1, g2, g3⟩
          · rw [g.2.2.2] at h
            cases h with
            | param _ h => exact (fitsNe h rfl).elim
          · rw [g3] at h
            rw [g1, g2]
            cases h with
            | param hv h => exact ⟨hv, _, (matches_sep _ _ _ _).2 ⟨r', rfl, (ih' _ _).2 h⟩, rfl⟩

theorem takes_path (ss : List Spec.Segment) (hne : ss ≠ []) (wf : ∀ s ∈ ss, s.WF) (se : Sensible ss)
    (pl : ∀ s ∈ ss, Plain s) (n : Nat) (hn : (Spec.path Spec.Segment.router ss).length < n) :
    takes n true (Spec.path Spec.Segment.router ss) = true := by
  induction ss generalizing n with
  | nil => exact absurd rfl hne
  | cons s ss ih =>
    have wf1 := wf s (List.mem_cons_self ..)
    have pl1 := pl s (List.mem_cons_self ..)
    have wf' : ∀ s ∈ ss, s.WF := fun x hx => wf x (List.mem_cons_of_mem _ hx)
    have pl' : ∀ s ∈ ss, Plain s := fun x hx => pl x (List.mem_cons_of_mem _ hx)
    have empty : ∀ m : Str, m ≠ [] → m.isEmpty = false := by
      intro m hm
      cases m with
      | nil => exact absurd rfl hm
      | cons _ _ => rfl
    have sep : ∀ k p, takes (k + 1) false ('/' :: p) = takes k true p := by
      intro k p
      rw [takes.eq_def]
      rfl
    cases ss with
    | nil =>
      unfold Spec.path at hn ⊢
      cases s with
      | text s => exact (takes_text s [] n true (noSyntax_of pl1) (Nat.le_of_lt hn)).2 hn
      | param m =>
        obtain ⟨k, rfl⟩ : ∃ k, n = k + 2 := ⟨n - 2, by
          have : (':' :: m).length < n := hn
          have : 0 < m.length := List.length_pos_iff.2 se.1
          simp at *
          omega⟩
        show takes (k + 2) true (':' :: m) = true
        rw [takes.eq_def]
        dsimp only
        rw [if_pos rfl, (upTo_last m wf1.1).1, (upTo_last m wf1.1).2, empty m se.1, noSyntax_of pl1]
        rfl
      | catchAll m =>
        obtain ⟨k, rfl⟩ : ∃ k, n = k + 1 := ⟨n - 1, by omega⟩
        show takes (k + 1) true ('*' :: m) = true
        rw [takes.eq_def]
        dsimp only
        rw [if_neg (by decide), if_pos rfl, (upTo_last m wf1).2, empty m se.1, noSyntax_of pl1]
        rfl
    | cons t rest =>
      have hp : Spec.path Spec.Segment.router (s :: t :: rest) =
          s.router ++ '/' :: Spec.path Spec.Segment.router (t :: rest) := rfl
      rw [hp, List.length_append, List.length_cons] at hn
      rw [hp]
      cases s with
      | catchAll m => exact absurd se.2 nofun
      | text s =>
        have hn' : s.length + ((Spec.path Spec.Segment.router (t :: rest)).length + 1) < n := hn
        rw [show Spec.Segment.router (.text s) = s from rfl,
          (takes_text s _ n true (noSyntax_of pl1) (by omega)).1]
        obtain ⟨k, hk⟩ : ∃ k, n - s.length = k + 1 := ⟨n - s.length - 1, by omega⟩
        rw [hk, sep]
        exact ih (by simp) wf' se pl' k (by omega)
      | param m =>
        have hn' : (m.length + 1) + ((Spec.path Spec.Segment.router (t :: rest)).length + 1) < n := hn
        obtain ⟨k, rfl⟩ : ∃ k, n = k + 2 := ⟨n - 2, by omega⟩
        show takes (k + 2) true (':' :: (m ++ '/' :: Spec.path Spec.Segment.router (t :: rest))) = true
        rw [takes.eq_def]
        dsimp only
        rw [if_pos rfl, (upTo_name m _ wf1.1).1, (upTo_name m _ wf1.1).2, empty m se.1, noSyntax_of pl1, sep,
          ih (by simp) wf' se.2 pl' k (by omega)]
        rfl

/-- What the code does: the claim holds for the paths without a colon or an asterisk in their text and in the names of their
parameters. -/
theorem paths_partial (ss : List Spec.Segment) (hne : ss ≠ []) (wf : ∀ s ∈ ss, s.WF) (se : Sensible ss)
    (pl : ∀ s ∈ ss, Plain s) :
    routerTakes (toAxumPath ('/' :: Spec.path Spec.Segment.blueprint ss)) = true ∧
    ∀ r ps, routerMatch (toAxumPath ('/' :: Spec.path Spec.Segment.blueprint ss)) ('/' :: r) = some ps ↔
      Fits ss (splitSlash r) ps := by
  have e : toAxumPath ('/' :: Spec.path Spec.Segment.blueprint ss) =
      '/' :: Spec.path Spec.Segment.router ss := by
    have h := axum_path_segments (.text [] :: ss) (by simp) (by
      intro s hs
      rcases List.mem_cons.1 hs with rfl | hs
      · exact ⟨nofun, fun ⟨m, h⟩ => nomatch h⟩
      · exact wf s hs)
    cases ss with
    | nil => exact absurd rfl hne
    | cons s ss => exact h
  rw [e]
  refine ⟨?_, fun r ps => ?_⟩
  · have h := takes_path ss hne wf se pl _ (Nat.lt_succ_self _)
    unfold routerTakes
    rw [takes.eq_def]
    exact h
  · unfold routerMatch
    rw [List.length_cons, matches_sep]
    constructor
    · rintro ⟨r', h, g⟩
      injection h with _ h
      subst h
      exact (fits_iff ss hne wf se pl _ (Nat.lt_succ_self _) _ _).1 g
    · intro h
      exact ⟨r, rfl, (fits_iff ss hne wf se pl _ (Nat.lt_succ_self _) _ _).2 h⟩

/-- A request that does not have as many parts as a path without a catch-all does not fit it; so `/orders/` and
`/orders/1/2` do not have the path `/orders/{id}`. -/
theorem one_part (ss : List Spec.Segment) (r : Str) (ps : List (Str × Str)) (h : Fits ss (splitSlash r) ps)
    (hc : ∀ n, Spec.Segment.catchAll n ∉ ss) : (splitSlash r).length = ss.length := by
  generalize splitSlash r = rs at h
  induction h with
  | done => rfl
  | text _ ih => exact congrArg (· + 1) (ih fun n hn => hc n (List.mem_cons_of_mem _ hn))
  | param _ _ ih => exact congrArg (· + 1) (ih fun n hn => hc n (List.mem_cons_of_mem _ hn))
  | rest _ => exact absurd (List.mem_cons_self ..) (hc _)

/-- How a router chooses among its paths: it serves a request with one of the paths that the request has, if it has any. -/
def Router {H : Type} (choose : List (Str × H) → Str → Option (H × List (Str × Str))) : Prop :=
  ∀ routes r,
    (∀ h ps, choose routes r = some (h, ps) → ∃ p, (p, h) ∈ routes ∧ routerMatch p r = some ps) ∧
    (choose routes r = none → ∀ p h, (p, h) ∈ routes → routerMatch p r = none)

/-- Whatever a router prefers: a request that fits the path of one handler only is served by this handler with the values
of the parameters, and one that fits none is served by none. -/
theorem served {H : Type} {choose : List (Str × H) → Str → Option (H × List (Str × Str))} (hr : Router choose)
    (handlers : List (List Spec.Segment × H))
    (good : ∀ x ∈ handlers, x.1 ≠ [] ∧ (∀ s ∈ x.1, s.WF) ∧ Sensible x.1 ∧ ∀ s ∈ x.1, Plain s) (r : Str) :
    let routes := handlers.map fun x => (toAxumPath ('/' :: Spec.path Spec.Segment.blueprint x.1), x.2)
    (∀ ss h ps, (ss, h) ∈ handlers → Fits ss (splitSlash r) ps →
      (∀ ss' h' ps', (ss', h') ∈ handlers → Fits ss' (splitSlash r) ps' → h' = h ∧ ps' = ps) →
      choose routes ('/' :: r) = some (h, ps)) ∧
    ((∀ ss h ps, (ss, h) ∈ handlers → ¬ Fits ss (splitSlash r) ps) → choose routes ('/' :: r) = none) := by
  intro routes
  have back : ∀ p h ps, (p, h) ∈ routes → routerMatch p ('/' :: r) = some ps →
      ∃ ss, (ss, h) ∈ handlers ∧ Fits ss (splitSlash r) ps := by
    intro p h ps hm g
    obtain ⟨⟨ss, h'⟩, hx, e⟩ := List.mem_map.1 hm
    injection e with e1 e2
    subst e1 e2
    obtain ⟨g1, g2, g3, g4⟩ := good _ hx
    exact ⟨ss, hx, ((paths_partial ss g1 g2 g3 g4).2 r ps).1 g⟩
  refine ⟨fun ss h ps hx fit only => ?_, fun none => ?_⟩
  · obtain ⟨g1, g2, g3, g4⟩ := good _ hx
    have hm := ((paths_partial ss g1 g2 g3 g4).2 r ps).2 fit
    cases hc : choose routes ('/' :: r) with
    | none =>
      have := (hr routes ('/' :: r)).2 hc _ h (List.mem_map.2 ⟨(ss, h), hx, rfl⟩)
      rw [this] at hm
      cases hm
    | some c =>
      obtain ⟨h', ps'⟩ := c
      obtain ⟨p, hp, hq⟩ := (hr routes ('/' :: r)).1 h' ps' hc
      obtain ⟨ss', hy, fit'⟩ := back p h' ps' hp hq
      obtain ⟨rfl, rfl⟩ := only _ _ _ hy fit'
      rfl
  · cases hc : choose routes ('/' :: r) with
    | none => rfl
    | some c =>
      obtain ⟨h', ps'⟩ := c
      obtain ⟨p, hp, hq⟩ := (hr routes ('/' :: r)).1 h' ps' hc
      obtain ⟨ss', hy, fit'⟩ := back p h' ps' hp hq
      exact absurd fit' (none _ _ _ hy)

/-- There are such routers: one that takes the first path that a request has. -/
example {H : Type} : Router (H := H) fun routes r =>
    routes.findSome? fun x => (routerMatch x.1 r).map fun ps => (x.2, ps) := by
  intro routes r
  refine ⟨fun h ps e => ?_, fun e p h hm => ?_⟩
  · obtain ⟨x, hx, g⟩ := List.exists_of_findSome?_eq_some e
    obtain ⟨ps', g1, g2⟩ := Option.map_eq_some_iff.1 g
    injection g2 with e1 e2
    subst e1 e2
    exact ⟨x.1, hx, g1⟩
  · have := List.findSome?_eq_none_iff.1 e (p, h) hm
    exact Option.map_eq_none_iff.1 this

/-- The hypotheses can be met: a path with text, a parameter and a catch-all, and a request that fits it. -/
example :
    routerMatch (toAxumPath "/orders/{id}/files/{path+}".toList) "/orders/7/files/a/b".toList =
      some [("id".toList, "7".toList), ("path".toList, "a/b".toList)] ∧
    Sensible [.text "orders".toList, .param "id".toList, .text "files".toList, .catchAll "path".toList] ∧
    (∀ s ∈ [Spec.Segment.text "orders".toList, .param "id".toList, .text "files".toList,
      .catchAll "path".toList], Plain s) ∧
    routerMatch (toAxumPath "/orders/{id}".toList) "/orders/".toList = none := by
  refine ⟨by decide, ⟨by decide, by decide, rfl⟩, ?_, by decide⟩
  intro s hs
  simp only [List.mem_cons, List.not_mem_nil, or_false] at hs
  rcases hs with rfl | rfl | rfl | rfl <;> exact ⟨by decide, by decide⟩

end Verif.Transform.Route
