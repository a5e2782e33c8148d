import Verif.Blueprint.SourceApi

/-!
# Reading back what was written: workflows

For every struct one statement per format: reading what was written and then resolving it gives
exactly what the struct means.
-/

namespace Verif.Blueprint.Source

open Verif Verif.Subst Verif.Subst.Spec

variable {F : Type} (cx : Ctx F) (env : Env)

theorem wTrees_map (l : List (Tree cx.cls F)) : wTrees l = l.map wTree := by
  induction l with
  | nil => rfl
  | cons a l ih => rw [wTrees, ih]; rfl

theorem yamlNodes_vec (l : List (Doc F)) : yamlNodes cx l = fillVec (keep (yamlNode cx)) l := by
  induction l with
  | nil => rfl
  | cons v l ih =>
    rw [yamlNodes, fillVec, ih, keep]
    cases yamlNode cx v with
    | ok n => generalize fillVec (keep (yamlNode cx)) l = o; cases o <;> rfl
    | err e => rfl
    | panic => rfl

theorem cond_json (x : Cond (Text cx.cls) (Tree cx.cls F)) (hd : Distinct (F := F) (wCond x))
    (y : Cond Str (RNode F)) :
    Ld (jsonCond cx (wCond x)) (resCond cx env) y ↔ CondM cx env .json x y := by
  unfold wCond at hd ⊢
  rw [wTrees_map] at hd ⊢
  unfold jsonCond resCond
  have d0 : DV _ := hd.value
  have hi : ∀ {l'}, Ld (readVec (jsonNode cx) (wList wTree x.inputs))
      (listM (resolveNode cx.parseF env 4)) l' ↔
      LRel (fun n r => TreeM cx env .json n r ∧ 4 + depth n ≤ 20) x.inputs l' :=
    ld_list fun a ha => tree_json cx env a (Distinct.list (w := wTree) (DV.req d0) a ha) 4 (by
        omega)
  constructor
  · rintro ⟨raw, hr, hs⟩
    rw [jsonStruct_obj hd (List.forall_mem_cons.2 ⟨key_req,
      List.forall_mem_cons.2 ⟨key_skip key_req, List.forall_mem_nil _⟩⟩)] at hr
    obtain ⟨w0, a0, hr⟩ := (reqF rfl).1 hr
    obtain ⟨w1, a1, hr⟩ := (reqF rfl).1 hr
    cases fill_done hr
    obtain ⟨v0, b0, hs⟩ := bind_eq_ok hs
    obtain ⟨v1, b1, hs⟩ := bind_eq_ok hs
    cases hs
    exact ⟨hi.1 ⟨_, a0, b0⟩, (text_json cx env _ _).1 ⟨_, a1, b1⟩⟩
  · rintro ⟨h0, h1⟩
    obtain ⟨w0, a0, b0⟩ := hi.2 h0
    obtain ⟨w1, a1, b1⟩ := (text_json cx env _ _).2 h1
    exact ⟨_, (jsonStruct_obj hd (List.forall_mem_cons.2 ⟨key_req,
      List.forall_mem_cons.2 ⟨key_skip key_req, List.forall_mem_nil _⟩⟩)).trans
      ((reqF rfl).2 ⟨_, a0, (reqF rfl).2 ⟨_, a1, rfl⟩⟩),
      (bind_ok b0 _).trans ((bind_ok b1 _).trans rfl)⟩

theorem cond_yaml (x : Cond (Text cx.cls) (Tree cx.cls F)) (hd : Distinct (F := F) (wCond x))
    (y : Cond Str (RNode F)) :
    Ld (readObj (yamlCond cx) (wCond x)) (resCond cx env) y ↔ CondM cx env .yaml x y := by
  unfold wCond at hd ⊢
  rw [wTrees_map] at hd ⊢
  simp only [readObj]
  unfold yamlCond resCond
  rw [get?_here, get?_req (by decide), get?_here]
  simp only [yamlNodes_vec]
  have d0 : DV _ := hd.value
  have hi : ∀ {l'}, Ld (fillVec (keep (yamlNode cx)) (x.inputs.map wTree))
      (listM (resolveNode cx.parseF env 4)) l' ↔
      LRel (fun n r => TreeM cx env .yaml n r ∧ 4 + depth n ≤ 20) x.inputs l' :=
    ld_list fun a ha => tree_yaml cx env a (Distinct.list (w := wTree) (DV.req d0) a ha) 4 (by
        omega)
  constructor
  · rintro ⟨raw, hr, hs⟩
    obtain ⟨w0, a0, hr⟩ := bind_eq_ok hr
    obtain ⟨w1, a1, hr⟩ := bind_eq_ok hr
    cases hr
    obtain ⟨v0, b0, hs⟩ := bind_eq_ok hs
    obtain ⟨v1, b1, hs⟩ := bind_eq_ok hs
    cases hs
    exact ⟨hi.1 ⟨_, a0, b0⟩, (text_yaml cx env _ _).1 ⟨_, a1, b1⟩⟩
  · rintro ⟨h0, h1⟩
    obtain ⟨w0, a0, b0⟩ := hi.2 h0
    obtain ⟨w1, a1, b1⟩ := (text_yaml cx env _ _).2 h1
    exact ⟨_, (bind_ok a0 _).trans ((bind_ok a1 _).trans rfl),
      (bind_ok b0 _).trans ((bind_ok b1 _).trans rfl)⟩

theorem tree0_json (n : Tree cx.cls F) (h : Distinct (wTree n)) (r : RNode F) :
    Ld (jsonNode cx (wTree n)) (resolveNode cx.parseF env 0) r ↔
      TreeM cx env .json n r ∧ depth n ≤ 20 := by
  rw [tree_json cx env n h 0 (by omega), Nat.zero_add]

theorem tree0_yaml (n : Tree cx.cls F) (h : Distinct (wTree n)) (r : RNode F) :
    Ld (yamlNode cx (wTree n)) (resolveNode cx.parseF env 0) r ↔
      TreeM cx env .yaml n r ∧ depth n ≤ 20 := by
  rw [tree_yaml cx env n h 0 (by omega), Nat.zero_add]

theorem rule_json (x : Rule (Text cx.cls) (Tree cx.cls F)) (hd : Distinct (F := F) (wRule x)) (y :
    Rule Str (RNode F)) :
    Ld (jsonRule cx (wRule x)) (resRule cx env) y ↔ RuleM cx env .json x y := by
  unfold wRule at hd ⊢
  unfold jsonRule
  unfold resRule
  have d0 : DV _ := hd.value
  constructor
  · rintro ⟨raw, hr, hs⟩
    rw [jsonStruct_obj hd (List.forall_mem_cons.2 ⟨(key_skip (key_skip (key_skip (key_skip
        key_req)))), List.forall_mem_nil _⟩)] at hr
    obtain ⟨w0, a0, hr⟩ := (optJ rfl (fun _ => nn rfl) rfl).1 hr
    obtain ⟨w1, a1, hr⟩ := (optJ rfl (fun _ => nn rfl) rfl).1 hr
    obtain ⟨w2, a2, hr⟩ := (optJ rfl (fun _ => nn rfl) rfl).1 hr
    obtain ⟨w3, a3, hr⟩ := (optJ rfl (fun _ => nn rfl) rfl).1 hr
    obtain ⟨w4, a4, hr⟩ := (reqF rfl).1 hr
    cases fill_done hr
    obtain ⟨v3, b3, hs⟩ := bind_eq_ok hs
    obtain ⟨v0, b0, hs⟩ := bind_eq_ok hs
    obtain ⟨v1, b1, hs⟩ := bind_eq_ok hs
    obtain ⟨v2, b2, hs⟩ := bind_eq_ok hs
    obtain ⟨v4, b4, hs⟩ := bind_eq_ok hs
    cases hs
    exact ⟨(ld_opt fun l h _ => ld_list fun a ha => cond_json cx env a (Distinct.list ((DV.opt d0)
        l h) a ha)).1 ⟨_, a0, b0⟩,
      (ld_opt fun l h _ => ld_list fun a ha => cond_json cx env a (Distinct.list ((DV.opt (DV.rest
          d0)) l h) a ha)).1 ⟨_, a1, b1⟩,
      (ld_opt fun a h => cond_json cx env a ((DV.opt (DV.rest (DV.rest d0))) a h)).1 ⟨_, a2, b2⟩,
      (ld_opt fun a h => cond_json cx env a ((DV.opt (DV.rest (DV.rest (DV.rest d0)))) a h)).1 ⟨_,
          a3, b3⟩,
      (text_json cx env _ _).1 ⟨_, a4, b4⟩,
      nofun⟩
  · rintro ⟨h0, h1, h2, h3, h4, hf⟩
    obtain ⟨w0, a0, b0⟩ := (ld_opt fun l h _ => ld_list fun a ha => cond_json cx env a
        (Distinct.list ((DV.opt d0) l h) a ha)).2 h0
    obtain ⟨w1, a1, b1⟩ := (ld_opt fun l h _ => ld_list fun a ha => cond_json cx env a
        (Distinct.list ((DV.opt (DV.rest d0)) l h) a ha)).2 h1
    obtain ⟨w2, a2, b2⟩ := (ld_opt fun a h => cond_json cx env a ((DV.opt (DV.rest (DV.rest d0))) a
        h)).2 h2
    obtain ⟨w3, a3, b3⟩ := (ld_opt fun a h => cond_json cx env a ((DV.opt (DV.rest (DV.rest
        (DV.rest d0)))) a h)).2 h3
    obtain ⟨w4, a4, b4⟩ := (text_json cx env _ _).2 h4
    exact ⟨_, (jsonStruct_obj hd (List.forall_mem_cons.2 ⟨(key_skip (key_skip (key_skip (key_skip
        key_req)))), List.forall_mem_nil _⟩)).trans ((optJ rfl (fun _ => nn rfl) rfl).2 ⟨_, a0,
        (optJ rfl (fun _ => nn rfl) rfl).2 ⟨_, a1, (optJ rfl (fun _ => nn rfl) rfl).2 ⟨_, a2, (optJ
        rfl (fun _ => nn rfl) rfl).2 ⟨_, a3, (reqF rfl).2 ⟨_, a4, rfl⟩⟩⟩⟩⟩),
      (bind_ok b3 _).trans ((bind_ok b0 _).trans ((bind_ok b1 _).trans ((bind_ok b2 _).trans
          ((bind_ok b4 _).trans (rfl)))))⟩

theorem rule_yaml (x : Rule (Text cx.cls) (Tree cx.cls F)) (hd : Distinct (F := F) (wRule x)) (y :
    Rule Str (RNode F)) :
    Ld (readObj (yamlRule cx ) (wRule x)) (resRule cx env) y ↔ RuleM cx env .yaml x y := by
  unfold wRule at hd ⊢
  simp only [readObj]
  unfold yamlRule
  unfold resRule
  have d0 : DV _ := hd.value
  constructor
  · rintro ⟨raw, hr, hs⟩
    obtain ⟨_, hr, hq⟩ := bind_eq_ok hr
    obtain ⟨_, hq, hz⟩ := bind_eq_ok hq
    cases hz
    obtain ⟨w0, a0, hr⟩ := (optY rfl (fun s o => { s with and := o }) (fun _ => rfl) rfl).1 hr
    obtain ⟨w1, a1, hr⟩ := (optY rfl (fun s o => { s with or := o }) (fun _ => rfl) rfl).1 hr
    obtain ⟨w2, a2, hr⟩ := (optY rfl (fun s o => { s with not := o }) (fun _ => rfl) rfl).1 hr
    obtain ⟨w3, a3, hr⟩ := (optY rfl (fun s o => { s with condition := o }) (fun _ => rfl) rfl).1 hr
    obtain ⟨w4, a4, hr⟩ := (reqF rfl).1 hr
    cases fill_done hr
    obtain ⟨v3, b3, hs⟩ := bind_eq_ok hs
    obtain ⟨v0, b0, hs⟩ := bind_eq_ok hs
    obtain ⟨v1, b1, hs⟩ := bind_eq_ok hs
    obtain ⟨v2, b2, hs⟩ := bind_eq_ok hs
    obtain ⟨v4, b4, hs⟩ := bind_eq_ok hs
    cases hs
    exact ⟨(ld_opt fun l h _ => ld_listSkip (sk := skipNonObj (yamlCond cx)) (fun _ _ => rfl) fun a
        ha => cond_yaml cx env a (Distinct.list ((DV.opt d0) l h) a ha)).1 ⟨_, a0, b0⟩,
      (ld_opt fun l h _ => ld_listSkip (sk := skipNonObj (yamlCond cx)) (fun _ _ => rfl) fun a ha
          => cond_yaml cx env a (Distinct.list ((DV.opt (DV.rest d0)) l h) a ha)).1 ⟨_, a1, b1⟩,
      (ld_opt fun a h => cond_yaml cx env a ((DV.opt (DV.rest (DV.rest d0))) a h)).1 ⟨_, a2, b2⟩,
      (ld_opt fun a h => cond_yaml cx env a ((DV.opt (DV.rest (DV.rest (DV.rest d0)))) a h)).1 ⟨_,
          a3, b3⟩,
      (text_yaml cx env _ _).1 ⟨_, a4, b4⟩,
      fun _ => (filled_text cx a4).1 (require_iff.1 hq)⟩
  · rintro ⟨h0, h1, h2, h3, h4, hf⟩
    obtain ⟨w0, a0, b0⟩ := (ld_opt fun l h _ => ld_listSkip (sk := skipNonObj (yamlCond cx)) (fun _
        _ => rfl) fun a ha => cond_yaml cx env a (Distinct.list ((DV.opt d0) l h) a ha)).2 h0
    obtain ⟨w1, a1, b1⟩ := (ld_opt fun l h _ => ld_listSkip (sk := skipNonObj (yamlCond cx)) (fun _
        _ => rfl) fun a ha => cond_yaml cx env a (Distinct.list ((DV.opt (DV.rest d0)) l h) a
        ha)).2 h1
    obtain ⟨w2, a2, b2⟩ := (ld_opt fun a h => cond_yaml cx env a ((DV.opt (DV.rest (DV.rest d0))) a
        h)).2 h2
    obtain ⟨w3, a3, b3⟩ := (ld_opt fun a h => cond_yaml cx env a ((DV.opt (DV.rest (DV.rest
        (DV.rest d0)))) a h)).2 h3
    obtain ⟨w4, a4, b4⟩ := (text_yaml cx env _ _).2 h4
    exact ⟨_, (bind_ok ((optY rfl (fun s o => { s with and := o }) (fun _ => rfl) rfl).2 ⟨_, a0,
        (optY rfl (fun s o => { s with or := o }) (fun _ => rfl) rfl).2 ⟨_, a1, (optY rfl (fun s o
        => { s with not := o }) (fun _ => rfl) rfl).2 ⟨_, a2, (optY rfl (fun s o => { s with
        condition := o }) (fun _ => rfl) rfl).2 ⟨_, a3, (reqF rfl).2 ⟨_, a4, rfl⟩⟩⟩⟩⟩) _).trans
        ((bind_ok (require_iff.2 ((filled_text cx a4).2 (hf rfl))) _).trans rfl),
      (bind_ok b3 _).trans ((bind_ok b0 _).trans ((bind_ok b1 _).trans ((bind_ok b2 _).trans
          ((bind_ok b4 _).trans (rfl)))))⟩

theorem wait_json (x : WaitConfig (Text cx.cls)) (hd : Distinct (F := F) (wWait x)) (y : WaitConfig
    Str) :
    Ld (jsonWait cx (wWait x)) (resWait env) y ↔ WaitM env x y := by
  unfold wWait at hd ⊢
  unfold jsonWait
  unfold resWait
  have d0 : DV _ := hd.value
  constructor
  · rintro ⟨raw, hr, hs⟩
    rw [jsonStruct_obj hd (List.forall_mem_nil _)] at hr
    obtain ⟨w0, a0, hr⟩ := (optJ rfl (fun _ => nn rfl) rfl).1 hr
    obtain ⟨w1, a1, hr⟩ := (optJ rfl (fun _ => nn rfl) rfl).1 hr
    cases fill_done hr
    obtain ⟨v0, b0, hs⟩ := bind_eq_ok hs
    obtain ⟨v1, b1, hs⟩ := bind_eq_ok hs
    cases hs
    exact ⟨(ld_opt fun a _ => text_json cx env a).1 ⟨_, a0, b0⟩,
      (ld_opt fun a _ => text_json cx env a).1 ⟨_, a1, b1⟩⟩
  · rintro ⟨h0, h1⟩
    obtain ⟨w0, a0, b0⟩ := (ld_opt fun a _ => text_json cx env a).2 h0
    obtain ⟨w1, a1, b1⟩ := (ld_opt fun a _ => text_json cx env a).2 h1
    exact ⟨_, (jsonStruct_obj hd (List.forall_mem_nil _)).trans ((optJ rfl (fun _ => nn rfl) rfl).2
        ⟨_, a0, (optJ rfl (fun _ => nn rfl) rfl).2 ⟨_, a1, rfl⟩⟩),
      (bind_ok b0 _).trans ((bind_ok b1 _).trans (rfl))⟩

theorem wait_yaml (x : WaitConfig (Text cx.cls)) (hd : Distinct (F := F) (wWait x)) (y : WaitConfig
    Str) :
    Ld (readObj (yamlWait cx ) (wWait x)) (resWait env) y ↔ WaitM env x y := by
  unfold wWait at hd ⊢
  simp only [readObj]
  unfold yamlWait
  unfold resWait
  have d0 : DV _ := hd.value
  constructor
  · rintro ⟨raw, hr, hs⟩
    obtain ⟨w0, a0, hr⟩ := (optY rfl (fun s o => { s with seconds := o }) (fun _ => rfl) rfl).1 hr
    obtain ⟨w1, a1, hr⟩ := (optY rfl (fun s o => { s with timestamp := o }) (fun _ => rfl) rfl).1 hr
    cases fill_done hr
    obtain ⟨v0, b0, hs⟩ := bind_eq_ok hs
    obtain ⟨v1, b1, hs⟩ := bind_eq_ok hs
    cases hs
    exact ⟨(ld_opt fun a _ => text_yaml cx env a).1 ⟨_, a0, b0⟩,
      (ld_opt fun a _ => text_yaml cx env a).1 ⟨_, a1, b1⟩⟩
  · rintro ⟨h0, h1⟩
    obtain ⟨w0, a0, b0⟩ := (ld_opt fun a _ => text_yaml cx env a).2 h0
    obtain ⟨w1, a1, b1⟩ := (ld_opt fun a _ => text_yaml cx env a).2 h1
    exact ⟨_, (optY rfl (fun s o => { s with seconds := o }) (fun _ => rfl) rfl).2 ⟨_, a0, (optY
        rfl (fun s o => { s with timestamp := o }) (fun _ => rfl) rfl).2 ⟨_, a1, rfl⟩⟩,
      (bind_ok b0 _).trans ((bind_ok b1 _).trans (rfl))⟩

theorem failure_json (x : FailureConfig (Text cx.cls)) (hd : Distinct (F := F) (wFailure x)) (y :
    FailureConfig Str) :
    Ld (jsonFailure cx (wFailure x)) (resFailure env) y ↔ FailureM env x y := by
  unfold wFailure at hd ⊢
  unfold jsonFailure
  unfold resFailure
  have d0 : DV _ := hd.value
  constructor
  · rintro ⟨raw, hr, hs⟩
    rw [jsonStruct_obj hd (List.forall_mem_nil _)] at hr
    obtain ⟨w0, a0, hr⟩ := (optJ rfl (fun _ => nn rfl) rfl).1 hr
    obtain ⟨w1, a1, hr⟩ := (optJ rfl (fun _ => nn rfl) rfl).1 hr
    cases fill_done hr
    obtain ⟨v0, b0, hs⟩ := bind_eq_ok hs
    obtain ⟨v1, b1, hs⟩ := bind_eq_ok hs
    cases hs
    exact ⟨(ld_opt fun a _ => text_json cx env a).1 ⟨_, a0, b0⟩,
      (ld_opt fun a _ => text_json cx env a).1 ⟨_, a1, b1⟩⟩
  · rintro ⟨h0, h1⟩
    obtain ⟨w0, a0, b0⟩ := (ld_opt fun a _ => text_json cx env a).2 h0
    obtain ⟨w1, a1, b1⟩ := (ld_opt fun a _ => text_json cx env a).2 h1
    exact ⟨_, (jsonStruct_obj hd (List.forall_mem_nil _)).trans ((optJ rfl (fun _ => nn rfl) rfl).2
        ⟨_, a0, (optJ rfl (fun _ => nn rfl) rfl).2 ⟨_, a1, rfl⟩⟩),
      (bind_ok b0 _).trans ((bind_ok b1 _).trans (rfl))⟩

theorem failure_yaml (x : FailureConfig (Text cx.cls)) (hd : Distinct (F := F) (wFailure x)) (y :
    FailureConfig Str) :
    Ld (readObj (yamlFailure cx ) (wFailure x)) (resFailure env) y ↔ FailureM env x y := by
  unfold wFailure at hd ⊢
  simp only [readObj]
  unfold yamlFailure
  unfold resFailure
  have d0 : DV _ := hd.value
  constructor
  · rintro ⟨raw, hr, hs⟩
    obtain ⟨w0, a0, hr⟩ := (optY rfl (fun s o => { s with error := o }) (fun _ => rfl) rfl).1 hr
    obtain ⟨w1, a1, hr⟩ := (optY rfl (fun s o => { s with cause := o }) (fun _ => rfl) rfl).1 hr
    cases fill_done hr
    obtain ⟨v0, b0, hs⟩ := bind_eq_ok hs
    obtain ⟨v1, b1, hs⟩ := bind_eq_ok hs
    cases hs
    exact ⟨(ld_opt fun a _ => text_yaml cx env a).1 ⟨_, a0, b0⟩,
      (ld_opt fun a _ => text_yaml cx env a).1 ⟨_, a1, b1⟩⟩
  · rintro ⟨h0, h1⟩
    obtain ⟨w0, a0, b0⟩ := (ld_opt fun a _ => text_yaml cx env a).2 h0
    obtain ⟨w1, a1, b1⟩ := (ld_opt fun a _ => text_yaml cx env a).2 h1
    exact ⟨_, (optY rfl (fun s o => { s with error := o }) (fun _ => rfl) rfl).2 ⟨_, a0, (optY rfl
        (fun s o => { s with cause := o }) (fun _ => rfl) rfl).2 ⟨_, a1, rfl⟩⟩,
      (bind_ok b0 _).trans ((bind_ok b1 _).trans (rfl))⟩

theorem retry_json (x : Retry (Text cx.cls) (Val cx.cls I64) (Val cx.cls Bool) (Val cx.cls F)) (hd
    : Distinct (F := F) (wRetry x)) (y : Retry Str Int Bool F) :
    Ld (jsonRetry cx (wRetry x)) (resRetry cx env) y ↔ RetryM cx env .json x y := by
  unfold wRetry at hd ⊢
  unfold jsonRetry
  unfold resRetry
  have d0 : DV _ := hd.value
  constructor
  · rintro ⟨raw, hr, hs⟩
    rw [jsonStruct_obj hd (List.forall_mem_cons.2 ⟨key_req, List.forall_mem_nil _⟩)] at hr
    obtain ⟨w0, a0, hr⟩ := (reqF rfl).1 hr
    obtain ⟨w1, a1, hr⟩ := (optJ rfl int_nn rfl).1 hr
    obtain ⟨w2, a2, hr⟩ := (optJ rfl int_nn rfl).1 hr
    obtain ⟨w3, a3, hr⟩ := (optJ rfl int_nn rfl).1 hr
    obtain ⟨w4, a4, hr⟩ := (optJ rfl bool_nn rfl).1 hr
    obtain ⟨w5, a5, hr⟩ := (optJ rfl float_nn rfl).1 hr
    cases fill_done hr
    obtain ⟨v0, b0, hs⟩ := bind_eq_ok hs
    obtain ⟨v1, b1, hs⟩ := bind_eq_ok hs
    obtain ⟨v2, b2, hs⟩ := bind_eq_ok hs
    obtain ⟨v3, b3, hs⟩ := bind_eq_ok hs
    obtain ⟨v4, b4, hs⟩ := bind_eq_ok hs
    obtain ⟨v5, b5, hs⟩ := bind_eq_ok hs
    cases hs
    exact ⟨(texts_json cx env _ _).1 ⟨_, a0, b0⟩,
      (ld_int cx env (int_json cx env)).1 ⟨_, a1, b1⟩,
      (ld_int cx env (int_json cx env)).1 ⟨_, a2, b2⟩,
      (ld_int cx env (int_json cx env)).1 ⟨_, a3, b3⟩,
      (ld_bool cx env (bool_json cx env)).1 ⟨_, a4, b4⟩,
      (ld_float cx env (float_json cx env)).1 ⟨_, a5, b5⟩⟩
  · rintro ⟨h0, h1, h2, h3, h4, h5⟩
    obtain ⟨w0, a0, b0⟩ := (texts_json cx env _ _).2 h0
    obtain ⟨w1, a1, b1⟩ := (ld_int cx env (int_json cx env)).2 h1
    obtain ⟨w2, a2, b2⟩ := (ld_int cx env (int_json cx env)).2 h2
    obtain ⟨w3, a3, b3⟩ := (ld_int cx env (int_json cx env)).2 h3
    obtain ⟨w4, a4, b4⟩ := (ld_bool cx env (bool_json cx env)).2 h4
    obtain ⟨w5, a5, b5⟩ := (ld_float cx env (float_json cx env)).2 h5
    exact ⟨_, (jsonStruct_obj hd (List.forall_mem_cons.2 ⟨key_req, List.forall_mem_nil _⟩)).trans
        ((reqF rfl).2 ⟨_, a0, (optJ rfl int_nn rfl).2 ⟨_, a1, (optJ rfl int_nn rfl).2 ⟨_, a2, (optJ
        rfl int_nn rfl).2 ⟨_, a3, (optJ rfl bool_nn rfl).2 ⟨_, a4, (optJ rfl float_nn rfl).2 ⟨_,
        a5, rfl⟩⟩⟩⟩⟩⟩),
      (bind_ok b0 _).trans ((bind_ok b1 _).trans ((bind_ok b2 _).trans ((bind_ok b3 _).trans
          ((bind_ok b4 _).trans ((bind_ok b5 _).trans (rfl))))))⟩

theorem retry_yaml (x : Retry (Text cx.cls) (Val cx.cls I64) (Val cx.cls Bool) (Val cx.cls F)) (hd
    : Distinct (F := F) (wRetry x)) (y : Retry Str Int Bool F) :
    Ld (readObj (yamlRetry cx ) (wRetry x)) (resRetry cx env) y ↔ RetryM cx env .yaml x y := by
  unfold wRetry at hd ⊢
  simp only [readObj]
  unfold yamlRetry
  unfold resRetry
  have d0 : DV _ := hd.value
  constructor
  · rintro ⟨raw, hr, hs⟩
    obtain ⟨w0, a0, hr⟩ := (reqF rfl).1 hr
    obtain ⟨w1, a1, hr⟩ := (optY rfl (fun s o => { s with interval := o }) (fun _ => rfl) rfl).1 hr
    obtain ⟨w2, a2, hr⟩ := (optY rfl (fun s o => { s with maxAttempts := o }) (fun _ => rfl) rfl).1
        hr
    obtain ⟨w3, a3, hr⟩ := (optY rfl (fun s o => { s with maxDelay := o }) (fun _ => rfl) rfl).1 hr
    obtain ⟨w4, a4, hr⟩ := (optY rfl (fun s o => { s with jitter := o }) (fun _ => rfl) rfl).1 hr
    obtain ⟨w5, a5, hr⟩ := (optY rfl (fun s o => { s with backoffRate := o }) (fun _ => rfl) rfl).1
        hr
    cases fill_done hr
    obtain ⟨v0, b0, hs⟩ := bind_eq_ok hs
    obtain ⟨v1, b1, hs⟩ := bind_eq_ok hs
    obtain ⟨v2, b2, hs⟩ := bind_eq_ok hs
    obtain ⟨v3, b3, hs⟩ := bind_eq_ok hs
    obtain ⟨v4, b4, hs⟩ := bind_eq_ok hs
    obtain ⟨v5, b5, hs⟩ := bind_eq_ok hs
    cases hs
    exact ⟨(texts_yaml cx env _ _).1 ⟨_, a0, b0⟩,
      (ld_int cx env (int_yaml cx env)).1 ⟨_, a1, b1⟩,
      (ld_int cx env (int_yaml cx env)).1 ⟨_, a2, b2⟩,
      (ld_int cx env (int_yaml cx env)).1 ⟨_, a3, b3⟩,
      (ld_bool cx env (bool_yaml cx env)).1 ⟨_, a4, b4⟩,
      (ld_float cx env (float_yaml cx env)).1 ⟨_, a5, b5⟩⟩
  · rintro ⟨h0, h1, h2, h3, h4, h5⟩
    obtain ⟨w0, a0, b0⟩ := (texts_yaml cx env _ _).2 h0
    obtain ⟨w1, a1, b1⟩ := (ld_int cx env (int_yaml cx env)).2 h1
    obtain ⟨w2, a2, b2⟩ := (ld_int cx env (int_yaml cx env)).2 h2
    obtain ⟨w3, a3, b3⟩ := (ld_int cx env (int_yaml cx env)).2 h3
    obtain ⟨w4, a4, b4⟩ := (ld_bool cx env (bool_yaml cx env)).2 h4
    obtain ⟨w5, a5, b5⟩ := (ld_float cx env (float_yaml cx env)).2 h5
    exact ⟨_, (reqF rfl).2 ⟨_, a0, (optY rfl (fun s o => { s with interval := o }) (fun _ => rfl)
        rfl).2 ⟨_, a1, (optY rfl (fun s o => { s with maxAttempts := o }) (fun _ => rfl) rfl).2 ⟨_,
        a2, (optY rfl (fun s o => { s with maxDelay := o }) (fun _ => rfl) rfl).2 ⟨_, a3, (optY rfl
        (fun s o => { s with jitter := o }) (fun _ => rfl) rfl).2 ⟨_, a4, (optY rfl (fun s o => { s
        with backoffRate := o }) (fun _ => rfl) rfl).2 ⟨_, a5, rfl⟩⟩⟩⟩⟩⟩,
      (bind_ok b0 _).trans ((bind_ok b1 _).trans ((bind_ok b2 _).trans ((bind_ok b3 _).trans
          ((bind_ok b4 _).trans ((bind_ok b5 _).trans (rfl))))))⟩

theorem catch_json (x : Catch (Text cx.cls)) (hd : Distinct (F := F) (wCatch x)) (y : Catch Str) :
    Ld (jsonCatch cx (wCatch x)) (resCatch env) y ↔ CatchM env x y := by
  unfold wCatch at hd ⊢
  unfold jsonCatch
  unfold resCatch
  have d0 : DV _ := hd.value
  constructor
  · rintro ⟨raw, hr, hs⟩
    rw [jsonStruct_obj hd (List.forall_mem_cons.2 ⟨key_req, List.forall_mem_cons.2 ⟨(key_skip
        key_req), List.forall_mem_nil _⟩⟩)] at hr
    obtain ⟨w0, a0, hr⟩ := (reqF rfl).1 hr
    obtain ⟨w1, a1, hr⟩ := (reqF rfl).1 hr
    obtain ⟨w2, a2, hr⟩ := (optJ rfl (fun _ => nn rfl) rfl).1 hr
    cases fill_done hr
    obtain ⟨v0, b0, hs⟩ := bind_eq_ok hs
    obtain ⟨v1, b1, hs⟩ := bind_eq_ok hs
    obtain ⟨v2, b2, hs⟩ := bind_eq_ok hs
    cases hs
    exact ⟨(texts_json cx env _ _).1 ⟨_, a0, b0⟩,
      (text_json cx env _ _).1 ⟨_, a1, b1⟩,
      (ld_opt fun a _ => text_json cx env a).1 ⟨_, a2, b2⟩⟩
  · rintro ⟨h0, h1, h2⟩
    obtain ⟨w0, a0, b0⟩ := (texts_json cx env _ _).2 h0
    obtain ⟨w1, a1, b1⟩ := (text_json cx env _ _).2 h1
    obtain ⟨w2, a2, b2⟩ := (ld_opt fun a _ => text_json cx env a).2 h2
    exact ⟨_, (jsonStruct_obj hd (List.forall_mem_cons.2 ⟨key_req, List.forall_mem_cons.2
        ⟨(key_skip key_req), List.forall_mem_nil _⟩⟩)).trans ((reqF rfl).2 ⟨_, a0, (reqF rfl).2 ⟨_,
        a1, (optJ rfl (fun _ => nn rfl) rfl).2 ⟨_, a2, rfl⟩⟩⟩),
      (bind_ok b0 _).trans ((bind_ok b1 _).trans ((bind_ok b2 _).trans (rfl)))⟩

theorem catch_yaml (x : Catch (Text cx.cls)) (hd : Distinct (F := F) (wCatch x)) (y : Catch Str) :
    Ld (readObj (yamlCatch cx ) (wCatch x)) (resCatch env) y ↔ CatchM env x y := by
  unfold wCatch at hd ⊢
  simp only [readObj]
  unfold yamlCatch
  unfold resCatch
  have d0 : DV _ := hd.value
  constructor
  · rintro ⟨raw, hr, hs⟩
    obtain ⟨w0, a0, hr⟩ := (reqF rfl).1 hr
    obtain ⟨w1, a1, hr⟩ := (reqF rfl).1 hr
    obtain ⟨w2, a2, hr⟩ := (optY rfl (fun s o => { s with resultPath := o }) (fun _ => rfl) rfl).1
        hr
    cases fill_done hr
    obtain ⟨v0, b0, hs⟩ := bind_eq_ok hs
    obtain ⟨v1, b1, hs⟩ := bind_eq_ok hs
    obtain ⟨v2, b2, hs⟩ := bind_eq_ok hs
    cases hs
    exact ⟨(texts_yaml cx env _ _).1 ⟨_, a0, b0⟩,
      (text_yaml cx env _ _).1 ⟨_, a1, b1⟩,
      (ld_opt fun a _ => text_yaml cx env a).1 ⟨_, a2, b2⟩⟩
  · rintro ⟨h0, h1, h2⟩
    obtain ⟨w0, a0, b0⟩ := (texts_yaml cx env _ _).2 h0
    obtain ⟨w1, a1, b1⟩ := (text_yaml cx env _ _).2 h1
    obtain ⟨w2, a2, b2⟩ := (ld_opt fun a _ => text_yaml cx env a).2 h2
    exact ⟨_, (reqF rfl).2 ⟨_, a0, (reqF rfl).2 ⟨_, a1, (optY rfl (fun s o => { s with resultPath
        := o }) (fun _ => rfl) rfl).2 ⟨_, a2, rfl⟩⟩⟩,
      (bind_ok b0 _).trans ((bind_ok b1 _).trans ((bind_ok b2 _).trans (rfl)))⟩

theorem tail_done {S : Type} {st : Bool} {T : List (Field F S)} {b : List (Str × Doc F)} {s y : S}
    (hg : get? T "parallelBranches".toList = some fun _ s => .ok s)
    (hb : b = [] ∨ ∃ v, b = req "parallelBranches" v) : fill st T b s = .ok y ↔ s = y := by
  rcases hb with rfl | ⟨v, rfl⟩
  · simp [fill]
  · rw [req, fill_entry hg]
    simp [fill, Bind.bind, Outcome.bind]

theorem fields_json (x : SFields cx.cls F) (b : List (Str × Doc F))
    (hb : b = [] ∨ ∃ v, b = req "parallelBranches" v) (hd : Distinct (F := F) (.obj (wFields x b)))
    (y : StateFields Str Int Bool F (RNode F) StateType) :
    Ld (jsonStateFields cx (.obj (wFields x b))) (resStateFields cx env) y ↔
      FieldsM cx env .json x y := by
  unfold wFields at hd ⊢
  unfold jsonStateFields resStateFields
  have d0 : DV _ := hd.value
  constructor
  · rintro ⟨raw, hr, hs⟩
    rw [jsonStruct_obj hd (List.forall_mem_cons.2 ⟨key_req, List.forall_mem_nil _⟩)] at hr
    obtain ⟨w0, a0, hr⟩ := (reqF rfl).1 hr
    obtain ⟨w1, a1, hr⟩ := (optJ rfl (fun _ => nn rfl) rfl).1 hr
    obtain ⟨w2, a2, hr⟩ := (optJ rfl (fun _ => nn rfl) rfl).1 hr
    obtain ⟨w3, a3, hr⟩ := (optJ rfl (fun _ => nn rfl) rfl).1 hr
    obtain ⟨w4, a4, hr⟩ := (optJ rfl (fun _ => nn rfl) rfl).1 hr
    obtain ⟨w5, a5, hr⟩ := (optJ rfl (fun _ => nn rfl) rfl).1 hr
    obtain ⟨w6, a6, hr⟩ := (optJ rfl (fun _ => nn rfl) rfl).1 hr
    obtain ⟨w7, a7, hr⟩ := (optJ rfl bool_nn rfl).1 hr
    obtain ⟨w8, a8, hr⟩ := (optJ rfl (fun _ => nn rfl) rfl).1 hr
    obtain ⟨w9, a9, hr⟩ := (optJ rfl tree_nn rfl).1 hr
    obtain ⟨w10, a10, hr⟩ := (optJ rfl int_nn rfl).1 hr
    obtain ⟨w11, a11, hr⟩ := (optJ rfl (fun _ => nn rfl) rfl).1 hr
    obtain ⟨w12, a12, hr⟩ := (optJ rfl (fun _ => nn rfl) rfl).1 hr
    obtain ⟨w13, a13, hr⟩ := (optJ rfl (fun _ => nn rfl) rfl).1 hr
    obtain ⟨w14, a14, hr⟩ := (optJ rfl (fun _ => nn rfl) rfl).1 hr
    cases (tail_done rfl hb).1 hr
    obtain ⟨v0, b0, hs⟩ := bind_eq_ok hs
    obtain ⟨v2, b2, hs⟩ := bind_eq_ok hs
    obtain ⟨v3, b3, hs⟩ := bind_eq_ok hs
    obtain ⟨v4, b4, hs⟩ := bind_eq_ok hs
    obtain ⟨v5, b5, hs⟩ := bind_eq_ok hs
    obtain ⟨v6, b6, hs⟩ := bind_eq_ok hs
    obtain ⟨v7, b7, hs⟩ := bind_eq_ok hs
    obtain ⟨v8, b8, hs⟩ := bind_eq_ok hs
    obtain ⟨v1, b1, hs⟩ := bind_eq_ok hs
    obtain ⟨v9, b9, hs⟩ := bind_eq_ok hs
    obtain ⟨v10, b10, hs⟩ := bind_eq_ok hs
    obtain ⟨v11, b11, hs⟩ := bind_eq_ok hs
    obtain ⟨v12, b12, hs⟩ := bind_eq_ok hs
    obtain ⟨v13, b13, hs⟩ := bind_eq_ok hs
    obtain ⟨v14, b14, hs⟩ := bind_eq_ok hs
    cases hs
    exact ⟨(stateType_json cx env _ _).1 ⟨_, a0, b0⟩,
      (ld_opt fun a _ => text_json cx env a).1 ⟨_, a1, b1⟩,
      (ld_opt fun a _ => text_json cx env a).1 ⟨_, a2, b2⟩,
      (ld_opt fun a _ => text_json cx env a).1 ⟨_, a3, b3⟩,
      (ld_opt fun a _ => text_json cx env a).1 ⟨_, a4, b4⟩,
      (ld_opt fun m h => entries_json cx env m ((DV.opt (DV.rest (DV.rest (DV.rest (DV.rest
          (DV.rest d0)))))) m h)).1 ⟨_, a5, b5⟩,
      (ld_opt fun a _ => text_json cx env a).1 ⟨_, a6, b6⟩,
      (ld_bool cx env (bool_json cx env)).1 ⟨_, a7, b7⟩,
      (ld_opt fun l h _ => ld_list fun a ha => rule_json cx env a (Distinct.list ((DV.opt (DV.rest
          (DV.rest (DV.rest (DV.rest (DV.rest (DV.rest (DV.rest (DV.rest d0))))))))) l h) a ha)).1
          ⟨_, a8, b8⟩,
      (ld_opt fun a h => tree0_json cx env a ((DV.opt (DV.rest (DV.rest (DV.rest (DV.rest (DV.rest
          (DV.rest (DV.rest (DV.rest (DV.rest d0)))))))))) a h)).1 ⟨_, a9, b9⟩,
      (ld_int cx env (int_json cx env)).1 ⟨_, a10, b10⟩,
      (ld_opt fun a h => wait_json cx env a ((DV.opt (DV.rest (DV.rest (DV.rest (DV.rest (DV.rest
          (DV.rest (DV.rest (DV.rest (DV.rest (DV.rest (DV.rest d0)))))))))))) a h)).1 ⟨_, a11,
          b11⟩,
      (ld_opt fun a h => failure_json cx env a ((DV.opt (DV.rest (DV.rest (DV.rest (DV.rest
          (DV.rest (DV.rest (DV.rest (DV.rest (DV.rest (DV.rest (DV.rest (DV.rest d0))))))))))))) a
          h)).1 ⟨_, a12, b12⟩,
      (ld_opt fun l h _ => ld_list fun a ha => retry_json cx env a (Distinct.list ((DV.opt (DV.rest
          (DV.rest (DV.rest (DV.rest (DV.rest (DV.rest (DV.rest (DV.rest (DV.rest (DV.rest (DV.rest
          (DV.rest (DV.rest d0)))))))))))))) l h) a ha)).1 ⟨_, a13, b13⟩,
      (ld_opt fun l h _ => ld_list fun a ha => catch_json cx env a (Distinct.list ((DV.opt (DV.rest
          (DV.rest (DV.rest (DV.rest (DV.rest (DV.rest (DV.rest (DV.rest (DV.rest (DV.rest (DV.rest
          (DV.rest (DV.rest (DV.rest d0))))))))))))))) l h) a ha)).1 ⟨_, a14, b14⟩,
      nofun⟩
  · rintro ⟨h0, h1, h2, h3, h4, h5, h6, h7, h8, h9, h10, h11, h12, h13, h14, hf⟩
    obtain ⟨w0, a0, b0⟩ := (stateType_json cx env _ _).2 h0
    obtain ⟨w1, a1, b1⟩ := (ld_opt fun a _ => text_json cx env a).2 h1
    obtain ⟨w2, a2, b2⟩ := (ld_opt fun a _ => text_json cx env a).2 h2
    obtain ⟨w3, a3, b3⟩ := (ld_opt fun a _ => text_json cx env a).2 h3
    obtain ⟨w4, a4, b4⟩ := (ld_opt fun a _ => text_json cx env a).2 h4
    obtain ⟨w5, a5, b5⟩ := (ld_opt fun m h => entries_json cx env m ((DV.opt (DV.rest (DV.rest
        (DV.rest (DV.rest (DV.rest d0)))))) m h)).2 h5
    obtain ⟨w6, a6, b6⟩ := (ld_opt fun a _ => text_json cx env a).2 h6
    obtain ⟨w7, a7, b7⟩ := (ld_bool cx env (bool_json cx env)).2 h7
    obtain ⟨w8, a8, b8⟩ := (ld_opt fun l h _ => ld_list fun a ha => rule_json cx env a
        (Distinct.list ((DV.opt (DV.rest (DV.rest (DV.rest (DV.rest (DV.rest (DV.rest (DV.rest
        (DV.rest d0))))))))) l h) a ha)).2 h8
    obtain ⟨w9, a9, b9⟩ := (ld_opt fun a h => tree0_json cx env a ((DV.opt (DV.rest (DV.rest
        (DV.rest (DV.rest (DV.rest (DV.rest (DV.rest (DV.rest (DV.rest d0)))))))))) a h)).2 h9
    obtain ⟨w10, a10, b10⟩ := (ld_int cx env (int_json cx env)).2 h10
    obtain ⟨w11, a11, b11⟩ := (ld_opt fun a h => wait_json cx env a ((DV.opt (DV.rest (DV.rest
        (DV.rest (DV.rest (DV.rest (DV.rest (DV.rest (DV.rest (DV.rest (DV.rest (DV.rest
        d0)))))))))))) a h)).2 h11
    obtain ⟨w12, a12, b12⟩ := (ld_opt fun a h => failure_json cx env a ((DV.opt (DV.rest (DV.rest
        (DV.rest (DV.rest (DV.rest (DV.rest (DV.rest (DV.rest (DV.rest (DV.rest (DV.rest (DV.rest
        d0))))))))))))) a h)).2 h12
    obtain ⟨w13, a13, b13⟩ := (ld_opt fun l h _ => ld_list fun a ha => retry_json cx env a
        (Distinct.list ((DV.opt (DV.rest (DV.rest (DV.rest (DV.rest (DV.rest (DV.rest (DV.rest
        (DV.rest (DV.rest (DV.rest (DV.rest (DV.rest (DV.rest d0)))))))))))))) l h) a ha)).2 h13
    obtain ⟨w14, a14, b14⟩ := (ld_opt fun l h _ => ld_list fun a ha => catch_json cx env a
        (Distinct.list ((DV.opt (DV.rest (DV.rest (DV.rest (DV.rest (DV.rest (DV.rest (DV.rest
        (DV.rest (DV.rest (DV.rest (DV.rest (DV.rest (DV.rest (DV.rest d0))))))))))))))) l h) a
        ha)).2 h14
    exact ⟨_, (jsonStruct_obj hd (List.forall_mem_cons.2 ⟨key_req, List.forall_mem_nil _⟩)).trans
        ((reqF rfl).2 ⟨_, a0, (optJ rfl (fun _ => nn rfl) rfl).2 ⟨_, a1, (optJ rfl (fun _ => nn
        rfl) rfl).2 ⟨_, a2, (optJ rfl (fun _ => nn rfl) rfl).2 ⟨_, a3, (optJ rfl (fun _ => nn rfl)
        rfl).2 ⟨_, a4, (optJ rfl (fun _ => nn rfl) rfl).2 ⟨_, a5, (optJ rfl (fun _ => nn rfl)
        rfl).2 ⟨_, a6, (optJ rfl bool_nn rfl).2 ⟨_, a7, (optJ rfl (fun _ => nn rfl) rfl).2 ⟨_, a8,
        (optJ rfl tree_nn rfl).2 ⟨_, a9, (optJ rfl int_nn rfl).2 ⟨_, a10, (optJ rfl (fun _ => nn
        rfl) rfl).2 ⟨_, a11, (optJ rfl (fun _ => nn rfl) rfl).2 ⟨_, a12, (optJ rfl (fun _ => nn
        rfl) rfl).2 ⟨_, a13, (optJ rfl (fun _ => nn rfl) rfl).2 ⟨_, a14, (tail_done rfl hb).2
        rfl⟩⟩⟩⟩⟩⟩⟩⟩⟩⟩⟩⟩⟩⟩⟩),
      (bind_ok b0 _).trans ((bind_ok b2 _).trans ((bind_ok b3 _).trans ((bind_ok b4 _).trans
          ((bind_ok b5 _).trans ((bind_ok b6 _).trans ((bind_ok b7 _).trans ((bind_ok b8 _).trans
          ((bind_ok b1 _).trans ((bind_ok b9 _).trans ((bind_ok b10 _).trans ((bind_ok b11 _).trans
          ((bind_ok b12 _).trans ((bind_ok b13 _).trans ((bind_ok b14 _).trans (rfl)))))))))))))))⟩

set_option maxHeartbeats 1600000 in
theorem fields_yaml (x : SFields cx.cls F) (b : List (Str × Doc F))
    (hb : b = [] ∨ ∃ v, b = req "parallelBranches" v) (hd : Distinct (F := F) (.obj (wFields x b)))
    (y : StateFields Str Int Bool F (RNode F) StateType) :
    (∃ raw, yamlStateFields cx (wFields x b) = .ok raw ∧ (!sosEmpty raw.stateType) = true ∧
      resStateFields cx env raw = .ok y) ↔ FieldsM cx env .yaml x y := by
  unfold wFields at hd ⊢
  unfold yamlStateFields resStateFields
  have d0 : DV _ := hd.value
  constructor
  · rintro ⟨raw, hr, hq, hs⟩
    obtain ⟨w0, a0, hr⟩ := (reqF rfl).1 hr
    obtain ⟨w1, a1, hr⟩ := (optY rfl (fun s o => { s with description := o }) (fun _ => rfl) rfl).1
        hr
    obtain ⟨w2, a2, hr⟩ := (optY rfl (fun s o => { s with inputPath := o }) (fun _ => rfl) rfl).1 hr
    obtain ⟨w3, a3, hr⟩ := (optY rfl (fun s o => { s with resultPath := o }) (fun _ => rfl) rfl).1
        hr
    obtain ⟨w4, a4, hr⟩ := (optY rfl (fun s o => { s with outputPath := o }) (fun _ => rfl) rfl).1
        hr
    obtain ⟨w5, a5, hr⟩ := (optY rfl (fun s o => { s with payloadTemplate := o }) (fun _ => rfl)
        rfl).1 hr
    obtain ⟨w6, a6, hr⟩ := (optY rfl (fun s o => { s with next := o }) (fun _ => rfl) rfl).1 hr
    obtain ⟨w7, a7, hr⟩ := (optY rfl (fun s o => { s with end_ := o }) (fun _ => rfl) rfl).1 hr
    obtain ⟨w8, a8, hr⟩ := (optY rfl (fun s o => { s with decisions := o }) (fun _ => rfl) rfl).1 hr
    obtain ⟨w9, a9, hr⟩ := (optY rfl (fun s o => { s with result := o }) (fun _ => rfl) rfl).1 hr
    obtain ⟨w10, a10, hr⟩ := (optY rfl (fun s o => { s with timeout := o }) (fun _ => rfl) rfl).1 hr
    obtain ⟨w11, a11, hr⟩ := (optY rfl (fun s o => { s with waitConfig := o }) (fun _ => rfl)
        rfl).1 hr
    obtain ⟨w12, a12, hr⟩ := (optY rfl (fun s o => { s with failureConfig := o }) (fun _ => rfl)
        rfl).1 hr
    obtain ⟨w13, a13, hr⟩ := (optY rfl (fun s o => { s with retry := o }) (fun _ => rfl) rfl).1 hr
    obtain ⟨w14, a14, hr⟩ := (optY rfl (fun s o => { s with catch_ := o }) (fun _ => rfl) rfl).1 hr
    cases (tail_done rfl hb).1 hr
    obtain ⟨v0, b0, hs⟩ := bind_eq_ok hs
    obtain ⟨v2, b2, hs⟩ := bind_eq_ok hs
    obtain ⟨v3, b3, hs⟩ := bind_eq_ok hs
    obtain ⟨v4, b4, hs⟩ := bind_eq_ok hs
    obtain ⟨v5, b5, hs⟩ := bind_eq_ok hs
    obtain ⟨v6, b6, hs⟩ := bind_eq_ok hs
    obtain ⟨v7, b7, hs⟩ := bind_eq_ok hs
    obtain ⟨v8, b8, hs⟩ := bind_eq_ok hs
    obtain ⟨v1, b1, hs⟩ := bind_eq_ok hs
    obtain ⟨v9, b9, hs⟩ := bind_eq_ok hs
    obtain ⟨v10, b10, hs⟩ := bind_eq_ok hs
    obtain ⟨v11, b11, hs⟩ := bind_eq_ok hs
    obtain ⟨v12, b12, hs⟩ := bind_eq_ok hs
    obtain ⟨v13, b13, hs⟩ := bind_eq_ok hs
    obtain ⟨v14, b14, hs⟩ := bind_eq_ok hs
    cases hs
    exact ⟨(stateType_yaml cx env _ _).1 ⟨_, a0, b0⟩,
      (ld_opt fun a _ => text_yaml cx env a).1 ⟨_, a1, b1⟩,
      (ld_opt fun a _ => text_yaml cx env a).1 ⟨_, a2, b2⟩,
      (ld_opt fun a _ => text_yaml cx env a).1 ⟨_, a3, b3⟩,
      (ld_opt fun a _ => text_yaml cx env a).1 ⟨_, a4, b4⟩,
      (ld_opt fun m h => entries_yaml cx env m ((DV.opt (DV.rest (DV.rest (DV.rest (DV.rest
          (DV.rest d0)))))) m h)).1 ⟨_, a5, b5⟩,
      (ld_opt fun a _ => text_yaml cx env a).1 ⟨_, a6, b6⟩,
      (ld_bool cx env (bool_yaml cx env)).1 ⟨_, a7, b7⟩,
      (ld_opt fun l h _ => ld_listSkip (sk := skipNonObj (yamlRule cx)) (fun _ _ => rfl) fun a ha
          => rule_yaml cx env a (Distinct.list ((DV.opt (DV.rest (DV.rest (DV.rest (DV.rest
          (DV.rest (DV.rest (DV.rest (DV.rest d0))))))))) l h) a ha)).1 ⟨_, a8, b8⟩,
      (ld_opt fun a h => tree0_yaml cx env a ((DV.opt (DV.rest (DV.rest (DV.rest (DV.rest (DV.rest
          (DV.rest (DV.rest (DV.rest (DV.rest d0)))))))))) a h)).1 ⟨_, a9, b9⟩,
      (ld_int cx env (int_yaml cx env)).1 ⟨_, a10, b10⟩,
      (ld_opt fun a h => wait_yaml cx env a ((DV.opt (DV.rest (DV.rest (DV.rest (DV.rest (DV.rest
          (DV.rest (DV.rest (DV.rest (DV.rest (DV.rest (DV.rest d0)))))))))))) a h)).1 ⟨_, a11,
          b11⟩,
      (ld_opt fun a h => failure_yaml cx env a ((DV.opt (DV.rest (DV.rest (DV.rest (DV.rest
          (DV.rest (DV.rest (DV.rest (DV.rest (DV.rest (DV.rest (DV.rest (DV.rest d0))))))))))))) a
          h)).1 ⟨_, a12, b12⟩,
      (ld_opt fun l h _ => ld_listSkip (sk := skipNonObj (yamlRetry cx)) (fun _ _ => rfl) fun a ha
          => retry_yaml cx env a (Distinct.list ((DV.opt (DV.rest (DV.rest (DV.rest (DV.rest
          (DV.rest (DV.rest (DV.rest (DV.rest (DV.rest (DV.rest (DV.rest (DV.rest (DV.rest
          d0)))))))))))))) l h) a ha)).1 ⟨_, a13, b13⟩,
      (ld_opt fun l h _ => ld_listSkip (sk := skipNonObj (yamlCatch cx)) (fun _ _ => rfl) fun a ha
          => catch_yaml cx env a (Distinct.list ((DV.opt (DV.rest (DV.rest (DV.rest (DV.rest
          (DV.rest (DV.rest (DV.rest (DV.rest (DV.rest (DV.rest (DV.rest (DV.rest (DV.rest (DV.rest
          d0))))))))))))))) l h) a ha)).1 ⟨_, a14, b14⟩,
      fun _ => (filled_text cx a0).1 hq⟩
  · rintro ⟨h0, h1, h2, h3, h4, h5, h6, h7, h8, h9, h10, h11, h12, h13, h14, hf⟩
    obtain ⟨w0, a0, b0⟩ := (stateType_yaml cx env _ _).2 h0
    obtain ⟨w1, a1, b1⟩ := (ld_opt fun a _ => text_yaml cx env a).2 h1
    obtain ⟨w2, a2, b2⟩ := (ld_opt fun a _ => text_yaml cx env a).2 h2
    obtain ⟨w3, a3, b3⟩ := (ld_opt fun a _ => text_yaml cx env a).2 h3
    obtain ⟨w4, a4, b4⟩ := (ld_opt fun a _ => text_yaml cx env a).2 h4
    obtain ⟨w5, a5, b5⟩ := (ld_opt fun m h => entries_yaml cx env m ((DV.opt (DV.rest (DV.rest
        (DV.rest (DV.rest (DV.rest d0)))))) m h)).2 h5
    obtain ⟨w6, a6, b6⟩ := (ld_opt fun a _ => text_yaml cx env a).2 h6
    obtain ⟨w7, a7, b7⟩ := (ld_bool cx env (bool_yaml cx env)).2 h7
    obtain ⟨w8, a8, b8⟩ := (ld_opt fun l h _ => ld_listSkip (sk := skipNonObj (yamlRule cx)) (fun _
        _ => rfl) fun a ha => rule_yaml cx env a (Distinct.list ((DV.opt (DV.rest (DV.rest (DV.rest
        (DV.rest (DV.rest (DV.rest (DV.rest (DV.rest d0))))))))) l h) a ha)).2 h8
    obtain ⟨w9, a9, b9⟩ := (ld_opt fun a h => tree0_yaml cx env a ((DV.opt (DV.rest (DV.rest
        (DV.rest (DV.rest (DV.rest (DV.rest (DV.rest (DV.rest (DV.rest d0)))))))))) a h)).2 h9
    obtain ⟨w10, a10, b10⟩ := (ld_int cx env (int_yaml cx env)).2 h10
    obtain ⟨w11, a11, b11⟩ := (ld_opt fun a h => wait_yaml cx env a ((DV.opt (DV.rest (DV.rest
        (DV.rest (DV.rest (DV.rest (DV.rest (DV.rest (DV.rest (DV.rest (DV.rest (DV.rest
        d0)))))))))))) a h)).2 h11
    obtain ⟨w12, a12, b12⟩ := (ld_opt fun a h => failure_yaml cx env a ((DV.opt (DV.rest (DV.rest
        (DV.rest (DV.rest (DV.rest (DV.rest (DV.rest (DV.rest (DV.rest (DV.rest (DV.rest (DV.rest
        d0))))))))))))) a h)).2 h12
    obtain ⟨w13, a13, b13⟩ := (ld_opt fun l h _ => ld_listSkip (sk := skipNonObj (yamlRetry cx))
        (fun _ _ => rfl) fun a ha => retry_yaml cx env a (Distinct.list ((DV.opt (DV.rest (DV.rest
        (DV.rest (DV.rest (DV.rest (DV.rest (DV.rest (DV.rest (DV.rest (DV.rest (DV.rest (DV.rest
        (DV.rest d0)))))))))))))) l h) a ha)).2 h13
    obtain ⟨w14, a14, b14⟩ := (ld_opt fun l h _ => ld_listSkip (sk := skipNonObj (yamlCatch cx))
        (fun _ _ => rfl) fun a ha => catch_yaml cx env a (Distinct.list ((DV.opt (DV.rest (DV.rest
        (DV.rest (DV.rest (DV.rest (DV.rest (DV.rest (DV.rest (DV.rest (DV.rest (DV.rest (DV.rest
        (DV.rest (DV.rest d0))))))))))))))) l h) a ha)).2 h14
    exact ⟨_, (reqF rfl).2 ⟨_, a0, (optY rfl (fun s o => { s with description := o }) (fun _ =>
        rfl) rfl).2 ⟨_, a1, (optY rfl (fun s o => { s with inputPath := o }) (fun _ => rfl) rfl).2
        ⟨_, a2, (optY rfl (fun s o => { s with resultPath := o }) (fun _ => rfl) rfl).2 ⟨_, a3,
        (optY rfl (fun s o => { s with outputPath := o }) (fun _ => rfl) rfl).2 ⟨_, a4, (optY rfl
        (fun s o => { s with payloadTemplate := o }) (fun _ => rfl) rfl).2 ⟨_, a5, (optY rfl (fun s
        o => { s with next := o }) (fun _ => rfl) rfl).2 ⟨_, a6, (optY rfl (fun s o => { s with
        end_ := o }) (fun _ => rfl) rfl).2 ⟨_, a7, (optY rfl (fun s o => { s with decisions := o })
        (fun _ => rfl) rfl).2 ⟨_, a8, (optY rfl (fun s o => { s with result := o }) (fun _ => rfl)
        rfl).2 ⟨_, a9, (optY rfl (fun s o => { s with timeout := o }) (fun _ => rfl) rfl).2 ⟨_,
        a10, (optY rfl (fun s o => { s with waitConfig := o }) (fun _ => rfl) rfl).2 ⟨_, a11, (optY
        rfl (fun s o => { s with failureConfig := o }) (fun _ => rfl) rfl).2 ⟨_, a12, (optY rfl
        (fun s o => { s with retry := o }) (fun _ => rfl) rfl).2 ⟨_, a13, (optY rfl (fun s o => { s
        with catch_ := o }) (fun _ => rfl) rfl).2 ⟨_, a14, (tail_done rfl hb).2 rfl⟩⟩⟩⟩⟩⟩⟩⟩⟩⟩⟩⟩⟩⟩⟩,
        (filled_text cx a0).2 (hf rfl),
      (bind_ok b0 _).trans ((bind_ok b2 _).trans ((bind_ok b3 _).trans ((bind_ok b4 _).trans
          ((bind_ok b5 _).trans ((bind_ok b6 _).trans ((bind_ok b7 _).trans ((bind_ok b8 _).trans
          ((bind_ok b1 _).trans ((bind_ok b9 _).trans ((bind_ok b10 _).trans ((bind_ok b11 _).trans
          ((bind_ok b12 _).trans ((bind_ok b13 _).trans ((bind_ok b14 _).trans (rfl)))))))))))))))⟩

theorem wBranches_tail (b : Option (List (Text cx.cls × List (Str × SState cx.cls F)))) :
    wBranches (F := F) b = [] ∨ ∃ v, wBranches b = req "parallelBranches" v := by
  cases b with
  | none => exact .inl rfl
  | some l => exact .inr ⟨_, rfl⟩

theorem jsonBranchesOf_opt {A : Type} {k : String} (h : k.toList ≠ "parallelBranches".toList)
    {o : Option A} {w : A → Doc F} {rest : List (Str × Doc F)} :
    jsonBranchesOf cx (opt k (o.map w) ++ rest) = jsonBranchesOf cx rest := by
  cases o with
  | none => rfl
  | some a => rw [Option.map_some, opt, List.singleton_append, jsonBranchesOf, if_neg h]

theorem yamlBranchesOf_opt {A : Type} {k : String} (h : k.toList ≠ "parallelBranches".toList)
    {o : Option A} {w : A → Doc F} {rest : List (Str × Doc F)}
    {acc : Option (List (Sos × List (Str × RawState F)))} :
    yamlBranchesOf cx (opt k (o.map w) ++ rest) acc = yamlBranchesOf cx rest acc := by
  cases o with
  | none => rfl
  | some a => rw [Option.map_some, opt, List.singleton_append, yamlBranchesOf, if_neg h]

theorem jsonBranchesOf_fields (x : SFields cx.cls F) (b : List (Str × Doc F)) :
    jsonBranchesOf cx (wFields x b) = jsonBranchesOf cx b := by
  unfold wFields
  rw [req, List.singleton_append, jsonBranchesOf, if_neg (by decide)]
  iterate 14 rw [jsonBranchesOf_opt cx (by decide)]

theorem yamlBranchesOf_fields (x : SFields cx.cls F) (b : List (Str × Doc F)) :
    yamlBranchesOf cx (wFields x b) none = yamlBranchesOf cx b none := by
  unfold wFields
  rw [req, List.singleton_append, yamlBranchesOf, if_neg (by decide)]
  iterate 14 rw [yamlBranchesOf_opt cx (by decide)]

theorem wStates_map (m : List (Str × SState cx.cls F)) :
    wStates m = m.map fun e => (e.1, wState e.2) := by
  induction m with
  | nil => rfl
  | cons e m ih =>
    obtain ⟨k, s⟩ := e
    rw [wStates, ih, wStateEntry]
    rfl

theorem wBranchList_map (l : List (Text cx.cls × List (Str × SState cx.cls F))) :
    wBranchList l = l.map wBranch := by
  induction l with
  | nil => rfl
  | cons b l ih => rw [wBranchList, ih]; rfl

theorem keep_map_step {A : Type} (r : Doc F → Outcome Err A) (k : Str) (v : Doc F)
    (m : List (Str × Doc F)) (acc : List (Str × A)) :
    fillMap (keep r) ((k, v) :: m) acc = r v >>= fun a => fillMap (keep r) m (hmInsert acc k a) :=
        by
  rw [fillMap, keep]
  cases r v <;> rfl

theorem jsonStates_map (m : List (Str × Doc F)) (acc : List (Str × RawState F)) :
    jsonStates cx m acc = fillMap (keep (jsonState cx)) m acc := by
  induction m generalizing acc with
  | nil => rfl
  | cons e m ih =>
    rw [keep_map_step, jsonStates]
    simp only [ih]

theorem yamlStates_map (m : List (Str × Doc F)) (acc : List (Str × RawState F)) :
    yamlStates cx m acc = fillMap (keep (yamlState cx)) m acc := by
  induction m generalizing acc with
  | nil => rfl
  | cons e m ih =>
    rw [keep_map_step, yamlStates]
    simp only [ih]

theorem jsonBranches_vec (l : List (Doc F)) :
    jsonBranches cx l = fillVec (keep (jsonBranch cx)) l := by
  induction l with
  | nil => rfl
  | cons v l ih =>
    rw [jsonBranches, fillVec, ih, keep]
    cases jsonBranch cx v with
    | ok n => generalize fillVec (keep (jsonBranch cx)) l = o; cases o <;> rfl
    | err e => rfl
    | panic => rfl

theorem yamlBranches_vec (l : List (Doc F)) : yamlBranches cx l = fillVec (yamlBranch cx) l := by
  induction l with
  | nil => rfl
  | cons v l ih => rw [yamlBranches, fillVec, ih]

theorem resStates_map (m : List (Str × RawState F)) :
    resStates cx env m = mapM (resState cx env) m := by
  induction m with
  | nil => rfl
  | cons e m ih =>
    obtain ⟨k, s⟩ := e
    rw [resStates, mapM, ih, resStateEntry]
    cases resState cx env s <;> rfl

theorem resBranchList_list (l : List (Sos × List (Str × RawState F))) :
    resBranchList cx env l = listM (resBranch cx env) l := by
  induction l with
  | nil => rfl
  | cons b l ih => rw [resBranchList, listM, ih]

theorem statesM_iff {f : Format} {m : List (Str × SState cx.cls F)} {m' : List (Str × ResState F)} :
    StatesM cx env f m m' ↔ MRel (StateM cx env f) m m' := by
  constructor
  · intro h
    induction m generalizing m' with
    | nil => cases h; exact .nil
    | cons e m ih => cases h with | cons h1 h2 => exact .cons ⟨rfl, h1⟩ (ih h2)
  · intro h
    induction m generalizing m' with
    | nil => cases h; exact .nil
    | cons e m ih =>
      cases h with
      | @cons _ e' _ _ h1 h2 =>
        obtain ⟨k, s⟩ := e
        obtain ⟨k', s'⟩ := e'
        obtain ⟨rfl, h1⟩ := h1
        exact .cons h1 (ih h2)

/-- What a branch means. -/
def BranchM (f : Format) (b : Text cx.cls × List (Str × SState cx.cls F))
    (b' : Str × List (Str × ResState F)) : Prop :=
  TextM env b.1 b'.1 ∧ StatesM cx env f b.2 b'.2

theorem branchListM_iff {f : Format} {l : List (Text cx.cls × List (Str × SState cx.cls F))}
    {l' : List (Str × List (Str × ResState F))} :
    BranchListM cx env f l l' ↔ LRel (BranchM cx env f) l l' := by
  constructor
  · intro h
    induction l generalizing l' with
    | nil => cases h; exact .nil
    | cons e l ih => cases h with | cons h1 h2 h3 => exact .cons ⟨h1, h2⟩ (ih h3)
  · intro h
    induction l generalizing l' with
    | nil => cases h; exact .nil
    | cons e l ih => cases h with | cons h1 h2 => exact .cons h1.1 h1.2 (ih h2)

theorem ld_pair {V W X A B Y : Type} {p : Outcome Err V} {q : Outcome Err W} {mk : V → W → X}
    {g : X → Res Y} {ga : V → Res A} {gb : W → Res B} {mk' : A → B → Y}
    (hg : ∀ v w, g (mk v w) = ga v >>= fun a => gb w >>= fun b => pure (mk' a b)) {y : Y} :
    Ld (p >>= fun v => q >>= fun w => pure (mk v w)) g y ↔
      ∃ a b, Ld p ga a ∧ Ld q gb b ∧ y = mk' a b := by
  constructor
  · rintro ⟨x, h1, h2⟩
    obtain ⟨v, hv, h1⟩ := bind_eq_ok h1
    obtain ⟨w, hw, h1⟩ := bind_eq_ok h1
    cases h1
    rw [hg] at h2
    obtain ⟨a, ha, h2⟩ := bind_eq_ok h2
    obtain ⟨b, hb, h2⟩ := bind_eq_ok h2
    cases h2
    exact ⟨a, b, ⟨v, hv, ha⟩, ⟨w, hw, hb⟩, rfl⟩
  · rintro ⟨a, b, ⟨v, hv, ha⟩, ⟨w, hw, hb⟩, rfl⟩
    refine ⟨mk v w, (bind_ok hv _).trans ((bind_ok hw _).trans rfl), ?_⟩
    rw [hg]
    exact (bind_ok ha _).trans ((bind_ok hb _).trans rfl)

/-- The statement for one state. -/
def StateJ (x : SState cx.cls F) : Prop :=
  Distinct (wState x) → ∀ y, Ld (jsonState cx (wState x)) (resState cx env) y ↔
    StateM cx env .json x y

/-- The statement for one state. -/
def StateY (x : SState cx.cls F) : Prop :=
  Distinct (wState x) → ∀ y, Ld (yamlState cx (wState x)) (resState cx env) y ↔
    StateM cx env .yaml x y

theorem states_json (m : List (Str × SState cx.cls F)) (h : ∀ e ∈ m, StateJ cx env e.2)
    (hd : Distinct (F := F) (.obj (wStates m))) (y : List (Str × ResState F)) :
    Ld (jsonStateMap cx (.obj (wStates m))) (resStates cx env) y ↔ StatesM cx env .json m y := by
  rw [statesM_iff, jsonStateMap, jsonStates_map]
  have hf : resStates cx env = mapM (resState cx env) := funext (resStates_map cx env)
  rw [hf]
  rw [wStates_map] at hd ⊢
  exact ld_fillMap (fun _ _ => rfl) (Distinct.mapNodup (w := wState) hd)
    fun e he => h e he (Distinct.map (w := wState) hd e he)

theorem states_yaml (m : List (Str × SState cx.cls F)) (h : ∀ e ∈ m, StateY cx env e.2)
    (hd : Distinct (F := F) (.obj (wStates m))) (y : List (Str × ResState F)) :
    Ld (yamlStateMap cx (.obj (wStates m))) (resStates cx env) y ↔ StatesM cx env .yaml m y := by
  rw [statesM_iff, yamlStateMap, yamlStates_map]
  have hf : resStates cx env = mapM (resState cx env) := funext (resStates_map cx env)
  rw [hf]
  rw [wStates_map] at hd ⊢
  exact ld_fillMap (fun _ _ => rfl) (Distinct.mapNodup (w := wState) hd)
    fun e he => h e he (Distinct.map (w := wState) hd e he)

theorem startAt_json (t : Text cx.cls) (v : Doc F)
    (hd : Distinct (F := F) (.obj (req "startAt" (wText t) ++ (req "states" v ++ [])))) :
    jsonStartAt cx (.obj (req "startAt" (wText t) ++ (req "states" v ++ []))) =
      jsonSos cx (F := F) (wText t) := by
  unfold jsonStartAt
  rw [jsonStruct_obj hd (List.forall_mem_cons.2 ⟨key_req,
    List.forall_mem_cons.2 ⟨key_skip key_req, List.forall_mem_nil _⟩⟩)]
  have h : ∀ y, fill false [fld "startAt" (jsonSos cx (F := F)) (fun _ a => a),
      ("states".toList, fun _ s => .ok s)] (req "startAt" (wText t) ++ (req "states" v ++ []))
      ([] : Sos) = .ok y ↔ jsonSos cx (F := F) (wText t) = .ok y := by
    intro y
    constructor
    · intro h
      obtain ⟨w, a, h⟩ := (reqF rfl).1 h
      cases (show Outcome.ok w = .ok y from h)
      exact a
    · intro h
      exact (reqF rfl).2 ⟨_, h, rfl⟩
  show fill false [fld "startAt" (jsonSos cx (F := F)) (fun _ a => a),
      ("states".toList, fun _ s => .ok s)] ([("startAt".toList, wText t), ("states".toList, v)])
      ([] : Sos) = _
  rw [fill_entry rfl]
  show (jsonSos cx (F := F) (wText t) >>= fun a => pure a) >>= _ = _
  generalize jsonSos cx (F := F) (wText t) = o
  cases o <;> rfl

theorem branch_json (b : Text cx.cls × List (Str × SState cx.cls F))
    (h : ∀ e ∈ b.2, StateJ cx env e.2) (hd : Distinct (F := F) (wBranch b))
    (y : Str × List (Str × ResState F)) :
    Ld (jsonBranch cx (wBranch b)) (resBranch cx env) y ↔ BranchM cx env .json b y := by
  obtain ⟨t, m⟩ := b
  rw [wBranch] at hd ⊢
  have d0 : DV _ := hd.value
  have hs : jsonStatesOf cx (req "startAt" (wText t) ++ (req "states" (.obj (wStates m)) ++ [])) =
      jsonStateMap cx (.obj (wStates m)) := by
    rw [req, List.singleton_append, jsonStatesOf, if_neg (by decide), req, List.singleton_append,
      jsonStatesOf, if_pos rfl]
  rw [jsonBranch, startAt_json cx t _ hd, hs]
  refine (ld_pair (mk' := Prod.mk) fun v w => by rw [resBranch]).trans ?_
  constructor
  · rintro ⟨a, c, ha, hc, rfl⟩
    exact ⟨(text_json cx env t a).1 ha, (states_json cx env m h (DV.req (DV.rest d0)) c).1 hc⟩
  · rintro ⟨ha, hc⟩
    exact ⟨_, _, (text_json cx env t _).2 ha,
      (states_json cx env m h (DV.req (DV.rest d0)) _).2 hc, rfl⟩

theorem startAt_yaml (t : Text cx.cls) (v : Doc F) :
    yamlStartAt cx (req "startAt" (wText t) ++ (req "states" v ++ [])) =
      yamlSos cx (F := F) (wText t) := by
  unfold yamlStartAt
  rw [req, List.singleton_append, fill_entry rfl]
  show (yamlSos cx (F := F) (wText t) >>= fun a => pure a) >>= _ = _
  generalize yamlSos cx (F := F) (wText t) = o
  cases o <;> rfl

theorem statesOf_yaml (t : Text cx.cls) (v : Doc F) (acc : List (Str × RawState F)) :
    yamlStatesOf cx (req "startAt" (wText t) ++ (req "states" v ++ [])) acc =
      yamlStateMap cx v := by
  rw [req, List.singleton_append, yamlStatesOf, if_neg (by decide), req, List.singleton_append,
    yamlStatesOf, if_pos rfl]
  cases yamlStateMap cx v with
  | ok m => simp [yamlStatesOf, Bind.bind, Outcome.bind]
  | err e => rfl
  | panic => rfl

theorem ld_states_yaml (t : Text cx.cls) (m : List (Str × SState cx.cls F))
    (h : ∀ e ∈ m, StateY cx env e.2) (hd : Distinct (F := F) (wBranch (t, m)))
    (y : Str × List (Str × ResState F)) :
    (∃ a c, Ld (yamlSos cx (F := F) (wText t)) (resStr env) a ∧
      Ld (yamlStateMap cx (.obj (wStates m))) (resStates cx env) c ∧ y = (a, c)) ↔
      BranchM cx env .yaml (t, m) y := by
  rw [wBranch] at hd
  have d0 : DV _ := hd.value
  constructor
  · rintro ⟨a, c, ha, hc, rfl⟩
    exact ⟨(text_yaml cx env t a).1 ha, (states_yaml cx env m h (DV.req (DV.rest d0)) c).1 hc⟩
  · rintro ⟨ha, hc⟩
    exact ⟨_, _, (text_yaml cx env t _).2 ha,
      (states_yaml cx env m h (DV.req (DV.rest d0)) _).2 hc, rfl⟩

/-- A branch given as a mapping. -/
def yBranch (m : List (Str × Doc F)) : Outcome Err (Sos × List (Str × RawState F)) := do
  let st ← yamlStartAt cx m
  let ss ← yamlStatesOf cx m []
  pure (st, ss)

theorem yamlBranch_y (b : Text cx.cls × List (Str × SState cx.cls F)) :
    yamlBranch cx (wBranch (F := F) b) = keep (readObj (yBranch cx)) (wBranch b) := by
  obtain ⟨t, m⟩ := b
  rw [wBranch, yamlBranch, keep, readObj, yBranch]
  generalize yamlStartAt cx _ = p
  generalize yamlStatesOf cx _ _ = q
  cases p <;> cases q <;> rfl

theorem branch_yaml (b : Text cx.cls × List (Str × SState cx.cls F))
    (h : ∀ e ∈ b.2, StateY cx env e.2) (hd : Distinct (F := F) (wBranch b))
    (y : Str × List (Str × ResState F)) :
    Ld (readObj (yBranch cx) (wBranch b)) (resBranch cx env) y ↔ BranchM cx env .yaml b y := by
  obtain ⟨t, m⟩ := b
  refine Iff.trans ?_ (ld_states_yaml cx env t m h hd y)
  rw [wBranch, readObj, yBranch, startAt_yaml, statesOf_yaml]
  exact ld_pair (mk' := Prod.mk) fun v w => by rw [resBranch]

/-- Every state in a list of branches. -/
def All (P : SState cx.cls F → Prop)
    (o : Option (List (Text cx.cls × List (Str × SState cx.cls F)))) : Prop :=
  ∀ l, o = some l → ∀ b ∈ l, ∀ e ∈ b.2, P e.2

theorem branches_json (o : Option (List (Text cx.cls × List (Str × SState cx.cls F))))
    (h : All cx (StateJ cx env) o) (hd : DV (F := F) (wBranches o))
    (y : Option (List (Str × List (Str × ResState F)))) :
    Ld (jsonBranchesOf cx (wBranches o)) (resBranches cx env) y ↔ BranchesM cx env .json o y := by
  cases o with
  | none =>
    rw [wBranches, jsonBranchesOf]
    constructor
    · rintro ⟨w, h1, h2⟩
      cases h1
      rw [resBranches] at h2
      cases h2
      exact .none
    · intro h
      cases h
      exact ⟨_, rfl, by rw [resBranches]⟩
  | some l =>
    rw [wBranches, wBranchList_map] at hd ⊢
    have d1 : Distinct (F := F) (.arr (l.map wBranch)) :=
      hd ("parallelBranches".toList, _) (List.mem_cons_self ..)
    rw [req, jsonBranchesOf, if_pos rfl, jsonBranchOpt, jsonBranches_vec]
    refine (ld_wrap (h := resBranchList cx env) (mk' := some)
      fun c => by rw [resBranches]).trans ?_
    have hf : resBranchList cx env = listM (resBranch cx env) :=
      funext (resBranchList_list cx env)
    have hl : ∀ {l'}, Ld (fillVec (keep (jsonBranch cx)) (l.map wBranch))
        (listM (resBranch cx env)) l' ↔ LRel (BranchM cx env .json) l l' :=
      ld_list fun b hb => branch_json cx env b (h l rfl b hb) (Distinct.list (w := wBranch) d1 b hb)
    rw [hf]
    simp only [hl, ← branchListM_iff]
    constructor
    · rintro ⟨d, hd, rfl⟩; exact .some hd
    · intro h
      cases h with
      | @some _ d hd => exact ⟨d, hd, rfl⟩

theorem branches_yaml (o : Option (List (Text cx.cls × List (Str × SState cx.cls F))))
    (h : All cx (StateY cx env) o) (hd : DV (F := F) (wBranches o))
    (y : Option (List (Str × List (Str × ResState F)))) :
    Ld (yamlBranchesOf cx (wBranches o) none) (resBranches cx env) y ↔
      BranchesM cx env .yaml o y := by
  cases o with
  | none =>
    rw [wBranches, yamlBranchesOf]
    constructor
    · rintro ⟨w, h1, h2⟩
      cases h1
      rw [resBranches] at h2
      cases h2
      exact .none
    · intro h
      cases h
      exact ⟨_, rfl, by rw [resBranches]⟩
  | some l =>
    rw [wBranches, wBranchList_map] at hd ⊢
    have d1 : Distinct (F := F) (.arr (l.map wBranch)) :=
      hd ("parallelBranches".toList, _) (List.mem_cons_self ..)
    rw [req, yamlBranchesOf, if_pos rfl, yamlBranchList, yamlBranches_vec]
    have hy : ∀ b, yamlBranchesOf cx [] (some b) = pure (some b) := fun b => by
      rw [yamlBranchesOf]; rfl
    simp only [hy]
    refine (ld_wrap (h := resBranchList cx env) (mk' := some)
      fun c => by rw [resBranches]).trans ?_
    have hf : resBranchList cx env = listM (resBranch cx env) :=
      funext (resBranchList_list cx env)
    have hl : ∀ {l'}, Ld (fillVec (yamlBranch cx) (l.map wBranch))
        (listM (resBranch cx env)) l' ↔ LRel (BranchM cx env .yaml) l l' :=
      ld_listSkip (fun b _ => yamlBranch_y cx b) fun b hb =>
        branch_yaml cx env b (h l rfl b hb) (Distinct.list (w := wBranch) d1 b hb)
    rw [hf]
    simp only [hl, ← branchListM_iff]
    constructor
    · rintro ⟨d, hd, rfl⟩; exact .some hd
    · intro h
      cases h with
      | @some _ d hd => exact ⟨d, hd, rfl⟩

theorem fields_tail (x : SFields cx.cls F) {b : List (Str × Doc F)}
    (h : Distinct (F := F) (.obj (wFields x b))) : DV b := by
  have d0 : DV _ := h.value
  unfold wFields at d0
  iterate 15 replace d0 := DV.rest d0
  exact d0

theorem state_json_of (x : SFields cx.cls F)
    (o : Option (List (Text cx.cls × List (Str × SState cx.cls F))))
    (h : All cx (StateJ cx env) o) : StateJ cx env (.mk x o) := by
  intro hd y
  rw [wState] at hd ⊢
  rw [jsonState, jsonBranchesOf_fields]
  refine (ld_pair (mk' := .mk) fun v w => by rw [resState]).trans ?_
  have h1 := fields_json cx env x _ (wBranches_tail cx o) hd
  have h2 := branches_json cx env o h (fields_tail cx x hd)
  constructor
  · rintro ⟨a, c, ha, hc, rfl⟩
    exact .mk ((h1 a).1 ha) ((h2 c).1 hc)
  · intro h
    cases h with
    | mk ha hc => exact ⟨_, _, (h1 _).2 ha, (h2 _).2 hc, rfl⟩

theorem state_yaml_of (x : SFields cx.cls F)
    (o : Option (List (Text cx.cls × List (Str × SState cx.cls F))))
    (h : All cx (StateY cx env) o) : StateY cx env (.mk x o) := by
  intro hd y
  rw [wState] at hd ⊢
  rw [yamlState, yamlBranchesOf_fields]
  have h1 := fields_yaml cx env x _ (wBranches_tail cx o) hd
  have h2 := branches_yaml cx env o h (fields_tail cx x hd)
  constructor
  · rintro ⟨raw, hr, hs⟩
    obtain ⟨w0, a0, hr⟩ := bind_eq_ok hr
    obtain ⟨w1, a1, hr⟩ := bind_eq_ok hr
    obtain ⟨_, a2, hr⟩ := bind_eq_ok hr
    cases hr
    rw [resState] at hs
    obtain ⟨v0, b0, hs⟩ := bind_eq_ok hs
    obtain ⟨v1, b1, hs⟩ := bind_eq_ok hs
    cases hs
    exact .mk ((h1 _).1 ⟨_, a0, require_iff.1 a2, b0⟩) ((h2 _).1 ⟨_, a1, b1⟩)
  · intro h
    cases h with
    | mk ha hc =>
      obtain ⟨w0, a0, a2, b0⟩ := (h1 _).2 ha
      obtain ⟨w1, a1, b1⟩ := (h2 _).2 hc
      refine ⟨_, (bind_ok a0 _).trans ((bind_ok a1 _).trans
        ((bind_ok (require_iff.2 a2) _).trans rfl)), ?_⟩
      rw [resState]
      exact (bind_ok b0 _).trans ((bind_ok b1 _).trans rfl)

mutual
/-- Induction over states and the branches in them. -/
theorem stateInd {P : SState cx.cls F → Prop} (h : ∀ x o, All cx P o → P (.mk x o)) :
    (s : SState cx.cls F) → P s
  | .mk x o => h x o (branchesInd h o)
theorem branchesInd {P : SState cx.cls F → Prop} (h : ∀ x o, All cx P o → P (.mk x o)) :
    (o : Option (List (Text cx.cls × List (Str × SState cx.cls F)))) → All cx P o
  | none => nofun
  | some l => fun _ e => Option.some.inj e ▸ branchListInd h l
theorem branchListInd {P : SState cx.cls F → Prop} (h : ∀ x o, All cx P o → P (.mk x o)) :
    (l : List (Text cx.cls × List (Str × SState cx.cls F))) → ∀ b ∈ l, ∀ e ∈ b.2, P e.2
  | [] => nofun
  | b :: l => fun _ hb => (List.mem_cons.1 hb).elim (fun e => e ▸ branchInd h b)
      (branchListInd h l _)
theorem branchInd {P : SState cx.cls F → Prop} (h : ∀ x o, All cx P o → P (.mk x o)) :
    (b : Text cx.cls × List (Str × SState cx.cls F)) → ∀ e ∈ b.2, P e.2
  | (_, m) => statesInd h m
theorem statesInd {P : SState cx.cls F → Prop} (h : ∀ x o, All cx P o → P (.mk x o)) :
    (m : List (Str × SState cx.cls F)) → ∀ e ∈ m, P e.2
  | [] => nofun
  | e :: m => fun _ he => (List.mem_cons.1 he).elim (fun q => q ▸ entryInd h e) (statesInd h m _)
theorem entryInd {P : SState cx.cls F → Prop} (h : ∀ x o, All cx P o → P (.mk x o)) :
    (e : Str × SState cx.cls F) → P e.2
  | (_, s) => stateInd h s
end

theorem workflow_json
    (x : WorkflowSpec (Text cx.cls) (Val cx.cls I64) (Val cx.cls Bool) (Val cx.cls F)
      (Tree cx.cls F) (Text cx.cls)) (hd : Distinct (F := F) (wWorkflow x))
    (y : WorkflowSpec Str Int Bool F (RNode F) StateType) :
    Ld (jsonWorkflow cx (wWorkflow x)) (resWorkflow cx env) y ↔ WorkflowM cx env .json x y := by
  unfold jsonWorkflow wWorkflow at *
  refine (ld_wrap (h := resBranch cx env) (mk' := fun b => ⟨b.1, b.2⟩) fun c => ?_).trans ?_
  · obtain ⟨t, m⟩ := c
    rw [resBranch, resWorkflow]
    generalize resStr env t = p
    generalize resStates cx env m = q
    cases p <;> cases q <;> rfl
  · have hb := branch_json cx env (x.startAt, x.states)
      (fun e _ => stateInd cx (state_json_of cx env) e.2) hd
    constructor
    · rintro ⟨d, hl, rfl⟩
      exact ⟨((hb d).1 hl).1, ((hb d).1 hl).2⟩
    · rintro ⟨h1, h2⟩
      exact ⟨(y.startAt, y.states), (hb _).2 ⟨h1, h2⟩, rfl⟩

theorem workflow_yaml
    (x : WorkflowSpec (Text cx.cls) (Val cx.cls I64) (Val cx.cls Bool) (Val cx.cls F)
      (Tree cx.cls F) (Text cx.cls)) (hd : Distinct (F := F) (wWorkflow x))
    (y : WorkflowSpec Str Int Bool F (RNode F) StateType) :
    Ld (readObj (yamlWorkflow cx) (wWorkflow x)) (resWorkflow cx env) y ↔
      WorkflowM cx env .yaml x y := by
  unfold wWorkflow at *
  have hb := ld_states_yaml cx env x.startAt x.states
    (fun e _ => stateInd cx (state_yaml_of cx env) e.2) hd (y.startAt, y.states)
  rw [wBranch] at hd ⊢
  rw [readObj, yamlWorkflow, startAt_yaml, statesOf_yaml]
  have hq : require (((req "startAt" (wText x.startAt) ++ (req "states" (.obj (wStates x.states)) ++
      []) : List (Str × Doc F))).all fun e => decide (e.1 = "startAt".toList ∨ e.1 =
          "states".toList))
      = .ok () := by
    rw [require_iff]; rfl
  have hp : ∀ {A : Type} (k : Unit → Outcome Err A), (Outcome.ok () >>= k) = k () := fun _ => rfl
  rw [hq, hp]
  refine (ld_pair (ga := resStr env) (gb := resStates cx env) (mk' := fun a b => ⟨a, b⟩)
    fun v w => by rw [resWorkflow]).trans ?_
  constructor
  · rintro ⟨a, c, ha, hc, rfl⟩
    have := hb.1 ⟨a, c, ha, hc, rfl⟩
    exact ⟨this.1, this.2⟩
  · rintro ⟨h1, h2⟩
    obtain ⟨a, c, ha, hc, e⟩ := hb.2 ⟨h1, h2⟩
    cases e
    exact ⟨_, _, ha, hc, rfl⟩

end Verif.Blueprint.Source
