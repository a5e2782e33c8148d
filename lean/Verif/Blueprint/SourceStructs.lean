import Verif.Blueprint.SourceLeaf

/-!
# Reading back what was written: handlers, consumers and small specifications

For every struct one statement per format: reading what was written and then resolving it gives
exactly what the struct means.
-/

namespace Verif.Blueprint.Source

open Verif Verif.Subst Verif.Subst.Spec

variable {F : Type} (cx : Ctx F) (env : Env)

theorem shared_json (x : Shared (Text cx.cls) (Val cx.cls I64) (Val cx.cls Bool)) (hd : Distinct (F
    := F) (wShared x)) (y : Shared Str Int Bool) :
    Ld (jsonShared cx (wShared x)) (resShared cx env) y ↔ SharedM cx env .json x y := by
  unfold wShared at hd ⊢
  unfold jsonShared
  unfold resShared
  have d0 : DV _ := hd.value
  constructor
  · rintro ⟨raw, hr, hs⟩
    rw [jsonStruct_obj hd (List.forall_mem_nil _)] at hr
    obtain ⟨w0, a0, hr⟩ := (optJ rfl (fun _ => nn rfl) rfl).1 hr
    obtain ⟨w1, a1, hr⟩ := (optJ rfl (fun _ => nn rfl) rfl).1 hr
    obtain ⟨w2, a2, hr⟩ := (optJ rfl int_nn rfl).1 hr
    obtain ⟨w3, a3, hr⟩ := (optJ rfl int_nn rfl).1 hr
    obtain ⟨w4, a4, hr⟩ := (optJ rfl bool_nn rfl).1 hr
    obtain ⟨w5, a5, hr⟩ := (optJ rfl (fun _ => nn rfl) rfl).1 hr
    cases fill_done hr
    obtain ⟨v0, b0, hs⟩ := bind_eq_ok hs
    obtain ⟨v1, b1, hs⟩ := bind_eq_ok hs
    obtain ⟨v2, b2, hs⟩ := bind_eq_ok hs
    obtain ⟨v3, b3, hs⟩ := bind_eq_ok hs
    obtain ⟨v4, b4, hs⟩ := bind_eq_ok hs
    obtain ⟨v5, b5, hs⟩ := bind_eq_ok hs
    cases hs
    exact ⟨(ld_opt fun a _ => text_json cx env a).1 ⟨_, a0, b0⟩,
      (ld_opt fun a _ => text_json cx env a).1 ⟨_, a1, b1⟩,
      (ld_int cx env (int_json cx env)).1 ⟨_, a2, b2⟩,
      (ld_int cx env (int_json cx env)).1 ⟨_, a3, b3⟩,
      (ld_bool cx env (bool_json cx env)).1 ⟨_, a4, b4⟩,
      (ld_opt fun a h => textMap_json cx env a ((DV.opt (DV.rest (DV.rest (DV.rest (DV.rest
          (DV.rest d0)))))) a h)).1 ⟨_, a5, b5⟩⟩
  · rintro ⟨h0, h1, h2, h3, h4, h5⟩
    obtain ⟨w0, a0, b0⟩ := (ld_opt fun a _ => text_json cx env a).2 h0
    obtain ⟨w1, a1, b1⟩ := (ld_opt fun a _ => text_json cx env a).2 h1
    obtain ⟨w2, a2, b2⟩ := (ld_int cx env (int_json cx env)).2 h2
    obtain ⟨w3, a3, b3⟩ := (ld_int cx env (int_json cx env)).2 h3
    obtain ⟨w4, a4, b4⟩ := (ld_bool cx env (bool_json cx env)).2 h4
    obtain ⟨w5, a5, b5⟩ := (ld_opt fun a h => textMap_json cx env a ((DV.opt (DV.rest (DV.rest
        (DV.rest (DV.rest (DV.rest d0)))))) a h)).2 h5
    exact ⟨_, (jsonStruct_obj hd (List.forall_mem_nil _)).trans ((optJ rfl (fun _ => nn rfl) rfl).2
        ⟨_, a0, (optJ rfl (fun _ => nn rfl) rfl).2 ⟨_, a1, (optJ rfl int_nn rfl).2 ⟨_, a2, (optJ
        rfl int_nn rfl).2 ⟨_, a3, (optJ rfl bool_nn rfl).2 ⟨_, a4, (optJ rfl (fun _ => nn rfl)
        rfl).2 ⟨_, a5, rfl⟩⟩⟩⟩⟩⟩),
      (bind_ok b0 _).trans ((bind_ok b1 _).trans ((bind_ok b2 _).trans ((bind_ok b3 _).trans
          ((bind_ok b4 _).trans ((bind_ok b5 _).trans (rfl))))))⟩

theorem shared_yaml (x : Shared (Text cx.cls) (Val cx.cls I64) (Val cx.cls Bool)) (hd : Distinct (F
    := F) (wShared x)) (y : Shared Str Int Bool) :
    Ld (readObj (yamlShared cx ) (wShared x)) (resShared cx env) y ↔ SharedM cx env .yaml x y := by
  unfold wShared at hd ⊢
  simp only [readObj]
  unfold yamlShared
  unfold resShared
  have d0 : DV _ := hd.value
  constructor
  · rintro ⟨raw, hr, hs⟩
    obtain ⟨w0, a0, hr⟩ := (optY rfl (fun s o => { s with codeLocation := o }) (fun _ => rfl)
        rfl).1 hr
    obtain ⟨w1, a1, hr⟩ := (optY rfl (fun s o => { s with runtime := o }) (fun _ => rfl) rfl).1 hr
    obtain ⟨w2, a2, hr⟩ := (optY rfl (fun s o => { s with memory := o }) (fun _ => rfl) rfl).1 hr
    obtain ⟨w3, a3, hr⟩ := (optY rfl (fun s o => { s with timeout := o }) (fun _ => rfl) rfl).1 hr
    obtain ⟨w4, a4, hr⟩ := (optY rfl (fun s o => { s with tracingEnabled := o }) (fun _ => rfl)
        rfl).1 hr
    obtain ⟨w5, a5, hr⟩ := (optY rfl (fun s o => { s with environmentVariables := o }) (fun _ =>
        rfl) rfl).1 hr
    cases fill_done hr
    obtain ⟨v0, b0, hs⟩ := bind_eq_ok hs
    obtain ⟨v1, b1, hs⟩ := bind_eq_ok hs
    obtain ⟨v2, b2, hs⟩ := bind_eq_ok hs
    obtain ⟨v3, b3, hs⟩ := bind_eq_ok hs
    obtain ⟨v4, b4, hs⟩ := bind_eq_ok hs
    obtain ⟨v5, b5, hs⟩ := bind_eq_ok hs
    cases hs
    exact ⟨(ld_opt fun a _ => text_yaml cx env a).1 ⟨_, a0, b0⟩,
      (ld_opt fun a _ => text_yaml cx env a).1 ⟨_, a1, b1⟩,
      (ld_int cx env (int_yaml cx env)).1 ⟨_, a2, b2⟩,
      (ld_int cx env (int_yaml cx env)).1 ⟨_, a3, b3⟩,
      (ld_bool cx env (bool_yaml cx env)).1 ⟨_, a4, b4⟩,
      (ld_opt fun a h => textMap_yaml cx env a ((DV.opt (DV.rest (DV.rest (DV.rest (DV.rest
          (DV.rest d0)))))) a h)).1 ⟨_, a5, b5⟩⟩
  · rintro ⟨h0, h1, h2, h3, h4, h5⟩
    obtain ⟨w0, a0, b0⟩ := (ld_opt fun a _ => text_yaml cx env a).2 h0
    obtain ⟨w1, a1, b1⟩ := (ld_opt fun a _ => text_yaml cx env a).2 h1
    obtain ⟨w2, a2, b2⟩ := (ld_int cx env (int_yaml cx env)).2 h2
    obtain ⟨w3, a3, b3⟩ := (ld_int cx env (int_yaml cx env)).2 h3
    obtain ⟨w4, a4, b4⟩ := (ld_bool cx env (bool_yaml cx env)).2 h4
    obtain ⟨w5, a5, b5⟩ := (ld_opt fun a h => textMap_yaml cx env a ((DV.opt (DV.rest (DV.rest
        (DV.rest (DV.rest (DV.rest d0)))))) a h)).2 h5
    exact ⟨_, (optY rfl (fun s o => { s with codeLocation := o }) (fun _ => rfl) rfl).2 ⟨_, a0,
        (optY rfl (fun s o => { s with runtime := o }) (fun _ => rfl) rfl).2 ⟨_, a1, (optY rfl (fun
        s o => { s with memory := o }) (fun _ => rfl) rfl).2 ⟨_, a2, (optY rfl (fun s o => { s with
        timeout := o }) (fun _ => rfl) rfl).2 ⟨_, a3, (optY rfl (fun s o => { s with tracingEnabled
        := o }) (fun _ => rfl) rfl).2 ⟨_, a4, (optY rfl (fun s o => { s with environmentVariables
        := o }) (fun _ => rfl) rfl).2 ⟨_, a5, rfl⟩⟩⟩⟩⟩⟩,
      (bind_ok b0 _).trans ((bind_ok b1 _).trans ((bind_ok b2 _).trans ((bind_ok b3 _).trans
          ((bind_ok b4 _).trans ((bind_ok b5 _).trans (rfl))))))⟩

theorem handler_json (x : HandlerSpec (Text cx.cls) (Val cx.cls I64) (Val cx.cls Bool)) (hd :
    Distinct (F := F) (wHandler x)) (y : HandlerSpec Str Int Bool) :
    Ld (jsonHandler cx (wHandler x)) (resHandler cx env) y ↔ HandlerM cx env .json x y := by
  unfold wHandler at hd ⊢
  unfold jsonHandler
  unfold resHandler
  have d0 : DV _ := hd.value
  constructor
  · rintro ⟨raw, hr, hs⟩
    rw [jsonStruct_obj hd (List.forall_mem_cons.2 ⟨(key_skip (key_skip key_req)),
        List.forall_mem_nil _⟩)] at hr
    obtain ⟨w0, a0, hr⟩ := (optJ rfl (fun _ => nn rfl) rfl).1 hr
    obtain ⟨w1, a1, hr⟩ := (optJ rfl (fun _ => nn rfl) rfl).1 hr
    obtain ⟨w2, a2, hr⟩ := (reqF rfl).1 hr
    obtain ⟨w3, a3, hr⟩ := (optJ rfl (fun _ => nn rfl) rfl).1 hr
    obtain ⟨w4, a4, hr⟩ := (optJ rfl int_nn rfl).1 hr
    obtain ⟨w5, a5, hr⟩ := (optJ rfl int_nn rfl).1 hr
    obtain ⟨w6, a6, hr⟩ := (optJ rfl bool_nn rfl).1 hr
    obtain ⟨w7, a7, hr⟩ := (optJ rfl (fun _ => nn rfl) rfl).1 hr
    cases fill_done hr
    obtain ⟨v0, b0, hs⟩ := bind_eq_ok hs
    obtain ⟨v1, b1, hs⟩ := bind_eq_ok hs
    obtain ⟨v2, b2, hs⟩ := bind_eq_ok hs
    obtain ⟨v3, b3, hs⟩ := bind_eq_ok hs
    obtain ⟨v4, b4, hs⟩ := bind_eq_ok hs
    obtain ⟨v5, b5, hs⟩ := bind_eq_ok hs
    obtain ⟨v6, b6, hs⟩ := bind_eq_ok hs
    obtain ⟨v7, b7, hs⟩ := bind_eq_ok hs
    cases hs
    exact ⟨(ld_opt fun a _ => text_json cx env a).1 ⟨_, a0, b0⟩,
      (ld_opt fun a _ => text_json cx env a).1 ⟨_, a1, b1⟩,
      (text_json cx env _ _).1 ⟨_, a2, b2⟩,
      (ld_opt fun a _ => text_json cx env a).1 ⟨_, a3, b3⟩,
      (ld_int cx env (int_json cx env)).1 ⟨_, a4, b4⟩,
      (ld_int cx env (int_json cx env)).1 ⟨_, a5, b5⟩,
      (ld_bool cx env (bool_json cx env)).1 ⟨_, a6, b6⟩,
      (ld_opt fun a h => textMap_json cx env a ((DV.opt (DV.rest (DV.rest (DV.rest (DV.rest
          (DV.rest (DV.rest (DV.rest d0)))))))) a h)).1 ⟨_, a7, b7⟩⟩
  · rintro ⟨h0, h1, h2, h3, h4, h5, h6, h7⟩
    obtain ⟨w0, a0, b0⟩ := (ld_opt fun a _ => text_json cx env a).2 h0
    obtain ⟨w1, a1, b1⟩ := (ld_opt fun a _ => text_json cx env a).2 h1
    obtain ⟨w2, a2, b2⟩ := (text_json cx env _ _).2 h2
    obtain ⟨w3, a3, b3⟩ := (ld_opt fun a _ => text_json cx env a).2 h3
    obtain ⟨w4, a4, b4⟩ := (ld_int cx env (int_json cx env)).2 h4
    obtain ⟨w5, a5, b5⟩ := (ld_int cx env (int_json cx env)).2 h5
    obtain ⟨w6, a6, b6⟩ := (ld_bool cx env (bool_json cx env)).2 h6
    obtain ⟨w7, a7, b7⟩ := (ld_opt fun a h => textMap_json cx env a ((DV.opt (DV.rest (DV.rest
        (DV.rest (DV.rest (DV.rest (DV.rest (DV.rest d0)))))))) a h)).2 h7
    exact ⟨_, (jsonStruct_obj hd (List.forall_mem_cons.2 ⟨(key_skip (key_skip key_req)),
        List.forall_mem_nil _⟩)).trans ((optJ rfl (fun _ => nn rfl) rfl).2 ⟨_, a0, (optJ rfl (fun _
        => nn rfl) rfl).2 ⟨_, a1, (reqF rfl).2 ⟨_, a2, (optJ rfl (fun _ => nn rfl) rfl).2 ⟨_, a3,
        (optJ rfl int_nn rfl).2 ⟨_, a4, (optJ rfl int_nn rfl).2 ⟨_, a5, (optJ rfl bool_nn rfl).2
        ⟨_, a6, (optJ rfl (fun _ => nn rfl) rfl).2 ⟨_, a7, rfl⟩⟩⟩⟩⟩⟩⟩⟩),
      (bind_ok b0 _).trans ((bind_ok b1 _).trans ((bind_ok b2 _).trans ((bind_ok b3 _).trans
          ((bind_ok b4 _).trans ((bind_ok b5 _).trans ((bind_ok b6 _).trans ((bind_ok b7 _).trans
          (rfl))))))))⟩

theorem handler_yaml (x : HandlerSpec (Text cx.cls) (Val cx.cls I64) (Val cx.cls Bool)) (hd :
    Distinct (F := F) (wHandler x)) (y : HandlerSpec Str Int Bool) :
    Ld (readObj (yamlHandler cx ) (wHandler x)) (resHandler cx env) y ↔ HandlerM cx env .yaml x y
        := by
  unfold wHandler at hd ⊢
  simp only [readObj]
  unfold yamlHandler
  unfold resHandler
  have d0 : DV _ := hd.value
  constructor
  · rintro ⟨raw, hr, hs⟩
    obtain ⟨w0, a0, hr⟩ := (optY rfl (fun s o => { s with handlerName := o }) (fun _ => rfl) rfl).1
        hr
    obtain ⟨w1, a1, hr⟩ := (optY rfl (fun s o => { s with codeLocation := o }) (fun _ => rfl)
        rfl).1 hr
    obtain ⟨w2, a2, hr⟩ := (reqF rfl).1 hr
    obtain ⟨w3, a3, hr⟩ := (optY rfl (fun s o => { s with runtime := o }) (fun _ => rfl) rfl).1 hr
    obtain ⟨w4, a4, hr⟩ := (optY rfl (fun s o => { s with memory := o }) (fun _ => rfl) rfl).1 hr
    obtain ⟨w5, a5, hr⟩ := (optY rfl (fun s o => { s with timeout := o }) (fun _ => rfl) rfl).1 hr
    obtain ⟨w6, a6, hr⟩ := (optY rfl (fun s o => { s with tracingEnabled := o }) (fun _ => rfl)
        rfl).1 hr
    obtain ⟨w7, a7, hr⟩ := (optY rfl (fun s o => { s with environmentVariables := o }) (fun _ =>
        rfl) rfl).1 hr
    cases fill_done hr
    obtain ⟨v0, b0, hs⟩ := bind_eq_ok hs
    obtain ⟨v1, b1, hs⟩ := bind_eq_ok hs
    obtain ⟨v2, b2, hs⟩ := bind_eq_ok hs
    obtain ⟨v3, b3, hs⟩ := bind_eq_ok hs
    obtain ⟨v4, b4, hs⟩ := bind_eq_ok hs
    obtain ⟨v5, b5, hs⟩ := bind_eq_ok hs
    obtain ⟨v6, b6, hs⟩ := bind_eq_ok hs
    obtain ⟨v7, b7, hs⟩ := bind_eq_ok hs
    cases hs
    exact ⟨(ld_opt fun a _ => text_yaml cx env a).1 ⟨_, a0, b0⟩,
      (ld_opt fun a _ => text_yaml cx env a).1 ⟨_, a1, b1⟩,
      (text_yaml cx env _ _).1 ⟨_, a2, b2⟩,
      (ld_opt fun a _ => text_yaml cx env a).1 ⟨_, a3, b3⟩,
      (ld_int cx env (int_yaml cx env)).1 ⟨_, a4, b4⟩,
      (ld_int cx env (int_yaml cx env)).1 ⟨_, a5, b5⟩,
      (ld_bool cx env (bool_yaml cx env)).1 ⟨_, a6, b6⟩,
      (ld_opt fun a h => textMap_yaml cx env a ((DV.opt (DV.rest (DV.rest (DV.rest (DV.rest
          (DV.rest (DV.rest (DV.rest d0)))))))) a h)).1 ⟨_, a7, b7⟩⟩
  · rintro ⟨h0, h1, h2, h3, h4, h5, h6, h7⟩
    obtain ⟨w0, a0, b0⟩ := (ld_opt fun a _ => text_yaml cx env a).2 h0
    obtain ⟨w1, a1, b1⟩ := (ld_opt fun a _ => text_yaml cx env a).2 h1
    obtain ⟨w2, a2, b2⟩ := (text_yaml cx env _ _).2 h2
    obtain ⟨w3, a3, b3⟩ := (ld_opt fun a _ => text_yaml cx env a).2 h3
    obtain ⟨w4, a4, b4⟩ := (ld_int cx env (int_yaml cx env)).2 h4
    obtain ⟨w5, a5, b5⟩ := (ld_int cx env (int_yaml cx env)).2 h5
    obtain ⟨w6, a6, b6⟩ := (ld_bool cx env (bool_yaml cx env)).2 h6
    obtain ⟨w7, a7, b7⟩ := (ld_opt fun a h => textMap_yaml cx env a ((DV.opt (DV.rest (DV.rest
        (DV.rest (DV.rest (DV.rest (DV.rest (DV.rest d0)))))))) a h)).2 h7
    exact ⟨_, (optY rfl (fun s o => { s with handlerName := o }) (fun _ => rfl) rfl).2 ⟨_, a0,
        (optY rfl (fun s o => { s with codeLocation := o }) (fun _ => rfl) rfl).2 ⟨_, a1, (reqF
        rfl).2 ⟨_, a2, (optY rfl (fun s o => { s with runtime := o }) (fun _ => rfl) rfl).2 ⟨_, a3,
        (optY rfl (fun s o => { s with memory := o }) (fun _ => rfl) rfl).2 ⟨_, a4, (optY rfl (fun
        s o => { s with timeout := o }) (fun _ => rfl) rfl).2 ⟨_, a5, (optY rfl (fun s o => { s
        with tracingEnabled := o }) (fun _ => rfl) rfl).2 ⟨_, a6, (optY rfl (fun s o => { s with
        environmentVariables := o }) (fun _ => rfl) rfl).2 ⟨_, a7, rfl⟩⟩⟩⟩⟩⟩⟩⟩,
      (bind_ok b0 _).trans ((bind_ok b1 _).trans ((bind_ok b2 _).trans ((bind_ok b3 _).trans
          ((bind_ok b4 _).trans ((bind_ok b5 _).trans ((bind_ok b6 _).trans ((bind_ok b7 _).trans
          (rfl))))))))⟩

theorem dbStream_json (x : Stream (Text cx.cls) (Val cx.cls I64) (Val cx.cls Bool)) (hd : Distinct
    (F := F) (wStream "dbStreamId" x)) (y : Stream Str Int Bool) :
    Ld (jsonStream cx "dbStreamId" (wStream "dbStreamId" x)) (resStream cx env) y ↔ StreamM cx env
        .json x y := by
  unfold wStream at hd ⊢
  unfold jsonStream
  unfold resStream
  have d0 : DV _ := hd.value
  constructor
  · rintro ⟨raw, hr, hs⟩
    rw [jsonStruct_obj hd (List.forall_mem_cons.2 ⟨key_req, List.forall_mem_nil _⟩)] at hr
    obtain ⟨w0, a0, hr⟩ := (reqF rfl).1 hr
    obtain ⟨w1, a1, hr⟩ := (optJ rfl int_nn rfl).1 hr
    obtain ⟨w2, a2, hr⟩ := (optJ rfl bool_nn rfl).1 hr
    obtain ⟨w3, a3, hr⟩ := (optJ rfl bool_nn rfl).1 hr
    cases fill_done hr
    obtain ⟨v1, b1, hs⟩ := bind_eq_ok hs
    obtain ⟨v0, b0, hs⟩ := bind_eq_ok hs
    obtain ⟨v2, b2, hs⟩ := bind_eq_ok hs
    obtain ⟨v3, b3, hs⟩ := bind_eq_ok hs
    cases hs
    exact ⟨(ld_int cx env (int_json cx env)).1 ⟨_, a1, b1⟩,
      (text_json cx env _ _).1 ⟨_, a0, b0⟩,
      (ld_bool cx env (bool_json cx env)).1 ⟨_, a2, b2⟩,
      (ld_bool cx env (bool_json cx env)).1 ⟨_, a3, b3⟩⟩
  · rintro ⟨h1, h0, h2, h3⟩
    obtain ⟨w0, a0, b0⟩ := (text_json cx env _ _).2 h0
    obtain ⟨w1, a1, b1⟩ := (ld_int cx env (int_json cx env)).2 h1
    obtain ⟨w2, a2, b2⟩ := (ld_bool cx env (bool_json cx env)).2 h2
    obtain ⟨w3, a3, b3⟩ := (ld_bool cx env (bool_json cx env)).2 h3
    exact ⟨_, (jsonStruct_obj hd (List.forall_mem_cons.2 ⟨key_req, List.forall_mem_nil _⟩)).trans
        ((reqF rfl).2 ⟨_, a0, (optJ rfl int_nn rfl).2 ⟨_, a1, (optJ rfl bool_nn rfl).2 ⟨_, a2,
        (optJ rfl bool_nn rfl).2 ⟨_, a3, rfl⟩⟩⟩⟩),
      (bind_ok b1 _).trans ((bind_ok b0 _).trans ((bind_ok b2 _).trans ((bind_ok b3 _).trans
          (rfl))))⟩

theorem dataStream_json (x : Stream (Text cx.cls) (Val cx.cls I64) (Val cx.cls Bool)) (hd :
    Distinct (F := F) (wStream "dataStreamId" x)) (y : Stream Str Int Bool) :
    Ld (jsonStream cx "dataStreamId" (wStream "dataStreamId" x)) (resStream cx env) y ↔ StreamM cx
        env .json x y := by
  unfold wStream at hd ⊢
  unfold jsonStream
  unfold resStream
  have d0 : DV _ := hd.value
  constructor
  · rintro ⟨raw, hr, hs⟩
    rw [jsonStruct_obj hd (List.forall_mem_cons.2 ⟨key_req, List.forall_mem_nil _⟩)] at hr
    obtain ⟨w0, a0, hr⟩ := (reqF rfl).1 hr
    obtain ⟨w1, a1, hr⟩ := (optJ rfl int_nn rfl).1 hr
    obtain ⟨w2, a2, hr⟩ := (optJ rfl bool_nn rfl).1 hr
    obtain ⟨w3, a3, hr⟩ := (optJ rfl bool_nn rfl).1 hr
    cases fill_done hr
    obtain ⟨v1, b1, hs⟩ := bind_eq_ok hs
    obtain ⟨v0, b0, hs⟩ := bind_eq_ok hs
    obtain ⟨v2, b2, hs⟩ := bind_eq_ok hs
    obtain ⟨v3, b3, hs⟩ := bind_eq_ok hs
    cases hs
    exact ⟨(ld_int cx env (int_json cx env)).1 ⟨_, a1, b1⟩,
      (text_json cx env _ _).1 ⟨_, a0, b0⟩,
      (ld_bool cx env (bool_json cx env)).1 ⟨_, a2, b2⟩,
      (ld_bool cx env (bool_json cx env)).1 ⟨_, a3, b3⟩⟩
  · rintro ⟨h1, h0, h2, h3⟩
    obtain ⟨w0, a0, b0⟩ := (text_json cx env _ _).2 h0
    obtain ⟨w1, a1, b1⟩ := (ld_int cx env (int_json cx env)).2 h1
    obtain ⟨w2, a2, b2⟩ := (ld_bool cx env (bool_json cx env)).2 h2
    obtain ⟨w3, a3, b3⟩ := (ld_bool cx env (bool_json cx env)).2 h3
    exact ⟨_, (jsonStruct_obj hd (List.forall_mem_cons.2 ⟨key_req, List.forall_mem_nil _⟩)).trans
        ((reqF rfl).2 ⟨_, a0, (optJ rfl int_nn rfl).2 ⟨_, a1, (optJ rfl bool_nn rfl).2 ⟨_, a2,
        (optJ rfl bool_nn rfl).2 ⟨_, a3, rfl⟩⟩⟩⟩),
      (bind_ok b1 _).trans ((bind_ok b0 _).trans ((bind_ok b2 _).trans ((bind_ok b3 _).trans
          (rfl))))⟩

theorem schedule_json (x : Text cx.cls) (hd : Distinct (F := F) (wSchedule x)) (y : Str) :
    Ld (jsonSchedule cx (wSchedule x)) (resStr env) y ↔ TextM env x y := by
  unfold wSchedule at hd ⊢
  unfold jsonSchedule
  rw [jsonStruct_obj hd (List.forall_mem_cons.2 ⟨key_req, List.forall_mem_nil _⟩)]
  constructor
  · rintro ⟨raw, hr, hs⟩
    obtain ⟨w, a, hr⟩ := (reqF rfl).1 hr
    cases fill_done hr
    exact (text_json cx env _ _).1 ⟨_, a, hs⟩
  · intro h
    obtain ⟨w, a, b⟩ := (text_json cx env _ _).2 h
    exact ⟨w, (reqF rfl).2 ⟨_, a, rfl⟩, b⟩

theorem schedule_yaml (x : Text cx.cls) (y : Str) :
    Ld (readObj (yamlSchedule cx) (wSchedule x)) (resStr env) y ↔ TextM env x y := by
  have : readObj (yamlSchedule cx) (wSchedule x) = yamlSos cx (wText x) := rfl
  rw [this]
  exact text_yaml cx env x y

theorem stream_key (key j : String) (h : key.toList ≠ j.toList) (h1 : "batchSize".toList ≠ j.toList)
    (h2 : "partialFailures".toList ≠ j.toList) (h3 : "startFromBeginning".toList ≠ j.toList)
    (x : Stream (Text cx.cls) (Val cx.cls I64) (Val cx.cls Bool)) :
    ∃ m, wStream (F := F) key x = .obj m ∧ j.toList ∉ m.map (·.1) ∧ get? m j.toList = none := by
  refine ⟨_, rfl, nokey_req h (nokey_opt h1 (nokey_opt h2 (nokey_opt h3 (List.not_mem_nil)))), ?_⟩
  rw [get?_req h, get?_opt h1, get?_opt h2, get?_opt h3]
  rfl

theorem storage_json (b : Text cx.cls) (e : List (Text cx.cls))
    (hd : Distinct (F := F) (wEvConfig (.objectStorage b e))) (w : Sos × List Sos) :
    jsonObjectStorage (F := F) cx (wEvConfig (.objectStorage b e)) = .ok w ↔
      jsonSos (F := F) cx (wText b) = .ok w.1 ∧ jsonSosVec (F := F) cx (wList wText e) = .ok w.2 :=
          by
  simp only [wEvConfig] at hd ⊢
  unfold jsonObjectStorage
  rw [jsonStruct_obj hd (List.forall_mem_cons.2 ⟨key_req,
    List.forall_mem_cons.2 ⟨key_skip key_req, List.forall_mem_nil _⟩⟩)]
  constructor
  · intro h
    obtain ⟨_, h1, h⟩ := (reqF rfl).1 h
    obtain ⟨_, h2, h⟩ := (reqF rfl).1 h
    cases fill_done h
    exact ⟨h1, h2⟩
  · rintro ⟨h1, h2⟩
    exact (reqF rfl).2 ⟨_, h1, (reqF rfl).2 ⟨_, h2, rfl⟩⟩

theorem storage_iff {rb re : Outcome Err _} {f : Format} {b : Text cx.cls} {e : List (Text cx.cls)}
    (hb : ∀ s, Ld rb (resStr env) s ↔ TextM env b s)
    (he : ∀ s, Ld re (listM (resObjEvent env)) s ↔ LRel (ObjEventM env) e s)
    (y : EvConfig Str Int Bool ObjEvent) :
    (∃ w : Sos × List Sos, (rb = .ok w.1 ∧ re = .ok w.2) ∧
      resEvConfig (F := F) cx env (.objectStorage w.1 w.2) = .ok y) ↔
      EvConfigM cx env f (.objectStorage b e) y := by
  constructor
  · rintro ⟨w, ⟨h1, h2⟩, h⟩
    obtain ⟨b', hb', h⟩ := bind_eq_ok h
    obtain ⟨e', he', h⟩ := bind_eq_ok h
    cases h
    exact .objectStorage ((hb _).1 ⟨_, h1, hb'⟩) ((he _).1 ⟨_, h2, he'⟩)
  · intro h
    cases h with
    | objectStorage h1 h2 =>
      obtain ⟨w1, a1, b1⟩ := (hb _).2 h1
      obtain ⟨w2, a2, b2⟩ := (he _).2 h2
      exact ⟨(w1, w2), ⟨a1, a2⟩, (bind_ok b1 _).trans ((bind_ok b2 _).trans rfl)⟩

theorem evConfig_json (x : EvConfig (Text cx.cls) (Val cx.cls I64) (Val cx.cls Bool) (Text cx.cls))
    (hd : Distinct (F := F) (wEvConfig x)) (y : EvConfig Str Int Bool ObjEvent) :
    Ld (jsonEvConfig cx (wEvConfig x)) (resEvConfig cx env) y ↔ EvConfigM cx env .json x y := by
  unfold jsonEvConfig
  cases x with
  | objectStorage b e =>
    have hdb : (jsonStream cx "dbStreamId" (wEvConfig (F := F) (.objectStorage b e)) >>=
        fun c => (pure (.dbStream c) : Outcome Err (EvConfig Sos (Node F) (Node F) Sos))) =
        .err .format :=
      bind_err (jsonStruct_missing (List.mem_cons_self ..) (nokey_req (by decide)
        (nokey_req (by decide) List.not_mem_nil))) _
    have hda : (jsonStream cx "dataStreamId" (wEvConfig (F := F) (.objectStorage b e)) >>=
        fun c => (pure (.dataStream c) : Outcome Err (EvConfig Sos (Node F) (Node F) Sos))) =
        .err .format :=
      bind_err (jsonStruct_missing (List.mem_cons_self ..) (nokey_req (by decide)
        (nokey_req (by decide) List.not_mem_nil))) _
    rw [orElse_err hdb]
    simp only [Ld, orElse_iff hda]
    refine Iff.trans ?_ (storage_iff cx env (text_json cx env b)
      (fun s => ld_list (l' := s) fun t _ => objEvent_json cx env t) y)
    constructor
    · rintro ⟨w, h1, h2⟩
      obtain ⟨c, hc, h1⟩ := bind_eq_ok h1
      cases h1
      exact ⟨c, (storage_json cx b e hd c).1 hc, h2⟩
    · rintro ⟨c, hc, h⟩
      exact ⟨_, (bind_ok ((storage_json cx b e hd c).2 hc) _).trans rfl, h⟩
  | dbStream c =>
    obtain ⟨m, hm, hk, _⟩ := stream_key (F := F) cx "dbStreamId" "bucket" (by decide) (by decide)
      (by decide) (by decide) c
    obtain ⟨m', hm', hk', _⟩ := stream_key (F := F) cx "dbStreamId" "dataStreamId" (by decide)
      (by decide) (by decide) (by decide) c
    have hob : (jsonObjectStorage cx (wEvConfig (F := F) (.dbStream c)) >>= fun c =>
        (pure (.objectStorage c.1 c.2) : Outcome Err (EvConfig Sos (Node F) (Node F) Sos))) =
        .err .format := by
      refine bind_err ?_ _
      show jsonObjectStorage cx (wStream "dbStreamId" c) = _
      rw [hm]
      exact jsonStruct_missing (List.mem_cons_self ..) hk
    have hda : (jsonStream cx "dataStreamId" (wEvConfig (F := F) (.dbStream c)) >>= fun c =>
        (pure (.dataStream c) : Outcome Err (EvConfig Sos (Node F) (Node F) Sos))) =
        .err .format := by
      refine bind_err ?_ _
      show jsonStream cx "dataStreamId" (wStream "dbStreamId" c) = _
      rw [hm']
      exact jsonStruct_missing (List.mem_cons_self ..) hk'
    rw [orElse_err hob]
    have h : ∀ w, orElse (jsonStream cx "dbStreamId" (wEvConfig (F := F) (.dbStream c)) >>= fun c =>
        pure (.dbStream c)) (jsonStream cx "dataStreamId" (wEvConfig (F := F) (.dbStream c)) >>=
        fun c => (pure (.dataStream c) : Outcome Err (EvConfig Sos (Node F) (Node F) Sos))) =
        .ok w ↔ (jsonStream cx "dbStreamId" (wEvConfig (F := F) (.dbStream c)) >>= fun c =>
        pure (.dbStream c)) = .ok w := fun w => orElse_iff hda
    simp only [Ld, h]
    refine (ld_wrap (h := resStream cx env) (mk' := .dbStream) fun c => rfl).trans ?_
    constructor
    · rintro ⟨d, hl, rfl⟩; exact .dbStream ((dbStream_json cx env c hd d).1 hl)
    · intro h
      cases h with
      | @dbStream _ d hl => exact ⟨d, (dbStream_json cx env c hd d).2 hl, rfl⟩
  | dataStream c =>
    obtain ⟨m, hm, hk, _⟩ := stream_key (F := F) cx "dataStreamId" "bucket" (by decide) (by decide)
      (by decide) (by decide) c
    obtain ⟨m', hm', hk', _⟩ := stream_key (F := F) cx "dataStreamId" "dbStreamId" (by decide)
      (by decide) (by decide) (by decide) c
    have hob : (jsonObjectStorage cx (wEvConfig (F := F) (.dataStream c)) >>= fun c =>
        (pure (.objectStorage c.1 c.2) : Outcome Err (EvConfig Sos (Node F) (Node F) Sos))) =
        .err .format := by
      refine bind_err ?_ _
      show jsonObjectStorage cx (wStream "dataStreamId" c) = _
      rw [hm]
      exact jsonStruct_missing (List.mem_cons_self ..) hk
    have hdb : (jsonStream cx "dbStreamId" (wEvConfig (F := F) (.dataStream c)) >>= fun c =>
        (pure (.dbStream c) : Outcome Err (EvConfig Sos (Node F) (Node F) Sos))) =
        .err .format := by
      refine bind_err ?_ _
      show jsonStream cx "dbStreamId" (wStream "dataStreamId" c) = _
      rw [hm']
      exact jsonStruct_missing (List.mem_cons_self ..) hk'
    rw [orElse_err hob, orElse_err hdb]
    refine (ld_wrap (h := resStream cx env) (mk' := .dataStream) fun c => rfl).trans ?_
    constructor
    · rintro ⟨d, hl, rfl⟩; exact .dataStream ((dataStream_json cx env c hd d).1 hl)
    · intro h
      cases h with
      | @dataStream _ d hl => exact ⟨d, (dataStream_json cx env c hd d).2 hl, rfl⟩

theorem stream_yaml (key : String) (h1 : "batchSize".toList ≠ key.toList)
    (h2 : "partialFailures".toList ≠ key.toList) (h3 : "startFromBeginning".toList ≠ key.toList)
    (x : Stream (Text cx.cls) (Val cx.cls I64) (Val cx.cls Bool)) (y : Stream Str Int Bool) :
    Ld (readObj (yamlStream cx key.toList) (wStream key x)) (resStream cx env) y ↔
      StreamM cx env .yaml x y := by
  unfold wStream
  simp only [readObj]
  unfold yamlStream
  rw [get?_here]
  unfold yamlStreamFields resStream
  have hsk : ∀ (T : List (Field F (Stream Sos (Node F) (Node F)))) (v : Doc F) rest s,
      T.map (·.1) = ["batchSize".toList, "partialFailures".toList, "startFromBeginning".toList] →
      fill false T (req key v ++ rest) s = fill false T rest s := by
    intro T v rest s hT
    refine fill_skip ?_ v rest s
    unfold get?
    rw [List.find?_eq_none.2]
    · rfl
    · intro e he
      have : e.1 ∈ T.map (·.1) := List.mem_map_of_mem he
      rw [hT] at this
      simp only [List.mem_cons, List.not_mem_nil, or_false] at this
      simp only [decide_eq_true_eq]
      rcases this with h | h | h <;> rw [h] <;> assumption
  simp only
  constructor
  · rintro ⟨raw, hr, hs⟩
    obtain ⟨i, a, hr⟩ := bind_eq_ok hr
    rw [hsk _ _ _ _ rfl] at hr
    obtain ⟨w1, a1, hr⟩ := (optY rfl (fun s o => { s with batchSize := o }) (fun _ => rfl) rfl).1 hr
    obtain ⟨w2, a2, hr⟩ :=
      (optY rfl (fun s o => { s with partialFailures := o }) (fun _ => rfl) rfl).1 hr
    obtain ⟨w3, a3, hr⟩ :=
      (optY rfl (fun s o => { s with startFromBeginning := o }) (fun _ => rfl) rfl).1 hr
    cases fill_done hr
    obtain ⟨_, b1, hs⟩ := bind_eq_ok hs
    obtain ⟨_, b, hs⟩ := bind_eq_ok hs
    obtain ⟨_, b2, hs⟩ := bind_eq_ok hs
    obtain ⟨_, b3, hs⟩ := bind_eq_ok hs
    cases hs
    exact ⟨(ld_int cx env (int_yaml cx env)).1 ⟨_, a1, b1⟩, (text_yaml cx env _ _).1 ⟨_, a, b⟩,
      (ld_bool cx env (bool_yaml cx env)).1 ⟨_, a2, b2⟩,
      (ld_bool cx env (bool_yaml cx env)).1 ⟨_, a3, b3⟩⟩
  · rintro ⟨e1, e, e2, e3⟩
    obtain ⟨w1, a1, b1⟩ := (ld_int cx env (int_yaml cx env)).2 e1
    obtain ⟨w, a, b⟩ := (text_yaml cx env _ _).2 e
    obtain ⟨w2, a2, b2⟩ := (ld_bool cx env (bool_yaml cx env)).2 e2
    obtain ⟨w3, a3, b3⟩ := (ld_bool cx env (bool_yaml cx env)).2 e3
    refine ⟨_, (bind_ok a _).trans ((hsk _ _ _ _ rfl).trans
      ((optY rfl (fun s o => { s with batchSize := o }) (fun _ => rfl) rfl).2 ⟨_, a1,
      (optY rfl (fun s o => { s with partialFailures := o }) (fun _ => rfl) rfl).2 ⟨_, a2,
      (optY rfl (fun s o => { s with startFromBeginning := o }) (fun _ => rfl) rfl).2 ⟨_, a3,
        rfl⟩⟩⟩)),
      (bind_ok b1 _).trans ((bind_ok b _).trans ((bind_ok b2 _).trans ((bind_ok b3 _).trans rfl)))⟩

theorem yamlStream_missing (key j : String) (h : key.toList ≠ j.toList)
    (h1 : "batchSize".toList ≠ j.toList) (h2 : "partialFailures".toList ≠ j.toList)
    (h3 : "startFromBeginning".toList ≠ j.toList)
    (x : Stream (Text cx.cls) (Val cx.cls I64) (Val cx.cls Bool)) :
    readObj (yamlStream cx j.toList) (wStream key x) = .err .format := by
  obtain ⟨m, hm, _, hg⟩ := stream_key (F := F) cx key j h h1 h2 h3 x
  rw [hm]
  simp only [readObj, yamlStream, hg]

theorem evConfig_yaml (t : EvType)
    (x : EvConfig (Text cx.cls) (Val cx.cls I64) (Val cx.cls Bool) (Text cx.cls))
    (y : EvConfig Str Int Bool ObjEvent) :
    Ld (readObj (yamlEvConfig cx t) (wEvConfig x)) (resEvConfig cx env) y ↔
      EvConfigM cx env .yaml x y ∧ Fitting t x := by
  cases t with
  | objectStorage =>
    cases x with
    | objectStorage b e =>
      simp only [Fitting, and_true]
      refine Iff.trans ?_ (storage_iff cx env (text_yaml cx env b)
        (fun s => ld_list (l' := s) fun t _ => objEvent_yaml cx env t) y)
      constructor
      · rintro ⟨w, h1, h2⟩
        obtain ⟨b', hb, h1⟩ := bind_eq_ok h1
        obtain ⟨e', he, h1⟩ := bind_eq_ok h1
        cases h1
        exact ⟨(b', e'), ⟨hb, he⟩, h2⟩
      · rintro ⟨c, ⟨hb, he⟩, h⟩
        exact ⟨_, (bind_ok hb _).trans ((bind_ok he _).trans rfl), h⟩
    | dbStream c =>
      obtain ⟨m, hm, _, hg⟩ := stream_key (F := F) cx "dbStreamId" "bucket" (by decide) (by decide)
        (by decide) (by decide) c
      simp only [wEvConfig, hm, Ld, readObj, yamlEvConfig, yamlObjectStorage, hg, Fitting,
          and_false]
      simp
    | dataStream c =>
      obtain ⟨m, hm, _, hg⟩ := stream_key (F := F) cx "dataStreamId" "bucket" (by decide) (by
          decide)
        (by decide) (by decide) c
      simp only [wEvConfig, hm, Ld, readObj, yamlEvConfig, yamlObjectStorage, hg, Fitting,
          and_false]
      simp
  | dbStream =>
    cases x with
    | objectStorage b e =>
      refine ⟨?_, fun h => h.2.elim⟩
      rintro ⟨w, h1, _⟩
      exact nomatch (show (Outcome.err Err.format : Outcome Err _) = .ok w from h1)
    | dbStream c =>
      simp only [Fitting, and_true]
      have : readObj (yamlEvConfig cx .dbStream) (wEvConfig (F := F) (.dbStream c)) =
        (readObj (yamlStream cx "dbStreamId".toList) (wStream "dbStreamId" c) >>= fun c =>
          pure (.dbStream c)) := rfl
      rw [this]
      refine (ld_wrap (h := resStream cx env) (mk' := .dbStream) fun c => rfl).trans ?_
      have hs := stream_yaml cx env "dbStreamId" (by decide) (by decide) (by decide) c
      constructor
      · rintro ⟨d, hl, rfl⟩; exact .dbStream ((hs d).1 hl)
      · intro h
        cases h with
        | @dbStream _ d hl => exact ⟨d, (hs d).2 hl, rfl⟩
    | dataStream c =>
      have : readObj (yamlEvConfig cx .dbStream) (wEvConfig (F := F) (.dataStream c)) =
        (readObj (yamlStream cx "dbStreamId".toList) (wStream "dataStreamId" c) >>= fun c =>
          pure (.dbStream c)) := rfl
      rw [this, bind_err (yamlStream_missing cx "dataStreamId" "dbStreamId" (by decide) (by decide)
        (by decide) (by decide) c)]
      refine ⟨?_, fun h => h.2.elim⟩
      rintro ⟨w, h1, _⟩
      cases h1
  | dataStream =>
    cases x with
    | objectStorage b e =>
      refine ⟨?_, fun h => h.2.elim⟩
      rintro ⟨w, h1, _⟩
      exact nomatch (show (Outcome.err Err.format : Outcome Err _) = .ok w from h1)
    | dataStream c =>
      simp only [Fitting, and_true]
      have : readObj (yamlEvConfig cx .dataStream) (wEvConfig (F := F) (.dataStream c)) =
        (readObj (yamlStream cx "dataStreamId".toList) (wStream "dataStreamId" c) >>= fun c =>
          pure (.dataStream c)) := rfl
      rw [this]
      refine (ld_wrap (h := resStream cx env) (mk' := .dataStream) fun c => rfl).trans ?_
      have hs := stream_yaml cx env "dataStreamId" (by decide) (by decide) (by decide) c
      constructor
      · rintro ⟨d, hl, rfl⟩; exact .dataStream ((hs d).1 hl)
      · intro h
        cases h with
        | @dataStream _ d hl => exact ⟨d, (hs d).2 hl, rfl⟩
    | dbStream c =>
      have : readObj (yamlEvConfig cx .dataStream) (wEvConfig (F := F) (.dbStream c)) =
        (readObj (yamlStream cx "dataStreamId".toList) (wStream "dbStreamId" c) >>= fun c =>
          pure (.dataStream c)) := rfl
      rw [this, bind_err (yamlStream_missing cx "dbStreamId" "dataStreamId" (by decide) (by decide)
        (by decide) (by decide) c)]
      refine ⟨?_, fun h => h.2.elim⟩
      rintro ⟨w, h1, _⟩
      cases h1

theorem jsonEvType_name (t : EvType) : jsonEvType (F := F) (.str (evTypeName t)) = .ok t := by
  cases t <;> rfl

theorem yamlEvType_name (t : EvType) : yamlEvType (F := F) (.str (evTypeName t)) = .ok t := by
  cases t <;> rfl

theorem event_json (x : ExternalEvent (Text cx.cls) (Val cx.cls I64) (Val cx.cls Bool) (Text
    cx.cls))
    (hd : Distinct (F := F) (wEvent x)) (y : ExternalEvent Str Int Bool ObjEvent) :
    Ld (jsonEvent cx (wEvent x)) (resEvent cx env) y ↔ EventM cx env .json x y := by
  unfold wEvent at hd ⊢
  unfold jsonEvent resEvent
  have d0 : DV _ := hd.value
  have hc := evConfig_json cx env x.config (DV.req (DV.rest d0))
  rw [jsonStruct_obj hd (List.forall_mem_cons.2 ⟨key_req,
    List.forall_mem_cons.2 ⟨key_skip key_req, List.forall_mem_nil _⟩⟩)]
  constructor
  · rintro ⟨raw, hr, hs⟩
    obtain ⟨w1, a1, hr⟩ := (reqF rfl).1 hr
    obtain ⟨w2, a2, hr⟩ := (reqF rfl).1 hr
    cases fill_done hr
    obtain ⟨_, b2, hs⟩ := bind_eq_ok hs
    cases hs
    rw [jsonEvType_name] at a1
    cases a1
    exact ⟨rfl, (hc _).1 ⟨_, a2, b2⟩, nofun⟩
  · rintro ⟨h1, h2, _⟩
    obtain ⟨w2, a2, b2⟩ := (hc _).2 h2
    refine ⟨_, (reqF rfl).2 ⟨_, jsonEvType_name _, (reqF rfl).2 ⟨_, a2, rfl⟩⟩,
      (bind_ok b2 _).trans ?_⟩
    rw [← h1]
    rfl

theorem event_yaml (x : ExternalEvent (Text cx.cls) (Val cx.cls I64) (Val cx.cls Bool) (Text
    cx.cls))
    (y : ExternalEvent Str Int Bool ObjEvent) :
    Ld (readObj (yamlEvent cx) (wEvent x)) (resEvent cx env) y ↔ EventM cx env .yaml x y := by
  have hr : readObj (yamlEvent cx) (wEvent x) = (yamlEvType (F := F) (.str (evTypeName
      x.sourceType))
      >>= fun t => readObj (yamlEvConfig cx t) (wEvConfig x.config) >>= fun c =>
        pure { sourceType := t, config := c }) := rfl
  rw [hr, yamlEvType_name]
  refine (ld_wrap (h := resEvConfig cx env)
    (mk' := fun c => { sourceType := x.sourceType, config := c }) fun c => rfl).trans ?_
  constructor
  · rintro ⟨d, hl, rfl⟩
    have := (evConfig_yaml cx env _ _ _).1 hl
    exact ⟨rfl, this.1, fun _ => this.2⟩
  · rintro ⟨h1, h2, h3⟩
    refine ⟨y.config, (evConfig_yaml cx env _ _ _).2 ⟨h2, h3 rfl⟩, ?_⟩
    rw [← h1]

theorem consumer_json (x : ConsumerSpec (Text cx.cls) (Val cx.cls I64) (Val cx.cls Bool) (Text
    cx.cls)) (hd : Distinct (F := F) (wConsumer x)) (y : ConsumerSpec Str Int Bool ObjEvent) :
    Ld (jsonConsumer cx (wConsumer x)) (resConsumer cx env) y ↔ ConsumerM cx env .json x y := by
  unfold wConsumer at hd ⊢
  unfold jsonConsumer
  unfold resConsumer
  have d0 : DV _ := hd.value
  constructor
  · rintro ⟨raw, hr, hs⟩
    rw [jsonStruct_obj hd (List.forall_mem_nil _)] at hr
    obtain ⟨w0, a0, hr⟩ := (optJ rfl (fun _ => nn rfl) rfl).1 hr
    obtain ⟨w1, a1, hr⟩ := (optJ rfl int_nn rfl).1 hr
    obtain ⟨w2, a2, hr⟩ := (optJ rfl int_nn rfl).1 hr
    obtain ⟨w3, a3, hr⟩ := (optJ rfl int_nn rfl).1 hr
    obtain ⟨w4, a4, hr⟩ := (optJ rfl bool_nn rfl).1 hr
    obtain ⟨w5, a5, hr⟩ := (optJ rfl (fun _ => nn rfl) rfl).1 hr
    obtain ⟨w6, a6, hr⟩ := (optJ rfl (fun _ => nn rfl) rfl).1 hr
    cases fill_done hr
    obtain ⟨v0, b0, hs⟩ := bind_eq_ok hs
    obtain ⟨v1, b1, hs⟩ := bind_eq_ok hs
    obtain ⟨v2, b2, hs⟩ := bind_eq_ok hs
    obtain ⟨v3, b3, hs⟩ := bind_eq_ok hs
    obtain ⟨v4, b4, hs⟩ := bind_eq_ok hs
    obtain ⟨v5, b5, hs⟩ := bind_eq_ok hs
    obtain ⟨v6, b6, hs⟩ := bind_eq_ok hs
    cases hs
    exact ⟨(ld_opt fun a _ => text_json cx env a).1 ⟨_, a0, b0⟩,
      (ld_int cx env (int_json cx env)).1 ⟨_, a1, b1⟩,
      (ld_int cx env (int_json cx env)).1 ⟨_, a2, b2⟩,
      (ld_int cx env (int_json cx env)).1 ⟨_, a3, b3⟩,
      (ld_bool cx env (bool_json cx env)).1 ⟨_, a4, b4⟩,
      (ld_opt fun a _ => text_json cx env a).1 ⟨_, a5, b5⟩,
      (ld_opt fun m h _ => ld_map ((DV.opt (DV.rest (DV.rest (DV.rest (DV.rest (DV.rest (DV.rest
          d0))))))) m h) fun e he => event_json cx env e.2 (Distinct.map ((DV.opt (DV.rest (DV.rest
          (DV.rest (DV.rest (DV.rest (DV.rest d0))))))) m h) e he)).1 ⟨_, a6, b6⟩⟩
  · rintro ⟨h0, h1, h2, h3, h4, h5, h6⟩
    obtain ⟨w0, a0, b0⟩ := (ld_opt fun a _ => text_json cx env a).2 h0
    obtain ⟨w1, a1, b1⟩ := (ld_int cx env (int_json cx env)).2 h1
    obtain ⟨w2, a2, b2⟩ := (ld_int cx env (int_json cx env)).2 h2
    obtain ⟨w3, a3, b3⟩ := (ld_int cx env (int_json cx env)).2 h3
    obtain ⟨w4, a4, b4⟩ := (ld_bool cx env (bool_json cx env)).2 h4
    obtain ⟨w5, a5, b5⟩ := (ld_opt fun a _ => text_json cx env a).2 h5
    obtain ⟨w6, a6, b6⟩ := (ld_opt fun m h _ => ld_map ((DV.opt (DV.rest (DV.rest (DV.rest (DV.rest
        (DV.rest (DV.rest d0))))))) m h) fun e he => event_json cx env e.2 (Distinct.map ((DV.opt
        (DV.rest (DV.rest (DV.rest (DV.rest (DV.rest (DV.rest d0))))))) m h) e he)).2 h6
    exact ⟨_, (jsonStruct_obj hd (List.forall_mem_nil _)).trans ((optJ rfl (fun _ => nn rfl) rfl).2
        ⟨_, a0, (optJ rfl int_nn rfl).2 ⟨_, a1, (optJ rfl int_nn rfl).2 ⟨_, a2, (optJ rfl int_nn
        rfl).2 ⟨_, a3, (optJ rfl bool_nn rfl).2 ⟨_, a4, (optJ rfl (fun _ => nn rfl) rfl).2 ⟨_, a5,
        (optJ rfl (fun _ => nn rfl) rfl).2 ⟨_, a6, rfl⟩⟩⟩⟩⟩⟩⟩),
      (bind_ok b0 _).trans ((bind_ok b1 _).trans ((bind_ok b2 _).trans ((bind_ok b3 _).trans
          ((bind_ok b4 _).trans ((bind_ok b5 _).trans ((bind_ok b6 _).trans (rfl)))))))⟩

theorem consumer_yaml (x : ConsumerSpec (Text cx.cls) (Val cx.cls I64) (Val cx.cls Bool) (Text
    cx.cls)) (hd : Distinct (F := F) (wConsumer x)) (y : ConsumerSpec Str Int Bool ObjEvent) :
    Ld (readObj (yamlConsumer cx ) (wConsumer x)) (resConsumer cx env) y ↔ ConsumerM cx env .yaml x
        y := by
  unfold wConsumer at hd ⊢
  simp only [readObj]
  unfold yamlConsumer
  unfold resConsumer
  have d0 : DV _ := hd.value
  constructor
  · rintro ⟨raw, hr, hs⟩
    obtain ⟨w0, a0, hr⟩ := (optY rfl (fun s o => { s with sourceId := o }) (fun _ => rfl) rfl).1 hr
    obtain ⟨w1, a1, hr⟩ := (optY rfl (fun s o => { s with batchSize := o }) (fun _ => rfl) rfl).1 hr
    obtain ⟨w2, a2, hr⟩ := (optY rfl (fun s o => { s with visibilityTimeout := o }) (fun _ => rfl)
        rfl).1 hr
    obtain ⟨w3, a3, hr⟩ := (optY rfl (fun s o => { s with waitTimeSeconds := o }) (fun _ => rfl)
        rfl).1 hr
    obtain ⟨w4, a4, hr⟩ := (optY rfl (fun s o => { s with partialFailures := o }) (fun _ => rfl)
        rfl).1 hr
    obtain ⟨w5, a5, hr⟩ := (optY rfl (fun s o => { s with routingKey := o }) (fun _ => rfl) rfl).1
        hr
    obtain ⟨w6, a6, hr⟩ := (optY rfl (fun s o => { s with externalEvents := o }) (fun _ => rfl)
        rfl).1 hr
    cases fill_done hr
    obtain ⟨v0, b0, hs⟩ := bind_eq_ok hs
    obtain ⟨v1, b1, hs⟩ := bind_eq_ok hs
    obtain ⟨v2, b2, hs⟩ := bind_eq_ok hs
    obtain ⟨v3, b3, hs⟩ := bind_eq_ok hs
    obtain ⟨v4, b4, hs⟩ := bind_eq_ok hs
    obtain ⟨v5, b5, hs⟩ := bind_eq_ok hs
    obtain ⟨v6, b6, hs⟩ := bind_eq_ok hs
    cases hs
    exact ⟨(ld_opt fun a _ => text_yaml cx env a).1 ⟨_, a0, b0⟩,
      (ld_int cx env (int_yaml cx env)).1 ⟨_, a1, b1⟩,
      (ld_int cx env (int_yaml cx env)).1 ⟨_, a2, b2⟩,
      (ld_int cx env (int_yaml cx env)).1 ⟨_, a3, b3⟩,
      (ld_bool cx env (bool_yaml cx env)).1 ⟨_, a4, b4⟩,
      (ld_opt fun a _ => text_yaml cx env a).1 ⟨_, a5, b5⟩,
      (ld_opt fun m h _ => ld_fillMap (r := skipNonObj (yamlEvent cx)) (fun _ _ => rfl)
          (Distinct.mapNodup ((DV.opt (DV.rest (DV.rest (DV.rest (DV.rest (DV.rest (DV.rest
          d0))))))) m h)) fun e _ => event_yaml cx env e.2).1 ⟨_, a6, b6⟩⟩
  · rintro ⟨h0, h1, h2, h3, h4, h5, h6⟩
    obtain ⟨w0, a0, b0⟩ := (ld_opt fun a _ => text_yaml cx env a).2 h0
    obtain ⟨w1, a1, b1⟩ := (ld_int cx env (int_yaml cx env)).2 h1
    obtain ⟨w2, a2, b2⟩ := (ld_int cx env (int_yaml cx env)).2 h2
    obtain ⟨w3, a3, b3⟩ := (ld_int cx env (int_yaml cx env)).2 h3
    obtain ⟨w4, a4, b4⟩ := (ld_bool cx env (bool_yaml cx env)).2 h4
    obtain ⟨w5, a5, b5⟩ := (ld_opt fun a _ => text_yaml cx env a).2 h5
    obtain ⟨w6, a6, b6⟩ := (ld_opt fun m h _ => ld_fillMap (r := skipNonObj (yamlEvent cx)) (fun _
        _ => rfl) (Distinct.mapNodup ((DV.opt (DV.rest (DV.rest (DV.rest (DV.rest (DV.rest (DV.rest
        d0))))))) m h)) fun e _ => event_yaml cx env e.2).2 h6
    exact ⟨_, (optY rfl (fun s o => { s with sourceId := o }) (fun _ => rfl) rfl).2 ⟨_, a0, (optY
        rfl (fun s o => { s with batchSize := o }) (fun _ => rfl) rfl).2 ⟨_, a1, (optY rfl (fun s o
        => { s with visibilityTimeout := o }) (fun _ => rfl) rfl).2 ⟨_, a2, (optY rfl (fun s o => {
        s with waitTimeSeconds := o }) (fun _ => rfl) rfl).2 ⟨_, a3, (optY rfl (fun s o => { s with
        partialFailures := o }) (fun _ => rfl) rfl).2 ⟨_, a4, (optY rfl (fun s o => { s with
        routingKey := o }) (fun _ => rfl) rfl).2 ⟨_, a5, (optY rfl (fun s o => { s with
        externalEvents := o }) (fun _ => rfl) rfl).2 ⟨_, a6, rfl⟩⟩⟩⟩⟩⟩⟩,
      (bind_ok b0 _).trans ((bind_ok b1 _).trans ((bind_ok b2 _).trans ((bind_ok b3 _).trans
          ((bind_ok b4 _).trans ((bind_ok b5 _).trans ((bind_ok b6 _).trans (rfl)))))))⟩

theorem configSpec_json (x : ConfigSpec (Text cx.cls)) (hd : Distinct (F := F) (wConfigSpec x)) (y
    : ConfigSpec Str) :
    Ld (jsonConfigSpec cx (wConfigSpec x)) (resConfigSpec env) y ↔ ConfigSpecM env x y := by
  unfold wConfigSpec at hd ⊢
  unfold jsonConfigSpec
  unfold resConfigSpec
  have d0 : DV _ := hd.value
  constructor
  · rintro ⟨raw, hr, hs⟩
    rw [jsonStruct_obj hd (List.forall_mem_nil _)] at hr
    obtain ⟨w0, a0, hr⟩ := (optJ rfl (fun _ => nn rfl) rfl).1 hr
    obtain ⟨w1, a1, hr⟩ := (optJ rfl (fun _ => nn rfl) rfl).1 hr
    cases fill_done hr
    obtain ⟨v0, b0, hs⟩ := bind_eq_ok hs
    obtain ⟨v1, b1, hs⟩ := bind_eq_ok hs
    cases hs
    exact ⟨(ld_opt fun a _ => text_json cx env a).1 ⟨_, a0, b0⟩,
      (ld_opt fun a _ => texts_json cx env a).1 ⟨_, a1, b1⟩⟩
  · rintro ⟨h0, h1⟩
    obtain ⟨w0, a0, b0⟩ := (ld_opt fun a _ => text_json cx env a).2 h0
    obtain ⟨w1, a1, b1⟩ := (ld_opt fun a _ => texts_json cx env a).2 h1
    exact ⟨_, (jsonStruct_obj hd (List.forall_mem_nil _)).trans ((optJ rfl (fun _ => nn rfl) rfl).2
        ⟨_, a0, (optJ rfl (fun _ => nn rfl) rfl).2 ⟨_, a1, rfl⟩⟩),
      (bind_ok b0 _).trans ((bind_ok b1 _).trans (rfl))⟩

theorem bucket_json (x : Option (Text cx.cls)) (hd : Distinct (F := F) (wBucket x)) (y : Option
    Str) :
    Ld (jsonBucket cx (wBucket x)) (resOptStr env) y ↔ ORel (TextM env) x y := by
  unfold wBucket at hd ⊢
  unfold jsonBucket
  rw [jsonStruct_obj hd (List.forall_mem_nil _)]
  constructor
  · rintro ⟨raw, hr, hs⟩
    obtain ⟨w, a, hr⟩ := (optJ rfl (fun _ => nn rfl) rfl).1 hr
    cases fill_done hr
    exact (ld_opt fun a _ => text_json cx env a).1 ⟨_, a, hs⟩
  · intro h
    obtain ⟨w, a, b⟩ := (ld_opt fun a _ => text_json cx env a).2 h
    exact ⟨w, (optJ rfl (fun _ => nn rfl) rfl).2 ⟨_, a, rfl⟩, b⟩

theorem topic_json (x : TopicSpec (Text cx.cls) (Val cx.cls Bool)) (hd : Distinct (F := F) (wTopic
    x)) (y : TopicSpec Str Bool) :
    Ld (jsonTopic cx (wTopic x)) (resTopic cx env) y ↔ TopicM cx env .json x y := by
  unfold wTopic at hd ⊢
  unfold jsonTopic
  unfold resTopic
  have d0 : DV _ := hd.value
  constructor
  · rintro ⟨raw, hr, hs⟩
    rw [jsonStruct_obj hd (List.forall_mem_nil _)] at hr
    obtain ⟨w0, a0, hr⟩ := (optJ rfl (fun _ => nn rfl) rfl).1 hr
    obtain ⟨w1, a1, hr⟩ := (optJ rfl bool_nn rfl).1 hr
    cases fill_done hr
    obtain ⟨v0, b0, hs⟩ := bind_eq_ok hs
    obtain ⟨v1, b1, hs⟩ := bind_eq_ok hs
    cases hs
    exact ⟨(ld_opt fun a _ => text_json cx env a).1 ⟨_, a0, b0⟩,
      (ld_bool cx env (bool_json cx env)).1 ⟨_, a1, b1⟩⟩
  · rintro ⟨h0, h1⟩
    obtain ⟨w0, a0, b0⟩ := (ld_opt fun a _ => text_json cx env a).2 h0
    obtain ⟨w1, a1, b1⟩ := (ld_bool cx env (bool_json cx env)).2 h1
    exact ⟨_, (jsonStruct_obj hd (List.forall_mem_nil _)).trans ((optJ rfl (fun _ => nn rfl) rfl).2
        ⟨_, a0, (optJ rfl bool_nn rfl).2 ⟨_, a1, rfl⟩⟩),
      (bind_ok b0 _).trans ((bind_ok b1 _).trans (rfl))⟩

theorem queue_json (x : QueueSpec (Text cx.cls) (Val cx.cls I64) (Val cx.cls Bool)) (hd : Distinct
    (F := F) (wQueue x)) (y : QueueSpec Str Int Bool) :
    Ld (jsonQueue cx (wQueue x)) (resQueue cx env) y ↔ QueueM cx env .json x y := by
  unfold wQueue at hd ⊢
  unfold jsonQueue
  unfold resQueue
  have d0 : DV _ := hd.value
  constructor
  · rintro ⟨raw, hr, hs⟩
    rw [jsonStruct_obj hd (List.forall_mem_nil _)] at hr
    obtain ⟨w0, a0, hr⟩ := (optJ rfl (fun _ => nn rfl) rfl).1 hr
    obtain ⟨w1, a1, hr⟩ := (optJ rfl bool_nn rfl).1 hr
    obtain ⟨w2, a2, hr⟩ := (optJ rfl int_nn rfl).1 hr
    cases fill_done hr
    obtain ⟨v0, b0, hs⟩ := bind_eq_ok hs
    obtain ⟨v1, b1, hs⟩ := bind_eq_ok hs
    obtain ⟨v2, b2, hs⟩ := bind_eq_ok hs
    cases hs
    exact ⟨(ld_opt fun a _ => text_json cx env a).1 ⟨_, a0, b0⟩,
      (ld_bool cx env (bool_json cx env)).1 ⟨_, a1, b1⟩,
      (ld_int cx env (int_json cx env)).1 ⟨_, a2, b2⟩⟩
  · rintro ⟨h0, h1, h2⟩
    obtain ⟨w0, a0, b0⟩ := (ld_opt fun a _ => text_json cx env a).2 h0
    obtain ⟨w1, a1, b1⟩ := (ld_bool cx env (bool_json cx env)).2 h1
    obtain ⟨w2, a2, b2⟩ := (ld_int cx env (int_json cx env)).2 h2
    exact ⟨_, (jsonStruct_obj hd (List.forall_mem_nil _)).trans ((optJ rfl (fun _ => nn rfl) rfl).2
        ⟨_, a0, (optJ rfl bool_nn rfl).2 ⟨_, a1, (optJ rfl int_nn rfl).2 ⟨_, a2, rfl⟩⟩⟩),
      (bind_ok b0 _).trans ((bind_ok b1 _).trans ((bind_ok b2 _).trans (rfl)))⟩


end Verif.Blueprint.Source
