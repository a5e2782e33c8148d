import Verif.Blueprint.SourceStructs

/-!
# Reading back what was written: APIs

For every struct one statement per format: reading what was written and then resolving it gives
exactly what the struct means.
-/

namespace Verif.Blueprint.Source

open Verif Verif.Subst Verif.Subst.Spec

variable {F : Type} (cx : Ctx F) (env : Env)

theorem list_isEmpty {A W : Type} {r : Doc F → Outcome Err W} {w : A → Doc F} {l : List A} {v :
    List W}
    (h : readVec r (wList w l) = .ok v) : (!v.isEmpty) = true ↔ l ≠ [] := by
  cases l with
  | nil => cases h; simp
  | cons a l =>
    simp only [readVec, wList, List.map_cons, fillVec, keep] at h
    obtain ⟨o, ho, h⟩ := bind_eq_ok h
    obtain ⟨b, hb, ho⟩ := bind_eq_ok ho
    cases ho
    obtain ⟨u, hu, h⟩ := bind_eq_ok h
    cases h
    simp

theorem corsConfig_json (x : CorsConfig (Text cx.cls) (Val cx.cls I64) (Val cx.cls Bool)) (hd :
    Distinct (F := F) (wCorsConfig x)) (y : CorsConfig Str Int Bool) :
    Ld (jsonCorsConfig cx (wCorsConfig x)) (resCorsConfig cx env) y ↔ CorsConfigM cx env .json x y
        := by
  unfold wCorsConfig at hd ⊢
  unfold jsonCorsConfig
  unfold resCorsConfig
  have d0 : DV _ := hd.value
  constructor
  · rintro ⟨raw, hr, hs⟩
    rw [jsonStruct_obj hd (List.forall_mem_nil _)] at hr
    obtain ⟨w0, a0, hr⟩ := (optJ rfl bool_nn rfl).1 hr
    obtain ⟨w1, a1, hr⟩ := (optJ rfl (fun _ => nn rfl) rfl).1 hr
    obtain ⟨w2, a2, hr⟩ := (optJ rfl (fun _ => nn rfl) rfl).1 hr
    obtain ⟨w3, a3, hr⟩ := (optJ rfl (fun _ => nn rfl) rfl).1 hr
    obtain ⟨w4, a4, hr⟩ := (optJ rfl (fun _ => nn rfl) rfl).1 hr
    obtain ⟨w5, a5, hr⟩ := (optJ rfl int_nn rfl).1 hr
    cases fill_done hr
    obtain ⟨v0, b0, hs⟩ := bind_eq_ok hs
    obtain ⟨v1, b1, hs⟩ := bind_eq_ok hs
    obtain ⟨v2, b2, hs⟩ := bind_eq_ok hs
    obtain ⟨v3, b3, hs⟩ := bind_eq_ok hs
    obtain ⟨v4, b4, hs⟩ := bind_eq_ok hs
    obtain ⟨v5, b5, hs⟩ := bind_eq_ok hs
    cases hs
    exact ⟨(ld_bool cx env (bool_json cx env)).1 ⟨_, a0, b0⟩,
      (ld_opt fun a _ => texts_json cx env a).1 ⟨_, a1, b1⟩,
      (ld_opt fun a _ => texts_json cx env a).1 ⟨_, a2, b2⟩,
      (ld_opt fun a _ => texts_json cx env a).1 ⟨_, a3, b3⟩,
      (ld_opt fun a _ => texts_json cx env a).1 ⟨_, a4, b4⟩,
      (ld_int cx env (int_json cx env)).1 ⟨_, a5, b5⟩⟩
  · rintro ⟨h0, h1, h2, h3, h4, h5⟩
    obtain ⟨w0, a0, b0⟩ := (ld_bool cx env (bool_json cx env)).2 h0
    obtain ⟨w1, a1, b1⟩ := (ld_opt fun a _ => texts_json cx env a).2 h1
    obtain ⟨w2, a2, b2⟩ := (ld_opt fun a _ => texts_json cx env a).2 h2
    obtain ⟨w3, a3, b3⟩ := (ld_opt fun a _ => texts_json cx env a).2 h3
    obtain ⟨w4, a4, b4⟩ := (ld_opt fun a _ => texts_json cx env a).2 h4
    obtain ⟨w5, a5, b5⟩ := (ld_int cx env (int_json cx env)).2 h5
    exact ⟨_, (jsonStruct_obj hd (List.forall_mem_nil _)).trans ((optJ rfl bool_nn rfl).2 ⟨_, a0,
        (optJ rfl (fun _ => nn rfl) rfl).2 ⟨_, a1, (optJ rfl (fun _ => nn rfl) rfl).2 ⟨_, a2, (optJ
        rfl (fun _ => nn rfl) rfl).2 ⟨_, a3, (optJ rfl (fun _ => nn rfl) rfl).2 ⟨_, a4, (optJ rfl
        int_nn rfl).2 ⟨_, a5, rfl⟩⟩⟩⟩⟩⟩),
      (bind_ok b0 _).trans ((bind_ok b1 _).trans ((bind_ok b2 _).trans ((bind_ok b3 _).trans
          ((bind_ok b4 _).trans ((bind_ok b5 _).trans (rfl))))))⟩

theorem corsConfig_yaml (x : CorsConfig (Text cx.cls) (Val cx.cls I64) (Val cx.cls Bool)) (hd :
    Distinct (F := F) (wCorsConfig x)) (y : CorsConfig Str Int Bool) :
    Ld (readObj (yamlCorsConfig cx ) (wCorsConfig x)) (resCorsConfig cx env) y ↔ CorsConfigM cx env
        .yaml x y := by
  unfold wCorsConfig at hd ⊢
  simp only [readObj]
  unfold yamlCorsConfig
  unfold resCorsConfig
  have d0 : DV _ := hd.value
  constructor
  · rintro ⟨raw, hr, hs⟩
    obtain ⟨w0, a0, hr⟩ := (optY rfl (fun s o => { s with allowCredentials := o }) (fun _ => rfl)
        rfl).1 hr
    obtain ⟨w1, a1, hr⟩ := (optY rfl (fun s o => { s with allowOrigins := o }) (fun _ => rfl)
        rfl).1 hr
    obtain ⟨w2, a2, hr⟩ := (optY rfl (fun s o => { s with allowMethods := o }) (fun _ => rfl)
        rfl).1 hr
    obtain ⟨w3, a3, hr⟩ := (optY rfl (fun s o => { s with allowHeaders := o }) (fun _ => rfl)
        rfl).1 hr
    obtain ⟨w4, a4, hr⟩ := (optY rfl (fun s o => { s with exposeHeaders := o }) (fun _ => rfl)
        rfl).1 hr
    obtain ⟨w5, a5, hr⟩ := (optY rfl (fun s o => { s with maxAge := o }) (fun _ => rfl) rfl).1 hr
    cases fill_done hr
    obtain ⟨v0, b0, hs⟩ := bind_eq_ok hs
    obtain ⟨v1, b1, hs⟩ := bind_eq_ok hs
    obtain ⟨v2, b2, hs⟩ := bind_eq_ok hs
    obtain ⟨v3, b3, hs⟩ := bind_eq_ok hs
    obtain ⟨v4, b4, hs⟩ := bind_eq_ok hs
    obtain ⟨v5, b5, hs⟩ := bind_eq_ok hs
    cases hs
    exact ⟨(ld_bool cx env (bool_yaml cx env)).1 ⟨_, a0, b0⟩,
      (ld_opt fun a _ => texts_yaml cx env a).1 ⟨_, a1, b1⟩,
      (ld_opt fun a _ => texts_yaml cx env a).1 ⟨_, a2, b2⟩,
      (ld_opt fun a _ => texts_yaml cx env a).1 ⟨_, a3, b3⟩,
      (ld_opt fun a _ => texts_yaml cx env a).1 ⟨_, a4, b4⟩,
      (ld_int cx env (int_yaml cx env)).1 ⟨_, a5, b5⟩⟩
  · rintro ⟨h0, h1, h2, h3, h4, h5⟩
    obtain ⟨w0, a0, b0⟩ := (ld_bool cx env (bool_yaml cx env)).2 h0
    obtain ⟨w1, a1, b1⟩ := (ld_opt fun a _ => texts_yaml cx env a).2 h1
    obtain ⟨w2, a2, b2⟩ := (ld_opt fun a _ => texts_yaml cx env a).2 h2
    obtain ⟨w3, a3, b3⟩ := (ld_opt fun a _ => texts_yaml cx env a).2 h3
    obtain ⟨w4, a4, b4⟩ := (ld_opt fun a _ => texts_yaml cx env a).2 h4
    obtain ⟨w5, a5, b5⟩ := (ld_int cx env (int_yaml cx env)).2 h5
    exact ⟨_, (optY rfl (fun s o => { s with allowCredentials := o }) (fun _ => rfl) rfl).2 ⟨_, a0,
        (optY rfl (fun s o => { s with allowOrigins := o }) (fun _ => rfl) rfl).2 ⟨_, a1, (optY rfl
        (fun s o => { s with allowMethods := o }) (fun _ => rfl) rfl).2 ⟨_, a2, (optY rfl (fun s o
        => { s with allowHeaders := o }) (fun _ => rfl) rfl).2 ⟨_, a3, (optY rfl (fun s o => { s
        with exposeHeaders := o }) (fun _ => rfl) rfl).2 ⟨_, a4, (optY rfl (fun s o => { s with
        maxAge := o }) (fun _ => rfl) rfl).2 ⟨_, a5, rfl⟩⟩⟩⟩⟩⟩,
      (bind_ok b0 _).trans ((bind_ok b1 _).trans ((bind_ok b2 _).trans ((bind_ok b3 _).trans
          ((bind_ok b4 _).trans ((bind_ok b5 _).trans (rfl))))))⟩

theorem cors_nn (x : Cors (Text cx.cls) (Val cx.cls I64) (Val cx.cls Bool)) :
    wCors (F := F) x ≠ .null := by
  cases x with
  | str s => exact nn rfl
  | config c => exact nn rfl

theorem cors_json (x : Cors (Text cx.cls) (Val cx.cls I64) (Val cx.cls Bool))
    (hd : Distinct (F := F) (wCors x)) (y : Cors Str Int Bool) :
    Ld (jsonCors cx (wCors x)) (resCors cx env) y ↔ CorsM cx env .json x y := by
  unfold jsonCors
  cases x with
  | str s =>
    have hc : (jsonCorsConfig cx (wCors (F := F) (.str s)) >>= fun c =>
      (pure (.config c) : Outcome Err (Cors Sos (Node F) (Node F)))) = .err .format := rfl
    simp only [Ld, orElse_iff hc]
    refine (ld_wrap (h := resStr env) (mk' := .str) fun c => rfl).trans ?_
    constructor
    · rintro ⟨d, hl, rfl⟩; exact .str ((text_json cx env s d).1 hl)
    · intro h
      cases h with
      | @str _ d hl => exact ⟨d, (text_json cx env s d).2 hl, rfl⟩
  | config c =>
    have hc : (jsonSos cx (wCors (F := F) (.config c)) >>= fun c =>
      (pure (.str c) : Outcome Err (Cors Sos (Node F) (Node F)))) = .err .format := rfl
    rw [orElse_err hc]
    refine (ld_wrap (h := resCorsConfig cx env) (mk' := .config) fun c => rfl).trans ?_
    constructor
    · rintro ⟨d, hl, rfl⟩; exact .config ((corsConfig_json cx env c hd d).1 hl)
    · intro h
      cases h with
      | @config _ d hl => exact ⟨d, (corsConfig_json cx env c hd d).2 hl, rfl⟩

/-- The `cors` field of a document in YAML that was written. -/
def yCors (x : Cors (Text cx.cls) (Val cx.cls I64) (Val cx.cls Bool)) :
    Outcome Err (Cors Sos (Node F) (Node F)) :=
  match x with
  | .str s => yamlSos cx (F := F) (wText s) >>= fun s => pure (.str s)
  | .config c => readObj (yamlCorsConfig cx) (wCorsConfig c) >>= fun c => pure (.config c)

theorem yamlCors_y (x : Cors (Text cx.cls) (Val cx.cls I64) (Val cx.cls Bool)) :
    yamlCors cx (wCors x) = yCors cx x >>= fun c => pure (some c) := by
  cases x with
  | str s =>
    simp only [yCors, yamlSos, wText, wCors, yamlCors]
    cases liftParse (parseSubstitutions cx.cls (render s.1)) <;> rfl
  | config c =>
    show (_ >>= _) = (_ >>= _)
    unfold yCors wCorsConfig
    simp only [readObj]
    generalize yamlCorsConfig cx _ = o
    cases o <;> rfl

theorem cors_yaml (x : Cors (Text cx.cls) (Val cx.cls I64) (Val cx.cls Bool))
    (hd : Distinct (F := F) (wCors x)) (y : Cors Str Int Bool) :
    Ld (yCors cx x) (resCors cx env) y ↔ CorsM cx env .yaml x y := by
  unfold yCors
  cases x with
  | str s =>
    refine (ld_wrap (h := resStr env) (mk' := .str) fun c => rfl).trans ?_
    constructor
    · rintro ⟨d, hl, rfl⟩; exact .str ((text_yaml cx env s d).1 hl)
    · intro h
      cases h with
      | @str _ d hl => exact ⟨d, (text_yaml cx env s d).2 hl, rfl⟩
  | config c =>
    refine (ld_wrap (h := resCorsConfig cx env) (mk' := .config) fun c => rfl).trans ?_
    constructor
    · rintro ⟨d, hl, rfl⟩; exact .config ((corsConfig_yaml cx env c hd d).1 hl)
    · intro h
      cases h with
      | @config _ d hl => exact ⟨d, (corsConfig_yaml cx env c hd d).2 hl, rfl⟩

/-- The part of `resStrOrConfig` for a mapping. -/
def resProtocolAnd (c : ProtocolAnd Sos (Node F)) : Res (ProtocolAnd Str Protocol) := do
  let protocol ← resProtocol cx env c.protocol
  let value ← resStr env c.value
  pure { protocol, value }

theorem baseAnd_json (x : ProtocolAnd (Text cx.cls) (Proto cx.cls)) (hd : Distinct (F := F)
    (wProtocolAnd "basePath" x)) (y : ProtocolAnd Str Protocol) :
    Ld (jsonProtocolAnd cx "basePath" (wProtocolAnd "basePath" x)) (resProtocolAnd cx env) y ↔
        ProtocolAndM cx env .json x y := by
  unfold wProtocolAnd at hd ⊢
  unfold jsonProtocolAnd
  unfold resProtocolAnd
  have d0 : DV _ := hd.value
  constructor
  · rintro ⟨raw, hr, hs⟩
    rw [jsonStruct_obj hd (List.forall_mem_cons.2 ⟨key_req, List.forall_mem_cons.2 ⟨(key_skip
        key_req), List.forall_mem_nil _⟩⟩)] at hr
    obtain ⟨w0, a0, hr⟩ := (reqF rfl).1 hr
    obtain ⟨w1, a1, hr⟩ := (reqF rfl).1 hr
    cases fill_done hr
    obtain ⟨v0, b0, hs⟩ := bind_eq_ok hs
    obtain ⟨v1, b1, hs⟩ := bind_eq_ok hs
    cases hs
    exact ⟨(proto_json cx env _ _).1 ⟨_, a0, b0⟩,
      (text_json cx env _ _).1 ⟨_, a1, b1⟩,
      nofun⟩
  · rintro ⟨h0, h1, hf⟩
    obtain ⟨w0, a0, b0⟩ := (proto_json cx env _ _).2 h0
    obtain ⟨w1, a1, b1⟩ := (text_json cx env _ _).2 h1
    exact ⟨_, (jsonStruct_obj hd (List.forall_mem_cons.2 ⟨key_req, List.forall_mem_cons.2
        ⟨(key_skip key_req), List.forall_mem_nil _⟩⟩)).trans ((reqF rfl).2 ⟨_, a0, (reqF rfl).2 ⟨_,
        a1, rfl⟩⟩),
      (bind_ok b0 _).trans ((bind_ok b1 _).trans (rfl))⟩

theorem baseAnd_yaml (x : ProtocolAnd (Text cx.cls) (Proto cx.cls)) (hd : Distinct (F := F)
    (wProtocolAnd "basePath" x)) (y : ProtocolAnd Str Protocol) :
    Ld (readObj (yamlProtocolAnd cx "basePath" ) (wProtocolAnd "basePath" x)) (resProtocolAnd cx
        env) y ↔ ProtocolAndM cx env .yaml x y := by
  unfold wProtocolAnd at hd ⊢
  simp only [readObj]
  unfold yamlProtocolAnd
  unfold resProtocolAnd
  have d0 : DV _ := hd.value
  constructor
  · rintro ⟨raw, hr, hs⟩
    obtain ⟨w0, a0, hr⟩ := (reqF rfl).1 hr
    obtain ⟨w1, a1, hr⟩ := (reqF rfl).1 hr
    cases fill_done hr
    obtain ⟨v0, b0, hs⟩ := bind_eq_ok hs
    obtain ⟨v1, b1, hs⟩ := bind_eq_ok hs
    cases hs
    exact ⟨((protoName_yaml cx env _ _).1 ⟨_, a0, b0⟩).1,
      (text_yaml cx env _ _).1 ⟨_, a1, b1⟩,
      fun _ => ((protoName_yaml cx env _ _).1 ⟨_, a0, b0⟩).2⟩
  · rintro ⟨h0, h1, hf⟩
    obtain ⟨w0, a0, b0⟩ := (protoName_yaml cx env _ _).2 ⟨h0, hf rfl⟩
    obtain ⟨w1, a1, b1⟩ := (text_yaml cx env _ _).2 h1
    exact ⟨_, (reqF rfl).2 ⟨_, a0, (reqF rfl).2 ⟨_, a1, rfl⟩⟩,
      (bind_ok b0 _).trans ((bind_ok b1 _).trans (rfl))⟩

theorem sourceAnd_json (x : ProtocolAnd (Text cx.cls) (Proto cx.cls)) (hd : Distinct (F := F)
    (wProtocolAnd "source" x)) (y : ProtocolAnd Str Protocol) :
    Ld (jsonProtocolAnd cx "source" (wProtocolAnd "source" x)) (resProtocolAnd cx env) y ↔
        ProtocolAndM cx env .json x y := by
  unfold wProtocolAnd at hd ⊢
  unfold jsonProtocolAnd
  unfold resProtocolAnd
  have d0 : DV _ := hd.value
  constructor
  · rintro ⟨raw, hr, hs⟩
    rw [jsonStruct_obj hd (List.forall_mem_cons.2 ⟨key_req, List.forall_mem_cons.2 ⟨(key_skip
        key_req), List.forall_mem_nil _⟩⟩)] at hr
    obtain ⟨w0, a0, hr⟩ := (reqF rfl).1 hr
    obtain ⟨w1, a1, hr⟩ := (reqF rfl).1 hr
    cases fill_done hr
    obtain ⟨v0, b0, hs⟩ := bind_eq_ok hs
    obtain ⟨v1, b1, hs⟩ := bind_eq_ok hs
    cases hs
    exact ⟨(proto_json cx env _ _).1 ⟨_, a0, b0⟩,
      (text_json cx env _ _).1 ⟨_, a1, b1⟩,
      nofun⟩
  · rintro ⟨h0, h1, hf⟩
    obtain ⟨w0, a0, b0⟩ := (proto_json cx env _ _).2 h0
    obtain ⟨w1, a1, b1⟩ := (text_json cx env _ _).2 h1
    exact ⟨_, (jsonStruct_obj hd (List.forall_mem_cons.2 ⟨key_req, List.forall_mem_cons.2
        ⟨(key_skip key_req), List.forall_mem_nil _⟩⟩)).trans ((reqF rfl).2 ⟨_, a0, (reqF rfl).2 ⟨_,
        a1, rfl⟩⟩),
      (bind_ok b0 _).trans ((bind_ok b1 _).trans (rfl))⟩

theorem sourceAnd_yaml (x : ProtocolAnd (Text cx.cls) (Proto cx.cls)) (hd : Distinct (F := F)
    (wProtocolAnd "source" x)) (y : ProtocolAnd Str Protocol) :
    Ld (readObj (yamlProtocolAnd cx "source" ) (wProtocolAnd "source" x)) (resProtocolAnd cx env) y
        ↔ ProtocolAndM cx env .yaml x y := by
  unfold wProtocolAnd at hd ⊢
  simp only [readObj]
  unfold yamlProtocolAnd
  unfold resProtocolAnd
  have d0 : DV _ := hd.value
  constructor
  · rintro ⟨raw, hr, hs⟩
    obtain ⟨w0, a0, hr⟩ := (reqF rfl).1 hr
    obtain ⟨w1, a1, hr⟩ := (reqF rfl).1 hr
    cases fill_done hr
    obtain ⟨v0, b0, hs⟩ := bind_eq_ok hs
    obtain ⟨v1, b1, hs⟩ := bind_eq_ok hs
    cases hs
    exact ⟨((protoName_yaml cx env _ _).1 ⟨_, a0, b0⟩).1,
      (text_yaml cx env _ _).1 ⟨_, a1, b1⟩,
      fun _ => ((protoName_yaml cx env _ _).1 ⟨_, a0, b0⟩).2⟩
  · rintro ⟨h0, h1, hf⟩
    obtain ⟨w0, a0, b0⟩ := (protoName_yaml cx env _ _).2 ⟨h0, hf rfl⟩
    obtain ⟨w1, a1, b1⟩ := (text_yaml cx env _ _).2 h1
    exact ⟨_, (reqF rfl).2 ⟨_, a0, (reqF rfl).2 ⟨_, a1, rfl⟩⟩,
      (bind_ok b0 _).trans ((bind_ok b1 _).trans (rfl))⟩

theorem sc_nn {key : String} (x : StrOrConfig (Text cx.cls) (Proto cx.cls)) :
    wStrOrConfig (F := F) key x ≠ .null := by
  cases x with
  | str s => exact nn rfl
  | config c => exact nn rfl

theorem resStrOrConfig_config (c : ProtocolAnd Sos (Node F)) :
    resStrOrConfig cx env (.config c) =
      resProtocolAnd cx env c >>= fun d => pure (.config d) := by
  simp only [resStrOrConfig, resProtocolAnd]
  generalize resProtocol cx env c.protocol = p
  generalize resStr env c.value = v
  cases p <;> cases v <;> rfl

theorem sc_json {key : String}
    (hc : ∀ (c : ProtocolAnd (Text cx.cls) (Proto cx.cls)), Distinct (F := F) (wProtocolAnd key c) →
      ∀ d, Ld (jsonProtocolAnd cx key (wProtocolAnd key c)) (resProtocolAnd cx env) d ↔
        ProtocolAndM cx env .json c d)
    (x : StrOrConfig (Text cx.cls) (Proto cx.cls)) (hd : Distinct (F := F) (wStrOrConfig key x))
    (y : StrOrConfig Str Protocol) :
    Ld (jsonStrOrConfig cx key (wStrOrConfig key x)) (resStrOrConfig cx env) y ↔
      StrOrConfigM cx env .json x y := by
  unfold jsonStrOrConfig
  cases x with
  | str s =>
    have he : (jsonProtocolAnd cx key (wStrOrConfig (F := F) key (.str s)) >>= fun c =>
      (pure (.config c) : Outcome Err (StrOrConfig Sos (Node F)))) = .err .format := rfl
    simp only [Ld, orElse_iff he]
    refine (ld_wrap (h := resStr env) (mk' := .str) fun c => rfl).trans ?_
    constructor
    · rintro ⟨d, hl, rfl⟩; exact .str ((text_json cx env s d).1 hl)
    · intro h
      cases h with
      | @str _ d hl => exact ⟨d, (text_json cx env s d).2 hl, rfl⟩
  | config c =>
    have he : (jsonSos cx (wStrOrConfig (F := F) key (.config c)) >>= fun c =>
      (pure (.str c) : Outcome Err (StrOrConfig Sos (Node F)))) = .err .format := rfl
    rw [orElse_err he]
    refine (ld_wrap (h := resProtocolAnd cx env) (mk' := .config)
      (resStrOrConfig_config cx env)).trans ?_
    constructor
    · rintro ⟨d, hl, rfl⟩; exact .config ((hc c hd d).1 hl)
    · intro h
      cases h with
      | @config _ d hl => exact ⟨d, (hc c hd d).2 hl, rfl⟩

theorem sc_yaml {key : String}
    (hc : ∀ (c : ProtocolAnd (Text cx.cls) (Proto cx.cls)), Distinct (F := F) (wProtocolAnd key c) →
      ∀ d, Ld (readObj (yamlProtocolAnd cx key) (wProtocolAnd key c)) (resProtocolAnd cx env) d ↔
        ProtocolAndM cx env .yaml c d)
    (x : StrOrConfig (Text cx.cls) (Proto cx.cls)) (hd : Distinct (F := F) (wStrOrConfig key x))
    (y : StrOrConfig Str Protocol) :
    Ld (yamlStrOrConfig cx key (wStrOrConfig key x)) (resStrOrConfig cx env) y ↔
      StrOrConfigM cx env .yaml x y := by
  cases x with
  | str s =>
    refine (ld_wrap (h := resStr env) (mk' := .str) fun c => rfl).trans ?_
    constructor
    · rintro ⟨d, hl, rfl⟩; exact .str ((text_yaml cx env s d).1 hl)
    · intro h
      cases h with
      | @str _ d hl => exact ⟨d, (text_yaml cx env s d).2 hl, rfl⟩
  | config c =>
    refine (ld_wrap (h := resProtocolAnd cx env) (mk' := .config)
      (resStrOrConfig_config cx env)).trans ?_
    constructor
    · rintro ⟨d, hl, rfl⟩; exact .config ((hc c hd d).1 hl)
    · intro h
      cases h with
      | @config _ d hl => exact ⟨d, (hc c hd d).2 hl, rfl⟩

theorem base_json (x : StrOrConfig (Text cx.cls) (Proto cx.cls))
    (hd : Distinct (F := F) (wStrOrConfig "basePath" x)) (y : StrOrConfig Str Protocol) :
    Ld (jsonStrOrConfig cx "basePath" (wStrOrConfig "basePath" x)) (resStrOrConfig cx env) y ↔
      StrOrConfigM cx env .json x y := sc_json cx env (baseAnd_json cx env) x hd y

theorem source_json (x : StrOrConfig (Text cx.cls) (Proto cx.cls))
    (hd : Distinct (F := F) (wStrOrConfig "source" x)) (y : StrOrConfig Str Protocol) :
    Ld (jsonStrOrConfig cx "source" (wStrOrConfig "source" x)) (resStrOrConfig cx env) y ↔
      StrOrConfigM cx env .json x y := sc_json cx env (sourceAnd_json cx env) x hd y

theorem base_yaml (x : StrOrConfig (Text cx.cls) (Proto cx.cls))
    (hd : Distinct (F := F) (wStrOrConfig "basePath" x)) (y : StrOrConfig Str Protocol) :
    Ld (yamlStrOrConfig cx "basePath" (wStrOrConfig "basePath" x)) (resStrOrConfig cx env) y ↔
      StrOrConfigM cx env .yaml x y := sc_yaml cx env (baseAnd_yaml cx env) x hd y

theorem source_yaml (x : StrOrConfig (Text cx.cls) (Proto cx.cls))
    (hd : Distinct (F := F) (wStrOrConfig "source" x)) (y : StrOrConfig Str Protocol) :
    Ld (yamlStrOrConfig cx "source" (wStrOrConfig "source" x)) (resStrOrConfig cx env) y ↔
      StrOrConfigM cx env .yaml x y := sc_yaml cx env (sourceAnd_yaml cx env) x hd y

theorem domain_filled {n c : Text cx.cls} {l : List (StrOrConfig (Text cx.cls) (Proto cx.cls))}
    {n' c' : Sos} {l' : List (StrOrConfig Sos (Node F))}
    (hn : yamlSos (F := F) cx (wText n) = .ok n')
    (hl : readVec (yamlStrOrConfig cx "basePath") (wList (wStrOrConfig "basePath") l) = .ok l')
    (hc : yamlSos (F := F) cx (wText c) = .ok c') :
    require (!sosEmpty n' && !l'.isEmpty && !sosEmpty c') = .ok () ↔
      Filled n ∧ l ≠ [] ∧ Filled c := by
  rw [require_iff, Bool.and_eq_true, Bool.and_eq_true, filled_text cx hn, list_isEmpty hl,
    filled_text cx hc, and_assoc]

theorem domain_json (x : Domain (Text cx.cls) (Val cx.cls Bool) (Proto cx.cls) (Text cx.cls)) (hd :
    Distinct (F := F) (wDomain x)) (y : Domain Str Bool Protocol SecPolicy) :
    Ld (jsonDomain cx (wDomain x)) (resDomain cx env) y ↔ DomainM cx env .json x y := by
  unfold wDomain at hd ⊢
  unfold jsonDomain
  unfold resDomain
  have d0 : DV _ := hd.value
  constructor
  · rintro ⟨raw, hr, hs⟩
    rw [jsonStruct_obj hd (List.forall_mem_cons.2 ⟨key_req, List.forall_mem_cons.2 ⟨(key_skip
        key_req), List.forall_mem_cons.2 ⟨(key_skip (key_skip (key_skip key_req))),
        List.forall_mem_nil _⟩⟩⟩)] at hr
    obtain ⟨w0, a0, hr⟩ := (reqF rfl).1 hr
    obtain ⟨w1, a1, hr⟩ := (reqF rfl).1 hr
    obtain ⟨w2, a2, hr⟩ := (optJ rfl bool_nn rfl).1 hr
    obtain ⟨w3, a3, hr⟩ := (reqF rfl).1 hr
    obtain ⟨w4, a4, hr⟩ := (optJ rfl (fun _ => nn rfl) rfl).1 hr
    cases fill_done hr
    obtain ⟨v0, b0, hs⟩ := bind_eq_ok hs
    obtain ⟨v1, b1, hs⟩ := bind_eq_ok hs
    obtain ⟨v2, b2, hs⟩ := bind_eq_ok hs
    obtain ⟨v3, b3, hs⟩ := bind_eq_ok hs
    obtain ⟨v4, b4, hs⟩ := bind_eq_ok hs
    cases hs
    exact ⟨(text_json cx env _ _).1 ⟨_, a0, b0⟩,
      (ld_list fun a ha => base_json cx env a (Distinct.list (DV.req (DV.rest d0)) a ha)).1 ⟨_, a1,
          b1⟩,
      (ld_bool cx env (bool_json cx env)).1 ⟨_, a2, b2⟩,
      (text_json cx env _ _).1 ⟨_, a3, b3⟩,
      (ld_opt fun a _ => secPolicy_json cx env a).1 ⟨_, a4, b4⟩,
      nofun⟩
  · rintro ⟨h0, h1, h2, h3, h4, hf⟩
    obtain ⟨w0, a0, b0⟩ := (text_json cx env _ _).2 h0
    obtain ⟨w1, a1, b1⟩ := (ld_list fun a ha => base_json cx env a (Distinct.list (DV.req (DV.rest
        d0)) a ha)).2 h1
    obtain ⟨w2, a2, b2⟩ := (ld_bool cx env (bool_json cx env)).2 h2
    obtain ⟨w3, a3, b3⟩ := (text_json cx env _ _).2 h3
    obtain ⟨w4, a4, b4⟩ := (ld_opt fun a _ => secPolicy_json cx env a).2 h4
    exact ⟨_, (jsonStruct_obj hd (List.forall_mem_cons.2 ⟨key_req, List.forall_mem_cons.2
        ⟨(key_skip key_req), List.forall_mem_cons.2 ⟨(key_skip (key_skip (key_skip key_req))),
        List.forall_mem_nil _⟩⟩⟩)).trans ((reqF rfl).2 ⟨_, a0, (reqF rfl).2 ⟨_, a1, (optJ rfl
        bool_nn rfl).2 ⟨_, a2, (reqF rfl).2 ⟨_, a3, (optJ rfl (fun _ => nn rfl) rfl).2 ⟨_, a4,
        rfl⟩⟩⟩⟩⟩),
      (bind_ok b0 _).trans ((bind_ok b1 _).trans ((bind_ok b2 _).trans ((bind_ok b3 _).trans
          ((bind_ok b4 _).trans (rfl)))))⟩

theorem domain_yaml (x : Domain (Text cx.cls) (Val cx.cls Bool) (Proto cx.cls) (Text cx.cls)) (hd :
    Distinct (F := F) (wDomain x)) (y : Domain Str Bool Protocol SecPolicy) :
    Ld (readObj (yamlDomain cx ) (wDomain x)) (resDomain cx env) y ↔ DomainM cx env .yaml x y := by
  unfold wDomain at hd ⊢
  simp only [readObj]
  unfold yamlDomain
  unfold resDomain
  have d0 : DV _ := hd.value
  constructor
  · rintro ⟨raw, hr, hs⟩
    obtain ⟨_, hr, hq⟩ := bind_eq_ok hr
    obtain ⟨_, hq, hz⟩ := bind_eq_ok hq
    cases hz
    obtain ⟨w0, a0, hr⟩ := (reqF rfl).1 hr
    obtain ⟨w1, a1, hr⟩ := (reqF rfl).1 hr
    obtain ⟨w2, a2, hr⟩ := (optY rfl (fun s o => { s with normalizeBasePath := o }) (fun _ => rfl)
        rfl).1 hr
    obtain ⟨w3, a3, hr⟩ := (reqF rfl).1 hr
    obtain ⟨w4, a4, hr⟩ := (optY rfl (fun s o => { s with securityPolicy := o }) (fun _ => rfl)
        rfl).1 hr
    cases fill_done hr
    obtain ⟨v0, b0, hs⟩ := bind_eq_ok hs
    obtain ⟨v1, b1, hs⟩ := bind_eq_ok hs
    obtain ⟨v2, b2, hs⟩ := bind_eq_ok hs
    obtain ⟨v3, b3, hs⟩ := bind_eq_ok hs
    obtain ⟨v4, b4, hs⟩ := bind_eq_ok hs
    cases hs
    exact ⟨(text_yaml cx env _ _).1 ⟨_, a0, b0⟩,
      (ld_list fun a ha => base_yaml cx env a (Distinct.list (DV.req (DV.rest d0)) a ha)).1 ⟨_, a1,
          b1⟩,
      (ld_bool cx env (bool_yaml cx env)).1 ⟨_, a2, b2⟩,
      (text_yaml cx env _ _).1 ⟨_, a3, b3⟩,
      (ld_opt fun a _ => secPolicy_yaml cx env a).1 ⟨_, a4, b4⟩,
      fun _ => domain_filled cx a0 a1 a3 |>.1 hq⟩
  · rintro ⟨h0, h1, h2, h3, h4, hf⟩
    obtain ⟨w0, a0, b0⟩ := (text_yaml cx env _ _).2 h0
    obtain ⟨w1, a1, b1⟩ := (ld_list fun a ha => base_yaml cx env a (Distinct.list (DV.req (DV.rest
        d0)) a ha)).2 h1
    obtain ⟨w2, a2, b2⟩ := (ld_bool cx env (bool_yaml cx env)).2 h2
    obtain ⟨w3, a3, b3⟩ := (text_yaml cx env _ _).2 h3
    obtain ⟨w4, a4, b4⟩ := (ld_opt fun a _ => secPolicy_yaml cx env a).2 h4
    exact ⟨_, (bind_ok ((reqF rfl).2 ⟨_, a0, (reqF rfl).2 ⟨_, a1, (optY rfl (fun s o => { s with
        normalizeBasePath := o }) (fun _ => rfl) rfl).2 ⟨_, a2, (reqF rfl).2 ⟨_, a3, (optY rfl (fun
        s o => { s with securityPolicy := o }) (fun _ => rfl) rfl).2 ⟨_, a4, rfl⟩⟩⟩⟩⟩) _).trans
        ((bind_ok ((domain_filled cx a0 a1 a3).2 (hf rfl)) _).trans rfl),
      (bind_ok b0 _).trans ((bind_ok b1 _).trans ((bind_ok b2 _).trans ((bind_ok b3 _).trans
          ((bind_ok b4 _).trans (rfl)))))⟩

theorem guard_json (x : Guard (Text cx.cls) (Proto cx.cls) (Text cx.cls)) (hd : Distinct (F := F)
    (wGuard x)) (y : Guard Str Protocol GuardType) :
    Ld (jsonGuard cx (wGuard x)) (resGuard cx env) y ↔ GuardM cx env .json x y := by
  unfold wGuard at hd ⊢
  unfold jsonGuard
  unfold resGuard
  have d0 : DV _ := hd.value
  constructor
  · rintro ⟨raw, hr, hs⟩
    rw [jsonStruct_obj hd (List.forall_mem_cons.2 ⟨key_req, List.forall_mem_nil _⟩)] at hr
    obtain ⟨w0, a0, hr⟩ := (reqF rfl).1 hr
    obtain ⟨w1, a1, hr⟩ := (optJ rfl (fun _ => nn rfl) rfl).1 hr
    obtain ⟨w2, a2, hr⟩ := (optJ rfl (sc_nn cx) rfl).1 hr
    obtain ⟨w3, a3, hr⟩ := (optJ rfl (fun _ => nn rfl) rfl).1 hr
    cases fill_done hr
    obtain ⟨v0, b0, hs⟩ := bind_eq_ok hs
    obtain ⟨v1, b1, hs⟩ := bind_eq_ok hs
    obtain ⟨v2, b2, hs⟩ := bind_eq_ok hs
    obtain ⟨v3, b3, hs⟩ := bind_eq_ok hs
    cases hs
    exact ⟨(guardType_json cx env _ _).1 ⟨_, a0, b0⟩,
      (ld_opt fun a _ => text_json cx env a).1 ⟨_, a1, b1⟩,
      (ld_opt fun a h => source_json cx env a ((DV.opt (DV.rest (DV.rest d0))) a h)).1 ⟨_, a2, b2⟩,
      (ld_opt fun a _ => texts_json cx env a).1 ⟨_, a3, b3⟩⟩
  · rintro ⟨h0, h1, h2, h3⟩
    obtain ⟨w0, a0, b0⟩ := (guardType_json cx env _ _).2 h0
    obtain ⟨w1, a1, b1⟩ := (ld_opt fun a _ => text_json cx env a).2 h1
    obtain ⟨w2, a2, b2⟩ := (ld_opt fun a h => source_json cx env a ((DV.opt (DV.rest (DV.rest d0)))
        a h)).2 h2
    obtain ⟨w3, a3, b3⟩ := (ld_opt fun a _ => texts_json cx env a).2 h3
    exact ⟨_, (jsonStruct_obj hd (List.forall_mem_cons.2 ⟨key_req, List.forall_mem_nil _⟩)).trans
        ((reqF rfl).2 ⟨_, a0, (optJ rfl (fun _ => nn rfl) rfl).2 ⟨_, a1, (optJ rfl (sc_nn cx)
        rfl).2 ⟨_, a2, (optJ rfl (fun _ => nn rfl) rfl).2 ⟨_, a3, rfl⟩⟩⟩⟩),
      (bind_ok b0 _).trans ((bind_ok b1 _).trans ((bind_ok b2 _).trans ((bind_ok b3 _).trans
          (rfl))))⟩

theorem guard_yaml (x : Guard (Text cx.cls) (Proto cx.cls) (Text cx.cls)) (hd : Distinct (F := F)
    (wGuard x)) (y : Guard Str Protocol GuardType) :
    Ld (readObj (yamlGuard cx ) (wGuard x)) (resGuard cx env) y ↔ GuardM cx env .yaml x y := by
  unfold wGuard at hd ⊢
  simp only [readObj]
  unfold yamlGuard
  unfold resGuard
  have d0 : DV _ := hd.value
  constructor
  · rintro ⟨raw, hr, hs⟩
    obtain ⟨_, hr, hq⟩ := bind_eq_ok hr
    obtain ⟨_, hq, hz⟩ := bind_eq_ok hq
    cases hz
    obtain ⟨w0, a0, hr⟩ := (reqF rfl).1 hr
    obtain ⟨w1, a1, hr⟩ := (optY rfl (fun s o => { s with issuer := o }) (fun _ => rfl) rfl).1 hr
    obtain ⟨w2, a2, hr⟩ := (optY rfl (fun s o => { s with tokenSource := o }) (fun _ => rfl) rfl).1
        hr
    obtain ⟨w3, a3, hr⟩ := (optY rfl (fun s o => { s with audience := o }) (fun _ => rfl) rfl).1 hr
    cases fill_done hr
    obtain ⟨v0, b0, hs⟩ := bind_eq_ok hs
    obtain ⟨v1, b1, hs⟩ := bind_eq_ok hs
    obtain ⟨v2, b2, hs⟩ := bind_eq_ok hs
    obtain ⟨v3, b3, hs⟩ := bind_eq_ok hs
    cases hs
    exact ⟨(guardType_yaml cx env _ _).1 ⟨_, a0, b0⟩,
      (ld_opt fun a _ => text_yaml cx env a).1 ⟨_, a1, b1⟩,
      (ld_opt fun a h => source_yaml cx env a ((DV.opt (DV.rest (DV.rest d0))) a h)).1 ⟨_, a2, b2⟩,
      (ld_opt fun a _ => texts_yaml cx env a).1 ⟨_, a3, b3⟩⟩
  · rintro ⟨h0, h1, h2, h3⟩
    obtain ⟨w0, a0, b0⟩ := (guardType_yaml cx env _ _).2 h0
    obtain ⟨w1, a1, b1⟩ := (ld_opt fun a _ => text_yaml cx env a).2 h1
    obtain ⟨w2, a2, b2⟩ := (ld_opt fun a h => source_yaml cx env a ((DV.opt (DV.rest (DV.rest d0)))
        a h)).2 h2
    obtain ⟨w3, a3, b3⟩ := (ld_opt fun a _ => texts_yaml cx env a).2 h3
    exact ⟨_, (bind_ok ((reqF rfl).2 ⟨_, a0, (optY rfl (fun s o => { s with issuer := o }) (fun _
        => rfl) rfl).2 ⟨_, a1, (optY rfl (fun s o => { s with tokenSource := o }) (fun _ => rfl)
        rfl).2 ⟨_, a2, (optY rfl (fun s o => { s with audience := o }) (fun _ => rfl) rfl).2 ⟨_,
        a3, rfl⟩⟩⟩⟩) _).trans ((bind_ok (require_iff.2 (guardType_filled cx a0)) _).trans rfl),
      (bind_ok b0 _).trans ((bind_ok b1 _).trans ((bind_ok b2 _).trans ((bind_ok b3 _).trans
          (rfl))))⟩

theorem auth_json (x : Auth (Text cx.cls) (Proto cx.cls) (Text cx.cls)) (hd : Distinct (F := F)
    (wAuth x)) (y : Auth Str Protocol GuardType) :
    Ld (jsonAuth cx (wAuth x)) (resAuth cx env) y ↔ AuthM cx env .json x y := by
  unfold wAuth at hd ⊢
  unfold jsonAuth
  unfold resAuth
  have d0 : DV _ := hd.value
  constructor
  · rintro ⟨raw, hr, hs⟩
    rw [jsonStruct_obj hd (List.forall_mem_cons.2 ⟨(key_skip key_req), List.forall_mem_nil
        _⟩)] at hr
    obtain ⟨w0, a0, hr⟩ := (optJ rfl (fun _ => nn rfl) rfl).1 hr
    obtain ⟨w1, a1, hr⟩ := (reqF rfl).1 hr
    cases fill_done hr
    obtain ⟨v0, b0, hs⟩ := bind_eq_ok hs
    obtain ⟨v1, b1, hs⟩ := bind_eq_ok hs
    cases hs
    exact ⟨(ld_opt fun a _ => text_json cx env a).1 ⟨_, a0, b0⟩,
      (ld_map (DV.req (DV.rest d0)) fun e he => guard_json cx env e.2 (Distinct.map (DV.req
          (DV.rest d0)) e he)).1 ⟨_, a1, b1⟩⟩
  · rintro ⟨h0, h1⟩
    obtain ⟨w0, a0, b0⟩ := (ld_opt fun a _ => text_json cx env a).2 h0
    obtain ⟨w1, a1, b1⟩ := (ld_map (DV.req (DV.rest d0)) fun e he => guard_json cx env e.2
        (Distinct.map (DV.req (DV.rest d0)) e he)).2 h1
    exact ⟨_, (jsonStruct_obj hd (List.forall_mem_cons.2 ⟨(key_skip key_req), List.forall_mem_nil
        _⟩)).trans ((optJ rfl (fun _ => nn rfl) rfl).2 ⟨_, a0, (reqF rfl).2 ⟨_, a1, rfl⟩⟩),
      (bind_ok b0 _).trans ((bind_ok b1 _).trans (rfl))⟩

theorem auth_yaml (x : Auth (Text cx.cls) (Proto cx.cls) (Text cx.cls))
    (hd : Distinct (F := F) (wAuth x)) (y : Auth Str Protocol GuardType) :
    Ld (readObj (yamlAuth cx) (wAuth x)) (resAuth cx env) y ↔ AuthM cx env .yaml x y := by
  unfold wAuth at hd ⊢
  simp only [readObj]
  unfold yamlAuth
  rw [get?_opt (by decide), get?_here]
  unfold resAuth
  have d0 : DV _ := hd.value
  have hg : ∀ {m'}, Ld (readObj (fun m => fillMap (skipNonObj (yamlGuard cx)) m [])
      (wMap wGuard x.guards)) (mapM (resGuard cx env)) m' ↔
      MRel (GuardM cx env .yaml) x.guards m' :=
    ld_fillMap (r := skipNonObj (yamlGuard cx)) (fun _ _ => rfl)
      (Distinct.mapNodup (DV.req (DV.rest d0)))
      fun e he => guard_yaml cx env e.2 (Distinct.map (DV.req (DV.rest d0)) e he)
  cases hx : x.defaultGuard with
  | none =>
    have h0 : get? (opt "defaultGuard" ((none : Option (Text cx.cls)).map wText) ++
        (req "guards" (wMap wGuard x.guards) ++ ([] : List (Str × Doc F)))) "defaultGuard".toList =
        none := by
      rw [show (opt "defaultGuard" ((none : Option (Text cx.cls)).map wText) ++
        (req "guards" (wMap wGuard x.guards) ++ ([] : List (Str × Doc F)))) =
        req "guards" (wMap wGuard x.guards) ++ [] from rfl, get?_req (by decide)]
      rfl
    simp only [h0]
    constructor
    · rintro ⟨raw, hr, hs⟩
      obtain ⟨gs, a, hr⟩ := bind_eq_ok hr
      cases hr
      obtain ⟨d, b0, hs⟩ := bind_eq_ok hs
      obtain ⟨g, b, hs⟩ := bind_eq_ok hs
      cases b0
      cases hs
      exact ⟨by rw [hx]; exact trivial, hg.1 ⟨_, a, b⟩⟩
    · rintro ⟨h0, h1⟩
      obtain ⟨gs, a, b⟩ := hg.2 h1
      rw [hx] at h0
      obtain ⟨yd, yg⟩ := y
      cases yd with
      | some _ => exact h0.elim
      | none => exact ⟨_, (bind_ok a _).trans rfl, (bind_ok rfl _).trans ((bind_ok b _).trans rfl)⟩
  | some t =>
    have h0 : get? (opt "defaultGuard" ((some t).map wText) ++
        (req "guards" (wMap wGuard x.guards) ++ ([] : List (Str × Doc F)))) "defaultGuard".toList =
        some (wText t) := rfl
    simp only [h0]
    constructor
    · rintro ⟨raw, hr, hs⟩
      obtain ⟨gs, a, hr⟩ := bind_eq_ok hr
      obtain ⟨d', a0, hr⟩ := bind_eq_ok hr
      cases hr
      obtain ⟨d, b0, hs⟩ := bind_eq_ok hs
      obtain ⟨g, b, hs⟩ := bind_eq_ok hs
      cases hs
      refine ⟨?_, hg.1 ⟨_, a, b⟩⟩
      rw [hx]
      exact (ld_opt (o := some t) fun a _ => text_yaml cx env a).1 ⟨some d', a0, b0⟩
    · rintro ⟨h0, h1⟩
      obtain ⟨gs, a, b⟩ := hg.2 h1
      rw [hx] at h0
      obtain ⟨w, a0, b0⟩ := (ld_opt (o := some t) fun a _ => text_yaml cx env a).2 h0
      cases w with
      | none => exact a0.elim
      | some w =>
        exact ⟨_, (bind_ok a _).trans ((bind_ok a0 _).trans rfl),
          (bind_ok b0 _).trans ((bind_ok b _).trans rfl)⟩

theorem cors_act (x : Cors (Text cx.cls) (Val cx.cls I64) (Val cx.cls Bool))
    (s : ApiSpec Sos (Node F) (Node F) (Node F) Sos Sos) :
    (do
      match ← yamlCors cx (wCors x) with
      | some c => pure { s with cors := some c }
      | none => pure s) =
    (yCors cx x >>= fun b =>
      (pure { s with cors := some b } : Outcome Err (ApiSpec Sos (Node F) (Node F) (Node F) Sos
          Sos))) := by
  rw [yamlCors_y]
  cases yCors cx x <;> rfl

theorem api_json (x : ApiSpec (Text cx.cls) (Val cx.cls I64) (Val cx.cls Bool) (Proto cx.cls) (Text
    cx.cls) (Text cx.cls)) (hd : Distinct (F := F) (wApi x)) (y : ApiSpec Str Int Bool Protocol
    SecPolicy GuardType) :
    Ld (jsonApi cx (wApi x)) (resApi cx env) y ↔ ApiM cx env .json x y := by
  unfold wApi at hd ⊢
  unfold jsonApi
  unfold resApi
  have d0 : DV _ := hd.value
  constructor
  · rintro ⟨raw, hr, hs⟩
    rw [jsonStruct_obj hd (List.forall_mem_cons.2 ⟨key_req, List.forall_mem_nil _⟩)] at hr
    obtain ⟨w0, a0, hr⟩ := (reqF rfl).1 hr
    obtain ⟨w1, a1, hr⟩ := (optJ rfl (cors_nn cx) rfl).1 hr
    obtain ⟨w2, a2, hr⟩ := (optJ rfl (fun _ => nn rfl) rfl).1 hr
    obtain ⟨w3, a3, hr⟩ := (optJ rfl (fun _ => nn rfl) rfl).1 hr
    obtain ⟨w4, a4, hr⟩ := (optJ rfl bool_nn rfl).1 hr
    cases fill_done hr
    obtain ⟨v0, b0, hs⟩ := bind_eq_ok hs
    obtain ⟨v1, b1, hs⟩ := bind_eq_ok hs
    obtain ⟨v2, b2, hs⟩ := bind_eq_ok hs
    obtain ⟨v3, b3, hs⟩ := bind_eq_ok hs
    obtain ⟨v4, b4, hs⟩ := bind_eq_ok hs
    cases hs
    exact ⟨(ld_list fun a _ => proto_json cx env a).1 ⟨_, a0, b0⟩,
      (ld_opt fun a h => cors_json cx env a ((DV.opt (DV.rest d0)) a h)).1 ⟨_, a1, b1⟩,
      (ld_opt fun a h => domain_json cx env a ((DV.opt (DV.rest (DV.rest d0))) a h)).1 ⟨_, a2, b2⟩,
      (ld_opt fun a h => auth_json cx env a ((DV.opt (DV.rest (DV.rest (DV.rest d0)))) a h)).1 ⟨_,
          a3, b3⟩,
      (ld_bool cx env (bool_json cx env)).1 ⟨_, a4, b4⟩,
      nofun⟩
  · rintro ⟨h0, h1, h2, h3, h4, hf⟩
    obtain ⟨w0, a0, b0⟩ := (ld_list fun a _ => proto_json cx env a).2 h0
    obtain ⟨w1, a1, b1⟩ := (ld_opt fun a h => cors_json cx env a ((DV.opt (DV.rest d0)) a h)).2 h1
    obtain ⟨w2, a2, b2⟩ := (ld_opt fun a h => domain_json cx env a ((DV.opt (DV.rest (DV.rest d0)))
        a h)).2 h2
    obtain ⟨w3, a3, b3⟩ := (ld_opt fun a h => auth_json cx env a ((DV.opt (DV.rest (DV.rest
        (DV.rest d0)))) a h)).2 h3
    obtain ⟨w4, a4, b4⟩ := (ld_bool cx env (bool_json cx env)).2 h4
    exact ⟨_, (jsonStruct_obj hd (List.forall_mem_cons.2 ⟨key_req, List.forall_mem_nil _⟩)).trans
        ((reqF rfl).2 ⟨_, a0, (optJ rfl (cors_nn cx) rfl).2 ⟨_, a1, (optJ rfl (fun _ => nn rfl)
        rfl).2 ⟨_, a2, (optJ rfl (fun _ => nn rfl) rfl).2 ⟨_, a3, (optJ rfl bool_nn rfl).2 ⟨_, a4,
        rfl⟩⟩⟩⟩⟩),
      (bind_ok b0 _).trans ((bind_ok b1 _).trans ((bind_ok b2 _).trans ((bind_ok b3 _).trans
          ((bind_ok b4 _).trans (rfl)))))⟩

theorem api_yaml (x : ApiSpec (Text cx.cls) (Val cx.cls I64) (Val cx.cls Bool) (Proto cx.cls) (Text
    cx.cls) (Text cx.cls)) (hd : Distinct (F := F) (wApi x)) (y : ApiSpec Str Int Bool Protocol
    SecPolicy GuardType) :
    Ld (readObj (yamlApi cx ) (wApi x)) (resApi cx env) y ↔ ApiM cx env .yaml x y := by
  unfold wApi at hd ⊢
  simp only [readObj]
  unfold yamlApi
  unfold resApi
  have d0 : DV _ := hd.value
  constructor
  · rintro ⟨raw, hr, hs⟩
    obtain ⟨_, hr, hq⟩ := bind_eq_ok hr
    obtain ⟨_, hq, hz⟩ := bind_eq_ok hq
    cases hz
    obtain ⟨w0, a0, hr⟩ := (reqF rfl).1 hr
    obtain ⟨w1, a1, hr⟩ := (optA rfl (set := fun s o => { s with cors := o }) (fun a => cors_act cx
        a _) rfl).1 hr
    obtain ⟨w2, a2, hr⟩ := (optY rfl (fun s o => { s with domain := o }) (fun _ => rfl) rfl).1 hr
    obtain ⟨w3, a3, hr⟩ := (optY rfl (fun s o => { s with auth := o }) (fun _ => rfl) rfl).1 hr
    obtain ⟨w4, a4, hr⟩ := (optY rfl (fun s o => { s with tracingEnabled := o }) (fun _ => rfl)
        rfl).1 hr
    cases fill_done hr
    obtain ⟨v0, b0, hs⟩ := bind_eq_ok hs
    obtain ⟨v1, b1, hs⟩ := bind_eq_ok hs
    obtain ⟨v2, b2, hs⟩ := bind_eq_ok hs
    obtain ⟨v3, b3, hs⟩ := bind_eq_ok hs
    obtain ⟨v4, b4, hs⟩ := bind_eq_ok hs
    cases hs
    exact ⟨(ld_list fun a _ => proto_yaml cx env a).1 ⟨_, a0, b0⟩,
      (ld_opt fun a h => cors_yaml cx env a ((DV.opt (DV.rest d0)) a h)).1 ⟨_, a1, b1⟩,
      (ld_opt fun a h => domain_yaml cx env a ((DV.opt (DV.rest (DV.rest d0))) a h)).1 ⟨_, a2, b2⟩,
      (ld_opt fun a h => auth_yaml cx env a ((DV.opt (DV.rest (DV.rest (DV.rest d0)))) a h)).1 ⟨_,
          a3, b3⟩,
      (ld_bool cx env (bool_yaml cx env)).1 ⟨_, a4, b4⟩,
      fun _ => (list_isEmpty a0).1 (require_iff.1 hq)⟩
  · rintro ⟨h0, h1, h2, h3, h4, hf⟩
    obtain ⟨w0, a0, b0⟩ := (ld_list fun a _ => proto_yaml cx env a).2 h0
    obtain ⟨w1, a1, b1⟩ := (ld_opt fun a h => cors_yaml cx env a ((DV.opt (DV.rest d0)) a h)).2 h1
    obtain ⟨w2, a2, b2⟩ := (ld_opt fun a h => domain_yaml cx env a ((DV.opt (DV.rest (DV.rest d0)))
        a h)).2 h2
    obtain ⟨w3, a3, b3⟩ := (ld_opt fun a h => auth_yaml cx env a ((DV.opt (DV.rest (DV.rest
        (DV.rest d0)))) a h)).2 h3
    obtain ⟨w4, a4, b4⟩ := (ld_bool cx env (bool_yaml cx env)).2 h4
    exact ⟨_, (bind_ok ((reqF rfl).2 ⟨_, a0, (optA rfl (set := fun s o => { s with cors := o })
        (fun a => cors_act cx a _) rfl).2 ⟨_, a1, (optY rfl (fun s o => { s with domain := o })
        (fun _ => rfl) rfl).2 ⟨_, a2, (optY rfl (fun s o => { s with auth := o }) (fun _ => rfl)
        rfl).2 ⟨_, a3, (optY rfl (fun s o => { s with tracingEnabled := o }) (fun _ => rfl) rfl).2
        ⟨_, a4, rfl⟩⟩⟩⟩⟩) _).trans ((bind_ok (require_iff.2 ((list_isEmpty a0).2 (hf rfl)))
        _).trans rfl),
      (bind_ok b0 _).trans ((bind_ok b1 _).trans ((bind_ok b2 _).trans ((bind_ok b3 _).trans
          ((bind_ok b4 _).trans (rfl)))))⟩


end Verif.Blueprint.Source
