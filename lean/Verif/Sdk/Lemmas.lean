import Verif.Assoc
import Verif.Sdk.Spec

/-! # Lemmas about the runtime SDKs -/

namespace Verif.Sdk.Lemmas

open Verif.Sdk Verif.Sdk.Spec Verif.RtConfig

/-! ## Texts of bytes -/

theorem visible_iff (b : List UInt8) :
    b.all (fun b => (decide (32 ≤ b.toNat) && decide (b.toNat < 127)) || b == 9) = true ↔
      Visible b := by
  simp only [List.all_eq_true, Bool.or_eq_true, Bool.and_eq_true, decide_eq_true_eq, beq_iff_eq,
    Visible]
  constructor
  · intro h x hx
    rcases h x hx with h | h
    · exact Or.inl ⟨h.1, by omega⟩
    · exact Or.inr (by rw [h]; rfl)
  · intro h x hx
    rcases h x hx with h | h
    · exact Or.inl ⟨h.1, by omega⟩
    · exact Or.inr (UInt8.toNat_inj.mp (by rw [h]; rfl))

theorem char_toNat_ofNat (n : Nat) (h : n < 256) : (Char.ofNat n).toNat = n := by
  have hv : n.isValidChar := Or.inl (by omega)
  simp only [Char.ofNat, hv, dif_pos]
  simp [Char.toNat, Char.ofNatAux]

theorem map_toNat_inj : ∀ (a b : List Char), a.map Char.toNat = b.map Char.toNat → a = b
  | [], [], _ => rfl
  | [], _ :: _, h => by simp at h
  | _ :: _, [], h => by simp at h
  | x :: a, y :: b, h => by
    simp only [List.map_cons, List.cons.injEq] at h
    rw [Char.toNat_inj.mp h.1, map_toNat_inj a b h.2]

theorem shows_unique (b : List UInt8) (s t : String) (hs : Shows b s) (ht : Shows b t) : s = t := by
  unfold Shows at hs ht
  have := map_toNat_inj _ _ (hs.trans ht.symm)
  exact String.toList_inj.mp this

theorem shows_ofNat (b : List UInt8) :
    Shows b (String.ofList (b.map fun x => Char.ofNat x.toNat)) := by
  unfold Shows
  rw [String.toList_ofList, List.map_map]
  apply List.map_congr_left
  intro x _
  exact char_toNat_ofNat _ (UInt8.toNat_lt x)

theorem toStr_iff (b : List UInt8) (s : String) : toStr b = some s ↔ Visible b ∧ Shows b s := by
  unfold toStr
  constructor
  · intro h
    split at h
    · rename_i hv
      injection h with h
      subst h
      exact ⟨(visible_iff b).mp hv, shows_ofNat b⟩
    · simp at h
  · rintro ⟨hv, hs⟩
    rw [if_pos ((visible_iff b).mpr hv)]
    rw [shows_unique b _ _ (shows_ofNat b) hs]

theorem toStr_none (b : List UInt8) : toStr b = none ↔ ¬ Visible b := by
  unfold toStr
  rw [← visible_iff]
  split <;> simp_all

/-! ## Headers of requests -/

theorem lookup_insert (m : List (String × String)) (k v j : String) :
    (insert m k v).lookup j = if j = k then some v else m.lookup j := by
  unfold insert
  rw [List.lookup_cons]
  by_cases h : j = k
  · subst h; simp
  · have hb : (j == k) = false := by simpa using h
    rw [hb, if_neg h]
    exact Assoc.lookup_filter_ne j k m h

theorem collectHeaders_ok : ∀ (hs : List (String × List UInt8)) (m : List (String × String)),
    (hs.map (·.1)).Nodup → (∀ h ∈ hs, Visible h.2) → (∀ h ∈ hs, m.lookup h.1 = none) →
    ∃ m', collectHeaders m hs = .ok m' ∧ ∀ k s, m'.lookup k = some s ↔
      m.lookup k = some s ∨ ∃ b, (k, b) ∈ hs ∧ Shows b s
  | [], m, _, _, _ => ⟨m, rfl, by simp⟩
  | (k, b) :: hs, m, hn, hv, hf => by
    simp only [List.map_cons, List.nodup_cons] at hn
    have hb : Visible b := hv (k, b) (by simp)
    obtain ⟨s, hs'⟩ : ∃ s, toStr b = some s := ⟨_, (toStr_iff b _).mpr ⟨hb, shows_ofNat b⟩⟩
    have hsh := ((toStr_iff b s).mp hs').2
    have hfree : ∀ h ∈ hs, (insert m k s).lookup h.1 = none := by
      intro h hh
      rw [lookup_insert, if_neg, hf h (by simp [hh])]
      intro heq
      exact hn.1 (List.mem_map.mpr ⟨h, hh, heq⟩)
    obtain ⟨m', h1, h2⟩ := collectHeaders_ok hs (insert m k s) hn.2
      (fun h hh => hv h (by simp [hh])) hfree
    refine ⟨m', by rw [collectHeaders, hs']; exact h1, ?_⟩
    intro j t
    rw [h2, lookup_insert]
    by_cases hj : j = k
    · subst hj
      rw [if_pos rfl]
      have hm : m.lookup j = none := hf (j, b) (by simp)
      constructor
      · rintro (h | ⟨b', hb', _⟩)
        · injection h with h
          subst h
          exact Or.inr ⟨b, by simp, hsh⟩
        · exact absurd (List.mem_map.mpr ⟨(j, b'), hb', rfl⟩) hn.1
      · rintro (h | ⟨b', hb', hs2⟩)
        · rw [hm] at h; simp at h
        · rcases List.mem_cons.mp hb' with h | h
          · injection h with _ h
            subst h
            exact Or.inl (by rw [shows_unique b' s t hsh hs2])
          · exact absurd (List.mem_map.mpr ⟨(j, b'), h, rfl⟩) hn.1
    · rw [if_neg hj]
      constructor
      · rintro (h | ⟨b', hb', hs2⟩)
        · exact Or.inl h
        · exact Or.inr ⟨b', by simp [hb'], hs2⟩
      · rintro (h | ⟨b', hb', hs2⟩)
        · exact Or.inl h
        · rcases List.mem_cons.mp hb' with h | h
          · injection h with h _
            exact absurd h hj
          · exact Or.inr ⟨b', h, hs2⟩

theorem collectHeaders_panic : ∀ (hs : List (String × List UInt8)) (m : List (String × String)),
    (∃ h ∈ hs, ¬ Visible h.2) → collectHeaders m hs = .panic
  | [], _, h => by obtain ⟨_, h, _⟩ := h; simp at h
  | (k, b) :: hs, m, h => by
    rw [collectHeaders]
    cases hb : toStr b with
    | none => rfl
    | some s =>
      dsimp only
      apply collectHeaders_panic
      obtain ⟨x, hx, hv⟩ := h
      rcases List.mem_cons.mp hx with rfl | hx
      · exact absurd ((toStr_iff b s).mp hb).1 hv
      · exact ⟨x, hx, hv⟩

/-- The announced length is the one the code reads. -/
theorem contentLength_announced (q : Request) (n : Nat) (hn : n < 2 ^ 64)
    (hd : (q.headers.map (·.1)).Nodup) (hv : ∀ h ∈ q.headers, Visible h.2) (ha : Announces q n) :
    contentLength q.headers = n := by
  obtain ⟨b, s, hm, hs, hd'⟩ := ha
  have hl := Assoc.lookup_of_mem _ q.headers b hd hm
  unfold contentLength
  rw [hl]
  dsimp only [Option.bind]
  rw [(toStr_iff b s).mpr ⟨hv _ hm, hs⟩]
  dsimp only
  rw [hd', Text.parseUnsigned_digits _ _ hn]
  rfl

theorem contentLength_silent (q : Request) (h : ∀ b, ("content-length", b) ∉ q.headers) :
    contentLength q.headers = 0 := by
  have hl : q.headers.lookup "content-length" = none := by
    rw [Assoc.lookup_eq_none]
    intro hm
    obtain ⟨⟨k, b⟩, hx, hk⟩ := List.mem_map.mp hm
    dsimp only at hk
    subst hk
    exact h b hx
  unfold contentLength
  rw [hl]
  rfl

/-! ## Answers -/

theorem tokenChar_iff (c : Char) : tokenChar c = true ↔ Tchar c := by
  have hs : "!#$%&'*+-.^_`|~".toList =
      ['!', '#', '$', '%', '&', '\'', '*', '+', '-', '.', '^', '_', '`', '|', '~'] := by decide
  unfold tokenChar Tchar
  rw [hs, Bool.or_eq_true, List.contains_iff_mem]
  simp only [Char.isAlphanum, Char.isAlpha, Char.isUpper, Char.isLower, Char.isDigit,
    Bool.or_eq_true, Bool.and_eq_true, decide_eq_true_eq]
  have h1 : ∀ a b : Char, a ≤ b ↔ a.val ≤ b.val := fun _ _ => Iff.rfl
  simp only [h1]
  constructor
  · rintro (((h | h) | h) | h)
    · exact Or.inr (Or.inl h)
    · exact Or.inl h
    · exact Or.inr (Or.inr (Or.inl h))
    · exact Or.inr (Or.inr (Or.inr h))
  · rintro (h | h | h | h)
    · exact Or.inl (Or.inl (Or.inr h))
    · exact Or.inl (Or.inl (Or.inl h))
    · exact Or.inl (Or.inr h)
    · exact Or.inr h

theorem headerName_iff (s t : String) : headerName s = some t ↔
    (s ≠ "" ∧ ∀ c ∈ s.toList, Tchar c) ∧ t.toList = s.toList.map Char.toLower := by
  have he : s.toList ≠ [] ↔ s ≠ "" := by
    constructor
    · intro h hs; subst hs; exact h rfl
    · intro h hs
      exact h (String.toList_inj.mp (by rw [hs]; rfl))
  have ha : s.toList.all tokenChar = true ↔ ∀ c ∈ s.toList, Tchar c := by
    rw [List.all_eq_true]
    exact ⟨fun h c hc => (tokenChar_iff c).mp (h c hc), fun h c hc => (tokenChar_iff c).mpr (h c hc)⟩
  unfold headerName
  split
  · rename_i h
    rw [he, ha] at h
    constructor
    · intro ht
      injection ht with ht
      exact ⟨h, by rw [← ht, String.toList_ofList]⟩
    · rintro ⟨_, ht⟩
      rw [← ht, String.ofList_toList]
  · rename_i h
    rw [he, ha] at h
    exact ⟨nofun, fun ⟨h', _⟩ => absurd h' h⟩

theorem headerValue_iff (s t : String) : headerValue s = some t ↔
    (∀ c ∈ s.toList, c = '\t' ∨ (' '.toNat ≤ c.toNat ∧ c.toNat ≠ 127)) ∧ t = s := by
  have h32 : ' '.toNat = 32 := rfl
  unfold headerValue
  rw [h32]
  split
  · rename_i h
    rw [List.all_eq_true] at h
    constructor
    · intro ht
      injection ht with ht
      refine ⟨fun c hc => ?_, ht.symm⟩
      have := h c hc
      simp only [Bool.or_eq_true, Bool.and_eq_true, decide_eq_true_eq, beq_iff_eq] at this
      rcases this with h | h
      · exact Or.inr h
      · exact Or.inl h
    · rintro ⟨_, ht⟩
      rw [ht]
  · rename_i h
    refine ⟨nofun, fun ⟨h', _⟩ => absurd ?_ h⟩
    rw [List.all_eq_true]
    intro c hc
    simp only [Bool.or_eq_true, Bool.and_eq_true, decide_eq_true_eq, beq_iff_eq]
    rcases h' c hc with h | h
    · exact Or.inr h
    · exact Or.inl h

theorem buildHeaders_iff : ∀ (hs out : List (String × String)), buildHeaders hs = some out ↔
    (∀ h ∈ hs, (h.1 ≠ "" ∧ ∀ c ∈ h.1.toList, Tchar c) ∧
      ∀ c ∈ h.2.toList, c = '\t' ∨ (' '.toNat ≤ c.toNat ∧ c.toNat ≠ 127)) ∧
    Matches SameHeader hs out
  | [], [] => by simp [buildHeaders, Matches]
  | [], _ :: _ => by simp [buildHeaders, Matches]
  | (k, v) :: hs, out => by
    constructor
    · intro h
      rw [buildHeaders] at h
      split at h
      · rename_i k' v' r hk hv hr
        injection h with h
        subst h
        obtain ⟨h1, h2⟩ := (headerName_iff k k').mp hk
        obtain ⟨h3, h4⟩ := (headerValue_iff v v').mp hv
        obtain ⟨h5, h6⟩ := (buildHeaders_iff hs r).mp hr
        refine ⟨?_, ⟨h2, h4⟩, h6⟩
        intro x hx
        rcases List.mem_cons.mp hx with rfl | hx
        · exact ⟨h1, h3⟩
        · exact h5 x hx
      · simp at h
    · rintro ⟨h1, h2⟩
      match out, h2 with
      | (k', v') :: out, h2 =>
        have hk := (headerName_iff k k').mpr ⟨(h1 (k, v) (by simp)).1, h2.1.1⟩
        have hv := (headerValue_iff v v').mpr ⟨(h1 (k, v) (by simp)).2, h2.1.2⟩
        have hr := (buildHeaders_iff hs out).mpr ⟨fun x hx => h1 x (by simp [hx]), h2.2⟩
        rw [buildHeaders, hk, hv, hr]

/-- Headers that can be sent are built. -/
theorem buildHeaders_some : ∀ (hs : List (String × String)),
    (∀ h ∈ hs, (h.1 ≠ "" ∧ ∀ c ∈ h.1.toList, Tchar c) ∧
      ∀ c ∈ h.2.toList, c = '\t' ∨ (' '.toNat ≤ c.toNat ∧ c.toNat ≠ 127)) →
    ∃ out, buildHeaders hs = some out
  | [], _ => ⟨[], rfl⟩
  | (k, v) :: hs, h => by
    obtain ⟨out, ho⟩ := buildHeaders_some hs (fun x hx => h x (by simp [hx]))
    have hk := (headerName_iff k (String.ofList (k.toList.map Char.toLower))).mpr
      ⟨(h (k, v) (by simp)).1, by rw [String.toList_ofList]⟩
    have hv := (headerValue_iff v v).mpr ⟨(h (k, v) (by simp)).2, rfl⟩
    exact ⟨_, by rw [buildHeaders, hk, hv, ho]⟩

/-! ## The Python worker -/

/-- What holds of the worker after steps: the requests are the answered ones, the one being served
and the waiting ones, in the order of their arrival. -/
structure Inv {H : Type} (registry : List (String × H)) (ids : List String) (s : Py H) : Prop where
  reg : s.registry = registry
  next : s.next = ids.length
  tickets : s.answers.map (·.1) ++ (s.busy.toList.map (·.1.ticket) ++ s.queue.map (·.ticket)) =
    List.range ids.length
  names : ∀ c ∈ s.busy.toList.map (·.1) ++ s.queue, ids[c.ticket]? = some c.handlerId
  handler : ∀ c h, s.busy = some (c, h) → registry.lookup c.handlerId = some h

theorem inv_init {H : Type} (registry : List (String × H)) : Inv registry [] (pyInit registry) :=
  ⟨rfl, rfl, rfl, by simp [pyInit], by simp [pyInit]⟩

theorem inv_step {H : Type} (registry : List (String × H)) (ids : List String) (s : Py H)
    (x : PyStep) (h : Inv registry ids s) : Inv registry (ids ++ arrivals [x]) (pyStep s x) := by
  obtain ⟨h1, h2, h3, h4, h5⟩ := h
  cases x with
  | arrive id =>
    refine ⟨h1, by simp [pyStep, arrivals, h2], ?_, ?_, h5⟩
    · simp only [pyStep, arrivals, List.length_append, List.length_cons, List.length_nil,
        List.map_append, List.map_cons, List.map_nil, List.range_succ, ← h3, h2]
      simp
    · intro c hc
      simp only [pyStep, ← List.append_assoc, List.mem_append, List.mem_singleton] at hc
      rcases hc with hc | hc
      · have := h4 c (List.mem_append.mpr hc)
        rw [List.getElem?_append_left]
        · exact this
        · exact (List.getElem?_eq_some_iff.mp this).1
      · subst hc
        simp [arrivals, h2]
  | take =>
    simp only [arrivals, List.append_nil, pyStep]
    split
    · rename_i c rest hb hq
      rw [hb, hq] at h3 h4
      split
      · rename_i hd hl
        refine ⟨h1, h2, ?_, ?_, ?_⟩
        · simpa using h3
        · intro d hd
          exact h4 d (by simpa using hd)
        · intro d h' heq
          simp only [Option.some.injEq, Prod.mk.injEq] at heq
          rw [← heq.1, ← heq.2, ← h1]
          exact hl
      · refine ⟨h1, h2, ?_, ?_, ?_⟩
        · simp only [hb]
          simpa using h3
        · intro d hd
          simp only [hb] at hd
          exact h4 d (by simp only [Option.toList_none, List.map_nil, List.nil_append] at hd ⊢; exact List.mem_cons_of_mem _ hd)
        · intro d h' heq
          simp only [hb] at heq
          simp at heq
    · exact ⟨h1, h2, h3, h4, h5⟩
  | finish r =>
    simp only [arrivals, List.append_nil, pyStep]
    split
    · rename_i c hd hb
      rw [hb] at h3 h4
      refine ⟨h1, h2, ?_, ?_, ?_⟩
      · simpa using h3
      · intro d hd
        exact h4 d (by simp only [Option.toList_none, List.map_nil, List.nil_append] at hd; simp [hd])
      · intro d h' heq
        simp at heq
    · exact ⟨h1, h2, h3, h4, h5⟩

theorem arrivals_append (a b : List PyStep) : arrivals (a ++ b) = arrivals a ++ arrivals b := by
  induction a with
  | nil => rfl
  | cons x a ih => cases x <;> simp [arrivals, ih]

theorem inv_run {H : Type} (registry : List (String × H)) (steps : List PyStep) :
    Inv registry (arrivals steps) (pyRun (pyInit registry) steps) := by
  induction steps using Assoc.snoc_induction with
  | nil => exact inv_init registry
  | snoc steps x ih =>
    rw [arrivals_append, pyRun, List.foldl_append]
    exact inv_step _ _ _ x ih

/-- Answers are only added. -/
theorem answers_prefix {H : Type} (s : Py H) (steps : List PyStep) :
    s.answers <+: (pyRun s steps).answers := by
  induction steps generalizing s with
  | nil => exact List.prefix_refl _
  | cons x steps ih =>
    refine List.IsPrefix.trans ?_ (ih (pyStep s x))
    cases x with
    | arrive id => exact List.prefix_refl _
    | take =>
      simp only [pyStep]
      split
      · split
        · exact List.prefix_refl _
        · exact List.prefix_append _ _
      · exact List.prefix_refl _
    | finish r =>
      simp only [pyStep]
      split
      · exact List.prefix_append _ _
      · exact List.prefix_refl _

theorem finished_append {H : Type} (s : Py H) (a b : List PyStep) :
    finished s (a ++ b) = finished s a ++ finished (pyRun s a) b := by
  induction a generalizing s with
  | nil => rfl
  | cons x a ih =>
    cases x <;>
    simp only [List.cons_append, finished, ih, List.append_assoc, pyRun, List.foldl_cons]

/-- The next answer is for the request with the number of the answers so far. -/
theorem busy_ticket {H : Type} {registry : List (String × H)} {ids : List String} {s : Py H}
    (h : Inv registry ids s) (c : Call) (hd : H) (hb : s.busy = some (c, hd)) :
    c.ticket = s.answers.length := by
  have ht := h.tickets
  rw [hb] at ht
  have := congrArg (fun l => l[s.answers.length]?) ht
  simp only [Option.toList_some, List.map_cons, List.map_nil, List.cons_append, List.nil_append] at this
  rw [List.getElem?_append_right (by simp)] at this
  simp only [List.length_map, Nat.sub_self, List.getElem?_cons_zero] at this
  have hlt := List.getElem?_eq_some_iff.mp this.symm
  obtain ⟨hlt, heq⟩ := hlt
  rw [List.getElem_range] at heq
  exact heq.symm

theorem queue_ticket {H : Type} {registry : List (String × H)} {ids : List String} {s : Py H}
    (h : Inv registry ids s) (c : Call) (rest : List Call) (hb : s.busy = none)
    (hq : s.queue = c :: rest) : c.ticket = s.answers.length := by
  have ht := h.tickets
  rw [hb, hq] at ht
  have := congrArg (fun l => l[s.answers.length]?) ht
  simp only [Option.toList_none, List.map_nil, List.map_cons, List.nil_append] at this
  rw [List.getElem?_append_right (by simp)] at this
  simp only [List.length_map, Nat.sub_self, List.getElem?_cons_zero] at this
  obtain ⟨hlt, heq⟩ := List.getElem?_eq_some_iff.mp this.symm
  rw [List.getElem_range] at heq
  exact heq.symm

/-! ## Identifiers of Python handlers -/

theorem split_at_first {A : Type} (c : A) : ∀ (a b x y : List A), c ∉ a → c ∉ b →
    a ++ c :: x = b ++ c :: y → a = b ∧ x = y
  | [], [], x, y, _, _, h => by
    simp only [List.nil_append, List.cons.injEq, true_and] at h
    exact ⟨rfl, h⟩
  | [], z :: b, x, y, _, hb, h => by
    simp only [List.nil_append, List.cons_append, List.cons.injEq] at h
    exact absurd (by simp [h.1]) hb
  | z :: a, [], x, y, ha, _, h => by
    simp only [List.nil_append, List.cons_append, List.cons.injEq] at h
    exact absurd (by simp [h.1]) ha
  | z :: a, w :: b, x, y, ha, hb, h => by
    simp only [List.cons_append, List.cons.injEq] at h
    simp only [List.mem_cons, not_or] at ha hb
    obtain ⟨h1, h2⟩ := split_at_first c a b x y ha.2 hb.2 h.2
    exact ⟨by rw [h.1, h1], h2⟩

theorem handlerId_inj (p q m n : String) (hm : ':' ∉ m.toList) (hn : ':' ∉ n.toList)
    (h : handlerId p m = handlerId q n) : p = q ∧ m = n := by
  have hc : "::".toList = [':', ':'] := by decide
  have h' := congrArg (fun s => s.toList.reverse) h
  unfold handlerId at h'
  simp only [String.toList_append, hc, List.reverse_append, List.reverse_cons, List.reverse_nil,
    List.nil_append, List.cons_append] at h'
  obtain ⟨h1, h2⟩ := split_at_first ':' _ _ _ _ (by simpa using hm) (by simpa using hn) h'
  simp only [List.cons.injEq, true_and] at h2
  exact ⟨String.toList_inj.mp (List.reverse_inj.mp h2), String.toList_inj.mp (List.reverse_inj.mp h1)⟩

theorem method_no_colon (s : String) (m : Method) (h : methodOf s = some m) : ':' ∉ s.toList := by
  intro hc
  have hl : ':' ∈ s.toList.map Char.toLower := List.mem_map.mpr ⟨':', hc, by decide⟩
  unfold methodOf at h
  simp only at h
  repeat' split at h
  all_goals first
    | (rename_i he; rw [he] at hl; revert hl; decide)
    | (cases h; done)

/-- A registration keeps the routes there are and adds its own. -/
theorem register_ok (a a' : App) (r : Router) (path method id : String) (m : Method)
    (ha : a.http = some r) (hm : methodOf method = some m)
    (h : register a path method id = .ok a') :
    r.lookup (path, m) = none ∧ a'.http = some (((path, m), .handler id) :: r) := by
  unfold register at h
  rw [ha, hm] at h
  dsimp only at h
  unfold addRoute at h
  cases hl : r.lookup (path, m) with
  | some t => rw [hl] at h; simp [Outcome.bind] at h
  | none =>
    rw [hl] at h
    simp only [Outcome.bind, Outcome.ok.injEq] at h
    subst h
    exact ⟨rfl, rfl⟩

/-- What registrations with known methods do: they keep the routes there are, and no registration
takes over an identifier that is not its own. -/
theorem pyRegisterAll_ok : ∀ (hs : List (String × String × String)) (a a' : PyApp) (r : Router),
    a.inner.http = some r → (∀ x ∈ hs, methodOf x.2.1 ≠ none) → pyRegisterAll a hs = .ok a' →
    ∃ r', a'.inner.http = some r' ∧ (∀ k t, r.lookup k = some t → r'.lookup k = some t) ∧
      (∀ x ∈ hs, ∀ m, methodOf x.2.1 = some m → r.lookup (x.1, m) = none) ∧
      (∀ i, (∀ x ∈ hs, handlerId x.1 x.2.1 ≠ i) → a'.registry.lookup i = a.registry.lookup i) ∧
      (∀ x ∈ hs, ∀ m, methodOf x.2.1 = some m →
        r'.lookup (x.1, m) = some (.handler (handlerId x.1 x.2.1)) ∧
        a'.registry.lookup (handlerId x.1 x.2.1) = some x.2.2)
  | [], a, a', r, ha, _, h => by
    simp only [pyRegisterAll, Outcome.ok.injEq] at h
    subst h
    exact ⟨r, ha, fun _ _ h => h, by simp, fun _ _ => rfl, by simp⟩
  | (path, method, hd) :: hs, a, a', r, ha, hm, h => by
    cases hmm : methodOf method with
    | none => exact absurd hmm (hm (path, method, hd) (by simp))
    | some m =>
      rw [pyRegisterAll] at h
      cases hr : pyRegister a path method hd with
      | err e => rw [hr] at h; simp [Outcome.bind] at h
      | panic => rw [hr] at h; simp [Outcome.bind] at h
      | ok b =>
        rw [hr] at h
        simp only [Outcome.bind] at h
        unfold pyRegister at hr
        dsimp only at hr
        cases hch : a.channel with
        | false => rw [hch] at hr; simp at hr
        | true =>
          rw [hch] at hr
          simp only [if_true] at hr
          cases hreg : register a.inner path method (handlerId path method) with
          | err e => rw [hreg] at hr; simp [Outcome.bind] at hr
          | panic => rw [hreg] at hr; simp [Outcome.bind] at hr
          | ok i =>
            rw [hreg] at hr
            simp only [Outcome.bind, Outcome.ok.injEq] at hr
            obtain ⟨hnone, hi⟩ := register_ok a.inner i r path method _ m ha hmm hreg
            have hbr : b.inner.http = some (((path, m), .handler (handlerId path method)) :: r) := by
              rw [← hr]; exact hi
            have hbreg : b.registry = insert a.registry (handlerId path method) hd := by rw [← hr]
            obtain ⟨r', h1, h2, h3, h4, h5⟩ := pyRegisterAll_ok hs b a' _ hbr
              (fun x hx => hm x (by simp [hx])) h
            have hself : (((path, m), Target.handler (handlerId path method)) :: r).lookup (path, m) =
                some (.handler (handlerId path method)) := by simp
            have hkeep : ∀ k t, r.lookup k = some t →
                (((path, m), Target.handler (handlerId path method)) :: r).lookup k = some t := by
              intro k t hk
              rw [List.lookup_cons]
              by_cases hkm : k = (path, m)
              · subst hkm; rw [hnone] at hk; simp at hk
              · have hb' : (k == (path, m)) = false := by simpa using hkm
                rw [hb']; exact hk
            have hfree : ∀ x ∈ hs, ∀ m', methodOf x.2.1 = some m' →
                (x.1, m') ≠ (path, m) ∧ r.lookup (x.1, m') = none := by
              intro x hx m' hm'
              have hx3 := h3 x hx m' hm'
              rw [List.lookup_cons] at hx3
              by_cases hkm : (x.1, m') = (path, m)
              · rw [hkm] at hx3; simp at hx3
              · have hb' : ((x.1, m') == (path, m)) = false := by simpa using hkm
                rw [hb'] at hx3
                exact ⟨hkm, hx3⟩
            have hids : ∀ x ∈ hs, handlerId x.1 x.2.1 ≠ handlerId path method := by
              intro x hx heq
              cases hxm : methodOf x.2.1 with
              | none => exact absurd hxm (hm x (by simp [hx]))
              | some m' =>
                obtain ⟨hp, hq⟩ := handlerId_inj _ _ _ _ (method_no_colon _ _ hxm)
                  (method_no_colon _ _ hmm) heq
                rw [hq, hmm] at hxm
                injection hxm with hxm
                exact (hfree x hx m' (by rw [hq, hmm, hxm])).1 (by rw [hp, hxm])
            refine ⟨r', h1, fun k t hk => h2 k t (hkeep k t hk), ?_, ?_, ?_⟩
            · intro x hx m' hm'
              rcases List.mem_cons.mp hx with rfl | hx
              · dsimp only at hm' ⊢
                rw [hmm] at hm'
                injection hm' with hm'
                rw [← hm']; exact hnone
              · exact (hfree x hx m' hm').2
            · intro j hj
              rw [h4 j (fun x hx => hj x (by simp [hx])), hbreg, lookup_insert, if_neg]
              exact fun heq => hj (path, method, hd) (by simp) heq.symm
            · intro x hx m' hm'
              rcases List.mem_cons.mp hx with rfl | hx
              · dsimp only at hm' ⊢
                rw [hmm] at hm'
                injection hm' with hm'
                subst hm'
                refine ⟨h2 _ _ hself, ?_⟩
                rw [h4 _ hids, hbreg, lookup_insert, if_pos rfl]
              · exact h5 x hx m' hm'

/-! ## Responses of the FFI -/

/-- Before anything is sent the response holds the status that was set last. -/
theorem ffiFirst_silent : ∀ (pre rest : FfiRun) (r : FfiResponse), Silent pre → r.sent = none →
    ffiFirst r (pre ++ rest) =
      ffiFirst { r with status := (lastStatus pre).getD r.status } rest
  | [], _, _, _, _ => rfl
  | (t, op) :: pre, rest, r, hs, hr => by
    have hs' : Silent pre := fun x hx => hs x (by simp [hx])
    cases op with
    | send b => exact absurd rfl (hs (t, .send b) (by simp) b)
    | setHeaders h =>
      rw [List.cons_append, ffiFirst]
      simp only [ffiStep, hr]
      rw [ffiFirst_silent pre rest r hs' hr, hr]
      rfl
    | setStatus n =>
      rw [List.cons_append, ffiFirst]
      simp only [ffiStep, hr]
      rw [ffiFirst_silent pre rest _ hs' rfl]
      congr 1
      simp only [lastStatus, List.filterMap_cons, List.getLast?_cons]
      cases (pre.filterMap fun x => match x.2 with | .setStatus n => some n | _ => none).getLast? <;> rfl

/-! ## Configuration -/

theorem cString_ok (s : String) (h : ∀ c ∈ s.toList, c.toNat ≠ 0) : cString s = .ok s := by
  unfold cString
  rw [if_neg]
  intro hc
  rw [List.contains_iff_mem] at hc
  exact h _ hc rfl

theorem ffiCollect_ok : ∀ (l : List HandlerDef) (fuel : Nat), (∀ d ∈ l, NoNul d) → l.length < fuel →
    ∃ out, ffiCollect fuel l = .ok out ∧ Matches ShowsDef l out
  | _, 0, _, hf => by omega
  | [], fuel + 1, _, _ => ⟨[], rfl, trivial⟩
  | d :: l, fuel + 1, hn, hf => by
    obtain ⟨out, h1, h2⟩ := ffiCollect_ok l fuel (fun x hx => hn x (by simp [hx]))
      (by simp only [List.length_cons] at hf; omega)
    have hd := hn d (by simp)
    have e1 := cString_ok d.path (hd _ (by simp))
    have e2 := cString_ok d.method (hd _ (by simp))
    have e3 := cString_ok d.handler (hd _ (by simp))
    have e4 := cString_ok d.location (hd _ (by simp))
    refine ⟨⟨d.path, d.method, d.location, d.handler⟩ :: out, ?_, ⟨rfl, rfl, rfl, rfl⟩, h2⟩
    simp only [ffiCollect, ffiNext, e1, e2, e3, e4, h1, Outcome.bind_ok, Outcome.pure_eq]

end Verif.Sdk.Lemmas
