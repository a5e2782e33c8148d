import Verif.Sdk.HeapLemmas

/-!
# Property theorems about the objects of a configuration of the FFI (C180)
-/

namespace Verif.Sdk.Objects

open Verif.RtConfig

/-- C180: a caller of the FFI that uses objects only while it has them gets, from each object and however often it
asks, the handlers of the setup that the object comes from, in their order; what it does with other objects does
not matter. -/
theorem objects_independent (calls : List Call) (careful : Careful calls) :
    (∀ c, (c, Result.wild) ∉ (run calls).2) ∧
    (∀ i n r, (Call.receive i n, r) ∈ (run calls).2 →
      ∃ hs, Made (run calls).2 i .http hs ∧ r = .handlers (hs.take n)) ∧
    (∀ i k hs k' hs', Made (run calls).2 i k hs → Made (run calls).2 i k' hs' → k = k' ∧ hs = hs') := by
  have h := inv_run calls careful
  exact ⟨h.tame, h.got, h.one⟩

/-- No two calls give the same object, and nothing is left when the caller has destroyed what it was given. -/
theorem objects_freed (calls : List Call) (careful : Careful calls) :
    ((run calls).2.filterMap given).Nodup ∧
    ((∀ c i, (c, Result.handle i) ∈ (run calls).2 → Gone (run calls).2 i) →
      ∀ o ∈ (run calls).1, o = none) := by
  have h := inv_run calls careful
  refine ⟨h.order ▸ List.nodup_range, fun all o ho => ?_⟩
  obtain ⟨i, hi, rfl⟩ := List.mem_iff_getElem.1 ho
  have hm : i ∈ (run calls).2.filterMap given := by
    rw [h.order]
    exact List.mem_range.2 hi
  obtain ⟨⟨c, r⟩, hx, hg⟩ := List.mem_filterMap.1 hm
  have er : r = .handle i := by
    cases r with
    | handle j => injection hg with e; rw [e]
    | _ => cases hg
  subst er
  have hn := h.gone i (all c i hx)
  rw [List.getElem?_eq_getElem hi] at hn
  injection hn

/-- The hypotheses can be met: whatever handlers an application has, its configuration is got, the objects that it was
got from are destroyed, and the handlers are read twice. -/
example (hs : List HandlerDef) :
    Careful [.setup hs, .getApi 0, .destroy .app 0, .getHttp 1, .destroy .api 1, .receive 2 1, .receive 2 9] ∧
    (run [.setup hs, .getApi 0, .destroy .app 0, .getHttp 1, .destroy .api 1, .receive 2 1, .receive 2 9]).2.map
        Prod.snd =
      [.handle 0, .handle 1, .unit, .handle 2, .unit, .handlers (hs.take 1), .handlers (hs.take 9)] := by
  refine ⟨?_, rfl⟩
  have c0 : Careful [] := by
    intro before c after e
    cases before <;> cases e
  have m0 : ∀ t, (Call.setup hs, Result.handle 0) ∈ t → Made t 0 .app hs := fun _ h => .setup h
  have m1 : ∀ t, (Call.setup hs, Result.handle 0) ∈ t → (Call.getApi 0, Result.handle 1) ∈ t →
      Made t 1 .api hs := fun _ h h1 => .api h1 (.setup h)
  have m2 : ∀ t, (Call.setup hs, Result.handle 0) ∈ t → (Call.getApi 0, Result.handle 1) ∈ t →
      (Call.getHttp 1, Result.handle 2) ∈ t → Made t 2 .http hs :=
    fun _ h h1 h2 => .http h2 (.api h1 (.setup h))
  have c1 := careful_snoc (c := .setup hs) c0 trivial
  have c2 := careful_snoc (c := .getApi 0) c1
    ⟨⟨hs, m0 _ (by simp [run, record, step, alloc])⟩, by
      rintro ⟨k, r, g⟩; simp [run, record, step, alloc] at g⟩
  have c3 := careful_snoc (c := .destroy .app 0) c2
    ⟨⟨hs, m0 _ (by simp [run, record, step, alloc])⟩, by
      rintro ⟨k, r, g⟩; simp [run, record, step, alloc] at g⟩
  have c4 := careful_snoc (c := .getHttp 1) c3
    ⟨⟨hs, m1 _ (by simp [run, record, step, alloc]) (by simp [run, record, step, alloc])⟩, by
      rintro ⟨k, r, g⟩; simp [run, record, step, alloc] at g⟩
  have c5 := careful_snoc (c := .destroy .api 1) c4
    ⟨⟨hs, m1 _ (by simp [run, record, step, alloc]) (by simp [run, record, step, alloc])⟩, by
      rintro ⟨k, r, g⟩; simp [run, record, step, alloc] at g⟩
  have c6 := careful_snoc (c := .receive 2 1) c5
    ⟨⟨hs, m2 _ (by simp [run, record, step, alloc]) (by simp [run, record, step, alloc])
      (by simp [run, record, step, alloc])⟩, by
      rintro ⟨k, r, g⟩; simp [run, record, step, alloc] at g⟩
  exact careful_snoc (c := .receive 2 9) c6
    ⟨⟨hs, m2 _ (by simp [run, record, step, alloc]) (by simp [run, record, step, alloc])
      (by simp [run, record, step, alloc])⟩, by
      rintro ⟨k, r, g⟩; simp [run, record, step, alloc] at g⟩

end Verif.Sdk.Objects
