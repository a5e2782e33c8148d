/-!
# JSON values

`serde_json::Value`. `F` is the type of the finite floating point numbers a `serde_json::Number` can
hold, identified when `==` holds for them (so `0.0` and `-0.0` are one element). Texts are lists of
characters. An object is the list of its entries in the order of their keys, as in the `BTreeMap`
that `serde_json` uses without its feature `preserve_order`.
-/

namespace Verif

/-- `serde_json::Value`. -/
inductive Json (F : Type)
  | null
  | bool (b : Bool)
  | int (i : Int)
  | float (f : F)
  | str (s : List Char)
  | arr (l : List (Json F))
  | obj (m : List (List Char × Json F))

namespace Json

variable {F : Type} [DecidableEq F]

mutual
/-- `PartialEq` of `serde_json::Value`. An integer is never equal to a floating point number. -/
def same : Json F → Json F → Bool
  | .null, .null => true
  | .bool a, .bool b => decide (a = b)
  | .int a, .int b => decide (a = b)
  | .float a, .float b => decide (a = b)
  | .str a, .str b => decide (a = b)
  | .arr a, .arr b => sameList a b
  | .obj a, .obj b => sameMap a b
  | _, _ => false

def sameList : List (Json F) → List (Json F) → Bool
  | [], [] => true
  | a :: as, b :: bs => same a b && sameList as bs
  | _, _ => false

def sameMap : List (List Char × Json F) → List (List Char × Json F) → Bool
  | [], [] => true
  | (k, a) :: as, (l, b) :: bs => decide (k = l) && same a b && sameMap as bs
  | _, _ => false
end

mutual
theorem same_iff : ∀ a b : Json F, same a b = true ↔ a = b
  | .null, b => by cases b <;> simp [same]
  | .bool a, b => by cases b <;> simp [same]
  | .int a, b => by cases b <;> simp [same]
  | .float a, b => by cases b <;> simp [same]
  | .str a, b => by cases b <;> simp [same]
  | .arr a, b => by
    cases b with
    | arr b => simp [same, sameList_iff a b]
    | _ => simp [same]
  | .obj a, b => by
    cases b with
    | obj b => simp [same, sameMap_iff a b]
    | _ => simp [same]

theorem sameList_iff : ∀ a b : List (Json F), sameList a b = true ↔ a = b
  | [], b => by cases b <;> simp [sameList]
  | a :: as, b => by
    cases b with
    | nil => simp [sameList]
    | cons b bs => simp [sameList, same_iff a b, sameList_iff as bs]

theorem sameMap_iff : ∀ a b : List (List Char × Json F), sameMap a b = true ↔ a = b
  | [], b => by cases b <;> simp [sameMap]
  | (k, a) :: as, b => by
    cases b with
    | nil => simp [sameMap]
    | cons b bs =>
      obtain ⟨l, b⟩ := b
      simp [sameMap, same_iff a b, sameMap_iff as bs]
end

instance : DecidableEq (Json F) := fun a b => decidable_of_iff _ (same_iff a b)

end Json
end Verif
