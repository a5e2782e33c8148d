import Verif.Trace.Spec

/-! # Lemmas about hexadecimal digits and splitting -/

namespace Verif.Trace

open Spec

theorem digit_facts : ∀ n, n < 16 → hexDigit n ∈ alphabet ∧ alphabet.idxOf (hexDigit n) = n ∧
    digitVal (hexDigit n) = some n ∧ hexDigit n ≠ '-' ∧ hexDigit n ≠ '+' := by
  decide +kernel

theorem hex_length (k n : Nat) : (hex k n).length = k := by
  induction k generalizing n with
  | zero => rfl
  | succ k ih => rw [hex, List.length_append, ih]; rfl

theorem hex_mem {k n : Nat} {c : Char} (h : c ∈ hex k n) : ∃ d, d < 16 ∧ c = hexDigit d := by
  induction k generalizing n with
  | zero => cases h
  | succ k ih =>
    rw [hex, List.mem_append, List.mem_singleton] at h
    rcases h with h | h
    · exact ih h
    · exact ⟨n % 16, Nat.mod_lt _ (by decide), h⟩

theorem value_snoc (s : List Char) (c : Char) :
    value (s ++ [c]) = value s * 16 + alphabet.idxOf c := by
  rw [value, List.foldl_append]
  rfl

theorem value_hex (k n : Nat) : value (hex k n) = n % 16 ^ k := by
  induction k generalizing n with
  | zero => rw [Nat.pow_zero, Nat.mod_one]; rfl
  | succ k ih =>
    rw [hex, value_snoc, ih, (digit_facts _ (Nat.mod_lt n (by decide))).2.1, Nat.pow_succ,
      Nat.mul_comm (16 ^ k) 16, Nat.mod_mul]
    omega

theorem digits_hex (k n : Nat) : Digits k (n % 16 ^ k) (hex k n) := by
  refine ⟨hex_length k n, ?_, value_hex k n⟩
  intro c hc
  obtain ⟨d, hd, rfl⟩ := hex_mem hc
  exact (digit_facts d hd).1

theorem hex_append (j k n : Nat) : hex (j + k) n = hex j (n / 16 ^ k) ++ hex k n := by
  induction k generalizing n with
  | zero => rw [Nat.pow_zero, Nat.div_one]; simp [hex]
  | succ k ih =>
    rw [← Nat.add_assoc, hex, ih, hex, List.append_assoc, Nat.div_div_eq_div_mul, Nat.pow_succ,
      Nat.mul_comm 16]

theorem toXray_parts (id : Nat) :
    toXray id = '1' :: '-' :: (hex 8 (id / 16 ^ 24) ++ '-' :: hex 24 id) := by
  have h : display id = hex 8 (id / 16 ^ 24) ++ hex 24 id := hex_append 8 24 id
  have hl := hex_length 8 (id / 16 ^ 24)
  rw [toXray, h]
  have h1 : (hex 8 (id / 16 ^ 24) ++ hex 24 id).take 8 = hex 8 (id / 16 ^ 24) := by
    rw [List.take_append_of_le_length (by omega), List.take_of_length_le (by omega)]
  have h2 : (hex 8 (id / 16 ^ 24) ++ hex 24 id).drop 8 = hex 24 id := by
    rw [List.drop_append_of_le_length (by omega), List.drop_of_length_le (by omega),
      List.nil_append]
  rw [h1, h2, version, List.cons_append, List.nil_append]

theorem split_plain {s : Str} (h : ∀ c ∈ s, c ≠ '-') : split s = [s] := by
  induction s with
  | nil => rfl
  | cons c cs ih =>
    rw [split, if_neg (h c (List.mem_cons_self ..)),
      ih fun d hd => h d (List.mem_cons_of_mem _ hd)]

theorem split_at {s t : Str} (h : ∀ c ∈ s, c ≠ '-') : split (s ++ '-' :: t) = s :: split t := by
  induction s with
  | nil => rw [List.nil_append, split, if_pos rfl]
  | cons c cs ih =>
    rw [List.cons_append, split, if_neg (h c (List.mem_cons_self ..)),
      ih fun d hd => h d (List.mem_cons_of_mem _ hd)]

theorem hex_plain (k n : Nat) : ∀ c ∈ hex k n, c ≠ '-' := by
  intro c hc
  obtain ⟨d, hd, rfl⟩ := hex_mem hc
  exact (digit_facts d hd).2.2.2.1

theorem digits_snoc (acc : Nat) (s : Str) (c : Char) :
    digits acc (s ++ [c]) = (digits acc s).bind fun n => (digitVal c).map (n * 16 + ·) := by
  induction s generalizing acc with
  | nil =>
    rw [List.nil_append, digits, digits]
    cases digitVal c <;> rfl
  | cons d ds ih =>
    rw [List.cons_append, digits, digits]
    cases digitVal d with
    | none => rfl
    | some v => exact ih _

theorem digits_value (k n : Nat) : digits 0 (hex k n) = some (n % 16 ^ k) := by
  induction k generalizing n with
  | zero => rw [Nat.pow_zero, Nat.mod_one]; rfl
  | succ k ih =>
    rw [hex, digits_snoc, ih, (digit_facts _ (Nat.mod_lt n (by decide))).2.2.1, Nat.pow_succ,
      Nat.mul_comm (16 ^ k) 16, Nat.mod_mul]
    simp only [Option.bind_some, Option.map_some, Option.some.injEq]
    omega

theorem fromHex_hex (k n : Nat) (hk : 0 < k) (hn : n < 16 ^ k) (hn' : n < 2 ^ 128) :
    fromHex (hex k n) = some n := by
  have hl := hex_length k n
  have hne : hex k n ≠ [] := by
    intro h
    rw [h] at hl
    exact absurd hl (by simp; omega)
  have hd := digits_value k n
  rw [Nat.mod_eq_of_lt hn] at hd
  have hp : ∀ c ∈ hex k n, c ≠ '+' := by
    intro c hc
    obtain ⟨d, hd, rfl⟩ := hex_mem hc
    exact (digit_facts d hd).2.2.2.2
  have hs : dropPlus (hex k n) = hex k n := by
    cases h : hex k n with
    | nil => rfl
    | cons c cs => rw [dropPlus, if_neg (hp c (by rw [h]; exact List.mem_cons_self ..))]
  rw [fromHex, hs, if_neg hne, hd]
  exact if_pos hn'

theorem splitTerminator_toXray (id : Nat) :
    splitTerminator (toXray id) = [['1'], hex 8 (id / 16 ^ 24), hex 24 id] := by
  have hs : split (toXray id) = [['1'], hex 8 (id / 16 ^ 24), hex 24 id] := by
    rw [toXray_parts]
    have : '1' :: '-' :: (hex 8 (id / 16 ^ 24) ++ '-' :: hex 24 id) =
        ['1'] ++ '-' :: (hex 8 (id / 16 ^ 24) ++ '-' :: hex 24 id) := rfl
    rw [this, split_at (by decide), split_at (hex_plain _ _), split_plain (hex_plain _ _)]
  rw [splitTerminator, hs]
  have hl := hex_length 24 id
  rw [if_neg]
  intro h
  have h : some (hex 24 id) = some [] := h
  injection h with h
  rw [h] at hl
  cases hl

end Verif.Trace
