import Verif.WebSocket.Props

/-!
# C175: the notice of a lost message

Model of `libs/runtime/ws-registry/src/message_helpers.rs`, with the part of serde_json that writes the
text of the object. When notices are sent is C149.
-/

namespace Verif.WebSocket

/-! ## Model -/

/-- The digit of a number below 16, as serde_json writes it. -/
def lowerHex (n : Nat) : Char := "0123456789abcdef".toList.getD n '0'

/-- How serde_json writes a character of a string, as `json!(…).to_string()` in message_helpers.rs 9-12
does. -/
def escapeChar (c : Char) : List Char :=
  if c = '"' then ['\\', '"']
  else if c = '\\' then ['\\', '\\']
  else if c.toNat = 8 then ['\\', 'b']
  else if c.toNat = 9 then ['\\', 't']
  else if c.toNat = 10 then ['\\', 'n']
  else if c.toNat = 12 then ['\\', 'f']
  else if c.toNat = 13 then ['\\', 'r']
  else if c.toNat < 32 then
    ['\\', 'u', '0', '0', lowerHex (c.toNat / 16), lowerHex (c.toNat % 16)]
  else [c]

/-- The payload: message_helpers.rs 9-12. -/
def lostPayload (id : String) : String :=
  String.ofList ("{\"messageId\":\"".toList ++ (id.toList.flatMap escapeChar ++ "\"}".toList))

/-- `create_message_lost_event`: message_helpers.rs 6-22. -/
def lostNotice (id : String) : Bytes := 1 :: 3 :: (lostPayload id).toUTF8.data.toList

/-! ## Specification -/

namespace LostSpec

/-- A hexadecimal digit (RFC 8259, section 7, with RFC 5234). -/
def Hex (c : Char) (n : Nat) : Prop :=
  ('0'.toNat ≤ c.toNat ∧ c.toNat ≤ '9'.toNat ∧ n + '0'.toNat = c.toNat) ∨
  ('a'.toNat ≤ c.toNat ∧ c.toNat ≤ 'f'.toNat ∧ n + 'a'.toNat = c.toNat + 10) ∨
  ('A'.toNat ≤ c.toNat ∧ c.toNat ≤ 'F'.toNat ∧ n + 'A'.toNat = c.toNat + 10)

/-- Four hexadecimal digits. -/
def Hex4 (a b c d : Char) (n : Nat) : Prop :=
  ∃ i j k l, Hex a i ∧ Hex b j ∧ Hex c k ∧ Hex d l ∧ n = ((i * 16 + j) * 16 + k) * 16 + l

/-- The characters after a backslash that stand for one character. -/
def short : List (Char × Nat) :=
  [('"', 0x22), ('\\', 0x5c), ('/', 0x2f), ('b', 8), ('f', 0xc), ('n', 0xa), ('r', 0xd), ('t', 9)]

/-- What is written between the quotation marks of a JSON string, and what it means: RFC 8259,
section 7. -/
inductive Means : List Char → List Char → Prop
  | nil : Means [] []
  | plain {c w m} : 0x20 ≤ c.toNat → c ≠ '"' → c ≠ '\\' → Means w m → Means (c :: w) (c :: m)
  | short {e w m} {x : Char} : (e, x.toNat) ∈ short → Means w m → Means ('\\' :: e :: w) (x :: m)
  | unicode {a b c d w m} {x : Char} : Hex4 a b c d x.toNat → Means w m →
      Means ('\\' :: 'u' :: a :: b :: c :: d :: w) (x :: m)
  | pair {a b c d a' b' c' d' n n' w m} {x : Char} : Hex4 a b c d n → Hex4 a' b' c' d' n' →
      0xd800 ≤ n → n < 0xdc00 → 0xdc00 ≤ n' → n' < 0xe000 →
      x.toNat = 0x10000 + (n - 0xd800) * 0x400 + (n' - 0xdc00) → Means w m →
      Means ('\\' :: 'u' :: a :: b :: c :: d :: '\\' :: 'u' :: a' :: b' :: c' :: d' :: w) (x :: m)

/-- The text of a JSON object with the one string `messageId`. -/
def Notice (text : String) (id : String) : Prop :=
  ∃ w, text.toList = "{\"messageId\":\"".toList ++ w ++ "\"}".toList ∧ Means w id.toList

end LostSpec

open LostSpec Spec

/-! ## Proofs -/

theorem lowerHex_hex : ∀ n < 16, Hex (lowerHex n) n := by
  have : ∀ n ∈ List.range 16, ('0'.toNat ≤ (lowerHex n).toNat ∧ (lowerHex n).toNat ≤ '9'.toNat ∧
      n + '0'.toNat = (lowerHex n).toNat) ∨
      ('a'.toNat ≤ (lowerHex n).toNat ∧ (lowerHex n).toNat ≤ 'f'.toNat ∧
      n + 'a'.toNat = (lowerHex n).toNat + 10) := by decide
  intro n hn
  rcases this n (List.mem_range.2 hn) with h | h
  · exact .inl h
  · exact .inr (.inl h)

theorem escape_means (c : Char) (w m : List Char) (h : Means w m) :
    Means (escapeChar c ++ w) (c :: m) := by
  unfold escapeChar
  split
  · rename_i hc; subst hc; exact .short (by decide) h
  split
  · rename_i hc; subst hc; exact .short (by decide) h
  split
  · rename_i hc; exact .short (by rw [hc]; decide) h
  split
  · rename_i hc; exact .short (by rw [hc]; decide) h
  split
  · rename_i hc; exact .short (by rw [hc]; decide) h
  split
  · rename_i hc; exact .short (by rw [hc]; decide) h
  split
  · rename_i hc; exact .short (by rw [hc]; decide) h
  split
  · rename_i hc
    refine .unicode ⟨0, 0, c.toNat / 16, c.toNat % 16, .inl (by decide), .inl (by decide),
      lowerHex_hex _ (by omega), lowerHex_hex _ (by omega), by omega⟩ h
  · rename_i h1 h2 _ _ _ _ _ h3
    exact .plain (by omega) h1 h2 h

theorem escapes_mean : ∀ s : List Char, Means (s.flatMap escapeChar) s
  | [] => .nil
  | c :: s => by rw [List.flatMap_cons]; exact escape_means c _ _ (escapes_mean s)

theorem hex_unique {c : Char} {n m : Nat} (h : Hex c n) (h' : Hex c m) : n = m := by
  have e1 : '0'.toNat = 48 := rfl
  have e2 : '9'.toNat = 57 := rfl
  have e3 : 'a'.toNat = 97 := rfl
  have e4 : 'f'.toNat = 102 := rfl
  have e5 : 'A'.toNat = 65 := rfl
  have e6 : 'F'.toNat = 70 := rfl
  unfold Hex at h h'
  omega

theorem hex4_unique {a b c d : Char} {n m : Nat} (h : Hex4 a b c d n) (h' : Hex4 a b c d m) : n = m := by
  obtain ⟨i, j, k, l, h1, h2, h3, h4, rfl⟩ := h
  obtain ⟨i', j', k', l', h1', h2', h3', h4', rfl⟩ := h'
  rw [hex_unique h1 h1', hex_unique h2 h2', hex_unique h3 h3', hex_unique h4 h4']

theorem toNat_inj {x y : Char} (h : x.toNat = y.toNat) : x = y := by
  apply Char.ext
  exact UInt32.toNat_inj.1 h

theorem not_surrogate (x : Char) (n : Nat) (h : x.toNat = n) (h1 : 0xd800 ≤ n) (h2 : n < 0xdc00) :
    False := by
  have := x.valid
  simp only [UInt32.isValidChar, Nat.isValidChar] at this
  have e : x.val.toNat = x.toNat := rfl
  omega

theorem short_unique {e : Char} {n m : Nat} (h : (e, n) ∈ short) (h' : (e, m) ∈ short) : n = m := by
  simp only [short, List.mem_cons, List.not_mem_nil, or_false, Prod.mk.injEq] at h h'
  rcases h with ⟨rfl, rfl⟩ | ⟨rfl, rfl⟩ | ⟨rfl, rfl⟩ | ⟨rfl, rfl⟩ | ⟨rfl, rfl⟩ | ⟨rfl, rfl⟩ | ⟨rfl, rfl⟩ |
    ⟨rfl, rfl⟩ <;> simp at h' <;> omega

theorem short_not_u {n : Nat} (h : ('u', n) ∈ short) : False := by
  simp [short] at h

/-- What is written means one thing. -/
theorem means_unique {w m : List Char} (h : Means w m) : ∀ {m' : List Char}, Means w m' → m' = m := by
  induction h with
  | nil => intro m' h'; cases h'; rfl
  | plain _ hq hb _ ih =>
    intro m' h'
    cases h' with
    | plain _ _ _ h => rw [ih h]
    | short => exact absurd rfl hb
    | unicode => exact absurd rfl hb
    | pair => exact absurd rfl hb
  | short he _ ih =>
    intro m' h'
    cases h' with
    | plain _ _ hb => exact absurd rfl hb
    | short he' h => rw [ih h, toNat_inj (short_unique he' he)]
    | unicode => exact (short_not_u he).elim
    | pair => exact (short_not_u he).elim
  | unicode hx _ ih =>
    intro m' h'
    cases h' with
    | plain _ _ hb => exact absurd rfl hb
    | short he' => exact (short_not_u he').elim
    | unicode hx' h => rw [ih h, toNat_inj (hex4_unique hx' hx)]
    | pair hn _ h1 h2 => exact (not_surrogate _ _ (hex4_unique hx hn) h1 h2).elim
  | pair hn hn' h1 h2 h3 h4 hx _ ih =>
    intro m' h'
    cases h' with
    | plain _ _ hb => exact absurd rfl hb
    | short he' => exact (short_not_u he').elim
    | unicode hx' h => exact (not_surrogate _ _ (hex4_unique hx' hn) h1 h2).elim
    | pair kn kn' _ _ _ _ kx h =>
      rw [hex4_unique kn hn, hex4_unique kn' hn'] at kx
      rw [ih h, toNat_inj (kx.trans hx.symm)]

/-- A text is the notice of at most one message. -/
theorem notice_unique {text a b : String} (ha : Notice text a) (hb : Notice text b) : a = b := by
  obtain ⟨w, hw, hm⟩ := ha
  obtain ⟨w', hw', hm'⟩ := hb
  rw [hw] at hw'
  have : w = w' := by
    rw [List.append_assoc, List.append_assoc] at hw'
    exact List.append_cancel_right (List.append_cancel_left hw')
  subst this
  exact String.toList_inj.1 (means_unique hm' hm)

/-- **C175.** The notice of a lost message is a frame of the documented layout whose route is the byte 3
and whose payload is the text of a JSON object with the id of the message, whatever characters it has;
and it can be read in one way only. -/
theorem lost_notice (id : String) :
    ∃ text : String, lostNotice id = frame [3] text.toUTF8.data.toList ∧ Notice text id ∧
      ∀ id', Notice text id' → id' = id := by
  have hn : Notice (lostPayload id) id :=
    ⟨id.toList.flatMap escapeChar, (by
      unfold lostPayload
      rw [String.toList_ofList]
      exact (List.append_assoc _ _ _).symm), escapes_mean _⟩
  exact ⟨lostPayload id, rfl, hn, fun id' h => notice_unique h hn⟩

/-- Notices of different messages are different. -/
theorem lost_distinct (a b : String) (h : lostNotice a = lostNotice b) : a = b := by
  obtain ⟨text, ht, hn, _⟩ := lost_notice a
  obtain ⟨text', ht', hn', _⟩ := lost_notice b
  rw [ht, ht'] at h
  have h : text'.toUTF8.data.toList = text.toUTF8.data.toList := by
    simpa [frame] using h.symm
  have h : text' = text := by
    apply String.toByteArray_inj.1
    apply ByteArray.ext
    exact Array.toList_inj.1 h
  subst h
  exact notice_unique hn hn'

/-- Whoever reads frames as the runtime does sees the route and the text. -/
theorem lost_read {H : Type} (e : Endpoint H) (hu : e.utf8 [3] = some "\x03") (id : String) :
    ∃ text : String, resolveBinaryRoute e (lostNotice id) =
      .ok (.cont (some ("\x03", text.toUTF8.data.toList))) ∧ Notice text id := by
  obtain ⟨text, ht, hn, _⟩ := lost_notice id
  exact ⟨text, by rw [ht]; exact (binary_roundtrip e "" [3] _ "\x03" (by decide) hu).1, hn⟩

/-! ## Examples -/

example : lostPayload "a\"b\n" = "{\"messageId\":\"a\\\"b\\n\"}" := by decide

example : lostPayload (String.ofList [Char.ofNat 1, 'é']) = "{\"messageId\":\"\\u0001é\"}" := by decide

/-- The hypothesis of `lost_read` holds of what UTF-8 means for one byte. -/
example : String.fromUTF8? ⟨#[3]⟩ = some "\x03" := by decide

end Verif.WebSocket
