import Verif.Basic.Bytes

/-!
# Unpadded base64 and PHC salt strings

`base64ct::Base64Unpadded` (base64ct 1.6.0), `password_hash::SaltString` and `password_hash::Salt`
(password-hash 0.5.0). A salt string is represented by its characters.
-/

namespace Verif.Base64

/-- The standard alphabet `A-Z a-z 0-9 + /`. -/
def enc6 (n : Nat) : UInt8 :=
  if n < 26 then UInt8.ofNat (65 + n)
  else if n < 52 then UInt8.ofNat (97 + (n - 26))
  else if n < 62 then UInt8.ofNat (48 + (n - 52))
  else if n = 62 then 43 else 47

/-- Value of a character of the standard alphabet. -/
def dec6 (c : UInt8) : Option Nat :=
  let c := c.toNat
  if 65 ≤ c ∧ c ≤ 90 then some (c - 65)
  else if 97 ≤ c ∧ c ≤ 122 then some (c - 97 + 26)
  else if 48 ≤ c ∧ c ≤ 57 then some (c - 48 + 52)
  else if c = 43 then some 62
  else if c = 47 then some 63
  else none

/-- `Base64Unpadded::encode`. -/
def encode : Bytes → Bytes
  | [] => []
  | [a] => [enc6 (a.toNat / 4), enc6 (a.toNat % 4 * 16)]
  | [a, b] => [enc6 (a.toNat / 4), enc6 (a.toNat % 4 * 16 + b.toNat / 16),
      enc6 (b.toNat % 16 * 4)]
  | a :: b :: c :: rest =>
      enc6 (a.toNat / 4) :: enc6 (a.toNat % 4 * 16 + b.toNat / 16) ::
      enc6 (b.toNat % 16 * 4 + c.toNat / 64) :: enc6 (c.toNat % 64) :: encode rest

/-- `Base64Unpadded::decode`: unused low bits of the last character must be zero. -/
def decode : Bytes → Option Bytes
  | [] => some []
  | [_] => none
  | [w, x] => do
      let w ← dec6 w; let x ← dec6 x
      if x % 16 = 0 then some [UInt8.ofNat (w * 4 + x / 16)] else none
  | [w, x, y] => do
      let w ← dec6 w; let x ← dec6 x; let y ← dec6 y
      if y % 4 = 0 then
        some [UInt8.ofNat (w * 4 + x / 16), UInt8.ofNat (x % 16 * 16 + y / 4)]
      else none
  | w :: x :: y :: z :: rest => do
      let w ← dec6 w; let x ← dec6 x; let y ← dec6 y; let z ← dec6 z
      let tail ← decode rest
      some (UInt8.ofNat (w * 4 + x / 16) :: UInt8.ofNat (x % 16 * 16 + y / 4) ::
        UInt8.ofNat (y % 4 * 64 + z) :: tail)

theorem dec6_enc6_fin : ∀ n : Fin 64, dec6 (enc6 n.1) = some n.1 := by decide +kernel

theorem dec6_enc6 {n : Nat} (h : n < 64) : dec6 (enc6 n) = some n := dec6_enc6_fin ⟨n, h⟩

theorem ofNat_toNat (a : UInt8) : UInt8.ofNat a.toNat = a := by simp

/-- Decoding inverts encoding. -/
theorem decode_encode (x : Bytes) : decode (encode x) = some x := by
  induction x using encode.induct with
  | case1 => rfl
  | case2 a =>
    have ha := a.toNat_lt
    have h1 : dec6 (enc6 (a.toNat / 4)) = some (a.toNat / 4) := dec6_enc6 (by omega)
    have h2 : dec6 (enc6 (a.toNat % 4 * 16)) = some (a.toNat % 4 * 16) := dec6_enc6 (by omega)
    have e1 : a.toNat / 4 * 4 + a.toNat % 4 * 16 / 16 = a.toNat := by omega
    simp only [encode, decode, h1, h2, Option.bind_eq_bind, Option.bind_some, e1,
      ofNat_toNat, Nat.mul_mod_left, if_true]
  | case3 a b =>
    have ha := a.toNat_lt
    have hb := b.toNat_lt
    have h1 : dec6 (enc6 (a.toNat / 4)) = some (a.toNat / 4) := dec6_enc6 (by omega)
    have h2 : dec6 (enc6 (a.toNat % 4 * 16 + b.toNat / 16)) =
      some (a.toNat % 4 * 16 + b.toNat / 16) := dec6_enc6 (by omega)
    have h3 : dec6 (enc6 (b.toNat % 16 * 4)) = some (b.toNat % 16 * 4) := dec6_enc6 (by omega)
    have e1 : a.toNat / 4 * 4 + (a.toNat % 4 * 16 + b.toNat / 16) / 16 = a.toNat := by omega
    have e2 : (a.toNat % 4 * 16 + b.toNat / 16) % 16 * 16 + b.toNat % 16 * 4 / 4 = b.toNat := by
      omega
    simp only [encode, decode, h1, h2, h3, Option.bind_eq_bind, Option.bind_some, e1, e2,
      ofNat_toNat, Nat.mul_mod_left, if_true]
  | case4 a b c rest ih =>
    have ha := a.toNat_lt
    have hb := b.toNat_lt
    have hc := c.toNat_lt
    have h1 : dec6 (enc6 (a.toNat / 4)) = some (a.toNat / 4) := dec6_enc6 (by omega)
    have h2 : dec6 (enc6 (a.toNat % 4 * 16 + b.toNat / 16)) =
      some (a.toNat % 4 * 16 + b.toNat / 16) := dec6_enc6 (by omega)
    have h3 : dec6 (enc6 (b.toNat % 16 * 4 + c.toNat / 64)) =
      some (b.toNat % 16 * 4 + c.toNat / 64) := dec6_enc6 (by omega)
    have h4 : dec6 (enc6 (c.toNat % 64)) = some (c.toNat % 64) := dec6_enc6 (by omega)
    have e1 : a.toNat / 4 * 4 + (a.toNat % 4 * 16 + b.toNat / 16) / 16 = a.toNat := by omega
    have e2 : (a.toNat % 4 * 16 + b.toNat / 16) % 16 * 16 +
      (b.toNat % 16 * 4 + c.toNat / 64) / 4 = b.toNat := by omega
    have e3 : (b.toNat % 16 * 4 + c.toNat / 64) % 4 * 64 + c.toNat % 64 = c.toNat := by omega
    simp only [encode, decode, h1, h2, h3, h4, ih, Option.bind_eq_bind, Option.bind_some, e1, e2,
      e3, ofNat_toNat]

theorem encode_injective : Function.Injective encode := by
  intro x y h
  have := congrArg decode h
  rwa [decode_encode, decode_encode, Option.some.injEq] at this

/-- Length of the encoding: four characters per three bytes, rounded up without padding. -/
theorem encode_length (x : Bytes) : (encode x).length = (4 * x.length + 2) / 3 := by
  induction x using encode.induct with
  | case1 => rfl
  | case2 a => simp [encode]
  | case3 a b => simp [encode]
  | case4 a b c rest ih => simp only [encode, List.length_cons, ih]; omega

/-- A character that a PHC salt may contain: `[a-zA-Z0-9/+.-]` (password-hash 0.5.0, `Value`). -/
def isSaltChar (c : UInt8) : Bool :=
  let c := c.toNat
  (65 ≤ c && c ≤ 90) || (97 ≤ c && c ≤ 122) || (48 ≤ c && c ≤ 57) || c == 43 || c == 47 ||
    c == 46 || c == 45

theorem isSaltChar_enc6_fin : ∀ n : Fin 64, isSaltChar (enc6 n.1) = true := by decide +kernel

theorem isSaltChar_enc6 {n : Nat} (h : n < 64) : isSaltChar (enc6 n) = true :=
  isSaltChar_enc6_fin ⟨n, h⟩

theorem encode_chars (x : Bytes) : ∀ c ∈ encode x, isSaltChar c = true := by
  induction x using encode.induct with
  | case1 => simp [encode]
  | case2 a =>
    have ha := a.toNat_lt
    simp only [encode, List.mem_cons, List.not_mem_nil, or_false]
    rintro c (rfl | rfl) <;> exact isSaltChar_enc6 (by omega)
  | case3 a b =>
    have ha := a.toNat_lt
    have hb := b.toNat_lt
    simp only [encode, List.mem_cons, List.not_mem_nil, or_false]
    rintro c (rfl | rfl | rfl) <;> exact isSaltChar_enc6 (by omega)
  | case4 a b c rest ih =>
    have ha := a.toNat_lt
    have hb := b.toNat_lt
    have hc := c.toNat_lt
    simp only [encode, List.mem_cons]
    rintro d (rfl | rfl | rfl | rfl | h)
    · exact isSaltChar_enc6 (by omega)
    · exact isSaltChar_enc6 (by omega)
    · exact isSaltChar_enc6 (by omega)
    · exact isSaltChar_enc6 (by omega)
    · exact ih d h

/-- `SaltString::encode_b64` (password-hash 0.5.0): encodes into a 64-byte buffer, `none` is the error
returned when the encoding does not fit. -/
def saltEncode (input : Bytes) : Option Bytes :=
  if (encode input).length ≤ 64 then some (encode input) else none

/-- `SaltString::from_b64` / `Salt::from_b64` (password-hash 0.5.0): between 4 and 64 salt characters.
The characters are kept as they are. -/
def saltParse (s : Bytes) : Option Bytes :=
  if 4 ≤ s.length ∧ s.length ≤ 64 ∧ s.all isSaltChar then some s else none

/-! ## Specification -/

/-- Table 1 of RFC 4648. -/
def alphabet : Bytes := ascii "ABCDEFGHIJKLMNOPQRSTUVWXYZabcdefghijklmnopqrstuvwxyz0123456789+/"

/-- The characters of a salt in the PHC string format: `[a-zA-Z0-9/+.-]`. -/
def saltAlphabet : Bytes := ascii "abcdefghijklmnopqrstuvwxyzABCDEFGHIJKLMNOPQRSTUVWXYZ0123456789/+.-"

/-- The number written in base 64 by `s`, most significant digit first. -/
def value (s : Bytes) : Nat := s.foldl (fun acc c => acc * 64 + alphabet.idxOf c) 0

theorem idxOf_enc6_fin : ∀ n : Fin 64, alphabet.idxOf (enc6 n.1) = n.1 ∧ enc6 n.1 ∈ alphabet := by decide +kernel

theorem idxOf_enc6 {n : Nat} (h : n < 64) : alphabet.idxOf (enc6 n) = n := (idxOf_enc6_fin ⟨n, h⟩).1

theorem isSaltChar_fin : ∀ i : Fin 256, isSaltChar (UInt8.ofFin i) = true ↔ UInt8.ofFin i ∈ saltAlphabet := by
  decide +kernel

theorem isSaltChar_iff (c : UInt8) : isSaltChar c = true ↔ c ∈ saltAlphabet := isSaltChar_fin c.toFin

theorem encode_alphabet (x : Bytes) : ∀ c ∈ encode x, c ∈ alphabet := by
  have key : ∀ n, n < 64 → enc6 n ∈ alphabet := fun n h => (idxOf_enc6_fin ⟨n, h⟩).2
  induction x using encode.induct with
  | case1 => simp [encode]
  | case2 a =>
    have ha := a.toNat_lt
    simp only [encode, List.mem_cons, List.not_mem_nil, or_false]
    rintro c (rfl | rfl) <;> exact key _ (by omega)
  | case3 a b =>
    have ha := a.toNat_lt
    have hb := b.toNat_lt
    simp only [encode, List.mem_cons, List.not_mem_nil, or_false]
    rintro c (rfl | rfl | rfl) <;> exact key _ (by omega)
  | case4 a b c rest ih =>
    have ha := a.toNat_lt
    have hb := b.toNat_lt
    have hc := c.toNat_lt
    simp only [encode, List.mem_cons]
    rintro d (rfl | rfl | rfl | rfl | h)
    · exact key _ (by omega)
    · exact key _ (by omega)
    · exact key _ (by omega)
    · exact key _ (by omega)
    · exact ih d h

/-- The encoding is the number with the bits of the input, followed by zero bits up to a full digit. -/
theorem value_encode (x : Bytes) : value (encode x) = beToNat x * 2 ^ (6 * (encode x).length - 8 * x.length) := by
  have gen : ∀ (x : Bytes) (acc : Nat),
      (encode x).foldl (fun acc c => acc * 64 + alphabet.idxOf c) acc =
        (acc * 256 ^ x.length + beToNat x) * 2 ^ (6 * (encode x).length - 8 * x.length) := by
    intro x
    induction x using encode.induct with
    | case1 => intro acc; simp [encode]
    | case2 a =>
      intro acc
      have ha := a.toNat_lt
      simp only [encode, List.foldl_cons, List.foldl_nil, List.length_cons, List.length_nil, beToNat]
      rw [idxOf_enc6 (by omega), idxOf_enc6 (by omega)]
      norm_num
      omega
    | case3 a b =>
      intro acc
      have ha := a.toNat_lt
      have hb := b.toNat_lt
      simp only [encode, List.foldl_cons, List.foldl_nil, List.length_cons, List.length_nil, beToNat]
      rw [idxOf_enc6 (by omega), idxOf_enc6 (by omega), idxOf_enc6 (by omega)]
      norm_num
      omega
    | case4 a b c rest ih =>
      intro acc
      have ha := a.toNat_lt
      have hb := b.toNat_lt
      have hc := c.toNat_lt
      simp only [encode, List.foldl_cons, ih, List.length_cons]
      rw [idxOf_enc6 (by omega), idxOf_enc6 (by omega), idxOf_enc6 (by omega), idxOf_enc6 (by omega),
        show 6 * ((encode rest).length + 1 + 1 + 1 + 1) - 8 * (rest.length + 1 + 1 + 1) =
          6 * (encode rest).length - 8 * rest.length by omega,
        show (((acc * 64 + a.toNat / 4) * 64 + (a.toNat % 4 * 16 + b.toNat / 16)) * 64 +
          (b.toNat % 16 * 4 + c.toNat / 64)) * 64 + c.toNat % 64 =
          acc * 256 ^ 3 + a.toNat * 256 ^ 2 + b.toNat * 256 + c.toNat by omega]
      simp only [beToNat_cons, List.length_cons]
      ring
  have := gen x 0
  rwa [Nat.zero_mul, Nat.zero_add] at this

end Verif.Base64
