import Verif.Aucpace.World
import Verif.Basic.Utf8
import Mathlib.Tactic.IntervalCases

/-!
# Serialised messages (feature `serde`)

The `derive(Serialize, Deserialize)` of `ClientMessage` (aucpace/src/client.rs:984-1045) and `ServerMessage`
(aucpace/src/server.rs:685-729) with the helper modules of aucpace/src/utils.rs:170-247, in the two formats
used by the examples: bincode 1.3 (`bincode::serialize`: fixed-width little-endian integers, trailing bytes
allowed) and postcard 1.0 (varints).

Table of field encodings (serde 1.0, serde-byte-array 0.1, curve25519-dalek 4.1 `serde`):
* enum variant: its number among the variants *compiled in*, then the fields in order;
* `[u8; N]` through `serde_byte_array`, `&[u8]`, `&str`: length, then the bytes (`&str` must be UTF-8, an array
  must have exactly its length);
* `RistrettoPoint`, `Scalar`: a tuple of 32 `u8`, i.e. 32 bytes; decoding fails unless the bytes decompress,
  respectively are the canonical encoding;
* `SaltString`, `ParamsString`: as `&str`, decoding parses.

Simplified: which strings `ParamsString::from_str` accepts is a parameter; decoding errors are all `none`.
-/

set_option linter.unusedSectionVars false

namespace Verif.Aucpace.Wire

/-! ## Formats -/

/-- How a binary format writes a variant number (`u32`) and a length (`u64`). -/
structure Format where
  encIdx : Nat → Bytes
  decIdx : Bytes → Option (Nat × Bytes)
  encLen : Nat → Bytes
  decLen : Bytes → Option (Nat × Bytes)
  decIdx_encIdx : ∀ n r, n < 2 ^ 32 → decIdx (encIdx n ++ r) = some (n, r)
  decLen_encLen : ∀ n r, n < 2 ^ 64 → decLen (encLen n ++ r) = some (n, r)

/-- There is only one encoding of each number. -/
structure Format.Canonical (F : Format) : Prop where
  idx : ∀ b n r, F.decIdx b = some (n, r) → n < 2 ^ 32 ∧ b = F.encIdx n ++ r
  len : ∀ b n r, F.decLen b = some (n, r) → n < 2 ^ 64 ∧ b = F.encLen n ++ r

/-- Read `k` bytes as a little-endian number. -/
def takeLE (k : Nat) (b : Bytes) : Option (Nat × Bytes) :=
  if k ≤ b.length then some (leToNat (b.take k), b.drop k) else none

theorem takeLE_leFixed (k n : Nat) (r : Bytes) (h : n < 256 ^ k) :
    takeLE k (leFixed k n ++ r) = some (n, r) := by
  have hl : (leFixed k n).length = k := by simp
  unfold takeLE
  rw [if_pos (by simp), List.take_left' hl, List.drop_left' hl, leToNat_leFixed, Nat.mod_eq_of_lt h]

theorem takeLE_eq (k n : Nat) (b r : Bytes) (h : takeLE k b = some (n, r)) :
    n < 256 ^ k ∧ b = leFixed k n ++ r := by
  unfold takeLE at h
  split at h
  · rename_i hk
    simp only [Option.some.injEq, Prod.mk.injEq] at h
    obtain ⟨rfl, rfl⟩ := h
    have hl : (b.take k).length = k := by simp [hk]
    have hlt := leToNat_lt (b.take k)
    have hfix := leFixed_leToNat (b.take k)
    rw [hl] at hlt hfix
    exact ⟨hlt, by rw [hfix, List.take_append_drop]⟩
  · simp at h

/-- bincode 1.3, `bincode::serialize`: `u32` and `u64`, little-endian, fixed width. -/
def bincode : Format where
  encIdx := leFixed 4
  decIdx := takeLE 4
  encLen := leFixed 8
  decLen := takeLE 8
  decIdx_encIdx n r h := takeLE_leFixed 4 n r (by simpa using h)
  decLen_encLen n r h := takeLE_leFixed 8 n r (by simpa using h)

theorem bincode_canonical : bincode.Canonical where
  idx b n r h := by simpa [bincode] using takeLE_eq 4 n b r h
  len b n r h := by simpa [bincode] using takeLE_eq 8 n b r h

/-- postcard's varint of at most `k` bytes: seven bits per byte, lowest first, top bit "more follows". -/
def varint : Nat → Nat → Bytes
  | 0, _ => []
  | k + 1, n => if n < 128 then [UInt8.ofNat n] else UInt8.ofNat (n % 128 + 128) :: varint k (n / 128)

/-- postcard's `try_take_varint`: at most `k` bytes, the last possible one at most `last`. -/
def takeVarint (last : Nat) : Nat → Bytes → Option (Nat × Bytes)
  | 0, _ => none
  | _ + 1, [] => none
  | k + 1, b :: r =>
    if b.toNat < 128 then
      if k = 0 ∧ last < b.toNat then none else some (b.toNat, r)
    else match takeVarint last k r with
      | some (n, r) => some (b.toNat % 128 + 128 * n, r)
      | none => none

theorem takeVarint_varint (last k n : Nat) (r : Bytes) (hlast : last < 128)
    (h : n < 128 ^ k * (last + 1)) :
    takeVarint last (k + 1) (varint (k + 1) n ++ r) = some (n, r) := by
  induction k generalizing n with
  | zero =>
    simp only [pow_zero, one_mul] at h
    have h128 : n < 128 := by omega
    have hn : (UInt8.ofNat n).toNat = n := by simp; omega
    rw [varint, if_pos h128]
    simp only [List.cons_append, List.nil_append, takeVarint, hn, if_pos h128]
    rw [if_neg (by omega)]
  | succ k ih =>
    rw [varint]
    by_cases h128 : n < 128
    · have hn : (UInt8.ofNat n).toNat = n := by simp; omega
      rw [if_pos h128]
      simp only [List.cons_append, List.nil_append, takeVarint, hn, if_pos h128]
      rw [if_neg (by omega)]
    · have hn : (UInt8.ofNat (n % 128 + 128)).toNat = n % 128 + 128 := by simp; omega
      rw [if_neg h128, List.cons_append, takeVarint, hn, if_neg (by omega), ih]
      · simp only [Option.some.injEq, Prod.mk.injEq, and_true]
        omega
      · rw [Nat.div_lt_iff_lt_mul (by norm_num)]
        calc n < 128 ^ (k + 1) * (last + 1) := h
          _ = _ := by ring

/-- postcard 1.0 (`u32` in at most five bytes, `usize` of a 64-bit target in at most ten). -/
def postcard : Format where
  encIdx := varint 5
  decIdx := takeVarint 15 5
  encLen := varint 10
  decLen := takeVarint 1 10
  decIdx_encIdx n r h := takeVarint_varint 15 4 n r (by norm_num) (by norm_num at *; omega)
  decLen_encLen n r h := takeVarint_varint 1 9 n r (by norm_num) (by norm_num at *; omega)

/-- postcard numbers have more than one accepted encoding. -/
example : postcard.decIdx [0x80, 0x00] = postcard.decIdx [0x00] := by decide +kernel

/-! ## Fields -/

section
variable (F : Format)

/-- `&[u8]`, and the byte part of strings and arrays. -/
def encBytes (x : Bytes) : Bytes := F.encLen x.length ++ x

def decBytes (b : Bytes) : Option (Bytes × Bytes) :=
  match F.decLen b with
  | some (n, b) => if n ≤ b.length then some (b.take n, b.drop n) else none
  | none => none

/-- A decoded byte string that must satisfy a check. -/
def decChecked (ok : Bytes → Bool) (b : Bytes) : Option (Bytes × Bytes) :=
  match decBytes F b with
  | some (x, b) => if ok x then some (x, b) else none
  | none => none

/-- `[u8; k]` through `serde_byte_array`. -/
def decArray (k : Nat) : Bytes → Option (Bytes × Bytes) := decChecked F fun x => x.length == k

/-- `&str`. -/
def decStr : Bytes → Option (Bytes × Bytes) := decChecked F utf8

/-- What `serde_saltstring::deserialize` accepts, aucpace/src/utils.rs:194-199. -/
def saltOk (x : Bytes) : Bool := utf8 x && (Base64.saltParse x).isSome

/-- `serde_saltstring`, aucpace/src/utils.rs:172-208. -/
def decSalt : Bytes → Option (Bytes × Bytes) := decChecked F saltOk

/-- `serde_paramsstring`, aucpace/src/utils.rs:210-247; `paramsOk` is `ParamsString::from_str(..).is_ok()`. -/
def decParams (paramsOk : Bytes → Bool) : Bytes → Option (Bytes × Bytes) :=
  decChecked F fun x => utf8 x && paramsOk x

theorem decBytes_encBytes (x r : Bytes) (h : x.length < 2 ^ 64) :
    decBytes F (encBytes F x ++ r) = some (x, r) := by
  unfold decBytes encBytes
  rw [List.append_assoc, F.decLen_encLen _ _ h]
  simp

theorem decChecked_encBytes (ok : Bytes → Bool) (x r : Bytes) (h : x.length < 2 ^ 64)
    (hok : ok x = true) : decChecked F ok (encBytes F x ++ r) = some (x, r) := by
  unfold decChecked
  rw [decBytes_encBytes F x r h]
  simp [hok]

theorem decChecked_ok {ok : Bytes → Bool} {b x r : Bytes} (h : decChecked F ok b = some (x, r)) :
    decBytes F b = some (x, r) ∧ ok x = true := by
  unfold decChecked at h
  split at h
  · split at h
    · rename_i h1 h2
      simp only [Option.some.injEq, Prod.mk.injEq] at h
      obtain ⟨rfl, rfl⟩ := h
      exact ⟨h1, h2⟩
    · simp at h
  · simp at h

theorem decBytes_canonical (hF : F.Canonical) {b x r : Bytes} (h : decBytes F b = some (x, r)) :
    x.length < 2 ^ 64 ∧ b = encBytes F x ++ r := by
  unfold decBytes at h
  split at h
  · rename_i n b' h1
    split at h
    · rename_i hn
      simp only [Option.some.injEq, Prod.mk.injEq] at h
      obtain ⟨rfl, rfl⟩ := h
      obtain ⟨hlt, rfl⟩ := hF.len _ _ _ h1
      have hl : (b'.take n).length = n := by simp [hn]
      refine ⟨by rwa [hl], ?_⟩
      rw [encBytes, hl, List.append_assoc, List.take_append_drop]
    · simp at h
  · simp at h

end

section
variable {G : Type} [AddCommGroup G] [Module Scalar G] (R : Ristretto G)

/-- `RistrettoPoint`: 32 bytes that decompress. -/
def decPoint (b : Bytes) : Option (G × Bytes) :=
  if 32 ≤ b.length then
    match R.decompress (b.take 32) with
    | some P => some (P, b.drop 32)
    | none => none
  else none

/-- `Scalar::to_bytes`. -/
def encScalar (s : Scalar) : Bytes := leFixed 32 s.val

/-- `Scalar`: 32 bytes, canonical. -/
def decScalar (b : Bytes) : Option (Scalar × Bytes) :=
  if 32 ≤ b.length ∧ leToNat (b.take 32) < ell then some (leToNat (b.take 32), b.drop 32) else none

theorem decPoint_compress (P : G) (r : Bytes) : decPoint R (R.compress P ++ r) = some (P, r) := by
  have hl := R.compress_length P
  unfold decPoint
  rw [if_pos (by simp [hl]), List.take_left' hl, List.drop_left' hl, R.decompress_compress]

theorem decPoint_eq {b r : Bytes} {P : G} (h : decPoint R b = some (P, r)) :
    b = R.compress P ++ r := by
  unfold decPoint at h
  split at h
  · split at h
    · rename_i P' hP
      simp only [Option.some.injEq, Prod.mk.injEq] at h
      obtain ⟨rfl, rfl⟩ := h
      rw [R.compress_decompress _ _ hP, List.take_append_drop]
    · simp at h
  · simp at h

theorem decScalar_encScalar (s : Scalar) (r : Bytes) :
    decScalar (encScalar s ++ r) = some (s, r) := by
  have hl : (encScalar s).length = 32 := by simp [encScalar]
  have hs : s.val < ell := ZMod.val_lt s
  have hv : leToNat (encScalar s) = s.val := by
    rw [encScalar, leToNat_leFixed, Nat.mod_eq_of_lt (hs.trans Ristretto.ell_lt)]
  unfold decScalar
  rw [List.take_left' hl, List.drop_left' hl, hv, if_pos ⟨by simp [hl], hs⟩]
  simp

theorem decScalar_eq {b r : Bytes} {s : Scalar} (h : decScalar b = some (s, r)) :
    b = encScalar s ++ r := by
  unfold decScalar at h
  split at h
  · rename_i hc
    simp only [Option.some.injEq, Prod.mk.injEq] at h
    obtain ⟨rfl, rfl⟩ := h
    have hl : (b.take 32).length = 32 := by simp [hc.1]
    have hfix := leFixed_leToNat (b.take 32)
    rw [hl] at hfix
    rw [encScalar, ZMod.val_natCast, Nat.mod_eq_of_lt hc.2, hfix, List.take_append_drop]
  · simp at h

end

/-! ## Messages -/

/-- The variants of `ClientMessage` in source order. -/
inductive ClientTag where
  | nonce | username | strongUsername | publicKey | authenticator | registration | strongRegistration
  deriving DecidableEq

/-- The variants compiled in with or without the feature `strong_aucpace`, aucpace/src/client.rs:986-1045. -/
def clientVariants (strong : Bool) : List ClientTag :=
  [.nonce, .username] ++ (if strong then [.strongUsername] else []) ++
    [.publicKey, .authenticator, .registration] ++ (if strong then [.strongRegistration] else [])

/-- The variants of `ServerMessage` in source order. -/
inductive ServerTag where
  | nonce | augmentationInfo | strongAugmentationInfo | publicKey | authenticator
  deriving DecidableEq

/-- aucpace/src/server.rs:687-729. -/
def serverVariants (strong : Bool) : List ServerTag :=
  [.nonce, .augmentationInfo] ++ (if strong then [.strongAugmentationInfo] else []) ++
    [.publicKey, .authenticator]

section
variable {G : Type} [AddCommGroup G] [Module Scalar G] (F : Format) (R : Ristretto G) (strong : Bool)
  (K1 : Nat) (paramsOk : Bytes → Bool)

/-- The variant of a message. -/
def clientTag : ClientMessage G → ClientTag
  | .nonce _ => .nonce
  | .username _ => .username
  | .strongUsername _ _ => .strongUsername
  | .publicKey _ => .publicKey
  | .authenticator _ => .authenticator
  | .registration _ _ _ _ => .registration
  | .strongRegistration _ _ _ _ => .strongRegistration

def serverTag : ServerMessage G → ServerTag
  | .nonce _ => .nonce
  | .augmentationInfo _ _ _ _ => .augmentationInfo
  | .strongAugmentationInfo _ _ _ _ => .strongAugmentationInfo
  | .publicKey _ => .publicKey
  | .authenticator _ => .authenticator

/-- The fields of a client message in source order. -/
def clientBody : ClientMessage G → Bytes
  | .nonce n => encBytes F n
  | .username u => encBytes F u
  | .strongUsername u U => encBytes F u ++ R.compress U
  | .publicKey P => R.compress P
  | .authenticator a => encBytes F a
  | .registration u salt ps W => encBytes F u ++ encBytes F salt ++ encBytes F ps ++ R.compress W
  | .strongRegistration u q ps W => encBytes F u ++ encScalar q ++ encBytes F ps ++ R.compress W

def serverBody : ServerMessage G → Bytes
  | .nonce n => encBytes F n
  | .augmentationInfo g X salt ps => encBytes F g ++ R.compress X ++ encBytes F salt ++ encBytes F ps
  | .strongAugmentationInfo g X Z ps =>
    encBytes F g ++ R.compress X ++ R.compress Z ++ encBytes F ps
  | .publicKey P => R.compress P
  | .authenticator a => encBytes F a

/-- Serialisation; the variant must exist in the build. -/
def encClient (m : ClientMessage G) : Bytes :=
  F.encIdx ((clientVariants strong).idxOf (clientTag m)) ++ clientBody F R m

def encServer (m : ServerMessage G) : Bytes :=
  F.encIdx ((serverVariants strong).idxOf (serverTag m)) ++ serverBody F R m

/-- Deserialisation of the fields of a variant. -/
def decClientBody : ClientTag → Bytes → Option (ClientMessage G × Bytes)
  | .nonce, b => do
    let (n, b) ← decArray F K1 b
    some (.nonce n, b)
  | .username, b => do
    let (u, b) ← decBytes F b
    some (.username u, b)
  | .strongUsername, b => do
    let (u, b) ← decBytes F b
    let (U, b) ← decPoint R b
    some (.strongUsername u U, b)
  | .publicKey, b => do
    let (P, b) ← decPoint R b
    some (.publicKey P, b)
  | .authenticator, b => do
    let (a, b) ← decArray F 64 b
    some (.authenticator a, b)
  | .registration, b => do
    let (u, b) ← decBytes F b
    let (salt, b) ← decSalt F b
    let (ps, b) ← decParams F paramsOk b
    let (W, b) ← decPoint R b
    some (.registration u salt ps W, b)
  | .strongRegistration, b => do
    let (u, b) ← decBytes F b
    let (q, b) ← decScalar b
    let (ps, b) ← decParams F paramsOk b
    let (W, b) ← decPoint R b
    some (.strongRegistration u q ps W, b)

def decServerBody : ServerTag → Bytes → Option (ServerMessage G × Bytes)
  | .nonce, b => do
    let (n, b) ← decArray F K1 b
    some (.nonce n, b)
  | .augmentationInfo, b => do
    let (g, b) ← decStr F b
    let (X, b) ← decPoint R b
    let (salt, b) ← decSalt F b
    let (ps, b) ← decParams F paramsOk b
    some (.augmentationInfo g X salt ps, b)
  | .strongAugmentationInfo, b => do
    let (g, b) ← decStr F b
    let (X, b) ← decPoint R b
    let (Z, b) ← decPoint R b
    let (ps, b) ← decParams F paramsOk b
    some (.strongAugmentationInfo g X Z ps, b)
  | .publicKey, b => do
    let (P, b) ← decPoint R b
    some (.publicKey P, b)
  | .authenticator, b => do
    let (a, b) ← decArray F 64 b
    some (.authenticator a, b)

/-- Deserialisation; the rest of the input is returned. -/
def decClient (b : Bytes) : Option (ClientMessage G × Bytes) := do
  let (i, b) ← F.decIdx b
  let t ← (clientVariants strong)[i]?
  decClientBody F R K1 paramsOk t b

def decServer (b : Bytes) : Option (ServerMessage G × Bytes) := do
  let (i, b) ← F.decIdx b
  let t ← (serverVariants strong)[i]?
  decServerBody F R K1 paramsOk t b

/-! ## Specification: which values the Rust types can hold -/

/-- A slice of at most `2^64 - 1` bytes. -/
def Slice (x : Bytes) : Prop := x.length < 2 ^ 64

/-- A `str`. -/
def Str (x : Bytes) : Prop := Slice x ∧ utf8 x = true

/-- A `SaltString`: 4 to 64 characters of its alphabet. -/
def SaltStr (x : Bytes) : Prop := 4 ≤ x.length ∧ x.length ≤ 64 ∧ ∀ c ∈ x, c ∈ Base64.saltAlphabet

/-- A `ParamsString`. -/
def ParamsStr (paramsOk : Bytes → Bool) (x : Bytes) : Prop := Str x ∧ paramsOk x = true

/-- The values of `ClientMessage<K1>`. -/
def ClientOk : ClientMessage G → Prop
  | .nonce n => n.length = K1 ∧ Slice n
  | .username u => Slice u
  | .strongUsername u _ => Slice u
  | .publicKey _ => True
  | .authenticator a => a.length = 64
  | .registration u salt ps _ => Slice u ∧ SaltStr salt ∧ ParamsStr paramsOk ps
  | .strongRegistration u _ ps _ => Slice u ∧ ParamsStr paramsOk ps

/-- The values of `ServerMessage<K1>`. -/
def ServerOk : ServerMessage G → Prop
  | .nonce n => n.length = K1 ∧ Slice n
  | .augmentationInfo g _ salt ps => Str g ∧ SaltStr salt ∧ ParamsStr paramsOk ps
  | .strongAugmentationInfo g _ _ ps => Str g ∧ ParamsStr paramsOk ps
  | .publicKey _ => True
  | .authenticator a => a.length = 64

/-! ## Lemmas -/

theorem saltStr_iff (x : Bytes) : SaltStr x ↔ 4 ≤ x.length ∧ x.length ≤ 64 ∧ x.all Base64.isSaltChar = true := by
  simp only [SaltStr, List.all_eq_true, Base64.isSaltChar_iff]

theorem saltOk_iff (x : Bytes) : saltOk x = true ↔ SaltStr x := by
  have key : SaltStr x → utf8 x = true := by
    rintro ⟨-, -, h⟩
    apply utf8_ascii
    intro b hb
    have hall : ∀ i : Fin 256, UInt8.ofFin i ∈ Base64.saltAlphabet → i.val < 0x80 := by
      decide +kernel
    exact hall b.toFin (h b hb)
  unfold saltOk Base64.saltParse
  constructor
  · intro h
    simp only [Bool.and_eq_true] at h
    by_cases hc : 4 ≤ x.length ∧ x.length ≤ 64 ∧ x.all Base64.isSaltChar = true
    · exact (saltStr_iff x).2 hc
    · rw [if_neg hc] at h; simp at h
  · intro h
    rw [if_pos ((saltStr_iff x).1 h), key h]
    rfl

theorem SaltStr.slice {x : Bytes} (h : SaltStr x) : Slice x := by
  have := h.2.1
  unfold Slice
  omega

theorem clientVariants_get (m : ClientTag) (h : m ∈ clientVariants strong) :
    (clientVariants strong).idxOf m < 2 ^ 32 ∧
      (clientVariants strong)[(clientVariants strong).idxOf m]? = some m := by
  revert h
  cases strong <;> cases m <;> decide

theorem serverVariants_get (m : ServerTag) (h : m ∈ serverVariants strong) :
    (serverVariants strong).idxOf m < 2 ^ 32 ∧
      (serverVariants strong)[(serverVariants strong).idxOf m]? = some m := by
  revert h
  cases strong <;> cases m <;> decide

theorem clientVariants_idx (m : ClientTag) (i : Nat) (h : (clientVariants strong)[i]? = some m) :
    m ∈ clientVariants strong ∧ (clientVariants strong).idxOf m = i := by
  have hi : i < (clientVariants strong).length := by
    by_contra hn
    rw [List.getElem?_eq_none (by omega)] at h
    simp at h
  refine ⟨List.mem_of_getElem? h, ?_⟩
  cases strong
  · have : i < 5 := hi
    interval_cases i <;> (simp only [clientVariants] at h; simp at h; subst h; decide)
  · have : i < 7 := hi
    interval_cases i <;> (simp only [clientVariants] at h; simp at h; subst h; decide)

theorem serverVariants_idx (m : ServerTag) (i : Nat) (h : (serverVariants strong)[i]? = some m) :
    m ∈ serverVariants strong ∧ (serverVariants strong).idxOf m = i := by
  have hi : i < (serverVariants strong).length := by
    by_contra hn
    rw [List.getElem?_eq_none (by omega)] at h
    simp at h
  refine ⟨List.mem_of_getElem? h, ?_⟩
  cases strong
  · have : i < 4 := hi
    interval_cases i <;> (simp only [serverVariants] at h; simp at h; subst h; decide)
  · have : i < 5 := hi
    interval_cases i <;> (simp only [serverVariants] at h; simp at h; subst h; decide)

theorem decArray_enc (k : Nat) (x r : Bytes) (h : x.length = k) (hs : Slice x) :
    decArray F k (encBytes F x ++ r) = some (x, r) :=
  decChecked_encBytes F _ x r hs (by simpa using h)

theorem decSalt_enc (x r : Bytes) (h : SaltStr x) : decSalt F (encBytes F x ++ r) = some (x, r) :=
  decChecked_encBytes F _ x r h.slice ((saltOk_iff x).2 h)

theorem decParams_enc (x r : Bytes) (h : ParamsStr paramsOk x) :
    decParams F paramsOk (encBytes F x ++ r) = some (x, r) :=
  decChecked_encBytes F _ x r h.1.1 (by simp [h.1.2, h.2])

theorem decStr_enc (x r : Bytes) (h : Str x) : decStr F (encBytes F x ++ r) = some (x, r) :=
  decChecked_encBytes F _ x r h.1 h.2

theorem decClientBody_enc (m : ClientMessage G) (r : Bytes) (h : ClientOk K1 paramsOk m) :
    decClientBody F R K1 paramsOk (clientTag m) (clientBody F R m ++ r) = some (m, r) := by
  cases m with
  | nonce n =>
    simp only [clientTag, clientBody, decClientBody, decArray_enc F K1 n r h.1 h.2,
      Option.bind_eq_bind, Option.bind_some]
  | username u =>
    simp only [clientTag, clientBody, decClientBody, decBytes_encBytes F u r h,
      Option.bind_eq_bind, Option.bind_some]
  | strongUsername u U =>
    simp only [clientTag, clientBody, decClientBody, List.append_assoc, decBytes_encBytes F u _ h,
      decPoint_compress, Option.bind_eq_bind, Option.bind_some]
  | publicKey P =>
    simp only [clientTag, clientBody, decClientBody, decPoint_compress, Option.bind_eq_bind,
      Option.bind_some]
  | authenticator a =>
    have h' : a.length = 64 := h
    simp only [clientTag, clientBody, decClientBody,
      decArray_enc F 64 a r h' (by unfold Slice; omega), Option.bind_eq_bind, Option.bind_some]
  | registration u salt ps W =>
    obtain ⟨hu, hs, hp⟩ := h
    simp only [clientTag, clientBody, decClientBody, List.append_assoc, decBytes_encBytes F u _ hu,
      decSalt_enc F salt _ hs, decParams_enc F paramsOk ps _ hp, decPoint_compress,
      Option.bind_eq_bind, Option.bind_some]
  | strongRegistration u q ps W =>
    obtain ⟨hu, hp⟩ := h
    simp only [clientTag, clientBody, decClientBody, List.append_assoc, decBytes_encBytes F u _ hu,
      decScalar_encScalar, decParams_enc F paramsOk ps _ hp, decPoint_compress,
      Option.bind_eq_bind, Option.bind_some]

theorem decServerBody_enc (m : ServerMessage G) (r : Bytes) (h : ServerOk K1 paramsOk m) :
    decServerBody F R K1 paramsOk (serverTag m) (serverBody F R m ++ r) = some (m, r) := by
  cases m with
  | nonce n =>
    simp only [serverTag, serverBody, decServerBody, decArray_enc F K1 n r h.1 h.2,
      Option.bind_eq_bind, Option.bind_some]
  | augmentationInfo g X salt ps =>
    obtain ⟨hg, hs, hp⟩ := h
    simp only [serverTag, serverBody, decServerBody, List.append_assoc, decStr_enc F g _ hg,
      decSalt_enc F salt _ hs, decParams_enc F paramsOk ps _ hp, decPoint_compress,
      Option.bind_eq_bind, Option.bind_some]
  | strongAugmentationInfo g X Z ps =>
    obtain ⟨hg, hp⟩ := h
    simp only [serverTag, serverBody, decServerBody, List.append_assoc, decStr_enc F g _ hg,
      decParams_enc F paramsOk ps _ hp, decPoint_compress,
      Option.bind_eq_bind, Option.bind_some]
  | publicKey P =>
    simp only [serverTag, serverBody, decServerBody, decPoint_compress, Option.bind_eq_bind,
      Option.bind_some]
  | authenticator a =>
    have h' : a.length = 64 := h
    simp only [serverTag, serverBody, decServerBody,
      decArray_enc F 64 a r h' (by unfold Slice; omega), Option.bind_eq_bind, Option.bind_some]

/-! ## C51 -/

/-- **C51 (round trip, client messages).** In bincode and postcard (any `Format`), with or without
`strong_aucpace`, every message that exists in the build decodes to itself, whatever follows. -/
theorem C51_client (m : ClientMessage G) (r : Bytes) (hbuild : clientTag m ∈ clientVariants strong)
    (h : ClientOk K1 paramsOk m) :
    decClient F R strong K1 paramsOk (encClient F R strong m ++ r) = some (m, r) := by
  obtain ⟨hi, hget⟩ := clientVariants_get strong _ hbuild
  simp only [decClient, encClient, List.append_assoc, F.decIdx_encIdx _ _ hi, Option.bind_eq_bind,
    Option.bind_some, hget, decClientBody_enc F R K1 paramsOk m r h]

/-- **C51 (round trip, server messages).** -/
theorem C51_server (m : ServerMessage G) (r : Bytes) (hbuild : serverTag m ∈ serverVariants strong)
    (h : ServerOk K1 paramsOk m) :
    decServer F R strong K1 paramsOk (encServer F R strong m ++ r) = some (m, r) := by
  obtain ⟨hi, hget⟩ := serverVariants_get strong _ hbuild
  simp only [decServer, encServer, List.append_assoc, F.decIdx_encIdx _ _ hi, Option.bind_eq_bind,
    Option.bind_some, hget, decServerBody_enc F R K1 paramsOk m r h]

/-- Decoding several messages one after the other. -/
def decClients : Nat → Bytes → Option (List (ClientMessage G) × Bytes)
  | 0, b => some ([], b)
  | n + 1, b => do
    let (m, b) ← decClient F R strong K1 paramsOk b
    let (ms, b) ← decClients n b
    some (m :: ms, b)

/-- **C51 (streams).** A stream of serialised messages is decoded message by message. -/
theorem C51_stream (ms : List (ClientMessage G)) (r : Bytes)
    (h : ∀ m ∈ ms, clientTag m ∈ clientVariants strong ∧ ClientOk K1 paramsOk m) :
    decClients F R strong K1 paramsOk ms.length (ms.flatMap (encClient F R strong) ++ r) =
      some (ms, r) := by
  induction ms with
  | nil => rfl
  | cons m ms ih =>
    have hm := h m List.mem_cons_self
    rw [List.flatMap_cons, List.length_cons, List.append_assoc, decClients,
      C51_client F R strong K1 paramsOk m _ hm.1 hm.2]
    simp only [Option.bind_eq_bind, Option.bind_some,
      ih fun m' h' => h m' (List.mem_cons_of_mem _ h')]

/-- **C51 (only encodings are accepted, client).** With bincode, an input is accepted exactly if it starts with
the encoding of a value of the message type that exists in the build; the value is that one. -/
theorem C51_client_exact (hF : F.Canonical) (b r : Bytes) (m : ClientMessage G) :
    decClient F R strong K1 paramsOk b = some (m, r) ↔
      clientTag m ∈ clientVariants strong ∧ ClientOk K1 paramsOk m ∧
        b = encClient F R strong m ++ r := by
  constructor
  · intro h
    simp only [decClient, Option.bind_eq_bind] at h
    obtain ⟨⟨i, b1⟩, hi, h⟩ := Option.bind_eq_some_iff.1 h
    obtain ⟨t, ht, h⟩ := Option.bind_eq_some_iff.1 h
    simp only at ht h
    obtain ⟨-, rfl⟩ := hF.idx _ _ _ hi
    obtain ⟨hmem, hidx⟩ := clientVariants_idx strong t i ht
    suffices hs : clientTag m = t ∧ ClientOk K1 paramsOk m ∧ b1 = clientBody F R m ++ r by
      obtain ⟨h1, h2, h3⟩ := hs
      refine ⟨h1 ▸ hmem, h2, ?_⟩
      rw [encClient, h1, hidx, h3, List.append_assoc]
    cases t with
    | nonce =>
      simp only [decClientBody, Option.bind_eq_bind] at h
      obtain ⟨⟨n, b2⟩, h1, h⟩ := Option.bind_eq_some_iff.1 h
      simp only [Option.some.injEq, Prod.mk.injEq] at h
      obtain ⟨rfl, rfl⟩ := h
      obtain ⟨h1, h2⟩ := decChecked_ok F h1
      obtain ⟨h3, h4⟩ := decBytes_canonical F hF h1
      exact ⟨rfl, ⟨by simpa using h2, h3⟩, h4⟩
    | username =>
      simp only [decClientBody, Option.bind_eq_bind] at h
      obtain ⟨⟨n, b2⟩, h1, h⟩ := Option.bind_eq_some_iff.1 h
      simp only [Option.some.injEq, Prod.mk.injEq] at h
      obtain ⟨rfl, rfl⟩ := h
      obtain ⟨h3, h4⟩ := decBytes_canonical F hF h1
      exact ⟨rfl, h3, h4⟩
    | strongUsername =>
      simp only [decClientBody, Option.bind_eq_bind] at h
      obtain ⟨⟨n, b2⟩, h1, h⟩ := Option.bind_eq_some_iff.1 h
      obtain ⟨⟨U, b3⟩, h2, h⟩ := Option.bind_eq_some_iff.1 h
      simp only [Option.some.injEq, Prod.mk.injEq] at h h2
      obtain ⟨rfl, rfl⟩ := h
      obtain ⟨h3, h4⟩ := decBytes_canonical F hF h1
      have h5 := decPoint_eq R h2
      exact ⟨rfl, h3, by rw [h4, h5, clientBody, List.append_assoc]⟩
    | publicKey =>
      simp only [decClientBody, Option.bind_eq_bind] at h
      obtain ⟨⟨U, b3⟩, h2, h⟩ := Option.bind_eq_some_iff.1 h
      simp only [Option.some.injEq, Prod.mk.injEq] at h
      obtain ⟨rfl, rfl⟩ := h
      exact ⟨rfl, trivial, decPoint_eq R h2⟩
    | authenticator =>
      simp only [decClientBody, Option.bind_eq_bind] at h
      obtain ⟨⟨n, b2⟩, h1, h⟩ := Option.bind_eq_some_iff.1 h
      simp only [Option.some.injEq, Prod.mk.injEq] at h
      obtain ⟨rfl, rfl⟩ := h
      obtain ⟨h1, h2⟩ := decChecked_ok F h1
      obtain ⟨h3, h4⟩ := decBytes_canonical F hF h1
      exact ⟨rfl, show n.length = 64 by simpa using h2, h4⟩
    | registration =>
      simp only [decClientBody, Option.bind_eq_bind] at h
      obtain ⟨⟨u, b2⟩, h1, h⟩ := Option.bind_eq_some_iff.1 h
      obtain ⟨⟨s, b3⟩, h2, h⟩ := Option.bind_eq_some_iff.1 h
      obtain ⟨⟨ps, b4⟩, h3, h⟩ := Option.bind_eq_some_iff.1 h
      obtain ⟨⟨W, b5⟩, h4, h⟩ := Option.bind_eq_some_iff.1 h
      simp only [Option.some.injEq, Prod.mk.injEq] at h h2 h3 h4
      obtain ⟨rfl, rfl⟩ := h
      obtain ⟨hu, e1⟩ := decBytes_canonical F hF h1
      obtain ⟨h2, hs⟩ := decChecked_ok F h2
      obtain ⟨-, e2⟩ := decBytes_canonical F hF h2
      obtain ⟨h3, hp⟩ := decChecked_ok F h3
      obtain ⟨hpl, e3⟩ := decBytes_canonical F hF h3
      have e4 := decPoint_eq R h4
      simp only [Bool.and_eq_true] at hp
      refine ⟨rfl, ⟨hu, (saltOk_iff s).1 hs, ⟨⟨hpl, hp.1⟩, hp.2⟩⟩, ?_⟩
      rw [e1, e2, e3, e4, clientBody]
      simp only [List.append_assoc]
    | strongRegistration =>
      simp only [decClientBody, Option.bind_eq_bind] at h
      obtain ⟨⟨u, b2⟩, h1, h⟩ := Option.bind_eq_some_iff.1 h
      obtain ⟨⟨q, b3⟩, h2, h⟩ := Option.bind_eq_some_iff.1 h
      obtain ⟨⟨ps, b4⟩, h3, h⟩ := Option.bind_eq_some_iff.1 h
      obtain ⟨⟨W, b5⟩, h4, h⟩ := Option.bind_eq_some_iff.1 h
      simp only [Option.some.injEq, Prod.mk.injEq] at h h2 h3 h4
      obtain ⟨rfl, rfl⟩ := h
      obtain ⟨hu, e1⟩ := decBytes_canonical F hF h1
      have e2 := decScalar_eq h2
      obtain ⟨h3, hp⟩ := decChecked_ok F h3
      obtain ⟨hpl, e3⟩ := decBytes_canonical F hF h3
      have e4 := decPoint_eq R h4
      simp only [Bool.and_eq_true] at hp
      refine ⟨rfl, ⟨hu, ⟨⟨hpl, hp.1⟩, hp.2⟩⟩, ?_⟩
      rw [e1, e2, e3, e4, clientBody]
      simp only [List.append_assoc]
  · rintro ⟨h1, h2, rfl⟩
    exact C51_client F R strong K1 paramsOk m r h1 h2

/-- **C51 (only encodings are accepted, server).** -/
theorem C51_server_exact (hF : F.Canonical) (b r : Bytes) (m : ServerMessage G) :
    decServer F R strong K1 paramsOk b = some (m, r) ↔
      serverTag m ∈ serverVariants strong ∧ ServerOk K1 paramsOk m ∧
        b = encServer F R strong m ++ r := by
  constructor
  · intro h
    simp only [decServer, Option.bind_eq_bind] at h
    obtain ⟨⟨i, b1⟩, hi, h⟩ := Option.bind_eq_some_iff.1 h
    obtain ⟨t, ht, h⟩ := Option.bind_eq_some_iff.1 h
    simp only at ht h
    obtain ⟨-, rfl⟩ := hF.idx _ _ _ hi
    obtain ⟨hmem, hidx⟩ := serverVariants_idx strong t i ht
    suffices hs : serverTag m = t ∧ ServerOk K1 paramsOk m ∧ b1 = serverBody F R m ++ r by
      obtain ⟨h1, h2, h3⟩ := hs
      refine ⟨h1 ▸ hmem, h2, ?_⟩
      rw [encServer, h1, hidx, h3, List.append_assoc]
    cases t with
    | nonce =>
      simp only [decServerBody, Option.bind_eq_bind] at h
      obtain ⟨⟨n, b2⟩, h1, h⟩ := Option.bind_eq_some_iff.1 h
      simp only [Option.some.injEq, Prod.mk.injEq] at h
      obtain ⟨rfl, rfl⟩ := h
      obtain ⟨h1, h2⟩ := decChecked_ok F h1
      obtain ⟨h3, h4⟩ := decBytes_canonical F hF h1
      exact ⟨rfl, ⟨by simpa using h2, h3⟩, h4⟩
    | augmentationInfo =>
      simp only [decServerBody, Option.bind_eq_bind] at h
      obtain ⟨⟨g, b2⟩, h1, h⟩ := Option.bind_eq_some_iff.1 h
      obtain ⟨⟨X, b3⟩, h2, h⟩ := Option.bind_eq_some_iff.1 h
      obtain ⟨⟨s, b4⟩, h3, h⟩ := Option.bind_eq_some_iff.1 h
      obtain ⟨⟨ps, b5⟩, h4, h⟩ := Option.bind_eq_some_iff.1 h
      simp only [Option.some.injEq, Prod.mk.injEq] at h h2 h3 h4
      obtain ⟨rfl, rfl⟩ := h
      obtain ⟨h1, hg⟩ := decChecked_ok F h1
      obtain ⟨hgl, e1⟩ := decBytes_canonical F hF h1
      have e2 := decPoint_eq R h2
      obtain ⟨h3, hs⟩ := decChecked_ok F h3
      obtain ⟨-, e3⟩ := decBytes_canonical F hF h3
      obtain ⟨h4, hp⟩ := decChecked_ok F h4
      obtain ⟨hpl, e4⟩ := decBytes_canonical F hF h4
      simp only [Bool.and_eq_true] at hp
      refine ⟨rfl, ⟨⟨hgl, hg⟩, (saltOk_iff s).1 hs, ⟨⟨hpl, hp.1⟩, hp.2⟩⟩, ?_⟩
      rw [e1, e2, e3, e4, serverBody]
      simp only [List.append_assoc]
    | strongAugmentationInfo =>
      simp only [decServerBody, Option.bind_eq_bind] at h
      obtain ⟨⟨g, b2⟩, h1, h⟩ := Option.bind_eq_some_iff.1 h
      obtain ⟨⟨X, b3⟩, h2, h⟩ := Option.bind_eq_some_iff.1 h
      obtain ⟨⟨Z, b4⟩, h3, h⟩ := Option.bind_eq_some_iff.1 h
      obtain ⟨⟨ps, b5⟩, h4, h⟩ := Option.bind_eq_some_iff.1 h
      simp only [Option.some.injEq, Prod.mk.injEq] at h h2 h3 h4
      obtain ⟨rfl, rfl⟩ := h
      obtain ⟨h1, hg⟩ := decChecked_ok F h1
      obtain ⟨hgl, e1⟩ := decBytes_canonical F hF h1
      have e2 := decPoint_eq R h2
      have e3 := decPoint_eq R h3
      obtain ⟨h4, hp⟩ := decChecked_ok F h4
      obtain ⟨hpl, e4⟩ := decBytes_canonical F hF h4
      simp only [Bool.and_eq_true] at hp
      refine ⟨rfl, ⟨⟨hgl, hg⟩, ⟨⟨hpl, hp.1⟩, hp.2⟩⟩, ?_⟩
      rw [e1, e2, e3, e4, serverBody]
      simp only [List.append_assoc]
    | publicKey =>
      simp only [decServerBody, Option.bind_eq_bind] at h
      obtain ⟨⟨U, b3⟩, h2, h⟩ := Option.bind_eq_some_iff.1 h
      simp only [Option.some.injEq, Prod.mk.injEq] at h
      obtain ⟨rfl, rfl⟩ := h
      exact ⟨rfl, trivial, decPoint_eq R h2⟩
    | authenticator =>
      simp only [decServerBody, Option.bind_eq_bind] at h
      obtain ⟨⟨n, b2⟩, h1, h⟩ := Option.bind_eq_some_iff.1 h
      simp only [Option.some.injEq, Prod.mk.injEq] at h
      obtain ⟨rfl, rfl⟩ := h
      obtain ⟨h1, h2⟩ := decChecked_ok F h1
      obtain ⟨h3, h4⟩ := decBytes_canonical F hF h1
      exact ⟨rfl, show n.length = 64 by simpa using h2, h4⟩
  · rintro ⟨h1, h2, rfl⟩
    exact C51_server F R strong K1 paramsOk m r h1 h2

/-- **C51 (messages of the crate, bincode).** Two messages with the same serialisation are equal: the receiver
never mistakes one message for another. -/
theorem C51_injective (m m' : ClientMessage G) (r r' : Bytes)
    (hb : clientTag m ∈ clientVariants strong) (hb' : clientTag m' ∈ clientVariants strong)
    (h : ClientOk K1 paramsOk m) (h' : ClientOk K1 paramsOk m')
    (e : encClient F R strong m ++ r = encClient F R strong m' ++ r') : m = m' ∧ r = r' := by
  have h1 := C51_client F R strong K1 paramsOk m r hb h
  rw [e, C51_client F R strong K1 paramsOk m' r' hb' h'] at h1
  simp only [Option.some.injEq, Prod.mk.injEq] at h1
  exact ⟨h1.1.symm, h1.2.symm⟩

/-- Decoding several server messages one after the other. -/
def decServers : Nat → Bytes → Option (List (ServerMessage G) × Bytes)
  | 0, b => some ([], b)
  | n + 1, b => do
    let (m, b) ← decServer F R strong K1 paramsOk b
    let (ms, b) ← decServers n b
    some (m :: ms, b)

/-- **C51 (streams, server).** -/
theorem C51_server_stream (ms : List (ServerMessage G)) (r : Bytes)
    (h : ∀ m ∈ ms, serverTag m ∈ serverVariants strong ∧ ServerOk K1 paramsOk m) :
    decServers F R strong K1 paramsOk ms.length (ms.flatMap (encServer F R strong) ++ r) =
      some (ms, r) := by
  induction ms with
  | nil => rfl
  | cons m ms ih =>
    have hm := h m List.mem_cons_self
    rw [List.flatMap_cons, List.length_cons, List.append_assoc, decServers,
      C51_server F R strong K1 paramsOk m _ hm.1 hm.2]
    simp only [Option.bind_eq_bind, Option.bind_some,
      ih fun m' h' => h m' (List.mem_cons_of_mem _ h')]

/-- **C51 (injective, server messages).** -/
theorem C51_server_injective (m m' : ServerMessage G) (r r' : Bytes)
    (hb : serverTag m ∈ serverVariants strong) (hb' : serverTag m' ∈ serverVariants strong)
    (h : ServerOk K1 paramsOk m) (h' : ServerOk K1 paramsOk m')
    (e : encServer F R strong m ++ r = encServer F R strong m' ++ r') : m = m' ∧ r = r' := by
  have h1 := C51_server F R strong K1 paramsOk m r hb h
  rw [e, C51_server F R strong K1 paramsOk m' r' hb' h'] at h1
  simp only [Option.some.injEq, Prod.mk.injEq] at h1
  exact ⟨h1.1.symm, h1.2.symm⟩

/-- **C51 (layout, bincode, client messages).** A four-byte little-endian number for the variant, counted in source order
over the variants of the build, then the fields in source order; byte strings with an eight-byte little-endian length,
points and scalars as 32 bytes. -/
theorem C51_layout_client (n u t salt ps : Bytes) (U Y W : G) (q : Scalar) :
    let L : Bytes → Bytes := fun b => leFixed 8 b.length ++ b
    (∀ s, encClient bincode R s (.nonce n) = [0, 0, 0, 0] ++ L n) ∧
    (∀ s, encClient bincode R s (.username u) = [1, 0, 0, 0] ++ L u) ∧
    encClient bincode R true (.strongUsername u U) = [2, 0, 0, 0] ++ L u ++ R.compress U ∧
    (∀ s, encClient bincode R s (.publicKey Y) = [if s then 3 else 2, 0, 0, 0] ++ R.compress Y) ∧
    (∀ s, encClient bincode R s (.authenticator t : ClientMessage G) = [if s then 4 else 3, 0, 0, 0] ++ L t) ∧
    (∀ s, encClient bincode R s (.registration u salt ps W) =
      [if s then 5 else 4, 0, 0, 0] ++ L u ++ L salt ++ L ps ++ R.compress W) ∧
    encClient bincode R true (.strongRegistration u q ps W) =
      [6, 0, 0, 0] ++ L u ++ leFixed 32 q.val ++ L ps ++ R.compress W := by
  refine ⟨fun s => ?_, fun s => ?_, ?_, fun s => ?_, fun s => ?_, fun s => ?_, ?_⟩ <;> (try cases s) <;>
    simp only [encClient, clientBody, encBytes, bincode, encScalar, List.append_assoc, clientTag] <;>
    exact congrArg (· ++ _) (by decide)

/-- **C51 (layout, bincode, server messages).** -/
theorem C51_layout_server (n g t salt ps : Bytes) (X Z Y : G) :
    let L : Bytes → Bytes := fun b => leFixed 8 b.length ++ b
    (∀ s, encServer bincode R s (.nonce n) = [0, 0, 0, 0] ++ L n) ∧
    (∀ s, encServer bincode R s (.augmentationInfo g X salt ps) =
      [1, 0, 0, 0] ++ L g ++ R.compress X ++ L salt ++ L ps) ∧
    encServer bincode R true (.strongAugmentationInfo g X Z ps) =
      [2, 0, 0, 0] ++ L g ++ R.compress X ++ R.compress Z ++ L ps ∧
    (∀ s, encServer bincode R s (.publicKey Y) = [if s then 3 else 2, 0, 0, 0] ++ R.compress Y) ∧
    (∀ s, encServer bincode R s (.authenticator t : ServerMessage G) = [if s then 4 else 3, 0, 0, 0] ++ L t) := by
  refine ⟨fun s => ?_, fun s => ?_, ?_, fun s => ?_, fun s => ?_⟩ <;> (try cases s) <;>
    simp only [encServer, serverBody, encBytes, bincode, List.append_assoc, serverTag] <;>
    exact congrArg (· ++ _) (by decide)

/-- **C51 (text fields).** A length-prefixed byte string is accepted as text exactly if it is the UTF-8 encoding of a
sequence of Unicode scalar values. -/
theorem C51_text (F : Format) (x r : Bytes) (h : Slice x) :
    decStr F (encBytes F x ++ r) = some (x, r) ↔ ∃ l : List Char, x = l.flatMap String.utf8EncodeChar := by
  rw [← utf8_iff]
  unfold decStr decChecked
  rw [decBytes_encBytes F x r h]
  cases hu : utf8 x <;> simp [hu]

/-! ## C52 -/

/-- **C52 (what interoperates).** Nonce and user name (client), nonce and augmentation info (server) are read
correctly by a build with the other feature set. The remaining messages do not, see the negations. -/
theorem C52_partial (s s' : Bool) (r : Bytes) :
    (∀ m : ClientMessage G, (clientTag m = .nonce ∨ clientTag m = .username) →
      ClientOk K1 paramsOk m →
      decClient F R s' K1 paramsOk (encClient F R s m ++ r) = some (m, r)) ∧
    (∀ m : ServerMessage G, (serverTag m = .nonce ∨ serverTag m = .augmentationInfo) →
      ServerOk K1 paramsOk m →
      decServer F R s' K1 paramsOk (encServer F R s m ++ r) = some (m, r)) := by
  constructor
  · intro m ht h
    have e : encClient F R s m = encClient F R s' m := by
      rcases ht with ht | ht <;> cases s <;> cases s' <;> simp only [encClient, ht] <;> rfl
    have hb : clientTag m ∈ clientVariants s' := by
      rcases ht with ht | ht <;> cases s' <;> rw [ht] <;> decide
    rw [e]
    exact C51_client F R s' K1 paramsOk m r hb h
  · intro m ht h
    have e : encServer F R s m = encServer F R s' m := by
      rcases ht with ht | ht <;> cases s <;> cases s' <;> simp only [encServer, ht] <;> rfl
    have hb : serverTag m ∈ serverVariants s' := by
      rcases ht with ht | ht <;> cases s' <;> rw [ht] <;> decide
    rw [e]
    exact C51_server F R s' K1 paramsOk m r hb h

/-- The decoded variant is the one the number stands for in the receiving build. -/
theorem decClient_tag (s : Bool) (i : Nat) (hi : i < 2 ^ 32) (b r : Bytes) (m : ClientMessage G)
    (h : decClient F R s K1 paramsOk (F.encIdx i ++ b) = some (m, r)) :
    (clientVariants s)[i]? = some (clientTag m) := by
  simp only [decClient, F.decIdx_encIdx i b hi, Option.bind_eq_bind, Option.bind_some] at h
  obtain ⟨t, ht, h⟩ := Option.bind_eq_some_iff.1 h
  rw [ht]
  congr 1
  cases t <;> simp only [decClientBody, Option.bind_eq_bind] at h
  · obtain ⟨_, -, h⟩ := Option.bind_eq_some_iff.1 h
    simp only [Option.some.injEq, Prod.mk.injEq] at h; rw [← h.1]; rfl
  · obtain ⟨_, -, h⟩ := Option.bind_eq_some_iff.1 h
    simp only [Option.some.injEq, Prod.mk.injEq] at h; rw [← h.1]; rfl
  · obtain ⟨_, -, h⟩ := Option.bind_eq_some_iff.1 h
    obtain ⟨_, -, h⟩ := Option.bind_eq_some_iff.1 h
    simp only [Option.some.injEq, Prod.mk.injEq] at h; rw [← h.1]; rfl
  · obtain ⟨_, -, h⟩ := Option.bind_eq_some_iff.1 h
    simp only [Option.some.injEq, Prod.mk.injEq] at h; rw [← h.1]; rfl
  · obtain ⟨_, -, h⟩ := Option.bind_eq_some_iff.1 h
    simp only [Option.some.injEq, Prod.mk.injEq] at h; rw [← h.1]; rfl
  · obtain ⟨_, -, h⟩ := Option.bind_eq_some_iff.1 h
    obtain ⟨_, -, h⟩ := Option.bind_eq_some_iff.1 h
    obtain ⟨_, -, h⟩ := Option.bind_eq_some_iff.1 h
    obtain ⟨_, -, h⟩ := Option.bind_eq_some_iff.1 h
    simp only [Option.some.injEq, Prod.mk.injEq] at h; rw [← h.1]; rfl
  · obtain ⟨_, -, h⟩ := Option.bind_eq_some_iff.1 h
    obtain ⟨_, -, h⟩ := Option.bind_eq_some_iff.1 h
    obtain ⟨_, -, h⟩ := Option.bind_eq_some_iff.1 h
    obtain ⟨_, -, h⟩ := Option.bind_eq_some_iff.1 h
    simp only [Option.some.injEq, Prod.mk.injEq] at h; rw [← h.1]; rfl

theorem decServer_tag (s : Bool) (i : Nat) (hi : i < 2 ^ 32) (b r : Bytes) (m : ServerMessage G)
    (h : decServer F R s K1 paramsOk (F.encIdx i ++ b) = some (m, r)) :
    (serverVariants s)[i]? = some (serverTag m) := by
  simp only [decServer, F.decIdx_encIdx i b hi, Option.bind_eq_bind, Option.bind_some] at h
  obtain ⟨t, ht, h⟩ := Option.bind_eq_some_iff.1 h
  rw [ht]
  congr 1
  cases t <;> simp only [decServerBody, Option.bind_eq_bind] at h
  · obtain ⟨_, -, h⟩ := Option.bind_eq_some_iff.1 h
    simp only [Option.some.injEq, Prod.mk.injEq] at h; rw [← h.1]; rfl
  · obtain ⟨_, -, h⟩ := Option.bind_eq_some_iff.1 h
    obtain ⟨_, -, h⟩ := Option.bind_eq_some_iff.1 h
    obtain ⟨_, -, h⟩ := Option.bind_eq_some_iff.1 h
    obtain ⟨_, -, h⟩ := Option.bind_eq_some_iff.1 h
    simp only [Option.some.injEq, Prod.mk.injEq] at h; rw [← h.1]; rfl
  · obtain ⟨_, -, h⟩ := Option.bind_eq_some_iff.1 h
    obtain ⟨_, -, h⟩ := Option.bind_eq_some_iff.1 h
    obtain ⟨_, -, h⟩ := Option.bind_eq_some_iff.1 h
    obtain ⟨_, -, h⟩ := Option.bind_eq_some_iff.1 h
    simp only [Option.some.injEq, Prod.mk.injEq] at h; rw [← h.1]; rfl
  · obtain ⟨_, -, h⟩ := Option.bind_eq_some_iff.1 h
    simp only [Option.some.injEq, Prod.mk.injEq] at h; rw [← h.1]; rfl
  · obtain ⟨_, -, h⟩ := Option.bind_eq_some_iff.1 h
    simp only [Option.some.injEq, Prod.mk.injEq] at h; rw [← h.1]; rfl

/-- **C52 (negation).** Builds with and without `strong_aucpace` never agree on a public key, an authenticator
or a registration, in any of the formats: no such message decodes to itself (or to any message of the
same kind) on the other side. So no login between such peers can complete. -/
theorem C52_client_negation (s : Bool) (m m' : ClientMessage G) (r r' : Bytes)
    (ht : clientTag m = .publicKey ∨ clientTag m = .authenticator ∨ clientTag m = .registration)
    (h : decClient F R (!s) K1 paramsOk (encClient F R s m ++ r) = some (m', r')) :
    clientTag m' ≠ clientTag m := by
  have hlt : (clientVariants s).idxOf (clientTag m) < 2 ^ 32 := by
    rcases ht with ht | ht | ht <;> cases s <;> rw [ht] <;> decide
  rw [encClient, List.append_assoc] at h
  have := decClient_tag F R K1 paramsOk (!s) _ hlt _ _ _ h
  rcases ht with ht | ht | ht <;> rw [ht] at this ⊢ <;> intro e <;> rw [e] at this <;>
    revert this <;> cases s <;> decide

theorem C52_server_negation (s : Bool) (m m' : ServerMessage G) (r r' : Bytes)
    (ht : serverTag m = .publicKey ∨ serverTag m = .authenticator)
    (h : decServer F R (!s) K1 paramsOk (encServer F R s m ++ r) = some (m', r')) :
    serverTag m' ≠ serverTag m := by
  have hlt : (serverVariants s).idxOf (serverTag m) < 2 ^ 32 := by
    rcases ht with ht | ht <;> cases s <;> rw [ht] <;> decide
  rw [encServer, List.append_assoc] at h
  have := decServer_tag F R K1 paramsOk (!s) _ hlt _ _ _ h
  rcases ht with ht | ht <;> rw [ht] at this ⊢ <;> intro e <;> rw [e] at this <;>
    revert this <;> cases s <;> decide

/-- **C52 (negation, confusion).** A registration from a build without `strong_aucpace` whose user name has 64
bytes is read by a build with it as an *authenticator* consisting of the user name. -/
theorem C52_confusion_negation (u salt ps : Bytes) (W : G) (r : Bytes) (hu : u.length = 64) :
    ∃ r', decClient F R true K1 paramsOk
      (encClient F R false (.registration u salt ps W) ++ r) = some (.authenticator u, r') := by
  refine ⟨encBytes F salt ++ (encBytes F ps ++ (R.compress W ++ r)), ?_⟩
  have hi : (clientVariants false).idxOf (clientTag (.registration u salt ps W : ClientMessage G)) =
      4 := rfl
  rw [encClient, hi]
  simp only [List.append_assoc, decClient, F.decIdx_encIdx 4 _ (by norm_num), Option.bind_eq_bind,
    Option.bind_some, clientBody]
  rw [show (clientVariants true)[4]? = some .authenticator from by decide]
  simp only [Option.bind_some, decClientBody, decArray_enc F 64 u _ hu (by unfold Slice; omega),
    Option.bind_eq_bind]

end

/-- The hypotheses are met: messages of the concrete world, in both formats. -/
example : (decClient bincode Ristretto.toy true 16 (fun _ => true)
    (encClient bincode Ristretto.toy true (.strongUsername World.user 5) ++ [1, 2])).map Prod.snd =
    some [1, 2] := by
  rw [C51_client]
  · rfl
  · decide
  · show Slice World.user
    unfold Slice
    decide +kernel

example : encClient bincode Ristretto.toy false (.nonce (World.bytes 3 16)) =
    [0, 0, 0, 0, 16, 0, 0, 0, 0, 0, 0, 0] ++ World.bytes 3 16 := by decide +kernel

example : encServer postcard Ristretto.toy true (.authenticator (World.bytes 3 64)) =
    [4, 64] ++ World.bytes 3 64 := by decide +kernel

/-- A salt of the crate, the group name and a scrypt parameter string are values of their types. -/
example : SaltStr (Base64.encode (World.bytes 7 16)) ∧ Str groupName ∧
    Str (ascii "ln=17,r=8,p=1") := by
  refine ⟨⟨?_, ?_, ?_⟩, ⟨?_, ?_⟩, ?_, ?_⟩ <;> (try unfold Slice) <;> decide +kernel

/-- Not every string is accepted as a point, a scalar or a salt. -/
example : decScalar (leFixed 32 ell) = none ∧ decSalt bincode (encBytes bincode (ascii "abc")) = none ∧
    decPoint Ristretto.toy (leFixed 32 ell) = none ∧ utf8 [0xC0, 0x80] = false := by
  decide +kernel

end Verif.Aucpace.Wire
