import Verif.Basic.Sha

/-!
# scrypt

The hash function of the default client (`/repo/aucpace/src/lib.rs:115-117`): scrypt 0.11.0 with salsa20 0.10.2 and
pbkdf2 0.12.2. The crates are not part of the repository and their sources were not at hand: the definitions are written from
knowledge of them, listed as an assumption in DESIGN.md, and checked against the vectors of RFC 7914.

Simplified: the buffers are lists of 64-byte blocks (every access is to whole blocks); the vector `v` is a list of
buffers. Sizes are not checked; for the sizes that `scrypt` uses no index is out of range.
-/

namespace Verif.Scrypt
open Verif.Sha (strictList rotl32)

/-! ## salsa20 -/

/-- Set word `b` to itself xor the rotated sum of the words `a` and `d`. -/
def step (b a d n : Nat) (st : List Nat) : List Nat :=
  strict (st.getD b 0 ^^^ rotl32 n ((st.getD a 0 + st.getD d 0) % 2 ^ 32)) fun x => st.set b x

/-- `quarter_round(a, b, c, d, state)`, in place. -/
def quarterRound (a b c d : Nat) (st : List Nat) : List Nat :=
  step a d c 18 (step d c b 13 (step c b a 9 (step b a d 7 st)))

/-- One iteration of the loop of `run_rounds`. -/
def doubleRound (st : List Nat) : List Nat :=
  let st := quarterRound 0 4 8 12 st
  let st := quarterRound 5 9 13 1 st
  let st := quarterRound 10 14 2 6 st
  let st := quarterRound 15 3 7 11 st
  let st := quarterRound 0 1 2 3 st
  let st := quarterRound 5 6 7 4 st
  let st := quarterRound 10 11 8 9 st
  quarterRound 15 12 13 14 st

/-- Little-endian words of a block. -/
def words : Nat → Bytes → List Nat
  | 0, _ => []
  | n + 1, b => leToNat (b.take 4) :: words n (b.drop 4)

/-- `SalsaCore::<U4>::from_raw_state(block).write_keystream_block(..)`: four iterations, then the state is added. -/
def salsa (block : Bytes) : Bytes :=
  strictList (words 16 block) fun st =>
  let res := doubleRound (doubleRound (doubleRound (doubleRound st)))
  strictList (Sha.addWords 32 res st) fun out => out.flatMap (leFixed 4)

/-! ## romix.rs -/

/-- `xor(x, y, output)`. -/
def xor (x y : Bytes) : Bytes := List.zipWith (· ^^^ ·) x y

/-- The loop of `scrypt_block_mix`: `i` is the index of the next chunk, `half` half the number of chunks. -/
def blockMixLoop (half : Nat) : Nat → List Bytes → Bytes → List Bytes → List Bytes
  | _, [], _, output => output
  | i, chunk :: chunks, x, output =>
    let x := salsa (xor x chunk)
    blockMixLoop half (i + 1) chunks x (output.set (if i % 2 = 0 then i / 2 else i / 2 + half) x)

/-- `scrypt_block_mix(input, output)`: the new content of `output`. -/
def blockMix (input output : List Bytes) : List Bytes :=
  blockMixLoop (input.length / 2) 0 input (input.getD (input.length - 1) []) output

/-- `integerify(x, n)`: four bytes of the last block, masked. -/
def integerify (x : List Bytes) (n : Nat) : Nat := leToNat ((x.getD (x.length - 1) []).take 4) &&& (n - 1)

/-- The first loop of `scrypt_ro_mix`: one chunk of `v` after the other gets a copy of `b`, and `b` is mixed. -/
def fill : Nat → List Bytes → List (List Bytes) × List Bytes
  | 0, b => ([], b)
  | k + 1, b => let (v, b') := fill k (blockMix b b); (b :: v, b')

/-- The second loop of `scrypt_ro_mix`. -/
def mix (v : List (List Bytes)) (n : Nat) : Nat → List Bytes → List Bytes
  | 0, b => b
  | k + 1, b => mix v n k (blockMix (List.zipWith xor b (v.getD (integerify b n) [])) b)

/-- `scrypt_ro_mix(b, v, t, n)`: the new content of `b`. -/
def roMix (b : List Bytes) (n : Nat) : List Bytes :=
  let (v, b) := fill n b
  mix v n n b

/-! ## lib.rs -/

/-- `pbkdf2_hmac::<Sha256>(password, salt, 1, out)` for `cnt` blocks, the first with index `i`. -/
def pbkdf2Blocks (password salt : Bytes) : Nat → Nat → Bytes
  | 0, _ => []
  | cnt + 1, i => hmac sha256 64 password (salt ++ beFixed 4 i) ++ pbkdf2Blocks password salt cnt (i + 1)

/-- `pbkdf2_hmac::<Sha256>(password, salt, 1, out)` where `out` has `len` bytes. -/
def pbkdf2 (password salt : Bytes) (len : Nat) : Bytes := (pbkdf2Blocks password salt ((len + 31) / 32) 1).take len

/-- The blocks of a string. -/
def blocks : Nat → Bytes → List Bytes
  | 0, _ => []
  | n + 1, b => b.take 64 :: blocks n (b.drop 64)

/-- `for chunk in &mut b.chunks_mut(r128) { scrypt_ro_mix(chunk, ..) }` for `p` chunks. -/
def roMixChunks (r n : Nat) : Nat → Bytes → Bytes
  | 0, _ => []
  | p + 1, b => (roMix (blocks (2 * r) (b.take (128 * r))) n).flatten ++ roMixChunks r n p (b.drop (128 * r))

/-- `scrypt(password, salt, params, output)` where `output` has `len` bytes, between 10 and 64, so that its length check
passes. -/
def scrypt (password salt : Bytes) (logN r p len : Nat) : Bytes :=
  let b := pbkdf2 password salt (p * (128 * r))
  let b := roMixChunks r (1 <<< logN) p b
  pbkdf2 password b len

/-- `Params::new(log_n, r, p, len).is_ok()`, `usize` has 64 bits. -/
def paramsNew (logN r p len : Nat) : Bool :=
  decide (0 < r ∧ 0 < p ∧ logN < 64 ∧ 10 ≤ len ∧ len ≤ 64 ∧ r * 128 < 2 ^ 64 ∧ r * 128 * 2 ^ logN < 2 ^ 64 ∧
    r * 128 * p < 2 ^ 64 ∧ logN < r * 16 ∧ r * p < 0x40000000)

end Verif.Scrypt
