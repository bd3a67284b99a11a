import Verif.Basic.Digest
import Verif.Basic.PowMod

/-!
# SHA-1, SHA-256, SHA-512, HMAC and HKDF (FIPS 180-4, RFC 2104, RFC 5869)

Executable definitions on natural numbers, used to instantiate the abstract `Digest` and to check
the models against the test vectors in `/repo`. Words are natural numbers below `2^32` or `2^64`;
`strict` only controls evaluation order in the kernel.
-/

namespace Verif.Sha

/-- Rotate right of a `w`-bit word. -/
def rotr (w n x : Nat) : Nat := (x >>> n) ||| ((x <<< (w - n)) % 2 ^ w)

/-- Parameters of a SHA-2 function (FIPS 180-4 sections 4.1.2, 4.1.3). -/
structure Params where
  w : Nat
  S0 : Nat × Nat × Nat
  S1 : Nat × Nat × Nat
  s0 : Nat × Nat × Nat
  s1 : Nat × Nat × Nat
  K : List Nat
  H : List Nat

def bigSigma (w : Nat) (r : Nat × Nat × Nat) (x : Nat) : Nat :=
  rotr w r.1 x ^^^ rotr w r.2.1 x ^^^ rotr w r.2.2 x

def smallSigma (w : Nat) (r : Nat × Nat × Nat) (x : Nat) : Nat :=
  rotr w r.1 x ^^^ rotr w r.2.1 x ^^^ (x >>> r.2.2)

def ch (w x y z : Nat) : Nat := (x &&& y) ^^^ ((x ^^^ (2 ^ w - 1)) &&& z)

def maj (x y z : Nat) : Nat := (x &&& y) ^^^ (x &&& z) ^^^ (y &&& z)

/-- The rounds, driven by the list of round constants; `ws` is the window of the next sixteen
message-schedule words. -/
def rounds (P : Params) : List Nat → List Nat → Nat → Nat → Nat → Nat → Nat → Nat → Nat → Nat →
    List Nat
  | [], _, a, b, c, d, e, f, g, h => [a, b, c, d, e, f, g, h]
  | k :: ks, ws, a, b, c, d, e, f, g, h =>
    strict ((h + bigSigma P.w P.S1 e + ch P.w e f g + k + ws.getD 0 0) % 2 ^ P.w) fun t1 =>
    strict ((t1 + bigSigma P.w P.S0 a + maj a b c) % 2 ^ P.w) fun a' =>
    strict ((d + t1) % 2 ^ P.w) fun e' =>
    strict ((smallSigma P.w P.s1 (ws.getD 14 0) + ws.getD 9 0 + smallSigma P.w P.s0 (ws.getD 1 0)
      + ws.getD 0 0) % 2 ^ P.w) fun w' =>
    rounds P ks (ws.drop 1 ++ [w']) a' a b c e' e f g

/-- Split a block into big-endian words of `n` bytes. -/
def toWords (n : Nat) : Nat → Bytes → List Nat
  | 0, _ => []
  | cnt + 1, bs => beToNat (bs.take n) :: toWords n cnt (bs.drop n)

/-- Evaluate all elements of a list of numbers. -/
def strictList {α : Type} : List Nat → (List Nat → α) → α
  | [], f => f []
  | x :: xs, f => strict x fun x' => strictList xs fun xs' => f (x' :: xs')

def addWords (w : Nat) : List Nat → List Nat → List Nat
  | x :: xs, y :: ys => (x + y) % 2 ^ w :: addWords w xs ys
  | _, _ => []

/-- Compression function. -/
def compress (P : Params) (H : List Nat) (block : Bytes) : List Nat :=
  strictList (toWords (P.w / 8) 16 block) fun ws =>
  addWords P.w H (rounds P P.K ws (H.getD 0 0) (H.getD 1 0) (H.getD 2 0) (H.getD 3 0)
    (H.getD 4 0) (H.getD 5 0) (H.getD 6 0) (H.getD 7 0))

/-- Iterate a compression function over the blocks. -/
def iterate (f : List Nat → Bytes → List Nat) (blk : Nat) : Nat → List Nat → Bytes → List Nat
  | 0, H, _ => H
  | n + 1, H, bs => strictList (f H (bs.take blk)) fun H' => iterate f blk n H' (bs.drop blk)

/-- Padding: `0x80`, zeros, and the bit length in `lenBytes` bytes, to a multiple of `blk`. -/
def pad (blk lenBytes : Nat) (m : Bytes) : Bytes :=
  let z := (blk - (m.length + 1 + lenBytes) % blk) % blk
  m ++ [0x80] ++ List.replicate z 0 ++ beFixed lenBytes (8 * m.length)

/-- Output of `n` big-endian words of `wb` bytes each. -/
def output (wb : Nat) : Nat → List Nat → Bytes
  | 0, _ => []
  | n + 1, H => beFixed wb (H.getD 0 0) ++ output wb n (H.drop 1)

theorem output_length (wb n : Nat) (H : List Nat) : (output wb n H).length = n * wb := by
  induction n generalizing H with
  | zero => simp [output]
  | succ n ih => simp [output, ih, Nat.succ_mul, Nat.add_comm]

def P256 : Params where
  w := 32
  S0 := (2, 13, 22)
  S1 := (6, 11, 25)
  s0 := (7, 18, 3)
  s1 := (17, 19, 10)
  K := [
    0x428a2f98, 0x71374491, 0xb5c0fbcf, 0xe9b5dba5, 0x3956c25b, 0x59f111f1,
    0x923f82a4, 0xab1c5ed5, 0xd807aa98, 0x12835b01, 0x243185be, 0x550c7dc3,
    0x72be5d74, 0x80deb1fe, 0x9bdc06a7, 0xc19bf174, 0xe49b69c1, 0xefbe4786,
    0x0fc19dc6, 0x240ca1cc, 0x2de92c6f, 0x4a7484aa, 0x5cb0a9dc, 0x76f988da,
    0x983e5152, 0xa831c66d, 0xb00327c8, 0xbf597fc7, 0xc6e00bf3, 0xd5a79147,
    0x06ca6351, 0x14292967, 0x27b70a85, 0x2e1b2138, 0x4d2c6dfc, 0x53380d13,
    0x650a7354, 0x766a0abb, 0x81c2c92e, 0x92722c85, 0xa2bfe8a1, 0xa81a664b,
    0xc24b8b70, 0xc76c51a3, 0xd192e819, 0xd6990624, 0xf40e3585, 0x106aa070,
    0x19a4c116, 0x1e376c08, 0x2748774c, 0x34b0bcb5, 0x391c0cb3, 0x4ed8aa4a,
    0x5b9cca4f, 0x682e6ff3, 0x748f82ee, 0x78a5636f, 0x84c87814, 0x8cc70208,
    0x90befffa, 0xa4506ceb, 0xbef9a3f7, 0xc67178f2]
  H := [
    0x6a09e667, 0xbb67ae85, 0x3c6ef372, 0xa54ff53a, 0x510e527f, 0x9b05688c,
    0x1f83d9ab, 0x5be0cd19]

def P512 : Params where
  w := 64
  S0 := (28, 34, 39)
  S1 := (14, 18, 41)
  s0 := (1, 8, 7)
  s1 := (19, 61, 6)
  K := [
    0x428a2f98d728ae22, 0x7137449123ef65cd, 0xb5c0fbcfec4d3b2f, 0xe9b5dba58189dbbc,
    0x3956c25bf348b538, 0x59f111f1b605d019, 0x923f82a4af194f9b, 0xab1c5ed5da6d8118,
    0xd807aa98a3030242, 0x12835b0145706fbe, 0x243185be4ee4b28c, 0x550c7dc3d5ffb4e2,
    0x72be5d74f27b896f, 0x80deb1fe3b1696b1, 0x9bdc06a725c71235, 0xc19bf174cf692694,
    0xe49b69c19ef14ad2, 0xefbe4786384f25e3, 0x0fc19dc68b8cd5b5, 0x240ca1cc77ac9c65,
    0x2de92c6f592b0275, 0x4a7484aa6ea6e483, 0x5cb0a9dcbd41fbd4, 0x76f988da831153b5,
    0x983e5152ee66dfab, 0xa831c66d2db43210, 0xb00327c898fb213f, 0xbf597fc7beef0ee4,
    0xc6e00bf33da88fc2, 0xd5a79147930aa725, 0x06ca6351e003826f, 0x142929670a0e6e70,
    0x27b70a8546d22ffc, 0x2e1b21385c26c926, 0x4d2c6dfc5ac42aed, 0x53380d139d95b3df,
    0x650a73548baf63de, 0x766a0abb3c77b2a8, 0x81c2c92e47edaee6, 0x92722c851482353b,
    0xa2bfe8a14cf10364, 0xa81a664bbc423001, 0xc24b8b70d0f89791, 0xc76c51a30654be30,
    0xd192e819d6ef5218, 0xd69906245565a910, 0xf40e35855771202a, 0x106aa07032bbd1b8,
    0x19a4c116b8d2d0c8, 0x1e376c085141ab53, 0x2748774cdf8eeb99, 0x34b0bcb5e19b48a8,
    0x391c0cb3c5c95a63, 0x4ed8aa4ae3418acb, 0x5b9cca4f7763e373, 0x682e6ff3d6b2b8a3,
    0x748f82ee5defb2fc, 0x78a5636f43172f60, 0x84c87814a1f0ab72, 0x8cc702081a6439ec,
    0x90befffa23631e28, 0xa4506cebde82bde9, 0xbef9a3f7b2c67915, 0xc67178f2e372532b,
    0xca273eceea26619c, 0xd186b8c721c0c207, 0xeada7dd6cde0eb1e, 0xf57d4f7fee6ed178,
    0x06f067aa72176fba, 0x0a637dc5a2c898a6, 0x113f9804bef90dae, 0x1b710b35131c471b,
    0x28db77f523047d84, 0x32caab7b40c72493, 0x3c9ebe0a15c9bebc, 0x431d67c49c100d4c,
    0x4cc5d4becb3e42b6, 0x597f299cfc657e2a, 0x5fcb6fab3ad6faec, 0x6c44198c4a475817]
  H := [
    0x6a09e667f3bcc908, 0xbb67ae8584caa73b, 0x3c6ef372fe94f82b, 0xa54ff53a5f1d36f1,
    0x510e527fade682d1, 0x9b05688c2b3e6c1f, 0x1f83d9abfb41bd6b, 0x5be0cd19137e2179]

def sha256Bytes (m : Bytes) : Bytes :=
  let p := pad 64 8 m
  output 4 8 (iterate (compress P256) 64 (p.length / 64) P256.H p)

def sha512Bytes (m : Bytes) : Bytes :=
  let p := pad 128 16 m
  output 8 8 (iterate (compress P512) 128 (p.length / 128) P512.H p)

/-! ## SHA-1 -/

/-- `rotl` of a 32-bit word. -/
def rotl32 (n x : Nat) : Nat := rotr 32 (32 - n) x

/-- SHA-1 rounds; `t` counts up, `fuel` counts down. -/
def rounds1 : Nat → Nat → List Nat → Nat → Nat → Nat → Nat → Nat → List Nat
  | 0, _, _, a, b, c, d, e => [a, b, c, d, e]
  | fuel + 1, t, ws, a, b, c, d, e =>
    strict (if t < 20 then ch 32 b c d else if t < 40 then b ^^^ c ^^^ d
      else if t < 60 then maj b c d else b ^^^ c ^^^ d) fun f =>
    strict (if t < 20 then 0x5a827999 else if t < 40 then 0x6ed9eba1
      else if t < 60 then 0x8f1bbcdc else 0xca62c1d6) fun k =>
    strict ((rotl32 5 a + f + e + k + ws.getD 0 0) % 2 ^ 32) fun a' =>
    strict (rotl32 30 b) fun c' =>
    strict (rotl32 1 (ws.getD 13 0 ^^^ ws.getD 8 0 ^^^ ws.getD 2 0 ^^^ ws.getD 0 0)) fun w' =>
    rounds1 fuel (t + 1) (ws.drop 1 ++ [w']) a' a c' c d

def compress1 (H : List Nat) (block : Bytes) : List Nat :=
  strictList (toWords 4 16 block) fun ws =>
  addWords 32 H (rounds1 80 0 ws (H.getD 0 0) (H.getD 1 0) (H.getD 2 0) (H.getD 3 0) (H.getD 4 0))

def sha1Bytes (m : Bytes) : Bytes :=
  let p := pad 64 8 m
  output 4 5 (iterate compress1 64 (p.length / 64)
    [0x67452301, 0xefcdab89, 0x98badcfe, 0x10325476, 0xc3d2e1f0] p)

end Verif.Sha

namespace Verif

/-- SHA-1 as a digest. -/
def sha1 : Digest where
  hash := Sha.sha1Bytes
  outLen := 20
  hash_length x := by simp [Sha.sha1Bytes, Sha.output_length]

/-- SHA-256 as a digest. -/
def sha256 : Digest where
  hash := Sha.sha256Bytes
  outLen := 32
  hash_length x := by simp [Sha.sha256Bytes, Sha.output_length]

/-- SHA-512 as a digest. -/
def sha512 : Digest where
  hash := Sha.sha512Bytes
  outLen := 64
  hash_length x := by simp [Sha.sha512Bytes, Sha.output_length]

/-- HMAC (RFC 2104) over a digest with block size `blk`. -/
def hmac (D : Digest) (blk : Nat) (key msg : Bytes) : Bytes :=
  let k := if key.length > blk then D.hash key else key
  let k := k ++ List.replicate (blk - k.length) 0
  D.hash (k.map (· ^^^ 0x5c) ++ D.hash (k.map (· ^^^ 0x36) ++ msg))

@[simp] theorem hmac_length (D : Digest) (blk : Nat) (key msg : Bytes) :
    (hmac D blk key msg).length = D.outLen := by simp [hmac]

/-- HKDF-Extract (RFC 5869 section 2.2), `Hkdf::new(Some(salt), ikm)`. -/
def hkdfExtract (D : Digest) (blk : Nat) (salt ikm : Bytes) : Bytes := hmac D blk salt ikm

/-- `T(i) | T(i+1) | ...`, `cnt` blocks (RFC 5869 section 2.3). -/
def hkdfBlocks (D : Digest) (blk : Nat) (prk info : Bytes) : Nat → Nat → Bytes → Bytes
  | 0, _, _ => []
  | cnt + 1, i, prev =>
    let t := hmac D blk prk (prev ++ info ++ [UInt8.ofNat i])
    t ++ hkdfBlocks D blk prk info cnt (i + 1) t

/-- HKDF-Expand: `none` (`InvalidLength`) when more than 255 blocks are asked for. -/
def hkdfExpand (D : Digest) (blk : Nat) (prk info : Bytes) (len : Nat) : Option Bytes :=
  if len > 255 * D.outLen then none
  else some ((hkdfBlocks D blk prk info ((len + D.outLen - 1) / D.outLen) 1 []).take len)

theorem hkdfBlocks_length (D : Digest) (blk : Nat) (prk info : Bytes) (cnt i : Nat) (prev : Bytes) :
    (hkdfBlocks D blk prk info cnt i prev).length = cnt * D.outLen := by
  induction cnt generalizing i prev with
  | zero => simp [hkdfBlocks]
  | succ n ih => simp [hkdfBlocks, ih, Nat.succ_mul, Nat.add_comm]

end Verif
