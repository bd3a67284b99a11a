import Verif.Basic.Res
import Verif.Basic.Sha
import Verif.Basic.Rng
import Verif.Basic.Utf8
import Verif.Ed25519.Order

/-!
# Model of the `spake2` crate

Transcription of /repo/spake2/src (commit as pinned). `Spake2<G>` is generic over `GroupOps`; `ed25519` is
the crate's `Ed25519Group`.

Simplified: `Password` and `Identity` (lib.rs:251-291) are their bytes; `start_a` etc. (lib.rs:312-337, feature
`getrandom`) are the `with_rng` functions with `OsRng`; the generator is passed by value, so its final state is
not returned.
-/

namespace Verif.Spake2

/-- spake2/src/error.rs:9-19 `Error` -/
inductive Error where
  | badSide
  | corruptMessage
  | wrongLength
  deriving DecidableEq, Repr

/-- spake2/src/error.rs:21-29 `Display for Error` -/
def Error.display : Error → Bytes
  | .badSide => ascii "bad side"
  | .corruptMessage => ascii "corrupt message"
  | .wrongLength => ascii "invalid length"

/-- spake2/src/group.rs:8-58 `trait Group` with `Scalar = S`, `Element = E`. The associated type
`TranscriptHash` is never used by the crate. The constants and `hash_to_scalar` may panic (they do `unwrap` for
Ed25519). -/
structure GroupOps (S E : Type) where
  name : Bytes
  constM : Res Error E
  constN : Res Error E
  constS : Res Error E
  hashToScalar : Bytes → Res Error S
  randomScalar : {σ : Type} → Rng σ → σ → S
  scalarNeg : S → S
  elementToBytes : E → Bytes
  bytesToElement : Bytes → Option E
  elementLength : Nat
  basepointMult : S → E
  scalarmult : E → S → E
  add : E → E → E

/-- spake2/src/lib.rs:293-298 `Side` -/
inductive Side where
  | A (idA idB : Bytes)
  | B (idA idB : Bytes)
  | symmetric (idS : Bytes)
  deriving DecidableEq, Repr

/-- spake2/src/lib.rs:302-309 `Spake2` -/
structure State (S : Type) where
  side : Side
  xyScalar : S
  passwordVec : Bytes
  msg1 : Bytes
  passwordScalar : S

/-! ## ed25519.rs: the transcript hashes -/

/-- spake2/src/ed25519.rs:132-173 `hash_ab` -/
def hashAb (passwordVec idA idB firstMsg secondMsg keyBytes : Bytes) : Res Error Bytes := do
  Res.assert (firstMsg.length = 32)
  Res.assert (secondMsg.length = 32)
  let transcript : Bytes := List.replicate (6 * 32) 0
  let pwHash := Digest.update Digest.new passwordVec
  let transcript ← Res.unwrap (copyInto transcript 0 32 (sha256.finalize pwHash))
  let idaHash := Digest.update Digest.new idA
  let transcript ← Res.unwrap (copyInto transcript 32 64 (sha256.finalize idaHash))
  let idbHash := Digest.update Digest.new idB
  let transcript ← Res.unwrap (copyInto transcript 64 96 (sha256.finalize idbHash))
  let transcript ← Res.unwrap (copyInto transcript 96 128 firstMsg)
  let transcript ← Res.unwrap (copyInto transcript 128 160 secondMsg)
  let transcript ← Res.unwrap (copyInto transcript 160 192 keyBytes)
  let hash := Digest.update Digest.new transcript
  return sha256.finalize hash

/-- `<[u8] as PartialOrd>::lt`: lexicographic. -/
def ltBytes : Bytes → Bytes → Bool
  | [], [] => false
  | [], _ :: _ => true
  | _ :: _, [] => false
  | x :: xs, y :: ys => if x < y then true else if y < x then false else ltBytes xs ys

/-- spake2/src/ed25519.rs:176-219 `hash_symmetric` -/
def hashSymmetric (passwordVec idS msgU msgV keyBytes : Bytes) : Res Error Bytes := do
  Res.assert (msgU.length = 32)
  Res.assert (msgV.length = 32)
  let transcript : Bytes := List.replicate (5 * 32) 0
  let pwHash := Digest.update Digest.new passwordVec
  let transcript ← Res.unwrap (copyInto transcript 0 32 (sha256.finalize pwHash))
  let idsHash := Digest.update Digest.new idS
  let transcript ← Res.unwrap (copyInto transcript 32 64 (sha256.finalize idsHash))
  let first := if ltBytes msgU msgV then msgU else msgV
  let second := if ltBytes msgU msgV then msgV else msgU
  let transcript ← Res.unwrap (copyInto transcript 64 96 first)
  let transcript ← Res.unwrap (copyInto transcript 96 128 second)
  let transcript ← Res.unwrap (copyInto transcript 128 160 keyBytes)
  let hash := Digest.update Digest.new transcript
  return sha256.finalize hash

/-! ## lib.rs: the protocol -/

section Generic
variable {S E : Type} (G : GroupOps S E)

/-- spake2/src/lib.rs:452-456: the blinding constant of a side. -/
def blinding : Side → Res Error E
  | .A _ _ => G.constM
  | .B _ _ => G.constN
  | .symmetric _ => G.constS

/-- spake2/src/lib.rs:466-470: the letter of a side. -/
def sideByte : Side → UInt8
  | .A _ _ => 0x41
  | .B _ _ => 0x42
  | .symmetric _ => 0x53

/-- spake2/src/lib.rs:445-483 `start_internal` -/
def startInternal (side : Side) (password : Bytes) (xyScalar : S) : Res Error (State S × Bytes) := do
  let passwordScalar ← G.hashToScalar password
  let blind ← blinding G side
  let m1 := G.add (G.basepointMult xyScalar) (G.scalarmult blind passwordScalar)
  let msg1 := G.elementToBytes m1
  let passwordVec := [] ++ password
  let msgAndSide := [sideByte side] ++ msg1
  return ({ side, xyScalar, passwordVec, msg1, passwordScalar }, msgAndSide)

/-- spake2/src/lib.rs:485-499 `start_a_internal` -/
def startAInternal (password idA idB : Bytes) (xyScalar : S) : Res Error (State S × Bytes) :=
  startInternal G (.A idA idB) password xyScalar

/-- spake2/src/lib.rs:501-515 `start_b_internal` -/
def startBInternal (password idA idB : Bytes) (xyScalar : S) : Res Error (State S × Bytes) :=
  startInternal G (.B idA idB) password xyScalar

/-- spake2/src/lib.rs:517-529 `start_symmetric_internal` -/
def startSymmetricInternal (password idS : Bytes) (xyScalar : S) : Res Error (State S × Bytes) :=
  startInternal G (.symmetric idS) password xyScalar

/-- spake2/src/lib.rs:341-349 `start_a_with_rng` -/
def startAWithRng {σ : Type} (R : Rng σ) (password idA idB : Bytes) (rng : σ) :
    Res Error (State S × Bytes) :=
  let xyScalar := G.randomScalar R rng
  startAInternal G password idA idB xyScalar

/-- spake2/src/lib.rs:352-360 `start_b_with_rng` -/
def startBWithRng {σ : Type} (R : Rng σ) (password idA idB : Bytes) (rng : σ) :
    Res Error (State S × Bytes) :=
  let xyScalar := G.randomScalar R rng
  startBInternal G password idA idB xyScalar

/-- spake2/src/lib.rs:363-370 `start_symmetric_with_rng` -/
def startSymmetricWithRng {σ : Type} (R : Rng σ) (password idS : Bytes) (rng : σ) :
    Res Error (State S × Bytes) :=
  let xyScalar := G.randomScalar R rng
  startSymmetricInternal G password idS xyScalar

/-- spake2/src/lib.rs:379-392: the letter expected from the peer. -/
def checkSide : Side → UInt8 → Res Error Unit
  | .A _ _, b => if b = 0x42 then .ok () else .err .badSide
  | .B _ _, b => if b = 0x41 then .ok () else .err .badSide
  | .symmetric _, b => if b = 0x53 then .ok () else .err .badSide

/-- spake2/src/lib.rs:401-405: the constant removed from the peer's element. -/
def unblinding : Side → Res Error E
  | .A _ _ => G.constN
  | .B _ _ => G.constM
  | .symmetric _ => G.constS

/-- spake2/src/lib.rs:418-442: the key. -/
def deriveKey (side : Side) (passwordVec msg1 body keyBytes : Bytes) : Res Error Bytes :=
  match side with
  | .A idA idB => hashAb passwordVec idA idB msg1 body keyBytes
  | .B idA idB => hashAb passwordVec idA idB body msg1 keyBytes
  | .symmetric idS => hashSymmetric passwordVec idS msg1 body keyBytes

/-- spake2/src/lib.rs:373-443 `finish` -/
def finish (s : State S) (msg2 : Bytes) : Res Error Bytes :=
  if msg2.length ≠ 1 + G.elementLength then .err .wrongLength
  else do
    let msgSide ← Res.unwrap msg2[0]?
    checkSide s.side msgSide
    let body ← Res.unwrap (slice msg2 1 msg2.length)
    let msg2Element ← Res.okOr (G.bytesToElement body) .corruptMessage
    let unblind ← unblinding G s.side
    let tmp1 := G.scalarmult unblind (G.scalarNeg s.passwordScalar)
    let tmp2 := G.add msg2Element tmp1
    let keyElement := G.scalarmult tmp2 s.xyScalar
    let keyBytes := G.elementToBytes keyElement
    deriveKey s.side s.passwordVec s.msg1 body keyBytes

end Generic

/-! ## ed25519.rs: the group -/

/-- `c2_Scalar` (curve25519-dalek 4.1.3 `Scalar`): integers modulo the group order, always reduced. -/
abbrev Scalar := ZMod ell

open Ed25519 (Point)

/-- spake2/src/ed25519.rs:23-33: the bytes of `const_m`. -/
def bytesM : Bytes := [
  0x15, 0xcf, 0xd1, 0x8e, 0x38, 0x59, 0x52, 0x98, 0x2b, 0x6a, 0x8f, 0x8c, 0x78, 0x54,
  0x96, 0x3b, 0x58, 0xe3, 0x43, 0x88, 0xc8, 0xe6, 0xda, 0xe8, 0x91, 0xdb, 0x75, 0x64,
  0x81, 0xa0, 0x23, 0x12]

/-- spake2/src/ed25519.rs:35-45: the bytes of `const_n`. -/
def bytesN : Bytes := [
  0xf0, 0x4f, 0x2e, 0x7e, 0xb7, 0x34, 0xb2, 0xa8, 0xf8, 0xb4, 0x72, 0xea, 0xf9, 0xc3,
  0xc6, 0x32, 0x57, 0x6a, 0xc6, 0x4a, 0xea, 0x65, 0x0b, 0x49, 0x6a, 0x8a, 0x20, 0xff,
  0x00, 0xe5, 0x83, 0xc3]

/-- spake2/src/ed25519.rs:47-57: the bytes of `const_s`. -/
def bytesS : Bytes := [
  0x6f, 0x00, 0xda, 0xe8, 0x7c, 0x1b, 0xe1, 0xa7, 0x3b, 0x59, 0x22, 0xef, 0x43, 0x1c,
  0xd8, 0xf5, 0x78, 0x79, 0x56, 0x9c, 0x22, 0x2d, 0x22, 0xb1, 0xcd, 0x71, 0xe8, 0x54,
  0x6a, 0xb8, 0xe6, 0xf1]

/-- spake2/src/ed25519.rs:119-122: the loop `reducible[32 + 16 - 1 - i] = *x`, from index `i` on, with the
overflow and bounds checks. -/
def reverseInto : Nat → Bytes → Bytes → Res Error Bytes
  | _, [], r => .ok r
  | i, x :: xs, r =>
    if i ≤ 32 + 16 - 1 ∧ 32 + 16 - 1 - i < r.length then
      reverseInto (i + 1) xs (r.set (32 + 16 - 1 - i) x)
    else .panic

/-- spake2/src/ed25519.rs:106-129 `ed25519_hash_to_scalar`. `Hkdf::<Sha256>::new(Some(b""), s)` is HMAC with the
empty key; `from_bytes_mod_order_wide` reads 64 bytes little-endian and reduces. -/
def ed25519HashToScalar (s : Bytes) : Res Error Scalar := do
  let prk := hkdfExtract sha256 64 [] s
  let okm ← Res.unwrap (hkdfExpand sha256 64 prk (ascii "SPAKE2 pw") (32 + 16))
  let reducible ← reverseInto 0 (okm.take (32 + 16)) (List.replicate 64 0)
  return (leToNat reducible : Scalar)

/-- spake2/src/ed25519.rs:82-92 `bytes_to_element` -/
def ed25519BytesToElement (b : Bytes) : Option Point :=
  if b.length ≠ 32 then none
  else Ed25519.decompress b

/-- spake2/src/ed25519.rs:14-104 `impl Group for Ed25519Group`. `Scalar::random` (curve25519-dalek 4.1.3) is the
reduction of 64 generator bytes; `point * scalar` is the multiple by the canonical representative. -/
def ed25519 : GroupOps Scalar Point where
  name := ascii "Ed25519"
  constM := Res.unwrap (Ed25519.decompress bytesM)
  constN := Res.unwrap (Ed25519.decompress bytesN)
  constS := Res.unwrap (Ed25519.decompress bytesS)
  hashToScalar := ed25519HashToScalar
  randomScalar R rng := (leToNat (R.fill rng 64).1 : Scalar)
  scalarNeg s := -s
  elementToBytes P := Ed25519.compress P
  bytesToElement := ed25519BytesToElement
  elementLength := 32
  basepointMult s := s.val • Ed25519.base
  scalarmult e s := s.val • e
  add a b := a + b

/-! ## Debug output -/

/-- `{byte:x}`: lower-case hexadecimal without padding. -/
def hexDigit (n : Nat) : UInt8 := if n < 10 then UInt8.ofNat (48 + n) else UInt8.ofNat (87 + n)

/-- `{byte:x}`: lower-case hexadecimal without padding. -/
def hexByte (b : UInt8) : Bytes :=
  if b.toNat < 16 then [hexDigit b.toNat] else [hexDigit (b.toNat / 16), hexDigit (b.toNat % 16)]

/-- spake2/src/lib.rs:562-578 `Debug for MaybeUtf8` -/
def maybeUtf8 (b : Bytes) : Bytes :=
  if utf8 b then ascii "(s=" ++ b ++ ascii ")"
  else ascii "(hex=" ++ b.flatMap hexByte ++ ascii ")"

/-- Fields of `debug_struct` after the first, `{:?}`. -/
def debugFields : List (Bytes × Bytes) → Bytes
  | [] => []
  | (k, v) :: r => ascii ", " ++ k ++ ascii ": " ++ v ++ debugFields r

/-- `fmt.debug_struct(name).field(k, v)....finish()` with `{:?}` and at least one field
(`core::fmt::builders::DebugStruct`). -/
def debugStruct (name : Bytes) : List (Bytes × Bytes) → Bytes
  | [] => name
  | (k, v) :: r => name ++ ascii " { " ++ k ++ ascii ": " ++ v ++ debugFields r ++ ascii " }"

/-- spake2/src/lib.rs:532-551 `Debug for Side` -/
def Side.debug : Side → Bytes
  | .A idA idB => debugStruct (ascii "Side::A") [(ascii "idA", maybeUtf8 idA), (ascii "idB", maybeUtf8 idB)]
  | .B idA idB => debugStruct (ascii "Side::B") [(ascii "idA", maybeUtf8 idA), (ascii "idB", maybeUtf8 idB)]
  | .symmetric idS => debugStruct (ascii "Side::Symmetric") [(ascii "idS", maybeUtf8 idS)]

/-- spake2/src/lib.rs:553-560 `Debug for Spake2`. The name is printed as a quoted string; the group names
considered contain no character that would be escaped. -/
def State.debug {S E : Type} (G : GroupOps S E) (s : State S) : Bytes :=
  debugStruct (ascii "SPAKE2")
    [(ascii "group", ascii "\"" ++ G.name ++ ascii "\""), (ascii "side", s.side.debug)]

end Verif.Spake2
