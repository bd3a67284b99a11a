import Verif.Spake2.Model

/-!
# Specification of SPAKE2 as documented by the crate and by python-spake2

Written with numbers, points and concatenation only: no buffers, no byte reversal, no panics, subtraction of
points instead of negated scalars. `Side` is the only type taken from the model.
-/

namespace Verif.Spake2.Spec
open Ed25519 (Point)

/-- The first blinding element, by its coordinates. -/
def ptM : Point := Ed25519.ofNats
  56797357330922913988458593931122727936228661521514257091994679493501599747208
  8204578689594358005372171711129318668375319275647443160930343040183052652309 (by decide +kernel)

/-- The second blinding element, by its coordinates. -/
def ptN : Point := Ed25519.ofNats
  19859997596809371560572533813761263760519810596029049894518304267365992636715
  30537998347346252243850043725805156294608304431216408003238882613177304895472 (by decide +kernel)

/-- The symmetric blinding element, by its coordinates. -/
def ptS : Point := Ed25519.ofNats
  39117479951501417523307395387645076206310007454599558501990001730569162809603
  51518999502832141103326086221524057635361811362657814462420774639771850506351 (by decide +kernel)

/-- The element a side blinds with. -/
def mine : Side → Point
  | .A _ _ => ptM
  | .B _ _ => ptN
  | .symmetric _ => ptS

/-- The element its peer blinds with. -/
def peers : Side → Point
  | .A _ _ => ptN
  | .B _ _ => ptM
  | .symmetric _ => ptS

/-- The letter a side sends. -/
def letter : Side → UInt8
  | .A _ _ => 65
  | .B _ _ => 66
  | .symmetric _ => 83

/-- The letter a side accepts. -/
def accepts : Side → UInt8
  | .A _ _ => 66
  | .B _ _ => 65
  | .symmetric _ => 83

/-- HKDF-SHA256 with empty salt, info `SPAKE2 pw`, 48 bytes (RFC 5869): one block and half of the second. -/
def hkdf48 (pw : Bytes) : Bytes :=
  let prk := hmac sha256 64 [] pw
  let t1 := hmac sha256 64 prk (ascii "SPAKE2 pw" ++ [1])
  let t2 := hmac sha256 64 prk (t1 ++ ascii "SPAKE2 pw" ++ [2])
  t1 ++ t2.take 16

/-- `int(h, 16) % q` of python-spake2: the password as a number modulo the group order. -/
def pwNum (pw : Bytes) : Nat := beToNat (hkdf48 pw) % ell

/-- The element sent: `x * B + pw * (M | N | S)`. -/
def sent (side : Side) (pw : Bytes) (x : Nat) : Point := x • Ed25519.base + pwNum pw • mine side

/-- The shared element: `x * (peer - pw * (N | M | S))`. -/
def shared (side : Side) (pw : Bytes) (x : Nat) (peer : Point) : Point :=
  x • (peer - pwNum pw • peers side)

/-- `sha256(pw) | sha256(idA) | sha256(idB) | X | Y | K` -/
def transcriptAB (pw idA idB X Y : Bytes) (K : Point) : Bytes :=
  sha256.hash pw ++ sha256.hash idA ++ sha256.hash idB ++ X ++ Y ++ Ed25519.compress K

/-- `sorted([X, Y])`: by big-endian value. -/
def sorted (X Y : Bytes) : Bytes := if beToNat X ≤ beToNat Y then X ++ Y else Y ++ X

/-- `sha256(pw) | sha256(idS) | sorted messages | K` -/
def transcriptSym (pw idS X Y : Bytes) (K : Point) : Bytes :=
  sha256.hash pw ++ sha256.hash idS ++ sorted X Y ++ Ed25519.compress K

/-- What a side hashes: `own` and `peer` are the 32-byte encodings exchanged. -/
def transcript (side : Side) (pw own peer : Bytes) (K : Point) : Bytes :=
  match side with
  | .A idA idB => transcriptAB pw idA idB own peer K
  | .B idA idB => transcriptAB pw idA idB peer own K
  | .symmetric idS => transcriptSym pw idS own peer K

/-- The 32 bytes are the encoding of a point: `y` is their low 255 bits modulo `p`, and some `x` puts it on
the curve `-x^2 + y^2 = 1 + d x^2 y^2`. -/
def Decodable (b : Bytes) : Prop :=
  ∃ x y : Ed25519.Fe, y = ((leToNat b % 2 ^ 255 : ℕ) : Ed25519.Fe) ∧
    -x ^ 2 + y ^ 2 = 1 + Ed25519.edD * x ^ 2 * y ^ 2

end Verif.Spake2.Spec
