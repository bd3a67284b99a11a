import Verif.Aucpace.Model

/-!
# Specification of AuCPace

The values of the protocol table in `/repo/aucpace/src/lib.rs:23-82`, written down independently of the
model's functions (only its types are used): no streaming hashers, no cofactors, no buffers.
-/

namespace Verif.Aucpace.Spec

variable {G : Type} [AddCommGroup G] [Module Scalar G] (R : Ristretto G) (D : Digest)

/-- Input of `H_n`: the index as a little-endian four-byte word, then the data. -/
def inp (n : UInt8) (x : Bytes) : Bytes := n :: 0 :: 0 :: 0 :: x

/-- `H_n(x)`. -/
def Hn (n : UInt8) (x : Bytes) : Bytes := D.hash (inp n x)

/-- `ssid = H0(s || t)`. -/
def ssid (s t : Bytes) : Bytes := Hn D 0 (s ++ t)

/-- `G = Map2Point(H1(ssid || PRS || CI))`. -/
def gen (ssid prs ci : Bytes) : G := R.fromUniform (Hn D 1 (ssid ++ prs ++ ci))

/-- `sk1 = H2(ssid || K)`. -/
def sk1 (ssid : Bytes) (K : G) : Bytes := Hn D 2 (ssid ++ R.compress K)

/-- `Ta = H3(ssid || sk1)`. -/
def ta (ssid sk1 : Bytes) : Bytes := Hn D 3 (ssid ++ sk1)

/-- `Tb = H4(ssid || sk1)`. -/
def tb (ssid sk1 : Bytes) : Bytes := Hn D 4 (ssid ++ sk1)

/-- `sk = H5(ssid || sk1)`. -/
def sk (ssid sk1 : Bytes) : Bytes := Hn D 5 (ssid ++ sk1)

/-- The string that is fed to the password hash: `username:password`. -/
def userPass (user pass : Bytes) : Bytes := user ++ [58] ++ pass

/-- `w = PBKDF_sigma(pw, user, salt)` as a scalar: hasher errors are passed on, a missing hash and
hashes that are neither 32 nor 64 bytes long are refused, others are read little-endian. -/
def pwScalar {Params : Type} (Hs : PwHasher Params) (user pass salt : Bytes) (params : Params) :
    Res Error Scalar :=
  match Hs.hash (userPass user pass) params salt with
  | .error e => .err (.passwordHashing e)
  | .ok none => .err .hashEmpty
  | .ok (some b) =>
    if b.length = 32 ∨ b.length = 64 then .ok (leToNat b : Scalar) else .err .hashSizeInvalid

/-- `PRS` of a party holding `w` and `X`. -/
def prs (w : Scalar) (X : G) : Bytes := R.compress (w • X)

/-- The point of the strong protocol for a username and password. -/
def strongPoint (user pass : Bytes) : G := R.fromUniform (Hn D 1 (user ++ pass))

/-- Two different inputs of `H1` that are mapped to the same point. -/
def MapCollision (x y : Bytes) : Prop := x ≠ y ∧ R.fromUniform (Hn D 1 x) = R.fromUniform (Hn D 1 y)

/-- Scalar that a fresh draw of 64 bytes yields. -/
def draw (b : Bytes) : Scalar := (leToNat b : Scalar)

end Verif.Aucpace.Spec
