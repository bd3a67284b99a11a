import Mathlib.Data.ZMod.Basic
import Verif.Basic.Bytes
import Verif.Basic.Digest

/-!
# Specification of SRP-6a as published (RFC 2945, RFC 5054), independent of the code model

Arithmetic is in the ring `ZMod N`. The only things shared with the model are byte strings, the
abstract digest and the integer encoding (characterised in `Verif.Basic.Bytes`).
-/

namespace Verif.Srp.Spec

/-- RFC 5054 section 2.1 `PAD`: left-pad with zero bytes to the byte length `len`. -/
def PAD (len : Nat) (x : Bytes) : Bytes := List.replicate (len - x.length) 0 ++ x

/-- Least residue of an element of `ZMod N`, as a minimal big-endian byte string. -/
def enc {N : ℕ} (z : ZMod N) : Bytes := toBytesBE z.val

/-- `H(m)` as an integer. -/
def Hint (D : Digest) (m : Bytes) : Nat := beToNat (D.hash m)

/-- `x = H(s | H(I | ":" | P))`, RFC 5054 section 2.4. 58 is the ASCII code of the colon. -/
def x (D : Digest) (I P s : Bytes) : Nat := Hint D (s ++ D.hash (I ++ [58] ++ P))

/-- `k = H(N | PAD(g))`, RFC 5054 section 2.5.3. -/
def k (D : Digest) (N g : Nat) : Nat :=
  Hint D (toBytesBE N ++ PAD (toBytesBE N).length (toBytesBE g))

/-- `v = g^x`. -/
def v (D : Digest) (N g : Nat) (I P s : Bytes) : ZMod N := (g : ZMod N) ^ x D I P s

/-- `A = g^a`. -/
def A (N g a : Nat) : ZMod N := (g : ZMod N) ^ a

/-- `B = k*v + g^b`. -/
def B (D : Digest) (N g : Nat) (v : ZMod N) (b : Nat) : ZMod N := k D N g * v + (g : ZMod N) ^ b

/-- Scrambling parameter of RFC 5054 section 2.6: `u = H(PAD(A) | PAD(B))`. -/
def uRfc (D : Digest) (N : Nat) (A B : Nat) : Nat :=
  Hint D (PAD (toBytesBE N).length (toBytesBE A) ++ PAD (toBytesBE N).length (toBytesBE B))

/-- Scrambling parameter without padding (what original SRP-6a leaves to the implementation). -/
def u (D : Digest) (A B : Nat) : Nat := Hint D (toBytesBE A ++ toBytesBE B)

/-- Client secret `(B - k g^x)^(a + u x)`. -/
def clientS (D : Digest) (N g : Nat) (B : ZMod N) (x a u : Nat) : ZMod N :=
  (B - k D N g * (g : ZMod N) ^ x) ^ (a + u * x)

/-- Server secret `(A v^u)^b`. -/
def serverS {N : ℕ} (A v : ZMod N) (u b : Nat) : ZMod N := (A * v ^ u) ^ b

/-- `M1 = H(A | B | K)`. -/
def M1 (D : Digest) (A B K : Bytes) : Bytes := D.hash (A ++ B ++ K)

/-- `M2 = H(A | M1 | K)`. -/
def M2 (D : Digest) (A M1 K : Bytes) : Bytes := D.hash (A ++ M1 ++ K)

/-- A group the library can work with: positive modulus, generator not longer than the modulus. -/
def Sane (N g : Nat) : Prop := 0 < N ∧ (toBytesBE g).length ≤ (toBytesBE N).length

instance (N g : Nat) : Decidable (Sane N g) := inferInstanceAs (Decidable (_ ∧ _))

end Verif.Srp.Spec
