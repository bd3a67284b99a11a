import Verif.Ed25519.Primes
import Verif.Basic.Bytes
import Mathlib.Algebra.Module.Basic
import Mathlib.Algebra.Field.ZMod
import Mathlib.Algebra.Module.ZMod

/-!
# The ristretto255 group as used by aucpace

`Scalar` (curve25519-dalek 4.1.3) is `ZMod ell`; `RistrettoPoint` is a vector space of dimension one
over it, with the library's 32-byte encoding and its map from 64 uniform bytes. The theorems about the
protocol use these laws only. `Verif.Ristretto.ristretto255` is the real group and meets them;
`Ristretto.toy` is a small one that can be evaluated quickly in examples.
-/

namespace Verif.Aucpace

/-- `Scalar`, curve25519-dalek 4.1.3: integers modulo the group order, always reduced. -/
abbrev Scalar := ZMod ell

/-- `Scalar::from_bytes_mod_order`, `Scalar::from_bytes_mod_order_wide`: little-endian, reduced. -/
def scalarOfBytes (b : Bytes) : Scalar := (leToNat b : Scalar)

/-- The operations of `RistrettoPoint` that aucpace uses. -/
structure Ristretto (G : Type) [AddCommGroup G] [Module Scalar G] where
  /-- `RISTRETTO_BASEPOINT_POINT` -/
  base : G
  /-- `p.compress().to_bytes()` -/
  compress : G → Bytes
  /-- `CompressedRistretto(b).decompress()` -/
  decompress : Bytes → Option G
  /-- `RistrettoPoint::from_uniform_bytes` -/
  fromUniform : Bytes → G
  base_ne_zero : base ≠ 0
  base_generates : ∀ P : G, ∃ k : Scalar, P = k • base
  compress_length : ∀ P, (compress P).length = 32
  decompress_compress : ∀ P, decompress (compress P) = some P
  compress_decompress : ∀ b P, decompress b = some P → compress P = b

namespace Ristretto
variable {G : Type} [AddCommGroup G] [Module Scalar G] (R : Ristretto G)

theorem compress_injective : Function.Injective R.compress := by
  intro P Q h
  have := congrArg R.decompress h
  rwa [R.decompress_compress, R.decompress_compress, Option.some.injEq] at this

@[simp] theorem compress_inj {P Q : G} : R.compress P = R.compress Q ↔ P = Q :=
  R.compress_injective.eq_iff

theorem ell_lt : ell < 256 ^ 32 := by decide +kernel

/-- A group satisfying the laws: the scalars themselves, encoded little-endian. -/
def toy : Ristretto Scalar where
  base := 1
  compress P := leFixed 32 P.val
  decompress b := if b.length = 32 ∧ leToNat b < ell then some (leToNat b : Scalar) else none
  fromUniform b := (leToNat b : Scalar)
  base_ne_zero := one_ne_zero
  base_generates P := ⟨P, by simp⟩
  compress_length P := by simp
  decompress_compress P := by
    have h : P.val < ell := ZMod.val_lt P
    have hm : P.val % 256 ^ 32 = P.val := Nat.mod_eq_of_lt (h.trans ell_lt)
    rw [leToNat_leFixed, hm]
    simp [h]
  compress_decompress b P h := by
    split at h
    · rename_i hb
      have hP : (leToNat b : Scalar) = P := by simpa using h
      subst hP
      rw [ZMod.val_natCast, Nat.mod_eq_of_lt hb.2]
      have := leFixed_leToNat b
      rwa [hb.1] at this
    · simp at h

end Ristretto
end Verif.Aucpace
