import Verif.Basic.Bytes

/-!
# Random generators

`rand_core::CryptoRngCore` (rand_core 0.6.4): `fill_bytes` and `next_u64` on a mutable state. Nothing
is assumed about the values; theorems quantify over all generators and states.
-/

namespace Verif

/-- A random generator with state type `σ`. -/
structure Rng (σ : Type) where
  /-- `rng.fill_bytes(&mut [u8; n])` -/
  fill : σ → Nat → Bytes × σ
  /-- `rng.next_u64()` -/
  nextU64 : σ → Nat × σ
  fill_length : ∀ s n, (fill s n).1.length = n
  nextU64_lt : ∀ s, (nextU64 s).1 < 2 ^ 64

namespace Rng

attribute [simp] fill_length

/-- A concrete generator: the state is the list of bytes still to be handed out, followed by zeros.
Every finite sequence of outputs is produced by some state. -/
def replay : Rng Bytes where
  fill s n := ((s ++ List.replicate n 0).take n, s.drop n)
  nextU64 s := (leToNat ((s ++ List.replicate 8 0).take 8), s.drop 8)
  fill_length s n := by simp
  nextU64_lt s := by
    have := leToNat_lt ((s ++ List.replicate 8 0).take 8)
    have hl : ((s ++ List.replicate 8 (0 : UInt8)).take 8).length = 8 := by simp
    rw [hl] at this
    exact lt_of_lt_of_eq this (by norm_num)

end Rng
end Verif
