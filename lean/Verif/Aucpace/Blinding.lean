import Verif.Aucpace.Uniform
import Verif.Basic.Tape

/-!
# C56, counted: how long the blinding loop of the strong client runs

aucpace/src/client.rs:453-461 (`start_augmentation_strong`): scalars are drawn until one is not zero. The loop of the source has no bound
(`fuel` of the model). Here the generator outputs are counted for which it is still running after `n` draws.
-/

namespace Verif.Aucpace
open Spec

/-- Strings of two parts with a condition on each. -/
theorem ncard_parts (k l : Nat) (A B : Bytes → Prop) :
    {T : Bytes | T.length = k + l ∧ A (T.take k) ∧ B (T.drop k)}.ncard =
      {b : Bytes | b.length = k ∧ A b}.ncard * {b : Bytes | b.length = l ∧ B b}.ncard := by
  rw [← Set.ncard_prod]
  refine Set.ncard_congr (fun T _ => (T.take k, T.drop k)) ?_ ?_ ?_
  · rintro T ⟨hl, ha, hb⟩
    refine ⟨⟨?_, ha⟩, ?_, hb⟩
    · simp only [List.length_take]; omega
    · simp only [List.length_drop]; omega
  · intro T T' _ _ h
    simp only [Prod.mk.injEq] at h
    rw [← List.take_append_drop k T, ← List.take_append_drop k T', h.1, h.2]
  · rintro ⟨a, b⟩ ⟨⟨hla, ha⟩, hlb, hb⟩
    simp only at hla ha hlb hb
    subst hla
    refine ⟨a ++ b, ⟨by simp [hlb], ?_, ?_⟩, ?_⟩ <;> simp [ha, hb]

/-- Of all strings of 64 bytes, this many are reduced to the zero scalar. -/
theorem ncard_zero : {b : Bytes | b.length = 64 ∧ draw b = 0}.ncard = 2 ^ 512 / ell + 1 := by
  have he : (256 : Nat) ^ 64 = 2 ^ 512 := by decide +kernel
  have h := ncard_residue 64 ell 0
  rw [if_pos (by rw [ZMod.val_zero]; decide +kernel), he] at h
  rw [← h]
  rfl

theorem drawBlinding_succ (n : Nat) (T : Bytes) (h : 64 ≤ T.length) :
    Client.drawBlinding Rng.replay (n + 1) T = none ↔
      draw (T.take 64) = 0 ∧ Client.drawBlinding Rng.replay n (T.drop 64) = none := by
  have hf : Rng.replay.fill T 64 = (T.take 64, T.drop 64) := by
    simp only [Rng.replay, Prod.mk.injEq, and_true]
    rw [List.take_append_of_le_length h]
  rw [(C56_loop Rng.replay (n + 1) T).2, (C56_loop Rng.replay n (T.drop 64)).2]
  have h0 : drawAt Rng.replay T 0 = draw (T.take 64) := by
    simp only [drawAt, afterDraws, Function.iterate_zero, id_eq, hf]
  have hs : ∀ j, drawAt Rng.replay T (j + 1) = drawAt Rng.replay (T.drop 64) j := by
    intro j
    simp only [drawAt, afterDraws, Function.iterate_succ, Function.comp_apply, hf]
  constructor
  · intro h
    exact ⟨h0 ▸ h 0 (by omega), fun j hj => hs j ▸ h (j + 1) (by omega)⟩
  · rintro ⟨h1, h2⟩ j hj
    cases j with
    | zero => rw [h0]; exact h1
    | succ j => rw [hs]; exact h2 j (by omega)

/-- **C56 (how long the loop runs).** Of the `2^(512 n)` outputs of the generator that `n` draws read, exactly
`(2^512 / ell + 1)^n` leave the loop running: each further draw is needed with probability about `1 / ell`, less than `2^-252`. -/
theorem C56_rare (n : Nat) :
    {T : Bytes | T.length = 64 * n ∧ Client.drawBlinding Rng.replay n T = none}.ncard = (2 ^ 512 / ell + 1) ^ n ∧
    {T : Bytes | T.length = 64 * n}.ncard = 2 ^ (512 * n) ∧
    2 ^ 252 * (2 ^ 512 / ell + 1) ≤ 2 ^ 512 := by
  refine ⟨?_, ?_, by decide +kernel⟩
  · induction n with
    | zero =>
      rw [pow_zero, Set.ncard_eq_one]
      refine ⟨[], ?_⟩
      ext T
      simp only [Set.mem_ofPred_eq, Set.mem_singleton_iff, Nat.mul_zero, List.length_eq_zero_iff]
      constructor
      · exact fun h => h.1
      · rintro rfl
        exact ⟨rfl, rfl⟩
    | succ n ih =>
      rw [pow_succ', ← ih, ← ncard_zero, ← ncard_parts]
      congr 1
      ext T
      simp only [Set.mem_ofPred_eq]
      constructor
      · rintro ⟨hl, h⟩
        exact ⟨by omega, (drawBlinding_succ n T (by omega)).1 h⟩
      · rintro ⟨hl, h⟩
        exact ⟨by omega, (drawBlinding_succ n T (by omega)).2 h⟩
  · rw [ncard_bytes, show (256 : Nat) = 2 ^ 8 by norm_num, ← pow_mul]
    congr 1
    omega

end Verif.Aucpace
