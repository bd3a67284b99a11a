import Mathlib.Data.Nat.Log
import Mathlib.Data.Nat.ModEq
import Mathlib.Tactic.Ring

/-!
# Modular exponentiation

`BigUint::modpow` as square-and-multiply, so that the kernel can evaluate it on 8192-bit numbers,
with the proof that it is the remainder of the power.
-/

namespace Verif

/-- Call `f` on the evaluated number `n`; equal to `f n`, but makes the kernel reduce `n` first. -/
def strict {α : Type} (n : Nat) (f : Nat → α) : α := Nat.rec (f 0) (fun k _ => f (k + 1)) n

@[simp] theorem strict_eq {α : Type} (n : Nat) (f : Nat → α) : strict n f = f n := by
  cases n <;> rfl

/-- Square and multiply, least significant bit first; `fuel` bounds the number of bits. -/
def powModAux : Nat → Nat → Nat → Nat → Nat → Nat
  | 0, _, _, _, acc => acc
  | fuel + 1, b, e, m, acc =>
    strict (b * b % m) fun b' => strict (e / 2) fun e' =>
    strict (if e % 2 = 1 then acc * b % m else acc) fun acc' =>
    powModAux fuel b' e' m acc'

/-- `b.modpow(e, m)` for non-zero `m`. -/
def powMod (b e m : Nat) : Nat := powModAux (Nat.log2 e + 1) (b % m) e m (1 % m)

theorem powModAux_modEq (fuel b e m acc : Nat) (he : e < 2 ^ fuel) :
    powModAux fuel b e m acc ≡ acc * b ^ e [MOD m] := by
  induction fuel generalizing b e acc with
  | zero =>
    have : e = 0 := by simpa using he
    subst this
    simp only [powModAux, pow_zero, mul_one]
    exact Nat.ModEq.refl _
  | succ fuel ih =>
    have h1 : e / 2 < 2 ^ fuel := by rw [pow_succ] at he; omega
    simp only [powModAux, strict_eq]
    refine (ih _ _ _ h1).trans ?_
    have hsq : (b * b % m) ^ (e / 2) ≡ b ^ (2 * (e / 2)) [MOD m] := by
      rw [pow_mul, pow_two]
      exact (Nat.mod_modEq _ _).pow _
    by_cases hodd : e % 2 = 1
    · rw [if_pos hodd]
      have he2 : b ^ e = b * b ^ (2 * (e / 2)) := by
        rw [← pow_succ']; congr 1; omega
      rw [he2, ← mul_assoc]
      exact (Nat.mod_modEq _ _).mul hsq
    · rw [if_neg hodd]
      have he2 : b ^ e = b ^ (2 * (e / 2)) := by congr 1; omega
      rw [he2]
      exact (Nat.ModEq.refl _).mul hsq

theorem powModAux_lt (fuel b e m acc : Nat) (hm : 0 < m) (hacc : acc < m) :
    powModAux fuel b e m acc < m := by
  induction fuel generalizing b e acc with
  | zero => simpa [powModAux] using hacc
  | succ fuel ih =>
    simp only [powModAux, strict_eq]
    apply ih
    split
    · exact Nat.mod_lt _ hm
    · exact hacc

/-- `modpow` is the remainder of the power. -/
theorem powMod_eq (b e m : Nat) (hm : 0 < m) : powMod b e m = b ^ e % m := by
  have h := powModAux_modEq (Nat.log2 e + 1) (b % m) e m (1 % m) Nat.lt_log2_self
  have h2 : (1 % m) * (b % m) ^ e ≡ b ^ e [MOD m] := by
    simpa using (Nat.mod_modEq 1 m).mul ((Nat.mod_modEq b m).pow e)
  have h3 := h.trans h2
  have hlt := powModAux_lt (Nat.log2 e + 1) (b % m) e m (1 % m) hm (Nat.mod_lt _ hm)
  unfold powMod
  unfold Nat.ModEq at h3
  rwa [Nat.mod_eq_of_lt hlt] at h3

theorem powMod_lt (b e m : Nat) (hm : 0 < m) : powMod b e m < m := by
  rw [powMod_eq b e m hm]; exact Nat.mod_lt _ hm

end Verif
