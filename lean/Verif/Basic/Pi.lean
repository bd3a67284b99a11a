import Mathlib.Analysis.SpecialFunctions.Complex.Arctan
import Mathlib.Analysis.SpecificLimits.Normed

/-!
# Binary digits of π

Integer bounds for `2^e * π` by Machin's formula, with the arctangent series in fixed-point arithmetic.
-/

namespace Verif.Pi
open Filter Topology

/-- `Σ_{i<n} ⌊S / (m^(4i+d) * (4i+d))⌋`: every second term of the series for `arctan (1/m)`, scaled by `S`, from exponent
`d` on. -/
def terms (S m d : Nat) : Nat → Nat
  | 0 => 0
  | n + 1 => terms S m d n + S / (m ^ (4 * n + d) * (4 * n + d))

theorem terms_bounds (S m d n : Nat) (hm : 0 < m) (hd : 0 < d) :
    (terms S m d n : ℝ) ≤ S * ∑ i ∈ Finset.range n, (m : ℝ)⁻¹ ^ (4 * i + d) / ((4 * i + d : ℕ) : ℝ) ∧
    S * ∑ i ∈ Finset.range n, (m : ℝ)⁻¹ ^ (4 * i + d) / ((4 * i + d : ℕ) : ℝ) ≤ terms S m d n + n := by
  induction n with
  | zero => simp [terms]
  | succ n ih =>
    have hpos : 0 < m ^ (4 * n + d) * (4 * n + d) := Nat.mul_pos (Nat.pow_pos hm) (by omega)
    have hposR : (0 : ℝ) < ((m ^ (4 * n + d) * (4 * n + d) : ℕ) : ℝ) := by exact_mod_cast hpos
    have e : (S : ℝ) * ((m : ℝ)⁻¹ ^ (4 * n + d) / ((4 * n + d : ℕ) : ℝ)) =
        S / ((m ^ (4 * n + d) * (4 * n + d) : ℕ) : ℝ) := by
      rw [inv_pow, Nat.cast_mul, Nat.cast_pow, div_eq_mul_inv, div_eq_mul_inv, mul_inv]
    have h1 : ((S / (m ^ (4 * n + d) * (4 * n + d)) : ℕ) : ℝ) ≤ S / ((m ^ (4 * n + d) * (4 * n + d) : ℕ) : ℝ) :=
      Nat.cast_div_le
    have h2 : (S : ℝ) / ((m ^ (4 * n + d) * (4 * n + d) : ℕ) : ℝ) ≤
        ((S / (m ^ (4 * n + d) * (4 * n + d)) : ℕ) : ℝ) + 1 := by
      rw [div_le_iff₀ hposR]
      have := Nat.lt_div_mul_add (a := S) hpos
      have h3 : S ≤ (S / (m ^ (4 * n + d) * (4 * n + d)) + 1) * (m ^ (4 * n + d) * (4 * n + d)) := by
        rw [add_mul, one_mul]; exact this.le
      exact_mod_cast h3
    rw [Finset.sum_range_succ, mul_add, e, terms]
    rw [Nat.cast_add, Nat.cast_succ]
    exact ⟨by linarith [ih.1], by linarith [ih.2]⟩

theorem sum_split (f : ℕ → ℝ) (n : ℕ) : ∑ i ∈ Finset.range (2 * n), (-1) ^ i * f i =
    ∑ i ∈ Finset.range n, f (2 * i) - ∑ i ∈ Finset.range n, f (2 * i + 1) := by
  induction n with
  | zero => simp
  | succ n ih =>
    rw [show 2 * (n + 1) = 2 * n + 1 + 1 by ring, Finset.sum_range_succ, Finset.sum_range_succ, ih,
      Finset.sum_range_succ, Finset.sum_range_succ, pow_succ, pow_mul]
    norm_num
    ring

theorem arctan_bounds (S m n : Nat) (hm : 1 < m) (hS : S ≤ m ^ (4 * n + 1)) :
    (terms S m 1 n : ℝ) - terms S m 3 n - n ≤ S * Real.arctan (m : ℝ)⁻¹ ∧
    S * Real.arctan (m : ℝ)⁻¹ ≤ (terms S m 1 n : ℝ) - terms S m 3 n + n + 1 := by
  have hmR : (1 : ℝ) < m := by exact_mod_cast hm
  have hx0 : 0 < (m : ℝ)⁻¹ := by positivity
  have hx1 : (m : ℝ)⁻¹ < 1 := inv_lt_one_of_one_lt₀ hmR
  set f : ℕ → ℝ := fun i => (m : ℝ)⁻¹ ^ (2 * i + 1) / ((2 * i + 1 : ℕ) : ℝ) with hf
  have hsum : HasSum (fun i : ℕ => (-1) ^ i * f i) (Real.arctan (m : ℝ)⁻¹) := by
    have := Real.hasSum_arctan (x := (m : ℝ)⁻¹) (by rw [Real.norm_eq_abs, abs_of_pos hx0]; exact hx1)
    simpa only [hf, mul_div_assoc] using this
  have hanti : Antitone f := by
    refine antitone_nat_of_succ_le fun i => ?_
    simp only [hf]
    refine div_le_div₀ (by positivity) ?_ (by positivity) (by push_cast; linarith)
    exact pow_le_pow_of_le_one hx0.le hx1.le (by omega)
  have hlo := hanti.alternating_series_le_tendsto hsum.tendsto_sum_nat n
  have hhi := hanti.tendsto_le_alternating_series hsum.tendsto_sum_nat n
  rw [Finset.sum_range_succ, sum_split, pow_mul, neg_one_sq, one_pow, one_mul] at hhi
  rw [sum_split] at hlo
  have e1 : ∑ i ∈ Finset.range n, f (2 * i) =
      ∑ i ∈ Finset.range n, (m : ℝ)⁻¹ ^ (4 * i + 1) / ((4 * i + 1 : ℕ) : ℝ) :=
    Finset.sum_congr rfl fun i _ => by simp only [hf]; rw [show 2 * (2 * i) + 1 = 4 * i + 1 by ring]
  have e3 : ∑ i ∈ Finset.range n, f (2 * i + 1) =
      ∑ i ∈ Finset.range n, (m : ℝ)⁻¹ ^ (4 * i + 3) / ((4 * i + 3 : ℕ) : ℝ) :=
    Finset.sum_congr rfl fun i _ => by simp only [hf]; rw [show 2 * (2 * i + 1) + 1 = 4 * i + 3 by ring]
  rw [e1, e3] at hlo hhi
  obtain ⟨a1, a2⟩ := terms_bounds S m 1 n (by omega) (by omega)
  obtain ⟨b1, b2⟩ := terms_bounds S m 3 n (by omega) (by omega)
  have hlast : S * f (2 * n) ≤ 1 := by
    simp only [hf]
    rw [show 2 * (2 * n) + 1 = 4 * n + 1 by ring, inv_pow, inv_eq_one_div, div_div, mul_one_div, div_le_one (by positivity)]
    have h1 : (S : ℝ) ≤ (m : ℝ) ^ (4 * n + 1) := by exact_mod_cast hS
    have h2 : (1 : ℝ) ≤ ((4 * n + 1 : ℕ) : ℝ) := by exact_mod_cast Nat.succ_le_of_lt (by omega)
    have h3 : (0 : ℝ) ≤ (m : ℝ) ^ (4 * n + 1) := by positivity
    nlinarith
  have hS0 : (0 : ℝ) ≤ S := Nat.cast_nonneg S
  have l := mul_le_mul_of_nonneg_left hlo hS0
  have u := mul_le_mul_of_nonneg_left hhi hS0
  rw [mul_sub] at l
  rw [mul_add, mul_sub] at u
  exact ⟨by linarith, by linarith⟩

/-- What has to be computed: with `64` guard bits and `2 * n`, `2 * k` terms of the two series. -/
def Digits (e F n k : Nat) : Prop :=
  2 ^ (e + 64) ≤ 5 ^ (4 * n + 1) ∧ 2 ^ (e + 64) ≤ 239 ^ (4 * k + 1) ∧
  F * 2 ^ 64 + 16 * terms (2 ^ (e + 64)) 5 3 n + 16 * n + 4 * terms (2 ^ (e + 64)) 239 1 k + 4 * k + 4 ≤
    16 * terms (2 ^ (e + 64)) 5 1 n + 4 * terms (2 ^ (e + 64)) 239 3 k ∧
  16 * terms (2 ^ (e + 64)) 5 1 n + 16 * n + 16 + 4 * terms (2 ^ (e + 64)) 239 3 k + 4 * k <
    (F + 1) * 2 ^ 64 + 16 * terms (2 ^ (e + 64)) 5 3 n + 4 * terms (2 ^ (e + 64)) 239 1 k

instance (e F n k : Nat) : Decidable (Digits e F n k) := by unfold Digits; infer_instance

theorem floor_pi {e F n k : Nat} (h : Digits e F n k) : ⌊(2 : ℝ) ^ e * Real.pi⌋ = F := by
  obtain ⟨h5, h239, hlo, hhi⟩ := h
  have h1 := arctan_bounds (2 ^ (e + 64)) 5 n (by norm_num) h5
  have h2 := arctan_bounds (2 ^ (e + 64)) 239 k (by norm_num) h239
  have hpi := Real.four_mul_arctan_inv_5_sub_arctan_inv_239
  generalize terms (2 ^ (e + 64)) 5 1 n = p5 at *
  generalize terms (2 ^ (e + 64)) 5 3 n = n5 at *
  generalize terms (2 ^ (e + 64)) 239 1 k = p239 at *
  generalize terms (2 ^ (e + 64)) 239 3 k = n239 at *
  have hS : (((2 ^ (e + 64) : ℕ)) : ℝ) = 2 ^ e * 2 ^ 64 := by push_cast; rw [pow_add]
  rw [hS] at h1 h2
  push_cast at h1 h2
  have hlo' : (F : ℝ) * 2 ^ 64 + 16 * n5 + 16 * n + 4 * p239 + 4 * k + 4 ≤ 16 * p5 + 4 * n239 := by exact_mod_cast hlo
  have hhi' : (16 : ℝ) * p5 + 16 * n + 16 + 4 * n239 + 4 * k < (F + 1) * 2 ^ 64 + 16 * n5 + 4 * p239 := by
    exact_mod_cast hhi
  have key : (2 : ℝ) ^ e * Real.pi * 2 ^ 64 = 16 * (2 ^ e * 2 ^ 64 * Real.arctan 5⁻¹) -
      4 * (2 ^ e * 2 ^ 64 * Real.arctan 239⁻¹) := by
    linear_combination -(4 * 2 ^ e * 2 ^ 64 : ℝ) * hpi
  have h64 : (0 : ℝ) < 2 ^ 64 := by positivity
  rw [Int.floor_eq_iff]
  constructor
  · rw [← mul_le_mul_iff_left₀ h64, key]
    push_cast
    linarith [h1.1, h2.2]
  · rw [← mul_lt_mul_iff_left₀ h64, key]
    push_cast
    linarith [h1.2, h2.1]

end Verif.Pi
