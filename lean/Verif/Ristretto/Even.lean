import Verif.Ed25519.Order
import Mathlib.Tactic.FieldSimp
import Mathlib.Tactic.LinearCombination

/-!
# The doubles on the curve

ristretto255 is the group of doubles modulo the points of order dividing 4. This file shows that a point is a double
exactly when `1 - y^2` is a square, and lists the points of order dividing 4.
-/

namespace Verif.Ristretto
open Ed25519 (Fe Point edD sqrtM1)

/-- `SQRT_AD_MINUS_ONE` of curve25519-dalek 4.1.3 (`backend/serial/u64/constants.rs`), as a number. -/
def sqrtAdMinusOneNat : Nat := 25063068953384623474111414158702152701244531502492656460079210482610430750235

/-- `SQRT_AD_MINUS_ONE` -/
def sqrtAdMinusOne : Fe := (sqrtAdMinusOneNat : Fe)

theorem sqrtAdMinusOne_sq : sqrtAdMinusOne ^ 2 = -edD - 1 := by
  have : ((sqrtAdMinusOneNat ^ 2 + Ed25519.dNat + 1 : ℕ) : Fe) = ((0 : ℕ) : Fe) :=
    Ed25519.natCast_eq (by decide +kernel)
  push_cast at this
  rw [Ed25519.cast_d] at this
  show (sqrtAdMinusOneNat : Fe) ^ 2 = -edD - 1
  linear_combination this

theorem sqrtAdMinusOne_ne_zero : sqrtAdMinusOne ≠ 0 := by
  have : ((sqrtAdMinusOneNat : ℕ) : Fe) ≠ ((0 : ℕ) : Fe) := Ed25519.natCast_ne (by decide +kernel)
  rw [Nat.cast_zero] at this
  exact this

theorem sqrtM1_sq : sqrtM1 ^ 2 = -1 := by rw [sq]; exact Ed25519.sqrtM1_sq

theorem sqrtM1_ne_zero : sqrtM1 ≠ 0 := by
  intro h
  have := sqrtM1_sq
  rw [h] at this
  have h1 : (1 : Fe) = 0 := by linear_combination this
  exact one_ne_zero h1

/-- The identity behind the encoding. -/
theorem one_sub_mul_one_add (P : Point) :
    (1 - P.y ^ 2) * (1 + P.x ^ 2) = (sqrtAdMinusOne * (P.x * P.y)) ^ 2 := by
  have h := sqrtAdMinusOne_sq
  linear_combination (P.x * P.y) ^ 2 * (-h) - P.on

/-! ## A double has a square -/

theorem double_square (Q : Point) : IsSquare (1 - (Q + Q).y ^ 2) := by
  have hd := Edwards.denom_sub Q Q
  refine ⟨2 * (sqrtAdMinusOne * (Q.x * Q.y)) / (1 - edD * Q.x * Q.x * Q.y * Q.y), ?_⟩
  have h1 := one_sub_mul_one_add Q
  have h2 := Q.on
  rw [Edwards.add_y, div_pow, eq_comm, div_mul_div_comm, ← sq, ← sq, eq_sub_iff_add_eq, ← add_div,
    div_eq_one_iff_eq (pow_ne_zero 2 hd), mul_pow 2, ← h1]
  linear_combination (-(1 - edD * Q.x * Q.x * Q.y * Q.y) + (-2 - Q.x ^ 2 + Q.y ^ 2)) * h2 * (1 : Fe)

/-! ## A square gives a double -/

open Ed25519 (tors base gen ell_base eight_tors exists_gen)

theorem tors_y : tors.y = sqrtM1 * tors.x := by
  have : ((55188659117513257062467267217118295137698188065244968500265048394206261417927 : ℕ) : Fe) =
      ((Ed25519.sqrtM1Nat * 14399317868200118260347934320527232580618823971194345261214217575416788799818 : ℕ) : Fe) :=
    Ed25519.natCast_eq (by decide +kernel)
  rw [Nat.cast_mul] at this
  exact this

theorem tors_x_ne_zero : tors.x ≠ 0 := by
  have : ((14399317868200118260347934320527232580618823971194345261214217575416788799818 : ℕ) : Fe) ≠ ((0 : ℕ) : Fe) :=
    Ed25519.natCast_ne (by decide +kernel)
  rw [Nat.cast_zero] at this
  exact this

theorem tors_d : edD * tors.x ^ 4 = 1 + 2 * tors.x ^ 2 := by
  have h := tors.on
  have hi := sqrtM1_sq
  rw [tors_y] at h
  linear_combination h - (tors.x ^ 2 - edD * tors.x ^ 4) * hi

/-- A non-zero square has power `p/2` equal to 1. -/
theorem sq_pow_half {z : Fe} (h : IsSquare z) (h0 : z ≠ 0) : z ^ (p25519 / 2) = 1 := by
  rw [ZMod.euler_criterion p25519 h0] at h
  exact h

theorem not_square_of_pow {n : Nat} (h : powMod n (p25519 / 2) p25519 = p25519 - 1) : ¬ IsSquare (n : Fe) := by
  intro hs
  have hp : ((n : ℕ) : Fe) ^ (p25519 / 2) = ((p25519 - 1 : ℕ) : Fe) := by
    refine Ed25519.natCast_pow ?_
    rw [h]
    decide +kernel
  have h0 : (n : Fe) ≠ 0 := by
    intro h0
    rw [h0, zero_pow (by decide +kernel)] at hp
    have : ((0 : ℕ) : Fe) ≠ ((p25519 - 1 : ℕ) : Fe) := Ed25519.natCast_ne (by decide +kernel)
    rw [Nat.cast_zero] at this
    exact this hp
  have h1 := sq_pow_half hs h0
  rw [hp] at h1
  have : ((p25519 - 1 : ℕ) : Fe) ≠ ((1 : ℕ) : Fe) := Ed25519.natCast_ne (by decide +kernel)
  rw [Nat.cast_one] at this
  exact this h1

theorem tors_not_square : ¬ IsSquare (1 - tors.y ^ 2) := by
  have h : ¬ IsSquare ((1 + 14399317868200118260347934320527232580618823971194345261214217575416788799818 ^ 2 : ℕ) : Fe) :=
    not_square_of_pow (by decide +kernel)
  have e : 1 - tors.y ^ 2 = 1 + tors.x ^ 2 := by
    rw [tors_y]
    linear_combination (-tors.x ^ 2) * sqrtM1_sq
  rw [e]
  rw [Nat.cast_add, Nat.cast_pow, Nat.cast_one] at h
  exact h

theorem x_eq_zero_of_y_sq {P : Point} (h : P.y ^ 2 = 1) : P.x = 0 := by
  have h1 := P.on
  have h2 := sqrtAdMinusOne_sq
  have h3 : (sqrtAdMinusOne * P.x) ^ 2 = 0 := by
    linear_combination P.x ^ 2 * h2 + h1 + (-1 + edD * P.x ^ 2) * h
  have h4 := pow_eq_zero_iff (two_ne_zero) |>.1 h3
  rcases mul_eq_zero.1 h4 with h | h
  · exact absurd h sqrtAdMinusOne_ne_zero
  · exact h

/-- Adding the point of order 8 turns squares into non-squares. -/
theorem square_add_tors {P : Point} (h : IsSquare (1 - P.y ^ 2)) : ¬ IsSquare (1 - (P + tors).y ^ 2) := by
  have hn := tors_not_square
  have hi := sqrtM1_sq
  have hty := tors_y
  have htd := tors_d
  have ha := tors_x_ne_zero
  have hon := P.on
  obtain ⟨s, hs⟩ := h
  by_cases h0 : s = 0
  · have hy : P.y ^ 2 = 1 := by
      rw [h0] at hs
      linear_combination -hs
    have hx := x_eq_zero_of_y_sq hy
    have : (P + tors).y ^ 2 = tors.y ^ 2 := by
      rw [Edwards.add_y, hx]
      simp only [mul_zero, zero_mul, sub_zero, add_zero, div_one]
      rw [mul_pow, hy, one_mul]
    rwa [this]
  · intro hsq
    have hd := Edwards.denom_sub P tors
    set m := P.x * P.y with hm
    set r : Fe := (1 + tors.x ^ 2) / tors.x ^ 2 with hr
    have hra : r * tors.x ^ 2 = 1 + tors.x ^ 2 := by
      rw [hr]
      field_simp
    have hr2 : r ^ 2 = 1 + edD := by
      have : (r ^ 2 - (1 + edD)) * tors.x ^ 4 = 0 := by
        linear_combination (r * tors.x ^ 2 + 1 + tors.x ^ 2) * hra - htd
      rcases mul_eq_zero.1 this with h | h
      · linear_combination h
      · exact absurd h (pow_ne_zero 4 ha)
    have hden : 1 - edD * P.x * tors.x * P.y * tors.y = 1 - sqrtM1 * edD * tors.x ^ 2 * m := by
      rw [hty, hm]
      ring
    rw [Edwards.add_y, hden] at hsq
    rw [hden] at hd
    have key : (1 - sqrtM1 * edD * tors.x ^ 2 * m) ^ 2 - (P.y * tors.y + P.x * tors.x) ^ 2 =
        (1 - tors.y ^ 2) * (s - sqrtM1 * r * m / s) ^ 2 := by
      have e1 : (s - sqrtM1 * r * m / s) ^ 2 = s ^ 2 - 2 * (sqrtM1 * r * m) + (1 + P.x ^ 2) := by
        have : (sqrtM1 * r * m) ^ 2 = s ^ 2 * (1 + P.x ^ 2) := by
          rw [mul_pow, mul_pow, hi, hr2, hm]
          linear_combination (1 + P.x ^ 2) * hs + hon
        field_simp
        linear_combination this
      rw [e1, hty]
      have hrd : edD * tors.x ^ 2 = r * (1 + tors.x ^ 2) - tors.x ^ 2 := by
        have : (edD * tors.x ^ 2 - (r * (1 + tors.x ^ 2) - tors.x ^ 2)) * tors.x ^ 2 = 0 := by
          linear_combination htd - (1 + tors.x ^ 2) * hra
        rcases mul_eq_zero.1 this with h | h
        · linear_combination h
        · exact absurd h (pow_ne_zero 2 ha)
      have hm2 : m ^ 2 = P.x ^ 2 * P.y ^ 2 := by rw [hm]; ring
      linear_combination (-2 * sqrtM1 * m) * hrd + (sqrtM1 ^ 2 * edD * m ^ 2) * htd +
        (1 - sqrtM1 ^ 2 * tors.x ^ 2) * hs + (1 + 2 * tors.x ^ 2) * hon +
        (edD * m ^ 2 * (1 + 2 * tors.x ^ 2) - tors.x ^ 2 * P.y ^ 2 +
          tors.x ^ 2 * (2 - P.y ^ 2 + P.x ^ 2 - 2 * sqrtM1 * r * m)) * hi -
        (edD * (1 + 2 * tors.x ^ 2)) * hm2 + (2 * sqrtM1 * tors.x ^ 2) * hm
    have hq : 1 - ((P.y * tors.y + P.x * tors.x) / (1 - sqrtM1 * edD * tors.x ^ 2 * m)) ^ 2 =
        (1 - tors.y ^ 2) * ((s - sqrtM1 * r * m / s) / (1 - sqrtM1 * edD * tors.x ^ 2 * m)) ^ 2 := by
      rw [div_pow, div_pow, mul_div_assoc', eq_div_iff (pow_ne_zero 2 hd), sub_mul,
        div_mul_cancel₀ _ (pow_ne_zero 2 hd), one_mul]
      exact key
    rw [hq] at hsq
    by_cases hz : (s - sqrtM1 * r * m / s) / (1 - sqrtM1 * edD * tors.x ^ 2 * m) = 0
    · -- then `P` differs from the point of order 8 by a point of order 2
      rw [hz, ← hden, ← Edwards.add_y] at hq
      have hy : (P + tors).y ^ 2 = 1 := by linear_combination -hq
      have hx := x_eq_zero_of_y_sq hy
      have hP : P = (P + tors) + -tors := by abel
      have : P.y ^ 2 = tors.y ^ 2 := by
        rw [hP, Edwards.add_y, hx]
        simp only [mul_zero, zero_mul, sub_zero, add_zero, div_one, Edwards.neg_y]
        rw [mul_pow, hy, one_mul]
      rw [← this] at hn
      exact hn ⟨s, hs⟩
    · refine hn ?_
      obtain ⟨w, hw⟩ := hsq
      refine ⟨w / ((s - sqrtM1 * r * m / s) / (1 - sqrtM1 * edD * tors.x ^ 2 * m)), ?_⟩
      rw [div_mul_div_comm, ← hw, ← sq, mul_div_cancel_right₀ _ (pow_ne_zero 2 hz)]

theorem base_double : base = ((ell + 1) / 2) • base + ((ell + 1) / 2) • base := by
  rw [← add_nsmul]
  have : (ell + 1) / 2 + (ell + 1) / 2 = ell + 1 := by decide +kernel
  rw [this, add_nsmul, ell_base, zero_add, one_nsmul]

/-- A point is a double exactly when `1 - y^2` is a square. -/
theorem double_iff (P : Point) : (∃ Q : Point, P = Q + Q) ↔ IsSquare (1 - P.y ^ 2) := by
  constructor
  · rintro ⟨Q, rfl⟩
    exact double_square Q
  · intro h
    obtain ⟨n, hn⟩ := exists_gen P
    rcases Nat.even_or_odd' n with ⟨k, hk | hk⟩
    · exact ⟨k • gen, by rw [hn, hk, two_mul, add_nsmul]⟩
    · refine absurd ?_ (square_add_tors h)
      have : P + tors = (k • gen + ((ell + 1) / 2) • base + tors) + (k • gen + ((ell + 1) / 2) • base + tors) := by
        have hg : gen = base + tors := rfl
        rw [hn, hk, add_nsmul, one_nsmul, two_mul, add_nsmul]
        nth_rw 3 [hg]
        nth_rw 1 [base_double]
        abel
      rw [this]
      exact double_square _

/-! ## Points of order dividing 4 -/

theorem four_torsion_iff (P : Point) : (P + P) + (P + P) = 0 ↔ P.x * P.y = 0 := by
  have hdx (Q : Point) : (Q + Q).x * (1 + edD * Q.x * Q.x * Q.y * Q.y) = 2 * (Q.x * Q.y) := by
    rw [Edwards.add_x_mul]
    ring
  have hdy (Q : Point) : (Q + Q).y * (1 - edD * Q.x * Q.x * Q.y * Q.y) = Q.y ^ 2 + Q.x ^ 2 := by
    rw [Edwards.add_y_mul]
    ring
  constructor
  · intro h
    have hx := hdx (P + P)
    have hy := hdy (P + P)
    rw [h, Edwards.zero_x, zero_mul] at hx
    rw [h, Edwards.zero_y, one_mul] at hy
    have hxy : (P + P).x * (P + P).y = 0 := by
      rcases mul_eq_zero.1 hx.symm with h | h
      · exact absurd h Ed25519.two_ne_zero'
      · exact h
    have hx0 : (P + P).x = 0 := by
      rcases mul_eq_zero.1 hxy with h | h
      · exact h
      · have hon := (P + P).on
        rw [h] at hon hy
        have : (2 : Fe) = 0 := by linear_combination hy - hon
        exact absurd this Ed25519.two_ne_zero'
    have := hdx P
    rw [hx0, zero_mul] at this
    rcases mul_eq_zero.1 this.symm with h | h
    · exact absurd h Ed25519.two_ne_zero'
    · exact h
  · intro h
    have e : edD * P.x * P.x * P.y * P.y = 0 := by
      have : edD * P.x * P.x * P.y * P.y = edD * (P.x * P.y) ^ 2 := by ring
      rw [this, h]
      ring
    have hx := hdx P
    have hy := hdy P
    rw [e, add_zero, mul_one, h, mul_zero] at hx
    rw [e, sub_zero, mul_one] at hy
    have hon := (P + P).on
    rw [hx] at hon
    have hyy : (P + P).y ^ 2 = 1 := by linear_combination hon
    apply Edwards.Point.ext
    · rw [Edwards.add_x, hx, Edwards.zero_x]
      simp
    · rw [Edwards.add_y, hx, Edwards.zero_y]
      simp only [mul_zero, zero_mul, sub_zero, add_zero, div_one]
      rw [← sq, hyy]

end Verif.Ristretto
