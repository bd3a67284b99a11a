import Mathlib.Algebra.Field.Basic
import Mathlib.Algebra.Group.Even
import Mathlib.Tactic.LinearCombination
import Mathlib.Tactic.FieldSimp
import Mathlib.Tactic.Ring

/-!
# Twisted Edwards curves with `a = -1`

`-x^2 + y^2 = 1 + d x^2 y^2` over a field in which `-1` is a square and `d` is not: the addition law
(x1, y1) + (x2, y2) = ((x1 y2 + y1 x2) / (1 + d x1 x2 y1 y2), (y1 y2 + x1 x2) / (1 - d x1 x2 y1 y2))
has no exceptions and makes the points an abelian group. This is the group that curve25519-dalek's
`EdwardsPoint` computes with (there in extended coordinates).
-/

set_option linter.unusedSectionVars false

namespace Verif.Edwards

variable {F : Type} [Field F]

/-- The affine points. -/
@[ext] structure Point (d : F) where
  x : F
  y : F
  on : y ^ 2 - x ^ 2 = 1 + d * x ^ 2 * y ^ 2

instance (d : F) [DecidableEq F] : DecidableEq (Point d) := fun P Q =>
  if h : P.x = Q.x ∧ P.y = Q.y then isTrue (Point.ext h.1 h.2)
  else isFalse fun e => h ⟨e ▸ rfl, e ▸ rfl⟩

/-- The conditions for completeness. -/
class Complete (d : F) : Prop where
  two : (2 : F) ≠ 0
  neg_one : IsSquare (-1 : F)
  not_square : ¬ IsSquare d

/-- The denominators do not vanish. -/
theorem denom_ne_zero (d : F) [hd : Complete d] {x1 y1 x2 y2 : F}
    (h1 : y1 ^ 2 - x1 ^ 2 = 1 + d * x1 ^ 2 * y1 ^ 2)
    (h2 : y2 ^ 2 - x2 ^ 2 = 1 + d * x2 ^ 2 * y2 ^ 2) (s : F) (hs : s * s = 1) :
    1 + s * (d * x1 * x2 * y1 * y2) ≠ 0 := by
  intro h0
  obtain ⟨i, hi⟩ := hd.neg_one
  have hi2 : i * i = -1 := hi.symm
  have ht : d * x1 * x2 * y1 * y2 = -s := by linear_combination s * h0 - (d * x1 * x2 * y1 * y2) * hs
  have hs0 : s ≠ 0 := by rintro rfl; simp at hs
  have hne : d * x1 * x2 * y1 * y2 ≠ 0 := by rw [ht]; exact neg_ne_zero.2 hs0
  have hx1 : x1 ≠ 0 := by rintro rfl; simp at hne
  have hy1 : y1 ≠ 0 := by rintro rfl; simp at hne
  have hy2 : y2 ≠ 0 := by rintro rfl; simp at hne
  -- `(y1 + e i x1)^2 = d (x1 y1 (y2 - e s i x2))^2` for `e = 1, -1`
  have key : ∀ e : F, (y1 + e * i * x1) ^ 2 = d * (x1 * y1 * (y2 - e * s * i * x2)) ^ 2 ∨ e * e ≠ 1 := by
    intro e
    by_cases he : e * e = 1
    · left
      have hcore : d * x1 ^ 2 * y1 ^ 2 * (y2 ^ 2 - x2 ^ 2) = y1 ^ 2 - x1 ^ 2 := by
        linear_combination (d * x1 ^ 2 * y1 ^ 2) * h2 - h1 +
          (d * x1 * x2 * y1 * y2 - s) * ht + hs
      linear_combination -hcore + (2 * e * i * x1 * y1) * (s * ht - hs) +
        (x1 ^ 2 - d * (x1 * y1) ^ 2 * s ^ 2 * x2 ^ 2) * (e ^ 2 * hi2 - he) -
        d * (x1 * y1) ^ 2 * x2 ^ 2 * (-hs)
    · exact Or.inr he
  have sq : ∀ e : F, e * e = 1 → y2 - e * s * i * x2 = 0 := by
    intro e he
    by_contra hne0
    have hk := (key e).resolve_right (not_not_intro he)
    apply hd.not_square
    refine ⟨(y1 + e * i * x1) / (x1 * y1 * (y2 - e * s * i * x2)), ?_⟩
    have hw : x1 * y1 * (y2 - e * s * i * x2) ≠ 0 := mul_ne_zero (mul_ne_zero hx1 hy1) hne0
    rw [div_mul_div_comm, eq_div_iff (mul_ne_zero hw hw)]
    linear_combination -hk
  have ha := sq 1 (by ring)
  have hb := sq (-1) (by ring)
  have : 2 * y2 = 0 := by linear_combination ha + hb
  rcases mul_eq_zero.1 this with h | h
  · exact hd.two h
  · exact hy2 h

section
variable {d : F} [Complete d]

theorem denom_add (P Q : Point d) : 1 + d * P.x * Q.x * P.y * Q.y ≠ 0 := by
  have := denom_ne_zero d P.on Q.on 1 (by ring)
  rwa [one_mul] at this

theorem denom_sub (P Q : Point d) : 1 - d * P.x * Q.x * P.y * Q.y ≠ 0 := by
  have := denom_ne_zero d P.on Q.on (-1) (by ring)
  rwa [neg_one_mul, ← sub_eq_add_neg] at this

theorem closure_poly {x1 y1 x2 y2 : F} (h1 : y1 ^ 2 - x1 ^ 2 = 1 + d * x1 ^ 2 * y1 ^ 2)
    (h2 : y2 ^ 2 - x2 ^ 2 = 1 + d * x2 ^ 2 * y2 ^ 2) :
    (y1 * y2 + x1 * x2) ^ 2 * (1 + d * x1 * x2 * y1 * y2) ^ 2 -
        (x1 * y2 + y1 * x2) ^ 2 * (1 - d * x1 * x2 * y1 * y2) ^ 2 =
      ((1 + d * x1 * x2 * y1 * y2) * (1 - d * x1 * x2 * y1 * y2)) ^ 2 +
        d * (x1 * y2 + y1 * x2) ^ 2 * (y1 * y2 + x1 * x2) ^ 2 := by
  linear_combination
      (y2^4 - 4*x2^2*y2^2 - 2*x2^2*y2^2*d + 2*x2^2*y2^4 + x2^4 - 2*x2^4*y2^2 - 2*x2^4*y2^4*d -
      x2^4*y2^4*d^2 - y1^2*x2^2*y2^4*d + y1^2*x2^4*y2^2*d + y1^2*x2^4*y2^4*d^2 + x1^2*x2^2*y2^4*d -
      x1^2*x2^4*y2^2*d - x1^2*x2^4*y2^4*d^2 + x1^2*y1^2*x2^4*y2^4*d^3) * h1 + (1 + y2^2 - x2^2 +
      2*x2^2*y2^2 + x2^2*y2^2*d - y1^2*y2^2 + y1^2*x2^2 - 2*y1^2*x2^2*y2^2 - 2*y1^2*x2^2*y2^2*d +
      y1^4*x2^2*y2^2*d + x1^2*y2^2 - x1^2*x2^2 + 2*x1^2*x2^2*y2^2 + 2*x1^2*x2^2*y2^2*d +
      x1^4*x2^2*y2^2*d) * h2

instance : Zero (Point d) := ⟨⟨0, 1, by ring⟩⟩
instance : Neg (Point d) := ⟨fun P => ⟨-P.x, P.y, by linear_combination P.on⟩⟩
instance : Add (Point d) := ⟨fun P Q =>
  ⟨(P.x * Q.y + P.y * Q.x) / (1 + d * P.x * Q.x * P.y * Q.y),
    (P.y * Q.y + P.x * Q.x) / (1 - d * P.x * Q.x * P.y * Q.y), by
    have ha := denom_add P Q
    have hs := denom_sub P Q
    have key := closure_poly P.on Q.on
    rw [div_pow, div_pow, mul_div_assoc', mul_div_assoc', div_mul_eq_mul_div, div_div,
      div_sub_div _ _ (pow_ne_zero 2 hs) (pow_ne_zero 2 ha),
      one_add_div (mul_ne_zero (pow_ne_zero 2 ha) (pow_ne_zero 2 hs)),
      div_eq_div_iff (mul_ne_zero (pow_ne_zero 2 hs) (pow_ne_zero 2 ha))
        (mul_ne_zero (pow_ne_zero 2 ha) (pow_ne_zero 2 hs))]
    linear_combination ((1 + d * P.x * Q.x * P.y * Q.y) ^ 2 * (1 - d * P.x * Q.x * P.y * Q.y) ^ 2) *
      key⟩⟩

@[simp] theorem zero_x : (0 : Point d).x = 0 := rfl
@[simp] theorem zero_y : (0 : Point d).y = 1 := rfl
@[simp] theorem neg_x (P : Point d) : (-P).x = -P.x := rfl
@[simp] theorem neg_y (P : Point d) : (-P).y = P.y := rfl

theorem add_x (P Q : Point d) :
    (P + Q).x = (P.x * Q.y + P.y * Q.x) / (1 + d * P.x * Q.x * P.y * Q.y) := rfl
theorem add_y (P Q : Point d) :
    (P + Q).y = (P.y * Q.y + P.x * Q.x) / (1 - d * P.x * Q.x * P.y * Q.y) := rfl

theorem add_x_mul (P Q : Point d) :
    (P + Q).x * (1 + d * P.x * Q.x * P.y * Q.y) = P.x * Q.y + P.y * Q.x := by
  rw [add_x, div_mul_cancel₀ _ (denom_add P Q)]
theorem add_y_mul (P Q : Point d) :
    (P + Q).y * (1 - d * P.x * Q.x * P.y * Q.y) = P.y * Q.y + P.x * Q.x := by
  rw [add_y, div_mul_cancel₀ _ (denom_sub P Q)]

theorem assoc_x_poly {x1 y1 x2 y2 x3 y3 : F} (h1 : y1 ^ 2 - x1 ^ 2 = 1 + d * x1 ^ 2 * y1 ^ 2)
    (h2 : y2 ^ 2 - x2 ^ 2 = 1 + d * x2 ^ 2 * y2 ^ 2)
    (h3 : y3 ^ 2 - x3 ^ 2 = 1 + d * x3 ^ 2 * y3 ^ 2) :
    ((x1 * y2 + y1 * x2) * (1 - d * x1 * x2 * y1 * y2) * y3 +
        (y1 * y2 + x1 * x2) * (1 + d * x1 * x2 * y1 * y2) * x3) *
      ((1 + d * x2 * x3 * y2 * y3) * (1 - d * x2 * x3 * y2 * y3) +
        d * x1 * y1 * (x2 * y3 + y2 * x3) * (y2 * y3 + x2 * x3)) =
    (x1 * (y2 * y3 + x2 * x3) * (1 + d * x2 * x3 * y2 * y3) +
        y1 * (x2 * y3 + y2 * x3) * (1 - d * x2 * x3 * y2 * y3)) *
      ((1 + d * x1 * x2 * y1 * y2) * (1 - d * x1 * x2 * y1 * y2) +
        d * (x1 * y2 + y1 * x2) * (y1 * y2 + x1 * x2) * x3 * y3) := by
  linear_combination
      (-y1*x2*y2^4*x3^2*y3*d - y1*x2^2*y2^3*x3*d - y1*x2^2*y2^3*x3^3*d - y1*x2^3*y2^2*y3*d +
      y1*x2^3*y2^2*y3^3*d + y1*x2^3*y2^4*x3^2*y3*d^2 + y1*x2^4*y2*x3*y3^2*d +
      y1*x2^4*y2^3*x3*y3^2*d^2 + x1*x2*y2^4*x3*y3^2*d - x1*x2^2*y2^3*y3*d + x1*x2^2*y2^3*y3^3*d -
      x1*x2^3*y2^2*x3*d - x1*x2^3*y2^2*x3^3*d - x1*x2^3*y2^4*x3*y3^2*d^2 - x1*x2^4*y2*x3^2*y3*d -
      x1*x2^4*y2^3*x3^2*y3*d^2) * h1 + (y1*y2*x3 - y1*y2*x3*y3^2 + y1*y2*x3^3 + y1*y2*x3^3*y3^2*d +
      y1*x2*y3 - y1*x2*y3^3 + y1*x2*x3^2*y3 + y1*x2*x3^2*y3^3*d - y1*x2*y2^2*x3^2*y3*d -
      y1*x2^2*y2*x3*y3^2*d - y1^3*y2*x3 + y1^3*y2*x3*y3^2 - y1^3*y2*x3^3 - y1^3*y2*x3^3*y3^2*d -
      y1^3*x2*y3 + y1^3*x2*y3^3 - y1^3*x2*x3^2*y3 - y1^3*x2*x3^2*y3^3*d + y1^3*x2*y2^2*x3^2*y3*d +
      y1^3*x2^2*y2*x3*y3^2*d + x1*y2*y3 - x1*y2*y3^3 + x1*y2*x3^2*y3 + x1*y2*x3^2*y3^3*d + x1*x2*x3
      - x1*x2*x3*y3^2 + x1*x2*x3^3 + x1*x2*x3^3*y3^2*d + x1*x2*y2^2*x3*y3^2*d + x1*x2^2*y2*x3^2*y3*d
      - x1*y1^2*y2*y3 + x1*y1^2*y2*y3^3 - x1*y1^2*y2*x3^2*y3 - x1*y1^2*y2*x3^2*y3^3*d -
      x1*y1^2*x2*x3 + x1*y1^2*x2*x3*y3^2 - x1*y1^2*x2*x3^3 - x1*y1^2*x2*x3^3*y3^2*d -
      x1*y1^2*x2*y2^2*x3*y3^2*d + x1*y1^2*x2*y2^2*x3^3*y3^2*d^2 - x1*y1^2*x2^2*y2*x3^2*y3*d -
      x1*y1^2*x2^2*y2*x3^2*y3^3*d^2 + x1^2*y1*y2*x3 - x1^2*y1*y2*x3*y3^2 + x1^2*y1*y2*x3^3 +
      x1^2*y1*y2*x3^3*y3^2*d + x1^2*y1*x2*y3 - x1^2*y1*x2*y3^3 + x1^2*y1*x2*x3^2*y3 +
      x1^2*y1*x2*x3^2*y3^3*d - x1^2*y1*x2*y2^2*x3^2*y3*d - x1^2*y1*x2*y2^2*x3^2*y3^3*d^2 -
      x1^2*y1*x2^2*y2*x3*y3^2*d + x1^2*y1*x2^2*y2*x3^3*y3^2*d^2 + x1^3*y2*y3 - x1^3*y2*y3^3 +
      x1^3*y2*x3^2*y3 + x1^3*y2*x3^2*y3^3*d + x1^3*x2*x3 - x1^3*x2*x3*y3^2 + x1^3*x2*x3^3 +
      x1^3*x2*x3^3*y3^2*d + x1^3*x2*y2^2*x3*y3^2*d + x1^3*x2^2*y2*x3^2*y3*d) * h2 + (-y1*y2*x3 +
      y1*y2^3*x3 - y1*x2*y3 + y1*x2*y2^2*y3 - y1*x2^2*y2*x3 - y1*x2^3*y3 + y1^3*y2*x3 - y1^3*y2^3*x3
      + y1^3*x2*y3 - y1^3*x2*y2^2*y3 + y1^3*x2^2*y2*x3 + y1^3*x2^3*y3 - x1*y2*y3 + x1*y2^3*y3 -
      x1*x2*x3 + x1*x2*y2^2*x3 - x1*x2^2*y2*y3 - x1*x2^3*x3 + x1*y1^2*y2*y3 - x1*y1^2*y2^3*y3 +
      x1*y1^2*x2*x3 - x1*y1^2*x2*y2^2*x3 - x1*y1^2*x2*y2^2*x3*d + x1*y1^2*x2^2*y2*y3 +
      x1*y1^2*x2^2*y2*y3*d + x1*y1^2*x2^3*x3 - x1^2*y1*y2*x3 + x1^2*y1*y2^3*x3 - x1^2*y1*x2*y3 +
      x1^2*y1*x2*y2^2*y3 + x1^2*y1*x2*y2^2*y3*d - x1^2*y1*x2^2*y2*x3 - x1^2*y1*x2^2*y2*x3*d -
      x1^2*y1*x2^3*y3 - x1^3*y2*y3 + x1^3*y2^3*y3 - x1^3*x2*x3 + x1^3*x2*y2^2*x3 - x1^3*x2^2*y2*y3 -
      x1^3*x2^3*x3) * h3

theorem assoc_y_poly {x1 y1 x2 y2 x3 y3 : F} (h1 : y1 ^ 2 - x1 ^ 2 = 1 + d * x1 ^ 2 * y1 ^ 2)
    (h2 : y2 ^ 2 - x2 ^ 2 = 1 + d * x2 ^ 2 * y2 ^ 2)
    (h3 : y3 ^ 2 - x3 ^ 2 = 1 + d * x3 ^ 2 * y3 ^ 2) :
    ((y1 * y2 + x1 * x2) * (1 + d * x1 * x2 * y1 * y2) * y3 +
        (x1 * y2 + y1 * x2) * (1 - d * x1 * x2 * y1 * y2) * x3) *
      ((1 + d * x2 * x3 * y2 * y3) * (1 - d * x2 * x3 * y2 * y3) -
        d * x1 * y1 * (x2 * y3 + y2 * x3) * (y2 * y3 + x2 * x3)) =
    (y1 * (y2 * y3 + x2 * x3) * (1 + d * x2 * x3 * y2 * y3) +
        x1 * (x2 * y3 + y2 * x3) * (1 - d * x2 * x3 * y2 * y3)) *
      ((1 + d * x1 * x2 * y1 * y2) * (1 - d * x1 * x2 * y1 * y2) -
        d * (x1 * y2 + y1 * x2) * (y1 * y2 + x1 * x2) * x3 * y3) := by
  linear_combination
      (y1*x2*y2^4*x3*y3^2*d - y1*x2^2*y2^3*y3*d + y1*x2^2*y2^3*y3^3*d - y1*x2^3*y2^2*x3*d -
      y1*x2^3*y2^2*x3^3*d - y1*x2^3*y2^4*x3*y3^2*d^2 - y1*x2^4*y2*x3^2*y3*d -
      y1*x2^4*y2^3*x3^2*y3*d^2 - x1*x2*y2^4*x3^2*y3*d - x1*x2^2*y2^3*x3*d - x1*x2^2*y2^3*x3^3*d -
      x1*x2^3*y2^2*y3*d + x1*x2^3*y2^2*y3^3*d + x1*x2^3*y2^4*x3^2*y3*d^2 + x1*x2^4*y2*x3*y3^2*d +
      x1*x2^4*y2^3*x3*y3^2*d^2) * h1 + (y1*y2*y3 - y1*y2*y3^3 + y1*y2*x3^2*y3 + y1*y2*x3^2*y3^3*d +
      y1*x2*x3 - y1*x2*x3*y3^2 + y1*x2*x3^3 + y1*x2*x3^3*y3^2*d + y1*x2*y2^2*x3*y3^2*d +
      y1*x2^2*y2*x3^2*y3*d - y1^3*y2*y3 + y1^3*y2*y3^3 - y1^3*y2*x3^2*y3 - y1^3*y2*x3^2*y3^3*d -
      y1^3*x2*x3 + y1^3*x2*x3*y3^2 - y1^3*x2*x3^3 - y1^3*x2*x3^3*y3^2*d - y1^3*x2*y2^2*x3*y3^2*d -
      y1^3*x2^2*y2*x3^2*y3*d + x1*y2*x3 - x1*y2*x3*y3^2 + x1*y2*x3^3 + x1*y2*x3^3*y3^2*d + x1*x2*y3
      - x1*x2*y3^3 + x1*x2*x3^2*y3 + x1*x2*x3^2*y3^3*d - x1*x2*y2^2*x3^2*y3*d - x1*x2^2*y2*x3*y3^2*d
      - x1*y1^2*y2*x3 + x1*y1^2*y2*x3*y3^2 - x1*y1^2*y2*x3^3 - x1*y1^2*y2*x3^3*y3^2*d -
      x1*y1^2*x2*y3 + x1*y1^2*x2*y3^3 - x1*y1^2*x2*x3^2*y3 - x1*y1^2*x2*x3^2*y3^3*d +
      x1*y1^2*x2*y2^2*x3^2*y3*d + x1*y1^2*x2*y2^2*x3^2*y3^3*d^2 + x1*y1^2*x2^2*y2*x3*y3^2*d -
      x1*y1^2*x2^2*y2*x3^3*y3^2*d^2 + x1^2*y1*y2*y3 - x1^2*y1*y2*y3^3 + x1^2*y1*y2*x3^2*y3 +
      x1^2*y1*y2*x3^2*y3^3*d + x1^2*y1*x2*x3 - x1^2*y1*x2*x3*y3^2 + x1^2*y1*x2*x3^3 +
      x1^2*y1*x2*x3^3*y3^2*d + x1^2*y1*x2*y2^2*x3*y3^2*d - x1^2*y1*x2*y2^2*x3^3*y3^2*d^2 +
      x1^2*y1*x2^2*y2*x3^2*y3*d + x1^2*y1*x2^2*y2*x3^2*y3^3*d^2 + x1^3*y2*x3 - x1^3*y2*x3*y3^2 +
      x1^3*y2*x3^3 + x1^3*y2*x3^3*y3^2*d + x1^3*x2*y3 - x1^3*x2*y3^3 + x1^3*x2*x3^2*y3 +
      x1^3*x2*x3^2*y3^3*d - x1^3*x2*y2^2*x3^2*y3*d - x1^3*x2^2*y2*x3*y3^2*d) * h2 + (-y1*y2*y3 +
      y1*y2^3*y3 - y1*x2*x3 + y1*x2*y2^2*x3 - y1*x2^2*y2*y3 - y1*x2^3*x3 + y1^3*y2*y3 - y1^3*y2^3*y3
      + y1^3*x2*x3 - y1^3*x2*y2^2*x3 + y1^3*x2^2*y2*y3 + y1^3*x2^3*x3 - x1*y2*x3 + x1*y2^3*x3 -
      x1*x2*y3 + x1*x2*y2^2*y3 - x1*x2^2*y2*x3 - x1*x2^3*y3 + x1*y1^2*y2*x3 - x1*y1^2*y2^3*x3 +
      x1*y1^2*x2*y3 - x1*y1^2*x2*y2^2*y3 - x1*y1^2*x2*y2^2*y3*d + x1*y1^2*x2^2*y2*x3 +
      x1*y1^2*x2^2*y2*x3*d + x1*y1^2*x2^3*y3 - x1^2*y1*y2*y3 + x1^2*y1*y2^3*y3 - x1^2*y1*x2*x3 +
      x1^2*y1*x2*y2^2*x3 + x1^2*y1*x2*y2^2*x3*d - x1^2*y1*x2^2*y2*y3 - x1^2*y1*x2^2*y2*y3*d -
      x1^2*y1*x2^3*x3 - x1^3*y2*x3 + x1^3*y2^3*x3 - x1^3*x2*y3 + x1^3*x2*y2^2*y3 - x1^3*x2^2*y2*x3 -
      x1^3*x2^3*y3) * h3

theorem add_comm' (P Q : Point d) : P + Q = Q + P := by
  ext
  · rw [add_x, add_x]; ring
  · rw [add_y, add_y]; ring

theorem add_assoc' (P Q R : Point d) : P + Q + R = P + (Q + R) := by
  have hA := add_x_mul P Q
  have hB := add_y_mul P Q
  have hA' := add_x_mul Q R
  have hB' := add_y_mul Q R
  have n1 := denom_add P Q
  have n2 := denom_sub P Q
  have n3 := denom_add Q R
  have n4 := denom_sub Q R
  have nn := mul_ne_zero (mul_ne_zero n1 n2) (mul_ne_zero n3 n4)
  have kx := assoc_x_poly P.on Q.on R.on
  have ky := assoc_y_poly P.on Q.on R.on
  rw [← hA, ← hB, ← hA', ← hB'] at kx ky
  ext
  · rw [add_x (P + Q) R, add_x P (Q + R), div_eq_div_iff (denom_add (P + Q) R) (denom_add P (Q + R))]
    apply mul_left_cancel₀ nn
    linear_combination kx
  · rw [add_y (P + Q) R, add_y P (Q + R), div_eq_div_iff (denom_sub (P + Q) R) (denom_sub P (Q + R))]
    apply mul_left_cancel₀ nn
    linear_combination ky

theorem neg_add_cancel' (P : Point d) : -P + P = 0 := by
  ext
  · rw [add_x, neg_x, neg_y, zero_x]
    rw [show -P.x * P.y + P.y * P.x = 0 by ring, zero_div]
  · have := denom_sub (-P) P
    rw [add_y, zero_y, div_eq_one_iff_eq this, neg_x, neg_y]
    linear_combination P.on

theorem zero_add' (P : Point d) : 0 + P = P := by
  ext
  · rw [add_x, zero_x, zero_y]; simp
  · rw [add_y, zero_x, zero_y]; simp

instance : AddCommGroup (Point d) where
  add_assoc := add_assoc'
  zero_add := zero_add'
  add_zero P := by rw [add_comm', zero_add']
  nsmul := nsmulRec
  zsmul := zsmulRec
  neg_add_cancel := neg_add_cancel'
  add_comm := add_comm'

end

end Verif.Edwards
