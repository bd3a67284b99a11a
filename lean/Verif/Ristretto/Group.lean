import Verif.Ristretto.Even
import Verif.Aucpace.Group
import Mathlib.GroupTheory.QuotientGroup.Defs

/-!
# The group

`RistrettoPoint` of curve25519-dalek 4.1.3 wraps an `EdwardsPoint` that is a double; two of them are equal
when they differ by a point of order dividing 4.
-/

namespace Verif.Ristretto
open Ed25519 (Fe Point edD sqrtM1 tors base gen ell_base eight_tors exists_gen exists_split)

/-- The doubles: the Edwards points a `RistrettoPoint` can hold. -/
def even : AddSubgroup Point where
  carrier := {P | IsSquare (1 - P.y ^ 2)}
  zero_mem' := ⟨0, by simp⟩
  add_mem' := by
    intro P Q hP hQ
    obtain ⟨P', rfl⟩ := (double_iff P).2 hP
    obtain ⟨Q', rfl⟩ := (double_iff Q).2 hQ
    exact (double_iff _).1 ⟨P' + Q', by abel⟩
  neg_mem' := by
    intro P hP
    exact hP

theorem mem_even {P : Point} : P ∈ even ↔ IsSquare (1 - P.y ^ 2) := Iff.rfl

theorem mem_even_iff {P : Point} : P ∈ even ↔ ∃ Q : Point, P = Q + Q := (double_iff P).symm

/-- The points identified with the identity: those with `x y = 0`, which are the points of order
dividing 4 (`four_torsion_iff`). -/
def tors4 : AddSubgroup even where
  carrier := {P | P.1.x * P.1.y = 0}
  zero_mem' := by simp
  add_mem' := by
    intro P Q hP hQ
    have hP' := (four_torsion_iff P.1).2 hP
    have hQ' := (four_torsion_iff Q.1).2 hQ
    refine (four_torsion_iff (P.1 + Q.1)).1 ?_
    have : (P.1 + Q.1 + (P.1 + Q.1)) + (P.1 + Q.1 + (P.1 + Q.1)) =
        (P.1 + P.1 + (P.1 + P.1)) + (Q.1 + Q.1 + (Q.1 + Q.1)) := by abel
    rw [this, hP', hQ', add_zero]
  neg_mem' := by
    intro P hP
    have : P.1.x * P.1.y = 0 := hP
    show -P.1.x * P.1.y = 0
    rw [neg_mul, this, neg_zero]

theorem mem_tors4 {P : even} : P ∈ tors4 ↔ P.1.x * P.1.y = 0 := Iff.rfl

instance : DecidablePred (· ∈ tors4) := fun P => inferInstanceAs (Decidable (P.1.x * P.1.y = 0))

/-- `RistrettoPoint` up to its equality. -/
abbrev RPoint := even ⧸ tors4

instance : DecidableRel (QuotientAddGroup.leftRel tors4) := fun P Q =>
  decidable_of_iff (-P + Q ∈ tors4) QuotientAddGroup.leftRel_apply.symm

instance : DecidableEq RPoint := inferInstanceAs (DecidableEq (Quotient (QuotientAddGroup.leftRel tors4)))

/-- The class of a double. -/
def mk (P : Point) (h : P ∈ even) : RPoint := QuotientAddGroup.mk ⟨P, h⟩

theorem mk_eq_iff {P Q : Point} (hP : P ∈ even) (hQ : Q ∈ even) :
    mk P hP = mk Q hQ ↔ (Q - P).x * (Q - P).y = 0 := by
  rw [mk, mk, QuotientAddGroup.eq, mem_tors4]
  have : ((-⟨P, hP⟩ + ⟨Q, hQ⟩ : even) : Point) = Q - P := by
    show -P + Q = Q - P
    abel
  rw [this]

theorem mk_add {P Q : Point} (hP : P ∈ even) (hQ : Q ∈ even) :
    mk P hP + mk Q hQ = mk (P + Q) (even.add_mem hP hQ) := rfl

theorem exists_mk (g : RPoint) : ∃ P h, g = mk P h := by
  obtain ⟨⟨P, h⟩, rfl⟩ := QuotientAddGroup.mk_surjective g
  exact ⟨P, h, rfl⟩

theorem mk_nsmul {P : Point} (hP : P ∈ even) (n : Nat) : n • mk P hP = mk (n • P) (even.nsmul_mem hP n) := rfl

theorem mk_zero : mk 0 even.zero_mem = 0 := rfl

theorem mk_eq_zero_iff {P : Point} (hP : P ∈ even) : mk P hP = 0 ↔ P.x * P.y = 0 := by
  rw [← mk_zero, mk_eq_iff]
  have : (0 - P : Point) = -P := by abel
  rw [this, Edwards.neg_x, Edwards.neg_y, neg_mul, neg_eq_zero]

/-! ## The order of the group -/

/-- Every double is a multiple of the base point plus a multiple of twice the point of order 8. -/
theorem even_split {P : Point} (h : P ∈ even) : ∃ n t : Nat, P = n • base + t • (tors + tors) := by
  obtain ⟨Q, rfl⟩ := mem_even_iff.1 h
  obtain ⟨n, t, rfl⟩ := exists_split Q
  exact ⟨n + n, t, by rw [add_nsmul, nsmul_add]; abel⟩

theorem tors_sum : (tors + tors + (tors + tors)) + (tors + tors + (tors + tors)) = 0 := by
  have h := eight_tors
  have : (tors + tors + (tors + tors)) + (tors + tors + (tors + tors)) = 8 • tors := by abel
  rw [this, h]

theorem tors2_even : tors + tors ∈ even := mem_even_iff.2 ⟨tors, rfl⟩

theorem mk_tors2 : mk (tors + tors) tors2_even = 0 :=
  (mk_eq_zero_iff _).2 ((four_torsion_iff _).1 tors_sum)

theorem base_even : base ∈ even := mem_even_iff.2 ⟨_, base_double⟩

theorem eq_nsmul_base (g : RPoint) : ∃ n : Nat, g = n • mk base base_even := by
  obtain ⟨P, h, rfl⟩ := exists_mk g
  obtain ⟨n, t, rfl⟩ := even_split h
  refine ⟨n, ?_⟩
  have : mk (n • base + t • (tors + tors)) h = n • mk base base_even + t • mk (tors + tors) tors2_even := rfl
  rw [this, mk_tors2, nsmul_zero, add_zero]

theorem ell_smul (g : RPoint) : ell • g = 0 := by
  obtain ⟨n, rfl⟩ := eq_nsmul_base g
  rw [← mul_nsmul, mul_comm, mul_nsmul]
  have : ell • mk base base_even = 0 := by
    rw [mk_nsmul, mk_eq_zero_iff, ell_base, Edwards.zero_x, zero_mul]
  rw [this, nsmul_zero]

instance : Module Aucpace.Scalar RPoint := AddCommGroup.zmodModule ell_smul

theorem scalar_smul (k : Aucpace.Scalar) (g : RPoint) : k • g = k.val • g := by
  conv_lhs => rw [← ZMod.natCast_zmod_val k]
  rw [Nat.cast_smul_eq_nsmul]

theorem base_ne_zero : mk base base_even ≠ 0 := by
  intro h
  rw [mk_eq_zero_iff] at h
  have h4 : 4 • base = 0 := by
    rw [← (four_torsion_iff base).2 h]
    abel
  have := addOrderOf_dvd_of_nsmul_eq_zero h4
  rw [Ed25519.addOrderOf_base] at this
  exact absurd (Nat.le_of_dvd (by decide) this) (by decide +kernel)

end Verif.Ristretto
