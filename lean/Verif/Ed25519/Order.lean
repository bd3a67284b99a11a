import Verif.Ed25519.Compute
import Mathlib.GroupTheory.OrderOfElement
import Mathlib.GroupTheory.SpecificGroups.Cyclic

/-!
# The order of the curve group

`ED25519_BASEPOINT_POINT` has order `ell`; the whole group is cyclic of order `8 * ell`. So the points
annihilated by `ell` are exactly the multiples of the base point.
-/

namespace Verif.Ed25519

/-- The `x` of the base point. -/
def baseX : Nat := 15112221349535400772501151409588531511454012693041857206046113283949847762202
/-- The `y` of the base point, 4/5. -/
def baseY : Nat := 46316835694926478169428394003475163141307993866256225615783033603165251855960

/-- `ED25519_BASEPOINT_POINT`, curve25519-dalek 4.1.3. -/
def base : Point := ofNats baseX baseY (by decide +kernel)

/-- A point of order 8 (`EIGHT_TORSION[1]` up to the choice of generator). -/
def tors : Point := ofNats
  14399317868200118260347934320527232580618823971194345261214217575416788799818
  55188659117513257062467267217118295137698188065244968500265048394206261417927 (by decide +kernel)

theorem rep_base : Rep baseX baseY 1 base := rep_ofNats _ _ _

theorem base_y : base.y * 5 = 4 := by
  have : ((baseY * 5 : ℕ) : Fe) = ((4 : ℕ) : Fe) := natCast_eq (by decide +kernel)
  push_cast at this
  exact this

theorem ell_base : ell • base = 0 := smul_eq_of rep_base rep_zero (by decide +kernel)

theorem base_ne_zero : base ≠ 0 := by
  intro h
  have := (sameK_iff rep_base rep_zero).2 h
  revert this
  decide +kernel

theorem eight_tors : 8 • tors = 0 := smul_eq_of (rep_ofNats _ _ _) rep_zero (by decide +kernel)

theorem four_tors_ne : 4 • tors ≠ 0 := by
  intro h
  obtain ⟨X, Y, Z, hk, hr⟩ := mulK_spec 4 (rep_ofNats
    14399317868200118260347934320527232580618823971194345261214217575416788799818
    55188659117513257062467267217118295137698188065244968500265048394206261417927 (by decide +kernel))
  have h2 := (sameK_iff hr rep_zero).2 h
  rw [← hk Bool (fun X Y Z => sameK X Y Z 0 1 1)] at h2
  revert h2
  decide +kernel

theorem addOrderOf_base : addOrderOf base = ell := by
  have := Fact.mk ell_prime
  exact addOrderOf_eq_prime ell_base base_ne_zero

theorem addOrderOf_tors : addOrderOf tors = 8 :=
  addOrderOf_eq_prime_pow (p := 2) (n := 2) four_tors_ne eight_tors

/-- Multiples of the base point coincide exactly modulo `ell`. -/
theorem smul_base_eq_iff (m n : Nat) : m • base = n • base ↔ m % ell = n % ell := by
  rw [← addOrderOf_base]
  exact nsmul_inj_mod

/-- A generator of the whole group. -/
def gen : Point := base + tors

theorem addOrderOf_gen : addOrderOf gen = ell * 8 := by
  have h : (addOrderOf base).Coprime (addOrderOf tors) := by
    rw [addOrderOf_base, addOrderOf_tors]; decide +kernel
  rw [gen, (AddCommute.all base tors).addOrderOf_add_eq_mul_addOrderOf_of_coprime h, addOrderOf_base,
    addOrderOf_tors]

/-- A point is determined by `y` and the sign of `x`. -/
def code (P : Point) : Fe × Bool := (P.y, isNegative P.x)

theorem code_injective : Function.Injective code := by
  intro P Q h
  exact point_ext (congrArg Prod.fst h) (congrArg Prod.snd h)

instance : Finite Point := Finite.of_injective code code_injective

theorem card_le : Nat.card Point ≤ 2 * p25519 := by
  have h := Nat.card_le_card_of_injective code code_injective
  rw [Nat.card_prod, Nat.card_zmod, @Nat.card_eq_fintype_card Bool, Fintype.card_bool] at h
  omega

/-- The number of points. -/
theorem card_point : Nat.card Point = 8 * ell := by
  have hd : ell * 8 ∣ Nat.card Point := addOrderOf_gen ▸ addOrderOf_dvd_natCard gen
  obtain ⟨k, hk⟩ := hd
  have h1 := card_le
  have hpos : 0 < Nat.card Point := Nat.card_pos
  have h2 : 2 * p25519 < ell * 8 * 2 := by decide +kernel
  have hk1 : k = 1 := by
    have : k ≠ 0 := by rintro rfl; omega
    have : k < 2 := by
      by_contra h
      have : ell * 8 * 2 ≤ ell * 8 * k := Nat.mul_le_mul_left _ (by omega)
      omega
    omega
  rw [hk, hk1]; omega

/-- Every point is a multiple of `gen`. -/
theorem exists_gen (P : Point) : ∃ n : Nat, P = n • gen := by
  have h : AddSubgroup.zmultiples gen = ⊤ := by
    apply AddSubgroup.eq_top_of_card_eq
    rw [Nat.card_zmultiples, addOrderOf_gen, card_point]
    omega
  have hm : P ∈ AddSubgroup.zmultiples gen := h ▸ AddSubgroup.mem_top P
  obtain ⟨n, hn⟩ := AddSubmonoid.mem_multiples_iff _ _ |>.1 (mem_multiples_iff_mem_zmultiples.2 hm)
  exact ⟨n, hn.symm⟩

/-- A point annihilated by `ell` is a multiple of the base point. -/
theorem exists_base {P : Point} (h : ell • P = 0) : ∃ n, n < ell ∧ P = n • base := by
  obtain ⟨n, rfl⟩ := exists_gen P
  rw [← mul_nsmul', ← addOrderOf_dvd_iff_nsmul_eq_zero, addOrderOf_gen] at h
  obtain ⟨k, rfl⟩ : 8 ∣ n := (Nat.mul_dvd_mul_iff_left ell_prime.pos).1 h
  have h8 : (8 * k) • gen = (8 * k) • base := by
    rw [gen, nsmul_add, mul_comm 8 k, mul_nsmul' tors k 8, eight_tors, nsmul_zero, add_zero]
  refine ⟨8 * k % ell, Nat.mod_lt _ ell_prime.pos, ?_⟩
  rw [h8, smul_base_eq_iff, Nat.mod_mod]

/-- Every point is a multiple of the base point plus a torsion point. -/
theorem exists_split (P : Point) : ∃ n t : Nat, P = n • base + t • tors := by
  obtain ⟨n, rfl⟩ := exists_gen P
  exact ⟨n, n, by rw [gen, nsmul_add]⟩

end Verif.Ed25519
