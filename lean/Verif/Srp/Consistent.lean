import Verif.Srp.SafePrime
import Verif.Basic.Sha

/-!
# C82: how many verifiers a public value of the server is consistent with

The server sends `B = k*v + g^b`. Whoever sees `B` can rule out every verifier `v` for which `B - k*v` is not among the powers
`g^b` that the server could have chosen. How many remain depends on the order of `g` and on the length of `b`; the library
takes both from its user (`SrpGroup`, the argument `b`).
-/

namespace Verif.Srp

variable {p : SrpGroup} (D : Digest)

/-- The verifiers below `N` for which some private value below `m` gives the public value `B`. -/
def consistent (p : SrpGroup) (m : Nat) (B : Bytes) : Set Nat :=
  {v | v < p.n ∧ ∃ b < m, (Server.computePublicEphemeral D p (toBytesBE b) (toBytesBE v) : Res SrpAuthError Bytes) = .ok B}

/-- **C82 (count).** For a prime modulus that does not divide `k` and `g`, exactly `min m (ord g)` verifiers are consistent
with a public value, whatever it is, if private values are below `m`. -/
theorem C82_consistent (hp : p.n.Prime) (hs : Spec.Sane p.n p.g) (hk : ¬ p.n ∣ Spec.k D p.n p.g) (hg : ¬ p.n ∣ p.g)
    (m r : Nat) (hr : r < p.n) :
    (consistent D p m (toBytesBE r)).ncard = min m (orderOf (p.g : ZMod p.n)) := by
  have : Fact p.n.Prime := ⟨hp⟩
  have hk0 : (Spec.k D p.n p.g : ZMod p.n) ≠ 0 := by rwa [Ne, ZMod.natCast_eq_zero_iff]
  have hg0 : (p.g : ZMod p.n) ≠ 0 := by rwa [Ne, ZMod.natCast_eq_zero_iff]
  have hord : 0 < orderOf (p.g : ZMod p.n) := by
    rw [orderOf_pos_iff]
    exact isOfFinOrder_iff_pow_eq_one.2 ⟨p.n - 1, by have := hp.two_le; omega, ZMod.pow_card_sub_one_eq_one hg0⟩
  have hB : ∀ b v, (Server.computePublicEphemeral D p (toBytesBE b) (toBytesBE v) : Res SrpAuthError Bytes) =
      .ok (toBytesBE r) ↔ (v : ZMod p.n) = ((r : ZMod p.n) - (p.g : ZMod p.n) ^ b) / Spec.k D p.n p.g := by
    intro b v
    rw [server_ephemeral_eq D p hs, Res.ok.injEq, beToNat_toBytesBE, beToNat_toBytesBE, eq_div_iff hk0, Spec.enc]
    constructor
    · intro e
      have e' := congrArg beToNat e
      rw [beToNat_toBytesBE, beToNat_toBytesBE] at e'
      rw [← e', ZMod.natCast_val, ZMod.cast_id, Spec.B]
      ring
    · intro e
      have : Spec.B D p.n p.g (v : ZMod p.n) b = (r : ZMod p.n) := by
        rw [Spec.B, mul_comm, e]; ring
      rw [this, ZMod.val_natCast, Nat.mod_eq_of_lt hr]
  have himg : consistent D p m (toBytesBE r) =
      (fun b => (((r : ZMod p.n) - (p.g : ZMod p.n) ^ b) / Spec.k D p.n p.g).val) ''
        (Finset.range (min m (orderOf (p.g : ZMod p.n))) : Set Nat) := by
    ext v
    simp only [consistent, Set.mem_ofPred_eq, Set.mem_image, Finset.coe_range, Set.mem_Iio, lt_min_iff, hB]
    constructor
    · rintro ⟨hv, b, hb, e⟩
      refine ⟨b % orderOf (p.g : ZMod p.n), ⟨(Nat.mod_le _ _).trans_lt hb, Nat.mod_lt _ hord⟩, ?_⟩
      rw [pow_mod_orderOf, ← e, ZMod.val_natCast, Nat.mod_eq_of_lt hv]
    · rintro ⟨b, ⟨hb, -⟩, rfl⟩
      exact ⟨ZMod.val_lt _, b, hb, by rw [ZMod.natCast_val, ZMod.cast_id]⟩
  rw [himg, Set.InjOn.ncard_image, Set.ncard_coe_finset, Finset.card_range]
  intro b hb b' hb' e
  simp only [Finset.coe_range, Set.mem_Iio, lt_min_iff] at hb hb'
  have e' := ZMod.val_injective _ e
  rw [div_left_inj' hk0, sub_right_inj] at e'
  exact pow_injOn_Iio_orderOf hb.2 hb'.2 e'

/-- **C82 (safe-prime groups).** If `g` generates, as in the built-in groups, and `b` may be any number, all verifiers but
one remain. -/
theorem C82_generator (h : SafeGroup p) (hs : Spec.Sane p.n p.g) (hk : ¬ p.n ∣ Spec.k D p.n p.g) (m r : Nat) (hr : r < p.n)
    (hm : p.n - 1 ≤ m) : (consistent D p m (toBytesBE r)).ncard = p.n - 1 := by
  have hg : ¬ p.n ∣ p.g := by rw [← ZMod.natCast_eq_zero_iff]; exact SafePrime.g_ne h
  rw [C82_consistent D h.1 hs hk hg m r hr, SafePrime.orderOf_g h]
  omega

/-- **C82 (squares).** If `g` is a square, as 2 is modulo every prime that is 1 or 7 modulo 8, every public value rules out at
least half of the verifiers, whatever `b` is. -/
theorem C82_square (hp : p.n.Prime) (h2 : p.n ≠ 2) (hs : Spec.Sane p.n p.g) (hk : ¬ p.n ∣ Spec.k D p.n p.g)
    (hg : ¬ p.n ∣ p.g) (hsq : IsSquare (p.g : ZMod p.n)) (m r : Nat) (hr : r < p.n) :
    (consistent D p m (toBytesBE r)).ncard ≤ (p.n - 1) / 2 := by
  have : Fact p.n.Prime := ⟨hp⟩
  rw [C82_consistent D hp hs hk hg m r hr]
  refine (min_le_right _ _).trans ?_
  have hodd := hp.eq_two_or_odd.resolve_left h2
  have h3 : 3 ≤ p.n := by have := hp.two_le; omega
  have hg0 : (p.g : ZMod p.n) ≠ 0 := by rwa [Ne, ZMod.natCast_eq_zero_iff]
  refine Nat.le_of_dvd (by omega) (orderOf_dvd_of_pow_eq_one ?_)
  obtain ⟨s, hsq⟩ := hsq
  have hs0 : s ≠ 0 := by rintro rfl; rw [mul_zero] at hsq; exact hg0 hsq
  rw [hsq, ← pow_two, ← pow_mul, show 2 * ((p.n - 1) / 2) = p.n - 1 by omega]
  exact ZMod.pow_card_sub_one_eq_one hs0

/-- **C82 (built-in groups).** With `b` of up to 64 bytes, as in the documentation, exactly `2^512` verifiers are consistent
with a public value: fewer than one in `2^511`, so that hiding the verifier rests on the cost of finding them. -/
theorem C82_builtin (p : SrpGroup)
    (hp : p ∈ [Groups.G_1024, Groups.G_1536, Groups.G_2048, Groups.G_3072, Groups.G_4096, Groups.G_6144,
      Groups.G_8192])
    (hk : ¬ p.n ∣ Spec.k D p.n p.g) (r : Nat) (hr : r < p.n) :
    (consistent D p (p.n - 1) (toBytesBE r)).ncard = p.n - 1 ∧
    (consistent D p (256 ^ 64) (toBytesBE r)).ncard = 2 ^ 512 ∧ 2 ^ 511 * 2 ^ 512 ≤ p.n := by
  obtain ⟨hsafe, hs, -, -⟩ := C62_builtin p hp
  have hg : ¬ p.n ∣ p.g := by rw [← ZMod.natCast_eq_zero_iff]; exact SafePrime.g_ne hsafe
  have hbig : 2 ^ 511 * 2 ^ 512 ≤ p.n ∧ 256 ^ 64 ≤ p.n - 1 := by
    simp only [List.mem_cons, List.not_mem_nil, or_false] at hp
    rcases hp with rfl | rfl | rfl | rfl | rfl | rfl | rfl <;> decide +kernel
  refine ⟨C82_generator D hsafe hs hk _ r hr le_rfl, ?_, hbig.1⟩
  rw [C82_consistent D hsafe.1 hs hk hg _ r hr, SafePrime.orderOf_g hsafe, min_eq_left hbig.2,
    show (256 : Nat) = 2 ^ 8 by norm_num, ← pow_mul]

/-- The multiplier is not divisible by the modulus with the usual hashes, in the built-in and in small groups. -/
example : (∀ D ∈ [sha1, sha256, sha512], ¬ (Groups.G_1024).n ∣ Spec.k D Groups.G_1024.n Groups.G_1024.g) ∧
    ¬ (Groups.G_2048).n ∣ Spec.k sha256 Groups.G_2048.n Groups.G_2048.g ∧
    ¬ (Groups.G_6144).n ∣ Spec.k sha512 Groups.G_6144.n Groups.G_6144.g := by
  refine ⟨?_, ?_, ?_⟩ <;> decide +kernel

/-- Modulo 47 the generator 5 leaves 46 verifiers, and 2, which is the square of 7, leaves 23. -/
example (r : Nat) (hr : r < 47) : (consistent sha256 ⟨47, 5⟩ 46 (toBytesBE r)).ncard = 46 ∧
    (consistent sha256 ⟨47, 2⟩ 46 (toBytesBE r)).ncard ≤ 23 := by
  constructor
  · refine C82_generator sha256 (p := ⟨47, 5⟩) ⟨by norm_num, by norm_num, (Groups.C11_safe_prime_generator 47 5 (by decide)
      (by decide) (by decide) (by decide) (by norm_num)).2⟩ (by decide +kernel) (by decide +kernel) 46 r hr le_rfl
  · exact C82_square sha256 (p := ⟨47, 2⟩) (by norm_num) (by norm_num) (by decide +kernel) (by decide +kernel) (by norm_num)
      ⟨7, by decide⟩ 46 r hr

end Verif.Srp
