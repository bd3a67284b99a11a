import Verif.Srp.Consistent

/-!
# C90 (SRP): what a repeated private value of the server gives away

The server's private value `b` is an argument of `compute_public_ephemeral`; nothing in the library keeps an application from
using one `b` for several users. Public values for the same `b` determine the difference of the verifiers.
-/

namespace Verif.Srp

variable {p : SrpGroup} (D : Digest)

/-- **C90 (SRP).** Two public values with the same private value, for verifiers `v` and `v'`: who knows one verifier, such as a
registered user, computes the other one from the public values. -/
theorem C90_verifier (hp : p.n.Prime) (hs : Spec.Sane p.n p.g) (hk : ¬ p.n ∣ Spec.k D p.n p.g) (b v v' : Bytes) {B B' : Bytes}
    (hB : (Server.computePublicEphemeral D p b v : Res SrpAuthError Bytes) = .ok B)
    (hB' : (Server.computePublicEphemeral D p b v' : Res SrpAuthError Bytes) = .ok B') :
    (beToNat v' : ZMod p.n) =
      (beToNat v : ZMod p.n) - (Spec.k D p.n p.g : ZMod p.n)⁻¹ * ((beToNat B : ZMod p.n) - (beToNat B' : ZMod p.n)) := by
  have : Fact p.n.Prime := ⟨hp⟩
  have hk0 : (Spec.k D p.n p.g : ZMod p.n) ≠ 0 := by rwa [Ne, ZMod.natCast_eq_zero_iff]
  rw [server_ephemeral_eq D p hs, Res.ok.injEq] at hB hB'
  rw [← hB, ← hB', enc_cast, enc_cast, Spec.B, Spec.B, add_sub_add_right_eq_sub, ← mul_sub, inv_mul_cancel_left₀ hk0,
    sub_sub_cancel]

/-- **C90 (SRP, dictionary).** So an observer who knows one user's verifier tests passwords of the other one without taking part:
a candidate verifier below `N` is consistent with both public values, for some private value, exactly if it is the right
one. -/
theorem C90_dictionary (hp : p.n.Prime) (hs : Spec.Sane p.n p.g) (hk : ¬ p.n ∣ Spec.k D p.n p.g) (b v v' : Bytes) {B B' : Bytes}
    (hB : (Server.computePublicEphemeral D p b v : Res SrpAuthError Bytes) = .ok B)
    (hB' : (Server.computePublicEphemeral D p b v' : Res SrpAuthError Bytes) = .ok B') (hv' : beToNat v' < p.n) (w : Nat)
    (hw : w < p.n) :
    (∃ b₀, (Server.computePublicEphemeral D p b₀ v : Res SrpAuthError Bytes) = .ok B ∧
      (Server.computePublicEphemeral D p b₀ (toBytesBE w) : Res SrpAuthError Bytes) = .ok B') ↔ w = beToNat v' := by
  have : NeZero p.n := ⟨hp.ne_zero⟩
  constructor
  · rintro ⟨b₀, h1, h2⟩
    have e := C90_verifier D hp hs hk b₀ v (toBytesBE w) h1 h2
    rw [← C90_verifier D hp hs hk b v v' hB hB', beToNat_toBytesBE] at e
    have := congrArg ZMod.val e
    rwa [ZMod.val_natCast, ZMod.val_natCast, Nat.mod_eq_of_lt hw, Nat.mod_eq_of_lt hv'] at this
  · rintro rfl
    refine ⟨b, hB, ?_⟩
    rw [server_ephemeral_eq D p hs, beToNat_toBytesBE, ← server_ephemeral_eq D p hs]
    exact hB'

/-- **C90 (SRP, verifiers alone).** Without knowledge of a verifier the difference is all that the second public value adds: a pair
of candidates is consistent with both exactly if the first one is consistent with the first value and the difference is
right. -/
theorem C90_difference (hp : p.n.Prime) (hs : Spec.Sane p.n p.g) (hk : ¬ p.n ∣ Spec.k D p.n p.g) (b v v' : Bytes) {B B' : Bytes}
    (hB : (Server.computePublicEphemeral D p b v : Res SrpAuthError Bytes) = .ok B)
    (hB' : (Server.computePublicEphemeral D p b v' : Res SrpAuthError Bytes) = .ok B') (w w' : Bytes) :
    (∃ b₀, (Server.computePublicEphemeral D p b₀ w : Res SrpAuthError Bytes) = .ok B ∧
      (Server.computePublicEphemeral D p b₀ w' : Res SrpAuthError Bytes) = .ok B') ↔
    (∃ b₀, (Server.computePublicEphemeral D p b₀ w : Res SrpAuthError Bytes) = .ok B) ∧
      (beToNat w : ZMod p.n) - (beToNat w' : ZMod p.n) = (beToNat v : ZMod p.n) - (beToNat v' : ZMod p.n) := by
  have : Fact p.n.Prime := ⟨hp⟩
  have hk0 : (Spec.k D p.n p.g : ZMod p.n) ≠ 0 := by rwa [Ne, ZMod.natCast_eq_zero_iff]
  have h0 := C90_verifier D hp hs hk b v v' hB hB'
  constructor
  · rintro ⟨b₀, h1, h2⟩
    refine ⟨⟨b₀, h1⟩, ?_⟩
    rw [h0, C90_verifier D hp hs hk b₀ w w' h1 h2]
    ring
  · rintro ⟨⟨b₀, h1⟩, h2⟩
    refine ⟨b₀, h1, ?_⟩
    rw [server_ephemeral_eq D p hs, Res.ok.injEq] at hB hB' h1 ⊢
    rw [← hB']
    congr 1
    have e1 : Spec.B D p.n p.g (beToNat w : ZMod p.n) (beToNat b₀) = Spec.B D p.n p.g (beToNat v : ZMod p.n) (beToNat b) := by
      have := congrArg (fun x => ((beToNat x : Nat) : ZMod p.n)) (h1.trans hB.symm)
      simpa only [enc_cast] using this
    rw [Spec.B, Spec.B] at e1 ⊢
    have e2 : (beToNat w' : ZMod p.n) = (beToNat w : ZMod p.n) - (beToNat v : ZMod p.n) + (beToNat v' : ZMod p.n) := by
      rw [eq_comm, sub_add, sub_eq_iff_eq_add, ← sub_eq_iff_eq_add', h2]
    rw [e2, mul_add, mul_sub]
    linear_combination e1

/-- Two users and one private value in the smallest built-in group. -/
example : let D := sha256
    Groups.G_1024.n.Prime ∧ Spec.Sane Groups.G_1024.n Groups.G_1024.g ∧ ¬ Groups.G_1024.n ∣ Spec.k D Groups.G_1024.n Groups.G_1024.g ∧
    ∃ B B', (Server.computePublicEphemeral D Groups.G_1024 [3] [5] : Res SrpAuthError Bytes) = .ok B ∧
      (Server.computePublicEphemeral D Groups.G_1024 [3] [7] : Res SrpAuthError Bytes) = .ok B' ∧ B ≠ B' := by
  have hs : Spec.Sane Groups.G_1024.n Groups.G_1024.g := by decide +kernel
  exact ⟨(Groups.C60_safe_primes _ (by simp)).1, hs, by decide +kernel, _, _, server_ephemeral_eq _ _ hs _ _, server_ephemeral_eq _ _ hs _ _,
    by decide +kernel⟩

end Verif.Srp
