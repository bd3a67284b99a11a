import Verif.Srp.SafePrime
import Verif.Basic.Sha

/-!
# C78: what a stolen verifier is good for at an SRP server; C13: the scrambling parameter

The attacker has the verifier `v` but not the password and wants to be accepted by an honest server.
-/

namespace Verif.Srp
open SafePrime

variable (D : Digest) {p : SrpGroup}

/-- **C13, what holds without the check.** The scrambling parameter is zero exactly if the digest of `A | B` consists of zero
bytes. Then the server's secret does not depend on the verifier. In a safe-prime group, if the parameter (and the server's
private value) is not a multiple of `(N-1)/2`, verifiers that differ by more than the sign give different secrets. -/
theorem C13_nonzero_u_partial (h : SafeGroup p) (A v v' u b : Nat) (Ab Bb : Bytes) :
    (computeU D Ab Bb = 0 ↔ D.hash (Ab ++ Bb) = List.replicate D.outLen 0) ∧
    (Server.computePremasterSecret p A v 0 b : Res SrpAuthError Nat) = Server.computePremasterSecret p A v' 0 b ∧
    (¬ p.n ∣ A → ¬ p.n ∣ v → ¬ p.n ∣ v' → ¬ v ≡ v' [MOD p.n] → ¬ p.n ∣ v + v' → ¬ (p.n - 1) / 2 ∣ u → ¬ (p.n - 1) / 2 ∣ b →
      (Server.computePremasterSecret p A v u b : Res SrpAuthError Nat) ≠ Server.computePremasterSecret p A v' u b) := by
  have : Fact p.n.Prime := ⟨h.1⟩
  have hn : 0 < p.n := h.1.pos
  have : NeZero p.n := ⟨hn.ne'⟩
  refine ⟨?_, ?_, ?_⟩
  · have hrep : beToNat (List.replicate D.outLen 0) = 0 := by
      simpa using beToNat_replicate_zero_append D.outLen []
    constructor
    · intro hu
      refine beToNat_inj (by simp) ?_
      rw [hrep]
      exact hu
    · intro hu
      have : computeU D Ab Bb = beToNat (D.hash (Ab ++ Bb)) := rfl
      rw [this, hu, hrep]
  · rw [server_premaster_eq p hn, server_premaster_eq p hn]
    simp [Spec.serverS]
  · intro hA hv hv' hne hneg hu hb he
    rw [server_premaster_eq p hn, server_premaster_eq p hn, Res.ok.injEq, (ZMod.val_injective p.n).eq_iff] at he
    rw [← ZMod.natCast_eq_zero_iff] at hA hv hv' hneg
    rw [← ZMod.natCast_eq_natCast_iff] at hne
    push_cast at hneg
    simp only [Spec.serverS, mul_pow, ← pow_mul] at he
    have he' := mul_left_cancel₀ (pow_ne_zero _ hA) he
    have hq : ((v : ZMod p.n) * (v' : ZMod p.n)⁻¹) ^ (u * b) = ((v : ZMod p.n) * (v' : ZMod p.n)⁻¹) ^ 0 := by
      rw [pow_zero, mul_pow, he', ← mul_pow, mul_inv_cancel₀ hv', one_pow]
    have hm := pow_inj h (mul_ne_zero hv (inv_ne_zero hv'))
      (fun e => hne ((mul_inv_eq_one₀ hv').1 e))
      (fun e => hneg (by rw [mul_inv_eq_iff_eq_mul₀ hv'] at e; rw [e]; ring)) hq
    rcases h.2.1.dvd_mul.1 ((Nat.modEq_zero_iff_dvd).1 hm) with h1 | h1
    · exact hu h1
    · exact hb h1

/-- The conditions can be met: modulo 47 with `g = 5`. -/
example : SafeGroup ⟨47, 5⟩ ∧ ¬ 47 ∣ 9 ∧ ¬ 47 ∣ 11 ∧ ¬ 47 ∣ 12 ∧ ¬ 11 ≡ 12 [MOD 47] ∧ ¬ 47 ∣ 11 + 12 ∧ ¬ (47 - 1) / 2 ∣ 5 ∧
    ¬ (47 - 1) / 2 ∣ 7 :=
  ⟨⟨by norm_num, by norm_num,
    (Groups.C11_safe_prime_generator 47 5 (by decide) (by decide) (by decide) (by decide +kernel) (by norm_num)).2⟩,
    by decide, by decide, by decide, by decide, by decide, by decide, by decide⟩

/-- **C78 (attack).** Who has the verifier and knows some `e` with `A * v^u = g^e` knows the server's key, which is
`(B - k*v)^e`; the proof made from it is accepted and the server's answer is known beforehand. Neither the password nor `b` is
used. -/
theorem C78_known_exponent (hs : Spec.Sane p.n p.g) {b v A B : Bytes} {sv : SrpServerVerifier}
    (hB : (Server.computePublicEphemeral D p b v : Res SrpAuthError Bytes) = .ok B)
    (h : Server.processReply D p b v A = .ok sv) (e : Nat)
    (he : (beToNat A : ZMod p.n) * (beToNat v : ZMod p.n) ^ Spec.u D (beToNat A) (beToNat B) = (p.g : ZMod p.n) ^ e)
    {K : Bytes} (hK : K = Spec.enc (((beToNat B : ZMod p.n) - (Spec.k D p.n p.g : ZMod p.n) * (beToNat v : ZMod p.n)) ^ e)) :
    sv.key = K ∧ sv.verifyClient (D.hash (toBytesBE (beToNat A) ++ B ++ K)) = .ok () ∧
      sv.proof = D.hash (toBytesBE (beToNat A) ++ D.hash (toBytesBE (beToNat A) ++ B ++ K) ++ K) := by
  have : NeZero p.n := ⟨hs.1.ne'⟩
  rw [server_process_eq D p hs] at h
  split at h
  · simp at h
  rw [server_ephemeral_eq D p hs] at hB
  simp only [Res.ok.injEq] at h hB
  subst h hB
  rw [enc_cast, Spec.B, add_sub_cancel_left, ← pow_mul, mul_comm, pow_mul, ← he] at hK
  have hval : beToNat (Spec.enc (Spec.B D p.n p.g (beToNat v : ZMod p.n) (beToNat b))) =
      (Spec.B D p.n p.g (beToNat v : ZMod p.n) (beToNat b)).val := by rw [Spec.enc, beToNat_toBytesBE]
  rw [hval] at hK
  have hk : (serverResult D p.n p.g (beToNat b) (beToNat v) (beToNat A)).key = K := hK.symm
  refine ⟨hk, (C03_verifyClient_exact _ _).1.2 ?_, ?_⟩
  · rw [← hk]; rfl
  · rw [← hk]; rfl

/-- **C78 (who predicts `u`).** Who has the verifier and guesses the value `u0` of `u` before choosing `A` is accepted: the
public value `A = g^a / v^u0` is not refused, and if its `u` is `u0`, the proof made from `(B - k*v)^a` is the right one. -/
theorem C78_predicted (hsafe : SafeGroup p) (hs : Spec.Sane p.n p.g) {b v B : Bytes}
    (hv : (beToNat v : ZMod p.n) ≠ 0)
    (hB : (Server.computePublicEphemeral D p b v : Res SrpAuthError Bytes) = .ok B) (a u0 : Nat) {A K : Bytes}
    (hA : A = Spec.enc ((p.g : ZMod p.n) ^ a * ((beToNat v : ZMod p.n) ^ u0)⁻¹))
    (hK : K = Spec.enc (((beToNat B : ZMod p.n) - (Spec.k D p.n p.g : ZMod p.n) * (beToNat v : ZMod p.n)) ^ a)) :
    ∃ sv, Server.processReply D p b v A = .ok sv ∧
      (Spec.u D (beToNat A) (beToNat B) = u0 → sv.key = K ∧ sv.verifyClient (D.hash (A ++ B ++ K)) = .ok ()) := by
  have : NeZero p.n := ⟨hs.1.ne'⟩
  have : Fact p.n.Prime := ⟨hsafe.1⟩
  have hz : (beToNat A : ZMod p.n) = (p.g : ZMod p.n) ^ a * ((beToNat v : ZMod p.n) ^ u0)⁻¹ := by rw [hA, enc_cast]
  have hv0 : (beToNat v : ZMod p.n) ^ u0 ≠ 0 := pow_ne_zero _ hv
  have hA0 : (beToNat A : ZMod p.n) ≠ 0 := by
    rw [hz]; exact mul_ne_zero (pow_ne_zero _ (g_ne hsafe)) (inv_ne_zero hv0)
  have hmod : beToNat A % p.n ≠ 0 := fun h0 => hA0 ((ZMod.natCast_eq_zero_iff _ _).2 (Nat.dvd_of_mod_eq_zero h0))
  refine ⟨_, server_process_ok D p hs b v A hmod, fun hu => ?_⟩
  obtain ⟨h1, h2, -⟩ := C78_known_exponent D hs hB (server_process_ok D p hs b v A hmod) a
    (by rw [hu, hz, inv_mul_cancel_right₀ hv0]) hK
  have hcan : toBytesBE (beToNat A) = A := by rw [hA, Spec.enc, beToNat_toBytesBE]
  rw [hcan] at h2
  exact ⟨h1, h2⟩

/-- **C78 (bound).** In a safe-prime group that is the only way, up to Diffie-Hellman: for every public value `A` that the
server does not refuse there is exactly one exponent `e` below `N-1` with `A * v^u = g^e`; the key is the Diffie-Hellman
element `g^(e*b)` of `A * v^u` and `B - k*v = g^b`, and a proof made from a candidate key is accepted only if the candidate is
that element or the named pair collides. -/
theorem C78_diffie_hellman (hsafe : SafeGroup p) (hs : Spec.Sane p.n p.g) {b v A B : Bytes} {sv : SrpServerVerifier}
    (hv : (beToNat v : ZMod p.n) ≠ 0)
    (hB : (Server.computePublicEphemeral D p b v : Res SrpAuthError Bytes) = .ok B)
    (h : Server.processReply D p b v A = .ok sv) :
    (beToNat B : ZMod p.n) - (Spec.k D p.n p.g : ZMod p.n) * (beToNat v : ZMod p.n) = (p.g : ZMod p.n) ^ beToNat b ∧
    ∃ e < p.n - 1,
      (∀ j < p.n - 1, (p.g : ZMod p.n) ^ j =
        (beToNat A : ZMod p.n) * (beToNat v : ZMod p.n) ^ Spec.u D (beToNat A) (beToNat B) ↔ j = e) ∧
      sv.key = Spec.enc ((p.g : ZMod p.n) ^ (e * beToNat b)) ∧
      ∀ f, sv.verifyClient (D.hash (toBytesBE (beToNat A) ++ B ++ f)) = .ok () →
        f = Spec.enc ((p.g : ZMod p.n) ^ (e * beToNat b)) ∨
        D.Collision (toBytesBE (beToNat A) ++ B ++ f)
          (toBytesBE (beToNat A) ++ B ++ Spec.enc ((p.g : ZMod p.n) ^ (e * beToNat b))) := by
  have : NeZero p.n := ⟨hs.1.ne'⟩
  have : Fact p.n.Prime := ⟨hsafe.1⟩
  have hbase : (beToNat B : ZMod p.n) - (Spec.k D p.n p.g : ZMod p.n) * (beToNat v : ZMod p.n) = (p.g : ZMod p.n) ^ beToNat b := by
    rw [server_ephemeral_eq D p hs] at hB
    simp only [Res.ok.injEq] at hB
    rw [← hB, enc_cast, Spec.B, add_sub_cancel_left]
  refine ⟨hbase, ?_⟩
  have hA0 : (beToNat A : ZMod p.n) ≠ 0 := by
    intro h0
    rw [server_process_eq D p hs, if_pos (Nat.mod_eq_zero_of_dvd ((ZMod.natCast_eq_zero_iff _ _).1 h0))] at h
    simp at h
  obtain ⟨e, hlt, hlog⟩ := log_unique hsafe _ (mul_ne_zero hA0 (pow_ne_zero (Spec.u D (beToNat A) (beToNat B)) hv))
  refine ⟨e, hlt, hlog, ?_⟩
  obtain ⟨hk, hacc, -⟩ := C78_known_exponent D hs hB h e ((hlog e hlt).2 rfl).symm rfl
  rw [hbase, ← pow_mul, mul_comm] at hk hacc
  refine ⟨hk, fun f hf => ?_⟩
  have h1 := (C03_verifyClient_exact _ _).1.1 hf
  have h2 := (C03_verifyClient_exact _ _).1.1 hacc
  rcases D.eq_or_collision (h1.trans h2.symm) with e' | e'
  · exact Or.inl (List.append_cancel_left e')
  · exact Or.inr e'

/-- The hypotheses can be met: modulo 47 with `g = 5` the attacker finds an exponent for `A = 9` by trying all and is accepted. -/
example : SafeGroup ⟨47, 5⟩ ∧ Spec.Sane 47 5 ∧
    (match (Server.computePublicEphemeral sha256 ⟨47, 5⟩ [7] [11] : Res SrpAuthError Bytes),
      Server.processReply sha256 ⟨47, 5⟩ [7] [11] [9] with
    | .ok B, .ok sv => (List.range 46).any fun e =>
        decide ((9 * powMod 11 (Spec.u sha256 9 (beToNat B)) 47) % 47 = powMod 5 e 47) &&
        (sv.verifyClient (sha256.hash ([9] ++ B ++
          toBytesBE (powMod (beToNat B + 47 * 47 - Spec.k sha256 47 5 % 47 * 11) e 47)))).isOk
    | _, _ => false) = true :=
  ⟨⟨by norm_num, by norm_num,
    (Groups.C11_safe_prime_generator 47 5 (by decide) (by decide) (by decide) (by decide +kernel) (by norm_num)).2⟩,
    by decide +kernel, by decide +kernel⟩

end Verif.Srp
