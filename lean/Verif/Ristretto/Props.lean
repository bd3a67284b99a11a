import Verif.Ristretto.Vectors
import Verif.Aucpace.PropsAgree
import Verif.Aucpace.Uniform

/-!
# C59: AuCPace over the real ristretto255

The laws asked of the group by `Verif/Aucpace` hold for ristretto255 as curve25519-dalek 4.1.3 implements it, so that
the theorems about the protocol are theorems about that group. Here: which strings are points, and the protocol's
results at `ristretto255` and SHA-512.
-/

set_option linter.unusedSectionVars false

namespace Verif.Ristretto
open Ed25519 (Fe Point base edD isNegative)
open Aucpace (Scalar)

theorem feBytes_val (s : Fe) : leToNat (feBytes s) = s.val := by
  have hlt : s.val < 2 ^ 255 := (ZMod.val_lt s).trans (by decide +kernel)
  rw [feBytes, leToNat_leFixed, Nat.mod_eq_of_lt (hlt.trans (by decide +kernel))]

theorem isNegative_eq_false (x : Fe) : isNegative x = false ↔ x.val % 2 = 0 := by
  unfold isNegative
  rw [beq_eq_false_iff_ne]
  omega

/-- **C59 (points on the wire).** A string is accepted as a point exactly if it has 32 bytes, is the little-endian form
of an even number `s` below `p`, and the curve has a point with `s²(1+y) = 1-y`, `x` and `xy` even and `y ≠ 0`. -/
theorem C59_encoding (b : Bytes) :
    (decompress b).isSome = true ↔
      b.length = 32 ∧ leToNat b < p25519 ∧ leToNat b % 2 = 0 ∧
      ∃ x y : Fe, y ^ 2 - x ^ 2 = 1 + edD * x ^ 2 * y ^ 2 ∧ (leToNat b : Fe) ^ 2 * (1 + y) = 1 - y ∧
        x.val % 2 = 0 ∧ (x * y).val % 2 = 0 ∧ y ≠ 0 := by
  rw [Option.isSome_iff_exists]
  constructor
  · rintro ⟨g, hg⟩
    obtain ⟨s, x, y, h, rfl, rfl⟩ := (decompress_eq_some_iff b g).1 hg
    rw [feBytes_val]
    refine ⟨by rw [feBytes, leFixed_length], ZMod.val_lt s, (isNegative_eq_false s).1 h.s_nonneg, x, y, h.on, ?_,
      (isNegative_eq_false x).1 h.x_nonneg, (isNegative_eq_false _).1 h.t_nonneg, h.y_ne⟩
    rw [ZMod.natCast_zmod_val]
    exact h.root
  · rintro ⟨hl, hlt, hev, x, y, hon, hroot, hx, ht, hy⟩
    have hv : ((leToNat b : ℕ) : Fe).val = leToNat b := by
      rw [ZMod.val_natCast, Nat.mod_eq_of_lt hlt]
    have hd : Decodes (leToNat b : Fe) x y :=
      ⟨hon, hroot, (isNegative_eq_false _).2 (by rw [hv]; exact hev), (isNegative_eq_false x).2 hx,
        (isNegative_eq_false _).2 ht, hy⟩
    refine ⟨mk ⟨x, y, hd.on⟩ hd.even, (decompress_eq_some_iff b _).2 ⟨_, x, y, hd, ?_, Eq.refl _⟩⟩
    rw [feBytes, hv]
    have := leFixed_leToNat b
    rw [hl] at this
    exact this.symm

theorem card_rpoint : Nat.card RPoint = ell := by
  have h : Function.Bijective (fun k : Scalar => k • ristretto255.base) :=
    ⟨fun k m h => Aucpace.smul_base_inj.1 h, fun g => (ristretto255.base_generates g).imp fun _ h => h.symm⟩
  rw [← Nat.card_congr (Equiv.ofBijective _ h), Nat.card_zmod]

/-- **C59 (number of points).** Exactly `ell` of the strings are points, one for each element of the group. -/
theorem C59_count : Nat.card RPoint = ell ∧ {b : Bytes | (decompress b).isSome = true}.ncard = ell ∧
    ∀ b b' g, decompress b = some g → decompress b' = some g → b = b' := by
  refine ⟨card_rpoint, ?_, ?_⟩
  · have he : {b : Bytes | (decompress b).isSome = true} = compress '' Set.univ := by
      ext b
      simp only [Set.mem_ofPred_eq, Option.isSome_iff_exists, Set.mem_image, Set.mem_univ, true_and]
      constructor
      · rintro ⟨g, h⟩; exact ⟨g, compress_decompress b g h⟩
      · rintro ⟨g, rfl⟩; exact ⟨g, decompress_compress g⟩
    have hi : Function.Injective compress := ristretto255.compress_injective
    rw [he, Set.InjOn.ncard_image hi.injOn, Set.ncard_univ, card_rpoint]
  · intro b b' g h h'
    rw [← compress_decompress b g h, ← compress_decompress b' g h']

theorem compress_zero : compress 0 = List.replicate 32 0 := by
  have h := compress_smul_base 0
  rw [zero_nsmul] at h
  rw [h]
  decide +kernel

/-- **C59 (neutral element).** The neutral element has one encoding, 32 zero bytes; a key received in the protocol is
refused exactly if its encoding is that string. -/
theorem C59_neutral (D : Digest) (b : Bytes) (P : RPoint) (h : decompress b = some P)
    (cs : Aucpace.Client.RecvServerKey) (ss : Aucpace.Server.RecvClientKey) :
    (P = 0 ↔ b = List.replicate 32 0) ∧
    (Aucpace.Server.receiveClientPubkey ristretto255 D ss P = .err .illegalPointError ↔ b = List.replicate 32 0) ∧
    (Aucpace.Client.receiveServerPubkey ristretto255 D cs P = .err .illegalPointError ↔ b = List.replicate 32 0) ∧
    (Aucpace.Server.implicitAuth ristretto255 D ss P = .err .illegalPointError ↔ b = List.replicate 32 0) ∧
    (Aucpace.Client.implicitAuth ristretto255 D cs P = .err .illegalPointError ↔ b = List.replicate 32 0) := by
  have h0 : P = 0 ↔ b = List.replicate 32 0 := by
    rw [← compress_decompress b P h, ← compress_zero]
    exact ristretto255.compress_injective.eq_iff.symm
  refine ⟨h0, ?_, ?_, ?_, ?_⟩
  · rw [← h0, Aucpace.Server.receiveClientPubkey]
    split <;> simp_all
  · rw [← h0, Aucpace.Client.receiveServerPubkey]
    by_cases hP : P = 0
    · simp only [hP, if_true]
    · simp only [hP, if_false, iff_false, Aucpace.toArray]
      split
      · simp only [Res.bind_ok]; simp
      · simp
  · rw [← h0, Aucpace.Server.implicitAuth]
    split <;> simp_all
  · rw [← h0, Aucpace.Client.implicitAuth]
    split <;> simp_all

section
open Aucpace Aucpace.Run
variable {Params : Type} (Hs : PwHasher Params) {σc σs σr : Type} (rngC : Rng σc) (rngS : Rng σs) (rngR : Rng σr)

/-- **C59 (agreement).** C32 over ristretto255 and SHA-512, with nothing assumed about the group or the hash: after a
registration both parties of an honest login end with the same 64-byte key, or one of them met the neutral element. -/
theorem C59_agreement
    (bufR buf : Buf) (s s' : σr) (user pass salt ps : Bytes) (params : Params) (W : RPoint)
    (hreg : Run.register ristretto255 Hs rngR bufR s user pass params = .ok (.registration user salt ps W, s'))
    (db : Database RPoint) (hdb : db.lookupVerifier user = some (W, salt, ps))
    (kdb : Option (PartialAugDatabase RPoint))
    (hk : ∀ k, kdb = some k → ∃ x, k.lookupLongTermKeypair user = some (x, x • ristretto255.base))
    (fromPs : Bytes → Params) (hps : fromPs ps = params) (hbuf : buf.fits user pass)
    (start : Start) (hstart : startOk start) (ci : Bytes)
    (c c' : σc) (sv : Server.State σs) (sr : σs) :
    (∃ k : Bytes, k.length = 64 ∧
      Run.login ristretto255 sha512 Hs rngC rngS (Run.explicit ristretto255 sha512 rngC rngS) fromPs buf db kdb start
        user pass ci c sv sr c' = .ok (k, k)) ∨
    Run.login ristretto255 sha512 Hs rngC rngS (Run.explicit ristretto255 sha512 rngC rngS) fromPs buf db kdb start
        user pass ci c sv sr c' = .err .illegalPointError :=
  C32_same_key ristretto255 sha512 Hs rngC rngS rngR rfl bufR buf s s' user pass salt ps params W hreg db hdb kdb hk
    fromPs hps hbuf start hstart ci c c' sv sr

/-- **C59 (agreement, strong).** C33 over ristretto255 and SHA-512. -/
theorem C59_agreement_strong
    (bufR buf : Buf) (s s' : σr) (user pass ps : Bytes) (params : Params) (W : RPoint) (q : Scalar)
    (hreg : Run.registerStrong ristretto255 sha512 Hs rngR bufR s user pass params =
      .ok (.strongRegistration user q ps W, s'))
    (db : StrongDatabase RPoint) (hdb : db.lookupVerifierStrong user = some (W, q, ps))
    (kdb : Option (PartialAugDatabase RPoint))
    (hk : ∀ k, kdb = some k → ∃ x, k.lookupLongTermKeypair user = some (x, x • ristretto255.base))
    (fromPs : Bytes → Params) (hps : fromPs ps = params) (hbuf : buf.fits user pass)
    (start : Start) (hstart : startOk start) (ci : Bytes) (r : Scalar) (hr : r ≠ 0)
    (c c' : σc) (sv : Server.State σs) (sr : σs) :
    (∃ k : Bytes, k.length = 64 ∧
      Run.loginStrong ristretto255 sha512 Hs rngC rngS (Run.explicit ristretto255 sha512 rngC rngS) fromPs buf db kdb
        start user pass ci r c sv sr c' = .ok (k, k)) ∨
    Run.loginStrong ristretto255 sha512 Hs rngC rngS (Run.explicit ristretto255 sha512 rngC rngS) fromPs buf db kdb
        start user pass ci r c sv sr c' = .err .illegalPointError :=
  C33_same_key ristretto255 sha512 Hs rngC rngS rngR rfl bufR buf s s' user pass ps params W q hreg db hdb kdb hk
    fromPs hps hbuf start hstart ci r hr c c' sv sr

/-- Registrations as in these theorems exist over ristretto255, for every name, password and salt. -/
example (s : Bytes) (user pass : Bytes) :
    (∃ salt W s', Aucpace.Run.register ristretto255 Aucpace.World.hasher Rng.replay .alloc s user pass () =
      .ok (.registration user salt (ascii "ln=1") W, s')) ∧
    ∃ q W s', Aucpace.Run.registerStrong ristretto255 sha512 Aucpace.World.hasher Rng.replay .alloc s user pass () =
      .ok (.strongRegistration user q (ascii "ln=1") W, s') := by
  have hw (salt : Bytes) : ∃ w, Aucpace.Spec.pwScalar Aucpace.World.hasher user pass salt () = .ok w := by
    refine ⟨(leToNat (sha512.hash (Aucpace.Spec.userPass user pass ++ salt)) : Scalar), ?_⟩
    simp only [Aucpace.Spec.pwScalar, Aucpace.World.hasher]
    exact if_pos (Or.inr (sha512.hash_length _))
  constructor
  · obtain ⟨w, hw⟩ := hw (Base64.encode (Rng.replay.fill s 16).1)
    exact ⟨_, _, _, by rw [Aucpace.register_eq, if_pos (by trivial), hw]; rfl⟩
  · obtain ⟨w, hw⟩ := hw (Base64.encode (ristretto255.compress
      (Aucpace.Spec.draw (Rng.replay.fill s 64).1 • Aucpace.Spec.strongPoint ristretto255 sha512 user pass)))
    exact ⟨_, _, _, by rw [Aucpace.registerStrong_eq, if_pos (by trivial)]; simp only [hw]; rfl⟩

end

end Verif.Ristretto
