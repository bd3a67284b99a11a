import Verif.Aucpace.PropsAuth

/-!
# C53 for the strong variants

`Verif/Aucpace/PropsAuth.lean` has C53 for the plain and the partially augmented protocol.
-/

set_option linter.unusedSectionVars false

namespace Verif.Aucpace
open Spec Run

section
variable {G : Type} [AddCommGroup G] [Module Scalar G] [DecidableEq G] (R : Ristretto G) (D : Digest)
  {Params : Type} (Hs : PwHasher Params) {σc σs σr : Type} (rngC : Rng σc) (rngS : Rng σs)
  (rngR : Rng σr)

/-- **C53 (strong).** The pair made for a session of the strong protocol matches: the point sent is `x B`, and for a
registered user the server's string is the encoding of `x W`. -/
theorem C53_matching_strong (srv : Server.AugLayer) (user : Bytes) (U : G) (db : StrongDatabase G) (s : σs)
    (st : Server.CPaceSubstep σs) (m : ServerMessage G)
    (h : Server.generateClientInfoStrong R D rngS srv user U db s = .ok (st, m)) :
    ∃ (x : Scalar) (V : G) (ps : Bytes), m = .strongAugmentationInfo groupName (x • R.base) V ps ∧ V ≠ 0 ∧
      ∀ W q ps', db.lookupVerifierStrong user = some (W, q, ps') →
        st.prs = R.compress (x • W) ∧ V = q • U ∧ ps = ps' := by
  simp only [Server.generateClientInfoStrong, generateServerKeypair_eq, Server.generatePrsStrong, mul_one] at h
  split at h
  · rename_i W q ps hdb
    by_cases hU : q • U = 0
    · simp [hU] at h
    · simp only [if_neg hU, Res.bind_ok, Res.ok.injEq, Prod.mk.injEq] at h
      obtain ⟨rfl, rfl⟩ := h
      refine ⟨_, _, _, rfl, hU, fun W' q' ps' h => ?_⟩
      rw [hdb] at h
      simp only [Option.some.injEq, Prod.mk.injEq] at h
      obtain ⟨rfl, rfl, rfl⟩ := h
      exact ⟨rfl, rfl, rfl⟩
  · rename_i hdb
    simp only [Server.lookupFailedStrong, mul_one] at h
    split at h
    · simp at h
    · rename_i hU
      simp only [Res.bind_ok, Res.ok.injEq, Prod.mk.injEq] at h
      obtain ⟨rfl, rfl⟩ := h
      refine ⟨_, _, _, rfl, hU, fun W' q' ps' h => ?_⟩
      rw [hdb] at h
      simp at h

/-- The strong exchange with an arbitrary stored pair `(x, X)`. -/
theorem augmentStrong_pair (fromPs : Bytes → Params) (buf : Buf) (db : StrongDatabase G)
    (kdb : PartialAugDatabase G) (cli : Client.PreAug) (srv : Server.AugLayer)
    (user pass : Bytes) (r : Scalar) (hr : r ≠ 0) (sr : σs) (W : G) (q : Scalar) (ps : Bytes) (x : Scalar) (X : G)
    (hdb : db.lookupVerifierStrong user = some (W, q, ps))
    (hk : kdb.lookupLongTermKeypair user = some (x, X)) (hbuf : buf.fits user pass) :
    Run.augmentStrong R D Hs rngS fromPs buf db (some kdb) cli srv user pass r sr =
      if q • strongPoint R D user pass = 0 ∨ X = 0 then .err .illegalPointError
      else pwScalar Hs user pass (Base64.encode (R.compress (q • strongPoint R D user pass))) (fromPs ps) >>= fun w =>
        .ok (⟨cli.ssid, R.compress (w • X)⟩, ⟨srv.ssid, R.compress (x • W), sr⟩) := by
  have hun : r⁻¹ • q • r • strongPoint R D user pass = q • strongPoint R D user pass := by
    rw [smul_smul, smul_smul]
    congr 1
    field_simp
  simp only [Run.augmentStrong, Client.startAugmentationStrongWith, strongPoint_eq, mul_one, Run.serverInfoStrong,
    Server.generateClientInfoPartialStrong, hk, Server.generatePrsStrong, hdb]
  by_cases hQ : q • strongPoint R D user pass = 0
  · have : q • r • strongPoint R D user pass = 0 := by
      rw [smul_comm, hQ, smul_zero]
    rw [if_pos this]
    simp only [Res.bind_err, if_pos (Or.inl hQ : q • strongPoint R D user pass = 0 ∨ _)]
  · have : q • r • strongPoint R D user pass ≠ 0 := by
      rw [smul_comm]
      intro h
      rcases smul_eq_zero.1 h with h | h
      · exact hr h
      · exact hQ h
    rw [if_neg this]
    have hun' : r⁻¹ • q • r • strongPoint R D user pass ≠ 0 := by rw [hun]; exact hQ
    simp only [Res.bind_ok]
    rw [clientCpaceStrong_eq R Hs buf ⟨cli.ssid, user, pass, r⟩ _ _ _ hun']
    simp only [hun, if_pos hbuf]
    by_cases hX : X = 0
    · simp only [hX, if_true, Res.bind_err, or_true]
    · simp only [if_neg hX, if_neg (not_or.2 ⟨hQ, hX⟩), bind_assoc', Res.bind_ok, prs]

/-- **C53 (mismatch, strong).** StrongAuCPace with partial augmentation and any stored pair `(x, X)`: a successful login with the
registered password means that the pair matches or the password scalar is zero, or a named collision. -/
theorem C53_mismatch_strong (h64 : D.outLen = 64)
    (bufR buf : Buf) (s s' : σr) (user pass ps : Bytes) (params : Params) (W : G) (q : Scalar)
    (hreg : Run.registerStrong R D Hs rngR bufR s user pass params =
      .ok (.strongRegistration user q ps W, s'))
    (db : StrongDatabase G) (hdb : db.lookupVerifierStrong user = some (W, q, ps))
    (kdb : PartialAugDatabase G) (x : Scalar) (X : G)
    (hk : kdb.lookupLongTermKeypair user = some (x, X))
    (fromPs : Bytes → Params) (hps : fromPs ps = params) (hbuf : buf.fits user pass)
    (start : Start) (hstart : startOk start) (ci : Bytes) (r : Scalar) (hr : r ≠ 0)
    (c c' : σc) (sv : Server.State σs) (sr : σs) {kc ks : Bytes}
    (hrun : Run.loginStrong R D Hs rngC rngS (Run.explicit R D rngC rngS) fromPs buf db (some kdb) start
      user pass ci r c sv sr c' = .ok (kc, ks)) :
    ∃ w : Scalar, W = w • R.base ∧
      (X = x • R.base ∨ w = 0 ∨
        ExchangeCollision R D (ssidOf D rngC rngS start c sv)
          (R.compress (x • W)) (R.compress (w • X)) ci
          (draw (rngS.fill sr 64).1) (draw (rngC.fill c' 64).1)) := by
  rw [registerStrong_eq] at hreg
  split at hreg
  · obtain ⟨w, hw, hreg⟩ := Res.bind_eq_ok.1 hreg
    obtain ⟨ps', _, hreg⟩ := Res.bind_eq_ok.1 hreg
    simp only [Res.ok.injEq, Prod.mk.injEq, ClientMessage.strongRegistration.injEq] at hreg
    obtain ⟨⟨-, rfl, rfl, rfl⟩, -⟩ := hreg
    refine ⟨w, rfl, ?_⟩
    simp only [Run.loginStrong, ssidStage_ok D rngC rngS start c sv hstart, Res.bind_ok,
      augmentStrong_pair R D Hs rngS fromPs buf db kdb _ _ user pass r hr sr _ _ _ x X hdb hk hbuf, hps, hw]
      at hrun
    by_cases hX : draw (rngR.fill s 64).1 • strongPoint R D user pass = 0 ∨ X = 0
    · rw [if_pos hX] at hrun
      simp at hrun
    · simp only [if_neg hX, Res.bind_ok] at hrun
      have hl := ssidOf_length D rngC rngS h64 start c sv
      rcases explicit_binding R D rngC rngS h64 _ _ ci ci c' hl hl (R.compress_length _)
        (R.compress_length _) hrun with h | h
      · have := h.2.1
        simp only [R.compress_inj] at this
        rw [smul_comm] at this
        by_cases hw0 : w = 0
        · exact Or.inr (Or.inl hw0)
        · exact Or.inl (smul_left_cancel_ne hw0 this).symm
      · exact Or.inr (Or.inr h)
  · simp at hreg

/-- A pair that matches succeeds in the concrete world, one that does not fails. -/
example :
    (Run.loginStrong Ristretto.toy sha512 World.hasher Rng.replay Rng.replay
      (Run.explicit Ristretto.toy sha512 Rng.replay Rng.replay) (fun _ => ()) (.fixed 12) World.dbStrong
      (some ⟨fun _ => some (5, 5)⟩) (.nonces 16) World.user World.pass (ascii "ci") 3
      (World.bytes 2 100) World.server (World.bytes 3 200) (World.bytes 4 100)).isOk = true ∧
    Run.loginStrong Ristretto.toy sha512 World.hasher Rng.replay Rng.replay
      (Run.explicit Ristretto.toy sha512 Rng.replay Rng.replay) (fun _ => ()) (.fixed 12) World.dbStrong
      (some ⟨fun _ => some (5, 6)⟩) (.nonces 16) World.user World.pass (ascii "ci") 3
      (World.bytes 2 100) World.server (World.bytes 3 200) (World.bytes 4 100) =
      .err .mutualAuthFail := by decide +kernel

end
end Verif.Aucpace
