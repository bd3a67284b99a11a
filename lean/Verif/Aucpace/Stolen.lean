import Verif.Aucpace.Compromise

/-!
# C78: what a stolen verifier is good for at an AuCPace server

The attacker has the verifier `W` of a user (and everything else in the database) but not the password, and wants to be accepted
by an honest server of the plain or strong protocol.
-/

set_option linter.unusedSectionVars false

namespace Verif.Aucpace
open Spec Run

section
variable {G : Type} [AddCommGroup G] [Module Scalar G] [DecidableEq G] (R : Ristretto G) (D : Digest)
  {σc σs : Type} (rngC : Rng σc) (rngS : Rng σs)

/-- A plain or strong session of a registered user with verifier `W` in which the server announced `X`. -/
def Announced (user : Bytes) (W X : G) (srv : Server.AugLayer) (sr : σs) (st : Server.CPaceSubstep σs) : Prop :=
  (∃ db salt ps grp, Database.lookupVerifier db user = some (W, salt, ps) ∧
    Server.generateClientInfo (ε := Error) R D rngS srv user db sr = .ok (st, .augmentationInfo grp X salt ps)) ∨
  ∃ db q ps U grp V, StrongDatabase.lookupVerifierStrong db user = some (W, q, ps) ∧
    Server.generateClientInfoStrong R D rngS srv user U db sr = .ok (st, .strongAugmentationInfo grp X V ps)

theorem announced_state {user : Bytes} {W X : G} {srv : Server.AugLayer} {sr : σs} {st : Server.CPaceSubstep σs}
    (h : Announced R D rngS user W X srv sr st) :
    X = draw (rngS.fill sr 64).1 • R.base ∧
    st = ⟨srv.ssid, R.compress (draw (rngS.fill sr 64).1 • W), (rngS.fill sr 64).2⟩ := by
  rcases h with ⟨db, salt, ps, grp, hdb, h⟩ | ⟨db, q, ps, U, grp, V, hdb, h⟩
  · have hi := server_info_eq R D rngS db none srv user sr W salt ps hdb (by rintro _ ⟨⟩)
    simp only [Run.serverInfo, h, serverX, Res.ok.injEq, Prod.mk.injEq, ServerMessage.augmentationInfo.injEq] at hi
    exact ⟨hi.2.2.1, hi.1⟩
  · have hi := server_info_strong_eq R D rngS db none srv user U sr W q ps hdb (by rintro _ ⟨⟩)
    simp only [Run.serverInfoStrong, h, serverX] at hi
    split at hi
    · simp at hi
    · simp only [Res.ok.injEq, Prod.mk.injEq, ServerMessage.strongAugmentationInfo.injEq] at hi
      exact ⟨hi.2.2.1, hi.1⟩

/-- **C78 (AuCPace).** An attacker makes a password-related string from the verifier and the announced `X` in any way `F` and
goes on like a client. If that string encodes the Diffie-Hellman element of `X` and `W` the login ends like an honest one; and
if the server accepts, the string encodes that element or one of the named pairs collides. -/
theorem C78_aucpace (h64 : D.outLen = 64) (F : G → G → Bytes) (hF : ∀ W X, (F W X).length = 32) {user : Bytes} {W X : G}
    {srv : Server.AugLayer} {sr : σs} {st : Server.CPaceSubstep σs} (h : Announced R D rngS user W X srv sr st)
    (hssid : srv.ssid.length = 64) :
    ∃ x w : Scalar, X = x • R.base ∧ W = w • R.base ∧
      (F W X = R.compress ((x * w) • R.base) → ∀ (ci : Bytes) (c : σc),
        Run.explicit R D rngC rngS ⟨srv.ssid, F W X⟩ st ci ci c =
          let g := gen R D srv.ssid (F W X) ci
          let ya := draw (rngS.fill st.rng 64).1
          let yb := draw (rngC.fill c 64).1
          let k := sk D srv.ssid (Spec.sk1 R D srv.ssid ((ya * yb) • g))
          if ya • g = 0 ∨ yb • g = 0 then .err .illegalPointError else .ok (k, k)) ∧
      ∀ (ssidC : Bytes), ssidC.length = 64 → ∀ (ciC ciS : Bytes) (c : σc)
        (cli1 : Client.RecvServerKey) (srv1 : Server.RecvClientKey) (Ya Yb : G) (c1 : σc),
        Client.generatePublicKey R D rngC ⟨ssidC, F W X⟩ ciC c = ((cli1, .publicKey Yb), c1) →
        Server.generatePublicKey R D rngS st ciS = (srv1, .publicKey Ya) →
        ∀ (cli2 : Client.ExpMutAuth) (srv2 : Server.ExpMutAuth) (t : Bytes),
        Client.receiveServerPubkey R D cli1 Ya = .ok (cli2, .authenticator t) →
        Server.receiveClientPubkey R D srv1 Yb = .ok srv2 →
        ∀ (k : Bytes) (m : ServerMessage G), Server.receiveClientAuthenticator D srv2 t = .ok (k, m) →
        F W X = R.compress ((x * w) • R.base) ∨
        D.Collision (inp 4 (st.ssid ++ srv2.sk1)) (inp 4 (ssidC ++ cli2.sk1)) ∨
        D.Collision (inp 2 (st.ssid ++ R.compress (srv1.privKey • Yb)))
          (inp 2 (ssidC ++ R.compress (cli1.privKey • Ya))) ∨
        MapCollision R D (st.ssid ++ st.prs ++ ciS) (ssidC ++ F W X ++ ciC) := by
  obtain ⟨rfl, rfl⟩ := announced_state R D rngS h
  obtain ⟨w, rfl⟩ := R.base_generates W
  refine ⟨_, w, rfl, rfl, fun hf ci c => ?_, ?_⟩
  · rw [hf, ← smul_smul]
    exact explicit_same R D rngC rngS h64 _ _ ci _ c
  · intro ssidC hC ciC ciS c cli1 srv1 Ya Yb c1 hC1 hS1 cli2 srv2 t hC2 hS2 k m hS3
    rcases C36_server_accepts R D rngC rngS h64 ⟨ssidC, F (w • R.base) (draw (rngS.fill sr 64).1 • R.base)⟩ _ ciC ciS c hC
      hssid (hF _ _) (R.compress_length _) hC1 hS1 hC2 hS2 hS3 with h' | h'
    · left
      rw [← smul_smul]
      exact h'.1.2.1.symm
    · exact Or.inr h'

end

/-- The hypotheses can be met over the scalars: there `W` and `X` are the exponents, the attacker that multiplies them gets in. -/
example :
    let s : Server.AugLayer := ⟨World.server.secret, World.bytes 1 64⟩
    (match Server.generateClientInfo (ε := Error) Ristretto.toy sha512 Rng.replay s World.user World.db (World.bytes 3 200) with
    | .ok (st, .augmentationInfo _ X salt ps) =>
      match World.db.lookupVerifier World.user with
      | some (W, salt', ps') => decide (salt = salt' ∧ ps = ps') &&
        (Run.explicit Ristretto.toy sha512 Rng.replay Rng.replay ⟨s.ssid, Ristretto.toy.compress (X * W)⟩ st [] []
          (World.bytes 5 64)).isOk
      | none => false
    | _ => false) = true := by
  decide +kernel

end Verif.Aucpace
