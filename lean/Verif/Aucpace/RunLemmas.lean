import Verif.Aucpace.Run
import Verif.Aucpace.Lemmas

/-!
# Helper lemmas: outcome of the stages of a run
-/

set_option linter.unusedSectionVars false

namespace Verif.Aucpace
open Spec

section
variable {G : Type} [AddCommGroup G] [Module Scalar G] [DecidableEq G] (R : Ristretto G) (D : Digest)
  {Params : Type} (Hs : PwHasher Params) {σc σs : Type} (rngC : Rng σc) (rngS : Rng σs)

theorem toArray_ok {ε : Type} {n : Nat} {b : Bytes} (h : b.length = n) :
    (toArray n b : Res ε Bytes) = .ok b := by simp [toArray, h]

theorem receiveServerPubkey_eq (h64 : D.outLen = 64) (self : Client.RecvServerKey) (Y : G) :
    Client.receiveServerPubkey R D self Y =
      if Y = 0 then .err .illegalPointError
      else
        let s := Spec.sk1 R D self.ssid (self.privKey • Y)
        .ok (⟨self.ssid, s, ta D self.ssid s⟩, .authenticator (tb D self.ssid s)) := by
  unfold Client.receiveServerPubkey
  split
  · rfl
  · simp only [computeFirstSessionKey_eq, computeAuthenticatorMessages_eq]
    rw [toArray_ok (by simp [h64])]
    rfl

theorem receiveClientPubkey_eq (self : Server.RecvClientKey) (Y : G) :
    Server.receiveClientPubkey R D self Y =
      if Y = 0 then .err .illegalPointError
      else .ok ⟨self.ssid, Spec.sk1 R D self.ssid (self.privKey • Y)⟩ := by
  simp only [Server.receiveClientPubkey, computeFirstSessionKey_eq]

theorem receiveClientAuthenticator_eq (h64 : D.outLen = 64) (self : Server.ExpMutAuth) (t : Bytes) :
    (Server.receiveClientAuthenticator D self t : Res Error (Bytes × ServerMessage G)) =
      if tb D self.ssid self.sk1 = t then
        .ok (sk D self.ssid self.sk1, .authenticator (ta D self.ssid self.sk1))
      else .err .mutualAuthFail := by
  unfold Server.receiveClientAuthenticator
  simp only [computeAuthenticatorMessages_eq, computeSessionKey_eq, ctEq_eq_decide,
    decide_eq_true_eq]
  rw [toArray_ok (by simp [h64])]
  rfl

theorem receiveServerAuthenticator_eq (self : Client.ExpMutAuth) (t : Bytes) :
    Client.receiveServerAuthenticator D self t =
      if self.serverAuthenticator = t then .ok (sk D self.ssid self.sk1)
      else .err .mutualAuthFail := by
  simp only [Client.receiveServerAuthenticator, computeSessionKey_eq, ctEq_eq_decide,
    decide_eq_true_eq]

theorem client_implicitAuth_eq (self : Client.RecvServerKey) (Y : G) :
    Client.implicitAuth R D self Y =
      if Y = 0 then .err .illegalPointError
      else .ok (sk D self.ssid (Spec.sk1 R D self.ssid (self.privKey • Y))) := by
  simp only [Client.implicitAuth, computeFirstSessionKey_eq, computeSessionKey_eq]

theorem server_implicitAuth_eq (self : Server.RecvClientKey) (Y : G) :
    Server.implicitAuth R D self Y =
      if Y = 0 then .err .illegalPointError
      else .ok (sk D self.ssid (Spec.sk1 R D self.ssid (self.privKey • Y))) := by
  simp only [Server.implicitAuth, computeFirstSessionKey_eq, computeSessionKey_eq]

theorem client_generatePublicKey_eq (self : Client.CPaceSubstep) (ci : Bytes) (c : σc) :
    Client.generatePublicKey R D rngC self ci c =
      ((⟨self.ssid, draw (rngC.fill c 64).1⟩,
        .publicKey (draw (rngC.fill c 64).1 • gen R D self.ssid self.prs ci)),
        (rngC.fill c 64).2) := by
  simp only [Client.generatePublicKey, generateKeypair_eq]

theorem server_generatePublicKey_eq (self : Server.CPaceSubstep σs) (ci : Bytes) :
    Server.generatePublicKey R D rngS self ci =
      (⟨self.ssid, draw (rngS.fill self.rng 64).1⟩,
        .publicKey (draw (rngS.fill self.rng 64).1 • gen R D self.ssid self.prs ci)) := by
  simp only [Server.generatePublicKey, generateKeypair_eq]

/-- Outcome of the explicit exchange for arbitrary CPace states. -/
theorem explicit_eq (h64 : D.outLen = 64) (cli : Client.CPaceSubstep) (srv : Server.CPaceSubstep σs)
    (ciC ciS : Bytes) (c : σc) :
    Run.explicit R D rngC rngS cli srv ciC ciS c =
      let yb := draw (rngC.fill c 64).1
      let ya := draw (rngS.fill srv.rng 64).1
      let Yb := yb • gen R D cli.ssid cli.prs ciC
      let Ya := ya • gen R D srv.ssid srv.prs ciS
      let sC := Spec.sk1 R D cli.ssid (yb • Ya)
      let sS := Spec.sk1 R D srv.ssid (ya • Yb)
      if Ya = 0 ∨ Yb = 0 then .err .illegalPointError
      else if tb D srv.ssid sS = tb D cli.ssid sC ∧ ta D cli.ssid sC = ta D srv.ssid sS then
        .ok (sk D cli.ssid sC, sk D srv.ssid sS)
      else .err .mutualAuthFail := by
  simp only [Run.explicit, client_generatePublicKey_eq, server_generatePublicKey_eq,
    receiveServerPubkey_eq R D h64, receiveClientPubkey_eq]
  by_cases h1 : draw (rngS.fill srv.rng 64).1 • gen R D srv.ssid srv.prs ciS = 0
  · simp only [if_pos h1, Res.bind_err, if_pos (Or.inl h1)]
  · by_cases h2 : draw (rngC.fill c 64).1 • gen R D cli.ssid cli.prs ciC = 0
    · simp only [if_neg h1, Res.bind_ok, if_pos h2, Res.bind_err, if_pos (Or.inr h2)]
    · rw [if_neg (not_or.2 ⟨h1, h2⟩)]
      simp only [if_neg h1, Res.bind_ok, if_neg h2]
      rw [receiveClientAuthenticator_eq D h64]
      by_cases h3 : tb D srv.ssid (Spec.sk1 R D srv.ssid (draw (rngS.fill srv.rng 64).1 •
          draw (rngC.fill c 64).1 • gen R D cli.ssid cli.prs ciC)) =
          tb D cli.ssid (Spec.sk1 R D cli.ssid (draw (rngC.fill c 64).1 •
          draw (rngS.fill srv.rng 64).1 • gen R D srv.ssid srv.prs ciS))
      · simp only [if_pos h3, Res.bind_ok, receiveServerAuthenticator_eq]
        split <;> rename_i h4
        · simp only [Res.bind_ok, if_pos (And.intro h3 h4)]
        · simp only [Res.bind_err]
          rw [if_neg (fun h => h4 h.2)]
      · simp only [if_neg h3, Res.bind_err]
        rw [if_neg (fun h => h3 h.1)]

/-- Outcome of the implicit exchange for arbitrary CPace states. -/
theorem implicit_eq (cli : Client.CPaceSubstep) (srv : Server.CPaceSubstep σs)
    (ciC ciS : Bytes) (c : σc) :
    Run.implicit R D rngC rngS cli srv ciC ciS c =
      let yb := draw (rngC.fill c 64).1
      let ya := draw (rngS.fill srv.rng 64).1
      let Yb := yb • gen R D cli.ssid cli.prs ciC
      let Ya := ya • gen R D srv.ssid srv.prs ciS
      if Ya = 0 ∨ Yb = 0 then .err .illegalPointError
      else .ok (sk D cli.ssid (Spec.sk1 R D cli.ssid (yb • Ya)),
        sk D srv.ssid (Spec.sk1 R D srv.ssid (ya • Yb))) := by
  simp only [Run.implicit, client_generatePublicKey_eq, server_generatePublicKey_eq,
    client_implicitAuth_eq, server_implicitAuth_eq]
  by_cases h1 : draw (rngS.fill srv.rng 64).1 • gen R D srv.ssid srv.prs ciS = 0
  · simp only [if_pos h1, Res.bind_err, if_pos (Or.inl h1)]
  · by_cases h2 : draw (rngC.fill c 64).1 • gen R D cli.ssid cli.prs ciC = 0
    · simp only [if_neg h1, Res.bind_ok, if_pos h2, Res.bind_err, if_pos (Or.inr h2)]
    · rw [if_neg (not_or.2 ⟨h1, h2⟩)]
      simp only [if_neg h1, Res.bind_ok, if_neg h2]

/-- Both SSID stages end with the same SSID on both sides. -/
theorem ssidByNonces_eq (k1 : Nat) (c : σc) (sv : Server.State σs) :
    Run.ssidByNonces (G := G) D rngC rngS k1 c sv =
      .ok (⟨Spec.ssid D (rngS.fill sv.rng k1).1 (rngC.fill c k1).1⟩,
        ⟨sv.secret, Spec.ssid D (rngS.fill sv.rng k1).1 (rngC.fill c k1).1⟩) := by
  simp only [Run.ssidByNonces, Client.begin, Server.begin, generateNonce, Client.agreeSsid,
    Server.agreeSsid, computeSsid_eq]

theorem ssidPrestablished_eq (ssid : Bytes) (sv : Server.State σs) :
    Run.ssidPrestablished D ssid sv =
      if ssid.length < 16 then .err .insecureSsid
      else .ok (⟨Hn D 0 ssid⟩, ⟨sv.secret, Hn D 0 ssid⟩) := by
  simp only [Run.ssidPrestablished, Client.beginPrestablishedSsid, Server.beginPrestablishedSsid,
    finalize_H0, minSsidLen]
  split <;> simp

/-! ### Registration and augmentation -/

theorem pw_eq (user pass salt : Bytes) (params : Params) :
    (mapPh (Hs.hash (userPass user pass) params salt) >>= scalarFromHash) =
      pwScalar Hs user pass salt params := by
  unfold pwScalar
  cases Hs.hash (userPass user pass) params salt with
  | error e => rfl
  | ok h =>
    cases h with
    | none => rfl
    | some b => simp only [mapPh, Res.bind_ok, scalarFromHash_eq]

theorem bind_assoc' {ε α β γ : Type} (x : Res ε α) (f : α → Res ε β) (g : β → Res ε γ) :
    (x >>= f >>= g) = (x >>= fun a => f a >>= g) := by
  cases x <;> rfl

theorem register_eq {σ : Type} (rng : Rng σ) (buf : Run.Buf) (s : σ) (user pass : Bytes)
    (params : Params) :
    Run.register R Hs rng buf s user pass params =
      if buf.fits user pass then do
        let w ← pwScalar Hs user pass (Base64.encode (rng.fill s 16).1) params
        let ps ← mapPh (Hs.toParamsString params)
        .ok (.registration user (Base64.encode (rng.fill s 16).1) ps (w • R.base),
          (rng.fill s 16).2)
      else .err .usernameOrPasswordTooLong := by
  cases buf with
  | alloc =>
    simp only [Run.register, Client.registerAlloc, generateSalt_eq, Res.bind_ok,
      hashPasswordAlloc_eq, ← pw_eq, bind_assoc', mul_one, Run.Buf.fits, if_true]
  | fixed n =>
    simp only [Run.register, Client.register, generateSalt_eq, Res.bind_ok,
      hashPassword_eq, ← pw_eq, bind_assoc', mul_one, Run.Buf.fits]
    split
    · rename_i h; rw [if_neg (by omega)]; rfl
    · rename_i h; rw [if_pos (by omega)]

theorem registerStrong_eq {σ : Type} (rng : Rng σ) (buf : Run.Buf) (s : σ) (user pass : Bytes)
    (params : Params) :
    Run.registerStrong R D Hs rng buf s user pass params =
      if buf.fits user pass then do
        let q := draw (rng.fill s 64).1
        let w ← pwScalar Hs user pass
          (Base64.encode (R.compress (q • strongPoint R D user pass))) params
        let ps ← mapPh (Hs.toParamsString params)
        .ok (.strongRegistration user q ps (w • R.base), (rng.fill s 64).2)
      else .err .usernameOrPasswordTooLong := by
  cases buf with
  | alloc =>
    simp only [Run.registerStrong, Client.registerAllocStrong, Client.generateSaltStrong,
      randomScalar, strongPoint_eq, encodeSalt_compress, Res.bind_ok, scalarOfBytes,
      hashPasswordAlloc_eq, ← pw_eq, bind_assoc', mul_one, Run.Buf.fits, if_true, draw]
  | fixed n =>
    simp only [Run.registerStrong, Client.registerStrong, Client.generateSaltStrong,
      randomScalar, strongPoint_eq, encodeSalt_compress, Res.bind_ok, scalarOfBytes,
      hashPassword_eq, ← pw_eq, bind_assoc', mul_one, Run.Buf.fits, draw]
    split
    · rename_i h; rw [if_neg (by omega)]; rfl
    · rename_i h; rw [if_pos (by omega)]

theorem clientCpace_eq (buf : Run.Buf) (cli : Client.AugLayer) (X : G) (salt : Bytes)
    (params : Params) :
    Run.clientCpace R Hs buf cli X salt params =
      if X = 0 then .err .illegalPointError
      else if buf.fits cli.username cli.password then do
        let w ← pwScalar Hs cli.username cli.password salt params
        .ok ⟨cli.ssid, prs R w X⟩
      else .err .usernameOrPasswordTooLong := by
  cases buf with
  | alloc =>
    simp only [Run.clientCpace, Client.generateCpaceAlloc, hashPasswordAlloc_eq, ← pw_eq,
      bind_assoc', mul_one, Run.Buf.fits, if_true, prs]
  | fixed n =>
    simp only [Run.clientCpace, Client.generateCpace, hashPassword_eq, ← pw_eq,
      bind_assoc', mul_one, Run.Buf.fits, prs]
    split
    · rfl
    · split
      · rename_i h; rw [if_neg (by omega)]; rfl
      · rename_i h; rw [if_pos (by omega)]

theorem clientCpaceStrong_alloc_eq (cli : Client.StrongAugLayer) (X U : G) (params : Params) :
    Client.generateCpaceStrongAlloc R Hs cli X U params =
      if X = 0 ∨ cli.blindingValue⁻¹ • U = 0 then .err .illegalPointError
      else pwScalar Hs cli.username cli.password
          (Base64.encode (R.compress (cli.blindingValue⁻¹ • U))) params >>= fun w =>
        .ok ⟨cli.ssid, prs R w X⟩ := by
  simp only [Client.generateCpaceStrongAlloc, hashPasswordAlloc_eq, ← pw_eq,
    bind_assoc', mul_one, prs, encodeSalt_compress, Res.bind_ok]
  by_cases h1 : X = 0
  · simp only [if_pos h1, if_pos (Or.inl h1)]
  · by_cases h2 : cli.blindingValue⁻¹ • U = 0
    · simp only [if_neg h1, if_pos h2, if_pos (Or.inr h2)]
    · simp only [if_neg h1, if_neg h2, if_neg (not_or.2 ⟨h1, h2⟩)]

theorem clientCpaceStrong_fixed_eq (n : Nat) (cli : Client.StrongAugLayer) (X U : G)
    (params : Params) :
    Client.generateCpaceStrong R Hs n cli X U params =
      if X = 0 then .err .illegalPointError
      else if cli.username.length + cli.password.length + 1 ≤ n then do
        let w ← pwScalar Hs cli.username cli.password
          (Base64.encode (R.compress (cli.blindingValue⁻¹ • U))) params
        .ok ⟨cli.ssid, prs R w X⟩
      else .err .usernameOrPasswordTooLong := by
  simp only [Client.generateCpaceStrong, hashPassword_eq, ← pw_eq,
    bind_assoc', mul_one, prs, encodeSalt_compress, Res.bind_ok]
  split
  · rfl
  · split
    · rename_i h; rw [if_neg (by omega)]; rfl
    · rename_i h; rw [if_pos (by omega)]

/-- Strong client on a blinded salt that is not the neutral element. -/
theorem clientCpaceStrong_eq (buf : Run.Buf) (cli : Client.StrongAugLayer) (X U : G)
    (params : Params) (hU : cli.blindingValue⁻¹ • U ≠ 0) :
    Run.clientCpaceStrong R Hs buf cli X U params =
      if X = 0 then .err .illegalPointError
      else if buf.fits cli.username cli.password then do
        let w ← pwScalar Hs cli.username cli.password
          (Base64.encode (R.compress (cli.blindingValue⁻¹ • U))) params
        .ok ⟨cli.ssid, prs R w X⟩
      else .err .usernameOrPasswordTooLong := by
  cases buf with
  | alloc =>
    simp only [Run.clientCpaceStrong, clientCpaceStrong_alloc_eq, hU, or_false]
    split
    · rfl
    · rw [if_pos (show Run.Buf.alloc.fits _ _ from trivial)]
  | fixed n => simp only [Run.clientCpaceStrong, clientCpaceStrong_fixed_eq, Run.Buf.fits]

/-- Server half of the augmentation layer for a registered user with a matching key pair. -/
theorem server_info_eq (db : Database G) (kdb : Option (PartialAugDatabase G))
    (srv : Server.AugLayer) (user : Bytes) (sr : σs) (W : G) (salt ps : Bytes)
    (hdb : db.lookupVerifier user = some (W, salt, ps))
    (hk : ∀ k, kdb = some k → ∃ x, k.lookupLongTermKeypair user = some (x, x • R.base)) :
    Run.serverInfo R D rngS db kdb srv user sr =
      .ok (⟨srv.ssid, R.compress ((Run.serverX rngS kdb user sr).1 • W), (Run.serverX rngS kdb user sr).2⟩,
        .augmentationInfo groupName ((Run.serverX rngS kdb user sr).1 • R.base) salt ps) := by
  cases kdb with
  | none =>
    simp only [Run.serverInfo, Server.generateClientInfo, generateServerKeypair_eq, Server.generatePrs, hdb,
      Res.bind_ok, Run.serverX, one_smul, draw]
  | some k =>
    obtain ⟨x, hx⟩ := hk k rfl
    simp only [Run.serverInfo, Server.generateClientInfoPartialAug, hx, Server.generatePrs, hdb,
      Res.bind_ok, Run.serverX, one_smul, Option.map_some, Option.getD_some]

theorem server_info_strong_eq (db : StrongDatabase G) (kdb : Option (PartialAugDatabase G))
    (srv : Server.AugLayer) (user : Bytes) (U : G) (sr : σs) (W : G) (q : Scalar) (ps : Bytes)
    (hdb : db.lookupVerifierStrong user = some (W, q, ps))
    (hk : ∀ k, kdb = some k → ∃ x, k.lookupLongTermKeypair user = some (x, x • R.base)) :
    Run.serverInfoStrong R D rngS db kdb srv user U sr =
      if q • U = 0 then .err .illegalPointError
      else .ok (⟨srv.ssid, R.compress ((Run.serverX rngS kdb user sr).1 • W),
          (Run.serverX rngS kdb user sr).2⟩,
        .strongAugmentationInfo groupName ((Run.serverX rngS kdb user sr).1 • R.base) (q • U) ps) := by
  cases kdb with
  | none =>
    simp only [Run.serverInfoStrong, Server.generateClientInfoStrong, generateServerKeypair_eq, Server.generatePrsStrong,
      hdb, Run.serverX, mul_one, draw]
    split <;> rfl
  | some k =>
    obtain ⟨x, hx⟩ := hk k rfl
    simp only [Run.serverInfoStrong, Server.generateClientInfoPartialStrong, hx, Server.generatePrsStrong, hdb,
      Run.serverX, mul_one, Option.map_some, Option.getD_some]
    split <;> rfl

end
end Verif.Aucpace
