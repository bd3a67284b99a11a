import Verif.Aucpace.PropsAgree

/-!
# Properties of AuCPace: refusal, authentication and binding (C35-C41, C53)

Statements about hashes are unconditional: either the conclusion holds or two explicitly given
different inputs have the same hash (`Digest.Collision`) or are mapped to the same point
(`Spec.MapCollision`).
-/

set_option linter.unusedSectionVars false

namespace Verif.Aucpace
open Spec Run

section
variable {G : Type} [AddCommGroup G] [Module Scalar G] [DecidableEq G] (R : Ristretto G) (D : Digest)
  {Params : Type} (Hs : PwHasher Params) {σc σs σr : Type} (rngC : Rng σc) (rngS : Rng σs)
  (rngR : Rng σr)

/-! ## C35: neutral points -/

/-- **C35 (CPace public keys).** All four calls that take the peer's public key refuse the neutral element,
and nothing else. -/
theorem C35_public_keys (h64 : D.outLen = 64) (Y : G) :
    (∀ st : Client.RecvServerKey,
      (Client.receiveServerPubkey R D st Y = .err .illegalPointError ↔ Y = 0) ∧
      ((Client.receiveServerPubkey R D st Y).isOk = true ↔ Y ≠ 0) ∧
      (Client.implicitAuth R D st Y = .err .illegalPointError ↔ Y = 0) ∧
      ((Client.implicitAuth R D st Y).isOk = true ↔ Y ≠ 0)) ∧
    (∀ st : Server.RecvClientKey,
      (Server.receiveClientPubkey R D st Y = .err .illegalPointError ↔ Y = 0) ∧
      ((Server.receiveClientPubkey R D st Y).isOk = true ↔ Y ≠ 0) ∧
      (Server.implicitAuth R D st Y = .err .illegalPointError ↔ Y = 0) ∧
      ((Server.implicitAuth R D st Y).isOk = true ↔ Y ≠ 0)) := by
  simp only [receiveServerPubkey_eq R D h64, receiveClientPubkey_eq, client_implicitAuth_eq,
    server_implicitAuth_eq]
  by_cases hY : Y = 0 <;> simp [hY, Res.isOk]

/-- **C35 (server's X).** All four client calls that take the server's `X` refuse the neutral element,
whatever the other arguments are. -/
theorem C35_server_x (n : Nat) (salt : Bytes) (params : Params) (U : G) (cli : Client.AugLayer)
    (scli : Client.StrongAugLayer) :
    Client.generateCpace R Hs n cli 0 salt params = .err .illegalPointError ∧
    Client.generateCpaceAlloc R Hs cli 0 salt params = .err .illegalPointError ∧
    Client.generateCpaceStrong R Hs n scli 0 U params = .err .illegalPointError ∧
    Client.generateCpaceStrongAlloc R Hs scli 0 U params = .err .illegalPointError := by
  simp [Client.generateCpace, Client.generateCpaceAlloc, Client.generateCpaceStrong,
    Client.generateCpaceStrongAlloc]

/-- **C35 (server's X, converse).** With another point and credentials that can be hashed, the calls
succeed: the neutral element is the only point refused. -/
theorem C35_server_x_only (n : Nat) (salt : Bytes) (params : Params) (cli : Client.AugLayer)
    (X : G) (hX : X ≠ 0) (w : Scalar)
    (hw : pwScalar Hs cli.username cli.password salt params = .ok w)
    (hn : cli.username.length + cli.password.length + 1 ≤ n) :
    Client.generateCpace R Hs n cli X salt params = .ok ⟨cli.ssid, R.compress (w • X)⟩ ∧
    Client.generateCpaceAlloc R Hs cli X salt params = .ok ⟨cli.ssid, R.compress (w • X)⟩ := by
  have h1 := clientCpace_eq R Hs (.fixed n) cli X salt params
  have h2 := clientCpace_eq R Hs .alloc cli X salt params
  rw [if_neg hX, if_pos (show (Buf.fixed n).fits _ _ from hn), hw] at h1
  rw [if_neg hX, if_pos (show Buf.alloc.fits _ _ from trivial), hw] at h2
  exact ⟨h1, h2⟩

/-- **C35 (client's blinded point).** The server refuses a neutral blinded point in both strong variants,
for registered and unregistered users alike. -/
theorem C35_blinded (srv : Server.AugLayer) (user : Bytes) (db : StrongDatabase G)
    (kdb : PartialAugDatabase G) (s : σs) :
    Server.generateClientInfoStrong R D rngS srv user 0 db s = .err .illegalPointError ∧
    Server.generateClientInfoPartialStrong R D rngS srv user 0 db kdb s =
      .err .illegalPointError := by
  have hf : ∀ X s, Server.lookupFailedStrong D rngS srv user (0 : G) X s =
      .err .illegalPointError := by
    intro X s; simp [Server.lookupFailedStrong]
  have hg : ∀ x X s, Server.generatePrsStrong R D rngS srv user (0 : G) db s x X =
      .err .illegalPointError := by
    intro x X s
    unfold Server.generatePrsStrong
    split
    · simp
    · exact hf _ _
  constructor
  · simp [Server.generateClientInfoStrong, hg]
  · unfold Server.generateClientInfoPartialStrong
    split
    · simp only [hg, Res.bind_err]
    · simp only [hf, Res.bind_err]

/-- **C35 (blinded salt, heap variant).** The strong client refuses a neutral blinded salt, and with a
blinding value from the API (non-zero) the neutral element is the only one refused. -/
theorem C35_blinded_salt_alloc (cli : Client.StrongAugLayer) (X U : G) (params : Params) :
    Client.generateCpaceStrongAlloc R Hs cli X 0 params = .err .illegalPointError ∧
    (cli.blindingValue ≠ 0 → X ≠ 0 → U ≠ 0 →
      Client.generateCpaceStrongAlloc R Hs cli X U params ≠ .err .illegalPointError) := by
  rw [clientCpaceStrong_alloc_eq, clientCpaceStrong_alloc_eq]
  refine ⟨by simp, fun hb hX hU => ?_⟩
  have : cli.blindingValue⁻¹ • U ≠ 0 := by
    rw [Ne, smul_eq_zero]; simp [hb, hU]
  rw [if_neg (not_or.2 ⟨hX, this⟩)]
  unfold pwScalar
  split
  · simp
  · simp
  · split <;> simp

/-- **C35 is false for the fixed-buffer strong client.** It accepts the neutral blinded salt: the call
behaves as the plain client on the constant salt `base64(encode(0))`, so the secret exponent of the
registration no longer matters. -/
theorem C35_blinded_salt_fixed_negation (n : Nat) (cli : Client.StrongAugLayer) (X : G)
    (params : Params) :
    Client.generateCpaceStrong R Hs n cli X 0 params =
      Client.generateCpace R Hs n ⟨cli.ssid, cli.username, cli.password⟩ X
        (Base64.encode (R.compress 0)) params := by
  have h := clientCpace_eq R Hs (.fixed n) ⟨cli.ssid, cli.username, cli.password⟩ X
        (Base64.encode (R.compress 0)) params
  simp only [Run.clientCpace, Buf.fits] at h
  rw [clientCpaceStrong_fixed_eq, h, smul_zero]

/-- The accepted case exists: a toy run of the fixed-buffer client on the neutral blinded salt. -/
example : (Client.generateCpaceStrong Ristretto.toy World.hasher 100
      ⟨World.bytes 0 64, World.user, World.pass, 3⟩ 1 0 ()).isOk = true ∧
    (Client.generateCpaceStrongAlloc Ristretto.toy World.hasher
      ⟨World.bytes 0 64, World.user, World.pass, 3⟩ 1 0 ()) = .err .illegalPointError := by
  refine ⟨by decide +kernel, (C35_blinded_salt_alloc _ _ _ _ 0 _).1⟩

/-! ## C36, C37: what acceptance implies -/

/-- From equal tagged hashes over (ssid, sk1) to equal SSID, `sk1`; from there to equal shared points
and generators. -/
theorem binding (n : UInt8) {ssidC ssidS prsC prsS ciC ciS : Bytes}
    (hsC : ssidC.length = 64) (hsS : ssidS.length = 64)
    (hpC : prsC.length = 32) (hpS : prsS.length = 32) {ya yb : Scalar}
    (hya : ya ≠ 0) (hyb : yb ≠ 0)
    (h : Hn D n (ssidS ++ Spec.sk1 R D ssidS (ya • yb • gen R D ssidC prsC ciC)) =
      Hn D n (ssidC ++ Spec.sk1 R D ssidC (yb • ya • gen R D ssidS prsS ciS))) :
    (ssidS = ssidC ∧ prsS = prsC ∧ ciS = ciC) ∨
    D.Collision (inp n (ssidS ++ Spec.sk1 R D ssidS (ya • yb • gen R D ssidC prsC ciC)))
      (inp n (ssidC ++ Spec.sk1 R D ssidC (yb • ya • gen R D ssidS prsS ciS))) ∨
    D.Collision (inp 2 (ssidS ++ R.compress (ya • yb • gen R D ssidC prsC ciC)))
      (inp 2 (ssidC ++ R.compress (yb • ya • gen R D ssidS prsS ciS))) ∨
    MapCollision R D (ssidS ++ prsS ++ ciS) (ssidC ++ prsC ++ ciC) := by
  rcases D.eq_or_collision h with h | h
  · obtain ⟨hss, h⟩ := append_inj_of_length (hsS.trans hsC.symm) (inp_inj.1 h).2
    rcases D.eq_or_collision h with h | h
    · obtain ⟨-, h⟩ := append_inj_of_length (hsS.trans hsC.symm) (inp_inj.1 h).2
      rw [R.compress_inj, smul_comm] at h
      have hg := smul_left_cancel_ne hya (smul_left_cancel_ne hyb h)
      by_cases hin : ssidS ++ prsS ++ ciS = ssidC ++ prsC ++ ciC
      · obtain ⟨h1, h2⟩ := append_inj_of_length (by simp [hsS, hsC, hpS, hpC]) hin
        obtain ⟨-, h3⟩ := append_inj_of_length (hsS.trans hsC.symm) h1
        exact Or.inl ⟨hss, h3, h2⟩
      · exact Or.inr (Or.inr (Or.inr ⟨hin, hg.symm⟩))
    · exact Or.inr (Or.inr (Or.inl h))
  · exact Or.inr (Or.inl h)

/-- **C36.** A client run and a server run, each with its own SSID, password-related string and channel
identifier, exchange public keys; the server then accepts the client's authenticator. Then SSID,
password-related string and channel identifier agree, and the client, given the server's reply, gets the
same key — unless one of three explicitly given pairs collides. SSIDs of 64 bytes and strings of 32
bytes are what the API produces. -/
theorem C36_server_accepts (h64 : D.outLen = 64)
    (cli : Client.CPaceSubstep) (srv : Server.CPaceSubstep σs) (ciC ciS : Bytes) (c : σc)
    (hsC : cli.ssid.length = 64) (hsS : srv.ssid.length = 64)
    (hpC : cli.prs.length = 32) (hpS : srv.prs.length = 32)
    {cli1 : Client.RecvServerKey} {srv1 : Server.RecvClientKey} {Ya Yb : G} {c1 : σc}
    (hC1 : Client.generatePublicKey R D rngC cli ciC c = ((cli1, .publicKey Yb), c1))
    (hS1 : Server.generatePublicKey R D rngS srv ciS = (srv1, .publicKey Ya))
    {cli2 : Client.ExpMutAuth} {srv2 : Server.ExpMutAuth} {t : Bytes}
    (hC2 : Client.receiveServerPubkey R D cli1 Ya = .ok (cli2, .authenticator t))
    (hS2 : Server.receiveClientPubkey R D srv1 Yb = .ok srv2)
    {k : Bytes} {m : ServerMessage G}
    (hS3 : Server.receiveClientAuthenticator D srv2 t = .ok (k, m)) :
    ((srv.ssid = cli.ssid ∧ srv.prs = cli.prs ∧ ciS = ciC) ∧
      ∃ t', m = .authenticator t' ∧ Client.receiveServerAuthenticator D cli2 t' = .ok k) ∨
    D.Collision (inp 4 (srv.ssid ++ srv2.sk1)) (inp 4 (cli.ssid ++ cli2.sk1)) ∨
    D.Collision (inp 2 (srv.ssid ++ R.compress (srv1.privKey • Yb)))
      (inp 2 (cli.ssid ++ R.compress (cli1.privKey • Ya))) ∨
    MapCollision R D (srv.ssid ++ srv.prs ++ ciS) (cli.ssid ++ cli.prs ++ ciC) := by
  rw [client_generatePublicKey_eq] at hC1
  rw [server_generatePublicKey_eq] at hS1
  simp only [Prod.mk.injEq, ClientMessage.publicKey.injEq, ServerMessage.publicKey.injEq] at hC1 hS1
  obtain ⟨⟨rfl, rfl⟩, -⟩ := hC1
  obtain ⟨rfl, rfl⟩ := hS1
  rw [receiveServerPubkey_eq R D h64] at hC2
  rw [receiveClientPubkey_eq] at hS2
  split at hC2
  · simp at hC2
  rename_i hYa
  split at hS2
  · simp at hS2
  rename_i hYb
  simp only [Res.ok.injEq, Prod.mk.injEq, ClientMessage.authenticator.injEq] at hC2 hS2
  obtain ⟨rfl, rfl⟩ := hC2
  subst hS2
  rw [receiveClientAuthenticator_eq D h64] at hS3
  split at hS3
  · rename_i ht
    simp only [Res.ok.injEq, Prod.mk.injEq] at hS3
    obtain ⟨rfl, rfl⟩ := hS3
    have hya := fun h : draw (rngS.fill srv.rng 64).1 = 0 => hYa (by rw [h, zero_smul])
    have hyb := fun h : draw (rngC.fill c 64).1 = 0 => hYb (by rw [h, zero_smul])
    rcases binding R D 4 hsC hsS hpC hpS hya hyb ht with h | h
    · refine Or.inl ⟨h, _, rfl, ?_⟩
      obtain ⟨h1, h2, h3⟩ := h
      rw [receiveServerAuthenticator_eq]
      simp only [h1, h2, h3, smul_smul, mul_comm (draw (rngC.fill c 64).1), if_true]
    · exact Or.inr h
  · simp at hS3

/-- **C37.** The roles exchanged: the client accepts the authenticator that the server issues after
accepting. -/
theorem C37_client_accepts (h64 : D.outLen = 64)
    (cli : Client.CPaceSubstep) (srv : Server.CPaceSubstep σs) (ciC ciS : Bytes) (c : σc)
    (hsC : cli.ssid.length = 64) (hsS : srv.ssid.length = 64)
    (hpC : cli.prs.length = 32) (hpS : srv.prs.length = 32)
    {cli1 : Client.RecvServerKey} {srv1 : Server.RecvClientKey} {Ya Yb : G} {c1 : σc}
    (hC1 : Client.generatePublicKey R D rngC cli ciC c = ((cli1, .publicKey Yb), c1))
    (hS1 : Server.generatePublicKey R D rngS srv ciS = (srv1, .publicKey Ya))
    {cli2 : Client.ExpMutAuth} {srv2 : Server.ExpMutAuth} {m : ClientMessage G}
    (hC2 : Client.receiveServerPubkey R D cli1 Ya = .ok (cli2, m))
    (hS2 : Server.receiveClientPubkey R D srv1 Yb = .ok srv2)
    {t t' kS : Bytes}
    (hS3 : Server.receiveClientAuthenticator (G := G) D srv2 t = .ok (kS, .authenticator t'))
    {k : Bytes} (hC3 : Client.receiveServerAuthenticator D cli2 t' = .ok k) :
    ((srv.ssid = cli.ssid ∧ srv.prs = cli.prs ∧ ciS = ciC) ∧ k = kS) ∨
    D.Collision (inp 3 (srv.ssid ++ srv2.sk1)) (inp 3 (cli.ssid ++ cli2.sk1)) ∨
    D.Collision (inp 2 (srv.ssid ++ R.compress (srv1.privKey • Yb)))
      (inp 2 (cli.ssid ++ R.compress (cli1.privKey • Ya))) ∨
    MapCollision R D (srv.ssid ++ srv.prs ++ ciS) (cli.ssid ++ cli.prs ++ ciC) := by
  rw [client_generatePublicKey_eq] at hC1
  rw [server_generatePublicKey_eq] at hS1
  simp only [Prod.mk.injEq, ClientMessage.publicKey.injEq, ServerMessage.publicKey.injEq] at hC1 hS1
  obtain ⟨⟨rfl, rfl⟩, -⟩ := hC1
  obtain ⟨rfl, rfl⟩ := hS1
  rw [receiveServerPubkey_eq R D h64] at hC2
  rw [receiveClientPubkey_eq] at hS2
  split at hC2
  · simp at hC2
  rename_i hYa
  split at hS2
  · simp at hS2
  rename_i hYb
  simp only [Res.ok.injEq, Prod.mk.injEq] at hC2 hS2
  obtain ⟨rfl, rfl⟩ := hC2
  subst hS2
  rw [receiveClientAuthenticator_eq D h64] at hS3
  split at hS3
  · simp only [Res.ok.injEq, Prod.mk.injEq, ServerMessage.authenticator.injEq] at hS3
    obtain ⟨rfl, rfl⟩ := hS3
    rw [receiveServerAuthenticator_eq] at hC3
    split at hC3
    · rename_i ht
      have hya := fun h : draw (rngS.fill srv.rng 64).1 = 0 => hYa (by rw [h, zero_smul])
      have hyb := fun h : draw (rngC.fill c 64).1 = 0 => hYb (by rw [h, zero_smul])
      simp only [Res.ok.injEq] at hC3
      subst hC3
      rcases binding R D 3 hsC hsS hpC hpS hya hyb ht.symm with h | h
      · refine Or.inl ⟨h, ?_⟩
        obtain ⟨h1, h2, h3⟩ := h
        simp only [h1, h2, h3, smul_smul, mul_comm (draw (rngC.fill c 64).1)]
      · exact Or.inr h
    · simp at hC3
  · simp at hS3

/-- **C36 without assumptions on the channel.** The server accepts exactly the authenticator of some client
state, however the public keys were transported: both have the same SSID and first session key, hence
the same session key. -/
theorem C36_any_channel (h64 : D.outLen = 64) (srv : Server.ExpMutAuth) (st : Client.RecvServerKey)
    (Y : G) {cli : Client.ExpMutAuth} {t : Bytes}
    (hC : Client.receiveServerPubkey R D st Y = .ok (cli, .authenticator t))
    (hs : srv.ssid.length = 64) (hc : st.ssid.length = 64)
    {k : Bytes} {m : ServerMessage G}
    (hS : Server.receiveClientAuthenticator D srv t = .ok (k, m)) :
    (srv.ssid = cli.ssid ∧ srv.sk1 = cli.sk1 ∧ Client.implicitAuth R D st Y = .ok k) ∨
    D.Collision (inp 4 (srv.ssid ++ srv.sk1)) (inp 4 (cli.ssid ++ cli.sk1)) := by
  rw [receiveServerPubkey_eq R D h64] at hC
  split at hC
  · simp at hC
  rename_i hY
  simp only [Res.ok.injEq, Prod.mk.injEq, ClientMessage.authenticator.injEq] at hC
  obtain ⟨rfl, rfl⟩ := hC
  rw [receiveClientAuthenticator_eq D h64] at hS
  split at hS
  · rename_i ht
    simp only [Res.ok.injEq, Prod.mk.injEq] at hS
    obtain ⟨rfl, rfl⟩ := hS
    rcases D.eq_or_collision ht with h | h
    · obtain ⟨h1, h2⟩ := append_inj_of_length (hs.trans hc.symm) (inp_inj.1 h).2
      refine Or.inl ⟨h1, h2, ?_⟩
      rw [client_implicitAuth_eq, if_neg hY, h1, h2]
    · exact Or.inr h
  · simp at hS

/-- **C37 without assumptions on the channel.** -/
theorem C37_any_channel (h64 : D.outLen = 64) (srv : Server.ExpMutAuth) (st : Client.RecvServerKey)
    (Y : G) {cli : Client.ExpMutAuth} {mC : ClientMessage G}
    (hC : Client.receiveServerPubkey R D st Y = .ok (cli, mC))
    (hs : srv.ssid.length = 64) (hc : st.ssid.length = 64)
    {t t' k kS : Bytes}
    (hS : Server.receiveClientAuthenticator (G := G) D srv t = .ok (kS, .authenticator t'))
    (hA : Client.receiveServerAuthenticator D cli t' = .ok k) :
    (srv.ssid = cli.ssid ∧ srv.sk1 = cli.sk1 ∧ k = kS) ∨
    D.Collision (inp 3 (srv.ssid ++ srv.sk1)) (inp 3 (cli.ssid ++ cli.sk1)) := by
  rw [receiveServerPubkey_eq R D h64] at hC
  split at hC
  · simp at hC
  simp only [Res.ok.injEq, Prod.mk.injEq] at hC
  obtain ⟨rfl, -⟩ := hC
  rw [receiveClientAuthenticator_eq D h64] at hS
  split at hS
  · simp only [Res.ok.injEq, Prod.mk.injEq, ServerMessage.authenticator.injEq] at hS
    obtain ⟨rfl, rfl⟩ := hS
    rw [receiveServerAuthenticator_eq] at hA
    split at hA
    · rename_i ht
      simp only [Res.ok.injEq] at hA
      subst hA
      rcases D.eq_or_collision ht.symm with h | h
      · obtain ⟨h1, h2⟩ := append_inj_of_length (hs.trans hc.symm) (inp_inj.1 h).2
        exact Or.inl ⟨h1, h2, by rw [h1, h2]⟩
      · exact Or.inr h
    · simp at hA
  · simp at hS

/-- The whole chain of hypotheses of C36 and C37 is met in a concrete case: the explicit run
(which is exactly this sequence of calls) succeeds for equal parameters and fails for unequal ones. -/
example : (Run.explicit Ristretto.toy sha512 Rng.replay Rng.replay ⟨World.bytes 1 64, World.bytes 2 32⟩
    ⟨World.bytes 1 64, World.bytes 2 32, World.bytes 3 64⟩ [] [] (World.bytes 4 64)).isOk = true ∧
  Run.explicit Ristretto.toy sha512 Rng.replay Rng.replay ⟨World.bytes 1 64, World.bytes 2 32⟩
    ⟨World.bytes 1 64, World.bytes 2 32, World.bytes 3 64⟩ [] [0] (World.bytes 4 64) =
      .err .mutualAuthFail ∧
  Run.explicit Ristretto.toy sha512 Rng.replay Rng.replay ⟨World.bytes 1 64, World.bytes 2 32⟩
    ⟨World.bytes 1 64, World.bytes 7 32, World.bytes 3 64⟩ [] [] (World.bytes 4 64) =
      .err .mutualAuthFail := by
  decide +kernel

/-- Acceptance of an explicit run, both parties arbitrary. -/
theorem explicit_binding (h64 : D.outLen = 64) (cli : Client.CPaceSubstep)
    (srv : Server.CPaceSubstep σs) (ciC ciS : Bytes) (c : σc)
    (hsC : cli.ssid.length = 64) (hsS : srv.ssid.length = 64)
    (hpC : cli.prs.length = 32) (hpS : srv.prs.length = 32) {kc ks : Bytes}
    (h : Run.explicit R D rngC rngS cli srv ciC ciS c = .ok (kc, ks)) :
    let yb := draw (rngC.fill c 64).1
    let ya := draw (rngS.fill srv.rng 64).1
    let KS := ya • yb • gen R D cli.ssid cli.prs ciC
    let KC := yb • ya • gen R D srv.ssid srv.prs ciS
    (srv.ssid = cli.ssid ∧ srv.prs = cli.prs ∧ ciS = ciC) ∨
    D.Collision (inp 4 (srv.ssid ++ Spec.sk1 R D srv.ssid KS))
      (inp 4 (cli.ssid ++ Spec.sk1 R D cli.ssid KC)) ∨
    D.Collision (inp 2 (srv.ssid ++ R.compress KS)) (inp 2 (cli.ssid ++ R.compress KC)) ∨
    MapCollision R D (srv.ssid ++ srv.prs ++ ciS) (cli.ssid ++ cli.prs ++ ciC) := by
  rw [explicit_eq R D rngC rngS h64] at h
  simp only at h
  split at h
  · simp at h
  rename_i hn
  obtain ⟨hYa, hYb⟩ := not_or.1 hn
  split at h
  · rename_i ht
    have hya := fun h : draw (rngS.fill srv.rng 64).1 = 0 => hYa (by rw [h, zero_smul])
    have hyb := fun h : draw (rngC.fill c 64).1 = 0 => hYb (by rw [h, zero_smul])
    exact binding R D 4 hsC hsS hpC hpS hya hyb ht.1
  · simp at h

theorem ssidOf_length (h64 : D.outLen = 64) (start : Start) (c : σc) (sv : Server.State σs) :
    (ssidOf D rngC rngS start c sv).length = 64 := by
  cases start <;> simp [ssidOf, h64]

/-- Named collisions of an exchange with shared SSID and channel identifier and the two
password-related strings `pS` (server) and `pC` (client), given the two scalars. -/
def ExchangeCollision (ssid pS pC ci : Bytes) (ya yb : Scalar) : Prop :=
  D.Collision (inp 4 (ssid ++ Spec.sk1 R D ssid (ya • yb • gen R D ssid pC ci)))
    (inp 4 (ssid ++ Spec.sk1 R D ssid (yb • ya • gen R D ssid pS ci))) ∨
  D.Collision (inp 2 (ssid ++ R.compress (ya • yb • gen R D ssid pC ci)))
    (inp 2 (ssid ++ R.compress (yb • ya • gen R D ssid pS ci))) ∨
  MapCollision R D (ssid ++ pS ++ ci) (ssid ++ pC ++ ci)

/-- The named collisions are collisions of different values only if the strings differ. -/
theorem ExchangeCollision.ne {ssid pS pC ci : Bytes} {ya yb : Scalar}
    (h : ExchangeCollision R D ssid pS pC ci ya yb) : pS ≠ pC := by
  rintro rfl
  rcases h with h | h | h
  · exact h.1 (by rw [smul_comm])
  · exact h.1 (by rw [smul_comm])
  · exact h.1 rfl

/-! ## C38: wrong password -/

/-- **C38 (credentials).** The server holds the data registered with `pass` and `params`, the client logs in with `pass'` and
whatever parameters it makes of the string the server sends (plain or partially augmented protocol): a successful
explicit run means that both hash to the same scalar under the registered salt, or an explicitly named collision. -/
theorem C38_credentials (h64 : D.outLen = 64)
    (bufR buf : Buf) (s s' : σr) (user pass pass' salt ps : Bytes) (params : Params) (W : G)
    (hreg : Run.register R Hs rngR bufR s user pass params =
      .ok (.registration user salt ps W, s'))
    (db : Database G) (hdb : db.lookupVerifier user = some (W, salt, ps))
    (kdb : Option (PartialAugDatabase G))
    (hk : ∀ k, kdb = some k → ∃ x, k.lookupLongTermKeypair user = some (x, x • R.base))
    (fromPs : Bytes → Params) (hbuf : buf.fits user pass')
    (start : Start) (hstart : startOk start) (ci : Bytes)
    (c c' : σc) (sv : Server.State σs) (sr : σs) {kc ks : Bytes}
    (hrun : Run.login R D Hs rngC rngS (Run.explicit R D rngC rngS) fromPs buf db kdb start user
      pass' ci c sv sr c' = .ok (kc, ks)) :
    ∃ w w' : Scalar,
      pwScalar Hs user pass salt params = .ok w ∧ pwScalar Hs user pass' salt (fromPs ps) = .ok w' ∧
      (w = w' ∨
        let x := (serverX rngS kdb user sr).1
        ExchangeCollision R D (ssidOf D rngC rngS start c sv)
          (R.compress ((w * x) • R.base)) (R.compress ((w' * x) • R.base)) ci
          (draw (rngS.fill (serverX rngS kdb user sr).2 64).1) (draw (rngC.fill c' 64).1)) := by
  rw [register_eq] at hreg
  split at hreg
  · obtain ⟨w, hw, hreg⟩ := Res.bind_eq_ok.1 hreg
    obtain ⟨ps', _, hreg⟩ := Res.bind_eq_ok.1 hreg
    simp only [Res.ok.injEq, Prod.mk.injEq, ClientMessage.registration.injEq] at hreg
    obtain ⟨⟨-, rfl, rfl, rfl⟩, -⟩ := hreg
    simp only [Run.login, ssidStage_ok D rngC rngS start c sv hstart, Res.bind_ok,
      augment_registered R D Hs rngS fromPs buf db kdb _ _ user pass' sr _ _ _ hdb hk hbuf]
      at hrun
    by_cases hx : (serverX rngS kdb user sr).1 = 0
    · simp [hx] at hrun
    · rw [if_neg hx, bind_assoc'] at hrun
      obtain ⟨w', hw', hrun⟩ := Res.bind_eq_ok.1 hrun
      refine ⟨w, w', hw, hw', ?_⟩
      simp only [Res.bind_ok, smul_smul, mul_comm _ w] at hrun
      have hl := ssidOf_length D rngC rngS h64 start c sv
      rcases explicit_binding R D rngC rngS h64 _ _ ci ci c' hl hl (R.compress_length _)
        (R.compress_length _) hrun with h | h
      · refine Or.inl ?_
        have := h.2.1
        simp only [R.compress_inj, smul_base_inj] at this
        exact mul_right_cancel₀ hx this
      · exact Or.inr h
  · simp at hreg

/-- **C38.** The server holds the data registered with `pass`, the client logs in with `pass'` (plain or
partially augmented protocol): a successful explicit run means that both passwords hash to the same
scalar under the registered salt, or an explicitly named collision. -/
theorem C38_wrong_password (h64 : D.outLen = 64)
    (bufR buf : Buf) (s s' : σr) (user pass pass' salt ps : Bytes) (params : Params) (W : G)
    (hreg : Run.register R Hs rngR bufR s user pass params =
      .ok (.registration user salt ps W, s'))
    (db : Database G) (hdb : db.lookupVerifier user = some (W, salt, ps))
    (kdb : Option (PartialAugDatabase G))
    (hk : ∀ k, kdb = some k → ∃ x, k.lookupLongTermKeypair user = some (x, x • R.base))
    (fromPs : Bytes → Params) (hps : fromPs ps = params) (hbuf : buf.fits user pass')
    (start : Start) (hstart : startOk start) (ci : Bytes)
    (c c' : σc) (sv : Server.State σs) (sr : σs) {kc ks : Bytes}
    (hrun : Run.login R D Hs rngC rngS (Run.explicit R D rngC rngS) fromPs buf db kdb start user
      pass' ci c sv sr c' = .ok (kc, ks)) :
    ∃ w w' : Scalar,
      pwScalar Hs user pass salt params = .ok w ∧ pwScalar Hs user pass' salt params = .ok w' ∧
      (w = w' ∨
        let x := (serverX rngS kdb user sr).1
        ExchangeCollision R D (ssidOf D rngC rngS start c sv)
          (R.compress ((w * x) • R.base)) (R.compress ((w' * x) • R.base)) ci
          (draw (rngS.fill (serverX rngS kdb user sr).2 64).1) (draw (rngC.fill c' 64).1)) := by
  have h := C38_credentials R D Hs rngC rngS rngR h64 bufR buf s s' user pass pass' salt ps params W hreg db hdb kdb hk fromPs hbuf start hstart ci c c' sv sr hrun
  rwa [hps] at h

/-- **C38 (credentials, strong variants).** -/
theorem C38_credentials_strong (h64 : D.outLen = 64)
    (bufR buf : Buf) (s s' : σr) (user pass pass' ps : Bytes) (params : Params) (W : G) (q : Scalar)
    (hreg : Run.registerStrong R D Hs rngR bufR s user pass params =
      .ok (.strongRegistration user q ps W, s'))
    (db : StrongDatabase G) (hdb : db.lookupVerifierStrong user = some (W, q, ps))
    (kdb : Option (PartialAugDatabase G))
    (hk : ∀ k, kdb = some k → ∃ x, k.lookupLongTermKeypair user = some (x, x • R.base))
    (fromPs : Bytes → Params) (hbuf : buf.fits user pass')
    (start : Start) (hstart : startOk start) (ci : Bytes) (r : Scalar) (hr : r ≠ 0)
    (c c' : σc) (sv : Server.State σs) (sr : σs) {kc ks : Bytes}
    (hrun : Run.loginStrong R D Hs rngC rngS (Run.explicit R D rngC rngS) fromPs buf db kdb start
      user pass' ci r c sv sr c' = .ok (kc, ks)) :
    ∃ w w' : Scalar,
      pwScalar Hs user pass (Base64.encode (R.compress (q • strongPoint R D user pass))) params =
        .ok w ∧
      pwScalar Hs user pass' (Base64.encode (R.compress (q • strongPoint R D user pass'))) (fromPs ps) =
        .ok w' ∧
      (w = w' ∨
        let x := (serverX rngS kdb user sr).1
        ExchangeCollision R D (ssidOf D rngC rngS start c sv)
          (R.compress ((w * x) • R.base)) (R.compress ((w' * x) • R.base)) ci
          (draw (rngS.fill (serverX rngS kdb user sr).2 64).1) (draw (rngC.fill c' 64).1)) := by
  rw [registerStrong_eq] at hreg
  split at hreg
  · obtain ⟨w, hw, hreg⟩ := Res.bind_eq_ok.1 hreg
    obtain ⟨ps', _, hreg⟩ := Res.bind_eq_ok.1 hreg
    simp only [Res.ok.injEq, Prod.mk.injEq, ClientMessage.strongRegistration.injEq] at hreg
    obtain ⟨⟨-, rfl, rfl, rfl⟩, -⟩ := hreg
    simp only [Run.loginStrong, ssidStage_ok D rngC rngS start c sv hstart, Res.bind_ok,
      augmentStrong_registered R D Hs rngS fromPs buf db kdb _ _ user pass' r hr sr _ _ _ hdb hk
        hbuf] at hrun
    by_cases hx : draw (rngR.fill s 64).1 • strongPoint R D user pass' = 0 ∨
        (serverX rngS kdb user sr).1 = 0
    · rw [if_pos hx] at hrun
      simp at hrun
    · rw [if_neg hx, bind_assoc'] at hrun
      obtain ⟨w', hw', hrun⟩ := Res.bind_eq_ok.1 hrun
      refine ⟨w, w', hw, hw', ?_⟩
      simp only [Res.bind_ok, smul_smul, mul_comm _ w] at hrun
      have hl := ssidOf_length D rngC rngS h64 start c sv
      rcases explicit_binding R D rngC rngS h64 _ _ ci ci c' hl hl (R.compress_length _)
        (R.compress_length _) hrun with h | h
      · refine Or.inl ?_
        have := h.2.1
        simp only [R.compress_inj, smul_base_inj] at this
        exact mul_right_cancel₀ (not_or.1 hx).2 this
      · exact Or.inr h
  · simp at hreg

/-- **C38 (strong variants).** The client with `pass'` recovers the salt that belongs to `pass'` under the
registered exponent; success means equal scalars or a named collision. -/
theorem C38_wrong_password_strong (h64 : D.outLen = 64)
    (bufR buf : Buf) (s s' : σr) (user pass pass' ps : Bytes) (params : Params) (W : G) (q : Scalar)
    (hreg : Run.registerStrong R D Hs rngR bufR s user pass params =
      .ok (.strongRegistration user q ps W, s'))
    (db : StrongDatabase G) (hdb : db.lookupVerifierStrong user = some (W, q, ps))
    (kdb : Option (PartialAugDatabase G))
    (hk : ∀ k, kdb = some k → ∃ x, k.lookupLongTermKeypair user = some (x, x • R.base))
    (fromPs : Bytes → Params) (hps : fromPs ps = params) (hbuf : buf.fits user pass')
    (start : Start) (hstart : startOk start) (ci : Bytes) (r : Scalar) (hr : r ≠ 0)
    (c c' : σc) (sv : Server.State σs) (sr : σs) {kc ks : Bytes}
    (hrun : Run.loginStrong R D Hs rngC rngS (Run.explicit R D rngC rngS) fromPs buf db kdb start
      user pass' ci r c sv sr c' = .ok (kc, ks)) :
    ∃ w w' : Scalar,
      pwScalar Hs user pass (Base64.encode (R.compress (q • strongPoint R D user pass))) params =
        .ok w ∧
      pwScalar Hs user pass' (Base64.encode (R.compress (q • strongPoint R D user pass'))) params =
        .ok w' ∧
      (w = w' ∨
        let x := (serverX rngS kdb user sr).1
        ExchangeCollision R D (ssidOf D rngC rngS start c sv)
          (R.compress ((w * x) • R.base)) (R.compress ((w' * x) • R.base)) ci
          (draw (rngS.fill (serverX rngS kdb user sr).2 64).1) (draw (rngC.fill c' 64).1)) := by
  have h := C38_credentials_strong R D Hs rngC rngS rngR h64 bufR buf s s' user pass pass' ps params W q hreg db hdb kdb hk fromPs hbuf start hstart ci r hr c c' sv sr hrun
  rwa [hps] at h

/-- A run with a wrong password fails in the concrete world and one with the right password succeeds
(so the hypothesis can be met), see also the examples after C32 and C33. -/
example : World.login none (.nonces 16) (ascii "secreT") = .err .mutualAuthFail ∧
    (World.login none (.nonces 16) World.pass).isOk = true := by decide +kernel

/-! ## C39: separation of roles -/

/-- **C39 (roles).** Inputs of different hash roles `H0`-`H5` are never equal, as the model builds them. -/
theorem C39_roles {m n : Nat} (hm : m < 6) (hn : n < 6) (x y : Bytes)
    (h : Digest.update (H m) x = Digest.update (H n) y) : m = n ∧ x = y := by
  have hl : ∀ k : Fin 6, (H k.1).length = 4 := by decide
  have hi : ∀ a b : Fin 6, H a.1 = H b.1 → a = b := by decide
  obtain ⟨h1, h2⟩ := append_inj_of_length ((hl ⟨m, hm⟩).trans (hl ⟨n, hn⟩).symm) h
  exact ⟨congrArg Fin.val (hi ⟨m, hm⟩ ⟨n, hn⟩ h1), h2⟩

/-- **C39 (values).** Server authenticator, client authenticator and session key of any two sessions differ
pairwise, unless the named inputs collide. -/
theorem C39_values (ssid s1 ssid' s1' : Bytes) :
    (ta D ssid s1 = tb D ssid' s1' → D.Collision (inp 3 (ssid ++ s1)) (inp 4 (ssid' ++ s1'))) ∧
    (ta D ssid s1 = sk D ssid' s1' → D.Collision (inp 3 (ssid ++ s1)) (inp 5 (ssid' ++ s1'))) ∧
    (tb D ssid s1 = sk D ssid' s1' → D.Collision (inp 4 (ssid ++ s1)) (inp 5 (ssid' ++ s1'))) := by
  refine ⟨fun h => ⟨?_, h⟩, fun h => ⟨?_, h⟩, fun h => ⟨?_, h⟩⟩ <;> simp [inp_inj]

/-- **C39 (reflection at the server).** A server that is sent an authenticator issued by any server session
(also its own), or any session key, refuses it, unless the named inputs collide. -/
theorem C39_server_reflection (h64 : D.outLen = 64) (srv srv' : Server.ExpMutAuth) (t k : Bytes)
    (m : ServerMessage G) (u kS t' : Bytes)
    (hissued : Server.receiveClientAuthenticator (G := G) D srv' u = .ok (kS, .authenticator t'))
    (hacc : Server.receiveClientAuthenticator D srv t = .ok (k, m)) :
    (t = t' → D.Collision (inp 3 (srv'.ssid ++ srv'.sk1)) (inp 4 (srv.ssid ++ srv.sk1))) ∧
    (t = kS → D.Collision (inp 4 (srv.ssid ++ srv.sk1)) (inp 5 (srv'.ssid ++ srv'.sk1))) := by
  rw [receiveClientAuthenticator_eq D h64] at hissued hacc
  split at hissued
  · simp only [Res.ok.injEq, Prod.mk.injEq, ServerMessage.authenticator.injEq] at hissued
    split at hacc
    · rename_i h
      refine ⟨fun ht => (C39_values D _ _ _ _).1 ?_, fun ht => (C39_values D _ _ _ _).2.2 ?_⟩
      · rw [hissued.2, h, ht]
      · rw [hissued.1, h, ht]
    · simp at hacc
  · simp at hissued

/-- **C39 (reflection at the client).** A client that is sent an authenticator issued by any client session
(also its own) refuses it, unless the named inputs collide. -/
theorem C39_client_reflection (h64 : D.outLen = 64) (st st' : Client.RecvServerKey) (Y Y' : G)
    (cli cli' : Client.ExpMutAuth) (m : ClientMessage G) (t k : Bytes)
    (hst : Client.receiveServerPubkey R D st Y = .ok (cli, m))
    (hissued : Client.receiveServerPubkey R D st' Y' = .ok (cli', .authenticator t))
    (hacc : Client.receiveServerAuthenticator D cli t = .ok k) :
    D.Collision (inp 3 (cli.ssid ++ cli.sk1)) (inp 4 (cli'.ssid ++ cli'.sk1)) := by
  rw [receiveServerPubkey_eq R D h64] at hst hissued
  split at hst
  · simp at hst
  split at hissued
  · simp at hissued
  simp only [Res.ok.injEq, Prod.mk.injEq, ClientMessage.authenticator.injEq] at hst hissued
  obtain ⟨rfl, rfl⟩ := hst
  obtain ⟨rfl, rfl⟩ := hissued
  rw [receiveServerAuthenticator_eq] at hacc
  split at hacc
  · rename_i h
    exact (C39_values D _ _ _ _).1 h
  · simp at hacc

/-- With SHA-512 a concrete server issues an authenticator and refuses it when it comes back. -/
example :
    (Server.receiveClientAuthenticator (G := Scalar) sha512 ⟨World.bytes 1 64, World.bytes 2 64⟩
      (tb sha512 (World.bytes 1 64) (World.bytes 2 64))).isOk = true ∧
    (Server.receiveClientAuthenticator (G := Scalar) sha512 ⟨World.bytes 1 64, World.bytes 2 64⟩
      (ta sha512 (World.bytes 1 64) (World.bytes 2 64))).isOk = false := by
  decide +kernel

/-! ## C40: exact acceptance -/

/-- **C40 (server).** There is exactly one accepted authenticator, it has 64 bytes, the key handed out with it has
64 bytes; everything else is `MutualAuthFail`. -/
theorem C40_server (h64 : D.outLen = 64) (srv : Server.ExpMutAuth) :
    ∃ good k : Bytes, ∃ reply : ServerMessage G, good.length = 64 ∧ k.length = 64 ∧ ∀ t,
      Server.receiveClientAuthenticator D srv t =
        if t = good then .ok (k, reply) else .err .mutualAuthFail := by
  refine ⟨tb D srv.ssid srv.sk1, sk D srv.ssid srv.sk1, .authenticator (ta D srv.ssid srv.sk1),
    by simp [h64], by simp [h64], fun t => ?_⟩
  rw [receiveClientAuthenticator_eq D h64]
  simp only [eq_comm]

/-- **C40 (client).** -/
theorem C40_client (h64 : D.outLen = 64) (st : Client.RecvServerKey) (Y : G)
    (cli : Client.ExpMutAuth) (m : ClientMessage G)
    (hst : Client.receiveServerPubkey R D st Y = .ok (cli, m)) :
    ∃ good k : Bytes, good.length = 64 ∧ k.length = 64 ∧
      (∃ own, m = .authenticator own ∧ own.length = 64) ∧ ∀ t,
      Client.receiveServerAuthenticator D cli t =
        if t = good then .ok k else .err .mutualAuthFail := by
  rw [receiveServerPubkey_eq R D h64] at hst
  split at hst
  · simp at hst
  simp only [Res.ok.injEq, Prod.mk.injEq] at hst
  obtain ⟨rfl, rfl⟩ := hst
  refine ⟨ta D st.ssid (Spec.sk1 R D st.ssid (st.privKey • Y)),
    sk D st.ssid (Spec.sk1 R D st.ssid (st.privKey • Y)), by simp [h64], by simp [h64],
    ⟨_, rfl, by simp [h64]⟩, fun t => ?_⟩
  rw [receiveServerAuthenticator_eq]
  simp only [eq_comm]

/-- **C40 (the two sides match).** For the same SSID and `sk1` the value accepted by the server is the one
the client sent and vice versa. -/
theorem C40_match (h64 : D.outLen = 64) (st : Client.RecvServerKey) (Y : G)
    (cli : Client.ExpMutAuth) (t : Bytes)
    (hst : Client.receiveServerPubkey R D st Y = .ok (cli, .authenticator t)) :
    ∃ k t', (Server.receiveClientAuthenticator D ⟨cli.ssid, cli.sk1⟩ t :
        Res Error (Bytes × ServerMessage G)) = .ok (k, .authenticator t') ∧
      Client.receiveServerAuthenticator D cli t' = .ok k := by
  rw [receiveServerPubkey_eq R D h64] at hst
  split at hst
  · simp at hst
  simp only [Res.ok.injEq, Prod.mk.injEq, ClientMessage.authenticator.injEq] at hst
  obtain ⟨rfl, rfl⟩ := hst
  refine ⟨sk D st.ssid (Spec.sk1 R D st.ssid (st.privKey • Y)),
    ta D st.ssid (Spec.sk1 R D st.ssid (st.privKey • Y)), ?_, ?_⟩
  · rw [receiveClientAuthenticator_eq D h64, if_pos rfl]
  · rw [receiveServerAuthenticator_eq, if_pos rfl]

example : ∃ cli m, Client.receiveServerPubkey Ristretto.toy sha512 ⟨World.bytes 1 64, 5⟩ 7 =
    .ok (cli, m) := by
  rw [receiveServerPubkey_eq _ _ rfl, if_neg (by decide +kernel)]
  exact ⟨_, _, rfl⟩

/-! ## C41: SSIDs -/

/-- **C41 (nonces).** Both sides compute the same SSID from the same pair of nonces, and sessions with
different pairs have different SSIDs unless the named inputs collide. -/
theorem C41_nonces (k1 : Nat) (s t s' t' : Bytes) (secret secret' : Nat)
    (hs : s.length = k1) (hs' : s'.length = k1) :
    (Client.agreeSsid D ⟨t⟩ s).ssid = (Server.agreeSsid D ⟨secret, s⟩ t).ssid ∧
    ((Client.agreeSsid D ⟨t⟩ s).ssid = (Server.agreeSsid D ⟨secret', s'⟩ t').ssid →
      (s = s' ∧ t = t') ∨ D.Collision (inp 0 (s ++ t)) (inp 0 (s' ++ t'))) := by
  simp only [Client.agreeSsid, Server.agreeSsid, computeSsid_eq, true_and]
  intro h
  rcases D.eq_or_collision h with h | h
  · exact Or.inl (append_inj_of_length (hs.trans hs'.symm) (inp_inj.1 h).2)
  · exact Or.inr h

/-- **C41 (order).** Exchanging the two nonces gives another SSID unless they are equal or the named inputs
collide: the roles are part of the SSID. -/
theorem C41_order (k1 : Nat) (s t : Bytes) (hs : s.length = k1) (ht : t.length = k1)
    (h : (Client.agreeSsid D ⟨t⟩ s).ssid = (Client.agreeSsid D ⟨s⟩ t).ssid) :
    s = t ∨ D.Collision (inp 0 (s ++ t)) (inp 0 (t ++ s)) := by
  simp only [Client.agreeSsid, computeSsid_eq] at h
  rcases D.eq_or_collision h with h | h
  · exact Or.inl (append_inj_of_length (hs.trans ht.symm) (inp_inj.1 h).2).1
  · exact Or.inr h

/-- **C41 (pre-established).** Refused exactly below 16 bytes, on both sides; otherwise both sides hold the same
SSID; different ones stay different unless the named inputs collide. -/
theorem C41_prestablished (sv : Server.State σs) (ssid ssid' : Bytes) :
    (Client.beginPrestablishedSsid D ssid = .err .insecureSsid ↔ ssid.length < 16) ∧
    (Server.beginPrestablishedSsid D sv ssid = .err .insecureSsid ↔ ssid.length < 16) ∧
    (16 ≤ ssid.length → ∃ v, Client.beginPrestablishedSsid D ssid = .ok ⟨v⟩ ∧
      Server.beginPrestablishedSsid D sv ssid = .ok ⟨sv.secret, v⟩) ∧
    (∀ v, Client.beginPrestablishedSsid D ssid = .ok v →
      Client.beginPrestablishedSsid D ssid' = .ok v →
      ssid = ssid' ∨ D.Collision (inp 0 ssid) (inp 0 ssid')) := by
  simp only [Client.beginPrestablishedSsid, Server.beginPrestablishedSsid, minSsidLen, finalize_H0]
  refine ⟨by split <;> simp_all, by split <;> simp_all, fun h => ?_, fun v h h' => ?_⟩
  · exact ⟨Hn D 0 ssid, by simp [not_lt.2 h], by simp [not_lt.2 h]⟩
  · split at h
    · simp at h
    split at h'
    · simp at h'
    simp only [Res.ok.injEq] at h h'
    have : Hn D 0 ssid = Hn D 0 ssid' := congrArg Client.PreAug.ssid (h.trans h'.symm)
    rcases D.eq_or_collision this with h | h
    · exact Or.inl (inp_inj.1 h).2
    · exact Or.inr h

/-- **C41 (fresh nonces are sent).** `begin` on either side sends the nonce it keeps, of the configured
length, and advances the generator. -/
theorem C41_begin (k1 : Nat) (c : σc) (sv : Server.State σs) :
    (∃ n c', Client.begin (G := G) rngC k1 c = ((⟨n⟩, .nonce n), c') ∧ n.length = k1 ∧
      (n, c') = rngC.fill c k1) ∧
    (∃ n s', Server.begin (G := G) rngS k1 sv =
        ((⟨sv.secret, n⟩, .nonce n), ⟨s', sv.secret⟩) ∧ n.length = k1 ∧
      (n, s') = rngS.fill sv.rng k1) := by
  refine ⟨⟨_, _, rfl, rngC.fill_length _ _, rfl⟩, ⟨_, _, rfl, rngS.fill_length _ _, rfl⟩⟩

example : (Client.beginPrestablishedSsid sha512 (World.bytes 1 16)).isOk = true ∧
    Client.beginPrestablishedSsid sha512 (World.bytes 1 15) = .err .insecureSsid := by
  constructor
  · decide +kernel
  · exact (C41_prestablished (σs := Unit) sha512 ⟨(), 0⟩ _ []).1.2 (by decide)

/-! ## C53: key pairs -/

/-- **C53.** The long-term key pair matches, and so does the pair made for a session. -/
theorem C53_matching (sv : Server.State σs) (srv : Server.AugLayer) (user : Bytes) (db : Database G)
    (s : σs) :
    (∃ x sv', Server.generateLongTermKeypair R rngS sv = ((x, x • R.base), sv') ∧
      sv'.secret = sv.secret) ∧
    (∀ st m, Server.generateClientInfo (ε := Error) R D rngS srv user db s = .ok (st, m) →
      ∃ (x : Scalar) (salt ps : Bytes), m = .augmentationInfo groupName (x • R.base) salt ps ∧
        ∀ W salt' ps', db.lookupVerifier user = some (W, salt', ps') →
          st.prs = R.compress (x • W) ∧ salt = salt' ∧ ps = ps') := by
  constructor
  · simp only [Server.generateLongTermKeypair, generateServerKeypair_eq]
    exact ⟨_, _, rfl, rfl⟩
  · intro st m h
    simp only [Server.generateClientInfo, generateServerKeypair_eq, Server.generatePrs] at h
    split at h
    · rename_i W salt ps hdb
      simp only [Res.bind_ok, Res.ok.injEq, Prod.mk.injEq] at h
      obtain ⟨rfl, rfl⟩ := h
      refine ⟨_, _, _, rfl, fun W' salt' ps' h => ?_⟩
      rw [hdb] at h
      simp only [Option.some.injEq, Prod.mk.injEq] at h
      obtain ⟨rfl, rfl, rfl⟩ := h
      exact ⟨by simp, rfl, rfl⟩
    · rename_i hdb
      obtain ⟨⟨⟨p, m'⟩, s'⟩, h1, h2⟩ := Res.bind_eq_ok.1 h
      simp only [Server.lookupFailed] at h1
      obtain ⟨a, ha, h1⟩ := Res.bind_eq_ok.1 h1
      obtain ⟨b, hb, h1⟩ := Res.bind_eq_ok.1 h1
      simp only [Res.ok.injEq, Prod.mk.injEq] at h1 h2
      obtain ⟨⟨rfl, rfl⟩, rfl⟩ := h1
      obtain ⟨rfl, rfl⟩ := h2
      refine ⟨_, _, _, rfl, fun W' salt' ps' h => ?_⟩
      rw [hdb] at h; simp at h

/-- The partially augmented exchange with an arbitrary stored pair `(x, X)`. -/
theorem augment_pair (fromPs : Bytes → Params) (buf : Buf) (db : Database G)
    (kdb : PartialAugDatabase G) (cli : Client.PreAug) (srv : Server.AugLayer)
    (user pass : Bytes) (sr : σs) (W : G) (salt ps : Bytes) (x : Scalar) (X : G)
    (hdb : db.lookupVerifier user = some (W, salt, ps))
    (hk : kdb.lookupLongTermKeypair user = some (x, X)) (hbuf : buf.fits user pass) :
    Run.augment R D Hs rngS fromPs buf db (some kdb) cli srv user pass sr =
      if X = 0 then .err .illegalPointError
      else pwScalar Hs user pass salt (fromPs ps) >>= fun w =>
        .ok (⟨cli.ssid, R.compress (w • X)⟩, ⟨srv.ssid, R.compress (x • W), sr⟩) := by
  simp only [Run.augment, Client.startAugmentation, Run.serverInfo,
    Server.generateClientInfoPartialAug, hk, Server.generatePrs, hdb,
    Res.bind_ok, one_smul, clientCpace_eq, if_pos hbuf]
  by_cases hX : X = 0
  · simp only [if_pos hX, Res.bind_err]
  · simp only [if_neg hX, bind_assoc', Res.bind_ok, prs]

/-- **C53 (mismatch).** With partial augmentation and any stored pair `(x, X)`, a successful login with the
registered password means that the pair matches or the password scalar is zero, or a named collision.
(Matching pairs give agreement by C32, C33.) -/
theorem C53_mismatch (h64 : D.outLen = 64)
    (bufR buf : Buf) (s s' : σr) (user pass salt ps : Bytes) (params : Params) (W : G)
    (hreg : Run.register R Hs rngR bufR s user pass params =
      .ok (.registration user salt ps W, s'))
    (db : Database G) (hdb : db.lookupVerifier user = some (W, salt, ps))
    (kdb : PartialAugDatabase G) (x : Scalar) (X : G)
    (hk : kdb.lookupLongTermKeypair user = some (x, X))
    (fromPs : Bytes → Params) (hps : fromPs ps = params) (hbuf : buf.fits user pass)
    (start : Start) (hstart : startOk start) (ci : Bytes)
    (c c' : σc) (sv : Server.State σs) (sr : σs) {kc ks : Bytes}
    (hrun : Run.login R D Hs rngC rngS (Run.explicit R D rngC rngS) fromPs buf db (some kdb) start
      user pass ci c sv sr c' = .ok (kc, ks)) :
    ∃ w : Scalar, W = w • R.base ∧
      (X = x • R.base ∨ w = 0 ∨
        ExchangeCollision R D (ssidOf D rngC rngS start c sv)
          (R.compress (x • W)) (R.compress (w • X)) ci
          (draw (rngS.fill sr 64).1) (draw (rngC.fill c' 64).1)) := by
  rw [register_eq] at hreg
  split at hreg
  · obtain ⟨w, hw, hreg⟩ := Res.bind_eq_ok.1 hreg
    obtain ⟨ps', _, hreg⟩ := Res.bind_eq_ok.1 hreg
    simp only [Res.ok.injEq, Prod.mk.injEq, ClientMessage.registration.injEq] at hreg
    obtain ⟨⟨-, rfl, rfl, rfl⟩, -⟩ := hreg
    refine ⟨w, rfl, ?_⟩
    simp only [Run.login, ssidStage_ok D rngC rngS start c sv hstart, Res.bind_ok,
      augment_pair R D Hs rngS fromPs buf db kdb _ _ user pass sr _ _ _ x X hdb hk hbuf, hps, hw]
      at hrun
    by_cases hX : X = 0
    · simp [hX] at hrun
    · simp only [if_neg hX, Res.bind_ok] at hrun
      have hl := ssidOf_length D rngC rngS h64 start c sv
      rcases explicit_binding R D rngC rngS h64 _ _ ci ci c' hl hl (R.compress_length _)
        (R.compress_length _) hrun with h | h
      · have := h.2.1
        simp only [R.compress_inj] at this
        rw [smul_comm] at this
        by_cases hw0 : w = 0
        · exact Or.inr (Or.inl hw0)
        · exact Or.inl (smul_left_cancel_ne hw0 this).symm
      · exact Or.inr (Or.inr h)
  · simp at hreg

/-- A pair that does not match fails in the concrete world. -/
example : Run.login Ristretto.toy sha512 World.hasher Rng.replay Rng.replay
    (Run.explicit Ristretto.toy sha512 Rng.replay Rng.replay) (fun _ => ()) (.fixed 12) World.db
    (some ⟨fun _ => some (5, 6)⟩) (.nonces 16) World.user World.pass (ascii "ci")
    (World.bytes 2 100) World.server (World.bytes 3 200) (World.bytes 4 100) =
      .err .mutualAuthFail := by decide +kernel

end
end Verif.Aucpace
