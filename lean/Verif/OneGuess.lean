import Verif.Aucpace.PropsAuth
import Verif.Aucpace.World
import Verif.Srp.SafePrime

/-!
# C69: a session is consistent with one password only

What one side sent and received, together with its accepting or with the key, leaves room for one password only, whatever
the peer did. An active attacker therefore tests at most one guess in a session. Statements about hashes are unconditional
as in `Aucpace.PropsAuth`. SPAKE2 has this property by `C21` and `C22`, where the password is part of the hashed transcript.
-/

set_option linter.unusedSectionVars false

namespace Verif.Aucpace
open Spec Run

section
variable {G : Type} [AddCommGroup G] [Module Scalar G] [DecidableEq G] (R : Ristretto G) (D : Digest)
  {Params : Type} (Hs : PwHasher Params) {σc σs σc' σs' : Type} (rngC : Rng σc) (rngS : Rng σs) (rngC' : Rng σc')
  (rngS' : Rng σs')

/-- One of the hashes or the map to the group fails: for two CPace states that sent the same public key with private keys
`y`, `y'`, received `P`, and compare the hash with tag `n`. -/
def GuessCollision (n : UInt8) (ssid prs prs' ci : Bytes) (y y' : Scalar) (P : G) : Prop :=
  D.Collision (inp n (ssid ++ Spec.sk1 R D ssid (y • P))) (inp n (ssid ++ Spec.sk1 R D ssid (y' • P))) ∨
  D.Collision (inp 2 (ssid ++ R.compress (y • P))) (inp 2 (ssid ++ R.compress (y' • P))) ∨
  MapCollision R D (ssid ++ prs ++ ci) (ssid ++ prs' ++ ci)

theorem one_guess (n : UInt8) {ssid prs prs' ci : Bytes} (hp : prs.length = 32) (hp' : prs'.length = 32)
    {y y' : Scalar} {Y P : G} (hY : Y ≠ 0) (hP : P ≠ 0) (h1 : y • gen R D ssid prs ci = Y)
    (h1' : y' • gen R D ssid prs' ci = Y)
    (h : Hn D n (ssid ++ Spec.sk1 R D ssid (y • P)) = Hn D n (ssid ++ Spec.sk1 R D ssid (y' • P))) :
    prs = prs' ∨ GuessCollision R D n ssid prs prs' ci y y' P := by
  rcases D.eq_or_collision h with h | h
  · have h := List.append_cancel_left (inp_inj.1 h).2
    rcases D.eq_or_collision h with h | h
    · have h := List.append_cancel_left (inp_inj.1 h).2
      rw [R.compress_inj] at h
      have hy := smul_right_cancel_ne hP h
      subst hy
      have hy0 : y ≠ 0 := fun h0 => hY (by rw [← h1, h0, zero_smul])
      have hg := smul_left_cancel_ne hy0 (h1.trans h1'.symm)
      by_cases hin : ssid ++ prs ++ ci = ssid ++ prs' ++ ci
      · rw [List.append_assoc, List.append_assoc] at hin
        exact Or.inl (append_inj_of_length (hp.trans hp'.symm) (List.append_cancel_left hin)).1
      · exact Or.inr (Or.inr (Or.inr ⟨hin, hg⟩))
    · exact Or.inr (Or.inr (Or.inl h))
  · exact Or.inr (Or.inl h)

/-- **C69 (server).** Two servers with the same SSID and channel identifier, whatever their generators, send the same
public key `Ya`, receive the same public key and both accept the same authenticator. Then they hold the same
password-related string. -/
theorem C69_server (h64 : D.outLen = 64) (srv : Server.CPaceSubstep σs) (srv' : Server.CPaceSubstep σs') (ci : Bytes)
    (hssid : srv'.ssid = srv.ssid) (hp : srv.prs.length = 32) (hp' : srv'.prs.length = 32)
    {st st' : Server.RecvClientKey} {Ya Yb : G} (hYa : Ya ≠ 0)
    (h1 : Server.generatePublicKey R D rngS srv ci = (st, .publicKey Ya))
    (h1' : Server.generatePublicKey R D rngS' srv' ci = (st', .publicKey Ya))
    {au au' : Server.ExpMutAuth} (h2 : Server.receiveClientPubkey R D st Yb = .ok au)
    (h2' : Server.receiveClientPubkey R D st' Yb = .ok au')
    {t k k' : Bytes} {m m' : ServerMessage G} (h3 : Server.receiveClientAuthenticator D au t = .ok (k, m))
    (h3' : Server.receiveClientAuthenticator D au' t = .ok (k', m')) :
    srv.prs = srv'.prs ∨ GuessCollision R D 4 srv.ssid srv.prs srv'.prs ci st.privKey st'.privKey Yb := by
  rw [server_generatePublicKey_eq] at h1 h1'
  simp only [Prod.mk.injEq, ServerMessage.publicKey.injEq] at h1 h1'
  obtain ⟨rfl, h1⟩ := h1
  obtain ⟨rfl, h1'⟩ := h1'
  rw [receiveClientPubkey_eq] at h2 h2'
  split at h2
  · simp at h2
  rename_i hYb
  rw [if_neg hYb] at h2'
  simp only [Res.ok.injEq] at h2 h2'
  subst h2 h2'
  rw [receiveClientAuthenticator_eq D h64] at h3 h3'
  split at h3
  · rename_i ht
    split at h3'
    · rename_i ht'
      rw [hssid] at h1' ht'
      exact one_guess R D 4 hp hp' hYa hYb h1 h1' (ht.trans ht'.symm)
    · simp at h3'
  · simp at h3

/-- **C69 (server, implicit authentication).** The same for equal session keys. -/
theorem C69_server_implicit (srv : Server.CPaceSubstep σs) (srv' : Server.CPaceSubstep σs') (ci : Bytes)
    (hssid : srv'.ssid = srv.ssid) (hp : srv.prs.length = 32) (hp' : srv'.prs.length = 32)
    {st st' : Server.RecvClientKey} {Ya Yb : G} (hYa : Ya ≠ 0)
    (h1 : Server.generatePublicKey R D rngS srv ci = (st, .publicKey Ya))
    (h1' : Server.generatePublicKey R D rngS' srv' ci = (st', .publicKey Ya))
    {k : Bytes} (h2 : Server.implicitAuth R D st Yb = .ok k) (h2' : Server.implicitAuth R D st' Yb = .ok k) :
    srv.prs = srv'.prs ∨ GuessCollision R D 5 srv.ssid srv.prs srv'.prs ci st.privKey st'.privKey Yb := by
  rw [server_generatePublicKey_eq] at h1 h1'
  simp only [Prod.mk.injEq, ServerMessage.publicKey.injEq] at h1 h1'
  obtain ⟨rfl, h1⟩ := h1
  obtain ⟨rfl, h1'⟩ := h1'
  rw [server_implicitAuth_eq] at h2 h2'
  split at h2
  · simp at h2
  rename_i hYb
  rw [if_neg hYb] at h2'
  simp only [Res.ok.injEq] at h2 h2'
  simp only [hssid] at h1' h2'
  exact one_guess R D 5 hp hp' hYa hYb h1 h1' (h2.trans h2'.symm)

/-- **C69 (client).** Two clients with the same SSID and channel identifier send the same public key `Yb` and receive the
same public key. If they send the same authenticator, they hold the same password-related string; likewise if both
accept the same authenticator. -/
theorem C69_client (h64 : D.outLen = 64) (cli cli' : Client.CPaceSubstep) (ci : Bytes)
    (hssid : cli'.ssid = cli.ssid) (hp : cli.prs.length = 32) (hp' : cli'.prs.length = 32)
    {c c1 : σc} {c' c1' : σc'} {st st' : Client.RecvServerKey} {Ya Yb : G} (hYb : Yb ≠ 0)
    (h1 : Client.generatePublicKey R D rngC cli ci c = ((st, .publicKey Yb), c1))
    (h1' : Client.generatePublicKey R D rngC' cli' ci c' = ((st', .publicKey Yb), c1'))
    {au au' : Client.ExpMutAuth} {m m' : ClientMessage G} (h2 : Client.receiveServerPubkey R D st Ya = .ok (au, m))
    (h2' : Client.receiveServerPubkey R D st' Ya = .ok (au', m')) :
    (m = m' →
      cli.prs = cli'.prs ∨ GuessCollision R D 4 cli.ssid cli.prs cli'.prs ci st.privKey st'.privKey Ya) ∧
    (∀ t k k', Client.receiveServerAuthenticator D au t = .ok k → Client.receiveServerAuthenticator D au' t = .ok k' →
      cli.prs = cli'.prs ∨ GuessCollision R D 3 cli.ssid cli.prs cli'.prs ci st.privKey st'.privKey Ya) := by
  rw [client_generatePublicKey_eq] at h1 h1'
  simp only [Prod.mk.injEq, ClientMessage.publicKey.injEq] at h1 h1'
  obtain ⟨⟨rfl, h1⟩, -⟩ := h1
  obtain ⟨⟨rfl, h1'⟩, -⟩ := h1'
  rw [receiveServerPubkey_eq R D h64] at h2 h2'
  split at h2
  · simp at h2
  rename_i hYa
  rw [if_neg hYa] at h2'
  simp only [Res.ok.injEq, Prod.mk.injEq] at h2 h2'
  obtain ⟨rfl, rfl⟩ := h2
  obtain ⟨rfl, rfl⟩ := h2'
  simp only [hssid, ClientMessage.authenticator.injEq, receiveServerAuthenticator_eq] at h1' ⊢
  refine ⟨fun h => one_guess R D 4 hp hp' hYb hYa h1 h1' h, fun t k k' h3 h3' => ?_⟩
  split at h3
  · rename_i ht
    split at h3'
    · rename_i ht'
      exact one_guess R D 3 hp hp' hYb hYa h1 h1' (ht.trans ht'.symm)
    · simp at h3'
  · simp at h3

/-- **C69 (client, implicit authentication).** -/
theorem C69_client_implicit (cli cli' : Client.CPaceSubstep) (ci : Bytes)
    (hssid : cli'.ssid = cli.ssid) (hp : cli.prs.length = 32) (hp' : cli'.prs.length = 32)
    {c c1 : σc} {c' c1' : σc'} {st st' : Client.RecvServerKey} {Ya Yb : G} (hYb : Yb ≠ 0)
    (h1 : Client.generatePublicKey R D rngC cli ci c = ((st, .publicKey Yb), c1))
    (h1' : Client.generatePublicKey R D rngC' cli' ci c' = ((st', .publicKey Yb), c1'))
    {k : Bytes} (h2 : Client.implicitAuth R D st Ya = .ok k) (h2' : Client.implicitAuth R D st' Ya = .ok k) :
    cli.prs = cli'.prs ∨ GuessCollision R D 5 cli.ssid cli.prs cli'.prs ci st.privKey st'.privKey Ya := by
  rw [client_generatePublicKey_eq] at h1 h1'
  simp only [Prod.mk.injEq, ClientMessage.publicKey.injEq] at h1 h1'
  obtain ⟨⟨rfl, h1⟩, -⟩ := h1
  obtain ⟨⟨rfl, h1'⟩, -⟩ := h1'
  rw [client_implicitAuth_eq] at h2 h2'
  split at h2
  · simp at h2
  rename_i hYa
  rw [if_neg hYa] at h2'
  simp only [Res.ok.injEq] at h2 h2'
  simp only [hssid] at h1' h2'
  exact one_guess R D 5 hp hp' hYb hYa h1 h1' (h2.trans h2'.symm)

/-- **C69 (verifier of a server).** Two servers that hold the verifiers `W` and `W'` for the user (any databases, plain or
partially augmented) and send the same `X` have the same password-related string only if `W = W'`; so a session as in
`C69_server` is consistent with one verifier. -/
theorem C69_verifier (db db' : Database G) (kdb kdb' : Option (PartialAugDatabase G)) (s s' : Server.AugLayer)
    (user : Bytes) (sr : σs) (sr' : σs') (W W' X : G) (salt ps salt' ps' g g' : Bytes)
    (hdb : db.lookupVerifier user = some (W, salt, ps)) (hdb' : db'.lookupVerifier user = some (W', salt', ps'))
    (hk : ∀ k, kdb = some k → ∃ x, k.lookupLongTermKeypair user = some (x, x • R.base))
    (hk' : ∀ k, kdb' = some k → ∃ x, k.lookupLongTermKeypair user = some (x, x • R.base))
    {srv : Server.CPaceSubstep σs} {srv' : Server.CPaceSubstep σs'} (hX : X ≠ 0)
    (h : Run.serverInfo R D rngS db kdb s user sr = .ok (srv, .augmentationInfo g X salt ps))
    (h' : Run.serverInfo R D rngS' db' kdb' s' user sr' = .ok (srv', .augmentationInfo g' X salt' ps')) :
    srv.ssid = s.ssid ∧ srv.prs.length = 32 ∧ (srv.prs = srv'.prs ↔ W = W') := by
  rw [server_info_eq R D rngS db kdb s user sr W salt ps hdb hk] at h
  rw [server_info_eq R D rngS' db' kdb' s' user sr' W' salt' ps' hdb' hk'] at h'
  simp only [Res.ok.injEq, Prod.mk.injEq, ServerMessage.augmentationInfo.injEq] at h h'
  obtain ⟨rfl, -, hx, -⟩ := h
  obtain ⟨rfl, -, hx', -⟩ := h'
  refine ⟨rfl, R.compress_length _, ?_⟩
  have hxx := (smul_base_inj (R := R)).1 (hx.trans hx'.symm)
  have hx0 : (Run.serverX rngS kdb user sr).1 ≠ 0 := fun h0 => hX (by rw [← hx, h0, zero_smul])
  rw [R.compress_inj, ← hxx]
  exact ⟨smul_left_cancel_ne hx0, fun h => by rw [h]⟩

/-- **C69 (password of a client).** Two clients that received the same `X` and turn their credentials into the scalars `w`
and `w'` have the same password-related string only if `w = w'`; so a session as in `C69_client` is consistent with one
scalar. -/
theorem C69_scalar (buf buf' : Buf) (cli cli' : Client.AugLayer) (X : G) (salt salt' : Bytes) (params params' : Params)
    {c c' : Client.CPaceSubstep} (h : Run.clientCpace R Hs buf cli X salt params = .ok c)
    (h' : Run.clientCpace R Hs buf' cli' X salt' params' = .ok c') :
    c.ssid = cli.ssid ∧ c.prs.length = 32 ∧
    ∃ w w', pwScalar Hs cli.username cli.password salt params = .ok w ∧
      pwScalar Hs cli'.username cli'.password salt' params' = .ok w' ∧ (c.prs = c'.prs ↔ w = w') := by
  rw [clientCpace_eq] at h h'
  split at h
  · cases h
  rename_i hX
  rw [if_neg hX] at h'
  split at h
  · split at h'
    · obtain ⟨w, hw, h⟩ := Res.bind_eq_ok.1 h
      obtain ⟨w', hw', h'⟩ := Res.bind_eq_ok.1 h'
      simp only [Res.ok.injEq] at h h'
      subst h h'
      refine ⟨rfl, R.compress_length _, w, w', hw, hw', ?_⟩
      simp only [prs]
      rw [R.compress_inj]
      exact ⟨smul_right_cancel_ne hX, fun h => by rw [h]⟩
    · cases h'
  · cases h

/-- **C69 (server, whole login).** Everything the peer of a server sees and sends in a login — the server's `X`, both public
keys, the client's authenticator — and the server's accepting determine the verifier in the server's database. -/
theorem C69_server_login (h64 : D.outLen = 64) (db db' : Database G) (kdb kdb' : Option (PartialAugDatabase G))
    (s s' : Server.AugLayer) (hssid : s'.ssid = s.ssid) (user ci : Bytes) (sr : σs) (sr' : σs') (W W' X : G)
    (salt ps salt' ps' g g' : Bytes)
    (hdb : db.lookupVerifier user = some (W, salt, ps)) (hdb' : db'.lookupVerifier user = some (W', salt', ps'))
    (hk : ∀ k, kdb = some k → ∃ x, k.lookupLongTermKeypair user = some (x, x • R.base))
    (hk' : ∀ k, kdb' = some k → ∃ x, k.lookupLongTermKeypair user = some (x, x • R.base))
    {srv : Server.CPaceSubstep σs} {srv' : Server.CPaceSubstep σs'} (hX : X ≠ 0)
    (h : Run.serverInfo R D rngS db kdb s user sr = .ok (srv, .augmentationInfo g X salt ps))
    (h' : Run.serverInfo R D rngS' db' kdb' s' user sr' = .ok (srv', .augmentationInfo g' X salt' ps'))
    {st st' : Server.RecvClientKey} {Ya Yb : G} (hYa : Ya ≠ 0)
    (h1 : Server.generatePublicKey R D rngS srv ci = (st, .publicKey Ya))
    (h1' : Server.generatePublicKey R D rngS' srv' ci = (st', .publicKey Ya))
    {au au' : Server.ExpMutAuth} (h2 : Server.receiveClientPubkey R D st Yb = .ok au)
    (h2' : Server.receiveClientPubkey R D st' Yb = .ok au')
    {t k k' : Bytes} {m m' : ServerMessage G} (h3 : Server.receiveClientAuthenticator D au t = .ok (k, m))
    (h3' : Server.receiveClientAuthenticator D au' t = .ok (k', m')) :
    W = W' ∨ GuessCollision R D 4 s.ssid srv.prs srv'.prs ci st.privKey st'.privKey Yb := by
  obtain ⟨e1, e2, e3⟩ := C69_verifier R D rngS rngS' db db' kdb kdb' s s' user sr sr' W W' X salt ps salt' ps' g g' hdb hdb'
    hk hk' hX h h'
  obtain ⟨e1', e2', -⟩ := C69_verifier R D rngS' rngS db' db kdb' kdb s' s user sr' sr W' W X salt' ps' salt ps g' g hdb'
    hdb hk' hk hX h' h
  rw [← e3, ← e1]
  exact C69_server R D rngS rngS' h64 srv srv' ci (by rw [e1, e1', hssid]) e2 e2' hYa h1 h1' h2 h2' h3 h3'

/-- A case that meets the hypotheses of `C69_server`: the generators return the different representatives `5` and
`5 + ell` of one scalar. -/
example : ∃ (srv srv' : Server.CPaceSubstep Bytes) (st st' : Server.RecvClientKey) (Ya Yb : Scalar)
    (au au' : Server.ExpMutAuth) (t k k' : Bytes) (m m' : ServerMessage Scalar),
    srv ≠ srv' ∧ srv'.ssid = srv.ssid ∧ srv.prs.length = 32 ∧ srv'.prs.length = 32 ∧ Ya ≠ 0 ∧
    Server.generatePublicKey Ristretto.toy sha512 Rng.replay srv (ascii "ci") = (st, .publicKey Ya) ∧
    Server.generatePublicKey Ristretto.toy sha512 Rng.replay srv' (ascii "ci") = (st', .publicKey Ya) ∧
    Server.receiveClientPubkey Ristretto.toy sha512 st Yb = .ok au ∧
    Server.receiveClientPubkey Ristretto.toy sha512 st' Yb = .ok au' ∧
    Server.receiveClientAuthenticator sha512 au t = .ok (k, m) ∧
    Server.receiveClientAuthenticator sha512 au' t = .ok (k', m') := by
  have hd : draw (Rng.replay.fill (leFixed 64 (5 + ell)) 64).1 = draw (Rng.replay.fill (leFixed 64 5) 64).1 := by
    decide +kernel
  have hne : draw (Rng.replay.fill (leFixed 64 5) 64).1 • gen Ristretto.toy sha512 (World.bytes 0 64) (World.bytes 1 32)
      (ascii "ci") ≠ 0 := by decide +kernel
  have h64 : sha512.outLen = 64 := rfl
  have h1 : (1 : Scalar) ≠ 0 := by decide +kernel
  refine ⟨⟨World.bytes 0 64, World.bytes 1 32, leFixed 64 5⟩, ⟨World.bytes 0 64, World.bytes 1 32, leFixed 64 (5 + ell)⟩,
    _, _, _, 1, _, _, _, _, _, _, _, ?_, rfl, by decide, by decide, hne, server_generatePublicKey_eq _ _ _ _ _, ?_,
    (receiveClientPubkey_eq _ _ _ _).trans (if_neg h1), (receiveClientPubkey_eq _ _ _ _).trans (if_neg h1),
    (receiveClientAuthenticator_eq _ h64 _ _).trans (if_pos rfl), (receiveClientAuthenticator_eq _ h64 _ _).trans (if_pos rfl)⟩
  · intro h
    have := congrArg Server.CPaceSubstep.rng h
    revert this
    decide +kernel
  · rw [server_generatePublicKey_eq, hd]

end
end Verif.Aucpace

namespace Verif.Srp
open SafePrime

variable (D : Digest) {p : SrpGroup}

/-- **C69 (SRP).** The client's secret distinguishes passwords: for a public value `B` and scrambling parameter `u`, and
exponents `x`, `x'` with different verifiers, at most two private values below `N - 1` give the same secret. Excluded are
public values for which one of the bases is zero (then the peer guessed a verifier, `C62_client_zero`) or one is the
negative of the other. -/
theorem C69_srp (h : SafeGroup p) (hs : Spec.Sane p.n p.g) (B x x' u k : Nat)
    (hk : (computeK D p : Res SrpAuthError Nat) = .ok k) (hk0 : ¬ k ≡ 0 [MOD p.n])
    (hx : ¬ p.g ^ x ≡ p.g ^ x' [MOD p.n]) (h0 : ¬ B ≡ k * p.g ^ x [MOD p.n]) (h0' : ¬ B ≡ k * p.g ^ x' [MOD p.n])
    (h2 : ¬ 2 * B ≡ k * p.g ^ x + k * p.g ^ x' [MOD p.n]) :
    {a | a < p.n - 1 ∧ (Client.computePremasterSecret p B k x a u : Res SrpAuthError Nat) =
      Client.computePremasterSecret p B k x' a u}.ncard ≤ 2 := by
  have hn : 0 < p.n := h.1.pos
  have : NeZero p.n := ⟨hn.ne'⟩
  have : Fact p.n.Prime := ⟨h.1⟩
  rw [computeK_eq D p hs.2, Res.ok.injEq] at hk
  subst hk
  rw [← ZMod.natCast_eq_natCast_iff] at hk0 hx h0 h0' h2
  push_cast at hk0 hx h0 h0' h2
  set z : ZMod p.n := (B : ZMod p.n) - Spec.k D p.n p.g * (p.g : ZMod p.n) ^ x with hz
  set z' : ZMod p.n := (B : ZMod p.n) - Spec.k D p.n p.g * (p.g : ZMod p.n) ^ x' with hz'
  have hz0 : z ≠ 0 := sub_ne_zero.2 h0
  have hz0' : z' ≠ 0 := sub_ne_zero.2 h0'
  have hr0 : z / z' ≠ 0 := div_ne_zero hz0 hz0'
  have hr1 : z / z' ≠ 1 := by
    intro e
    rw [div_eq_one_iff_eq hz0', hz, hz', sub_right_inj] at e
    exact hx (mul_left_cancel₀ hk0 e)
  have hr2 : z / z' ≠ -1 := by
    intro e
    rw [div_eq_iff hz0', neg_one_mul, hz, hz'] at e
    refine h2 ?_
    linear_combination e
  have hinj : ∀ a a' : Nat, (Client.computePremasterSecret p B (Spec.k D p.n p.g) x a u : Res SrpAuthError Nat) =
      Client.computePremasterSecret p B (Spec.k D p.n p.g) x' a u →
      (Client.computePremasterSecret p B (Spec.k D p.n p.g) x a' u : Res SrpAuthError Nat) =
      Client.computePremasterSecret p B (Spec.k D p.n p.g) x' a' u → a ≡ a' [MOD (p.n - 1) / 2] := by
    intro a a' e e'
    rw [client_premaster_eq D p hn, client_premaster_eq D p hn, Res.ok.injEq, (ZMod.val_injective p.n).eq_iff] at e e'
    change z ^ (a + u * x) = z' ^ (a + u * x') at e
    change z ^ (a' + u * x) = z' ^ (a' + u * x') at e'
    refine pow_inj h hr0 hr1 hr2 ?_
    rw [div_pow, div_pow, div_eq_div_iff (pow_ne_zero _ hz0') (pow_ne_zero _ hz0')]
    rw [pow_add, pow_add] at e e'
    have hc : z ^ (u * x) ≠ 0 := pow_ne_zero _ hz0
    have hc' : z' ^ (u * x') ≠ 0 := pow_ne_zero _ hz0'
    refine mul_right_cancel₀ (mul_ne_zero hc hc') ?_
    linear_combination z' ^ a' * z' ^ (u * x') * e - z' ^ a * z' ^ (u * x') * e'
  have hodd := odd h
  have hq : 0 < (p.n - 1) / 2 := by omega
  by_cases hne : ∃ a₀, (Client.computePremasterSecret p B (Spec.k D p.n p.g) x a₀ u : Res SrpAuthError Nat) =
      Client.computePremasterSecret p B (Spec.k D p.n p.g) x' a₀ u
  · obtain ⟨a₀, ha₀⟩ := hne
    refine (Set.ncard_le_ncard (t := {a₀ % ((p.n - 1) / 2), a₀ % ((p.n - 1) / 2) + (p.n - 1) / 2}) ?_
      (Set.toFinite _)).trans ((Set.ncard_insert_le _ _).trans (by rw [Set.ncard_singleton]))
    rintro a ⟨ha, e⟩
    have hm := hinj a a₀ e ha₀
    rw [Nat.ModEq] at hm
    have hdm := Nat.div_add_mod a ((p.n - 1) / 2)
    have hlt : a / ((p.n - 1) / 2) < 2 := by
      rw [Nat.div_lt_iff_lt_mul hq]; omega
    simp only [Set.mem_insert_iff, Set.mem_singleton_iff]
    rw [← hm]
    rcases (show a / ((p.n - 1) / 2) = 0 ∨ a / ((p.n - 1) / 2) = 1 by
      revert hlt; generalize a / ((p.n - 1) / 2) = j; omega) with e0 | e0 <;> rw [e0] at hdm <;> omega
  · have : {a | a < p.n - 1 ∧ (Client.computePremasterSecret p B (Spec.k D p.n p.g) x a u : Res SrpAuthError Nat) =
        Client.computePremasterSecret p B (Spec.k D p.n p.g) x' a u} = ∅ := by
      ext a
      simp only [Set.mem_ofPred_eq, Set.mem_empty_iff_false, iff_false]
      exact fun ha => hne ⟨a, ha.2⟩
    rw [this, Set.ncard_empty]
    omega

/-- The hypotheses are met: in the group modulo 47 with `g = 5` and SHA-256. -/
example : SafeGroup ⟨47, 5⟩ ∧ Spec.Sane 47 5 ∧ ∃ k, (computeK sha256 ⟨47, 5⟩ : Res SrpAuthError Nat) = .ok k ∧
    ¬ k ≡ 0 [MOD 47] ∧ ¬ 5 ^ 2 ≡ 5 ^ 3 [MOD 47] ∧ ¬ 7 ≡ k * 5 ^ 2 [MOD 47] ∧ ¬ 7 ≡ k * 5 ^ 3 [MOD 47] ∧
    ¬ 2 * 7 ≡ k * 5 ^ 2 + k * 5 ^ 3 [MOD 47] := by
  refine ⟨⟨by norm_num, by norm_num, (Groups.C11_safe_prime_generator 47 5 (by decide) (by decide) (by decide) (by decide)
    (by norm_num)).2⟩, by decide +kernel, beToNat (sha256.hash [47, 5]), by decide +kernel, by decide +kernel,
    by decide +kernel, by decide +kernel, by decide +kernel, by decide +kernel⟩

end Verif.Srp
