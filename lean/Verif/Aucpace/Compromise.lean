import Verif.Aucpace.PropsAuth
import Verif.Aucpace.Uniform

/-!
# C74: what a leaked password-related string is good for

The server derives the string that both sides feed into CPace from the verifier and its `x`. In the plain and strong
protocols `x` is drawn in each session, with partial augmentation it is a long-term key.
-/

set_option linter.unusedSectionVars false

namespace Verif.Aucpace
open Spec Run

section
variable {G : Type} [AddCommGroup G] [Module Scalar G] [DecidableEq G] (R : Ristretto G) (D : Digest)
  {σc σs : Type} (rngC : Rng σc) (rngS : Rng σs)

/-- **C74 (partial augmentation).** Whoever has the password-related string of one session of a user can complete every
other session of that user without the password: the login ends as an honest one, with a common key or, for degenerate
random values, with `IllegalPointError`. Both databases together give the string away, without any session. -/
theorem C74_partial_aug (h64 : D.outLen = 64) (db : Database G) (kdb : PartialAugDatabase G) (user : Bytes) {W : G}
    {salt ps : Bytes} {x : Scalar} (hdb : db.lookupVerifier user = some (W, salt, ps))
    (hk : kdb.lookupLongTermKeypair user = some (x, x • R.base)) (srv srv' : Server.AugLayer) (sr sr' : σs)
    {leaked st : Server.CPaceSubstep σs} {m m' : ServerMessage G}
    (h : Server.generateClientInfoPartialAug (ε := Error) R D rngS srv user db kdb sr = .ok (leaked, m))
    (h' : Server.generateClientInfoPartialAug (ε := Error) R D rngS srv' user db kdb sr' = .ok (st, m')) (ci : Bytes) (c : σc) :
    leaked.prs = R.compress (x • W) ∧
    let g := gen R D srv'.ssid (R.compress (x • W)) ci
    let ya := draw (rngS.fill sr' 64).1
    let yb := draw (rngC.fill c 64).1
    let k := sk D srv'.ssid (Spec.sk1 R D srv'.ssid ((ya * yb) • g))
    Run.explicit R D rngC rngS ⟨srv'.ssid, leaked.prs⟩ st ci ci c =
      if ya • g = 0 ∨ yb • g = 0 then .err .illegalPointError else .ok (k, k) := by
  have hi := server_info_eq R D rngS db (some kdb) srv user sr W salt ps hdb (by rintro _ ⟨⟩; exact ⟨x, hk⟩)
  have hi' := server_info_eq R D rngS db (some kdb) srv' user sr' W salt ps hdb (by rintro _ ⟨⟩; exact ⟨x, hk⟩)
  simp only [Run.serverInfo, h, h', serverX, hk, Option.map_some, Option.getD_some, Res.ok.injEq, Prod.mk.injEq] at hi hi'
  obtain ⟨rfl, -⟩ := hi
  obtain ⟨rfl, -⟩ := hi'
  exact ⟨rfl, explicit_same R D rngC rngS h64 _ _ ci sr' c⟩

/-- **C74 (partial augmentation, strong).** The same for the strong variant, whatever blinded points are received. -/
theorem C74_partial_strong (h64 : D.outLen = 64) (db : StrongDatabase G) (kdb : PartialAugDatabase G) (user : Bytes)
    {W : G} {q : Scalar} {ps : Bytes} {x : Scalar} (hdb : db.lookupVerifierStrong user = some (W, q, ps))
    (hk : kdb.lookupLongTermKeypair user = some (x, x • R.base)) (srv srv' : Server.AugLayer) (U U' : G) (sr sr' : σs)
    {leaked st : Server.CPaceSubstep σs} {m m' : ServerMessage G}
    (h : Server.generateClientInfoPartialStrong R D rngS srv user U db kdb sr = .ok (leaked, m))
    (h' : Server.generateClientInfoPartialStrong R D rngS srv' user U' db kdb sr' = .ok (st, m')) (ci : Bytes) (c : σc) :
    leaked.prs = R.compress (x • W) ∧
    let g := gen R D srv'.ssid (R.compress (x • W)) ci
    let ya := draw (rngS.fill sr' 64).1
    let yb := draw (rngC.fill c 64).1
    let k := sk D srv'.ssid (Spec.sk1 R D srv'.ssid ((ya * yb) • g))
    Run.explicit R D rngC rngS ⟨srv'.ssid, leaked.prs⟩ st ci ci c =
      if ya • g = 0 ∨ yb • g = 0 then .err .illegalPointError else .ok (k, k) := by
  have hi := server_info_strong_eq R D rngS db (some kdb) srv user U sr W q ps hdb (by rintro _ ⟨⟩; exact ⟨x, hk⟩)
  have hi' := server_info_strong_eq R D rngS db (some kdb) srv' user U' sr' W q ps hdb (by rintro _ ⟨⟩; exact ⟨x, hk⟩)
  simp only [Run.serverInfoStrong, h, h', serverX, hk, Option.map_some, Option.getD_some] at hi hi'
  split at hi
  · simp at hi
  split at hi'
  · simp at hi'
  simp only [Res.ok.injEq, Prod.mk.injEq] at hi hi'
  obtain ⟨rfl, -⟩ := hi
  obtain ⟨rfl, -⟩ := hi'
  exact ⟨rfl, explicit_same R D rngC rngS h64 _ _ ci sr' c⟩

/-- The state of a plain or strong session of a registered user. -/
def PlainSession (user : Bytes) (W : G) (srv : Server.AugLayer) (sr : σs) (st : Server.CPaceSubstep σs) : Prop :=
  (∃ db salt ps m, Database.lookupVerifier db user = some (W, salt, ps) ∧
    Server.generateClientInfo (ε := Error) R D rngS srv user db sr = .ok (st, m)) ∨
  ∃ db q ps U m, StrongDatabase.lookupVerifierStrong db user = some (W, q, ps) ∧
    Server.generateClientInfoStrong R D rngS srv user U db sr = .ok (st, m)

theorem plain_state {user : Bytes} {W : G} {srv : Server.AugLayer} {sr : σs} {st : Server.CPaceSubstep σs}
    (h : PlainSession R D rngS user W srv sr st) :
    st = ⟨srv.ssid, R.compress (draw (rngS.fill sr 64).1 • W), (rngS.fill sr 64).2⟩ := by
  rcases h with ⟨db, salt, ps, m, hdb, h⟩ | ⟨db, q, ps, U, m, hdb, h⟩
  · have hi := server_info_eq R D rngS db none srv user sr W salt ps hdb (by rintro _ ⟨⟩)
    simp only [Run.serverInfo, h, serverX, Res.ok.injEq, Prod.mk.injEq] at hi
    exact hi.1
  · have hi := server_info_strong_eq R D rngS db none srv user U sr W q ps hdb (by rintro _ ⟨⟩)
    simp only [Run.serverInfoStrong, h, serverX] at hi
    split at hi
    · simp at hi
    · simp only [Res.ok.injEq, Prod.mk.injEq] at hi
      exact hi.1

/-- **C74 (plain and strong).** The string of one session is worth nothing in another session in which the server drew
another `x`: if the server accepts a client that uses it, an explicitly given pair of hash inputs collides. -/
theorem C74_fresh_x (h64 : D.outLen = 64) {user : Bytes} {W : G} (hW : W ≠ 0) {srv srv' : Server.AugLayer} {sr sr' : σs}
    {leaked st : Server.CPaceSubstep σs} (hl : PlainSession R D rngS user W srv sr leaked)
    (hs : PlainSession R D rngS user W srv' sr' st) (hssid : srv'.ssid.length = 64)
    (hx : draw (rngS.fill sr 64).1 ≠ draw (rngS.fill sr' 64).1)
    {ssidC : Bytes} (hC : ssidC.length = 64) (ciC ciS : Bytes) (c : σc)
    {cli1 : Client.RecvServerKey} {srv1 : Server.RecvClientKey} {Ya Yb : G} {c1 : σc}
    (hC1 : Client.generatePublicKey R D rngC ⟨ssidC, leaked.prs⟩ ciC c = ((cli1, .publicKey Yb), c1))
    (hS1 : Server.generatePublicKey R D rngS st ciS = (srv1, .publicKey Ya))
    {cli2 : Client.ExpMutAuth} {srv2 : Server.ExpMutAuth} {t : Bytes}
    (hC2 : Client.receiveServerPubkey R D cli1 Ya = .ok (cli2, .authenticator t))
    (hS2 : Server.receiveClientPubkey R D srv1 Yb = .ok srv2)
    {k : Bytes} {m : ServerMessage G} (hS3 : Server.receiveClientAuthenticator D srv2 t = .ok (k, m)) :
    leaked.prs ≠ st.prs ∧
    (D.Collision (inp 4 (st.ssid ++ srv2.sk1)) (inp 4 (ssidC ++ cli2.sk1)) ∨
    D.Collision (inp 2 (st.ssid ++ R.compress (srv1.privKey • Yb)))
      (inp 2 (ssidC ++ R.compress (cli1.privKey • Ya))) ∨
    MapCollision R D (st.ssid ++ st.prs ++ ciS) (ssidC ++ leaked.prs ++ ciC)) := by
  have h1 := plain_state R D rngS hl
  have h2 := plain_state R D rngS hs
  have hne : leaked.prs ≠ st.prs := by
    rw [h1, h2]
    intro h
    have := R.compress_injective h
    rw [← sub_eq_zero, ← sub_smul, smul_eq_zero, or_iff_left hW, sub_eq_zero] at this
    exact hx this
  refine ⟨hne, ?_⟩
  rcases C36_server_accepts R D rngC rngS h64 ⟨ssidC, leaked.prs⟩ st ciC ciS c hC (by rw [h2]; exact hssid)
    (by rw [h1]; exact R.compress_length _) (by rw [h2]; exact R.compress_length _) hC1 hS1 hC2 hS2 hS3 with h | h
  · exact absurd h.1.2.1.symm hne
  · exact h

/-- **C74 (how often).** For at most `⌊2^512/ell⌋ + 1` of the `2^512` outputs from which the server draws `x` does a
session of a user with a non-neutral verifier have a given string. -/
theorem C74_rare {user : Bytes} {W : G} (hW : W ≠ 0) (prs : Bytes) :
    {b : Bytes | b.length = 64 ∧ ∃ srv st, PlainSession R D Rng.replay user W srv b st ∧ st.prs = prs}.ncard ≤
      2 ^ 512 / ell + 1 := by
  have hp : (256 : ℕ) ^ 64 = 2 ^ 512 := by decide +kernel
  by_cases hex : ∃ b : Bytes, b.length = 64 ∧ R.compress (draw b • W) = prs
  · obtain ⟨b0, -, h0⟩ := hex
    have hsub : {b : Bytes | b.length = 64 ∧ ∃ srv st, PlainSession R D Rng.replay user W srv b st ∧ st.prs = prs} ⊆
        {b : Bytes | b.length = 64 ∧ (leToNat b : Scalar) = draw b0} := by
      rintro b ⟨hb, srv, st, h, rfl⟩
      refine ⟨hb, ?_⟩
      rw [plain_state R D Rng.replay h, replay_fill hb] at h0
      have := R.compress_injective h0
      rw [← sub_eq_zero, ← sub_smul, smul_eq_zero, or_iff_left hW, sub_eq_zero] at this
      exact this.symm
    refine (Set.ncard_le_ncard hsub (finite_residue 64 ell (draw b0))).trans ?_
    rw [ncard_residue, hp]
    split <;> omega
  · have : {b : Bytes | b.length = 64 ∧ ∃ srv st, PlainSession R D Rng.replay user W srv b st ∧ st.prs = prs} = ∅ := by
      ext b
      simp only [Set.mem_ofPred_eq, Set.mem_empty_iff_false, iff_false]
      rintro ⟨hb, srv, st, h, rfl⟩
      exact hex ⟨b, hb, by rw [plain_state R D Rng.replay h, replay_fill hb]⟩
    rw [this, Set.ncard_empty]
    exact Nat.zero_le _

end

/-- A leaked string of a partially augmented session opens another session, and one of a plain session does not. -/
example :
    let s1 : Server.AugLayer := ⟨World.server.secret, World.bytes 1 64⟩
    let s2 : Server.AugLayer := ⟨World.server.secret, World.bytes 2 64⟩
    (match Server.generateClientInfoPartialAug (ε := Error) Ristretto.toy sha512 Rng.replay s1 World.user World.db World.kdb
        (World.bytes 3 200),
      Server.generateClientInfoPartialAug (ε := Error) Ristretto.toy sha512 Rng.replay s2 World.user World.db World.kdb
        (World.bytes 4 200) with
    | .ok (leaked, _), .ok (st, _) =>
      (Run.explicit Ristretto.toy sha512 Rng.replay Rng.replay ⟨s2.ssid, leaked.prs⟩ st [] [] (World.bytes 5 64)).isOk
    | _, _ => false) = true ∧
    (match Server.generateClientInfo (ε := Error) Ristretto.toy sha512 Rng.replay s1 World.user World.db (World.bytes 3 200),
      Server.generateClientInfo (ε := Error) Ristretto.toy sha512 Rng.replay s2 World.user World.db (World.bytes 4 200) with
    | .ok (leaked, _), .ok (st, _) =>
      decide (Run.explicit Ristretto.toy sha512 Rng.replay Rng.replay ⟨s2.ssid, leaked.prs⟩ st [] [] (World.bytes 5 64) =
        .err .mutualAuthFail)
    | _, _ => false) = true := by
  decide +kernel

end Verif.Aucpace
