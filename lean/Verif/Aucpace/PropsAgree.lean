import Verif.Aucpace.RunLemmas
import Verif.Aucpace.World

/-!
# Properties of AuCPace: agreement (C32-C34)

`R` is the ristretto255 group (assumed laws in `Group.lean`), `D` the hash with 64-byte output
(`h64`, which the Rust bound `D: Digest<OutputSize = U64>` enforces), `Hs` any password hasher,
`rngC`, `rngS` any generators in any state.
-/

set_option linter.unusedSectionVars false

namespace Verif.Aucpace
open Spec Run

section
variable {G : Type} [AddCommGroup G] [Module Scalar G] [DecidableEq G] (R : Ristretto G) (D : Digest)
  {Params : Type} (Hs : PwHasher Params) {σc σs σr : Type} (rngC : Rng σc) (rngS : Rng σs)
  (rngR : Rng σr)

/-! ## C32-C34: agreement -/

/-- The SSID that a stage ends with, on both sides. -/
def ssidOf (start : Start) (c : σc) (sv : Server.State σs) : Bytes :=
  match start with
  | .nonces k1 => Spec.ssid D (rngS.fill sv.rng k1).1 (rngC.fill c k1).1
  | .prestablished s => Hn D 0 s

/-- A pre-established SSID is long enough. -/
def startOk : Start → Prop
  | .nonces _ => True
  | .prestablished s => 16 ≤ s.length

theorem ssidStage_ok (start : Start) (c : σc) (sv : Server.State σs) (h : startOk start) :
    Run.ssidStage (G := G) D rngC rngS start c sv =
      .ok (⟨ssidOf D rngC rngS start c sv⟩, ⟨sv.secret, ssidOf D rngC rngS start c sv⟩) := by
  cases start with
  | nonces k1 => simp only [Run.ssidStage, ssidByNonces_eq, ssidOf]
  | prestablished s =>
    simp only [startOk] at h
    simp only [Run.ssidStage, ssidPrestablished_eq, ssidOf, if_neg (not_lt.2 h)]

/-- Two CPace parties with the same SSID, password-related string and channel identifier: explicit
authentication ends in the same key on both sides, or a public key is neutral. -/
theorem explicit_same (h64 : D.outLen = 64) (ssid prs ci : Bytes) (s : σs) (c : σc) :
    Run.explicit R D rngC rngS ⟨ssid, prs⟩ ⟨ssid, prs, s⟩ ci ci c =
      let yb := draw (rngC.fill c 64).1
      let ya := draw (rngS.fill s 64).1
      let g := gen R D ssid prs ci
      if ya • g = 0 ∨ yb • g = 0 then .err .illegalPointError
      else
        let k := sk D ssid (Spec.sk1 R D ssid ((ya * yb) • g))
        .ok (k, k) := by
  rw [explicit_eq R D rngC rngS h64]
  simp only [smul_smul, mul_comm (draw (rngC.fill c 64).1), and_self, if_true]

theorem implicit_same (ssid prs ci : Bytes) (s : σs) (c : σc) :
    Run.implicit R D rngC rngS ⟨ssid, prs⟩ ⟨ssid, prs, s⟩ ci ci c =
      let yb := draw (rngC.fill c 64).1
      let ya := draw (rngS.fill s 64).1
      let g := gen R D ssid prs ci
      if ya • g = 0 ∨ yb • g = 0 then .err .illegalPointError
      else
        let k := sk D ssid (Spec.sk1 R D ssid ((ya * yb) • g))
        .ok (k, k) := by
  rw [implicit_eq R D rngC rngS]
  simp only [smul_smul, mul_comm (draw (rngC.fill c 64).1)]

/-- The augmentation layer for any client password: the client ends with `PRS = w' x B`, the server
with `PRS = x W`. -/
theorem augment_registered (fromPs : Bytes → Params) (buf : Buf) (db : Database G)
    (kdb : Option (PartialAugDatabase G)) (cli : Client.PreAug) (srv : Server.AugLayer)
    (user pass : Bytes) (sr : σs) (W : G) (salt ps : Bytes)
    (hdb : db.lookupVerifier user = some (W, salt, ps))
    (hk : ∀ k, kdb = some k → ∃ x, k.lookupLongTermKeypair user = some (x, x • R.base))
    (hbuf : buf.fits user pass) :
    Run.augment R D Hs rngS fromPs buf db kdb cli srv user pass sr =
      let x := (serverX rngS kdb user sr).1
      if x = 0 then .err .illegalPointError
      else pwScalar Hs user pass salt (fromPs ps) >>= fun w =>
        .ok (⟨cli.ssid, R.compress ((w * x) • R.base)⟩,
          ⟨srv.ssid, R.compress (x • W), (serverX rngS kdb user sr).2⟩) := by
  simp only [Run.augment, Client.startAugmentation, server_info_eq R D rngS db kdb srv user sr W salt
    ps hdb hk, Res.bind_ok, clientCpace_eq, if_pos hbuf]
  by_cases hx : (serverX rngS kdb user sr).1 = 0
  · simp only [hx, zero_smul, if_true, Res.bind_err]
  · have : (serverX rngS kdb user sr).1 • R.base ≠ 0 := fun h => hx (smul_base_eq_zero.1 h)
    simp only [if_neg this, if_neg hx, bind_assoc', Res.bind_ok, prs, smul_smul]

/-- **C32.** Registration, then a login of the plain (`kdb = none`) or partially augmented protocol with
the same password, the server's database returning what was registered and a matching key pair
(`hk`), all messages unmodified: the outcome is completely determined. If no draw is degenerate
(`x`, `ya`, `yb` non-zero, generator not neutral) both sides hold the same 64-byte key; otherwise the run
stops with `IllegalPointError`. -/
theorem C32_agreement (h64 : D.outLen = 64)
    (bufR buf : Buf) (s s' : σr) (user pass salt ps : Bytes) (params : Params) (W : G)
    (hreg : Run.register R Hs rngR bufR s user pass params =
      .ok (.registration user salt ps W, s'))
    (db : Database G) (hdb : db.lookupVerifier user = some (W, salt, ps))
    (kdb : Option (PartialAugDatabase G))
    (hk : ∀ k, kdb = some k → ∃ x, k.lookupLongTermKeypair user = some (x, x • R.base))
    (fromPs : Bytes → Params) (hps : fromPs ps = params) (hbuf : buf.fits user pass)
    (start : Start) (hstart : startOk start) (ci : Bytes)
    (c c' : σc) (sv : Server.State σs) (sr : σs) :
    ∃ w : Scalar, W = w • R.base ∧
      let x := (serverX rngS kdb user sr).1
      let ya := draw (rngS.fill (serverX rngS kdb user sr).2 64).1
      let yb := draw (rngC.fill c' 64).1
      let ssid := ssidOf D rngC rngS start c sv
      let g := gen R D ssid (R.compress ((w * x) • R.base)) ci
      let k := sk D ssid (Spec.sk1 R D ssid ((ya * yb) • g))
      k.length = 64 ∧
      Run.login R D Hs rngC rngS (Run.explicit R D rngC rngS) fromPs buf db kdb start user pass ci
          c sv sr c' =
        if x = 0 ∨ ya • g = 0 ∨ yb • g = 0 then .err .illegalPointError else .ok (k, k) := by
  rw [register_eq] at hreg
  split at hreg
  · obtain ⟨w, hw, hreg⟩ := Res.bind_eq_ok.1 hreg
    obtain ⟨ps', _, hreg⟩ := Res.bind_eq_ok.1 hreg
    simp only [Res.ok.injEq, Prod.mk.injEq, ClientMessage.registration.injEq] at hreg
    obtain ⟨⟨-, rfl, rfl, rfl⟩, -⟩ := hreg
    refine ⟨w, rfl, ?_⟩
    refine ⟨by simp [h64], ?_⟩
    simp only [Run.login, ssidStage_ok D rngC rngS start c sv hstart, Res.bind_ok,
      augment_registered R D Hs rngS fromPs buf db kdb _ _ user pass sr _ _ _ hdb hk hbuf, hps, hw]
    by_cases hx : (serverX rngS kdb user sr).1 = 0
    · simp only [hx, if_true, Res.bind_err, true_or]
    · simp only [if_neg hx, Res.bind_ok, smul_smul, mul_comm _ w]
      rw [explicit_same R D rngC rngS h64]
      simp only [hx, false_or]
  · simp at hreg

/-- **C32, read off.** Whenever the honest run succeeds both keys are equal and 64 bytes long, and the
only other outcome is `IllegalPointError`. -/
theorem C32_same_key (h64 : D.outLen = 64)
    (bufR buf : Buf) (s s' : σr) (user pass salt ps : Bytes) (params : Params) (W : G)
    (hreg : Run.register R Hs rngR bufR s user pass params =
      .ok (.registration user salt ps W, s'))
    (db : Database G) (hdb : db.lookupVerifier user = some (W, salt, ps))
    (kdb : Option (PartialAugDatabase G))
    (hk : ∀ k, kdb = some k → ∃ x, k.lookupLongTermKeypair user = some (x, x • R.base))
    (fromPs : Bytes → Params) (hps : fromPs ps = params) (hbuf : buf.fits user pass)
    (start : Start) (hstart : startOk start) (ci : Bytes)
    (c c' : σc) (sv : Server.State σs) (sr : σs) :
    (∃ k : Bytes, k.length = 64 ∧
      Run.login R D Hs rngC rngS (Run.explicit R D rngC rngS) fromPs buf db kdb start user pass ci
          c sv sr c' = .ok (k, k)) ∨
    Run.login R D Hs rngC rngS (Run.explicit R D rngC rngS) fromPs buf db kdb start user pass ci
          c sv sr c' = .err .illegalPointError := by
  obtain ⟨w, -, hl, h⟩ := C32_agreement R D Hs rngC rngS rngR h64 bufR buf s s' user pass salt ps
    params W hreg db hdb kdb hk fromPs hps hbuf start hstart ci c c' sv sr
  rw [h]
  split
  · exact Or.inr rfl
  · exact Or.inl ⟨_, hl, rfl⟩

/-- The hypotheses of C32 can be met and the run ends with a key, in all four combinations. -/
example : (World.login none (.nonces 16) World.pass).isOk = true ∧
    (World.login (some World.kdb) (.nonces 16) World.pass).isOk = true ∧
    (World.login none (.prestablished (World.bytes 9 16)) World.pass).isOk = true ∧
    (World.login (some World.kdb) (.prestablished (World.bytes 9 16)) World.pass).isOk = true := by
  decide +kernel

/-- A wrong password fails in the same world. -/
example : World.login none (.nonces 16) (ascii "Secret") = .err .mutualAuthFail := by
  decide +kernel

/-! ## C33: strong variants -/

theorem augmentStrong_registered (fromPs : Bytes → Params) (buf : Buf) (db : StrongDatabase G)
    (kdb : Option (PartialAugDatabase G)) (cli : Client.PreAug) (srv : Server.AugLayer)
    (user pass : Bytes) (r : Scalar) (hr : r ≠ 0) (sr : σs) (W : G) (q : Scalar) (ps : Bytes)
    (hdb : db.lookupVerifierStrong user = some (W, q, ps))
    (hk : ∀ k, kdb = some k → ∃ x, k.lookupLongTermKeypair user = some (x, x • R.base))
    (hbuf : buf.fits user pass) :
    Run.augmentStrong R D Hs rngS fromPs buf db kdb cli srv user pass r sr =
      let x := (serverX rngS kdb user sr).1
      let Q := q • strongPoint R D user pass
      if Q = 0 ∨ x = 0 then .err .illegalPointError
      else pwScalar Hs user pass (Base64.encode (R.compress Q)) (fromPs ps) >>= fun w =>
        .ok (⟨cli.ssid, R.compress ((w * x) • R.base)⟩,
          ⟨srv.ssid, R.compress (x • W), (serverX rngS kdb user sr).2⟩) := by
  have hun : r⁻¹ • q • r • strongPoint R D user pass = q • strongPoint R D user pass := by
    rw [smul_smul, smul_smul]
    congr 1
    field_simp
  simp only [Run.augmentStrong, Client.startAugmentationStrongWith, strongPoint_eq, mul_one]
  rw [server_info_strong_eq R D rngS db kdb srv user _ sr W q ps hdb hk]
  by_cases hQ : q • strongPoint R D user pass = 0
  · have : q • r • strongPoint R D user pass = 0 := by
      rw [smul_comm, hQ, smul_zero]
    rw [if_pos this]
    simp only [Res.bind_err, if_pos (Or.inl hQ : q • strongPoint R D user pass = 0 ∨ _)]
  · have : q • r • strongPoint R D user pass ≠ 0 := by
      rw [smul_comm]
      intro h
      rcases smul_eq_zero.1 h with h | h
      · exact hr h
      · exact hQ h
    rw [if_neg this]
    have hun' : r⁻¹ • q • r • strongPoint R D user pass ≠ 0 := by rw [hun]; exact hQ
    simp only [Res.bind_ok]
    rw [clientCpaceStrong_eq R Hs buf ⟨cli.ssid, user, pass, r⟩ _ _ _ hun']
    simp only [hun, if_pos hbuf]
    by_cases hx : (serverX rngS kdb user sr).1 = 0
    · simp only [hx, zero_smul, if_true, Res.bind_err, or_true]
    · have hX : (serverX rngS kdb user sr).1 • R.base ≠ 0 := fun h => hx (smul_base_eq_zero.1 h)
      simp only [if_neg hX, if_neg (not_or.2 ⟨hQ, hx⟩), bind_assoc', Res.bind_ok, prs, smul_smul]

/-- **C33.** The same as C32 for StrongAuCPace (`kdb = none`) and StrongAuCPace with partial augmentation.
The client's blinding value `r` (non-zero, see C56) does not occur in the outcome: the blinding cancels.
The run is degenerate when `x`, `ya` or `yb` is zero, the generator is neutral, or the secret exponent or
the point of the credentials is neutral (`q z = 0`). -/
theorem C33_agreement (h64 : D.outLen = 64)
    (bufR buf : Buf) (s s' : σr) (user pass ps : Bytes) (params : Params) (W : G) (q : Scalar)
    (hreg : Run.registerStrong R D Hs rngR bufR s user pass params =
      .ok (.strongRegistration user q ps W, s'))
    (db : StrongDatabase G) (hdb : db.lookupVerifierStrong user = some (W, q, ps))
    (kdb : Option (PartialAugDatabase G))
    (hk : ∀ k, kdb = some k → ∃ x, k.lookupLongTermKeypair user = some (x, x • R.base))
    (fromPs : Bytes → Params) (hps : fromPs ps = params) (hbuf : buf.fits user pass)
    (start : Start) (hstart : startOk start) (ci : Bytes) (r : Scalar) (hr : r ≠ 0)
    (c c' : σc) (sv : Server.State σs) (sr : σs) :
    ∃ w : Scalar, W = w • R.base ∧
      let x := (serverX rngS kdb user sr).1
      let ya := draw (rngS.fill (serverX rngS kdb user sr).2 64).1
      let yb := draw (rngC.fill c' 64).1
      let ssid := ssidOf D rngC rngS start c sv
      let g := gen R D ssid (R.compress ((w * x) • R.base)) ci
      let k := sk D ssid (Spec.sk1 R D ssid ((ya * yb) • g))
      k.length = 64 ∧
      Run.loginStrong R D Hs rngC rngS (Run.explicit R D rngC rngS) fromPs buf db kdb start user
          pass ci r c sv sr c' =
        if q • strongPoint R D user pass = 0 ∨ x = 0 ∨ ya • g = 0 ∨ yb • g = 0 then
          .err .illegalPointError
        else .ok (k, k) := by
  rw [registerStrong_eq] at hreg
  split at hreg
  · obtain ⟨w, hw, hreg⟩ := Res.bind_eq_ok.1 hreg
    obtain ⟨ps', _, hreg⟩ := Res.bind_eq_ok.1 hreg
    simp only [Res.ok.injEq, Prod.mk.injEq, ClientMessage.strongRegistration.injEq] at hreg
    obtain ⟨⟨-, rfl, rfl, rfl⟩, -⟩ := hreg
    refine ⟨w, rfl, ?_⟩
    refine ⟨by simp [h64], ?_⟩
    simp only [Run.loginStrong, ssidStage_ok D rngC rngS start c sv hstart, Res.bind_ok,
      augmentStrong_registered R D Hs rngS fromPs buf db kdb _ _ user pass r hr sr _ _ _ hdb hk hbuf,
      hps, hw]
    by_cases hQ : draw (rngR.fill s 64).1 • strongPoint R D user pass = 0
    · simp only [hQ, true_or, if_true, Res.bind_err]
    · by_cases hx : (serverX rngS kdb user sr).1 = 0
      · simp only [hx, if_true, Res.bind_err, true_or, or_true]
      · simp only [if_neg (not_or.2 ⟨hQ, hx⟩), Res.bind_ok, smul_smul, mul_comm _ w]
        rw [explicit_same R D rngC rngS h64]
        simp only [hx, hQ, false_or]
  · simp at hreg

/-- **C33, read off.** -/
theorem C33_same_key (h64 : D.outLen = 64)
    (bufR buf : Buf) (s s' : σr) (user pass ps : Bytes) (params : Params) (W : G) (q : Scalar)
    (hreg : Run.registerStrong R D Hs rngR bufR s user pass params =
      .ok (.strongRegistration user q ps W, s'))
    (db : StrongDatabase G) (hdb : db.lookupVerifierStrong user = some (W, q, ps))
    (kdb : Option (PartialAugDatabase G))
    (hk : ∀ k, kdb = some k → ∃ x, k.lookupLongTermKeypair user = some (x, x • R.base))
    (fromPs : Bytes → Params) (hps : fromPs ps = params) (hbuf : buf.fits user pass)
    (start : Start) (hstart : startOk start) (ci : Bytes) (r : Scalar) (hr : r ≠ 0)
    (c c' : σc) (sv : Server.State σs) (sr : σs) :
    (∃ k : Bytes, k.length = 64 ∧
      Run.loginStrong R D Hs rngC rngS (Run.explicit R D rngC rngS) fromPs buf db kdb start user
          pass ci r c sv sr c' = .ok (k, k)) ∨
    Run.loginStrong R D Hs rngC rngS (Run.explicit R D rngC rngS) fromPs buf db kdb start user
          pass ci r c sv sr c' = .err .illegalPointError := by
  obtain ⟨w, -, hl, h⟩ := C33_agreement R D Hs rngC rngS rngR h64 bufR buf s s' user pass ps
    params W q hreg db hdb kdb hk fromPs hps hbuf start hstart ci r hr c c' sv sr
  rw [h]
  split
  · exact Or.inr rfl
  · exact Or.inl ⟨_, hl, rfl⟩

/-- The strong run succeeds in the concrete world, with and without partial augmentation, and the wrong
password fails. -/
example : (World.loginStrong none (.nonces 16) World.pass).isOk = true ∧
    (World.loginStrong (some World.kdb) (.prestablished (World.bytes 9 16)) World.pass).isOk = true ∧
    World.loginStrong none (.nonces 16) (ascii "Secret") = .err .mutualAuthFail := by
  decide +kernel

/-! ## C34: implicit authentication -/

/-- **C34 (client).** `implicit_auth` succeeds exactly when `receive_server_pubkey` does, fails with the same
error, and its key is the one that explicit authentication returns whenever it returns a key; and
there is an authenticator with which it does. -/
theorem C34_client (h64 : D.outLen = 64) (self : Client.RecvServerKey) (Y : G) :
    (∀ e, Client.implicitAuth R D self Y = .err e ↔ Client.receiveServerPubkey R D self Y = .err e) ∧
    (∀ k, Client.implicitAuth R D self Y = .ok k ↔
      ∃ st m t, Client.receiveServerPubkey R D self Y = .ok (st, m) ∧
        Client.receiveServerAuthenticator D st t = .ok k) := by
  rw [client_implicitAuth_eq, receiveServerPubkey_eq R D h64]
  by_cases hY : Y = 0
  · simp [hY]
  · simp only [if_neg hY]
    refine ⟨by simp, fun k => ⟨fun h => ?_, ?_⟩⟩
    · refine ⟨_, _, ta D self.ssid (Spec.sk1 R D self.ssid (self.privKey • Y)), rfl, ?_⟩
      rw [receiveServerAuthenticator_eq]; simpa using h
    · rintro ⟨st, m, t, h, hk⟩
      simp only [Res.ok.injEq, Prod.mk.injEq] at h
      obtain ⟨rfl, rfl⟩ := h
      rw [receiveServerAuthenticator_eq] at hk
      split at hk
      · exact hk
      · simp at hk

/-- **C34 (server).** -/
theorem C34_server (h64 : D.outLen = 64) (self : Server.RecvClientKey) (Y : G) :
    (∀ e, Server.implicitAuth R D self Y = .err e ↔ Server.receiveClientPubkey R D self Y = .err e) ∧
    (∀ k, Server.implicitAuth R D self Y = .ok k ↔
      ∃ st m t, Server.receiveClientPubkey R D self Y = .ok st ∧
        (Server.receiveClientAuthenticator D st t : Res Error (Bytes × ServerMessage G)) =
          .ok (k, m)) := by
  rw [server_implicitAuth_eq, receiveClientPubkey_eq R D]
  by_cases hY : Y = 0
  · simp [hY]
  · simp only [if_neg hY]
    refine ⟨by simp, fun k => ⟨fun h => ?_, ?_⟩⟩
    · refine ⟨_, .authenticator (ta D self.ssid (Spec.sk1 R D self.ssid (self.privKey • Y))),
        tb D self.ssid (Spec.sk1 R D self.ssid (self.privKey • Y)), rfl, ?_⟩
      rw [receiveClientAuthenticator_eq D h64]
      simp only [Res.ok.injEq] at h
      subst h
      simp
    · rintro ⟨st, m, t, h, hk⟩
      simp only [Res.ok.injEq] at h
      subst h
      rw [receiveClientAuthenticator_eq D h64] at hk
      split at hk
      · simp only [Res.ok.injEq, Prod.mk.injEq] at hk
        simp [hk.1]
      · simp at hk

/-- **C34 (runs).** Honest peers with the same SSID, password-related string and channel identifier: the
implicit run has exactly the outcome of the explicit run, in particular the same key on both sides. -/
theorem C34_runs (h64 : D.outLen = 64) (ssid prs ci : Bytes) (s : σs) (c : σc) :
    Run.implicit R D rngC rngS ⟨ssid, prs⟩ ⟨ssid, prs, s⟩ ci ci c =
      Run.explicit R D rngC rngS ⟨ssid, prs⟩ ⟨ssid, prs, s⟩ ci ci c ∧
    (∀ kc ks, Run.implicit R D rngC rngS ⟨ssid, prs⟩ ⟨ssid, prs, s⟩ ci ci c = .ok (kc, ks) →
      kc = ks ∧ kc.length = 64) := by
  rw [explicit_same R D rngC rngS h64, implicit_same]
  refine ⟨rfl, fun kc ks h => ?_⟩
  simp only at h
  split at h
  · simp at h
  · simp only [Res.ok.injEq, Prod.mk.injEq] at h
    rw [← h.1, ← h.2]
    simp [h64]

/-- The implicit run succeeds in a concrete case. -/
example : (Run.implicit Ristretto.toy sha512 Rng.replay Rng.replay ⟨World.bytes 1 64, World.bytes 2 32⟩
    ⟨World.bytes 1 64, World.bytes 2 32, World.bytes 3 64⟩ [] [] (World.bytes 4 64)).isOk = true := by
  decide +kernel

end
end Verif.Aucpace
