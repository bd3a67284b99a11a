import Verif.Aucpace.Uniform
import Verif.Aucpace.PropsAgree

/-!
# C73: what an eavesdropper sees

Everything that crosses the wire in a login with implicit authentication, and how little of it depends on the password.
-/

set_option linter.unusedSectionVars false

namespace Verif.Aucpace
open Spec Run

section
variable {G : Type} [AddCommGroup G] [Module Scalar G] [DecidableEq G] (R : Ristretto G) (D : Digest)
  {Params : Type} (Hs : PwHasher Params) {σc σs : Type} (rngC : Rng σc) (rngS : Rng σs)

/-- The messages on the wire, in the order in which they are sent. -/
abbrev Wire (G : Type) := List (ClientMessage G ⊕ ServerMessage G)

/-- The nonce messages, if any: `AuCPaceClient::begin`, aucpace/src/client.rs:69-74, and `AuCPaceServer::begin`,
aucpace/src/server.rs:79-88. -/
def nonceWire (start : Start) (c : σc) (sv : Server.State σs) : Wire G :=
  match start with
  | .nonces k1 => [.inl (Client.begin rngC k1 c).1.2, .inr (Server.begin rngS k1 sv).1.2]
  | .prestablished _ => []

/-- The messages of a login (`kdb = none`: plain, else partially augmented) in which the two sides end with
`implicit_auth` and so send nothing after their public keys; the calls are those of `Run.login` with `Run.implicit`,
aucpace/tests/test_key_agreement.rs:54-101. -/
def transcript (fromPs : Bytes → Params) (buf : Buf) (db : Database G) (kdb : Option (PartialAugDatabase G))
    (start : Start) (user pass ci : Bytes) (c : σc) (sv : Server.State σs) (sr : σs) (c' : σc) :
    Res Error (Wire G) := do
  let (cli, srv) ← ssidStage (G := G) D rngC rngS start c sv
  let (cli, mu) := Client.startAugmentation (G := G) cli user pass
  match mu with
  | .username u => do
    let (srv, mi) ← serverInfo R D rngS db kdb srv u sr
    match mi with
    | .augmentationInfo _ xPub salt ps => do
      let cli ← clientCpace R Hs buf cli xPub salt (fromPs ps)
      let ((_, mc), _) := Client.generatePublicKey R D rngC cli ci c'
      let (_, ms) := Server.generatePublicKey R D rngS srv ci
      .ok (nonceWire rngC rngS start c sv ++ [.inl mu, .inr mi, .inl mc, .inr ms])
    | _ => .panic
  | _ => .panic

/-- The messages of a login of the strong variants; `c1` is the generator from which the client draws the blinding
value, in at most `fuel` attempts (`none` if they do not suffice). -/
def transcriptStrong (fuel : Nat) (fromPs : Bytes → Params) (buf : Buf) (db : StrongDatabase G)
    (kdb : Option (PartialAugDatabase G)) (start : Start) (user pass ci : Bytes) (c : σc) (sv : Server.State σs)
    (c1 : σc) (sr : σs) (c' : σc) : Option (Res Error (Wire G)) :=
  match ssidStage (G := G) D rngC rngS start c sv with
  | .ok (cli, srv) => do
    let ((cli, mu), _) ← Client.startAugmentationStrong R D rngC fuel cli user pass c1
    match mu with
    | .strongUsername u blinded => some do
      let (srv, mi) ← serverInfoStrong R D rngS db kdb srv u blinded sr
      match mi with
      | .strongAugmentationInfo _ xPub blindedSalt ps => do
        let cli ← clientCpaceStrong R Hs buf cli xPub blindedSalt (fromPs ps)
        let ((_, mc), _) := Client.generatePublicKey R D rngC cli ci c'
        let (_, ms) := Server.generatePublicKey R D rngS srv ci
        .ok (nonceWire rngC rngS start c sv ++ [.inl mu, .inr mi, .inl mc, .inr ms])
      | _ => .panic
    | _ => some .panic
  | .err e => some (.err e)
  | .panic => some .panic

/-- The generators of the two sides: the client derives its own from the password, the server from the verifier. -/
def clientGen (ssid : Bytes) (w x : Scalar) (ci : Bytes) : G := gen R D ssid (R.compress ((w * x) • R.base)) ci
def serverGen (ssid : Bytes) (x : Scalar) (W : G) (ci : Bytes) : G := gen R D ssid (R.compress (x • W)) ci

theorem transcript_eq (fromPs : Bytes → Params) (buf : Buf) (db : Database G) (kdb : Option (PartialAugDatabase G))
    (start : Start) (hstart : startOk start) (user pass ci : Bytes) (c : σc) (sv : Server.State σs) (sr : σs) (c' : σc)
    {W : G} {salt ps : Bytes} (hdb : db.lookupVerifier user = some (W, salt, ps))
    (hk : ∀ k, kdb = some k → ∃ x, k.lookupLongTermKeypair user = some (x, x • R.base))
    (hbuf : buf.fits user pass) {w : Scalar} (hw : pwScalar Hs user pass salt (fromPs ps) = .ok w)
    {x : Scalar} {s : σs} (hs : serverX rngS kdb user sr = (x, s)) (hx : x ≠ 0) :
    transcript R D Hs rngC rngS fromPs buf db kdb start user pass ci c sv sr c' =
      .ok (nonceWire rngC rngS start c sv ++ [.inl (.username user),
        .inr (.augmentationInfo groupName (x • R.base) salt ps),
        .inl (.publicKey (draw (rngC.fill c' 64).1 • clientGen R D (ssidOf D rngC rngS start c sv) w x ci)),
        .inr (.publicKey (draw (rngS.fill s 64).1 • serverGen R D (ssidOf D rngC rngS start c sv) x W ci))]) := by
  have hX : x • R.base ≠ 0 := fun h => hx (smul_base_eq_zero.1 h)
  simp only [transcript, ssidStage_ok D rngC rngS start c sv hstart, Res.bind_ok, Client.startAugmentation,
    server_info_eq R D rngS db kdb _ user sr W salt ps hdb hk, hs, clientCpace_eq, if_neg hX, if_pos hbuf, hw,
    client_generatePublicKey_eq, server_generatePublicKey_eq, clientGen, serverGen, prs, smul_smul]

/-- The draw of a blinding value that succeeds at once. -/
theorem transcriptStrong_eq (fromPs : Bytes → Params) (buf : Buf) (db : StrongDatabase G)
    (kdb : Option (PartialAugDatabase G)) (start : Start) (hstart : startOk start) (user pass ci : Bytes) (c : σc)
    (sv : Server.State σs) (c1 : σc) (sr : σs) (c' : σc)
    {W : G} {q : Scalar} {ps : Bytes} (hdb : db.lookupVerifierStrong user = some (W, q, ps)) (hq : q ≠ 0)
    (hk : ∀ k, kdb = some k → ∃ x, k.lookupLongTermKeypair user = some (x, x • R.base))
    (hbuf : buf.fits user pass) (hz : strongPoint R D user pass ≠ 0) {w : Scalar}
    (hw : pwScalar Hs user pass (Base64.encode (R.compress (q • strongPoint R D user pass))) (fromPs ps) = .ok w)
    {x : Scalar} {s : σs} (hs : serverX rngS kdb user sr = (x, s)) (hx : x ≠ 0) :
    transcriptStrong R D Hs rngC rngS 1 fromPs buf db kdb start user pass ci c sv c1 sr c' =
      if draw (rngC.fill c1 64).1 = 0 then none else
      some (.ok (nonceWire rngC rngS start c sv ++
        [.inl (.strongUsername user (draw (rngC.fill c1 64).1 • strongPoint R D user pass)),
        .inr (.strongAugmentationInfo groupName (x • R.base)
          (q • draw (rngC.fill c1 64).1 • strongPoint R D user pass) ps),
        .inl (.publicKey (draw (rngC.fill c' 64).1 • clientGen R D (ssidOf D rngC rngS start c sv) w x ci)),
        .inr (.publicKey (draw (rngS.fill s 64).1 • serverGen R D (ssidOf D rngC rngS start c sv) x W ci))])) := by
  have hX : x • R.base ≠ 0 := fun h => hx (smul_base_eq_zero.1 h)
  have hd : Client.drawBlinding rngC 1 c1 =
      if draw (rngC.fill c1 64).1 ≠ 0 then some (draw (rngC.fill c1 64).1, (rngC.fill c1 64).2) else none := by
    simp only [Client.drawBlinding, randomScalar, scalarOfBytes, draw]
    rfl
  simp only [transcriptStrong, ssidStage_ok D rngC rngS start c sv hstart, Client.startAugmentationStrong, hd]
  generalize draw (rngC.fill c1 64).1 = r
  by_cases hr : r = 0
  · simp [hr]
  have hun : r⁻¹ • q • r • strongPoint R D user pass = q • strongPoint R D user pass := by
    rw [smul_smul, smul_smul]
    congr 1
    field_simp
  have hQ : q • r • strongPoint R D user pass ≠ 0 := by
    rw [smul_ne_zero_iff, smul_ne_zero_iff]
    exact ⟨hq, hr, hz⟩
  have hun' : r⁻¹ • q • r • strongPoint R D user pass ≠ 0 := by
    rw [hun, smul_ne_zero_iff]
    exact ⟨hq, hz⟩
  simp only [ne_eq, hr, not_false_eq_true, if_true, if_false, Option.bind_eq_bind, Option.bind_some,
    Client.startAugmentationStrongWith, strongPoint_eq, mul_one]
  rw [server_info_strong_eq R D rngS db kdb _ user _ sr W q ps hdb hk, if_neg hQ]
  simp only [Res.bind_ok, hs]
  rw [clientCpaceStrong_eq R Hs buf ⟨_, user, pass, r⟩ _ _ _ hun']
  rw [hun]
  simp only [if_neg hX, if_pos hbuf, hw, Res.bind_ok, client_generatePublicKey_eq, server_generatePublicKey_eq,
    clientGen, serverGen, prs, smul_smul]

/-- Counting the tuples of scalars that points which are not neutral send into a set. -/
theorem smul_card_pi (R : Ristretto G) {n : Nat} {P Q : Fin n → G} (hP : ∀ i, P i ≠ 0) (hQ : ∀ i, Q i ≠ 0)
    (T : (Fin n → G) → Prop) :
    {x : Fin n → Scalar | T fun i => x i • P i}.ncard = {x : Fin n → Scalar | T fun i => x i • Q i}.ncard := by
  choose k hk using fun i => R.base_generates (P i)
  choose m hm using fun i => R.base_generates (Q i)
  have h0 : ∀ i, k i ≠ 0 := fun i h => hP i (by rw [hk, h, zero_smul])
  have h0' : ∀ i, m i ≠ 0 := fun i h => hQ i (by rw [hm, h, zero_smul])
  refine Set.ncard_congr (fun x _ i => x i * k i * (m i)⁻¹) ?_ ?_ ?_
  · intro x hx
    simp only [Set.mem_ofPred_eq] at hx ⊢
    have : (fun i => (x i * k i * (m i)⁻¹) • Q i) = fun i => x i • P i := by
      funext i
      rw [hm, smul_smul, inv_mul_cancel_right₀ (h0' i), ← smul_smul, ← hk]
    rwa [this]
  · intro x y _ _ h
    funext i
    exact mul_right_cancel₀ (h0 i) (mul_right_cancel₀ (inv_ne_zero (h0' i)) (congrFun h i))
  · intro y hy
    refine ⟨fun i => y i * m i * (k i)⁻¹, ?_, ?_⟩
    · simp only [Set.mem_ofPred_eq] at hy ⊢
      have : (fun i => (y i * m i * (k i)⁻¹) • P i) = fun i => y i • Q i := by
        funext i
        rw [hk, smul_smul, inv_mul_cancel_right₀ (h0 i), ← smul_smul, ← hm]
      rwa [this]
    · funext i
      rw [inv_mul_cancel_right₀ (h0 i), mul_inv_cancel_right₀ (h0' i)]

/-- Counting tuples of generator outputs. -/
theorem outputs_close_pi {n : Nat} {T T' : (Fin n → Scalar) → Prop} (h : {x | T x}.ncard = {x | T' x}.ncard) :
    {b : Fin n → Bytes | (∀ i, (b i).length = 64) ∧ T fun i => draw (b i)}.ncard ≤
      {b : Fin n → Bytes | (∀ i, (b i).length = 64) ∧ T' fun i => draw (b i)}.ncard +
        ((2 ^ 512 / ell + 1) ^ n - (2 ^ 512 / ell) ^ n) * ell ^ n := by
  have hp : (256 : ℕ) ^ 64 = 2 ^ 512 := by decide +kernel
  rw [← hp]
  exact ncard_close_pi n 64 ell h

theorem bias_two : ((2 ^ 512 / ell + 1) ^ 2 - (2 ^ 512 / ell) ^ 2) * ell ^ 2 ≤ 3 * 2 ^ 512 * ell := by decide +kernel

theorem bias_three : ((2 ^ 512 / ell + 1) ^ 3 - (2 ^ 512 / ell) ^ 3) * ell ^ 3 ≤ 4 * 2 ^ 1024 * ell := by decide +kernel

/-- What the server has drawn before its CPace key: the 64 bytes of `x`, or nothing if `x` is a long-term key. -/
def preLen (kdb : Option (PartialAugDatabase G)) : Nat := if kdb.isNone then 64 else 0

theorem serverX_replay (kdb : Option (PartialAugDatabase G)) (user : Bytes) {pre : Bytes}
    (h : pre.length = preLen kdb) (b : Bytes) :
    serverX Rng.replay kdb user (pre ++ b) = ((serverX Rng.replay kdb user pre).1, b) := by
  cases kdb with
  | none =>
    have h64 : pre.length = 64 := h
    have h1 : (Rng.replay.fill (pre ++ b) 64).1 = pre := by
      show ((pre ++ b) ++ List.replicate 64 0).take 64 = pre
      rw [List.append_assoc, ← h64, List.take_left]
    have h2 : (Rng.replay.fill (pre ++ b) 64).2 = b := by
      show (pre ++ b).drop 64 = b
      rw [← h64, List.drop_left]
    simp only [serverX, h1, h2, replay_fill h64]
  | some k =>
    have h0 : pre = [] := List.length_eq_zero_iff.1 h
    rw [h0, List.nil_append]
    rfl

/-- **C73 (eavesdropper).** Two worlds that differ in the password typed by the client and in the verifier stored by the
server, each password right or wrong: with the same public salt and parameters and the same earlier randomness (nonces,
`x`), and as long as no generator is neutral, for every set `T` of transcripts the numbers of pairs of 64-byte outputs
(server, client) for which the messages of the whole login fall into `T` differ by at most `3 * 2^512 * ell`, out of
`2^1024`. -/
theorem C73_passive (fromPs : Bytes → Params) (buf : Buf) (db db' : Database G) (kdb : Option (PartialAugDatabase G))
    (start : Start) (hstart : startOk start) (user pass pass' ci : Bytes) (c : Bytes) (sv : Server.State Bytes)
    (pre : Bytes) (hpre : pre.length = preLen kdb) {W W' : G} {salt ps : Bytes}
    (hdb : db.lookupVerifier user = some (W, salt, ps)) (hdb' : db'.lookupVerifier user = some (W', salt, ps))
    (hk : ∀ k, kdb = some k → ∃ x, k.lookupLongTermKeypair user = some (x, x • R.base))
    (hbuf : buf.fits user pass) (hbuf' : buf.fits user pass') {w w' : Scalar}
    (hw : pwScalar Hs user pass salt (fromPs ps) = .ok w) (hw' : pwScalar Hs user pass' salt (fromPs ps) = .ok w')
    {x : Scalar} (hxe : (serverX Rng.replay kdb user pre).1 = x) (hx : x ≠ 0) {ssid : Bytes}
    (hssid : ssidOf D Rng.replay Rng.replay start c sv = ssid)
    (hgC : clientGen R D ssid w x ci ≠ 0) (hgS : serverGen R D ssid x W ci ≠ 0)
    (hgC' : clientGen R D ssid w' x ci ≠ 0) (hgS' : serverGen R D ssid x W' ci ≠ 0)
    (T : Set (Res Error (Wire G))) :
    {b : Fin 2 → Bytes | (∀ i, (b i).length = 64) ∧ transcript R D Hs Rng.replay Rng.replay fromPs buf db kdb start
        user pass ci c sv (pre ++ b 0) (b 1) ∈ T}.ncard ≤
      {b : Fin 2 → Bytes | (∀ i, (b i).length = 64) ∧ transcript R D Hs Rng.replay Rng.replay fromPs buf db' kdb start
        user pass' ci c sv (pre ++ b 0) (b 1) ∈ T}.ncard + 3 * 2 ^ 512 * ell := by
  have he : ∀ (db : Database G) (pass : Bytes) (W : G) (w : Scalar),
      db.lookupVerifier user = some (W, salt, ps) → buf.fits user pass →
      pwScalar Hs user pass salt (fromPs ps) = .ok w →
      {b : Fin 2 → Bytes | (∀ i, (b i).length = 64) ∧ transcript R D Hs Rng.replay Rng.replay fromPs buf db kdb start
        user pass ci c sv (pre ++ b 0) (b 1) ∈ T} =
      {b : Fin 2 → Bytes | (∀ i, (b i).length = 64) ∧ (fun y : Fin 2 → Scalar => (fun P : Fin 2 → G =>
        Res.ok (nonceWire Rng.replay Rng.replay start c sv ++ [.inl (.username user),
          .inr (.augmentationInfo groupName (x • R.base) salt ps), .inl (.publicKey (P 1)), .inr (.publicKey (P 0))]) ∈ T)
        (fun i => y i • ![serverGen R D ssid x W ci, clientGen R D ssid w x ci] i)) fun i => draw (b i)} := by
    intro db pass W w hdb hbuf hw
    ext b
    simp only [Set.mem_ofPred_eq]
    refine and_congr_right fun h => ?_
    rw [transcript_eq R D Hs Rng.replay Rng.replay fromPs buf db kdb start hstart user pass ci c sv _ _ hdb hk hbuf hw
      (by rw [serverX_replay kdb user hpre, hxe]) hx, hssid, replay_fill (h 0), replay_fill (h 1)]
    rfl
  rw [he db pass W w hdb hbuf hw, he db' pass' W' w' hdb' hbuf' hw']
  refine (outputs_close_pi (smul_card_pi R ?_ ?_ _)).trans (Nat.add_le_add_left bias_two _)
  · intro i; fin_cases i
    · exact hgS
    · exact hgC
  · intro i; fin_cases i
    · exact hgS'
    · exact hgC'

/-- **C73 (eavesdropper, strong variants).** The same with the blinded point and the blinded salt on the wire, for
triples of outputs (blinding value, server, client) of which the first gives a blinding value at once: the numbers
differ by at most `4 * 2^1024 * ell`, out of `2^1536`. The secret exponent is the same in both worlds; it is drawn
independently of the password. -/
theorem C73_passive_strong (fromPs : Bytes → Params) (buf : Buf) (db db' : StrongDatabase G)
    (kdb : Option (PartialAugDatabase G)) (start : Start) (hstart : startOk start) (user pass pass' ci : Bytes)
    (c : Bytes) (sv : Server.State Bytes) (pre : Bytes) (hpre : pre.length = preLen kdb) {W W' : G} {q : Scalar}
    {ps : Bytes} (hdb : db.lookupVerifierStrong user = some (W, q, ps))
    (hdb' : db'.lookupVerifierStrong user = some (W', q, ps)) (hq : q ≠ 0)
    (hk : ∀ k, kdb = some k → ∃ x, k.lookupLongTermKeypair user = some (x, x • R.base))
    (hbuf : buf.fits user pass) (hbuf' : buf.fits user pass')
    (hz : strongPoint R D user pass ≠ 0) (hz' : strongPoint R D user pass' ≠ 0) {w w' : Scalar}
    (hw : pwScalar Hs user pass (Base64.encode (R.compress (q • strongPoint R D user pass))) (fromPs ps) = .ok w)
    (hw' : pwScalar Hs user pass' (Base64.encode (R.compress (q • strongPoint R D user pass'))) (fromPs ps) = .ok w')
    {x : Scalar} (hxe : (serverX Rng.replay kdb user pre).1 = x) (hx : x ≠ 0) {ssid : Bytes}
    (hssid : ssidOf D Rng.replay Rng.replay start c sv = ssid)
    (hgC : clientGen R D ssid w x ci ≠ 0) (hgS : serverGen R D ssid x W ci ≠ 0)
    (hgC' : clientGen R D ssid w' x ci ≠ 0) (hgS' : serverGen R D ssid x W' ci ≠ 0)
    (T : Set (Res Error (Wire G))) :
    {b : Fin 3 → Bytes | (∀ i, (b i).length = 64) ∧ ∃ t ∈ T, transcriptStrong R D Hs Rng.replay Rng.replay 1 fromPs buf
        db kdb start user pass ci c sv (b 0) (pre ++ b 1) (b 2) = some t}.ncard ≤
      {b : Fin 3 → Bytes | (∀ i, (b i).length = 64) ∧ ∃ t ∈ T, transcriptStrong R D Hs Rng.replay Rng.replay 1 fromPs buf
        db' kdb start user pass' ci c sv (b 0) (pre ++ b 1) (b 2) = some t}.ncard + 4 * 2 ^ 1024 * ell := by
  have he : ∀ (db : StrongDatabase G) (pass : Bytes) (W : G) (w : Scalar),
      db.lookupVerifierStrong user = some (W, q, ps) → buf.fits user pass → strongPoint R D user pass ≠ 0 →
      pwScalar Hs user pass (Base64.encode (R.compress (q • strongPoint R D user pass))) (fromPs ps) = .ok w →
      {b : Fin 3 → Bytes | (∀ i, (b i).length = 64) ∧ ∃ t ∈ T, transcriptStrong R D Hs Rng.replay Rng.replay 1 fromPs buf
        db kdb start user pass ci c sv (b 0) (pre ++ b 1) (b 2) = some t} =
      {b : Fin 3 → Bytes | (∀ i, (b i).length = 64) ∧ (fun y : Fin 3 → Scalar => (fun P : Fin 3 → G => P 0 ≠ 0 ∧
        Res.ok (nonceWire Rng.replay Rng.replay start c sv ++ [.inl (.strongUsername user (P 0)),
          .inr (.strongAugmentationInfo groupName (x • R.base) (q • P 0) ps), .inl (.publicKey (P 2)),
          .inr (.publicKey (P 1))]) ∈ T)
        (fun i => y i • ![strongPoint R D user pass, serverGen R D ssid x W ci, clientGen R D ssid w x ci] i))
          fun i => draw (b i)} := by
    intro db pass W w hdb hbuf hz hw
    ext b
    simp only [Set.mem_ofPred_eq]
    refine and_congr_right fun h => ?_
    rw [transcriptStrong_eq R D Hs Rng.replay Rng.replay fromPs buf db kdb start hstart user pass ci c sv _ _ _ hdb hq hk
      hbuf hz hw (by rw [serverX_replay kdb user hpre, hxe]) hx, hssid, replay_fill (h 0), replay_fill (h 1),
      replay_fill (h 2)]
    have h0 : (draw (b 0) • strongPoint R D user pass = 0) ↔ draw (b 0) = 0 := by
      rw [smul_eq_zero, or_iff_left hz]
    constructor
    · rintro ⟨t, ht, he⟩
      split at he
      · simp at he
      · rename_i hd
        obtain rfl := Option.some.inj he
        exact ⟨fun h => hd (h0.1 h), ht⟩
    · rintro ⟨hd, ht⟩
      refine ⟨_, ht, ?_⟩
      rw [if_neg (fun h => hd (h0.2 h))]
      rfl
  rw [he db pass W w hdb hbuf hz hw, he db' pass' W' w' hdb' hbuf' hz' hw']
  refine (outputs_close_pi (smul_card_pi R ?_ ?_ _)).trans (Nat.add_le_add_left bias_three _)
  · intro i; fin_cases i
    · exact hz
    · exact hgS
    · exact hgC
  · intro i; fin_cases i
    · exact hz'
    · exact hgS'
    · exact hgC'

end

/-- Two registrations with the same salt and different passwords, and a login with 64 bytes behind `x`: the hypotheses
of the plain protocol are met, whichever of the two passwords is registered or typed. -/
example :
    (match World.reg,
      Run.register Ristretto.toy World.hasher Rng.replay .alloc (World.bytes 7 16) World.user (ascii "other") (),
      (serverX (G := Scalar) Rng.replay none World.user (World.bytes 3 64)).1,
      ssidOf sha512 Rng.replay Rng.replay (.nonces 16) (World.bytes 2 100) World.server with
    | .ok (.registration _ salt ps W, _), .ok (.registration _ salt' ps' W', _), x, ssid =>
      match pwScalar World.hasher World.user World.pass salt (),
        pwScalar World.hasher World.user (ascii "other") salt () with
      | .ok w, .ok w' => decide (salt = salt' ∧ ps = ps' ∧ W ≠ W' ∧ x ≠ 0 ∧
          clientGen Ristretto.toy sha512 ssid w x (ascii "ci") ≠ 0 ∧
          serverGen Ristretto.toy sha512 ssid x W (ascii "ci") ≠ 0 ∧
          clientGen Ristretto.toy sha512 ssid w' x (ascii "ci") ≠ 0 ∧
          serverGen Ristretto.toy sha512 ssid x W' (ascii "ci") ≠ 0)
      | _, _ => false
    | _, _, _, _ => false) = true := by
  decide +kernel

/-- The same for the strong variant, with a long-term key. -/
example :
    (match World.regStrong,
      Run.registerStrong Ristretto.toy sha512 World.hasher Rng.replay .alloc (World.bytes 7 64) World.user
        (ascii "other") (),
      (serverX Rng.replay (some World.kdb) World.user []).1,
      ssidOf sha512 Rng.replay Rng.replay (.nonces 16) (World.bytes 2 100) World.server with
    | .ok (.strongRegistration _ q ps W, _), .ok (.strongRegistration _ q' ps' W', _), x, ssid =>
      match pwScalar World.hasher World.user World.pass
          (Base64.encode (Ristretto.toy.compress (q • strongPoint Ristretto.toy sha512 World.user World.pass))) (),
        pwScalar World.hasher World.user (ascii "other")
          (Base64.encode (Ristretto.toy.compress (q • strongPoint Ristretto.toy sha512 World.user (ascii "other")))) ()
        with
      | .ok w, .ok w' => decide (q = q' ∧ q ≠ 0 ∧ ps = ps' ∧ W ≠ W' ∧ x ≠ 0 ∧
          strongPoint Ristretto.toy sha512 World.user World.pass ≠ 0 ∧
          strongPoint Ristretto.toy sha512 World.user (ascii "other") ≠ 0 ∧
          clientGen Ristretto.toy sha512 ssid w x (ascii "ci") ≠ 0 ∧
          serverGen Ristretto.toy sha512 ssid x W (ascii "ci") ≠ 0 ∧
          clientGen Ristretto.toy sha512 ssid w' x (ascii "ci") ≠ 0 ∧
          serverGen Ristretto.toy sha512 ssid x W' (ascii "ci") ≠ 0)
      | _, _ => false
    | _, _, _, _ => false) = true := by
  decide +kernel

/-- A transcript of the plain protocol has six messages, one of the strong protocol with a wrong password too. -/
example :
    (match transcript Ristretto.toy sha512 World.hasher Rng.replay Rng.replay (fun _ => ()) .alloc World.db none (.nonces 16)
      World.user World.pass (ascii "ci") (World.bytes 2 100) World.server (World.bytes 3 128)
      (World.bytes 4 64) with | .ok t => t.length | _ => 0) = 6 ∧
    (match transcriptStrong Ristretto.toy sha512 World.hasher Rng.replay Rng.replay 1 (fun _ => ()) .alloc World.dbStrong none
      (.nonces 16) World.user (ascii "other") (ascii "ci") (World.bytes 2 100) World.server (World.bytes 5 64)
      (World.bytes 3 128) (World.bytes 4 64) with | some (.ok t) => t.length | _ => 0) = 6 := by
  decide +kernel

end Verif.Aucpace
