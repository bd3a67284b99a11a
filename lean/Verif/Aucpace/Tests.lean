import Verif.Basic.Tests
import Verif.Aucpace.Examples
import Verif.Aucpace.PropsDefault
import Verif.Aucpace.PropsMisc

/-!
# C93 (AuCPace): the project's tests, for all inputs

`aucpace/tests/test_key_agreement{,_partial_aug,_strong,_strong_partial_aug}.rs` and the unit tests of aucpace/src/client.rs and
aucpace/src/server.rs as programs with the names, passwords, identifiers, states and generator outputs as parameters. Each use of
`OsRng` has a generator state of its own. The sixteen integration tests are four files with the same four functions; the programs take
what differs as parameters: `keypair` (partially augmented), `implicit`, and `start` (nonces or an established SSID).
-/

set_option linter.unusedSectionVars false

namespace Verif.Aucpace.Tests
open Spec Run _root_.Verif.Aucpace.Scrypt Examples

abbrev G := Verif.Ristretto.RPoint
abbrev R := Verif.Ristretto.ristretto255

section
variable {σ : Type} (rng : Rng σ)

/-- The end of the tests with explicit authentication, test_key_agreement.rs:75-105. -/
def testExplicit (cli : Client.RecvServerKey) (srv : Server.RecvClientKey) (cm : ClientMessage G) (sm : ServerMessage G) :
    Res Error Unit := do
  let srv ← match cm with
    | .publicKey p => Server.receiveClientPubkey R sha512 srv p
    | _ => .panic
  let (cli, cm) ← match sm with
    | .publicKey p => Client.receiveServerPubkey R sha512 cli p
    | _ => .panic
  let (serverKey, sm) ← (match cm with
    | .authenticator ca => Server.receiveClientAuthenticator sha512 srv ca
    | _ => .panic : Res Error (Bytes × ServerMessage G))
  let clientKey ← match sm with
    | .authenticator sa => Client.receiveServerAuthenticator sha512 cli sa
    | _ => .panic
  Res.assert (clientKey = serverKey)

/-- The end of the tests with implicit authentication, test_key_agreement.rs:134-151. -/
def testImplicit (cli : Client.RecvServerKey) (srv : Server.RecvClientKey) (cm : ClientMessage G) (sm : ServerMessage G) :
    Res Error Unit := do
  let serverKey ← match cm with
    | .publicKey p => Server.implicitAuth R sha512 srv p
    | _ => .panic
  let clientKey ← match sm with
    | .publicKey p => Client.implicitAuth R sha512 cli p
    | _ => .panic
  Res.assert (clientKey = serverKey)

/-- The CPace substep at the end of `test_core`, test_key_agreement.rs:297-301, and the rest of the test. -/
def testCpace (implicit : Bool) (cli : Client.CPaceSubstep) (srv : Server.CPaceSubstep σ) (ci : Bytes) (c' : σ) : Res Error Unit :=
  let (srv, sm) := Server.generatePublicKey R sha512 rng srv ci
  let ((cli, cm), _) := Client.generatePublicKey R sha512 rng cli ci c'
  if implicit then testImplicit cli srv cm sm else testExplicit cli srv cm sm

/-- `init`, test_key_agreement.rs:231-252 and test_key_agreement_partial_aug.rs:264-287: `keypair` is the generator state for the long-term
key pair of the partially augmented protocol. -/
def init (keypair : Option σ) (s : σ) (user pass : Bytes) : Res Error (SingleUserDb (G × Bytes × Bytes) (Scalar × G)) := do
  let (m, _) ← Client.registerAlloc R scryptHasher rng s user pass recommended
  match m with
  | .registration username salt ps verifier =>
    let db := SingleUserDb.empty.storeVerifier username (verifier, salt, ps)
    match keypair with
    | none => .ok db
    | some k => db.storeKeypair username (generateServerKeypair R rng k).1
  | _ => .ok SingleUserDb.empty

/-- `init`, test_key_agreement_strong.rs:232-253 and test_key_agreement_strong_partial_aug.rs:265-288. -/
def initStrong (keypair : Option σ) (s : σ) (user pass : Bytes) : Res Error (SingleUserDb (G × Scalar × Bytes) (Scalar × G)) := do
  let (m, _) ← Client.registerAllocStrong R sha512 scryptHasher rng s user pass recommended
  match m with
  | .strongRegistration username q ps verifier =>
    let db := SingleUserDb.empty.storeVerifier username (verifier, q, ps)
    match keypair with
    | none => .ok db
    | some k => db.storeKeypair username (generateServerKeypair R rng k).1
  | _ => .ok SingleUserDb.empty

/-- The four tests of test_key_agreement.rs:49-229 and of test_key_agreement_partial_aug.rs, with `test_core`
(test_key_agreement.rs:254-302): `s` is the generator state of the registration, `c` and `sv` those of the nonces, `sr` the one given to
the server, `c'` the one of the client's key. -/
def keyAgreement (keypair : Option σ) (implicit : Bool) (start : Start) (user pass ci : Bytes) (s c : σ) (sv : Server.State σ)
    (sr c' : σ) : Res Error Unit := do
  let db ← init rng keypair s user pass
  let (cli, srv) ← ssidStage (G := G) sha512 rng rng start c sv
  let (cli, m) := Client.startAugmentation (G := G) cli user pass
  match m with
  | .username u => do
    let (srv, m) ← serverInfo R sha512 rng ⟨db.lookupVerifier⟩ (keypair.map fun _ => ⟨db.lookupKeypair⟩) srv u sr
    match m with
    | .augmentationInfo _ xPub salt ps => do
      let params ← match fromPs new ps with
        | some x => .ok x
        | none => .panic
      let cli ← Client.generateCpaceAlloc R scryptHasher cli xPub salt params
      testCpace rng implicit cli srv ci c'
    | _ => .panic
  | _ => .panic

/-- The four tests of test_key_agreement_strong.rs:49-230 and of test_key_agreement_strong_partial_aug.rs, with `test_core`
(test_key_agreement_strong.rs:255-304); `r` is the blinding value with
which the client's loop ends. -/
def keyAgreementStrong (keypair : Option σ) (implicit : Bool) (start : Start) (user pass ci : Bytes) (s c : σ) (sv : Server.State σ)
    (sr c' : σ) (r : Scalar) : Res Error Unit := do
  let db ← initStrong rng keypair s user pass
  let (cli, srv) ← ssidStage (G := G) sha512 rng rng start c sv
  let (cli, m) := Client.startAugmentationStrongWith R sha512 cli user pass r
  match m with
  | .strongUsername u blinded => do
    let (srv, m) ← serverInfoStrong R sha512 rng ⟨db.lookupVerifier⟩ (keypair.map fun _ => ⟨db.lookupKeypair⟩) srv u blinded sr
    match m with
    | .strongAugmentationInfo _ xPub blindedSalt ps => do
      let params ← match fromPs new ps with
        | some x => .ok x
        | none => .panic
      let cli ← Client.generateCpaceStrongAlloc R scryptHasher cli xPub blindedSalt params
      testCpace rng implicit cli srv ci c'
    | _ => .panic
  | _ => .panic

/-- The server's `x` and the generator state from which `ya` is drawn. -/
def testX (keypair : Option σ) (sr : σ) : Scalar × σ :=
  match keypair with
  | none => (draw (rng.fill sr 64).1, (rng.fill sr 64).2)
  | some k => (draw (rng.fill k 64).1, sr)

theorem testCpace_eq (implicit : Bool) (ssid prs ci : Bytes) (s c' : σ) :
    testCpace rng implicit ⟨ssid, prs⟩ ⟨ssid, prs, s⟩ ci c' =
      if draw (rng.fill s 64).1 • gen R sha512 ssid prs ci = 0 ∨ draw (rng.fill c' 64).1 • gen R sha512 ssid prs ci = 0 then
        .err .illegalPointError else .ok () := by
  have h64 : sha512.outLen = 64 := rfl
  simp only [testCpace, client_generatePublicKey_eq, server_generatePublicKey_eq]
  generalize draw (rng.fill s 64).1 = ya
  generalize draw (rng.fill c' 64).1 = yb
  generalize gen R sha512 ssid prs ci = g
  have hc : yb • ya • g = ya • yb • g := smul_comm _ _ _
  cases implicit
  · simp only [Bool.false_eq_true, if_false, testExplicit, receiveClientPubkey_eq, receiveServerPubkey_eq R sha512 h64]
    by_cases hb : yb • g = 0
    · simp [hb]
    by_cases ha : ya • g = 0
    · simp [ha, hb]
    simp [ha, hb, hc, receiveClientAuthenticator_eq (G := G) sha512 h64, receiveServerAuthenticator_eq]
  · simp only [if_true, testImplicit, server_implicitAuth_eq, client_implicitAuth_eq]
    by_cases hb : yb • g = 0
    · simp [hb]
    by_cases ha : ya • g = 0
    · simp [ha, hb]
    simp [ha, hb, hc]

theorem fromPs_recommended : fromPs new (toPs recommended) = some recommended := by decide +kernel

theorem lookup_keypair {V : Type} (user : Bytes) (v : V) (keypair : Option σ) (db : SingleUserDb V (Scalar × G))
    (hdb : (match keypair with
      | none => .ok (SingleUserDb.empty.storeVerifier user v)
      | some k => (SingleUserDb.empty.storeVerifier user v).storeKeypair user (generateServerKeypair R rng k).1) = Res.ok (ε := Error) db)
    (sr : σ) :
    db.lookupVerifier user = some v ∧
    (∀ k, (keypair.map fun _ => (⟨db.lookupKeypair⟩ : PartialAugDatabase G)) = some k →
      ∃ x, k.lookupLongTermKeypair user = some (x, x • R.base)) ∧
    serverX rng (keypair.map fun _ => (⟨db.lookupKeypair⟩ : PartialAugDatabase G)) user sr = testX rng keypair sr := by
  cases keypair with
  | none =>
    simp only [Res.ok.injEq] at hdb
    subst hdb
    exact ⟨by simp [SingleUserDb.storeVerifier, SingleUserDb.lookupVerifier], by simp, rfl⟩
  | some k =>
    simp only [SingleUserDb.storeVerifier, SingleUserDb.storeKeypair, if_true, Res.ok.injEq, generateServerKeypair_eq] at hdb
    subst hdb
    refine ⟨by simp [SingleUserDb.lookupVerifier], ?_, ?_⟩
    · rintro k' ⟨rfl⟩
      exact ⟨draw (rng.fill k 64).1, by simp [SingleUserDb.lookupKeypair]⟩
    · simp [serverX, testX, SingleUserDb.lookupKeypair]

/-- **C93 (AuCPace, agreement).** The eight integration tests of the plain and of the partially augmented protocol, for all user names,
passwords, channel identifiers, SSIDs of at least 16 bytes and generator outputs: the test passes, except that it returns
`IllegalPointError` if a drawn value is degenerate. No assertion and no `unwrap` fails. -/
theorem C93_aucpace (keypair : Option σ) (implicit : Bool) (start : Start) (hstart : startOk start) (user pass ci : Bytes)
    (s c : σ) (sv : Server.State σ) (sr c' : σ) :
    let w : Scalar := ((leToNat (ScryptSpec.scrypt (user ++ ascii ":" ++ pass) (rng.fill s 16).1 (2 ^ 17) 8 1 32) : Nat) : Scalar)
    let x := (testX rng keypair sr).1
    let ya := draw (rng.fill (testX rng keypair sr).2 64).1
    let yb := draw (rng.fill c' 64).1
    let g := gen R sha512 (ssidOf sha512 rng rng start c sv) (R.compress ((w * x) • R.base)) ci
    keyAgreement rng keypair implicit start user pass ci s c sv sr c' =
      if x = 0 ∨ ya • g = 0 ∨ yb • g = 0 then .err .illegalPointError else .ok () := by
  intro w x ya yb g
  have hreg : Client.registerAlloc R scryptHasher rng s user pass recommended = _ :=
    C88_register rng .alloc s user pass recommended trivial (by decide) (by decide)
  have hw := pwScalar_scrypt user pass (rng.fill s 16).1 recommended (by decide) (by decide)
  obtain ⟨db, hdb⟩ : ∃ db, init rng keypair s user pass = .ok db := by
    simp only [init, hreg, Res.bind_ok]
    cases keypair with
    | none => exact ⟨_, rfl⟩
    | some k => exact ⟨_, by simp only [SingleUserDb.storeVerifier, SingleUserDb.storeKeypair, if_true]; rfl⟩
  obtain ⟨h1, h2, h3⟩ := lookup_keypair rng user (w • R.base, Base64.encode (rng.fill s 16).1, toPs recommended) keypair db
    (by rw [← hdb]; simp only [init, hreg, Res.bind_ok]; rfl) sr
  simp only [keyAgreement, hdb, ssidStage_ok sha512 rng rng start c sv hstart, Res.bind_ok, Client.startAugmentation,
    server_info_eq R sha512 rng ⟨db.lookupVerifier⟩ _ _ user sr _ _ _ h1 h2, h3, fromPs_recommended]
  have hc : ∀ (cli : Client.AugLayer) (X : G) (salt : Bytes), Client.generateCpaceAlloc R scryptHasher cli X salt recommended = _ :=
    fun cli X salt => clientCpace_eq R scryptHasher .alloc cli X salt recommended
  simp only [hc, Buf.fits, if_true, hw, Res.bind_ok]
  by_cases hx : (testX rng keypair sr).1 = 0
  · simp [x, hx]
  · have hX : (testX rng keypair sr).1 • R.base ≠ 0 := fun h => hx (smul_base_eq_zero.1 h)
    simp only [if_neg hX, Res.bind_ok, prs, smul_smul]
    have e : w * x = x * w := mul_comm _ _
    change testCpace rng implicit ⟨_, R.compress ((w * x) • R.base)⟩ ⟨_, R.compress ((x * w) • R.base), _⟩ ci c' = _
    rw [← e, testCpace_eq]
    simp only [x, hx, false_or]
    rfl

/-- **C93 (AuCPace, agreement of the strong variants).** The eight integration tests of the strong and of the strong partially augmented
protocol, in the same way; `q` is the drawn exponent of the registration, and `r`, the blinding value with which the client's loop ends, is
not zero (`C56_nonzero`). -/
theorem C93_aucpace_strong (keypair : Option σ) (implicit : Bool) (start : Start) (hstart : startOk start) (user pass ci : Bytes)
    (s c : σ) (sv : Server.State σ) (sr c' : σ) (r : Scalar) (hr : r ≠ 0) :
    let q := draw (rng.fill s 64).1
    let Q := q • strongPoint R sha512 user pass
    let w : Scalar := ((leToNat (ScryptSpec.scrypt (user ++ ascii ":" ++ pass) (R.compress Q) (2 ^ 17) 8 1 32) : Nat) : Scalar)
    let x := (testX rng keypair sr).1
    let ya := draw (rng.fill (testX rng keypair sr).2 64).1
    let yb := draw (rng.fill c' 64).1
    let g := gen R sha512 (ssidOf sha512 rng rng start c sv) (R.compress ((w * x) • R.base)) ci
    keyAgreementStrong rng keypair implicit start user pass ci s c sv sr c' r =
      if Q = 0 ∨ x = 0 ∨ ya • g = 0 ∨ yb • g = 0 then .err .illegalPointError else .ok () := by
  intro q Q w x ya yb g
  have hreg : Client.registerAllocStrong R sha512 scryptHasher rng s user pass recommended = _ :=
    C88_register_strong rng .alloc s user pass recommended trivial (by decide) (by decide)
  have hw := pwScalar_scrypt user pass (R.compress Q) recommended (by decide) (by decide)
  obtain ⟨db, hdb⟩ : ∃ db, initStrong rng keypair s user pass = .ok db := by
    simp only [initStrong, hreg, Res.bind_ok]
    cases keypair with
    | none => exact ⟨_, rfl⟩
    | some k => exact ⟨_, by simp only [SingleUserDb.storeVerifier, SingleUserDb.storeKeypair, if_true]; rfl⟩
  obtain ⟨h1, h2, h3⟩ := lookup_keypair rng user (w • R.base, q, toPs recommended) keypair db
    (by rw [← hdb]; simp only [initStrong, hreg, Res.bind_ok]; rfl) sr
  have hun : r⁻¹ • q • r • strongPoint R sha512 user pass = Q := by
    simp only [Q, smul_smul]
    congr 1
    field_simp
  have hz : q • r • strongPoint R sha512 user pass = 0 ↔ Q = 0 := by
    rw [smul_comm, smul_eq_zero]
    simp [hr, Q]
  simp only [keyAgreementStrong, hdb, ssidStage_ok sha512 rng rng start c sv hstart, Res.bind_ok,
    Client.startAugmentationStrongWith, strongPoint_eq, mul_one]
  rw [server_info_strong_eq R sha512 rng ⟨db.lookupVerifier⟩ _ _ user _ sr _ _ _ h1 h2, h3]
  by_cases hQ : Q = 0
  · rw [if_pos (hz.2 hQ), if_pos (Or.inl hQ)]
    rfl
  · rw [if_neg (fun h => hQ (hz.1 h))]
    simp only [Res.bind_ok, fromPs_recommended, clientCpaceStrong_alloc_eq, hun, hw, hQ, or_false, false_or]
    by_cases hx : (testX rng keypair sr).1 = 0
    · simp [x, hx]
    · have hX : (testX rng keypair sr).1 • R.base ≠ 0 := fun h => hx (smul_base_eq_zero.1 h)
      simp only [if_neg hX, Res.bind_ok, prs, smul_smul]
      have e : w * x = x * w := mul_comm _ _
      change testCpace rng implicit ⟨_, R.compress ((w * x) • R.base)⟩ ⟨_, R.compress ((x * w) • R.base), _⟩ ci c' = _
      rw [← e, testCpace_eq]
      simp only [x, hx, false_or]
      rfl

/-! ## Unit tests -/

/-- `test_hash_password_no_std_and_alloc_agree`, aucpace/src/client.rs:1051-1073; `bufsiz` is 100 there. -/
def testHashAgree (bufsiz : Nat) (username password : Bytes) (params : Params) (s : σ) : Res Error Unit := do
  let salt := Base64.encode (rng.fill s 16).1
  let noStd ← (Client.hashPassword scryptHasher bufsiz username password salt params).unwrapResult
  let alloc ← (Client.hashPasswordAlloc scryptHasher username password salt params).unwrapResult
  Res.assert (alloc = noStd)

/-- `if let Err(e) = res { assert_eq!(e, expected) } else { panic!() }` and `assert!(matches!(res, Err(expected)))`. -/
def expectErr {α : Type} (expected : Error) : Res Error α → Res Error Unit
  | .err e => Res.assert (e = expected)
  | _ => .panic

/-- **C93 (AuCPace, hashing).** The test passes exactly if user name, password and separator fit in the buffer. -/
theorem C93_aucpace_hash (bufsiz : Nat) (username password : Bytes) (params : Params) (s : σ) :
    testHashAgree rng bufsiz username password params s =
      if username.length + password.length + 1 ≤ bufsiz then .ok () else .panic := by
  simp only [testHashAgree, hashPassword_eq, hashPasswordAlloc_eq, scryptHasher, hasher, Scrypt.hash, Base64.decode_encode]
  by_cases h : username.length + password.length + 1 ≤ bufsiz
  · simp [h, not_lt.2 h, mapPh]
  · simp [h, not_le.1 h]

theorem expectErr_ok {α : Type} (expected : Error) (r : Res Error α) : expectErr expected r = .ok () ↔ r = .err expected := by
  cases r with
  | ok a => simp [expectErr]
  | err e => simp [expectErr]
  | panic => simp [expectErr]

/-- **C93 (AuCPace, refused identifiers).** `test_client_doesnt_accept_insecure_ssid` (aucpace/src/client.rs:1075-1084) and
`test_server_doesnt_accept_insecure_ssid` (aucpace/src/server.rs:737-746) pass for exactly the SSIDs of fewer than 16 bytes. -/
theorem C93_aucpace_ssid (sv : Server.State σ) (ssid : Bytes) :
    (expectErr .insecureSsid (Client.beginPrestablishedSsid sha512 ssid) = .ok () ↔ ssid.length < 16) ∧
    (expectErr .insecureSsid (Server.beginPrestablishedSsid sha512 sv ssid) = .ok () ↔ ssid.length < 16) := by
  rw [expectErr_ok, expectErr_ok]
  exact ⟨(C41_prestablished sha512 sv ssid ssid).1, (C41_prestablished sha512 sv ssid ssid).2.1⟩

/-- **C93 (AuCPace, refused points of the server).** The seven tests of aucpace/src/client.rs:1086-1267 in which the client gets a neutral
element pass for all states, salts and parameters, and for no other point (in the fixed-buffer test of the strong client, for no
other `x_pub`: it has no check of the blinded salt, C35). -/
theorem C93_aucpace_client (n : Nat) (cli : Client.AugLayer) (scli : Client.StrongAugLayer) (hb : scli.blindingValue ≠ 0)
    (recv : Client.RecvServerKey) (X U : G) (salt : Bytes) (params : Params) :
    (expectErr .illegalPointError (Client.generateCpace R scryptHasher n cli X salt params) = .ok () ↔ X = 0) ∧
    (expectErr .illegalPointError (Client.generateCpaceAlloc R scryptHasher cli X salt params) = .ok () ↔ X = 0) ∧
    (expectErr .illegalPointError (Client.generateCpaceStrong R scryptHasher n scli X U params) = .ok () ↔ X = 0) ∧
    (expectErr .illegalPointError (Client.generateCpaceStrongAlloc R scryptHasher scli X U params) = .ok () ↔ X = 0 ∨ U = 0) ∧
    (expectErr .illegalPointError (Client.receiveServerPubkey R sha512 recv X) = .ok () ↔ X = 0) ∧
    (expectErr .illegalPointError (Client.implicitAuth R sha512 recv X) = .ok () ↔ X = 0) := by
  have h64 : sha512.outLen = 64 := rfl
  have hp : ∀ user pass salt (f : Scalar → Client.CPaceSubstep),
      (pwScalar scryptHasher user pass salt params >>= fun w => Res.ok (f w)) ≠ .err .illegalPointError := by
    intro user pass salt f
    unfold pwScalar
    split
    · simp
    · simp
    · split <;> simp
  have h1 := clientCpace_eq R scryptHasher (.fixed n) cli X salt params
  have h2 := clientCpace_eq R scryptHasher .alloc cli X salt params
  simp only [Run.clientCpace, Buf.fits] at h1 h2
  simp only [expectErr_ok, h1, h2, clientCpaceStrong_fixed_eq, clientCpaceStrong_alloc_eq, (C35_public_keys R sha512 h64 X).1 recv]
  have hU : scli.blindingValue⁻¹ • U = 0 ↔ U = 0 := by rw [smul_eq_zero]; simp [hb]
  simp only [hU]
  by_cases hX : X = 0
  · simp [hX]
  · simp only [hX, if_false, iff_false, false_or]
    refine ⟨?_, hp _ _ _ _, ?_, ?_, trivial, trivial⟩
    · by_cases h : cli.username.length + cli.password.length + 1 ≤ n
      · simp only [h, if_true]; exact hp _ _ _ _
      · simp only [h, if_false]; simp
    · by_cases h : scli.username.length + scli.password.length + 1 ≤ n
      · simp only [h, if_true]; exact hp _ _ _ _
      · simp only [h, if_false]; simp
    · by_cases h : U = 0
      · simp [h]
      · simp only [h, if_false, iff_false]
        exact hp _ _ _ _

/-- `FakeDatabase`, aucpace/src/server.rs:782-833, with the exponent as a parameter (zero there). -/
def fakeDatabase (q : Scalar) : StrongDatabase G := ⟨fun _ => some (R.base, q, [])⟩

/-- `FakeDatabase` as `PartialAugDatabase`. -/
def fakeKeys : PartialAugDatabase G := ⟨fun _ => some (0, R.base)⟩

/-- **C93 (AuCPace, refused points of the client).** `test_server_doesnt_accept_invalid_pubkey` and
`test_server_doesnt_accept_invalid_pubkey_implicit_auth` (aucpace/src/server.rs:748-781) pass for exactly the neutral element.
`test_server_doesnt_accept_invalid_uq` and `test_server_doesnt_accept_invalid_uq_partial` (aucpace/src/server.rs:835-881) pass for exactly the
neutral element if the exponent in the database is not zero. -/
theorem C93_aucpace_server (srv : Server.AugLayer) (recv : Server.RecvClientKey) (user : Bytes) (q : Scalar) (hq : q ≠ 0) (U : G)
    (s : σ) :
    (expectErr .illegalPointError (Server.receiveClientPubkey R sha512 recv U) = .ok () ↔ U = 0) ∧
    (expectErr .illegalPointError (Server.implicitAuth R sha512 recv U) = .ok () ↔ U = 0) ∧
    (expectErr .illegalPointError (Server.generateClientInfoStrong R sha512 rng srv user U (fakeDatabase q) s) = .ok () ↔ U = 0) ∧
    (expectErr .illegalPointError (Server.generateClientInfoPartialStrong R sha512 rng srv user U (fakeDatabase q) fakeKeys s) = .ok () ↔
      U = 0) := by
  have h64 : sha512.outLen = 64 := rfl
  simp only [expectErr_ok, (C35_public_keys R sha512 h64 U).2 recv, true_and]
  by_cases hU : U = 0
  · subst hU
    simp only [C35_blinded R sha512 rng srv user (fakeDatabase q) fakeKeys s, and_self]
  · have hqU : (q * 1) • U ≠ 0 := by rw [mul_one, Ne, smul_eq_zero]; simp [hq, hU]
    simp only [Server.generateClientInfoStrong, Server.generateClientInfoPartialStrong, Server.generatePrsStrong, fakeDatabase, fakeKeys,
      if_neg hqU, Res.bind_ok, hU]
    simp

/-- **C93 (AuCPace, two tests that cannot fail).** The database of the last two tests holds the exponent zero, so they pass for every
point: they do not tell a server that refuses neutral elements from the client from one that refuses nothing the client can choose. -/
theorem C93_aucpace_server_any (srv : Server.AugLayer) (user : Bytes) (U : G) (s : σ) :
    expectErr .illegalPointError (Server.generateClientInfoStrong R sha512 rng srv user U (fakeDatabase 0) s) = .ok () ∧
    expectErr .illegalPointError (Server.generateClientInfoPartialStrong R sha512 rng srv user U (fakeDatabase 0) fakeKeys s) = .ok () := by
  have h0 : ((0 : Scalar) * 1) • U = 0 := by rw [zero_mul]; exact zero_smul Scalar U
  simp only [expectErr_ok, Server.generateClientInfoStrong, Server.generateClientInfoPartialStrong, Server.generatePrsStrong,
    fakeDatabase, fakeKeys, if_pos h0, Res.bind_err, and_self]

end

/-- The SSID of the tests is long enough, and the blinding value of the unit tests is not zero. -/
example : startOk (.prestablished (ascii "bestest_ssid_ever_i_promise")) ∧ startOk (.nonces 16) ∧ (69 : Scalar) ≠ 0 := by
  refine ⟨?_, trivial, by decide +kernel⟩
  simp only [startOk]
  decide

/-- The credentials of `test_hash_password_no_std_and_alloc_agree` fit in its buffer. -/
example {σ : Type} (rng : Rng σ) (s : σ) :
    testHashAgree rng 100 (ascii "worf@starship.enterprise") (ascii "data_x_worf_4ever_<3") recommended s = .ok () := by
  rw [C93_aucpace_hash, if_pos (by decide)]

end Verif.Aucpace.Tests
