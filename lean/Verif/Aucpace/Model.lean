import Verif.Basic.Res
import Verif.Basic.Digest
import Verif.Basic.Rng
import Verif.Basic.Base64
import Verif.Aucpace.Group

/-!
# Model of the `aucpace` crate

Transcription of `/repo/aucpace/src/{client,server,utils,errors,constants,database}.rs` with the
features `alloc`, `partial_augmentation` and `strong_aucpace`.

* The type parameters `D: Digest` and `H: PasswordHasher` are the arguments `D` and `H`; `K1` is the
  nonce length.
* `RistrettoPoint` and `Scalar` are described in `Verif/Aucpace/Group.lean`.
* A `CSPRNG` is an `Rng σ` with its state; functions taking `&mut rng` return the new state.
* `SaltString` and `ParamsString` are their characters; `ParamsString::default()` is empty.
* `PhantomData`, references and clones are dropped. `self` by value is a normal argument.
* `usize` additions on lengths cannot overflow (slice lengths are at most `isize::MAX`).
-/

namespace Verif.Aucpace

/-- `password_hash::Error`: the one constructor that aucpace itself can provoke and all others. -/
inductive PhError where
  | b64Encoding
  | other (code : Nat)
  deriving DecidableEq, Repr

/-- `Error`, aucpace/src/errors.rs:6-27. -/
inductive Error where
  | illegalPointError
  | passwordHashing (e : PhError)
  | hashEmpty
  | hashSizeInvalid
  | mutualAuthFail
  | usernameOrPasswordTooLong
  | insecureSsid
  | userNotRegistered
  deriving DecidableEq, Repr

/-- `MIN_SSID_LEN`, aucpace/src/constants.rs:2. -/
def minSsidLen : Nat := 16

/-- `H: PasswordHasher` (password-hash 0.5.0) as used by aucpace. -/
structure PwHasher (Params : Type) where
  /-- `hasher.hash_password_customized(password, None, None, params, salt)`, reduced to the `hash` field
  of the resulting `PasswordHash` -/
  hash : (password : Bytes) → Params → (salt : Bytes) → Except PhError (Option Bytes)
  /-- `TryInto<ParamsString>` for `H::Params` -/
  toParamsString : Params → Except PhError Bytes

/-- `x.map_err(Error::PasswordHashing)?`. -/
def mapPh {α : Type} : Except PhError α → Res Error α
  | .ok a => .ok a
  | .error e => .err (.passwordHashing e)

/-- `slice.try_into().expect(..)` into `[u8; n]`. -/
def toArray {ε : Type} (n : Nat) (b : Bytes) : Res ε Bytes := if b.length = n then .ok b else .panic

/-- `SaltString::encode_b64(b).map_err(Error::PasswordHashing)`. -/
def encodeSalt (b : Bytes) : Res Error Bytes :=
  match Base64.saltEncode b with
  | some s => .ok s
  | none => .err (.passwordHashing .b64Encoding)

/-! ## Random values (curve25519-dalek 4.1.3, password-hash 0.5.0) -/

section Random
variable {σ : Type} (rng : Rng σ)

/-- `Scalar::random(rng)`: 64 bytes reduced modulo the order. -/
def randomScalar (s : σ) : Scalar × σ :=
  let (b, s) := rng.fill s 64
  (scalarOfBytes b, s)

/-- `RistrettoPoint::random(rng)`: 64 bytes mapped to the group. -/
def randomPoint {G : Type} [AddCommGroup G] [Module Scalar G] (R : Ristretto G) (s : σ) : G × σ :=
  let (b, s) := rng.fill s 64
  (R.fromUniform b, s)

/-- `SaltString::generate(rng)`: 16 bytes, base64, `expect`. -/
def generateSalt {ε : Type} (s : σ) : Res ε (Bytes × σ) :=
  let (b, s) := rng.fill s 16
  match Base64.saltEncode b with
  | some salt => .ok (salt, s)
  | none => .panic

/-- `generate_nonce`, aucpace/src/utils.rs:39-46. -/
def generateNonce (k1 : Nat) (s : σ) : Bytes × σ := rng.fill s k1

end Random

/-! ## aucpace/src/utils.rs -/

/-- `H::<D, N>()`, aucpace/src/utils.rs:14-18; `H0` to `H5` (lines 20-35) are `H 0` to `H 5`. -/
def H (n : Nat) : Bytes := Digest.update Digest.new (leFixed 4 n)

section Utils
variable {G : Type} [AddCommGroup G] [Module Scalar G] (R : Ristretto G) (D : Digest)
  {σ : Type} (rng : Rng σ)

/-- `RistrettoPoint::from_hash(hasher)`. -/
def pointFromHash (st : Bytes) : G := R.fromUniform (D.finalize st)

/-- `Scalar::from_hash(hasher)`. -/
def scalarFromHasher (st : Bytes) : Scalar := scalarOfBytes (D.finalize st)

/-- `compute_ssid`, aucpace/src/utils.rs:50-55. -/
def computeSsid (s t : Bytes) : Bytes :=
  let h := H 0
  let h := Digest.update h s
  let h := Digest.update h t
  D.finalize h

/-- `generate_keypair`, aucpace/src/utils.rs:59-81. -/
def generateKeypair (s : σ) (ssid prs ci : Bytes) : (Scalar × G) × σ :=
  let h := H 1
  let h := Digest.update h ssid
  let h := Digest.update h prs
  let h := Digest.update h ci
  let generator := pointFromHash R D h
  let (privKey, s) := randomScalar rng s
  let cofactor : Scalar := 1
  let pubKey := (privKey * cofactor) • generator
  ((privKey, pubKey), s)

/-- `compute_first_session_key`, aucpace/src/utils.rs:85-100. -/
def computeFirstSessionKey (ssid : Bytes) (privKey : Scalar) (pubKey : G) : Bytes :=
  let sharedPoint := privKey • pubKey
  let h := H 2
  let h := Digest.update h ssid
  let h := Digest.update h (R.compress sharedPoint)
  D.finalize h

/-- `compute_authenticator_messages`, aucpace/src/utils.rs:104-117. -/
def computeAuthenticatorMessages (ssid sk1 : Bytes) : Bytes × Bytes :=
  let ta := H 3
  let ta := Digest.update ta ssid
  let ta := Digest.update ta sk1
  let tb := H 4
  let tb := Digest.update tb ssid
  let tb := Digest.update tb sk1
  (D.finalize ta, D.finalize tb)

/-- `compute_session_key`, aucpace/src/utils.rs:121-129. -/
def computeSessionKey (ssid sk1 : Bytes) : Bytes :=
  let h := H 5
  let h := Digest.update h ssid
  let h := Digest.update h sk1
  D.finalize h

/-- `scalar_from_hash`, aucpace/src/utils.rs:133-153; the argument is `pw_hash.hash`. -/
def scalarFromHash (hash : Option Bytes) : Res Error Scalar := do
  let hashBytes ← Res.okOr hash .hashEmpty
  if hashBytes.length = 32 then
    let arr ← toArray 32 hashBytes
    .ok (scalarOfBytes arr)
  else if hashBytes.length = 64 then
    let arr ← toArray 64 hashBytes
    .ok (scalarOfBytes arr)
  else .err .hashSizeInvalid

/-- `generate_server_keypair`, aucpace/src/utils.rs:157-168. -/
def generateServerKeypair (s : σ) : (Scalar × G) × σ :=
  let cofactor : Scalar := 1
  let (priv, s) := randomScalar rng s
  let pub := (priv * cofactor) • R.base
  ((priv, pub), s)

end Utils

/-! ## Messages -/

/-- `ClientMessage`, aucpace/src/client.rs:986-1044. -/
inductive ClientMessage (G : Type) where
  | nonce (n : Bytes)
  | username (u : Bytes)
  | strongUsername (username : Bytes) (blinded : G)
  | publicKey (p : G)
  | authenticator (a : Bytes)
  | registration (username salt params : Bytes) (verifier : G)
  | strongRegistration (username : Bytes) (secretExponent : Scalar) (params : Bytes) (verifier : G)

/-- `ServerMessage`, aucpace/src/server.rs:686-729. -/
inductive ServerMessage (G : Type) where
  | nonce (n : Bytes)
  | augmentationInfo (group : Bytes) (xPub : G) (salt pbkdfParams : Bytes)
  | strongAugmentationInfo (group : Bytes) (xPub blindedSalt : G) (pbkdfParams : Bytes)
  | publicKey (p : G)
  | authenticator (a : Bytes)

/-- The constant `"ristretto255"` of aucpace/src/server.rs:388,425,467,508. -/
def groupName : Bytes := ascii "ristretto255"

/-! ## aucpace/src/client.rs -/

namespace Client

/-- `AuCPaceClientSsidEstablish`, aucpace/src/client.rs:344-352. -/
structure SsidEstablish where
  nonce : Bytes

/-- `AuCPaceClientPreAug`, aucpace/src/client.rs:386-393. -/
structure PreAug where
  ssid : Bytes

/-- `AuCPaceClientAugLayer`, aucpace/src/client.rs:477-486. -/
structure AugLayer where
  ssid : Bytes
  username : Bytes
  password : Bytes

/-- `StrongAuCPaceClientAugLayer`, aucpace/src/client.rs:599-609. -/
structure StrongAugLayer where
  ssid : Bytes
  username : Bytes
  password : Bytes
  blindingValue : Scalar

/-- `AuCPaceClientCPaceSubstep`, aucpace/src/client.rs:753-759. -/
structure CPaceSubstep where
  ssid : Bytes
  prs : Bytes

/-- `AuCPaceClientRecvServerKey`, aucpace/src/client.rs:806-812. -/
structure RecvServerKey where
  ssid : Bytes
  privKey : Scalar

/-- `AuCPaceClientExpMutAuth`, aucpace/src/client.rs:873-880. -/
structure ExpMutAuth where
  ssid : Bytes
  sk1 : Bytes
  serverAuthenticator : Bytes

section
variable {G : Type} [AddCommGroup G] [Module Scalar G] [DecidableEq G] (R : Ristretto G) (D : Digest)
  {Params : Type} (Hs : PwHasher Params) {σ : Type} (rng : Rng σ)

/-- `AuCPaceClient::begin`, aucpace/src/client.rs:69-74 (with `AuCPaceClientSsidEstablish::new`,
lines 359-368). The state of `AuCPaceClient` is its generator. -/
def begin (k1 : Nat) (s : σ) : (SsidEstablish × ClientMessage G) × σ :=
  let (nonce, s) := generateNonce rng k1 s
  ((⟨nonce⟩, .nonce nonce), s)

/-- `AuCPaceClient::begin_prestablished_ssid`, aucpace/src/client.rs:85-100. -/
def beginPrestablishedSsid (ssid : Bytes) : Res Error PreAug :=
  if ssid.length < minSsidLen then .err .insecureSsid
  else
    let h := H 0
    let h := Digest.update h ssid
    .ok ⟨D.finalize h⟩

/-- `hash_password`, aucpace/src/client.rs:920-952. The array writes panic when out of bounds. -/
def hashPassword (bufsiz : Nat) (user pass salt : Bytes) (params : Params) :
    Res Error (Option Bytes) :=
  let u := user.length
  let p := pass.length
  if u + p + 1 > bufsiz then .err .usernameOrPasswordTooLong
  else do
    let buf : Bytes := List.replicate bufsiz 0
    let buf ← Res.unwrap (copyInto buf 0 u user)
    let buf ← Res.unwrap (copyInto buf u (u + 1) (ascii ":"))
    let buf ← Res.unwrap (copyInto buf (u + 1) (u + p + 1) pass)
    let pw ← Res.unwrap (slice buf 0 (u + p + 1))
    mapPh (Hs.hash pw params salt)

/-- `hash_password_alloc`, aucpace/src/client.rs:956-981. -/
def hashPasswordAlloc (user pass salt : Bytes) (params : Params) : Res Error (Option Bytes) :=
  let v : Bytes := []
  let v := v ++ user
  let v := v ++ ascii ":"
  let v := v ++ pass
  mapPh (Hs.hash v params salt)

/-- `AuCPaceClient::register`, aucpace/src/client.rs:120-154. -/
def register (bufsiz : Nat) (s : σ) (username password : Bytes) (params : Params) :
    Res Error (ClientMessage G × σ) := do
  let (saltString, s) ← generateSalt rng s
  let pwHash ← hashPassword Hs bufsiz username password saltString params
  let cofactor : Scalar := 1
  let w ← scalarFromHash pwHash
  let verifier := (w * cofactor) • R.base
  let paramsString ← mapPh (Hs.toParamsString params)
  .ok (.registration username saltString paramsString verifier, s)

/-- `AuCPaceClient::register_alloc`, aucpace/src/client.rs:228-257. -/
def registerAlloc (s : σ) (username password : Bytes) (params : Params) :
    Res Error (ClientMessage G × σ) := do
  let (saltString, s) ← generateSalt rng s
  let pwHash ← hashPasswordAlloc Hs username password saltString params
  let cofactor : Scalar := 1
  let w ← scalarFromHash pwHash
  let verifier := (w * cofactor) • R.base
  let paramsString ← mapPh (Hs.toParamsString params)
  .ok (.registration username saltString paramsString verifier, s)

/-- `AuCPaceClient::generate_salt_strong`, aucpace/src/client.rs:319-340. -/
def generateSaltStrong (user pass : Bytes) (s : σ) : Res Error ((Scalar × Bytes) × σ) :=
  let (q, s) := randomScalar rng s
  let h := H 1
  let h := Digest.update h user
  let h := Digest.update h pass
  let z := pointFromHash R D h
  let cofactor : Scalar := 1
  let saltPoint := (q * cofactor) • z
  let salt := R.compress saltPoint
  do
    let saltString ← encodeSalt salt
    .ok ((q, saltString), s)

/-- `AuCPaceClient::register_strong`, aucpace/src/client.rs:175-210. -/
def registerStrong (bufsiz : Nat) (s : σ) (username password : Bytes) (params : Params) :
    Res Error (ClientMessage G × σ) := do
  let ((q, saltString), s) ← generateSaltStrong R D rng username password s
  let pwHash ← hashPassword Hs bufsiz username password saltString params
  let cofactor : Scalar := 1
  let w ← scalarFromHash pwHash
  let verifier := (w * cofactor) • R.base
  let paramsString ← mapPh (Hs.toParamsString params)
  .ok (.strongRegistration username q paramsString verifier, s)

/-- `AuCPaceClient::register_alloc_strong`, aucpace/src/client.rs:280-315. -/
def registerAllocStrong (s : σ) (username password : Bytes) (params : Params) :
    Res Error (ClientMessage G × σ) := do
  let ((q, saltString), s) ← generateSaltStrong R D rng username password s
  let pwHash ← hashPasswordAlloc Hs username password saltString params
  let cofactor : Scalar := 1
  let w ← scalarFromHash pwHash
  let verifier := (w * cofactor) • R.base
  let paramsString ← mapPh (Hs.toParamsString params)
  .ok (.strongRegistration username q paramsString verifier, s)

/-- `AuCPaceClientSsidEstablish::agree_ssid`, aucpace/src/client.rs:379-382. -/
def agreeSsid (self : SsidEstablish) (serverNonce : Bytes) : PreAug :=
  ⟨computeSsid D serverNonce self.nonce⟩

/-- `AuCPaceClientPreAug::start_augmentation`, aucpace/src/client.rs:418-427. -/
def startAugmentation (self : PreAug) (username password : Bytes) : AugLayer × ClientMessage G :=
  (⟨self.ssid, username, password⟩, .username username)

/-- The loop of `start_augmentation_strong`, aucpace/src/client.rs:455-460. The loop has no bound;
`fuel` bounds the number of draws and `none` means that all of them were zero. -/
def drawBlinding : Nat → σ → Option (Scalar × σ)
  | 0, _ => none
  | fuel + 1, s =>
    let (val, s) := randomScalar rng s
    if val ≠ 0 then some (val, s) else drawBlinding fuel s

/-- The part of `start_augmentation_strong` after the loop, aucpace/src/client.rs:461-472. -/
def startAugmentationStrongWith (self : PreAug) (username password : Bytes)
    (blindingValue : Scalar) : StrongAugLayer × ClientMessage G :=
  let h := H 1
  let h := Digest.update h username
  let h := Digest.update h password
  let z := pointFromHash R D h
  let cofactor : Scalar := 1
  let blinded := (blindingValue * cofactor) • z
  (⟨self.ssid, username, password, blindingValue⟩, .strongUsername username blinded)

/-- `AuCPaceClientPreAug::start_augmentation_strong`, aucpace/src/client.rs:441-473; `none` means that
the loop has not ended after `fuel` draws. -/
def startAugmentationStrong (fuel : Nat) (self : PreAug) (username password : Bytes) (s : σ) :
    Option ((StrongAugLayer × ClientMessage G) × σ) := do
  let (blindingValue, s) ← drawBlinding rng fuel s
  some (startAugmentationStrongWith R D self username password blindingValue, s)

/-- `AuCPaceClientAugLayer::generate_cpace`, aucpace/src/client.rs:524-552. -/
def generateCpace (bufsiz : Nat) (self : AugLayer) (xPub : G) (salt : Bytes) (params : Params) :
    Res Error CPaceSubstep :=
  if xPub = 0 then .err .illegalPointError
  else do
    let cofactor : Scalar := 1
    let pwHash ← hashPassword Hs bufsiz self.username self.password salt params
    let w ← scalarFromHash pwHash
    let prs := R.compress ((w * cofactor) • xPub)
    .ok ⟨self.ssid, prs⟩

/-- `AuCPaceClientAugLayer::generate_cpace_alloc`, aucpace/src/client.rs:572-594. -/
def generateCpaceAlloc (self : AugLayer) (xPub : G) (salt : Bytes) (params : Params) :
    Res Error CPaceSubstep :=
  if xPub = 0 then .err .illegalPointError
  else do
    let cofactor : Scalar := 1
    let pwHash ← hashPasswordAlloc Hs self.username self.password salt params
    let w ← scalarFromHash pwHash
    let prs := R.compress ((w * cofactor) • xPub)
    .ok ⟨self.ssid, prs⟩

/-- `StrongAuCPaceClientAugLayer::generate_cpace`, aucpace/src/client.rs:654-688. `invert` of zero is
zero in curve25519-dalek, as in `ZMod ell`. -/
def generateCpaceStrong (bufsiz : Nat) (self : StrongAugLayer) (xPub blindedSalt : G)
    (params : Params) : Res Error CPaceSubstep :=
  if xPub = 0 then .err .illegalPointError
  else do
    let cofactor : Scalar := 1
    let exponent := (self.blindingValue * cofactor * cofactor)⁻¹ * cofactor
    let salt := R.compress (exponent • blindedSalt)
    let saltString ← encodeSalt salt
    let pwHash ← hashPassword Hs bufsiz self.username self.password saltString params
    let w ← scalarFromHash pwHash
    let prs := R.compress ((w * cofactor) • xPub)
    .ok ⟨self.ssid, prs⟩

/-- `StrongAuCPaceClientAugLayer::generate_cpace_alloc`, aucpace/src/client.rs:709-749. -/
def generateCpaceStrongAlloc (self : StrongAugLayer) (xPub blindedSalt : G) (params : Params) :
    Res Error CPaceSubstep :=
  if xPub = 0 then .err .illegalPointError
  else
    let cofactor : Scalar := 1
    let exponent := (self.blindingValue * cofactor * cofactor)⁻¹ * cofactor
    let saltPoint := exponent • blindedSalt
    if saltPoint = 0 then .err .illegalPointError
    else do
      let salt := R.compress saltPoint
      let saltString ← encodeSalt salt
      let pwHash ← hashPasswordAlloc Hs self.username self.password saltString params
      let w ← scalarFromHash pwHash
      let prs := R.compress ((w * cofactor) • xPub)
      .ok ⟨self.ssid, prs⟩

/-- `AuCPaceClientCPaceSubstep::generate_public_key`, aucpace/src/client.rs:783-802. -/
def generatePublicKey (self : CPaceSubstep) (channelIdentifier : Bytes) (s : σ) :
    (RecvServerKey × ClientMessage G) × σ :=
  let ((privKey, pubKey), s) := generateKeypair R D rng s self.ssid self.prs channelIdentifier
  ((⟨self.ssid, privKey⟩, .publicKey pubKey), s)

/-- `AuCPaceClientRecvServerKey::receive_server_pubkey`, aucpace/src/client.rs:833-850. -/
def receiveServerPubkey (self : RecvServerKey) (serverPubkey : G) :
    Res Error (ExpMutAuth × ClientMessage G) :=
  if serverPubkey = 0 then .err .illegalPointError
  else
    let sk1 := computeFirstSessionKey R D self.ssid self.privKey serverPubkey
    let (ta, tb) := computeAuthenticatorMessages D self.ssid sk1
    do
      let tb ← toArray 64 tb
      .ok (⟨self.ssid, sk1, ta⟩, .authenticator tb)

/-- `AuCPaceClientRecvServerKey::implicit_auth`, aucpace/src/client.rs:862-869. -/
def implicitAuth (self : RecvServerKey) (serverPubkey : G) : Res Error Bytes :=
  if serverPubkey = 0 then .err .illegalPointError
  else
    let sk1 := computeFirstSessionKey R D self.ssid self.privKey serverPubkey
    .ok (computeSessionKey D self.ssid sk1)

/-- `AuCPaceClientExpMutAuth::receive_server_authenticator`, aucpace/src/client.rs:906-916. -/
def receiveServerAuthenticator (self : ExpMutAuth) (serverAuthenticator : Bytes) :
    Res Error Bytes :=
  if ctEq self.serverAuthenticator serverAuthenticator then
    .ok (computeSessionKey D self.ssid self.sk1)
  else .err .mutualAuthFail

end
end Client

/-! ## aucpace/src/database.rs (read side) -/

/-- `Database::lookup_verifier`, aucpace/src/database.rs:20-23. -/
structure Database (G : Type) where
  lookupVerifier : Bytes → Option (G × Bytes × Bytes)

/-- `PartialAugDatabase::lookup_long_term_keypair`, aucpace/src/database.rs:68-71. -/
structure PartialAugDatabase (G : Type) where
  lookupLongTermKeypair : Bytes → Option (Scalar × G)

/-- `StrongDatabase::lookup_verifier_strong`, aucpace/src/database.rs:115-118. -/
structure StrongDatabase (G : Type) where
  lookupVerifierStrong : Bytes → Option (G × Scalar × Bytes)

/-! ## aucpace/src/server.rs -/

namespace Server

/-- `AuCPaceServer`, aucpace/src/server.rs:43-55 with `ServerSecret(u64)`, lines 34-40. -/
structure State (σ : Type) where
  rng : σ
  secret : Nat

/-- `AuCPaceServerSsidEstablish`, aucpace/src/server.rs:133-140. -/
structure SsidEstablish where
  secret : Nat
  nonce : Bytes

/-- `AuCPaceServerAugLayer`, aucpace/src/server.rs:173-179. -/
structure AugLayer where
  secret : Nat
  ssid : Bytes

/-- `AuCPaceServerCPaceSubstep`, aucpace/src/server.rs:519-527. -/
structure CPaceSubstep (σ : Type) where
  ssid : Bytes
  prs : Bytes
  rng : σ

/-- `AuCPaceServerRecvClientKey`, aucpace/src/server.rs:574-580. -/
structure RecvClientKey where
  ssid : Bytes
  privKey : Scalar

/-- `AuCPaceServerExpMutAuth`, aucpace/src/server.rs:634-640. -/
structure ExpMutAuth where
  ssid : Bytes
  sk1 : Bytes

section
variable {G : Type} [AddCommGroup G] [Module Scalar G] [DecidableEq G] (R : Ristretto G) (D : Digest)
  {σ : Type} (rng : Rng σ)

/-- `AuCPaceServer::new`, aucpace/src/server.rs:63-70. -/
def new (s : σ) : State σ :=
  let (secret, s) := rng.nextU64 s
  ⟨s, secret⟩

/-- `AuCPaceServer::begin`, aucpace/src/server.rs:79-88 (with `AuCPaceServerSsidEstablish::new`, lines
146-155). -/
def begin (k1 : Nat) (self : State σ) : (SsidEstablish × ServerMessage G) × State σ :=
  let (nonce, s) := generateNonce rng k1 self.rng
  ((⟨self.secret, nonce⟩, .nonce nonce), { self with rng := s })

/-- `AuCPaceServer::begin_prestablished_ssid`, aucpace/src/server.rs:99-114. -/
def beginPrestablishedSsid (self : State σ) (ssid : Bytes) : Res Error AugLayer :=
  if ssid.length < minSsidLen then .err .insecureSsid
  else
    let h := H 0
    let h := Digest.update h ssid
    .ok ⟨self.secret, D.finalize h⟩

/-- `AuCPaceServer::generate_long_term_keypair`, aucpace/src/server.rs:127-129. -/
def generateLongTermKeypair (self : State σ) : (Scalar × G) × State σ :=
  let (kp, s) := generateServerKeypair R rng self.rng
  (kp, { self with rng := s })

/-- `AuCPaceServerSsidEstablish::agree_ssid`, aucpace/src/server.rs:166-169. -/
def agreeSsid (self : SsidEstablish) (clientNonce : Bytes) : AugLayer :=
  ⟨self.secret, computeSsid D self.nonce clientNonce⟩

/-- `AuCPaceServerAugLayer::lookup_failed`, aucpace/src/server.rs:438-474. -/
def lookupFailed {ε : Type} (self : AugLayer) (username : Bytes) (xPub : G) (s : σ) :
    Res ε ((Bytes × ServerMessage G) × σ) := do
  let (prs, s) := rng.fill s 32
  let h := Digest.new
  let h := Digest.update h (leFixed 8 self.secret)
  let h := Digest.update h username
  let hash := D.finalize h
  let first ← Res.unwrap (slice hash 0 48)
  let salt ← Res.unwrap (Base64.saltEncode first)
  .ok ((prs, .augmentationInfo groupName xPub salt []), s)

/-- `AuCPaceServerAugLayer::lookup_failed_strong`, aucpace/src/server.rs:478-515. -/
def lookupFailedStrong (self : AugLayer) (username : Bytes) (blinded xPub : G) (s : σ) :
    Res Error ((Bytes × ServerMessage G) × σ) :=
  let (prs, s) := rng.fill s 32
  let h := Digest.new
  let h := Digest.update h (leFixed 8 self.secret)
  let h := Digest.update h username
  let cofactor : Scalar := 1
  let q := scalarFromHasher D h
  let fakeBlindedSalt := (q * cofactor) • blinded
  if fakeBlindedSalt = 0 then .err .illegalPointError
  else .ok ((prs, .strongAugmentationInfo groupName xPub fakeBlindedSalt []), s)

/-- `AuCPaceServerAugLayer::generate_prs`, aucpace/src/server.rs:371-398. -/
def generatePrs {ε : Type} (self : AugLayer) (username : Bytes) (db : Database G) (s : σ) (x : Scalar)
    (xPub : G) : Res ε ((Bytes × ServerMessage G) × σ) :=
  match db.lookupVerifier username with
  | some (w, salt, sigma) =>
    let cofactor : Scalar := 1
    let prs := R.compress (cofactor • (x • w))
    .ok ((prs, .augmentationInfo groupName xPub salt sigma), s)
  | none => lookupFailed D rng self username xPub s

/-- `AuCPaceServerAugLayer::generate_prs_strong`, aucpace/src/server.rs:403-435. -/
def generatePrsStrong (self : AugLayer) (username : Bytes) (blinded : G) (db : StrongDatabase G)
    (s : σ) (x : Scalar) (xPub : G) : Res Error ((Bytes × ServerMessage G) × σ) :=
  match db.lookupVerifierStrong username with
  | some (w, q, sigma) =>
    let cofactor : Scalar := 1
    let prs := R.compress ((x * cofactor) • w)
    let uq := (q * cofactor) • blinded
    if uq = 0 then .err .illegalPointError
    else .ok ((prs, .strongAugmentationInfo groupName xPub uq sigma), s)
  | none => lookupFailedStrong D rng self username blinded xPub s

/-- `AuCPaceServerAugLayer::generate_client_info`, aucpace/src/server.rs:201-222. The call returns no
`Result`; `ε` is arbitrary and only `panic` is possible besides `ok`. -/
def generateClientInfo {ε : Type} (self : AugLayer) (username : Bytes) (db : Database G) (s : σ) :
    Res ε (CPaceSubstep σ × ServerMessage G) := do
  let ((x, xPub), s) := generateServerKeypair R rng s
  let ((prs, message), s) ← generatePrs R D rng self username db s x xPub
  .ok (⟨self.ssid, prs, s⟩, message)

/-- `AuCPaceServerAugLayer::generate_client_info_partial_aug`, aucpace/src/server.rs:245-273. -/
def generateClientInfoPartialAug {ε : Type} (self : AugLayer) (username : Bytes) (db : Database G)
    (kdb : PartialAugDatabase G) (s : σ) : Res ε (CPaceSubstep σ × ServerMessage G) := do
  let ((prs, message), s) ←
    match kdb.lookupLongTermKeypair username with
    | some (x, xPub) => generatePrs R D rng self username db s x xPub
    | none =>
      let (xPub, s) := randomPoint rng R s
      lookupFailed D rng self username xPub s
  .ok (⟨self.ssid, prs, s⟩, message)

/-- `AuCPaceServerAugLayer::generate_client_info_strong`, aucpace/src/server.rs:294-317. -/
def generateClientInfoStrong (self : AugLayer) (username : Bytes) (blinded : G)
    (db : StrongDatabase G) (s : σ) : Res Error (CPaceSubstep σ × ServerMessage G) := do
  let ((x, xPub), s) := generateServerKeypair R rng s
  let ((prs, message), s) ← generatePrsStrong R D rng self username blinded db s x xPub
  .ok (⟨self.ssid, prs, s⟩, message)

/-- `AuCPaceServerAugLayer::generate_client_info_partial_strong`, aucpace/src/server.rs:339-368. -/
def generateClientInfoPartialStrong (self : AugLayer) (username : Bytes) (blinded : G)
    (db : StrongDatabase G) (kdb : PartialAugDatabase G) (s : σ) :
    Res Error (CPaceSubstep σ × ServerMessage G) := do
  let ((prs, message), s) ←
    match kdb.lookupLongTermKeypair username with
    | some (x, xPub) => generatePrsStrong R D rng self username blinded db s x xPub
    | none =>
      let (xPub, s) := randomPoint rng R s
      lookupFailedStrong D rng self username blinded xPub s
  .ok (⟨self.ssid, prs, s⟩, message)

/-- `AuCPaceServerCPaceSubstep::generate_public_key`, aucpace/src/server.rs:552-570. The generator is
consumed with `self`. -/
def generatePublicKey (self : CPaceSubstep σ) (channelIdentifier : Bytes) :
    RecvClientKey × ServerMessage G :=
  let ((privKey, pubKey), _) :=
    generateKeypair R D rng self.rng self.ssid self.prs channelIdentifier
  (⟨self.ssid, privKey⟩, .publicKey pubKey)

/-- `AuCPaceServerRecvClientKey::receive_client_pubkey`, aucpace/src/server.rs:599-610. -/
def receiveClientPubkey (self : RecvClientKey) (clientPubkey : G) : Res Error ExpMutAuth :=
  if clientPubkey = 0 then .err .illegalPointError
  else
    let sk1 := computeFirstSessionKey R D self.ssid self.privKey clientPubkey
    .ok ⟨self.ssid, sk1⟩

/-- `AuCPaceServerRecvClientKey::implicit_auth`, aucpace/src/server.rs:622-630. -/
def implicitAuth (self : RecvClientKey) (clientPubkey : G) : Res Error Bytes :=
  if clientPubkey = 0 then .err .illegalPointError
  else
    let sk1 := computeFirstSessionKey R D self.ssid self.privKey clientPubkey
    .ok (computeSessionKey D self.ssid sk1)

/-- `AuCPaceServerExpMutAuth::receive_client_authenticator`, aucpace/src/server.rs:664-680. -/
def receiveClientAuthenticator (self : ExpMutAuth) (clientAuthenticator : Bytes) :
    Res Error (Bytes × ServerMessage G) :=
  let (ta, tb) := computeAuthenticatorMessages D self.ssid self.sk1
  if ctEq tb clientAuthenticator then
    let sk := computeSessionKey D self.ssid self.sk1
    do
      let ta ← toArray 64 ta
      .ok (sk, .authenticator ta)
  else .err .mutualAuthFail

end
end Server
end Verif.Aucpace
