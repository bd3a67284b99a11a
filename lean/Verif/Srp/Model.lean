import Verif.Basic.Res
import Verif.Basic.Bytes
import Verif.Basic.Digest
import Verif.Basic.PowMod

/-!
# Model of the `srp` crate

Transcription of `/repo/srp/src/{utils,client,server,types}.rs`. `BigUint` is `Nat`. The type
parameter `D: Digest` is the explicit argument `D`. `SrpClient<'a, D>` / `SrpServer<'a, D>` hold
only the group, so they are represented by the group.

Simplifications: references and clones are dropped; `PhantomData` is dropped; the strings in
errors are kept.
-/

namespace Verif.Srp

/-- `SrpAuthError`, srp/src/types.rs:7-10. -/
inductive SrpAuthError where
  | illegalParameter (param : String)
  | badRecordMac (param : String)
  deriving DecidableEq, Repr

/-- `impl Display for SrpAuthError`, srp/src/types.rs:12-23. -/
def SrpAuthError.display : SrpAuthError → String
  | .illegalParameter param => "illegal_parameter: bad '" ++ param ++ "' value"
  | .badRecordMac param => "bad_record_mac: incorrect '" ++ param ++ "'  proof"

/-- `SrpGroup`, srp/src/types.rs:27-32. -/
structure SrpGroup where
  n : Nat
  g : Nat
  deriving DecidableEq, Repr

section BigUint
variable {ε : Type}

/-- `b.modpow(e, m)`: num-bigint asserts that the modulus is not zero. -/
def modpow (b e m : Nat) : Res ε Nat := if m = 0 then .panic else .ok (powMod b e m)

/-- `a % m`: num-bigint panics on division by zero. -/
def rem (a m : Nat) : Res ε Nat := if m = 0 then .panic else .ok (a % m)

/-- `a - b`: num-bigint panics when the result would be negative. -/
def sub (a b : Nat) : Res ε Nat := if a < b then .panic else .ok (a - b)

end BigUint

section Utils
variable {ε : Type} (D : Digest)

/-- `compute_u`, srp/src/utils.rs:8-13. -/
def computeU (aPub bPub : Bytes) : Nat :=
  let u := Digest.new
  let u := Digest.update u aPub
  let u := Digest.update u bPub
  beToNat (D.finalize u)

/-- `compute_k`, srp/src/utils.rs:17-28. The subtraction on line 21 underflows (debug: panic,
release: the slice on line 22 is out of bounds and panics) when `g` is longer than `n`. -/
def computeK (params : SrpGroup) : Res ε Nat :=
  let n := toBytesBE params.n
  let gBytes := toBytesBE params.g
  let buf : Bytes := List.replicate n.length 0
  if n.length < gBytes.length then .panic else
    let l := n.length - gBytes.length
    match copyInto buf l n.length gBytes with
    | none => .panic
    | some buf =>
      let d := Digest.new
      let d := Digest.update d n
      let d := Digest.update d buf
      .ok (beToNat (D.finalize d))

/-- `compute_m1`, srp/src/utils.rs:33-39. -/
def computeM1 (aPub bPub key : Bytes) : Bytes :=
  let d := Digest.new
  let d := Digest.update d aPub
  let d := Digest.update d bPub
  let d := Digest.update d key
  D.finalize d

/-- `compute_m2`, srp/src/utils.rs:43-49. -/
def computeM2 (aPub m1 key : Bytes) : Bytes :=
  let d := Digest.new
  let d := Digest.update d aPub
  let d := Digest.update d m1
  let d := Digest.update d key
  D.finalize d

end Utils

/-- `SrpClientVerifier` and `SrpServerVerifier` have the same fields
(srp/src/client.rs:102-106, srp/src/server.rs:78-82) but are separate types. -/
structure SrpClientVerifier where
  m1 : Bytes
  m2 : Bytes
  key : Bytes
  deriving DecidableEq, Repr

/-- `SrpServerVerifier`, srp/src/server.rs:78-82. -/
structure SrpServerVerifier where
  m1 : Bytes
  m2 : Bytes
  key : Bytes
  deriving DecidableEq, Repr

namespace Client
variable {ε : Type} (D : Digest) (params : SrpGroup)

/-- `SrpClient::compute_a_pub`, srp/src/client.rs:119-121. -/
def computeAPub (a : Nat) : Res ε Nat := modpow params.g a params.n

/-- `SrpClient::compute_identity_hash`, srp/src/client.rs:125-131. -/
def computeIdentityHash (username password : Bytes) : Bytes :=
  let d := Digest.new
  let d := Digest.update d username
  let d := Digest.update d (ascii ":")
  let d := Digest.update d password
  D.finalize d

/-- `SrpClient::compute_x`, srp/src/client.rs:135-140. -/
def computeX (identityHash salt : Bytes) : Nat :=
  let x := Digest.new
  let x := Digest.update x salt
  let x := Digest.update x identityHash
  beToNat (D.finalize x)

/-- `SrpClient::compute_premaster_secret`, srp/src/client.rs:144-162. -/
def computePremasterSecret (bPub k x a u : Nat) : Res ε Nat := do
  let gx ← modpow params.g x params.n
  let base ← rem (k * gx) params.n
  let diff ← sub (params.n + bPub) base
  let base ← rem diff params.n
  let exp := u * x + a
  modpow base exp params.n

/-- `SrpClient::compute_v`, srp/src/client.rs:166-168. -/
def computeV (x : Nat) : Res ε Nat := modpow params.g x params.n

/-- `SrpClient::compute_verifier`, srp/src/client.rs:172-176. -/
def computeVerifier (username password salt : Bytes) : Res ε Bytes := do
  let identityHash := computeIdentityHash D username password
  let x := computeX D identityHash salt
  let v ← computeV params x
  return toBytesBE v

/-- `SrpClient::compute_public_ephemeral`, srp/src/client.rs:181-183. -/
def computePublicEphemeral (a : Bytes) : Res ε Bytes := do
  let aPub ← computeAPub params (beToNat a)
  return toBytesBE aPub

/-- `SrpClient::process_reply`, srp/src/client.rs:189-226. -/
def processReply (a username password salt bPub : Bytes) : Res SrpAuthError SrpClientVerifier := do
  let a := beToNat a
  let aPub ← computeAPub params a
  let bPub := beToNat bPub
  let r ← rem bPub params.n
  if r = 0 then .err (.illegalParameter "b_pub") else
    let u := computeU D (toBytesBE aPub) (toBytesBE bPub)
    let k ← computeK D params
    let identityHash := computeIdentityHash D username password
    let x := computeX D identityHash salt
    let key ← computePremasterSecret params bPub k x a u
    let m1 := computeM1 D (toBytesBE aPub) (toBytesBE bPub) (toBytesBE key)
    let m2 := computeM2 D (toBytesBE aPub) m1 (toBytesBE key)
    return { m1 := m1, m2 := m2, key := toBytesBE key }

end Client

namespace SrpClientVerifier

/-- `SrpClientVerifier::proof`, srp/src/client.rs:238-240. (`key()`, lines 233-235, is the field.) -/
def proof (s : SrpClientVerifier) : Bytes := s.m1

/-- `SrpClientVerifier::verify_server`, srp/src/client.rs:243-249. -/
def verifyServer (s : SrpClientVerifier) (reply : Bytes) : Res SrpAuthError Unit :=
  if ctEq s.m2 reply then .ok () else .err (.badRecordMac "server")

end SrpClientVerifier

namespace Server
variable {ε : Type} (D : Digest) (params : SrpGroup)

/-- `SrpServer::compute_b_pub`, srp/src/server.rs:96-99. -/
def computeBPub (b k v : Nat) : Res ε Nat := do
  let inter ← rem (k * v) params.n
  let gb ← modpow params.g b params.n
  rem (inter + gb) params.n

/-- `SrpServer::compute_premaster_secret`, srp/src/server.rs:103-113. -/
def computePremasterSecret (aPub v u b : Nat) : Res ε Nat := do
  let vu ← modpow v u params.n
  let base ← rem (aPub * vu) params.n
  modpow base b params.n

/-- `SrpServer::compute_public_ephemeral`, srp/src/server.rs:117-124. -/
def computePublicEphemeral (b v : Bytes) : Res ε Bytes := do
  let k ← computeK D params
  let bPub ← computeBPub params (beToNat b) k (beToNat v)
  return toBytesBE bPub

/-- `SrpServer::process_reply`, srp/src/server.rs:129-164. -/
def processReply (b v aPub : Bytes) : Res SrpAuthError SrpServerVerifier := do
  let b := beToNat b
  let v := beToNat v
  let aPub := beToNat aPub
  let k ← computeK D params
  let bPub ← computeBPub params b k v
  let r ← rem aPub params.n
  if r = 0 then .err (.illegalParameter "a_pub") else
    let u := computeU D (toBytesBE aPub) (toBytesBE bPub)
    let key ← computePremasterSecret params aPub v u b
    let m1 := computeM1 D (toBytesBE aPub) (toBytesBE bPub) (toBytesBE key)
    let m2 := computeM2 D (toBytesBE aPub) m1 (toBytesBE key)
    return { m1 := m1, m2 := m2, key := toBytesBE key }

end Server

namespace SrpServerVerifier

/-- `SrpServerVerifier::proof`, srp/src/server.rs:175-178. (`key()`, lines 170-172, is the field.) -/
def proof (s : SrpServerVerifier) : Bytes := s.m2

/-- `SrpServerVerifier::verify_client`, srp/src/server.rs:181-187. -/
def verifyClient (s : SrpServerVerifier) (reply : Bytes) : Res SrpAuthError Unit :=
  if ctEq s.m1 reply then .ok () else .err (.badRecordMac "client")

end SrpServerVerifier

end Verif.Srp
