import Verif.Aucpace.Run
import Verif.Aucpace.Wire
import Verif.Basic.Stream

/-!
# The example programs (aucpace/examples)

`key_agreement.rs`, `key_agreement_partial_aug.rs` and `key_agreement_strong.rs`: a client thread and a server thread
connected by TCP; `key_agreement_no_std.rs`: one thread and two buffers. The three TCP programs differ only in the calls of
the augmentation layer.

Simplified: printing, timing and byte counters are left out; making hasher parameters from the `ParamsString` is the
parameter `fromPs` (`none`: a panic), what the programs do with scrypt is `Scrypt.fromPs`; every use of `OsRng` is a generator state of its own; a
program that ends with an error and one that panics are not distinguished.
-/

namespace Verif.Aucpace.Examples
open Verif.Stream Wire

section
variable {G : Type} [AddCommGroup G] [Module Scalar G] [DecidableEq G] (R : Ristretto G) (D : Digest)
  {Params : Type} (Hs : PwHasher Params) {σc σs : Type} (rngC : Rng σc) (rngS : Rng σs)

/-! ## Client thread -/

/-- Where the client thread waits for a message, key_agreement.rs:147, 169, 198, 214. -/
inductive ClientSt where
  | waitNonce (st : Client.SsidEstablish)
  | waitInfo (st : Client.AugLayer)
  | waitStrongInfo (st : Client.StrongAugLayer)
  | waitKey (st : Client.RecvServerKey)
  | waitAuth (st : Client.ExpMutAuth)
  | done (key : Bytes)

/-- key_agreement.rs:191-196. -/
def clientSendKey (ci : Bytes) (c' : σc) (st : Client.CPaceSubstep) : ClientSt × List (ClientMessage G) :=
  let ((st, m), _) := Client.generatePublicKey R D rngC st ci c'
  (.waitKey st, [m])

/-- What the client thread does with a message, key_agreement.rs:148-226 and key_agreement_strong.rs:152-231 (`strong`
holds the blinding value). -/
def clientRecv (fromPs : Bytes → Option Params) (strong : Option Scalar) (user pass ci : Bytes) (c' : σc) :
    ClientSt → ServerMessage G → Option (ClientSt × List (ClientMessage G))
  | .waitNonce st, .nonce n =>
    let st := Client.agreeSsid D st n
    match strong with
    | none =>
      let (st, m) := Client.startAugmentation (G := G) st user pass
      some (.waitInfo st, [m])
    | some r =>
      let (st, m) := Client.startAugmentationStrongWith R D st user pass r
      some (.waitStrongInfo st, [m])
  | .waitInfo st, .augmentationInfo _ xPub salt ps =>
    match fromPs ps with
    | none => none
    | some params =>
      match Client.generateCpaceAlloc R Hs st xPub salt params with
      | .ok st => some (clientSendKey R D rngC ci c' st)
      | _ => none
  | .waitStrongInfo st, .strongAugmentationInfo _ xPub blindedSalt ps =>
    match fromPs ps with
    | none => none
    | some params =>
      match Client.generateCpaceStrongAlloc R Hs st xPub blindedSalt params with
      | .ok st => some (clientSendKey R D rngC ci c' st)
      | _ => none
  | .waitKey st, .publicKey p =>
    match Client.receiveServerPubkey R D st p with
    | .ok (st, m) => some (.waitAuth st, [m])
    | _ => none
  | .waitAuth st, .authenticator a =>
    match Client.receiveServerAuthenticator D st a with
    | .ok k => some (.done k, [])
    | _ => none
  | _, _ => none

/-- The client thread, key_agreement.rs:138-227. -/
def client (fromPs : Bytes → Option Params) (strong : Option Scalar) (user pass ci : Bytes) (c c' : σc) :
    Proc (ServerMessage G) (ClientMessage G) where
  St := ClientSt
  init := .waitNonce (Client.begin (G := G) rngC 16 c).1.1
  first := [(Client.begin (G := G) rngC 16 c).1.2]
  recv := clientRecv R D Hs rngC fromPs strong user pass ci c'
  result
    | .done k => some k
    | _ => none

/-! ## Server thread -/

/-- Where the server thread waits for a message, key_agreement.rs:76, 85, 107, 115. -/
inductive ServerSt where
  | waitNonce (st : Server.SsidEstablish)
  | waitUser (st : Server.AugLayer)
  | waitKey (st : Server.RecvClientKey)
  | waitAuth (st : Server.ExpMutAuth)
  | done (key : Bytes)

/-- The database of the program; the second component is the one of the partially augmented protocol. -/
inductive ServerDb (G : Type) where
  | plain (db : Database G) (kdb : Option (PartialAugDatabase G))
  | strong (db : StrongDatabase G) (kdb : Option (PartialAugDatabase G))

/-- key_agreement.rs:91-105: send the augmentation information and the public key. -/
def serverSendInfo (ci : Bytes) : Res Error (Server.CPaceSubstep σs × ServerMessage G) →
    Option (ServerSt × List (ServerMessage G))
  | .ok (st, m) =>
    let (st, m') := Server.generatePublicKey R D rngS st ci
    some (.waitKey st, [m, m'])
  | _ => none

/-- What the server thread does with a message, key_agreement.rs:77-131, key_agreement_partial_aug.rs:93-98,
key_agreement_strong.rs:86-94. -/
def serverRecv (db : ServerDb G) (ci : Bytes) (sr : σs) :
    ServerSt → ClientMessage G → Option (ServerSt × List (ServerMessage G))
  | .waitNonce st, .nonce n => some (.waitUser (Server.agreeSsid D st n), [])
  | .waitUser st, .username u =>
    match db with
    | .plain db kdb => serverSendInfo R D rngS ci (Run.serverInfo R D rngS db kdb st u sr)
    | .strong _ _ => none
  | .waitUser st, .strongUsername u blinded =>
    match db with
    | .plain _ _ => none
    | .strong db kdb => serverSendInfo R D rngS ci (Run.serverInfoStrong R D rngS db kdb st u blinded sr)
  | .waitKey st, .publicKey p =>
    match Server.receiveClientPubkey R D st p with
    | .ok st => some (.waitAuth st, [])
    | _ => none
  | .waitAuth st, .authenticator a =>
    match Server.receiveClientAuthenticator (G := G) D st a with
    | .ok (k, m) => some (.done k, [m])
    | _ => none
  | _, _ => none

/-- The server thread, key_agreement.rs:60-135. -/
def server (db : ServerDb G) (ci : Bytes) (sv : Server.State σs) (sr : σs) :
    Proc (ClientMessage G) (ServerMessage G) where
  St := ServerSt
  init := .waitNonce (Server.begin (G := G) rngS 16 sv).1.1
  first := [(Server.begin (G := G) rngS 16 sv).1.2]
  recv := serverRecv R D rngS db ci sr
  result
    | .done k => some k
    | _ => none

/-! ## Messages on the connection -/

theorem bincode_idx_ne (n : Nat) : bincode.encIdx n ≠ [] := by
  intro h
  have := congrArg List.length h
  simp [bincode] at this

/-- `bincode::serialize` in `send!` and `bincode::deserialize` in `recv!`, key_agreement.rs:14-30, of client messages with
16-byte nonces. `valid`: the values the Rust type can hold. -/
def clientCodec (strong : Bool) (paramsOk : Bytes → Bool) : Codec (ClientMessage G) where
  enc := encClient bincode R strong
  dec := decClient bincode R strong 16 paramsOk
  valid m := clientTag m ∈ clientVariants strong ∧ ClientOk 16 paramsOk m
  dec_enc m r h := C51_client bincode R strong 16 paramsOk m r h.1 h.2
  enc_ne _ h := bincode_idx_ne _ (List.append_eq_nil_iff.1 h).1

/-- The same for server messages. -/
def serverCodec (strong : Bool) (paramsOk : Bytes → Bool) : Codec (ServerMessage G) where
  enc := encServer bincode R strong
  dec := decServer bincode R strong 16 paramsOk
  valid m := serverTag m ∈ serverVariants strong ∧ ServerOk 16 paramsOk m
  dec_enc m r h := C51_server bincode R strong 16 paramsOk m r h.1 h.2
  enc_ne _ h := bincode_idx_ne _ (List.append_eq_nil_iff.1 h).1

end

/-! ## `TcpChannelIdentifier` -/

/-- `std::net::IpAddr`. -/
inductive IpAddr where
  | v4 (octets : Bytes)
  | v6 (octets : Bytes)
  deriving DecidableEq

/-- `std::net::SocketAddr`; `flowinfo` and `scopeId` only occur with IPv6. -/
structure SocketAddr where
  ip : IpAddr
  port : Nat
  flowinfo : Nat := 0
  scopeId : Nat := 0
  deriving DecidableEq

/-- `addr.octets()`. -/
def IpAddr.octets : IpAddr → Bytes
  | .v4 o => o
  | .v6 o => o

/-- `TcpChannelIdentifier::new`, key_agreement.rs:288-308 (the same in the other two TCP examples); `write_all` to a `Vec`
does not fail. -/
def tcpChannelIdentifier (src dst : SocketAddr) : Bytes :=
  let id : Bytes := []
  let id := id ++ src.ip.octets
  let id := id ++ ascii ":"
  let id := id ++ beFixed 2 src.port
  let id := id ++ ascii ":"
  let id := id ++ dst.ip.octets
  let id := id ++ ascii ":"
  id ++ beFixed 2 dst.port

/-! ## `SingleUserDatabase` -/

/-- `SingleUserDatabase`, key_agreement_partial_aug.rs:258-263 (key_agreement.rs:250-254 has no key pair,
key_agreement_strong.rs:254-258 an exponent for the salt): `V` is verifier, salt and parameters. -/
structure SingleUserDb (V K : Type) where
  user : Option Bytes
  data : Option V
  keypair : Option K

namespace SingleUserDb
variable {V K : Type}

/-- `Default::default()`. -/
def empty : SingleUserDb V K := ⟨none, none, none⟩

/-- `lookup_verifier`, key_agreement.rs:259-267. -/
def lookupVerifier (d : SingleUserDb V K) (username : Bytes) : Option V :=
  match d.user with
  | some stored => if stored = username then d.data else none
  | none => none

/-- `store_verifier`, key_agreement.rs:269-279. -/
def storeVerifier (d : SingleUserDb V K) (username : Bytes) (v : V) : SingleUserDb V K :=
  { d with user := some username, data := some v }

/-- `lookup_long_term_keypair`, key_agreement_partial_aug.rs:295-303. -/
def lookupKeypair (d : SingleUserDb V K) (username : Bytes) : Option K :=
  match d.user with
  | some stored => if stored = username then d.keypair else none
  | none => none

/-- `store_long_term_keypair`, key_agreement_partial_aug.rs:305-318. -/
def storeKeypair (d : SingleUserDb V K) (username : Bytes) (k : K) : Res Error (SingleUserDb V K) :=
  match d.user with
  | some stored =>
    if stored = username then .ok { d with keypair := some k } else .err .userNotRegistered
  | none => .err .userNotRegistered

end SingleUserDb

/-- `SingleUserDatabase<USERSIZE>`, key_agreement_no_std.rs:243-247. -/
structure FixedUserDb (V : Type) where
  user : Option (Bytes × Nat)
  data : Option V

namespace FixedUserDb
variable {V : Type}

def empty : FixedUserDb V := ⟨none, none⟩

/-- `lookup_verifier`, key_agreement_no_std.rs:252-262; the slice panics when the stored length is too large. -/
def lookupVerifier (d : FixedUserDb V) (username : Bytes) : Res Error (Option V) :=
  match d.user with
  | some (stored, len) => do
    let s ← Res.unwrap (slice stored 0 len)
    if s = username then .ok d.data else .ok none
  | none => .ok none

/-- `store_verifier`, key_agreement_no_std.rs:264-280. -/
def storeVerifier (userSize : Nat) (d : FixedUserDb V) (username : Bytes) (v : V) : Res Error (FixedUserDb V) :=
  if username.length ≤ userSize then do
    let buf : Bytes := List.replicate userSize 0
    let buf ← Res.unwrap (copyInto buf 0 username.length username)
    .ok ⟨some (buf, username.length), some v⟩
  else .ok d

end FixedUserDb

/-! ## `key_agreement_no_std.rs` -/

section
variable {G : Type} [AddCommGroup G] [Module Scalar G] [DecidableEq G] (R : Ristretto G) (D : Digest)
  {Params : Type} (Hs : PwHasher Params) {σc σs : Type} (rngC : Rng σc) (rngS : Rng σs)

/-- `send!(buf, msg)` and then `recv!(buf)`, key_agreement_no_std.rs:14-27: serialise into a buffer of 1024 zero bytes
(`to_slice` fails when the message is longer), then decode the buffer, ignoring what follows the message. -/
def passClient (strong : Bool) (paramsOk : Bytes → Bool) (m : ClientMessage G) : Res Error (ClientMessage G) := do
  let buf ← Res.unwrap (copyInto (List.replicate 1024 0) 0 (encClient postcard R strong m).length
    (encClient postcard R strong m))
  let (m, _) ← Res.unwrap (decClient postcard R strong 16 paramsOk buf)
  .ok m

def passServer (strong : Bool) (paramsOk : Bytes → Bool) (m : ServerMessage G) : Res Error (ServerMessage G) := do
  let buf ← Res.unwrap (copyInto (List.replicate 1024 0) 0 (encServer postcard R strong m).length
    (encServer postcard R strong m))
  let (m, _) ← Res.unwrap (decServer postcard R strong 16 paramsOk buf)
  .ok m

/-- The key agreement of the program, key_agreement_no_std.rs:70-226, with the assertion at its end. -/
def noStd (strong : Bool) (paramsOk : Bytes → Bool) (fromPs : Bytes → Option Params) (db : Database G)
    (user pass : Bytes) (c : σc) (sv : Server.State σs) (sr : σs) (c' : σc) : Res Error (Bytes × Bytes) := do
  let ((cli, m), _) := Client.begin (G := G) rngC 16 c
  match ← passClient R strong paramsOk m with
  | .nonce t => do
    let ((srv, m), _) := Server.begin (G := G) rngS 16 sv
    let m ← passServer R strong paramsOk m
    let srv := Server.agreeSsid D srv t
    match m with
    | .nonce s => do
      let cli := Client.agreeSsid D cli s
      let (cli, m) := Client.startAugmentation (G := G) cli user pass
      match ← passClient R strong paramsOk m with
      | .username u => do
        let (srv, m) ← Server.generateClientInfo R D rngS srv u db sr
        match ← passServer R strong paramsOk m with
        | .augmentationInfo _ xPub salt ps => do
          let params ← Res.unwrap (fromPs ps)
          let cli ← Client.generateCpace R Hs 100 cli xPub salt params
          let ci := ascii "channel_identifier"
          let (srv, sm) := Server.generatePublicKey R D rngS srv ci
          let ((cli, cm), _) := Client.generatePublicKey R D rngC cli ci c'
          match ← passClient R strong paramsOk cm with
          | .publicKey yb => do
            let srv ← Server.receiveClientPubkey R D srv yb
            match ← passServer R strong paramsOk sm with
            | .publicKey ya => do
              let (cli, m) ← Client.receiveServerPubkey R D cli ya
              match ← passClient R strong paramsOk m with
              | .authenticator tb => do
                let (skS, m) ← Server.receiveClientAuthenticator (G := G) D srv tb
                match ← passServer R strong paramsOk m with
                | .authenticator ta => do
                  match Client.receiveServerAuthenticator D cli ta with
                  | .ok skC => if skC = skS then .ok (skC, skS) else .panic
                  | _ => .panic
                | _ => .panic
              | _ => .panic
            | _ => .panic
          | _ => .panic
        | _ => .panic
      | _ => .panic
    | _ => .panic
  | _ => .panic

/-- The whole program, key_agreement_no_std.rs:29-240, for any username and password: register, store in a database for
usernames of up to 100 bytes, agree on a key. The lookup cannot panic on a database that was filled by `store_verifier`
(`C65_fixed`). -/
def noStdMain {σr : Type} (rngR : Rng σr) (strong : Bool) (paramsOk : Bytes → Bool) (fromPs : Bytes → Option Params)
    (params : Params) (user pass : Bytes) (s : σr) (c : σc) (sv : Server.State σs) (sr : σs) (c' : σc) :
    Res Error (Bytes × Bytes) := do
  let d : FixedUserDb (G × Bytes × Bytes) := FixedUserDb.empty
  let (m, _) ← Client.register R Hs rngR 100 s user pass params
  let d ← match m with
    | .registration username salt ps verifier => FixedUserDb.storeVerifier 100 d username (verifier, salt, ps)
    | _ => .ok d
  let db : Database G := ⟨fun u => match d.lookupVerifier u with
    | .ok r => r
    | _ => none⟩
  noStd R D Hs rngC rngS strong paramsOk fromPs db user pass c sv sr c'

end
end Verif.Aucpace.Examples
