import Verif.Aucpace.Model

/-!
# Honest exchanges

The order in which an application calls the two APIs and carries messages across, as in
`/repo/aucpace/tests/test_key_agreement*.rs` and `/repo/aucpace/examples/*.rs`. Each function calls only
the API of the model; a message of another kind than the one expected makes the run `panic` (as the
tests do), so "does not panic" includes "the messages are of the expected kind".

`fromParamsString` is the application's way back from the `ParamsString` sent by the server to hasher
parameters (the examples build `scrypt::Params` from it).
-/

namespace Verif.Aucpace.Run

section
variable {G : Type} [AddCommGroup G] [Module Scalar G] [DecidableEq G] (R : Ristretto G) (D : Digest)
  {Params : Type} (Hs : PwHasher Params) {σc σs : Type} (rngC : Rng σc) (rngS : Rng σs)

/-- SSID agreement by nonces, test_key_agreement.rs:54-69. -/
def ssidByNonces (k1 : Nat) (c : σc) (sv : Server.State σs) :
    Res Error (Client.PreAug × Server.AugLayer) :=
  let ((cli, cm), _) := Client.begin (G := G) rngC k1 c
  let ((srv, sm), _) := Server.begin (G := G) rngS k1 sv
  match cm, sm with
  | .nonce t, .nonce s => .ok (Client.agreeSsid D cli s, Server.agreeSsid D srv t)
  | _, _ => .panic

/-- Pre-established SSID on both sides. -/
def ssidPrestablished (ssid : Bytes) (sv : Server.State σs) :
    Res Error (Client.PreAug × Server.AugLayer) := do
  let cli ← Client.beginPrestablishedSsid D ssid
  let srv ← Server.beginPrestablishedSsid D sv ssid
  .ok (cli, srv)

/-- How the client processes the augmentation information: heap variant or buffer of a size. -/
inductive Buf where
  | alloc
  | fixed (bufsiz : Nat)

/-- The buffer can hold `username:password`. -/
def Buf.fits : Buf → Bytes → Bytes → Prop
  | .alloc, _, _ => True
  | .fixed n, user, pass => user.length + pass.length + 1 ≤ n

instance (b : Buf) (u p : Bytes) : Decidable (b.fits u p) := by
  cases b <;> unfold Buf.fits <;> infer_instance

/-- The client's `register` or `register_alloc`. -/
def register {σ : Type} (rng : Rng σ) (buf : Buf) (s : σ) (user pass : Bytes) (params : Params) :
    Res Error (ClientMessage G × σ) :=
  match buf with
  | .alloc => Client.registerAlloc R Hs rng s user pass params
  | .fixed n => Client.register R Hs rng n s user pass params

/-- The client's `register_strong` or `register_alloc_strong`. -/
def registerStrong {σ : Type} (rng : Rng σ) (buf : Buf) (s : σ) (user pass : Bytes)
    (params : Params) : Res Error (ClientMessage G × σ) :=
  match buf with
  | .alloc => Client.registerAllocStrong R D Hs rng s user pass params
  | .fixed n => Client.registerStrong R D Hs rng n s user pass params

/-- The client's `generate_cpace` or `generate_cpace_alloc`. -/
def clientCpace (buf : Buf) (cli : Client.AugLayer) (xPub : G) (salt : Bytes) (params : Params) :
    Res Error Client.CPaceSubstep :=
  match buf with
  | .alloc => Client.generateCpaceAlloc R Hs cli xPub salt params
  | .fixed n => Client.generateCpace R Hs n cli xPub salt params

/-- The strong client's `generate_cpace` or `generate_cpace_alloc`. -/
def clientCpaceStrong (buf : Buf) (cli : Client.StrongAugLayer) (xPub blindedSalt : G)
    (params : Params) : Res Error Client.CPaceSubstep :=
  match buf with
  | .alloc => Client.generateCpaceStrongAlloc R Hs cli xPub blindedSalt params
  | .fixed n => Client.generateCpaceStrong R Hs n cli xPub blindedSalt params

/-- The server's `generate_client_info` (`kdb = none`) or `generate_client_info_partial_aug`. -/
def serverInfo (db : Database G) (kdb : Option (PartialAugDatabase G)) (srv : Server.AugLayer)
    (u : Bytes) (sr : σs) : Res Error (Server.CPaceSubstep σs × ServerMessage G) :=
  match kdb with
  | none => Server.generateClientInfo R D rngS srv u db sr
  | some kdb => Server.generateClientInfoPartialAug R D rngS srv u db kdb sr

/-- The server's `generate_client_info_strong` (`kdb = none`) or
`generate_client_info_partial_strong`. -/
def serverInfoStrong (db : StrongDatabase G) (kdb : Option (PartialAugDatabase G))
    (srv : Server.AugLayer) (u : Bytes) (blinded : G) (sr : σs) :
    Res Error (Server.CPaceSubstep σs × ServerMessage G) :=
  match kdb with
  | none => Server.generateClientInfoStrong R D rngS srv u blinded db sr
  | some kdb => Server.generateClientInfoPartialStrong R D rngS srv u blinded db kdb sr

/-- Augmentation layer, plain (`kdb = none`) or partially augmented,
`test_core` of test_key_agreement.rs. -/
def augment (fromParamsString : Bytes → Params) (buf : Buf) (db : Database G)
    (kdb : Option (PartialAugDatabase G)) (cli : Client.PreAug) (srv : Server.AugLayer)
    (user pass : Bytes) (sr : σs) : Res Error (Client.CPaceSubstep × Server.CPaceSubstep σs) := do
  let (cli, m) := Client.startAugmentation (G := G) cli user pass
  match m with
  | .username u => do
    let (srv, m) ← serverInfo R D rngS db kdb srv u sr
    match m with
    | .augmentationInfo _ xPub salt ps => do
      let cli ← clientCpace R Hs buf cli xPub salt (fromParamsString ps)
      .ok (cli, srv)
    | _ => .panic
  | _ => .panic

/-- Augmentation layer of the strong variants; `r` is the blinding value that the client's loop
ended with. -/
def augmentStrong (fromParamsString : Bytes → Params) (buf : Buf) (db : StrongDatabase G)
    (kdb : Option (PartialAugDatabase G)) (cli : Client.PreAug) (srv : Server.AugLayer)
    (user pass : Bytes) (r : Scalar) (sr : σs) :
    Res Error (Client.CPaceSubstep × Server.CPaceSubstep σs) := do
  let (cli, m) := Client.startAugmentationStrongWith R D cli user pass r
  match m with
  | .strongUsername u blinded => do
    let (srv, m) ← serverInfoStrong R D rngS db kdb srv u blinded sr
    match m with
    | .strongAugmentationInfo _ xPub blindedSalt ps => do
      let cli ← clientCpaceStrong R Hs buf cli xPub blindedSalt (fromParamsString ps)
      .ok (cli, srv)
    | _ => .panic
  | _ => .panic

/-- CPace substep and explicit mutual authentication, test_key_agreement.rs:72-101 and `test_core`. Returns the
client's and the server's session key. -/
def explicit (cli : Client.CPaceSubstep) (srv : Server.CPaceSubstep σs) (ciC ciS : Bytes) (c : σc) :
    Res Error (Bytes × Bytes) := do
  let ((cli, cm), _) := Client.generatePublicKey R D rngC cli ciC c
  let (srv, sm) := Server.generatePublicKey R D rngS srv ciS
  match cm, sm with
  | .publicKey yb, .publicKey ya => do
    let (cli, cm) ← Client.receiveServerPubkey R D cli ya
    let srv ← Server.receiveClientPubkey R D srv yb
    match cm with
    | .authenticator tb => do
      let (skS, sm) ← Server.receiveClientAuthenticator (G := G) D srv tb
      match sm with
      | .authenticator ta => do
        let skC ← Client.receiveServerAuthenticator D cli ta
        .ok (skC, skS)
      | _ => .panic
    | _ => .panic
  | _, _ => .panic

/-- How the two sides come to an SSID. -/
inductive Start where
  | nonces (k1 : Nat)
  | prestablished (ssid : Bytes)

/-- The SSID stage. -/
def ssidStage (start : Start) (c : σc) (sv : Server.State σs) :
    Res Error (Client.PreAug × Server.AugLayer) :=
  match start with
  | .nonces k1 => ssidByNonces (G := G) D rngC rngS k1 c sv
  | .prestablished ssid => ssidPrestablished D ssid sv

/-- CPace substep with implicit authentication on both sides. -/
def implicit (cli : Client.CPaceSubstep) (srv : Server.CPaceSubstep σs) (ciC ciS : Bytes) (c : σc) :
    Res Error (Bytes × Bytes) := do
  let ((cli, cm), _) := Client.generatePublicKey R D rngC cli ciC c
  let (srv, sm) := Server.generatePublicKey R D rngS srv ciS
  match cm, sm with
  | .publicKey yb, .publicKey ya => do
    let skC ← Client.implicitAuth R D cli ya
    let skS ← Server.implicitAuth R D srv yb
    .ok (skC, skS)
  | _, _ => .panic

/-- The server's `x` and the generator state after obtaining it. -/
def serverX (kdb : Option (PartialAugDatabase G)) (user : Bytes) (sr : σs) : Scalar × σs :=
  match kdb with
  | none => (leToNat (rngS.fill sr 64).1, (rngS.fill sr 64).2)
  | some k => (((k.lookupLongTermKeypair user).map Prod.fst).getD 0, sr)

/-- A whole login of the plain (`kdb = none`) or partially augmented protocol: SSID stage with states
`c`, `sv`, augmentation with server generator `sr`, CPace with client generator `c'`; `auth` is
`explicit` or `implicit`. -/
def login
    (auth : Client.CPaceSubstep → Server.CPaceSubstep σs → Bytes → Bytes → σc →
      Res Error (Bytes × Bytes))
    (fromParamsString : Bytes → Params) (buf : Buf) (db : Database G)
    (kdb : Option (PartialAugDatabase G)) (start : Start) (user pass ci : Bytes)
    (c : σc) (sv : Server.State σs) (sr : σs) (c' : σc) : Res Error (Bytes × Bytes) := do
  let (cli, srv) ← ssidStage (G := G) D rngC rngS start c sv
  let (cli, srv) ← augment R D Hs rngS fromParamsString buf db kdb cli srv user pass sr
  auth cli srv ci ci c'

/-- A whole login of the strong (`kdb = none`) or strong partially augmented protocol. -/
def loginStrong
    (auth : Client.CPaceSubstep → Server.CPaceSubstep σs → Bytes → Bytes → σc →
      Res Error (Bytes × Bytes))
    (fromParamsString : Bytes → Params) (buf : Buf) (db : StrongDatabase G)
    (kdb : Option (PartialAugDatabase G)) (start : Start) (user pass ci : Bytes) (r : Scalar)
    (c : σc) (sv : Server.State σs) (sr : σs) (c' : σc) : Res Error (Bytes × Bytes) := do
  let (cli, srv) ← ssidStage (G := G) D rngC rngS start c sv
  let (cli, srv) ← augmentStrong R D Hs rngS fromParamsString buf db kdb cli srv user pass r sr
  auth cli srv ci ci c'

end
end Verif.Aucpace.Run
