import Verif.Aucpace.RunLemmas
import Verif.Aucpace.World

/-!
# C103: the work of the server tells whether a user is registered

The server is written once more with a record of the operations that take time: drawing random bytes, hashing, operations in the group and
modulo its order, encoding. Each recorded operation also computes its result, and the recorded functions are shown to return what the functions of
`Model.lean` return. That one operation takes the same time for all operands (of the same length) is assumed, as is that the databases look up all
users in the same time; the comparison of authenticators is treated in C81 and is one operation here.
-/

set_option linter.unusedSectionVars false

namespace Verif.Aucpace.Work
open Run

/-- An operation that takes time. -/
inductive Op where
  /-- `fill_bytes` for `n` bytes -/
  | fill (n : Nat)
  /-- hashing `n` bytes -/
  | hash (n : Nat)
  /-- the map from 64 bytes to the group -/
  | toPoint
  /-- reduction of 64 bytes modulo the order -/
  | reduce
  /-- product of two scalars -/
  | scalarMul
  /-- product of an element and a scalar -/
  | mul
  /-- `compress` -/
  | compress
  /-- `is_identity` -/
  | isIdentity
  /-- base64 of `n` bytes -/
  | base64 (n : Nat)
  /-- `ct_eq` of `n` and `m` bytes -/
  | ctEq (n m : Nat)
  deriving DecidableEq, Repr

/-- An outcome with the operations up to it. -/
@[ext] structure Rec (ε α : Type) where
  out : Res ε α
  ops : List Op

namespace Rec
variable {ε α β : Type}

def bind (x : Rec ε α) (f : α → Rec ε β) : Rec ε β :=
  match x with
  | ⟨.ok a, t⟩ => ⟨(f a).out, t ++ (f a).ops⟩
  | ⟨.err e, t⟩ => ⟨.err e, t⟩
  | ⟨.panic, t⟩ => ⟨.panic, t⟩

instance : Monad (Rec ε) where
  pure a := ⟨.ok a, []⟩
  bind := bind

/-- A computation that is not recorded. -/
def free (x : Res ε α) : Rec ε α := ⟨x, []⟩

/-- One operation. -/
def step (op : Op) (a : α) : Rec ε α := ⟨.ok a, [op]⟩

@[simp] theorem step_bind (op : Op) (a : α) (f : α → Rec ε β) : (step op a >>= f) = ⟨(f a).out, op :: (f a).ops⟩ := rfl
@[simp] theorem mk_ok_bind (a : α) (t : List Op) (f : α → Rec ε β) : ((⟨.ok a, t⟩ : Rec ε α) >>= f) = ⟨(f a).out, t ++ (f a).ops⟩ := rfl
@[simp] theorem mk_err_bind (e : ε) (t : List Op) (f : α → Rec ε β) : ((⟨.err e, t⟩ : Rec ε α) >>= f) = ⟨.err e, t⟩ := rfl
@[simp] theorem mk_panic_bind (t : List Op) (f : α → Rec ε β) : ((⟨.panic, t⟩ : Rec ε α) >>= f) = ⟨.panic, t⟩ := rfl
@[simp] theorem pure_rec (a : α) : (pure a : Rec ε α) = ⟨.ok a, []⟩ := rfl

theorem out_bind (x : Rec ε α) (f : α → Rec ε β) : (x >>= f).out = x.out >>= fun a => (f a).out := by
  obtain ⟨r, t⟩ := x
  cases r <;> rfl
end Rec

/-! ## Operations -/

section
variable {G : Type} [AddCommGroup G] [Module Scalar G] [DecidableEq G] (R : Ristretto G) (D : Digest) {σ : Type} (rng : Rng σ) {ε : Type}

def fill (s : σ) (n : Nat) : Rec ε (Bytes × σ) := .step (.fill n) (rng.fill s n)
def hash (st : Bytes) : Rec ε Bytes := .step (.hash st.length) (D.finalize st)
def toPoint (b : Bytes) : Rec ε G := .step .toPoint (R.fromUniform b)
def reduce (b : Bytes) : Rec ε Scalar := .step .reduce (scalarOfBytes b)
def scalarMul (a b : Scalar) : Rec ε Scalar := .step .scalarMul (a * b)
def mul (p : G) (a : Scalar) : Rec ε G := .step .mul (a • p)
def compress (p : G) : Rec ε Bytes := .step .compress (R.compress p)
def isIdentity (p : G) : Rec ε Bool := .step .isIdentity (decide (p = 0))
def base64 (b : Bytes) : Rec ε (Option Bytes) := .step (.base64 b.length) (Base64.saltEncode b)
def ctEq (a b : Bytes) : Rec ε Bool := .step (.ctEq a.length b.length) (Verif.ctEq a b)

/-! ## The server -/

/-- `Scalar::random`, 64 bytes and a reduction. -/
def randomScalar (s : σ) : Rec ε (Scalar × σ) := do
  let (b, s) ← fill rng s 64
  let a ← reduce b
  pure (a, s)

/-- `RistrettoPoint::random`. -/
def randomPoint (s : σ) : Rec ε (G × σ) := do
  let (b, s) ← fill rng s 64
  let p ← toPoint R b
  pure (p, s)

/-- `generate_server_keypair`, aucpace/src/utils.rs:157-168. -/
def generateServerKeypair (s : σ) : Rec ε ((Scalar × G) × σ) := do
  let (priv, s) ← randomScalar rng s
  let c ← scalarMul priv 1
  let pub ← mul R.base c
  pure ((priv, pub), s)

/-- `lookup_failed`, aucpace/src/server.rs:438-474. -/
def lookupFailed (self : Server.AugLayer) (username : Bytes) (xPub : G) (s : σ) : Rec ε ((Bytes × ServerMessage G) × σ) := do
  let (prs, s) ← fill rng s 32
  let h ← hash D (Digest.update (Digest.update Digest.new (leFixed 8 self.secret)) username)
  let first ← Rec.free (Res.unwrap (slice h 0 48))
  let salt ← base64 first
  let salt ← Rec.free (Res.unwrap salt)
  pure ((prs, .augmentationInfo groupName xPub salt []), s)

/-- `generate_prs`, aucpace/src/server.rs:371-398: `w * x * cofactor` are two products in the group. -/
def generatePrs (self : Server.AugLayer) (username : Bytes) (db : Database G) (s : σ) (x : Scalar) (xPub : G) :
    Rec ε ((Bytes × ServerMessage G) × σ) :=
  match db.lookupVerifier username with
  | some (w, salt, sigma) => do
    let p ← mul w x
    let p ← mul p 1
    let prs ← compress R p
    pure ((prs, .augmentationInfo groupName xPub salt sigma), s)
  | none => lookupFailed D rng self username xPub s

/-- `generate_client_info`, aucpace/src/server.rs:201-222. -/
def generateClientInfo (self : Server.AugLayer) (username : Bytes) (db : Database G) (s : σ) :
    Rec ε (Server.CPaceSubstep σ × ServerMessage G) := do
  let ((x, xPub), s) ← generateServerKeypair R rng s
  let ((prs, message), s) ← generatePrs R D rng self username db s x xPub
  pure (⟨self.ssid, prs, s⟩, message)

/-- `generate_client_info_partial_aug`, aucpace/src/server.rs:245-273. -/
def generateClientInfoPartialAug (self : Server.AugLayer) (username : Bytes) (db : Database G) (kdb : PartialAugDatabase G) (s : σ) :
    Rec ε (Server.CPaceSubstep σ × ServerMessage G) := do
  let ((prs, message), s) ←
    match kdb.lookupLongTermKeypair username with
    | some (x, xPub) => generatePrs R D rng self username db s x xPub
    | none => do
      let (xPub, s) ← randomPoint R rng s
      lookupFailed D rng self username xPub s
  pure (⟨self.ssid, prs, s⟩, message)

/-- `lookup_failed_strong`, aucpace/src/server.rs:478-515. -/
def lookupFailedStrong (self : Server.AugLayer) (username : Bytes) (blinded xPub : G) (s : σ) :
    Rec Error ((Bytes × ServerMessage G) × σ) := do
  let (prs, s) ← fill rng s 32
  let h ← hash D (Digest.update (Digest.update Digest.new (leFixed 8 self.secret)) username)
  let q ← reduce h
  let q ← scalarMul q 1
  let uq ← mul blinded q
  if ← isIdentity uq then Rec.free (.err .illegalPointError)
  else pure ((prs, .strongAugmentationInfo groupName xPub uq []), s)

/-- `generate_prs_strong`, aucpace/src/server.rs:403-435. -/
def generatePrsStrong (self : Server.AugLayer) (username : Bytes) (blinded : G) (db : StrongDatabase G) (s : σ) (x : Scalar) (xPub : G) :
    Rec Error ((Bytes × ServerMessage G) × σ) :=
  match db.lookupVerifierStrong username with
  | some (w, q, sigma) => do
    let c ← scalarMul x 1
    let p ← mul w c
    let prs ← compress R p
    let q ← scalarMul q 1
    let uq ← mul blinded q
    if ← isIdentity uq then Rec.free (.err .illegalPointError)
    else pure ((prs, .strongAugmentationInfo groupName xPub uq sigma), s)
  | none => lookupFailedStrong D rng self username blinded xPub s

/-- `generate_client_info_strong`, aucpace/src/server.rs:294-317. -/
def generateClientInfoStrong (self : Server.AugLayer) (username : Bytes) (blinded : G) (db : StrongDatabase G) (s : σ) :
    Rec Error (Server.CPaceSubstep σ × ServerMessage G) := do
  let ((x, xPub), s) ← generateServerKeypair R rng s
  let ((prs, message), s) ← generatePrsStrong R D rng self username blinded db s x xPub
  pure (⟨self.ssid, prs, s⟩, message)

/-- `generate_client_info_partial_strong`, aucpace/src/server.rs:339-368. -/
def generateClientInfoPartialStrong (self : Server.AugLayer) (username : Bytes) (blinded : G) (db : StrongDatabase G)
    (kdb : PartialAugDatabase G) (s : σ) : Rec Error (Server.CPaceSubstep σ × ServerMessage G) := do
  let ((prs, message), s) ←
    match kdb.lookupLongTermKeypair username with
    | some (x, xPub) => generatePrsStrong R D rng self username blinded db s x xPub
    | none => do
      let (xPub, s) ← randomPoint R rng s
      lookupFailedStrong D rng self username blinded xPub s
  pure (⟨self.ssid, prs, s⟩, message)

/-- The plain (`kdb = none`) or partially augmented variant. -/
def serverInfo (db : Database G) (kdb : Option (PartialAugDatabase G)) (srv : Server.AugLayer) (u : Bytes) (s : σ) :
    Rec Error (Server.CPaceSubstep σ × ServerMessage G) :=
  match kdb with
  | none => generateClientInfo R D rng srv u db s
  | some kdb => generateClientInfoPartialAug R D rng srv u db kdb s

/-- The strong variants. -/
def serverInfoStrong (db : StrongDatabase G) (kdb : Option (PartialAugDatabase G)) (srv : Server.AugLayer) (u : Bytes) (blinded : G) (s : σ) :
    Rec Error (Server.CPaceSubstep σ × ServerMessage G) :=
  match kdb with
  | none => generateClientInfoStrong R D rng srv u blinded db s
  | some kdb => generateClientInfoPartialStrong R D rng srv u blinded db kdb s

/-- `generate_public_key`, aucpace/src/server.rs:552-570, with `generate_keypair`, aucpace/src/utils.rs:59-81. -/
def generatePublicKey (self : Server.CPaceSubstep σ) (ci : Bytes) : Rec ε (Server.RecvClientKey × ServerMessage G) := do
  let h ← hash D (Digest.update (Digest.update (Digest.update (H 1) self.ssid) self.prs) ci)
  let generator ← toPoint R h
  let (privKey, _) ← randomScalar rng self.rng
  let c ← scalarMul privKey 1
  let pubKey ← mul generator c
  pure (⟨self.ssid, privKey⟩, .publicKey pubKey)

/-- `compute_first_session_key`, aucpace/src/utils.rs:85-100. -/
def computeFirstSessionKey (ssid : Bytes) (privKey : Scalar) (pubKey : G) : Rec ε Bytes := do
  let p ← mul pubKey privKey
  let b ← compress R p
  hash D (Digest.update (Digest.update (H 2) ssid) b)

/-- `receive_client_pubkey`, aucpace/src/server.rs:599-610. -/
def receiveClientPubkey (self : Server.RecvClientKey) (clientPubkey : G) : Rec Error Server.ExpMutAuth := do
  if ← isIdentity clientPubkey then Rec.free (.err .illegalPointError)
  else
    let sk1 ← computeFirstSessionKey R D self.ssid self.privKey clientPubkey
    pure ⟨self.ssid, sk1⟩

/-- `implicit_auth`, aucpace/src/server.rs:622-630. -/
def implicitAuth (self : Server.RecvClientKey) (clientPubkey : G) : Rec Error Bytes := do
  if ← isIdentity clientPubkey then Rec.free (.err .illegalPointError)
  else
    let sk1 ← computeFirstSessionKey R D self.ssid self.privKey clientPubkey
    hash D (Digest.update (Digest.update (H 5) self.ssid) sk1)

/-- `receive_client_authenticator`, aucpace/src/server.rs:664-680. -/
def receiveClientAuthenticator (self : Server.ExpMutAuth) (clientAuthenticator : Bytes) : Rec Error (Bytes × ServerMessage G) := do
  let ta ← hash D (Digest.update (Digest.update (H 3) self.ssid) self.sk1)
  let tb ← hash D (Digest.update (Digest.update (H 4) self.ssid) self.sk1)
  if ← ctEq tb clientAuthenticator then
    let sk ← hash D (Digest.update (Digest.update (H 5) self.ssid) self.sk1)
    let ta ← Rec.free (toArray 64 ta)
    pure (sk, .authenticator ta)
  else Rec.free (.err .mutualAuthFail)

/-- A server from the public key of the client on; `none` for the authenticator stands for implicit authentication. -/
def after (st : Server.RecvClientKey) (X : G) (auth : Option Bytes) : Rec Error Bytes :=
  match auth with
  | none => implicitAuth R D st X
  | some t => do
    let st ← receiveClientPubkey R D st X
    let (sk, _) ← receiveClientAuthenticator (G := G) D st t
    pure sk

/-- A server after its answer to the user name. -/
def rest (self : Server.CPaceSubstep σ) (ci : Bytes) (X : G) (auth : Option Bytes) : Rec Error Bytes := do
  let (st, _) ← generatePublicKey R D rng self ci
  after R D st X auth

/-! ## What they do -/

theorem pair_eq {α : Type} {x : Rec ε α} {r : Res ε α} {t : List Op} (h : x = ⟨r, t⟩) : x.out = r ∧ x.ops = t := ⟨by rw [h], by rw [h]⟩

/-- The operations of `lookup_failed`. -/
def failed (user : Bytes) : List Op := [.fill 32, .hash (8 + user.length), .base64 48]

theorem lookupFailed_rec (h64 : D.outLen = 64) (self : Server.AugLayer) (user : Bytes) (xPub : G) (s : σ) :
    lookupFailed (ε := ε) D rng self user xPub s = ⟨Server.lookupFailed D rng self user xPub s, failed user⟩ := by
  have hs : slice (D.finalize (Digest.update (Digest.update Digest.new (leFixed 8 self.secret)) user)) 0 48 =
      some ((D.finalize (Digest.update (Digest.update Digest.new (leFixed 8 self.secret)) user)).take 48) := by
    simp [slice, Digest.finalize, D.hash_length, h64]
  have hl : ((D.finalize (Digest.update (Digest.update Digest.new (leFixed 8 self.secret)) user)).take 48).length = 48 := by
    simp [Digest.finalize, D.hash_length, h64]
  have hb := saltEncode_le hl.le
  simp only [lookupFailed, Server.lookupFailed, fill, hash, base64, Rec.step_bind, Rec.free, hs, hb, Res.unwrap, Rec.mk_ok_bind, Res.bind_ok,
    Rec.pure_rec, hl, List.nil_append, failed]
  simp [Digest.update, Digest.new, leFixed_length]

theorem generatePrs_rec (h64 : D.outLen = 64) (self : Server.AugLayer) (user : Bytes) (db : Database G) (s : σ) (x : Scalar) (xPub : G) :
    generatePrs (ε := ε) R D rng self user db s x xPub = ⟨Server.generatePrs R D rng self user db s x xPub,
      if (db.lookupVerifier user).isSome then [.mul, .mul, .compress] else failed user⟩ := by
  unfold generatePrs Server.generatePrs
  cases db.lookupVerifier user with
  | some v => rfl
  | none => exact lookupFailed_rec D rng h64 self user xPub s

/-- The operations of `lookup_failed_strong`. -/
def failedStrong (user : Bytes) : List Op := [.fill 32, .hash (8 + user.length), .reduce, .scalarMul, .mul, .isIdentity]

theorem lookupFailedStrong_rec (self : Server.AugLayer) (user : Bytes) (U xPub : G) (s : σ) :
    lookupFailedStrong D rng self user U xPub s = ⟨Server.lookupFailedStrong D rng self user U xPub s, failedStrong user⟩ := by
  simp only [lookupFailedStrong, Server.lookupFailedStrong, fill, hash, reduce, scalarMul, mul, isIdentity, Rec.step_bind,
    show ∀ b, scalarOfBytes (D.finalize b) = scalarFromHasher D b from fun _ => rfl, decide_eq_true_eq]
  split <;> simp [Rec.free, Digest.update, Digest.new, leFixed_length, failedStrong]

theorem generatePrsStrong_rec (self : Server.AugLayer) (user : Bytes) (U : G) (db : StrongDatabase G) (s : σ) (x : Scalar) (xPub : G) :
    generatePrsStrong R D rng self user U db s x xPub = ⟨Server.generatePrsStrong R D rng self user U db s x xPub,
      if (db.lookupVerifierStrong user).isSome then [.scalarMul, .mul, .compress, .scalarMul, .mul, .isIdentity] else failedStrong user⟩ := by
  unfold generatePrsStrong Server.generatePrsStrong
  cases db.lookupVerifierStrong user with
  | some v =>
    simp only [scalarMul, mul, compress, isIdentity, Rec.step_bind, decide_eq_true_eq]
    split <;> simp [Rec.free]
  | none => exact lookupFailedStrong_rec D rng self user U xPub s

theorem generateServerKeypair_rec (s : σ) :
    generateServerKeypair (ε := ε) R rng s = ⟨.ok (Aucpace.generateServerKeypair R rng s), [.fill 64, .reduce, .scalarMul, .mul]⟩ := rfl

theorem randomPoint_rec (s : σ) : randomPoint (ε := ε) R rng s = ⟨.ok (Aucpace.randomPoint rng R s), [.fill 64, .toPoint]⟩ := rfl

theorem bind_rec {α β : Type} (r : Res ε α) (t : List Op) (f : α → β) :
    ((⟨r, t⟩ : Rec ε α) >>= fun a => pure (f a)) = ⟨r >>= fun a => .ok (f a), t⟩ := by
  cases r <;> simp

/-- **C103 (plain variant).** The recorded function is `generate_client_info`. Its operations are those for the key pair, then two products in the
group and an encoding for a registered user, random bytes, a hash and an encoding of the salt for another one: they depend on nothing but whether
the user is registered and the length of the name of an unknown one. -/
theorem C103_plain (h64 : D.outLen = 64) (db : Database G) (srv : Server.AugLayer) (user : Bytes) (s : σ) :
    (serverInfo R D rng db none srv user s).out = Run.serverInfo R D rng db none srv user s ∧
    (serverInfo R D rng db none srv user s).ops = [.fill 64, .reduce, .scalarMul, .mul] ++
      if (db.lookupVerifier user).isSome then [.mul, .mul, .compress] else [.fill 32, .hash (8 + user.length), .base64 48] := by
  refine pair_eq ?_
  simp only [serverInfo, generateClientInfo, generateServerKeypair_rec, Rec.mk_ok_bind, generatePrs_rec R D rng h64, bind_rec]
  rfl

/-- **C103 (partial augmentation).** -/
theorem C103_partial_aug (h64 : D.outLen = 64) (db : Database G) (kdb : PartialAugDatabase G) (srv : Server.AugLayer) (user : Bytes) (s : σ) :
    (serverInfo R D rng db (some kdb) srv user s).out = Run.serverInfo R D rng db (some kdb) srv user s ∧
    (serverInfo R D rng db (some kdb) srv user s).ops =
      if (kdb.lookupLongTermKeypair user).isSome then
        if (db.lookupVerifier user).isSome then [.mul, .mul, .compress] else [.fill 32, .hash (8 + user.length), .base64 48]
      else [.fill 64, .toPoint, .fill 32, .hash (8 + user.length), .base64 48] := by
  refine pair_eq ?_
  simp only [serverInfo, generateClientInfoPartialAug, Run.serverInfo, Server.generateClientInfoPartialAug]
  cases kdb.lookupLongTermKeypair user with
  | some x => simp only [generatePrs_rec R D rng h64, bind_rec]; rfl
  | none => simp only [randomPoint_rec, Rec.mk_ok_bind, lookupFailed_rec D rng h64, bind_rec]; rfl

/-- **C103 (strong variant).** -/
theorem C103_strong (db : StrongDatabase G) (srv : Server.AugLayer) (user : Bytes) (U : G) (s : σ) :
    (serverInfoStrong R D rng db none srv user U s).out = Run.serverInfoStrong R D rng db none srv user U s ∧
    (serverInfoStrong R D rng db none srv user U s).ops = [.fill 64, .reduce, .scalarMul, .mul] ++
      if (db.lookupVerifierStrong user).isSome then [.scalarMul, .mul, .compress, .scalarMul, .mul, .isIdentity]
      else [.fill 32, .hash (8 + user.length), .reduce, .scalarMul, .mul, .isIdentity] := by
  refine pair_eq ?_
  simp only [serverInfoStrong, generateClientInfoStrong, generateServerKeypair_rec, Rec.mk_ok_bind, generatePrsStrong_rec, bind_rec]
  rfl

/-- **C103 (strong variant with partial augmentation).** -/
theorem C103_partial_strong (db : StrongDatabase G) (kdb : PartialAugDatabase G) (srv : Server.AugLayer) (user : Bytes) (U : G) (s : σ) :
    (serverInfoStrong R D rng db (some kdb) srv user U s).out = Run.serverInfoStrong R D rng db (some kdb) srv user U s ∧
    (serverInfoStrong R D rng db (some kdb) srv user U s).ops =
      if (kdb.lookupLongTermKeypair user).isSome then
        if (db.lookupVerifierStrong user).isSome then [.scalarMul, .mul, .compress, .scalarMul, .mul, .isIdentity]
        else [.fill 32, .hash (8 + user.length), .reduce, .scalarMul, .mul, .isIdentity]
      else [.fill 64, .toPoint, .fill 32, .hash (8 + user.length), .reduce, .scalarMul, .mul, .isIdentity] := by
  refine pair_eq ?_
  simp only [serverInfoStrong, generateClientInfoPartialStrong, Run.serverInfoStrong, Server.generateClientInfoPartialStrong]
  cases kdb.lookupLongTermKeypair user with
  | some x => simp only [generatePrsStrong_rec, bind_rec]; rfl
  | none => simp only [randomPoint_rec, Rec.mk_ok_bind, lookupFailedStrong_rec, bind_rec]; rfl

theorem generatePublicKey_rec (self : Server.CPaceSubstep σ) (ci : Bytes) :
    generatePublicKey (ε := ε) R D rng self ci = ⟨.ok (Server.generatePublicKey R D rng self ci),
      [.hash (4 + self.ssid.length + self.prs.length + ci.length), .toPoint, .fill 64, .reduce, .scalarMul, .mul]⟩ := by
  have h : (Digest.update (Digest.update (Digest.update (H 1) self.ssid) self.prs) ci).length =
      4 + self.ssid.length + self.prs.length + ci.length := by
    simp [Digest.update, H, Digest.new, leFixed_length, add_assoc]
  rw [← h]
  rfl

theorem firstKey_rec (ssid : Bytes) (x : Scalar) (X : G) :
    computeFirstSessionKey (ε := ε) R D ssid x X = ⟨.ok (Aucpace.computeFirstSessionKey R D ssid x X),
      [.mul, .compress, .hash (4 + ssid.length + 32)]⟩ := by
  have h : (Digest.update (Digest.update (H 2) ssid) (R.compress (x • X))).length = 4 + ssid.length + 32 := by
    simp [Digest.update, H, Digest.new, leFixed_length, R.compress_length, add_assoc]
  rw [← h]
  rfl

theorem receiveClientPubkey_rec (self : Server.RecvClientKey) (X : G) :
    receiveClientPubkey R D self X = ⟨Server.receiveClientPubkey R D self X,
      .isIdentity :: if X = 0 then [] else [.mul, .compress, .hash (4 + self.ssid.length + 32)]⟩ := by
  simp only [receiveClientPubkey, Server.receiveClientPubkey, isIdentity, Rec.step_bind, decide_eq_true_eq, firstKey_rec]
  split <;> rfl

theorem implicitAuth_rec (h64 : D.outLen = 64) (self : Server.RecvClientKey) (X : G) :
    implicitAuth R D self X = ⟨Server.implicitAuth R D self X,
      .isIdentity :: if X = 0 then [] else [.mul, .compress, .hash (4 + self.ssid.length + 32), .hash (4 + self.ssid.length + 64)]⟩ := by
  simp only [implicitAuth, Server.implicitAuth, isIdentity, Rec.step_bind, decide_eq_true_eq, firstKey_rec]
  have h : (Digest.update (Digest.update (H 5) self.ssid) (Aucpace.computeFirstSessionKey R D self.ssid self.privKey X)).length =
      4 + self.ssid.length + 64 := by
    simp [Digest.update, H, Digest.new, leFixed_length, Aucpace.computeFirstSessionKey, Digest.finalize, D.hash_length, h64, add_assoc]
  rw [← h]
  split <;> rfl

theorem receiveClientAuthenticator_rec (h64 : D.outLen = 64) (self : Server.ExpMutAuth) (hl : self.sk1.length = 64) (t : Bytes) :
    receiveClientAuthenticator (G := G) D self t = ⟨Server.receiveClientAuthenticator D self t,
      [.hash (4 + self.ssid.length + 64), .hash (4 + self.ssid.length + 64), .ctEq 64 t.length] ++
        if (Server.receiveClientAuthenticator (G := G) D self t).isOk then [.hash (4 + self.ssid.length + 64)] else []⟩ := by
  have h (n : Nat) : (Digest.update (Digest.update (H n) self.ssid) self.sk1).length = 4 + self.ssid.length + 64 := by
    simp [Digest.update, H, Digest.new, leFixed_length, hl, add_assoc]
  have h' (b : Bytes) : (D.finalize b).length = 64 := by simp [Digest.finalize, D.hash_length, h64]
  have e : Server.receiveClientAuthenticator (G := G) D self t =
      if Verif.ctEq (D.finalize (Digest.update (Digest.update (H 4) self.ssid) self.sk1)) t then
        .ok (D.finalize (Digest.update (Digest.update (H 5) self.ssid) self.sk1),
          .authenticator (D.finalize (Digest.update (Digest.update (H 3) self.ssid) self.sk1)))
      else .err .mutualAuthFail := by
    simp only [Server.receiveClientAuthenticator, computeAuthenticatorMessages, computeSessionKey, toArray, h', if_true, Res.bind_ok]
  rw [e]
  simp only [receiveClientAuthenticator, hash, ctEq, Rec.step_bind, h, h']
  split
  · simp [toArray, h', Rec.free]
  · simp [Rec.free]

/-- A server of the model from the public key of the client on. -/
def afterModel (st : Server.RecvClientKey) (X : G) (auth : Option Bytes) : Res Error Bytes :=
  match auth with
  | none => Server.implicitAuth R D st X
  | some t => do
    let st ← Server.receiveClientPubkey R D st X
    let (sk, _) ← Server.receiveClientAuthenticator (G := G) D st t
    .ok sk

/-- A server of the model after its answer to the user name. -/
def restModel (self : Server.CPaceSubstep σ) (ci : Bytes) (X : G) (auth : Option Bytes) : Res Error Bytes :=
  let (st, _) := Server.generatePublicKey R D rng self ci
  afterModel R D st X auth

theorem after_rec (h64 : D.outLen = 64) (st : Server.RecvClientKey) (X : G) (auth : Option Bytes) :
    after R D st X auth = ⟨afterModel R D st X auth, .isIdentity ::
      if X = 0 then [] else [.mul, .compress, .hash (4 + st.ssid.length + 32)] ++
        match auth with
        | none => [.hash (4 + st.ssid.length + 64)]
        | some t => [.hash (4 + st.ssid.length + 64), .hash (4 + st.ssid.length + 64), .ctEq 64 t.length] ++
          if (afterModel R D st X (some t)).isOk then [.hash (4 + st.ssid.length + 64)] else []⟩ := by
  cases auth with
  | none =>
    simp only [after, afterModel, implicitAuth_rec R D h64]
    split <;> simp
  | some t =>
    simp only [after, afterModel, receiveClientPubkey_rec, Server.receiveClientPubkey]
    by_cases h : X = 0
    · simp [h]
    · have hl : (Aucpace.computeFirstSessionKey R D st.ssid st.privKey X).length = 64 := by
        simp [Aucpace.computeFirstSessionKey, Digest.finalize, D.hash_length, h64]
      simp only [if_neg h, Rec.mk_ok_bind, Res.bind_ok, receiveClientAuthenticator_rec (G := G) D h64
        ⟨st.ssid, Aucpace.computeFirstSessionKey R D st.ssid st.privKey X⟩ hl]
      cases Server.receiveClientAuthenticator (G := G) D ⟨st.ssid, Aucpace.computeFirstSessionKey R D st.ssid st.privKey X⟩ t with
      | ok a => simp
      | err e => simp
      | panic => simp

/-- **C103 (the rest of the session).** What follows, up to the session key, takes the same operations for every password-related string: they depend
only on the lengths of SSID, password-related string (32 in all cases), channel identifier and authenticator, on whether the public key of the
client is neutral and on whether the authenticator is accepted. -/
theorem C103_rest (h64 : D.outLen = 64) (self : Server.CPaceSubstep σ) (ci : Bytes) (X : G) (auth : Option Bytes) :
    (rest R D rng self ci X auth).out = restModel R D rng self ci X auth ∧
    (rest R D rng self ci X auth).ops =
      [.hash (4 + self.ssid.length + self.prs.length + ci.length), .toPoint, .fill 64, .reduce, .scalarMul, .mul, .isIdentity] ++
      if X = 0 then [] else [.mul, .compress, .hash (4 + self.ssid.length + 32)] ++
        match auth with
        | none => [.hash (4 + self.ssid.length + 64)]
        | some t => [.hash (4 + self.ssid.length + 64), .hash (4 + self.ssid.length + 64), .ctEq 64 t.length] ++
          if (restModel R D rng self ci X (some t)).isOk then [.hash (4 + self.ssid.length + 64)] else [] := by
  refine pair_eq ?_
  simp only [rest, generatePublicKey_rec, Rec.mk_ok_bind, after_rec R D h64]
  rfl

/-- The number of products in the group. -/
def products (ops : List Op) : Nat := ops.count .mul

/-- **C103 (plain variant: who is registered).** The answer for a registered user takes two products in the group more than that for an unknown one,
whatever the names, databases, secrets, SSIDs and random bytes. -/
theorem C103_plain_difference (h64 : D.outLen = 64) (db db' : Database G) (srv srv' : Server.AugLayer) (user user' : Bytes) (s s' : σ)
    (h : (db.lookupVerifier user).isSome) (h' : db'.lookupVerifier user' = none) :
    products (serverInfo R D rng db none srv user s).ops = products (serverInfo R D rng db' none srv' user' s').ops + 2 := by
  rw [(C103_plain R D rng h64 db srv user s).2, (C103_plain R D rng h64 db' srv' user' s').2, h', if_pos h]
  simp [products]

/-- **C103 (partial augmentation: who is registered).** Two products in the group for a registered user, none for an unknown one. -/
theorem C103_partial_aug_difference (h64 : D.outLen = 64) (db db' : Database G) (kdb kdb' : PartialAugDatabase G) (srv srv' : Server.AugLayer)
    (user user' : Bytes) (s s' : σ) (h : (db.lookupVerifier user).isSome) (hk : (kdb.lookupLongTermKeypair user).isSome)
    (h' : db'.lookupVerifier user' = none) :
    products (serverInfo R D rng db (some kdb) srv user s).ops = 2 ∧ products (serverInfo R D rng db' (some kdb') srv' user' s').ops = 0 := by
  rw [(C103_partial_aug R D rng h64 db kdb srv user s).2, (C103_partial_aug R D rng h64 db' kdb' srv' user' s').2, h', if_pos h, if_pos hk]
  refine ⟨by simp [products], ?_⟩
  split <;> simp [products]

/-- **C103 (strong variants: who is registered).** One product in the group more for a registered user. -/
theorem C103_strong_difference (db db' : StrongDatabase G) (srv srv' : Server.AugLayer) (user user' : Bytes) (U U' : G) (s s' : σ)
    (h : (db.lookupVerifierStrong user).isSome) (h' : db'.lookupVerifierStrong user' = none) :
    products (serverInfoStrong R D rng db none srv user U s).ops = products (serverInfoStrong R D rng db' none srv' user' U' s').ops + 1 ∧
    ∀ kdb kdb' : PartialAugDatabase G, (kdb.lookupLongTermKeypair user).isSome →
      products (serverInfoStrong R D rng db (some kdb) srv user U s).ops =
        products (serverInfoStrong R D rng db' (some kdb') srv' user' U' s').ops + 1 := by
  constructor
  · rw [(C103_strong R D rng db srv user U s).2, (C103_strong R D rng db' srv' user' U' s').2, h', if_pos h]
    simp [products]
  · intro kdb kdb' hk
    rw [(C103_partial_strong R D rng db kdb srv user U s).2, (C103_partial_strong R D rng db' kdb' srv' user' U' s').2, h', if_pos h, if_pos hk]
    split <;> simp [products]

end

/-- `alice` is registered, `bob` is not: the answers, and the rest of the session with an authenticator that is refused. -/
example :
    (serverInfo Ristretto.toy sha512 Rng.replay World.db none ⟨1, World.bytes 0 64⟩ World.user (World.bytes 3 200)).ops =
      [.fill 64, .reduce, .scalarMul, .mul, .mul, .mul, .compress] ∧
    (serverInfo Ristretto.toy sha512 Rng.replay World.db none ⟨1, World.bytes 0 64⟩ (ascii "bob") (World.bytes 3 200)).ops =
      [.fill 64, .reduce, .scalarMul, .mul, .fill 32, .hash 11, .base64 48] ∧
    (rest Ristretto.toy sha512 Rng.replay ⟨World.bytes 0 64, World.bytes 5 32, World.bytes 3 64⟩ (ascii "ci") (7 : Scalar)
      (some (World.bytes 9 64))).ops =
      [.hash 102, .toPoint, .fill 64, .reduce, .scalarMul, .mul, .isIdentity, .mul, .compress, .hash 100, .hash 132, .hash 132, .ctEq 64 64] := by
  decide +kernel

end Verif.Aucpace.Work
