import Verif.Aucpace.ExamplesLemmas
import Verif.Aucpace.World

/-!
# C85: one thread of an example program against any peer

A thread reads whatever bytes the network hands it. The theorems say exactly for which reads it returns a key, which one,
and what it has written by then; in all other cases it has stopped with an error or is still waiting.
-/

namespace Verif.Stream
variable {In Out : Type} (KI : Codec In) (P : Proc In Out)

/-- A thread fed with what its reads return, one chunk after the other: its state (`none`: it has stopped with an error)
and the messages it has written. When it has returned it reads no more. -/
def feed : P.St → List Bytes → Option P.St × List Out
  | st, [] => (some st, [])
  | st, c :: cs =>
    if (P.result st).isSome then (some st, []) else
    match KI.dec c with
    | none => (none, [])
    | some (m, _) =>
      match P.recv st m with
      | none => (none, [])
      | some (st', outs) => ((feed st' cs).1, outs ++ (feed st' cs).2)

/-- The thread, started anew, returns `k` having written `outs`. -/
def Returns (chunks : List Bytes) (k : Bytes) (outs : List Out) : Prop :=
  ∃ st ms, feed KI P P.init chunks = (some st, ms) ∧ P.result st = some k ∧ outs = P.first ++ ms

/-- The first message in a chunk. -/
def first {M : Type} (K : Codec M) (chunk : Bytes) : Option M := (K.dec chunk).map Prod.fst

variable {KI P} in
theorem feed_done {st : P.St} {k : Bytes} (h : P.result st = some k) (cs : List Bytes) : feed KI P st cs = (some st, []) := by
  cases cs with
  | nil => rfl
  | cons c cs => rw [feed, if_pos (by rw [h]; rfl)]

variable {KI P} in
theorem feed_done_inv {st s : P.St} {ms : List Out} {k : Bytes} {cs : List Bytes} (hr : P.result st = some k)
    (h : feed KI P st cs = (some s, ms)) : s = st ∧ ms = [] := by
  rw [feed_done hr, Prod.mk.injEq, Option.some.injEq] at h
  exact ⟨h.1.symm, h.2.symm⟩

variable {KI P} in
theorem feed_nil {st s : P.St} {ms : List Out} {k : Bytes} (hr : P.result st = none) (h : feed KI P st [] = (some s, ms))
    (hk : P.result s = some k) : False := by
  simp only [feed, Prod.mk.injEq, Option.some.injEq] at h
  rw [← h.1, hr] at hk
  cases hk

variable {KI P} in
theorem feed_cons {st : P.St} (hr : P.result st = none) (c : Bytes) (cs : List Bytes) (s : P.St) (ms : List Out) :
    feed KI P st (c :: cs) = (some s, ms) ↔ ∃ m st' outs ms', first KI c = some m ∧ P.recv st m = some (st', outs) ∧
      feed KI P st' cs = (some s, ms') ∧ ms = outs ++ ms' := by
  rw [feed, hr]
  simp only [Option.isSome_none, Bool.false_eq_true, if_false, first]
  cases h : KI.dec c with
  | none => simp
  | some mr =>
    obtain ⟨m, r⟩ := mr
    simp only [Option.map_some, Option.some.injEq]
    cases h' : P.recv st m with
    | none =>
      simp only [Prod.mk.injEq, false_and, false_iff, not_exists, not_and, reduceCtorEq]
      rintro m' st' outs ms' rfl h2
      rw [h'] at h2
      cases h2
    | some so =>
      obtain ⟨st', outs⟩ := so
      simp only [Prod.mk.injEq]
      constructor
      · rintro ⟨h1, rfl⟩
        exact ⟨m, st', outs, (feed KI P st' cs).2, rfl, h', Prod.ext h1 rfl, rfl⟩
      · rintro ⟨m', st'', outs', ms', rfl, h2, h3, rfl⟩
        rw [h', Option.some.injEq, Prod.mk.injEq] at h2
        obtain ⟨rfl, rfl⟩ := h2
        rw [h3]
        exact ⟨rfl, rfl⟩

end Verif.Stream

namespace Verif.Aucpace.Examples
open Verif.Stream Wire Run Spec

section
variable {G : Type} [AddCommGroup G] [Module Scalar G] [DecidableEq G] (R : Ristretto G) (D : Digest)
  {Params : Type} (Hs : PwHasher Params) {σc σs : Type} (rngC : Rng σc) (rngS : Rng σs)

/-- What the server of the program computes from the client's nonce and username: `generate_client_info` or its strong
form; the blinded point is there exactly for the strong database. -/
def info (db : ServerDb G) (srv : Server.AugLayer) (sr : σs) :
    ClientMessage G → Option (Res Error (Server.CPaceSubstep σs × ServerMessage G))
  | .username u => match db with
    | .plain db kdb => some (Run.serverInfo R D rngS db kdb srv u sr)
    | .strong _ _ => none
  | .strongUsername u U => match db with
    | .plain _ _ => none
    | .strong db kdb => some (Run.serverInfoStrong R D rngS db kdb srv u U sr)
  | _ => none

theorem server_recv_nonce (db : ServerDb G) (ci : Bytes) (sr : σs) (st : Server.SsidEstablish) (m : ClientMessage G)
    (st' : ServerSt) (outs : List (ServerMessage G)) :
    serverRecv R D rngS db ci sr (.waitNonce st) m = some (st', outs) ↔
      ∃ n, m = .nonce n ∧ st' = .waitUser (Server.agreeSsid D st n) ∧ outs = [] := by
  cases m <;> simp [serverRecv, eq_comm]

theorem server_recv_user (db : ServerDb G) (ci : Bytes) (sr : σs) (st : Server.AugLayer) (m : ClientMessage G)
    (st' : ServerSt) (outs : List (ServerMessage G)) :
    serverRecv R D rngS db ci sr (.waitUser st) m = some (st', outs) ↔
      ∃ srv mi, info R D rngS db st sr m = some (.ok (srv, mi)) ∧
        st' = .waitKey ⟨srv.ssid, draw (rngS.fill srv.rng 64).1⟩ ∧
        outs = [mi, .publicKey (draw (rngS.fill srv.rng 64).1 • gen R D srv.ssid srv.prs ci)] := by
  have key : ∀ r : Res Error (Server.CPaceSubstep σs × ServerMessage G),
      serverSendInfo R D rngS ci r = some (st', outs) ↔ ∃ srv mi, r = .ok (srv, mi) ∧
        st' = .waitKey ⟨srv.ssid, draw (rngS.fill srv.rng 64).1⟩ ∧
        outs = [mi, .publicKey (draw (rngS.fill srv.rng 64).1 • gen R D srv.ssid srv.prs ci)] := by
    intro r
    cases r with
    | ok a =>
      obtain ⟨srv, mi⟩ := a
      simp only [serverSendInfo, server_generatePublicKey_eq, Option.some.injEq, Prod.mk.injEq, Res.ok.injEq]
      constructor
      · rintro ⟨rfl, rfl⟩; exact ⟨srv, mi, ⟨rfl, rfl⟩, rfl, rfl⟩
      · rintro ⟨_, _, ⟨rfl, rfl⟩, rfl, rfl⟩; exact ⟨rfl, rfl⟩
    | err e => simp [serverSendInfo]
    | panic => simp [serverSendInfo]
  cases m <;> cases db <;> simp only [serverRecv, info, key, Option.some.injEq, reduceCtorEq, false_and, exists_false]

theorem server_recv_key (db : ServerDb G) (ci : Bytes) (sr : σs) (st : Server.RecvClientKey) (m : ClientMessage G)
    (st' : ServerSt) (outs : List (ServerMessage G)) :
    serverRecv R D rngS db ci sr (.waitKey st) m = some (st', outs) ↔
      ∃ P, m = .publicKey P ∧ P ≠ 0 ∧ st' = .waitAuth ⟨st.ssid, Spec.sk1 R D st.ssid (st.privKey • P)⟩ ∧ outs = [] := by
  cases m with
  | publicKey P =>
    simp only [serverRecv, receiveClientPubkey_eq, ClientMessage.publicKey.injEq]
    by_cases h : P = 0
    · simp [h]
    · simp only [if_neg h, Option.some.injEq, Prod.mk.injEq]
      constructor
      · rintro ⟨rfl, rfl⟩; exact ⟨P, rfl, h, rfl, rfl⟩
      · rintro ⟨_, rfl, -, rfl, rfl⟩; exact ⟨rfl, rfl⟩
  | _ => simp [serverRecv]

theorem server_recv_auth (h64 : D.outLen = 64) (db : ServerDb G) (ci : Bytes) (sr : σs) (st : Server.ExpMutAuth)
    (m : ClientMessage G) (st' : ServerSt) (outs : List (ServerMessage G)) :
    serverRecv R D rngS db ci sr (.waitAuth st) m = some (st', outs) ↔
      m = .authenticator (tb D st.ssid st.sk1) ∧ st' = .done (sk D st.ssid st.sk1) ∧
        outs = [.authenticator (ta D st.ssid st.sk1)] := by
  cases m with
  | authenticator t =>
    simp only [serverRecv, receiveClientAuthenticator_eq D h64, ClientMessage.authenticator.injEq]
    by_cases h : tb D st.ssid st.sk1 = t
    · simp only [if_pos h, Option.some.injEq, Prod.mk.injEq]
      constructor
      · rintro ⟨rfl, rfl⟩; exact ⟨h.symm, rfl, rfl⟩
      · rintro ⟨-, rfl, rfl⟩; exact ⟨rfl, rfl⟩
    · simp [h, Ne.symm h]
  | _ => simp [serverRecv]

/-- **C85 (server).** The server thread returns a key exactly if its first four reads begin with a nonce, a username (with
the blinded point in the strong variants) for which the augmentation succeeds, a public key that is not neutral, and the
one authenticator that belongs to the key it returns. What it has written then ends with its own authenticator. -/
theorem C85_server (h64 : D.outLen = 64) (strong : Bool) (paramsOk : Bytes → Bool) (db : ServerDb G) (ci : Bytes)
    (sv : Server.State σs) (sr : σs) (chunks : List Bytes) (k : Bytes) (outs : List (ServerMessage G)) :
    let K := clientCodec R strong paramsOk
    let sn := (rngS.fill sv.rng 16).1
    Returns K (server R D rngS db ci sv sr) chunks k outs ↔
      ∃ c1 c2 c3 c4 rest n mu srv mi P, chunks = c1 :: c2 :: c3 :: c4 :: rest ∧
        first K c1 = some (.nonce n) ∧ first K c2 = some mu ∧ first K c3 = some (.publicKey P) ∧ P ≠ 0 ∧
        info R D rngS db ⟨sv.secret, Spec.ssid D sn n⟩ sr mu = some (.ok (srv, mi)) ∧
        let y := draw (rngS.fill srv.rng 64).1
        let s := Spec.sk1 R D srv.ssid (y • P)
        first K c4 = some (.authenticator (tb D srv.ssid s)) ∧ k = sk D srv.ssid s ∧
        outs = [.nonce sn, mi, .publicKey (y • gen R D srv.ssid srv.prs ci), .authenticator (ta D srv.ssid s)] := by
  simp only
  constructor
  · rintro ⟨st, ms, h0, hk, rfl⟩
    cases chunks with
    | nil => exact (feed_nil rfl h0 hk).elim
    | cons c1 cs =>
    obtain ⟨m1, st1, o1, ms1, f1, r1, h1, rfl⟩ := (feed_cons rfl _ _ _ _).1 h0
    obtain ⟨n, rfl, rfl, rfl⟩ := (server_recv_nonce R D rngS db ci sr _ m1 st1 o1).1 r1
    cases cs with
    | nil => exact (feed_nil rfl h1 hk).elim
    | cons c2 cs =>
    obtain ⟨m2, st2, o2, ms2, f2, r2, h2, rfl⟩ := (feed_cons rfl _ _ _ _).1 h1
    obtain ⟨srv, mi, hi, rfl, rfl⟩ := (server_recv_user R D rngS db ci sr _ m2 st2 o2).1 r2
    cases cs with
    | nil => exact (feed_nil rfl h2 hk).elim
    | cons c3 cs =>
    obtain ⟨m3, st3, o3, ms3, f3, r3, h3, rfl⟩ := (feed_cons rfl _ _ _ _).1 h2
    obtain ⟨P, rfl, hP, rfl, rfl⟩ := (server_recv_key R D rngS db ci sr _ m3 st3 o3).1 r3
    cases cs with
    | nil => exact (feed_nil rfl h3 hk).elim
    | cons c4 cs =>
    obtain ⟨m4, st4, o4, ms4, f4, r4, h4, rfl⟩ := (feed_cons rfl _ _ _ _).1 h3
    obtain ⟨rfl, rfl, rfl⟩ := (server_recv_auth R D rngS h64 db ci sr _ m4 st4 o4).1 r4
    obtain ⟨rfl, rfl⟩ := feed_done_inv rfl h4
    simp only [server, Option.some.injEq] at hk
    subst hk
    exact ⟨c1, c2, c3, c4, cs, n, m2, srv, mi, P, rfl, f1, f2, f3, hP, hi, f4, rfl, rfl⟩
  · rintro ⟨c1, c2, c3, c4, rest, n, mu, srv, mi, P, rfl, f1, f2, f3, hP, hi, f4, rfl, rfl⟩
    refine ⟨.done _, _, ?_, rfl, rfl⟩
    refine (feed_cons rfl _ _ _ _).2 ⟨_, _, _, _, f1, (server_recv_nonce R D rngS db ci sr _ _ _ _).2 ⟨n, rfl, rfl, rfl⟩,
      (feed_cons rfl _ _ _ _).2 ⟨_, _, _, _, f2, (server_recv_user R D rngS db ci sr _ _ _ _).2 ⟨srv, mi, hi, rfl, rfl⟩,
      (feed_cons rfl _ _ _ _).2 ⟨_, _, _, _, f3, (server_recv_key R D rngS db ci sr _ _ _ _).2 ⟨P, rfl, hP, rfl, rfl⟩,
      (feed_cons rfl _ _ _ _).2 ⟨_, _, _, _, f4, (server_recv_auth R D rngS h64 db ci sr _ _ _ _).2 ⟨rfl, rfl, rfl⟩,
      feed_done rfl _, rfl⟩, rfl⟩, rfl⟩, ?_⟩
    rfl

/-- What the client of the program computes from the server's augmentation information: the password-related string. -/
def clientPrs (fromPs : Bytes → Option Params) (strong : Option Scalar) (user pass : Bytes) :
    ServerMessage G → Option Bytes
  | .augmentationInfo _ X salt ps =>
    match strong, fromPs ps with
    | none, some params =>
      if X = 0 then none else
      match pwScalar Hs user pass salt params with
      | .ok w => some (prs R w X)
      | _ => none
    | _, _ => none
  | .strongAugmentationInfo _ X Q ps =>
    match strong, fromPs ps with
    | some r, some params =>
      if X = 0 ∨ r⁻¹ • Q = 0 then none else
      match pwScalar Hs user pass (Base64.encode (R.compress (r⁻¹ • Q))) params with
      | .ok w => some (prs R w X)
      | _ => none
    | _, _ => none
  | _ => none

/-- Where the client waits for the augmentation information, and what it sent before. -/
def clientWait (strong : Option Scalar) (ssid user pass : Bytes) : ClientSt :=
  match strong with
  | none => .waitInfo ⟨ssid, user, pass⟩
  | some r => .waitStrongInfo ⟨ssid, user, pass, r⟩

def clientUser (strong : Option Scalar) (user pass : Bytes) : ClientMessage G :=
  match strong with
  | none => .username user
  | some r => .strongUsername user (r • strongPoint R D user pass)

theorem client_recv_nonce (fromPs : Bytes → Option Params) (strong : Option Scalar) (user pass ci : Bytes) (c' : σc)
    (st : Client.SsidEstablish) (m : ServerMessage G) (st' : ClientSt) (outs : List (ClientMessage G)) :
    clientRecv R D Hs rngC fromPs strong user pass ci c' (.waitNonce st) m = some (st', outs) ↔
      ∃ n, m = .nonce n ∧ st' = clientWait strong (Spec.ssid D n st.nonce) user pass ∧
        outs = [clientUser R D strong user pass] := by
  cases m <;> cases strong <;> simp [clientRecv, eq_comm, clientWait, clientUser, Client.agreeSsid,
    Client.startAugmentation, Client.startAugmentationStrongWith, computeSsid_eq, strongPoint_eq]

theorem client_recv_info (fromPs : Bytes → Option Params) (strong : Option Scalar) (user pass ci : Bytes) (c' : σc)
    (ssid : Bytes) (m : ServerMessage G) (st' : ClientSt) (outs : List (ClientMessage G)) :
    clientRecv R D Hs rngC fromPs strong user pass ci c' (clientWait strong ssid user pass) m = some (st', outs) ↔
      ∃ p, clientPrs R Hs fromPs strong user pass m = some p ∧
        st' = .waitKey ⟨ssid, draw (rngC.fill c' 64).1⟩ ∧
        outs = [.publicKey (draw (rngC.fill c' 64).1 • gen R D ssid p ci)] := by
  have key : ∀ p, some (clientSendKey R D rngC ci c' ⟨ssid, p⟩) = some (st', outs) ↔
      st' = .waitKey ⟨ssid, draw (rngC.fill c' 64).1⟩ ∧
        outs = [.publicKey (draw (rngC.fill c' 64).1 • gen R D ssid p ci)] := by
    intro p
    simp only [clientSendKey, client_generatePublicKey_eq, Option.some.injEq, Prod.mk.injEq]
    exact ⟨fun h => ⟨h.1.symm, h.2.symm⟩, fun h => ⟨h.1.symm, h.2.symm⟩⟩
  have halloc : ∀ (cli : Client.AugLayer) X salt params, Client.generateCpaceAlloc R Hs cli X salt params =
      if X = 0 then .err .illegalPointError else
        pwScalar Hs cli.username cli.password salt params >>= fun w => .ok ⟨cli.ssid, prs R w X⟩ := by
    intro cli X salt params
    have h := clientCpace_eq R Hs .alloc cli X salt params
    have ht : Run.Buf.fits .alloc cli.username cli.password := trivial
    rw [if_pos ht] at h
    exact h
  cases strong with
  | none =>
    cases m with
    | augmentationInfo g X salt ps =>
      simp only [clientRecv, clientWait, clientPrs, halloc]
      cases fromPs ps with
      | none => simp
      | some params =>
        by_cases hX : X = 0
        · simp [hX]
        · simp only [if_neg hX]
          cases hw : pwScalar Hs user pass salt params with
          | ok w => simp only [Res.bind_ok, key, Option.some.injEq, exists_eq_left']
          | err e => simp
          | panic => simp
    | _ => simp [clientRecv, clientWait, clientPrs]
  | some r =>
    cases m with
    | strongAugmentationInfo g X Q ps =>
      simp only [clientRecv, clientWait, clientPrs, clientCpaceStrong_alloc_eq]
      cases fromPs ps with
      | none => simp
      | some params =>
        by_cases hX : X = 0 ∨ r⁻¹ • Q = 0
        · simp only [if_pos hX, reduceCtorEq, false_and, exists_false]
        · simp only [if_neg hX]
          cases hw : pwScalar Hs user pass (Base64.encode (R.compress (r⁻¹ • Q))) params with
          | ok w => simp only [Res.bind_ok, key, Option.some.injEq, exists_eq_left']
          | err e => simp
          | panic => simp
    | _ => simp [clientRecv, clientWait, clientPrs]

theorem client_recv_key (h64 : D.outLen = 64) (fromPs : Bytes → Option Params) (strong : Option Scalar)
    (user pass ci : Bytes) (c' : σc) (st : Client.RecvServerKey) (m : ServerMessage G) (st' : ClientSt)
    (outs : List (ClientMessage G)) :
    clientRecv R D Hs rngC fromPs strong user pass ci c' (.waitKey st) m = some (st', outs) ↔
      ∃ P, m = .publicKey P ∧ P ≠ 0 ∧
        st' = .waitAuth ⟨st.ssid, Spec.sk1 R D st.ssid (st.privKey • P),
          ta D st.ssid (Spec.sk1 R D st.ssid (st.privKey • P))⟩ ∧
        outs = [.authenticator (tb D st.ssid (Spec.sk1 R D st.ssid (st.privKey • P)))] := by
  cases m with
  | publicKey P =>
    simp only [clientRecv, receiveServerPubkey_eq R D h64, ServerMessage.publicKey.injEq]
    by_cases h : P = 0
    · simp [h]
    · simp only [if_neg h, Option.some.injEq, Prod.mk.injEq]
      constructor
      · rintro ⟨rfl, rfl⟩; exact ⟨P, rfl, h, rfl, rfl⟩
      · rintro ⟨_, rfl, -, rfl, rfl⟩; exact ⟨rfl, rfl⟩
  | _ => simp [clientRecv]

theorem client_recv_auth (fromPs : Bytes → Option Params) (strong : Option Scalar)
    (user pass ci : Bytes) (c' : σc) (st : Client.ExpMutAuth) (m : ServerMessage G) (st' : ClientSt)
    (outs : List (ClientMessage G)) :
    clientRecv R D Hs rngC fromPs strong user pass ci c' (.waitAuth st) m = some (st', outs) ↔
      m = .authenticator st.serverAuthenticator ∧ st' = .done (sk D st.ssid st.sk1) ∧ outs = [] := by
  cases m with
  | authenticator t =>
    simp only [clientRecv, receiveServerAuthenticator_eq, ServerMessage.authenticator.injEq]
    by_cases h : st.serverAuthenticator = t
    · simp only [if_pos h, Option.some.injEq, Prod.mk.injEq]
      constructor
      · rintro ⟨rfl, rfl⟩; exact ⟨h.symm, rfl, rfl⟩
      · rintro ⟨-, rfl, rfl⟩; exact ⟨rfl, rfl⟩
    · simp [h, Ne.symm h]
  | _ => simp [clientRecv]

/-- **C85 (client).** The client thread returns a key exactly if its first four reads begin with a nonce, the augmentation
information of its variant from which a password-related string can be computed, a public key that is not neutral, and the
one authenticator that belongs to the key it returns. -/
theorem C85_client (h64 : D.outLen = 64) (strong : Bool) (paramsOk : Bytes → Bool) (fromPs : Bytes → Option Params)
    (r : Option Scalar) (user pass ci : Bytes) (c c' : σc) (chunks : List Bytes) (k : Bytes)
    (outs : List (ClientMessage G)) :
    let K := serverCodec R strong paramsOk
    let cn := (rngC.fill c 16).1
    let y := draw (rngC.fill c' 64).1
    Returns K (client R D Hs rngC fromPs r user pass ci c c') chunks k outs ↔
      ∃ c1 c2 c3 c4 rest n mi p P, chunks = c1 :: c2 :: c3 :: c4 :: rest ∧
        first K c1 = some (.nonce n) ∧ first K c2 = some mi ∧ first K c3 = some (.publicKey P) ∧ P ≠ 0 ∧
        clientPrs R Hs fromPs r user pass mi = some p ∧
        let ssid := Spec.ssid D n cn
        let s := Spec.sk1 R D ssid (y • P)
        first K c4 = some (.authenticator (ta D ssid s)) ∧ k = sk D ssid s ∧
        outs = [.nonce cn, clientUser R D r user pass, .publicKey (y • gen R D ssid p ci),
          .authenticator (tb D ssid s)] := by
  simp only
  have hw : ∀ ssid, (client R D Hs rngC fromPs r user pass ci c c').result (clientWait r ssid user pass) = none := by
    intro ssid
    cases r <;> rfl
  constructor
  · rintro ⟨st, ms, h0, hk, rfl⟩
    cases chunks with
    | nil => exact (feed_nil rfl h0 hk).elim
    | cons c1 cs =>
    obtain ⟨m1, st1, o1, ms1, f1, r1, h1, rfl⟩ := (feed_cons rfl _ _ _ _).1 h0
    obtain ⟨n, rfl, rfl, rfl⟩ := (client_recv_nonce R D Hs rngC fromPs r user pass ci c' _ m1 st1 o1).1 r1
    cases cs with
    | nil => exact (feed_nil (hw _) h1 hk).elim
    | cons c2 cs =>
    obtain ⟨m2, st2, o2, ms2, f2, r2, h2, rfl⟩ := (feed_cons (hw _) _ _ _ _).1 h1
    obtain ⟨p, hp, rfl, rfl⟩ := (client_recv_info R D Hs rngC fromPs r user pass ci c' _ m2 st2 o2).1 r2
    cases cs with
    | nil => exact (feed_nil rfl h2 hk).elim
    | cons c3 cs =>
    obtain ⟨m3, st3, o3, ms3, f3, r3, h3, rfl⟩ := (feed_cons rfl _ _ _ _).1 h2
    obtain ⟨P, rfl, hP, rfl, rfl⟩ := (client_recv_key R D Hs rngC h64 fromPs r user pass ci c' _ m3 st3 o3).1 r3
    cases cs with
    | nil => exact (feed_nil rfl h3 hk).elim
    | cons c4 cs =>
    obtain ⟨m4, st4, o4, ms4, f4, r4, h4, rfl⟩ := (feed_cons rfl _ _ _ _).1 h3
    obtain ⟨rfl, rfl, rfl⟩ := (client_recv_auth R D Hs rngC fromPs r user pass ci c' _ m4 st4 o4).1 r4
    obtain ⟨rfl, rfl⟩ := feed_done_inv rfl h4
    simp only [client, Option.some.injEq] at hk
    subst hk
    exact ⟨c1, c2, c3, c4, cs, n, m2, p, P, rfl, f1, f2, f3, hP, hp, f4, rfl, rfl⟩
  · rintro ⟨c1, c2, c3, c4, rest, n, mi, p, P, rfl, f1, f2, f3, hP, hp, f4, rfl, rfl⟩
    refine ⟨.done _, _, ?_, rfl, rfl⟩
    refine (feed_cons rfl _ _ _ _).2 ⟨_, _, _, _, f1,
      (client_recv_nonce R D Hs rngC fromPs r user pass ci c' _ _ _ _).2 ⟨n, rfl, rfl, rfl⟩,
      (feed_cons (hw _) _ _ _ _).2 ⟨_, _, _, _, f2,
      (client_recv_info R D Hs rngC fromPs r user pass ci c' _ _ _ _).2 ⟨p, hp, rfl, rfl⟩,
      (feed_cons rfl _ _ _ _).2 ⟨_, _, _, _, f3,
      (client_recv_key R D Hs rngC h64 fromPs r user pass ci c' _ _ _ _).2 ⟨P, rfl, hP, rfl, rfl⟩,
      (feed_cons rfl _ _ _ _).2 ⟨_, _, _, _, f4,
      (client_recv_auth R D Hs rngC fromPs r user pass ci c' _ _ _ _).2 ⟨rfl, rfl, rfl⟩,
      feed_done rfl _, rfl⟩, rfl⟩, rfl⟩, ?_⟩
    rfl

/-- **C85 (four reads).** After four reads a thread has returned or stopped with an error; it never waits for a fifth. -/
theorem C85_four_reads (h64 : D.outLen = 64) (strong : Bool) (paramsOk : Bytes → Bool) (chunks : List Bytes)
    (hc : 4 ≤ chunks.length) :
    (∀ (db : ServerDb G) (ci : Bytes) (sv : Server.State σs) (sr : σs),
      (∃ k outs, Returns (clientCodec R strong paramsOk) (server R D rngS db ci sv sr) chunks k outs) ∨
      (feed (clientCodec R strong paramsOk) (server R D rngS db ci sv sr) (server R D rngS db ci sv sr).init chunks).1 =
        none) ∧
    ∀ (fromPs : Bytes → Option Params) (r : Option Scalar) (user pass ci : Bytes) (c c' : σc),
      (∃ k outs, Returns (serverCodec R strong paramsOk) (client R D Hs rngC fromPs r user pass ci c c') chunks k outs) ∨
      (feed (serverCodec R strong paramsOk) (client R D Hs rngC fromPs r user pass ci c c')
        (client R D Hs rngC fromPs r user pass ci c c').init chunks).1 = none := by
  obtain ⟨c1, c2, c3, c4, rest, rfl⟩ : ∃ c1 c2 c3 c4 rest, chunks = c1 :: c2 :: c3 :: c4 :: rest := by
    match chunks, hc with
    | c1 :: c2 :: c3 :: c4 :: rest, _ => exact ⟨c1, c2, c3, c4, rest, rfl⟩
  constructor
  · intro db ci sv sr
    cases h : feed (clientCodec R strong paramsOk) (server R D rngS db ci sv sr) (server R D rngS db ci sv sr).init
      (c1 :: c2 :: c3 :: c4 :: rest) with
    | mk o ms =>
      cases o with
      | none => exact Or.inr rfl
      | some st =>
        left
        have h0 := h
        obtain ⟨m1, st1, o1, ms1, f1, r1, h1, e1⟩ := (feed_cons rfl _ _ _ _).1 h0
        obtain ⟨n, rfl, rfl, rfl⟩ := (server_recv_nonce R D rngS db ci sr _ m1 st1 o1).1 r1
        obtain ⟨m2, st2, o2, ms2, f2, r2, h2, e2⟩ := (feed_cons rfl _ _ _ _).1 h1
        obtain ⟨srv, mi, hi, rfl, rfl⟩ := (server_recv_user R D rngS db ci sr _ m2 st2 o2).1 r2
        obtain ⟨m3, st3, o3, ms3, f3, r3, h3, e3⟩ := (feed_cons rfl _ _ _ _).1 h2
        obtain ⟨P, rfl, hP, rfl, rfl⟩ := (server_recv_key R D rngS db ci sr _ m3 st3 o3).1 r3
        obtain ⟨m4, st4, o4, ms4, f4, r4, h4, e4⟩ := (feed_cons rfl _ _ _ _).1 h3
        obtain ⟨rfl, rfl, rfl⟩ := (server_recv_auth R D rngS h64 db ci sr _ m4 st4 o4).1 r4
        obtain ⟨rfl, rfl⟩ := feed_done_inv rfl h4
        exact ⟨_, _, _, ms, h, rfl, rfl⟩
  · intro fromPs r user pass ci c c'
    have hw : ∀ ssid, (client R D Hs rngC fromPs r user pass ci c c').result (clientWait r ssid user pass) = none := by
      intro ssid
      cases r <;> rfl
    cases h : feed (serverCodec R strong paramsOk) (client R D Hs rngC fromPs r user pass ci c c')
      (client R D Hs rngC fromPs r user pass ci c c').init (c1 :: c2 :: c3 :: c4 :: rest) with
    | mk o ms =>
      cases o with
      | none => exact Or.inr rfl
      | some st =>
        left
        have h0 := h
        obtain ⟨m1, st1, o1, ms1, f1, r1, h1, e1⟩ := (feed_cons rfl _ _ _ _).1 h0
        obtain ⟨n, rfl, rfl, rfl⟩ := (client_recv_nonce R D Hs rngC fromPs r user pass ci c' _ m1 st1 o1).1 r1
        obtain ⟨m2, st2, o2, ms2, f2, r2, h2, e2⟩ := (feed_cons (hw _) _ _ _ _).1 h1
        obtain ⟨p, hp, rfl, rfl⟩ := (client_recv_info R D Hs rngC fromPs r user pass ci c' _ m2 st2 o2).1 r2
        obtain ⟨m3, st3, o3, ms3, f3, r3, h3, e3⟩ := (feed_cons rfl _ _ _ _).1 h2
        obtain ⟨P, rfl, hP, rfl, rfl⟩ := (client_recv_key R D Hs rngC h64 fromPs r user pass ci c' _ m3 st3 o3).1 r3
        obtain ⟨m4, st4, o4, ms4, f4, r4, h4, e4⟩ := (feed_cons rfl _ _ _ _).1 h3
        obtain ⟨rfl, rfl, rfl⟩ := (client_recv_auth R D Hs rngC fromPs r user pass ci c' _ m4 st4 o4).1 r4
        obtain ⟨rfl, rfl⟩ := feed_done_inv rfl h4
        exact ⟨_, _, _, ms, h, rfl, rfl⟩

theorem first_enc {M : Type} (K : Codec M) (m : M) (h : K.valid m) : first K (K.enc m) = some m := by
  have := K.dec_enc m [] h
  rw [List.append_nil] at this
  rw [first, this]
  rfl

/-- The cases of `C85_server` in which a key is returned exist: the toy world, a peer that sends the public key `1`. -/
example : ∃ chunks k outs, Returns (clientCodec Ristretto.toy false fun _ => true)
    (server Ristretto.toy sha512 Rng.replay (.plain World.db none) (ascii "ci") World.server (World.bytes 3 200)) chunks k
    outs := by
  obtain ⟨srv, mi, h⟩ : ∃ srv mi, info Ristretto.toy sha512 Rng.replay (.plain World.db none) ⟨World.server.secret,
      Spec.ssid sha512 (Rng.replay.fill World.server.rng 16).1 (World.bytes 2 16)⟩ (World.bytes 3 200)
      (.username World.user) = some (.ok (srv, mi)) := by
    have hdb : (World.db.lookupVerifier World.user).isSome := by decide +kernel
    obtain ⟨⟨W, salt, ps⟩, hdb⟩ := Option.isSome_iff_exists.1 hdb
    rw [info, server_info_eq Ristretto.toy sha512 Rng.replay World.db none _ World.user _ W salt ps hdb (by simp)]
    exact ⟨_, _, rfl⟩
  refine ⟨_, _, _, (C85_server Ristretto.toy sha512 Rng.replay rfl false _ _ _ _ _ _ _ _).2
    ⟨_, _, _, _, [], World.bytes 2 16, .username World.user, srv, mi, 1, rfl, first_enc _ _ ?_, first_enc _ _ ?_,
      first_enc _ _ ?_, by decide +kernel, h, first_enc _ _ ?_, rfl, rfl⟩⟩
  · exact ⟨by decide, by decide, by unfold Slice; decide⟩
  · exact ⟨by decide, by unfold ClientOk Slice; decide⟩
  · exact ⟨by decide, trivial⟩
  · exact ⟨by simp [clientTag, clientVariants], sha512.hash_length _⟩

end
end Verif.Aucpace.Examples
