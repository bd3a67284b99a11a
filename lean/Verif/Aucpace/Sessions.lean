import Verif.Aucpace.PropsMisc

/-!
# Properties of AuCPace over histories: databases (C49) and concurrent sessions (C50)
-/

set_option linter.unusedSectionVars false
set_option linter.unusedTactic false

namespace Verif.Aucpace
open Spec Run

/-! ## C49: histories of registrations and logins -/

/-- The `Database` contract of aucpace/src/database.rs:7-47 for a storage of type `δ`: a stored value is
returned by later lookups of that user ("should allow for overwriting users credentials if they
exist"), other users are not touched. User attached data is not read by aucpace and omitted. -/
structure Storage (G δ : Type) where
  lookup : δ → Bytes → Option (G × Bytes × Bytes)
  store : δ → (user salt : Bytes) → (verifier : G) → (params : Bytes) → δ
  lookup_store_same : ∀ d u salt W ps, lookup (store d u salt W ps) u = some (W, salt, ps)
  lookup_store_other : ∀ d u salt W ps v, v ≠ u → lookup (store d u salt W ps) v = lookup d v

/-- A storage that meets the contract: a list of entries, newest first. -/
def Storage.list (G : Type) : Storage G (List (Bytes × G × Bytes × Bytes)) where
  lookup d u := (d.find? fun e => e.1 == u).map Prod.snd
  store d u salt W ps := (u, W, salt, ps) :: d
  lookup_store_same d u salt W ps := by simp
  lookup_store_other d u salt W ps v h := by
    have h' : (u == v) = false := by simpa using fun e : u = v => h e.symm
    simp [h']

/-- The strong contract, aucpace/src/database.rs:96-142. -/
structure StrongStorage (G δ : Type) where
  lookup : δ → Bytes → Option (G × Scalar × Bytes)
  store : δ → (user : Bytes) → (verifier : G) → (exponent : Scalar) → (params : Bytes) → δ
  lookup_store_same : ∀ d u W q ps, lookup (store d u W q ps) u = some (W, q, ps)
  lookup_store_other : ∀ d u W q ps v, v ≠ u → lookup (store d u W q ps) v = lookup d v

/-- One event in the life of a server's database. A login reads only. -/
inductive Event (Params σr : Type) where
  | register (buf : Buf) (s : σr) (user pass : Bytes) (params : Params)
  | login (user pass : Bytes)

/-- The user whose entry the event may change. -/
def Event.target {Params σr : Type} : Event Params σr → Option Bytes
  | .register _ _ user _ _ => some user
  | .login _ _ => none

section
variable {G : Type} [AddCommGroup G] [Module Scalar G] [DecidableEq G] (R : Ristretto G) (D : Digest)
  {Params : Type} (Hs : PwHasher Params) {σc σs σr : Type} (rngC : Rng σc) (rngS : Rng σs)
  (rngR : Rng σr) {δ : Type} (S : Storage G δ) (SS : StrongStorage G δ)

/-- Handling of one event as in the examples (key_agreement.rs:44-55): a registration message is stored,
a failed registration changes nothing. -/
def stepEvent (d : δ) : Event Params σr → δ
  | .register buf s user pass params =>
    match Run.register R Hs rngR buf s user pass params with
    | .ok (.registration u salt ps W, _) => S.store d u salt W ps
    | _ => d
  | .login _ _ => d

/-- The same with strong registrations. -/
def stepEventStrong (d : δ) : Event Params σr → δ
  | .register buf s user pass params =>
    match Run.registerStrong R D Hs rngR buf s user pass params with
    | .ok (.strongRegistration u q ps W, _) => SS.store d u W q ps
    | _ => d
  | .login _ _ => d

/-- The database after a history. -/
def history (d : δ) (es : List (Event Params σr)) : δ := es.foldl (stepEvent R Hs rngR S) d

def historyStrong (d : δ) (es : List (Event Params σr)) : δ :=
  es.foldl (stepEventStrong R D Hs rngR SS) d

/-- The server's view of a storage. -/
def Storage.view (d : δ) : Database G := ⟨S.lookup d⟩

def StrongStorage.view (d : δ) : StrongDatabase G := ⟨SS.lookup d⟩

/-- A registration message always names the user that was registered. -/
theorem register_user (buf : Buf) (s s' : σr) (user pass u salt ps : Bytes) (params : Params) (W : G)
    (h : Run.register R Hs rngR buf s user pass params = .ok (.registration u salt ps W, s')) :
    u = user := by
  rw [register_eq] at h
  split at h
  · obtain ⟨w, -, h⟩ := Res.bind_eq_ok.1 h
    obtain ⟨ps', -, h⟩ := Res.bind_eq_ok.1 h
    simp only [Res.ok.injEq, Prod.mk.injEq, ClientMessage.registration.injEq] at h
    exact h.1.1.symm
  · simp at h

theorem registerStrong_user (buf : Buf) (s s' : σr) (user pass u ps : Bytes) (q : Scalar)
    (params : Params) (W : G)
    (h : Run.registerStrong R D Hs rngR buf s user pass params =
      .ok (.strongRegistration u q ps W, s')) : u = user := by
  rw [registerStrong_eq] at h
  split at h
  · obtain ⟨w, -, h⟩ := Res.bind_eq_ok.1 h
    obtain ⟨ps', -, h⟩ := Res.bind_eq_ok.1 h
    simp only [Res.ok.injEq, Prod.mk.injEq, ClientMessage.strongRegistration.injEq] at h
    exact h.1.1.symm
  · simp at h

/-- **C49 (other users).** A history without an event for `user` does not change what the server finds for
`user`. -/
theorem C49_others (d : δ) (es : List (Event Params σr)) (user : Bytes)
    (h : ∀ e ∈ es, e.target ≠ some user) :
    S.lookup (history R Hs rngR S d es) user = S.lookup d user := by
  induction es generalizing d with
  | nil => rfl
  | cons e es ih =>
    have he := h e List.mem_cons_self
    rw [history, List.foldl_cons]
    rw [show List.foldl (stepEvent R Hs rngR S) (stepEvent R Hs rngR S d e) es =
      history R Hs rngR S (stepEvent R Hs rngR S d e) es from rfl,
      ih _ (fun e' h' => h e' (List.mem_cons_of_mem _ h'))]
    cases e with
    | login => rfl
    | register buf s u pass params =>
      simp only [Event.target, ne_eq, Option.some.injEq] at he
      simp only [stepEvent]
      split
      · rename_i u' salt ps W s' hr
        have := register_user R Hs rngR _ _ _ _ _ _ _ _ _ _ hr
        subst this
        exact S.lookup_store_other _ _ _ _ _ _ (fun e => he e.symm)
      · rfl

theorem C49_others_strong (d : δ) (es : List (Event Params σr)) (user : Bytes)
    (h : ∀ e ∈ es, e.target ≠ some user) :
    SS.lookup (historyStrong R D Hs rngR SS d es) user = SS.lookup d user := by
  induction es generalizing d with
  | nil => rfl
  | cons e es ih =>
    have he := h e List.mem_cons_self
    rw [historyStrong, List.foldl_cons]
    rw [show List.foldl (stepEventStrong R D Hs rngR SS) (stepEventStrong R D Hs rngR SS d e) es =
      historyStrong R D Hs rngR SS (stepEventStrong R D Hs rngR SS d e) es from rfl,
      ih _ (fun e' h' => h e' (List.mem_cons_of_mem _ h'))]
    cases e with
    | login => rfl
    | register buf s u pass params =>
      simp only [Event.target, ne_eq, Option.some.injEq] at he
      simp only [stepEventStrong]
      split
      · rename_i u' q ps W s' hr
        have := registerStrong_user R D Hs rngR _ _ _ _ _ _ _ _ _ _ hr
        subst this
        exact SS.lookup_store_other _ _ _ _ _ _ (fun e => he e.symm)
      · rfl

/-- **C49 (a login depends on the user's own entry only).** Two databases that agree on `user` give the same
login, of either plain variant, with either kind of authentication. -/
theorem C49_login_local (auth : Client.CPaceSubstep → Server.CPaceSubstep σs → Bytes → Bytes → σc →
      Res Error (Bytes × Bytes)) (db db' : Database G) (user : Bytes)
    (h : db.lookupVerifier user = db'.lookupVerifier user)
    (fromPs : Bytes → Params) (buf : Buf) (kdb : Option (PartialAugDatabase G)) (start : Start)
    (pass ci : Bytes) (c c' : σc) (sv : Server.State σs) (sr : σs) :
    Run.login R D Hs rngC rngS auth fromPs buf db kdb start user pass ci c sv sr c' =
      Run.login R D Hs rngC rngS auth fromPs buf db' kdb start user pass ci c sv sr c' := by
  have : ∀ srv, Run.serverInfo R D rngS db kdb srv user sr =
      Run.serverInfo R D rngS db' kdb srv user sr := by
    intro srv
    cases kdb with
    | none => simp only [Run.serverInfo, Server.generateClientInfo, Server.generatePrs, h]
    | some k => simp only [Run.serverInfo, Server.generateClientInfoPartialAug, Server.generatePrs, h]
  simp only [Run.login, Run.augment, Client.startAugmentation, this]

/-- A history that ends, as far as `user` is concerned, with a successful registration. -/
theorem lookup_latest (d : δ) (es es' : List (Event Params σr)) (buf : Buf) (s s' : σr)
    (user pass salt ps : Bytes) (params : Params) (W : G)
    (hreg : Run.register R Hs rngR buf s user pass params = .ok (.registration user salt ps W, s'))
    (hlast : ∀ e ∈ es', e.target ≠ some user) :
    S.lookup (history R Hs rngR S d (es ++ .register buf s user pass params :: es')) user =
      some (W, salt, ps) := by
  rw [history, List.foldl_append, List.foldl_cons]
  rw [show ∀ d0, List.foldl (stepEvent R Hs rngR S) d0 es' = history R Hs rngR S d0 es' from
    fun _ => rfl, C49_others R Hs rngR S _ es' user hlast]
  simp only [stepEvent, hreg]
  exact S.lookup_store_same _ _ _ _ _

/-- **C49 (latest registration decides).** After any history in which the last registration of `user` used
`pass`, a login with `pass` gives both sides the same 64-byte key (or stops on a degenerate draw), and a
login with any other password succeeds only if it hashes to the same scalar under the latest salt or a
named collision. In particular a superseded password is refused. -/
theorem C49_latest (h64 : D.outLen = 64)
    (d : δ) (es es' : List (Event Params σr)) (bufR : Buf) (s s' : σr)
    (user pass salt ps : Bytes) (params : Params) (W : G)
    (hreg : Run.register R Hs rngR bufR s user pass params =
      .ok (.registration user salt ps W, s'))
    (hlast : ∀ e ∈ es', e.target ≠ some user)
    (kdb : Option (PartialAugDatabase G))
    (hk : ∀ k, kdb = some k → ∃ x, k.lookupLongTermKeypair user = some (x, x • R.base))
    (fromPs : Bytes → Params) (hps : fromPs ps = params)
    (start : Start) (hstart : startOk start) (ci : Bytes)
    (c c' : σc) (sv : Server.State σs) (sr : σs) :
    let db := S.view (history R Hs rngR S d (es ++ .register bufR s user pass params :: es'))
    let run := fun buf pw => Run.login R D Hs rngC rngS (Run.explicit R D rngC rngS) fromPs buf db
      kdb start user pw ci c sv sr c'
    (∀ buf : Buf, buf.fits user pass →
      (∃ k : Bytes, k.length = 64 ∧ run buf pass = .ok (k, k)) ∨
        run buf pass = .err .illegalPointError) ∧
    (∀ (buf : Buf) (old kc ks : Bytes), buf.fits user old → run buf old = .ok (kc, ks) →
      ∃ w w' : Scalar, pwScalar Hs user pass salt params = .ok w ∧
        pwScalar Hs user old salt params = .ok w' ∧
        (w = w' ∨
          let x := (serverX rngS kdb user sr).1
          ExchangeCollision R D (ssidOf D rngC rngS start c sv)
            (R.compress ((w * x) • R.base)) (R.compress ((w' * x) • R.base)) ci
            (draw (rngS.fill (serverX rngS kdb user sr).2 64).1)
            (draw (rngC.fill c' 64).1))) := by
  intro db run
  have hdb : db.lookupVerifier user = some (W, salt, ps) :=
    lookup_latest R Hs rngR S d es es' bufR s s' user pass salt ps params W hreg hlast
  constructor
  · intro buf hbuf
    exact C32_same_key R D Hs rngC rngS rngR h64 bufR buf s s' user pass salt ps params W hreg db hdb
      kdb hk fromPs hps hbuf start hstart ci c c' sv sr
  · intro buf old kc ks hbuf hrun
    exact C38_wrong_password R D Hs rngC rngS rngR h64 bufR buf s s' user pass old salt ps params W
      hreg db hdb kdb hk fromPs hps hbuf start hstart ci c c' sv sr hrun

/-- **C49 (strong variants).** -/
theorem C49_latest_strong (h64 : D.outLen = 64)
    (d : δ) (es es' : List (Event Params σr)) (bufR : Buf) (s s' : σr)
    (user pass ps : Bytes) (q : Scalar) (params : Params) (W : G)
    (hreg : Run.registerStrong R D Hs rngR bufR s user pass params =
      .ok (.strongRegistration user q ps W, s'))
    (hlast : ∀ e ∈ es', e.target ≠ some user)
    (kdb : Option (PartialAugDatabase G))
    (hk : ∀ k, kdb = some k → ∃ x, k.lookupLongTermKeypair user = some (x, x • R.base))
    (fromPs : Bytes → Params) (hps : fromPs ps = params)
    (start : Start) (hstart : startOk start) (ci : Bytes) (r : Scalar) (hr : r ≠ 0)
    (c c' : σc) (sv : Server.State σs) (sr : σs) :
    let db := SS.view
      (historyStrong R D Hs rngR SS d (es ++ .register bufR s user pass params :: es'))
    let run := fun buf pw => Run.loginStrong R D Hs rngC rngS (Run.explicit R D rngC rngS) fromPs buf
      db kdb start user pw ci r c sv sr c'
    (∀ buf : Buf, buf.fits user pass →
      (∃ k : Bytes, k.length = 64 ∧ run buf pass = .ok (k, k)) ∨
        run buf pass = .err .illegalPointError) ∧
    (∀ (buf : Buf) (old kc ks : Bytes), buf.fits user old → run buf old = .ok (kc, ks) →
      ∃ w w' : Scalar,
        pwScalar Hs user pass (Base64.encode (R.compress (q • strongPoint R D user pass))) params =
          .ok w ∧
        pwScalar Hs user old (Base64.encode (R.compress (q • strongPoint R D user old))) params =
          .ok w' ∧
        (w = w' ∨
          let x := (serverX rngS kdb user sr).1
          ExchangeCollision R D (ssidOf D rngC rngS start c sv)
            (R.compress ((w * x) • R.base)) (R.compress ((w' * x) • R.base)) ci
            (draw (rngS.fill (serverX rngS kdb user sr).2 64).1)
            (draw (rngC.fill c' 64).1))) := by
  intro db run
  have hdb : db.lookupVerifierStrong user = some (W, q, ps) := by
    show SS.lookup (historyStrong R D Hs rngR SS d _) user = _
    rw [historyStrong, List.foldl_append, List.foldl_cons]
    rw [show ∀ d0, List.foldl (stepEventStrong R D Hs rngR SS) d0 es' =
      historyStrong R D Hs rngR SS d0 es' from
      fun _ => rfl, C49_others_strong R D Hs rngR SS _ es' user hlast]
    simp only [stepEventStrong, hreg]
    exact SS.lookup_store_same _ _ _ _ _
  constructor
  · intro buf hbuf
    exact C33_same_key R D Hs rngC rngS rngR h64 bufR buf s s' user pass ps params W q hreg db hdb
      kdb hk fromPs hps hbuf start hstart ci r hr c c' sv sr
  · intro buf old kc ks hbuf hrun
    exact C38_wrong_password_strong R D Hs rngC rngS rngR h64 bufR buf s s' user pass old ps params W
      q hreg db hdb kdb hk fromPs hps hbuf start hstart ci r hr c c' sv sr hrun

/-- **C49 (before the first registration).** A user for whom the history holds no registration is unknown to
a server that started with an empty database (and then C44 applies). -/
theorem C49_never_registered (d : δ) (es : List (Event Params σr)) (user : Bytes)
    (hempty : S.lookup d user = none) (h : ∀ e ∈ es, e.target ≠ some user) :
    (S.view (history R Hs rngR S d es)).lookupVerifier user = none := by
  exact (C49_others R Hs rngR S d es user h).trans hempty

end

/-- A concrete history: Alice registers twice (password change) with Bob in between; the new password is
accepted and the old one refused. -/
def World.story : List (Event Unit Bytes) :=
  [.register .alloc (World.bytes 7 16) World.user (ascii "old") (),
   .login World.user (ascii "old"),
   .register .alloc (World.bytes 8 16) (ascii "bob") (ascii "old") (),
   .register .alloc (World.bytes 9 16) World.user (ascii "new") (),
   .login World.user (ascii "new")]

example :
    let db := (Storage.list Scalar).view
      (history Ristretto.toy World.hasher Rng.replay (Storage.list Scalar) [] World.story)
    let run := fun u pw => Run.login Ristretto.toy sha512 World.hasher Rng.replay Rng.replay
      (Run.explicit Ristretto.toy sha512 Rng.replay Rng.replay) (fun _ => ()) .alloc db none
      (.nonces 16) u pw (ascii "ci") (World.bytes 2 100) World.server (World.bytes 3 200)
      (World.bytes 4 100)
    (run World.user (ascii "new")).isOk = true ∧
    run World.user (ascii "old") = .err .mutualAuthFail ∧
    (run (ascii "bob") (ascii "old")).isOk = true := by
  decide +kernel

/-! ## C50: concurrent sessions of one server -/

/-- A server session as the typestate API presents it: each state is one of the structs of
aucpace/src/server.rs, consumed by the next call. -/
inductive Session (σ : Type) where
  | ssid (st : Server.SsidEstablish)
  | aug (st : Server.AugLayer)
  | cpace (st : Server.CPaceSubstep σ)
  | recvKey (st : Server.RecvClientKey)
  | auth (st : Server.ExpMutAuth)
  | finished
  | failed

/-- A call on a session, with all its arguments: databases and generators are passed per call
(aucpace/src/server.rs:201-206, 245-251, 294-300, 339-346) and may differ from call to call. -/
inductive Call (G σ : Type) where
  | agreeSsid (nonce : Bytes)
  | info (db : Database G) (kdb : Option (PartialAugDatabase G)) (user : Bytes) (rng : σ)
  | infoStrong (db : StrongDatabase G) (kdb : Option (PartialAugDatabase G)) (user : Bytes)
      (blinded : G) (rng : σ)
  | publicKey (ci : Bytes)
  | recvKey (Y : G)
  | implicit (Y : G)
  | authenticator (t : Bytes)

/-- What a call gives to the application. -/
inductive Out (G : Type) where
  | message (m : ServerMessage G)
  | key (k : Bytes)
  | error (e : Error)

/-- Is the output a session key? -/
def Out.isKey {G : Type} : Out G → Bool
  | .key _ => true
  | _ => false

section
variable {G : Type} [AddCommGroup G] [Module Scalar G] [DecidableEq G] (R : Ristretto G) (D : Digest)
  {σ : Type} (rng : Rng σ)

/-- One call on one session; `none` where the typestate API has no such method. -/
def callSession : Session σ → Call G σ → Option (Session σ × List (Out G))
  | .ssid st, .agreeSsid nonce => some (.aug (Server.agreeSsid D st nonce), [])
  | .aug st, .info db kdb user s =>
    match Run.serverInfo R D rng db kdb st user s with
    | .ok (st, m) => some (.cpace st, [.message m])
    | .err e => some (.failed, [.error e])
    | .panic => some (.failed, [])
  | .aug st, .infoStrong db kdb user U s =>
    match Run.serverInfoStrong R D rng db kdb st user U s with
    | .ok (st, m) => some (.cpace st, [.message m])
    | .err e => some (.failed, [.error e])
    | .panic => some (.failed, [])
  | .cpace st, .publicKey ci =>
    let (st, m) := Server.generatePublicKey R D rng st ci
    some (.recvKey st, [.message m])
  | .recvKey st, .recvKey Y =>
    match Server.receiveClientPubkey R D st Y with
    | .ok st => some (.auth st, [])
    | .err e => some (.failed, [.error e])
    | .panic => some (.failed, [])
  | .recvKey st, .implicit Y =>
    match Server.implicitAuth R D st Y with
    | .ok k => some (.finished, [.key k])
    | .err e => some (.failed, [.error e])
    | .panic => some (.failed, [])
  | .auth st, .authenticator t =>
    match (Server.receiveClientAuthenticator D st t : Res Error (Bytes × ServerMessage G)) with
    | .ok (k, m) => some (.finished, [.key k, .message m])
    | .err e => some (.failed, [.error e])
    | .panic => some (.failed, [])
  | _, _ => none

/-- A session run alone. -/
def runSession : Session σ → List (Call G σ) → Option (Session σ × List (Out G))
  | st, [] => some (st, [])
  | st, c :: cs => do
    let (st, o) ← callSession R D rng st c
    let (st, o') ← runSession st cs
    some (st, o ++ o')

/-- An action on the whole server: open a session (by nonce or with a given SSID), make a long-term key
pair, or call a method of an open session. -/
inductive Action (G σ : Type) where
  | begin (id : Nat) (k1 : Nat)
  | beginPre (id : Nat) (ssid : Bytes)
  | keypair
  | call (id : Nat) (c : Call G σ)

/-- The server object and all its sessions. -/
structure ServerWorld (σ : Type) where
  sv : Server.State σ
  sessions : Nat → Option (Session σ)

def ServerWorld.set (w : ServerWorld σ) (id : Nat) (s : Session σ) : ServerWorld σ :=
  { w with sessions := fun j => if j = id then some s else w.sessions j }

/-- One action; outputs are tagged with the session. `none`: not possible (identifier in use, session
unknown, no such method). -/
def act (w : ServerWorld σ) : Action G σ → Option (ServerWorld σ × List (Nat × Out G))
  | .begin id k1 =>
    match w.sessions id with
    | some _ => none
    | none =>
      let ((st, m), sv) := Server.begin (G := G) rng k1 w.sv
      some ({ w with sv := sv }.set id (.ssid st), [(id, .message m)])
  | .beginPre id ssid =>
    match w.sessions id with
    | some _ => none
    | none =>
      match Server.beginPrestablishedSsid D w.sv ssid with
      | .ok st => some (w.set id (.aug st), [])
      | .err e => some (w.set id .failed, [(id, .error e)])
      | .panic => some (w.set id .failed, [])
  | .keypair => some ({ w with sv := (Server.generateLongTermKeypair R rng w.sv).2 }, [])
  | .call id c =>
    match w.sessions id with
    | none => none
    | some st =>
      match callSession R D rng st c with
      | none => none
      | some (st, o) => some (w.set id st, o.map fun x => (id, x))

/-- A schedule of actions. -/
def acts : ServerWorld σ → List (Action G σ) → Option (ServerWorld σ × List (Nat × Out G))
  | w, [] => some (w, [])
  | w, a :: as => do
    let (w, o) ← act R D rng w a
    let (w, o') ← acts w as
    some (w, o ++ o')

/-- The calls of a schedule that concern session `id`. -/
def callsOf (id : Nat) : List (Action G σ) → List (Call G σ)
  | [] => []
  | .call j c :: as => if j = id then c :: callsOf id as else callsOf id as
  | _ :: as => callsOf id as

/-- The outputs of session `id`. -/
def outsOf (id : Nat) (o : List (Nat × Out G)) : List (Out G) :=
  o.filterMap fun p => if p.1 = id then some p.2 else none

theorem outsOf_append (id : Nat) (a b : List (Nat × Out G)) :
    outsOf id (a ++ b) = outsOf id a ++ outsOf id b := by simp [outsOf]

theorem outsOf_map_same (id : Nat) (o : List (Out G)) :
    outsOf id (o.map fun x => (id, x)) = o := by
  induction o with
  | nil => rfl
  | cons x o ih => simp [outsOf]

theorem outsOf_map_other {id j : Nat} (h : j ≠ id) (o : List (Out G)) :
    outsOf id (o.map fun x => (j, x)) = [] := by
  induction o with
  | nil => rfl
  | cons x o ih => simp [outsOf, h]

/-- **C50 (isolation).** In any schedule of any number of sessions, an open session ends in the state and with
exactly the outputs of running its own calls alone, whatever the other sessions, openings and key pairs
in between are. -/
theorem C50_isolation (as : List (Action G σ)) (w w' : ServerWorld σ) (outs : List (Nat × Out G))
    (h : acts R D rng w as = some (w', outs)) (id : Nat) (st : Session σ)
    (hst : w.sessions id = some st) :
    ∃ st', w'.sessions id = some st' ∧
      runSession R D rng st (callsOf id as) = some (st', outsOf id outs) := by
  induction as generalizing w outs st with
  | nil =>
    simp only [acts, Option.some.injEq, Prod.mk.injEq] at h
    obtain ⟨rfl, rfl⟩ := h
    exact ⟨st, hst, rfl⟩
  | cons a as ih =>
    simp only [acts, Option.bind_eq_bind] at h
    obtain ⟨⟨w1, o1⟩, h1, h⟩ := Option.bind_eq_some_iff.1 h
    obtain ⟨⟨w2, o2⟩, h2, h⟩ := Option.bind_eq_some_iff.1 h
    simp only [Option.some.injEq, Prod.mk.injEq] at h
    obtain ⟨rfl, rfl⟩ := h
    cases a with
    | begin j k1 =>
      simp only [act] at h1
      split at h1
      · simp at h1
      · rename_i hj
        have hne : id ≠ j := by rintro rfl; rw [hst] at hj; simp at hj
        simp only [Option.some.injEq, Prod.mk.injEq] at h1
        obtain ⟨rfl, rfl⟩ := h1
        obtain ⟨st', hs', hr⟩ := ih _ _ h2 st (by simp [ServerWorld.set, hne, hst])
        refine ⟨st', hs', ?_⟩
        rw [outsOf_append, show outsOf id [(j, _)] = [] from outsOf_map_other hne.symm [_]]
        exact hr
    | beginPre j ssid =>
      simp only [act] at h1
      split at h1
      · simp at h1
      · rename_i hj
        have hne : id ≠ j := by rintro rfl; rw [hst] at hj; simp at hj
        have key : ∃ (s : Session σ) (o : List (Out G)), w1 = w.set j s ∧
            o1 = o.map fun x => (j, x) := by
          split at h1 <;> simp only [Option.some.injEq, Prod.mk.injEq] at h1
          · exact ⟨_, [], h1.1.symm, h1.2.symm⟩
          · rename_i e _
            exact ⟨_, [.error e], h1.1.symm, h1.2.symm⟩
          · exact ⟨_, [], h1.1.symm, h1.2.symm⟩
        obtain ⟨s, o, rfl, rfl⟩ := key
        obtain ⟨st', hs', hr⟩ := ih _ _ h2 st (by simp [ServerWorld.set, hne, hst])
        refine ⟨st', hs', ?_⟩
        rw [outsOf_append, outsOf_map_other hne.symm]
        exact hr
    | keypair =>
      simp only [act, Option.some.injEq, Prod.mk.injEq] at h1
      obtain ⟨rfl, rfl⟩ := h1
      exact ih _ _ h2 st hst
    | call j c =>
      simp only [act] at h1
      split at h1
      · simp at h1
      · rename_i sj hj
        split at h1
        · simp at h1
        · rename_i sj' o hc
          simp only [Option.some.injEq, Prod.mk.injEq] at h1
          obtain ⟨rfl, rfl⟩ := h1
          by_cases hne : j = id
          · subst hne
            rw [hst] at hj
            simp only [Option.some.injEq] at hj
            subst hj
            obtain ⟨st', hs', hr⟩ := ih _ _ h2 sj' (by simp [ServerWorld.set])
            refine ⟨st', hs', ?_⟩
            simp only [callsOf, if_true, runSession, hc, Option.bind_eq_bind, Option.bind_some, hr,
              outsOf_append, outsOf_map_same]
          · obtain ⟨st', hs', hr⟩ := ih _ _ h2 st
              (by simp [ServerWorld.set, Ne.symm hne, hst])
            refine ⟨st', hs', ?_⟩
            rw [outsOf_append, outsOf_map_other hne]
            simpa only [callsOf, if_neg hne, List.nil_append] using hr

/-- **C50 (shared state).** The secret never changes; the only other shared state is the generator. -/
theorem C50_secret (as : List (Action G σ)) (w w' : ServerWorld σ) (outs : List (Nat × Out G))
    (h : acts R D rng w as = some (w', outs)) : w'.sv.secret = w.sv.secret := by
  induction as generalizing w outs with
  | nil =>
    simp only [acts, Option.some.injEq, Prod.mk.injEq] at h
    rw [h.1]
  | cons a as ih =>
    simp only [acts, Option.bind_eq_bind] at h
    obtain ⟨⟨w1, o1⟩, h1, h⟩ := Option.bind_eq_some_iff.1 h
    obtain ⟨⟨w2, o2⟩, h2, h⟩ := Option.bind_eq_some_iff.1 h
    simp only [Option.some.injEq, Prod.mk.injEq] at h
    obtain ⟨rfl, rfl⟩ := h
    rw [ih _ _ h2]
    cases a with
    | begin j k1 =>
      simp only [act] at h1
      split at h1
      · simp at h1
      · simp only [Option.some.injEq, Prod.mk.injEq] at h1
        obtain ⟨rfl, -⟩ := h1
        rfl
    | beginPre j ssid =>
      simp only [act] at h1
      split at h1
      · simp at h1
      · split at h1 <;> simp only [Option.some.injEq, Prod.mk.injEq] at h1 <;> rw [← h1.1] <;> rfl
    | keypair =>
      simp only [act, Option.some.injEq, Prod.mk.injEq] at h1
      rw [← h1.1]; rfl
    | call j c =>
      simp only [act] at h1
      split at h1
      · simp at h1
      · split at h1
        · simp at h1
        · simp only [Option.some.injEq, Prod.mk.injEq] at h1
          rw [← h1.1]; rfl

/-- **C50 (whole life).** From a server on which `id` is not in use: if after a schedule session `id` exists, the
schedule holds exactly the opening of that session, before which it had no output, and from there on the
session's outputs are those of running its calls alone. A session opened by nonce starts from nothing but
the server's secret and the next bytes of the generator. -/
theorem C50_life (as : List (Action G σ)) (w w' : ServerWorld σ) (outs : List (Nat × Out G))
    (h : acts R D rng w as = some (w', outs)) (id : Nat) (st' : Session σ)
    (hfree : w.sessions id = none) (hst' : w'.sessions id = some st') :
    ∃ as1 a as2 w1 o1 w2 o2 st o3, as = as1 ++ a :: as2 ∧
      acts R D rng w as1 = some (w1, o1) ∧ outsOf id o1 = [] ∧
      act R D rng w1 a = some (w2, o2) ∧ w2.sessions id = some st ∧
      ((∃ k1, a = .begin id k1 ∧ st = .ssid ⟨w.sv.secret, (rng.fill w1.sv.rng k1).1⟩) ∨
        ∃ ssid, a = .beginPre id ssid) ∧
      runSession R D rng st (callsOf id as2) = some (st', o3) ∧
      outsOf id outs = outsOf id o2 ++ o3 := by
  induction as generalizing w outs with
  | nil =>
    simp only [acts, Option.some.injEq, Prod.mk.injEq] at h
    rw [← h.1, hfree] at hst'
    simp at hst'
  | cons a as ih =>
    simp only [acts, Option.bind_eq_bind] at h
    obtain ⟨⟨w1, o1⟩, h1, h⟩ := Option.bind_eq_some_iff.1 h
    obtain ⟨⟨w2, o2⟩, h2, h⟩ := Option.bind_eq_some_iff.1 h
    simp only [Option.some.injEq, Prod.mk.injEq] at h
    obtain ⟨rfl, rfl⟩ := h
    simp only at h2 hst'
    -- the action opens the session
    have opened : ∀ st, w1.sessions id = some st →
        ((∃ k1, a = .begin id k1 ∧ st = .ssid ⟨w.sv.secret, (rng.fill w.sv.rng k1).1⟩) ∨
          ∃ ssid, a = .beginPre id ssid) →
        ∃ as1 a' as2 w1' o1' w2' o2' st o3, a :: as = as1 ++ a' :: as2 ∧
          acts R D rng w as1 = some (w1', o1') ∧ outsOf id o1' = [] ∧
          act R D rng w1' a' = some (w2', o2') ∧ w2'.sessions id = some st ∧
          ((∃ k1, a' = .begin id k1 ∧ st = .ssid ⟨w.sv.secret, (rng.fill w1'.sv.rng k1).1⟩) ∨
            ∃ ssid, a' = .beginPre id ssid) ∧
          runSession R D rng st (callsOf id as2) = some (st', o3) ∧
          outsOf id (o1 ++ o2) = outsOf id o2' ++ o3 := by
      intro st hs hopen
      obtain ⟨st2, hs2, hrun⟩ := C50_isolation R D rng as w1 w2 o2 h2 id st hs
      rw [hst', Option.some.injEq] at hs2
      subst hs2
      exact ⟨[], a, as, w, [], w1, o1, st, outsOf id o2, rfl, rfl, rfl, h1, hs, hopen, hrun,
        outsOf_append id o1 o2⟩
    -- the action does not concern the session
    have later : w1.sessions id = none → outsOf id o1 = [] → w1.sv.secret = w.sv.secret →
        ∃ as1 a' as2 w1' o1' w2' o2' st o3, a :: as = as1 ++ a' :: as2 ∧
          acts R D rng w as1 = some (w1', o1') ∧ outsOf id o1' = [] ∧
          act R D rng w1' a' = some (w2', o2') ∧ w2'.sessions id = some st ∧
          ((∃ k1, a' = .begin id k1 ∧ st = .ssid ⟨w.sv.secret, (rng.fill w1'.sv.rng k1).1⟩) ∨
            ∃ ssid, a' = .beginPre id ssid) ∧
          runSession R D rng st (callsOf id as2) = some (st', o3) ∧
          outsOf id (o1 ++ o2) = outsOf id o2' ++ o3 := by
      intro hfree1 ho1 hsec
      obtain ⟨as1, a', as2, wa, oa, wb, ob, st, o3, e, ha, hoa, hact, hs, hopen, hrun, hout⟩ :=
        ih w1 o2 h2 hfree1
      refine ⟨a :: as1, a', as2, wa, o1 ++ oa, wb, ob, st, o3, by rw [e, List.cons_append], ?_, ?_,
        hact, hs, by rwa [hsec] at hopen, hrun, ?_⟩
      · simp only [acts, h1, ha, Option.bind_eq_bind, Option.bind_some]
      · rw [outsOf_append, ho1, hoa]; rfl
      · rw [outsOf_append, ho1, hout]; rfl
    cases a with
    | begin j k1 =>
      simp only [act] at h1
      split at h1
      · simp at h1
      · simp only [Option.some.injEq, Prod.mk.injEq] at h1
        obtain ⟨rfl, rfl⟩ := h1
        by_cases hj : id = j
        · subst hj
          exact opened _ (by simp [ServerWorld.set]; rfl) (Or.inl ⟨k1, rfl, rfl⟩)
        · exact later (by simp [ServerWorld.set, hj, hfree])
            (outsOf_map_other (Ne.symm hj) [_]) rfl
    | beginPre j ssid =>
      simp only [act] at h1
      split at h1
      · simp at h1
      · have key : ∃ (s : Session σ) (o : List (Out G)), w1 = w.set j s ∧
            o1 = o.map fun x => (j, x) := by
          split at h1 <;> simp only [Option.some.injEq, Prod.mk.injEq] at h1
          · exact ⟨_, [], h1.1.symm, h1.2.symm⟩
          · rename_i e _
            exact ⟨_, [.error e], h1.1.symm, h1.2.symm⟩
          · exact ⟨_, [], h1.1.symm, h1.2.symm⟩
        obtain ⟨s, o, rfl, rfl⟩ := key
        by_cases hj : id = j
        · subst hj
          exact opened s (by simp [ServerWorld.set]) (Or.inr ⟨ssid, rfl⟩)
        · exact later (by simp [ServerWorld.set, hj, hfree]) (outsOf_map_other (Ne.symm hj) o) rfl
    | keypair =>
      simp only [act, Option.some.injEq, Prod.mk.injEq] at h1
      obtain ⟨rfl, rfl⟩ := h1
      exact later hfree rfl rfl
    | call j c =>
      simp only [act] at h1
      split at h1
      · simp at h1
      · rename_i sj hj
        split at h1
        · simp at h1
        · rename_i sj' o hc
          simp only [Option.some.injEq, Prod.mk.injEq] at h1
          obtain ⟨rfl, rfl⟩ := h1
          have hne : id ≠ j := by rintro rfl; rw [hfree] at hj; simp at hj
          exact later (by simp [ServerWorld.set, hne, hfree]) (outsOf_map_other (Ne.symm hne) o) rfl

/-- How far a session is from its end. -/
def Session.rank : Session σ → Nat
  | .ssid _ => 5
  | .aug _ => 4
  | .cpace _ => 3
  | .recvKey _ => 2
  | .auth _ => 1
  | .finished => 0
  | .failed => 0

/-- Each call strictly advances the session, and a key is only output together with ending it. -/
theorem callSession_rank (st st' : Session σ) (c : Call G σ) (o : List (Out G))
    (h : callSession R D rng st c = some (st', o)) :
    st'.rank < st.rank ∧ o.countP Out.isKey ≤ 1 ∧
      (o.countP Out.isKey ≠ 0 → st' = .finished) := by
  cases st <;> cases c <;> simp only [callSession] at h <;> try (simp at h; done)
  · simp only [Option.some.injEq, Prod.mk.injEq] at h
    obtain ⟨rfl, rfl⟩ := h
    simp [Session.rank]
  · split at h <;> simp only [Option.some.injEq, Prod.mk.injEq] at h <;> obtain ⟨rfl, rfl⟩ := h <;>
      simp [Session.rank, Out.isKey]
  · split at h <;> simp only [Option.some.injEq, Prod.mk.injEq] at h <;> obtain ⟨rfl, rfl⟩ := h <;>
      simp [Session.rank, Out.isKey]
  · simp only [Option.some.injEq, Prod.mk.injEq] at h
    obtain ⟨rfl, rfl⟩ := h
    simp [Session.rank, Out.isKey]
  · split at h <;> simp only [Option.some.injEq, Prod.mk.injEq] at h <;> obtain ⟨rfl, rfl⟩ := h <;>
      simp [Session.rank, Out.isKey]
  · split at h <;> simp only [Option.some.injEq, Prod.mk.injEq] at h <;> obtain ⟨rfl, rfl⟩ := h <;>
      simp [Session.rank, Out.isKey]
  · split at h <;> simp only [Option.some.injEq, Prod.mk.injEq] at h <;> obtain ⟨rfl, rfl⟩ := h <;>
      simp [Session.rank, Out.isKey, List.countP_cons]

/-- **C50 (ended sessions).** A finished or failed session allows no further call, so it outputs nothing more. -/
theorem C50_ended (st : Session σ) (h : st = .finished ∨ st = .failed) (cs : List (Call G σ))
    (st' : Session σ) (o : List (Out G)) (hr : runSession R D rng st cs = some (st', o)) :
    cs = [] ∧ st' = st ∧ o = [] := by
  cases cs with
  | nil =>
    simp only [runSession, Option.some.injEq, Prod.mk.injEq] at hr
    exact ⟨rfl, hr.1.symm, hr.2.symm⟩
  | cons c cs =>
    exfalso
    rcases h with rfl | rfl <;> simp [runSession, callSession] at hr

/-- **C50 (one key).** A session outputs at most one key, and if it outputs one it is finished; it takes at most
five calls. -/
theorem C50_one_key (st : Session σ) (cs : List (Call G σ)) (st' : Session σ) (o : List (Out G))
    (hr : runSession R D rng st cs = some (st', o)) :
    o.countP Out.isKey ≤ 1 ∧ (o.countP Out.isKey ≠ 0 → st' = .finished) ∧
      cs.length + st'.rank ≤ st.rank := by
  induction cs generalizing st o with
  | nil =>
    simp only [runSession, Option.some.injEq, Prod.mk.injEq] at hr
    obtain ⟨rfl, rfl⟩ := hr
    simp
  | cons c cs ih =>
    simp only [runSession, Option.bind_eq_bind] at hr
    obtain ⟨⟨s1, o1⟩, h1, hr⟩ := Option.bind_eq_some_iff.1 hr
    obtain ⟨⟨s2, o2⟩, h2, hr⟩ := Option.bind_eq_some_iff.1 hr
    simp only [Option.some.injEq, Prod.mk.injEq] at hr
    obtain ⟨rfl, rfl⟩ := hr
    obtain ⟨hrk, hle, hfin⟩ := callSession_rank R D rng _ _ _ _ h1
    obtain ⟨ih1, ih2, ih3⟩ := ih _ _ h2
    simp only at ih1 ih2 ih3
    rw [List.countP_append, List.length_cons]
    by_cases hk : o1.countP Out.isKey = 0
    · refine ⟨by omega, fun h => ih2 (by omega), by omega⟩
    · have hf := hfin hk
      subst hf
      obtain ⟨rfl, rfl, rfl⟩ := C50_ended R D rng _ (Or.inl rfl) _ _ _ h2
      refine ⟨by simpa using hle, fun _ => rfl, by simp; omega⟩

/-- **C50 (key only after the right authenticator).** A session in which the explicit path was chosen (a public
key was received by `receive_client_pubkey`) outputs a key only if the next call delivers exactly the
client authenticator of this session's SSID and first session key; the key is the one of that session. -/
theorem C50_explicit_key (h64 : D.outLen = 64) (st : Server.ExpMutAuth) (cs : List (Call G σ))
    (st' : Session σ) (o : List (Out G)) (k : Bytes)
    (hr : runSession R D rng (.auth st) cs = some (st', o)) (hk : Out.key k ∈ o) :
    cs = [.authenticator (tb D st.ssid st.sk1)] ∧ k = sk D st.ssid st.sk1 := by
  cases cs with
  | nil =>
    simp only [runSession, Option.some.injEq, Prod.mk.injEq] at hr
    rw [← hr.2] at hk; simp at hk
  | cons c cs =>
    simp only [runSession, Option.bind_eq_bind] at hr
    obtain ⟨⟨s1, o1⟩, h1, hr⟩ := Option.bind_eq_some_iff.1 hr
    obtain ⟨⟨s2, o2⟩, h2, hr⟩ := Option.bind_eq_some_iff.1 hr
    simp only [Option.some.injEq, Prod.mk.injEq] at hr
    obtain ⟨rfl, rfl⟩ := hr
    cases c <;> simp only [callSession] at h1 <;> try (simp at h1; done)
    rename_i t
    rw [receiveClientAuthenticator_eq D h64] at h1
    by_cases ht : tb D st.ssid st.sk1 = t
    · rw [if_pos ht] at h1
      simp only [Option.some.injEq, Prod.mk.injEq] at h1
      obtain ⟨rfl, rfl⟩ := h1
      obtain ⟨rfl, -, rfl⟩ := C50_ended R D rng _ (Or.inl rfl) _ _ _ h2
      refine ⟨by rw [ht], ?_⟩
      simpa using hk
    · rw [if_neg ht] at h1
      simp only [Option.some.injEq, Prod.mk.injEq] at h1
      obtain ⟨rfl, rfl⟩ := h1
      obtain ⟨rfl, -, rfl⟩ := C50_ended R D rng _ (Or.inr rfl) _ _ _ h2
      simp at hk

/-- **C50 (order).** A session that starts at SSID agreement and outputs a key has received exactly: a nonce,
an augmentation request, the request for its public key, the peer's key — and then either nothing more
(implicit) or the authenticator (explicit). -/
theorem C50_order (st : Server.SsidEstablish) (cs : List (Call G σ)) (st' : Session σ)
    (o : List (Out G)) (hr : runSession R D rng (.ssid st) cs = some (st', o))
    (hk : o.countP Out.isKey ≠ 0) :
    ∃ n i ci Y, cs.take 3 = [.agreeSsid n, i, .publicKey ci] ∧
      ((∃ db kdb u s, i = .info db kdb u s) ∨ ∃ db kdb u U s, i = .infoStrong db kdb u U s) ∧
      (cs.drop 3 = [.implicit Y] ∨ ∃ t, cs.drop 3 = [.recvKey Y, .authenticator t]) := by
  -- peel off one call
  have peel : ∀ (s : Session σ) (cs : List (Call G σ)) (o : List (Out G)),
      runSession R D rng s cs = some (st', o) → cs ≠ [] →
      ∃ c cs' s1 o1 o2, cs = c :: cs' ∧ callSession R D rng s c = some (s1, o1) ∧
        runSession R D rng s1 cs' = some (st', o2) ∧ o = o1 ++ o2 := by
    intro s cs o h hne
    cases cs with
    | nil => exact absurd rfl hne
    | cons c cs =>
      simp only [runSession, Option.bind_eq_bind] at h
      obtain ⟨⟨s1, o1⟩, h1, h⟩ := Option.bind_eq_some_iff.1 h
      obtain ⟨⟨s2, o2⟩, h2, h⟩ := Option.bind_eq_some_iff.1 h
      simp only [Option.some.injEq, Prod.mk.injEq] at h
      obtain ⟨rfl, rfl⟩ := h
      exact ⟨c, cs, s1, o1, o2, rfl, h1, h2, rfl⟩
  have nokeyNil : ∀ (s : Session σ) (o : List (Out G)),
      runSession R D rng s [] = some (st', o) → o.countP Out.isKey = 0 := by
    intro s o h
    simp only [runSession, Option.some.injEq, Prod.mk.injEq] at h
    rw [← h.2]; rfl
  have nonempty : ∀ (s : Session σ) (cs : List (Call G σ)) (o : List (Out G)),
      runSession R D rng s cs = some (st', o) → o.countP Out.isKey ≠ 0 → cs ≠ [] := by
    rintro s cs o h hk rfl
    exact hk (nokeyNil _ _ h)
  -- a failed session gives no key
  have failedNo : ∀ (cs : List (Call G σ)) (o : List (Out G)),
      runSession R D rng .failed cs = some (st', o) → o = [] ∧ cs = [] := by
    intro cs o h
    obtain ⟨h1, -, h2⟩ := C50_ended R D rng _ (Or.inr rfl) _ _ _ h
    exact ⟨h2, h1⟩
  obtain ⟨c, cs, s1, o1, o2, rfl, h1, hr1, rfl⟩ := peel _ _ _ hr (nonempty _ _ _ hr hk)
  cases c <;> simp only [callSession] at h1 <;> try (simp at h1; done)
  rename_i n
  simp only [Option.some.injEq, Prod.mk.injEq] at h1
  obtain ⟨rfl, rfl⟩ := h1
  rw [List.nil_append] at hk
  obtain ⟨c, cs, s2, o1, o2, rfl, h1, hr2, rfl⟩ := peel _ _ _ hr1 (nonempty _ _ _ hr1 hk)
  have hi : ((∃ db kdb u s, c = .info db kdb u s) ∨ ∃ db kdb u U s, c = .infoStrong db kdb u U s) ∧
      ∃ st2, s2 = .cpace st2 ∧ o1.countP Out.isKey = 0 := by
    cases c <;> simp only [callSession] at h1 <;> try (simp at h1; done)
    · refine ⟨Or.inl ⟨_, _, _, _, rfl⟩, ?_⟩
      split at h1 <;> simp only [Option.some.injEq, Prod.mk.injEq] at h1 <;> obtain ⟨rfl, rfl⟩ := h1
      · exact ⟨_, rfl, rfl⟩
      · rw [(failedNo _ _ hr2).1] at hk; exact absurd rfl hk
      · rw [(failedNo _ _ hr2).1] at hk; exact absurd rfl hk
    · refine ⟨Or.inr ⟨_, _, _, _, _, rfl⟩, ?_⟩
      split at h1 <;> simp only [Option.some.injEq, Prod.mk.injEq] at h1 <;> obtain ⟨rfl, rfl⟩ := h1
      · exact ⟨_, rfl, rfl⟩
      · rw [(failedNo _ _ hr2).1] at hk; exact absurd rfl hk
      · rw [(failedNo _ _ hr2).1] at hk; exact absurd rfl hk
  obtain ⟨hi, st2, rfl, hz⟩ := hi
  rw [List.countP_append, hz, Nat.zero_add] at hk
  obtain ⟨c', cs, s3, o1, o2, rfl, h1, hr3, rfl⟩ := peel _ _ _ hr2 (nonempty _ _ _ hr2 hk)
  cases c' <;> simp only [callSession] at h1 <;> try (simp at h1; done)
  rename_i ci
  simp only [Option.some.injEq, Prod.mk.injEq] at h1
  obtain ⟨rfl, rfl⟩ := h1
  rw [List.countP_append, show List.countP Out.isKey [Out.message _] = 0 from rfl,
    Nat.zero_add] at hk
  obtain ⟨c', cs, s4, o1, o2, rfl, h1, hr4, rfl⟩ := peel _ _ _ hr3 (nonempty _ _ _ hr3 hk)
  cases c' <;> simp only [callSession] at h1 <;> try (simp at h1; done)
  · rename_i Y
    split at h1 <;> simp only [Option.some.injEq, Prod.mk.injEq] at h1 <;> obtain ⟨rfl, rfl⟩ := h1
    · rw [List.nil_append] at hk
      obtain ⟨c', cs, s5, o1, o2, rfl, h1, hr5, rfl⟩ := peel _ _ _ hr4 (nonempty _ _ _ hr4 hk)
      cases c' <;> simp only [callSession] at h1 <;> try (simp at h1; done)
      rename_i t
      have : s5 = .finished ∨ s5 = .failed := by
        split at h1 <;> simp only [Option.some.injEq, Prod.mk.injEq] at h1
        · exact Or.inl h1.1.symm
        · exact Or.inr h1.1.symm
        · exact Or.inr h1.1.symm
      obtain ⟨rfl, -, -⟩ := C50_ended R D rng _ this _ _ _ hr5
      exact ⟨n, c, ci, Y, rfl, hi, Or.inr ⟨t, rfl⟩⟩
    · rw [(failedNo _ _ hr4).1] at hk; exact absurd rfl hk
    · rw [(failedNo _ _ hr4).1] at hk; exact absurd rfl hk
  · rename_i Y
    have : s4 = .finished ∨ s4 = .failed := by
      split at h1 <;> simp only [Option.some.injEq, Prod.mk.injEq] at h1
      · exact Or.inl h1.1.symm
      · exact Or.inr h1.1.symm
      · exact Or.inr h1.1.symm
    obtain ⟨rfl, -, -⟩ := C50_ended R D rng _ this _ _ _ hr4
    exact ⟨n, c, ci, Y, rfl, hi, Or.inl rfl⟩

end

/-- A schedule with two interleaved sessions, the first of which ends with a key while the second gets a
wrong authenticator. -/
def World.schedule : List (Action Scalar Bytes) :=
  [.begin 0 16, .begin 1 16,
   .call 1 (.agreeSsid (World.bytes 5 16)), .call 0 (.agreeSsid (World.bytes 6 16)),
   .call 0 (.info World.db none World.user (World.bytes 3 200)), .keypair,
   .call 1 (.info World.db none (ascii "bob") (World.bytes 4 200)),
   .call 1 (.publicKey []), .call 0 (.publicKey []),
   .call 0 (.implicit 5), .call 1 (.recvKey 9), .call 1 (.authenticator (World.bytes 0 64))]

example : ((acts Ristretto.toy sha512 Rng.replay ⟨World.server, fun _ => none⟩ World.schedule).map
    fun r => ((outsOf 0 r.2).countP Out.isKey, (outsOf 1 r.2).countP Out.isKey)) = some (1, 0) := by
  decide +kernel

end Verif.Aucpace
