import Verif.Aucpace.Clients
import Verif.Srp.SafePrime

/-!
# C76: acceptance means that the peer is in the same session, and recordings are refused

C36 and C37 speak of the states just before the authenticators are checked. Here whole sessions are run through arbitrary
calls, so that the network may deliver, drop, repeat and exchange everything. For SRP the proofs of two sessions are compared.
-/

set_option linter.unusedSectionVars false
set_option linter.unusedTactic false

namespace Verif.Aucpace
open Spec Run

section
variable {G : Type} [AddCommGroup G] [Module Scalar G] [DecidableEq G] (R : Ristretto G) (D : Digest)
  {Params : Type} (Hs : PwHasher Params) {σ σc : Type} (rng : Rng σ) (rngC : Rng σc)

/-- The SSID that a session state carries. -/
def Session.sid : Session σ → Option Bytes
  | .aug st => some st.ssid
  | .cpace st => some st.ssid
  | .recvKey st => some st.ssid
  | .auth st => some st.ssid
  | _ => none

theorem runSession_cons {st st' : Session σ} {c : Call G σ} {cs : List (Call G σ)} {o : List (Out G)} :
    runSession R D rng st (c :: cs) = some (st', o) ↔
      ∃ s1 o1 o2, callSession R D rng st c = some (s1, o1) ∧ runSession R D rng s1 cs = some (st', o2) ∧
        o = o1 ++ o2 := by
  simp only [runSession, Option.bind_eq_bind, Option.bind_eq_some_iff, Option.some.injEq, Prod.mk.injEq, Prod.exists]
  constructor
  · rintro ⟨s1, o1, h1, s2, o2, h2, rfl, rfl⟩
    exact ⟨s1, o1, o2, h1, h2, rfl⟩
  · rintro ⟨s1, o1, o2, h1, h2, rfl⟩
    exact ⟨s1, o1, h1, st', o2, h2, rfl, rfl⟩

theorem callSession_sid (h64 : D.outLen = 64) {st st' : Session σ} {c : Call G σ} {o : List (Out G)}
    (h : callSession R D rng st c = some (st', o)) {x : Bytes} (hx : st.sid = some x) :
    st'.sid = some x ∨ st' = .finished ∨ st' = .failed := by
  have hl := C36_state_lengths R D World.hasher rng h64
  cases st <;> cases c <;> simp only [callSession] at h <;> try (simp at h; done)
  all_goals simp only [Session.sid, Option.some.injEq, reduceCtorEq] at hx
  · split at h <;> simp only [Option.some.injEq, Prod.mk.injEq] at h <;> rw [← h.1]
    · rename_i h1
      exact Or.inl (congrArg some (((hl.2.2.2.2.2.2.1 _ _ _ _ _ _ _ h1).1).trans hx))
    · simp
    · simp
  · split at h <;> simp only [Option.some.injEq, Prod.mk.injEq] at h <;> rw [← h.1]
    · rename_i h1
      exact Or.inl (congrArg some (((hl.2.2.2.2.2.2.2 _ _ _ _ _ _ _ _ h1).1).trans hx))
    · simp
    · simp
  · simp only [Option.some.injEq, Prod.mk.injEq, server_generatePublicKey_eq] at h
    rw [← h.1]; exact Or.inl (congrArg some hx)
  · rw [receiveClientPubkey_eq] at h
    split at h <;> rename_i h1 <;> simp only [Option.some.injEq, Prod.mk.injEq] at h <;> rw [← h.1]
    · split at h1
      · simp at h1
      · simp only [Res.ok.injEq] at h1
        rw [← h1]; exact Or.inl (congrArg some hx)
    · simp
    · simp
  · split at h <;> simp only [Option.some.injEq, Prod.mk.injEq] at h <;> rw [← h.1] <;> simp
  · split at h <;> simp only [Option.some.injEq, Prod.mk.injEq] at h <;> rw [← h.1] <;> simp

theorem runSession_sid (h64 : D.outLen = 64) {st st' : Session σ} {cs : List (Call G σ)} {o : List (Out G)}
    (h : runSession R D rng st cs = some (st', o)) {x : Bytes} (hx : st.sid = some x) :
    st'.sid = some x ∨ st' = .finished ∨ st' = .failed := by
  induction cs generalizing st o with
  | nil =>
    simp only [runSession, Option.some.injEq, Prod.mk.injEq] at h
    rw [← h.1]; exact Or.inl hx
  | cons c cs ih =>
    obtain ⟨s1, o1, o2, h1, h2, rfl⟩ := (runSession_cons R D rng).1 h
    rcases callSession_sid R D rng h64 h1 hx with h3 | h3
    · exact ih h2 h3
    · obtain ⟨-, rfl, -⟩ := C50_ended R D rng _ h3 _ _ _ h2
      exact Or.inr h3

theorem runSession_ssid (h64 : D.outLen = 64) {secret : Nat} {n : Bytes} {st' : Session σ} {cs : List (Call G σ)}
    {o : List (Out G)} (h : runSession R D rng (.ssid ⟨secret, n⟩) cs = some (st', o)) {x : Bytes}
    (hx : st'.sid = some x) : ∃ t cs', cs = .agreeSsid t :: cs' ∧ x = Spec.ssid D n t := by
  cases cs with
  | nil =>
    simp only [runSession, Option.some.injEq, Prod.mk.injEq] at h
    rw [← h.1] at hx; simp [Session.sid] at hx
  | cons c cs =>
    obtain ⟨s1, o1, o2, h1, h2, rfl⟩ := (runSession_cons R D rng).1 h
    cases c <;> simp only [callSession] at h1 <;> try (simp at h1; done)
    rename_i t
    simp only [Option.some.injEq, Prod.mk.injEq, Server.agreeSsid, computeSsid_eq] at h1
    obtain ⟨rfl, rfl⟩ := h1
    refine ⟨t, cs, rfl, ?_⟩
    rcases runSession_sid R D rng h64 h2 (x := Spec.ssid D n t) rfl with h3 | h3 | h3
    · rw [h3] at hx; exact (Option.some.inj hx).symm
    · rw [h3] at hx; simp [Session.sid] at hx
    · rw [h3] at hx; simp [Session.sid] at hx

/-- **C76 (the server's peer is in the same session).** A server session with nonce `n` and a client session with nonce `t`
are run through arbitrary calls; the client has sent the authenticator `τ`. If the server accepts `τ`, the client was given
exactly the nonce `n` and the server exactly `t`, and both hold the same key - or one of the two named pairs collides. Nonces
are arrays of `k1` bytes. -/
theorem C76_server (h64 : D.outLen = 64) {k1 secret : Nat} {n t : Bytes} (hn : n.length = k1)
    {cs : List (Call G σ)} {cc : List (CCall G Params σc)} (hc : ∀ m, CCall.agreeSsid m ∈ cc → m.length = k1)
    {au : Server.ExpMutAuth} {ca : Client.ExpMutAuth} {o : List (Out G)} {oc : List (COut G)}
    (hS : runSession R D rng (.ssid ⟨secret, n⟩) cs = some (.auth au, o))
    (hC : runClient R D Hs rngC (.ssid ⟨t⟩) cc = some (.auth ca, oc))
    {τ k : Bytes} {m : ServerMessage G} (hsent : COut.message (.authenticator τ) ∈ oc)
    (hacc : Server.receiveClientAuthenticator D au τ = .ok (k, m)) :
    ((∃ cs', cs = .agreeSsid t :: cs') ∧ (∃ cc', cc = .agreeSsid n :: cc') ∧ au.ssid = ca.ssid ∧
      ∃ τ', m = .authenticator τ' ∧ Client.receiveServerAuthenticator D ca τ' = .ok k) ∨
    D.Collision (inp 4 (au.ssid ++ au.sk1)) (inp 4 (ca.ssid ++ ca.sk1)) ∨
    ∃ t' n', Call.agreeSsid t' ∈ cs ∧ CCall.agreeSsid n' ∈ cc ∧ D.Collision (inp 0 (n ++ t')) (inp 0 (n' ++ t)) := by
  obtain ⟨t', cs', rfl, hs⟩ := runSession_ssid R D rng h64 hS (x := au.ssid) rfl
  obtain ⟨n', cc', rfl, hcs⟩ := runClient_ssid R D Hs rngC h64 hC (x := ca.ssid) rfl
  obtain ⟨hsnt, hta⟩ := runClient_auth R D Hs rngC h64 (by simp) hC
  have hτ := (hsnt τ).1 hsent
  rw [receiveClientAuthenticator_eq D h64] at hacc
  split at hacc
  · rename_i he
    simp only [Res.ok.injEq, Prod.mk.injEq] at hacc
    rcases D.eq_or_collision (he.trans hτ) with e | e
    · have hl : au.ssid.length = ca.ssid.length := by rw [hs, hcs]; simp [h64]
      obtain ⟨e1, e2⟩ := append_inj_of_length hl (inp_inj.1 e).2
      have e3 : Hn D 0 (n ++ t') = Hn D 0 (n' ++ t) := by
        have := e1; rw [hs, hcs] at this; exact this
      rcases D.eq_or_collision e3 with e4 | e4
      · have hn' : n'.length = k1 := hc n' (by simp)
        obtain ⟨rfl, rfl⟩ := append_inj_of_length (hn.trans hn'.symm) (inp_inj.1 e4).2
        refine Or.inl ⟨⟨_, rfl⟩, ⟨_, rfl⟩, e1, _, hacc.2.symm, ?_⟩
        rw [receiveServerAuthenticator_eq, hta, ← hacc.1, e1, e2, if_pos rfl]
      · exact Or.inr (Or.inr ⟨t', n', by simp, by simp, e4⟩)
    · exact Or.inr (Or.inl e)
  · simp at hacc

/-- **C76 (the client's peer is in the same session).** The client accepts an authenticator that the server session sends
after accepting whatever it was given: again the nonces were exchanged unmodified and the keys agree. -/
theorem C76_client (h64 : D.outLen = 64) {k1 secret : Nat} {n t : Bytes} (hn : n.length = k1)
    {cs : List (Call G σ)} {cc : List (CCall G Params σc)} (hc : ∀ m, CCall.agreeSsid m ∈ cc → m.length = k1)
    {au : Server.ExpMutAuth} {ca : Client.ExpMutAuth} {o : List (Out G)} {oc : List (COut G)}
    (hS : runSession R D rng (.ssid ⟨secret, n⟩) cs = some (.auth au, o))
    (hC : runClient R D Hs rngC (.ssid ⟨t⟩) cc = some (.auth ca, oc))
    {τ τ' k kS : Bytes} (hsent : Server.receiveClientAuthenticator (G := G) D au τ = .ok (kS, .authenticator τ'))
    (hacc : Client.receiveServerAuthenticator D ca τ' = .ok k) :
    ((∃ cs', cs = .agreeSsid t :: cs') ∧ (∃ cc', cc = .agreeSsid n :: cc') ∧ au.ssid = ca.ssid ∧ k = kS ∧
      COut.message (.authenticator τ) ∈ oc) ∨
    D.Collision (inp 3 (au.ssid ++ au.sk1)) (inp 3 (ca.ssid ++ ca.sk1)) ∨
    ∃ t' n', Call.agreeSsid t' ∈ cs ∧ CCall.agreeSsid n' ∈ cc ∧ D.Collision (inp 0 (n ++ t')) (inp 0 (n' ++ t)) := by
  obtain ⟨t', cs', rfl, hs⟩ := runSession_ssid R D rng h64 hS (x := au.ssid) rfl
  obtain ⟨n', cc', rfl, hcs⟩ := runClient_ssid R D Hs rngC h64 hC (x := ca.ssid) rfl
  obtain ⟨hsnt, hta⟩ := runClient_auth R D Hs rngC h64 (by simp) hC
  rw [receiveClientAuthenticator_eq D h64] at hsent
  rw [receiveServerAuthenticator_eq] at hacc
  split at hsent
  · rename_i hτ
    split at hacc
    · rename_i he
      simp only [Res.ok.injEq, Prod.mk.injEq, ServerMessage.authenticator.injEq] at hsent hacc
      obtain ⟨rfl, rfl⟩ := hsent
      rw [hta] at he
      rcases D.eq_or_collision he.symm with e | e
      · have hl : au.ssid.length = ca.ssid.length := by rw [hs, hcs]; simp [h64]
        obtain ⟨e1, e2⟩ := append_inj_of_length hl (inp_inj.1 e).2
        have e3 : Hn D 0 (n ++ t') = Hn D 0 (n' ++ t) := by
          have := e1; rw [hs, hcs] at this; exact this
        rcases D.eq_or_collision e3 with e4 | e4
        · have hn' : n'.length = k1 := hc n' (by simp)
          obtain ⟨rfl, rfl⟩ := append_inj_of_length (hn.trans hn'.symm) (inp_inj.1 e4).2
          refine Or.inl ⟨⟨_, rfl⟩, ⟨_, rfl⟩, e1, ?_, ?_⟩
          · rw [← hacc, e1, e2]
          · rw [hsnt, ← hτ, e1, e2]
        · exact Or.inr (Or.inr ⟨t', n', by simp, by simp, e4⟩)
      · exact Or.inr (Or.inl e)
    · simp at hacc
  · simp at hsent

/-- **C76 (a recorded login is refused).** Two server sessions with different nonces, of whatever servers, users and
databases, are run through arbitrary calls. They accept the same authenticator only if one of the two named pairs collides. -/
theorem C76_server_replay (h64 : D.outLen = 64) {secret secret' : Nat} {n n' : Bytes} (hl : n.length = n'.length)
    (hne : n ≠ n') {cs cs' : List (Call G σ)} {au au' : Server.ExpMutAuth} {o o' : List (Out G)}
    (hS : runSession R D rng (.ssid ⟨secret, n⟩) cs = some (.auth au, o))
    (hS' : runSession R D rng (.ssid ⟨secret', n'⟩) cs' = some (.auth au', o'))
    {τ k k' : Bytes} {m m' : ServerMessage G} (hacc : Server.receiveClientAuthenticator D au τ = .ok (k, m))
    (hacc' : Server.receiveClientAuthenticator D au' τ = .ok (k', m')) :
    D.Collision (inp 4 (au.ssid ++ au.sk1)) (inp 4 (au'.ssid ++ au'.sk1)) ∨
    ∃ t t', Call.agreeSsid t ∈ cs ∧ Call.agreeSsid t' ∈ cs' ∧ D.Collision (inp 0 (n ++ t)) (inp 0 (n' ++ t')) := by
  obtain ⟨t, cs, rfl, hs⟩ := runSession_ssid R D rng h64 hS (x := au.ssid) rfl
  obtain ⟨t', cs', rfl, hs'⟩ := runSession_ssid R D rng h64 hS' (x := au'.ssid) rfl
  rw [receiveClientAuthenticator_eq D h64] at hacc hacc'
  split at hacc
  · rename_i he
    split at hacc'
    · rename_i he'
      rcases D.eq_or_collision (he.trans he'.symm) with e | e
      · have hll : au.ssid.length = au'.ssid.length := by rw [hs, hs']; simp [h64]
        have e3 : Hn D 0 (n ++ t) = Hn D 0 (n' ++ t') := by
          have := (append_inj_of_length hll (inp_inj.1 e).2).1; rw [hs, hs'] at this; exact this
        rcases D.eq_or_collision e3 with e4 | e4
        · exact absurd (append_inj_of_length hl (inp_inj.1 e4).2).1 hne
        · exact Or.inr ⟨t, t', by simp, by simp, e4⟩
      · exact Or.inl e
    · simp at hacc'
  · simp at hacc

/-- **C76 (a recorded answer of the server is refused).** The same for two client sessions. The nonces received have the same
length, as the arrays of the API do. -/
theorem C76_client_replay (h64 : D.outLen = 64) {k1 : Nat} {t t' : Bytes} (hne : t ≠ t')
    {cc cc' : List (CCall G Params σc)} (hc : ∀ m, CCall.agreeSsid m ∈ cc → m.length = k1)
    (hc' : ∀ m, CCall.agreeSsid m ∈ cc' → m.length = k1) {ca ca' : Client.ExpMutAuth} {o o' : List (COut G)}
    (hC : runClient R D Hs rngC (.ssid ⟨t⟩) cc = some (.auth ca, o))
    (hC' : runClient R D Hs rngC (.ssid ⟨t'⟩) cc' = some (.auth ca', o'))
    {τ k k' : Bytes} (hacc : Client.receiveServerAuthenticator D ca τ = .ok k)
    (hacc' : Client.receiveServerAuthenticator D ca' τ = .ok k') :
    D.Collision (inp 3 (ca.ssid ++ ca.sk1)) (inp 3 (ca'.ssid ++ ca'.sk1)) ∨
    ∃ n n', CCall.agreeSsid n ∈ cc ∧ CCall.agreeSsid n' ∈ cc' ∧ D.Collision (inp 0 (n ++ t)) (inp 0 (n' ++ t')) := by
  obtain ⟨n, cc, rfl, hs⟩ := runClient_ssid R D Hs rngC h64 hC (x := ca.ssid) rfl
  obtain ⟨n', cc', rfl, hs'⟩ := runClient_ssid R D Hs rngC h64 hC' (x := ca'.ssid) rfl
  have hta := (runClient_auth R D Hs rngC h64 (by simp) hC).2
  have hta' := (runClient_auth R D Hs rngC h64 (by simp) hC').2
  rw [receiveServerAuthenticator_eq] at hacc hacc'
  split at hacc
  · rename_i he
    split at hacc'
    · rename_i he'
      rw [hta] at he
      rw [hta'] at he'
      rcases D.eq_or_collision (he.trans he'.symm) with e | e
      · have hll : ca.ssid.length = ca'.ssid.length := by rw [hs, hs']; simp [h64]
        have e3 : Hn D 0 (n ++ t) = Hn D 0 (n' ++ t') := by
          have := (append_inj_of_length hll (inp_inj.1 e).2).1; rw [hs, hs'] at this; exact this
        rcases D.eq_or_collision e3 with e4 | e4
        · have hn : n.length = n'.length := (hc n (by simp)).trans (hc' n' (by simp)).symm
          exact absurd (append_inj_of_length hn (inp_inj.1 e4).2).2 hne
        · exact Or.inr ⟨n, n', by simp, by simp, e4⟩
      · exact Or.inl e
    · simp at hacc'
  · simp at hacc

/-- **C76 (sessions have different keys).** With implicit authentication: two server sessions with different nonces end with
the same key, whatever public keys they were given, only if a named pair collides. -/
theorem C76_implicit (h64 : D.outLen = 64) {secret secret' : Nat} {n n' : Bytes} (hl : n.length = n'.length)
    (hne : n ≠ n') {cs cs' : List (Call G σ)} {st st' : Server.RecvClientKey} {o o' : List (Out G)}
    (hS : runSession R D rng (.ssid ⟨secret, n⟩) cs = some (.recvKey st, o))
    (hS' : runSession R D rng (.ssid ⟨secret', n'⟩) cs' = some (.recvKey st', o')) {Y Y' : G} {k : Bytes}
    (hk : Server.implicitAuth R D st Y = .ok k) (hk' : Server.implicitAuth R D st' Y' = .ok k) :
    D.Collision (inp 5 (st.ssid ++ Spec.sk1 R D st.ssid (st.privKey • Y)))
      (inp 5 (st'.ssid ++ Spec.sk1 R D st'.ssid (st'.privKey • Y'))) ∨
    ∃ t t', Call.agreeSsid t ∈ cs ∧ Call.agreeSsid t' ∈ cs' ∧ D.Collision (inp 0 (n ++ t)) (inp 0 (n' ++ t')) := by
  obtain ⟨t, cs, rfl, hs⟩ := runSession_ssid R D rng h64 hS (x := st.ssid) rfl
  obtain ⟨t', cs', rfl, hs'⟩ := runSession_ssid R D rng h64 hS' (x := st'.ssid) rfl
  rw [server_implicitAuth_eq] at hk hk'
  split at hk
  · simp at hk
  split at hk'
  · simp at hk'
  simp only [Res.ok.injEq] at hk hk'
  rcases D.eq_or_collision (hk.trans hk'.symm) with e | e
  · have hll : st.ssid.length = st'.ssid.length := by rw [hs, hs']; simp [h64]
    have e3 : Hn D 0 (n ++ t) = Hn D 0 (n' ++ t') := by
      have := (append_inj_of_length hll (inp_inj.1 e).2).1; rw [hs, hs'] at this; exact this
    rcases D.eq_or_collision e3 with e4 | e4
    · exact absurd (append_inj_of_length hl (inp_inj.1 e4).2).1 hne
    · exact Or.inr ⟨t, t', by simp, by simp, e4⟩
  · exact Or.inl e

/-- **C76 (given SSIDs).** Without nonces only the private keys separate the sessions: two server sessions with the same SSID
accept the same authenticator only if the two products of private key and received public key are equal, or a named pair
collides. -/
theorem C76_prestablished (h64 : D.outLen = 64) {st st' : Server.RecvClientKey} (hssid : st.ssid = st'.ssid) {Y Y' : G}
    {au au' : Server.ExpMutAuth} (h : Server.receiveClientPubkey R D st Y = .ok au)
    (h' : Server.receiveClientPubkey R D st' Y' = .ok au') {τ k k' : Bytes} {m m' : ServerMessage G}
    (hacc : Server.receiveClientAuthenticator D au τ = .ok (k, m))
    (hacc' : Server.receiveClientAuthenticator D au' τ = .ok (k', m')) :
    (st.privKey • Y = st'.privKey • Y' ∧ k = k') ∨
    D.Collision (inp 4 (au.ssid ++ au.sk1)) (inp 4 (au'.ssid ++ au'.sk1)) ∨
    D.Collision (inp 2 (st.ssid ++ R.compress (st.privKey • Y))) (inp 2 (st'.ssid ++ R.compress (st'.privKey • Y'))) := by
  rw [receiveClientPubkey_eq] at h h'
  split at h
  · simp at h
  split at h'
  · simp at h'
  simp only [Res.ok.injEq] at h h'
  subst h h'
  rw [receiveClientAuthenticator_eq D h64] at hacc hacc'
  split at hacc
  · rename_i he
    split at hacc'
    · rename_i he'
      simp only [Res.ok.injEq, Prod.mk.injEq] at hacc hacc'
      rcases D.eq_or_collision (he.trans he'.symm) with e | e
      · have e := (inp_inj.1 e).2
        rw [hssid] at e
        rcases D.eq_or_collision (List.append_cancel_left e) with e1 | e1
        · have e2 := R.compress_inj.1 (List.append_cancel_left (inp_inj.1 e1).2)
          refine Or.inl ⟨e2, ?_⟩
          rw [← hacc.1, ← hacc'.1, hssid, e2]
        · rw [hssid]; exact Or.inr (Or.inr e1)
      · exact Or.inr (Or.inl e)
    · simp at hacc'
  · simp at hacc

end

/-! ### A session pair that meets the hypotheses -/

namespace World

def netInfo : Res Error (Server.CPaceSubstep Bytes × ServerMessage Scalar) :=
  Run.serverInfo Ristretto.toy sha512 Rng.replay db none
    (Server.agreeSsid sha512 ⟨5, bytes 1 16⟩ (bytes 2 16)) user (bytes 3 200)

/-- The server's calls up to the authenticator, given the client's public key. -/
def netServer (Y : Scalar) : List (Call Scalar Bytes) :=
  [.agreeSsid (bytes 2 16), .info db none user (bytes 3 200), .publicKey [], .recvKey Y]

/-- The client's calls, given the server's answers. -/
def netClient (X : Scalar) (salt : Bytes) (Y : Scalar) : List (CCall Scalar Unit Bytes) :=
  [.agreeSsid (bytes 1 16), .start user pass, .cpace .alloc X salt (), .publicKey [] (bytes 4 100), .recvKey Y]

/-- Relay the messages between the two sessions and report whether the server accepts the client's authenticator, whether
it does so in another session with another nonce, and whether the client accepts the answer. -/
def relay (n' : Bytes) : Option (Bool × Bool × Bool) :=
  match netInfo with
  | .ok (sst, .augmentationInfo _ X salt _) =>
    match runClient Ristretto.toy sha512 hasher Rng.replay (.ssid ⟨bytes 2 16⟩) ((netClient X salt 0).take 4),
      Server.generatePublicKey Ristretto.toy sha512 Rng.replay sst [] with
    | some (_, [_, .message (.publicKey Yb)]), (_, .publicKey Ya) =>
      match runClient Ristretto.toy sha512 hasher Rng.replay (.ssid ⟨bytes 2 16⟩) (netClient X salt Ya),
        runSession Ristretto.toy sha512 Rng.replay (.ssid ⟨5, bytes 1 16⟩) (netServer Yb),
        runSession Ristretto.toy sha512 Rng.replay (.ssid ⟨5, n'⟩) (netServer Yb) with
      | some (.auth ca, [_, _, .message (.authenticator τ)]), some (.auth au, _), some (.auth au', _) =>
        match (Server.receiveClientAuthenticator sha512 au τ : Res Error (Bytes × ServerMessage Scalar)) with
        | .ok (k, .authenticator τ') =>
          some (true, (Server.receiveClientAuthenticator sha512 au' τ : Res Error (Bytes × ServerMessage Scalar)).isOk,
            decide (Client.receiveServerAuthenticator sha512 ca τ' = .ok k))
        | _ => none
      | _, _, _ => none
    | _, _ => none
  | _ => none

end World

/-- The sessions of the theorems exist: the honest login is accepted on both sides, its replay into another session is not. -/
example : World.relay (World.bytes 9 16) = some (true, false, true) := by decide +kernel

end Verif.Aucpace

namespace Verif.Srp
open SafePrime

variable (D : Digest) {p : SrpGroup}

/-- The proof that the server of a session with ephemeral `b` and verifier `v` expects for the public value `A` is
`H(A | B | K)`. -/
theorem server_m1 (hs : Spec.Sane p.n p.g) {b v A B : Bytes} {sv : SrpServerVerifier}
    (hB : (Server.computePublicEphemeral D p b v : Res SrpAuthError Bytes) = .ok B)
    (h : Server.processReply D p b v A = .ok sv) :
    sv.m1 = D.hash (toBytesBE (beToNat A) ++ B ++ sv.key) := by
  rw [server_process_eq D p hs] at h
  split at h
  · simp at h
  rw [server_ephemeral_eq D p hs] at hB
  simp only [Res.ok.injEq] at h hB
  subst h hB
  rfl

/-- **C76 (SRP, server).** Two sessions of servers, with any verifiers, accept the same client proof for the same public
value `A` only if the strings `B | K` of both sessions are equal, or the named pair collides. If both public values have the
same length the server sent the same `B` twice; with the same verifier in a safe-prime group that means the same private value
modulo `N-1`. -/
theorem C76_srp_server (hs : Spec.Sane p.n p.g) {b b' v v' A B B' : Bytes} {sv sv' : SrpServerVerifier}
    (hB : (Server.computePublicEphemeral D p b v : Res SrpAuthError Bytes) = .ok B)
    (hB' : (Server.computePublicEphemeral D p b' v' : Res SrpAuthError Bytes) = .ok B')
    (h : Server.processReply D p b v A = .ok sv) (h' : Server.processReply D p b' v' A = .ok sv') {m : Bytes}
    (hacc : sv.verifyClient m = .ok ()) (hacc' : sv'.verifyClient m = .ok ()) :
    (B ++ sv.key = B' ++ sv'.key ∧ (B.length = B'.length → B = B' ∧ sv.key = sv'.key ∧
      (SafeGroup p → beToNat v ≡ beToNat v' [MOD p.n] → beToNat b ≡ beToNat b' [MOD p.n - 1]))) ∨
    D.Collision (toBytesBE (beToNat A) ++ B ++ sv.key) (toBytesBE (beToNat A) ++ B' ++ sv'.key) := by
  have e1 := (C03_verifyClient_exact sv m).1.1 hacc
  have e2 := (C03_verifyClient_exact sv' m).1.1 hacc'
  rw [server_m1 D hs hB h] at e1
  rw [server_m1 D hs hB' h'] at e2
  rcases D.eq_or_collision (e1.symm.trans e2) with e | e
  · rw [List.append_assoc, List.append_assoc] at e
    have e := List.append_cancel_left e
    refine Or.inl ⟨e, fun hl => ?_⟩
    obtain ⟨hBB, hK⟩ := append_inj_of_length hl e
    refine ⟨hBB, hK, fun hsafe hv => ?_⟩
    have : NeZero p.n := ⟨hs.1.ne'⟩
    rw [server_ephemeral_eq D p hs, Res.ok.injEq] at hB hB'
    rw [← hB, ← hB', enc_eq_iff, Spec.B, Spec.B, (ZMod.natCast_eq_natCast_iff _ _ _).2 hv, add_right_inj,
      pow_eq_iff hsafe] at hBB
    exact hBB
  · exact Or.inr e

/-- **C76 (the condition on the lengths is needed).** In the safe-prime group modulo 65267 with `g = 2` and SHA-256 the proof
of one session is accepted in another one with another public value and another key: `B | K` is `4b | 56ab` in the first and
`4b56 | ab` in the second. -/
theorem C76_srp_length_negation :
    ∃ (p : SrpGroup) (b b' v A B B' : Bytes) (sv sv' : SrpServerVerifier), SafeGroup p ∧ Spec.Sane p.n p.g ∧
      (Server.computePublicEphemeral sha256 p b v : Res SrpAuthError Bytes) = .ok B ∧
      (Server.computePublicEphemeral sha256 p b' v : Res SrpAuthError Bytes) = .ok B' ∧
      Server.processReply sha256 p b v A = .ok sv ∧ Server.processReply sha256 p b' v A = .ok sv' ∧
      sv.verifyClient sv.m1 = .ok () ∧ sv'.verifyClient sv.m1 = .ok () ∧ B ≠ B' ∧ sv.key ≠ sv'.key := by
  have hs : Spec.Sane 65267 2 := by decide +kernel
  have hsafe : SafeGroup ⟨65267, 2⟩ := ⟨by norm_num, by norm_num,
    (Groups.C11_safe_prime_generator 65267 2 (by decide) (by decide) (by decide) (by decide +kernel) (by norm_num)).2⟩
  have hB : (Server.computePublicEphemeral sha256 ⟨65267, 2⟩ [109, 44] [54, 147] : Res SrpAuthError Bytes) = .ok [75] := by
    decide +kernel
  have hB' : (Server.computePublicEphemeral sha256 ⟨65267, 2⟩ [155, 165] [54, 147] : Res SrpAuthError Bytes) =
      .ok [75, 86] := by decide +kernel
  have hk : ∀ b, Server.processReply sha256 ⟨65267, 2⟩ b [54, 147] [2] =
      .ok (serverResult sha256 65267 2 (beToNat b) (beToNat [54, 147]) (beToNat [2])) := fun b =>
    server_process_ok sha256 ⟨65267, 2⟩ hs b _ _ (by decide)
  have key : (match Server.processReply sha256 ⟨65267, 2⟩ [109, 44] [54, 147] [2],
      Server.processReply sha256 ⟨65267, 2⟩ [155, 165] [54, 147] [2] with
    | .ok s1, .ok s2 => decide (s1.key = [86, 171] ∧ s2.key = [171])
    | _, _ => false) = true := by decide +kernel
  rw [hk, hk] at key
  simp only [decide_eq_true_eq] at key
  refine ⟨⟨65267, 2⟩, [109, 44], [155, 165], [54, 147], [2], [75], [75, 86], _, _, hsafe, hs, hB, hB', hk _, hk _,
    (C03_verifyClient_exact _ _).1.2 rfl, (C03_verifyClient_exact _ _).1.2 ?_, by decide, ?_⟩
  · rw [server_m1 sha256 hs hB (hk _), server_m1 sha256 hs hB' (hk _), key.1, key.2]
    rfl
  · rw [key.1, key.2]; decide

/-- **C76 (SRP, client).** Two sessions of clients accept the same server proof only if the strings `A | M1 | K` are equal or
collide. If both public values have the same length, the client sent the same `A` and the same proof twice; in a safe-prime
group the private values agree modulo `N-1`. -/
theorem C76_srp_client (hs : Spec.Sane p.n p.g) {a a' I I' P P' s s' A A' B B' : Bytes} {c c' : SrpClientVerifier}
    (hA : (Client.computePublicEphemeral p a : Res SrpAuthError Bytes) = .ok A)
    (hA' : (Client.computePublicEphemeral p a' : Res SrpAuthError Bytes) = .ok A')
    (h : Client.processReply D p a I P s B = .ok c) (h' : Client.processReply D p a' I' P' s' B' = .ok c') {m : Bytes}
    (hacc : c.verifyServer m = .ok ()) (hacc' : c'.verifyServer m = .ok ()) :
    (A ++ c.proof ++ c.key = A' ++ c'.proof ++ c'.key ∧ (A.length = A'.length → A = A' ∧ c.proof = c'.proof ∧ c.key = c'.key ∧
      (SafeGroup p → beToNat a ≡ beToNat a' [MOD p.n - 1]))) ∨
    D.Collision (A ++ c.proof ++ c.key) (A' ++ c'.proof ++ c'.key) := by
  have e1 := (C03_verifyServer_exact c m).1.1 hacc
  have e2 := (C03_verifyServer_exact c' m).1.1 hacc'
  have hm : ∀ {a I P s A B : Bytes} {c : SrpClientVerifier},
      (Client.computePublicEphemeral p a : Res SrpAuthError Bytes) = .ok A → Client.processReply D p a I P s B = .ok c →
      c.m2 = D.hash (A ++ c.proof ++ c.key) ∧ c.proof.length = D.outLen := by
    intro a I P s A B c hA h
    rw [client_process_eq D p hs] at h
    split at h
    · simp at h
    rw [client_ephemeral_eq p hs.1] at hA
    simp only [Res.ok.injEq] at h hA
    subst h hA
    exact ⟨rfl, D.hash_length _⟩
  rw [(hm hA h).1] at e1
  rw [(hm hA' h').1] at e2
  rcases D.eq_or_collision (e1.symm.trans e2) with e | e
  · refine Or.inl ⟨e, fun hl => ?_⟩
    obtain ⟨h1, h2⟩ := append_inj_of_length (by simp [hl, (hm hA h).2, (hm hA' h').2]) e
    obtain ⟨h3, h4⟩ := append_inj_of_length hl h1
    refine ⟨h3, h4, h2, fun hsafe => ?_⟩
    have : NeZero p.n := ⟨hs.1.ne'⟩
    rw [client_ephemeral_eq p hs.1, Res.ok.injEq] at hA hA'
    rw [← hA, ← hA', enc_eq_iff, Spec.A, Spec.A, pow_eq_iff hsafe] at h3
    exact h3
  · exact Or.inr e

/-- The hypotheses are met: modulo 47 with `g = 5` the private values 3 and 49 agree modulo 46, so the recorded proof is
accepted again; for the private value 4 it is not. -/
example :
    (match Server.processReply sha256 ⟨47, 5⟩ [3] [7] [2], Server.processReply sha256 ⟨47, 5⟩ [49] [7] [2],
      Server.processReply sha256 ⟨47, 5⟩ [4] [7] [2] with
    | .ok s1, .ok s2, .ok s3 => (s1.verifyClient s1.m1).isOk && (s2.verifyClient s1.m1).isOk && !(s3.verifyClient s1.m1).isOk
    | _, _, _ => false) = true := by
  decide +kernel

end Verif.Srp
