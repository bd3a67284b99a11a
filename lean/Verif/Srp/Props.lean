import Verif.Srp.Lemmas
import Mathlib.Algebra.Field.ZMod

/-!
# Properties of the `srp` crate (C01 - C10, C12 - C15)

Statements use only the modelled API (`Verif.Srp.Model`) and the specification
(`Verif.Srp.Spec`). Closed forms and helper lemmas are in `Verif.Srp.Lemmas`.
-/

namespace Verif.Srp

variable (D : Digest) (p : SrpGroup)

/-- Small group used in examples of non-vacuity: 65521 is prime, 17 is coprime to it. -/
def exGroup : SrpGroup := { n := 65521, g := 17 }

/-! ## C01 -/

/-- **C01.** Registration, then an unmodified exchange: the client either sees a server value
divisible by `N` and reports it, or both sides succeed with the same key and accept each other's
proofs. -/
theorem C01_srp_agreement (hs : Spec.Sane p.n p.g) (hn : 1 < p.n) (hc : Nat.Coprime p.g p.n)
    (username password salt a b : Bytes) :
    ∃ v A B : Bytes,
      (Client.computeVerifier D p username password salt : Res SrpAuthError Bytes) = .ok v ∧
      (Client.computePublicEphemeral p a : Res SrpAuthError Bytes) = .ok A ∧
      (Server.computePublicEphemeral D p b v : Res SrpAuthError Bytes) = .ok B ∧
      (p.n ∣ beToNat B →
        Client.processReply D p a username password salt B = .err (.illegalParameter "b_pub")) ∧
      (∃ sv, Server.processReply D p b v A = .ok sv ∧
        (¬ p.n ∣ beToNat B →
          ∃ c, Client.processReply D p a username password salt B = .ok c ∧
            c.key = sv.key ∧ sv.verifyClient c.proof = .ok () ∧
            c.verifyServer sv.proof = .ok ())) := by
  have : NeZero p.n := ⟨by omega⟩
  refine ⟨_, _, _, client_verifier_eq D p hs.1 username password salt,
    client_ephemeral_eq p hs.1 a, server_ephemeral_eq D p hs b _, ?_, ?_⟩
  · intro hd
    rw [client_process_eq D p hs, if_pos (Nat.mod_eq_zero_of_dvd hd)]
  · refine ⟨_, server_process_ok D p hs b _ _ ?_, ?_⟩
    · have h := unit_pow_val_mod_ne hn hc (beToNat a)
      simpa [Spec.enc, Spec.A] using h
    · intro hd
      refine ⟨_, client_process_ok D p hs _ _ _ _ _ (fun h => hd (Nat.dvd_of_mod_eq_zero h)), ?_⟩
      · have key := premaster_identity D p.n p.g (Spec.x D username password salt)
          (beToNat a) (beToNat b)
        simp only [clientResult, serverResult, SrpClientVerifier.proof, SrpServerVerifier.proof,
          SrpServerVerifier.verifyClient, SrpClientVerifier.verifyServer, enc_cast, Spec.v, key]
        simp [Spec.enc, Spec.A]

/-- Hypotheses of C01 can be met, and its second alternative is the one that occurs. -/
example : Spec.Sane exGroup.n exGroup.g ∧ 1 < exGroup.n ∧ Nat.Coprime exGroup.g exGroup.n := by
  decide +kernel

example :
    (do
      let v ← Client.computeVerifier (Digest.toy 4) exGroup (ascii "alice") (ascii "pw") (ascii "s")
      let A ← Client.computePublicEphemeral exGroup [5]
      let B ← Server.computePublicEphemeral (Digest.toy 4) exGroup [7] v
      let c ← Client.processReply (Digest.toy 4) exGroup [5] (ascii "alice") (ascii "pw")
        (ascii "s") B
      let sv ← Server.processReply (Digest.toy 4) exGroup [7] v A
      sv.verifyClient c.proof
      c.verifyServer sv.proof
      return decide (c.key = sv.key)) = (.ok true : Res SrpAuthError Bool) := by decide +kernel

/-! ## C02 -/

/-- **C02 (server).** The server errs exactly on multiples of `N`. -/
theorem C02_server_rejects_exactly (hs : Spec.Sane p.n p.g) (b v A : Bytes) (e : SrpAuthError) :
    Server.processReply D p b v A = .err e ↔
      p.n ∣ beToNat A ∧ e = .illegalParameter "a_pub" := by
  rw [server_process_eq D p hs]
  split
  · rename_i h
    simp [Nat.dvd_of_mod_eq_zero h, eq_comm]
  · rename_i h
    simp only [reduceCtorEq, false_iff, not_and]
    intro h'; exact absurd (Nat.mod_eq_zero_of_dvd h') h

/-- **C02 (client).** The client errs exactly on multiples of `N`. -/
theorem C02_client_rejects_exactly (hs : Spec.Sane p.n p.g) (a I P s B : Bytes)
    (e : SrpAuthError) :
    Client.processReply D p a I P s B = .err e ↔
      p.n ∣ beToNat B ∧ e = .illegalParameter "b_pub" := by
  rw [client_process_eq D p hs]
  split
  · rename_i h
    simp [Nat.dvd_of_mod_eq_zero h, eq_comm]
  · rename_i h
    simp only [reduceCtorEq, false_iff, not_and]
    intro h'; exact absurd (Nat.mod_eq_zero_of_dvd h') h

/-- **C02 (client, any group with `N > 0`).** The client's check comes before anything that depends
on the generator, so a multiple of `N` is an error even for a group that would panic later. -/
theorem C02_client_rejects_multiples (hn : 0 < p.n) (a I P s B : Bytes) (h : p.n ∣ beToNat B) :
    Client.processReply D p a I P s B = .err (.illegalParameter "b_pub") := by
  simp [Client.processReply, Client.computeAPub, modpow, rem, hn.ne', Nat.mod_eq_zero_of_dvd h]

example : Server.processReply (Digest.toy 4) exGroup [7] [9] (toBytesBE (3 * 65521))
    = .err (.illegalParameter "a_pub") := by decide +kernel
example : Client.processReply (Digest.toy 4) exGroup [7] [9] [] [] []
    = .err (.illegalParameter "b_pub") := by decide +kernel

/-! ## C03 -/

/-- **C03 (server).** `verify_client` accepts exactly the stored proof, everything else is
`BadRecordMac("client")`. -/
theorem C03_verifyClient_exact (sv : SrpServerVerifier) (reply : Bytes) :
    (sv.verifyClient reply = .ok () ↔ reply = sv.m1) ∧
    (sv.verifyClient reply = .err (.badRecordMac "client") ↔ reply ≠ sv.m1) ∧
    sv.verifyClient reply ≠ .panic := by
  unfold SrpServerVerifier.verifyClient
  by_cases h : sv.m1 = reply
  · simp [h]
  · simp [h, Ne.symm h]

/-- **C03 (client).** `verify_server` accepts exactly the stored proof, everything else is
`BadRecordMac("server")`. -/
theorem C03_verifyServer_exact (c : SrpClientVerifier) (reply : Bytes) :
    (c.verifyServer reply = .ok () ↔ reply = c.m2) ∧
    (c.verifyServer reply = .err (.badRecordMac "server") ↔ reply ≠ c.m2) ∧
    c.verifyServer reply ≠ .panic := by
  unfold SrpClientVerifier.verifyServer
  by_cases h : c.m2 = reply
  · simp [h]
  · simp [h, Ne.symm h]

/-- **C03 (end to end).** In an honest exchange the server accepts a byte string iff it is the
client's proof, and the client accepts a byte string iff it is the server's proof. -/
theorem C03_honest_proofs_unique (hs : Spec.Sane p.n p.g) (hn : 1 < p.n)
    (hc : Nat.Coprime p.g p.n) (username password salt a b v A B : Bytes)
    (hv : (Client.computeVerifier D p username password salt : Res SrpAuthError Bytes) = .ok v)
    (hA : (Client.computePublicEphemeral p a : Res SrpAuthError Bytes) = .ok A)
    (hB : (Server.computePublicEphemeral D p b v : Res SrpAuthError Bytes) = .ok B)
    (c : SrpClientVerifier) (sv : SrpServerVerifier)
    (hcl : Client.processReply D p a username password salt B = .ok c)
    (hsv : Server.processReply D p b v A = .ok sv) (reply : Bytes) :
    (sv.verifyClient reply = .ok () ↔ reply = c.proof) ∧
    (c.verifyServer reply = .ok () ↔ reply = sv.proof) := by
  obtain ⟨v', A', B', hv', hA', hB', hbad, sv', hsv', hok⟩ :=
    C01_srp_agreement D p hs hn hc username password salt a b
  rw [hv] at hv'; rw [hA] at hA'
  obtain rfl := Res.ok.inj hv'
  obtain rfl := Res.ok.inj hA'
  rw [hB] at hB'
  obtain rfl := Res.ok.inj hB'
  rw [hsv] at hsv'
  obtain rfl := Res.ok.inj hsv'
  have hd : ¬ p.n ∣ beToNat B := by
    intro hd; rw [hbad hd] at hcl; cases hcl
  obtain ⟨c', hc', -, h1, h2⟩ := hok hd
  rw [hcl] at hc'
  obtain rfl := Res.ok.inj hc'
  have e1 := (C03_verifyClient_exact sv c.proof).1.1 h1
  have e2 := (C03_verifyServer_exact c sv.proof).1.1 h2
  rw [e1, e2]
  exact ⟨(C03_verifyClient_exact sv reply).1, (C03_verifyServer_exact c reply).1⟩

/-! ## C04 -/

/-- **C04 (server accepts).** Whatever the client typed: if client and server saw the same public
values (as integers) and the server accepts the client's proof, they hold the same key and the
client accepts the server's proof - or the two named strings collide. -/
theorem C04_server_accept_implies_same_key (hs : Spec.Sane p.n p.g)
    (a I P s B b v A : Bytes) (c : SrpClientVerifier) (sv : SrpServerVerifier)
    (Ac : Bytes) (hAc : (Client.computePublicEphemeral p a : Res SrpAuthError Bytes) = .ok Ac)
    (Bs : Bytes) (hBs : (Server.computePublicEphemeral D p b v : Res SrpAuthError Bytes) = .ok Bs)
    (hA : beToNat A = beToNat Ac) (hB : beToNat B = beToNat Bs)
    (hcl : Client.processReply D p a I P s B = .ok c)
    (hsv : Server.processReply D p b v A = .ok sv)
    (hacc : sv.verifyClient c.proof = .ok ()) :
    (c.key = sv.key ∧ c.verifyServer sv.proof = .ok ()) ∨
      D.Collision (Ac ++ Bs ++ c.key) (Ac ++ Bs ++ sv.key) := by
  have hn := hs.1
  rw [client_ephemeral_eq p hn] at hAc
  obtain rfl := Res.ok.inj hAc
  rw [server_ephemeral_eq D p hs] at hBs
  obtain rfl := Res.ok.inj hBs
  rw [client_process_eq D p hs] at hcl
  rw [server_process_eq D p hs] at hsv
  split at hcl; · cases hcl
  split at hsv; · cases hsv
  obtain rfl := Res.ok.inj hcl
  obtain rfl := Res.ok.inj hsv
  have heq := (C03_verifyClient_exact _ _).1.1 hacc
  simp only [SrpClientVerifier.proof, clientResult, serverResult, Spec.M1, hA, hB] at heq
  simp only [Spec.enc, beToNat_toBytesBE] at heq
  rcases D.eq_or_collision heq with h | h
  · left
    have hk := (List.append_cancel_left h)
    constructor
    · simp only [clientResult, serverResult, hA, hB]
      simpa only [Spec.enc, beToNat_toBytesBE] using hk
    · refine (C03_verifyServer_exact _ _).1.2 ?_
      simp only [SrpServerVerifier.proof, clientResult, serverResult, hA, hB, Spec.M1, Spec.M2]
      simp only [Spec.enc, beToNat_toBytesBE]
      rw [hk]
  · right
    simp only [clientResult, serverResult, hA, hB]
    simpa only [Spec.enc, beToNat_toBytesBE] using h

/-- **C04 (client accepts).** If the server received the client's public value and the client
accepts the server's proof, then both hold the same key *and* the client received the server's
public value - or one of the two named pairs collides. -/
theorem C04_client_accept_implies_same_key (hs : Spec.Sane p.n p.g)
    (a I P s B b v A : Bytes) (c : SrpClientVerifier) (sv : SrpServerVerifier)
    (Ac : Bytes) (hAc : (Client.computePublicEphemeral p a : Res SrpAuthError Bytes) = .ok Ac)
    (Bs : Bytes) (hBs : (Server.computePublicEphemeral D p b v : Res SrpAuthError Bytes) = .ok Bs)
    (hA : beToNat A = beToNat Ac)
    (hcl : Client.processReply D p a I P s B = .ok c)
    (hsv : Server.processReply D p b v A = .ok sv)
    (hacc : c.verifyServer sv.proof = .ok ()) :
    (c.key = sv.key ∧ beToNat B = beToNat Bs ∧ sv.verifyClient c.proof = .ok ()) ∨
      D.Collision (Ac ++ c.proof ++ c.key) (Ac ++ sv.m1 ++ sv.key) ∨
      D.Collision (Ac ++ toBytesBE (beToNat B) ++ c.key) (Ac ++ Bs ++ sv.key) := by
  have hn := hs.1
  rw [client_ephemeral_eq p hn] at hAc
  obtain rfl := Res.ok.inj hAc
  rw [server_ephemeral_eq D p hs] at hBs
  obtain rfl := Res.ok.inj hBs
  rw [client_process_eq D p hs] at hcl
  rw [server_process_eq D p hs] at hsv
  split at hcl; · cases hcl
  split at hsv; · cases hsv
  obtain rfl := Res.ok.inj hcl
  obtain rfl := Res.ok.inj hsv
  have heq := (C03_verifyServer_exact _ _).1.1 hacc
  have hAA : toBytesBE (beToNat A) = Spec.enc (Spec.A p.n p.g (beToNat a)) := by
    rw [hA]; simp [Spec.enc]
  generalize hcR : clientResult D p.n p.g (beToNat a) I P s (beToNat B) = c at *
  generalize hsR : serverResult D p.n p.g (beToNat b) (beToNat v) (beToNat A) = sv at *
  have c1 : c.m1 = D.hash (Spec.enc (Spec.A p.n p.g (beToNat a)) ++ toBytesBE (beToNat B) ++ c.key) := by
    rw [← hcR]; rfl
  have c2 : c.m2 = D.hash (Spec.enc (Spec.A p.n p.g (beToNat a)) ++ c.m1 ++ c.key) := by
    rw [← hcR]; rfl
  have s1 : sv.m1 = D.hash (Spec.enc (Spec.A p.n p.g (beToNat a)) ++
      Spec.enc (Spec.B D p.n p.g (beToNat v : ZMod p.n) (beToNat b)) ++ sv.key) := by
    rw [← hsR, ← hAA]; rfl
  have s2 : sv.m2 = D.hash (Spec.enc (Spec.A p.n p.g (beToNat a)) ++ sv.m1 ++ sv.key) := by
    rw [← hsR, ← hAA]; rfl
  simp only [SrpServerVerifier.proof] at heq
  rw [c2, s2] at heq
  rcases D.eq_or_collision heq with h | h
  · rw [List.append_assoc, List.append_assoc] at h
    have h' := List.append_cancel_left h
    have hl : sv.m1.length = c.m1.length := by rw [c1, s1]; simp
    obtain ⟨hm, hk⟩ := append_inj_of_length hl h'
    have hm' := hm
    rw [c1, s1] at hm'
    rcases D.eq_or_collision hm' with h2 | h2
    · left
      rw [hk] at h2
      have h3 := List.append_cancel_left (List.append_cancel_right h2)
      refine ⟨hk.symm, ?_, (C03_verifyClient_exact _ _).1.2 hm.symm⟩
      rw [h3, beToNat_toBytesBE]
    · right; right
      exact ⟨fun e => h2.1 e.symm, h2.2.symm⟩
  · right; left
    exact ⟨fun e => h.1 e.symm, h.2.symm⟩

/-- The hypotheses of C04 are met by a run with a *wrong* password (and then the proof is
rejected) as well as by the honest run of C01. -/
example :
    (do
      let v ← Client.computeVerifier (Digest.toy 4) exGroup (ascii "alice") (ascii "pw") (ascii "s")
      let A ← Client.computePublicEphemeral exGroup [5]
      let B ← Server.computePublicEphemeral (Digest.toy 4) exGroup [7] v
      let c ← Client.processReply (Digest.toy 4) exGroup [5] (ascii "alice") (ascii "qw")
        (ascii "s") B
      let sv ← Server.processReply (Digest.toy 4) exGroup [7] v A
      sv.verifyClient c.proof) = (.err (.badRecordMac "client") : Res SrpAuthError Unit) := by
  decide +kernel

/-! ## C05 -/

/-- **C05.** Client and server outcomes depend on the integer arguments only through their value;
any number of leading zero bytes is irrelevant. -/
theorem C05_leading_zeros (i j l : Nat) (a I P s B b v A : Bytes) :
    Client.processReply D p (List.replicate i 0 ++ a) I P s (List.replicate j 0 ++ B)
      = Client.processReply D p a I P s B ∧
    (Client.computePublicEphemeral p (List.replicate i 0 ++ a) : Res SrpAuthError Bytes)
      = Client.computePublicEphemeral p a ∧
    Server.processReply D p (List.replicate i 0 ++ b) (List.replicate j 0 ++ v)
        (List.replicate l 0 ++ A) = Server.processReply D p b v A ∧
    (Server.computePublicEphemeral D p (List.replicate i 0 ++ b) (List.replicate j 0 ++ v)
        : Res SrpAuthError Bytes) = Server.computePublicEphemeral D p b v := by
  simp only [Client.processReply, Client.computePublicEphemeral, Server.processReply,
    Server.computePublicEphemeral, beToNat_replicate_zero_append, and_self]

/-! ## C06 -/

/-- **C06 (sane groups).** No public function panics, whatever the arguments. -/
theorem C06_no_panic (hs : Spec.Sane p.n p.g) (a I P s B b v A : Bytes)
    (k x u e f : Nat) :
    Client.processReply D p a I P s B ≠ .panic ∧
    (Client.computePublicEphemeral p a : Res SrpAuthError Bytes) ≠ .panic ∧
    (Client.computeVerifier D p I P s : Res SrpAuthError Bytes) ≠ .panic ∧
    (Client.computeAPub p e : Res SrpAuthError Nat) ≠ .panic ∧
    (Client.computeV p e : Res SrpAuthError Nat) ≠ .panic ∧
    (Client.computePremasterSecret p f k x e u : Res SrpAuthError Nat) ≠ .panic ∧
    Server.processReply D p b v A ≠ .panic ∧
    (Server.computePublicEphemeral D p b v : Res SrpAuthError Bytes) ≠ .panic ∧
    (Server.computeBPub p e k f : Res SrpAuthError Nat) ≠ .panic ∧
    (Server.computePremasterSecret p e f u k : Res SrpAuthError Nat) ≠ .panic ∧
    (computeK D p : Res SrpAuthError Nat) ≠ .panic := by
  have hn := hs.1
  refine ⟨?_, ?_, ?_, ?_, ?_, ?_, ?_, ?_, ?_, ?_, ?_⟩
  · rw [client_process_eq D p hs]; split <;> simp
  · rw [client_ephemeral_eq p hn]; simp
  · rw [client_verifier_eq D p hn]; simp
  · simp [Client.computeAPub, modpow, hn.ne']
  · simp [Client.computeV, modpow, hn.ne']
  · have h : ¬ p.n + f < k * powMod p.g x p.n % p.n := by
      have := Nat.mod_lt (k * powMod p.g x p.n) hn
      omega
    simp [Client.computePremasterSecret, modpow, rem, sub, hn.ne', h]
  · rw [server_process_eq D p hs]; split <;> simp
  · rw [server_ephemeral_eq D p hs]; simp
  · simp [Server.computeBPub, modpow, rem, hn.ne']
  · simp [Server.computePremasterSecret, modpow, rem, hn.ne']
  · rw [computeK_eq D p hs.2]; simp

/-- **C06 (exactness, server).** The server's calls panic exactly for the groups that are not
sane. -/
theorem C06_server_panics_iff (b v A : Bytes) :
    (Server.processReply D p b v A = .panic ↔ ¬ Spec.Sane p.n p.g) ∧
    ((Server.computePublicEphemeral D p b v : Res SrpAuthError Bytes) = .panic ↔
      ¬ Spec.Sane p.n p.g) := by
  by_cases hs : Spec.Sane p.n p.g
  · have h := C06_no_panic D p hs [] [] [] [] [] b v A 0 0 0 0 0
    simp only [hs, not_true_eq_false, iff_false]
    exact ⟨h.2.2.2.2.2.2.1, h.2.2.2.2.2.2.2.1⟩
  · simp only [hs, not_false_eq_true, iff_true]
    by_cases hl : (toBytesBE p.g).length ≤ (toBytesBE p.n).length
    · have hn : p.n = 0 := by
        by_contra hn
        exact hs ⟨Nat.pos_of_ne_zero hn, hl⟩
      simp [Server.processReply, Server.computePublicEphemeral, computeK_eq D p hl,
        Server.computeBPub, rem, hn]
    · simp [Server.processReply, Server.computePublicEphemeral,
        computeK_panic D p (Nat.lt_of_not_le hl)]

/-- **C06 (exactness, client).** The client's `process_reply` panics exactly when `N = 0`, or the
generator is longer than `N` and the public value was not already refused. -/
theorem C06_client_panics_iff (a I P s B : Bytes) :
    Client.processReply D p a I P s B = .panic ↔
      p.n = 0 ∨ ((toBytesBE p.n).length < (toBytesBE p.g).length ∧ ¬ p.n ∣ beToNat B) := by
  by_cases hn : p.n = 0
  · simp [Client.processReply, Client.computeAPub, modpow, hn]
  · by_cases hl : (toBytesBE p.g).length ≤ (toBytesBE p.n).length
    · have hs : Spec.Sane p.n p.g := ⟨Nat.pos_of_ne_zero hn, hl⟩
      have h1 : ¬ (toBytesBE p.n).length < (toBytesBE p.g).length := by omega
      have := (C06_no_panic D p hs a I P s B [] [] [] 0 0 0 0 0).1
      simp only [hn, h1, false_and, or_false, iff_false]
      exact this
    · have hl := Nat.lt_of_not_le hl
      by_cases hd : p.n ∣ beToNat B
      · rw [C02_client_rejects_multiples D p (Nat.pos_of_ne_zero hn) a I P s B hd]
        simp [hn, hd]
      · have hm : beToNat B % p.n ≠ 0 := fun h => hd (Nat.dvd_of_mod_eq_zero h)
        simp only [Client.processReply, Client.computeAPub, modpow, rem, hn, if_false,
          Res.bind_ok, if_neg hm, computeK_panic D p hl, Res.bind_panic, true_iff]
        exact Or.inr ⟨hl, hd⟩

/-- **C06 (exactness, the other client functions).** They panic exactly when `N = 0`. -/
theorem C06_client_functions_panic_iff (I P s a : Bytes) :
    ((Client.computePublicEphemeral p a : Res SrpAuthError Bytes) = .panic ↔ p.n = 0) ∧
    ((Client.computeVerifier D p I P s : Res SrpAuthError Bytes) = .panic ↔ p.n = 0) := by
  by_cases hn : p.n = 0
  · simp [Client.computePublicEphemeral, Client.computeVerifier, Client.computeAPub, Client.computeV,
      modpow, hn]
  · simp [Client.computePublicEphemeral, Client.computeVerifier, Client.computeAPub, Client.computeV,
      modpow, hn]

example : Spec.Sane exGroup.n exGroup.g ∧ ¬ Spec.Sane 0 2 ∧ ¬ Spec.Sane 23 256 := by decide +kernel
example : Server.processReply (Digest.toy 4) { n := 23, g := 256 } [7] [9] [5] = .panic := by
  decide +kernel

/-! ## C07 -/

/-- **C07.** The values on the wire and the derived secrets are those of the specification:
`v = g^x`, `A = g^a`, `B = k v + g^b` in `ZMod N`, with the published `k` and `x`. -/
theorem C07_wire_values (hs : Spec.Sane p.n p.g) (I P s a b v : Bytes) :
    (Client.computeVerifier D p I P s : Res SrpAuthError Bytes)
      = .ok (Spec.enc (Spec.v D p.n p.g I P s)) ∧
    (Client.computePublicEphemeral p a : Res SrpAuthError Bytes)
      = .ok (Spec.enc (Spec.A p.n p.g (beToNat a))) ∧
    (Server.computePublicEphemeral D p b v : Res SrpAuthError Bytes)
      = .ok (Spec.enc (Spec.B D p.n p.g (beToNat v : ZMod p.n) (beToNat b))) :=
  ⟨client_verifier_eq D p hs.1 I P s, client_ephemeral_eq p hs.1 a, server_ephemeral_eq D p hs b v⟩

/-- **C07 (client).** Secret and proofs of the client follow the specification. -/
theorem C07_client_follows_spec (hs : Spec.Sane p.n p.g) (I P s a B : Bytes)
    (hB : ¬ p.n ∣ beToNat B) :
    let A := Spec.A p.n p.g (beToNat a)
    let Bn := beToNat B
    let S := Spec.clientS D p.n p.g (Bn : ZMod p.n) (Spec.x D I P s) (beToNat a)
      (Spec.u D A.val Bn)
    let m1 := Spec.M1 D (Spec.enc A) (toBytesBE Bn) (Spec.enc S)
    ∃ c, Client.processReply D p a I P s B = .ok c ∧ c.key = Spec.enc S ∧ c.proof = m1 ∧
      ∀ r, c.verifyServer r = .ok () ↔ r = Spec.M2 D (Spec.enc A) m1 (Spec.enc S) := by
  refine ⟨clientResult D p.n p.g (beToNat a) I P s (beToNat B), ?_, rfl, rfl, ?_⟩
  · rw [client_process_eq D p hs, if_neg (fun h => hB (Nat.dvd_of_mod_eq_zero h))]
  · exact fun r => (C03_verifyServer_exact _ r).1

/-- **C07 (server).** Secret and proofs of the server follow the specification. -/
theorem C07_server_follows_spec (hs : Spec.Sane p.n p.g) (b v A : Bytes)
    (hA : ¬ p.n ∣ beToNat A) :
    let An := beToNat A
    let vz : ZMod p.n := (beToNat v : ZMod p.n)
    let B := Spec.B D p.n p.g vz (beToNat b)
    let S := Spec.serverS (An : ZMod p.n) vz (Spec.u D An B.val) (beToNat b)
    let m1 := Spec.M1 D (toBytesBE An) (Spec.enc B) (Spec.enc S)
    ∃ sv, Server.processReply D p b v A = .ok sv ∧ sv.key = Spec.enc S ∧
      sv.proof = Spec.M2 D (toBytesBE An) m1 (Spec.enc S) ∧
      ∀ r, sv.verifyClient r = .ok () ↔ r = m1 := by
  refine ⟨serverResult D p.n p.g (beToNat b) (beToNat v) (beToNat A), ?_, rfl, rfl, ?_⟩
  · rw [server_process_eq D p hs, if_neg (fun h => hA (Nat.dvd_of_mod_eq_zero h))]
  · exact fun r => (C03_verifyClient_exact _ r).1

/-- The hypotheses of C07 hold in the toy group for every public value that is not a multiple of `N`. -/
example : Spec.Sane exGroup.n exGroup.g ∧ ¬ exGroup.n ∣ beToNat [1, 2, 3] ∧ exGroup.n ∣ beToNat (toBytesBE (2 * 65521)) := by
  decide +kernel

/-! ## C08 -/

/-- **C08, the part that holds and its exact extent.** For public values not longer than `N`, the
scrambling parameter is the one of RFC 5054 if both values have full length; otherwise the hash
inputs differ, so it is the RFC value only through the named collision. -/
theorem C08_u_matches_rfc_iff_partial (N A B : Nat) (hA : byteLen A ≤ byteLen N)
    (hB : byteLen B ≤ byteLen N) :
    computeU D (toBytesBE A) (toBytesBE B) = Spec.uRfc D N A B ↔
      (byteLen A = byteLen N ∧ byteLen B = byteLen N) ∨
      D.Collision (toBytesBE A ++ toBytesBE B)
        (Spec.PAD (byteLen N) (toBytesBE A) ++ Spec.PAD (byteLen N) (toBytesBE B)) := by
  rw [computeU_eq]
  simp only [Spec.u, Spec.uRfc, Spec.Hint, toBytesBE_length]
  constructor
  · intro h
    have h' := beToNat_inj (by simp) h
    rcases D.eq_or_collision h' with e | e
    · left
      have := congrArg List.length e
      simp [PAD_length, hA, hB] at this
      omega
    · exact Or.inr e
  · rintro (⟨h1, h2⟩ | h)
    · simp [Spec.PAD, h1, h2]
    · rw [h.2]

/-- **C08 is false of the code:** there are a digest, a modulus and public values below it (one
with a leading zero byte) for which the scrambling parameter is not that of RFC 5054. -/
theorem C08_u_padding_fails :
    ¬ ∀ (D : Digest) (N A B : Nat), 0 < A → A < N → 0 < B → B < N →
      computeU D (toBytesBE A) (toBytesBE B) = Spec.uRfc D N A B := by
  intro h
  exact absurd (h (Digest.toy 4) 65521 2 3 (by decide) (by decide) (by decide) (by decide))
    (by decide +kernel)

/-- Both sides of C08 occur: full length, and one byte less. -/
example : (byteLen 256 = byteLen 65521 ∧ byteLen 257 = byteLen 65521 ∧
      computeU (Digest.toy 4) (toBytesBE 256) (toBytesBE 257) = Spec.uRfc (Digest.toy 4) 65521 256 257) ∧
    byteLen 254 < byteLen 65521 ∧
      computeU (Digest.toy 4) (toBytesBE 257) (toBytesBE 254) ≠ Spec.uRfc (Digest.toy 4) 65521 257 254 := by
  decide +kernel

/-! ## C09 -/

/-- **C09, the part that holds.** When the public values have the same byte lengths, equal client
proofs mean equal public values and equal keys, up to the named collision. -/
theorem C09_proof_binds_transcript_partial (A B K A' B' K' : Bytes)
    (hA : A.length = A'.length) (hB : B.length = B'.length)
    (h : computeM1 D A B K = computeM1 D A' B' K') :
    (A = A' ∧ B = B' ∧ K = K') ∨ D.Collision (A ++ B ++ K) (A' ++ B' ++ K') := by
  rw [computeM1_eq, computeM1_eq] at h
  rcases D.eq_or_collision h with e | e
  · left
    obtain ⟨h1, h2⟩ := append_inj_of_length (by simp [hA, hB]) e
    obtain ⟨h3, h4⟩ := append_inj_of_length hA h1
    exact ⟨h3, h4, h2⟩
  · exact Or.inr e

/-- **C09 for M2.** The server proof binds the client's public value, the client proof and the key
when the public values have equal byte length. -/
theorem C09_server_proof_binds_partial (A M K A' M' K' : Bytes)
    (hA : A.length = A'.length) (hM : M.length = M'.length)
    (h : computeM2 D A M K = computeM2 D A' M' K') :
    (A = A' ∧ M = M' ∧ K = K') ∨ D.Collision (A ++ M ++ K) (A' ++ M' ++ K') := by
  rw [computeM2_eq, computeM2_eq] at h
  rcases D.eq_or_collision h with e | e
  · left
    obtain ⟨h1, h2⟩ := append_inj_of_length (by simp [hA, hM]) e
    obtain ⟨h3, h4⟩ := append_inj_of_length hA h1
    exact ⟨h3, h4, h2⟩
  · exact Or.inr e

/-- The hypotheses are met with different inputs by a digest of one byte: then it is the second alternative. -/
example : computeM1 (Digest.toy 1) [1, 2] [3] [4] = computeM1 (Digest.toy 1) [1, 2] [3] [4] ∧
    ∃ K, K ≠ [4] ∧ computeM1 (Digest.toy 1) [1, 2] [3] [4] = computeM1 (Digest.toy 1) [1, 2] [3] K ∧
      computeM2 (Digest.toy 1) [1, 2] [3] [4] = computeM2 (Digest.toy 1) [1, 2] [3] K :=
  ⟨rfl, [9, 4], by decide +kernel⟩

/-- **C09 is false in general:** for *every* digest the two different transcripts
`(A, B) = (0x0102, 0x03)` and `(0x01, 0x0203)` have the same scrambling parameter and, with the
same key, the same client proof. -/
theorem C09_transcript_ambiguous (K : Nat) :
    let A := toBytesBE 0x0102; let B := toBytesBE 0x03
    let A' := toBytesBE 0x01; let B' := toBytesBE 0x0203
    A ≠ A' ∧ B ≠ B' ∧ computeU D A B = computeU D A' B' ∧
      computeM1 D A B (toBytesBE K) = computeM1 D A' B' (toBytesBE K) := by
  have e1 : toBytesBE 0x0102 = [1, 2] := by decide
  have e2 : toBytesBE 0x03 = [3] := by decide
  have e3 : toBytesBE 0x01 = [1] := by decide
  have e4 : toBytesBE 0x0203 = [2, 3] := by decide
  simp only [e1, e2, e3, e4]
  refine ⟨by decide, by decide, ?_, ?_⟩ <;>
    simp [computeU, computeM1, Digest.update, Digest.new, Digest.finalize]

/-! ## C10 -/

/-- **C10, the part that holds.** If neither username contains `':'`, equal private keys `x` for
the same salt mean equal credentials, up to a named collision of the inner or the outer hash. -/
theorem C10_credentials_bound_partial (I P I' P' s : Bytes)
    (h1 : (58 : UInt8) ∉ I) (h2 : (58 : UInt8) ∉ I')
    (h : Client.computeX D (Client.computeIdentityHash D I P) s
       = Client.computeX D (Client.computeIdentityHash D I' P') s) :
    (I = I' ∧ P = P') ∨ D.Collision (I ++ [58] ++ P) (I' ++ [58] ++ P') ∨
      D.Collision (s ++ D.hash (I ++ [58] ++ P)) (s ++ D.hash (I' ++ [58] ++ P')) := by
  rw [computeX_eq, computeX_eq] at h
  have h' := beToNat_inj (by simp) h
  rcases D.eq_or_collision h' with e | e
  · rcases D.eq_or_collision (List.append_cancel_left e) with e2 | e2
    · exact Or.inl (split_at_colon h1 h2 e2)
    · exact Or.inr (Or.inl e2)
  · exact Or.inr (Or.inr e)

/-- **C10 (salt).** Equal private keys mean equal salts and equal identity hashes, for any usernames, up to
a named collision. -/
theorem C10_salt_bound (I P I' P' s s' : Bytes)
    (h : Client.computeX D (Client.computeIdentityHash D I P) s
       = Client.computeX D (Client.computeIdentityHash D I' P') s') :
    (s = s' ∧ D.hash (I ++ [58] ++ P) = D.hash (I' ++ [58] ++ P')) ∨
      D.Collision (s ++ D.hash (I ++ [58] ++ P)) (s' ++ D.hash (I' ++ [58] ++ P')) := by
  rw [computeX_eq, computeX_eq] at h
  rcases D.eq_or_collision (beToNat_inj (by simp) h) with e | e
  · exact Or.inl (List.append_inj' e (by simp))
  · exact Or.inr e

/-- The hypotheses of C10 hold for names without a colon; different credentials have different `x` here. -/
example : (58 : UInt8) ∉ ascii "alice" ∧ (58 : UInt8) ∉ ascii "bob" ∧
    Client.computeX (Digest.toy 4) (Client.computeIdentityHash (Digest.toy 4) (ascii "alice") (ascii "pw")) [1] ≠
      Client.computeX (Digest.toy 4) (Client.computeIdentityHash (Digest.toy 4) (ascii "bob") (ascii "pw")) [1] := by
  decide +kernel

/-- **C10 is false in general:** user `"a:b"` with password `"c"` and user `"a"` with password
`"b:c"` are the same to the library, for every digest, group, salt and session. -/
theorem C10_colon_ambiguous (s a B : Bytes) :
    (ascii "a:b", ascii "c") ≠ (ascii "a", ascii "b:c") ∧
    (Client.computeVerifier D p (ascii "a:b") (ascii "c") s : Res SrpAuthError Bytes)
      = Client.computeVerifier D p (ascii "a") (ascii "b:c") s ∧
    Client.processReply D p a (ascii "a:b") (ascii "c") s B
      = Client.processReply D p a (ascii "a") (ascii "b:c") s B := by
  have h : Client.computeIdentityHash D (ascii "a:b") (ascii "c")
      = Client.computeIdentityHash D (ascii "a") (ascii "b:c") := by
    have : ascii "a:b" ++ ascii ":" ++ ascii "c" = ascii "a" ++ ascii ":" ++ ascii "b:c" := by
      decide
    simp only [Client.computeIdentityHash, Digest.update, Digest.new, Digest.finalize,
      List.nil_append]
    rw [this]
  refine ⟨by decide, ?_, ?_⟩
  · simp only [Client.computeVerifier, h]
  · simp only [Client.processReply, h]

/-! ## C12 -/

/-- **C12 (canonical form).** Public values and verifiers are minimal encodings of residues. -/
theorem C12_canonical (hs : Spec.Sane p.n p.g) (I P s a b v out : Bytes)
    (h : (Client.computePublicEphemeral p a : Res SrpAuthError Bytes) = .ok out ∨
      (Client.computeVerifier D p I P s : Res SrpAuthError Bytes) = .ok out ∨
      (Server.computePublicEphemeral D p b v : Res SrpAuthError Bytes) = .ok out) :
    IsMinimalBE out ∧ beToNat out < p.n ∧ out.length ≤ (toBytesBE p.n).length := by
  have : NeZero p.n := ⟨hs.1.ne'⟩
  rw [client_ephemeral_eq p hs.1, client_verifier_eq D p hs.1, server_ephemeral_eq D p hs] at h
  have key : ∀ z : ZMod p.n, Spec.enc z = out →
      IsMinimalBE out ∧ beToNat out < p.n ∧ out.length ≤ (toBytesBE p.n).length := by
    rintro z rfl
    refine ⟨toBytesBE_minimal _, ?_, ?_⟩
    · simpa [Spec.enc] using ZMod.val_lt z
    · simpa [Spec.enc] using byteLen_mono (ZMod.val_lt z).le
  rcases h with h | h | h <;> exact key _ (Res.ok.inj h)

/-- **C12 (never rejected).** If `g` is coprime to `N > 1`, the server processes every honest
client's public value without error. -/
theorem C12_honest_client_never_rejected (hs : Spec.Sane p.n p.g) (hn : 1 < p.n)
    (hc : Nat.Coprime p.g p.n) (a b v A : Bytes)
    (hA : (Client.computePublicEphemeral p a : Res SrpAuthError Bytes) = .ok A) :
    ∃ sv, Server.processReply D p b v A = .ok sv := by
  rw [client_ephemeral_eq p hs.1] at hA
  obtain rfl := Res.ok.inj hA
  refine ⟨_, server_process_ok D p hs b v _ ?_⟩
  simpa [Spec.enc, Spec.A] using unit_pow_val_mod_ne hn hc (beToNat a)

/-- The hypotheses of C12 are met. -/
example : Spec.Sane exGroup.n exGroup.g ∧ 1 < exGroup.n ∧ Nat.Coprime exGroup.g exGroup.n ∧
    (Client.computePublicEphemeral exGroup [1, 2, 3] : Res SrpAuthError Bytes).isOk = true ∧
    (Client.computeVerifier (Digest.toy 4) exGroup [1] [2] [3] : Res SrpAuthError Bytes).isOk = true ∧
    (Server.computePublicEphemeral (Digest.toy 4) exGroup [7] [9] : Res SrpAuthError Bytes).isOk = true := by
  decide +kernel

/-- Coprimality is needed: with a generator that is nilpotent modulo `N` an honest value is 0. -/
example : (Client.computePublicEphemeral { n := 16, g := 2 } [4] : Res SrpAuthError Bytes) = .ok [0] := by
  decide +kernel

/-! ## C13 -/

/-- **C13 is false of the code.** When the scrambling parameter is zero the server accepts a proof
computed from the *verifier* alone: neither username, password nor `x` occur in it. Neither side
reports an error. -/
theorem C13_zero_u_accepted (hs : Spec.Sane p.n p.g) (hn : 1 < p.n) (hc : Nat.Coprime p.g p.n)
    (a b v A B : Bytes)
    (hA : (Client.computePublicEphemeral p a : Res SrpAuthError Bytes) = .ok A)
    (hB : (Server.computePublicEphemeral D p b v : Res SrpAuthError Bytes) = .ok B)
    (hu : computeU D A B = 0) :
    ∃ sv, Server.processReply D p b v A = .ok sv ∧
      sv.verifyClient (D.hash (A ++ B ++
        Spec.enc (((beToNat B : ZMod p.n) - (Spec.k D p.n p.g : ZMod p.n) * (beToNat v : ZMod p.n))
          ^ beToNat a))) = .ok () := by
  have : NeZero p.n := ⟨hs.1.ne'⟩
  obtain ⟨sv, hsv⟩ := C12_honest_client_never_rejected D p hs hn hc a b v A hA
  refine ⟨sv, hsv, ?_⟩
  rw [client_ephemeral_eq p hs.1] at hA
  obtain rfl := Res.ok.inj hA
  rw [server_ephemeral_eq D p hs] at hB
  obtain rfl := Res.ok.inj hB
  rw [server_process_eq D p hs] at hsv
  split at hsv
  · cases hsv
  obtain rfl := Res.ok.inj hsv
  refine (C03_verifyClient_exact _ _).1.2 ?_
  have hu' : Spec.u D (Spec.A p.n p.g (beToNat a)).val
      (Spec.B D p.n p.g (beToNat v : ZMod p.n) (beToNat b)).val = 0 := by
    rw [← computeU_eq]; exact hu
  simp only [serverResult, enc_cast, Spec.M1]
  simp only [Spec.enc, beToNat_toBytesBE] at hu' ⊢
  rw [hu']
  have hS : Spec.serverS (Spec.A p.n p.g (beToNat a)) (beToNat v : ZMod p.n) 0 (beToNat b)
      = (Spec.B D p.n p.g (beToNat v : ZMod p.n) (beToNat b)
          - Spec.k D p.n p.g * (beToNat v : ZMod p.n)) ^ beToNat a := by
    simp only [Spec.serverS, Spec.B, Spec.A, pow_zero, mul_one]
    rw [add_sub_cancel_left, ← pow_mul, ← pow_mul, mul_comm]
  rw [hS]

/-- The client does not refuse `u = 0` either: `process_reply` errs only on `b_pub` (C02), here is
a run with `u = 0` that succeeds on both sides. -/
example :
    let D : Digest := { hash := fun _ => [0], outLen := 1, hash_length := by simp }
    computeU D [17] [17] = 0 ∧
    (Client.processReply D exGroup [1] [1] [2] [3] [17]).isOk = true ∧
    (Server.processReply D exGroup [1] [1] [17]).isOk = true := by
  decide +kernel

/-! ## C14 -/

/-- **C14, what holds instead.** The key is the minimal encoding of the premaster secret, below
`N`; it is at most as long as `N`. -/
theorem C14_key_is_premaster_partial (hs : Spec.Sane p.n p.g) (b v A : Bytes)
    (sv : SrpServerVerifier) (h : Server.processReply D p b v A = .ok sv) :
    IsMinimalBE sv.key ∧ beToNat sv.key < p.n ∧ sv.key.length ≤ (toBytesBE p.n).length := by
  have : NeZero p.n := ⟨hs.1.ne'⟩
  rw [server_process_eq D p hs] at h
  split at h
  · cases h
  obtain rfl := Res.ok.inj h
  refine ⟨toBytesBE_minimal _, ?_, ?_⟩
  · simpa [serverResult, Spec.enc] using ZMod.val_lt _
  · simpa [serverResult, Spec.enc] using byteLen_mono (ZMod.val_lt _).le

/-- **C14, what holds instead (client).** The same for the client's key. -/
theorem C14_client_key_is_premaster_partial (hs : Spec.Sane p.n p.g) (a I P salt B : Bytes)
    (c : SrpClientVerifier) (h : Client.processReply D p a I P salt B = .ok c) :
    IsMinimalBE c.key ∧ beToNat c.key < p.n ∧ c.key.length ≤ (toBytesBE p.n).length := by
  have : NeZero p.n := ⟨hs.1.ne'⟩
  rw [client_process_eq D p hs] at h
  split at h
  · cases h
  obtain rfl := Res.ok.inj h
  refine ⟨toBytesBE_minimal _, ?_, ?_⟩
  · simpa [clientResult, Spec.enc] using ZMod.val_lt _
  · simpa [clientResult, Spec.enc] using byteLen_mono (ZMod.val_lt _).le

/-- Both halves apply: a client and a server of the toy group, with keys. -/
example : Spec.Sane exGroup.n exGroup.g ∧
    (Client.processReply (Digest.toy 4) exGroup [3] [1] [2] [3] [17]).isOk = true ∧
    (Server.processReply (Digest.toy 4) exGroup [1] [1] [17]).isOk = true := by
  decide +kernel

/-- **C14 is false of the code:** two honest sessions of one user can have keys of different
length, so `key()` is not the output of the digest. -/
theorem C14_key_not_hashed :
    ∃ (D : Digest) (p : SrpGroup) (b b' v A A' : Bytes) (sv sv' : SrpServerVerifier),
      Server.processReply D p b v A = .ok sv ∧ Server.processReply D p b' v A' = .ok sv' ∧
      sv.key.length ≠ sv'.key.length ∧ sv.key.length ≠ D.outLen ∧ sv.key ≠ D.hash sv.key := by
  refine ⟨Digest.toy 4, exGroup, [0], [1], [1], [17], [1, 17],
    (match Server.processReply (Digest.toy 4) exGroup [0] [1] [17] with
      | .ok s => s | _ => ⟨[], [], []⟩),
    (match Server.processReply (Digest.toy 4) exGroup [1] [1] [1, 17] with
      | .ok s => s | _ => ⟨[], [], []⟩), ?_⟩
  decide +kernel

/-! ## C15 -/

/-- **C15 (necessity).** For a multiple of `N` the premaster secret would be zero, whatever the
verifier and scrambling parameter, for every non-zero `b`. -/
theorem C15_zero_secret_without_check (hn : 0 < p.n) (A v u b : Nat) (hA : p.n ∣ A) (hb : b ≠ 0) :
    (Server.computePremasterSecret p A v u b : Res SrpAuthError Nat) = .ok 0 := by
  rw [server_premaster_eq p hn]
  have : (A : ZMod p.n) = 0 := (ZMod.natCast_eq_zero_iff A p.n).2 hA
  simp [Spec.serverS, this, hb]

/-- **C15 (sufficiency).** For prime `N` and a verifier not divisible by `N`, an accepted public
value never leads to the secret 0. -/
theorem C15_accepted_secret_nonzero (hp : p.n.Prime) (hs : Spec.Sane p.n p.g) (b v A : Bytes)
    (hv : ¬ p.n ∣ beToNat v) (sv : SrpServerVerifier)
    (h : Server.processReply D p b v A = .ok sv) : beToNat sv.key ≠ 0 := by
  have : Fact p.n.Prime := ⟨hp⟩
  rw [server_process_eq D p hs] at h
  split at h
  · cases h
  · rename_i hA
    obtain rfl := Res.ok.inj h
    have hA' : (beToNat A : ZMod p.n) ≠ 0 := by
      rw [Ne, ZMod.natCast_eq_zero_iff]; exact fun h => hA (Nat.mod_eq_zero_of_dvd h)
    have hv' : (beToNat v : ZMod p.n) ≠ 0 := by
      rw [Ne, ZMod.natCast_eq_zero_iff]; exact hv
    simp only [serverResult, Spec.enc, beToNat_toBytesBE, Spec.serverS]
    rw [Ne, ZMod.val_eq_zero]
    exact pow_ne_zero _ (mul_ne_zero hA' (pow_ne_zero _ hv'))

/-- The hypotheses of C15 are met: modulo 23 a server with a verifier that is no multiple of 23 accepts. -/
example : Nat.Prime 23 ∧ Spec.Sane 23 5 ∧ ¬ 23 ∣ beToNat [9] ∧
    (Server.processReply (Digest.toy 4) { n := 23, g := 5 } [7] [9] [5]).isOk = true ∧ 23 ∣ 3 * 23 := by
  decide +kernel

end Verif.Srp
