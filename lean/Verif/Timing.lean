import Verif.Srp.Model
import Verif.Aucpace.World

/-!
# C81: what comparing a proof or authenticator reveals by its running time

The documentation says that authenticators are "compared in constant time" (aucpace/src/client.rs:904,
aucpace/src/server.rs:662). Here the checking functions are written once more with a record of what an observer of time and
memory accesses may see: the branches that are taken, the positions that are read and the lengths that are hashed. That an
operation on two bytes takes the same time for all bytes, and that the compiler keeps the loop, is assumed; `ct_eq` is written
from knowledge of subtle 2.6.1, whose source is not part of the repository.
-/

namespace Verif.Timing

/-- What an observer sees. -/
inductive Ev where
  | branch (taken : Bool)
  | read (i : Nat)
  | hash (n : Nat)
  deriving DecidableEq, Repr

/-- `u8::ct_eq` (subtle): `x = a ^ b`, `y = (x | -x) >> 7`, `y ^ 1`. -/
def byteEq (a b : UInt8) : UInt8 :=
  let x := a ^^^ b
  let y := (x ||| (0 - x)) >>> 7
  y ^^^ 1

/-- The loop of `<[u8]>::ct_eq` (subtle): `x &= ai.ct_eq(bi).unwrap_u8()` for all positions. -/
def loop : Nat → UInt8 → Bytes → Bytes → UInt8 × List Ev
  | i, x, a :: as, b :: bs =>
    let (x, t) := loop (i + 1) (x &&& byteEq a b) as bs
    (x, .read i :: t)
  | _, x, _, _ => (x, [])

/-- `<[u8]>::ct_eq` (subtle): a branch on the lengths, then the loop. -/
def ctEq (a b : Bytes) : UInt8 × List Ev :=
  if a.length ≠ b.length then (0, [.branch true])
  else
    let (x, t) := loop 0 1 a b
    (x, .branch false :: t)

/-- For comparison: `a == b`, which stops at the first difference. -/
def earlyLoop : Nat → Bytes → Bytes → UInt8 × List Ev
  | i, a :: as, b :: bs =>
    if a = b then
      let (x, t) := earlyLoop (i + 1) as bs
      (x, .read i :: .branch true :: t)
    else (0, [.read i, .branch false])
  | _, _, _ => (1, [])

/-- `verify_client`, srp/src/server.rs:181-187, and `verify_server`, srp/src/client.rs:243-249: `own` is `m1` or `m2`, `name`
the peer. -/
def srpVerify (own : Bytes) (name : String) (reply : Bytes) : Res Srp.SrpAuthError Unit × List Ev :=
  let (c, t) := ctEq own reply
  (if c = 1 then .ok () else .err (.badRecordMac name), t ++ [.branch (c == 1)])

section
open Aucpace
variable (D : Digest)

/-- `compute_authenticator_messages`, aucpace/src/utils.rs:102-117: four updates after the prefixes. -/
def authenticatorMessages (ssid sk1 : Bytes) : (Bytes × Bytes) × List Ev :=
  (computeAuthenticatorMessages D ssid sk1, [.hash ssid.length, .hash sk1.length, .hash ssid.length, .hash sk1.length])

/-- `compute_session_key`, aucpace/src/utils.rs:121-129. -/
def sessionKey (ssid sk1 : Bytes) : Bytes × List Ev :=
  (computeSessionKey D ssid sk1, [.hash ssid.length, .hash sk1.length])

/-- `AuCPaceClientExpMutAuth::receive_server_authenticator`, aucpace/src/client.rs:906-917. -/
def clientReceive (self : Client.ExpMutAuth) (t : Bytes) : Res Error Bytes × List Ev :=
  let (c, tr) := ctEq self.serverAuthenticator t
  if c = 1 then
    let (sk, tr') := sessionKey D self.ssid self.sk1
    (.ok sk, tr ++ .branch true :: tr')
  else (.err .mutualAuthFail, tr ++ [.branch false])

/-- `AuCPaceServerExpMutAuth::receive_client_authenticator`, aucpace/src/server.rs:664-682; the conversion to an array branches
on the length of the output of the hash. -/
def serverReceive {G : Type} (self : Server.ExpMutAuth) (t : Bytes) : Res Error (Bytes × ServerMessage G) × List Ev :=
  let ((ta, tb), tr) := authenticatorMessages D self.ssid self.sk1
  let (c, tr') := ctEq tb t
  if c = 1 then
    let (sk, tr'') := sessionKey D self.ssid self.sk1
    (do let ta ← toArray 64 ta
        .ok (sk, .authenticator ta),
      tr ++ tr' ++ .branch true :: tr'' ++ [.branch (ta.length == 64)])
  else (.err .mutualAuthFail, tr ++ tr' ++ [.branch false])

end

/-! ## Lemmas -/

theorem byteEq_spec (a b : UInt8) : byteEq a b = if a = b then 1 else 0 := by
  have h : ∀ x : UInt8, ((x ||| (0 - x)) >>> 7) ^^^ 1 = if x = 0 then 1 else 0 := by
    have : ∀ n : Fin 256, ((UInt8.ofNat n ||| (0 - UInt8.ofNat n)) >>> 7) ^^^ 1 = if UInt8.ofNat n = 0 then 1 else 0 := by
      decide +kernel
    intro x
    have hx := this ⟨x.toNat, x.toNat_lt⟩
    simpa using hx
  simp only [byteEq, h, UInt8.xor_eq_zero_iff]

theorem loop_trace (as bs : Bytes) (i : Nat) (x : UInt8) (h : as.length = bs.length) :
    (loop i x as bs).2 = (List.range' i as.length).map .read := by
  induction as generalizing i x bs with
  | nil => cases bs <;> simp [loop]
  | cons a as ih =>
    cases bs with
    | nil => simp at h
    | cons b bs => simp only [loop, ih bs (i + 1) _ (by simpa using h), List.length_cons, List.range'_succ, List.map_cons]

theorem loop_value (as bs : Bytes) (i : Nat) (x : UInt8) (hx : x = 0 ∨ x = 1) (h : as.length = bs.length) :
    (loop i x as bs).1 = if as = bs then x else 0 := by
  induction as generalizing i x bs with
  | nil => cases bs <;> simp_all [loop]
  | cons a as ih =>
    cases bs with
    | nil => simp at h
    | cons b bs =>
      have hx' : x &&& byteEq a b = if a = b then x else 0 := by
        rw [byteEq_spec]
        rcases hx with rfl | rfl <;> split <;> decide
      simp only [loop]
      rw [ih bs (i + 1) _ (by rw [hx']; split <;> simp_all) (by simpa using h), hx']
      by_cases hab : a = b <;> by_cases has : as = bs <;> simp [hab, has]

theorem ctEq_value (a b : Bytes) : (ctEq a b).1 = if a = b then 1 else 0 := by
  unfold ctEq
  split
  · rename_i h
    rw [if_neg (fun e => h (by rw [e]))]
  · rename_i h
    exact loop_value a b 0 1 (Or.inr rfl) (not_not.1 h)

/-! ## Theorems -/

/-- **C81 (the comparison).** `ct_eq` says whether the two strings are equal, and what can be observed depends only on their
lengths: all positions are read in order. -/
theorem C81_ct_eq (a b : Bytes) :
    (ctEq a b).1 = (if a = b then 1 else 0) ∧ ((ctEq a b).1 == 1) = Verif.ctEq a b ∧
    (ctEq a b).2 = if a.length = b.length then .branch false :: (List.range a.length).map .read else [.branch true] := by
  refine ⟨ctEq_value a b, ?_, ?_⟩
  · rw [ctEq_value, ctEq_eq_decide]
    by_cases h : a = b <;> simp [h]
  · unfold ctEq
    by_cases h : a.length = b.length
    · simp only [h, ne_eq, not_true_eq_false, if_false, if_true, loop_trace a b 0 1 h, List.range_eq_range']
    · simp [h]

/-- **C81 (SRP).** The recorded functions are `verify_client` and `verify_server`, and two checks with the same outcome and
lengths cannot be told apart. In particular all wrong proofs of the right length look alike. -/
theorem C81_srp (sv : Srp.SrpServerVerifier) (cv : Srp.SrpClientVerifier) (reply : Bytes) :
    (srpVerify sv.m1 "client" reply).1 = sv.verifyClient reply ∧ (srpVerify cv.m2 "server" reply).1 = cv.verifyServer reply ∧
    ∀ (own own' reply' : Bytes) (name name' : String), own.length = own'.length → reply.length = reply'.length →
      (own = reply ↔ own' = reply') → (srpVerify own name reply).2 = (srpVerify own' name' reply').2 := by
  refine ⟨?_, ?_, ?_⟩
  · simp only [srpVerify, Srp.SrpServerVerifier.verifyClient, ctEq_value, ctEq_eq_decide]
    by_cases h : sv.m1 = reply <;> simp [h]
  · simp only [srpVerify, Srp.SrpClientVerifier.verifyServer, ctEq_value, ctEq_eq_decide]
    by_cases h : cv.m2 = reply <;> simp [h]
  · intro own own' reply' name name' h1 h2 h3
    simp only [srpVerify, (C81_ct_eq _ _).2.2, ctEq_value, h1, h2]
    by_cases h : own = reply
    · simp [h, h3.1 h]
    · have h' : ¬ own' = reply' := fun e => h (h3.2 e)
      simp [h, h']

section
open Aucpace
variable (D : Digest)

/-- **C81 (AuCPace client).** The recorded function is `receive_server_authenticator`, and two checks with the same outcome
cannot be told apart, whatever the expected and the received authenticators, keys and SSIDs (of the same lengths) are. -/
theorem C81_client (st : Client.ExpMutAuth) (t : Bytes) :
    (clientReceive D st t).1 = Client.receiveServerAuthenticator D st t ∧
    ∀ (st' : Client.ExpMutAuth) (t' : Bytes), st.serverAuthenticator.length = st'.serverAuthenticator.length →
      st.ssid.length = st'.ssid.length → st.sk1.length = st'.sk1.length → t.length = t'.length →
      (st.serverAuthenticator = t ↔ st'.serverAuthenticator = t') → (clientReceive D st t).2 = (clientReceive D st' t').2 := by
  have key (s : Client.ExpMutAuth) (u : Bytes) : clientReceive D s u =
      if s.serverAuthenticator = u then
        (.ok (computeSessionKey D s.ssid s.sk1),
          (ctEq s.serverAuthenticator u).2 ++ [.branch true, .hash s.ssid.length, .hash s.sk1.length])
      else (.err .mutualAuthFail, (ctEq s.serverAuthenticator u).2 ++ [.branch false]) := by
    simp only [clientReceive, ctEq_value, sessionKey]
    by_cases h : s.serverAuthenticator = u <;> simp [h]
  constructor
  · rw [key]
    simp only [Client.receiveServerAuthenticator, ctEq_eq_decide, decide_eq_true_eq]
    split <;> rfl
  · intro st' t' h1 h2 h3 h4 h5
    rw [key, key]
    by_cases h : st.serverAuthenticator = t
    · rw [if_pos h, if_pos (h5.1 h)]
      simp only [(C81_ct_eq _ _).2.2, h1, h2, h3, h4]
    · rw [if_neg h, if_neg (fun e => h (h5.2 e))]
      simp only [(C81_ct_eq _ _).2.2, h1, h4]

/-- **C81 (AuCPace server).** The same for `receive_client_authenticator`. -/
theorem C81_server {G : Type} (h64 : D.outLen = 64) (st : Server.ExpMutAuth) (t : Bytes) :
    (serverReceive (G := G) D st t).1 = Server.receiveClientAuthenticator D st t ∧
    ∀ (st' : Server.ExpMutAuth) (t' : Bytes), st.ssid.length = st'.ssid.length → st.sk1.length = st'.sk1.length →
      t.length = t'.length →
      ((Server.receiveClientAuthenticator (G := G) D st t).isOk ↔ (Server.receiveClientAuthenticator (G := G) D st' t').isOk) →
      (serverReceive (G := G) D st t).2 = (serverReceive (G := G) D st' t').2 := by
  have hl (s : Server.ExpMutAuth) : (computeAuthenticatorMessages D s.ssid s.sk1).1.length = 64 ∧
      (computeAuthenticatorMessages D s.ssid s.sk1).2.length = 64 := by
    simp [computeAuthenticatorMessages, Digest.finalize, D.hash_length, h64]
  have key (s : Server.ExpMutAuth) (u : Bytes) : serverReceive (G := G) D s u =
      if (computeAuthenticatorMessages D s.ssid s.sk1).2 = u then
        (.ok (computeSessionKey D s.ssid s.sk1, .authenticator (computeAuthenticatorMessages D s.ssid s.sk1).1),
          [.hash s.ssid.length, .hash s.sk1.length, .hash s.ssid.length, .hash s.sk1.length] ++
          (ctEq (computeAuthenticatorMessages D s.ssid s.sk1).2 u).2 ++
          [.branch true, .hash s.ssid.length, .hash s.sk1.length, .branch true])
      else (.err .mutualAuthFail,
          [.hash s.ssid.length, .hash s.sk1.length, .hash s.ssid.length, .hash s.sk1.length] ++
          (ctEq (computeAuthenticatorMessages D s.ssid s.sk1).2 u).2 ++ [.branch false]) := by
    simp only [serverReceive, authenticatorMessages, sessionKey, ctEq_value]
    by_cases h : (computeAuthenticatorMessages D s.ssid s.sk1).2 = u
    · simp [h, toArray, (hl s).1]
    · simp [h]
  have key' (s : Server.ExpMutAuth) (u : Bytes) : Server.receiveClientAuthenticator (G := G) D s u =
      if (computeAuthenticatorMessages D s.ssid s.sk1).2 = u then
        .ok (computeSessionKey D s.ssid s.sk1, .authenticator (computeAuthenticatorMessages D s.ssid s.sk1).1)
      else .err .mutualAuthFail := by
    simp only [Server.receiveClientAuthenticator, ctEq_eq_decide, decide_eq_true_eq]
    by_cases h : (computeAuthenticatorMessages D s.ssid s.sk1).2 = u
    · simp [h, toArray, (hl s).1]
    · simp [h]
  constructor
  · rw [key, key']
    split <;> rfl
  · intro st' t' h1 h2 h3 h4
    rw [key', key'] at h4
    rw [key, key]
    by_cases h : (computeAuthenticatorMessages D st.ssid st.sk1).2 = t
    · rw [if_pos h] at h4 ⊢
      by_cases h' : (computeAuthenticatorMessages D st'.ssid st'.sk1).2 = t'
      · rw [if_pos h']
        simp only [(C81_ct_eq _ _).2.2, (hl _).2, h1, h2, h3]
      · rw [if_neg h'] at h4
        simp [Res.isOk] at h4
    · rw [if_neg h] at h4 ⊢
      by_cases h' : (computeAuthenticatorMessages D st'.ssid st'.sk1).2 = t'
      · rw [if_pos h'] at h4
        simp [Res.isOk] at h4
      · rw [if_neg h']
        simp only [(C81_ct_eq _ _).2.2, (hl _).2, h1, h2, h3]

end

/-- **C81 (what is avoided).** A comparison that stops at the first difference gives away how many bytes of a guess are
right. -/
theorem C81_early_exit (p a b : Bytes) (x y : UInt8) (h : x ≠ y) :
    (earlyLoop 0 (p ++ x :: a) (p ++ y :: b)).1 = 0 ∧ (earlyLoop 0 (p ++ x :: a) (p ++ y :: b)).2.length = 2 * (p.length + 1) := by
  suffices H : ∀ i, (earlyLoop i (p ++ x :: a) (p ++ y :: b)).1 = 0 ∧
      (earlyLoop i (p ++ x :: a) (p ++ y :: b)).2.length = 2 * (p.length + 1) from H 0
  induction p with
  | nil => intro i; simp [earlyLoop, h]
  | cons c p ih =>
    intro i
    obtain ⟨h1, h2⟩ := ih (i + 1)
    simp only [List.cons_append, earlyLoop, if_true, List.length_cons]
    exact ⟨h1, by rw [h2]; omega⟩

/-- Two wrong guesses, one right in all but the last byte; and the early exit, which tells them apart. -/
example :
    ctEq [1, 2, 3, 4] [1, 2, 3, 5] = (0, [.branch false, .read 0, .read 1, .read 2, .read 3]) ∧
    ctEq [1, 2, 3, 4] [9, 9, 9, 9] = (0, [.branch false, .read 0, .read 1, .read 2, .read 3]) ∧
    ctEq [1, 2, 3, 4] [1, 2, 3] = (0, [.branch true]) ∧ (ctEq [1, 2, 3, 4] [1, 2, 3, 4]).1 = 1 ∧
    (earlyLoop 0 [1, 2, 3, 4] [1, 2, 3, 5]).2.length = 8 ∧ (earlyLoop 0 [1, 2, 3, 4] [9, 9, 9, 9]).2.length = 2 := by
  decide

end Verif.Timing
