import Verif.Aucpace.Sessions

/-!
# C75: sessions of an AuCPace client

The client's typestate API as a labelled transition system, the counterpart of `callSession` for the server. The arguments
of every call are arbitrary: the network may deliver anything.
-/

set_option linter.unusedSectionVars false
set_option linter.unusedTactic false

namespace Verif.Aucpace
open Spec Run

/-- A client session: each state is one of the structs of aucpace/src/client.rs, consumed by the next call. -/
inductive CSession where
  | ssid (st : Client.SsidEstablish)
  | pre (st : Client.PreAug)
  | aug (st : Client.AugLayer)
  | augStrong (st : Client.StrongAugLayer)
  | cpace (st : Client.CPaceSubstep)
  | recvKey (st : Client.RecvServerKey)
  | auth (st : Client.ExpMutAuth)
  | finished
  | failed

/-- A call on a client session with all its arguments; generators are passed per call (aucpace/src/client.rs:441-449,
783-789). `fuel` bounds the draws of the blinding loop. -/
inductive CCall (G Params σ : Type) where
  | agreeSsid (nonce : Bytes)
  | start (user pass : Bytes)
  | startStrong (user pass : Bytes) (fuel : Nat) (rng : σ)
  | cpace (buf : Buf) (X : G) (salt : Bytes) (params : Params)
  | cpaceStrong (buf : Buf) (X U : G) (params : Params)
  | publicKey (ci : Bytes) (rng : σ)
  | recvKey (Y : G)
  | implicit (Y : G)
  | authenticator (t : Bytes)

/-- What a call gives to the application. -/
inductive COut (G : Type) where
  | message (m : ClientMessage G)
  | key (k : Bytes)
  | error (e : Error)

def COut.isKey {G : Type} : COut G → Bool
  | .key _ => true
  | _ => false

def COut.isError {G : Type} : COut G → Bool
  | .error _ => true
  | _ => false

section
variable {G : Type} [AddCommGroup G] [Module Scalar G] [DecidableEq G] (R : Ristretto G) (D : Digest)
  {Params : Type} (Hs : PwHasher Params) {σ : Type} (rng : Rng σ)

/-- One call on a client session; `none` where the typestate API has no such method, or the blinding loop has not ended. -/
def callClient : CSession → CCall G Params σ → Option (CSession × List (COut G))
  | .ssid st, .agreeSsid nonce => some (.pre (Client.agreeSsid D st nonce), [])
  | .pre st, .start user pass =>
    let (st, m) := Client.startAugmentation (G := G) st user pass
    some (.aug st, [.message m])
  | .pre st, .startStrong user pass fuel s =>
    match Client.startAugmentationStrong R D rng fuel st user pass s with
    | some ((st, m), _) => some (.augStrong st, [.message m])
    | none => none
  | .aug st, .cpace buf X salt params =>
    match Run.clientCpace R Hs buf st X salt params with
    | .ok st => some (.cpace st, [])
    | .err e => some (.failed, [.error e])
    | .panic => some (.failed, [])
  | .augStrong st, .cpaceStrong buf X U params =>
    match Run.clientCpaceStrong R Hs buf st X U params with
    | .ok st => some (.cpace st, [])
    | .err e => some (.failed, [.error e])
    | .panic => some (.failed, [])
  | .cpace st, .publicKey ci s =>
    let ((st, m), _) := Client.generatePublicKey R D rng st ci s
    some (.recvKey st, [.message m])
  | .recvKey st, .recvKey Y =>
    match Client.receiveServerPubkey R D st Y with
    | .ok (st, m) => some (.auth st, [.message m])
    | .err e => some (.failed, [.error e])
    | .panic => some (.failed, [])
  | .recvKey st, .implicit Y =>
    match Client.implicitAuth R D st Y with
    | .ok k => some (.finished, [.key k])
    | .err e => some (.failed, [.error e])
    | .panic => some (.failed, [])
  | .auth st, .authenticator t =>
    match Client.receiveServerAuthenticator D st t with
    | .ok k => some (.finished, [.key k])
    | .err e => some (.failed, [.error e])
    | .panic => some (.failed, [])
  | _, _ => none

/-- A client session run through a list of calls. -/
def runClient : CSession → List (CCall G Params σ) → Option (CSession × List (COut G))
  | st, [] => some (st, [])
  | st, c :: cs => do
    let (st, o) ← callClient R D Hs rng st c
    let (st, o') ← runClient st cs
    some (st, o ++ o')

theorem runClient_cons {st st' : CSession} {c : CCall G Params σ} {cs : List (CCall G Params σ)} {o : List (COut G)} :
    runClient R D Hs rng st (c :: cs) = some (st', o) ↔
      ∃ s1 o1 o2, callClient R D Hs rng st c = some (s1, o1) ∧ runClient R D Hs rng s1 cs = some (st', o2) ∧
        o = o1 ++ o2 := by
  simp only [runClient, Option.bind_eq_bind, Option.bind_eq_some_iff, Option.some.injEq, Prod.mk.injEq, Prod.exists]
  constructor
  · rintro ⟨s1, o1, h1, s2, o2, h2, rfl, rfl⟩
    exact ⟨s1, o1, o2, h1, h2, rfl⟩
  · rintro ⟨s1, o1, o2, h1, h2, rfl⟩
    exact ⟨s1, o1, h1, st', o2, h2, rfl, rfl⟩

/-- How far a session is from its end. -/
def CSession.rank : CSession → Nat
  | .ssid _ => 6
  | .pre _ => 5
  | .aug _ => 4
  | .augStrong _ => 4
  | .cpace _ => 3
  | .recvKey _ => 2
  | .auth _ => 1
  | .finished => 0
  | .failed => 0

theorem callClient_rank {st st' : CSession} {c : CCall G Params σ} {o : List (COut G)}
    (h : callClient R D Hs rng st c = some (st', o)) :
    st'.rank < st.rank ∧ o.countP COut.isKey ≤ 1 ∧ (o.countP COut.isKey ≠ 0 → st' = .finished) ∧
      (o.countP COut.isError ≠ 0 → st' = .failed) := by
  cases st <;> cases c <;> simp only [callClient] at h <;> try (simp at h; done)
  all_goals
    (try split at h) <;> first
    | (simp at h; done)
    | (simp only [Option.some.injEq, Prod.mk.injEq] at h
       obtain ⟨rfl, rfl⟩ := h
       simp [CSession.rank, COut.isKey, COut.isError])

/-- **C75 (ended sessions).** A finished or failed session allows no further call. -/
theorem C75_ended {st : CSession} (h : st = .finished ∨ st = .failed) {cs : List (CCall G Params σ)}
    {st' : CSession} {o : List (COut G)} (hr : runClient R D Hs rng st cs = some (st', o)) :
    cs = [] ∧ st' = st ∧ o = [] := by
  cases cs with
  | nil =>
    simp only [runClient, Option.some.injEq, Prod.mk.injEq] at hr
    exact ⟨rfl, hr.1.symm, hr.2.symm⟩
  | cons c cs =>
    exfalso
    rcases h with rfl | rfl <;> simp [runClient, callClient] at hr

/-- **C75 (one key).** A client session outputs at most one key and then is finished; it never outputs both a key and an
error; it takes at most six calls. -/
theorem C75_one_key {st st' : CSession} {cs : List (CCall G Params σ)} {o : List (COut G)}
    (hr : runClient R D Hs rng st cs = some (st', o)) :
    o.countP COut.isKey ≤ 1 ∧ (o.countP COut.isKey ≠ 0 → st' = .finished) ∧
      (o.countP COut.isError ≠ 0 → st' = .failed) ∧ cs.length + st'.rank ≤ st.rank := by
  induction cs generalizing st o with
  | nil =>
    simp only [runClient, Option.some.injEq, Prod.mk.injEq] at hr
    obtain ⟨rfl, rfl⟩ := hr
    simp
  | cons c cs ih =>
    obtain ⟨s1, o1, o2, h1, h2, rfl⟩ := (runClient_cons R D Hs rng).1 hr
    obtain ⟨hrk, hle, hfin, hfail⟩ := callClient_rank R D Hs rng h1
    obtain ⟨ih1, ih2, ih3, ih4⟩ := ih h2
    rw [List.countP_append, List.countP_append, List.length_cons]
    by_cases hk : o1.countP COut.isKey = 0
    · by_cases he : o1.countP COut.isError = 0
      · exact ⟨by omega, fun h => ih2 (by omega), fun h => ih3 (by omega), by omega⟩
      · have hf := hfail he
        subst hf
        obtain ⟨rfl, rfl, rfl⟩ := C75_ended R D Hs rng (Or.inr rfl) h2
        refine ⟨by simp [hk], fun h => absurd (by simp [hk]) h, fun _ => rfl, by simp; omega⟩
    · have hf := hfin hk
      subst hf
      obtain ⟨rfl, rfl, rfl⟩ := C75_ended R D Hs rng (Or.inl rfl) h2
      refine ⟨by simpa using hle, fun _ => rfl, fun h => ?_, by simp; omega⟩
      exact absurd (hfail (by simpa using h)) (by simp)

/-- The SSID that a session state carries. -/
def CSession.sid : CSession → Option Bytes
  | .pre st => some st.ssid
  | .aug st => some st.ssid
  | .augStrong st => some st.ssid
  | .cpace st => some st.ssid
  | .recvKey st => some st.ssid
  | .auth st => some st.ssid
  | _ => none

/-- The SSID is carried along unchanged. -/
theorem callClient_sid (h64 : D.outLen = 64) {st st' : CSession} {c : CCall G Params σ} {o : List (COut G)}
    (h : callClient R D Hs rng st c = some (st', o)) {x : Bytes} (hx : st.sid = some x) :
    st'.sid = some x ∨ st' = .finished ∨ st' = .failed := by
  have hl := C36_state_lengths R D Hs rng (σs := σ) h64
  cases st <;> cases c <;> simp only [callClient] at h <;> try (simp at h; done)
  all_goals simp only [CSession.sid, Option.some.injEq, reduceCtorEq] at hx
  · simp only [Option.some.injEq, Prod.mk.injEq, Client.startAugmentation] at h
    rw [← h.1]; exact Or.inl (congrArg some hx)
  · split at h
    · rename_i st1 m s1 h1
      simp only [Option.some.injEq, Prod.mk.injEq] at h
      simp only [Client.startAugmentationStrong, Option.bind_eq_bind, Option.bind_eq_some_iff, Option.some.injEq,
        Prod.mk.injEq, Client.startAugmentationStrongWith] at h1
      obtain ⟨b, -, ⟨h2, -⟩, -⟩ := h1
      rw [← h.1, ← h2]; exact Or.inl (congrArg some hx)
    · simp at h
  · split at h <;> simp only [Option.some.injEq, Prod.mk.injEq] at h <;> rw [← h.1]
    · rename_i h1
      exact Or.inl (congrArg some (((hl.2.2.2.2.1 _ _ _ _ _ _ h1).1).trans hx))
    · simp
    · simp
  · split at h <;> simp only [Option.some.injEq, Prod.mk.injEq] at h <;> rw [← h.1]
    · rename_i h1
      exact Or.inl (congrArg some (((hl.2.2.2.2.2.1 _ _ _ _ _ _ h1).1).trans hx))
    · simp
    · simp
  · simp only [Option.some.injEq, Prod.mk.injEq, client_generatePublicKey_eq] at h
    rw [← h.1]; exact Or.inl (congrArg some hx)
  · rw [receiveServerPubkey_eq R D h64] at h
    split at h <;> rename_i h1 <;> simp only [Option.some.injEq, Prod.mk.injEq] at h <;> rw [← h.1]
    · split at h1
      · simp at h1
      · simp only [Res.ok.injEq, Prod.mk.injEq] at h1
        rw [← h1.1]; exact Or.inl (congrArg some hx)
    · simp
    · simp
  · split at h <;> simp only [Option.some.injEq, Prod.mk.injEq] at h <;> rw [← h.1] <;> simp
  · split at h <;> simp only [Option.some.injEq, Prod.mk.injEq] at h <;> rw [← h.1] <;> simp

theorem runClient_sid (h64 : D.outLen = 64) {st st' : CSession} {cs : List (CCall G Params σ)} {o : List (COut G)}
    (h : runClient R D Hs rng st cs = some (st', o)) {x : Bytes} (hx : st.sid = some x) :
    st'.sid = some x ∨ st' = .finished ∨ st' = .failed := by
  induction cs generalizing st o with
  | nil =>
    simp only [runClient, Option.some.injEq, Prod.mk.injEq] at h
    rw [← h.1]; exact Or.inl hx
  | cons c cs ih =>
    obtain ⟨s1, o1, o2, h1, h2, rfl⟩ := (runClient_cons R D Hs rng).1 h
    rcases callClient_sid R D Hs rng h64 h1 hx with h3 | h3
    · exact ih h2 h3
    · obtain ⟨-, rfl, -⟩ := C75_ended R D Hs rng h3 h2
      exact Or.inr h3

/-- A session opened by nonce computes its SSID from the one nonce it is given and its own. -/
theorem runClient_ssid (h64 : D.outLen = 64) {t : Bytes} {st' : CSession} {cs : List (CCall G Params σ)} {o : List (COut G)}
    (h : runClient R D Hs rng (.ssid ⟨t⟩) cs = some (st', o)) {x : Bytes} (hx : st'.sid = some x) :
    ∃ n cs', cs = .agreeSsid n :: cs' ∧ x = Spec.ssid D n t := by
  cases cs with
  | nil =>
    simp only [runClient, Option.some.injEq, Prod.mk.injEq] at h
    rw [← h.1] at hx; simp [CSession.sid] at hx
  | cons c cs =>
    obtain ⟨s1, o1, o2, h1, h2, rfl⟩ := (runClient_cons R D Hs rng).1 h
    cases c <;> simp only [callClient] at h1 <;> try (simp at h1; done)
    rename_i n
    simp only [Option.some.injEq, Prod.mk.injEq, Client.agreeSsid, computeSsid_eq] at h1
    obtain ⟨rfl, rfl⟩ := h1
    refine ⟨n, cs, rfl, ?_⟩
    rcases runClient_sid R D Hs rng h64 h2 (x := Spec.ssid D n t) rfl with h3 | h3 | h3
    · rw [h3] at hx; exact (Option.some.inj hx).symm
    · rw [h3] at hx; simp [CSession.sid] at hx
    · rw [h3] at hx; simp [CSession.sid] at hx

/-- Before the public keys are exchanged no authenticator has been sent. -/
theorem callClient_noauth {st st' : CSession} {c : CCall G Params σ} {o : List (COut G)}
    (h : callClient R D Hs rng st c = some (st', o)) (hst : ∀ s, st' ≠ .auth s) (t : Bytes) :
    COut.message (.authenticator t) ∉ o := by
  cases st <;> cases c <;> simp only [callClient] at h <;> try (simp at h; done)
  · simp only [Option.some.injEq, Prod.mk.injEq] at h
    rw [← h.2]; simp
  · simp only [Option.some.injEq, Prod.mk.injEq, Client.startAugmentation] at h
    rw [← h.2]; simp
  · split at h
    · rename_i h1
      simp only [Client.startAugmentationStrong, Option.bind_eq_bind, Option.bind_eq_some_iff, Option.some.injEq,
        Prod.mk.injEq, Client.startAugmentationStrongWith] at h1
      obtain ⟨b, -, ⟨-, h2⟩, -⟩ := h1
      simp only [Option.some.injEq, Prod.mk.injEq] at h
      rw [← h.2, ← h2]; simp
    · simp at h
  · split at h <;> simp only [Option.some.injEq, Prod.mk.injEq] at h <;> rw [← h.2] <;> simp
  · split at h <;> simp only [Option.some.injEq, Prod.mk.injEq] at h <;> rw [← h.2] <;> simp
  · simp only [Option.some.injEq, Prod.mk.injEq, client_generatePublicKey_eq] at h
    rw [← h.2]; simp
  · split at h <;> simp only [Option.some.injEq, Prod.mk.injEq] at h
    · exact absurd h.1.symm (hst _)
    · rw [← h.2]; simp
    · rw [← h.2]; simp
  · split at h <;> simp only [Option.some.injEq, Prod.mk.injEq] at h <;> rw [← h.2] <;> simp
  · split at h <;> simp only [Option.some.injEq, Prod.mk.injEq] at h <;> rw [← h.2] <;> simp

/-- A session that waits for the server's authenticator has sent exactly one: its own, and it expects the server's of the
same SSID and first session key. -/
theorem runClient_auth (h64 : D.outLen = 64) {st : CSession} (hst : ∀ s, st ≠ .auth s) {au : Client.ExpMutAuth}
    {cs : List (CCall G Params σ)} {o : List (COut G)} (h : runClient R D Hs rng st cs = some (.auth au, o)) :
    (∀ t, COut.message (.authenticator t) ∈ o ↔ t = tb D au.ssid au.sk1) ∧
      au.serverAuthenticator = ta D au.ssid au.sk1 := by
  induction cs generalizing st o with
  | nil =>
    simp only [runClient, Option.some.injEq, Prod.mk.injEq] at h
    exact absurd h.1 (hst _)
  | cons c cs ih =>
    obtain ⟨s1, o1, o2, h1, h2, rfl⟩ := (runClient_cons R D Hs rng).1 h
    by_cases hs1 : ∀ s, s1 ≠ .auth s
    · obtain ⟨ha, hb⟩ := ih hs1 h2
      refine ⟨fun t => ?_, hb⟩
      rw [List.mem_append, ← ha t]
      exact or_iff_right (callClient_noauth R D Hs rng h1 hs1 t)
    · simp only [ne_eq, not_forall, not_not] at hs1
      obtain ⟨s, rfl⟩ := hs1
      have hlen := (C75_one_key R D Hs rng h2).2.2.2
      simp only [CSession.rank] at hlen
      have : cs = [] := List.eq_nil_of_length_eq_zero (by omega)
      subst this
      simp only [runClient, Option.some.injEq, Prod.mk.injEq, CSession.auth.injEq] at h2
      obtain ⟨rfl, rfl⟩ := h2
      cases st <;> cases c <;> simp only [callClient] at h1 <;> try (simp at h1; done)
      all_goals try (split at h1 <;> simp at h1; done)
      rw [receiveServerPubkey_eq R D h64] at h1
      split at h1 <;> rename_i h3 <;> simp only [Option.some.injEq, Prod.mk.injEq, CSession.auth.injEq, reduceCtorEq,
        false_and] at h1
      split at h3
      · simp at h3
      · simp only [Res.ok.injEq, Prod.mk.injEq] at h3
        obtain ⟨rfl, rfl⟩ := h3
        obtain ⟨rfl, rfl⟩ := h1
        simp

/-- **C75 (key only after the right authenticator).** A client session that has received the server's public key through
`receive_server_pubkey` outputs a key only if the next call delivers exactly the authenticator it expects. -/
theorem C75_explicit_key {st : Client.ExpMutAuth} {cs : List (CCall G Params σ)} {st' : CSession} {o : List (COut G)}
    {k : Bytes} (hr : runClient R D Hs rng (.auth st) cs = some (st', o)) (hk : COut.key k ∈ o) :
    cs = [.authenticator st.serverAuthenticator] ∧ k = sk D st.ssid st.sk1 := by
  cases cs with
  | nil =>
    simp only [runClient, Option.some.injEq, Prod.mk.injEq] at hr
    rw [← hr.2] at hk; simp at hk
  | cons c cs =>
    obtain ⟨s1, o1, o2, h1, h2, rfl⟩ := (runClient_cons R D Hs rng).1 hr
    cases c <;> simp only [callClient] at h1 <;> try (simp at h1; done)
    rename_i t
    rw [receiveServerAuthenticator_eq] at h1
    by_cases ht : st.serverAuthenticator = t
    · rw [if_pos ht] at h1
      simp only [Option.some.injEq, Prod.mk.injEq] at h1
      obtain ⟨rfl, rfl⟩ := h1
      obtain ⟨rfl, -, rfl⟩ := C75_ended R D Hs rng (Or.inl rfl) h2
      refine ⟨by rw [ht], ?_⟩
      simpa using hk
    · rw [if_neg ht] at h1
      simp only [Option.some.injEq, Prod.mk.injEq] at h1
      obtain ⟨rfl, rfl⟩ := h1
      obtain ⟨rfl, -, rfl⟩ := C75_ended R D Hs rng (Or.inr rfl) h2
      simp at hk

/-- **C75 (order).** A client session that starts at SSID agreement and outputs a key has received exactly: a nonce, the
credentials, the augmentation data that fit them, the request for its public key, the peer's key, and then either nothing more
(implicit) or the authenticator (explicit). -/
theorem C75_order {st : Client.SsidEstablish} {cs : List (CCall G Params σ)} {st' : CSession} {o : List (COut G)}
    (hr : runClient R D Hs rng (.ssid st) cs = some (st', o)) (hk : o.countP COut.isKey ≠ 0) :
    ∃ n i j ci s Y, cs.take 4 = [.agreeSsid n, i, j, .publicKey ci s] ∧
      ((∃ user pass buf X salt ps, i = .start user pass ∧ j = .cpace buf X salt ps) ∨
        ∃ user pass f r buf X U ps, i = .startStrong user pass f r ∧ j = .cpaceStrong buf X U ps) ∧
      (cs.drop 4 = [.implicit Y] ∨ ∃ t, cs.drop 4 = [.recvKey Y, .authenticator t]) := by
  have peel : ∀ {s : CSession} {cs : List (CCall G Params σ)} {o : List (COut G)},
      runClient R D Hs rng s cs = some (st', o) → o.countP COut.isKey ≠ 0 →
      s ≠ .failed ∧ ∃ c cs' s1 o1 o2, cs = c :: cs' ∧ callClient R D Hs rng s c = some (s1, o1) ∧
        runClient R D Hs rng s1 cs' = some (st', o2) ∧ o = o1 ++ o2 := by
    intro s cs o h hne
    refine ⟨?_, ?_⟩
    · rintro rfl
      obtain ⟨-, -, rfl⟩ := C75_ended R D Hs rng (Or.inr rfl) h
      exact hne rfl
    · cases cs with
      | nil =>
        simp only [runClient, Option.some.injEq, Prod.mk.injEq] at h
        rw [← h.2] at hne; exact absurd rfl hne
      | cons c cs =>
        obtain ⟨s1, o1, o2, h1, h2, rfl⟩ := (runClient_cons R D Hs rng).1 h
        exact ⟨c, cs, s1, o1, o2, rfl, h1, h2, rfl⟩
  obtain ⟨-, c, cs, s1, o1, o2, rfl, h1, hr1, rfl⟩ := peel hr hk
  cases c <;> simp only [callClient] at h1 <;> try (simp at h1; done)
  rename_i n
  simp only [Option.some.injEq, Prod.mk.injEq] at h1
  obtain ⟨rfl, rfl⟩ := h1
  rw [List.nil_append] at hk
  obtain ⟨-, i, cs, s2, o1, o2, rfl, h1, hr2, rfl⟩ := peel hr1 hk
  have hi : (∃ user pass a, i = .start user pass ∧ s2 = .aug a ∧ o1.countP COut.isKey = 0) ∨
      ∃ user pass f r a, i = .startStrong user pass f r ∧ s2 = .augStrong a ∧ o1.countP COut.isKey = 0 := by
    cases i <;> simp only [callClient] at h1 <;> try (simp at h1; done)
    · simp only [Option.some.injEq, Prod.mk.injEq] at h1
      obtain ⟨rfl, rfl⟩ := h1
      exact Or.inl ⟨_, _, _, rfl, rfl, rfl⟩
    · split at h1
      · simp only [Option.some.injEq, Prod.mk.injEq] at h1
        obtain ⟨rfl, rfl⟩ := h1
        exact Or.inr ⟨_, _, _, _, _, rfl, rfl, rfl⟩
      · simp at h1
  have hz : o1.countP COut.isKey = 0 := by
    rcases hi with ⟨_, _, _, -, -, h⟩ | ⟨_, _, _, _, _, -, -, h⟩ <;> exact h
  rw [List.countP_append, hz, Nat.zero_add] at hk
  obtain ⟨-, j, cs, s3, o1, o2, rfl, h1, hr3, rfl⟩ := peel hr2 hk
  have hj : ((∃ user pass buf X salt ps, i = .start user pass ∧ j = .cpace buf X salt ps) ∨
      ∃ user pass f r buf X U ps, i = .startStrong user pass f r ∧ j = .cpaceStrong buf X U ps) ∧
      o1.countP COut.isKey = 0 ∧ (s3 ≠ .failed → ∃ a, s3 = .cpace a) := by
    rcases hi with ⟨u, p, a, rfl, rfl, -⟩ | ⟨u, p, f, r, a, rfl, rfl, -⟩
    · cases j <;> simp only [callClient] at h1 <;> try (simp at h1; done)
      refine ⟨Or.inl ⟨_, _, _, _, _, _, rfl, rfl⟩, ?_⟩
      split at h1 <;> simp only [Option.some.injEq, Prod.mk.injEq] at h1 <;> obtain ⟨rfl, rfl⟩ := h1 <;> simp [COut.isKey]
    · cases j <;> simp only [callClient] at h1 <;> try (simp at h1; done)
      refine ⟨Or.inr ⟨_, _, _, _, _, _, _, _, rfl, rfl⟩, ?_⟩
      split at h1 <;> simp only [Option.some.injEq, Prod.mk.injEq] at h1 <;> obtain ⟨rfl, rfl⟩ := h1 <;> simp [COut.isKey]
  obtain ⟨hij, hz, hs3⟩ := hj
  rw [List.countP_append, hz, Nat.zero_add] at hk
  obtain ⟨hnf, c', cs, s4, o1, o2, rfl, h1, hr4, rfl⟩ := peel hr3 hk
  obtain ⟨a, rfl⟩ := hs3 hnf
  cases c' <;> simp only [callClient] at h1 <;> try (simp at h1; done)
  rename_i ci s
  simp only [Option.some.injEq, Prod.mk.injEq] at h1
  obtain ⟨rfl, rfl⟩ := h1
  rw [List.countP_append, show List.countP COut.isKey [COut.message _] = 0 from rfl, Nat.zero_add] at hk
  obtain ⟨-, c', cs, s5, o1, o2, rfl, h1, hr5, rfl⟩ := peel hr4 hk
  cases c' <;> simp only [callClient] at h1 <;> try (simp at h1; done)
  · rename_i Y
    refine ⟨n, i, j, ci, s, Y, rfl, hij, Or.inr ?_⟩
    have : o1.countP COut.isKey = 0 ∧ (s5 ≠ .failed → ∃ a, s5 = .auth a) := by
      split at h1 <;> simp only [Option.some.injEq, Prod.mk.injEq] at h1 <;> obtain ⟨rfl, rfl⟩ := h1 <;> simp [COut.isKey]
    rw [List.countP_append, this.1, Nat.zero_add] at hk
    obtain ⟨hnf, c', cs, s6, o1, o2, rfl, h1, hr6, rfl⟩ := peel hr5 hk
    obtain ⟨a, rfl⟩ := this.2 hnf
    have hlen := (C75_one_key R D Hs rng hr5).2.2.2
    simp only [CSession.rank, List.length_cons] at hlen
    have : cs = [] := List.eq_nil_of_length_eq_zero (by omega)
    subst this
    cases c' <;> simp only [callClient] at h1 <;> try (simp at h1; done)
    exact ⟨_, rfl⟩
  · rename_i Y
    refine ⟨n, i, j, ci, s, Y, rfl, hij, Or.inl ?_⟩
    have : s5 = .finished ∨ s5 = .failed := by
      split at h1 <;> simp only [Option.some.injEq, Prod.mk.injEq] at h1 <;> obtain ⟨rfl, rfl⟩ := h1 <;> simp
    obtain ⟨rfl, -, -⟩ := C75_ended R D Hs rng this hr5
    rfl

end

/-- A client session with a server that knows nothing: it sends its authenticator and ends with an error; and one with
implicit authentication, which ends with a key. -/
def World.clientCalls (last : List (CCall Scalar Unit Bytes)) : List (CCall Scalar Unit Bytes) :=
  [.agreeSsid (World.bytes 1 16), .start World.user World.pass, .cpace .alloc 5 (ascii "AAAAAAAAAAAAAAAAAAAAAA") (),
    .publicKey [] (World.bytes 4 100)] ++ last

example :
    ((runClient Ristretto.toy sha512 World.hasher Rng.replay (.ssid ⟨World.bytes 2 16⟩)
      (World.clientCalls [.recvKey 9, .authenticator (World.bytes 0 64)])).map fun r =>
        (r.2.countP COut.isKey, r.2.countP COut.isError)) = some (0, 1) ∧
    ((runClient Ristretto.toy sha512 World.hasher Rng.replay (.ssid ⟨World.bytes 2 16⟩)
      (World.clientCalls [.implicit 9])).map fun r => (r.2.countP COut.isKey, r.2.countP COut.isError)) = some (1, 0) := by
  decide +kernel

end Verif.Aucpace
