import Verif.Aucpace.PropsAuth

/-!
# Properties of AuCPace: variants, unknown users, strong credentials, values (C42-C48, C54-C56)
-/

set_option linter.unusedSectionVars false

namespace Verif.Aucpace
open Spec Run

section
variable {G : Type} [AddCommGroup G] [Module Scalar G] [DecidableEq G] (R : Ristretto G) (D : Digest)
  {Params : Type} (Hs : PwHasher Params) {σc σs σr : Type} (rngC : Rng σc) (rngS : Rng σs)
  (rngR : Rng σr)

/-! ## States that the API produces (hypotheses of C36, C37) -/

/-- The lengths assumed in C36 and C37 hold for every state that the API hands out: SSIDs have 64
bytes, they are carried along unchanged, and password-related strings have 32 bytes. -/
theorem C36_state_lengths (h64 : D.outLen = 64) :
    (∀ st nonce, (Client.agreeSsid D st nonce).ssid.length = 64) ∧
    (∀ st nonce, (Server.agreeSsid D st nonce).ssid.length = 64) ∧
    (∀ ssid st, Client.beginPrestablishedSsid D ssid = .ok st → st.ssid.length = 64) ∧
    (∀ (sv : Server.State σs) ssid st, Server.beginPrestablishedSsid D sv ssid = .ok st →
      st.ssid.length = 64) ∧
    (∀ buf cli X salt params st, Run.clientCpace R Hs buf cli X salt params = .ok st →
      st.ssid = cli.ssid ∧ st.prs.length = 32) ∧
    (∀ buf cli X U params st, Run.clientCpaceStrong R Hs buf cli X U params = .ok st →
      st.ssid = cli.ssid ∧ st.prs.length = 32) ∧
    (∀ db kdb srv user s st m, Run.serverInfo R D rngS db kdb srv user s = .ok (st, m) →
      st.ssid = srv.ssid ∧ st.prs.length = 32) ∧
    (∀ db kdb srv user U s st m, Run.serverInfoStrong R D rngS db kdb srv user U s = .ok (st, m) →
      st.ssid = srv.ssid ∧ st.prs.length = 32) := by
  have hf : ∀ srv user X s p m s',
      (Server.lookupFailed D rngS srv user X s : Res Error ((Bytes × ServerMessage G) × σs)) =
        .ok ((p, m), s') → p.length = 32 := by
    intro srv user X s p m s' h
    simp only [Server.lookupFailed] at h
    obtain ⟨a, -, h⟩ := Res.bind_eq_ok.1 h
    obtain ⟨b, -, h⟩ := Res.bind_eq_ok.1 h
    simp only [Res.ok.injEq, Prod.mk.injEq] at h
    rw [← h.1.1]; exact rngS.fill_length _ _
  have hfs : ∀ srv user (U : G) X s p m s',
      Server.lookupFailedStrong D rngS srv user U X s = .ok ((p, m), s') → p.length = 32 := by
    intro srv user U X s p m s' h
    simp only [Server.lookupFailedStrong] at h
    split at h
    · simp at h
    · simp only [Res.ok.injEq, Prod.mk.injEq] at h
      rw [← h.1.1]; exact rngS.fill_length _ _
  have hg : ∀ srv user db s x (X : G) p m s',
      (Server.generatePrs R D rngS srv user db s x X : Res Error ((Bytes × ServerMessage G) × σs)) =
        .ok ((p, m), s') → p.length = 32 := by
    intro srv user db s x X p m s' h
    simp only [Server.generatePrs] at h
    split at h
    · simp only [Res.ok.injEq, Prod.mk.injEq] at h
      rw [← h.1.1]; exact R.compress_length _
    · exact hf _ _ _ _ _ _ _ h
  have hgs : ∀ srv user (U : G) db s x X p m s',
      Server.generatePrsStrong R D rngS srv user U db s x X = .ok ((p, m), s') →
        p.length = 32 := by
    intro srv user U db s x X p m s' h
    simp only [Server.generatePrsStrong] at h
    split at h
    · split at h
      · simp at h
      · simp only [Res.ok.injEq, Prod.mk.injEq] at h
        rw [← h.1.1]; exact R.compress_length _
    · exact hfs _ _ _ _ _ _ _ _ h
  refine ⟨fun st n => by simp [Client.agreeSsid, computeSsid_eq, h64],
    fun st n => by simp [Server.agreeSsid, computeSsid_eq, h64], fun ssid st h => ?_,
    fun sv ssid st h => ?_, fun buf cli X salt params st h => ?_,
    fun buf cli X U params st h => ?_, fun db kdb srv user s st m h => ?_,
    fun db kdb srv user U s st m h => ?_⟩
  · simp only [Client.beginPrestablishedSsid, finalize_H0] at h
    split at h
    · simp at h
    · simp only [Res.ok.injEq] at h; subst h; simp [h64]
  · simp only [Server.beginPrestablishedSsid, finalize_H0] at h
    split at h
    · simp at h
    · simp only [Res.ok.injEq] at h; subst h; simp [h64]
  · rw [clientCpace_eq] at h
    split at h
    · simp at h
    split at h
    · obtain ⟨w, -, h⟩ := Res.bind_eq_ok.1 h
      simp only [Res.ok.injEq] at h; subst h
      exact ⟨rfl, R.compress_length _⟩
    · simp at h
  · cases buf with
    | alloc =>
      simp only [Run.clientCpaceStrong, clientCpaceStrong_alloc_eq] at h
      split at h
      · simp at h
      obtain ⟨w, -, h⟩ := Res.bind_eq_ok.1 h
      simp only [Res.ok.injEq] at h; subst h
      exact ⟨rfl, R.compress_length _⟩
    | fixed n =>
      simp only [Run.clientCpaceStrong, clientCpaceStrong_fixed_eq] at h
      split at h
      · simp at h
      split at h
      · obtain ⟨w, -, h⟩ := Res.bind_eq_ok.1 h
        simp only [Res.ok.injEq] at h; subst h
        exact ⟨rfl, R.compress_length _⟩
      · simp at h
  · cases kdb with
    | none =>
      simp only [Run.serverInfo, Server.generateClientInfo] at h
      obtain ⟨⟨⟨p, m'⟩, s'⟩, h1, h⟩ := Res.bind_eq_ok.1 h
      simp only [Res.ok.injEq, Prod.mk.injEq] at h
      obtain ⟨rfl, rfl⟩ := h
      exact ⟨rfl, hg _ _ _ _ _ _ _ _ _ h1⟩
    | some k =>
      simp only [Run.serverInfo, Server.generateClientInfoPartialAug] at h
      split at h
      · obtain ⟨⟨⟨p, m'⟩, s'⟩, h1, h⟩ := Res.bind_eq_ok.1 h
        simp only [Res.ok.injEq, Prod.mk.injEq] at h
        obtain ⟨rfl, rfl⟩ := h
        exact ⟨rfl, hg _ _ _ _ _ _ _ _ _ h1⟩
      · obtain ⟨⟨⟨p, m'⟩, s'⟩, h1, h⟩ := Res.bind_eq_ok.1 h
        simp only [Res.ok.injEq, Prod.mk.injEq] at h
        obtain ⟨rfl, rfl⟩ := h
        exact ⟨rfl, hf _ _ _ _ _ _ _ h1⟩
  · cases kdb with
    | none =>
      simp only [Run.serverInfoStrong, Server.generateClientInfoStrong] at h
      obtain ⟨⟨⟨p, m'⟩, s'⟩, h1, h⟩ := Res.bind_eq_ok.1 h
      simp only [Res.ok.injEq, Prod.mk.injEq] at h
      obtain ⟨rfl, rfl⟩ := h
      exact ⟨rfl, hgs _ _ _ _ _ _ _ _ _ _ h1⟩
    | some k =>
      simp only [Run.serverInfoStrong, Server.generateClientInfoPartialStrong] at h
      split at h
      · obtain ⟨⟨⟨p, m'⟩, s'⟩, h1, h⟩ := Res.bind_eq_ok.1 h
        simp only [Res.ok.injEq, Prod.mk.injEq] at h
        obtain ⟨rfl, rfl⟩ := h
        exact ⟨rfl, hgs _ _ _ _ _ _ _ _ _ _ h1⟩
      · obtain ⟨⟨⟨p, m'⟩, s'⟩, h1, h⟩ := Res.bind_eq_ok.1 h
        simp only [Res.ok.injEq, Prod.mk.injEq] at h
        obtain ⟨rfl, rfl⟩ := h
        exact ⟨rfl, hfs _ _ _ _ _ _ _ _ h1⟩

/-! ## C42: fixed buffer against heap -/

/-- **C42 (registration).** -/
theorem C42_register (n : Nat) (s : σr) (user pass : Bytes) (params : Params) :
    (user.length + pass.length + 1 ≤ n →
      Client.register R Hs rngR n s user pass params =
        Client.registerAlloc R Hs rngR s user pass params ∧
      Client.registerStrong R D Hs rngR n s user pass params =
        Client.registerAllocStrong R D Hs rngR s user pass params) ∧
    (n < user.length + pass.length + 1 →
      Client.register R Hs rngR n s user pass params = .err .usernameOrPasswordTooLong ∧
      Client.registerStrong R D Hs rngR n s user pass params =
        .err .usernameOrPasswordTooLong) := by
  have h1 := register_eq R Hs rngR (.fixed n) s user pass params
  have h2 := register_eq R Hs rngR .alloc s user pass params
  have h3 := registerStrong_eq R D Hs rngR (.fixed n) s user pass params
  have h4 := registerStrong_eq R D Hs rngR .alloc s user pass params
  simp only [Run.register] at h1 h2
  simp only [Run.registerStrong] at h3 h4
  rw [if_pos (show Buf.alloc.fits _ _ from trivial)] at h2 h4
  constructor
  · intro h
    rw [if_pos (show (Buf.fixed n).fits _ _ from h)] at h1 h3
    exact ⟨h1.trans h2.symm, h3.trans h4.symm⟩
  · intro h
    rw [if_neg (show ¬ (Buf.fixed n).fits _ _ from not_le.2 h)] at h1 h3
    exact ⟨h1, h3⟩

/-- **C42 (login).** Plain client. The neutral `X` is refused first. -/
theorem C42_login (n : Nat) (cli : Client.AugLayer) (X : G) (salt : Bytes) (params : Params) :
    (cli.username.length + cli.password.length + 1 ≤ n →
      Client.generateCpace R Hs n cli X salt params =
        Client.generateCpaceAlloc R Hs cli X salt params) ∧
    (n < cli.username.length + cli.password.length + 1 →
      Client.generateCpace R Hs n cli X salt params =
        .err (if X = 0 then .illegalPointError else .usernameOrPasswordTooLong)) := by
  have h1 := clientCpace_eq R Hs (.fixed n) cli X salt params
  have h2 := clientCpace_eq R Hs .alloc cli X salt params
  simp only [Run.clientCpace] at h1 h2
  rw [if_pos (show Buf.alloc.fits _ _ from trivial)] at h2
  constructor
  · intro h
    rw [if_pos (show (Buf.fixed n).fits _ _ from h)] at h1
    exact h1.trans h2.symm
  · intro h
    rw [if_neg (show ¬ (Buf.fixed n).fits _ _ from not_le.2 h)] at h1
    rw [h1]; split <;> rfl

/-- **C42 (strong login).** The two variants agree except on a neutral blinded salt (see C35), which only the
heap variant refuses. -/
theorem C42_login_strong (n : Nat) (cli : Client.StrongAugLayer) (hb : cli.blindingValue ≠ 0)
    (X U : G) (params : Params) :
    (cli.username.length + cli.password.length + 1 ≤ n → U ≠ 0 →
      Client.generateCpaceStrong R Hs n cli X U params =
        Client.generateCpaceStrongAlloc R Hs cli X U params) ∧
    (n < cli.username.length + cli.password.length + 1 →
      Client.generateCpaceStrong R Hs n cli X U params =
        .err (if X = 0 then .illegalPointError else .usernameOrPasswordTooLong)) := by
  rw [clientCpaceStrong_fixed_eq, clientCpaceStrong_alloc_eq]
  constructor
  · intro h hU
    have : cli.blindingValue⁻¹ • U ≠ 0 := by
      rw [Ne, smul_eq_zero]; simp [hb, hU]
    rw [if_pos h]
    simp only [this, or_false]
  · intro h
    rw [if_neg (not_le.2 h)]
    split <;> rfl

/-- Buffer sizes 12 (exactly `alice:secret`) and 11. -/
example : (Client.register Ristretto.toy World.hasher Rng.replay 12 (World.bytes 7 16) World.user
      World.pass ()).isOk = true ∧
    Client.register Ristretto.toy World.hasher Rng.replay 11 (World.bytes 7 16) World.user
      World.pass () = .err .usernameOrPasswordTooLong := by
  refine ⟨by decide +kernel, ((C42_register _ sha512 _ _ _ _ _ _ _).2 ?_).1⟩
  decide +kernel

/-! ## C43: password hashes to scalars -/

/-- **C43.** `scalar_from_hash` by cases; the scalar is the little-endian number reduced modulo the
group order. -/
theorem C43_scalar_from_hash (h : Option Bytes) :
    (scalarFromHash h = .err .hashEmpty ↔ h = none) ∧
    (∀ b, h = some b → (b.length = 32 ∨ b.length = 64) →
      ∃ w, scalarFromHash h = .ok w ∧ ZMod.val w = leToNat b % ell) ∧
    (∀ b, h = some b → b.length ≠ 32 → b.length ≠ 64 →
      scalarFromHash h = .err .hashSizeInvalid) ∧
    scalarFromHash h ≠ .panic := by
  rw [scalarFromHash_eq]
  cases h with
  | none => simp
  | some b =>
    refine ⟨by simp; split <;> simp, ?_, ?_, by simp; split <;> simp⟩
    · intro b' hb' hl
      simp only [Option.some.injEq] at hb'
      subst hb'
      exact ⟨_, if_pos hl, ZMod.val_natCast _ _⟩
    · intro b' hb' h1 h2
      simp only [Option.some.injEq] at hb'
      subst hb'
      simp [h1, h2]

/-- **C43 (errors of the hasher).** Whatever the password hasher answers, registration and login with heap or
sufficient buffer hand it on: an error becomes `PasswordHashing`, a missing hash `HashEmpty`, a hash of
another size `HashSizeInvalid`. -/
theorem C43_login_errors (buf : Buf) (cli : Client.AugLayer) (X : G) (hX : X ≠ 0) (salt : Bytes)
    (params : Params) (hbuf : buf.fits cli.username cli.password) :
    (∀ e, Hs.hash (cli.username ++ [58] ++ cli.password) params salt = .error e →
      Run.clientCpace R Hs buf cli X salt params = .err (.passwordHashing e)) ∧
    (Hs.hash (cli.username ++ [58] ++ cli.password) params salt = .ok none →
      Run.clientCpace R Hs buf cli X salt params = .err .hashEmpty) ∧
    (∀ b, Hs.hash (cli.username ++ [58] ++ cli.password) params salt = .ok (some b) →
      Run.clientCpace R Hs buf cli X salt params =
        if b.length = 32 ∨ b.length = 64 then
          .ok ⟨cli.ssid, R.compress ((leToNat b : Scalar) • X)⟩
        else .err .hashSizeInvalid) := by
  rw [clientCpace_eq, if_neg hX, if_pos hbuf]
  refine ⟨fun e h => ?_, fun h => ?_, fun b h => ?_⟩ <;> simp only [pwScalar, userPass, h] <;>
    try rfl
  split <;> rfl

theorem C43_register_errors (buf : Buf) (s : σr) (user pass : Bytes) (params : Params)
    (hbuf : buf.fits user pass) :
    (∀ e, Hs.hash (user ++ [58] ++ pass) params (Base64.encode (rngR.fill s 16).1) = .error e →
      Run.register R Hs rngR buf s user pass params = .err (.passwordHashing e)) ∧
    (Hs.hash (user ++ [58] ++ pass) params (Base64.encode (rngR.fill s 16).1) = .ok none →
      Run.register R Hs rngR buf s user pass params = .err .hashEmpty) ∧
    (∀ b, Hs.hash (user ++ [58] ++ pass) params (Base64.encode (rngR.fill s 16).1) =
        .ok (some b) → b.length ≠ 32 → b.length ≠ 64 →
      Run.register R Hs rngR buf s user pass params = .err .hashSizeInvalid) ∧
    (∀ b e, Hs.hash (user ++ [58] ++ pass) params (Base64.encode (rngR.fill s 16).1) =
        .ok (some b) → (b.length = 32 ∨ b.length = 64) → Hs.toParamsString params = .error e →
      Run.register R Hs rngR buf s user pass params = .err (.passwordHashing e)) ∧
    (∀ b ps, Hs.hash (user ++ [58] ++ pass) params (Base64.encode (rngR.fill s 16).1) =
        .ok (some b) → (b.length = 32 ∨ b.length = 64) → Hs.toParamsString params = .ok ps →
      Run.register R Hs rngR buf s user pass params =
        .ok (.registration user (Base64.encode (rngR.fill s 16).1) ps
          ((leToNat b : Scalar) • R.base), (rngR.fill s 16).2)) := by
  rw [register_eq, if_pos hbuf]
  refine ⟨fun e h => ?_, fun h => ?_, fun b h h1 h2 => ?_, fun b e h hl he => ?_,
    fun b ps h hl he => ?_⟩ <;> simp only [pwScalar, userPass, h]
  · rfl
  · rfl
  · simp [h1, h2]
  · simp [hl, he, mapPh]
  · simp [hl, he, mapPh]

example : scalarFromHash (some (World.bytes 255 64)) ≠ .err .hashSizeInvalid ∧
    scalarFromHash (some (World.bytes 255 33)) = .err .hashSizeInvalid := by
  refine ⟨?_, (C43_scalar_from_hash _).2.2.1 _ rfl (by decide +kernel) (by decide +kernel)⟩
  obtain ⟨w, h, -⟩ := (C43_scalar_from_hash (some (World.bytes 255 64))).2.1 _ rfl
    (Or.inr (by decide +kernel))
  rw [h]; simp

/-! ## C44: unknown users -/

/-- The substitute salt: first 48 bytes of `H(secret || user)`. -/
def fakeSalt (secret : Nat) (user : Bytes) : Bytes :=
  Base64.encode ((D.hash (leFixed 8 secret ++ user)).take 48)

theorem lookupFailed_eq {ε : Type} (h64 : D.outLen = 64) (srv : Server.AugLayer) (user : Bytes)
    (X : G) (s : σs) :
    (Server.lookupFailed D rngS srv user X s : Res ε _) =
      .ok (((rngS.fill s 32).1, .augmentationInfo groupName X (fakeSalt D srv.secret user) []),
        (rngS.fill s 32).2) := by
  have h1 : slice (D.hash (leFixed 8 srv.secret ++ user)) 0 48 =
      some ((D.hash (leFixed 8 srv.secret ++ user)).take 48) := by
    unfold slice
    rw [if_pos ⟨by omega, by rw [D.hash_length, h64]; omega⟩]
    simp
  have h2 := saltEncode_le (b := (D.hash (leFixed 8 srv.secret ++ user)).take 48) (by simp)
  simp only [Server.lookupFailed, Digest.update, Digest.new, Digest.finalize, List.nil_append, h1, h2,
    Res.unwrap, Res.bind_ok, fakeSalt]

/-- **C44 (answer, plain).** For a user without verifier the answer of either plain variant carries the salt
`fakeSalt secret user` and empty parameters whatever the session, generator state and database are; the
session's password-related string is 32 fresh bytes of the generator. -/
theorem C44_answer (h64 : D.outLen = 64) (srv : Server.AugLayer) (user : Bytes) (db : Database G)
    (kdb : PartialAugDatabase G) (s : σs) (hdb : db.lookupVerifier user = none) :
    (∃ X, Server.generateClientInfo (ε := Error) R D rngS srv user db s =
      .ok (⟨srv.ssid, (rngS.fill (rngS.fill s 64).2 32).1, (rngS.fill (rngS.fill s 64).2 32).2⟩,
        .augmentationInfo groupName X (fakeSalt D srv.secret user) [])) ∧
    (∃ X s', Server.generateClientInfoPartialAug (ε := Error) R D rngS srv user db kdb s =
      .ok (⟨srv.ssid, (rngS.fill s' 32).1, (rngS.fill s' 32).2⟩,
        .augmentationInfo groupName X (fakeSalt D srv.secret user) [])) := by
  constructor
  · refine ⟨draw (rngS.fill s 64).1 • R.base, ?_⟩
    simp only [Server.generateClientInfo, generateServerKeypair_eq, Server.generatePrs, hdb,
      lookupFailed_eq D rngS h64, Res.bind_ok]
  · unfold Server.generateClientInfoPartialAug
    split
    · rename_i x X _
      refine ⟨X, s, ?_⟩
      simp only [Server.generatePrs, hdb, lookupFailed_eq D rngS h64, Res.bind_ok]
    · refine ⟨R.fromUniform (rngS.fill s 64).1, (rngS.fill s 64).2, ?_⟩
      simp only [randomPoint, lookupFailed_eq D rngS h64, Res.bind_ok]

/-- **C44 (answer, strong).** The blinded salt is a fixed multiple, determined by secret and username, of the
client's blinded point. -/
theorem C44_answer_strong (srv : Server.AugLayer) (user : Bytes) (U : G) (db : StrongDatabase G)
    (kdb : Option (PartialAugDatabase G)) (s : σs) (hdb : db.lookupVerifierStrong user = none)
    (st : Server.CPaceSubstep σs) (m : ServerMessage G)
    (h : Run.serverInfoStrong R D rngS db kdb srv user U s = .ok (st, m)) :
    (∃ s', st.prs = (rngS.fill s' 32).1) ∧
    ∃ X, m = .strongAugmentationInfo groupName X
      ((leToNat (D.hash (leFixed 8 srv.secret ++ user)) : Scalar) • U) [] := by
  have key : ∀ X s p m s', Server.lookupFailedStrong D rngS srv user U X s = .ok ((p, m), s') →
      p = (rngS.fill s 32).1 ∧ m = .strongAugmentationInfo groupName X
        ((leToNat (D.hash (leFixed 8 srv.secret ++ user)) : Scalar) • U) [] := by
    intro X s p m s' h
    simp only [Server.lookupFailedStrong, scalarFromHasher, scalarOfBytes, Digest.update, Digest.new,
      Digest.finalize, List.nil_append, mul_one] at h
    split at h
    · simp at h
    · simp only [Res.ok.injEq, Prod.mk.injEq] at h
      exact ⟨h.1.1.symm, h.1.2.symm⟩
  cases kdb with
  | none =>
    simp only [Run.serverInfoStrong, Server.generateClientInfoStrong, generateServerKeypair_eq,
      Server.generatePrsStrong, hdb] at h
    obtain ⟨⟨⟨p, m'⟩, s'⟩, h1, h⟩ := Res.bind_eq_ok.1 h
    simp only [Res.ok.injEq, Prod.mk.injEq] at h
    obtain ⟨rfl, rfl⟩ := h
    have := key _ _ _ _ _ h1
    exact ⟨⟨_, this.1⟩, _, this.2⟩
  | some k =>
    simp only [Run.serverInfoStrong, Server.generateClientInfoPartialStrong] at h
    split at h
    · simp only [Server.generatePrsStrong, hdb] at h
      obtain ⟨⟨⟨p, m'⟩, s'⟩, h1, h⟩ := Res.bind_eq_ok.1 h
      simp only [Res.ok.injEq, Prod.mk.injEq] at h
      obtain ⟨rfl, rfl⟩ := h
      have := key _ _ _ _ _ h1
      exact ⟨⟨_, this.1⟩, _, this.2⟩
    · obtain ⟨⟨⟨p, m'⟩, s'⟩, h1, h⟩ := Res.bind_eq_ok.1 h
      simp only [Res.ok.injEq, Prod.mk.injEq] at h
      obtain ⟨rfl, rfl⟩ := h
      have := key _ _ _ _ _ h1
      exact ⟨⟨_, this.1⟩, _, this.2⟩

/-- **C44 (every session of a server).** The secret is drawn once by `new` and carried unchanged into every
session, however many calls were made before. -/
theorem C44_secret (sv : Server.State σs) (k1 : Nat) (nonce ssid : Bytes) :
    (Server.begin (G := G) rngS k1 sv).2.secret = sv.secret ∧
    (Server.generateLongTermKeypair R rngS sv).2.secret = sv.secret ∧
    (Server.agreeSsid D (Server.begin (G := G) rngS k1 sv).1.1 nonce).secret = sv.secret ∧
    (∀ st, Server.beginPrestablishedSsid D sv ssid = .ok st → st.secret = sv.secret) := by
  refine ⟨rfl, rfl, rfl, fun st h => ?_⟩
  simp only [Server.beginPrestablishedSsid] at h
  split at h
  · simp at h
  · simp only [Res.ok.injEq] at h; subst h; rfl

/-- **C44 (no login).** A whole explicit login for a user without verifier succeeds only if the client's
password-related string is the random string drawn in this session, or a named collision. -/
theorem C44_no_login (h64 : D.outLen = 64) (fromPs : Bytes → Params) (buf : Buf) (db : Database G)
    (user pass : Bytes) (hdb : db.lookupVerifier user = none) (start : Start)
    (hstart : startOk start) (ci : Bytes) (c c' : σc) (sv : Server.State σs) (sr : σs)
    {kc ks : Bytes}
    (hrun : Run.login R D Hs rngC rngS (Run.explicit R D rngC rngS) fromPs buf db none start user
      pass ci c sv sr c' = .ok (kc, ks)) :
    let s1 := (rngS.fill sr 64).2
    ∃ w, pwScalar Hs user pass (fakeSalt D sv.secret user) (fromPs []) = .ok w ∧
      (R.compress ((w * draw (rngS.fill sr 64).1) • R.base) = (rngS.fill s1 32).1 ∨
        ExchangeCollision R D (ssidOf D rngC rngS start c sv) (rngS.fill s1 32).1
          (R.compress ((w * draw (rngS.fill sr 64).1) • R.base)) ci
          (draw (rngS.fill (rngS.fill s1 32).2 64).1) (draw (rngC.fill c' 64).1)) := by
  simp only [Run.login, ssidStage_ok D rngC rngS start c sv hstart, Res.bind_ok, Run.augment,
    Client.startAugmentation, Run.serverInfo, Server.generateClientInfo, generateServerKeypair_eq,
    Server.generatePrs, hdb, lookupFailed_eq D rngS h64, clientCpace_eq] at hrun
  split at hrun
  · simp at hrun
  split at hrun
  · rw [bind_assoc', bind_assoc'] at hrun
    obtain ⟨w, hw, hrun⟩ := Res.bind_eq_ok.1 hrun
    refine ⟨w, hw, ?_⟩
    simp only [Res.bind_ok, prs, smul_smul] at hrun
    have hl := ssidOf_length D rngC rngS h64 start c sv
    rcases explicit_binding R D rngC rngS h64 _ _ ci ci c' hl hl (R.compress_length _)
      (rngS.fill_length _ _) hrun with h | h
    · exact Or.inl h.2.1.symm
    · exact Or.inr h
  · simp at hrun

/-- **C44 (no acceptance, any variant).** For any of the four variants: after the substitute answer the server
accepts a client authenticator only from a client whose password-related string is the session's random
string, or a named collision (this is C36 for the substitute session). -/
theorem C44_no_acceptance (h64 : D.outLen = 64) (srv : Server.CPaceSubstep σs) (s0 : σs)
    (hp : srv.prs = (rngS.fill s0 32).1) (hs : srv.ssid.length = 64)
    (cli : Client.CPaceSubstep) (hsC : cli.ssid.length = 64) (hpC : cli.prs.length = 32)
    (ci ci' : Bytes) (c : σc) {kc ks : Bytes}
    (hrun : Run.explicit R D rngC rngS cli srv ci ci' c = .ok (kc, ks)) :
    let yb := draw (rngC.fill c 64).1
    let ya := draw (rngS.fill srv.rng 64).1
    let KS := ya • yb • gen R D cli.ssid cli.prs ci
    let KC := yb • ya • gen R D srv.ssid srv.prs ci'
    cli.prs = (rngS.fill s0 32).1 ∨
    D.Collision (inp 4 (srv.ssid ++ Spec.sk1 R D srv.ssid KS))
      (inp 4 (cli.ssid ++ Spec.sk1 R D cli.ssid KC)) ∨
    D.Collision (inp 2 (srv.ssid ++ R.compress KS)) (inp 2 (cli.ssid ++ R.compress KC)) ∨
    MapCollision R D (srv.ssid ++ srv.prs ++ ci') (cli.ssid ++ cli.prs ++ ci) := by
  rcases explicit_binding R D rngC rngS h64 cli srv ci ci' c hsC hs hpC
    (by rw [hp]; exact rngS.fill_length _ _) hrun with h | h
  · exact Or.inl (by rw [← hp]; exact h.2.1.symm)
  · exact Or.inr h

/-- An unknown user in the concrete world: the answer is given, the login fails. -/
example : World.db.lookupVerifier (ascii "bob") = none ∧
    Run.login Ristretto.toy sha512 World.hasher Rng.replay Rng.replay
      (Run.explicit Ristretto.toy sha512 Rng.replay Rng.replay) (fun _ => ()) .alloc World.db none
      (.nonces 16) (ascii "bob") World.pass (ascii "ci") (World.bytes 2 100) World.server
      (World.bytes 3 200) (World.bytes 4 100) = .err .mutualAuthFail := by
  decide +kernel

/-! ## C45: can an observer tell whether a user exists? -/

/-- **C45 is false: salt length.** A salt produced by registration has 22 characters, the substitute has 64:
the answer itself tells whether the user exists, for every hash, hasher, group and generator. -/
theorem C45_salt_length_negation (h64 : D.outLen = 64) (buf : Buf) (s s' : σr)
    (user pass salt ps : Bytes) (params : Params) (W : G)
    (hreg : Run.register R Hs rngR buf s user pass params =
      .ok (.registration user salt ps W, s'))
    (secret : Nat) (user' : Bytes) :
    salt.length = 22 ∧ (fakeSalt D secret user').length = 64 := by
  rw [register_eq] at hreg
  split at hreg
  · obtain ⟨w, hw, hreg⟩ := Res.bind_eq_ok.1 hreg
    obtain ⟨ps', _, hreg⟩ := Res.bind_eq_ok.1 hreg
    simp only [Res.ok.injEq, Prod.mk.injEq, ClientMessage.registration.injEq] at hreg
    obtain ⟨⟨-, rfl, -, -⟩, -⟩ := hreg
    constructor
    · rw [Base64.encode_length, rngR.fill_length]
    · rw [fakeSalt, Base64.encode_length, List.length_take, D.hash_length, h64]
      decide
  · simp at hreg

/-- The registration of this theorem exists. -/
example : (match World.reg with
    | .ok (.registration user salt _ _, _) => decide (user = World.user ∧ salt.length = 22)
    | _ => false) = true := by decide +kernel

/-- The observer's decision on an answer. -/
def looksUnknown : ServerMessage G → Bool
  | .augmentationInfo _ _ salt _ => salt.length == 64
  | _ => false

/-- **C45 is false: a perfect distinguisher.** On a database that holds what was registered, the observer
above decides membership correctly for every username, in every session of either plain variant. -/
theorem C45_distinguisher_negation (h64 : D.outLen = 64) (db : Database G)
    (hdb : ∀ user W salt ps, db.lookupVerifier user = some (W, salt, ps) →
      ∃ (buf : Buf) (s s' : σr) (pass : Bytes) (params : Params),
        Run.register R Hs rngR buf s user pass params = .ok (.registration user salt ps W, s'))
    (kdb : Option (PartialAugDatabase G)) (srv : Server.AugLayer) (user : Bytes) (s : σs)
    (hk : ∀ k, kdb = some k → db.lookupVerifier user ≠ none →
      k.lookupLongTermKeypair user ≠ none)
    (st : Server.CPaceSubstep σs) (m : ServerMessage G)
    (h : Run.serverInfo R D rngS db kdb srv user s = .ok (st, m)) :
    looksUnknown m = true ↔ db.lookupVerifier user = none := by
  cases hv : db.lookupVerifier user with
  | none =>
    simp only [iff_true]
    cases kdb with
    | none =>
      obtain ⟨X, h'⟩ := (C44_answer R D rngS h64 srv user db ⟨fun _ => none⟩ s hv).1
      simp only [Run.serverInfo, h', Res.ok.injEq, Prod.mk.injEq] at h
      rw [← h.2]
      simp [looksUnknown, fakeSalt, Base64.encode_length, h64]
    | some k =>
      obtain ⟨X, s', h'⟩ := (C44_answer R D rngS h64 srv user db k s hv).2
      simp only [Run.serverInfo, h', Res.ok.injEq, Prod.mk.injEq] at h
      rw [← h.2]
      simp [looksUnknown, fakeSalt, Base64.encode_length, h64]
  | some v =>
    obtain ⟨W, salt, ps⟩ := v
    obtain ⟨buf, s0, s1, pass, params, hr⟩ := hdb user W salt ps hv
    have hl := (C45_salt_length_negation R D Hs rngR h64 buf s0 s1 user pass salt ps params W hr
      0 []).1
    have hm : ∃ X, m = .augmentationInfo groupName X salt ps := by
      cases kdb with
      | none =>
        simp only [Run.serverInfo, Server.generateClientInfo, generateServerKeypair_eq,
          Server.generatePrs, hv, Res.bind_ok, Res.ok.injEq, Prod.mk.injEq] at h
        exact ⟨_, h.2.symm⟩
      | some k =>
        have hk' := hk k rfl (by rw [hv]; simp)
        simp only [Run.serverInfo, Server.generateClientInfoPartialAug] at h
        split at h
        · simp only [Server.generatePrs, hv, Res.bind_ok, Res.ok.injEq, Prod.mk.injEq] at h
          exact ⟨_, h.2.symm⟩
        · rename_i hn
          exact absurd hn hk'
    obtain ⟨X, rfl⟩ := hm
    simp [looksUnknown, hl]

/-- **C45 is false: partially augmented `X`.** For a registered user `X` is the same in every session; for an
unknown user without stored pair it is a point drawn from the generator. -/
theorem C45_partial_aug_x_negation (h64 : D.outLen = 64) (db : Database G)
    (kdb : PartialAugDatabase G) (user : Bytes) (x : Scalar) (X : G)
    (hk : kdb.lookupLongTermKeypair user = some (x, X)) (user' : Bytes)
    (hk' : kdb.lookupLongTermKeypair user' = none) (srv : Server.AugLayer) (s : σs) :
    (∃ st salt ps, Server.generateClientInfoPartialAug (ε := Error) R D rngS srv user db kdb s =
      .ok (st, .augmentationInfo groupName X salt ps)) ∧
    (∃ st salt ps, Server.generateClientInfoPartialAug (ε := Error) R D rngS srv user' db kdb s =
      .ok (st, .augmentationInfo groupName (R.fromUniform (rngS.fill s 64).1) salt ps)) := by
  constructor
  · simp only [Server.generateClientInfoPartialAug, hk, Server.generatePrs]
    cases db.lookupVerifier user with
    | none => exact ⟨_, _, _, by simp only [lookupFailed_eq D rngS h64, Res.bind_ok]; rfl⟩
    | some v => exact ⟨_, _, _, rfl⟩
  · simp only [Server.generateClientInfoPartialAug, hk', randomPoint]
    exact ⟨_, _, _, by simp only [lookupFailed_eq D rngS h64, Res.bind_ok]; rfl⟩

/-- Two generator states with different `X` exist. -/
example : Ristretto.toy.fromUniform (Rng.replay.fill (World.bytes 1 64) 64).1 ≠
    Ristretto.toy.fromUniform (Rng.replay.fill (World.bytes 2 64) 64).1 := by decide +kernel

/-- **C45, what remains (plain variant).** `X` itself is computed in the same way for known and unknown users:
the same function of the generator state. Missing: everything else of the message (see the negations). -/
theorem C45_plain_x_partial (h64 : D.outLen = 64) (db : Database G) (srv : Server.AugLayer)
    (user : Bytes) (s : σs) :
    ∃ st salt ps, Server.generateClientInfo (ε := Error) R D rngS srv user db s =
      .ok (st, .augmentationInfo groupName (draw (rngS.fill s 64).1 • R.base) salt ps) := by
  simp only [Server.generateClientInfo, generateServerKeypair_eq, Server.generatePrs]
  cases db.lookupVerifier user with
  | none => exact ⟨_, _, _, by simp only [lookupFailed_eq D rngS h64, Res.bind_ok]; rfl⟩
  | some v => exact ⟨_, _, _, rfl⟩

/-- **C45, what remains (strong variant).** The answer for an unknown user is exactly the answer for a user
registered with the exponent `H(secret || user)` and empty parameters. Missing: registered
parameters are in general not empty, which tells the two apart. -/
theorem C45_strong_partial (srv : Server.AugLayer) (user : Bytes) (U : G)
    (db db' : StrongDatabase G) (s : σs) (W : G)
    (hdb : db.lookupVerifierStrong user = none)
    (hdb' : db'.lookupVerifierStrong user =
      some (W, (leToNat (D.hash (leFixed 8 srv.secret ++ user)) : Scalar), [])) :
    (Server.generateClientInfoStrong R D rngS srv user U db s >>= fun r => .ok r.2 :
        Res Error (ServerMessage G)) =
      (Server.generateClientInfoStrong R D rngS srv user U db' s >>= fun r => .ok r.2) := by
  simp only [Server.generateClientInfoStrong, generateServerKeypair_eq, Server.generatePrsStrong, hdb,
    hdb', Server.lookupFailedStrong, scalarFromHasher, scalarOfBytes, Digest.update, Digest.new,
    Digest.finalize, List.nil_append, mul_one]
  split <;> rfl

/-- **C45 is false for the strong variant: parameters.** With non-empty registered parameters the answers
differ, whatever the observer's blinded point is. -/
theorem C45_strong_params_negation (srv : Server.AugLayer) (user user' : Bytes) (U : G)
    (db : StrongDatabase G) (kdb : Option (PartialAugDatabase G)) (s : σs) (W : G) (q : Scalar)
    (ps : Bytes) (hps : ps ≠ []) (hdb : db.lookupVerifierStrong user = some (W, q, ps))
    (hk : ∀ k, kdb = some k → ∃ x, k.lookupLongTermKeypair user = some (x, x • R.base))
    (hdb' : db.lookupVerifierStrong user' = none)
    (st st' : Server.CPaceSubstep σs) (g g' : Bytes) (X X' V V' : G) (p p' : Bytes)
    (h : Run.serverInfoStrong R D rngS db kdb srv user U s =
      .ok (st, .strongAugmentationInfo g X V p))
    (h' : Run.serverInfoStrong R D rngS db kdb srv user' U s =
      .ok (st', .strongAugmentationInfo g' X' V' p')) : p ≠ [] ∧ p' = [] := by
  constructor
  · rw [server_info_strong_eq R D rngS db kdb srv user U s W q ps hdb hk] at h
    split at h
    · simp at h
    · simp only [Res.ok.injEq, Prod.mk.injEq, ServerMessage.strongAugmentationInfo.injEq] at h
      rw [← h.2.2.2.2]; exact hps
  · obtain ⟨-, Z, hm⟩ := C44_answer_strong R D rngS srv user' U db kdb s hdb' _ _ h'
    simp only [ServerMessage.strongAugmentationInfo.injEq] at hm
    exact hm.2.2.2

/-- The hypotheses of C45's theorems are met: `alice` is registered with parameters, `bob` is not, and the server answers
both. -/
example : (match World.regStrong with
      | .ok (.strongRegistration user _ ps W, _) =>
        decide (user = World.user ∧ ps ≠ [] ∧ W ≠ 0) &&
          decide ((World.dbStrong.lookupVerifierStrong user).map (·.2.2) = some ps) | _ => false) = true ∧
    World.dbStrong.lookupVerifierStrong (ascii "bob") = none ∧
    (Run.serverInfoStrong Ristretto.toy sha512 Rng.replay World.dbStrong (some World.kdb) ⟨3, []⟩ World.user 5
      (World.bytes 1 200)).isOk = true ∧
    (Run.serverInfoStrong Ristretto.toy sha512 Rng.replay World.dbStrong (some World.kdb) ⟨3, []⟩ (ascii "bob") 5
      (World.bytes 1 200)).isOk = true ∧
    World.kdb.lookupLongTermKeypair World.user = some (5, 5 • Ristretto.toy.base) := by
  decide +kernel

/-! ## C46: blinding -/

/-- **C46 (hiding).** For a fixed username and two passwords whose points are not neutral, every message sent
for one password with a non-zero blinding value is sent for the other with exactly one non-zero
blinding value: with a uniform blinding value the message is independent of the password. -/
theorem C46_hiding (st : Client.PreAug) (user pass pass' : Bytes) (b : Scalar) (hb : b ≠ 0)
    (hz : strongPoint R D user pass ≠ 0) (hz' : strongPoint R D user pass' ≠ 0) :
    ∃! b', b' ≠ 0 ∧ (Client.startAugmentationStrongWith R D st user pass b).2 =
      (Client.startAugmentationStrongWith R D st user pass' b').2 := by
  simp only [Client.startAugmentationStrongWith, strongPoint_eq, mul_one,
    ClientMessage.strongUsername.injEq, true_and]
  obtain ⟨k, hk⟩ := R.base_generates (strongPoint R D user pass)
  obtain ⟨k', hk'⟩ := R.base_generates (strongPoint R D user pass')
  have h0 : k ≠ 0 := by rintro rfl; exact hz (by rw [hk, zero_smul])
  have h0' : k' ≠ 0 := by rintro rfl; exact hz' (by rw [hk', zero_smul])
  refine ⟨b * k * k'⁻¹, ⟨by simp [hb, h0, h0'], ?_⟩, ?_⟩
  · rw [hk, hk', smul_smul, smul_smul, inv_mul_cancel_right₀ h0']
  · rintro y ⟨-, hy⟩
    rw [hk, hk', smul_smul, smul_smul, smul_base_inj] at hy
    rw [hy, mul_inv_cancel_right₀ h0']

/-- **C46 (salt).** What the client computes from the server's reply does not depend on the blinding value:
with reply `q·(blinded point)` the result is that of blinding value one, in both variants. -/
theorem C46_blinding_cancels (n : Nat) (st : Client.PreAug) (user pass : Bytes) (q r : Scalar)
    (hr : r ≠ 0) (X : G) (params : Params) :
    let cli := (Client.startAugmentationStrongWith R D st user pass r).1
    ∀ U, (Client.startAugmentationStrongWith R D st user pass r).2 = .strongUsername user U →
    Client.generateCpaceStrongAlloc R Hs cli X (q • U) params =
      Client.generateCpaceStrongAlloc R Hs ⟨st.ssid, user, pass, 1⟩ X
        (q • strongPoint R D user pass) params ∧
    Client.generateCpaceStrong R Hs n cli X (q • U) params =
      Client.generateCpaceStrong R Hs n ⟨st.ssid, user, pass, 1⟩ X
        (q • strongPoint R D user pass) params := by
  intro cli U hU
  simp only [Client.startAugmentationStrongWith, strongPoint_eq, mul_one,
    ClientMessage.strongUsername.injEq, true_and] at hU
  subst hU
  have : r⁻¹ • q • r • strongPoint R D user pass = q • strongPoint R D user pass := by
    rw [smul_smul, smul_smul]; congr 1; field_simp
  simp only [clientCpaceStrong_alloc_eq, clientCpaceStrong_fixed_eq, cli,
    Client.startAugmentationStrongWith, this, inv_one, one_smul]
  exact ⟨trivial, trivial⟩

example : strongPoint Ristretto.toy sha512 World.user World.pass ≠ 0 ∧
    strongPoint Ristretto.toy sha512 World.user (ascii "other") ≠ 0 := by decide +kernel

/-! ## C47: hash inputs of strong credentials -/

/-- **C47 is false: no separator.** Moving bytes between the end of the username and the start of the password
does not change the blinded point, for every hash, group and blinding value. -/
theorem C47_concatenation_negation (st : Client.PreAug) (u m p : Bytes) (r : Scalar) :
    ∃ P : G,
      (Client.startAugmentationStrongWith R D st (u ++ m) p r).2 = .strongUsername (u ++ m) P ∧
      (Client.startAugmentationStrongWith R D st u (m ++ p) r).2 = .strongUsername u P := by
  refine ⟨_, rfl, ?_⟩
  simp [Client.startAugmentationStrongWith, strongPoint_eq, strongPoint]

example : ascii "ab" = ascii "a" ++ ascii "b" ∧ (ascii "ab", ascii "c") ≠ (ascii "a", ascii "bc") := by
  decide

/-- **C47 is false: shared role.** The CPace generator of a session and the point of strong credentials use the
same hash role; for username `ssid ++ prs` and password `ci` they are the same point. -/
theorem C47_shared_role_negation (st : Client.PreAug) (s : σc) (ssid prs ci : Bytes) (r : Scalar) :
    ∃ P : G,
      (Client.startAugmentationStrongWith R D st (ssid ++ prs) ci r).2 =
        .strongUsername (ssid ++ prs) (r • P) ∧
      (generateKeypair R D rngC s ssid prs ci).1.2 = draw (rngC.fill s 64).1 • P := by
  refine ⟨gen R D ssid prs ci, ?_, by rw [generateKeypair_eq]⟩
  simp [Client.startAugmentationStrongWith, strongPoint_eq, strongPoint, gen]

/-- **C47, what remains.** For usernames of equal length (in particular for one username) the hash input
determines the credentials. Missing: usernames of different length, and separation from the generator. -/
theorem C47_equal_length_partial (user pass user' pass' : Bytes) (hl : user.length = user'.length)
    (h : Digest.update (Digest.update (H 1) user) pass =
      Digest.update (Digest.update (H 1) user') pass') : user = user' ∧ pass = pass' := by
  simp only [Digest.update, List.append_assoc] at h
  exact append_inj_of_length hl (List.append_cancel_left h)

/-! ## C48: no panic -/

theorem mapPh_no_panic {α : Type} (x : Except PhError α) : mapPh x ≠ .panic := by
  cases x <;> simp [mapPh]

theorem pwScalar_no_panic (user pass salt : Bytes) (params : Params) :
    pwScalar Hs user pass salt params ≠ .panic := by
  unfold pwScalar
  split <;> try simp
  split <;> simp

theorem bind_no_panic {ε α β : Type} {x : Res ε α} {f : α → Res ε β} (hx : x ≠ .panic)
    (hf : ∀ a, f a ≠ .panic) : (x >>= f) ≠ .panic := by
  cases x with
  | ok a => exact hf a
  | err e => simp
  | panic => exact absurd rfl hx

/-- **C48 (client).** No client call panics, whatever its arguments are (`begin`, `agree_ssid`,
`start_augmentation` and `generate_public_key` are total functions in the model: they contain no
operation that can panic). -/
theorem C48_client (h64 : D.outLen = 64) :
    (∀ ssid, Client.beginPrestablishedSsid D ssid ≠ .panic) ∧
    (∀ buf s user pass params, Run.register R Hs rngR buf s user pass params ≠ .panic) ∧
    (∀ buf s user pass params, Run.registerStrong R D Hs rngR buf s user pass params ≠ .panic) ∧
    (∀ buf cli X salt params, Run.clientCpace R Hs buf cli X salt params ≠ .panic) ∧
    (∀ buf cli X U params, Run.clientCpaceStrong R Hs buf cli X U params ≠ .panic) ∧
    (∀ st (Y : G), Client.receiveServerPubkey R D st Y ≠ .panic) ∧
    (∀ st (Y : G), Client.implicitAuth R D st Y ≠ .panic) ∧
    (∀ st t, Client.receiveServerAuthenticator D st t ≠ .panic) := by
  refine ⟨fun ssid => ?_, fun buf s user pass params => ?_, fun buf s user pass params => ?_,
    fun buf cli X salt params => ?_, fun buf cli X U params => ?_, fun st Y => ?_, fun st Y => ?_,
    fun st t => ?_⟩
  · simp only [Client.beginPrestablishedSsid]; split <;> simp
  · rw [register_eq]
    split
    · exact bind_no_panic (pwScalar_no_panic Hs _ _ _ _) fun w => bind_no_panic (mapPh_no_panic _) (by simp)
    · simp
  · rw [registerStrong_eq]
    split
    · exact bind_no_panic (pwScalar_no_panic Hs _ _ _ _) fun w => bind_no_panic (mapPh_no_panic _) (by simp)
    · simp
  · rw [clientCpace_eq]
    split
    · simp
    split
    · exact bind_no_panic (pwScalar_no_panic Hs _ _ _ _) (by simp)
    · simp
  · cases buf with
    | alloc =>
      simp only [Run.clientCpaceStrong, clientCpaceStrong_alloc_eq]
      split
      · simp
      · exact bind_no_panic (pwScalar_no_panic Hs _ _ _ _) (by simp)
    | fixed n =>
      simp only [Run.clientCpaceStrong, clientCpaceStrong_fixed_eq]
      split
      · simp
      split
      · exact bind_no_panic (pwScalar_no_panic Hs _ _ _ _) (by simp)
      · simp
  · rw [receiveServerPubkey_eq R D h64]; split <;> simp
  · rw [client_implicitAuth_eq]; split <;> simp
  · rw [receiveServerAuthenticator_eq]; split <;> simp

/-- **C48 (server).** No server call panics, whatever its arguments and the database are. -/
theorem C48_server (h64 : D.outLen = 64) :
    (∀ (sv : Server.State σs) ssid, Server.beginPrestablishedSsid D sv ssid ≠ .panic) ∧
    (∀ db kdb srv user s, Run.serverInfo R D rngS db kdb srv user s ≠ .panic) ∧
    (∀ db kdb srv user U s, Run.serverInfoStrong R D rngS db kdb srv user U s ≠ .panic) ∧
    (∀ st (Y : G), Server.receiveClientPubkey R D st Y ≠ .panic) ∧
    (∀ st (Y : G), Server.implicitAuth R D st Y ≠ .panic) ∧
    (∀ st t, (Server.receiveClientAuthenticator D st t : Res Error (Bytes × ServerMessage G)) ≠
      .panic) := by
  have hg : ∀ srv user db s x (X : G),
      (Server.generatePrs R D rngS srv user db s x X :
        Res Error ((Bytes × ServerMessage G) × σs)) ≠ .panic := by
    intro srv user db s x X
    unfold Server.generatePrs
    split
    · simp
    · rw [lookupFailed_eq D rngS h64]; simp
  have hfs : ∀ srv user (U X : G) s, Server.lookupFailedStrong D rngS srv user U X s ≠ .panic := by
    intro srv user U X s
    simp only [Server.lookupFailedStrong]
    split <;> simp
  have hgs : ∀ srv user (U : G) db s x X,
      Server.generatePrsStrong R D rngS srv user U db s x X ≠ .panic := by
    intro srv user U db s x X
    simp only [Server.generatePrsStrong]
    split
    · split <;> simp
    · exact hfs _ _ _ _ _
  refine ⟨fun sv ssid => ?_, fun db kdb srv user s => ?_, fun db kdb srv user U s => ?_,
    fun st Y => ?_, fun st Y => ?_, fun st t => ?_⟩
  · simp only [Server.beginPrestablishedSsid]; split <;> simp
  · cases kdb with
    | none => exact bind_no_panic (hg _ _ _ _ _ _) (by simp)
    | some k =>
      simp only [Run.serverInfo, Server.generateClientInfoPartialAug]
      split
      · exact bind_no_panic (hg _ _ _ _ _ _) (by simp)
      · exact bind_no_panic (by rw [lookupFailed_eq D rngS h64]; simp) (by simp)
  · cases kdb with
    | none => exact bind_no_panic (hgs _ _ _ _ _ _ _) (by simp)
    | some k =>
      simp only [Run.serverInfoStrong, Server.generateClientInfoPartialStrong]
      split
      · exact bind_no_panic (hgs _ _ _ _ _ _ _) (by simp)
      · exact bind_no_panic (hfs _ _ _ _ _) (by simp)
  · rw [receiveClientPubkey_eq]; split <;> simp
  · rw [server_implicitAuth_eq]; split <;> simp
  · rw [receiveClientAuthenticator_eq D h64]; split <;> simp

/-- The hash length matters: with a 32-byte hash (excluded by the bound `OutputSize = U64`) the substitute
salt panics, so the theorem is not vacuous about panics. -/
example : (Server.lookupFailed (ε := Error) (G := Scalar) (Digest.toy 32) Rng.replay ⟨0, []⟩ [] 0 []).isPanic =
    true := by decide +kernel

/-! ## C54: values of the protocol -/

/-- **C54 (hash values).** Every hash value of the protocol is the hash of the stated byte string; the index is
a little-endian 32-bit word. -/
theorem C54_hashes (s : σc) (ssid prs ci t n k1 : Bytes) (y : Scalar) (Y : G) :
    computeSsid D n t = D.hash ([0, 0, 0, 0] ++ n ++ t) ∧
    (generateKeypair R D rngC s ssid prs ci).1 =
      (draw (rngC.fill s 64).1,
        draw (rngC.fill s 64).1 • R.fromUniform (D.hash ([1, 0, 0, 0] ++ ssid ++ prs ++ ci))) ∧
    computeFirstSessionKey R D ssid y Y =
      D.hash ([2, 0, 0, 0] ++ ssid ++ R.compress (y • Y)) ∧
    computeAuthenticatorMessages D ssid k1 =
      (D.hash ([3, 0, 0, 0] ++ ssid ++ k1), D.hash ([4, 0, 0, 0] ++ ssid ++ k1)) ∧
    computeSessionKey D ssid k1 = D.hash ([5, 0, 0, 0] ++ ssid ++ k1) := by
  refine ⟨?_, ?_, ?_, ?_, ?_⟩
  · simp [computeSsid_eq, Spec.ssid, Hn, inp]
  · simp [generateKeypair_eq, gen, Hn, inp]
  · simp [computeFirstSessionKey_eq, Spec.sk1, Hn, inp]
  · simp [computeAuthenticatorMessages_eq, ta, tb, Hn, inp]
  · simp [computeSessionKey_eq, sk, Hn, inp]

/-- **C54 (registration and password-related strings).** `W = w B`, the client's string is the encoding of
`w X`, the server's is the encoding of `x W` and `X = x B`. -/
theorem C54_points (buf : Buf) (s s' : σr) (user pass salt ps : Bytes) (params : Params) (W : G)
    (hreg : Run.register R Hs rngR buf s user pass params =
      .ok (.registration user salt ps W, s'))
    (db : Database G) (hdb : db.lookupVerifier user = some (W, salt, ps)) (srv : Server.AugLayer)
    (sr : σs) :
    ∃ w : Scalar, pwScalar Hs user pass salt params = .ok w ∧ W = w • R.base ∧
      mapPh (Hs.toParamsString params) = .ok ps ∧
      (∀ (buf' : Buf) ssid X, X ≠ 0 → buf'.fits user pass →
        Run.clientCpace R Hs buf' ⟨ssid, user, pass⟩ X salt params =
          .ok ⟨ssid, R.compress (w • X)⟩) ∧
      (∃ s2 : σs, Server.generateClientInfo (ε := Error) R D rngS srv user db sr =
        .ok (⟨srv.ssid, R.compress ((draw (rngS.fill sr 64).1 * w) • R.base), s2⟩,
          .augmentationInfo (ascii "ristretto255") (draw (rngS.fill sr 64).1 • R.base) salt ps)) := by
  rw [register_eq] at hreg
  split at hreg
  · obtain ⟨w, hw, hreg⟩ := Res.bind_eq_ok.1 hreg
    obtain ⟨ps', hps', hreg⟩ := Res.bind_eq_ok.1 hreg
    simp only [Res.ok.injEq, Prod.mk.injEq, ClientMessage.registration.injEq] at hreg
    obtain ⟨⟨-, rfl, rfl, rfl⟩, -⟩ := hreg
    refine ⟨w, hw, rfl, hps', fun buf' ssid X hX hb => ?_, ?_⟩
    · rw [clientCpace_eq, if_neg hX, if_pos hb, hw]; rfl
    · refine ⟨(rngS.fill sr 64).2, ?_⟩
      simp only [Server.generateClientInfo, generateServerKeypair_eq, Server.generatePrs, hdb,
        Res.bind_ok, one_mul, smul_smul]
      rfl
  · simp at hreg

/-- The registration of the concrete world succeeds (hypothesis `hreg`), and its database returns it. -/
example : World.reg.isOk = true ∧ (World.db.lookupVerifier World.user).isSome = true := by
  decide +kernel

/-! ## C55: salts -/

/-- **C55.** A salt of at most 48 bytes is encoded in unpadded base64: the result has the characters of the standard
alphabet, is as long as needed, and is the number with the bits of the salt followed by zeros. It decodes to the same
bytes, and parses to itself if there were at least three. A longer salt is refused. -/
theorem C55_salts (b : Bytes) :
    (b.length ≤ 48 → ∃ s, encodeSalt b = .ok s ∧ Base64.decode s = some b ∧
      s.length = (4 * b.length + 2) / 3 ∧ s.length ≤ 64 ∧ (∀ c ∈ s, c ∈ Base64.alphabet) ∧
      Base64.value s = beToNat b * 2 ^ (6 * s.length - 8 * b.length) ∧
      (3 ≤ b.length → Base64.saltParse s = some s)) ∧
    (48 < b.length → encodeSalt b = .err (.passwordHashing .b64Encoding)) := by
  constructor
  · intro h
    have hl : (Base64.encode b).length ≤ 64 := by rw [Base64.encode_length]; omega
    refine ⟨Base64.encode b, by simp [encodeSalt, saltEncode_le h], Base64.decode_encode b,
      Base64.encode_length b, hl, Base64.encode_alphabet b, Base64.value_encode b, fun h3 => ?_⟩
    unfold Base64.saltParse
    rw [if_pos]
    refine ⟨?_, hl, ?_⟩
    · rw [Base64.encode_length]; omega
    · simpa [List.all_eq_true] using Base64.encode_chars b
  · intro h
    simp [encodeSalt, saltEncode_gt h]

/-- **C55 (parsing).** A string parses as a salt exactly if it has 4 to 64 characters of the alphabet for salts, and
then to itself. -/
theorem C55_parse (s t : Bytes) : Base64.saltParse s = some t ↔
    t = s ∧ 4 ≤ s.length ∧ s.length ≤ 64 ∧ ∀ c ∈ s, c ∈ Base64.saltAlphabet := by
  have : (s.all Base64.isSaltChar = true) ↔ ∀ c ∈ s, c ∈ Base64.saltAlphabet := by
    simp only [List.all_eq_true, Base64.isSaltChar_iff]
  unfold Base64.saltParse
  rw [← this]
  split
  · rename_i h
    simp only [Option.some.injEq]
    exact ⟨fun e => ⟨e.symm, h⟩, fun e => e.1.symm⟩
  · rename_i h
    exact ⟨fun e => (nomatch e), fun e => absurd e.2 h⟩

example : Base64.saltParse (ascii "a-b.c/d+") = some (ascii "a-b.c/d+") ∧ Base64.saltParse (ascii "a_bcd") = none := by
  decide +kernel

/-- **C55 (different salts).** Different salts have different encodings. -/
theorem C55_injective (b b' s : Bytes) (h : encodeSalt b = .ok s) (h' : encodeSalt b' = .ok s) :
    b = b' := by
  have key : ∀ x, encodeSalt x = .ok s → Base64.encode x = s := by
    intro x hx
    by_cases hl : x.length ≤ 48
    · simpa [encodeSalt, saltEncode_le hl] using hx
    · simp [encodeSalt, saltEncode_gt (not_le.1 hl)] at hx
  exact Base64.encode_injective ((key _ h).trans (key _ h').symm)

/-- The hypothesis is met for 16 bytes, as `register` encodes them, and different bytes have different encodings. -/
example : (encodeSalt (World.bytes 7 16)).isOk = true ∧ encodeSalt (World.bytes 7 16) ≠ encodeSalt (World.bytes 8 16) := by
  decide +kernel

/-- **C55 (salts of the crate).** All three kinds of salt that aucpace makes (random 16 bytes, encoded point of
32 bytes, substitute of 48 bytes) parse back to themselves. -/
theorem C55_crate_salts (h64 : D.outLen = 64) (s : σr) (P : G) (secret : Nat) (user : Bytes) :
    Base64.saltParse (Base64.encode (rngR.fill s 16).1) = some (Base64.encode (rngR.fill s 16).1) ∧
    Base64.saltParse (Base64.encode (R.compress P)) = some (Base64.encode (R.compress P)) ∧
    Base64.saltParse (fakeSalt D secret user) = some (fakeSalt D secret user) := by
  have key : ∀ b : Bytes, 3 ≤ b.length → b.length ≤ 48 →
      Base64.saltParse (Base64.encode b) = some (Base64.encode b) := by
    intro b h1 h2
    obtain ⟨s, hs, -, -, -, -, -, hp⟩ := (C55_salts b).1 h2
    rw [encodeSalt, saltEncode_le h2] at hs
    simp only [Res.ok.injEq] at hs
    rw [hs]; exact hp h1
  refine ⟨key _ ?_ ?_, key _ ?_ ?_, key _ ?_ ?_⟩ <;>
    simp [rngR.fill_length, R.compress_length, D.hash_length, h64]

example : encodeSalt (World.bytes 0 48) = .ok (World.bytes 65 64) ∧
    encodeSalt (World.bytes 0 49) = .err (.passwordHashing .b64Encoding) := by
  constructor
  · decide +kernel
  · exact (C55_salts _).2 (by decide +kernel)

/-! ## C56: the blinding loop -/

/-- State of the generator after `k` draws of 64 bytes. -/
def afterDraws (s : σr) (k : Nat) : σr := (fun s => (rngR.fill s 64).2)^[k] s

/-- The `k`-th draw. -/
def drawAt (s : σr) (k : Nat) : Scalar := draw (rngR.fill (afterDraws rngR s k) 64).1

/-- **C56.** The loop ends with the first non-zero draw after having consumed exactly the leading zero draws
and that one; it is still running after `fuel` draws exactly when all of them were zero. -/
theorem C56_loop (fuel : Nat) (s : σr) :
    (∀ v s', Client.drawBlinding rngR fuel s = some (v, s') ↔
      ∃ k < fuel, (∀ j < k, drawAt rngR s j = 0) ∧ drawAt rngR s k = v ∧ v ≠ 0 ∧
        s' = afterDraws rngR s (k + 1)) ∧
    (Client.drawBlinding rngR fuel s = none ↔ ∀ j < fuel, drawAt rngR s j = 0) := by
  induction fuel generalizing s with
  | zero => simp [Client.drawBlinding]
  | succ n ih =>
    have h0 : drawAt rngR s 0 = draw (rngR.fill s 64).1 := rfl
    have hS : ∀ k, drawAt rngR (rngR.fill s 64).2 k = drawAt rngR s (k + 1) := fun k => rfl
    have hA : ∀ k, afterDraws rngR (rngR.fill s 64).2 k = afterDraws rngR s (k + 1) := fun k => rfl
    have hd : Client.drawBlinding rngR (n + 1) s =
        if drawAt rngR s 0 ≠ 0 then some (drawAt rngR s 0, afterDraws rngR s 1)
        else Client.drawBlinding rngR n (rngR.fill s 64).2 := rfl
    rw [hd]
    by_cases hz : drawAt rngR s 0 = 0
    · rw [if_neg (not_not.2 hz)]
      constructor
      · intro v s'
        rw [(ih _).1 v s']
        constructor
        · rintro ⟨k, hk, hzs, hv, hne, rfl⟩
          refine ⟨k + 1, by omega, ?_, hv, hne, rfl⟩
          intro j hj
          cases j with
          | zero => exact hz
          | succ j => exact hzs j (by omega)
        · rintro ⟨k, hk, hzs, hv, hne, rfl⟩
          cases k with
          | zero => exact absurd (hv ▸ hz) hne
          | succ k => exact ⟨k, by omega, fun j hj => hzs (j + 1) (by omega), hv, hne, rfl⟩
      · rw [(ih _).2]
        constructor
        · intro h j hj
          cases j with
          | zero => exact hz
          | succ j => exact h j (by omega)
        · intro h j hj
          exact h (j + 1) (by omega)
    · rw [if_pos hz]
      constructor
      · intro v s'
        constructor
        · intro h
          simp only [Option.some.injEq, Prod.mk.injEq] at h
          exact ⟨0, by omega, by simp, h.1, h.1 ▸ hz, h.2.symm⟩
        · rintro ⟨k, hk, hzs, hv, hne, rfl⟩
          cases k with
          | zero => rw [hv]
          | succ k => exact absurd (hzs 0 (by omega)) hz
      · constructor
        · intro h; simp at h
        · intro h; exact absurd (h 0 (by omega)) hz

/-- **C56 (API).** The state handed out by `start_augmentation_strong` holds a non-zero blinding value, which
inversion undoes; the message is the blinded point. -/
theorem C56_nonzero (fuel : Nat) (st : Client.PreAug) (user pass : Bytes) (s s' : σr)
    (cli : Client.StrongAugLayer) (m : ClientMessage G)
    (h : Client.startAugmentationStrong R D rngR fuel st user pass s = some ((cli, m), s')) :
    cli.blindingValue ≠ 0 ∧ cli.blindingValue⁻¹ * cli.blindingValue = 1 ∧
    cli.ssid = st.ssid ∧ cli.username = user ∧ cli.password = pass ∧
    m = .strongUsername user (cli.blindingValue • strongPoint R D user pass) := by
  unfold Client.startAugmentationStrong at h
  cases hd : Client.drawBlinding rngR fuel s with
  | none => rw [hd] at h; simp at h
  | some v =>
    obtain ⟨b, s1⟩ := v
    rw [hd] at h
    obtain ⟨k, -, -, -, hne, -⟩ := ((C56_loop rngR fuel s).1 b s1).1 hd
    simp only [Option.bind_eq_bind, Option.bind_some, Client.startAugmentationStrongWith,
      strongPoint_eq, mul_one, Option.some.injEq, Prod.mk.injEq] at h
    obtain ⟨⟨rfl, rfl⟩, -⟩ := h
    exact ⟨hne, inv_mul_cancel₀ hne, rfl, rfl, rfl, rfl⟩

/-- A stream that starts with two zero draws. -/
example : (Client.drawBlinding Rng.replay 5 (World.bytes 0 128 ++ World.bytes 1 64)).isSome = true ∧
    (Client.drawBlinding Rng.replay 2 (World.bytes 0 128 ++ World.bytes 1 64)) = none := by
  decide +kernel

end
end Verif.Aucpace
