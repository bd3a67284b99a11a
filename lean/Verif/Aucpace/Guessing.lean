import Verif.OneGuess
import Verif.Basic.Game
import Verif.Aucpace.Passive

/-!
# C84: how often an active attacker can log in

The password, and with it the verifier in the server's database, is one of the candidates `S`. An attacker without any
bound on its computations runs `n` sessions with the server one after the other, adapts to the keys and the outcomes of
the earlier ones, and chooses even the SSIDs, the channel identifiers and the randomness of `x`. Counting candidates and
the 64-byte generator outputs from which the server's CPace keys are drawn, at most `n` in `S.card` of all cases contain
an accepted session, apart from the bias of the draw and from cases that name a failure of a hash. The server answers an
authenticator with one bit, so one session excludes one candidate; `C84_attained` shows that this is all an attacker
needs for the bound. The client has no such property: it sends its authenticator first, and whoever can take discrete
logarithms finds the password from it.
-/

namespace Verif.Aucpace
open Spec Run Game

variable {G : Type} [AddCommGroup G] [Module Scalar G] [DecidableEq G] (R : Ristretto G) (D : Digest) {ι : Type}

/-- An attacker. Before a session it chooses the SSID, the channel identifier, the bytes from which the server draws `x`
(none if `x` is the long-term key) and, in the strong variants, the blinded point; then it sees the server's public key
and answers with its own and with an authenticator (or, with implicit authentication, its guess of the session key). -/
structure Attacker (G : Type) where
  ssid : Hist G → Bytes
  ci : Hist G → Bytes
  pre : Hist G → Bytes
  blinded : Hist G → G
  answer : Hist G → G → G × Bytes

/-- The server from its CPace substep on: its public key and whether it accepts the answer. -/
def finishSession (explicit : Bool) (A : Attacker G) (h : Hist G) (srv : Server.CPaceSubstep Bytes) : G × Bool :=
  match Server.generatePublicKey R D Rng.replay srv (A.ci h) with
  | (st, .publicKey Y) =>
    let (P, t) := A.answer h Y
    if explicit then
      match Server.receiveClientPubkey R D st P with
      | .ok au => (Y, (Server.receiveClientAuthenticator D au t : Res Error (Bytes × ServerMessage G)).isOk)
      | _ => (Y, false)
    else
      match Server.implicitAuth R D st P with
      | .ok k => (Y, decide (k = t))
      | _ => (Y, false)
  | _ => (0, false)

/-- A session with a server of the plain (`kdb = none`) or partially augmented protocol that draws its CPace key from
`b`: `generate_client_info`, `generate_public_key`, `receive_client_pubkey`, `receive_client_authenticator` (or
`implicit_auth`). -/
def session (explicit : Bool) (db : Database G) (kdb : Option (PartialAugDatabase G)) (secret : Nat) (user : Bytes)
    (A : Attacker G) (h : Hist G) (b : Bytes) : G × Bool :=
  match serverInfo R D Rng.replay db kdb ⟨secret, A.ssid h⟩ user (A.pre h ++ b) with
  | .ok (srv, _) => finishSession R D explicit A h srv
  | _ => (0, false)

/-- The same for the strong variants. -/
def sessionStrong (explicit : Bool) (db : StrongDatabase G) (kdb : Option (PartialAugDatabase G)) (secret : Nat)
    (user : Bytes) (A : Attacker G) (h : Hist G) (b : Bytes) : G × Bool :=
  match serverInfoStrong R D Rng.replay db kdb ⟨secret, A.ssid h⟩ user (A.blinded h) (A.pre h ++ b) with
  | .ok (srv, _) => finishSession R D explicit A h srv
  | _ => (0, false)

/-- What can go wrong in a session with draw `b`: a scalar or a generator is zero, or the hashes fail to tell the
candidate from another one that sends the same key. -/
def Exceptional (explicit : Bool) (S : Finset ι) (V : ι → G) (kdb : Option (PartialAugDatabase G)) (user : Bytes)
    (A : Attacker G) (w : ι) (h : Hist G) (b : Bytes) : Prop :=
  let x := (serverX Rng.replay kdb user (A.pre h)).1
  let prs := fun w => R.compress (x • V w)
  let g := fun w => gen R D (A.ssid h) (prs w) (A.ci h)
  let Y := draw b • g w
  x = 0 ∨ g w = 0 ∨ draw b = 0 ∨ ∃ w' ∈ S, w' ≠ w ∧ ∃ y', y' • g w' = Y ∧
    GuessCollision R D (if explicit then 4 else 5) (A.ssid h) (prs w) (prs w') (A.ci h) (draw b) y' (A.answer h Y).1

omit [DecidableEq G] in
/-- The group has at most `ell` elements. -/
theorem group_finite (R : Ristretto G) : Finite G ∧ Nat.card G ≤ ell := by
  have hs : Function.Surjective fun c : Scalar => c • R.base := fun P => by
    obtain ⟨k, hk⟩ := R.base_generates P
    exact ⟨k, hk.symm⟩
  have : Finite G := Finite.of_surjective _ hs
  refine ⟨this, (Nat.card_le_card_of_surjective _ hs).trans ?_⟩
  rw [Scalar, Nat.card_zmod]

/-- The same as functions of the scalar. -/
def outR (explicit : Bool) (V : ι → G) (kdb : Option (PartialAugDatabase G)) (user : Bytes) (A : Attacker G) (w : ι)
    (h : Hist G) (c : Scalar) : G × Bool :=
  let Y := c • gen R D (A.ssid h) (R.compress ((serverX Rng.replay kdb user (A.pre h)).1 • V w)) (A.ci h)
  let K := Spec.sk1 R D (A.ssid h) (c • (A.answer h Y).1)
  (Y, decide ((A.answer h Y).1 ≠ 0 ∧ (if explicit then tb D (A.ssid h) K else sk D (A.ssid h) K) = (A.answer h Y).2))

theorem finishSession_eq (h64 : D.outLen = 64) (explicit : Bool) (A : Attacker G) (h : Hist G) (V : ι → G)
    (kdb : Option (PartialAugDatabase G)) (user : Bytes) (w : ι) {b : Bytes} (hb : b.length = 64) :
    finishSession R D explicit A h
      ⟨A.ssid h, R.compress ((serverX Rng.replay kdb user (A.pre h)).1 • V w), b⟩ =
      outR R D explicit V kdb user A w h (draw b) := by
  rw [finishSession, server_generatePublicKey_eq]
  simp only [replay_fill hb, receiveClientPubkey_eq, server_implicitAuth_eq, outR]
  cases explicit
  · simp only [Bool.false_eq_true, if_false]
    split_ifs with h0
    · simp [h0]
    · simp [h0]
  · simp only [if_true]
    by_cases h0 : (A.answer h (draw b • gen R D (A.ssid h)
      (R.compress ((serverX Rng.replay kdb user (A.pre h)).1 • V w)) (A.ci h))).1 = 0
    · simp [h0]
    · simp only [if_neg h0, receiveClientAuthenticator_eq D h64]
      split_ifs with h1
      · simp [h0, h1]
      · simp [h1]

theorem bound (h64 : D.outLen = 64) (explicit : Bool) {n : Nat} (S : Finset ι) (V : ι → G)
    (hV : ∀ w ∈ S, ∀ w' ∈ S, V w = V w' → w = w')
    (kdb : Option (PartialAugDatabase G)) (user : Bytes) (A : Attacker G) (out : ι → Hist G → Bytes → G × Bool)
    (hout : ∀ w ∈ S, ∀ h b, b.length = 64 → out w h b = finishSession R D explicit A h
      ⟨A.ssid h, R.compress ((serverX Rng.replay kdb user (A.pre h)).1 • V w), b⟩) :
    {p : ι × (Fin n → Bytes) | p.1 ∈ S ∧ (∀ i, (p.2 i).length = 64) ∧ ∃ i, accepts (out p.1) p.2 i}.ncard ≤
      n * (2 ^ 512 + ell) ^ n +
      {p : ι × (Fin n → Bytes) | p.1 ∈ S ∧ (∀ i, (p.2 i).length = 64) ∧ ∃ i : Fin n,
        Exceptional R D explicit S V kdb user A p.1 (before (out p.1) p.2 i) (p.2 i)}.ncard := by
  have hp : (256 : ℕ) ^ 64 = 2 ^ 512 := by decide +kernel
  obtain ⟨hf, hc⟩ := group_finite R
  let E : ι → Hist G → Scalar → Prop := fun w h c =>
    let x := (serverX Rng.replay kdb user (A.pre h)).1
    let prs := fun w => R.compress (x • V w)
    let g := fun w => gen R D (A.ssid h) (prs w) (A.ci h)
    let Y := c • g w
    x = 0 ∨ g w = 0 ∨ c = 0 ∨ ∃ w' ∈ S, w' ≠ w ∧ ∃ y', y' • g w' = Y ∧
      GuessCollision R D (if explicit then 4 else 5) (A.ssid h) (prs w) (prs w') (A.ci h) c y' (A.answer h Y).1
  have := card_wins (m := ell) (n := n) (k := 64) S out (outR R D explicit V kdb user A)
    (fun w hw h b hb => by rw [hout w hw h b hb, finishSession_eq R D h64 explicit A h V kdb user w hb]; rfl)
    E Set.univ Set.finite_univ (by rw [Set.ncard_univ]; exact hc) (fun _ _ _ _ => trivial) ?_ ?_
  · rw [hp] at this
    exact this
  · intro w _ h c c' he _ heq
    simp only [E, not_or] at he
    simp only [outR] at heq
    exact smul_right_cancel_ne he.2.1 heq
  · intro w hw w' hw' h c c' he he' heq ha ha'
    simp only [E, not_or, not_exists, not_and] at he
    simp only [outR, decide_eq_true_eq] at heq ha ha'
    obtain ⟨hx, hg, hc0, hcol⟩ := he
    by_contra hne
    refine hcol w' hw' (Ne.symm hne) c' heq.symm ?_
    rw [← heq] at ha'
    have hY : c • gen R D (A.ssid h) (R.compress ((serverX Rng.replay kdb user (A.pre h)).1 • V w)) (A.ci h) ≠ 0 :=
      smul_ne_zero hc0 hg
    have hprs : R.compress ((serverX Rng.replay kdb user (A.pre h)).1 • V w) ≠
        R.compress ((serverX Rng.replay kdb user (A.pre h)).1 • V w') := by
      intro e
      rw [R.compress_inj] at e
      exact hne (hV w hw w' hw' (smul_left_cancel_ne hx e))
    have key : ∀ nn : UInt8, Hn D nn (A.ssid h ++ Spec.sk1 R D (A.ssid h) (c • (A.answer h (c • gen R D (A.ssid h)
        (R.compress ((serverX Rng.replay kdb user (A.pre h)).1 • V w)) (A.ci h))).1)) =
        Hn D nn (A.ssid h ++ Spec.sk1 R D (A.ssid h) (c' • (A.answer h (c • gen R D (A.ssid h)
        (R.compress ((serverX Rng.replay kdb user (A.pre h)).1 • V w)) (A.ci h))).1)) →
        GuessCollision R D nn (A.ssid h) (R.compress ((serverX Rng.replay kdb user (A.pre h)).1 • V w))
          (R.compress ((serverX Rng.replay kdb user (A.pre h)).1 • V w')) (A.ci h) c c' (A.answer h (c • gen R D
          (A.ssid h) (R.compress ((serverX Rng.replay kdb user (A.pre h)).1 • V w)) (A.ci h))).1 := fun nn he =>
      (one_guess R D nn (R.compress_length _) (R.compress_length _) hY ha.1 rfl heq.symm he).resolve_left hprs
    cases explicit
    · simp only [Bool.false_eq_true, if_false] at ha ha' ⊢
      exact key 5 (ha.2.trans ha'.2.symm)
    · simp only [if_true] at ha ha' ⊢
      exact key 4 (ha.2.trans ha'.2.symm)

/-- **C84 (server).** Candidates with different verifiers and the same public salt and parameters, any attacker and `n`
sessions: of the `S.card * 2^(512*n)` pairs of a candidate and generator outputs at most `n * (2^512 + ell)^n` and the
exceptional ones contain a session in which the server accepts the attacker (`explicit`), or in which the attacker names
the server's session key. -/
theorem C84_server (h64 : D.outLen = 64) (explicit : Bool) {n : Nat} (S : Finset ι) (V : ι → G)
    (hV : ∀ w ∈ S, ∀ w' ∈ S, V w = V w' → w = w') (db : ι → Database G) (kdb : Option (PartialAugDatabase G))
    (secret : Nat) (user salt ps : Bytes) (hdb : ∀ w ∈ S, (db w).lookupVerifier user = some (V w, salt, ps))
    (hk : ∀ k, kdb = some k → ∃ x, k.lookupLongTermKeypair user = some (x, x • R.base))
    (A : Attacker G) (hpre : ∀ h, (A.pre h).length = preLen kdb) :
    {p : ι × (Fin n → Bytes) | p.1 ∈ S ∧ (∀ i, (p.2 i).length = 64) ∧
        ∃ i, accepts (session R D explicit (db p.1) kdb secret user A) p.2 i}.ncard ≤
      n * (2 ^ 512 + ell) ^ n +
      {p : ι × (Fin n → Bytes) | p.1 ∈ S ∧ (∀ i, (p.2 i).length = 64) ∧ ∃ i : Fin n,
        Exceptional R D explicit S V kdb user A p.1
          (before (session R D explicit (db p.1) kdb secret user A) p.2 i) (p.2 i)}.ncard := by
  refine bound R D h64 explicit S V hV kdb user A (fun w => session R D explicit (db w) kdb secret user A) ?_
  intro w hw h b hb
  simp only [session]
  rw [server_info_eq R D Rng.replay (db w) kdb _ user _ (V w) salt ps (hdb w hw) hk, serverX_replay kdb user (hpre h)]

/-- **C84 (server, strong variants).** The same with the secret exponent `q` and blinded points that are not neutral. -/
theorem C84_server_strong (h64 : D.outLen = 64) (explicit : Bool) {n : Nat} (S : Finset ι) (V : ι → G)
    (hV : ∀ w ∈ S, ∀ w' ∈ S, V w = V w' → w = w') (db : ι → StrongDatabase G) (kdb : Option (PartialAugDatabase G))
    (secret : Nat) (user ps : Bytes) (q : Scalar) (hq : q ≠ 0)
    (hdb : ∀ w ∈ S, (db w).lookupVerifierStrong user = some (V w, q, ps))
    (hk : ∀ k, kdb = some k → ∃ x, k.lookupLongTermKeypair user = some (x, x • R.base))
    (A : Attacker G) (hU : ∀ h, A.blinded h ≠ 0) (hpre : ∀ h, (A.pre h).length = preLen kdb) :
    {p : ι × (Fin n → Bytes) | p.1 ∈ S ∧ (∀ i, (p.2 i).length = 64) ∧
        ∃ i, accepts (sessionStrong R D explicit (db p.1) kdb secret user A) p.2 i}.ncard ≤
      n * (2 ^ 512 + ell) ^ n +
      {p : ι × (Fin n → Bytes) | p.1 ∈ S ∧ (∀ i, (p.2 i).length = 64) ∧ ∃ i : Fin n,
        Exceptional R D explicit S V kdb user A p.1
          (before (sessionStrong R D explicit (db p.1) kdb secret user A) p.2 i) (p.2 i)}.ncard := by
  refine bound R D h64 explicit S V hV kdb user A (fun w => sessionStrong R D explicit (db w) kdb secret user A) ?_
  intro w hw h b hb
  simp only [sessionStrong]
  rw [server_info_strong_eq R D Rng.replay (db w) kdb _ user _ _ (V w) q ps (hdb w hw) hk,
    serverX_replay kdb user (hpre h), if_neg (smul_ne_zero hq (hU h))]

/-- The attacker that tries the candidates `guess 0`, `guess 1`, …: it sends the generator of its guess as its public key;
then the shared point is the server's public key. -/
def guesser (V : ι → G) (guess : Nat → ι) (ssid ci pre : Bytes) (kdb : Option (PartialAugDatabase G)) (user : Bytes) :
    Attacker G where
  ssid _ := ssid
  ci _ := ci
  pre _ := pre
  blinded _ := R.base
  answer h Y := (gen R D ssid (R.compress ((serverX Rng.replay kdb user pre).1 • V (guess h.length))) ci,
    tb D ssid (Spec.sk1 R D ssid Y))

/-- **C84 (attained).** The attacker that tries `n` different candidates is accepted for every generator output whenever
the right one is among them, so in `n * 2^(512*n)` of the cases at least. -/
theorem C84_attained (h64 : D.outLen = 64) {n : Nat} (V : ι → G) (db : ι → Database G)
    (kdb : Option (PartialAugDatabase G)) (secret : Nat) (user salt ps : Bytes) (guess : Nat → ι) (ssid ci pre : Bytes)
    (hdb : ∀ i < n, (db (guess i)).lookupVerifier user = some (V (guess i), salt, ps))
    (hk : ∀ k, kdb = some k → ∃ x, k.lookupLongTermKeypair user = some (x, x • R.base))
    (hpre : pre.length = preLen kdb)
    (hg : ∀ i < n, gen R D ssid (R.compress ((serverX Rng.replay kdb user pre).1 • V (guess i))) ci ≠ 0)
    (i : Fin n) (b : Fin n → Bytes) (hb : (b i).length = 64) :
    accepts (session R D true (db (guess i)) kdb secret user (guesser R D V guess ssid ci pre kdb user)) b i := by
  rw [accepts]
  have hl := length_before (session R D true (db (guess i)) kdb secret user (guesser R D V guess ssid ci pre kdb user)) b i
    i.2.le
  generalize before (session R D true (db (guess i)) kdb secret user (guesser R D V guess ssid ci pre kdb user)) b i = h at hl ⊢
  rw [session, server_info_eq R D Rng.replay (db (guess i)) kdb _ user _ (V (guess i)) salt ps (hdb i i.2) hk]
  simp only [guesser]
  rw [serverX_replay kdb user hpre]
  have := finishSession_eq R D h64 true (guesser R D V guess ssid ci pre kdb user) h V kdb user (guess i) hb
  simp only [guesser] at this
  rw [this]
  simp only [outR, if_true, hl, decide_eq_true_eq, and_true]
  exact hg i i.2

/-- **C84 (attained, counted).** With `n` different candidates to try the attacker is accepted in at least
`n * 2^(512*n)` of the cases. -/
theorem C84_attained_count (h64 : D.outLen = 64) {n : Nat} (S : Finset ι) (V : ι → G) (db : ι → Database G)
    (kdb : Option (PartialAugDatabase G)) (secret : Nat) (user salt ps : Bytes) (guess : Nat → ι) (ssid ci pre : Bytes)
    (hS : ∀ i < n, guess i ∈ S) (hinj : ∀ i < n, ∀ j < n, guess i = guess j → i = j)
    (hdb : ∀ i < n, (db (guess i)).lookupVerifier user = some (V (guess i), salt, ps))
    (hk : ∀ k, kdb = some k → ∃ x, k.lookupLongTermKeypair user = some (x, x • R.base))
    (hpre : pre.length = preLen kdb)
    (hg : ∀ i < n, gen R D ssid (R.compress ((serverX Rng.replay kdb user pre).1 • V (guess i))) ci ≠ 0) :
    n * (2 ^ 512) ^ n ≤ {p : ι × (Fin n → Bytes) | p.1 ∈ S ∧ (∀ i, (p.2 i).length = 64) ∧ ∃ i,
      accepts (session R D true (db p.1) kdb secret user (guesser R D V guess ssid ci pre kdb user)) p.2 i}.ncard := by
  classical
  have hp : (256 : ℕ) ^ 64 = 2 ^ 512 := by decide +kernel
  have hpos : 0 < ((256 : ℕ) ^ 64) ^ n := Nat.pow_pos (Nat.pow_pos (by decide))
  have hfo : {b : Fin n → Bytes | ∀ i, (b i).length = 64}.Finite := by
    refine Set.finite_of_ncard_pos ?_
    rw [ncard_outputs n 64]
    exact hpos
  have hc : ((((Finset.range n).image guess : Finset ι) : Set ι) ×ˢ {b : Fin n → Bytes | ∀ i, (b i).length = 64}).ncard =
      n * (2 ^ 512) ^ n := by
    rw [Set.ncard_prod, Set.ncard_coe_finset, ncard_outputs, hp, Finset.card_image_of_injOn, Finset.card_range]
    intro i hi j hj h
    rw [Finset.mem_coe, Finset.mem_range] at hi hj
    exact hinj i hi j hj h
  rw [← hc]
  refine Set.ncard_le_ncard ?_ ((S.finite_toSet.prod hfo).subset fun p hp => ⟨hp.1, hp.2.1⟩)
  rintro ⟨w, b⟩ ⟨hw, hb⟩
  rw [Finset.mem_coe, Finset.mem_image] at hw
  obtain ⟨i, hi, rfl⟩ := hw
  rw [Finset.mem_range] at hi
  exact ⟨hS i hi, hb, ⟨i, hi⟩, C84_attained R D h64 V db kdb secret user salt ps guess ssid ci pre hdb hk hpre hg ⟨i, hi⟩ b
    (hb _)⟩

/-- **C84 (zero draws).** The exceptional cases in which the server draws the scalar zero are few: of the
`S.card * 2^(512*n)` cases at most about `n * S.card * 2^(512*n) / ell`. -/
theorem C84_zero_draws {n : Nat} (S : Finset ι) :
    {p : ι × (Fin n → Bytes) | p.1 ∈ S ∧ (∀ i, (p.2 i).length = 64) ∧ ∃ i, draw (p.2 i) = 0}.ncard ≤
      (2 ^ 512 / ell + 1) ^ n * (S.card * (n * ell ^ (n - 1))) := by
  have hp : (256 : ℕ) ^ 64 = 2 ^ 512 := by decide +kernel
  rw [← hp]
  exact card_zero (m := ell) n 64 S

/-- A case that meets the hypotheses, those of `C84_attained_count` included: the scalars as group, SHA-512, candidates
`0 … 9` with the verifiers `1 … 10`, and an attacker that tries seven of them. -/
example : ∃ (S : Finset Nat) (V : Nat → Scalar) (db : Nat → Database Scalar) (user salt ps ssid ci pre : Bytes),
    S.card = 10 ∧ sha512.outLen = 64 ∧ (∀ w ∈ S, ∀ w' ∈ S, V w = V w' → w = w') ∧
    (∀ w ∈ S, (db w).lookupVerifier user = some (V w, salt, ps)) ∧
    (∀ h, ((guesser Ristretto.toy sha512 V id ssid ci pre none user).pre h).length =
      preLen (none : Option (PartialAugDatabase Scalar))) ∧
    (∀ i < 7, id i ∈ S) ∧
    (∀ i < 7, gen Ristretto.toy sha512 ssid (Ristretto.toy.compress ((serverX (G := Scalar) Rng.replay none user pre).1 •
      V (id i))) ci ≠ 0) := by
  refine ⟨Finset.range 10, fun w => (w + 1 : ℕ), fun w => ⟨fun _ => some ((w + 1 : ℕ), [], [])⟩, World.user, [], [],
    World.bytes 0 64, ascii "ci", World.bytes 3 64, rfl, rfl, by decide +kernel, fun _ _ => rfl, fun _ => rfl,
    by decide, by decide +kernel⟩

end Verif.Aucpace
