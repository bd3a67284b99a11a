import Verif.Aucpace.PropsMisc
import Verif.Basic.Uniform

/-!
# C58: the randomness of AuCPace

Every random scalar is 64 generator bytes reduced modulo the group order. Public keys and blinded points are therefore
independent of the password, except for the bias of that reduction.
-/

set_option linter.unusedSectionVars false

namespace Verif.Aucpace
open Spec Run

instance : NeZero ell := ⟨by decide +kernel⟩

section
variable {G : Type} [AddCommGroup G] [Module Scalar G] [DecidableEq G] (R : Ristretto G) (D : Digest)

theorem replay_fill {b : Bytes} (h : b.length = 64) : (Rng.replay.fill b 64).1 = b := by
  show (b ++ List.replicate 64 0).take 64 = b
  rw [← h, List.take_left]

/-- Counting the scalars that a non-neutral point sends into a set. -/
theorem smul_card (R : Ristretto G) {P Q : G} (hP : P ≠ 0) (hQ : Q ≠ 0) (T : G → Prop) :
    {x : Scalar | T (x • P)}.ncard = {x : Scalar | T (x • Q)}.ncard := by
  obtain ⟨k, hk⟩ := R.base_generates P
  obtain ⟨m, hm⟩ := R.base_generates Q
  have h0 : k ≠ 0 := by rintro rfl; exact hP (by rw [hk, zero_smul])
  have h0' : m ≠ 0 := by rintro rfl; exact hQ (by rw [hm, zero_smul])
  refine Set.ncard_congr (fun x _ => x * k * m⁻¹) ?_ ?_ ?_
  · intro x hx
    simp only [Set.mem_ofPred_eq] at hx ⊢
    rwa [hm, smul_smul, inv_mul_cancel_right₀ h0', ← smul_smul, ← hk]
  · intro x y _ _ h
    exact mul_right_cancel₀ h0 (mul_right_cancel₀ (inv_ne_zero h0') h)
  · intro y hy
    refine ⟨y * m * k⁻¹, ?_, ?_⟩
    · simp only [Set.mem_ofPred_eq] at hy ⊢
      rwa [hk, smul_smul, inv_mul_cancel_right₀ h0, ← smul_smul, ← hm]
    · rw [inv_mul_cancel_right₀ h0, mul_inv_cancel_right₀ h0']

/-- Counting generator outputs: two conditions on the scalar met by equally many scalars are met by almost equally many
outputs. -/
theorem outputs_close {T T' : Scalar → Prop} (h : {x | T x}.ncard = {x | T' x}.ncard) :
    {b : Bytes | b.length = 64 ∧ T (draw b)}.ncard ≤ {b : Bytes | b.length = 64 ∧ T' (draw b)}.ncard + ell := by
  have h1 := ncard_residues 64 ell T
  have h2 := ncard_residues 64 ell T'
  rw [← h] at h2
  have hle : {x : Scalar | T x}.ncard ≤ ell := by
    have := Set.ncard_le_card {x : Scalar | T x}
    rwa [Nat.card_zmod] at this
  refine h1.2.trans ?_
  rw [add_mul, one_mul]
  exact Nat.add_le_add h2.1 hle

/-- The client's public key message for generator output `b`. -/
theorem client_key_msg (st : Client.CPaceSubstep) (ci : Bytes) {b : Bytes} (h : b.length = 64) :
    (Client.generatePublicKey R D Rng.replay st ci b).1.2 = .publicKey (draw b • gen R D st.ssid st.prs ci) := by
  rw [Client.generatePublicKey, generateKeypair_eq, replay_fill h]

theorem server_key_msg (ssid prs ci : Bytes) {b : Bytes} (h : b.length = 64) :
    (Server.generatePublicKey R D Rng.replay ⟨ssid, prs, b⟩ ci).2 = .publicKey (draw b • gen R D ssid prs ci) := by
  rw [Server.generatePublicKey, generateKeypair_eq, replay_fill h]

/-- **C58 (client key).** For every set `T` of messages and any two sessions (other password, session or channel) whose
generators are not neutral, the numbers of 64-byte generator outputs for which the client's public key message falls
into `T` differ by at most `ell`, out of `2^512`. -/
theorem C58_client (st st' : Client.CPaceSubstep) (ci ci' : Bytes)
    (hg : gen R D st.ssid st.prs ci ≠ 0) (hg' : gen R D st'.ssid st'.prs ci' ≠ 0) (T : Set (ClientMessage G)) :
    {b : Bytes | b.length = 64 ∧ (Client.generatePublicKey R D Rng.replay st ci b).1.2 ∈ T}.ncard ≤
      {b : Bytes | b.length = 64 ∧ (Client.generatePublicKey R D Rng.replay st' ci' b).1.2 ∈ T}.ncard + ell := by
  have he : ∀ (st : Client.CPaceSubstep) ci,
      {b : Bytes | b.length = 64 ∧ (Client.generatePublicKey R D Rng.replay st ci b).1.2 ∈ T} =
      {b : Bytes | b.length = 64 ∧ (fun x => ClientMessage.publicKey (x • gen R D st.ssid st.prs ci) ∈ T) (draw b)} := by
    intro st ci
    ext b
    simp only [Set.mem_ofPred_eq]
    refine and_congr_right fun h => ?_
    rw [client_key_msg R D st ci h]
  rw [he, he]
  exact outputs_close (smul_card R hg hg' (fun P => ClientMessage.publicKey P ∈ T))

/-- **C58 (server key).** The same for the server's public key message. -/
theorem C58_server (ssid prs ci ssid' prs' ci' : Bytes)
    (hg : gen R D ssid prs ci ≠ 0) (hg' : gen R D ssid' prs' ci' ≠ 0) (T : Set (ServerMessage G)) :
    {b : Bytes | b.length = 64 ∧ (Server.generatePublicKey R D Rng.replay ⟨ssid, prs, b⟩ ci).2 ∈ T}.ncard ≤
      {b : Bytes | b.length = 64 ∧ (Server.generatePublicKey R D Rng.replay ⟨ssid', prs', b⟩ ci').2 ∈ T}.ncard + ell := by
  have he : ∀ ssid prs ci,
      {b : Bytes | b.length = 64 ∧ (Server.generatePublicKey R D Rng.replay ⟨ssid, prs, b⟩ ci).2 ∈ T} =
      {b : Bytes | b.length = 64 ∧ (fun x => ServerMessage.publicKey (x • gen R D ssid prs ci) ∈ T) (draw b)} := by
    intro ssid prs ci
    ext b
    simp only [Set.mem_ofPred_eq]
    refine and_congr_right fun h => ?_
    rw [server_key_msg R D ssid prs ci h]
  rw [he, he]
  exact outputs_close (smul_card R hg hg' (fun P => ServerMessage.publicKey P ∈ T))

/-- **C58 (each key).** With a generator that is not neutral every point of the group is the client's public key for
`⌊2^512/ell⌋` or one more of the generator outputs, and the server's as well. -/
theorem C58_each (ssid prs ci : Bytes) (hg : gen R D ssid prs ci ≠ 0) (P : G) :
    ({b : Bytes | b.length = 64 ∧
        (Client.generatePublicKey R D Rng.replay ⟨ssid, prs⟩ ci b).1.2 = .publicKey P}.ncard = 2 ^ 512 / ell ∨
      {b : Bytes | b.length = 64 ∧
        (Client.generatePublicKey R D Rng.replay ⟨ssid, prs⟩ ci b).1.2 = .publicKey P}.ncard = 2 ^ 512 / ell + 1) ∧
    {b : Bytes | b.length = 64 ∧ (Server.generatePublicKey R D Rng.replay ⟨ssid, prs, b⟩ ci).2 = .publicKey P} =
      {b : Bytes | b.length = 64 ∧
        (Client.generatePublicKey R D Rng.replay ⟨ssid, prs⟩ ci b).1.2 = .publicKey P} := by
  obtain ⟨k, hk⟩ := R.base_generates (gen R D ssid prs ci)
  obtain ⟨m, rfl⟩ := R.base_generates P
  have h0 : k ≠ 0 := by rintro rfl; exact hg (by rw [hk, zero_smul])
  have hiff : ∀ x : Scalar, x • gen R D ssid prs ci = m • R.base ↔ x = m * k⁻¹ := by
    intro x
    rw [hk, smul_smul, smul_base_inj, eq_mul_inv_iff_mul_eq₀ h0]
  have he : {b : Bytes | b.length = 64 ∧
        (Client.generatePublicKey R D Rng.replay ⟨ssid, prs⟩ ci b).1.2 = .publicKey (m • R.base)} =
      {b : Bytes | b.length = 64 ∧ (leToNat b : Scalar) = m * k⁻¹} := by
    ext b
    simp only [Set.mem_ofPred_eq]
    refine and_congr_right fun h => ?_
    rw [client_key_msg R D ⟨ssid, prs⟩ ci h, ClientMessage.publicKey.injEq, hiff, draw]
  refine ⟨?_, ?_⟩
  · have hp : (256 : ℕ) ^ 64 = 2 ^ 512 := by decide +kernel
    rw [he, ncard_residue, hp]
    by_cases h : (m * k⁻¹).val < 2 ^ 512 % ell
    · rw [if_pos h]
      exact Or.inr (Eq.refl _)
    · rw [if_neg h, add_zero]
      exact Or.inl (Eq.refl _)
  · ext b
    simp only [Set.mem_ofPred_eq]
    refine and_congr_right fun h => ?_
    rw [client_key_msg R D ⟨ssid, prs⟩ ci h, server_key_msg R D ssid prs ci h, ClientMessage.publicKey.injEq,
      ServerMessage.publicKey.injEq]

/-- **C58 (augmentation key).** The server's ephemeral and long-term key pairs take every value for `⌊2^512/ell⌋` or one
more of the generator outputs. -/
theorem C58_server_keypair (x : Scalar) (sv : Nat) :
    ({b : Bytes | b.length = 64 ∧ (generateServerKeypair R Rng.replay b).1 = (x, x • R.base)}.ncard = 2 ^ 512 / ell ∨
      {b : Bytes | b.length = 64 ∧
        (generateServerKeypair R Rng.replay b).1 = (x, x • R.base)}.ncard = 2 ^ 512 / ell + 1) ∧
    {b : Bytes | b.length = 64 ∧
        (Server.generateLongTermKeypair R Rng.replay ⟨b, sv⟩).1 = (x, x • R.base)} =
      {b : Bytes | b.length = 64 ∧ (generateServerKeypair R Rng.replay b).1 = (x, x • R.base)} := by
  refine ⟨?_, rfl⟩
  have he : {b : Bytes | b.length = 64 ∧ (generateServerKeypair R Rng.replay b).1 = (x, x • R.base)} =
      {b : Bytes | b.length = 64 ∧ (leToNat b : Scalar) = x} := by
    ext b
    simp only [Set.mem_ofPred_eq]
    refine and_congr_right fun h => ?_
    rw [generateServerKeypair_eq, replay_fill h, Prod.mk.injEq, smul_base_inj, and_self, draw]
  have hp : (256 : ℕ) ^ 64 = 2 ^ 512 := by decide +kernel
  rw [he, ncard_residue, hp]
  by_cases h : x.val < 2 ^ 512 % ell
  · rw [if_pos h]
    exact Or.inr (Eq.refl _)
  · rw [if_neg h, add_zero]
    exact Or.inl (Eq.refl _)

theorem strong_msg (st : Client.PreAug) (user pass : Bytes) {b : Bytes} (h : b.length = 64)
    (T : Set (ClientMessage G)) :
    (∃ cli m s, Client.startAugmentationStrong R D Rng.replay 1 st user pass b = some ((cli, m), s) ∧ m ∈ T) ↔
      draw b • strongPoint R D user pass ∈ {P : G | draw b ≠ 0 ∧ ClientMessage.strongUsername user P ∈ T} := by
  have hd : Client.drawBlinding Rng.replay 1 b = if draw b ≠ 0 then some (draw b, (Rng.replay.fill b 64).2) else none := by
    simp only [Client.drawBlinding, randomScalar, replay_fill h, scalarOfBytes, draw]
    rfl
  rw [Client.startAugmentationStrong, hd]
  by_cases h0 : draw b = 0
  · simp [h0]
  · simp only [ne_eq, h0, not_false_eq_true, if_true, Option.bind_eq_bind, Option.bind_some,
      Client.startAugmentationStrongWith, strongPoint_eq, mul_one, Option.some.injEq, Prod.mk.injEq,
      Set.mem_ofPred_eq, true_and]
    constructor
    · rintro ⟨cli, m, s, ⟨⟨rfl, rfl⟩, rfl⟩, hm⟩; exact hm
    · intro hm; exact ⟨_, _, _, ⟨⟨rfl, rfl⟩, rfl⟩, hm⟩

/-- **C58 (blinding).** For every set `T` of messages and two passwords of a user whose points are not neutral, the
numbers of generator outputs for which the strong protocol's first message is sent at the first draw and falls into `T`
differ by at most `ell`. -/
theorem C58_blinded (st st' : Client.PreAug) (user pass pass' : Bytes)
    (hz : strongPoint R D user pass ≠ 0) (hz' : strongPoint R D user pass' ≠ 0) (T : Set (ClientMessage G)) :
    {b : Bytes | b.length = 64 ∧ ∃ cli m s,
        Client.startAugmentationStrong R D Rng.replay 1 st user pass b = some ((cli, m), s) ∧ m ∈ T}.ncard ≤
      {b : Bytes | b.length = 64 ∧ ∃ cli m s,
        Client.startAugmentationStrong R D Rng.replay 1 st' user pass' b = some ((cli, m), s) ∧ m ∈ T}.ncard + ell := by
  have he : ∀ (st : Client.PreAug) pass, strongPoint R D user pass ≠ 0 →
      {b : Bytes | b.length = 64 ∧ ∃ cli m s,
        Client.startAugmentationStrong R D Rng.replay 1 st user pass b = some ((cli, m), s) ∧ m ∈ T} =
      {b : Bytes | b.length = 64 ∧ (fun x : Scalar => x • strongPoint R D user pass ≠ 0 ∧
        ClientMessage.strongUsername user (x • strongPoint R D user pass) ∈ T) (draw b)} := by
    intro st pass hz
    ext b
    simp only [Set.mem_ofPred_eq]
    refine and_congr_right fun h => ?_
    rw [strong_msg R D st user pass h T, Set.mem_ofPred_eq]
    refine and_congr_left fun _ => ?_
    rw [ne_eq, ne_eq, smul_eq_zero, or_iff_left hz]
  rw [he st pass hz, he st' pass' hz']
  exact outputs_close (smul_card R hz hz' (fun P => P ≠ 0 ∧ ClientMessage.strongUsername user P ∈ T))

/-- **C58 (neutral generator).** The hypothesis is needed: with a neutral generator the public key is always neutral. -/
theorem C58_neutral {σ : Type} (rng : Rng σ) (s : σ) (ssid prs ci : Bytes) (hg : gen R D ssid prs ci = 0) :
    (Client.generatePublicKey R D rng ⟨ssid, prs⟩ ci s).1.2 = .publicKey 0 ∧
    (Server.generatePublicKey R D rng ⟨ssid, prs, s⟩ ci).2 = .publicKey 0 := by
  rw [Client.generatePublicKey, Server.generatePublicKey, generateKeypair_eq, hg, smul_zero]
  exact ⟨rfl, rfl⟩

end

/-- Two sessions with generators that are not neutral, and two passwords with points that are not neutral. -/
example : gen Ristretto.toy sha512 (World.bytes 1 64) (World.bytes 2 32) (ascii "ci") ≠ 0 ∧
    gen Ristretto.toy sha512 (World.bytes 1 64) (World.bytes 3 32) (ascii "ci") ≠ 0 ∧
    strongPoint Ristretto.toy sha512 World.user World.pass ≠ 0 ∧
    strongPoint Ristretto.toy sha512 World.user (ascii "other") ≠ 0 := by
  decide +kernel

end Verif.Aucpace
