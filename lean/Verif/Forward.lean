import Verif.Replay
import Verif.Contribute

/-!
# C77: who can compute keys of past sessions can solve Diffie-Hellman

The attacker is a function `F` of the public values of an honest session that may have the password, the verifier and all
other long-term values built in (they were leaked later). From `F` alone, without the private values of the session, a function
is made that solves the Diffie-Hellman problem whenever `F` finds the key. How hard that problem is, is not modelled.
-/

set_option linter.unusedSectionVars false

namespace Verif.Spake2
open Ed25519 (Point)

/-- The last 32 bytes. -/
def last32 (t : Bytes) : Bytes := t.drop (t.length - 32)

theorem last32_append (a b : Bytes) (h : b.length = 32) : last32 (a ++ b) = b := by
  rw [last32, List.length_append, h, Nat.add_sub_cancel, List.drop_left]

/-- The Diffie-Hellman solver made from an attacker on sessions between `side` and `side'`: blind the two given elements
with the known password, and take the last part of the string that the attacker finds. -/
def dhSolver (F : Bytes → Bytes → Bytes) (side side' : Side) (pw : Bytes) (P Q : Point) : Bytes :=
  last32 (F (Spec.letter side :: Ed25519.compress (P + Spec.pwNum pw • Spec.mine side))
    (Spec.letter side' :: Ed25519.compress (Q + Spec.pwNum pw • Spec.mine side')))

/-- **C77 (SPAKE2).** If, from the two messages of an honest session, `F` finds a string that is hashed to the key, the
solver finds the Diffie-Hellman element of the two private scalars, or the string and the one that the code hashes collide. -/
theorem C77_spake2 (F : Bytes → Bytes → Bytes) {side side' : Side} (hp : Spec.peers side = Spec.mine side') {pw : Bytes}
    {x y : Scalar} {st st' : State Scalar} {m m' key : Bytes}
    (h : startInternal ed25519 side pw x = .ok (st, m)) (h' : startInternal ed25519 side' pw y = .ok (st', m'))
    (hk : finish ed25519 st m' = .ok key) (hF : sha256.hash (F m m') = key) :
    dhSolver F side side' pw (x.val • Ed25519.base) (y.val • Ed25519.base) =
      Ed25519.compress ((x.val * y.val) • Ed25519.base) ∨
    sha256.Collision (F m m')
      (Spec.transcript side pw (m.drop 1) (m'.drop 1) ((x.val * y.val) • Ed25519.base)) := by
  obtain ⟨rfl, rfl⟩ := start_inv h
  obtain ⟨rfl, rfl⟩ := start_inv h'
  obtain ⟨-, -, P, hP, hkey⟩ := (finish_ok_iff _ _ _ _ _).1 hk
  rw [List.drop_succ_cons, List.drop_zero, Ed25519.decompress_compress] at hP
  obtain rfl := Option.some.inj hP
  rw [shared_eq side side' pw _ _ hp] at hkey
  rw [hkey] at hF
  rcases sha256.eq_or_collision hF with e | e
  · left
    have e' : F (Spec.letter side :: Ed25519.compress (Spec.sent side pw x.val))
        (Spec.letter side' :: Ed25519.compress (Spec.sent side' pw y.val)) = _ := e
    unfold dhSolver
    unfold Spec.sent at e'
    rw [e']
    cases side <;> exact last32_append _ _ (Ed25519.compress_length _)
  · exact Or.inr e

/-- The hypotheses can be met: an attacker that happens to answer with the hashed string. -/
example (pw : Bytes) (x y : Scalar) : ∃ (F : Bytes → Bytes → Bytes) (st st' : State Scalar) (m m' key : Bytes),
    startInternal ed25519 (.A [1] [2]) pw x = .ok (st, m) ∧ startInternal ed25519 (.B [1] [2]) pw y = .ok (st', m') ∧
    finish ed25519 st m' = .ok key ∧ sha256.hash (F m m') = key := by
  obtain ⟨sA, mA, sB, mB, key, h1, h2, h3, -, -⟩ := C16_agreement pw [1] [2] x y
  obtain ⟨P, -, hk⟩ := C29_key_a h1 h3
  exact ⟨fun _ _ => _, sA, sB, mA, mB, key, h1, h2, h3, hk.symm⟩

end Verif.Spake2

namespace Verif.Aucpace
open Spec Run

section
variable {G : Type} [AddCommGroup G] [Module Scalar G] [DecidableEq G] (R : Ristretto G) (D : Digest) {σ σc : Type}
  (rng : Rng σ) (rngC : Rng σc)

/-- **C77 (AuCPace).** A client and a server in the same session, with the same password-related string and channel
identifier, exchange public keys (implicit authentication). If `F` finds from these a string whose hash is a first session
key for the session's key, its last 32 bytes encode the Diffie-Hellman element with respect to the session's generator of the
two public keys, unless one of the two named pairs collides. -/
theorem C77_aucpace (F : G → G → Bytes) {ssid prs ci : Bytes} {s : σ} {c c1 : σc}
    {cli : Client.RecvServerKey} {srv : Server.RecvClientKey} {Ya Yb : G}
    (hC : Client.generatePublicKey R D rngC ⟨ssid, prs⟩ ci c = ((cli, .publicKey Yb), c1))
    (hS : Server.generatePublicKey R D rng ⟨ssid, prs, s⟩ ci = (srv, .publicKey Ya))
    {k : Bytes} (hk : Server.implicitAuth R D srv Yb = .ok k ∨ Client.implicitAuth R D cli Ya = .ok k)
    (hF : sk D ssid (D.hash (F Ya Yb)) = k) :
    ∃ ya yb : Scalar, Ya = ya • gen R D ssid prs ci ∧ Yb = yb • gen R D ssid prs ci ∧
      (Spake2.last32 (F (ya • gen R D ssid prs ci) (yb • gen R D ssid prs ci)) =
          R.compress ((ya * yb) • gen R D ssid prs ci) ∨
        D.Collision (inp 5 (ssid ++ D.hash (F Ya Yb)))
          (inp 5 (ssid ++ Spec.sk1 R D ssid ((ya * yb) • gen R D ssid prs ci))) ∨
        D.Collision (F Ya Yb) (inp 2 (ssid ++ R.compress ((ya * yb) • gen R D ssid prs ci)))) := by
  rw [client_generatePublicKey_eq] at hC
  rw [server_generatePublicKey_eq] at hS
  simp only [Prod.mk.injEq, ClientMessage.publicKey.injEq, ServerMessage.publicKey.injEq] at hC hS
  obtain ⟨⟨rfl, rfl⟩, -⟩ := hC
  obtain ⟨rfl, rfl⟩ := hS
  refine ⟨_, _, rfl, rfl, ?_⟩
  have hkey : k = sk D ssid (Spec.sk1 R D ssid ((draw (rng.fill s 64).1 * draw (rngC.fill c 64).1) • gen R D ssid prs ci)) := by
    rcases hk with hk | hk
    · rw [server_implicitAuth_eq] at hk
      split at hk
      · simp at hk
      · simpa [smul_smul] using hk.symm
    · rw [client_implicitAuth_eq] at hk
      split at hk
      · simp at hk
      · simpa [smul_smul, mul_comm] using hk.symm
  rw [hkey] at hF
  rcases D.eq_or_collision hF with e | e
  · rcases D.eq_or_collision (List.append_cancel_left (inp_inj.1 e).2) with e1 | e1
    · left
      rw [e1]
      have : ∀ z : Bytes, z.length = 32 → Spake2.last32 (inp 2 (ssid ++ z)) = z := fun z hz =>
        Spake2.last32_append (2 :: 0 :: 0 :: 0 :: ssid) z hz
      exact this _ (R.compress_length _)
    · exact Or.inr (Or.inr e1)
  · exact Or.inr (Or.inl e)

end

/-- The hypotheses can be met over the scalars with SHA-512: the attacker that answers with the hashed string. -/
example :
    (match Client.generatePublicKey Ristretto.toy sha512 Rng.replay ⟨World.bytes 1 64, World.bytes 2 32⟩ [] (World.bytes 3 64),
      Server.generatePublicKey Ristretto.toy sha512 Rng.replay ⟨World.bytes 1 64, World.bytes 2 32, World.bytes 4 64⟩ [] with
    | ((_, .publicKey Yb), _), (srv, .publicKey _) =>
      decide (Server.implicitAuth Ristretto.toy sha512 srv Yb = .ok (sk sha512 (World.bytes 1 64)
        (sha512.hash (inp 2 (World.bytes 1 64 ++ Ristretto.toy.compress (srv.privKey • Yb))))))
    | _, _ => false) = true := by
  decide +kernel

end Verif.Aucpace

namespace Verif.Srp

variable (D : Digest) {p : SrpGroup}

/-- The Diffie-Hellman solver made from an attacker `F` on SRP sessions of a user with private key `x`: add the verifier's part
to the second element, read the attacker's answer as a residue and divide by the part that comes from the password. -/
noncomputable def dhSolver (p : SrpGroup) (x : Nat) (F : Bytes → Bytes → Bytes) (P Q : ZMod p.n) : ZMod p.n :=
  let B := Spec.k D p.n p.g * (p.g : ZMod p.n) ^ x + Q
  (beToNat (F (Spec.enc P) (Spec.enc B)) : ZMod p.n) * (Q ^ (Spec.u D P.val B.val * x))⁻¹

/-- **C77 (SRP).** For a prime modulus, a user and a password that the attacker has learned: the attacker finds the key from
the public values of an honest session exactly when its answer is canonical and the solver finds the Diffie-Hellman element
`g^(a*b)`. -/
theorem C77_srp (hs : Spec.Sane p.n p.g) (hprime : p.n.Prime) (hg : ¬ p.n ∣ p.g) (F : Bytes → Bytes → Bytes)
    {I P salt v a b A B : Bytes} {c : SrpClientVerifier} {sv : SrpServerVerifier}
    (hv : (Client.computeVerifier D p I P salt : Res SrpAuthError Bytes) = .ok v)
    (hA : (Client.computePublicEphemeral p a : Res SrpAuthError Bytes) = .ok A)
    (hB : (Server.computePublicEphemeral D p b v : Res SrpAuthError Bytes) = .ok B)
    (hc : Client.processReply D p a I P salt B = .ok c) (hsv : Server.processReply D p b v A = .ok sv) :
    c.key = sv.key ∧
    (F A B = c.key ↔ (∃ z : ZMod p.n, F A B = Spec.enc z) ∧
      dhSolver D p (Spec.x D I P salt) F ((p.g : ZMod p.n) ^ beToNat a) ((p.g : ZMod p.n) ^ beToNat b) =
        (p.g : ZMod p.n) ^ (beToNat a * beToNat b)) := by
  have : NeZero p.n := ⟨hs.1.ne'⟩
  have : Fact p.n.Prime := ⟨hprime⟩
  have hg0 : (p.g : ZMod p.n) ≠ 0 := by rwa [Ne, ZMod.natCast_eq_zero_iff]
  rw [client_verifier_eq D p hs.1] at hv
  rw [client_ephemeral_eq p hs.1] at hA
  rw [server_ephemeral_eq D p hs] at hB
  rw [client_process_eq D p hs] at hc
  rw [server_process_eq D p hs] at hsv
  split at hc
  · simp at hc
  split at hsv
  · simp at hsv
  simp only [Res.ok.injEq] at hv hA hB hc hsv
  subst hv
  rw [enc_cast] at hB
  subst hA hB hc hsv
  have hval : ∀ z : ZMod p.n, beToNat (Spec.enc z) = z.val := fun z => by rw [Spec.enc, beToNat_toBytesBE]
  have hcast : ∀ z : ZMod p.n, ((z.val : ℕ) : ZMod p.n) = z := fun z => by rw [ZMod.natCast_val, ZMod.cast_id]
  have hkey : (clientResult D p.n p.g (beToNat a) I P salt
      (beToNat (Spec.enc (Spec.B D p.n p.g (Spec.v D p.n p.g I P salt) (beToNat b))))).key =
      Spec.enc ((p.g : ZMod p.n) ^ (beToNat a * beToNat b) * ((p.g : ZMod p.n) ^ beToNat b) ^
        (Spec.u D (Spec.A p.n p.g (beToNat a)).val
          (Spec.B D p.n p.g (Spec.v D p.n p.g I P salt) (beToNat b)).val * Spec.x D I P salt)) := by
    simp only [clientResult, hval, hcast, Spec.clientS, Spec.B, Spec.v, add_sub_cancel_left]
    congr 1
    rw [pow_add, ← pow_mul, mul_comm (beToNat b)]
  constructor
  · simp only [clientResult, serverResult, hval, hcast]
    rw [Spec.v, premaster_identity]
  · rw [hkey]
    have hne : ((p.g : ZMod p.n) ^ beToNat b) ^ (Spec.u D (Spec.A p.n p.g (beToNat a)).val
          (Spec.B D p.n p.g (Spec.v D p.n p.g I P salt) (beToNat b)).val * Spec.x D I P salt) ≠ 0 :=
      pow_ne_zero _ (pow_ne_zero _ hg0)
    have hsol : dhSolver D p (Spec.x D I P salt) F ((p.g : ZMod p.n) ^ beToNat a) ((p.g : ZMod p.n) ^ beToNat b) =
        (beToNat (F (Spec.enc (Spec.A p.n p.g (beToNat a)))
          (Spec.enc (Spec.B D p.n p.g (Spec.v D p.n p.g I P salt) (beToNat b)))) : ZMod p.n) *
        (((p.g : ZMod p.n) ^ beToNat b) ^ (Spec.u D (Spec.A p.n p.g (beToNat a)).val
          (Spec.B D p.n p.g (Spec.v D p.n p.g I P salt) (beToNat b)).val * Spec.x D I P salt))⁻¹ := rfl
    rw [hsol]
    generalize F _ _ = f at *
    constructor
    · intro h
      refine ⟨⟨_, h⟩, ?_⟩
      rw [h, hval, hcast, mul_inv_cancel_right₀ hne]
    · rintro ⟨⟨z, rfl⟩, h⟩
      rw [hval, hcast, mul_inv_eq_iff_eq_mul₀ hne] at h
      rw [h]

/-- The hypotheses are met modulo 47 with `g = 5`: an honest session exists. -/
example : Spec.Sane 47 5 ∧ Nat.Prime 47 ∧ ¬ 47 ∣ 5 ∧
    (match (Client.computeVerifier sha256 ⟨47, 5⟩ [1] [2] [3] : Res SrpAuthError Bytes) with
    | .ok v =>
      match (Client.computePublicEphemeral ⟨47, 5⟩ [9] : Res SrpAuthError Bytes),
        (Server.computePublicEphemeral sha256 ⟨47, 5⟩ [7] v : Res SrpAuthError Bytes) with
      | .ok A, .ok B => (Client.processReply sha256 ⟨47, 5⟩ [9] [1] [2] [3] B).isOk &&
          (Server.processReply sha256 ⟨47, 5⟩ [7] v A).isOk
      | _, _ => false
    | _ => false) = true :=
  ⟨by decide +kernel, by norm_num, by decide, by decide +kernel⟩

end Verif.Srp
