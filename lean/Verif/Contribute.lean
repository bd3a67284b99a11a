import Verif.OneGuess
import Verif.Spake2.Uniform

/-!
# C72: neither party alone determines the key

Whatever the peer sends, and even if the same messages are replayed, a session ends with the same key or accepts the same
authenticator only if it drew the same private scalar. C57, C58 and C61 bound how often that happens.
-/

set_option linter.unusedSectionVars false

namespace Verif.Aucpace
open Spec Run

section
variable {G : Type} [AddCommGroup G] [Module Scalar G] [DecidableEq G] (R : Ristretto G) (D : Digest)

/-- Two sessions with the SSID `ssid` and private keys `y`, `y'` received `P`, and the hash with tag `n`, or the one inside
it, has the same value for both although the inputs differ. -/
def KeyCollision (n : UInt8) (ssid : Bytes) (y y' : Scalar) (P : G) : Prop :=
  D.Collision (inp n (ssid ++ Spec.sk1 R D ssid (y • P))) (inp n (ssid ++ Spec.sk1 R D ssid (y' • P))) ∨
  D.Collision (inp 2 (ssid ++ R.compress (y • P))) (inp 2 (ssid ++ R.compress (y' • P)))

theorem same_scalar (n : UInt8) {ssid : Bytes} {y y' : Scalar} {P : G} (hP : P ≠ 0)
    (h : Hn D n (ssid ++ Spec.sk1 R D ssid (y • P)) = Hn D n (ssid ++ Spec.sk1 R D ssid (y' • P))) :
    y = y' ∨ KeyCollision R D n ssid y y' P := by
  rcases D.eq_or_collision h with h | h
  · have h := List.append_cancel_left (inp_inj.1 h).2
    rcases D.eq_or_collision h with h | h
    · have h := List.append_cancel_left (inp_inj.1 h).2
      rw [R.compress_inj] at h
      exact Or.inl (smul_right_cancel_ne hP h)
    · exact Or.inr (Or.inr h)
  · exact Or.inr (Or.inl h)

/-- **C72 (server).** Two sessions of a server with the same SSID receive the same public key. They accept the same
authenticator, or end with the same key, only if the server drew the same private key in both. -/
theorem C72_server (h64 : D.outLen = 64) {st st' : Server.RecvClientKey} (hssid : st'.ssid = st.ssid) {Yb : G}
    {au au' : Server.ExpMutAuth} (h2 : Server.receiveClientPubkey R D st Yb = .ok au)
    (h2' : Server.receiveClientPubkey R D st' Yb = .ok au')
    {t t' k k' : Bytes} {m m' : ServerMessage G} (h3 : Server.receiveClientAuthenticator D au t = .ok (k, m))
    (h3' : Server.receiveClientAuthenticator D au' t' = .ok (k', m')) :
    (t = t' → st.privKey = st'.privKey ∨ KeyCollision R D 4 st.ssid st.privKey st'.privKey Yb) ∧
    (k = k' → st.privKey = st'.privKey ∨ KeyCollision R D 5 st.ssid st.privKey st'.privKey Yb) := by
  rw [receiveClientPubkey_eq] at h2 h2'
  split at h2
  · simp at h2
  rename_i hYb
  rw [if_neg hYb] at h2'
  simp only [Res.ok.injEq] at h2 h2'
  subst h2 h2'
  rw [receiveClientAuthenticator_eq D h64] at h3 h3'
  split at h3
  · rename_i ht
    split at h3'
    · rename_i ht'
      simp only [Res.ok.injEq, Prod.mk.injEq] at h3 h3'
      obtain ⟨rfl, -⟩ := h3
      obtain ⟨rfl, -⟩ := h3'
      simp only [hssid] at ht' ⊢
      refine ⟨?_, same_scalar R D 5 hYb⟩
      rintro rfl
      exact same_scalar R D 4 hYb (ht.trans ht'.symm)
    · simp at h3'
  · simp at h3

/-- **C72 (server, implicit authentication).** -/
theorem C72_server_implicit {st st' : Server.RecvClientKey} (hssid : st'.ssid = st.ssid) {Yb : G} {k : Bytes}
    (h : Server.implicitAuth R D st Yb = .ok k) (h' : Server.implicitAuth R D st' Yb = .ok k) :
    st.privKey = st'.privKey ∨ KeyCollision R D 5 st.ssid st.privKey st'.privKey Yb := by
  rw [server_implicitAuth_eq] at h h'
  split at h
  · simp at h
  rename_i hYb
  rw [if_neg hYb] at h'
  simp only [Res.ok.injEq] at h h'
  simp only [hssid] at h'
  exact same_scalar R D 5 hYb (h.trans h'.symm)

/-- **C72 (client).** -/
theorem C72_client (h64 : D.outLen = 64) {st st' : Client.RecvServerKey} (hssid : st'.ssid = st.ssid) {Ya : G}
    {au au' : Client.ExpMutAuth} {m m' : ClientMessage G} (h2 : Client.receiveServerPubkey R D st Ya = .ok (au, m))
    (h2' : Client.receiveServerPubkey R D st' Ya = .ok (au', m'))
    {t t' k k' : Bytes} (h3 : Client.receiveServerAuthenticator D au t = .ok k)
    (h3' : Client.receiveServerAuthenticator D au' t' = .ok k') :
    (t = t' → st.privKey = st'.privKey ∨ KeyCollision R D 3 st.ssid st.privKey st'.privKey Ya) ∧
    (k = k' → st.privKey = st'.privKey ∨ KeyCollision R D 5 st.ssid st.privKey st'.privKey Ya) := by
  rw [receiveServerPubkey_eq R D h64] at h2 h2'
  split at h2
  · simp at h2
  rename_i hYa
  rw [if_neg hYa] at h2'
  simp only [Res.ok.injEq, Prod.mk.injEq] at h2 h2'
  obtain ⟨rfl, rfl⟩ := h2
  obtain ⟨rfl, rfl⟩ := h2'
  rw [receiveServerAuthenticator_eq] at h3 h3'
  split at h3
  · rename_i ht
    split at h3'
    · rename_i ht'
      simp only [Res.ok.injEq] at h3 h3'
      subst h3 h3'
      simp only [hssid] at ht' ⊢
      refine ⟨?_, same_scalar R D 5 hYa⟩
      rintro rfl
      exact same_scalar R D 3 hYa (ht.trans ht'.symm)
    · simp at h3'
  · simp at h3

/-- **C72 (client, implicit authentication).** -/
theorem C72_client_implicit {st st' : Client.RecvServerKey} (hssid : st'.ssid = st.ssid) {Ya : G} {k : Bytes}
    (h : Client.implicitAuth R D st Ya = .ok k) (h' : Client.implicitAuth R D st' Ya = .ok k) :
    st.privKey = st'.privKey ∨ KeyCollision R D 5 st.ssid st.privKey st'.privKey Ya := by
  rw [client_implicitAuth_eq] at h h'
  split at h
  · simp at h
  rename_i hYa
  rw [if_neg hYa] at h'
  simp only [Res.ok.injEq] at h h'
  simp only [hssid] at h'
  exact same_scalar R D 5 hYa (h.trans h'.symm)

/-- **C72 (generator outputs).** Whatever public key `Y` but the neutral one the peer sends, each group element is the
shared element for at most `⌊2^512/ell⌋ + 1` of the `2^512` outputs of the generator, on either side. -/
theorem C72_shared (ssid prs ci : Bytes) {Y : G} (hY : Y ≠ 0) (Z : G) :
    {b : Bytes | b.length = 64 ∧ ∃ st m, Server.generatePublicKey R D Rng.replay ⟨ssid, prs, b⟩ ci = (st, m) ∧
      st.privKey • Y = Z}.ncard ≤ 2 ^ 512 / ell + 1 ∧
    {b : Bytes | b.length = 64 ∧ ∃ st m r, Client.generatePublicKey R D Rng.replay ⟨ssid, prs⟩ ci b = ((st, m), r) ∧
      st.privKey • Y = Z}.ncard ≤ 2 ^ 512 / ell + 1 := by
  have hp : (256 : ℕ) ^ 64 = 2 ^ 512 := by decide +kernel
  have hT : {c : Scalar | c • Y = Z}.ncard ≤ 1 := by
    refine (Set.ncard_le_one (Set.toFinite _)).2 fun a ha b hb => ?_
    simp only [Set.mem_ofPred_eq] at ha hb
    exact smul_right_cancel_ne hY (ha.trans hb.symm)
  have hc := (ncard_residues 64 ell (fun c : Scalar => c • Y = Z)).2
  rw [hp] at hc
  have hc := hc.trans (Nat.mul_le_mul_left _ hT)
  rw [Nat.mul_one] at hc
  have hf : ∀ b : Bytes, b.length = 64 → (Rng.replay.fill b 64).1 = b := by
    intro b h
    show (b ++ List.replicate 64 0).take 64 = b
    rw [← h, List.take_left]
  have e1 : {b : Bytes | b.length = 64 ∧ ∃ st m, Server.generatePublicKey R D Rng.replay ⟨ssid, prs, b⟩ ci = (st, m) ∧
      st.privKey • Y = Z} = {b : Bytes | b.length = 64 ∧ (leToNat b : Scalar) • Y = Z} := by
    ext b
    simp only [Set.mem_ofPred_eq]
    refine and_congr_right fun h => ?_
    constructor
    · rintro ⟨st, m, hg, hz⟩
      rw [server_generatePublicKey_eq] at hg
      simp only [Prod.mk.injEq] at hg
      obtain ⟨rfl, -⟩ := hg
      simp only [hf b h] at hz
      exact hz
    · intro hz
      refine ⟨_, _, server_generatePublicKey_eq _ _ _ _ _, ?_⟩
      simp only [hf b h]
      exact hz
  have e2 : {b : Bytes | b.length = 64 ∧ ∃ st m r, Client.generatePublicKey R D Rng.replay ⟨ssid, prs⟩ ci b = ((st, m), r) ∧
      st.privKey • Y = Z} = {b : Bytes | b.length = 64 ∧ (leToNat b : Scalar) • Y = Z} := by
    ext b
    simp only [Set.mem_ofPred_eq]
    refine and_congr_right fun h => ?_
    constructor
    · rintro ⟨st, m, r, hg, hz⟩
      rw [client_generatePublicKey_eq] at hg
      simp only [Prod.mk.injEq] at hg
      obtain ⟨⟨rfl, -⟩, -⟩ := hg
      simp only [hf b h] at hz
      exact hz
    · intro hz
      refine ⟨_, _, _, client_generatePublicKey_eq _ _ _ _ _ _, ?_⟩
      simp only [hf b h]
      exact hz
  rw [e1, e2]
  exact ⟨hc, hc⟩

/-- A case with two different private keys in which both sessions accept, with different authenticators and keys. -/
example : ∃ (st st' : Server.RecvClientKey) (Yb : Scalar) (au au' : Server.ExpMutAuth) (t t' k k' : Bytes)
    (m m' : ServerMessage Scalar), st'.ssid = st.ssid ∧ st.privKey ≠ st'.privKey ∧
    Server.receiveClientPubkey Ristretto.toy sha512 st Yb = .ok au ∧
    Server.receiveClientPubkey Ristretto.toy sha512 st' Yb = .ok au' ∧
    Server.receiveClientAuthenticator sha512 au t = .ok (k, m) ∧
    Server.receiveClientAuthenticator sha512 au' t' = .ok (k', m') ∧ t ≠ t' ∧ k ≠ k' := by
  have h64 : sha512.outLen = 64 := rfl
  have h1 : (1 : Scalar) ≠ 0 := by decide +kernel
  refine ⟨⟨World.bytes 0 64, 5⟩, ⟨World.bytes 0 64, 6⟩, 1, _, _, _, _, _, _, _, _, rfl, by decide +kernel,
    (receiveClientPubkey_eq _ _ _ _).trans (if_neg h1), (receiveClientPubkey_eq _ _ _ _).trans (if_neg h1),
    (receiveClientAuthenticator_eq _ h64 _ _).trans (if_pos rfl), (receiveClientAuthenticator_eq _ h64 _ _).trans (if_pos rfl),
    ?_, ?_⟩ <;> decide +kernel

end
end Verif.Aucpace

namespace Verif.Spake2
open Ed25519 (Point)

theorem sent_inj {side : Side} {pw : Bytes} {x x' : Scalar}
    (h : Spec.sent side pw x.val = Spec.sent side pw x'.val) : x = x' := by
  have h := add_right_cancel h
  rw [Ed25519.smul_base_eq_iff, Nat.mod_eq_of_lt (ZMod.val_lt x), Nat.mod_eq_of_lt (ZMod.val_lt x')] at h
  exact ZMod.val_injective _ h

/-- **C72 (SPAKE2).** Two sessions of one side with the same password that receive the same message end with the same key
only if they drew the same scalar. -/
theorem C72_spake2 {side : Side} {pw : Bytes} {x x' : Scalar} {s s' : State Scalar} {own own' m key : Bytes}
    (h : startInternal ed25519 side pw x = .ok (s, own)) (h' : startInternal ed25519 side pw x' = .ok (s', own'))
    (hk : finish ed25519 s m = .ok key) (hk' : finish ed25519 s' m = .ok key) :
    x = x' ∨ ∃ P : Point, Ed25519.decompress (m.drop 1) = some P ∧
      sha256.Collision (Spec.transcript side pw (own.drop 1) (m.drop 1) (Spec.shared side pw x.val P))
        (Spec.transcript side pw (own'.drop 1) (m.drop 1) (Spec.shared side pw x'.val P)) := by
  have hown : own.drop 1 = own'.drop 1 → x = x' := by
    intro e
    rw [(start_inv h).2, (start_inv h').2] at e
    exact sent_inj (Ed25519.compress_injective e)
  cases side with
  | A idA idB =>
    obtain ⟨P, P', hP, hP', hb⟩ := C21_binding (r := .a) (r' := .a) h h' hk hk'
    rw [hP] at hP'
    obtain rfl := Option.some.inj hP'
    rcases hb with ⟨-, -, -, e, -⟩ | e | e | e | e
    · exact Or.inl (hown e)
    · exact absurd rfl e.1
    · exact absurd rfl e.1
    · exact absurd rfl e.1
    · exact Or.inr ⟨P, hP, e⟩
  | B idA idB =>
    obtain ⟨P, P', hP, hP', hb⟩ := C21_binding (r := .b) (r' := .b) h h' hk hk'
    rw [hP] at hP'
    obtain rfl := Option.some.inj hP'
    rcases hb with ⟨-, -, -, -, e, -⟩ | e | e | e | e
    · exact Or.inl (hown e)
    · exact absurd rfl e.1
    · exact absurd rfl e.1
    · exact absurd rfl e.1
    · exact Or.inr ⟨P, hP, e⟩
  | symmetric idS =>
    obtain ⟨P, P', hP, hP', hb⟩ := C22_binding h h' hk hk'
    rw [hP] at hP'
    obtain rfl := Option.some.inj hP'
    rcases hb with ⟨-, -, e | e, -⟩ | e | e | e
    · exact Or.inl (hown (by rw [e.1]))
    · exact Or.inl (hown (by rw [e.1, e.2]))
    · exact absurd rfl e.1
    · exact absurd rfl e.1
    · exact Or.inr ⟨P, hP, e⟩

/-- **C72 (SPAKE2, shared element).** For an element of the peer that is not, up to the blinding, of order dividing 8, the
shared element determines the scalar, so each element is shared for at most `⌊2^512/ell⌋ + 1` of the `2^512` outputs of
the generator; for the others, which the code does not refuse (`C31_negation`), there are at most 8 shared elements. -/
theorem C72_spake2_shared (side : Side) (pw : Bytes) (P : Point) :
    (8 • (P - Spec.pwNum pw • Spec.peers side) ≠ 0 →
      (∀ x x' : Scalar, Spec.shared side pw x.val P = Spec.shared side pw x'.val P → x = x') ∧
      ∀ Z : Point, {b : Bytes | b.length = 64 ∧
        Spec.shared side pw (ed25519.randomScalar Rng.replay b : Scalar).val P = Z}.ncard ≤ 2 ^ 512 / ell + 1) ∧
    (8 • (P - Spec.pwNum pw • Spec.peers side) = 0 →
      {Z | ∃ x : Scalar, Spec.shared side pw x.val P = Z}.ncard ≤ 8) := by
  refine ⟨fun h8 => ?_, fun h8 => ?_⟩
  · have hinj : ∀ x x' : Scalar, Spec.shared side pw x.val P = Spec.shared side pw x'.val P → x = x' := by
      intro x x' h
      unfold Spec.shared at h
      revert h8 h
      generalize P - Spec.pwNum pw • Spec.peers side = Q
      intro h8 h
      by_contra hne
      wlog hlt : x'.val < x.val generalizing x x' with H
      · refine H x' x h.symm (Ne.symm hne) ?_
        have : x.val ≠ x'.val := fun e => hne (ZMod.val_injective _ e)
        omega
      have hx : ((x.val - x'.val : ℕ) : Scalar) ≠ 0 := by
        intro h0
        rw [ZMod.natCast_eq_zero_iff] at h0
        have := Nat.le_of_dvd (by omega) h0
        have := ZMod.val_lt x
        omega
      have hv : ((x.val - x'.val : ℕ) : Scalar).val = x.val - x'.val := by
        rw [ZMod.val_natCast, Nat.mod_eq_of_lt]
        have := ZMod.val_lt x
        omega
      refine h8 (eight_smul hx ?_)
      rw [hv, sub_nsmul _ hlt.le, h, add_neg_cancel]
    refine ⟨hinj, fun Z => ?_⟩
    have hp : (256 : ℕ) ^ 64 = 2 ^ 512 := by decide +kernel
    have hT : {c : Scalar | Spec.shared side pw c.val P = Z}.ncard ≤ 1 := by
      refine (Set.ncard_le_one (Set.toFinite _)).2 fun a ha b hb => ?_
      simp only [Set.mem_ofPred_eq] at ha hb
      exact hinj a b (ha.trans hb.symm)
    have hc := (ncard_residues 64 ell (fun c : Scalar => Spec.shared side pw c.val P = Z)).2
    rw [hp] at hc
    have hc := hc.trans (Nat.mul_le_mul_left _ hT)
    rw [Nat.mul_one] at hc
    have e1 : {b : Bytes | b.length = 64 ∧
        Spec.shared side pw (ed25519.randomScalar Rng.replay b : Scalar).val P = Z} =
        {b : Bytes | b.length = 64 ∧ Spec.shared side pw (leToNat b : Scalar).val P = Z} := by
      ext b
      simp only [Set.mem_ofPred_eq]
      refine and_congr_right fun h => ?_
      have hr : (ed25519.randomScalar Rng.replay b : Scalar) = (leToNat b : Scalar) := by
        show ((leToNat (Rng.replay.fill b 64).1 : ℕ) : Scalar) = _
        rw [replay_fill h]
      rw [hr]
    rw [e1]
    exact hc
  · unfold Spec.shared
    revert h8
    generalize P - Spec.pwNum pw • Spec.peers side = Q
    intro h8
    have hsub : {Z | ∃ x : Scalar, x.val • Q = Z} ⊆ ((Finset.range 8).image fun i => i • Q : Finset Point) := by
      rintro Z ⟨x, rfl⟩
      simp only [Finset.coe_image, Set.mem_image, Finset.coe_range, Set.mem_Iio]
      refine ⟨x.val % 8, Nat.mod_lt _ (by omega), ?_⟩
      conv_rhs => rw [← Nat.div_add_mod x.val 8]
      rw [add_nsmul, mul_comm, mul_nsmul', h8, nsmul_zero, zero_add]
    refine (Set.ncard_le_ncard hsub (Finset.finite_toSet _)).trans ?_
    rw [Set.ncard_coe_finset]
    exact Finset.card_image_le.trans (by rw [Finset.card_range])

/-- The first case is that of an honest peer whose scalar is not zero; the second that of `C31_negation`. -/
example : 8 • (Spec.sent (.B [] []) [] 1 - Spec.pwNum [] • Spec.peers (.A [] [])) ≠ 0 ∧
    8 • (Spec.sent (.B [] []) [] 0 - Spec.pwNum [] • Spec.peers (.A [] [])) = 0 := by
  have e : ∀ n, Spec.sent (.B [] []) [] n - Spec.pwNum [] • Spec.peers (.A [] []) = n • Ed25519.base := by
    intro n
    rw [Spec.sent]
    exact add_sub_cancel_right _ _
  rw [e, e, zero_nsmul, nsmul_zero, one_nsmul]
  refine ⟨fun h => ?_, rfl⟩
  have := addOrderOf_dvd_iff_nsmul_eq_zero.2 h
  rw [Ed25519.addOrderOf_base] at this
  exact absurd (Nat.le_of_dvd (by decide) this) (by decide +kernel)

end Verif.Spake2
