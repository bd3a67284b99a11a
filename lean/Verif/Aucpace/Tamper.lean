import Verif.Aucpace.PropsAuth

/-!
# C96: what of the exchanged elements acceptance guarantees

The authenticators and the key of AuCPace are computed from the SSID and the shared element; the two public keys are not hashed. A network
that multiplies both of them by the same number is not noticed, and nothing else is possible. The same holds for the blinded elements of
the strong variants. The element `X` of the server cannot be changed.
-/

set_option linter.unusedSectionVars false

namespace Verif.Aucpace
open Spec Run

section
variable {G : Type} [AddCommGroup G] [Module Scalar G] [DecidableEq G] (R : Ristretto G) (D : Digest)
  {Params : Type} (Hs : PwHasher Params) {σc σs : Type} (rngC : Rng σc) (rngS : Rng σs)

/-- The explicit exchange (`Run.explicit`: aucpace/src/client.rs:783-916, aucpace/src/server.rs:552-680) over a network that delivers
`toServer Yb` for the client's public key `Yb` and `toClient Ya` for the server's public key `Ya`. -/
def explicitVia (toServer toClient : G → G) (cli : Client.CPaceSubstep) (srv : Server.CPaceSubstep σs) (ciC ciS : Bytes) (c : σc) :
    Res Error (Bytes × Bytes) := do
  let ((cli, cm), _) := Client.generatePublicKey R D rngC cli ciC c
  let (srv, sm) := Server.generatePublicKey R D rngS srv ciS
  match cm, sm with
  | .publicKey yb, .publicKey ya => do
    let (cli, cm) ← Client.receiveServerPubkey R D cli (toClient ya)
    let srv ← Server.receiveClientPubkey R D srv (toServer yb)
    match cm with
    | .authenticator tb => do
      let (skS, sm) ← Server.receiveClientAuthenticator (G := G) D srv tb
      match sm with
      | .authenticator ta => do
        let skC ← Client.receiveServerAuthenticator D cli ta
        .ok (skC, skS)
      | _ => .panic
    | _ => .panic
  | _, _ => .panic

/-- A network that changes nothing. -/
theorem explicitVia_id : explicitVia R D rngC rngS id id = Run.explicit R D rngC rngS := rfl

theorem explicitVia_eq (h64 : D.outLen = 64) (toServer toClient : G → G) (cli : Client.CPaceSubstep) (srv : Server.CPaceSubstep σs)
    (ciC ciS : Bytes) (c : σc) :
    explicitVia R D rngC rngS toServer toClient cli srv ciC ciS c =
      let yb := draw (rngC.fill c 64).1
      let ya := draw (rngS.fill srv.rng 64).1
      let U := toServer (yb • gen R D cli.ssid cli.prs ciC)
      let V := toClient (ya • gen R D srv.ssid srv.prs ciS)
      let sC := Spec.sk1 R D cli.ssid (yb • V)
      let sS := Spec.sk1 R D srv.ssid (ya • U)
      if V = 0 ∨ U = 0 then .err .illegalPointError
      else if tb D srv.ssid sS = tb D cli.ssid sC ∧ ta D cli.ssid sC = ta D srv.ssid sS then
        .ok (sk D cli.ssid sC, sk D srv.ssid sS)
      else .err .mutualAuthFail := by
  simp only [explicitVia, client_generatePublicKey_eq, server_generatePublicKey_eq,
    receiveServerPubkey_eq R D h64, receiveClientPubkey_eq]
  generalize toClient (draw (rngS.fill srv.rng 64).1 • gen R D srv.ssid srv.prs ciS) = V
  generalize toServer (draw (rngC.fill c 64).1 • gen R D cli.ssid cli.prs ciC) = U
  by_cases h1 : V = 0
  · simp only [if_pos h1, Res.bind_err, if_pos (Or.inl h1)]
  · by_cases h2 : U = 0
    · simp only [if_neg h1, Res.bind_ok, if_pos h2, Res.bind_err, if_pos (Or.inr h2)]
    · rw [if_neg (not_or.2 ⟨h1, h2⟩)]
      simp only [if_neg h1, Res.bind_ok, if_neg h2]
      rw [receiveClientAuthenticator_eq D h64]
      by_cases h3 : tb D srv.ssid (Spec.sk1 R D srv.ssid (draw (rngS.fill srv.rng 64).1 • U)) =
          tb D cli.ssid (Spec.sk1 R D cli.ssid (draw (rngC.fill c 64).1 • V))
      · simp only [if_pos h3, Res.bind_ok, receiveServerAuthenticator_eq]
        split <;> rename_i h4
        · rw [if_pos ⟨h3, h4⟩]; rfl
        · rw [if_neg (fun h => h4 h.2)]; rfl
      · rw [if_neg h3, if_neg (fun h => h3 h.1)]; rfl

/-- **C96 (not noticed).** A network that multiplies both public keys by the same `f` other than zero is not noticed: both sides accept, or
refuse a neutral public key, as they would without it, and they hold the same key, that of `f` times the element they would share. -/
theorem C96_factor (h64 : D.outLen = 64) (cli : Client.CPaceSubstep) (srv : Server.CPaceSubstep σs) (hs : srv.ssid = cli.ssid)
    (hp : srv.prs = cli.prs) (ci : Bytes) (c : σc) (f : Scalar) (hf : f ≠ 0) :
    let yb := draw (rngC.fill c 64).1
    let ya := draw (rngS.fill srv.rng 64).1
    let g := gen R D cli.ssid cli.prs ci
    let k := sk D cli.ssid (Spec.sk1 R D cli.ssid ((f * ya * yb) • g))
    explicitVia R D rngC rngS (f • ·) (f • ·) cli srv ci ci c =
      if ya • g = 0 ∨ yb • g = 0 then .err .illegalPointError else .ok (k, k) := by
  intro yb ya g k
  rw [explicitVia_eq R D rngC rngS h64]
  simp only [hs, hp]
  have e1 : yb • f • ya • g = (f * ya * yb) • g := by
    rw [smul_smul, smul_smul]; congr 1; ring
  have e2 : ya • f • yb • g = (f * ya * yb) • g := by
    rw [smul_smul, smul_smul]; congr 1; ring
  show (if f • ya • g = 0 ∨ f • yb • g = 0 then _ else if tb D cli.ssid (Spec.sk1 R D cli.ssid (ya • f • yb • g)) =
      tb D cli.ssid (Spec.sk1 R D cli.ssid (yb • f • ya • g)) ∧ ta D cli.ssid (Spec.sk1 R D cli.ssid (yb • f • ya • g)) =
        ta D cli.ssid (Spec.sk1 R D cli.ssid (ya • f • yb • g)) then
      Res.ok (sk D cli.ssid (Spec.sk1 R D cli.ssid (yb • f • ya • g)), sk D cli.ssid (Spec.sk1 R D cli.ssid (ya • f • yb • g)))
    else _) = _
  rw [e1, e2]
  simp only [smul_eq_zero_iff_right hf, and_self, if_true]
  rfl

/-- **C96 (but they did not see what was sent).** With another factor than one each side received another element than was sent, and the
key is another one, unless two given strings have the same hash. -/
theorem C96_factor_differs (ssid : Bytes) {ya yb f : Scalar} {g : G} (hf : f ≠ 1) (ha : ya • g ≠ 0) (hb : yb • g ≠ 0) :
    f • ya • g ≠ ya • g ∧ f • yb • g ≠ yb • g ∧
    (sk D ssid (Spec.sk1 R D ssid ((f * ya * yb) • g)) ≠ sk D ssid (Spec.sk1 R D ssid ((ya * yb) • g)) ∨
      D.Collision (inp 5 (ssid ++ Spec.sk1 R D ssid ((f * ya * yb) • g))) (inp 5 (ssid ++ Spec.sk1 R D ssid ((ya * yb) • g))) ∨
      D.Collision (inp 2 (ssid ++ R.compress ((f * ya * yb) • g))) (inp 2 (ssid ++ R.compress ((ya * yb) • g)))) := by
  have hne : ∀ P : G, P ≠ 0 → f • P ≠ P := by
    intro P hP h
    have : (f - 1) • P = 0 := by rw [sub_smul, one_smul, h, sub_self]
    rcases smul_eq_zero.1 this with h | h
    · exact hf (sub_eq_zero.1 h)
    · exact hP h
  refine ⟨hne _ ha, hne _ hb, ?_⟩
  by_cases hk : sk D ssid (Spec.sk1 R D ssid ((f * ya * yb) • g)) = sk D ssid (Spec.sk1 R D ssid ((ya * yb) • g))
  · right
    rcases D.eq_or_collision hk with h | h
    · right
      have h := List.append_cancel_left (inp_inj.1 h).2
      rcases D.eq_or_collision h with h | h
      · have h := R.compress_injective (List.append_cancel_left (inp_inj.1 h).2)
        refine absurd (?_ : f • (ya * yb) • g = (ya * yb) • g) (hne _ ?_)
        · rw [smul_smul, ← mul_assoc, h]
        · have : ya ≠ 0 := by rintro rfl; exact ha (zero_smul _ _)
          rw [mul_smul]
          exact fun h => hb ((smul_eq_zero.1 h).resolve_left this)
      · exact h
    · exact Or.inl h
  · exact Or.inl hk

/-- **C96 (nothing else).** Whatever the network delivers in place of the two public keys: if both sides accept, it has multiplied both by
the same number other than zero, and the sides hold the same key; or two given strings have the same hash. -/
theorem C96_only_factor (h64 : D.outLen = 64) (toServer toClient : G → G) (cli : Client.CPaceSubstep) (srv : Server.CPaceSubstep σs)
    (hs : srv.ssid = cli.ssid) (hp : srv.prs = cli.prs) (ci : Bytes) (c : σc) {kC kS : Bytes}
    (h : explicitVia R D rngC rngS toServer toClient cli srv ci ci c = .ok (kC, kS)) :
    let yb := draw (rngC.fill c 64).1
    let ya := draw (rngS.fill srv.rng 64).1
    let g := gen R D cli.ssid cli.prs ci
    (ya • g ≠ 0 → yb • g ≠ 0 →
      (∃ f : Scalar, f ≠ 0 ∧ toServer (yb • g) = f • yb • g ∧ toClient (ya • g) = f • ya • g ∧ kC = kS) ∨
      D.Collision (inp 4 (cli.ssid ++ Spec.sk1 R D cli.ssid (ya • toServer (yb • g))))
        (inp 4 (cli.ssid ++ Spec.sk1 R D cli.ssid (yb • toClient (ya • g)))) ∨
      D.Collision (inp 2 (cli.ssid ++ R.compress (ya • toServer (yb • g))))
        (inp 2 (cli.ssid ++ R.compress (yb • toClient (ya • g))))) := by
  intro yb ya g ha hb
  rw [explicitVia_eq R D rngC rngS h64] at h
  simp only [hs, hp] at h
  change (if toClient (ya • g) = 0 ∨ toServer (yb • g) = 0 then _ else if tb D cli.ssid (Spec.sk1 R D cli.ssid (ya • toServer (yb • g))) =
      tb D cli.ssid (Spec.sk1 R D cli.ssid (yb • toClient (ya • g))) ∧ ta D cli.ssid (Spec.sk1 R D cli.ssid (yb • toClient (ya • g))) =
        ta D cli.ssid (Spec.sk1 R D cli.ssid (ya • toServer (yb • g))) then
      Res.ok (sk D cli.ssid (Spec.sk1 R D cli.ssid (yb • toClient (ya • g))), sk D cli.ssid (Spec.sk1 R D cli.ssid (ya • toServer (yb • g))))
    else _) = _ at h
  split at h
  · cases h
  rename_i h0
  rw [not_or] at h0
  split at h
  swap
  · cases h
  rename_i ht
  simp only [Res.ok.injEq, Prod.mk.injEq] at h
  obtain ⟨rfl, rfl⟩ := h
  rcases D.eq_or_collision ht.1 with e | e
  swap
  · exact Or.inr (Or.inl e)
  have e := List.append_cancel_left (inp_inj.1 e).2
  rcases D.eq_or_collision e with e | e
  swap
  · exact Or.inr (Or.inr e)
  have e := R.compress_injective (List.append_cancel_left (inp_inj.1 e).2)
  left
  have hya : ya ≠ 0 := by intro h; exact ha (by rw [h, zero_smul])
  have hyb : yb ≠ 0 := by intro h; exact hb (by rw [h, zero_smul])
  have hg : g ≠ 0 := by intro h; exact ha (by rw [h, smul_zero])
  obtain ⟨γ, hγ⟩ := R.base_generates g
  obtain ⟨u, hu⟩ := R.base_generates (toServer (yb • g))
  have hγ0 : γ ≠ 0 := by rintro rfl; exact hg (by rw [hγ, zero_smul])
  have hu0 : u ≠ 0 := by rintro rfl; exact h0.2 (by rw [hu, zero_smul])
  have hU : toServer (yb • g) = (u * (yb * γ)⁻¹) • yb • g := by
    conv_rhs => rw [hγ]
    rw [hu, smul_smul, smul_smul]
    congr 1
    field_simp
  refine ⟨u * (yb * γ)⁻¹, mul_ne_zero hu0 (inv_ne_zero (mul_ne_zero hyb hγ0)), hU, ?_, by rw [e]⟩
  have : yb • toClient (ya • g) = yb • (u * (yb * γ)⁻¹) • ya • g := by
    rw [← e, hU, smul_smul, smul_smul, smul_smul, smul_smul]
    congr 1
    ring
  exact smul_right_injective G hyb this

theorem scaled_reply {σ : Type} {prs : Bytes} {s : σ} {ssid grp ps : Bytes} {X U : G} {f q : Scalar} (hf : f ≠ 0)
    {st : Server.CPaceSubstep σ} {grp' ps' : Bytes} {X' Z : G}
    (h : (if q • U = 0 then Res.err Error.illegalPointError else Res.ok ((prs, ServerMessage.strongAugmentationInfo grp X (q • U) ps), s)).bind
      (fun p => Res.ok (⟨ssid, p.1.1, p.2⟩, p.1.2)) = .ok (st, .strongAugmentationInfo grp' X' Z ps')) :
    (if q • f • U = 0 then Res.err Error.illegalPointError
      else Res.ok ((prs, ServerMessage.strongAugmentationInfo grp X (q • f • U) ps), s)).bind
        (fun p => Res.ok (⟨ssid, p.1.1, p.2⟩, p.1.2)) = .ok (st, .strongAugmentationInfo grp' X' (f • Z) ps') := by
  rw [smul_comm q f U]
  split at h
  · cases h
  · rename_i h0
    rw [if_neg (fun h => h0 ((smul_eq_zero_iff_right hf).1 h))]
    simp only [Res.bind, Res.ok.injEq, Prod.mk.injEq, ServerMessage.strongAugmentationInfo.injEq] at h ⊢
    obtain ⟨rfl, rfl, rfl, rfl, rfl⟩ := h
    simp

/-- **C96 (blinded elements).** A server that is sent `f` times the blinded element answers with `f` times the blinded salt, and is in the same
state. A network that multiplies by `f` on the way to the server and by its inverse on the way back is not noticed. -/
theorem C96_blinding (self : Server.AugLayer) (user : Bytes) (U : G) (db : StrongDatabase G) (s : σs) (f : Scalar) (hf : f ≠ 0)
    {st : Server.CPaceSubstep σs} {grp : Bytes} {X Z : G} {ps : Bytes}
    (h : Server.generateClientInfoStrong R D rngS self user U db s = .ok (st, .strongAugmentationInfo grp X Z ps)) :
    Server.generateClientInfoStrong R D rngS self user (f • U) db s = .ok (st, .strongAugmentationInfo grp X (f • Z) ps) ∧
      f⁻¹ • f • Z = Z := by
  refine ⟨?_, by rw [smul_smul, inv_mul_cancel₀ hf, one_smul]⟩
  simp only [Server.generateClientInfoStrong, Server.generatePrsStrong] at h ⊢
  cases hl : db.lookupVerifierStrong user with
  | some p =>
    obtain ⟨w, q, sigma⟩ := p
    simp only [hl] at h ⊢
    exact scaled_reply hf h
  | none =>
    simp only [hl, Server.lookupFailedStrong] at h ⊢
    exact scaled_reply hf h

/-- **C96 (blinded elements, partial augmentation).** -/
theorem C96_blinding_partial_aug (self : Server.AugLayer) (user : Bytes) (U : G) (db : StrongDatabase G) (kdb : PartialAugDatabase G)
    (s : σs) (f : Scalar) (hf : f ≠ 0) {st : Server.CPaceSubstep σs} {grp : Bytes} {X Z : G} {ps : Bytes}
    (h : Server.generateClientInfoPartialStrong R D rngS self user U db kdb s = .ok (st, .strongAugmentationInfo grp X Z ps)) :
    Server.generateClientInfoPartialStrong R D rngS self user (f • U) db kdb s = .ok (st, .strongAugmentationInfo grp X (f • Z) ps) := by
  simp only [Server.generateClientInfoPartialStrong, Server.generatePrsStrong] at h ⊢
  cases hk : kdb.lookupLongTermKeypair user with
  | none =>
    simp only [hk, Server.lookupFailedStrong] at h ⊢
    exact scaled_reply hf h
  | some kp =>
    cases hl : db.lookupVerifierStrong user with
    | some p =>
      obtain ⟨w, q, sigma⟩ := p
      simp only [hk, hl] at h ⊢
      exact scaled_reply hf h
    | none =>
      simp only [hk, hl, Server.lookupFailedStrong] at h ⊢
      exact scaled_reply hf h

theorem prs_inj {w w' : Scalar} {X X' : G} {ssid : Bytes} {st : Client.CPaceSubstep} {pw : Res Error Scalar} (hw : pw = .ok w)
    (hw' : pw = .ok w') (h : (Res.ok ⟨ssid, R.compress ((w * 1) • X)⟩ : Res Error Client.CPaceSubstep) = .ok st)
    (h' : (Res.ok ⟨ssid, R.compress ((w' * 1) • X')⟩ : Res Error Client.CPaceSubstep) = .ok st) : X' = X ∨ st.prs = R.compress 0 := by
  rw [hw, Res.ok.injEq] at hw'
  subst hw'
  simp only [Res.ok.injEq] at h h'
  subst h
  simp only [Client.CPaceSubstep.mk.injEq, true_and, mul_one] at h'
  have e := R.compress_injective h'
  by_cases h0 : w = 0
  · right
    simp [h0]
  · left
    exact smul_right_injective G h0 e

/-- **C96 (`X`).** A client that is given another element instead of `X`, with the same salt and parameters, is in the same state only if the
password was hashed to zero; then the password-related string is the encoding of the neutral element. Together with C36 and C37: an accepted
session has seen the server's `X`. -/
theorem C96_x (bufsiz : Nat) (self : Client.AugLayer) (X X' : G) (salt : Bytes) (params : Params) {st : Client.CPaceSubstep}
    (h : Client.generateCpace R Hs bufsiz self X salt params = .ok st)
    (h' : Client.generateCpace R Hs bufsiz self X' salt params = .ok st) : X' = X ∨ st.prs = R.compress 0 := by
  unfold Client.generateCpace at h h'
  split at h
  · cases h
  split at h'
  · cases h'
  obtain ⟨p, hp, h⟩ := Res.bind_eq_ok.1 h
  obtain ⟨w, hw, h⟩ := Res.bind_eq_ok.1 h
  obtain ⟨p', hp', h1⟩ := Res.bind_eq_ok.1 h'
  obtain ⟨w', hw', h2⟩ := Res.bind_eq_ok.1 h1
  rw [hp, Res.ok.injEq] at hp'
  subst hp'
  exact prs_inj R hw hw' h h2

/-- **C96 (`X`, with a heap buffer).** -/
theorem C96_x_alloc (self : Client.AugLayer) (X X' : G) (salt : Bytes) (params : Params) {st : Client.CPaceSubstep}
    (h : Client.generateCpaceAlloc R Hs self X salt params = .ok st)
    (h' : Client.generateCpaceAlloc R Hs self X' salt params = .ok st) : X' = X ∨ st.prs = R.compress 0 := by
  unfold Client.generateCpaceAlloc at h h'
  split at h
  · cases h
  split at h'
  · cases h'
  obtain ⟨p, hp, h⟩ := Res.bind_eq_ok.1 h
  obtain ⟨w, hw, h⟩ := Res.bind_eq_ok.1 h
  obtain ⟨p', hp', h1⟩ := Res.bind_eq_ok.1 h'
  obtain ⟨w', hw', h2⟩ := Res.bind_eq_ok.1 h1
  rw [hp, Res.ok.injEq] at hp'
  subst hp'
  exact prs_inj R hw hw' h h2

/-- **C96 (`X`, strong variants).** -/
theorem C96_x_strong (bufsiz : Nat) (self : Client.StrongAugLayer) (X X' Z : G) (params : Params) {st : Client.CPaceSubstep}
    (h : Client.generateCpaceStrong R Hs bufsiz self X Z params = .ok st)
    (h' : Client.generateCpaceStrong R Hs bufsiz self X' Z params = .ok st) : X' = X ∨ st.prs = R.compress 0 := by
  unfold Client.generateCpaceStrong at h h'
  split at h
  · cases h
  split at h'
  · cases h'
  obtain ⟨q, hq, h⟩ := Res.bind_eq_ok.1 h
  obtain ⟨p, hp, h⟩ := Res.bind_eq_ok.1 h
  obtain ⟨w, hw, h⟩ := Res.bind_eq_ok.1 h
  obtain ⟨q', hq', h0⟩ := Res.bind_eq_ok.1 h'
  rw [hq, Res.ok.injEq] at hq'
  subst hq'
  obtain ⟨p', hp', h1⟩ := Res.bind_eq_ok.1 h0
  obtain ⟨w', hw', h2⟩ := Res.bind_eq_ok.1 h1
  rw [hp, Res.ok.injEq] at hp'
  subst hp'
  exact prs_inj R hw hw' h h2

/-- **C96 (`X`, strong variants, with a heap buffer).** -/
theorem C96_x_strong_alloc (self : Client.StrongAugLayer) (X X' Z : G) (params : Params) {st : Client.CPaceSubstep}
    (h : Client.generateCpaceStrongAlloc R Hs self X Z params = .ok st)
    (h' : Client.generateCpaceStrongAlloc R Hs self X' Z params = .ok st) : X' = X ∨ st.prs = R.compress 0 := by
  unfold Client.generateCpaceStrongAlloc at h h'
  split at h
  · cases h
  split at h'
  · cases h'
  simp only at h h'
  split at h
  · cases h
  rename_i hz
  rw [if_neg hz] at h'
  obtain ⟨q, hq, h⟩ := Res.bind_eq_ok.1 h
  obtain ⟨p, hp, h⟩ := Res.bind_eq_ok.1 h
  obtain ⟨w, hw, h⟩ := Res.bind_eq_ok.1 h
  obtain ⟨q', hq', h0⟩ := Res.bind_eq_ok.1 h'
  rw [hq, Res.ok.injEq] at hq'
  subst hq'
  obtain ⟨p', hp', h1⟩ := Res.bind_eq_ok.1 h0
  obtain ⟨w', hw', h2⟩ := Res.bind_eq_ok.1 h1
  rw [hp, Res.ok.injEq] at hp'
  subst hp'
  exact prs_inj R hw hw' h h2

/-- The hypotheses of `C96_blinding` and of `C96_x` are met in the world of `World`. -/
example : (match Server.generateClientInfoStrong Ristretto.toy sha512 Rng.replay ⟨3, []⟩ World.user 5 World.dbStrong
      (World.bytes 1 200) with
      | .ok (_, .strongAugmentationInfo _ _ Z _) => decide (Z ≠ 0) | _ => false) = true ∧
    (match Client.generateCpace Ristretto.toy World.hasher 12 ⟨[], World.user, World.pass⟩ 7 (World.bytes 65 16) () with
      | .ok st => decide (st.prs ≠ Ristretto.toy.compress 0) | _ => false) = true ∧
    (match Client.generateCpaceStrong Ristretto.toy World.hasher 12 ⟨[], World.user, World.pass, 1⟩ 7 9 () with
      | .ok st => decide (st.prs ≠ Ristretto.toy.compress 0) | _ => false) = true := by
  decide +kernel

/-- The hypothesis of `C96_only_factor` is met by honest delivery, and by a relay that multiplies with 2. -/
example : ∀ f ∈ [(1 : Scalar), 2], ∃ k,
    explicitVia Ristretto.toy sha512 Rng.replay Rng.replay (f • ·) (f • ·) ⟨World.bytes 7 64, World.bytes 9 32⟩
      ⟨World.bytes 7 64, World.bytes 9 32, World.bytes 1 64⟩ (ascii "ci") (ascii "ci") (World.bytes 2 64) = .ok (k, k) := by
  intro f hf
  have h0 : f ≠ 0 := by
    rcases List.mem_pair.1 hf with rfl | rfl <;> decide
  have h := C96_factor Ristretto.toy sha512 Rng.replay Rng.replay rfl ⟨World.bytes 7 64, World.bytes 9 32⟩
    ⟨World.bytes 7 64, World.bytes 9 32, World.bytes 1 64⟩ rfl rfl (ascii "ci") (World.bytes 2 64) f h0
  simp only at h
  rw [if_neg (by decide +kernel)] at h
  exact ⟨_, h⟩

/-- Client and server states with the same SSID and password-related string, as `C96_factor` wants them. -/
example : ∃ (cli : Client.CPaceSubstep) (srv : Server.CPaceSubstep Unit) (f : Scalar),
    srv.ssid = cli.ssid ∧ srv.prs = cli.prs ∧ cli.ssid.length = 64 ∧ cli.prs.length = 32 ∧ f ≠ 0 ∧ f ≠ 1 := by
  refine ⟨⟨List.replicate 64 7, List.replicate 32 9⟩, ⟨List.replicate 64 7, List.replicate 32 9, ()⟩, 2, rfl, rfl, ?_, ?_, ?_, ?_⟩
  · simp
  · simp
  · decide
  · decide

end
end Verif.Aucpace
