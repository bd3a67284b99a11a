import Verif.Basic.Tests
import Verif.Basic.Tape
import Verif.Srp.SafePrime
import Verif.Basic.Sha

/-!
# C93 (SRP): the project's tests, for all inputs

`srp/tests/srp.rs` and `srp/tests/bad_public.rs` as programs with everything that they fix or draw as parameter. (The known-answer
tests `srp/tests/rfc5054.rs` and `srp/src/types.rs:35-45` have no free inputs; they are in `Verif.Srp.Vectors`.)
-/

namespace Verif.Srp

section
variable (D : Digest) (p : SrpGroup)

/-- `auth_test`, srp/tests/srp.rs:8-69. -/
def authTest (username truePwd authPwd salt b a : Bytes) : Res SrpAuthError Unit := do
  let verifier ← Client.computeVerifier D p username truePwd salt
  let bPub ← Server.computePublicEphemeral D p b verifier
  let clientVerifier ← (Client.processReply D p a username authPwd salt bPub).unwrapResult
  let aPub ← Client.computePublicEphemeral p a
  let serverVerifier ← (Server.processReply D p b verifier aPub).unwrapResult
  (serverVerifier.verifyClient clientVerifier.proof).unwrapResult
  (clientVerifier.verifyServer serverVerifier.proof).unwrapResult
  Res.assert (serverVerifier.key = clientVerifier.key)

/-- `bad_a_pub`, srp/tests/bad_public.rs:8-15. -/
def badAPub (b v aPub : Bytes) : Res SrpAuthError Unit := do
  let _ ← ((Server.processReply D p b v aPub).unwrapResult : Res SrpAuthError SrpServerVerifier)
  .ok ()

/-- `bad_b_pub`, srp/tests/bad_public.rs:17-24. -/
def badBPub (a username password salt bPub : Bytes) : Res SrpAuthError Unit := do
  let _ ← ((Client.processReply D p a username password salt bPub).unwrapResult : Res SrpAuthError SrpClientVerifier)
  .ok ()

/-- **C93 (SRP, `auth_test`).** For every group the library can work with, the exact outcome: it passes if `N` does not divide the
server's public value and the two secrets of the specification are the same, and panics otherwise. -/
theorem C93_srp_auth (hs : Spec.Sane p.n p.g) (hn : 1 < p.n) (hc : Nat.Coprime p.g p.n)
    (username truePwd authPwd salt b a : Bytes) :
    let v := Spec.v D p.n p.g username truePwd salt
    let B := Spec.B D p.n p.g v (beToNat b)
    let A := Spec.A p.n p.g (beToNat a)
    let u := Spec.u D A.val B.val
    authTest D p username truePwd authPwd salt b a =
      if B ≠ 0 ∧ Spec.clientS D p.n p.g B (Spec.x D username authPwd salt) (beToNat a) u = Spec.serverS A v u (beToNat b) then
        .ok ()
      else .panic := by
  intro v B A u
  have : NeZero p.n := ⟨by omega⟩
  have hvb : beToNat (Spec.enc v) = v.val := beToNat_toBytesBE _
  have hBb : beToNat (Spec.enc B) = B.val := beToNat_toBytesBE _
  have hAb : beToNat (Spec.enc A) = A.val := beToNat_toBytesBE _
  have hvz : ((beToNat (Spec.enc v) : Nat) : ZMod p.n) = v := by rw [hvb, ZMod.natCast_zmod_val]
  have hv := (C07_wire_values D p hs username truePwd salt a b []).1
  have hA := (C07_wire_values D p hs username truePwd salt a b []).2.1
  have hB := (C07_wire_values D p hs username truePwd salt a b (Spec.enc v)).2.2
  rw [hvz] at hB
  have hdvdB : p.n ∣ B.val ↔ B = 0 := by
    rw [← ZMod.natCast_eq_zero_iff, ZMod.natCast_zmod_val]
  have hdvdA : ¬ p.n ∣ A.val := by
    rw [← ZMod.natCast_eq_zero_iff, ZMod.natCast_zmod_val]
    intro h0
    have hu : IsUnit A := ((ZMod.isUnit_iff_coprime _ _).2 hc).pow _
    have : Fact (1 < p.n) := ⟨hn⟩
    rw [h0] at hu
    exact not_isUnit_zero hu
  simp only [authTest, hv, hA, Res.bind_ok]
  rw [show (Server.computePublicEphemeral D p b (Spec.enc v) : Res SrpAuthError Bytes) = .ok (Spec.enc B) from hB]
  simp only [Res.bind_ok]
  by_cases hB0 : B = 0
  · have := C02_client_rejects_multiples D p hs.1 a username authPwd salt (Spec.enc B)
      (by rw [hBb]; exact hdvdB.2 hB0)
    rw [this, if_neg (by simp [hB0])]
    rfl
  · obtain ⟨c, hc1, hck, hcp, hcv⟩ := C07_client_follows_spec D p hs username authPwd salt a (Spec.enc B)
      (by rw [hBb, hdvdB]; exact hB0)
    obtain ⟨sv, hs1, hsk, hsp, hsv⟩ := C07_server_follows_spec D p hs b (Spec.enc v) (Spec.enc A) (by rw [hAb]; exact hdvdA)
    rw [hBb] at hck hcp hcv
    rw [hAb, hvz] at hsk hsp hsv
    rw [ZMod.natCast_zmod_val] at hck hcp hcv hsk hsp hsv
    have hs1' : Server.processReply D p b (Spec.enc (Spec.v D p.n p.g username truePwd salt))
        (Spec.enc (Spec.A p.n p.g (beToNat a))) = .ok sv := hs1
    simp only [hc1, hs1', Res.unwrapResult_ok, Res.bind_ok]
    by_cases hS : Spec.clientS D p.n p.g B (Spec.x D username authPwd salt) (beToNat a) u = Spec.serverS A v u (beToNat b)
    · rw [if_pos ⟨hB0, hS⟩]
      have h1 : sv.verifyClient c.proof = .ok () := (hsv _).2 (by rw [hcp, hS]; rfl)
      have h2 : c.verifyServer sv.proof = .ok () := (hcv _).2 (by rw [hsp, hS]; rfl)
      have h3 : sv.key = c.key := by rw [hck, hsk, hS]
      rw [h1, h2]
      simp [h3]
    · rw [if_neg fun h => hS h.2]
      have h3 : sv.key ≠ c.key := by
        rw [hck, hsk]
        exact fun h => hS (ZMod.val_injective _ (toBytesBE_injective h)).symm
      rcases h1 : sv.verifyClient c.proof with ⟨⟩ | e | _
      · rcases h2 : c.verifyServer sv.proof with ⟨⟩ | e | _
        · simp [h3]
        · rfl
        · rfl
      · rfl
      · rfl

/-- **C93 (SRP, `good_password`).** With the right password the test passes for every username, password, salt and private values
unless `N` divides the server's public value. -/
theorem C93_srp_good (hs : Spec.Sane p.n p.g) (hn : 1 < p.n) (hc : Nat.Coprime p.g p.n) (username pwd salt b a : Bytes) :
    authTest D p username pwd pwd salt b a =
      if Spec.B D p.n p.g (Spec.v D p.n p.g username pwd salt) (beToNat b) ≠ 0 then .ok () else .panic := by
  rw [C93_srp_auth D p hs hn hc]
  congr 1
  simp only [ne_eq, eq_iff_iff, and_iff_left_iff_imp]
  intro _
  simp only [Spec.clientS, Spec.serverS, Spec.B, Spec.A, Spec.v, add_sub_cancel_left]
  rw [← pow_mul, ← pow_mul, ← pow_add, ← pow_mul]
  congr 1
  ring

/-- **C93 (SRP, how often `good_password` fails).** In the group of the test, and in every built-in group,
at most one of the `2^512` strings of 64 bytes that the test draws for `b` makes `good_password` fail. -/
theorem C93_srp_good_rare (p : SrpGroup)
    (hp : p ∈ [Groups.G_1024, Groups.G_1536, Groups.G_2048, Groups.G_3072, Groups.G_4096, Groups.G_6144,
      Groups.G_8192])
    (username pwd salt a : Bytes) :
    {b : Bytes | b.length = 64 ∧ authTest D p username pwd pwd salt b a ≠ .ok ()}.ncard ≤ 1 := by
  obtain ⟨hsafe, hs, hinj, -⟩ := C62_builtin p hp
  have hn : 1 < p.n := by have := (SafePrime.odd hsafe).2; omega
  have hc : Nat.Coprime p.g p.n := by
    have := Fact.mk hsafe.1
    rw [← ZMod.isUnit_iff_coprime]
    exact isUnit_iff_ne_zero.2 (SafePrime.g_ne hsafe)
  rw [Set.ncard_le_one_iff (Set.Finite.subset (finite_bytes 64) fun b hb => hb.1)]
  have key : ∀ b, authTest D p username pwd pwd salt b a ≠ .ok () →
      (p.g : ZMod p.n) ^ beToNat b = - ((Spec.k D p.n p.g : ZMod p.n) * Spec.v D p.n p.g username pwd salt) := by
    intro b hb
    rw [C93_srp_good D p hs hn hc] at hb
    split at hb
    · exact absurd rfl hb
    · rename_i h
      rw [not_not, Spec.B, add_comm] at h
      exact eq_neg_of_add_eq_zero_left h
  rintro b b' ⟨hl, hb⟩ ⟨hl', hb'⟩
  apply beToNat_inj (hl.trans hl'.symm)
  refine hinj b b' hl.le hl'.le ?_
  rw [(C07_wire_values D p hs [] [] [] b [] []).2.1, (C07_wire_values D p hs [] [] [] b' [] []).2.1, Spec.A, Spec.A,
    key b hb, key b' hb']

/-- **C93 (SRP, `bad_a_pub` and `bad_b_pub`).** For every group the library can work with and all other arguments, the two tests
panic exactly if the public value is a multiple of `N`. -/
theorem C93_srp_bad_public (hs : Spec.Sane p.n p.g) (b v aPub a username password salt bPub : Bytes) :
    (badAPub D p b v aPub = .panic ↔ p.n ∣ beToNat aPub) ∧
    (badBPub D p a username password salt bPub = .panic ↔ p.n ∣ beToNat bPub) := by
  constructor
  · by_cases h : p.n ∣ beToNat aPub
    · rw [badAPub, (C02_server_rejects_exactly D p hs b v aPub _).2 ⟨h, rfl⟩]
      simp [h]
    · obtain ⟨sv, h1, -⟩ := C07_server_follows_spec D p hs b v aPub h
      rw [badAPub, h1]
      simp [h]
  · by_cases h : p.n ∣ beToNat bPub
    · rw [badBPub, (C02_client_rejects_exactly D p hs a username password salt bPub _).2 ⟨h, rfl⟩]
      simp [h]
    · obtain ⟨sv, h1, -⟩ := C07_client_follows_spec D p hs username password salt a bPub h
      rw [badBPub, h1]
      simp [h]

end

/-! ### The tests as they stand -/

/-- `auth_test` in a small group, with the right and with a wrong password. -/
example : authTest sha1 { n := 0xE487CB5B, g := 7 } (ascii "alice") (ascii "password") (ascii "password") [1, 2, 3] [5] [6] = .ok () ∧
    authTest sha1 { n := 0xE487CB5B, g := 7 } (ascii "alice") (ascii "password") (ascii "paSsword") [1, 2, 3] [5] [6] = .panic := by
  decide +kernel

/-- The values of the two tests in `bad_public.rs`. -/
example : badAPub sha1 Groups.G_1024 [] [] (toBytesBE 0) = .panic ∧ badBPub sha1 Groups.G_1024 [] [] [] [] (toBytesBE 0) = .panic :=
  have h := C93_srp_bad_public sha1 Groups.G_1024 (Groups.C06_builtin_sane (1024, Groups.G_1024) (by simp [Groups.builtin]))
    [] [] (toBytesBE 0) [] [] [] [] (toBytesBE 0)
  ⟨h.1.2 (by rw [beToNat_toBytesBE]; exact dvd_zero _), h.2.2 (by rw [beToNat_toBytesBE]; exact dvd_zero _)⟩

end Verif.Srp
