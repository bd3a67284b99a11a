import Verif.Spake2.Generic

/-!
# The test vectors of the `spake2` crate, evaluated in the model

These are tests of the model, not proofs of properties: they tie the definitions (SHA-256, HMAC, HKDF, the curve, the
encodings, the transcript) to the values in spake2/src/lib.rs:584-783, which python-spake2 produced.
-/

namespace Verif.Spake2
open Ed25519 (Point)

/-- `x * base + w * P`, evaluated. -/
theorem compress_sum {X Y Z X' Y' Z' : Nat} {P Q : Point} (hP : Ed25519.Rep X Y Z P)
    (hQ : Ed25519.Rep X' Y' Z' Q) (n w : Nat) :
    Ed25519.compress (n • P + w • Q) =
      Ed25519.mulK n X Y Z fun a b c => Ed25519.mulK w X' Y' Z' fun d e f =>
        Ed25519.addK a b c d e f Ed25519.compressK := by
  obtain ⟨a, b, c, h1, r1⟩ := Ed25519.mulK_spec n hP
  obtain ⟨d, e, f, h2, r2⟩ := Ed25519.mulK_spec w hQ
  obtain ⟨x, y, z, h3, r3⟩ := Ed25519.addK_spec r1 r2
  rw [h1, h2, h3, Ed25519.compressK_spec r3]

theorem compress_smul {X Y Z : Nat} {P : Point} (hP : Ed25519.Rep X Y Z P) (n : Nat) :
    Ed25519.compress (n • P) = Ed25519.mulK n X Y Z Ed25519.compressK := by
  obtain ⟨a, b, c, h1, r1⟩ := Ed25519.mulK_spec n hP
  rw [h1, Ed25519.compressK_spec r1]

/-- spake2/src/lib.rs:601-614 `test_convert` -/
example : leFixed 32 2238329342913194256032495932344128051776374960164957527413114840482143558222 =
  [78, 90, 180, 52, 93, 71, 8, 132, 89, 19, 180, 100, 27, 194, 125, 82, 82, 165, 133, 16, 27, 204, 66, 68,
   212, 73, 244, 168, 121, 217, 242, 4] := by
  decide +kernel

/-- spake2/src/lib.rs:616-625 `test_serialize_basepoint` -/
theorem vector_basepoint : Ed25519.compress Ed25519.base = 0x58 :: List.replicate 31 0x66 := by
  rw [← Ed25519.compressK_spec Ed25519.rep_base]; decide +kernel

/-- spake2/src/lib.rs:627-637 `test_password_to_scalar` -/
theorem vector_password : Spec.pwNum (ascii "password") =
    3515301705789368674385125653994241092664323519848410154015274772661223168839 := by
  decide +kernel

/-- spake2/src/lib.rs:674-686 `test_hash_ab` -/
theorem vector_hash_ab :
    hashAb (ascii "pw") (ascii "idA") (ascii "idB") (List.replicate 32 88) (List.replicate 32 89)
      (List.replicate 32 75) = .ok
  [213, 157, 155, 169, 32, 247, 9, 37, 101, 206, 199, 71, 176, 141, 91, 46, 152, 29, 85, 58, 195, 47, 222,
   15, 37, 229, 180, 164, 207, 202, 62, 253] := by
  decide +kernel

/-- spake2/src/lib.rs:688-699 `test_hash_symmetric` -/
theorem vector_hash_symmetric :
    hashSymmetric (ascii "pw") (ascii "idSymmetric") (List.replicate 32 88) (List.replicate 32 89)
      (List.replicate 32 75) = .ok
  [176, 179, 30, 68, 1, 170, 227, 125, 145, 169, 168, 191, 111, 187, 18, 152, 202, 252, 0, 95, 249, 20, 46,
   63, 252, 91, 151, 153, 251, 17, 18, 139] := by
  decide +kernel

/-! ## spake2/src/lib.rs:701-758 `test_asymmetric` -/

/-- `scalar_a` -/
def scalarA : Nat := 2611694063369306139794446498317402240796898290761098242657700742213257926693

/-- `scalar_b` -/
def scalarB : Nat := 7002393159576182977806091886122272758628412261510164356026361256515836884383

/-- `expected_msg1` -/
def msgA : Bytes :=
  [65, 111, 201, 96, 223, 115, 201, 207, 142, 215, 25, 139, 12, 149, 52, 226, 233, 106, 89, 132, 191, 197,
   237, 192, 35, 253, 36, 218, 207, 55, 31, 42, 249]

/-- the expected `msg2` -/
def msgB : Bytes :=
  [66, 53, 78, 151, 184, 132, 6, 146, 43, 29, 244, 190, 161, 215, 135, 15, 23, 174, 211, 219, 167, 199, 32,
   179, 19, 237, 174, 49, 91, 0, 149, 147, 9]

/-- the expected key -/
def keyAB : Bytes :=
  [113, 34, 149, 222, 114, 25, 198, 117, 221, 211, 25, 66, 24, 74, 162, 110, 10, 149, 124, 242, 22, 188, 35,
   13, 22, 91, 33, 80, 71, 181, 32, 193]

theorem val_scalarA : ((scalarA : ℕ) : Scalar).val = scalarA := by
  rw [ZMod.val_natCast]; decide +kernel

theorem val_scalarB : ((scalarB : ℕ) : Scalar).val = scalarB := by
  rw [ZMod.val_natCast]; decide +kernel

theorem rep_M : Ed25519.Rep
    56797357330922913988458593931122727936228661521514257091994679493501599747208
    8204578689594358005372171711129318668375319275647443160930343040183052652309 1
    Spec.ptM := Ed25519.rep_ofNats _ _ _
theorem rep_N : Ed25519.Rep
    19859997596809371560572533813761263760519810596029049894518304267365992636715
    30537998347346252243850043725805156294608304431216408003238882613177304895472 1
    Spec.ptN := Ed25519.rep_ofNats _ _ _
theorem rep_S : Ed25519.Rep
    39117479951501417523307395387645076206310007454599558501990001730569162809603
    51518999502832141103326086221524057635361811362657814462420774639771850506351 1
    Spec.ptS := Ed25519.rep_ofNats _ _ _

theorem sent_A : Spec.letter (.A (ascii "idA") (ascii "idB")) :: Ed25519.compress
    (Spec.sent (.A (ascii "idA") (ascii "idB")) (ascii "password") scalarA) = msgA := by
  rw [Spec.sent, vector_password, Spec.mine, compress_sum Ed25519.rep_base rep_M]
  decide +kernel

theorem sent_B : Spec.letter (.B (ascii "idA") (ascii "idB")) :: Ed25519.compress
    (Spec.sent (.B (ascii "idA") (ascii "idB")) (ascii "password") scalarB) = msgB := by
  rw [Spec.sent, vector_password, Spec.mine, compress_sum Ed25519.rep_base rep_N]
  decide +kernel

theorem vector_start_a : startAInternal ed25519 (ascii "password") (ascii "idA") (ascii "idB")
    (scalarA : ℕ) = .ok (started (.A (ascii "idA") (ascii "idB")) (ascii "password") (scalarA : ℕ), msgA) := by
  rw [startAInternal, start_eq, val_scalarA, sent_A]

theorem vector_start_b : startBInternal ed25519 (ascii "password") (ascii "idA") (ascii "idB")
    (scalarB : ℕ) = .ok (started (.B (ascii "idA") (ascii "idB")) (ascii "password") (scalarB : ℕ), msgB) := by
  rw [startBInternal, start_eq, val_scalarB, sent_B]

/-- The shared element of the test. -/
theorem vector_shared : Ed25519.compress ((scalarA * scalarB) • Ed25519.base) =
    Ed25519.mulK (scalarA * scalarB) Ed25519.baseX Ed25519.baseY 1 Ed25519.compressK := compress_smul Ed25519.rep_base _

theorem vector_transcript : sha256.hash (Spec.transcriptAB (ascii "password") (ascii "idA") (ascii "idB")
    (msgA.drop 1) (msgB.drop 1) ((scalarA * scalarB) • Ed25519.base)) = keyAB := by
  rw [Spec.transcriptAB, vector_shared]
  decide +kernel

/-- Both sides of the test derive the expected key. -/
theorem vector_finish_a : finish ed25519
    (started (.A (ascii "idA") (ascii "idB")) (ascii "password") (scalarA : ℕ)) msgB = .ok keyAB := by
  rw [finish_ok_iff, ← sent_B]
  refine ⟨by simp [Ed25519.compress_length], rfl, _, Ed25519.decompress_compress _, ?_⟩
  have hA := congrArg (List.drop 1) sent_A
  have hB := congrArg (List.drop 1) sent_B
  rw [List.drop_succ_cons, List.drop_zero] at hA hB
  rw [shared_eq (.A (ascii "idA") (ascii "idB")) (.B (ascii "idA") (ascii "idB")) _ _ _ rfl, val_scalarA, hA,
    List.drop_succ_cons, List.drop_zero, hB, Spec.transcript, vector_transcript]

theorem vector_finish_b : finish ed25519
    (started (.B (ascii "idA") (ascii "idB")) (ascii "password") (scalarB : ℕ)) msgA = .ok keyAB := by
  rw [finish_ok_iff, ← sent_A]
  refine ⟨by simp [Ed25519.compress_length], rfl, _, Ed25519.decompress_compress _, ?_⟩
  have hA := congrArg (List.drop 1) sent_A
  have hB := congrArg (List.drop 1) sent_B
  rw [List.drop_succ_cons, List.drop_zero] at hA hB
  rw [shared_eq (.B (ascii "idA") (ascii "idB")) (.A (ascii "idA") (ascii "idB")) _ _ _ rfl, val_scalarB, hB,
    List.drop_succ_cons, List.drop_zero, hA, Spec.transcript, mul_comm, vector_transcript]

/-! ## spake2/src/lib.rs:760-782 `test_debug` -/

theorem vector_debug_a : State.debug ed25519
    (started (.A (ascii "idA") (ascii "idB")) (ascii "password") (scalarA : ℕ)) =
    ascii "SPAKE2 { group: \"Ed25519\", side: Side::A { idA: (s=idA), idB: (s=idB) } }" := by
  unfold State.debug started
  decide +kernel

theorem vector_debug_symmetric : State.debug ed25519
    (started (.symmetric (ascii "idS")) (ascii "password") (scalarA : ℕ)) =
    ascii "SPAKE2 { group: \"Ed25519\", side: Side::Symmetric { idS: (s=idS) } }" := by
  unfold State.debug started
  decide +kernel

/-! ## Instances of the hypotheses of the property theorems -/

/-- C18, C21, C23: a session, and a message it accepts. -/
example : ∃ s own key, startInternal ed25519 (.A (ascii "idA") (ascii "idB")) (ascii "password") (scalarA : ℕ) =
    .ok (s, own) ∧ finish ed25519 s msgB = .ok key := ⟨_, _, _, vector_start_a, vector_finish_a⟩

/-- C23: the same point (the identity) in three encodings: canonical, with a sign bit, and with `y = p + 1`. All
decode, so a session accepts three different messages for it. -/
theorem three_encodings :
    Ed25519.decompress (leFixed 32 1) = some 0 ∧
    Ed25519.decompress (leFixed 32 (1 + 2 ^ 255)) = some 0 ∧
    Ed25519.decompress (leFixed 32 (p25519 + 1)) = some 0 := by
  refine ⟨?_, ?_, ?_⟩
  · rw [Ed25519.decompress_eq_some_iff]
    refine ⟨by decide +kernel, ?_, Or.inr Edwards.zero_x⟩
    rw [Edwards.zero_y, Ed25519.feOfBytes, ← Nat.cast_one]
    exact Ed25519.natCast_eq (by decide +kernel)
  · rw [Ed25519.decompress_eq_some_iff]
    refine ⟨by decide +kernel, ?_, Or.inr Edwards.zero_x⟩
    rw [Edwards.zero_y, Ed25519.feOfBytes, ← Nat.cast_one]
    exact Ed25519.natCast_eq (by decide +kernel)
  · rw [Ed25519.decompress_eq_some_iff]
    refine ⟨by decide +kernel, ?_, Or.inr Edwards.zero_x⟩
    rw [Edwards.zero_y, Ed25519.feOfBytes, ← Nat.cast_one]
    exact Ed25519.natCast_eq (by decide +kernel)

/-- C18: `y = 2` is not on the curve, so the third class of errors is inhabited. -/
theorem not_decodable : Ed25519.decompress (leFixed 32 2) = none := by
  rw [Option.eq_none_iff_forall_ne_some]
  intro P hP
  obtain ⟨-, hy, -⟩ := (Ed25519.decompress_eq_some_iff _ P).1 hP
  have hon := (Ed25519.on_iff P.x P.y).1 P.on
  have hy2 : P.y = ((2 : ℕ) : Ed25519.Fe) := by
    rw [hy, Ed25519.feOfBytes]
    exact Ed25519.natCast_eq (by decide +kernel)
  rw [hy2] at hon
  obtain ⟨x, hx⟩ : ∃ x, x = P.x := ⟨_, rfl⟩
  rw [← hx] at hon
  obtain ⟨z, hz⟩ : ∃ z, z = (((2 : ℕ) : Ed25519.Fe) ^ 2 * Ed25519.edD + 1) * x := ⟨_, rfl⟩
  have hz2 : z ^ 2 = ((3 * (4 * Ed25519.dNat + 1) : ℕ) : Ed25519.Fe) := by
    push_cast
    rw [Ed25519.cast_d]
    have h4 : ((2 : ℕ) : Ed25519.Fe) ^ 2 * Ed25519.edD + 1 = 4 * Ed25519.edD + 1 := by
      push_cast; ring
    rw [h4] at hon hz
    have h3 : ((2 : ℕ) : Ed25519.Fe) ^ 2 - 1 = 3 := by push_cast; ring
    rw [h3] at hon
    rw [hz, mul_pow, sq (4 * Ed25519.edD + 1), mul_assoc, hon]
    ring
  have hp : ((3 * (4 * Ed25519.dNat + 1) : ℕ) : Ed25519.Fe) ^ ((p25519 - 1) / 2) =
      ((p25519 - 1 : ℕ) : Ed25519.Fe) := Ed25519.natCast_pow (by decide +kernel)
  rw [← hz2, ← pow_mul, show 2 * ((p25519 - 1) / 2) = p25519 - 1 by decide +kernel] at hp
  have hz0 : z ≠ 0 := by
    intro h
    rw [h, zero_pow two_ne_zero, ← Nat.cast_zero] at hz2
    exact Ed25519.natCast_ne (by decide +kernel) hz2
  rw [ZMod.pow_card_sub_one_eq_one hz0, ← Nat.cast_one] at hp
  exact Ed25519.natCast_ne (by decide +kernel) hp

/-- ... and the message carrying it is refused as corrupt. -/
example : finish ed25519 (started (.A (ascii "idA") (ascii "idB")) (ascii "password") (scalarA : ℕ))
    (0x42 :: leFixed 32 2) = .err .corruptMessage := by
  rw [finish_cons _ _ _ _ _ (by decide +kernel), not_decodable]
  rfl

end Verif.Spake2
