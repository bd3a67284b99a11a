import Verif.Basic.Tests
import Verif.Spake2.Props

/-!
# C93 (SPAKE2): the project's tests, for all inputs

`spake2/tests/spake2.rs` as programs with the passwords, identities and generator outputs as parameters. (The known-answer tests in
spake2/src/lib.rs:585-783 have no free inputs; they are in `Verif.Spake2.Vectors`.)
-/

namespace Verif.Spake2

section
variable {σ τ : Type} (R : Rng σ) (R' : Rng τ)

/-- `test_basic`, spake2/tests/spake2.rs:3-18. -/
def testBasic (password idA idB : Bytes) (rng : σ) (rng' : τ) : Res Error Unit := do
  let (s1, msg1) ← startAWithRng ed25519 R password idA idB rng
  let (s2, msg2) ← startBWithRng ed25519 R' password idA idB rng'
  let key1 ← (finish ed25519 s1 msg2).unwrapResult
  let key2 ← (finish ed25519 s2 msg1).unwrapResult
  Res.assert (key1 = key2)

/-- `test_mismatch`, spake2/tests/spake2.rs:20-35. -/
def testMismatch (password1 password2 idA idB : Bytes) (rng : σ) (rng' : τ) : Res Error Unit := do
  let (s1, msg1) ← startAWithRng ed25519 R password1 idA idB rng
  let (s2, msg2) ← startBWithRng ed25519 R' password2 idA idB rng'
  let key1 ← (finish ed25519 s1 msg2).unwrapResult
  let key2 ← (finish ed25519 s2 msg1).unwrapResult
  Res.assert (key1 ≠ key2)

/-- `test_reflected_message`, spake2/tests/spake2.rs:37-46. -/
def testReflectedMessage (password idA idB : Bytes) (rng : σ) : Res Error Unit := do
  let (s1, msg1) ← startAWithRng ed25519 R password idA idB rng
  let r := finish ed25519 s1 msg1
  let e ← r.unwrapErr
  Res.assert (e = .badSide)

/-- `test_bad_length`, spake2/tests/spake2.rs:48-60, with any message in place of zeros (`extra` of the length of the test's is
`msg1.len() + 1`). -/
def testBadLength (password idA idB : Bytes) (msg2 : Bytes → Bytes) (rng : σ) : Res Error Unit := do
  let (s1, msg1) ← startAWithRng ed25519 R password idA idB rng
  let r := finish ed25519 s1 (msg2 msg1)
  let e ← r.unwrapErr
  Res.assert (e = .wrongLength)

/-- `test_basic_symmetric`, spake2/tests/spake2.rs:62-75. -/
def testBasicSymmetric (password idS : Bytes) (rng : σ) (rng' : τ) : Res Error Unit := do
  let (s1, msg1) ← startSymmetricWithRng ed25519 R password idS rng
  let (s2, msg2) ← startSymmetricWithRng ed25519 R' password idS rng'
  let key1 ← (finish ed25519 s1 msg2).unwrapResult
  let key2 ← (finish ed25519 s2 msg1).unwrapResult
  Res.assert (key1 = key2)

/-- **C93 (SPAKE2, agreement).** `test_basic` and `test_basic_symmetric` pass for all passwords and identities and all outputs of the
generators. -/
theorem C93_spake2_basic (password idA idB : Bytes) (rng : σ) (rng' : τ) :
    testBasic R R' password idA idB rng rng' = .ok () ∧ testBasicSymmetric R R' password idA rng rng' = .ok () := by
  constructor
  · obtain ⟨sA, mA, sB, mB, key, h1, h2, h3, h4, -⟩ := C16_agreement_rng R R' rng rng' password idA idB
    simp [testBasic, h1, h2, h3, h4]
  · obtain ⟨sA, mA, sB, mB, key, h1, h2, h3, h4, -⟩ := C17_agreement_rng R R' rng rng' password idA
    simp [testBasicSymmetric, h1, h2, h3, h4]

/-- **C93 (SPAKE2, mismatch).** `test_mismatch` with any two different passwords passes for all outputs of the generators, unless the
passwords or the two transcripts are a collision of SHA-256. It never returns an error. -/
theorem C93_spake2_mismatch (password1 password2 idA idB : Bytes) (hne : password1 ≠ password2) (rng : σ) (rng' : τ) :
    testMismatch R R' password1 password2 idA idB rng rng' = .ok () ∨
    (testMismatch R R' password1 password2 idA idB rng rng' = .panic ∧
      ∃ s1 msg1 s2 msg2 P Q, startAWithRng ed25519 R password1 idA idB rng = .ok (s1, msg1) ∧
        startBWithRng ed25519 R' password2 idA idB rng' = .ok (s2, msg2) ∧
        Ed25519.decompress (msg2.drop 1) = some P ∧ Ed25519.decompress (msg1.drop 1) = some Q ∧
        (sha256.Collision password1 password2 ∨
        sha256.Collision
          (Spec.transcriptAB password1 idA idB (msg1.drop 1) (msg2.drop 1)
            (Spec.shared (.A idA idB) password1 (ed25519.randomScalar R rng).val P))
          (Spec.transcriptAB password2 idA idB (msg1.drop 1) (msg2.drop 1)
            (Spec.shared (.B idA idB) password2 (ed25519.randomScalar R' rng').val Q)))) := by
  obtain ⟨s1, msg1, h1⟩ := C19_start (.A idA idB) password1 (ed25519.randomScalar R rng)
  obtain ⟨s2, msg2, h2⟩ := C19_start (.B idA idB) password2 (ed25519.randomScalar R' rng')
  obtain ⟨k1, hk1⟩ := (C24_roles h1 h2).2 trivial
  obtain ⟨k2, hk2⟩ := (C24_roles h2 h1).2 trivial
  have e1 : startAWithRng ed25519 R password1 idA idB rng = .ok (s1, msg1) := h1
  have e2 : startBWithRng ed25519 R' password2 idA idB rng' = .ok (s2, msg2) := h2
  by_cases he : k1 = k2
  · right
    subst he
    refine ⟨by simp [testMismatch, e1, e2, hk1, hk2], ?_⟩
    obtain ⟨P, Q, hP, hQ, h⟩ := C21_mismatch (r := .a) (r' := .b) h1 h2 hk1 hk2 (.inl hne)
    refine ⟨s1, msg1, s2, msg2, P, Q, e1, e2, hP, hQ, ?_⟩
    rcases h with h | h | h | h
    · exact .inl h
    · exact absurd rfl h.1
    · exact absurd rfl h.1
    · exact .inr h
  · left
    simp [testMismatch, e1, e2, hk1, hk2, he]

/-- **C93 (SPAKE2, refusals).** `test_reflected_message` passes for all passwords, identities and generator outputs; `test_bad_length`
passes for exactly the messages that do not have 33 bytes, in particular for every message of another length than the own one. -/
theorem C93_spake2_refused (password idA idB : Bytes) (msg2 : Bytes → Bytes) (rng : σ) :
    testReflectedMessage R password idA idB rng = .ok () ∧
    ∃ s1 msg1, startAWithRng ed25519 R password idA idB rng = .ok (s1, msg1) ∧ msg1.length = 33 ∧
      (testBadLength R password idA idB msg2 rng = .ok () ↔ (msg2 msg1).length ≠ msg1.length) := by
  obtain ⟨s1, msg1, h1⟩ := C19_start (.A idA idB) password (ed25519.randomScalar R rng)
  have e1 : startAWithRng ed25519 R password idA idB rng = .ok (s1, msg1) := h1
  have hr : finish ed25519 s1 msg1 = .err .badSide := C25_partial (r := .a) h1
  have hl : msg1.length = 33 := ((C18_classification h1 msg1).2.1.1 hr).1
  refine ⟨by simp [testReflectedMessage, e1, hr], s1, msg1, e1, hl, ?_⟩
  rw [hl, ← (C18_classification h1 (msg2 msg1)).1]
  simp only [testBadLength, e1, Res.bind_ok]
  cases hf : finish ed25519 s1 (msg2 msg1) with
  | ok a => simp [Res.unwrapErr]
  | err e => simp [Res.unwrapErr]
  | panic => simp [Res.unwrapErr]

/-- The message of `test_bad_length`: zeros, one more than the own message has bytes. -/
example (password idA idB : Bytes) (rng : σ) :
    testBadLength R password idA idB (fun msg1 => List.replicate (msg1.length + 1) 0) rng = .ok () := by
  obtain ⟨-, s1, msg1, -, -, h⟩ := C93_spake2_refused R password idA idB (fun msg1 => List.replicate (msg1.length + 1) 0) rng
  exact h.2 (by simp)

/-- The passwords of `test_mismatch`. -/
example : ascii "password" ≠ ascii "password2" := by decide

end
end Verif.Spake2
