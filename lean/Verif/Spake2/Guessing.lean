import Verif.Spake2.Uniform
import Verif.Basic.Game

/-!
# C84: how often an active attacker can find the key of a SPAKE2 session

The SPAKE2 part of `Aucpace.Guessing`: the attacker answers the message of a session and names a key.
-/

namespace Verif.Spake2
open Ed25519 (Point)
open Game

/-- An attacker. It chooses the side and the identities of a session, sees the encoded element (the letter before it it
knows), answers with a message and names a key. -/
structure Attacker where
  side : Hist Bytes → Side
  answer : Hist Bytes → Bytes → Bytes × Bytes

/-- A session with the password `pw` that draws its scalar from `b`: the encoded element and whether `finish` gives the
named key. -/
def session (A : Attacker) (pw : Bytes) (h : Hist Bytes) (b : Bytes) : Bytes × Bool :=
  match openWith (A.side h) pw b with
  | .ok (s, m) => (m.drop 1,
    match finish ed25519 s (A.answer h (m.drop 1)).1 with
    | .ok k => decide (k = (A.answer h (m.drop 1)).2)
    | _ => false)
  | _ => ([], false)

/-- What can go wrong in a session with draw `b`: SHA-256 does not tell the password from another candidate, or the
transcript from one of another candidate that sends the same message. -/
def Exceptional (S : Finset Bytes) (A : Attacker) (pw : Bytes) (h : Hist Bytes) (b : Bytes) : Prop :=
  let side := A.side h
  let own := Ed25519.compress (Spec.sent side pw (leToNat b : Scalar).val)
  let peer := (A.answer h own).1.drop 1
  ∃ pw' ∈ S, pw' ≠ pw ∧ (sha256.Collision pw pw' ∨ ∃ (x' : Scalar) (P : Point),
    Ed25519.compress (Spec.sent side pw' x'.val) = own ∧ Ed25519.decompress peer = some P ∧
    sha256.Collision (Spec.transcript side pw own peer (Spec.shared side pw (leToNat b : Scalar).val P))
      (Spec.transcript side pw' own peer (Spec.shared side pw' x'.val P)))

/-- The same as functions of the scalar. -/
def outR (A : Attacker) (pw : Bytes) (h : Hist Bytes) (c : Scalar) : Bytes × Bool :=
  let own := Ed25519.compress (Spec.sent (A.side h) pw c.val)
  (own,
    match finish ed25519 (started (A.side h) pw c) (A.answer h own).1 with
    | .ok k => decide (k = (A.answer h own).2)
    | _ => false)

theorem session_eq (A : Attacker) (pw : Bytes) (h : Hist Bytes) {b : Bytes} (hb : b.length = 64) :
    session A pw h b = outR A pw h (leToNat b : Scalar) := by
  rw [session, openWith_eq _ _ hb, start_eq]
  rfl

theorem outR_true {A : Attacker} {pw : Bytes} {h : Hist Bytes} {c : Scalar} (ht : (outR A pw h c).2 = true) :
    finish ed25519 (started (A.side h) pw c) (A.answer h (outR A pw h c).1).1 =
      .ok (A.answer h (outR A pw h c).1).2 := by
  simp only [outR] at ht ⊢
  split at ht
  · rename_i k hk
    rw [hk, of_decide_eq_true ht]
  · simp at ht

theorem transcript_pw {side : Side} {pw pw' own peer : Bytes} {K K' : Point}
    (h : Spec.transcript side pw own peer K = Spec.transcript side pw' own peer K') :
    sha256.hash pw = sha256.hash pw' := by
  have hl : (sha256.hash pw).length = (sha256.hash pw').length := by rw [sha256.hash_length, sha256.hash_length]
  cases side <;> simp only [Spec.transcript, Spec.transcriptAB, Spec.transcriptSym, List.append_assoc] at h <;>
    exact (List.append_inj h hl).1

/-- **C84 (SPAKE2).** The password is one of the candidates `S`; any attacker runs `n` sessions, of sides and identities it
chooses, adapting to the messages and to whether the keys it named were right. Of the `S.card * 2^(512*n)` pairs of a
candidate and generator outputs at most `n * (2^512 + ell)^n` and the exceptional ones contain a session whose key the
attacker names. -/
theorem C84_spake2 {n : Nat} (S : Finset Bytes) (A : Attacker) :
    {p : Bytes × (Fin n → Bytes) | p.1 ∈ S ∧ (∀ i, (p.2 i).length = 64) ∧
        ∃ i, accepts (session A p.1) p.2 i}.ncard ≤
      n * (2 ^ 512 + ell) ^ n +
      {p : Bytes × (Fin n → Bytes) | p.1 ∈ S ∧ (∀ i, (p.2 i).length = 64) ∧ ∃ i : Fin n,
        Exceptional S A p.1 (before (session A p.1) p.2 i) (p.2 i)}.ncard := by
  have hp : (256 : ℕ) ^ 64 = 2 ^ 512 := by decide +kernel
  let E : Bytes → Hist Bytes → Scalar → Prop := fun pw h c =>
    let side := A.side h
    let own := Ed25519.compress (Spec.sent side pw c.val)
    let peer := (A.answer h own).1.drop 1
    ∃ pw' ∈ S, pw' ≠ pw ∧ (sha256.Collision pw pw' ∨ ∃ (x' : Scalar) (P : Point),
      Ed25519.compress (Spec.sent side pw' x'.val) = own ∧ Ed25519.decompress peer = some P ∧
      sha256.Collision (Spec.transcript side pw own peer (Spec.shared side pw c.val P))
        (Spec.transcript side pw' own peer (Spec.shared side pw' x'.val P)))
  let Ms : Set Bytes := Set.range fun c : Scalar => Ed25519.compress (c.val • Ed25519.base)
  have := card_wins (m := ell) (n := n) (k := 64) S (session A) (outR A)
    (fun pw _ h b hb => session_eq A pw h hb) E Ms (Set.finite_range _) ?_ ?_ ?_ ?_
  · rw [hp] at this
    exact this
  · show (Set.range fun c : Scalar => Ed25519.compress (c.val • Ed25519.base)).ncard ≤ ell
    rw [← Set.image_univ]
    refine (Set.ncard_image_le Set.finite_univ).trans ?_
    rw [Set.ncard_univ, Nat.card_zmod]
  · intro pw _ h c
    have hP : ell • Spec.sent (A.side h) pw c.val = 0 := by
      rw [Spec.sent, nsmul_add, ← mul_nsmul', mul_comm, mul_nsmul', Ed25519.ell_base, nsmul_zero, zero_add,
        ← mul_nsmul', mul_comm, mul_nsmul', ell_mine, nsmul_zero]
    obtain ⟨k, hk, hPk⟩ := Ed25519.exists_base hP
    have hval : ((k : Scalar)).val = k := by rw [ZMod.val_natCast, Nat.mod_eq_of_lt hk]
    refine ⟨(k : Scalar), ?_⟩
    simp only [outR]
    rw [hval, hPk]
  · intro pw _ h c c' _ _ heq
    simp only [outR] at heq
    have hu := C26_two_passwords (A.side h) pw pw c (start_eq (A.side h) pw c)
    exact hu.unique ⟨_, start_eq _ _ _⟩ ⟨started (A.side h) pw c', by rw [start_eq, heq]⟩
  · intro pw hpw pw' hpw' h c c' he _ heq ha ha'
    by_contra hne
    have h1 := outR_true ha
    have h2 := outR_true ha'
    rw [← heq] at h2
    rw [finish_ok_iff] at h1 h2
    obtain ⟨-, -, P, hP, hk⟩ := h1
    obtain ⟨-, -, P', hP', hk'⟩ := h2
    rw [hP, Option.some.injEq] at hP'
    subst hP'
    refine he ⟨pw', hpw', Ne.symm hne, ?_⟩
    have heq' : Ed25519.compress (Spec.sent (A.side h) pw' c'.val) = Ed25519.compress (Spec.sent (A.side h) pw c.val) :=
      heq.symm
    rw [heq'] at hk'
    rcases sha256.eq_or_collision (hk.symm.trans hk') with e | e
    · rcases sha256.eq_or_collision (transcript_pw e) with e | e
      · exact absurd e hne
      · exact Or.inl e
    · exact Or.inr ⟨c', P, heq', hP, e⟩

/-- The attacker that tries the passwords `guess 0`, `guess 1`, … as an honest peer with the scalar `1`. -/
def guesser (guess : Nat → Bytes) (side : Side) : Attacker where
  side _ := side
  answer h own :=
    let pw := guess h.length
    let peer := Ed25519.compress (Ed25519.base + Spec.pwNum pw • Spec.peers side)
    let K := ((Ed25519.decompress own).getD 0) - Spec.pwNum pw • Spec.mine side
    (Spec.accepts side :: peer, sha256.hash (Spec.transcript side pw own peer K))

/-- **C84 (SPAKE2, attained).** An attacker that tries `n` different passwords names the key for every generator output
whenever the right one is among them. -/
theorem C84_spake2_attained {n : Nat} (guess : Nat → Bytes) (side : Side) (i : Fin n) (b : Fin n → Bytes)
    (hb : (b i).length = 64) : accepts (session (guesser guess side) (guess i)) b i := by
  rw [accepts]
  have hl := length_before (session (guesser guess side) (guess i)) b i i.2.le
  generalize before (session (guesser guess side) (guess i)) b i = h at hl ⊢
  rw [session_eq _ _ _ hb]
  generalize (leToNat (b i) : Scalar) = c
  have hf : finish ed25519 (started side (guess i) c)
      (Spec.accepts side :: Ed25519.compress (Ed25519.base + Spec.pwNum (guess i) • Spec.peers side)) =
      .ok (sha256.hash (Spec.transcript side (guess i) (Ed25519.compress (Spec.sent side (guess i) c.val))
        (Ed25519.compress (Ed25519.base + Spec.pwNum (guess i) • Spec.peers side))
        (Spec.sent side (guess i) c.val - Spec.pwNum (guess i) • Spec.mine side))) := by
    rw [finish_ok_iff]
    refine ⟨by simp [Ed25519.compress_length], rfl, _, Ed25519.decompress_compress _, ?_⟩
    rw [Spec.shared, Spec.sent, add_sub_cancel_right, add_sub_cancel_right]
    rfl
  simp only [outR, guesser, hl, Ed25519.decompress_compress, Option.getD_some]
  rw [hf]
  simp

end Verif.Spake2
