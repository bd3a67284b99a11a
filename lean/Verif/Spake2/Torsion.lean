import Verif.Spake2.Props
import Verif.Ed25519.Order

/-!
# C83: components of small order in the peer's element

The group of the curve has eight times as many elements as the group the protocol is described for. `bytes_to_element`
(spake2/src/ed25519.rs:82-93) accepts all of them and `scalar_multiply` does not multiply by the cofactor, so the shared element
contains the scalar times the component of small order of the peer's element.
-/

namespace Verif.Spake2

open Ed25519

/-- A multiple of a point of order dividing 8 depends on the last three bits of the number. -/
theorem smul_mod_eight (x : Nat) {T : Point} (hT : 8 • T = 0) : x • T = (x % 8) • T := by
  conv_lhs => rw [← Nat.div_add_mod x 8, add_nsmul, mul_comm 8, mul_nsmul', hT, nsmul_zero, zero_add]

theorem ell_base : ell • base = 0 := addOrderOf_dvd_iff_nsmul_eq_zero.1 (dvd_of_eq addOrderOf_base)

theorem nsmul_of_zero {A : Type} [AddCommGroup A] {k : Nat} {P : A} (h : k • P = 0) (n : Nat) : k • n • P = 0 := by
  rw [← mul_nsmul', mul_comm, mul_nsmul', h, nsmul_zero]

theorem nsmul_sub_of_zero {A : Type} [AddCommGroup A] {k : Nat} {P Q : A} (hP : k • P = 0) (hQ : k • Q = 0) (n m : Nat) :
    k • n • (P - m • Q) = 0 := nsmul_of_zero (by rw [nsmul_sub, hP, nsmul_of_zero hQ, sub_zero]) n

/-- **C83 (split).** Every element is the sum of one of the prime-order group and one of order dividing 8, and the second
adds to the shared element its multiple by the last three bits of the scalar, and nothing else. -/
theorem C83_split (P : Point) : ∃ Q T : Point, P = Q + T ∧ ell • Q = 0 ∧ 8 • T = 0 ∧ ∀ (side : Side) (pw : Bytes) (x : Nat),
    Spec.shared side pw x P = Spec.shared side pw x Q + (x % 8) • T ∧ ell • Spec.shared side pw x Q = 0 := by
  obtain ⟨n, t, rfl⟩ := exists_split P
  have hT : 8 • (t • tors) = 0 := nsmul_of_zero eight_tors t
  have hQ : ell • (n • base) = 0 := nsmul_of_zero ell_base n
  refine ⟨n • base, t • tors, rfl, hQ, hT, fun side pw x => ⟨?_, nsmul_sub_of_zero hQ (ell_peers side) x _⟩⟩
  rw [Spec.shared, Spec.shared, ← smul_mod_eight x hT, ← nsmul_add, add_sub_right_comm]

/-- The element of a peer that plays by the rules with scalar `y` and adds `T`. -/
def sentWith (side : Side) (pw : Bytes) (y : Nat) (T : Point) : Point := y • base + Spec.pwNum pw • Spec.peers side + T

/-- What such a peer hashes to get a candidate for the key, from the password, its scalar, the element `X` it received and a
guess `j`. -/
def candidate (side : Side) (pw : Bytes) (y : Nat) (T X : Point) (j : Nat) : Bytes :=
  Spec.transcript side pw (compress X) (compress (sentWith side pw y T)) (y • (X - Spec.pwNum pw • Spec.mine side) + j • T)

theorem transcript_inj_K {side : Side} {pw own peer : Bytes} {K K' : Point}
    (h : Spec.transcript side pw own peer K = Spec.transcript side pw own peer K') : K = K' := by
  refine compress_injective ?_
  cases side <;> exact List.append_cancel_left h

/-- **C83 (the last three bits).** A peer that knows the password and adds a point of order 8 is not refused and finds the last
three bits of the session's scalar: of its eight candidates the key is the hash of the one with these bits, and of another one
only if the two named strings collide. -/
theorem C83_bits {side : Side} {pw : Bytes} {x : Scalar} {s : State Scalar} {own : Bytes}
    (h : startInternal ed25519 side pw x = .ok (s, own)) (y : Nat) {T : Point} (hT : addOrderOf T = 8) :
    ∃ X key, own.drop 1 = compress X ∧
      finish ed25519 s (Spec.accepts side :: compress (sentWith side pw y T)) = .ok key ∧
      key = sha256.hash (candidate side pw y T X (x.val % 8)) ∧
      ∀ j < 8, key = sha256.hash (candidate side pw y T X j) →
        j = x.val % 8 ∨ sha256.Collision (candidate side pw y T X j) (candidate side pw y T X (x.val % 8)) := by
  obtain ⟨rfl, rfl⟩ := start_inv h
  have h8 : 8 • T = 0 := hT ▸ addOrderOf_nsmul_eq_zero T
  have hK : Spec.shared side pw x.val (sentWith side pw y T) =
      y • (Spec.sent side pw x.val - Spec.pwNum pw • Spec.mine side) + (x.val % 8) • T := by
    rw [← smul_mod_eight _ h8, Spec.shared, Spec.sent, sentWith, add_sub_cancel_right, add_sub_right_comm,
      add_sub_cancel_right, nsmul_add, ← mul_nsmul', ← mul_nsmul', mul_comm]
  have hf := (finish_ok_iff side pw x (Spec.accepts side :: compress (sentWith side pw y T)) _).2
    ⟨by simp [compress_length], rfl, _, decompress_compress _, rfl⟩
  refine ⟨_, _, rfl, hf, ?_, fun j hj hkey => ?_⟩
  · rw [hK]; rfl
  · by_cases hjx : j = x.val % 8
    · exact Or.inl hjx
    · refine Or.inr ⟨fun e => hjx ?_, ?_⟩
      · have e' := add_left_cancel (transcript_inj_K e)
        have := (nsmul_inj_mod (x := T)).1 e'
        rw [hT] at this
        omega
      · rw [← hkey, hK]; rfl

/-- **C83 (honest peers).** Honest messages have no such component: the shared element of two honest parties is in the
prime-order group. -/
theorem C83_honest (side side' : Side) (pw pw' : Bytes) (x y : Nat) :
    ell • Spec.sent side' pw' y = 0 ∧ ell • Spec.shared side pw x (Spec.sent side' pw' y) = 0 := by
  have h1 : ell • Spec.sent side' pw' y = 0 := by
    rw [Spec.sent, nsmul_add, nsmul_of_zero ell_base, nsmul_of_zero (ell_mine side'), add_zero]
  exact ⟨h1, nsmul_sub_of_zero h1 (ell_peers side) x _⟩

/-- Such points exist. -/
example : addOrderOf tors = 8 := addOrderOf_tors

/-- A session with scalar 5 and a peer with scalar 3 and the point of order 8: the bits are found. -/
example : ∃ s own X key, startInternal ed25519 (.A [] []) [] (5 : Scalar) = .ok (s, own) ∧ own.drop 1 = compress X ∧
    finish ed25519 s (66 :: compress (sentWith (.A [] []) [] 3 tors)) = .ok key ∧
    key = sha256.hash (candidate (.A [] []) [] 3 tors X 5) := by
  obtain ⟨s, own, h⟩ := C19_start (.A [] []) [] 5
  obtain ⟨X, key, h1, h2, h3, -⟩ := C83_bits h 3 addOrderOf_tors
  exact ⟨s, own, X, key, h, h1, h2, h3⟩

end Verif.Spake2
