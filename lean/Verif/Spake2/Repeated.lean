import Verif.Spake2.Uniform

/-!
# C90 (SPAKE2): what a repeated scalar gives away

The scalar of a session comes from the caller's generator. If the generator repeats itself (a restored snapshot, a fork), two
sessions use the same scalar, and their messages together are consistent with few pairs of passwords only, whereas each of them
alone is consistent with all (C26).
-/

namespace Verif.Spake2
open Ed25519 (Point)

/-- Multiples of an element of prime order. -/
theorem nsmul_eq_iff_mod {A : Type} [AddCommGroup A] {n : Nat} (hn : n.Prime) {P : A} (hP : n • P = 0) (h0 : P ≠ 0) (i j : Nat) :
    i • P = j • P ↔ i % n = j % n := by
  have : Fact n.Prime := ⟨hn⟩
  have ho : addOrderOf P = n := addOrderOf_eq_prime hP h0
  rw [nsmul_inj_mod, ho]

theorem pwNum_lt (pw : Bytes) : Spec.pwNum pw < ell := Nat.mod_lt _ (NeZero.pos ell)

theorem openWith_iff (side : Side) (pw : Bytes) {b : Bytes} (hb : b.length = 64) (m : Bytes) :
    (∃ s, openWith side pw b = .ok (s, m)) ↔
      m = Spec.letter side :: Ed25519.compress (Spec.sent side pw (leToNat b : Scalar).val) := by
  rw [openWith_eq side pw hb, start_eq]
  simp only [Res.ok.injEq, Prod.mk.injEq, exists_and_right, exists_eq', true_and]
  exact eq_comm

theorem exists_bytes (x : Scalar) : ∃ b : Bytes, b.length = 64 ∧ (leToNat b : Scalar) = x := by
  refine ⟨leFixed 64 x.val, leFixed_length _ _, ?_⟩
  rw [leToNat_leFixed, Nat.mod_eq_of_lt, ZMod.natCast_zmod_val]
  exact (ZMod.val_lt x).trans (by decide +kernel)

/-- **C90 (SPAKE2).** Two sessions are opened with the same 64 bytes from the generator. A pair of passwords is consistent with
both messages, for some bytes of the generator, exactly if it satisfies one equation between elements, which anybody who sees
the messages can check. -/
theorem C90_spake2 (side side' : Side) (pw pw' p p' b : Bytes) (hb : b.length = 64) {s s' : State Scalar} {m m' : Bytes}
    (h : openWith side pw b = .ok (s, m)) (h' : openWith side' pw' b = .ok (s', m')) :
    (∃ b' : Bytes, b'.length = 64 ∧ (∃ t, openWith side p b' = .ok (t, m)) ∧ ∃ t', openWith side' p' b' = .ok (t', m')) ↔
      Spec.pwNum p • Spec.mine side - Spec.pwNum p' • Spec.mine side' =
        Spec.pwNum pw • Spec.mine side - Spec.pwNum pw' • Spec.mine side' := by
  have hm := (openWith_iff side pw hb m).1 ⟨s, h⟩
  have hm' := (openWith_iff side' pw' hb m').1 ⟨s', h'⟩
  constructor
  · rintro ⟨b', hb', h1, h2⟩
    rw [openWith_iff side p hb', hm, List.cons.injEq] at h1
    rw [openWith_iff side' p' hb', hm', List.cons.injEq] at h2
    have e1 := Ed25519.compress_injective h1.2
    have e2 := Ed25519.compress_injective h2.2
    rw [Spec.sent, Spec.sent] at e1 e2
    generalize (leToNat b' : Scalar).val • Ed25519.base = X' at e1 e2
    generalize (leToNat b : Scalar).val • Ed25519.base = X at e1 e2
    have e1' : Spec.pwNum p • Spec.mine side = X + Spec.pwNum pw • Spec.mine side - X' := by rw [e1]; abel
    have e2' : Spec.pwNum p' • Spec.mine side' = X + Spec.pwNum pw' • Spec.mine side' - X' := by rw [e2]; abel
    rw [e1', e2']
    abel
  · intro e
    obtain ⟨x, ⟨t, hx⟩, -⟩ := (C26_message_independent_of_password side p m).1
      ((C26_message_independent_of_password side pw m).2 (by
        obtain ⟨y, hy, hu⟩ := C26_two_passwords side pw pw (leToNat b : Scalar) (by rw [← openWith_eq side pw hb]; exact h)
        exact ⟨y, hy, hu⟩))
    obtain ⟨b', hb', rfl⟩ := exists_bytes x
    have h1 := (openWith_iff side p hb' m).1 ⟨t, by rw [openWith_eq side p hb']; exact hx⟩
    refine ⟨b', hb', (openWith_iff side p hb' m).2 h1, (openWith_iff side' p' hb' m').2 ?_⟩
    rw [hm, List.cons.injEq] at h1
    have e1 := Ed25519.compress_injective h1.2
    rw [hm', Spec.sent, Spec.sent]
    rw [Spec.sent, Spec.sent] at e1
    generalize (leToNat b' : Scalar).val • Ed25519.base = X' at e1 ⊢
    generalize (leToNat b : Scalar).val • Ed25519.base = X at e1 ⊢
    have : X' + Spec.pwNum p' • Spec.mine side' = X + Spec.pwNum pw' • Spec.mine side' := by
      have e1' : X' = X + Spec.pwNum pw • Spec.mine side - Spec.pwNum p • Spec.mine side := by rw [e1]; abel
      have e' : Spec.pwNum p • Spec.mine side = Spec.pwNum pw • Spec.mine side - Spec.pwNum pw' • Spec.mine side' +
        Spec.pwNum p' • Spec.mine side' := by rw [← e]; abel
      rw [e1', e']
      abel
    rw [this]

theorem mine_ne_zero (side : Side) : Spec.mine side ≠ 0 := by
  obtain ⟨M, N, S, hM, hN, hS, -, -, -, -, -, -, h1, h2, h3, -⟩ := C27_constants
  rw [constM_eq, Res.ok.injEq] at hM
  rw [constN_eq, Res.ok.injEq] at hN
  rw [constS_eq, Res.ok.injEq] at hS
  subst hM; subst hN; subst hS
  cases side
  · exact h1
  · exact h2
  · exact h3

/-- **C90 (SPAKE2, one password known).** If both sessions have the same side and the password of one of them is known, exactly
the passwords with the scalar of the other one remain: an observer tests candidates without taking part. -/
theorem C90_known (side : Side) (pw pw' p' b : Bytes) (hb : b.length = 64) {s s' : State Scalar} {m m' : Bytes}
    (h : openWith side pw b = .ok (s, m)) (h' : openWith side pw' b = .ok (s', m')) :
    (∃ b' : Bytes, b'.length = 64 ∧ (∃ t, openWith side pw b' = .ok (t, m)) ∧ ∃ t', openWith side p' b' = .ok (t', m')) ↔
      Spec.pwNum p' = Spec.pwNum pw' := by
  rw [C90_spake2 side side pw pw' pw p' b hb h h', sub_right_inj,
    nsmul_eq_iff_mod ell_prime (ell_mine side) (mine_ne_zero side), Nat.mod_eq_of_lt (pwNum_lt _),
    Nat.mod_eq_of_lt (pwNum_lt _)]

/-- **C90 (SPAKE2, linking).** With the same side the two messages are the same exactly if the passwords have the same scalar. -/
theorem C90_linked (side : Side) (pw pw' b : Bytes) (hb : b.length = 64) {s s' : State Scalar} {m m' : Bytes}
    (h : openWith side pw b = .ok (s, m)) (h' : openWith side pw' b = .ok (s', m')) :
    m = m' ↔ Spec.pwNum pw = Spec.pwNum pw' := by
  rw [(openWith_iff side pw hb m).1 ⟨s, h⟩, (openWith_iff side pw' hb m').1 ⟨s', h'⟩, List.cons.injEq, Spec.sent, Spec.sent]
  rw [Ed25519.compress_injective.eq_iff, add_right_inj,
    nsmul_eq_iff_mod ell_prime (ell_mine side) (mine_ne_zero side), Nat.mod_eq_of_lt (pwNum_lt _),
    Nat.mod_eq_of_lt (pwNum_lt _)]
  exact and_iff_right rfl

/-- **C90 (SPAKE2, both roles).** If one party opens sessions in both roles with the same password and the same bytes from the
generator, exactly the passwords with its scalar remain. -/
theorem C90_roles (idA idB idA' idB' pw p b : Bytes) (hb : b.length = 64) {s s' : State Scalar} {m m' : Bytes}
    (h : openWith (.A idA idB) pw b = .ok (s, m)) (h' : openWith (.B idA' idB') pw b = .ok (s', m')) :
    (∃ b' : Bytes, b'.length = 64 ∧ (∃ t, openWith (.A idA idB) p b' = .ok (t, m)) ∧
      ∃ t', openWith (.B idA' idB') p b' = .ok (t', m')) ↔ Spec.pwNum p = Spec.pwNum pw := by
  obtain ⟨M, N, S, hM, hN, hS, -, -, -, h1, h2, -, -, -, -, hne, -⟩ := C27_constants
  rw [constM_eq, Res.ok.injEq] at hM
  rw [constN_eq, Res.ok.injEq] at hN
  subst hM; subst hN
  rw [C90_spake2 _ _ pw pw p p b hb h h']
  simp only [Spec.mine]
  rw [← nsmul_sub, ← nsmul_sub, nsmul_eq_iff_mod ell_prime (by rw [nsmul_sub, h1, h2, sub_zero]) (sub_ne_zero.2 hne),
    Nat.mod_eq_of_lt (pwNum_lt _), Nat.mod_eq_of_lt (pwNum_lt _)]

/-- Two sessions with the same bytes and different passwords: of a dictionary of two passwords only the right one remains. -/
example : ∃ s s' m m', openWith (.symmetric []) (ascii "known") (List.replicate 64 7) = .ok (s, m) ∧
    openWith (.symmetric []) (ascii "secret") (List.replicate 64 7) = .ok (s', m') ∧
    Spec.pwNum (ascii "other") ≠ Spec.pwNum (ascii "secret") := by
  have h := fun pw => openWith_eq (.symmetric []) pw (b := List.replicate 64 7) (by decide)
  exact ⟨_, _, _, _, (h _).trans (start_eq _ _ _), (h _).trans (start_eq _ _ _), by decide +kernel⟩

end Verif.Spake2
