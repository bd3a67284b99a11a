import Verif.Spake2.Props
import Verif.Basic.Uniform

/-!
# C57: the randomness of a SPAKE2 session

The public constructors consume 64 generator bytes; their message hides the password except for the bias of reducing
512 bits modulo the group order.
-/

namespace Verif.Spake2
open Ed25519 (Point)

instance : NeZero ell := ⟨by decide +kernel⟩

/-- A session opened through the public constructor of its side, with a generator that hands out `b`. -/
def openWith (side : Side) (pw b : Bytes) : Res Error (State Scalar × Bytes) :=
  match side with
  | .A idA idB => startAWithRng ed25519 Rng.replay pw idA idB b
  | .B idA idB => startBWithRng ed25519 Rng.replay pw idA idB b
  | .symmetric idS => startSymmetricWithRng ed25519 Rng.replay pw idS b

/-- **C57 (constructors).** The three constructors send the blinded element for the scalar given by 64 bytes of the
generator, little-endian, with the password and identities in their places. -/
theorem C57_constructors {σ : Type} (R : Rng σ) (rng : σ) (pw idA idB idS : Bytes) :
    (∃ s, startAWithRng ed25519 R pw idA idB rng = .ok (s, 0x41 :: Ed25519.compress
        (leToNat (R.fill rng 64).1 • Ed25519.base + Spec.pwNum pw • Spec.ptM)) ∧
      s.side = .A idA idB ∧ s.passwordVec = pw) ∧
    (∃ s, startBWithRng ed25519 R pw idA idB rng = .ok (s, 0x42 :: Ed25519.compress
        (leToNat (R.fill rng 64).1 • Ed25519.base + Spec.pwNum pw • Spec.ptN)) ∧
      s.side = .B idA idB ∧ s.passwordVec = pw) ∧
    (∃ s, startSymmetricWithRng ed25519 R pw idS rng = .ok (s, 0x53 :: Ed25519.compress
        (leToNat (R.fill rng 64).1 • Ed25519.base + Spec.pwNum pw • Spec.ptS)) ∧
      s.side = .symmetric idS ∧ s.passwordVec = pw) := by
  have hsm : leToNat (R.fill rng 64).1 • Ed25519.base =
      ((leToNat (R.fill rng 64).1 : ℕ) : Scalar).val • Ed25519.base := by
    rw [Ed25519.smul_base_eq_iff, ZMod.val_natCast, Nat.mod_mod]
  rw [hsm]
  refine ⟨⟨started (.A idA idB) pw (leToNat (R.fill rng 64).1 : ℕ), ?_, rfl, rfl⟩,
    ⟨started (.B idA idB) pw (leToNat (R.fill rng 64).1 : ℕ), ?_, rfl, rfl⟩,
    ⟨started (.symmetric idS) pw (leToNat (R.fill rng 64).1 : ℕ), ?_, rfl, rfl⟩⟩
  · exact start_eq _ _ _
  · exact start_eq _ _ _
  · exact start_eq _ _ _

theorem replay_fill {b : Bytes} (h : b.length = 64) : (Rng.replay.fill b 64).1 = b := by
  show (b ++ List.replicate 64 0).take 64 = b
  rw [← h, List.take_left]

theorem openWith_eq (side : Side) (pw : Bytes) {b : Bytes} (h : b.length = 64) :
    openWith side pw b = startInternal ed25519 side pw (leToNat b : Scalar) := by
  have hr : (ed25519.randomScalar Rng.replay b : Scalar) = (leToNat b : Scalar) := by
    show ((leToNat (Rng.replay.fill b 64).1 : ℕ) : Scalar) = _
    rw [replay_fill h]
  cases side with
  | A idA idB => rw [openWith, startAWithRng, startAInternal, hr]
  | B idA idB => rw [openWith, startBWithRng, startBInternal, hr]
  | symmetric idS => rw [openWith, startSymmetricWithRng, startSymmetricInternal, hr]

/-- **C57 (scalars).** Each scalar is drawn for `⌊2^512/ell⌋` or one more of the possible 64-byte outputs. -/
theorem C57_scalar_counts (x : Scalar) :
    {b : Bytes | b.length = 64 ∧ ed25519.randomScalar Rng.replay b = x}.ncard = 2 ^ 512 / ell ∨
    {b : Bytes | b.length = 64 ∧ ed25519.randomScalar Rng.replay b = x}.ncard = 2 ^ 512 / ell + 1 := by
  have he : {b : Bytes | b.length = 64 ∧ ed25519.randomScalar Rng.replay b = x} =
      {b : Bytes | b.length = 64 ∧ (leToNat b : Scalar) = x} := by
    ext b
    simp only [Set.mem_ofPred_eq]
    refine and_congr_right fun h => ?_
    have hr : (ed25519.randomScalar Rng.replay b : Scalar) = (leToNat b : Scalar) := by
      show ((leToNat (Rng.replay.fill b 64).1 : ℕ) : Scalar) = _
      rw [replay_fill h]
    rw [hr]
  have hp : (256 : ℕ) ^ 64 = 2 ^ 512 := by decide +kernel
  rw [he, ncard_residue, hp]
  by_cases h : x.val < 2 ^ 512 % ell
  · rw [if_pos h]
    exact Or.inr (Eq.refl _)
  · rw [if_neg h, add_zero]
    exact Or.inl (Eq.refl _)

/-- The scalars whose message is in `T` are as many for every password. -/
theorem scalars_card (side : Side) (pw pw' : Bytes) (T : Set Bytes) :
    {x : Scalar | ∃ s m, startInternal ed25519 side pw x = .ok (s, m) ∧ m ∈ T}.ncard =
    {x : Scalar | ∃ s m, startInternal ed25519 side pw' x = .ok (s, m) ∧ m ∈ T}.ncard := by
  refine Set.ncard_congr (fun x _ => (C26_two_passwords side pw pw' x (start_eq side pw x)).choose) ?_ ?_ ?_
  · rintro x ⟨s, m, hs, hm⟩
    obtain ⟨s', hs'⟩ := (C26_two_passwords side pw pw' x (start_eq side pw x)).choose_spec.1
    obtain ⟨-, rfl⟩ := start_inv hs
    exact ⟨s', _, hs', hm⟩
  · intro x y _ _ hxy
    obtain ⟨s', hs'⟩ := (C26_two_passwords side pw pw' x (start_eq side pw x)).choose_spec.1
    obtain ⟨t', ht'⟩ := (C26_two_passwords side pw pw' y (start_eq side pw y)).choose_spec.1
    simp only at hxy
    rw [hxy, ht', Res.ok.injEq, Prod.mk.injEq] at hs'
    have hu := C26_two_passwords side pw pw x (start_eq side pw x)
    exact hu.unique ⟨_, start_eq side pw x⟩ ⟨started side pw y, by rw [start_eq, hs'.2]⟩
  · rintro x' ⟨s', m, hs', hm⟩
    obtain ⟨x, ⟨s, hs⟩, -⟩ := C26_two_passwords side pw' pw x' hs'
    refine ⟨x, ⟨s, m, hs, hm⟩, ?_⟩
    obtain ⟨-, hmx⟩ := start_inv hs
    have hu := C26_two_passwords side pw pw' x (start_eq side pw x)
    exact hu.unique hu.choose_spec.1 ⟨s', by rw [hs', hmx]⟩

theorem openings_eq (side : Side) (pw : Bytes) (T : Set Bytes) :
    {b : Bytes | b.length = 64 ∧ ∃ s m, openWith side pw b = .ok (s, m) ∧ m ∈ T} =
    {b : Bytes | b.length = 64 ∧
      (fun x : Scalar => ∃ s m, startInternal ed25519 side pw x = .ok (s, m) ∧ m ∈ T) (leToNat b : Scalar)} := by
  ext b
  simp only [Set.mem_ofPred_eq]
  refine and_congr_right fun h => ?_
  rw [openWith_eq side pw h]

/-- **C57 (distinguishing).** For every set `T` of messages and any two passwords, the numbers of generator outputs for
which the message falls into `T` differ by at most `ell`, out of `2^512`. -/
theorem C57_indistinguishable (side : Side) (pw pw' : Bytes) (T : Set Bytes) :
    {b : Bytes | b.length = 64 ∧ ∃ s m, openWith side pw b = .ok (s, m) ∧ m ∈ T}.ncard ≤
      {b : Bytes | b.length = 64 ∧ ∃ s m, openWith side pw' b = .ok (s, m) ∧ m ∈ T}.ncard + ell := by
  have h1 := ncard_residues 64 ell (fun x : Scalar => ∃ s m, startInternal ed25519 side pw x = .ok (s, m) ∧ m ∈ T)
  have h2 := ncard_residues 64 ell (fun x : Scalar => ∃ s m, startInternal ed25519 side pw' x = .ok (s, m) ∧ m ∈ T)
  rw [scalars_card side pw' pw T] at h2
  rw [openings_eq, openings_eq]
  have hle : {x : Scalar | ∃ s m, startInternal ed25519 side pw x = .ok (s, m) ∧ m ∈ T}.ncard ≤ ell := by
    have := Set.ncard_le_card {x : Scalar | ∃ s m, startInternal ed25519 side pw x = .ok (s, m) ∧ m ∈ T}
    rwa [Nat.card_zmod] at this
  refine h1.2.trans ?_
  rw [add_mul, one_mul]
  exact Nat.add_le_add h2.1 hle

/-- **C73 (SPAKE2).** Any number of sessions, all openings of an eavesdropped exchange or of several, and any two
assignments of passwords to them: for every set `T` of tuples of messages the numbers of tuples of 64-byte generator
outputs for which the messages fall into `T` differ by at most the bias of the reduction. -/
theorem C73_spake2 {n : Nat} (side : Fin n → Side) (pw pw' : Fin n → Bytes) (T : Set (Fin n → Bytes)) :
    {b : Fin n → Bytes | (∀ i, (b i).length = 64) ∧
        ∃ m ∈ T, ∀ i, ∃ s, openWith (side i) (pw i) (b i) = .ok (s, m i)}.ncard ≤
      {b : Fin n → Bytes | (∀ i, (b i).length = 64) ∧
        ∃ m ∈ T, ∀ i, ∃ s, openWith (side i) (pw' i) (b i) = .ok (s, m i)}.ncard +
        ((2 ^ 512 / ell + 1) ^ n - (2 ^ 512 / ell) ^ n) * ell ^ n := by
  have he : ∀ pw : Fin n → Bytes, {b : Fin n → Bytes | (∀ i, (b i).length = 64) ∧
        ∃ m ∈ T, ∀ i, ∃ s, openWith (side i) (pw i) (b i) = .ok (s, m i)} =
      {b : Fin n → Bytes | (∀ i, (b i).length = 64) ∧ (fun x : Fin n → Scalar =>
        ∃ m ∈ T, ∀ i, ∃ s, startInternal ed25519 (side i) (pw i) (x i) = .ok (s, m i))
          fun i => (leToNat (b i) : Scalar)} := by
    intro pw
    ext b
    simp only [Set.mem_ofPred_eq]
    refine and_congr_right fun h => ?_
    simp only [fun i => openWith_eq (side i) (pw i) (h i)]
  have hp : (256 : ℕ) ^ 64 = 2 ^ 512 := by decide +kernel
  rw [he, he, ← hp]
  refine ncard_close_pi n 64 ell
    (T := fun x : Fin n → Scalar => ∃ m ∈ T, ∀ i, ∃ s, startInternal ed25519 (side i) (pw i) (x i) = .ok (s, m i))
    (T' := fun x : Fin n → Scalar => ∃ m ∈ T, ∀ i, ∃ s, startInternal ed25519 (side i) (pw' i) (x i) = .ok (s, m i)) ?_
  choose f hf hu using fun (pw pw' : Fin n → Bytes) (i : Fin n) (x : Scalar) =>
    C26_two_passwords (side i) (pw i) (pw' i) x (start_eq (side i) (pw i) x)
  have hmap : ∀ pw pw' i x s m, startInternal ed25519 (side i) (pw i) x = .ok (s, m) →
      ∃ s', startInternal ed25519 (side i) (pw' i) (f pw pw' i x) = .ok (s', m) := by
    intro pw pw' i x s m h
    obtain ⟨-, rfl⟩ := start_inv h
    exact hf pw pw' i x
  have hinv : ∀ pw pw' i x, f pw' pw i (f pw pw' i x) = x := by
    intro pw pw' i x
    obtain ⟨s', hs'⟩ := hf pw pw' i x
    obtain ⟨s, hs⟩ := hmap pw' pw i _ _ _ hs'
    exact (C26_two_passwords (side i) (pw i) (pw i) x (start_eq (side i) (pw i) x)).unique ⟨_, hs⟩
      ⟨_, start_eq (side i) (pw i) x⟩
  refine Set.ncard_congr (fun x _ i => f pw pw' i (x i)) ?_ ?_ ?_
  · rintro x ⟨m, hm, h⟩
    refine ⟨m, hm, fun i => ?_⟩
    obtain ⟨s, hs⟩ := h i
    exact hmap pw pw' i _ _ _ hs
  · intro x y _ _ h
    funext i
    rw [← hinv pw pw' i (x i), ← hinv pw pw' i (y i)]
    exact congrArg _ (congrFun h i)
  · rintro y ⟨m, hm, h⟩
    refine ⟨fun i => f pw' pw i (y i), ⟨m, hm, fun i => ?_⟩, funext fun i => hinv pw' pw i (y i)⟩
    obtain ⟨s, hs⟩ := h i
    exact hmap pw' pw i _ _ _ hs

/-- For one exchange, of two messages, the bound is at most `3 * 2^512 * ell`, out of `2^1024`. -/
example : ((2 ^ 512 / ell + 1) ^ 2 - (2 ^ 512 / ell) ^ 2) * ell ^ 2 ≤ 3 * 2 ^ 512 * ell := by decide +kernel

end Verif.Spake2
