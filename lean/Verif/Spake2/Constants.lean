import Verif.Spake2.Props

/-!
# Where the blinding elements of SPAKE2 come from (C71)

spake2/src/ed25519.rs:22-60 lists `M`, `N` and `S` as bytes, with comments that they come from python-spake2. There they
are `arbitrary_element(seed)` for three short seeds: hash the seed to a number, go up to the first `y` coordinate of a
point that does not vanish when multiplied by the cofactor, take the point with even `x` and multiply it by 8. Nobody
who follows that procedure learns a discrete logarithm.
-/

set_option Elab.async false

namespace Verif.Spake2.Spec
open Ed25519 (Point Fe isNegative)

/-- HKDF-SHA256 of a seed with empty salt and info `SPAKE2 arbitrary element`, 48 bytes, as a big-endian number. -/
def seedNum (seed : Bytes) : Nat :=
  let prk := hmac sha256 64 [] seed
  let t1 := hmac sha256 64 prk (ascii "SPAKE2 arbitrary element" ++ [1])
  let t2 := hmac sha256 64 prk (t1 ++ ascii "SPAKE2 arbitrary element" ++ [2])
  beToNat (t1 ++ t2.take 16)

/-- `arbitrary_element(seed)` of python-spake2 is `C`: the first `y = seedNum seed + i` that belongs to a point with a
non-neutral multiple by 8; `C` is that multiple of the point with even `x`. -/
def Derived (seed : Bytes) (C : Point) : Prop :=
  ∃ (i : Nat) (P : Point), (∀ j < i, ∀ Q : Point, Q.y = ((seedNum seed + j : ℕ) : Fe) → 8 • Q = 0) ∧
    P.y = ((seedNum seed + i : ℕ) : Fe) ∧ isNegative P.x = false ∧ C = 8 • P ∧ C ≠ 0

end Verif.Spake2.Spec

namespace Verif.Spake2
open Ed25519 (Point Fe isNegative)

/-- By Euler's criterion a number is not the `y` coordinate of a point. -/
theorem no_point {y : Nat}
    (h : powMod ((y * y + (p25519 - 1)) * (y * y * Ed25519.dNat + 1)) ((p25519 - 1) / 2) p25519 = (p25519 - 1) % p25519)
    (Q : Point) : Q.y ≠ (y : Fe) := by
  intro hy
  have hp := Ed25519.natCast_pow h
  have h1 : ((p25519 - 1 : ℕ) : Fe) = -1 := by
    rw [Nat.cast_sub Ed25519.p_pos, ZMod.natCast_self, Nat.cast_one, zero_sub]
  have hQ := (Ed25519.on_iff Q.x Q.y).1 Q.on
  rw [hy] at hQ
  rw [Nat.cast_mul, Nat.cast_add, Nat.cast_add, Nat.cast_mul, Nat.cast_mul, Nat.cast_mul, h1, Nat.cast_one, Ed25519.cast_d] at hp
  have e : ((y : Fe) * y + -1) * ((y : Fe) * y * Ed25519.edD + 1) = (((y : Fe) ^ 2 * Ed25519.edD + 1) * Q.x) ^ 2 := by
    linear_combination -((y : Fe) ^ 2 * Ed25519.edD + 1) * hQ
  rw [e, ← pow_mul] at hp
  have he : 2 * ((p25519 - 1) / 2) = p25519 - 1 := by decide +kernel
  rw [he] at hp
  by_cases hz : ((y : Fe) ^ 2 * Ed25519.edD + 1) * Q.x = 0
  · rw [hz, zero_pow (by decide +kernel)] at hp
    exact zero_ne_one (neg_eq_zero.1 hp.symm).symm
  · rw [ZMod.pow_card_sub_one_eq_one hz] at hp
    exact Ed25519.one_ne_neg_one hp

theorem ofNats_even {x y : Nat} (h) (hx : x % p25519 % 2 = 0) : isNegative (Ed25519.ofNats x y h).x = false := by
  have hv : (Ed25519.ofNats x y h).x.val = x % p25519 := by
    show ((x : ℕ) : Fe).val = _
    rw [ZMod.val_natCast]
  rw [isNegative, hv, hx]; rfl

/-- **C71.** The bytes of `const_m`, `const_n` and `const_s` decode to the elements derived from the seeds `M`, `N` and
`symmetric`. -/
theorem C71_derivation : ∃ M N S : Point,
    ed25519.constM = .ok M ∧ Spec.Derived (ascii "M") M ∧
    ed25519.constN = .ok N ∧ Spec.Derived (ascii "N") N ∧
    ed25519.constS = .ok S ∧ Spec.Derived (ascii "symmetric") S := by
  obtain ⟨M, N, S, hM, hN, hS, -, -, -, -, -, -, zM, zN, zS, -⟩ := C27_constants
  have eM : Spec.ptM = M := Res.ok.inj (constM_eq.symm.trans hM)
  have eN : Spec.ptN = N := Res.ok.inj (constN_eq.symm.trans hN)
  have eS : Spec.ptS = S := Res.ok.inj (constS_eq.symm.trans hS)
  refine ⟨M, N, S, hM, ⟨0, Ed25519.ofNats
      34919762351520935093476300694752229865857051440990185238669183715205011879926
      16803151970022741638227100401416037196992453691284752745837832542336594488934 (by decide +kernel), ?_, ?_, ?_, ?_, zM⟩,
    hN, ⟨1, Ed25519.ofNats
      36795929583260430501457698270563681846831656372981615576692588542322945495278
      29869825065217382754324980567667048704176063106014865830823870481347946503803 (by decide +kernel), ?_, ?_, ?_, ?_, zN⟩,
    hS, ⟨2, Ed25519.ofNats
      56616136613748074770169964435160626583531919404672604230085582684690909574816
      10865607805354553388895993957744293575926148117286444082381533948296208641290 (by decide +kernel), ?_, ?_, ?_, ?_, zS⟩⟩
  · intro j hj; omega
  · exact Ed25519.natCast_eq (by decide +kernel)
  · exact ofNats_even _ (by decide +kernel)
  · exact eM.symm.trans (Ed25519.smul_eq_of (Ed25519.rep_ofNats _ _ _) (Ed25519.rep_ofNats _ _ _) (by decide +kernel)).symm
  · intro j hj Q hQ
    obtain rfl : j = 0 := by omega
    exact absurd hQ (no_point (by decide +kernel) Q)
  · exact Ed25519.natCast_eq (by decide +kernel)
  · exact ofNats_even _ (by decide +kernel)
  · exact eN.symm.trans (Ed25519.smul_eq_of (Ed25519.rep_ofNats _ _ _) (Ed25519.rep_ofNats _ _ _) (by decide +kernel)).symm
  · intro j hj Q hQ
    have : j = 0 ∨ j = 1 := by omega
    rcases this with rfl | rfl
    · exact absurd hQ (no_point (by decide +kernel) Q)
    · exact absurd hQ (no_point (by decide +kernel) Q)
  · exact Ed25519.natCast_eq (by decide +kernel)
  · exact ofNats_even _ (by decide +kernel)
  · exact eS.symm.trans (Ed25519.smul_eq_of (Ed25519.rep_ofNats _ _ _) (Ed25519.rep_ofNats _ _ _) (by decide +kernel)).symm

/-- **C71.** The derivation leaves no choice: every seed has at most one element. -/
theorem C71_unique {seed : Bytes} {C C' : Point} (h : Spec.Derived seed C) (h' : Spec.Derived seed C') : C = C' := by
  obtain ⟨i, P, hi, hy, hx, rfl, hz⟩ := h
  obtain ⟨i', P', hi', hy', hx', rfl, hz'⟩ := h'
  rcases Nat.lt_trichotomy i i' with hlt | rfl | hlt
  · exact absurd (hi' i hlt P hy) hz
  · rw [Ed25519.point_ext (hy.trans hy'.symm) (hx.trans hx'.symm)]
  · exact absurd (hi i' hlt P' hy') hz'

/-- The hypothesis is met by the constants, and their seeds are different. -/
example : (∃ M : Point, Spec.Derived (ascii "M") M) ∧ (∃ N : Point, Spec.Derived (ascii "N") N) ∧ ascii "M" ≠ ascii "N" := by
  obtain ⟨M, N, -, -, hM, -, hN, -⟩ := C71_derivation
  exact ⟨⟨M, hM⟩, ⟨N, hN⟩, by decide⟩

/-- **C71.** Every seed has an element, so the procedure is a function. -/
theorem C71_total (seed : Bytes) : ∃! C : Point, Spec.Derived seed C := by
  have h8 : (8 : ℕ) • Ed25519.base ≠ 0 := by
    intro h
    have := addOrderOf_dvd_iff_nsmul_eq_zero.2 h
    rw [Ed25519.addOrderOf_base] at this
    exact absurd (Nat.le_of_dvd (by decide) this) (by decide +kernel)
  have hex : ∃ i : Nat, ∃ Q : Point, Q.y = ((Spec.seedNum seed + i : ℕ) : Fe) ∧ 8 • Q ≠ 0 := by
    refine ⟨(Ed25519.base.y - ((Spec.seedNum seed : ℕ) : Fe)).val, Ed25519.base, ?_, h8⟩
    rw [Nat.cast_add, ZMod.natCast_zmod_val, add_sub_cancel]
  classical
  obtain ⟨Q, hy, hz⟩ := Nat.find_spec hex
  have hmin : ∀ j < Nat.find hex, ∀ R : Point, R.y = ((Spec.seedNum seed + j : ℕ) : Fe) → 8 • R = 0 := by
    intro j hj R hR
    by_contra hne
    exact Nat.find_min hex hj ⟨R, hR, hne⟩
  have : ∃ C, Spec.Derived seed C := by
    cases hs : isNegative Q.x with
    | false => exact ⟨_, _, Q, hmin, hy, hs, rfl, hz⟩
    | true =>
      have hx : Q.x ≠ 0 := by
        intro h0; rw [h0, Ed25519.isNegative_zero] at hs; exact Bool.noConfusion hs
      refine ⟨_, _, -Q, hmin, hy, ?_, rfl, ?_⟩
      · show isNegative (-Q.x) = false
        rw [Ed25519.isNegative_neg hx, hs]; rfl
      · rw [smul_neg]; exact neg_ne_zero.2 hz
  obtain ⟨C, hC⟩ := this
  exact ⟨C, hC, fun C' hC' => C71_unique hC' hC⟩

end Verif.Spake2
