import Verif.Ristretto.Encode

/-!
# The map from uniform bytes

`RistrettoPoint::elligator_ristretto_flavor` and `RistrettoPoint::from_uniform_bytes` of curve25519-dalek 4.1.3
(`src/ristretto.rs`).
-/

namespace Verif.Ristretto
open Ed25519 (Fe Point edD sqrtM1 base isNegative isNegative_neg isNegative_zero sqrtRatio sqrtRatio_spec
  sqrtCand feOfBytes eq_of_sq_eq two_ne_zero' one_ne_neg_one)

/-! ## The root of a non-square -/

/-- What `sqrt_ratio_i` returns when the quotient is not a square: a root of it times the root of `-1`. -/
theorem sqrtRatio_nonsquare (u v : Fe) (hv : v ≠ 0) (h : (sqrtRatio u v).1 = false) :
    v * (sqrtRatio u v).2 ^ 2 = sqrtM1 * u := by
  obtain ⟨e, he⟩ : ∃ e, e = (p25519 - 5) / 8 := ⟨_, rfl⟩
  obtain ⟨w, hw⟩ := named (u * v ^ 7)
  obtain ⟨r0, hr0'⟩ := named (sqrtCand u v)
  have hr0 : r0 = (u * (v ^ 2 * v)) * (u * ((v ^ 2 * v) ^ 2 * v)) ^ e := by
    rw [hr0', sqrtCand, he]
  have hcheck : v * r0 ^ 2 = u * w ^ (2 * e + 1) := by
    rw [hr0, hw]; ring
  obtain ⟨c, hc⟩ := named (w ^ (2 * e + 1))
  rw [← hc] at hcheck
  have hunf : sqrtRatio u v = ((v * r0 ^ 2 == u || v * r0 ^ 2 == -u),
      absFe (if (v * r0 ^ 2 == -u || v * r0 ^ 2 == -u * sqrtM1) then sqrtM1 * r0 else r0)) := by
    rw [hr0']; rfl
  rw [hunf] at h ⊢
  simp only [Bool.or_eq_false_iff, beq_eq_false_iff_ne] at h
  obtain ⟨h1, h2⟩ := h
  have hu : u ≠ 0 := by
    intro hu
    refine h1 ?_
    rw [hcheck, hu, zero_mul]
  have hw0 : w ≠ 0 := hw ▸ mul_ne_zero hu (pow_ne_zero 7 hv)
  have hc4 : c ^ 2 * c ^ 2 = 1 := by
    rw [hc, ← pow_mul, ← pow_add]
    have : (2 * e + 1) * 2 + (2 * e + 1) * 2 = p25519 - 1 := by rw [he]; decide +kernel
    rw [this]
    exact ZMod.pow_card_sub_one_eq_one hw0
  have hcm : c ^ 2 = sqrtM1 ^ 2 := by
    rw [sqrtM1_sq]
    rcases mul_self_eq_one_iff.1 hc4 with h3 | h3
    · rcases mul_self_eq_one_iff.1 ((pow_two c).symm.trans h3) with h4 | h4
      · exact absurd (by rw [hcheck, h4, mul_one]) h1
      · exact absurd (by rw [hcheck, h4]; ring) h2
    · exact h3
  simp only [absFe_sq]
  rcases sq_eq_sq_iff_eq_or_eq_neg.1 hcm with h3 | h3
  · have n : ¬ v * r0 ^ 2 = -u * sqrtM1 := by
      rw [hcheck, h3]
      intro h4
      have : 2 * (u * sqrtM1) = 0 := by linear_combination h4
      rcases mul_eq_zero.1 this with h5 | h5
      · exact two_ne_zero' h5
      · exact mul_ne_zero hu sqrtM1_ne_zero h5
    have hb : (v * r0 ^ 2 == -u || v * r0 ^ 2 == -u * sqrtM1) = false := by
      rw [Bool.or_eq_false_iff, beq_eq_false_iff_ne, beq_eq_false_iff_ne]
      exact ⟨h2, n⟩
    rw [hb]
    simp only [Bool.false_eq_true, if_false]
    rw [hcheck, h3, mul_comm]
  · have hp : v * r0 ^ 2 = -u * sqrtM1 := by rw [hcheck, h3]; ring
    have hb : (v * r0 ^ 2 == -u || v * r0 ^ 2 == -u * sqrtM1) = true := by
      rw [Bool.or_eq_true, beq_iff_eq, beq_iff_eq]
      exact Or.inr hp
    rw [hb]
    simp only [if_true]
    have hi := sqrtM1_sq
    linear_combination sqrtM1 ^ 2 * hp - (u * sqrtM1) * hi

theorem sqrtRatio_fst (u v : Fe) :
    (sqrtRatio u v).1 = (v * (sqrtCand u v) ^ 2 == u || v * (sqrtCand u v) ^ 2 == -u) := by
  rw [sqrtRatio]

theorem sqrtRatio_zero (u : Fe) : (sqrtRatio u 0).2 = 0 := by
  unfold sqrtRatio sqrtCand
  simp

/-! ## The map -/

/-- `ONE_MINUS_EDWARDS_D_SQUARED` of curve25519-dalek 4.1.3, as a number. -/
def oneMinusDSqNat : Nat := 1159843021668779879193775521855586647937357759715417654439879720876111806838

/-- `EDWARDS_D_MINUS_ONE_SQUARED` of curve25519-dalek 4.1.3, as a number. -/
def dMinusOneSqNat : Nat := 40440834346308536858101042469323190826248399146238708352240133220865137265952

/-- `ONE_MINUS_EDWARDS_D_SQUARED` -/
def oneMinusDSq : Fe := (oneMinusDSqNat : Fe)

/-- `EDWARDS_D_MINUS_ONE_SQUARED` -/
def dMinusOneSq : Fe := (dMinusOneSqNat : Fe)

theorem oneMinusDSq_eq : oneMinusDSq = 1 - edD ^ 2 := by
  have : ((oneMinusDSqNat + Ed25519.dNat ^ 2 : ℕ) : Fe) = ((1 : ℕ) : Fe) := Ed25519.natCast_eq (by decide +kernel)
  push_cast at this
  rw [Ed25519.cast_d] at this
  show (oneMinusDSqNat : Fe) = 1 - edD ^ 2
  linear_combination this

theorem dMinusOneSq_eq : dMinusOneSq = (edD - 1) ^ 2 := by
  have : ((dMinusOneSqNat + 2 * Ed25519.dNat : ℕ) : Fe) = ((Ed25519.dNat ^ 2 + 1 : ℕ) : Fe) :=
    Ed25519.natCast_eq (by decide +kernel)
  push_cast at this
  rw [Ed25519.cast_d] at this
  show (dMinusOneSqNat : Fe) = (edD - 1) ^ 2
  linear_combination this

/-- The value `D` of the map. -/
def mapD (r : Fe) : Fe := (-1 - edD * r) * (r + edD)

/-- The value `N_s` of the map. -/
def mapN (r : Fe) : Fe := (r + 1) * oneMinusDSq

/-- The value `r` of the map. -/
def mapR (t : Fe) : Fe := sqrtM1 * t ^ 2

/-- The result of `sqrt_ratio_i` in the map. -/
def mapQ (t : Fe) : Bool × Fe := sqrtRatio (mapN (mapR t)) (mapD (mapR t))

/-- The value `s` of the map: the root, or the negative root of the other case. -/
def mapS (t : Fe) : Fe := if (mapQ t).1 then (mapQ t).2 else -absFe ((mapQ t).2 * t)

/-- The value `c` of the map. -/
def mapC (t : Fe) : Fe := if (mapQ t).1 then -1 else mapR t

/-- The value `N_t` of the map. -/
def mapT (t : Fe) : Fe := mapC t * (mapR t - 1) * dMinusOneSq - mapD (mapR t)

/-- `RistrettoPoint::elligator_ristretto_flavor`, the affine coordinates of the completed point it
builds. -/
def mapXY (t : Fe) : Fe × Fe :=
  ((mapS t + mapS t) * mapD (mapR t) / (mapT t * sqrtAdMinusOne), (1 - mapS t ^ 2) / (1 + mapS t ^ 2))

/-! ## The map is defined everywhere and lands on doubles -/

theorem edD_not_square : ¬ IsSquare edD := Edwards.Complete.not_square

theorem neg_edD_not_square {a b : Fe} (h : a ^ 2 = -edD * b ^ 2) : a = 0 ∧ b = 0 := by
  by_cases hb : b = 0
  · refine ⟨?_, hb⟩
    rw [hb] at h
    exact (pow_eq_zero_iff two_ne_zero).1 (by linear_combination h)
  · refine absurd ⟨sqrtM1 * a / b, ?_⟩ edD_not_square
    rw [div_mul_div_comm, eq_div_iff (mul_ne_zero hb hb)]
    linear_combination h - a ^ 2 * sqrtM1_sq

theorem edD_ne_one : edD - 1 ≠ 0 := by
  intro h
  exact edD_not_square ⟨1, by linear_combination h⟩

theorem edD_ne_neg_one : edD + 1 ≠ 0 := by
  intro h
  exact edD_not_square ⟨sqrtM1, by linear_combination h - sqrtM1_sq⟩

/-- The relations between the intermediate values: the pair `(s, N_t/D)` is on the Jacobi quartic, or
the map is at one of its two exceptional values. -/
theorem map_relations (t : Fe) :
    (mapD (mapR t) ≠ 0 ∧
      (edD + 1) * mapT t ^ 2 = (mapD (mapR t) * (1 + mapS t ^ 2)) ^ 2 +
        edD * (mapD (mapR t) * (1 - mapS t ^ 2)) ^ 2) ∨
    (mapS t = 0 ∧ mapT t ≠ 0) := by
  have h1 := oneMinusDSq_eq
  have h2 := dMinusOneSq_eq
  rw [mapT, mapS, mapC, mapQ]
  obtain ⟨r, hr⟩ := named (mapR t)
  rw [← hr]
  by_cases hD : mapD r = 0
  · right
    have hr1 : r + 1 ≠ 0 := by
      intro h
      have hr' : r = -1 := by linear_combination h
      rw [hr', mapD] at hD
      have : (edD - 1) ^ 2 = 0 := by linear_combination hD
      exact edD_ne_one ((pow_eq_zero_iff two_ne_zero).1 this)
    have hr2 : r ≠ 0 := by
      intro h
      rw [h, mapD] at hD
      exact Ed25519.edD_ne_zero (by linear_combination -hD)
    have hr3 : r - 1 ≠ 0 := by
      intro h
      have hr' : r = 1 := by linear_combination h
      rw [hr', mapD] at hD
      have : (edD + 1) ^ 2 = 0 := by linear_combination -hD
      exact edD_ne_neg_one ((pow_eq_zero_iff two_ne_zero).1 this)
    have hN : mapN r ≠ 0 := by
      rw [mapN, h1]
      refine mul_ne_zero hr1 ?_
      have : 1 - edD ^ 2 = -(edD - 1) * (edD + 1) := by ring
      rw [this]
      exact mul_ne_zero (neg_ne_zero.2 edD_ne_one) edD_ne_neg_one
    have hf : (sqrtRatio (mapN r) 0).1 = false := by
      rw [sqrtRatio_fst, zero_mul, Bool.or_eq_false_iff, beq_eq_false_iff_ne, beq_eq_false_iff_ne]
      exact ⟨hN.symm, (neg_ne_zero.2 hN).symm⟩
    rw [hD, hf, sqrtRatio_zero]
    simp only [Bool.false_eq_true, if_false, zero_mul, sub_zero]
    refine ⟨?_, ?_⟩
    · rw [absFe_of_nonneg isNegative_zero, neg_zero]
    · rw [h2]
      exact mul_ne_zero (mul_ne_zero hr2 hr3) (pow_ne_zero 2 edD_ne_one)
  · left
    refine ⟨hD, ?_⟩
    have hspec := sqrtRatio_spec (mapN r) (mapD r) hD
    have hns := sqrtRatio_nonsquare (mapN r) (mapD r) hD
    obtain ⟨q, hq⟩ : ∃ q, q = sqrtRatio (mapN r) (mapD r) := ⟨sqrtRatio (mapN r) (mapD r), rfl⟩
    rw [← hq] at hspec hns ⊢
    obtain ⟨D, hDe⟩ := named (mapD r)
    have hDv : D = (-1 - edD * r) * (r + edD) := hDe.trans (by rw [mapD])
    have hNv : mapN r = (r + 1) * (1 - edD ^ 2) := by rw [mapN, h1]
    rw [← hDe] at hspec hns ⊢
    rw [h2]
    obtain ⟨b, s⟩ := q
    cases b
    · have hs := hns rfl
      simp only at hs
      simp only [Bool.false_eq_true, if_false]
      have hs' : D * (-absFe (s * t)) ^ 2 = r * ((r + 1) * (1 - edD ^ 2)) := by
        rw [neg_sq, absFe_sq, ← hNv]
        rw [mapR] at hr
        linear_combination t ^ 2 * hs - mapN r * hr
      obtain ⟨z, hz⟩ := named (-absFe (s * t))
      rw [← hz] at hs' ⊢
      have e1 : D * (1 + z ^ 2) = D + r * ((r + 1) * (1 - edD ^ 2)) := by linear_combination hs'
      have e2 : D * (1 - z ^ 2) = D - r * ((r + 1) * (1 - edD ^ 2)) := by linear_combination -hs'
      rw [e1, e2, hDv]
      ring
    · have hs := (hspec.2 rfl).1
      simp only at hs
      simp only [if_true]
      rw [hNv] at hs
      have e1 : D * (1 + s ^ 2) = D + ((r + 1) * (1 - edD ^ 2)) := by linear_combination hs
      have e2 : D * (1 - s ^ 2) = D - ((r + 1) * (1 - edD ^ 2)) := by linear_combination -hs
      rw [e1, e2, hDv]
      ring

theorem mapT_ne_zero (t : Fe) : mapT t ≠ 0 := by
  rcases map_relations t with ⟨hD, h⟩ | ⟨-, h⟩
  · intro hz
    rw [hz] at h
    have := neg_edD_not_square (a := mapD (mapR t) * (1 + mapS t ^ 2))
      (b := mapD (mapR t) * (1 - mapS t ^ 2)) (by linear_combination -h)
    have h2 : 2 * mapD (mapR t) = 0 := by linear_combination this.1 + this.2
    rcases mul_eq_zero.1 h2 with h2 | h2
    · exact two_ne_zero' h2
    · exact hD h2
  · exact h

theorem map_denom_ne_zero (t : Fe) : 1 + mapS t ^ 2 ≠ 0 := by
  intro hz
  rcases map_relations t with ⟨hD, h⟩ | ⟨h, -⟩
  · have hs : mapS t ^ 2 = -1 := by linear_combination hz
    rw [hs] at h
    refine edD_not_square ⟨sqrtM1 * sqrtAdMinusOne * mapT t / (2 * mapD (mapR t)), ?_⟩
    have h2 : 2 * mapD (mapR t) ≠ 0 := mul_ne_zero two_ne_zero' hD
    rw [div_mul_div_comm, eq_div_iff (mul_ne_zero h2 h2)]
    linear_combination -h - (sqrtAdMinusOne ^ 2 * mapT t ^ 2) * sqrtM1_sq + mapT t ^ 2 * sqrtAdMinusOne_sq
  · rw [h] at hz
    exact one_ne_zero (α := Fe) (by linear_combination hz)

theorem map_on (t : Fe) :
    (mapXY t).2 ^ 2 - (mapXY t).1 ^ 2 = 1 + edD * (mapXY t).1 ^ 2 * (mapXY t).2 ^ 2 := by
  have hT := mapT_ne_zero t
  have hw := map_denom_ne_zero t
  have hc := sqrtAdMinusOne_ne_zero
  have hc2 := sqrtAdMinusOne_sq
  rw [mapXY]
  have hrel : mapS t ^ 2 * ((edD + 1) * mapT t ^ 2) = mapS t ^ 2 *
      ((mapD (mapR t) * (1 + mapS t ^ 2)) ^ 2 +
        edD * (mapD (mapR t) * (1 - mapS t ^ 2)) ^ 2) := by
    rcases map_relations t with ⟨-, h⟩ | ⟨h, -⟩
    · rw [h]
    · rw [h]
      ring
  obtain ⟨s, hs⟩ := named (mapS t)
  obtain ⟨D, hD⟩ := named (mapD (mapR t))
  obtain ⟨T, hTe⟩ := named (mapT t)
  rw [← hs] at hw hrel ⊢
  rw [← hD] at hrel ⊢
  rw [← hTe] at hT hrel ⊢
  rw [div_pow, div_pow]
  have hx : (T * sqrtAdMinusOne) ^ 2 ≠ 0 := pow_ne_zero 2 (mul_ne_zero hT hc)
  have hy : (1 + s ^ 2) ^ 2 ≠ 0 := pow_ne_zero 2 hw
  rw [div_sub_div _ _ hy hx, mul_assoc edD, div_mul_div_comm, mul_div_assoc', div_eq_iff (mul_ne_zero hy hx), add_mul 1,
    mul_comm ((1 + s ^ 2) ^ 2) ((T * sqrtAdMinusOne) ^ 2), div_mul_cancel₀ _ (mul_ne_zero hx hy)]
  linear_combination 4 * hrel - (4 * s ^ 2 * T ^ 2) * hc2

theorem mapXY_snd (t : Fe) : (mapXY t).2 = (1 - mapS t ^ 2) / (1 + mapS t ^ 2) := by
  rw [mapXY]

theorem map_square (t : Fe) : IsSquare (1 - (mapXY t).2 ^ 2) := by
  have hw := map_denom_ne_zero t
  rw [mapXY_snd]
  obtain ⟨s, hs⟩ := named (mapS t)
  rw [← hs] at hw ⊢
  refine ⟨2 * s / (1 + s ^ 2), ?_⟩
  have hw2 := pow_ne_zero 2 hw
  rw [div_pow, div_mul_div_comm, ← sq (1 + s ^ 2), eq_div_iff hw2, sub_mul, div_mul_cancel₀ _ hw2]
  ring

theorem map_even (t : Fe) : (⟨(mapXY t).1, (mapXY t).2, map_on t⟩ : Point) ∈ even := map_square t

/-- `RistrettoPoint::elligator_ristretto_flavor`. -/
def map (t : Fe) : RPoint := mk ⟨(mapXY t).1, (mapXY t).2, map_on t⟩ (map_even t)

/-- `RistrettoPoint::from_uniform_bytes`: the sum of the images of the two halves. -/
def fromUniform (b : Bytes) : RPoint := map (feOfBytes (b.take 32)) + map (feOfBytes ((b.drop 32).take 32))

/-! ## The instance used by the model of aucpace -/

/-- ristretto255 satisfies every law that the model of aucpace asks for. -/
def ristretto255 : Aucpace.Ristretto RPoint where
  base := mk base base_even
  compress := compress
  decompress := decompress
  fromUniform := fromUniform
  base_ne_zero := base_ne_zero
  base_generates g := by
    obtain ⟨n, rfl⟩ := eq_nsmul_base g
    exact ⟨(n : Aucpace.Scalar), by rw [Nat.cast_smul_eq_nsmul]⟩
  compress_length := compress_length
  decompress_compress := decompress_compress
  compress_decompress := compress_decompress

end Verif.Ristretto
