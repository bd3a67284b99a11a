import Verif.Ristretto.Elligator

/-!
# Evaluating ristretto255 in the kernel

The operations of `Verif/Ristretto/Encode.lean` and `Verif/Ristretto/Elligator.lean` on natural numbers, for conformance
vectors. No model definition depends on this file.
-/

namespace Verif.Ristretto
open Ed25519 (Fe Point Rep edD sqrtM1 sqrtM1Nat dNat base isNegative isNegative_zero sqrtRatio sqrtCand feOfBytes
  cast_mod cast_negmod cast_d p_pos addK addK_spec mulK mulK_spec affK affK_spec)

theorem isNegative_cast (n : Nat) : isNegative (n : Fe) = (n % p25519 % 2 == 1) := by
  rw [isNegative, ZMod.val_natCast]

theorem beq_cast (a b : Nat) : ((a : Fe) == (b : Fe)) = (a % p25519 == b % p25519) := by
  rw [Bool.eq_iff_iff, beq_iff_eq, beq_iff_eq]
  exact ZMod.natCast_eq_natCast_iff' a b p25519

theorem cast_i : ((sqrtM1Nat : ℕ) : Fe) = sqrtM1 := rfl

/-- The root with the non-negative sign. -/
def absK (n : Nat) : Nat := if n % p25519 % 2 == 1 then p25519 - n % p25519 else n % p25519

theorem absK_cast (n : Nat) : ((absK n : ℕ) : Fe) = absFe (n : Fe) := by
  rw [absK, absFe, isNegative_cast]
  split
  · rw [cast_negmod]
  · rw [cast_mod]

theorem absK_lt (n : Nat) : absK n < p25519 := by
  have h := Nat.mod_lt n p_pos
  rw [absK]
  split
  · rename_i h1
    have : n % p25519 ≠ 0 := by
      intro h0
      rw [h0] at h1
      simp at h1
    omega
  · exact h

/-- The candidate root. -/
def candK (u v : Nat) : Nat :=
  strict (v * v % p25519 * v % p25519) fun v3 =>
  strict (v3 * v3 % p25519 * v % p25519) fun v7 =>
  u * v3 % p25519 * powMod (u * v7 % p25519) ((p25519 - 5) / 8) p25519 % p25519

theorem candK_cast (u v : Nat) : ((candK u v : ℕ) : Fe) = sqrtCand (u : Fe) (v : Fe) := by
  rw [candK, strict_eq, strict_eq, sqrtCand, powMod_eq _ _ _ p_pos]
  simp only [Nat.cast_mul, Nat.cast_pow, cast_mod, pow_two]

/-- `sqrt_ratio_i`. -/
def sqrtRatioK {α : Type} (u v : Nat) (k : Bool → Nat → α) : α :=
  strict (candK u v) fun r =>
  strict (v * (r * r % p25519) % p25519) fun c =>
  strict (p25519 - u % p25519) fun nu =>
  strict (if c == nu % p25519 || c == nu * sqrtM1Nat % p25519 then sqrtM1Nat * r % p25519 else r) fun r' =>
  k (c == u % p25519 || c == nu % p25519) (absK r')

theorem sqrtRatioK_spec (u v : Nat) : ∃ b r, (∀ (α : Type) (k : Bool → Nat → α), sqrtRatioK u v k = k b r) ∧
    (sqrtRatio (u : Fe) (v : Fe)).1 = b ∧ (sqrtRatio (u : Fe) (v : Fe)).2 = (r : Fe) := by
  refine ⟨_, _, fun α k => by simp only [sqrtRatioK, strict_eq]; rfl, ?_, ?_⟩
  · rw [sqrtRatio_fst, ← candK_cast, ← cast_negmod]
    have e : (v : Fe) * ((candK u v : ℕ) : Fe) ^ 2 =
        ((v * (candK u v * candK u v % p25519) : ℕ) : Fe) := by
      rw [Nat.cast_mul, cast_mod, Nat.cast_mul, pow_two]
    rw [e, beq_cast, beq_cast]
  · have h : (sqrtRatio (u : Fe) (v : Fe)).2 = absFe (if ((v : Fe) * (sqrtCand (u : Fe) (v : Fe)) ^ 2 == -(u : Fe) ||
        (v : Fe) * (sqrtCand (u : Fe) (v : Fe)) ^ 2 == -(u : Fe) * sqrtM1) then
          sqrtM1 * sqrtCand (u : Fe) (v : Fe) else sqrtCand (u : Fe) (v : Fe)) := by
      rw [sqrtRatio, absFe]
    rw [h, ← candK_cast, ← cast_negmod, ← cast_i, ← Nat.cast_mul, ← Nat.cast_mul]
    have e : (v : Fe) * ((candK u v : ℕ) : Fe) ^ 2 =
        ((v * (candK u v * candK u v % p25519) : ℕ) : Fe) := by
      rw [Nat.cast_mul, cast_mod, Nat.cast_mul, pow_two]
    rw [e, beq_cast, beq_cast, absK_cast]
    refine congrArg absFe ?_
    rw [apply_ite (fun n : ℕ => (n : Fe)), cast_mod]

/-- `compress` before serialisation. -/
def encodeK (x y : Nat) : Nat :=
  strict (x * y % p25519) fun t =>
  strict ((1 + y) * (1 + (p25519 - y % p25519)) % p25519) fun u1 =>
  sqrtRatioK 1 (u1 * (t * t)) fun _ inv =>
  strict (inv * u1 % p25519) fun i1 =>
  strict (inv * t % p25519) fun i2 =>
  strict (i1 * (i2 * t) % p25519) fun z =>
  strict (t * z % p25519) fun tz =>
  if tz % p25519 % 2 == 1 then
    strict (y * sqrtM1Nat % p25519) fun x' =>
    strict (x * sqrtM1Nat % p25519) fun y' =>
    strict (if x' * z % p25519 % 2 == 1 then p25519 - y' % p25519 else y') fun y'' =>
    absK (i1 * invsqrtAMinusDNat * (1 + (p25519 - y'' % p25519)))
  else
    strict (if x * z % p25519 % 2 == 1 then p25519 - y % p25519 else y) fun y'' =>
    absK (i2 * (1 + (p25519 - y'' % p25519)))

theorem encodeK_cast (x y : Nat) : ((encodeK x y : ℕ) : Fe) = encodeS (x : Fe) (y : Fe) := by
  obtain ⟨b, inv, hk, -, hinv⟩ := sqrtRatioK_spec 1 ((1 + y) * (1 + (p25519 - y % p25519)) % p25519 *
    (x * y % p25519 * (x * y % p25519)))
  simp only [encodeK, strict_eq, hk]
  have hu : (1 + (y : Fe)) * (1 - (y : Fe)) = (((1 + y) * (1 + (p25519 - y % p25519)) % p25519 : ℕ) : Fe) := by
    rw [cast_mod, Nat.cast_mul, Nat.cast_add, Nat.cast_add, cast_negmod, Nat.cast_one]
    ring
  have ht : (x : Fe) * (y : Fe) = ((x * y % p25519 : ℕ) : Fe) := by rw [cast_mod, Nat.cast_mul]
  obtain ⟨u1, hu1⟩ : ∃ u1, u1 = (1 + y) * (1 + (p25519 - y % p25519)) % p25519 := ⟨_, rfl⟩
  obtain ⟨t, htt⟩ : ∃ t, t = x * y % p25519 := ⟨_, rfl⟩
  rw [← hu1] at hu hinv ⊢
  rw [← htt] at ht hinv ⊢
  rw [encodeS]
  have harg : (u1 : Fe) * (t : Fe) ^ 2 = ((u1 * (t * t) : ℕ) : Fe) := by
    rw [Nat.cast_mul, Nat.cast_mul, pow_two]
  have h1 : ((1 : ℕ) : Fe) = 1 := Nat.cast_one
  rw [h1] at hinv
  rw [hu, ht, harg, hinv]
  have hz : (inv : Fe) * (u1 : Fe) * ((inv : Fe) * (t : Fe) * (t : Fe)) =
      ((inv * u1 % p25519 * (inv * t % p25519 * t) % p25519 : ℕ) : Fe) := by
    simp only [cast_mod, Nat.cast_mul]
  rw [hz]
  obtain ⟨z, hze⟩ : ∃ z, z = inv * u1 % p25519 * (inv * t % p25519 * t) % p25519 := ⟨_, rfl⟩
  rw [← hze]
  have hneg : isNegative ((t : Fe) * (z : Fe)) = (t * z % p25519 % p25519 % 2 == 1) := by
    rw [← Nat.cast_mul, isNegative_cast, Nat.mod_mod]
  rw [hneg]
  cases t * z % p25519 % p25519 % 2 == 1
  · simp only [Bool.false_eq_true, if_false]
    have hneg2 : isNegative ((x : Fe) * (z : Fe)) = (x * z % p25519 % 2 == 1) := by
      rw [← Nat.cast_mul, isNegative_cast]
    rw [hneg2, absK_cast, Nat.cast_mul, Nat.cast_add, cast_negmod, cast_mod, Nat.cast_mul, h1, ← sub_eq_add_neg]
    cases x * z % p25519 % 2 == 1
    · simp only [Bool.false_eq_true, if_false]
    · simp only [if_true, cast_negmod]
  · simp only [if_true]
    have hneg2 : isNegative ((y : Fe) * sqrtM1 * (z : Fe)) = (y * sqrtM1Nat % p25519 * z % p25519 % 2 == 1) := by
      rw [← cast_i, ← Nat.cast_mul, ← cast_mod, ← Nat.cast_mul, isNegative_cast]
    have hmagic : ((invsqrtAMinusDNat : ℕ) : Fe) = invsqrtAMinusD := rfl
    rw [hneg2, absK_cast, Nat.cast_mul, Nat.cast_add, cast_negmod, Nat.cast_mul, cast_mod, Nat.cast_mul, h1,
      ← sub_eq_add_neg, hmagic]
    cases y * sqrtM1Nat % p25519 * z % p25519 % 2 == 1
    · simp only [Bool.false_eq_true, if_false, cast_mod, Nat.cast_mul, cast_i]
    · simp only [if_true, cast_negmod, cast_mod, Nat.cast_mul, cast_i]

theorem encodeK_lt (x y : Nat) : encodeK x y < p25519 := by
  obtain ⟨b, inv, hk, -⟩ := sqrtRatioK_spec 1 ((1 + y) * (1 + (p25519 - y % p25519)) % p25519 *
    (x * y % p25519 * (x * y % p25519)))
  simp only [encodeK, strict_eq, hk]
  split <;> exact absK_lt _

/-- `RistrettoPoint::compress` for the class of the point given by a triple. -/
def encK (X Y Z : Nat) : Bytes := affK X Y Z fun x y => leFixed 32 (encodeK x y)

theorem encK_spec {X Y Z : Nat} {P : Point} (h : Rep X Y Z P) (hP : P ∈ even) : encK X Y Z = compress (mk P hP) := by
  rw [encK, affK_spec h, compress_mk, feBytes]
  refine congrArg (leFixed 32) ?_
  have := encodeK_cast P.x.val P.y.val
  rw [ZMod.natCast_zmod_val, ZMod.natCast_zmod_val] at this
  rw [← this, ZMod.val_natCast, Nat.mod_eq_of_lt (encodeK_lt _ _)]

/-! ## The map from uniform bytes -/

theorem rep_mk {X Y Z : Nat} {x y : Fe} {on} (hz : (Z : Fe) ≠ 0) (hx : (X : Fe) = x * (Z : Fe))
    (hy : (Y : Fe) = y * (Z : Fe)) : Rep X Y Z ⟨x, y, on⟩ := ⟨hz, hx, hy⟩

theorem mapXY_fst (t : Fe) : (mapXY t).1 = (mapS t + mapS t) * mapD (mapR t) / (mapT t * sqrtAdMinusOne) := by
  rw [mapXY]

/-- The value `D`. -/
def mapDK (r : Nat) : Nat :=
  (p25519 - (1 + dNat * r) % p25519) * (r + dNat) % p25519

theorem mapDK_cast (r : Nat) : ((mapDK r : ℕ) : Fe) = mapD (r : Fe) := by
  rw [mapDK, cast_mod, Nat.cast_mul, cast_negmod, Nat.cast_add, Nat.cast_add, Nat.cast_mul, Nat.cast_one, cast_d, mapD]
  ring

/-- The projective coordinates of the image of a field element. -/
def mapK {α : Type} (t : Nat) (k : Nat → Nat → Nat → α) : α :=
  strict (sqrtM1Nat * (t * t % p25519) % p25519) fun r =>
  strict (mapDK r) fun d =>
  sqrtRatioK ((r + 1) * oneMinusDSqNat) d fun b q =>
  strict (if b then q else p25519 - absK (q * t) % p25519) fun s =>
  strict (if b then p25519 - 1 else r) fun c =>
  strict ((c * (r + (p25519 - 1)) % p25519 * dMinusOneSqNat + (p25519 - d % p25519)) % p25519) fun n =>
  strict (n * sqrtAdMinusOneNat % p25519) fun z1 =>
  strict (s * s % p25519) fun ss =>
  k (2 * s * d * (1 + ss) % p25519) ((1 + (p25519 - ss % p25519)) * z1 % p25519) (z1 * (1 + ss) % p25519)

theorem mapK_spec (t : Nat) : ∃ X Y Z, (∀ (α : Type) (k : Nat → Nat → Nat → α), mapK t k = k X Y Z) ∧
    Rep X Y Z ⟨(mapXY (t : Fe)).1, (mapXY (t : Fe)).2, map_on (t : Fe)⟩ := by
  have hrc : ((sqrtM1Nat * (t * t % p25519) % p25519 : ℕ) : Fe) = mapR (t : Fe) := by
    rw [cast_mod, Nat.cast_mul, cast_mod, Nat.cast_mul, mapR, pow_two, cast_i]
  obtain ⟨r, hr⟩ : ∃ r, r = sqrtM1Nat * (t * t % p25519) % p25519 := ⟨_, rfl⟩
  rw [← hr] at hrc
  have hd := mapDK_cast r
  obtain ⟨d, hde⟩ : ∃ d, d = mapDK r := ⟨_, rfl⟩
  rw [← hde] at hd
  have hone : ((oneMinusDSqNat : ℕ) : Fe) = oneMinusDSq := rfl
  have hsq : ((dMinusOneSqNat : ℕ) : Fe) = dMinusOneSq := rfl
  have hadc : ((sqrtAdMinusOneNat : ℕ) : Fe) = sqrtAdMinusOne := rfl
  have hN : (((r + 1) * oneMinusDSqNat : ℕ) : Fe) = mapN (mapR (t : Fe)) := by
    rw [Nat.cast_mul, Nat.cast_add, hrc, Nat.cast_one, mapN, hone]
  obtain ⟨b, q, hk, hb, hq⟩ := sqrtRatioK_spec ((r + 1) * oneMinusDSqNat) d
  rw [hN, hd, hrc] at hb hq
  have hm1 : ((p25519 - 1 : ℕ) : Fe) = -1 := by
    have := cast_negmod 1
    rw [Nat.cast_one] at this
    rw [← this, Nat.mod_eq_of_lt (by decide +kernel)]
  have hs : ((if b then q else p25519 - absK (q * t) % p25519 : ℕ) : Fe) = mapS (t : Fe) := by
    rw [mapS, mapQ, hb, hq]
    cases b
    · simp only [Bool.false_eq_true, if_false]
      rw [cast_negmod, absK_cast, Nat.cast_mul]
    · simp only [if_true]
  have hc : ((if b then p25519 - 1 else r : ℕ) : Fe) = mapC (t : Fe) := by
    rw [mapC, mapQ, hb]
    cases b
    · simp only [Bool.false_eq_true, if_false]
      exact hrc
    · simp only [if_true]
      exact hm1
  refine ⟨_, _, _, fun α k => by simp only [mapK, strict_eq, ← hr, ← hde, hk]; rfl, ?_⟩
  obtain ⟨s, hse⟩ : ∃ s, s = (if b then q else p25519 - absK (q * t) % p25519) := ⟨_, rfl⟩
  obtain ⟨c, hce⟩ : ∃ c, c = (if b then p25519 - 1 else r) := ⟨_, rfl⟩
  rw [← hse] at hs ⊢
  rw [← hce] at hc ⊢
  have hn : (((c * (r + (p25519 - 1)) % p25519 * dMinusOneSqNat + (p25519 - d % p25519)) % p25519 : ℕ) : Fe) =
      mapT (t : Fe) := by
    rw [cast_mod, Nat.cast_add, Nat.cast_mul, cast_mod, Nat.cast_mul, Nat.cast_add, cast_negmod, hm1, hc, hrc, hd, hsq,
      hrc, mapT]
    ring
  obtain ⟨n, hne⟩ : ∃ n, n = (c * (r + (p25519 - 1)) % p25519 * dMinusOneSqNat + (p25519 - d % p25519)) % p25519 :=
    ⟨_, rfl⟩
  rw [← hne] at hn ⊢
  have hT := mapT_ne_zero (t : Fe)
  have hw := map_denom_ne_zero (t : Fe)
  have hadn := sqrtAdMinusOne_ne_zero
  have hZ : mapT (t : Fe) * sqrtAdMinusOne * (1 + mapS (t : Fe) ^ 2) ≠ 0 := mul_ne_zero (mul_ne_zero hT hadn) hw
  have h1 : ((1 : ℕ) : Fe) = 1 := Nat.cast_one
  have h2 : ((2 : ℕ) : Fe) = 2 := Nat.cast_ofNat
  refine rep_mk ?_ ?_ ?_
  all_goals simp only [cast_mod, cast_negmod, Nat.cast_mul, Nat.cast_add, hn, hs, hd, hrc, hadc, h1, h2]
  · rw [← pow_two]
    exact hZ
  · rw [mapXY_fst, div_mul_eq_mul_div, eq_div_iff (mul_ne_zero hT hadn)]
    ring
  · rw [mapXY_snd, div_mul_eq_mul_div, eq_div_iff hw]
    ring

/-- `RistrettoPoint::from_uniform_bytes` followed by a continuation. -/
def fromUniformK {α : Type} (b : Bytes) (k : Nat → Nat → Nat → α) : α :=
  mapK (leToNat (b.take 32) % 2 ^ 255) fun X1 Y1 Z1 => mapK (leToNat ((b.drop 32).take 32) % 2 ^ 255) fun X2 Y2 Z2 =>
    addK X1 Y1 Z1 X2 Y2 Z2 k

theorem fromUniformK_spec (b : Bytes) : ∃ X Y Z P, ∃ hP : P ∈ even,
    (∀ (α : Type) (k : Nat → Nat → Nat → α), fromUniformK b k = k X Y Z) ∧ Rep X Y Z P ∧
    fromUniform b = mk P hP := by
  obtain ⟨X1, Y1, Z1, h1, r1⟩ := mapK_spec (leToNat (b.take 32) % 2 ^ 255)
  obtain ⟨X2, Y2, Z2, h2, r2⟩ := mapK_spec (leToNat ((b.drop 32).take 32) % 2 ^ 255)
  obtain ⟨X, Y, Z, h3, r3⟩ := addK_spec r1 r2
  exact ⟨X, Y, Z, _, even.add_mem (map_even _) (map_even _), fun α k => by rw [fromUniformK, h1, h2, h3], r3, rfl⟩

end Verif.Ristretto
