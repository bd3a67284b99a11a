import Verif.Ed25519.Edwards
import Verif.Ed25519.Primes
import Verif.Basic.Bytes
import Mathlib.NumberTheory.LegendreSymbol.Basic
import Mathlib.Algebra.Field.ZMod

/-!
# The curve of Ed25519 and its point encoding

curve25519-dalek 4.1.3: `FieldElement` is `ZMod p25519`, `EdwardsPoint` the group of
`Verif/Ed25519/Edwards.lean` for the constant `EDWARDS_D`; `compress`, `decompress`, `sqrt_ratio_i` are
transcribed. The library computes in extended coordinates; the model keeps the affine point they stand for.
-/

namespace Verif.Ed25519

/-- `FieldElement`. -/
abbrev Fe := ZMod p25519

/-- `EDWARDS_D` = -121665/121666 as a number. -/
def dNat : Nat := 37095705934669439343138083508754565189542113879843219016388785533085940283555

/-- `SQRT_M1` as a number. -/
def sqrtM1Nat : Nat := 19681161376707505956807079304988542015446066515923890162744021073123829784752

/-- `EDWARDS_D`. -/
def edD : Fe := (dNat : Fe)

/-- `SQRT_M1`. -/
def sqrtM1 : Fe := (sqrtM1Nat : Fe)

theorem p_pos : 0 < p25519 := p25519_prime.pos

theorem natCast_eq {a b : Nat} (h : a % p25519 = b % p25519) : (a : Fe) = (b : Fe) :=
  (ZMod.natCast_eq_natCast_iff' a b p25519).2 h

theorem natCast_ne {a b : Nat} (h : a % p25519 ≠ b % p25519) : (a : Fe) ≠ (b : Fe) :=
  fun e => h ((ZMod.natCast_eq_natCast_iff' a b p25519).1 e)

theorem natCast_pow {a e b : Nat} (h : powMod a e p25519 = b % p25519) : (a : Fe) ^ e = (b : Fe) := by
  rw [powMod_eq _ _ _ p_pos] at h
  rw [← Nat.cast_pow]
  exact natCast_eq h

/-- The constant is -121665/121666. -/
theorem edD_def : edD * 121666 = -121665 := by
  have : ((dNat * 121666 + 121665 : ℕ) : Fe) = ((0 : ℕ) : Fe) := natCast_eq (by decide +kernel)
  push_cast at this
  exact eq_neg_of_add_eq_zero_left this

theorem sqrtM1_sq : sqrtM1 * sqrtM1 = -1 := by
  have : ((sqrtM1Nat * sqrtM1Nat + 1 : ℕ) : Fe) = ((0 : ℕ) : Fe) := natCast_eq (by decide +kernel)
  push_cast at this
  exact eq_neg_of_add_eq_zero_left this

theorem edD_ne_zero : edD ≠ 0 := by
  have : ((dNat : ℕ) : Fe) ≠ ((0 : ℕ) : Fe) := natCast_ne (by decide +kernel)
  rw [Nat.cast_zero] at this
  exact this

theorem two_ne_zero' : (2 : Fe) ≠ 0 := by
  have : ((2 : ℕ) : Fe) ≠ ((0 : ℕ) : Fe) := natCast_ne (by decide +kernel)
  simpa using this

theorem one_ne_neg_one : (1 : Fe) ≠ -1 := by
  intro h
  have : (2 : Fe) = 0 := by linear_combination h
  exact two_ne_zero' this

instance : Edwards.Complete edD where
  two := two_ne_zero'
  neg_one := ⟨sqrtM1, sqrtM1_sq.symm⟩
  not_square := by
    rw [ZMod.euler_criterion p25519 edD_ne_zero]
    have : edD ^ (p25519 / 2) = ((p25519 - 1 : ℕ) : Fe) := natCast_pow (by decide +kernel)
    rw [this]
    have : ((p25519 - 1 : ℕ) : Fe) ≠ ((1 : ℕ) : Fe) := natCast_ne (by decide +kernel)
    simpa using this

/-- `EdwardsPoint`. -/
abbrev Point := Edwards.Point edD

/-- `FieldElement::is_negative`: the low bit of the canonical encoding. -/
def isNegative (x : Fe) : Bool := x.val % 2 == 1

/-- The candidate root in `FieldElement::sqrt_ratio_i`; the exponent is that of `pow_p58`. -/
def sqrtCand (u v : Fe) : Fe :=
  let v3 := v ^ 2 * v
  let v7 := v3 ^ 2 * v
  (u * v3) * (u * v7) ^ ((p25519 - 5) / 8)

/-- `FieldElement::sqrt_ratio_i`. -/
def sqrtRatio (u v : Fe) : Bool × Fe :=
  let r := sqrtCand u v
  let check := v * r ^ 2
  let correct := check == u
  let flipped := check == -u
  let flippedI := check == -u * sqrtM1
  let r := if flipped || flippedI then sqrtM1 * r else r
  let r := if isNegative r then -r else r
  (correct || flipped, r)

/-- `EdwardsPoint::compress`: the little-endian `y` with the sign of `x` in the top bit. -/
def compress (P : Point) : Bytes :=
  leFixed 32 (P.y.val + 2 ^ 255 * (if isNegative P.x then 1 else 0))

/-- `FieldElement::from_bytes`: the top bit is ignored, the value need not be reduced. -/
def feOfBytes (b : Bytes) : Fe := ((leToNat b % 2 ^ 255 : ℕ) : Fe)

/-- The top bit of the last byte. -/
def signBit (b : Bytes) : Bool := leToNat b / 2 ^ 255 == 1

/-- Step 1 and 2 of `decompress`: the coordinates, if `y` is valid. -/
def decompressXY (b : Bytes) : Option (Fe × Fe) :=
  let y := feOfBytes b
  let yy := y ^ 2
  let u := yy - 1
  let v := yy * edD + 1
  let s := sqrtRatio u v
  if s.1 then some (if signBit b then -s.2 else s.2, y) else none

/-! ## Square roots -/

theorem val_neg_mod_two (x : Fe) (h : x ≠ 0) : (-x).val % 2 ≠ x.val % 2 := by
  have hv : (-x).val = p25519 - x.val := by
    rw [ZMod.neg_val]; simp [h]
  have hlt : x.val < p25519 := ZMod.val_lt x
  have hp : p25519 % 2 = 1 := by decide +kernel
  rw [hv]
  omega

theorem isNegative_neg {x : Fe} (h : x ≠ 0) : isNegative (-x) = !isNegative x := by
  have := val_neg_mod_two x h
  unfold isNegative
  generalize (-x).val = a at *
  generalize x.val = b at *
  rcases Nat.mod_two_eq_zero_or_one a with h1 | h1 <;>
    rcases Nat.mod_two_eq_zero_or_one b with h2 | h2 <;>
    simp [h1, h2] at this ⊢

theorem isNegative_zero : isNegative (0 : Fe) = false := by
  simp [isNegative]

theorem eq_of_sq_eq {x y : Fe} (h : x ^ 2 = y ^ 2) (hn : isNegative x = isNegative y) : x = y := by
  rcases sq_eq_sq_iff_eq_or_eq_neg.1 h with h | h
  · exact h
  · by_cases hy : y = 0
    · rw [h, hy, neg_zero]
    · rw [h, isNegative_neg hy] at hn
      cases hb : isNegative y <;> rw [hb] at hn <;> simp at hn

/-- What `sqrt_ratio_i` returns: whether `u/v` is a square, and then its non-negative root. -/
theorem sqrtRatio_spec (u v : Fe) (hv : v ≠ 0) :
    ((sqrtRatio u v).1 = true ↔ ∃ x, v * x ^ 2 = u) ∧
    ((sqrtRatio u v).1 = true →
      v * (sqrtRatio u v).2 ^ 2 = u ∧ isNegative (sqrtRatio u v).2 = false) := by
  have hnonneg : ∀ r : Fe, isNegative (if isNegative r then -r else r) = false := by
    intro r
    split
    · rename_i h
      have hr : r ≠ 0 := by rintro rfl; rw [isNegative_zero] at h; simp at h
      rw [isNegative_neg hr, h]; rfl
    · rename_i h; simpa using h
  have hsq : ∀ r : Fe, (if isNegative r then -r else r) ^ 2 = r ^ 2 := by
    intro r; split <;> ring
  obtain ⟨e, he⟩ : ∃ e, e = (p25519 - 5) / 8 := ⟨_, rfl⟩
  obtain ⟨w, hw⟩ : ∃ w, w = u * v ^ 7 := ⟨_, rfl⟩
  obtain ⟨r0, hr0'⟩ : ∃ r, r = sqrtCand u v := ⟨_, rfl⟩
  have hr0 : r0 = (u * (v ^ 2 * v)) * (u * ((v ^ 2 * v) ^ 2 * v)) ^ e := by
    rw [hr0', sqrtCand, he]
  have hcheck : v * r0 ^ 2 = u * w ^ (2 * e + 1) := by
    rw [hr0, hw]; ring
  obtain ⟨c, hc⟩ : ∃ c, c = w ^ (2 * e + 1) := ⟨_, rfl⟩
  rw [← hc] at hcheck
  have hunf : sqrtRatio u v = ((v * r0 ^ 2 == u || v * r0 ^ 2 == -u),
      if isNegative (if (v * r0 ^ 2 == -u || v * r0 ^ 2 == -u * sqrtM1) then sqrtM1 * r0 else r0)
      then -(if (v * r0 ^ 2 == -u || v * r0 ^ 2 == -u * sqrtM1) then sqrtM1 * r0 else r0)
      else (if (v * r0 ^ 2 == -u || v * r0 ^ 2 == -u * sqrtM1) then sqrtM1 * r0 else r0)) := by
    rw [hr0']; rfl
  by_cases hu : u = 0
  · have hz : r0 = 0 := by rw [hr0, hu]; ring
    have hz2 : v * r0 ^ 2 = 0 := by rw [hz]; ring
    rw [hunf, hz2, hu]
    refine ⟨⟨fun _ => ⟨0, by ring⟩, fun _ => by simp⟩, fun _ => ⟨?_, hnonneg _⟩⟩
    simp only [hsq, hz]
    split <;> ring
  · have hw0 : w ≠ 0 := hw ▸ mul_ne_zero hu (pow_ne_zero 7 hv)
    have hc4 : c ^ 2 * c ^ 2 = 1 := by
      rw [hc, ← pow_mul, ← pow_add]
      have : (2 * e + 1) * 2 + (2 * e + 1) * 2 = p25519 - 1 := by rw [he]; decide +kernel
      rw [this]
      exact ZMod.pow_card_sub_one_eq_one hw0
    have hc2 : c ^ 2 = 1 ↔ IsSquare w := by
      rw [ZMod.euler_criterion p25519 hw0, hc, ← pow_mul]
      have : (2 * e + 1) * 2 = p25519 / 2 := by rw [he]; decide +kernel
      rw [this]
    have hsqw : IsSquare w ↔ ∃ x, v * x ^ 2 = u := by
      constructor
      · rintro ⟨s, hs⟩
        refine ⟨s / v ^ 4, ?_⟩
        have hv4 : v ^ 4 ≠ 0 := pow_ne_zero 4 hv
        rw [div_pow, mul_div_assoc', div_eq_iff (pow_ne_zero 2 hv4)]
        rw [pow_two s, ← hs, hw]; ring
      · rintro ⟨x, hx⟩
        exact ⟨v ^ 4 * x, by rw [hw, ← hx]; ring⟩
    have hcorrect : (v * r0 ^ 2 == u || v * r0 ^ 2 == -u) = true ↔ c ^ 2 = 1 := by
      rw [hcheck, Bool.or_eq_true, beq_iff_eq, beq_iff_eq]
      constructor
      · rintro (h | h)
        · have : c = 1 := mul_left_cancel₀ hu (by rw [h, mul_one])
          rw [this]; ring
        · have : c = -1 := mul_left_cancel₀ hu (by rw [h]; ring)
          rw [this]; ring
      · intro h
        rcases mul_self_eq_one_iff.1 ((pow_two c).symm.trans h) with h | h
        · left; rw [h, mul_one]
        · right; rw [h]; ring
    rw [hunf]
    refine ⟨hcorrect.trans (hc2.trans hsqw), fun h => ⟨?_, hnonneg _⟩⟩
    simp only [hsq]
    have hc1 := hcorrect.1 h
    rcases mul_self_eq_one_iff.1 ((pow_two c).symm.trans hc1) with h1 | h1
    · -- no flip: u ≠ -u and u ≠ -u i
      have n1 : ¬ v * r0 ^ 2 = -u := by
        rw [hcheck, h1, mul_one]
        intro h2
        have : 2 * u = 0 := by linear_combination h2
        rcases mul_eq_zero.1 this with h3 | h3
        · exact two_ne_zero' h3
        · exact hu h3
      have n2 : ¬ v * r0 ^ 2 = -u * sqrtM1 := by
        rw [hcheck, h1, mul_one]
        intro h2
        have h3 : (1 : Fe) = -sqrtM1 := mul_left_cancel₀ hu (by linear_combination h2)
        have : (1 : Fe) = -1 := by
          calc (1 : Fe) = 1 * 1 := by ring
            _ = -sqrtM1 * -sqrtM1 := by rw [← h3]
            _ = -1 := by linear_combination sqrtM1_sq
        exact one_ne_neg_one this
      have hb : (v * r0 ^ 2 == -u || v * r0 ^ 2 == -u * sqrtM1) = false := by
        rw [Bool.or_eq_false_iff, beq_eq_false_iff_ne, beq_eq_false_iff_ne]
        exact ⟨n1, n2⟩
      rw [hb]
      simp only [Bool.false_eq_true, if_false]
      rw [hcheck, h1, mul_one]
    · have p1 : v * r0 ^ 2 = -u := by rw [hcheck, h1]; ring
      have hb : (v * r0 ^ 2 == -u || v * r0 ^ 2 == -u * sqrtM1) = true := by simp [p1]
      rw [hb]
      simp only [if_true]
      linear_combination sqrtM1 ^ 2 * p1 - u * sqrtM1_sq

/-! ## The encoding -/

/-- The denominator of `decompress` never vanishes. -/
theorem v_ne_zero (y : Fe) : y ^ 2 * edD + 1 ≠ 0 := by
  intro h
  have hy : y ≠ 0 := by rintro rfl; simp at h
  have hc : ¬ IsSquare edD := Edwards.Complete.not_square
  refine hc ⟨sqrtM1 / y, ?_⟩
  rw [div_mul_div_comm, eq_div_iff (mul_ne_zero hy hy), sqrtM1_sq]
  linear_combination h

/-- The curve equation solved for `x`. -/
theorem on_iff (x y : Fe) :
    y ^ 2 - x ^ 2 = 1 + edD * x ^ 2 * y ^ 2 ↔ (y ^ 2 * edD + 1) * x ^ 2 = y ^ 2 - 1 := by
  constructor <;> intro h <;> linear_combination -h

theorem decompressXY_on {b : Bytes} {xy : Fe × Fe} (h : decompressXY b = some xy) :
    xy.2 ^ 2 - xy.1 ^ 2 = 1 + edD * xy.1 ^ 2 * xy.2 ^ 2 := by
  obtain ⟨x, y⟩ := xy
  dsimp only
  unfold decompressXY at h
  simp only at h
  split at h
  · rename_i hok
    simp only [Option.some.injEq, Prod.mk.injEq] at h
    obtain ⟨hx, rfl⟩ := h
    have hs := ((sqrtRatio_spec _ _ (v_ne_zero (feOfBytes b))).2 hok).1
    rw [on_iff, ← hx]
    split
    · rw [neg_sq]; exact hs
    · exact hs
  · simp at h

/-- `CompressedEdwardsY::decompress`. A `CompressedEdwardsY` has 32 bytes; other lengths are excluded by
its type. -/
def decompress (b : Bytes) : Option Point :=
  if b.length = 32 then
    (decompressXY b).pmap (fun xy h => ⟨xy.1, xy.2, h⟩) (fun _ h => decompressXY_on h)
  else none

/-- Two points with the same `y` and the same sign are equal. -/
theorem point_ext {P Q : Point} (hy : P.y = Q.y) (hs : isNegative P.x = isNegative Q.x) : P = Q := by
  have h1 := (on_iff P.x P.y).1 P.on
  have h2 := (on_iff Q.x Q.y).1 Q.on
  rw [hy] at h1
  have h3 : P.x ^ 2 = Q.x ^ 2 := mul_left_cancel₀ (v_ne_zero Q.y) (h1.trans h2.symm)
  exact Edwards.Point.ext (eq_of_sq_eq h3 hs) hy

theorem decompressXY_eq (b : Bytes) : decompressXY b =
    if (sqrtRatio (feOfBytes b ^ 2 - 1) (feOfBytes b ^ 2 * edD + 1)).1 then
      some (if signBit b then -(sqrtRatio (feOfBytes b ^ 2 - 1) (feOfBytes b ^ 2 * edD + 1)).2
        else (sqrtRatio (feOfBytes b ^ 2 - 1) (feOfBytes b ^ 2 * edD + 1)).2, feOfBytes b)
    else none := by
  simp only [decompressXY]

theorem decompress_iff (b : Bytes) (P : Point) :
    decompress b = some P ↔ b.length = 32 ∧ decompressXY b = some (P.x, P.y) := by
  unfold decompress
  by_cases hl : b.length = 32
  · rw [if_pos hl, Option.pmap_eq_some_iff]
    constructor
    · rintro ⟨xy, hon, hxy, hP⟩
      refine ⟨hl, ?_⟩
      rw [hxy, hP]
    · rintro ⟨-, h⟩
      exact ⟨(P.x, P.y), P.on, h, rfl⟩
  · rw [if_neg hl]
    constructor
    · intro h; exact absurd h (Option.some_ne_none _).symm
    · intro h; exact absurd h.1 hl

/-- The sign choice of `decompress` on a non-negative root. -/
theorem signed_root {x r : Fe} {s : Bool} (hr : isNegative r = false) :
    (if s then -r else r) = x ↔ x ^ 2 = r ^ 2 ∧ (isNegative x = s ∨ x = 0) := by
  constructor
  · intro h
    subst h
    refine ⟨by split <;> ring, ?_⟩
    by_cases h0 : r = 0
    · right
      rw [h0, neg_zero, ite_self]
    · left
      cases s with
      | true => rw [if_pos rfl, isNegative_neg h0, hr, Bool.not_false]
      | false => rw [if_neg Bool.false_ne_true, hr]
  · rintro ⟨hsq, hx⟩
    by_cases h0 : x = 0
    · have : r = 0 := by
        rw [h0] at hsq
        have h2 : r ^ 2 = 0 := by rw [← hsq]; ring
        exact (pow_eq_zero_iff (two_ne_zero)).1 h2
      rw [this, h0, neg_zero, ite_self]
    · have hx' := hx.resolve_right h0
      have hr0 : r ≠ 0 := by
        intro h; rw [h] at hsq
        exact h0 ((pow_eq_zero_iff (two_ne_zero)).1 (by rw [hsq]; ring))
      apply eq_of_sq_eq
      · rw [hsq]; split <;> ring
      · rw [hx']
        cases s with
        | true => rw [if_pos rfl, isNegative_neg hr0, hr, Bool.not_false]
        | false => rw [if_neg Bool.false_ne_true, hr]

theorem decompressXY_iff (b : Bytes) (x y : Fe) :
    decompressXY b = some (x, y) ↔
      y = feOfBytes b ∧ (y ^ 2 * edD + 1) * x ^ 2 = y ^ 2 - 1 ∧ (isNegative x = signBit b ∨ x = 0) := by
  have hspec := sqrtRatio_spec (feOfBytes b ^ 2 - 1) (feOfBytes b ^ 2 * edD + 1)
    (v_ne_zero (feOfBytes b))
  have hXY := decompressXY_eq b
  generalize sqrtRatio (feOfBytes b ^ 2 - 1) (feOfBytes b ^ 2 * edD + 1) = s at hspec hXY
  rw [hXY]
  by_cases hok : s.1 = true
  · obtain ⟨hroot, hneg⟩ := hspec.2 hok
    rw [if_pos hok, Option.some.injEq, Prod.mk.injEq, signed_root hneg]
    constructor
    · rintro ⟨⟨h1, h2⟩, rfl⟩
      exact ⟨rfl, by rw [h1]; exact hroot, h2⟩
    · rintro ⟨rfl, h1, h2⟩
      exact ⟨⟨mul_left_cancel₀ (v_ne_zero (feOfBytes b)) (h1.trans hroot.symm), h2⟩, rfl⟩
  · rw [if_neg hok]
    constructor
    · intro h; exact absurd h (Option.some_ne_none _).symm
    · rintro ⟨rfl, h1, -⟩
      exact absurd (hspec.1.2 ⟨x, h1⟩) hok

/-- What `decompress` accepts: 32 bytes whose low 255 bits, reduced modulo `p`, are the `y` of a point; the
top bit selects the sign of `x`, and is ignored when `x = 0`. -/
theorem decompress_eq_some_iff (b : Bytes) (P : Point) :
    decompress b = some P ↔ b.length = 32 ∧ P.y = feOfBytes b ∧
      (isNegative P.x = signBit b ∨ P.x = 0) := by
  rw [decompress_iff, decompressXY_iff]
  constructor
  · rintro ⟨hl, hy, -, hx⟩; exact ⟨hl, hy, hx⟩
  · rintro ⟨hl, hy, hx⟩; exact ⟨hl, hy, (on_iff P.x P.y).1 P.on, hx⟩

theorem decompress_length {b : Bytes} {P : Point} (h : decompress b = some P) : b.length = 32 :=
  ((decompress_eq_some_iff b P).1 h).1

@[simp] theorem compress_length (P : Point) : (compress P).length = 32 := by simp [compress]

theorem y_lt (P : Point) : P.y.val < 2 ^ 255 :=
  lt_of_lt_of_le (ZMod.val_lt P.y) (by decide +kernel)

theorem leToNat_compress (P : Point) :
    leToNat (compress P) = P.y.val + 2 ^ 255 * (if isNegative P.x then 1 else 0) := by
  rw [compress, leToNat_leFixed]
  have := y_lt P
  apply Nat.mod_eq_of_lt
  split <;> norm_num <;> omega

/-- Encoding then decoding gives the point back. -/
theorem decompress_compress (P : Point) : decompress (compress P) = some P := by
  have hy := y_lt P
  rw [decompress_eq_some_iff]
  refine ⟨compress_length P, ?_, Or.inl ?_⟩
  · unfold feOfBytes
    rw [leToNat_compress]
    have : (P.y.val + 2 ^ 255 * (if isNegative P.x then 1 else 0)) % 2 ^ 255 = P.y.val := by
      rw [Nat.add_mul_mod_self_left, Nat.mod_eq_of_lt hy]
    rw [this]
    simp
  · rw [signBit, leToNat_compress]
    have : (P.y.val + 2 ^ 255 * (if isNegative P.x then 1 else 0)) / 2 ^ 255 =
        (if isNegative P.x then 1 else 0) := by
      rw [Nat.add_mul_div_left _ _ (by norm_num), Nat.div_eq_of_lt hy, Nat.zero_add]
    rw [this]
    cases isNegative P.x <;> rfl

theorem compress_injective : Function.Injective compress := by
  intro P Q h
  have := congrArg decompress h
  rwa [decompress_compress, decompress_compress, Option.some.injEq] at this

@[simp] theorem compress_inj {P Q : Point} : compress P = compress Q ↔ P = Q :=
  compress_injective.eq_iff

end Verif.Ed25519
