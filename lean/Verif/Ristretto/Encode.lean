import Verif.Ristretto.Group

/-!
# The encoding of ristretto255

`RistrettoPoint::compress` and `CompressedRistretto::decompress` of curve25519-dalek 4.1.3
(`src/ristretto.rs`), on affine coordinates.
-/

namespace Verif.Ristretto
open Ed25519 (Fe Point edD sqrtM1 tors base isNegative isNegative_neg isNegative_zero sqrtRatio sqrtRatio_spec
  feOfBytes eq_of_sq_eq)

/-- `INVSQRT_A_MINUS_D` of curve25519-dalek 4.1.3, as a number. -/
def invsqrtAMinusDNat : Nat := 54469307008909316920995813868745141605393597292927456921205312896311721017578

/-- `INVSQRT_A_MINUS_D` -/
def invsqrtAMinusD : Fe := (invsqrtAMinusDNat : Fe)

theorem invsqrtAMinusD_sq : invsqrtAMinusD ^ 2 * (-edD - 1) = 1 := by
  have : ((invsqrtAMinusDNat ^ 2 * (Ed25519.dNat + 1) + 1 : ℕ) : Fe) = ((0 : ℕ) : Fe) :=
    Ed25519.natCast_eq (by decide +kernel)
  push_cast at this
  rw [Ed25519.cast_d] at this
  show (invsqrtAMinusDNat : Fe) ^ 2 * (-edD - 1) = 1
  linear_combination -this

/-- `FieldElement::conditional_negate` with the sign of the element itself. -/
def absFe (s : Fe) : Fe := if isNegative s then -s else s

theorem isNegative_absFe (s : Fe) : isNegative (absFe s) = false := by
  unfold absFe
  split
  · rename_i h
    have hr : s ≠ 0 := by rintro rfl; rw [isNegative_zero] at h; simp at h
    rw [isNegative_neg hr, h]; rfl
  · rename_i h; simpa using h

theorem absFe_sq (s : Fe) : absFe s ^ 2 = s ^ 2 := by
  unfold absFe
  split <;> ring

theorem absFe_of_nonneg {s : Fe} (h : isNegative s = false) : absFe s = s := by
  unfold absFe
  rw [h]
  rfl

/-- `RistrettoPoint::compress` before serialisation, for the point with `Z = 1`. -/
def encodeS (x y : Fe) : Fe :=
  let t := x * y
  let u1 := (1 + y) * (1 - y)
  let u2 := x * y
  let invsqrt := (sqrtRatio 1 (u1 * u2 ^ 2)).2
  let i1 := invsqrt * u1
  let i2 := invsqrt * u2
  let zInv := i1 * (i2 * t)
  let rotate := isNegative (t * zInv)
  let x' := if rotate then y * sqrtM1 else x
  let y' := if rotate then x * sqrtM1 else y
  let denInv := if rotate then i1 * invsqrtAMinusD else i2
  let y'' := if isNegative (x' * zInv) then -y' else y'
  absFe (denInv * (1 - y''))

/-- The bytes of a field element (`FieldElement::as_bytes`). -/
def feBytes (s : Fe) : Bytes := leFixed 32 s.val

/-- `CompressedRistretto::decompress` before the point is assembled. -/
def decodeXY (b : Bytes) : Option (Fe × Fe) :=
  let s := feOfBytes b
  if feBytes s ≠ b ∨ isNegative s then none
  else
    let ss := s ^ 2
    let u1 := 1 - ss
    let u2 := 1 + ss
    let v := -edD * u1 ^ 2 - u2 ^ 2
    let (ok, i) := sqrtRatio 1 (v * u2 ^ 2)
    let dx := i * u2
    let dy := i * (dx * v)
    let x := absFe ((s + s) * dx)
    let y := u1 * dy
    let t := x * y
    if ok = false ∨ isNegative t ∨ y = 0 then none else some (x, y)

/-! ## The representative that is encoded -/

/-- The representative of the class with `x y` and `x` non-negative. -/
def norm (x y : Fe) : Fe × Fe :=
  let q := if isNegative (x * y) then (y * sqrtM1, x * sqrtM1) else (x, y)
  if isNegative q.1 then (-q.1, -q.2) else q

theorem norm_neg {x y : Fe} (h : x * y ≠ 0) : norm (-x) (-y) = norm x y := by
  have hx : x ≠ 0 := left_ne_zero_of_mul h
  have hy : y ≠ 0 := right_ne_zero_of_mul h
  have hi := sqrtM1_ne_zero
  unfold norm
  rw [neg_mul_neg]
  cases hxy : isNegative (x * y)
  · simp only [Bool.false_eq_true, if_false, isNegative_neg hx, neg_neg]
    cases isNegative x <;> simp only [Bool.not_false, Bool.not_true, Bool.false_eq_true, if_true, if_false]
  · simp only [if_true, neg_mul, isNegative_neg (mul_ne_zero hy hi), neg_neg]
    cases isNegative (y * sqrtM1) <;> simp only [Bool.not_false, Bool.not_true, Bool.false_eq_true, if_true, if_false]

theorem norm_rot {x y : Fe} (h : x * y ≠ 0) : norm (y * sqrtM1) (x * sqrtM1) = norm x y := by
  have hx : x ≠ 0 := left_ne_zero_of_mul h
  have hy : y ≠ 0 := right_ne_zero_of_mul h
  have hi := sqrtM1_sq
  have e : y * sqrtM1 * (x * sqrtM1) = -(x * y) := by linear_combination (x * y) * hi
  have e1 : x * sqrtM1 * sqrtM1 = -x := by linear_combination x * hi
  have e2 : y * sqrtM1 * sqrtM1 = -y := by linear_combination y * hi
  unfold norm
  rw [e, isNegative_neg h]
  cases hxy : isNegative (x * y)
  · simp only [Bool.false_eq_true, if_false, Bool.not_false, if_true, e1, e2, isNegative_neg hx, neg_neg]
    cases isNegative x <;> simp only [Bool.not_false, Bool.not_true, Bool.false_eq_true, if_true, if_false]
  · simp only [Bool.not_true, Bool.false_eq_true, if_false, if_true]

theorem norm_nonneg {x y : Fe} (h : x * y ≠ 0) :
    isNegative ((norm x y).1 * (norm x y).2) = false ∧ isNegative (norm x y).1 = false := by
  have hx : x ≠ 0 := left_ne_zero_of_mul h
  have hy : y ≠ 0 := right_ne_zero_of_mul h
  have hi := sqrtM1_sq
  have e : y * sqrtM1 * (x * sqrtM1) = -(x * y) := by linear_combination (x * y) * hi
  unfold norm
  cases hxy : isNegative (x * y)
  · simp only [Bool.false_eq_true, if_false]
    cases hxx : isNegative x
    · simp only [Bool.false_eq_true, if_false]
      exact ⟨hxy, hxx⟩
    · simp only [if_true]
      rw [neg_mul_neg, hxy, isNegative_neg hx, hxx]
      exact ⟨rfl, rfl⟩
  · simp only [if_true]
    cases hxx : isNegative (y * sqrtM1)
    · simp only [Bool.false_eq_true, if_false]
      rw [e, isNegative_neg h, hxy, hxx]
      exact ⟨rfl, rfl⟩
    · simp only [if_true]
      rw [neg_mul_neg, e, isNegative_neg h, hxy, isNegative_neg (mul_ne_zero hy sqrtM1_ne_zero), hxx]
      exact ⟨rfl, rfl⟩

/-- The members of a class. -/
theorem coset {P Q : Point} (hP : P ∈ even) (hQ : Q ∈ even) (h : mk P hP = mk Q hQ) :
    (Q.x = P.x ∧ Q.y = P.y) ∨ (Q.x = -P.x ∧ Q.y = -P.y) ∨
    (Q.x = P.y * sqrtM1 ∧ Q.y = P.x * sqrtM1) ∨ (Q.x = -(P.y * sqrtM1) ∧ Q.y = -(P.x * sqrtM1)) := by
  rw [mk_eq_iff] at h
  obtain ⟨R, hR⟩ : ∃ R, R = Q - P := ⟨_, rfl⟩
  rw [← hR] at h
  have hQ' : Q = P + R := by rw [hR]; abel
  have hon := R.on
  have hadd_x := Edwards.add_x P R
  have hadd_y := Edwards.add_y P R
  rw [hQ', hadd_x, hadd_y]
  rcases mul_eq_zero.1 h with h0 | h0
  · rw [h0] at hon ⊢
    have : R.y ^ 2 = 1 ^ 2 := by linear_combination hon
    rcases sq_eq_sq_iff_eq_or_eq_neg.1 this with h1 | h1
    · left
      rw [h1]
      constructor <;> simp
    · right; left
      rw [h1]
      constructor <;> simp
  · rw [h0] at hon ⊢
    have : R.x ^ 2 = sqrtM1 ^ 2 := by rw [sqrtM1_sq]; linear_combination -hon
    rcases sq_eq_sq_iff_eq_or_eq_neg.1 this with h1 | h1
    · right; right; left
      rw [h1]
      constructor <;> simp
    · right; right; right
      rw [h1]
      constructor <;> simp

theorem norm_class {P Q : Point} (hP : P ∈ even) (hQ : Q ∈ even) (h : mk P hP = mk Q hQ) (h0 : P.x * P.y ≠ 0) :
    norm Q.x Q.y = norm P.x P.y ∧ Q.x * Q.y ≠ 0 := by
  refine ⟨?_, ?_⟩
  · have hr : P.y * sqrtM1 * (P.x * sqrtM1) ≠ 0 :=
      mul_ne_zero (mul_ne_zero (right_ne_zero_of_mul h0) sqrtM1_ne_zero)
        (mul_ne_zero (left_ne_zero_of_mul h0) sqrtM1_ne_zero)
    rcases coset hP hQ h with ⟨h1, h2⟩ | ⟨h1, h2⟩ | ⟨h1, h2⟩ | ⟨h1, h2⟩
    · rw [h1, h2]
    · rw [h1, h2, norm_neg h0]
    · rw [h1, h2, norm_rot h0]
    · rw [h1, h2, norm_neg hr, norm_rot h0]
  · intro hz
    have hz' := (mk_eq_zero_iff hQ).2 hz
    rw [← h, mk_eq_zero_iff] at hz'
    exact h0 hz'

/-- The representative is a point of the class. -/
theorem norm_mem {P : Point} (hP : P ∈ even) :
    ∃ Q, ∃ hQ : Q ∈ even, mk P hP = mk Q hQ ∧ (Q.x, Q.y) = norm P.x P.y := by
  have hneg : ∀ Q (hQ : Q ∈ even), ∃ R, ∃ hR : R ∈ even, mk Q hQ = mk R hR ∧ R.x = -Q.x ∧ R.y = -Q.y := by
    intro Q hQ
    let T : Point := ⟨0, -1, by ring⟩
    have hT : T ∈ even := ⟨0, by show 1 - (-1 : Fe) ^ 2 = 0 * 0; ring⟩
    refine ⟨Q + T, even.add_mem hQ hT, ?_, ?_, ?_⟩
    · rw [← mk_add hQ hT, (mk_eq_zero_iff hT).2 (by show (0 : Fe) * -1 = 0; ring), add_zero]
    · rw [Edwards.add_x]
      show (Q.x * -1 + Q.y * 0) / (1 + edD * Q.x * 0 * Q.y * -1) = -Q.x
      simp
    · rw [Edwards.add_y]
      show (Q.y * -1 + Q.x * 0) / (1 - edD * Q.x * 0 * Q.y * -1) = -Q.y
      simp
  have hrot : ∀ Q (hQ : Q ∈ even), ∃ R, ∃ hR : R ∈ even,
      mk Q hQ = mk R hR ∧ R.x = Q.y * sqrtM1 ∧ R.y = Q.x * sqrtM1 := by
    intro Q hQ
    let T : Point := ⟨sqrtM1, 0, by linear_combination -sqrtM1_sq⟩
    have hT : T ∈ even := ⟨1, by show 1 - (0 : Fe) ^ 2 = 1 * 1; ring⟩
    refine ⟨Q + T, even.add_mem hQ hT, ?_, ?_, ?_⟩
    · rw [← mk_add hQ hT, (mk_eq_zero_iff hT).2 (by show sqrtM1 * 0 = 0; ring), add_zero]
    · rw [Edwards.add_x]
      show (Q.x * 0 + Q.y * sqrtM1) / (1 + edD * Q.x * sqrtM1 * Q.y * 0) = Q.y * sqrtM1
      simp
    · rw [Edwards.add_y]
      show (Q.y * 0 + Q.x * sqrtM1) / (1 - edD * Q.x * sqrtM1 * Q.y * 0) = Q.x * sqrtM1
      simp
  obtain ⟨R, hR, hPR, hRx, hRy⟩ : ∃ R, ∃ hR : R ∈ even, mk P hP = mk R hR ∧
      R.x = (if isNegative (P.x * P.y) then (P.y * sqrtM1, P.x * sqrtM1) else (P.x, P.y)).1 ∧
      R.y = (if isNegative (P.x * P.y) then (P.y * sqrtM1, P.x * sqrtM1) else (P.x, P.y)).2 := by
    cases isNegative (P.x * P.y)
    · exact ⟨P, hP, rfl, rfl, rfl⟩
    · exact hrot P hP
  unfold norm
  simp only
  rw [← hRx, ← hRy]
  cases isNegative R.x
  · refine ⟨R, hR, hPR, ?_⟩
    simp only [Bool.false_eq_true, if_false]
    rw [hRx, hRy]
  · obtain ⟨S, hS, hRS, hSx, hSy⟩ := hneg R hR
    exact ⟨S, hS, hPR.trans hRS, by rw [hSx, hSy, if_pos rfl, hRx, hRy]⟩

/-! ## Encoding -/

theorem encodeS_zero {x y : Fe} (h : x * y = 0) : encodeS x y = 0 := by
  have hs : sqrtRatio 1 0 = (false, 0) := by
    unfold sqrtRatio Ed25519.sqrtCand
    simp [isNegative_zero]
  have hn : isNegative (0 : Fe) = false := isNegative_zero
  unfold encodeS
  simp only [h, ne_eq, OfNat.ofNat_ne_zero, not_false_eq_true, zero_pow, mul_zero, hs, zero_mul, hn,
    Bool.false_eq_true, if_false, absFe]

theorem named (a : Fe) : ∃ w, w = a := ⟨a, rfl⟩

/-- The root behind the encoding exists. -/
theorem encode_root {P : Point} (hP : P ∈ even) (h0 : P.x * P.y ≠ 0) :
    (1 + P.y) * (1 - P.y) * (P.x * P.y) ^ 2 *
      (sqrtRatio 1 ((1 + P.y) * (1 - P.y) * (P.x * P.y) ^ 2)).2 ^ 2 = 1 := by
  obtain ⟨r, hr⟩ := mem_even.1 hP
  have hr0 : r ≠ 0 := by
    intro hz
    rw [hz] at hr
    have : P.y ^ 2 = 1 := by linear_combination -hr
    exact left_ne_zero_of_mul h0 (x_eq_zero_of_y_sq this)
  have hu : (1 + P.y) * (1 - P.y) = r ^ 2 := by linear_combination hr
  rw [hu]
  have hw : r ^ 2 * (P.x * P.y) ^ 2 ≠ 0 := mul_ne_zero (pow_ne_zero 2 hr0) (pow_ne_zero 2 h0)
  have hs := sqrtRatio_spec 1 (r ^ 2 * (P.x * P.y) ^ 2) hw
  refine (hs.2 (hs.1.2 ⟨1 / (r * (P.x * P.y)), ?_⟩)).1
  rw [div_pow, mul_pow r, mul_div_assoc', one_pow, mul_one, div_self hw]

/-- What `compress` computes: the non-negative root of `(1 - y)/(1 + y)` for the representative. -/
theorem encodeS_spec {P : Point} (hP : P ∈ even) (h0 : P.x * P.y ≠ 0) :
    encodeS P.x P.y ^ 2 * (1 + (norm P.x P.y).2) = 1 - (norm P.x P.y).2 ∧
    isNegative (encodeS P.x P.y) = false := by
  have hroot := encode_root hP h0
  have hid := one_sub_mul_one_add P
  have hc := sqrtAdMinusOne_sq
  have hm := invsqrtAMinusD_sq
  have hi := sqrtM1_sq
  refine ⟨?_, isNegative_absFe _⟩
  unfold encodeS norm
  simp only
  obtain ⟨w, hw⟩ := named (sqrtRatio 1 ((1 + P.y) * (1 - P.y) * (P.x * P.y) ^ 2)).2
  rw [← hw] at hroot ⊢
  have hz : w * ((1 + P.y) * (1 - P.y)) * (w * (P.x * P.y) * (P.x * P.y)) = 1 := by
    linear_combination hroot
  rw [hz, mul_one, mul_one, absFe_sq]
  have fin : ∀ den z : Fe, den ^ 2 * (1 - z ^ 2) = 1 → (den * (1 - z)) ^ 2 * (1 + z) = 1 - z := by
    intro den z h
    linear_combination (1 - z) * h
  cases hn : isNegative (P.x * P.y)
  · have hd : (w * (P.x * P.y)) ^ 2 * (1 - P.y ^ 2) = 1 := by linear_combination hroot
    simp only [Bool.false_eq_true, if_false]
    cases hx : isNegative P.x
    · simp only [Bool.false_eq_true, if_false]
      exact fin _ _ hd
    · simp only [if_true]
      exact fin _ _ (by rw [neg_sq]; exact hd)
  · have hd : (w * ((1 + P.y) * (1 - P.y)) * invsqrtAMinusD) ^ 2 * (1 - (P.x * sqrtM1) ^ 2) = 1 := by
      have e : 1 - (P.x * sqrtM1) ^ 2 = 1 + P.x ^ 2 := by linear_combination (-P.x ^ 2) * hi
      rw [e]
      linear_combination hroot + (w ^ 2 * (1 - P.y ^ 2) * invsqrtAMinusD ^ 2) * hid +
        (w ^ 2 * (1 - P.y ^ 2) * invsqrtAMinusD ^ 2 * (P.x * P.y) ^ 2) * hc +
        (w ^ 2 * (1 - P.y ^ 2) * (P.x * P.y) ^ 2) * hm
    simp only [if_true]
    cases hx : isNegative (P.y * sqrtM1)
    · simp only [Bool.false_eq_true, if_false]
      exact fin _ _ hd
    · simp only [if_true]
      exact fin _ _ (by rw [neg_sq]; exact hd)

theorem root_unique {s s' y : Fe} (h : s ^ 2 * (1 + y) = 1 - y) (h' : s' ^ 2 * (1 + y) = 1 - y)
    (hn : isNegative s = isNegative s') : s = s' := by
  have hy : 1 + y ≠ 0 := by
    intro hz
    have : (2 : Fe) = 0 := by linear_combination -h + (1 + s ^ 2) * hz
    exact Ed25519.two_ne_zero' this
  exact eq_of_sq_eq (mul_right_cancel₀ hy (h.trans h'.symm)) hn

theorem encodeS_class {P Q : Point} (hP : P ∈ even) (hQ : Q ∈ even) (h : mk P hP = mk Q hQ) :
    encodeS P.x P.y = encodeS Q.x Q.y := by
  by_cases h0 : P.x * P.y = 0
  · have hz := (mk_eq_zero_iff hP).2 h0
    rw [h, mk_eq_zero_iff] at hz
    rw [encodeS_zero h0, encodeS_zero hz]
  · obtain ⟨hn, hz⟩ := norm_class hP hQ h h0
    have h1 := encodeS_spec hP h0
    have h2 := encodeS_spec hQ hz
    rw [hn] at h2
    exact root_unique h1.1 h2.1 (h1.2.trans h2.2.symm)

/-- `RistrettoPoint::compress`. -/
def compress (g : RPoint) : Bytes :=
  Quotient.lift (fun P : even => feBytes (encodeS P.1.x P.1.y)) (by
    intro P Q h
    have : mk P.1 P.2 = mk Q.1 Q.2 := Quotient.sound h
    exact congrArg feBytes (encodeS_class P.2 Q.2 this)) g

theorem compress_mk {P : Point} (hP : P ∈ even) : compress (mk P hP) = feBytes (encodeS P.x P.y) := rfl

/-! ## Decoding -/

theorem feOfBytes_feBytes (s : Fe) : feOfBytes (feBytes s) = s := by
  have hlt : s.val < 2 ^ 255 := (ZMod.val_lt s).trans (by decide +kernel)
  unfold feOfBytes feBytes
  rw [leToNat_leFixed, Nat.mod_eq_of_lt (hlt.trans (by decide +kernel)), Nat.mod_eq_of_lt hlt,
    ZMod.natCast_zmod_val]

theorem feBytes_length (s : Fe) : (feBytes s).length = 32 := by simp [feBytes]

/-- The relation between a decoded point and its encoding. -/
structure Decodes (s x y : Fe) : Prop where
  on : y ^ 2 - x ^ 2 = 1 + edD * x ^ 2 * y ^ 2
  root : s ^ 2 * (1 + y) = 1 - y
  s_nonneg : isNegative s = false
  x_nonneg : isNegative x = false
  t_nonneg : isNegative (x * y) = false
  y_ne : y ≠ 0

theorem decodes_of_decodeXY {b : Bytes} {x y : Fe} (h : decodeXY b = some (x, y)) :
    ∃ s, b = feBytes s ∧ Decodes s x y := by
  unfold decodeXY at h
  simp only at h
  obtain ⟨s, hs⟩ : ∃ s, s = feOfBytes b := ⟨_, rfl⟩
  rw [← hs] at h
  split at h
  · simp at h
  rename_i hc
  rw [not_or, not_not, Bool.not_eq_true] at hc
  obtain ⟨v, hv⟩ : ∃ v, v = -edD * (1 - s ^ 2) ^ 2 - (1 + s ^ 2) ^ 2 := ⟨_, rfl⟩
  rw [← hv] at h
  split at h
  · simp at h
  rename_i hok
  rw [not_or, not_or, Bool.not_eq_false, Bool.not_eq_true] at hok
  obtain ⟨hok, ht, hy0⟩ := hok
  have hw : v * (1 + s ^ 2) ^ 2 ≠ 0 := by
    intro hz
    rw [hz] at hok
    have : (sqrtRatio 1 0).1 = false := by
      unfold sqrtRatio Ed25519.sqrtCand
      simp
    rw [this] at hok
    exact Bool.false_ne_true hok
  have hI := ((sqrtRatio_spec 1 _ hw).2 hok).1
  obtain ⟨I, hIe⟩ := named (sqrtRatio 1 (v * (1 + s ^ 2) ^ 2)).2
  rw [← hIe] at h hI ht hy0
  rw [Option.some.injEq, Prod.mk.injEq] at h
  obtain ⟨hx, hy⟩ := h
  rw [hy] at ht hy0
  rw [hx] at ht
  have hxn : isNegative x = false := by rw [← hx]; exact isNegative_absFe _
  have hx2 : x ^ 2 = ((s + s) * (I * (1 + s ^ 2))) ^ 2 := by rw [← hx, absFe_sq]
  have hu2 : 1 + s ^ 2 ≠ 0 := fun hz => hw (by rw [hz]; ring)
  have hv0 : v ≠ 0 := left_ne_zero_of_mul hw
  have hyu : y * (1 + s ^ 2) = 1 - s ^ 2 := by
    rw [← hy]
    linear_combination (1 - s ^ 2) * hI
  have hxv : x ^ 2 * v = 4 * s ^ 2 := by
    rw [hx2]
    linear_combination (4 * s ^ 2) * hI
  refine ⟨s, hc.1.symm, ⟨?_, ?_, hc.2, hxn, ht, hy0⟩⟩
  · refine mul_right_cancel₀ (mul_ne_zero hv0 (pow_ne_zero 2 hu2)) ?_
    linear_combination ((v - 4 * edD * s ^ 2) * (y * (1 + s ^ 2) + (1 - s ^ 2))) * hyu -
      ((1 + s ^ 2) ^ 2 * (1 + edD * y ^ 2)) * hxv - (4 * s ^ 2) * hv
  · refine mul_right_cancel₀ hu2 ?_
    linear_combination (s ^ 2 + 1) * hyu

theorem decodeXY_of_decodes {s x y : Fe} (h : Decodes s x y) : decodeXY (feBytes s) = some (x, y) := by
  obtain ⟨hon, hroot, hsn, hxn, htn, hy0⟩ := h
  obtain ⟨v, hv⟩ : ∃ v, v = -edD * (1 - s ^ 2) ^ 2 - (1 + s ^ 2) ^ 2 := ⟨_, rfl⟩
  have hyu : y * (1 + s ^ 2) = 1 - s ^ 2 := by linear_combination hroot
  have hu2 : 1 + s ^ 2 ≠ 0 := by
    intro hz
    have : (2 : Fe) = 0 := by linear_combination -hyu + (1 + y) * hz
    exact Ed25519.two_ne_zero' this
  have hxv : x ^ 2 * v = 4 * s ^ 2 := by
    linear_combination x ^ 2 * hv + ((edD * x ^ 2 - 1) * (y * (1 + s ^ 2) + (1 - s ^ 2))) * hyu +
      (1 + s ^ 2) ^ 2 * hon
  have hsq : ∃ z, v * (1 + s ^ 2) ^ 2 * z ^ 2 = 1 := by
    by_cases hs : s = 0
    · refine ⟨1 / sqrtAdMinusOne, ?_⟩
      rw [hv, hs, div_pow]
      have := sqrtAdMinusOne_ne_zero
      have e : (-edD * (1 - 0 ^ 2) ^ 2 - (1 + 0 ^ 2) ^ 2) * (1 + 0 ^ 2) ^ 2 = sqrtAdMinusOne ^ 2 := by
        rw [sqrtAdMinusOne_sq]
        ring
      rw [e, one_pow, mul_one_div_cancel (pow_ne_zero 2 this)]
    · refine ⟨x / (2 * s * (1 + s ^ 2)), ?_⟩
      have hden : (2 * s * (1 + s ^ 2)) ^ 2 ≠ 0 :=
        pow_ne_zero 2 (mul_ne_zero (mul_ne_zero Ed25519.two_ne_zero' hs) hu2)
      rw [div_pow, mul_div_assoc', div_eq_one_iff_eq hden]
      linear_combination (1 + s ^ 2) ^ 2 * hxv
  have hw : v * (1 + s ^ 2) ^ 2 ≠ 0 := by
    intro hz
    obtain ⟨z, hz'⟩ := hsq
    rw [hz, zero_mul] at hz'
    exact zero_ne_one hz'
  have hspec := sqrtRatio_spec 1 _ hw
  have hok := hspec.1.2 hsq
  have hI := (hspec.2 hok).1
  unfold decodeXY
  simp only
  rw [feOfBytes_feBytes, ← hv, hok]
  obtain ⟨I, hIe⟩ := named (sqrtRatio 1 (v * (1 + s ^ 2) ^ 2)).2
  rw [← hIe] at hI ⊢
  have hx : absFe ((s + s) * (I * (1 + s ^ 2))) = x := by
    refine eq_of_sq_eq ?_ ((isNegative_absFe _).trans hxn.symm)
    rw [absFe_sq]
    linear_combination (-(I ^ 2 * (1 + s ^ 2) ^ 2)) * hxv + x ^ 2 * hI
  have hy : (1 - s ^ 2) * (I * (I * (1 + s ^ 2) * v)) = y := by
    refine mul_right_cancel₀ hu2 ?_
    linear_combination (1 - s ^ 2) * hI - hyu
  rw [hx, hy, htn, hsn]
  simp only [ne_eq, not_true_eq_false, Bool.false_eq_true, or_self, if_false, hy0, Bool.true_eq_false]

theorem Decodes.even {s x y : Fe} (h : Decodes s x y) : (⟨x, y, h.on⟩ : Point) ∈ even :=
  ⟨s * (1 + y), by
    show 1 - y ^ 2 = s * (1 + y) * (s * (1 + y))
    linear_combination (-(1 + y)) * h.root⟩

theorem decodeXY_on {b : Bytes} {xy : Fe × Fe} (h : decodeXY b = some xy) :
    ∃ on : xy.2 ^ 2 - xy.1 ^ 2 = 1 + edD * xy.1 ^ 2 * xy.2 ^ 2, (⟨xy.1, xy.2, on⟩ : Point) ∈ Ristretto.even := by
  obtain ⟨s, -, hd⟩ := decodes_of_decodeXY (x := xy.1) (y := xy.2) h
  exact ⟨hd.on, hd.even⟩

/-- `CompressedRistretto::decompress`. -/
def decompress (b : Bytes) : Option RPoint :=
  (decodeXY b).pmap (fun xy (h : decodeXY b = some xy) =>
    mk ⟨xy.1, xy.2, (decodeXY_on h).choose⟩ (decodeXY_on h).choose_spec) (fun _ h => h)

theorem decompress_eq_some_iff (b : Bytes) (g : RPoint) :
    decompress b = some g ↔ ∃ s x y, ∃ h : Decodes s x y, b = feBytes s ∧ g = mk ⟨x, y, h.on⟩ h.even := by
  unfold decompress
  rw [Option.pmap_eq_some_iff]
  constructor
  · rintro ⟨⟨x, y⟩, h, -, rfl⟩
    obtain ⟨s, hb, hd⟩ := decodes_of_decodeXY h
    exact ⟨s, x, y, hd, hb, rfl⟩
  · rintro ⟨s, x, y, hd, rfl, rfl⟩
    exact ⟨(x, y), decodeXY_of_decodes hd, decodeXY_of_decodes hd, rfl⟩

theorem encodeS_of_decodes {s x y : Fe} (h : Decodes s x y) : encodeS x y = s := by
  by_cases hxy : x * y = 0
  · rw [encodeS_zero hxy]
    rcases mul_eq_zero.1 hxy with hx | hy
    · have hon := h.on
      rw [hx] at hon
      have hy : y ^ 2 = 1 ^ 2 := by linear_combination hon
      have hroot := h.root
      rcases sq_eq_sq_iff_eq_or_eq_neg.1 hy with hy | hy
      · rw [hy] at hroot
        have : 2 * s ^ 2 = 0 := by linear_combination hroot
        rcases mul_eq_zero.1 this with h2 | h2
        · exact absurd h2 Ed25519.two_ne_zero'
        · exact ((pow_eq_zero_iff two_ne_zero).1 h2).symm
      · rw [hy] at hroot
        have : (2 : Fe) = 0 := by linear_combination -hroot
        exact absurd this Ed25519.two_ne_zero'
    · exact absurd hy h.y_ne
  · have hn : norm x y = (x, y) := by
      unfold norm
      simp only [h.t_nonneg, h.x_nonneg, Bool.false_eq_true, if_false]
    have hs := encodeS_spec h.even hxy
    rw [hn] at hs
    exact root_unique hs.1 h.root (hs.2.trans h.s_nonneg.symm)

theorem compress_decompress (b : Bytes) (g : RPoint) (h : decompress b = some g) : compress g = b := by
  obtain ⟨s, x, y, hd, rfl, rfl⟩ := (decompress_eq_some_iff b g).1 h
  rw [compress_mk]
  exact congrArg feBytes (encodeS_of_decodes hd)

theorem decompress_compress (g : RPoint) : decompress (compress g) = some g := by
  obtain ⟨P, hP, rfl⟩ := exists_mk g
  rw [compress_mk, decompress_eq_some_iff]
  by_cases h0 : P.x * P.y = 0
  · have hd : Decodes 0 0 1 := by
      refine ⟨by ring, by ring, isNegative_zero, isNegative_zero, ?_, one_ne_zero⟩
      rw [zero_mul]
      exact isNegative_zero
    refine ⟨0, 0, 1, hd, by rw [encodeS_zero h0], ?_⟩
    rw [(mk_eq_zero_iff hP).2 h0]
    rfl
  · obtain ⟨Q, hQ, hPQ, hn⟩ := norm_mem hP
    have hx : (norm P.x P.y).1 = Q.x := by rw [← hn]
    have hy : (norm P.x P.y).2 = Q.y := by rw [← hn]
    have hs := encodeS_spec hP h0
    have hnn := norm_nonneg h0
    rw [hx, hy] at hnn
    rw [hy] at hs
    have hy0 : Q.y ≠ 0 := right_ne_zero_of_mul (norm_class hP hQ hPQ h0).2
    have hd : Decodes (encodeS P.x P.y) Q.x Q.y := ⟨Q.on, hs.1, hs.2, hnn.2, hnn.1, hy0⟩
    exact ⟨_, Q.x, Q.y, hd, rfl, hPQ⟩

theorem compress_length (g : RPoint) : (compress g).length = 32 := by
  obtain ⟨P, hP, rfl⟩ := exists_mk g
  rw [compress_mk, feBytes_length]

end Verif.Ristretto
