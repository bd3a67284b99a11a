import Verif.Ed25519.Curve

/-!
# Evaluating the curve in the kernel

Projective arithmetic on natural numbers modulo `p`, in continuation-passing style so that the kernel
evaluates every intermediate number once, and its refinement of the group of `Verif/Ed25519/Curve.lean`. Only
used to evaluate constants and conformance vectors; no model definition depends on it.
-/

namespace Verif.Ed25519

/-- The point at projective coordinates `(X : Y : Z)`. -/
def Rep (X Y Z : Nat) (P : Point) : Prop :=
  (Z : Fe) ≠ 0 ∧ (X : Fe) = P.x * (Z : Fe) ∧ (Y : Fe) = P.y * (Z : Fe)

/-- Unified projective addition. -/
def addK {α : Type} (X1 Y1 Z1 X2 Y2 Z2 : Nat) (k : Nat → Nat → Nat → α) : α :=
  strict (Z1 * Z2 % p25519) fun a =>
  strict (a * a % p25519) fun b =>
  strict (X1 * X2 % p25519) fun c =>
  strict (Y1 * Y2 % p25519) fun d =>
  strict (dNat * (c * d % p25519) % p25519) fun e =>
  strict (b + (p25519 - e)) fun f =>
  strict (b + e) fun g =>
  strict ((X1 + Y1) * (X2 + Y2) + (p25519 - c) + (p25519 - d)) fun h =>
  strict (a * (f * h % p25519) % p25519) fun X3 =>
  strict (a * (g * (d + c) % p25519) % p25519) fun Y3 =>
  strict (f * g % p25519) fun Z3 =>
  k X3 Y3 Z3

theorem cast_mod (a : Nat) : ((a % p25519 : ℕ) : Fe) = (a : Fe) := ZMod.natCast_mod a p25519

theorem cast_negmod (a : Nat) : ((p25519 - a % p25519 : ℕ) : Fe) = -(a : Fe) := by
  have h : a % p25519 ≤ p25519 := (Nat.mod_lt _ p_pos).le
  rw [Nat.cast_sub h, cast_mod, ZMod.natCast_self, zero_sub]

/-- The algebra of the projective formulas. -/
theorem proj_add {F : Type} [Field F] {d : F} [Edwards.Complete d] (P Q : Edwards.Point d)
    {X1 Y1 Z1 X2 Y2 Z2 : F} (h1 : Z1 ≠ 0) (hx1 : X1 = P.x * Z1) (hy1 : Y1 = P.y * Z1)
    (h2 : Z2 ≠ 0) (hx2 : X2 = Q.x * Z2) (hy2 : Y2 = Q.y * Z2) :
    let A := Z1 * Z2
    let E := d * ((X1 * X2) * (Y1 * Y2))
    let F' := A * A + -E
    let G := A * A + E
    F' * G ≠ 0 ∧
    A * (F' * ((X1 + Y1) * (X2 + Y2) + -(X1 * X2) + -(Y1 * Y2))) = (P + Q).x * (F' * G) ∧
    A * (G * (Y1 * Y2 + X1 * X2)) = (P + Q).y * (F' * G) := by
  intro A E F' G
  have ha := Edwards.denom_add P Q
  have hs := Edwards.denom_sub P Q
  have hA : A ≠ 0 := mul_ne_zero h1 h2
  have hF : F' = A * A * (1 - d * P.x * Q.x * P.y * Q.y) := by
    simp only [F', E, A, hx1, hx2, hy1, hy2]; ring
  have hG : G = A * A * (1 + d * P.x * Q.x * P.y * Q.y) := by
    simp only [G, E, A, hx1, hx2, hy1, hy2]; ring
  have hxm := Edwards.add_x_mul P Q
  have hym := Edwards.add_y_mul P Q
  have hc : X1 * X2 = P.x * Q.x * A := by simp only [A, hx1, hx2]; ring
  have hd : Y1 * Y2 = P.y * Q.y * A := by simp only [A, hy1, hy2]; ring
  have hh : (X1 + Y1) * (X2 + Y2) + -(X1 * X2) + -(Y1 * Y2) = (P.x * Q.y + P.y * Q.x) * A := by
    simp only [A, hx1, hx2, hy1, hy2]; ring
  refine ⟨?_, ?_, ?_⟩
  · rw [hF, hG]
    exact mul_ne_zero (mul_ne_zero (mul_ne_zero hA hA) hs) (mul_ne_zero (mul_ne_zero hA hA) ha)
  · rw [hh, hG, ← hxm]; ring
  · rw [hd, hc, hF, show P.y * Q.y * A + P.x * Q.x * A = (P.y * Q.y + P.x * Q.x) * A by ring, ← hym]; ring

theorem cast_d : ((dNat : ℕ) : Fe) = edD := rfl

/-- The first coordinate computed by `addK`. -/
def addX (X1 Y1 Z1 X2 Y2 Z2 : Nat) : Nat :=
  Z1 * Z2 % p25519 *
    ((Z1 * Z2 % p25519 * (Z1 * Z2 % p25519) % p25519 +
        (p25519 - dNat * (X1 * X2 % p25519 * (Y1 * Y2 % p25519) % p25519) % p25519)) *
      ((X1 + Y1) * (X2 + Y2) + (p25519 - X1 * X2 % p25519) + (p25519 - Y1 * Y2 % p25519)) % p25519) %
    p25519

/-- The second coordinate computed by `addK`. -/
def addY (X1 Y1 Z1 X2 Y2 Z2 : Nat) : Nat :=
  Z1 * Z2 % p25519 *
    ((Z1 * Z2 % p25519 * (Z1 * Z2 % p25519) % p25519 +
        dNat * (X1 * X2 % p25519 * (Y1 * Y2 % p25519) % p25519) % p25519) *
      (Y1 * Y2 % p25519 + X1 * X2 % p25519) % p25519) %
    p25519

/-- The third coordinate computed by `addK`. -/
def addZ (X1 Y1 Z1 X2 Y2 Z2 : Nat) : Nat :=
  (Z1 * Z2 % p25519 * (Z1 * Z2 % p25519) % p25519 +
      (p25519 - dNat * (X1 * X2 % p25519 * (Y1 * Y2 % p25519) % p25519) % p25519)) *
    (Z1 * Z2 % p25519 * (Z1 * Z2 % p25519) % p25519 +
      dNat * (X1 * X2 % p25519 * (Y1 * Y2 % p25519) % p25519) % p25519) %
    p25519

theorem addK_spec {X1 Y1 Z1 X2 Y2 Z2 : Nat} {P Q : Point} (h1 : Rep X1 Y1 Z1 P) (h2 : Rep X2 Y2 Z2 Q) :
    ∃ X Y Z, (∀ (α : Type) (k : Nat → Nat → Nat → α), addK X1 Y1 Z1 X2 Y2 Z2 k = k X Y Z) ∧
      Rep X Y Z (P + Q) := by
  obtain ⟨hz1, hx1, hy1⟩ := h1
  obtain ⟨hz2, hx2, hy2⟩ := h2
  have key := proj_add P Q hz1 hx1 hy1 hz2 hx2 hy2
  simp only at key
  refine ⟨addX X1 Y1 Z1 X2 Y2 Z2, addY X1 Y1 Z1 X2 Y2 Z2, addZ X1 Y1 Z1 X2 Y2 Z2,
    fun α k => by simp only [addK, strict_eq, addX, addY, addZ], ?_⟩
  unfold Rep
  simp only [addX, addY, addZ, Nat.cast_mul, Nat.cast_add, cast_mod, cast_negmod, cast_d]
  exact key

/-- Double and add, least significant bit first. -/
def mulAuxK {α : Type} : Nat → Nat → Nat → Nat → Nat → Nat → Nat → Nat → (Nat → Nat → Nat → α) → α
  | 0, _, _, _, _, ax, ay, az, k => k ax ay az
  | fuel + 1, e, bx, bY, bz, ax, ay, az, k =>
    if e % 2 = 1 then
      addK ax ay az bx bY bz fun ax ay az => addK bx bY bz bx bY bz fun bx bY bz =>
        strict (e / 2) fun e => mulAuxK fuel e bx bY bz ax ay az k
    else
      addK bx bY bz bx bY bz fun bx bY bz =>
        strict (e / 2) fun e => mulAuxK fuel e bx bY bz ax ay az k

theorem mulAuxK_spec (fuel e : Nat) (he : e < 2 ^ fuel) {bx bY bz ax ay az : Nat} {B A : Point}
    (hb : Rep bx bY bz B) (ha : Rep ax ay az A) :
    ∃ X Y Z, (∀ (α : Type) (k : Nat → Nat → Nat → α), mulAuxK fuel e bx bY bz ax ay az k = k X Y Z) ∧
      Rep X Y Z (A + e • B) := by
  induction fuel generalizing e bx bY bz ax ay az B A with
  | zero =>
    have : e = 0 := by simpa using he
    subst this
    refine ⟨_, _, _, fun α k => rfl, ?_⟩
    rwa [zero_smul, add_zero]
  | succ fuel ih =>
    have h1 : e / 2 < 2 ^ fuel := by rw [pow_succ] at he; omega
    obtain ⟨bx', bY', bz', hk, hr⟩ := addK_spec hb hb
    by_cases hodd : e % 2 = 1
    · obtain ⟨ax', ay', az', hk', hr'⟩ := addK_spec ha hb
      obtain ⟨X, Y, Z, hk2, hr2⟩ := ih (e / 2) h1 hr hr'
      refine ⟨X, Y, Z, fun α k => ?_, ?_⟩
      · rw [mulAuxK, if_pos hodd, hk', hk, strict_eq]
        exact hk2 α k
      · have : A + e • B = A + B + (e / 2) • (B + B) := by
          conv_lhs => rw [← Nat.div_add_mod e 2, hodd]
          rw [← two_nsmul, ← mul_nsmul, add_nsmul, one_nsmul]
          abel
        rwa [this]
    · obtain ⟨X, Y, Z, hk2, hr2⟩ := ih (e / 2) h1 hr ha
      refine ⟨X, Y, Z, fun α k => ?_, ?_⟩
      · rw [mulAuxK, if_neg hodd, hk, strict_eq]
        exact hk2 α k
      · have h0 : e % 2 = 0 := by omega
        have : A + e • B = A + (e / 2) • (B + B) := by
          conv_lhs => rw [← Nat.div_add_mod e 2, h0]
          rw [← two_nsmul, ← mul_nsmul, add_zero]
        rwa [this]

/-- `n` times a point. -/
def mulK {α : Type} (n X Y Z : Nat) (k : Nat → Nat → Nat → α) : α :=
  mulAuxK (Nat.log2 n + 1) n X Y Z 0 1 1 k

theorem rep_zero : Rep 0 1 1 0 := by
  unfold Rep
  rw [Edwards.zero_x, Edwards.zero_y, Nat.cast_zero, Nat.cast_one]
  exact ⟨one_ne_zero, (zero_mul _).symm, (one_mul _).symm⟩

theorem mulK_spec (n : Nat) {X1 Y1 Z1 : Nat} {P : Point} (h : Rep X1 Y1 Z1 P) :
    ∃ X Y Z, (∀ (α : Type) (k : Nat → Nat → Nat → α), mulK n X1 Y1 Z1 k = k X Y Z) ∧
      Rep X Y Z (n • P) := by
  have := mulAuxK_spec (Nat.log2 n + 1) n Nat.lt_log2_self h rep_zero
  rw [zero_add] at this
  exact this

/-- Two triples stand for the same point. -/
def sameK (X1 Y1 Z1 X2 Y2 Z2 : Nat) : Bool :=
  X1 * Z2 % p25519 == X2 * Z1 % p25519 && Y1 * Z2 % p25519 == Y2 * Z1 % p25519

theorem sameK_iff {X1 Y1 Z1 X2 Y2 Z2 : Nat} {P Q : Point} (h1 : Rep X1 Y1 Z1 P) (h2 : Rep X2 Y2 Z2 Q) :
    sameK X1 Y1 Z1 X2 Y2 Z2 = true ↔ P = Q := by
  obtain ⟨hz1, hx1, hy1⟩ := h1
  obtain ⟨hz2, hx2, hy2⟩ := h2
  have key : ∀ {u v : Fe}, u * (Z1 : Fe) * (Z2 : Fe) = v * (Z2 : Fe) * (Z1 : Fe) ↔ u = v := by
    intro u v
    rw [mul_right_comm v]
    exact ⟨fun h => mul_right_cancel₀ hz1 (mul_right_cancel₀ hz2 h), fun h => by rw [h]⟩
  have conv : ∀ a b : Nat, (a % p25519 == b % p25519) = true ↔ (a : Fe) = (b : Fe) := by
    intro a b
    rw [beq_iff_eq]
    exact (ZMod.natCast_eq_natCast_iff' a b p25519).symm
  rw [sameK, Bool.and_eq_true, conv, conv, Nat.cast_mul, Nat.cast_mul, Nat.cast_mul, Nat.cast_mul,
    hx1, hx2, hy1, hy2, key, key]
  constructor
  · rintro ⟨h, h'⟩; exact Edwards.Point.ext h h'
  · rintro rfl; exact ⟨rfl, rfl⟩

/-- The point with the given coordinates. -/
def ofNats (x y : Nat)
    (h : (y * y + (p25519 - x * x % p25519)) % p25519 =
      (1 + dNat * (x * x) * (y * y)) % p25519) : Point :=
  ⟨(x : Fe), (y : Fe), by
    have := natCast_eq h
    rw [Nat.cast_add, Nat.cast_add, cast_negmod, Nat.cast_mul, Nat.cast_mul, Nat.cast_mul, Nat.cast_mul,
      Nat.cast_mul, Nat.cast_mul, Nat.cast_one, cast_d] at this
    rw [pow_two, pow_two, sub_eq_add_neg]
    exact this⟩

theorem rep_ofNats (x y : Nat) (h) : Rep x y 1 (ofNats x y h) := by
  unfold Rep
  rw [Nat.cast_one]
  exact ⟨one_ne_zero, (mul_one _).symm, (mul_one _).symm⟩

/-- Affine coordinates. -/
def affK {α : Type} (X Y Z : Nat) (k : Nat → Nat → α) : α :=
  strict (powMod Z (p25519 - 2) p25519) fun i =>
  strict (X * i % p25519) fun x => strict (Y * i % p25519) fun y => k x y

theorem affK_spec {X Y Z : Nat} {P : Point} (h : Rep X Y Z P) {α : Type} (k : Nat → Nat → α) :
    affK X Y Z k = k P.x.val P.y.val := by
  obtain ⟨hz, hx, hy⟩ := h
  have hinv : ((powMod Z (p25519 - 2) p25519 : ℕ) : Fe) * (Z : Fe) = 1 := by
    rw [powMod_eq _ _ _ p_pos, cast_mod, Nat.cast_pow, ← pow_succ]
    have : p25519 - 2 + 1 = p25519 - 1 := by decide +kernel
    rw [this]
    exact ZMod.pow_card_sub_one_eq_one hz
  have hval : ∀ (W : Nat) (c : Fe), (W : Fe) = c * (Z : Fe) →
      W * powMod Z (p25519 - 2) p25519 % p25519 = c.val := by
    intro W c hW
    have : ((W * powMod Z (p25519 - 2) p25519 : ℕ) : Fe) = c := by
      rw [Nat.cast_mul, hW, mul_assoc, mul_comm (Z : Fe), hinv, mul_one]
    rw [← this, ZMod.val_natCast]
  simp only [affK, strict_eq]
  rw [hval X P.x hx, hval Y P.y hy]

/-- The encoding of a point given by a triple. -/
def compressK (X Y Z : Nat) : Bytes :=
  affK X Y Z fun x y => leFixed 32 (y + 2 ^ 255 * (x % 2))

theorem compressK_spec {X Y Z : Nat} {P : Point} (h : Rep X Y Z P) : compressK X Y Z = compress P := by
  rw [compressK, affK_spec h, compress]
  congr 3
  unfold isNegative
  rcases Nat.mod_two_eq_zero_or_one P.x.val with h | h <;> rw [h] <;> rfl

/-- Decoding of bytes whose point is known. -/
theorem decompress_ofNats (b : Bytes) (x y : Nat) (h) (hl : b.length = 32)
    (hy : y % p25519 = leToNat b % 2 ^ 255 % p25519)
    (hs : (x % p25519 % 2 == 1) = (leToNat b / 2 ^ 255 == 1)) :
    decompress b = some (ofNats x y h) := by
  rw [decompress_eq_some_iff]
  refine ⟨hl, natCast_eq hy, Or.inl ?_⟩
  have hv : (ofNats x y h).x.val = x % p25519 := by
    show ((x : ℕ) : Fe).val = _
    rw [ZMod.val_natCast]
  rw [isNegative, hv, signBit, hs]

/-- The kernel-evaluable criterion for a multiple of a point. -/
theorem smul_eq_of {n X1 Y1 Z1 X2 Y2 Z2 : Nat} {P Q : Point} (h1 : Rep X1 Y1 Z1 P) (h2 : Rep X2 Y2 Z2 Q)
    (h : mulK n X1 Y1 Z1 (fun X Y Z => sameK X Y Z X2 Y2 Z2) = true) : n • P = Q := by
  obtain ⟨X, Y, Z, hk, hr⟩ := mulK_spec n h1
  rw [hk] at h
  exact (sameK_iff hr h2).1 h

end Verif.Ed25519
