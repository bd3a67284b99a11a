import Mathlib.AlgebraicGeometry.EllipticCurve.Affine.Point
import Mathlib.Data.Nat.Prime.Basic
import Mathlib.Algebra.Field.ZMod
import Mathlib.Data.ZMod.Basic
import Mathlib.GroupTheory.OrderOfElement
import Mathlib.Tactic.FieldSimp
import Mathlib.Tactic.LinearCombination
import Verif.Basic.PowMod

/-!
# Elliptic curve primality certificates

One step of a certificate in the style of Goldwasser, Kilian, Atkin and Morain. `step n a x y q s c` multiplies
the point `(x, y)` of the curve `Y^2 = X^3 + a X + b` modulo `n` (`b` is determined by the point) by `q` and
checks that the result is the neutral element. If it succeeds, `q` is prime and `4 n < (q - 1)^2`, then `n` is
prime. The theorem needs neither Hasse's bound nor that the curve is nonsingular: a prime divisor `p ≤ √n` of `n`
would give a point of order `q` modulo `p`, but the multiples of a point have at most `2 p + 1` values.

A point is held as `(X, W, Z, T)` with affine coordinates `X / Z^2` and `W / (2 Z^3)`, and `T = a Z^4`. The
multiplication uses signed windows: `c` holds `s + 1` entries of eleven bits, the highest first, each saying how
often to double and which of the points `P, 3 P, 5 P, 7 P` or their negatives to add. That the entries spell out
`q` is checked along the way.

Used for the SRP moduli (properties C60 and C62). Nothing in the model of the code depends on this file.
-/

namespace Verif.Ecpp

open WeierstrassCurve

/-- What is done with a point. The functions below take one as a continuation; the operations are written as
functions and the intermediate results as applied functions because the kernel evaluates those fastest. -/
abbrev Cont := Nat → Nat → Nat → Nat → Bool

/-- Doubling modulo `n`. The comparison makes the kernel evaluate the result. -/
def dbl (n : Nat) (k : Cont) : Cont := fun X W Z T =>
  (fun E : Nat =>
    (fun S U M : Nat =>
      (fun X3 : Nat =>
        (fun W3 : Nat => bif Nat.ble W3 n then k X3 W3 (Nat.mod (Nat.mul W Z) n) (Nat.mod (Nat.mul U T) n) else false)
          (Nat.sub n (Nat.mod (Nat.add (Nat.mul 2 (Nat.mul M (Nat.add X3 S))) U) n)))
        (Nat.mod (Nat.add (Nat.mul M M) (Nat.mul 2 S)) n))
      (Nat.mod (Nat.mul X (Nat.sub n E)) n) (Nat.mod (Nat.mul E E) n)
      (Nat.mod (Nat.add (Nat.mul 3 (Nat.mul X X)) T) n))
    (Nat.mod (Nat.mul W W) n)

/-- `j` doublings. -/
def dbls (n : Nat) (k : Cont) (j : Nat) : Cont :=
  Nat.rec (motive := fun _ => Cont) k (fun _ ih => dbl n ih) j

/-- Addition of the point `(x, w)`, given with the third coordinate that the third coordinates of the others are
multiplied with. -/
def addm (n x w : Nat) (k : Cont) : Cont := fun X W Z T =>
  (fun C : Nat =>
    (fun H R : Nat =>
      (fun G : Nat =>
        (fun I : Nat =>
          (fun J V : Nat =>
            (fun X3 : Nat =>
              (fun W3 : Nat => bif Nat.ble W3 n then
                  k X3 W3 (Nat.mod (Nat.mul G Z) n) (Nat.mod (Nat.mul T (Nat.mul I I)) n) else false)
                (Nat.sub n (Nat.mod (Nat.mul 2 (Nat.add (Nat.mul R (Nat.add X3 V)) (Nat.mul W J))) n)))
              (Nat.mod (Nat.add (Nat.add (Nat.mul R R) J) (Nat.mul 2 V)) n))
            (Nat.mod (Nat.mul H I) n) (Nat.mod (Nat.mul X (Nat.sub n I)) n))
          (Nat.mod (Nat.mul G G) n))
        (Nat.add H H))
      (Nat.mod (Nat.add X (Nat.mul x C)) n) (Nat.mod (Nat.add W (Nat.mul w (Nat.mod (Nat.mul C Z) n))) n))
    (Nat.sub n (Nat.mod (Nat.mul Z Z) n))

/-- The point named by the low three bits of an entry, and the multiplier `m` with its number added. -/
def sel (n x1 w1 x3 w3 x5 w5 x7 w7 i m : Nat) (k : Nat → Nat → Nat → Bool) : Bool :=
  bif Nat.ble i 3 then
    bif Nat.ble i 1 then
      bif Nat.ble i 0 then k x1 w1 (Nat.add m 1) else k x3 w3 (Nat.add m 3)
    else bif Nat.ble i 2 then k x5 w5 (Nat.add m 5) else k x7 w7 (Nat.add m 7)
  else bif Nat.ble 7 m then
    bif Nat.ble i 5 then
      bif Nat.ble i 4 then k x1 (Nat.sub n (Nat.mod w1 n)) (Nat.sub m 1)
      else k x3 (Nat.sub n (Nat.mod w3 n)) (Nat.sub m 3)
    else bif Nat.ble i 6 then k x5 (Nat.sub n (Nat.mod w5 n)) (Nat.sub m 5)
      else k x7 (Nat.sub n (Nat.mod w7 n)) (Nat.sub m 7)
  else false

/-- Compare a point with the negative of `(x, w)`, and the multiplier with `q`. -/
def final (n q x w m : Nat) : Cont := fun X W Z _ =>
  Nat.beq m q && Nat.beq (Nat.gcd Z n) 1 && Nat.beq (Nat.mod X n) (Nat.mod (Nat.mul x (Nat.mul Z Z)) n) &&
    Nat.beq (Nat.mod (Nat.add W (Nat.mul w (Nat.mul (Nat.mul Z Z) Z))) n) 0

/-- One entry `e`: double, then go on with `k` and the chosen point. `m` is the multiplier before. -/
def entry (n x1 w1 x3 w3 x5 w5 x7 w7 e m : Nat) (k : Nat → Nat → Nat → Cont) : Cont := fun X W Z T =>
  bif Nat.ble 1 m then
    dbls n (fun X W Z T => sel n x1 w1 x3 w3 x5 w5 x7 w7 (Nat.mod e 8) (Nat.mul m (Nat.pow 2 (Nat.div e 8)))
      fun x w m => k x w m X W Z T) (Nat.div e 8) X W Z T
  else false

/-- The entries `i, …, 0` of `c`. -/
def go (n q x1 w1 x3 w3 x5 w5 x7 w7 c i : Nat) : Nat → Cont :=
  Nat.rec (motive := fun _ => Nat → Cont)
    (fun m => entry n x1 w1 x3 w3 x5 w5 x7 w7 (Nat.mod c 2048) m fun x w m => final n q x w m)
    (fun i ih m => entry n x1 w1 x3 w3 x5 w5 x7 w7 (Nat.mod (Nat.shiftRight c (Nat.mul 11 (Nat.succ i))) 2048) m
      fun x w m => addm n x w (ih m)) i

/-- One step of a certificate for `n`, leading to `q`. -/
def step (n a x y q s c : Nat) : Bool :=
  Nat.blt 1 n && Nat.blt 2 q && Nat.blt (Nat.mul 4 n) (Nat.mul (Nat.sub q 1) (Nat.sub q 1)) &&
    dbl n (fun X2 W2 Z2 T2 =>
      addm n X2 W2 (fun X3 W3 Z3 T3 =>
        addm n X2 W2 (fun X5 W5 Z5 T5 =>
          addm n X2 W2 (fun X7 W7 Z7 _ =>
            (fun f1 f3 f5 f7 : Nat =>
              Nat.beq (Nat.gcd (Nat.mul f1 Z2) n) 1 &&
              (fun x1 w1 x3 w3 x5 w5 x7 w7 : Nat =>
                sel n x1 w1 x3 w3 x5 w5 x7 w7 (Nat.mod (Nat.shiftRight c (Nat.mul 11 (Nat.succ s))) 8) 0 fun x w m =>
                  go n q x1 w1 x3 w3 x5 w5 x7 w7 c s m x w 1 (Nat.mod (Nat.mul T2 (Nat.pow f1 4)) n))
                (Nat.mod (Nat.mul x (Nat.pow (Nat.mul Z2 f1) 2)) n)
                (Nat.mod (Nat.mul (Nat.mul 2 y) (Nat.pow (Nat.mul Z2 f1) 3)) n)
                (Nat.mod (Nat.mul X3 (Nat.pow f3 2)) n) (Nat.mod (Nat.mul W3 (Nat.pow f3 3)) n)
                (Nat.mod (Nat.mul X5 (Nat.pow f5 2)) n) (Nat.mod (Nat.mul W5 (Nat.pow f5 3)) n)
                (Nat.mod (Nat.mul X7 (Nat.pow f7 2)) n) (Nat.mod (Nat.mul W7 (Nat.pow f7 3)) n))
              (Nat.mod (Nat.mul Z3 (Nat.mul Z5 Z7)) n) (Nat.mod (Nat.mul Z5 Z7) n) (Nat.mod (Nat.mul Z3 Z7) n)
              (Nat.mod (Nat.mul Z3 Z5) n))
            X5 W5 Z5 T5)
          X3 W3 Z3 T3)
        (Nat.mod (Nat.mul x (Nat.pow Z2 2)) n) (Nat.mod (Nat.mul (Nat.mul 2 y) (Nat.pow Z2 3)) n) 1 T2)
      x (Nat.mul 2 y) 1 a

section
variable {F : Type} [Field F]

/-- `Y^2 = X^3 + a X + b`. -/
def curve (a b : F) : Affine F := { a₁ := 0, a₂ := 0, a₃ := 0, a₄ := a, a₆ := b }

/-- `(X, W)` with third coordinate `z` is the point `P`. -/
def Rep {a b : F} (X W z : F) (P : (curve a b).Point) : Prop :=
  ∃ (x y : F) (h : (curve a b).Nonsingular x y), P = .some x y h ∧ X = x * z ^ 2 ∧ W = 2 * y * z ^ 3

theorem negY_curve (a b x y : F) : (curve a b).negY x y = -y := by
  simp [Affine.negY, curve]

theorem rep_neg {a b X W z : F} {P : (curve a b).Point} (h : Rep X W z P) : Rep X (-W) z (-P) := by
  obtain ⟨x, y, hns, rfl, rfl, rfl⟩ := h
  rw [Affine.Point.neg_some]
  refine ⟨_, _, _, rfl, rfl, ?_⟩
  rw [negY_curve]
  ring

theorem rep_scale {a b X W z : F} {P : (curve a b).Point} (h : Rep X W z P) (f : F) :
    Rep (X * f ^ 2) (W * f ^ 3) (z * f) P := by
  obtain ⟨x, y, hns, rfl, rfl, rfl⟩ := h
  exact ⟨x, y, hns, rfl, by ring, by ring⟩

variable [DecidableEq F]

theorem rep_dbl {a b X W z T : F} {P : (curve a b).Point} (h : Rep X W z P) (hT : T = a * z ^ 4) (hZ : W * z ≠ 0) :
    let M := 3 * (X * X) + T
    let X3 := M * M + 2 * (X * -(W * W))
    Rep X3 (-(2 * (M * (X3 + X * -(W * W))) + W * W * (W * W))) (W * z) (P + P) := by
  obtain ⟨x, y, hns, rfl, rfl, rfl⟩ := h
  intro M X3
  have hy : 2 * y ≠ 0 := by
    intro h0; apply hZ
    rw [h0]; ring
  have hne : y ≠ (curve a b).negY x y := by
    rw [negY_curve]; intro h0; apply hy; linear_combination h0
  obtain ⟨l, hl, hl2⟩ : ∃ l, (curve a b).slope x x y y = l ∧ l * (2 * y) = 3 * x ^ 2 + a := by
    refine ⟨_, rfl, ?_⟩
    rw [Affine.slope_of_Y_ne rfl hne, negY_curve, sub_neg_eq_add, ← two_mul, div_mul_cancel₀ _ hy]
    simp [curve]
  have hM : M = 2 * y * l * z ^ 4 := by
    simp only [M, hT]
    linear_combination -(z ^ 4) * hl2
  refine ⟨_, _, _, Affine.Point.add_self_of_Y_ne hne, ?_, ?_⟩
  · rw [hl]
    simp only [X3, hM, Affine.addX, curve]
    ring
  · rw [hl]
    simp only [X3, hM, Affine.addX, Affine.addY, Affine.negAddY, Affine.negY, curve]
    ring

theorem rep_add {a b X W Z c x₂ w₂ : F} {P Q : (curve a b).Point} (h : Rep X W (Z * c) P) (h₂ : Rep x₂ w₂ c Q) :
    let H := X + x₂ * -(Z * Z)
    let R := W + w₂ * (-(Z * Z) * Z)
    let I := (H + H) * (H + H)
    let X3 := R * R + H * I + 2 * (X * -I)
    (H + H) * Z * c ≠ 0 →
    Rep X3 (-(2 * (R * (X3 + X * -I) + W * (H * I)))) ((H + H) * Z * c) (P + Q) := by
  obtain ⟨x, y, hns, rfl, rfl, rfl⟩ := h
  obtain ⟨x₂, y₂, hns₂, rfl, rfl, rfl⟩ := h₂
  intro H R I X3 hZ
  have hne : x ≠ x₂ := by
    rintro rfl; apply hZ
    simp only [H]; ring
  have hd : x - x₂ ≠ 0 := sub_ne_zero.2 hne
  obtain ⟨l, hl, hl2⟩ : ∃ l, (curve a b).slope x x₂ y y₂ = l ∧ l * (x - x₂) = y - y₂ := by
    refine ⟨_, rfl, ?_⟩
    rw [Affine.slope_of_X_ne hne, div_mul_cancel₀ _ hd]
  have hH : H = (x - x₂) * (Z * c) ^ 2 := by simp only [H]; ring
  have hR : R = 2 * l * (x - x₂) * (Z * c) ^ 3 := by
    simp only [R]; linear_combination -(2 * (Z * c) ^ 3) * hl2
  have hy : y₂ = y - l * (x - x₂) := by linear_combination hl2
  refine ⟨_, _, _, Affine.Point.add_of_X_ne hne, ?_, ?_⟩
  · rw [hl]
    simp only [X3, I, hH, hR, Affine.addX, curve]
    ring
  · rw [hl]
    simp only [X3, I, hH, hR, Affine.addX, Affine.addY, Affine.negAddY, Affine.negY, curve]
    ring

omit [DecidableEq F] in
theorem nonsingular_curve {a x y : F} (hy : 2 * y ≠ 0) :
    (curve a (y ^ 2 - x ^ 3 - a * x)).Nonsingular x y := by
  rw [Affine.nonsingular_iff]
  refine ⟨?_, Or.inr ?_⟩
  · rw [Affine.equation_iff]; simp only [curve]; ring
  · simp only [curve]
    intro h; apply hy; linear_combination h

end

section
variable {p n : Nat}

theorem mod_fn (a b : Nat) : Nat.mod a b = a % b := rfl

theorem cast_mod (h : p ∣ n) (m : Nat) : ((m % n : ℕ) : ZMod p) = m := by
  conv_rhs => rw [← Nat.div_add_mod m n]
  have : (n : ZMod p) = 0 := (ZMod.natCast_eq_zero_iff _ _).2 h
  rw [Nat.cast_add, Nat.cast_mul, this, zero_mul, zero_add]

theorem cast_neg (h : p ∣ n) (h0 : 0 < n) (m : Nat) : ((n - m % n : ℕ) : ZMod p) = -(m : ZMod p) := by
  have : (n : ZMod p) = 0 := (ZMod.natCast_eq_zero_iff _ _).2 h
  rw [Nat.cast_sub (Nat.mod_lt _ h0).le, this, cast_mod h, zero_sub]


theorem force {c k : Bool} (h : (bif c then k else false) = true) : c = true ∧ k = true := by
  cases c
  · cases h
  · exact ⟨rfl, h⟩

theorem dbl_eq (h : p ∣ n) (h0 : 0 < n) {k : Cont} {X W Z T : Nat} (hk : dbl n k X W Z T = true) :
    ∃ X3 W3 Z3 T3 : Nat, k X3 W3 Z3 T3 = true ∧
      (let M : ZMod p := 3 * (X * X) + T
       let X' : ZMod p := M * M + 2 * (X * -(W * W))
       (X3 : ZMod p) = X' ∧ (W3 : ZMod p) = -(2 * (M * (X' + X * -(W * W))) + W * W * (W * W)) ∧
       (Z3 : ZMod p) = W * Z ∧ (T3 : ZMod p) = W * W * (W * W) * T) := by
  refine ⟨_, _, _, _, (force hk).2, ?_, ?_, ?_, ?_⟩ <;>
  simp only [Nat.add_eq, Nat.mul_eq, Nat.sub_eq, mod_fn, Nat.cast_add, Nat.cast_mul, cast_mod h,
      cast_neg h h0, Nat.cast_ofNat]

theorem addm_eq (h : p ∣ n) (h0 : 0 < n) {k : Cont} {x w X W Z T : Nat} (hk : addm n x w k X W Z T = true) :
    ∃ X3 W3 Z3 T3 : Nat, k X3 W3 Z3 T3 = true ∧
      (let H : ZMod p := X + x * -(Z * Z)
       let R : ZMod p := W + w * (-(Z * Z) * Z)
       let I : ZMod p := (H + H) * (H + H)
       let X' : ZMod p := R * R + H * I + 2 * (X * -I)
       (X3 : ZMod p) = X' ∧ (W3 : ZMod p) = -(2 * (R * (X' + X * -I) + W * (H * I))) ∧
       (Z3 : ZMod p) = (H + H) * Z ∧ (T3 : ZMod p) = T * (I * I)) := by
  refine ⟨_, _, _, _, (force hk).2, ?_, ?_, ?_, ?_⟩ <;>
  simp only [Nat.add_eq, Nat.mul_eq, Nat.sub_eq, mod_fn, Nat.cast_add, Nat.cast_mul, cast_mod h,
      cast_neg h h0, Nat.cast_ofNat]

variable [Fact p.Prime] {a b c : ZMod p} {B : (curve a b).Point} {q : Nat}

/-- If `k` accepts a point that stands for `m B`, then `q B = 0`. The third coordinates are multiplied with `c`. -/
def Sound (c : ZMod p) (B : (curve a b).Point) (q m : Nat) (k : Cont) : Prop :=
  ∀ X W Z T : Nat, k X W Z T = true → (Z : ZMod p) ≠ 0 ∧
    (Rep (X : ZMod p) W (Z * c) (m • B) → (T : ZMod p) = a * (Z * c) ^ 4 → q • B = 0)

/-- The result of a doubling. -/
theorem dbl_rep (h : p ∣ n) (h0 : 0 < n) {k : Cont} {X W Z T : Nat} (hk : dbl n k X W Z T = true) :
    ∃ X3 W3 Z3 T3 : Nat, k X3 W3 Z3 T3 = true ∧ (Z3 : ZMod p) = W * Z ∧
      ((Z3 : ZMod p) ≠ 0 → c ≠ 0 → ∀ P : (curve a b).Point, Rep (X : ZMod p) W (Z * c) P →
        (T : ZMod p) = a * (Z * c) ^ 4 →
        Rep (X3 : ZMod p) W3 (Z3 * c) (P + P) ∧ (T3 : ZMod p) = a * (Z3 * c) ^ 4) := by
  obtain ⟨X3, W3, Z3, T3, hk, hX, hW, hZ, hT⟩ := dbl_eq h h0 hk
  refine ⟨X3, W3, Z3, T3, hk, hZ, fun h3 hc P hP hT0 => ⟨?_, ?_⟩⟩
  · have := rep_dbl hP hT0 (by rw [← mul_assoc, ← hZ]; exact mul_ne_zero h3 hc)
    rw [hX, hW, hZ, mul_assoc (W : ZMod p) Z c]
    exact this
  · rw [hT, hT0, hZ]; ring

/-- The result of an addition. -/
theorem addm_rep (h : p ∣ n) (h0 : 0 < n) {k : Cont} {x w X W Z T : Nat} (hk : addm n x w k X W Z T = true) :
    ∃ X3 W3 Z3 T3 : Nat, k X3 W3 Z3 T3 = true ∧ ((Z3 : ZMod p) ≠ 0 → (Z : ZMod p) ≠ 0) ∧
      ((Z3 : ZMod p) ≠ 0 → c ≠ 0 → ∀ P Q : (curve a b).Point, Rep (X : ZMod p) W (Z * c) P →
        Rep (x : ZMod p) w c Q → (T : ZMod p) = a * (Z * c) ^ 4 →
        Rep (X3 : ZMod p) W3 (Z3 * c) (P + Q) ∧ (T3 : ZMod p) = a * (Z3 * c) ^ 4) := by
  obtain ⟨X3, W3, Z3, T3, hk, hX, hW, hZ, hT⟩ := addm_eq h h0 hk
  refine ⟨X3, W3, Z3, T3, hk, fun h3 => ?_, fun h3 hc P Q hP hQ hT0 => ⟨?_, ?_⟩⟩
  · rw [hZ] at h3
    exact right_ne_zero_of_mul h3
  · have := rep_add hP hQ (by rw [← hZ]; exact mul_ne_zero h3 hc)
    rw [hX, hW, hZ]
    exact this
  · rw [hT, hT0, hZ]; ring

theorem sound_dbls (h : p ∣ n) (h0 : 0 < n) (hc : c ≠ 0) {k : Cont} (j m : Nat) (hk : Sound c B q (m * 2 ^ j) k) :
    Sound c B q m (dbls n k j) := by
  induction j generalizing m with
  | zero => rw [pow_zero, mul_one] at hk; exact hk
  | succ j ih =>
    have ih := ih (m * 2) (by rwa [mul_assoc, ← pow_succ'])
    intro X W Z T hd
    obtain ⟨X3, W3, Z3, T3, hd, hZ, hr⟩ := dbl_rep (a := a) (b := b) (c := c) h h0 hd
    obtain ⟨h1, h2⟩ := ih _ _ _ _ hd
    refine ⟨by rw [hZ] at h1; exact right_ne_zero_of_mul h1, fun hP hT => ?_⟩
    obtain ⟨h3, h4⟩ := hr h1 hc _ hP hT
    refine h2 ?_ h4
    rwa [mul_comm m 2, mul_smul, two_smul]

/-- The table holds `B, 3 B, 5 B, 7 B`. -/
structure Tab (c : ZMod p) (B : (curve a b).Point) (x1 w1 x3 w3 x5 w5 x7 w7 : Nat) : Prop where
  h1 : Rep (x1 : ZMod p) w1 c B
  h3 : Rep (x3 : ZMod p) w3 c (3 • B)
  h5 : Rep (x5 : ZMod p) w5 c (5 • B)
  h7 : Rep (x7 : ZMod p) w7 c (7 • B)

theorem sel_rep (h : p ∣ n) (h0 : 0 < n) {x1 w1 x3 w3 x5 w5 x7 w7 i m : Nat} {k : Nat → Nat → Nat → Bool}
    (ht : Tab c B x1 w1 x3 w3 x5 w5 x7 w7) (hs : sel n x1 w1 x3 w3 x5 w5 x7 w7 i m k = true) :
    ∃ (x w m' : Nat) (Q : (curve a b).Point), k x w m' = true ∧ Rep (x : ZMod p) w c Q ∧ m' • B = m • B + Q := by
  have plus : ∀ {x w d : Nat}, Rep (x : ZMod p) w c (d • B) → k x w (m + d) = true →
      ∃ (x w m' : Nat) (Q : (curve a b).Point), k x w m' = true ∧ Rep (x : ZMod p) w c Q ∧
        m' • B = m • B + Q :=
    fun hr hk => ⟨_, _, _, _, hk, hr, add_smul _ _ _⟩
  have minus : ∀ {x w d : Nat}, Rep (x : ZMod p) w c (d • B) → d ≤ m → k x (n - w % n) (m - d) = true →
      ∃ (x w m' : Nat) (Q : (curve a b).Point), k x w m' = true ∧ Rep (x : ZMod p) w c Q ∧
        m' • B = m • B + Q := by
    intro x w d hr hd hk
    refine ⟨_, _, _, _, hk, by rw [cast_neg h h0]; exact rep_neg hr, ?_⟩
    obtain ⟨r, rfl⟩ := Nat.exists_eq_add_of_le' hd
    rw [Nat.add_sub_cancel, add_smul, add_neg_cancel_right]
  have h1 : Rep (x1 : ZMod p) w1 c (1 • B) := by rw [one_smul]; exact ht.h1
  unfold sel at hs
  cases hi : Nat.ble i 3 <;> rw [hi] at hs
  · obtain ⟨hm, hs⟩ := force hs
    have hm : 7 ≤ m := Nat.le_of_ble_eq_true hm
    cases hi : Nat.ble i 5 <;> rw [hi] at hs
    · cases hi : Nat.ble i 6 <;> rw [hi] at hs
      · exact minus ht.h7 hm hs
      · exact minus ht.h5 (by omega) hs
    · cases hi : Nat.ble i 4 <;> rw [hi] at hs
      · exact minus ht.h3 (by omega) hs
      · exact minus h1 (by omega) hs
  · cases hi : Nat.ble i 1 <;> rw [hi] at hs
    · cases hi : Nat.ble i 2 <;> rw [hi] at hs
      · exact plus ht.h7 hs
      · exact plus ht.h5 hs
    · cases hi : Nat.ble i 0 <;> rw [hi] at hs
      · exact plus ht.h3 hs
      · exact plus h1 hs

theorem ne_of_gcd (h : p ∣ n) {z : Nat} (hg : Nat.gcd z n = 1) : (z : ZMod p) ≠ 0 := by
  intro hz
  have : p ∣ Nat.gcd z n := Nat.dvd_gcd ((ZMod.natCast_eq_zero_iff _ _).1 hz) h
  rw [hg] at this
  exact (Fact.out : p.Prime).one_lt.ne' (Nat.dvd_one.1 this)

theorem final_sound (h : p ∣ n) (h2y : (2 : ZMod p) ≠ 0) (hc : c ≠ 0) {x w m m' X W Z T : Nat} {Q : (curve a b).Point}
    (hf : final n q x w m' X W Z T = true) (hQ : Rep (x : ZMod p) w c Q) (hm : m' • B = m • B + Q) :
    (Z : ZMod p) ≠ 0 ∧ (Rep (X : ZMod p) W (Z * c) (m • B) → q • B = 0) := by
  simp only [final, Bool.and_eq_true, Nat.beq_eq, Nat.add_eq, Nat.mul_eq, mod_fn] at hf
  obtain ⟨⟨⟨rfl, hg⟩, h2⟩, h3⟩ := hf
  have hz := ne_of_gcd h hg
  refine ⟨hz, fun hP => ?_⟩
  have h2 := congrArg (Nat.cast (R := ZMod p)) h2
  have h3 := congrArg (Nat.cast (R := ZMod p)) h3
  simp only [Nat.cast_add, Nat.cast_mul, cast_mod h, Nat.cast_zero] at h2 h3
  rw [hm]
  obtain ⟨x', y', hns, hP, hX, hW⟩ := hP
  obtain ⟨x₂, y₂, hns₂, rfl, hX₂, hW₂⟩ := hQ
  have hne := mul_ne_zero hz hc
  have e1 : x' = x₂ := by
    have : x' * ((Z : ZMod p) * c) ^ 2 = x₂ * (Z * c) ^ 2 := by rw [← hX, h2, hX₂]; ring
    exact mul_right_cancel₀ (pow_ne_zero 2 hne) this
  rw [hP]
  have e2 : y' = -y₂ := by
    have : 2 * y' * ((Z : ZMod p) * c) ^ 3 = 2 * -y₂ * (Z * c) ^ 3 := by
      rw [← hW]; rw [hW₂] at h3; linear_combination h3
    exact mul_left_cancel₀ h2y (mul_right_cancel₀ (pow_ne_zero 3 hne) this)
  subst e1 e2
  rw [Affine.Point.add_of_Y_eq rfl (by rw [negY_curve])]


theorem sound_entry (h : p ∣ n) (h0 : 0 < n) (hc : c ≠ 0) {x1 w1 x3 w3 x5 w5 x7 w7 e m : Nat}
    {k : Nat → Nat → Nat → Cont} (ht : Tab c B x1 w1 x3 w3 x5 w5 x7 w7)
    (hk : ∀ (x w m m' X W Z T : Nat) (Q : (curve a b).Point), k x w m' X W Z T = true →
      Rep (x : ZMod p) w c Q → m' • B = m • B + Q → (Z : ZMod p) ≠ 0 ∧
        (Rep (X : ZMod p) W (Z * c) (m • B) → (T : ZMod p) = a * (Z * c) ^ 4 → q • B = 0)) :
    Sound c B q m (entry n x1 w1 x3 w3 x5 w5 x7 w7 e m k) := by
  intro X W Z T he
  refine sound_dbls h h0 hc (Nat.div e 8) m ?_ X W Z T (force he).2
  intro X W Z T hs
  obtain ⟨x, w, m', Q, hs, hQ, hm⟩ := sel_rep h h0 ht hs
  exact hk _ _ _ _ _ _ _ _ _ hs hQ hm

theorem sound_go (h : p ∣ n) (h0 : 0 < n) (h2 : (2 : ZMod p) ≠ 0) (hc : c ≠ 0) {x1 w1 x3 w3 x5 w5 x7 w7 : Nat}
    (ht : Tab c B x1 w1 x3 w3 x5 w5 x7 w7) (d i m : Nat) :
    Sound c B q m (go n q x1 w1 x3 w3 x5 w5 x7 w7 d i m) := by
  induction i generalizing m with
  | zero =>
    refine sound_entry h h0 hc ht fun x w m m' X W Z T Q hk hQ hm => ?_
    obtain ⟨h3, h4⟩ := final_sound h h2 hc hk hQ hm
    exact ⟨h3, fun hP _ => h4 hP⟩
  | succ i ih =>
    refine sound_entry h h0 hc ht fun x w m m' X W Z T Q hk hQ hm => ?_
    obtain ⟨X3, W3, Z3, T3, hk, hZ, hr⟩ := addm_rep (a := a) (b := b) (c := c) h h0 hk
    obtain ⟨h3, h4⟩ := ih m' _ _ _ _ hk
    refine ⟨hZ h3, fun hP hT => ?_⟩
    obtain ⟨h5, h6⟩ := hr h3 hc _ _ hP hQ hT
    exact h4 (by rwa [hm]) h6

theorem sel_go (h : p ∣ n) (h0 : 0 < n) (h2 : (2 : ZMod p) ≠ 0) (hc : c ≠ 0) {x1 w1 x3 w3 x5 w5 x7 w7 d i j T : Nat}
    (ht : Tab c B x1 w1 x3 w3 x5 w5 x7 w7) (hT : (T : ZMod p) = a * c ^ 4)
    (hs : sel n x1 w1 x3 w3 x5 w5 x7 w7 j 0 (fun x w m => go n q x1 w1 x3 w3 x5 w5 x7 w7 d i m x w 1 T) = true) :
    q • B = 0 := by
  obtain ⟨x, w, m, Q, hs, hQ, hm⟩ := sel_rep h h0 ht hs
  rw [zero_nsmul, zero_add] at hm
  obtain ⟨-, hf⟩ := sound_go h h0 h2 hc ht d i m _ _ _ _ hs
  refine hf ?_ ?_
  · rw [hm, Nat.cast_one, one_mul]; exact hQ
  · rw [hT, Nat.cast_one, one_mul]

end

/-- A point of prime order `q` on a curve over `ZMod p` forces `q ≤ 2 p + 1`: its first `(q - 1) / 2` multiples
have different first coordinates. -/
theorem order_le {p q : Nat} [Fact p.Prime] (hq : q.Prime) (hq2 : q ≠ 2) {a b : ZMod p} (Q : (curve a b).Point) (hQ0 : Q ≠ 0)
    (hQ : q • Q = 0) : q ≤ 2 * p + 1 := by
  have : Fact q.Prime := ⟨hq⟩
  have hord : addOrderOf Q = q := addOrderOf_eq_prime hQ hQ0
  let X : (curve a b).Point → ZMod p := fun P => match P with
    | .zero => 0
    | .some x _ _ => x
  have hX : ∀ P P' : (curve a b).Point, P ≠ 0 → P' ≠ 0 → X P = X P' → P = P' ∨ P = -P' := by
    intro P P' h h' hx
    cases P with
    | zero => exact absurd rfl h
    | some x y hn =>
      cases P' with
      | zero => exact absurd rfl h'
      | some x' y' hn' => exact Affine.Point.X_eq_iff.1 hx
  have hnz : ∀ k : Nat, 0 < k → k < q → k • Q ≠ 0 := by
    intro k h1 h2 h3
    have := addOrderOf_dvd_of_nsmul_eq_zero h3
    rw [hord] at this
    exact absurd (Nat.le_of_dvd h1 this) (by omega)
  have hinj : Function.Injective fun i : Fin ((q - 1) / 2) => X ((i.val + 1) • Q) := by
    intro i j hij
    have hi := i.isLt
    have hj := j.isLt
    rcases hX _ _ (hnz _ (by omega) (by omega)) (hnz _ (by omega) (by omega)) hij with h | h
    · have := (nsmul_inj_mod (x := Q)).1 h
      rw [hord, Nat.mod_eq_of_lt (by omega), Nat.mod_eq_of_lt (by omega)] at this
      exact Fin.ext (by omega)
    · have : (i.val + 1 + (j.val + 1)) • Q = 0 := by rw [add_smul, h, neg_add_cancel]
      exact absurd this (hnz _ (by omega) (by omega))
  have hc := Fintype.card_le_of_injective _ hinj
  rw [Fintype.card_fin, ZMod.card] at hc
  have := hq.eq_two_or_odd
  omega

/-- **Soundness of a certificate step.** -/
theorem prime_of_step {n a x y q s c : Nat} (h : step n a x y q s c = true) (hq : q.Prime) : n.Prime := by
  rw [step, Bool.and_eq_true, Bool.and_eq_true, Bool.and_eq_true] at h
  obtain ⟨⟨⟨h1, h2⟩, h3⟩, hgo⟩ := h
  simp only [Nat.blt_eq, Nat.mul_eq, Nat.sub_eq] at h1 h2 h3
  by_contra hn
  have hp : n.minFac.Prime := Nat.minFac_prime (by omega)
  have : Fact n.minFac.Prime := ⟨hp⟩
  have hd : n.minFac ∣ n := Nat.minFac_dvd n
  have hsq : n.minFac ^ 2 ≤ n := Nat.minFac_sq_le_self (by omega) hn
  have h0 : 0 < n := by omega
  generalize n.minFac = p at *
  suffices hs : ∃ (hns : (curve (a : ZMod p) ((y : ZMod p) ^ 2 - (x : ZMod p) ^ 3 - a * x)).Nonsingular x y),
      q • Affine.Point.some (W' := curve (a : ZMod p) _) _ _ hns = 0 by
    obtain ⟨hns, hzero⟩ := hs
    have := order_le hq (by omega) _ (Affine.Point.some_ne_zero _) hzero
    have hle : q - 1 ≤ 2 * p := by omega
    have := Nat.mul_le_mul hle hle
    nlinarith
  obtain ⟨X2, W2, Z2, T2, hgo, hZ2, h2⟩ := dbl_rep (p := p) (a := a)
    (b := (y : ZMod p) ^ 2 - (x : ZMod p) ^ 3 - a * x) (c := 1) hd h0 hgo
  obtain ⟨X3, W3, Z3, T3, hgo, hZ3, h3⟩ := addm_rep (p := p) (a := a)
    (b := (y : ZMod p) ^ 2 - (x : ZMod p) ^ 3 - a * x) (c := Z2) hd h0 hgo
  obtain ⟨X5, W5, Z5, T5, hgo, hZ5, h5⟩ := addm_rep (p := p) (a := a)
    (b := (y : ZMod p) ^ 2 - (x : ZMod p) ^ 3 - a * x) (c := Z2) hd h0 hgo
  obtain ⟨X7, W7, Z7, T7, hgo, hZ7, h7⟩ := addm_rep (p := p) (a := a)
    (b := (y : ZMod p) ^ 2 - (x : ZMod p) ^ 3 - a * x) (c := Z2) hd h0 hgo
  rw [Bool.and_eq_true, Nat.beq_eq] at hgo
  obtain ⟨hg, hgo⟩ := hgo
  have hne := ne_of_gcd hd hg
  simp only [Nat.mul_eq, mod_fn, Nat.cast_mul, cast_mod hd] at hne
  have n2 : (Z2 : ZMod p) ≠ 0 := right_ne_zero_of_mul hne
  have n357 := left_ne_zero_of_mul hne
  have n3 := left_ne_zero_of_mul n357
  have n5 := left_ne_zero_of_mul (right_ne_zero_of_mul n357)
  have n7 := right_ne_zero_of_mul (right_ne_zero_of_mul n357)
  have hy : 2 * (y : ZMod p) ≠ 0 := by
    intro h0
    apply n2
    rw [hZ2, Nat.mul_eq, Nat.cast_mul, Nat.cast_ofNat, h0, zero_mul]
  have two := left_ne_zero_of_mul hy
  have hns := nonsingular_curve (a := (a : ZMod p)) (x := (x : ZMod p)) hy
  refine ⟨hns, ?_⟩
  generalize hB : Affine.Point.some (W' := curve (a : ZMod p) _) _ _ hns = B at *
  have r1 : Rep (x : ZMod p) (2 * y : ℕ) 1 B := ⟨_, _, hns, hB.symm, by simp, by simp⟩
  obtain ⟨r2, t2⟩ := h2 n2 one_ne_zero B (by simpa using r1) (by simp)
  rw [← two_smul ℕ, mul_one] at r2
  rw [mul_one] at t2
  have r1' := rep_scale r1 (Z2 : ZMod p)
  rw [one_mul] at r1'
  obtain ⟨r3, t3⟩ := h3 n3 n2 B _
    (by simpa only [Nat.mul_eq, Nat.pow_eq, mod_fn, cast_mod hd, Nat.cast_mul, Nat.cast_pow, Nat.cast_one,
      one_mul] using r1') r2 (by rw [t2, Nat.cast_one, one_mul])
  obtain ⟨r5, t5⟩ := h5 n5 n2 _ _ r3 r2 t3
  obtain ⟨r7, t7⟩ := h7 n7 n2 _ _ r5 r2 t5
  have e3 : B + 2 • B = 3 • B := by
    have := add_smul 1 2 B
    rw [one_smul] at this
    exact this.symm
  rw [e3] at r3 r5 r7
  rw [← add_smul] at r5 r7
  rw [← add_smul] at r7
  have q3 := rep_scale r3 ((Z5 : ZMod p) * Z7)
  have q5 := rep_scale r5 ((Z3 : ZMod p) * Z7)
  have q7 := rep_scale r7 ((Z3 : ZMod p) * Z5)
  have q1 := rep_scale r1 ((Z2 : ZMod p) * (Z3 * (Z5 * Z7)))
  rw [show (Z3 : ZMod p) * Z2 * (Z5 * Z7) = Z2 * (Z3 * (Z5 * Z7)) by ring] at q3
  rw [show (Z5 : ZMod p) * Z2 * (Z3 * Z7) = Z2 * (Z3 * (Z5 * Z7)) by ring] at q5
  rw [show (Z7 : ZMod p) * Z2 * (Z3 * Z5) = Z2 * (Z3 * (Z5 * Z7)) by ring] at q7
  rw [one_mul] at q1
  have hc : (Z2 : ZMod p) * (Z3 * (Z5 * Z7)) ≠ 0 := by rw [mul_comm]; exact hne
  refine sel_go (c := (Z2 : ZMod p) * ((Z3 : ZMod p) * ((Z5 : ZMod p) * (Z7 : ZMod p)))) hd h0 two hc ⟨?_, ?_, ?_, ?_⟩ ?_ hgo
  · simpa only [Nat.mul_eq, Nat.pow_eq, mod_fn, cast_mod hd, Nat.cast_mul, Nat.cast_pow] using q1
  · simpa only [Nat.mul_eq, Nat.pow_eq, mod_fn, cast_mod hd, Nat.cast_mul, Nat.cast_pow] using q3
  · simpa only [Nat.mul_eq, Nat.pow_eq, mod_fn, cast_mod hd, Nat.cast_mul, Nat.cast_pow, Nat.reduceAdd] using q5
  · simpa only [Nat.mul_eq, Nat.pow_eq, mod_fn, cast_mod hd, Nat.cast_mul, Nat.cast_pow, Nat.reduceAdd] using q7
  · simp only [Nat.mul_eq, Nat.pow_eq, mod_fn, cast_mod hd, Nat.cast_mul, Nat.cast_pow, t2]
    ring

end Verif.Ecpp
