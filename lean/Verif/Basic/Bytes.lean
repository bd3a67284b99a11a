import Mathlib.Data.Nat.Log
import Mathlib.Data.List.Basic
import Mathlib.Tactic.Ring
import Mathlib.Tactic.Linarith

/-!
# Byte strings and big/little-endian integers

`BigUint::from_bytes_be` and `BigUint::to_bytes_be` of num-bigint 0.4.6, and fixed-width
encodings.
-/

namespace Verif

/-- A Rust byte slice, array or vector. -/
abbrev Bytes := List UInt8

/-- ASCII bytes of a literal such as `b":"`. -/
def ascii (s : String) : Bytes := s.toList.map fun c => UInt8.ofNat c.toNat

/-- Little-endian value of a byte string. -/
def leToNat : Bytes → Nat
  | [] => 0
  | b :: bs => b.toNat + 256 * leToNat bs

/-- `BigUint::from_bytes_be` (the empty slice is zero, leading zeros are allowed). -/
def beToNat (bs : Bytes) : Nat := bs.foldl (fun acc b => acc * 256 + b.toNat) 0

/-- The `k` low-order bytes of `n`, least significant first. -/
def leFixed : Nat → Nat → Bytes
  | 0, _ => []
  | k + 1, n => UInt8.ofNat (n % 256) :: leFixed k (n / 256)

/-- The `k` low-order bytes of `n`, most significant first. -/
def beFixed (k n : Nat) : Bytes := (leFixed k n).reverse

/-- Number of bytes of `BigUint::to_bytes_be`: one for zero, otherwise as few as possible. -/
def byteLen (n : Nat) : Nat := Nat.log2 n / 8 + 1

/-- `BigUint::to_bytes_be`: no leading zero byte, except that zero is `[0]`. -/
def toBytesBE (n : Nat) : Bytes := beFixed (byteLen n) n

/-! ## Little-endian -/

theorem leToNat_lt (bs : Bytes) : leToNat bs < 256 ^ bs.length := by
  induction bs with
  | nil => simp [leToNat]
  | cons b bs ih =>
    have hb : b.toNat < 256 := b.toNat_lt
    simp only [leToNat, List.length_cons, pow_succ]
    omega

@[simp] theorem leFixed_length (k n : Nat) : (leFixed k n).length = k := by
  induction k generalizing n with
  | zero => rfl
  | succ k ih => simp [leFixed, ih]

theorem leToNat_leFixed (k n : Nat) : leToNat (leFixed k n) = n % 256 ^ k := by
  induction k generalizing n with
  | zero => simp [leFixed, leToNat, Nat.mod_one]
  | succ k ih =>
    have h1 : (UInt8.ofNat (n % 256)).toNat = n % 256 := by
      simp [UInt8.toNat_ofNat']
    rw [leFixed, leToNat, ih, h1, pow_succ, mul_comm (256 ^ k) 256, Nat.mod_mul]

theorem leFixed_leToNat (bs : Bytes) : leFixed bs.length (leToNat bs) = bs := by
  induction bs with
  | nil => rfl
  | cons b bs ih =>
    have hb : b.toNat < 256 := b.toNat_lt
    have h1 : (b.toNat + 256 * leToNat bs) % 256 = b.toNat := by omega
    have h2 : (b.toNat + 256 * leToNat bs) / 256 = leToNat bs := by omega
    simp only [List.length_cons, leFixed, leToNat, h1, h2, ih]
    simp

theorem leToNat_inj {a b : Bytes} (hl : a.length = b.length) (h : leToNat a = leToNat b) :
    a = b := by
  rw [← leFixed_leToNat a, ← leFixed_leToNat b, hl, h]

theorem leToNat_append (a b : Bytes) : leToNat (a ++ b) = leToNat a + 256 ^ a.length * leToNat b := by
  induction a with
  | nil => simp [leToNat]
  | cons x xs ih => simp only [List.cons_append, leToNat, ih, List.length_cons, pow_succ]; ring

theorem leToNat_replicate_zero (k : Nat) : leToNat (List.replicate k 0) = 0 := by
  induction k with
  | zero => rfl
  | succ k ih => simp [List.replicate_succ, leToNat, ih]

/-! ## Big-endian -/

theorem beToNat_eq_leToNat (bs : Bytes) : beToNat bs = leToNat bs.reverse := by
  have gen : ∀ (bs : Bytes) (acc : Nat),
      bs.foldl (fun acc b => acc * 256 + b.toNat) acc
        = leToNat bs.reverse + 256 ^ bs.length * acc := by
    intro bs
    induction bs with
    | nil => intro acc; simp [leToNat]
    | cons b bs ih =>
      intro acc
      simp only [List.foldl_cons, ih, List.reverse_cons, leToNat_append, List.length_reverse,
        leToNat, List.length_cons, pow_succ]
      ring
  simpa [beToNat] using gen bs 0

@[simp] theorem beToNat_nil : beToNat [] = 0 := rfl

theorem beToNat_append (a b : Bytes) :
    beToNat (a ++ b) = beToNat a * 256 ^ b.length + beToNat b := by
  simp only [beToNat_eq_leToNat, List.reverse_append, leToNat_append, List.length_reverse]
  ring

theorem beToNat_cons (x : UInt8) (b : Bytes) :
    beToNat (x :: b) = x.toNat * 256 ^ b.length + beToNat b := by
  have := beToNat_append [x] b
  simpa [beToNat] using this

@[simp] theorem beToNat_zero_cons (b : Bytes) : beToNat (0 :: b) = beToNat b := by
  simp [beToNat_cons]

theorem beToNat_replicate_zero_append (k : Nat) (b : Bytes) :
    beToNat (List.replicate k 0 ++ b) = beToNat b := by
  induction k with
  | zero => simp
  | succ k ih => simp [List.replicate_succ, ih]

theorem beToNat_lt (bs : Bytes) : beToNat bs < 256 ^ bs.length := by
  rw [beToNat_eq_leToNat]
  simpa using leToNat_lt bs.reverse

theorem beToNat_inj {a b : Bytes} (hl : a.length = b.length) (h : beToNat a = beToNat b) :
    a = b := by
  rw [beToNat_eq_leToNat, beToNat_eq_leToNat] at h
  exact List.reverse_injective (leToNat_inj (by simpa using hl) h)

@[simp] theorem beFixed_length (k n : Nat) : (beFixed k n).length = k := by simp [beFixed]

theorem beToNat_beFixed (k n : Nat) : beToNat (beFixed k n) = n % 256 ^ k := by
  simp [beToNat_eq_leToNat, beFixed, leToNat_leFixed]

theorem lt_pow_byteLen (n : Nat) : n < 256 ^ byteLen n := by
  rcases Nat.eq_zero_or_pos n with rfl | hn
  · simp [byteLen]
  · have h1 : n < 2 ^ (Nat.log2 n + 1) := Nat.lt_log2_self
    have h2 : (256 : Nat) ^ byteLen n = 2 ^ (8 * byteLen n) := by
      rw [show (256 : Nat) = 2 ^ 8 by norm_num, ← pow_mul]
    rw [h2]
    refine lt_of_lt_of_le h1 (Nat.pow_le_pow_right (by norm_num) ?_)
    unfold byteLen; omega

theorem pow_byteLen_le {n : Nat} (hn : n ≠ 0) : 256 ^ (byteLen n - 1) ≤ n := by
  have h1 : 2 ^ (Nat.log2 n) ≤ n := Nat.log2_self_le hn
  have h2 : (256 : Nat) ^ (byteLen n - 1) = 2 ^ (8 * (byteLen n - 1)) := by
    rw [show (256 : Nat) = 2 ^ 8 by norm_num, ← pow_mul]
  rw [h2]
  refine le_trans (Nat.pow_le_pow_right (by norm_num) ?_) h1
  unfold byteLen; omega

theorem byteLen_pos (n : Nat) : 0 < byteLen n := by unfold byteLen; omega

/-- A number with `n < 256^k`, `0 < k` needs at most `k` bytes. -/
theorem byteLen_le {n k : Nat} (hk : 0 < k) (h : n < 256 ^ k) : byteLen n ≤ k := by
  rcases Nat.eq_zero_or_pos n with rfl | hn
  · have : byteLen 0 = 1 := by decide
    omega
  · have h1 := pow_byteLen_le hn.ne'
    have h2 : 256 ^ (byteLen n - 1) < 256 ^ k := lt_of_le_of_lt h1 h
    have := (Nat.pow_lt_pow_iff_right (by norm_num : 1 < 256)).1 h2
    omega

theorem byteLen_mono {m n : Nat} (h : m ≤ n) : byteLen m ≤ byteLen n :=
  byteLen_le (byteLen_pos n) (lt_of_le_of_lt h (lt_pow_byteLen n))

@[simp] theorem toBytesBE_length (n : Nat) : (toBytesBE n).length = byteLen n := by
  simp [toBytesBE]

@[simp] theorem beToNat_toBytesBE (n : Nat) : beToNat (toBytesBE n) = n := by
  rw [toBytesBE, beToNat_beFixed, Nat.mod_eq_of_lt (lt_pow_byteLen n)]

theorem toBytesBE_injective : Function.Injective toBytesBE := by
  intro a b h
  rw [← beToNat_toBytesBE a, h, beToNat_toBytesBE]

@[simp] theorem toBytesBE_inj {a b : Nat} : toBytesBE a = toBytesBE b ↔ a = b :=
  toBytesBE_injective.eq_iff

theorem toBytesBE_ne_nil (n : Nat) : toBytesBE n ≠ [] := by
  intro h
  have := congrArg List.length h
  have := byteLen_pos n
  simp at *; omega

/-- A byte string is the minimal big-endian form of a number: it is not empty and its first byte
is zero only if it is exactly `[0]`. -/
def IsMinimalBE (bs : Bytes) : Prop := bs = [0] ∨ ∃ x xs, bs = x :: xs ∧ x ≠ 0

/-- `to_bytes_be` returns the minimal form. -/
theorem toBytesBE_minimal (n : Nat) : IsMinimalBE (toBytesBE n) := by
  rcases Nat.eq_zero_or_pos n with rfl | hn
  · left; decide
  · right
    cases h : toBytesBE n with
    | nil => exact absurd h (toBytesBE_ne_nil n)
    | cons x xs =>
      refine ⟨x, xs, rfl, ?_⟩
      rintro rfl
      have h1 : n = beToNat xs := by
        rw [← beToNat_toBytesBE n, h, beToNat_zero_cons]
      have h2 := beToNat_lt xs
      have h3 : byteLen n = xs.length + 1 := by rw [← toBytesBE_length, h]; rfl
      have h4 := pow_byteLen_le hn.ne'
      rw [h3] at h4
      simp only [Nat.add_sub_cancel] at h4
      omega

/-- The minimal form of a number is unique, so `to_bytes_be` is determined by its specification. -/
theorem toBytesBE_beToNat {bs : Bytes} (h : IsMinimalBE bs) : toBytesBE (beToNat bs) = bs := by
  rcases h with rfl | ⟨x, xs, rfl, hx⟩
  · decide
  · apply beToNat_inj
    · rw [toBytesBE_length]
      have hlt := beToNat_lt (x :: xs)
      have hle : byteLen (beToNat (x :: xs)) ≤ (x :: xs).length :=
        byteLen_le (by simp) hlt
      have hx' : 1 ≤ x.toNat := by
        rcases Nat.eq_zero_or_pos x.toNat with h0 | h0
        · exact absurd (UInt8.toNat_inj.1 (by simpa using h0)) hx
        · exact h0
      have hge : 256 ^ xs.length ≤ beToNat (x :: xs) := by
        rw [beToNat_cons]
        have := Nat.mul_le_mul_right (256 ^ xs.length) hx'
        omega
      have h5 : 256 ^ xs.length < 256 ^ byteLen (beToNat (x :: xs)) :=
        lt_of_le_of_lt hge (lt_pow_byteLen _)
      have := (Nat.pow_lt_pow_iff_right (by norm_num : 1 < 256)).1 h5
      simp only [List.length_cons] at *
      omega
    · simp

/-- Left-padding the minimal form with zero bytes gives the fixed-width form. -/
theorem beFixed_eq_pad {k n : Nat} (hk : 0 < k) (h : n < 256 ^ k) :
    beFixed k n = List.replicate (k - byteLen n) 0 ++ toBytesBE n := by
  have hle := byteLen_le hk h
  apply beToNat_inj
  · simp; omega
  · rw [beToNat_beFixed, beToNat_replicate_zero_append, beToNat_toBytesBE, Nat.mod_eq_of_lt h]

/-! ## Concatenation -/

/-- Equal-length prefixes of equal concatenations are equal. -/
theorem append_inj_of_length {a b c d : Bytes} (hl : a.length = c.length)
    (h : a ++ b = c ++ d) : a = c ∧ b = d := List.append_inj h hl

/-- Equal-length suffixes of equal concatenations are equal. -/
theorem append_inj_of_length' {a b c d : Bytes} (hl : b.length = d.length)
    (h : a ++ b = c ++ d) : a = c ∧ b = d := List.append_inj' h hl

/-! ## Slices -/

/-- `&s[i..j]` with its bounds check. -/
def slice (s : Bytes) (i j : Nat) : Option Bytes :=
  if i ≤ j ∧ j ≤ s.length then some ((s.drop i).take (j - i)) else none

/-- `dst[i..j].copy_from_slice(src)`: `none` when the range is out of bounds or the lengths differ. -/
def copyInto (dst : Bytes) (i j : Nat) (src : Bytes) : Option Bytes :=
  if i ≤ j ∧ j ≤ dst.length ∧ src.length = j - i then
    some (dst.take i ++ src ++ dst.drop j)
  else none

end Verif
