import Verif.Basic.Scrypt
import Mathlib.Data.List.Iterate
import Mathlib.Logic.Function.Iterate

/-!
# scrypt as published

Salsa20 core as in D. J. Bernstein, "The Salsa20 family of stream ciphers" (quarterround, rowround, columnround); the rest as in
RFC 7914 and RFC 8018, independent of the definitions in `Verif/Basic/Scrypt` apart from reading words and `xor`.
-/

namespace Verif.ScryptSpec
open Verif.Sha (strictList rotl32)
open Verif.Scrypt (words xor)

/-- `quarterround(y0, y1, y2, y3)`; the result is handed on. -/
def quarter {α : Type} (y0 y1 y2 y3 : Nat) (k : Nat → Nat → Nat → Nat → α) : α :=
  strict (y1 ^^^ rotl32 7 ((y0 + y3) % 2 ^ 32)) fun z1 =>
  strict (y2 ^^^ rotl32 9 ((z1 + y0) % 2 ^ 32)) fun z2 =>
  strict (y3 ^^^ rotl32 13 ((z2 + z1) % 2 ^ 32)) fun z3 =>
  strict (y0 ^^^ rotl32 18 ((z3 + z2) % 2 ^ 32)) fun z0 => k z0 z1 z2 z3

/-- `rowround`. -/
def rowRound : List Nat → List Nat
  | [y0, y1, y2, y3, y4, y5, y6, y7, y8, y9, y10, y11, y12, y13, y14, y15] =>
    quarter y0 y1 y2 y3 fun z0 z1 z2 z3 =>
    quarter y5 y6 y7 y4 fun z5 z6 z7 z4 =>
    quarter y10 y11 y8 y9 fun z10 z11 z8 z9 =>
    quarter y15 y12 y13 y14 fun z15 z12 z13 z14 =>
    [z0, z1, z2, z3, z4, z5, z6, z7, z8, z9, z10, z11, z12, z13, z14, z15]
  | _ => []

/-- The transposed 4x4 matrix. -/
def transpose : List Nat → List Nat
  | [y0, y1, y2, y3, y4, y5, y6, y7, y8, y9, y10, y11, y12, y13, y14, y15] =>
    [y0, y4, y8, y12, y1, y5, y9, y13, y2, y6, y10, y14, y3, y7, y11, y15]
  | _ => []

/-- `columnround`. -/
def columnRound (x : List Nat) : List Nat := transpose (rowRound (transpose x))

/-- `doubleround`. -/
def doubleRound (x : List Nat) : List Nat := rowRound (columnRound x)

/-- Salsa20/8 Core, RFC 7914 section 3. -/
def salsa (block : Bytes) : Bytes :=
  strictList (words 16 block) fun st =>
  strictList (Sha.addWords 32 (doubleRound (doubleRound (doubleRound (doubleRound st)))) st) fun out =>
  out.flatMap (leFixed 4)

/-- `Y_0, Y_1, ...` of RFC 7914 section 4. -/
def ys : Bytes → List Bytes → List Bytes
  | _, [] => []
  | x, b :: bs => salsa (xor x b) :: ys (salsa (xor x b)) bs

/-- Elements 0, 2, 4, ... -/
def evens {α : Type} : List α → List α
  | [] => []
  | [a] => [a]
  | a :: _ :: l => a :: evens l

/-- Elements 1, 3, 5, ... -/
def odds {α : Type} : List α → List α
  | [] => []
  | [_] => []
  | _ :: b :: l => b :: odds l

/-- `scryptBlockMix`, RFC 7914 section 4. -/
def blockMix (B : List Bytes) : List Bytes :=
  let Y := ys (B.getLastD []) B
  evens Y ++ odds Y

/-- One pass of the second loop of `scryptROMix`: `j = Integerify(X) mod N`, `T = X xor V_j`, `X = scryptBlockMix(T)`. -/
def roStep (V : List (List Bytes)) (N : Nat) (X : List Bytes) : List Bytes :=
  blockMix (List.zipWith xor X (V.getD (leToNat (X.getLastD []) % N) []))

/-- `scryptROMix`, RFC 7914 section 5: `V_i` is `scryptBlockMix` applied `i` times. -/
def roMix (B : List Bytes) (N : Nat) : List Bytes := (roStep (List.iterate blockMix B N) N)^[N] (blockMix^[N] B)

/-- `PBKDF2-HMAC-SHA256(P, S, 1, dkLen)`, RFC 8018 section 5.2. -/
def pbkdf2 (P S : Bytes) (dkLen : Nat) : Bytes :=
  ((List.range ((dkLen + 31) / 32)).flatMap fun i => hmac sha256 64 P (S ++ beFixed 4 (i + 1))).take dkLen

/-- Part number `i` of `len` bytes. -/
def part (len i : Nat) (b : Bytes) : Bytes := (b.drop (i * len)).take len

/-- `scrypt(P, S, N, r, p, dkLen)`, RFC 7914 section 6. -/
def scrypt (P S : Bytes) (N r p dkLen : Nat) : Bytes :=
  let B := pbkdf2 P S (p * (128 * r))
  pbkdf2 P ((List.range p).flatMap fun i =>
    (roMix ((List.range (2 * r)).map fun j => part 64 j (part (128 * r) i B)) N).flatten) dkLen

/-! ## The crate computes it -/

theorem strictList_eq {α : Type} (l : List Nat) (f : List Nat → α) : strictList l f = f l := by
  induction l generalizing f with
  | nil => rfl
  | cons x xs ih => rw [strictList, strict_eq, ih]

theorem words_16 (b : Bytes) : ∃ y0 y1 y2 y3 y4 y5 y6 y7 y8 y9 y10 y11 y12 y13 y14 y15,
    words 16 b = [y0, y1, y2, y3, y4, y5, y6, y7, y8, y9, y10, y11, y12, y13, y14, y15] :=
  ⟨_, _, _, _, _, _, _, _, _, _, _, _, _, _, _, _, rfl⟩

/-- A quarter round hands on four words. -/
theorem quarter_eq (y0 y1 y2 y3 : Nat) : ∃ z0 z1 z2 z3, ∀ {α : Type} (k : Nat → Nat → Nat → Nat → α),
    quarter y0 y1 y2 y3 k = k z0 z1 z2 z3 := by
  simp only [quarter, strict_eq]
  exact ⟨_, _, _, _, fun _ => rfl⟩

theorem quarterRound_0_4 (y0 y1 y2 y3 y4 y5 y6 y7 y8 y9 y10 y11 y12 y13 y14 y15 : Nat) :
    Scrypt.quarterRound 0 4 8 12 [y0, y1, y2, y3, y4, y5, y6, y7, y8, y9, y10, y11, y12, y13, y14, y15] =
      quarter y0 y4 y8 y12 fun z0 z4 z8 z12 => [z0, y1, y2, y3, z4, y5, y6, y7, z8, y9, y10, y11, z12, y13, y14, y15] := by
  simp only [Scrypt.quarterRound, Scrypt.step, strict_eq, quarter, List.getD_cons_zero, List.getD_cons_succ, List.set_cons_zero,
    List.set_cons_succ]

theorem quarterRound_5_9 (y0 y1 y2 y3 y4 y5 y6 y7 y8 y9 y10 y11 y12 y13 y14 y15 : Nat) :
    Scrypt.quarterRound 5 9 13 1 [y0, y1, y2, y3, y4, y5, y6, y7, y8, y9, y10, y11, y12, y13, y14, y15] =
      quarter y5 y9 y13 y1 fun z5 z9 z13 z1 => [y0, z1, y2, y3, y4, z5, y6, y7, y8, z9, y10, y11, y12, z13, y14, y15] := by
  simp only [Scrypt.quarterRound, Scrypt.step, strict_eq, quarter, List.getD_cons_zero, List.getD_cons_succ, List.set_cons_zero,
    List.set_cons_succ]

theorem quarterRound_10_14 (y0 y1 y2 y3 y4 y5 y6 y7 y8 y9 y10 y11 y12 y13 y14 y15 : Nat) :
    Scrypt.quarterRound 10 14 2 6 [y0, y1, y2, y3, y4, y5, y6, y7, y8, y9, y10, y11, y12, y13, y14, y15] =
      quarter y10 y14 y2 y6 fun z10 z14 z2 z6 => [y0, y1, z2, y3, y4, y5, z6, y7, y8, y9, z10, y11, y12, y13, z14, y15] := by
  simp only [Scrypt.quarterRound, Scrypt.step, strict_eq, quarter, List.getD_cons_zero, List.getD_cons_succ, List.set_cons_zero,
    List.set_cons_succ]

theorem quarterRound_15_3 (y0 y1 y2 y3 y4 y5 y6 y7 y8 y9 y10 y11 y12 y13 y14 y15 : Nat) :
    Scrypt.quarterRound 15 3 7 11 [y0, y1, y2, y3, y4, y5, y6, y7, y8, y9, y10, y11, y12, y13, y14, y15] =
      quarter y15 y3 y7 y11 fun z15 z3 z7 z11 => [y0, y1, y2, z3, y4, y5, y6, z7, y8, y9, y10, z11, y12, y13, y14, z15] := by
  simp only [Scrypt.quarterRound, Scrypt.step, strict_eq, quarter, List.getD_cons_zero, List.getD_cons_succ, List.set_cons_zero,
    List.set_cons_succ]

theorem quarterRound_0_1 (y0 y1 y2 y3 y4 y5 y6 y7 y8 y9 y10 y11 y12 y13 y14 y15 : Nat) :
    Scrypt.quarterRound 0 1 2 3 [y0, y1, y2, y3, y4, y5, y6, y7, y8, y9, y10, y11, y12, y13, y14, y15] =
      quarter y0 y1 y2 y3 fun z0 z1 z2 z3 => [z0, z1, z2, z3, y4, y5, y6, y7, y8, y9, y10, y11, y12, y13, y14, y15] := by
  simp only [Scrypt.quarterRound, Scrypt.step, strict_eq, quarter, List.getD_cons_zero, List.getD_cons_succ, List.set_cons_zero,
    List.set_cons_succ]

theorem quarterRound_5_6 (y0 y1 y2 y3 y4 y5 y6 y7 y8 y9 y10 y11 y12 y13 y14 y15 : Nat) :
    Scrypt.quarterRound 5 6 7 4 [y0, y1, y2, y3, y4, y5, y6, y7, y8, y9, y10, y11, y12, y13, y14, y15] =
      quarter y5 y6 y7 y4 fun z5 z6 z7 z4 => [y0, y1, y2, y3, z4, z5, z6, z7, y8, y9, y10, y11, y12, y13, y14, y15] := by
  simp only [Scrypt.quarterRound, Scrypt.step, strict_eq, quarter, List.getD_cons_zero, List.getD_cons_succ, List.set_cons_zero,
    List.set_cons_succ]

theorem quarterRound_10_11 (y0 y1 y2 y3 y4 y5 y6 y7 y8 y9 y10 y11 y12 y13 y14 y15 : Nat) :
    Scrypt.quarterRound 10 11 8 9 [y0, y1, y2, y3, y4, y5, y6, y7, y8, y9, y10, y11, y12, y13, y14, y15] =
      quarter y10 y11 y8 y9 fun z10 z11 z8 z9 => [y0, y1, y2, y3, y4, y5, y6, y7, z8, z9, z10, z11, y12, y13, y14, y15] := by
  simp only [Scrypt.quarterRound, Scrypt.step, strict_eq, quarter, List.getD_cons_zero, List.getD_cons_succ, List.set_cons_zero,
    List.set_cons_succ]

theorem quarterRound_15_12 (y0 y1 y2 y3 y4 y5 y6 y7 y8 y9 y10 y11 y12 y13 y14 y15 : Nat) :
    Scrypt.quarterRound 15 12 13 14 [y0, y1, y2, y3, y4, y5, y6, y7, y8, y9, y10, y11, y12, y13, y14, y15] =
      quarter y15 y12 y13 y14 fun z15 z12 z13 z14 => [y0, y1, y2, y3, y4, y5, y6, y7, y8, y9, y10, y11, z12, z13, z14, z15] := by
  simp only [Scrypt.quarterRound, Scrypt.step, strict_eq, quarter, List.getD_cons_zero, List.getD_cons_succ, List.set_cons_zero,
    List.set_cons_succ]

/-- The crate's rounds in place are a row round of the transposed matrix and a row round. -/
theorem doubleRound_eq (y0 y1 y2 y3 y4 y5 y6 y7 y8 y9 y10 y11 y12 y13 y14 y15 : Nat) :
    ∃ z0 z1 z2 z3 z4 z5 z6 z7 z8 z9 z10 z11 z12 z13 z14 z15,
    Scrypt.doubleRound [y0, y1, y2, y3, y4, y5, y6, y7, y8, y9, y10, y11, y12, y13, y14, y15] =
      [z0, z1, z2, z3, z4, z5, z6, z7, z8, z9, z10, z11, z12, z13, z14, z15] ∧
    doubleRound [y0, y1, y2, y3, y4, y5, y6, y7, y8, y9, y10, y11, y12, y13, y14, y15] =
      [z0, z1, z2, z3, z4, z5, z6, z7, z8, z9, z10, z11, z12, z13, z14, z15] := by
  simp only [Scrypt.doubleRound, doubleRound, columnRound, transpose, rowRound]
  obtain ⟨a0, a4, a8, a12, h⟩ := quarter_eq y0 y4 y8 y12
  rw [quarterRound_0_4, h, h]
  clear h
  obtain ⟨a5, a9, a13, a1, h⟩ := quarter_eq y5 y9 y13 y1
  rw [quarterRound_5_9, h, h]
  clear h
  obtain ⟨a10, a14, a2, a6, h⟩ := quarter_eq y10 y14 y2 y6
  rw [quarterRound_10_14, h, h]
  clear h
  obtain ⟨a15, a3, a7, a11, h⟩ := quarter_eq y15 y3 y7 y11
  rw [quarterRound_15_3, h, h]
  clear h
  obtain ⟨b0, b1, b2, b3, h⟩ := quarter_eq a0 a1 a2 a3
  simp only []
  rw [quarterRound_0_1, h, h]
  clear h
  obtain ⟨b5, b6, b7, b4, h⟩ := quarter_eq a5 a6 a7 a4
  rw [quarterRound_5_6, h, h]
  clear h
  obtain ⟨b10, b11, b8, b9, h⟩ := quarter_eq a10 a11 a8 a9
  rw [quarterRound_10_11, h, h]
  clear h
  obtain ⟨b15, b12, b13, b14, h⟩ := quarter_eq a15 a12 a13 a14
  rw [quarterRound_15_12, h]
  clear h
  exact ⟨_, _, _, _, _, _, _, _, _, _, _, _, _, _, _, _, rfl, rfl⟩

theorem salsa_eq (b : Bytes) : Scrypt.salsa b = salsa b := by
  obtain ⟨_, _, _, _, _, _, _, _, _, _, _, _, _, _, _, _, h0⟩ := words_16 b
  simp only [Scrypt.salsa, salsa, strictList_eq, h0]
  obtain ⟨_, _, _, _, _, _, _, _, _, _, _, _, _, _, _, _, h1, h1'⟩ := doubleRound_eq _ _ _ _ _ _ _ _ _ _ _ _ _ _ _ _
  rw [h1, h1']
  obtain ⟨_, _, _, _, _, _, _, _, _, _, _, _, _, _, _, _, h2, h2'⟩ := doubleRound_eq _ _ _ _ _ _ _ _ _ _ _ _ _ _ _ _
  rw [h2, h2']
  obtain ⟨_, _, _, _, _, _, _, _, _, _, _, _, _, _, _, _, h3, h3'⟩ := doubleRound_eq _ _ _ _ _ _ _ _ _ _ _ _ _ _ _ _
  rw [h3, h3']
  obtain ⟨_, _, _, _, _, _, _, _, _, _, _, _, _, _, _, _, h4, h4'⟩ := doubleRound_eq _ _ _ _ _ _ _ _ _ _ _ _ _ _ _ _
  rw [h4, h4']

theorem length_ys (x : Bytes) (l : List Bytes) : (ys x l).length = l.length := by
  induction l generalizing x with
  | nil => rfl
  | cons b bs ih => simp [ys, ih]

theorem length_evens_odds {α : Type} (k : Nat) (l : List α) (h : l.length = 2 * k) :
    (evens l).length = k ∧ (odds l).length = k := by
  induction k generalizing l with
  | zero => rw [Nat.mul_zero, List.length_eq_zero_iff] at h; subst h; exact ⟨rfl, rfl⟩
  | succ k ih =>
    match l, h with
    | a :: b :: l, h =>
      have := ih l (by simpa [Nat.mul_succ] using h)
      simp [evens, odds, this]

theorem blockMix_length {r : Nat} {B : List Bytes} (h : B.length = 2 * r) : (blockMix B).length = 2 * r := by
  have := length_evens_odds r (ys (B.getLastD []) B) (by rw [length_ys, h])
  simp only [blockMix, List.length_append, this]
  omega

/-- The loop writes the elements with even index to the first half and the others to the second. -/
theorem blockMixLoop_eq (k : Nat) : ∀ (j : Nat) (chunks : List Bytes) (x : Bytes) (A P B Q : List Bytes),
    chunks.length = 2 * k → A.length = j → B.length = j → P.length = k → Q.length = k →
    Scrypt.blockMixLoop (j + k) (2 * j) chunks x (A ++ P ++ B ++ Q) =
      A ++ evens (ys x chunks) ++ B ++ odds (ys x chunks) := by
  induction k with
  | zero =>
    intro j chunks x A P B Q hc hA hB hP hQ
    rw [Nat.mul_zero, List.length_eq_zero_iff] at hc
    rw [List.length_eq_zero_iff] at hP hQ
    subst hc; subst hP; subst hQ
    rfl
  | succ k ih =>
    intro j chunks x A P B Q hc hA hB hP hQ
    match chunks, hc, P, hP, Q, hQ with
    | c1 :: c2 :: chunks, hc, p :: P, hP, q :: Q, hQ =>
      simp only [Scrypt.blockMixLoop, ys, evens, odds, salsa_eq]
      rw [if_pos (by omega), if_neg (by omega), show 2 * j / 2 = j by omega, show (2 * j + 1) / 2 = j by omega]
      have e1 : (A ++ p :: P ++ B ++ q :: Q).set j (salsa (xor x c1)) = A ++ salsa (xor x c1) :: P ++ B ++ q :: Q := by
        simp only [List.append_assoc, List.cons_append]
        rw [List.set_append_right _ _ (by omega), hA, Nat.sub_self, List.set_cons_zero]
      have e2 : ∀ y z : Bytes, (A ++ y :: P ++ B ++ q :: Q).set (j + (j + (k + 1))) z = A ++ y :: P ++ B ++ z :: Q := by
        intro y z
        have hl : (A ++ y :: P ++ B).length = j + (j + (k + 1)) := by
          simp only [List.length_append, List.length_cons] at hP ⊢
          omega
        rw [List.set_append_right _ _ (by omega), hl, Nat.sub_self, List.set_cons_zero]
      rw [e1, e2]
      have := ih (j + 1) chunks (salsa (xor (salsa (xor x c1)) c2)) (A ++ [salsa (xor x c1)]) P
        (B ++ [salsa (xor (salsa (xor x c1)) c2)]) Q (by simpa [Nat.mul_succ] using hc) (by simp [hA]) (by simp [hB])
        (by simpa using hP) (by simpa using hQ)
      rw [show 2 * j + 1 + 1 = 2 * (j + 1) by omega, show j + (k + 1) = j + 1 + k by omega]
      simp only [List.append_assoc, List.cons_append, List.nil_append] at this ⊢
      exact this

theorem getLastD_eq (l : List Bytes) : l.getD (l.length - 1) [] = l.getLastD [] := by
  rw [List.getLastD_eq_getLast?, List.getLast?_eq_getElem?, List.getD_eq_getElem?_getD]

theorem blockMix_eq {r : Nat} {input output : List Bytes} (hi : input.length = 2 * r) (ho : output.length = 2 * r) :
    Scrypt.blockMix input output = blockMix input := by
  have h := blockMixLoop_eq r 0 input (input.getLastD []) [] (output.take r) [] (output.drop r) hi rfl rfl
    (by rw [List.length_take]; omega) (by rw [List.length_drop]; omega)
  simp only [List.nil_append, List.append_nil, List.take_append_drop, Nat.zero_add, Nat.mul_zero] at h
  rw [Scrypt.blockMix, blockMix, getLastD_eq, hi, show 2 * r / 2 = r by omega, h]

theorem iterate_length {r : Nat} {B : List Bytes} (h : B.length = 2 * r) (n : Nat) : (blockMix^[n] B).length = 2 * r := by
  induction n generalizing B with
  | zero => exact h
  | succ n ih => exact ih (blockMix_length h)

theorem fill_eq {r : Nat} (n : Nat) {b : List Bytes} (h : b.length = 2 * r) :
    Scrypt.fill n b = (List.iterate blockMix b n, blockMix^[n] b) := by
  induction n generalizing b with
  | zero => rfl
  | succ n ih => rw [Scrypt.fill, blockMix_eq h h, ih (blockMix_length h)]; rfl

theorem leToNat_take (l : Bytes) (k : Nat) : leToNat (l.take k) = leToNat l % 256 ^ k := by
  rcases Nat.lt_or_ge l.length k with h | h
  · rw [List.take_of_length_le h.le, Nat.mod_eq_of_lt]
    exact (leToNat_lt l).trans_le (Nat.pow_le_pow_right (by norm_num) h.le)
  · conv => rhs; rw [← List.take_append_drop k l, leToNat_append, List.length_take, Nat.min_eq_left h]
    rw [Nat.add_mul_mod_self_left, Nat.mod_eq_of_lt]
    have := leToNat_lt (l.take k)
    rwa [List.length_take, Nat.min_eq_left h] at this

/-- Four bytes and a mask give the residue, up to `2^32`. -/
theorem integerify_eq (x : List Bytes) (logN : Nat) (h : logN ≤ 32) :
    Scrypt.integerify x (2 ^ logN) = leToNat (x.getLastD []) % 2 ^ logN := by
  rw [Scrypt.integerify, Nat.and_two_pow_sub_one_eq_mod, leToNat_take, getLastD_eq]
  exact Nat.mod_mod_of_dvd _ (by rw [show (256 : Nat) ^ 4 = 2 ^ 32 by norm_num]; exact pow_dvd_pow 2 h)

theorem mix_eq {r logN : Nat} (hN : logN ≤ 32) (V : List (List Bytes)) (hV : ∀ j, j < 2 ^ logN → (V.getD j []).length = 2 * r)
    (k : Nat) {b : List Bytes} (h : b.length = 2 * r) :
    Scrypt.mix V (2 ^ logN) k b = (roStep V (2 ^ logN))^[k] b := by
  induction k generalizing b with
  | zero => rfl
  | succ k ih =>
    have hz : (List.zipWith Scrypt.xor b (V.getD (leToNat (b.getLastD []) % 2 ^ logN) [])).length = 2 * r := by
      rw [List.length_zipWith, h, hV _ (Nat.mod_lt _ (pow_pos (by norm_num) _)), Nat.min_self]
    rw [Scrypt.mix, integerify_eq b logN hN, blockMix_eq hz h, ih (blockMix_length hz)]
    rfl

theorem roMix_eq {r logN : Nat} (hN : logN ≤ 32) {b : List Bytes} (h : b.length = 2 * r) :
    Scrypt.roMix b (2 ^ logN) = roMix b (2 ^ logN) := by
  rw [Scrypt.roMix, fill_eq _ h, roMix]
  refine mix_eq hN _ (fun j hj => ?_) _ (iterate_length h _)
  rw [List.getD_eq_getElem?_getD, List.getElem?_iterate _ _ _ _ hj, Option.getD_some]
  exact iterate_length h j

theorem pbkdf2Blocks_eq (P S : Bytes) (cnt i : Nat) :
    Scrypt.pbkdf2Blocks P S cnt (i + 1) = (List.range cnt).flatMap fun j => hmac sha256 64 P (S ++ beFixed 4 (i + j + 1)) := by
  induction cnt generalizing i with
  | zero => rfl
  | succ cnt ih =>
    rw [Scrypt.pbkdf2Blocks, ih, List.range_succ_eq_map, List.flatMap_cons, List.flatMap_map]
    congr 2
    funext j
    rw [show i + 1 + j + 1 = i + (j + 1) + 1 by omega]

theorem pbkdf2_eq (P S : Bytes) (len : Nat) : Scrypt.pbkdf2 P S len = pbkdf2 P S len := by
  have := pbkdf2Blocks_eq P S ((len + 31) / 32) 0
  simp only [Nat.zero_add] at this
  rw [Scrypt.pbkdf2, pbkdf2, this]

theorem pbkdf2_length (P S : Bytes) (len : Nat) : (pbkdf2 P S len).length = len := by
  rw [pbkdf2, List.length_take, List.length_flatMap]
  simp only [hmac_length]
  rw [List.map_const', List.sum_replicate_nat, List.length_range, show sha256.outLen = 32 from rfl]
  omega

theorem blocks_eq (n : Nat) (b : Bytes) : Scrypt.blocks n b = (List.range n).map fun j => part 64 j b := by
  induction n generalizing b with
  | zero => rfl
  | succ n ih =>
    rw [Scrypt.blocks, ih, List.range_succ_eq_map, List.map_cons, List.map_map]
    refine congrArg₂ List.cons ?_ ?_
    · simp [part]
    · refine List.map_congr_left fun j _ => ?_
      simp only [part, Function.comp, List.drop_drop, Nat.succ_mul, Nat.add_comm 64]

theorem roMixChunks_eq {logN : Nat} (hN : logN ≤ 32) (r p : Nat) (b : Bytes) :
    Scrypt.roMixChunks r (2 ^ logN) p b = (List.range p).flatMap fun i =>
      (roMix ((List.range (2 * r)).map fun j => part 64 j (part (128 * r) i b)) (2 ^ logN)).flatten := by
  induction p generalizing b with
  | zero => rfl
  | succ p ih =>
    rw [Scrypt.roMixChunks, ih, List.range_succ_eq_map, List.flatMap_cons, List.flatMap_map, blocks_eq,
      roMix_eq hN (r := r) (by simp)]
    congr 1
    · simp [part]
    · congr 1
      funext i
      simp only [part, List.drop_drop]
      rw [show i.succ * (128 * r) = 128 * r + i * (128 * r) by rw [Nat.succ_mul, Nat.add_comm]]

/-- The crate computes scrypt for `N` up to `2^32`. -/
theorem scrypt_eq (P S : Bytes) (logN r p dkLen : Nat) (h : logN ≤ 32) :
    Scrypt.scrypt P S logN r p dkLen = scrypt P S (2 ^ logN) r p dkLen := by
  rw [Scrypt.scrypt, scrypt, pbkdf2_eq, Nat.one_shiftLeft, roMixChunks_eq h, pbkdf2_eq]

end Verif.ScryptSpec
