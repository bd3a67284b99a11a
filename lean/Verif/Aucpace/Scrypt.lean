import Verif.Aucpace.Examples

/-!
# The parameters of the password hasher in the example programs

The examples use scrypt. Registration turns the parameters into a `ParamsString`, which the server stores and sends to the
client, and the client makes parameters from it again (key_agreement.rs:176-183). The crates are not part of the
repository and their sources were not at hand, so their part is an assumption, listed in DESIGN.md: `scrypt::Params` (scrypt 0.11.0), `ParamsString`, `Ident` and `Value`
(password-hash 0.5.0), `str::split` and `str::parse` (core).

Simplified: which combinations of values `Params::new` accepts is a parameter, and so is the hash function.
-/

namespace Verif.Aucpace.Scrypt

/-- `scrypt::Params`: `log_n: u8`, `r: u32`, `p: u32`, `len: usize`. -/
structure Params where
  logN : Nat
  r : Nat
  p : Nat
  len : Nat
  deriving DecidableEq, Repr

/-- The values are in the range of their types. -/
def Params.InRange (x : Params) : Prop := x.logN < 2 ^ 8 ∧ x.r < 2 ^ 32 ∧ x.p < 2 ^ 32

/-- `Params::recommended()`, used in key_agreement.rs:44, key_agreement_partial_aug.rs:48, key_agreement_strong.rs:45 and
key_agreement_no_std.rs:40; `RECOMMENDED_LEN` is 32. -/
def recommended : Params := ⟨17, 8, 1, 32⟩

/-! ## Text -/

/-- `{value}` of an unsigned integer; `fuel` is larger than the number of digits. -/
def decimalAux : Nat → Nat → Bytes
  | 0, _ => []
  | fuel + 1, n => if n < 10 then [UInt8.ofNat (48 + n)] else decimalAux fuel (n / 10) ++ [UInt8.ofNat (48 + n % 10)]

/-- `{value}` of an unsigned integer. -/
def decimal (n : Nat) : Bytes := decimalAux (n + 1) n

/-- `str::split(c)`: the empty string has one (empty) part. -/
def split (c : UInt8) : Bytes → List Bytes
  | [] => [[]]
  | b :: bs =>
    if b = c then [] :: split c bs
    else match split c bs with
      | [] => [[b]]
      | part :: parts => (b :: part) :: parts

/-- The digits of `str::parse` for an unsigned type with the given number of values: no other characters, no overflow. -/
def parseDigits (bound : Nat) : Nat → Bytes → Option Nat
  | acc, [] => some acc
  | acc, b :: bs =>
    if 48 ≤ b.toNat ∧ b.toNat ≤ 57 then
      if acc * 10 + (b.toNat - 48) < bound then parseDigits bound (acc * 10 + (b.toNat - 48)) bs else none
    else none

/-- `str::parse::<u8>()` (256 values) or `str::parse::<u32>()`: an optional `+`, then at least one digit. -/
def parse (bound : Nat) (s : Bytes) : Option Nat :=
  match s with
  | [] => none
  | b :: bs =>
    let digits := if b = 0x2b then bs else s
    if digits = [] then none else parseDigits bound 0 digits

/-! ## `ParamsString` -/

/-- `TryFrom<Params> for ParamsString`: `add_decimal` for `ln`, `r` and `p`, separated by commas. -/
def toPs (x : Params) : Bytes :=
  ascii "ln=" ++ decimal x.logN ++ ascii ",r=" ++ decimal x.r ++ ascii ",p=" ++ decimal x.p

/-- `Ident::new`: one to 32 lower-case letters, digits and `-`. -/
def identOk (s : Bytes) : Bool :=
  s ≠ [] && s.length ≤ 32 && s.all fun b => (0x61 ≤ b && b ≤ 0x7a) || (0x30 ≤ b && b ≤ 0x39) || b == 0x2d

/-- `Value::new`: up to 64 letters, digits and `/`, `+`, `.`, `-`. -/
def valueOk (s : Bytes) : Bool :=
  s.length ≤ 64 && s.all fun b => (0x61 ≤ b && b ≤ 0x7a) || (0x41 ≤ b && b ≤ 0x5a) || (0x30 ≤ b && b ≤ 0x39) ||
    b == 0x2f || b == 0x2b || b == 0x2e || b == 0x2d

/-- `ParamsString::from_str(..).is_ok()`, called in aucpace/src/utils.rs:237. -/
def paramsOk (s : Bytes) : Bool :=
  s.length ≤ 127 && (s == [] || (split 0x2c s).all fun part =>
    match split 0x3d part with
    | [name, value] => identOk name && valueOk value
    | _ => false)

/-- The loop of `ParamsString::get` over the parts; `none` also where the iterator would panic (not for strings that
`from_str` accepts). -/
def getFrom (name : Bytes) : List Bytes → Option Bytes
  | [] => none
  | part :: parts =>
    match split 0x3d part with
    | n :: v :: _ => if n = name then some v else getFrom name parts
    | _ => none

/-- `ParamsString::get_str`. -/
def getStr (name ps : Bytes) : Option Bytes := if ps = [] then none else getFrom name (split 0x2c ps)

/-- What the clients do with `pbkdf_params`, key_agreement.rs:176-183, key_agreement_partial_aug.rs:184-191,
key_agreement_strong.rs:180-187, key_agreement_no_std.rs:136-143; `none` is the panic of an `unwrap`. `new` is
`Params::new(..).is_ok()`. -/
def fromPs (new : Params → Bool) (ps : Bytes) : Option Params := do
  let logN ← (getStr (ascii "ln") ps).bind (parse (2 ^ 8))
  let r ← (getStr (ascii "r") ps).bind (parse (2 ^ 32))
  let p ← (getStr (ascii "p") ps).bind (parse (2 ^ 32))
  if new ⟨logN, r, p, 32⟩ then some ⟨logN, r, p, 32⟩ else none

/-- `Scrypt` as a password hasher; `add_decimal` does not fail because the string is short (`C80_round_trip`). -/
def hasher (hash : Bytes → Params → Bytes → Except PhError (Option Bytes)) : PwHasher Params where
  hash := hash
  toParamsString x := .ok (toPs x)

/-! ## Lemmas -/

theorem decimalAux_digits (fuel n : Nat) : ∀ b ∈ decimalAux fuel n, 48 ≤ b.toNat ∧ b.toNat ≤ 57 := by
  induction fuel generalizing n with
  | zero => simp [decimalAux]
  | succ fuel ih =>
    intro b hb
    rw [decimalAux] at hb
    split at hb
    · simp only [List.mem_singleton] at hb
      subst hb
      rw [UInt8.toNat_ofNat']
      omega
    · rcases List.mem_append.1 hb with hb | hb
      · exact ih _ b hb
      · simp only [List.mem_singleton] at hb
        subst hb
        rw [UInt8.toNat_ofNat']
        omega

theorem decimal_digits (n : Nat) : ∀ b ∈ decimal n, 48 ≤ b.toNat ∧ b.toNat ≤ 57 := decimalAux_digits _ n

theorem decimal_ne_nil (n : Nat) : decimal n ≠ [] := by
  rw [decimal, decimalAux]
  split <;> simp

theorem decimalAux_length (fuel n k : Nat) (h : n < 10 ^ (k + 1)) : (decimalAux fuel n).length ≤ k + 1 := by
  induction fuel generalizing n k with
  | zero => simp [decimalAux]
  | succ fuel ih =>
    rw [decimalAux]
    split
    · simp
    · rename_i hn
      cases k with
      | zero => omega
      | succ k =>
        have := ih (n / 10) k (by rw [Nat.div_lt_iff_lt_mul (by norm_num)]; rw [pow_succ] at h; exact h)
        simp only [List.length_append, List.length_singleton]
        omega

theorem decimal_length (n k : Nat) (h : n < 10 ^ (k + 1)) : (decimal n).length ≤ k + 1 := decimalAux_length _ n k h

theorem parseDigits_append (bound acc : Nat) (xs ys : Bytes) :
    parseDigits bound acc (xs ++ ys) = (parseDigits bound acc xs).bind fun v => parseDigits bound v ys := by
  induction xs generalizing acc with
  | nil => rfl
  | cons b bs ih =>
    simp only [List.cons_append, parseDigits]
    split
    · split
      · exact ih _
      · rfl
    · rfl

theorem parseDigits_one (bound acc d : Nat) (hd : d < 10) (h : acc * 10 + d < bound) :
    parseDigits bound acc [UInt8.ofNat (48 + d)] = some (acc * 10 + d) := by
  have ht : (UInt8.ofNat (48 + d)).toNat = 48 + d := by rw [UInt8.toNat_ofNat']; omega
  simp only [parseDigits, ht]
  rw [if_pos (by omega), if_pos (by omega)]
  congr 1
  omega

theorem parseDigits_decimalAux (bound fuel n : Nat) (hf : n < fuel) (h : n < bound) :
    parseDigits bound 0 (decimalAux fuel n) = some n := by
  induction fuel generalizing n with
  | zero => omega
  | succ fuel ih =>
    rw [decimalAux]
    split
    · rename_i hn
      rw [parseDigits_one bound 0 n hn (by omega)]
      simp
    · have := Nat.div_le_self n 10
      rw [parseDigits_append, ih (n / 10) (by omega) (by omega), Option.bind_some,
        parseDigits_one bound _ _ (Nat.mod_lt _ (by norm_num)) (by omega)]
      congr 1
      omega

/-- Reading what was written. -/
theorem parse_decimal (bound n : Nat) (h : n < bound) : parse bound (decimal n) = some n := by
  cases hd : decimal n with
  | nil => exact absurd hd (decimal_ne_nil n)
  | cons b bs =>
    have hb := decimal_digits n b (by rw [hd]; exact List.mem_cons_self)
    have : b ≠ 0x2b := by rintro rfl; revert hb; decide
    simp only [parse, if_neg this, reduceCtorEq, if_false]
    rw [← hd]
    exact parseDigits_decimalAux bound _ n (by omega) h

theorem split_single (c : UInt8) (a : Bytes) (h : c ∉ a) : split c a = [a] := by
  induction a with
  | nil => rfl
  | cons b bs ih =>
    simp only [List.mem_cons, not_or] at h
    rw [split, if_neg (Ne.symm h.1), ih h.2]

theorem split_append (c : UInt8) (a b : Bytes) (h : c ∉ a) : split c (a ++ c :: b) = a :: split c b := by
  induction a with
  | nil => simp [split]
  | cons x xs ih =>
    simp only [List.mem_cons, not_or] at h
    rw [List.cons_append, split, if_neg (Ne.symm h.1), ih h.2]

theorem comma_decimal (n : Nat) : (0x2c : UInt8) ∉ decimal n := fun h => by
  have := decimal_digits n _ h; revert this; decide

theorem eq_decimal (n : Nat) : (0x3d : UInt8) ∉ decimal n := fun h => by
  have := decimal_digits n _ h; revert this; decide

/-- The parts of the string. -/
theorem split_toPs (x : Params) :
    split 0x2c (toPs x) = [ascii "ln=" ++ decimal x.logN, ascii "r=" ++ decimal x.r, ascii "p=" ++ decimal x.p] := by
  have h : toPs x = (ascii "ln=" ++ decimal x.logN) ++ 0x2c :: ((ascii "r=" ++ decimal x.r) ++ 0x2c ::
      (ascii "p=" ++ decimal x.p)) := by
    simp only [toPs, show ascii ",r=" = 0x2c :: ascii "r=" by decide, show ascii ",p=" = 0x2c :: ascii "p=" by decide,
      List.append_assoc, List.cons_append]
  have hc : ∀ s : Bytes, (0x2c : UInt8) ∉ s → ∀ n, (0x2c : UInt8) ∉ s ++ decimal n := fun s hs n => by
    simp only [List.mem_append, not_or]; exact ⟨hs, comma_decimal n⟩
  rw [h, split_append _ _ _ (hc _ (by decide) _), split_append _ _ _ (hc _ (by decide) _),
    split_single _ _ (hc _ (by decide) _)]

theorem split_pair (name : Bytes) (n : Nat) (h : (0x3d : UInt8) ∉ name) :
    split 0x3d (name ++ 0x3d :: decimal n) = [name, decimal n] := by
  rw [split_append _ _ _ h, split_single _ _ (eq_decimal n)]

theorem split_pairs (n : Nat) :
    split 0x3d (ascii "ln=" ++ decimal n) = [ascii "ln", decimal n] ∧
    split 0x3d (ascii "r=" ++ decimal n) = [ascii "r", decimal n] ∧
    split 0x3d (ascii "p=" ++ decimal n) = [ascii "p", decimal n] :=
  ⟨split_pair (ascii "ln") n (by decide), split_pair (ascii "r") n (by decide), split_pair (ascii "p") n (by decide)⟩

theorem toPs_ne_nil (x : Params) : toPs x ≠ [] := by
  simp [toPs, decimal_ne_nil]

theorem getStr_toPs (x : Params) :
    getStr (ascii "ln") (toPs x) = some (decimal x.logN) ∧ getStr (ascii "r") (toPs x) = some (decimal x.r) ∧
    getStr (ascii "p") (toPs x) = some (decimal x.p) := by
  have h := fun n => split_pairs n
  refine ⟨?_, ?_, ?_⟩ <;>
  · rw [getStr, if_neg (toPs_ne_nil x), split_toPs]
    simp only [getFrom, (h _).1, (h _).2.1, (h _).2.2]
    try rw [if_neg (by decide)]
    try rw [if_neg (by decide)]
    simp

end Verif.Aucpace.Scrypt
