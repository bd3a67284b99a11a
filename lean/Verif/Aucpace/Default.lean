import Verif.Basic.ScryptSpec
import Verif.Aucpace.Scrypt
import Verif.Ristretto.Elligator

/-!
# The default instantiation

`Client` and `Server` of aucpace/src/lib.rs:111-117: SHA-512, scrypt and nonces of 16 bytes over ristretto255. `OsRng` stays
an arbitrary generator. The `PasswordHasher` of scrypt 0.11.0 is not part of the repository and its source was not at hand;
its behaviour is an assumption, listed in DESIGN.md.
-/

namespace Verif.Base64

theorem enc6_dec6_fin : ∀ i : Fin 256, ∀ n, dec6 (UInt8.ofFin i) = some n → n < 64 ∧ enc6 n = UInt8.ofFin i := by
  have h : ∀ i : Fin 256, ((dec6 (UInt8.ofFin i)).all fun n => decide (n < 64 ∧ enc6 n = UInt8.ofFin i)) = true := by
    decide +kernel
  intro i n hn
  have := h i
  rw [hn] at this
  simpa using this

theorem enc6_dec6 {c : UInt8} {n : Nat} (h : dec6 c = some n) : n < 64 ∧ enc6 n = c := enc6_dec6_fin c.toFin n h

theorem toNat_ofNat {n : Nat} (h : n < 256) : (UInt8.ofNat n).toNat = n := by rw [UInt8.toNat_ofNat']; omega

/-- Only encodings can be decoded. -/
theorem encode_decode {s x : Bytes} (h : decode s = some x) : encode x = s := by
  induction s using decode.induct generalizing x with
  | case1 => simp only [decode, Option.some.injEq] at h; subst h; rfl
  | case2 => simp [decode] at h
  | case3 w' x' =>
    simp only [decode, Option.bind_eq_bind, Option.bind_eq_some_iff] at h
    obtain ⟨w, hw, y, hy, h⟩ := h
    obtain ⟨hw1, hw2⟩ := enc6_dec6 hw
    obtain ⟨hy1, hy2⟩ := enc6_dec6 hy
    split at h
    · simp only [Option.some.injEq] at h
      subst h
      simp only [encode]
      rw [toNat_ofNat (by omega), show (w * 4 + y / 16) / 4 = w by omega, show (w * 4 + y / 16) % 4 * 16 = y by omega, hw2, hy2]
    · simp at h
  | case4 w' x' y' =>
    simp only [decode, Option.bind_eq_bind, Option.bind_eq_some_iff] at h
    obtain ⟨w, hw, y, hy, z, hz, h⟩ := h
    obtain ⟨hw1, hw2⟩ := enc6_dec6 hw
    obtain ⟨hy1, hy2⟩ := enc6_dec6 hy
    obtain ⟨hz1, hz2⟩ := enc6_dec6 hz
    split at h
    · simp only [Option.some.injEq] at h
      subst h
      simp only [encode]
      rw [toNat_ofNat (by omega), toNat_ofNat (by omega), show (w * 4 + y / 16) / 4 = w by omega,
        show (w * 4 + y / 16) % 4 * 16 + (y % 16 * 16 + z / 4) / 16 = y by omega,
        show (y % 16 * 16 + z / 4) % 16 * 4 = z by omega, hw2, hy2, hz2]
    · simp at h
  | case5 w' x' y' z' rest ih =>
    simp only [decode, Option.bind_eq_bind, Option.bind_eq_some_iff] at h
    obtain ⟨w, hw, y, hy, z, hz, v, hv, t, ht, h⟩ := h
    obtain ⟨hw1, hw2⟩ := enc6_dec6 hw
    obtain ⟨hy1, hy2⟩ := enc6_dec6 hy
    obtain ⟨hz1, hz2⟩ := enc6_dec6 hz
    obtain ⟨hv1, hv2⟩ := enc6_dec6 hv
    simp only [Option.some.injEq] at h
    subst h
    simp only [encode, ih ht]
    rw [toNat_ofNat (by omega), toNat_ofNat (by omega), toNat_ofNat (by omega), show (w * 4 + y / 16) / 4 = w by omega,
      show (w * 4 + y / 16) % 4 * 16 + (y % 16 * 16 + z / 4) / 16 = y by omega,
      show (y % 16 * 16 + z / 4) % 16 * 4 + (z % 4 * 64 + v) / 64 = z by omega,
      show (z % 4 * 64 + v) % 64 = v by omega, hw2, hy2, hz2, hv2]

end Verif.Base64

namespace Verif.Aucpace.Scrypt

/-- `Scrypt::hash_password_customized(password, None, None, params, salt)`, reduced to the `hash` field: the salt is decoded
(`Salt::decode_b64`) and the output has `params.len` bytes (`Output::init_with`). -/
def hash (password : Bytes) (x : Params) (salt : Bytes) : Except PhError (Option Bytes) :=
  match Base64.decode salt with
  | none => .error .b64Encoding
  | some s => .ok (some (_root_.Verif.Scrypt.scrypt password s x.logN x.r x.p x.len))

/-- `scrypt::Scrypt`, the `H` of `Client`, aucpace/src/lib.rs:117. -/
def scryptHasher : PwHasher Params := hasher hash

/-- `Params::new(..).is_ok()`. -/
def new (x : Params) : Bool := _root_.Verif.Scrypt.paramsNew x.logN x.r x.p x.len

/-- What remains of the password in HMAC-SHA256 (RFC 2104): the block that is combined with the two pads. -/
def keyBlock (password : Bytes) : Bytes :=
  if 64 < password.length then sha256.hash password ++ List.replicate 32 0
  else password ++ List.replicate (64 - password.length) 0

/-- What the last pass of `scrypt` authenticates for the first block of the output. -/
def lastMessage (password salt : Bytes) (x : Params) : Bytes :=
  _root_.Verif.Scrypt.roMixChunks x.r (1 <<< x.logN) x.p
    (_root_.Verif.Scrypt.pbkdf2 password salt (x.p * (128 * x.r))) ++ [0, 0, 0, 1]

end Verif.Aucpace.Scrypt
