import Verif.Aucpace.Default
import Verif.Aucpace.PropsScrypt
import Verif.Aucpace.PropsAgree

/-!
# C87, C88, C89: scrypt and the default instantiation
-/

set_option linter.unusedSectionVars false

namespace Verif.Aucpace.Scrypt
open Spec Run

/-! ## C87: scrypt -/

/-- **C87.** For every password, salt and parameters with `log_n ≤ 32` the crate computes the function of RFC 7914, and the
output has the requested length. -/
theorem C87_scrypt (password salt : Bytes) (logN r p len : Nat) (h : logN ≤ 32) :
    _root_.Verif.Scrypt.scrypt password salt logN r p len = ScryptSpec.scrypt password salt (2 ^ logN) r p len ∧
    (_root_.Verif.Scrypt.scrypt password salt logN r p len).length = len := by
  refine ⟨ScryptSpec.scrypt_eq password salt logN r p len h, ?_⟩
  rw [_root_.Verif.Scrypt.scrypt, ScryptSpec.pbkdf2_eq]
  exact ScryptSpec.pbkdf2_length _ _ _

/-- **C87 (large `N`).** `log_n ≤ 32` is needed: `integerify` reads four bytes, so for every larger `log_n` there is a state for
which it is not `Integerify(X) mod N`. -/
theorem C87_integerify (logN : Nat) :
    (∀ x : List Bytes, _root_.Verif.Scrypt.integerify x (2 ^ logN) = leToNat (x.getLastD []) % 2 ^ logN) ↔ logN ≤ 32 := by
  refine ⟨fun h => ?_, fun h x => ScryptSpec.integerify_eq x logN h⟩
  by_contra hc
  have h1 := h [[0, 0, 0, 0, 1]]
  have h2 : _root_.Verif.Scrypt.integerify [[0, 0, 0, 0, 1]] (2 ^ logN) = 0 := by
    rw [_root_.Verif.Scrypt.integerify, show leToNat ((([[0, 0, 0, 0, 1]] : List Bytes).getD
      (([[0, 0, 0, 0, 1]] : List Bytes).length - 1) []).take 4) = 0 by decide]
    exact Nat.zero_and _
  have h3 : leToNat ((([[0, 0, 0, 0, 1]] : List Bytes)).getLastD []) = 2 ^ 32 := by decide
  rw [h2, h3, Nat.mod_eq_of_lt (Nat.pow_lt_pow_right (by norm_num) (by omega))] at h1
  norm_num at h1

/-- **C87 (parameters).** `Params::new` accepts exactly the parameters that satisfy the conditions of RFC 7914 section 6 on
`N`, `r` and `p` (except that `N = 1` is accepted too), for which `128 * r * N` fits in 64 bits, with an output of 10 to
64 bytes. -/
theorem C87_params (logN r p len : Nat) :
    _root_.Verif.Scrypt.paramsNew logN r p len = true ↔
      (0 < r ∧ 0 < p ∧ 2 ^ logN < 2 ^ (128 * r / 8) ∧ p ≤ (2 ^ 32 - 1) * 32 / (128 * r)) ∧
      128 * r * 2 ^ logN < 2 ^ 64 ∧ 10 ≤ len ∧ len ≤ 64 := by
  rw [_root_.Verif.Scrypt.paramsNew, decide_eq_true_eq, Nat.pow_lt_pow_iff_right (by norm_num)]
  rcases Nat.eq_zero_or_pos r with rfl | hr
  · simp
  have e1 : p ≤ (2 ^ 32 - 1) * 32 / (128 * r) ↔ r * p < 0x40000000 := by
    rw [Nat.le_div_iff_mul_le (by omega), show p * (128 * r) = 128 * (r * p) by ring]
    omega
  have e2 : 128 * r / 8 = r * 16 := by omega
  have e3 : r * 128 * p = 128 * (r * p) := by ring
  have e4 : 0 < p → r ≤ r * p := fun hp => Nat.le_mul_of_pos_right r hp
  have e5 : 128 * r * 2 ^ logN < 2 ^ 64 → logN < 64 := fun h => by
    have : 2 ^ logN < 2 ^ 64 := lt_of_le_of_lt (Nat.le_mul_of_pos_left _ (by omega)) h
    exact (Nat.pow_lt_pow_iff_right (by norm_num)).1 this
  rw [e1, e2, e3, Nat.mul_comm r 128]
  constructor
  · rintro ⟨h1, h2, h3, h4, h5, h6, h7, h8, h9, h10⟩
    exact ⟨⟨h1, h2, h9, h10⟩, h7, h4, h5⟩
  · rintro ⟨⟨h1, h2, h9, h10⟩, h7, h4, h5⟩
    have := e4 h2
    exact ⟨h1, h2, e5 h7, h4, h5, by omega, h7, by omega, h9, h10⟩

set_option Elab.async false in
/-- The Salsa20/8 vector of RFC 7914 section 8. -/
example : _root_.Verif.Scrypt.salsa
    [0x7e, 0x87, 0x9a, 0x21, 0x4f, 0x3e, 0xc9, 0x86, 0x7c, 0xa9, 0x40, 0xe6, 0x41, 0x71, 0x8f, 0x26,
     0xba, 0xee, 0x55, 0x5b, 0x8c, 0x61, 0xc1, 0xb5, 0x0d, 0xf8, 0x46, 0x11, 0x6d, 0xcd, 0x3b, 0x1d,
     0xee, 0x24, 0xf3, 0x19, 0xdf, 0x9b, 0x3d, 0x85, 0x14, 0x12, 0x1e, 0x4b, 0x5a, 0xc5, 0xaa, 0x32,
     0x76, 0x02, 0x1d, 0x29, 0x09, 0xc7, 0x48, 0x29, 0xed, 0xeb, 0xc6, 0x8d, 0xb8, 0xb8, 0xc2, 0x5e] =
    [0xa4, 0x1f, 0x85, 0x9c, 0x66, 0x08, 0xcc, 0x99, 0x3b, 0x81, 0xca, 0xcb, 0x02, 0x0c, 0xef, 0x05,
     0x04, 0x4b, 0x21, 0x81, 0xa2, 0xfd, 0x33, 0x7d, 0xfd, 0x7b, 0x1c, 0x63, 0x96, 0x68, 0x2f, 0x29,
     0xb4, 0x39, 0x31, 0x68, 0xe3, 0xc9, 0xe6, 0xbc, 0xfe, 0x6b, 0xc5, 0xb7, 0xa0, 0x6d, 0x96, 0xba,
     0xe4, 0x24, 0xcc, 0x10, 0x2c, 0x91, 0x74, 0x5c, 0x24, 0xad, 0x67, 0x3d, 0xc7, 0x61, 0x8f, 0x81] := by
  rw [ScryptSpec.salsa_eq]
  decide +kernel

/-- The first scrypt vector of RFC 7914 section 12. -/
example : _root_.Verif.Scrypt.scrypt [] [] 4 1 1 64 =
    beFixed 64 0x77d6576238657b203b19ca42c18a0497f16b4844e3074ae8dfdffa3fede21442fcd0069ded0948f8326a753a0fc81f17e8d3e0fb2e0d3628cf35e20c38d18906 := by
  rw [(C87_scrypt [] [] 4 1 1 64 (by norm_num)).1]
  decide +kernel

/-- The recommended parameters are accepted, and so is `N = 1`. -/
example : new recommended = true ∧ new ⟨0, 1, 1, 32⟩ = true ∧ new ⟨17, 8, 1, 9⟩ = false ∧ new ⟨16, 1, 1, 32⟩ = false := by
  decide

/-! ## C88: the default client and server -/

/-- The scalar of the default client. -/
theorem pwScalar_scrypt (user pass raw : Bytes) (x : Params) (hN : x.logN ≤ 32) (hl : x.len = 32 ∨ x.len = 64) :
    pwScalar scryptHasher user pass (Base64.encode raw) x =
      .ok ((leToNat (ScryptSpec.scrypt (user ++ ascii ":" ++ pass) raw (2 ^ x.logN) x.r x.p x.len) : Nat) : Scalar) := by
  obtain ⟨h1, h2⟩ := C87_scrypt (user ++ ascii ":" ++ pass) raw x.logN x.r x.p x.len hN
  simp only [pwScalar, scryptHasher, hasher, hash, Base64.decode_encode, userPass]
  have e : ascii ":" = [58] := by decide
  rw [e] at h1 h2 ⊢
  rw [h1] at h2 ⊢
  rw [if_pos (by rw [h2]; exact hl)]

section
variable {σc σs σr : Type} (rngC : Rng σc) (rngS : Rng σs) (rngR : Rng σr)

/-- **C88 (parameters).** The parameters that the example programs and the tests accept are those of `C87_params`. -/
theorem C88_new (x : Params) :
    new x = true ↔
      (0 < x.r ∧ 0 < x.p ∧ 2 ^ x.logN < 2 ^ (128 * x.r / 8) ∧ x.p ≤ (2 ^ 32 - 1) * 32 / (128 * x.r)) ∧
      128 * x.r * 2 ^ x.logN < 2 ^ 64 ∧ 10 ≤ x.len ∧ x.len ≤ 64 :=
  C87_params x.logN x.r x.p x.len

/-- **C88 (registration).** The default client's registration never fails if the output length is 32 or 64 and the buffer is
large enough: it sends the encoded salt, the parameters and the multiple of the base point whose factor is scrypt of
`username:password` and the salt, read in little-endian. -/
theorem C88_register (buf : Buf) (s : σr) (user pass : Bytes) (x : Params) (hfit : buf.fits user pass) (hN : x.logN ≤ 32)
    (hl : x.len = 32 ∨ x.len = 64) :
    Run.register Verif.Ristretto.ristretto255 scryptHasher rngR buf s user pass x =
      let salt := (rngR.fill s 16).1
      .ok (.registration user (Base64.encode salt) (toPs x)
        (((leToNat (ScryptSpec.scrypt (user ++ ascii ":" ++ pass) salt (2 ^ x.logN) x.r x.p x.len) : Nat) : Scalar) •
          Verif.Ristretto.ristretto255.base), (rngR.fill s 16).2) := by
  rw [register_eq, if_pos hfit, pwScalar_scrypt _ _ _ _ hN hl]
  rfl

/-- **C88 (strong registration).** The same with the salt of the strong variant: the encoding of a random multiple of the point
of the credentials. -/
theorem C88_register_strong (buf : Buf) (s : σr) (user pass : Bytes) (x : Params) (hfit : buf.fits user pass)
    (hN : x.logN ≤ 32) (hl : x.len = 32 ∨ x.len = 64) :
    Run.registerStrong Verif.Ristretto.ristretto255 sha512 scryptHasher rngR buf s user pass x =
      let q := draw (rngR.fill s 64).1
      let salt := Verif.Ristretto.ristretto255.compress (q • strongPoint Verif.Ristretto.ristretto255 sha512 user pass)
      .ok (.strongRegistration user q (toPs x)
        (((leToNat (ScryptSpec.scrypt (user ++ ascii ":" ++ pass) salt (2 ^ x.logN) x.r x.p x.len) : Nat) : Scalar) •
          Verif.Ristretto.ristretto255.base), (rngR.fill s 64).2) := by
  rw [registerStrong_eq, if_pos hfit]
  simp only [pwScalar_scrypt _ _ _ _ hN hl]
  rfl

/-- **C88 (other lengths).** With another output length every registration fails with `HashSizeInvalid`. -/
theorem C88_other_length (buf : Buf) (s : σr) (user pass : Bytes) (x : Params) (hfit : buf.fits user pass)
    (hl : ¬ (x.len = 32 ∨ x.len = 64)) :
    Run.register Verif.Ristretto.ristretto255 scryptHasher rngR buf s user pass x = .err .hashSizeInvalid ∧
    Run.registerStrong Verif.Ristretto.ristretto255 sha512 scryptHasher rngR buf s user pass x = .err .hashSizeInvalid := by
  have h : ∀ raw, pwScalar scryptHasher user pass (Base64.encode raw) x = .err .hashSizeInvalid := by
    intro raw
    simp only [pwScalar, scryptHasher, hasher, hash, Base64.decode_encode]
    rw [if_neg]
    rw [_root_.Verif.Scrypt.scrypt, ScryptSpec.pbkdf2_eq, ScryptSpec.pbkdf2_length]
    exact hl
  rw [register_eq, registerStrong_eq, if_pos hfit, if_pos hfit]
  simp only [h]
  exact ⟨rfl, rfl⟩

/-- **C88 (login).** Whatever was registered by the default client with parameters of the recommended length that `Params::new`
accepts, a later login with the same credentials ends with the same key of 64 bytes on both sides or with
`IllegalPointError`; the parameters are read back from their string as the example programs do. -/
theorem C88_login (bufR buf : Buf) (s : σr) (user pass : Bytes) (x : Params) (hx : x.InRange) (hN : x.logN ≤ 32)
    (hn : new x = true) (hl : x.len = 32) (hfitR : bufR.fits user pass) (hfit : buf.fits user pass)
    (db : Database Verif.Ristretto.RPoint)
    (hdb : ∀ salt ps W s', Run.register Verif.Ristretto.ristretto255 scryptHasher rngR bufR s user pass x =
      .ok (.registration user salt ps W, s') → db.lookupVerifier user = some (W, salt, ps))
    (kdb : Option (PartialAugDatabase Verif.Ristretto.RPoint))
    (hk : ∀ k, kdb = some k → ∃ x, k.lookupLongTermKeypair user = some (x, x • Verif.Ristretto.ristretto255.base))
    (ci : Bytes) (c c' : σc) (sv : Server.State σs) (sr : σs) :
    let login := Run.login Verif.Ristretto.ristretto255 sha512 scryptHasher rngC rngS
      (Run.explicit Verif.Ristretto.ristretto255 sha512 rngC rngS) (fun ps => (fromPs new ps).getD recommended) buf db kdb
      (.nonces 16) user pass ci c sv sr c'
    (∃ k : Bytes, k.length = 64 ∧ login = .ok (k, k)) ∨ login = .err .illegalPointError := by
  have hreg := C88_register rngR bufR s user pass x hfitR hN (Or.inl hl)
  have hps : fromPs new (toPs x) = some x := by
    have := (C80_round_trip new x hx (by rw [← hl]; exact hn)).1
    rwa [← hl] at this
  exact C32_same_key Verif.Ristretto.ristretto255 sha512 scryptHasher rngC rngS rngR rfl bufR buf s _ user pass _ _ x _
    hreg db (hdb _ _ _ _ hreg) kdb hk (fun ps => (fromPs new ps).getD recommended) (by rw [hps]; rfl) hfit (.nonces 16)
    trivial ci c c' sv sr

/-- **C88 (strong login).** -/
theorem C88_login_strong (bufR buf : Buf) (s : σr) (user pass : Bytes) (x : Params) (hx : x.InRange) (hN : x.logN ≤ 32)
    (hn : new x = true) (hl : x.len = 32) (hfitR : bufR.fits user pass) (hfit : buf.fits user pass)
    (db : StrongDatabase Verif.Ristretto.RPoint)
    (hdb : ∀ q ps W s', Run.registerStrong Verif.Ristretto.ristretto255 sha512 scryptHasher rngR bufR s user pass x =
      .ok (.strongRegistration user q ps W, s') → db.lookupVerifierStrong user = some (W, q, ps))
    (kdb : Option (PartialAugDatabase Verif.Ristretto.RPoint))
    (hk : ∀ k, kdb = some k → ∃ x, k.lookupLongTermKeypair user = some (x, x • Verif.Ristretto.ristretto255.base))
    (ci : Bytes) (r : Scalar) (hr : r ≠ 0) (c c' : σc) (sv : Server.State σs) (sr : σs) :
    let login := Run.loginStrong Verif.Ristretto.ristretto255 sha512 scryptHasher rngC rngS
      (Run.explicit Verif.Ristretto.ristretto255 sha512 rngC rngS) (fun ps => (fromPs new ps).getD recommended) buf db kdb
      (.nonces 16) user pass ci r c sv sr c'
    (∃ k : Bytes, k.length = 64 ∧ login = .ok (k, k)) ∨ login = .err .illegalPointError := by
  have hreg := C88_register_strong rngR bufR s user pass x hfitR hN (Or.inl hl)
  have hps : fromPs new (toPs x) = some x := by
    have := (C80_round_trip new x hx (by rw [← hl]; exact hn)).1
    rwa [← hl] at this
  exact C33_same_key Verif.Ristretto.ristretto255 sha512 scryptHasher rngC rngS rngR rfl bufR buf s _ user pass _ x _ _
    hreg db (hdb _ _ _ _ hreg) kdb hk (fun ps => (fromPs new ps).getD recommended) (by rw [hps]; rfl) hfit (.nonces 16)
    trivial ci r hr c c' sv sr

/-- **C88 (what a server can send).** Whatever the server sends as `X` and salt, the default client refuses the neutral element,
refuses a salt that is not the encoding of some bytes with a password-hashing error, and otherwise goes on with
scrypt of the decoded salt. -/
theorem C88_client (buf : Buf) (cli : Client.AugLayer) (X : Verif.Ristretto.RPoint) (salt : Bytes) (x : Params)
    (hfit : buf.fits cli.username cli.password) (hN : x.logN ≤ 32) (hl : x.len = 32) (hX : X ≠ 0) :
    (∀ raw, salt = Base64.encode raw →
      Run.clientCpace Verif.Ristretto.ristretto255 scryptHasher buf cli X salt x =
        .ok ⟨cli.ssid, Verif.Ristretto.ristretto255.compress (((leToNat (ScryptSpec.scrypt
          (cli.username ++ ascii ":" ++ cli.password) raw (2 ^ x.logN) x.r x.p 32) : Nat) : Scalar) • X)⟩) ∧
    ((∀ raw, salt ≠ Base64.encode raw) →
      Run.clientCpace Verif.Ristretto.ristretto255 scryptHasher buf cli X salt x =
        .err (.passwordHashing .b64Encoding)) ∧
    Run.clientCpace Verif.Ristretto.ristretto255 scryptHasher buf cli 0 salt x = .err .illegalPointError := by
  refine ⟨?_, ?_, ?_⟩
  · rintro raw rfl
    rw [clientCpace_eq, if_neg hX, if_pos hfit, pwScalar_scrypt _ _ _ _ hN (Or.inl hl), hl]
    rfl
  · intro h
    have hd : Base64.decode salt = none := by
      cases hd : Base64.decode salt with
      | none => rfl
      | some raw => exact absurd (Base64.encode_decode hd).symm (h raw)
    rw [clientCpace_eq, if_neg hX, if_pos hfit]
    simp only [pwScalar, scryptHasher, hasher, hash, hd]
    rfl
  · rw [clientCpace_eq, if_pos rfl]

end

/-- There is a database as assumed in `C88_login`. -/
example {σ : Type} (rng : Rng σ) (s : σ) (user pass : Bytes) : ∃ db : Database Verif.Ristretto.RPoint, ∀ salt ps W s',
    Run.register Verif.Ristretto.ristretto255 scryptHasher rng .alloc s user pass recommended =
      .ok (.registration user salt ps W, s') → db.lookupVerifier user = some (W, salt, ps) := by
  have h0 := C88_register rng .alloc s user pass recommended trivial (by decide) (by decide)
  dsimp only at h0
  generalize ((leToNat _ : Nat) : Scalar) • Verif.Ristretto.ristretto255.base = W at h0
  refine ⟨⟨fun _ => some (W, Base64.encode (rng.fill s 16).1, toPs recommended)⟩, fun salt ps W' s' h => ?_⟩
  rw [h0] at h
  simp only [Res.ok.injEq, Prod.mk.injEq, ClientMessage.registration.injEq] at h
  obtain ⟨⟨_, rfl, rfl, rfl⟩, _⟩ := h
  rfl

/-- The recommended parameters meet the hypotheses. -/
example : recommended.InRange ∧ recommended.logN ≤ 32 ∧ new recommended = true ∧ recommended.len = 32 := by
  unfold Params.InRange
  decide

/-! ## C89: passwords that are the same for the default client -/

theorem keyBlock_length (P : Bytes) : (keyBlock P).length = 64 := by
  rw [keyBlock]
  split
  · rw [List.length_append, sha256.hash_length, List.length_replicate]; rfl
  · rw [List.length_append, List.length_replicate]; omega

/-- HMAC uses the key only through the block. -/
theorem hmac_keyBlock (P m : Bytes) : hmac sha256 64 P m =
    sha256.hash ((keyBlock P).map (· ^^^ 0x5c) ++ sha256.hash ((keyBlock P).map (· ^^^ 0x36) ++ m)) := by
  have h : (let k := if P.length > 64 then sha256.hash P else P
      k ++ List.replicate (64 - k.length) 0) = keyBlock P := by
    simp only [keyBlock]
    by_cases hP : 64 < P.length
    · rw [if_pos hP, if_pos hP, sha256.hash_length, show sha256.outLen = 32 from rfl]
    · rw [if_neg hP, if_neg hP]
  rw [← h]
  rfl

theorem pbkdf2_keyBlock (P Q S : Bytes) (len : Nat) (h : keyBlock P = keyBlock Q) :
    _root_.Verif.Scrypt.pbkdf2 P S len = _root_.Verif.Scrypt.pbkdf2 Q S len := by
  have : ∀ m, hmac sha256 64 P m = hmac sha256 64 Q m := fun m => by rw [hmac_keyBlock, hmac_keyBlock, h]
  simp only [ScryptSpec.pbkdf2_eq, ScryptSpec.pbkdf2, this]

/-- **C89 (same block).** Passwords with the same HMAC block have the same scrypt output. -/
theorem C89_same (P Q S : Bytes) (logN r p len : Nat) (h : keyBlock P = keyBlock Q) :
    _root_.Verif.Scrypt.scrypt P S logN r p len = _root_.Verif.Scrypt.scrypt Q S logN r p len := by
  simp only [_root_.Verif.Scrypt.scrypt, pbkdf2_keyBlock P Q _ _ h]

theorem first_block (P S : Bytes) (x : Params) (h : 32 ≤ x.len) :
    (_root_.Verif.Scrypt.scrypt P S x.logN x.r x.p x.len).take 32 = hmac sha256 64 P (lastMessage P S x) := by
  obtain ⟨k, hk⟩ : ∃ k, (x.len + 31) / 32 = k + 1 := ⟨(x.len + 31) / 32 - 1, by omega⟩
  rw [_root_.Verif.Scrypt.scrypt, lastMessage]
  generalize _root_.Verif.Scrypt.roMixChunks _ _ _ _ = b
  rw [_root_.Verif.Scrypt.pbkdf2, hk, _root_.Verif.Scrypt.pbkdf2Blocks, List.take_take, Nat.min_eq_left h,
    List.take_append_of_le_length (by rw [hmac_length]; exact le_of_eq rfl),
    List.take_of_length_le (by rw [hmac_length]; exact le_of_eq rfl)]
  rfl

/-- **C89 (only these).** Conversely, if two passwords have the same output of at least 32 bytes, whatever the salts and the other
parameters, then their HMAC blocks are the same or two different inputs of SHA-256 with the same value are named. -/
theorem C89_only (P Q S T : Bytes) (x y : Params) (hx : 32 ≤ x.len) (hy : 32 ≤ y.len)
    (h : (_root_.Verif.Scrypt.scrypt P S x.logN x.r x.p x.len).take 32 =
      (_root_.Verif.Scrypt.scrypt Q T y.logN y.r y.p y.len).take 32) :
    keyBlock P = keyBlock Q ∨ sha256.Collision
      ((keyBlock P).map (· ^^^ 0x5c) ++ sha256.hash ((keyBlock P).map (· ^^^ 0x36) ++ lastMessage P S x))
      ((keyBlock Q).map (· ^^^ 0x5c) ++ sha256.hash ((keyBlock Q).map (· ^^^ 0x36) ++ lastMessage Q T y)) := by
  rw [first_block P S x hx, first_block Q T y hy, hmac_keyBlock, hmac_keyBlock] at h
  by_cases hk : keyBlock P = keyBlock Q
  · exact Or.inl hk
  · refine Or.inr ⟨fun hc => hk ?_, h⟩
    have := (List.append_inj hc (by simp [keyBlock_length])).1
    refine List.map_injective_iff.2 (fun a b hab => ?_) this
    have := congrArg (· ^^^ (0x5c : UInt8)) hab
    simpa [UInt8.xor_assoc] using this

/-- **C89 (short passwords).** Two strings of at most 64 bytes have the same block exactly if one is the other with zero bytes at
the end. -/
theorem C89_zeros (P Q : Bytes) (hP : P.length ≤ 64) (hQ : Q.length ≤ 64) :
    keyBlock P = keyBlock Q ↔ ∃ n, Q = P ++ List.replicate n 0 ∨ P = Q ++ List.replicate n 0 := by
  rw [keyBlock, keyBlock, if_neg (by omega), if_neg (by omega)]
  constructor
  · intro h
    rcases Nat.le_total P.length Q.length with hl | hl
    · refine ⟨Q.length - P.length, Or.inl ?_⟩
      have := congrArg (List.take Q.length) h.symm
      rw [List.take_left', List.take_append, List.take_of_length_le hl, List.take_replicate,
        Nat.min_eq_left (by omega)] at this
      · exact this
      · rfl
    · refine ⟨P.length - Q.length, Or.inr ?_⟩
      have := congrArg (List.take P.length) h
      rw [List.take_left', List.take_append, List.take_of_length_le hl, List.take_replicate,
        Nat.min_eq_left (by omega)] at this
      · exact this
      · rfl
  · rintro ⟨n, rfl | rfl⟩
    · rw [List.append_assoc, ← List.replicate_add, List.length_append, List.length_replicate]
      rw [List.length_append, List.length_replicate] at hQ
      rw [show n + (64 - (P.length + n)) = 64 - P.length by omega]
    · rw [List.append_assoc, ← List.replicate_add, List.length_append, List.length_replicate]
      rw [List.length_append, List.length_replicate] at hP
      rw [show n + (64 - (Q.length + n)) = 64 - Q.length by omega]

/-- **C89 (long passwords).** A string of more than 64 bytes has the same output as its SHA-256 hash. -/
theorem C89_long (P S : Bytes) (logN r p len : Nat) (hP : 64 < P.length) :
    _root_.Verif.Scrypt.scrypt P S logN r p len = _root_.Verif.Scrypt.scrypt (sha256.hash P) S logN r p len := by
  refine C89_same _ _ _ _ _ _ _ ?_
  have hl : (sha256.hash P).length = 32 := sha256.hash_length P
  rw [keyBlock, keyBlock, if_pos hP, if_neg (by omega), hl]

section
variable {σc σs : Type} (rngC : Rng σc) (rngS : Rng σs)

/-- **C89 (another password logs in).** If `username:password` with `n` zero bytes at the end has at most 64 bytes, the default
client's login with these zero bytes behaves in every respect as the login without them, whatever the databases contain: a
different password is accepted. -/
theorem C89_login (user pass : Bytes) (n : Nat) (hlen : user.length + pass.length + n < 64) (fromParams : Bytes → Params)
    (db : Database Verif.Ristretto.RPoint) (kdb : Option (PartialAugDatabase Verif.Ristretto.RPoint)) (start : Start)
    (auth : Client.CPaceSubstep → Server.CPaceSubstep σs → Bytes → Bytes → σc → Res Error (Bytes × Bytes))
    (ci : Bytes) (c c' : σc) (sv : Server.State σs) (sr : σs) :
    Run.login Verif.Ristretto.ristretto255 sha512 scryptHasher rngC rngS auth fromParams .alloc db kdb start user
      (pass ++ List.replicate n 0) ci c sv sr c' =
    Run.login Verif.Ristretto.ristretto255 sha512 scryptHasher rngC rngS auth fromParams .alloc db kdb start user pass ci
      c sv sr c' := by
  have hk : keyBlock (userPass user pass) = keyBlock (userPass user (pass ++ List.replicate n 0)) := by
    rw [C89_zeros]
    · exact ⟨n, Or.inl (by simp [userPass])⟩
    · simp [userPass]; omega
    · simp [userPass]; omega
  have h : ∀ salt x, pwScalar scryptHasher user (pass ++ List.replicate n 0) salt x = pwScalar scryptHasher user pass salt x := by
    intro salt x
    simp only [pwScalar, scryptHasher, hasher, hash]
    cases Base64.decode salt with
    | none => rfl
    | some raw => simp only [C89_same _ _ raw x.logN x.r x.p x.len hk]
  have hc : ∀ ssid X salt x,
      Run.clientCpace Verif.Ristretto.ristretto255 scryptHasher .alloc ⟨ssid, user, pass ++ List.replicate n 0⟩ X salt x =
        Run.clientCpace Verif.Ristretto.ristretto255 scryptHasher .alloc ⟨ssid, user, pass⟩ X salt x := by
    intro ssid X salt x
    rw [clientCpace_eq, clientCpace_eq]
    simp only [h]
    rfl
  simp only [Run.login, Run.augment, Client.startAugmentation, hc]

/-- **C89 (not in the strong variants).** There the salt depends on the password too: zero bytes at the end change the salt, or a
collision of the map to the group is named. -/
theorem C89_strong (user pass : Bytes) (n : Nat) (hn : 0 < n) (q : Scalar) (hq : q ≠ 0) :
    Base64.encode (Verif.Ristretto.ristretto255.compress
        (q • strongPoint Verif.Ristretto.ristretto255 sha512 user (pass ++ List.replicate n 0))) ≠
      Base64.encode (Verif.Ristretto.ristretto255.compress
        (q • strongPoint Verif.Ristretto.ristretto255 sha512 user pass)) ∨
    MapCollision Verif.Ristretto.ristretto255 sha512 (user ++ (pass ++ List.replicate n 0)) (user ++ pass) := by
  by_cases h : strongPoint Verif.Ristretto.ristretto255 sha512 user (pass ++ List.replicate n 0) =
      strongPoint Verif.Ristretto.ristretto255 sha512 user pass
  · refine Or.inr ⟨fun hc => ?_, h⟩
    have := congrArg List.length hc
    simp only [List.length_append, List.length_replicate] at this
    omega
  · refine Or.inl fun hc => h ?_
    have hc := Verif.Ristretto.ristretto255.compress_injective (Base64.encode_injective hc)
    have := congrArg (q⁻¹ • ·) hc
    simpa only [smul_smul, inv_mul_cancel₀ hq, one_smul] using this

end

/-- Two different passwords with the same block. -/
example : keyBlock (ascii "user:pass") = keyBlock (ascii "user:pass" ++ [0]) ∧ ascii "user:pass" ≠ ascii "user:pass" ++ [0] := by
  decide

end Verif.Aucpace.Scrypt
