import Verif.Aucpace.Model
import Verif.Aucpace.Spec

/-!
# Helper lemmas: the model functions in terms of the specification
-/

namespace Verif.Aucpace

variable {G : Type} [AddCommGroup G] [Module Scalar G] (R : Ristretto G) (D : Digest)

open Spec

theorem H0_eq : H 0 = [0, 0, 0, 0] := by decide
theorem H1_eq : H 1 = [1, 0, 0, 0] := by decide
theorem H2_eq : H 2 = [2, 0, 0, 0] := by decide
theorem H3_eq : H 3 = [3, 0, 0, 0] := by decide
theorem H4_eq : H 4 = [4, 0, 0, 0] := by decide
theorem H5_eq : H 5 = [5, 0, 0, 0] := by decide

theorem computeSsid_eq (s t : Bytes) : computeSsid D s t = Spec.ssid D s t := by
  simp [computeSsid, Digest.update, Digest.finalize, H0_eq, Spec.ssid, Hn, inp]

theorem finalize_H0 (x : Bytes) : D.finalize (Digest.update (H 0) x) = Hn D 0 x := by
  simp [Digest.update, Digest.finalize, H0_eq, Hn, inp]

theorem generator_eq (ssid prs ci : Bytes) :
    pointFromHash R D (Digest.update (Digest.update (Digest.update (H 1) ssid) prs) ci) =
      gen R D ssid prs ci := by
  simp [pointFromHash, Digest.update, Digest.finalize, H1_eq, gen, Hn, inp]

theorem strongPoint_eq (user pass : Bytes) :
    pointFromHash R D (Digest.update (Digest.update (H 1) user) pass) =
      strongPoint R D user pass := by
  simp [pointFromHash, Digest.update, Digest.finalize, H1_eq, strongPoint, Hn, inp]

theorem computeFirstSessionKey_eq (ssid : Bytes) (y : Scalar) (Y : G) :
    computeFirstSessionKey R D ssid y Y = Spec.sk1 R D ssid (y • Y) := by
  simp [computeFirstSessionKey, Digest.update, Digest.finalize, H2_eq, Spec.sk1, Hn, inp]

theorem computeAuthenticatorMessages_eq (ssid sk1 : Bytes) :
    computeAuthenticatorMessages D ssid sk1 = (ta D ssid sk1, tb D ssid sk1) := by
  simp [computeAuthenticatorMessages, Digest.update, Digest.finalize, H3_eq, H4_eq, ta, tb, Hn, inp]

theorem computeSessionKey_eq (ssid sk1 : Bytes) : computeSessionKey D ssid sk1 = sk D ssid sk1 := by
  simp [computeSessionKey, Digest.update, Digest.finalize, H5_eq, sk, Hn, inp]

@[simp] theorem Hn_length (n : UInt8) (x : Bytes) : (Hn D n x).length = D.outLen := by simp [Hn]
@[simp] theorem ta_length (a b : Bytes) : (ta D a b).length = D.outLen := by simp [ta]
@[simp] theorem tb_length (a b : Bytes) : (tb D a b).length = D.outLen := by simp [tb]
@[simp] theorem sk_length (a b : Bytes) : (sk D a b).length = D.outLen := by simp [sk]
@[simp] theorem sk1_length (a : Bytes) (K : G) : (Spec.sk1 R D a K).length = D.outLen := by
  simp [Spec.sk1]
@[simp] theorem ssid_length (a b : Bytes) : (Spec.ssid D a b).length = D.outLen := by
  simp [Spec.ssid]

theorem inp_inj {m n : UInt8} {x y : Bytes} : inp m x = inp n y ↔ m = n ∧ x = y := by
  simp [inp]

/-! ### Scalars from password hashes -/

/-- Outcome of `scalar_from_hash` by cases. -/
theorem scalarFromHash_eq (h : Option Bytes) :
    scalarFromHash h =
      match h with
      | none => .err .hashEmpty
      | some b => if b.length = 32 ∨ b.length = 64 then .ok (leToNat b : Scalar)
          else .err .hashSizeInvalid := by
  cases h with
  | none => rfl
  | some b =>
    simp only [scalarFromHash, Res.okOr, Res.bind_ok]
    by_cases h32 : b.length = 32
    · simp [h32, toArray, scalarOfBytes]
    · by_cases h64 : b.length = 64
      · simp [h64, toArray, scalarOfBytes]
      · simp [h32, h64]

/-! ### Password hashing -/

section Password
variable {Params : Type} (Hs : PwHasher Params)

theorem hashPasswordAlloc_eq (user pass salt : Bytes) (params : Params) :
    Client.hashPasswordAlloc Hs user pass salt params =
      mapPh (Hs.hash (userPass user pass) params salt) := by
  have : ascii ":" = [58] := by decide
  simp [Client.hashPasswordAlloc, userPass, this]

theorem hashPassword_eq (bufsiz : Nat) (user pass salt : Bytes) (params : Params) :
    Client.hashPassword Hs bufsiz user pass salt params =
      if user.length + pass.length + 1 > bufsiz then .err .usernameOrPasswordTooLong
      else mapPh (Hs.hash (userPass user pass) params salt) := by
  have hc : ascii ":" = [58] := by decide
  unfold Client.hashPassword
  simp only
  split
  · rfl
  · rename_i h
    replace h := not_lt.1 h
    have e1 : copyInto (List.replicate bufsiz 0) 0 user.length user =
        some (user ++ List.replicate (bufsiz - user.length) 0) := by
      unfold copyInto
      rw [if_pos ⟨Nat.zero_le _, by simp; omega, by simp⟩]
      simp
    have e2 : copyInto (user ++ List.replicate (bufsiz - user.length) 0) user.length
        (user.length + 1) (ascii ":") =
        some (user ++ [58] ++ List.replicate (bufsiz - user.length - 1) 0) := by
      unfold copyInto
      rw [if_pos ⟨by omega, by simp; omega, by simp [hc]⟩]
      simp [hc, List.drop_append]
    have e3 : copyInto (user ++ [58] ++ List.replicate (bufsiz - user.length - 1) 0)
        (user.length + 1) (user.length + pass.length + 1) pass =
        some (user ++ [58] ++ pass ++
          List.replicate (bufsiz - user.length - 1 - pass.length) 0) := by
      unfold copyInto
      rw [if_pos ⟨by omega, by simp; omega, by omega⟩]
      have : List.take (user.length + 1) (user ++ [58] ++ List.replicate (bufsiz - user.length - 1) 0)
          = user ++ [58] := by
        rw [List.take_append]
        simp
      have h2 : user.length + pass.length + 1 - user.length = pass.length + 1 := by omega
      have h3 : List.drop (user.length + pass.length + 1) user = [] :=
        List.drop_eq_nil_of_le (by omega)
      rw [this]
      simp [List.drop_append, h2, h3]
    have e4 : slice (user ++ [58] ++ pass ++
          List.replicate (bufsiz - user.length - 1 - pass.length) 0) 0
          (user.length + pass.length + 1) = some (user ++ [58] ++ pass) := by
      unfold slice
      rw [if_pos ⟨by omega, by simp⟩]
      have hl : user.length + pass.length + 1 = (user ++ [58] ++ pass).length := by
        simp only [List.length_append, List.length_cons, List.length_nil]; omega
      rw [List.drop_zero, Nat.sub_zero, hl, List.take_left]
    simp only [e1, e2, e3, e4, Res.unwrap, Res.bind_ok, userPass]

end Password

/-! ### Salts -/

theorem saltEncode_le {b : Bytes} (h : b.length ≤ 48) :
    Base64.saltEncode b = some (Base64.encode b) := by
  unfold Base64.saltEncode
  rw [if_pos]
  rw [Base64.encode_length]; omega

theorem saltEncode_gt {b : Bytes} (h : 48 < b.length) : Base64.saltEncode b = none := by
  unfold Base64.saltEncode
  rw [if_neg]
  rw [Base64.encode_length]; omega

theorem encodeSalt_compress (P : G) :
    encodeSalt (R.compress P) = .ok (Base64.encode (R.compress P)) := by
  simp [encodeSalt, saltEncode_le (b := R.compress P) (by rw [R.compress_length]; omega)]

theorem generateSalt_eq {ε σ : Type} (rng : Rng σ) (s : σ) :
    (generateSalt rng s : Res ε _) = .ok (Base64.encode (rng.fill s 16).1, (rng.fill s 16).2) := by
  have := saltEncode_le (b := (rng.fill s 16).1) (by simp)
  simp only [generateSalt, this]

/-! ### Scalar multiplication -/

section Smul
variable {R}

theorem smul_base_eq_zero {k : Scalar} : k • R.base = 0 ↔ k = 0 := by
  rw [smul_eq_zero]
  simp [R.base_ne_zero]

theorem smul_base_inj {k m : Scalar} : k • R.base = m • R.base ↔ k = m := by
  rw [← sub_eq_zero, ← sub_smul, smul_base_eq_zero, sub_eq_zero]

end Smul

theorem smul_left_cancel_ne {k : Scalar} (hk : k ≠ 0) {P Q : G} (h : k • P = k • Q) : P = Q := by
  have := congrArg (fun x => k⁻¹ • x) h
  simpa [smul_smul, inv_mul_cancel₀ hk] using this

theorem smul_right_cancel_ne {P : G} (hP : P ≠ 0) {k m : Scalar} (h : k • P = m • P) : k = m := by
  rw [← sub_eq_zero, ← sub_smul, smul_eq_zero] at h
  rcases h with h | h
  · exact sub_eq_zero.1 h
  · exact absurd h hP

/-! ### Keys -/

section Keys
variable {σ : Type} (rng : Rng σ)

theorem generateKeypair_eq (s : σ) (ssid prs ci : Bytes) :
    generateKeypair R D rng s ssid prs ci =
      ((draw (rng.fill s 64).1, draw (rng.fill s 64).1 • gen R D ssid prs ci),
        (rng.fill s 64).2) := by
  simp [generateKeypair, randomScalar, generator_eq, draw, scalarOfBytes]

theorem generateServerKeypair_eq (s : σ) :
    generateServerKeypair R rng s =
      ((draw (rng.fill s 64).1, draw (rng.fill s 64).1 • R.base), (rng.fill s 64).2) := by
  simp [generateServerKeypair, randomScalar, draw, scalarOfBytes]

end Keys

end Verif.Aucpace
