import Verif.Ristretto.Props

/-!
# A whole AuCPace login over ristretto255, evaluated in the model

Registration and login with a small password hasher made from SHA-512 and fixed generators. The key was computed
independently from the protocol description. A test of the definitions, and the case that shows the hypotheses of
`C59_agreement` to be met.
-/

namespace Verif.Ristretto
open Aucpace Aucpace.Run Aucpace.Spec
open Ed25519 (base rep_base mulK mulK_spec)

namespace RealRun

def salt : Bytes := ascii "BwcHBwcHBwcHBwcHBwcHBw"
def w : ℕ := 2646056347819890331171450587667618020917516521022546015398510416049160762195
def wx : ℕ := 213149153073915850910301256083236174434837251975160463173316710737678128393
def yy : ℕ := 6772123069087842057466510731910229013088375858013763295479141384445347860646
def ssid : Bytes :=
  [91, 23, 228, 118, 143, 19, 222, 90, 123, 76, 165, 14, 180, 240, 82, 219, 168, 129, 15, 176, 178, 234, 175,
   238, 250, 213, 107, 93, 35, 153, 156, 103, 192, 100, 87, 223, 215, 211, 137, 198, 163, 12, 201, 103, 213,
   205, 144, 79, 76, 137, 113, 92, 112, 72, 23, 98, 243, 126, 193, 103, 10, 67, 237, 209]
def prs : Bytes :=
  [70, 31, 77, 0, 97, 82, 247, 212, 94, 40, 114, 47, 253, 176, 126, 124, 54, 98, 219, 226, 213, 129, 157, 137,
   153, 106, 70, 84, 68, 166, 104, 37]
def seed : Bytes :=
  [144, 32, 87, 85, 107, 165, 86, 28, 6, 81, 183, 5, 126, 178, 177, 100, 20, 86, 135, 64, 214, 78, 51, 11, 122,
   139, 166, 10, 191, 247, 95, 43, 242, 188, 47, 173, 101, 78, 186, 214, 177, 217, 4, 184, 91, 203, 136, 58,
   100, 189, 209, 205, 144, 74, 78, 119, 212, 253, 158, 68, 207, 218, 136, 216]
def shared : Bytes :=
  [50, 234, 22, 77, 67, 164, 84, 90, 131, 226, 120, 43, 6, 224, 223, 41, 7, 88, 66, 69, 66, 174, 186, 50, 110,
   31, 42, 138, 209, 46, 3, 17]
def key : Bytes :=
  [138, 18, 255, 194, 198, 162, 91, 79, 72, 59, 58, 170, 44, 240, 55, 169, 34, 72, 112, 162, 179, 109, 23, 91,
   160, 188, 114, 213, 235, 113, 227, 141, 191, 245, 61, 119, 16, 165, 57, 58, 181, 187, 140, 189, 216, 74,
   177, 238, 88, 239, 150, 38, 161, 231, 107, 228, 238, 110, 97, 206, 100, 184, 223, 250]

/-- The database after the registration. -/
noncomputable def db : Database RPoint where
  lookupVerifier u := if u = World.user then some ((w : Scalar) • ristretto255.base, salt, ascii "ln=1") else none

theorem scalar_eq : pwScalar World.hasher World.user World.pass salt () = .ok (w : Scalar) := by decide +kernel

theorem registered : Run.register ristretto255 World.hasher Rng.replay .alloc (World.bytes 7 16) World.user World.pass () =
    .ok (.registration World.user salt (ascii "ln=1") ((w : Scalar) • ristretto255.base), []) := by
  have hs : Base64.encode (Rng.replay.fill (World.bytes 7 16) 16).1 = salt := by decide +kernel
  have hr : (Rng.replay.fill (World.bytes 7 16) 16).2 = [] := by decide +kernel
  rw [register_eq, if_pos (by trivial), hs, hr, scalar_eq]
  rfl

theorem compress_base (n : ℕ) :
    ristretto255.compress ((n : Scalar) • ristretto255.base) = mulK n Ed25519.baseX Ed25519.baseY 1 encK := by
  rw [Nat.cast_smul_eq_nsmul]
  exact compress_smul_base n

theorem compress_mapped (n : ℕ) (b : Bytes) :
    ristretto255.compress ((n : Scalar) • ristretto255.fromUniform b) =
      fromUniformK b fun X Y Z => mulK n X Y Z encK := by
  rw [Nat.cast_smul_eq_nsmul]
  obtain ⟨X, Y, Z, P, hP, hk, hr, hf⟩ := fromUniformK_spec b
  obtain ⟨X', Y', Z', hk', hr'⟩ := mulK_spec n hr
  rw [hk, hk', encK_spec hr' (even.nsmul_mem hP n), ← mk_nsmul]
  exact congrArg (fun g => compress (n • g)) hf

theorem mapped_ne_zero : ristretto255.fromUniform seed ≠ 0 := by
  intro h
  have hc := compress_mapped yy seed
  rw [h, smul_zero] at hc
  have h0 : ristretto255.compress 0 = List.replicate 32 0 := compress_zero
  rw [h0] at hc
  exact absurd hc (by decide +kernel)

/-- The honest login succeeds with the expected key on both sides. -/
theorem login : Run.login ristretto255 sha512 World.hasher Rng.replay Rng.replay
    (Run.explicit ristretto255 sha512 Rng.replay Rng.replay) (fun _ => ()) (.fixed 12) db none (.nonces 16) World.user
    World.pass (ascii "ci") (World.bytes 2 100) World.server (World.bytes 3 200) (World.bytes 4 100) =
      .ok (key, key) := by
  obtain ⟨w', hw', -, hl⟩ := C32_agreement ristretto255 sha512 World.hasher Rng.replay Rng.replay Rng.replay rfl .alloc
    (.fixed 12) _ _ _ _ _ _ _ _ registered db (by rw [db]; simp) none (by simp) (fun _ => ()) rfl (by decide)
    (.nonces 16) trivial (ascii "ci") (World.bytes 2 100) (World.bytes 4 100) World.server (World.bytes 3 200)
  rw [smul_base_inj] at hw'
  subst hw'
  rw [hl]
  have hssid : ssidOf sha512 Rng.replay Rng.replay (.nonces 16) (World.bytes 2 100) World.server = ssid := by
    decide +kernel
  have hx : (serverX (G := RPoint) Rng.replay none World.user (World.bytes 3 200)).1 ≠ 0 := by
    rw [serverX]; decide +kernel
  have hwx : (w : Scalar) * (serverX (G := RPoint) Rng.replay none World.user (World.bytes 3 200)).1 = (wx : ℕ) := by
    rw [serverX]; decide +kernel
  have hya : draw (Rng.replay.fill (serverX (G := RPoint) Rng.replay none World.user (World.bytes 3 200)).2 64).1 ≠ 0 := by
    rw [serverX]; decide +kernel
  have hyb : draw (Rng.replay.fill (World.bytes 4 100) 64).1 ≠ 0 := by decide +kernel
  have hyy : draw (Rng.replay.fill (serverX (G := RPoint) Rng.replay none World.user (World.bytes 3 200)).2 64).1 *
      draw (Rng.replay.fill (World.bytes 4 100) 64).1 = (yy : ℕ) := by
    rw [serverX]; decide +kernel
  have hprs : mulK wx Ed25519.baseX Ed25519.baseY 1 encK = prs := by decide +kernel
  have hg : gen ristretto255 sha512 ssid prs (ascii "ci") = ristretto255.fromUniform seed := by
    rw [gen]
    exact congrArg ristretto255.fromUniform (by decide +kernel)
  have hK : (fromUniformK seed fun X Y Z => mulK yy X Y Z encK) = shared := by decide +kernel
  have hkey : sk sha512 ssid (Hn sha512 2 (ssid ++ shared)) = key := by decide +kernel
  rw [hssid, hwx, compress_base, hprs, hg, hyy, Spec.sk1, compress_mapped, hK, hkey, if_neg]
  rw [not_or, not_or, smul_eq_zero, smul_eq_zero]
  exact ⟨hx, not_or.2 ⟨hya, mapped_ne_zero⟩, not_or.2 ⟨hyb, mapped_ne_zero⟩⟩

end RealRun

end Verif.Ristretto
