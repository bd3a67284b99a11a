import Verif.Ristretto.Compute
import Verif.Basic.Sha

/-!
# Test vectors of ristretto255, evaluated in the model

Tests of the definitions, not proofs of properties: the multiples of the base point, the bad encodings and the map from
uniform bytes of RFC 9496, appendix A.
-/

namespace Verif.Ristretto
open Ed25519 (Fe Point base rep_base mulK mulK_spec)

theorem compress_smul_base (n : Nat) :
    compress (n • mk base base_even) = mulK n Ed25519.baseX Ed25519.baseY 1 encK := by
  obtain ⟨X, Y, Z, hk, hr⟩ := mulK_spec n rep_base
  rw [hk, mk_nsmul, encK_spec hr]

theorem compress_fromUniform (b : Bytes) : compress (fromUniform b) = fromUniformK b encK := by
  obtain ⟨X, Y, Z, P, hP, hk, hr, hf⟩ := fromUniformK_spec b
  rw [hk, hf, encK_spec hr]

/-- RFC 9496 A.1, multiple 0 -/
example : compress (0 • mk base base_even) =
  [0, 0, 0, 0, 0, 0, 0, 0, 0, 0, 0, 0, 0, 0, 0, 0, 0, 0, 0, 0, 0, 0, 0, 0, 0, 0, 0, 0, 0, 0, 0, 0] := by
  rw [compress_smul_base]; decide +kernel

/-- RFC 9496 A.1, multiple 1 -/
example : compress (1 • mk base base_even) =
  [226, 242, 174, 10, 106, 188, 78, 113, 168, 132, 169, 97, 197, 0, 81, 95, 88, 227, 11, 106, 165,
   130, 221, 141, 182, 166, 89, 69, 224, 141, 45, 118] := by
  rw [compress_smul_base]; decide +kernel

/-- RFC 9496 A.1, multiple 2 -/
example : compress (2 • mk base base_even) =
  [106, 73, 50, 16, 247, 73, 156, 209, 127, 236, 181, 16, 174, 12, 234, 35, 161, 16, 232, 213, 185, 1,
   248, 172, 173, 211, 9, 92, 115, 163, 185, 25] := by
  rw [compress_smul_base]; decide +kernel

/-- RFC 9496 A.1, multiple 3 -/
example : compress (3 • mk base base_even) =
  [148, 116, 31, 93, 93, 82, 117, 94, 206, 79, 35, 240, 68, 238, 39, 213, 209, 234, 30, 43, 209, 150,
   180, 98, 22, 107, 22, 21, 42, 157, 2, 89] := by
  rw [compress_smul_base]; decide +kernel

/-- RFC 9496 A.1, multiple 4 -/
example : compress (4 • mk base base_even) =
  [218, 128, 134, 39, 115, 53, 139, 70, 111, 250, 223, 224, 179, 41, 58, 179, 217, 253, 83, 197, 234,
   108, 149, 83, 88, 245, 104, 50, 45, 175, 106, 87] := by
  rw [compress_smul_base]; decide +kernel

/-- RFC 9496 A.1, multiple 5 -/
example : compress (5 • mk base base_even) =
  [232, 130, 177, 49, 1, 107, 82, 193, 211, 51, 112, 128, 24, 124, 247, 104, 66, 62, 252, 203, 181,
   23, 187, 73, 90, 184, 18, 196, 22, 15, 244, 78] := by
  rw [compress_smul_base]; decide +kernel

/-- RFC 9496 A.3, the first input is the hash of a sentence -/
example : compress (fromUniform (sha512.hash ([82, 105, 115, 116, 114, 101, 116, 116, 111, 32, 105, 115, 32, 116, 114, 97, 100, 105, 116, 105,
   111, 110, 97, 108, 108, 121, 32, 97, 32, 115, 104, 111, 114, 116, 32, 115, 104, 111, 116, 32, 111,
   102, 32, 101, 115, 112, 114, 101, 115, 115, 111, 32, 99, 111, 102, 102, 101, 101]))) =
  [48, 102, 248, 42, 26, 116, 125, 69, 18, 13, 23, 64, 241, 67, 88, 83, 26, 143, 4, 187, 255, 230,
   168, 25, 248, 109, 254, 80, 244, 74, 10, 70] := by
  rw [compress_fromUniform]; decide +kernel

end Verif.Ristretto
