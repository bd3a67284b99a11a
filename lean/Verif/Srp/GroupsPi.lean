import Verif.Basic.Pi
import Verif.Srp.Groups

/-!
# The large built-in moduli are the published ones (C70)
-/

set_option Elab.async false

namespace Verif.Srp.Groups

/-- The middle digits of a modulus of this form. -/
def middle (bits c n : Nat) : Nat := (n + 2 ^ (bits - 64) + 1 - 2 ^ bits) / 2 ^ 64 - c

theorem of_digits {bits c n k l : Nat} (h : Pi.Digits (bits - 130) (middle bits c n) k l)
    (hn : n + 2 ^ (bits - 64) + 1 = 2 ^ bits + 2 ^ 64 * (middle bits c n + c)) :
    (n : ℤ) = 2 ^ bits - 2 ^ (bits - 64) - 1 + 2 ^ 64 * (⌊(2 : ℝ) ^ (bits - 130) * Real.pi⌋ + c) := by
  rw [Pi.floor_pi h]
  have : (n : ℤ) + 2 ^ (bits - 64) + 1 = 2 ^ bits + 2 ^ 64 * (middle bits c n + c) := by exact_mod_cast hn
  linarith

/-- **C70.** The moduli with 3072 to 8192 bits are the numbers that RFC 3526 (to which RFC 5054 refers) defines through the
binary digits of `π`, so they cannot have been chosen to contain a trapdoor, and no bit of the embedded files is wrong. -/
theorem C70_moduli : ∀ q ∈ [(3072, 1690314, G_3072), (4096, 240904, G_4096), (6144, 929484, G_6144), (8192, 4743158, G_8192)],
    (q.2.2.n : ℤ) = 2 ^ q.1 - 2 ^ (q.1 - 64) - 1 + 2 ^ 64 * (⌊(2 : ℝ) ^ (q.1 - 130) * Real.pi⌋ + q.2.1) := by
  intro q hq
  simp only [List.mem_cons, List.not_mem_nil, or_false] at hq
  rcases hq with rfl | rfl | rfl | rfl
  · exact of_digits (k := 330) (l := 110) (by decide +kernel) (by decide +kernel)
  · exact of_digits (k := 450) (l := 140) (by decide +kernel) (by decide +kernel)
  · exact of_digits (k := 670) (l := 200) (by decide +kernel) (by decide +kernel)
  · exact of_digits (k := 890) (l := 270) (by decide +kernel) (by decide +kernel)

end Verif.Srp.Groups
