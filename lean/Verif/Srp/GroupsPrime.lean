import Verif.Ecpp.Cert1024
import Verif.Ecpp.Cert1536
import Verif.Ecpp.Cert2048
import Verif.Ecpp.Cert3072
import Verif.Ecpp.Cert4096
import Verif.Ecpp.Cert6144
import Verif.Ecpp.Cert8192

/-!
# The built-in moduli are safe primes (C60)
-/

namespace Verif.Srp.Groups

/-- **C60 (safe primes).** For every built-in group `N` and `(N - 1) / 2` are prime and `g` generates the whole
multiplicative group modulo `N`: every nonzero residue is a power of `g`. -/
theorem C60_safe_primes : ∀ q ∈ [G_1024, G_1536, G_2048, G_3072, G_4096, G_6144, G_8192],
    q.n.Prime ∧ ((q.n - 1) / 2).Prime ∧ ∀ z : ZMod q.n, z ≠ 0 → ∃ i, z = (q.g : ZMod q.n) ^ i := by
  have key : ∀ bits q, (bits, q) ∈ builtin → ((q.n - 1) / 2).Prime →
      q.n.Prime ∧ ((q.n - 1) / 2).Prime ∧ ∀ z : ZMod q.n, z ≠ 0 → ∃ i, z = (q.g : ZMod q.n) ^ i := by
    intro bits q hq hp
    have := C11_builtin_generator _ hq hp
    exact ⟨this.1, hp, this.2⟩
  intro q hq
  simp only [List.mem_cons, List.not_mem_nil, or_false] at hq
  rcases hq with rfl | rfl | rfl | rfl | rfl | rfl | rfl
  · exact key 1024 _ (by simp [builtin]) Ecpp.Cert1024.half_prime
  · exact key 1536 _ (by simp [builtin]) Ecpp.Cert1536.half_prime
  · exact key 2048 _ (by simp [builtin]) Ecpp.Cert2048.half_prime
  · exact key 3072 _ (by simp [builtin]) Ecpp.Cert3072.half_prime
  · exact key 4096 _ (by simp [builtin]) Ecpp.Cert4096.half_prime
  · exact key 6144 _ (by simp [builtin]) Ecpp.Cert6144.half_prime
  · exact key 8192 _ (by simp [builtin]) Ecpp.Cert8192.half_prime

end Verif.Srp.Groups
