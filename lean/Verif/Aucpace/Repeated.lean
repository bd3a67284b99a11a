import Verif.Aucpace.PropsMisc

/-!
# C90 (AuCPace): what a repeated blinding value gives away
-/

set_option linter.unusedSectionVars false

namespace Verif.Aucpace
open Spec

variable {G : Type} [AddCommGroup G] [Module Scalar G] [DecidableEq G] (R : Ristretto G) (D : Digest)

/-- **C90 (AuCPace, linking).** Two strong clients that blind with the same value send the same point exactly if the points of
their credentials are the same; then the credentials are the same, up to the missing separator (C47), or a collision of the map
to the group is named. -/
theorem C90_blinded (st st' : Client.PreAug) (user pass user' pass' : Bytes) (r : Scalar) (hr : r ≠ 0) {U U' : G}
    (h : (Client.startAugmentationStrongWith R D st user pass r).2 = .strongUsername user U)
    (h' : (Client.startAugmentationStrongWith R D st' user' pass' r).2 = .strongUsername user' U') :
    (U = U' ↔ strongPoint R D user pass = strongPoint R D user' pass') ∧
    (U = U' → user ++ pass = user' ++ pass' ∨ MapCollision R D (user ++ pass) (user' ++ pass')) := by
  simp only [Client.startAugmentationStrongWith, strongPoint_eq, mul_one,
    ClientMessage.strongUsername.injEq, true_and] at h h'
  subst h h'
  have hinj : ∀ {P Q : G}, r • P = r • Q → P = Q := fun {P Q} e => by
    rw [← one_smul Scalar P, ← one_smul Scalar Q, ← inv_mul_cancel₀ hr, mul_smul, mul_smul, e]
  refine ⟨⟨hinj, fun e => by rw [e]⟩, fun e => ?_⟩
  by_cases hc : user ++ pass = user' ++ pass'
  · exact Or.inl hc
  · exact Or.inr ⟨hc, hinj e⟩

/-- Alice with two passwords and the blinding value 7: two different points. -/
example : ∃ U U' : Scalar,
    (Client.startAugmentationStrongWith Ristretto.toy sha512 ⟨[1]⟩ "alice".toUTF8.toList "pw".toUTF8.toList 7).2 =
      .strongUsername "alice".toUTF8.toList U ∧
    (Client.startAugmentationStrongWith Ristretto.toy sha512 ⟨[2]⟩ "alice".toUTF8.toList "pq".toUTF8.toList 7).2 =
      .strongUsername "alice".toUTF8.toList U' ∧ U ≠ U' := by
  refine ⟨_, _, rfl, rfl, ?_⟩
  decide +kernel

end Verif.Aucpace
